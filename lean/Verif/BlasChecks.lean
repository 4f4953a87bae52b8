import Verif.BlasTables
/-
The kernels and specialisations in the tables pass the checks of `Kernel` and `Blas`.  The checks are run by the kernel of Lean; that they imply
the properties for all fields is proved in `Blas` and `BlasProps`.
-/
-- one check at a time, for the sake of memory
set_option Elab.async false
namespace Verif.Blas
open Verif Outcome Verif.Poly Verif.Kernel Verif.Blas.Tables

/-! ## the tables pass the checks -/

/-- for each specialisation in turn: its kernel does not look beyond its arrays -/
def flags : List Bool := [true, true, true, true, true, true, true, true, true, true, true, true, true, true, true, true, true, true, true, true, true, true, true, true, true, true, true, true, true, true, true, true, true, true, true, true, true, true, true, true, true, true, true, true, true, true, true, true, true, true, true, false, true, false, true, false, true, false, true, false, true, false, true, false, true, true, true, true, true, false, true, false, true, true, true, true, true, true, true, true, true, true, true]

/-- the specialisations whose kernel does not look beyond its arrays -/
def tidy : List Entry := ((entries.zip flags).filter (·.2)).map (·.1)

/-- the check of both uses of a specialisation -/
def flag (e : Entry) : Bool := checkUse e.op e.rhs e.cplx 0 e.ordered && checkUse e.op e.rhs e.cplx 0 e.unordered

-- entry by entry, so that the memory of one check is free again for the next
set_option maxRecDepth 100000 in
private theorem e00_flag : flag e00 = true := by decide +kernel

set_option maxRecDepth 100000 in
private theorem e01_flag : flag e01 = true := by decide +kernel

set_option maxRecDepth 100000 in
private theorem e02_flag : flag e02 = true := by decide +kernel

set_option maxRecDepth 100000 in
private theorem e03_flag : flag e03 = true := by decide +kernel

set_option maxRecDepth 100000 in
private theorem e04_flag : flag e04 = true := by decide +kernel

set_option maxRecDepth 100000 in
private theorem e05_flag : flag e05 = true := by decide +kernel

set_option maxRecDepth 100000 in
private theorem e06_flag : flag e06 = true := by decide +kernel

set_option maxRecDepth 100000 in
private theorem e07_flag : flag e07 = true := by decide +kernel

set_option maxRecDepth 100000 in
private theorem e08_flag : flag e08 = true := by decide +kernel

set_option maxRecDepth 100000 in
private theorem e09_flag : flag e09 = true := by decide +kernel

set_option maxRecDepth 100000 in
private theorem e10_flag : flag e10 = true := by decide +kernel

set_option maxRecDepth 100000 in
private theorem e11_flag : flag e11 = true := by decide +kernel

set_option maxRecDepth 100000 in
private theorem e12_flag : flag e12 = true := by decide +kernel

set_option maxRecDepth 100000 in
private theorem e13_flag : flag e13 = true := by decide +kernel

set_option maxRecDepth 100000 in
private theorem e14_flag : flag e14 = true := by decide +kernel

set_option maxRecDepth 100000 in
private theorem e15_flag : flag e15 = true := by decide +kernel

set_option maxRecDepth 100000 in
private theorem e16_flag : flag e16 = true := by decide +kernel

set_option maxRecDepth 100000 in
private theorem e17_flag : flag e17 = true := by decide +kernel

set_option maxRecDepth 100000 in
private theorem e18_flag : flag e18 = true := by decide +kernel

set_option maxRecDepth 100000 in
private theorem e19_flag : flag e19 = true := by decide +kernel

set_option maxRecDepth 100000 in
private theorem e20_flag : flag e20 = true := by decide +kernel

set_option maxRecDepth 100000 in
private theorem e21_flag : flag e21 = true := by decide +kernel

set_option maxRecDepth 100000 in
private theorem e22_flag : flag e22 = true := by decide +kernel

set_option maxRecDepth 100000 in
private theorem e23_flag : flag e23 = true := by decide +kernel

set_option maxRecDepth 100000 in
private theorem e24_flag : flag e24 = true := by decide +kernel

set_option maxRecDepth 100000 in
private theorem e25_flag : flag e25 = true := by decide +kernel

set_option maxRecDepth 100000 in
private theorem e26_flag : flag e26 = true := by decide +kernel

set_option maxRecDepth 100000 in
private theorem e27_flag : flag e27 = true := by decide +kernel

set_option maxRecDepth 100000 in
private theorem e28_flag : flag e28 = true := by decide +kernel

set_option maxRecDepth 100000 in
private theorem e29_flag : flag e29 = true := by decide +kernel

set_option maxRecDepth 100000 in
private theorem e30_flag : flag e30 = true := by decide +kernel

set_option maxRecDepth 100000 in
private theorem e31_flag : flag e31 = true := by decide +kernel

set_option maxRecDepth 100000 in
private theorem e32_flag : flag e32 = true := by decide +kernel

set_option maxRecDepth 100000 in
private theorem e33_flag : flag e33 = true := by decide +kernel

set_option maxRecDepth 100000 in
private theorem e34_flag : flag e34 = true := by decide +kernel

set_option maxRecDepth 100000 in
private theorem e35_flag : flag e35 = true := by decide +kernel

set_option maxRecDepth 100000 in
private theorem e36_flag : flag e36 = true := by decide +kernel

set_option maxRecDepth 100000 in
private theorem e37_flag : flag e37 = true := by decide +kernel

set_option maxRecDepth 100000 in
private theorem e38_flag : flag e38 = true := by decide +kernel

set_option maxRecDepth 100000 in
private theorem e39_flag : flag e39 = true := by decide +kernel

set_option maxRecDepth 100000 in
private theorem e40_flag : flag e40 = true := by decide +kernel

set_option maxRecDepth 100000 in
private theorem e41_flag : flag e41 = true := by decide +kernel

set_option maxRecDepth 100000 in
private theorem e42_flag : flag e42 = true := by decide +kernel

set_option maxRecDepth 100000 in
private theorem e43_flag : flag e43 = true := by decide +kernel

set_option maxRecDepth 100000 in
private theorem e44_flag : flag e44 = true := by decide +kernel

set_option maxRecDepth 100000 in
private theorem e45_flag : flag e45 = true := by decide +kernel

set_option maxRecDepth 100000 in
private theorem e46_flag : flag e46 = true := by decide +kernel

set_option maxRecDepth 100000 in
private theorem e47_flag : flag e47 = true := by decide +kernel

set_option maxRecDepth 100000 in
private theorem e48_flag : flag e48 = true := by decide +kernel

set_option maxRecDepth 100000 in
private theorem e49_flag : flag e49 = true := by decide +kernel

set_option maxRecDepth 100000 in
private theorem e50_flag : flag e50 = true := by decide +kernel

set_option maxRecDepth 100000 in
private theorem e51_flag : flag e51 = false := by decide +kernel

set_option maxRecDepth 100000 in
private theorem e52_flag : flag e52 = true := by decide +kernel

set_option maxRecDepth 100000 in
private theorem e53_flag : flag e53 = false := by decide +kernel

set_option maxRecDepth 100000 in
private theorem e54_flag : flag e54 = true := by decide +kernel

set_option maxRecDepth 100000 in
private theorem e55_flag : flag e55 = false := by decide +kernel

set_option maxRecDepth 100000 in
private theorem e56_flag : flag e56 = true := by decide +kernel

set_option maxRecDepth 100000 in
private theorem e57_flag : flag e57 = false := by decide +kernel

set_option maxRecDepth 100000 in
private theorem e58_flag : flag e58 = true := by decide +kernel

set_option maxRecDepth 100000 in
private theorem e59_flag : flag e59 = false := by decide +kernel

set_option maxRecDepth 100000 in
private theorem e60_flag : flag e60 = true := by decide +kernel

set_option maxRecDepth 100000 in
private theorem e61_flag : flag e61 = false := by decide +kernel

set_option maxRecDepth 100000 in
private theorem e62_flag : flag e62 = true := by decide +kernel

set_option maxRecDepth 100000 in
private theorem e63_flag : flag e63 = false := by decide +kernel

set_option maxRecDepth 100000 in
private theorem e64_flag : flag e64 = true := by decide +kernel

set_option maxRecDepth 100000 in
private theorem e65_flag : flag e65 = true := by decide +kernel

set_option maxRecDepth 100000 in
private theorem e66_flag : flag e66 = true := by decide +kernel

set_option maxRecDepth 100000 in
private theorem e67_flag : flag e67 = true := by decide +kernel

set_option maxRecDepth 100000 in
private theorem e68_flag : flag e68 = true := by decide +kernel

set_option maxRecDepth 100000 in
private theorem e69_flag : flag e69 = false := by decide +kernel

set_option maxRecDepth 100000 in
private theorem e70_flag : flag e70 = true := by decide +kernel

set_option maxRecDepth 100000 in
private theorem e71_flag : flag e71 = false := by decide +kernel

set_option maxRecDepth 100000 in
private theorem e72_flag : flag e72 = true := by decide +kernel

set_option maxRecDepth 100000 in
private theorem e73_flag : flag e73 = true := by decide +kernel

set_option maxRecDepth 100000 in
private theorem e74_flag : flag e74 = true := by decide +kernel

set_option maxRecDepth 100000 in
private theorem e75_flag : flag e75 = true := by decide +kernel

set_option maxRecDepth 100000 in
private theorem e76_flag : flag e76 = true := by decide +kernel

set_option maxRecDepth 100000 in
private theorem e77_flag : flag e77 = true := by decide +kernel

set_option maxRecDepth 100000 in
private theorem e78_flag : flag e78 = true := by decide +kernel

set_option maxRecDepth 100000 in
private theorem e79_flag : flag e79 = true := by decide +kernel

set_option maxRecDepth 100000 in
private theorem e80_flag : flag e80 = true := by decide +kernel

set_option maxRecDepth 100000 in
private theorem e81_flag : flag e81 = true := by decide +kernel

set_option maxRecDepth 100000 in
private theorem e82_flag : flag e82 = true := by decide +kernel

theorem flags_eq : entries.map (fun e => checkUse e.op e.rhs e.cplx 0 e.ordered && checkUse e.op e.rhs e.cplx 0 e.unordered) = flags := by
  change entries.map flag = flags
  simp only [entries, flags, List.map_cons, List.map_nil, e00_flag, e01_flag, e02_flag, e03_flag, e04_flag, e05_flag, e06_flag, e07_flag, e08_flag,
    e09_flag, e10_flag, e11_flag, e12_flag, e13_flag, e14_flag, e15_flag, e16_flag, e17_flag, e18_flag, e19_flag, e20_flag, e21_flag, e22_flag,
    e23_flag, e24_flag, e25_flag, e26_flag, e27_flag, e28_flag, e29_flag, e30_flag, e31_flag, e32_flag, e33_flag, e34_flag, e35_flag, e36_flag,
    e37_flag, e38_flag, e39_flag, e40_flag, e41_flag, e42_flag, e43_flag, e44_flag, e45_flag, e46_flag, e47_flag, e48_flag, e49_flag, e50_flag,
    e51_flag, e52_flag, e53_flag, e54_flag, e55_flag, e56_flag, e57_flag, e58_flag, e59_flag, e60_flag, e61_flag, e62_flag, e63_flag, e64_flag,
    e65_flag, e66_flag, e67_flag, e68_flag, e69_flag, e70_flag, e71_flag, e72_flag, e73_flag, e74_flag, e75_flag, e76_flag, e77_flag, e78_flag,
    e79_flag, e80_flag, e81_flag, e82_flag]

theorem tidy_count : entries.length = 83 ∧ tidy.length = 74 := ⟨rfl, rfl⟩

theorem tidy_sub {e : Entry} (he : e ∈ tidy) : e ∈ entries := by
  obtain ⟨p, hp, rfl⟩ := List.mem_map.1 he
  exact (List.of_mem_zip (List.mem_filter.1 hp).1).1

theorem tidy_check {e : Entry} (he : e ∈ tidy) (f : Form) : checkUse e.op e.rhs e.cplx 0 (e.use f) = true := by
  obtain ⟨p, hp, rfl⟩ := List.mem_map.1 he
  obtain ⟨hz, ht⟩ := List.mem_filter.1 hp
  rw [← flags_eq] at hz
  obtain ⟨k, hk, rfl⟩ := List.getElem_of_mem hz
  rw [List.getElem_zip, List.getElem_map] at ht ⊢
  simp only [Bool.and_eq_true] at ht
  cases f
  · exact ht.1
  · exact ht.2

/-! ## looking beyond the arrays -/

/-- position of a `pull` in the body that is beyond the array in the last round -/
def badPull (K : Kern) : Option Nat :=
  (List.range K.body.length).find? fun i =>
    match pexec polyOps sX sY sS 24 0 (K.body.take i) ⟨List.replicate K.nreg none, 0, 0, 0, []⟩, K.body[i]? with
    | ok s1, some (.pull _ .x k) => Nat.ble 24 (s1.cx + k)
    | ok s1, some (.pull _ .y k) => Nat.ble 24 (s1.cy + k)
    | _, _ => false

/-- such a kernel, correct but for that -/
def pullCheck (K : Kern) : Bool :=
  checkRun K 2 (specOf K 2) && (specOf K 2).length == 24 && K.sub == 0 && K.usesY && K.pre.isEmpty && (badPull K).isSome

set_option maxRecDepth 100000 in
theorem rest_check : (entries.zip flags).all (fun p => p.2 || (checkUse p.1.op p.1.rhs p.1.cplx 2 p.1.ordered && checkUse p.1.op p.1.rhs p.1.cplx 2 p.1.unordered &&
    (pullCheck p.1.ordered.kern && pullCheck p.1.unordered.kern))) = true := by
  decide +kernel

theorem untidy_check {e : Entry} (he : e ∈ entries) (hu : e ∉ tidy) :
    (∀ f, checkUse e.op e.rhs e.cplx 2 (e.use f) = true) ∧ pullCheck e.ordered.kern = true ∧ pullCheck e.unordered.kern = true := by
  have hm : (e, false) ∈ entries.zip flags := by
    obtain ⟨k, hk, rfl⟩ := List.getElem_of_mem he
    have hk' : k < (entries.zip flags).length := hk
    have hz : (entries.zip flags)[k] ∈ entries.zip flags := List.getElem_mem hk'
    rw [List.getElem_zip] at hz
    revert hz
    have hkf : k < flags.length := hk
    cases hb : flags[k]'hkf with
    | false => exact fun hz => hz
    | true =>
      intro hz
      exact absurd (List.mem_map.2 ⟨_, List.mem_filter.2 ⟨hz, rfl⟩, rfl⟩) hu
  have := List.all_eq_true.1 rest_check _ hm
  simp only [Bool.false_or, Bool.and_eq_true] at this
  refine ⟨fun f => ?_, this.2⟩
  cases f
  · exact this.1.1
  · exact this.1.2

/-! ## cases -/

/-- `y += a * x` -/
theorem e00_tidy : e00 ∈ tidy := List.mem_map.2 ⟨(e00, true), List.mem_filter.2 ⟨by simp [entries, flags], rfl⟩, rfl⟩

/-- `y += a * chiralProjectPlus(x)` -/
theorem e51_untidy : e51 ∈ entries ∧ e51 ∉ tidy :=
  ⟨by simp [entries], fun h => absurd (tidy_check h (.ordered 0 0)) (by decide +kernel)⟩

end Verif.Blas
