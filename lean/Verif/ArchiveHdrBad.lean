import Verif.ArchiveHdrThm
import Mathlib.Data.List.Perm.Subperm
/-
C46: which headers `readArchivHeader` accepts.
-/
namespace Verif.ArchiveHdr
open Verif Outcome ByteOrder Verif.BinIO Verif.LatticeIO Verif.Subset

variable {D : Type}

/-! ## Specification -/

/-- the lines read one after another; no read but the last has failed -/
inductive Lines : Dev → List (List Byte) → Dev → Prop
  | last {d l f e} : readLine 128 d = ok (l, f, e) → Lines d [l] e
  | more {d l e ls e'} : readLine 128 d = ok (l, false, e) → Lines e ls e' → Lines d (l :: ls) e'

/-- the direction and the number of a line `DIMENSION_n = z` or `BOUNDARY_n = z` -/
def numbered (B : Dbl D) (k line : List Byte) : Option (Int × Int) :=
  match sscanf B (key k ([.d] ++ eqn .d)) line with
  | [.int dd, .int z] => some (dd, z)
  | _ => none

/-- a line with a key and a value of which the key is understood only with the values known -/
structure Understood (B : Dbl D) (l : List Byte) : Prop where
  key : token l ≠ []
  value : ∃ k v, l = k ++ 61 :: v ∧ (61 : Byte) ∉ k ∧ (token l = tDatatype → valueOf v = tSu3 ∨ valueOf v = tSu3x3) ∧
    (token l = tFloat → valueOf v = t32big ∨ valueOf v = t32 ∨ valueOf v = t64big)
  bound : ∀ dd z, numbered B tBound l = some (dd, z) → 1 ≤ dd ∧ dd ≤ 4

/-! ## Proof -/

theorem afterEq_some : ∀ {l t : List Byte}, afterEq l = some t → ∃ k, l = k ++ 61 :: t ∧ (61 : Byte) ∉ k
  | [], t, h => by simp [afterEq] at h
  | b :: l, t, h => by
    unfold afterEq at h
    split at h
    · next hb => cases h; exact ⟨[], by simp [hb], by simp⟩
    · next hb =>
      obtain ⟨k, h1, h2⟩ := afterEq_some h
      exact ⟨b :: k, by simp [h1], fun hm => by rcases List.mem_cons.1 hm with hm | hm; exacts [hb hm.symm, h2 hm]⟩

theorem hdrLine_ok {B : Dbl D} {l : List Byte} {st st' : Hdr D × Sizes} (h : hdrLine B l st = ok st') : Understood B l ∧ onDim B l st.2 = ok st'.2 := by
  unfold hdrLine at h
  split at h
  · cases h
  next htok =>
  split at h
  · cases h
  next t ht =>
  obtain ⟨h1, e1, h⟩ := bind_eq_ok.1 h
  obtain ⟨s, e2, h⟩ := bind_eq_ok.1 h
  obtain ⟨h2, e3, h⟩ := bind_eq_ok.1 h
  obtain ⟨h3, e4, h⟩ := bind_eq_ok.1 h
  cases h
  obtain ⟨k, hk, hn⟩ := afterEq_some ht
  refine ⟨⟨htok, ⟨k, t, hk, hn, fun ht => ?_, fun ht => ?_⟩, fun dd z hz => ?_⟩, e2⟩
  · rw [onDatatype, if_pos ht] at e1
    split at e1
    · next hv => exact .inr hv
    · split at e1
      · next hv => exact .inl hv
      · cases e1
  · rw [onFloat, if_pos ht] at e4
    split at e4
    · next hv => exact hv.elim .inl (fun h => .inr (.inl h))
    · split at e4
      · next hv => exact .inr (.inr hv)
      · cases e4
  · unfold numbered at hz
    unfold onBound at e3
    split at hz
    · next hs =>
      cases hz
      rw [hs] at e3
      dsimp only at e3
      split at e3
      · cases e3
      · omega
    · cases hz

theorem hdrLoop_ok {B : Dbl D} : ∀ {fuel : Nat} {st : Hdr D × Sizes} {f : Bool} {d : Dev} {q e}, hdrLoop B fuel st f d = ok (q, e) →
    f = false ∧ ∃ ls, Lines d (ls ++ [tEnd]) e ∧ tEnd ∉ ls ∧ foldO (fun st l => hdrLine B l st) st ls = ok q
  | 0, _, _, _, _, _, h => by simp [hdrLoop] at h
  | fuel + 1, st, f, d, q, e, h => by
    unfold hdrLoop at h
    split at h
    · cases h
    next hf =>
    obtain ⟨⟨l, f', d'⟩, e1, h⟩ := bind_eq_ok.1 h
    dsimp only at h
    refine ⟨by simpa using hf, ?_⟩
    split at h
    · next hl =>
      cases h
      exact ⟨[], .last (by rw [e1, hl]), by simp, rfl⟩
    · next hl =>
      obtain ⟨st', e2, h⟩ := bind_eq_ok.1 h
      obtain ⟨h1, ls, h2, h3, h4⟩ := hdrLoop_ok h
      subst h1
      refine ⟨l :: ls, .more e1 h2, by simp [h3, Ne.symm hl], ?_⟩
      rw [foldO, e2, ok_bind, h4]

theorem fold_ok {B : Dbl D} : ∀ {ls : List (List Byte)} {st q : Hdr D × Sizes}, foldO (fun st l => hdrLine B l st) st ls = ok q →
    (∀ l ∈ ls, Understood B l) ∧ foldO (fun s l => onDim B l s) st.2 ls = ok q.2
  | [], _, _, h => by cases h; exact ⟨by simp, rfl⟩
  | l :: ls, st, q, h => by
    obtain ⟨st', e, h⟩ := bind_eq_ok.1 h
    obtain ⟨h1, h2⟩ := fold_ok h
    obtain ⟨h3, h4⟩ := hdrLine_ok e
    refine ⟨fun x hx => ?_, ?_⟩
    · rcases List.mem_cons.1 hx with rfl | hx
      exacts [h3, h1 x hx]
    · rw [foldO, h4, ok_bind, h2]

theorem onDim_eq (B : Dbl D) (l : List Byte) (s : Sizes) : onDim B l s = match numbered B tDim l with
    | some (dd, z) => if dd < 1 ∨ dd > 4 then abort else ok (s.1.set (dd - 1).toNat (some z), s.2 + 1)
    | none => ok s := by
  unfold onDim numbered
  split
  · next hs => rw [hs]
  · next hs =>
    split
    · next hs' =>
      split at hs'
      · next h => exact absurd h (hs _ _)
      · cases hs'
    · rfl

/-- the sizes found: all directions are legal, they are counted, and what is stored was read -/
theorem dims_ok {B : Dbl D} : ∀ {ls : List (List Byte)} {s q : Sizes}, foldO (fun s l => onDim B l s) s ls = ok q →
    q.1.length = s.1.length ∧ q.2 = s.2 + (ls.filterMap (numbered B tDim)).length ∧
    (∀ p ∈ ls.filterMap (numbered B tDim), 1 ≤ p.1 ∧ p.1 ≤ 4) ∧
    ∀ (i : Nat) (z : Int), q.1[i]? = some (some z) → s.1[i]? = some (some z) ∨ (((i : Int) + 1, z) : Int × Int) ∈ ls.filterMap (numbered B tDim)
  | [], _, _, h => by cases h; simp
  | l :: ls, s, q, h => by
    obtain ⟨s', e, h⟩ := bind_eq_ok.1 h
    obtain ⟨h1, h2, h3, h4⟩ := dims_ok h
    dsimp only at e
    rw [onDim_eq] at e
    rcases hn : numbered B tDim l with _ | ⟨dd, z⟩
    · rw [hn] at e
      cases e
      rw [List.filterMap_cons_none hn]
      exact ⟨h1, h2, h3, h4⟩
    · rw [hn] at e
      dsimp only at e
      split at e
      · cases e
      next hdd =>
      cases e
      rw [List.filterMap_cons_some hn]
      refine ⟨by simpa using h1, by simp only [List.length_cons]; omega, ?_, ?_⟩
      · intro p hp
        rcases List.mem_cons.1 hp with rfl | hp
        · exact ⟨by dsimp only; omega, by dsimp only; omega⟩
        · exact h3 p hp
      · intro i w hw
        rcases h4 i w hw with h | h
        · dsimp only at h
          rw [List.getElem?_set] at h
          split at h
          · next hi =>
            split at h
            · have : w = z := by simpa using h.symm
              refine .inr (List.mem_cons.2 (.inl ?_))
              rw [this]
              congr 1
              omega
            · cases h
          · exact .inl h
        · exact .inr (List.mem_cons.2 (.inr h))

theorem checkSizes_ok : ∀ {s : List (Option Int)} {L : List Nat} {r : List Int}, checkSizes s L = ok r →
    r = L.map (fun l : Nat => (l : Int)) ∧ s = L.map (fun l : Nat => some (l : Int))
  | [], [], _, h => by cases h; exact ⟨rfl, rfl⟩
  | some z :: s, l :: L, r, h => by
    unfold checkSizes at h
    split at h
    · cases h
    next hz =>
    obtain ⟨r', e, h⟩ := bind_eq_ok.1 h
    cases h
    obtain ⟨h1, h2⟩ := checkSizes_ok e
    have hz : z = (l : Int) := not_not.1 hz
    subst hz
    exact ⟨by simp [h1], by simp [h2]⟩
  | none :: _, [], _, h => by simp [checkSizes] at h
  | none :: _, _ :: _, _, h => by simp [checkSizes] at h
  | some _ :: _, [], _, h => by simp [checkSizes] at h
  | [], _ :: _, _, h => by simp [checkSizes] at h

/-- C46: a header is accepted only if its first line is `BEGIN_HEADER`, a line `END_HEADER` follows before the file ends, every line between has a key
and an `=`, data type and size of numbers are ones the code knows, directions are 1 to 4, and the lattice sizes in it are those of the lattice, each
given exactly once.  The header returned says so. -/
theorem C46_accepts (B : Dbl D) (L : List Nat) (h0 h : Hdr D) (d e : Dev) (hr : readHdr B L h0 d = ok (h, e)) :
    L.length = 4 ∧ h.nrow = L.map (fun l : Nat => (l : Int)) ∧ ∃ ls, Lines d (tBegin :: ls ++ [tEnd]) e ∧ tEnd ∉ ls ∧ (∀ l ∈ ls, Understood B l) ∧
      (ls.filterMap (numbered B tDim)).Perm ((List.range 4).map fun i : Nat => ((i : Int) + 1, ((L.getD i 0 : Nat) : Int))) := by
  unfold readHdr at hr
  split at hr
  · cases hr
  next hL =>
  have hL : L.length = 4 := not_not.1 hL
  obtain ⟨⟨l0, f0, d0⟩, e0, hr⟩ := bind_eq_ok.1 hr
  dsimp only at hr
  split at hr
  · cases hr
  next hb =>
  have hb : l0 = tBegin := not_not.1 hb
  obtain ⟨⟨q, e'⟩, e1, hr⟩ := bind_eq_ok.1 hr
  dsimp only at hr
  split at hr
  · cases hr
  next h4 =>
  have h4 : q.2.2 = 4 := not_not.1 h4
  obtain ⟨nrow, e2, hr⟩ := bind_eq_ok.1 hr
  cases hr
  obtain ⟨hf, ls, g1, g2, g3⟩ := hdrLoop_ok e1
  obtain ⟨g4, g5⟩ := fold_ok g3
  obtain ⟨k1, k2, k3, k4⟩ := dims_ok g5
  obtain ⟨c1, c2⟩ := checkSizes_ok e2
  subst hf hb
  refine ⟨hL, c1, ls, .more e0 g1, g2, g4, ?_⟩
  have hsub : ((List.range 4).map fun i : Nat => (((i : Int) + 1, ((L.getD i 0 : Nat) : Int)) : Int × Int)) ⊆ ls.filterMap (numbered B tDim) := by
    intro p hp
    obtain ⟨i, hi, rfl⟩ := List.mem_map.1 hp
    have hi : i < 4 := List.mem_range.1 hi
    refine (k4 i (L.getD i 0 : Nat) ?_).resolve_left ?_
    · rw [c2, List.getElem?_map, List.getElem?_eq_getElem (by omega), List.getD_eq_getElem?_getD, List.getElem?_eq_getElem (by omega)]
      rfl
    · rw [List.getElem?_replicate]
      split <;> simp
  have hnd : ((List.range 4).map fun i : Nat => (((i : Int) + 1, ((L.getD i 0 : Nat) : Int)) : Int × Int)).Nodup := by
    refine List.Nodup.map (fun a b h => ?_) List.nodup_range
    have := (Prod.mk.inj h).1
    omega
  refine ((List.subperm_of_subset hnd hsub).perm_of_length_le ?_).symm
  simp only [List.length_map, List.length_range]
  dsimp only at k2
  omega

/-- the lines of a header that gives the size of direction 1 four times -/
def twiceLines (n : Nat) : List (List Byte) := List.replicate 4 (eqLine (tDim ++ showNat 10 (0 + 1)) (showNat 10 n))

/-- C46, refuted: a header that gives four sizes, but not one for every direction, is not refused: sizes that were never set are compared with those of
the lattice. -/
theorem C46_twice_refuted (B : Dbl D) (L : List Nat) (hL : L.length = 4) (hn : L.getD 0 0 < 2 ^ 31) :
    ∃ T : List Byte, ∀ d h0, d.Sees T → readHdr B L h0 d = ub := by
  obtain ⟨n0, n1, n2, n3, rfl⟩ : ∃ a b c e, L = [a, b, c, e] := by
    match L, hL with
    | [a, b, c, e], _ => exact ⟨a, b, c, e, rfl⟩
  have hn : n0 < 2 ^ 31 := hn
  refine ⟨(tBegin ++ [10]) ++ ((twiceLines n0).flatMap (· ++ [10]) ++ (tEnd ++ [10])), fun d h0 hd => ?_⟩
  have hg : ∀ l ∈ twiceLines n0, GoodLine l := by
    intro l hl
    rw [twiceLines] at hl
    rw [List.eq_of_mem_replicate hl]
    refine eqLine_good (CleanText.append (by unfold CleanText; decide) (show_clean 10 (.inl rfl) _)) (show_clean 10 (.inl rfl) _) ?_
    have h1 := show_length 10 10 n0 (.inl rfl) (by omega) (by omega)
    have h2 := show_length 10 1 (0 + 1) (.inl rfl) (by omega) (by omega)
    simp only [eqLine, List.length_append, tDim, tEq, List.length_cons, List.length_nil]
    omega
  have hf : foldO (fun st l => hdrLine B l st) ({ h0 with mat := 18 }, (List.replicate 4 none, 0)) (twiceLines n0) =
      ok ({ h0 with mat := 18 }, ([some (n0 : Int), none, none, none], 4)) := by
    refine (foldO_step (line_dim B 0 n0 (by omega) _ _)).trans ?_
    refine (foldO_step (line_dim B 0 n0 (by omega) _ _)).trans ?_
    refine (foldO_step (line_dim B 0 n0 (by omega) _ _)).trans ?_
    refine (foldO_step (line_dim B 0 n0 (by omega) _ _)).trans ?_
    rfl
  have hlen : 23 < d.data.length := by
    obtain ⟨t, ht⟩ := hd
    have := congrArg List.length ht
    rw [List.length_drop] at this
    simp [tBegin, tEnd] at this
    omega
  rw [readHdr, if_neg (by simp), readLine_eq 128 d tBegin (by decide) (by decide) (by decide) (Sees.left hd), ok_bind, if_neg (by simp),
    loop_lines B _ _ _ (d.data.length + 1) _ hg hf (by
      have : (twiceLines n0).length = 4 := rfl
      omega) (Sees.right hd), ok_bind, if_neg (by simp)]
  simp [checkSizes]

end Verif.ArchiveHdr
