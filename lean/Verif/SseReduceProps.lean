import Verif.SseReduceThm
/-
The norms and inner products of the library built for SSE are the sums over the subset if every thread has a site; the cells of the other threads are
added as they were.
-/
set_option linter.unusedSectionVars false
namespace Verif.SseReduce
open Verif Outcome Verif.Subset Verif.Sums Verif.GlobalSum Verif.Dispatch Verif.Site Verif.Su3 Verif.Reduce

/-! ## the threads -/

section
variable {M : Type} [AddCommGroup M]

/-- what thread `id` of `a` stores for `n` sites with the terms `g` -/
def part (g : Nat → M) (n a id : Nat) : M := ∑ j ∈ Finset.range (n * (id + 1) / a - n * id / a), g (n * id / a + j)

/-- the array after a loop over `n` sites -/
def stored (g : Nat → M) (n T : Nat) (res : List (Option M)) : List (Option M) :=
  res.mapIdx fun i x => if i < active n T then some (part g n (active n T) i) else x

theorem share_pos {n a id : Nat} (ha : 0 < a) (han : a ≤ n) : n * id / a < n * (id + 1) / a := by
  rw [Nat.mul_succ]
  have : n * id / a + 1 = (n * id + a) / a := by rw [Nat.add_div_right _ ha]
  have h2 : (n * id + a) / a ≤ (n * id + n) / a := Nat.div_le_div_right (by omega)
  omega

theorem share_le {n a id : Nat} (ha : 0 < a) (hid : id < a) : n * (id + 1) / a ≤ n := by
  have : n * (id + 1) ≤ n * a := Nat.mul_le_mul_left _ hid
  calc n * (id + 1) / a ≤ n * a / a := Nat.div_le_div_right this
    _ = n := Nat.mul_div_cancel _ ha

theorem sum_parts (g : Nat → M) {n a : Nat} (ha : 0 < a) (k : Nat) : ∑ id ∈ Finset.range k, part g n a id = ∑ j ∈ Finset.range (n * k / a), g j := by
  induction k with
  | zero => simp
  | succ k ih =>
    have hle : n * k / a ≤ n * (k + 1) / a := Nat.div_le_div_right (Nat.mul_le_mul_left _ (by omega))
    rw [Finset.sum_range_succ, ih, part, ← Finset.sum_range_add, Nat.add_sub_cancel' hle]

theorem threadsRun_eq {kern : Nat → Int → Outcome M} {g : Nat → M} {n T : Nat} (hn : 0 < n) (hT : 0 < T) (h24 : 24 * n < 2 ^ 31)
    (hk : ∀ lo m, 0 < m → lo + m ≤ n → kern (24 * lo) m = ok (∑ j ∈ Finset.range m, g (lo + j))) {ranges : List (Option (Nat × Nat))}
    (hr : ∀ id, id < T → ranges.getD id none = if id < active n T then some (n * id / active n T, n * (id + 1) / active n T) else none) :
    ∀ (order : List Nat) (res : List (Option M)), (∀ id ∈ order, id < T) → active n T ≤ res.length →
      ∃ res', threadsRun kern ranges order res = ok res' ∧ res'.length = res.length ∧
        ∀ i, res'[i]? = if i ∈ order ∧ i < active n T then some (some (part g n (active n T) i)) else res[i]?
  | [], res, _, _ => ⟨res, rfl, rfl, by simp⟩
  | id :: order, res, ho, hl => by
      have ha : 0 < active n T := by unfold active; omega
      have hT' : id < T := ho id (List.mem_cons_self ..)
      rw [threadsRun, hr id hT']
      by_cases hid : id < active n T
      · have hp := share_pos (id := id) ha (show active n T ≤ n by unfold active; omega)
        have hle := share_le (n := n) ha hid
        rw [if_pos hid]
        unfold threadFunc
        simp only
        rw [ckInt_of_lt (by omega), ok_bind, show ((n * (id + 1) / active n T : Nat) : Int) - (n * id / active n T : Nat) =
            ((n * (id + 1) / active n T - n * id / active n T : Nat) : Int) by omega, hk _ _ (by omega) (by omega), ok_bind]
        unfold setCell
        rw [if_pos (by omega), ok_bind]
        obtain ⟨res', h1, h2, h3⟩ := threadsRun_eq hn hT h24 hk hr order (res.set id (some (part g n (active n T) id)))
          (fun k hk => ho k (List.mem_cons_of_mem _ hk)) (by simpa using hl)
        refine ⟨res', h1, by simpa using h2, ?_⟩
        intro i
        rw [h3]
        by_cases hi : i = id
        · subst hi
          rw [if_pos (⟨List.mem_cons_self .., hid⟩ : i ∈ i :: order ∧ i < active n T)]
          by_cases hm : i ∈ order
          · rw [if_pos ⟨hm, hid⟩]
          · rw [if_neg (fun h => hm h.1), List.getElem?_set_self (by omega)]
        · have e : (i ∈ id :: order ∧ i < active n T) ↔ (i ∈ order ∧ i < active n T) := by
            simp [List.mem_cons, hi]
          simp only [e]
          by_cases hm : i ∈ order ∧ i < active n T
          · rw [if_pos hm, if_pos hm]
          · rw [if_neg hm, if_neg hm, List.getElem?_set_ne (by omega)]
      · rw [if_neg hid]
        unfold threadFunc
        simp only
        rw [ok_bind]
        obtain ⟨res', h1, h2, h3⟩ := threadsRun_eq hn hT h24 hk hr order res (fun k hk => ho k (List.mem_cons_of_mem _ hk)) hl
        refine ⟨res', h1, h2, ?_⟩
        intro i
        rw [h3]
        by_cases hi : i = id
        · subst hi
          rw [if_neg (fun h => hid h.2), if_neg (fun h => hid h.2)]
        · simp [List.mem_cons, hi]

theorem addCells_append (res : List (Option M)) : ∀ (l l' : List Nat) (v : M), addCells res (l ++ l') v = (do let v ← addCells res l v; addCells res l' v)
  | [], l', v => rfl
  | i :: l, l', v => by
      simp only [List.cons_append, addCells]
      cases h : cell res i with
      | ok x => rw [ok_bind, ok_bind, addCells_append res l l']
      | ub => rfl
      | abort => rfl

theorem addCells_known {res : List (Option M)} {f : Nat → M} : ∀ (m k : Nat) (v : M), (∀ i, k ≤ i → i < k + m → cell res i = ok (f i)) →
    addCells res (List.range' k m) v = ok (v + ∑ j ∈ Finset.range m, f (k + j))
  | 0, k, v, _ => by simp [addCells]
  | m + 1, k, v, h => by
      rw [List.range'_succ, addCells, h k (by omega) (by omega), ok_bind, addCells_known m (k + 1) _ fun i h1 h2 => h i (by omega) (by omega)]
      rw [Finset.sum_range_succ' _ m, add_zero]
      have e : ∑ j ∈ Finset.range m, f (k + (j + 1)) = ∑ j ∈ Finset.range m, f (k + 1 + j) := Finset.sum_congr rfl fun j _ => by
        rw [show k + (j + 1) = k + 1 + j by omega]
      rw [e]
      congr 1
      abel

theorem addCells_congr {res res' : List (Option M)} : ∀ (l : List Nat) (v : M), (∀ i ∈ l, cell res i = cell res' i) → addCells res l v = addCells res' l v
  | [], _, _ => rfl
  | i :: l, v, h => by
      rw [addCells, addCells, h i (List.mem_cons_self ..)]
      cases cell res' i with
      | ok x => exact addCells_congr l _ fun j hj => h j (List.mem_cons_of_mem _ hj)
      | ub => rfl
      | abort => rfl

/-- the loop over an ordered subset: the sum over its sites, and then what the cells of the threads without a site held before -/
theorem ordered_eq {kern : Nat → Int → Outcome M} {g : Nat → M} {n T : Nat} (hn : 0 < n) (hT : 0 < T) (hd : n * active n T < 2 ^ 31) (h24 : 24 * n < 2 ^ 31)
    (hk : ∀ lo m, 0 < m → lo + m ≤ n → kern (24 * lo) m = ok (∑ j ∈ Finset.range m, g (lo + j))) {res : List (Option M)} (hl : active n T ≤ res.length) :
    ordered kern T res n = only (do
      let v ← addCells res (List.range' (active n T) (T - active n T)) (∑ j ∈ Finset.range n, g j)
      ok (v, stored g n T res)) := by
  have ha : 0 < active n T := by unfold active; omega
  have haT : active n T ≤ T := by unfold active; omega
  have hr : ∀ id, id < T → (((List.range T).map fun id => if id < active n T then some (n * id / active n T, n * (id + 1) / active n T) else none).getD id none) =
      if id < active n T then some (n * id / active n T, n * (id + 1) / active n T) else none := by
    intro id hid
    rw [List.getD_eq_getElem?_getD, List.getElem?_map, List.getElem?_range hid]
    rfl
  have key : ∀ order : List Nat, order.Perm (List.range T) → (do
      let ranges ← dispatch (n : Int).toNat T
      let res ← threadsRun kern ranges order res
      let ltmp ← cell res 0
      let ltmp ← addCells res (List.range' 1 (T - 1)) ltmp
      ok (ltmp, res)) = (do
      let v ← addCells res (List.range' (active n T) (T - active n T)) (∑ j ∈ Finset.range n, g j)
      ok (v, stored g n T res)) := by
    intro order ho
    rw [Int.toNat_natCast, dispatch_eq hd, ok_bind]
    obtain ⟨res', h1, h2, h3⟩ := threadsRun_eq hn hT h24 hk hr order res (fun id h => List.mem_range.1 (ho.mem_iff.1 h)) hl
    have hres : res' = stored g n T res := by
      apply List.ext_getElem?
      intro i
      rw [h3, stored, List.getElem?_mapIdx]
      by_cases hi : i < active n T
      · rw [if_pos ⟨ho.mem_iff.2 (List.mem_range.2 (by omega)), hi⟩, List.getElem?_eq_getElem (by omega), Option.map_some, if_pos hi]
      · rw [if_neg (fun h => hi h.2)]
        cases res[i]? <;> simp [hi]
    rw [h1, ok_bind, hres]
    have hcell : ∀ i, i < active n T → cell (stored g n T res) i = ok (part g n (active n T) i) := by
      intro i hi
      unfold cell stored
      rw [List.getElem?_mapIdx, List.getElem?_eq_getElem (by omega), Option.map_some, if_pos hi]
    have hcell' : ∀ i, ¬ i < active n T → cell (stored g n T res) i = cell res i := by
      intro i hi
      unfold cell stored
      rw [List.getElem?_mapIdx]
      cases res[i]? <;> simp [hi]
    rw [hcell 0 ha, ok_bind, show T - 1 = (active n T - 1) + (T - active n T) by omega, ← List.range'_append_1, addCells_append,
      addCells_known (f := part g n (active n T)) _ _ _ fun i h1 h2 => hcell i (by omega), ok_bind, show 1 + (active n T - 1) = active n T by omega]
    have hsum : part g n (active n T) 0 + ∑ j ∈ Finset.range (active n T - 1), part g n (active n T) (1 + j) = ∑ j ∈ Finset.range n, g j := by
      have e := sum_parts g (n := n) ha (active n T)
      rw [Nat.mul_div_cancel _ ha] at e
      rw [← e]
      obtain ⟨b, hb⟩ : ∃ b, active n T = b + 1 := ⟨active n T - 1, by omega⟩
      rw [hb, Nat.add_sub_cancel, Finset.sum_range_succ', add_comm]
      congr 1
      refine Finset.sum_congr rfl fun j _ => ?_
      rw [Nat.add_comm 1 j]
    rw [hsum, addCells_congr (res := stored g n T res) (res' := res)]
    intro i hi
    exact hcell' i (by have := (List.mem_range'_1.1 hi).1; omega)
  funext o
  apply propext
  constructor
  · rintro ⟨order, ho, rfl⟩
    exact key order ho
  · intro h
    exact ⟨List.range T, List.Perm.refl _, by rw [key _ (List.Perm.refl _)]; exact h⟩

theorem table_eq (call : Int → Outcome M) (g : Nat → M) (N : Nat) (hcall : ∀ i, i < N → call (i : Nat) = ok (g i)) :
    ∀ (tab : List Nat) (a : M), (∀ i ∈ tab, i < N) → table call (tab.map Int.ofNat) a = ok (a + (tab.map g).sum)
  | [], a, _ => by simp [table]
  | i :: tab, a, h => by
      rw [List.map_cons, table, show call (Int.ofNat i) = _ from hcall i (h i (List.mem_cons_self ..)), ok_bind,
        table_eq call g N hcall tab _ fun j hj => h j (List.mem_cons_of_mem _ hj)]
      simp [add_assoc]

end

/-! ## subsets -/

/-- an ordered subset is a range of sites that is not empty; the sites of any other one are in its table -/
theorem sub_cases {col : List Nat} {cb : Nat} {s : Sub} (hsub : makeSub col cb = ok s) :
    (s.ordRep = true ∧ ∃ a : Nat, s.start = a ∧ s.stop - s.start + 1 = ((sitesFrom cb col 0).length : Nat) ∧ 0 < (sitesFrom cb col 0).length ∧
      a + (sitesFrom cb col 0).length ≤ col.length ∧ sitesFrom cb col 0 = List.range' a (sitesFrom cb col 0).length) ∨
    (s.ordRep = false ∧ s.table = (sitesFrom cb col 0).map Int.ofNat ∧ ∀ i ∈ sitesFrom cb col 0, i < col.length) := by
  have htab := Blas.form_of_makeSub hsub
  obtain ⟨s', h', ht, _, h0, h1⟩ := makeSub_eq col cb
  rw [hsub] at h'
  injection h' with h'
  subst h'
  have hlt : ∀ i ∈ sitesFrom cb col 0, i < col.length := by
    intro i hi
    obtain ⟨m, hm, hc⟩ := (mem_sitesFrom cb _ 0 i).1 hi
    have := (List.getElem?_eq_some_iff.1 hc).1
    omega
  by_cases ho : s.ordRep = true
  · left
    refine ⟨ho, ?_⟩
    unfold Blas.Form.of at htab
    rw [if_pos ho] at htab
    simp only [Blas.Form.table] at htab
    have hne : s.table ≠ [] := by
      intro hc
      rw [(h0 hc).1] at ho
      simp at ho
    obtain ⟨i1, i2, _⟩ := h1 hne
    have hall := i1.1 ho
    obtain ⟨hst, hsp⟩ := i2 ho
    have hpos : 0 < s.table.length := List.length_pos_iff.2 hne
    have hlast : s.stop = s.start + ((s.table.length - 1 : Nat) : Int) := by
      rw [hsp, List.getLast_eq_getElem, hall _ (by omega), hst]
    have hs0 : 0 ≤ s.start := by
      rw [hst, List.head_eq_getElem]
      have hm : ∀ v ∈ s.table, 0 ≤ v := by
        intro v hv
        rw [ht] at hv
        obtain ⟨x, _, hx⟩ := List.mem_map.1 hv
        rw [← hx]
        exact Int.natCast_nonneg x
      exact hm _ (List.getElem_mem hpos)
    have hn : s.stop - s.start + 1 = ((s.table.length : Nat) : Int) := by omega
    rw [hn, Int.toNat_natCast] at htab
    have hlen : s.table.length = (sitesFrom cb col 0).length := by rw [← htab]; simp
    have hle : s.start.toNat + s.table.length ≤ col.length := by
      have := hlt (s.start.toNat + (s.table.length - 1)) (by rw [← htab, List.mem_range'_1]; omega)
      omega
    rw [← hlen]
    exact ⟨s.start.toNat, by omega, hn, hpos, hle, htab.symm⟩
  · right
    exact ⟨by simpa using ho, ht, hlt⟩

section
variable {K : Type} [CommRing K]

/-- consecutive sites from `b` on -/
def Holds (p : Nat → Outcome K) (F : Nat → Nat → K) (b n : Nat) : Prop := ∀ c, c < 24 * n → p c = ok (F (b + c / 24) (c % 24))

theorem holds_shift (F : Nat → Nat → K) {N a n lo m : Nat} (h : a + n ≤ N) (hm : lo + m ≤ n) : Holds (shiftPtr (ptr F N a) (24 * lo)) F (a + lo) m := by
  intro c hc
  unfold shiftPtr
  rw [ptr_eq F h (by omega), show (24 * lo + c) / 24 = lo + c / 24 by omega, show (24 * lo + c) % 24 = c % 24 by omega, Nat.add_assoc]

theorem holds_ptr (F : Nat → Nat → K) {N a n : Nat} (h : a + n ≤ N) : Holds (ptr F N a) F a n := fun _ hc => ptr_eq F h hc

theorem sumsqK_eq (q : Prec) {p : Nat → Outcome K} {F : Nat → Nat → K} {b n : Nat} (hn : 0 < n) (hp : Holds p F b n) :
    sumsqK q p n = ok (∑ j ∈ Finset.range n, siteNorm2 F (b + j)) := by
  have e : ∑ i ∈ Finset.range n, ∑ c ∈ Finset.range 24, (fun c => F (b + c / 24) (c % 24)) (24 * i + c) * (fun c => F (b + c / 24) (c % 24)) (24 * i + c) =
      ∑ j ∈ Finset.range n, siteNorm2 F (b + j) := by
    refine Finset.sum_congr rfl fun i _ => ?_
    rw [siteNorm2, ← norm2_words]
    refine Finset.sum_congr rfl fun c hc => ?_
    have := Finset.mem_range.1 hc
    simp only [show (24 * i + c) / 24 = i by omega, show (24 * i + c) % 24 = c by omega]
  cases q with
  | single => rw [sumsqK, sumsqS_eq (w := fun c => F (b + c / 24) (c % 24)) hn hp, e]
  | double => rw [sumsqK, sumsqD_eq (w := fun c => F (b + c / 24) (c % 24)) hp, e]

theorem vcdotD_site (s3 : Bool) {p q : Nat → Outcome K} {F G : Nat → Nat → K} {b n : Nat} (hp : Holds p F b n) (hq : Holds q G b n) :
    vcdotD s3 p q n = ok (∑ j ∈ Finset.range n, siteInner F G (b + j)) := by
  rw [vcdotD_eq s3 (vy := fun c => F (b + c / 24) (c % 24)) (vx := fun c => G (b + c / 24) (c % 24)) hp hq]
  congr 1
  refine Finset.sum_congr rfl fun i _ => ?_
  rw [siteInner, ← inner_words]
  refine Finset.sum_congr rfl fun m hm => ?_
  have := Finset.mem_range.1 hm
  simp only [dotAt, show (24 * i + 2 * m) / 24 = i by omega, show (24 * i + 2 * m) % 24 = 2 * m by omega, show (24 * i + 2 * m + 1) / 24 = i by omega,
    show (24 * i + 2 * m + 1) % 24 = 2 * m + 1 by omega]

theorem vcdotRealD_site {p q : Nat → Outcome K} {F G : Nat → Nat → K} {b n : Nat} (hp : Holds p F b n) (hq : Holds q G b n) :
    vcdotRealD p q n = ok (∑ j ∈ Finset.range n, siteInnerReal F G (b + j)) := by
  rw [vcdotRealD_eq (vy := fun c => F (b + c / 24) (c % 24)) (vx := fun c => G (b + c / 24) (c % 24)) hp hq]
  congr 1
  refine Finset.sum_congr rfl fun i _ => ?_
  rw [siteInnerReal, ← innerReal_words]
  refine Finset.sum_congr rfl fun m hm => ?_
  have := Finset.mem_range.1 hm
  simp only [show (24 * i + 2 * m) / 24 = i by omega, show (24 * i + 2 * m) % 24 = 2 * m by omega, show (24 * i + 2 * m + 1) / 24 = i by omega,
    show (24 * i + 2 * m + 1) % 24 = 2 * m + 1 by omega]

/-- four colour vectors make a site -/
theorem four {A : Type} [AddCommGroup A] (t : Nat → A) (n : Nat) :
    ∑ i ∈ Finset.range (4 * n), ∑ m ∈ Finset.range 3, t (6 * i + 2 * m) = ∑ i ∈ Finset.range n, ∑ m ∈ Finset.range 12, t (24 * i + 2 * m) := by
  induction n with
  | zero => simp
  | succ n ih =>
    rw [Nat.mul_succ, Finset.sum_range_add, ih, Finset.sum_range_succ]
    congr 1
    simp only [Finset.sum_range_succ, Finset.sum_range_zero, zero_add]
    simp only [Nat.mul_add, Nat.add_assoc, ← Nat.mul_assoc, Nat.reduceMul, Nat.reduceAdd, Nat.add_zero, Nat.mul_zero, Nat.mul_one]
    abel

theorem vcdotS_site {p q : Nat → Outcome K} {F G : Nat → Nat → K} {b n : Nat} (hp : Holds p F b n) (hq : Holds q G b n) :
    vcdotS p q ((n : Int) * 4) = ok (∑ j ∈ Finset.range n, siteInner F G (b + j)) := by
  rw [show (n : Int) * 4 = ((4 * n : Nat) : Int) by omega,
    vcdotS_eq (n := 4 * n) (vx := fun c => F (b + c / 24) (c % 24)) (vy := fun c => G (b + c / 24) (c % 24)) (fun c hc => hp c (by omega)) (fun c hc => hq c (by omega)), four]
  congr 1
  refine Finset.sum_congr rfl fun i _ => ?_
  rw [siteInner, ← inner_words]
  refine Finset.sum_congr rfl fun m hm => ?_
  have := Finset.mem_range.1 hm
  simp only [dotAt, show (24 * i + 2 * m) / 24 = i by omega, show (24 * i + 2 * m) % 24 = 2 * m by omega, show (24 * i + 2 * m + 1) / 24 = i by omega,
    show (24 * i + 2 * m + 1) % 24 = 2 * m + 1 by omega]

theorem vcdotRealS_site {p q : Nat → Outcome K} {F G : Nat → Nat → K} {b n : Nat} (hp : Holds p F b n) (hq : Holds q G b n) :
    vcdotRealS p q ((n : Int) * 4) = ok (∑ j ∈ Finset.range n, siteInnerReal F G (b + j)) := by
  rw [show (n : Int) * 4 = ((4 * n : Nat) : Int) by omega,
    vcdotRealS_eq (n := 4 * n) (vx := fun c => F (b + c / 24) (c % 24)) (vy := fun c => G (b + c / 24) (c % 24)) (fun c hc => hp c (by omega)) (fun c hc => hq c (by omega)),
    four fun k => F (b + k / 24) (k % 24) * G (b + k / 24) (k % 24) + F (b + (k + 1) / 24) ((k + 1) % 24) * G (b + (k + 1) / 24) ((k + 1) % 24)]
  congr 1
  refine Finset.sum_congr rfl fun i _ => ?_
  rw [siteInnerReal, ← innerReal_words]
  refine Finset.sum_congr rfl fun m hm => ?_
  have := Finset.mem_range.1 hm
  simp only [show (24 * i + 2 * m) / 24 = i by omega, show (24 * i + 2 * m) % 24 = 2 * m by omega, show (24 * i + 2 * m + 1) / 24 = i by omega,
    show (24 * i + 2 * m + 1) % 24 = 2 * m + 1 by omega]

theorem timesNs_eq {n : Nat} (h : 4 * n < 2 ^ 31) : timesNs n = ok ((n : Int) * 4) := by
  unfold timesNs
  rw [if_pos (by omega)]

theorem sum_range' {M : Type} [AddCommGroup M] (g : Nat → M) (a n : Nat) : ((List.range' a n).map g).sum = ∑ j ∈ Finset.range n, g (a + j) := by
  rw [List.range'_eq_map_range, List.map_map, list_sum_range]
  rfl

/-! ## properties -/

/-- C82: what `norm2` on a subset returns and leaves in the array, for every order of the threads.  On an ordered subset the cells of the threads without a
site are added as they were before. -/
theorem norm2Sub_eq (q : Prec) (F : Nat → Nat → K) {col : List Nat} {cb : Nat} {s : Sub} (hsub : makeSub col cb = ok s) {T : Nat} (hT : 0 < T)
    {res : List (Option K)} (hres : T ≤ res.length)
    (h24 : 24 * (sitesFrom cb col 0).length < 2 ^ 31) (hd : (sitesFrom cb col 0).length * T < 2 ^ 31) :
    ∃ res', norm2Sub q F col.length T res s = (if s.ordRep then
        only (do
          let v ← addCells res (List.range' (active (sitesFrom cb col 0).length T) (T - active (sitesFrom cb col 0).length T))
            ((sitesFrom cb col 0).map (siteNorm2 F)).sum
          ok (v, res'))
      else only (ok (((sitesFrom cb col 0).map (siteNorm2 F)).sum, res'))) ∧ res'.length = res.length := by
  rcases sub_cases hsub with ⟨ho, a, h1, h2, h3, h4, h5⟩ | ⟨ho, h1, h2⟩
  · generalize hn : (sitesFrom cb col 0).length = n at *
    have hact : n * active n T ≤ n * T := Nat.mul_le_mul_left _ (by unfold active; omega)
    refine ⟨stored (fun j => siteNorm2 F (a + j)) n T res, ?_, by simp [stored]⟩
    unfold norm2Sub
    rw [if_pos ho, if_pos ho, h2, h1, ordered_eq (g := fun j => siteNorm2 F (a + j)) h3 hT (by omega) h24 _ (by unfold active; omega)]
    · rw [h5, sum_range']
    · intro lo m hm hlm
      rw [sumsqK_eq q hm (holds_shift F h4 hlm)]
      simp only [Nat.add_assoc]
  · refine ⟨res, ?_, rfl⟩
    unfold norm2Sub
    rw [ho, if_neg (by decide), if_neg (by decide), h1, table_eq _ (siteNorm2 F) col.length _ _ _ h2, ok_bind, zero_add]
    intro i hi
    have := sumsqK_eq q (n := 1) (by omega) (holds_ptr F (a := i) (n := 1) (show i + 1 ≤ col.length by omega))
    simpa using this

/-- C82: if no thread is without a site, or the subset has no ordered representation, `norm2` returns the sum over the subset, whatever was computed before.
Missing: ordered subsets with fewer sites than there are threads (`C82_stale`, `C82_uninitialised`), and more than 89478485 sites. -/
theorem C82_norm2_partial (q : Prec) (F : Nat → Nat → K) {col : List Nat} {cb : Nat} {s : Sub} (hsub : makeSub col cb = ok s) {T : Nat} (hT : 0 < T)
    {res : List (Option K)} (hres : T ≤ res.length)
    (h24 : 24 * (sitesFrom cb col 0).length < 2 ^ 31) (hd : (sitesFrom cb col 0).length * T < 2 ^ 31)
    (henough : s.ordRep = true → T ≤ (sitesFrom cb col 0).length) :
    ∃ res', norm2Sub q F col.length T res s = only (ok (((sitesFrom cb col 0).map fun i => norm2 spinor (obj spinor (F i))).sum, res')) ∧
      res'.length = res.length := by
  obtain ⟨res', h, hl⟩ := norm2Sub_eq q F hsub hT hres h24 hd
  refine ⟨res', ?_, hl⟩
  rw [h]
  by_cases ho : s.ordRep = true
  · have := henough ho
    rw [if_pos ho, show active (sitesFrom cb col 0).length T = T by unfold active; omega, Nat.sub_self]
    rfl
  · rw [if_neg ho]
    rfl

/-- C82: the same for `innerProduct` in double precision -/
theorem innerSubD_eq (b : Bool) (F G : Nat → Nat → K) {col : List Nat} {cb : Nat} {s : Sub} (hsub : makeSub col cb = ok s) {T : Nat} (hT : 0 < T)
    {res : List (Option (K × K))} (hres : T ≤ res.length)
    (h24 : 24 * (sitesFrom cb col 0).length < 2 ^ 31) (hd : (sitesFrom cb col 0).length * T < 2 ^ 31) :
    ∃ res', innerSubD b F G col.length T res s = (if s.ordRep then
        only (do
          let v ← addCells res (List.range' (active (sitesFrom cb col 0).length T) (T - active (sitesFrom cb col 0).length T))
            ((sitesFrom cb col 0).map (siteInner F G)).sum
          ok (v, res'))
      else only (ok (((sitesFrom cb col 0).map (siteInner F G)).sum, res'))) ∧ res'.length = res.length := by
  rcases sub_cases hsub with ⟨ho, a, h1, h2, h3, h4, h5⟩ | ⟨ho, h1, h2⟩
  · generalize hn : (sitesFrom cb col 0).length = n at *
    have hact : n * active n T ≤ n * T := Nat.mul_le_mul_left _ (by unfold active; omega)
    refine ⟨stored (fun j => siteInner F G (a + j)) n T res, ?_, by simp [stored]⟩
    unfold innerSubD
    rw [if_pos ho, if_pos ho, h2, h1, ordered_eq (g := fun j => siteInner F G (a + j)) h3 hT (by omega) h24 _ (by unfold active; omega)]
    · rw [h5, sum_range']
    · intro lo m hm hlm
      rw [vcdotD_site b (holds_shift F h4 hlm) (holds_shift G h4 hlm)]
      simp only [Nat.add_assoc]
  · refine ⟨res, ?_, rfl⟩
    unfold innerSubD
    rw [ho, if_neg (by decide), if_neg (by decide), h1, table_eq _ (siteInner F G) col.length _ _ _ h2, ok_bind, zero_add]
    intro i hi
    have := vcdotD_site b (n := 1) (holds_ptr F (a := i) (show i + 1 ≤ col.length by omega)) (holds_ptr G (a := i) (show i + 1 ≤ col.length by omega))
    simpa using this

/-- C82: `innerProduct` in double precision -/
theorem C82_inner_partial (b : Bool) (F G : Nat → Nat → K) {col : List Nat} {cb : Nat} {s : Sub} (hsub : makeSub col cb = ok s) {T : Nat} (hT : 0 < T)
    {res : List (Option (K × K))} (hres : T ≤ res.length)
    (h24 : 24 * (sitesFrom cb col 0).length < 2 ^ 31) (hd : (sitesFrom cb col 0).length * T < 2 ^ 31)
    (henough : s.ordRep = true → T ≤ (sitesFrom cb col 0).length) :
    ∃ res', innerSubD b F G col.length T res s = only (ok (((sitesFrom cb col 0).map fun i =>
        ((lip (Inner.self spinor) (obj spinor (F i)) (obj spinor (G i))).re, (lip (Inner.self spinor) (obj spinor (F i)) (obj spinor (G i))).im)).sum, res')) ∧
      res'.length = res.length := by
  obtain ⟨res', h, hl⟩ := innerSubD_eq b F G hsub hT hres h24 hd
  refine ⟨res', ?_, hl⟩
  rw [h]
  by_cases ho : s.ordRep = true
  · have := henough ho
    rw [if_pos ho, show active (sitesFrom cb col 0).length T = T by unfold active; omega, Nat.sub_self]
    rfl
  · rw [if_neg ho]
    rfl

/-- C82: the functions that do not use threads return the sum over the subset.  Missing: more than 536870911 sites in single precision. -/
theorem C82_unthreaded_partial (F G : Nat → Nat → K) {col : List Nat} {cb : Nat} {s : Sub} (hsub : makeSub col cb = ok s)
    (h4 : 4 * (sitesFrom cb col 0).length < 2 ^ 31) :
    innerSubS F G col.length s = ok ((sitesFrom cb col 0).map fun i =>
      ((lip (Inner.self spinor) (obj spinor (F i)) (obj spinor (G i))).re, (lip (Inner.self spinor) (obj spinor (F i)) (obj spinor (G i))).im)).sum ∧
    innerRealSubS F G col.length s = ok ((sitesFrom cb col 0).map fun i => lipReal (Inner.self spinor) (obj spinor (F i)) (obj spinor (G i))).sum ∧
    innerRealSubD F G col.length s = ok ((sitesFrom cb col 0).map fun i => lipReal (Inner.self spinor) (obj spinor (F i)) (obj spinor (G i))).sum := by
  rcases sub_cases hsub with ⟨ho, a, h1, h2, h3, hle, h5⟩ | ⟨ho, h1, h2⟩
  · unfold innerSubS innerRealSubS innerRealSubD
    rw [if_pos ho, if_pos ho, if_pos ho, h2, h1, timesNs_eq h4, ok_bind, ok_bind, vcdotS_site (holds_ptr F hle) (holds_ptr G hle),
      vcdotRealS_site (holds_ptr F hle) (holds_ptr G hle), vcdotRealD_site (holds_ptr F hle) (holds_ptr G hle)]
    generalize (sitesFrom cb col 0).length = n at *
    rw [h5, sum_range', sum_range']
    exact ⟨rfl, rfl, rfl⟩
  · have h10 : ∀ i, i < col.length → i + 1 ≤ col.length := fun i h => h
    unfold innerSubS innerRealSubS innerRealSubD
    rw [ho, if_neg (by decide), if_neg (by decide), if_neg (by decide), h1, table_eq _ (siteInner F G) col.length _ _ _ h2,
      table_eq _ (siteInnerReal F G) col.length _ _ _ h2, table_eq _ (siteInnerReal F G) col.length _ _ _ h2, zero_add, zero_add]
    · exact ⟨rfl, rfl, rfl⟩
    · intro i hi
      have := vcdotRealD_site (n := 1) (holds_ptr F (h10 i hi)) (holds_ptr G (h10 i hi))
      simpa using this
    · intro i hi
      have := vcdotRealS_site (n := 1) (holds_ptr F (h10 i hi)) (holds_ptr G (h10 i hi))
      simpa using this
    · intro i hi
      have := vcdotS_site (n := 1) (holds_ptr F (h10 i hi)) (holds_ptr G (h10 i hi))
      simpa using this

/-- C82: `norm2` of an array of fields does not use the threads either, and is right on every subset -/
theorem C82_norm2_array (q : Prec) {col : List Nat} {cb : Nat} {s : Sub} (hsub : makeSub col cb = ok s) :
    ∀ (v : List (Nat → Nat → K)) (a : K), norm2Arr q col.length s v a =
      ok (a + (v.map fun F => ((sitesFrom cb col 0).map fun i => norm2 spinor (obj spinor (F i))).sum).sum)
  | [], a => by simp [norm2Arr]
  | F :: v, a => by
      rw [norm2Arr]
      rcases sub_cases hsub with ⟨ho, b, h1, h2, h3, hle, h5⟩ | ⟨ho, h1, h2⟩
      · rw [if_pos ho, h2, h1, sumsqK_eq q h3 (holds_ptr F hle), ok_bind, C82_norm2_array q hsub v]
        generalize (sitesFrom cb col 0).length = n at *
        rw [List.map_cons, List.sum_cons, ← add_assoc]
        conv_rhs => rw [h5, sum_range' _ b n]
        rw [h5]
        rfl
      · rw [ho, if_neg (by decide), h1, table_eq _ (siteNorm2 F) col.length _ _ _ h2, ok_bind, C82_norm2_array q hsub v, List.map_cons, List.sum_cons, ← add_assoc]
        · rfl
        · intro i hi
          have := sumsqK_eq q (n := 1) (by omega) (holds_ptr F (a := i) (n := 1) (show i + 1 ≤ col.length by omega))
          simpa using this

theorem arrays_eq {M : Type} [AddCommGroup M] (call : (Nat → Nat → K) → (Nat → Nat → K) → M → Outcome M) (g : (Nat → Nat → K) → (Nat → Nat → K) → M)
    (hg : ∀ F G ip, call F G ip = ok (ip + g F G)) :
    ∀ (v w : List (Nat → Nat → K)) (a : M), v.length ≤ w.length → arrays call v w a = ok (a + (List.zipWith g v w).sum)
  | [], w, a, _ => by simp [arrays]
  | F :: v, [], a, h => by simp at h
  | F :: v, G :: w, a, h => by
      rw [arrays, hg, ok_bind, arrays_eq call g hg v w _ (by simpa using h)]
      simp [add_assoc]

theorem arrays_ub {M : Type} [AddCommGroup M] (call : (Nat → Nat → K) → (Nat → Nat → K) → M → Outcome M) (g : (Nat → Nat → K) → (Nat → Nat → K) → M)
    (hg : ∀ F G ip, call F G ip = ok (ip + g F G)) : ∀ (v w : List (Nat → Nat → K)) (a : M), w.length < v.length → arrays call v w a = ub
  | [], w, a, h => by simp at h
  | F :: v, [], a, _ => rfl
  | F :: v, G :: w, a, h => by
      rw [arrays, hg, ok_bind, arrays_ub call g hg v w _ (by simpa using h)]

/-- the calls for one pair of fields -/
theorem arrays_calls {col : List Nat} {cb : Nat} {s : Sub} (hsub : makeSub col cb = ok s) (h4 : 4 * (sitesFrom cb col 0).length < 2 ^ 31)
    (v w : List (Nat → Nat → K)) :
    ∃ (c : (Nat → Nat → K) → (Nat → Nat → K) → K × K → Outcome (K × K)) (d : (Nat → Nat → K) → (Nat → Nat → K) → K → Outcome K),
      innerArrS col.length s v w = arrays c v w 0 ∧ innerRealArrS col.length s v w = arrays d v w 0 ∧
      (∀ F G ip, c F G ip = ok (ip + ((sitesFrom cb col 0).map (siteInner F G)).sum)) ∧
      ∀ F G ip, d F G ip = ok (ip + ((sitesFrom cb col 0).map (siteInnerReal F G)).sum) := by
  have hu := fun F G : Nat → Nat → K => C82_unthreaded_partial F G hsub h4
  by_cases ho : s.ordRep = true
  · rcases sub_cases hsub with ⟨_, a, h1, h2, h3, hle, h5⟩ | ⟨h, _⟩
    · unfold innerSubS innerRealSubS at hu
      unfold innerArrS innerRealArrS
      simp only [if_pos ho] at hu ⊢
      rw [h2, timesNs_eq h4] at hu ⊢
      refine ⟨_, _, rfl, rfl, ?_, ?_⟩
      · intro F G ip
        have := (hu F G).1
        rw [ok_bind] at this
        rw [this]
        rfl
      · intro F G ip
        have := (hu F G).2.1
        rw [ok_bind] at this
        rw [this]
        rfl
    · rw [ho] at h
      simp at h
  · rcases sub_cases hsub with ⟨h, _⟩ | ⟨_, h1, h2⟩
    · exact absurd h ho
    · unfold innerArrS innerRealArrS
      simp only [if_neg ho]
      refine ⟨_, _, rfl, rfl, ?_, ?_⟩
      · intro F G ip
        rw [h1, table_eq _ (siteInner F G) col.length _ _ _ h2]
        intro i hi
        have := vcdotS_site (n := 1) (holds_ptr F (show i + 1 ≤ col.length from hi)) (holds_ptr G (show i + 1 ≤ col.length from hi))
        simpa using this
      · intro F G ip
        rw [h1, table_eq _ (siteInnerReal F G) col.length _ _ _ h2]
        intro i hi
        have := vcdotRealS_site (n := 1) (holds_ptr F (show i + 1 ≤ col.length from hi)) (holds_ptr G (show i + 1 ≤ col.length from hi))
        simpa using this

/-- C82: inner products of arrays of fields in single precision, if the second array is at least as long as the first; undefined if it is shorter -/
theorem C82_arrays_partial {col : List Nat} {cb : Nat} {s : Sub} (hsub : makeSub col cb = ok s) (h4 : 4 * (sitesFrom cb col 0).length < 2 ^ 31)
    (v w : List (Nat → Nat → K)) :
    (v.length ≤ w.length → innerArrS col.length s v w = ok (List.zipWith (fun F G => ((sitesFrom cb col 0).map (siteInner F G)).sum) v w).sum ∧
      innerRealArrS col.length s v w = ok (List.zipWith (fun F G => ((sitesFrom cb col 0).map (siteInnerReal F G)).sum) v w).sum) ∧
    (w.length < v.length → innerArrS col.length s v w = ub ∧ innerRealArrS col.length s v w = ub) := by
  obtain ⟨c, d, h1, h2, h3, h4⟩ := arrays_calls hsub h4 v w
  rw [h1, h2]
  refine ⟨fun hl => ?_, fun hl => ⟨arrays_ub c _ h3 v w _ hl, arrays_ub d _ h4 v w _ hl⟩⟩
  rw [arrays_eq c _ h3 v w _ hl, arrays_eq d _ h4 v w _ hl, zero_add, zero_add]
  exact ⟨rfl, rfl⟩

/-- C82: and in double precision, on the whole lattice -/
theorem C82_arrays_double_partial (b : Bool) {N : Nat} (hN : 0 < N) {all : Sub} (h : makeSub (List.replicate N 0) 0 = ok all) (v w : List (Nat → Nat → K)) :
    (v.length ≤ w.length → innerArrD b N all v w = ok (List.zipWith (fun F G => ∑ i ∈ Finset.range N, siteInner F G i) v w).sum ∧
      innerRealArrD N all v w = ok (List.zipWith (fun F G => ∑ i ∈ Finset.range N, siteInnerReal F G i) v w).sum) ∧
    (w.length < v.length → innerArrD b N all v w = ub ∧ innerRealArrD N all v w = ub) := by
  obtain ⟨h1, h2⟩ := all_range hN h
  unfold innerArrD innerRealArrD
  rw [h2, h1]
  have h3 : ∀ (F G : Nat → Nat → K) (ip : K × K), (do let iip ← vcdotD b (ptr F N (0 : Nat)) (ptr G N (0 : Nat)) N; ok (ip + iip)) =
      ok (ip + ∑ i ∈ Finset.range N, siteInner F G i) := by
    intro F G ip
    rw [vcdotD_site b (holds_ptr F (n := N) (by omega)) (holds_ptr G (n := N) (by omega)), ok_bind]
    simp only [Nat.zero_add]
  have h4 : ∀ (F G : Nat → Nat → K) (ip : K), (do let iip ← vcdotRealD (ptr F N (0 : Nat)) (ptr G N (0 : Nat)) N; ok (ip + iip)) =
      ok (ip + ∑ i ∈ Finset.range N, siteInnerReal F G i) := by
    intro F G ip
    rw [vcdotRealD_site (holds_ptr F (n := N) (by omega)) (holds_ptr G (n := N) (by omega)), ok_bind]
    simp only [Nat.zero_add]
  refine ⟨fun hl => ?_, fun hl => ⟨arrays_ub _ _ h3 v w _ hl, arrays_ub _ _ h4 v w _ hl⟩⟩
  rw [arrays_eq _ _ h3 v w _ hl, arrays_eq _ _ h4 v w _ hl, zero_add, zero_add]
  exact ⟨rfl, rfl⟩

/-- C82: the versions without a subset.  Missing as above. -/
theorem C82_all_partial (q : Prec) (b : Bool) (F G : Nat → Nat → K) {N : Nat} {all : Sub} (h : makeSub (List.replicate N 0) 0 = ok all) {T : Nat} (hT : 0 < T)
    (hNT : T ≤ N) (h24 : 24 * N < 2 ^ 31) (hd : N * T < 2 ^ 31) {res : List (Option K)} (hres : T ≤ res.length) {res2 : List (Option (K × K))} (hres2 : T ≤ res2.length) :
    norm2All q F N T res all = only (ok (∑ i ∈ Finset.range N, norm2 spinor (obj spinor (F i)), stored (siteNorm2 F) N T res)) ∧
    innerAllD b F G N T res2 all = only (ok (∑ i ∈ Finset.range N, siteInner F G i, stored (siteInner F G) N T res2)) := by
  obtain ⟨h1, h2⟩ := all_range (by omega) h
  have ha : active N T = T := by unfold active; omega
  unfold norm2All innerAllD
  rw [h2, h1, ordered_eq (g := siteNorm2 F) (by omega) hT (by rw [ha]; exact hd) h24 _ (by omega),
    ordered_eq (g := siteInner F G) (by omega) hT (by rw [ha]; exact hd) h24 _ (by omega), ha, Nat.sub_self]
  · exact ⟨rfl, rfl⟩
  · intro lo m hm hlm
    rw [vcdotD_site b (holds_shift F (n := N) (by omega) hlm) (holds_shift G (n := N) (by omega) hlm)]
    simp only [Nat.zero_add]
  · intro lo m hm hlm
    rw [sumsqK_eq q hm (holds_shift F (n := N) (by omega) hlm)]
    simp only [Nat.zero_add]

/-- C82 refuted: the norm of `F` on the whole lattice, and then the norm of `G` on an ordered subset with fewer sites than there are threads.  The second
result is the sum over the subset and the norm of the **first** field on the last sites of the lattice, for all fields, subsets and orders of the threads. -/
theorem C82_stale (q q' : Prec) (F G : Nat → Nat → K) {N : Nat} {all : Sub} (h : makeSub (List.replicate N 0) 0 = ok all) {col : List Nat} (hcol : col.length = N)
    {cb : Nat} {s : Sub} (hsub : makeSub col cb = ok s) (ho : s.ordRep = true) {T : Nat} (hT : 0 < T) (hNT : T ≤ N) (h24 : 24 * N < 2 ^ 31) (hd : N * T < 2 ^ 31)
    (hfew : (sitesFrom cb col 0).length < T) {res : List (Option K)} (hres : res.length = T) :
    ∃ res' res'', norm2All q F N T res all = only (ok (∑ i ∈ Finset.range N, norm2 spinor (obj spinor (F i)), res')) ∧
      norm2Sub q' G N T res' s = only (ok (((sitesFrom cb col 0).map fun i => norm2 spinor (obj spinor (G i))).sum +
        ∑ i ∈ Finset.Ico (N * (sitesFrom cb col 0).length / T) N, norm2 spinor (obj spinor (F i)), res'')) := by
  have ha : active N T = T := by unfold active; omega
  have hle := Blas.sitesFrom_length_le cb col
  have hd' : (sitesFrom cb col 0).length * T ≤ N * T := Nat.mul_le_mul_right _ (by omega)
  have h1 := (C82_all_partial q true F F h hT hNT h24 hd (hres := hres.ge) (res2 := List.replicate T none) (by simp)).1
  obtain ⟨res'', h2, _⟩ := norm2Sub_eq q' G hsub hT (res := stored (siteNorm2 F) N T res) (by simp [stored, hres]) (by omega) (by omega)
  refine ⟨_, res'', h1, ?_⟩
  rw [hcol] at h2
  rw [h2, if_pos ho]
  generalize (sitesFrom cb col 0).length = n at *
  rw [show active n T = n by unfold active; omega, addCells_known (f := part (siteNorm2 F) N T), ok_bind]
  · congr 4
    have e1 := sum_parts (siteNorm2 F) (n := N) hT T
    have e2 := sum_parts (siteNorm2 F) (n := N) hT n
    have e3 := Finset.sum_range_add (fun k => part (siteNorm2 F) N T k) n (T - n)
    rw [show n + (T - n) = T by omega, e1, e2, Nat.mul_div_cancel _ hT] at e3
    have hlt : N * n / T ≤ N := by
      calc N * n / T ≤ N * T / T := Nat.div_le_div_right (Nat.mul_le_mul_left _ (by omega))
        _ = N := Nat.mul_div_cancel _ hT
    have e4 := Finset.sum_range_add_sum_Ico (siteNorm2 F) hlt
    rw [e3] at e4
    exact (add_left_cancel e4).symm
  · intro i h3 h4
    unfold cell stored
    rw [List.getElem?_mapIdx, List.getElem?_eq_getElem (by omega), Option.map_some, ha, if_pos (by omega)]

/-- C82 refuted: if such a subset comes first in the program, cells that were never written are added -/
theorem C82_uninitialised (q : Prec) (b : Bool) (F G : Nat → Nat → K) {col : List Nat} {cb : Nat} {s : Sub} (hsub : makeSub col cb = ok s) (ho : s.ordRep = true)
    {T : Nat} (hfew : (sitesFrom cb col 0).length < T) (h24 : 24 * (sitesFrom cb col 0).length < 2 ^ 31) (hd : (sitesFrom cb col 0).length * T < 2 ^ 31) :
    norm2Sub q F col.length T (fresh T) s = only ub ∧ innerSubD b F G col.length T (fresh T) s = only ub := by
  have key : ∀ {M : Type} [AddCommGroup M] (n : Nat) (v : M), n < T → addCells (fresh T) (List.range' (active n T) (T - active n T)) v = ub := by
    intro M _ n v hn
    have ha : active n T = n := by unfold active; omega
    rw [ha, show T - n = (T - n - 1) + 1 by omega, List.range'_succ, addCells]
    have : cell (fresh T : List (Option M)) n = ub := by
      unfold cell fresh
      rw [List.getElem?_replicate, if_pos hn]
    rw [this]
    rfl
  obtain ⟨r1, h1, _⟩ := norm2Sub_eq q F hsub (T := T) (by omega) (res := fresh T) (by simp [fresh]) h24 hd
  obtain ⟨r2, h2, _⟩ := innerSubD_eq b F G hsub (T := T) (by omega) (res := fresh T) (by simp [fresh]) h24 hd
  rw [h1, h2, if_pos ho, if_pos ho, key _ _ hfew, key _ _ hfew]
  exact ⟨rfl, rfl⟩

end

/-- two threads, two sites: the norm of the subset of site 0 is 24, but 48 is returned after the norm on the whole lattice -/
theorem C82_example (q : Prec) : ∃ all s, makeSub [0, 0] 0 = ok all ∧ makeSub [0, 1] 0 = ok s ∧ s.ordRep = true ∧ sitesFrom 0 [0, 1] 0 = [0] ∧
    norm2 spinor (obj spinor fun _ => (1 : ℤ)) = 24 ∧
    ∃ res' res'', norm2All q (fun _ _ => (1 : ℤ)) 2 2 (fresh 2) all = only (ok (48, res')) ∧ norm2Sub q (fun _ _ => (1 : ℤ)) 2 2 res' s = only (ok (48, res'')) := by
  have h24 : norm2 spinor (obj spinor fun _ => (1 : ℤ)) = 24 := by rw [← norm2_words]; decide
  refine ⟨_, _, rfl, rfl, by decide, by decide, h24, ?_⟩
  obtain ⟨r1, r2, h1, h2⟩ := C82_stale q q (fun _ _ => (1 : ℤ)) (fun _ _ => (1 : ℤ)) (N := 2) (all := _) rfl (col := [0, 1]) rfl (cb := 0) rfl (by decide) (T := 2)
    (by decide) (by decide) (by decide) (by decide) (by decide) (res := fresh 2) rfl
  refine ⟨r1, r2, ?_, ?_⟩
  · rw [h24] at h1
    exact h1
  · rw [h24] at h2
    exact h2

/-- hypotheses of the positive statements: three sites for two threads -/
example : ∃ s, makeSub [1, 0, 0, 0] 0 = ok s ∧ s.ordRep = true ∧ 2 ≤ (sitesFrom 0 [1, 0, 0, 0] 0).length := ⟨_, rfl, by decide, by decide⟩

end Verif.SseReduce
