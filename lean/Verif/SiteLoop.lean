import Verif.BlasProps
/-
Loops over the sites of a subset in which every thread runs, site by site, the same short program on the objects of that site:
the user functions of include/scalarsite_generic/*_wrapper.h.

The heap holds one object per field and site.  An instruction reads and writes objects of one site.  Threads interleave instruction by
instruction.
-/
namespace Verif.SiteLoop
open Verif Outcome Verif.Dispatch Verif.Blas Verif.Subset

variable {W I L : Type}

/-! ## model -/

/-- the objects of one site, by the number of the field -/
abbrev View (W : Type) := Nat → W

/-- one instruction at site `i`; the fields have `N` sites -/
def instr (act : I → L → View W → L × View W) (N : Nat) : Nat × I → L → Interleave.Heap W → Outcome (L × Interleave.Heap W)
  | (i, x), l, h =>
    if i < N then ok ((act x l fun f => h f i).1, fun f j => if j = i then (act x l fun f => h f i).2 f else h f j) else ub

/-- the program at all sites of a list -/
def prog (p : List I) (sites : List Nat) : List (Nat × I) := sites.flatMap fun i => p.map (i, ·)

/-- the sites of the range of a thread: `for(i = lo+base; i < hi+base; ++i)` or `for(j = lo; j < hi; ++j) i = tab[j]`,
include/scalarsite_generic/qdp_scalarsite_generic_linalg_wrapper.h:39-43, 83-85 -/
def sitesIn : Form → Option (Nat × Nat) → Outcome (List Nat)
  | .ordered start _, r => ok ((share r).map (start + ·))
  | .unordered tab, r => mapO (rd tab) (share r)

/-- the sites of thread `t` -/
def threadSites (f : Form) (rs : List (Option (Nat × Nat))) (t : Nat) : Outcome (List Nat) :=
  match rs[t]? with
  | none => ok []
  | some r => sitesIn f r

/-- the states reached by the loop with `T` threads, every one of which starts with any local variables -/
def Reaches (act : I → L → View W → L × View W) (p : List I) (f : Form) (N T : Nat) (l0 : Nat → L) (h : Interleave.Heap W)
    (s : Interleave.St W (Nat × I) L) : Prop :=
  ∃ rs, ∃ S : Nat → List Nat, dispatch f.size T = ok rs ∧ (∀ t, threadSites f rs t = ok (S t)) ∧
    Relation.ReflTransGen (Interleave.Step (instr act N)) ⟨h, fun t => ⟨l0 t, prog p (S t)⟩⟩ s

/-- the program on one site alone -/
def runView (act : I → L → View W → L × View W) : List I → L → View W → L × View W
  | [], l, v => (l, v)
  | x :: p, l, v => runView act p (act x l v).1 (act x l v).2

/-! ## proofs -/

variable {act : I → L → View W → L × View W} {N : Nat}

theorem local_instr (act : I → L → View W → L × View W) (N : Nat) (S : Nat → List Nat) :
    Interleave.Local (instr act N) (fun t _ j => j ∈ S t) (fun t p _ => ∀ x ∈ p, x.1 ∈ S t) := by
  refine ⟨fun hg _ x hx => hg x (List.mem_cons_of_mem _ hx), ?_, ?_⟩
  · rintro t ⟨i, x⟩ p l h l' h' hg e f j hj
    simp only [instr] at e
    split at e
    · injection e with e
      injection e with _ e
      rw [← e]
      have : j ≠ i := by rintro rfl; exact hj (hg _ (List.mem_cons_self ..))
      simp [this]
    · simp at e
  · rintro t ⟨i, x⟩ p l h g l' h' hg hh e
    have hi : i ∈ S t := hg _ (List.mem_cons_self ..)
    have hv : (fun f => h f i) = fun f => g f i := by funext f; exact hh f i hi
    simp only [instr] at e ⊢
    split at e
    · next hN =>
      injection e with e
      injection e with e1 e2
      refine ⟨_, by rw [if_pos hN, ← hv, e1], ?_⟩
      intro f j hj
      rw [← e2]
      simp only
      split
      · rfl
      · exact hh f j hj
    · simp at e

theorem run_site (p : List I) {i : Nat} (hi : i < N) : ∀ (l : L) (h : Interleave.Heap W),
    Interleave.run (instr act N) (p.map (i, ·)) l h =
      ok ((runView act p l fun f => h f i).1, fun f j => if j = i then (runView act p l fun f => h f i).2 f else h f j) := by
  induction p with
  | nil =>
    intro l h
    simp only [List.map_nil, Interleave.run, runView]
    congr 2
    funext f j
    split
    · next e => rw [e]
    · rfl
  | cons x p ih =>
    intro l h
    simp only [List.map_cons, Interleave.run, instr, if_pos hi, ih, runView, if_true]
    congr 2
    funext f j
    split <;> rfl

theorem run_sites (p : List I) (hind : ∀ l l' v, (runView act p l v).2 = (runView act p l' v).2) (l0 : L) : ∀ (S : List Nat), (∀ i ∈ S, i < N) → S.Nodup →
    ∀ (l : L) (h : Interleave.Heap W), ∃ l' h', Interleave.run (instr act N) (prog p S) l h = ok (l', h') ∧
      (∀ i ∈ S, (fun f => h' f i) = (runView act p l0 fun f => h f i).2) ∧ ∀ i, i ∉ S → ∀ f, h' f i = h f i
  | [], _, _, l, h => ⟨l, h, rfl, by simp, fun _ _ _ => rfl⟩
  | i :: S, hN, hnd, l, h => by
      rw [List.nodup_cons] at hnd
      have e1 := run_site (act := act) p (hN i (by simp)) l h
      obtain ⟨l', h', e2, h3, h4⟩ := run_sites p hind l0 S (fun j hj => hN j (by simp [hj])) hnd.2
        (runView act p l fun f => h f i).1 (fun f j => if j = i then (runView act p l fun f => h f i).2 f else h f j)
      refine ⟨l', h', ?_, ?_, ?_⟩
      · show Interleave.run _ (p.map (i, ·) ++ prog p S) l h = _
        exact Interleave.run_append e1 e2
      · intro j hj
        rcases List.mem_cons.1 hj with rfl | hj'
        · funext f
          rw [h4 j hnd.1 f, if_pos rfl, hind l l0]
        · rw [h3 j hj']
          have : j ≠ i := by rintro rfl; exact hnd.1 hj'
          simp [this]
      · intro j hj f
        rw [List.mem_cons, not_or] at hj
        rw [h4 j hj.2 f, if_neg hj.1]

/-- the sites handed to the threads are those of the subset, every one once -/
theorem threadSites_spec {T : Nat} (hT : 0 < T) {f : Form} (hnd : f.table.Nodup) (hov : f.size * active f.size T < 2 ^ 31) :
    ∃ rs, ∃ S : Nat → List Nat, dispatch f.size T = ok rs ∧ (∀ t, threadSites f rs t = ok (S t)) ∧ (∀ t, (S t).Nodup) ∧
      (∀ s t, s ≠ t → ∀ i ∈ S s, i ∉ S t) ∧ (∀ i, i ∈ f.table ↔ ∃ t, i ∈ S t) ∧ ∀ t, T ≤ t → S t = [] := by
  rw [form_size] at hov ⊢
  obtain ⟨rs, S, h1, h2, h3, h4, h5⟩ := Evaluate.threadSites_spec hT hnd hov
  have hrl : rs.length = T := by
    rw [dispatch_eq hov] at h1
    injection h1 with h1
    rw [← h1]; simp
  refine ⟨rs, S, h1, ?_, h3, h4, h5, ?_⟩
  · intro t
    have h2t := h2 t
    unfold Evaluate.threadSites at h2t
    unfold threadSites
    rcases hr : rs[t]? with _ | r
    · rw [hr] at h2t; exact h2t
    · rw [hr] at h2t
      simp only at h2t ⊢
      cases f with
      | unordered tab => exact h2t
      | ordered start n =>
        rw [← h2t]
        simp only [sitesIn, Form.table]
        symm
        refine mapO_ok fun j hj => ?_
        have hlt : j < n := by
          have hmem := List.mem_of_getElem? hr
          obtain ⟨rs', h1', hc, _⟩ := C47_disjoint hT hov
          rw [h1] at h1'
          injection h1' with h1'
          subst h1'
          simpa [Form.table] using (hc j).2 ⟨r, hmem, hj⟩
        rw [rd_of_lt (by simpa using hlt)]
        simp
  · intro t ht
    have h2t := h2 t
    unfold Evaluate.threadSites at h2t
    rw [List.getElem?_eq_none (by omega)] at h2t
    injection h2t with h2t
    exact h2t.symm

/-- a loop whose program does not depend on what the local variables held before: with every number of threads, in every interleaving, nothing is
undefined, some execution ends, and in the end the sites of the subset hold what the program alone makes of them, and the others what they held -/
theorem loop_correct (p : List I) (hind : ∀ l l' v, (runView act p l v).2 = (runView act p l' v).2) {f : Form} {T : Nat} (hT : 0 < T)
    (hnd : f.table.Nodup) (hN : ∀ i ∈ f.table, i < N) (hov : f.size * active f.size T < 2 ^ 31) (l0 : Nat → L) (l1 : L) (h : Interleave.Heap W) :
    (∃ s, Reaches act p f N T l0 h s ∧ Interleave.Done s) ∧ ∀ s, Reaches act p f N T l0 h s → ¬ Interleave.Fault (instr act N) s ∧
      (Interleave.Done s → (∀ i ∈ f.table, (fun g => s.heap g i) = (runView act p l1 fun g => h g i).2) ∧
        ∀ i, i ∉ f.table → ∀ g, s.heap g i = h g i) := by
  obtain ⟨rs, S, h1, h2, h3, h4, h5, h6⟩ := threadSites_spec hT hnd hov
  have hsolo := fun t => run_sites (act := act) (N := N) p hind l1 (S t) (fun i hi => hN i ((h5 i).2 ⟨t, hi⟩)) (h3 t) (l0 t) h
  choose lf F hF hv hfr using hsolo
  have main : ∀ s, Relation.ReflTransGen (Interleave.Step (instr act N)) ⟨h, fun t => ⟨l0 t, prog p (S t)⟩⟩ s →
      ¬ Interleave.Fault (instr act N) s ∧ (Interleave.Done s → (∀ i ∈ f.table, (fun g => s.heap g i) = (runView act p l1 fun g => h g i).2) ∧
        ∀ i, i ∉ f.table → ∀ g, s.heap g i = h g i) := by
    intro s hs
    obtain ⟨r1, r2⟩ := Interleave.interleave (F := F) (local_instr act N S)
      (fun t u htu _ j hj => h4 t u htu j hj) (s0 := ⟨h, fun t => ⟨l0 t, prog p (S t)⟩⟩)
      (by
        intro t x hx
        simp only [prog, List.mem_flatMap, List.mem_map] at hx
        obtain ⟨i, hi, y, _, rfl⟩ := hx
        exact hi)
      (fun t => ⟨lf t, hF t⟩) hs
    refine ⟨r1, fun hd => ?_⟩
    obtain ⟨q1, q2⟩ := r2 hd
    refine ⟨?_, ?_⟩
    · intro i hi
      obtain ⟨t, ht⟩ := (h5 i).1 hi
      rw [← hv t i ht]
      funext g
      exact q1 t g i ht
    · intro i hi g
      exact q2 g i fun t ht => hi ((h5 i).2 ⟨t, ht⟩)
  refine ⟨?_, ?_⟩
  · have hterm : ∀ (n : Nat) (s : Interleave.St W (Nat × I) L),
        Relation.ReflTransGen (Interleave.Step (instr act N)) ⟨h, fun t => ⟨l0 t, prog p (S t)⟩⟩ s →
        (∀ t, T ≤ t → (s.thr t).todo = []) → Interleave.left T s = n →
        ∃ s', Relation.ReflTransGen (Interleave.Step (instr act N)) ⟨h, fun t => ⟨l0 t, prog p (S t)⟩⟩ s' ∧ Interleave.Done s' := by
      intro n
      induction n using Nat.strong_induction_on with
      | _ n ih =>
        intro s hs hT' hl
        by_cases hd : Interleave.Done s
        · exact ⟨s, hs, hd⟩
        · obtain ⟨s', hs'⟩ := Interleave.progress (main s hs).1 hd
          obtain ⟨d1, d2⟩ := Interleave.decreases hT' hs'
          exact ih _ (hl ▸ d1) s' (hs.tail hs') d2 rfl
    obtain ⟨s, hs, hd⟩ := hterm _ _ .refl (by intro t ht; simp [h6 t ht, prog]) rfl
    exact ⟨s, ⟨rs, S, h1, h2, hs⟩, hd⟩
  · rintro s ⟨rs', S', h1', h2', hs⟩
    rw [h1] at h1'
    injection h1' with hrs
    subst hrs
    have : S' = S := by
      funext t
      have := h2' t
      rw [h2 t] at this
      injection this with this
      exact this.symm
    subst this
    exact main s hs

/-- the same for a subset made by `Set::make` of a node with `col.length` sites -/
theorem subset_correct (p : List I) (hind : ∀ l l' v, (runView act p l v).2 = (runView act p l' v).2) {col : List Nat} {cb : Nat} {sub : Sub}
    (hsub : makeSub col cb = ok sub) {T : Nat} (hT : 0 < T) (hov : col.length * T < 2 ^ 31) (l0 : Nat → L) (l1 : L) (h : Interleave.Heap W) :
    (∃ s, Reaches act p (Form.of sub) col.length T l0 h s ∧ Interleave.Done s) ∧
    ∀ s, Reaches act p (Form.of sub) col.length T l0 h s → ¬ Interleave.Fault (instr act col.length) s ∧
      (Interleave.Done s → (∀ i, col[i]? = some cb → (fun g => s.heap g i) = (runView act p l1 fun g => h g i).2) ∧
        ∀ i, col[i]? ≠ some cb → ∀ g, s.heap g i = h g i) := by
  have htab := form_of_makeSub hsub
  have hmem : ∀ i, i ∈ (Form.of sub).table ↔ col[i]? = some cb := by
    intro i
    rw [htab, mem_sitesFrom]
    constructor
    · rintro ⟨k, rfl, hk⟩; simpa using hk
    · intro hi; exact ⟨i, by simp, hi⟩
  have hsz : (Form.of sub).size ≤ col.length := by rw [form_size, htab]; exact sitesFrom_length_le cb col
  have := loop_correct (act := act) (N := col.length) p hind hT (f := Form.of sub)
    (by rw [htab]; exact (sitesFrom_sorted cb col 0).imp fun hlt => Nat.ne_of_lt hlt)
    (by
      intro i hi
      rw [hmem] at hi
      by_contra hc
      rw [List.getElem?_eq_none (by omega)] at hi
      simp at hi)
    (by
      have h1 : active (Form.of sub).size T ≤ T := by unfold active; omega
      calc _ ≤ col.length * T := Nat.mul_le_mul hsz h1
        _ < _ := hov) l0 l1 h
  refine ⟨this.1, fun s hs => ⟨(this.2 s hs).1, fun hd => ?_⟩⟩
  obtain ⟨a, b⟩ := (this.2 s hs).2 hd
  exact ⟨fun i hi => a i ((hmem i).2 hi), fun i hi => b i fun hc => hi ((hmem i).1 hc)⟩

end Verif.SiteLoop
