import Verif.LayoutCreateProps
/-
Property C106 on many nodes.
-/
namespace Verif.LayoutCreate
open Verif Outcome Verif.Layout Verif.ParLayout Verif.LatticeIO

/-! ## Specification -/

/-- QMP kept to what it was asked for: in every direction the machine divides the extents passed to `QMP_layout_grid`, i.e. those of the lattice in
units of the smallest block -/
def Asked : List Nat → List Nat → List Nat → Prop
  | l :: L, d :: D, p :: P => p ∣ l / d ∧ Asked L D P
  | [], [], [] => True
  | _, _, _ => False

/-- the block of a node has an even first extent -/
def EvenFirst (S : List Nat) : Prop := ∃ s0 ss, S = s0 :: ss ∧ s0 % 2 = 0

/-- what the ordering needs of the blocks -/
def Fits (o : Order) (S : List Nat) : Prop := o = .lex ∨ EvenFirst S

/-! ## Lemmas -/

theorem zipMul_ok : ∀ {a b c : List Nat}, zipMul a b = ok c → a.length = b.length ∧ c = mulL a b
  | [], [], c, h => by injection h with h; subst h; simp [mulL]
  | x :: a, y :: b, c, h => by
    simp only [zipMul, bind_eq_ok] at h
    obtain ⟨r, h1, h2⟩ := h
    injection h2 with h2
    subst h2
    obtain ⟨e1, rfl⟩ := zipMul_ok h1
    exact ⟨by simp [e1], by simp [mulL]⟩
  | [], _ :: _, c, h => by cases h
  | _ :: _, [], c, h => by cases h

theorem zipAdd_ok : ∀ {a b c : List Nat}, zipAdd a b = ok c → c = addL a b
  | [], [], c, h => by injection h with h; subst h; simp [addL]
  | x :: a, y :: b, c, h => by
    simp only [zipAdd, bind_eq_ok] at h
    obtain ⟨r, h1, h2⟩ := h
    injection h2 with h2
    subst h2
    have e := zipAdd_ok h1
    subst e
    simp [addL]
  | [], _ :: _, c, h => by cases h
  | _ :: _, [], c, h => by cases h

theorem zipDiv_cons {l : Nat} {L P S : List Nat} (h : zipDiv (l :: L) P = ok S) :
    ∃ p P' S', P = p :: P' ∧ 0 < p ∧ S = l / p :: S' ∧ zipDiv L P' = ok S' := by
  cases P with
  | nil => cases h
  | cons p P =>
    simp only [zipDiv, bind_eq_ok] at h
    obtain ⟨q, h1, r, h2, h3⟩ := h
    unfold cdiv at h1
    split at h1
    · cases h1
    · rename_i hp
      injection h1 with h1
      injection h3 with h3
      subst h1; subst h3
      exact ⟨p, P, r, rfl, Nat.pos_of_ne_zero hp, rfl, h2⟩

theorem zipDiv_nil {P S : List Nat} (h : zipDiv [] P = ok S) : P = [] ∧ S = [] := by
  cases P with
  | nil => injection h with h; exact ⟨rfl, h.symm⟩
  | cons p P => cases h

/-- if the last site of the lattice lies in a block, the blocks cut the lattice exactly and the part of a block that is used is the whole of it -/
theorem corner_cut : ∀ {L P S B p r : List Nat}, zipDiv L P = ok S → List.Forall₂ (· ≤ ·) B S → (∀ l ∈ L, 0 < l) → InRange p P → InRange r B →
    addL (mulL p S) r = L.map (· - 1) → Cut L P S ∧ B = S
  | [], P, S, B, p, r, h, hB, _, _, _, _ => by
    obtain ⟨rfl, rfl⟩ := zipDiv_nil h
    cases hB
    exact ⟨trivial, rfl⟩
  | l :: L, P, S, B, p, r, h, hB, hL, hp, hr, e => by
    obtain ⟨q, P, S, rfl, hq, rfl, h'⟩ := zipDiv_cons h
    cases hB with
    | @cons b _ B _ hb hB =>
      cases p with
      | nil => cases hp
      | cons x p =>
        cases r with
        | nil => cases hr
        | cons y r =>
          simp only [mulL, addL, List.zipWith_cons_cons, List.map_cons, List.cons.injEq] at e
          simp only [List.mem_cons, forall_eq_or_imp] at hL
          obtain ⟨h1, h2⟩ := corner_cut h' hB hL.2 hp.2 hr.2 e.2
          have hx := hp.1
          have hy := hr.1
          have h3 : x * (l / q) + l / q ≤ q * (l / q) := by
            rw [← Nat.succ_mul]; exact Nat.mul_le_mul_right _ hx
          have h4 : q * (l / q) ≤ l := Nat.mul_div_le l q
          have hl := hL.1
          have e1 := e.1
          refine ⟨⟨by omega, h1⟩, ?_⟩
          rw [h2]
          congr 1
          omega

theorem block_in : ∀ {L P S B p r : List Nat}, zipDiv L P = ok S → List.Forall₂ (· ≤ ·) B S → InRange p P → InRange r B →
    InRange (addL (mulL p S) r) L
  | [], P, S, B, p, r, h, hB, hp, hr => by
    obtain ⟨rfl, rfl⟩ := zipDiv_nil h
    cases hB
    cases p with
    | nil => cases r with
      | nil => trivial
      | cons => cases hr
    | cons => cases hp
  | l :: L, P, S, B, p, r, h, hB, hp, hr => by
    obtain ⟨q, P, S, rfl, hq, rfl, h'⟩ := zipDiv_cons h
    cases hB with
    | @cons b _ B _ hb hB =>
      cases p with
      | nil => cases hp
      | cons x p =>
        cases r with
        | nil => cases hr
        | cons y r =>
          refine ⟨?_, block_in h' hB hp.2 hr.2⟩
          have hx := hp.1
          have hy := hr.1
          have h3 : x * (l / q) + l / q ≤ q * (l / q) := by
            rw [← Nat.succ_mul]; exact Nat.mul_le_mul_right _ hx
          have h4 : q * (l / q) ≤ l := Nat.mul_div_le l q
          show x * (l / q) + y < l
          omega

/-- the part of a block that the ordering reaches -/
def reach : Order → List Nat → List Nat
  | .lex, S => S
  | _, s0 :: ss => 2 * (s0 / 2) :: ss
  | _, [] => []

theorem reach_le (o : Order) (S : List Nat) : List.Forall₂ (· ≤ ·) (reach o S) S := by
  have hs : ∀ S : List Nat, List.Forall₂ (· ≤ ·) S S := fun S => List.forall₂_same.2 fun x _ => Nat.le_refl x
  cases o with
  | lex => exact hs S
  | cb2 => cases S with
    | nil => exact .nil
    | cons a S => exact .cons (Nat.mul_div_le a 2) (hs S)
  | cb3d => cases S with
    | nil => exact .nil
    | cons a S => exact .cons (Nat.mul_div_le a 2) (hs S)

theorem fits_of_reach {o : Order} {S : List Nat} (hne : S ≠ []) (h : reach o S = S) : Fits o S := by
  cases S with
  | nil => exact absurd rfl hne
  | cons a S =>
    cases o with
    | lex => exact Or.inl rfl
    | cb2 => injection h with h _; exact Or.inr ⟨a, S, rfl, by omega⟩
    | cb3d => injection h with h _; exact Or.inr ⟨a, S, rfl, by omega⟩

theorem coords_reach {o : Order} {L : List Nat} {m : Machine} {S : List Nat} {n i : Nat} {c : List Nat} (h2 : o = .cb3d → 2 ≤ S.length)
    (h : (geomOf o L m S).siteCoords n i = ok c) : ∃ r, InRange r (reach o S) ∧ c = addL (mulL (m.coordFrom n) S) r := by
  cases o with
  | lex =>
    simp only [geomOf, geomLex, ParLayout.siteCoordsLex, bind_eq_ok] at h
    obtain ⟨base, h1, r, h2, h3⟩ := h
    obtain ⟨_, rfl⟩ := zipMul_ok h1
    obtain ⟨hp, rfl⟩ := crtesn_ok h2
    exact ⟨_, digits_inBox _ hp, zipAdd_ok h3⟩
  | cb2 =>
    simp only [geomOf, geomCB2, ParLayout.siteCoordsCB2, bind_eq_ok] at h
    obtain ⟨v, _, hS, h1, base, h2, cb, _, q, _, tmp, h3, h4⟩ := h
    cases S with
    | nil => cases h1
    | cons s0 ss =>
      injection h1 with h1
      subst h1
      obtain ⟨_, rfl⟩ := zipMul_ok h2
      obtain ⟨hp, rfl⟩ := crtesn_ok h3
      have hb := digits_inBox q hp
      generalize hm : mulL (m.coordFrom n) (s0 :: ss) = base at *
      simp only [digits] at h4 hb
      cases base with
      | nil => cases h4
      | cons b0 bs =>
        simp only [bind_eq_ok] at h4
        obtain ⟨cs, h5, s, _, h6⟩ := h4
        injection h6 with h6
        subst h6
        rw [zipAdd_ok h5]
        refine ⟨(2 * (q % (s0 >>> 1)) + (s &&& 1)) :: digits (q / (s0 >>> 1)) ss, ⟨?_, hb.2⟩, ?_⟩
        · have h7 := hb.1
          have e : s0 >>> 1 = s0 / 2 := rfl
          rw [e] at h7
          rw [and_one, e]
          have := Nat.mod_lt s (show 0 < 2 by norm_num)
          omega
        · simp only [addL, List.zipWith_cons_cons, Nat.add_assoc]
  | cb3d =>
    cases S with
    | nil => simp [geomOf, geomCB3D, ParLayout.siteCoordsCB3D, volume, volLoop] at h
    | cons s0 ss =>
      simp only [geomOf, geomCB3D, ParLayout.siteCoordsCB3D, bind_eq_ok, ok_bind] at h
      obtain ⟨v, _, base, h2', cb, _, q, _, tmp, h3, h4⟩ := h
      obtain ⟨_, rfl⟩ := zipMul_ok h2'
      obtain ⟨mid, t, rfl⟩ : ∃ mid t, ss = mid ++ [t] := by
        have hne : ss ≠ [] := by intro e; subst e; simp at h2
        exact ⟨ss.dropLast, ss.getLast hne, (List.dropLast_concat_getLast hne).symm⟩
      have hb := crtesn3d_ok (ls := s0 / 2 :: mid) h3
      generalize hm : mulL (m.coordFrom n) (s0 :: (mid ++ [t])) = base at *
      cases base with
      | nil => cases h4
      | cons b0 bs =>
        cases tmp with
        | nil => cases h4
        | cons t0 ts =>
          simp only [bind_eq_ok] at h4
          obtain ⟨cs, h5, s, _, h6⟩ := h4
          injection h6 with h6
          subst h6
          rw [zipAdd_ok h5]
          simp only [List.cons_append] at hb
          refine ⟨(2 * t0 + (s &&& 1)) :: ts, ⟨?_, hb.2⟩, ?_⟩
          · have := hb.1
            rw [and_one]
            have := Nat.mod_lt s (show 0 < 2 by norm_num)
            omega
          · simp only [addL, List.zipWith_cons_cons, Nat.add_assoc]

theorem last_in : ∀ {L : List Nat}, (∀ l ∈ L, 0 < l) → InRange (L.map (· - 1)) L
  | [], _ => trivial
  | l :: L, h => by
    simp only [List.mem_cons, forall_eq_or_imp] at h
    exact ⟨Nat.sub_lt h.1 Nat.one_pos, last_in h.2⟩

theorem zipDiv_length : ∀ {L P S : List Nat}, zipDiv L P = ok S → S.length = L.length ∧ P.length = L.length ∧ ∀ p ∈ P, 0 < p
  | [], P, S, h => by
    obtain ⟨rfl, rfl⟩ := zipDiv_nil h
    simp
  | l :: L, P, S, h => by
    obtain ⟨q, P, S, rfl, hq, rfl, h'⟩ := zipDiv_cons h
    obtain ⟨h1, h2, h3⟩ := zipDiv_length h'
    exact ⟨by simp [h1], by simp [h2], by simpa using ⟨hq, h3⟩⟩

/-- exact blocks of the right kind make a good layout -/
theorem good_of_fits {o : Order} {L S : List Nat} {m : Machine} (hm : m.Good) (hcut : Cut L m.size S) (hf : Fits o S) (hne : L ≠ [])
    (h2 : o = .cb3d → 2 ≤ L.length) (hP : ∀ p ∈ m.size, 0 < p) (hv : nsites L < 2 ^ 31) : (geomOf o L m S).Good := by
  have hlen := cut_lengths hcut
  have hns := cut_nsites hcut
  rcases Nat.eq_zero_or_pos (nsites S) with h0 | h0
  · have hL : nsites L = 0 := by rw [hns, h0, Nat.mul_zero]
    have hg : (geomOf o L m S).L = L ∧ (geomOf o L m S).sites = nsites S := by cases o <;> exact ⟨rfl, rfl⟩
    refine ⟨fun c hc => ?_, fun n i _ hi => ?_⟩
    · rw [hg.1] at hc
      exact absurd (rank_lt hc) (by omega)
    · rw [hg.2] at hi
      omega
  · have hS := pos_of_nsites_pos h0
    cases o with
    | lex => exact C02_lexico L S m hm hcut hne hS hP hv
    | cb2 =>
      rcases hf with h | ⟨s0, ss, rfl, he⟩
      · cases h
      · exact C02_cb2 L ss s0 m hm hcut he hS hv
    | cb3d =>
      rcases hf with h | ⟨s0, ss, rfl, he⟩
      · cases h
      · obtain ⟨mid, t, rfl⟩ : ∃ mid t, ss = mid ++ [t] := by
          have hne : ss ≠ [] := by
            intro e; subst e
            have := h2 rfl
            simp at hlen
            omega
          exact ⟨ss.dropLast, ss.getLast hne, (List.dropLast_concat_getLast hne).symm⟩
        exact C02_cb3d L mid s0 t m hm hcut he hS hv

/-! ## What the checks of `create` say -/

theorem parCreate_iff {dbg : Bool} {o : Order} {nd : Nat} {L S : List Nat} {m : Machine} :
    parCreate dbg o true nd L m = ok S ↔ L.length = nd ∧ volume L = ok (nsites L) ∧ 0 < nsites m.size ∧ nsites L % nsites m.size = 0 ∧
      minCheck L (minDim o nd) = ok () ∧ zipDiv L m.size = ok S ∧ volume S = ok (nsites S) ∧ nodeCheck m = ok () ∧
      (dbg = true → siteCheck o (geomOf o L m S) (nsites L) = ok ()) := by
  unfold parCreate
  by_cases hl : L.length = nd
  · simp only [Bool.not_true, Bool.false_eq_true, ↓reduceIte, hl, ne_eq, not_true_eq_false, true_and]
    constructor
    · intro h
      simp only [bind_eq_ok] at h
      obtain ⟨v, h1, r, h2, h3⟩ := h
      obtain ⟨rfl, _⟩ := volume_ok h1
      unfold cmod at h2
      split at h2
      · cases h2
      · rename_i hp
        injection h2 with h2
        subst h2
        split at h3
        · cases h3
        · rename_i hr
          simp only [bind_eq_ok] at h3
          obtain ⟨⟨⟩, h4, S', h5, w, h6, ⟨⟩, h7, h8⟩ := h3
          obtain ⟨rfl, _⟩ := volume_ok h6
          cases dbg with
          | false =>
            simp only [Bool.false_eq_true, ↓reduceIte] at h8
            injection h8 with h8
            subst h8
            exact ⟨h1, Nat.pos_of_ne_zero hp, by omega, h4, h5, h6, h7, by simp⟩
          | true =>
            simp only [↓reduceIte, bind_eq_ok] at h8
            obtain ⟨⟨⟩, h9, h8⟩ := h8
            injection h8 with h8
            subst h8
            exact ⟨h1, Nat.pos_of_ne_zero hp, by omega, h4, h5, h6, h7, fun _ => h9⟩
    · rintro ⟨h1, h2, h3, h4, h5, h6, h7, h8⟩
      simp only [h1, ok_bind, cmod_pos h2, h3, ↓reduceIte, h4, subgrid, h5, h6, h7, not_true_eq_false]
      cases dbg with
      | false => simp
      | true => simp [h8 rfl]
  · simp [hl]

theorem minCheck_lex : ∀ (L : List Nat) (n : Nat), minCheck L (List.replicate n 1) = ok ()
  | [], n => by cases n <;> rfl
  | l :: L, 0 => rfl
  | l :: L, n + 1 => by simp [List.replicate_succ, minCheck, minCheck_lex L n, Nat.mod_one]

theorem asked_lex : ∀ {L P S : List Nat} {n : Nat}, L.length = n → zipDiv L P = ok S → Asked L (List.replicate n 1) P → Cut L P S
  | [], P, S, n, hn, h, _ => by
    obtain ⟨rfl, rfl⟩ := zipDiv_nil h
    trivial
  | l :: L, P, S, n, hn, h, ha => by
    obtain ⟨q, P, S, rfl, hq, rfl, h'⟩ := zipDiv_cons h
    subst hn
    simp only [List.length_cons, List.replicate_succ, Asked, Nat.div_one] at ha
    exact ⟨(Nat.mul_div_cancel' ha.1).symm, asked_lex rfl h' ha.2⟩

theorem asked_fits {o : Order} {nd : Nat} {L P S : List Nat} (hne : L ≠ []) (hl : L.length = nd) (h : zipDiv L P = ok S)
    (hmin : minCheck L (minDim o nd) = ok ()) (ha : Asked L (minDim o nd) P) : Cut L P S ∧ Fits o S := by
  by_cases ho : o = .lex
  · subst ho
    exact ⟨asked_lex hl h ha, Or.inl rfl⟩
  · have hd : minDim o nd = (List.replicate nd 1).set 0 2 := by cases o <;> first | rfl | exact absurd rfl ho
    cases L with
    | nil => exact absurd rfl hne
    | cons l L =>
      obtain ⟨q, P, S, rfl, hq, rfl, h'⟩ := zipDiv_cons h
      subst hl
      rw [hd] at hmin ha
      simp only [List.length_cons, List.replicate_succ, List.set_cons_zero, Asked, minCheck, cmod_pos (show 0 < 2 by norm_num), ok_bind] at hmin ha
      have he : l % 2 = 0 := by
        by_contra hc
        simp [hc] at hmin
      obtain ⟨⟨k, hk⟩, ha'⟩ := ha
      have hlk : l = q * (2 * k) := by
        have : l = 2 * (l / 2) := by omega
        rw [this, hk]; ring
      have hdv : l / q = 2 * k := by rw [hlk, Nat.mul_div_cancel_left _ hq]
      refine ⟨⟨by rw [hdv]; exact hlk, asked_lex rfl h' ha'⟩, Or.inr ⟨_, _, rfl, by rw [hdv]; omega⟩⟩

/-! ## C106 on many nodes -/

/-- C106, many nodes: if QMP lays the machine out as it is asked to, whatever `create` accepts is laid out correctly, in every ordering -/
theorem C106_par_partial (dbg : Bool) (o : Order) (nd : Nat) (hnd : 0 < nd) (h3d : o = .cb3d → 2 ≤ nd) (L S : List Nat) (m : Machine) (hm : m.Good)
    (hq : Asked L (minDim o nd) m.size) (h : parCreate dbg o true nd L m = ok S) :
    Cut L m.size S ∧ Fits o S ∧ (geomOf o L m S).Good := by
  obtain ⟨hl, hv, hN, _, hmin, hS, _⟩ := parCreate_iff.1 h
  have hne : L ≠ [] := by intro e; subst e; simp at hl; omega
  obtain ⟨hc, hf⟩ := asked_fits hne hl hS hmin hq
  exact ⟨hc, hf, good_of_fits hm hc hf hne (fun e => hl ▸ h3d e) (zipDiv_length hS).2.2 (volume_ok hv).2⟩

theorem nodeCheck_good {m : Machine} (hm : m.Good) : nodeCheck m = ok () := by
  refine (fold_unit _).2 fun n hn => ?_
  rw [List.mem_range] at hn
  simp [(hm.1 n hn).2]

/-- C106, many nodes: a lattice that the machine cuts into blocks of the right kind is never refused -/
theorem C106_par_accepts (o : Order) (L S : List Nat) (m : Machine) (hm : m.Good) (hL : ∀ l ∈ L, 0 < l)
    (hcut : Cut L m.size S) (hf : Fits o S) (hv : nsites L < 2 ^ 31) : parCreate false o true L.length L m = ok S := by
  have hns := cut_nsites hcut
  have hLp := nsites_pos hL
  have hPp : 0 < nsites m.size := by
    rcases Nat.eq_zero_or_pos (nsites m.size) with h | h
    · rw [h, Nat.zero_mul] at hns; omega
    · exact h
  have hSp : 0 < nsites S := by
    rcases Nat.eq_zero_or_pos (nsites S) with h | h
    · rw [h, Nat.mul_zero] at hns; omega
    · exact h
  refine parCreate_iff.2 ⟨rfl, volume_eq hL hv, hPp, by rw [hns, Nat.mul_mod_right], ?_, subgrid_eq hcut (pos_of_nsites_pos hPp),
    volume_eq (pos_of_nsites_pos hSp) (cut_pos_bound hcut hv hPp), nodeCheck_good hm, by simp⟩
  by_cases ho : o = .lex
  · subst ho
    exact minCheck_lex _ _
  · have hd : minDim o L.length = (List.replicate L.length 1).set 0 2 := by cases o <;> first | rfl | exact absurd rfl ho
    rcases hf with h | ⟨s0, ss, rfl, he⟩
    · exact absurd h ho
    · rw [hd]
      cases L with
      | nil => exact absurd (cut_lengths hcut).2 (by simp)
      | cons l L =>
        cases hsz : m.size with
        | nil => rw [hsz] at hcut; exact hcut.elim
        | cons p P =>
          rw [hsz] at hcut
          have hl := hcut.1
          have hl2 : l % 2 = 0 := by rw [hl, Nat.mul_mod, he, Nat.mul_zero, Nat.zero_mod]
          simp [List.replicate_succ, minCheck, cmod_pos (show 0 < 2 by norm_num), hl2, minCheck_lex]

/-- C106, many nodes: what `create` accepts is laid out correctly exactly when the machine cuts the lattice into equal blocks, and, with
checkerboards, the first extent of a block is even; `create` tests neither -/
theorem C106_par_exact (o : Order) (nd : Nat) (hnd : 0 < nd) (h3d : o = .cb3d → 2 ≤ nd) (L S : List Nat) (m : Machine) (hm : m.Good)
    (hL : ∀ l ∈ L, 0 < l) (h : parCreate false o true nd L m = ok S) : (geomOf o L m S).Good ↔ Cut L m.size S ∧ Fits o S := by
  obtain ⟨hl, hv, hN, _, hmin, hS, _⟩ := parCreate_iff.1 h
  have hne : L ≠ [] := by intro e; subst e; simp at hl; omega
  have hlen := zipDiv_length hS
  have hSne : S ≠ [] := by intro e; subst e; simp at hlen; omega
  constructor
  · intro hg
    have hgL : (geomOf o L m S).L = L ∧ (geomOf o L m S).nodes = nsites m.size := by cases o <;> exact ⟨rfl, rfl⟩
    obtain ⟨n, i, _, hn, _, _, hc⟩ := hg.1 (L.map (· - 1)) (by rw [hgL.1]; exact last_in hL)
    rw [hgL.2] at hn
    obtain ⟨r, hr, e⟩ := coords_reach (fun e => by rw [hlen.1, hl]; exact h3d e) hc
    obtain ⟨h1, h2⟩ := corner_cut hS (reach_le o S) hL (hm.1 n hn).1 hr e.symm
    exact ⟨h1, fits_of_reach hSne h2⟩
  · rintro ⟨hc, hf⟩
    exact good_of_fits hm hc hf hne (fun e => hl ▸ h3d e) hlen.2.2 (volume_ok hv).2

/-! ### with the test of the sites -/

theorem siteCheck_iff {o : Order} {g : Geom} {v : Nat} : siteCheck o g v = ok () ↔
    ∀ s < v, ∃ c1 i n c2, crt o s g.L = ok c1 ∧ g.linearSiteIndex c1 = ok i ∧ g.nodeNumber c1 = ok n ∧ g.siteCoords n i = ok c2 ∧
      loc o c2 g.L = ok s := by
  unfold siteCheck
  rw [fold_unit]
  simp only [List.mem_range]
  refine forall_congr' fun s => imp_congr_right fun _ => ?_
  simp only [bind_eq_ok]
  constructor
  · rintro ⟨c1, h1, i, h2, n, h3, c2, h4, j, h5, h6⟩
    refine ⟨c1, i, n, c2, h1, h2, h3, h4, ?_⟩
    split at h6
    · cases h6
    · rename_i h; rw [h5]; congr 1; omega
  · rintro ⟨c1, i, n, c2, h1, h2, h3, h4, h5⟩
    exact ⟨c1, h1, i, h2, n, h3, c2, h4, s, h5, by simp⟩

/-- `crtesn` and `local_site` of the build number the sites of the lattice -/
theorem crt_loc (o : Order) {L : List Nat} (hne : L ≠ []) (hp : ∀ l ∈ L, 0 < l) (hv : nsites L < 2 ^ 31) : MutuallyInverse L (fun i => crt o i L) (fun c => loc o c L) := by
  have key : MutuallyInverse L (fun i => crtesn i L) (fun c => localSite c L) := C01_lexico L hne hp hv
  cases o with
  | lex => exact key
  | cb2 => exact key
  | cb3d =>
    obtain ⟨ls, t, rfl⟩ : ∃ mid t, L = mid ++ [t] := ⟨L.dropLast, L.getLast hne, (List.dropLast_concat_getLast hne).symm⟩
    have ht : 0 < t := hp t (by simp)
    have hls : ∀ l ∈ ls, 0 < l := fun l hl => hp l (by simp [hl])
    constructor
    · intro i hi
      rw [nsites_append] at hi
      have hq : i / t < nsites ls := (Nat.div_lt_iff_lt_mul ht).2 hi
      have hr : InRange (digits (i / t) ls ++ [i % t]) (ls ++ [t]) := inRange_append.2 ⟨digits_inRange hq, Nat.mod_lt _ ht⟩
      refine ⟨_, crtesn3d_eq hls ht i, hr, ?_⟩
      show localSite3d _ _ = _
      rw [localSite3d_eq hr hv, rank_digits hq, Nat.mod_add_div]
    · intro c hc
      obtain ⟨a, z, rfl, ha, hz⟩ := inRange_snoc hc
      have h1 := rank_lt ha
      refine ⟨_, localSite3d_eq hc hv, ?_, ?_⟩
      · rw [nsites_append]
        have : t * (rank a ls + 1) ≤ t * nsites ls := Nat.mul_le_mul_left _ h1
        rw [Nat.mul_add, Nat.mul_comm t (nsites ls)] at this
        omega
      · show crtesn3d _ _ = _
        rw [crtesn3d_eq hls ht, Nat.add_mul_div_left _ _ ht, Nat.div_eq_of_lt hz, Nat.zero_add, Nat.add_mul_mod_self_left, Nat.mod_eq_of_lt hz,
          digits_rank ha]

/-- the test of the sites finds every machine that does not cut the lattice, provided the node QMP names for any position whatever
has a position on the grid -/
theorem fits_of_check {o : Order} {L S : List Nat} {m : Machine} (hne : L ≠ []) (h3d : o = .cb3d → 2 ≤ L.length) (hL : ∀ l ∈ L, 0 < l)
    (hv : nsites L < 2 ^ 31) (hS : zipDiv L m.size = ok S) (hnode : ∀ p, InRange (m.coordFrom (m.nodeFrom p)) m.size)
    (h : siteCheck o (geomOf o L m S) (nsites L) = ok ()) : Cut L m.size S ∧ Fits o S := by
  have hgL : (geomOf o L m S).L = L ∧ (geomOf o L m S).nodeNumber = nodeNumber m S := by cases o <;> exact ⟨rfl, rfl⟩
  have hlen := zipDiv_length hS
  have hSne : S ≠ [] := by
    intro e; subst e
    exact hne (List.length_eq_zero_iff.1 (by simpa using hlen.1.symm))
  have hinv := crt_loc o hne hL hv
  obtain ⟨s, hs1, hs2, hs3⟩ := hinv.2 _ (last_in hL)
  obtain ⟨c1, i, n, c2, h1, h2, h3, h4, h5⟩ := siteCheck_iff.1 h s hs2
  rw [hgL.1] at h1 h5
  rw [hgL.2] at h3
  have e1 : c1 = L.map (· - 1) := by
    have := h1.symm.trans hs3
    injection this
  have hn : InRange (m.coordFrom n) m.size := by
    simp only [nodeNumber, bind_eq_ok] at h3
    obtain ⟨t, _, h3⟩ := h3
    injection h3 with h3
    rw [← h3]; exact hnode t
  obtain ⟨r, hr, e⟩ := coords_reach (fun e => by rw [hlen.1]; exact h3d e) h4
  have hin : InRange c2 L := by rw [e]; exact block_in hS (reach_le o S) hn hr
  have e2 : c2 = L.map (· - 1) := by
    obtain ⟨j, hj1, _, hj3⟩ := hinv.2 c2 hin
    have ej : j = s := by
      have := hj1.symm.trans h5
      injection this
    subst ej
    have := hj3.symm.trans hs3
    injection this
  obtain ⟨h6, h7⟩ := corner_cut hS (reach_le o S) hL hn hr (e ▸ e2)
  exact ⟨h6, fits_of_reach hSne h7⟩

theorem zipDiv_zero : ∀ {L P S : List Nat}, zipDiv L P = ok S → nsites L = 0 → nsites S = 0
  | [], P, S, h, h0 => by simp [nsites] at h0
  | l :: L, P, S, h, h0 => by
    obtain ⟨q, P, S, rfl, hq, rfl, h'⟩ := zipDiv_cons h
    simp only [nsites, Nat.mul_eq_zero] at h0 ⊢
    rcases h0 with rfl | h0
    · exact Or.inl (Nat.zero_div q)
    · exact Or.inr (zipDiv_zero h' h0)

theorem good_zero {o : Order} {L S : List Nat} {m : Machine} (hS : zipDiv L m.size = ok S) (h0 : nsites L = 0) : (geomOf o L m S).Good := by
  have hg : (geomOf o L m S).L = L ∧ (geomOf o L m S).sites = nsites S := by cases o <;> exact ⟨rfl, rfl⟩
  refine ⟨fun c hc => ?_, fun n i _ hi => ?_⟩
  · rw [hg.1] at hc
    exact absurd (rank_lt hc) (by omega)
  · rw [hg.2, zipDiv_zero hS h0] at hi
    omega

/-- C106, many nodes, with the test of the sites (QDP_DEBUG >= 2): whatever `create` accepts is laid out correctly, whether or not QMP does as asked -/
theorem C106_par_checked (o : Order) (nd : Nat) (hnd : 0 < nd) (h3d : o = .cb3d → 2 ≤ nd) (L S : List Nat) (m : Machine) (hm : m.Good)
    (hnode : ∀ p, InRange (m.coordFrom (m.nodeFrom p)) m.size) (h : parCreate true o true nd L m = ok S) : (geomOf o L m S).Good := by
  obtain ⟨hl, hv, hN, _, hmin, hS, _, _, hc⟩ := parCreate_iff.1 h
  have hne : L ≠ [] := by intro e; subst e; simp at hl; omega
  have hlen := zipDiv_length hS
  rcases Nat.eq_zero_or_pos (nsites L) with h0 | h0
  · exact good_zero hS h0
  · obtain ⟨h1, h2⟩ := fits_of_check hne (fun e => hl ▸ h3d e) (pos_of_nsites_pos h0) (volume_ok hv).2 hS hnode (hc rfl)
    exact good_of_fits hm h1 h2 hne (fun e => hl ▸ h3d e) hlen.2.2 (volume_ok hv).2


theorem vecCreate_ok {inner : Nat} {o : Order} {nd : Nat} {L S : List Nat} {m : Machine} (h : vecCreate inner o true nd L m = ok S) :
    parCreate true o true nd L m = ok S ∧ 0 < inner ∧ nsites S % inner = 0 := by
  unfold vecCreate at h
  by_cases hl : L.length = nd
  · simp only [Bool.not_true, Bool.false_eq_true, ↓reduceIte, hl, ne_eq, not_true_eq_false, bind_eq_ok] at h
    obtain ⟨v, h1, q, h2, h3⟩ := h
    split at h3
    · cases h3
    · simp only [bind_eq_ok] at h3
      obtain ⟨r, h4, h5⟩ := h3
      split at h5
      · cases h5
      · rename_i hr
        simp only [bind_eq_ok] at h5
        obtain ⟨⟨⟩, h6, S', h7, w, h8, q', h9, h10⟩ := h5
        obtain ⟨rfl, _⟩ := volume_ok h1
        obtain ⟨rfl, _⟩ := volume_ok h8
        unfold cmod at h4 h9
        split at h4
        · cases h4
        · rename_i hN
          split at h9
          · cases h9
          · rename_i hi
            injection h4 with h4
            injection h9 with h9
            split at h10
            · cases h10
            · rename_i hq
              simp only [bind_eq_ok] at h10
              obtain ⟨⟨⟩, h11, ⟨⟩, h12, h13⟩ := h10
              injection h13 with h13
              subst h13
              refine ⟨parCreate_iff.2 ⟨hl, h1, Nat.pos_of_ne_zero hN, by omega, h6, h7, h8, h11, fun _ => h12⟩, Nat.pos_of_ne_zero hi, by omega⟩
  · simp [hl] at h

/-- C106, vector library on many nodes: the sites are always tested; what `create` accepts is laid out correctly and every node holds whole vectors -/
theorem C106_vec (inner : Nat) (o : Order) (nd : Nat) (hnd : 0 < nd) (h3d : o = .cb3d → 2 ≤ nd) (L S : List Nat) (m : Machine) (hm : m.Good)
    (hnode : ∀ p, InRange (m.coordFrom (m.nodeFrom p)) m.size) (h : vecCreate inner o true nd L m = ok S) :
    (geomOf o L m S).Good ∧ inner ∣ nsites S := by
  obtain ⟨h1, _, h2⟩ := vecCreate_ok h
  exact ⟨C106_par_checked o nd hnd h3d L S m hm hnode h1, Nat.dvd_of_mod_eq_zero h2⟩

/-! ## Refutations -/

/-- C106 fails on many nodes: a machine of three nodes declared with `-geom 3 1` and a lattice 4 x 6 are accepted (24 sites can be shared by three nodes);
each node gets a block 1 x 6, and no node holds the sites with x = 3 -/
theorem C106_geom_refuted : parCreate false .lex true 2 [4, 6] (lexMachine [3, 1]) = ok [1, 6] ∧
    ¬ (geomOf .lex [4, 6] (lexMachine [3, 1]) [1, 6]).Good := by
  have h : parCreate false .lex true 2 [4, 6] (lexMachine [3, 1]) = ok [1, 6] := by decide
  refine ⟨h, fun hg => ?_⟩
  have := ((C106_par_exact .lex 2 (by norm_num) (by simp) _ _ _ (lexMachine_good _) (by decide) h).1 hg).1
  simp [Cut, lexMachine] at this

/-- C106 fails on many nodes: a block may come out odd although the test of the smallest block passed: 6 x 2 on `-geom 2 1`, two colours -/
theorem C106_odd_block_refuted : parCreate false .cb2 true 2 [6, 2] (lexMachine [2, 1]) = ok [3, 2] ∧
    ¬ (geomOf .cb2 [6, 2] (lexMachine [2, 1]) [3, 2]).Good := by
  have h : parCreate false .cb2 true 2 [6, 2] (lexMachine [2, 1]) = ok [3, 2] := by decide
  exact ⟨h, C02_cb2_odd_block_fails⟩

/-! ### the cases of the theorems -/

theorem lexMachine_any (P : List Nat) (hP : ∀ p ∈ P, 0 < p) (p : List Nat) : InRange ((lexMachine P).coordFrom ((lexMachine P).nodeFrom p)) P :=
  digits_inBox _ hP

example : parCreate false .cb2 true 2 [8, 6] (lexMachine [2, 3]) = ok [4, 2] ∧ Asked [8, 6] (minDim .cb2 2) (lexMachine [2, 3]).size := by
  refine ⟨by decide, ?_⟩
  simp only [minDim, lexMachine, Asked, List.replicate, List.set]
  decide
example : parCreate false .cb3d true 3 [4, 3, 6] (lexMachine [1, 3, 2]) = ok [4, 1, 3] := by decide
example : parCreate true .cb2 true 2 [8, 2] (lexMachine [2, 1]) = ok [4, 2] := by decide
example : parCreate true .lex true 2 [4, 6] (lexMachine [3, 1]) = abort := by decide
example : vecCreate 4 .cb2 true 2 [8, 2] (lexMachine [2, 1]) = ok [4, 2] := by decide
example : vecCreate 4 .cb2 true 2 [4, 2] (lexMachine [2, 1]) = ok [2, 2] := by decide
example : vecCreate 8 .cb2 true 2 [4, 2] (lexMachine [2, 1]) = abort := by decide

end Verif.LayoutCreate
