import Verif.SseSpinTables
import Mathlib.Tactic.Abel
/-
Property C120: proofs.  A function is run once on formal sums of words of one site; what comes out holds for numbers, and site by site for any
number of sites.
-/
set_option linter.unusedSectionVars false
namespace Verif.SseSpin
open Verif Outcome Verif.Spin

/-! ## running on other values -/

structure Hom {α β : Type} (O : Ops α) (P : Ops β) (h : α → β) : Prop where
  one : ∀ n, h (O.one n) = P.one n
  add : ∀ x y z, O.add x y = some z → P.add (h x) (h y) = some (h z)
  sub : ∀ x y z, O.sub x y = some z → P.sub (h x) (h y) = some (h z)
  mul : ∀ x y z, O.mul x y = some z → P.mul (h x) (h y) = some (h z)

/-- the arrays of `τ` are windows of those of `σ`; the registers of `σ` hold what those of `τ` are known to hold -/
structure Rel {α β : Type} (h : α → β) (as bs ad bd : List β) (τ : St α) (σ : St β) : Prop where
  reg : ∀ r l v, τ.reg r l = some v → σ.reg r l = some (h v)
  src : σ.src = as ++ (τ.src.map h ++ bs)
  dst : σ.dst = ad ++ (τ.dst.map h ++ bd)
  sp : σ.sp = as.length + τ.sp
  dp : σ.dp = ad.length + τ.dp

theorem window_get {α β : Type} (h : α → β) (as bs : List β) (m : List α) (p : Nat) (v : α) (hv : m[p]? = some v) :
    (as ++ (m.map h ++ bs))[as.length + p]? = some (h v) := by
  have hp : p < m.length := (List.getElem?_eq_some_iff.1 hv).1
  rw [List.getElem?_append_right (by omega), Nat.add_sub_cancel_left, List.getElem?_append_left (by simpa using hp), List.getElem?_map, hv]
  rfl

theorem put_window {α β : Type} (h : α → β) (as bs : List β) (m xs : List α) (p : Nat) (hp : p + xs.length ≤ m.length) :
    put (as ++ (m.map h ++ bs)) (as.length + p) (xs.map h) = as ++ ((put m p xs).map h ++ bs) := by
  unfold put
  have h1 : (as ++ (m.map h ++ bs)).take (as.length + p) = as ++ (m.take p).map h := by
    rw [List.take_length_add_append, List.take_append_of_le_length (by rw [List.length_map]; omega), List.map_take]
  have h2 : (as ++ (m.map h ++ bs)).drop (as.length + p + xs.length) = (m.drop (p + xs.length)).map h ++ bs := by
    rw [Nat.add_assoc, List.drop_length_add_append, List.drop_append_of_le_length (by rw [List.length_map]; omega), List.map_drop]
  rw [List.length_map, h1, h2]
  simp

theorem Rel.set {α β : Type} {h : α → β} {as bs ad bd : List β} {τ : St α} {σ : St β} (H : Rel h as bs ad bd τ σ) (r : Fin 8)
    (v : Fin 4 → Option α) (w : Fin 4 → Option β) (hv : ∀ l x, v l = some x → w l = some (h x)) : Rel h as bs ad bd (τ.set r v) (σ.set r w) := by
  refine ⟨?_, H.src, H.dst, H.sp, H.dp⟩
  intro r' l x hx
  simp only [St.set] at hx ⊢
  split at hx
  · rename_i e; rw [if_pos e]; exact hv l x hx
  · rename_i e; rw [if_neg e]; exact H.reg r' l x hx

theorem lanes_rel {α β : Type} {h : α → β} {f : α → α → Option α} {g : β → β → Option β} (hfg : ∀ x y z, f x y = some z → g (h x) (h y) = some (h z))
    {a b : Fin 4 → Option α} {a' b' : Fin 4 → Option β} (ha : ∀ l v, a l = some v → a' l = some (h v)) (hb : ∀ l v, b l = some v → b' l = some (h v))
    (l : Fin 4) (x : α) (hx : lanes f a b l = some x) : lanes g a' b' l = some (h x) := by
  unfold lanes at hx ⊢
  cases ea : a l with
  | none => simp [ea] at hx
  | some u =>
    cases eb : b l with
    | none => simp [ea, eb] at hx
    | some w =>
      rw [ea, eb] at hx
      rw [ha l u ea, hb l w eb]
      exact hfg u w x hx

theorem step_rel {α β : Type} {O : Ops α} {P : Ops β} {h : α → β} (HH : Hom O P h) {as bs ad bd : List β} (h4 : as.length % 4 = 0) (d4 : ad.length % 4 = 0)
    {τ τ' : St α} {σ : St β} (H : Rel h as bs ad bd τ σ) (i : Ins) (hs : step O τ i = ok τ') :
    ∃ σ', step P σ i = ok σ' ∧ Rel h as bs ad bd τ' σ' := by
  cases i with
  | setf r l neg =>
    cases hs
    refine ⟨_, rfl, H.set r _ _ ?_⟩
    intro l' x hx
    split at hx
    · rename_i e; rw [if_pos e]; cases hx; rw [HH.one]
    · rename_i e; rw [if_neg e]; exact H.reg r l' x hx
  | load r d o =>
    cases d with
    | false =>
      simp only [step] at hs
      split at hs
      · rename_i hc
        cases hs
        refine ⟨_, by
          simp only [step]
          rw [if_pos]
          rw [H.sp, H.src]
          simp only [List.length_append, List.length_map]
          omega, H.set r _ _ ?_⟩
        intro l x hx
        rw [H.sp, H.src, Nat.add_assoc, Nat.add_assoc, ← Nat.add_assoc τ.sp]
        exact window_get h as bs τ.src _ x hx
      · exact absurd hs (by simp)
    | true =>
      simp only [step] at hs
      split at hs
      · rename_i hc
        cases hs
        refine ⟨_, by
          simp only [step]
          rw [if_pos]
          rw [H.dp, H.dst]
          simp only [List.length_append, List.length_map]
          omega, H.set r _ _ ?_⟩
        intro l x hx
        rw [H.dp, H.dst, Nat.add_assoc, Nat.add_assoc, ← Nat.add_assoc τ.dp]
        exact window_get h ad bd τ.dst _ x hx
      · exact absurd hs (by simp)
  | mov r a =>
    cases hs
    exact ⟨_, rfl, H.set r _ _ (H.reg a)⟩
  | shuf r a b c =>
    cases hs
    refine ⟨_, rfl, H.set r _ _ ?_⟩
    intro l x hx
    fin_cases l
    · exact H.reg _ _ _ hx
    · exact H.reg _ _ _ hx
    · exact H.reg _ _ _ hx
    · exact H.reg _ _ _ hx
  | add r a b =>
    cases hs
    exact ⟨_, rfl, H.set r _ _ (lanes_rel HH.add (H.reg a) (H.reg b))⟩
  | sub r a b =>
    cases hs
    exact ⟨_, rfl, H.set r _ _ (lanes_rel HH.sub (H.reg a) (H.reg b))⟩
  | mul r a b =>
    cases hs
    exact ⟨_, rfl, H.set r _ _ (lanes_rel HH.mul (H.reg a) (H.reg b))⟩
  | store o r =>
    simp only [step] at hs
    split at hs
    · rename_i hc
      cases e0 : τ.reg r 0 with
      | none => simp [e0] at hs
      | some x0 =>
      cases e1 : τ.reg r 1 with
      | none => simp [e0, e1] at hs
      | some x1 =>
      cases e2 : τ.reg r 2 with
      | none => simp [e0, e1, e2] at hs
      | some x2 =>
      cases e3 : τ.reg r 3 with
      | none => simp [e0, e1, e2, e3] at hs
      | some x3 =>
      rw [e0, e1, e2, e3] at hs
      cases hs
      refine ⟨{ σ with dst := put σ.dst (σ.dp + o) [h x0, h x1, h x2, h x3] }, ?_, H.reg, H.src, ?_, H.sp, H.dp⟩
      · simp only [step]
        rw [if_pos, H.reg r 0 x0 e0, H.reg r 1 x1 e1, H.reg r 2 x2 e2, H.reg r 3 x3 e3]
        rw [H.dp, H.dst]
        simp only [List.length_append, List.length_map]
        omega
      · simp only
        rw [H.dp, H.dst, Nat.add_assoc]
        exact put_window h ad bd τ.dst [x0, x1, x2, x3] (τ.dp + o) hc.2
    · exact absurd hs (by simp)
  | incS n =>
    cases hs
    exact ⟨_, rfl, H.reg, H.src, H.dst, by simp only [H.sp, Nat.add_assoc], H.dp⟩
  | incD n =>
    cases hs
    exact ⟨_, rfl, H.reg, H.src, H.dst, H.sp, by simp only [H.dp, Nat.add_assoc]⟩

theorem run_rel {α β : Type} {O : Ops α} {P : Ops β} {h : α → β} (HH : Hom O P h) {as bs ad bd : List β} (h4 : as.length % 4 = 0) (d4 : ad.length % 4 = 0)
    (is : List Ins) {τ τ' : St α} {σ : St β} (H : Rel h as bs ad bd τ σ) (hs : run O is τ = ok τ') :
    ∃ σ', run P is σ = ok σ' ∧ Rel h as bs ad bd τ' σ' := by
  induction is generalizing τ σ with
  | nil => cases hs; exact ⟨σ, rfl, H⟩
  | cons i is ih =>
    simp only [run] at hs
    obtain ⟨τ1, h1, h2⟩ := bind_eq_ok.1 hs
    obtain ⟨σ1, h3, h4⟩ := step_rel HH h4 d4 H i h1
    obtain ⟨σ2, h5, h6⟩ := ih h4 h2
    exact ⟨σ2, by simp only [run, h3, ok_bind, h5], h6⟩

theorem run_append {α : Type} (O : Ops α) (a b : List Ins) (σ : St α) : run O (a ++ b) σ = run O a σ >>= run O b := by
  induction a generalizing σ with
  | nil => rfl
  | cons i a ih =>
    simp only [List.cons_append, run]
    cases step O σ i with
    | ok x => simp only [ok_bind, ih]
    | abort => rfl
    | ub => rfl

/-! ## formal sums -/

/-- ±1, or a sum of words with signs (`true`: minus) -/
inductive Sym | c (neg : Bool) | s (l : List (Nat × Bool))
deriving DecidableEq

def minus (l : List (Nat × Bool)) : List (Nat × Bool) := l.map fun p => (p.1, !p.2)

/-- words of `dst` go first -/
def join (a b : List (Nat × Bool)) : List (Nat × Bool) := if b.all (fun p => decide (100 ≤ p.1)) then b ++ a else a ++ b

def symOps : Ops Sym where
  one := .c
  add
    | .s a, .s b => some (.s (join a b))
    | _, _ => none
  sub
    | .s a, .s b => some (.s (a ++ minus b))
    | _, _ => none
  mul
    | .s a, .c n => some (.s (if n then minus a else a))
    | .c n, .s a => some (.s (if n then minus a else a))
    | _, _ => none

section
variable {S : Type} [CommRing S]

def term (ρ : Nat → S) (p : Nat × Bool) : S := if p.2 then -ρ p.1 else ρ p.1

def sum (ρ : Nat → S) : List (Nat × Bool) → S
  | [] => 0
  | p :: l => term ρ p + sum ρ l

def ev (ρ : Nat → S) : Sym → S
  | .c n => if n then -1 else 1
  | .s l => sum ρ l

theorem sum_append (ρ : Nat → S) (a b : List (Nat × Bool)) : sum ρ (a ++ b) = sum ρ a + sum ρ b := by
  induction a with
  | nil => simp [sum]
  | cons p a ih => simp [sum, ih, add_assoc]

theorem sum_minus (ρ : Nat → S) (a : List (Nat × Bool)) : sum ρ (minus a) = -sum ρ a := by
  induction a with
  | nil => simp [minus, sum]
  | cons p a ih =>
    obtain ⟨k, n⟩ := p
    simp only [minus, List.map_cons, sum] at ih ⊢
    rw [ih]
    cases n <;> simp [term, add_comm]

theorem sum_join (ρ : Nat → S) (a b : List (Nat × Bool)) : sum ρ (join a b) = sum ρ a + sum ρ b := by
  unfold join
  split
  · rw [sum_append, add_comm]
  · exact sum_append ρ a b

theorem symHom (ρ : Nat → S) : Hom symOps (ringOps S) (ev ρ) where
  one n := rfl
  add x y z h := by
    cases x <;> cases y <;> simp [symOps] at h
    subst h
    simp [ringOps, ev, sum_join]
  sub x y z h := by
    cases x <;> cases y <;> simp [symOps] at h
    subst h
    simp [ringOps, ev, sum_append, sum_minus, sub_eq_add_neg]
  mul x y z h := by
    cases x with
    | c n =>
      cases y with
      | c m => simp [symOps] at h
      | s a => simp [symOps] at h; subst h; cases n <;> simp [ringOps, ev, sum_minus]
    | s a =>
      cases y with
      | c n => simp [symOps] at h; subst h; cases n <;> simp [ringOps, ev, sum_minus]
      | s b => simp [symOps] at h

/-! ## one site, many sites -/

/-- words of `src` are numbered from 0, words of `dst` from 100 -/
def site (k m : Nat) : St Sym :=
  ⟨fun _ _ => none, 0, 0, (List.range k).map fun i => .s [(i, false)], (List.range m).map fun i => .s [(100 + i, false)]⟩

/-- the constants in registers -/
def masks (τ : St Sym) (r : Fin 8) (l : Fin 4) : Option Sym :=
  match τ.reg r l with
  | some (.c n) => some (.c n)
  | _ => none

def le (a b : Fin 8 → Fin 4 → Option Sym) : Bool := decide (∀ r l, a r l = none ∨ a r l = b r l)

/-- the check of one function, run on one site: the loop is the part behind the loop and loading the next site -/
def chk (f : Fn) (k m : Nat) (spec : List Sym) : Bool :=
  let loads := f.body.drop (f.post.length + 2)
  match run symOps f.pre (site k m) with
  | ok τ1 =>
    match run symOps loads { site k m with reg := masks τ1 } with
    | ok τI =>
      decide (f.body = (Ins.incS k :: f.post) ++ (Ins.incD m :: loads)) && le τI.reg τ1.reg &&
        decide (τI.sp = 0 ∧ τI.dp = 0 ∧ τ1.sp = 0 ∧ τ1.dp = 0 ∧ τ1.dst = τI.dst ∧ τ1.src = (site k m).src ∧ τI.src = (site k m).src) &&
        (match run symOps f.post τI with
         | ok τE => decide (τE.dst = spec ∧ τE.src = (site k m).src)
         | _ => false) &&
        (match run symOps (Ins.incS k :: f.post) τI with
         | ok τE => decide (τE.dst = spec ∧ τE.src = (site k m).src ∧ τE.sp = k ∧ τE.dp = 0) && le (masks τ1) τE.reg
         | _ => false)
    | _ => false
  | _ => false

/-- the words of a site -/
def env (x y : List S) (i : Nat) : S := if i < 100 then x.getD i 0 else y.getD (i - 100) 0

theorem env_src (x y : List S) (k : Nat) (hx : x.length = k) (hk : k ≤ 100) :
    ((List.range k).map fun i => Sym.s [(i, false)]).map (ev (env x y)) = x := by
  apply List.ext_getElem
  · simp [hx]
  · intro i h1 h2
    simp at h1
    have : i < 100 := by omega
    simp [ev, sum, term, env, this, List.getD, List.getElem?_eq_getElem h2]

theorem env_dst (x y : List S) (m : Nat) (hy : y.length = m) :
    ((List.range m).map fun i => Sym.s [(100 + i, false)]).map (ev (env x y)) = y := by
  apply List.ext_getElem
  · simp [hy]
  · intro i h1 h2
    simp [ev, sum, term, env, List.getD, List.getElem?_eq_getElem h2]

theorem le_spec {a b : Fin 8 → Fin 4 → Option Sym} (h : le a b = true) (r : Fin 8) (l : Fin 4) (v : Sym) (hv : a r l = some v) : b r l = some v := by
  have := of_decide_eq_true h r l
  rcases this with h | h
  · rw [h] at hv; cases hv
  · rw [← h]; exact hv

theorem masks_spec {τ : St Sym} {r : Fin 8} {l : Fin 4} {v : Sym} (hv : masks τ r l = some v) : ∃ n, v = .c n ∧ τ.reg r l = some (.c n) := by
  unfold masks at hv
  split at hv
  · rename_i n e; cases hv; exact ⟨n, rfl, e⟩
  · cases hv

theorem run_sites (f : Fn) (k m : Nat) (spec : List Sym) (h : chk f k m spec = true) (k4 : k % 4 = 0) (m4 : m % 4 = 0) (hk : k ≤ 100) (hm : spec.length = m)
    (q : List S × List S) (qs : List (List S × List S)) (hl : ∀ p ∈ q :: qs, p.1.length = k ∧ p.2.length = m) (hn : qs.length + 1 < 2 ^ 32) (rs rd : List S) :
    ∃ σ, f.call (ringOps S) (qs.length + 1) (start ((q :: qs).flatMap (·.1) ++ rs) ((q :: qs).flatMap (·.2) ++ rd)) = ok σ ∧
      σ.dst = (q :: qs).flatMap (fun p => spec.map (ev (env p.1 p.2))) ++ rd ∧ σ.src = (q :: qs).flatMap (·.1) ++ rs := by
  unfold chk at h
  set loads := f.body.drop (f.post.length + 2) with hloads
  simp only at h
  split at h
  · rename_i τ1 e1
    split at h
    · rename_i τI eI
      simp only [Bool.and_eq_true] at h
      obtain ⟨⟨⟨⟨hb, hle⟩, hz⟩, hpost⟩, hbody⟩ := h
      have hb := of_decide_eq_true hb
      obtain ⟨zI, zI', z1, z1', zd, zs, zs'⟩ := of_decide_eq_true hz
      split at hpost
      · rename_i τP eP
        obtain ⟨hP, hPs⟩ := of_decide_eq_true hpost
        split at hbody
        · rename_i τE eE
          rw [Bool.and_eq_true] at hbody
          obtain ⟨hE, hEm⟩ := hbody
          obtain ⟨E1, E2, E3, E4⟩ := of_decide_eq_true hE
          -- the state at the beginning of a site
          have inv : ∀ (qs : List (List S × List S)) (q : List S × List S) (as ad : List S) (σ : St S),
              (∀ p ∈ q :: qs, p.1.length = k ∧ p.2.length = m) → as.length % 4 = 0 → ad.length % 4 = 0 →
              Rel (ev (env q.1 q.2)) as (qs.flatMap (·.1) ++ rs) ad (qs.flatMap (·.2) ++ rd) τI σ →
              ∃ σ', (loop (ringOps S) f.body qs.length σ >>= run (ringOps S) f.post) = ok σ' ∧
                σ'.dst = ad ++ ((q :: qs).flatMap (fun p => spec.map (ev (env p.1 p.2))) ++ rd) ∧ σ'.src = as ++ ((q :: qs).flatMap (·.1) ++ rs) := by
            intro qs
            induction qs with
            | nil =>
              intro q as ad σ hl ha hd R
              obtain ⟨σ', h1, h2⟩ := run_rel (symHom _) ha hd f.post R eP
              refine ⟨σ', by simpa [loop, ok_bind] using h1, ?_, ?_⟩
              · rw [h2.dst, hP]; simp
              · rw [h2.src, hPs]
                simp only [site]
                rw [env_src q.1 q.2 k (hl q (by simp)).1 hk]
                simp
            | cons q2 qs ih =>
              intro q as ad σ hl ha hd R
              have hq := hl q (by simp)
              have hq2 := hl q2 (by simp)
              obtain ⟨σ1, h1, h2⟩ := run_rel (symHom _) ha hd (Ins.incS k :: f.post) R eE
              -- the window moves on
              let σ2 : St S := { σ1 with dp := σ1.dp + m }
              have R2 : Rel (ev (env q2.1 q2.2)) (as ++ q.1) (qs.flatMap (·.1) ++ rs) (ad ++ spec.map (ev (env q.1 q.2))) (qs.flatMap (·.2) ++ rd)
                  { site k m with reg := masks τ1 } σ2 := by
                refine ⟨?_, ?_, ?_, ?_, ?_⟩
                · intro r l v hv
                  obtain ⟨n, rfl, -⟩ := masks_spec hv
                  have := h2.reg r l _ (le_spec hEm r l _ hv)
                  exact this
                · show σ1.src = _
                  rw [h2.src, E2]
                  simp only [site]
                  rw [env_src q.1 q.2 k hq.1 hk, env_src q2.1 q2.2 k hq2.1 hk]
                  simp
                · show σ1.dst = _
                  rw [h2.dst, E1]
                  simp only [site]
                  rw [env_dst q2.1 q2.2 m hq2.2]
                  simp
                · show σ1.sp = _
                  rw [h2.sp, E3]; simp [site, hq.1]
                · show σ1.dp + m = _
                  rw [h2.dp, E4]; simp [site, hm]
              obtain ⟨σ3, h3, R3⟩ := run_rel (symHom _) (by simp [hq.1]; omega) (by simp [hm]; omega) loads R2 eI
              obtain ⟨σ', h4, h5, h6⟩ := ih q2 _ _ σ3 (fun p hp => hl p (by simp at hp ⊢; tauto)) (by simp [hq.1]; omega) (by simp [hm]; omega) R3
              refine ⟨σ', ?_, ?_, ?_⟩
              · have : run (ringOps S) f.body σ = ok σ3 := by
                  rw [hb, run_append, h1, ok_bind]
                  simp only [run, step, ok_bind]
                  exact h3
                simp only [List.length_cons, loop, this, ok_bind]
                exact h4
              · rw [h5]; simp
              · rw [h6]; simp
          -- the beginning
          have hq := hl q (by simp)
          have R0 : Rel (ev (env q.1 q.2)) [] (qs.flatMap (·.1) ++ rs) [] (qs.flatMap (·.2) ++ rd) (site k m)
              (start ((q :: qs).flatMap (·.1) ++ rs) ((q :: qs).flatMap (·.2) ++ rd)) := by
            refine ⟨fun r l v hv => by simp [site] at hv, ?_, ?_, rfl, rfl⟩
            · simp only [site, start]
              rw [env_src q.1 q.2 k hq.1 hk]
              simp
            · simp only [site, start]
              rw [env_dst q.1 q.2 m hq.2]
              simp
          obtain ⟨σ1, h1, R1⟩ := run_rel (symHom _) rfl rfl f.pre R0 e1
          have RI : Rel (ev (env q.1 q.2)) [] (qs.flatMap (·.1) ++ rs) [] (qs.flatMap (·.2) ++ rd) τI σ1 := by
            refine ⟨fun r l v hv => R1.reg r l v (le_spec hle r l v hv), ?_, ?_, ?_, ?_⟩
            · rw [R1.src, zs, zs']
            · rw [R1.dst, zd]
            · rw [R1.sp, z1, zI]
            · rw [R1.dp, z1', zI']
          obtain ⟨σ', h2, h3, h4⟩ := inv qs q [] [] σ1 hl rfl rfl RI
          refine ⟨σ', ?_, by simpa using h3, by simpa using h4⟩
          have ht : times (qs.length + 1) = qs.length := by unfold times; omega
          simp only [Fn.call, h1, ok_bind, ht]
          exact h2
        · exact absurd hbody (by simp)
      · exact absurd hpost (by simp)
    · exact absurd h (by simp)
  · exact absurd h (by simp)

end

/-! ## what the functions compute, as formal sums -/

/-- word of spin `k`, colour `col`, real or imaginary part -/
def wd (e : Src) (col : Nat) : Nat × Bool := ((e.k * 3 + col) * 2 + (if e.c then 1 else 0), e.minus)

def spinor (re im : Nat → Sym) : List Sym := [re 0, im 0, re 1, im 1, re 2, im 2]

def projSpec (d : Fin 8) : List Sym :=
  spinor (fun c => .s [wd (inProjT d 0).1 c, wd (inProjT d 0).2 c]) (fun c => .s [wd (inProjT d 1).1 c, wd (inProjT d 1).2 c]) ++
  spinor (fun c => .s [wd (inProjT d 2).1 c, wd (inProjT d 2).2 c]) (fun c => .s [wd (inProjT d 3).1 c, wd (inProjT d 3).2 c])

def reconSpec (d : Fin 8) : List Sym :=
  ((List.range 12).map fun i => Sym.s [(i, false)]) ++
  (spinor (fun c => .s [wd (inReconT d 0) c]) (fun c => .s [wd (inReconT d 1) c]) ++ spinor (fun c => .s [wd (inReconT d 2) c]) (fun c => .s [wd (inReconT d 3) c]))

def addSpec (d : Fin 8) : List Sym :=
  List.zipWith (fun i x => match x with
    | .s l => Sym.s ((100 + i, false) :: l)
    | x => x) (List.range 24) (reconSpec d)

theorem chk_proj : ∀ d, chk (projF d) 24 12 (projSpec d) = true := by decide +kernel
theorem chk_recon : ∀ d, chk (reconF d) 12 24 (reconSpec d) = true := by decide +kernel

theorem chk_add : ∀ d, chk (addReconF d) 12 24 (addSpec d) = true := by decide +kernel

/-! ## the formal sums are the projections -/

section
variable {S : Type} [CommRing S]

theorem projSpec_eq (d : Fin 8) (s : Fin 4 → ColVec S) (y : List S) : (projSpec d).map (ev (env (flat4 s) y)) = flat2 (proj d s) := by
  fin_cases d <;>
    simp [projSpec, spinor, wd, inProjT, ev, sum, term, env, flat2, flatC, flat4, proj, projT, Ph.addTo, Cpt.timesI, Cpt.timesMinusI, sub_eq_add_neg]

theorem reconSpec_eq (d : Fin 8) (s : Fin 2 → ColVec S) (y : List S) : (reconSpec d).map (ev (env (flat2 s) y)) = flat4 (recon d s) := by
  fin_cases d <;>
    simp [reconSpec, List.range_succ, spinor, wd, inReconT, ev, sum, term, env, flat2, flatC, flat4, recon, reconT, Ph.app, Cpt.timesI, Cpt.timesMinusI]

theorem addSpec_eq (d : Fin 8) (s : Fin 2 → ColVec S) (t : Fin 4 → ColVec S) :
    (addSpec d).map (ev (env (flat2 s) (flat4 t))) = flat4 (t + recon d s) := by
  fin_cases d <;>
    simp [addSpec, reconSpec, List.range_succ, spinor, wd, inReconT, ev, sum, term, env, flat2, flatC, flat4, recon, reconT, Ph.app, Cpt.timesI, Cpt.timesMinusI]

/-! ## C120 -/

/-- old contents of the target, site by site -/
theorem chunks {A : Type} (m : Nat) : ∀ (ss : List A) (out : List S), out.length = m * ss.length →
    ∃ qs : List (A × List S), qs.map (·.1) = ss ∧ (∀ p ∈ qs, p.2.length = m) ∧ qs.flatMap (·.2) = out := by
  intro ss
  induction ss with
  | nil => intro out h; exact ⟨[], rfl, by simp, by simpa using (List.length_eq_zero_iff.1 (by simpa using h)).symm⟩
  | cons a ss ih =>
    intro out h
    rw [List.length_cons, Nat.mul_add, Nat.mul_one] at h
    obtain ⟨qs, h1, h2, h3⟩ := ih (out.drop m) (by rw [List.length_drop]; omega)
    refine ⟨(a, out.take m) :: qs, by simp [h1], ?_, by simp [h3]⟩
    intro p hp
    rcases List.mem_cons.1 hp with rfl | hp
    · simp only [List.length_take]; omega
    · exact h2 p hp

theorem call_sites {A : Type} (f : Fn) (k m : Nat) (spec : List Sym) (h : chk f k m spec = true) (k4 : k % 4 = 0) (m4 : m % 4 = 0) (hk : k ≤ 100)
    (hm : spec.length = m) (inp : A → List S) (hi : ∀ a, (inp a).length = k) (res : A → List S) (hr : ∀ a y, spec.map (ev (env (inp a) y)) = res a)
    (ss : List A) (h0 : ss ≠ []) (hn : ss.length < 2 ^ 32) (out : List S) (ho : out.length = m * ss.length) (rs rd : List S) :
    ∃ σ, f.call (ringOps S) ss.length (start (ss.flatMap inp ++ rs) (out ++ rd)) = ok σ ∧
      σ.dst = ss.flatMap res ++ rd ∧ σ.src = ss.flatMap inp ++ rs := by
  obtain ⟨qs, h1, h2, h3⟩ := chunks m ss out ho
  subst h1 h3
  cases qs with
  | nil => exact absurd rfl h0
  | cons q qs =>
    have := run_sites f k m spec h k4 m4 hk hm (inp q.1, q.2) (qs.map fun p => (inp p.1, p.2))
      (by
        intro p hp
        rw [← List.map_cons (f := fun p : A × List S => (inp p.1, p.2))] at hp
        obtain ⟨r, hr, rfl⟩ := List.mem_map.1 hp
        exact ⟨hi _, h2 r hr⟩) (by simpa using hn) rs rd
    simpa [List.flatMap_map, hr] using this

/-- C120: projection of any number of sites: the words of `dst` become the projections in the order of the sites, nothing else is written -/
theorem C120_project (d : Fin 8) (ss : List (Fin 4 → ColVec S)) (h0 : ss ≠ []) (hn : ss.length < 2 ^ 32) (out : List S) (ho : out.length = 12 * ss.length)
    (rs rd : List S) :
    ∃ σ, (projF d).call (ringOps S) ss.length (start (ss.flatMap flat4 ++ rs) (out ++ rd)) = ok σ ∧
      σ.dst = ss.flatMap (fun s => flat2 (proj d s)) ++ rd ∧ σ.src = ss.flatMap flat4 ++ rs :=
  call_sites _ 24 12 _ (chk_proj d) rfl rfl (by decide) (by simp [projSpec, spinor]) flat4 flat4_length _ (projSpec_eq d) ss h0 hn out ho rs rd

/-- C120: reconstruction -/
theorem C120_recon (d : Fin 8) (ss : List (Fin 2 → ColVec S)) (h0 : ss ≠ []) (hn : ss.length < 2 ^ 32) (out : List S) (ho : out.length = 24 * ss.length)
    (rs rd : List S) :
    ∃ σ, (reconF d).call (ringOps S) ss.length (start (ss.flatMap flat2 ++ rs) (out ++ rd)) = ok σ ∧
      σ.dst = ss.flatMap (fun s => flat4 (recon d s)) ++ rd ∧ σ.src = ss.flatMap flat2 ++ rs :=
  call_sites _ 12 24 _ (chk_recon d) rfl rfl (by decide) (by simp [reconSpec, spinor]) flat2 flat2_length _ (reconSpec_eq d) ss h0 hn out ho rs rd

/-- C120: reconstruction added to what the target holds -/
theorem C120_add_recon (d : Fin 8) (ss : List ((Fin 2 → ColVec S) × (Fin 4 → ColVec S))) (h0 : ss ≠ []) (hn : ss.length < 2 ^ 32) (rs rd : List S) :
    ∃ σ, (addReconF d).call (ringOps S) ss.length (start (ss.flatMap (fun p => flat2 p.1) ++ rs) (ss.flatMap (fun p => flat4 p.2) ++ rd)) = ok σ ∧
      σ.dst = ss.flatMap (fun p => flat4 (p.2 + recon d p.1)) ++ rd ∧ σ.src = ss.flatMap (fun p => flat2 p.1) ++ rs := by
  cases ss with
  | nil => exact absurd rfl h0
  | cons q qs =>
    have := run_sites (S := S) _ 12 24 _ (chk_add d) rfl rfl (by decide) (by simp [addSpec, reconSpec, spinor]) (flat2 q.1, flat4 q.2)
      (qs.map fun p => (flat2 p.1, flat4 p.2))
      (by
        intro p hp
        rw [← List.map_cons (f := fun p : (Fin 2 → ColVec S) × (Fin 4 → ColVec S) => (flat2 p.1, flat4 p.2))] at hp
        obtain ⟨r, -, rfl⟩ := List.mem_map.1 hp
        exact ⟨flat2_length _, flat4_length _⟩) (by simpa using hn) rs rd
    simpa [List.flatMap_map, addSpec_eq] using this

/-- C120: projected and reconstructed, a spinor is multiplied by 1 ± gamma -/
theorem C120_matrix (d : Fin 8) (ss : List (Fin 4 → ColVec S)) (h0 : ss ≠ []) (hn : ss.length < 2 ^ 32) (half full : List S)
    (hh : half.length = 12 * ss.length) (hf : full.length = 24 * ss.length) :
    ∃ σ τ, (projF d).call (ringOps S) ss.length (start (ss.flatMap flat4) half) = ok σ ∧
      (reconF d).call (ringOps S) ss.length (start σ.dst full) = ok τ ∧ τ.dst = ss.flatMap fun s => flat4 (mulVec (onePM d) s) := by
  obtain ⟨σ, h1, h2, -⟩ := C120_project d ss h0 hn half hh [] []
  obtain ⟨τ, h3, h4, -⟩ := C120_recon d (ss.map (proj d)) (by simpa using h0) (by simpa using hn) full (by simpa using hf) [] []
  simp only [List.append_nil, List.length_map, List.flatMap_map] at h1 h2 h3 h4
  refine ⟨σ, τ, h1, by rw [h2]; exact h3, ?_⟩
  rw [h4]
  simp only [C43_project]

/-- two sites meet the hypotheses -/
example : ∃ σ τ, (projF 3).call (ringOps ℤ) 2 (start ([fun a c => ((a.val : ℤ), (c.val : ℤ)), fun a c => ((c.val : ℤ), (a.val : ℤ))].flatMap flat4) (List.replicate 24 0)) = ok σ ∧
      (reconF 3).call (ringOps ℤ) 2 (start σ.dst (List.replicate 48 7)) = ok τ ∧
      τ.dst = [fun a c => ((a.val : ℤ), (c.val : ℤ)), fun a c => ((c.val : ℤ), (a.val : ℤ))].flatMap fun s => flat4 (mulVec (onePM 3) s) :=
  C120_matrix 3 [fun a c => ((a.val : ℤ), (c.val : ℤ)), fun a c => ((c.val : ℤ), (a.val : ℤ))] (by simp) (by decide) _ _ rfl rfl

/-! ## no site at all -/

theorem step_abort {α : Type} (O : Ops α) (σ : St α) (i : Ins) : step O σ i ≠ abort := by
  cases i with
  | load r d o => cases d <;> simp only [step] <;> split <;> simp
  | store o r => simp only [step]; split <;> (try split) <;> simp
  | _ => simp [step]

theorem run_abort {α : Type} (O : Ops α) (is : List Ins) (σ : St α) : run O is σ ≠ abort := by
  induction is generalizing σ with
  | nil => simp [run]
  | cons i is ih =>
    simp only [run]
    cases h : step O σ i with
    | ok x => exact ih x
    | abort => exact absurd h (step_abort O σ i)
    | ub => simp [ub_bind]

theorem loop_abort {α : Type} (O : Ops α) (b : List Ins) (n : Nat) (σ : St α) : loop O b n σ ≠ abort := by
  induction n generalizing σ with
  | zero => simp [loop]
  | succ n ih =>
    simp only [loop]
    cases h : run O b σ with
    | ok x => exact ih x
    | abort => exact absurd h (run_abort O b σ)
    | ub => simp [ub_bind]

/-- by how much `src_shadow` moves -/
def moved : List Ins → Nat
  | [] => 0
  | .incS n :: is => n + moved is
  | _ :: is => moved is

/-- how far `src` is read -/
def reach : List Ins → Nat → Nat
  | [], _ => 0
  | .incS n :: is, p => reach is (p + n)
  | .load _ false o :: is, p => max (p + o + 4) (reach is p)
  | _ :: is, p => reach is p

theorem run_src {α : Type} (O : Ops α) (is : List Ins) (σ τ : St α) (h : run O is σ = ok τ) :
    τ.src = σ.src ∧ τ.sp = σ.sp + moved is ∧ reach is σ.sp ≤ σ.src.length := by
  induction is generalizing σ with
  | nil => cases h; exact ⟨rfl, rfl, Nat.zero_le _⟩
  | cons i is ih =>
    simp only [run] at h
    obtain ⟨σ1, h1, h2⟩ := bind_eq_ok.1 h
    have := ih σ1 h2
    cases i with
    | setf r l neg => cases h1; exact this
    | load r d o =>
      cases d with
      | false =>
        simp only [step] at h1
        split at h1
        · rename_i hc
          cases h1
          exact ⟨this.1, this.2.1, by simp only [reach]; exact Nat.max_le.2 ⟨hc.2, this.2.2⟩⟩
        · cases h1
      | true =>
        simp only [step] at h1
        split at h1
        · cases h1; exact this
        · cases h1
    | mov r a => cases h1; exact this
    | shuf r a b c => cases h1; exact this
    | add r a b => cases h1; exact this
    | sub r a b => cases h1; exact this
    | mul r a b => cases h1; exact this
    | store o r =>
      simp only [step] at h1
      split at h1
      · split at h1
        · cases h1; exact this
        · cases h1
      · cases h1
    | incS n =>
      cases h1
      exact ⟨this.1, by rw [this.2.1]; simp only [moved]; omega, this.2.2⟩
    | incD n => cases h1; exact this

theorem reach_add (is : List Ins) (p q : Nat) (h : reach is p ≠ 0) : reach is p + q ≤ reach is (p + q) := by
  induction is generalizing p with
  | nil => exact absurd rfl h
  | cons i is ih =>
    cases i with
    | incS n =>
      simp only [reach] at h ⊢
      rw [Nat.add_right_comm]
      exact ih _ h
    | load r d o =>
      cases d with
      | false =>
        simp only [reach] at h ⊢
        by_cases h0 : reach is p = 0
        · rw [h0]; omega
        · have := ih p h0; omega
      | true => exact ih p h
    | _ => exact ih p h

theorem loop_src {α : Type} (O : Ops α) (b : List Ins) (k : Nat) (hm : moved b = k) (hr : reach b 0 = 2 * k) (hk : 0 < k) (n : Nat) (σ τ : St α)
    (h : loop O b n σ = ok τ) : 0 < n → σ.sp + (n + 1) * k ≤ σ.src.length := by
  induction n generalizing σ with
  | zero => intro h; omega
  | succ n ih =>
    intro _
    simp only [loop] at h
    obtain ⟨σ1, h1, h2⟩ := bind_eq_ok.1 h
    obtain ⟨e1, e2, e3⟩ := run_src O b σ σ1 h1
    by_cases hn : 0 < n
    · have := ih σ1 h2 hn
      rw [e1, e2, hm] at this
      have e : (n + 1 + 1) * k = k + (n + 1) * k := by rw [Nat.add_mul (n + 1) 1 k]; omega
      omega
    · have hn : n = 0 := by omega
      subst hn
      have := reach_add b 0 σ.sp (by omega)
      rw [Nat.zero_add] at this
      omega

theorem empty_ub (f : Fn) (k : Nat) (hm : moved f.body = k) (hr : reach f.body 0 = 2 * k) (hk : 0 < k) (hp : moved f.pre = 0) (src dst : List S)
    (hs : src.length < 2 ^ 32 * k) : f.call (ringOps S) 0 (start src dst) = ub := by
  unfold Fn.call
  cases h1 : run (ringOps S) f.pre (start src dst) with
  | abort => exact absurd h1 (run_abort _ _ _)
  | ub => rfl
  | ok σ =>
    obtain ⟨e1, e2, -⟩ := run_src _ _ _ _ h1
    rw [ok_bind]
    cases h2 : loop (ringOps S) f.body (times 0) σ with
    | abort => exact absurd h2 (loop_abort _ _ _ _)
    | ub => rfl
    | ok τ =>
      have := loop_src _ _ k hm hr hk _ _ _ h2 (by decide)
      rw [e1, e2, hp] at this
      have ht : times 0 + 1 = 2 ^ 32 := by decide
      rw [ht] at this
      simp only [start] at this
      omega

/-- C120 refuted for no site: the number of rounds wraps around, and the loop runs off the array -/
theorem C120_empty_refuted (d : Fin 8) (src dst : List S) :
    (src.length < 2 ^ 32 * 24 → (projF d).call (ringOps S) 0 (start src dst) = ub) ∧
    (src.length < 2 ^ 32 * 12 → (reconF d).call (ringOps S) 0 (start src dst) = ub ∧ (addReconF d).call (ringOps S) 0 (start src dst) = ub) := by
  have h1 : ∀ d, moved (projF d).body = 24 ∧ reach (projF d).body 0 = 2 * 24 ∧ moved (projF d).pre = 0 := by decide +kernel
  have h2 : ∀ d, moved (reconF d).body = 12 ∧ reach (reconF d).body 0 = 2 * 12 ∧ moved (reconF d).pre = 0 := by decide +kernel
  have h3 : ∀ d, moved (addReconF d).body = 12 ∧ reach (addReconF d).body 0 = 2 * 12 ∧ moved (addReconF d).pre = 0 := by decide +kernel
  exact ⟨empty_ub _ 24 (h1 d).1 (h1 d).2.1 (by decide) (h1 d).2.2 src dst, fun h =>
    ⟨empty_ub _ 12 (h2 d).1 (h2 d).2.1 (by decide) (h2 d).2.2 src dst h, empty_ub _ 12 (h3 d).1 (h3 d).2.1 (by decide) (h3 d).2.2 src dst h⟩⟩

/-! ## the function run by the threads -/

theorem ordered_project (d : Fin 8) (ss : List (Fin 4 → ColVec S)) (r : Option (Nat × Nat)) (hr : (Dispatch.share r).length < ss.length)
    (h0 : ∀ lo hi, r = some (lo, hi) → 0 < (Dispatch.share r).length) (h32 : ss.length < 2 ^ 32) (dst : List S) (hd : dst.length = 12 * ss.length) :
    ∃ dst', ordered (projF d) (ringOps S) (ss.flatMap flat4) r dst = ok dst' ∧ dst'.length = 12 * ss.length ∧
      dst'.drop (12 * (ss.length - 1)) = dst.drop (12 * (ss.length - 1)) := by
  cases r with
  | none => exact ⟨dst, rfl, hd, rfl⟩
  | some p =>
    obtain ⟨lo, hi⟩ := p
    have h0 := h0 lo hi rfl
    simp only [Dispatch.share, List.length_range'] at hr h0
    set n := hi - lo with hn
    have hl : (ss.take n).length = n := by rw [List.length_take]; omega
    obtain ⟨σ, h1, h2, -⟩ := C120_project d (ss.take n) (by intro h; rw [h] at hl; simp at hl; omega) (by omega) (dst.take (12 * n))
      (by rw [List.length_take]; omega) ((ss.drop n).flatMap flat4) (dst.drop (12 * n))
    rw [← List.flatMap_append, List.take_append_drop, List.take_append_drop, hl] at h1
    have hres : ((ss.take n).flatMap fun s => flat2 (proj d s)).length = 12 * n := by
      rw [List.length_flatMap]
      simp only [flat2_length, List.map_const', List.sum_replicate, hl, smul_eq_mul]
      omega
    refine ⟨σ.dst, by simp only [ordered, ← hn, h1, ok_bind], ?_, ?_⟩
    · rw [h2, List.length_append, hres, List.length_drop]; omega
    · rw [h2, List.drop_append, hres, List.drop_of_length_le (by omega), List.nil_append, List.drop_drop]
      congr 1
      omega

/-- C120 refuted for more than one thread: no thread gets as far as the last site -/
theorem C120_threads_refuted (d : Fin 8) (ss : List (Fin 4 → ColVec S)) (T : Nat) (hT : 2 ≤ T) (hs : 3 ≤ ss.length)
    (h31 : ss.length * min T ss.length < 2 ^ 31) (dst : List S) (hd : dst.length = 12 * ss.length) :
    ∃ dst', threads (projF d) (ringOps S) ss.length T (ss.flatMap flat4) dst = ok dst' ∧
      dst'.drop (12 * (ss.length - 1)) = dst.drop (12 * (ss.length - 1)) := by
  obtain ⟨rs, h1, h2, h3, h4, h5⟩ := Dispatch.C47_cover (n := ss.length) (T := T) (by omega) h31
  have ha : 2 ≤ Dispatch.active ss.length T := by unfold Dispatch.active; omega
  have h32 : ss.length < 2 ^ 32 := by
    have : ss.length * 1 ≤ ss.length * min T ss.length := Nat.mul_le_mul_left _ (by omega)
    omega
  have hmem : ∀ r ∈ rs, (Dispatch.share r).length < ss.length ∧ ∀ lo hi, r = some (lo, hi) → 0 < (Dispatch.share r).length := by
    intro r hr
    obtain ⟨id, hid, e⟩ := List.mem_iff_getElem.1 hr
    have e' : rs[id]? = some r := by rw [List.getElem?_eq_getElem hid, e]
    by_cases hi : id < Dispatch.active ss.length T
    · obtain ⟨-, g2, g3⟩ := h4 id r e' hi
      have : ss.length / Dispatch.active ss.length T ≤ ss.length / 2 := Nat.div_le_div_left ha (by decide)
      exact ⟨by omega, fun _ _ _ => g3⟩
    · rw [Dispatch.dispatch_eq h31] at h1
      cases h1
      rw [List.getElem?_map, List.getElem?_range (by simpa using hid)] at e'
      simp only [Option.map_some, if_neg hi, Option.some.injEq] at e'
      subst e'
      exact ⟨by simp only [Dispatch.share, List.length_nil]; omega, fun _ _ h => by cases h⟩
  have inv : ∀ (rs : List (Option (Nat × Nat))) (dst : List S), (∀ r ∈ rs, (Dispatch.share r).length < ss.length ∧ ∀ lo hi, r = some (lo, hi) → 0 < (Dispatch.share r).length) →
      dst.length = 12 * ss.length → ∃ dst', inTurn (projF d) (ringOps S) (ss.flatMap flat4) rs dst = ok dst' ∧
        dst'.drop (12 * (ss.length - 1)) = dst.drop (12 * (ss.length - 1)) := by
    intro rs
    induction rs with
    | nil => intro dst _ _; exact ⟨dst, rfl, rfl⟩
    | cons r rs ih =>
      intro dst hr hd
      obtain ⟨d1, e1, e2, e3⟩ := ordered_project d ss r (hr r (by simp)).1 (hr r (by simp)).2 h32 dst hd
      obtain ⟨d2, e4, e5⟩ := ih d1 (fun r h => hr r (by simp [h])) e2
      exact ⟨d2, by simp only [inTurn, e1, ok_bind, e4], by rw [e5, e3]⟩
  obtain ⟨d', e1, e2⟩ := inv rs dst hmem hd
  exact ⟨d', by simp only [threads, h1, ok_bind, e1], e2⟩

/-- one thread: it gets all the sites -/
theorem C120_one_thread (d : Fin 8) (ss : List (Fin 4 → ColVec S)) (h0 : ss ≠ []) (h31 : ss.length < 2 ^ 31) (dst : List S) (hd : dst.length = 12 * ss.length) :
    threads (projF d) (ringOps S) ss.length 1 (ss.flatMap flat4) dst = ok (ss.flatMap fun s => flat2 (proj d s)) := by
  have hp : 0 < ss.length := List.length_pos_iff.2 h0
  have ha : Dispatch.active ss.length 1 = 1 := by unfold Dispatch.active; omega
  obtain ⟨σ, h1, h2, -⟩ := C120_project d ss h0 (by omega) dst hd [] []
  simp only [List.append_nil] at h1 h2
  rw [threads, Dispatch.dispatch_eq (by rw [ha]; omega), ha]
  simp [inTurn, ordered, ok_bind, h1, h2]

/-- three sites and two threads: the last site keeps what it held -/
example : ∃ dst', threads (projF 0) (ringOps ℤ) 3 2 ((List.replicate 3 fun _ _ => ((1 : ℤ), (1 : ℤ))).flatMap flat4) (List.replicate 36 7) = ok dst' ∧
      dst'.drop 24 = List.replicate 12 7 :=
  C120_threads_refuted 0 (List.replicate 3 fun _ _ => ((1 : ℤ), (1 : ℤ))) 2 (by decide) (by simp) (by simp) (List.replicate 36 7) (by simp)

end
end Verif.SseSpin
