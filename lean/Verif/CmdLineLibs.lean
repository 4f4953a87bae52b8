import Verif.ArchiveHdr
/-
The command line: the loops over `argv` in `QDP_initialize` of the four libraries, lib/qdp_parscalar_init.cc, lib/qdp_scalar_init.cc,
lib/qdp_parscalarvec_init.cc, lib/qdp_scalarvec_init.cc.  (Verif.CmdLine has the parscalar library with `%f` and `%d:%d` as parameters; here they are
scanned, "-h" is looked for, and the other libraries are included.)

A word of the command line is its bytes without the closing zero.  `argv[argc]` is the null pointer and there is nothing behind it, so that
`sscanf` of it is undefined.  `prof` = `QDP_USE_PROFILING`; `USE_REMOTE_QIO` (three more options) is not modelled.
-/
namespace Verif.CmdLineLibs
open Verif Outcome ByteOrder Verif.BinIO Verif.ArchiveHdr

abbrev Word := List Byte

/-- "-h" -/
def wH : Word := [45, 104]
/-- "-V" -/
def wV : Word := [45, 86]
/-- "-p" -/
def wP : Word := [45, 112]
/-- "-poolsize" -/
def wPool : Word := [45, 112, 111, 111, 108, 115, 105, 122, 101]
/-- "-geom" -/
def wGeom : Word := [45, 103, 101, 111, 109]
/-- "-iogeom" -/
def wIogeom : Word := [45, 105, 111, 103, 101, 111, 109]
/-- "-bind" -/
def wBind : Word := [45, 98, 105, 110, 100]

/-! ## Model -/

/-- what the command line sets: `QMP_verboseP`, the program's profile level, `pool_size_in_gb`, `setGeomP` with `logical_geom`, `setIOGeomP` with
`logical_iogeom`, `threadbind`, `n_cores`, `n_threads_per_core`, lib/qdp_parscalar_init.cc:31-35, 50, 60-71 -/
structure Cfg (D : Type) where
  verbose : Bool
  level : Int
  pool : D
  geom : Option (List Int)
  iogeom : Option (List Int)
  threadbind : Bool
  cores : Int
  threads : Int

/-- `int uu; sscanf(w, "%d", &uu); … uu …`, lib/qdp_parscalar_init.cc:125-127, 138-140: the variable is not set if there is no number; a number that
is no `int` is undefined -/
def scanD {D : Type} (B : Dbl D) (w : Word) : Outcome Int :=
  match sscanf B [.d] w with
  | .int z :: _ => if -2 ^ 31 ≤ z ∧ z < 2 ^ 31 then ok z else ub
  | _ => ub

/-- `for(int j=0; j < Nd; j++) { int uu; sscanf((*argv)[++i], "%d", &uu); logical_geom[j] = uu; }`, lib/qdp_parscalar_init.cc:136-141, 146-151:
the numbers and the index behind the loop -/
def readInts {D : Type} (B : Dbl D) (argv : List Word) : Nat → Nat → Outcome (List Int × Nat)
  | 0, i => ok ([], i)
  | n + 1, i => do
      let w ← rd argv (i + 1)
      let z ← scanD B w
      let r ← readInts B argv n (i + 1)
      ok (z :: r.1, r.2)

/-- `sscanf(w, "%f", &pool_size_in_gb)`, lib/qdp_parscalar_init.cc:130: left as it is if there is no number -/
def scanPool {D : Type} (B : Dbl D) (w : Word) (old : D) : D :=
  match sscanf B [.f] w with
  | .dbl y :: _ => y
  | _ => old

/-- `sscanf(w, "%d:%d", &n_cores, &n_threads_per_core)`, lib/qdp_parscalar_init.cc:156; the numbers that are missing stay as they are -/
def scanBind {D : Type} (B : Dbl D) (w : Word) (c t : Int) : Int × Int :=
  match sscanf B [.d, .ch 58, .d] w with
  | .int a :: .int b :: _ => (a, b)
  | .int a :: _ => (a, t)
  | _ => (c, t)

section
variable {D : Type} (B : Dbl D) (prof : Bool) (nd : Nat) (argv : List Word)

/-- the body of the loop, lib/qdp_parscalar_init.cc:115-185: the new `i` -/
def parBody (i : Nat) (c : Cfg D) : Outcome (Nat × Cfg D) := do
  let w ← rd argv i
  if w = wV then ok (i, { c with verbose := true })
  else if prof ∧ w = wP then do
    let v ← rd argv (i + 1)
    let z ← scanD B v
    ok (i + 1, { c with level := z })
  else if w = wPool then do
    let v ← rd argv (i + 1)
    ok (i + 1, { c with pool := scanPool B v c.pool })
  else if w = wGeom then do
    let r ← readInts B argv nd i
    ok (r.2, { c with geom := some r.1 })
  else if w = wIogeom then do
    let r ← readInts B argv nd i
    ok (r.2, { c with iogeom := some r.1 })
  else if w = wBind then do
    let v ← rd argv (i + 1)
    ok (i + 1, { c with threadbind := true, cores := (scanBind B v c.cores c.threads).1, threads := (scanBind B v c.cores c.threads).2 })
  else ok (i, c)

/-- lib/qdp_scalar_init.cc:104-116: two separate `if` -/
def scalarBody (i : Nat) (c : Cfg D) : Outcome (Nat × Cfg D) := do
  let w ← rd argv i
  let s ← (if prof ∧ w = wP then do
      let v ← rd argv (i + 1)
      let z ← scanD B v
      ok (i + 1, { c with level := z })
    else ok (i, c) : Outcome (Nat × Cfg D))
  let w ← rd argv s.1
  if w = wPool then do
    let v ← rd argv (s.1 + 1)
    ok (s.1 + 1, { s.2 with pool := scanPool B v s.2.pool })
  else ok s

/-- lib/qdp_parscalarvec_init.cc:86-110 -/
def parVecBody (i : Nat) (c : Cfg D) : Outcome (Nat × Cfg D) := do
  let w ← rd argv i
  if w = wV then ok (i, { c with verbose := true })
  else if prof ∧ w = wP then do
    let v ← rd argv (i + 1)
    let z ← scanD B v
    ok (i + 1, { c with level := z })
  else if w = wGeom then do
    let r ← readInts B argv nd i
    ok (r.2, { c with geom := some r.1 })
  else ok (i, c)

/-- lib/qdp_scalarvec_init.cc:58-65 -/
def vecBody (i : Nat) (c : Cfg D) : Outcome (Nat × Cfg D) := do
  let w ← rd argv i
  if prof ∧ w = wP then do
    let v ← rd argv (i + 1)
    let z ← scanD B v
    ok (i + 1, { c with level := z })
  else ok (i, c)

/-- `for (int i=1; i<*argc; i++) { …; if (i >= *argc) message and stop }`, lib/qdp_parscalar_init.cc:113, 187-192, lib/qdp_scalar_init.cc:102, 118-121.
`msg`: what the message does (undefined if it goes to `QDPIO::cerr` before that stream is set up).  The first argument bounds the number of turns. -/
def loop (msg : Outcome (Cfg D)) (body : Nat → Cfg D → Outcome (Nat × Cfg D)) : Nat → Nat → Cfg D → Outcome (Cfg D)
  | 0, i, c => if i < argv.length then ub else ok c
  | f + 1, i, c =>
      if i < argv.length then do
        let s ← body i c
        if argv.length ≤ s.1 then msg else loop msg body f (s.1 + 1) s.2
      else ok c

/-- "Look for help", then the loop, lib/qdp_parscalar_init.cc:53-58, 74-112: `primaryNode()` is `node_rank == 0`, which holds on every node before
`Layout::init` -/
def cmdLine (msg : Outcome (Cfg D)) (body : Nat → Cfg D → Outcome (Nat × Cfg D)) (c : Cfg D) : Outcome (Cfg D) :=
  if argv.any (· = wH) then abort else loop argv msg body argv.length 1 c

/-- the stream of `QDPIO::cerr << …`, lib/qdp_stdio.cc:130, include/qdp_stdio.h:156: a null pointer before `init` -/
def say {α : Type} (streams : Bool) : Outcome α := if streams then abort else ub

/-- `QDP_initialize`, lib/qdp_parscalar_init.cc:46-193; `streams`: the streams were set up by an earlier `QDP_initialize`; `c`: the static variables
before, `eight` the number 8 -/
def parArgs (streams : Bool) (eight : D) (c : Cfg D) : Outcome (Cfg D) :=
  cmdLine argv (say streams) (parBody B prof nd argv) { c with verbose := false, geom := none, iogeom := none, pool := eight }
/-- lib/qdp_scalar_init.cc:76-122: the streams are set up before (71-74) and the message is printed by `QDP_error_exit` -/
def scalarArgs (eight : D) (c : Cfg D) : Outcome (Cfg D) := cmdLine argv abort (scalarBody B prof argv) { c with pool := eight }
/-- lib/qdp_parscalarvec_init.cc:28-133 -/
def parVecArgs (streams : Bool) (c : Cfg D) : Outcome (Cfg D) :=
  cmdLine argv (say streams) (parVecBody B prof nd argv) { c with verbose := false, geom := none }
/-- lib/qdp_scalarvec_init.cc:32-72 -/
def vecArgs (c : Cfg D) : Outcome (Cfg D) := cmdLine argv abort (vecBody B prof argv) c
end

/-! ## Specification -/

/-- the options -/
inductive Opt where
  | verbose | level | pool | geom | iogeom | bind
deriving DecidableEq

/-- the words of the manual for the options -/
def Opt.name : Opt → Word
  | .verbose => wV
  | .level => wP
  | .pool => wPool
  | .geom => wGeom
  | .iogeom => wIogeom
  | .bind => wBind

/-- the word starts with the number `z`, which is an `int` -/
def IsNum (w : Word) (z : Int) : Prop := (∃ t, scanInt w = some (z, t)) ∧ -2 ^ 31 ≤ z ∧ z < 2 ^ 31

/-- one option with its values, or a word of the program's own -/
inductive Item where
  | verbose
  | level (w : Word) (z : Int)
  | pool (w : Word)
  | geom (ws : List Word) (zs : List Int)
  | iogeom (ws : List Word) (zs : List Int)
  | bind (w : Word)
  | other (w : Word)

/-- how it is written -/
def Item.words : Item → List Word
  | .verbose => [wV]
  | .level w _ => [wP, w]
  | .pool w => [wPool, w]
  | .geom ws _ => wGeom :: ws
  | .iogeom ws _ => wIogeom :: ws
  | .bind w => [wBind, w]
  | .other w => [w]

/-- a complete option of a library that knows the options `E`, or a word that is none of them -/
def Item.Ok (E : Opt → Prop) (nd : Nat) : Item → Prop
  | .verbose => E .verbose
  | .level w z => E .level ∧ IsNum w z
  | .pool _ => E .pool
  | .geom ws zs => E .geom ∧ ws.length = nd ∧ List.Forall₂ IsNum ws zs
  | .iogeom ws zs => E .iogeom ∧ ws.length = nd ∧ List.Forall₂ IsNum ws zs
  | .bind _ => E .bind
  | .other w => ∀ o, E o → w ≠ o.name

/-- the number of `%f`, if any -/
def isReal {D : Type} (B : Dbl D) (w : Word) : Option D := (B.scan (w.dropWhile isSpace)).map Prod.fst

/-- the two numbers of `c:s` -/
def pair (w : Word) : Option Int × Option Int :=
  match scanInt w with
  | some (a, 58 :: t) => (some a, (scanInt t).map Prod.fst)
  | some (a, _) => (some a, none)
  | none => (none, none)

/-- what it asks for -/
def Item.effect {D : Type} (B : Dbl D) (c : Cfg D) : Item → Cfg D
  | .verbose => { c with verbose := true }
  | .level _ z => { c with level := z }
  | .pool w => { c with pool := (isReal B w).getD c.pool }
  | .geom _ zs => { c with geom := some zs }
  | .iogeom _ zs => { c with iogeom := some zs }
  | .bind w => { c with threadbind := true, cores := (pair w).1.getD c.cores, threads := (pair w).2.getD c.threads }
  | .other _ => c

/-- a command line made of such items, and what it asks for -/
def Asks {D : Type} (B : Dbl D) (E : Opt → Prop) (nd : Nat) (c0 : Cfg D) (args : List Word) (c : Cfg D) : Prop :=
  ∃ its : List Item, (∀ it ∈ its, it.Ok E nd) ∧ args = its.flatMap Item.words ∧ c = its.foldl (Item.effect B) c0

/-- the options of the four libraries -/
def parE (prof : Bool) (o : Opt) : Prop := o = .level → prof = true
def scalarE (prof : Bool) (o : Opt) : Prop := o = .pool ∨ (o = .level ∧ prof = true)
def parVecE (prof : Bool) (o : Opt) : Prop := o = .verbose ∨ o = .geom ∨ (o = .level ∧ prof = true)
def vecE (prof : Bool) (o : Opt) : Prop := o = .level ∧ prof = true

/-! ## Lemmas -/

theorem scanD_iff {D : Type} (B : Dbl D) (w : Word) (z : Int) : scanD B w = ok z ↔ IsNum w z := by
  unfold scanD IsNum
  simp only [sscanf]
  cases h : scanInt w with
  | none => simp
  | some r =>
      obtain ⟨a, t⟩ := r
      by_cases hr : -2 ^ 31 ≤ a ∧ a < 2 ^ 31
      · simp only [if_pos hr, Outcome.ok.injEq, Option.some.injEq, Prod.mk.injEq]
        constructor
        · rintro rfl; exact ⟨⟨t, rfl, rfl⟩, hr⟩
        · rintro ⟨⟨_, h, _⟩, _⟩; exact h
      · simp only [if_neg hr, Option.some.injEq, Prod.mk.injEq]
        constructor
        · intro h; cases h
        · rintro ⟨⟨_, rfl, _⟩, h⟩; exact absurd h hr

theorem scanD_abort {D : Type} (B : Dbl D) (w : Word) : scanD B w ≠ abort := by
  unfold scanD
  split
  · split <;> simp
  · simp

theorem rd_abort {α : Type} (l : List α) (i : Nat) : rd l i ≠ abort := by
  unfold rd; split <;> simp

theorem scanPool_eq {D : Type} (B : Dbl D) (w : Word) (o : D) : scanPool B w o = (isReal B w).getD o := by
  unfold scanPool isReal
  simp only [sscanf]
  cases B.scan (w.dropWhile isSpace) <;> simp

theorem scanBind_eq {D : Type} (B : Dbl D) (w : Word) (c t : Int) : scanBind B w c t = ((pair w).1.getD c, (pair w).2.getD t) := by
  unfold scanBind pair
  simp only [sscanf]
  cases h : scanInt w with
  | none => simp
  | some r =>
      obtain ⟨a, l⟩ := r
      match l with
      | [] => simp
      | b :: l =>
          by_cases hb : b = 58
          · subst hb
            cases h2 : scanInt l with
            | none => simp [h2]
            | some r => simp [h2]
          · simp only [if_neg hb]
            split
            · rename_i heq; simp at heq; exact absurd heq.2.1 hb
            · rename_i heq; simp at heq; simp [heq.1]
            · simp_all

theorem drop_cons {α : Type} {l : List α} {i : Nat} (h : i < l.length) : l.drop i = l[i] :: l.drop (i + 1) := List.drop_eq_getElem_cons h

theorem readInts_iff {D : Type} (B : Dbl D) (argv : List Word) : ∀ (n i : Nat) (zs : List Int) (j : Nat), i < argv.length →
    (readInts B argv n i = ok (zs, j) ↔ j = i + n ∧ i + n < argv.length ∧ List.Forall₂ IsNum ((argv.drop (i + 1)).take n) zs)
  | 0, i, zs, j, hi => by
      simp only [readInts, Outcome.ok.injEq, Prod.mk.injEq, List.take_zero, Nat.add_zero]
      constructor
      · rintro ⟨rfl, rfl⟩; exact ⟨rfl, hi, .nil⟩
      · rintro ⟨rfl, -, h⟩; cases h; exact ⟨rfl, rfl⟩
  | n + 1, i, zs, j, hi => by
      simp only [readInts]
      by_cases h1 : i + 1 < argv.length
      · rw [rd_of_lt h1, ok_bind, drop_cons h1, List.take_succ_cons]
        simp only [bind_eq_ok, scanD_iff]
        constructor
        · rintro ⟨z, hz, ⟨r1, r2⟩, hr, h⟩
          obtain ⟨e, hl, hf⟩ := (readInts_iff B argv n (i + 1) r1 r2 h1).1 hr
          simp at h
          obtain ⟨rfl, rfl⟩ := h
          exact ⟨by omega, by omega, .cons hz hf⟩
        · rintro ⟨rfl, hl, hf⟩
          cases hf with
          | cons hz hf =>
              rename_i z zs
              exact ⟨z, hz, (zs, i + 1 + n), (readInts_iff B argv n (i + 1) zs _ h1).2 ⟨rfl, by omega, hf⟩, by simp; omega⟩
      · rw [rd_of_ge (by omega)]
        constructor
        · intro h; cases h
        · rintro ⟨-, h, -⟩; omega

theorem bind_abort {α β : Type} {x : Outcome α} {f : α → Outcome β} (hx : x ≠ abort) (hf : ∀ a, x = ok a → f a ≠ abort) : (x >>= f) ≠ abort := by
  cases x with
  | ok a => exact hf a rfl
  | abort => exact absurd rfl hx
  | ub => intro h; cases h

theorem readInts_abort {D : Type} (B : Dbl D) (argv : List Word) : ∀ (n i : Nat), readInts B argv n i ≠ abort
  | 0, i => by simp [readInts]
  | n + 1, i => by
      simp only [readInts]
      exact bind_abort (rd_abort _ _) fun _ _ => bind_abort (scanD_abort _ _) fun _ _ => bind_abort (readInts_abort B argv n _) fun _ _ => by simp

/-- one body for all four libraries -/
def gBody {D : Type} (B : Dbl D) (E : Opt → Bool) (nd : Nat) (argv : List Word) (i : Nat) (c : Cfg D) : Outcome (Nat × Cfg D) := do
  let w ← rd argv i
  if E .verbose ∧ w = wV then ok (i, { c with verbose := true })
  else if E .level ∧ w = wP then do
    let v ← rd argv (i + 1)
    let z ← scanD B v
    ok (i + 1, { c with level := z })
  else if E .pool ∧ w = wPool then do
    let v ← rd argv (i + 1)
    ok (i + 1, { c with pool := scanPool B v c.pool })
  else if E .geom ∧ w = wGeom then do
    let r ← readInts B argv nd i
    ok (r.2, { c with geom := some r.1 })
  else if E .iogeom ∧ w = wIogeom then do
    let r ← readInts B argv nd i
    ok (r.2, { c with iogeom := some r.1 })
  else if E .bind ∧ w = wBind then do
    let v ← rd argv (i + 1)
    ok (i + 1, { c with threadbind := true, cores := (scanBind B v c.cores c.threads).1, threads := (scanBind B v c.cores c.threads).2 })
  else ok (i, c)

theorem gBody_abort {D : Type} (B : Dbl D) (E : Opt → Bool) (nd : Nat) (argv : List Word) (i : Nat) (c : Cfg D) : gBody B E nd argv i c ≠ abort := by
  unfold gBody
  refine bind_abort (rd_abort _ _) fun w _ => ?_
  split
  · simp
  split
  · exact bind_abort (rd_abort _ _) fun _ _ => bind_abort (scanD_abort _ _) fun _ _ => by simp
  split
  · exact bind_abort (rd_abort _ _) fun _ _ => by simp
  split
  · exact bind_abort (readInts_abort _ _ _ _) fun _ _ => by simp
  split
  · exact bind_abort (readInts_abort _ _ _ _) fun _ _ => by simp
  split
  · exact bind_abort (rd_abort _ _) fun _ _ => by simp
  · simp

theorem names : wV ≠ wP ∧ wV ≠ wPool ∧ wV ≠ wGeom ∧ wV ≠ wIogeom ∧ wV ≠ wBind ∧ wP ≠ wPool ∧ wP ≠ wGeom ∧ wP ≠ wIogeom ∧ wP ≠ wBind ∧ wPool ≠ wGeom ∧
    wPool ≠ wIogeom ∧ wPool ≠ wBind ∧ wGeom ≠ wIogeom ∧ wGeom ≠ wBind ∧ wIogeom ≠ wBind := by decide

/-- the body takes one item, and never passes the end -/
theorem gBody_item {D : Type} {B : Dbl D} {E : Opt → Bool} {nd : Nat} {argv : List Word} {i j : Nat} {c d : Cfg D} (hi : i < argv.length)
    (h : gBody B E nd argv i c = ok (j, d)) :
    ∃ it : Item, it.Ok (fun o => E o = true) nd ∧ argv.drop i = it.words ++ argv.drop (j + 1) ∧ j < argv.length ∧ i ≤ j ∧ d = it.effect B c := by
  unfold gBody at h
  rw [rd_of_lt hi, ok_bind] at h
  have h1 := drop_cons hi
  have one : ∀ {f : Word → Outcome (Nat × Cfg D)}, (rd argv (i + 1) >>= f) = ok (j, d) →
      ∃ h2 : i + 1 < argv.length, f argv[i + 1] = ok (j, d) ∧ argv.drop i = [argv[i], argv[i + 1]] ++ argv.drop (i + 1 + 1) := by
    intro f h
    by_cases h2 : i + 1 < argv.length
    · rw [rd_of_lt h2, ok_bind] at h
      exact ⟨h2, h, by rw [h1, drop_cons h2]; rfl⟩
    · rw [rd_of_ge (by omega)] at h; cases h
  have many : ∀ {f : List Int × Nat → Outcome (Nat × Cfg D)}, (readInts B argv nd i >>= f) = ok (j, d) →
      ∃ ws zs, i + nd < argv.length ∧ ws.length = nd ∧ List.Forall₂ IsNum ws zs ∧ f (zs, i + nd) = ok (j, d) ∧
        argv.drop i = argv[i] :: ws ++ argv.drop (i + nd + 1) := by
    intro f h
    obtain ⟨⟨zs, k⟩, h2, h3⟩ := bind_eq_ok.1 h
    obtain ⟨rfl, hl, hf⟩ := (readInts_iff B argv nd i zs k hi).1 h2
    refine ⟨(argv.drop (i + 1)).take nd, zs, hl, ?_, hf, h3, ?_⟩
    · rw [List.length_take, List.length_drop]; omega
    · rw [h1, List.cons_append]
      congr 1
      have := List.take_append_drop nd (argv.drop (i + 1))
      rw [List.drop_drop] at this
      rw [show i + nd + 1 = i + 1 + nd by omega]
      exact this.symm
  split at h
  · rename_i hc
    simp at h
    obtain ⟨rfl, rfl⟩ := h
    exact ⟨.verbose, hc.1, by rw [h1, hc.2]; rfl, hi, le_rfl, rfl⟩
  split at h
  · rename_i hc
    obtain ⟨h2, h, e⟩ := one h
    obtain ⟨z, hz, h⟩ := bind_eq_ok.1 h
    simp at h
    obtain ⟨rfl, rfl⟩ := h
    exact ⟨.level _ z, ⟨hc.1, (scanD_iff B _ _).1 hz⟩, by rw [e, hc.2]; rfl, h2, by omega, rfl⟩
  split at h
  · rename_i hc
    obtain ⟨h2, h, e⟩ := one h
    simp at h
    obtain ⟨rfl, rfl⟩ := h
    exact ⟨.pool _, hc.1, by rw [e, hc.2]; rfl, h2, by omega, by simp [Item.effect, scanPool_eq]⟩
  split at h
  · rename_i hc
    obtain ⟨ws, zs, h2, hl, hf, h, e⟩ := many h
    simp at h
    obtain ⟨rfl, rfl⟩ := h
    exact ⟨.geom ws zs, ⟨hc.1, hl, hf⟩, by rw [e, hc.2]; rfl, h2, by omega, rfl⟩
  split at h
  · rename_i hc
    obtain ⟨ws, zs, h2, hl, hf, h, e⟩ := many h
    simp at h
    obtain ⟨rfl, rfl⟩ := h
    exact ⟨.iogeom ws zs, ⟨hc.1, hl, hf⟩, by rw [e, hc.2]; rfl, h2, by omega, rfl⟩
  split at h
  · rename_i hc
    obtain ⟨h2, h, e⟩ := one h
    simp at h
    obtain ⟨rfl, rfl⟩ := h
    exact ⟨.bind _, hc.1, by rw [e, hc.2]; rfl, h2, by omega, by simp [Item.effect, scanBind_eq]⟩
  · rename_i c1 c2 c3 c4 c5 c6
    simp at h
    obtain ⟨rfl, rfl⟩ := h
    refine ⟨.other argv[i], ?_, by rw [h1]; rfl, hi, le_rfl, rfl⟩
    intro o ho hw
    cases o
    · exact c1 ⟨ho, hw⟩
    · exact c2 ⟨ho, hw⟩
    · exact c3 ⟨ho, hw⟩
    · exact c4 ⟨ho, hw⟩
    · exact c5 ⟨ho, hw⟩
    · exact c6 ⟨ho, hw⟩

theorem words_ne (it : Item) : 0 < it.words.length := by cases it <;> simp [Item.words]

/-- and takes every item -/
theorem gBody_takes {D : Type} (B : Dbl D) (E : Opt → Bool) (nd : Nat) (pre post : List Word) (it : Item) (c : Cfg D)
    (hok : it.Ok (fun o => E o = true) nd) :
    gBody B E nd (pre ++ (it.words ++ post)) pre.length c = ok (pre.length + it.words.length - 1, it.effect B c) := by
  obtain ⟨n1, n2, n3, n4, n5, n6, n7, n8, n9, n10, n11, n12, n13, n14, n15⟩ := names
  have r0 : ∀ w t, rd (pre ++ (w :: t)) pre.length = ok w := by intro w t; simp [rd]
  have r1 : ∀ w v t, rd (pre ++ (w :: v :: t)) (pre.length + 1) = ok v := by intro w v t; simp [rd]
  have rs : ∀ w ws zs, ws.length = nd → List.Forall₂ IsNum ws zs →
      readInts B (pre ++ (w :: (ws ++ post))) nd pre.length = ok (zs, pre.length + nd) := by
    intro w ws zs hl hf
    rw [readInts_iff B _ _ _ _ _ (by simp)]
    refine ⟨rfl, by simp; omega, ?_⟩
    have : (pre ++ (w :: (ws ++ post))).drop (pre.length + 1) = ws ++ post := by
      rw [← List.drop_drop, List.drop_left]; rfl
    rw [this, ← hl, List.take_left]
    exact hf
  unfold gBody
  cases it with
  | verbose => simp [Item.words, Item.effect, r0, show E .verbose = true from hok]
  | level w z =>
      have hs := (scanD_iff B w z).2 hok.2
      simp [Item.words, Item.effect, r0, r1, show E .level = true from hok.1, hs, n1.symm]
  | pool w => simp [Item.words, Item.effect, r0, r1, show E .pool = true from hok, n2.symm, n6.symm, scanPool_eq]
  | geom ws zs => simp [Item.words, Item.effect, r0, show E .geom = true from hok.1, n3.symm, n7.symm, n10.symm, rs _ ws zs hok.2.1 hok.2.2, hok.2.1]
  | iogeom ws zs =>
      simp [Item.words, Item.effect, r0, show E .iogeom = true from hok.1, n4.symm, n8.symm, n11.symm, n13.symm, rs _ ws zs hok.2.1 hok.2.2, hok.2.1]
  | bind w => simp [Item.words, Item.effect, r0, r1, show E .bind = true from hok, n5.symm, n9.symm, n12.symm, n14.symm, n15.symm, scanBind_eq]
  | other w =>
      have h : ∀ o : Opt, ¬ (E o = true ∧ w = o.name) := fun o ho => hok o ho.1 ho.2
      have k1 := h .verbose
      have k2 := h .level
      have k3 := h .pool
      have k4 := h .geom
      have k5 := h .iogeom
      have k6 := h .bind
      simp only [Opt.name] at k1 k2 k3 k4 k5 k6
      simp only [Item.words, List.cons_append, List.nil_append, r0, ok_bind, if_neg k1, if_neg k2, if_neg k3, if_neg k4, if_neg k5, if_neg k6, Item.effect]
      simp

/-- the loop from a place on -/
theorem loop_iff {D : Type} (B : Dbl D) (E : Opt → Bool) (nd : Nat) (argv : List Word) (msg : Outcome (Cfg D)) :
    ∀ (f i : Nat) (c d : Cfg D), argv.length ≤ i + f →
      (loop argv msg (gBody B E nd argv) f i c = ok d ↔ Asks B (fun o => E o = true) nd c (argv.drop i) d)
  | 0, i, c, d, hf => by
      rw [loop, if_neg (by omega), List.drop_eq_nil_of_le (by omega)]
      constructor
      · intro h; simp at h; exact ⟨[], by simp, rfl, by simp [h]⟩
      · rintro ⟨its, -, h, rfl⟩
        cases its with
        | nil => rfl
        | cons it its => 
            have := words_ne it
            have := congrArg List.length h
            simp at this
            omega
  | f + 1, i, c, d, hf => by
      rw [loop]
      by_cases hi : i < argv.length
      · rw [if_pos hi, bind_eq_ok]
        constructor
        · rintro ⟨⟨j, e⟩, h, h2⟩
          obtain ⟨it, ho, hd, hj, hij, rfl⟩ := gBody_item hi h
          rw [if_neg (by simp; omega), loop_iff B E nd argv msg f (j + 1) _ d (by omega)] at h2
          obtain ⟨its, hits, h3, rfl⟩ := h2
          exact ⟨it :: its, by simpa using ⟨ho, hits⟩, by rw [hd, h3]; rfl, rfl⟩
        · rintro ⟨its, hits, h3, rfl⟩
          cases its with
          | nil =>
              have := congrArg List.length h3
              simp at this
              omega
          | cons it its =>
              have hp := words_ne it
              have hl : (argv.take i).length = i := by simp; omega
              have hlen := congrArg List.length h3
              simp only [List.length_drop, List.flatMap_cons, List.length_append] at hlen
              have ha : argv = argv.take i ++ (it.words ++ its.flatMap Item.words) := by
                conv_lhs => rw [← List.take_append_drop i argv, h3]
                rfl
              have hb := gBody_takes B E nd (argv.take i) (its.flatMap Item.words) it c (hits it (by simp))
              rw [← ha, hl] at hb
              refine ⟨_, hb, ?_⟩
              rw [if_neg (by simp; omega), loop_iff B E nd argv msg f _ _ _ (by simp; omega)]
              refine ⟨its, fun x hx => hits x (by simp [hx]), ?_, rfl⟩
              show argv.drop (i + it.words.length - 1 + 1) = _
              rw [show i + it.words.length - 1 + 1 = i + it.words.length by omega, ← List.drop_drop, h3, List.flatMap_cons, List.drop_left]
      · rw [if_neg hi, List.drop_eq_nil_of_le (by omega)]
        constructor
        · intro h; simp at h; exact ⟨[], by simp, rfl, by simp [h]⟩
        · rintro ⟨its, -, h, rfl⟩
          cases its with
          | nil => rfl
          | cons it its =>
              have := words_ne it
              have := congrArg List.length h
              simp at this
              omega

/-- the message of the loop is never reached -/
theorem loop_abort {D : Type} (B : Dbl D) (E : Opt → Bool) (nd : Nat) (argv : List Word) (msg : Outcome (Cfg D)) :
    ∀ (f i : Nat) (c : Cfg D), loop argv msg (gBody B E nd argv) f i c ≠ abort
  | 0, i, c => by rw [loop]; split <;> simp
  | f + 1, i, c => by
      rw [loop]
      split
      · rename_i hi
        refine bind_abort (gBody_abort _ _ _ _ _ _) fun s hs => ?_
        obtain ⟨it, -, -, hj, -, -⟩ := gBody_item (j := s.1) (d := s.2) hi hs
        rw [if_neg (by omega)]
        exact loop_abort B E nd argv msg f _ _
      · simp

/-! ## The four bodies -/

theorem parBody_eq {D : Type} (B : Dbl D) (prof : Bool) (nd : Nat) (argv : List Word) :
    parBody B prof nd argv = gBody B (fun o => if o = .level then prof else true) nd argv := by
  funext i c
  unfold parBody gBody
  simp

theorem parVecBody_eq {D : Type} (B : Dbl D) (prof : Bool) (nd : Nat) (argv : List Word) :
    parVecBody B prof nd argv = gBody B (fun o => if o = .level then prof else decide (o = .verbose ∨ o = .geom)) nd argv := by
  funext i c
  unfold parVecBody gBody
  simp

theorem vecBody_eq {D : Type} (B : Dbl D) (prof : Bool) (nd : Nat) (argv : List Word) :
    vecBody B prof argv = gBody B (fun o => if o = .level then prof else false) nd argv := by
  funext i c
  unfold vecBody gBody
  simp

theorem scanD_pool {D : Type} (B : Dbl D) : scanD B wPool = ub := by
  simp [scanD, sscanf, wPool, scanInt, scanNat, takeDigits, digitVal, isSpace]

theorem scalarBody_eq {D : Type} (B : Dbl D) (prof : Bool) (nd : Nat) (argv : List Word) :
    scalarBody B prof argv = gBody B (fun o => if o = .level then prof else decide (o = .pool)) nd argv := by
  funext i c
  unfold scalarBody gBody
  by_cases hi : i < argv.length
  · rw [rd_of_lt hi, ok_bind, ok_bind]
    by_cases hp : prof = true ∧ argv[i] = wP
    · simp only [if_pos hp, hp.2, hp.1]
      by_cases h1 : i + 1 < argv.length
      · by_cases hv : argv[i + 1] = wPool
        · simp [rd_of_lt h1, hv, scanD_pool, names.1.symm]
        · cases hz : scanD B argv[i + 1] <;> simp [rd_of_lt h1, hv, hz, names.1.symm]
      · simp [rd_of_ge (show argv.length ≤ i + 1 by omega), names.1.symm]
    · simp only [if_neg hp, ok_bind, rd_of_lt hi]
      simp [hp]
  · rw [rd_of_ge (by omega)]; rfl

/-! ## Theorems -/

theorem cmdLine_iff {D : Type} (B : Dbl D) (E : Opt → Bool) (nd : Nat) (prog : Word) (args : List Word) (msg : Outcome (Cfg D)) (c d : Cfg D)
    (hh : wH ∉ prog :: args) :
    cmdLine (prog :: args) msg (gBody B E nd (prog :: args)) c = ok d ↔ Asks B (fun o => E o = true) nd c args d := by
  have h0 : (prog :: args).any (· = wH) = false := by
    rw [List.any_eq_false]
    intro x hx
    simp only [decide_eq_true_eq]
    rintro rfl
    exact hh hx
  rw [cmdLine, h0]
  simp only [Bool.false_eq_true, if_false]
  rw [loop_iff B E nd _ msg _ 1 c d (by simp)]
  simp

theorem cmdLine_else {D : Type} (B : Dbl D) (E : Opt → Bool) (nd : Nat) (prog : Word) (args : List Word) (msg : Outcome (Cfg D)) (c : Cfg D)
    (hh : wH ∉ prog :: args) : cmdLine (prog :: args) msg (gBody B E nd (prog :: args)) c ≠ abort := by
  have h0 : (prog :: args).any (· = wH) = false := by
    rw [List.any_eq_false]
    intro x hx
    simp only [decide_eq_true_eq]
    rintro rfl
    exact hh hx
  rw [cmdLine, h0]
  simp only [Bool.false_eq_true, if_false]
  exact loop_abort _ _ _ _ _ _ _ _

theorem asks_congr {D : Type} {B : Dbl D} {E F : Opt → Prop} {nd : Nat} {c : Cfg D} {args : List Word} {d : Cfg D} (h : ∀ o, E o ↔ F o) :
    Asks B E nd c args d ↔ Asks B F nd c args d := by
  have : E = F := funext fun o => propext (h o)
  rw [this]

/-- C76, many nodes: a command line without "-h" is taken exactly if it is a list of complete options and other words, and then what is set is what
these ask for, the last one counting -/
theorem C76_par_partial {D : Type} (B : Dbl D) (prof : Bool) (nd : Nat) (streams : Bool) (eight : D) (c d : Cfg D) (prog : Word) (args : List Word)
    (hh : wH ∉ prog :: args) :
    parArgs B prof nd (prog :: args) streams eight c = ok d ↔
      Asks B (parE prof) nd { c with verbose := false, geom := none, iogeom := none, pool := eight } args d := by
  rw [parArgs, parBody_eq, cmdLine_iff B _ nd prog args _ _ d hh]
  refine asks_congr fun o => ?_
  cases o <;> simp [parE]

theorem C76_scalar_partial {D : Type} (B : Dbl D) (prof : Bool) (eight : D) (c d : Cfg D) (prog : Word) (args : List Word) (hh : wH ∉ prog :: args) :
    scalarArgs B prof (prog :: args) eight c = ok d ↔ Asks B (scalarE prof) 0 { c with pool := eight } args d := by
  rw [scalarArgs, scalarBody_eq B prof 0, cmdLine_iff B _ 0 prog args _ _ d hh]
  refine asks_congr fun o => ?_
  cases o <;> simp [scalarE]

theorem C76_parvec_partial {D : Type} (B : Dbl D) (prof : Bool) (nd : Nat) (streams : Bool) (c d : Cfg D) (prog : Word) (args : List Word)
    (hh : wH ∉ prog :: args) :
    parVecArgs B prof nd (prog :: args) streams c = ok d ↔ Asks B (parVecE prof) nd { c with verbose := false, geom := none } args d := by
  rw [parVecArgs, parVecBody_eq, cmdLine_iff B _ nd prog args _ _ d hh]
  refine asks_congr fun o => ?_
  cases o <;> simp [parVecE]

theorem C76_vec_partial {D : Type} (B : Dbl D) (prof : Bool) (c d : Cfg D) (prog : Word) (args : List Word) (hh : wH ∉ prog :: args) :
    vecArgs B prof (prog :: args) c = ok d ↔ Asks B (vecE prof) 0 c args d := by
  rw [vecArgs, vecBody_eq B prof 0, cmdLine_iff B _ 0 prog args _ _ d hh]
  refine asks_congr fun o => ?_
  cases o <;> simp [vecE]

/-- C76: "-h" anywhere stops the program with the usage text -/
theorem C76_help {D : Type} (B : Dbl D) (prof : Bool) (nd : Nat) (streams : Bool) (eight : D) (c : Cfg D) (argv : List Word) (hh : wH ∈ argv) :
    parArgs B prof nd argv streams eight c = abort ∧ scalarArgs B prof argv eight c = abort ∧ parVecArgs B prof nd argv streams c = abort ∧
      vecArgs B prof argv c = abort := by
  have h : argv.any (· = wH) = true := by rw [List.any_eq_true]; exact ⟨_, hh, by simp⟩
  simp [parArgs, scalarArgs, parVecArgs, vecArgs, cmdLine, h]

/-- C76 is false of the code: no command line ever ends in the message "missing argument at the end".  Whatever is not taken is undefined. -/
theorem C76_message_dead {D : Type} (B : Dbl D) (prof : Bool) (nd : Nat) (streams : Bool) (eight : D) (c : Cfg D) (prog : Word) (args : List Word)
    (hh : wH ∉ prog :: args) :
    parArgs B prof nd (prog :: args) streams eight c ≠ abort ∧ scalarArgs B prof (prog :: args) eight c ≠ abort ∧
      parVecArgs B prof nd (prog :: args) streams c ≠ abort ∧ vecArgs B prof (prog :: args) c ≠ abort := by
  rw [parArgs, scalarArgs, parVecArgs, vecArgs, parBody_eq, scalarBody_eq B prof 0, parVecBody_eq, vecBody_eq B prof 0]
  exact ⟨cmdLine_else _ _ _ _ _ _ _ hh, cmdLine_else _ _ _ _ _ _ _ hh, cmdLine_else _ _ _ _ _ _ _ hh, cmdLine_else _ _ _ _ _ _ _ hh⟩

/-- options that take values -/
def Opt.takes (nd : Nat) : Opt → Prop
  | .verbose => False
  | .geom | .iogeom => 0 < nd
  | _ => True

theorem gBody_missing {D : Type} (B : Dbl D) (E : Opt → Bool) (nd : Nat) (pre : List Word) (o : Opt) (c : Cfg D) (he : E o = true) (ht : o.takes nd) :
    gBody B E nd (pre ++ [o.name]) pre.length c = ub := by
  obtain ⟨n1, n2, n3, n4, n5, n6, n7, n8, n9, n10, n11, n12, n13, n14, n15⟩ := names
  have r0 : ∀ w, rd (pre ++ [w]) pre.length = ok w := by intro w; simp [rd]
  have r1 : ∀ w : Word, rd (pre ++ [w]) (pre.length + 1) = ub := by intro w; simp [rd]
  have rs : ∀ w, 0 < nd → readInts B (pre ++ [w]) nd pre.length = ub := by
    intro w h
    cases nd with
    | zero => omega
    | succ n => simp only [readInts, r1]; rfl
  unfold gBody
  cases o with
  | verbose => exact absurd ht id
  | level => simp [Opt.name, r0, r1, he, n1.symm]
  | pool => simp [Opt.name, r0, r1, he, n2.symm, n6.symm]
  | geom => simp [Opt.name, r0, he, n3.symm, n7.symm, n10.symm, rs _ ht]
  | iogeom => simp [Opt.name, r0, he, n4.symm, n8.symm, n11.symm, n13.symm, rs _ ht]
  | bind => simp [Opt.name, r0, r1, he, n5.symm, n9.symm, n12.symm, n14.symm, n15.symm]

theorem loop_missing {D : Type} (B : Dbl D) (E : Opt → Bool) (nd : Nat) (msg : Outcome (Cfg D)) (o : Opt) (he : E o = true) (ht : o.takes nd) :
    ∀ (its : List Item) (pre : List Word) (f : Nat) (c : Cfg D), (∀ it ∈ its, it.Ok (fun o => E o = true) nd) →
      (its.flatMap Item.words).length < f →
      loop (pre ++ (its.flatMap Item.words ++ [o.name])) msg (gBody B E nd (pre ++ (its.flatMap Item.words ++ [o.name]))) f pre.length c = ub
  | its, pre, 0, c, _, hf => by omega
  | [], pre, f + 1, c, _, _ => by
      rw [loop, if_pos (by simp)]
      simp only [List.flatMap_nil, List.nil_append]
      rw [gBody_missing B E nd pre o c he ht]
      rfl
  | it :: its, pre, f + 1, c, h, hf => by
      have hp := words_ne it
      rw [loop, if_pos (by simp)]
      simp only [List.flatMap_cons, List.append_assoc]
      rw [gBody_takes B E nd pre _ it c (h it (by simp)), ok_bind]
      simp only [List.flatMap_cons, List.length_append] at hf
      rw [if_neg (by simp; omega)]
      have := loop_missing B E nd msg o he ht its (pre ++ it.words) f (it.effect B c) (fun x hx => h x (by simp [hx])) (by omega)
      simp only [List.append_assoc, List.length_append] at this
      rw [show pre.length + it.words.length - 1 + 1 = pre.length + it.words.length by omega]
      exact this

theorem cmdLine_missing {D : Type} (B : Dbl D) (E : Opt → Bool) (nd : Nat) (msg : Outcome (Cfg D)) (o : Opt) (he : E o = true) (ht : o.takes nd)
    (prog : Word) (its : List Item) (c : Cfg D) (hok : ∀ it ∈ its, it.Ok (fun o => E o = true) nd) (hp : prog ≠ wH)
    (hh : wH ∉ its.flatMap Item.words) :
    cmdLine (prog :: (its.flatMap Item.words ++ [o.name])) msg (gBody B E nd (prog :: (its.flatMap Item.words ++ [o.name]))) c = ub := by
  have h0 : (prog :: (its.flatMap Item.words ++ [o.name])).any (· = wH) = false := by
    rw [List.any_eq_false]
    intro x hx
    simp only [decide_eq_true_eq]
    rintro rfl
    simp only [List.mem_cons, List.mem_append, List.not_mem_nil, or_false] at hx
    rcases hx with h | h | h
    · exact hp h.symm
    · exact hh h
    · revert h; cases o <;> decide
  rw [cmdLine, h0]
  simp only [Bool.false_eq_true, if_false]
  exact loop_missing B E nd msg o he ht its [prog] _ c hok (by simp; omega)

theorem item_ok_congr {E F : Opt → Prop} {nd : Nat} (h : ∀ o, E o ↔ F o) (it : Item) : it.Ok E nd ↔ it.Ok F nd := by
  have : E = F := funext fun o => propext (h o)
  rw [this]

/-- C76 is false of the code of all four libraries: a command line that ends in an option without its value is undefined, not refused -/
theorem C76_libs_missing {D : Type} (B : Dbl D) (prof : Bool) (nd : Nat) (streams : Bool) (eight : D) (c : Cfg D) (prog : Word) (its : List Item) (o : Opt)
    (hp : prog ≠ wH) (hh : wH ∉ its.flatMap Item.words) (ht : o.takes nd) :
    ((∀ it ∈ its, it.Ok (parE prof) nd) → parE prof o → parArgs B prof nd (prog :: (its.flatMap Item.words ++ [o.name])) streams eight c = ub) ∧
    ((∀ it ∈ its, it.Ok (scalarE prof) nd) → scalarE prof o → scalarArgs B prof (prog :: (its.flatMap Item.words ++ [o.name])) eight c = ub) ∧
    ((∀ it ∈ its, it.Ok (parVecE prof) nd) → parVecE prof o → parVecArgs B prof nd (prog :: (its.flatMap Item.words ++ [o.name])) streams c = ub) ∧
    ((∀ it ∈ its, it.Ok (vecE prof) nd) → vecE prof o → vecArgs B prof (prog :: (its.flatMap Item.words ++ [o.name])) c = ub) := by
  refine ⟨fun hok he => ?_, fun hok he => ?_, fun hok he => ?_, fun hok he => ?_⟩
  · rw [parArgs, parBody_eq]
    have h : ∀ o, parE prof o ↔ (if o = Opt.level then prof else true) = true := by intro o; cases o <;> simp [parE]
    exact cmdLine_missing B _ nd _ o ((h o).1 he) ht prog its _ (fun it hi => (item_ok_congr h it).1 (hok it hi)) hp hh
  · rw [scalarArgs, scalarBody_eq B prof nd]
    have h : ∀ o, scalarE prof o ↔ (if o = Opt.level then prof else decide (o = Opt.pool)) = true := by intro o; cases o <;> simp [scalarE]
    exact cmdLine_missing B _ nd _ o ((h o).1 he) ht prog its _ (fun it hi => (item_ok_congr h it).1 (hok it hi)) hp hh
  · rw [parVecArgs, parVecBody_eq]
    have h : ∀ o, parVecE prof o ↔ (if o = Opt.level then prof else decide (o = Opt.verbose ∨ o = Opt.geom)) = true := by
      intro o; cases o <;> simp [parVecE]
    exact cmdLine_missing B _ nd _ o ((h o).1 he) ht prog its _ (fun it hi => (item_ok_congr h it).1 (hok it hi)) hp hh
  · rw [vecArgs, vecBody_eq B prof nd]
    have h : ∀ o, vecE prof o ↔ (if o = Opt.level then prof else false) = true := by intro o; cases o <;> simp [vecE]
    exact cmdLine_missing B _ nd _ o ((h o).1 he) ht prog its _ (fun it hi => (item_ok_congr h it).1 (hok it hi)) hp hh

/-- C76 is false of the code: a pool size or a binding that is no number is taken without a word, and the old value stays -/
theorem C76_pool_silent {D : Type} (B : Dbl D) (prof : Bool) (nd : Nat) (streams : Bool) (eight : D) (c : Cfg D) (prog w : Word)
    (hp : prog ≠ wH) (hw : w ≠ wH) (hn : isReal B w = none) :
    parArgs B prof nd [prog, wPool, w] streams eight c = ok { c with verbose := false, geom := none, iogeom := none, pool := eight } ∧
      scalarArgs B prof [prog, wPool, w] eight c = ok { c with pool := eight } := by
  have hh : wH ∉ [prog, wPool, w] := by
    simp only [List.mem_cons, List.not_mem_nil, or_false, not_or]
    exact ⟨hp.symm, by decide, hw.symm⟩
  constructor
  · rw [C76_par_partial B prof nd streams eight c _ prog [wPool, w] hh]
    exact ⟨[.pool w], by simp [Item.Ok, parE], rfl, by simp [Item.effect, hn]⟩
  · rw [C76_scalar_partial B prof eight c _ prog [wPool, w] hh]
    exact ⟨[.pool w], by simp [Item.Ok, scalarE], rfl, by simp [Item.effect, hn]⟩

/-- not vacuous: "prog x -geom 2 1 -V -geom 1 4" sets the second geometry -/
example {D : Type} (B : Dbl D) (eight : D) (c : Cfg D) :
    parArgs B true 2 [[112], [120], wGeom, [50], [49], wV, wGeom, [49], [52]] false eight c =
      ok { c with verbose := true, geom := some [1, 4], iogeom := none, pool := eight } := by
  rw [C76_par_partial B true 2 false eight c _ [112] _ (by decide)]
  have num : ∀ (w : Word) (z : Int), scanInt w = some (z, []) → -2 ^ 31 ≤ z ∧ z < 2 ^ 31 → IsNum w z := fun w z h r => ⟨⟨_, h⟩, r⟩
  refine ⟨[.other [120], .geom [[50], [49]] [2, 1], .verbose, .geom [[49], [52]] [1, 4]], ?_, rfl, rfl⟩
  intro it hit
  simp only [List.mem_cons, List.not_mem_nil, or_false] at hit
  rcases hit with rfl | rfl | rfl | rfl
  · intro o _; cases o <;> decide
  · refine ⟨by simp [parE], rfl, .cons (num _ _ (by decide) (by omega)) (.cons (num _ _ (by decide) (by omega)) .nil)⟩
  · simp [Item.Ok, parE]
  · refine ⟨by simp [parE], rfl, .cons (num _ _ (by decide) (by omega)) (.cons (num _ _ (by decide) (by omega)) .nil)⟩

end Verif.CmdLineLibs
