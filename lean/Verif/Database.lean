import Verif.StdStream
/-
Databases of keys and values on many nodes: `BinaryStoreDB`, include/qdp_db_imp.h:37-455, with `broadcast` and `broadcast_str`.

The library behind it, FILEDB, is not in the repository: what its functions return and do to the database is given by functions.  A program is a tree whose later statements may
depend on what was returned; all nodes run the same program with their own arguments.  `QDP_abort` and `QDP_error_exit` end the process of the node that calls them.
-/
namespace Verif.Database
open Verif Outcome Verif.Network Verif.ByteOrder Verif.StdStream

abbrev Str := List Byte

/-- `FILEDB::ConfDataStoreDB<K,D>` with states `S` -/
structure Lib (S K D : Type) where
  setCacheSize : BitVec 32 → S → S
  setCacheSizeMB : BitVec 32 → S → S
  setPageSize : BitVec 32 → S → S
  setNumberBuckets : BitVec 32 → S → S
  enablePageMove : S → S
  disablePageMove : S → S
  setMaxUserInfoLen : BitVec 32 → S → S
  setMaxNumberConfigs : BitVec 32 → S → S
  flush : S → S
  getMaxUserInfoLen : S → BitVec 32
  getMaxNumberConfigs : S → BitVec 32
  fileExists : Str → S → Bool
  exist : K → S → Bool
  /-- file, flags, mode -/
  openDb : Str → Int → Int → S → BitVec 32 × S
  close : S → BitVec 32 × S
  insert : K → D → S → BitVec 32 × S
  insertBinary : Str → Str → S → BitVec 32 × S
  insertUserdata : Str → S → BitVec 32 × S
  /-- what is returned and what the variable holds afterwards -/
  get : K → D → S → BitVec 32 × D
  getBinary : Str → Str → S → BitVec 32 × Str
  keys : List K → S → List K
  keysAndData : List K × List D → S → List K × List D
  binaryKeysAndData : List Str × List Str → S → List Str × List Str
  storageName : S → Str
  getUserdata : Str → S → BitVec 32 × Str

/-- calls that only do something on the primary node, include/qdp_db_imp.h:70-147, 162-166, 378-382 -/
inductive Quiet
  | setCacheSize (n : BitVec 32) | setCacheSizeMB (n : BitVec 32) | setPageSize (n : BitVec 32) | setNumberBuckets (n : BitVec 32)
  | enablePageMove | disablePageMove | setMaxUserInfoLen (n : BitVec 32) | setMaxNumberConfigs (n : BitVec 32) | flush

def Quiet.run {S K D : Type} (L : Lib S K D) : Quiet → S → S
  | .setCacheSize n => L.setCacheSize n
  | .setCacheSizeMB n => L.setCacheSizeMB n
  | .setPageSize n => L.setPageSize n
  | .setNumberBuckets n => L.setNumberBuckets n
  | .enablePageMove => L.enablePageMove
  | .disablePageMove => L.disablePageMove
  | .setMaxUserInfoLen n => L.setMaxUserInfoLen n
  | .setMaxNumberConfigs n => L.setMaxNumberConfigs n
  | .flush => L.flush

/-- calls that abort if the library returns anything but 0, include/qdp_db_imp.h:203-230, 257-291, 406-418 -/
inductive Act (K D : Type)
  | openDb (file : Str) (flags mode : Int) | close | insert (k : K) (d : D) | insertBinary (k d : Str) | insertUserdata (u : Str)

def Act.run {S K D : Type} (L : Lib S K D) : Act K D → S → BitVec 32 × S
  | .openDb f a b => L.openDb f a b
  | .close => L.close
  | .insert k d => L.insert k d
  | .insertBinary k d => L.insertBinary k d
  | .insertUserdata u => L.insertUserdata u

/-- a program; arguments and old values of variables may differ from node to node -/
inductive Prog (K D R : Type)
  | ret (r : R)
  | quiet (q : Nat → Quiet) (p : Prog K D R)
  | maxUserInfoLen (p : BitVec 32 → Prog K D R)
  | maxNumberConfigs (p : BitVec 32 → Prog K D R)
  | fileExists (f : Nat → Str) (p : Bool → Prog K D R)
  | exist (k : Nat → K) (p : Bool → Prog K D R)
  | act (a : Nat → Act K D) (p : Prog K D R)
  | storageName (p : Str → Prog K D R)
  | userdata (old : Nat → Str) (p : Str → Prog K D R)
  | get (k : Nat → K) (old : Nat → D) (p : BitVec 32 → D → Prog K D R)
  | getBinary (k : Nat → Str) (old : Nat → Str) (p : BitVec 32 → Str → Prog K D R)
  | keys (old : Nat → List K) (p : List K → Prog K D R)
  | keysAndData (old : Nat → List K × List D) (p : List K × List D → Prog K D R)
  | binaryKeysAndData (old : Nat → List Str × List Str) (p : List Str × List Str → Prog K D R)

/-- an `int` in a message -/
def word (be : Bool) (w : BitVec 32) : Str := store32 be w
def unword (be : Bool) : Str → BitVec 32
  | [b0, b1, b2, b3] => load32 be b0 b1 b2 b3
  | _ => 0

/-- the program on node `me`, whose database is `s` (only that of the primary node is ever used).  The variables to be broadcast are initialised on every node: 0, `false` or `true`.
`getMaxUserInfoLen`, `getMaxNumberConfigs`, include/qdp_db_imp.h:149-157, 168-176; `fileExists`, 182-190; `exist`, 237-246; `get`, `getBinary`, 300-330: `notImplemented`, 448-451, on
other nodes; `keys`, `keysAndData`, 337-357; `binaryKeysAndData`, 366-373: its arguments are copies, so the caller's vectors stay as they are; `storageName`, 389-397; `getUserdata`,
426-444 -/
def node {S K D R : Type} (L : Lib S K D) (be : Bool) (junk : Nat → Int → Str) (me : Nat) : Prog K D R → S → Proc Str (R × S)
  | .ret r, s => .done (r, s)
  | .quiet q p, s => node L be junk me p (if me = 0 then (q me).run L s else s)
  | .maxUserInfoLen p, s => .bcast (word be (if me = 0 then L.getMaxUserInfoLen s else 0)) fun v => node L be junk me (p (unword be v)) s
  | .maxNumberConfigs p, s => .bcast (word be (if me = 0 then L.getMaxNumberConfigs s else 0)) fun v => node L be junk me (p (unword be v)) s
  | .fileExists f p, s => .bcast (bit (if me = 0 then L.fileExists (f me) s else false)) fun v => node L be junk me (p (unbit v)) s
  | .exist k p, s => .bcast (bit (if me = 0 then L.exist (k me) s else true)) fun v => node L be junk me (p (unbit v)) s
  | .act a p, s => .bcast (word be (if me = 0 then ((a me).run L s).1 else 0)) fun v =>
      if unword be v ≠ 0 then .stop else node L be junk me p (if me = 0 then ((a me).run L s).2 else s)
  | .storageName p, s => broadcastStr be me (junk me) (if me = 0 then L.storageName s else []) fun v => node L be junk me (p v) s
  | .userdata old p, s => .bcast (word be (if me = 0 then (L.getUserdata (old me) s).1 else 0)) fun v =>
      if unword be v ≠ 0 then .stop
      else broadcastStr be me (junk me) (if me = 0 then (L.getUserdata (old me) s).2 else old me) fun u => node L be junk me (p u) s
  | .get k old p, s =>
      if me = 0 then .bcast (word be (L.get (k me) (old me) s).1) fun v => node L be junk me (p (unword be v) (L.get (k me) (old me) s).2) s else .stop
  | .getBinary k old p, s =>
      if me = 0 then .bcast (word be (L.getBinary (k me) (old me) s).1) fun v => node L be junk me (p (unword be v) (L.getBinary (k me) (old me) s).2) s else .stop
  | .keys old p, s => if me = 0 then node L be junk me (p (L.keys (old me) s)) s else .stop
  | .keysAndData old p, s => if me = 0 then node L be junk me (p (L.keysAndData (old me) s)) s else .stop
  | .binaryKeysAndData old p, s => if me = 0 then node L be junk me (p (old me)) s else .stop

def start {S K D R : Type} (L : Lib S K D) (be : Bool) (junk : Nat → Int → Str) (p : Prog K D R) (Q : Nat → S) : State Str (R × S) :=
  { proc := fun n => node L be junk n p (Q n), queue := fun _ => [], log := fun _ => [] }

/-! ### specification -/

/-- the same program of one process that uses the library itself; `none` if it ends because a call failed -/
def alone {S K D R : Type} (L : Lib S K D) : Prog K D R → S → Option (R × S)
  | .ret r, s => some (r, s)
  | .quiet q p, s => alone L p ((q 0).run L s)
  | .maxUserInfoLen p, s => alone L (p (L.getMaxUserInfoLen s)) s
  | .maxNumberConfigs p, s => alone L (p (L.getMaxNumberConfigs s)) s
  | .fileExists f p, s => alone L (p (L.fileExists (f 0) s)) s
  | .exist k p, s => alone L (p (L.exist (k 0) s)) s
  | .act a p, s => if ((a 0).run L s).1 ≠ 0 then none else alone L p ((a 0).run L s).2
  | .storageName p, s => alone L (p (L.storageName s)) s
  | .userdata old p, s => if (L.getUserdata (old 0) s).1 ≠ 0 then none else alone L (p (L.getUserdata (old 0) s).2) s
  | .get k old p, s => alone L (p (L.get (k 0) (old 0) s).1 (L.get (k 0) (old 0) s).2) s
  | .getBinary k old p, s => alone L (p (L.getBinary (k 0) (old 0) s).1 (L.getBinary (k 0) (old 0) s).2) s
  | .keys old p, s => alone L (p (L.keys (old 0) s)) s
  | .keysAndData old p, s => alone L (p (L.keysAndData (old 0) s)) s
  | .binaryKeysAndData old p, s => alone L (p (L.binaryKeysAndData (old 0) s)) s

/-- on the way there is no `binaryKeysAndData`, on more than one node no reading at all, and the strings are shorter than 2^31 bytes -/
def Fits {S K D R : Type} (L : Lib S K D) (N : Nat) : Prog K D R → S → Prop
  | .ret _, _ => True
  | .quiet q p, s => Fits L N p ((q 0).run L s)
  | .maxUserInfoLen p, s => Fits L N (p (L.getMaxUserInfoLen s)) s
  | .maxNumberConfigs p, s => Fits L N (p (L.getMaxNumberConfigs s)) s
  | .fileExists f p, s => Fits L N (p (L.fileExists (f 0) s)) s
  | .exist k p, s => Fits L N (p (L.exist (k 0) s)) s
  | .act a p, s => ((a 0).run L s).1 = 0 → Fits L N p ((a 0).run L s).2
  | .storageName p, s => (L.storageName s).length < 2 ^ 31 ∧ Fits L N (p (L.storageName s)) s
  | .userdata old p, s => (L.getUserdata (old 0) s).1 = 0 → (L.getUserdata (old 0) s).2.length < 2 ^ 31 ∧ Fits L N (p (L.getUserdata (old 0) s).2) s
  | .get k old p, s => N = 1 ∧ Fits L N (p (L.get (k 0) (old 0) s).1 (L.get (k 0) (old 0) s).2) s
  | .getBinary k old p, s => N = 1 ∧ Fits L N (p (L.getBinary (k 0) (old 0) s).1 (L.getBinary (k 0) (old 0) s).2) s
  | .keys old p, s => N = 1 ∧ Fits L N (p (L.keys (old 0) s)) s
  | .keysAndData old p, s => N = 1 ∧ Fits L N (p (L.keysAndData (old 0) s)) s
  | .binaryKeysAndData _ _, _ => False

/-- the end of node `n` when the program alone ends with `o` -/
def fate {S R : Type} (Q : Nat → S) (o : Option (R × S)) (n : Nat) : Proc Str (R × S) :=
  match o with
  | none => .stop
  | some (r, s) => .done (r, if n = 0 then s else Q n)

/-! ### proofs -/

theorem unword_word (be : Bool) (w : BitVec 32) : unword be (word be w) = w := by
  obtain ⟨b0, b1, b2, b3, e1, e2⟩ := XmlNodes.load_store32 be w
  unfold word
  rw [e1]
  exact e2

/-- `broadcast_str` of a string shorter than 2^31 bytes -/
theorem str_all {R : Type} (be : Bool) (junk : Nat → Int → Str) (net : Net) (N : Nat) (h0 : 0 < N) (mine : Nat → Str) (hm : (mine 0).length < 2 ^ 31)
    (k : Nat → Str → Proc Str R) (s : State Str R) (e : Nat) (h : At N s (fun me => broadcastStr be me (junk me) (mine me) (k me)) e) :
    ∃ m t e', Run net N m s t ∧ At N t (fun me => k me (mine 0)) e' := by
  have h' : At N s (fun me => .bcast (if me = 0 then lenMsg be (mine 0).length else junk me 4) (fun l =>
      if asInt be l < 0 then .stop
      else .bcast (if me = 0 then (mine 0).take (asInt be l).toNat else junk me (asInt be l)) fun d => k me (if me = 0 then mine 0 else d))) e := by
    refine ⟨fun me hme => ?_, h.queue, h.log⟩
    rw [h.proc me hme]
    by_cases hz : me = 0
    · subst hz; simp [broadcastStr]
    · simp [broadcastStr, hz]
  obtain ⟨m, t, r, a⟩ := bcast_all net N h0 s _ _ e h'
  have hz : ¬ ((((mine 0).length : Nat) : Int) < 0) := by omega
  simp only [if_true, asInt_lenMsg, toInt_short hm, if_neg hz, Int.toNat_natCast, List.take_length] at a
  obtain ⟨m1, t1, r1, a1⟩ := bcast_all net N h0 t _ _ _ a
  refine ⟨_, t1, _, r.trans r1, ⟨fun me hme => ?_, a1.queue, a1.log⟩⟩
  rw [a1.proc me hme]; simp

theorem run_all {S K D R : Type} (L : Lib S K D) (be : Bool) (junk : Nat → Int → Str) (net : Net) (N : Nat) (h0 : 0 < N) :
    ∀ (p : Prog K D R) (Q : Nat → S) (s : State Str (R × S)) (e : Nat), Fits L N p (Q 0) → At N s (fun n => node L be junk n p (Q n)) e →
      ∃ m t e', Run net N m s t ∧ At N t (fate Q (alone L p (Q 0))) e' := by
  intro p
  -- the database of the primary node after a call
  have change : ∀ (Q Q' : Nat → S) (o : Option (R × S)) (t : State Str (R × S)) (e : Nat), (∀ n, n ≠ 0 → Q' n = Q n) → At N t (fate Q' o) e → At N t (fate Q o) e := by
    intro Q Q' o t e hQ a
    refine ⟨fun n hn => ?_, a.queue, a.log⟩
    rw [a.proc n hn]
    cases o with
    | none => rfl
    | some x =>
      simp only [fate]
      by_cases hz : n = 0
      · simp [hz]
      · simp [hz, hQ n hz]
  have one : N = 1 → ∀ n, n < N → n = 0 := by intro h n hn; omega
  induction p with
  | ret r =>
    intro Q s e _ h
    refine ⟨0, s, e, Run.refl _, ⟨fun n hn => ?_, h.queue, h.log⟩⟩
    rw [h.proc n hn]
    by_cases hz : n = 0
    · subst hz; simp [node, alone, fate]
    · simp [node, alone, fate, hz]
  | quiet q p ih =>
    intro Q s e hs h
    obtain ⟨m, t, e', r, a⟩ := ih (fun n => if n = 0 then (q n).run L (Q n) else Q n) s e hs h
    exact ⟨m, t, e', r, change Q _ _ t e' (fun n hn => by simp [hn]) a⟩
  | maxUserInfoLen p ih =>
    intro Q s e hs h
    obtain ⟨m, t, r, a⟩ := bcast_all net N h0 s _ _ e h
    simp only [if_true, unword_word] at a
    obtain ⟨m2, t2, e2, r2, a2⟩ := ih _ Q t _ hs a
    exact ⟨_, t2, e2, r.trans r2, a2⟩
  | maxNumberConfigs p ih =>
    intro Q s e hs h
    obtain ⟨m, t, r, a⟩ := bcast_all net N h0 s _ _ e h
    simp only [if_true, unword_word] at a
    obtain ⟨m2, t2, e2, r2, a2⟩ := ih _ Q t _ hs a
    exact ⟨_, t2, e2, r.trans r2, a2⟩
  | fileExists f p ih =>
    intro Q s e hs h
    obtain ⟨m, t, r, a⟩ := bcast_all net N h0 s _ _ e h
    simp only [if_true, unbit_bit] at a
    obtain ⟨m2, t2, e2, r2, a2⟩ := ih _ Q t _ hs a
    exact ⟨_, t2, e2, r.trans r2, a2⟩
  | exist k p ih =>
    intro Q s e hs h
    obtain ⟨m, t, r, a⟩ := bcast_all net N h0 s _ _ e h
    simp only [if_true, unbit_bit] at a
    obtain ⟨m2, t2, e2, r2, a2⟩ := ih _ Q t _ hs a
    exact ⟨_, t2, e2, r.trans r2, a2⟩
  | act a p ih =>
    intro Q s e hs h
    obtain ⟨m, t, r, b⟩ := bcast_all net N h0 s _ _ e h
    simp only [if_true, unword_word] at b
    by_cases hr : ((a 0).run L (Q 0)).1 = 0
    · simp only [hr, ne_eq, not_true_eq_false, if_false] at b
      obtain ⟨m2, t2, e2, r2, a2⟩ := ih (fun n => if n = 0 then ((a n).run L (Q n)).2 else Q n) t _ (hs hr) b
      simp only [alone, hr, ne_eq, not_true_eq_false, if_false]
      exact ⟨_, t2, e2, r.trans r2, change Q _ _ t2 e2 (fun n hn => by simp [hn]) a2⟩
    · simp only [hr, ne_eq, not_false_eq_true, if_true] at b
      simp only [alone, hr, ne_eq, not_false_eq_true, if_true]
      exact ⟨m, t, _, r, b⟩
  | storageName p ih =>
    intro Q s e hs h
    obtain ⟨m, t, e', r, a⟩ := str_all be junk net N h0 (fun me => if me = 0 then L.storageName (Q me) else []) hs.1 (fun me v => node L be junk me (p v) (Q me)) s e h
    obtain ⟨m2, t2, e2, r2, a2⟩ := ih _ Q t _ hs.2 a
    exact ⟨_, t2, e2, r.trans r2, a2⟩
  | userdata old p ih =>
    intro Q s e hs h
    obtain ⟨m, t, r, b⟩ := bcast_all net N h0 s _ _ e h
    simp only [if_true, unword_word] at b
    by_cases hr : (L.getUserdata (old 0) (Q 0)).1 = 0
    · simp only [hr, ne_eq, not_true_eq_false, if_false] at b
      obtain ⟨m1, t1, e1, r1, a1⟩ := str_all be junk net N h0 (fun me => if me = 0 then (L.getUserdata (old me) (Q me)).2 else old me) (hs hr).1
        (fun me v => node L be junk me (p v) (Q me)) t _ b
      obtain ⟨m2, t2, e2, r2, a2⟩ := ih _ Q t1 _ (hs hr).2 a1
      simp only [alone, hr, ne_eq, not_true_eq_false, if_false]
      exact ⟨_, t2, e2, (r.trans r1).trans r2, a2⟩
    · simp only [hr, ne_eq, not_false_eq_true, if_true] at b
      simp only [alone, hr, ne_eq, not_false_eq_true, if_true]
      exact ⟨m, t, _, r, b⟩
  | get k old p ih =>
    intro Q s e hs h
    have h' : At N s (fun me => .bcast (word be (L.get (k 0) (old 0) (Q 0)).1) fun v => node L be junk me (p (unword be v) (L.get (k 0) (old 0) (Q 0)).2) (Q me)) e := by
      refine ⟨fun me hme => ?_, h.queue, h.log⟩
      have := one hs.1 me hme; subst this
      rw [h.proc 0 hme]; simp [node]
    obtain ⟨m, t, r, a⟩ := bcast_all net N h0 s _ _ e h'
    simp only [unword_word] at a
    obtain ⟨m2, t2, e2, r2, a2⟩ := ih _ _ Q t _ hs.2 a
    exact ⟨_, t2, e2, r.trans r2, a2⟩
  | getBinary k old p ih =>
    intro Q s e hs h
    have h' : At N s (fun me => .bcast (word be (L.getBinary (k 0) (old 0) (Q 0)).1) fun v =>
        node L be junk me (p (unword be v) (L.getBinary (k 0) (old 0) (Q 0)).2) (Q me)) e := by
      refine ⟨fun me hme => ?_, h.queue, h.log⟩
      have := one hs.1 me hme; subst this
      rw [h.proc 0 hme]; simp [node]
    obtain ⟨m, t, r, a⟩ := bcast_all net N h0 s _ _ e h'
    simp only [unword_word] at a
    obtain ⟨m2, t2, e2, r2, a2⟩ := ih _ _ Q t _ hs.2 a
    exact ⟨_, t2, e2, r.trans r2, a2⟩
  | keys old p ih =>
    intro Q s e hs h
    refine ih _ Q s e hs.2 ⟨fun me hme => ?_, h.queue, h.log⟩
    have := one hs.1 me hme; subst this
    rw [h.proc 0 hme]; simp [node]
  | keysAndData old p ih =>
    intro Q s e hs h
    refine ih _ Q s e hs.2 ⟨fun me hme => ?_, h.queue, h.log⟩
    have := one hs.1 me hme; subst this
    rw [h.proc 0 hme]; simp [node]
  | binaryKeysAndData old p ih => intro Q s e hs; exact hs.elim

theorem fate_final {S R : Type} {net : Net} {N e : Nat} {t : State Str (R × S)} {Q : Nat → S} {o : Option (R × S)} (a : At N t (fate Q o) e) : Final net N t := by
  intro i u hs
  unfold Step at hs
  rw [a.proc i hs.1] at hs
  cases o with
  | none => exact hs.2
  | some x => exact hs.2

/-- C114, partial. A program with a database on any number of nodes: every execution ends, no node waits forever; all nodes obtain the values that one process with the library
itself obtains, with the arguments of the primary node; the library is called on the primary node only; if a call fails, all nodes abort, after any number of calls before.
Missing: reading on more than one node, see `C114_read_refuted`; `binaryKeysAndData`, see `C114_by_value_refuted`; strings of 2^31 bytes and more. -/
theorem C114_agree_partial {S K D R : Type} (L : Lib S K D) (be : Bool) (junk : Nat → Int → Str) (net : Net) (N : Nat) (h0 : 0 < N) (p : Prog K D R) (Q : Nat → S)
    (hf : Fits L N p (Q 0)) :
    ∃ T : Nat, ∀ m t, Run net N m (start L be junk p Q) t → m ≤ T ∧ (Final net N t → ∀ n, n < N →
      t.proc n = match alone L p (Q 0) with
        | none => .stop
        | some (r, s) => .done (r, if n = 0 then s else Q n)) := by
  obtain ⟨m, t, e, r, a⟩ := run_all L be junk net N h0 p Q (start L be junk p Q) 0 hf ⟨fun _ _ => rfl, fun _ => rfl, fun _ _ => rfl⟩
  have hfin : Final net N t := fate_final a
  refine ⟨m, fun m' t' ht => ⟨(all_executions r hfin ht).1, fun hf n hn => ?_⟩⟩
  obtain ⟨rfl, -⟩ := stuck_is_end r hfin ht hf
  exact a.proc n hn

/-- a call that reads keys or data -/
inductive Reads {K D R : Type} : Prog K D R → Prop
  | get (k old p) : Reads (.get k old p)
  | getBinary (k old p) : Reads (.getBinary k old p)
  | keys (old p) : Reads (.keys old p)
  | keysAndData (old p) : Reads (.keysAndData old p)
  | binaryKeysAndData (old p) : Reads (.binaryKeysAndData old p)

theorem stop_stays {V R : Type} {net : Net} {N m : Nat} {s t : State V R} (h : Run net N m s t) (n : Nat) (hs : s.proc n = .stop) : t.proc n = .stop := by
  induction h with
  | refl s => exact hs
  | @step m i s t u st _ ih =>
    apply ih
    unfold Step at st
    have hne : n ≠ i := by
      rintro rfl
      rw [hs] at st
      exact st.2
    obtain ⟨-, st⟩ := st
    cases hp : s.proc i with
    | done r => rw [hp] at st; exact st.elim
    | stop => rw [hp] at st; exact st.elim
    | send d v k => rw [hp] at st; obtain ⟨-, rfl⟩ := st; simp [Function.update, hne, hs]
    | wait d k => rw [hp] at st; obtain ⟨-, rfl⟩ := st; simp [Function.update, hne, hs]
    | recv src k => rw [hp] at st; obtain ⟨_, _, -, rfl⟩ := st; simp [Function.update, hne, hs]
    | bcast v k => rw [hp] at st; simp only at st; subst st; simp [Function.update, hne, hs]
    | leave k => rw [hp] at st; obtain ⟨_, -, -, -, rfl⟩ := st; simp [Function.update, hne, hs]
    | reduce v k => rw [hp] at st; simp only at st; subst st; simp [Function.update, hne, hs]
    | total k => rw [hp] at st; obtain ⟨_, -, -, -, -, rfl⟩ := st; simp [Function.update, hne, hs]

/-- C114, refutation. On more than one node a database cannot be read: `get`, `getBinary`, `keys`, `keysAndData` and `binaryKeysAndData` abort all nodes but the primary one in
every execution, whatever the library would return and though every node could have been sent it. -/
theorem C114_read_refuted {S K D R : Type} (L : Lib S K D) (be : Bool) (junk : Nat → Int → Str) (net : Net) (N : Nat) (p : Prog K D R) (hp : Reads p) (Q : Nat → S)
    (m : Nat) (t : State Str (R × S)) (ht : Run net N m (start L be junk p Q) t) (n : Nat) (hn : 0 < n) : t.proc n = .stop := by
  refine stop_stays ht n ?_
  have : n ≠ 0 := by omega
  cases hp <;> simp [start, node, this]

/-- C114, refutation. `binaryKeysAndData` takes its vectors by value: on one node it returns and the caller has the vectors it had before. -/
theorem C114_by_value_refuted {S K D : Type} (L : Lib S K D) (be : Bool) (junk : Nat → Int → Str) (net : Net) (Q : Nat → S) (old : Nat → List Str × List Str)
    (hL : L.binaryKeysAndData (old 0) (Q 0) ≠ old 0) :
    ∃ p : Prog K D (List Str × List Str), p = .binaryKeysAndData old .ret ∧ Final net 1 (start L be junk p Q) ∧ (start L be junk p Q).proc 0 = .done (old 0, Q 0) ∧
      alone L p (Q 0) = some (L.binaryKeysAndData (old 0) (Q 0), Q 0) ∧ (L.binaryKeysAndData (old 0) (Q 0), Q 0) ≠ (old 0, Q 0) := by
  refine ⟨_, rfl, ?_, rfl, rfl, fun h => hL (Prod.ext_iff.1 h).1⟩
  intro i u hs
  obtain ⟨hi, hs⟩ := hs
  have : i = 0 := by omega
  subst this
  exact hs

/-! ### witnesses -/

/-- a database of bytes under bytes -/
def demo : Lib (List (Byte × Byte) × Str) Byte Byte where
  setCacheSize _ s := s
  setCacheSizeMB _ s := s
  setPageSize _ s := s
  setNumberBuckets _ s := s
  enablePageMove s := s
  disablePageMove s := s
  setMaxUserInfoLen _ s := s
  setMaxNumberConfigs _ s := s
  flush s := s
  getMaxUserInfoLen _ := 10
  getMaxNumberConfigs _ := 1
  fileExists _ _ := false
  exist k s := (s.1.lookup k).isSome
  openDb _ _ _ s := (0, s)
  close s := (0, s)
  insert k d s := if s.1.length < 2 then (0, ((k, d) :: s.1, s.2)) else (-1, s)
  insertBinary _ _ s := (0, s)
  insertUserdata u s := (0, (s.1, u))
  get k d s := match s.1.lookup k with
    | some x => (0, x)
    | none => (-1, d)
  getBinary _ d _ := (-1, d)
  keys _ s := s.1.map Prod.fst
  keysAndData _ s := (s.1.map Prod.fst, s.1.map Prod.snd)
  binaryKeysAndData _ s := (s.1.map fun x => [x.1], s.1.map fun x => [x.2])
  storageName _ := [7]
  getUserdata _ s := (0, s.2)

/-- open, insert a pair (each node another one), ask for the key of the primary node, get the user data -/
def demoProg : Prog Byte Byte (Bool × Str) :=
  .act (fun _ => .openDb [1] 2 3) <| .act (fun n => .insert (BitVec.ofNat 8 n) 5) <| .exist (fun _ => 0) fun b => .userdata (fun _ => []) fun u => .ret (b, u)

example : alone demo demoProg ([], [4, 4]) = some ((true, [4, 4]), ([(0, 5)], [4, 4])) := by decide
example : Fits demo 7 demoProg ([], [4, 4]) := by simp [Fits, demoProg, demo, Act.run]
/-- the third insertion fails -/
example : alone demo demoProg ([(1, 1), (2, 2)], []) = none := by decide
example : demo.binaryKeysAndData ([], []) ([(1, 2)], []) ≠ ([], []) := by decide
end Verif.Database
