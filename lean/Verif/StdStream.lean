import Verif.NetworkRounds
import Verif.XmlNodes
import Verif.XmlField
/-
The standard streams on many nodes: `StandardInputStream`, `StandardOutputStream`, lib/qdp_stdio.cc, include/qdp_stdio.h, with `broadcast_str`,
lib/qdp_parscalar_specific.cc:250-288.

What the streams of the C++ library do is given by functions: reading a value of some type changes the state of the input stream and the variable (a failed read may leave
the variable as it was), a formatted output changes the state of the output stream.  A program is a tree whose later statements may depend on what was read; all nodes run
the same program, each with its own streams and its own old values of the variables and numbers to print.
-/
namespace Verif.StdStream
open Verif Outcome Verif.Layout Verif.ParLayout Verif.Network Verif.ByteOrder

/-- the streams of one process: states `S` of the input and `O` of the output; the types that can be read, by number; the numbers that can be printed -/
structure Lib (S O : Type) where
  /-- `is >> input` for the type `n` whose variable holds the bytes given -/
  num : Nat → S → List Byte → List Byte × S
  /-- `is >> input` for a string -/
  str : S → List Byte → List Byte × S
  /-- `is.fail()` -/
  ifail : S → Bool
  /-- `os.fail()` -/
  ofail : O → Bool
  /-- `os << output` for the type `n` -/
  put : Nat → List Byte → O → O
  /-- `os.precision()` -/
  prec : O → Nat
  /-- `os.precision(p)` -/
  setPrec : Nat → O → O
  /-- `os.flush()` -/
  flush : O → O

/-- an output: `float`, `double`; other types and strings; a manipulator -/
inductive Out (O : Type)
  | flt (b : List Byte)
  | dbl (b : List Byte)
  | other (n : Nat) (b : List Byte)
  | manip (op : O → O)
  | flush

/-- the types `float` and `double` -/
def tFloat : Nat := 0
def tDouble : Nat := 1

/-- `operator<<` on the primary node: with precision 7 and 15 for `float` and `double`, restored, lib/qdp_stdio.cc:231-258; `writePrimitive`, lib/qdp_stdio.cc:270-277,
and strings, lib/qdp_stdio.cc:174-190; manipulators, lib/qdp_stdio.cc:161-171; `flush`, lib/qdp_stdio.cc:135-142, of an open stream -/
def emit {S O : Type} (L : Lib S O) : Out O → O → O
  | .flt b, o => L.setPrec (L.prec o) (L.put tFloat b (L.setPrec 7 o))
  | .dbl b, o => L.setPrec (L.prec o) (L.put tDouble b (L.setPrec 15 o))
  | .other n b, o => L.put n b o
  | .manip op, o => op o
  | .flush, o => L.flush o

/-- a program: what is printed and what the variables held may differ from node to node -/
inductive Prog (O R : Type)
  | ret (r : R)
  | out (w : Nat → Out O) (k : Prog O R)
  | num (n : Nat) (old : Nat → List Byte) (k : List Byte → Prog O R)
  | str (old : Nat → List Byte) (k : List Byte → Prog O R)
  | ifail (k : Bool → Prog O R)
  | ofail (k : Bool → Prog O R)

/-- a `bool` in a message -/
def bit (b : Bool) : List Byte := [if b then 1 else 0]
def unbit (m : List Byte) : Bool := m != [0]

/-- the length of a string as an `int` in a message -/
def lenMsg (be : Bool) (n : Nat) : List Byte := store32 be (BitVec.ofNat 32 n)

/-- the number in a message as the `int` it is -/
def asInt (be : Bool) : List Byte → Int
  | [b0, b1, b2, b3] => (load32 be b0 b1 b2 b3).toInt
  | _ => -1

/-- `broadcast_str`, lib/qdp_parscalar_specific.cc:253-288.  `junk` is what the new array holds before the broadcast; an array of negative length stops the program. -/
def broadcastStr {R : Type} (be : Bool) (me : Nat) (junk : Int → List Byte) (mine : List Byte) (k : List Byte → Proc (List Byte) R) : Proc (List Byte) R :=
  .bcast (if me = 0 then lenMsg be mine.length else junk 4) fun l =>
    if asInt be l < 0 then .stop
    else .bcast (if me = 0 then mine.take (asInt be l).toNat else junk (asInt be l)) fun d => k (if me = 0 then mine else d)

/-- the program on node `me`: streams are touched on the primary node only; `readPrimitive`, lib/qdp_stdio.cc:113-122, string, lib/qdp_stdio.cc:51-62, `fail`,
lib/qdp_stdio.cc:36-45, 145-154 (the variable `s` is not set on other nodes: `junk`) -/
def node {S O R : Type} (L : Lib S O) (be : Bool) (junk : Nat → Int → List Byte) (me : Nat) : Prog O R → S → O → Proc (List Byte) (R × S × O)
  | .ret r, i, o => .done (r, i, o)
  | .out w k, i, o => node L be junk me k i (if me = 0 then emit L (w me) o else o)
  | .num n old k, i, o =>
      .bcast (if me = 0 then (L.num n i (old me)).1 else old me) fun v => node L be junk me (k v) (if me = 0 then (L.num n i (old me)).2 else i) o
  | .str old k, i, o =>
      broadcastStr be me (junk me) (if me = 0 then (L.str i (old me)).1 else old me) fun v =>
        node L be junk me (k v) (if me = 0 then (L.str i (old me)).2 else i) o
  | .ifail k, i, o => .bcast (if me = 0 then bit (L.ifail i) else junk me 1) fun v => node L be junk me (k (unbit v)) i o
  | .ofail k, i, o => .bcast (if me = 0 then bit (L.ofail o) else junk me 1) fun v => node L be junk me (k (unbit v)) i o

/-- the machine at the start: node `n` has the streams `I n`, `O n` -/
def start {S O R : Type} (L : Lib S O) (be : Bool) (junk : Nat → Int → List Byte) (p : Prog O R) (I : Nat → S) (Q : Nat → O) : State (List Byte) (R × S × O) :=
  { proc := fun n => node L be junk n p (I n) (Q n), queue := fun _ => [], log := fun _ => [] }

/-! ### specification -/

/-- the same program of one process with the streams of the C++ library -/
def alone {S O R : Type} (L : Lib S O) : Prog O R → S → O → R × S × O
  | .ret r, i, o => (r, i, o)
  | .out w k, i, o => alone L k i (emit L (w 0) o)
  | .num n old k, i, o => alone L (k (L.num n i (old 0)).1) (L.num n i (old 0)).2 o
  | .str old k, i, o => alone L (k (L.str i (old 0)).1) (L.str i (old 0)).2 o
  | .ifail k, i, o => alone L (k (L.ifail i)) i o
  | .ofail k, i, o => alone L (k (L.ofail o)) i o

/-- the strings read by the program are shorter than 2^31 bytes -/
def Short {S O R : Type} (L : Lib S O) : Prog O R → S → O → Prop
  | .ret _, _, _ => True
  | .out w k, i, o => Short L k i (emit L (w 0) o)
  | .num n old k, i, o => Short L (k (L.num n i (old 0)).1) (L.num n i (old 0)).2 o
  | .str old k, i, o => (L.str i (old 0)).1.length < 2 ^ 31 ∧ Short L (k (L.str i (old 0)).1) (L.str i (old 0)).2 o
  | .ifail k, i, o => Short L (k (L.ifail i)) i o
  | .ofail k, i, o => Short L (k (L.ofail o)) i o

/-! ### proofs -/

theorem unbit_bit (b : Bool) : unbit (bit b) = b := by cases b <;> decide

theorem asInt_lenMsg (be : Bool) (n : Nat) : asInt be (lenMsg be n) = (BitVec.ofNat 32 n).toInt := by
  obtain ⟨b0, b1, b2, b3, e1, e2⟩ := XmlNodes.load_store32 be (BitVec.ofNat 32 n)
  unfold lenMsg
  rw [e1]
  simp only [asInt, e2]

theorem toInt_short {n : Nat} (h : n < 2 ^ 31) : (BitVec.ofNat 32 n).toInt = n := by
  rw [BitVec.toInt_eq_toNat_cond, BitVec.toNat_ofNat, Nat.mod_eq_of_lt (by omega)]
  split <;> omega

theorem toInt_long {n : Nat} (h1 : 2 ^ 31 ≤ n) (h2 : n < 2 ^ 32) : (BitVec.ofNat 32 n).toInt < 0 := by
  rw [BitVec.toInt_eq_toNat_cond, BitVec.toNat_ofNat, Nat.mod_eq_of_lt h2]
  split <;> omega

theorem run_all {S O R : Type} (L : Lib S O) (be : Bool) (junk : Nat → Int → List Byte) (net : Net) (N : Nat) (h0 : 0 < N) :
    ∀ (p : Prog O R) (I : Nat → S) (Q : Nat → O) (s : State (List Byte) (R × S × O)) (e : Nat), Short L p (I 0) (Q 0) →
      At N s (fun n => node L be junk n p (I n) (Q n)) e →
      ∃ m t e', Run net N m s t ∧ At N t (fun n => .done (if n = 0 then alone L p (I 0) (Q 0) else ((alone L p (I 0) (Q 0)).1, I n, Q n))) e' := by
  intro p
  induction p with
  | ret r =>
    intro I Q s e _ h
    refine ⟨0, s, e, Run.refl _, ⟨fun n hn => ?_, h.queue, h.log⟩⟩
    rw [h.proc n hn]
    by_cases hz : n = 0
    · subst hz; simp [node, alone]
    · simp [node, alone, hz]
  | out w k ih =>
    intro I Q s e hs h
    have hq : (if (0 : Nat) = 0 then emit L (w 0) (Q 0) else Q 0) = emit L (w 0) (Q 0) := if_pos rfl
    obtain ⟨m, t, e', r, a⟩ := ih I (fun n => if n = 0 then emit L (w n) (Q n) else Q n) s e hs h
    refine ⟨m, t, e', r, ⟨fun n hn => ?_, a.queue, a.log⟩⟩
    rw [a.proc n hn]
    by_cases hz : n = 0
    · subst hz; simp [alone]
    · simp [alone, hz]
  | num n old k ih =>
    intro I Q s e hs h
    obtain ⟨m, t, r, a⟩ := bcast_all net N h0 s (fun me => if me = 0 then (L.num n (I me) (old me)).1 else old me)
      (fun me v => node L be junk me (k v) (if me = 0 then (L.num n (I me) (old me)).2 else I me) (Q me)) e h
    obtain ⟨m2, t2, e2, r2, a2⟩ := ih ((L.num n (I 0) (old 0)).1) (fun me => if me = 0 then (L.num n (I me) (old me)).2 else I me) Q t (e + 1) hs a
    refine ⟨_, t2, e2, r.trans r2, ⟨fun n hn => ?_, a2.queue, a2.log⟩⟩
    rw [a2.proc n hn]
    by_cases hz : n = 0
    · subst hz; simp [alone]
    · simp [alone, hz]
  | str old k ih =>
    intro I Q s e hs h
    obtain ⟨hlen, hs⟩ := hs
    have h' : At N s (fun me => .bcast (if me = 0 then lenMsg be (L.str (I 0) (old 0)).1.length else junk me 4) (fun l =>
        if asInt be l < 0 then .stop
        else .bcast (if me = 0 then (L.str (I 0) (old 0)).1.take (asInt be l).toNat else junk me (asInt be l)) fun d =>
          node L be junk me (k (if me = 0 then (L.str (I 0) (old 0)).1 else d)) (if me = 0 then (L.str (I me) (old me)).2 else I me) (Q me))) e := by
      refine ⟨fun me hme => ?_, h.queue, h.log⟩
      rw [h.proc me hme]
      by_cases hz : me = 0
      · subst hz; simp [node, broadcastStr]
      · simp [node, broadcastStr, hz]
    obtain ⟨m, t, r, a⟩ := bcast_all net N h0 s _ _ e h'
    have hz : ¬ ((((L.str (I 0) (old 0)).1.length : Nat) : Int) < 0) := by omega
    simp only [if_true, asInt_lenMsg, toInt_short hlen, if_neg hz, Int.toNat_natCast, List.take_length] at a
    obtain ⟨m1, t1, r1, a1⟩ := bcast_all net N h0 t _ _ _ a
    have a1' : At N t1 (fun me => node L be junk me (k (L.str (I 0) (old 0)).1) (if me = 0 then (L.str (I me) (old me)).2 else I me) (Q me)) (e + 1 + 1) := by
      refine ⟨fun me hme => ?_, a1.queue, a1.log⟩
      rw [a1.proc me hme]; simp
    obtain ⟨m2, t2, e2, r2, a2⟩ := ih ((L.str (I 0) (old 0)).1) (fun me => if me = 0 then (L.str (I me) (old me)).2 else I me) Q t1 (e + 1 + 1) hs a1'
    refine ⟨_, t2, e2, (r.trans r1).trans r2, ⟨fun n hn => ?_, a2.queue, a2.log⟩⟩
    rw [a2.proc n hn]
    by_cases hz : n = 0
    · subst hz; simp [alone]
    · simp [alone, hz]
  | ifail k ih =>
    intro I Q s e hs h
    obtain ⟨m, t, r, a⟩ := bcast_all net N h0 s (fun me => if me = 0 then bit (L.ifail (I me)) else junk me 1)
      (fun me v => node L be junk me (k (unbit v)) (I me) (Q me)) e h
    simp only [if_true, unbit_bit] at a
    obtain ⟨m2, t2, e2, r2, a2⟩ := ih (L.ifail (I 0)) I Q t (e + 1) hs a
    exact ⟨_, t2, e2, r.trans r2, a2⟩
  | ofail k ih =>
    intro I Q s e hs h
    obtain ⟨m, t, r, a⟩ := bcast_all net N h0 s (fun me => if me = 0 then bit (L.ofail (Q me)) else junk me 1)
      (fun me v => node L be junk me (k (unbit v)) (I me) (Q me)) e h
    simp only [if_true, unbit_bit] at a
    obtain ⟨m2, t2, e2, r2, a2⟩ := ih (L.ofail (Q 0)) I Q t (e + 1) hs a
    exact ⟨_, t2, e2, r.trans r2, a2⟩

/-- C110, partial. A program that prints and reads through `QDPIO::cout`, `cerr`, `cin` on any number of nodes: every execution ends, no node waits forever; all nodes
obtain the values and the states of the streams that one process alone would have obtained, whatever the other nodes' variables held; what is printed appears
once, and other nodes neither print nor read.  Missing: strings of 2^31 bytes and more, see `C110_long_refuted`. -/
theorem C110_streams_partial {S O R : Type} (L : Lib S O) (be : Bool) (junk : Nat → Int → List Byte) (net : Net) (N : Nat) (h0 : 0 < N) (p : Prog O R) (I : Nat → S)
    (Q : Nat → O) (hs : Short L p (I 0) (Q 0)) :
    XmlField.AlwaysEnds net N (start L be junk p I Q) fun r =>
      r 0 = alone L p (I 0) (Q 0) ∧ ∀ n, 0 < n → n < N → r n = ((alone L p (I 0) (Q 0)).1, I n, Q n) := by
  obtain ⟨m, t, e, r, a⟩ := run_all L be junk net N h0 p I Q (start L be junk p I Q) 0 hs ⟨fun _ _ => rfl, fun _ => rfl, fun _ _ => rfl⟩
  refine XmlField.alwaysEnds r _ a ⟨by simp, fun n hn _ => ?_⟩
  have : n ≠ 0 := by omega
  simp [this]

/-- C110. `float` and `double` are printed with 7 and 15 digits and the precision the user has set is kept, for every stream whose insertions keep the precision. -/
theorem C110_precision {S O : Type} (L : Lib S O) (hput : ∀ n b o, L.prec (L.put n b o) = L.prec o) (hset : ∀ p o, L.prec (L.setPrec p o) = p)
    (hfl : ∀ o, L.prec (L.flush o) = L.prec o) (w : Out O) (hw : ∀ op, w ≠ .manip op) (o : O) :
    L.prec (emit L w o) = L.prec o ∧
    (∀ b, ∃ o1, L.prec o1 = 7 ∧ emit L (.flt b) o = L.setPrec (L.prec o) (L.put tFloat b o1)) ∧
    (∀ b, ∃ o1, L.prec o1 = 15 ∧ emit L (.dbl b) o = L.setPrec (L.prec o) (L.put tDouble b o1)) := by
  refine ⟨?_, fun b => ⟨L.setPrec 7 o, hset 7 o, rfl⟩, fun b => ⟨L.setPrec 15 o, hset 15 o, rfl⟩⟩
  cases w with
  | flt b => exact hset _ _
  | dbl b => exact hset _ _
  | other n b => exact hput n b o
  | manip op => exact absurd rfl (hw op)
  | flush => exact hfl o

/-- C110, refutation. A string of at least 2^31 and fewer than 2^32 bytes, which one process reads, stops every node: the length is sent as an `int`. -/
theorem C110_long_refuted {S O R : Type} (L : Lib S O) (be : Bool) (junk : Nat → Int → List Byte) (net : Net) (N : Nat) (h0 : 0 < N) (old : Nat → List Byte)
    (k : List Byte → Prog O R) (I : Nat → S) (Q : Nat → O) (h1 : 2 ^ 31 ≤ (L.str (I 0) (old 0)).1.length) (h2 : (L.str (I 0) (old 0)).1.length < 2 ^ 32) :
    ∃ T : Nat, ∀ m t, Run net N m (start L be junk (.str old k) I Q) t → m ≤ T ∧ (Final net N t → ∀ n, n < N → t.proc n = .stop) := by
  have h : At N (start L be junk (.str old k) I Q) (fun me => .bcast (if me = 0 then lenMsg be (L.str (I 0) (old 0)).1.length else junk me 4) (fun l =>
        if asInt be l < 0 then .stop
        else .bcast (if me = 0 then (L.str (I 0) (old 0)).1.take (asInt be l).toNat else junk me (asInt be l)) fun d =>
          node L be junk me (k (if me = 0 then (L.str (I 0) (old 0)).1 else d)) (if me = 0 then (L.str (I me) (old me)).2 else I me) (Q me))) 0 := by
    refine ⟨fun me hme => ?_, fun _ => rfl, fun _ _ => rfl⟩
    by_cases hz : me = 0
    · subst hz; simp [start, node, broadcastStr]
    · simp [start, node, broadcastStr, hz]
  obtain ⟨m, t, r, a⟩ := bcast_all net N h0 _ _ _ 0 h
  have hst : ∀ n, n < N → t.proc n = .stop := by
    intro n hn
    rw [a.proc n hn]
    simp only [if_true, asInt_lenMsg, if_pos (toInt_long h1 h2)]
  have hfin : Final net N t := by
    intro i u hs
    unfold Step at hs
    rw [hst i hs.1] at hs
    exact hs.2
  refine ⟨m, fun m' t' ht => ⟨(all_executions r hfin ht).1, fun hf n hn => ?_⟩⟩
  obtain ⟨rfl, -⟩ := stuck_is_end r hfin ht hf
  exact hst n hn

/-! ### witnesses -/

/-- streams of bytes: a number is the next byte, a string the rest; printing appends -/
def demo : Lib (List Byte) (List Byte × Nat) :=
  { num := fun _ i old => match i with
      | [] => (old, [])
      | b :: r => ([b], r)
    str := fun i _ => (i, [])
    ifail := fun i => i.isEmpty
    ofail := fun _ => false
    put := fun _ b o => (o.1 ++ b, o.2)
    prec := fun o => o.2
    setPrec := fun p o => (o.1, p)
    flush := id }

/-- prompt, read a number, read a string, print the number, return what was read and whether the end was reached -/
def demoProg : Prog (List Byte × Nat) (List Byte × List Byte × Bool) :=
  .out (fun n => .other 2 [BitVec.ofNat 8 n]) <| .num 2 (fun n => [BitVec.ofNat 8 n]) fun v => .str (fun _ => []) fun w => .out (fun _ => .flt v) <| .ifail fun b =>
    .ret (v, w, b)

example : alone demo demoProg [5, 6, 7] ([], 4) = (([5], [6, 7], true), [], ([0, 5], 4)) ∧ Short demo demoProg [5, 6, 7] ([], 4) :=
  ⟨by decide, by simp [Short, demoProg, demo]⟩
end Verif.StdStream
