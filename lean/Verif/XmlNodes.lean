import Verif.ByteOrder
/-
Reading XML on a machine of many nodes: class XMLReader, lib/qdp_xmlio.cc:45-251, and `broadcast_str`, lib/qdp_parscalar_specific.cc:250-288.

Every node runs the same program.  The document is opened and searched on the primary node only, and what is found is broadcast.  A program is a tree: it ends,
or it asks a query of the reader and goes on, depending on the value found or on the exception.  The messages of a broadcast arrive in the order in which the
primary node sends them; a node whose message has another size than it expects is a clash, a node that waits for a message that is never sent waits forever.
What a query finds is a parameter: the XPath library is not in the repository, it throws if the query does not match.
-/
namespace Verif.XmlNodes
open Verif Outcome ByteOrder

/-! ## model -/

/-- the calls of a reader: a reader for a part of the document, a number of a given size in bytes, the number of elements, a string -/
inductive Query where
  | enter (path : String)
  | num (size : Nat) (path : String)
  | count (path : String)
  | str (path : String)

/-- a program: every query is followed by a function of the value or of the exception (`none`) -/
inductive Prog (α : Type) where
  | ret (a : α)
  | ask (q : Query) (k : Option (List Byte) → Prog α)

/-- what the library finds on the primary node -/
abbrev Doc := Query → Option (List Byte)

/-- the broadcasts after a query has succeeded on the primary node: none for a new reader, lib/qdp_xmlio.cc:96-105; `broadcast(result)` for a number,
lib/qdp_xmlio.cc:182-191, and for the number of elements, lib/qdp_xmlio.cc:242-251; `broadcast_str`, lib/qdp_parscalar_specific.cc:253-288, for a string,
lib/qdp_xmlio.cc:129-137: its length as an `int`, then the characters -/
def sends (be : Bool) : Query → List Byte → List (List Byte)
  | .enter _, _ => []
  | .num _ _, v => [v]
  | .count _, v => [v]
  | .str _, v => [store32 be (BitVec.ofNat 32 v.length), v]

/-- the primary node: what it sends and how it ends.  An exception of the library leaves the function before the broadcast. -/
def primary {α : Type} (be : Bool) (doc : Doc) : Prog α → List (List Byte) × α
  | .ret a => ([], a)
  | .ask q k =>
    match doc q with
    | none => primary be doc (k none)
    | some v => (sends be q v ++ (primary be doc (k (some v))).1, (primary be doc (k (some v))).2)

/-- what another node gets for a query -/
inductive Got where
  | value (v : List Byte) (left : List (List Byte))
  | wait
  | clash
  | stop

def one (size : Nat) : List (List Byte) → Got
  | [] => .wait
  | m :: ms => if m.length = size then .value m ms else .clash

/-- the same calls on another node.  A negative length is refused by `new`. -/
def receive (be : Bool) : Query → List (List Byte) → Got
  | .enter _, ms => .value [] ms
  | .num size _, ms => one size ms
  | .count _, ms => one 4 ms
  | .str _, ms =>
    match ms with
    | [b0, b1, b2, b3] :: ms => if (load32 be b0 b1 b2 b3).toNat < 2 ^ 31 then one (load32 be b0 b1 b2 b3).toNat ms else .stop
    | _ :: _ => .clash
    | [] => .wait

/-- how another node ends: with a result and messages not received, waiting, and so on; with the values it has got before -/
inductive End (α : Type) where
  | done (a : α) (got : List (List Byte)) (left : List (List Byte))
  | wait (got : List (List Byte))
  | clash (got : List (List Byte))
  | stop (got : List (List Byte))

/-- another node.  The library is not called, so there is no exception. -/
def other {α : Type} (be : Bool) : Prog α → List (List Byte) → List (List Byte) → End α
  | .ret a, ms, got => .done a got ms
  | .ask q k, ms, got =>
    match receive be q ms with
    | .value v left => other be (k (some v)) left (got ++ [v])
    | .wait => .wait got
    | .clash => .clash got
    | .stop => .stop got

/-! ## specification -/

/-- the program on a machine of one node, where a broadcast does nothing (include/qdp_scalar_specific.h:52-62): result and the values found -/
def single {α : Type} (doc : Doc) : Prog α → α × List (List Byte)
  | .ret a => (a, [])
  | .ask q k =>
    match doc q with
    | none => single doc (k none)
    | some v => ((single doc (k (some v))).1, v :: (single doc (k (some v))).2)

/-- numbers have their size, strings fewer than 2^31 characters -/
structure Sized (doc : Doc) : Prop where
  enter : ∀ p v, doc (.enter p) = some v → v = []
  num : ∀ n p v, doc (.num n p) = some v → v.length = n
  count : ∀ p v, doc (.count p) = some v → v.length = 4
  str : ∀ p v, doc (.str p) = some v → v.length < 2 ^ 31

/-- everything that the program asks is found -/
def Found {α : Type} (doc : Doc) : Prog α → Prop
  | .ret _ => True
  | .ask q k =>
    match doc q with
    | none => False
    | some v => Found doc (k (some v))

/-! ## proofs -/

theorem load_store32 (be : Bool) (w : BitVec 32) : ∃ b0 b1 b2 b3, store32 be w = [b0, b1, b2, b3] ∧ load32 be b0 b1 b2 b3 = w := by
  cases be with
  | true =>
    refine ⟨_, _, _, _, rfl, ?_⟩
    simp only [load32, if_true]
    ext i hi
    simp only [BitVec.getElem_append, BitVec.getElem_extractLsb']
    split
    · simp [BitVec.getLsbD_eq_getElem hi]
    · split
      · rw [BitVec.getLsbD_eq_getElem (by omega)]; congr 1; omega
      · split
        · rw [BitVec.getLsbD_eq_getElem (by omega)]; congr 1; omega
        · rw [BitVec.getLsbD_eq_getElem (by omega)]; congr 1; omega
  | false =>
    refine ⟨_, _, _, _, rfl, ?_⟩
    simp only [load32, Bool.false_eq_true, if_false]
    ext i hi
    simp only [BitVec.getElem_append, BitVec.getElem_extractLsb']
    split
    · simp [BitVec.getLsbD_eq_getElem hi]
    · split
      · rw [BitVec.getLsbD_eq_getElem (by omega)]; congr 1; omega
      · split
        · rw [BitVec.getLsbD_eq_getElem (by omega)]; congr 1; omega
        · rw [BitVec.getLsbD_eq_getElem (by omega)]; congr 1; omega

theorem receive_sends (be : Bool) {doc : Doc} (hd : Sized doc) {q : Query} {v : List Byte} (h : doc q = some v) (ms : List (List Byte)) :
    receive be q (sends be q v ++ ms) = .value v ms := by
  cases q with
  | enter p => simp [receive, sends, hd.enter p v h]
  | num n p => simp [receive, sends, one, hd.num n p v h]
  | count p => simp [receive, sends, one, hd.count p v h]
  | str p =>
    have hv := hd.str p v h
    obtain ⟨b0, b1, b2, b3, e1, e2⟩ := load_store32 be (BitVec.ofNat 32 v.length)
    have e3 : (BitVec.ofNat 32 v.length).toNat = v.length := by
      rw [BitVec.toNat_ofNat, Nat.mod_eq_of_lt (by omega)]
    simp [receive, sends, e1, e2, one]
    rw [Nat.mod_eq_of_lt (by omega)]
    simp [hv]

/-- the primary node always gets what a single node gets -/
theorem C73_primary {α : Type} (be : Bool) (doc : Doc) : ∀ p : Prog α, (primary be doc p).2 = (single doc p).1
  | .ret a => rfl
  | .ask q k => by
    unfold primary single
    cases h : doc q with
    | none => exact C73_primary be doc (k none)
    | some v => exact C73_primary be doc (k (some v))

theorem other_primary {α : Type} (be : Bool) {doc : Doc} (hd : Sized doc) : ∀ (p : Prog α) (got : List (List Byte)), Found doc p →
    other be p (primary be doc p).1 got = .done (single doc p).1 (got ++ (single doc p).2) []
  | .ret a, got, _ => by simp [other, primary, single]
  | .ask q k, got, hf => by
    unfold Found at hf
    unfold other primary single
    cases h : doc q with
    | none => rw [h] at hf; exact hf.elim
    | some v =>
      rw [h] at hf
      simp only [receive_sends be hd h]
      rw [other_primary be hd (k (some v)) _ hf]
      simp

/-- C73: if everything that the program asks is found, every node gets the values and the result of the program on a single node, and every message is received -/
theorem C73_agree_partial {α : Type} (be : Bool) {doc : Doc} (hd : Sized doc) (p : Prog α) (hf : Found doc p) :
    (primary be doc p).2 = (single doc p).1 ∧ other be p (primary be doc p).1 [] = .done (single doc p).1 (single doc p).2 [] :=
  ⟨C73_primary be doc p, by simpa using other_primary be hd p [] hf⟩

/-- the program comes to a query that is not found, after finding `vs` -/
inductive Missing {α : Type} (doc : Doc) (q : Query) (k : Option (List Byte) → Prog α) : Prog α → List (List Byte) → Prop where
  | here : doc q = none → Missing doc q k (.ask q k) []
  | there {q' k' v vs} : doc q' = some v → Missing doc q k (k' (some v)) vs → Missing doc q k (.ask q' k') (v :: vs)

/-- the others wait for the answer of the query that failed and take the next message of the primary node for it -/
theorem other_missing {α : Type} (be : Bool) {doc : Doc} (hd : Sized doc) {q : Query} {k : Option (List Byte) → Prog α} {p : Prog α} {vs : List (List Byte)}
    (h : Missing doc q k p vs) : ∀ got, other be p (primary be doc p).1 got = other be (.ask q k) (primary be doc (k none)).1 (got ++ vs) := by
  induction h with
  | here hq =>
    intro got
    rw [show (primary be doc (.ask q k)).1 = (primary be doc (k none)).1 by rw [primary, hq]]
    simp
  | @there q' k' v vs hq' _ ih =>
    intro got
    rw [other, primary, hq']
    simp only [receive_sends be hd hq', ih]
    simp

/-- C73 refuted: if a number, a count or a string is not found and the program then ends (the exception is not caught, or caught and reported) or does
nothing more with XML, every other node waits forever -/
theorem C73_waits {α : Type} (be : Bool) {doc : Doc} (hd : Sized doc) {q : Query} {k : Option (List Byte) → Prog α} {p : Prog α} {vs : List (List Byte)}
    (h : Missing doc q k p vs) (hq : ∀ path, q ≠ .enter path) {a : α} (hk : k none = .ret a) :
    other be p (primary be doc p).1 [] = .wait vs := by
  rw [other_missing be hd h, hk]
  cases q with
  | enter p => exact absurd rfl (hq p)
  | num n p => simp [other, primary, receive, one]
  | count p => simp [other, primary, receive, one]
  | str p => simp [other, primary, receive]

/-- C73 refuted: a program that has a default for a number which is missing and then reads another number of the same size: the other nodes take the second number
for the first, and go on with it -/
theorem C73_shifted {α : Type} (be : Bool) {doc : Doc} (hd : Sized doc) (n : Nat) (s t : String) (d v : List Byte) (k : List Byte → List Byte → Prog α)
    (hs : doc (.num n s) = none) (ht : doc (.num n t) = some v) :
    let p : Prog α := .ask (.num n s) fun x => .ask (.num n t) fun y => k (x.getD d) (y.getD d)
    (primary be doc p).2 = (primary be doc (k d v)).2 ∧
    other be p (primary be doc p).1 [] = other be (.ask (.num n t) fun y => k v (y.getD d)) (primary be doc (k d v)).1 [v] := by
  intro p
  have e : primary be doc p = ([v] ++ (primary be doc (k d v)).1, (primary be doc (k d v)).2) := by
    simp only [p, primary, hs, ht, Option.getD_some, Option.getD_none, sends]
  rw [e]
  refine ⟨rfl, ?_⟩
  simp only [p]
  rw [other]
  simp [receive, one, hd.num n t v ht]

/-- numbers with defaults: the values are kept in the order of the paths -/
def defaults (n : Nat) : List (String × List Byte) → List (List Byte) → Prog (List (List Byte))
  | [], acc => .ret acc
  | (s, d) :: l, acc => .ask (.num n s) fun r => defaults n l (acc ++ [r.getD d])

theorem primary_defaults (be : Bool) (doc : Doc) (n : Nat) : ∀ (l : List (String × List Byte)) (acc : List (List Byte)),
    primary be doc (defaults n l acc) = (l.filterMap fun x => doc (.num n x.1), acc ++ l.map fun x => (doc (.num n x.1)).getD x.2)
  | [], acc => by simp [defaults, primary]
  | (s, d) :: l, acc => by
    rw [defaults, primary]
    cases h : doc (.num n s) with
    | none => simp [primary_defaults be doc n l, h]
    | some v => simp [primary_defaults be doc n l, h, sends]

theorem other_defaults (be : Bool) (n : Nat) : ∀ (l : List (String × List Byte)) (acc ms got : List (List Byte)), (∀ m ∈ ms, m.length = n) → ms.length < l.length →
    other be (defaults n l acc) ms got = .wait (got ++ ms)
  | [], _, _, _, _, h => by simp at h
  | (s, d) :: l, acc, [], got, _, _ => by simp [defaults, other, receive, one]
  | (s, d) :: l, acc, m :: ms, got, hm, h => by
    rw [defaults, other]
    have h1 : m.length = n := hm m (by simp)
    simp only [receive, one, if_pos h1, Option.getD_some]
    rw [other_defaults be n l _ ms _ (fun x hx => hm x (by simp [hx])) (by simpa using h)]
    simp

/-- C73 refuted for any list of numbers with defaults: the primary node gets every number or its default; if one is missing every other node gets the numbers that are
there as the values of the first paths, and then waits forever -/
theorem C73_defaults (be : Bool) {doc : Doc} (hd : Sized doc) (n : Nat) (l : List (String × List Byte)) (h : ∃ x ∈ l, doc (.num n x.1) = none) :
    (primary be doc (defaults n l [])).2 = (l.map fun x => (doc (.num n x.1)).getD x.2) ∧
    other be (defaults n l []) (primary be doc (defaults n l [])).1 [] = .wait (l.filterMap fun x => doc (.num n x.1)) := by
  rw [primary_defaults]
  refine ⟨by simp, ?_⟩
  rw [other_defaults]
  · simp
  · intro m hm
    obtain ⟨x, _, hx⟩ := List.mem_filterMap.1 hm
    exact hd.num n x.1 m hx
  · obtain ⟨x, hx, hn⟩ := h
    clear hd
    induction l with
    | nil => cases hx
    | cons y l ih =>
      simp only [List.filterMap_cons]
      rcases List.mem_cons.1 hx with rfl | hx
      · simp only [hn, List.length_cons]
        exact Nat.lt_succ_of_le (List.length_filterMap_le _ _)
      · split
        · exact Nat.lt_succ_of_lt (ih hx)
        · simpa using ih hx

/-! ### cases -/

/-- a document with two numbers and a string -/
def sample : Doc
  | .enter _ => some []
  | .num 4 "beta" => some [1, 2, 3, 4]
  | .num 4 "mass" => some [5, 6, 7, 8]
  | .str "name" => some [97, 98]
  | .count "elem" => some [2, 0, 0, 0]
  | _ => none

theorem sample_sized : Sized sample := by
  constructor
  · intro p v h; simp [sample] at h; exact h
  · intro n p v h
    unfold sample at h
    split at h <;> simp_all <;> (try subst h) <;> simp
  · intro p v h
    unfold sample at h
    split at h <;> simp_all <;> (try subst h) <;> simp
  · intro p v h
    unfold sample at h
    split at h <;> simp_all <;> (try subst h) <;> simp

/-- a program whose queries are all found -/
def good : Prog (List Byte) := .ask (.str "name") fun x => .ask (.num 4 "beta") fun y => .ret (x.getD [] ++ y.getD [])
example : Found sample good ∧ other false good (primary false sample good).1 [] = .done [97, 98, 1, 2, 3, 4] [[97, 98], [1, 2, 3, 4]] [] := by
  have h : Found sample good := by simp [good, Found, sample]
  exact ⟨h, by rw [(C73_agree_partial false sample_sized good h).2]; simp [good, single, sample]⟩
/-- `kappa` is missing, `mass` is there: the other nodes take `mass` for `kappa` -/
example : other false (defaults 4 [("kappa", [0, 0, 0, 0]), ("mass", [0, 0, 0, 0])] []) (primary false sample (defaults 4 [("kappa", [0, 0, 0, 0]), ("mass", [0, 0, 0, 0])] [])).1 []
    = .wait [[5, 6, 7, 8]] := by
  rw [(C73_defaults false sample_sized 4 _ ⟨("kappa", [0, 0, 0, 0]), by simp, by simp [sample]⟩).2]
  simp [sample]

end Verif.XmlNodes
