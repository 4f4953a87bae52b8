import Verif.XmlNum
/-
The command line: lib/qdp_parscalar_init.cc:118-196, compiled with profiling and without the remote run-time interface.

A word of the command line is a list of bytes.  `argv` ends with a null pointer, which `sscanf` must not be given.  `sscanf(.., "%d", ..)` accepts what `>>` accepts
(`XmlNum.extract`); when it does not, the variable keeps what it had, which here is no value at all, and a number that does not fit an `int` is undefined.  What
`%f` of `-poolsize` and `%d:%d` of `-bind` do with a text is a parameter.
-/
namespace Verif.CmdLine
open Verif Outcome ByteOrder Verif.ArchiveHdr Verif.XmlNum

/-! ## model -/

abbrev Str := List Byte

/-- the option names -/
def V : Str := [45, 86]
def p : Str := [45, 112]
def poolsize : Str := [45, 112, 111, 111, 108, 115, 105, 122, 101]
def geom : Str := [45, 103, 101, 111, 109]
def iogeom : Str := [45, 105, 111, 103, 101, 111, 109]
def bind : Str := [45, 98, 105, 110, 100]
def names : List Str := [V, p, poolsize, geom, iogeom, bind]

/-- `sscanf` of the other formats: the value afterwards -/
structure Scan (F : Type) where
  pool : Str → F → Outcome F
  bind : Str → Int × Int → Outcome (Int × Int)

/-- what is set -/
structure Opts (F : Type) where
  verbose : Bool
  level : Option Int
  pool : F
  geom : Option (List Int)
  iogeom : Option (List Int)
  bind : Option (Int × Int)
  deriving DecidableEq

/-- `sscanf(s, "%d", &uu)` and the value of `uu` -/
def scanInt (s : Str) : Outcome Int :=
  let r := extract i32 (stream s) 0
  if r.1.fail then ub else ok r.2

/-- the loops over `j`, lib/qdp_parscalar_init.cc:140-145, 150-155 -/
def ints : Nat → List Str → Outcome (List Int × List Str)
  | 0, r => ok ([], r)
  | _ + 1, [] => ub
  | n + 1, s :: r => do
    let u ← scanInt s
    let q ← ints n r
    ok (u :: q.1, q.2)

theorem ints_length : ∀ (n : Nat) (r : List Str) (q : List Int × List Str), ints n r = ok q → q.2.length ≤ r.length
  | 0, r, q, h => by simp only [ints, ok.injEq] at h; subst h; simp
  | n + 1, [], q, h => by simp [ints] at h
  | n + 1, s :: r, q, h => by
    simp only [ints] at h
    obtain ⟨u, -, h⟩ := bind_eq_ok.1 h
    obtain ⟨q', h1, h⟩ := bind_eq_ok.1 h
    simp only [ok.injEq] at h
    subst h
    have := ints_length n r q' h1
    simp only [List.length_cons]
    omega

/-- the loop over the arguments, lib/qdp_parscalar_init.cc:118-196, from some argument on; the number of rounds is at most that of arguments.  `i` never exceeds the
number of arguments in front of line 191 without `sscanf` having been given the null pointer. -/
def loop {F : Type} (S : Scan F) (Nd : Nat) : Nat → List Str → Opts F → Outcome (Opts F)
  | 0, _, o => ok o
  | _ + 1, [], o => ok o
  | n + 1, a :: r, o =>
    if a = V then loop S Nd n r { o with verbose := true }
    else if a = p then
      match r with
      | [] => ub
      | s :: r => do
        let l ← scanInt s
        loop S Nd n r { o with level := some l }
    else if a = poolsize then
      match r with
      | [] => ub
      | s :: r => do
        let x ← S.pool s o.pool
        loop S Nd n r { o with pool := x }
    else if a = geom then do
      let q ← ints Nd r
      loop S Nd n q.2 { o with geom := some q.1 }
    else if a = iogeom then do
      let q ← ints Nd r
      loop S Nd n q.2 { o with iogeom := some q.1 }
    else if a = CmdLine.bind then
      match r with
      | [] => ub
      | s :: r => do
        let x ← S.bind s (o.bind.getD (-1, -1))
        loop S Nd n r { o with bind := some x }
    else loop S Nd n r o

/-- before the loop, lib/qdp_parscalar_init.cc:33-35, 52, 62-68 -/
def start {F : Type} (eight : F) : Opts F := ⟨false, none, eight, none, none, none⟩

/-- all arguments, the name of the program not counted -/
def parse {F : Type} (S : Scan F) (Nd : Nat) (eight : F) (args : List Str) : Outcome (Opts F) := loop S Nd args.length args (start eight)

/-! ## specification -/

/-- the bytes of a text in ASCII -/
def txt (s : String) : Str := s.toList.map fun c => BitVec.ofNat 8 c.toNat

/-- **C76**, the names of the options -/
theorem C76_names : V = txt "-V" ∧ p = txt "-p" ∧ poolsize = txt "-poolsize" ∧ geom = txt "-geom" ∧ iogeom = txt "-iogeom" ∧ bind = txt "-bind" ∧
    names = [V, p, poolsize, geom, iogeom, bind] := by decide

/-- what may be on a command line -/
inductive Item
  | verbose
  | level (s : Str)
  | pool (s : Str)
  | geom (s : List Str)
  | iogeom (s : List Str)
  | bind (s : Str)
  | other (s : Str)

def Item.words : Item → List Str
  | .verbose => [V]
  | .level s => [CmdLine.p, s]
  | .pool s => [poolsize, s]
  | .geom s => CmdLine.geom :: s
  | .iogeom s => CmdLine.iogeom :: s
  | .bind s => [CmdLine.bind, s]
  | .other s => [s]

/-- the text begins with an `int` -/
def IsInt (s : Str) (v : Int) : Prop := ∃ k t, Tok.Good k ∧ NoDigit t ∧ k.number = v ∧ -2 ^ 31 ≤ v ∧ v < 2 ^ 31 ∧ s = k.text ++ t

/-- what an item does -/
inductive Sets {F : Type} (S : Scan F) (Nd : Nat) : Opts F → Item → Opts F → Prop
  | verbose (o : Opts F) : Sets S Nd o .verbose { o with verbose := true }
  | level (o : Opts F) {s : Str} {v : Int} : IsInt s v → Sets S Nd o (.level s) { o with level := some v }
  | pool (o : Opts F) {s : Str} {x : F} : S.pool s o.pool = ok x → Sets S Nd o (.pool s) { o with pool := x }
  | geom (o : Opts F) {s : List Str} {v : List Int} : s.length = Nd → List.Forall₂ IsInt s v → Sets S Nd o (.geom s) { o with geom := some v }
  | iogeom (o : Opts F) {s : List Str} {v : List Int} : s.length = Nd → List.Forall₂ IsInt s v → Sets S Nd o (.iogeom s) { o with iogeom := some v }
  | bind (o : Opts F) {s : Str} {x : Int × Int} : S.bind s (o.bind.getD (-1, -1)) = ok x → Sets S Nd o (.bind s) { o with bind := some x }
  | other (o : Opts F) {s : Str} : s ∉ names → Sets S Nd o (.other s) o

/-- one item after the other -/
inductive SetsAll {F : Type} (S : Scan F) (Nd : Nat) : Opts F → List Item → Opts F → Prop
  | nil (o : Opts F) : SetsAll S Nd o [] o
  | cons {o o' o'' : Opts F} {i : Item} {is : List Item} : Sets S Nd o i o' → SetsAll S Nd o' is o'' → SetsAll S Nd o (i :: is) o''

/-! ## proofs -/

theorem i32_mem : i32 ∈ nums := by simp [nums]

theorem value_iff (k : Tok) (v : Int) : i32.Value k v ↔ k.number = v ∧ -2 ^ 31 ≤ v ∧ v < 2 ^ 31 := by
  simp only [Num.Value, i32]
  constructor
  · intro h; simp at h; omega
  · intro h; simp; omega

theorem scanInt_iff (s : Str) (v : Int) : scanInt s = ok v ↔ IsInt s v := by
  constructor
  · intro h
    simp only [scanInt] at h
    split at h
    · simp at h
    · rename_i hf
      simp only [Bool.not_eq_true] at hf
      by_contra hc
      have hs : Stuck i32 s := by
        intro k t w hk ht hv e
        have := extract_good i32 i32_mem hk ht hv 0
        rw [← e] at this
        rw [this] at h
        simp only [ok.injEq] at h
        rw [value_iff] at hv
        exact hc ⟨k, t, hk, ht, by omega, by omega, by omega, e⟩
      have := (extract_stuck i32 i32_mem hs 0)
      simp [hf] at this
  · rintro ⟨k, t, hk, ht, h1, h2, h3, rfl⟩
    have := extract_good i32 i32_mem hk ht ((value_iff k v).2 ⟨h1, h2, h3⟩) 0
    simp only [scanInt, this]
    simp

theorem scanInt_cases (s : Str) : scanInt s = ub ∨ ∃ v, scanInt s = ok v := by
  simp only [scanInt]
  split
  · exact Or.inl rfl
  · exact Or.inr ⟨_, rfl⟩

theorem ints_iff : ∀ (n : Nat) (r : List Str) (v : List Int) (r' : List Str), ints n r = ok (v, r') ↔ ∃ s, r = s ++ r' ∧ s.length = n ∧ List.Forall₂ IsInt s v
  | 0, r, v, r' => by
    simp only [ints, ok.injEq, Prod.mk.injEq]
    constructor
    · rintro ⟨rfl, rfl⟩; exact ⟨[], rfl, rfl, .nil⟩
    · rintro ⟨s, rfl, h, hv⟩
      rw [List.length_eq_zero_iff] at h
      subst h
      cases hv
      exact ⟨rfl, rfl⟩
  | n + 1, [], v, r' => by
    simp only [ints]
    constructor
    · intro h; simp at h
    · rintro ⟨s, h, hl, -⟩
      have := congrArg List.length h
      simp at this
      omega
  | n + 1, a :: r, v, r' => by
    simp only [ints]
    constructor
    · intro h
      obtain ⟨u, h1, h⟩ := bind_eq_ok.1 h
      obtain ⟨q, h2, h⟩ := bind_eq_ok.1 h
      simp only [ok.injEq, Prod.mk.injEq] at h
      obtain ⟨rfl, rfl⟩ := h
      obtain ⟨s, rfl, hl, hv⟩ := (ints_iff n r q.1 q.2).1 h2
      exact ⟨a :: s, rfl, by simp [hl], .cons ((scanInt_iff a u).1 h1) hv⟩
    · rintro ⟨s, h, hl, hv⟩
      cases hv with
      | nil => simp at hl
      | cons h1 h2 =>
        rename_i b u s v
        simp only [List.cons_append, List.cons.injEq] at h
        obtain ⟨rfl, rfl⟩ := h
        simp only [List.length_cons, Nat.add_right_cancel_iff] at hl
        rw [(scanInt_iff _ u).2 h1, ok_bind, (ints_iff n _ v r').2 ⟨s, rfl, hl, h2⟩]
        rfl

theorem loop_complete {F : Type} (S : Scan F) (Nd : Nat) : ∀ (n : Nat) (args : List Str) (o o' : Opts F), args.length ≤ n → loop S Nd n args o = ok o' →
    ∃ items, args = items.flatMap Item.words ∧ SetsAll S Nd o items o'
  | 0, args, o, o', hn, h => by
    have : args = [] := by rw [← List.length_eq_zero_iff]; omega
    subst this
    simp only [loop, ok.injEq] at h
    subst h
    exact ⟨[], rfl, .nil o⟩
  | n + 1, [], o, o', hn, h => by
    simp only [loop, ok.injEq] at h
    subst h
    exact ⟨[], rfl, .nil o⟩
  | n + 1, a :: r, o, o', hn, h => by
    simp only [List.length_cons, Nat.add_le_add_iff_right] at hn
    rw [loop.eq_def] at h
    simp only at h
    split at h
    · rename_i e; subst e
      obtain ⟨is, h1, h2⟩ := loop_complete S Nd n r _ o' hn h
      exact ⟨.verbose :: is, by simp [Item.words, h1], .cons (.verbose o) h2⟩
    split at h
    · rename_i e; subst e
      cases r with
      | nil => simp at h
      | cons s r =>
        obtain ⟨l, h0, h⟩ := bind_eq_ok.1 h
        obtain ⟨is, h1, h2⟩ := loop_complete S Nd n r _ o' (by simp at hn; omega) h
        exact ⟨.level s :: is, by simp [Item.words, h1], .cons (.level o ((scanInt_iff s l).1 h0)) h2⟩
    split at h
    · rename_i e; subst e
      cases r with
      | nil => simp at h
      | cons s r =>
        obtain ⟨x, h0, h⟩ := bind_eq_ok.1 h
        obtain ⟨is, h1, h2⟩ := loop_complete S Nd n r _ o' (by simp at hn; omega) h
        exact ⟨.pool s :: is, by simp [Item.words, h1], .cons (.pool o h0) h2⟩
    split at h
    · rename_i e; subst e
      obtain ⟨q, h0, h⟩ := bind_eq_ok.1 h
      have hl := ints_length _ _ _ h0
      obtain ⟨s, h3, h4, h5⟩ := (ints_iff Nd r q.1 q.2).1 h0
      obtain ⟨is, h1, h2⟩ := loop_complete S Nd n q.2 _ o' (by omega) h
      exact ⟨.geom s :: is, by simp [Item.words, ← h1, h3], .cons (.geom o h4 h5) h2⟩
    split at h
    · rename_i e; subst e
      obtain ⟨q, h0, h⟩ := bind_eq_ok.1 h
      have hl := ints_length _ _ _ h0
      obtain ⟨s, h3, h4, h5⟩ := (ints_iff Nd r q.1 q.2).1 h0
      obtain ⟨is, h1, h2⟩ := loop_complete S Nd n q.2 _ o' (by omega) h
      exact ⟨.iogeom s :: is, by simp [Item.words, ← h1, h3], .cons (.iogeom o h4 h5) h2⟩
    split at h
    · rename_i e; subst e
      cases r with
      | nil => simp at h
      | cons s r =>
        obtain ⟨x, h0, h⟩ := bind_eq_ok.1 h
        obtain ⟨is, h1, h2⟩ := loop_complete S Nd n r _ o' (by simp at hn; omega) h
        exact ⟨.bind s :: is, by simp [Item.words, h1], .cons (.bind o h0) h2⟩
    · rename_i e1 e2 e3 e4 e5 e6
      obtain ⟨is, h1, h2⟩ := loop_complete S Nd n r _ o' hn h
      exact ⟨.other a :: is, by simp [Item.words, h1], .cons (.other o (by simp [names, e1, e2, e3, e4, e5, e6])) h2⟩

/-- one item in front of the rest -/
theorem loop_item {F : Type} (S : Scan F) (Nd n : Nat) {o o' : Opts F} {i : Item} (h : Sets S Nd o i o') (r : List Str) :
    loop S Nd (n + 1) (i.words ++ r) o = loop S Nd n r o' := by
  cases h with
  | verbose => rfl
  | level h => simp only [Item.words, List.cons_append, List.nil_append, loop, (scanInt_iff _ _).2 h]; rfl
  | pool h => simp only [Item.words, List.cons_append, List.nil_append, loop, h]; rfl
  | geom h h' =>
    rename_i s v
    simp only [Item.words, List.cons_append, loop, (ints_iff Nd (s ++ r) v r).2 ⟨s, rfl, h, h'⟩]; rfl
  | iogeom h h' =>
    rename_i s v
    simp only [Item.words, List.cons_append, loop, (ints_iff Nd (s ++ r) v r).2 ⟨s, rfl, h, h'⟩]; rfl
  | bind h => simp only [Item.words, List.cons_append, List.nil_append, loop, h]; rfl
  | other h =>
    simp only [names, List.mem_cons, List.not_mem_nil, or_false, not_or] at h
    simp only [Item.words, List.cons_append, List.nil_append, loop]
    rw [if_neg h.1, if_neg h.2.1, if_neg h.2.2.1, if_neg h.2.2.2.1, if_neg h.2.2.2.2.1, if_neg h.2.2.2.2.2]

theorem words_pos (i : Item) : 1 ≤ i.words.length := by cases i <;> simp [Item.words]

theorem loop_items {F : Type} (S : Scan F) (Nd : Nat) {o o' : Opts F} {is : List Item} (h : SetsAll S Nd o is o') : ∀ (n : Nat) (r : List Str),
    (is.flatMap Item.words ++ r).length ≤ n → ∃ m, r.length ≤ m ∧ loop S Nd n (is.flatMap Item.words ++ r) o = loop S Nd m r o' := by
  induction h with
  | nil o => exact fun n r hn => ⟨n, by simpa using hn, rfl⟩
  | cons h1 h2 ih =>
    rename_i o o' o'' i is
    intro n r hn
    have hp := words_pos i
    cases n with
    | zero => simp only [List.flatMap_cons, List.length_append] at hn; omega
    | succ n =>
      obtain ⟨m, h3, h4⟩ := ih n r (by simp only [List.flatMap_cons, List.length_append] at hn ⊢; omega)
      refine ⟨m, h3, ?_⟩
      rw [List.flatMap_cons, List.append_assoc, loop_item S Nd n h1, h4]

/-- C76: the command lines that are read without undefined behaviour, and what they set: one option after the other with all its values, in between any other words -/
theorem C76_accepted_partial {F : Type} (S : Scan F) (Nd : Nat) (eight : F) (args : List Str) (o : Opts F) :
    parse S Nd eight args = ok o ↔ ∃ items, args = items.flatMap Item.words ∧ SetsAll S Nd (start eight) items o := by
  constructor
  · exact loop_complete S Nd _ args _ o (Nat.le_refl _)
  · rintro ⟨items, rfl, h⟩
    obtain ⟨m, -, h2⟩ := loop_items S Nd h (items.flatMap Item.words ++ []).length [] (Nat.le_refl _)
    rw [List.append_nil] at h2
    unfold parse
    rw [h2]
    cases m <;> rfl

theorem ints_short : ∀ (n : Nat) (r : List Str), r.length < n → ints n r = ub
  | 0, r, h => by omega
  | n + 1, [], _ => rfl
  | n + 1, s :: r, h => by
    simp only [ints]
    rcases scanInt_cases s with e | ⟨v, e⟩
    · rw [e]; rfl
    · rw [e, ok_bind, ints_short n r (by simpa using h)]; rfl

theorem ints_bad : ∀ (n : Nat) (r : List Str) (i : Nat) (hi : i < r.length), i < n → (∀ v, ¬ IsInt r[i] v) → ints n r = ub
  | 0, r, i, _, h, _ => by omega
  | n + 1, s :: r, 0, hi, _, hb => by
    simp only [ints]
    rcases scanInt_cases s with e | ⟨v, e⟩
    · rw [e]; rfl
    · exact absurd ((scanInt_iff s v).1 e) (hb v)
  | n + 1, s :: r, i + 1, hi, h, hb => by
    simp only [ints]
    rcases scanInt_cases s with e | ⟨v, e⟩
    · rw [e]; rfl
    · rw [e, ok_bind, ints_bad n r i (by simpa using hi) (by omega) hb]; rfl

/-- C76 refuted: a geometry with too few numbers, at the end of any command line, is undefined behaviour -/
theorem C76_missing {F : Type} (S : Scan F) (Nd : Nat) (eight : F) (items : List Item) (o : Opts F) (h : SetsAll S Nd (start eight) items o) (s : List Str) (hs : s.length < Nd) :
    parse S Nd eight (items.flatMap Item.words ++ geom :: s) = ub ∧ parse S Nd eight (items.flatMap Item.words ++ iogeom :: s) = ub := by
  have e : ints Nd s = ub := ints_short Nd s hs
  constructor
  · obtain ⟨m, h1, h2⟩ := loop_items S Nd h _ (geom :: s) (Nat.le_refl _)
    unfold parse
    rw [h2]
    cases m with
    | zero => simp at h1
    | succ m => simp only [loop, e]; rfl
  · obtain ⟨m, h1, h2⟩ := loop_items S Nd h _ (iogeom :: s) (Nat.le_refl _)
    unfold parse
    rw [h2]
    cases m with
    | zero => simp at h1
    | succ m => simp only [loop, e]; rfl

/-- C76 refuted: so is an option with one value as the last word -/
theorem C76_missing_last {F : Type} (S : Scan F) (Nd : Nat) (eight : F) (items : List Item) (o : Opts F) (h : SetsAll S Nd (start eight) items o) (a : Str) (ha : a ∈ [p, poolsize, CmdLine.bind]) :
    parse S Nd eight (items.flatMap Item.words ++ [a]) = ub := by
  obtain ⟨m, h1, h2⟩ := loop_items S Nd h _ [a] (Nat.le_refl _)
  unfold parse
  rw [h2]
  cases m with
  | zero => simp at h1
  | succ m =>
    simp only [List.mem_cons, List.not_mem_nil, or_false] at ha
    rcases ha with rfl | rfl | rfl <;> rfl

/-- C76 refuted: so is a geometry with a word that is not an `int` -/
theorem C76_not_int {F : Type} (S : Scan F) (Nd : Nat) (eight : F) (items : List Item) (o : Opts F) (h : SetsAll S Nd (start eight) items o) (s : List Str)
    (i : Nat) (hi : i < s.length) (hn : i < Nd) (hb : ∀ v, ¬ IsInt s[i] v) : parse S Nd eight (items.flatMap Item.words ++ geom :: s) = ub := by
  obtain ⟨m, h1, h2⟩ := loop_items S Nd h _ (geom :: s) (Nat.le_refl _)
  unfold parse
  rw [h2]
  cases m with
  | zero => simp at h1
  | succ m => simp only [loop, ints_bad Nd s i hi hn hb]; rfl

theorem ints_no_abort : ∀ (n : Nat) (r : List Str), ints n r ≠ abort
  | 0, r => by simp [ints]
  | n + 1, [] => by simp [ints]
  | n + 1, s :: r => by
    simp only [ints]
    rcases scanInt_cases s with e | ⟨v, e⟩
    · rw [e]; intro h; cases h
    · rw [e, ok_bind]
      have := ints_no_abort n r
      cases h : ints n r with
      | ok q => intro h'; cases h'
      | abort => exact absurd h this
      | ub => intro h'; cases h'

/-- C76 refuted: the error for a missing argument (lib/qdp_parscalar_init.cc:191-195) is never given, whatever the command line -/
theorem C76_no_error {F : Type} (S : Scan F) (hp : ∀ s x, S.pool s x ≠ abort) (hb : ∀ s x, S.bind s x ≠ abort) (Nd : Nat) (eight : F) (args : List Str) :
    parse S Nd eight args ≠ abort := by
  have bnd : ∀ {α β : Type} {x : Outcome α} {f : α → Outcome β}, x ≠ abort → (∀ a, f a ≠ abort) → (x >>= f) ≠ abort := by
    intro α β x f hx hf
    cases x with
    | ok a => exact hf a
    | abort => exact absurd rfl hx
    | ub => intro h; cases h
  have hsc : ∀ s, scanInt s ≠ abort := by
    intro s
    rcases scanInt_cases s with e | ⟨v, e⟩ <;> rw [e] <;> intro h <;> cases h
  have : ∀ (n : Nat) (args : List Str) (o : Opts F), loop S Nd n args o ≠ abort := by
    intro n
    induction n with
    | zero => intro args o; simp [loop]
    | succ n ih =>
      intro args o
      cases args with
      | nil => simp [loop]
      | cons a r =>
        rw [loop.eq_def]
        simp only
        split
        · exact ih _ _
        split
        · cases r with
          | nil => simp
          | cons s r => exact bnd (hsc s) fun _ => ih _ _
        split
        · cases r with
          | nil => simp
          | cons s r => exact bnd (hp s _) fun _ => ih _ _
        split
        · exact bnd (ints_no_abort _ _) fun _ => ih _ _
        split
        · exact bnd (ints_no_abort _ _) fun _ => ih _ _
        split
        · cases r with
          | nil => simp
          | cons s r => exact bnd (hb s _) fun _ => ih _ _
        · exact ih _ _
  exact this _ _ _

/-- C76 refuted: a misspelt option is not an error; its values become words of their own -/
theorem C76_unknown {F : Type} (S : Scan F) (Nd : Nat) (eight : F) (s : List Str) (hs : ∀ a ∈ s, a ∉ names) : parse S Nd eight s = ok (start eight) := by
  rw [C76_accepted_partial]
  refine ⟨s.map .other, ?_, ?_⟩
  · induction s with
    | nil => rfl
    | cons a s ih => simp [Item.words, ← ih fun b hb => hs b (by simp [hb])]
  · induction s with
    | nil => exact .nil _
    | cons a s ih => exact .cons (.other _ (hs a (by simp))) (ih fun b hb => hs b (by simp [hb]))

/-! ### cases -/

/-- `%f` and `%d:%d` that never match -/
def S0 : Scan Nat := ⟨fun _ x => ok x, fun _ x => ok x⟩
/-- `-geom 2 4x` with `foo` in front, in two dimensions -/
example : parse S0 2 8 [[102, 111, 111], geom, [50], [52, 120], V] = ok ⟨true, none, 8, some [2, 4], none, none⟩ := by decide +kernel
/-- `-geom 2` -/
example : parse S0 2 8 [geom, [50]] = ub := by decide +kernel
/-- `-geom 2 x` -/
example : parse S0 2 8 [geom, [50], [120]] = ub := by decide +kernel
/-- `-geo 2 4` -/
example : parse S0 2 8 [[45, 103, 101, 111], [50], [52]] = ok (start 8) := C76_unknown S0 2 8 _ (by decide)
/-- the last of two geometries counts -/
example : parse S0 1 8 [geom, [50], p, [51], geom, [52]] = ok ⟨false, some 3, 8, some [4], none, none⟩ := by decide +kernel
example : SetsAll S0 1 (start 8) [.geom [[50]]] ⟨false, none, 8, some [2], none, none⟩ :=
  .cons (.geom _ rfl (.cons ((scanInt_iff _ _).1 (by decide +kernel)) .nil)) (.nil _)

end Verif.CmdLine
