import Verif.ArchiveHdrThm
/-
Arrays of integers in XML: lib/qdp_xmlio.cc.

An array is written as the decimal numbers with a blank between them, inside one tag.  The tag is written and looked up by libraries that are not in the
repository (xpath_reader): the model takes the text that was written as the text that is found.  `>>` is that of an `istringstream` with the default
flags and locale of libstdc++.  `throw` is `abort`.
-/
namespace Verif.XmlNum
open Verif Outcome ByteOrder Verif.ArchiveHdr

/-! ## model -/

/-- the integer types: the values, and whether a minus sign wraps around instead of being out of range (unsigned types) -/
structure Num where
  lo : Int
  hi : Int
  wrap : Bool

/-- the types an array of which is read and written by the functions below, lib/qdp_xmlio.cc:356-401, 464-488, 545-581 -/
def i32 : Num := ⟨-2 ^ 31, 2 ^ 31 - 1, false⟩
def u32 : Num := ⟨0, 2 ^ 32 - 1, true⟩
def i16 : Num := ⟨-2 ^ 15, 2 ^ 15 - 1, false⟩
def u16 : Num := ⟨0, 2 ^ 16 - 1, true⟩
def i64 : Num := ⟨-2 ^ 63, 2 ^ 63 - 1, false⟩
def u64 : Num := ⟨0, 2 ^ 64 - 1, true⟩
/-- `bool` is printed and read as 0 or 1 -/
def bool : Num := ⟨0, 1, false⟩

def nums : List Num := [i32, u32, i16, u16, i64, u64, bool]

/-- the value of a sign and digits, and whether it is in range -/
def Num.conv (T : Num) (neg : Bool) (n : Nat) : Int × Bool :=
  if T.wrap then
    if (n : Int) ≤ T.hi then (if neg then (-(n : Int)) % (T.hi + 1) else n, true) else (T.hi, false)
  else
    if neg then (if T.lo ≤ -(n : Int) then (-(n : Int), true) else (T.lo, false))
    else (if (n : Int) ≤ T.hi then ((n : Int), true) else (T.hi, false))

/-- an `istringstream`: what is left to read, eofbit, failbit -/
structure IS where
  rest : List Byte
  eof : Bool
  fail : Bool

/-- the sign in front of a number -/
def takeSign : List Byte → Bool × List Byte
  | [] => (false, [])
  | b :: t => if b = 45 then (true, t) else if b = 43 then (false, t) else (false, b :: t)

/-- `stream >> dummy`: the state and the value of `dummy` afterwards -/
def extract (T : Num) (s : IS) (dummy : Int) : IS × Int :=
  if s.eof || s.fail then ({ s with fail := true }, dummy)
  else
    let t := s.rest.dropWhile isSpace
    if t = [] then (⟨[], true, true⟩, dummy)
    else
      let sg := takeSign t
      let dg := takeDigits 10 sg.2
      if dg.1 = [] then (⟨dg.2, dg.2 = [], true⟩, 0)
      else
        let v := T.conv sg.1 (dg.1.foldl (fun a d => a * 10 + d) 0)
        (⟨dg.2, dg.2 = [], !v.2⟩, v.1)

/-- `while (stream >> dummy)`: the values, and the state after the loop.  The first argument bounds the number of rounds; `stops` shows that the
length of the text plus one is enough. -/
def loop (T : Num) : Nat → IS → Int → List Int × IS
  | 0, s, _ => ([], s)
  | k + 1, s, dummy =>
    let r := extract T s dummy
    if r.1.fail then ([], r.1) else (r.2 :: (loop T k r.1 r.2).1, (loop T k r.1 r.2).2)

/-- a new stream -/
def stream (text : List Byte) : IS := ⟨text, false, false⟩

/-- the second loop of `readArrayPrimitive`: `n` times `stream >> dummy; result[i] = dummy` -/
def fill (T : Num) : Nat → IS → Int → List Int
  | 0, _, _ => []
  | k + 1, s, dummy => (extract T s dummy).2 :: fill T k (extract T s dummy).1 (extract T s dummy).2

/-- `readArrayPrimitive` and `readVectorPrimitive`, lib/qdp_xmlio.cc:310-355 and 424-461; `dummy` is the uninitialised variable of the function.  The
vector version reads into `result[i]` instead of `dummy`, whose value before makes no difference. -/
def readArray (T : Num) (text : List Byte) (dummy : Int) : Outcome (List Int) :=
  let r := loop T (text.length + 1) (stream text) dummy
  if !r.2.eof && r.2.fail then abort
  else ok (fill T r.1.length (stream text) dummy)

/-- `readListPrimitive`, lib/qdp_xmlio.cc:524-542 -/
def readList (T : Num) (text : List Byte) (dummy : Int) : Outcome (List Int) := ok (loop T (text.length + 1) (stream text) dummy).1

/-- `writeArrayPrimitive`, `writeVectorPrimitive`, `writeListPrimitive`: the text, lib/qdp_xmlio.cc:869-886, 1008-1025, 1141-1161 -/
def writeArray : List Int → List Byte
  | [] => []
  | z :: l => showInt z ++ l.flatMap fun y => 32 :: showInt y

/-! ## specification -/

/-- a number in a text: white space, perhaps a sign, digits -/
structure Tok where
  ws : List Byte
  sign : Option Bool
  ds : List Nat

structure Tok.Good (k : Tok) : Prop where
  ws : ∀ b ∈ k.ws, isSpace b = true
  ne : k.ds ≠ []
  lt : ∀ d ∈ k.ds, d < 10

/-- `+` and `-` -/
def signText : Option Bool → List Byte
  | none => []
  | some false => [43]
  | some true => [45]

def Tok.text (k : Tok) : List Byte := k.ws ++ signText k.sign ++ k.ds.map digitByte

/-- the number that is written -/
def Tok.number (k : Tok) : Int :=
  if k.sign = some true then -((Nat.ofDigits 10 k.ds.reverse : Nat) : Int) else ((Nat.ofDigits 10 k.ds.reverse : Nat) : Int)

/-- the value it has in a type, if it is in range.  For an unsigned type a negative number is in range if its absolute value is. -/
def Num.Value (T : Num) (k : Tok) (v : Int) : Prop :=
  if T.wrap then k.number.natAbs ≤ T.hi ∧ v = k.number % (T.hi + 1) else T.lo ≤ k.number ∧ k.number ≤ T.hi ∧ v = k.number

/-- the next character is not a digit -/
def NoDigit (t : List Byte) : Prop := ∀ d < 10, t.head? ≠ some (digitByte d)

/-- `t` begins with the numbers `vs`; `r` is the rest -/
inductive Begins (T : Num) : List Byte → List Int → List Byte → Prop
  | nil (t : List Byte) : Begins T t [] t
  | cons {k : Tok} {t : List Byte} {v : Int} {vs : List Int} {r : List Byte} : k.Good → NoDigit t → T.Value k v → Begins T t vs r →
      Begins T (k.text ++ t) (v :: vs) r

/-- nothing but white space -/
def Blank (r : List Byte) : Prop := ∀ b ∈ r, isSpace b = true
/-- a sign without a number -/
def LoneSign (r : List Byte) : Prop := ∃ ws s, Blank ws ∧ r = ws ++ signText (some s)
/-- a number that is out of range -/
def OutOfRange (T : Num) (r : List Byte) : Prop := ∃ k : Tok, k.Good ∧ (∀ v, ¬T.Value k v) ∧ r = k.text

/-! ## numbers -/

theorem takeDigits_spec : ∀ l : List Byte, l = (takeDigits 10 l).1.map digitByte ++ (takeDigits 10 l).2 ∧ (∀ d ∈ (takeDigits 10 l).1, d < 10) ∧
    ∀ b ∈ (takeDigits 10 l).2.head?, digitVal 10 b = none
  | [] => by simp [takeDigits]
  | b :: t => by
    obtain ⟨h1, h2, h3⟩ := takeDigits_spec t
    unfold takeDigits
    cases h : digitVal 10 b with
    | none => simp [h]
    | some d =>
      have hd : 48 ≤ b.toNat ∧ b.toNat ≤ 57 ∧ d = b.toNat - 48 := by
        unfold digitVal at h
        split at h
        · rename_i hb
          injection h with h
          exact ⟨hb.1, hb.2, h.symm⟩
        · simp at h
      have hb : digitByte d = b := by
        unfold digitByte
        rw [if_pos (by omega)]
        apply BitVec.eq_of_toNat_eq
        simp only [BitVec.toNat_ofNat]
        omega
      refine ⟨?_, ?_, h3⟩
      · simp only [List.map_cons, List.cons_append, hb]
        rw [← h1]
      · intro e he
        rcases List.mem_cons.1 he with rfl | he
        · omega
        · exact h2 e he

theorem digitVal_none {b : Byte} : digitVal 10 b = none ↔ ∀ d < 10, b ≠ digitByte d := by
  constructor
  · rintro h d hd rfl
    rw [digitVal_byte 10 (Or.inl rfl) d hd] at h
    exact absurd h (by simp)
  · intro h
    cases hv : digitVal 10 b with
    | none => rfl
    | some d =>
      obtain ⟨h1, h2, _⟩ := takeDigits_spec [b]
      simp only [takeDigits, hv] at h1 h2
      simp only [List.map_cons, List.map_nil, List.cons_append, List.nil_append, List.cons.injEq, and_true] at h1
      exact absurd h1 (h d (h2 d (by simp)))

theorem noDigit_iff {t : List Byte} : NoDigit t ↔ ∀ b ∈ t.head?, digitVal 10 b = none := by
  constructor
  · intro h b hb
    rw [digitVal_none]
    rintro d hd rfl
    exact h d hd hb
  · intro h d hd he
    have := h (digitByte d) he
    rw [digitVal_byte 10 (Or.inl rfl) d hd] at this
    exact absurd this (by simp)

theorem foldl_ofDigits : ∀ (ds : List Nat), ds.foldl (fun a d => a * 10 + d) 0 = Nat.ofDigits 10 ds.reverse := by
  intro ds
  rw [Nat.ofDigits_eq_foldr, ← List.foldl_reverse, List.reverse_reverse]
  congr 1
  funext x y
  simp only [Nat.cast_id]
  ring

theorem nums_ok {T : Num} (hT : T ∈ nums) : T.lo ≤ 0 ∧ 0 ≤ T.hi ∧ (T.wrap = true → T.lo = 0) := by
  simp only [nums, List.mem_cons, List.not_mem_nil, or_false] at hT
  rcases hT with rfl | rfl | rfl | rfl | rfl | rfl | rfl <;> decide

theorem conv_iff (T : Num) (hT : T ∈ nums) (k : Tok) (v : Int) :
    T.conv (decide (k.sign = some true)) (Nat.ofDigits 10 k.ds.reverse) = (v, true) ↔ T.Value k v := by
  obtain ⟨h0, h1, _⟩ := nums_ok hT
  unfold Num.conv Num.Value Tok.number
  generalize Nat.ofDigits 10 k.ds.reverse = n
  cases hw : T.wrap <;> by_cases hs : k.sign = some true <;> simp [hs]
  · split_ifs with h <;> simp <;> omega
  · split_ifs with h <;> simp <;> omega
  · split_ifs with h <;> simp [h]
    omega
  · split_ifs with h <;> simp [h]
    rw [Int.emod_eq_of_lt (by omega) (by omega)]
    omega

theorem conv_snd (T : Num) (hT : T ∈ nums) (k : Tok) :
    (T.conv (decide (k.sign = some true)) (Nat.ofDigits 10 k.ds.reverse)).2 = false ↔ ∀ v, ¬T.Value k v := by
  constructor
  · intro h v hv
    rw [(conv_iff T hT k v).2 hv] at h
    exact absurd h (by simp)
  · intro h
    by_contra hc
    rw [Bool.not_eq_false] at hc
    exact h (T.conv (decide (k.sign = some true)) (Nat.ofDigits 10 k.ds.reverse)).1 ((conv_iff T hT k _).1 (Prod.ext rfl hc))

/-! ## one `>>` -/

/-- `u` cannot be mistaken for the white space or sign in front of it -/
def Clear (sg : Option Bool) (u : List Byte) : Prop := sg = none → ∃ b t, u = b :: t ∧ isSpace b = false ∧ b ≠ 45 ∧ b ≠ 43

theorem dropWhile_blank : ∀ (ws u : List Byte), Blank ws → (∀ b t, u = b :: t → isSpace b = false) → (ws ++ u).dropWhile isSpace = u
  | [], [], _, _ => rfl
  | [], b :: t, _, h => by simp [h b t rfl]
  | w :: ws, u, hw, h => by
    rw [List.cons_append, List.dropWhile_cons, if_pos (hw w (by simp))]
    exact dropWhile_blank ws u (fun b hb => hw b (by simp [hb])) h

theorem front {ws u : List Byte} {sg : Option Bool} (hw : Blank ws) (hu : Clear sg u) :
    (ws ++ signText sg ++ u).dropWhile isSpace = signText sg ++ u ∧ signText sg ++ u ≠ [] ∧ takeSign (signText sg ++ u) = (decide (sg = some true), u) := by
  rw [List.append_assoc]
  rcases sg with _ | _ | _
  · obtain ⟨b, t, rfl, h1, h2, h3⟩ := hu rfl
    refine ⟨dropWhile_blank ws _ hw ?_, by simp [signText], ?_⟩
    · intro b' t' e
      simp only [signText, List.nil_append, List.cons.injEq] at e
      rw [← e.1]
      exact h1
    · show takeSign (b :: t) = _
      rw [takeSign, if_neg h2, if_neg h3]
      rfl
  · refine ⟨dropWhile_blank ws _ hw ?_, by simp [signText], ?_⟩
    · intro b' t' e
      simp only [signText, List.cons_append, List.nil_append, List.cons.injEq] at e
      rw [← e.1]
      decide
    · simp [signText, takeSign]
  · refine ⟨dropWhile_blank ws _ hw ?_, by simp [signText], ?_⟩
    · intro b' t' e
      simp only [signText, List.cons_append, List.nil_append, List.cons.injEq] at e
      rw [← e.1]
      decide
    · simp [signText, takeSign]

/-- a number -/
theorem extract_tok (T : Num) {k : Tok} (hk : k.Good) {t : List Byte} (ht : NoDigit t) (d : Int) :
    extract T (stream (k.text ++ t)) d = (⟨t, t = [], !(T.conv (decide (k.sign = some true)) (Nat.ofDigits 10 k.ds.reverse)).2⟩,
      (T.conv (decide (k.sign = some true)) (Nat.ofDigits 10 k.ds.reverse)).1) := by
  have hc : Clear k.sign (k.ds.map digitByte ++ t) := by
    intro _
    obtain ⟨x, xs, e⟩ := List.exists_cons_of_ne_nil hk.ne
    have hx := hk.lt x (by simp [e])
    obtain ⟨h1, _, _, h2, h3, _⟩ := digit_facts x (by omega)
    exact ⟨digitByte x, xs.map digitByte ++ t, by simp [e], h1, h2, h3⟩
  obtain ⟨h1, h2, h3⟩ := front hk.ws hc
  have h4 := takeDigits_map 10 (Or.inl rfl) k.ds t hk.lt (noDigit_iff.1 ht)
  rw [show k.text ++ t = k.ws ++ signText k.sign ++ (k.ds.map digitByte ++ t) by simp [Tok.text]]
  simp only [extract, stream, Bool.or_self, Bool.false_eq_true, if_false, h1, h2, h3, h4, hk.ne, foldl_ofDigits]

/-- white space -/
theorem extract_blank (T : Num) {t : List Byte} (h : Blank t) (d : Int) : extract T (stream t) d = (⟨[], true, true⟩, d) := by
  have := dropWhile_blank t [] h (by simp)
  rw [List.append_nil] at this
  unfold extract
  simp [stream, this]

/-- neither -/
theorem extract_none (T : Num) {ws r : List Byte} {sg : Option Bool} (hw : Blank ws) (hr : Clear sg r) (hn : NoDigit r) (d : Int) :
    extract T (stream (ws ++ signText sg ++ r)) d = (⟨r, r = [], true⟩, 0) := by
  obtain ⟨h1, h2, h3⟩ := front hw hr
  have h4 := takeDigits_map 10 (Or.inl rfl) [] r (by simp) (noDigit_iff.1 hn)
  rw [List.map_nil, List.nil_append] at h4
  simp only [extract, stream, Bool.or_self, Bool.false_eq_true, if_false, h1, h2, h3, h4, if_true]

/-- one of the three -/
theorem parse (t : List Byte) : Blank t ∨ (∃ ws sg r, Blank ws ∧ Clear sg r ∧ NoDigit r ∧ t = ws ++ signText sg ++ r) ∨
    ∃ k r, Tok.Good k ∧ NoDigit r ∧ t = k.text ++ r := by
  have hw : Blank (t.takeWhile isSpace) := fun b hb => by
    have := List.all_takeWhile (p := isSpace) (l := t)
    rw [List.all_eq_true] at this
    exact this b hb
  have ht := List.takeWhile_append_dropWhile (p := isSpace) (l := t)
  generalize t.takeWhile isSpace = ws at hw ht
  have hd : ∀ b u, t.dropWhile isSpace = b :: u → isSpace b = false := by
    intro b u e
    have := List.head?_dropWhile_not isSpace t
    rw [e] at this
    simpa using this
  generalize t.dropWhile isSpace = u at hd ht
  subst ht
  cases u with
  | nil => exact Or.inl (by simpa using hw)
  | cons b u =>
    right
    have key : ∀ (sg : Option Bool) (v : List Byte), b :: u = signText sg ++ v → Clear sg v →
        (∃ ws' sg r, Blank ws' ∧ Clear sg r ∧ NoDigit r ∧ ws ++ b :: u = ws' ++ signText sg ++ r) ∨
          ∃ k r, Tok.Good k ∧ NoDigit r ∧ ws ++ b :: u = k.text ++ r := by
      intro sg v e hc
      obtain ⟨h1, h2, h3⟩ := takeDigits_spec v
      by_cases hn : (takeDigits 10 v).1 = []
      · left
        refine ⟨ws, sg, v, hw, hc, ?_, by rw [e, List.append_assoc]⟩
        rw [hn, List.map_nil, List.nil_append] at h1
        rw [← h1] at h3
        exact noDigit_iff.2 h3
      · right
        refine ⟨⟨ws, sg, (takeDigits 10 v).1⟩, (takeDigits 10 v).2, ⟨hw, hn, h2⟩, noDigit_iff.2 h3, ?_⟩
        simp only [Tok.text]
        rw [e, List.append_assoc, List.append_assoc, ← h1]
    by_cases h1 : b = 45
    · exact key (some true) u (by simp [signText, h1]) (by simp [Clear])
    · by_cases h2 : b = 43
      · exact key (some false) u (by simp [signText, h2]) (by simp [Clear])
      · exact key none (b :: u) (by simp [signText]) fun _ => ⟨b, u, rfl, hd b u rfl, h1, h2⟩

/-! ## the loop -/

/-- no number that can be read comes next -/
def Stuck (T : Num) (r : List Byte) : Prop := ∀ k t v, Tok.Good k → NoDigit t → T.Value k v → r ≠ k.text ++ t

/-- what may stand at the end without an error -/
def Tail (T : Num) (r : List Byte) : Prop := Blank r ∨ LoneSign r ∨ OutOfRange T r

theorem extract_good (T : Num) (hT : T ∈ nums) {k : Tok} (hk : k.Good) {t : List Byte} (ht : NoDigit t) {v : Int} (hv : T.Value k v) (d : Int) :
    extract T (stream (k.text ++ t)) d = (⟨t, t = [], false⟩, v) := by
  rw [extract_tok T hk ht d, (conv_iff T hT k v).2 hv]
  rfl

theorem stuck_of_fail (T : Num) (hT : T ∈ nums) {r : List Byte} (h : (extract T (stream r) 0).1.fail = true) : Stuck T r := by
  rintro k t v hk ht hv rfl
  rw [extract_good T hT hk ht hv] at h
  exact absurd h (by simp)

theorem extract_tail (T : Num) (hT : T ∈ nums) {r : List Byte} (h : Tail T r) (d : Int) :
    (extract T (stream r) d).1.fail = true ∧ (extract T (stream r) d).1.eof = true := by
  rcases h with h | ⟨ws, s, hw, rfl⟩ | ⟨k, hk, hv, rfl⟩
  · rw [extract_blank T h]
    exact ⟨rfl, rfl⟩
  · have := extract_none T (r := []) (sg := some s) hw (by simp [Clear]) (by simp [NoDigit]) d
    rw [List.append_nil] at this
    rw [this]
    simp
  · have := extract_tok T hk (t := []) (by simp [NoDigit]) d
    rw [List.append_nil] at this
    rw [this, (conv_snd T hT k).2 hv]
    simp

theorem tail_stuck (T : Num) (hT : T ∈ nums) {r : List Byte} (h : Tail T r) : Stuck T r := stuck_of_fail T hT (extract_tail T hT h 0).1

theorem extract_stuck (T : Num) (hT : T ∈ nums) {r : List Byte} (h : Stuck T r) (d : Int) :
    (extract T (stream r) d).1.fail = true ∧ ((extract T (stream r) d).1.eof = true ↔ Tail T r) := by
  refine ⟨?_, fun he => ?_, fun ht => (extract_tail T hT ht d).2⟩
  · rcases parse r with hb | ⟨ws, sg, u, hw, hc, hn, rfl⟩ | ⟨k, u, hk, hn, rfl⟩
    · rw [extract_blank T hb]
    · rw [extract_none T hw hc hn]
    · rw [extract_tok T hk hn]
      simp only [Bool.not_eq_true']
      rw [conv_snd T hT]
      exact fun v hv => h k u v hk hn hv rfl
  · rcases parse r with hb | ⟨ws, sg, u, hw, hc, hn, rfl⟩ | ⟨k, u, hk, hn, rfl⟩
    · exact Or.inl hb
    · rw [extract_none T hw hc hn] at he
      simp only [decide_eq_true_eq] at he
      subst he
      rcases sg with _ | s
      · obtain ⟨b, t, e, _⟩ := hc rfl
        exact absurd e (by simp)
      · exact Or.inr (Or.inl ⟨ws, s, hw, by rw [List.append_nil]⟩)
    · rw [extract_tok T hk hn] at he
      simp only [decide_eq_true_eq] at he
      subst he
      exact Or.inr (Or.inr ⟨k, hk, fun v hv => h k [] v hk hn hv rfl, by rw [List.append_nil]⟩)

/-- every text begins with the numbers that can be read -/
theorem exists_begins (T : Num) (t : List Byte) : ∃ vs r, Begins T t vs r ∧ Stuck T r := by
  by_cases h : Stuck T t
  · exact ⟨[], t, .nil t, h⟩
  · unfold Stuck at h
    simp only [not_forall, not_not] at h
    obtain ⟨k, u, v, hk, hu, hv, e⟩ := h
    have hlen : u.length < t.length := by
      have := List.length_pos_of_ne_nil hk.ne
      rw [e]
      simp only [Tok.text, List.length_append, List.length_map]
      omega
    obtain ⟨vs, r, hb, hs⟩ := exists_begins T u
    refine ⟨v :: vs, r, ?_, hs⟩
    rw [e]
    exact .cons hk hu hv hb
termination_by t.length

/-- the state that a number leaves -/
theorem loop_eof (T : Num) : ∀ (n : Nat) (d : Int), 0 < n → loop T n ⟨[], true, false⟩ d = ([], ⟨[], true, true⟩)
  | n + 1, d, _ => by simp [loop, extract]

theorem begins_nil {T : Num} {t : List Byte} {vs : List Int} {r : List Byte} (hb : Begins T t vs r) (h : t = [] := by rfl) : vs = [] ∧ r = [] := by
  cases hb with
  | nil => exact ⟨rfl, h⟩
  | cons hk =>
    exfalso
    have := List.length_pos_of_ne_nil hk.ne
    have e' := congrArg List.length h
    simp only [Tok.text, List.length_append, List.length_map, List.length_nil] at e'
    omega

theorem loop_begins (T : Num) (hT : T ∈ nums) {t : List Byte} {vs : List Int} {r : List Byte} (hb : Begins T t vs r) (hs : Stuck T r) :
    ∀ (n : Nat) (d : Int), t.length < n →
      (loop T n (stream t) d).1 = vs ∧ (loop T n (stream t) d).2.fail = true ∧ ((loop T n (stream t) d).2.eof = true ↔ Tail T r) := by
  induction hb with
  | nil t =>
    intro n d hn
    obtain ⟨h1, h2⟩ := extract_stuck T hT hs d
    cases n with
    | zero => omega
    | succ n =>
      rw [loop]
      simp only [h1, if_true, true_and]
      exact h2
  | @cons k t v vs r hk ht hv hb ih =>
    intro n d hn
    have hlen : t.length < (k.text ++ t).length := by
      have := List.length_pos_of_ne_nil hk.ne
      simp only [Tok.text, List.length_append, List.length_map]
      omega
    cases n with
    | zero => omega
    | succ n =>
      rw [loop]
      simp only [extract_good T hT hk ht hv, Bool.false_eq_true, if_false]
      by_cases h0 : t = []
      · subst h0
        obtain ⟨rfl, rfl⟩ := begins_nil hb
        simp only [decide_true]
        rw [loop_eof T n v (by omega)]
        exact ⟨rfl, rfl, fun _ => Or.inl (by simp [Blank]), fun _ => rfl⟩
      · simp only [h0, decide_false]
        obtain ⟨h1, h2, h3⟩ := ih hs n v (by omega)
        simp only [stream] at h1 h2 h3
        exact ⟨by rw [h1], h2, h3⟩

/-- the loop ends because `>>` fails, not because of the bound on the number of rounds -/
theorem stops (T : Num) (hT : T ∈ nums) (t : List Byte) (d : Int) : (loop T (t.length + 1) (stream t) d).2.fail = true := by
  obtain ⟨vs, r, hb, hs⟩ := exists_begins T t
  exact (loop_begins T hT hb hs _ d (Nat.lt_succ_self _)).2.1

theorem fill_loop (T : Num) : ∀ (n : Nat) (s : IS) (d : Int), fill T (loop T n s d).1.length s d = (loop T n s d).1
  | 0, s, d => rfl
  | n + 1, s, d => by
    rw [loop]
    by_cases h : (extract T s d).1.fail = true
    · simp only [h, if_true, List.length_nil, fill]
    · simp only [h, Bool.false_eq_true, if_false, List.length_cons, fill]
      rw [fill_loop T n]

theorem readArray_begins (T : Num) (hT : T ∈ nums) {t : List Byte} {vs : List Int} {r : List Byte} (hb : Begins T t vs r) (hs : Stuck T r) (d : Int) :
    (Tail T r → readArray T t d = ok vs) ∧ (¬Tail T r → readArray T t d = abort) := by
  obtain ⟨h1, h2, h3⟩ := loop_begins T hT hb hs (t.length + 1) d (Nat.lt_succ_self _)
  have h4 := fill_loop T (t.length + 1) (stream t) d
  unfold readArray
  simp only
  rw [h4, h1, h2]
  constructor
  · intro h
    rw [h3.2 h]
    simp
  · intro h
    have : (loop T (t.length + 1) (stream t) d).2.eof = false := by
      rw [← Bool.not_eq_true, h3]
      exact h
    rw [this]
    simp

/-! ## printing -/

theorem show_tok (z : Int) : ∃ k : Tok, k.Good ∧ k.ws = [] ∧ k.text = showInt z ∧ k.number = z := by
  have key : ∀ n : Nat, ∃ ds : List Nat, ds ≠ [] ∧ (∀ d ∈ ds, d < 10) ∧ ds.map digitByte = showNat 10 n ∧ Nat.ofDigits 10 ds.reverse = n := by
    intro n
    by_cases hn : n = 0
    · exact ⟨[0], by simp, by simp, by subst hn; rfl, by subst hn; rfl⟩
    · refine ⟨(Nat.digits 10 n).reverse, ?_, digits_rev_lt 10 (Or.inl rfl) n, by rw [showNat, if_neg hn], by rw [List.reverse_reverse, Nat.ofDigits_digits]⟩
      rw [Ne, List.reverse_eq_nil_iff]
      exact Nat.digits_ne_nil_iff_ne_zero.2 hn
  obtain ⟨ds, h1, h2, h3, h4⟩ := key z.natAbs
  by_cases hz : z < 0
  · refine ⟨⟨[], some true, ds⟩, ⟨by simp, h1, h2⟩, rfl, ?_, ?_⟩
    · simp [Tok.text, signText, h3, showInt, hz]
    · simp only [Tok.number, if_true, h4]
      omega
  · refine ⟨⟨[], none, ds⟩, ⟨by simp, h1, h2⟩, rfl, ?_, ?_⟩
    · simp [Tok.text, signText, h3, showInt, hz]
    · simp only [Tok.number, h4]
      rw [if_neg (by simp)]
      omega

theorem noDigit_space (t : List Byte) : NoDigit (32 :: t) := by
  rw [noDigit_iff]
  intro b hb
  simp only [List.head?_cons, Option.mem_def, Option.some.injEq] at hb
  subst hb
  decide

theorem value_self {T : Num} (hT : T ∈ nums) {k : Tok} {z : Int} (hk : k.number = z) (h : T.lo ≤ z ∧ z ≤ T.hi) : T.Value k z := by
  obtain ⟨h0, h1, h2⟩ := nums_ok hT
  unfold Num.Value
  rw [hk]
  by_cases hw : T.wrap = true
  · have := h2 hw
    rw [if_pos hw]
    exact ⟨by omega, (Int.emod_eq_of_lt (by omega) (by omega)).symm⟩
  · rw [if_neg hw]
    exact ⟨h.1, h.2, rfl⟩

/-- a written array, followed by something -/
theorem begins_write {T : Num} (hT : T ∈ nums) : ∀ (l : List Int), (∀ z ∈ l, T.lo ≤ z ∧ z ≤ T.hi) → ∀ r, NoDigit r → Begins T (writeArray l ++ r) l r := by
  have tail : ∀ (l : List Int), (∀ z ∈ l, T.lo ≤ z ∧ z ≤ T.hi) → ∀ r, NoDigit r →
      NoDigit ((l.flatMap fun y => 32 :: showInt y) ++ r) ∧ Begins T ((l.flatMap fun y => 32 :: showInt y) ++ r) l r := by
    intro l
    induction l with
    | nil => exact fun _ r hr => ⟨hr, .nil r⟩
    | cons z l ih =>
      intro hl r hr
      obtain ⟨h1, h2⟩ := ih (fun y hy => hl y (by simp [hy])) r hr
      obtain ⟨k, hk, hw, ht, hz⟩ := show_tok z
      have hg : Tok.Good { k with ws := [32] } := ⟨by simp [isSpace], hk.ne, hk.lt⟩
      have hb := Begins.cons hg h1 (value_self hT (k := { k with ws := [32] }) hz (hl z (by simp))) h2
      have e : Tok.text { k with ws := [32] } = 32 :: showInt z := by
        rw [← ht]
        simp [Tok.text, hw]
      rw [e] at hb
      rw [List.flatMap_cons, List.append_assoc]
      exact ⟨noDigit_space _, hb⟩
  intro l
  cases l with
  | nil => exact fun _ r hr => .nil r
  | cons z l =>
    intro hl r hr
    obtain ⟨h1, h2⟩ := tail l (fun y hy => hl y (by simp [hy])) r hr
    obtain ⟨k, hk, hw, ht, hz⟩ := show_tok z
    have hb := Begins.cons hk h1 (value_self hT hz (hl z (by simp))) h2
    rw [ht] at hb
    rw [writeArray, List.append_assoc]
    exact hb

/-! ## properties -/

/-- the ranges are those of the types of C++: two's complement of 16, 32 and 64 bits, and the two values of bool -/
theorem C70_types (z : Int) :
    ((i32.lo ≤ z ∧ z ≤ i32.hi) ↔ ∃ v : BitVec 32, v.toInt = z) ∧ ((u32.lo ≤ z ∧ z ≤ u32.hi) ↔ ∃ v : BitVec 32, (v.toNat : Int) = z)
    ∧ ((i16.lo ≤ z ∧ z ≤ i16.hi) ↔ ∃ v : BitVec 16, v.toInt = z) ∧ ((u16.lo ≤ z ∧ z ≤ u16.hi) ↔ ∃ v : BitVec 16, (v.toNat : Int) = z)
    ∧ ((i64.lo ≤ z ∧ z ≤ i64.hi) ↔ ∃ v : BitVec 64, v.toInt = z) ∧ ((u64.lo ≤ z ∧ z ≤ u64.hi) ↔ ∃ v : BitVec 64, (v.toNat : Int) = z)
    ∧ ((bool.lo ≤ z ∧ z ≤ bool.hi) ↔ ∃ b : Bool, (b.toNat : Int) = z) := by
  have hs : ∀ (n : Nat) (lo hi : Int), lo = -2 ^ n → hi = 2 ^ n - 1 → ((lo ≤ z ∧ z ≤ hi) ↔ ∃ v : BitVec (n + 1), v.toInt = z) := by
    intro n lo hi h1 h2
    subst h1 h2
    constructor
    · intro h
      refine ⟨BitVec.ofInt (n + 1) z, ?_⟩
      rw [BitVec.toInt_ofInt]
      have e : ((2 ^ (n + 1) : Nat) : Int) = 2 * 2 ^ n := by push_cast; ring
      apply Int.bmod_eq_of_le <;> rw [e] <;> omega
    · rintro ⟨v, rfl⟩
      have h1 := BitVec.le_toInt v
      have h2 := BitVec.toInt_lt (x := v)
      simp only [Nat.add_sub_cancel] at h1 h2
      omega
  have hu : ∀ (n : Nat) (hi : Int), hi = 2 ^ n - 1 → (((0 : Int) ≤ z ∧ z ≤ hi) ↔ ∃ v : BitVec n, (v.toNat : Int) = z) := by
    intro n hi h1
    subst h1
    constructor
    · intro h
      refine ⟨BitVec.ofNat n z.toNat, ?_⟩
      have : z.toNat < 2 ^ n := by zify; omega
      rw [BitVec.toNat_ofNat, Nat.mod_eq_of_lt this]
      omega
    · rintro ⟨v, rfl⟩
      have := v.isLt
      zify at this
      omega
  refine ⟨hs 31 _ _ rfl rfl, hu 32 _ rfl, hs 15 _ _ rfl rfl, hu 16 _ rfl, hs 63 _ _ rfl rfl, hu 64 _ rfl, ?_⟩
  constructor
  · intro h
    simp only [bool] at h
    rcases (by omega : z = 0 ∨ z = 1) with rfl | rfl
    · exact ⟨false, rfl⟩
    · exact ⟨true, rfl⟩
  · rintro ⟨b, rfl⟩
    cases b <;> decide

/-- C70: every array of integers comes back, whatever the type, the length and the values, from all three kinds of container -/
theorem C70_round_trip {T : Num} (hT : T ∈ nums) (l : List Int) (hl : ∀ z ∈ l, T.lo ≤ z ∧ z ≤ T.hi) (d : Int) :
    readArray T (writeArray l) d = ok l ∧ readList T (writeArray l) d = ok l := by
  have h1 : Begins T (writeArray l) l [] := by
    have := begins_write hT l hl [] (by simp [NoDigit])
    rwa [List.append_nil] at this
  have h2 : Tail T [] := Or.inl (by simp [Blank])
  have h3 := tail_stuck T hT h2
  refine ⟨(readArray_begins T hT h1 h3 d).1 h2, ?_⟩
  unfold readList
  rw [(loop_begins T hT h1 h3 _ d (Nat.lt_succ_self _)).1]

/-- C70: exactly which texts `readArrayPrimitive` and `readVectorPrimitive` accept: numbers in range, then white space, a sign without a number or a number out of
range.  Every other text is an error.  The claim would be: numbers in range, then white space. -/
theorem C70_accepts_partial {T : Num} (hT : T ∈ nums) (t : List Byte) (d : Int) :
    (∀ vs, readArray T t d = ok vs ↔ ∃ r, Begins T t vs r ∧ (Blank r ∨ LoneSign r ∨ OutOfRange T r)) ∧
    ((¬∃ vs r, Begins T t vs r ∧ (Blank r ∨ LoneSign r ∨ OutOfRange T r)) → readArray T t d = abort) := by
  obtain ⟨vs', r', hb, hs⟩ := exists_begins T t
  obtain ⟨h1, h2⟩ := readArray_begins T hT hb hs d
  constructor
  · intro vs
    constructor
    · intro h
      by_cases ht : Tail T r'
      · rw [h1 ht] at h
        injection h with h
        subst h
        exact ⟨r', hb, ht⟩
      · rw [h2 ht] at h
        exact absurd h (by simp)
    · rintro ⟨r, hb', ht⟩
      exact (readArray_begins T hT hb' (tail_stuck T hT ht) d).1 ht
  · intro h
    exact h2 fun ht => h ⟨vs', r', hb, ht⟩

/-- the characters of numbers -/
def Plain (b : Byte) : Prop := isSpace b = true ∨ b = 43 ∨ b = 45 ∨ ∃ d < 10, b = digitByte d

theorem tok_plain {k : Tok} (hk : k.Good) : ∀ b ∈ k.text, Plain b := by
  intro b hb
  simp only [Tok.text, List.mem_append, List.mem_map] at hb
  rcases hb with (hb | hb) | ⟨d, hd, rfl⟩
  · exact Or.inl (hk.ws b hb)
  · rcases h : k.sign with _ | _ | _ <;> rw [h] at hb <;> simp [signText] at hb
    · exact Or.inr (Or.inl hb)
    · exact Or.inr (Or.inr (Or.inl hb))
  · exact Or.inr (Or.inr (Or.inr ⟨d, hk.lt d hd, rfl⟩))

/-- C70: in particular a text with any other character than digits, signs and white space is an error -/
theorem C70_rejects {T : Num} (hT : T ∈ nums) (t : List Byte) (d : Int) (b : Byte) (hb : b ∈ t) (hp : ¬Plain b) : readArray T t d = abort := by
  refine (C70_accepts_partial hT t d).2 ?_
  rintro ⟨vs, r, h, ht⟩
  have hr : ∀ b ∈ r, Plain b := by
    rcases ht with h | ⟨ws, s, hw, rfl⟩ | ⟨k, hk, _, rfl⟩
    · exact fun b hb => Or.inl (h b hb)
    · intro b hb
      rcases List.mem_append.1 hb with hb | hb
      · exact Or.inl (hw b hb)
      · cases s <;> simp [signText] at hb
        · exact Or.inr (Or.inl hb)
        · exact Or.inr (Or.inr (Or.inl hb))
    · exact tok_plain hk
  have hall : ∀ b ∈ t, Plain b := by
    clear hb ht
    induction h with
    | nil => exact hr
    | cons hk _ _ _ ih =>
      intro b hb
      rcases List.mem_append.1 hb with hb | hb
      · exact tok_plain hk b hb
      · exact ih hr b hb
  exact hp (hall b hb)

/-- C70 refuted: whatever array is written, if a number out of range or a lone sign is appended to the text, the array is read without an error and
without that entry … -/
theorem C70_dropped {T : Num} (hT : T ∈ nums) (l : List Int) (hl : ∀ z ∈ l, T.lo ≤ z ∧ z ≤ T.hi) (d : Int) :
    (∀ s : Bool, readArray T (writeArray l ++ 32 :: signText (some s)) d = ok l) ∧
    (∀ z : Int, (if T.wrap then T.hi < z.natAbs else z < T.lo ∨ T.hi < z) → readArray T (writeArray l ++ 32 :: showInt z) d = ok l) := by
  constructor
  · intro s
    exact ((C70_accepts_partial hT _ d).1 l).2 ⟨_, begins_write hT l hl _ (noDigit_space _), Or.inr (Or.inl ⟨[32], s, by simp [Blank, isSpace], rfl⟩)⟩
  · intro z hz
    refine ((C70_accepts_partial hT _ d).1 l).2 ⟨_, begins_write hT l hl _ (noDigit_space _), Or.inr (Or.inr ?_)⟩
    obtain ⟨k, hk, hw, ht, hn⟩ := show_tok z
    refine ⟨{ k with ws := [32] }, ⟨by simp [isSpace], hk.ne, hk.lt⟩, ?_, ?_⟩
    · intro v hv
      unfold Num.Value at hv
      rw [show Tok.number { k with ws := [32] } = z from hn] at hv
      by_cases hT' : T.wrap = true
      · rw [if_pos hT'] at hv hz
        omega
      · rw [if_neg hT'] at hv hz
        omega
    · rw [← ht]
      simp [Tok.text, hw]

/-- … although the same entry is an error if only a blank follows it -/
theorem C70_blank_matters {T : Num} (hT : T ∈ nums) (l : List Int) (hl : ∀ z ∈ l, T.lo ≤ z ∧ z ≤ T.hi) (d : Int) (s : Bool) :
    readArray T (writeArray l ++ 32 :: (signText (some s) ++ [32])) d = abort := by
  have hb := begins_write hT l hl (32 :: (signText (some s) ++ [32])) (noDigit_space _)
  have hx : ∀ d, extract T (stream (32 :: (signText (some s) ++ [32]))) d = (⟨[32], false, true⟩, 0) := by
    intro d
    have := extract_none T (ws := [32]) (sg := some s) (r := [32]) (by simp [Blank, isSpace]) (by simp [Clear]) (noDigit_space _) d
    simpa using this
  have hs : Stuck T (32 :: (signText (some s) ++ [32])) := stuck_of_fail T hT (by rw [hx])
  refine (readArray_begins T hT hb hs d).2 fun ht => ?_
  have := (extract_tail T hT ht d).2
  rw [hx] at this
  exact absurd this (by simp)

/-- C70 refuted for lists: they are never an error; everything from the first entry that cannot be read is dropped -/
theorem C70_list {T : Num} (hT : T ∈ nums) (t : List Byte) (d : Int) :
    ∃ vs r, readList T t d = ok vs ∧ Begins T t vs r ∧ ∀ k u v, Tok.Good k → NoDigit u → T.Value k v → r ≠ k.text ++ u := by
  obtain ⟨vs, r, hb, hs⟩ := exists_begins T t
  refine ⟨vs, r, ?_, hb, hs⟩
  unfold readList
  rw [(loop_begins T hT hb hs _ d (Nat.lt_succ_self _)).1]

theorem C70_list_dropped {T : Num} (hT : T ∈ nums) (l : List Int) (hl : ∀ z ∈ l, T.lo ≤ z ∧ z ≤ T.hi) (d : Int) (b : Byte) (hb : ¬Plain b) (t : List Byte) :
    readList T (writeArray l ++ 32 :: b :: t) d = ok l ∧ readArray T (writeArray l ++ 32 :: b :: t) d = abort := by
  have hn : NoDigit (b :: t) := by
    intro e he h
    simp only [List.head?_cons, Option.some.injEq] at h
    exact hb (Or.inr (Or.inr (Or.inr ⟨e, he, h⟩)))
  have hsp : isSpace b = false := by
    rw [← Bool.not_eq_true]
    exact fun h => hb (Or.inl h)
  have hc : Clear none (b :: t) := fun _ => ⟨b, t, rfl, hsp, fun h => hb (Or.inr (Or.inr (Or.inl h))), fun h => hb (Or.inr (Or.inl h))⟩
  have hx := extract_none T (ws := [32]) (by simp [Blank, isSpace]) hc hn 0
  have hs : Stuck T (32 :: b :: t) := stuck_of_fail T hT (by
    have e : ([32] : List Byte) ++ signText none ++ b :: t = 32 :: b :: t := by simp [signText]
    rw [e] at hx
    rw [hx])
  refine ⟨?_, C70_rejects hT _ d b (by simp) hb⟩
  unfold readList
  rw [(loop_begins T hT (begins_write hT l hl _ (noDigit_space _)) hs _ d (Nat.lt_succ_self _)).1]

/-- C70 refuted for unsigned types: a negative number is read as its remainder -/
theorem C70_negative {T : Num} (hT : T ∈ nums) (hw : T.wrap = true) (z : Int) (h1 : z < 0) (h2 : -T.hi ≤ z) (d : Int) :
    readArray T (showInt z) d = ok [z + T.hi + 1] := by
  obtain ⟨k, hk, hws, ht, hn⟩ := show_tok z
  refine ((C70_accepts_partial hT _ d).1 _).2 ⟨[], ?_, Or.inl (by simp [Blank])⟩
  have := Begins.cons (T := T) hk (t := []) (v := z + T.hi + 1) (by simp [NoDigit]) ?_ (.nil [])
  · rwa [List.append_nil, ht] at this
  · unfold Num.Value
    rw [if_pos hw, hn]
    refine ⟨by omega, ?_⟩
    rw [← Int.add_emod_right (a := z) (b := T.hi + 1), Int.emod_eq_of_lt (by omega) (by omega)]
    omega

/-! ### cases -/

/-- the array 3 -17 2147483647 -/
example : readArray i32 (writeArray [3, -17, 2147483647]) 0 = ok [3, -17, 2147483647] := (C70_round_trip (by simp [nums]) _ (by decide) _).1

/-- the text 3 99999999999 is read as the array 3 -/
example : readArray i32 (writeArray [3] ++ 32 :: showInt 99999999999) 0 = ok [3] := (C70_dropped (by simp [nums]) [3] (by decide) 0).2 99999999999 (by decide)

/-- the list 3 x 5 is read as the list 3, the array is an error -/
example : readList i32 (writeArray [3] ++ [32, 120, 32, 53]) 0 = ok [3] ∧ readArray i32 (writeArray [3] ++ [32, 120, 32, 53]) 0 = abort :=
  C70_list_dropped (by simp [nums]) [3] (by decide) 0 120 (by
    rintro (h | h | h | ⟨d, hd, h⟩)
    · exact absurd h (by decide)
    · exact absurd h (by decide)
    · exact absurd h (by decide)
    · exact absurd h (by revert d; decide)) [32, 53]

/-- -1 is read as 4294967295 -/
example : readArray u32 (showInt (-1)) 0 = ok [4294967295] := C70_negative (by simp [nums]) rfl (-1) (by decide) (by decide) 0

/-- 1-2 is read as the array 1 -2 -/
example : readArray i32 [49, 45, 50] 0 = ok [1, -2] := by decide +kernel

end Verif.XmlNum
