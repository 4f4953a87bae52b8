import Verif.Basic
/-
`XMLArrayWriter`: the writer of an array of elements inside another XML document, include/qdp_xmlio.h:1115-1175 and lib/qdp_xmlio.cc:1394-1521.

The base class keeps the stack of open tags (class XMLSimpleWriter of the library xpath_reader, which is not in the repository): `openTag` writes the
opening tag and pushes the name, `closeTag` writes the closing tag of the name on top.  Indentation is left out; so are the public functions `openTag` and
`closeTag` called directly, and writing to the enclosing document in between.  `QDP_error_exit` is `abort`.
-/
namespace Verif.XmlArray
open Verif Outcome

/-! ## model -/

/-- what is written: an opening tag, a closing tag, text -/
inductive Tok where
  | op (s : String)
  | cl (s : String)
  | tx (s : String)
deriving DecidableEq, Repr

/-- the members, include/qdp_xmlio.h:1156-1172.  `contextStack` holds only `STRUCT`, so its height is enough.  `names` is the stack of open tags of the
base class, `out` what has been written. -/
structure St where
  arrayTag : Bool
  initP : Bool
  simpleElements : Bool
  array_size : Int
  elements_written : Nat
  contextStack : Nat
  names : List String
  out : List Tok

/-- the constructor, include/qdp_xmlio.h:1125-1132 -/
def new (size : Int) : St := ⟨false, false, false, size, 0, 0, [], []⟩

def openTag (s : String) (x : St) : St := { x with names := s :: x.names, out := x.out ++ [.op s] }

/-- closing a tag when none is open is left undefined -/
def closeTag (x : St) : Outcome St :=
  match x.names with
  | [] => ub
  | s :: ns => ok { x with names := ns, out := x.out ++ [.cl s] }

/-- lib/qdp_xmlio.cc:1402-1424 -/
def openArray (tagname : String) (x : St) : Outcome St :=
  if x.initP then abort
  else if x.arrayTag then abort
  else if x.contextStack ≠ 0 then abort
  else ok { openTag tagname x with initP := false, arrayTag := true }

/-- lib/qdp_xmlio.cc:1426-1446 -/
def closeArray (x : St) : Outcome St :=
  if !x.initP then abort
  else if x.contextStack ≠ 0 then abort
  else do
    let y ← closeTag x
    if 0 < y.array_size ∧ (y.elements_written : Int) ≠ y.array_size then abort
    else ok { y with initP := false, arrayTag := false, elements_written := 0, simpleElements := false }

/-- lib/qdp_xmlio.cc:1448-1485 -/
def openStruct (tagname : String) (x : St) : Outcome St :=
  if !x.arrayTag then openArray tagname x
  else do
    let y ← if !x.initP then (if x.elements_written = 0 then ok { x with simpleElements := false, initP := true } else abort) else ok x
    if y.simpleElements then abort
    else
      let z := if y.contextStack = 0 then openTag "elem" y else openTag tagname y
      ok { z with contextStack := z.contextStack + 1 }

/-- lib/qdp_xmlio.cc:1487-1515 -/
def closeStruct (x : St) : Outcome St :=
  if !x.initP then abort
  else if x.contextStack = 0 then closeArray x
  else do
    let y ← closeTag { x with contextStack := x.contextStack - 1 }
    if y.contextStack = 0 then do
      let n ← ckInt (y.elements_written + 1)
      ok { y with elements_written := n }
    else ok y

/-- `write(xml, s, d)` of a number or a string, lib/qdp_xmlio.cc:785-790 -/
def leaf (s d : String) (x : St) : Outcome St :=
  let y := openTag s x
  closeTag { y with out := y.out ++ [.tx d] }

/-- the calls.  `push(xml)` is `openStruct("")` and `pop(xml)` is `closeStruct()`, lib/qdp_xmlio.cc:1518, 1521 -/
inductive Call where
  | openArray (s : String)
  | closeArray
  | openStruct (s : String)
  | closeStruct
  | leaf (s d : String)

def push : Call := .openStruct ""

def call : Call → St → Outcome St
  | .openArray s => openArray s
  | .closeArray => closeArray
  | .openStruct s => openStruct s
  | .closeStruct => closeStruct
  | .leaf s d => leaf s d

def run : List Call → St → Outcome St
  | [], x => ok x
  | c :: cs, x => call c x >>= run cs

/-- the destructor, lib/qdp_xmlio.cc:1396-1400 -/
def destroy (x : St) : Outcome St := if x.initP then closeArray x else ok x

/-! ## specification -/

/-- a document: values and elements with documents inside -/
inductive Item where
  | val (s d : String)
  | elem (s : String) (inside : List Item)

mutual
/-- the text of a document -/
def Item.text : Item → List Tok
  | .val s d => [.op s, .tx d, .cl s]
  | .elem s l => .op s :: (texts l ++ [.cl s])
def texts : List Item → List Tok
  | [] => []
  | i :: l => i.text ++ texts l
end

def Item.isElem : Item → Bool
  | .val _ _ => false
  | .elem _ _ => true

/-- an array: every element inside has the tag `elem`, and their number is right: the size if that is positive, any number if it is negative -/
def IsArray (size : Int) : Item → Prop
  | .val _ _ => True
  | .elem _ l => (∀ s k, Item.elem s k ∈ l → s = "elem") ∧ (0 < size → ((l.filter Item.isElem).length : Int) = size) ∧ (l.filter Item.isElem).length ≠ 0

/-! ## proofs -/

@[simp] theorem texts_append : ∀ a b : List Item, texts (a ++ b) = texts a ++ texts b
  | [], b => by simp [texts]
  | i :: a, b => by simp [texts, texts_append a b]

/-- a document that is being written: for every open tag, innermost first, the items written inside so far; then the items outside -/
def ztext : List (String × List Item) → List Item → List Tok
  | [], base => texts base
  | f :: fs, base => ztext fs base ++ .op f.1 :: texts f.2

theorem elem_text (s : String) (k : List Item) : texts [Item.elem s k] = .op s :: (texts k ++ [.cl s]) := by simp [texts, Item.text]
theorem val_text (s d : String) : texts [Item.val s d] = [.op s, .tx d, .cl s] := by simp [texts, Item.text]

theorem ztext_push (s : String) (fs : List (String × List Item)) (base : List Item) : ztext ((s, []) :: fs) base = ztext fs base ++ [.op s] := by
  simp [ztext, texts]

theorem ztext_snoc (t : String) (j l : List Item) (fs : List (String × List Item)) (base : List Item) :
    ztext ((t, j ++ l) :: fs) base = ztext ((t, j) :: fs) base ++ texts l := by
  simp [ztext]

theorem ztext_pop (s t : String) (k j : List Item) (fs : List (String × List Item)) (base : List Item) :
    ztext ((t, j ++ [.elem s k]) :: fs) base = ztext ((s, k) :: (t, j) :: fs) base ++ [.cl s] := by
  simp [ztext, elem_text]

theorem ztext_last (s : String) (k base : List Item) : ztext [] (base ++ [.elem s k]) = ztext [(s, k)] base ++ [.cl s] := by
  simp [ztext, elem_text]

def elems (l : List Item) : Nat := (l.filter Item.isElem).length

@[simp] theorem elems_nil : elems [] = 0 := rfl
@[simp] theorem elems_val (l : List Item) (s d : String) : elems (l ++ [.val s d]) = elems l := by simp [elems, Item.isElem]
@[simp] theorem elems_elem (l : List Item) (s : String) (k : List Item) : elems (l ++ [.elem s k]) = elems l + 1 := by
  simp only [elems, List.filter_append, List.length_append]; rfl

/-- the elements inside an array have the tag `elem` -/
def Tags (l : List Item) : Prop := ∀ s k, Item.elem s k ∈ l → s = "elem"

theorem tags_nil : Tags [] := by simp [Tags]
theorem tags_val {l : List Item} (h : Tags l) (s d : String) : Tags (l ++ [.val s d]) := by
  intro s k; simp; exact h s k
theorem tags_elem {l : List Item} (h : Tags l) (k : List Item) : Tags (l ++ [.elem "elem" k]) := by
  intro s k'; simp; rintro (h' | ⟨rfl, _⟩)
  · exact h s k' h'
  · rfl

/-- the states that can occur: no array, an array tag with no element so far, between elements, inside an element -/
inductive Inv (size : Int) : St → Prop where
  | closed {base o} : (∀ i ∈ base, IsArray size i) → o = ztext [] base → Inv size ⟨false, false, false, size, 0, 0, [], o⟩
  | tagged {base q k o} : (∀ i ∈ base, IsArray size i) → elems k = 0 → Tags k → o = ztext [(q, k)] base → Inv size ⟨true, false, false, size, 0, 0, [q], o⟩
  | between {base q k o} : (∀ i ∈ base, IsArray size i) → elems k ≠ 0 → Tags k → o = ztext [(q, k)] base →
      Inv size ⟨true, true, false, size, elems k, 0, [q], o⟩
  | inside {base q k e o} {fs : List (String × List Item)} : (∀ i ∈ base, IsArray size i) → Tags k → o = ztext (fs ++ [("elem", e), (q, k)]) base →
      Inv size ⟨true, true, false, size, elems k, fs.length + 1, fs.map Prod.fst ++ ["elem", q], o⟩

theorem inv_new (size : Int) : Inv size (new size) := .closed (base := []) (by simp) (by simp [ztext, texts])

theorem isArray_of {size : Int} {q : String} {k : List Item} (h : Tags k) (h0 : elems k ≠ 0) (hs : ¬(0 < size ∧ (elems k : Int) ≠ size)) : IsArray size (.elem q k) := by
  refine ⟨h, fun hp => ?_, h0⟩
  by_cases he : (elems k : Int) = size
  · exact he
  · exact absurd ⟨hp, he⟩ hs

theorem inv_openArray {size : Int} {x y : St} (h : Inv size x) (s : String) (hy : openArray s x = ok y) : Inv size y := by
  cases h with
  | closed hb ho =>
    simp only [openArray, openTag] at hy
    simp at hy
    subst hy
    exact .tagged (k := []) hb rfl tags_nil (by rw [ztext_push, ho])
  | tagged hb hk ht ho => simp [openArray] at hy
  | between hb hk ht ho => simp [openArray] at hy
  | inside hb ht ho => simp [openArray] at hy

theorem inv_closeArray {size : Int} {x y : St} (h : Inv size x) (hy : closeArray x = ok y) : Inv size y ∧ y.arrayTag = false := by
  cases h with
  | closed hb ho => simp [closeArray] at hy
  | tagged hb hk ht ho => simp [closeArray] at hy
  | @between base q k o hb hk ht ho =>
    simp only [closeArray, closeTag, ok_bind, Bool.not_true, Bool.false_eq_true, if_false, ne_eq, not_true_eq_false] at hy
    split at hy
    · cases hy
    · rename_i hs
      injection hy with hy
      subst hy
      refine ⟨.closed (base := base ++ [.elem q k]) ?_ (by rw [ztext_last, ho]), rfl⟩
      intro i hi
      rcases List.mem_append.1 hi with hi | hi
      · exact hb i hi
      · obtain rfl := List.mem_singleton.1 hi
        exact isArray_of ht hk hs
  | inside hb ht ho => simp [closeArray] at hy

theorem inv_openStruct {size : Int} {x y : St} (h : Inv size x) (s : String) (hy : openStruct s x = ok y) : Inv size y := by
  cases h with
  | closed hb ho => exact inv_openArray (.closed hb ho) s (by simpa [openStruct] using hy)
  | @tagged base q k o hb hk ht ho =>
    simp [openStruct, openTag] at hy
    subst hy
    have := Inv.inside (size := size) (fs := []) (e := []) hb ht (q := q) rfl
    simp only [List.nil_append, List.map_nil, List.length_nil, ztext_push, hk] at this
    rw [ho]
    exact this
  | @between base q k o hb hk ht ho =>
    simp [openStruct, openTag] at hy
    subst hy
    have := Inv.inside (size := size) (fs := []) (e := []) hb ht (q := q) rfl
    simp only [List.nil_append, List.map_nil, List.length_nil, ztext_push] at this
    rw [ho]
    exact this
  | @inside base q k e o fs hb ht ho =>
    simp [openStruct, openTag] at hy
    subst hy
    have := Inv.inside (size := size) (fs := (s, []) :: fs) (e := e) hb ht (q := q) rfl
    simp only [List.cons_append, List.map_cons, List.length_cons, ztext_push] at this
    rw [ho]
    exact this

theorem inv_closeStruct {size : Int} {x y : St} (h : Inv size x) (hy : closeStruct x = ok y) : Inv size y := by
  cases h with
  | closed hb ho => simp [closeStruct] at hy
  | tagged hb hk ht ho => simp [closeStruct] at hy
  | between hb hk ht ho => exact (inv_closeArray (.between hb hk ht ho) (by simpa [closeStruct] using hy)).1
  | @inside base q k e o fs hb ht ho =>
    cases fs with
    | nil =>
      simp [closeStruct, closeTag] at hy
      unfold ckInt at hy
      split at hy
      · simp at hy
        subst hy
        have := Inv.between (size := size) (k := k ++ [.elem "elem" e]) hb (by simp) (tags_elem ht e) (q := q) rfl
        rw [ztext_pop, elems_elem] at this
        rw [ho]
        exact this
      · simp at hy
    | cons f fs =>
      obtain ⟨s, j⟩ := f
      simp [closeStruct, closeTag] at hy
      subst hy
      cases fs with
      | nil =>
        have := Inv.inside (size := size) (fs := []) (e := e ++ [.elem s j]) hb ht (q := q) rfl
        simp only [List.nil_append, List.map_nil, List.length_nil, ztext_pop] at this
        rw [ho]
        exact this
      | cons g fs =>
        obtain ⟨t, i⟩ := g
        have := Inv.inside (size := size) (fs := (t, i ++ [.elem s j]) :: fs) (e := e) hb ht (q := q) rfl
        simp only [List.cons_append, ztext_pop] at this
        rw [ho]
        exact this

theorem leaf_eq (s d : String) (x : St) : leaf s d x = ok { x with out := x.out ++ texts [.val s d] } := by
  simp [leaf, openTag, closeTag, val_text]

theorem inv_leaf {size : Int} {x y : St} (h : Inv size x) (s d : String) (hy : leaf s d x = ok y) : Inv size y := by
  rw [leaf_eq] at hy
  injection hy with hy
  subst hy
  cases h with
  | @closed base o hb ho =>
    refine .closed (base := base ++ [.val s d]) ?_ (by rw [ho]; simp [ztext])
    intro i hi
    rcases List.mem_append.1 hi with hi | hi
    · exact hb i hi
    · obtain rfl := List.mem_singleton.1 hi
      trivial
  | @tagged base q k o hb hk ht ho => exact .tagged (k := k ++ [.val s d]) hb (by simpa using hk) (tags_val ht s d) (by rw [ztext_snoc, ho])
  | @between base q k o hb hk ht ho =>
    have := Inv.between (size := size) (k := k ++ [.val s d]) hb (by simpa using hk) (tags_val ht s d) (q := q) (by rw [ztext_snoc, ← ho])
    simpa using this
  | @inside base q k e o fs hb ht ho =>
    cases fs with
    | nil => exact .inside (fs := []) (e := e ++ [.val s d]) hb ht (by simp only [List.nil_append, ztext_snoc]; rw [ho]; simp)
    | cons f fs =>
      obtain ⟨t, j⟩ := f
      have := Inv.inside (size := size) (fs := (t, j ++ [.val s d]) :: fs) (e := e) hb ht (q := q) rfl
      simp only [List.cons_append, ztext_snoc] at this
      rw [ho]
      exact this

theorem inv_call {size : Int} {x y : St} (h : Inv size x) (c : Call) (hy : call c x = ok y) : Inv size y := by
  cases c with
  | openArray s => exact inv_openArray h s hy
  | closeArray => exact (inv_closeArray h hy).1
  | openStruct s => exact inv_openStruct h s hy
  | closeStruct => exact inv_closeStruct h hy
  | leaf s d => exact inv_leaf h s d hy

theorem inv_run {size : Int} : ∀ (cs : List Call) {x y : St}, Inv size x → run cs x = ok y → Inv size y
  | [], _, _, h, hy => by
    simp only [run] at hy
    injection hy with hy
    exact hy ▸ h
  | c :: cs, x, y, h, hy => by
    simp only [run, bind_eq_ok] at hy
    obtain ⟨z, h1, h2⟩ := hy
    exact inv_run cs (inv_call h c h1) h2

/-- C72: whatever is called, if no call stops the program and the destructor does not, and an array whose tag was written has an element, then what was
written is a document of values and arrays, and every array has elements tagged `elem`, as many as the size given if that is positive. -/
theorem C72_document_partial (size : Int) (cs : List Call) (x y : St) (hx : run cs (new size) = ok x) (hy : destroy x = ok y) (he : x.arrayTag = true → x.initP = true) :
    ∃ doc, y.out = texts doc ∧ ∀ i ∈ doc, IsArray size i := by
  have h := inv_run cs (inv_new size) hx
  unfold destroy at hy
  split at hy
  · obtain ⟨h1, h2⟩ := inv_closeArray h hy
    cases h1 with
    | @closed base o hb ho => exact ⟨base, ho, hb⟩
    | tagged => cases h2
    | between => cases h2
    | inside => cases h2
  · rename_i hi
    injection hy with hy
    subst hy
    cases h with
    | @closed base o hb ho => exact ⟨base, ho, hb⟩
    | tagged => exact absurd (he rfl) hi
    | between => exact absurd rfl hi
    | inside => exact absurd rfl hi

/-! ### the empty array -/

def depth : List Tok → Int
  | [] => 0
  | .op _ :: l => depth l + 1
  | .cl _ :: l => depth l - 1
  | .tx _ :: l => depth l

@[simp] theorem depth_append : ∀ a b : List Tok, depth (a ++ b) = depth a + depth b
  | [], b => by simp [depth]
  | .op s :: a, b => by simp [depth, depth_append a b]; omega
  | .cl s :: a, b => by simp [depth, depth_append a b]; omega
  | .tx s :: a, b => by simp [depth, depth_append a b]

mutual
theorem depth_item : ∀ i : Item, depth i.text = 0
  | .val s d => by simp [Item.text, depth]
  | .elem s l => by simp [Item.text, depth, depth_texts l]
theorem depth_texts : ∀ l : List Item, depth (texts l) = 0
  | [] => by simp [texts, depth]
  | i :: l => by simp [texts, depth_item i, depth_texts l]
end

/-- C72 refuted: an array with no element is never closed.  `closeArray` and `closeStruct` stop the program, the destructor leaves the tag open, so that what
was written is no document. -/
theorem C72_empty (size : Int) (cs : List Call) (x : St) (hx : run cs (new size) = ok x) (ha : x.arrayTag = true) (hi : x.initP = false) :
    call .closeArray x = abort ∧ call .closeStruct x = abort ∧ ∃ y, destroy x = ok y ∧ ∀ doc, y.out ≠ texts doc := by
  refine ⟨by simp [call, closeArray, hi], by simp [call, closeStruct, hi], x, by simp [destroy, hi], fun doc hd => ?_⟩
  have h := inv_run cs (inv_new size) hx
  cases h with
  | closed => cases ha
  | tagged hb hk ht ho =>
    have e := congrArg depth hd
    simp only [ho, ztext, depth_append, depth, depth_texts] at e
    omega
  | between => cases hi
  | inside => cases hi

/-- no call closes a tag that is not open: the undefined outcome is only the overflow of the number of elements -/
theorem C72_no_stray (size : Int) (cs : List Call) (x : St) (hx : run cs (new size) = ok x) (hn : x.elements_written + 1 < 2 ^ 31) (c : Call) : call c x ≠ ub := by
  have h := inv_run cs (inv_new size) hx
  cases c with
  | openArray s =>
    simp only [call, openArray]
    split
    · simp
    split
    · simp
    split <;> simp
  | closeArray =>
    cases h <;> simp [call, closeArray, closeTag]
    split <;> simp
  | openStruct s =>
    cases h <;> simp [call, openStruct, openArray]
  | closeStruct =>
    cases h with
    | closed => simp [call, closeStruct]
    | tagged => simp [call, closeStruct]
    | between => simp [call, closeStruct, closeArray, closeTag]; split <;> simp
    | @inside base q k e o fs hb ht ho =>
      cases fs with
      | nil => simp [call, closeStruct, closeTag, ckInt_of_lt hn]
      | cons f fs => simp [call, closeStruct, closeTag]
  | leaf s d => simp [call, leaf_eq]

/-! ### how an array is written -/

/-- one element with values inside -/
def element (l : List (String × String)) : List Call := .openStruct "" :: (l.map fun p => .leaf p.1 p.2) ++ [.closeStruct]

/-- the array is opened, its elements are written, and it is closed -/
def program (q : String) (ls : List (List (String × String))) : List Call := .openStruct q :: ls.flatMap element ++ [.closeStruct]

def values (l : List (String × String)) : List Item := l.map fun p => .val p.1 p.2

theorem run_append : ∀ (a b : List Call) (x : St), run (a ++ b) x = run a x >>= run b
  | [], b, x => by simp [run]
  | c :: a, b, x => by
    simp only [List.cons_append, run]
    cases call c x <;> simp [run_append a b]

theorem run_leaves : ∀ (l : List (String × String)) (x : St), run (l.map fun p => .leaf p.1 p.2) x = ok { x with out := x.out ++ texts (values l) }
  | [], x => by simp [run, values, texts]
  | p :: l, x => by
    simp only [List.map_cons, run, call, leaf_eq, ok_bind, run_leaves l]
    have : texts (values (p :: l)) = texts [.val p.1 p.2] ++ texts (values l) := by rw [← texts_append]; rfl
    simp [this]

theorem run_element (l : List (String × String)) (i : Bool) (size : Int) (n : Nat) (hi : i = false → n = 0) (q : String) (o : List Tok) (hn : n + 1 < 2 ^ 31) :
    run (element l) ⟨true, i, false, size, n, 0, [q], o⟩ = ok ⟨true, true, false, size, n + 1, 0, [q], o ++ texts [.elem "elem" (values l)]⟩ := by
  have h1 : call (.openStruct "") ⟨true, i, false, size, n, 0, [q], o⟩ = ok ⟨true, true, false, size, n, 1, ["elem", q], o ++ [.op "elem"]⟩ := by
    cases i with
    | false => simp [call, openStruct, openTag, hi rfl]
    | true => simp [call, openStruct, openTag]
  unfold element
  rw [run_append]
  simp only [run, h1, ok_bind, run_leaves]
  simp [call, closeStruct, closeTag, ckInt_of_lt hn, elem_text]

theorem run_elements (size : Int) (q : String) : ∀ (ls : List (List (String × String))) (i : Bool) (n : Nat) (o : List Tok), (i = false → n = 0) → n + ls.length < 2 ^ 31 →
    run (ls.flatMap element) ⟨true, i, false, size, n, 0, [q], o⟩ =
      ok ⟨true, i || !ls.isEmpty, false, size, n + ls.length, 0, [q], o ++ texts (ls.map fun l => .elem "elem" (values l))⟩
  | [], i, n, o, _, _ => by simp [run, texts]
  | l :: ls, i, n, o, hi, hn => by
    simp only [List.length_cons] at hn
    rw [List.flatMap_cons, run_append, run_element l i size n hi q o (by omega), ok_bind, run_elements size q ls true (n + 1) _ (by simp) (by omega)]
    have : texts ((l :: ls).map fun l => Item.elem "elem" (values l)) = texts [.elem "elem" (values l)] ++ texts (ls.map fun l => .elem "elem" (values l)) := by
      rw [← texts_append]; rfl
    rw [this]
    simp [Nat.add_comm, Nat.add_left_comm]

/-- C72: writing an array of `ls.length` elements with a writer of a given size.  It works if there is an element and the number is the size or the size is
not positive; otherwise the program stops. -/
theorem C72_program (size : Int) (q : String) (ls : List (List (String × String))) (hn : ls.length < 2 ^ 31) :
    ((ls ≠ [] ∧ (size ≤ 0 ∨ (ls.length : Int) = size)) →
      ∃ y, run (program q ls) (new size) = ok y ∧ destroy y = ok y ∧ y.out = texts [.elem q (ls.map fun l => .elem "elem" (values l))]) ∧
    (¬(ls ≠ [] ∧ (size ≤ 0 ∨ (ls.length : Int) = size)) → run (program q ls) (new size) = abort) := by
  have h0 : call (.openStruct q) (new size) = ok ⟨true, false, false, size, 0, 0, [q], [.op q]⟩ := by simp [call, openStruct, openArray, openTag, new]
  have h1 := run_elements size q ls false 0 [.op q] (by simp) (by omega)
  have e : run (program q ls) (new size) =
      call .closeStruct ⟨true, !ls.isEmpty, false, size, ls.length, 0, [q], [.op q] ++ texts (ls.map fun l => .elem "elem" (values l))⟩ := by
    unfold program
    rw [List.cons_append, run, h0, ok_bind, run_append, h1, ok_bind]
    simp only [run, Bool.false_or, Nat.zero_add]
    cases call _ _ <;> rfl
  rw [e]
  cases ls with
  | nil => simp [call, closeStruct]
  | cons l ls =>
    have c : (0 < size ∧ ((l :: ls).length : Int) ≠ size) ↔ ¬(size ≤ 0 ∨ ((l :: ls).length : Int) = size) := by omega
    constructor
    · rintro ⟨-, h⟩
      simp only [call, closeStruct, closeArray, closeTag, List.isEmpty_cons, Bool.not_false, Bool.not_true, Bool.false_eq_true, if_false, if_true, ne_eq, not_true_eq_false, ok_bind]
      rw [if_neg (fun h' => c.1 h' h)]
      exact ⟨_, rfl, by simp [destroy], by simp [elem_text]⟩
    · intro h
      simp only [call, closeStruct, closeArray, closeTag, List.isEmpty_cons, Bool.not_false, Bool.not_true, Bool.false_eq_true, if_false, if_true, ne_eq, not_true_eq_false, ok_bind]
      rw [if_pos (by rw [c]; intro h'; exact h ⟨by simp, h'⟩)]

/-- C72 refuted for the size 0: any number of elements is written, and none at all is an error -/
theorem C72_size_zero (q : String) (ls : List (List (String × String))) (hn : ls.length < 2 ^ 31) :
    (ls = [] → run (program q ls) (new 0) = abort) ∧
    (ls ≠ [] → ∃ y, run (program q ls) (new 0) = ok y ∧ y.out = texts [.elem q (ls.map fun l => .elem "elem" (values l))]) := by
  obtain ⟨h1, h2⟩ := C72_program 0 q ls hn
  refine ⟨fun h => h2 (by simp [h]), fun h => ?_⟩
  obtain ⟨y, hy, _, ho⟩ := h1 ⟨h, by simp⟩
  exact ⟨y, hy, ho⟩

/-- C72 refuted for arrays of simple values (tried in examples/t_xml.cc:261, which expects the tag `elem`): the values keep their own tags, are not
counted, and the array cannot be closed -/
theorem C72_simple (size : Int) (q : String) (l : List (String × String)) :
    ∃ x, run (.openArray q :: l.map fun p => .leaf p.1 p.2) (new size) = ok x ∧ x.out = .op q :: texts (values l) ∧ x.elements_written = 0 ∧
      call .closeArray x = abort ∧ ∃ y, destroy x = ok y ∧ ∀ doc, y.out ≠ texts doc := by
  have h0 : call (.openArray q) (new size) = ok ⟨true, false, false, size, 0, 0, [q], [.op q]⟩ := by simp [call, openArray, openTag, new]
  have e : run (.openArray q :: l.map fun p => .leaf p.1 p.2) (new size) = ok ⟨true, false, false, size, 0, 0, [q], .op q :: texts (values l)⟩ := by
    rw [run, h0, ok_bind, run_leaves]
    rfl
  obtain ⟨h1, _, h2⟩ := C72_empty size _ _ e rfl rfl
  exact ⟨_, e, rfl, rfl, h1, h2⟩

/-- `push(xml)` inside an element opens a tag without a name -/
theorem C72_push_nested (size : Int) (cs : List Call) (x : St) (hx : run cs (new size) = ok x) (hc : x.contextStack ≠ 0) :
    ∃ y, call push x = ok y ∧ y.out = x.out ++ [.op ""] := by
  have h := inv_run cs (inv_new size) hx
  cases h with
  | closed => exact absurd rfl hc
  | tagged => exact absurd rfl hc
  | between => exact absurd rfl hc
  | inside => simp [call, push, openStruct, openTag]

/-- an element that is open when the writer is destroyed stops the program -/
theorem C72_unfinished (size : Int) (cs : List Call) (x : St) (hx : run cs (new size) = ok x) (hc : x.contextStack ≠ 0) : destroy x = abort := by
  have h := inv_run cs (inv_new size) hx
  cases h with
  | closed => exact absurd rfl hc
  | tagged => exact absurd rfl hc
  | between => exact absurd rfl hc
  | inside => simp [destroy, closeArray]

/-! ### cases -/

def outOf (o : Outcome St) : Option (List Tok) := match o with | ok x => some x.out | _ => none

/-- examples/t_xml.cc:245-268: three elements -/
example : outOf (run (program "a" [[("x", "1")], [("x", "2")], []]) (new 3)) =
    some [.op "a", .op "elem", .op "x", .tx "1", .cl "x", .cl "elem", .op "elem", .op "x", .tx "2", .cl "x", .cl "elem", .op "elem", .cl "elem", .cl "a"] := by
  decide +kernel
/-- no element: the tag stays open -/
example : outOf (run [.openArray "a"] (new 3) >>= destroy) = some [.op "a"] := by decide +kernel
example : (run [.openArray "a"] (new (-1)) >>= call .closeArray) = abort := by rfl
/-- the destructor closes an array with elements -/
example : outOf (run [.openArray "a", push, .closeStruct] (new (-1)) >>= destroy) = some [.op "a", .op "elem", .cl "elem", .cl "a"] := by decide +kernel

end Verif.XmlArray
