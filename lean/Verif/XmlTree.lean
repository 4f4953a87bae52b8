import Verif.XmlNum
/-
Containers in XML: the function templates `read` and `write` of include/qdp_xmlio.h.

An element has a tag, a text and elements inside.  Writing tags and finding elements is done by libraries that are not in the repository (xpath_reader): a
reader placed at an element finds the elements inside it by their tag, an error (a thrown string) if there is not exactly one, or by `tag[i]`.  `throw` is
`abort`.
-/
namespace Verif.XmlTree
open Verif Outcome ByteOrder Verif.XmlNum

/-! ## model -/

inductive Node where
  | mk (tag : String) (text : List Byte) (kids : List Node)

def Node.tag : Node → String
  | .mk t _ _ => t
def Node.text : Node → List Byte
  | .mk _ t _ => t
def Node.kids : Node → List Node
  | .mk _ _ k => k

/-- the types that can be read and written.  `arrN`, `vecN`, `listN` are containers of numbers with functions of their own; `arr`, `vec`, `list` use the templates. -/
inductive Ty where
  | num (T : Num)
  | arrN (T : Num)
  | vecN (T : Num)
  | listN (T : Num)
  | arr (t : Ty)
  | vec (t : Ty)
  | list (t : Ty)
  | map (K : Num) (t : Ty)
  | pair (a b : Ty)

/-- values: `multi1d`, `std::vector` and `std::list` are lists, `std::map` the pairs in the order of the keys -/
def Den : Ty → Type
  | .num _ => Int
  | .arrN _ | .vecN _ | .listN _ => List Int
  | .arr t | .vec t | .list t => List (Den t)
  | .map _ t => List (Int × Den t)
  | .pair a b => Den a × Den b

/-- a new object.  A number that is not initialised is never looked at. -/
def new : (t : Ty) → Den t
  | .num _ => (0 : Int)
  | .arrN _ | .vecN _ | .listN _ => ([] : List Int)
  | .arr t | .vec t | .list t => ([] : List (Den t))
  | .map _ t => ([] : List (Int × Den t))
  | .pair a b => (new a, new b)

/-- a number, lib/qdp_xmlio.cc:785-790 -/
def writeNum (s : String) (x : Int) : Node := .mk s (ArchiveHdr.showInt x) []

/-- `write(xml, s, x)`: numbers lib/qdp_xmlio.cc:785-790, containers of numbers lib/qdp_xmlio.cc:869-886, 1008-1025, 1141-1161, `multi1d`
include/qdp_xmlio.h:748-777, `std::vector` include/qdp_xmlio.h:913-927, `std::list` include/qdp_xmlio.h:944-958, `std::map` include/qdp_xmlio.h:986-1004,
`std::pair` include/qdp_xmlio.h:1007-1018 -/
def write : (t : Ty) → String → Den t → Node
  | .num _, s, x => writeNum s x
  | .arrN _, s, x => .mk s (writeArray x) []
  | .vecN _, s, x => .mk s (writeArray x) []
  | .listN _, s, x => .mk s (writeArray x) []
  | .arr t, s, x => .mk s [] (List.map (write t "elem") x)
  | .vec t, s, x => .mk s [] (List.map (write t "elem") x)
  | .list t, s, x => .mk s [] (List.map (write t "elem") x)
  | .map _ t, s, x => .mk s [] (List.map (fun p : Int × Den t => .mk "elem" [] [writeNum "Key" p.1, write t "Val" p.2]) x)
  | .pair a b, s, x => .mk s [] [write a "First" x.1, write b "Second" x.2]

/-- the elements that `tag[1]`, `tag[2]`, … find; their number is `count` -/
def Node.all (n : Node) (s : String) : List Node := n.kids.filter fun k => k.tag = s

/-- the element that a tag finds -/
def Node.find (n : Node) (s : String) : Outcome Node :=
  match n.all s with
  | [x] => ok x
  | _ => abort

/-- a number: the library reads the text with `>>` too, and anything but white space after it is an error -/
def readNum (T : Num) (n : Node) : Outcome Int :=
  if (extract T (stream n.text) 0).1.fail then abort
  else if (extract T (stream n.text) 0).1.rest.all ArchiveHdr.isSpace then ok (extract T (stream n.text) 0).2 else abort

/-- `input.resize(n)` of a `std::vector` keeps the elements there are -/
def resize {α : Type} (new : α) (n : Nat) (old : List α) : List α := old.take n ++ List.replicate (n - old.length) new

/-- the loop over `elem[i+1]`, each read into `input[i]` -/
def readAll {α : Type} (f : Node → α → Outcome α) : List Node → List α → Outcome (List α)
  | k :: ks, o :: os => do
    let x ← f k o
    let xs ← readAll f ks os
    ok (x :: xs)
  | _, _ => ok []

/-- `std::map::insert`: no effect if the key is there -/
def insert {α : Type} (k : Int) (v : α) : List (Int × α) → List (Int × α)
  | [] => [(k, v)]
  | p :: l => if p.1 < k then p :: insert k v l else if p.1 = k then p :: l else (k, v) :: p :: l

/-- the loop over the elements of a map -/
def readMap {α : Type} (f : Node → Outcome (Int × α)) : List Node → List (Int × α) → Outcome (List (Int × α))
  | [], m => ok m
  | k :: ks, m => do
    let p ← f k
    readMap f ks (insert p.1 p.2 m)

/-- the loop `for(int i=0; i < input.size(); i++)` of the template for `std::list`, which pushes an element in every round; the bound is evaluated
before every round, `fuel` bounds the number of rounds -/
def readListLoop {α : Type} (f : Nat → Outcome α) : Nat → Nat → List α → Outcome (List α)
  | 0, _, input => ok input
  | fuel + 1, i, input => if i < input.length then do
      let x ← f i
      readListLoop f fuel (i + 1) (input ++ [x])
    else ok input

/-- `read(xml, s, input)` for the element `n` that `s` finds, when `input` holds a value before.  Numbers lib/qdp_xmlio.cc:265-307, containers of numbers
lib/qdp_xmlio.cc:310-355, 424-461, 524-542, `multi1d` include/qdp_xmlio.h:202-247, `std::vector` include/qdp_xmlio.h:273-325, `std::list`
include/qdp_xmlio.h:342-397, `std::map` include/qdp_xmlio.h:423-477, `std::pair` include/qdp_xmlio.h:482-491 -/
def read : (t : Ty) → Node → Den t → Outcome (Den t)
  | .num T, n, _ => readNum T n
  | .arrN T, n, _ => readArray T n.text 0
  | .vecN T, n, _ => readArray T n.text 0
  | .listN T, n, _ => readList T n.text 0
  | .arr t, n, _ => readAll (read t) (n.all "elem") (List.replicate (n.all "elem").length (new t))
  | .vec t, n, old => readAll (read t) (n.all "elem") (resize (new t) (n.all "elem").length old)
  | .list t, n, _ => readListLoop (fun i => do
      let k ← rd (n.all "elem") i
      read t k (new t)) (n.all "elem").length 0 []
  | .map K t, n, old => readMap (fun k => do
      let key ← (k.find "Key") >>= fun x => readNum K x
      let val ← (k.find "Val") >>= fun x => read t x (new t)
      ok (key, val)) (n.all "elem") old
  | .pair a b, n, old => do
      let x ← (n.find "First") >>= fun k => read a k old.1
      let y ← (n.find "Second") >>= fun k => read b k old.2
      ok (x, y)

/-! ## specification -/

def In (T : Num) (x : Int) : Prop := T ∈ nums ∧ T.lo ≤ x ∧ x ≤ T.hi

/-- the values that an object of a type can have: numbers in range, keys of a map in order -/
def Valid : (t : Ty) → Den t → Prop
  | .num T, x => In T x
  | .arrN T, x => T ∈ nums ∧ ∀ z : Int, List.Mem z x → T.lo ≤ z ∧ z ≤ T.hi
  | .vecN T, x => T ∈ nums ∧ ∀ z : Int, List.Mem z x → T.lo ≤ z ∧ z ≤ T.hi
  | .listN T, x => T ∈ nums ∧ ∀ z : Int, List.Mem z x → T.lo ≤ z ∧ z ≤ T.hi
  | .arr t, x => ∀ y : Den t, List.Mem y x → Valid t y
  | .vec t, x => ∀ y : Den t, List.Mem y x → Valid t y
  | .list t, x => ∀ y : Den t, List.Mem y x → Valid t y
  | .map K t, x => List.Pairwise (fun p q : Int × Den t => p.1 < q.1) x ∧ ∀ p : Int × Den t, List.Mem p x → In K p.1 ∧ Valid t p.2
  | .pair a b, x => Valid a x.1 ∧ Valid b x.2

/-- no `std::list` that the template reads -/
def NoList : Ty → Prop
  | .num _ | .arrN _ | .vecN _ | .listN _ => True
  | .arr t | .vec t => NoList t
  | .list _ => False
  | .map _ t => NoList t
  | .pair a b => NoList a ∧ NoList b

/-- every map in the object is empty (before reading) -/
def Fresh : (t : Ty) → Den t → Prop
  | .num _, _ | .arrN _, _ | .vecN _, _ | .listN _, _ | .arr _, _ | .list _, _ => True
  | .vec t, x => ∀ y : Den t, List.Mem y x → Fresh t y
  | .map _ _, x => x = ([] : List _)
  | .pair a b, x => Fresh a x.1 ∧ Fresh b x.2

/-! ## proofs -/

theorem new_fresh : ∀ t : Ty, Fresh t (new t)
  | .num _ | .arrN _ | .vecN _ | .listN _ | .arr _ | .list _ => trivial
  | .vec _ => fun _ h => by cases h
  | .map _ _ => rfl
  | .pair a b => ⟨new_fresh a, new_fresh b⟩

@[simp] theorem write_tag : ∀ (t : Ty) (s : String) (x : Den t), (write t s x).tag = s
  | .num _, _, _ | .arrN _, _, _ | .vecN _, _, _ | .listN _, _, _ | .arr _, _, _ | .vec _, _, _ | .list _, _, _ | .map _ _, _, _ | .pair _ _, _, _ => rfl

theorem readNum_write (T : Num) (s : String) (x : Int) (h : In T x) : readNum T (writeNum s x) = ok x := by
  obtain ⟨hT, hx⟩ := h
  obtain ⟨k, hk, _, ht, hn⟩ := show_tok x
  have := extract_good T hT hk (t := []) (by simp [NoDigit]) (value_self hT hn hx) 0
  rw [List.append_nil, ht] at this
  unfold readNum
  simp [writeNum, Node.text, this]

theorem all_map {α : Type} (f : α → Node) (hf : ∀ x, (f x).tag = "elem") (l : List α) (s : String) (tx : List Byte) : (Node.mk s tx (l.map f)).all "elem" = l.map f := by
  show List.filter _ (l.map f) = _
  rw [List.filter_eq_self]
  intro k hk
  simp only [List.mem_map] at hk
  obtain ⟨x, _, rfl⟩ := hk
  simp [hf]

theorem readAll_eq {α : Type} (f : Node → α → Outcome α) (w : α → Node) (P : α → Prop) (Q : α → Prop) (h : ∀ x o, P x → Q o → f (w x) o = ok x) :
    ∀ (l os : List α), (∀ x ∈ l, P x) → (∀ o ∈ os, Q o) → l.length = os.length → readAll f (l.map w) os = ok l
  | [], _, _, _, _ => by simp [readAll]
  | x :: l, [], _, _, e => by simp at e
  | x :: l, o :: os, hl, ho, e => by
    simp only [List.map_cons, readAll]
    rw [h x o (hl x (by simp)) (ho o (by simp)), readAll_eq f w P Q h l os (fun y hy => hl y (by simp [hy])) (fun y hy => ho y (by simp [hy])) (by simpa using e)]
    rfl

/-- inserting in order -/
theorem insert_last {α : Type} (k : Int) (v : α) : ∀ m : List (Int × α), (∀ p ∈ m, p.1 < k) → insert k v m = m ++ [(k, v)]
  | [], _ => rfl
  | p :: m, h => by
    rw [insert, if_pos (h p (by simp)), insert_last k v m fun q hq => h q (by simp [hq])]
    rfl

theorem readMap_eq {α : Type} (f : Node → Outcome (Int × α)) (w : Int × α → Node) : ∀ (l m : List (Int × α)), (∀ p ∈ l, f (w p) = ok p) →
    readMap f (l.map w) m = ok (l.foldl (fun m p => insert p.1 p.2 m) m)
  | [], m, _ => rfl
  | p :: l, m, h => by
    simp only [List.map_cons, readMap, List.foldl_cons]
    rw [h p (by simp)]
    exact readMap_eq f w l _ fun q hq => h q (by simp [hq])

theorem foldl_insert {α : Type} : ∀ (l m : List (Int × α)), (m ++ l).Pairwise (fun p q => p.1 < q.1) → l.foldl (fun m p => insert p.1 p.2 m) m = m ++ l
  | [], m, _ => by simp
  | p :: l, m, h => by
    have hlt : ∀ q ∈ m, q.1 < p.1 := fun q hq => (List.pairwise_append.1 h).2.2 q hq p (by simp)
    rw [List.foldl_cons, insert_last p.1 p.2 m hlt]
    have := foldl_insert l (m ++ [(p.1, p.2)]) (by simpa using h)
    simpa using this

theorem find_two {a b : Node} {s : String} {tx : List Byte} {x y : String} (ha : a.tag = x) (hb : b.tag = y) (hxy : x ≠ y) :
    (Node.mk s tx [a, b]).find x = ok a ∧ (Node.mk s tx [a, b]).find y = ok b := by
  unfold Node.find Node.all Node.kids
  simp [ha, hb, hxy, Ne.symm hxy]

/-- reading into a new object gives what was written -/
def Back (t : Ty) : Prop := ∀ (s : String) (x old : Den t), Valid t x → Fresh t old → read t (write t s x) old = ok x

theorem arr_eq {t : Ty} (ih : Back t) (s : String) (x os : List (Den t)) (hv : ∀ y ∈ x, Valid t y) (ho : ∀ o ∈ os, Fresh t o) (hl : x.length = os.length) :
    readAll (read t) ((Node.mk s [] (x.map (write t "elem"))).all "elem") os = ok x := by
  rw [all_map _ (fun y => write_tag t "elem" y)]
  exact readAll_eq (read t) (write t "elem") (Valid t) (Fresh t) (fun y o hy ho => ih "elem" y o hy ho) x os hv ho hl

theorem elems_length {t : Ty} (s : String) (x : List (Den t)) : ((Node.mk s [] (x.map (write t "elem"))).all "elem").length = x.length := by
  rw [all_map _ (fun y => write_tag t "elem" y), List.length_map]

theorem resize_length {α : Type} (new : α) (n : Nat) (old : List α) : (resize new n old).length = n := by
  unfold resize
  rw [List.length_append, List.length_take, List.length_replicate]
  omega

theorem map_eq {K : Num} {t : Ty} (ih : Back t) (s : String) (x old : List (Int × Den t)) (hx : ∀ p ∈ x, In K p.1 ∧ Valid t p.2) :
    read (.map K t) (write (.map K t) s x) old = ok (x.foldl (fun m p => insert p.1 p.2 m) old) := by
  show readMap _ ((Node.mk s [] (List.map (fun p : Int × Den t => .mk "elem" [] [writeNum "Key" p.1, write t "Val" p.2]) x)).all "elem") old = _
  rw [all_map _ (fun y => rfl), readMap_eq _ _ x old]
  intro p hp
  obtain ⟨h1, h2⟩ := find_two (s := "elem") (tx := []) (show (writeNum "Key" p.1).tag = "Key" from rfl) (write_tag t "Val" p.2) (by decide)
  rw [h1, h2]
  simp only [ok_bind]
  rw [readNum_write K "Key" p.1 (hx p hp).1, ih "Val" p.2 (new t) (hx p hp).2 (new_fresh t)]
  rfl

theorem back : ∀ t : Ty, NoList t → Back t
  | .num T, _ => fun s x _ hv _ => readNum_write T s x hv
  | .arrN T, _ => fun s x _ hv _ => (C70_round_trip hv.1 x hv.2 0).1
  | .vecN T, _ => fun s x _ hv _ => (C70_round_trip hv.1 x hv.2 0).1
  | .listN T, _ => fun s x _ hv _ => (C70_round_trip hv.1 x hv.2 0).2
  | .arr t, hn => fun s x _ hv _ =>
    arr_eq (back t hn) s x _ hv (fun o ho => by rw [List.eq_of_mem_replicate ho]; exact new_fresh t) (by rw [List.length_replicate]; exact (elems_length s x).symm)
  | .vec t, hn => fun s x old hv hf =>
    arr_eq (back t hn) s x _ hv
      (fun o ho => by
        rcases List.mem_append.1 ho with ho | ho
        · exact hf o (List.mem_of_mem_take ho)
        · rw [List.eq_of_mem_replicate ho]
          exact new_fresh t)
      ((elems_length s x).symm.trans (resize_length (new t) _ old).symm)
  | .list t, hn => hn.elim
  | .map K t, hn => fun s x old hv hf => by
    obtain ⟨hp, hx⟩ := hv
    rw [map_eq (back t hn) s x old hx, show old = ([] : List _) from hf, foldl_insert (α := Den t) x [] hp]
    rfl
  | .pair a b, hn => fun s x old hv hf => by
    simp only [read, write]
    obtain ⟨h1, h2⟩ := find_two (s := s) (tx := []) (write_tag a "First" x.1) (write_tag b "Second" x.2) (by decide)
    rw [h1, h2]
    simp only [ok_bind]
    rw [back a hn.1 "First" x.1 old.1 hv.1 hf.1, back b hn.2 "Second" x.2 old.2 hv.2 hf.2]
    rfl

/-! ## properties -/

/-- C71: an object that contains no `std::list` of structures comes back when it is read into an object whose maps are empty.  Missing: lists
(`C71_list`) and maps that are not empty (`C71_map`). -/
theorem C71_round_trip_partial (t : Ty) (s : String) (x old : Den t) (hn : NoList t) (hv : Valid t x) (hf : Fresh t old) : read t (write t s x) old = ok x :=
  back t hn s x old hv hf

/-- C71 refuted for lists: the template leaves every list empty, whatever the element contains -/
theorem C71_list (t : Ty) (n : Node) (old : Den (.list t)) : read (.list t) n old = ok ([] : List (Den t)) := by
  unfold read
  cases (n.all "elem").length <;> simp [readListLoop] <;> rfl

/-- so no list but the empty one comes back -/
theorem C71_list_lost (t : Ty) (s : String) (x old : Den (.list t)) (hx : x ≠ ([] : List (Den t))) : read (.list t) (write (.list t) s x) old ≠ ok x := by
  rw [C71_list]
  intro h
  injection h with h
  exact hx h.symm

/-- the same happens to `std::list<bool>`, which is written as text but for which include/qdp_xmlio.h declares no function to read it -/
theorem C71_list_bool (s : String) (x : List Int) (old : Den (.list (.num bool))) : read (.list (.num bool)) (write (.listN bool) s x) old = ok ([] : List Int) :=
  C71_list _ _ _

/-- the value of a key -/
def lookup {α : Type} (k : Int) (m : List (Int × α)) : Option α := (m.find? fun p => p.1 = k).map Prod.snd

theorem lookup_insert {α : Type} (k k' : Int) (v : α) : ∀ m : List (Int × α), m.Pairwise (fun p q => p.1 < q.1) →
    lookup k' (insert k v m) = ((lookup k' m).or (if k = k' then some v else none))
  | [], _ => by
    by_cases h : k = k' <;> simp [insert, lookup, h]
  | p :: m, hp => by
    have ih := lookup_insert k k' v m (List.pairwise_cons.1 hp).2
    unfold insert
    by_cases h1 : p.1 < k
    · rw [if_pos h1]
      by_cases h2 : p.1 = k'
      · simp [lookup, h2]
      · simp only [lookup, List.find?_cons, h2, decide_false] at ih ⊢
        exact ih
    · rw [if_neg h1]
      by_cases h2 : p.1 = k
      · rw [if_pos h2]
        by_cases h3 : k = k'
        · simp [lookup, h2, h3]
        · rw [if_neg h3, Option.or_none]
      · rw [if_neg h2]
        by_cases h3 : k = k'
        · have hnone : lookup k' (p :: m) = none := by
            simp only [lookup, Option.map_eq_none_iff, List.find?_eq_none, decide_eq_true_eq]
            intro q hq
            rcases List.mem_cons.1 hq with rfl | hq
            · omega
            · have := (List.pairwise_cons.1 hp).1 q hq
              omega
          rw [hnone]
          simp [lookup, h3]
        · rw [if_neg h3, Option.or_none]
          simp [lookup, h3]

theorem insert_sorted {α : Type} (k : Int) (v : α) : ∀ m : List (Int × α), m.Pairwise (fun p q => p.1 < q.1) → (insert k v m).Pairwise (fun p q => p.1 < q.1) ∧
    ∀ q ∈ insert k v m, q ∈ m ∨ q = (k, v)
  | [], _ => by simp [insert]
  | p :: m, hp => by
    obtain ⟨h1, h2⟩ := List.pairwise_cons.1 hp
    obtain ⟨h3, h4⟩ := insert_sorted k v m h2
    unfold insert
    split_ifs with ha hb
    · refine ⟨List.pairwise_cons.2 ⟨fun q hq => ?_, h3⟩, fun q hq => ?_⟩
      · rcases h4 q hq with hq | rfl
        · exact h1 q hq
        · exact ha
      · rcases List.mem_cons.1 hq with rfl | hq
        · simp
        · rcases h4 q hq with hq | hq
          · simp [hq]
          · exact Or.inr hq
    · exact ⟨hp, fun q hq => Or.inl hq⟩
    · refine ⟨List.pairwise_cons.2 ⟨fun q hq => ?_, hp⟩, fun q hq => ?_⟩
      · rcases List.mem_cons.1 hq with rfl | hq
        · show k < q.1
          omega
        · have := h1 q hq
          show k < q.1
          omega
      · rcases List.mem_cons.1 hq with rfl | hq
        · exact Or.inr rfl
        · exact Or.inl hq

/-- C71 refuted for a map that is not empty: it keeps all its entries, also against different values in the file; only keys it does not have are added -/
theorem C71_map (K : Num) (t : Ty) (s : String) (x old : Den (.map K t)) (hn : NoList t) (hv : Valid (.map K t) x)
    (ho : List.Pairwise (fun p q : Int × Den t => p.1 < q.1) old) :
    ∃ y : Den (.map K t), read (.map K t) (write (.map K t) s x) old = ok y ∧ ∀ k, lookup k (α := Den t) y = (lookup k (α := Den t) old).or (lookup k x) := by
  obtain ⟨hp, hx⟩ := hv
  refine ⟨(x : List (Int × Den t)).foldl (fun m p => insert p.1 p.2 m) old, ?_, ?_⟩
  · exact map_eq (back t hn) s x old hx
  · intro k
    have key : ∀ (l m : List (Int × Den t)), m.Pairwise (fun p q => p.1 < q.1) → l.Pairwise (fun p q => p.1 < q.1) →
        lookup k (l.foldl (fun m p => insert p.1 p.2 m) m) = (lookup k m).or (lookup k l) := by
      intro l
      induction l with
      | nil => intro m _ _; simp [lookup]
      | cons p l ih =>
        intro m hm hl
        rw [List.foldl_cons, ih _ (insert_sorted p.1 p.2 m hm).1 (List.pairwise_cons.1 hl).2, lookup_insert _ _ _ _ hm, Option.or_assoc]
        congr 1
        by_cases h : p.1 = k <;> simp [lookup, h]
    exact key x old ho hp

/-! ### cases -/

/-- `std::map<int, std::vector<std::pair<int, multi1d<int>>>>` -/
example : Ty := .map i32 (.vec (.pair (.num i32) (.arrN i32)))

example : read (.map i32 (.vec (.pair (.num i32) (.arrN i32)))) (write (.map i32 (.vec (.pair (.num i32) (.arrN i32)))) "a"
    ([(3, [(5, [6, 7]), (8, [])]), (4, [])] : List (Int × List (Int × List Int)))) ([] : List (Int × List (Int × List Int)))
      = ok ([(3, [(5, [6, 7]), (8, [])]), (4, [])] : List (Int × List (Int × List Int))) :=
  C71_round_trip_partial _ _ _ _ (by simp [NoList]) (by
    have h : ∀ z : Int, 0 ≤ z → z ≤ 9 → In i32 z := fun z h1 h2 => ⟨by simp [nums], by simp only [i32]; omega, by simp only [i32]; omega⟩
    refine ⟨List.pairwise_cons.2 ⟨fun q hq => ?_, List.pairwise_singleton _ _⟩, ?_⟩
    · cases hq with
      | head => decide
      | tail _ hq => cases hq
    intro p hp
    cases hp with
    | head =>
      refine ⟨h 3 (by decide) (by decide), ?_⟩
      intro q hq
      cases hq with
      | head => exact ⟨h 5 (by decide) (by decide), by simp [nums], by decide⟩
      | tail _ hq =>
        cases hq with
        | head => exact ⟨h 8 (by decide) (by decide), by simp [nums], fun z hz => by cases hz⟩
        | tail _ hq => cases hq
    | tail _ hp =>
      cases hp with
      | head => exact ⟨h 4 (by decide) (by decide), fun z hz => by cases hz⟩
      | tail _ hp => cases hp) rfl

/-- a list of one pair is read as the empty list -/
example : read (.list (.pair (.num i32) (.num i32))) (write (.list (.pair (.num i32) (.num i32))) "a" ([(1, 2)] : List (Int × Int))) ([] : List _) = ok ([] : List _) :=
  C71_list _ _ _

/-- a map with 1 ↦ 10 reads 1 ↦ 20, 2 ↦ 30 as 1 ↦ 10, 2 ↦ 30 -/
example : read (.map i32 (.num i32)) (write (.map i32 (.num i32)) "a" ([(1, 20), (2, 30)] : List (Int × Int))) ([(1, 10)] : List (Int × Int))
    = ok ([(1, 10), (2, 30)] : List (Int × Int)) := by
  have h : ∀ z : Int, 0 ≤ z → z ≤ 99 → In i32 z := fun z h1 h2 => ⟨by simp [nums], by simp only [i32]; omega, by simp only [i32]; omega⟩
  refine map_eq (K := i32) (t := .num i32) (back _ trivial) "a" ([(1, 20), (2, 30)] : List (Int × Int)) ([(1, 10)] : List (Int × Int)) fun p hp => ?_
  cases hp with
  | head => exact ⟨h 1 (by decide) (by decide), h 20 (by decide) (by decide)⟩
  | tail _ hp =>
    cases hp with
    | head => exact ⟨h 2 (by decide) (by decide), h 30 (by decide) (by decide)⟩
    | tail _ hp => cases hp

end Verif.XmlTree
