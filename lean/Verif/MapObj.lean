import Verif.BinCont
/-
Map objects kept in memory: include/qdp_map_obj_memory.h.

`std::unordered_map` is a list of entries in the order of insertion; the order in which an iterator visits them is a parameter
`iter`, any function returning a permutation.  The key is looked up by the bytes its binary writer produces.  Not modelled: the XML
reader and writer of the object (lines 252-330), C++ iterators and references kept across calls.
-/
namespace Verif.MapObj
open Verif Outcome ByteOrder Verif.BinIO

/-- `BinaryBufferWriter bin; write(bin, x); bin.str()` -/
def bufBytes {α : Type} (c : Codec α) (be : Bool) (x : α) : Outcome (List Byte) := do
  let d ← c.write be x ⟨[], 0, 0⟩
  ok d.data

/-- `unordered_map::find` -/
def find {β : Type} (m : List (List Byte × β)) (kb : List Byte) : Option β := (m.find? fun e => decide (e.1 = kb)).map (·.2)
/-- `unordered_map::insert`: an entry already there is kept -/
def insertNew {β : Type} (m : List (List Byte × β)) (kb : List Byte) (x : β) : List (List Byte × β) :=
  if (find m kb).isSome then m else m ++ [(kb, x)]
/-- assignment through an iterator returned by `find` -/
def assign {β : Type} (m : List (List Byte × β)) (kb : List Byte) (x : β) : List (List Byte × β) :=
  m.map fun e => if e.1 = kb then (kb, x) else e
/-- `unordered_map::erase` of the entry found -/
def eraseKey {β : Type} (m : List (List Byte × β)) (kb : List Byte) : List (List Byte × β) := m.filter fun e => decide (e.1 ≠ kb)

/-- `MapObjectMemory<K,V>`: `src_map` and `user_data`, include/qdp_map_obj_memory.h:244-249 -/
structure Mem (K V : Type) where
  map : List (List Byte × (K × V))
  user : List Byte

/-- what the object depends on besides its contents: the host, the order of iteration, the binary writer of the keys -/
structure Env (K V : Type) where
  be : Bool
  iter : List (List Byte × (K × V)) → List (List Byte × (K × V))
  kc : Codec K

variable {K V : Type}

/-- `insert`, include/qdp_map_obj_memory.h:115-132 (and 97-100) -/
def Mem.insert (E : Env K V) (k : K) (v : V) (o : Mem K V) : Outcome (Mem K V) := do
  let kb ← bufBytes E.kc E.be k
  match find o.map kb with
  | some _ => ok { o with map := assign o.map kb (k, v) }
  | none => ok { o with map := insertNew o.map kb (k, v) }

/-- `insert(first, last)`, include/qdp_map_obj_memory.h:104-112 -/
def Mem.insertMany (E : Env K V) : List (K × V) → Mem K V → Outcome (Mem K V)
  | [], o => ok o
  | (k, v) :: t, o => do
      let o ← o.insert E k v
      Mem.insertMany E t o

/-- `get`, include/qdp_map_obj_memory.h:135-149; `none` is the return value 1, and the caller's variable keeps its value -/
def Mem.get (E : Env K V) (k : K) (o : Mem K V) : Outcome (Option V) := do
  let kb ← bufBytes E.kc E.be k
  ok ((find o.map kb).map (·.2))

/-- `erase`, include/qdp_map_obj_memory.h:152-162 -/
def Mem.erase (E : Env K V) (k : K) (o : Mem K V) : Outcome (Mem K V) := do
  let kb ← bufBytes E.kc E.be k
  match find o.map kb with
  | some _ => ok { o with map := eraseKey o.map kb }
  | none => ok o

/-- `clear`, include/qdp_map_obj_memory.h:165 -/
def Mem.clear (o : Mem K V) : Mem K V := { o with map := [] }

/-- `exist`, include/qdp_map_obj_memory.h:171-176 -/
def Mem.exist (E : Env K V) (k : K) (o : Mem K V) : Outcome Bool := do
  let kb ← bufBytes E.kc E.be k
  ok (find o.map kb).isSome

/-- `size`, include/qdp_map_obj_memory.h:180: the result is an `unsigned int` -/
def Mem.size (o : Mem K V) : Nat := o.map.length % 2 ^ 32

/-- `keys`, include/qdp_map_obj_memory.h:183-190 -/
def Mem.keys (E : Env K V) (o : Mem K V) : List K := (E.iter o.map).map (·.2.1)

/-- `keysAndValues`, include/qdp_map_obj_memory.h:193-202 -/
def Mem.keysAndValues (E : Env K V) (o : Mem K V) : List K × List V := ((E.iter o.map).map (·.2.1), (E.iter o.map).map (·.2.2))

/-- `operator[] const`, include/qdp_map_obj_memory.h:206-219 -/
def Mem.at (E : Env K V) (k : K) (o : Mem K V) : Outcome V := do
  let kb ← bufBytes E.kc E.be k
  match find o.map kb with
  | some e => ok e.2
  | none => abort

/-- `operator[]` and an assignment through the reference returned, include/qdp_map_obj_memory.h:222-235 -/
def Mem.setAt (E : Env K V) (k : K) (v : V) (o : Mem K V) : Outcome (Mem K V) := do
  let kb ← bufBytes E.kc E.be k
  match find o.map kb with
  | some e => ok { o with map := assign o.map kb (e.1, v) }
  | none => abort

/-! ## programs using the object -/

inductive Op (K V : Type)
  | insert (k : K) (v : V) | insertMany (l : List (K × V)) | get (k : K) | erase (k : K) | clear | exist (k : K) | size | keys
  | keysAndValues | at (k : K) | setAt (k : K) (v : V) | insertUser (u : List Byte) | getUser | flush

inductive Res (K V : Type)
  | unit | val (v : Option V) | bool (b : Bool) | num (n : Nat) | keys (l : List K) | kv (l : List K) (v : List V) | user (u : List Byte)
deriving DecidableEq

/-- one call; `insertUserdata`/`getUserdata`/`flush` are lines 84-95, 168 -/
def Mem.step (E : Env K V) (o : Mem K V) : Op K V → Outcome (Res K V × Mem K V)
  | .insert k v => do let o ← o.insert E k v; ok (.unit, o)
  | .insertMany l => do let o ← o.insertMany E l; ok (.unit, o)
  | .get k => do let r ← o.get E k; ok (.val r, o)
  | .erase k => do let o ← o.erase E k; ok (.unit, o)
  | .clear => ok (.unit, o.clear)
  | .exist k => do let b ← o.exist E k; ok (.bool b, o)
  | .size => ok (.num o.size, o)
  | .keys => ok (.keys (o.keys E), o)
  | .keysAndValues => ok (.kv (o.keysAndValues E).1 (o.keysAndValues E).2, o)
  | .at k => do let v ← o.at E k; ok (.val (some v), o)
  | .setAt k v => do let o ← o.setAt E k v; ok (.unit, o)
  | .insertUser u => ok (.unit, { o with user := u })
  | .getUser => ok (.user o.user, o)
  | .flush => ok (.unit, o)

def Mem.run (E : Env K V) (o : Mem K V) : List (Op K V) → Outcome (List (Res K V) × Mem K V)
  | [] => ok ([], o)
  | p :: ps => do
      let (r, o) ← o.step E p
      let (rs, o) ← Mem.run E o ps
      ok (r :: rs, o)

/-- the object made by the default constructor, include/qdp_map_obj_memory.h:79 -/
def Mem.empty : Mem K V := ⟨[], []⟩

/-! ## specification: a finite map -/

/-- the abstract state: a partial function and the user string -/
structure Abs (K V : Type) where
  val : K → Option V
  user : List Byte

/-- `m'` is `m` with `k` sent to `x` -/
def Upd (m : K → Option V) (k : K) (x : Option V) (m' : K → Option V) : Prop := m' k = x ∧ ∀ j, j ≠ k → m' j = m j

/-- `l` lists the domain of `m` without repetition -/
def Lists (m : K → Option V) (l : List K) : Prop := l.Nodup ∧ ∀ k, k ∈ l ↔ (m k).isSome

/-- `m'` is `m` updated by the pairs in order -/
def Upds : (K → Option V) → List (K × V) → (K → Option V) → Prop
  | m, [], m' => m' = m
  | m, (k, v) :: t, m' => ∃ m1, Upd m k (some v) m1 ∧ Upds m1 t m'

/-- what each call must do to a finite map and answer -/
def Spec (a : Abs K V) : Op K V → Res K V → Abs K V → Prop
  | .insert k v, r, a' => r = .unit ∧ Upd a.val k (some v) a'.val ∧ a'.user = a.user
  | .insertMany l, r, a' => r = .unit ∧ Upds a.val l a'.val ∧ a'.user = a.user
  | .get k, r, a' => r = .val (a.val k) ∧ a' = a
  | .erase k, r, a' => r = .unit ∧ Upd a.val k none a'.val ∧ a'.user = a.user
  | .clear, r, a' => r = .unit ∧ (∀ k, a'.val k = none) ∧ a'.user = a.user
  | .exist k, r, a' => r = .bool (a.val k).isSome ∧ a' = a
  | .size, r, a' => (∃ l, Lists a.val l ∧ r = .num (l.length % 2 ^ 32)) ∧ a' = a
  | .keys, r, a' => (∃ l, Lists a.val l ∧ r = .keys l) ∧ a' = a
  | .keysAndValues, r, a' => (∃ l vs, Lists a.val l ∧ l.map a.val = vs.map some ∧ r = .kv l vs) ∧ a' = a
  | .at k, r, a' => (∃ v, a.val k = some v ∧ r = .val (some v)) ∧ a' = a
  | .setAt k v, r, a' => a.val k ≠ none ∧ r = .unit ∧ Upd a.val k (some v) a'.val ∧ a'.user = a.user
  | .insertUser u, r, a' => r = .unit ∧ a'.val = a.val ∧ a'.user = u
  | .getUser, r, a' => r = .user a.user ∧ a' = a
  | .flush, r, a' => r = .unit ∧ a' = a

/-- a run of the finite map; `stop` says that the program stops at the end of the list -/
def Specs : Abs K V → List (Op K V) → List (Res K V) → Abs K V → Prop
  | a, [], rs, a' => rs = [] ∧ a' = a
  | a, p :: ps, rs, a' => ∃ r rs' a1, rs = r :: rs' ∧ Spec a p r a1 ∧ Specs a1 ps rs' a'

/-- the keys an operation mentions -/
def Op.keysOf : Op K V → List K
  | .insert k _ | .get k | .erase k | .exist k | .at k | .setAt k _ => [k]
  | .insertMany l => l.map (·.1)
  | _ => []

/-- the operation is `operator[]` on key `k` -/
def Op.isAt (k : K) : Op K V → Prop
  | .at j => j = k
  | .setAt j _ => j = k
  | _ => False

/-! ## proofs -/

theorem bufBytes_eq {α : Type} {c : Codec α} {W : α → Prop} {enc : α → List Byte} (g : Good c W enc) (be : Bool) (x : α) (hx : W x) :
    bufBytes c be x = ok (enc x) := by
  unfold bufBytes
  rw [g.wr be x _ hx]
  simp only [ok_bind, Dev.put]
  congr 1
  by_cases h : enc x = []
  · simp [overwrite, h]
  · simp [overwrite, h]

theorem enc_inj {α : Type} {c : Codec α} {W : α → Prop} {enc : α → List Byte} (g : Good c W enc) {x y : α} (hx : W x) (hy : W y)
    (h : enc x = enc y) : x = y := by
  have h1 := g.rd true x ⟨enc x, 0, 0⟩ hx (List.prefix_rfl)
  have h2 := g.rd true y ⟨enc x, 0, 0⟩ hy (by rw [h]; exact List.prefix_rfl)
  rw [h1] at h2
  simp only [ok.injEq, Prod.mk.injEq] at h2
  exact h2.1

/-- entries belong to distinct keys; `find` is the lookup of a list with distinct keys -/
def Uniq {β : Type} (m : List (List Byte × β)) : Prop := (m.map (·.1)).Nodup

theorem find_some {β : Type} {m : List (List Byte × β)} {kb : List Byte} {x : β} (hu : Uniq m) : find m kb = some x ↔ (kb, x) ∈ m := by
  induction m with
  | nil => simp [find]
  | cons e t ih =>
    obtain ⟨kb', y⟩ := e
    have hu' := List.nodup_cons.1 hu
    by_cases h : kb' = kb
    · subst h
      have : find ((kb', y) :: t) kb' = some y := by simp [find]
      rw [this]
      constructor
      · intro h; simp only [Option.some.injEq] at h; subst h; simp
      · intro h
        rcases List.mem_cons.1 h with h | h
        · simp only [Prod.mk.injEq, true_and] at h; rw [h]
        · exact absurd (List.mem_map_of_mem h : (kb', x).1 ∈ _) hu'.1
    · have : find ((kb', y) :: t) kb = find t kb := by simp [find, h]
      rw [this, ih hu'.2, List.mem_cons]
      constructor
      · exact Or.inr
      · rintro (h' | h')
        · simp only [Prod.mk.injEq] at h'; exact absurd h'.1.symm h
        · exact h'

theorem find_none {β : Type} {m : List (List Byte × β)} {kb : List Byte} : find m kb = none ↔ ∀ e ∈ m, e.1 ≠ kb := by
  simp [find, List.find?_eq_none]

/-- the object represents the finite map -/
structure Rep (W : K → Prop) (enc : K → List Byte) (o : Mem K V) (a : Abs K V) : Prop where
  uniq : Uniq o.map
  key : ∀ e ∈ o.map, W e.2.1 ∧ e.1 = enc e.2.1
  val : ∀ k v, (enc k, (k, v)) ∈ o.map ↔ a.val k = some v
  user : o.user = a.user

section
variable {E : Env K V} {W : K → Prop} {enc : K → List Byte}

theorem Rep.find (g : Good E.kc W enc) {o : Mem K V} {a : Abs K V} (h : Rep W enc o a) {k : K} (hk : W k) :
    MapObj.find o.map (enc k) = (a.val k).map fun v => (k, v) := by
  cases hv : a.val k with
  | some v => rw [Option.map_some, find_some h.uniq]; exact (h.val k v).2 hv
  | none =>
    rw [Option.map_none, find_none]
    intro e he heq
    obtain ⟨hw, hke⟩ := h.key e he
    have : e.2.1 = k := enc_inj g hw hk (by rw [← hke, heq])
    have hmem : (enc k, (k, e.2.2)) ∈ o.map := by
      have : e = (enc k, (k, e.2.2)) := by rw [← this, ← hke]
      rw [← this]; exact he
    rw [(h.val k e.2.2).1 hmem] at hv
    exact absurd hv (by simp)

theorem assign_keys {β : Type} (m : List (List Byte × β)) (kb : List Byte) (x : β) : (assign m kb x).map (·.1) = m.map (·.1) := by
  rw [assign, List.map_map]
  apply List.map_congr_left
  intro e _
  simp only [Function.comp]
  split
  · rename_i h; exact h.symm
  · rfl

theorem mem_assign {β : Type} {m : List (List Byte × β)} {kb : List Byte} {x : β} {e : List Byte × β} :
    e ∈ assign m kb x ↔ (e = (kb, x) ∧ ∃ f ∈ m, f.1 = kb) ∨ (e ∈ m ∧ e.1 ≠ kb) := by
  rw [assign, List.mem_map]
  constructor
  · rintro ⟨f, hf, rfl⟩
    by_cases h : f.1 = kb
    · rw [if_pos h]; exact Or.inl ⟨rfl, f, hf, h⟩
    · rw [if_neg h]; exact Or.inr ⟨hf, h⟩
  · rintro (⟨rfl, f, hf, h⟩ | ⟨he, h⟩)
    · exact ⟨f, hf, by rw [if_pos h]⟩
    · exact ⟨e, he, by rw [if_neg h]⟩

/-- the update of a total function -/
noncomputable def upd (m : K → Option V) (k : K) (x : Option V) : K → Option V := fun j => by
  classical exact if j = k then x else m j

theorem upd_spec (m : K → Option V) (k : K) (x : Option V) : Upd m k x (upd m k x) := by
  refine ⟨by simp [upd], fun j hj => by simp [upd, hj]⟩

theorem Rep.assign (g : Good E.kc W enc) {o : Mem K V} {a : Abs K V} (h : Rep W enc o a) {k : K} (hk : W k) {v w : V}
    (hv : a.val k = some w) : Rep W enc { o with map := MapObj.assign o.map (enc k) (k, v) } { a with val := upd a.val k (some v) } := by
  have hold := (h.val k w).2 hv
  obtain ⟨h1, h2⟩ := upd_spec a.val k (some v)
  refine ⟨?_, ?_, ?_, h.user⟩
  · unfold Uniq; rw [assign_keys]; exact h.uniq
  · intro e he
    rcases mem_assign.1 he with ⟨rfl, -⟩ | ⟨he, -⟩
    · exact ⟨hk, rfl⟩
    · exact h.key e he
  · intro j y
    rw [mem_assign]
    simp only
    by_cases hj : j = k
    · subst hj
      rw [h1]
      simp only [Prod.mk.injEq, true_and, ne_eq, not_true, and_false, or_false, Option.some.injEq]
      constructor
      · rintro ⟨rfl, -⟩; rfl
      · rintro rfl; exact ⟨rfl, _, hold, rfl⟩
    · rw [h2 j hj, ← h.val j y]
      constructor
      · rintro (⟨h', -⟩ | ⟨h', -⟩)
        · simp only [Prod.mk.injEq] at h'; exact absurd h'.2.1 hj
        · exact h'
      · intro h'
        refine Or.inr ⟨h', fun heq => hj ?_⟩
        exact enc_inj g (h.key _ h').1 hk heq

theorem Rep.insertNew (g : Good E.kc W enc) {o : Mem K V} {a : Abs K V} (h : Rep W enc o a) {k : K} (hk : W k) {v : V}
    (hv : a.val k = none) : Rep W enc { o with map := MapObj.insertNew o.map (enc k) (k, v) } { a with val := upd a.val k (some v) } := by
  have hf := h.find g hk
  rw [hv, Option.map_none] at hf
  have hn := find_none.1 hf
  have e : MapObj.insertNew o.map (enc k) (k, v) = o.map ++ [(enc k, (k, v))] := by simp [MapObj.insertNew, hf]
  obtain ⟨h1, h2⟩ := upd_spec a.val k (some v)
  rw [e]
  refine ⟨?_, ?_, ?_, h.user⟩
  · unfold Uniq
    simp only [List.map_append, List.map_cons, List.map_nil]
    rw [List.nodup_append]
    refine ⟨h.uniq, by simp, ?_⟩
    intro x hx y hy
    obtain ⟨f, hf, rfl⟩ := List.mem_map.1 hx
    rw [List.mem_singleton] at hy
    subst hy
    exact hn f hf
  · intro f hf
    rcases List.mem_append.1 hf with hf | hf
    · exact h.key f hf
    · rw [List.mem_singleton] at hf; subst hf; exact ⟨hk, rfl⟩
  · intro j y
    simp only [List.mem_append, List.mem_singleton, Prod.mk.injEq]
    by_cases hj : j = k
    · subst hj
      rw [h1]
      constructor
      · rintro (h' | ⟨-, -, rfl⟩)
        · exact absurd rfl (hn _ h')
        · rfl
      · intro h'
        simp only [Option.some.injEq] at h'
        exact Or.inr ⟨rfl, rfl, h'.symm⟩
    · rw [h2 j hj, ← h.val j y]
      constructor
      · rintro (h' | ⟨-, h', -⟩)
        · exact h'
        · exact absurd h' hj
      · exact Or.inl

theorem Rep.insert (g : Good E.kc W enc) {o : Mem K V} {a : Abs K V} (h : Rep W enc o a) {k : K} (hk : W k) (v : V) :
    ∃ o', o.insert E k v = ok o' ∧ Rep W enc o' { a with val := upd a.val k (some v) } := by
  unfold Mem.insert
  rw [bufBytes_eq g E.be k hk, ok_bind, h.find g hk]
  cases hv : a.val k with
  | some w => exact ⟨_, rfl, h.assign g hk hv⟩
  | none => exact ⟨_, rfl, h.insertNew g hk hv⟩

theorem Rep.insertMany (g : Good E.kc W enc) (l : List (K × V)) {o : Mem K V} {a : Abs K V} (h : Rep W enc o a) (hk : ∀ p ∈ l, W p.1) :
    ∃ o' m', o.insertMany E l = ok o' ∧ Upds a.val l m' ∧ Rep W enc o' { a with val := m' } := by
  induction l generalizing o a with
  | nil => exact ⟨o, a.val, rfl, rfl, h⟩
  | cons p t ih =>
    obtain ⟨k, v⟩ := p
    obtain ⟨o1, h1, h2⟩ := h.insert g (hk (k, v) (by simp)) v
    obtain ⟨o2, m2, h3, h4, h5⟩ := ih h2 (fun p hp => hk p (by simp [hp]))
    exact ⟨o2, m2, by rw [Mem.insertMany, h1, ok_bind, h3], ⟨_, upd_spec _ _ _, h4⟩, h5⟩

theorem Rep.erase (g : Good E.kc W enc) {o : Mem K V} {a : Abs K V} (h : Rep W enc o a) {k : K} (hk : W k) :
    ∃ o', o.erase E k = ok o' ∧ Rep W enc o' { a with val := upd a.val k none } := by
  unfold Mem.erase
  rw [bufBytes_eq g E.be k hk, ok_bind, h.find g hk]
  obtain ⟨h1, h2⟩ := upd_spec a.val k none
  cases hv : a.val k with
  | none =>
    refine ⟨o, rfl, ?_⟩
    have : upd a.val k none = a.val := by
      funext j
      by_cases hj : j = k
      · subst hj; rw [h1, hv]
      · exact h2 j hj
    rw [this]; exact h
  | some w =>
    refine ⟨_, rfl, ?_, ?_, ?_, h.user⟩
    · exact h.uniq.sublist (List.Sublist.map _ List.filter_sublist)
    · intro e he; exact h.key e (List.mem_of_mem_filter he)
    · intro j y
      simp only [eraseKey, List.mem_filter, decide_eq_true_eq]
      by_cases hj : j = k
      · subst hj; rw [h1]; simp
      · rw [h2 j hj, ← h.val j y]
        constructor
        · exact fun h' => h'.1
        · exact fun h' => ⟨h', fun heq => hj (enc_inj g (h.key _ h').1 hk heq)⟩

theorem Rep.lists {o : Mem K V} {a : Abs K V} (h : Rep W enc o a) (it : List (List Byte × (K × V))) (hp : it.Perm o.map) :
    Lists a.val (it.map (·.2.1)) ∧ (it.map (·.2.1)).map a.val = (it.map (·.2.2)).map some := by
  have hu : Uniq it := (List.Perm.nodup_iff (List.Perm.map (fun e : List Byte × (K × V) => e.1) hp)).2 h.uniq
  have hkey : ∀ e ∈ it, e.1 = enc e.2.1 := fun e he => (h.key e (hp.mem_iff.1 he)).2
  refine ⟨⟨?_, ?_⟩, ?_⟩
  · have e : it.map (·.1) = (it.map (·.2.1)).map enc := by
      rw [List.map_map]; exact List.map_congr_left hkey
    have hu' : (it.map (·.1)).Nodup := hu
    rw [e] at hu'
    exact (List.pairwise_map.1 hu').imp fun hne heq => hne (congrArg enc heq)
  · intro k
    rw [List.mem_map]
    constructor
    · rintro ⟨e, he, rfl⟩
      have : e = (enc e.2.1, (e.2.1, e.2.2)) := by rw [← hkey e he]
      have hm := hp.mem_iff.1 he
      rw [this] at hm
      rw [(h.val _ _).1 hm]; rfl
    · intro hk
      obtain ⟨v, hv⟩ := Option.isSome_iff_exists.1 hk
      exact ⟨_, hp.mem_iff.2 ((h.val k v).2 hv), rfl⟩
  · rw [List.map_map, List.map_map]
    apply List.map_congr_left
    intro e he
    have : e = (enc e.2.1, (e.2.1, e.2.2)) := by rw [← hkey e he]
    have hm := hp.mem_iff.1 he
    rw [this] at hm
    exact (h.val _ _).1 hm

theorem Rep.step (g : Good E.kc W enc) (hit : ∀ l, (E.iter l).Perm l) {o : Mem K V} {a : Abs K V} (h : Rep W enc o a) (p : Op K V)
    (hk : ∀ k ∈ p.keysOf, W k) :
    (∃ r o' a', o.step E p = ok (r, o') ∧ Spec a p r a' ∧ Rep W enc o' a') ∨
      (o.step E p = abort ∧ ∃ k, p.isAt k ∧ a.val k = none) := by
  cases p with
  | insert k v =>
    obtain ⟨o', h1, h2⟩ := h.insert g (hk k (by simp [Op.keysOf])) v
    exact Or.inl ⟨.unit, o', { a with val := upd a.val k (some v) }, by simp only [Mem.step, h1, ok_bind], ⟨rfl, upd_spec _ _ _, rfl⟩, h2⟩
  | insertMany l =>
    obtain ⟨o', m', h1, h2, h3⟩ := h.insertMany g l (fun p hp => hk p.1 (by simpa [Op.keysOf] using ⟨p.2, hp⟩))
    exact Or.inl ⟨.unit, o', { a with val := m' }, by simp only [Mem.step, h1, ok_bind], ⟨rfl, h2, rfl⟩, h3⟩
  | get k =>
    refine Or.inl ⟨.val (a.val k), o, a, ?_, ⟨rfl, rfl⟩, h⟩
    have : o.get E k = ok (a.val k) := by
      unfold Mem.get
      rw [bufBytes_eq g E.be k (hk k (by simp [Op.keysOf])), ok_bind, h.find g (hk k (by simp [Op.keysOf])), Option.map_map]
      congr 1
      cases a.val k <;> rfl
    simp only [Mem.step, this, ok_bind]
  | erase k =>
    obtain ⟨o', h1, h2⟩ := h.erase g (hk k (by simp [Op.keysOf]))
    exact Or.inl ⟨.unit, o', { a with val := upd a.val k none }, by simp only [Mem.step, h1, ok_bind], ⟨rfl, upd_spec _ _ _, rfl⟩, h2⟩
  | clear =>
    refine Or.inl ⟨_, _, { a with val := fun _ => none }, rfl, ⟨rfl, fun _ => rfl, rfl⟩, ?_⟩
    exact ⟨by simp [Uniq, Mem.clear], by simp [Mem.clear], by simp [Mem.clear], h.user⟩
  | exist k =>
    refine Or.inl ⟨.bool (a.val k).isSome, o, a, ?_, ⟨rfl, rfl⟩, h⟩
    have : o.exist E k = ok (a.val k).isSome := by
      unfold Mem.exist
      rw [bufBytes_eq g E.be k (hk k (by simp [Op.keysOf])), ok_bind, h.find g (hk k (by simp [Op.keysOf])), Option.isSome_map]
    simp only [Mem.step, this, ok_bind]
  | size =>
    have := h.lists o.map (List.Perm.refl _)
    exact Or.inl ⟨_, o, a, rfl, ⟨⟨_, this.1, by rw [List.length_map]; rfl⟩, rfl⟩, h⟩
  | keys =>
    have := h.lists _ (hit o.map)
    exact Or.inl ⟨_, o, a, rfl, ⟨⟨_, this.1, rfl⟩, rfl⟩, h⟩
  | keysAndValues =>
    have := h.lists _ (hit o.map)
    exact Or.inl ⟨_, o, a, rfl, ⟨⟨_, _, this.1, this.2, rfl⟩, rfl⟩, h⟩
  | «at» k =>
    have hw := hk k (by simp [Op.keysOf])
    have hs : o.at E k = match a.val k with | some v => ok v | none => abort := by
      unfold Mem.at
      rw [bufBytes_eq g E.be k hw, ok_bind, h.find g hw]
      cases a.val k <;> rfl
    cases hv : a.val k with
    | some v =>
      rw [hv] at hs
      exact Or.inl ⟨_, o, a, by simp only [Mem.step, hs, ok_bind], ⟨⟨v, hv, rfl⟩, rfl⟩, h⟩
    | none =>
      rw [hv] at hs
      exact Or.inr ⟨by simp only [Mem.step, hs, abort_bind], k, rfl, hv⟩
  | setAt k v =>
    have hw := hk k (by simp [Op.keysOf])
    cases hv : a.val k with
    | some w =>
      refine Or.inl ⟨.unit, { o with map := MapObj.assign o.map (enc k) (k, v) }, { a with val := upd a.val k (some v) }, ?_,
        ⟨by simp [hv], rfl, upd_spec _ _ _, rfl⟩, h.assign g hw hv⟩
      simp only [Mem.step, Mem.setAt, bufBytes_eq g E.be k hw, ok_bind, h.find g hw, hv, Option.map_some]
    | none =>
      refine Or.inr ⟨?_, k, rfl, hv⟩
      simp only [Mem.step, Mem.setAt, bufBytes_eq g E.be k hw, ok_bind, h.find g hw, hv, Option.map_none, abort_bind]
  | insertUser u =>
    exact Or.inl ⟨_, _, { a with user := u }, rfl, ⟨rfl, rfl, rfl⟩, ⟨h.uniq, h.key, h.val, rfl⟩⟩
  | getUser => exact Or.inl ⟨_, o, a, by rw [Mem.step, h.user], ⟨rfl, rfl⟩, h⟩
  | flush => exact Or.inl ⟨_, o, a, rfl, ⟨rfl, rfl⟩, h⟩

end

/-- the empty finite map -/
def Abs.empty : Abs K V := ⟨fun _ => none, []⟩

/-- C31. A `MapObjectMemory` with any key type whose binary writer and reader are right (C24), on any host, with any order of
iteration, answers every sequence of calls on every state reached as a finite map does: either all calls return and the answers are
those of a finite map, or the program stops at a call of `operator[]` on a key the finite map does not contain, after answering all
calls before as a finite map. -/
theorem C31 (E : Env K V) (W : K → Prop) (enc : K → List Byte) (g : Good E.kc W enc) (hit : ∀ l, (E.iter l).Perm l)
    (ps : List (Op K V)) (hk : ∀ p ∈ ps, ∀ k ∈ p.keysOf, W k) :
    (∃ rs o' a', Mem.empty.run E ps = ok (rs, o') ∧ Specs Abs.empty ps rs a') ∨
    (Mem.empty.run E ps = abort ∧ ∃ ps1 p ps2 rs o' a', ps = ps1 ++ p :: ps2 ∧ Mem.empty.run E ps1 = ok (rs, o') ∧
      Specs Abs.empty ps1 rs a' ∧ ∃ k, p.isAt k ∧ a'.val k = none) := by
  have main : ∀ (ps : List (Op K V)) (o : Mem K V) (a : Abs K V), Rep W enc o a → (∀ p ∈ ps, ∀ k ∈ p.keysOf, W k) →
      (∃ rs o' a', o.run E ps = ok (rs, o') ∧ Specs a ps rs a') ∨
      (o.run E ps = abort ∧ ∃ ps1 p ps2 rs o' a', ps = ps1 ++ p :: ps2 ∧ o.run E ps1 = ok (rs, o') ∧ Specs a ps1 rs a' ∧
        ∃ k, p.isAt k ∧ a'.val k = none) := by
    intro ps
    induction ps with
    | nil => intro o a _ _; exact Or.inl ⟨[], o, a, rfl, rfl, rfl⟩
    | cons p ps ih =>
      intro o a h hk
      rcases h.step g hit p (hk p (by simp)) with ⟨r, o1, a1, h1, h2, h3⟩ | ⟨h1, h2⟩
      · rcases ih o1 a1 h3 (fun q hq => hk q (by simp [hq])) with ⟨rs, o', a', h4, h5⟩ | ⟨h4, ps1, q, ps2, rs, o', a', rfl, h6, h7, h8⟩
        · exact Or.inl ⟨r :: rs, o', a', by simp only [Mem.run, h1, ok_bind, h4], r, rs, a1, rfl, h2, h5⟩
        · refine Or.inr ⟨by simp only [Mem.run, h1, ok_bind, h4, abort_bind], p :: ps1, q, ps2, r :: rs, o', a', rfl, ?_, ?_, h8⟩
          · simp only [Mem.run, h1, ok_bind, h6]
          · exact ⟨r, rs, a1, rfl, h2, h7⟩
      · exact Or.inr ⟨by simp only [Mem.run, h1, abort_bind], [], p, ps, [], o, a, rfl, rfl, ⟨rfl, rfl⟩, h2⟩
  exact main ps Mem.empty Abs.empty ⟨by simp [Uniq, Mem.empty], by simp [Mem.empty], by simp [Mem.empty, Abs.empty], rfl⟩ hk

/-- a small program on integer keys: insert, overwrite, look up, erase -/
example : ∃ rs o', Mem.empty.run (V := Nat) ⟨false, List.reverse, int⟩
      [.insert 7 1, .insert 9 2, .insert 7 3, .get 7, .keys, .erase 9, .get 9, .size] = ok (rs, o') ∧
    rs = [.unit, .unit, .unit, .val (some 3), .keys [9, 7], .unit, .val none, .num 1] := by
  refine ⟨_, _, rfl, ?_⟩
  decide +kernel

example : ∃ W enc, Good int W enc ∧ ∀ k ∈ [(7 : Int), 9], W k := ⟨_, _, int_good, by decide⟩

end Verif.MapObj
