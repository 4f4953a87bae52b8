import Verif.Basic
import Mathlib.Data.List.Infix
/-
Property C79: groups in HDF5 files, lib/qdp_hdf5.cc:77-124, 128-154, 198-250, 1597-1665.

What is taken of HDF5: a file is a tree of groups and data sets, given here by what is at each path; names of links are not empty and have no `/`; `.` is the group itself
and names no link; there are hard links only, so that no link is dangling; `H5Gopen` finds groups by paths, with any number of slashes between the names, and
`H5Iget_name` gives the path of a group with single slashes; the number given to a group that is opened is none of the numbers in use.  Strings are lists of characters.
-/
namespace Verif.Hdf5Path
open Verif Outcome

abbrev Str := List Char

/-! ## HDF5 -/

/-- what is at a path -/
inductive Ent (α : Type) | group | data (a : α)

abbrev Fs (α : Type) := List Str → Option (Ent α)

/-- names of links -/
def Valid (t : Str) : Prop := t ≠ [] ∧ '/' ∉ t ∧ t ≠ ['.']

/-- a tree -/
structure Fs.Good {α : Type} (f : Fs α) : Prop where
  root : f [] = some .group
  tree : ∀ p t, f (p ++ [t]) ≠ none → f p = some .group
  name : ∀ p t, f (p ++ [t]) ≠ none → Valid t

/-- the name of a path, `H5Iget_name` -/
def render (p : List Str) : Str := if p = [] then ['/'] else p.flatMap fun t => '/' :: t

/-- the names in a path -/
def comps (s : Str) : List Str := ((s.splitOn '/').filter (· ≠ [])).filter (· ≠ ['.'])

/-- where a path leads, from the group `base` -/
def resolve (base : List Str) (s : Str) : List Str := (if s.head? = some '/' then [] else base) ++ comps s

/-- an opened group -/
structure Handle where
  id : Nat
  path : List Str

/-- the state of the file and of the object: `current_group` and the numbers in use -/
structure St (α : Type) where
  fs : Fs α
  cur : Handle
  ids : List Nat

/-- `H5Gopen` -/
def gopen {α : Type} (new : List Nat → Nat) (st : St α) (base : List Str) (s : Str) : Option (Handle × St α) :=
  if s = [] then none
  else match st.fs (resolve base s) with
    | some .group => some (⟨new st.ids, resolve base s⟩, { st with ids := new st.ids :: st.ids })
    | _ => none

/-! ## model -/

/-- the loop of `tokenize`, lib/qdp_hdf5.cc:103-110; a position is given by the rest of the string from there, `npos` by the empty rest -/
def tokLoop (s : Str) : List Str :=
  match s with
  | [] => []
  | c :: cs => (c :: cs).takeWhile (· != '/') :: tokLoop ((((c :: cs).dropWhile (· != '/')).dropWhile (· == '/')))
termination_by s.length
decreasing_by
  by_cases h : c = '/'
  · subst h
    simp only [List.dropWhile_cons, bne_self_eq_false, Bool.false_eq_true, if_false, beq_self_eq_true, if_true, List.length_cons]
    have := (List.dropWhile_sublist (· == '/') (l := cs)).length_le
    omega
  · rw [List.dropWhile_cons_of_pos (by simpa using h)]
    have := (List.dropWhile_sublist (· == '/') (l := cs.dropWhile (· != '/'))).length_le
    have := (List.dropWhile_sublist (· != '/') (l := cs)).length_le
    simp only [List.length_cons]
    omega

/-- `tokenize` with the delimiter `/`, lib/qdp_hdf5.cc:97-111 -/
def tokenize (s : Str) : List Str := tokLoop (s.dropWhile (· == '/'))

/-- `splitPathname`, lib/qdp_hdf5.cc:113-125: erasing an element and going on with the old iterator is undefined -/
def splitPathname (s : Str) : Outcome (List Str) := if [] ∈ tokenize s then ub else ok (tokenize s)

/-- the loop of `objectExists`, lib/qdp_hdf5.cc:142-152 -/
def existsLoop {α : Type} (f : Fs α) : List Str → List Str → Bool
  | _, [] => true
  | p, t :: ts => if (f (p ++ [t])).isSome then existsLoop f (p ++ [t]) ts else false

/-- `objectExists`, lib/qdp_hdf5.cc:132-154 -/
def objectExists {α : Type} (st : St α) (name : Str) : Outcome Bool := do
  let dirlist ← splitPathname name
  let start := if name.head? = some '/' then [] else st.cur.path
  let t ← rd dirlist 0
  if (st.fs (start ++ [t])).isSome then ok (existsLoop st.fs (start ++ [t]) dirlist.tail) else ok false

/-- `pwd`, lib/qdp_hdf5.cc:77-79 -/
def pwd {α : Type} (st : St α) : Str := render st.cur.path

/-- `parentDir`, lib/qdp_hdf5.cc:81-86; there is a slash in the name -/
def parentDir {α : Type} (st : St α) : Str :=
  let pos := (pwd st).length - 1 - ((pwd st).reverse.takeWhile (· != '/')).length
  if pos = 0 then ['/'] else (pwd st).take pos

/-- `pop`, lib/qdp_hdf5.cc:198-213 -/
def pop {α : Type} (new : List Nat → Nat) (st : St α) : Outcome (St α) :=
  if pwd st = ['/'] then ok st
  else match gopen new { st with ids := st.ids.erase st.cur.id } [] (parentDir st) with
    | some (h, st') => ok { st' with cur := h }
    | none => ub

/-- `while(pwd().compare("/")!=0) pop();`, lib/qdp_hdf5.cc:236-238; `none`: not finished after `k` steps -/
def popAll {α : Type} (new : List Nat → Nat) : Nat → St α → Option (Outcome (St α))
  | 0, _ => none
  | k + 1, st => if pwd st = ['/'] then some (ok st) else
    match pop new st with
    | ok st' => popAll new k st'
    | abort => some abort
    | ub => some ub

/-- `while(current_group!=tmp_group) pop();`, lib/qdp_hdf5.cc:242-244 -/
def popUntil {α : Type} (new : List Nat → Nat) (id : Nat) : Nat → St α → Option (Outcome (St α))
  | 0, _ => none
  | k + 1, st => if st.cur.id = id then some (ok st) else
    match pop new st with
    | ok st' => popUntil new id k st'
    | abort => some abort
    | ub => some ub

/-- `current_group=tmp_group;`, lib/qdp_hdf5.cc:246 -/
def setCur {α : Type} (h : Handle) : Option (Outcome (St α)) → Option (Outcome (St α))
  | some (ok st) => some (ok { st with cur := h })
  | o => o

/-- `cd`, lib/qdp_hdf5.cc:215-250, with at most `k` steps of the loops -/
def cd {α : Type} (new : List Nat → Nat) (k : Nat) (st : St α) (dir : Str) : Option (Outcome (St α)) :=
  if dir = ['.', '.'] then some (pop new st)
  else if dir = pwd st then some (ok st)
  else match gopen new st st.cur.path dir with
    | none => some (ok st)
    | some (h, st') =>
      if ¬ pwd st <:+: render h.path ∨ render h.path = ['/'] then setCur h (popAll new k st')
      else if render h.path <+: pwd st then setCur h (popUntil new h.id k st')
      else some (ok { st' with cur := h })

/-- the loop of `push`, lib/qdp_hdf5.cc:1619-1661; `H5Gcreate` of a name that is no name of a link fails -/
def pushLoop {α : Type} (new : List Nat → Nat) : St α → List Str → Outcome (St α)
  | st, [] => ok st
  | st, t :: ts =>
    match st.fs (st.cur.path ++ [t]) with
    | none =>
      if t = ['.'] then abort
      else pushLoop new ⟨fun p => if p = st.cur.path ++ [t] then some .group else st.fs p, ⟨new st.ids, st.cur.path ++ [t]⟩, new st.ids :: st.ids⟩ ts
    | some .group => pushLoop new ⟨st.fs, ⟨new st.ids, st.cur.path ++ [t]⟩, new st.ids :: st.ids⟩ ts
    | some (.data _) => ok st

/-- `push`, lib/qdp_hdf5.cc:1606-1665 -/
def push {α : Type} (new : List Nat → Nat) (k : Nat) (st : St α) (name : Str) : Option (Outcome (St α)) :=
  match splitPathname name with
  | ok dirlist =>
    if name.head? = some '/' then
      match cd new k st ['/'] with
      | some (ok st') => some (pushLoop new st' dirlist)
      | o => o
    else some (pushLoop new st dirlist)
  | abort => some abort
  | ub => some ub

/-- `mkdir`, lib/qdp_hdf5.cc:1597-1603 -/
def mkdir {α : Type} (new : List Nat → Nat) (k : Nat) (st : St α) (name : Str) : Option (Outcome (St α)) :=
  if name = [] ∨ name = ['/'] then some (ok st)
  else match push new k st name with
    | some (ok st') => cd new k st' (pwd st)
    | o => o

end Verif.Hdf5Path
