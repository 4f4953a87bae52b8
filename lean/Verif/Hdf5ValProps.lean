import Verif.Hdf5Val
/-
Property C80, proofs.
-/
namespace Verif.Hdf5Val
open Verif Outcome ByteOrder Verif.BinIO Verif.QioField Verif.Hdf5 Verif.Hdf5Path Verif.Subset

/-! ## specification -/

/-- the words of an element -/
structure IsElem (T : HTy) (x : List (List Byte)) : Prop where
  len : x.length = T.n
  size : ∀ w ∈ x, w.length = T.wsize

/-- a name of an object below the root, without `.` -/
structure Named (name : Str) : Prop where
  ne : words name ≠ []
  dot : ['.'] ∉ words name

/-- the name may be written -/
def Free (f : File) (name : Str) (trunc : Bool) : Prop :=
  f.st.fs (f.path name) = none ∨ (trunc = true ∧ ∃ v, f.st.fs (f.path name) = some (.data v))

/-- there is a group for it -/
def InGroup (f : File) (name : Str) : Prop := f.st.fs (f.path name).dropLast = some .group

/-- the data set is in the file and nothing else has changed -/
structure Put (f : File) (p : List Str) (v : Val) (f' : File) : Prop where
  data : f'.st.fs p = some (.data v)
  fs : ∀ q, q ≠ p → f'.st.fs q = f.st.fs q
  att : ∀ q, q ≠ p → f'.att q = f.att q
  old : f.st.fs p ≠ none → ∀ a, f'.att p a = none
  new : f.st.fs p = none → f'.att p = f.att p
  cur : f'.st.cur = f.st.cur ∧ f'.st.ids = f.st.ids

/-! ## names -/

theorem path_eq {name : Str} (h : Named name) (f : File) : f.path name = start f.st.cur.path name ++ words name := by
  have : comps name = words name := by
    rw [comps_eq, List.filter_eq_self]
    intro t ht
    simpa using fun e => h.dot (by rw [← e]; exact ht)
  rw [File.path, resolve, this, start]

theorem path_ne {name : Str} (h : Named name) (f : File) : f.path name ≠ [] := by
  rw [path_eq h]
  simp [h.ne]

theorem exists_eq {f : File} (hf : Inv f.st) {name : Str} (h : Named name) : objectExists f.st name = ok (f.st.fs (f.path name)).isSome := by
  rw [C79_exists_partial hf h.ne, path_eq h]

theorem clear_free {f : File} (hf : Inv f.st) {name : Str} (h : Named name) {trunc : Bool} (hr : Free f name trunc) :
    clear f name trunc = ok (some (if f.st.fs (f.path name) = none then f else remove f name)) := by
  rw [clear, exists_eq hf h, ok_bind]
  rcases hr with hr | ⟨rfl, v, hr⟩
  · simp [hr]
  · simp [hr]

theorem clear_not {f : File} (hf : Inv f.st) {name : Str} (h : Named name) {trunc : Bool} (hr : ¬ Free f name trunc) : clear f name trunc = ok none := by
  rw [clear, exists_eq hf h, ok_bind]
  rw [Free] at hr
  rcases e : f.st.fs (f.path name) with _ | _ | v
  · simp [e] at hr
  · cases trunc <;> simp
  · cases trunc
    · simp
    · simp [e] at hr

theorem create_ok {f : File} {name : Str} (h : Named name) (hg : InGroup f name) (v : Val) :
    ∃ f', create (if f.st.fs (f.path name) = none then f else remove f name) name v = some f' ∧ Put f (f.path name) v f' := by
  have hne := path_ne h f
  have hd : (f.path name).dropLast ≠ f.path name := fun e => by
    have := congrArg List.length e
    have := List.length_pos_iff.2 hne
    simp at *
    omega
  by_cases e : f.st.fs (f.path name) = none
  · rw [if_pos e]
    refine ⟨⟨{ f.st with fs := fun p => if p = f.path name then some (.data v) else f.st.fs p }, f.att⟩, ?_, ?_⟩
    · rw [create, if_neg hne, hg, e]
    · exact ⟨by simp, fun q hq => by simp [hq], fun q hq => rfl, fun h => absurd e h, fun _ => rfl, rfl, rfl⟩
  · rw [if_neg e]
    have hp : (remove f name).path name = f.path name := rfl
    refine ⟨⟨{ (remove f name).st with fs := fun p => if p = f.path name then some (.data v) else (remove f name).st.fs p }, (remove f name).att⟩, ?_, ?_⟩
    · rw [create, hp, if_neg hne]
      have h1 : (remove f name).st.fs (f.path name).dropLast = some .group := by
        show (if (f.path name).dropLast = f.path name then none else _) = _
        rw [if_neg hd]
        exact hg
      have h2 : (remove f name).st.fs (f.path name) = none := by
        show (if f.path name = f.path name then none else _) = _
        rw [if_pos rfl]
      rw [h1, h2]
    · refine ⟨by simp, fun q hq => ?_, fun q hq => ?_, fun _ a => ?_, fun h => absurd h e, rfl, rfl⟩
      · simp [hq, remove]
      · funext a
        simp [remove, hq]
      · simp [remove]

theorem create_lost {f : File} {name : Str} (hg : ¬ InGroup f name) (v : Val) : create f name v = none := by
  rw [create]
  by_cases h0 : f.path name = []
  · rw [if_pos h0]
  · rw [if_neg h0]
    rw [InGroup] at hg
    rcases e : f.st.fs (f.path name).dropLast with _ | _ | a
    · rfl
    · exact absurd e hg
    · rfl

theorem path_snoc {f : File} {name : Str} (h : Named name) : ∃ q t, f.path name = q ++ [t] ∧ t ∈ words name := by
  refine ⟨start f.st.cur.path name ++ (words name).dropLast, (words name).getLast h.ne, ?_, List.getLast_mem h.ne⟩
  rw [path_eq h, List.append_assoc, List.dropLast_append_getLast h.ne]

/-- without a group there is nothing at the name -/
theorem none_of_lost {f : File} (hf : Inv f.st) {name : Str} (h : Named name) (hg : ¬ InGroup f name) : f.st.fs (f.path name) = none := by
  obtain ⟨q, t, e, -⟩ := path_snoc (f := f) h
  by_contra hc
  refine hg ?_
  rw [InGroup, e, List.dropLast_concat]
  rw [e] at hc
  exact hf.good.tree q t hc

/-- the file is still a tree -/
theorem Put.inv {f f' : File} (hf : Inv f.st) {name : Str} (h : Named name) (hg : InGroup f name) (hfree : ∀ q, f.st.fs (f.path name ++ q) ≠ some .group) {v : Val}
    (hp : Put f (f.path name) v f') : Inv f'.st := by
  obtain ⟨q, t, e, ht⟩ := path_snoc (f := f) h
  have hq : f.st.fs q = some .group := by rw [InGroup, e, List.dropLast_concat] at hg; exact hg
  have hv : Valid t := ⟨(words_valid ht).1, (words_valid ht).2, fun e => h.dot (e ▸ ht)⟩
  have group : ∀ r, f.st.fs r = some .group → f'.st.fs r = some .group := fun r hr => by
    rw [hp.fs r, hr]
    rintro rfl
    exact hfree [] (by rw [List.append_nil]; exact hr)
  refine ⟨⟨group _ hf.good.root, fun r u hr => ?_, fun r u hr => ?_⟩, ?_, ?_⟩
  · by_cases hru : r ++ [u] = f.path name
    · rw [e] at hru
      rw [(List.append_inj' hru rfl).1]
      exact group q hq
    · rw [hp.fs _ hru] at hr
      exact group r (hf.good.tree r u hr)
  · by_cases hru : r ++ [u] = f.path name
    · rw [e] at hru
      have := (List.append_inj' hru rfl).2
      simp only [List.cons.injEq, and_true] at this
      rw [this]
      exact hv
    · rw [hp.fs _ hru] at hr
      exact hf.good.name r u hr
  · rw [hp.cur.1]
    exact group _ hf.cur
  · rw [hp.cur.1, hp.cur.2]
    exact hf.id

/-- what may be written is no group -/
theorem Free.not_group {f : File} (hf : Inv f.st) {name : Str} {trunc : Bool} (hr : Free f name trunc) (q : List Str) : f.st.fs (f.path name ++ q) ≠ some .group := by
  rcases hr with hr | ⟨-, v, hr⟩
  · rw [hf.good.gone hr]
    simp
  · by_cases h0 : q = []
    · subst h0
      rw [List.append_nil, hr]
      simp
    · rw [hf.good.leaf hr h0]
      simp

/-! ## elements -/

theorem toFile_mem {be : Bool} {T : HTy} {x : List (List Byte)} (h : IsElem T x) : toFile be T (mem be x) = x := by
  rw [toFile, ← h.len, split_mem x h.size, List.map_map]
  have : host be ∘ host be = id := by funext v; exact host_host be v
  rw [this, List.map_id]

theorem mem_flat (be : Bool) (xs : List (List (List Byte))) : mem be xs.flatten = (xs.map (mem be)).flatten := by
  induction xs with
  | nil => rfl
  | cons x xs ih => rw [List.flatten_cons, List.map_cons, List.flatten_cons, ← ih]; simp [mem]

theorem mem_size {be : Bool} {T : HTy} {x : List (List Byte)} (h : IsElem T x) : (mem be x).length = T.size := by
  rw [mem_length be x h.size, h.len, HTy.size]

theorem flatMap_toFile {be : Bool} {T : HTy} {xs : List (List (List Byte))} (h : ∀ x ∈ xs, IsElem T x) : (xs.map (mem be)).flatMap (toFile be T) = xs.flatten := by
  rw [List.flatMap_map]
  induction xs with
  | nil => rfl
  | cons x xs ih =>
    rw [List.flatMap_cons, List.flatten_cons, toFile_mem (h x (by simp)), ih fun y hy => h y (by simp [hy])]

theorem elems_eq {be : Bool} {T : HTy} {xs : List (List (List Byte))} (h : ∀ x ∈ xs, IsElem T x) {v : Val} (hd : v.data = xs.flatten) (hn : v.points = xs.length) :
    elems be T v = xs.map (mem be) := by
  rw [elems, all, hd, mem_flat, hn]
  have := split_flat (k := T.size) (xs.map (mem be)) (by
    intro w hw
    obtain ⟨x, hx, rfl⟩ := List.mem_map.1 hw
    exact mem_size (h x hx))
  rwa [List.length_map] at this

/-! ## writing -/

/-- **C80**, a number or complex number: the data set is made and nothing else is changed.  Missing from the claim: names in groups that do not exist; see `C80_lost`. -/
theorem C80_write_partial (be : Bool) {T : HTy} {f : File} (hf : Inv f.st) {name : Str} (h : Named name) {trunc : Bool} (hr : Free f name trunc) (hg : InGroup f name)
    {x : List (List Byte)} (hx : IsElem T x) :
    ∃ f', wt be T f name (mem be x) trunc = ok f' ∧ Put f (f.path name) ⟨T, [], x⟩ f' ∧ Inv f'.st := by
  obtain ⟨f', h1, h2⟩ := create_ok h hg ⟨T, [], x⟩
  refine ⟨f', ?_, h2, h2.inv hf h hg (hr.not_group hf)⟩
  rw [wt, clear_free hf h hr, ok_bind]
  simp only
  rw [toFile_mem hx, h1]
  rfl

/-- **C80**, an array -/
theorem C80_write_array (be : Bool) {T : HTy} {f : File} (hf : Inv f.st) {name : Str} (h : Named name) {trunc : Bool} (hr : Free f name trunc) (hg : InGroup f name)
    {xs : List (List (List Byte))} (hx : ∀ x ∈ xs, IsElem T x) :
    ∃ f', wt1 be T f name (xs.map (mem be)) trunc = ok f' ∧ Put f (f.path name) ⟨T, [xs.length], xs.flatten⟩ f' ∧ Inv f'.st := by
  obtain ⟨f', h1, h2⟩ := create_ok h hg ⟨T, [xs.length], xs.flatten⟩
  refine ⟨f', ?_, h2, h2.inv hf h hg (hr.not_group hf)⟩
  rw [wt1, clear_free hf h hr, ok_bind]
  simp only
  rw [flatMap_toFile hx, List.length_map, h1]
  rfl

theorem mapO_range {β : Type} {f : Nat → Outcome β} {g : Nat → β} : ∀ {l : List Nat}, (∀ i ∈ l, f i = ok (g i)) → mapO f l = ok (l.map g)
  | [], _ => rfl
  | i :: l, h => by
    rw [mapO, h i (by simp), ok_bind, mapO_range (f := f) (g := g) fun j hj => h j (by simp [hj]), ok_bind]
    rfl

theorem rows_eq {n2 n1 : Nat} {l : List (List Byte)} (hl : l.length = n2 * n1) : rows n2 n1 (fun i j => rd l (j + n1 * i)) = ok l := by
  have hlt : ∀ i ∈ List.range n2, ∀ j ∈ List.range n1, j + n1 * i < l.length := fun i hi j hj => by
    rw [List.mem_range] at hi hj
    have : n1 * (i + 1) ≤ n1 * n2 := Nat.mul_le_mul_left _ hi
    rw [Nat.mul_add, Nat.mul_one] at this
    rw [hl, Nat.mul_comm n2 n1]
    omega
  have h1 : ∀ i ∈ List.range n2, mapO (fun j => rd l (j + n1 * i)) (List.range n1) = ok ((List.range n1).map fun j => l[j + n1 * i]?.getD []) := fun i hi =>
    mapO_range fun j hj => by
      rw [rd_of_lt (hlt i hi j hj)]
      simp [hlt i hi j hj]
  rw [rows, mapO_range h1, ok_bind]
  congr 1
  clear h1 hlt
  induction n2 generalizing l with
  | zero => simp at hl; simp [hl]
  | succ n2 ih =>
    have e := ih (l := l.take (n2 * n1)) (by rw [List.length_take, hl]; exact Nat.min_eq_left (Nat.mul_le_mul_right _ (Nat.le_succ _)))
    rw [List.range_succ, List.map_append, List.flatten_append]
    have e1 : (List.map (fun i => List.map (fun j => l[j + n1 * i]?.getD []) (List.range n1)) (List.range n2)) =
        (List.map (fun i => List.map (fun j => (l.take (n2 * n1))[j + n1 * i]?.getD []) (List.range n1)) (List.range n2)) := by
      refine List.map_congr_left fun i hi => List.map_congr_left fun j hj => ?_
      rw [List.mem_range] at hi hj
      have : n1 * (i + 1) ≤ n1 * n2 := Nat.mul_le_mul_left _ hi
      rw [Nat.mul_add, Nat.mul_one] at this
      rw [List.getElem?_take_of_lt (by rw [Nat.mul_comm n2 n1]; omega)]
    rw [e1, e]
    simp only [List.map_cons, List.map_nil, List.flatten_cons, List.flatten_nil, List.append_nil]
    have e2 : (List.range n1).map (fun j => l[j + n1 * n2]?.getD []) = l.drop (n2 * n1) := by
      apply List.ext_getElem
      · rw [List.length_map, List.length_range, List.length_drop, hl, Nat.succ_mul]
        omega
      · intro i h1 h2
        have hi : i < n1 := by simpa using h1
        have : i + n1 * n2 < l.length := by rw [hl, Nat.succ_mul, Nat.mul_comm n2 n1]; omega
        simp only [List.getElem_map, List.getElem_range, List.getElem_drop]
        rw [List.getElem?_eq_getElem this, Option.getD_some]
        congr 1
        rw [Nat.mul_comm n1 n2]
        omega
    rw [e2, List.take_append_drop]

/-- **C80**, a matrix -/
theorem C80_write_matrix (be : Bool) {T : HTy} {f : File} (hf : Inv f.st) {name : Str} (h : Named name) {trunc : Bool} (hr : Free f name trunc) (hg : InGroup f name)
    {n2 n1 : Nat} {xs : List (List (List Byte))} (hn : xs.length = n2 * n1) (hx : ∀ x ∈ xs, IsElem T x) :
    ∃ f', wt2 be T f name ⟨n2, n1, xs.map (mem be)⟩ trunc = ok f' ∧ Put f (f.path name) ⟨T, [n2, n1], xs.flatten⟩ f' ∧ Inv f'.st := by
  obtain ⟨f', h1, h2⟩ := create_ok h hg ⟨T, [n2, n1], xs.flatten⟩
  refine ⟨f', ?_, h2, h2.inv hf h hg (hr.not_group hf)⟩
  rw [wt2, clear_free hf h hr, ok_bind]
  simp only
  have := rows_eq (n2 := n2) (n1 := n1) (l := xs.map (mem be)) (by rw [List.length_map, hn])
  rw [show rows n2 n1 (M2.at ⟨n2, n1, xs.map (mem be)⟩) = ok (xs.map (mem be)) from this, ok_bind, flatMap_toFile hx, h1]
  rfl

/-- **C80**, a string -/
theorem C80_write_string_partial {f : File} (hf : Inv f.st) {name : Str} (h : Named name) {trunc : Bool} (hr : Free f name trunc) (hg : InGroup f name) (s : List Byte) :
    ∃ f', wtStr f name s trunc = ok f' ∧ Put f (f.path name) ⟨.str (s.length + 1), [], (s ++ [0]).map fun b => [b]⟩ f' ∧ Inv f'.st := by
  obtain ⟨f', h1, h2⟩ := create_ok h hg ⟨.str (s.length + 1), [], (s ++ [0]).map fun b => [b]⟩
  refine ⟨f', ?_, h2, h2.inv hf h hg (hr.not_group hf)⟩
  rw [wtStr, clear_free hf h hr, ok_bind]
  simp only
  rw [h1]
  rfl

/-- **C80**: a data set is only replaced in the mode `trunc`, a group never. -/
theorem C80_refused (be : Bool) (T : HTy) {f : File} (hf : Inv f.st) {name : Str} (h : Named name) {trunc : Bool} (hr : ¬ Free f name trunc) (x : List Byte) (xs : List (List Byte))
    (m : M2) : wt be T f name x trunc = abort ∧ wt1 be T f name xs trunc = abort ∧ wt2 be T f name m trunc = abort := by
  rw [wt, wt1, wt2, clear_not hf h hr]
  exact ⟨rfl, rfl, rfl⟩

/-- **C80** fails: a string that cannot be written is no error. -/
theorem C80_string_ignored {f : File} (hf : Inv f.st) {name : Str} (h : Named name) {trunc : Bool} (hr : ¬ Free f name trunc) (s : List Byte) : wtStr f name s trunc = ok f := by
  rw [wtStr, clear_not hf h hr]
  rfl

/-- **C80** fails: a number, complex number or string with a name in a group that does not exist is lost without an error; arrays are refused. -/
theorem C80_lost (be : Bool) (T : HTy) {f : File} (hf : Inv f.st) {name : Str} (h : Named name) (trunc : Bool) (hg : ¬ InGroup f name) (x s : List Byte) (xs : List (List Byte)) :
    wt be T f name x trunc = ok f ∧ wtStr f name s trunc = ok f ∧ wt1 be T f name xs trunc = abort := by
  have hn := none_of_lost hf h hg
  rw [wt, wtStr, wt1, clear_free hf h (Or.inl hn), if_pos hn]
  refine ⟨?_, ?_, ?_⟩ <;> rw [ok_bind] <;> simp only <;> rw [create_lost hg] <;> rfl

/-! ## reading -/

theorem find_ok {f : File} (hf : Inv f.st) {name : Str} (h : Named name) {v : Val} (hv : f.st.fs (f.path name) = some (.data v)) : find f name = ok v := by
  rw [find, exists_eq hf h, ok_bind, hv]
  simp

theorem find_not {f : File} (hf : Inv f.st) {name : Str} (h : Named name) (hv : ∀ v, f.st.fs (f.path name) ≠ some (.data v)) : find f name = abort := by
  rw [find, exists_eq hf h, ok_bind]
  rcases e : f.st.fs (f.path name) with _ | _ | v
  · simp
  · simp
  · exact absurd e (hv v)

theorem typed_self (T : HTy) (d : List Nat) (x : List (List Byte)) : typed T ⟨T, d, x⟩ = true := by simp [typed]

theorem points_nil (T : HTy) (x : List (List Byte)) : Val.points ⟨T, [], x⟩ = 1 := rfl

theorem into_ok {be : Bool} {v : Val} {T : HTy} {x : List (List Byte)} (hx : IsElem T x) (hv : v.data = x) {m : List Byte} (hm : m.length = T.size) :
    into be v m = ok (mem be x) := by
  rw [into, all, hv, mem_size hx, if_neg (by omega), List.drop_of_length_le (by omega), List.append_nil]

/-- **C80**, a number: what was written is read, on a machine of any byte order and by any name of the data set. -/
theorem C80_read (be : Bool) {T : HTy} {f : File} (hf : Inv f.st) {name : Str} (h : Named name) {x : List (List Byte)} (hx : IsElem T x)
    (hv : f.st.fs (f.path name) = some (.data ⟨T, [], x⟩)) {m : List Byte} (hm : m.length = T.size) : rd0 be T f name m = ok (mem be x) := by
  rw [rd0, find_ok hf h hv, ok_bind, typed_self, if_neg (by decide), into_ok hx rfl hm]

/-- **C80**, a complex number -/
theorem C80_read_complex (be : Bool) {w : Nat} {f : File} (hf : Inv f.st) {name : Str} (h : Named name) {x : List (List Byte)} (hx : IsElem (.cplx w) x)
    (hv : f.st.fs (f.path name) = some (.data ⟨.cplx w, [], x⟩)) {m : List Byte} (hm : m.length = 2 * w) : rd0C be w f name m = ok (mem be x) := by
  rw [rd0C, find_ok hf h hv, ok_bind, show typedC w ⟨.cplx w, [], x⟩ = true by simp [typedC], if_neg (by decide), into_ok hx rfl (by rw [hm]; exact Nat.mul_comm _ _)]

theorem points_one (T : HTy) (n : Nat) (x : List (List Byte)) : Val.points ⟨T, [n], x⟩ = n := by simp [Val.points]

/-- **C80**, an array -/
theorem C80_read_array (be : Bool) {T : HTy} {f : File} (hf : Inv f.st) {name : Str} (h : Named name) {xs : List (List (List Byte))} (hx : ∀ x ∈ xs, IsElem T x)
    (hv : f.st.fs (f.path name) = some (.data ⟨T, [xs.length], xs.flatten⟩)) : rd1 be T f name = ok (xs.map (mem be)) := by
  rw [rd1, find_ok hf h hv, ok_bind, typed_self, if_neg (by decide), if_neg (by simp), elems_eq hx rfl (points_one _ _ _)]

/-- **C80**, an array of complex numbers -/
theorem C80_read_complex_array (be : Bool) {w : Nat} {f : File} (hf : Inv f.st) {name : Str} (h : Named name) {xs : List (List (List Byte))} (hx : ∀ x ∈ xs, IsElem (.cplx w) x)
    (hv : f.st.fs (f.path name) = some (.data ⟨.cplx w, [xs.length], xs.flatten⟩)) : rd1C be w f name = ok (xs.map (mem be)) := by
  rw [rd1C, find_ok hf h hv, ok_bind, show typedC w ⟨.cplx w, [xs.length], xs.flatten⟩ = true by simp [typedC], if_neg (by decide), if_neg (by simp),
    elems_eq hx rfl (points_one _ _ _)]

/-- **C80**, a matrix -/
theorem C80_read_matrix (be : Bool) {T : HTy} {f : File} (hf : Inv f.st) {name : Str} (h : Named name) {n2 n1 : Nat} {xs : List (List (List Byte))} (hn : xs.length = n2 * n1)
    (hx : ∀ x ∈ xs, IsElem T x) (hv : f.st.fs (f.path name) = some (.data ⟨T, [n2, n1], xs.flatten⟩)) : rd2 be T f name = ok ⟨n2, n1, xs.map (mem be)⟩ := by
  rw [rd2, find_ok hf h hv, ok_bind, typed_self, if_neg (by decide), if_neg (by simp), elems_eq hx rfl (by simp [Val.points, hn])]
  show (rd [n2, n1] 0 >>= _) = _
  rw [show rd [n2, n1] 0 = ok n2 from rfl, ok_bind, show rd [n2, n1] 1 = ok n1 from rfl, ok_bind, rows_eq (by rw [List.length_map, hn]), ok_bind]

theorem all_str (s : List Byte) : mem true (s.map fun b => [b]) = s := by
  rw [mem_true]
  induction s with
  | nil => rfl
  | cons b s ih => rw [List.map_cons, List.flatten_cons, ih]; rfl

theorem strOf_eq (s : List Byte) : strOf ⟨.str (s.length + 1), [], (s ++ [0]).map fun b => [b]⟩ = ok (s.takeWhile (· ≠ 0)) := by
  rw [strOf, if_neg (by simp [HTy.cls]), all, all_str, if_neg (by simp [HTy.size, HTy.wsize, HTy.n]), cstr, if_pos (by simp)]
  congr 1
  induction s with
  | nil => simp
  | cons b s ih =>
    rw [List.cons_append, List.takeWhile_cons, List.takeWhile_cons, ih]

/-- **C80**, a string: it is read up to its first zero byte.  Missing from the claim: the rest of the string. -/
theorem C80_read_string_partial {f : File} (hf : Inv f.st) {name : Str} (h : Named name) {s : List Byte}
    (hv : f.st.fs (f.path name) = some (.data ⟨.str (s.length + 1), [], (s ++ [0]).map fun b => [b]⟩)) : rdStr f name = ok (s.takeWhile (· ≠ 0)) := by
  rw [rdStr, find_ok hf h hv, ok_bind, strOf_eq]

/-- **C80**, the round trip of strings: exactly those without zero bytes. -/
theorem C80_string {s : List Byte} : s.takeWhile (· ≠ 0) = s ↔ 0 ∉ s := by
  induction s with
  | nil => simp
  | cons b s ih =>
    rw [List.takeWhile_cons]
    by_cases hb : b = 0
    · simp [hb]
    · rw [if_pos (by simpa using hb), List.cons.injEq, ih, List.mem_cons]
      have : ¬ (0 : Byte) = b := Ne.symm hb
      simp only [this, false_or, true_and]

/-- **C80**: missing names, groups, other types and other numbers of extents are refused. -/
theorem C80_read_refused (be : Bool) (T : HTy) {f : File} (hf : Inv f.st) {name : Str} (h : Named name) (m : List Byte) :
    ((∀ v, f.st.fs (f.path name) ≠ some (.data v)) → rd0 be T f name m = abort ∧ rd1 be T f name = abort ∧ rd2 be T f name = abort ∧ rdStr f name = abort) ∧
    (∀ v, f.st.fs (f.path name) = some (.data v) →
      (v.ty.cls ≠ T.cls ∨ v.ty.size ≠ T.size ∨ (T.cls = .int ∧ v.ty.signed ≠ T.signed) → rd0 be T f name m = abort ∧ rd1 be T f name = abort ∧ rd2 be T f name = abort) ∧
      (v.dims.length ≠ 1 → rd1 be T f name = abort) ∧ (v.dims.length ≠ 2 → rd2 be T f name = abort) ∧ (v.ty.cls ≠ .str → rdStr f name = abort)) := by
  refine ⟨fun hv => ?_, fun v hv => ⟨fun ht => ?_, fun hd => ?_, fun hd => ?_, fun hs => ?_⟩⟩
  · rw [rd0, rd1, rd2, rdStr, find_not hf h hv]
    exact ⟨rfl, rfl, rfl, rfl⟩
  · have : typed T v = false := by
      rw [Bool.eq_false_iff]
      intro e
      simp only [typed, Bool.and_eq_true, decide_eq_true_eq, Bool.or_eq_true, Bool.not_eq_true', decide_eq_false_iff_not] at e
      rcases ht with ht | ht | ⟨h1, h2⟩
      · exact ht e.1.1
      · exact ht e.1.2
      · exact e.2.elim (fun h => h h1) h2
    rw [rd0, rd1, rd2, find_ok hf h hv]
    refine ⟨?_, ?_, ?_⟩ <;> rw [ok_bind, this] <;> rfl
  · rw [rd1, find_ok hf h hv, ok_bind]
    cases typed T v
    · rfl
    · rw [if_neg (by decide), if_pos hd]
  · rw [rd2, find_ok hf h hv, ok_bind]
    cases typed T v
    · rfl
    · rw [if_neg (by decide), if_pos hd]
  · rw [rdStr, find_ok hf h hv, ok_bind, strOf, if_pos hs]

/-- **C80** fails: an array of two or more numbers read into a single number overruns it. -/
theorem C80_overrun (be : Bool) {T : HTy} {f : File} (hf : Inv f.st) {name : Str} (h : Named name) {d : List Nat} {xs : List (List (List Byte))} (hx : ∀ x ∈ xs, IsElem T x)
    (h0 : 0 < T.size) (h2 : 2 ≤ xs.length) (hv : f.st.fs (f.path name) = some (.data ⟨T, d, xs.flatten⟩)) {m : List Byte} (hm : m.length = T.size) :
    rd0 be T f name m = ub := by
  rw [rd0, find_ok hf h hv, ok_bind, typed_self, if_neg (by decide), into, all]
  simp only
  have hl : (mem be xs.flatten).length = T.size * xs.length := by
    rw [mem_flat, flatten_length (size := T.size), List.length_map]
    intro w hw
    obtain ⟨x, hx', rfl⟩ := List.mem_map.1 hw
    exact mem_size (hx x hx')
  have : T.size * 2 ≤ T.size * xs.length := Nat.mul_le_mul_left _ h2
  rw [if_pos (by rw [hl]; omega)]

/-- **C80** fails: an empty array read into a single number leaves it as it is, without an error. -/
theorem C80_empty (be : Bool) {T : HTy} {f : File} (hf : Inv f.st) {name : Str} (h : Named name) {d : List Nat} (hv : f.st.fs (f.path name) = some (.data ⟨T, d, []⟩))
    (m : List Byte) : rd0 be T f name m = ok m := by
  rw [rd0, find_ok hf h hv, ok_bind, typed_self, if_neg (by decide), into, all]
  simp [mem]

/-- **C80**, the round trip of numbers, complex numbers, arrays and matrices, between machines of any byte order -/
theorem C80_roundtrip (be be' : Bool) {T : HTy} {w : Nat} {f : File} (hf : Inv f.st) {name : Str} (h : Named name) {trunc : Bool} (hr : Free f name trunc) (hg : InGroup f name) :
    (∀ x m, IsElem T x → m.length = T.size → ∃ f', wt be T f name (mem be x) trunc = ok f' ∧ rd0 be' T f' name m = ok (mem be' x)) ∧
    (∀ x m, IsElem (.cplx w) x → m.length = 2 * w → ∃ f', wt be (.cplx w) f name (mem be x) trunc = ok f' ∧ rd0C be' w f' name m = ok (mem be' x)) ∧
    (∀ xs : List (List (List Byte)), (∀ x ∈ xs, IsElem T x) → ∃ f', wt1 be T f name (xs.map (mem be)) trunc = ok f' ∧ rd1 be' T f' name = ok (xs.map (mem be'))) ∧
    (∀ xs : List (List (List Byte)), (∀ x ∈ xs, IsElem (.cplx w) x) →
      ∃ f', wt1 be (.cplx w) f name (xs.map (mem be)) trunc = ok f' ∧ rd1C be' w f' name = ok (xs.map (mem be'))) ∧
    (∀ n2 n1 (xs : List (List (List Byte))), xs.length = n2 * n1 → (∀ x ∈ xs, IsElem T x) →
      ∃ f', wt2 be T f name ⟨n2, n1, xs.map (mem be)⟩ trunc = ok f' ∧ rd2 be' T f' name = ok ⟨n2, n1, xs.map (mem be')⟩) ∧
    (∀ s : List Byte, 0 ∉ s → ∃ f', wtStr f name s trunc = ok f' ∧ rdStr f' name = ok s) := by
  have hp : ∀ {v f'}, Put f (f.path name) v f' → f'.st.fs (f'.path name) = some (.data v) := fun {v f'} hv => by
    rw [show f'.path name = f.path name by rw [File.path, File.path, hv.cur.1]]
    exact hv.data
  refine ⟨fun x m hx hm => ?_, fun x m hx hm => ?_, fun xs hx => ?_, fun xs hx => ?_, fun n2 n1 xs hn hx => ?_, fun s hs => ?_⟩
  · obtain ⟨f', h1, h2, h3⟩ := C80_write_partial be hf h hr hg hx
    exact ⟨f', h1, C80_read be' h3 h hx (hp h2) hm⟩
  · obtain ⟨f', h1, h2, h3⟩ := C80_write_partial be hf h hr hg hx
    exact ⟨f', h1, C80_read_complex be' h3 h hx (hp h2) hm⟩
  · obtain ⟨f', h1, h2, h3⟩ := C80_write_array be hf h hr hg hx
    exact ⟨f', h1, C80_read_array be' h3 h hx (hp h2)⟩
  · obtain ⟨f', h1, h2, h3⟩ := C80_write_array be hf h hr hg hx
    exact ⟨f', h1, C80_read_complex_array be' h3 h hx (hp h2)⟩
  · obtain ⟨f', h1, h2, h3⟩ := C80_write_matrix be hf h hr hg hn hx
    exact ⟨f', h1, C80_read_matrix be' h3 h hn hx (hp h2)⟩
  · obtain ⟨f', h1, h2, h3⟩ := C80_write_string_partial hf h hr hg s
    refine ⟨f', h1, ?_⟩
    rw [C80_read_string_partial h3 h (hp h2), C80_string.2 hs]

/-! ## scalars of QDP -/

theorem split_len (k : Nat) : ∀ (n : Nat) (bs : List Byte), bs.length = k * n → ∀ w ∈ split k n bs, w.length = k
  | 0, _, _ => by simp [split]
  | n + 1, bs, h => by
    rw [Nat.mul_add, Nat.mul_one] at h
    intro w hw
    rw [split, List.mem_cons] at hw
    rcases hw with rfl | hw
    · rw [List.length_take]; omega
    · exact split_len k n _ (by rw [List.length_drop]; omega) w hw

theorem split_n (k : Nat) : ∀ (n : Nat) (bs : List Byte), (split k n bs).length = n
  | 0, _ => rfl
  | n + 1, bs => by rw [split, List.length_cons, split_n]

theorem split_flatten (k : Nat) : ∀ (n : Nat) (bs : List Byte), bs.length = k * n → (split k n bs).flatten = bs
  | 0, bs, h => by
    rw [Nat.mul_zero] at h
    rw [split, List.length_eq_zero_iff.1 h]
    rfl
  | n + 1, bs, h => by
    rw [Nat.mul_add, Nat.mul_one] at h
    rw [split, List.flatten_cons, split_flatten k n _ (by rw [List.length_drop]; omega), List.take_append_drop]

theorem realWords_ok {real k : Nat} (h0 : 0 < real) {b : List Byte} (hb : b.length = real * k) : realWords real b = ok (split real k b) := by
  have : b.length / real = k := by rw [hb, Nat.mul_div_cancel_left k h0]
  rw [realWords, this, if_neg (by rw [hb, Nat.mul_comm]; omega)]

theorem one_word {w : Nat} (be : Bool) (x : List Byte) (hx : x.length = w) : IsElem (.float w) [host be x] :=
  ⟨rfl, by simp [HTy.wsize, host_length, hx]⟩

theorem map_mem_one (be : Bool) (ws : List (List Byte)) : (ws.map fun w => [w]).map (mem be) = ws.map (host be) := by
  rw [List.map_map]
  refine List.map_congr_left fun w _ => ?_
  simp [mem]

theorem flat_one (ws : List (List Byte)) : (ws.map fun w => [w]).flatten = ws := by
  induction ws with
  | nil => rfl
  | cons w ws ih => rw [List.map_cons, List.flatten_cons, ih]; rfl

theorem host_twice (be : Bool) (ws : List (List Byte)) : (ws.map (host be)).map (host be) = ws := by
  rw [List.map_map]
  have : host be ∘ host be = id := by funext v; exact host_host be v
  rw [this, List.map_id]

/-- an array of words is written -/
theorem wt1_words (be : Bool) {real : Nat} {f : File} (hf : Inv f.st) {name : Str} (h : Named name) {trunc : Bool} (hr : Free f name trunc) (hg : InGroup f name)
    {ws : List (List Byte)} (hw : ∀ w ∈ ws, w.length = real) :
    ∃ f', wt1 be (.float real) f name ws trunc = ok f' ∧ Put f (f.path name) ⟨.float real, [ws.length], ws.map (host be)⟩ f' ∧ Inv f'.st := by
  obtain ⟨f', h1, h2, h3⟩ := C80_write_array be (T := .float real) hf h hr hg (xs := (ws.map (host be)).map fun w => [w]) (by
    intro x hx
    simp only [List.map_map, List.mem_map] at hx
    obtain ⟨w, hw', rfl⟩ := hx
    exact one_word be w (hw w hw'))
  rw [map_mem_one, host_twice] at h1
  rw [flat_one, List.length_map, List.length_map] at h2
  exact ⟨f', h1, h2, h3⟩

/-- **C80**, a scalar of QDP: its bytes are written as words of type `REAL`.  Missing from the claim: scalars whose size is no multiple of that of `REAL`; see
`C80_scalar_size_fails`. -/
theorem C80_scalar_write_partial {real : Nat} (h0 : 0 < real) (be : Bool) {f : File} (hf : Inv f.st) {name : Str} (h : Named name) {trunc : Bool} (hr : Free f name trunc)
    (hg : InGroup f name) {b : List Byte} {k : Nat} (hb : b.length = real * k) :
    ∃ f', wtO real be f name b trunc = ok f' ∧ Put f (f.path name) ⟨.float real, [k], (split real k b).map (host be)⟩ f' ∧ Inv f'.st := by
  rw [wtO, realWords_ok h0 hb, ok_bind]
  obtain ⟨f', h1, h2, h3⟩ := wt1_words be hf h hr hg (split_len real k b hb)
  rw [split_n] at h2
  exact ⟨f', h1, h2, h3⟩

/-- **C80** fails: a scalar whose size is no multiple of that of `REAL`, such as an integer or logical in double precision, overruns the buffer. -/
theorem C80_scalar_size_fails {real : Nat} (be : Bool) (f : File) (name : Str) (trunc : Bool) {b : List Byte} (hb : ¬ real ∣ b.length) :
    wtO real be f name b trunc = ub := by
  have : b.length / real * real ≠ b.length := fun e => hb ⟨b.length / real, by rw [Nat.mul_comm]; exact e.symm⟩
  have := Nat.div_mul_le_self b.length real
  rw [wtO, realWords, if_pos (by omega)]
  rfl

theorem rd1_words (be : Bool) {w : Nat} {f : File} (hf : Inv f.st) {name : Str} (h : Named name) {ws : List (List Byte)} (hw : ∀ x ∈ ws, x.length = w)
    (hv : f.st.fs (f.path name) = some (.data ⟨.float w, [ws.length], ws⟩)) : rd1 be (.float w) f name = ok (ws.map (host be)) := by
  have := C80_read_array be (T := .float w) hf h (xs := ws.map fun w => [w]) (by
    intro x hx
    obtain ⟨y, hy, rfl⟩ := List.mem_map.1 hx
    exact ⟨rfl, by simpa [HTy.wsize] using hw y hy⟩) (by rw [flat_one, List.length_map]; exact hv)
  rw [this, map_mem_one]

theorem bufO_eq {cv : Word → Word → List Byte → List Byte} (real : Nat) (be : Bool) {w : Nat} {f : File} (hf : Inv f.st) {name : Str} (h : Named name) {ws : List (List Byte)}
    (hw : ∀ x ∈ ws, x.length = w) (hv : f.st.fs (f.path name) = some (.data ⟨.float w, [ws.length], ws⟩)) :
    bufO cv real w be f name = ok ((ws.map (conv cv w (fword real))).map (host be)) := by
  rw [bufO, rd1_words be hf h hw hv, ok_bind, List.map_map, List.map_map]
  congr 1
  refine List.map_congr_left fun x _ => ?_
  simp [host_host]

theorem prepO_eq {w : Nat} (hw : w = 4 ∨ w = 8) {f : File} (hf : Inv f.st) {name : Str} (h : Named name) {d : Nat} {ws : List (List Byte)}
    (hv : f.st.fs (f.path name) = some (.data ⟨.float w, [d], ws⟩)) : prepO f name = ok (w, d) := by
  have : HTy.size (.float w) = w := by simp [HTy.size, HTy.wsize, HTy.n]
  rw [prepO, find_ok hf h hv, ok_bind]
  simp only [this]
  rw [if_neg (by omega), if_neg (by simp)]
  rfl

/-- reading a scalar from words: the first bytes of the words converted to `REAL` -/
theorem rdO_eq {cv : Word → Word → List Byte → List Byte} (real : Nat) (be : Bool) {w : Nat} (hw : w = 4 ∨ w = 8) {f : File} (hf : Inv f.st) {name : Str} (h : Named name)
    {ws : List (List Byte)} (hl : ∀ x ∈ ws, x.length = w) (hv : f.st.fs (f.path name) = some (.data ⟨.float w, [ws.length], ws⟩)) {size : Nat} (hs : size = w * ws.length) :
    rdO cv real be size f name = fromBuf ((ws.map (conv cv w (fword real))).map (host be)) 0 size := by
  rw [rdO, prepO_eq hw hf h hv, ok_bind, if_neg (by rw [hs, Nat.mul_comm]; simp), bufO_eq real be hf h hl hv, ok_bind]

theorem conv_id {cv : Word → Word → List Byte → List Byte} {w : Nat} (hw : w = 4 ∨ w = 8) : conv cv w (fword w) = id := by
  funext v
  rw [conv, if_pos (fword_size hw).symm]
  rfl

/-- **C80**, a scalar of QDP: words of type `REAL` are read as they are, on a machine of any byte order. -/
theorem C80_scalar_read {cv : Word → Word → List Byte → List Byte} {real : Nat} (hreal : real = 4 ∨ real = 8) (be : Bool) {f : File} (hf : Inv f.st) {name : Str}
    (h : Named name) {ws : List (List Byte)} (hl : ∀ x ∈ ws, x.length = real) (hv : f.st.fs (f.path name) = some (.data ⟨.float real, [ws.length], ws⟩)) :
    rdO cv real be (real * ws.length) f name = ok (mem be ws) := by
  rw [rdO_eq real be hreal hf h hl hv rfl, conv_id hreal, List.map_id, fromBuf, List.drop_zero, ← mem, mem_length be ws hl, if_neg (by omega),
    List.take_of_length_le (by rw [mem_length be ws hl])]

/-- **C80**, the round trip of a scalar of words of type `REAL`, between machines of any byte order -/
theorem C80_scalar_roundtrip {cv : Word → Word → List Byte → List Byte} {real : Nat} (hreal : real = 4 ∨ real = 8) (be be' : Bool) {f : File} (hf : Inv f.st) {name : Str}
    (h : Named name) {trunc : Bool} (hr : Free f name trunc) (hg : InGroup f name) {ws : List (List Byte)} (hl : ∀ x ∈ ws, x.length = real) :
    ∃ f', wtO real be f name (mem be ws) trunc = ok f' ∧ Put f (f.path name) ⟨.float real, [ws.length], ws⟩ f' ∧
      rdO cv real be' (real * ws.length) f' name = ok (mem be' ws) := by
  obtain ⟨f', h1, h2, h3⟩ := C80_scalar_write_partial (real := real) (by omega) be hf h hr hg (b := mem be ws) (k := ws.length) (mem_length be ws hl)
  rw [split_mem ws hl, host_twice] at h2
  have hp : f'.path name = f.path name := by rw [File.path, File.path, h2.cur.1]
  exact ⟨f', h1, h2, C80_scalar_read hreal be' h3 h hl (by rw [hp]; exact h2.data)⟩

/-- **C80**, the round trip of any scalar, between machines of the same byte order -/
theorem C80_scalar_same {cv : Word → Word → List Byte → List Byte} {real : Nat} (hreal : real = 4 ∨ real = 8) (be : Bool) {f : File} (hf : Inv f.st) {name : Str}
    (h : Named name) {trunc : Bool} (hr : Free f name trunc) (hg : InGroup f name) {b : List Byte} (hb : real ∣ b.length) :
    ∃ f', wtO real be f name b trunc = ok f' ∧ rdO cv real be b.length f' name = ok b := by
  obtain ⟨k, hk⟩ := hb
  have hl : ∀ x ∈ (split real k b).map (host be), x.length = real := by
    intro x hx
    obtain ⟨y, hy, rfl⟩ := List.mem_map.1 hx
    rw [host_length]
    exact split_len real k b hk y hy
  have hm : mem be ((split real k b).map (host be)) = b := by
    rw [mem, host_twice, split_flatten real k b hk]
  obtain ⟨f', h1, h2, h3⟩ := C80_scalar_roundtrip (cv := cv) hreal be be hf h hr hg hl
  rw [hm] at h1 h3
  refine ⟨f', h1, ?_⟩
  rwa [List.length_map, split_n, ← hk] at h3

/-- **C80** fails: a scalar of double precision in single precision, between machines of opposite byte orders: the two halves of each number are exchanged. -/
theorem C80_scalar_order_fails {cv : Word → Word → List Byte → List Byte} (be : Bool) {f : File} (hf : Inv f.st) {name : Str}
    (h : Named name) {trunc : Bool} (hr : Free f name trunc) (hg : InGroup f name) {ws : List (List Byte)} (hl : ∀ x ∈ ws, x.length = 8) :
    ∃ f', wtO 4 be f name (mem be ws) trunc = ok f' ∧ rdO cv 4 (!be) (8 * ws.length) f' name = ok (mem (!be) (ws.map fun w => w.drop 4 ++ w.take 4)) := by
  have key : ∀ b : Bool, mem b ws = mem b (ws.flatMap fun w => if b then [w.take 4, w.drop 4] else [w.drop 4, w.take 4]) := by
    intro b
    clear hr hg
    induction ws with
    | nil => rfl
    | cons w ws ih =>
      rw [List.flatMap_cons]
      have e1 : mem b (w :: ws) = host b w ++ mem b ws := by simp [mem]
      rw [e1, ih fun x hx => hl x (by simp [hx])]
      have e2 : ∀ u v : List (List Byte), mem b (u ++ v) = mem b u ++ mem b v := fun u v => by simp [mem]
      rw [e2]
      congr 1
      cases b
      · simp only [mem, host, Bool.false_eq_true, if_false, List.map_cons, List.map_nil, List.flatten_cons, List.flatten_nil, List.append_nil]
        rw [← List.reverse_append, List.take_append_drop]
      · simp [mem, host]
  have hl4 : ∀ x ∈ ws.flatMap fun w => if be then [w.take 4, w.drop 4] else [w.drop 4, w.take 4], x.length = 4 := by
    intro x hx
    obtain ⟨w, hw, hx⟩ := List.mem_flatMap.1 hx
    have := hl w hw
    cases be <;> simp at hx <;> rcases hx with rfl | rfl <;> simp <;> omega
  obtain ⟨f', h1, -, h3⟩ := C80_scalar_roundtrip (cv := cv) (Or.inl rfl) be (!be) hf h hr hg hl4
  rw [← key be] at h1
  refine ⟨f', h1, ?_⟩
  have hlen : (ws.flatMap fun w => if be then [w.take 4, w.drop 4] else [w.drop 4, w.take 4]).length = 2 * ws.length := by
    clear * -
    induction ws with
    | nil => rfl
    | cons w ws ih =>
      rw [List.flatMap_cons, List.length_append, ih]
      cases be <;> simp <;> omega
  rw [hlen, ← Nat.mul_assoc] at h3
  rw [h3]
  congr 1
  clear h1 h3 hlen hl4 key hr hg
  induction ws with
  | nil => rfl
  | cons w ws ih =>
    have e2 : ∀ u v : List (List Byte), mem (!be) (u ++ v) = mem (!be) u ++ mem (!be) v := fun u v => by simp [mem]
    rw [List.flatMap_cons, e2, ih fun x hx => hl x (by simp [hx]), List.map_cons]
    have e1 : ∀ x y, mem (!be) (x :: y) = host (!be) x ++ mem (!be) y := fun x y => by simp [mem]
    rw [e1]
    congr 1
    cases be
    · simp [mem, host]
    · simp [mem, host, List.reverse_append]

/-- **C80** fails: a scalar with words of double precision in the file read in single precision overruns the buffer. -/
theorem C80_scalar_double_fails {cv : Word → Word → List Byte → List Byte} (hcv : Conv cv) (be : Bool) {f : File} (hf : Inv f.st) {name : Str} (h : Named name)
    {ws : List (List Byte)} (hl : ∀ x ∈ ws, x.length = 8) (h0 : ws ≠ []) (hv : f.st.fs (f.path name) = some (.data ⟨.float 8, [ws.length], ws⟩)) :
    rdO cv 4 be (8 * ws.length) f name = ub := by
  have := List.length_pos_iff.2 h0
  rw [rdO_eq 4 be (Or.inr rfl) hf h hl hv rfl, fromBuf, List.drop_zero, ← mem, mem_length (size := 4) be, List.length_map, if_pos (by omega)]
  intro x hx
  obtain ⟨y, hy, rfl⟩ := List.mem_map.1 hx
  have := hcv.size (fword 8) (fword 4) y (hl y hy)
  simpa [conv, fword, Word.size] using this

/-- **C80** fails: a scalar with words of single precision in the file read in double precision: the words after the first half do not matter. -/
theorem C80_scalar_single_fails {cv : Word → Word → List Byte → List Byte} (hcv : Conv cv) (be : Bool) {f f' : File} (hf : Inv f.st) (hf' : Inv f'.st) {name : Str} (h : Named name)
    {us vs vs' : List (List Byte)} (hl : ∀ x ∈ us, x.length = 4) (hl1 : ∀ x ∈ vs, x.length = 4) (hl2 : ∀ x ∈ vs', x.length = 4) (h1 : vs.length ≤ us.length)
    (h2 : vs'.length = vs.length) (hv : f.st.fs (f.path name) = some (.data ⟨.float 4, [(us ++ vs).length], us ++ vs⟩))
    (hv' : f'.st.fs (f'.path name) = some (.data ⟨.float 4, [(us ++ vs').length], us ++ vs'⟩)) :
    ∃ b, rdO cv 8 be (4 * (us ++ vs).length) f name = ok b ∧ rdO cv 8 be (4 * (us ++ vs).length) f' name = ok b := by
  have hc : ∀ {l : List (List Byte)}, (∀ x ∈ l, x.length = 4) → (((l.map (conv cv 4 (fword 8))).map (host be)).flatten).length = 8 * l.length := by
    intro l hl
    rw [← mem, mem_length (size := 8) be, List.length_map]
    intro x hx
    obtain ⟨y, hy, rfl⟩ := List.mem_map.1 hx
    have := hcv.size (fword 4) (fword 8) y (hl y hy)
    simpa [conv, fword, Word.size] using this
  have key : ∀ {l : List (List Byte)}, (∀ x ∈ l, x.length = 4) → l.length = vs.length → fromBuf (((us ++ l).map (conv cv 4 (fword 8))).map (host be)) 0 (4 * (us ++ vs).length) =
      ok (((us.map (conv cv 4 (fword 8))).map (host be)).flatten.take (4 * (us ++ vs).length)) := by
    intro l hl' hn
    have e1 : ∀ x ∈ us ++ l, x.length = 4 := fun x hx => (List.mem_append.1 hx).elim (hl x) (hl' x)
    rw [fromBuf, List.drop_zero, hc e1, List.length_append, List.length_append, hn, if_neg (by omega), List.map_append, List.map_append, List.flatten_append,
      List.take_append_of_le_length (by rw [hc hl]; omega)]
  refine ⟨((us.map (conv cv 4 (fword 8))).map (host be)).flatten.take (4 * (us ++ vs).length), ?_, ?_⟩
  · rw [rdO_eq 8 be (Or.inl rfl) hf h (fun x hx => (List.mem_append.1 hx).elim (hl x) (hl1 x)) hv rfl]
    exact key hl1 rfl
  · rw [rdO_eq 8 be (Or.inl rfl) hf' h (fun x hx => (List.mem_append.1 hx).elim (hl x) (hl2 x)) hv' (by simp [h2])]
    exact key hl2 h2

/-- **C80** fails: a colour matrix is written with its own type, which no reader takes. -/
theorem C80_colour_matrix_fails (be : Bool) {w : Nat} {f : File} (hf : Inv f.st) {name : Str} (h : Named name) {trunc : Bool} (hr : Free f name trunc)
    (hg : InGroup f name) {x : List (List Byte)} (hx : IsElem (.arr w 18) x) :
    ∃ f', wt be (.arr w 18) f name (mem be x) trunc = ok f' ∧ ∀ cv real be' size, rdO cv real be' size f' name = abort := by
  obtain ⟨f', h1, h2, h3⟩ := C80_write_partial be hf h hr hg hx
  have hp : f'.path name = f.path name := by rw [File.path, File.path, h2.cur.1]
  refine ⟨f', h1, fun cv real be' size => ?_⟩
  rw [rdO, prepO, find_ok h3 h (by rw [hp]; exact h2.data), ok_bind, if_pos (by simp only [HTy.size, HTy.wsize, HTy.n]; omega)]
  rfl

/-- **C80**, arrays of scalars of `k` words of type `REAL`.  Missing from the claim: empty arrays; see `C80_scalars_empty_fails`. -/
theorem C80_scalars_roundtrip_partial {cv : Word → Word → List Byte → List Byte} {real k : Nat} (hreal : real = 4 ∨ real = 8) (hk : 0 < k) (be be' : Bool) {f : File} (hf : Inv f.st)
    {name : Str} (h : Named name) {trunc : Bool} (hr : Free f name trunc) (hg : InGroup f name) {xs : List (List (List Byte))} (hx : ∀ x ∈ xs, x.length = k ∧ ∀ w ∈ x, w.length = real)
    (h0 : xs ≠ []) :
    ∃ f', wtOs real be f name (xs.map (mem be)) trunc = ok f' ∧ Put f (f.path name) ⟨.float real, [xs.length * k], xs.flatten⟩ f' ∧
      rdOs cv real be' (real * k) f' name = ok (xs.map (mem be')) := by
  have hpos := List.length_pos_iff.2 h0
  have hflat : ∀ w ∈ xs.flatten, w.length = real := fun w hw => by
    obtain ⟨x, hx', hw⟩ := List.mem_flatten.1 hw
    exact (hx x hx').2 w hw
  have hlen : xs.flatten.length = xs.length * k := by
    rw [List.length_flatten]
    clear * - hx
    induction xs with
    | nil => simp
    | cons x xs ih =>
      rw [List.map_cons, List.sum_cons, ih fun y hy => hx y (by simp [hy]), (hx x (by simp)).1, List.length_cons, Nat.add_mul, Nat.one_mul, Nat.add_comm]
  have e1 : mapO (realWords real) (xs.map (mem be)) = ok (xs.map fun x => x.map (host be)) := by
    clear hflat hlen hpos h0
    induction xs with
    | nil => rfl
    | cons x xs ih =>
      have hx1 := hx x (by simp)
      rw [List.map_cons, mapO, realWords_ok (by omega) (mem_length be x hx1.2), ok_bind, ih fun y hy => hx y (by simp [hy]), ok_bind, split_mem x hx1.2]
      rfl
  have e2 : (xs.map fun x => x.map (host be)).flatten = xs.flatten.map (host be) := by rw [List.map_flatten]
  obtain ⟨f', h1, h2, h3⟩ := wt1_words (real := real) be hf h hr hg (ws := xs.flatten.map (host be)) (by
    intro w hw
    obtain ⟨y, hy, rfl⟩ := List.mem_map.1 hw
    rw [host_length]
    exact hflat y hy) (trunc := trunc)
  rw [host_twice, List.length_map, hlen] at h2
  have hp : f'.path name = f.path name := by rw [File.path, File.path, h2.cur.1]
  have hv : f'.st.fs (f'.path name) = some (.data ⟨.float real, [xs.flatten.length], xs.flatten⟩) := by rw [hp, hlen]; exact h2.data
  refine ⟨f', by rw [wtOs, e1, ok_bind, e2]; exact h1, h2, ?_⟩
  have hrk : 0 < real * k := Nat.mul_pos (by omega) hk
  have hsz : xs.length * k * real = real * k * xs.length := by rw [Nat.mul_assoc, Nat.mul_comm k real, Nat.mul_comm]
  have hdiv : xs.length * k * real / (real * k) = xs.length := by rw [hsz, Nat.mul_div_cancel_left _ hrk]
  rw [rdOs, prepO_eq hreal h3 h hv, ok_bind]
  simp only [hlen, hdiv]
  rw [if_neg (by rw [hsz]; simp), if_neg (by omega), bufO_eq real be' h3 h hflat hv, ok_bind, conv_id hreal, List.map_id, Nat.mul_div_cancel_left k hpos]
  have hk2 : List.take (k * xs.length) (xs.flatten.map (host be')) = xs.flatten.map (host be') := List.take_of_length_le (by rw [List.length_map, hlen, Nat.mul_comm])
  rw [hk2]
  clear hv hp h1 h2 h3 e1 e2 hsz hdiv hk2 hr hg
  rw [mapO_range (g := fun i => (xs.map (mem be'))[i]?.getD [])]
  · congr 1
    apply List.ext_getElem
    · simp
    · intro i a b
      have : i < xs.length := by simpa using b
      simp [this]
  · intro i hi
    rw [List.mem_range] at hi
    have hd : (xs.flatten.map (host be')).drop (i * k) = ((xs.drop i).flatten).map (host be') := by
      rw [← List.map_drop]
      congr 1
      clear * - hx
      induction xs generalizing i with
      | nil => simp
      | cons x xs ih =>
        cases i with
        | zero => simp
        | succ i =>
          rw [List.drop_succ_cons, ← ih fun y hy => hx y (by simp [hy]), List.flatten_cons, Nat.add_mul, Nat.one_mul, List.drop_append,
            List.drop_of_length_le (by rw [(hx x (by simp)).1]; omega), (hx x (by simp)).1, Nat.add_sub_cancel, List.nil_append]
    have hc : xs.drop i = xs[i] :: xs.drop (i + 1) := List.drop_eq_getElem_cons hi
    have hm : (mem be' xs[i]).length = real * k := by rw [mem_length be' _ (hx xs[i] (List.getElem_mem hi)).2, (hx xs[i] (List.getElem_mem hi)).1]
    have hf2 : (((xs.drop i).flatten).map (host be')).flatten = mem be' xs[i] ++ mem be' (xs.drop (i + 1)).flatten := by
      rw [hc, List.flatten_cons, List.map_append, List.flatten_append]
      rfl
    rw [fromBuf, hd, hf2, if_neg (by rw [List.length_append, hm]; omega), List.take_append_of_le_length (by omega), List.take_of_length_le (by omega)]
    simp [hi]

/-- **C80** fails: an empty array of scalars is written, reading it divides by zero. -/
theorem C80_scalars_empty_fails {real : Nat} (hreal : real = 4 ∨ real = 8) (be : Bool) {f : File} (hf : Inv f.st)
    {name : Str} (h : Named name) {trunc : Bool} (hr : Free f name trunc) (hg : InGroup f name) :
    ∃ f', wtOs real be f name [] trunc = ok f' ∧ ∀ cv real' be' size, rdOs cv real' be' size f' name = ub := by
  obtain ⟨f', h1, h2, h3⟩ := wt1_words (real := real) be hf h hr hg (ws := []) (by simp) (trunc := trunc)
  have hp : f'.path name = f.path name := by rw [File.path, File.path, h2.cur.1]
  refine ⟨f', h1, fun cv real' be' size => ?_⟩
  rw [rdOs, prepO_eq hreal h3 h (by rw [hp]; exact h2.data), ok_bind]
  simp

/-! ## attributes -/

theorem needs_ok {f : File} (hf : Inv f.st) {obj : Str} (h : Named obj) (ho : f.st.fs (f.path obj) ≠ none) : needs f obj = ok () := by
  rw [needs, exists_eq hf h, ok_bind, if_pos (Option.isSome_iff_ne_none.2 ho)]

theorem needs_not {f : File} (hf : Inv f.st) {obj : Str} (h : Named obj) (ho : f.st.fs (f.path obj) = none) : needs f obj = abort := by
  rw [needs, exists_eq hf h, ok_bind, ho]
  rfl

/-- the attribute is in the file and nothing else has changed -/
structure PutAtt (f : File) (p : List Str) (a : Str) (v : Val) (f' : File) : Prop where
  st : f'.st = f.st
  att : f'.att p a = some v
  rest : ∀ q b, (q ≠ p ∨ b ≠ a) → f'.att q b = f.att q b

theorem putAtt_ok {f : File} (hf : Inv f.st) {obj : Str} (h : Named obj) (ho : f.st.fs (f.path obj) ≠ none) {a : Str} {trunc : Bool} (hr : f.att (f.path obj) a = none ∨ trunc = true)
    (v : Val) : ∃ f', putAtt f obj a v false trunc = ok f' ∧ PutAtt f (f.path obj) a v f' := by
  refine ⟨{ f with att := fun p b => if p = f.path obj ∧ b = a then some v else f.att p b }, ?_, rfl, by simp, ?_⟩
  · rw [putAtt, needs_ok hf h ho, ok_bind, if_neg, if_neg (by decide)]
    rcases hr with hr | rfl
    · simp [hr]
    · simp
  · intro q b hq
    exact if_neg fun e => hq.elim (fun h => h e.1) fun h => h e.2

/-- **C80**, attributes: a number, an array or a string of at most 64 kB is attached to an object, an old attribute only replaced in the mode `trunc`, and nothing else is
changed. -/
theorem C80_att_write (be : Bool) {T : HTy} {f : File} (hf : Inv f.st) {obj : Str} (h : Named obj) (ho : f.st.fs (f.path obj) ≠ none) {a : Str} {trunc : Bool}
    (hr : f.att (f.path obj) a = none ∨ trunc = true) :
    (∀ x, IsElem T x → ∃ f', wtAtt be T f obj a (mem be x) trunc = ok f' ∧ PutAtt f (f.path obj) a ⟨T, [], x⟩ f') ∧
    (∀ xs : List (List (List Byte)), (∀ x ∈ xs, IsElem T x) → xs.length * T.size ≤ 65536 →
      ∃ f', wtAtt1 be T f obj a (xs.map (mem be)) trunc = ok f' ∧ PutAtt f (f.path obj) a ⟨T, [xs.length], xs.flatten⟩ f') ∧
    (∀ s : List Byte, s.length < 65536 → ∃ f', wtAttStr f obj a s trunc = ok f' ∧
      PutAtt f (f.path obj) a ⟨.str (s.length + 1), [], (s ++ [0]).map fun b => [b]⟩ f') := by
  refine ⟨fun x hx => ?_, fun xs hx hs => ?_, fun s hs => ?_⟩
  · rw [wtAtt, toFile_mem hx]
    exact putAtt_ok hf h ho hr _
  · rw [wtAtt1, flatMap_toFile hx, List.length_map, show decide (64 * 1024 < xs.length * T.size) = false from decide_eq_false (by omega)]
    exact putAtt_ok hf h ho hr _
  · rw [wtAttStr, show decide (64 * 1024 < s.length + 1) = false from decide_eq_false (by omega)]
    exact putAtt_ok hf h ho hr _

theorem putAtt_not {f : File} (hf : Inv f.st) {obj : Str} (h : Named obj) {a : Str} {v : Val} {big trunc : Bool}
    (hr : f.st.fs (f.path obj) = none ∨ (f.att (f.path obj) a ≠ none ∧ trunc = false) ∨ big = true) : putAtt f obj a v big trunc = abort := by
  by_cases ho : f.st.fs (f.path obj) = none
  · rw [putAtt, needs_not hf h ho]
    rfl
  · rw [putAtt, needs_ok hf h ho, ok_bind]
    rcases hr.resolve_left ho with ⟨h1, rfl⟩ | rfl
    · rw [if_pos]
      simp [Option.isSome_iff_ne_none, h1]
    · split <;> rfl

/-- **C80**, attributes: what is refused. -/
theorem C80_att_refused (be : Bool) (T : HTy) {f : File} (hf : Inv f.st) {obj : Str} (h : Named obj) (a : Str) (trunc : Bool) (x s : List Byte) (xs : List (List Byte)) :
    (f.st.fs (f.path obj) = none ∨ (f.att (f.path obj) a ≠ none ∧ trunc = false) →
      wtAtt be T f obj a x trunc = abort ∧ wtAtt1 be T f obj a xs trunc = abort ∧ wtAttStr f obj a s trunc = abort) ∧
    (65536 < xs.length * T.size → wtAtt1 be T f obj a xs trunc = abort) ∧ (65536 ≤ s.length → wtAttStr f obj a s trunc = abort) := by
  refine ⟨fun hr => ⟨putAtt_not hf h (hr.imp_right Or.inl), putAtt_not hf h (hr.imp_right Or.inl), putAtt_not hf h (hr.imp_right Or.inl)⟩, fun hs => ?_, fun hs => ?_⟩
  · exact putAtt_not hf h (Or.inr (Or.inr (decide_eq_true (by omega))))
  · exact putAtt_not hf h (Or.inr (Or.inr (decide_eq_true (by omega))))

theorem getAtt_ok {f : File} (hf : Inv f.st) {obj : Str} (h : Named obj) (ho : f.st.fs (f.path obj) ≠ none) {a : Str} {v : Val} (hv : f.att (f.path obj) a = some v) :
    getAtt f obj a = ok v := by
  rw [getAtt, needs_ok hf h ho, ok_bind, hv]

/-- **C80**, attributes: what was written is read, on a machine of any byte order; strings up to their first zero byte. -/
theorem C80_att_read_partial (be : Bool) {T : HTy} {f : File} (hf : Inv f.st) {obj : Str} (h : Named obj) (ho : f.st.fs (f.path obj) ≠ none) {a : Str} :
    (∀ x m, IsElem T x → m.length = T.size → f.att (f.path obj) a = some ⟨T, [], x⟩ → rdAtt be T f obj a m = ok (mem be x)) ∧
    (∀ xs : List (List (List Byte)), (∀ x ∈ xs, IsElem T x) → f.att (f.path obj) a = some ⟨T, [xs.length], xs.flatten⟩ → rdAtt1 be T f obj a = ok (xs.map (mem be))) ∧
    (∀ s : List Byte, f.att (f.path obj) a = some ⟨.str (s.length + 1), [], (s ++ [0]).map fun b => [b]⟩ → rdAttStr f obj a = ok (s.takeWhile (· ≠ 0))) := by
  refine ⟨fun x m hx hm hv => ?_, fun xs hx hv => ?_, fun s hv => ?_⟩
  · rw [rdAtt, getAtt_ok hf h ho hv, ok_bind, typed_self, if_neg (by decide), into_ok hx rfl hm]
  · rw [rdAtt1, getAtt_ok hf h ho hv, ok_bind, typed_self, if_neg (by decide), elems_eq hx rfl (points_one _ _ _)]
  · rw [rdAttStr, getAtt_ok hf h ho hv, ok_bind, strOf_eq]

/-- **C80** fails: an attribute with two or more numbers read into a single number overruns it. -/
theorem C80_att_overrun (be : Bool) {T : HTy} {f : File} (hf : Inv f.st) {obj : Str} (h : Named obj) (ho : f.st.fs (f.path obj) ≠ none) {a : Str} {d : List Nat}
    {xs : List (List (List Byte))} (hx : ∀ x ∈ xs, IsElem T x) (h0 : 0 < T.size) (h2 : 2 ≤ xs.length) (hv : f.att (f.path obj) a = some ⟨T, d, xs.flatten⟩) {m : List Byte}
    (hm : m.length = T.size) : rdAtt be T f obj a m = ub := by
  rw [rdAtt, getAtt_ok hf h ho hv, ok_bind, typed_self, if_neg (by decide), into, all]
  simp only
  have hl : (mem be xs.flatten).length = T.size * xs.length := by
    rw [mem_flat, flatten_length (size := T.size), List.length_map]
    intro w hw
    obtain ⟨x, hx', rfl⟩ := List.mem_map.1 hw
    exact mem_size (hx x hx')
  have : T.size * 2 ≤ T.size * xs.length := Nat.mul_le_mul_left _ h2
  rw [if_pos (by rw [hl]; omega)]

/-! ## examples -/

/-- a file with a group `/g` and a data set `/d` with the number 258 -/
def fs1 : Fs Val := fun p => if p = [] ∨ p = [['g']] then some .group else if p = [['d']] then some (.data ⟨.int true 4, [], [[0, 0, 1, 2]]⟩) else none
def file1 : File := ⟨⟨fs1, ⟨1, []⟩, [1]⟩, fun _ _ => none⟩

theorem fs1_good : fs1.Good where
  root := by simp [fs1]
  tree := fun p t h => by
    simp only [fs1] at h ⊢
    rcases p with _ | ⟨x, _ | ⟨y, p⟩⟩
    · simp
    · simp at h
    · simp at h
  name := fun p t h => by
    simp only [fs1] at h
    rcases p with _ | ⟨x, _ | ⟨y, p⟩⟩
    · by_cases h1 : t = ['g']
      · rw [h1]; exact ⟨by decide, by decide, by decide⟩
      · by_cases h2 : t = ['d']
        · rw [h2]; exact ⟨by decide, by decide, by decide⟩
        · simp [h1, h2] at h
    · simp at h
    · simp at h

theorem file1_inv : Inv file1.st := ⟨fs1_good, by simp [file1, fs1], by simp [file1]⟩

theorem path1 : file1.path "g/x".toList = [['g'], ['x']] := by decide +kernel
theorem path2 : file1.path "d".toList = [['d']] := by decide +kernel
theorem path3 : file1.path "h/x".toList = [['h'], ['x']] := by decide +kernel
theorem path4 : file1.path "/g".toList = [['g']] := by decide +kernel

/-- a new name in a group -/
example : Named "g/x".toList ∧ Free file1 "g/x".toList false ∧ InGroup file1 "g/x".toList := by
  refine ⟨⟨by decide +kernel, by decide +kernel⟩, Or.inl ?_, ?_⟩
  · rw [path1]; simp [file1, fs1]
  · rw [InGroup, path1]; simp [file1, fs1]
/-- a data set that may be replaced -/
example : Named "d".toList ∧ Free file1 "d".toList true ∧ ¬ Free file1 "d".toList false ∧ InGroup file1 "d".toList := by
  refine ⟨⟨by decide +kernel, by decide +kernel⟩, Or.inr ⟨rfl, ?_⟩, ?_, ?_⟩
  · rw [path2]; exact ⟨_, rfl⟩
  · rw [Free, path2]; simp [file1, fs1]
  · rw [InGroup, path2]; simp [file1, fs1]
/-- a name in no group, and a group -/
example : Named "h/x".toList ∧ ¬ InGroup file1 "h/x".toList ∧ ¬ Free file1 "/g".toList true := by
  refine ⟨⟨by decide +kernel, by decide +kernel⟩, ?_, ?_⟩
  · rw [InGroup, path3]; simp [file1, fs1]
  · rw [Free, path4]; simp [file1, fs1]
/-- the number in the file on machines of both byte orders -/
example : rd0 false (.int true 4) file1 "d".toList [9, 9, 9, 9] = ok [2, 1, 0, 0] :=
  C80_read false (T := .int true 4) file1_inv ⟨by decide +kernel, by decide +kernel⟩ (x := [[0, 0, 1, 2]]) ⟨rfl, by decide⟩ (by rw [path2]; rfl) rfl
example : rd0 true (.int true 4) file1 "d".toList [9, 9, 9, 9] = ok [0, 0, 1, 2] :=
  C80_read true (T := .int true 4) file1_inv ⟨by decide +kernel, by decide +kernel⟩ (x := [[0, 0, 1, 2]]) ⟨rfl, by decide⟩ (by rw [path2]; rfl) rfl
example : IsElem (.cplx 4) [[1, 2, 3, 4], [5, 6, 7, 8]] := ⟨rfl, by decide⟩
example : IsElem (.arr 4 18) (List.replicate 18 [1, 2, 3, 4]) := ⟨rfl, by decide⟩
/-- an integer in double precision -/
example (f : File) (name : Str) : wtO 8 true f name [0, 0, 0, 5] false = ub := C80_scalar_size_fails true f name false (by decide)
example : ([1, 0, 2] : List Byte).takeWhile (· ≠ 0) = [1] := by decide

end Verif.Hdf5Val
