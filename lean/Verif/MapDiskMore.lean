import Verif.MapDiskCrash
/-
More on disk map objects: longer updates (C32), creation and insertion on hosts that cannot encode positions (C35), reuse of an object
(C36).
-/
set_option linter.unusedSectionVars false

namespace Verif.MapDisk
open Verif Outcome ByteOrder Verif.BinIO Verif.MapObj

/-! ## C32: an update by a longer value -/

/-- insert two keys, give the first a longer value, look the second up -/
def longerRun : Outcome (List (DRes Int (List Byte)) × (Plat × Obj)) := do
  let o ← create demoPlat "f" []
  run int descC demoPlat o [.insert 1 [0x41], .insert 2 [0x42], .insert 1 [0x41, 0x41, 0x41], .get 2]

/-- the same without the lookup -/
def longerPre : Outcome (List (DRes Int (List Byte)) × (Plat × Obj)) := do
  let o ← create demoPlat "f" []
  run int descC demoPlat o [.insert 1 [0x41], .insert 2 [0x42], .insert 1 [0x41, 0x41, 0x41]]

/-- C32 fails: an update by a longer value destroys the record behind it; the lookup of that record does not return. -/
theorem C32_longer_update : (∃ x, longerPre = ok x) ∧ ∀ x, longerRun ≠ ok x := by
  have h1 : isOk longerPre = true := by decide +kernel
  have h2 : isOk longerRun = false := by decide +kernel
  constructor
  · cases h : longerPre with
    | ok x => exact ⟨x, rfl⟩
    | abort => rw [h] at h1; simp [isOk] at h1
    | ub => rw [h] at h1; simp [isOk] at h1
  · intro x h
    rw [h] at h2
    simp [isOk] at h2

/-! ## C35: what a program sees of it -/

/-- With 64-bit `std::streamoff` and no meaning for a division by zero, creating any file is undefined behaviour. -/
theorem C35_create (P : Plat) (hb : P.bits = 64) (hd : P.div0 = false) (nm : String) (u : List Byte) (hu : u.length < 2 ^ 31) :
    create P nm u = ub := by
  unfold create «open» openWrite insertUserdata Obj.fresh
  simp only
  rw [emit_eq (C24_desc.wr P.be magic _ (by decide)), ok_bind, emit_eq (u32_good.wr P.be 1 _ trivial), ok_bind]
  simp only
  rw [emit_eq (C24_desc.wr P.be u _ hu), ok_bind]
  simp only [currentPosition, ok_bind, C35_undefined P hb hd, ub_bind]

section
variable {K V : Type} [DecidableEq K] {kc : Codec K} {vc : Codec V} {KV : K → Prop} {VV : V → Prop}
  {kenc : K → List Byte} {venc : V → List Byte}

/-- So is the insertion of a new key into any open object. -/
theorem C35_insert (gk : Good kc KV kenc) (P : Plat) (hb : P.bits = 64) (hd : P.div0 = false) (o : Obj) (hst : o.st ≠ .init)
    (d : Dev) (hdev : o.dev = some d) (k : K) (hk : KV k) (hnew : find o.map (kenc k) = none) (v : V) : insert kc vc P k v o = ub := by
  unfold insert
  cases h : o.st
  · exact absurd h hst
  all_goals simp only [bufBytes_eq gk P.be k hk, ok_bind, hnew, currentPosition, hdev, C35_undefined P hb hd, ub_bind]

/-- reading such files on such hosts is fine: `Readable` holds there -/
example : Readable ⟨false, 64, false, id⟩ := readable_of _ (Or.inr rfl) (fun l => List.Perm.refl l)

/-! ## C36: reuse of an object -/

theorem fetch_map {α : Type} {f : Dev → Outcome (α × Dev)} {o o' : Obj} {x : α} (h : fetch f o = ok (x, o')) :
    o'.map = o.map := by
  unfold fetch at h
  cases hd : o.dev with
  | none => simp only [hd] at h; cases h
  | some d =>
    simp only [hd, Outcome.bind_eq_ok, ok.injEq, Prod.mk.injEq] at h
    obtain ⟨y, -, -, rfl⟩ := h
    rfl

theorem seek_map {p : Int} {o o' : Obj} (h : seek p o = ok o') : o'.map = o.map := by
  unfold seek at h
  cases hd : o.dev with
  | none => simp only [hd] at h; cases h
  | some d =>
    simp only [hd] at h
    split at h
    · cases h
    · simp only [ok.injEq] at h; rw [← h]

theorem reset_map {o o' : Obj} (h : resetChecksum o = ok o') : o'.map = o.map := by
  unfold resetChecksum at h
  cases hd : o.dev with
  | none => simp only [hd] at h; cases h
  | some d => simp only [hd, ok.injEq] at h; rw [← h]

theorem find_insertNew {β : Type} {m : List (List Byte × β)} {kb kb' : List Byte} {x q : β} (h : find m kb = some q) :
    find (insertNew m kb' x) kb = some q := by
  unfold insertNew
  split
  · exact h
  · unfold find at h ⊢
    rw [List.find?_append]
    cases hf : m.find? fun e => decide (e.1 = kb) with
    | none => rw [hf] at h; simp at h
    | some e => rw [hf] at h; simpa using h

theorem readEntries_keeps {P : Plat} {kb : List Byte} {q : Nat × Nat} (n : Nat) {o o' : Obj} (h : readEntries P n o = ok o')
    (hf : find o.map kb = some q) : find o'.map kb = some q := by
  induction n generalizing o with
  | zero => simp only [readEntries, ok.injEq] at h; rw [← h]; exact hf
  | succ n ih =>
    simp only [readEntries, Outcome.bind_eq_ok] at h
    obtain ⟨⟨kb', o1⟩, h1, ⟨q', o2⟩, h2, h3⟩ := h
    refine ih h3 (find_insertNew ?_)
    rw [fetch_map h2, fetch_map h1]
    exact hf

theorem readMapBinary_keeps {P : Plat} {kb : List Byte} {q md : Nat × Nat} {o o' : Obj} (h : readMapBinary P md o = ok o')
    (hf : find o.map kb = some q) : find o'.map kb = some q := by
  simp only [readMapBinary, Outcome.bind_eq_ok] at h
  obtain ⟨p, -, o1, h1, o2, h2, ⟨n, o3⟩, h3, o4, h4, sum, -, ⟨r, o5⟩, h5, h6⟩ := h
  split at h6
  · cases h6
  · simp only [ok.injEq] at h6
    rw [← h6, fetch_map h5]
    refine readEntries_keeps _ h4 ?_
    rw [fetch_map h3, reset_map h2, seek_map h1]
    exact hf

theorem readCheckHeader_map {P : Plat} {md : Nat × Nat} {o o' : Obj} (h : readCheckHeader P o = ok (md, o')) : o'.map = o.map := by
  simp only [readCheckHeader, Outcome.bind_eq_ok] at h
  obtain ⟨o1, h1, ⟨m, o2⟩, h2, h3⟩ := h
  split at h3
  · cases h3
  · simp only [Outcome.bind_eq_ok] at h3
    obtain ⟨⟨v, o3⟩, h3, ⟨u, o4⟩, h4, h5⟩ := h3
    have := fetch_map h5
    simp only at this
    rw [this, fetch_map h4, fetch_map h3, fetch_map h2, seek_map h1]

/-- opening a file for reading keeps every entry the object already had, at its old position -/
theorem openRead_keeps {P : Plat} {nm : String} {rw' : Bool} {data : List Byte} {o o' : Obj} (h : openRead P nm rw' data o = ok o')
    {kb : List Byte} {q : Nat × Nat} (hf : find o.map kb = some q) : find o'.map kb = some q := by
  unfold openRead at h
  split at h
  · simp only [Outcome.bind_eq_ok, ok.injEq] at h
    obtain ⟨⟨md, o1⟩, h1, o2, h2, rfl⟩ := h
    have := readMapBinary_keeps (o' := o2) (kb := kb) (q := q) h2 (by rw [readCheckHeader_map h1]; exact hf)
    exact this
  · cases h

theorem emit_keep {f : Dev → Outcome Dev} {o o' : Obj} (h : emit f o = ok o') : o'.map = o.map ∧ o'.user = o.user := by
  unfold emit at h
  cases hd : o.dev with
  | none => simp only [hd] at h; cases h
  | some d =>
    simp only [hd] at h
    split at h
    · cases h
    · simp only [Outcome.bind_eq_ok, ok.injEq] at h
      obtain ⟨d', -, rfl⟩ := h
      exact ⟨rfl, rfl⟩

/-- creating a file keeps them too, and the user data of the previous file -/
theorem openWrite_keeps {P : Plat} {nm : String} {o o' : Obj} (h : openWrite P nm o = ok o') : o'.map = o.map ∧ o'.user = o.user := by
  unfold openWrite at h
  split at h
  · simp only [Outcome.bind_eq_ok, ok.injEq] at h
    obtain ⟨o1, h1, o2, h2, o3, h3, p, -, q, -, o4, h4, rfl⟩ := h
    obtain ⟨a1, b1⟩ := emit_keep h1
    obtain ⟨a2, b2⟩ := emit_keep h2
    obtain ⟨a3, b3⟩ := emit_keep h3
    obtain ⟨a4, b4⟩ := emit_keep h4
    exact ⟨by simp only [a4, a3, a2, a1], by simp only [b4, b3, b2, b1]⟩
  · cases h

theorem seekEnd_keep {o o' : Obj} (h : seekEnd o = ok o') : o'.map = o.map := by
  unfold seekEnd at h
  cases hd : o.dev with
  | none => simp only [hd] at h; cases h
  | some d => simp only [hd, ok.injEq] at h; rw [← h]

theorem close_keeps {P : Plat} {fs fs' : Fs} {o o' : Obj} (h : close P fs o = ok (fs', o')) : o'.map = o.map := by
  unfold close at h
  split at h
  · simp only [ok.injEq, Prod.mk.injEq] at h; rw [← h.2]
  · simp only [Outcome.bind_eq_ok, ok.injEq, Prod.mk.injEq] at h
    obtain ⟨o1, h1, -, rfl⟩ := h
    unfold closeWrite at h1
    split at h1
    · simp only [writeMapBinary, rewind, writeSkipHeader, Outcome.bind_eq_ok] at h1
      obtain ⟨a1, h1, p, -, q, -, a2, ⟨b1, i1, b2, i2, b3, i3, c, -, i4⟩, a3, h3, a4, h4, a5, h5, h6⟩ := h1
      split at h4
      · rw [seekEnd_keep h6, (emit_keep h5).1, seek_map h4, seek_map h3, (emit_keep i4).1, (emit_keep i3).1, (emit_keep i2).1,
          reset_map i1, seekEnd_keep h1]
      · cases h4
    · cases h1
  · simp only [ok.injEq, Prod.mk.injEq] at h; rw [← h.2]

/-- C36 fails, for every pair of files: close the object, open any other file with it — every key of the first file still exists, and its
value is looked for at the position it has in the first file. -/
theorem C36_stale_keys (gk : Good kc KV kenc) {s : Sp K V} {P : Plat} {o : Obj} (h : Inv KV VV kenc venc s P o) {k : K} (hk : k ∈ s.dom)
    {fs fs' fs2 : Fs} {o1 o2 : Obj} (hc : close P fs o = ok (fs', o1)) {nm : String} {mode : Mode} (ho : «open» P fs2 nm mode o1 = ok o2) :
    exist kc P k o2 = ok true ∧ find o2.map (kenc k) = find o.map (kenc k) := by
  obtain ⟨d, slots, h⟩ := h
  obtain ⟨e, he, rfl, hf⟩ := h.filed.find_some (P := P) gk hk
  rw [← h.map, ← close_keeps hc] at hf
  have key : find o2.map (kenc e.k) = some (privOf P.be e.pos) := by
    unfold «open» at ho
    cases mode with
    | new => simp only at ho; rw [(openWrite_keeps ho).1]; exact hf
    | rd =>
      simp only at ho
      split at ho
      · cases ho
      · exact openRead_keeps ho hf
    | rw =>
      simp only at ho
      split at ho
      · cases ho
      · exact openRead_keeps ho hf
  rw [close_keeps hc] at hf
  exact ⟨by simp only [exist, bufBytes_eq gk P.be e.k (h.filed.slot e he).key, ok_bind, key, Option.isSome_some], by rw [key, hf]⟩

/-- the outcome up to the object's user data, which `openRead` replaces -/
theorem fetch_user {α : Type} (f : Dev → Outcome (α × Dev)) (o : Obj) (u : List Byte) :
    fetch f { o with user := u } = (do let (x, o) ← fetch f o; ok (x, { o with user := u })) := by
  unfold fetch
  cases hd : o.dev with
  | none => rfl
  | some d =>
    simp only
    cases f d <;> rfl

/-- C36, partial: opening a file for reading with an object that holds no entries (never used, or used only with empty files) gives what a
new object gives — nothing of its earlier life is visible.  With entries it fails: `C36_stale_keys`. -/
theorem C36_clean_partial (P : Plat) (nm : String) (rw' : Bool) (data : List Byte) (o : Obj) (ho : o.st = .init) (hm : o.map = []) :
    openRead P nm rw' data o = openRead P nm rw' data Obj.fresh := by
  obtain ⟨st, m, u, nm0, dv, rw0, log⟩ := o
  simp only at ho hm
  subst ho hm
  unfold openRead Obj.fresh readCheckHeader
  simp only [rewind]
  have h0 : ∀ u, seek 0 ⟨.init, [], u, nm, some ⟨data, 0, 0⟩, rw', []⟩ = ok ⟨.init, [], u, nm, some ⟨data, 0, 0⟩, rw', []⟩ := fun _ => rfl
  simp only [h0, ok_bind]
  have hu := fun {α : Type} (f : Dev → Outcome (α × Dev)) => fetch_user f ⟨.init, [], [], nm, some ⟨data, 0, 0⟩, rw', []⟩ u
  simp only at hu
  rw [hu]
  cases fetch (descC.read P.be) ⟨.init, [], [], nm, some ⟨data, 0, 0⟩, rw', []⟩ with
  | abort => rfl
  | ub => rfl
  | ok x =>
    obtain ⟨mg, o1⟩ := x
    simp only [ok_bind]
    split
    · rfl
    · simp only [fetch_user]
      cases fetch (u32C.read P.be) o1 with
      | abort => rfl
      | ub => rfl
      | ok y =>
        obtain ⟨vs, o2⟩ := y
        simp only [ok_bind, fetch_user]
        cases fetch (descC.read P.be) o2 with
        | abort => rfl
        | ub => rfl
        | ok z =>
          simp only [ok_bind, fetch_user]
          cases fetch (posC.read P.be) z.2 <;> rfl

end

/-- C36: user data are accepted only before the file is opened; afterwards the call reports failure and changes nothing. -/
theorem C36_user_data (u : List Byte) (o : Obj) :
    (o.st = .init → (insertUserdata u o).1 = 0 ∧ (insertUserdata u o).2 = { o with user := u }) ∧
    (o.st ≠ .init → insertUserdata u o = (1, o) ∧ getUserdata o = some o.user) := by
  obtain ⟨st, m, v, nm, dv, rw0, log⟩ := o
  cases st <;> simp [insertUserdata, getUserdata]

/-- C32: `keys` keeps what the vector of the caller holds and appends the keys. -/
theorem C32_keys_append {K : Type} (kc : Codec K) (P : Plat) (acc : List K) (o : Obj) :
    keys kc P acc o = (keys kc P [] o).bind fun l => ok (acc ++ l) := by
  unfold keys
  cases o.dev with
  | none => simp [Outcome.bind]
  | some d =>
    simp only
    cases readKeys kc P.be (P.iter o.map) <;> simp [Bind.bind, Outcome.bind]

/-- two files with one object: the second file has no key 1, but `exist(1)` is true and `get(1)` does not return its absence -/
def reuseRun : Outcome (Bool × List Int) := do
  let o ← create demoPlat "a" []
  let (_, o) ← insert int descC demoPlat 1 [0x41] o
  let (_, o) ← close demoPlat (fun _ => none) o
  let p ← create demoPlat "b" []
  let (_, p) ← insert int descC demoPlat 2 [0x42] p
  let (fs, _) ← close demoPlat (fun _ => none) p
  let o ← «open» demoPlat fs "b" .rd o
  let b ← exist int demoPlat 1 o
  let l ← keys int demoPlat [] o
  ok (b, l)

example : reuseRun = ok (true, [1, 2]) := by decide +kernel

end Verif.MapDisk
