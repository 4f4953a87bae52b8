import Verif.MapDiskThm
/-
Crashes of a process writing a disk map object: the file after any number of the bytes written so far (C34).
-/
set_option linter.unusedSectionVars false

namespace Verif.MapDisk
open Verif Outcome ByteOrder Verif.BinIO Verif.MapObj

/-! ## specification -/

/-- single bytes of a write -/
def bytes1 : Nat → List Byte → List (Nat × Byte)
  | _, [] => []
  | p, b :: t => (p, b) :: bytes1 (p + 1) t

/-- the bytes of a sequence of writes, in order -/
def bytesOf : List (Nat × List Byte) → List (Nat × Byte)
  | [] => []
  | e :: t => bytes1 e.1 e.2 ++ bytesOf t

/-- the file after these bytes were written -/
def land (data : List Byte) : List (Nat × Byte) → List Byte
  | [] => data
  | e :: t => land (overwrite data e.1 [e.2]) t

/-! ## proofs -/

theorem land_append (data : List Byte) (a b : List (Nat × Byte)) : land data (a ++ b) = land (land data a) b := by
  induction a generalizing data with
  | nil => rfl
  | cons e t ih => rw [List.cons_append, land, land, ih]

theorem land_bytes1 (data : List Byte) (p : Nat) (bs : List Byte) : land data (bytes1 p bs) = overwrite data p bs := by
  induction bs generalizing data p with
  | nil => simp [bytes1, land, overwrite]
  | cons b t ih =>
    rw [bytes1, land, ih, show p + 1 = p + [b].length from rfl, overwrite_append]
    rfl

theorem bytesOf_append (a b : List (Nat × List Byte)) : bytesOf (a ++ b) = bytesOf a ++ bytesOf b := by
  induction a with
  | nil => rfl
  | cons e t ih => rw [List.cons_append, bytesOf, bytesOf, ih, List.append_assoc]

theorem bytes1_length (p : Nat) (bs : List Byte) : (bytes1 p bs).length = bs.length := by
  induction bs generalizing p with
  | nil => rfl
  | cons b t ih => rw [bytes1, List.length_cons, List.length_cons, ih]

theorem bytes1_ge {p : Nat} {bs : List Byte} {e : Nat × Byte} (h : e ∈ bytes1 p bs) : p ≤ e.1 := by
  induction bs generalizing p with
  | nil => simp [bytes1] at h
  | cons b t ih =>
    rw [bytes1, List.mem_cons] at h
    rcases h with rfl | h
    · exact le_refl _
    · have := ih h; omega

theorem land_le (data : List Byte) (w : List (Nat × Byte)) : data.length ≤ (land data w).length := by
  induction w generalizing data with
  | nil => exact le_refl _
  | cons e t ih => exact le_trans (overwrite_length_le _ _ _) (ih _)

theorem at_land {data bs : List Byte} {p E : Nat} (h : At data p bs) (hE : p + bs.length ≤ E) {w : List (Nat × Byte)} (hw : ∀ e ∈ w, E ≤ e.1) :
    At (land data w) p bs := by
  induction w generalizing data with
  | nil => exact h
  | cons e t ih =>
    refine ih (at_overwrite h (Or.inl ?_)) (fun e he => hw e (by simp [he]))
    have := hw e (by simp)
    omega

section
variable {K V : Type} [DecidableEq K] {kc : Codec K} {vc : Codec V} {KV : K → Prop} {VV : V → Prop}
  {kenc : K → List Byte} {venc : V → List Byte}

/-- writes behind the map do not change what the file shows -/
theorem filed_land {s s' : Sp K V} {data : List Byte} {slots : List (Slot K V)} (hf : Filed KV VV kenc venc s data slots)
    {mp : Nat} {l : List (List Byte × Nat)} (hc : Committed kenc s.user data slots mp l) {w : List (Nat × Byte)}
    (hw : ∀ e ∈ w, mp + (mapBytes l).length ≤ e.1) (hu : s'.user = s.user) (hv : s'.val = s.val) (hd : s'.dom = s.dom) (hcap : s'.cap = s.cap)
    (hl : (land data w).length ≤ s'.len) (hm : s'.len < 2 ^ 63) :
    Filed KV VV kenc venc s' (land data w) slots ∧ Committed kenc s'.user (land data w) slots mp l := by
  obtain ⟨u, v, dm, cp, a, b, c, ln⟩ := s
  obtain ⟨u', v', dm', cp', a', b', c', ln'⟩ := s'
  simp only at hu hv hd hcap hl hm
  subst hu hv hd hcap
  have hst := hc.start
  have hle := land_le data w
  constructor
  · refine ⟨hf.ulen, ?_, le_trans hf.link hle, hl, hm, hf.dom, hf.nodup, hf.count, fun e he => ?_, hf.none, hf.apart⟩
    · exact at_land hf.hdr (by rw [header_length]; simp only at hst ⊢; omega) hw
    · have hs := hf.slot e he
      refine ⟨hs.key, hs.klen, hs.good, hs.val, hs.cap, hs.start, le_trans hs.stop hle, hs.fits, ?_⟩
      refine at_land hs.here ?_ hw
      have := hc.behind e he
      have := hs.fits
      rw [recBytes_length]
      omega
  · exact ⟨hc.perm, at_land hc.link (by rw [posBytes_length]; simp only at hst ⊢; omega) hw, at_land hc.here (le_refl _) hw, hc.start, hc.behind⟩

/-- inserting new keys, one after another -/
def insertAll (kc : Codec K) (vc : Codec V) (P : Plat) : List (K × V) → Obj → Outcome Obj
  | [], o => ok o
  | e :: t, o => do
      let (_, o) ← insert kc vc P e.1 e.2 o
      insertAll kc vc P t o

/-- the calls are allowed and all keys are new -/
def NewAll (kenc : K → List Byte) (venc : V → List Byte) (KV : K → Prop) (VV : V → Prop) : Sp K V → List (K × V) → Prop
  | _, [] => True
  | s, e :: t => e.1 ∉ s.dom ∧ Allowed kenc venc KV VV s (.insert e.1 e.2) ∧ NewAll kenc venc KV VV (s.step kenc venc (.insert e.1 e.2)) t

/-- the finite map after the insertions -/
def Sp.insertAll (kenc : K → List Byte) (venc : V → List Byte) : Sp K V → List (K × V) → Sp K V
  | s, [] => s
  | s, e :: t => Sp.insertAll kenc venc (s.step kenc venc (.insert e.1 e.2)) t

theorem insertAll_eq (gk : Good kc KV kenc) (gv : Good vc VV venc) (l : List (K × V)) {s : Sp K V} {P : Plat} {o : Obj} {d : Dev}
    {slots : List (Slot K V)} (h : InvS KV VV kenc venc s P o d slots) (hE : s.atEnd = true) (ha : NewAll kenc venc KV VV s l) :
    ∃ o' d' slots' w, insertAll kc vc P l o = ok o' ∧ InvS KV VV kenc venc (s.insertAll kenc venc l) P o' d' slots' ∧
      (s.insertAll kenc venc l).atEnd = true ∧ o'.log = o.log ++ w ∧ d'.data = land d.data (bytesOf w) ∧
      (∀ e ∈ bytesOf w, d.pos ≤ e.1) ∧ d.pos ≤ d'.data.length := by
  induction l generalizing s o d slots with
  | nil => exact ⟨o, d, slots, [], rfl, h, hE, (List.append_nil _).symm, rfl, by simp [bytesOf], (h.atEnd hE).2.1⟩
  | cons e t ih =>
    obtain ⟨hn, ha1, ha2⟩ := ha
    obtain ⟨o1, d1, sl1, q, h1, h2, h3, h4, h5⟩ := insert_eq gk gv h e.1 e.2 ha1
    obtain ⟨hq, hsl⟩ := h5 hn
    have hE1 : (s.step kenc venc (.insert e.1 e.2)).atEnd = true := by simp only [Sp.step, hn, if_false, hE]
    obtain ⟨o2, d2, sl2, w, h6, h7, h8, h9, h10, h11, h12⟩ := ih h2 hE1 ha2
    have hpos : d.pos ≤ d1.pos := by
      have := (h2.atEnd hE1).2.2 ⟨e.1, e.2, d.pos, (venc e.2).length + 4⟩ (by rw [hsl]; simp)
      simp only at this
      omega
    refine ⟨o2, d2, sl2, [(q, venc e.2), (q + (venc e.2).length, w32 (crcOf 0 (venc e.2)))] ++ w, ?_, h7, h8, ?_, ?_, ?_, by omega⟩
    · simp only [insertAll, h1, ok_bind, h6]
    · rw [h9, h3, List.append_assoc]
    · rw [h10, h4, bytesOf_append, land_append]
      congr 1
      simp only [bytesOf, List.append_nil, land_append, land_bytes1, overwrite_append, recBytes]
    · intro x hx
      rw [bytesOf_append, List.mem_append] at hx
      rcases hx with hx | hx
      · simp only [bytesOf, List.append_nil, List.mem_append] at hx
        rcases hx with hx | hx
        · have := bytes1_ge hx; omega
        · have := bytes1_ge hx; omega
      · have := h11 x hx; omega

/-- C34, partial: a process opens the file or flushes it (the last completed flush), then only inserts new keys, then may begin a flush.
After any number `n` of the bytes written since — short of the last 16 of the flush, the link — the file opens and shows the map of the
last completed flush; after all of them it shows the new map.  Missing: crashes inside the link (refuted below). -/
theorem C34_crash_partial (gk : Good kc KV kenc) (gv : Good vc VV venc) (P : Plat) (hP : Usable P) (nm : String) (u : List Byte)
    (hu : u.length < 2 ^ 31) (ps : List (DOp K V)) (ha : AllowedAll kenc venc KV VV (Sp.new u) ps) (s : Sp K V)
    (hs : s = Sp.steps kenc venc (Sp.new u) ps) (hclean : s.dirty = false) (hend : s.atEnd = true)
    (l : List (K × V)) (hl : NewAll kenc venc KV VV s l) (fl : Bool) (hlim : ((s.insertAll kenc venc l).flushed kenc).len < 2 ^ 63) :
    ∃ o rs P1 o1 o2 w data1, create P nm u = ok o ∧ run kc vc P o ps = ok (rs, P1, o1) ∧ o1.dev.map (·.data) = some data1 ∧
      (do let x ← insertAll kc vc P1 l o1; if fl then flush P1 x else ok x) = ok o2 ∧
      o2.log = o1.log ++ w ∧ o2.dev.map (·.data) = some (land data1 (bytesOf w)) ∧
      (∀ n, n + (if fl ∧ l ≠ [] then 16 else 0) ≤ (bytesOf w).length →
        Shows kc vc KV s.user s.dom s.val (land data1 ((bytesOf w).take n))) ∧
      (fl = true → Shows kc vc KV u (s.dom ++ l.map (·.1)) (s.insertAll kenc venc l).val (land data1 (bytesOf w))) := by
  obtain ⟨o, c1, c2⟩ := create_eq KV VV kenc venc P hP nm u hu
  obtain ⟨rs, P1, o1, c3, -, d, slots, c4⟩ := run_sim gk gv ps c2 ha
  rw [← hs] at c4
  have huser : ∀ (s : Sp K V) (p : DOp K V), (s.step kenc venc p).user = s.user := by
    intro s p
    cases p <;> simp only [Sp.step, Sp.flushed] <;> (try split) <;> rfl
  have husers : ∀ (ps : List (DOp K V)) (s : Sp K V), (Sp.steps kenc venc s ps).user = s.user := by
    intro ps
    induction ps with
    | nil => intro s; rfl
    | cons p t ih => intro s; rw [Sp.steps, ih, huser]
  have hsu : s.user = u := by rw [hs, husers]; rfl
  have huall : ∀ (l : List (K × V)) (s : Sp K V), (s.insertAll kenc venc l).user = s.user := by
    intro l
    induction l with
    | nil => intro s; rfl
    | cons e t ih => intro s; rw [Sp.insertAll, ih, huser]
  have hdall : ∀ (l : List (K × V)) (s : Sp K V), NewAll kenc venc KV VV s l →
      (s.insertAll kenc venc l).dom = s.dom ++ l.map (·.1) ∧ (l ≠ [] → (s.insertAll kenc venc l).dirty = true) ∧
      s.len ≤ (s.insertAll kenc venc l).len := by
    intro l
    induction l with
    | nil => intro s _; exact ⟨by simp [Sp.insertAll], by simp, le_refl _⟩
    | cons e t ih =>
      intro s hn
      obtain ⟨h1, h2, h3⟩ := ih _ hn.2.2
      have e1 : s.step kenc venc (.insert e.1 e.2) = ⟨s.user, fun j => if j = e.1 then some e.2 else s.val j, s.dom ++ [e.1],
        fun j => if j = e.1 then (venc e.2).length + 4 else s.cap j, s.atEnd, true, s.rw, s.len + (venc e.2).length + 4⟩ := by
        simp only [Sp.step, hn.1, if_false]
      rw [Sp.insertAll]
      refine ⟨?_, fun _ => ?_, ?_⟩
      · rw [h1, e1, List.append_assoc]; rfl
      · cases t with
        | nil => rw [Sp.insertAll, e1]
        | cons a b => exact h2 (by simp)
      · refine le_trans ?_ h3
        rw [e1]
        show s.len ≤ s.len + _ + 4
        omega
  obtain ⟨hdom, hdirty, -⟩ := hdall l s hl
  obtain ⟨mp, lm, hcm, hmp⟩ := c4.clean hclean
  have hmp := hmp hend
  obtain ⟨o2, d2, slots2, w, i1, i2, i3, i4, i5, i6, i7⟩ := insertAll_eq gk gv l c4 hend hl
  have hdev1 : o1.dev.map (·.data) = some d.data := by rw [c4.dev]; rfl
  -- any image with writes behind the map
  have image : ∀ (v : List (Nat × Byte)), (∀ e ∈ v, d.pos ≤ e.1) → (land d.data v).length < 2 ^ 63 →
      Shows kc vc KV s.user s.dom s.val (land d.data v) := by
    intro v hv hlv
    obtain ⟨f1, f2⟩ := filed_land (s' := { s with len := (land d.data v).length }) c4.filed hcm (w := v)
      (fun e he => by have := hv e he; omega) rfl rfl rfl rfl (le_refl _) hlv
    exact shows_of (s := { s with len := (land d.data v).length }) gk gv f1 f2
  have hsl : (s.insertAll kenc venc l).len < 2 ^ 63 := i2.filed.lim
  by_cases hfl : fl = true ∧ l ≠ []
  · obtain ⟨hfl, hne⟩ := hfl
    have hd2 := hdirty hne
    obtain ⟨b1, b2, b3, lm', data', hb, hdat, hc, hf, hcm'⟩ := commit_eq i2 hd2 hlim
    have hst : o2.st = .modified := by rw [i2.st, hd2, if_pos rfl]
    have hland : data' = land d.data (bytesOf (w ++ [(d2.data.length, b1), (d2.data.length + b1.length, b2),
        (d2.data.length + b1.length + b2.length, b3), (hlen (s.insertAll kenc venc l).user, posBytes d2.data.length)])) := by
      rw [hdat, bytesOf_append, land_append, ← i5]
      simp only [bytesOf, List.append_nil, land_append, land_bytes1]
      rw [overwrite_append, overwrite_append, ← List.append_assoc, hb, overwrite_end]
    refine ⟨o, rs, P1, o1, ⟨.unchanged, o2.map, o2.user, o2.name, some ⟨data', data'.length, 0⟩, true,
        o2.log ++ [(d2.data.length, b1), (d2.data.length + b1.length, b2), (d2.data.length + b1.length + b2.length, b3),
          (hlen (s.insertAll kenc venc l).user, posBytes d2.data.length)]⟩,
      w ++ [(d2.data.length, b1), (d2.data.length + b1.length, b2),
        (d2.data.length + b1.length + b2.length, b3), (hlen (s.insertAll kenc venc l).user, posBytes d2.data.length)],
      d.data, c1, c3, hdev1, ?_, ?_, ?_, ?_, ?_⟩
    · simp only [i1, ok_bind, hfl, if_true, flush, hst, hc]
    · simp only [i4, List.append_assoc]
    · rw [← hland]; rfl
    · intro n hn
      rw [if_pos ⟨hfl, hne⟩] at hn
      have hsplit : bytesOf (w ++ [(d2.data.length, b1), (d2.data.length + b1.length, b2),
          (d2.data.length + b1.length + b2.length, b3), (hlen (s.insertAll kenc venc l).user, posBytes d2.data.length)]) =
          (bytesOf w ++ (bytes1 d2.data.length b1 ++ (bytes1 (d2.data.length + b1.length) b2 ++
            bytes1 (d2.data.length + b1.length + b2.length) b3))) ++ bytes1 (hlen (s.insertAll kenc venc l).user) (posBytes d2.data.length) := by
        simp only [bytesOf_append, bytesOf, List.append_nil, List.append_assoc]
      rw [hsplit] at hn ⊢
      rw [List.length_append, bytes1_length, posBytes_length] at hn
      have hall : ∀ e ∈ (bytesOf w ++ (bytes1 d2.data.length b1 ++ (bytes1 (d2.data.length + b1.length) b2 ++
            bytes1 (d2.data.length + b1.length + b2.length) b3))), d.pos ≤ e.1 := by
        intro e he
        simp only [List.mem_append] at he
        rcases he with he | he | he | he
        · exact i6 e he
        · have := bytes1_ge he; omega
        · have := bytes1_ge he; omega
        · have := bytes1_ge he; omega
      rw [List.take_append_of_le_length (by omega)]
      refine image _ (fun e he => hall e (List.mem_of_mem_take he)) ?_
      have h1 : (land d.data (List.take n (bytesOf w ++ (bytes1 d2.data.length b1 ++ (bytes1 (d2.data.length + b1.length) b2 ++
            bytes1 (d2.data.length + b1.length + b2.length) b3))))).length ≤ data'.length := by
        rw [hland, hsplit]
        conv_rhs => rw [← List.take_append_drop n (bytesOf w ++ (bytes1 d2.data.length b1 ++ (bytes1 (d2.data.length + b1.length) b2 ++
            bytes1 (d2.data.length + b1.length + b2.length) b3))), List.append_assoc, land_append]
        exact land_le _ _
      exact lt_of_le_of_lt (le_trans h1 hf.len) hf.lim
    · intro _
      rw [← hland]
      have e0 : (s.insertAll kenc venc l).flushed kenc = { s.insertAll kenc venc l with
          atEnd := true, dirty := false, len := (s.insertAll kenc venc l).len + mapLen kenc (s.insertAll kenc venc l).dom } := by
        simp only [Sp.flushed, hd2, if_true]
      have hsh := shows_of (kc := kc) (vc := vc) gk gv hf (hc := (by rw [e0]; exact hcm'))
      rw [e0] at hsh
      simp only [huall, hsu, hdom] at hsh
      exact hsh
  · have hrun : (do let x ← insertAll kc vc P1 l o1; if fl then flush P1 x else ok x) = ok o2 := by
      rw [i1, ok_bind]
      cases fl with
      | false => rfl
      | true =>
        have hl0 : l = [] := by
          by_contra h
          exact hfl ⟨rfl, h⟩
        subst hl0
        simp only [insertAll, ok.injEq] at i1
        subst i1
        have hst : o1.st = .unchanged := by rw [c4.st, hclean]; simp
        simp only [if_true, flush, hst]
    refine ⟨o, rs, P1, o1, o2, w, d.data, c1, c3, hdev1, hrun, i4, ?_, ?_, ?_⟩
    · rw [i2.dev, ← i5]; rfl
    · intro n _
      refine image _ (fun e he => i6 e (List.mem_of_mem_take he)) ?_
      have h1 : (land d.data ((bytesOf w).take n)).length ≤ d2.data.length := by
        rw [i5]
        conv_rhs => rw [← List.take_append_drop n (bytesOf w), land_append]
        exact land_le _ _
      exact lt_of_le_of_lt (le_trans h1 i2.filed.len) hsl
    · intro hf1
      have hl0 : l = [] := by
        by_contra h
        exact hfl ⟨hf1, h⟩
      subst hl0
      have := image (bytesOf w) i6 (by rw [← i5]; exact lt_of_le_of_lt i2.filed.len hsl)
      rw [hsu] at this
      simpa [Sp.insertAll] using this

end

/-- A file that was created and never flushed cannot be opened: the link points to itself. -/
theorem C34_never_flushed (P : Plat) (hP : Readable P) (nm : String) (rw' : Bool) (o : Obj) (ho : o.st = .init) (u : List Byte)
    (hu : u.length < 2 ^ 31) (data : List Byte) (h1 : At data 0 (header u)) (h2 : At data (hlen u) (posBytes (hlen u))) :
    openRead P nm rw' data o = abort := by
  obtain ⟨d', hd1, hr⟩ := readCheckHeader_eq (st := .init) (m := o.map) (u := o.user) (nm := nm) (rw' := rw') (log := [])
    (d := ⟨data, 0, 0⟩) P u hu (hlen u) (by unfold hlen; omega) h1 h2
  unfold openRead
  simp only [ho, hr, ok_bind]
  have hz : posBytes (hlen u) = w32 0 ++ (w32 0 ++ be64 (hlen u)) := by
    have h0 : hlen u / 2 ^ 64 = 0 := Nat.div_eq_of_lt (by unfold hlen; omega)
    unfold posBytes
    rw [h0]
    rfl
  rw [hz] at h2
  have hs : (⟨d'.data, hlen u, 0⟩ : Dev).Sees (w32 0 ++ (w32 0 ++ be64 (hlen u))) := by rw [hd1]; exact h2
  unfold readMapBinary
  simp only [hP.back (hlen u) (by unfold hlen; omega), ok_bind, seek_eq, reset_eq]
  rw [fetch_eq (u32_good.rd P.be 0 _ trivial (Sees.left hs))]
  simp only [ok_bind]
  rw [show (0 : BitVec 32).toNat = 0 from rfl, readEntries]
  simp only [ok_bind, getChecksum]
  rw [fetch_eq (u32_good.rd P.be 0 _ trivial (Sees.left (Sees.right hs)))]
  simp only [ok_bind]
  have hne : (0 : BitVec 32) ≠ ((⟨d'.data, hlen u, 0⟩ : Dev).skip (w32 0)).crc := by
    show (0 : BitVec 32) ≠ crcOf 0 (w32 0)
    decide +kernel
  rw [if_pos hne]
  rfl

/-- A file that begins with another string than that of the library is refused, whatever follows and whatever object is used. -/
theorem C33_foreign (P : Plat) (nm : String) (rw' : Bool) (o : Obj) (ho : o.st = .init) (s : List Byte) (hs : s.length < 2 ^ 31)
    (hm : s ≠ magic) (data : List Byte) (h1 : At data 0 (be32 s.length ++ s)) : openRead P nm rw' data o = abort := by
  have hz : (⟨data, 0, 0⟩ : Dev).Sees (be32 s.length ++ s) := h1
  unfold openRead readCheckHeader rewind
  simp only [ho]
  have h0 : seek 0 ⟨.init, o.map, o.user, nm, some ⟨data, 0, 0⟩, rw', []⟩ = ok ⟨.init, o.map, o.user, nm, some ⟨data, 0, 0⟩, rw', []⟩ := rfl
  rw [h0]
  simp only [ok_bind]
  rw [fetch_eq (C24_desc.rd P.be s _ hs hz)]
  simp only [ok_bind]
  rw [if_pos hm]
  rfl

example : ([0x58, 0x58] : List Byte) ≠ magic ∧ At ([0, 0, 0, 2, 0x58, 0x58, 7, 7] : List Byte) 0 (be32 2 ++ [0x58, 0x58]) := by
  refine ⟨by decide, ?_⟩
  unfold At
  decide

/-! ## examples and the torn link -/

/-- the file after the first `n` bytes of `w` -/
def image (data : List Byte) (w : List (Nat × List Byte)) (n : Nat) : List Byte := land data ((bytesOf w).take n)

/-- A process creates a file, inserts key 1 and flushes, inserts key 2 and flushes; result: the file after the first flush and the
writes since. -/
def tornRun : Outcome (List Byte × List (Nat × List Byte)) := do
  let o ← create demoPlat "f" []
  let (_, o) ← insert int descC demoPlat 1 (List.replicate 100 0x41) o
  let o ← flush demoPlat o
  match o.dev with
  | none => ub
  | some d => do
    let n := o.log.length
    let (_, o) ← insert int descC demoPlat 2 (List.replicate 67 0x42) o
    let o ← flush demoPlat o
    ok (d.data, o.log.drop n)

def isOk {α : Type} : Outcome α → Bool
  | ok _ => true
  | _ => false

/-- opening the file after all but the last `k` bytes -/
def tornOk (k : Nat) : Bool :=
  match tornRun with
  | ok (data, w) => isOk (openRead demoPlat "f" false (image data w ((bytesOf w).length - k)) Obj.fresh)
  | _ => true

set_option maxRecDepth 100000 in
theorem torn_false : tornOk 1 = false := by decide +kernel

/-- C34 fails inside the link: the file cannot be opened when all bytes but the last one of a flush arrived. -/
theorem C34_torn_link : ∃ data w, tornRun = ok (data, w) ∧
    ∀ o, openRead demoPlat "f" false (image data w ((bytesOf w).length - 1)) Obj.fresh ≠ ok o := by
  have h := torn_false
  unfold tornOk at h
  cases hr : tornRun with
  | ok x =>
    refine ⟨x.1, x.2, rfl, fun o ho => ?_⟩
    rw [hr] at h
    simp only [ho, isOk, Bool.true_eq_false] at h
  | abort => rw [hr] at h; simp at h
  | ub => rw [hr] at h; simp at h

/-- `C34_crash_partial` and the theorems on histories apply to that program -/
example : AllowedAll be32 (fun v : List Byte => be32 v.length ++ v) (fun x : Int => -2 ^ 31 ≤ x ∧ x < 2 ^ 31) (fun v => v.length < 2 ^ 31)
      (Sp.new []) [.insert 1 (List.replicate 100 0x41), .flush] ∧
    NewAll be32 (fun v : List Byte => be32 v.length ++ v) (fun x : Int => -2 ^ 31 ≤ x ∧ x < 2 ^ 31) (fun v => v.length < 2 ^ 31)
      (Sp.steps be32 (fun v : List Byte => be32 v.length ++ v) (Sp.new []) [.insert 1 (List.replicate 100 0x41), .flush])
      [(2, List.replicate 67 0x42)] ∧
    (Sp.steps be32 (fun v : List Byte => be32 v.length ++ v) (Sp.new []) [.insert (1 : Int) (List.replicate 100 0x41), .flush]).atEnd = true := by
  have hb : ∀ n : Int, (be32 n).length = 4 := fun _ => rfl
  simp [AllowedAll, Allowed, Sp.new, Sp.step, Sp.flushed, NewAll, Sp.steps, mapLen, hb]

/-- and the file of a process that died before its first flush meets the hypotheses of `C34_never_flushed` -/
example (nm : String) (u : List Byte) (hu : u.length < 2 ^ 31) : ∃ o d, create demoPlat nm u = ok o ∧ o.dev = some d ∧
    At d.data 0 (header u) ∧ At d.data (hlen u) (posBytes (hlen u)) := by
  obtain ⟨c, lg, ho⟩ := openWrite_eq (nm := nm) demoPlat demo_usable (insertUserdata u Obj.fresh).2 rfl hu
  refine ⟨_, _, ho, rfl, List.prefix_append _ _, ?_⟩
  have : (⟨header u ++ posBytes (hlen u), hlen u + 16, c⟩ : Dev).data = header u ++ posBytes (hlen u) := rfl
  show At (header u ++ posBytes (hlen u)) (hlen u) (posBytes (hlen u))
  unfold At
  rw [← header_length, List.drop_left]
  exact List.prefix_refl _

end Verif.MapDisk
