import Verif.MapDiskProps
import Mathlib.Data.List.Nodup
/-
The disk map object against a finite map: specification, invariant, and the simulation step by step.
-/
set_option linter.unusedSectionVars false

namespace Verif.MapDisk
open Verif Outcome ByteOrder Verif.BinIO Verif.MapObj

/-! ## programs using the object -/

inductive DOp (K V : Type)
  | insert (k : K) (v : V) | get (k : K) | exist (k : K) | size | keys | user | flush
  /-- close the file; open it again in another process on host `P`, for reading and writing or for reading -/
  | reopen (P : Plat) (rw : Bool)

inductive DRes (K V : Type)
  | code (n : Nat) | val (v : Option V) | bool (b : Bool) | num (n : Nat) | keys (l : List K) | user (u : Option (List Byte)) | unit

/-- one call; the host is part of the state since the file may be opened elsewhere -/
def step {K V : Type} (kc : Codec K) (vc : Codec V) (P : Plat) (o : Obj) : DOp K V → Outcome (DRes K V × (Plat × Obj))
  | .insert k v => do let (c, o) ← insert kc vc P k v o; ok (.code c, P, o)
  | .get k => do let (v, o) ← get kc vc P k o; ok (.val v, P, o)
  | .exist k => do let b ← exist kc P k o; ok (.bool b, P, o)
  | .size => ok (.num (size o), P, o)
  | .keys => do let l ← keys kc P [] o; ok (.keys l, P, o)
  | .user => ok (.user (getUserdata o), P, o)
  | .flush => do let o ← flush P o; ok (.unit, P, o)
  | .reopen P' rw => do
      let (fs, o) ← close P (fun _ => none) o
      let o ← «open» P' fs o.name (if rw then .rw else .rd) Obj.fresh
      ok (.unit, P', o)

def run {K V : Type} (kc : Codec K) (vc : Codec V) (P : Plat) (o : Obj) : List (DOp K V) → Outcome (List (DRes K V) × (Plat × Obj))
  | [] => ok ([], P, o)
  | p :: ps => do
      let (r, P, o) ← step kc vc P o p
      let (rs, P, o) ← run kc vc P o ps
      ok (r :: rs, P, o)

/-- a new file: the user string is set, then the file is opened with `trunc` -/
def create (P : Plat) (name : String) (u : List Byte) : Outcome Obj :=
  «open» P (fun _ => none) name .new (insertUserdata u Obj.fresh).2

/-! ## specification -/

/-- A finite map with the bookkeeping needed to say when the object is safe: `cap k` is the room the record of `k` has in the file;
`atEnd` says that nothing was looked up or updated since the last flush, opening or insertion of a new key; `dirty` that something was
inserted since the last flush; `len` bounds the length of the file. -/
structure Sp (K V : Type) where
  user : List Byte
  val : K → Option V
  dom : List K
  cap : K → Nat
  atEnd : Bool
  dirty : Bool
  rw : Bool
  len : Nat

section
variable {K V : Type} [DecidableEq K] (kenc : K → List Byte) (venc : V → List Byte)

/-- bytes a flush appends for these keys -/
def mapLen : List K → Nat
  | [] => 8
  | k :: t => (kenc k).length + 20 + mapLen t

/-- the map becomes durable -/
def Sp.flushed (s : Sp K V) : Sp K V :=
  if s.dirty then { s with atEnd := true, dirty := false, len := s.len + mapLen kenc s.dom } else s

/-- effect of each call on the finite map -/
def Sp.step (s : Sp K V) : DOp K V → Sp K V
  | .insert k v =>
      if k ∈ s.dom then ⟨s.user, fun j => if j = k then some v else s.val j, s.dom, s.cap, false, true, s.rw, s.len⟩
      else ⟨s.user, fun j => if j = k then some v else s.val j, s.dom ++ [k],
        fun j => if j = k then (venc v).length + 4 else s.cap j, s.atEnd, true, s.rw, s.len + (venc v).length + 4⟩
  | .get k => if k ∈ s.dom then { s with atEnd := false } else s
  | .flush => s.flushed kenc
  | .reopen _ rw => { s.flushed kenc with atEnd := true, rw := rw }
  | _ => s

/-- the answers of a finite map -/
def Answer (s : Sp K V) : DOp K V → DRes K V → Prop
  | .insert _ _, r => r = .code 0
  | .get k, r => r = .val (s.val k)
  | .exist k, r => r = .bool (s.val k).isSome
  | .size, r => r = .num s.dom.length
  | .keys, r => ∃ l, r = .keys l ∧ l.Perm s.dom
  | .user, r => r = .user (some s.user)
  | .flush, r => r = .unit
  | .reopen _ _, r => r = .unit

/-- The calls under which the object behaves: a new key is inserted only when nothing was looked up or updated since the last flush,
opening or insertion of a new key; an update does not need more room than the record has; the file stays below 2^63 bytes. -/
def Allowed (KV : K → Prop) (VV : V → Prop) (s : Sp K V) : DOp K V → Prop
  | .insert k v => KV k ∧ VV v ∧ s.rw = true ∧ (kenc k).length < 2 ^ 31 ∧
      if k ∈ s.dom then (venc v).length + 4 ≤ s.cap k
      else s.atEnd = true ∧ s.len + (venc v).length + 4 < 2 ^ 63 ∧ s.dom.length + 1 < 2 ^ 32
  | .get k => KV k
  | .exist k => KV k
  | .flush => (s.flushed kenc).len < 2 ^ 63
  | .reopen P rw => Readable P ∧ (rw = true → Usable P) ∧ (s.flushed kenc).len < 2 ^ 63
  | _ => True

def AllowedAll (KV : K → Prop) (VV : V → Prop) : Sp K V → List (DOp K V) → Prop
  | _, [] => True
  | s, p :: ps => Allowed kenc venc KV VV s p ∧ AllowedAll KV VV (s.step kenc venc p) ps

def Answers : Sp K V → List (DOp K V) → List (DRes K V) → Prop
  | _, [], rs => rs = []
  | s, p :: ps, rs => ∃ r rs', rs = r :: rs' ∧ Answer s p r ∧ Answers (s.step kenc venc p) ps rs'

def Sp.steps : Sp K V → List (DOp K V) → Sp K V
  | s, [] => s
  | s, p :: ps => Sp.steps (s.step kenc venc p) ps

/-- a new file -/
def Sp.new (u : List Byte) : Sp K V := ⟨u, fun _ => none, [], fun _ => 0, true, true, true, 57 + u.length⟩

end

/-! ## invariant -/

/-- a record in the file -/
structure Slot (K V : Type) where
  k : K
  v : V
  pos : Nat
  cap : Nat

section
variable {K V : Type} [DecidableEq K] {kc : Codec K} {vc : Codec V} {KV : K → Prop} {VV : V → Prop}
  {kenc : K → List Byte} {venc : V → List Byte}

/-- one record is where it should be -/
structure SlotOk (KV : K → Prop) (VV : V → Prop) (kenc : K → List Byte) (venc : V → List Byte) (s : Sp K V) (data : List Byte)
    (e : Slot K V) : Prop where
  key : KV e.k
  klen : (kenc e.k).length < 2 ^ 31
  good : VV e.v
  val : s.val e.k = some e.v
  cap : s.cap e.k = e.cap
  start : hlen s.user + 16 ≤ e.pos
  stop : e.pos + e.cap ≤ data.length
  fits : (venc e.v).length + 4 ≤ e.cap
  here : At data e.pos (recBytes venc e.v)

/-- the file holds the records -/
structure Filed (KV : K → Prop) (VV : V → Prop) (kenc : K → List Byte) (venc : V → List Byte) (s : Sp K V) (data : List Byte)
    (slots : List (Slot K V)) : Prop where
  ulen : s.user.length < 2 ^ 31
  hdr : At data 0 (header s.user)
  link : hlen s.user + 16 ≤ data.length
  len : data.length ≤ s.len
  lim : s.len < 2 ^ 63
  dom : (slots.map (·.k)).Perm s.dom
  nodup : s.dom.Nodup
  count : s.dom.length < 2 ^ 32
  slot : ∀ e ∈ slots, SlotOk KV VV kenc venc s data e
  none : ∀ k, k ∉ s.dom → s.val k = none
  apart : ∀ e ∈ slots, ∀ f ∈ slots, e.k ≠ f.k → e.pos + e.cap ≤ f.pos ∨ f.pos + f.cap ≤ e.pos

/-- key and position of a record -/
def Slot.ent (kenc : K → List Byte) (e : Slot K V) : List Byte × Nat := (kenc e.k, e.pos)

/-- the file has a map of these records at `mp`, behind them -/
structure Committed (kenc : K → List Byte) (u : List Byte) (data : List Byte) (slots : List (Slot K V)) (mp : Nat)
    (l : List (List Byte × Nat)) : Prop where
  perm : l.Perm (slots.map (Slot.ent kenc))
  link : At data (hlen u) (posBytes mp)
  here : At data mp (mapBytes l)
  start : hlen u + 16 ≤ mp
  behind : ∀ e ∈ slots, e.pos + e.cap ≤ mp

structure InvS (KV : K → Prop) (VV : V → Prop) (kenc : K → List Byte) (venc : V → List Byte) (s : Sp K V) (P : Plat) (o : Obj)
    (d : Dev) (slots : List (Slot K V)) : Prop where
  readable : Readable P
  usable : s.rw = true → Usable P
  filed : Filed KV VV kenc venc s d.data slots
  dev : o.dev = some d
  rw : o.rw = s.rw
  dw : s.dirty = true → s.rw = true
  st : o.st = if s.dirty then .modified else .unchanged
  user : o.user = s.user
  map : o.map = slots.map (fun e => MapDisk.ent P.be (e.ent kenc))
  atEnd : s.atEnd = true → hlen s.user + 16 ≤ d.pos ∧ d.pos ≤ d.data.length ∧ ∀ e ∈ slots, e.pos + e.cap ≤ d.pos
  clean : s.dirty = false → ∃ mp l, Committed kenc s.user d.data slots mp l ∧ (s.atEnd = true → mp + (mapBytes l).length ≤ d.pos)

def Inv (KV : K → Prop) (VV : V → Prop) (kenc : K → List Byte) (venc : V → List Byte) (s : Sp K V) (P : Plat) (o : Obj) : Prop :=
  ∃ d slots, InvS KV VV kenc venc s P o d slots

/-! ### lists -/

theorem perm_map {α β : Type} {f : α → β} {A : List β} {l : List α} (h : A.Perm (l.map f)) : ∃ l' : List α, l'.Perm l ∧ A = l'.map f := by
  generalize hB : l.map f = B at h
  induction h generalizing l with
  | nil => exact ⟨[], by rw [List.map_eq_nil_iff.1 hB], rfl⟩
  | cons x h ih =>
    obtain ⟨a, l1, rfl, rfl, rfl⟩ := List.map_eq_cons_iff.1 hB
    obtain ⟨l', h1, h2⟩ := ih rfl
    exact ⟨a :: l', h1.cons a, by rw [List.map_cons, h2]⟩
  | swap x y t =>
    obtain ⟨a, l1, rfl, rfl, h1⟩ := List.map_eq_cons_iff.1 hB
    obtain ⟨b, l2, rfl, rfl, rfl⟩ := List.map_eq_cons_iff.1 h1
    exact ⟨b :: a :: l2, List.Perm.swap _ _ _, rfl⟩
  | trans h1 h2 ih1 ih2 =>
    obtain ⟨l2, h3, h4⟩ := ih2 hB
    obtain ⟨l1, h5, h6⟩ := ih1 h4.symm
    exact ⟨l1, h5.trans h3, h6⟩

/-! ### the map in memory -/

section
variable {s : Sp K V} {data : List Byte} {slots : List (Slot K V)} {P : Plat}

theorem Filed.keys_nodup (h : Filed KV VV kenc venc s data slots) : (slots.map (·.k)).Nodup := h.dom.nodup_iff.2 h.nodup

theorem Filed.ent_nodup (gk : Good kc KV kenc) (h : Filed KV VV kenc venc s data slots) {sl : List (Slot K V)} (hp : sl.Perm slots) :
    (sl.map fun e => kenc e.k).Nodup := by
  have h1 : (sl.map (·.k)).Nodup := (hp.map _).nodup_iff.2 h.keys_nodup
  rw [List.Nodup, List.pairwise_map] at h1 ⊢
  refine List.Pairwise.imp_of_mem ?_ h1
  intro a b ha hb hne heq
  exact hne (enc_inj gk (h.slot a (hp.mem_iff.1 ha)).key (h.slot b (hp.mem_iff.1 hb)).key heq)

theorem Filed.uniq (gk : Good kc KV kenc) (h : Filed KV VV kenc venc s data slots) :
    Uniq (slots.map fun e => ent P.be (e.ent kenc)) := by
  have := h.ent_nodup gk (List.Perm.refl slots)
  unfold Uniq
  rw [List.map_map]
  exact this

theorem Filed.find_some (gk : Good kc KV kenc) (h : Filed KV VV kenc venc s data slots) {k : K} (hk : k ∈ s.dom) :
    ∃ e ∈ slots, e.k = k ∧ find (slots.map fun e => ent P.be (e.ent kenc)) (kenc k) = some (privOf P.be e.pos) := by
  obtain ⟨e, he, rfl⟩ := List.mem_map.1 (h.dom.mem_iff.2 hk)
  refine ⟨e, he, rfl, ?_⟩
  rw [MapObj.find_some (h.uniq gk)]
  exact List.mem_map_of_mem (f := fun e => ent P.be (Slot.ent kenc e)) he

theorem Filed.find_none (gk : Good kc KV kenc) (h : Filed KV VV kenc venc s data slots) {k : K} (hK : KV k) (hk : k ∉ s.dom) :
    find (slots.map fun e => ent P.be (e.ent kenc)) (kenc k) = Option.none := by
  rw [MapObj.find_none]
  intro x hx heq
  obtain ⟨e, he, rfl⟩ := List.mem_map.1 hx
  apply hk
  have : e.k = k := enc_inj gk (h.slot e he).key hK heq
  rw [← this]
  exact h.dom.mem_iff.1 (List.mem_map_of_mem he)

theorem Filed.val_isSome (h : Filed KV VV kenc venc s data slots) (k : K) : (s.val k).isSome = decide (k ∈ s.dom) := by
  by_cases hk : k ∈ s.dom
  · obtain ⟨e, he, rfl⟩ := List.mem_map.1 (h.dom.mem_iff.2 hk)
    rw [(h.slot e he).val]; simp [hk]
  · rw [h.none k hk]; simp [hk]

theorem Filed.slots_length (h : Filed KV VV kenc venc s data slots) : slots.length = s.dom.length := by
  rw [← h.dom.length_eq, List.length_map]

end

/-! ### get -/

theorem get_eq (gk : Good kc KV kenc) (gv : Good vc VV venc) {s : Sp K V} {P : Plat} {o : Obj} {d : Dev} {slots : List (Slot K V)}
    (h : InvS KV VV kenc venc s P o d slots) (k : K) (hK : KV k) :
    ∃ o', get kc vc P k o = ok (s.val k, o') ∧ InvS KV VV kenc venc (s.step kenc venc (.get k)) P o'
      (o'.dev.getD d) slots ∧ o'.log = o.log ∧ (o'.dev.getD d).data = d.data := by
  obtain ⟨st, m, u, nm, dv, rw', log⟩ := o
  obtain ⟨hP, hU, hf, hdev, hrw, hdw, hst, hu, hm, hat, hcl⟩ := h
  simp only at hdev hrw hst hu hm
  subst hdev hrw hu hm
  by_cases hk : k ∈ s.dom
  · obtain ⟨e, he, rfl, hfind⟩ := hf.find_some (P := P) gk hk
    have hs := hf.slot e he
    have hlt : e.pos < 2 ^ 63 := by have := hs.stop; have := hf.len; have := hf.lim; omega
    have hsee : (⟨d.data, e.pos, 0⟩ : Dev).Sees (recBytes venc e.v) := hs.here
    have hget : get kc vc P e.k ⟨st, slots.map fun e => ent P.be (e.ent kenc), s.user, nm, some d, s.rw, log⟩ =
        ok (some e.v, ⟨st, slots.map fun e => ent P.be (e.ent kenc), s.user, nm,
          some ((⟨d.data, e.pos, 0⟩ : Dev).skip (recBytes venc e.v)), s.rw, log⟩) := by
      have hcore : (do
          let kb ← bufBytes kc P.be e.k
          match find (slots.map fun e => ent P.be (e.ent kenc)) kb with
          | some q => do
              let p ← fromPrivate P q
              let o ← seek p ⟨st, slots.map fun e => ent P.be (e.ent kenc), s.user, nm, some d, s.rw, log⟩
              let o ← resetChecksum o
              let (v, o) ← fetch (vc.read P.be) o
              let sum ← getChecksum o
              let (rdc, o) ← fetch (u32C.read P.be) o
              if rdc ≠ sum then abort else ok (some v, o)
          | none => ok (none, ⟨st, slots.map fun e => ent P.be (e.ent kenc), s.user, nm, some d, s.rw, log⟩)) =
          ok (some e.v, ⟨st, slots.map fun e => ent P.be (e.ent kenc), s.user, nm,
          some ((⟨d.data, e.pos, 0⟩ : Dev).skip (recBytes venc e.v)), s.rw, log⟩) := by
        rw [bufBytes_eq gk P.be e.k hK, ok_bind, hfind]
        simp only
        rw [hP.back _ hlt, ok_bind, seek_eq, ok_bind, reset_eq, ok_bind]
        simp only
        rw [fetch_eq (gv.rd P.be e.v _ hs.good (Sees.left hsee))]
        simp only [ok_bind]
        have hc : ∀ m u nm r log, getChecksum ⟨st, m, u, nm, some ((⟨d.data, e.pos, 0⟩ : Dev).skip (venc e.v)), r, log⟩ =
            ok (crcOf 0 (venc e.v)) := fun _ _ _ _ _ => rfl
        rw [hc, ok_bind, fetch_eq (u32_good.rd P.be _ _ trivial (Sees.right hsee))]
        simp only [ok_bind, ne_eq, not_true, if_false, skip_skip, recBytes]
      rw [← hcore]
      have hne : st ≠ .init := by rw [hst]; cases s.dirty <;> simp
      cases st
      · exact absurd rfl hne
      · rfl
      · rfl
    rw [← hs.val] at hget
    refine ⟨_, hget, ?_, rfl, rfl⟩
    simp only [Sp.step, hk, if_true, Option.getD_some]
    refine ⟨hP, hU, ?_, rfl, rfl, hdw, hst, rfl, rfl, by simp, fun hd => ?_⟩
    · exact ⟨hf.ulen, hf.hdr, hf.link, hf.len, hf.lim, hf.dom, hf.nodup, hf.count,
        fun e he => ⟨(hf.slot e he).key, (hf.slot e he).klen, (hf.slot e he).good, (hf.slot e he).val, (hf.slot e he).cap,
          (hf.slot e he).start, (hf.slot e he).stop, (hf.slot e he).fits, (hf.slot e he).here⟩, hf.none, hf.apart⟩
    · obtain ⟨mp, l, hc, -⟩ := hcl hd
      exact ⟨mp, l, hc, by simp⟩
  · have hne : st ≠ .init := by rw [hst]; cases s.dirty <;> simp
    have hget : get kc vc P k ⟨st, slots.map fun e => ent P.be (e.ent kenc), s.user, nm, some d, s.rw, log⟩ =
        ok (none, ⟨st, slots.map fun e => ent P.be (e.ent kenc), s.user, nm, some d, s.rw, log⟩) := by
      unfold get
      cases st
      · exact absurd rfl hne
      all_goals simp only [bufBytes_eq gk P.be k hK, ok_bind, hf.find_none (P := P) gk hK hk]
    rw [← hf.none k hk] at hget
    refine ⟨_, hget, ?_, rfl, rfl⟩
    simp only [Sp.step, hk, if_false, Option.getD_some]
    exact ⟨hP, hU, hf, rfl, rfl, hdw, hst, rfl, rfl, hat, hcl⟩

/-! ### insert -/

theorem overwrite_length_le (data : List Byte) (q : Nat) (b : List Byte) : data.length ≤ (overwrite data q b).length := by
  by_cases hb : b = []
  · simp [overwrite, hb]
  · rw [overwrite_length data q b hb]; omega

theorem rec_ne (v : V) : recBytes venc v ≠ [] := by
  intro h
  have := recBytes_length (venc := venc) v
  rw [h, List.length_nil] at this
  omega

/-- the object after a record was written at `q` -/
theorem insert_eq (gk : Good kc KV kenc) (gv : Good vc VV venc) {s : Sp K V} {P : Plat} {o : Obj} {d : Dev} {slots : List (Slot K V)}
    (h : InvS KV VV kenc venc s P o d slots) (k : K) (v : V) (ha : Allowed kenc venc KV VV s (.insert k v)) :
    ∃ o' d' slots' q, insert kc vc P k v o = ok (0, o') ∧ InvS KV VV kenc venc (s.step kenc venc (.insert k v)) P o' d' slots' ∧
      o'.log = o.log ++ [(q, venc v), (q + (venc v).length, w32 (crcOf 0 (venc v)))] ∧
      d'.data = overwrite d.data q (recBytes venc v) ∧
      (k ∉ s.dom → q = d.pos ∧ slots' = slots ++ [⟨k, v, d.pos, (venc v).length + 4⟩]) := by
  obtain ⟨st, m, u, nm, dv, rw', log⟩ := o
  obtain ⟨hP, hU, hf, hdev, hrw, hdw, hst, hu, hm, hat, hcl⟩ := h
  simp only at hdev hrw hst hu hm
  subst hdev hrw hu hm
  obtain ⟨hK, hV, hw, hkl, ha⟩ := ha
  have hrl := recBytes_length (venc := venc) v
  have hne : st ≠ .init := by rw [hst]; cases s.dirty <;> simp
  have hcore : insert kc vc P k v ⟨st, slots.map fun e => ent P.be (e.ent kenc), s.user, nm, some d, s.rw, log⟩ = (do
      let kb ← bufBytes kc P.be k
      match find (slots.map fun e => ent P.be (e.ent kenc)) kb with
      | some q => do
          let p ← fromPrivate P q
          let o ← seek p ⟨st, slots.map fun e => ent P.be (e.ent kenc), s.user, nm, some d, s.rw, log⟩
          let o ← writeRecord vc P v o
          ok (0, { o with st := .modified })
      | none => do
          let p ← currentPosition ⟨st, slots.map fun e => ent P.be (e.ent kenc), s.user, nm, some d, s.rw, log⟩
          let q ← toPrivate P p
          let o : Obj := ⟨st, insertNew (slots.map fun e => ent P.be (e.ent kenc)) kb q, s.user, nm, some d, s.rw, log⟩
          let o ← writeRecord vc P v o
          ok (0, { o with st := .modified })) := by
    cases st
    · exact absurd rfl hne
    · rfl
    · rfl
  by_cases hk : k ∈ s.dom
  · rw [if_pos hk] at ha
    obtain ⟨e, he, rfl, hfind⟩ := hf.find_some (P := P) gk hk
    have hs := hf.slot e he
    have hlt : e.pos < 2 ^ 63 := by have := hs.stop; have := hf.len; have := hf.lim; omega
    rw [hs.cap] at ha
    have hins : insert kc vc P e.k v ⟨st, slots.map fun e => ent P.be (e.ent kenc), s.user, nm, some d, s.rw, log⟩ =
        ok (0, ⟨.modified, slots.map fun e => ent P.be (e.ent kenc), s.user, nm,
          some ((⟨d.data, e.pos, 0⟩ : Dev).put (recBytes venc v)), true,
          log ++ [(e.pos, venc v), (e.pos + (venc v).length, w32 (crcOf 0 (venc v)))]⟩) := by
      rw [hcore, bufBytes_eq gk P.be e.k hK, ok_bind, hfind]
      simp only
      rw [hP.back _ hlt, ok_bind, seek_eq, ok_bind, hw, writeRecord_eq P gv v hV]
      rfl
    have hlen' : (overwrite d.data e.pos (recBytes venc v)).length = d.data.length := by
      rw [overwrite_length _ _ _ (rec_ne v), hrl]
      have := hs.stop
      omega
    refine ⟨_, (⟨d.data, e.pos, 0⟩ : Dev).put (recBytes venc v), slots.map (fun f => if f.k = e.k then { f with v := v } else f), e.pos, hins, ?_, rfl, rfl,
      fun h => absurd hk h⟩
    simp only [Sp.step, hk, if_true]
    have hmapk : (slots.map (fun f => if f.k = e.k then { f with v := v } else f)).map (·.k) = slots.map (·.k) := by
      rw [List.map_map]
      apply List.map_congr_left
      intro f _
      simp only [Function.comp]
      split <;> rfl
    refine ⟨hP, hU, ?_, rfl, by simp [hw], fun _ => hw, by simp, rfl, ?_, by simp, by simp⟩
    · refine ⟨hf.ulen, ?_, ?_, ?_, hf.lim, ?_, hf.nodup, hf.count, ?_, ?_, ?_⟩
      · exact at_overwrite hf.hdr (Or.inl (by rw [header_length]; have := hs.start; show 0 + hlen s.user ≤ e.pos; omega))
      · show _ ≤ (overwrite d.data e.pos (recBytes venc v)).length
        rw [hlen']; exact hf.link
      · show (overwrite d.data e.pos (recBytes venc v)).length ≤ _
        rw [hlen']; exact hf.len
      · rw [hmapk]; exact hf.dom
      · intro g hg
        obtain ⟨f, hfm, rfl⟩ := List.mem_map.1 hg
        have hfs := hf.slot f hfm
        by_cases hfe : f.k = e.k
        · rw [if_pos hfe]
          refine ⟨hfs.key, hfs.klen, hV, by simp [hfe], hfs.cap, hfs.start, ?_, ?_, ?_⟩
          · show _ ≤ (overwrite d.data e.pos (recBytes venc v)).length
            rw [hlen']; exact hfs.stop
          · have : f = e := by
              have hnd := hf.keys_nodup
              exact List.inj_on_of_nodup_map hnd hfm he hfe
            subst this; exact ha
          · have : f = e := by
              have hnd := hf.keys_nodup
              exact List.inj_on_of_nodup_map hnd hfm he hfe
            subst this
            exact at_self _ _ _
        · rw [if_neg hfe]
          refine ⟨hfs.key, hfs.klen, hfs.good, by simp [hfe, hfs.val], hfs.cap, hfs.start, ?_, hfs.fits, ?_⟩
          · show _ ≤ (overwrite d.data e.pos (recBytes venc v)).length
            rw [hlen']; exact hfs.stop
          · apply at_overwrite hfs.here
            rw [hrl, recBytes_length]
            have := hfs.fits
            rcases hf.apart f hfm e he hfe with h' | h'
            · exact Or.inl (by show _ ≤ e.pos; omega)
            · exact Or.inr (by show e.pos + _ ≤ _; omega)
      · intro j hj
        have : j ≠ e.k := fun h => hj (h ▸ hk)
        simp only [this, if_false]
        exact hf.none j hj
      · intro a ha' b hb' hab
        obtain ⟨f, hfm, rfl⟩ := List.mem_map.1 ha'
        obtain ⟨g, hgm, rfl⟩ := List.mem_map.1 hb'
        have e1 : ∀ f : Slot K V, (if f.k = e.k then { f with v := v } else f).pos = f.pos := by intro f; split <;> rfl
        have e2 : ∀ f : Slot K V, (if f.k = e.k then { f with v := v } else f).cap = f.cap := by intro f; split <;> rfl
        have e3 : ∀ f : Slot K V, (if f.k = e.k then { f with v := v } else f).k = f.k := by intro f; split <;> rfl
        rw [e1, e1, e2, e2]
        rw [e3, e3] at hab
        exact hf.apart f hfm g hgm hab
    · simp only [List.map_map]
      apply List.map_congr_left
      intro f _
      simp only [Function.comp]
      split <;> rfl
  · rw [if_neg hk] at ha
    obtain ⟨hE, hL, hC⟩ := ha
    obtain ⟨hp1, hp2, hp3⟩ := hat hE
    have hfind := hf.find_none (P := P) gk hK hk
    have hlt : d.pos < 2 ^ 63 := by have := hf.len; omega
    have hnew : insertNew (slots.map fun e => ent P.be (e.ent kenc)) (kenc k) (privOf P.be d.pos) =
        (slots ++ [(⟨k, v, d.pos, (venc v).length + 4⟩ : Slot K V)]).map fun e => ent P.be (e.ent kenc) := by
      simp only [insertNew, hfind, Option.isSome_none, Bool.false_eq_true, if_false, List.map_append, List.map_cons, List.map_nil]
      rfl
    have hins : insert kc vc P k v ⟨st, slots.map fun e => ent P.be (e.ent kenc), s.user, nm, some d, s.rw, log⟩ =
        ok (0, ⟨.modified, (slots ++ [(⟨k, v, d.pos, (venc v).length + 4⟩ : Slot K V)]).map fun e => ent P.be (e.ent kenc), s.user, nm,
          some ((⟨d.data, d.pos, 0⟩ : Dev).put (recBytes venc v)), true,
          log ++ [(d.pos, venc v), (d.pos + (venc v).length, w32 (crcOf 0 (venc v)))]⟩) := by
      rw [hcore, bufBytes_eq gk P.be k hK, ok_bind, hfind]
      simp only [currentPosition, ok_bind]
      rw [(hU hw).fwd _ hlt, ok_bind, hw, hnew, writeRecord_eq P gv v hV]
      rfl
    refine ⟨_, (⟨d.data, d.pos, 0⟩ : Dev).put (recBytes venc v), slots ++ [⟨k, v, d.pos, (venc v).length + 4⟩], d.pos, hins, ?_, rfl, rfl,
      fun _ => ⟨rfl, rfl⟩⟩
    simp only [Sp.step, hk, if_false]
    have hle := overwrite_length_le d.data d.pos (recBytes venc v)
    have hlen' : (overwrite d.data d.pos (recBytes venc v)).length = max d.data.length (d.pos + ((venc v).length + 4)) := by
      rw [overwrite_length _ _ _ (rec_ne v), hrl]
    have hold : ∀ f ∈ slots, f.k ≠ k := fun f hfm hfk => hk (hfk ▸ hf.dom.mem_iff.1 (List.mem_map_of_mem hfm))
    refine ⟨hP, hU, ?_, rfl, by simp [hw], fun _ => hw, by simp, rfl, rfl, fun _ => ?_, by simp⟩
    · refine ⟨hf.ulen, ?_, ?_, ?_, ?_, ?_, ?_, ?_, ?_, ?_, ?_⟩
      · exact at_overwrite hf.hdr (Or.inl (by rw [header_length]; show 0 + hlen s.user ≤ d.pos; omega))
      · exact le_trans hf.link hle
      · show (overwrite d.data d.pos (recBytes venc v)).length ≤ _
        rw [hlen']
        have := hf.len
        show _ ≤ s.len + (venc v).length + 4
        omega
      · exact hL
      · rw [List.map_append]
        exact hf.dom.append_right _
      · rw [List.nodup_append]
        exact ⟨hf.nodup, by simp, fun a ha b hb => by rw [List.mem_singleton] at hb; subst hb; exact fun h => hk (h ▸ ha)⟩
      · rw [List.length_append]; exact hC
      · intro f hfm
        rcases List.mem_append.1 hfm with hfm | hfm
        · have hfs := hf.slot f hfm
          have hfk := hold f hfm
          refine ⟨hfs.key, hfs.klen, hfs.good, by simp [hfk, hfs.val], by simp [hfk, hfs.cap], hfs.start, le_trans hfs.stop hle, hfs.fits, ?_⟩
          apply at_overwrite hfs.here
          rw [recBytes_length]
          have := hfs.fits
          have := hp3 f hfm
          exact Or.inl (by show _ ≤ d.pos; omega)
        · rw [List.mem_singleton] at hfm
          subst hfm
          refine ⟨hK, hkl, hV, by simp, by simp, hp1, ?_, le_refl _, at_self _ _ _⟩
          show _ ≤ (overwrite d.data d.pos (recBytes venc v)).length
          rw [hlen']; exact le_max_right _ _
      · intro j hj
        rw [List.mem_append, List.mem_singleton] at hj
        have h1 : j ≠ k := fun h => hj (Or.inr h)
        simp only [h1, if_false]
        exact hf.none j (fun h => hj (Or.inl h))
      · intro a ha' b hb' hab
        rcases List.mem_append.1 ha' with ha' | ha' <;> rcases List.mem_append.1 hb' with hb' | hb'
        · exact hf.apart a ha' b hb' hab
        · rw [List.mem_singleton] at hb'; subst hb'; exact Or.inl (hp3 a ha')
        · rw [List.mem_singleton] at ha'; subst ha'; exact Or.inr (hp3 b hb')
        · rw [List.mem_singleton] at ha' hb'; subst ha' hb'; exact absurd rfl hab
    · refine ⟨?_, ?_, ?_⟩
      · show hlen s.user + 16 ≤ d.pos + (recBytes venc v).length; omega
      · show d.pos + (recBytes venc v).length ≤ (overwrite d.data d.pos (recBytes venc v)).length
        rw [hlen', hrl]; exact le_max_right _ _
      · intro f hfm
        show _ ≤ d.pos + (recBytes venc v).length
        rcases List.mem_append.1 hfm with hfm | hfm
        · have := hp3 f hfm; omega
        · rw [List.mem_singleton] at hfm; subst hfm; rw [hrl]

/-! ### flush, close, open -/

theorem Filed.congr {s s' : Sp K V} {data : List Byte} {slots : List (Slot K V)} (h : Filed KV VV kenc venc s data slots)
    (hu : s'.user = s.user) (hv : s'.val = s.val) (hd : s'.dom = s.dom) (hc : s'.cap = s.cap) (hl : s.len ≤ s'.len) (hm : s'.len < 2 ^ 63) :
    Filed KV VV kenc venc s' data slots := by
  obtain ⟨u, v, dm, cp, a, b, c, l⟩ := s
  obtain ⟨u', v', dm', cp', a', b', c', l'⟩ := s'
  simp only at hu hv hd hc
  subst hu hv hd hc
  exact ⟨h.ulen, h.hdr, h.link, le_trans h.len hl, hm, h.dom, h.nodup, h.count,
    fun e he => ⟨(h.slot e he).key, (h.slot e he).klen, (h.slot e he).good, (h.slot e he).val, (h.slot e he).cap,
      (h.slot e he).start, (h.slot e he).stop, (h.slot e he).fits, (h.slot e he).here⟩, h.none, h.apart⟩

theorem Filed.perm {s : Sp K V} {data : List Byte} {slots slots' : List (Slot K V)} (h : Filed KV VV kenc venc s data slots)
    (hp : slots'.Perm slots) : Filed KV VV kenc venc s data slots' :=
  ⟨h.ulen, h.hdr, h.link, h.len, h.lim, (hp.map _).trans h.dom, h.nodup, h.count, fun e he => h.slot e (hp.mem_iff.1 he), h.none,
    fun e he f hf => h.apart e (hp.mem_iff.1 he) f (hp.mem_iff.1 hf)⟩

/-- the file grew, and only the link changed otherwise -/
theorem Filed.grow {s : Sp K V} {data : List Byte} {slots : List (Slot K V)} (h : Filed KV VV kenc venc s data slots)
    (b link : List Byte) (hl : link.length = 16) (hs : data.length + b.length ≤ s.len) :
    Filed KV VV kenc venc s (overwrite (data ++ b) (hlen s.user) link) slots := by
  have hne : link ≠ [] := by intro h'; rw [h'] at hl; simp at hl
  have hlk := h.link
  have hlen' : (overwrite (data ++ b) (hlen s.user) link).length = data.length + b.length := by
    rw [overwrite_length _ _ _ hne, List.length_append, hl]; omega
  refine ⟨h.ulen, ?_, by omega, by omega, h.lim, h.dom, h.nodup, h.count, fun e he => ?_, h.none, h.apart⟩
  · exact at_overwrite (at_prefix h.hdr (List.prefix_append _ _)) (Or.inl (by rw [header_length]; omega))
  · have hs := h.slot e he
    refine ⟨hs.key, hs.klen, hs.good, hs.val, hs.cap, hs.start, by have := hs.stop; omega, hs.fits, ?_⟩
    exact at_overwrite (at_prefix hs.here (List.prefix_append _ _)) (Or.inr (by rw [hl]; have := hs.start; omega))

theorem mapLen_perm {l l' : List K} (h : l.Perm l') : mapLen kenc l = mapLen kenc l' := by
  induction h with
  | nil => rfl
  | cons x _ ih => simp only [mapLen, ih]
  | swap x y t => simp only [mapLen]; omega
  | trans _ _ h1 h2 => exact h1.trans h2

theorem be32_length (n : Int) : (be32 n).length = 4 := rfl

theorem mapBytes_length (slots : List (Slot K V)) :
    (mapBytes (slots.map (Slot.ent kenc))).length = mapLen kenc (slots.map (·.k)) := by
  have h : ∀ sl : List (Slot K V), ((sl.map (Slot.ent kenc)).flatMap entBytes).length + 8 = mapLen kenc (sl.map (·.k)) := by
    intro sl
    induction sl with
    | nil => rfl
    | cons e t ih =>
      simp only [List.map_cons, List.flatMap_cons, List.length_append, mapLen, ← ih, entBytes, be32_length, posBytes_length, Slot.ent]
      omega
  rw [← h slots, mapBytes, mapBody, List.length_append, List.length_append, w32_length, w32_length]
  omega

theorem mapBytes_ne (l : List (List Byte × Nat)) : mapBytes l ≠ [] := by
  intro h
  have := congrArg List.length h
  simp only [mapBytes, mapBody, List.length_append, w32_length, List.length_nil] at this
  omega

/-- what `closeWrite` does -/
theorem commit_eq {s : Sp K V} {P : Plat} {o : Obj} {d : Dev} {slots : List (Slot K V)}
    (h : InvS KV VV kenc venc s P o d slots) (hd : s.dirty = true) (hlim : (s.flushed kenc).len < 2 ^ 63) :
    ∃ b1 b2 b3 l data', b1 ++ b2 ++ b3 = mapBytes l ∧
      data' = overwrite (d.data ++ mapBytes l) (hlen s.user) (posBytes d.data.length) ∧
      closeWrite P o = ok ⟨.modified, o.map, o.user, o.name, some ⟨data', data'.length, 0⟩, true,
        o.log ++ [(d.data.length, b1), (d.data.length + b1.length, b2), (d.data.length + b1.length + b2.length, b3),
          (hlen s.user, posBytes d.data.length)]⟩ ∧
      Filed KV VV kenc venc (s.flushed kenc) data' slots ∧
      Committed kenc s.user data' slots d.data.length l := by
  obtain ⟨st, m, u, nm, dv, rw', log⟩ := o
  obtain ⟨hP, hU, hf, hdev, hrw, hdw, hst, hu, hm, hat, hcl⟩ := h
  simp only at hdev hrw hst hu hm
  subst hdev hrw hu
  rw [hdw hd]
  rw [hd, if_pos rfl] at hst
  subst hst
  have hi : (P.iter m).Perm (slots.map fun e => MapDisk.ent P.be (e.ent kenc)) := hm ▸ hP.iter m
  obtain ⟨sl, hp, hi⟩ := perm_map hi
  have hi : P.iter m = (sl.map (Slot.ent kenc)).map (MapDisk.ent P.be) := by rw [hi, List.map_map]; rfl
  have hll : mapLen kenc (sl.map (·.k)) = mapLen kenc s.dom := mapLen_perm ((hp.map _).trans hf.dom)
  have hfl : s.flushed kenc = { s with atEnd := true, dirty := false, len := s.len + mapLen kenc s.dom } := by
    simp only [Sp.flushed, hd, if_true]
  rw [hfl] at hlim ⊢
  obtain ⟨b1, b2, b3, hb, hw⟩ := closeWrite_eq (u := s.user) (nm := nm) (log := log) (d := d) P (hU (hdw hd)) (sl.map (Slot.ent kenc))
    (by intro e he; obtain ⟨f, hfm, rfl⟩ := List.mem_map.1 he; exact (hf.slot f (hp.mem_iff.1 hfm)).klen) hi
    (by rw [hm, List.length_map, List.length_map, hp.length_eq]) (by have := hf.len; have := hf.lim; omega)
  refine ⟨b1, b2, b3, sl.map (Slot.ent kenc), _, hb, rfl, hw, ?_, ?_⟩
  · refine Filed.grow (s := { s with atEnd := true, dirty := false, len := s.len + mapLen kenc s.dom })
      (Filed.congr hf rfl rfl rfl rfl (Nat.le_add_right _ _) hlim) _ _ rfl ?_
    rw [mapBytes_length, hll]
    have := hf.len
    show _ ≤ s.len + mapLen kenc s.dom
    omega
  · have hlk := hf.link
    refine ⟨hp.map _, at_self _ _ _, ?_, hlk, fun e he => (hf.slot e he).stop⟩
    refine at_overwrite ?_ (Or.inr ?_)
    · unfold At
      rw [List.drop_left]
      exact List.prefix_refl _
    · rw [posBytes_length]; exact hlk

theorem flush_eq {s : Sp K V} {P : Plat} {o : Obj} {d : Dev} {slots : List (Slot K V)}
    (h : InvS KV VV kenc venc s P o d slots) (hlim : (s.flushed kenc).len < 2 ^ 63) :
    ∃ o' d', flush P o = ok o' ∧ InvS KV VV kenc venc (s.flushed kenc) P o' d' slots := by
  by_cases hd : s.dirty = true
  · obtain ⟨b1, b2, b3, l, data', hb, hdat, hc, hf, hcm⟩ := commit_eq h hd hlim
    have hst : o.st = .modified := by rw [h.st, hd, if_pos rfl]
    refine ⟨⟨.unchanged, o.map, o.user, o.name, some ⟨data', data'.length, 0⟩, true,
      o.log ++ [(d.data.length, b1), (d.data.length + b1.length, b2), (d.data.length + b1.length + b2.length, b3),
        (hlen s.user, posBytes d.data.length)]⟩, ⟨data', data'.length, 0⟩, ?_, ?_⟩
    · unfold flush
      rw [hst]
      simp only [hc, ok_bind]
    · have hfl : s.flushed kenc = { s with atEnd := true, dirty := false, len := s.len + mapLen kenc s.dom } := by
        simp only [Sp.flushed, hd, if_true]
      rw [hfl] at hf ⊢
      refine ⟨h.readable, fun _ => h.usable (h.dw hd), hf, rfl, by simp [h.dw hd], by simp, by simp, h.user, h.map, fun _ => ⟨hf.link, le_refl _, fun e he => (hf.slot e he).stop⟩,
        fun _ => ⟨_, _, hcm, fun _ => at_length hcm.here (mapBytes_ne _)⟩⟩
  · have hd : s.dirty = false := by simpa using hd
    have hst : o.st = .unchanged := by rw [h.st, hd]; simp
    refine ⟨o, d, ?_, ?_⟩
    · unfold flush; rw [hst]
    · simp only [Sp.flushed, hd, Bool.false_eq_true, if_false]; exact h

/-- opening a file whose map was written -/
theorem opened {s : Sp K V} {data : List Byte} {slots : List (Slot K V)} (gk : Good kc KV kenc) (hf : Filed KV VV kenc venc s data slots)
    {mp : Nat} {l : List (List Byte × Nat)} (hc : Committed kenc s.user data slots mp l) (P : Plat) (hP : Readable P) (nm : String) (rw' : Bool)
    (hU : rw' = true → Usable P) :
    ∃ o d slots', openRead P nm rw' data Obj.fresh = ok o ∧
      InvS KV VV kenc venc ⟨s.user, s.val, s.dom, s.cap, true, false, rw', s.len⟩ P o d slots' := by
  obtain ⟨sl, hp, rfl⟩ := perm_map hc.perm
  have hmp := at_length hc.here (mapBytes_ne _)
  have hle := hf.len
  have hlim := hf.lim
  obtain ⟨c, ho⟩ := openRead_eq (nm := nm) (rw' := rw') P hP data Obj.fresh rfl s.user hf.ulen mp (by omega) (sl.map (Slot.ent kenc))
    (by
      intro e he
      obtain ⟨f, hfm, rfl⟩ := List.mem_map.1 he
      have hs := hf.slot f (hp.mem_iff.1 hfm)
      refine ⟨hs.klen, ?_⟩
      have := hs.stop
      show f.pos < _
      omega)
    ⟨by rw [List.map_map]; exact hf.ent_nodup gk hp, fun _ _ => rfl⟩
    (by rw [List.length_map, hp.length_eq, hf.slots_length]; exact hf.count) hf.hdr hc.link hc.here
  refine ⟨_, ⟨data, mp + (mapBytes (sl.map (Slot.ent kenc))).length, c⟩, sl, ho, ?_⟩
  refine ⟨hP, hU, Filed.congr (hf.perm hp) rfl rfl rfl rfl (le_refl _) hlim, rfl, rfl, by simp, by simp, rfl, ?_, fun _ => ⟨?_, hmp, fun e he => ?_⟩,
    fun _ => ⟨mp, _, ⟨List.Perm.refl _, hc.link, hc.here, hc.start, fun e he => hc.behind e (hp.mem_iff.1 he)⟩, fun _ => le_refl _⟩⟩
  · show [] ++ _ = _
    rw [List.nil_append, List.map_map]; rfl
  · have := hc.start
    show hlen s.user + 16 ≤ mp + _
    omega
  · have := hc.behind e (hp.mem_iff.1 he)
    show _ ≤ mp + _
    omega

theorem reopen_eq (gk : Good kc KV kenc) {s : Sp K V} {P : Plat} {o : Obj} {d : Dev} {slots : List (Slot K V)}
    (h : InvS KV VV kenc venc s P o d slots) (hlim : (s.flushed kenc).len < 2 ^ 63) (P' : Plat) (hP' : Readable P') (rw' : Bool)
    (hU' : rw' = true → Usable P') :
    ∃ o' d' slots', step (K := K) (V := V) kc vc P o (.reopen P' rw') = ok (.unit, P', o') ∧
      InvS KV VV kenc venc { s.flushed kenc with atEnd := true, rw := rw' } P' o' d' slots' := by
  have key : ∀ (data : List Byte) (sl : List (Slot K V)) (mp : Nat) (l : List (List Byte × Nat)),
      (∃ o1, close P (fun _ => none) o = ok (fun n => if n = o.name then some data else none, o1) ∧ o1.name = o.name) →
      Filed KV VV kenc venc (s.flushed kenc) data sl → Committed kenc (s.flushed kenc).user data sl mp l →
      ∃ o' d' slots', step (K := K) (V := V) kc vc P o (.reopen P' rw') = ok (.unit, P', o') ∧
      InvS KV VV kenc venc { s.flushed kenc with atEnd := true, rw := rw' } P' o' d' slots' := by
    intro data sl mp l ⟨o1, hc, hn⟩ hf hcm
    obtain ⟨o', d', sl', ho, hi⟩ := opened gk hf hcm P' hP' o1.name rw' hU'
    refine ⟨o', d', sl', ?_, ?_⟩
    · have hop : «open» P' (fun n => if n = o.name then some data else none) o1.name (if rw' then .rw else .rd) Obj.fresh = ok o' := by
        rw [← ho]
        cases rw' <;> simp only [«open», hn, if_true, Bool.false_eq_true, if_false]
      simp only [step, hc, ok_bind, hop]
    · have hd : (s.flushed kenc).dirty = false := by unfold Sp.flushed; split <;> simp_all
      have : ({ s.flushed kenc with atEnd := true, rw := rw' } : Sp K V) =
          ⟨(s.flushed kenc).user, (s.flushed kenc).val, (s.flushed kenc).dom, (s.flushed kenc).cap, true, false, rw', (s.flushed kenc).len⟩ := by
        rw [← hd]
      rw [this]
      exact hi
  by_cases hd : s.dirty = true
  · obtain ⟨b1, b2, b3, l, data', hb, hdat, hc, hf, hcm⟩ := commit_eq h hd hlim
    have hst : o.st = .modified := by rw [h.st, hd, if_pos rfl]
    refine key data' slots d.data.length l (by unfold close; rw [hst]; simp only [hc, ok_bind]; exact ⟨_, rfl, rfl⟩) hf ?_
    have : (s.flushed kenc).user = s.user := by unfold Sp.flushed; split <;> rfl
    rw [this]; exact hcm
  · have hd : s.dirty = false := by simpa using hd
    have hst : o.st = .unchanged := by rw [h.st, hd]; simp
    have hfl : s.flushed kenc = s := by simp only [Sp.flushed, hd, Bool.false_eq_true, if_false]
    obtain ⟨mp, l, hcm, -⟩ := h.clean hd
    refine key d.data slots mp l (by unfold close; rw [hst]; simp only [sync, h.dev]; exact ⟨_, rfl, rfl⟩) (hfl.symm ▸ h.filed) (hfl.symm ▸ hcm)

/-! ### keys -/

theorem readKeys_eq (gk : Good kc KV kenc) (be : Bool) (sl : List (Slot K V)) (h : ∀ e ∈ sl, KV e.k) :
    readKeys kc be (sl.map fun e => MapDisk.ent be (e.ent kenc)) = ok (sl.map (·.k)) := by
  induction sl with
  | nil => rfl
  | cons e t ih =>
    have hs : (⟨kenc e.k, 0, 0⟩ : Dev).Sees (kenc e.k) := List.prefix_refl _
    simp only [List.map_cons, readKeys, MapDisk.ent, Slot.ent]
    rw [gk.rd be e.k _ (h e (by simp)) hs, ok_bind]
    have := ih (fun e he => h e (by simp [he]))
    simp only [MapDisk.ent, Slot.ent] at this
    simp only [this, ok_bind]

/-! ### one call -/

/-- one allowed call answers as the finite map does, and keeps the invariant -/
theorem step_sim (gk : Good kc KV kenc) (gv : Good vc VV venc) {s : Sp K V} {P : Plat} {o : Obj}
    (h : Inv KV VV kenc venc s P o) (p : DOp K V) (ha : Allowed kenc venc KV VV s p) :
    ∃ r P' o', step kc vc P o p = ok (r, P', o') ∧ Answer s p r ∧ Inv KV VV kenc venc (s.step kenc venc p) P' o' := by
  obtain ⟨d, slots, h⟩ := h
  cases p with
  | insert k v =>
    obtain ⟨o', d', slots', q, hi, hinv, -, -⟩ := insert_eq gk gv h k v ha
    exact ⟨.code 0, P, o', by simp only [step, hi, ok_bind], rfl, d', slots', hinv⟩
  | get k =>
    obtain ⟨o', hg, hinv, -⟩ := get_eq gk gv h k ha
    exact ⟨.val (s.val k), P, o', by simp only [step, hg, ok_bind], rfl, _, slots, hinv⟩
  | exist k =>
    refine ⟨.bool (s.val k).isSome, P, o, ?_, rfl, d, slots, h⟩
    have hK : KV k := ha
    simp only [step, exist, bufBytes_eq gk P.be k hK, ok_bind, h.map]
    rw [h.filed.val_isSome]
    by_cases hk : k ∈ s.dom
    · obtain ⟨e, -, -, hf⟩ := h.filed.find_some (P := P) gk hk
      rw [hf]; simp [hk]
    · rw [h.filed.find_none (P := P) gk hK hk]; simp [hk]
  | size =>
    refine ⟨.num s.dom.length, P, o, ?_, rfl, d, slots, h⟩
    simp only [step, size, h.map, List.length_map, h.filed.slots_length, Nat.mod_eq_of_lt h.filed.count]
  | keys =>
    have hi : (P.iter o.map).Perm (slots.map fun e => MapDisk.ent P.be (e.ent kenc)) := by
      have := h.readable.iter o.map
      rw [h.map] at this ⊢
      exact this
    obtain ⟨sl, hp, hi⟩ := perm_map hi
    refine ⟨.keys (sl.map (·.k)), P, o, ?_, ⟨_, rfl, (hp.map _).trans h.filed.dom⟩, d, slots, h⟩
    simp only [step, keys, h.dev, hi, readKeys_eq gk P.be sl (fun e he => (h.filed.slot e (hp.mem_iff.1 he)).key), ok_bind, List.nil_append]
  | user =>
    refine ⟨.user (some s.user), P, o, ?_, rfl, d, slots, h⟩
    have : getUserdata o = some s.user := by
      unfold getUserdata
      rw [h.st, h.user]
      cases s.dirty <;> rfl
    simp only [step, this]
  | flush =>
    obtain ⟨o', d', hf, hinv⟩ := flush_eq h ha
    exact ⟨.unit, P, o', by simp only [step, hf, ok_bind], rfl, d', slots, hinv⟩
  | reopen P' rw' =>
    obtain ⟨o', d', sl, hf, hinv⟩ := reopen_eq (vc := vc) gk h ha.2.2 P' ha.1 rw' ha.2.1
    exact ⟨.unit, P', o', hf, rfl, d', sl, hinv⟩

theorem run_sim (gk : Good kc KV kenc) (gv : Good vc VV venc) (ps : List (DOp K V)) {s : Sp K V} {P : Plat} {o : Obj}
    (h : Inv KV VV kenc venc s P o) (ha : AllowedAll kenc venc KV VV s ps) :
    ∃ rs P' o', run kc vc P o ps = ok (rs, P', o') ∧ Answers kenc venc s ps rs ∧ Inv KV VV kenc venc (s.steps kenc venc ps) P' o' := by
  induction ps generalizing s P o with
  | nil => exact ⟨[], P, o, rfl, rfl, h⟩
  | cons p t ih =>
    obtain ⟨r, P1, o1, h1, h2, h3⟩ := step_sim gk gv h p ha.1
    obtain ⟨rs, P2, o2, h4, h5, h6⟩ := ih h3 ha.2
    exact ⟨r :: rs, P2, o2, by simp only [run, h1, ok_bind, h4], ⟨r, rs, rfl, h2, h5⟩, h6⟩

/-- a new file -/
theorem create_eq (KV : K → Prop) (VV : V → Prop) (kenc : K → List Byte) (venc : V → List Byte) (P : Plat) (hP : Usable P) (nm : String)
    (u : List Byte) (hu : u.length < 2 ^ 31) :
    ∃ o, create P nm u = ok o ∧ Inv KV VV kenc venc (Sp.new u) P o := by
  obtain ⟨c, log, ho⟩ := openWrite_eq (nm := nm) P hP (insertUserdata u Obj.fresh).2 rfl hu
  refine ⟨_, ho, ⟨header u ++ posBytes (hlen u), hlen u + 16, c⟩, [], ?_⟩
  have hlen' : (header u ++ posBytes (hlen u)).length = hlen u + 16 := by
    rw [List.length_append, header_length, posBytes_length]
  refine ⟨hP.toReadable, fun _ => hP, ?_, rfl, rfl, fun _ => rfl, rfl, rfl, rfl, fun _ => ⟨le_refl _, by rw [hlen'], by simp⟩, by simp [Sp.new]⟩
  refine ⟨hu, List.prefix_append _ _, by rw [hlen']; rfl, ?_, ?_, List.Perm.refl _, List.nodup_nil, by simp [Sp.new], by simp, fun _ _ => rfl,
    by simp⟩
  · rw [hlen']; simp only [Sp.new, hlen]; omega
  · simp only [Sp.new]; omega

end

end Verif.MapDisk
