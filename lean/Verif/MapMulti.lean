import Verif.MapDiskMore
/-
Several map files read as one: `MapObjectDiskMultiple`, include/qdp_map_obj_disk_multiple.h.
-/
set_option linter.unusedSectionVars false

namespace Verif.MapMulti
open Verif Outcome ByteOrder Verif.BinIO Verif.MapObj Verif.MapDisk

/-! ## model -/

/-- the member `dbs_`, include/qdp_map_obj_disk_multiple.h:188-189: a vector of pointers; `none` is a pointer whose object was deleted -/
abbrev Multi := List (Option Obj)

/-- `open`, include/qdp_map_obj_disk_multiple.h:38-48; the objects of an earlier `open` are not deleted but forgotten -/
def openAll (P : Plat) (fs : Fs) : List String → Outcome Multi
  | [] => ok []
  | f :: t => do
      let o ← «open» P fs f .rd Obj.fresh
      let r ← openAll P fs t
      ok (some o :: r)

/-- `fileExists`, include/qdp_map_obj_disk_multiple.h:51-63, with include/qdp_map_obj_disk.h:55-57: the loop runs over `dbs_` -/
def fileExists (fs : Fs) : List String → Multi → Outcome Bool
  | _, [] => ok true
  | [], _ :: _ => ub
  | _ :: _, none :: _ => ub
  | f :: t, some _ :: r => if (fs f).isSome then fileExists fs t r else ok false

/-- `close`, include/qdp_map_obj_disk_multiple.h:66-74: the objects are deleted, the pointers stay -/
def closeAll (P : Plat) (fs : Fs) : Multi → Outcome (Fs × Multi)
  | [] => ok (fs, [])
  | none :: _ => ub
  | some o :: t => do
      let (fs, _) ← close P fs o
      let (fs, r) ← closeAll P fs t
      ok (fs, none :: r)

section
variable {K V : Type} (kc : Codec K) (vc : Codec V)

/-- the loop of `get`, include/qdp_map_obj_disk_multiple.h:83-94; `ret` is the return code so far, -1 at the beginning -/
def getLoop (P : Plat) (k : K) (ret : Int) : Multi → Outcome (Int × Option V × Multi)
  | [] => ok (ret, none, [])
  | none :: _ => ub
  | some o :: t => do
      let (v, o) ← get kc vc P k o
      match v with
      | some x => ok (0, some x, some o :: t)
      | none => do
          let (r, v, t) ← getLoop P k 1 t
          ok (r, v, some o :: t)

/-- the loop of `exist`, include/qdp_map_obj_disk_multiple.h:147-159 -/
def existLoop (P : Plat) (k : K) : Multi → Outcome Bool
  | [] => ok false
  | none :: _ => ub
  | some o :: t => do
      let b ← exist kc P k o
      if b then ok true else existLoop P k t

/-- the inner loop of `keys`, include/qdp_map_obj_disk_multiple.h:112-118 -/
def addKeys (be : Bool) : List K → List (List Byte × Nat) → Outcome (List (List Byte × Nat))
  | [], u => ok u
  | k :: t, u => do
      let kb ← bufBytes kc be k
      addKeys be t (insertNew u kb 1)

/-- the outer loop, lines 107-119 -/
def keysLoop (P : Plat) : Multi → List (List Byte × Nat) → Outcome (List (List Byte × Nat))
  | [], u => ok u
  | none :: _, _ => ub
  | some o :: t, u => do
      let kk ← keys kc P [] o
      let u ← addKeys kc P.be kk u
      keysLoop P t u

/-- the last loop, lines 121-127 -/
def readBack (be : Bool) : List (List Byte × Nat) → Outcome (List K)
  | [] => ok []
  | e :: t => do
      let (k, _) ← kc.read be ⟨e.1, 0, 0⟩
      let r ← readBack be t
      ok (k :: r)

/-- `keys`, include/qdp_map_obj_disk_multiple.h:102-128; `it` is the order in which `unique_it` is traversed -/
def allKeys (P : Plat) (it : List (List Byte × Nat) → List (List Byte × Nat)) (m : Multi) : Outcome (List K) := do
  let u ← keysLoop kc P m []
  readBack kc P.be (it u)
end

/-- `flush`, include/qdp_map_obj_disk_multiple.h:133-139 -/
def flushAll (P : Plat) : Multi → Outcome Multi
  | [] => ok []
  | none :: _ => ub
  | some o :: t => do
      let o ← flush P o
      let r ← flushAll P t
      ok (some o :: r)

/-- `getUserdata`, include/qdp_map_obj_disk_multiple.h:167-178: the first file; `none` is a return code other than 0 -/
def userdata : Multi → Outcome (Option (List Byte))
  | [] => ok none
  | none :: _ => ub
  | some o :: _ => ok (getUserdata o)

/-! ## programs using the object -/

inductive MOp (K : Type)
  | get (k : K) | exist (k : K) | keys | user | flush

inductive MRes (K V : Type)
  | get (code : Int) (v : Option V) | bool (b : Bool) | keys (l : List K) | user (u : Option (List Byte)) | unit

def step {K V : Type} (kc : Codec K) (vc : Codec V) (P : Plat) (it : List (List Byte × Nat) → List (List Byte × Nat)) (m : Multi) :
    MOp K → Outcome (MRes K V × Multi)
  | .get k => do let (c, v, m) ← getLoop kc vc P k (-1) m; ok (.get c v, m)
  | .exist k => do let b ← existLoop kc P k m; ok (.bool b, m)
  | .keys => do let l ← allKeys kc P it m; ok (.keys l, m)
  | .user => do let u ← userdata m; ok (.user u, m)
  | .flush => do let m ← flushAll P m; ok (.unit, m)

def run {K V : Type} (kc : Codec K) (vc : Codec V) (P : Plat) (it : List (List Byte × Nat) → List (List Byte × Nat)) (m : Multi) :
    List (MOp K) → Outcome (List (MRes K V) × Multi)
  | [] => ok ([], m)
  | p :: ps => do
      let (r, m) ← step kc vc P it m p
      let (rs, m) ← run kc vc P it m ps
      ok (r :: rs, m)

/-! ## specification -/

/-- a file: its contents and the finite map kept in it -/
structure File (K V : Type) where
  name : String
  data : List Byte
  map : Sp K V

/-- the first value found -/
def first {K V : Type} (k : K) : List (File K V) → Option V
  | [] => none
  | f :: t => match f.map.val k with
      | some v => some v
      | none => first k t

/-- the answers of the left-biased union -/
def Answer {K V : Type} (fl : List (File K V)) : MOp K → MRes K V → Prop
  | .get k, r => r = .get (if (first k fl).isSome then 0 else if fl = [] then -1 else 1) (first k fl)
  | .exist k, r => r = .bool (first k fl).isSome
  | .keys, r => ∃ l, r = .keys l ∧ l.Nodup ∧ ∀ k, k ∈ l ↔ ∃ f ∈ fl, k ∈ f.map.dom
  | .user, r => r = .user (fl.head?.map (·.map.user))
  | .flush, r => r = .unit

/-- the keys mentioned can be written -/
def KeyOk {K : Type} (KV : K → Prop) : MOp K → Prop
  | .get k => KV k
  | .exist k => KV k
  | _ => True

/-- the file is what a disk map object leaves behind: created with user data `u`, taken through an allowed history, closed; the finite map is
the one the history describes -/
def Made {K V : Type} [DecidableEq K] (kc : Codec K) (vc : Codec V) (KV : K → Prop) (VV : V → Prop) (kenc : K → List Byte)
    (venc : V → List Byte) (f : File K V) : Prop :=
  ∃ (P : Plat) (nm : String) (u : List Byte) (ps : List (DOp K V)) (fs : Fs) (o o' o'' : Obj) (rs : List (DRes K V)) (P' : Plat) (fs' : Fs),
    Usable P ∧ u.length < 2 ^ 31 ∧ AllowedAll kenc venc KV VV (Sp.new u) ps ∧
    f.map = (Sp.steps kenc venc (Sp.new u) ps).flushed kenc ∧ f.map.len < 2 ^ 63 ∧
    create P nm u = ok o ∧ MapDisk.run kc vc P o ps = ok (rs, P', o') ∧ close P' fs o' = ok (fs', o'') ∧ fs' o'.name = some f.data

/-- the layout of such a file -/
def Stored {K V : Type} (KV : K → Prop) (VV : V → Prop) (kenc : K → List Byte) (venc : V → List Byte) (s : Sp K V) (data : List Byte) : Prop :=
  ∃ slots mp l, Filed KV VV kenc venc s data slots ∧ Committed kenc s.user data slots mp l

/-! ## proofs -/

section
variable {K V : Type} [DecidableEq K] {kc : Codec K} {vc : Codec V} {KV : K → Prop} {VV : V → Prop}
  {kenc : K → List Byte} {venc : V → List Byte} {P : Plat}

/-- closing any file after any allowed history leaves it `Stored` -/
theorem closed_stored {s : Sp K V} {o : Obj} (h : Inv KV VV kenc venc s P o) (hlim : (s.flushed kenc).len < 2 ^ 63) (fs : Fs) :
    ∃ fs' o' data, close P fs o = ok (fs', o') ∧ fs' o.name = some data ∧ Stored KV VV kenc venc (s.flushed kenc) data := by
  obtain ⟨d, slots, h⟩ := h
  by_cases hd : s.dirty = true
  · obtain ⟨b1, b2, b3, l, data', hb, hdat, hc, hf, hcm⟩ := commit_eq h hd hlim
    have hst : o.st = .modified := by rw [h.st, hd, if_pos rfl]
    have e1 : (s.flushed kenc).user = s.user := by unfold Sp.flushed; split <;> rfl
    refine ⟨_, _, data', by unfold close; rw [hst]; simp only [hc, ok_bind]; rfl, ?_, slots, _, l, hf, by rw [e1]; exact hcm⟩
    simp only [sync, if_true]
  · have hd : s.dirty = false := by simpa using hd
    have hst : o.st = .unchanged := by rw [h.st, hd]; simp
    have hfl : s.flushed kenc = s := by simp only [Sp.flushed, hd, Bool.false_eq_true, if_false]
    obtain ⟨mp, l, hcm, -⟩ := h.clean hd
    refine ⟨_, _, d.data, by unfold close; rw [hst], ?_, slots, mp, l, hfl.symm ▸ h.filed, hfl.symm ▸ hcm⟩
    simp only [sync, h.dev, if_true]

theorem seek_name {p : Int} {o o' : Obj} (h : seek p o = ok o') : o'.name = o.name := by
  unfold seek at h
  split at h
  · cases h
  · split at h
    · cases h
    · cases h; rfl

theorem reset_name {o o' : Obj} (h : resetChecksum o = ok o') : o'.name = o.name := by
  unfold resetChecksum at h
  cases hd : o.dev <;> rw [hd] at h <;> cases h
  rfl

theorem fetch_name {α : Type} {f : Dev → Outcome (α × Dev)} {o : Obj} {r : α × Obj} (h : fetch f o = ok r) : r.2.name = o.name := by
  unfold fetch at h
  cases hd : o.dev <;> rw [hd] at h
  · cases h
  · simp only [Outcome.bind_eq_ok] at h
    obtain ⟨x, -, h⟩ := h
    cases h
    rfl

theorem get_name {k : K} {o o' : Obj} {v : Option V} (h : get kc vc P k o = ok (v, o')) : o'.name = o.name := by
  unfold MapDisk.get at h
  split at h
  · cases h; rfl
  · simp only [Outcome.bind_eq_ok] at h
    obtain ⟨kb, -, h⟩ := h
    split at h
    · simp only [Outcome.bind_eq_ok] at h
      obtain ⟨p, -, o1, h1, o2, h2, r3, h3, sum, -, r4, h4, h⟩ := h
      split at h
      · cases h
      · cases h
        rw [fetch_name h4, fetch_name h3, reset_name h2, seek_name h1]
    · cases h; rfl

/-- one object serves its file: it issued no writes, and its stream holds the contents of the file -/
def One (KV : K → Prop) (VV : V → Prop) (kenc : K → List Byte) (venc : V → List Byte) (P : Plat) (f : File K V) (x : Option Obj) : Prop :=
  ∃ o d slots b, x = some o ∧ InvS KV VV kenc venc ⟨f.map.user, f.map.val, f.map.dom, f.map.cap, b, false, false, f.map.len⟩ P o d slots ∧
    d.data = f.data ∧ o.log = [] ∧ o.name = f.name

theorem one_get (gk : Good kc KV kenc) (gv : Good vc VV venc) {f : File K V} {o : Obj} (h : One KV VV kenc venc P f (some o)) (k : K) (hk : KV k) :
    ∃ o', get kc vc P k o = ok (f.map.val k, o') ∧ One KV VV kenc venc P f (some o') := by
  obtain ⟨o0, d, slots, b, he, hi, hd, hl, hn⟩ := h
  simp only [Option.some.injEq] at he
  subst he
  obtain ⟨o', h1, h2, h3, h4⟩ := get_eq gk gv hi k hk
  refine ⟨o', h1, o', _, slots, if k ∈ f.map.dom then false else b, rfl, ?_, h4.trans hd, by rw [h3, hl], by rw [get_name h1, hn]⟩
  simp only [Sp.step] at h2
  split at h2
  · rename_i hm
    rw [if_pos hm]
    exact h2
  · rename_i hm
    rw [if_neg hm]
    exact h2

theorem one_exist (gk : Good kc KV kenc) {f : File K V} {o : Obj} (h : One KV VV kenc venc P f (some o)) (k : K) (hk : KV k) :
    exist kc P k o = ok (f.map.val k).isSome := by
  obtain ⟨o0, d, slots, b, he, hi, hd, hl, hn⟩ := h
  simp only [Option.some.injEq] at he
  subst he
  have hv := hi.filed.val_isSome k
  simp only at hv
  simp only [exist, bufBytes_eq gk P.be k hk, ok_bind, hi.map]
  rw [hv]
  by_cases hm : k ∈ f.map.dom
  · obtain ⟨e, -, -, hf⟩ := hi.filed.find_some (P := P) gk hm
    rw [hf]; simp [hm]
  · rw [hi.filed.find_none (P := P) gk hk hm]; simp [hm]

theorem one_keys (gk : Good kc KV kenc) {f : File K V} {o : Obj} (h : One KV VV kenc venc P f (some o)) :
    ∃ l, keys kc P [] o = ok l ∧ l.Perm f.map.dom ∧ ∀ k ∈ l, KV k := by
  obtain ⟨o0, d, slots, b, he, hi, hd, hl, hn⟩ := h
  simp only [Option.some.injEq] at he
  subst he
  have hp : (P.iter o.map).Perm (slots.map fun e => MapDisk.ent P.be (e.ent kenc)) := by
    have := hi.readable.iter o.map
    rw [hi.map] at this ⊢
    exact this
  obtain ⟨sl, hp, he⟩ := perm_map hp
  refine ⟨sl.map (·.k), ?_, (hp.map _).trans hi.filed.dom, ?_⟩
  · simp only [keys, hi.dev, he, readKeys_eq gk P.be sl (fun e he => (hi.filed.slot e (hp.mem_iff.1 he)).key), ok_bind, List.nil_append]
  · intro k hk
    obtain ⟨e, he, rfl⟩ := List.mem_map.1 hk
    exact (hi.filed.slot e (hp.mem_iff.1 he)).key

theorem one_flush {f : File K V} {o : Obj} (h : One KV VV kenc venc P f (some o)) : flush P o = ok o := by
  obtain ⟨o0, d, slots, b, he, hi, hd, hl, hn⟩ := h
  simp only [Option.some.injEq] at he
  subst he
  have hst : o.st = .unchanged := by rw [hi.st]; simp
  unfold flush
  rw [hst]

theorem one_user {f : File K V} {o : Obj} (h : One KV VV kenc venc P f (some o)) : getUserdata o = some f.map.user := by
  obtain ⟨o0, d, slots, b, he, hi, hd, hl, hn⟩ := h
  simp only [Option.some.injEq] at he
  subst he
  have hst : o.st = .unchanged := by rw [hi.st]; simp
  unfold getUserdata
  rw [hst, hi.user]

theorem one_some {f : File K V} {x : Option Obj} (h : One KV VV kenc venc P f x) : ∃ o, x = some o := by
  obtain ⟨o, d, slots, b, he, -⟩ := h
  exact ⟨o, he⟩

/-- all objects serve their files -/
abbrev All (KV : K → Prop) (VV : V → Prop) (kenc : K → List Byte) (venc : V → List Byte) (P : Plat) : List (File K V) → Multi → Prop :=
  List.Forall₂ (One KV VV kenc venc P)

theorem openAll_eq (gk : Good kc KV kenc) (hP : Readable P) (fs : Fs) (fl : List (File K V))
    (hfs : ∀ f ∈ fl, fs f.name = some f.data ∧ Stored KV VV kenc venc f.map f.data) :
    ∃ m, openAll P fs (fl.map (·.name)) = ok m ∧ All KV VV kenc venc P fl m := by
  induction fl with
  | nil => exact ⟨[], rfl, List.Forall₂.nil⟩
  | cons f t ih =>
    obtain ⟨h1, slots, mp, l, hf, hc⟩ := hfs f (by simp)
    obtain ⟨m, h2, h3⟩ := ih (fun g hg => hfs g (by simp [hg]))
    obtain ⟨sl, hp, rfl⟩ := perm_map hc.perm
    obtain ⟨o, d, slots', ho, hi⟩ := opened gk hf hc P hP f.name false (by simp)
    refine ⟨some o :: m, ?_, List.Forall₂.cons ⟨o, d, slots', true, rfl, hi, ?_, ?_, ?_⟩ h3⟩
    · simp only [List.map_cons, openAll, «open», h1, ho, ok_bind, h2]
    all_goals
      have hmp := at_length hc.here (mapBytes_ne _)
      have hle := hf.len
      have hlim := hf.lim
      obtain ⟨c, ho'⟩ := openRead_eq (nm := f.name) (rw' := false) P hP f.data Obj.fresh rfl f.map.user hf.ulen mp (by omega)
        (sl.map (Slot.ent kenc))
        (by
          intro e he
          obtain ⟨g, hgm, rfl⟩ := List.mem_map.1 he
          have hs := hf.slot g (hp.mem_iff.1 hgm)
          refine ⟨hs.klen, ?_⟩
          have := hs.stop
          show g.pos < _
          omega)
        ⟨by rw [List.map_map]; exact hf.ent_nodup gk hp, fun _ _ => rfl⟩
        (by rw [List.length_map, hp.length_eq, hf.slots_length]; exact hf.count) hf.hdr hc.link hc.here
      rw [ho] at ho'
      simp only [ok.injEq] at ho'
      have hd := hi.dev
      rw [ho'] at hd
      simp only [Option.some.injEq] at hd
    · rw [← hd]
    · rw [ho']
    · rw [ho']

theorem getLoop_eq (gk : Good kc KV kenc) (gv : Good vc VV venc) (k : K) (hk : KV k) {fl : List (File K V)} {m : Multi}
    (h : All KV VV kenc venc P fl m) (ret : Int) :
    ∃ m', getLoop kc vc P k ret m = ok (if (first k fl).isSome then 0 else if fl = [] then ret else 1, first k fl, m') ∧
      All KV VV kenc venc P fl m' := by
  induction h generalizing ret with
  | nil => exact ⟨[], rfl, List.Forall₂.nil⟩
  | @cons f x t r h1 h2 ih =>
    obtain ⟨o, rfl⟩ := one_some h1
    obtain ⟨o', h3, h4⟩ := one_get gk gv h1 k hk
    cases hv : f.map.val k with
    | some v =>
      refine ⟨some o' :: r, ?_, List.Forall₂.cons h4 h2⟩
      simp [getLoop, h3, hv, first]
    | none =>
      obtain ⟨m', h5, h6⟩ := ih 1
      refine ⟨some o' :: m', ?_, List.Forall₂.cons h4 h6⟩
      simp only [getLoop, h3, ok_bind, hv, h5, first, List.cons_ne_nil, if_false, ite_self]

theorem existLoop_eq (gk : Good kc KV kenc) (k : K) (hk : KV k) {fl : List (File K V)} {m : Multi}
    (h : All KV VV kenc venc P fl m) : existLoop kc P k m = ok (first k fl).isSome := by
  induction h with
  | nil => rfl
  | @cons f x t r h1 h2 ih =>
    obtain ⟨o, rfl⟩ := one_some h1
    rw [existLoop, one_exist gk h1 k hk, ok_bind]
    cases hv : f.map.val k <;> simp [first, hv, ih]

/-- the collected keys -/
structure Uk (KV : K → Prop) (kenc : K → List Byte) (u : List (List Byte × Nat)) (S : K → Prop) : Prop where
  uniq : Uniq u
  key : ∀ e ∈ u, ∃ k, KV k ∧ e.1 = kenc k ∧ S k
  all : ∀ k, S k → KV k ∧ ∃ e ∈ u, e.1 = kenc k

theorem addKeys_eq (gk : Good kc KV kenc) (be : Bool) (l : List K) (hl : ∀ k ∈ l, KV k) {u : List (List Byte × Nat)} {S : K → Prop}
    (h : Uk KV kenc u S) : ∃ u', addKeys kc be l u = ok u' ∧ Uk KV kenc u' (fun k => S k ∨ k ∈ l) := by
  induction l generalizing u S with
  | nil => exact ⟨u, rfl, by simpa using h⟩
  | cons k t ih =>
    have hk := hl k (by simp)
    have hstep : Uk KV kenc (insertNew u (kenc k) 1) (fun j => S j ∨ j = k) := by
      unfold insertNew
      cases hf : find u (kenc k) with
      | some x =>
        simp only [Option.isSome_some, if_true]
        have hmem := (find_some h.uniq).1 hf
        refine ⟨h.uniq, fun e he => ?_, ?_⟩
        · obtain ⟨j, h1, h2, h3⟩ := h.key e he
          exact ⟨j, h1, h2, Or.inl h3⟩
        · rintro j (hj | rfl)
          · exact h.all j hj
          · exact ⟨hk, _, hmem, rfl⟩
      | none =>
        simp only [Option.isSome_none, Bool.false_eq_true, if_false]
        have hn := find_none.1 hf
        refine ⟨?_, ?_, ?_⟩
        · unfold Uniq
          rw [List.map_append, List.nodup_append]
          refine ⟨h.uniq, by simp, ?_⟩
          intro x hx y hy
          obtain ⟨e, he, rfl⟩ := List.mem_map.1 hx
          simp only [List.map_cons, List.map_nil, List.mem_singleton] at hy
          subst hy
          exact hn e he
        · intro e he
          rcases List.mem_append.1 he with he | he
          · obtain ⟨j, h1, h2, h3⟩ := h.key e he
            exact ⟨j, h1, h2, Or.inl h3⟩
          · rw [List.mem_singleton] at he
            subst he
            exact ⟨k, hk, rfl, Or.inr rfl⟩
        · rintro j (hj | rfl)
          · obtain ⟨h1, e, h2, h3⟩ := h.all j hj
            exact ⟨h1, e, List.mem_append_left _ h2, h3⟩
          · exact ⟨hk, _, List.mem_append_right _ (List.mem_singleton.2 rfl), rfl⟩
    obtain ⟨u', h1, h2⟩ := ih (fun j hj => hl j (by simp [hj])) hstep
    refine ⟨u', by rw [addKeys, bufBytes_eq gk be k hk, ok_bind, h1], ?_⟩
    have : (fun j => S j ∨ j ∈ k :: t) = (fun j => (S j ∨ j = k) ∨ j ∈ t) := by
      funext j
      simp only [List.mem_cons, or_assoc]
    rw [this]
    exact h2

theorem keysLoop_eq (gk : Good kc KV kenc) {fl : List (File K V)} {m : Multi} (h : All KV VV kenc venc P fl m)
    {u : List (List Byte × Nat)} {S : K → Prop} (hu : Uk KV kenc u S) :
    ∃ u', keysLoop kc P m u = ok u' ∧ Uk KV kenc u' (fun k => S k ∨ ∃ f ∈ fl, k ∈ f.map.dom) := by
  induction h generalizing u S with
  | nil => exact ⟨u, rfl, by simpa using hu⟩
  | @cons f x t r h1 h2 ih =>
    obtain ⟨o, rfl⟩ := one_some h1
    obtain ⟨l, h3, h4, h5⟩ := one_keys gk h1
    obtain ⟨u1, h6, h7⟩ := addKeys_eq gk P.be l h5 hu
    obtain ⟨u2, h8, h9⟩ := ih h7
    refine ⟨u2, by rw [keysLoop, h3, ok_bind, h6, ok_bind, h8], ?_⟩
    have : (fun k => S k ∨ ∃ g ∈ f :: t, k ∈ g.map.dom) = (fun k => (S k ∨ k ∈ l) ∨ ∃ g ∈ t, k ∈ g.map.dom) := by
      funext k
      simp only [List.mem_cons, exists_eq_or_imp, or_assoc, h4.mem_iff]
    rw [this]
    exact h9

theorem readBack_eq (gk : Good kc KV kenc) (be : Bool) (u : List (List Byte × Nat)) (h : ∀ e ∈ u, ∃ k, KV k ∧ e.1 = kenc k) :
    ∃ l, readBack kc be u = ok l ∧ l.map kenc = u.map (·.1) ∧ ∀ k ∈ l, KV k := by
  induction u with
  | nil => exact ⟨[], rfl, rfl, by simp⟩
  | cons e t ih =>
    obtain ⟨k, hk, he⟩ := h e (by simp)
    obtain ⟨l, h1, h2, h3⟩ := ih (fun e he => h e (by simp [he]))
    have hs : (⟨kenc k, 0, 0⟩ : Dev).Sees (kenc k) := List.prefix_refl _
    refine ⟨k :: l, ?_, by rw [List.map_cons, List.map_cons, h2, he], ?_⟩
    · rw [readBack, he, gk.rd be k _ hk hs, ok_bind]
      simp only [h1, ok_bind]
    · intro j hj
      rcases List.mem_cons.1 hj with rfl | hj
      · exact hk
      · exact h3 j hj

theorem flushAll_eq {fl : List (File K V)} {m : Multi} (h : All KV VV kenc venc P fl m) : flushAll P m = ok m := by
  induction h with
  | nil => rfl
  | @cons f x t r h1 h2 ih =>
    obtain ⟨o, rfl⟩ := one_some h1
    rw [flushAll, one_flush h1, ok_bind, ih, ok_bind]

/-- closing leaves every file as it was -/
theorem closeAll_eq {fl : List (File K V)} {m : Multi} (h : All KV VV kenc venc P fl m) (fs : Fs) (hfs : ∀ f ∈ fl, fs f.name = some f.data) :
    closeAll P fs m = ok (fs, List.replicate m.length none) := by
  induction h with
  | nil => rfl
  | @cons f x t r h1 h2 ih =>
    obtain ⟨o, d, slots, b, rfl, hi, hd, hl, hn⟩ := h1
    have hst : o.st = .unchanged := by rw [hi.st]; simp
    have hs : sync fs o = fs := by
      unfold sync
      rw [hi.dev]
      funext n
      by_cases h : n = o.name
      · simp only [h, if_true]; rw [hn, hfs f (by simp), hd]
      · simp only [h, if_false]
    unfold closeAll close
    rw [hst]
    simp only [ok_bind, hs, ih (fun g hg => hfs g (by simp [hg])), List.length_cons, List.replicate_succ]

theorem step_eq (gk : Good kc KV kenc) (gv : Good vc VV venc) (it : List (List Byte × Nat) → List (List Byte × Nat))
    (hit : ∀ l, (it l).Perm l) {fl : List (File K V)} {m : Multi} (h : All KV VV kenc venc P fl m) (p : MOp K) (hp : KeyOk KV p) :
    ∃ r m', step kc vc P it m p = ok (r, m') ∧ Answer fl p r ∧ All KV VV kenc venc P fl m' := by
  cases p with
  | get k =>
    obtain ⟨m', h1, h2⟩ := getLoop_eq gk gv k hp h (-1)
    exact ⟨_, m', by simp only [step, h1, ok_bind], rfl, h2⟩
  | exist k => exact ⟨_, m, by simp only [step, existLoop_eq gk k hp h, ok_bind], rfl, h⟩
  | keys =>
    obtain ⟨u, h1, h2⟩ := keysLoop_eq gk h (u := []) (S := fun _ => False) ⟨List.nodup_nil, by simp, by simp⟩
    obtain ⟨l, h3, h4, h5⟩ := readBack_eq gk P.be (it u) (fun e he => by
      obtain ⟨k, a, b, -⟩ := h2.key e ((hit u).mem_iff.1 he)
      exact ⟨k, a, b⟩)
    refine ⟨_, m, by simp only [step, allKeys, h1, ok_bind, h3], ⟨l, rfl, ?_, fun k => ?_⟩, h⟩
    · have hnd : (l.map kenc).Nodup := by
        rw [h4]
        exact ((hit u).map _).nodup_iff.2 h2.uniq
      exact (List.pairwise_map.1 hnd).imp fun hne heq => hne (congrArg kenc heq)
    · have hmem : ∀ kb, kb ∈ l.map kenc ↔ ∃ e ∈ u, e.1 = kb := by
        intro kb
        rw [h4, List.mem_map]
        constructor
        · rintro ⟨e, he, rfl⟩; exact ⟨e, (hit u).mem_iff.1 he, rfl⟩
        · rintro ⟨e, he, rfl⟩; exact ⟨e, (hit u).mem_iff.2 he, rfl⟩
      constructor
      · intro hk
        obtain ⟨e, he, hek⟩ := (hmem (kenc k)).1 (List.mem_map_of_mem hk)
        obtain ⟨j, hj1, hj2, hj3⟩ := h2.key e he
        have : j = k := enc_inj gk hj1 (h5 k hk) (by rw [← hj2, hek])
        subst this
        simpa using hj3
      · intro hk
        obtain ⟨hk1, e, he, hek⟩ := h2.all k (Or.inr hk)
        obtain ⟨j, hj, hjk⟩ := List.mem_map.1 ((hmem (kenc k)).2 ⟨e, he, hek⟩)
        have : j = k := enc_inj gk (h5 j hj) hk1 hjk
        subst this
        exact hj
  | user =>
    cases h with
    | nil => exact ⟨_, [], rfl, rfl, List.Forall₂.nil⟩
    | @cons f x t r h1 h2 =>
      obtain ⟨o, rfl⟩ := one_some h1
      exact ⟨_, some o :: r, rfl, by rw [one_user h1]; rfl, List.Forall₂.cons h1 h2⟩
  | flush => exact ⟨_, m, by simp only [step, flushAll_eq h, ok_bind], rfl, h⟩

theorem stored_of_made (gk : Good kc KV kenc) (gv : Good vc VV venc) {f : File K V} (h : Made kc vc KV VV kenc venc f) :
    Stored KV VV kenc venc f.map f.data := by
  obtain ⟨P, nm, u, ps, fs, o, o', o'', rs, P', fs', hP, hu, ha, hm, hl, h1, h2, h3, h4⟩ := h
  obtain ⟨o1, a1, a2⟩ := create_eq KV VV kenc venc P hP nm u hu
  rw [h1] at a1
  cases a1
  obtain ⟨rs2, P2, o2, b1, -, b2⟩ := run_sim gk gv ps a2 ha
  rw [h2] at b1
  cases b1
  rw [hm] at hl
  obtain ⟨fs3, o3, data, c1, c2, c3⟩ := closed_stored b2 hl fs
  rw [h3] at c1
  cases c1
  rw [h4] at c2
  cases c2
  rw [hm]
  exact c3

/-- the map of such a file holds, for each key, the value most recently inserted for it -/
theorem made_val {f : File K V} (h : Made kc vc KV VV kenc venc f) : ∃ ps : List (DOp K V), ∀ k, f.map.val k = lastIns k ps none := by
  obtain ⟨P, nm, u, ps, fs, o, o', o'', rs, P', fs', hP, hu, ha, hm, -⟩ := h
  refine ⟨ps, fun k => ?_⟩
  have : f.map.val = (Sp.steps kenc venc (Sp.new u) ps).val := by
    rw [hm]; unfold Sp.flushed; split <;> rfl
  rw [this, steps_val]
  rfl

/-- C37: for every list of files written by disk map objects, and every history of calls on the object opened on them, each call answers
as the left-biased union of the files does; no call issues a write, every stream holds the contents its file had, and `close` leaves the
whole file system as it was.  On any host able to read positions. -/
theorem C37 (gk : Good kc KV kenc) (gv : Good vc VV venc) (hP : Readable P) (it : List (List Byte × Nat) → List (List Byte × Nat))
    (hit : ∀ l, (it l).Perm l) (fs : Fs) (fl : List (File K V))
    (hfs : ∀ f ∈ fl, fs f.name = some f.data ∧ Made kc vc KV VV kenc venc f) (ps : List (MOp K)) (hps : ∀ p ∈ ps, KeyOk KV p) :
    ∃ m rs m', openAll P fs (fl.map (·.name)) = ok m ∧ run kc vc P it m ps = ok (rs, m') ∧ List.Forall₂ (Answer fl) ps rs ∧
      List.Forall₂ (fun f x => ∃ o d, x = some o ∧ o.dev = some d ∧ d.data = f.data ∧ o.log = []) fl m' ∧
      closeAll P fs m' = ok (fs, List.replicate m'.length none) := by
  obtain ⟨m, h1, h2⟩ := openAll_eq gk hP fs fl fun f hf => ⟨(hfs f hf).1, stored_of_made gk gv (hfs f hf).2⟩
  have key : ∀ (ps : List (MOp K)) (m : Multi), (∀ p ∈ ps, KeyOk KV p) → All KV VV kenc venc P fl m →
      ∃ rs m', run kc vc P it m ps = ok (rs, m') ∧ List.Forall₂ (Answer fl) ps rs ∧ All KV VV kenc venc P fl m' := by
    intro ps
    induction ps with
    | nil => intro m _ h; exact ⟨[], m, rfl, List.Forall₂.nil, h⟩
    | cons p t ih =>
      intro m hp h
      obtain ⟨r, m1, a1, a2, a3⟩ := step_eq gk gv it hit h p (hp p (by simp))
      obtain ⟨rs, m2, a4, a5, a6⟩ := ih m1 (fun p h => hp p (by simp [h])) a3
      exact ⟨r :: rs, m2, by simp only [run, a1, ok_bind, a4], List.Forall₂.cons a2 a5, a6⟩
  obtain ⟨rs, m', h3, h4, h5⟩ := key ps m hps h2
  refine ⟨m, rs, m', h1, h3, h4, h5.imp ?_, closeAll_eq h5 fs fun f hf => (hfs f hf).1⟩
  rintro f x ⟨o, d, slots, b, hx, hi, hd, hl, -⟩
  exact ⟨o, d, hx, hi.dev, hd, hl⟩

end

/-- `fileExists` before `open` asks about no file: it answers true for every list of names -/
theorem C37_fileExists (fs : Fs) (files : List String) : fileExists fs files [] = ok true := by
  cases files <;> rfl

/-- C37: after `open` it answers true exactly when every file exists; the names are as many as the open objects. -/
theorem C37_fileExists_open (fs : Fs) (files : List String) (m : Multi) (hl : files.length = m.length) (hm : ∀ x ∈ m, x ≠ none) :
    fileExists fs files m = ok (decide (∀ f ∈ files, fs f ≠ none)) := by
  induction files generalizing m with
  | nil => cases m with
    | nil => simp [fileExists]
    | cons x m => simp at hl
  | cons f t ih =>
    cases m with
    | nil => simp at hl
    | cons x m =>
      cases x with
      | none => exact absurd rfl (hm none (by simp))
      | some o =>
        simp only [fileExists]
        cases hf : fs f with
        | none => simp [hf]
        | some d =>
          simp only [Option.isSome_some, if_true]
          rw [ih m (by simpa using hl) fun x hx => hm x (by simp [hx])]
          simp [hf]

/-- case: two open objects, the second file gone -/
example : fileExists (fun f => if f = "a" then some [] else none) ["a", "b"] [some Obj.fresh, some Obj.fresh] = ok false := by decide

/-- after `close` of a non-empty object every lookup, and a second `close`, uses deleted objects -/
theorem C37_after_close {K V : Type} (kc : Codec K) (vc : Codec V) (P : Plat) (fs fs' : Fs) (m m' : Multi) (hm : m ≠ [])
    (h : closeAll P fs m = ok (fs', m')) :
    (∀ k ret, getLoop kc vc P k ret m' = ub) ∧ (∀ k, existLoop kc P k m' = ub) ∧ (∀ fs, closeAll P fs m' = ub) := by
  cases m with
  | nil => exact absurd rfl hm
  | cons x t =>
    cases x with
    | none => simp only [closeAll] at h; cases h
    | some o =>
      simp only [closeAll, Outcome.bind_eq_ok, ok.injEq, Prod.mk.injEq] at h
      obtain ⟨y, -, z, -, -, rfl⟩ := h
      exact ⟨fun _ _ => rfl, fun _ => rfl, fun _ => rfl⟩

/-- files as required exist for every allowed history -/
theorem made_exists {K V : Type} [DecidableEq K] {kc : Codec K} {vc : Codec V} {KV : K → Prop} {VV : V → Prop} {kenc : K → List Byte}
    {venc : V → List Byte} (gk : Good kc KV kenc) (gv : Good vc VV venc) (P : Plat) (hP : Usable P) (nm : String) (u : List Byte)
    (hu : u.length < 2 ^ 31) (ps : List (DOp K V)) (ha : AllowedAll kenc venc KV VV (Sp.new u) ps)
    (hlim : ((Sp.steps kenc venc (Sp.new u) ps).flushed kenc).len < 2 ^ 63) (nm' : String) :
    ∃ data, Made kc vc KV VV kenc venc ⟨nm', data, (Sp.steps kenc venc (Sp.new u) ps).flushed kenc⟩ := by
  obtain ⟨o, a1, a2⟩ := create_eq KV VV kenc venc P hP nm u hu
  obtain ⟨rs, P', o', b1, -, b2⟩ := run_sim gk gv ps a2 ha
  obtain ⟨fs', o'', data, c1, c2, -⟩ := closed_stored b2 hlim (fun _ => none)
  exact ⟨data, P, nm, u, ps, fun _ => none, o, o', o'', rs, P', fs', hP, hu, ha, rfl, hlim, a1, b1, c1, c2⟩

/-! ## an example: two files with a common key -/

/-- contents of a file with these entries -/
def mkFile (l : List (Int × List Byte)) : Outcome (List Byte) := do
  let o ← create demoPlat "x" []
  let o ← insertAll int descC demoPlat l o
  let (fs, _) ← close demoPlat (fun _ => none) o
  match fs "x" with
  | some d => ok d
  | none => ub

def demo : Outcome (Option (List Byte) × Option (List Byte) × Option (List Byte) × List Int) := do
  let a ← mkFile [(1, [0x41]), (2, [0x42])]
  let b ← mkFile [(2, [0x43]), (3, [0x44])]
  let m ← openAll demoPlat (fun n => if n = "a" then some a else some b) ["a", "b"]
  let (_, v1, m) ← getLoop int descC demoPlat 2 (-1) m
  let (_, v2, m) ← getLoop int descC demoPlat 3 (-1) m
  let (_, v3, m) ← getLoop int descC demoPlat 4 (-1) m
  let l ← allKeys int demoPlat id m
  ok (v1, v2, v3, l)

example : demo = ok (some [0x42], some [0x44], none, [1, 2, 3]) := by decide +kernel

end Verif.MapMulti
