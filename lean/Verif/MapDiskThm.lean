import Verif.MapDiskSim
/-
Theorems on the disk map object: histories (C32, C33), crashes (C34), the consequences of the position encoding (C35), reuse (C36).
-/
set_option linter.unusedSectionVars false

namespace Verif.MapDisk
open Verif Outcome ByteOrder Verif.BinIO Verif.MapObj

section
variable {K V : Type} [DecidableEq K] {kc : Codec K} {vc : Codec V} {KV : K → Prop} {VV : V → Prop}
  {kenc : K → List Byte} {venc : V → List Byte}

/-! ## C32, C33: histories -/

/-- C32/C33, partial: on a new file every history of allowed calls, with any number of closings and openings on any usable hosts (for reading only: on any host able to read positions), runs
without failure and answers as the finite map does.  Missing: insertions of a new key after a lookup or an update, updates by a longer
record (refuted below), files of 2^63 bytes and more, hosts on which positions cannot be encoded (C35). -/
theorem C32_C33_history_partial (gk : Good kc KV kenc) (gv : Good vc VV venc) (P : Plat) (hP : Usable P) (nm : String) (u : List Byte)
    (hu : u.length < 2 ^ 31) (ps : List (DOp K V)) (ha : AllowedAll kenc venc KV VV (Sp.new u) ps) :
    ∃ o rs P' o', create P nm u = ok o ∧ run kc vc P o ps = ok (rs, P', o') ∧ Answers kenc venc (Sp.new u) ps rs := by
  obtain ⟨o, h1, h2⟩ := create_eq KV VV kenc venc P hP nm u hu
  obtain ⟨rs, P', o', h3, h4, -⟩ := run_sim gk gv ps h2 ha
  exact ⟨o, rs, P', o', h1, h3, h4⟩

/-- the value most recently inserted for `k` -/
def lastIns (k : K) : List (DOp K V) → Option V → Option V
  | [], x => x
  | .insert j v :: t, x => lastIns k t (if j = k then some v else x)
  | _ :: t, x => lastIns k t x

theorem steps_val (k : K) (ps : List (DOp K V)) (s : Sp K V) : (s.steps kenc venc ps).val k = lastIns k ps (s.val k) := by
  induction ps generalizing s with
  | nil => rfl
  | cons p t ih =>
    rw [Sp.steps, ih]
    cases p with
    | insert j v =>
      simp only [Sp.step, lastIns]
      split <;> simp only [eq_comm]
    | get j => simp only [Sp.step, lastIns]; split <;> rfl
    | flush => simp only [Sp.step, lastIns, Sp.flushed]; split <;> rfl
    | reopen P r => simp only [Sp.step, lastIns, Sp.flushed]; split <;> rfl
    | exist j => rfl
    | size => rfl
    | keys => rfl
    | user => rfl

theorem run_append (ps qs : List (DOp K V)) (P : Plat) (o : Obj) {rs : List (DRes K V)} {P' : Plat} {o' : Obj}
    (h : run kc vc P o ps = ok (rs, P', o')) {rs2 : List (DRes K V)} {P2 : Plat} {o2 : Obj} (h2 : run kc vc P' o' qs = ok (rs2, P2, o2)) :
    run kc vc P o (ps ++ qs) = ok (rs ++ rs2, P2, o2) := by
  induction ps generalizing P o rs with
  | nil =>
    simp only [run, ok.injEq, Prod.mk.injEq] at h
    obtain ⟨rfl, rfl, rfl⟩ := h
    exact h2
  | cons p t ih =>
    simp only [run, Outcome.bind_eq_ok] at h
    obtain ⟨⟨r, P1, o1⟩, h1, ⟨rs1, P3, o3⟩, h3, h4⟩ := h
    simp only [ok.injEq, Prod.mk.injEq] at h4
    obtain ⟨rfl, rfl, rfl⟩ := h4
    rw [List.cons_append, run, h1, ok_bind]
    simp only [ih P1 o1 h3, ok_bind, List.cons_append]

theorem run_cons {p : DOp K V} {ps : List (DOp K V)} {P P1 P2 : Plat} {o o1 o2 : Obj} {r : DRes K V} {rs : List (DRes K V)}
    (h : step kc vc P o p = ok (r, P1, o1)) (h2 : run kc vc P1 o1 ps = ok (rs, P2, o2)) :
    run kc vc P o (p :: ps) = ok (r :: rs, P2, o2) := by
  simp only [run, h, ok_bind, h2]

theorem step_insert {P : Plat} {o o' : Obj} {k : K} {v : V} {c : Nat} (h : insert kc vc P k v o = ok (c, o')) :
    step kc vc P o (.insert k v) = ok (.code c, P, o') := by simp only [step, h, ok_bind]

theorem step_get {P : Plat} {o o' : Obj} {k : K} {v : Option V} (h : get kc vc P k o = ok (v, o')) :
    step kc vc P o (.get k) = ok (.val v, P, o') := by simp only [step, h, ok_bind]

/-- C32, partial, in one line: after any allowed history `get(k)` returns the value most recently inserted for `k` -/
theorem C32_get_partial (gk : Good kc KV kenc) (gv : Good vc VV venc) (P : Plat) (hP : Usable P) (nm : String) (u : List Byte)
    (hu : u.length < 2 ^ 31) (ps : List (DOp K V)) (ha : AllowedAll kenc venc KV VV (Sp.new u) ps) (k : K) (hk : KV k) :
    ∃ o rs P' o' o'', create P nm u = ok o ∧ run kc vc P o ps = ok (rs, P', o') ∧ get kc vc P' k o' = ok (lastIns k ps none, o'') := by
  obtain ⟨o, h1, h2⟩ := create_eq KV VV kenc venc P hP nm u hu
  obtain ⟨rs, P', o', h3, h4, d, sl, h5⟩ := run_sim gk gv ps h2 ha
  obtain ⟨o'', h6, -⟩ := get_eq gk gv h5 k hk
  rw [steps_val] at h6
  exact ⟨o, rs, P', o', o'', h1, h3, h6⟩

/-- What a process sees that opens a file with these contents, on any host able to read
positions, for reading, or on a usable host for reading and writing: the user
data, the keys, the number of keys, and each value. -/
def Shows (kc : Codec K) (vc : Codec V) (KV : K → Prop) (u : List Byte) (dom : List K) (val : K → Option V) (data : List Byte) : Prop :=
  ∀ P, Readable P → ∀ nm rw', (rw' = true → Usable P) → ∃ o, openRead P nm rw' data Obj.fresh = ok o ∧ getUserdata o = some u ∧
    (∃ l, keys kc P [] o = ok l ∧ l.Perm dom) ∧ size o = dom.length ∧
    ∀ k, KV k → exist kc P k o = ok (val k).isSome ∧ ∃ o', get kc vc P k o = ok (val k, o')

theorem shows_of (gk : Good kc KV kenc) (gv : Good vc VV venc) {s : Sp K V} {data : List Byte} {slots : List (Slot K V)}
    (hf : Filed KV VV kenc venc s data slots) {mp : Nat} {l : List (List Byte × Nat)} (hc : Committed kenc s.user data slots mp l) :
    Shows kc vc KV s.user s.dom s.val data := by
  intro P hP nm rw' hU
  obtain ⟨o, d, sl, ho, h⟩ := opened gk hf hc P hP nm rw' hU
  refine ⟨o, ho, ?_, ?_, ?_, fun k hk => ⟨?_, ?_⟩⟩
  · obtain ⟨r, P', o', h1, h2, -⟩ := step_sim (vc := vc) gk gv ⟨d, sl, h⟩ .user trivial
    simp only [step, ok.injEq, Prod.mk.injEq] at h1
    rw [← h1.1] at h2
    simp only [Answer, DRes.user.injEq] at h2
    exact h2
  · obtain ⟨r, P', o', h1, ⟨l', h2, h3⟩, -⟩ := step_sim (vc := vc) gk gv ⟨d, sl, h⟩ .keys trivial
    simp only [step, Outcome.bind_eq_ok, ok.injEq, Prod.mk.injEq] at h1
    obtain ⟨l1, h1, rfl, -⟩ := h1
    simp only [DRes.keys.injEq] at h2
    subst h2
    exact ⟨l1, h1, h3⟩
  · obtain ⟨r, P', o', h1, h2, -⟩ := step_sim (vc := vc) gk gv ⟨d, sl, h⟩ .size trivial
    simp only [step, ok.injEq, Prod.mk.injEq] at h1
    rw [← h1.1] at h2
    simp only [Answer, DRes.num.injEq] at h2
    exact h2
  · obtain ⟨r, P', o', h1, h2, -⟩ := step_sim (vc := vc) gk gv ⟨d, sl, h⟩ (.exist k) hk
    simp only [step, Outcome.bind_eq_ok, ok.injEq, Prod.mk.injEq] at h1
    obtain ⟨b, h1, rfl, -⟩ := h1
    simp only [Answer, DRes.bool.injEq] at h2
    rw [h1, h2]
  · obtain ⟨o', h1, -⟩ := get_eq gk gv h k hk
    exact ⟨o', h1⟩

/-- C33, partial: after any allowed history from a new file, closing it leaves a file that shows the finite map, whoever opens it. -/
theorem C33_close_partial (gk : Good kc KV kenc) (gv : Good vc VV venc) (P : Plat) (hP : Usable P) (nm : String) (u : List Byte)
    (hu : u.length < 2 ^ 31) (ps : List (DOp K V)) (ha : AllowedAll kenc venc KV VV (Sp.new u) ps)
    (hlim : ((Sp.steps kenc venc (Sp.new u) ps).flushed kenc).len < 2 ^ 63) (fs : Fs) :
    ∃ o rs P' o' fs' o'' data, create P nm u = ok o ∧ run kc vc P o ps = ok (rs, P', o') ∧ close P' fs o' = ok (fs', o'') ∧
      fs' o'.name = some data ∧
      Shows kc vc KV (Sp.steps kenc venc (Sp.new u) ps).user (Sp.steps kenc venc (Sp.new u) ps).dom (fun k => lastIns k ps none) data := by
  obtain ⟨o, h1, h2⟩ := create_eq KV VV kenc venc P hP nm u hu
  obtain ⟨rs, P', o', h3, h4, d, sl, h5⟩ := run_sim gk gv ps h2 ha
  have hval : (fun k => lastIns k ps none) = (Sp.steps kenc venc (Sp.new u) ps).val := by
    funext k; rw [steps_val]; rfl
  rw [hval]
  generalize Sp.steps kenc venc (Sp.new u) ps = s at h5 hlim
  by_cases hd : s.dirty = true
  · obtain ⟨b1, b2, b3, l, data', hb, hdat, hc, hf, hcm⟩ := commit_eq h5 hd hlim
    have hst : o'.st = .modified := by rw [h5.st, hd, if_pos rfl]
    have hs := shows_of (kc := kc) (vc := vc) gk gv hf (hc := (by
      have : (s.flushed kenc).user = s.user := by unfold Sp.flushed; split <;> rfl
      rw [this]; exact hcm))
    have e1 : (s.flushed kenc).user = s.user := by unfold Sp.flushed; split <;> rfl
    have e2 : (s.flushed kenc).dom = s.dom := by unfold Sp.flushed; split <;> rfl
    have e3 : (s.flushed kenc).val = s.val := by unfold Sp.flushed; split <;> rfl
    rw [e1, e2, e3] at hs
    refine ⟨o, rs, P', o', _, _, data', h1, h3, by unfold close; rw [hst]; simp only [hc, ok_bind]; rfl, ?_, hs⟩
    simp only [sync, if_true]
  · have hd : s.dirty = false := by simpa using hd
    have hst : o'.st = .unchanged := by rw [h5.st, hd]; simp
    obtain ⟨mp, l, hcm, -⟩ := h5.clean hd
    refine ⟨o, rs, P', o', _, _, d.data, h1, h3, by unfold close; rw [hst], ?_, shows_of gk gv h5.filed hcm⟩
    simp only [sync, h5.dev, if_true]

/-! ## C32: what goes wrong -/

section
variable {st : St} {m : List (List Byte × (Nat × Nat))} {u : List Byte} {nm : String} {d : Dev} {rw' : Bool} {log : List (Nat × List Byte)}

theorem insert_new (gk : Good kc KV kenc) (gv : Good vc VV venc) {P : Plat} (hP : Usable P) {k : K} {v : V} (hk : KV k) (hv : VV v)
    (hst : st ≠ .init) (hf : find m (kenc k) = none) (hp : d.pos < 2 ^ 63) :
    insert kc vc P k v ⟨st, m, u, nm, some d, true, log⟩ =
      ok (0, ⟨.modified, m ++ [(kenc k, privOf P.be d.pos)], u, nm, some ((⟨d.data, d.pos, 0⟩ : Dev).put (recBytes venc v)), true,
        log ++ [(d.pos, venc v), (d.pos + (venc v).length, w32 (crcOf 0 (venc v)))]⟩) := by
  have hnew : insertNew m (kenc k) (privOf P.be d.pos) = m ++ [(kenc k, privOf P.be d.pos)] := by simp [insertNew, hf]
  unfold insert
  cases st
  · exact absurd rfl hst
  all_goals
    simp only [bufBytes_eq gk P.be k hk, ok_bind, hf, currentPosition, hP.fwd _ hp, hnew]
    rw [writeRecord_eq P gv v hv]
    rfl

theorem insert_old (gk : Good kc KV kenc) (gv : Good vc VV venc) {P : Plat} (hP : Usable P) {k : K} {v : V} (hk : KV k) (hv : VV v)
    (hst : st ≠ .init) {q : Nat} (hf : find m (kenc k) = some (privOf P.be q)) (hp : q < 2 ^ 63) :
    insert kc vc P k v ⟨st, m, u, nm, some d, true, log⟩ =
      ok (0, ⟨.modified, m, u, nm, some ((⟨d.data, q, 0⟩ : Dev).put (recBytes venc v)), true,
        log ++ [(q, venc v), (q + (venc v).length, w32 (crcOf 0 (venc v)))]⟩) := by
  unfold insert
  cases st
  · exact absurd rfl hst
  all_goals
    simp only [bufBytes_eq gk P.be k hk, ok_bind, hf, hP.back _ hp, seek_eq]
    rw [writeRecord_eq P gv v hv]
    rfl

theorem get_hit (gk : Good kc KV kenc) (gv : Good vc VV venc) {P : Plat} (hP : Usable P) {k : K} {v : V} (hk : KV k) (hv : VV v)
    (hst : st ≠ .init) {q : Nat} (hf : find m (kenc k) = some (privOf P.be q)) (hp : q < 2 ^ 63) (hat : At d.data q (recBytes venc v)) :
    get kc vc P k ⟨st, m, u, nm, some d, rw', log⟩ =
      ok (some v, ⟨st, m, u, nm, some ((⟨d.data, q, 0⟩ : Dev).skip (recBytes venc v)), rw', log⟩) := by
  have hsee : (⟨d.data, q, 0⟩ : Dev).Sees (recBytes venc v) := hat
  have hc : getChecksum ⟨st, m, u, nm, some ((⟨d.data, q, 0⟩ : Dev).skip (venc v)), rw', log⟩ = ok (crcOf 0 (venc v)) := rfl
  unfold get
  cases st
  · exact absurd rfl hst
  all_goals
    simp only [bufBytes_eq gk P.be k hk, ok_bind, hf, hP.back _ hp, seek_eq, reset_eq]
    rw [fetch_eq (gv.rd P.be v _ hv (Sees.left hsee))]
    simp only [ok_bind, hc]
    rw [fetch_eq (u32_good.rd P.be _ _ trivial (Sees.right hsee))]
    simp only [ok_bind, ne_eq, not_true, if_false, skip_skip, recBytes]

end

/-- the state after two insertions into a new file -/
theorem two_inserted (gk : Good kc KV kenc) (gv : Good vc VV venc) (P : Plat) (hP : Usable P) (nm : String) (u : List Byte)
    (hu : u.length < 2 ^ 31) {k1 k2 : K} (h1 : KV k1) (h2 : KV k2) (h12 : k1 ≠ k2) {v1 v2 : V} (hv1 : VV v1) (hv2 : VV v2)
    (hl : (venc v1).length < 2 ^ 32) :
    ∃ o data c log, create P nm u = ok o ∧
      run kc vc P o [.insert k1 v1, .insert k2 v2] = ok ([.code 0, .code 0], P,
        ⟨.modified, [(kenc k1, privOf P.be (hlen u + 16)), (kenc k2, privOf P.be (hlen u + 16 + (recBytes venc v1).length))], u, nm,
          some ⟨data, hlen u + 16 + (recBytes venc v1).length + (recBytes venc v2).length, c⟩, true, log⟩) ∧
      At data (hlen u + 16) (recBytes venc v1) ∧
      data.length = hlen u + 16 + (recBytes venc v1).length + (recBytes venc v2).length := by
  obtain ⟨c, lg, ho⟩ := openWrite_eq (nm := nm) P hP (insertUserdata u Obj.fresh).2 rfl hu
  have hne : kenc k1 ≠ kenc k2 := fun h => h12 (enc_inj gk h1 h2 h)
  have hlen1 := recBytes_length (venc := venc) v1
  have hh : hlen u < 2 ^ 32 := by unfold hlen; omega
  have i1 := insert_new (st := .modified) (m := []) (u := u) (nm := nm) (d := ⟨header u ++ posBytes (hlen u), hlen u + 16, c⟩) (log := lg)
    gk gv hP h1 hv1 (by simp) rfl (by show hlen u + 16 < _; omega)
  have i2 := insert_new (st := .modified) (m := [] ++ [(kenc k1, privOf P.be (hlen u + 16))]) (u := u) (nm := nm)
    (d := (⟨header u ++ posBytes (hlen u), hlen u + 16, 0⟩ : Dev).put (recBytes venc v1))
    (log := lg ++ [(hlen u + 16, venc v1), (hlen u + 16 + (venc v1).length, w32 (crcOf 0 (venc v1)))])
    gk gv hP h2 hv2 (by simp) (by simp [find, hne]) (by show hlen u + 16 + _ < _; omega)
  refine ⟨_, overwrite (overwrite (header u ++ posBytes (hlen u)) (hlen u + 16) (recBytes venc v1))
      (hlen u + 16 + (recBytes venc v1).length) (recBytes venc v2), crcOf 0 (recBytes venc v2),
    lg ++ [(hlen u + 16, venc v1), (hlen u + 16 + (venc v1).length, w32 (crcOf 0 (venc v1)))] ++
      [(hlen u + 16 + (recBytes venc v1).length, venc v2),
       (hlen u + 16 + (recBytes venc v1).length + (venc v2).length, w32 (crcOf 0 (venc v2)))], ho, ?_, ?_, ?_⟩
  · exact run_cons (step_insert i1) (run_cons (step_insert i2) rfl)
  · exact at_overwrite (at_self _ _ _) (Or.inl (le_refl _))
  · have e : (header u ++ posBytes (hlen u)).length = hlen u + 16 := by rw [List.length_append, header_length, posBytes_length]
    rw [overwrite_length _ _ _ (rec_ne v2), overwrite_length _ _ _ (rec_ne v1), e]
    omega

/-- C32 fails: insert `k1`, insert `k2`, look `k1` up, insert `k3` — and `k2` has the value of `k3`.  For all keys and values. -/
theorem C32_lookup_then_insert (gk : Good kc KV kenc) (gv : Good vc VV venc) (P : Plat) (hP : Usable P) (nm : String) (u : List Byte)
    (hu : u.length < 2 ^ 31) {k1 k2 k3 : K} (h1 : KV k1) (h2 : KV k2) (h3 : KV k3) (h12 : k1 ≠ k2) (h13 : k1 ≠ k3) (h23 : k2 ≠ k3)
    {v1 v2 v3 : V} (hv1 : VV v1) (hv2 : VV v2) (hv3 : VV v3) (hl : (venc v1).length < 2 ^ 32) :
    ∃ o o', create P nm u = ok o ∧
      run kc vc P o [.insert k1 v1, .insert k2 v2, .get k1, .insert k3 v3, .get k2] =
        ok ([.code 0, .code 0, .val (some v1), .code 0, .val (some v3)], P, o') := by
  obtain ⟨o, data, c, log, ho, hrun, hat, -⟩ := two_inserted gk gv P hP nm u hu h1 h2 h12 hv1 hv2 hl
  have hlen1 := recBytes_length (venc := venc) v1
  have hh : hlen u < 2 ^ 32 := by unfold hlen; omega
  have n12 : kenc k1 ≠ kenc k2 := fun h => h12 (enc_inj gk h1 h2 h)
  have n13 : kenc k1 ≠ kenc k3 := fun h => h13 (enc_inj gk h1 h3 h)
  have n23 : kenc k2 ≠ kenc k3 := fun h => h23 (enc_inj gk h2 h3 h)
  have g1 := get_hit (st := .modified)
    (m := [(kenc k1, privOf P.be (hlen u + 16)), (kenc k2, privOf P.be (hlen u + 16 + (recBytes venc v1).length))]) (u := u) (nm := nm)
    (d := ⟨data, hlen u + 16 + (recBytes venc v1).length + (recBytes venc v2).length, c⟩) (rw' := true) (log := log)
    gk gv hP h1 hv1 (by simp) (q := hlen u + 16) (by simp [find]) (by omega) hat
  have g2 := insert_new (st := .modified)
    (m := [(kenc k1, privOf P.be (hlen u + 16)), (kenc k2, privOf P.be (hlen u + 16 + (recBytes venc v1).length))]) (u := u) (nm := nm)
    (d := (⟨data, hlen u + 16, 0⟩ : Dev).skip (recBytes venc v1)) (log := log)
    gk gv hP h3 hv3 (by simp) (by simp [find, n13, n23]) (by show hlen u + 16 + _ < _; omega)
  have g3 := get_hit (st := .modified)
    (m := [(kenc k1, privOf P.be (hlen u + 16)), (kenc k2, privOf P.be (hlen u + 16 + (recBytes venc v1).length))] ++
      [(kenc k3, privOf P.be (hlen u + 16 + (recBytes venc v1).length))]) (u := u) (nm := nm)
    (d := (⟨data, hlen u + 16 + (recBytes venc v1).length, 0⟩ : Dev).put (recBytes venc v3)) (rw' := true)
    (log := log ++ [(hlen u + 16 + (recBytes venc v1).length, venc v3),
      (hlen u + 16 + (recBytes venc v1).length + (venc v3).length, w32 (crcOf 0 (venc v3)))])
    gk gv hP h2 hv3 (by simp) (q := hlen u + 16 + (recBytes venc v1).length) (by simp [find, n12]) (by omega) (at_self _ _ _)
  exact ⟨o, _, ho, run_append [.insert k1 v1, .insert k2 v2] [.get k1, .insert k3 v3, .get k2] P o hrun
    (run_cons (step_get g1) (run_cons (step_insert g2) (run_cons (step_get g3) rfl)))⟩

/-- C32 fails: insert `k1`, insert `k2`, give `k1` a new value of the same size, insert `k3` — and `k2` has the value of `k3`. -/
theorem C32_update_then_insert (gk : Good kc KV kenc) (gv : Good vc VV venc) (P : Plat) (hP : Usable P) (nm : String) (u : List Byte)
    (hu : u.length < 2 ^ 31) {k1 k2 k3 : K} (h1 : KV k1) (h2 : KV k2) (h3 : KV k3) (h12 : k1 ≠ k2) (h13 : k1 ≠ k3) (h23 : k2 ≠ k3)
    {v1 v2 v3 w1 : V} (hv1 : VV v1) (hv2 : VV v2) (hv3 : VV v3) (hw1 : VV w1) (hl : (venc v1).length < 2 ^ 32)
    (hw : (venc w1).length = (venc v1).length) :
    ∃ o o', create P nm u = ok o ∧
      run kc vc P o [.insert k1 v1, .insert k2 v2, .insert k1 w1, .insert k3 v3, .get k2] =
        ok ([.code 0, .code 0, .code 0, .code 0, .val (some v3)], P, o') := by
  obtain ⟨o, data, c, log, ho, hrun, hat, -⟩ := two_inserted gk gv P hP nm u hu h1 h2 h12 hv1 hv2 hl
  have hlen1 := recBytes_length (venc := venc) v1
  have hlenw := recBytes_length (venc := venc) w1
  have hrw : (recBytes venc w1).length = (recBytes venc v1).length := by omega
  have hh : hlen u < 2 ^ 32 := by unfold hlen; omega
  have n12 : kenc k1 ≠ kenc k2 := fun h => h12 (enc_inj gk h1 h2 h)
  have n13 : kenc k1 ≠ kenc k3 := fun h => h13 (enc_inj gk h1 h3 h)
  have n23 : kenc k2 ≠ kenc k3 := fun h => h23 (enc_inj gk h2 h3 h)
  have g1 := insert_old (st := .modified)
    (m := [(kenc k1, privOf P.be (hlen u + 16)), (kenc k2, privOf P.be (hlen u + 16 + (recBytes venc v1).length))]) (u := u) (nm := nm)
    (d := ⟨data, hlen u + 16 + (recBytes venc v1).length + (recBytes venc v2).length, c⟩) (log := log)
    gk gv hP h1 hw1 (by simp) (q := hlen u + 16) (by simp [find]) (by omega)
  have g2 := insert_new (st := .modified)
    (m := [(kenc k1, privOf P.be (hlen u + 16)), (kenc k2, privOf P.be (hlen u + 16 + (recBytes venc v1).length))]) (u := u) (nm := nm)
    (d := (⟨data, hlen u + 16, 0⟩ : Dev).put (recBytes venc w1))
    (log := log ++ [(hlen u + 16, venc w1), (hlen u + 16 + (venc w1).length, w32 (crcOf 0 (venc w1)))])
    gk gv hP h3 hv3 (by simp) (by simp [find, n13, n23]) (by show hlen u + 16 + _ < _; omega)
  have e : ((⟨data, hlen u + 16, 0⟩ : Dev).put (recBytes venc w1)).pos = hlen u + 16 + (recBytes venc v1).length := by
    show hlen u + 16 + _ = _; rw [hrw]
  rw [e] at g2
  have g3 := get_hit (st := .modified)
    (m := [(kenc k1, privOf P.be (hlen u + 16)), (kenc k2, privOf P.be (hlen u + 16 + (recBytes venc v1).length))] ++
      [(kenc k3, privOf P.be (hlen u + 16 + (recBytes venc v1).length))]) (u := u) (nm := nm)
    (d := (⟨((⟨data, hlen u + 16, 0⟩ : Dev).put (recBytes venc w1)).data, hlen u + 16 + (recBytes venc v1).length, 0⟩ : Dev).put (recBytes venc v3))
    (rw' := true)
    (log := log ++ [(hlen u + 16, venc w1), (hlen u + 16 + (venc w1).length, w32 (crcOf 0 (venc w1)))] ++
      [(hlen u + 16 + (recBytes venc v1).length, venc v3),
      (hlen u + 16 + (recBytes venc v1).length + (venc v3).length, w32 (crcOf 0 (venc v3)))])
    gk gv hP h2 hv3 (by simp) (q := hlen u + 16 + (recBytes venc v1).length) (by simp [find, n12]) (by omega) (at_self _ _ _)
  exact ⟨o, _, ho, run_append [.insert k1 v1, .insert k2 v2] [.insert k1 w1, .insert k3 v3, .get k2] P o hrun
    (run_cons (step_insert g1) (run_cons (step_insert g2) (run_cons (step_get g3) rfl)))⟩

end

end Verif.MapDisk
