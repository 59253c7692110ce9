import Verif.Lemmas.StalePd
import Verif.Props.C08

/-!
# C73: what a PD overhears of other conversations leaves no trace

Two histories of the same PD that differ only in packets between the CP and other devices: the PD does the same
in both.  True as long as every packet for this PD that announces a security block is long enough to contain
one: of shorter ones the PD reads bytes that an earlier packet left in its buffer.
-/

namespace Osdp.PdM

open Spec.Wire
open Phy (Idle Arrives WfFrame marked Towards Framed Curtailed)

/-! ### the PHY state of a PD -/

theorem got_phyState {C : Cipher} {p q : Pd} {env : Env} {outs : List Out} {ret : PdRet} (hi : p.phyState = .idle)
    (h : Got C p env q outs ret) : q.phyState = .idle := by
  have hout : ∀ {a b : Pd} {body : List Byte} {o : List Out} {r : PdRet}, Outcome a env body b o r → b.phyState = a.phyState := by
    intro a b body o r h
    cases h with
    | plain hpl _ => obtain ⟨_, _, rfl⟩ := hpl.quiet; rfl
    | poll _ _ => unfold pollEvent; split <;> rfl
    | file _ _ => split <;> rfl
    | _ => rfl
  cases h with
  | nothing _ hc _ => rw [hc.transp.phyState]; exact hi
  | skip _ hc => rfl
  | seq _ hc => rw [hc.transp.phyState]; exact hi
  | refused _ hc _ hd _ => rw [hd.transp.phyState, hc.transp.phyState]; exact hi
  | insecure _ hc _ hd _ _ _ =>
    refine Eq.trans (b := _) ?_ hi
    exact (hd.transp.phyState).trans hc.transp.phyState
  | command _ hc _ hd _ _ _ _ _ _ hout' => exact (hout hout').trans ((hd.transp.phyState.trans hc.transp.phyState).trans hi)

theorem refresh_phyState {C : Cipher} {p q : Pd} {env : Env} {outs : List Out} (hp : p.flags.pdMode = true) (hi : p.phyState = .idle)
    (h : refresh C p env = .ok (q, outs)) : q.phyState = .idle := by
  obtain ⟨p1, o1, ret, o2, hg, hp1, hf, -⟩ := refresh_inv hp h
  have h1 := got_phyState (by unfold expire; split <;> exact hi) hg
  cases hf with
  | keep _ => exact h1
  | reset _ => rfl
  | reply _ hs ha =>
    rcases afterSend_inv ha with ⟨rfl, -⟩ | ⟨-, -, -, k, -, rfl⟩ <;> rfl

theorem Reached.atRest {C : Cipher} {info : Info} {q : Pd} (h : Reached C info q) : q.phyState = .idle := by
  refine h.ind (fun q => q.phyState = .idle) ?_ ?_
  · intro sk n p hs
    unfold setup at hs
    split at hs
    · cases hs
    · injection hs with hs; subst hs; rfl
  · intro p op q outs hr hp hs
    cases op with
    | refresh env => exact refresh_phyState hr.pdMode hp hs
    | notify e =>
      injection hs with h; injection h with e1 e2; subst e1
      unfold notifyEvent; split <;> exact hp
    | flush => injection hs with h; injection h with e1 e2; subst e1; exact hp
    | setCaps l => injection hs with h; injection h with e1 e2; subst e1; exact hp
    | fileOps => injection hs with h; injection h with e1 e2; subst e1; exact hp

/-! ### one packet overheard -/

theorem _root_.Osdp.Sim.idle {p q : Pd} (h : Sim p q) (hi : Idle p) : Idle q := by
  obtain ⟨b, m, t, rfl, hb, -, -⟩ := h.ex
  exact ⟨hi.bufLen, hi.len, hb.len.trans hi.buf, hi.rx⟩

theorem expire_idle {p : Pd} (hi : Idle p) (now : Int) : Idle (expire p now) := by
  unfold expire; split <;> exact ⟨hi.bufLen, hi.len, hi.buf, hi.rx⟩

/-- silence -/
theorem refresh_silent {C : Cipher} {p : Pd} {env : Env} (hi : Idle p) (hs : env.recv = []) : refresh C p env = .ok (expire p env.now, []) := by
  have hid := expire_idle hi env.now
  have hin : Phy.intake (expire p env.now) env = .ok (expire p env.now) := by
    unfold Phy.intake
    rw [hs]
    show Except.ok (if _ ∧ _ ∧ (0 : Int) > 0 then _ else _) = _
    rw [if_neg (by omega)]
  have hck : Phy.checkPacket (expire p env.now) env = .ok (expire p env.now, .noData) := by
    unfold Phy.checkPacket
    rw [hin]
    simp only [Res.ok_bind]
    rw [Phy.assemble_eq _ hid.len, Phy.headerStart_scan _ hid.bufLen, hid.rx]
    show Except.ok (Phy.setRx (expire p env.now) [], Phy.PktRet.noData) = _
    have : Phy.setRx (expire p env.now) [] = expire p env.now := by
      have := hid.rx
      unfold Phy.setRx
      rw [← this]
    rw [this]
  unfold refresh receiveAndProcess
  rw [hck]
  rfl

/-- an emptied receiver -/
theorem sim_emptied {p s : Pd} {h : Phy.Held} (hi : Idle p) (hr : p.phyState = .idle) (hl : h.buf.length = 256) (hrx : h.rx = [])
    (hs : s = (Phy.stateReset (Phy.reload p h) false).1) : Sim p s := by
  subst hs
  refine ⟨h.buf, h.mark, h.ts, ?_, ⟨by rw [hl, hi.buf], fun j hj => ?_⟩, fun hn => absurd hi.bufLen hn, fun hn => ?_⟩
  · unfold Phy.stateReset Phy.reload
    have h1 := hi.bufLen; have h2 := hi.len; have h3 := hi.rx
    cases p
    dsimp only at h1 h2 h3 hr
    subst h1 h2 h3 hr
    simp [hrx]
  · rw [hi.bufLen] at hj; omega
  · rcases hn with hn | hn
    · exact absurd hi.bufLen hn
    · exact absurd hi.rx hn

theorem _root_.Osdp.Sim.then {p q s : Pd} (hi : Idle p) (h : Sim p q) (h' : Sim q s) : Sim p s := by
  obtain ⟨b, m, t, rfl, hb, -, -⟩ := h.ex
  obtain ⟨b', m', t', rfl, hb', -, -⟩ := h'.ex
  refine ⟨b', m', t', rfl, ⟨hb'.len.trans hb.len, fun j hj => ?_⟩, fun hn => absurd hi.bufLen hn, fun hn => ?_⟩
  · rw [hi.bufLen] at hj; omega
  · rcases hn with hn | hn
    · exact absurd hi.bufLen hn
    · exact absurd hi.rx hn

theorem heldLoaded_length (p : Pd) (m : Bool) (f : List Byte) (hb : p.packetBuf.length = 256) (hw : WfFrame m f) :
    (Phy.heldLoaded p m f []).buf.length = 256 := by
  show ((if m then [Phy.MARK] else []) ++ f ++ p.packetBuf.drop ((if m then [Phy.MARK] else []) ++ f).length).length = 256
  have := hw.fits
  rw [List.length_append, List.length_drop, hb]
  cases m <;> simp at this ⊢ <;> omega

/-- a command to another device -/
structure ForeignCommand (p : Pd) (m : Bool) (f : List Byte) : Prop where
  wf : WfFrame m f
  intact : Intact f
  to : ∃ a, f[1]? = some a ∧ a.toNat < 128 ∧ (a.toNat : Int) ≠ p.address ∧ a.toNat ≠ 127

/-- the reply of a device, in which the start byte does not occur again -/
structure ForeignReply (m : Bool) (f : List Byte) : Prop where
  wf : WfFrame m f
  to : ∃ a, f[1]? = some a ∧ 128 ≤ a.toNat
  som : 0x53#8 ∉ f.tail

theorem overhears_command {C : Cipher} {p : Pd} {m : Bool} {f : List Byte} {env : Env} (hp : p.flags.pdMode = true) (hr : p.phyState = .idle)
    (hi : Idle p) (hf : ForeignCommand p m f) (ha : Arrives env (marked m f)) :
    ∃ s, refresh C p env = .ok (s, []) ∧ Sim (expire p env.now) s := by
  obtain ⟨a, h1, hdir, hfor⟩ := hf.to
  obtain ⟨hk, hadr⟩ := expire_kept p env.now
  have hid := expire_idle hi env.now
  have hpe : (expire p env.now).flags.pdMode = true := hk.pdMode.trans hp
  have hnb : Phy.hasBit a 0x80#8 = false := (show ∀ a : Byte, a.toNat < 128 → Phy.hasBit a 0x80#8 = false by decide +kernel) a hdir
  have hto : Towards (expire p env.now) f := by
    intro b hb
    rw [h1] at hb; injection hb with hb; subst hb
    unfold Phy.dirOk Pd.isCp
    rw [hpe, hnb]; rfl
  obtain ⟨t, ht⟩ := Phy.checkPacket_frame (expire p env.now) m f env hid hf.wf hto ha
  obtain ⟨n, hv⟩ := Phy.checkValue_intact hf.intact
  have hbf : Phy.bodyFrame (expire p env.now) f = .ok (expire p env.now, .skip) := by
    unfold Phy.bodyFrame
    rw [hv, Phy.rd_ok h1]
    dsimp only [Res.ok_bind]
    rw [(Phy.and7f_of_cmd a hnb).1, hadr, if_neg (by decide), if_pos hfor]
    unfold Pd.isCp
    rw [hpe]; rfl
  rw [hbf] at ht
  refine ⟨_, ?_, sim_emptied (h := { Phy.heldLoaded (expire p env.now) m f [] with ts := t }) hid ?_ ?_ rfl rfl⟩
  · unfold refresh receiveAndProcess
    rw [ht]
    rfl
  · unfold expire; split <;> exact hr
  · exact heldLoaded_length _ _ _ hid.buf hf.wf

theorem overhears_reply {C : Cipher} {p : Pd} {m : Bool} {f : List Byte} {env env' : Env} (hp : p.flags.pdMode = true) (hr : p.phyState = .idle)
    (hi : Idle p) (hf : ForeignReply m f) (ha : Arrives env (marked m f)) (hs : env'.recv = []) :
    ∃ q s, refresh C p env = .ok (q, []) ∧ refresh C q env' = .ok (s, []) ∧ Sim (expire (expire p env.now) env'.now) s := by
  obtain ⟨hk, hadr⟩ := expire_kept p env.now
  have hid := expire_idle hi env.now
  have hpe : (expire p env.now).flags.pdMode = true := hk.pdMode.trans hp
  obtain ⟨⟨⟨a', lo, hi', ctl, tail, rfl, htl, hlen⟩, hfit⟩, ⟨a, h1, hdir⟩, hsom⟩ := hf
  have haa : a' = a := by injection h1
  subst haa
  have hnb : Phy.hasBit a' 0x80#8 = true := (show ∀ a : Byte, 128 ≤ a.toNat → Phy.hasBit a 0x80#8 = true by decide +kernel) a' hdir
  have hto : Phy.dirOk (expire p env.now) a' = false := by
    unfold Phy.dirOk Pd.isCp
    rw [hpe, hnb]; rfl
  have hml : (marked m (Phy.SOM :: a' :: lo :: hi' :: ctl :: tail)).length ≤ 256 := by
    unfold marked
    cases m <;> simp at hfit ⊢ <;> omega
  obtain ⟨t, ht⟩ := Phy.checkPacket_eq (expire p env.now) env hid.rx ha.1 (by rw [ha.2]; omega)
  rw [ha.2, Phy.assemble_wrongdir (Phy.setRx (expire p env.now) (marked m (Phy.SOM :: a' :: lo :: hi' :: ctl :: tail))) m a' lo hi' ctl tail
    hid.bufLen hid.len hid.buf rfl hto] at ht
  have ht' := ht
  clear ht
  let q1 : Pd := Phy.setTs (Phy.hold (Phy.setMark (Phy.setRx (expire p env.now) (marked m (Phy.SOM :: a' :: lo :: hi' :: ctl :: tail))) m)
    (Phy.startBytes m ++ (a' :: lo :: hi' :: ctl :: tail).take (5 - (Phy.startBytes m).length))
    ((a' :: lo :: hi' :: ctl :: tail).drop (5 - (Phy.startBytes m).length))) t
  let q2 : Pd := (Phy.stateReset q1 false).1
  have e1 : refresh C p env = .ok (q2, []) := by
    unfold refresh receiveAndProcess
    rw [ht']
    rfl
  have hb2 : q2.packetBuf.length = 256 := by
    show (Phy.startBytes m ++ (a' :: lo :: hi' :: ctl :: tail).take (5 - (Phy.startBytes m).length) ++
      (expire p env.now).packetBuf.drop _).length = 256
    rw [List.length_append, List.length_drop, hid.buf]
    have : (Phy.startBytes m ++ (a' :: lo :: hi' :: ctl :: tail).take (5 - (Phy.startBytes m).length)).length = 5 := by
      cases m <;> simp [Phy.startBytes]
    rw [this]
  obtain ⟨g, -⟩ := expire_kept q2 env'.now
  have hscan : Phy.scan 0#8 (expire q2 env'.now).rx = none := by
    rw [g.rx]
    have hn : ∀ (l : List Byte) (prev : Byte), 0x53#8 ∉ l → Phy.scan prev l = none := by
      intro l
      induction l with
      | nil => intro _ _; rfl
      | cons b l ih =>
        intro prev hb
        rw [Phy.scan, if_neg (fun h => hb (by rw [h]; simp))]
        exact ih b (fun h => hb (List.mem_cons_of_mem _ h))
    exact hn _ _ fun h => hsom (List.mem_of_mem_drop h)
  have hck : Phy.checkPacket (expire q2 env'.now) env' = .ok (Phy.setRx (expire q2 env'.now) [], .noData) := by
    have hin : Phy.intake (expire q2 env'.now) env' = .ok (expire q2 env'.now) := by
      unfold Phy.intake
      rw [hs]
      show Except.ok (if _ ∧ _ ∧ (0 : Int) > 0 then _ else _) = _
      rw [if_neg (by omega)]
    unfold Phy.checkPacket
    rw [hin]
    simp only [Res.ok_bind]
    rw [Phy.assemble_eq _ g.len, Phy.headerStart_scan _ g.bufLen, hscan]
    rfl
  refine ⟨q2, Phy.setRx (expire q2 env'.now) [], e1, ?_, ?_⟩
  · unfold refresh receiveAndProcess
    rw [hck]
    rfl
  · have h0 : Sim (expire p env.now) (Phy.setRx q2 []) := by
      refine sim_emptied (h := ⟨q2.packetBuf, 0, 0, m, t, []⟩) hid ?_ hb2 rfl rfl
      unfold expire; split <;> exact hr
    have h1 := expire_sim h0 env'.now
    have e : expire (Phy.setRx q2 []) env'.now = Phy.setRx (expire q2 env'.now) [] := by
      unfold expire
      rw [show (Phy.setRx q2 []).scActive = q2.scActive from rfl, show (Phy.setRx q2 []).scTstamp = q2.scTstamp from rfl]
      split <;> rfl
    rwa [e] at h1

/-! ### histories -/

/-- nothing arrives -/
def quietly (env : Env) : Env := { env with recv := [] }

/-- what is assumed of a call of the API: a refresh finds no more bytes than the receive FIFO holds, and no packet
for this PD that announces a security block it is too short for -/
def Regular (p : Pd) (op : Op) : Prop :=
  ∀ env, op = .refresh env → p.rx.length + env.recv.flatten.length ≤ Phy.RB_CAP ∧
    ∀ s, Phy.checkPacket (expire p env.now) env = .ok (s, .none) → ¬ Curtailed s

/-- Two histories of a PD in state `p`: in the first the PD overhears, in quiet moments, packets of others; in
the second it hears nothing instead. -/
inductive Overhearing (C : Cipher) : Pd → List Op → List Op → Prop
  | nil {p : Pd} : Overhearing C p [] []
  | same {p : Pd} {op : Op} {l l' : List Op} : Regular p op → (∀ q o, step C p op = .ok (q, o) → Overhearing C q l l') →
      Overhearing C p (op :: l) (op :: l')
  | command {p : Pd} {m : Bool} {f : List Byte} {env : Env} {l l' : List Op} : Idle p → ForeignCommand p m f → Arrives env (marked m f) →
      (∀ q o, step C p (.refresh (quietly env)) = .ok (q, o) → Overhearing C q l l') →
      Overhearing C p (.refresh env :: l) (.refresh (quietly env) :: l')
  | reply {p : Pd} {m : Bool} {f : List Byte} {env env' : Env} {l l' : List Op} : Idle p → ForeignReply m f → Arrives env (marked m f) →
      Silent env' → (∀ q o, run C p [.refresh (quietly env), .refresh env'] = .ok (q, o) → Overhearing C q l l') →
      Overhearing C p (.refresh env :: .refresh env' :: l) (.refresh (quietly env) :: .refresh env' :: l')

theorem step_two (C : Cipher) {p q : Pd} {op : Op} (hp : p.flags.pdMode = true) (h : Sim p q) (hf : Framed p) (hr : Regular p op) :
    Two (fun x y => Sim x.1 y.1 ∧ x.2 = y.2) (step C p op) (step C q op) := by
  cases op with
  | refresh env => exact refresh_two C hp h hf (hr env rfl).1 (hr env rfl).2
  | notify e =>
    obtain ⟨b, m, t, rfl, hb, hm, ht⟩ := h.ex
    refine ⟨?_, rfl⟩
    unfold notifyEvent
    show Sim (if p.eventQueue.length < p.poolCap then (_ : Pd × Int) else _).1 (if p.eventQueue.length < p.poolCap then (_ : Pd × Int) else _).1
    split
    · exact ⟨b, m, t, rfl, hb, hm, ht⟩
    · exact ⟨b, m, t, rfl, hb, hm, ht⟩
  | flush =>
    obtain ⟨b, m, t, rfl, hb, hm, ht⟩ := h.ex
    exact ⟨⟨b, m, t, rfl, hb, hm, ht⟩, rfl⟩
  | setCaps l =>
    obtain ⟨b, m, t, rfl, hb, hm, ht⟩ := h.ex
    exact ⟨⟨b, m, t, rfl, hb, hm, ht⟩, rfl⟩
  | fileOps =>
    obtain ⟨b, m, t, rfl, hb, hm, ht⟩ := h.ex
    exact ⟨⟨b, m, t, rfl, hb, hm, ht⟩, rfl⟩

theorem overhearing_two (C : Cipher) {info : Info} {p : Pd} {l l' : List Op} (h : Overhearing C p l l') : ∀ {q : Pd}, Reached C info p →
    Sim p q → Two (fun x y => Sim x.1 y.1 ∧ x.2 = y.2) (run C p l') (run C q l) := by
  induction h with
  | nil => intro q _ hs; exact ⟨hs, rfl⟩
  | @same p op l l' hr _ ih =>
    intro q hp hs
    unfold run
    refine Two.bind (step_two C hp.pdMode hs hp.framed hr) ?_
    intro ⟨p1, o1⟩ ⟨q1, o2⟩ h1 _ ⟨hs, e⟩
    obtain rfl : o1 = o2 := e
    refine Two.bind (ih p1 o1 h1 (hp.step h1) hs) ?_
    intro ⟨p2, o2⟩ ⟨q2, o3⟩ _ _ ⟨hs, e⟩
    obtain rfl : o2 = o3 := e
    exact ⟨hs, rfl⟩
  | @command p m f env l l' hi hf ha _ ih =>
    intro q hp hs
    have e1 : step C p (.refresh (quietly env)) = .ok (expire p env.now, []) := refresh_silent hi rfl
    have hq : q.flags.pdMode = true ∧ q.phyState = .idle ∧ q.address = p.address := by
      obtain ⟨b, m, t, rfl, -⟩ := hs.ex; exact ⟨hp.pdMode, hp.atRest, rfl⟩
    obtain ⟨s, e2, h2⟩ := overhears_command (C := C) hq.1 hq.2.1 (hs.idle hi) ⟨hf.wf, hf.intact, by rw [hq.2.2]; exact hf.to⟩ ha
    have hs2 : Sim (expire p env.now) s := Sim.then (expire_idle hi _) (expire_sim hs _) h2
    unfold run
    rw [e1, show step C q (.refresh env) = .ok (s, []) from e2, Res.ok_bind, Res.ok_bind]
    refine Two.bind (ih _ _ e1 (hp.step e1) hs2) ?_
    intro ⟨p2, o2⟩ ⟨q2, o3⟩ _ _ ⟨hs, e⟩
    obtain rfl : o2 = o3 := e
    exact ⟨hs, rfl⟩
  | @reply p m f env env' l l' hi hf ha hsil _ ih =>
    intro q hp hs
    have e1 : step C p (.refresh (quietly env)) = .ok (expire p env.now, []) := refresh_silent hi rfl
    have e1' : step C (expire p env.now) (.refresh env') = .ok (expire (expire p env.now) env'.now, []) :=
      refresh_silent (expire_idle hi _) hsil
    have hq : q.flags.pdMode = true ∧ q.phyState = .idle := by
      obtain ⟨b, m, t, rfl, -⟩ := hs.ex; exact ⟨hp.pdMode, hp.atRest⟩
    obtain ⟨s1, s, e2, e2', h2⟩ := overhears_reply (C := C) hq.1 hq.2 (hs.idle hi) hf ha hsil
    have hs2 : Sim (expire (expire p env.now) env'.now) s :=
      Sim.then (expire_idle (expire_idle hi _) _) (expire_sim (expire_sim hs _) _) h2
    have er : run C p [.refresh (quietly env), .refresh env'] = .ok (expire (expire p env.now) env'.now, []) := by
      unfold run; rw [e1, Res.ok_bind]; dsimp only
      unfold run; rw [e1', Res.ok_bind]; rfl
    unfold run
    rw [e1, show step C q (.refresh env) = .ok (s1, []) from e2, Res.ok_bind, Res.ok_bind]
    dsimp only
    unfold run
    rw [e1', show step C s1 (.refresh env') = .ok (s, []) from e2', Res.ok_bind, Res.ok_bind]
    dsimp only
    have key := ih _ _ er ((hp.step e1).step e1') hs2
    generalize run C (expire (expire p env.now) env'.now) l' = x at key
    generalize run C s l = y at key
    cases x <;> cases y
    · exact key
    · exact key.elim
    · exact key.elim
    · obtain ⟨k1, k2⟩ := key
      exact ⟨k1, by show _ ++ _ = _ ++ _; rw [k2]⟩

/-- **C73, partial.**  A PD overhears, in quiet moments, intact commands to other devices and replies without a
second start byte.  Whatever happens before, between and afterwards - commands, events, time-outs, faults - the PD
does exactly what it does when it hears nothing in those moments. -/
theorem C73_partial (C : Cipher) (info : Info) (p : Pd) (noisy quiet : List Op) (hp : Reached C info p)
    (h : Overhearing C p noisy quiet) :
    (run C p noisy).map (·.2) = (run C p quiet).map (·.2) := by
  have key := overhearing_two C h hp (Sim.refl p)
  generalize run C p quiet = x at key ⊢
  generalize run C p noisy = y at key ⊢
  cases x <;> cases y
  · exact congrArg Except.error (Eq.symm key)
  · exact key.elim
  · exact key.elim
  · exact congrArg Except.ok key.2.symm

/-! ### non-vacuity -/

/-- a POLL for device 7 and its ACK -/
def pollOther : Packet := ⟨true, 7#8, 4#8, [], [b8 Id.POLL]⟩
def ackOther : Packet := ⟨true, 0x87#8, 4#8, [], [b8 Id.ACK]⟩

/-- an uneventful refresh -/
def hush : Env := quietly (Sample.env [])

theorem sample_regular : Regular Sample.pd (.refresh (Sample.env Sample.poll)) := by
  intro env he
  obtain rfl : Sample.env Sample.poll = env := by injection he
  refine ⟨by decide +kernel, fun s hs hc => ?_⟩
  have e : ((Phy.checkPacket (expire Sample.pd (Sample.env Sample.poll).now) (Sample.env Sample.poll)).toOption.map
      fun r => (r.1.packetBufLen, r.1.flags.hasMark)) = some (9, true) := by decide +kernel
  rw [hs] at e
  have h1 := congrArg (Option.map Prod.fst) e
  have h2 := congrArg (Option.map Prod.snd) e
  injection h1 with h1
  injection h2 with h2
  have h1 : s.packetBufLen = 9 := h1
  have h2 : s.flags.hasMark = true := h2
  have := hc.1
  unfold Phy.markLen at this
  rw [h1, h2] at this
  exact absurd this (by decide)

/-- the sample PD overhears a POLL for device 7 and the ACK to it, and is then polled itself -/
example : Overhearing Aes.aes Sample.pd
    [.refresh (Sample.env pollOther.bytes), .refresh (Sample.env ackOther.bytes), .refresh hush, .refresh (Sample.env Sample.poll)]
    [.refresh hush, .refresh hush, .refresh hush, .refresh (Sample.env Sample.poll)] ∧
    (run Aes.aes Sample.pd [.refresh hush, .refresh hush, .refresh hush, .refresh (Sample.env Sample.poll)]).toOption.map
      (fun r => (sent r.2).length) = some 1 := by
  have hi : Idle Sample.pd := ⟨rfl, rfl, by decide +kernel, rfl⟩
  have hsil : step Aes.aes Sample.pd (.refresh hush) = .ok (Sample.pd, []) := refresh_silent hi rfl
  refine ⟨?_, by decide +kernel⟩
  refine .command (m := true) (f := pollOther.frame) (env := Sample.env pollOther.bytes) hi ⟨Phy.frame_wf pollOther (by decide +kernel),
    ⟨by decide +kernel, ⟨8#8, 0#8, by decide +kernel⟩, by decide +kernel, 4#8, by decide +kernel, ?_⟩, 7#8, by decide +kernel, by decide, by decide +kernel⟩
    ⟨by decide +kernel, by decide +kernel⟩ ?_
  · rw [if_pos (by decide)]; exact ⟨_, rfl⟩
  intro q o hq
  have hq : step Aes.aes Sample.pd (.refresh hush) = .ok (q, o) := hq
  rw [hsil] at hq
  injection hq with hq; injection hq with hq _; subst hq
  refine .reply (m := true) (f := ackOther.frame) (env := Sample.env ackOther.bytes) hi ⟨Phy.frame_wf ackOther (by decide +kernel),
    ⟨0x87#8, by decide +kernel, by decide⟩, by decide +kernel⟩ ⟨by decide +kernel, by decide +kernel⟩ rfl ?_
  intro q o hq
  have hq : run Aes.aes Sample.pd [.refresh hush, .refresh hush] = .ok (q, o) := hq
  unfold run at hq
  rw [hsil, Res.ok_bind] at hq
  dsimp only at hq
  unfold run at hq
  rw [hsil, Res.ok_bind] at hq
  injection hq with hq; injection hq with hq _
  have hq : Sample.pd = q := hq
  subst hq
  exact .same sample_regular fun q o _ => .nil

/-! ### where it fails -/

/-- a CHLNG for device 7 -/
def chlngOther : Packet := ⟨true, 7#8, 0x0C#8, [3#8, 0x11#8, 1#8], [b8 Id.CHLNG, 1, 2, 3, 4, 5, 6, 7, 8]⟩

/-- an intact packet of six bytes for device 101 that announces a security block -/
def stump : List Byte := [0x53#8, 0x65#8, 6#8, 0#8, 8#8, 0x3A#8]

/-- the packets sent -/
def answersTo (l : List Op) : Option (List (List Byte)) := (run Aes.aes Sample.pd l).toOption.map fun r => sent r.2

/-- **C73 is violated (stale bytes).**  The PD answers an intact packet that is too short for the security block it
announces with NAK - unless it overheard the CHLNG for another device before, of which it takes the type of the
block: then it says nothing. -/
theorem C73_stale : Intact stump ∧ Intact chlngOther.frame ∧ ForeignCommand Sample.pd true chlngOther.frame ∧
    answersTo [.refresh hush, .refresh (Sample.env (marked true stump))] =
      some [Packet.bytes ⟨true, 0xE5#8, 4#8, [], [b8 Id.NAK, Nak.SC_COND]⟩] ∧
    answersTo [.refresh (Sample.env chlngOther.bytes), .refresh (Sample.env (marked true stump))] = some [] := by
  have hin : Intact chlngOther.frame := by
    refine ⟨by decide +kernel, ⟨_, 0#8, rfl, by decide +kernel, by decide +kernel⟩, by decide +kernel, 0x0C#8, by decide +kernel, ?_⟩
    rw [if_pos (by decide)]; exact ⟨_, rfl⟩
  refine ⟨⟨by decide +kernel, ⟨6#8, 0#8, by decide +kernel⟩, by decide +kernel, 8#8, by decide +kernel, ?_⟩, hin,
    ⟨Phy.frame_wf chlngOther (by decide +kernel), hin, 7#8, by decide +kernel, by decide, by decide +kernel⟩, by decide +kernel, by decide +kernel⟩
  rw [if_neg (by decide)]; decide +kernel

/-- a card read reported by device 7, whose last data byte is the start byte -/
def cardOther : Packet := ⟨true, 0x87#8, 4#8, [], [b8 Id.RAW, 0, 0, 24, 0, 1, 2, 0x53#8]⟩

/-- **C73 is violated (start byte in a reply).**  After the reply of another device that contains the start byte, the
PD takes the next command for it for the rest of a packet: it is not answered. -/
theorem C73_swallowed :
    answersTo [.refresh hush, .refresh hush, .refresh (Sample.env Sample.poll), .refresh hush] =
      some [Packet.bytes ⟨true, 0xE5#8, 4#8, [], [b8 Id.ACK]⟩] ∧
    answersTo [.refresh (Sample.env cardOther.bytes), .refresh hush, .refresh (Sample.env Sample.poll), .refresh hush] = some [] := by
  refine ⟨by decide +kernel, by decide +kernel⟩

end Osdp.PdM
