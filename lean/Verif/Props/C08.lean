import Verif.Props.C09

/-!
# C08: a PD never acts on bytes that belong to another device's packet

True for commands to other devices.  For replies of other devices the PD discards only the first five
bytes and looks for a packet in the rest, so it is true only when no start byte occurs there.
-/

namespace Osdp.PdM

open Spec.Wire
open Phy (Idle Arrives WfFrame marked Towards Framed)

/-- a quiet moment: nothing arrives -/
def Silent (env : Env) : Prop := env.recv = []

/-- **C08, partial: commands to another device.**  An intact command packet for another device arrives.  The PD
does nothing visible and drops the packet completely: it is idle again, with nothing of the packet left
to be interpreted. -/
theorem C08_foreign_command_ignored_partial (C : Cipher) (p : Pd) (m : Bool) (f : List Byte) (a : Byte) (env : Env)
    (hp : p.flags.pdMode = true) (hi : Idle p) (hw : WfFrame m f) (hin : Intact f)
    (h1 : f[1]? = some a) (hdir : a.toNat < 128) (hfor : (a.toNat : Int) ≠ p.address ∧ a.toNat ≠ 127)
    (ha : Arrives env (marked m f)) :
    ∃ q, refresh C p env = .ok (q, []) ∧ Idle q ∧ q.eventQueue = p.eventQueue ∧ q.sc = p.sc ∧
      q.address = p.address ∧ q.file = p.file ∧ q.seq = p.seq ∧ q.scActive = (expire p env.now).scActive := by
  obtain ⟨hk, hadr⟩ := expire_kept p env.now
  have hid : Idle (expire p env.now) := ⟨hk.bufLen.trans hi.bufLen, hk.len.trans hi.len, by rw [hk.buf]; exact hi.buf, hk.rx.trans hi.rx⟩
  have hpe : (expire p env.now).flags.pdMode = true := hk.pdMode.trans hp
  have hnb : Phy.hasBit a 0x80#8 = false := (show ∀ a : Byte, a.toNat < 128 → Phy.hasBit a 0x80#8 = false by decide +kernel) a hdir
  have hto : Towards (expire p env.now) f := by
    intro b hb
    rw [h1] at hb; injection hb with hb; subst hb
    unfold Phy.dirOk Pd.isCp
    rw [hpe, hnb]; rfl
  obtain ⟨t, ht⟩ := Phy.checkPacket_frame (expire p env.now) m f env hid hw hto ha
  obtain ⟨n, hv⟩ := Phy.checkValue_intact hin
  have hbf : Phy.bodyFrame (expire p env.now) f = .ok (expire p env.now, .skip) := by
    unfold Phy.bodyFrame
    rw [hv, Phy.rd_ok h1]
    dsimp only [Res.ok_bind]
    rw [(Phy.and7f_of_cmd a hnb).1, hadr, if_neg (by decide), if_pos hfor]
    unfold Pd.isCp
    rw [hpe]; rfl
  rw [hbf] at ht
  refine ⟨(Phy.stateReset (Phy.reload (expire p env.now) { Phy.heldLoaded (expire p env.now) m f [] with ts := t }) false).1, ?_,
    ⟨rfl, rfl, ?_, rfl⟩, ?_⟩
  · unfold refresh receiveAndProcess
    rw [ht]
    rfl
  · show ((if m then [Phy.MARK] else []) ++ f ++ (expire p env.now).packetBuf.drop ((if m then [Phy.MARK] else []) ++ f).length).length = 256
    have := hw.fits
    rw [List.length_append, List.length_drop, hid.buf]
    cases m <;> simp at this ⊢ <;> omega
  · have : (expire p env.now).eventQueue = p.eventQueue ∧ (expire p env.now).sc = p.sc ∧
      (expire p env.now).address = p.address ∧ (expire p env.now).file = p.file ∧ (expire p env.now).seq = p.seq := by
      unfold expire; split <;> exact ⟨rfl, rfl, rfl, rfl, rfl⟩
    exact ⟨this.1, this.2.1, this.2.2.1, this.2.2.2.1, this.2.2.2.2, rfl⟩

/-- **C08, partial: replies of another device.**  A reply packet (of any device) in which the start byte 0x53
does not occur again arrives.  The PD does nothing visible in this refresh or the next, after which it is
idle with nothing left of the packet. -/
theorem C08_foreign_reply_ignored_partial (C : Cipher) (p : Pd) (m : Bool) (f : List Byte) (a : Byte) (env env' : Env)
    (hp : p.flags.pdMode = true) (hi : Idle p) (hw : WfFrame m f) (h1 : f[1]? = some a) (hdir : 128 ≤ a.toNat)
    (hsom : 0x53#8 ∉ f.tail) (ha : Arrives env (marked m f)) (hs : Silent env') :
    ∃ q s, refresh C p env = .ok (q, []) ∧ refresh C q env' = .ok (s, []) ∧ Idle s ∧
      s.eventQueue = p.eventQueue ∧ s.sc = p.sc ∧ s.address = p.address ∧ s.file = p.file ∧ s.seq = p.seq := by
  obtain ⟨hk, hadr⟩ := expire_kept p env.now
  have hid : Idle (expire p env.now) := ⟨hk.bufLen.trans hi.bufLen, hk.len.trans hi.len, by rw [hk.buf]; exact hi.buf, hk.rx.trans hi.rx⟩
  have hpe : (expire p env.now).flags.pdMode = true := hk.pdMode.trans hp
  obtain ⟨⟨a', lo, hi', ctl, tail, rfl, htl, hlen⟩, hfit⟩ := hw
  have haa : a' = a := by injection h1
  subst haa
  have hnb : Phy.hasBit a' 0x80#8 = true := (show ∀ a : Byte, 128 ≤ a.toNat → Phy.hasBit a 0x80#8 = true by decide +kernel) a' hdir
  have hto : Phy.dirOk (expire p env.now) a' = false := by
    unfold Phy.dirOk Pd.isCp
    rw [hpe, hnb]; rfl
  have hml : (marked m (Phy.SOM :: a' :: lo :: hi' :: ctl :: tail)).length ≤ 256 := by
    unfold marked
    cases m <;> simp at hfit ⊢ <;> omega
  obtain ⟨t, ht⟩ := Phy.checkPacket_eq (expire p env.now) env hid.rx ha.1 (by rw [ha.2]; omega)
  rw [ha.2, Phy.assemble_wrongdir (Phy.setRx (expire p env.now) (marked m (Phy.SOM :: a' :: lo :: hi' :: ctl :: tail))) m a' lo hi' ctl tail
    hid.bufLen hid.len hid.buf rfl hto] at ht
  have ht' := ht
  clear ht
  let q1 : Pd := Phy.setTs (Phy.hold (Phy.setMark (Phy.setRx (expire p env.now) (marked m (Phy.SOM :: a' :: lo :: hi' :: ctl :: tail))) m)
    (Phy.startBytes m ++ (a' :: lo :: hi' :: ctl :: tail).take (5 - (Phy.startBytes m).length))
    ((a' :: lo :: hi' :: ctl :: tail).drop (5 - (Phy.startBytes m).length))) t
  let q2 : Pd := (Phy.stateReset q1 false).1
  have e1 : refresh C p env = .ok (q2, []) := by
    unfold refresh receiveAndProcess
    rw [ht']
    rfl
  have hq2 : ∀ x, (expire q2 x).rx = (a' :: lo :: hi' :: ctl :: tail).drop (5 - (Phy.startBytes m).length) ∧
      (expire q2 x).packetBufLen = 0 ∧ (expire q2 x).packetLen = 0 ∧ (expire q2 x).packetBuf.length = 256 := by
    intro x
    obtain ⟨g, -⟩ := expire_kept q2 x
    refine ⟨g.rx, g.bufLen, g.len, ?_⟩
    rw [g.buf]
    show (Phy.startBytes m ++ (a' :: lo :: hi' :: ctl :: tail).take (5 - (Phy.startBytes m).length) ++
      (expire p env.now).packetBuf.drop _).length = 256
    rw [List.length_append, List.length_drop, hid.buf]
    have : (Phy.startBytes m ++ (a' :: lo :: hi' :: ctl :: tail).take (5 - (Phy.startBytes m).length)).length = 5 := by
      cases m <;> simp [Phy.startBytes]
    rw [this]
  obtain ⟨r1, r2, r3, r4⟩ := hq2 env'.now
  have hscan : Phy.scan 0#8 (expire q2 env'.now).rx = none := by
    rw [r1]
    have hn : ∀ (l : List Byte) (prev : Byte), 0x53#8 ∉ l → Phy.scan prev l = none := by
      intro l
      induction l with
      | nil => intro _ _; rfl
      | cons b l ih =>
        intro prev hb
        rw [Phy.scan, if_neg (fun h => hb (by rw [h]; simp))]
        exact ih b (fun h => hb (List.mem_cons_of_mem _ h))
    exact hn _ _ fun h => hsom (List.mem_of_mem_drop h)
  have hck : Phy.checkPacket (expire q2 env'.now) env' = .ok (Phy.setRx (expire q2 env'.now) [], .noData) := by
    have hin : Phy.intake (expire q2 env'.now) env' = .ok (expire q2 env'.now) := by
      unfold Phy.intake
      rw [hs]
      show Except.ok (if _ ∧ _ ∧ (0 : Int) > 0 then _ else _) = _
      rw [if_neg (by omega)]
    unfold Phy.checkPacket
    rw [hin]
    simp only [Res.ok_bind]
    rw [Phy.assemble_eq _ r3, Phy.headerStart_scan _ r2, hscan]
    rfl
  refine ⟨q2, Phy.setRx (expire q2 env'.now) [], e1, ?_, ⟨r2, r3, r4, rfl⟩, ?_⟩
  · unfold refresh receiveAndProcess
    rw [hck]
    rfl
  · have h1 : (expire p env.now).eventQueue = p.eventQueue ∧ (expire p env.now).sc = p.sc ∧
        (expire p env.now).address = p.address ∧ (expire p env.now).file = p.file ∧ (expire p env.now).seq = p.seq := by
      unfold expire; split <;> exact ⟨rfl, rfl, rfl, rfl, rfl⟩
    have h2 : (expire q2 env'.now).eventQueue = q2.eventQueue ∧ (expire q2 env'.now).sc = q2.sc ∧
        (expire q2 env'.now).address = q2.address ∧ (expire q2 env'.now).file = q2.file ∧ (expire q2 env'.now).seq = q2.seq := by
      unfold expire; split <;> exact ⟨rfl, rfl, rfl, rfl, rfl⟩
    exact ⟨h2.1.trans h1.1, h2.2.1.trans h1.2.1, h2.2.2.1.trans h1.2.2.1, h2.2.2.2.1.trans h1.2.2.2.1,
      h2.2.2.2.2.trans h1.2.2.2.2⟩

/-- Non-vacuity: a POLL for device 7, and its ACK. -/
example : Intact (Packet.frame ⟨true, 7#8, 4#8, [], [b8 Id.POLL]⟩) ∧
    WfFrame true (Packet.frame ⟨true, 0x87#8, 4#8, [], [b8 Id.ACK]⟩) ∧
    0x53#8 ∉ (Packet.frame ⟨true, 0x87#8, 4#8, [], [b8 Id.ACK]⟩).tail := by
  refine ⟨⟨by decide +kernel, ⟨8#8, 0#8, by decide +kernel⟩, by decide +kernel, 4#8, by decide +kernel, ?_⟩, ?_, by decide +kernel⟩
  · rw [if_pos (by decide)]; exact ⟨_, rfl⟩
  · exact Phy.frame_wf ⟨true, 0x87#8, 4#8, [], [b8 Id.ACK]⟩ (by decide +kernel)

/-- A reply of device 5 (REPLY_RAW card data) that contains the bytes of an LED command for device 101. -/
def bait : Packet :=
  ⟨true, 0x85#8, 4#8, [], b8 Id.RAW :: (Sample.cmd 0 [b8 Id.LED, 0, 0, 0, 0, 0, 0, 0, 0, 0, 1, 1, 1, 1, 1])⟩

/-- **C08 is violated**: the PD executes and answers a command that is only data inside another device's
reply. -/
theorem C08_embedded_command_executed :
    bait.addr = 0x85#8 ∧ Intact bait.frame ∧
    ((run Aes.aes Sample.pd [.refresh (Sample.env bait.bytes), .refresh { now := 0, recv := [], cb := some fun _ c => (0, c) }]).toOption.map
      fun r => ((Sample.asked r.2).length, (sent r.2).length)) = some (1, 1) := by
  refine ⟨rfl, ⟨by decide +kernel, ⟨_, 0#8, rfl, by decide +kernel, by decide +kernel⟩, by decide +kernel, 4#8, by decide +kernel, ?_⟩, by decide +kernel⟩
  rw [if_pos (by decide)]; exact ⟨_, rfl⟩

end Osdp.PdM
