import Verif.Props.C09
import Verif.Props.C18
import Verif.Props.C29
import Verif.Props.C102

/-!
# C103: a secure session is not ended by somebody without its keys

The full statement: while a secure channel is active, no packet that was not made with its keys ends it; only its own ends do (a new handshake, a KEYSET, the
timeout, a failed command).

It holds at a PD for everything that is not a complete packet for it (`C103_partial`: silence, packets of others, the beginning of a packet).  It fails at
every PD, ENFORCE_SECURE or not, whatever the keys and the state of the session: one packet with sequence number 0 and no protection ends the session
(`C103_pd`, src/osdp_phy.c:439-452; the standard lets a CP restart the sequence, but does not ask to give up the session for a packet that anybody can make).
A packet that was damaged on the line, even one for another device, has the same effect (`C103_noise`: the check value is looked at before the address,
src/osdp_phy.c:409-436; a bad one is OSDP_ERR_PKT_FMT, for which the PD resets, src/osdp_pd.c:982-983, 1000-1004).
It fails at a CP: an unprotected NAK in place of the awaited reply takes the PD offline, for five minutes (`C103_cp`; src/osdp_phy.c:616-624).
-/

namespace Osdp.PdM

open Spec.Wire (Packet)
open Phy (reload pdAccept pktAddr)

/-- **C103 fails for every PD.**  A PD in a secure session that is up to date and waits for a command; somebody sends it a POLL with sequence number 0, without a
security block.  After the visit there is no session. No key, no knowledge of the session is needed for the packet. -/
theorem C103_pd (C : Cipher) (p q : Pd) (k : Packet) (env : Env) (outs : List Out) (hp : p.flags.pdMode = true) (hi : Phy.Idle p) (_hact : p.scActive = true)
    (hto : env.now - p.scTstamp ≤ 8000) (hk : ForUs p k) (ha : Phy.Arrives env k.bytes) (hs : Phy.hasBit k.ctl Phy.CTL_SCB = false) (hscb : k.scb = [])
    (hd : k.data = [0x60#8]) (h0 : k.seq = 0) (h : refresh C p env = .ok (q, outs)) : q.scActive = false := by
  have hexp : expire p env.now = p := by
    unfold expire
    rw [if_neg]
    rintro ⟨-, h⟩
    have : (8000 : Int) < env.now - p.scTstamp := h
    omega
  obtain ⟨x, -, hrec⟩ := receive_plain C p k env 0x60#8 [] hp hi hk ha hs hscb hd (.inr h0)
  unfold refresh at h
  rw [hexp, hrec] at h
  obtain ⟨⟨p1, o1, ret⟩, h1, h⟩ := Res.bind_eq_ok.mp h
  obtain ⟨⟨q', o2⟩, h2, h⟩ := Res.bind_eq_ok.mp h
  injection h with h; injection h with e1 e2; subst e1 e2
  have hoff : (reload (pdAccept p k.seq (pktAddr k == 127)) x).scActive = false := by
    show (p.flags.scActive && k.seq != 0) = false
    rw [h0]; simp
  have hpm : (reload (pdAccept p k.seq (pktAddr k == 127)) x).flags.pdMode = true := hp
  revert hoff hpm h1
  generalize reload (pdAccept p k.seq (pktAddr k == 127)) x = P
  intro h1 hoff hpm
  have key : p1.scActive = false ∧ p1.flags.pdMode = true ∧ p1.replyId ≠ Id.RMAC_I := by
    unfold commanded at h1
    split at h1
    · injection h1 with h1; injection h1 with e1 e2; subst e1
      exact ⟨hoff, hpm, by show Id.NAK ≠ Id.RMAC_I; decide⟩
    · have hdp : dispatch (noteCmd P 0x60#8) env [] = .ok (pollEvent (noteCmd P 0x60#8), [], .none) := rfl
      rw [hdp] at h1
      injection h1 with h1; injection h1 with e1 e2; subst e1
      unfold pollEvent
      split
      · exact ⟨hoff, hpm, by show Id.ACK ≠ Id.RMAC_I; decide⟩
      · rename_i e rest _
        refine ⟨hoff, hpm, ?_⟩
        show eventReply e ≠ Id.RMAC_I
        unfold eventReply
        split <;> (try split) <;> decide
  obtain ⟨k1, k2, k3⟩ := key
  have hfin := finish_inv k2 h2
  cases hx : q'.scActive with
  | false => rfl
  | true =>
    rcases finished_stamp hfin hx with ⟨-, h⟩ | ⟨h, -⟩
    · exact absurd ((finished_tail hfin).replyId.symm.trans h) k3
    · rw [k1] at h; cases h

/-- **C103, partial: what is not a packet for this PD.**  If `osdp_phy_check_packet` finds no packet, one for another device, or a part of one (which is not overdue), the
session goes on.  Missing: complete packets for this PD (see `C103_pd`), malformed ones (see `C103_noise`), and wrong sequence numbers. -/
theorem C103_partial (C : Cipher) (p q p1 : Pd) (env : Env) (outs : List Out) (r : Phy.PktRet) (hp : p.flags.pdMode = true) (hact : p.scActive = true)
    (hto : env.now - p.scTstamp ≤ 8000) (hc : Phy.checkPacket p env = .ok (p1, r)) (hr : r = .noData ∨ r = .skip ∨ r = .wait ∧ env.now - p1.tstamp < 200)
    (h : refresh C p env = .ok (q, outs)) : q.scActive = true ∧ outs = [] := by
  have hexp : expire p env.now = p := by
    unfold expire
    rw [if_neg]
    rintro ⟨-, h⟩
    have : (8000 : Int) < env.now - p.scTstamp := h
    omega
  have hcol := (Phy.checkPacket_checked hc)
  obtain ⟨p2, o1, ret, o2, hg, hp1, hfin, rfl⟩ := refresh_inv hp h
  rw [hexp] at hg
  have key : p2.scActive = true ∧ o1 = [] ∧ (ret = .ignore ∨ ret = .noData ∨ ret = .wait ∧ env.now - p2.tstamp < 200) := by
    cases hg with
    | nothing h1 hcl hx =>
      rw [hc] at h1; injection h1 with h1; injection h1 with e1 e2; subst e1 e2
      refine ⟨hcl.scActive.trans hact, rfl, ?_⟩
      rcases hr with rfl | rfl | ⟨rfl, hw⟩ <;> simp at hx
      · exact .inr (.inl hx)
      · exact .inr (.inr ⟨hx, hw⟩)
    | skip h1 hcl =>
      exact ⟨hcl.scActive.trans hact, rfl, .inl rfl⟩
    | seq h1 _ => rw [hc] at h1; injection h1 with h1; injection h1 with e1 e2; subst e2; simp at hr
    | refused h1 _ _ _ _ => rw [hc] at h1; injection h1 with h1; injection h1 with e1 e2; subst e2; simp at hr
    | insecure h1 _ _ _ _ _ _ => rw [hc] at h1; injection h1 with h1; injection h1 with e1 e2; subst e2; simp at hr
    | command h1 _ _ _ _ _ _ _ _ _ _ => rw [hc] at h1; injection h1 with h1; injection h1 with e1 e2; subst e2; simp at hr
  obtain ⟨k1, k2, k3⟩ := key
  subst k2
  cases hfin with
  | keep _ => exact ⟨k1, rfl⟩
  | reset h =>
    rcases k3 with rfl | rfl | ⟨rfl, hw⟩
    · simp at h
    · simp at h
    · rcases h with h | ⟨-, h⟩
      · cases h
      · exact absurd hw h
  | reply h _ _ => rcases k3 with rfl | rfl | ⟨rfl, -⟩ <;> simp at h

/-! ### samples -/

open Sample

/-- a POLL that anybody can make -/
def anyPoll : Packet := ⟨true, 101#8, 4#8, [], [0x60#8]⟩

/-- The hypotheses of `C103_pd` are met, by the sample PD and by one that insists on a secure channel; and the visit is carried out. -/
example : ∀ x ∈ [pd, strict102],
    (let t := reading102 x
     t.bad = false ∧ t.pd.scActive = true ∧ t.pd.flags.pdMode = true ∧ (420 : Int) - t.pd.scTstamp ≤ 8000 ∧ t.pd.rx = [] ∧ t.pd.packetBufLen = 0 ∧
      -1 ≤ t.pd.seq ∧ t.pd.seq ≤ 3 ∧ Phy.hasBit anyPoll.ctl Phy.CTL_SCB = false ∧ anyPoll.seq = 0 ∧
      (refresh xorCipher t.pd (env anyPoll.bytes 420)).toOption.map (fun r => r.1.scActive) = some false) := by decide +kernel

/-- The hypotheses of `C103_partial` are met: nothing, a packet for another device, and the beginning of a packet. -/
example : ([[], Packet.bytes ⟨true, 17#8, 4#8, [], [0x60#8]⟩, anyPoll.bytes.take 6].map fun bs =>
    (match Phy.checkPacket (reading102 pd).pd (env bs 420), refresh xorCipher (reading102 pd).pd (env bs 420) with
      | .ok x, .ok y => some (x.2, decide (420 - x.1.tstamp < 200), y.1.scActive, y.2.length)
      | _, _ => none)) = [some (.noData, true, true, 0), some (.skip, true, true, 0), some (.wait, true, true, 0)] := by decide +kernel

/-- **C103 fails for every PD, by noise.**  A PD waits for a command; there is a packet on the line whose check value does not match, for this PD or for another
one (`f[1]` is any address, the packet any command).  Nothing is answered, but there is no session afterwards: the check value is looked at before the address. -/
theorem C103_noise (C : Cipher) (p : Pd) (m : Bool) (f : List Byte) (env : Env) (hp : p.flags.pdMode = true) (hi : Phy.Idle p) (hw : Phy.WfFrame m f)
    (hbad : ¬ Spec.Wire.Intact f) (hdir : ∀ a, f[1]? = some a → a.toNat < 128) (ha : Phy.Arrives env (Phy.marked m f)) :
    ∃ q, refresh C p env = .ok (q, []) ∧ q.scActive = false := by
  obtain ⟨hk, -⟩ := expire_kept p env.now
  have hid : Phy.Idle (expire p env.now) := ⟨hk.bufLen.trans hi.bufLen, hk.len.trans hi.len, by rw [hk.buf]; exact hi.buf, hk.rx.trans hi.rx⟩
  have hto : Phy.Towards (expire p env.now) f := by
    intro a h1
    have hlt := hdir a h1
    have hcp : (expire p env.now).isCp = false := by unfold Pd.isCp; rw [hk.pdMode, hp]; rfl
    unfold Phy.dirOk
    rw [hcp]
    have : ∀ a : Byte, a.toNat < 128 → Phy.hasBit a 0x80#8 = false := by decide +kernel
    rw [this a hlt]; rfl
  obtain ⟨t, ht⟩ := Phy.checkPacket_frame (expire p env.now) m f env hid hw hto ha
  rw [Phy.bodyFrame_bad _ m f hw hbad] at ht
  refine ⟨errorReset (Phy.reload (expire p env.now) { Phy.heldLoaded (expire p env.now) m f [] with ts := t }), ?_, rfl⟩
  unfold refresh receiveAndProcess
  rw [ht]
  rfl

/-- For example: the last byte of a POLL for address 17 is damaged, and the PD with address 101 loses the session that it had. -/
example : (reading102 pd).pd.scActive = true ∧ (reading102 pd).pd.address.toNat ≠ 17 ∧
    (refresh xorCipher (reading102 pd).pd (env (Packet.bytes ⟨true, 17#8, 4#8, [], [0x60#8]⟩ |>.dropLast |>.concat 0#8) 420)).toOption.map
      (fun r => (r.1.scActive, r.2.length)) = some (false, 0) := by decide +kernel

end Osdp.PdM

namespace Osdp.CpM

open Sample

/-- **C103 violated by a CP.**  In a secure session a POLL is under way; an unprotected NAK arrives in place of the reply.  The PD is offline and the session over. -/
theorem C103_cp : ∃ q o, securely.cp.flags.scActive = true ∧ securely.cp.state = .online ∧
    step xorCipher securely.cp (hears (reply (b8 securely.cp.seq.toNat) [b8 Id.NAK, 3]) 460) = .ok (q, o) ∧ q.flags.scActive = false ∧ q.state = .offline := by
  have h : (securely.cp.flags.scActive = true ∧ securely.cp.state = .online) ∧
      (match step xorCipher securely.cp (hears (reply (b8 securely.cp.seq.toNat) [b8 Id.NAK, 3]) 460) with
        | .ok (q, _) => decide (q.flags.scActive = false ∧ q.state = .offline)
        | .error _ => false) = true := by decide +kernel
  obtain ⟨⟨h1, h2⟩, h⟩ := h
  split at h
  · rename_i q o h3
    have h := of_decide_eq_true h
    exact ⟨q, o, h1, h2, h3, h.1, h.2⟩
  · cases h

end Osdp.CpM
