import Verif.Props.C08
import Verif.Props.C104

/-!
# C105: packets that are not meant for it do not disturb a CP

The full statement: while a CP awaits the answer of a PD, packets on the line that are not answers of this PD (late answers of other PDs on the same line, commands,
the echo of its own command on a line with two wires) are ignored: the PD stays online and in its session.  The code means to ignore them
(src/osdp_phy.c:382 "Ignoring packet with invalid PD_ADDR.MSB").

It holds for anything without a start byte (`C105_partial`).  It fails at every CP, for every online PD: one intact answer of any other PD (`C105_other`,
src/osdp_phy.c:428-436) or the beginning of one command, such as its own echo (`C105_echo`, src/osdp_phy.c:380-384), takes the PD offline for five minutes, because
`cp_process_reply` takes OSDP_ERR_PKT_CHECK and OSDP_ERR_PKT_SKIP for failures (src/osdp_cp.c:742-743).
-/

namespace Osdp.CpM

open Spec.Wire
open Phy (Idle Arrives WfFrame marked pktAddr)

/-- **C105 fails for every CP: answers of other PDs.**  The answer of an online PD is awaited, and an intact answer of a PD with another address arrives.  The PD is
taken offline, for 300 s, and its session is over.  `hreq`: the application has not just asked for a new session. -/
theorem C105_other (C : Cipher) (info : PdM.Info) (p : Pd) (k : Packet) (cb : Bool) (env : Env) (hr : Reached C info p) (hon : p.state = .online)
    (hps : p.phyState = .replyWait) (hreq : p.reqRestartSc = false) (hi : Idle p) (hlen : k.bytes.length ≤ 256) (hcrc : Phy.hasBit k.ctl Phy.CTL_CRC = true)
    (hdir : 128 ≤ k.addr.toNat) (hoth : (pktAddr k : Int) ≠ p.address ∧ pktAddr k ≠ 127) (ha : Arrives env k.bytes) :
    ∃ q o, step C p (.update cb env) = .ok (q, o) ∧ q.state = .offline ∧ q.scActive = false ∧ q.tstamp = env.now ∧ q.waitMs = 300000 ∧ q.phyState = .idle := by
  have hcp : p.isCp = true := by unfold Pd.isCp; rw [hr.inv.cp]; rfl
  have hd : Phy.dirOk p k.addr = true := by
    unfold Phy.dirOk
    rw [hcp, (show ∀ a : Byte, 128 ≤ a.toNat → Phy.hasBit a 0x80#8 = true by decide +kernel) _ hdir]
    rfl
  obtain ⟨t, ht⟩ := Phy.checkPacket_packet p k env hi hlen hd ha
  rw [Phy.bodyFrame_foreign p k hcrc hoth, hcp] at ht
  exact unusable_offline C info p _ cb env .check hr hon hps hreq ht (.inr (.inl rfl))

/-- **C105 fails for every CP: commands.**  The answer of an online PD is awaited, and a command arrives: anything that has the form of a packet and an address without
the bit of an answer, for example the CP's own command.  The PD is taken offline, for 300 s, and its session is over. -/
theorem C105_echo (C : Cipher) (info : PdM.Info) (p : Pd) (m : Bool) (f : List Byte) (a : Byte) (cb : Bool) (env : Env) (hr : Reached C info p) (hon : p.state = .online)
    (hps : p.phyState = .replyWait) (hreq : p.reqRestartSc = false) (hi : Idle p) (hw : WfFrame m f) (h1 : f[1]? = some a) (hdir : a.toNat < 128)
    (ha : Arrives env (marked m f)) :
    ∃ q o, step C p (.update cb env) = .ok (q, o) ∧ q.state = .offline ∧ q.scActive = false ∧ q.tstamp = env.now ∧ q.waitMs = 300000 ∧ q.phyState = .idle := by
  obtain ⟨⟨a', lo, hi', ctl, tail, rfl, htl, hlen⟩, hfit⟩ := hw
  have haa : a' = a := by injection h1
  subst haa
  have hto : Phy.dirOk p a' = false := by
    unfold Phy.dirOk Pd.isCp
    rw [hr.inv.cp, (show ∀ a : Byte, a.toNat < 128 → Phy.hasBit a 0x80#8 = false by decide +kernel) a' hdir]
    rfl
  have hml : (marked m (Phy.SOM :: a' :: lo :: hi' :: ctl :: tail)).length ≤ 256 := by
    unfold marked
    cases m <;> simp at hfit ⊢ <;> omega
  obtain ⟨t, ht⟩ := Phy.checkPacket_eq p env hi.rx ha.1 (by rw [ha.2]; omega)
  rw [ha.2, Phy.assemble_wrongdir (Phy.setRx p (marked m (Phy.SOM :: a' :: lo :: hi' :: ctl :: tail))) m a' lo hi' ctl tail hi.bufLen hi.len hi.buf rfl hto] at ht
  exact unusable_offline C info p _ cb env .skip hr hon hps hreq ht (.inr (.inr rfl))

/-- **C105, the part that holds: noise.**  Bytes without a start byte leave the PD as it is, online and in its session, and the command may be repeated.  Missing:
anything with a start byte (see `C105_other`, `C105_echo`). -/
theorem C105_partial (C : Cipher) (p : Pd) (cb : Bool) (env : Env) (bs : List Byte) (hps : p.phyState = .replyWait) (hi : Idle p) (hk : p.retryCount < 8)
    (hn : 0x53#8 ∉ bs) (hl : bs.length ≤ 256) (ha : Arrives env bs) :
    ∃ q, step C p (.update cb env) = .ok (q, []) ∧ q.state = p.state ∧ q.scActive = p.scActive ∧ q.sc = p.sc ∧ q.seq = p.seq ∧ q.cmdId = p.cmdId ∧
      (q.phyState = .replyWait ∨ q.phyState = .wait) := by
  have hscan : Phy.scan 0#8 bs = none := by
    have hn' : ∀ (l : List Byte) (prev : Byte), 0x53#8 ∉ l → Phy.scan prev l = none := by
      intro l
      induction l with
      | nil => intro _ _; rfl
      | cons b l ih =>
        intro prev hb
        rw [Phy.scan, if_neg (fun h => hb (by rw [h]; simp))]
        exact ih b (fun h => hb (List.mem_cons_of_mem _ h))
    exact hn' _ _ hn
  obtain ⟨t, ht⟩ := Phy.checkPacket_eq p env hi.rx ha.1 (by rw [ha.2]; omega)
  rw [ha.2, Phy.assemble_eq (Phy.setRx p bs) hi.len, Phy.headerStart_scan (Phy.setRx p bs) hi.bufLen, show (Phy.setRx p bs).rx = bs from rfl, hscan] at ht
  obtain ⟨q, h, h1, h2, h3, h4, h5, -, h6, h7⟩ := C104_partial C p _ cb env .noData hps ht (.inl rfl) hk
  refine ⟨q, h, h1, h2, h3, h4, h5, ?_⟩
  by_cases hlate : 200 < env.now - p.phyTstamp
  · exact .inr (h7 hlate).1
  · exact .inl (h6 (by omega)).1

/-- The hypotheses are met in the session `securely`, which is reached (C104): an ACK of the PD with address 17, the echo of a POLL, noise. -/
example : securely.cp.state = .online ∧ securely.cp.phyState = .replyWait ∧ securely.cp.reqRestartSc = false ∧ securely.cp.address = 101 ∧
    hearing104 (Packet.bytes ⟨true, 0x91#8, 4#8, [], [0x40#8]⟩) 460 = some (.offline, false, .idle, 0) ∧
    hearing104 (Packet.bytes ⟨true, 0x65#8, 5#8, [], [0x60#8]⟩) 460 = some (.offline, false, .idle, 0) ∧
    hearing104 [0xFF#8, 0#8, 0x12#8, 0xFF#8] 460 = some (.online, true, .replyWait, 0) := by
  refine ⟨?_, ?_, ?_, ?_, ?_, ?_, ?_⟩ <;> decide +kernel

end Osdp.CpM
