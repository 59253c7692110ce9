import Verif.Lemmas.SendSc
import Verif.Lemmas.CpOut

/-! # The CP sends a command in a secure session -/

namespace Osdp.CpM

open Phy (Tx Secured securedData chainSc pktOf sendOuts)

/-- header of a command with `n` bytes (id and data) in a secure session -/
def secTx (p : Pd) (n : Nat) : Tx :=
  { mark := !p.flags.skipMark, misaligned := p.flags.hasMark && p.flags.skipMark
    addr := i8 p.address &&& 0x7F#8
    ctl := b8 (Phy.seqBits (Phy.nextSeq p.seq true)) ||| Phy.CTL_CRC ||| Phy.CTL_SCB
    scb := [2#8, if n > 1 then 0x17#8 else 0x15#8] }

/-- the packet of a command in a secure session -/
def secPkt (C : Cipher) (p : Pd) (body : List Byte) : Spec.Wire.Packet :=
  pktOf (secTx p body.length) (securedData C p (secTx p body.length) body)

theorem ctl_scb : ∀ n < 4, Phy.hasBit (b8 n ||| Phy.CTL_CRC ||| Phy.CTL_SCB) Phy.CTL_SCB = true := by decide

theorem secTx_secured {p q : Pd} {n : Nat} (h : q.flags.scActive = true) : Secured q (secTx p n) := by
  refine ⟨h, ctl_scb _ (by unfold Phy.seqBits; omega), _, rfl, ?_⟩
  split <;> decide

theorem secTx_encrypted (p : Pd) (n : Nat) : (secTx p n).encrypted = decide (1 < n) := by
  unfold Tx.encrypted secTx Tx.scbType
  by_cases h : 1 < n <;> simp [h]

theorem secPkt_length (C : Cipher) (p : Pd) (body : List Byte) (hne : body ≠ []) :
    (secPkt C p body).bytes.length = (if p.flags.skipMark then 0 else 1) + 13 +
      (if 1 < body.length then 1 + Sc.aesPadLen body.length else body.length) := by
  unfold secPkt
  rw [Phy.bytes_length]
  show (if (!p.flags.skipMark) = true then 1 else 0) + (5 + 2 + (securedData C p (secTx p body.length) body).length + 2) = _
  rw [Phy.securedData_length C p _ body hne, secTx_encrypted]
  cases p.flags.skipMark <;> by_cases h : 1 < body.length <;> simp [h] <;> omega

/-- A command that fits is sent, under the session's keys. -/
theorem buildAndSend_secured (C : Cipher) (p : Pd) (env : Env) (o : List Out) (f : Option FileSt) (body : List Byte)
    (hp : p.flags.pdMode = false) (hsc : p.flags.scActive = true)
    (hm : 69 ≤ p.txBufSize) (hmis : (p.flags.hasMark && p.flags.skipMark) = false) (hbuf : p.packetBuf.length = 256)
    (hb : commandBody C (nextCmd p) env (cmdTx p) (p.txBufSize - (cmdTx p).dataOff) =
      .ok ⟨{ nextCmd p with file := f }, cmdTx p, o, some body⟩)
    (hne : body ≠ []) (hfit : (secPkt C p body).bytes.length ≤ p.txBufSize) :
    ∃ buf, buildAndSend C p env = .ok ({ nextCmd p with file := f, sc := chainSc C p (secTx p body.length) body, packetBuf := buf },
      o ++ sendOuts p env (secPkt C p body).bytes, decide ((secPkt C p body).bytes.length ≤ env.sendCap)) ∧ buf.length = 256 := by
  have hle : p.txBufSize ≤ 256 := by unfold Pd.txBufSize; split <;> omega
  have hq : ({ nextCmd p with file := f } : Pd).flags.scActive = true := hsc
  obtain ⟨buf, hs, hl⟩ := Phy.sendPacket_secured C { nextCmd p with file := f } env (secTx p body.length) body p.txBufSize
    (secTx_secured hq) hmis hne hle hbuf hfit
  refine ⟨buf, ?_, hl⟩
  unfold buildAndSend
  dsimp only
  rw [packetInit_cp hp, if_neg (by omega)]
  dsimp only
  unfold buildCommand
  dsimp only
  have hd := cmdTx_dataOff p
  rw [if_neg (by omega), hb]
  simp only [Res.ok_bind]
  have e1 : (cmdTx p).scb[1]? = some 0x15#8 := by unfold cmdTx Pd.scActive; rw [hsc]; rfl
  have e2 : ((0x15#8 : Byte) > 0x14#8 ∧ ({ nextCmd p with file := f } : Pd).scActive = true) := ⟨by decide, hsc⟩
  have e3 : ({ cmdTx p with scb := [2#8, if body.length > 1 then 0x17#8 else 0x15#8] } : Tx) = secTx p body.length := by
    unfold cmdTx secTx Pd.scActive
    rw [hsc]
    simp
  simp only [Res.ok_bind, e1]
  rw [if_pos e2, e3]
  show (Phy.sendPacket C { nextCmd p with file := f } env (secTx p body.length) body p.txBufSize >>=
    fun x => Except.ok (x.1, o ++ x.2.1, x.2.2)) = _
  rw [hs]
  rfl

end Osdp.CpM
