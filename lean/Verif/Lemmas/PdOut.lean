import Verif.Lemmas.PdFits
import Verif.Lemmas.PdSeq

/-! # The packet a PD sends -/

namespace Osdp.PdM

open Spec.Wire
open Phy (pktOf sendOuts)

/-- the shape of every reply: where it comes from, its sequence number and its size -/
structure ReplyShape (p : Pd) (r : Packet) : Prop where
  addr : r.addr = (if p.flags.broadcast then 0x7F#8 else i8 p.address &&& 0x7F#8) ||| 0x80#8
  mark : r.mark = p.flags.hasMark
  ctl : r.ctl = b8 (Phy.seqBits p.seq) ||| 0x04#8 ∨ r.ctl = b8 (Phy.seqBits p.seq) ||| 0x04#8 ||| 0x08#8
  size : r.bytes.length ≤ p.txBufSize

theorem finished_packet {C : Cipher} {p q : Pd} {env : Env} {ret : PdRet} {outs : List Out} {bs : List Byte}
    (h : Finished C p env ret q outs) (hb : Out.send bs ∈ outs) :
    ∃ r, bs = (Packet.bytes r).take env.sendCap ∧ ReplyShape p r := by
  cases h with
  | keep => simp at hb
  | reset => simp at hb
  | @reply q1 _ _ ok _ hs _ =>
    obtain ⟨tu, t1, t2, t3, t4, t5, t6⟩ := touch_fields p ret env.now
    have key : ∀ P : Pd, SendOutcome C P env q1 outs ok → ∃ r, bs = (Packet.bytes r).take env.sendCap ∧ ReplyShape P r := by
      intro P hs
      cases hs with
      | mute => simp at hb
      | built b _ o _ hbd hbo hh hsend hc hl =>
        rcases List.mem_append.mp hb with hb | hb
        · have : bs ∈ sent b.outs := List.mem_filterMap.mpr ⟨_, hb, rfl⟩
          rw [hbo.nosend] at this; simp at this
        rcases hc with ⟨rfl, -⟩ | ⟨w, q', -, -, hlen, rfl, -⟩
        · simp at hb
        · obtain ⟨g1, g2, g3, g4⟩ := finalTx_fields b.t b.p (bodyLen b.body)
          obtain ⟨k1, -, k3, k4, -⟩ := hbo.header
          have hbs : bs = (pktOf (finalTx b.t b.p (bodyLen b.body)) w).bytes.take env.sendCap := by
            unfold sendOuts at hb
            split at hb <;> simpa using hb
          refine ⟨_, hbs, ⟨?_, ?_, ?_, hlen⟩⟩
          · exact g3.trans k3
          · exact g1.trans k1
          · have e : (pktOf (finalTx b.t b.p (bodyLen b.body)) w).ctl = (replyTx P).ctl := g4.trans k4
            rw [e]
            unfold replyTx
            dsimp only
            split
            · exact .inr rfl
            · exact .inl rfl
    have e : touch p ret env.now = p ∨ touch p ret env.now = { p with scTstamp := env.now } := by
      unfold touch; split
      · exact .inr rfl
      · exact .inl rfl
    obtain ⟨r, h1, h2⟩ := key _ hs
    refine ⟨r, h1, ?_⟩
    rcases e with e | e <;> rw [e] at h2 <;> exact ⟨h2.addr, h2.mark, h2.ctl, h2.size⟩

end Osdp.PdM
