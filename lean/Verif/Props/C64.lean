import Verif.Spec.Sealed
import Verif.Lemmas.Lockstep
import Verif.Lemmas.PdKey
import Verif.Lemmas.SampleCp
import Verif.Lemmas.SampleSc

/-!
# C64: what leaves an end of a secure session is authenticated and its data enciphered
-/

namespace Osdp

open Spec.Wire Spec.Session Spec.Sealed

theorem Sc.encryptData_opens (C : Cipher) (isCmd : Bool) (sc : Sc) (pay : List Byte) :
    Opens C sc.sEnc (if isCmd then sc.rMac else sc.cMac) (Sc.encryptData C isCmd sc pay) pay ∧
      (Sc.encryptData C isCmd sc pay).length = (pay.length / 16 + 1) * 16 := by
  have hp : Sc.aesPadLen (pay.length + 1) = (pay.length / 16 + 1) * 16 := by unfold Sc.aesPadLen; omega
  have hl : (Sc.encryptData C isCmd sc pay).length = (pay.length / 16 + 1) * 16 := by
    rw [Sc.encryptData_length]; exact hp
  refine ⟨?_, hl⟩
  have h := Sc.decrypt_encrypt C true isCmd sc sc pay [] rfl rfl
  rw [hp] at h
  unfold Sc.decryptData at h
  rw [if_neg (by omega), if_neg (by omega), if_neg (by simp; omega)] at h
  injection h with h
  refine ⟨by omega, ?_⟩
  rw [decipher_cbc, chunks_blocks (by omega)]
  rw [← hl, Int.toNat_natCast, List.take_left' rfl] at h
  exact stripPad_some.mp h

namespace Phy

/-- what a packet of the session looks like on the line -/
theorem sealed_pkt (C : Cipher) (p : Pd) {t : Tx} {ty id : Byte} (pay : List Byte) (hscb : t.scb = [2#8, ty]) (hbit : hasBit t.ctl CTL_SCB = true)
    (hcrc : hasBit t.ctl CTL_CRC = true) (hfit : (pktOf t (securedData C p t (id :: pay))).frame.length ≤ 256) :
    ∃ pl, cipherData C p t (id :: pay) = id :: pl ∧
      SecuredFrame (pktOf t (securedData C p t (id :: pay))).frame (macMsg t (id :: pl)) ((tagOf C p (macMsg t (id :: pl))).1.take 4) t.ctl ty id pl ∧
      (if t.encrypted then Opens C p.sc.sEnc (if p.isCp then p.sc.rMac else p.sc.cMac) pl pay ∧ pl.length = (pay.length / 16 + 1) * 16 else pl = pay) := by
  have hpl : cipherData C p t (id :: pay) = id :: if t.encrypted then Sc.encryptData C p.isCp p.sc pay else pay := by
    unfold cipherData; split <;> rfl
  refine ⟨_, hpl, ?_, ?_⟩
  · have hsd : securedData C p t (id :: pay) = id :: (if t.encrypted then Sc.encryptData C p.isCp p.sc pay else pay) ++
        (tagOf C p (macMsg t (id :: if t.encrypted then Sc.encryptData C p.isCp p.sc pay else pay))).1.take 4 := by
      unfold securedData; rw [hpl]
    rw [hsd] at hfit ⊢
    exact securedFrame_pkt hscb hbit hcrc (by rw [List.length_take, (tagOf C p _).2]; rfl) hfit
  · split
    · exact Sc.encryptData_opens C p.isCp p.sc pay
    · rfl

theorem onWire_bytes (k : Packet) (cap : Nat) : OnWire (k.bytes.take cap) k.frame cap := by
  unfold OnWire Packet.bytes
  cases k.mark
  · exact .inl rfl
  · exact .inr rfl

theorem frame_le (k : Packet) : k.frame.length ≤ k.bytes.length := by
  unfold Packet.bytes
  cases k.mark <;> simp

end Phy

namespace Link

open Phy (pktOf anyData anySc Tx macMsg tagOf)
open CpM (nextCmd cmdTx)
open PdM (pdTx replyTx unbc touch expire)

/-- What a CP in a secure session hands to the channel. -/
theorem outcome_sealed {C : Cipher} {cp p1 : Pd} {env : Env} {o : List Out} {ok : Bool} (hcp : cp.isCp = true) (hact : cp.scActive = true)
    (hh : cp.cmdId ≠ Id.CHLNG ∧ cp.cmdId ≠ Id.SCRYPT) (ho : CpM.SendOutcome C cp env p1 o ok) {bs : List Byte} (hs : bs ∈ sent o) :
    ∃ f msg id data, OnWire bs f env.sendCap ∧ commandBuilt C cp env = some (id :: data) ∧
      Sealed C cp.sc.sEnc cp.sc.sMac1 cp.sc.sMac2 cp.sc.rMac 0x15#8 0x17#8 f msg id data ∧
      p1.sc = { cp.sc with cMac := mac C cp.sc.sMac1 cp.sc.sMac2 cp.sc.rMac msg } := by
  have hhs : Phy.inHandshake false cp.cmdId = false := by
    unfold Phy.inHandshake; simp [hh.1, hh.2]
  have hle : cp.txBufSize ≤ 256 := by unfold Pd.txBufSize; split <;> omega
  cases ho with
  | mute _ => cases hs
  | unbuilt b _ _ ho _ => rw [sent_fread ho.outs] at hs; cases hs
  | built b l _ outs _ hm hb ho hl hne hsend hw hbuf =>
    have hb0 : sent b.outs = [] := sent_fread ho.outs
    rw [CpM.sent_append, hb0, List.nil_append] at hs
    rcases hw with ⟨rfl, -⟩ | ⟨wire, q', hmis, hd, hsc, hfit, rfl, hok⟩
    · cases hs
    · have hform : ∃ f, b.p = { nextCmd cp with file := f } ∧ b.t = cmdTx cp := by
        cases ho with
        | same body => exact ⟨cp.file, rfl, rfl⟩
        | unbuilt h => exact h.elim (absurd · hh.1) (absurd · hh.2)
        | file f => exact ⟨f, rfl, rfl⟩
        | chlng h => exact absurd h hh.1
        | scrypt _ h => exact absurd h hh.2
      obtain ⟨f, hbp, hbt⟩ := hform
      have htx : CpM.finalTx b.t b.p l.length = cpTx cp l.length := by rw [hbp, hbt]; exact cpTx_final f _ hhs
      unfold CpM.cmdPkt at hfit hok hs
      rw [htx] at hd hfit hok hs
      have ha : b.p.scActive = cp.scActive := by rw [hbp]; rfl
      obtain ⟨w1, w2⟩ := Phy.dataOf_any hd (fun h => by
        obtain ⟨s1, s2⟩ := cpTx_secured l.length (ha.symm.trans h)
        exact ⟨h, s2⟩) (Nat.le_trans hfit hle)
      obtain ⟨a1, a2⟩ := PdM.anyData_congr (C := C) (p := b.p) (q := cp) (cpTx cp l.length) l (by rw [hbp]; rfl) (by rw [hbp]; rfl) (by rw [hbp]; rfl)
      rw [a1] at w1
      subst w1
      obtain ⟨id, pay, rfl⟩ := List.exists_cons_of_ne_nil hne
      rw [CpM.sendOuts_sent, List.mem_singleton] at hs
      have hany : anyData C cp (cpTx cp (id :: pay).length) (id :: pay) = Phy.securedData C cp (cpTx cp (id :: pay).length) (id :: pay) := by
        unfold anyData; rw [if_pos hact]
      have hscb : (cpTx cp (id :: pay).length).scb = [2#8, if pay = [] then 0x15#8 else 0x17#8] := by
        unfold cpTx; rw [hact, if_pos rfl]
        cases pay <;> simp
      obtain ⟨-, c2, c3⟩ := ctl_cases cp.scActive (Phy.nextSeq cp.seq true) (cpTx cp (id :: pay).length).ctl rfl
      rw [hany] at hs hfit
      obtain ⟨pl, hci, hF, hop⟩ := Phy.sealed_pkt C cp pay hscb (c3.trans hact) c2
        (Nat.le_trans (Phy.frame_le _) (Nat.le_trans hfit hle))
      rw [hcp] at hop
      refine ⟨_, _, id, pay, hs ▸ Phy.onWire_bytes _ _, ?_, ⟨_, _, pl, hF, ?_, ?_⟩, ?_⟩
      · unfold commandBuilt; rw [hb]; exact hl
      · unfold tagOf; rw [hcp]; rfl
      · cases pay with
        | nil =>
          rw [if_pos rfl]
          rw [if_neg (by unfold Tx.encrypted Tx.scbType; rw [hscb]; simp)] at hop
          exact hop
        | cons x xs =>
          rw [if_neg (by simp)]
          rw [if_pos (by unfold Tx.encrypted Tx.scbType; rw [hscb]; simp)] at hop
          exact hop
      · have hsc' : p1.sc = anySc C cp (cpTx cp (id :: pay).length) (id :: pay) := by rw [hsc, w2, a2]; rfl
        rw [hsc']
        unfold anySc Phy.chainSc
        rw [if_pos hact, if_pos hcp, hci]
        unfold tagOf; rw [hcp]; rfl

/-- the only reply of a secure session that is not sealed: the NAK a PD sends when it could not build the reply, authenticated
but not enciphered -/
def Substitute (C : Cipher) (k1 k2 m : Block) (f msg : List Byte) : Prop :=
  ∃ tag ctl, SecuredFrame f msg tag ctl 0x16#8 0x41#8 [9#8] ∧ tag = (mac C k1 k2 m msg).1.take 4

/-- What a PD in a secure session hands to the channel. -/
theorem reply_sealed {C : Cipher} {p q : Pd} {env : Env} {o : List Out} {ok : Bool} (hpd : p.flags.pdMode = true) (hact : p.scActive = true)
    (ho : PdM.SendOutcome C p env q o ok) {bs : List Byte} (hs : bs ∈ sent o) :
    ∃ f msg id data b, OnWire bs f env.sendCap ∧
      PdM.replyBody C (unbc p) env (replyTx p) (p.txBufSize - (replyTx p).dataOff) = .ok b ∧ PdM.bodyOr b.body = id :: data ∧
      (Sealed C p.sc.sEnc p.sc.sMac1 p.sc.sMac2 p.sc.cMac 0x16#8 0x18#8 f msg id data ∨
        id = 0x41#8 ∧ data = [9#8] ∧ (∃ n, b.body = .error n) ∧ Substitute C p.sc.sMac1 p.sc.sMac2 p.sc.cMac f msg) ∧
      q.sc = { p.sc with rMac := mac C p.sc.sMac1 p.sc.sMac2 p.sc.cMac msg } := by
  have hcp : p.isCp = false := by simp [Pd.isCp, hpd]
  have hle : p.txBufSize ≤ 256 := by unfold Pd.txBufSize; split <;> omega
  have hrt : (replyTx p).scb = [2#8, 0x15#8] := by unfold replyTx; rw [hact]; rfl
  cases ho with
  | mute _ => cases hs
  | built b _ outs _ hb ho hhd hsend hw hbuf =>
    have hb0 : sent b.outs = [] := PdM.BodyOutcome.nosend ho
    rw [CpM.sent_append, hb0, List.nil_append] at hs
    rcases hw with ⟨rfl, -⟩ | ⟨wire, q', hd, hsc, hfit, rfl, hok⟩
    · cases hs
    have hform : b.t = replyTx p ∧ b.p.scActive = p.scActive ∧ b.p.sc = p.sc ∧ b.p.flags.pdMode = p.flags.pdMode := by
      cases ho with
      | same body => exact ⟨rfl, rfl, rfl, rfl⟩
      | com c h => exact ⟨rfl, rfl, rfl, rfl⟩
      | ftstat f _ _ _ _ _ => exact ⟨rfl, rfl, rfl, rfl⟩
      | ccrypt _ _ h => rw [hrt] at h; cases h
      | rmac _ _ _ h => rw [hrt] at h; cases h
    obtain ⟨hbt, ha, hbsc, hbcp⟩ := hform
    have htx : PdM.finalTx b.t b.p (PdM.bodyLen b.body) = pdTx p (PdM.bodyLen b.body) := by
      unfold PdM.finalTx
      rw [hbt, ha]
      unfold replyTx pdTx
      rw [hact]
      simp
    rw [htx] at hd hfit hok hs
    obtain ⟨w1, w2⟩ := Phy.dataOf_any hd (fun h => by
      obtain ⟨s1, s2⟩ := pdTx_secured (PdM.bodyLen b.body) (ha.symm.trans h)
      exact ⟨h, s2⟩) (Nat.le_trans hfit hle)
    obtain ⟨a1, a2⟩ := PdM.anyData_congr (C := C) (p := b.p) (q := p) (pdTx p (PdM.bodyLen b.body)) (PdM.bodyOr b.body) ha hbcp hbsc
    rw [a1] at w1
    subst w1
    have hne : PdM.bodyOr b.body ≠ [] := by
      intro h
      cases hbd : b.body with
      | ok l => have := hhd l hbd; rw [hbd] at h; rw [show l = [] from h] at this; cases this
      | error k => rw [hbd] at h; cases h
    obtain ⟨id, pay, hbody⟩ := List.exists_cons_of_ne_nil hne
    rw [CpM.sendOuts_sent, List.mem_singleton] at hs
    rw [hbody] at hs hfit hd w2 a1 a2
    have hany : anyData C p (pdTx p (PdM.bodyLen b.body)) (id :: pay) = Phy.securedData C p (pdTx p (PdM.bodyLen b.body)) (id :: pay) := by
      unfold anyData; rw [if_pos hact]
    have hscb : (pdTx p (PdM.bodyLen b.body)).scb = [2#8, if PdM.bodyLen b.body > 1 then 0x18#8 else 0x16#8] := by
      unfold pdTx; simp [hact]
    obtain ⟨-, c2, c3⟩ := ctl_cases p.scActive p.seq (pdTx p (PdM.bodyLen b.body)).ctl rfl
    rw [hany] at hs hfit
    obtain ⟨pl, hci, hF, hop⟩ := Phy.sealed_pkt C p pay hscb (c3.trans hact) c2
      (Nat.le_trans (Phy.frame_le _) (Nat.le_trans hfit hle))
    have htag : tagOf C p (macMsg (pdTx p (PdM.bodyLen b.body)) (id :: pl)) =
        mac C p.sc.sMac1 p.sc.sMac2 p.sc.cMac (macMsg (pdTx p (PdM.bodyLen b.body)) (id :: pl)) := by
      unfold tagOf; rw [hcp]; rfl
    rw [hcp] at hop
    rw [htag] at hF
    have hsq : q.sc = { p.sc with rMac := mac C p.sc.sMac1 p.sc.sMac2 p.sc.cMac (macMsg (pdTx p (PdM.bodyLen b.body)) (id :: pl)) } := by
      have hsc' : q.sc = anySc C p (pdTx p (PdM.bodyLen b.body)) (id :: pay) := by rw [hsc, w2, a2]; rfl
      rw [hsc']
      unfold anySc Phy.chainSc
      rw [if_pos hact, hcp, if_neg (by simp), hci, htag]
    refine ⟨_, _, id, pay, b, hs ▸ Phy.onWire_bytes _ _, hb, hbody, ?_, hsq⟩
    by_cases hn : PdM.bodyLen b.body > 1
    · rw [if_pos hn] at hscb hF
      rw [if_pos (by unfold Tx.encrypted Tx.scbType; rw [hscb]; simp)] at hop
      have hpay : pay ≠ [] := by
        rintro rfl
        cases hbd : b.body with
        | ok l => rw [hbd] at hn hbody; rw [show l = [id] from hbody] at hn; simp [PdM.bodyLen] at hn
        | error k => rw [hbd] at hbody; cases hbody
      exact .inl ⟨_, _, pl, by rw [if_neg hpay]; exact hF, rfl, by rw [if_neg hpay]; exact hop⟩
    · rw [if_neg hn] at hscb hF
      rw [if_neg (by unfold Tx.encrypted Tx.scbType; rw [hscb]; simp)] at hop
      subst hop
      cases hbd : b.body with
      | ok l =>
        have hpay : pl = [] := by
          rw [hbd] at hn hbody
          rw [show l = id :: pl from hbody] at hn
          cases pl with
          | nil => rfl
          | cons _ _ => simp [PdM.bodyLen] at hn
        rw [hbd] at hF
        exact .inl ⟨_, _, pl, by rw [if_pos hpay]; exact hF, rfl, by rw [if_pos hpay]; exact hpay⟩
      | error k =>
        rw [hbd] at hbody hF
        injection hbody with e1 e2
        subst e1 e2
        exact .inr ⟨rfl, rfl, ⟨k, rfl⟩, _, _, hF, rfl⟩

end Link

namespace CpM

theorem session_sealed {C : Cipher} {p q : Pd} {cb : Bool} {env : Env} {outs : List Out} {bs : List Byte} (I : Inv p)
    (hact : p.scActive = true) (h : step C p (.update cb env) = .ok (q, outs)) (hs : bs ∈ sent outs) :
    ∃ f msg id data, OnWire bs f env.sendCap ∧ Link.commandBuilt C p env = some (id :: data) ∧
      Sealed C p.sc.sEnc p.sc.sMac1 p.sc.sMac2 p.sc.rMac 0x15#8 0x17#8 f msg id data ∧
      (q.phyState = .replyWait → q.sc = { p.sc with cMac := mac C p.sc.sMac1 p.sc.sMac2 p.sc.rMac msg }) := by
  obtain ⟨⟨s1, o1, y⟩, hu, h1⟩ := Res.bind_eq_ok.mp h
  injection h1 with h1; injection h1 with e1 e2; subst e1 e2
  have hu := stateUpdate_inv I.cp hu
  clear h
  have hcp : p.isCp = true := by simp [Pd.isCp, I.cp]
  have hh : MaySend p env → p.cmdId ≠ Id.CHLNG ∧ p.cmdId ≠ Id.SCRYPT := by
    intro hm
    have hc := I.cmd (by rcases hm with h | ⟨h, -⟩ <;> rw [h] <;> simp)
    rcases I.secure hact with h | h
    · rw [h] at hc
      refine ⟨fun e => ?_, fun e => ?_⟩ <;> (rw [e] at hc; revert hc; unfold CmdOf; decide)
    · rw [h] at hc
      rw [show p.cmdId = Id.KEYSET from hc]
      decide
  cases hu with
  | hold _ _ => cases hs
  | sent hm ho =>
    obtain ⟨f, msg, id, data, h1, h2, h3, h4⟩ := Link.outcome_sealed hcp hact (hh hm) ho hs
    exact ⟨f, msg, id, data, h1, h2, h3, fun _ => h4⟩
  | unsent hm ho hset =>
    rw [sent_append, settle_sent hset, List.append_nil] at hs
    obtain ⟨f, msg, id, data, h1, h2, h3, h4⟩ := Link.outcome_sealed hcp hact (hh hm) ho hs
    refine ⟨f, msg, id, data, h1, h2, h3, fun hq => ?_⟩
    rcases (settled (unsent_mid I ho) hset).2 with h | h <;> rw [h] at hq <;> cases hq
  | replied _ hw _ hset => rw [sent_append, settle_sent hset, fclose_sent hw.outs] at hs; cases hs
  | again _ hw => rw [fclose_sent hw.outs] at hs; cases hs
  | waiting _ hw => rw [fclose_sent hw.outs] at hs; cases hs
  | idle _ hset => rw [settle_sent hset] at hs; cases hs

/-- Whatever a CP with an active secure session sends is the command it composed, sealed with the keys of the session: it carries a MAC chained to
the last reply, and its data, if any, is enciphered. The CP goes on from that MAC. -/
theorem C64_cp {C : Cipher} {info : PdM.Info} {p q : Pd} {cb : Bool} {env : Env} {outs : List Out} {bs : List Byte} (hr : Reached C info p)
    (hact : p.scActive = true) (h : step C p (.update cb env) = .ok (q, outs)) (hs : bs ∈ sent outs) :
    ∃ f msg id data, OnWire bs f env.sendCap ∧ Link.commandBuilt C p env = some (id :: data) ∧
      Sealed C p.sc.sEnc p.sc.sMac1 p.sc.sMac2 p.sc.rMac 0x15#8 0x17#8 f msg id data ∧
      (q.phyState = .replyWait → q.sc = { p.sc with cMac := mac C p.sc.sMac1 p.sc.sMac2 p.sc.rMac msg }) :=
  session_sealed hr.inv hact h hs

end CpM

namespace PdM

theorem received_pdMode {C : Cipher} {p q : Pd} {env : Env} {outs : List Out} {ret : PdRet} (hp : p.flags.pdMode = true) (h : Got C p env q outs ret) :
    q.flags.pdMode = true := by
  have ho : ∀ {a b : Pd} {bd o r}, Outcome a env bd b o r → a.flags.pdMode = true → b.flags.pdMode = true := by
    intro a b bd o r ho ha
    cases ho with
    | plain hpl _ => rw [hpl.quiet.flags]; exact ha
    | poll _ _ => unfold pollEvent; split <;> exact ha
    | file _ _ => split <;> exact ha
    | _ => exact ha
  cases h with
  | nothing _ hc _ => rw [hc.transp.pdMode]; exact hp
  | skip _ hc => exact hc.transp.pdMode.trans hp
  | seq _ hc => rw [hc.transp.pdMode]; exact hp
  | refused _ hc _ hd _ => rw [hd.transp.pdMode, hc.transp.pdMode]; exact hp
  | insecure _ hc _ hd _ _ _ =>
    show Pd.isPd _ = true
    exact (hd.transp.pdMode.trans hc.transp.pdMode).trans hp
  | command _ hc _ hd _ _ _ _ _ _ hout =>
    exact ho hout ((hd.transp.pdMode.trans hc.transp.pdMode).trans hp)

/-- Whatever a PD sends in a refresh after which its secure session is active, or in answer to a new key (which ends the session), is the reply it
composed, sealed with the keys of the session - except that the answer which opens the session (RMAC_I) is not part of it, and that the NAK sent in place of a reply that could not be built is authenticated
only. -/
theorem C64_pd_partial {C : Cipher} {p q : Pd} {env : Env} {outs : List Out} {bs : List Byte} (hp : p.flags.pdMode = true)
    (h : refresh C p env = .ok (q, outs)) (hact : q.scActive = true ∨ ∃ k, Out.cmd (.keyset k) ∈ outs) (hs : bs ∈ sent outs) :
    ∃ f, OnWire bs f env.sendCap ∧
      ((∃ msg id data, Link.replyBuilt C p env = some (id :: data) ∧
        (Sealed C q.sc.sEnc q.sc.sMac1 q.sc.sMac2 q.sc.cMac 0x16#8 0x18#8 f msg id data ∨
          id = 0x41#8 ∧ data = [9#8] ∧ Link.Substitute C q.sc.sMac1 q.sc.sMac2 q.sc.cMac f msg) ∧
        q.sc.rMac = mac C q.sc.sMac1 q.sc.sMac2 q.sc.cMac msg) ∨
      ∃ a lo hi ctl rest, f = 0x53#8 :: a :: lo :: hi :: ctl :: 3#8 :: 0x14#8 :: 1#8 :: b8 Id.RMAC_I :: rest) := by
  unfold refresh at h
  obtain ⟨⟨p1, o1, ret⟩, h1, h⟩ := Res.bind_eq_ok.mp h
  obtain ⟨⟨q', o2⟩, h2, h⟩ := Res.bind_eq_ok.mp h
  injection h with h; injection h with e1 e2; subst e1 e2
  have he : (expire p env.now).flags.pdMode = true := by unfold expire; split <;> exact hp
  have hg := receive_got he h1
  have ho1 : sent o1 = [] := by
    cases hg with
    | command _ _ _ _ _ _ _ _ _ _ hout =>
      refine CpM.sent_nil fun o ho bs hb => ?_
      subst hb
      exact (PdM.outcome_same hout).2.2 bs ho
    | _ => rfl
  have hp1 : p1.flags.pdMode = true := received_pdMode he hg
  rw [show sent (o1 ++ o2) = sent o1 ++ sent o2 from List.filterMap_append, ho1, List.nil_append] at hs
  have hfin := finish_inv hp1 h2
  clear h2
  -- a new key is only taken in a session
  replace hact : q'.scActive = true ∨ (touch p1 ret env.now).scActive = true := by
    refine hact.imp_right fun ⟨k, hk⟩ => ?_
    have hp1a : p1.scActive = true := by
      rw [List.mem_append] at hk
      rcases hk with hk | hk
      · cases hg with
        | command _ _ _ _ _ _ _ _ _ _ hout =>
          rcases outcome_cmd hout hk with hl | ⟨-, x, hx⟩
          · cases hout with
            | plain hpl _ =>
              obtain ⟨r, e, hq⟩ := hpl.quiet
              rw [hq]
              exact hl.2.2
            | file hid _ => exact absurd (hid.symm.trans hl.1) (by decide)
            | abort hid _ => exact absurd (hid.symm.trans hl.1) (by decide)
            | _ => cases hk
          · cases hx
        | _ => simp at hk
      · rcases finished_outs hfin _ hk with h | h | ⟨bs, h⟩ <;> cases h
    unfold touch
    split <;> exact hp1a
  cases hfin with
  | keep _ => cases hs
  | reset _ => cases hs
  | reply hret hout haft =>
    rename_i q1 ok
    have hq1 : (q1.scActive = true ∨ (touch p1 ret env.now).scActive = true) ∧ q'.sc.sEnc = q1.sc.sEnc ∧ q'.sc.sMac1 = q1.sc.sMac1 ∧
        q'.sc.sMac2 = q1.sc.sMac2 ∧ q'.sc.cMac = q1.sc.cMac ∧ q'.sc.rMac = q1.sc.rMac := by
      rcases afterSend_inv haft with ⟨rfl, -⟩ | ⟨-, -, -, k, -, rfl⟩
      · exact ⟨hact, rfl, rfl, rfl, rfl, rfl⟩
      · exact ⟨hact.imp_left (fun h => by cases h), rfl, rfl, rfl, rfl, rfl⟩
    have hp2 : (touch p1 ret env.now).flags.pdMode = true := by rw [touch_pdMode]; exact hp1
    obtain ⟨hq1, k1, k2, k3, k4, k5⟩ := hq1
    rw [k1, k2, k3, k4, k5]
    by_cases ha : (touch p1 ret env.now).scActive = true
    · obtain ⟨f, msg, id, data, b, r1, r2, r3, r4, r5⟩ := Link.reply_sealed hp2 ha hout hs
      refine ⟨f, r1, .inl ⟨msg, id, data, ?_, ?_, ?_⟩⟩
      · unfold Link.replyBuilt; rw [h1]; dsimp only; rw [r2]; dsimp only; rw [r3]
      · rw [r5]; exact r4.imp_right fun ⟨a, b, _, c⟩ => ⟨a, b, c⟩
      · rw [r5]
    · cases hout with
      | mute _ => cases hs
      | built b _ outs _ hb ho hhd hsend hw hbuf =>
        have hb0 : sent b.outs = [] := PdM.BodyOutcome.nosend ho
        rw [CpM.sent_append, hb0, List.nil_append] at hs
        rcases hw with ⟨rfl, -⟩ | ⟨wire, q', hd, hsc, hfit, rfl, hok⟩
        · cases hs
        rw [CpM.sendOuts_sent, List.mem_singleton] at hs
        refine ⟨_, hs ▸ Phy.onWire_bytes _ _, .inr ?_⟩
        have hqb : q1.scActive = b.p.scActive := by rw [hsend.buf]
        have hba := hqb.symm.trans (hq1.resolve_right ha)
        cases ho with
        | same body => exact absurd hba ha
        | com c h => exact absurd hba ha
        | ftstat f _ _ _ _ _ => exact absurd hba ha
        | ccrypt _ h => exact absurd hba ha
        | rmac sc ok hid _ _ _ =>
          cases ok with
          | false => exact absurd hba ha
          | true =>
            obtain ⟨w, hw⟩ : ∃ w, wire = b8 Id.RMAC_I :: w := by
              have hi := hd.id
              cases wire with
              | nil => cases hi
              | cons x w =>
                injection hi with hi
                exact ⟨w, by rw [hi, hid]⟩
            subst hw
            exact ⟨_, _, _, _, _, rfl⟩

/-! ### examples and witness -/

/-- the session of the examples is open and the application has reported three inputs -/
def sessionOps (n : Int) : List Op :=
  [.refresh (Sample.env (Sample.chlng 0#8)), .refresh (Sample.env (Sample.scrypt 1#8 (Sample.session Aes.aes Sample.key))),
    .notify (.status { type := .input, nrEntries := n, mask := 5 })]

/-- the PD after that -/
def sessionPd (n : Int) : Pd := ((run Aes.aes Sample.pd (sessionOps n)).toOption.map (·.1)).getD Sample.pd

/-- a POLL in that session -/
def sessionPoll : Env := Sample.env (Sample.secCmd Aes.aes (Sample.session Aes.aes Sample.key) 2#8 0x60#8 []).1

/-- what the PD then sends, and whether the session goes on -/
def sessionSends (n : Int) : Option (List (List Byte) × Bool) :=
  (refresh Aes.aes (sessionPd n) sessionPoll).toOption.map fun r => (sent r.2, r.1.scActive)

/-- Non-vacuity: the PD of the examples has two inputs; told about both it answers in the session with sixteen enciphered bytes. -/
example : (sessionPd 2).flags.pdMode = true ∧
    (sessionSends 2).map (fun x => (x.1.map (fun b => (b.length, b[7]?)), x.2)) = some ([(31, some 0x18#8)], true) := by decide +kernel

/-- Non-vacuity: a new key is acknowledged with a MAC of the session, which is over then. -/
example :
    let last := Sample.env (Sample.secCmd Aes.aes (Sample.session Aes.aes Sample.key) 2#8 0x75#8 (1#8 :: 16#8 :: List.replicate 16 7#8)).1
    ((refresh Aes.aes (sessionPd 2) last).toOption.map fun r =>
      (r.2.any (fun o => match o with | .cmd (.keyset _) => true | _ => false), (sent r.2).map (fun b => (b.length, b[7]?)), r.1.scActive)) =
      some (true, [(15, some 0x16#8)], false) := by decide +kernel

/-- the packet of the witness -/
def clearNak : List Byte := [0x53#8, 0xE5#8, 15#8, 0#8, 14#8, 2#8, 0x16#8, 0x41#8, 9#8, 135#8, 39#8, 217#8, 182#8, 115#8, 91#8]

theorem clearNak_unsealed (C : Cipher) (key k1 k2 m : Block) (msg : List Byte) (id : Byte) (data : List Byte) :
    ¬ Sealed C key k1 k2 m 0x16#8 0x18#8 clearNak msg id data := by
  rintro ⟨tag, ctl, pl, ⟨⟨a, lo, hi, sb, x, chk, rfl, hf, hsb, hc⟩, -, ht, -⟩, -, hp⟩
  unfold clearNak at hf
  simp only [List.cons_append, List.append_assoc] at hf
  injection hf with _ hf; injection hf with _ hf; injection hf with _ hf; injection hf with _ hf; injection hf with ec hf
  injection hf with es hf; injection hf with et hf
  subst ec es
  have hx : x = [] := by
    cases x with
    | nil => rfl
    | cons y l => simp at hsb
  subst hx
  by_cases hd : data = []
  · rw [if_pos hd] at hp
    subst hp
    have hl := congrArg List.length hf
    simp [ht, hc] at hl
  · rw [if_neg hd] at et
    cases et

/-- **C64 violated.**  In a secure session the application reports three inputs where the PD has two. The reply cannot be built,
and the NAK sent in its place has its reason in the clear: `pd_build_reply` (src/osdp_pd.c:917-930) chooses the type of the security block
from the reply that failed. -/
theorem C64_clear_nak :
    (∃ o, run Aes.aes Sample.pd (sessionOps 3) = .ok (sessionPd 3, o)) ∧
    sessionSends 3 = some ([0xFF#8 :: clearNak], true) ∧
    ∀ key k1 k2 m msg id data, ¬ Sealed Aes.aes key k1 k2 m 0x16#8 0x18#8 clearNak msg id data := by
  refine ⟨?_, by decide +kernel, fun key k1 k2 m msg id data => clearNak_unsealed _ key k1 k2 m msg id data⟩
  have h : (run Aes.aes Sample.pd (sessionOps 3)).toOption.isSome = true := by decide +kernel
  unfold sessionPd
  cases hr : run Aes.aes Sample.pd (sessionOps 3) with
  | ok r => exact ⟨r.2, rfl⟩
  | error e => rw [hr] at h; cases h

end PdM

namespace CpM

/-- a CP in a secure session, about to poll; the same, told to switch an LED -/
def sealedPoll : Sample.Talk := Sample.talk.turns xorCipher 10 18
def sealedLed : Sample.Talk :=
  ((Sample.talk.turns xorCipher 10 14).cpDoes xorCipher (.send { now := 145 } (.led ⟨0, 1, ⟨1, 2, 3, 4, 5, 300⟩, ⟨1, 2, 3, 4, 5, 77⟩⟩))).turns xorCipher 10 1

/-- what it sends -/
def cpSends (t : Sample.Talk) : Option (List (Nat × Option Byte) × PhyState) :=
  (step xorCipher t.cp (Sample.hears [] (t.now + 10))).toOption.map fun r => ((sent r.2).map fun b => (b.length, b[7]?), r.1.phyState)

/-- Non-vacuity: both have a session; the POLL has no data, the LED command goes out enciphered. -/
example : sealedPoll.bad = false ∧ sealedPoll.cp.scActive = true ∧ cpSends sealedPoll = some ([(15, some 0x15#8)], .replyWait) ∧
    sealedLed.bad = false ∧ sealedLed.cp.scActive = true ∧ cpSends sealedLed = some ([(31, some 0x17#8)], .replyWait) := by decide +kernel

end CpM
end Osdp
