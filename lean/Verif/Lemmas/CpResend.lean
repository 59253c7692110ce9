import Verif.Lemmas.CpDeliver
import Verif.Lemmas.CpOut

/-! # Sending a command again produces the same packet -/

namespace Osdp.CpM

open Phy (Tx)

theorem Reached.step {C : Cipher} {info : PdM.Info} {p q : Pd} {op : Op} {o : List Out} (h : Reached C info p)
    (hs : CpM.step C p op = .ok (q, o)) : Reached C info q := by
  obtain ⟨i, sk, n, p0, ops, o0, hn, hr⟩ := h
  exact ⟨i, sk, n, p0, ops ++ [op], _, hn, run_snoc hr hs⟩

theorem Reached.run {C : Cipher} {info : PdM.Info} {p q : Pd} {ops : List Op} {o : List Out} (h : Reached C info p)
    (hr : CpM.run C p ops = .ok (q, o)) : Reached C info q :=
  run_ind (C := C) (fun _ q _ => Reached C info q) h (fun _ _ _ _ _ _ _ h hs => h.step hs) hr

/-- everything a command packet is made of is the same -/
structure SameCmd (p q : Pd) : Prop where
  cp : q.flags.pdMode = p.flags.pdMode
  cmdId : q.cmdId = p.cmdId
  eph : q.eph = p.eph
  scActive : q.flags.scActive = p.flags.scActive
  useScbkd : q.flags.useScbkd = p.flags.useScbkd
  skipMark : q.flags.skipMark = p.flags.skipMark
  hasMark : (q.flags.hasMark && q.flags.skipMark) = (p.flags.hasMark && p.flags.skipMark)
  address : q.address = p.address
  seq : Phy.nextSeq q.seq true = Phy.nextSeq p.seq true
  peerRx : q.peerRx = p.peerRx
  hasFlush : q.hasFlush = p.hasFlush
  buf : q.packetBuf.length = p.packetBuf.length
  sc : q.sc = { p.sc with cMac := q.sc.cMac, cpCryptogram := q.sc.cpCryptogram }

theorem SameCmd.cmdTx {p q : Pd} (h : SameCmd p q) : cmdTx q = cmdTx p := by
  unfold CpM.cmdTx Pd.scActive
  rw [h.skipMark, ← h.skipMark, h.hasMark, h.skipMark, h.address, h.scActive, h.cmdId, h.seq]

theorem SameCmd.size {p q : Pd} (h : SameCmd p q) : q.txBufSize = p.txBufSize := by
  unfold Pd.txBufSize
  rw [h.peerRx]

/-- the same command, built -/
structure SameBuilt (p q : Pd) (b b' : Built) : Prop where
  t : b'.t = b.t
  outs : b'.outs = b.outs
  body : b'.body = b.body
  old : b.p = { p with sc := { p.sc with cpCryptogram := b.p.sc.cpCryptogram } }
  new : b'.p = { q with sc := { q.sc with cpCryptogram := b'.p.sc.cpCryptogram } }

theorem commandBody_congr {C : Cipher} {p q : Pd} {env env' : Env} {t : Tx} {room : Int} {b : Built}
    (hid : q.cmdId = p.cmdId) (he : q.eph = p.eph) (hsa : q.flags.scActive = p.flags.scActive)
    (hu : q.flags.useScbkd = p.flags.useScbkd)
    (hsc : q.sc = { p.sc with cMac := q.sc.cMac, cpCryptogram := q.sc.cpCryptogram }) (hf : p.cmdId ≠ Id.FILETRANSFER)
    (h : commandBody C p env t room = .ok b) :
    ∃ b', commandBody C q env' t room = .ok b' ∧ SameBuilt p q b b' := by
  have fin : ∀ (body : Option (List Byte)), (Except.ok ⟨p, t, [], body⟩ : Res Built) = .ok b →
      ∃ b', (Except.ok ⟨q, t, [], body⟩ : Res Built) = .ok b' ∧ SameBuilt p q b b' := by
    intro body h
    injection h with h; subst h
    exact ⟨_, rfl, rfl, rfl, rfl, rfl, rfl⟩
  unfold commandBody at h ⊢
  dsimp only at h ⊢
  rw [hid, he]
  have hact : q.scActive = p.scActive := hsa
  rw [hact]
  replace h := ite_inv h
  rcases h with ⟨c, h⟩ | ⟨c, h⟩
  · rw [if_pos c]
    obtain ⟨u, hu, h⟩ := Res.bind_eq_ok.mp h
    rw [hu]; exact fin _ h
  rw [if_neg c]; clear c
  replace h := ite_inv h
  rcases h with ⟨c, h⟩ | ⟨c, h⟩
  · rw [if_pos c]
    obtain ⟨u, hu, h⟩ := Res.bind_eq_ok.mp h
    rw [hu]; exact fin _ h
  rw [if_neg c]; clear c
  replace h := ite_inv h
  rcases h with ⟨c, h⟩ | ⟨c, h⟩
  · rw [if_pos c]
    obtain ⟨u, hu, h⟩ := Res.bind_eq_ok.mp h
    rw [hu]
    dsimp only [Res.ok_bind]
    split at h
    · exact fin _ h
    · cases h
  rw [if_neg c]; clear c
  replace h := ite_inv h
  rcases h with ⟨c, h⟩ | ⟨c, h⟩
  · rw [if_pos c]
    obtain ⟨u, hu, h⟩ := Res.bind_eq_ok.mp h
    rw [hu]
    dsimp only [Res.ok_bind]
    split at h
    · exact fin _ h
    · cases h
  rw [if_neg c]; clear c
  replace h := ite_inv h
  rcases h with ⟨c, h⟩ | ⟨c, h⟩
  · rw [if_pos c]
    obtain ⟨u, hu, h⟩ := Res.bind_eq_ok.mp h
    rw [hu]
    dsimp only [Res.ok_bind]
    split at h
    · exact fin _ h
    · cases h
  rw [if_neg c]; clear c
  replace h := ite_inv h
  rcases h with ⟨c, h⟩ | ⟨c, h⟩
  · rw [if_pos c]
    split at h
    · obtain ⟨u, hu, h⟩ := Res.bind_eq_ok.mp h
      obtain ⟨v, hv, h⟩ := Res.bind_eq_ok.mp h
      rw [hu]; dsimp only [Res.ok_bind]
      rw [hv]; exact fin _ h
    · cases h
  rw [if_neg c]; clear c
  replace h := ite_inv h
  rcases h with ⟨c, h⟩ | ⟨c, h⟩
  · rw [if_pos c]
    obtain ⟨u, hu, h⟩ := Res.bind_eq_ok.mp h
    rw [hu]
    dsimp only [Res.ok_bind]
    split at h
    · exact fin _ h
    · cases h
  rw [if_neg c]; clear c
  replace h := ite_inv h
  rcases h with ⟨c, h⟩ | ⟨c, h⟩
  · rw [if_pos c]
    split at h
    · obtain ⟨u, hu, h⟩ := Res.bind_eq_ok.mp h
      rw [hu]; dsimp only [Res.ok_bind]
      replace h := ite_inv h
      rcases h with ⟨d, h⟩ | ⟨d, h⟩
      · rw [if_pos d]; exact fin _ h
      rw [if_neg d]
      obtain ⟨v, hv, h⟩ := Res.bind_eq_ok.mp h
      rw [hv]; exact fin _ h
    · cases h
  rw [if_neg c]; clear c
  replace h := ite_inv h
  rcases h with ⟨c, h⟩ | ⟨c, h⟩
  · rw [if_pos c]; exact fin _ h
  rw [if_neg c]; clear c
  replace h := ite_inv h
  rcases h with ⟨c, h⟩ | ⟨c, h⟩
  · rw [if_pos c]; exact fin _ h
  rw [if_neg c]; clear c
  replace h := ite_inv h
  rcases h with ⟨c, h⟩ | ⟨c, h⟩
  · rw [if_pos c]; exact fin _ h
  rw [if_neg c]; clear c
  rw [if_neg hf] at h ⊢
  replace h := ite_inv h
  rcases h with ⟨c, h⟩ | ⟨c, h⟩
  · rw [if_pos c]
    replace h := ite_inv h
    rcases h with ⟨d, h⟩ | ⟨d, h⟩
    · rw [if_pos d]; exact fin _ h
    rw [if_neg d]
    split at h
    · obtain ⟨u, hu, h⟩ := Res.bind_eq_ok.mp h
      rw [hu]; dsimp only [Res.ok_bind]
      replace h := ite_inv h
      rcases h with ⟨d, h⟩ | ⟨d, h⟩
      · rw [if_pos d]; exact fin _ h
      rw [if_neg d]
      replace h := ite_inv h
      rcases h with ⟨d, h⟩ | ⟨d, h⟩
      · rw [if_pos d]; exact fin _ h
      rw [if_neg d]
      replace h := ite_inv h
      rcases h with ⟨d, h⟩ | ⟨d, h⟩
      · rw [if_pos d, show q.sc.pdClientUid = p.sc.pdClientUid by rw [hsc]]; exact fin _ h
      rw [if_neg d]; exact fin _ h
    · cases h
  rw [if_neg c]; clear c
  replace h := ite_inv h
  rcases h with ⟨c, h⟩ | ⟨c, h⟩
  · rw [if_pos c]
    obtain ⟨u, hua, h⟩ := Res.bind_eq_ok.mp h
    rw [hua]; dsimp only [Res.ok_bind]
    replace h := ite_inv h
    rcases h with ⟨d, h⟩ | ⟨d, h⟩
    · rw [if_pos d]; exact fin _ h
    rw [if_neg d]
    replace h := ite_inv h
    rcases h with ⟨d, h⟩ | ⟨d, h⟩
    · cases h
    rw [if_neg d, hu, show q.sc.cpRandom = p.sc.cpRandom by rw [hsc]]
    injection h with h; subst h
    exact ⟨_, rfl, rfl, rfl, rfl, rfl, rfl⟩
  rw [if_neg c]; clear c
  replace h := ite_inv h
  rcases h with ⟨c, h⟩ | ⟨c, h⟩
  · rw [if_pos c]
    obtain ⟨u, hua, h⟩ := Res.bind_eq_ok.mp h
    rw [hua]; dsimp only [Res.ok_bind]
    replace h := ite_inv h
    rcases h with ⟨d, h⟩ | ⟨d, h⟩
    · rw [if_pos d]; exact fin _ h
    rw [if_neg d]
    replace h := ite_inv h
    rcases h with ⟨d, h⟩ | ⟨d, h⟩
    · cases h
    rw [if_neg d, hu]
    injection h with h; subst h
    refine ⟨_, rfl, rfl, rfl, ?_, rfl, ?_⟩
    · dsimp only
      rw [hsc]; rfl
    · rw [← hid, ← he]; rfl
  rw [if_neg c]; clear c
  replace h := ite_inv h
  rcases h with ⟨c, h⟩ | ⟨c, h⟩
  · rw [if_pos c]; exact fin _ h
  · cases h

theorem finalizeMac_congr {C : Cipher} {p q p1 : Pd} {t : Tx} {data : List Byte} {m : Nat} {r : Option (List Byte)}
    (hp : p.flags.pdMode = false) (hq : q.flags.pdMode = false)
    (hsc : q.sc = { p.sc with cMac := q.sc.cMac, cpCryptogram := q.sc.cpCryptogram })
    (h : Phy.finalizeMac C p t data m = .ok (p1, r)) :
    ∃ q1, Phy.finalizeMac C q t data m = .ok (q1, r) ∧ ∃ sc, q1 = { q with sc := sc } := by
  have h1 : p.isCp = true := by simp [Pd.isCp, hp]
  have h2 : q.isCp = true := by simp [Pd.isCp, hq]
  unfold Phy.finalizeMac at h ⊢
  rw [h1] at h; rw [h2]
  dsimp only at h ⊢
  replace h := ite_inv h
  rcases h with ⟨d, h⟩ | ⟨d, h⟩
  · rw [if_pos d]
    injection h with h; injection h with _ h; subst h
    exact ⟨_, rfl, _, rfl⟩
  rw [if_neg d]
  obtain ⟨sc, hs, h⟩ := Res.bind_eq_ok.mp h
  injection h with h; injection h with _ h; subst h
  unfold Sc.computeMac at hs ⊢
  rw [hsc]
  split at hs
  · cases hs
  rename_i hl
  rw [if_neg hl]
  dsimp only at hs ⊢
  split at hs
  · cases hs
  rename_i mm hm
  rw [if_pos rfl] at hm
  rw [if_pos rfl, hm]
  injection hs with hs; subst hs
  exact ⟨_, rfl, _, rfl⟩

theorem finalize_congr {C : Cipher} {p q p1 : Pd} {t : Tx} {data : List Byte} {m : Nat} {r : Option (List Byte)}
    (hp : p.flags.pdMode = false) (hq : q.flags.pdMode = false) (hact : q.flags.scActive = p.flags.scActive)
    (hsc : q.sc = { p.sc with cMac := q.sc.cMac, cpCryptogram := q.sc.cpCryptogram })
    (h : Phy.finalize C p t data m = .ok (p1, r)) :
    ∃ q1, Phy.finalize C q t data m = .ok (q1, r) ∧ ∃ sc, q1 = { q with sc := sc } := by
  unfold Phy.finalize at h ⊢
  dsimp only at h ⊢
  replace h := ite_inv h
  rcases h with ⟨d, h⟩ | ⟨d, h⟩
  · rw [if_pos d]
    injection h with h; injection h with _ h; subst h
    exact ⟨_, rfl, _, rfl⟩
  rw [if_neg d]
  replace h := ite_inv h
  rcases h with ⟨d, h⟩ | ⟨d, h⟩
  · rw [if_pos d]
    injection h with h; injection h with _ h; subst h
    exact ⟨_, rfl, _, rfl⟩
  rw [if_neg d]
  have hsec : t.secured q = t.secured p := by
    unfold Phy.Tx.secured
    rw [show q.scActive = p.scActive from hact]
  rw [hsec]
  replace h := ite_inv h
  rcases h with ⟨d, h⟩ | ⟨d, h⟩
  · rw [if_pos d]
    unfold Phy.finalizeSecured at h ⊢
    have h1 : p.isCp = true := by simp [Pd.isCp, hp]
    have h2 : q.isCp = true := by simp [Pd.isCp, hq]
    rw [h1] at h; rw [h2]
    replace h := ite_inv h
    rcases h with ⟨d, h⟩ | ⟨d, h⟩
    · rw [if_pos d]
      dsimp only at h ⊢
      replace h := ite_inv h
      rcases h with ⟨d, h⟩ | ⟨d, h⟩
      · rw [if_pos d]
        injection h with h; injection h with _ h; subst h
        exact ⟨_, rfl, _, rfl⟩
      rw [if_neg d]
      replace h := ite_inv h
      rcases h with ⟨d, h⟩ | ⟨d, h⟩
      · cases h
      rw [if_neg d]
      have : ∀ l, Sc.encryptData C true q.sc l = Sc.encryptData C true p.sc l := by
        intro l; rw [hsc]; rfl
      rw [this]
      exact finalizeMac_congr hp hq hsc h
    · rw [if_neg d]
      exact finalizeMac_congr hp hq hsc h
  · rw [if_neg d]
    injection h with h; injection h with _ h; subst h
    exact ⟨_, rfl, _, rfl⟩

/-- A command that was sent once, other than a piece of a file, is sent the same way from a state that differs only in
matters that do not concern it. -/
theorem resend {C : Cipher} {p q p1 : Pd} {env env' : Env} {outs : List Out} (hs : SameCmd p q) (hp : p.flags.pdMode = false)
    (hf : p.cmdId ≠ Id.FILETRANSFER) (hcap : 256 ≤ env'.sendCap) (h : buildAndSend C p env = .ok (p1, outs, true)) :
    ∃ q1 outs', buildAndSend C q env' = .ok (q1, outs', true) ∧ Spec.Wire.sent outs' = Spec.Wire.sent outs := by
  have hq : q.flags.pdMode = false := hs.cp.trans hp
  unfold buildAndSend at h ⊢
  dsimp only at h ⊢
  rw [packetInit_cp hp] at h
  rw [packetInit_cp hq, hs.size, hs.cmdTx]
  by_cases hm : p.txBufSize < 69
  · rw [if_pos hm] at h
    injection h with h; injection h with _ h; injection h with _ h; cases h
  rw [if_neg hm] at h ⊢
  dsimp only at h ⊢
  obtain ⟨b', hb', h⟩ := Res.bind_eq_ok.mp h
  unfold buildCommand at hb' ⊢
  dsimp only at hb' ⊢
  replace hb' := ite_inv hb'
  rcases hb' with ⟨d, hb'⟩ | ⟨d, hb'⟩
  · injection hb' with hb'; subst hb'
    injection h with h; injection h with _ h; injection h with _ h; cases h
  rw [if_neg d]
  obtain ⟨b, hb, hb'⟩ := Res.bind_eq_ok.mp hb'
  obtain ⟨c, hc, e⟩ := commandBody_congr (p := nextCmd p) (q := nextCmd q) (env' := env') hs.cmdId hs.eph hs.scActive hs.useScbkd hs.sc hf hb
  rw [hc]
  dsimp only [Res.ok_bind]
  rw [e.body]
  have hqf := (commandBody_outcome hb).quiet hf
  have hbp : b.p.flags = (nextCmd p).flags ∧ c.p.flags = (nextCmd q).flags := by rw [e.old, e.new]; exact ⟨rfl, rfl⟩
  cases hbd : b.body with
  | none =>
    rw [hbd] at hb'
    injection hb' with hb'; subst hb'
    rw [hbd] at h
    injection h with h; injection h with _ h; injection h with _ h; cases h
  | some l =>
    rw [hbd] at hb'
    have e1 : b' = ⟨b.p, finalTx b.t b.p l.length, b.outs, some l⟩ := by
      injection hb' with hb'
      rw [← hb', ← hbd]
      rfl
    subst e1
    have e2 : finalTx c.t c.p l.length = finalTx b.t b.p l.length := by
      unfold finalTx Pd.scActive
      rw [e.t, hbp.1, hbp.2, show (nextCmd q).flags.scActive = (nextCmd p).flags.scActive from hs.scActive]
    replace h : (Phy.sendPacket C b.p env (finalTx b.t b.p l.length) l p.txBufSize >>= fun x =>
      Except.ok (x.1, b.outs ++ x.2.1, x.2.2)) = Except.ok (p1, outs, true) := h
    show ∃ q1 outs', (Phy.sendPacket C c.p env' (finalTx c.t c.p l.length) l p.txBufSize >>= fun x =>
      Except.ok (x.1, c.outs ++ x.2.1, x.2.2)) = Except.ok (q1, outs', true) ∧ _
    rw [e2, e.outs, hqf.1]
    rw [hqf.1] at h
    obtain ⟨⟨p2, o2, ok2⟩, h2, h⟩ := Res.bind_eq_ok.mp h
    injection h with h; injection h with h3 h4; injection h4 with h4 h5; subst h3 h4 h5
    unfold Phy.sendPacket at h2 ⊢
    obtain ⟨⟨p3, r⟩, h3, h2⟩ := Res.bind_eq_ok.mp h2
    have hscc : c.p.sc = { b.p.sc with cMac := c.p.sc.cMac, cpCryptogram := c.p.sc.cpCryptogram } := by
      rw [e.old, e.new]
      dsimp only
      rw [show (nextCmd q).sc = _ from hs.sc]
      rfl
    obtain ⟨q3, hq3, sc3, hsc3⟩ := finalize_congr (p := b.p) (q := c.p) (by rw [hbp.1]; exact hp) (by rw [hbp.2]; exact hq)
      (by rw [hbp.1, hbp.2]; exact hs.scActive) hscc h3
    rw [hq3]
    cases r with
    | none => injection h2 with h2; injection h2 with _ h2; injection h2 with _ h2; cases h2
    | some bs =>
      obtain ⟨buf, hw, h2⟩ := Res.bind_eq_ok.mp h2
      injection h2 with h2; injection h2 with h4 h2; injection h2 with h5 h6; subst h4 h5
      dsimp only [Res.ok_bind]
      have hp3 := (Phy.finalize_inv (by rintro rfl; rcases (commandBody_outcome hb).head hbd with h | ⟨-, h⟩ <;> simp at h) h3)
      have hlen : bs.length ≤ 256 := by
        obtain ⟨-, w, -, -, hl⟩ := hp3.2 bs rfl
        have : p.txBufSize ≤ 256 := by unfold Pd.txBufSize; split <;> omega
        omega
      have hbuf : q3.packetBuf.length = p3.packetBuf.length := by
        rw [hsc3, Phy.finalize_buf h3, e.old, e.new]
        exact hs.buf
      unfold Phy.writeAt at hw ⊢
      rw [hbuf]
      split at hw
      · rename_i hfit
        rw [if_pos hfit]
        have h6' : bs.length ≤ env.sendCap := of_decide_eq_true h6
        refine ⟨{ q3 with packetBuf := List.take 0 q3.packetBuf ++ bs ++ List.drop (0 + bs.length) q3.packetBuf },
          [] ++ (Phy.channelSend q3 env' bs).1, ?_, ?_⟩
        · unfold Phy.channelSend
          dsimp only [Res.ok_bind]
          rw [decide_eq_true (show bs.length ≤ env'.sendCap by omega)]
        · unfold Phy.channelSend
          dsimp only
          rw [List.take_of_length_le (by omega), List.take_of_length_le (by omega)]
          cases q3.hasFlush <;> cases p3.hasFlush <;> rfl
      · cases hw

end Osdp.CpM
