import Verif.Props.C19

/-!
# C74: a command received twice is carried out once
-/

namespace Osdp

open Spec.Session

theorem Cipher.enc_inj (C : Cipher) {k a b : Block} (h : C.enc k a = C.enc k b) : a = b := by
  rw [← C.dec_enc k a, h, C.dec_enc]

theorem Bytes.xor_comm' {n : Nat} (a b : Bytes n) : Bytes.xor a b = Bytes.xor b a := by
  apply Subtype.ext
  simp only [Bytes.xor]
  rw [List.zipWith_comm_of_comm]
  intro x y
  exact BitVec.xor_comm x y

theorem Bytes.xor_left_inj {n : Nat} {c a b : Bytes n} (h : Bytes.xor c a = Bytes.xor c b) : a = b := by
  rw [Bytes.xor_comm' c a, Bytes.xor_comm' c b] at h
  rw [← Bytes.xor_xor a c, h, Bytes.xor_xor]

/-- the MAC of a text depends on the chaining value -/
theorem chain_inj (C : Cipher) (k1 k2 : Block) :
    ∀ (bs : List Block) {a b : Block}, chain C k1 k2 a bs = chain C k1 k2 b bs → a = b
  | [], _, _, h => h
  | [_], _, _, h => Bytes.xor_left_inj (C.enc_inj h)
  | _ :: y :: l, _, _, h => Bytes.xor_left_inj (C.enc_inj (chain_inj C k1 k2 (y :: l) h))

theorem mac_inj (C : Cipher) {k1 k2 a b : Block} {msg : List Byte} (h : mac C k1 k2 a msg = mac C k1 k2 b msg) : a = b :=
  chain_inj C k1 k2 _ h

end Osdp

namespace Osdp.PdM

open Spec.Wire Spec.Session
open Phy (Idle Arrives WfFrame marked decodeFrame reload Held setNak setSc chained macOf)

/-- A PD with an active secure channel acts on a packet of the session that arrives only if its MAC continues the chain. -/
theorem acted_tag {C : Cipher} {info : Info} {p q : Pd} {env : Env} {outs : List Out} {m : Bool} {f msg tag : List Byte}
    {a ctl ty id : Byte} {pl : List Byte} (hq : Reached C info p) (hi : Idle p) (hact : p.scActive = true)
    (hto : env.now - p.scTstamp ≤ 8000) (hw : WfFrame m f) (hf : SecuredFrame f msg tag ctl ty id pl) (ha1 : f[1]? = some a)
    (hcmd : a.toNat < 128) (hnz : ctl.toNat % 4 ≠ 0) (hty : 0x15 ≤ ty.toNat ∧ ty.toNat ≤ 0x18) (harr : Arrives env (marked m f))
    (h : refresh C p env = .ok (q, outs)) (ha : Acted p q outs) :
    tag = (mac C p.sc.sMac1 p.sc.sMac2 p.sc.rMac msg).1.take 4 := by
  have hp := hq.pdMode
  obtain ⟨-, -, fc, fd, fe, -⟩ := hq.flags
  have hctl : f[4]? = some ctl := by
    obtain ⟨_, _, _, _, _, _, hmsg, hfm, -⟩ := hf.shape
    rw [hfm, hmsg]; rfl
  have h8 : 8 ≤ f.length := by
    obtain ⟨_, _, _, _, _, _, hmsg, hfm, -⟩ := hf.shape
    rw [hfm, hmsg]; simp; omega
  have hexp : expire p env.now = p := by
    unfold expire
    rw [if_neg]
    rintro ⟨-, h⟩
    have : (8000 : Int) < env.now - p.scTstamp := h
    omega
  obtain ⟨p1, p2, d, h1, -, h2, hd⟩ := refresh_acted hp h ha
  rw [hexp] at h1
  have htw : Phy.Towards p f := by
    intro b h1
    rw [ha1] at h1; injection h1 with h1; subst h1
    have hcp : p.isCp = false := by unfold Pd.isCp; rw [hp]; rfl
    unfold Phy.dirOk
    rw [hcp]
    have : ∀ a : Byte, a.toNat < 128 → Phy.hasBit a 0x80#8 = false := by decide +kernel
    rw [this a hcmd]; rfl
  obtain ⟨t, ht⟩ := Phy.checkPacket_frame p m f env hi hw htw harr
  rw [ht] at h1
  obtain ⟨P, r, hb⟩ := Phy.bodyFrame_ok p f (by omega)
  rw [hb] at h1
  injection h1 with h1; injection h1 with e1 e2
  dsimp only at e1 e2
  subst e2
  obtain ⟨a', ctl', -, hc', hv⟩ := bodyFrame_pd hp hb (.inl rfl)
  rw [hctl] at hc'; injection hc' with hc'; subst hc'
  have hP : P = (Phy.seqVerdict (Phy.pdSeqAdvance (Phy.pdSeqPrep p (ctl.toNat % 4) ((a' &&& 0x7F#8).toNat == 0x7F))) (ctl.toNat % 4)).1 :=
    congrArg Prod.fst hv
  have hkeep : P.flags.scActive = p.flags.scActive ∧ P.flags.pdMode = p.flags.pdMode ∧ P.flags.scCapable = p.flags.scCapable ∧
      P.flags.scDisabled = p.flags.scDisabled ∧ P.sc = p.sc := by
    rw [hP]
    unfold Phy.seqVerdict Phy.pdSeqAdvance Phy.pdSeqPrep
    dsimp only
    rw [if_neg hnz]
    repeat' split
    all_goals exact ⟨rfl, rfl, rfl, rfl, rfl⟩
  obtain ⟨k1, k2, k3, k4, k5⟩ := hkeep
  have hPact : P.scActive = true := k1.trans hact
  have hPpd : P.isPd = true := k2.trans hp
  have hPcap : P.scCapable = true := by
    show (P.flags.scCapable && !P.flags.scDisabled) = true
    rw [k3, k4, fc, fd]; rfl
  have hr := Phy.decode_frame C (reload P { Phy.heldLoaded p m f [] with ts := t }) f
    (p.packetBuf.drop (((if m then [Phy.MARK] else []) ++ f).length)) (by
      show List.drop (if m then 1 else 0) _ = _
      unfold Phy.heldLoaded reload
      cases m <;> simp)
    (by
      show ((if m then [Phy.MARK] else []) ++ f).length = (if m then 1 else 0) + f.length
      cases m <;> simp <;> omega) (by omega) (fun _ _ _ => h8)
  rw [Phy.decodeFrame_reload, e1, h2,
    Phy.decodeFrame_secured C P hf ⟨by rw [BitVec.le_def]; exact hty.1, by rw [BitVec.le_def]; exact hty.2⟩ hPact (fun _ => hPcap)] at hr
  have emac : macOf C P.isPd P.sc msg = mac C p.sc.sMac1 p.sc.sMac2 p.sc.rMac msg := by
    unfold macOf; rw [if_pos hPpd, k5]
  rw [emac] at hr
  apply Classical.byContradiction
  intro hn
  rw [if_neg hn] at hr
  have h0 : d.len = Phy.PKT_NACK := hr.1
  have : Phy.PKT_NACK < 0 := by decide
  omega

/-- **C74 (partial: for packets of a session, as long as the chain of MACs moves on).**  A PD has acted, at some time, on a
packet of the session (security block type 0x15 to 0x18).  At any other time, with the same session keys, the same packet
arrives again.  If the PD acts on it again, then the chaining value is the same as it was the first time, or the two
(different) MACs of the packet happen to agree in the four bytes that are transmitted. -/
theorem C74_replay_partial (C : Cipher) (info info' : Info) (p p' q q' : Pd) (env env' : Env) (outs outs' : List Out) (m : Bool)
    (f msg tag : List Byte) (a ctl ty id : Byte) (pl : List Byte)
    (hw : WfFrame m f) (hf : SecuredFrame f msg tag ctl ty id pl) (ha1 : f[1]? = some a)
    (hcmd : a.toNat < 128) (hnz : ctl.toNat % 4 ≠ 0) (hty : 0x15 ≤ ty.toNat ∧ ty.toNat ≤ 0x18)
    -- the first time
    (hq : Reached C info p) (hi : Idle p) (hact : p.scActive = true) (hto : env.now - p.scTstamp ≤ 8000)
    (harr : Arrives env (marked m f)) (h : refresh C p env = .ok (q, outs)) (ha : Acted p q outs)
    -- the second time
    (hq' : Reached C info' p') (hi' : Idle p') (hact' : p'.scActive = true) (hto' : env'.now - p'.scTstamp ≤ 8000)
    (harr' : Arrives env' (marked m f)) (h' : refresh C p' env' = .ok (q', outs')) (ha' : Acted p' q' outs')
    -- the same session
    (hk1 : p'.sc.sMac1 = p.sc.sMac1) (hk2 : p'.sc.sMac2 = p.sc.sMac2) :
    p'.sc.rMac = p.sc.rMac ∨
      (mac C p.sc.sMac1 p.sc.sMac2 p'.sc.rMac msg ≠ mac C p.sc.sMac1 p.sc.sMac2 p.sc.rMac msg ∧
       (mac C p.sc.sMac1 p.sc.sMac2 p'.sc.rMac msg).1.take 4 = (mac C p.sc.sMac1 p.sc.sMac2 p.sc.rMac msg).1.take 4) := by
  have t1 := acted_tag hq hi hact hto hw hf ha1 hcmd hnz hty harr h ha
  have t2 := acted_tag hq' hi' hact' hto' hw hf ha1 hcmd hnz hty harr' h' ha'
  rw [hk1, hk2] at t2
  by_cases e : p'.sc.rMac = p.sc.rMac
  · exact .inl e
  · exact .inr ⟨fun h => e (mac_inj C h), by rw [← t1, ← t2]⟩

/-- what a PD that receives these packets, one per refresh, hands to the application; whether a session is on at the end -/
def handed (l : List (List Byte)) : Option (List Cmd × Bool) :=
  (Sample.feed Aes.aes Sample.pd l).toOption.map fun r => (Sample.asked r.2, r.1.scActive)

/-- a session is set up with the sample PD -/
def opening : List (List Byte) := [Sample.chlng 0#8, Sample.scrypt 1#8 (Sample.session Aes.aes Sample.key)]

/-- BUZ, the first command of the session -/
def beep : List Byte := (Sample.secCmd Aes.aes (Sample.session Aes.aes Sample.key) 2#8 0x6A#8 [0, 2, 3, 4, 5]).1

/-- In a session a command that arrives twice is carried out once: the second time the PD ends the session. -/
example : handed (opening ++ [beep]) = some ([.buzzer ⟨0, 2, 3, 4, 5⟩], true) ∧
    handed (opening ++ [beep, beep]) = some ([.buzzer ⟨0, 2, 3, 4, 5⟩], false) := by decide +kernel

/-- **C74 is violated in the clear.**  BUZ arrives twice, bit for bit, with its one sequence number: the application is told
to beep twice. -/
theorem C74_clear :
    handed [Sample.cmd 0#8 [0x60#8], Sample.cmd 1#8 [0x6A#8, 0, 2, 3, 4, 5], Sample.cmd 1#8 [0x6A#8, 0, 2, 3, 4, 5]] =
      some ([.buzzer ⟨0, 2, 3, 4, 5⟩, .buzzer ⟨0, 2, 3, 4, 5⟩], false) := by decide +kernel

/-- ACURXSIZE (10 bytes) as first command of the session; the PD has no room for any reply from then on -/
def hushed : List Byte := (Sample.secCmd Aes.aes (Sample.session Aes.aes Sample.key) 2#8 (b8 Id.ACURXSIZE) [10, 0]).1

/-- BUZ as second command, when no reply has been sent to the first -/
def beep2 : List Byte := (Sample.secCmd Aes.aes (Sample.session Aes.aes Sample.key) 3#8 0x6A#8 [0, 2, 3, 4, 5]).1

/-- **C74 is violated in a session, too.**  The chain of MACs moves on with the replies only.  A PD told that the CP's
receive buffer has 10 bytes sends none; it carries out the same packet of the session again and again. -/
theorem C74_silent :
    handed (opening ++ [hushed, beep2, beep2, beep2]) =
      some ([.buzzer ⟨0, 2, 3, 4, 5⟩, .buzzer ⟨0, 2, 3, 4, 5⟩, .buzzer ⟨0, 2, 3, 4, 5⟩], true) := by decide +kernel

/-- Non-vacuity: what `C74_replay_partial` asks of the two states holds of that PD before it gets the packet for the first and for
the second time, and so does what it says: the chaining value is the same. -/
example : ((Sample.feed Aes.aes Sample.pd (opening ++ [hushed])).toOption.bind fun r =>
      (Sample.feed Aes.aes Sample.pd (opening ++ [hushed, beep2])).toOption.map fun r' =>
        decide (r.1.rx = [] ∧ r.1.packetBufLen = 0 ∧ r.1.packetLen = 0 ∧ r.1.packetBuf.length = 256 ∧ r.1.scActive = true ∧
          (Sample.env []).now - r.1.scTstamp ≤ 8000 ∧ r'.1.rx = [] ∧ r'.1.packetBufLen = 0 ∧ r'.1.packetLen = 0 ∧
          r'.1.packetBuf.length = 256 ∧ r'.1.scActive = true ∧ (Sample.env []).now - r'.1.scTstamp ≤ 8000 ∧
          r'.1.sc.sMac1 = r.1.sc.sMac1 ∧ r'.1.sc.sMac2 = r.1.sc.sMac2 ∧ r'.1.sc.rMac = r.1.sc.rMac)) = some true := by decide +kernel

end Osdp.PdM
