import Verif.Spec.FileLog
import Verif.Props.C24
import Verif.Props.C64
import Verif.Props.C100

/-!
# C101: a file whose transfer began in a secure session does not leave in the clear

The full statement: when the application hands over a file while a secure channel is active, every fragment of it leaves within an active secure channel.
Neither a PD that asks for plain text (bit 1 of the control byte of its status, src/osdp_file.c:153) nor the loss of the session changes that.

As long as the session lasts, every packet is sealed, whatever the PD has asked for (`C101_session`; src/osdp_file.c:77-79 only logs the wish).  With
OSDP_FLAG_ENFORCE_SECURE this is so for the whole life of the CP (`C101_partial`).  Without that flag it is not: the loss of the session does not end the
transfer (`C101_kept`; nothing in src/osdp_cp.c touches it when the PD goes offline), and it goes on with whoever answers next, with or without a secure
channel.  A party without any key takes three packets to get the rest of the file (`C101_leak`).
-/

namespace Osdp.CpM

open Spec.Sealed (Sealed OnWire)
open Spec.FileLog (xfer)

/-- While the session is active, all that is sent is sealed under its keys: what the CP composed, a fragment or anything else, is enciphered. Nothing is
assumed about the file transfer, in particular about what the PD has asked for. -/
theorem C101_session (C : Cipher) (info : PdM.Info) (p q : Pd) (cb : Bool) (env : Env) (outs : List Out) (bs : List Byte) (hr : Reached C info p)
    (hact : p.scActive = true) (h : step C p (.update cb env) = .ok (q, outs)) (hs : bs ∈ Spec.Wire.sent outs) :
    ∃ f msg id data, OnWire bs f env.sendCap ∧ Link.commandBuilt C p env = some (id :: data) ∧
      Sealed C p.sc.sEnc p.sc.sMac1 p.sc.sMac2 p.sc.rMac 0x15#8 0x17#8 f msg id data := by
  obtain ⟨f, msg, id, data, h1, h2, h3, -⟩ := C64_cp hr hact h hs
  exact ⟨f, msg, id, data, h1, h2, h3⟩

/-- **C101, partial: with OSDP_FLAG_ENFORCE_SECURE.**  The flag is set up and never cleared.  In the whole life of the CP every packet it sends is sealed
under the keys of the session that is active then, or is one of the commands that set up the connection, none of which is a fragment of a file.  Missing:
a CP without the flag, see `C101_leak`. -/
theorem C101_partial (C : Cipher) (info : PdM.Info) (i n : Nat) (sk : Bool) (p0 p q : Pd) (ops : List Op) (o outs : List Out) (cb : Bool) (env : Env)
    (bs : List Byte) (h0 : newPd info i sk n = some p0) (he : p0.flags.enforceSecure = true) (h : run C p0 ops = .ok (p, o))
    (hf : ∀ f, .flag f false ∈ ops → f &&& F_ENFORCE = 0) (hx : step C p (.update cb env) = .ok (q, outs)) (hs : bs ∈ Spec.Wire.sent outs) :
    (p.flags.scActive = true ∧ ∃ f msg id data, OnWire bs f env.sendCap ∧ Link.commandBuilt C p env = some (id :: data) ∧
      Sealed C p.sc.sEnc p.sc.sMac1 p.sc.sMac2 p.sc.rMac 0x15#8 0x17#8 f msg id data) ∨
    ∃ k : Spec.Wire.Packet, bs = k.bytes.take env.sendCap ∧ k.id ≠ some 0x7C#8 ∧
      k.id ∈ [some 0x61#8, some 0x62#8, some 0x76#8, some 0x77#8, some 0x75#8] := by
  have hr : Reached C info p := ⟨i, sk, n, p0, ops, o, h0, h⟩
  rcases ((C24_partial C info i n sk p0 p ops o h0 h (by rw [he]; exact vigil_kept (newPd_inv h0).1 he hf h)).2 cb env q outs hx).1 bs hs with
    ⟨-, ha⟩ | ⟨id, hid, k, hk, hb⟩
  · exact .inl ⟨ha, C101_session C info p q cb env outs bs hr ha hx hs⟩
  · refine .inr ⟨k, hb, ?_⟩
    rw [hk]
    clear hk
    revert id
    decide

/-- The end of the session is not the end of the transfer: whatever a CP that waits for a reply hears (unless it is a file transfer status), or if it hears
nothing at all, the transfer is afterwards as it was, even where the visit takes the PD offline and drops the session. -/
theorem C101_kept (C : Cipher) (info : PdM.Info) (p q : Pd) (cb : Bool) (env : Env) (outs : List Out) (hr : Reached C info p)
    (hw : p.phyState = .replyWait) (hn : ∀ id body, replyOf C p env = some (id, body) → id ≠ 0x7A#8)
    (h : step C p (.update cb env) = .ok (q, outs)) : q.file = p.file := by
  obtain ⟨⟨s1, o1, y1⟩, hup, h1⟩ := Res.bind_eq_ok.mp h
  injection h1 with h1; injection h1 with e1 e2; subst e1 e2
  cases (stateUpdate_inv hr.inv.cp hup).file hr.inv with
  | same h _ _ => exact h
  | built room o r hm _ _ _ _ _ =>
    rcases hm with h | ⟨h, -⟩ <;> (rw [hw] at h; cases h)
  | heard id body r hr hid _ _ _ => exact absurd (BitVec.eq_of_toNat_eq (y := 0x7A#8) hid) (hn id body hr)
  | chosen o n h1 _ _ _ _ _ _ => rw [hw] at h1; cases h1

/-! ### samples -/

open Sample

/-- a secure session; the application sends a file of ten bytes in fragments of four; the first one has arrived, the second one is on its way -/
def filing101 : Talk :=
  ((talk.turns xorCipher 20 20).filing xorCipher (content 10) 4).fturns xorCipher 20 (content 10) 4 (List.replicate 7 false)

/-- somebody who knows no key: a NAK now; later an identity and a PD without any capability for a secure channel.  Then the CP's next visits. -/
def robber101 : List Op :=
  [filing89 (reply 1 [b8 Id.NAK, 3]) 540, filing89 [] 1000000] ++ meetsAt 1000000 [9, 0, 0] 0 1 ++ [filing89 [] 1000000, filing89 [] 1000000]

/-- the hypotheses of the theorems above are met: the session is active and a fragment is sent, sealed -/
example : filing101.bad = false ∧ filing101.cp.flags.scActive = true ∧ filing101.cp.phyState = .replyWait ∧ filing101.cp.cmdId = 0x7C ∧
    (filing101.cp.file.map fun (f : FileSt) => (f.state, f.offset)) = some (.inprog, 4) ∧
    (Spec.Wire.sent filing101.cpOuts).getLast?.map (fun l => (l.drop 5).take 4) = some [0x0D, 2, 0x17, 0x7C] := by
  refine ⟨?_, ?_, ?_, ?_, ?_, ?_⟩ <;> decide +kernel

/-- The same with OSDP_FLAG_ENFORCE_SECURE (the hypotheses of `C101_partial`): the flag is set from the start and not cleared, the fragment is sent sealed,
and afterwards only the two commands of the connection set up are. -/
example :
    (let t := ((({ cp := strictCp, pd := pd } : Talk).turns xorCipher 20 20).filing xorCipher (content 10) 4).fturns xorCipher 20 (content 10) 4
      (List.replicate 7 false)
     strictCp.flags.enforceSecure = true ∧ t.bad = false ∧ t.cp.flags.scActive = true ∧
      (Spec.Wire.sent t.cpOuts).getLast?.map (fun l => (l.drop 5).take 4) = some [0x0D, 2, 0x17, 0x7C] ∧
      (match run xorCipher t.cp robber101 with
        | .ok (q, o) => some (q.state, (Spec.Wire.sent o).map fun l => l[6]?)
        | .error _ => none) = some (.offline, [some 0x61#8, some 0x62#8])) := by decide +kernel

/-- **C101 violated.**  The file was handed over in a secure session (`filing101`, reached from set up) and its second fragment sent sealed.  After three
packets without any protection (`robber101`) the CP sends that very fragment in the clear: no security block, and the bytes of the file as they are. -/
theorem C101_leak : ∃ p o q o', run xorCipher cp filing101.cpOps = .ok (p, o) ∧ p.flags.scActive = true ∧
    p.file.map (fun (f : FileSt) => (f.state, f.offset)) = some (.inprog, 4) ∧
    run xorCipher p robber101 = .ok (q, o') ∧ q.flags.scActive = false ∧
    (Spec.Wire.sent o').getLast? = some (cmd 2 (0x7C#8 :: xfer 1 10 4 (((content 10).drop 4).take 4))) := by
  obtain ⟨p, o, h, hd⟩ := ran (C := xorCipher) (p := cp) (ops := filing101.cpOps)
    (fun p _ => decide (p.flags.scActive = true ∧ p.file.map (fun (f : FileSt) => (f.state, f.offset)) = some (.inprog, 4)) &&
      (match run xorCipher p robber101 with
        | .ok (q, o') => decide (q.flags.scActive = false ∧
            (Spec.Wire.sent o').getLast? = some (cmd 2 (0x7C#8 :: xfer 1 10 4 (((content 10).drop 4).take 4))))
        | .error _ => false)) (by decide +kernel)
  simp only [Bool.and_eq_true] at hd
  obtain ⟨h1, h2⟩ := hd
  have h1 := of_decide_eq_true h1
  obtain ⟨q, o', h3, h4⟩ := ran (C := xorCipher) (p := p) (ops := robber101) (fun q o' => decide (q.flags.scActive = false ∧
    (Spec.Wire.sent o').getLast? = some (cmd 2 (0x7C#8 :: xfer 1 10 4 (((content 10).drop 4).take 4))))) h2
  have h4 := of_decide_eq_true h4
  exact ⟨p, o, q, o', h, h1.1, h1.2, h3, h4.1, h4.2⟩

end Osdp.CpM
