import Verif.Lemmas.Deliver
import Verif.Lemmas.Sample

/-!
# C04: plain packet round trip

Whatever command/reply body one side frames and sends outside a secure channel, the other side's
receiver accepts and extracts exactly the same body, with the same sequence number and address.
-/

namespace Osdp.Phy

open Spec.Wire

/-! ## Sending -/

theorem sendPacket_plain (C : Cipher) (p : Pd) (env : Env) (t : Tx) (data : List Byte) (m : Nat)
    (hsc : p.scActive = false) (hmis : t.misaligned = false) (hd : data ≠ [])
    (hfit : (pktOf t data).bytes.length ≤ m) (hbuf : (pktOf t data).bytes.length ≤ p.packetBuf.length) :
    ∃ q, sendPacket C p env t data m = .ok (q, sendOuts p env (pktOf t data).bytes,
      decide ((pktOf t data).bytes.length ≤ env.sendCap)) := by
  have hsec : t.secured p = false := by
    unfold Tx.secured
    split
    · rw [hsc]; rfl
    · rfl
  have hl := List.length_pos_iff.mpr hd
  have hb := bytes_length (pktOf t data)
  have e : (pktOf t data).len = 5 + t.scb.length + data.length + 2 := rfl
  rw [show (pktOf t data).mark = t.mark from rfl] at hb
  have hw : wrap t (header t (5 + t.scb.length + data.length + 2) ++ t.scb ++ data) (m - if t.mark then 1 else 0) =
      some (pktOf t data).bytes := by
    unfold wrap
    rw [header_core, core_length, if_neg ?_]
    · rw [← List.append_assoc, pktOf_bytes]
    · have e' : 5 + (pktOf t data).scb.length + (pktOf t data).data.length = 5 + t.scb.length + data.length := rfl
      omega
  have hf : finalize C p t data m = .ok (p, some (pktOf t data).bytes) := by
    unfold finalize
    dsimp only
    rw [if_neg (by simp [hmis]), if_neg (by omega), if_neg (by simp [hsec]), hw]
  unfold sendPacket
  rw [hf]
  dsimp only [Res.ok_bind]
  have hwr : ∃ buf, writeAt p.packetBuf 0 (pktOf t data).bytes = .ok buf := by
    unfold writeAt
    rw [if_pos (by omega)]
    exact ⟨_, rfl⟩
  obtain ⟨buf, hwr⟩ := hwr
  rw [hwr]
  exact ⟨_, rfl⟩

theorem ctl_bits : ∀ n < 4, ∀ x ∈ [0x04#8, 0x0C#8],
    ((b8 n ||| x) : Byte).toNat % 4 = n ∧ hasBit (b8 n ||| x) CTL_CRC = true := by decide

theorem seqBits_lt (s : Int) : seqBits s < 4 := by unfold seqBits; omega

/-- what `packet_init` makes of the header outside a secure channel -/
theorem packetInit_plain {s s' : Pd} {t : Tx} {m : Nat} (hsc : s.scActive = false)
    (h : packetInit s m = some (s', t)) :
    s'.scActive = false ∧ s'.packetBuf = s.packetBuf ∧ s'.hasFlush = s.hasFlush ∧
    t.ctl.toNat % 4 = seqBits s'.seq ∧ hasBit t.ctl CTL_CRC = true ∧
    t.addr = (if s.isPd then (if s.flags.broadcast then 0x7F#8 else i8 s.address &&& 0x7F#8) ||| 0x80#8
      else i8 s.address &&& 0x7F#8) ∧
    ((hasBit t.ctl CTL_SCB = false ∧ t.scb = []) ∨
      (hasBit t.ctl CTL_SCB = true ∧ t.scb = [3#8, 0x11#8, 0#8] ∧
        inHandshake s.isPd (if s.isPd then s.replyId else s.cmdId) = true)) := by
  unfold packetInit at h
  split at h
  · cases h
  dsimp only at h
  rw [hsc] at h
  injection h with h; injection h with h1 h2
  generalize hn : seqBits (nextSeq s.seq s.isCp) = n at h2
  have hlt : n < 4 := by rw [← hn]; exact seqBits_lt _
  have hb := ctl_bits n hlt
  have hscb : ∀ n < 4, hasBit (b8 n ||| CTL_CRC) CTL_SCB = false ∧ hasBit (b8 n ||| CTL_CRC ||| CTL_SCB) CTL_SCB = true ∧
      (b8 n ||| CTL_CRC ||| CTL_SCB) = b8 n ||| 0x0C#8 := by decide
  have hs' : s'.seq = nextSeq s.seq s.isCp := by rw [← h1]
  have hsc' : s'.scActive = false := by
    rw [← h1]
    show Flags.scActive (if s.isPd = true then _ else _) = false
    have : s.flags.scActive = false := hsc
    split <;> (first | (split <;> exact this) | exact this)
  have hbuf : s'.packetBuf = s.packetBuf := by rw [← h1]
  have hfl : s'.hasFlush = s.hasFlush := by rw [← h1]
  have haddr : t.addr = (if s.isPd then (if s.flags.broadcast then 0x7F#8 else i8 s.address &&& 0x7F#8) ||| 0x80#8
      else i8 s.address &&& 0x7F#8) := by
    rw [← h2]
    dsimp only
    have e : ∀ c : Bool, (if c = true then ({ s.flags with hasMark := true } : Flags) else s.flags).broadcast =
        s.flags.broadcast := by intro c; cases c <;> rfl
    rw [e]
  refine ⟨hsc', hbuf, hfl, ?_, ?_, haddr, ?_⟩
  · rw [hs', hn, ← h2]
    by_cases hh : inHandshake s.isPd (if s.isPd then s.replyId else s.cmdId) = true
    · simp only [hh, Bool.false_eq_true, if_true, if_false]
      rw [(hscb n hlt).2.2]; exact (hb _ (by simp)).1
    · simp only [hh, Bool.false_eq_true, if_false]
      exact (hb _ (by simp)).1
  · rw [← h2]
    by_cases hh : inHandshake s.isPd (if s.isPd then s.replyId else s.cmdId) = true
    · simp only [hh, Bool.false_eq_true, if_true, if_false]
      rw [(hscb n hlt).2.2]; exact (hb _ (by simp)).2
    · simp only [hh, Bool.false_eq_true, if_false]
      exact (hb _ (by simp)).2
  · rw [← h2]
    by_cases hh : inHandshake s.isPd (if s.isPd then s.replyId else s.cmdId) = true
    · simp only [hh, Bool.false_eq_true, if_true, if_false]
      exact .inr ⟨(hscb n hlt).2.1, trivial, trivial⟩
    · simp only [hh, Bool.false_eq_true, if_false]
      exact .inl ⟨(hscb n hlt).1, trivial⟩

/-! ## Receiving -/

theorem towards_packet {p : Pd} {k : Packet} (h : dirOk p k.addr = true) : Towards p k.frame := by
  intro a ha
  rw [frame_cons] at ha
  injection ha with ha
  rw [← ha]; exact h

/-- an idle receiver, a packet divided in any way -/
theorem receive_packet {p q0 : Pd} {k : Packet} {es : List Env} {r : PktRet} (hi : Idle p)
    (hl : k.bytes.length ≤ 256) (hdir : dirOk p k.addr = true) (hf : Fits es) (hle : line es = k.bytes)
    (hq : bodyFrame p k.frame = .ok (q0, r)) :
    ∃ m t, receive p es = .ok (reload q0 { heldLoaded p m k.frame [] with rx := [], ts := t }, r, []) := by
  obtain ⟨m1, h1⟩ := receive_frame p k.mark k.frame [] es (frame_wf k hl) (towards_packet hdir) hi.bufLen hi.len
    hi.buf hi.rx hf (by rw [hle, List.append_nil]; rfl)
  rw [packetOutcome_eq hq] at h1
  cases hr : receive p es with
  | error e => rw [hr] at h1; exact absurd h1 id
  | ok v =>
    rcases v with ⟨q, r', rest'⟩
    rw [hr] at h1
    obtain ⟨e1, e2, e3⟩ := h1
    refine ⟨m1, q.tstamp, ?_⟩
    have := congrArg (fun x => setTs x q.tstamp) e1
    have e4 : q = reload q0 { heldLoaded p m1 k.frame [] with rx := [], ts := q.tstamp } := this
    rw [e2, e3, ← e4]

/-- the sequence number and the kind of packet are acceptable to the receiver -/
structure Expected (r : Pd) (seq : Nat) (data : List Byte) : Prop where
  pd : r.isPd = true → -1 ≤ r.seq ∧ r.seq ≤ 3 ∧ Spec.Seq.Acceptable r.seq seq
  cp : r.isPd = false → seqBits r.seq = seq
  notBusy : r.isPd = false → ¬ (seq = 0 ∧ data = [b8 Id.BUSY])

theorem checkSeq_cp (p : Pd) (k : Packet) (bc : Bool) (hp : p.isPd = false) (he : Expected p k.seq k.data) (hne : k.data ≠ []) :
    checkSeq p k.frame (k.len - 2) k.seq bc = .ok (p, .none) := by
  unfold checkSeq
  rw [if_neg (by simp [hp])]
  have hb : isBusy k.frame (k.len - 2) k.seq = .ok false := by
    unfold isBusy
    split
    · rename_i h
      have hlen : k.scb.length + k.data.length = 1 := by have := h.2; unfold Packet.len at this; omega
      have hs : k.scb = [] := by
        apply List.eq_nil_of_length_eq_zero
        have := List.length_pos_iff.mpr hne; omega
      obtain ⟨x, hx⟩ : ∃ x, k.data = [x] := by
        have h1 : k.data.length = 1 := by rw [hs] at hlen; simpa using hlen
        match hd : k.data with
        | [] => exact absurd hd hne
        | [x] => exact ⟨x, rfl⟩
        | _ :: _ :: _ => rw [hd] at h1; simp at h1
      have h5 : rd k.frame 5 = .ok x := by rw [frame_cons, hs, hx]; rfl
      rw [h5]
      have hx' : x ≠ b8 Id.BUSY := fun hn => he.notBusy hp ⟨h.1, by rw [hx, hn]⟩
      simp [hx']
    · rfl
  rw [hb]
  simp only [Res.ok_bind, Bool.false_eq_true, if_false]
  unfold seqVerdict
  rw [if_neg (by rw [he.cp hp]; simp)]
  rfl

theorem addr_dir (a : Byte) : hasBit (a &&& 0x7F#8) 0x80#8 = false ∧
    hasBit ((a &&& 0x7F#8) ||| 0x80#8) 0x80#8 = true ∧ ((a &&& 0x7F#8) ||| 0x80#8) &&& 0x7F#8 = a &&& 0x7F#8 ∧
    (a &&& 0x7F#8) &&& 0x7F#8 = a &&& 0x7F#8 := by
  revert a; decide +kernel

theorem i8_addr (a : Int) (h : 0 ≤ a ∧ a ≤ 127) : (i8 a &&& 0x7F#8).toNat = a.toNat := by
  obtain ⟨n, rfl⟩ := Int.eq_ofNat_of_zero_le h.1
  rw [BitVec.toNat_and]
  show (BitVec.ofInt 8 n).toNat &&& (2 ^ 7 - 1) = n
  rw [Nat.and_two_pow_sub_one_eq_mod]
  simp
  omega

/-! ## The property -/

/-- **C04.** One side (`s`) frames any body that fits and sends it outside a secure channel; `t'` is the
header made by `packet_init`, except that the sender fills in the block type and key bit of a handshake
packet.  Exactly one packet goes out.  However it is divided between the receiver's refresh calls, an
idle receiver at the other end that expects the packet's sequence number accepts it and extracts exactly
the same body; the packet it holds carries the sender's sequence number and address (or the broadcast
address when a PD answers a broadcast). -/
theorem C04_plain_round_trip (C : Cipher) (s s' r : Pd) (t t' : Tx) (m : Nat) (data : List Byte) (env : Env)
    (hinit : packetInit s m = some (s', t)) (hs : s.scActive = false) (hr : r.scActive = false)
    (hop : r.isPd = !s.isPd) (haddr : r.address = s.address) (hrange : 0 ≤ s.address ∧ s.address ≤ 127)
    (hbuf : s.packetBuf.length = 256) (hi : Idle r)
    (ht : t' = t ∨ ∃ ty x, t.scb ≠ [] ∧ t' = { t with scb := [3#8, ty, x] } ∧ 0x11#8 ≤ ty ∧ ty ≤ 0x14#8)
    (hmis : t.misaligned = false) (hd : data ≠ []) (hm : m ≤ 256) (hfit : (pktOf t' data).bytes.length ≤ m)
    (hcap : r.isPd = true → r.scCapable = true) (hexp : Expected r (seqBits s'.seq) data)
    (hsend : 256 ≤ env.sendCap) :
    ∃ s'' outs bs, sendPacket C s' env t' data m = .ok (s'', outs, true) ∧ sent outs = [bs] ∧
      ∀ es, Fits es → line es = bs → ∃ q, receive r es = .ok (q, .none, []) ∧
        extracted C q = .ok ((data.length : Int), data) ∧
        (∃ c, (heldFrame q)[4]? = some c ∧ c.toNat % 4 = seqBits s'.seq) ∧
        (∃ a, (heldFrame q)[1]? = some a ∧
          ((a &&& 0x7F#8).toNat : Int) = if s.isPd ∧ s.flags.broadcast then 127 else s.address) := by
  obtain ⟨hsc', hb', -, hctl, hcrc, hta, hscb⟩ := packetInit_plain hs hinit
  have ht'0 : t'.mark = t.mark ∧ t'.addr = t.addr ∧ t'.ctl = t.ctl ∧ t'.misaligned = t.misaligned := by
    rcases ht with rfl | ⟨ty, x, -, rfl, -⟩
    · exact ⟨rfl, rfl, rfl, rfl⟩
    · exact ⟨rfl, rfl, rfl, rfl⟩
  obtain ⟨-, hta', htc', htm'⟩ := ht'0
  obtain ⟨s'', hsp⟩ := sendPacket_plain C s' env t' data m hsc' (htm'.trans hmis) hd hfit (by rw [hb', hbuf]; omega)
  generalize hk : pktOf t' data = k at *
  have hka : k.addr = t.addr := by rw [← hk]; exact hta'
  have hkc : k.ctl = t.ctl := by rw [← hk]; exact htc'
  have hkd : k.data = data := by rw [← hk]; rfl
  have hks : k.seq = seqBits s'.seq := by unfold Packet.seq; rw [hkc, hctl]
  have hk256 : k.bytes.length ≤ 256 := by omega
  refine ⟨s'', sendOuts s' env k.bytes, k.bytes, ?_, ?_, ?_⟩
  · rw [hsp, decide_eq_true (by omega)]
  · unfold sendOuts sent
    rw [List.take_of_length_le (by omega)]
    cases s'.hasFlush <;> simp
  intro es hf hle
  -- direction and address
  obtain ⟨d1, d2, d3, d4⟩ := addr_dir (i8 s.address)
  have hdir : dirOk r k.addr = true := by
    unfold dirOk
    rw [hka, hta]
    have hop' : r.isCp = s.isPd := by
      show (!r.isPd) = s.isPd
      rw [hop]; simp
    rw [hop']
    cases hpd : s.isPd
    · simp only [Bool.false_eq_true, if_false, d1]; rfl
    · simp only [if_true]
      split
      · rfl
      · rw [d2]; rfl
  have hpa : (pktAddr k : Int) = if s.isPd ∧ s.flags.broadcast then 127 else s.address := by
    unfold pktAddr
    rw [hka, hta]
    have h7 := i8_addr s.address hrange
    cases hpd : s.isPd
    · simp only [Bool.false_eq_true, if_false, false_and, d4, h7]; omega
    · cases hbc : s.flags.broadcast
      · simp only [Bool.false_eq_true, and_false, if_true, if_false, d3, h7]; omega
      · simp only [and_self, if_true]; rfl
  have hfor : (pktAddr k : Int) = r.address ∨ pktAddr k = 127 := by
    rw [haddr]
    split at hpa <;> omega
  have hbf := bodyFrame_packet r k (by rw [hkc]; exact hcrc) hfor
  -- sequence number
  have hseq : ∃ q0, bodyFrame r k.frame = .ok (q0, .none) ∧ q0.scActive = false ∧ q0.flags.pdMode = r.flags.pdMode ∧
      q0.scCapable = r.scCapable := by
    rw [hbf, hks]
    cases hpd : r.isPd
    · refine ⟨r, ?_, hr, rfl, rfl⟩
      have := checkSeq_cp r k (pktAddr k == 127) hpd (by rw [hks, hkd]; exact hexp) (by rw [hkd]; exact hd)
      rw [hks] at this; exact this
    · obtain ⟨h1, h2, h3⟩ := hexp.pd hpd
      refine ⟨_, checkSeq_accept r _ _ _ _ hpd (seqBits_lt _) ⟨h1, h2⟩ h3, ?_, rfl, rfl⟩
      show (r.flags.scActive && _) = false
      rw [show r.flags.scActive = false from hr]; rfl
  obtain ⟨q0, hq0, hq0s, hq0m, hq0c⟩ := hseq
  obtain ⟨mk, ts, hrec⟩ := receive_packet hi hk256 hdir hf hle hq0
  refine ⟨_, hrec, ?_, ⟨k.ctl, ?_, ?_⟩, ⟨k.addr, ?_, hpa⟩⟩
  · obtain ⟨x0, l0, hxl⟩ := List.exists_cons_of_ne_nil hd
    have h8 : ∀ c, k.frame[4]? = some c → hasBit c CTL_SCB = true → 8 ≤ k.frame.length := by
      intro c hc hcs
      rw [frame_cons] at hc
      injection hc with hc
      rw [frame_length]; unfold Packet.len
      rw [hkd, hxl, ← hk]
      show 8 ≤ 5 + t'.scb.length + _ + 2
      rcases hscb with ⟨h1, -⟩ | ⟨-, h1, -⟩
      · rw [← hc, hkc, h1] at hcs; cases hcs
      · rcases ht with rfl | ⟨ty, x, -, rfl, -⟩
        · rw [h1]; simp; omega
        · simp; omega
    rw [extracted_reload C r q0 mk k.frame [] ts (by rw [frame_length]; exact Nat.le_trans (by decide) (len_ge k)) h8]
    rcases hscb with ⟨h1, h2⟩ | ⟨h1, h2, h3⟩
    · have hkscb : k.scb = [] := by
        rw [← hk]
        rcases ht with rfl | ⟨ty, x, hne, -⟩
        · exact h2
        · exact absurd h2 hne
      rw [decodeFrame_plain C q0 k (by rw [hkc]; exact hcrc) (by rw [hkc]; exact h1) hkscb x0 (by rw [hkd, hxl]; rfl)
        (by
          unfold plainRefused
          rw [hq0s]; split <;> simp), hkd]
      rfl
    · obtain ⟨ty, x, hkscb, hty⟩ : ∃ ty x, k.scb = [3#8, ty, x] ∧ 0x11#8 ≤ ty ∧ ty ≤ 0x14#8 := by
        rw [← hk]
        rcases ht with rfl | ⟨ty, x, -, rfl, hty⟩
        · exact ⟨_, _, h2, by decide⟩
        · exact ⟨ty, x, rfl, hty⟩
      rw [decodeFrame_handshake C q0 k (by rw [hkc]; exact hcrc) (by rw [hkc]; exact h1) ty x hkscb hty
        (fun h => hq0c.trans (hcap (hq0m.symm.trans h))), hkd]
      rfl
  · rw [heldFrame_reload, frame_cons]; rfl
  · rw [hkc, hctl]
  · rw [heldFrame_reload, frame_cons]; rfl

/-- Non-vacuity: the CP's first command to the sample PD, and the PD's reply to it. -/
example : ∃ s' t, packetInit { Sample.cp with cmdId := Id.ID } 256 = some (s', t) ∧ t.misaligned = false ∧
    Expected Sample.pd (seqBits s'.seq) [b8 Id.ID, 0#8] ∧ Idle Sample.pd ∧
    (pktOf t [b8 Id.ID, 0#8]).bytes.length ≤ 256 ∧ Sample.pd.address = Sample.cp.address := by
  refine ⟨_, _, rfl, by decide, ⟨fun _ => ?_, (fun h => by cases h), (fun h => by cases h)⟩, ⟨rfl, rfl, ?_, rfl⟩,
    by decide +kernel, rfl⟩
  · decide
  · decide +kernel

end Osdp.Phy
