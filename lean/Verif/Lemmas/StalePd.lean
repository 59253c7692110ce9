import Verif.Lemmas.Stale
import Verif.Lemmas.PdReach
import Verif.Lemmas.DecodeFault

/-! # The command handlers of a PD do not look at the packet buffer -/

namespace Osdp.PdM

/-- carry the replacement of the packet buffer through a result -/
def mapW {β : Type} (b : List Byte) (r : Res (Pd × β)) : Res (Pd × β) := r.map fun x => (wb x.1 b, x.2)

theorem mapW_bind {α β : Type} (b : List Byte) (x : Res α) (g : α → Res (Pd × β)) :
    mapW b (x >>= g) = x >>= fun a => mapW b (g a) := by cases x <;> rfl

theorem mapW_pair {β γ : Type} (b : List Byte) (x : Res (Pd × β)) (g : Pd × β → Res (Pd × γ)) (g' : Pd × β → Res (Pd × γ))
    (h : ∀ a, g (wb a.1 b, a.2) = mapW b (g' a)) : mapW b x >>= g = mapW b (x >>= g') := by
  cases x
  · rfl
  · exact h _

theorem mapW_ite {β : Type} (c : Prop) [Decidable c] (x y : Res (Pd × β)) (b) :
    mapW b (if c then x else y) = if c then mapW b x else mapW b y := by
  split <;> rfl

theorem capOk_wb (p : Pd) (b : List Byte) (c : Option Cmd) : capOk (wb p b) c = (wb (capOk p c).1 b, (capOk p c).2) := by
  unfold capOk
  show (if capAllows p.cap p.cmdId c then _ else if p.cmdId = Id.CHLNG ∨ p.cmdId = Id.SCRYPT ∨ p.cmdId = Id.KEYSET then _ else _) = _
  split
  · rfl
  · split <;> rfl

theorem callback_wb (p : Pd) (b : List Byte) (env : Env) (i : Nat) (c : Cmd) : callback (wb p b) env i c = mapW b (callback p env i c) := by
  unfold callback
  cases env.cb with
  | none => rfl
  | some cb =>
    dsimp only
    split <;> rfl

theorem records_wb (dec : List Byte → Option Cmd) (k : Nat) (env : Env) (b : List Byte) (n : Nat) : ∀ (i : Nat) (p : Pd) (body : List Byte),
    records dec k env n i (wb p b) body = mapW b (records dec k env n i p body) := by
  induction n with
  | zero => intro i p body; rfl
  | succ n ih =>
    intro i p body
    unfold records
    cases dec (body.take k) with
    | none => rfl
    | some c =>
      dsimp only
      rw [capOk_wb]
      generalize capOk p (some c) = x
      obtain ⟨p1, ok⟩ := x
      cases ok
      · rfl
      · dsimp only
        rw [callback_wb]
        apply mapW_pair
        intro ⟨p2, outs, r⟩
        cases r with
        | none => rfl
        | some c' =>
          dsimp only
          rw [ih]
          apply mapW_pair
          intro a; rfl

theorem reply_wb (p : Pd) (b r outs) : reply (wb p b) r outs = mapW b (reply p r outs) := rfl
theorem badLen_wb (p : Pd) (b outs) : badLen (wb p b) outs = mapW b (badLen p outs) := rfl

theorem statusCmd_wb (p : Pd) (b env ty r) : statusCmd (wb p b) env ty r = mapW b (statusCmd p env ty r) := by
  unfold statusCmd
  rw [callback_wb]
  apply mapW_pair
  intro ⟨p2, outs, c⟩
  cases c with
  | none => rfl
  | some c => cases c <;> rfl

theorem recordsCmd_wb (p : Pd) (b env dec k body) : recordsCmd (wb p b) env dec k body = mapW b (recordsCmd p env dec k body) := by
  unfold recordsCmd
  rw [mapW_ite, records_wb]
  split
  · rfl
  · apply mapW_pair
    intro a; rfl

theorem textCmd_wb (p : Pd) (b env body) : textCmd (wb p b) env body = mapW b (textCmd p env body) := by
  unfold textCmd
  rw [mapW_ite]
  split
  · rfl
  · split
    · rw [mapW_ite]
      split
      · rfl
      · dsimp only
        rw [capOk_wb]
        generalize capOk p _ = x
        obtain ⟨p1, ok⟩ := x
        cases ok
        · rfl
        · dsimp only
          rw [callback_wb]
          apply mapW_pair
          intro ⟨p2, outs, c⟩
          cases c <;> rfl
    · rfl

theorem comsetCmd_wb (p : Pd) (b env body) : comsetCmd (wb p b) env body = mapW b (comsetCmd p env body) := by
  unfold comsetCmd
  rw [mapW_ite]
  split
  · rfl
  · split
    · dsimp only
      rw [mapW_ite]
      split
      · rfl
      · rw [callback_wb]
        apply mapW_pair
        intro ⟨p2, outs, c⟩
        cases c with
        | none => rfl
        | some c => cases c <;> rfl
    · rfl

theorem mfgCmd_wb (p : Pd) (b env body) : mfgCmd (wb p b) env body = mapW b (mfgCmd p env body) := by
  unfold mfgCmd
  rw [mapW_ite]
  split
  · rfl
  · split
    · dsimp only
      rw [mapW_ite]
      split
      · rfl
      · rw [callback_wb]
        apply mapW_pair
        intro ⟨p2, outs, c⟩
        cases c <;> rfl
    · rfl

theorem keysetCmd_wb (p : Pd) (b env body) : keysetCmd (wb p b) env body = mapW b (keysetCmd p env body) := by
  unfold keysetCmd
  split
  · rfl
  · dsimp only
    rw [mapW_ite]
    split
    · rfl
    · rw [show Phy.setNak (wb p b) Nak.SC_COND = wb (Phy.setNak p Nak.SC_COND) b from rfl, capOk_wb]
      generalize capOk (Phy.setNak p Nak.SC_COND) none = x
      obtain ⟨p1, ok⟩ := x
      cases ok
      · rfl
      · dsimp only
        rw [mapW_ite, mapW_ite, show (wb p1 b).scActive = p1.scActive from rfl]
        split
        · rfl
        · split
          · rfl
          · rw [callback_wb]
            apply mapW_pair
            intro ⟨p2, outs, c⟩
            cases c with
            | none => rfl
            | some c => cases c <;> rfl

theorem chlngCmd_wb (p : Pd) (b body) : chlngCmd (wb p b) body = mapW b (chlngCmd p body) := by
  unfold chlngCmd
  split
  · rfl
  · rw [capOk_wb]
    generalize capOk p none = x
    obtain ⟨p1, ok⟩ := x
    cases ok <;> rfl

theorem scryptCmd_wb (p : Pd) (b body) : scryptCmd (wb p b) body = mapW b (scryptCmd p body) := by
  unfold scryptCmd
  split
  · rfl
  · rw [capOk_wb]
    generalize capOk p none = x
    obtain ⟨p1, ok⟩ := x
    cases ok
    · rfl
    · dsimp only
      rw [mapW_ite, show (wb p1 b).scActive = p1.scActive from rfl]
      split <;> rfl

theorem pollEvent_wb (p : Pd) (b) : pollEvent (wb p b) = wb (pollEvent p) b := by
  unfold pollEvent
  rw [show (wb p b).eventQueue = p.eventQueue from rfl]
  cases p.eventQueue <;> rfl

theorem capStatus_wb (p : Pd) (b : List Byte) (env : Env) (ty : StatusType) (r : Nat) :
    (match capOk (wb p b) none with
      | (p, false) => (.ok (p, [], .reply) : Res (Pd × List Out × PdRet))
      | (p, true) => statusCmd p env ty r) =
    mapW b (match capOk p none with
      | (p, false) => .ok (p, [], .reply)
      | (p, true) => statusCmd p env ty r) := by
  rw [capOk_wb]
  generalize capOk p none = x
  obtain ⟨p1, ok⟩ := x
  cases ok
  · rfl
  · exact statusCmd_wb _ _ _ _ _

theorem mapW_if {β : Type} {c : Prop} [Decidable c] {x y x' y' : Res (Pd × β)} {b : List Byte} (h1 : x' = mapW b x) (h2 : y' = mapW b y) :
    (if c then x' else y') = mapW b (if c then x else y) := by
  split
  · exact h1
  · exact h2

theorem dispatch_wb (p : Pd) (b env body) : dispatch (wb p b) env body = mapW b (dispatch p env body) := by
  unfold dispatch
  refine mapW_if (mapW_if rfl ?_) ?_
  · dsimp only; rw [pollEvent_wb]; rfl
  refine mapW_if (mapW_if rfl (statusCmd_wb _ _ _ _ _)) ?_
  refine mapW_if (mapW_if rfl (capStatus_wb _ _ _ _ _)) ?_
  refine mapW_if (mapW_if rfl (capStatus_wb _ _ _ _ _)) ?_
  refine mapW_if (mapW_if rfl (statusCmd_wb _ _ _ _ _)) ?_
  refine mapW_if (mapW_if rfl rfl) ?_
  refine mapW_if (mapW_if rfl rfl) ?_
  refine mapW_if (recordsCmd_wb _ _ _ _ _ _) ?_
  refine mapW_if (recordsCmd_wb _ _ _ _ _ _) ?_
  refine mapW_if (recordsCmd_wb _ _ _ _ _ _) ?_
  refine mapW_if (textCmd_wb _ _ _ _) ?_
  refine mapW_if (comsetCmd_wb _ _ _ _) ?_
  refine mapW_if (mfgCmd_wb _ _ _ _) ?_
  refine mapW_if (by split <;> rfl) ?_
  refine mapW_if (by split <;> rfl) ?_
  refine mapW_if (mapW_if rfl rfl) ?_
  refine mapW_if ?_ ?_
  · rw [mapW_bind]
    refine bind_congr fun r => ?_
    exact mapW_if rfl rfl
  refine mapW_if (keysetCmd_wb _ _ _ _) ?_
  refine mapW_if (chlngCmd_wb _ _ _) ?_
  exact mapW_if (scryptCmd_wb _ _ _) rfl

theorem decodeCommand_two {n : Nat} {p : Pd} {b : List Byte} {env : Env} {d d' : List Byte} {len : Nat} (hb : SameTo n p.packetBuf b)
    (hlen : d'.length = d.length) (hd : d'.take len = d.take len) (h1 : 1 ≤ len) :
    decodeCommand (wb p b) env d' len = mapW b (decodeCommand p env d len) := by
  have e0 : rd d' 0 = rd d 0 := by
    unfold rd
    have e : (d'.take len)[0]? = (d.take len)[0]? := by rw [hd]
    rw [List.getElem?_take, List.getElem?_take, if_pos (by omega), if_pos (by omega)] at e
    rw [e]
  unfold decodeCommand
  rw [e0, mapW_bind, hlen, hd]
  refine bind_congr fun id => ?_
  refine mapW_if (mapW_if rfl rfl) (mapW_if rfl ?_)
  exact dispatch_wb (noteCmd p id) b env _

/-- equal up to the bytes in the packet buffer that have not been collected -/
def Like {β : Type} (x y : Pd × β) : Prop := Upto x.1.packetBufLen x.1 y.1 ∧ x.2 = y.2

theorem mapW_two {β : Type} {p : Pd} {b : List Byte} {x : Res (Pd × β)} (hb : SameTo p.packetBufLen p.packetBuf b)
    (hx : ∀ q a, x = .ok (q, a) → q.packetBuf = p.packetBuf ∧ q.packetBufLen = p.packetBufLen) : Two Like x (mapW b x) := by
  cases x with
  | error e => exact rfl
  | ok v =>
    obtain ⟨q, a⟩ := v
    obtain ⟨h1, h2⟩ := hx q a rfl
    refine ⟨⟨b, rfl, ?_⟩, rfl⟩
    show SameTo q.packetBufLen q.packetBuf b
    rw [h1, h2]; exact hb

theorem decodeCommand_kept {p q : Pd} {env : Env} {d : List Byte} {len : Nat} {outs : List Out} {ret : PdRet} (hp : p.flags.pdMode = true)
    (h : decodeCommand p env d len = .ok (q, outs, ret)) : Kept p q := by
  unfold decodeCommand at h
  obtain ⟨id, -, h⟩ := Res.bind_eq_ok.mp h
  split at h
  · split at h
    · injection h with h; injection h with h _; subst h; exact ⟨rfl, rfl, rfl, rfl, rfl, rfl⟩
    · cases h
  · split at h
    · cases h
    · have := kept_outcome (dispatch_outcome (p := noteCmd p id) hp h)
      exact ⟨this.buf, this.bufLen, this.len, this.rx, this.mark, this.pdMode⟩

theorem process_two (C : Cipher) {p q : Pd} {env : Env} (hp : p.flags.pdMode = true) (h : Upto p.packetBufLen p q)
    (h6 : Phy.markLen p + 6 ≤ p.packetBufLen) (h8 : ¬ Phy.Curtailed p) : Two Like (process C p env) (process C q env) := by
  unfold process
  refine Two.bind (Phy.decode_two C h h6 h8) ?_
  intro ⟨p1, d⟩ ⟨q1, d'⟩ hd _ ⟨hu, e1, e2, e3⟩
  have hto := Phy.decodePacket_to hd
  have hu' : Upto p1.packetBufLen p1 q1 := by rw [hto.packetBufLen]; exact hu
  dsimp only at e1 e2 e3 ⊢
  rw [← e1]
  apply Two.ite
  · intro _; exact ⟨hu', rfl⟩
  · intro hpos
    obtain ⟨b, rfl, hb⟩ := hu'
    rw [decodeCommand_two hb e2 e3 (by omega)]
    refine mapW_two hb fun q a hx => ?_
    obtain ⟨o, r⟩ := a
    have := decodeCommand_kept (hto.transp.pdMode.trans hp) hx
    exact ⟨this.buf, this.bufLen⟩

theorem receive_two (C : Cipher) {p q : Pd} {env : Env} (hp : p.flags.pdMode = true) (h : Sim p q) (hf : Phy.Framed p)
    (hfit : p.rx.length + env.recv.flatten.length ≤ Phy.RB_CAP)
    (h8 : ∀ s, Phy.checkPacket p env = .ok (s, .none) → ¬ Phy.Curtailed s) :
    Two (fun x y => x.2 = y.2 ∧ Sim x.1 y.1 ∧ (x.2.2 ≠ .noData → x.2.2 ≠ .ignore → Upto x.1.packetBufLen x.1 y.1))
      (receiveAndProcess C p env) (receiveAndProcess C q env) := by
  unfold receiveAndProcess
  refine Two.bind (Phy.checkPacket_two h hf hp hfit) ?_
  intro ⟨p1, r⟩ ⟨q1, r'⟩ hc _ ⟨e, hs, hu⟩
  obtain rfl : r = r' := e
  have hp1 : p1.flags.pdMode = true := (Phy.checkPacket_checked hc).transp.pdMode.trans hp
  have key : r ≠ .noData → ∀ (o : List Out) (ret : PdRet), Two (fun (x y : Pd × List Out × PdRet) => x.2 = y.2 ∧ Sim x.1 y.1 ∧
      (x.2.2 ≠ .noData → x.2.2 ≠ .ignore → Upto x.1.packetBufLen x.1 y.1)) (.ok (p1, o, ret)) (.ok (q1, o, ret)) :=
    fun hr o ret => ⟨rfl, hs, fun _ _ => hu hr⟩
  cases r with
  | none =>
    have h6 := Phy.checkPacket_held hf hc
    refine (process_two C hp1 (hu (by simp)) (by rw [h6.full]; exact h6.least) (h8 _ hc)).mono ?_
    intro a b _ _ ⟨hu, e⟩
    exact ⟨e, hu.sim, fun _ _ => hu⟩
  | noData => exact ⟨rfl, hs, fun h => absurd rfl h⟩
  | skip =>
    have hu := hu (by simp)
    obtain ⟨b, e, hb⟩ := hu
    have e : q1 = wb p1 b := e
    subst e
    have hu' : Upto 0 (Phy.stateReset p1 false).1 (Phy.stateReset (wb p1 b) false).1 := ⟨b, rfl, hb.mono (Nat.zero_le _)⟩
    exact ⟨rfl, Upto.sim (p := (Phy.stateReset p1 false).1) hu', fun _ _ => hu'⟩
  | nack => exact key (by simp) _ _
  | wait => exact key (by simp) _ _
  | fmt => exact key (by simp) _ _
  | check => exact key (by simp) _ _
  | busy => exact key (by simp) _ _

/-! ### replies -/

/-- the same reply built on another buffer -/
def Built.on (b : List Byte) (x : Built) : Built := { x with p := wb x.p b }

theorem Built.on_if {c : Prop} [Decidable c] {x y x' y' : Res Built} {b : List Byte} (h1 : x' = x.map (Built.on b)) (h2 : y' = y.map (Built.on b)) :
    (if c then x' else y') = (if c then x else y).map (Built.on b) := by
  split
  · exact h1
  · exact h2

theorem Built.on_bind {α : Type} {x : Res α} {g g' : α → Res Built} {b : List Byte} (h : ∀ a, g' a = (g a).map (Built.on b)) :
    (x >>= g') = (x >>= g).map (Built.on b) := by
  cases x
  · rfl
  · exact h _

theorem statusReply_wb (p : Pd) (b t cap hv) : statusReply (wb p b) t cap hv = (statusReply p t cap hv).map (Built.on b) := by
  unfold statusReply
  show (match p.eph with | .event (.status s) => _ | _ => _) = _
  cases p.eph with
  | event e =>
    cases e with
    | status s => exact Built.on_if rfl (Built.on_bind fun _ => Built.on_if rfl rfl)
    | _ => rfl
  | _ => rfl

theorem replyBody_wb (C : Cipher) (p : Pd) (b env t hv) : replyBody C (wb p b) env t hv = (replyBody C p env t hv).map (Built.on b) := by
  unfold replyBody
  refine Built.on_if (Built.on_bind fun _ => rfl) ?_
  refine Built.on_if (Built.on_bind fun _ => rfl) ?_
  refine Built.on_if (Built.on_bind fun _ => rfl) ?_
  refine Built.on_if (statusReply_wb _ _ _ _ _) ?_
  refine Built.on_if (statusReply_wb _ _ _ _ _) ?_
  have eph : (wb p b).eph = p.eph := rfl
  refine Built.on_if (Built.on_bind fun _ => ?_) ?_
  · rw [eph]; split <;> rfl
  refine Built.on_if (Built.on_bind fun _ => ?_) ?_
  · rw [eph]; split <;> rfl
  refine Built.on_if ?_ ?_
  · rw [eph]; split
    · exact Built.on_bind fun _ => Built.on_bind fun _ => rfl
    · rfl
  refine Built.on_if ?_ ?_
  · rw [eph]; split
    · exact Built.on_bind fun _ => Built.on_bind fun _ => rfl
    · rfl
  refine Built.on_if (Built.on_bind fun _ => ?_) ?_
  · rw [eph]; split <;> rfl
  refine Built.on_if (Built.on_bind fun _ => ?_) ?_
  · rw [eph]; split <;> rfl
  refine Built.on_if ?_ ?_
  · rw [eph]; split
    · exact Built.on_bind fun _ => Built.on_bind fun _ => rfl
    · rfl
  refine Built.on_if (Built.on_bind fun a => ?_) ?_
  · obtain ⟨f, outs, r⟩ := a
    cases r <;> rfl
  refine Built.on_if (Built.on_if rfl (Built.on_if rfl (Built.on_bind fun _ => rfl))) ?_
  refine Built.on_if (Built.on_if rfl (Built.on_if rfl (Built.on_bind fun _ => ?_))) rfl
  dsimp only
  rw [show (wb p b).sc = p.sc from rfl]
  cases Sc.verifyCpCryptogram C (Sc.computeRmacI C p.sc) <;> rfl

theorem buildReply_wb (C : Cipher) (p : Pd) (b env t n) : buildReply C (wb p b) env t n = mapW b (buildReply C p env t n) := by
  unfold buildReply
  dsimp only
  rw [replyBody_wb, mapW_bind]
  cases replyBody C p env t (n - t.dataOff) with
  | error e => rfl
  | ok x =>
    obtain ⟨q, t', o, body⟩ := x
    show (match body with | .ok l => _ | .error _ => _ : Res (Pd × Phy.Tx × List Out × List Byte)) = mapW b (match body with | .ok l => _ | .error _ => _)
    cases body with
    | ok l => rfl
    | error k =>
      dsimp only
      rw [mapW_bind]
      rfl

theorem finalize_wb (C : Cipher) (p : Pd) (b t data n) : Phy.finalize C (wb p b) t data n = mapW b (Phy.finalize C p t data n) := by
  have hmac : ∀ data m, Phy.finalizeMac C (wb p b) t data m = mapW b (Phy.finalizeMac C p t data m) := by
    intro data m
    unfold Phy.finalizeMac
    refine mapW_if rfl ?_
    dsimp only
    rw [mapW_bind]
    rfl
  unfold Phy.finalize
  refine mapW_if rfl (mapW_if rfl (mapW_if ?_ rfl))
  unfold Phy.finalizeSecured
  refine mapW_if (mapW_if rfl (mapW_if rfl ?_)) (hmac _ _)
  exact hmac _ _

/-- the same but for the bytes in the packet buffer -/
def ButBuf {β : Type} (x y : Pd × β) : Prop := Upto 0 x.1 y.1 ∧ x.2 = y.2

theorem sendPacket_two (C : Cipher) {p : Pd} {b : List Byte} {env : Env} {t : Phy.Tx} {data : List Byte} {n : Nat}
    (hl : b.length = p.packetBuf.length) : Two ButBuf (Phy.sendPacket C p env t data n) (Phy.sendPacket C (wb p b) env t data n) := by
  have hk : ∀ q r, Phy.finalize C p t data n = .ok (q, r) → q.packetBuf = p.packetBuf := by
    intro q r h
    have e := finalize_wb C p p.packetBuf t data n
    rw [wb_self, h] at e
    injection e with e
    injection e with e _
    have e : q = wb q p.packetBuf := e
    rw [e]; rfl
  unfold Phy.sendPacket
  rw [finalize_wb]
  cases hx : Phy.finalize C p t data n with
  | error e => exact rfl
  | ok v =>
    obtain ⟨q, r⟩ := v
    have hq := hk q r hx
    have h0 : SameTo 0 q.packetBuf b := ⟨by rw [hq]; exact hl, fun j hj => absurd hj (by omega)⟩
    cases r with
    | none => exact ⟨⟨b, rfl, h0⟩, rfl⟩
    | some bytes =>
      rw [show mapW b (.ok (q, some bytes)) = .ok (wb q b, some bytes) from rfl, Res.ok_bind, Res.ok_bind]
      dsimp only
      refine Two.bind (h0.write (bs := bytes) (Nat.le_refl _)) ?_
      intro a' b' _ _ ⟨hs, _⟩
      exact ⟨⟨b', rfl, hs.mono (Nat.zero_le _)⟩, rfl⟩

theorem sendReply_two (C : Cipher) {p : Pd} {b : List Byte} {env : Env} (hl : b.length = p.packetBuf.length) :
    Two ButBuf (sendReply C p env) (sendReply C (wb p b) env) := by
  unfold sendReply
  dsimp only
  have hi : Phy.packetInit (wb p b) (wb p b).txBufSize = (Phy.packetInit p p.txBufSize).map fun x => (wb x.1 b, x.2) := by
    unfold Phy.packetInit
    rw [show (wb p b).txBufSize = p.txBufSize from rfl]
    split <;> rfl
  rw [hi, show (wb p b).txBufSize = p.txBufSize from rfl]
  cases hx : Phy.packetInit p p.txBufSize with
  | none => exact ⟨⟨b, rfl, hl, fun j hj => absurd hj (by omega)⟩, rfl⟩
  | some v =>
    obtain ⟨q, t⟩ := v
    have hq : q.packetBuf = p.packetBuf := by
      unfold Phy.packetInit at hx
      split at hx
      · cases hx
      · injection hx with hx; injection hx with hx _; rw [← hx]
    dsimp only [Option.map]
    rw [buildReply_wb]
    have hk : ∀ q' r, buildReply C q env t p.txBufSize = .ok (q', r) → q'.packetBuf = q.packetBuf := by
      intro q' r h
      have e := buildReply_wb C q q.packetBuf env t p.txBufSize
      rw [wb_self, h] at e
      injection e with e
      injection e with e _
      have e : q' = wb q' q.packetBuf := e
      rw [e]; rfl
    cases hb : buildReply C q env t p.txBufSize with
    | error e => exact rfl
    | ok w =>
      obtain ⟨q', t', o, body⟩ := w
      have hq' := hk _ _ hb
      rw [show mapW b (.ok (q', t', o, body)) = .ok (wb q' b, t', o, body) from rfl, Res.ok_bind, Res.ok_bind]
      dsimp only
      refine Two.bind (R := ButBuf) (sendPacket_two C (p := q') (by rw [hq', hq]; exact hl)) ?_
      intro ⟨x, o1, k1⟩ ⟨y, o2, k2⟩ _ _ ⟨hu, e⟩
      injection e with e1 e2
      subst e1 e2
      exact ⟨hu, rfl⟩

theorem commitKeyset_wb (x : Pd) (b : List Byte) : commitKeyset (wb x b) = (commitKeyset x).map fun z => wb z b := by
  unfold commitKeyset
  by_cases hc : x.cmdId = Id.KEYSET ∧ x.replyId = Id.ACK
  · rw [if_pos hc, if_pos (show (wb x b).cmdId = Id.KEYSET ∧ (wb x b).replyId = Id.ACK from hc)]
    cases hE : x.eph <;> simp [Except.map, wb, Pd.scDeactivate, hE]
  · rw [if_neg hc, if_neg (show ¬ ((wb x b).cmdId = Id.KEYSET ∧ (wb x b).replyId = Id.ACK) from hc)]
    rfl

theorem finish_two (C : Cipher) {p q : Pd} {env : Env} {ret : PdRet} (hs : Sim p q)
    (hu : ret ≠ .noData → ret ≠ .ignore → Upto p.packetBufLen p q) :
    Two (fun x y => Sim x.1 y.1 ∧ x.2 = y.2) (finish C p env ret) (finish C q env ret) := by
  unfold finish
  apply Two.ite
  · intro _; exact ⟨hs, rfl⟩
  · intro h
    have hu := hu (fun e => h (.inr e)) (fun e => h (.inl e))
    obtain ⟨b, rfl, hb⟩ := hu
    refine Two.ite (fun _ => ⟨hs, rfl⟩) fun _ => ?_
    refine Two.ite (fun _ => ?_) fun _ => ?_
    · have hu' : Upto 0 (errorReset p) (errorReset (wb p b)) := ⟨b, rfl, hb.mono (Nat.zero_le _)⟩
      exact ⟨Upto.sim (p := errorReset p) hu', rfl⟩
    · have et : touch (wb p b) ret env.now = wb (touch p ret env.now) b := by
        unfold touch
        rw [show (wb p b).scActive = p.scActive from rfl]
        split <;> rfl
      rw [et]
      refine Two.bind (R := ButBuf) (sendReply_two C (by rw [hb.len]; unfold touch; split <;> rfl)) ?_
      intro ⟨x, o1, k1⟩ ⟨y, o2, k2⟩ _ _ ⟨hu, e⟩
      injection e with e1 e2
      subst e1 e2
      obtain ⟨b', e, hb'⟩ := hu
      have e : y = wb x b' := e
      subst e
      have ha : Two (fun x y => Sim x y) (afterSend x k1) (afterSend (wb x b') k1) := by
        have hc : commitKeyset (wb x b') = (commitKeyset x).map fun z => wb z b' := commitKeyset_wb x b'
        have hcb : ∀ z, commitKeyset x = .ok z → z.packetBuf = x.packetBuf := by
          intro z hz
          unfold commitKeyset at hz
          split at hz
          · split at hz
            · injection hz with hz; rw [← hz]; rfl
            · cases hz
          · injection hz with hz; rw [← hz]
        unfold afterSend
        have hr : ∀ z : Pd, z.packetBuf = x.packetBuf → Two (fun x y => Sim x y) (.ok (Phy.stateReset z false).1)
            (.ok (Phy.stateReset (wb z b') false).1) := by
          intro z hz
          have hu' : Upto 0 (Phy.stateReset z false).1 (Phy.stateReset (wb z b') false).1 :=
            ⟨b', rfl, by show SameTo 0 z.packetBuf b'; rw [hz]; exact hb'⟩
          exact Upto.sim (p := (Phy.stateReset z false).1) hu'
        cases k1
        · exact hr x rfl
        · rw [if_pos rfl, if_pos rfl, hc]
          cases hz : commitKeyset x with
          | error e => exact rfl
          | ok z => exact hr z (hcb z hz)
      refine Two.bind ha ?_
      intro x' y' _ _ hs
      exact ⟨hs, rfl⟩

theorem expire_sim {p q : Pd} (h : Sim p q) (now : Int) : Sim (expire p now) (expire q now) := by
  obtain ⟨b, m, t, rfl, hb, hm, ht⟩ := h.ex
  unfold expire
  rw [show (Pd.scActive { p with packetBuf := b, tstamp := t, flags := { p.flags with hasMark := m } }) = p.scActive from rfl]
  show Sim _ (if p.scActive = true ∧ now - p.scTstamp > PD_SC_TIMEOUT then _ else _)
  split
  · exact ⟨b, m, t, rfl, hb, hm, ht⟩
  · exact ⟨b, m, t, rfl, hb, hm, ht⟩

theorem refresh_two (C : Cipher) {p q : Pd} {env : Env} (hp : p.flags.pdMode = true) (h : Sim p q) (hf : Phy.Framed p)
    (hfit : p.rx.length + env.recv.flatten.length ≤ Phy.RB_CAP)
    (h8 : ∀ s, Phy.checkPacket (expire p env.now) env = .ok (s, .none) → ¬ Phy.Curtailed s) :
    Two (fun x y => Sim x.1 y.1 ∧ x.2 = y.2) (refresh C p env) (refresh C q env) := by
  obtain ⟨hk, -⟩ := expire_kept p env.now
  unfold refresh
  refine Two.bind (receive_two C (hk.pdMode.trans hp) (expire_sim h env.now) (hk.framed hf) (by rw [hk.rx]; exact hfit) h8) ?_
  intro ⟨p1, o, r⟩ ⟨q1, o', r'⟩ _ _ ⟨e, hs, hu⟩
  injection e with e1 e2
  subst e1 e2
  refine Two.bind (finish_two C hs hu) ?_
  intro ⟨p2, o2⟩ ⟨q2, o2'⟩ _ _ ⟨hs, e⟩
  obtain rfl : o2 = o2' := e
  exact ⟨hs, rfl⟩

end Osdp.PdM
