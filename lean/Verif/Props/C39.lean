import Verif.Lemmas.PdEvent
import Verif.Lemmas.PdKey
import Verif.Lemmas.SampleSc
import Verif.Props.C23
import Verif.Lemmas.PdKind

/-!
# C39: events are delivered in order, each exactly once
-/

namespace Osdp.PdM

open Spec.Wire
open Phy (Idle Arrives)

/-- **C39, the API.**  A full queue refuses an event with -1 and keeps its contents; otherwise the event is appended
and 0 is returned; flushing empties the queue and returns the number of events removed. -/
theorem C39_api (p : Pd) (e : Event) :
    (p.eventQueue.length < p.poolCap → (notifyEvent p e).2 = 0 ∧ (notifyEvent p e).1.eventQueue = p.eventQueue ++ [e]) ∧
    (p.poolCap ≤ p.eventQueue.length → notifyEvent p e = (p, -1)) ∧
    ((flushEvents p).1.eventQueue = [] ∧ (flushEvents p).2 = p.eventQueue.length) := by
  refine ⟨fun h => ?_, fun h => ?_, rfl, rfl⟩
  · unfold notifyEvent; rw [if_pos h]; exact ⟨rfl, rfl⟩
  · unfold notifyEvent; rw [if_neg (by omega)]

/-- **C39, one event per POLL.**  In any state a PD can reach and whatever it receives: a refresh leaves the event
queue as it is, or it executed a POLL and removed exactly the oldest event, which became the reply. -/
theorem C39_one_per_poll (C : Cipher) (info : Info) (q s : Pd) (env : Env) (outs : List Out) (hq : Reached C info q)
    (h : refresh C q env = .ok (s, outs)) :
    s.eventQueue = q.eventQueue ∨
    ∃ e, q.eventQueue = e :: s.eventQueue ∧ s.cmdId = Id.POLL ∧ s.replyId = eventReply e ∧
      (eventReply e ≠ Id.ACK → s.eph = .event e) := by
  obtain ⟨q1, o1, ret, o2, hg, hp1, hfin, rfl⟩ := refresh_inv hq.pdMode h
  have tl := finished_tail hfin
  have ex := (expire_fields q env.now).1.events
  rw [tl.events, tl.cmdId, tl.replyId, tl.eph]
  cases hg with
  | nothing _ hc _ => exact .inl ((transp_untouched hc.transp).events.trans ex)
  | skip _ hc => exact .inl ((transp_untouched hc.transp).events.trans ex)
  | seq _ hc => exact .inl ((transp_untouched hc.transp).events.trans ex)
  | refused _ hc _ hd _ => exact .inl (((transp_untouched hd.transp).events.trans (transp_untouched hc.transp).events).trans ex)
  | insecure _ hc _ hd _ _ _ => exact .inl (((transp_untouched hd.transp).events.trans (transp_untouched hc.transp).events).trans ex)
  | @command p2 p3 _ d id body _ _ _ hc _ hd _ _ _ _ hpl _ ho =>
    have e3 : p3.eventQueue = q.eventQueue := ((transp_untouched hd.transp).events.trans (transp_untouched hc.transp).events).trans ex
    by_cases hid : (noteCmd p3 id).cmdId = Id.POLL
    · cases ho with
      | poll _ _ =>
        have e4 : (noteCmd p3 id).eventQueue = q.eventQueue := e3
        unfold pollEvent
        split
        · rename_i hn
          exact .inl (by rw [e4] at hn; rw [hn]; rw [← e4] at hn; exact hn)
        · rename_i e rest hn
          refine .inr ⟨e, ?_, hid, rfl, fun hne => if_neg hne⟩
          rw [← e4]; exact hn
      | plain hpl _ =>
        left
        obtain ⟨_, _, h⟩ := hpl.quiet; subst h; exact e3
      | rxsize _ _ _ hx _ => exact absurd (hid.symm.trans hx) (by decide)
      | keep _ _ _ hx _ => exact absurd (hid.symm.trans hx) (by decide)
      | abort hx _ => exact absurd (hid.symm.trans hx) (by decide)
      | file hx _ => exact absurd (hid.symm.trans hx) (by decide)
      | chlng _ hx _ _ => exact absurd (hid.symm.trans hx) (by decide)
      | scrypt _ hx _ _ _ => exact absurd (hid.symm.trans hx) (by decide)
    · exact .inl ((outcome_events ho hid).trans e3)

/-- the events that `osdp_pd_notify_event` accepted in a history -/
def taken (C : Cipher) : Pd → List Op → List Event
  | _, [] => []
  | p, op :: ops =>
    (match op with | .notify e => if (notifyEvent p e).2 = 0 then [e] else [] | _ => []) ++
      (match step C p op with | .ok (q, _) => taken C q ops | .error _ => [])

theorem taken_snoc {C : Cipher} {p q : Pd} {ops : List Op} {op : Op} {o : List Out} (h : run C p ops = .ok (q, o)) :
    taken C p (ops ++ [op]) = taken C p ops ++
      (match op with | .notify e => if (notifyEvent q e).2 = 0 then [e] else [] | _ => []) := by
  induction ops generalizing p o with
  | nil =>
    injection h with h; injection h with e1 e2; subst e1 e2
    show taken C p [op] = [] ++ _
    unfold taken
    have : ∀ x : Res (Pd × List Out), (match x with | Except.ok (q, _) => taken C q [] | Except.error _ => [] : List Event) = [] := by
      intro x; cases x <;> rfl
    rw [this, List.append_nil, List.nil_append]
  | cons a l ih =>
    obtain ⟨⟨p1, o1⟩, h2, h⟩ := Res.bind_eq_ok.mp h
    obtain ⟨⟨p2, o2⟩, h3, h⟩ := Res.bind_eq_ok.mp h
    injection h with h; injection h with e1 e2; subst e1 e2
    rw [List.cons_append]
    unfold taken
    rw [h2]
    dsimp only
    rw [ih h3, List.append_assoc]

/-- a refresh -/
def Op.isRefresh : Op → Bool
  | .refresh _ => true
  | _ => false

/-- **C39, order and conservation.**  For every configuration and every history of API calls and received bytes: the
events accepted by `osdp_pd_notify_event`, in the order raised, are the ones that left the queue (`true`: through a
POLL; `false`: flushed), in the order they left, followed by the ones still queued.  At most one event leaves
through a POLL per refresh. -/
theorem C39_conserved (C : Cipher) (info : Info) (skipMark : Bool) (n : Nat) (p q : Pd) (ops : List Op)
    (o : List Out) (hs : setup info skipMark n = some p) (h : run C p ops = .ok (q, o)) :
    ∃ gone : List (Event × Bool), taken C p ops = gone.map Prod.fst ++ q.eventQueue ∧
      (gone.filter Prod.snd).length ≤ (ops.filter Op.isRefresh).length ∧
      (Op.flush ∉ ops → ∀ x ∈ gone, x.2 = true) ∧ q.eventQueue.length ≤ n := by
  have h0 : p.eventQueue = [] ∧ p.poolCap = n := by
    unfold setup at hs
    split at hs
    · cases hs
    · injection hs with hs; subst hs; exact ⟨rfl, rfl⟩
  suffices H : q.poolCap = n ∧ ∃ gone : List (Event × Bool), taken C p ops = gone.map Prod.fst ++ q.eventQueue ∧
      (gone.filter Prod.snd).length ≤ (ops.filter Op.isRefresh).length ∧
      (Op.flush ∉ ops → ∀ x ∈ gone, x.2 = true) ∧ q.eventQueue.length ≤ n from H.2
  refine run_ind (C := C) (p := p) (fun ops q _ => q.poolCap = n ∧ ∃ gone : List (Event × Bool),
      taken C p ops = gone.map Prod.fst ++ q.eventQueue ∧
      (gone.filter Prod.snd).length ≤ (ops.filter Op.isRefresh).length ∧
      (Op.flush ∉ ops → ∀ x ∈ gone, x.2 = true) ∧ q.eventQueue.length ≤ n) ?_ ?_ h
  · exact ⟨h0.2, [], by rw [h0.1]; rfl, by simp, by simp, by rw [h0.1]; simp⟩
  · rintro ops op q o s o' hr ⟨hcap, gone, g1, g2, g3, g4⟩ hst
    have hR : Reached C info q := ⟨skipMark, n, p, ops, o, hs, hr⟩
    rw [taken_snoc hr]
    cases op with
    | refresh env =>
      have hc : s.poolCap = n := by
        exact (congrArg Config.poolCap (config_refresh hR.pdMode hst)).trans hcap
      dsimp only
      rw [List.append_nil]
      rcases C39_one_per_poll C info q s env o' hR hst with he | ⟨e, he, -⟩
      · refine ⟨hc, gone, by rw [he]; exact g1, ?_, fun hn => g3 (by simpa using hn), by rw [he]; exact g4⟩
        rw [List.filter_append, List.length_append]; omega
      · refine ⟨hc, gone ++ [(e, true)], ?_, ?_, ?_, ?_⟩
        · rw [g1, he]; simp
        · have e1 : ([Op.refresh env].filter Op.isRefresh).length = 1 := rfl
          rw [List.filter_append, List.filter_append, List.length_append, List.length_append, e1]
          show _ + 1 ≤ _
          omega
        · intro hn x hx
          rcases List.mem_append.mp hx with hx | hx
          · exact g3 (by simpa using hn) x hx
          · simp at hx; rw [hx]
        · rw [he] at g4; simp at g4; omega
    | notify e =>
      injection hst with hst; injection hst with e1 e2; subst e1
      by_cases hl : q.eventQueue.length < q.poolCap
      · obtain ⟨a1, a2⟩ := (C39_api q e).1 hl
        refine ⟨?_, gone, ?_, ?_, fun hn => g3 (by simpa using hn), ?_⟩
        · unfold notifyEvent; split <;> exact hcap
        · rw [a2, g1]
          dsimp only
          rw [if_pos a1]; simp
        · rw [List.filter_append, List.length_append]; omega
        · rw [a2]; simp; omega
      · have a := (C39_api q e).2.1 (by omega)
        rw [a]
        refine ⟨hcap, gone, ?_, ?_, fun hn => g3 (by simpa using hn), g4⟩
        · have a' : (notifyEvent q e).2 = -1 := by rw [a]
          dsimp only
          rw [a', if_neg (by decide), List.append_nil]; exact g1
        · rw [List.filter_append, List.length_append]; omega
    | flush =>
      injection hst with hst; injection hst with e1 e2; subst e1
      refine ⟨hcap, gone ++ q.eventQueue.map (·, false), ?_, ?_, fun hn => absurd (by simp) hn, by simp [flushEvents]⟩
      · rw [g1]
        have : (q.eventQueue.map fun x => (x, false)).map Prod.fst = q.eventQueue := by
          rw [List.map_map]; exact List.map_id _
        simp only [List.map_append, this, flushEvents, List.append_nil]
      · have : (q.eventQueue.map fun x => (x, false)).filter Prod.snd = [] := by
          rw [List.filter_eq_nil_iff]
          intro a ha
          obtain ⟨x, -, rfl⟩ := List.mem_map.mp ha
          simp
        rw [List.filter_append, List.filter_append, this, List.append_nil, List.length_append]; omega
    | setCaps l =>
      injection hst with hst; injection hst with e1 e2; subst e1
      refine ⟨hcap, gone, by simpa [setCapabilities] using g1, ?_, fun hn => g3 (by simpa using hn), g4⟩
      rw [List.filter_append, List.length_append]; omega
    | fileOps =>
      injection hst with hst; injection hst with e1 e2; subst e1
      refine ⟨hcap, gone, by simpa [registerFileOps] using g1, ?_, fun hn => g3 (by simpa using hn), g4⟩
      rw [List.filter_append, List.length_append]; omega

/-- **C39, the event on the wire.**  A POLL in the clear arrives at an idle PD with events queued, the oldest of which
is valid: exactly one packet is sent, it carries that event, and the event leaves the queue. -/
theorem C39_poll_delivers (C : Cipher) (p : Pd) (k : Packet) (env : Env) (e : Event) (rest : List Event)
    (hl : Listening p) (hk : ForUs p k) (ha : Arrives env k.bytes)
    (hs : Phy.hasBit k.ctl Phy.CTL_SCB = false) (hscb : k.scb = []) (hd : k.data = [0x60#8])
    (he : p.eventQueue = e :: rest) (hv : Spec.Event.Valid (ins p) (outsN p) e)
    (hsec : p.flags.enforceSecure = false) (htx : 141 ≤ p.txBufSize) (hcap : 256 ≤ env.sendCap) :
    ∃ q outs r, refresh C p env = .ok (q, outs) ∧ (∀ c, Out.cmd c ∉ outs) ∧ sent outs = [Packet.bytes r] ∧
      Answers p.address.toNat k r (Spec.Event.encode e) ∧ q.eventQueue = rest ∧ Listening q := by
  have hne : eventReply e ≠ Id.ACK := by
    cases e with
    | cardread c => rcases hv.1 with h | h <;> (unfold eventReply; dsimp only; rw [h]; decide)
    | keypress => show Id.KEYPAD ≠ _; decide
    | mfgrep => show Id.MFGREP ≠ _; decide
    | status s =>
      obtain ⟨ty, m, n⟩ := s
      cases ty with
      | other => exact hv.elim
      | _ => first | (show Id.ISTATR ≠ _; decide) | (show Id.OSTATR ≠ _; decide) | (show Id.LSTATR ≠ _; decide) | (show Id.RSTATR ≠ _; decide)
    | notification => exact hv.elim
    | bad => exact hv.elim
  have hhs : Phy.inHandshake true (eventReply e) = false := by
    have := event_replies e
    revert this
    generalize eventReply e = x
    intro h
    have : x ∈ [0x40, 0x48, 0x49, 0x4A, 0x4B, 0x50, 0x53, 0x90] := h
    simp at this
    rcases this with rfl | rfl | rfl | rfl | rfl | rfl | rfl | rfl <;> rfl
  have hlen := encode_length _ _ _ hv
  obtain ⟨h, q0, o, b, rb, q, hh, P, ⟨rfl, rfl, rfl, rfl⟩, hS, hI, hrun, ⟨r, hr, hr'⟩, hn⟩ :=
    exchange (fun h q o b rb => q = { noteCmd (accepted p k h) 0x60#8 with eventQueue := rest, eph := .event e, replyId := eventReply e } ∧
        o = [] ∧ b = ⟨unbc q, replyTx q, [], .ok rb⟩ ∧ rb = Spec.Event.encode e)
      C p k env 0x60#8 [] hl hk ha hs hscb hd hcap (by
        intro h hh
        obtain ⟨f1, f2, f3⟩ := accepted_fields k h hl
        refine ⟨?_, _, _, _, _, ?_, rfl, rfl, rfl, rfl⟩
        · unfold plainRefused
          show (p.flags.enforceSecure && _ && _ && _ && _ && _) = false
          rw [hsec]; rfl
        · have htx' : 141 ≤ ({ noteCmd (accepted p k h) 0x60#8 with eventQueue := rest, eph := .event e, replyId := eventReply e } : Pd).txBufSize := htx
          refine ⟨.inl ?_, rfl, rfl, rfl, rfl, rfl, Nat.le_trans (by decide) htx', hhs, ?_, ?_, rfl, rfl, rfl, rfl, rfl, rfl, rfl, rfl, ?_, ?_⟩
          · have hd : dispatch (noteCmd (accepted p k h) 0x60#8) env [] =
                reply (pollEvent (noteCmd (accepted p k h) 0x60#8)) (pollEvent (noteCmd (accepted p k h) 0x60#8)).replyId := rfl
            rw [hd]
            have hpe : pollEvent (noteCmd (accepted p k h) 0x60#8) =
                { noteCmd (accepted p k h) 0x60#8 with eventQueue := rest, eph := .event e, replyId := eventReply e } := by
              unfold pollEvent
              have : (noteCmd (accepted p k h) 0x60#8).eventQueue = e :: rest := he
              rw [this]
              dsimp only
              rw [if_neg hne]
            rw [hpe]
            rfl
          · rintro ⟨h, -⟩; exact absurd (show Id.POLL = Id.KEYSET from h) (by decide)
          · intro n hn hn'
            refine event_built C _ env _ n e hv rfl rfl ?_
            have := dataOff_plain ({ noteCmd (accepted p k h) 0x60#8 with eventQueue := rest, eph := .event e, replyId := eventReply e } : Pd) f2 hhs
            omega
          · cases e with
            | notification => exact hv.elim
            | bad => exact hv.elim
            | _ => simp [Spec.Event.encode]
          · have := plainReply_length ({ noteCmd (accepted p k h) 0x60#8 with eventQueue := rest, eph := .event e, replyId := eventReply e } : Pd)
              (Spec.Event.encode e)
            omega)
  refine ⟨_, _, r, hrun, fun c hc => hn c hc, hr', hr, ?_, ⟨?_, hI, ?_, ?_, ?_⟩⟩
  · show q.eventQueue = _
    rw [hS.buf]; rfl
  · show q.flags.pdMode = _
    rw [hS.buf]; exact hl.pd
  · show q.flags.scActive = _
    rw [hS.buf]
    exact (accepted_fields k h hl).2.1
  · show q.flags.broadcast = _
    rw [hS.buf]; rfl
  · show 0 ≤ q.address ∧ q.address ≤ 127
    rw [hS.buf]
    exact hl.addr

/-! ### what the code does not guarantee -/

/-- a card read of 26 bits -/
def card26 : Event := .cardread ⟨0, .rawWiegand, 0, 26, .padTo 64 [0x12#8, 0x34#8, 0x56#8, 0x40#8]⟩
/-- a key press -/
def keys : Event := .keypress ⟨0, 2, .padTo 64 [0x31#8, 0x32#8]⟩
/-- a card read in ASCII, which include/osdp.h lists as a format -/
def ascii : Event := .cardread ⟨0, .ascii, 0, 3, .padTo 64 [0x41#8, 0x42#8, 0x43#8]⟩
/-- a status report with a number of inputs the PD does not have -/
def odd : Event := .status ⟨.input, 200, 0⟩

/-- Non-vacuity: two events, two POLLs. -/
example : ((run Aes.aes Sample.pd [.notify card26, .notify keys, .refresh (Sample.env Sample.poll),
      .refresh (Sample.env (Sample.cmd 1#8 [0x60#8]))]).toOption.map fun r =>
    decide (r.1.eventQueue = [] ∧ (sent r.2).map (fun b => (b.drop 6).take 5) =
      [[0x50#8, 0#8, 1#8, 26#8, 0#8], [0x53#8, 0#8, 2#8, 0x31#8, 0x32#8]])) = some true ∧
    Spec.Event.Valid (ins Sample.pd) (outsN Sample.pd) card26 := by
  refine ⟨by decide +kernel, .inr rfl, by decide, by decide, by decide, by decide⟩

/-- Accepted but never sent: an event in a format the library does not translate is taken from the queue by a POLL and
the reply is a plain ACK. -/
theorem C39_untranslated_event_dropped :
    (notifyEvent Sample.pd ascii).2 = 0 ∧
    ((run Aes.aes Sample.pd [.notify ascii, .refresh (Sample.env Sample.poll)]).toOption.map fun r =>
      decide (r.1.eventQueue = [] ∧ (sent r.2).map (fun b => (b.length, b[6]?)) = [(9, some 0x40#8)])) = some true := by
  decide +kernel

/-- Accepted but never sent: an event whose reply cannot be built is replaced by NAK(record) and lost. -/
theorem C39_unbuildable_event_dropped :
    (notifyEvent Sample.pd odd).2 = 0 ∧
    ((run Aes.aes Sample.pd [.notify odd, .refresh (Sample.env Sample.poll)]).toOption.map fun r =>
      decide (r.1.eventQueue = [] ∧ (sent r.2).map (fun b => (b.drop 6).take 2) = [[0x41#8, 9#8]])) = some true := by
  decide +kernel

/-- A POLL that the CP repeats because it did not get the reply (same sequence number) is answered with the next
event: the event in the lost reply is lost. -/
theorem C39_repeated_poll_takes_next :
    ((run Aes.aes Sample.pd [.notify card26, .notify keys, .refresh (Sample.env Sample.poll),
      .refresh (Sample.env Sample.poll)]).toOption.map fun r =>
    decide (r.1.eventQueue = [] ∧ (sent r.2).map (fun b => (b.drop 6).take 1) = [[0x50#8], [0x53#8]])) = some true := by
  decide +kernel

/-- The packet cannot be handed to the line (nothing accepted by the transport): the event is lost. -/
theorem C39_failed_send_loses_event :
    ((run Aes.aes Sample.pd [.notify card26, .refresh { Sample.env Sample.poll with sendCap := 0 }]).toOption.map fun r =>
      decide (r.1.eventQueue = [])) = some true := by
  decide +kernel

end Osdp.PdM
