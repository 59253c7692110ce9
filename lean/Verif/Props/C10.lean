import Verif.Lemmas.CpResend
import Verif.Lemmas.CpTurn
import Verif.Lemmas.SampleCp
import Verif.Spec.Seq
import Verif.Props.C15
import Verif.Props.C12

/-!
# C10: CP sequence numbers are 0 then cycle 1, 2, 3

Full statement: after (re)start of communication the CP's first command carries sequence number 0; each further new command
carries the successor in the cycle 1, 2, 3; 0 is never used again until a restart.
-/

namespace Osdp.CpM

open Spec.Wire

/-- Bookkeeping of sequence numbers, from outside: the number of the last packet (-1 for none since the last restart), and
whether the PD asked for its repetition. -/
structure Numbering where
  last : Int
  again : Bool

/-- the number the next packet has to carry -/
def Numbering.due (n : Numbering) : Int := if n.again then n.last else Spec.Seq.succ n.last

/-- the PD's answer to the packet is BUSY, outside the sequence -/
def busyAt (p : Pd) (env : Env) : Bool := p.phyState == .replyWait && match Phy.checkPacket p env with
  | .ok (_, .busy) => true
  | _ => false

def busyHeard (p : Pd) : Op → Bool
  | .update _ env => busyAt p env
  | _ => false

/-- communication is (re)started: the PD is to be identified, or a new session is to be opened after a change of its key -/
def Restarts (p q : Pd) : Prop :=
  (q.state = .init ∧ p.state ≠ .init) ∨ (p.state = .online ∧ q.state = .scChlng ∧ q.cmdId = Id.KEYSET)

instance (p q : Pd) : Decidable (Restarts p q) := by unfold Restarts; infer_instance

/-- the bookkeeping of one step: communication is (re)started, a packet is sent, BUSY is heard -/
def Numbering.after (n : Numbering) (p : Pd) (op : Op) (q : Pd) (o : List Out) : Numbering :=
  if Restarts p q then ⟨-1, false⟩
  else if sent o ≠ [] then ⟨n.due, false⟩
  else if busyHeard p op then ⟨n.last, true⟩
  else n

/-- the bookkeeping of a history -/
def Numbering.over (C : Cipher) (n : Numbering) (p : Pd) : List Op → Numbering
  | [] => n
  | op :: ops => match CpM.step C p op with
    | .ok (q, o) => (n.after p op q o).over C q ops
    | .error _ => n

/-- an attempt to send a handshake command (CHLNG, SCRYPT, or the KEYSET of install mode) fails -/
def Fails (p : Pd) (op : Op) (q : Pd) : Prop :=
  (p.state = .scChlng ∨ p.state = .scScrypt ∨ p.state = .setScbk) ∧ q.phyState ≠ .replyWait ∧ match op with
    | .update _ env => MaySend p env
    | _ => False

instance (p : Pd) (op : Op) (q : Pd) : Decidable (Fails p op q) := by
  unfold Fails MaySend; cases op <;> infer_instance

/-- no attempt to send a handshake command fails -/
def clean (C : Cipher) (p : Pd) : List Op → Bool
  | [] => true
  | op :: ops => match CpM.step C p op with
    | .ok (q, _) => !decide (Fails p op q) && clean C q ops
    | .error _ => true

theorem advance_seq {cb : Bool} {p q : Pd} {env : Env} {ok : Bool} {outs : List Out} (hr : p.reqRestartSc = true → p.state = .online)
    (h : advance cb p env p.state ok = .ok (q, outs)) : q.cmdId = p.cmdId ∧
    (q.state = .offline ∨
      (p.reqRestartSc = false ∧ q.seq = p.seq ∧ q.retryCount = p.retryCount ∧ ¬ (q.state = .init ∧ p.state ≠ .init)) ∨
      (p.reqRestartSc = false ∧ q.seq = -1 ∧ q.retryCount = 0 ∧ q.state = .init ∧ p.state ≠ .init) ∨
      (p.reqRestartSc = true ∧ q.seq = -1 ∧ q.retryCount = 0 ∧ q.state = .scChlng)) := by
  refine ⟨(advance_drift h).2.2.1, ?_⟩
  cases advance_inv h with
  | mk h1 h2 =>
  rename_i p1 p2 o1 o2 n1 n2
  have d1 : p1.state = p.state ∧ p1.seq = p.seq ∧ p1.retryCount = p.retryCount ∧ p1.reqRestartSc = p.reqRestartSc := by
    cases ok with
    | true => obtain ⟨-, a, b, c, -⟩ := nextOk_drift h1; exact ⟨a, b, c, (nextOk_state h1).2⟩
    | false => obtain ⟨-, a, b, c, -⟩ := nextErr_drift h1; exact ⟨a, b, c, (nextErr_state h1).2⟩
  obtain ⟨a1, b1, c1, e1⟩ := d1
  cases hrr : p.reqRestartSc with
  | true =>
    have hon := hr hrr
    rcases requests_inv h2 with ⟨hn, -⟩ | ⟨-, rfl, hm, -⟩
    · exact absurd (.inl (a1.trans hon)) hn
    · rw [e1, hrr] at hm
      have hs : (afterRequests p1).seq = -1 ∧ (afterRequests p1).retryCount = 0 := by
        unfold afterRequests; rw [e1, hrr]; exact ⟨rfl, rfl⟩
      obtain ⟨-, s1, s2, -⟩ := stateChange_drift cb (afterRequests p1) env n2
      by_cases ho : p1.reqOffline = true
      · rw [if_pos ho] at hm
        subst hm
        rw [if_pos (by rw [hon]; simp)]
        exact .inl s1
      · rw [if_neg ho, if_pos rfl] at hm
        subst hm
        rw [if_pos (by rw [hon]; simp)]
        refine .inr (.inr (.inr ⟨rfl, ?_, ?_, s1⟩))
        · rcases s2 with h | ⟨-, -, h⟩
          · rw [h.1, hs.1]
          · cases h
        · rcases s2 with h | ⟨-, -, h⟩
          · rw [h.2, hs.2]
          · cases h
  | false =>
    obtain ⟨-, a2, b2, -⟩ := requests_drift h2
    have b2' : p2.seq = p1.seq ∧ p2.retryCount = p1.retryCount := by
      rcases b2 with h | ⟨-, -, h⟩
      · exact h
      · rw [e1, hrr] at h; cases h
    split
    · rename_i hn
      cases n2 with
      | init => exact .inr (.inr (.inl ⟨rfl, rfl, rfl, rfl, hn⟩))
      | _ =>
        obtain ⟨-, s1, s2, -⟩ := stateChange_drift cb p2 env _
        refine .inr (.inl ⟨rfl, ?_, ?_, fun h => by rw [s1] at h; cases h.1⟩)
        · rcases s2 with h | ⟨-, -, h⟩
          · rw [h.1, b2'.1, b1]
          · cases h
        · rcases s2 with h | ⟨-, -, h⟩
          · rw [h.2, b2'.2, c1]
          · cases h
    · exact .inr (.inl ⟨rfl, b2'.1.trans b1, b2'.2.trans c1, fun h => h.2 ((a2.trans a1).symm.trans h.1)⟩)

/-- the CP's counter and the bookkeeping agree -/
def Agrees (p : Pd) (n : Numbering) : Prop :=
  p.state = .offline ∨ (Phy.nextSeq p.seq true = n.due ∧ (p.phyState = .replyWait → p.seq = n.last))

theorem succ_next (s : Int) : Phy.nextSeq s true = Spec.Seq.succ s := by
  unfold Phy.nextSeq Spec.Seq.succ
  simp only [if_true]
  split <;> split <;> omega

/-- an exchange ends, or there is none -/
theorem settle_seq {cb : Bool} {p q : Pd} {env : Env} {outs : List Out} (M : Mid p) (h : settle cb p env = .ok (q, outs)) :
    q.state = .offline ∨ (q.seq = -1 ∧ q.retryCount = 0 ∧ Restarts p q) ∨
      (q.seq = p.seq ∧ q.retryCount = p.retryCount ∧ ¬ Restarts p q ∧
        (p.phyState = .err → p.state = .scChlng ∨ p.state = .scScrypt ∨ p.state = .setScbk)) := by
  cases settle_inv h with
  | command hps h1 hid =>
    obtain ⟨hc, -⟩ := stateGetCmd_inv h1
    unfold Chosen at hc
    refine .inr (.inr ⟨by rw [hc], by rw [hc], ?_, fun h => by rw [hps] at h; cases h⟩)
    rintro (h | h)
    · rw [hc] at h; exact h.2 h.1
    · rw [hc] at h; have := h.1.symm.trans h.2.1; cases this
  | nothing hps h1 h2 =>
    rename_i p1 o1 o2
    have P := nothing_pre M hps h1
    obtain ⟨hc, -⟩ := stateGetCmd_inv h1
    unfold Chosen at hc
    have hst : p1.state = p.state := by rw [hc]
    have hr : p1.reqRestartSc = false := by rw [hc]; exact M.restart
    obtain ⟨hid, hh⟩ := advance_seq (p := { p1 with cmdId := 0 }) (fun h => (P.restart h).1) h2
    have hk : ¬ (q.cmdId = Id.KEYSET) := by rw [hid]; exact show ¬ (0 = Id.KEYSET) by decide
    rcases hh with h | ⟨-, a, b, c⟩ | ⟨-, a, b, c, d⟩ | ⟨a, -⟩
    · exact .inl h
    · refine .inr (.inr ⟨by rw [a]; show p1.seq = _; rw [hc], by rw [b]; show p1.retryCount = _; rw [hc], ?_, fun h => by rw [hps] at h; cases h⟩)
      rintro (h | h)
      · exact c ⟨h.1, by show p1.state ≠ _; rw [hst]; exact h.2⟩
      · exact hk h.2.2
    · exact .inr (.inl ⟨a, b, .inl ⟨c, by rw [← hst]; exact d⟩⟩)
    · have := hr.symm.trans a; cases this
  | over hps h1 h2 =>
    rename_i p1 o1 o2 ok
    have P := over_pre M h1
    obtain ⟨hv, hj⟩ := stateCheckReply_inv h1
    have hs : p1.state = p.state ∧ p1.seq = p.seq ∧ p1.cmdId = p.cmdId ∧ p1.retryCount = p.retryCount := by
      rcases hj with ⟨rfl, -⟩ | ⟨-, -, -, h⟩
      · exact ⟨rfl, rfl, rfl, rfl⟩
      · obtain ⟨k, -, rfl, -⟩ := keysetComplete_inv h; exact ⟨rfl, rfl, rfl, rfl⟩
    obtain ⟨hid, hh⟩ := advance_seq (p := (Phy.stateReset p1 false).1) (fun h => (P.restart h).1) h2
    have hfs := advance_state (p := (Phy.stateReset p1 false).1) h2
    rcases hj with ⟨rfl, -, hn⟩ | ⟨hon, ha, hk, h⟩
    · have hr := M.restart
      have hbad : (p1.phyState == .done && ok) = false →
          (p1.state = .scChlng ∨ p1.state = .scScrypt ∨ p1.state = .setScbk) ∨ q.state = .offline := by
        intro h0
        rw [h0] at hfs
        have hpr := M.probe
        have key : ∀ r : Pd, r.state = p1.state → r.reqRestartSc = false →
            (p1.state = .scChlng ∨ p1.state = .scScrypt ∨ p1.state = .setScbk) ∨ finalState r env.now false = .offline := by
          intro r hrs hrr
          unfold finalState nextState
          rw [hrs, hrr]
          cases hs : p1.state with
          | probe => exact absurd hs hpr
          | _ => simp
        rw [hfs]
        exact key _ rfl hr
      rcases hh with h | ⟨-, a, b, c⟩ | ⟨-, a, b, c, d⟩ | ⟨a, -⟩
      · exact .inl h
      · by_cases hqo : q.state = .offline
        · exact .inl hqo
        refine .inr (.inr ⟨a, b, ?_, fun h => ?_⟩)
        · rintro (h | ⟨h, h', hk⟩)
          · exact c h
          · have hk' : p1.cmdId = Id.KEYSET := hid.symm.trans hk
            have hv0 : ok = false := by
              rw [hv]; unfold verdict; rw [h]; dsimp only
              split
              · rename_i ha; exact absurd ⟨h, ha, hk'⟩ hn
              · split
                · rfl
                · unfold expectedReply; rw [hk']; simp [Id.KEYSET, Id.POLL, Id.FILETRANSFER, Id.COMSET, Id.MFG, Id.LSTAT, Id.ISTAT, Id.OSTAT, Id.RSTAT]
            rcases hbad (by rw [hv0]; simp) with (h1 | h1 | h1) | h1
            · rw [h] at h1; cases h1
            · rw [h] at h1; cases h1
            · rw [h] at h1; cases h1
            · exact hqo h1
        · rcases hbad (by rw [h]; rfl) with h1 | h1
          · exact h1
          · exact absurd h1 hqo
      · exact .inr (.inl ⟨a, b, .inl ⟨c, d⟩⟩)
      · have := hr.symm.trans a; cases this
    · obtain ⟨k, -, hq, -⟩ := keysetComplete_inv h
      have hr : (Phy.stateReset p1 false).1.reqRestartSc = true := by rw [hq]; simp [Phy.stateReset, hon]
      rcases hh with h | ⟨a, -⟩ | ⟨a, -⟩ | ⟨-, a, b, c⟩
      · exact .inl h
      · rw [hr] at a; cases a
      · rw [hr] at a; cases a
      · exact .inr (.inl ⟨a, b, .inr ⟨hon, c, hid.trans (hs.2.2.1.trans hk)⟩⟩)

theorem same_state {p q : Pd} (h : q.state = p.state) : ¬ Restarts p q := by
  rintro (h' | h')
  · exact h'.2 (h.symm.trans h'.1)
  · rw [h, h'.1] at h'; cases h'.2.1

/-- from the offline state, the PD is to be identified anew, or nothing happens -/
theorem Offline.next {cb : Bool} {p q : Pd} {env : Env} {outs : List Out} (M : Mid p) (hs : p.state = .offline)
    (h : settle cb p env = .ok (q, outs)) : q.state = .init ∨ q.state = .offline := by
  rcases settle_pre M h with ⟨-, h2, -⟩ | ⟨p2, _, _, ok, -, h2, -, h4, -⟩
  · exact .inr (h2.trans hs)
  · have hfs := advance_state h4
    unfold finalState nextState at hfs
    rw [h2.trans hs] at hfs
    rw [hfs]
    cases ok with
    | true =>
      dsimp only
      by_cases hw : env.now - p2.tstamp > p2.waitMs
      · rw [if_pos hw]; simp
      · rw [if_neg hw]; simp
    | false => simp

theorem agrees_step {C : Cipher} {p q : Pd} {op : Op} {o : List Out} {n : Numbering} (I : Inv p) (A : Agrees p n)
    (h : step C p op = .ok (q, o)) (hf : ¬ Fails p op q) : Agrees q (n.after p op q o) := by
  by_cases hu : ∀ cb env, op ≠ .update cb env
  · obtain ⟨h1, h2, h3, h4, -⟩ := step_api h hu
    have hb : busyHeard p op = false := by
      cases op with
      | update cb env => exact absurd rfl (hu cb env)
      | _ => rfl
    unfold Numbering.after
    rw [if_neg (same_state h2), if_neg (by rw [h1]; simp), hb]
    unfold Agrees
    rw [h2, h3, h4]
    exact A
  obtain ⟨cb, env, rfl⟩ : ∃ cb env, op = .update cb env :=
    Classical.byContradiction fun hn => hu fun cb env he => hn ⟨cb, env, he⟩
  obtain ⟨⟨s1, o2, y⟩, hu', h1⟩ := Res.bind_eq_ok.mp h
  clear h
  injection h1 with h1; injection h1 with e1 e2; subst e1 e2
  have quiet : p.phyState ≠ .replyWait → busyHeard p (.update cb env) = false := by
    intro h; show busyAt p env = false; unfold busyAt; simp [h]
  have settles : ∀ {p1 q : Pd} {o1 o2 : List Out}, Mid p1 → p1.state = p.state → p1.seq = p.seq → settle cb p1 env = .ok (q, o2) →
      sent o1 = [] → busyHeard p (.update cb env) = false → Agrees q (n.after p (.update cb env) q (o1 ++ o2)) := by
    intro p1 q o1 o2 M hst hsq hse hso hb
    have hps := (settled M hse).2
    have hnw : q.phyState ≠ .replyWait := by rcases hps with h | h <;> rw [h] <;> simp
    have hsr : Restarts p1 q ↔ Restarts p q := by unfold Restarts; rw [hst]
    rcases settle_seq M hse with h | ⟨a, -, b⟩ | ⟨a, -, b, -⟩
    · exact .inl h
    · unfold Numbering.after
      rw [if_pos (hsr.mp b)]
      exact .inr ⟨by rw [a]; rfl, fun h => absurd h hnw⟩
    · unfold Numbering.after
      rw [if_neg (fun h => b (hsr.mpr h)), if_neg (by rw [sent_append, hso, settle_sent hse]; simp), hb]
      rcases A with h | ⟨h, -⟩
      · by_cases hqs : q.state = .offline
        · exact .inl hqs
        · exfalso
          rcases Offline.next M (hst.trans h) hse with h' | h'
          · exact b (.inl ⟨h', by rw [hst, h]; simp⟩)
          · exact hqs h'
      · exact .inr ⟨by rw [a, hsq]; exact h, fun h => absurd h hnw⟩
  have same : ∀ {q : Pd} {o : List Out} {n' : Numbering}, q.state = p.state → sent o = [] →
      (if busyHeard p (.update cb env) then ⟨n.last, true⟩ else n) = n' →
      n.after p (.update cb env) q o = n' := by
    intro q o n' h1 h2 h3
    unfold Numbering.after
    rw [if_neg (same_state h1), if_neg (by rw [h2]; simp)]
    exact h3
  have heard : ∀ {q : Pd} {o : List Out} {rc : CpErr}, p.phyState = .replyWait → Reply C p env q o rc →
      (q.seq = p.seq ∧ busyHeard p (.update cb env) = false) ∨
      (q.seq = p.seq - 1 ∧ rc = .retryCmd ∧ busyHeard p (.update cb env) = true) := by
    intro q o rc hps hr
    have hs := hr.seqNo I.cp
    show (_ ∧ busyAt p env = false) ∨ (_ ∧ _ ∧ busyAt p env = true)
    unfold busyAt
    rw [hps]
    cases hr with
    | nothing h hc hr => refine .inl ⟨hc.seq, ?_⟩; rw [h]; rcases hr with rfl | rfl <;> rfl
    | bad h hc hr => refine .inl ⟨hc.seq, ?_⟩; rw [h]; rcases hr with rfl | rfl | rfl <;> rfl
    | busy h hc => refine .inr ⟨(hc.cp I.cp).1, rfl, ?_⟩; rw [h]; rfl
    | seq h hc =>
      refine .inl ⟨?_, by rw [h]; rfl⟩
      rcases hs with h | ⟨-, h, -⟩
      · exact h
      · cases h
    | refused h hc _ _ _ =>
      refine .inl ⟨?_, by rw [h]; rfl⟩
      rcases hs with h | ⟨-, h, -⟩
      · exact h
      · cases h
    | reply h _ _ _ _ _ _ _ _ _ =>
      refine .inl ⟨?_, by rw [h]; rfl⟩
      rcases hs with h' | ⟨-, -, -, h'⟩
      · exact h'
      · rw [h] at h'; injection h' with h'; injection h' with _ h'; cases h'
  have hlo := I.lo
  have hhi := I.hi
  cases stateUpdate_inv I.cp hu' with
  | hold h _ => rw [same (n' := n) rfl rfl (by rw [quiet (by simp [h])]; rfl)]; exact A
  | sent hm h =>
    rename_i p1
    have hst : p1.state = p.state := h.sent.keeps.1
    rcases h.packet hlo hhi with ⟨-, h⟩ | ⟨k, -, h2, -, h3⟩
    · cases h
    · unfold Numbering.after
      rw [if_neg (same_state (q := sentState p1 env.now) hst), if_pos (by rw [h2]; simp)]
      rcases A with h | ⟨h, -⟩
      · exact .inl (hst.trans h)
      · refine .inr ⟨?_, fun _ => ?_⟩
        · show Phy.nextSeq p1.seq true = Spec.Seq.succ n.due
          rw [h3, h, succ_next]
        · exact h3.trans h
  | @unsent p1 q1 o1 o3 hm h hse =>
    have hst : p1.state = p.state := h.sent.keeps.1
    have M := unsent_mid I h
    have hps := (settled M hse).2
    have hnw : s1.phyState ≠ .replyWait := by rcases hps with h | h <;> rw [h] <;> simp
    rcases settle_seq M hse with h | ⟨a, -, b⟩ | ⟨-, -, -, b⟩
    · exact .inl h
    · unfold Numbering.after
      rw [if_pos (by unfold Restarts at b ⊢; rw [← hst]; exact b)]
      exact .inr ⟨by rw [a]; rfl, fun h => absurd h hnw⟩
    · exact absurd ⟨by rw [← hst]; exact b rfl, hnw, hm⟩ hf
  | replied hps hw hrc hse =>
    have M := waited_mid I hps hw
    have hst := hw.state.1
    cases hw with
    | answered h =>
      rcases heard hps h with ⟨a, b⟩ | ⟨-, b, -⟩
      · exact settles M hst a hse ((fclose_sent h.outs)) b
      · cases b
    | ignored h _ _ =>
      rcases heard hps h with ⟨a, b⟩ | ⟨-, b, -⟩
      · exact settles M hst a hse ((fclose_sent h.outs)) b
      · cases b
    | failed h hr =>
      rcases heard hps h with ⟨a, b⟩ | ⟨-, b, -⟩
      · exact settles M hst a hse ((fclose_sent h.outs)) b
      · rw [b] at hr; simp at hr
    | exhausted h _ _ =>
      rcases heard hps h with ⟨a, b⟩ | ⟨-, b, -⟩
      · exact settles M hst a hse ((fclose_sent h.outs)) b
      · cases b
    | busy _ => simp at hrc
    | retry _ _ _ => simp at hrc
    | waiting _ _ => simp at hrc
  | again hps hw =>
    have hst := hw.state.1
    have hout := fclose_sent hw.outs
    cases hw with
    | busy h =>
      rename_i q1
      rcases heard hps h with ⟨a, b⟩ | ⟨a, -, b⟩
      · rw [same (n' := n) hst hout (by rw [b]; rfl)]
        rcases A with h | ⟨h, -⟩
        · exact .inl (hst.trans h)
        · exact .inr ⟨by show Phy.nextSeq q1.seq true = _; rw [a]; exact h, fun h => by cases h⟩
      · rw [same (n' := ⟨n.last, true⟩) hst hout (by rw [b]; rfl)]
        rcases A with h | ⟨h, h'⟩
        · exact .inl (hst.trans h)
        · refine .inr ⟨?_, fun h => by cases h⟩
          show Phy.nextSeq q1.seq true = n.last
          rw [a, ← h' hps]
          unfold Phy.nextSeq
          simp only [if_true]
          split <;> omega
    | @retry q1 _ h _ _ =>
      rcases heard hps h with ⟨a, b⟩ | ⟨a, b, -⟩
      · rw [same (n' := n) hst hout (by rw [b]; rfl)]
        rcases A with h | ⟨h, -⟩
        · exact .inl (hst.trans h)
        · exact .inr ⟨by show Phy.nextSeq q1.seq true = _; rw [a]; exact h, fun h => by cases h⟩
      · cases b
  | waiting hps hw =>
    have hst := hw.state.1
    have hout := fclose_sent hw.outs
    cases hw with
    | waiting h _ =>
      rcases heard hps h with ⟨a, b⟩ | ⟨a, b, -⟩
      · rw [same (n' := n) hst hout (by rw [b]; rfl)]
        unfold Agrees
        rw [hst, a]
        rcases A with h | ⟨h, h'⟩
        · exact .inl h
        · exact .inr ⟨h, fun _ => h' hps⟩
      · cases b
  | idle hps hse =>
    have := settles (o1 := []) I.mid rfl rfl hse rfl (quiet (by rcases hps with h | h | h <;> rw [h] <;> simp))
    exact this

theorem agrees_run {C : Cipher} {ops : List Op} {p q : Pd} {o : List Out} {n : Numbering} (I : Inv p) (A : Agrees p n)
    (hc : clean C p ops = true) (h : run C p ops = .ok (q, o)) : Inv q ∧ Agrees q (n.over C p ops) := by
  induction ops generalizing p o n with
  | nil =>
    injection h with h; injection h with e1 e2; subst e1
    exact ⟨I, A⟩
  | cons op ops ih =>
    obtain ⟨⟨p1, o1⟩, h1, h⟩ := Res.bind_eq_ok.mp h
    obtain ⟨⟨p2, o2⟩, h2, h⟩ := Res.bind_eq_ok.mp h
    injection h with h; injection h with e1 e2; subst e1 e2
    unfold clean at hc
    unfold Numbering.over
    rw [h1] at hc ⊢
    simp only [Bool.and_eq_true, Bool.not_eq_true', decide_eq_false_iff_not] at hc
    exact ih (I.step h1) (agrees_step I A h1 hc.1) hc.2 h2

/-- **C10, except after a handshake command that could not be sent**: in every history, from the set up of the CP on, in
which every attempt to send CHLNG, SCRYPT or the KEYSET of install mode succeeds, a packet carries the number due: 0 at the
(re)start of communication, afterwards the successor in the cycle 1, 2, 3, and the same number again only on request (BUSY). -/
theorem C10_partial {C : Cipher} {info : PdM.Info} {i : Nat} {sk : Bool} {m : Nat} {p0 p q : Pd} {ops : List Op} {op : Op}
    {o o' : List Out} (hn : newPd info i sk m = some p0) (hr : run C p0 ops = .ok (p, o)) (hc : clean C p0 ops = true)
    (hs : step C p op = .ok (q, o')) : sent o' = [] ∨ ∃ (k : Packet) (cb : Bool) (env : Env), op = .update cb env ∧ sent o' = [k.bytes.take env.sendCap] ∧
      (k.seq : Int) = (Numbering.over C ⟨-1, false⟩ p0 ops).due := by
  have N := newPd_inv hn
  have A0 : Agrees p0 ⟨-1, false⟩ := by
    refine .inr ⟨by rw [N.2.1]; rfl, fun h => ?_⟩
    rw [N.2.2.1] at h; cases h
  obtain ⟨I, A⟩ := agrees_run N.1 A0 hc hr
  by_cases hu : ∀ cb env, op ≠ .update cb env
  · exact .inl (by rw [(step_api hs hu).1])
  obtain ⟨cb, env, rfl⟩ : ∃ cb env, op = .update cb env :=
    Classical.byContradiction fun hn => hu fun cb env he => hn ⟨cb, env, he⟩
  obtain ⟨⟨s1, o2, y⟩, hu', h1⟩ := Res.bind_eq_ok.mp hs
  clear hs
  injection h1 with h1; injection h1 with e1 e2; subst e1 e2
  rcases (stateUpdate_inv I.cp hu').packet I with h | ⟨hm, k, hk, hs, -⟩
  · exact .inl h
  · refine .inr ⟨k, cb, env, rfl, hs, ?_⟩
    rw [hk.seq]
    rcases A with h | ⟨h, -⟩
    · exfalso
      have := I.cmd (by rcases hm with h | ⟨h, -⟩ <;> rw [h] <;> simp)
      rw [h] at this
      exact this
    · exact h

/-- 0 is due only if no packet was sent since the (re)start, or if the packet numbered 0 is to be repeated -/
theorem C10_zero {n : Numbering} (h : n.due = 0) : n.again = false ∧ n.last = -1 ∨ n.again = true ∧ n.last = 0 := by
  unfold Numbering.due Spec.Seq.succ at h
  cases ha : n.again with
  | true => rw [ha] at h; exact .inr ⟨rfl, h⟩
  | false =>
    rw [ha] at h
    refine .inl ⟨rfl, ?_⟩
    simp only [Bool.false_eq_true, if_false] at h
    split at h <;> omega

/-- seven packets, the third repeated on request -/
def counted : List Op :=
  polling ++ [Sample.hears [] 100, Sample.hears (busyReply 0).bytes 150, Sample.hears [] 950, Sample.hears (Sample.reply 2 [0x40]) 970] ++
    Sample.asks (Sample.reply 3 [0x40]) 1100 ++ Sample.asks (Sample.reply 1 [0x40]) 1200 ++ Sample.asks (Sample.reply 2 [0x40]) 1300

example : ∃ q o, run xorCipher Sample.cp counted = .ok (q, o) ∧ clean xorCipher Sample.cp counted = true ∧
    (sent o).map (fun (b : List Byte) => (b.getD 5 0) &&& 3#8) = [0, 1, 2, 2, 3, 1, 2] ∧
    (Numbering.over xorCipher ⟨-1, false⟩ Sample.cp counted).due = 3 := by
  obtain ⟨q, o, h, hp⟩ := Sample.ran (C := xorCipher) (p := Sample.cp) (ops := counted)
    (fun _ o => (sent o).map (fun (b : List Byte) => (b.getD 5 0) &&& 3#8) == [0, 1, 2, 2, 3, 1, 2]) (by decide +kernel)
  exact ⟨q, o, h, by decide +kernel, by simpa using hp, by decide +kernel⟩

/-- the PD can do secure channels; the first CHLNG cannot be written to the line -/
def dropped : List Op :=
  Sample.meets [9, 1, 1] ++ [Sample.hears [] 10, .update true { now := 20, sendCap := 0, random := Sample.rndA }, Sample.hears [] 30, Sample.hears [] 40]

/-- **C10 fails when a handshake command cannot be sent**: the number is lost, and the PD hears 0, 1, 3. -/
theorem C10_skip : ∃ q o, run xorCipher Sample.cp dropped = .ok (q, o) ∧
    ((sent o).filter (· ≠ [])).map (fun (b : List Byte) => ((b.getD 5 0) &&& 3#8, b.drop 6 |>.take 3)) = [(0, [0x61, 0, 0xD9]), (1, [0x62, 0, 0xBA]), (3, [3, 0x11, 0])] := by
  obtain ⟨q, o, h, hp⟩ := Sample.ran (C := xorCipher) (p := Sample.cp) (ops := dropped)
    (fun _ o => ((sent o).filter (· ≠ [])).map (fun (b : List Byte) => ((b.getD 5 0) &&& 3#8, b.drop 6 |>.take 3)) == [(0, [0x61, 0, 0xD9]), (1, [0x62, 0, 0xBA]), (3, [3, 0x11, 0])]) (by decide +kernel)
  exact ⟨q, o, h, by simpa using hp⟩

end Osdp.CpM
