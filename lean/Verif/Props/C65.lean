import Verif.Lemmas.Pause
import Verif.Lemmas.PdReach
import Verif.Props.C36

/-!
# C65: a pause on the line puts the receiver of a PD back in order
-/

namespace Osdp.PdM

open Spec.Wire
open Phy (Framed Idle pend Arrives pktAddr)

/-- a call of `osdp_pd_refresh` -/
def Op.visit : Op → Option Env
  | .refresh env => some env
  | _ => none

/-- the calls of `osdp_pd_refresh` in a history -/
def visits (ops : List Op) : List Env := ops.filterMap Op.visit

/-- nothing arrives, and 200 ms have passed since time `t` -/
def Pause (t : Int) (ops : List Op) : Prop := ∀ env ∈ visits ops, env.recv = [] ∧ t + 200 ≤ env.now

theorem step_other {C : Cipher} {p q : Pd} {op : Op} {outs : List Out} (hn : op.visit = none)
    (h : step C p op = .ok (q, outs)) : Kept p q ∧ q.tstamp = p.tstamp := by
  cases op with
  | refresh env => cases hn
  | notify e =>
    injection h with h; injection h with e1 e2; subst e1 e2
    unfold notifyEvent
    split <;> exact ⟨⟨rfl, rfl, rfl, rfl, rfl, rfl⟩, rfl⟩
  | flush => injection h with h; injection h with e1 e2; subst e1 e2; exact ⟨⟨rfl, rfl, rfl, rfl, rfl, rfl⟩, rfl⟩
  | setCaps l => injection h with h; injection h with e1 e2; subst e1 e2; exact ⟨⟨rfl, rfl, rfl, rfl, rfl, rfl⟩, rfl⟩
  | fileOps => injection h with h; injection h with e1 e2; subst e1 e2; exact ⟨⟨rfl, rfl, rfl, rfl, rfl, rfl⟩, rfl⟩

theorem run_timed {C : Cipher} {p q : Pd} {ops : List Op} {outs : List Out} {t : Int} (hp : p.flags.pdMode = true)
    (hf : Framed p) (ht : Timed t p) (hn : ∀ env ∈ visits ops, env.now ≤ t) (h : run C p ops = .ok (q, outs)) : Timed t q := by
  induction ops generalizing p outs with
  | nil => injection h with h; injection h with e1 e2; subst e1 e2; exact ht
  | cons op ops ih =>
    obtain ⟨⟨p1, o1⟩, h1, h⟩ := Res.bind_eq_ok.mp h
    obtain ⟨⟨p2, o2⟩, h2, h⟩ := Res.bind_eq_ok.mp h
    injection h with h; injection h with e1 e2; subst e1 e2
    have hf1 : Framed p1 := run_framed (ops := [op]) (outs := o1 ++ []) hp hf (by
      show (step C p op >>= _) = _
      rw [h1]; rfl)
    refine ih (step_pdMode hp h1) hf1 ?_ (fun env he => hn env ?_) h2
    · cases hv : op.visit with
      | none =>
        obtain ⟨hk, hts⟩ := step_other hv h1
        exact ⟨by rw [hk.rx]; exact ht.cap, by rw [hts]; exact ht.time⟩
      | some env =>
        cases op with
        | refresh env' => exact refresh_timed hp hf ht (hn env' (by unfold visits; rw [List.filterMap_cons]; simp [Op.visit])) h1
        | _ => cases hv
    · unfold visits at he ⊢
      rw [List.filterMap_cons]
      split
      · exact he
      · exact List.mem_cons_of_mem _ he

theorem run_quiet {C : Cipher} {p q : Pd} {ops : List Op} {outs : List Out} {t : Int} (hp : p.flags.pdMode = true)
    (hf : Framed p) (ht : p.tstamp ≤ t) (hq : Pause t ops) (hn : Idle p ∨ (pend p).length < (visits ops).length)
    (h : run C p ops = .ok (q, outs)) : Idle q := by
  induction ops generalizing p outs with
  | nil =>
    injection h with h; injection h with e1 e2; subst e1 e2
    rcases hn with hn | hn
    · exact hn
    · simp [visits] at hn
  | cons op ops ih =>
    obtain ⟨⟨p1, o1⟩, h1, h⟩ := Res.bind_eq_ok.mp h
    obtain ⟨⟨p2, o2⟩, h2, h⟩ := Res.bind_eq_ok.mp h
    injection h with h; injection h with e1 e2; subst e1 e2
    have hp1 := step_pdMode hp h1
    cases hv : op.visit with
    | none =>
      have hvs : visits (op :: ops) = visits ops := by unfold visits; rw [List.filterMap_cons, hv]
      obtain ⟨hk, hts⟩ := step_other hv h1
      unfold Pause at hq
      rw [hvs] at hn hq
      refine ih hp1 (hk.framed hf) (by rw [hts]; exact ht) hq ?_ h2
      rcases hn with hn | hn
      · exact .inl ⟨hk.bufLen.trans hn.bufLen, hk.len.trans hn.len, by rw [hk.buf]; exact hn.buf, hk.rx.trans hn.rx⟩
      · right
        rw [show pend p1 = pend p by unfold Phy.pend Phy.got; rw [hk.buf, hk.bufLen, hk.rx]]
        exact hn
    | some env =>
      cases op with
      | refresh env' =>
        have hvs : visits (.refresh env' :: ops) = env' :: visits ops := rfl
        unfold Pause at hq
        rw [hvs] at hn hq
        obtain ⟨a, b⟩ := hq env' List.mem_cons_self
        obtain ⟨c1, c2, c3⟩ := refresh_quiet hp hf a (by rw [show RESP_TOUT = 200 from rfl]; omega) h1
        refine ih hp1 c1 (by rw [c2]; exact ht) (fun e he => hq e (List.mem_cons_of_mem _ he)) ?_ h2
        rcases c3 with c3 | c3
        · exact .inl c3
        · rcases hn with hn | hn
          · have : pend p = [] := by unfold Phy.pend Phy.got; rw [hn.bufLen, hn.rx]; rfl
            rw [this] at c3
            exact absurd c3 (Nat.not_lt_zero _)
          · rw [List.length_cons] at hn
            exact .inr (by omega)
      | _ => cases hv

theorem pend_le {p : Pd} {t : Int} (hf : Framed p) (ht : Timed t p) : (pend p).length ≤ 767 := by
  have h1 := ht.cap
  have h2 : (Phy.got p).length ≤ 256 := by unfold Phy.got; rw [List.length_take, hf.buf]; omega
  unfold Phy.pend
  rw [List.length_append]
  rw [show Phy.RB_CAP = 511 from rfl] at h1
  omega

/-- **C65.**  Whatever a PD went through since its setup -- noise, half packets, packets for others, an abandoned secure
channel -- all before time `t`; then nothing arrives any more, and from 200 ms after `t` on the PD is refreshed 768 times
(other calls of the application may come in between).  An intact command for the PD is then answered with exactly one
packet, which bears the sequence number of the command.  If there may be a secure channel, the command has to begin afresh
with sequence number 0.

As in C36 the command is not a file transfer, and the PD may transmit packets of 164 bytes. -/
theorem C65_recovers_after_pause (C : Cipher) (info : Info) (skipMark : Bool) (n : Nat) (p s q u : Pd) (ops pause : List Op)
    (o1 o2 outs : List Out) (t : Int) (k : Packet) (env : Env) (d0 : Byte) (body : List Byte)
    (hs : setup info skipMark n = some p) (ht : 0 ≤ t)
    (h1 : run C p ops = .ok (s, o1)) (hn : ∀ e ∈ visits ops, e.now ≤ t)
    (h2 : run C s pause = .ok (q, o2)) (hq : Pause t pause) (hc : 768 ≤ (visits pause).length)
    (hadr : 0 ≤ q.address ∧ q.address ≤ 127) (hdev : (k.dev : Int) = q.address ∨ k.dev = 127)
    (hlen : k.bytes.length ≤ 256) (hcmd : Phy.hasBit k.addr 0x80#8 = false) (hcrc : Phy.hasBit k.ctl Phy.CTL_CRC = true)
    (hscb : Phy.hasBit k.ctl Phy.CTL_SCB = false ∧ k.scb = [])
    (hseq : Spec.Seq.Acceptable q.seq k.seq ∧ q.scActive = false ∨ k.seq = 0)
    (hd : k.data = d0 :: body) (hft : d0.toNat ≠ Id.FILETRANSFER) (hm : 164 ≤ q.txBufSize)
    (hrx : ∀ b0 b1 rest, d0.toNat = Id.ACURXSIZE → body = b0 :: b1 :: rest → 164 ≤ ofLe [b0, b1])
    (ha : Arrives env k.bytes) (hcap : 256 ≤ env.sendCap) (h : refresh C q env = .ok (u, outs)) :
    ∃ r, sent outs = [Packet.bytes r] ∧ r.seq = k.seq ∧
      r.addr.toNat = 128 + if q.flags.broadcast = true ∨ k.dev = 127 then 127 else q.address.toNat := by
  have hsR : Reached C info s := ⟨skipMark, n, p, ops, o1, hs, h1⟩
  have hqR : Reached C info q := ⟨skipMark, n, p, ops ++ pause, o1 ++ o2, hs, run_append h1 h2⟩
  have hts : Timed t s := by
    refine run_timed (setup_pdMode hs) (setup_framed hs).1 ?_ hn h1
    unfold setup at hs
    split at hs
    · cases hs
    · injection hs with hs; subst hs
      exact ⟨Nat.zero_le _, ht⟩
  have hi : Idle q := run_quiet hsR.pdMode hsR.framed hts.time hq (.inr (by have := pend_le hsR.framed hts; omega)) h2
  refine one_reply C q u k env d0 body outs hqR.pdMode hi hadr (hseq.imp (·.2) id)
    ⟨hlen, hcmd, hcrc, ?_, hqR.seqRange, ?_⟩ ha hscb.1 hscb.2 hd hft hm hrx hcap h
  · rw [pktAddr_dev]; exact hdev
  · rcases hseq with ⟨h, -⟩ | h
    · exact h
    · rw [h]; exact .inl rfl

/-! ## An example, and why the pause is needed -/

/-- the beginning of a packet of 40 bytes, of which the rest never comes -/
def torso : List Byte := [0xFF, 0x53, 101, 40, 0, 4, 0x60]

/-- a visit, nothing having arrived -/
def calm (now : Int) : Env := { now := now, recv := [], cb := some fun _ c => (0, c) }

/-- how often the PD transmits in a history that begins with that half packet and ends with a POLL -/
def answersAfter (pause : List Op) (now : Int) : Option Nat :=
  match run Aes.aes Sample.pd (.refresh (Sample.env torso) :: pause ++ [.refresh (Sample.env Sample.poll now)]) with
  | .ok (_, outs) => some (sent outs).length
  | .error _ => none

/-- Without the pause -- 100 ms later -- the POLL is taken for a part of the other packet and is lost; so it is if the
PD was not refreshed in the meantime; after a pause it is answered. -/
theorem C65_pause_needed :
    answersAfter (List.replicate 10 (.refresh (calm 50))) 100 = some 0 ∧
    answersAfter [] 1000 = some 0 ∧
    answersAfter [.refresh (calm 250)] 300 = some 1 := by
  refine ⟨?_, ?_, ?_⟩ <;> decide +kernel

/-- what is looked at below: the address, the sequence number and the buffer size of a PD -/
def stats (r : Res (Pd × List Out)) : Option (Int × Int × Nat) :=
  match r with
  | .ok (q, _) => some (q.address, q.seq, q.txBufSize)
  | .error _ => none

/-- Non-vacuity: the same POLL, after 768 visits. -/
example : setup Sample.pdInfo false 16 = some Sample.pd ∧
    (∀ e ∈ visits [.refresh (Sample.env torso)], e.now ≤ 0) ∧
    Pause 0 (List.replicate 768 (.refresh (calm 250))) ∧ 768 ≤ (visits (List.replicate 768 (.refresh (calm 250)))).length ∧
    stats (run Aes.aes Sample.pd (.refresh (Sample.env torso) :: List.replicate 768 (.refresh (calm 250)))) = some (101, -1, 256) ∧
    Sample.poll = (Packet.bytes ⟨true, 101#8, 4#8, [], [b8 Id.POLL]⟩) ∧
    Arrives (Sample.env Sample.poll 300) (Packet.bytes ⟨true, 101#8, 4#8, [], [b8 Id.POLL]⟩) ∧
    answersAfter (List.replicate 768 (.refresh (calm 250))) 300 = some 1 := by
  have hv : visits (List.replicate 768 (.refresh (calm 250))) = List.replicate 768 (calm 250) := by
    unfold visits
    exact List.filterMap_replicate_of_some rfl
  refine ⟨rfl, ?_, ?_, ?_, by decide +kernel, by decide +kernel, ?_, by decide +kernel⟩
  · intro e he
    rw [show visits [Op.refresh (Sample.env torso)] = [Sample.env torso] from rfl, List.mem_singleton] at he
    subst he; decide
  · unfold Pause
    rw [hv]
    intro e he
    rw [List.eq_of_mem_replicate he]
    exact ⟨rfl, by decide⟩
  · rw [hv, List.length_replicate]; exact Nat.le_refl _
  · unfold Arrives; decide +kernel

end Osdp.PdM
