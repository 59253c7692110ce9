import Verif.Lemmas.PdRun
import Verif.Lemmas.File
import Verif.Lemmas.Sample

/-!
# C33: The PD application is only asked to do what the PD declared it can
-/

namespace Osdp.PdM

/-- Specification: what the capability table of a PD must say for the application to be asked to
carry out a command. -/
def MayAsk (cap : Fin 17 → Cap) : Cmd → Prop
  | .output o => (cap 2).compliance ≠ 0 ∧ o.outputNo.toNat < (cap 2).numItems.toNat
  | .led l => (cap 4).compliance ≠ 0 ∧ l.ledNumber.toNat < (cap 4).numItems.toNat
  | .buzzer _ => (cap 5).compliance ≠ 0 ∧ (cap 5).numItems ≠ 0
  | .text _ => (cap 6).compliance ≠ 0 ∧ (cap 6).numItems ≠ 0
  | .keyset _ => (cap 9).compliance ≠ 0
  | .status s => (s.type = .input → (cap 1).compliance ≠ 0 ∧ (cap 1).numItems ≠ 0) ∧
      (s.type = .output → (cap 2).compliance ≠ 0 ∧ (cap 2).numItems ≠ 0)
  | _ => True

theorem legit_mayAsk {p : Pd} {c : Cmd} (h : Legit p c) : MayAsk p.cap c := by
  cases c with
  | output o =>
    have := h.2
    simp [capAllows, Id.ISTAT, Id.OSTAT, Id.OUT] at this
    exact ⟨by simpa using this.1, by have := this.2; omega⟩
  | led l =>
    have := h.2
    simp [capAllows, Id.ISTAT, Id.OSTAT, Id.OUT, Id.LED] at this
    exact ⟨by simpa using this.1, by have := this.2; omega⟩
  | buzzer b =>
    have := h.2
    simp [capAllows, Id.ISTAT, Id.OSTAT, Id.OUT, Id.LED, Id.BUZ] at this
    exact ⟨by simpa using this.2, by simpa using this.1⟩
  | text t =>
    have := h.2
    simp [capAllows, Id.ISTAT, Id.OSTAT, Id.OUT, Id.LED, Id.BUZ, Id.TEXT] at this
    exact ⟨by simpa using this.2, by simpa using this.1⟩
  | keyset k =>
    have := h.2.1
    simp [capAllows, Id.ISTAT, Id.OSTAT, Id.OUT, Id.LED, Id.BUZ, Id.TEXT, Id.KEYSET] at this
    simpa [MayAsk] using this
  | status s =>
    obtain ⟨-, -, h⟩ := h
    rcases h with ⟨-, ht⟩ | ⟨-, ht⟩ | ⟨-, ht, h⟩ | ⟨-, ht, h⟩
    · exact ⟨by simp [ht], by simp [ht]⟩
    · exact ⟨by simp [ht], by simp [ht]⟩
    · simp [capAllows] at h
      exact ⟨fun _ => ⟨by simpa using h.2, by simpa using h.1⟩, by simp [ht]⟩
    · simp [capAllows, Id.ISTAT, Id.OSTAT] at h
      exact ⟨by simp [ht], fun _ => ⟨by simpa using h.2, by simpa using h.1⟩⟩
  | _ => trivial

theorem txDecode_cmd {f : Option FileSt} {env : Env} {body : List Byte} {r : File.Result} {c : Cmd}
    (h : File.txDecode f env body = .ok r) (hc : Out.cmd c ∈ r.outs) : ∃ x, c = .fileTx x := by
  obtain ⟨f, k, -, -, h | h | h⟩ := File.txDecode_outs h _ hc
  · injection h with h; exact ⟨_, h⟩
  · cases h
  · cases h

/-- One refresh, from any state whatsoever. -/
theorem C33_refresh (C : Cipher) (p q : Pd) (env : Env) (outs : List Out) (c : Cmd) (hp : p.flags.pdMode = true)
    (h : refresh C p env = .ok (q, outs)) (hc : Out.cmd c ∈ outs) : MayAsk p.cap c := by
  obtain ⟨p1, o1, ret, o2, hg, hp1, hf, rfl⟩ := refresh_inv hp h
  rw [List.mem_append] at hc
  rcases hc with hc | hc
  · cases hg with
    | command _ hck _ hd _ _ _ _ _ _ hout =>
      have e : ∀ {a b : Pd}, config a = config b → a.cap = b.cap := fun h => congrArg Config.cap h
      have e1 := e ((config_transp hd.transp).trans ((config_transp hck.transp).trans (config_expire p env.now)))
      cases hout with
      | plain hpl _ =>
        obtain ⟨c', hcc, hl⟩ := hpl.outs _ hc
        injection hcc with hcc; subst hcc
        have := legit_mayAsk hl
        rw [← e1]; exact this
      | abort _ _ =>
        unfold File.abort at hc
        split at hc
        · cases hc
        · split at hc
          · simp at hc
          · cases hc
      | file _ hdec =>
        obtain ⟨x, rfl⟩ := txDecode_cmd hdec hc
        trivial
      | _ => cases hc
    | _ => cases hc
  · rcases finished_outs hf _ hc with h | h | ⟨bs, h⟩ <;> cases h

/-- Any history of a PD whose capability table is not replaced. -/
theorem C33_pd_asked_only_what_it_declared (C : Cipher) (info : Info) (skipMark : Bool) (n : Nat) (p q : Pd)
    (ops : List Op) (outs : List Out) (c : Cmd) (hs : setup info skipMark n = some p)
    (hops : ∀ op ∈ ops, ∀ l, op ≠ .setCaps l) (h : run C p ops = .ok (q, outs)) (hc : Out.cmd c ∈ outs) :
    MayAsk p.cap c := by
  have := run_inv (C := C) (ops := ops) (fun x => x.flags.pdMode = true ∧ x.cap = p.cap)
    (fun o => ∀ c, o = .cmd c → MayAsk p.cap c) ?_ ⟨setup_pdMode hs, rfl⟩ h
  · exact this.2 _ hc c rfl
  · rintro a op b o hm ⟨ha, hcap⟩ hst
    have hb := step_pdMode ha hst
    cases op with
    | refresh env =>
      refine ⟨⟨hb, ?_⟩, ?_⟩
      · have e := congrArg Config.cap (config_refresh ha hst)
        exact e.trans hcap
      · rintro x hx c rfl
        rw [← hcap]; exact C33_refresh C a b env o c ha hst hx
    | notify e =>
      injection hst with h; injection h with e1 e2; subst e1 e2
      refine ⟨⟨hb, ?_⟩, by simp⟩
      unfold notifyEvent; split <;> exact hcap
    | flush => injection hst with h; injection h with e1 e2; subst e1 e2; exact ⟨⟨hb, hcap⟩, by simp⟩
    | setCaps l => exact absurd rfl (hops _ hm l)
    | fileOps => injection hst with h; injection h with e1 e2; subst e1 e2; exact ⟨⟨hb, hcap⟩, by simp⟩

/-- An LED command for LED 1 of the sample PD (which has two) reaches the application; one for LED 2
does not. -/
example :
    (refresh Aes.aes Sample.pd (Sample.env (Sample.cmd 0#8 [0x69, 0, 1, 0, 0, 0, 0, 0, 0, 0, 1, 1, 0, 2, 0]))).map
      (fun r => Sample.asked r.2) =
    .ok [.led ⟨0, 1, ⟨0, 0, 0, 0, 0, 0⟩, ⟨1, 1, 0, 2, 0, 0⟩⟩] := by decide +kernel

example :
    (refresh Aes.aes Sample.pd (Sample.env (Sample.cmd 0#8 [0x69, 0, 2, 0, 0, 0, 0, 0, 0, 0, 1, 1, 0, 2, 0]))).map
      (fun r => Sample.asked r.2) = .ok [] := by decide +kernel

end Osdp.PdM
