import Verif.Spec.Ident
import Verif.Lemmas.Exchange
import Verif.Props.C31
import Verif.Props.C58
import Verif.Model.CpCtx

/-!
# C32: Identity and capabilities are learned exactly
-/

namespace Osdp.Link

open Phy PdM CpM
open Spec.Wire (Packet sent)
open Spec.Ident (Fits carried offered implicit)

/-! ### the PD's tables -/

theorem setCaps_last (cap : Fin 17 → Cap) (l : List Cap) (hl : ∀ c ∈ l, 0 < c.code.toNat ∧ c.code.toNat < 17) (i : Fin 17) :
    setCaps cap l i = ((l.filter fun c => c.code.toNat = i.val).getLast?).getD (cap i) := by
  induction l generalizing cap with
  | nil => rfl
  | cons c cs ih =>
    have hc := hl c List.mem_cons_self
    unfold setCaps
    rw [dif_pos hc, ih _ (fun c h => hl c (List.mem_cons_of_mem _ h))]
    rw [List.filter_cons]
    by_cases he : c.code.toNat = i.val
    · rw [if_pos (Fin.ext he.symm), if_pos (by simpa using he), List.getLast?_cons]
      rfl
    · rw [if_neg (fun h => he (by rw [h])), if_neg (by simpa using he)]

theorem setup_caps {info : Info} {sk : Bool} {n : Nat} {p : Pd} (h : PdM.setup info sk n = some p)
    (hl : ∀ c ∈ info.cap, 0 < c.code.toNat ∧ c.code.toNat < 17) (i : Fin 17) :
    p.cap i = (((info.cap ++ implicit).filter fun c => c.code.toNat = i.val).getLast?).getD ⟨0, 0, 0⟩ := by
  unfold PdM.setup at h
  split at h
  · cases h
  injection h with h
  subst h
  show setCaps (setCaps (fun _ => ⟨0, 0, 0⟩) info.cap) implicitCaps i = _
  rw [setCaps_last _ implicitCaps (by decide), setCaps_last _ _ hl, List.filter_append, List.getLast?_append]
  show (List.getLast? (List.filter _ implicit)).getD _ = _
  cases (List.getLast? (List.filter (fun c => decide (c.code.toNat = i.val)) implicit)) <;> rfl

theorem capLoop_entries (cap cap0 : Fin 17 → Cap) (is : List (Fin 17)) (room : Int) (hr : 3 * (is.length : Int) ≤ room) (k : Fin 17) :
    capLoop cap0 (capEntries cap is room) k = if k ∈ is ∧ (cap k).code.toNat = k.val then cap k else cap0 k := by
  induction is generalizing cap0 room with
  | nil => rw [if_neg (by simp)]; rfl
  | cons i is ih =>
    simp only [List.length_cons] at hr
    unfold capEntries
    by_cases hc : (cap i).code.toNat = i.val
    · rw [if_neg (by simpa using hc), if_neg (by omega)]
      have hi : (b8 i.val).toNat = i.val := b8_toNat (by omega)
      unfold capLoop
      rw [dif_pos (by rw [hi]; exact i.2), ih _ _ (by omega)]
      have hcode : b8 i.val = (cap i).code := by
        apply BitVec.eq_of_toNat_eq; rw [hi, hc]
      by_cases hk : k = i
      · subst hk
        rw [if_pos (show k ∈ k :: is ∧ _ from ⟨List.mem_cons_self, hc⟩)]
        split
        · rfl
        · show (if k = _ then _ else _) = _
          rw [if_pos (Fin.ext hi.symm), hcode]
      · have h2 : (k ∈ i :: is ∧ (cap k).code.toNat = k.val) ↔ (k ∈ is ∧ (cap k).code.toNat = k.val) := by
          simp [hk]
        simp only [h2]
        split
        · rfl
        · show (if k = _ then _ else _) = _
          rw [if_neg (fun h => hk (h.trans (Fin.ext hi)))]
    · rw [if_pos hc, ih _ _ (by omega)]
      have h2 : (k ∈ i :: is ∧ (cap k).code.toNat = k.val) ↔ (k ∈ is ∧ (cap k).code.toNat = k.val) := by
        constructor
        · rintro ⟨h, h'⟩
          rcases List.mem_cons.mp h with rfl | h
          · exact absurd h' hc
          · exact ⟨h, h'⟩
        · rintro ⟨h, h'⟩
          exact ⟨List.mem_cons_of_mem _ h, h'⟩
      simp only [h2]

theorem capEntries_mod (cap : Fin 17 → Cap) (is : List (Fin 17)) (room : Int) : (capEntries cap is room).length % 3 = 0 := by
  induction is generalizing room with
  | nil => rfl
  | cons i is ih =>
    unfold capEntries
    split
    · exact ih _
    · split
      · rfl
      · have := ih (room - 3)
        simp only [List.length_cons]; omega

theorem capIdx_mem (k : Fin 17) (h : k ≠ 0) : k ∈ capIdx := by
  revert k; decide

theorem capIdx_ne : ∀ k ∈ capIdx, k ≠ 0 := by decide

theorem pdid_carried (i : PdId) : CpM.pdid (pdidBody i).tail = some (carried i) := by
  unfold pdidBody CpM.pdid carried
  simp only [List.tail_cons, ofLe, byteOf, i8, BitVec.toNat_ofNat, BitVec.toNat_ofInt]
  congr 1
  congr 1 <;> omega

/-! ### the exchanges -/

/-- The CP's command is ID, and the PD's answer is its identity. -/
theorem id_answer {C : Cipher} {P pd : Pd} {env : Env} {rb : List Byte}
    (hexp : expire pd env.now = pd) (hrec : PdM.receiveAndProcess C pd env = commanded P env 0x61#8 [0#8])
    (hnr : PdM.plainRefused (PdM.noteCmd P 0x61#8) = false) (hrb : replyBuilt C pd env = some rb) : rb = pdidBody P.id := by
  unfold replyBuilt at hrb
  rw [hexp, hrec] at hrb
  unfold commanded at hrb
  rw [hnr, if_neg (by simp)] at hrb
  have hd : dispatch (noteCmd P 0x61#8) env [0#8] = .ok ({ noteCmd P 0x61#8 with replyId := Id.PDID }, [], .none) := rfl
  rw [hd] at hrb
  dsimp only at hrb
  generalize hX : touch { noteCmd P 0x61#8 with replyId := Id.PDID } PdRet.none env.now = X at hrb
  have hXf : X.id = P.id ∧ X.replyId = Id.PDID := by
    rw [← hX]; unfold touch; split <;> exact ⟨rfl, rfl⟩
  split at hrb
  · rename_i b hb
    unfold replyBody at hb
    dsimp only at hb
    rw [if_neg (by show ¬ X.replyId = _; rw [hXf.2]; decide), if_pos (by show X.replyId = _; rw [hXf.2])] at hb
    obtain ⟨_, -, hb⟩ := Res.bind_eq_ok.mp hb
    injection hb with hb; subst hb
    injection hrb with hrb
    rw [← hrb]
    show pdidBody X.id = _
    rw [hXf.1]
  · cases hrb

/-- The CP's command is CAP, and the PD's answer is its table of capabilities. -/
theorem cap_answer {C : Cipher} {P pd : Pd} {env : Env} {rb : List Byte}
    (hexp : expire pd env.now = pd) (hrec : PdM.receiveAndProcess C pd env = commanded P env 0x62#8 [0#8])
    (hnr : PdM.plainRefused (PdM.noteCmd P 0x62#8) = false) (htx : 69 ≤ P.txBufSize) (hrb : replyBuilt C pd env = some rb) :
    ∃ room : Int, 60 ≤ room ∧ rb = b8 Id.PDCAP :: capEntries P.cap capIdx room := by
  unfold replyBuilt at hrb
  rw [hexp, hrec] at hrb
  unfold commanded at hrb
  rw [hnr, if_neg (by simp)] at hrb
  have hd : dispatch (noteCmd P 0x62#8) env [0#8] = .ok ({ noteCmd P 0x62#8 with replyId := Id.PDCAP }, [], .none) := rfl
  rw [hd] at hrb
  dsimp only at hrb
  generalize hX : touch { noteCmd P 0x62#8 with replyId := Id.PDCAP } PdRet.none env.now = X at hrb
  have hXf : X.cap = P.cap ∧ X.replyId = Id.PDCAP ∧ X.txBufSize = P.txBufSize := by
    rw [← hX]; unfold touch; split <;> exact ⟨rfl, rfl, rfl⟩
  split at hrb
  · rename_i b hb
    unfold replyBody at hb
    dsimp only at hb
    rw [if_neg (by show ¬ X.replyId = _; rw [hXf.2.1]; decide), if_neg (by show ¬ X.replyId = _; rw [hXf.2.1]; decide),
      if_pos (by show X.replyId = _; rw [hXf.2.1])] at hb
    obtain ⟨_, -, hb⟩ := Res.bind_eq_ok.mp hb
    injection hb with hb; subst hb
    injection hrb with hrb
    have := replyTx_dataOff X
    refine ⟨X.txBufSize - (replyTx X).dataOff, ?_, ?_⟩
    · rw [hXf.2.2]; omega
    · rw [← hrb]
      show b8 X.replyId :: capEntries X.cap capIdx _ = _
      rw [hXf.1, hXf.2.1]
  · cases hrb

theorem not_mute {C : Cipher} {P pd pd1 : Pd} {env : Env} {o : List Out} {bs : List Byte}
    (hexp : expire pd env.now = pd) (hrec : PdM.receiveAndProcess C pd env = commanded P env 0x62#8 [0#8])
    (hnr : PdM.plainRefused (PdM.noteCmd P 0x62#8) = false) (h : PdM.step C pd (.refresh env) = .ok (pd1, o)) (hs : sent o = [bs]) :
    69 ≤ P.txBufSize := by
  refine Classical.byContradiction fun hn => ?_
  have h : PdM.refresh C pd env = .ok (pd1, o) := h
  unfold PdM.refresh at h
  rw [hexp, hrec] at h
  unfold commanded at h
  rw [hnr, if_neg (by simp)] at h
  have hd : dispatch (noteCmd P 0x62#8) env [0#8] = .ok ({ noteCmd P 0x62#8 with replyId := Id.PDCAP }, [], .none) := rfl
  rw [hd] at h
  obtain ⟨⟨p1, o1, r1⟩, h1, h⟩ := Res.bind_eq_ok.mp h
  injection h1 with h1; injection h1 with e1 e2; injection e2 with e2 e3; subst e1 e2 e3
  obtain ⟨⟨p2, o2⟩, h2, h⟩ := Res.bind_eq_ok.mp h
  have := finish_mute (by show P.txBufSize < 69; omega) h2
  subst this
  injection h with h; injection h with _ h
  rw [← h] at hs
  cases hs

theorem asks_built {C : Cipher} {cp : Pd} {e : Env} {id : Nat} (h : cp.cmdId = id) (hid : id = Id.ID ∨ id = Id.CAP) (body : List Byte)
    (hb : commandBuilt C cp e = some body) : body = [b8 id, 0#8] := by
  unfold commandBuilt at hb
  split at hb
  · rename_i b hbb
    unfold commandBody at hbb
    dsimp only at hbb
    rw [if_neg (by
      show ¬ (cp.cmdId = _ ∨ cp.cmdId = _ ∨ cp.cmdId = _ ∨ cp.cmdId = _ ∨ cp.cmdId = _)
      rw [h]; rcases hid with rfl | rfl <;> decide), if_pos (by show cp.cmdId = _ ∨ cp.cmdId = _; rw [h]; exact hid)] at hbb
    obtain ⟨_, -, hbb⟩ := Res.bind_eq_ok.mp hbb
    injection hbb with hbb; subst hbb
    injection hb with hb; rw [← hb]
    show [b8 cp.cmdId, 0#8] = _
    rw [h]
  · cases hb

/-- **C32, the identity.**  After a command ID and its answer the CP knows the identity the PD has: all of it if the fields have
values the reply has room for. -/
theorem C32_id (C : Cipher) (cp cp1 cp2 pd pd1 : Pd) (cb cb' : Bool) (e1 e2 e3 : Env) (o1 o2 o3 : List Out) (bs bs2 : List Byte)
    (S : Asks cp pd) (hid : cp.cmdId = Id.ID) (hc1 : 256 ≤ e1.sendCap) (hc2 : 256 ≤ e2.sendCap) (hexp : expire pd e2.now = pd)
    (h1 : CpM.step C cp (.update cb e1) = .ok (cp1, o1)) (hs1 : sent o1 = [bs]) (ha1 : Arrives e2 bs)
    (h2 : PdM.step C pd (.refresh e2) = .ok (pd1, o2)) (hs2 : sent o2 = [bs2]) (ha2 : Arrives e3 bs2)
    (h3 : CpM.step C cp1 (.update cb' e3) = .ok (cp2, o3)) :
    cp2.id = carried pd.id ∧ (Fits pd.id → cp2.id = pd.id) ∧ cp2.cap = cp.cap := by
  obtain ⟨s, sc, hh, rb, hrec, hnr, hrb, hsame, hrd⟩ := S.heard (d0 := 0x61#8) (rest := [0#8]) (by decide) (by decide) hid
    (fun body h => asks_built hid (.inl rfl) body h) hc1 hc2 hexp (fun _ => .inr (.inl rfl)) h1 hs1 ha1 h2 hs2 ha2
  have hbody := id_answer hexp hrec hnr hrb
  have hr := hrd _ _ hbody (by decide)
  obtain ⟨p2, p3, o, rc, ht, hresp, hi⟩ := reply_taken (by exact (S.inv.step h1).cp) hr h3
  have hp : CpM.pdid (pdidBody pd.id).tail = some (carried pd.id) := pdid_carried _
  have hcap : p2.cap = cp1.cap := (transp_info ht).cap
  unfold CpM.response at hresp
  dsimp only at hresp
  rw [if_neg (by decide), if_neg (by decide), if_pos (by decide)] at hresp
  replace hresp : (match CpM.pdid (pdidBody pd.id).tail with
    | none => Except.ok ({ p2 with replyId := 0x45 }, [], CpErr.generic)
    | some i => Except.ok ({ p2 with replyId := 0x45, id := i }, [], CpErr.none)) = (Except.ok (p3, o, rc) : Res _) := hresp
  rw [hp] at hresp
  injection hresp with hresp; injection hresp with e _
  have hc : cp2.id = carried pd.id := by rw [hi.id, ← e]
  refine ⟨hc, ?_, ?_⟩
  · intro hf
    rw [hc]
    obtain ⟨a, b, c, d, e, f, g⟩ := hf
    unfold carried
    rw [Int.emod_eq_of_lt a b, Int.emod_eq_of_lt c d, Nat.mod_eq_of_lt e, Nat.mod_eq_of_lt f, Nat.mod_eq_of_lt g]
  · rw [hi.cap, ← e]
    exact hcap.trans hsame.cap

/-- **C32, the capabilities.**  After a command CAP and its answer the CP knows every capability the PD has; about the others it
knows what it did before. -/
theorem C32_cap (C : Cipher) (cp cp1 cp2 pd pd1 : Pd) (cb cb' : Bool) (e1 e2 e3 : Env) (o1 o2 o3 : List Out) (bs bs2 : List Byte)
    (S : Asks cp pd) (hid : cp.cmdId = Id.CAP) (hc1 : 256 ≤ e1.sendCap) (hc2 : 256 ≤ e2.sendCap) (hexp : expire pd e2.now = pd)
    (h1 : CpM.step C cp (.update cb e1) = .ok (cp1, o1)) (hs1 : sent o1 = [bs]) (ha1 : Arrives e2 bs)
    (h2 : PdM.step C pd (.refresh e2) = .ok (pd1, o2)) (hs2 : sent o2 = [bs2]) (ha2 : Arrives e3 bs2)
    (h3 : CpM.step C cp1 (.update cb' e3) = .ok (cp2, o3)) :
    cp2.id = cp.id ∧ ∀ k : Fin 17, cp2.cap k = if k ≠ 0 ∧ (pd.cap k).code.toNat = k.val then pd.cap k else cp.cap k := by
  obtain ⟨s, sc, hh, rb, hrec, hnr, hrb, hsame, hrd⟩ := S.heard (d0 := 0x62#8) (rest := [0#8]) (by decide) (by decide) hid
    (fun body h => asks_built hid (.inr rfl) body h) hc1 hc2 hexp (fun _ => .inr (.inr rfl)) h1 hs1 ha1 h2 hs2 ha2
  have htx := not_mute hexp hrec hnr h2 hs2
  obtain ⟨room, hroom, hbody⟩ := cap_answer hexp hrec hnr htx hrb
  have hr := hrd _ _ hbody (by decide)
  obtain ⟨p2, p3, o, rc, ht, hresp, hi⟩ := reply_taken (by exact (S.inv.step h1).cp) hr h3
  have hI := transp_info ht
  replace hresp : CpM.response C { p2 with replyId := (b8 Id.PDCAP).toNat } e3 (capEntries pd.cap capIdx room) = .ok (p3, o, rc) := hresp
  unfold CpM.response at hresp
  dsimp only at hresp
  rw [if_neg (by decide), if_neg (by decide), if_neg (by decide), if_pos (by decide), if_neg (by rw [capEntries_mod]; simp)] at hresp
  injection hresp with hresp; injection hresp with e _
  refine ⟨?_, ?_⟩
  · rw [hi.id, ← e]
    exact hI.id.trans hsame.id
  · intro k
    rw [hi.cap, ← e]
    show capLoop p2.cap (capEntries pd.cap capIdx room) k = _
    have hk : (k ∈ capIdx ∧ (pd.cap k).code.toNat = k.val) ↔ (k ≠ 0 ∧ (pd.cap k).code.toNat = k.val) :=
      and_congr_left fun _ => ⟨capIdx_ne k, capIdx_mem k⟩
    rw [capLoop_entries _ _ _ _ (by show 3 * (16 : Int) ≤ room; omega), hI.cap, hsame.cap]
    simp only [hk]

/-! ### what the CP reports -/

/-- No answer to the command ID or CAP is heard. -/
def Unlearned (C : Cipher) (p0 : Pd) (ops : List CpM.Op) : Prop :=
  ∀ a op b, ops = a ++ op :: b → ∀ cb env s o, op = .update cb env → CpM.run C p0 a = .ok (s, o) →
    ∀ r0 body, replyOf C s env = some (r0, body) → r0.toNat ≠ Id.PDID ∧ r0.toNat ≠ Id.PDCAP

theorem effect_learns {C : Cipher} {p q : Pd} {env : Env} {body : List Byte} {o : List Out} {rc : CpErr} (h : Effect C p env body q o rc)
    (h1 : p.replyId ≠ Id.PDID) (h2 : p.replyId ≠ Id.PDCAP) : q.id = p.id ∧ q.cap = p.cap := by
  cases h with
  | pdid _ h _ => exact absurd h h1
  | pdcap h _ => exact absurd h h2
  | _ => exact ⟨rfl, rfl⟩

/-- **C32, kept.**  What was learned stays until the next answer to ID or CAP, whatever else happens. -/
theorem C32_kept (C : Cipher) (p0 q : Pd) (ops : List CpM.Op) (o : List Out) (I : CpM.Inv p0) (h : CpM.run C p0 ops = .ok (q, o))
    (hu : Unlearned C p0 ops) : q.id = p0.id ∧ q.cap = p0.cap := by
  refine (CpM.run_ind (C := C) (p := p0) (fun ops q _ => Unlearned C p0 ops → CpM.Inv q ∧ q.id = p0.id ∧ q.cap = p0.cap) (fun _ => ⟨I, rfl, rfl⟩) ?_ h hu).2
  intro ops op q o s o' hr ih hs hu
  obtain ⟨Iq, hi, hc⟩ := ih (by
    intro a op' b he cb env s o hop hrun
    exact hu a op' (b ++ [op]) (by rw [he]; simp) cb env s o hop hrun)
  refine ⟨Iq.step hs, ?_⟩
  by_cases hop : ∀ cb env, op ≠ .update cb env
  · have := (step_apiOnly hs hop).info
    exact ⟨this.id.trans hi, this.cap.trans hc⟩
  · obtain ⟨cb, env, rfl⟩ : ∃ cb env, op = .update cb env := by
      refine Classical.byContradiction fun hn => hop fun cb env he => hn ⟨cb, env, he⟩
    obtain ⟨⟨s1, o1, y⟩, hup, h1⟩ := Res.bind_eq_ok.mp hs
    injection h1 with h1; injection h1 with e1 e2; subst e1 e2
    rcases (stateUpdate_inv Iq.cp hup).learned with ⟨hsame, -⟩ | ⟨id, bd, p2, p3, o, rc, hr', -, ht, -, he, hsame⟩
    · exact ⟨hsame.id.trans hi, hsame.cap.trans hc⟩
    · obtain ⟨n1, n2⟩ := hu ops _ [] rfl cb env q _ rfl hr id bd hr'
      obtain ⟨a, b⟩ := effect_learns he n1 n2
      have hI := transp_info ht
      exact ⟨hsame.id.trans (a.trans (hI.id.trans hi)), hsame.cap.trans (b.trans (hI.cap.trans hc))⟩

/-- A PD keeps the tables it was set up with unless its application changes them. -/
theorem setup_kept {C : Cipher} {p q : Pd} {ops : List PdM.Op} {o : List Out} (hp : p.flags.pdMode = true) (h : PdM.run C p ops = .ok (q, o))
    (hops : ∀ op ∈ ops, ∀ l, op ≠ .setCaps l) : q.id = p.id ∧ q.cap = p.cap := by
  refine (PdM.run_ind (C := C) (p := p) (fun ops q _ => (∀ op ∈ ops, ∀ l, op ≠ .setCaps l) → q.flags.pdMode = true ∧ q.id = p.id ∧ q.cap = p.cap)
    (fun _ => ⟨hp, rfl, rfl⟩) ?_ h hops).2
  intro ops op q o s o' hr ih hs hops
  obtain ⟨hm, hi, hc⟩ := ih (fun op' h => hops op' (List.mem_append_left _ h))
  have hop := hops op (by simp)
  cases op with
  | refresh env =>
    have hcfg := config_refresh hm hs
    refine ⟨?_, ?_, ?_⟩
    · have : (config s).pdMode = (config q).pdMode := by rw [hcfg]
      exact Eq.trans this hm
    · have : (config s).id = (config q).id := by rw [hcfg]
      exact Eq.trans this hi
    · have : (config s).cap = (config q).cap := by rw [hcfg]
      exact Eq.trans this hc
  | setCaps l => exact absurd rfl (hop l)
  | notify e =>
    injection hs with hs; injection hs with e1 e2; subst e1
    unfold notifyEvent; split <;> exact ⟨hm, hi, hc⟩
  | flush => injection hs with hs; injection hs with e1 e2; subst e1; exact ⟨hm, hi, hc⟩
  | fileOps => injection hs with hs; injection hs with e1 e2; subst e1; exact ⟨hm, hi, hc⟩

/-- the answers of `osdp_cp_get_pd_id` and `osdp_cp_get_capability` for the PD with index `i` are those of its record -/
theorem reports_id (c : Ctx) (i : Nat) (p : Pd) (h : c.pds[i]? = some p) : getPdId c i = some p.id := by
  unfold getPdId
  rw [if_pos (by omega), Int.toNat_natCast, h]; rfl

theorem reports_cap (c : Ctx) (i : Nat) (p : Pd) (h : c.pds[i]? = some p) (k : Fin 17) (hk : k ≠ 0) :
    getCapability c i (b8 k.val) = some ((p.cap k).compliance, (p.cap k).numItems) := by
  unfold getCapability
  rw [if_pos (by omega), Int.toNat_natCast, h]
  have hk' : (b8 k.val).toNat = k.val := b8_toNat (by omega)
  have h0 : 0 < k.val := Nat.pos_of_ne_zero fun h => hk (Fin.ext h)
  dsimp only
  rw [dif_pos (by rw [hk']; exact ⟨h0, k.2⟩)]
  have : (⟨(b8 k.val).toNat, by rw [hk']; exact k.2⟩ : Fin 17) = k := Fin.ext hk'
  rw [this]

/-- **C32**, if the CP knew nothing about the capabilities the PD does not have (it never heard of a PD with these before).
A PD is set up with any identity whose fields fit their places in the reply and any list of capabilities with function codes 1 to
16, and then does anything except changing its capabilities.  It is asked for its identity, anything else happens, and it is
asked for its capabilities.  From then on, until it is asked again, the CP reports the identity the PD was set up with, and for
every function code the compliance level and the number of items the PD was set up with, the implicit capabilities included.
Missing: a CP that did know such capabilities keeps reporting them (`C32_stale`). -/
theorem C32_partial (C : Cipher) (info : Info) (sk : Bool) (n : Nat) (pd0 pd pd1 pd' pd'' : Pd) (ops ops' : List PdM.Op) (op0 op0' : List Out)
    (hset : PdM.setup info sk n = some pd0) (hfit : Fits info.id) (hcodes : ∀ c ∈ info.cap, 0 < c.code.toNat ∧ c.code.toNat < 17)
    (hops : ∀ op ∈ ops ++ ops', ∀ l, op ≠ .setCaps l)
    -- the identity
    (hpd : PdM.run C pd0 ops = .ok (pd, op0)) (cp cp1 cp2 : Pd) (cb cb1 : Bool) (e1 e2 e3 : Env) (o1 o2 o3 : List Out) (bs bs2 : List Byte)
    (S : Asks cp pd) (hid : cp.cmdId = Id.ID) (hc1 : 256 ≤ e1.sendCap) (hc2 : 256 ≤ e2.sendCap) (hexp : expire pd e2.now = pd)
    (h1 : CpM.step C cp (.update cb e1) = .ok (cp1, o1)) (hs1 : sent o1 = [bs]) (ha1 : Arrives e2 bs)
    (h2 : PdM.step C pd (.refresh e2) = .ok (pd1, o2)) (hs2 : sent o2 = [bs2]) (ha2 : Arrives e3 bs2)
    (h3 : CpM.step C cp1 (.update cb1 e3) = .ok (cp2, o3))
    -- between
    (cops : List CpM.Op) (co : List Out) (cp' : Pd) (hrun : CpM.run C cp2 cops = .ok (cp', co)) (hun : Unlearned C cp2 cops)
    (hpd' : PdM.run C pd1 ops' = .ok (pd', op0'))
    -- the capabilities
    (cp1' cp2' : Pd) (cb' cb1' : Bool) (e1' e2' e3' : Env) (o1' o2' o3' : List Out) (bs' bs2' : List Byte)
    (S' : Asks cp' pd') (hid' : cp'.cmdId = Id.CAP) (hc1' : 256 ≤ e1'.sendCap) (hc2' : 256 ≤ e2'.sendCap) (hexp' : expire pd' e2'.now = pd')
    (h1' : CpM.step C cp' (.update cb' e1') = .ok (cp1', o1')) (hs1' : sent o1' = [bs']) (ha1' : Arrives e2' bs')
    (h2' : PdM.step C pd' (.refresh e2') = .ok (pd'', o2')) (hs2' : sent o2' = [bs2']) (ha2' : Arrives e3' bs2')
    (h3' : CpM.step C cp1' (.update cb1' e3') = .ok (cp2', o3'))
    (hblank : ∀ k, (pd'.cap k).code.toNat ≠ k.val → cp'.cap k = ⟨0, 0, 0⟩)
    -- later
    (dops : List CpM.Op) (dout : List Out) (cp3 : Pd) (hrun' : CpM.run C cp2' dops = .ok (cp3, dout)) (hun' : Unlearned C cp2' dops)
    (c : Ctx) (i : Nat) (hc : c.pds[i]? = some cp3) :
    getPdId c i = some info.id ∧ ∀ k : Fin 17, k ≠ 0 → getCapability c i (b8 k.val) = some (offered info.cap k.val) := by
  have hm0 : pd0.flags.pdMode = true := PdM.setup_pdMode hset
  have hpd0 : pd0.id = info.id := by
    unfold PdM.setup at hset
    split at hset
    · cases hset
    injection hset with hset
    rw [← hset]
  obtain ⟨a1, a2⟩ := setup_kept hm0 hpd (fun op h => hops op (List.mem_append_left _ h))
  have hm : pd.flags.pdMode = true := S.ends.pdMode
  have hr1 : PdM.run C pd (.refresh e2 :: ops') = .ok (pd', o2 ++ op0') :=
    Res.bind_eq_ok.mpr ⟨_, h2, Res.bind_eq_ok.mpr ⟨_, hpd', rfl⟩⟩
  obtain ⟨b1, b2⟩ := setup_kept hm hr1 (by
    intro op h l
    rcases List.mem_cons.mp h with rfl | h
    · intro h; cases h
    · exact hops op (List.mem_append_right _ h) l)
  obtain ⟨-, hi, -⟩ := C32_id C cp cp1 cp2 pd pd1 cb cb1 e1 e2 e3 o1 o2 o3 bs bs2 S hid hc1 hc2 hexp h1 hs1 ha1 h2 hs2 ha2 h3
  have hi := hi (by rw [a1, hpd0]; exact hfit)
  have I2 := (S.inv.step h1).step h3
  obtain ⟨k1, -⟩ := C32_kept C cp2 cp' cops co I2 hrun hun
  obtain ⟨d1, d2⟩ := C32_cap C cp' cp1' cp2' pd' pd'' cb' cb1' e1' e2' e3' o1' o2' o3' bs' bs2' S' hid' hc1' hc2' hexp' h1' hs1' ha1' h2' hs2' ha2' h3'
  have I2' := (S'.inv.step h1').step h3'
  obtain ⟨f1, f2⟩ := C32_kept C cp2' cp3 dops dout I2' hrun' hun'
  refine ⟨?_, ?_⟩
  · rw [reports_id c i cp3 hc, f1, d1, k1, hi, a1, hpd0]
  · intro k hk
    rw [reports_cap c i cp3 hc k hk, f2, d2 k]
    have hcapk : pd'.cap k = _ := (congrFun (b2.trans a2) k).trans (setup_caps hset hcodes k)
    have hb := hblank k
    unfold offered
    split
    · rw [hcapk]
      cases ((info.cap ++ implicit).filter fun c => c.code.toNat = k.val).getLast? <;> rfl
    · rename_i hn
      have hne : (pd'.cap k).code.toNat ≠ k.val := fun h => hn ⟨hk, h⟩
      rw [hb hne]
      cases hg : ((info.cap ++ implicit).filter fun c => c.code.toNat = k.val).getLast? with
      | none => rfl
      | some c =>
        exfalso
        rw [hg] at hcapk
        have hmem := List.mem_of_getLast? hg
        rw [List.mem_filter] at hmem
        apply hne
        rw [hcapk]
        simpa using hmem.2

/-! ### examples and witness -/

/-- the sample CP meets the sample PD -/
def meeting (n : Nat) : Sample.Talk := Sample.talk.turns xorCipher 20 n

theorem meeting_inv (n : Nat) : CpM.Inv (meeting n).cp :=
  (turns_reached (C := xorCipher) (dt := 20) n Sample.talk (Sample.cp_reached (C := xorCipher) (ops := []) rfl)).inv

-- the command ID is about to be sent, and three turns later the command CAP
example : Asks (meeting 1).cp (meeting 1).pd ∧ (meeting 1).cp.cmdId = Id.ID ∧ Asks (meeting 4).cp (meeting 4).pd ∧ (meeting 4).cp.cmdId = Id.CAP := by
  refine ⟨⟨meeting_inv 1, by decide +kernel,
      ⟨by decide +kernel, by decide +kernel, by decide +kernel, ⟨by decide +kernel, by decide +kernel⟩, by decide +kernel,
        fun _ => ⟨by decide +kernel, by decide +kernel, by decide +kernel, by decide +kernel⟩, by decide +kernel⟩,
      ⟨by decide +kernel, by decide +kernel, by decide +kernel, by decide +kernel⟩,
      ⟨by decide +kernel, by decide +kernel, by decide +kernel, by decide +kernel⟩, by decide +kernel, ⟨by decide +kernel, by decide +kernel⟩,
      .inl (by decide +kernel), by decide +kernel⟩, by decide +kernel,
    ⟨meeting_inv 4, by decide +kernel,
      ⟨by decide +kernel, by decide +kernel, by decide +kernel, ⟨by decide +kernel, by decide +kernel⟩, by decide +kernel,
        fun _ => ⟨by decide +kernel, by decide +kernel, by decide +kernel, by decide +kernel⟩, by decide +kernel⟩,
      ⟨by decide +kernel, by decide +kernel, by decide +kernel, by decide +kernel⟩,
      ⟨by decide +kernel, by decide +kernel, by decide +kernel, by decide +kernel⟩, by decide +kernel, ⟨by decide +kernel, by decide +kernel⟩,
      .inl (by decide +kernel), by decide +kernel⟩, by decide +kernel⟩

-- after two more turns each, the CP knows: the identity, five capabilities of the sample PD and the four implicit ones
example : Fits Sample.pdInfo.id ∧ (meeting 3).cp.id = Sample.pdInfo.id ∧ (meeting 3).cp.id ≠ Sample.cp.id ∧
    (∀ k : Fin 17, ((meeting 4).pd.cap k).code.toNat ≠ k.val → (meeting 4).cp.cap k = ⟨0, 0, 0⟩) ∧
    (∀ k : Fin 17, k ≠ 0 → ((((meeting 6).cp.cap k).compliance, ((meeting 6).cp.cap k).numItems) = offered Sample.pdInfo.cap k.val)) ∧
    offered Sample.pdInfo.cap 4 = (1, 2) ∧ offered Sample.pdInfo.cap 10 = (0, 1) ∧ offered Sample.pdInfo.cap 3 = (0, 0) := by
  refine ⟨?_, by decide +kernel, by decide +kernel, by decide +kernel, by decide +kernel, by decide, by decide, by decide⟩
  unfold Spec.Ident.Fits; decide

/-- another PD, which controls LEDs and nothing else -/
def modest : Info := { Sample.pdInfo with cap := [⟨4, 1, 2⟩] }

/-- A CP knows a PD with LEDs (4) and a buzzer (5), loses it, and finds another one in its place. -/
def replaced : List CpM.Op :=
  Sample.meets [4, 1, 2, 5, 1, 1, 9, 0, 0] ++ Sample.silence 40 ++ [Sample.hears [] 400000] ++
    Sample.meetsAt 400000 (match PdM.setup modest false 16 with | some p => capEntries p.cap capIdx 200 | none => []) 0 1

/-- **C32 fails** for a CP that met a PD with other capabilities before: it was offline, it got the identity and the capabilities
of the new PD, and it still reports the buzzer of the old one. -/
theorem C32_stale : ∃ q o, CpM.run xorCipher Sample.cp replaced = .ok (q, o) ∧
    (q.state == .scChlng && (getCapability ⟨[q], none, 1, 0, true⟩ 0 5 == some (1, 1))) = true ∧
    offered modest.cap 5 = (0, 0) ∧ offered modest.cap 9 = (1, 0) := by
  obtain ⟨q, o, h, hq⟩ := Sample.ran (C := xorCipher) (p := Sample.cp) (ops := replaced)
    (fun q _ => q.state == .scChlng && (getCapability ⟨[q], none, 1, 0, true⟩ 0 5 == some (1, 1))) (by decide +kernel)
  exact ⟨q, o, h, hq, by decide, by decide⟩

end Osdp.Link
