import Verif.Spec.CmdWire
import Verif.Lemmas.PdRun
import Verif.Lemmas.System
import Verif.Props.C33

/-!
# Commands, from the structure given to the CP to the one handed out by the PD
-/

namespace Osdp

open Spec.Command

/-- the command code for a command of the application -/
def codeOf : Cmd → Nat
  | .output _ => Id.OUT
  | .led _ => Id.LED
  | .buzzer _ => Id.BUZ
  | .text _ => Id.TEXT
  | .comset _ => Id.COMSET
  | .mfg _ => Id.MFG
  | .keyset _ => Id.KEYSET
  | .status s => match s.type with
    | .input => Id.ISTAT
    | .output => Id.OSTAT
    | .localStat => Id.LSTAT
    | _ => Id.RSTAT
  | _ => 0

theorem encode_cons {s : Bool} {c : Cmd} (hv : Valid s c) : ∃ rest, encode c = b8 (codeOf c) :: rest := by
  cases c with
  | output _ => exact ⟨_, rfl⟩
  | led _ => exact ⟨_, rfl⟩
  | buzzer _ => exact ⟨_, rfl⟩
  | text _ => exact ⟨_, rfl⟩
  | comset _ => exact ⟨_, rfl⟩
  | mfg _ => exact ⟨_, rfl⟩
  | keyset _ => exact ⟨_, rfl⟩
  | status x => obtain ⟨ty, a, b⟩ := x; cases ty <;> exact ⟨_, rfl⟩
  | _ => exact hv.elim

theorem encode_length {s : Bool} {c : Cmd} (hv : Valid s c) : (encode c).length ≤ 69 := by
  cases c with
  | output _ => simp [encode, two]
  | led _ => simp [encode, two]
  | buzzer _ => simp [encode]
  | text t => have : t.length.toNat ≤ 32 := hv; simp [encode, t.data.2]; omega
  | comset _ => simp [encode, four]
  | mfg m => have : m.length.toNat ≤ 64 := hv; simp [encode, m.data.2]; omega
  | keyset k => simp [encode, k.data.2]; omega
  | status x => simp [encode]
  | _ => exact hv.elim

theorem codeOf_ok {s : Bool} {c : Cmd} (hv : Valid s c) :
    0 < codeOf c ∧ codeOf c < 256 ∧ Phy.inHandshake false (codeOf c) = false := by
  have key : ∀ n ∈ [Id.OUT, Id.LED, Id.BUZ, Id.TEXT, Id.COMSET, Id.MFG, Id.KEYSET, Id.ISTAT, Id.OSTAT, Id.LSTAT, Id.RSTAT],
      0 < n ∧ n < 256 ∧ Phy.inHandshake false n = false := by decide
  apply key
  cases c with
  | status x => obtain ⟨ty, a, b⟩ := x; cases ty <;> simp [codeOf]
  | fileTx _ => exact hv.elim
  | bad _ => exact hv.elim
  | _ => simp [codeOf]

theorem two_le16 (n : Nat) : le16 n = two n := by
  unfold le16 two byteOf
  simp [Nat.shiftRight_eq_div_pow]

theorem four_le32 (n : Nat) : le32 n = four n := by
  unfold le32 four byteOf
  simp [Nat.shiftRight_eq_div_pow]

theorem ofNat_append_two (x : BitVec 16) : (BitVec.ofNat 8 (x.toNat / 256) ++ BitVec.ofNat 8 x.toNat : BitVec 16) = x := by
  apply BitVec.eq_of_toNat_eq
  have := x.isLt
  rw [BitVec.toNat_append]
  simp only [BitVec.toNat_ofNat]
  rw [← Nat.shiftLeft_add_eq_or_of_lt (Nat.mod_lt _ (by decide)), Nat.shiftLeft_eq]
  omega

namespace CpM

theorem translate_valid {p : Pd} {c : Cmd} (hv : Valid p.scActive c) : translate p c = .ok ({ p with eph := .cmd c }, codeOf c) := by
  cases c with
  | output _ => rfl
  | led _ => rfl
  | buzzer _ => rfl
  | text _ => rfl
  | comset _ => rfl
  | mfg _ => rfl
  | keyset k =>
    obtain ⟨h1, h2, -⟩ := hv
    show (if k.type ≠ 1#8 ∨ ¬ p.scActive then _ else _) = _
    rw [if_neg (by rw [h2, h1]; decide)]; rfl
  | status x =>
    obtain ⟨ty, a, b⟩ := x
    cases ty with
    | other => exact (hv rfl).elim
    | _ => rfl
  | _ => exact hv.elim

theorem copyOut_take {src : List Byte} {n : Nat} (h : n ≤ src.length) : PdM.copyOut src (n : Int) = .ok (src.take n) := by
  unfold PdM.copyOut
  rw [if_pos ⟨by omega, by omega⟩, Int.toNat_natCast]

/-- What the CP puts into the packet of a command. -/
theorem commandBody_valid {C : Cipher} {p : Pd} {env : Env} {t : Phy.Tx} {room : Int} {c : Cmd} (hv : Valid p.scActive c)
    (he : p.eph = .cmd c) (hid : p.cmdId = codeOf c) (hroom : 69 < room) :
    commandBody C p env t room = .ok { p, t, body := some (encode c) } := by
  have A : ∀ n : Int, n ≤ 69 → PdM.assertLen n room = .ok () := by
    intro n hn
    unfold PdM.assertLen
    rw [if_pos (by omega)]
  unfold commandBody
  rw [hid]
  dsimp only
  cases c with
  | output o =>
    simp only [codeOf]
    repeat rw [if_neg (by decide)]
    rw [if_pos trivial, A 5 (by omega), he]
    simp only [Res.ok_bind, encode, outBody, two_le16]; rfl
  | led o =>
    simp only [codeOf]
    repeat rw [if_neg (by decide)]
    rw [if_pos trivial, A 15 (by omega), he]
    simp only [Res.ok_bind, encode, ledBody, two_le16]; rfl
  | buzzer o =>
    simp only [codeOf]
    repeat rw [if_neg (by decide)]
    rw [if_pos trivial, A 6 (by omega), he]
    simp only [Res.ok_bind, encode, buzBody]; rfl
  | text x =>
    have : x.length.toNat ≤ 32 := hv
    simp only [codeOf]
    repeat rw [if_neg (by decide)]
    rw [if_pos trivial, he]
    dsimp only
    rw [A (7 + x.length.toNat) (by omega), copyOut_take (by rw [x.data.2]; omega)]
    rfl
  | comset o =>
    simp only [codeOf]
    repeat rw [if_neg (by decide)]
    rw [if_pos trivial, A 6 (by omega), he]
    simp only [Res.ok_bind, encode, comsetBody, four_le32]; rfl
  | mfg x =>
    have : x.length.toNat ≤ 64 := hv
    simp only [codeOf]
    repeat rw [if_neg (by decide)]
    rw [if_pos trivial, he]
    dsimp only
    rw [A (4 + x.length.toNat) (by omega), copyOut_take (by rw [x.data.2]; omega)]
    simp only [Res.ok_bind]
    rw [if_neg (by omega)]
    simp only [encode, byteOf, Nat.shiftRight_eq_div_pow]
    simp
    rfl
  | keyset k =>
    obtain ⟨h1, h2, h3⟩ := hv
    simp only [codeOf]
    repeat rw [if_neg (by decide)]
    rw [if_pos trivial, if_neg (by rw [h1]; decide), he]
    dsimp only
    rw [A 19 (by omega)]
    simp only [Res.ok_bind]
    rw [if_neg (by rw [h3]; decide), if_pos h2]
    simp only [encode, h2, h3]
    rfl
  | status x =>
    obtain ⟨ty, a, b⟩ := x
    cases ty with
    | other => exact (hv rfl).elim
    | _ => simp only [codeOf]; rw [if_pos (by decide), A 1 (by omega)]; rfl
  | _ => exact hv.elim

/-- The CP puts nothing else into the packet of a command, whatever room there is. -/
theorem commandBody_built {C : Cipher} {p : Pd} {env : Env} {t : Phy.Tx} {room : Int} {c : Cmd} {b : Built} (hv : Valid p.scActive c)
    (he : p.eph = .cmd c) (hid : p.cmdId = codeOf c) (h : commandBody C p env t room = .ok b) : b.body = some (encode c) := by
  unfold commandBody at h
  rw [hid] at h
  dsimp only at h
  cases c with
  | output o =>
    simp only [codeOf] at h
    repeat rw [if_neg (by decide)] at h
    rw [if_pos trivial, he] at h
    obtain ⟨_, -, h⟩ := Res.bind_eq_ok.mp h
    injection h with h; subst h
    simp only [encode, outBody, two_le16]; rfl
  | led o =>
    simp only [codeOf] at h
    repeat rw [if_neg (by decide)] at h
    rw [if_pos trivial, he] at h
    obtain ⟨_, -, h⟩ := Res.bind_eq_ok.mp h
    injection h with h; subst h
    simp only [encode, ledBody, two_le16]; rfl
  | buzzer o =>
    simp only [codeOf] at h
    repeat rw [if_neg (by decide)] at h
    rw [if_pos trivial, he] at h
    obtain ⟨_, -, h⟩ := Res.bind_eq_ok.mp h
    injection h with h; subst h
    rfl
  | text x =>
    have : x.length.toNat ≤ 32 := hv
    simp only [codeOf] at h
    repeat rw [if_neg (by decide)] at h
    rw [if_pos trivial, he] at h
    dsimp only at h
    rw [copyOut_take (by rw [x.data.2]; omega)] at h
    obtain ⟨_, -, h⟩ := Res.bind_eq_ok.mp h
    injection h with h; subst h
    rfl
  | comset o =>
    simp only [codeOf] at h
    repeat rw [if_neg (by decide)] at h
    rw [if_pos trivial, he] at h
    obtain ⟨_, -, h⟩ := Res.bind_eq_ok.mp h
    injection h with h; subst h
    simp only [encode, comsetBody, four_le32]; rfl
  | mfg x =>
    have : x.length.toNat ≤ 64 := hv
    simp only [codeOf] at h
    repeat rw [if_neg (by decide)] at h
    rw [if_pos trivial, he] at h
    dsimp only at h
    rw [copyOut_take (by rw [x.data.2]; omega)] at h
    obtain ⟨_, -, h⟩ := Res.bind_eq_ok.mp h
    rw [if_neg (by omega)] at h
    injection h with h; subst h
    simp only [encode, byteOf, Nat.shiftRight_eq_div_pow]
    simp
    rfl
  | keyset k =>
    obtain ⟨h1, h2, h3⟩ := hv
    simp only [codeOf] at h
    repeat rw [if_neg (by decide)] at h
    rw [if_pos trivial, if_neg (by rw [h1]; decide), he] at h
    obtain ⟨_, -, h⟩ := Res.bind_eq_ok.mp h
    rw [if_neg (by rw [h3]; decide), if_pos h2] at h
    injection h with h; subst h
    simp only [encode, h2, h3]
    rfl
  | status x =>
    obtain ⟨ty, a, b⟩ := x
    cases ty with
    | other => exact (hv rfl).elim
    | _ =>
      simp only [codeOf] at h
      rw [if_pos (by decide)] at h
      obtain ⟨_, -, h⟩ := Res.bind_eq_ok.mp h
      injection h with h; subst h; rfl
  | _ => exact hv.elim

end CpM

namespace PdM

open Phy (setNak)

theorem callback_asked {p q : Pd} {env : Env} {i : Nat} {c : Cmd} {o : List Out} {r : Option Cmd} (h : callback p env i c = .ok (q, o, r)) :
    asked o = [c] := by
  unfold callback at h
  split at h
  · cases h
  · dsimp only at h
    split at h <;> (injection h with h; injection h with _ h; injection h with h _; subst h; rfl)

/-- the structure that the capability check looks at -/
def capArg : Cmd → Option Cmd
  | .keyset _ => none
  | .status _ => none
  | c => some c

theorem mayAsk_allows {p : Pd} {c : Cmd} {s : Bool} (hv : Valid s c) (hm : MayAsk p.cap c) (hid : p.cmdId = codeOf c) (hne : ∀ m, c ≠ .mfg m)
    (hnc : ∀ m, c ≠ .comset m) (hst : ∀ s, c = .status s → s.type = .input ∨ s.type = .output) :
    capOk p (capArg c) = (p, true) := by
  unfold capOk
  rw [if_pos ?_]
  rw [hid]
  cases c with
  | output o => simp [capAllows, capArg, codeOf, Id.ISTAT, Id.OSTAT, Id.OUT]; exact ⟨by simpa using hm.1, by have := hm.2; omega⟩
  | led o => simp [capAllows, capArg, codeOf, Id.ISTAT, Id.OSTAT, Id.OUT, Id.LED]; exact ⟨by simpa using hm.1, by have := hm.2; omega⟩
  | buzzer o => simp [capAllows, capArg, codeOf, Id.ISTAT, Id.OSTAT, Id.OUT, Id.LED, Id.BUZ]; exact ⟨by simpa using hm.2, by simpa using hm.1⟩
  | text o => simp [capAllows, capArg, codeOf, Id.ISTAT, Id.OSTAT, Id.OUT, Id.LED, Id.BUZ, Id.TEXT]; exact ⟨by simpa using hm.2, by simpa using hm.1⟩
  | keyset o => simp [capAllows, capArg, codeOf, Id.ISTAT, Id.OSTAT, Id.OUT, Id.LED, Id.BUZ, Id.TEXT, Id.KEYSET]; simpa [MayAsk] using hm
  | mfg m => exact (hne m rfl).elim
  | comset m => exact (hnc m rfl).elim
  | status x =>
    obtain ⟨ty, a, b⟩ := x
    rcases hst _ rfl with h | h
    · obtain rfl : ty = .input := h
      have := hm.1 rfl
      simp [capAllows, codeOf]; exact ⟨by simpa using this.2, by simpa using this.1⟩
    · obtain rfl : ty = .output := h
      have := hm.2 rfl
      simp [capAllows, codeOf, Id.ISTAT, Id.OSTAT]; exact ⟨by simpa using this.2, by simpa using this.1⟩
  | _ => exact hv.elim

theorem recordsCmd_one {p q : Pd} {env : Env} {dec : List Byte → Option Cmd} {k : Nat} {body : List Byte} {c : Cmd} {o : List Out} {r : PdRet}
    (hk : 0 < k) (hl : body.length = k) (hd : dec body = some c) (hcap : capOk p (some c) = (p, true)) (hcb : env.cb.isNone = false)
    (h : recordsCmd p env dec k body = .ok (q, o, r)) : asked o = [c] := by
  unfold recordsCmd at h
  rw [if_neg (by rw [hl, hcb]; simp), hl, Nat.div_self hk] at h
  unfold records at h
  rw [List.take_of_length_le (by omega), hd] at h
  dsimp only at h
  rw [hcap] at h
  dsimp only at h
  obtain ⟨⟨p1, o1⟩, h1, h⟩ := Res.bind_eq_ok.mp h
  injection h with h; injection h with _ h; injection h with h _; subst h
  obtain ⟨⟨p2, o2, r2⟩, h2, h1⟩ := Res.bind_eq_ok.mp h1
  have := callback_asked h2
  cases r2 with
  | none => injection h1 with h1; injection h1 with _ h1; subst h1; exact this
  | some _ =>
    injection h1 with h1; injection h1 with _ h1; subst h1
    show asked (o2 ++ []) = _
    rw [List.append_nil]; exact this

theorem statusCmd_asked {p q : Pd} {env : Env} {ty : StatusType} {n : Nat} {o : List Out} {r : PdRet} (h : statusCmd p env ty n = .ok (q, o, r)) :
    asked o = [.status ⟨ty, 0, 0⟩] := by
  unfold statusCmd at h
  obtain ⟨⟨p2, o2, r2⟩, h2, h⟩ := Res.bind_eq_ok.mp h
  have := callback_asked h2
  rcases r2 with - | x
  · injection h with h; injection h with _ h; injection h with h _; subst h; exact this
  · cases x <;> first
      | cases h; done
      | injection h with h; injection h with _ h; injection h with h _; subst h; exact this

/-- What the PD hands out for the packet of a command. -/
theorem dispatch_valid {p q : Pd} {env : Env} {c : Cmd} {rest : List Byte} {o : List Out} {r : PdRet} (hv : Valid p.scActive c) (hm : MayAsk p.cap c)
    (hid : p.cmdId = codeOf c) (hcb : env.cb.isNone = false) (he : encode c = b8 (codeOf c) :: rest)
    (h : dispatch p env rest = .ok (q, o, r)) : asked o = [carried c] := by
  unfold dispatch at h
  rw [hid] at h
  dsimp only at h
  cases c with
  | output x =>
    simp only [codeOf] at h
    repeat rw [if_neg (by decide)] at h
    rw [if_pos trivial] at h
    simp only [encode, two, four, List.cons_append, List.nil_append] at he
    injection he with _ he; subst he
    refine recordsCmd_one (k := 4) (by decide) rfl ?_ (mayAsk_allows hv hm hid (by simp) (by simp) (by simp)) hcb h
    show some (Cmd.output ⟨_, _, _⟩) = _
    rw [ofNat_append_two]; rfl
  | led x =>
    simp only [codeOf] at h
    repeat rw [if_neg (by decide)] at h
    rw [if_pos trivial] at h
    simp only [encode, two, four, List.cons_append, List.nil_append] at he
    injection he with _ he; subst he
    refine recordsCmd_one (k := 14) (c := carried (.led x)) (by decide) rfl ?_ (mayAsk_allows (s := p.scActive) (c := carried (.led x)) hv hm hid (by simp [carried]) (by simp [carried]) (by simp [carried])) hcb h
    show some (Cmd.led ⟨_, _, ⟨_, _, _, _, _, _⟩, ⟨_, _, _, _, _, _⟩⟩) = _
    rw [ofNat_append_two]; rfl
  | buzzer x =>
    simp only [codeOf] at h
    repeat rw [if_neg (by decide)] at h
    rw [if_pos trivial] at h
    simp only [encode, two, four, List.cons_append, List.nil_append] at he
    injection he with _ he; subst he
    exact recordsCmd_one (k := 5) (by decide) rfl rfl (mayAsk_allows hv hm hid (by simp) (by simp) (by simp)) hcb h
  | text x =>
    have hx : x.length.toNat ≤ 32 := hv
    simp only [codeOf] at h
    repeat rw [if_neg (by decide)] at h
    rw [if_pos trivial] at h
    simp only [encode, two, four, List.cons_append, List.nil_append] at he
    injection he with _ he; subst he
    unfold textCmd at h
    rw [if_neg (by rw [hcb]; decide)] at h
    dsimp only [List.cons_append, List.nil_append] at h
    rw [if_neg (by simp [x.data.2]; omega), List.take_take, Nat.min_self] at h
    have hc := mayAsk_allows (s := p.scActive) (c := carried (.text x)) hv hm hid (by simp [carried]) (by simp [carried]) (by simp [carried])
    rw [show capArg (carried (.text x)) = some (.text ⟨x.reader, x.controlCode, x.tempTime, x.offsetRow, x.offsetCol, x.length, .padTo 32 (x.data.1.take x.length.toNat)⟩) from rfl] at hc
    rw [hc] at h
    dsimp only at h
    obtain ⟨⟨p2, o2, r2⟩, h2, h⟩ := Res.bind_eq_ok.mp h
    have := callback_asked h2
    cases r2 <;> (injection h with h; injection h with _ h; injection h with h _; subst h; exact this)
  | comset x =>
    simp only [codeOf] at h
    repeat rw [if_neg (by decide)] at h
    rw [if_pos trivial] at h
    simp only [encode, two, four, List.cons_append, List.nil_append] at he
    injection he with _ he; subst he
    unfold comsetCmd at h
    rw [if_neg (by rw [hcb]; decide)] at h
    dsimp only [List.cons_append, List.nil_append, four] at h
    have hb : ofLe [BitVec.ofNat 8 x.baudRate.toNat, BitVec.ofNat 8 (x.baudRate.toNat / 256), BitVec.ofNat 8 (x.baudRate.toNat / 65536), BitVec.ofNat 8 (x.baudRate.toNat / 16777216)] = x.baudRate.toNat := by
      have := x.baudRate.isLt
      simp [ofLe]; omega
    rw [hb, if_neg (by
      rintro (h | h)
      · have := hv.1; omega
      · apply h; unfold validBaud; exact List.contains_iff_mem.mpr hv.2)] at h
    obtain ⟨⟨p2, o2, r2⟩, h2, h⟩ := Res.bind_eq_ok.mp h
    have := callback_asked h2
    rw [BitVec.ofNat_toNat, BitVec.setWidth_eq] at this
    rcases r2 with - | x
    · injection h with h; injection h with _ h; injection h with h _; subst h; exact this
    · cases x <;> first
        | cases h; done
        | injection h with h; injection h with _ h; injection h with h _; subst h; exact this
  | mfg x =>
    have hx : x.length.toNat ≤ 64 := hv
    simp only [codeOf] at h
    repeat rw [if_neg (by decide)] at h
    rw [if_pos trivial] at h
    simp only [encode, two, four, List.cons_append, List.nil_append] at he
    injection he with _ he; subst he
    unfold mfgCmd at h
    rw [if_neg (by rw [hcb]; decide)] at h
    dsimp only [List.cons_append, List.nil_append] at h
    have hlen : (x.data.1.take x.length.toNat).length % 256 = x.length.toNat := by
      simp [x.data.2]; omega
    rw [hlen, if_neg (by omega), List.take_take, Nat.min_self] at h
    obtain ⟨⟨p2, o2, r2⟩, h2, h⟩ := Res.bind_eq_ok.mp h
    have := callback_asked h2
    have hb : ofLe [BitVec.ofNat 8 x.vendor.toNat, BitVec.ofNat 8 (x.vendor.toNat / 256), BitVec.ofNat 8 (x.vendor.toNat / 65536)] = x.vendor.toNat % 2 ^ 24 := by
      simp [ofLe]; omega
    rw [hb, show b8 x.length.toNat = x.length from by unfold b8; simp] at this
    cases r2 <;> (injection h with h; injection h with _ h; injection h with h _; subst h; exact this)
  | keyset x =>
    obtain ⟨h1, h2, h3⟩ := hv
    simp only [codeOf] at h
    repeat rw [if_neg (by decide)] at h
    rw [if_pos trivial] at h
    simp only [encode, two, four, List.cons_append, List.nil_append] at he
    injection he with _ he; subst he
    unfold keysetCmd at h
    rw [dif_neg (by simp [h3, x.data.2])] at h
    dsimp only [List.cons_append, List.nil_append, List.getElem_cons_zero, List.getElem_cons_succ, List.drop_succ_cons, List.drop_zero] at h
    rw [if_neg (by rw [h2, h3]; decide)] at h
    have hc := mayAsk_allows (s := p.scActive) (p := setNak p Nak.SC_COND) (c := .keyset x) ⟨h1, h2, h3⟩ hm hid (by simp) (by simp) (by simp)
    rw [show capArg (.keyset x) = none from rfl] at hc
    rw [hc] at h
    dsimp only at h
    rw [if_neg (show ¬ ¬ (setNak p Nak.SC_COND).scActive = true from not_not_intro h1), if_neg (by rw [hcb]; decide)] at h
    obtain ⟨⟨p2, o2, r2⟩, h4, h⟩ := Res.bind_eq_ok.mp h
    have := callback_asked h4
    rcases r2 with - | x
    · injection h with h; injection h with _ h; injection h with h _; subst h; exact this
    · cases x <;> first
        | cases h; done
        | injection h with h; injection h with _ h; injection h with h _; subst h; exact this
  | status x =>
    obtain ⟨ty, a, b⟩ := x
    cases ty with
    | other => exact (hv rfl).elim
    | input =>
      simp only [encode] at he
      injection he with _ he; subst he
      simp only [codeOf] at h
      repeat rw [if_neg (by decide)] at h
      rw [if_pos trivial] at h
      rw [if_neg (by rw [hcb]; decide)] at h
      have hc := mayAsk_allows (c := .status ⟨.input, a, b⟩) hv hm hid (by simp) (by simp) (by simp)
      rw [show capArg (.status ⟨.input, a, b⟩) = none from rfl] at hc
      rw [hc] at h
      exact statusCmd_asked h
    | output =>
      simp only [encode] at he
      injection he with _ he; subst he
      simp only [codeOf] at h
      repeat rw [if_neg (by decide)] at h
      rw [if_pos trivial] at h
      rw [if_neg (by rw [hcb]; decide)] at h
      have hc := mayAsk_allows (c := .status ⟨.output, a, b⟩) hv hm hid (by simp) (by simp) (by simp)
      rw [show capArg (.status ⟨.output, a, b⟩) = none from rfl] at hc
      rw [hc] at h
      exact statusCmd_asked h
    | localStat =>
      simp only [encode] at he
      injection he with _ he; subst he
      simp only [codeOf] at h
      repeat rw [if_neg (by decide)] at h
      rw [if_pos trivial] at h
      rw [if_neg (by decide)] at h
      exact statusCmd_asked h
    | remote =>
      simp only [encode] at he
      injection he with _ he; subst he
      simp only [codeOf] at h
      repeat rw [if_neg (by decide)] at h
      rw [if_pos trivial] at h
      rw [if_neg (by rw [hcb]; decide)] at h
      exact statusCmd_asked h
  | _ => exact hv.elim

end PdM
end Osdp
