import Verif.Model.Backend
import Verif.Lemmas.ScMem
import Verif.Props.C83

/-!
# C94: the secure channel does not depend on the cipher library
-/

namespace Osdp.Backend
open Osdp.Aes (aes)
open Osdp.Spec

/-! ### lemmas -/

theorem inPlace_run (f : List Block → List Block) (bs : List Block) (post : List Byte) {n : Nat} (hn : n = bs.length) :
    inPlace f (ofBlocks bs ++ post) n = .ok (ofBlocks (f bs) ++ post) := by
  have hl := ofBlocks_length bs
  unfold inPlace
  rw [if_pos (by rw [List.length_append]; omega), show 16 * n = (ofBlocks bs).length by omega, List.take_left, List.drop_left,
    toBlocks_ofBlocks]

/-- whole blocks are processed by every library in the same way; the initial value left behind may differ -/
theorem encrypt_run (lib : Lib) (C : Cipher) (key v : Block) (bs : List Block) (post : List Byte) (len : Int) (h : len = 16 * bs.length) :
    ∃ w, encrypt lib C key (some v) (ofBlocks bs ++ post) len = .ok (some w, ofBlocks (cbcEnc C key v bs) ++ post) := by
  subst h
  unfold encrypt
  cases lib
  · refine ⟨v, ?_⟩
    dsimp only [tinyaes]
    rw [if_neg (by omega), inPlace_run _ bs post (by omega)]
    rfl
  · refine ⟨v, ?_⟩
    dsimp only [openssl]
    rw [if_neg (by omega), inPlace_run _ bs post (by omega), Res.ok_bind, if_neg (by omega)]
  · refine ⟨lastBlock v (ofBlocks (cbcEnc C key v bs) ++ post) ((16 * (bs.length : Int)).toNat / 16), ?_⟩
    dsimp only [mbedtls]
    rw [if_neg (by omega), if_neg (by omega), inPlace_run _ bs post (by omega), Res.ok_bind]
    rfl

theorem decrypt_run (lib : Lib) (C : Cipher) (key v : Block) (bs : List Block) (post : List Byte) (len : Int) (h : len = 16 * bs.length) :
    ∃ w, decrypt lib C key (some v) (ofBlocks bs ++ post) len = .ok (some w, ofBlocks (cbcDec C key v bs) ++ post) := by
  subst h
  unfold decrypt
  cases lib
  · refine ⟨v, ?_⟩
    dsimp only [tinyaes]
    rw [if_neg (by omega), inPlace_run _ bs post (by omega)]
    rfl
  · refine ⟨v, ?_⟩
    dsimp only [openssl]
    rw [if_neg (by omega), inPlace_run _ bs post (by omega), Res.ok_bind, if_neg (by omega)]
  · refine ⟨lastBlock v (ofBlocks bs ++ post) ((16 * (bs.length : Int)).toNat / 16), ?_⟩
    dsimp only [mbedtls]
    rw [if_neg (by omega), if_neg (by omega), inPlace_run _ bs post (by omega), Res.ok_bind]
    rfl

theorem ecb_run (lib : Lib) (C : Cipher) (key b : Block) (post : List Byte) :
    encrypt lib C key none (b.1 ++ post) 16 = .ok (none, (C.enc key b).1 ++ post) ∧
    decrypt lib C key none (b.1 ++ post) 16 = .ok (none, (C.dec key b).1 ++ post) := by
  have e : ∀ x : Block, x.1 ++ post = ofBlocks [x] ++ post := fun x => by simp [ofBlocks]
  rw [e, e, e]
  cases lib
  · exact ⟨by dsimp only [encrypt, tinyaes]; rw [if_neg (by omega), inPlace_run (n := 1) _ [b] post rfl]; rfl,
      by dsimp only [decrypt, tinyaes]; rw [if_neg (by omega), inPlace_run (n := 1) _ [b] post rfl]; rfl⟩
  · exact ⟨by dsimp only [encrypt, openssl]; rw [if_neg (by omega), inPlace_run (n := Int.toNat 16 / 16) _ [b] post rfl]; rfl,
      by dsimp only [decrypt, openssl]; rw [if_neg (by omega), inPlace_run (n := Int.toNat 16 / 16) _ [b] post rfl]; rfl⟩
  · exact ⟨by dsimp only [encrypt, mbedtls]; rw [if_neg (by omega), inPlace_run (n := 1) _ [b] post rfl]; rfl,
      by dsimp only [decrypt, mbedtls]; rw [if_neg (by omega), inPlace_run (n := 1) _ [b] post rfl]; rfl⟩

theorem blockAt_run (pre : List Byte) (b : Block) (post : List Byte) {o : Nat} (ho : o = pre.length) : blockAt (pre ++ (b.1 ++ post)) o = .ok b := by
  unfold blockAt
  rw [ho, List.drop_left, toBlocks_cons b.1 b.2]

theorem one_run (lib : Lib) (C : Cipher) (key b : Block) : one lib C key b = .ok (C.enc key b) := by
  unfold one
  rw [show b.1 = b.1 ++ [] by simp, (ecb_run lib C key b []).1, Res.ok_bind]
  exact blockAt_run [] (C.enc key b) [] rfl

theorem whole {l : List Byte} (h : l.length % 16 = 0) : ∃ bs, l = ofBlocks bs ∧ l.length = 16 * bs.length :=
  ⟨toBlocks l, (ofBlocks_toBlocks l h).symm, by rw [toBlocks_length]; omega⟩

theorem padMac_length (d : List Byte) : (Sc.padMac d).length = Sc.aesPadLen d.length := by
  unfold Sc.padMac Sc.aesPadLen
  split
  · omega
  · simp
    omega

theorem macChain_run (lib : Lib) (C : Cipher) (k iv last : Block) (init : List Block) (z : List Byte) {pad : Nat} (hp : pad = 16 * (init.length + 1)) :
    macChain lib C k iv (ofBlocks init ++ (last.1 ++ z)) pad =
      .ok ((cbcEnc C k iv init).getLast?.getD iv, ofBlocks (cbcEnc C k iv init) ++ (last.1 ++ z)) := by
  unfold macChain
  by_cases hi : init = []
  · subst hi
    rw [if_neg (by simp at hp; omega)]
    rfl
  · have hpos : 0 < init.length := List.length_pos_iff.mpr hi
    rw [if_pos (by omega)]
    obtain ⟨w, hw⟩ := encrypt_run lib C k iv init (last.1 ++ z) ((pad - 16 : Nat) : Int) (by omega)
    rw [hw, Res.ok_bind]
    have hl := AesMem.cbcEnc_length C k iv init
    have hne : cbcEnc C k iv init ≠ [] := fun h => by rw [h] at hl; simp at hl; omega
    dsimp only
    have hsplit := List.dropLast_concat_getLast hne
    have hd : (cbcEnc C k iv init).dropLast.length = init.length - 1 := by rw [List.length_dropLast, hl]
    have hb := blockAt_run (ofBlocks (cbcEnc C k iv init).dropLast) ((cbcEnc C k iv init).getLast hne) (last.1 ++ z) (o := pad - 32)
      (by rw [ofBlocks_length, hd]; omega)
    have he : ofBlocks (cbcEnc C k iv init).dropLast ++ (((cbcEnc C k iv init).getLast hne).1 ++ (last.1 ++ z)) =
        ofBlocks (cbcEnc C k iv init) ++ (last.1 ++ z) := by
      have h2 := congrArg ofBlocks hsplit
      rw [ScMem.ofBlocks_append] at h2
      rw [← h2]
      simp [ofBlocks]
    rw [he] at hb
    rw [hb, Res.ok_bind, List.getLast?_eq_some_getLast hne]
    rfl

/-! ### theorems -/

/-- **C94 (the library calls).** Whatever library is built in, whole blocks are enciphered and deciphered in place as SP 800-38A
says, with FIPS 197 as the cipher; the bytes behind them stay as they are. -/
theorem C94_calls (lib : Lib) (key v : Block) (data post : List Byte) (h : data.length % 16 = 0) :
    (∃ w out, encrypt lib aes key (some v) (data ++ post) data.length = .ok (w, out ++ post) ∧ Cbc.Chained key v data out) ∧
    (∃ w out, decrypt lib aes key (some v) (data ++ post) data.length = .ok (w, out ++ post) ∧ Cbc.Chained key v out data) := by
  obtain ⟨bs, hbs, hlen⟩ := whole h
  subst hbs
  obtain ⟨w, hw⟩ := encrypt_run lib aes key v bs post ((ofBlocks bs).length : Int) (by rw [hlen]; rfl)
  obtain ⟨w', hw'⟩ := decrypt_run lib aes key v bs post ((ofBlocks bs).length : Int) (by rw [hlen]; rfl)
  exact ⟨⟨_, _, hw, AesMem.chained_enc key v bs⟩, ⟨_, _, hw', AesMem.chained_dec key v bs⟩⟩

/-- **C94 (handshake).** Keys, cryptograms and first MAC are those of the other models (and so of C20-C22, C25, C88). -/
theorem C94_handshake (lib : Lib) (C : Cipher) (useScbkd : Bool) (sc : Sc) :
    sessionKeys lib C useScbkd sc = .ok (Sc.sessionKeys C useScbkd sc) ∧
    cryptograms lib C sc = .ok ((Sc.computeCpCryptogram C sc).cpCryptogram, (Sc.computePdCryptogram C sc).pdCryptogram) ∧
    rmacI lib C sc = .ok (Sc.computeRmacI C sc).rMac := by
  refine ⟨?_, ?_, ?_⟩
  · unfold sessionKeys; simp only [one_run, Res.ok_bind]; rfl
  · unfold cryptograms; simp only [one_run, Res.ok_bind]; rfl
  · unfold rmacI; simp only [one_run, Res.ok_bind]; rfl

/-- **C94 (data and MAC).** Enciphering, deciphering and MAC give what they give in the other models, with every library. -/
theorem C94_session (lib : Lib) (C : Cipher) (isCmd allowEmpty : Bool) (sc : Sc) (mem : List Byte) :
    (∀ n, Sc.aesPadLen (n + 1) ≤ mem.length → n ≤ mem.length →
      encryptData lib C isCmd sc mem n =
        .ok (Sc.aesPadLen (n + 1), Sc.encryptData C isCmd sc (mem.take n) ++ mem.drop (Sc.aesPadLen (n + 1)))) ∧
    (∀ n : Nat, n ≤ mem.length → decryptData lib C allowEmpty isCmd sc mem n = Sc.decryptData C allowEmpty isCmd sc mem n) ∧
    computeMac lib C isCmd sc mem = Sc.computeMac C isCmd sc mem := by
  refine ⟨fun n h1 h2 => ?_, fun n hn => ?_, ?_⟩
  · have hp : (Sc.padData (mem.take n)).length = Sc.aesPadLen (n + 1) := by
      rw [Sc.padData_length, List.length_take, Nat.min_eq_left h2]
    obtain ⟨bs, hbs, hlen⟩ := whole (l := Sc.padData (mem.take n)) (by rw [hp]; exact Sc.aesPadLen_mod _)
    unfold encryptData
    rw [if_neg (by omega)]
    obtain ⟨w, hw⟩ := encrypt_run lib C sc.sEnc (Sc.dataIv isCmd sc) bs (mem.drop (Sc.aesPadLen (n + 1))) (Sc.aesPadLen (n + 1) : Int)
      (by rw [← hp, hlen]; rfl)
    rw [← hbs] at hw
    rw [hw, Res.ok_bind]
    unfold Sc.encryptData
    rw [show toBlocks (Sc.padData (mem.take n)) = bs by rw [hbs, toBlocks_ofBlocks]]
  · unfold decryptData Sc.decryptData
    by_cases h16 : (n : Int) % 16 ≠ 0
    · rw [if_pos h16, if_pos h16]
    · rw [if_neg h16, if_neg h16, if_neg (show ¬ (n : Int) < 0 by omega)]
      by_cases h0 : (n : Int) = 0
      · have hz : n = 0 := by omega
        subst hz
        rw [if_pos (show ((0 : Nat) : Int) = 0 from rfl)]
        by_cases ha : allowEmpty = true
        · rw [if_pos ⟨ha, rfl⟩, if_pos ha]
        · rw [if_neg (fun h => ha h.1), if_neg ha]
          obtain ⟨w, hw⟩ := decrypt_run lib C sc.sEnc (Sc.dataIv isCmd sc) [] mem 0 rfl
          rw [show ofBlocks [] ++ mem = mem from rfl] at hw
          rw [show ((0 : Nat) : Int) = 0 from rfl, hw, Res.ok_bind]
          rfl
      · rw [if_neg (fun h => h0 h.2), if_neg h0]
        obtain ⟨bs, hbs, hlen⟩ := whole (l := mem.take n) (by rw [List.length_take, Nat.min_eq_left hn]; omega)
        rw [List.length_take, Nat.min_eq_left hn] at hlen
        obtain ⟨w, hw⟩ := decrypt_run lib C sc.sEnc (Sc.dataIv isCmd sc) bs (mem.drop n) (n : Int) (by rw [hlen]; rfl)
        rw [← hbs, List.take_append_drop] at hw
        rw [hw, Res.ok_bind, Int.toNat_natCast, hbs, toBlocks_ofBlocks]
        dsimp only
        rw [List.take_left' (by rw [ofBlocks_length, AesMem.cbcDec_length, hlen])]
  · unfold computeMac Sc.computeMac
    by_cases hl : mem.length > 256
    · rw [if_pos hl, if_pos hl]
    · rw [if_neg hl, if_neg hl]
      by_cases he : mem = []
      · subst he
        rw [if_pos rfl, show Sc.padMac [] = [] from rfl, toBlocks_nil]
        rfl
      · rw [if_neg he]
        have hpos : 0 < mem.length := List.length_pos_iff.mpr he
        have hp := padMac_length mem
        unfold Sc.aesPadLen at hp
        obtain ⟨bs, hbs, hlen⟩ := whole (l := Sc.padMac mem) (by omega)
        rw [hbs, toBlocks_ofBlocks]
        have hne : bs ≠ [] := by rintro rfl; rw [hp, List.length_nil] at hlen; omega
        generalize hiv : (if isCmd = true then sc.rMac else sc.cMac) = iv
        have hsplit := List.dropLast_concat_getLast hne
        generalize hini : bs.dropLast = init at hsplit
        generalize hlst : bs.getLast hne = last at hsplit
        have hbl : bs.length = init.length + 1 := by rw [← hsplit]; simp
        have hbuf : ofBlocks bs ++ List.replicate (256 - (ofBlocks bs).length) 0#8 =
            ofBlocks init ++ (last.1 ++ List.replicate (256 - (ofBlocks bs).length) 0#8) := by
          have h2 := congrArg ofBlocks hsplit
          rw [ScMem.ofBlocks_append] at h2
          generalize List.replicate (256 - (ofBlocks bs).length) 0#8 = z
          rw [← h2]
          simp [ofBlocks]
        have hol := ofBlocks_length bs
        dsimp only
        rw [hbuf, macChain_run lib C sc.sMac1 iv last init _ (by omega), Res.ok_bind]
        dsimp only
        have hd : (ofBlocks (cbcEnc C sc.sMac1 iv init)).length = (ofBlocks bs).length - 16 := by
          rw [ofBlocks_length, AesMem.cbcEnc_length]; omega
        rw [← hd, List.drop_left]
        obtain ⟨w, hw⟩ := encrypt_run lib C sc.sMac2 ((cbcEnc C sc.sMac1 iv init).getLast?.getD iv) [last]
          (List.replicate (256 - (ofBlocks bs).length) 0#8) 16 rfl
        rw [show ofBlocks [last] = last.1 by simp [ofBlocks]] at hw
        rw [hw, Res.ok_bind]
        have hm : Sc.macBlocks C sc.sMac1 sc.sMac2 iv bs = some (C.enc sc.sMac2 (last.xor ((cbcEnc C sc.sMac1 iv init).getLast?.getD iv))) := by
          unfold Sc.macBlocks
          rw [List.getLast?_eq_some_getLast hne, hlst, hini]
        rw [hm]
        dsimp only
        rw [show ofBlocks (cbcEnc C sc.sMac2 ((cbcEnc C sc.sMac1 iv init).getLast?.getD iv) [last]) =
          (C.enc sc.sMac2 (last.xor ((cbcEnc C sc.sMac1 iv init).getLast?.getD iv))).1 by simp [ofBlocks, cbcEnc]]
        rw [show ∀ (x : Block) (y : List Byte), blockAt (x.1 ++ y) 0 = .ok x from fun x y => blockAt_run [] x y rfl, Res.ok_bind]

/-- **C94 (two libraries).** What one end has sealed with one library the other end opens with another, and they agree on the MAC. -/
theorem C94_interop (lib lib' : Lib) (C : Cipher) (isCmd allowEmpty : Bool) (sc : Sc) (data room : List Byte) (h : data.length + 16 ≤ (data ++ room).length) :
    ∃ n mem, encryptData lib C isCmd sc (data ++ room) data.length = .ok (n, mem) ∧ n ≤ mem.length ∧
      decryptData lib' C allowEmpty isCmd sc mem n = .ok (some data) ∧
      computeMac lib C isCmd sc (mem.take n) = computeMac lib' C isCmd sc (mem.take n) := by
  have hp : Sc.aesPadLen (data.length + 1) ≤ data.length + 16 := by unfold Sc.aesPadLen; omega
  have he := (C94_session lib C isCmd allowEmpty sc (data ++ room)).1 data.length (by omega) (by rw [List.length_append]; omega)
  rw [List.take_left] at he
  have hl : (Sc.encryptData C isCmd sc data).length = Sc.aesPadLen (data.length + 1) := by
    unfold Sc.encryptData
    rw [ofBlocks_length, AesMem.cbcEnc_length, toBlocks_length, Sc.padData_length]
    have := Sc.aesPadLen_mod (data.length + 1)
    omega
  refine ⟨_, _, he, by rw [List.length_append, hl]; omega, ?_, ?_⟩
  · rw [(C94_session lib' C isCmd allowEmpty sc _).2.1 _ (by rw [List.length_append, hl]; omega)]
    unfold Sc.decryptData
    have hm := Sc.aesPadLen_mod (data.length + 1)
    have hpos : 0 < Sc.aesPadLen (data.length + 1) := by unfold Sc.aesPadLen; omega
    rw [if_neg (by omega), if_neg (by omega), if_neg (by omega), Int.toNat_natCast, List.take_left' hl]
    unfold Sc.encryptData
    rw [toBlocks_ofBlocks, cbcDec_cbcEnc, ofBlocks_toBlocks _ (by rw [Sc.padData_length]; exact hm), Sc.stripPad_padData]
  · rw [(C94_session lib C isCmd allowEmpty sc _).2.2, (C94_session lib' C isCmd allowEmpty sc _).2.2]

/-- **C94, where the libraries differ.** A negative length (an overlong security block, `C92_overlong`) runs over the memory with two
of them and stops the process with the third. -/
theorem C94_negative (C : Cipher) (allowEmpty isCmd : Bool) (sc : Sc) (mem : List Byte) (n : Nat) :
    decryptData .tinyaes C allowEmpty isCmd sc mem (-16 * (n + 1)) = .error .oobWrite ∧
    decryptData .mbedtls C allowEmpty isCmd sc mem (-16 * (n + 1)) = .error .oobWrite ∧
    decryptData .openssl C allowEmpty isCmd sc mem (-16 * (n + 1)) = .error .assertFail := by
  have h1 : ¬ (-16 * ((n : Int) + 1)) % 16 ≠ 0 := by omega
  have h2 : ¬ (allowEmpty = true ∧ -16 * ((n : Int) + 1) = 0) := fun h => by omega
  have h3 : -16 * ((n : Int) + 1) < 0 := by omega
  refine ⟨?_, ?_, ?_⟩
  · unfold decryptData decrypt
    dsimp only [tinyaes]
    rw [if_neg h1, if_neg h2, if_pos h3]; rfl
  · unfold decryptData decrypt
    dsimp only [mbedtls]
    rw [if_neg h1, if_neg h2, if_neg h1, if_pos h3]; rfl
  · unfold decryptData decrypt
    dsimp only [openssl]
    rw [if_neg h1, if_neg h2, if_pos h3]; rfl

/-- every use found the objects ready -/
def AllReady (l : List (Use × Bool)) : Prop := ∀ x ∈ l, x.2 = true

theorem ready_append (lib : Lib) (s : Objects) (a b : List Use) :
    ready lib s (a ++ b) = ready lib s a ++ ready lib (a.foldl (fun s u => (use lib s u).1) s) b := by
  induction a generalizing s with
  | nil => rfl
  | cons u us ih => rw [List.cons_append, ready, ready, ih, List.cons_append, List.foldl_cons]

/-- **C94 (objects), the libraries without global objects.** -/
theorem C94_stateless (lib : Lib) (h : lib ≠ .mbedtls) (acts : List Act) : AllReady (history lib acts) := by
  unfold history
  generalize acts.flatMap Act.uses = us
  generalize ({} : Objects) = s
  induction us generalizing s with
  | nil => intro x hx; cases hx
  | cons u us ih =>
    intro x hx
    rcases List.mem_cons.mp hx with rfl | hx
    · cases lib <;> first | rfl | exact absurd rfl h
    · exact ih _ x hx

/-- a CP alone in its process draws from a seeded generator -/
theorem cp_draws (s : Objects) (acts : List Act) (h : ∀ a ∈ acts, a ≠ .answer) :
    ∀ x ∈ ready .mbedtls s (acts.flatMap Act.uses), x.1 = .draw → x.2 = true := by
  induction acts generalizing s with
  | nil => intro x hx; cases hx
  | cons a as ih =>
    have ih' := fun s => ih s (fun b hb => h b (List.mem_cons_of_mem _ hb))
    have ha := h a List.mem_cons_self
    intro x hx hd
    rw [List.flatMap_cons, ready_append] at hx
    rcases List.mem_append.mp hx with hx | hx
    · cases a
      · rcases List.mem_cons.mp hx with rfl | hx
        · rfl
        · rcases List.mem_cons.mp hx with rfl | hx
          · rfl
          · cases hx
      · exact absurd rfl ha
      · rcases List.mem_cons.mp hx with rfl | hx
        · cases hd
        · cases hx
      · rcases List.mem_cons.mp hx with rfl | hx
        · rfl
        · cases hx
    · exact ih' _ x hx hd

/-- the handshakes and sessions of a CP with a single PD -/
def sessions : List Nat → List Act
  | [] => []
  | n :: ns => .challenge :: (List.replicate n .crypt ++ .drop :: sessions ns)

theorem session_ready (s : Objects) (ns : List Nat) : AllReady (ready .mbedtls s ((sessions ns).flatMap Act.uses)) := by
  induction ns generalizing s with
  | nil => intro x hx; cases hx
  | cons n ns ih =>
    have hk : ∀ k, AllReady (ready .mbedtls ⟨true, true⟩ ((List.replicate k Act.crypt ++ .drop :: sessions ns).flatMap Act.uses)) := by
      intro k
      induction k with
      | zero =>
        intro x hx
        rcases List.mem_cons.mp hx with rfl | hx
        · rfl
        · exact ih _ x hx
      | succ k ihk =>
        intro x hx
        rw [List.replicate_succ, List.cons_append, List.flatMap_cons] at hx
        rcases List.mem_cons.mp hx with rfl | hx
        · rfl
        · exact ihk x hx
    intro x hx
    rcases List.mem_cons.mp hx with rfl | hx
    · rfl
    · rcases List.mem_cons.mp hx with rfl | hx
      · rfl
      · exact hk n x hx

/-- **C94 (objects), a CP with mbedtls.** Full statement: whatever its PDs do, every object is ready when it is used.  Proved for the
random numbers, and for everything if there is only one PD.  Missing: the cipher with several PDs (`C94_objects`). -/
theorem C94_cp_partial (acts : List Act) (h : ∀ a ∈ acts, a ≠ .answer) :
    (∀ x ∈ history .mbedtls acts, x.1 = .draw → x.2 = true) ∧ (∀ ns, acts = sessions ns → AllReady (history .mbedtls acts)) :=
  ⟨cp_draws {} acts h, fun ns e => e ▸ session_ready {} ns⟩

theorem pd_never (s : Objects) (hs : s = {}) (us : List Use) (h : ∀ u ∈ us, u ≠ .setup) :
    ∀ x ∈ ready .mbedtls s us, x.1 ≠ .teardown → x.2 = false := by
  induction us generalizing s with
  | nil => intro x hx; cases hx
  | cons u us ih =>
    intro x hx hd
    have hu := h u List.mem_cons_self
    rcases List.mem_cons.mp hx with rfl | hx
    · cases u
      · exact absurd rfl hu
      · rw [hs]; rfl
      · rw [hs]; rfl
      · exact absurd rfl hd
    · refine ih _ ?_ (fun v hv => h v (List.mem_cons_of_mem _ hv)) x hx hd
      rw [hs]
      cases u
      · exact absurd rfl hu
      all_goals rfl

/-- **C94 (objects), refuted.** A PD alone in its process never seeds the generator it draws its challenge from, nor initialises the
cipher object; with a CP, the end of the session of one PD frees what the session of another goes on using. -/
theorem C94_objects :
    (∀ acts : List Act, (∀ a ∈ acts, a ≠ .challenge) → ∀ x ∈ history .mbedtls acts, x.1 ≠ .teardown → x.2 = false) ∧
    history .mbedtls [.challenge, .crypt, .challenge, .crypt, .drop, .crypt] =
      [(.setup, true), (.draw, true), (.cipher, true), (.setup, true), (.draw, true), (.cipher, true), (.teardown, true), (.cipher, false)] := by
  refine ⟨fun acts h => pd_never {} rfl _ (fun u hu => ?_), by decide⟩
  obtain ⟨a, ha, hu⟩ := List.mem_flatMap.mp hu
  have hc := h a ha
  cases a
  · exact absurd rfl hc
  all_goals rintro rfl; simp [Act.uses] at hu

/-! ### examples -/

/-- the libraries on two blocks and a rest: the data is the same, the initial value is not -/
example : ∃ w m, encrypt .mbedtls aes (.zero 16) (some (.zero 16)) (List.replicate 40 1#8) 32 = .ok (some w, m) ∧
    encrypt .tinyaes aes (.zero 16) (some (.zero 16)) (List.replicate 40 1#8) 32 = .ok (some (.zero 16), m) ∧ w ≠ .zero 16 ∧ m.drop 32 = List.replicate 8 1#8 := by
  refine ⟨lastBlock (.zero 16) (ofBlocks (cbcEnc aes (.zero 16) (.zero 16) (toBlocks (List.replicate 32 1#8))) ++ List.replicate 8 1#8) 2,
    ofBlocks (cbcEnc aes (.zero 16) (.zero 16) (toBlocks (List.replicate 32 1#8))) ++ List.replicate 8 1#8, ?_, ?_, ?_, ?_⟩ <;> decide +kernel
/-- an incomplete block (no caller has one) is where they part -/
example : (encrypt .tinyaes aes (.zero 16) (some (.zero 16)) (List.replicate 40 1#8) 20 matches .ok _) = true ∧
    encrypt .openssl aes (.zero 16) (some (.zero 16)) (List.replicate 40 1#8) 20 = .error .assertFail ∧
    encrypt .mbedtls aes (.zero 16) (some (.zero 16)) (List.replicate 40 1#8) 20 = .error .assertFail := by
  refine ⟨?_, ?_, ?_⟩ <;> decide +kernel
/-- data with room behind it for `C94_interop` and `C94_session` -/
example : [1#8, 2#8].length + 16 ≤ ([1#8, 2#8] ++ List.replicate 20 7#8).length := by decide
example : sessions [2, 0] = [.challenge, .crypt, .crypt, .drop, .challenge, .drop] ∧ ∀ a ∈ sessions [2, 0], a ≠ .answer := by decide
example : history .mbedtls [.answer, .crypt, .drop] = [(.draw, false), (.cipher, false), (.cipher, false), (.teardown, true)] := by decide

end Osdp.Backend
