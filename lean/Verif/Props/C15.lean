import Verif.Lemmas.Sc

/-!
# C15: encrypted data block round trip
-/

namespace Osdp

/-- Full statement: whatever payload one side encrypts, the other side, holding the same encryption
key and the same chaining value, decrypts to exactly that payload - for every cipher, key, chaining
value, payload (empty, ending in zeros or in the padding marker, …), in both directions, with or
without the empty-block compatibility flag, and whatever bytes follow in the packet. -/
theorem C15_roundtrip (C : Cipher) (allowEmpty isCmd : Bool) (snd rcv : Sc) (payload tail : List Byte)
    (hkey : rcv.sEnc = snd.sEnc) (hc : rcv.cMac = snd.cMac) (hr : rcv.rMac = snd.rMac) :
    Sc.decryptData C allowEmpty isCmd rcv (Sc.encryptData C isCmd snd payload ++ tail)
      (Sc.encryptData C isCmd snd payload).length = .ok (some payload) := by
  rw [Sc.encryptData_length]
  exact Sc.decrypt_encrypt C allowEmpty isCmd snd rcv payload tail hkey (by simp [Sc.dataIv, hc, hr])

/-- The same for the bundled AES, without any assumption on the cipher. -/
theorem C15_roundtrip_aes (allowEmpty isCmd : Bool) (sc : Sc) (payload : List Byte) :
    Sc.decryptData Aes.aes allowEmpty isCmd sc (Sc.encryptData Aes.aes isCmd sc payload)
      (Sc.encryptData Aes.aes isCmd sc payload).length = .ok (some payload) := by
  simpa using C15_roundtrip Aes.aes allowEmpty isCmd sc sc payload [] rfl rfl rfl

/-- The encrypted block is a whole number of cipher blocks, at least one, and at most one block longer
than the payload. -/
theorem C15_length (C : Cipher) (isCmd : Bool) (sc : Sc) (payload : List Byte) :
    (Sc.encryptData C isCmd sc payload).length % 16 = 0 ∧
    payload.length < (Sc.encryptData C isCmd sc payload).length ∧
    (Sc.encryptData C isCmd sc payload).length ≤ payload.length + 16 := by
  rw [Sc.encryptData_length]
  have := Sc.aesPadLen_mod (payload.length + 1)
  have := Sc.le_aesPadLen (payload.length + 1)
  have := Sc.aesPadLen_lt (payload.length + 1)
  omega

/-- Different payloads never encrypt to the same bytes. -/
theorem C15_injective (C : Cipher) (isCmd : Bool) (sc : Sc) (a b : List Byte)
    (h : Sc.encryptData C isCmd sc a = Sc.encryptData C isCmd sc b) : a = b := by
  have ha := C15_roundtrip C true isCmd sc sc a [] rfl rfl rfl
  have hb := C15_roundtrip C true isCmd sc sc b [] rfl rfl rfl
  rw [h, hb] at ha
  injection ha with h1
  injection h1 with h2
  exact h2.symm

/-- A cipher that does something, for the concrete cases below. -/
def xorCipher : Cipher :=
  { enc := fun k b => b.xor k, dec := fun k b => b.xor k, dec_enc := fun k b => Bytes.xor_xor b k }

/-- non-trivial case: a payload ending in marker and zero bytes, non-trivial key and MACs -/
example :
    let sc := { Sc.zero with sEnc := .fill 16 0x5A#8, rMac := .fill 16 0x11#8 }
    let payload : List Byte := [1#8, 0x80#8, 0#8, 0#8]
    Sc.encryptData xorCipher true sc payload ≠ payload ∧
    (Sc.encryptData xorCipher true sc payload).length = 16 ∧
    Sc.decryptData xorCipher false true sc (Sc.encryptData xorCipher true sc payload) 16
      = .ok (some payload) := by
  refine ⟨?_, ?_, ?_⟩ <;> decide +kernel

end Osdp
