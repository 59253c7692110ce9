import Verif.Model.Bytes
import Verif.Model.Cbc

/-!
# Specification: keys, cryptograms and MACs of the OSDP secure channel

Written from the OSDP v2 secure channel protocol, independently of the model of `osdp_sc.c`.
-/

namespace Osdp.Spec.Session

/-- the block `01 tag r0 .. r5 00 .. 00` -/
def seed (tag : Byte) (rnd : Half) : Block :=
  ⟨0x01#8 :: tag :: (rnd.1.take 6 ++ [0#8, 0#8, 0#8, 0#8, 0#8, 0#8, 0#8, 0#8]), by simp [rnd.2]⟩

/-- the three session keys for base key `k` and the CP's random number -/
def encKey (C : Cipher) (k : Block) (rnd : Half) : Block := C.enc k (seed 0x82#8 rnd)
def mac1Key (C : Cipher) (k : Block) (rnd : Half) : Block := C.enc k (seed 0x01#8 rnd)
def mac2Key (C : Cipher) (k : Block) (rnd : Half) : Block := C.enc k (seed 0x02#8 rnd)

/-- proof of the key holder: the peer's random number first, then its own -/
def cryptogram (C : Cipher) (sEnc : Block) (a b : Half) : Block := C.enc sEnc ⟨a.1 ++ b.1, by simp [a.2, b.2]⟩

/-- the default key -/
def defaultKey : Block := ⟨(List.range 16).map fun i => BitVec.ofNat 8 (0x30 + i), by simp⟩

/-- cut into blocks of 16 bytes; a last incomplete block is completed with `80 00 .. 00` -/
def chunks (l : List Byte) : List Block :=
  if h : l = [] then []
  else if h16 : l.length < 16 then [⟨l ++ 0x80#8 :: List.replicate (15 - l.length) 0#8, by simp; omega⟩]
  else ⟨l.take 16, by simp; omega⟩ :: chunks (l.drop 16)
termination_by l.length
decreasing_by
  have := List.length_pos_iff.mpr h
  simp; omega

/-- CBC-MAC: all blocks but the last with `k1`, the last with `k2`; `iv` is the MAC of the message before -/
def chain (C : Cipher) (k1 k2 : Block) : Block → List Block → Block
  | iv, [] => iv
  | iv, [b] => C.enc k2 (b.xor iv)
  | iv, b :: bs => chain C k1 k2 (C.enc k1 (b.xor iv)) bs

def mac (C : Cipher) (k1 k2 iv : Block) (msg : List Byte) : Block := chain C k1 k2 iv (chunks msg)

/-- The frame `f` (from SOM to the check value of one or two bytes) ends, before the check value, in the first four bytes of the MAC of
everything that precedes them. -/
def Authentic (C : Cipher) (k1 k2 iv : Block) (f : List Byte) : Prop :=
  ∃ msg tag chk, f = msg ++ tag ++ chk ∧ (chk.length = 1 ∨ chk.length = 2) ∧ tag.length = 4 ∧ tag = (mac C k1 k2 iv msg).1.take 4

/-- CBC decryption -/
def decipher (C : Cipher) (key : Block) : Block → List Block → List Byte
  | _, [] => []
  | iv, c :: cs => ((C.dec key c).xor iv).1 ++ decipher C key c cs

/-- The data block `ct` consists of whole blocks and decrypts, with the complement of `m` as initial vector, to the
plain text `d` followed by a marker byte and zeros. -/
def Opens (C : Cipher) (key m : Block) (ct d : List Byte) : Prop :=
  ct.length % 16 = 0 ∧ ∃ z, decipher C key m.compl (chunks ct) = d ++ 0x80#8 :: List.replicate z 0#8

end Osdp.Spec.Session
