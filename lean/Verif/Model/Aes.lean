import Verif.Model.Bytes

/-!
# Bundled AES-128: src/crypto/tinyaes_src.c, src/crypto/tinyaes.c

The C code updates a `state_t` (`uint8_t[4][4]`, first index = column) in place; here each step
is a function on four columns of four bytes.
-/

namespace Osdp.Aes

/-- src/crypto/tinyaes_src.c:79-96 `sbox` -/
def sboxTable : List Byte :=
  [0x63#8, 0x7c#8, 0x77#8, 0x7b#8, 0xf2#8, 0x6b#8, 0x6f#8, 0xc5#8,
   0x30#8, 0x01#8, 0x67#8, 0x2b#8, 0xfe#8, 0xd7#8, 0xab#8, 0x76#8,
   0xca#8, 0x82#8, 0xc9#8, 0x7d#8, 0xfa#8, 0x59#8, 0x47#8, 0xf0#8,
   0xad#8, 0xd4#8, 0xa2#8, 0xaf#8, 0x9c#8, 0xa4#8, 0x72#8, 0xc0#8,
   0xb7#8, 0xfd#8, 0x93#8, 0x26#8, 0x36#8, 0x3f#8, 0xf7#8, 0xcc#8,
   0x34#8, 0xa5#8, 0xe5#8, 0xf1#8, 0x71#8, 0xd8#8, 0x31#8, 0x15#8,
   0x04#8, 0xc7#8, 0x23#8, 0xc3#8, 0x18#8, 0x96#8, 0x05#8, 0x9a#8,
   0x07#8, 0x12#8, 0x80#8, 0xe2#8, 0xeb#8, 0x27#8, 0xb2#8, 0x75#8,
   0x09#8, 0x83#8, 0x2c#8, 0x1a#8, 0x1b#8, 0x6e#8, 0x5a#8, 0xa0#8,
   0x52#8, 0x3b#8, 0xd6#8, 0xb3#8, 0x29#8, 0xe3#8, 0x2f#8, 0x84#8,
   0x53#8, 0xd1#8, 0x00#8, 0xed#8, 0x20#8, 0xfc#8, 0xb1#8, 0x5b#8,
   0x6a#8, 0xcb#8, 0xbe#8, 0x39#8, 0x4a#8, 0x4c#8, 0x58#8, 0xcf#8,
   0xd0#8, 0xef#8, 0xaa#8, 0xfb#8, 0x43#8, 0x4d#8, 0x33#8, 0x85#8,
   0x45#8, 0xf9#8, 0x02#8, 0x7f#8, 0x50#8, 0x3c#8, 0x9f#8, 0xa8#8,
   0x51#8, 0xa3#8, 0x40#8, 0x8f#8, 0x92#8, 0x9d#8, 0x38#8, 0xf5#8,
   0xbc#8, 0xb6#8, 0xda#8, 0x21#8, 0x10#8, 0xff#8, 0xf3#8, 0xd2#8,
   0xcd#8, 0x0c#8, 0x13#8, 0xec#8, 0x5f#8, 0x97#8, 0x44#8, 0x17#8,
   0xc4#8, 0xa7#8, 0x7e#8, 0x3d#8, 0x64#8, 0x5d#8, 0x19#8, 0x73#8,
   0x60#8, 0x81#8, 0x4f#8, 0xdc#8, 0x22#8, 0x2a#8, 0x90#8, 0x88#8,
   0x46#8, 0xee#8, 0xb8#8, 0x14#8, 0xde#8, 0x5e#8, 0x0b#8, 0xdb#8,
   0xe0#8, 0x32#8, 0x3a#8, 0x0a#8, 0x49#8, 0x06#8, 0x24#8, 0x5c#8,
   0xc2#8, 0xd3#8, 0xac#8, 0x62#8, 0x91#8, 0x95#8, 0xe4#8, 0x79#8,
   0xe7#8, 0xc8#8, 0x37#8, 0x6d#8, 0x8d#8, 0xd5#8, 0x4e#8, 0xa9#8,
   0x6c#8, 0x56#8, 0xf4#8, 0xea#8, 0x65#8, 0x7a#8, 0xae#8, 0x08#8,
   0xba#8, 0x78#8, 0x25#8, 0x2e#8, 0x1c#8, 0xa6#8, 0xb4#8, 0xc6#8,
   0xe8#8, 0xdd#8, 0x74#8, 0x1f#8, 0x4b#8, 0xbd#8, 0x8b#8, 0x8a#8,
   0x70#8, 0x3e#8, 0xb5#8, 0x66#8, 0x48#8, 0x03#8, 0xf6#8, 0x0e#8,
   0x61#8, 0x35#8, 0x57#8, 0xb9#8, 0x86#8, 0xc1#8, 0x1d#8, 0x9e#8,
   0xe1#8, 0xf8#8, 0x98#8, 0x11#8, 0x69#8, 0xd9#8, 0x8e#8, 0x94#8,
   0x9b#8, 0x1e#8, 0x87#8, 0xe9#8, 0xce#8, 0x55#8, 0x28#8, 0xdf#8,
   0x8c#8, 0xa1#8, 0x89#8, 0x0d#8, 0xbf#8, 0xe6#8, 0x42#8, 0x68#8,
   0x41#8, 0x99#8, 0x2d#8, 0x0f#8, 0xb0#8, 0x54#8, 0xbb#8, 0x16#8]

/-- src/crypto/tinyaes_src.c:99-115 `rsbox` -/
def rsboxTable : List Byte :=
  [0x52#8, 0x09#8, 0x6a#8, 0xd5#8, 0x30#8, 0x36#8, 0xa5#8, 0x38#8,
   0xbf#8, 0x40#8, 0xa3#8, 0x9e#8, 0x81#8, 0xf3#8, 0xd7#8, 0xfb#8,
   0x7c#8, 0xe3#8, 0x39#8, 0x82#8, 0x9b#8, 0x2f#8, 0xff#8, 0x87#8,
   0x34#8, 0x8e#8, 0x43#8, 0x44#8, 0xc4#8, 0xde#8, 0xe9#8, 0xcb#8,
   0x54#8, 0x7b#8, 0x94#8, 0x32#8, 0xa6#8, 0xc2#8, 0x23#8, 0x3d#8,
   0xee#8, 0x4c#8, 0x95#8, 0x0b#8, 0x42#8, 0xfa#8, 0xc3#8, 0x4e#8,
   0x08#8, 0x2e#8, 0xa1#8, 0x66#8, 0x28#8, 0xd9#8, 0x24#8, 0xb2#8,
   0x76#8, 0x5b#8, 0xa2#8, 0x49#8, 0x6d#8, 0x8b#8, 0xd1#8, 0x25#8,
   0x72#8, 0xf8#8, 0xf6#8, 0x64#8, 0x86#8, 0x68#8, 0x98#8, 0x16#8,
   0xd4#8, 0xa4#8, 0x5c#8, 0xcc#8, 0x5d#8, 0x65#8, 0xb6#8, 0x92#8,
   0x6c#8, 0x70#8, 0x48#8, 0x50#8, 0xfd#8, 0xed#8, 0xb9#8, 0xda#8,
   0x5e#8, 0x15#8, 0x46#8, 0x57#8, 0xa7#8, 0x8d#8, 0x9d#8, 0x84#8,
   0x90#8, 0xd8#8, 0xab#8, 0x00#8, 0x8c#8, 0xbc#8, 0xd3#8, 0x0a#8,
   0xf7#8, 0xe4#8, 0x58#8, 0x05#8, 0xb8#8, 0xb3#8, 0x45#8, 0x06#8,
   0xd0#8, 0x2c#8, 0x1e#8, 0x8f#8, 0xca#8, 0x3f#8, 0x0f#8, 0x02#8,
   0xc1#8, 0xaf#8, 0xbd#8, 0x03#8, 0x01#8, 0x13#8, 0x8a#8, 0x6b#8,
   0x3a#8, 0x91#8, 0x11#8, 0x41#8, 0x4f#8, 0x67#8, 0xdc#8, 0xea#8,
   0x97#8, 0xf2#8, 0xcf#8, 0xce#8, 0xf0#8, 0xb4#8, 0xe6#8, 0x73#8,
   0x96#8, 0xac#8, 0x74#8, 0x22#8, 0xe7#8, 0xad#8, 0x35#8, 0x85#8,
   0xe2#8, 0xf9#8, 0x37#8, 0xe8#8, 0x1c#8, 0x75#8, 0xdf#8, 0x6e#8,
   0x47#8, 0xf1#8, 0x1a#8, 0x71#8, 0x1d#8, 0x29#8, 0xc5#8, 0x89#8,
   0x6f#8, 0xb7#8, 0x62#8, 0x0e#8, 0xaa#8, 0x18#8, 0xbe#8, 0x1b#8,
   0xfc#8, 0x56#8, 0x3e#8, 0x4b#8, 0xc6#8, 0xd2#8, 0x79#8, 0x20#8,
   0x9a#8, 0xdb#8, 0xc0#8, 0xfe#8, 0x78#8, 0xcd#8, 0x5a#8, 0xf4#8,
   0x1f#8, 0xdd#8, 0xa8#8, 0x33#8, 0x88#8, 0x07#8, 0xc7#8, 0x31#8,
   0xb1#8, 0x12#8, 0x10#8, 0x59#8, 0x27#8, 0x80#8, 0xec#8, 0x5f#8,
   0x60#8, 0x51#8, 0x7f#8, 0xa9#8, 0x19#8, 0xb5#8, 0x4a#8, 0x0d#8,
   0x2d#8, 0xe5#8, 0x7a#8, 0x9f#8, 0x93#8, 0xc9#8, 0x9c#8, 0xef#8,
   0xa0#8, 0xe0#8, 0x3b#8, 0x4d#8, 0xae#8, 0x2a#8, 0xf5#8, 0xb0#8,
   0xc8#8, 0xeb#8, 0xbb#8, 0x3c#8, 0x83#8, 0x53#8, 0x99#8, 0x61#8,
   0x17#8, 0x2b#8, 0x04#8, 0x7e#8, 0xba#8, 0x77#8, 0xd6#8, 0x26#8,
   0xe1#8, 0x69#8, 0x14#8, 0x63#8, 0x55#8, 0x21#8, 0x0c#8, 0x7d#8]

/-- src/crypto/tinyaes_src.c:120-121 `Rcon` -/
def rconTable : List Byte :=
  [0x8d#8, 0x01#8, 0x02#8, 0x04#8, 0x08#8, 0x10#8, 0x20#8, 0x40#8, 0x80#8, 0x1b#8, 0x36#8]

/-- `getSBoxValue` (line 143); the table has 256 entries so the default is never used. -/
def sbox (b : Byte) : Byte := sboxTable.getD b.toNat 0#8

/-- `getSBoxInvert` (line 345) -/
def rsbox (b : Byte) : Byte := rsboxTable.getD b.toNat 0#8

/-- One column of the state / one word of the key schedule. -/
structure Word where
  b0 : Byte
  b1 : Byte
  b2 : Byte
  b3 : Byte
  deriving DecidableEq, Repr

/-- `state_t`: four columns. -/
structure State where
  c0 : Word
  c1 : Word
  c2 : Word
  c3 : Word
  deriving DecidableEq, Repr

/-- bytewise xor of words -/
def Word.xor (u v : Word) : Word :=
  ⟨u.b0 ^^^ v.b0, u.b1 ^^^ v.b1, u.b2 ^^^ v.b2, u.b3 ^^^ v.b3⟩

/-- apply a byte function to each byte of a word -/
def Word.map (f : Byte → Byte) (u : Word) : Word := ⟨f u.b0, f u.b1, f u.b2, f u.b3⟩

/-- lines 237-247 `AddRoundKey` (the round key already selected) -/
def addRoundKey (k s : State) : State :=
  ⟨s.c0.xor k.c0, s.c1.xor k.c1, s.c2.xor k.c2, s.c3.xor k.c3⟩

/-- lines 251-261 `SubBytes` -/
def subBytes (s : State) : State :=
  ⟨s.c0.map sbox, s.c1.map sbox, s.c2.map sbox, s.c3.map sbox⟩

/-- lines 266-292 `ShiftRows`: row r (byte index r of each column) rotated left by r columns -/
def shiftRows (s : State) : State :=
  ⟨⟨s.c0.b0, s.c1.b1, s.c2.b2, s.c3.b3⟩,
   ⟨s.c1.b0, s.c2.b1, s.c3.b2, s.c0.b3⟩,
   ⟨s.c2.b0, s.c3.b1, s.c0.b2, s.c1.b3⟩,
   ⟨s.c3.b0, s.c0.b1, s.c1.b2, s.c2.b3⟩⟩

/-- lines 294-297 `xtime` -/
def xtime (x : Byte) : Byte := (x <<< 1) ^^^ (((x >>> 7) &&& 1#8) * 0x1b#8)

/-- lines 300-313 `MixColumns`, one column -/
def mixColumn (w : Word) : Word :=
  let tmp := w.b0 ^^^ w.b1 ^^^ w.b2 ^^^ w.b3
  ⟨w.b0 ^^^ (xtime (w.b0 ^^^ w.b1) ^^^ tmp),
   w.b1 ^^^ (xtime (w.b1 ^^^ w.b2) ^^^ tmp),
   w.b2 ^^^ (xtime (w.b2 ^^^ w.b3) ^^^ tmp),
   w.b3 ^^^ (xtime (w.b3 ^^^ w.b0) ^^^ tmp)⟩

/-- lines 300-313 `MixColumns` -/
def mixColumns (s : State) : State :=
  ⟨mixColumn s.c0, mixColumn s.c1, mixColumn s.c2, mixColumn s.c3⟩

/-- lines 329-335 `Multiply(x, y)` -/
def multiply (x y : Byte) : Byte :=
  ((y &&& 1#8) * x) ^^^
  (((y >>> 1) &&& 1#8) * xtime x) ^^^
  (((y >>> 2) &&& 1#8) * xtime (xtime x)) ^^^
  (((y >>> 3) &&& 1#8) * xtime (xtime (xtime x))) ^^^
  (((y >>> 4) &&& 1#8) * xtime (xtime (xtime (xtime x))))

/-- lines 350-366 `InvMixColumns`, one column -/
def invMixColumn (w : Word) : Word :=
  ⟨multiply w.b0 0x0e#8 ^^^ multiply w.b1 0x0b#8 ^^^ multiply w.b2 0x0d#8 ^^^ multiply w.b3 0x09#8,
   multiply w.b0 0x09#8 ^^^ multiply w.b1 0x0e#8 ^^^ multiply w.b2 0x0b#8 ^^^ multiply w.b3 0x0d#8,
   multiply w.b0 0x0d#8 ^^^ multiply w.b1 0x09#8 ^^^ multiply w.b2 0x0e#8 ^^^ multiply w.b3 0x0b#8,
   multiply w.b0 0x0b#8 ^^^ multiply w.b1 0x0d#8 ^^^ multiply w.b2 0x09#8 ^^^ multiply w.b3 0x0e#8⟩

/-- lines 350-366 `InvMixColumns` -/
def invMixColumns (s : State) : State :=
  ⟨invMixColumn s.c0, invMixColumn s.c1, invMixColumn s.c2, invMixColumn s.c3⟩

/-- lines 371-381 `InvSubBytes` -/
def invSubBytes (s : State) : State :=
  ⟨s.c0.map rsbox, s.c1.map rsbox, s.c2.map rsbox, s.c3.map rsbox⟩

/-- lines 383-409 `InvShiftRows` -/
def invShiftRows (s : State) : State :=
  ⟨⟨s.c0.b0, s.c3.b1, s.c2.b2, s.c1.b3⟩,
   ⟨s.c1.b0, s.c0.b1, s.c3.b2, s.c2.b3⟩,
   ⟨s.c2.b0, s.c1.b1, s.c0.b2, s.c3.b3⟩,
   ⟨s.c3.b0, s.c2.b1, s.c1.b2, s.c0.b3⟩⟩

/-- lines 180-199: RotWord, SubWord and the round constant -/
def scheduleCore (i : Nat) (w : Word) : Word :=
  ⟨sbox w.b1 ^^^ rconTable.getD i 0#8, sbox w.b2, sbox w.b3, sbox w.b0⟩

/-- One full round key from the previous one: the four iterations `4i .. 4i+3` of the loop at
lines 161-216 of `KeyExpansion` (Nk = 4, so only the first of them uses `scheduleCore`). -/
def nextRoundKey (i : Nat) (k : State) : State :=
  let w0 := k.c0.xor (scheduleCore i k.c3)
  let w1 := k.c1.xor w0
  let w2 := k.c2.xor w1
  let w3 := k.c3.xor w2
  ⟨w0, w1, w2, w3⟩

/-- lines 146-217 `KeyExpansion`: round key number `r` (bytes `16r .. 16r+15` of `RoundKey`) -/
def roundKey (key : State) : Nat → State
  | 0 => key
  | r + 1 => nextRoundKey (r + 1) (roundKey key r)

/-- lines 425-433: rounds `r .. 9` of the loop in `Cipher` (`n = 10 - r` rounds left, the last of
which has no MixColumns) -/
def cipherRounds (key : State) : Nat → Nat → State → State
  | 0, r, s => addRoundKey (roundKey key r) (shiftRows (subBytes s))
  | n + 1, r, s =>
    cipherRounds key n (r + 1) (addRoundKey (roundKey key r) (mixColumns (shiftRows (subBytes s))))

/-- lines 413-436 `Cipher` (Nr = 10) -/
def cipher (key s : State) : State :=
  cipherRounds key 9 1 (addRoundKey (roundKey key 0) s)

/-- lines 449-458: the loop in `InvCipher` counting down to round 0 -/
def invCipherRounds (key : State) : Nat → State → State
  | 0, s => addRoundKey (roundKey key 0) (invSubBytes (invShiftRows s))
  | r + 1, s =>
    invCipherRounds key r
      (invMixColumns (addRoundKey (roundKey key (r + 1)) (invSubBytes (invShiftRows s))))

/-- lines 439-461 `InvCipher` -/
def invCipher (key s : State) : State :=
  invCipherRounds key 9 (addRoundKey (roundKey key 10) s)

/-- the cast `(state_t *)buf` -/
def ofBlock (b : Block) : State :=
  have := b.2
  ⟨⟨b.1[0], b.1[1], b.1[2], b.1[3]⟩, ⟨b.1[4], b.1[5], b.1[6], b.1[7]⟩,
   ⟨b.1[8], b.1[9], b.1[10], b.1[11]⟩, ⟨b.1[12], b.1[13], b.1[14], b.1[15]⟩⟩

/-- the bytes of a state in memory order -/
def toBlock (s : State) : Block :=
  ⟨[s.c0.b0, s.c0.b1, s.c0.b2, s.c0.b3, s.c1.b0, s.c1.b1, s.c1.b2, s.c1.b3,
    s.c2.b0, s.c2.b1, s.c2.b2, s.c2.b3, s.c3.b0, s.c3.b1, s.c3.b2, s.c3.b3], rfl⟩

/-- src/crypto/tinyaes.c:17-31 `osdp_encrypt` with `iv == NULL` -/
def encBlock (key b : Block) : Block := toBlock (cipher (ofBlock key) (ofBlock b))

/-- src/crypto/tinyaes.c:33-47 `osdp_decrypt` with `iv == NULL` -/
def decBlock (key b : Block) : Block := toBlock (invCipher (ofBlock key) (ofBlock b))

end Osdp.Aes
