import Verif.Base.Bytes
/-!
# AES-128 as FIPS-197 defines it

Bytes are elements of GF(2^8); nothing here mentions lookup tables.
-/
namespace Owamp.Spec.AES

/-- Multiplication by x modulo x^8+x^4+x^3+x+1 (FIPS-197 4.2.1). -/
def xtime (b : Byte) : Byte := (b <<< 1) ^^^ (0x1b#8 &&& b.sshiftRight 7)

/-- Multiplication in GF(2^8): add `a·x^i` for every bit `i` of `b`. -/
def gmulAux (b : Byte) : Nat → Nat → Byte → Byte
  | 0, _, _ => 0
  | n + 1, i, a => (if b.getLsbD i then a else 0) ^^^ gmulAux b n (i + 1) (xtime a)

def gmul (a b : Byte) : Byte := gmulAux b 8 0 a

/-- The multiplicative inverse, `x^254` (0 for 0). -/
def inv (x : Byte) : Byte :=
  let x2 := gmul x x
  let x4 := gmul x2 x2
  let x8 := gmul x4 x4
  let x16 := gmul x8 x8
  let x32 := gmul x16 x16
  let x64 := gmul x32 x32
  let x128 := gmul x64 x64
  gmul x2 (gmul x4 (gmul x8 (gmul x16 (gmul x32 (gmul x64 x128)))))

/-- SubBytes on one byte: inverse, then the affine map (FIPS-197 5.1.1). -/
def sbox (x : Byte) : Byte :=
  let b := inv x
  b ^^^ b.rotateLeft 1 ^^^ b.rotateLeft 2 ^^^ b.rotateLeft 3 ^^^ b.rotateLeft 4 ^^^ 0x63#8

/-- A column of the state, and a word of the key schedule: row 0 first. -/
structure Col where
  r0 : Byte
  r1 : Byte
  r2 : Byte
  r3 : Byte
deriving DecidableEq, Repr

def Col.xor (x y : Col) : Col := ⟨x.r0 ^^^ y.r0, x.r1 ^^^ y.r1, x.r2 ^^^ y.r2, x.r3 ^^^ y.r3⟩

/-- The state: four columns. Also a round key. -/
structure State where
  c0 : Col
  c1 : Col
  c2 : Col
  c3 : Col
deriving DecidableEq, Repr

/-- FIPS-197 5.1.4. -/
def addRoundKey (s k : State) : State := ⟨s.c0.xor k.c0, s.c1.xor k.c1, s.c2.xor k.c2, s.c3.xor k.c3⟩

def subCol (c : Col) : Col := ⟨sbox c.r0, sbox c.r1, sbox c.r2, sbox c.r3⟩
/-- FIPS-197 5.1.1. -/
def subBytes (s : State) : State := ⟨subCol s.c0, subCol s.c1, subCol s.c2, subCol s.c3⟩

/-- Row `r` moves left by `r` columns (FIPS-197 5.1.2). -/
def shiftRows (s : State) : State :=
  ⟨⟨s.c0.r0, s.c1.r1, s.c2.r2, s.c3.r3⟩, ⟨s.c1.r0, s.c2.r1, s.c3.r2, s.c0.r3⟩,
   ⟨s.c2.r0, s.c3.r1, s.c0.r2, s.c1.r3⟩, ⟨s.c3.r0, s.c0.r1, s.c1.r2, s.c2.r3⟩⟩

/-- FIPS-197 5.1.3: multiply by the matrix 02 03 01 01 / 01 02 03 01 / 01 01 02 03 / 03 01 01 02. -/
def mixCol (c : Col) : Col :=
  ⟨gmul 2 c.r0 ^^^ gmul 3 c.r1 ^^^ c.r2 ^^^ c.r3, c.r0 ^^^ gmul 2 c.r1 ^^^ gmul 3 c.r2 ^^^ c.r3,
   c.r0 ^^^ c.r1 ^^^ gmul 2 c.r2 ^^^ gmul 3 c.r3, gmul 3 c.r0 ^^^ c.r1 ^^^ c.r2 ^^^ gmul 2 c.r3⟩
def mixColumns (s : State) : State := ⟨mixCol s.c0, mixCol s.c1, mixCol s.c2, mixCol s.c3⟩

/-- FIPS-197 5.2: `x^(i-1)` as the constant of round `i` (counted from 0 here). -/
def rconByte : Nat → Byte
  | 0 => 1
  | n + 1 => xtime (rconByte n)

/-- One step of the key expansion (FIPS-197 5.2): RotWord, SubWord, Rcon. -/
def nextKey (k : State) (i : Nat) : State :=
  let t := k.c3
  let c0 := (k.c0.xor ⟨sbox t.r1, sbox t.r2, sbox t.r3, sbox t.r0⟩).xor ⟨rconByte i, 0, 0, 0⟩
  let c1 := k.c1.xor c0
  let c2 := k.c2.xor c1
  let c3 := k.c3.xor c2
  ⟨c0, c1, c2, c3⟩

/-- Round key `i`. -/
def roundKey (key : State) : Nat → State
  | 0 => key
  | n + 1 => nextKey (roundKey key n) n

/-- The state after the initial key addition and `n` full rounds. -/
def rounds (key s : State) : Nat → State
  | 0 => addRoundKey s key
  | n + 1 => addRoundKey (mixColumns (shiftRows (subBytes (rounds key s n)))) (roundKey key (n + 1))

/-- AES-128 (FIPS-197 5.1): nine full rounds and a last one without MixColumns. -/
def cipher (key s : State) : State :=
  addRoundKey (shiftRows (subBytes (rounds key s 9))) (roundKey key 10)

/-- 16 bytes fill the state column by column. -/
def ofBytes (l : Bytes) : State :=
  ⟨⟨l.getD 0 0, l.getD 1 0, l.getD 2 0, l.getD 3 0⟩, ⟨l.getD 4 0, l.getD 5 0, l.getD 6 0, l.getD 7 0⟩,
   ⟨l.getD 8 0, l.getD 9 0, l.getD 10 0, l.getD 11 0⟩,
   ⟨l.getD 12 0, l.getD 13 0, l.getD 14 0, l.getD 15 0⟩⟩

def toBytes (s : State) : Bytes :=
  [s.c0.r0, s.c0.r1, s.c0.r2, s.c0.r3, s.c1.r0, s.c1.r1, s.c1.r2, s.c1.r3,
   s.c2.r0, s.c2.r1, s.c2.r2, s.c2.r3, s.c3.r0, s.c3.r1, s.c3.r2, s.c3.r3]

/-- AES-128 on byte strings. -/
def encrypt (key blk : Bytes) : Bytes := toBytes (cipher (ofBytes key) (ofBytes blk))

/-- FIPS-197 appendix B. -/
example : encrypt
    [0x2b,0x7e,0x15,0x16,0x28,0xae,0xd2,0xa6,0xab,0xf7,0x15,0x88,0x09,0xcf,0x4f,0x3c]
    [0x32,0x43,0xf6,0xa8,0x88,0x5a,0x30,0x8d,0x31,0x31,0x98,0xa2,0xe0,0x37,0x07,0x34] =
    [0x39,0x25,0x84,0x1d,0x02,0xdc,0x09,0xfb,0xdc,0x11,0x85,0x97,0x19,0x6a,0x0b,0x32] := by
  decide +kernel

end Owamp.Spec.AES
