import Verif.Model.Rijndael
/-!
# Model of the CBC functions of `owamp/rijndael-api-fst.c` and of the token functions of `owamp/io.c`
-/
namespace Owamp.Cbc

/-- The four 32-bit exclusive-ors of a block with the IV (rijndael-api-fst.c:163-166, 205-208),
written bytewise. -/
def xorBlock (a b : Bytes) : Bytes := List.zipWith (· ^^^ ·) a b

/-- The loop of `blockEncrypt` (rijndael-api-fst.c:162-171) over `n` blocks. Returns the output and the
final `iv`, which line 174 copies to the caller's IV. -/
def encLoop (key : Bytes) : Nat → Bytes → Bytes → Bytes × Bytes
  | 0, iv, _ => ([], iv)
  | n + 1, iv, input =>
    let o := Rijndael.encrypt key (xorBlock (get input 0 16) iv)
    let r := encLoop key n o (input.drop 16)
    (o ++ r.1, r.2)

/-- `blockEncrypt` (rijndael-api-fst.c:138-177): `inputLen` is a number of bits, given here as the
length of `input` in bytes. -/
def blockEncrypt (key iv input : Bytes) : Bytes × Bytes := encLoop key (input.length * 8 / 128) iv input

/-- The loop of `blockDecrypt` (rijndael-api-fst.c:203-214). -/
def decLoop (key : Bytes) : Nat → Bytes → Bytes → Bytes × Bytes
  | 0, iv, _ => ([], iv)
  | n + 1, iv, input =>
    let o := xorBlock (Rijndael.decrypt key (get input 0 16)) iv
    let r := decLoop key n (get input 0 16) (input.drop 16)
    (o ++ r.1, r.2)

/-- `blockDecrypt` (rijndael-api-fst.c:184-219). -/
def blockDecrypt (key iv input : Bytes) : Bytes × Bytes := decLoop key (input.length * 8 / 128) iv input

/-- `I2pbkdf2` with HMAC-SHA1 from the external I2util library: pass-phrase, salt and count give a
16 byte key. -/
structure Kdf where
  derive : Bytes → Bytes → Nat → Bytes
  len : ∀ pf salt count, (derive pf salt count).length = 16

/-- `OWPEncryptToken` (io.c:176-208). -/
def encryptToken (K : Kdf) (pf salt : Bytes) (count : U32) (token : Bytes) : Bytes :=
  (blockEncrypt (K.derive pf salt count.toNat) (zeros 16) token).1

/-- `OWPDecryptToken` (io.c:210-242). -/
def decryptToken (K : Kdf) (pf salt : Bytes) (count : U32) (token : Bytes) : Bytes :=
  (blockDecrypt (K.derive pf salt count.toNat) (zeros 16) token).1

end Owamp.Cbc
