import Verif.Lemmas.RijndaelBij
import Verif.Lemmas.RijndaelRounds
/-!
# C58: the bundled block cipher

The theorems hold for every key and every block; a key or block shorter than 16 bytes cannot occur in
the C code (fixed arrays), in the model missing bytes read as zero.
-/
namespace Owamp.Props

/-- **C58.** The table-driven encryption is AES-128 as FIPS-197 defines it, for every key and block. -/
theorem C58_is_aes (key blk : Bytes) : Rijndael.encrypt key blk = Spec.AES.encrypt key blk :=
  Rijndael.encrypt_eq key blk

/-- **C58.** Decrypting what was encrypted under the same key gives the block back. -/
theorem C58_decrypt_encrypt (key blk : Bytes) (h : blk.length = 16) :
    Rijndael.decrypt key (Rijndael.encrypt key blk) = blk :=
  Rijndael.decrypt_encrypt key blk h

/-- **C58.** Two different blocks never encrypt to the same bytes. -/
theorem C58_injective (key a b : Bytes) (ha : a.length = 16) (hb : b.length = 16)
    (h : Rijndael.encrypt key a = Rijndael.encrypt key b) : a = b := by
  rw [← C58_decrypt_encrypt key a ha, ← C58_decrypt_encrypt key b hb, h]

/-- The FIPS-197 appendix C.1 vector through the model of the code, in both directions. -/
example :
    Rijndael.encrypt
      [0x00,0x01,0x02,0x03,0x04,0x05,0x06,0x07,0x08,0x09,0x0a,0x0b,0x0c,0x0d,0x0e,0x0f]
      [0x00,0x11,0x22,0x33,0x44,0x55,0x66,0x77,0x88,0x99,0xaa,0xbb,0xcc,0xdd,0xee,0xff] =
      [0x69,0xc4,0xe0,0xd8,0x6a,0x7b,0x04,0x30,0xd8,0xcd,0xb7,0x80,0x70,0xb4,0xc5,0x5a] ∧
    Rijndael.decrypt
      [0x00,0x01,0x02,0x03,0x04,0x05,0x06,0x07,0x08,0x09,0x0a,0x0b,0x0c,0x0d,0x0e,0x0f]
      [0x69,0xc4,0xe0,0xd8,0x6a,0x7b,0x04,0x30,0xd8,0xcd,0xb7,0x80,0x70,0xb4,0xc5,0x5a] =
      [0x00,0x11,0x22,0x33,0x44,0x55,0x66,0x77,0x88,0x99,0xaa,0xbb,0xcc,0xdd,0xee,0xff] := by
  decide +kernel

/-- **C58, onto.** Every 16 byte block is the encryption of its decryption, so for each key encryption
permutes the blocks. -/
theorem C58_encrypt_decrypt (key blk : Bytes) (h : blk.length = 16) :
    Rijndael.encrypt key (Rijndael.decrypt key blk) = blk := Rijndael.encrypt_decrypt key blk h

end Owamp.Props
