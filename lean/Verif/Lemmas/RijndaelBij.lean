import Verif.Lemmas.RijndaelRounds
import Mathlib.Data.Fintype.Vector
import Mathlib.Data.Fintype.EquivFin
/-!
# Encryption under a fixed key permutes the blocks, so decryption is a two-sided inverse
-/
namespace Owamp.Rijndael

/-- A block. -/
abbrev Blk := List.Vector Byte 16

instance : Finite Byte := Finite.of_injective BitVec.toFin (fun _ _ h => BitVec.eq_of_toFin_eq h)

instance : Finite Blk := by
  have : Fintype Byte := Fintype.ofFinite Byte
  infer_instance

theorem encrypt_surj (key blk : Bytes) (h : blk.length = 16) :
    ∃ p : Bytes, p.length = 16 ∧ encrypt key p = blk := by
  let f : Blk → Blk := fun v => ⟨encrypt key v.1, encrypt_length _ _⟩
  have hf : Function.Injective f := by
    intro a b hab
    apply Subtype.ext
    have e : encrypt key a.1 = encrypt key b.1 := congrArg Subtype.val hab
    rw [← decrypt_encrypt key a.1 a.2, ← decrypt_encrypt key b.1 b.2, e]
  obtain ⟨p, hp⟩ := Finite.surjective_of_injective hf ⟨blk, h⟩
  exact ⟨p.1, p.2, congrArg Subtype.val hp⟩

theorem encrypt_decrypt (key blk : Bytes) (h : blk.length = 16) : encrypt key (decrypt key blk) = blk := by
  obtain ⟨p, hp, e⟩ := encrypt_surj key blk h
  rw [← e, decrypt_encrypt key p hp]

end Owamp.Rijndael
