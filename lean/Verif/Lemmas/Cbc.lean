import Verif.Model.Cbc
import Verif.Spec.Channel
import Verif.Lemmas.Bytes
import Verif.Lemmas.RijndaelRounds
/-!
# CBC: lengths, concatenation, inverse, and agreement with the specification
-/
namespace Owamp.Cbc
open Owamp.Rijndael Owamp.Spec.Channel

theorem xorBlock_length (a b : Bytes) (h : a.length = b.length) : (xorBlock a b).length = b.length := by
  simp [xorBlock, h]

theorem xorBlock_xorBlock (a b : Bytes) (h : a.length = b.length) : xorBlock (xorBlock a b) b = a := by
  unfold xorBlock
  induction a generalizing b with
  | nil => simp
  | cons x xs ih =>
    cases b with
    | nil => simp at h
    | cons y ys =>
      simp only [List.length_cons, Nat.add_right_cancel_iff] at h
      simp only [List.zipWith_cons_cons, ih ys h, BitVec.xor_assoc, BitVec.xor_self, BitVec.xor_zero]

theorem encLoop_length (key : Bytes) (n : Nat) (iv input : Bytes) : (encLoop key n iv input).1.length = 16 * n := by
  induction n generalizing iv input with
  | zero => rfl
  | succ n ih => simp only [encLoop, List.length_append, ih, encrypt_length]; omega

theorem encLoop_iv_length (key : Bytes) (n : Nat) (iv input : Bytes) (h : iv.length = 16) :
    (encLoop key n iv input).2.length = 16 := by
  induction n generalizing iv input with
  | zero => exact h
  | succ n ih => exact ih _ _ (encrypt_length _ _)

theorem encLoop_append (key : Bytes) (k n : Nat) (iv a b : Bytes) (h : a.length = 16 * k) :
    encLoop key (k + n) iv (a ++ b) =
      ((encLoop key k iv a).1 ++ (encLoop key n (encLoop key k iv a).2 b).1,
        (encLoop key n (encLoop key k iv a).2 b).2) := by
  induction k generalizing iv a with
  | zero =>
    have : a = [] := List.length_eq_zero_iff.1 (by omega)
    subst this; simp [encLoop]
  | succ k ih =>
    have e : k + 1 + n = (k + n) + 1 := by omega
    rw [e]
    simp only [encLoop]
    rw [get_append_left _ _ _ _ (by omega), List.drop_append_of_le_length (by omega),
      ih _ _ (by simp; omega)]
    simp [List.append_assoc]

theorem decLoop_encLoop (key : Bytes) (n : Nat) (iv p : Bytes) (hp : p.length = 16 * n) (hi : iv.length = 16) :
    decLoop key n iv (encLoop key n iv p).1 = (p, (encLoop key n iv p).2) := by
  induction n generalizing iv p with
  | zero =>
    have : p = [] := List.length_eq_zero_iff.1 (by omega)
    subst this; rfl
  | succ n ih =>
    simp only [encLoop, decLoop]
    have hg : (get p 0 16).length = 16 := get_length _ _ _ (by omega)
    have hx : (xorBlock (get p 0 16) iv).length = 16 := by rw [xorBlock_length _ _ (by omega), hi]
    rw [get_zero_append _ _ _ (encrypt_length _ _).symm, decrypt_encrypt _ _ hx,
      xorBlock_xorBlock _ _ (by omega), List.drop_left' (encrypt_length _ _),
      ih _ _ (by simp; omega) (encrypt_length _ _)]
    have : get p 0 16 ++ List.drop 16 p = p := by simp [get]
    rw [this]

theorem blocks_eq (n : Nat) (p : Bytes) (h : p.length = 16 * n) : p.length * 8 / 128 = n := by omega

theorem blockEncrypt_eq (key iv p : Bytes) (n : Nat) (h : p.length = 16 * n) :
    blockEncrypt key iv p = encLoop key n iv p := by
  rw [blockEncrypt, blocks_eq n p h]

theorem blockEncrypt_length (key iv p : Bytes) (n : Nat) (h : p.length = 16 * n) :
    (blockEncrypt key iv p).1.length = 16 * n := by
  rw [blockEncrypt_eq _ _ _ n h, encLoop_length]

theorem blockEncrypt_iv_length (key iv p : Bytes) (h : iv.length = 16) :
    (blockEncrypt key iv p).2.length = 16 := encLoop_iv_length _ _ _ _ h

theorem blockEncrypt_append (key iv a b : Bytes) (k n : Nat) (ha : a.length = 16 * k) (hb : b.length = 16 * n) :
    blockEncrypt key iv (a ++ b) =
      ((blockEncrypt key iv a).1 ++ (blockEncrypt key (blockEncrypt key iv a).2 b).1,
        (blockEncrypt key (blockEncrypt key iv a).2 b).2) := by
  rw [blockEncrypt_eq _ _ a k ha, blockEncrypt_eq _ _ b n hb,
    blockEncrypt_eq _ _ (a ++ b) (k + n) (by simp; omega), encLoop_append _ _ _ _ _ _ ha]

theorem blockDecrypt_blockEncrypt (key iv p : Bytes) (n : Nat) (h : p.length = 16 * n) (hi : iv.length = 16) :
    blockDecrypt key iv (blockEncrypt key iv p).1 = (p, (blockEncrypt key iv p).2) := by
  rw [blockDecrypt, blocks_eq n _ (blockEncrypt_length _ _ _ _ h), blockEncrypt_eq _ _ _ n h,
    decLoop_encLoop _ _ _ _ h hi]

theorem range_blocks (n : Nat) (p : Bytes) (h : p.length = 16 * (n + 1)) :
    blocksOf p = get p 0 16 :: blocksOf (p.drop 16) := by
  unfold blocksOf
  have e1 : p.length / 16 = n + 1 := by omega
  have e2 : (p.drop 16).length / 16 = n := by simp; omega
  rw [e1, e2, List.range_succ_eq_map]
  simp only [List.map_cons, List.map_map, List.cons.injEq, Nat.mul_zero, true_and]
  apply List.map_congr_left
  intro i _
  simp only [Function.comp, get, List.drop_drop]
  congr 2; omega

theorem encLoop_cbc (key : Bytes) (n : Nat) (iv p : Bytes) (h : p.length = 16 * n) :
    (encLoop key n iv p).1 = (cbc key iv (blocksOf p)).flatten := by
  induction n generalizing iv p with
  | zero =>
    have : p = [] := List.length_eq_zero_iff.1 (by omega)
    subst this; rfl
  | succ n ih =>
    rw [range_blocks n p h]
    simp only [encLoop, cbc, List.flatten_cons]
    rw [ih _ _ (by simp; omega), encrypt_eq]
    rfl

theorem blockEncrypt_cbc (key iv p : Bytes) (n : Nat) (h : p.length = 16 * n) :
    (blockEncrypt key iv p).1 = (cbc key iv (blocksOf p)).flatten := by
  rw [blockEncrypt_eq _ _ _ n h, encLoop_cbc _ _ _ _ h]

end Owamp.Cbc
