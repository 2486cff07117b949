import Verif.Lemmas.Text
/-!
# Reading as a function of the plaintext stream
-/
namespace Owamp.Cbc

theorem decLoop_append (key : Bytes) (k n : Nat) (iv a b : Bytes) (h : a.length = 16 * k) :
    decLoop key (k + n) iv (a ++ b) =
      ((decLoop key k iv a).1 ++ (decLoop key n (decLoop key k iv a).2 b).1,
        (decLoop key n (decLoop key k iv a).2 b).2) := by
  induction k generalizing iv a with
  | zero =>
    have : a = [] := List.length_eq_zero_iff.1 (by omega)
    subst this
    simp [decLoop]
  | succ k ih =>
    have e : k + 1 + n = (k + n) + 1 := by omega
    rw [e]
    simp only [decLoop]
    rw [get_append_left _ _ _ _ (by omega), List.drop_append_of_le_length (by omega),
      ih _ (a.drop 16) (by simp; omega)]
    simp

theorem decLoop_length (key : Bytes) (n : Nat) (iv c : Bytes) (hi : iv.length = 16) (h : c.length = 16 * n) :
    (decLoop key n iv c).1.length = 16 * n ∧ (decLoop key n iv c).2.length = 16 := by
  induction n generalizing iv c with
  | zero => exact ⟨rfl, hi⟩
  | succ n ih =>
    have hg : (get c 0 16).length = 16 := get_length _ _ _ (by omega)
    obtain ⟨h1, h2⟩ := ih (get c 0 16) (c.drop 16) hg (by simp; omega)
    refine ⟨?_, h2⟩
    simp only [decLoop, List.length_append, h1]
    have : (xorBlock (Rijndael.decrypt key (get c 0 16)) iv).length = 16 := by
      rw [xorBlock_length _ _ (by rw [hi]; exact Rijndael.decrypt_length _ _)]; exact hi
    omega

end Owamp.Cbc

namespace Owamp.Ctl
open Owamp.Spec.Channel

/-- `c'` is `c` after `n` blocks of its input were read into `msg` at `off`. -/
structure Took (c c' : Conn) (off n : Nat) : Prop where
  len : 16 * n ≤ (plainIn c).length
  rest : plainIn c' = (plainIn c).drop (16 * n)
  iv : IVok c'
  msg : c'.msg = put c.msg off ((plainIn c).take (16 * n))
  same : ∃ iv inp fs, c' = { c with readIV := iv, inp := inp, faults := fs, msg := c'.msg }

theorem take_blocks (key iv inp : Bytes) (n : Nat) (hi : iv.length = 16) (h : 16 * n ≤ inp.length) :
    (Cbc.blockDecrypt key iv (inp.take (16 * n))).1 = (Cbc.blockDecrypt key iv inp).1.take (16 * n) ∧
    (Cbc.blockDecrypt key (Cbc.blockDecrypt key iv (inp.take (16 * n))).2 (inp.drop (16 * n))).1 =
      (Cbc.blockDecrypt key iv inp).1.drop (16 * n) ∧ 16 * n ≤ (Cbc.blockDecrypt key iv inp).1.length ∧
    (Cbc.blockDecrypt key iv (inp.take (16 * n))).2.length = 16 := by
  have hl : (inp.take (16 * n)).length = 16 * n := by simp; omega
  obtain ⟨h1, h2⟩ := Cbc.decLoop_length key n iv (inp.take (16 * n)) hi hl
  have e1 : (inp.take (16 * n)).length * 8 / 128 = n := by rw [hl]; omega
  have e2 : inp.length * 8 / 128 = n + (inp.drop (16 * n)).length * 8 / 128 := by simp; omega
  have e := Cbc.decLoop_append key n ((inp.drop (16 * n)).length * 8 / 128) iv (inp.take (16 * n)) (inp.drop (16 * n)) hl
  rw [List.take_append_drop, ← e2] at e
  unfold Cbc.blockDecrypt
  rw [e1, e]
  refine ⟨?_, ?_, ?_, h2⟩
  · simp only; rw [List.take_left' h1]
  · simp only; rw [List.drop_left' h1]
  · simp only [List.length_append]; omega

theorem readN_full (c c' : Conn) (n : Nat) (bs : Bytes) (h : readN c n = (.full bs, c')) :
    n ≤ c.inp.length ∧ bs = c.inp.take n ∧ ∃ fs, c' = { c with inp := c.inp.drop n, faults := fs } := by
  unfold readN at h
  split at h
  · simp at h
  · simp at h
  · split at h
    · simp only [Prod.mk.injEq, Rd.full.injEq] at h
      rename_i hn
      exact ⟨hn, h.1.symm, _, h.2.symm⟩
    · simp at h

theorem recvBlocks_took (c c' : Conn) (off n : Nat) (hiv : IVok c) (h : recvBlocks c off n = (.done, c')) :
    Took c c' off n := by
  unfold recvBlocks at h
  rw [Nat.mul_comm n 16] at h
  split at h
  · rename_i bs c1 hr
    obtain ⟨h1, h2, fs, h3⟩ := readN_full _ _ _ _ hr
    subst h3
    have hc1 : Conn.cipher { c with inp := c.inp.drop (16 * n), faults := fs } = c.cipher := rfl
    rw [hc1] at h
    cases hc : c.cipher
    · rw [hc] at h
      simp only [Bool.false_eq_true, if_false, Prod.mk.injEq, true_and] at h
      subst h2
      have hp : plainIn c = c.inp := by unfold plainIn; rw [hc]; rfl
      refine ⟨by rw [hp]; exact h1, ?_, ?_, ?_, ?_⟩
      · rw [hp, ← h]
        show (if c.cipher then _ else _) = _
        rw [hc]; rfl
      · intro hx; rw [← h] at hx; change c.cipher = true at hx; rw [hc] at hx; cases hx
      · rw [← h, hp]
      · exact ⟨_, _, _, by rw [← h]⟩
    · rw [hc] at h
      simp only [if_true, Prod.mk.injEq, true_and] at h
      subst h2
      have hp : plainIn c = (Cbc.blockDecrypt c.aesKey c.readIV c.inp).1 := by unfold plainIn; rw [hc]; rfl
      obtain ⟨t1, t2, t3, t4⟩ := take_blocks c.aesKey c.readIV c.inp n (hiv hc) h1
      refine ⟨by rw [hp]; exact t3, ?_, ?_, ?_, ?_⟩
      · rw [hp, ← h, ← t2]
        show (if c.cipher then _ else _) = _
        rw [hc]; rfl
      · intro _; rw [← h]; exact t4
      · rw [← h, hp, ← t1]
      · exact ⟨_, _, _, by rw [← h]⟩
  · simp at h
  · simp at h
  · simp at h

end Owamp.Ctl
