import Verif.Model.Time
import Verif.Lemmas.Num64
/-! Helper lemmas about `Verif.Model.Time`. -/
namespace Owamp.Time
open Owamp.Num64

theorem encodeTimeStamp_eq (t : TimeStamp) : encodeTimeStamp t = enc64 t.owptime := by
  have hlt := t.owptime.isLt
  have hand : ∀ x : Nat, x &&& 0xFFFFFFFF = x % 2 ^ 32 := fun x => Nat.and_two_pow_sub_one_eq_mod x 32
  have e : ∀ n : Nat, n < 2 ^ 64 →
      beEnc 8 n = beEnc 4 ((n >>> 32) % 2 ^ 32) ++ beEnc 4 (n % 2 ^ 32) := by
    intro n hn
    simp only [beEnc, Nat.shiftRight_eq_div_pow, List.nil_append, List.cons_append,
      List.cons.injEq, and_true]
    refine ⟨?_, ?_, ?_, ?_, ?_, ?_, ?_, ?_⟩ <;> apply BitVec.eq_of_toNat_eq <;>
      simp only [BitVec.toNat_ofNat] <;> omega
  unfold encodeTimeStamp put32 enc64 enc32
  rw [hand, hand, e _ hlt, BitVec.toNat_ofNat, BitVec.toNat_ofNat, Nat.mod_mod, Nat.mod_mod]
  simp [put, zeros, beEnc]

theorem decodeTimeStamp_eq (buf : Bytes) (h : 8 ≤ buf.length) : decodeTimeStamp buf = get64 buf 0 := by
  have hand : ∀ x : Nat, x &&& 0xFFFFFFFF = x % 2 ^ 32 := fun x => Nat.and_two_pow_sub_one_eq_mod x 32
  obtain ⟨a, b, c, d, e, f, g, i, r, rfl⟩ :
      ∃ a b c d e f g i r, buf = a :: b :: c :: d :: e :: f :: g :: i :: r := by
    match buf, h with
    | a :: b :: c :: d :: e :: f :: g :: i :: r, _ => exact ⟨a, b, c, d, e, f, g, i, r, rfl⟩
  unfold decodeTimeStamp get32 get64
  rw [hand]
  simp only [get, beDec, List.drop_zero, List.take_succ_cons, List.take_zero, List.drop_succ_cons,
    List.foldl_cons, List.foldl_nil, BitVec.toNat_ofNat, Nat.shiftLeft_eq]
  have := a.isLt; have := b.isLt; have := c.isLt; have := d.isLt
  have := e.isLt; have := f.isLt; have := g.isLt; have := i.isLt
  rw [or_disjoint _ _ (Nat.mod_lt _ (by decide))]
  refine congrArg (BitVec.ofNat 64) ?_
  omega

theorem errShift_spec (err scale : Nat) :
    (errShift err scale).1 ≤ 254 ∧ scale ≤ (errShift err scale).2 ∧
    (errShift err scale).1 = err / 2 ^ ((errShift err scale).2 - scale) ∧
    ((errShift err scale).2 ≠ scale → 127 ≤ (errShift err scale).1) := by
  fun_induction errShift err scale with
  | case1 err scale h ih =>
    generalize errShift (err >>> 1) (scale + 1) = r at *
    obtain ⟨m, k⟩ := r
    obtain ⟨h1, h2, h3, h4⟩ := ih
    simp only [Nat.shiftRight_eq_div_pow] at *
    refine ⟨h1, by omega, ?_, ?_⟩
    · rw [h3, Nat.div_div_eq_div_mul, ← Nat.pow_add]
      congr 2; omega
    · intro _
      by_cases hs : k = scale + 1
      · rw [hs, Nat.sub_self, Nat.pow_zero, Nat.div_one] at h3
        omega
      · exact h4 hs
  | case2 err scale h => simp; omega

theorem shiftLoop_eq (err n : Nat) (h : err < 2 ^ 64) : shiftLoop err n = (err * 2 ^ n) % 2 ^ 64 := by
  induction n generalizing err with
  | zero => simp [shiftLoop]; omega
  | succ n ih =>
    have hp : err * 2 ^ (n + 1) = err * 2 ^ 1 * 2 ^ n := by
      rw [Nat.mul_assoc, ← Nat.pow_add, Nat.add_comm]
    rw [shiftLoop, ih _ (by simp only [u64]; omega), u64, Nat.shiftLeft_eq, Nat.mod_mul_mod, hp]

theorem offUp_spec (sec off : Int) :
    (offUp sec off).1 * 1000000000 + (offUp sec off).2 = sec * 1000000000 + off ∧
    0 ≤ (offUp sec off).2 := by
  fun_induction offUp sec off <;> simp_all <;> omega

theorem offDown_spec (sec off : Int) (h : 0 ≤ off) :
    (offDown sec off).1 * 1000000000 + (offDown sec off).2 = sec * 1000000000 + off ∧
    0 ≤ (offDown sec off).2 ∧ (offDown sec off).2 < 1000000000 := by
  fun_induction offDown sec off with
  | case1 sec off h ih => have := ih (by omega); omega
  | case2 => simp; omega

end Owamp.Time
