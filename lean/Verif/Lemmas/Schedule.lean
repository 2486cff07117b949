import Verif.Model.Schedule
import Verif.Spec.Schedule
import Verif.Props.Num64
/-!
# Lemmas about the schedule model
-/
namespace Owamp.Sched
open Owamp.Num64 Owamp.Spec

theorem incr_beEnc (w n : Nat) (s : Bytes) : incr (beEnc w n ++ s) w = beEnc w (n + 1) ++ s := by
  induction w generalizing n s with
  | zero => simp [incr, beEnc]
  | succ w ih =>
    have hl : (beEnc w (n / 256)).length = w := by simp
    have hget : (beEnc (w + 1) n ++ s).getD w 0 = BitVec.ofNat 8 n := by
      rw [beEnc, List.append_assoc, List.getD_eq_getElem?_getD,
        List.getElem?_append_right (by omega), hl]
      simp
    have hset : ∀ v, (beEnc (w + 1) n ++ s).set w v = beEnc w (n / 256) ++ ([v] ++ s) := by
      intro v
      rw [beEnc, List.append_assoc, List.set_append_right _ _ (by omega), hl]
      simp
    have hv : BitVec.ofNat 8 n + 1 = BitVec.ofNat 8 (n + 1) := by
      apply BitVec.eq_of_toNat_eq
      simp
    rw [incr, hget, hset, hv]
    split
    · rename_i h
      have : (n + 1) % 256 ≠ 0 := by
        intro h'
        apply h
        apply BitVec.eq_of_toNat_eq
        simp; omega
      rw [beEnc, show (n + 1) / 256 = n / 256 by omega]
      simp
    · rename_i h
      have h : BitVec.ofNat 8 (n + 1) = 0 := by simpa using h
      have : (n + 1) % 256 = 0 := by
        have := congrArg BitVec.toNat h
        simpa using this
      rw [ih, beEnc, show (n + 1) / 256 = n / 256 + 1 by omega, h]
      simp

theorem fold_u64 (l : Bytes) (r k : Nat) (hr : r < 256 ^ k) (h : k + l.length ≤ 8) :
    l.foldl (fun r b => u64 (u64 (r <<< 8) + b.toNat)) r = l.foldl (fun a b => a * 256 + b.toNat) r := by
  induction l generalizing r k with
  | nil => rfl
  | cons b l ih =>
    simp only [List.foldl_cons, List.length_cons] at *
    have hb := b.isLt
    have hp : 256 ^ (k + 1) ≤ 256 ^ 8 := Nat.pow_le_pow_right (by decide) (by omega)
    have hk : r * 256 + b.toNat < 256 ^ (k + 1) := by rw [Nat.pow_succ]; omega
    have he : u64 (u64 (r <<< 8) + b.toNat) = r * 256 + b.toNat := by
      simp only [u64, Nat.shiftLeft_eq]
      have : (256 : Nat) ^ 8 = 2 ^ 64 := by decide
      omega
    rw [he]
    exact ih _ (k + 1) hk (by omega)

theorem word_lt (E : Bytes → Bytes → Bytes) (key : Bytes) (n : Nat) : word E key n < 2 ^ 32 := by
  unfold word
  have h := beDec_lt (get (E key (beEnc 16 (n - n % 4))) (4 * (n % 4)) 4)
  have h2 := get_length_le (E key (beEnc 16 (n - n % 4))) (4 * (n % 4)) 4
  have h3 : 256 ^ (get (E key (beEnc 16 (n - n % 4))) (4 * (n % 4)) 4).length ≤ 256 ^ 4 :=
    Nat.pow_le_pow_right (by decide) h2
  have : (256 : Nat) ^ 4 = 2 ^ 32 := by decide
  omega

/-- The context has drawn `n` words of the stream of `key`. -/
def At (E : Bytes → Bytes → Bytes) (key : Bytes) (n : Nat) (x : ExpCtx) : Prop :=
  x.key = key ∧ x.counter = beEnc 16 n ∧ (n % 4 ≠ 0 → x.out = E key (beEnc 16 (n - n % 4)))

theorem at_init (E : Bytes → Bytes → Bytes) (key o : Bytes) : At E key 0 ⟨key, zeros 16, o⟩ :=
  ⟨rfl, show zeros 16 = beEnc 16 0 by decide, fun h => absurd rfl h⟩

theorem getD_beEnc_last (w n : Nat) : (beEnc (w + 1) n).getD w 0 = BitVec.ofNat 8 n := by
  rw [beEnc, List.getD_eq_getElem?_getD, List.getElem?_append_right (by simp)]
  simp

theorem and3 (n : Nat) : (BitVec.ofNat 8 n &&& 3).toNat = n % 4 := by
  rw [BitVec.toNat_and, BitVec.toNat_ofNat]
  have : (3 : BitVec 8).toNat = 2 ^ 2 - 1 := by decide
  rw [this, Nat.and_two_pow_sub_one_eq_mod]
  omega

theorem unifRand_at (E : Bytes → Bytes → Bytes) (key : Bytes) (n : Nat) (x : ExpCtx)
    (h : At E key n x) : (unifRand E x).1 = word E key n ∧ At E key (n + 1) (unifRand E x).2 := by
  obtain ⟨h1, h2, h3⟩ := h
  have hf : (x.counter.getD 15 0 &&& 3).toNat = n % 4 := by
    rw [h2, getD_beEnc_last, and3]
  have ho : (if n % 4 = 0 then E x.key x.counter else x.out) = E key (beEnc 16 (n - n % 4)) := by
    split
    · rename_i h; rw [h1, h2, h, Nat.sub_zero]
    · rename_i h; exact h3 h
  simp only [unifRand, hf, ho]
  refine ⟨?_, h1, ?_, ?_⟩
  · rw [fold_u64 _ 0 0 (by decide) (by have := get_length_le (E key (beEnc 16 (n - n % 4))) (4 * (n % 4)) 4; omega)]
    rfl
  · have := incr_beEnc 16 n []
    simpa [h2] using this
  · intro h
    simp only
    congr 2
    omega

theorem bit31 (U : Nat) : (U &&& 0x80000000 ≠ 0) ↔ U / 2 ^ 31 % 2 = 1 := by
  have h : (0x80000000 : Nat) = 2 ^ 31 := by decide
  have ht : U.testBit 31 = decide (U / 2 ^ 31 % 2 = 1) := Nat.testBit_eq_decide_div_mod_eq
  rw [h]
  constructor
  · intro hne
    apply Classical.byContradiction
    intro hc
    apply hne
    apply Nat.eq_of_testBit_eq
    intro i
    rw [Nat.testBit_and, Nat.testBit_two_pow, Nat.zero_testBit]
    by_cases hi : 31 = i
    · subst hi; rw [ht]; simp only [hc, decide_false, Bool.false_and]
    · simp [hi]
  · intro hb hz
    have := congrArg (fun v => v.testBit 31) hz
    simp only [Nat.testBit_and, Nat.testBit_two_pow, Nat.zero_testBit, ht, hb] at this
    simp at this

theorem half_step (a b : Nat) (p : Nat) (h : a / 2 = p - 1) (hb : a % 2 = b) :
    a = 2 * (p - 1) + b := by omega

theorem shiftLoop_spec (x : Nat) (hx : x < 2 ^ 32) :
    ∀ n j, n + j = 32 → x / 2 ^ (32 - j) = 2 ^ j - 1 →
      ∃ j', shiftLoop n (x * 2 ^ j) j = (x * 2 ^ j', j') ∧ LeadingOnes x j' := by
  intro n
  induction n with
  | zero =>
    intro j hj h
    exact ⟨j, rfl, by omega, h, by omega⟩
  | succ n ih =>
    intro j hj h
    have hdiv : x * 2 ^ j / 2 ^ 31 = x / 2 ^ (31 - j) := by
      have : (2 : Nat) ^ 31 = 2 ^ (31 - j) * 2 ^ j := by
        rw [← Nat.pow_add]; congr 1; omega
      rw [this, Nat.mul_div_mul_right _ _ (Nat.two_pow_pos j)]
    rw [shiftLoop]
    by_cases hb : x * 2 ^ j &&& 0x80000000 ≠ 0
    · rw [if_pos hb]
      rw [bit31, hdiv] at hb
      have hsh : u64 ((x * 2 ^ j) <<< 1) = x * 2 ^ (j + 1) := by
        have e : (2 : Nat) ^ (j + 1) = 2 ^ j * 2 := Nat.pow_succ _ _
        rw [u64, Nat.shiftLeft_eq, e, Nat.mul_assoc, Nat.pow_one]
        apply Nat.mod_eq_of_lt
        have h1 : 2 ^ j * 2 ≤ 2 ^ 32 := by
          rw [← Nat.pow_succ]; exact Nat.pow_le_pow_right (by decide) (by omega)
        calc x * (2 ^ j * 2) ≤ x * 2 ^ 32 := Nat.mul_le_mul_left _ h1
          _ < 2 ^ 32 * 2 ^ 32 := Nat.mul_lt_mul_of_pos_right hx (by decide)
          _ = 2 ^ 64 := by decide
      rw [hsh]
      apply ih (j + 1) (by omega)
      have e1 : 32 - (j + 1) = 31 - j := by omega
      have e2 : x / 2 ^ (31 - j) / 2 = x / 2 ^ (32 - j) := by
        rw [Nat.div_div_eq_div_mul, ← Nat.pow_succ]; congr 2; omega
      rw [e1]
      rw [← e2] at h
      have := half_step _ _ _ h hb
      rw [this, Nat.pow_succ]
      have := Nat.two_pow_pos j
      omega
    · rw [if_neg hb]
      rw [bit31, hdiv] at hb
      exact ⟨j, rfl, by omega, h, fun _ => by omega⟩

theorem shift_spec (x : Nat) (hx : x < 2 ^ 32) :
    ∃ j, shiftLoop 32 x 0 = (x * 2 ^ j, j) ∧ LeadingOnes x j := by
  have := shiftLoop_spec x hx 32 0 rfl (by simp only [Nat.sub_zero, Nat.pow_zero]; omega)
  simpa using this

theorem q_mono : ∀ a < 12, ∀ b < 12, 1 ≤ a → a ≤ b → q a ≤ q b := by decide +kernel

theorem findK_spec (U : Nat) (h1 : ln2 ≤ U) (h2 : U < 2 ^ 32 - 1) :
    ∃ k, findK U (Q.drop 2) 2 = k ∧ 2 ≤ k ∧ k ≤ 11 ∧ U < q k ∧
      ∀ k', 1 ≤ k' → k' < k → q k' ≤ U := by
  have key : ∀ k, 2 ≤ k → k ≤ 11 → q (k - 1) ≤ U → ∀ k', 1 ≤ k' → k' < k → q k' ≤ U := by
    intro k a b c k' d e
    exact Nat.le_trans (q_mono k' (by omega) (k - 1) (by omega) d (by omega)) c
  refine ⟨_, rfl, ?_⟩
  simp only [Q, List.drop_succ_cons, List.drop_zero, findK]
  repeat' split
  all_goals first
    | (refine ⟨by omega, by omega, by simp only [q]; omega, key _ (by omega) (by omega) ?_⟩
       simp only [q, ln2] at *; omega)
    | omega

theorem minLoop_at (E : Bytes → Bytes → Bytes) (key : Bytes) (base : Nat) :
    ∀ n p V x, At E key (base + p + 1) x → 1 ≤ p → IsMin (fun i => word E key (base + i)) 1 p V →
      IsMin (fun i => word E key (base + i)) 1 (p + n) (minLoop E n V x).1 ∧
      At E key (base + p + 1 + n) (minLoop E n V x).2 := by
  intro n
  induction n with
  | zero => intro p V x h _ hm; exact ⟨hm, h⟩
  | succ n ih =>
    intro p V x h hp hm
    obtain ⟨hr, ha⟩ := unifRand_at E key _ x h
    rw [minLoop]
    have hm' : IsMin (fun i => word E key (base + i)) 1 (p + 1)
        (if (unifRand E x).1 < V then (unifRand E x).1 else V) := by
      obtain ⟨⟨i, a, b, c⟩, d⟩ := hm
      rw [hr]
      split
      · rename_i hlt
        refine ⟨⟨p + 1, by omega, by omega, rfl⟩, ?_⟩
        intro i' h1 h2
        by_cases h3 : i' = p + 1
        · subst h3; exact Nat.le_refl _
        · have := d i' h1 (by omega); omega
      · rename_i hge
        refine ⟨⟨i, a, by omega, c⟩, ?_⟩
        intro i' h1 h2
        by_cases h3 : i' = p + 1
        · subst h3; exact Nat.le_of_not_lt hge
        · exact d i' h1 (by omega)
    have ha' : At E key (base + (p + 1) + 1) (unifRand E x).2 := by
      have e : base + (p + 1) + 1 = base + p + 1 + 1 := by omega
      rw [e]; exact ha
    have := ih (p + 1) _ _ ha' (by omega) hm'
    have e1 : p + 1 + n = p + (n + 1) := by omega
    have e2 : base + (p + 1) + 1 + n = base + p + 1 + (n + 1) := by omega
    rw [e1, e2] at this
    exact this

theorem LN2_eq : LN2 = ln2 := by decide

theorem mult_ulong (j : Nat) (hj : j ≤ 32) : mult (ulongToNum64 j) LN2 = j * ln2 := by
  have hu : ulongToNum64 j = j * 2 ^ 32 := by
    simp only [ulongToNum64, u64, Nat.shiftLeft_eq]; omega
  rw [hu, Props.C01_mult_no_overflow _ _ (by omega) (by decide) (by simp only [LN2]; omega)]
  simp only [LN2, ln2]; omega

theorem mult_min (j V : Nat) (hj : j ≤ 32) (hV : V < 2 ^ 32) :
    mult (add (ulongToNum64 j) V) LN2 = (j * 2 ^ 32 + V) * ln2 / 2 ^ 32 := by
  have hu : add (ulongToNum64 j) V = j * 2 ^ 32 + V := by
    simp only [add, ulongToNum64, u64, Nat.shiftLeft_eq]; omega
  rw [hu, Props.C01_mult_no_overflow _ _ (by omega) (by decide) (by simp only [LN2]; omega)]
  simp only [LN2, ln2]

theorem mask_shift (x j : Nat) (h : x * 2 ^ j < 2 ^ 64) :
    mask32 (u64 ((x * 2 ^ j) <<< 1)) = x * 2 ^ (j + 1) % 2 ^ 32 := by
  have e : (2 : Nat) ^ (j + 1) = 2 ^ j * 2 := Nat.pow_succ _ _
  rw [mask32, u64, Nat.shiftLeft_eq, e, Nat.pow_one, ← Nat.mul_assoc]
  generalize x * 2 ^ j = y at *
  omega

theorem even_lt (y j : Nat) : y * 2 ^ (j + 1) % 2 ^ 32 < 2 ^ 32 - 1 := by
  rw [Nat.pow_succ, ← Nat.mul_assoc]
  generalize y * 2 ^ j = z
  omega

theorem expNext_at (E : Bytes → Bytes → Bytes) (key : Bytes) (n : Nat) (x : ExpCtx)
    (h : At E key n x) :
    ∃ used, AlgS (fun i => word E key (n + i)) (expNext E x).1 used ∧
      At E key (n + used) (expNext E x).2 := by
  obtain ⟨hr, ha⟩ := unifRand_at E key n x h
  have hw := word_lt E key n
  obtain ⟨j, hs, hl⟩ := shift_spec _ hw
  have hj := hl.1
  have hpow : word E key n * 2 ^ j < 2 ^ 64 := by
    calc word E key n * 2 ^ j ≤ word E key n * 2 ^ 32 :=
          Nat.mul_le_mul_left _ (Nat.pow_le_pow_right (by decide) hj)
      _ < 2 ^ 32 * 2 ^ 32 := Nat.mul_lt_mul_of_pos_right hw (by decide)
      _ = 2 ^ 64 := by decide
  have hm := mask_shift _ _ hpow
  have he := even_lt (word E key n) j
  simp only [expNext, hr, hs, hm]
  unfold AlgS
  simp only [Nat.add_zero]
  generalize hU : word E key n * 2 ^ (j + 1) % 2 ^ 32 = U at *
  by_cases hlt : U < LN2
  · rw [if_pos hlt]
    refine ⟨1, ⟨j, hl, ?_⟩, ha⟩
    rw [hU]
    left
    refine ⟨by rw [← LN2_eq]; exact hlt, ?_, rfl⟩
    simp only
    rw [mult_ulong j hj, add, u64, Nat.mod_eq_of_lt]
    simp only [ln2]; omega
  · rw [if_neg hlt]
    have hge : ln2 ≤ U := by rw [← LN2_eq]; omega
    obtain ⟨k, hk, k2, k11, kU, kk⟩ := findK_spec U hge he
    obtain ⟨hv, hva⟩ := unifRand_at E key _ _ ha
    have hmin := minLoop_at E key n (k - 1) 1 (unifRand E (unifRand E x).2).1 _ hva (by omega)
      ⟨⟨1, by omega, by omega, hv⟩, fun i a b => by
        have : i = 1 := by omega
        subst this; exact Nat.le_of_eq hv⟩
    rw [show 1 + (k - 1) = k by omega, show n + 1 + 1 + (k - 1) = n + (k + 1) by omega] at hmin
    rw [hk]
    refine ⟨k + 1, ⟨j, hl, ?_⟩, hmin.2⟩
    rw [hU]
    right
    refine ⟨hge, k, k2, k11, kU, kk, rfl, _, hmin.1, ?_⟩
    have hV : (minLoop E (k - 1) (unifRand E (unifRand E x).2).1
        (unifRand E (unifRand E x).2).2).1 < 2 ^ 32 := by
      obtain ⟨⟨i, _, _, c⟩, _⟩ := hmin.1
      rw [c]; exact word_lt _ _ _
    exact mult_min j _ hj hV

end Owamp.Sched
