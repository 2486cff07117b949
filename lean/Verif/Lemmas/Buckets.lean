import Verif.Model.Buckets
import Verif.Spec.Buckets
import Verif.Props.Limits
/-!
# Lemmas on rounding, buckets and quantiles
-/
namespace Owamp.Buckets
open Owamp.Policy (toDouble) 
open Owamp.Spec.Buckets Owamp.Props

/-! ## `double` -/

theorem toDouble_small (n : Nat) (h : n < 2 ^ 53) : toDouble n = n := by unfold toDouble; rw [if_pos h]

/-- The rounding of numbers with the same number of digits. -/
def round (k n : Nat) : Nat :=
  (if 2 ^ (k - 1) < n % 2 ^ k ∨ (n % 2 ^ k = 2 ^ (k - 1) ∧ n / 2 ^ k % 2 = 1) then n / 2 ^ k + 1 else n / 2 ^ k) * 2 ^ k

theorem toDouble_big (n : Nat) (h : 2 ^ 53 ≤ n) : toDouble n = round (Nat.log2 n - 52) n := by
  unfold toDouble round; rw [if_neg (by omega)]

theorem round_mono (k n m : Nat) (h : n ≤ m) : round k n ≤ round k m := by
  unfold round
  apply Nat.mul_le_mul_right
  have hq : n / 2 ^ k ≤ m / 2 ^ k := Nat.div_le_div_right h
  have h1 := Nat.div_add_mod n (2 ^ k)
  have h2 := Nat.div_add_mod m (2 ^ k)
  rcases Nat.lt_or_eq_of_le hq with hq | hq
  · split <;> split <;> omega
  · rw [hq] at h1 ⊢
    have : n % 2 ^ k ≤ m % 2 ^ k := by omega
    split <;> split <;> omega

theorem round_le (k n e : Nat) (h : n < 2 ^ (k + e)) : round k n ≤ 2 ^ (k + e) := by
  unfold round
  have : n / 2 ^ k < 2 ^ e := by
    rw [Nat.div_lt_iff_lt_mul (Nat.two_pow_pos _), ← Nat.pow_add, Nat.add_comm e k]; exact h
  rw [Nat.pow_add, Nat.mul_comm (2 ^ k)]
  apply Nat.mul_le_mul_right
  split <;> omega

theorem le_round (k n e : Nat) (h : 2 ^ (k + e) ≤ n) : 2 ^ (k + e) ≤ round k n := by
  unfold round
  have : 2 ^ e ≤ n / 2 ^ k := by
    rw [Nat.le_div_iff_mul_le (Nat.two_pow_pos _), ← Nat.pow_add, Nat.add_comm e k]; exact h
  rw [Nat.pow_add, Nat.mul_comm (2 ^ k)]
  apply Nat.mul_le_mul_right
  split <;> omega

theorem toDouble_mono (n m : Nat) (h : n ≤ m) : toDouble n ≤ toDouble m := by
  by_cases hm : m < 2 ^ 53
  · rw [toDouble_small n (by omega), toDouble_small m hm]; exact h
  by_cases hn : n < 2 ^ 53
  · rw [toDouble_small n hn]
    have := toDouble_ge m (by omega)
    omega
  rw [toDouble_big n (by omega), toDouble_big m (by omega)]
  have n0 : n ≠ 0 := by omega
  have m0 : m ≠ 0 := by omega
  have h53 : 53 ≤ Nat.log2 n := (Nat.le_log2 n0).2 (by omega)
  have hlog : Nat.log2 n ≤ Nat.log2 m := (Nat.le_log2 m0).2 (Nat.le_trans (Nat.log2_self_le n0) h)
  rcases Nat.lt_or_eq_of_le hlog with hl | hl
  · have a := round_le (Nat.log2 n - 52) n 53 (by rw [show Nat.log2 n - 52 + 53 = Nat.log2 n + 1 by omega]; exact Nat.lt_log2_self)
    have b := le_round (Nat.log2 m - 52) m 52 (by rw [show Nat.log2 m - 52 + 52 = Nat.log2 m by omega]; exact Nat.log2_self_le m0)
    refine Nat.le_trans a (Nat.le_trans ?_ b)
    exact Nat.pow_le_pow_right (by decide) (by omega)
  · rw [hl]; exact round_mono _ _ _ h

theorem toDouble_modern (n : Nat) (h : 2 ^ 63 ≤ n) (h' : n < 2 ^ 64) : 2 ^ 11 ∣ toDouble n ∧ 2 ^ 63 ≤ toDouble n ∧ toDouble n ≤ 2 ^ 64 := by
  rw [toDouble_big n (by omega)]
  have e : Nat.log2 n = 63 := by
    have n0 : n ≠ 0 := by omega
    have := (Nat.le_log2 n0).2 h
    have := (Nat.log2_lt n0).2 h'
    omega
  rw [e]
  exact ⟨⟨_, by unfold round; rw [Nat.mul_comm]⟩, le_round 11 n 52 h, round_le 11 n 53 h'⟩

theorem toDouble_exact (n : Nat) (h : 2 ^ 11 ∣ n) (h' : n < 2 ^ 64) : toDouble n = n := by
  by_cases hn : n < 2 ^ 53
  · exact toDouble_small n hn
  rw [toDouble_big n (by omega)]
  have n0 : n ≠ 0 := by omega
  have := (Nat.log2_lt n0).2 h'
  have hd : 2 ^ (Nat.log2 n - 52) ∣ n := Nat.dvd_trans (Nat.pow_dvd_pow 2 (by omega)) h
  unfold round
  have hm := Nat.mod_eq_zero_of_dvd hd
  have hp := Nat.two_pow_pos (Nat.log2 n - 52 - 1)
  rw [if_neg (by omega)]
  exact Nat.div_mul_cancel hd

theorem toDoubleI_exact (x : Int) (h : 2 ^ 11 ∣ x.natAbs) (h' : x.natAbs < 2 ^ 64) : toDoubleI x = x := by
  unfold toDoubleI
  rw [toDouble_exact _ h h']
  split <;> omega

theorem delay_eq (a b : Time.TimeStamp) (ha : Modern a) (hb : Modern b) : delay a b = (toDouble b.owptime.toNat : Int) - toDouble a.owptime.toNat := by
  obtain ⟨a1, a2, a3⟩ := toDouble_modern _ ha a.owptime.isLt
  obtain ⟨b1, b2, b3⟩ := toDouble_modern _ hb b.owptime.isLt
  unfold delay
  apply toDoubleI_exact
  · omega
  · omega

theorem delay_dvd (a b : Time.TimeStamp) (ha : Modern a) (hb : Modern b) : 2 ^ 11 ∣ (delay a b).natAbs := by
  rw [delay_eq a b ha hb]
  obtain ⟨a1, a2, a3⟩ := toDouble_modern _ ha a.owptime.isLt
  obtain ⟨b1, b2, b3⟩ := toDouble_modern _ hb b.owptime.isLt
  omega

/-! ## Buckets -/

theorem div_mono (w : Rat) (hw : 0 < w) {x y : Rat} (h : x ≤ y) : x / w ≤ y / w := by
  rw [Rat.div_def, Rat.div_def]
  exact Rat.mul_le_mul_of_nonneg_right h (Rat.le_of_lt (Rat.inv_pos.2 hw))

theorem bucketNo_mono (rnd : Rat → Rat) (w : Rat) (hr : Rounds rnd) (hw : 0 < w) (d e : Int) (h : d ≤ e) : bucketNo rnd w d ≤ bucketNo rnd w e := by
  unfold bucketNo
  have hx : rnd ((d : Rat) / w) ≤ rnd ((e : Rat) / w) := hr.mono _ _ (div_mono w hw (Rat.intCast_le_intCast.2 h))
  dsimp only
  generalize rnd ((d : Rat) / w) = x at *
  generalize rnd ((e : Rat) / w) = y at *
  by_cases h1 : x < 0 <;> by_cases h2 : y < 0
  · rw [if_pos h1, if_pos h2]; exact Rat.floor_monotone hx
  · rw [if_pos h1, if_neg h2]
    have a : x.floor < 0 := Rat.floor_lt_iff.2 (by simpa using h1)
    have b : -1 < y.ceil := Rat.lt_ceil_iff.2 (by have := Rat.not_lt.1 h2; grind)
    omega
  · exact absurd (by grind) h1
  · rw [if_neg h1, if_neg h2]
    exact Rat.ceil_le_iff.2 (Rat.le_trans hx Rat.le_ceil)

theorem bucketNo_near (rnd : Rat → Rat) (w : Rat) (hr : Rounds rnd) (d : Int) (b : Int) (hb : bucket rnd w d = some b) :
    (b : Rat) ≤ (d : Rat) / w + 1 ∧ (d : Rat) / w ≤ (b : Rat) + 1 := by
  unfold bucket toInt at hb
  split at hb
  · rename_i hfit
    injection hb with hb
    rw [hb] at hfit
    unfold bucketNo at hb
    dsimp only at hb
    generalize hx : (d : Rat) / w = x at *
    have hz : rnd 0 = 0 := by have := hr.whole 0 (by decide); simpa using this
    by_cases hn : x < 0
    · -- below zero
      have hle : rnd x ≤ 0 := by have := hr.mono x 0 (Rat.le_of_lt hn); rwa [hz] at this
      have hbf : b = (rnd x).floor := by
        by_cases h0 : rnd x < 0
        · rw [if_pos h0] at hb; exact hb.symm
        · rw [if_neg h0] at hb
          have e : rnd x = ((0 : Int) : Rat) := by have := Rat.not_lt.1 h0; exact Rat.le_antisymm (by simpa using hle) (by simpa using this)
          rw [e, Rat.ceil_intCast] at hb
          rw [e, Rat.floor_intCast]; exact hb.symm
      have hf1 := Rat.floor_le x
      have hf2 := @Rat.lt_floor x
      have hf0 : x.floor < 0 := Rat.floor_lt_iff.2 (by simpa using hn)
      have hbig : -2 ^ 53 ≤ x.floor := by
        refine Decidable.byContradiction fun hc => ?_
        have h1 : x.floor < -2 ^ 53 := by omega
        have h2 : x < ((-2 ^ 53 : Int) : Rat) := Rat.floor_lt_iff.1 h1
        have h3 := hr.mono _ _ (Rat.le_of_lt h2)
        rw [hr.whole _ (by decide)] at h3
        have h4 := Rat.floor_monotone h3
        rw [Rat.floor_intCast, ← hbf] at h4
        omega
      have g1 := hr.mono _ _ hf1
      rw [hr.whole _ (by omega)] at g1
      have g2 := hr.mono x ((x.floor + 1 : Int) : Rat) (by push_cast; grind)
      rw [hr.whole _ (by omega)] at g2
      have g3 := Rat.floor_monotone g1
      have g4 := Rat.floor_monotone g2
      rw [Rat.floor_intCast, ← hbf] at g3
      rw [Rat.floor_intCast, ← hbf] at g4
      have g5 : (b : Rat) ≤ ((x.floor + 1 : Int) : Rat) := Rat.intCast_le_intCast.2 g4
      have g6 : (x.floor : Rat) ≤ (b : Rat) := Rat.intCast_le_intCast.2 g3
      push_cast at g5
      constructor <;> grind
    · have hn := Rat.not_lt.1 hn
      have hle : 0 ≤ rnd x := by have := hr.mono 0 x hn; rwa [hz] at this
      rw [if_neg (Rat.not_lt.2 hle)] at hb
      have hf1 := @Rat.le_ceil x
      have hf2 := @Rat.ceil_lt x
      have hf0 : -1 < x.ceil := Rat.lt_ceil_iff.2 (by grind)
      have hbig : x.ceil ≤ 2 ^ 53 := by
        refine Decidable.byContradiction fun hc => ?_
        have h1 : 2 ^ 53 < x.ceil := by omega
        have h2 : ((2 ^ 53 : Int) : Rat) < x := Rat.lt_ceil_iff.1 h1
        have h3 := hr.mono _ _ (Rat.le_of_lt h2)
        rw [hr.whole _ (by decide)] at h3
        have h4 : ((2 ^ 53 : Int) : Rat) ≤ (b : Rat) := Rat.le_trans h3 (by rw [← hb]; exact Rat.le_ceil)
        have h5 := Rat.intCast_le_intCast.1 h4
        omega
      have g1 := hr.mono _ _ hf1
      rw [hr.whole _ (by omega)] at g1
      have g2 := hr.mono ((x.ceil - 1 : Int) : Rat) x (by push_cast; grind)
      rw [hr.whole _ (by omega)] at g2
      have g3 : b ≤ x.ceil := by rw [← hb]; exact Rat.ceil_le_iff.2 g1
      have g4 : ((x.ceil - 1 : Int) : Rat) ≤ (b : Rat) := Rat.le_trans g2 (by rw [← hb]; exact Rat.le_ceil)
      have g6 : (b : Rat) ≤ (x.ceil : Rat) := Rat.intCast_le_intCast.2 g3
      push_cast at g4
      constructor <;> grind
  · cases hb

theorem value_near (rnd : Rat → Rat) (w : Rat) (hr : Rounds rnd) (hw : 0 < w) (d : Int) (b : Int) (hb : bucket rnd w d = some b) : Within (value w b) d w := by
  obtain ⟨h1, h2⟩ := bucketNo_near rnd w hr d b hb
  have e : (d : Rat) / w * w = d := Rat.div_mul_cancel (by grind)
  have a := Rat.mul_le_mul_of_nonneg_right h1 (Rat.le_of_lt hw)
  have c := Rat.mul_le_mul_of_nonneg_right h2 (Rat.le_of_lt hw)
  rw [Rat.add_mul, e, Rat.one_mul] at a
  rw [Rat.add_mul, e, Rat.one_mul] at c
  exact ⟨a, c⟩

/-! ## Quantiles -/

theorem upTo_mono (l : List Int) (x y : Int) (h : x ≤ y) : upTo l x ≤ upTo l y := by
  unfold upTo
  apply List.countP_mono_left
  intro z _ hz
  simp only [decide_eq_true_eq] at hz ⊢
  omega

theorem Quantile.unique {l : List Int} {t : Rat} {p q : Int} (hp : Quantile l t p) (hq : Quantile l t q) : p = q := by
  rcases Int.lt_trichotomy p q with h | h | h
  · exact absurd (hq.least p hp.isOne h) (Rat.not_lt.2 hp.enough)
  · exact h
  · exact absurd (hp.least q hq.isOne h) (Rat.not_lt.2 hq.enough)

/-- A least element with a property. -/
theorem least_with (P : Int → Prop) [DecidablePred P] : ∀ l : List Int, (∃ x ∈ l, P x) → ∃ x ∈ l, P x ∧ ∀ y ∈ l, P y → x ≤ y := by
  intro l
  induction l with
  | nil => rintro ⟨x, hx, _⟩; cases hx
  | cons a l ih =>
    rintro ⟨x, hx, hP⟩
    by_cases h : ∃ x ∈ l, P x
    · obtain ⟨m, m1, m2, m3⟩ := ih h
      by_cases ha : P a ∧ a ≤ m
      · refine ⟨a, by simp, ha.1, fun y hy hp => ?_⟩
        rcases List.mem_cons.1 hy with e | e
        · rw [e]; exact Int.le_refl _
        · exact Int.le_trans ha.2 (m3 y e hp)
      · refine ⟨m, List.mem_cons_of_mem _ m1, m2, fun y hy hp => ?_⟩
        rcases List.mem_cons.1 hy with e | e
        · rw [e] at hp ⊢
          exact Int.le_of_lt (Int.lt_of_not_ge fun hc => ha ⟨hp, hc⟩)
        · exact m3 y e hp
    · rcases List.mem_cons.1 hx with e | e
      · refine ⟨a, by simp, by rw [← e]; exact hP, fun y hy hp => ?_⟩
        rcases List.mem_cons.1 hy with e | e
        · rw [e]; exact Int.le_refl _
        · exact absurd ⟨y, e, hp⟩ h
      · exact absurd ⟨x, e, hP⟩ h

theorem greatest_with (P : Int → Prop) [DecidablePred P] (l : List Int) (h : ∃ x ∈ l, P x) : ∃ x ∈ l, P x ∧ ∀ y ∈ l, P y → y ≤ x := by
  obtain ⟨x, x1, x2⟩ := h
  obtain ⟨m, m1, m2, m3⟩ := least_with (fun z => P (-z)) (l.map fun z => -z) ⟨-x, List.mem_map.2 ⟨x, x1, rfl⟩, by rw [Int.neg_neg]; exact x2⟩
  obtain ⟨z, z1, z2⟩ := List.mem_map.1 m1
  subst z2
  rw [Int.neg_neg] at m2
  refine ⟨z, z1, m2, fun y hy hp => ?_⟩
  have := m3 (-y) (List.mem_map.2 ⟨y, hy, rfl⟩) (by rw [Int.neg_neg]; exact hp)
  omega

theorem quantile_exists (l : List Int) (t : Rat) (h : l ≠ []) (ht : t ≤ (l.length : Rat)) : ∃ q, Quantile l t q := by
  obtain ⟨a, al⟩ := List.exists_mem_of_ne_nil l h
  obtain ⟨g, g1, _, g2⟩ := greatest_with (fun _ => True) l ⟨a, al, trivial⟩
  have hg : upTo l g = l.length := by
    unfold upTo
    rw [List.countP_eq_length]
    intro y hy; exact decide_eq_true (g2 y hy trivial)
  obtain ⟨q, q1, q2, q3⟩ := least_with (fun x => t ≤ (upTo l x : Rat)) l ⟨g, g1, by rw [hg]; exact ht⟩
  exact ⟨q, q1, q2, fun y hy hlt => Rat.not_le.1 fun hc => by have := q3 y hy hc; omega⟩

theorem quantile_some {l : List Int} {t : Rat} {q : Int} (h : Quantile l t q) : l ≠ [] ∧ t ≤ (l.length : Rat) :=
  ⟨List.ne_nil_of_mem h.isOne, Rat.le_trans h.enough (Rat.natCast_le_natCast.2 List.countP_le_length)⟩

theorem quantile_map (g : Int → Int) (hg : ∀ x y, x ≤ y → g x ≤ g y) {l : List Int} {t : Rat} {q : Int} (h : Quantile l t q) : Quantile (l.map g) t (g q) := by
  have hc : ∀ x, upTo l x ≤ upTo (l.map g) (g x) := by
    intro x
    unfold upTo
    rw [List.countP_map]
    apply List.countP_mono_left
    intro z _ hz
    simp only [Function.comp, decide_eq_true_eq] at hz ⊢
    exact hg _ _ hz
  refine ⟨List.mem_map.2 ⟨q, h.isOne, rfl⟩, Rat.le_trans h.enough (Rat.natCast_le_natCast.2 (hc q)), fun y hy hlt => ?_⟩
  -- the greatest number whose image is at most `y`
  obtain ⟨m, m1, m2, m3⟩ := greatest_with (fun x => g x ≤ y) l (by obtain ⟨z, z1, z2⟩ := List.mem_map.1 hy; exact ⟨z, z1, by omega⟩)
  have hm : m < q := by
    refine Int.lt_of_not_ge fun hc => ?_
    have := hg _ _ hc
    omega
  refine Rat.not_le.1 fun hh => Rat.not_le.2 (h.least m m1 hm) (Rat.le_trans hh (Rat.natCast_le_natCast.2 ?_))
  unfold upTo
  rw [List.countP_map]
  apply List.countP_mono_left
  intro z hz hle
  simp only [Function.comp, decide_eq_true_eq] at hle ⊢
  exact m3 z hz hle

theorem quantile_shift {α : Type} (l : List α) (f e : α → Int) (δ : Int) (hd : ∀ a ∈ l, f a ≤ e a + δ) {t : Rat} {q p : Int}
    (hq : Quantile (l.map f) t q) (hp : Quantile (l.map e) t p) : q ≤ p + δ := by
  refine Int.not_lt.1 fun hc => ?_
  obtain ⟨a, a1, a2⟩ := List.mem_map.1 hp.isOne
  obtain ⟨y, y1, y2, y3⟩ := greatest_with (fun x => x ≤ p + δ) (l.map f) ⟨f a, List.mem_map.2 ⟨a, a1, rfl⟩, by have := hd a a1; omega⟩
  have h1 := hq.least y y1 (by omega)
  refine absurd (Rat.le_trans hp.enough (Rat.natCast_le_natCast.2 ?_)) (Rat.not_le.2 h1)
  unfold upTo
  rw [List.countP_map, List.countP_map]
  apply List.countP_mono_left
  intro z hz hle
  simp only [Function.comp, decide_eq_true_eq] at hle ⊢
  have := hd z hz
  exact y3 (f z) (List.mem_map.2 ⟨z, hz, rfl⟩) (by omega)

end Owamp.Buckets
