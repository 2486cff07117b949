import Verif.Lemmas.Num64
import Verif.Spec.Time
/-!
# C01, C02: fixed-point arithmetic and time conversions
-/
namespace Owamp.Props
open Owamp.Num64 Owamp.Spec

/-! ## C01 -/

/-- **C01.** `OWPNum64Mult` returns `⌊x*y / 2^32⌋ mod 2^64` for all 64-bit operands. -/
theorem C01_mult_exact (x y : Nat) (hx : x < 2 ^ 64) (hy : y < 2 ^ 64) :
    mult x y = (x * y / 2 ^ 32) % 2 ^ 64 := by
  obtain ⟨ex, hx1, hx0⟩ := limbs x hx
  obtain ⟨ey, hy1, hy0⟩ := limbs y hy
  have key := mult_limbs (mask32 (x >>> 32)) (mask32 x) (mask32 (y >>> 32)) (mask32 y) _ _ _ _
    (prod_bound _ _ hx0 hy0) (prod_bound _ _ hx1 hy0) (prod_bound _ _ hx0 hy1)
    (prod_bound _ _ hx1 hy1) rfl rfl rfl rfl
  have hxy : x * y = mask32 x * mask32 y
      + (mask32 (x >>> 32) * mask32 y + mask32 x * mask32 (y >>> 32)) * 2 ^ 32
      + mask32 (x >>> 32) * mask32 (y >>> 32) * 2 ^ 64 := by
    conv => lhs; rw [ex, ey]
    grind
  rw [hxy]
  exact key

/-- When the true product fits, no reduction happens at all. -/
theorem C01_mult_no_overflow (x y : Nat) (hx : x < 2 ^ 64) (hy : y < 2 ^ 64)
    (h : x * y < 2 ^ 96) : mult x y = x * y / 2 ^ 32 := by
  rw [C01_mult_exact x y hx hy]; omega

/-- A case with every cross product and carry in play. -/
example : mult 0xfffffffffffffffe 0x12345678_9abcdef1 = 0x9abcdef0db97530e := by decide

/-! ## C02 -/

private theorem units : (0 < billion ∧ billion < 2 ^ 32) ∧ (0 < million ∧ million < 2 ^ 32) := by
  decide

private theorem split_facts (s q : Nat) (hs : s < 2 ^ 32) (hq : q < 2 ^ 32) :
    s * 2 ^ 32 + q < 2 ^ 64 ∧ (s * 2 ^ 32 + q) / 2 ^ 32 = s ∧ (s * 2 ^ 32 + q) % 2 ^ 32 = q := by
  omega

private theorem back_facts (x : Nat) (hx : x < 2 ^ 64) (n : Nat)
    (hn : x % 2 ^ 32 * 1000000000 / 2 ^ 32 = n) :
    (x / 2 ^ 32 + n / 1000000000) % 2 ^ 32 * 2 ^ 32 + n % 1000000000 * 2 ^ 32 / 1000000000 ≤ x ∧
    x ≤ (x / 2 ^ 32 + n / 1000000000) % 2 ^ 32 * 2 ^ 32
      + n % 1000000000 * 2 ^ 32 / 1000000000 + 5 := by
  have h2 : n < 1000000000 := by omega
  have h3 : n / 1000000000 = 0 := by omega
  have h4 : n % 1000000000 = n := by omega
  have h5 : (x / 2 ^ 32 + 0) % 2 ^ 32 = x / 2 ^ 32 := by omega
  rw [h3, h4, h5]
  omega

/-- Back and forth through `OWPNum64`, for any unit that is a divisor count below 2^32. -/
private theorem parts_roundtrip (unit : Nat) (hu : 0 < unit) (hu2 : unit < 2 ^ 32) (t : TimeParts)
    (h : Normalised unit t) :
    Normalised unit (toParts unit (ofParts unit t)) ∧
    (toParts unit (ofParts unit t)).sec = t.sec ∧
    ((toParts unit (ofParts unit t)).sub = t.sub ∨ (toParts unit (ofParts unit t)).sub = t.sub - 1)
    := by
  obtain ⟨s, n⟩ := t
  obtain ⟨h1, h2, h3, h4⟩ := h
  simp only at h1 h2 h3 h4
  obtain ⟨s, rfl⟩ := Int.eq_ofNat_of_zero_le h1
  obtain ⟨n, rfl⟩ := Int.eq_ofNat_of_zero_le h3
  have hs : toU32 (s : Int) = s := by simp only [toU32]; omega
  have hn : toU32 (n : Int) = n := by simp only [toU32]; omega
  have hnu : n < unit := by omega
  have hof := ofParts_eq unit hu hu2 ⟨s, n⟩
  simp only [hs, hn, Nat.div_eq_of_lt hnu, Nat.mod_eq_of_lt hnu, Nat.add_zero] at hof
  have hq : n * 2 ^ 32 / unit < 2 ^ 32 := by
    rw [Nat.div_lt_iff_lt_mul hu, Nat.mul_comm (2 ^ 32) unit]
    exact Nat.mul_lt_mul_of_pos_right hnu (by decide)
  have hd := Nat.div_add_mod (n * 2 ^ 32) unit
  have hm := Nat.mod_lt (n * 2 ^ 32) hu
  generalize hqq : n * 2 ^ 32 / unit = q at *
  have hs' : s < 2 ^ 32 := by omega
  rw [Nat.mod_eq_of_lt hs'] at hof
  rw [hof]; clear hof hs hn
  rw [toParts_eq unit hu hu2 _ (split_facts s q hs' hq).1, (split_facts s q hs' hq).2.1,
    (split_facts s q hs' hq).2.2]
  clear hqq
  rw [Nat.mul_comm q unit]
  generalize n * 2 ^ 32 % unit = r at *
  generalize unit * q = p at *
  simp only [Normalised]
  refine ⟨?_, trivial, ?_⟩ <;> omega

/-- **C02.** timespec → OWPNum64 → timespec: seconds survive, nanoseconds lose at most one, and the
result is normalised. -/
theorem C02_timespec_roundtrip (t : TimeParts) (h : Normalised 1000000000 t) :
    let r := toTimespec (ofTimespec t)
    Normalised 1000000000 r ∧ r.sec = t.sec ∧ (r.sub = t.sub ∨ r.sub = t.sub - 1) :=
  parts_roundtrip billion units.1.1 units.1.2 t h

/-- **C02.** The same for timeval (microseconds). -/
theorem C02_timeval_roundtrip (t : TimeParts) (h : Normalised 1000000 t) :
    let r := toTimeval (ofTimeval t)
    Normalised 1000000 r ∧ r.sec = t.sec ∧ (r.sub = t.sub ∨ r.sub = t.sub - 1) :=
  parts_roundtrip million units.2.1 units.2.2 t h

/-- **C02.** The exact value of the conversion, also when the nanosecond field is not normalised (it is
carried into the seconds). -/
theorem C02_timespec_value (s n : Nat) (hs : s < 2 ^ 32) (hn : n < 2 ^ 32) :
    ofTimespec ⟨s, n⟩ =
      ((s + n / 1000000000) % 2 ^ 32) * 2 ^ 32 + (n % 1000000000) * 2 ^ 32 / 1000000000 := by
  have := ofParts_eq billion units.1.1 units.1.2 ⟨s, n⟩
  have hs : toU32 (s : Int) = s := by simp only [toU32]; omega
  have hn : toU32 (n : Int) = n := by simp only [toU32]; omega
  simp only [hs, hn] at this
  exact this

/-- **C02.** OWPNum64 → timespec → OWPNum64 never moves time forward and loses at most 5 units of
2^-32 s (1.17 ns: one truncation to a nanosecond and one to a unit). -/
theorem C02_num64_roundtrip (x : Nat) (hx : x < 2 ^ 64) :
    ofTimespec (toTimespec x) ≤ x ∧ x ≤ ofTimespec (toTimespec x) + 5 := by
  have h := toParts_eq billion units.1.1 units.1.2 x hx
  unfold toTimespec
  rw [h, C02_timespec_value _ _ (by omega) (by simp only [billion]; omega)]
  simp only [billion]
  exact back_facts x hx _ rfl

/-- The bound 5 is reached. -/
example : (let x := 17; x - ofTimespec (toTimespec x)) ≤ 5 ∧
    ofTimespec (toTimespec 12) + 4 = 12 := by decide +kernel

/-- **C02.** The conversion to timespec is exact to the nanosecond (rounding down). -/
theorem C02_toTimespec_value (x : Nat) (hx : x < 2 ^ 64) :
    Normalised 1000000000 (toTimespec x) ∧
    total 1000000000 (toTimespec x) = ((x * 1000000000 / 2 ^ 32 : Nat) : Int) := by
  have h := toParts_eq billion units.1.1 units.1.2 x hx
  unfold toTimespec
  rw [h]
  simp only [billion, Normalised, total]
  omega

/-- **C02.** Conversion to OWPNum64 is monotone: an earlier normalised time never becomes a later one. -/
theorem C02_ofTimespec_mono (a b : TimeParts) (ha : Normalised 1000000000 a)
    (hb : Normalised 1000000000 b) (h : total 1000000000 a ≤ total 1000000000 b) :
    ofTimespec a ≤ ofTimespec b := by
  obtain ⟨as, an⟩ := a
  obtain ⟨bs, bn⟩ := b
  obtain ⟨a1, a2, a3, a4⟩ := ha
  obtain ⟨b1, b2, b3, b4⟩ := hb
  simp only at *
  obtain ⟨as, rfl⟩ := Int.eq_ofNat_of_zero_le a1
  obtain ⟨an, rfl⟩ := Int.eq_ofNat_of_zero_le a3
  obtain ⟨bs, rfl⟩ := Int.eq_ofNat_of_zero_le b1
  obtain ⟨bn, rfl⟩ := Int.eq_ofNat_of_zero_le b3
  rw [C02_timespec_value _ _ (by omega) (by omega), C02_timespec_value _ _ (by omega) (by omega)]
  simp only [total] at h
  rw [Nat.div_eq_of_lt (by omega), Nat.mod_eq_of_lt (by omega : an < 1000000000), Nat.add_zero,
    Nat.mod_eq_of_lt (by omega : as < 2 ^ 32), Nat.div_eq_of_lt (by omega : bn < 1000000000),
    Nat.mod_eq_of_lt (by omega : bn < 1000000000), Nat.add_zero,
    Nat.mod_eq_of_lt (by omega : bs < 2 ^ 32)]
  rcases Nat.lt_or_ge as bs with h1 | h1
  · omega
  · have : as = bs := by omega
    have : an ≤ bn := by omega
    omega

/-- **C02.** Conversion to timespec is monotone. -/
theorem C02_toTimespec_mono (x y : Nat) (hy : y < 2 ^ 64) (h : x ≤ y) :
    total 1000000000 (toTimespec x) ≤ total 1000000000 (toTimespec y) := by
  rw [(C02_toTimespec_value x (by omega)).2, (C02_toTimespec_value y hy).2]
  omega

/-- **C02.** Microsecond figures (clock errors) convert with truncation below one unit. -/
theorem C02_usec (u : Nat) (hu : u < 2 ^ 32) :
    usecToNum64 u * 1000000 ≤ u * 2 ^ 32 ∧ u * 2 ^ 32 < (usecToNum64 u + 1) * 1000000 := by
  simp only [usecToNum64, u64, million, Nat.shiftLeft_eq]
  omega

/-- Non-vacuity: a time in 2026 with a full nanosecond part is normalised and takes the
lossy branch. -/
example : Normalised 1000000000 ⟨3988000000, 999999999⟩ ∧
    toTimespec (ofTimespec ⟨3988000000, 999999999⟩) = ⟨3988000000, 999999998⟩ := by
  decide +kernel

end Owamp.Props
