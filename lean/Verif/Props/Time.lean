import Verif.Lemmas.Time
import Verif.Props.Num64
/-!
# C03, C04, C05, C60: timestamps, error estimates, time arithmetic
-/
namespace Owamp.Props
open Owamp.Num64 Owamp.Time Owamp.Spec

/-! ## C03 -/

/-- **C03.** A timestamp survives the wire, whatever bytes surround it. -/
theorem C03_timestamp_roundtrip (t : TimeStamp) : decodeTimeStamp (encodeTimeStamp t) = t.owptime := by
  rw [encodeTimeStamp_eq, decodeTimeStamp_eq _ (by simp), get64,
    get_all _ _ (by simp), dec_enc64]

/-- **C03.** Every 8 bytes are the encoding of the timestamp they decode to: no wire value is lost. -/
theorem C03_timestamp_surjective (buf : Bytes) (h : buf.length = 8) (t : TimeStamp)
    (ht : t.owptime = decodeTimeStamp buf) : encodeTimeStamp t = buf := by
  rw [encodeTimeStamp_eq, ht, decodeTimeStamp_eq _ (by omega), enc_get64 _ _ (by omega),
    get_all _ _ (by omega)]

/-- **C03.** The error estimate survives the wire when the scale fits its 6 bits. -/
theorem C03_errest_roundtrip (t : TimeStamp) (hm : t.multiplier ≠ 0) (hs : t.scale.toNat < 64) :
    ∃ b0 b1, encodeErrEstimate t = some [b0, b1] ∧
      decodeErrEstimate b0 b1 = ⟨t.sync, t.scale, t.multiplier, true⟩ := by
  refine ⟨if t.sync then (t.scale &&& 0x3F#8) ||| 0x80#8 else t.scale &&& 0x3F#8, t.multiplier, ?_, ?_⟩
  · rw [encodeErrEstimate, if_neg hm]
  · have hall : ∀ s : Fin 256, s.val < 64 →
        ((BitVec.ofNat 8 s.val &&& 0x3F#8) ||| 0x80#8) &&& 0x80#8 ≠ 0 ∧
        ((BitVec.ofNat 8 s.val &&& 0x3F#8) ||| 0x80#8) &&& 0x3F#8 = BitVec.ofNat 8 s.val ∧
        (BitVec.ofNat 8 s.val &&& 0x3F#8) &&& 0x80#8 = 0 ∧
        (BitVec.ofNat 8 s.val &&& 0x3F#8) &&& 0x3F#8 = BitVec.ofNat 8 s.val := by
      decide +kernel
    have h := hall ⟨t.scale.toNat, t.scale.isLt⟩ hs
    simp only [BitVec.ofNat_toNat, BitVec.setWidth_eq] at h
    obtain ⟨h1, h2, h3, h4⟩ := h
    cases hsync : t.sync <;>
      simp only [decodeErrEstimate, hm, if_false, if_true, h1, h2, h3, h4, Bool.false_eq_true,
        ne_eq, not_false_eq_true, not_true_eq_false, decide_true, decide_false]

/-- **C03.** An estimate with multiplier 0 is refused by the encoder; the decoder flags it invalid and
clears the other fields. -/
theorem C03_errest_zero :
    (∀ t : TimeStamp, encodeErrEstimate t = none ↔ t.multiplier = 0) ∧
    (∀ b0 b1, (decodeErrEstimate b0 b1).valid = false ↔ b1 = 0) ∧
    (∀ b0, decodeErrEstimate b0 0 = ⟨false, 0, 0, false⟩) := by
  refine ⟨?_, ?_, ?_⟩
  · intro t; unfold encodeErrEstimate; split <;> simp_all
  · intro b0 b1; simp [decodeErrEstimate]
  · intro b0; simp [decodeErrEstimate]

example : ∃ t : TimeStamp, t.multiplier ≠ 0 ∧ t.scale.toNat < 64 ∧ t.sync = true ∧
    encodeErrEstimate t = some [0x85, 0x7f] := ⟨⟨5, true, 0x7f, 5⟩, by decide, by decide, rfl, by decide⟩

/-! ## C04 -/

/-- The error, in units of 2^-32 s, that a multiplier and a scale denote (RFC 4656: multiplier * 2^scale). -/
def errUnits (multiplier scale : Byte) : Nat := multiplier.toNat * 2 ^ scale.toNat

/-- **C04.** For every known clock error `e` (microseconds) the timestamp's estimate, as it is received
at the other end, is valid, denotes strictly more than `e`, and exceeds `e` by at most one part in 127
plus one unit of 2^-32 s. -/
theorem C04_error_not_understated (old : TimeStamp) (tv : TimeParts) (e : Nat) (he : 0 < e)
    (he2 : e < 2 ^ 32) :
    ∃ b0 b1, encodeErrEstimate (timespecToTimestamp old tv (some e) none) = some [b0, b1] ∧
      let d := decodeErrEstimate b0 b1
      d.valid = true ∧ d.sync = old.sync ∧
      e * 2 ^ 32 < errUnits d.multiplier d.scale * 1000000 ∧
      errUnits d.multiplier d.scale ≤ e * 2 ^ 32 / 1000000 + e * 2 ^ 32 / 1000000 / 127 + 1 := by
  have hsp := errShift_spec (usecToNum64 e) 0
  have hu := C02_usec e he2
  obtain ⟨h1, -, h3, h4⟩ := hsp
  have hval : usecToNum64 e = e * 2 ^ 32 / 1000000 := by
    simp only [usecToNum64, u64, million, Nat.shiftLeft_eq]; omega
  rw [← hval]
  have hltu : usecToNum64 e < 2 ^ 45 := by omega
  generalize hr : errShift (usecToNum64 e) 0 = r at *
  generalize hue : usecToNum64 e = u at *
  clear hval
  obtain ⟨m, s⟩ := r
  simp only at h1 h3 h4
  -- the number of shifts fits the 6-bit field
  have hs : s < 64 := by
    rcases Nat.lt_or_ge s 64 with h | h
    · exact h
    · exfalso
      have h5 := h4 (by omega)
      have : u / 2 ^ (s - 0) = 0 := by
        apply Nat.div_eq_of_lt
        have : 2 ^ 64 ≤ 2 ^ (s - 0) := Nat.pow_le_pow_right (by decide) (by omega)
        omega
      omega
  have hmul : (BitVec.ofNat 8 (0xFF &&& (m + 1))).toNat = m + 1 := by
    have : (0xFF &&& (m + 1)) = (m + 1) % 2 ^ 8 := by
      rw [Nat.and_comm]; exact Nat.and_two_pow_sub_one_eq_mod (m + 1) 8
    rw [this, BitVec.toNat_ofNat]; omega
  have hsc : (BitVec.ofNat 8 s).toNat = s := by rw [BitVec.toNat_ofNat]; omega
  have hts : timespecToTimestamp old tv (some e) none =
      { old with owptime := BitVec.ofNat 64 (add (ofTimespec tv) (ulongToNum64 jan1970)),
                 scale := BitVec.ofNat 8 s, multiplier := BitVec.ofNat 8 (0xFF &&& (m + 1)) } := by
    have : e ≠ 0 := by omega
    simp only [timespecToTimestamp, this, hr, ne_eq, not_false_eq_true, if_true, reduceCtorEq, hue]
  have hne : BitVec.ofNat 8 (0xFF &&& (m + 1)) ≠ 0 := by
    intro h
    have := congrArg BitVec.toNat h
    rw [hmul] at this
    simp at this
  rw [hts]
  obtain ⟨b0, b1, hb, hd⟩ := C03_errest_roundtrip
    { old with owptime := BitVec.ofNat 64 (add (ofTimespec tv) (ulongToNum64 jan1970)),
               scale := BitVec.ofNat 8 s, multiplier := BitVec.ofNat 8 (0xFF &&& (m + 1)) }
    hne (by simp only [hsc]; exact hs)
  refine ⟨b0, b1, hb, ?_⟩
  rw [hd]
  simp only [errUnits, hmul, hsc, true_and]
  have hdm := Nat.div_add_mod u (2 ^ s)
  have hml := Nat.mod_lt u (Nat.two_pow_pos s)
  rw [Nat.sub_zero] at h3
  rw [← h3] at hdm
  have hexp : (m + 1) * 2 ^ s = 2 ^ s * m + 2 ^ s := by rw [Nat.mul_comm, Nat.mul_add, Nat.mul_one]
  rw [hexp]
  constructor
  · omega
  · by_cases hs0 : s = 0
    · subst hs0; simp at *; omega
    · have h127 : 2 ^ s * 127 ≤ 2 ^ s * m := Nat.mul_le_mul_left _ (h4 hs0)
      generalize 2 ^ s = p at *
      generalize p * m = q at *
      omega

/-- One clock reading: the time and the error in microseconds (0: no information). -/
structure Reading where
  time : TimeParts
  err : Nat

/-- How the test endpoints stamp packets (endpoint.c:1341-1344, 1440-1445): the same structure is reused
and the previous error is passed as `last_errest` so that the estimate is only recomputed when it
changes. State: the structure and the last error. -/
def stampStep (s : TimeStamp × Nat) (r : Reading) : TimeStamp × Nat :=
  (timespecToTimestamp s.1 r.time (some r.err) (some s.2), r.err)

/-- **C04.** The "only recompute when changed" shortcut is sound over any sequence of readings: after
each reading the stored multiplier and scale are those a fresh computation for that reading gives. -/
theorem C04_reuse_sound (t0 : TimeStamp) (rs : List Reading) (r : Reading) :
    let s := (rs ++ [r]).foldl stampStep (t0, 0)
    let fresh := timespecToTimestamp t0 r.time (some r.err) none
    s.1.multiplier = fresh.multiplier ∧ s.1.scale = fresh.scale ∧ s.1.owptime = fresh.owptime := by
  have inv : ∀ (rs : List Reading) (s : TimeStamp × Nat),
      (s.2 ≠ 0 → ∀ t tv, s.1.multiplier = (timespecToTimestamp t tv (some s.2) none).multiplier ∧
        s.1.scale = (timespecToTimestamp t tv (some s.2) none).scale) →
      let s' := rs.foldl stampStep s
      (s'.2 ≠ 0 → ∀ t tv, s'.1.multiplier = (timespecToTimestamp t tv (some s'.2) none).multiplier ∧
        s'.1.scale = (timespecToTimestamp t tv (some s'.2) none).scale) := by
    intro rs
    induction rs with
    | nil => intro s h; exact h
    | cons r rs ih =>
      intro s h
      apply ih
      intro hne t tv
      have hne' : r.err ≠ 0 := hne
      simp only [stampStep, timespecToTimestamp, hne', ne_eq, not_false_eq_true, if_true,
        Option.some.injEq, reduceCtorEq]
      by_cases hl : s.2 = r.err
      · have := h (by rw [hl]; exact hne') t tv
        rw [hl] at this
        simpa [timespecToTimestamp, hne', hl] using this
      · simp [hl]
  have h := inv rs (t0, 0) (by intro h; exact absurd rfl h)
  rw [List.foldl_append]
  generalize rs.foldl stampStep (t0, 0) = s at *
  simp only [List.foldl_cons, List.foldl_nil, stampStep]
  by_cases hz : r.err = 0
  · simp [timespecToTimestamp, hz]
  · by_cases hl : s.2 = r.err
    · have := h (by rw [hl]; exact hz) t0 r.time
      rw [hl] at this
      refine ⟨?_, ?_, ?_⟩
      · simpa [timespecToTimestamp, hz, hl] using this.1
      · simpa [timespecToTimestamp, hz, hl] using this.2
      · simp [timespecToTimestamp, hz, hl]
    · simp [timespecToTimestamp, hz, hl]

/-- **C04 fails when the error is unknown.** With no error figure the structure gets scale 64, which the
6-bit field cannot carry: the peer decodes a *valid* estimate of 2^-32 s, the smallest error there is. -/
theorem C04_unknown_error_understated (old : TimeStamp) (tv : TimeParts) (errest : Option Nat)
    (h : errest = none ∨ errest = some 0) :
    ∃ b0 b1, encodeErrEstimate (timespecToTimestamp old tv errest none) = some [b0, b1] ∧
      (decodeErrEstimate b0 b1).valid = true ∧
      errUnits (decodeErrEstimate b0 b1).multiplier (decodeErrEstimate b0 b1).scale = 1 := by
  refine ⟨0, 1, ?_, by decide, by decide⟩
  rcases h with rfl | rfl <;> simp [timespecToTimestamp, encodeErrEstimate]

/-! ## C05 -/

/-- **C05 (partial).** The reported error is `multiplier * 2^scale` units whenever that fits 64 bits.
Missing: larger products, for which the statement is false (`C05_error_overflow`). -/
theorem C05_error_value_partial (m s : Byte) (hs : s.toNat < 64) (h : errUnits m s < 2 ^ 64) :
    getTimeStampErrorNum m s = errUnits m s := by
  have hall : ∀ s : Fin 256, s.val < 64 → (BitVec.ofNat 8 s.val &&& 0x3F#8).toNat = s.val := by
    decide +kernel
  have h1 := hall ⟨s.toNat, s.isLt⟩ hs
  simp only [BitVec.ofNat_toNat, BitVec.setWidth_eq] at h1
  have h2 : m.toNat &&& 0xFF = m.toNat := by
    have := Nat.and_two_pow_sub_one_eq_mod m.toNat 8
    have hm := m.isLt
    rw [show (0xFF : Nat) = 2 ^ 8 - 1 from rfl, this]; omega
  have hm := m.isLt
  rw [getTimeStampErrorNum, h1, h2, shiftLoop_eq _ _ (by omega)]
  exact Nat.mod_eq_of_lt h

/-- **C05 fails** for large estimates: multiplier 2 with scale 63 (an error of 2^32 s) is reported as an
error of zero. -/
theorem C05_error_overflow : getTimeStampErrorNum 2 63 = 0 ∧ errUnits 2 63 = 2 ^ 64 := by
  decide +kernel

/-- All estimates `OWPTimespecToTimestamp` itself can produce are in the exact range. -/
example : (26 : Byte).toNat < 64 ∧ errUnits 255 26 < 2 ^ 64 ∧ getTimeStampErrorNum 255 26 = 255 * 2 ^ 26 := by
  decide +kernel

/-! ## C60 -/

/-- **C60.** On normalised operands the `timespec` macros are exact: comparison is comparison of the
denoted times, addition and subtraction and absolute difference give the exact sum, difference and
distance, with a normalised sub-second part. -/
theorem C60_timespec_arith (a b : TimeParts) (ha : 0 ≤ a.sub ∧ a.sub < 1000000000)
    (hb : 0 ≤ b.sub ∧ b.sub < 1000000000) :
    (tsLt a b = true ↔ total 1000000000 a < total 1000000000 b) ∧
    (tsGt a b = true ↔ total 1000000000 a > total 1000000000 b) ∧
    (total 1000000000 (tsAdd a b) = total 1000000000 a + total 1000000000 b ∧
      0 ≤ (tsAdd a b).sub ∧ (tsAdd a b).sub < 1000000000) ∧
    (total 1000000000 (tsSub a b) = total 1000000000 a - total 1000000000 b ∧
      0 ≤ (tsSub a b).sub ∧ (tsSub a b).sub < 1000000000) ∧
    (total 1000000000 (tsDiff a b) = ((total 1000000000 a - total 1000000000 b).natAbs : Int) ∧
      0 ≤ (tsDiff a b).sub ∧ (tsDiff a b).sub < 1000000000) := by
  obtain ⟨as, an⟩ := a
  obtain ⟨bs, bn⟩ := b
  have h1 : tsLt ⟨as, an⟩ ⟨bs, bn⟩ = true ↔ total 1000000000 ⟨as, an⟩ < total 1000000000 ⟨bs, bn⟩ := by
    simp only [tsLt, total] at *
    split <;> simp only [decide_eq_true_eq] <;> omega
  have h2 : tsGt ⟨as, an⟩ ⟨bs, bn⟩ = true ↔ total 1000000000 ⟨as, an⟩ > total 1000000000 ⟨bs, bn⟩ := by
    simp only [tsGt, total] at *
    split <;> simp only [decide_eq_true_eq] <;> omega
  have h3 : ∀ as an bs bn : Int, (0 ≤ an ∧ an < 1000000000) → (0 ≤ bn ∧ bn < 1000000000) →
      total 1000000000 (tsSub ⟨as, an⟩ ⟨bs, bn⟩)
        = total 1000000000 ⟨as, an⟩ - total 1000000000 ⟨bs, bn⟩ ∧
      0 ≤ (tsSub ⟨as, an⟩ ⟨bs, bn⟩).sub ∧ (tsSub ⟨as, an⟩ ⟨bs, bn⟩).sub < 1000000000 := by
    intro as an bs bn ha hb
    simp only [tsSub, total]
    split <;> simp only <;> omega
  refine ⟨h1, h2, ?_, h3 _ _ _ _ ha hb, ?_⟩
  · simp only [tsAdd, total] at *
    split <;> simp only <;> omega
  · unfold tsDiff
    by_cases hg : tsGt ⟨as, an⟩ ⟨bs, bn⟩ = true
    · rw [if_pos hg]
      have := h3 as an bs bn ha hb
      have := h2.1 hg
      omega
    · rw [if_neg hg]
      have := h3 bs bn as an hb ha
      have : ¬ total 1000000000 ⟨as, an⟩ > total 1000000000 ⟨bs, bn⟩ := fun h => hg (h2.2 h)
      omega

/-- **C60.** Reading a synchronised clock applies the kernel's offset exactly and yields a normalised
time; the error estimate of a synchronised clock is never zero. -/
theorem C60_getTimespec (tod : TimeParts) (h : 0 ≤ tod.sub ∧ tod.sub < 1000000) (off : Int) (est : Nat) :
    let r := getTimespec tod (some (off, est))
    total 1000000000 r.1 = tod.sec * 1000000000 + tod.sub * 1000 + off ∧
    0 ≤ r.1.sub ∧ r.1.sub < 1000000000 ∧ r.2.1 ≠ 0 ∧ r.2.2 = true := by
  have h1 := offUp_spec tod.sec off
  have h2 := offDown_spec (offUp tod.sec off).1 (offUp tod.sec off).2 h1.2
  simp only [getTimespec]
  generalize offDown (offUp tod.sec off).1 (offUp tod.sec off).2 = r at *
  have hd : ∀ n : Nat, (if n = 0 then 1 else n) ≠ 0 := by intro n; split <;> omega
  split <;> simp only [total] <;>
    refine ⟨?_, ?_, ?_, hd _, trivial⟩ <;> omega

end Owamp.Props
