import Verif.Lemmas.Message
import Verif.Props.Time
import Verif.Model.Codec
/-!
# C12: data records survive storage
-/
namespace Owamp.Props
open Owamp.Codec Owamp.Time

/-- A timestamp whose error estimate the two wire bytes can hold: multiplier not 0, six-bit scale. -/
def Stamp (t : TimeStamp) : Prop := t.multiplier ≠ 0 ∧ t.scale.toNat < 64

/-- The error estimate field: S and unused bit, six bits of scale, multiplier (RFC 4656 4.1.2). -/
def errField (t : TimeStamp) : Bytes := [(if t.sync then 128#8 else 0#8) + t.scale, t.multiplier]

/-- A stored one-way record, 25 bytes (api.c:2270-2290; RFC 4656 3.9). -/
def recLayout (r : DataRec) : Bytes :=
  enc32 r.seq ++ errField r.send ++ errField r.recv ++ enc64 r.send.owptime ++ enc64 r.recv.owptime ++ [r.ttl]

/-- A stored one-way record of file versions 0 and 2, 24 bytes. -/
def oldRecLayout (r : DataRec) : Bytes :=
  enc32 r.seq ++ enc64 r.send.owptime ++ errField r.send ++ enc64 r.recv.owptime ++ errField r.recv

theorem encodeErr_field (t : TimeStamp) (h : Stamp t) : encodeErrEstimate t = some (errField t) := by
  obtain ⟨h1, h2⟩ := h
  have hall : ∀ s : Fin 256, s.val < 64 →
      ((BitVec.ofNat 8 s.val &&& 0x3F#8) ||| 0x80#8) = 128#8 + BitVec.ofNat 8 s.val ∧
      (BitVec.ofNat 8 s.val &&& 0x3F#8) = 0#8 + BitVec.ofNat 8 s.val := by
    decide +kernel
  have h := hall ⟨t.scale.toNat, t.scale.isLt⟩ h2
  simp only [BitVec.ofNat_toNat, BitVec.setWidth_eq] at h
  unfold encodeErrEstimate errField
  rw [if_neg h1]
  cases t.sync
  · simp only [Bool.false_eq_true, if_false]; rw [h.2]
  · simp only [if_true]; rw [h.1]

theorem decodeErr_field (t : TimeStamp) (h : Stamp t) :
    decodeStamp (enc64 t.owptime) (errField t) = some t := by
  obtain ⟨b0, b1, e1, e2⟩ := C03_errest_roundtrip t h.1 h.2
  rw [encodeErr_field t h] at e1
  simp only [Option.some.injEq] at e1
  unfold decodeStamp
  rw [e1, Ctl.decTime_enc]
  have g0 : get8 [b0, b1] 0 = b0 := by
    unfold get8; rw [show get [b0, b1] 0 1 = enc8 b0 from (enc8_eq b0).symm, dec_enc8]
  have g1 : get8 [b0, b1] 1 = b1 := by
    unfold get8; rw [show get [b0, b1] 1 1 = enc8 b1 from (enc8_eq b1).symm, dec_enc8]
  rw [g0, g1, e2]
  rfl

theorem errField_length (t : TimeStamp) : (errField t).length = 2 := rfl

theorem encodeRec_layout (r : DataRec) (hs : Stamp r.send) (hr : Stamp r.recv) :
    encodeDataRec r = some (recLayout r) := by
  unfold encodeDataRec
  rw [encodeErr_field _ hs, encodeErr_field _ hr]
  simp only [encodeTimeStamp_eq]
  refine congrArg some ?_
  have l1 := errField_length r.send
  have l2 := errField_length r.recv
  rw [← get_all (put8 _ _ _) 25 (by simp (disch := blen) only [put8, put32, put_length]; simp),
    get_pieces _ 0 [4, 2, 2, 8, 8, 1] 25 rfl]
  fields [l1, l2]
  simp [recLayout, enc8_eq]

/-- C12: a one-way record with encodable error estimates is stored in the documented layout and read
back identically. Missing for "every record": estimates the clock code can produce but the wire cannot
hold, see `C12_scale_64_is_lost` and `C12_no_multiplier`. -/
theorem C12_record_partial (r : DataRec) (hs : Stamp r.send) (hr : Stamp r.recv) :
    encodeDataRec r = some (recLayout r) ∧ (recLayout r).length = 25 ∧ decodeDataRec 3 (recLayout r) = some r := by
  refine ⟨encodeRec_layout r hs hr, by simp [recLayout, errField], ?_⟩
  have l1 := errField_length r.send
  have l2 := errField_length r.recv
  simp only [decodeDataRec, recLayout, ← enc8_eq, List.append_assoc]
  fields [l1, l2]
  simp only [decodeErr_field _ hs, decodeErr_field _ hr]
  rfl

/-- C12: a two-way record is read back identically. -/
theorem C12_twoway_record_partial (r : TWDataRec) (h1 : Stamp r.sent.send) (h2 : Stamp r.sent.recv)
    (h3 : Stamp r.reflected.send) (h4 : Stamp r.reflected.recv) :
    encodeTWDataRec r = some (recLayout r.sent ++ recLayout r.reflected) ∧
    decodeTWDataRec 131 (recLayout r.sent ++ recLayout r.reflected) = some r := by
  obtain ⟨a1, a2, a3⟩ := C12_record_partial r.sent h1 h2
  obtain ⟨b1, b2, b3⟩ := C12_record_partial r.reflected h3 h4
  constructor
  · unfold encodeTWDataRec
    rw [a1, b1]
    refine congrArg some ?_
    rw [← get_all (put _ _ _) 50 (by simp (disch := blen) only [put_length]; simp),
      get_pieces _ 0 [25, 25] 50 rfl]
    fields [a2, b2]
  · unfold decodeTWDataRec
    fields [a2, b2]
    simp only [if_true, a3, b3]

/-- C12: records of file versions 0 and 2 read as the stored fields, with TTL 255. -/
theorem C12_old_versions (r : DataRec) (hs : Stamp r.send) (hr : Stamp r.recv) (v : Nat) (hv : v = 0 ∨ v = 2) :
    (oldRecLayout r).length = 24 ∧ decodeDataRec v (oldRecLayout r) = some { r with ttl := 255 } := by
  refine ⟨by simp [oldRecLayout, errField], ?_⟩
  have l1 := errField_length r.send
  have l2 := errField_length r.recv
  simp only [decodeDataRec, hv, if_true, oldRecLayout, List.append_assoc]
  fields [l1, l2]
  simp only [decodeErr_field _ hs, decodeErr_field _ hr]
  rfl

/-- C12: any 25 bytes that read as a record are, but for the two unused bits, what is stored for
that record; so two different stored records never read as the same one. -/
theorem C12_reading_is_faithful (b b' : Bytes) (r : DataRec) (hb : b.length = 25) (hb' : b'.length = 25)
    (h : decodeDataRec 3 b = some r) (h' : decodeDataRec 3 b' = some r) :
    get b 0 4 = get b' 0 4 ∧ get b 5 1 = get b' 5 1 ∧ get b 7 18 = get b' 7 18 ∧ Stamp r.send ∧ Stamp r.recv := by
  have key : ∀ b : Bytes, b.length = 25 → decodeDataRec 3 b = some r →
      r.seq = get32 b 0 ∧ r.send.multiplier = get8 b 5 ∧ r.recv.multiplier = get8 b 7 ∧
      r.send.owptime = get64 b 8 ∧ r.recv.owptime = get64 b 16 ∧ r.ttl = get8 b 24 ∧ Stamp r.send ∧ Stamp r.recv := by
    intro b hb h
    have st : ∀ o e t, o + 8 ≤ 25 → e + 2 ≤ 25 → decodeStamp (get b o 8) (get b e 2) = some t →
        t.owptime = get64 b o ∧ t.multiplier = get8 b (e + 1) ∧ Stamp t := by
      intro o e t ho he ht
      unfold decodeStamp at ht
      dsimp only at ht
      split at ht
      · rename_i hv
        simp only [Option.some.injEq] at ht
        have e1 : decodeTimeStamp (get b o 8) = get64 b o := by
          rw [decodeTimeStamp_eq _ (by rw [get_length _ _ _ (by omega)]; omega)]
          unfold get64; rw [get_get _ _ _ _ _ (by omega)]; rfl
        have e2 : get8 (get b e 2) 1 = get8 b (e + 1) := by
          unfold get8; rw [get_get _ _ _ _ _ (by omega)]
        have h3 : ∀ x y, (decodeErrEstimate x y).multiplier = y := fun _ _ => rfl
        subst ht
        refine ⟨e1, by rw [← e2]; rfl, ?_, ?_⟩
        · simpa [decodeErrEstimate] using hv
        · have hs : ∀ x : Fin 256, (BitVec.ofNat 8 x.val &&& 0x3F#8).toNat < 64 := by decide +kernel
          generalize hx : (if get8 (get b e 2) 1 = 0 then 0 else get8 (get b e 2) 0) = x
          show ((if get8 (get b e 2) 1 = 0 then 0 else get8 (get b e 2) 0) &&& 0x3F#8).toNat < 64
          rw [hx]
          have := hs ⟨x.toNat, x.isLt⟩
          simpa using this
      · simp at ht
    unfold decodeDataRec at h
    simp only [show ¬ ((3 : Nat) = 0 ∨ (3 : Nat) = 2) by omega, if_false, if_true] at h
    split at h
    · simp at h
    rename_i s hs
    split at h
    · simp at h
    rename_i t ht
    simp only [Option.some.injEq] at h
    subst h
    obtain ⟨a1, a2, a3⟩ := st 8 4 s (by omega) (by omega) hs
    obtain ⟨c1, c2, c3⟩ := st 16 6 t (by omega) (by omega) ht
    exact ⟨rfl, a2, c2, a1, c1, rfl, a3, c3⟩
  obtain ⟨p1, p2, p3, p4, p5, p6, p7, p8⟩ := key b hb h
  obtain ⟨q1, q2, q3, q4, q5, q6, _, _⟩ := key b' hb' h'
  refine ⟨?_, ?_, ?_, p7, p8⟩
  · rw [← enc_get32 _ _ (by omega), ← enc_get32 _ _ (by omega), ← p1, ← q1]
  · rw [← enc_get8 _ _ (by omega), ← enc_get8 _ _ (by omega), ← p2, ← q2]
  · rw [get_pieces _ 7 [1, 8, 8, 1] 18 rfl, get_pieces b' 7 [1, 8, 8, 1] 18 rfl]
    simp only [pieces, Nat.reduceAdd]
    rw [← enc_get8 b 7 (by omega), ← enc_get64 b 8 (by omega), ← enc_get64 b 16 (by omega), ← enc_get8 b 24 (by omega),
      ← enc_get8 b' 7 (by omega), ← enc_get64 b' 8 (by omega), ← enc_get64 b' 16 (by omega), ← enc_get8 b' 24 (by omega),
      ← p3, ← p4, ← p5, ← p6, ← q3, ← q4, ← q5, ← q6]

/-- C12 fails for an estimate with scale 64, which the clock code produces when it has no estimate
(`C04`): it is read back as scale 0. -/
theorem C12_scale_64_is_lost :
    ∃ r : DataRec, r.send = timespecToTimestamp r.send ⟨1000, 0⟩ none none ∧
      ∃ b r', encodeDataRec r = some b ∧ decodeDataRec 3 b = some r' ∧ r' ≠ r := by
  refine ⟨⟨7, timespecToTimestamp ⟨0, false, 0, 0⟩ ⟨1000, 0⟩ none none, ⟨5, true, 1, 1⟩, 64⟩, rfl, ?_⟩
  refine ⟨_, _, rfl, rfl, ?_⟩
  decide +kernel

/-- C12: a record with a zero multiplier cannot be stored. -/
theorem C12_no_multiplier (r : DataRec) : encodeDataRec r = none ↔ r.send.multiplier = 0 ∨ r.recv.multiplier = 0 := by
  unfold encodeDataRec
  have e := C03_errest_zero.1
  cases h1 : encodeErrEstimate r.send with
  | none => simp [(e _).1 h1]
  | some a =>
    have n1 : r.send.multiplier ≠ 0 := fun h => by rw [(e _).2 h] at h1; cases h1
    cases h2 : encodeErrEstimate r.recv with
    | none => simp [(e _).1 h2]
    | some b =>
      have n2 : r.recv.multiplier ≠ 0 := fun h => by rw [(e _).2 h] at h2; cases h2
      exact ⟨fun h => by simp at h, fun h => h.elim (fun h => absurd h n1) (fun h => absurd h n2)⟩

example : ∃ r : DataRec, Stamp r.send ∧ Stamp r.recv ∧ r.send.sync = true ∧ r.seq ≠ 0 :=
  ⟨⟨9, ⟨77, true, 3, 63⟩, ⟨99, false, 255, 1⟩, 64⟩, by unfold Stamp; decide⟩

end Owamp.Props
