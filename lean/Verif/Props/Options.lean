import Verif.Lemmas.Options
import Verif.Props.Num64
/-!
# C79: a test is what the command line says
-/
namespace Owamp.Props
open Owamp.Policy Owamp.Options Owamp.Spec.Options Owamp.Sched

/-! ### Helpers -/

theorem each_congr {α : Type} {P Q : Bytes → α → Prop} (h : ∀ f a, P f a ↔ Q f a) (fs : List Bytes) (l : List α) : Each P fs l ↔ Each Q fs l := by
  have : P = Q := funext fun f => funext fun a => propext (h f a)
  rw [this]

theorem lower_e (b : Byte) : lower b = 101#8 ↔ b = 101#8 ∨ b = 69#8 := by
  unfold lower
  split
  · rename_i h
    constructor
    · intro e; right; exact BitVec.eq_of_toNat_eq (by have := congrArg BitVec.toNat e; simp at this; have := b.isLt; simp only [BitVec.le_def] at h; simp at h; simp; omega)
    · rintro (rfl | rfl)
      · exact absurd h (by decide)
      · decide
  · rename_i h
    constructor
    · intro e; exact Or.inl e
    · rintro (rfl | rfl)
      · rfl
      · exact absurd (by decide) h

theorem lower_f (b : Byte) : lower b = 102#8 ↔ b = 102#8 ∨ b = 70#8 := by
  unfold lower
  split
  · rename_i h
    constructor
    · intro e; right; exact BitVec.eq_of_toNat_eq (by have := congrArg BitVec.toNat e; simp at this; have := b.isLt; simp only [BitVec.le_def] at h; simp at h; simp; omega)
    · rintro (rfl | rfl)
      · exact absurd h (by decide)
      · decide
  · rename_i h
    constructor
    · intro e; exact Or.inl e
    · rintro (rfl | rfl)
      · rfl
      · exact absurd (by decide) h

theorem slotOf_iff (F : Floats) (hF : ∀ s, (F.strtod s).2.length ≤ s.length) (f : Bytes) (sl : Slot) : slotOf F f = some sl ↔ IsSlot F f sl := by
  obtain ⟨v, rest, hr⟩ : ∃ v r, F.strtod f = (v, r) := ⟨_, _, rfl⟩
  have hle := hF f
  unfold slotOf
  rw [hr] at hle ⊢
  dsimp only at hle ⊢
  have rd : ∀ w r, Reads F f w r ↔ (v = w ∧ rest = r) ∧ rest.length < f.length := by
    intro w r
    unfold Reads
    rw [hr, Prod.mk.injEq]
    constructor
    · rintro ⟨⟨a, b⟩, c⟩; exact ⟨⟨a, b⟩, by rw [b]; exact c⟩
    · rintro ⟨⟨a, b⟩, c⟩; exact ⟨⟨a, b⟩, by rw [← b]; exact c⟩
  by_cases h1 : rest.length = f.length
  · rw [if_pos h1]
    constructor
    · intro h; cases h
    · intro h
      exfalso
      cases sl with
      | other => exact h
      | randExp m => obtain ⟨w, r, k, _⟩ := h; have := ((rd w r).1 k).2; omega
      | literal m => obtain ⟨w, r, k, _⟩ := h; have := ((rd w r).1 k).2; omega
  · rw [if_neg h1]
    have hlt : rest.length < f.length := by omega
    by_cases h2 : 1 < rest.length
    · rw [if_pos h2]
      constructor
      · intro h; cases h
      · intro h
        exfalso
        cases sl with
        | other => exact h
        | randExp m =>
          obtain ⟨w, r, k, hm, _⟩ := h
          rw [((rd w r).1 k).1.2] at h2
          simp only [List.mem_cons, List.not_mem_nil, or_false] at hm
          rcases hm with rfl | rfl | rfl <;> simp at h2
        | literal m =>
          obtain ⟨w, r, k, hm, _⟩ := h
          rw [((rd w r).1 k).1.2] at h2
          simp only [List.mem_cons, List.not_mem_nil, or_false] at hm
          rcases hm with rfl | rfl <;> simp at h2
    · rw [if_neg h2]
      match rest, h2, hlt, rd with
      | [], _, hlt, rd =>
        dsimp only
        constructor
        · intro h; cases h; exact ⟨v, [], (rd _ _).2 ⟨⟨rfl, rfl⟩, hlt⟩, by simp, rfl⟩
        · intro h
          cases sl with
          | other => exact absurd h id
          | randExp m => obtain ⟨w, r, k, _, e⟩ := h; rw [e, ((rd w r).1 k).1.1]
          | literal m =>
            obtain ⟨w, r, k, hm, e⟩ := h
            rw [← ((rd w r).1 k).1.2] at hm
            simp at hm
      | [c], _, hlt, rd =>
        dsimp only
        by_cases he : lower c = 101#8
        · rw [if_pos he]
          have hc := (lower_e c).1 he
          constructor
          · intro h; cases h
            exact ⟨v, [c], (rd _ _).2 ⟨⟨rfl, rfl⟩, hlt⟩, by rcases hc with rfl | rfl <;> simp, rfl⟩
          · intro h
            cases sl with
            | other => exact absurd h id
            | randExp m => obtain ⟨w, r, k, _, e⟩ := h; rw [e, ((rd w r).1 k).1.1]
            | literal m =>
              obtain ⟨w, r, k, hm, e⟩ := h
              rw [← ((rd w r).1 k).1.2] at hm
              exfalso
              rcases hc with rfl | rfl <;> simp at hm
        · rw [if_neg he]
          have hc : ¬ (c = 101#8 ∨ c = 69#8) := fun h => he ((lower_e c).2 h)
          by_cases hf : lower c = 102#8
          · rw [if_pos hf]
            have hc' := (lower_f c).1 hf
            constructor
            · intro h; cases h
              exact ⟨v, [c], (rd _ _).2 ⟨⟨rfl, rfl⟩, hlt⟩, by rcases hc' with rfl | rfl <;> simp, rfl⟩
            · intro h
              cases sl with
              | other => exact absurd h id
              | literal m => obtain ⟨w, r, k, _, e⟩ := h; rw [e, ((rd w r).1 k).1.1]
              | randExp m =>
                obtain ⟨w, r, k, hm, e⟩ := h
                rw [← ((rd w r).1 k).1.2] at hm
                exfalso
                simp only [List.mem_cons, List.cons.injEq, and_true, List.not_mem_nil, or_false] at hm
                rcases hm with hm | hm
                · cases hm
                · exact hc hm
          · rw [if_neg hf]
            have hc' : ¬ (c = 102#8 ∨ c = 70#8) := fun h => hf ((lower_f c).2 h)
            constructor
            · intro h; cases h
            · intro h
              exfalso
              cases sl with
              | other => exact h
              | literal m =>
                obtain ⟨w, r, k, hm, e⟩ := h
                rw [← ((rd w r).1 k).1.2] at hm
                simp only [List.mem_cons, List.cons.injEq, and_true, List.not_mem_nil, or_false] at hm
                exact hc' hm
              | randExp m =>
                obtain ⟨w, r, k, hm, e⟩ := h
                rw [← ((rd w r).1 k).1.2] at hm
                simp only [List.mem_cons, List.cons.injEq, and_true, List.not_mem_nil, or_false] at hm
                rcases hm with hm | hm
                · cases hm
                · exact hc hm
      | _ :: _ :: _, h2, _, _ => exact absurd (by simp) h2

theorem strtod_nil (F : Floats) (hF : ∀ s, (F.strtod s).2.length ≤ s.length) : (F.strtod []).2.length = ([] : Bytes).length := by
  have := hF []; simpa using this

/-! ### The property -/

/-- A schedule is accepted if and only if it is a list of intervals separated by commas, and then it is those intervals in that order: none is dropped, added or of another kind. -/
theorem C79_schedule (F : Floats) (hF : ∀ s, (F.strtod s).2.length ≤ s.length) (s : Bytes) (l : List Slot) :
    parseSlots F s = some l ↔ ∃ fs, Listed s fs ∧ Each (IsSlot F) fs l := by
  unfold parseSlots
  rw [parseList_iff]
  · constructor
    · rintro ⟨fs, h1, h2⟩; exact ⟨fs, h1, (each_congr (slotOf_iff F hF) fs l).1 h2⟩
    · rintro ⟨fs, h1, h2⟩; exact ⟨fs, h1, (each_congr (slotOf_iff F hF) fs l).2 h2⟩
  · unfold slotOf
    dsimp only
    rw [if_pos (strtod_nil F hF)]

/-- The percentiles of a list of numbers from 0 to 100 are accepted in that order; whatever is accepted begins with numbers that are not below 0 and not above 100, one for each element.
Missing: texts after the numbers are not refused (`C79_percentile_text`). -/
theorem C79_percentile_partial (F : Floats) (hF : ∀ s, (F.strtod s).2.length ≤ s.length) (s : Bytes) (l : List F.D) :
    (∀ fs, Listed s fs → Each (IsAlpha F) fs l → parsePercentile F s = some l) ∧
    (parsePercentile F s = some l → ∃ fs, Listed s fs ∧ Each (fun f v => (∃ rest, Reads F f v rest) ∧ F.below v = false ∧ F.above v = false) fs l) := by
  have hi : ∀ f v, alphaOf F f = some v ↔ (∃ rest, Reads F f v rest) ∧ F.below v = false ∧ F.above v = false := by
    intro f v
    have hle := hF f
    unfold alphaOf Reads
    obtain ⟨w, rest, hr⟩ : ∃ v r, F.strtod f = (v, r) := ⟨_, _, rfl⟩
    rw [hr] at hle ⊢
    dsimp only at hle ⊢
    constructor
    · intro h
      split at h
      · cases h
      · rename_i hn
        cases h
        exact ⟨⟨rest, rfl, by omega⟩, Bool.eq_false_iff.2 fun h => hn (Or.inr (Or.inl h)), Bool.eq_false_iff.2 fun h => hn (Or.inr (Or.inr h))⟩
    · rintro ⟨⟨r, e, hl⟩, h1, h2⟩
      cases e
      rw [if_neg]
      rintro (h | h | h)
      · omega
      · rw [h1] at h; cases h
      · rw [h2] at h; cases h
  have h0 : alphaOf F [] = none := by
    unfold alphaOf
    dsimp only
    rw [if_pos (Or.inl (strtod_nil F hF))]
  unfold parsePercentile
  refine ⟨?_, ?_⟩
  · rintro fs h1 ⟨h2, h3⟩
    exact (parseList_iff _ h0 s l).2 ⟨fs, h1, h2, fun i f a hf ha => (hi f a).2 ⟨⟨[], (h3 i f a hf ha).1⟩, (h3 i f a hf ha).2⟩⟩
  · intro h
    obtain ⟨fs, h1, h2⟩ := (parseList_iff _ h0 s l).1 h
    exact ⟨fs, h1, (each_congr hi fs l).1 h2⟩

/-- What a letter stands for, by its number. -/
theorem letter_iff (tw : Bool) (b : Byte) (k : Nat) : Letter tw b k ↔
    (k = 0 ∧ (b = 111#8 ∨ b = 79#8)) ∨ (k = 1 ∧ (b = 97#8 ∨ b = 65#8)) ∨ (k = 2 ∧ (b = 101#8 ∨ b = 69#8)) ∨ (tw = true ∧ k = 3 ∧ (b = 109#8 ∨ b = 77#8)) := by
  unfold Letter modeLetters
  constructor
  · rintro ⟨x, hx, rfl, c, hc, rfl⟩
    cases tw
    · simp only [Bool.false_eq_true, if_false, List.append_nil, List.mem_cons, List.not_mem_nil, or_false] at hx
      rcases hx with rfl | rfl | rfl <;> simp only [List.mem_cons, List.not_mem_nil, or_false] at hc <;> rcases hc with rfl | rfl <;> decide
    · simp only [if_true, List.cons_append, List.nil_append, List.mem_cons, List.not_mem_nil, or_false] at hx
      rcases hx with rfl | rfl | rfl | rfl <;> simp only [List.mem_cons, List.not_mem_nil, or_false] at hc <;> rcases hc with rfl | rfl <;> decide
  · rintro (⟨rfl, h⟩ | ⟨rfl, h⟩ | ⟨rfl, h⟩ | ⟨rfl, rfl, h⟩)
    · exact ⟨(['o', 'O'], 0), by simp, rfl, h.elim (fun e => e ▸ ⟨'o', by simp, rfl⟩) (fun e => e ▸ ⟨'O', by simp, rfl⟩)⟩
    · exact ⟨(['a', 'A'], 1), by simp, rfl, h.elim (fun e => e ▸ ⟨'a', by simp, rfl⟩) (fun e => e ▸ ⟨'A', by simp, rfl⟩)⟩
    · exact ⟨(['e', 'E'], 2), by simp, rfl, h.elim (fun e => e ▸ ⟨'e', by simp, rfl⟩) (fun e => e ▸ ⟨'E', by simp, rfl⟩)⟩
    · exact ⟨(['m', 'M'], 3), by simp, rfl, h.elim (fun e => e ▸ ⟨'m', by simp, rfl⟩) (fun e => e ▸ ⟨'M', by simp, rfl⟩)⟩

/-- The whole table of letters. -/
theorem modeBit_bytes : ∀ (tw : Bool) (i : Fin 256), modeBit tw (BitVec.ofFin i) =
    if BitVec.ofFin i = 111#8 ∨ BitVec.ofFin i = 79#8 then some 1
    else if BitVec.ofFin i = 97#8 ∨ BitVec.ofFin i = 65#8 then some 2
    else if BitVec.ofFin i = 101#8 ∨ BitVec.ofFin i = 69#8 then some 4
    else if tw ∧ (BitVec.ofFin i = 109#8 ∨ BitVec.ofFin i = 77#8) then some 8
    else none := by
  decide +kernel

theorem modeBit_some (tw : Bool) (b : Byte) (x : U32) (h : modeBit tw b = some x) : ∃ k, Letter tw b k ∧ ∀ j, x.getLsbD j = true ↔ Letter tw b j := by
  have hb : b = BitVec.ofFin b.toFin := rfl
  rw [hb, modeBit_bytes, ← hb] at h
  simp only [letter_iff]
  split at h
  · rename_i hc
    cases h
    refine ⟨0, by simp [hc], fun j => ?_⟩
    rcases hc with rfl | rfl <;> simp
  split at h
  · rename_i hc
    cases h
    refine ⟨1, by simp [hc], fun j => ?_⟩
    have : (2 : U32).getLsbD j = true ↔ j = 1 := by
      rw [show (2 : U32) = BitVec.twoPow 32 1 by decide, BitVec.getLsbD_twoPow]; simp; omega
    rw [this]
    rcases hc with rfl | rfl <;> simp
  split at h
  · rename_i hc
    cases h
    refine ⟨2, by simp [hc], fun j => ?_⟩
    have : (4 : U32).getLsbD j = true ↔ j = 2 := by
      rw [show (4 : U32) = BitVec.twoPow 32 2 by decide, BitVec.getLsbD_twoPow]; simp; omega
    rw [this]
    rcases hc with rfl | rfl <;> simp
  split at h
  · rename_i hc
    cases h
    refine ⟨3, by simp [hc], fun j => ?_⟩
    have : (8 : U32).getLsbD j = true ↔ j = 3 := by
      rw [show (8 : U32) = BitVec.twoPow 32 3 by decide, BitVec.getLsbD_twoPow]; simp; omega
    rw [this]
    rcases hc with ⟨rfl, rfl | rfl⟩ <;> simp
  · cases h

theorem modeBit_none (tw : Bool) (b : Byte) (h : modeBit tw b = none) (k : Nat) : ¬ Letter tw b k := by
  have hb : b = BitVec.ofFin b.toFin := rfl
  rw [hb, modeBit_bytes, ← hb] at h
  rw [letter_iff]
  split at h
  · cases h
  split at h
  · cases h
  split at h
  · cases h
  split at h
  · cases h
  · rename_i h1 h2 h3 h4
    rintro (⟨_, e⟩ | ⟨_, e⟩ | ⟨_, e⟩ | ⟨t, _, e⟩)
    · exact h1 e
    · exact h2 e
    · exact h3 e
    · exact h4 ⟨t, e⟩

theorem modeBits_spec (tw : Bool) : ∀ (s : Bytes) (m : U32),
    (∀ r, modeBits tw s m = some r → (∀ b ∈ s, ∃ k, Letter tw b k) ∧ ∀ k, r.getLsbD k = true ↔ m.getLsbD k = true ∨ ∃ b ∈ s, Letter tw b k) ∧
    ((∀ b ∈ s, ∃ k, Letter tw b k) → ∃ r, modeBits tw s m = some r) := by
  intro s
  induction s with
  | nil =>
    intro m
    refine ⟨fun r h => ?_, fun _ => ⟨m, rfl⟩⟩
    cases h
    exact ⟨fun b hb => absurd hb (by simp), fun k => by simp⟩
  | cons b s ih =>
    intro m
    unfold modeBits
    cases hb : modeBit tw b with
    | none =>
      dsimp only
      refine ⟨(fun r h => by cases h), fun h => ?_⟩
      obtain ⟨k, hk⟩ := h b (by simp)
      exact absurd hk (modeBit_none tw b hb k)
    | some x =>
      dsimp only
      obtain ⟨k0, hk0, hx⟩ := modeBit_some tw b x hb
      obtain ⟨i1, i2⟩ := ih (m ||| x)
      refine ⟨fun r h => ?_, fun h => i2 fun c hc => h c (by simp [hc])⟩
      obtain ⟨j1, j2⟩ := i1 r h
      refine ⟨fun c hc => ?_, fun k => ?_⟩
      · simp only [List.mem_cons] at hc
        rcases hc with rfl | hc
        · exact ⟨k0, hk0⟩
        · exact j1 c hc
      · rw [j2 k]
        simp only [BitVec.getLsbD_or, Bool.or_eq_true, hx k, List.mem_cons, exists_eq_or_imp]
        exact or_assoc

/-- The modes that may be used are exactly those whose letters are given, in any case, order and number; a text with any other letter is refused.
Without the option only the open mode may be used when there is no identity, and every mode when there is one. -/
theorem C79_modes (tw id : Bool) (s : Bytes) :
    (∀ m, authModes tw id (some s) = some m → (∀ b ∈ s, ∃ k, Letter tw b k) ∧ ∀ k, m.getLsbD k = true ↔ ∃ b ∈ s, Letter tw b k) ∧
    ((∀ b ∈ s, ∃ k, Letter tw b k) → ∃ m, authModes tw id (some s) = some m) ∧
    (∃ m, authModes tw id none = some m ∧ ∀ k, m.getLsbD k = true ↔ if id then ∃ b, Letter tw b k else k = 0) := by
  obtain ⟨h1, h2⟩ := modeBits_spec tw s 0
  refine ⟨fun m h => ?_, h2, ?_⟩
  · obtain ⟨a, b⟩ := h1 m h
    exact ⟨a, fun k => by rw [b k]; simp⟩
  · rcases Bool.eq_false_or_eq_true id with rfl | rfl
    rotate_left
    · exact ⟨1, rfl, fun k => by simp⟩
    · have ex : ∀ k, (∃ b, Letter tw b k) ↔ k < 3 + tw.toNat := by
        intro k
        constructor
        · rintro ⟨b, hb⟩
          rw [letter_iff] at hb
          rcases hb with ⟨rfl, _⟩ | ⟨rfl, _⟩ | ⟨rfl, _⟩ | ⟨rfl, rfl, _⟩
          all_goals first | (simp; done) | omega
        · intro hk
          have : k = 0 ∨ k = 1 ∨ k = 2 ∨ (k = 3 ∧ tw = true) := by cases tw <;> simp at hk ⊢ <;> omega
          rcases this with rfl | rfl | rfl | ⟨rfl, rfl⟩
          · exact ⟨111#8, by simp [letter_iff]⟩
          · exact ⟨97#8, by simp [letter_iff]⟩
          · exact ⟨101#8, by simp [letter_iff]⟩
          · exact ⟨109#8, by simp [letter_iff]⟩
      cases tw
      · refine ⟨7, rfl, fun k => ?_⟩
        rw [if_pos rfl, ex]
        by_cases hk : k < 32
        · have : ∀ i : Fin 32, (7 : U32).getLsbD i.1 = true ↔ i.1 < 3 := by decide +kernel
          exact this ⟨k, hk⟩
        · constructor
          · intro h; rw [BitVec.getLsbD_of_ge _ _ (by omega)] at h; cases h
          · intro h; simp at h; omega
      · refine ⟨15, rfl, fun k => ?_⟩
        rw [if_pos rfl, ex]
        by_cases hk : k < 32
        · have : ∀ i : Fin 32, (15 : U32).getLsbD i.1 = true ↔ i.1 < 4 := by decide +kernel
          exact this ⟨k, hk⟩
        · constructor
          · intro h; rw [BitVec.getLsbD_of_ge _ _ (by omega)] at h; cases h
          · intro h; simp at h; omega

/-- A `double` for the examples: whole numbers only, read as `strtol` reads them. -/
@[reducible] def wholeNumbers : Floats where
  D := Int
  strtod := fun s => (Ports.strtol s).getD (0, s)
  toNum64 := fun v => if v ≤ 0 then 0 else BitVec.ofNat 64 (v.toNat * 2 ^ 32)
  below := fun v => decide (v < 0)
  above := fun v => decide (100 < v)

theorem wholeNumbers_rest (s : Bytes) : (wholeNumbers.strtod s).2.length ≤ s.length := by
  unfold wholeNumbers Ports.strtol
  dsimp only
  split
  · simp
  · simp only [Option.getD_some]
    have h1 : ∀ t : Bytes, (Ports.sign t).2.length ≤ t.length := by
      intro t; unfold Ports.sign; split
      · simp
      · split
        · simp
        · split <;> simp
    have h2 : ∀ (p : Byte → Bool) (t : Bytes), (t.dropWhile p).length ≤ t.length := fun p t => (List.dropWhile_sublist p).length_le
    exact Nat.le_trans (h2 _ _) (Nat.le_trans (h1 _) (h2 _ _))

/-- A schedule of three kinds of elements, as the user means it; and lists that are refused. -/
theorem C79_schedule_example :
    parseSlots wholeNumbers (text ['1', ',', '2', 'f', ',', '3', 'E']) = some [.randExp 0x100000000, .literal 0x200000000, .randExp 0x300000000] ∧
    parseSlots wholeNumbers (text ['1', ',', ',', '2']) = none ∧
    parseSlots wholeNumbers (text ['1', ',', '2', ',']) = none ∧
    parseSlots wholeNumbers (text ['1', 'g']) = none ∧
    parseSlots wholeNumbers (text ['1', 'f', 'f']) = none ∧
    parseSlots wholeNumbers (text ['f']) = none ∧
    parsePercentile wholeNumbers (text ['5', '0', ',', '1', '0', '0']) = some [(50 : Int), (100 : Int)] ∧
    parsePercentile wholeNumbers (text ['1', '0', '1']) = none ∧
    authModes true false (some (text ['a', 'M'])) = some 10 ∧
    authModes false false (some (text ['a', 'M'])) = none := by
  decide +kernel

/-- The hypotheses of `C79_schedule` and `C79_percentile_partial` are met by it. -/
example : ∃ fs, Listed (text ['1', ',', '2', 'f', ',', '3', 'E']) fs ∧ Each (IsSlot wholeNumbers) fs [.randExp 0x100000000, .literal 0x200000000, .randExp 0x300000000] :=
  (C79_schedule wholeNumbers wholeNumbers_rest _ _).1 C79_schedule_example.1

/-- Text after a percentile is not refused: `-a 95x` is 95. -/
theorem C79_percentile_text : parsePercentile wholeNumbers (text ['9', '5', 'x']) = some [(95 : Int)] := by
  decide +kernel

/-- An interval below zero is accepted, and is an interval of zero. -/
theorem C79_negative : parseSlots wholeNumbers (text ['-', '1']) = some [.randExp 0] := by
  decide +kernel

/-- The sessions start at least a second, and as many times the bound on the round-trip time as there are messages to exchange, after the clock was read, and not before the delay that was asked for;
no later than the later of the two. -/
theorem C79_start (rtt delay now : Nat) (there back : Bool) (hr : rtt < 2 ^ 64)
    (h1 : rtt * (1 + there.toNat + back.toNat) + 2 ^ 32 + now < 2 ^ 64) (h2 : delay + now < 2 ^ 64) :
    startTime rtt there back delay now = now + max (rtt * (1 + there.toNat + back.toNat) + 2 ^ 32) delay := by
  have key : ∀ n, n < 4 → rtt * n + 2 ^ 32 + now < 2 ^ 64 → Num64.add (Num64.mult rtt (Num64.ulongToNum64 n)) (Num64.ulongToNum64 1) = rtt * n + 2 ^ 32 := by
    intro n hn hb
    have e1 : Num64.ulongToNum64 n = n * 2 ^ 32 := by
      unfold Num64.ulongToNum64 Num64.u64
      rw [Nat.shiftLeft_eq, Nat.mod_eq_of_lt (by omega)]
    have e2 : Num64.ulongToNum64 1 = 2 ^ 32 := by decide
    rw [e1, e2]
    rw [C01_mult_exact rtt (n * 2 ^ 32) hr (by omega)]
    rw [← Nat.mul_assoc, Nat.mul_div_cancel _ (by decide), Nat.mod_eq_of_lt (by omega)]
    unfold Num64.add Num64.u64
    exact Nat.mod_eq_of_lt (by omega)
  unfold startTime
  dsimp only
  have e3 : (if back = true then (if there = true then 1 + 1 else 1) + 1 else if there = true then 1 + 1 else 1) = 1 + there.toNat + back.toNat := by
    cases there <;> cases back <;> rfl
  rw [e3, key _ (by cases there <;> cases back <;> decide) h1]
  generalize rtt * (1 + there.toNat + back.toNat) + 2 ^ 32 = a at h1 ⊢
  unfold Num64.add Num64.u64
  split
  · rw [Nat.mod_eq_of_lt h2]; omega
  · rw [Nat.mod_eq_of_lt h1]; omega

/-- Two sessions, at most a second for the round trip: four seconds from now. -/
example : startTime (2 ^ 32) true true 0 (100 * 2 ^ 32) = 104 * 2 ^ 32 := by
  rw [C79_start (2 ^ 32) 0 (100 * 2 ^ 32) true true (by decide) (by decide) (by decide)]; decide

end Owamp.Props
