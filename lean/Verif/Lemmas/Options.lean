import Verif.Spec.Options
import Verif.Lemmas.Classes
/-!
# Lemmas about the options of owping
-/
namespace Owamp.Options
open Owamp.Policy Owamp.Spec.Options

theorem isComma_iff (b : Byte) : isComma b = true ↔ b = 44#8 := by simp [isComma]

/-- Every text is a list. -/
theorem exists_listed : ∀ s : Bytes, ∃ fs, Listed s fs
  | [] => ⟨[[]], rfl, by simp, by simp⟩
  | b :: s => by
    obtain ⟨fs, h1, h2, h3⟩ := exists_listed s
    cases fs with
    | nil => exact absurd rfl h2
    | cons f fs =>
      by_cases hb : b = 44#8
      · refine ⟨[] :: f :: fs, ?_, by simp, ?_⟩
        · rw [joined, List.nil_append, ← h1, hb]
        · intro g hg
          rcases List.mem_cons.1 hg with rfl | hg
          · simp
          · exact h3 g hg
      · refine ⟨(b :: f) :: fs, ?_, by simp, ?_⟩
        · cases fs with
          | nil => rw [h1]; rfl
          | cons g fs => rw [h1]; rfl
        · intro g hg
          rcases List.mem_cons.1 hg with rfl | hg
          · simp only [List.mem_cons, not_or]
            exact ⟨fun e => hb e.symm, h3 f (by simp)⟩
          · exact h3 g (by simp [hg])

theorem commas_append (a b : Bytes) : commas (a ++ b) = commas a + commas b := by
  unfold commas; rw [List.filter_append, List.length_append]

theorem commas_none {f : Bytes} (h : 44#8 ∉ f) : commas f = 0 := by
  unfold commas
  rw [List.length_eq_zero_iff, List.filter_eq_nil_iff]
  intro b hb hc
  rw [(isComma_iff b).1 hc] at hb
  exact h hb

theorem commas_joined : ∀ fs : List Bytes, fs ≠ [] → (∀ f ∈ fs, 44#8 ∉ f) → commas (joined fs) + 1 = fs.length
  | [], h, _ => absurd rfl h
  | [f], _, h => by rw [joined, commas_none (h f (by simp))]; rfl
  | f :: g :: fs, _, h => by
    rw [joined, commas_append, commas_none (h f (by simp)), show (44#8 :: joined (g :: fs)) = [44#8] ++ joined (g :: fs) from rfl, commas_append,
      show commas [44#8] = 1 by decide]
    have := commas_joined (g :: fs) (by simp) (fun x hx => h x (by simp [hx]))
    rw [List.length_cons, ← this]; omega

/-- The first element of a list. -/
theorem strtok_joined {f : Bytes} (fs : List Bytes) (h : 44#8 ∉ f) (h0 : f ≠ []) : strtok isComma (joined (f :: fs)) = some (f, joined fs) := by
  have hf : ∀ b ∈ f, isComma b = false := by
    intro b hb
    cases hc : isComma b with
    | false => rfl
    | true => rw [(isComma_iff b).1 hc] at hb; exact absurd hb h
  cases fs with
  | nil => exact strtok_some.2 ⟨[], [], by simp [joined], by simp, h0, hf, by simp, rfl⟩
  | cons g fs => exact strtok_some.2 ⟨[], 44#8 :: joined (g :: fs), by simp [joined], by simp, h0, hf, by simp [isComma], rfl⟩

theorem strtok_empty (g : Bytes) (fs : List Bytes) : strtok isComma (joined ([] :: g :: fs)) = strtok isComma (joined (g :: fs)) := by
  unfold strtok
  rw [joined, List.nil_append, List.dropWhile_cons, if_pos (by decide)]

/-- All elements, or failure. -/
def allOf {α : Type} (item : Bytes → Option α) : List Bytes → Option (List α)
  | [] => some []
  | f :: fs => (item f).bind fun a => (allOf item fs).map fun l => a :: l

def filled (fs : List Bytes) : List Bytes := fs.filter (fun f => !f.isEmpty)

theorem pieceLoop_congr {α : Type} (item : Bytes → Option α) (n : Nat) {s t : Bytes} (acc : List α) (h : strtok isComma s = strtok isComma t) : pieceLoop item n s acc = pieceLoop item n t acc := by
  cases n with
  | zero => rfl
  | succ n => rw [pieceLoop, pieceLoop, h]

theorem pieceLoop_nil {α : Type} (item : Bytes → Option α) (n : Nat) (acc : List α) : pieceLoop item n [] acc = some acc := by
  cases n <;> rfl

theorem pieceLoop_joined {α : Type} (item : Bytes → Option α) : ∀ (fs : List Bytes) (n : Nat) (acc : List α), (∀ f ∈ fs, 44#8 ∉ f) → fs.length ≤ n →
    pieceLoop item n (joined fs) acc = (allOf item (filled fs)).map fun l => acc ++ l
  | [], n, acc, _, _ => by rw [joined, pieceLoop_nil]; simp [filled, allOf]
  | f :: fs, n, acc, h, hn => by
    obtain ⟨m, rfl⟩ : ∃ m, n = m + 1 := ⟨n - 1, by simp at hn; omega⟩
    by_cases h0 : f = []
    · subst h0
      have ih := pieceLoop_joined item fs (m + 1) acc (fun x hx => h x (by simp [hx])) (by simp at hn; omega)
      have hf : filled ([] :: fs) = filled fs := by simp [filled]
      rw [hf, ← ih]
      cases fs with
      | nil => rfl
      | cons g fs => exact pieceLoop_congr item _ _ (strtok_empty g fs)
    · rw [pieceLoop, strtok_joined fs (h f (by simp)) h0]
      have hf : filled (f :: fs) = f :: filled fs := by
        unfold filled
        rw [List.filter_cons, if_pos]
        cases f with
        | nil => exact absurd rfl h0
        | cons => rfl
      rw [hf]
      dsimp only [allOf]
      cases item f with
      | none => rfl
      | some a =>
        dsimp only
        rw [pieceLoop_joined item fs m (acc ++ [a]) (fun x hx => h x (by simp [hx])) (by simp at hn; omega)]
        rw [Option.bind_some, Option.map_map]
        congr 1
        funext l
        simp

theorem allOf_length {α : Type} (item : Bytes → Option α) : ∀ (fs : List Bytes) (l : List α), allOf item fs = some l → l.length = fs.length
  | [], l, h => by cases h; rfl
  | f :: fs, l, h => by
    unfold allOf at h
    cases hi : item f with
    | none => rw [hi] at h; cases h
    | some a =>
      rw [hi] at h
      cases hr : allOf item fs with
      | none => rw [hr] at h; cases h
      | some r => rw [hr] at h; cases h; simp [allOf_length item fs r hr]

theorem allOf_each {α : Type} (item : Bytes → Option α) : ∀ (fs : List Bytes) (l : List α), allOf item fs = some l ↔ Each (fun f a => item f = some a) fs l
  | [], l => by
    constructor
    · intro h; cases h; exact ⟨rfl, by simp⟩
    · rintro ⟨h, _⟩
      rw [List.length_nil, List.length_eq_zero_iff] at h
      rw [h]; rfl
  | f :: fs, l => by
    constructor
    · intro h
      unfold allOf at h
      cases hi : item f with
      | none => rw [hi] at h; cases h
      | some a =>
        rw [hi] at h
        cases hr : allOf item fs with
        | none => rw [hr] at h; cases h
        | some r =>
          rw [hr] at h; cases h
          obtain ⟨k1, k2⟩ := (allOf_each item fs r).1 hr
          refine ⟨by simp [k1], ?_⟩
          intro i g b hg hb
          cases i with
          | zero => cases hg; cases hb; exact hi
          | succ i => exact k2 i g b hg hb
    · rintro ⟨h1, h2⟩
      cases l with
      | nil => simp at h1
      | cons a l =>
        have ha := h2 0 f a rfl rfl
        have hr := (allOf_each item fs l).2 ⟨by simpa using h1, fun i g b hg hb => h2 (i + 1) g b hg hb⟩
        unfold allOf
        rw [ha, hr]; rfl

theorem filled_length {fs : List Bytes} (h : (filled fs).length = fs.length) : filled fs = fs := by
  unfold filled at *
  exact List.filter_eq_self.2 (List.length_filter_eq_length_iff.1 h)

/-- What a list comes to. -/
theorem parseList_iff {α : Type} (item : Bytes → Option α) (h0 : item [] = none) (s : Bytes) (l : List α) :
    parseList item s = some l ↔ ∃ fs, Listed s fs ∧ Each (fun f a => item f = some a) fs l := by
  have key : ∀ fs, Listed s fs → (parseList item s = some l ↔ allOf item fs = some l) := by
    rintro fs ⟨rfl, hne, hc⟩
    have hn := commas_joined fs hne hc
    unfold parseList
    rw [hn, pieceLoop_joined item fs _ [] hc (Nat.le_refl _)]
    by_cases hf : filled fs = fs
    · rw [hf]
      cases ha : allOf item fs with
      | none => rfl
      | some r =>
        dsimp only [Option.map_some, List.nil_append]
        rw [if_neg (by rw [allOf_length item fs r ha]; simp)]
    · have hnone : allOf item fs = some l → False := by
        intro h
        obtain ⟨k1, k2⟩ := (allOf_each item fs l).1 h
        apply hf
        refine filled_length ?_
        unfold filled
        rw [List.length_filter_eq_length_iff]
        intro f hm
        cases f with
        | cons => rfl
        | nil =>
          obtain ⟨i, hi, e⟩ := List.getElem_of_mem hm
          have : item [] = some l[i] := k2 i [] l[i] (by rw [← e]; simp) (by simp)
          rw [h0] at this; cases this
      constructor
      · intro h
        cases ha : allOf item (filled fs) with
        | none => rw [ha] at h; cases h
        | some r =>
          rw [ha] at h
          dsimp only [Option.map_some, List.nil_append] at h
          split at h
          · cases h
          · rename_i hl
            have := allOf_length item _ r ha
            exact absurd (filled_length (by omega)) hf
      · intro h; exact absurd h hnone
  obtain ⟨fs, hfs⟩ := exists_listed s
  constructor
  · intro h
    exact ⟨fs, hfs, (allOf_each item fs l).1 ((key fs hfs).1 h)⟩
  · rintro ⟨gs, hg, he⟩
    exact (key gs hg).2 ((allOf_each item gs l).2 he)

end Owamp.Options
