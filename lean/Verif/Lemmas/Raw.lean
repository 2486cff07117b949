import Verif.Lemmas.Print
import Verif.Lemmas.DataFile
import Verif.Spec.Raw
/-! # Lemmas for raw output -/
namespace Owamp.Raw
open Owamp.Codec Owamp.File Owamp.Print Owamp.Stats Owamp.Spec.Print Owamp.Spec.Ports Owamp.Spec.Raw Owamp.Spec.DataFile

/-! ## Numbers -/

theorem digits_number (n : Nat) : IsNumber (digits n) n := by
  obtain ⟨h1, h2, h3⟩ := Owamp.Ports.decimal_ok n
  rw [digits_decimal]
  exact ⟨h2, h1, h3⟩

theorem digits_length (k : Nat) : ∀ n, 0 < k → n < 10 ^ k → (digits n).length ≤ k := by
  induction k with
  | zero => intro n h; omega
  | succ k ih =>
    intro n _ hn
    rw [digits]
    split
    · simp
    · rename_i h
      have hk : 0 < k := by
        apply Nat.pos_of_ne_zero
        intro e
        rw [e] at hn
        simp at hn
        omega
      have := ih (n / 10) hk (by rw [Nat.pow_succ] at hn; omega)
      simp only [List.length_append, List.length_cons, List.length_nil]
      omega

theorem padded_number (w n : Nat) : IsNumber (padded w n) n := by
  obtain ⟨h1, _, h3⟩ := digits_number n
  refine ⟨?_, padded_digit w n, ?_⟩
  · unfold padded; simp [h1]
  · unfold padded; rw [value_zeros, h3]

theorem padded_time (t : U64) : IsTime (padded 20 t.toNat) t := by
  refine ⟨?_, padded_number 20 _⟩
  have := digits_length 20 t.toNat (by omega) (Nat.lt_of_lt_of_le t.isLt (by decide))
  unfold padded
  rw [List.length_append, List.length_replicate]
  omega

theorem flag_flag (b : Bool) : IsFlag (flag b) b := digits_number _

theorem word_of_number (s : Bytes) (n : Nat) (h : IsNumber s n) : Word s :=
  ⟨fun m => by have := h.2.1 _ m; unfold Digit at this; revert this; decide, fun m => by have := h.2.1 _ m; unfold Digit at this; revert this; decide⟩

theorem fields_words (E : Nat → Bytes) (hE : ∀ e, Word (E e)) (r : DataRec) : ∀ f ∈ fields E r, Word f := by
  intro f hf
  simp only [fields, List.mem_cons, List.not_mem_nil, or_false] at hf
  rcases hf with h | h | h | h | h | h | h | h <;> subst h
  · exact word_of_number _ _ (digits_number _)
  · exact word_of_number _ _ (padded_number _ _)
  · exact word_of_number _ _ (flag_flag _)
  · exact hE _
  · exact word_of_number _ _ (padded_number _ _)
  · exact word_of_number _ _ (flag_flag _)
  · exact hE _
  · exact word_of_number _ _ (digits_number _)

theorem fields_tell (E : Nat → Bytes) (r : DataRec) : Tells E (fields E r) r :=
  ⟨_, _, _, _, _, _, rfl, digits_number _, padded_time _, flag_flag _, padded_time _, flag_flag _, digits_number _⟩

/-! ## Lines -/

/-- A line without its newline. -/
def inner : List Bytes → Bytes
  | [] => []
  | [f] => f
  | f :: fs => f ++ 32#8 :: inner fs

theorem row_inner (l : List Bytes) : row l = inner l ++ [10#8] := by
  induction l with
  | nil => rfl
  | cons f l ih =>
    cases l with
    | nil => rfl
    | cons g l => rw [row, inner, ih] <;> simp

theorem split_inner (l : List Bytes) (hl : l ≠ []) (hp : ∀ f ∈ l, Word f) : split 32#8 (inner l) = l := by
  induction l with
  | nil => exact absurd rfl hl
  | cons f l ih =>
    cases l with
    | nil => exact split_whole _ _ (hp f (by simp)).1
    | cons g l =>
      rw [inner, split_piece _ _ _ (hp f (by simp)).1, ih (by simp) (fun x hx => hp x (by simp [hx]))]
      simp

theorem inner_word (l : List Bytes) (hp : ∀ f ∈ l, Word f) : 10#8 ∉ inner l := by
  induction l with
  | nil => simp [inner]
  | cons f l ih =>
    have h1 := (hp f (by simp)).2
    have h2 := ih (fun x hx => hp x (by simp [hx]))
    cases l with
    | nil => exact h1
    | cons g l =>
      rw [inner]
      · simp only [List.mem_append, List.mem_cons, not_or]
        exact ⟨h1, by decide, h2⟩
      · simp

theorem rows_flatMap (L : List (List Bytes)) (hl : ∀ l ∈ L, l ≠ [] ∧ ∀ f ∈ l, Word f) : rows (L.flatMap row) = L := by
  unfold rows
  have : split 10#8 (L.flatMap row) = L.map inner ++ [[]] := by
    induction L with
    | nil => rfl
    | cons l L ih =>
      obtain ⟨_, h2⟩ := hl l (by simp)
      rw [List.flatMap_cons, row_inner, List.append_assoc, List.singleton_append, split_piece _ _ _ (inner_word l h2), ih (fun x hx => hl x (by simp [hx]))]
      rfl
  rw [this, List.dropLast_concat, List.map_map]
  calc L.map (split 32#8 ∘ inner) = L.map id := List.map_congr_left (fun l h => split_inner l (hl l h).1 (hl l h).2)
    _ = L := by simp

theorem match_map {α β : Type} (R : α → β → Prop) (g : β → α) (l : List β) (h : ∀ b ∈ l, R (g b) b) : Match R (l.map g) l := by
  induction l with
  | nil => exact .nil
  | cons b l ih => exact .cons _ _ _ _ (h b (by simp)) (ih fun x hx => h x (by simp [hx]))

/-! ## Reading with a callback that always goes on -/

theorem parseLoop_all {σ ρ : Type} (len : Nat) (dec : Bytes → Option ρ) (g : σ → ρ → σ) (f : Bytes) (n : Nat) : ∀ pos,
    ∃ x l, (∀ seen, parseLoop len dec keep f pos n seen = (x, seen ++ l)) ∧
      (∀ s, parseLoop len dec (fun s r => (0, g s r)) f pos n s = (x, l.foldl g s)) ∧ x ≠ .overflow ∧ (x = .ok → l.length = n) := by
  induction n with
  | zero => intro pos; exact ⟨.ok, [], fun seen => by simp [parseLoop], fun s => by simp [parseLoop], by decide, fun _ => rfl⟩
  | succ n ih =>
    intro pos
    cases h1 : rd f pos len with
    | none => exact ⟨.fatal, [], fun seen => by simp [parseLoop, h1], fun s => by simp [parseLoop, h1], by decide, fun e => by cases e⟩
    | some b =>
      cases h2 : dec b with
      | none => exact ⟨.fatal, [], fun seen => by simp [parseLoop, h1, h2], fun s => by simp [parseLoop, h1, h2], by decide, fun e => by cases e⟩
      | some r =>
        obtain ⟨x, l, e1, e2, e3, e4⟩ := ih (pos + len)
        refine ⟨x, r :: l, fun seen => ?_, fun s => ?_, e3, fun e => by rw [List.length_cons, e4 e]⟩
        · rw [parseLoop, h1]
          dsimp only
          rw [h2]
          dsimp only
          rw [if_pos (show (keep seen r).1 = 0 from rfl), show (keep seen r).2 = seen ++ [r] from rfl, e1]
          simp
        · rw [parseLoop, h1]
          dsimp only
          rw [h2]
          dsimp only
          rw [if_pos rfl, e2]
          rfl

theorem parseRecords_all {σ : Type} (g : σ → DataRec → σ) (f : Bytes) (pos n version : Nat) (s : σ) :
    parseRecords (fun s r => (0, g s r)) f pos n version s =
      ((parseRecords keep f pos n version []).1, (parseRecords keep f pos n version []).2.foldl g s) := by
  unfold parseRecords
  split
  · obtain ⟨x, l, e1, e2, _⟩ := parseLoop_all 24 (decodeDataRec version) g f n pos
    rw [e1, e2]; rfl
  · split
    · obtain ⟨x, l, e1, e2, _⟩ := parseLoop_all 25 (decodeDataRec version) g f n pos
      rw [e1, e2]; rfl
    · split
      · rfl
      · rfl

theorem parseTWRecords_all {σ : Type} (g : σ → TWDataRec → σ) (f : Bytes) (pos n version : Nat) (s : σ) :
    parseTWRecords (fun s r => (0, g s r)) f pos n version s =
      ((parseTWRecords keep f pos n version []).1, (parseTWRecords keep f pos n version []).2.foldl g s) := by
  unfold parseTWRecords
  split
  · obtain ⟨x, l, e1, e2, _⟩ := parseLoop_all 50 (decodeTWDataRec version) g f n pos
    rw [e1, e2]; rfl
  · rfl

theorem parseRecords_count (f : Bytes) (pos n version : Nat) (h : (parseRecords keep f pos n version []).1 = .ok) :
    (parseRecords keep f pos n version []).2.length = n := by
  unfold parseRecords at h ⊢
  split at h
  · rename_i hv
    obtain ⟨x, l, e1, _, _, e4⟩ := parseLoop_all 24 (decodeDataRec version) (fun (s : Unit) _ => s) f n pos
    rw [if_pos hv]
    rw [e1] at h ⊢
    simpa using e4 h
  · rename_i hv
    rw [if_neg hv]
    split at h
    · rename_i hv
      obtain ⟨x, l, e1, _, _, e4⟩ := parseLoop_all 25 (decodeDataRec version) (fun (s : Unit) _ => s) f n pos
      rw [if_pos hv]
      rw [e1] at h ⊢
      simpa using e4 h
    · rename_i hv
      rw [if_neg hv]
      split at h
      · rename_i hv
        rw [if_pos hv]
        dsimp only at h ⊢
        split at h
        · cases h
        · split at h
          · rename_i h0; exact h0.symm
          · cases h
      · cases h

theorem parseTWRecords_count (f : Bytes) (pos n version : Nat) (h : (parseTWRecords keep f pos n version []).1 = .ok) :
    (parseTWRecords keep f pos n version []).2.length = n := by
  unfold parseTWRecords at h ⊢
  split at h
  · rename_i hv
    obtain ⟨x, l, e1, _, _, e4⟩ := parseLoop_all 50 (decodeTWDataRec version) (fun (s : Unit) _ => s) f n pos
    rw [if_pos hv]
    rw [e1] at h ⊢
    simpa using e4 h
  · cases h

theorem foldl_rows {ρ : Type} (g : ρ → List Bytes) (l : List ρ) : ∀ out, l.foldl (fun out r => out ++ row (g r)) out = out ++ (l.map g).flatMap row := by
  induction l with
  | nil => intro out; simp
  | cons r l ih => intro out; rw [List.foldl_cons, ih]; simp

theorem oneWay_eq (E : Nat → Bytes) (f : Bytes) : (oneWay E f).1 = ((recordsSeen f).map (fields E)).flatMap row := by
  have key : ∀ pos n v, (parseRecords (printraw E) f pos n v []).2 = ((parseRecords keep f pos n v []).2.map (fields E)).flatMap row := by
    intro pos n v
    have : printraw E = fun s r => (0, s ++ row (fields E r)) := rfl
    rw [this, parseRecords_all (fun s r => s ++ row (fields E r)), foldl_rows]
    rfl
  unfold oneWay recordsSeen
  cases hh : readHeader f with
  | bad b =>
    cases b with
    | false => rfl
    | true =>
      dsimp only
      cases hi : readInitial f with
      | none => rfl
      | some p =>
        dsimp only
        rw [key]
        have : (parseRecords keep f 0 0 p.version []).2 = [] := by
          unfold parseRecords
          split
          · rfl
          · split
            · rfl
            · split <;> rfl
        rw [this]
  | ok h pos =>
    dsimp only
    split
    · rename_i h0
      have : (parseRecords keep f pos h.ndata.toNat h.version []).2 = [] := by
        rw [h0.1]
        unfold parseRecords
        split
        · rfl
        · split
          · rfl
          · split <;> rfl
      rw [this]
      rfl
    · exact key _ _ _

theorem twoWay_eq (E : Nat → Bytes) (f : Bytes) : (twoWay E f).1 = ((twoWayRecordsSeen f).map fun r => fields E r.sent ++ fields E r.reflected).flatMap row := by
  have key : ∀ pos n v, (parseTWRecords (printrawTW E) f pos n v []).2 =
      ((parseTWRecords keep f pos n v []).2.map fun r => fields E r.sent ++ fields E r.reflected).flatMap row := by
    intro pos n v
    have : printrawTW E = fun s r => (0, s ++ row (fields E r.sent ++ fields E r.reflected)) := rfl
    rw [this, parseTWRecords_all (fun s r => s ++ row (fields E r.sent ++ fields E r.reflected)), foldl_rows]
    rfl
  have none : ∀ pos v, (parseTWRecords keep f pos 0 v []).2 = [] := by
    intro pos v
    unfold parseTWRecords
    split <;> rfl
  unfold twoWay twoWayRecordsSeen
  cases hh : readHeader f with
  | bad b =>
    cases b with
    | false => rfl
    | true =>
      dsimp only
      cases hi : readInitial f with
      | none => rfl
      | some p => dsimp only; rw [key, none]
  | ok h pos =>
    dsimp only
    split
    · rename_i h0
      rw [h0.1]
      have := none pos h.version
      rw [show (0 : U32).toNat = 0 from rfl, this]
      rfl
    · exact key _ _ _

end Owamp.Raw
