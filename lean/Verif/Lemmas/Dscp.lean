import Verif.Model.Dscp
import Verif.Spec.Dscp
import Verif.Lemmas.ClassFile
import Mathlib.Data.List.Induction
/-!
# Lemmas about the option `-D`
-/
namespace Owamp.Dscp
open Owamp.Policy Owamp.Ports Owamp.Spec.Dscp Owamp.Spec.Classes

theorem byte_all {P : Byte → Prop} (h : ∀ n : Fin 256, P (BitVec.ofNat 8 n.val)) (b : Byte) : P b := by
  have := h ⟨b.toNat, b.isLt⟩
  rwa [show BitVec.ofNat 8 b.toNat = b by simp] at this

/-- What `strtoul` takes as a digit is one. -/
def digitOk (base : Nat) (b : Byte) : Bool :=
  if digitIn base b then
    decide ((digit b).getD 0 < base ∧ (['0', '1', '2', '3', '4', '5', '6', '7', '8', '9', 'a', 'b', 'c', 'd', 'e', 'f'].map Char.toNat)[(digit b).getD 0]? = some (caseless b))
  else (List.range base).all fun d => decide (¬ ((['0', '1', '2', '3', '4', '5', '6', '7', '8', '9', 'a', 'b', 'c', 'd', 'e', 'f'].map Char.toNat)[d]? = some (caseless b)))

theorem digitOk8 : ∀ b, digitOk 8 b = true := byte_all (by decide +kernel)
theorem digitOk10 : ∀ b, digitOk 10 b = true := byte_all (by decide +kernel)
theorem digitOk16 : ∀ b, digitOk 16 b = true := byte_all (by decide +kernel)

theorem digitOk_base {base : Nat} (hb : base = 8 ∨ base = 10 ∨ base = 16) : ∀ b, digitOk base b = true := by
  rcases hb with rfl | rfl | rfl
  · exact digitOk8
  · exact digitOk10
  · exact digitOk16

theorem digit_of {base : Nat} (hb : base = 8 ∨ base = 10 ∨ base = 16) {b : Byte} (h : digitIn base b = true) : Digit base b ((digit b).getD 0) := by
  have := digitOk_base hb b
  unfold digitOk at this
  rw [if_pos h] at this
  unfold Digit; exact of_decide_eq_true this

theorem nodup_codes : ∀ i j : Fin 16, (['0', '1', '2', '3', '4', '5', '6', '7', '8', '9', 'a', 'b', 'c', 'd', 'e', 'f'].map Char.toNat)[i.val]? = (['0', '1', '2', '3', '4', '5', '6', '7', '8', '9', 'a', 'b', 'c', 'd', 'e', 'f'].map Char.toNat)[j.val]? → i = j := by decide +kernel

theorem of_digit {base : Nat} (hb : base = 8 ∨ base = 10 ∨ base = 16) {b : Byte} {d : Nat} (h : Digit base b d) : digitIn base b = true ∧ (digit b).getD 0 = d := by
  have key := digitOk_base hb b
  have hlt : base ≤ 16 := by omega
  have : digitIn base b = true := by
    cases hd : digitIn base b with
    | true => rfl
    | false =>
      unfold digitOk at key
      rw [hd, if_neg (by decide), List.all_eq_true] at key
      exact absurd h.2 (of_decide_eq_true (key d (List.mem_range.2 h.1)))
  refine ⟨this, ?_⟩
  have h2 := digit_of hb this
  have := nodup_codes ⟨(digit b).getD 0, by have := h2.1; omega⟩ ⟨d, by have := h.1; omega⟩ (h2.2.trans h.2.symm)
  exact congrArg Fin.val this

theorem baseValue_snoc (base : Nat) (ds : Bytes) (b : Byte) : baseValue base (ds ++ [b]) = base * baseValue base ds + (digit b).getD 0 := by
  unfold baseValue; rw [List.foldl_append]; rfl

/-- Digits write the number `strtoul` computes. -/
theorem writes_of {base : Nat} (hb : base = 8 ∨ base = 10 ∨ base = 16) (ds : Bytes) : ds ≠ [] → (∀ b ∈ ds, digitIn base b = true) → Writes base ds (baseValue base ds) := by
  induction ds using List.reverseRecOn with
  | nil => intro h; exact absurd rfl h
  | append_singleton ds b ih =>
    intro _ h
    have hd := digit_of hb (h b (by simp))
    by_cases h0 : ds = []
    · subst h0
      have : baseValue base ([] ++ [b]) = (digit b).getD 0 := by rw [baseValue_snoc]; simp [baseValue]
      rw [this]; exact .one _ _ hd
    · rw [baseValue_snoc]
      exact .more _ _ _ _ (ih h0 (fun x hx => h x (by simp [hx]))) hd

theorem of_writes {base : Nat} (hb : base = 8 ∨ base = 10 ∨ base = 16) {ds : Bytes} {n : Nat} (h : Writes base ds n) :
    ds ≠ [] ∧ (∀ b ∈ ds, digitIn base b = true) ∧ baseValue base ds = n := by
  induction h with
  | one b d hd =>
    obtain ⟨h1, h2⟩ := of_digit hb hd
    refine ⟨by simp, by simp [h1], ?_⟩
    rw [show [b] = [] ++ [b] from rfl, baseValue_snoc, h2]; simp [baseValue]
  | more ds n b d _ hd ih =>
    obtain ⟨h1, h2⟩ := of_digit hb hd
    refine ⟨by simp, ?_, ?_⟩
    · intro x hx
      rcases List.mem_append.1 hx with hx | hx
      · exact ih.2.1 x hx
      · rw [List.mem_singleton] at hx; rw [hx]; exact h1
    · rw [baseValue_snoc, h2, ih.2.2]

theorem takeWhile_every {α : Type} {p : α → Bool} : ∀ {l : List α}, (∀ x ∈ l, p x = true) → l.takeWhile p = l ∧ l.dropWhile p = []
  | [], _ => ⟨rfl, rfl⟩
  | a :: l, h => by
    have := takeWhile_every (fun x hx => h x (List.mem_cons_of_mem _ hx))
    rw [List.takeWhile_cons, List.dropWhile_cons, if_pos (h a List.mem_cons_self), if_pos (h a List.mem_cons_self), this.1, this.2]
    exact ⟨rfl, rfl⟩

theorem dropWhile_nil {α : Type} {p : α → Bool} : ∀ {l : List α}, l.dropWhile p = [] → ∀ x ∈ l, p x = true
  | [], _, _, h => by cases h
  | a :: l, h, x, hx => by
    rw [List.dropWhile_cons] at h
    split at h
    · rename_i ha
      rcases List.mem_cons.1 hx with rfl | hx
      · exact ha
      · exact dropWhile_nil h x hx
    · cases h

/-- The digits of a number in the notation of C. -/
theorem baseOf_number {t : Bytes} {n : Nat} (h : Number t n) :
    (baseOf t).2 ≠ [] ∧ (∀ b ∈ (baseOf t).2, digitIn (baseOf t).1 b = true) ∧ baseValue (baseOf t).1 (baseOf t).2 = n := by
  cases h with
  | dec _ _ hw hh =>
    have hb : baseOf t = (10, t) := by
      unfold baseOf
      split
      · rename_i a x h r
        rw [if_neg (fun e => hh (by rw [e]; rfl))]
      · rename_i a r _
        rw [if_neg (fun e => hh (by rw [e]; rfl))]
      · rfl
    rw [hb]; exact of_writes (by simp) hw
  | oct _ _ hw hh =>
    have w := of_writes (by simp) hw
    have hb : baseOf t = (8, t) := by
      unfold baseOf
      split
      · rename_i a x h r
        rw [if_pos (Option.some.inj hh)]
        rw [if_neg]
        rintro ⟨hx, _⟩
        have := w.2.1 x (by simp)
        rcases hx with rfl | rfl <;> exact absurd this (by decide)
      · rename_i a r _
        rw [if_pos (Option.some.inj hh)]
      · cases hh
    rw [hb]; exact w
  | hex x ds _ hw hx =>
    have w := of_writes (by simp) hw
    cases ds with
    | nil => exact absurd rfl w.1
    | cons h r =>
      have hb : baseOf (48#8 :: x :: h :: r) = (16, h :: r) := by
        unfold baseOf
        dsimp only
        rw [if_pos rfl, if_pos ⟨by simpa using hx, w.2.1 h (by simp)⟩]
      rw [hb]; exact w

/-- Conversely. -/
theorem number_baseOf {t : Bytes} (h0 : (baseOf t).2 ≠ []) (h : ∀ b ∈ (baseOf t).2, digitIn (baseOf t).1 b = true) :
    Number t (baseValue (baseOf t).1 (baseOf t).2) := by
  have no : ∀ (ds : Bytes), ds ≠ [] → (∀ b ∈ ds, digitIn 10 b = true) → ds.head? ≠ some 48#8 → Number ds (baseValue 10 ds) :=
    fun ds a b c => .dec _ _ (writes_of (by simp) ds a b) c
  have oc : ∀ (ds : Bytes), ds ≠ [] → (∀ b ∈ ds, digitIn 8 b = true) → ds.head? = some 48#8 → Number ds (baseValue 8 ds) :=
    fun ds a b c => .oct _ _ (writes_of (by simp) ds a b) c
  match t, h0, h with
  | [], h0, _ => exact absurd rfl h0
  | [a], h0, h =>
    unfold baseOf at h0 h ⊢
    dsimp only at h0 h ⊢
    by_cases ha : a = 48#8
    · rw [if_pos ha] at h0 h ⊢; exact oc _ h0 h (by rw [ha]; rfl)
    · rw [if_neg ha] at h0 h ⊢; exact no _ h0 h (fun e => ha (Option.some.inj e))
  | [a, x], h0, h =>
    unfold baseOf at h0 h ⊢
    dsimp only at h0 h ⊢
    by_cases ha : a = 48#8
    · rw [if_pos ha] at h0 h ⊢; exact oc _ h0 h (by rw [ha]; rfl)
    · rw [if_neg ha] at h0 h ⊢; exact no _ h0 h (fun e => ha (Option.some.inj e))
  | a :: x :: y :: r, h0, h =>
    unfold baseOf at h0 h ⊢
    dsimp only at h0 h ⊢
    by_cases ha : a = 48#8
    · rw [if_pos ha] at h0 h ⊢
      by_cases hx : (x = 120#8 ∨ x = 88#8) ∧ digitIn 16 y
      · rw [if_pos hx] at h0 h ⊢
        subst ha
        exact .hex _ _ _ (writes_of (by simp) _ h0 h) (by simpa using hx.1)
      · rw [if_neg hx] at h0 h ⊢; exact oc _ h0 h (by rw [ha]; rfl)
    · rw [if_neg ha] at h0 h ⊢; exact no _ h0 h (fun e => ha (Option.some.inj e))

/-- A number begins with a decimal digit. -/
theorem number_head {t : Bytes} {n : Nat} (h : Number t n) : ∃ a r, t = a :: r ∧ digitIn 10 a = true := by
  cases h with
  | dec _ _ hw hh =>
    obtain ⟨w1, w2, _⟩ := of_writes (by simp) hw
    cases t with
    | nil => exact absurd rfl w1
    | cons a r => exact ⟨a, r, rfl, w2 a (by simp)⟩
  | oct _ _ hw hh =>
    cases t with
    | nil => cases hh
    | cons a r => cases hh; exact ⟨_, r, rfl, by decide⟩
  | hex x ds _ hw hx => exact ⟨_, _, rfl, by decide⟩

def plain10 (b : Byte) : Bool := !(digitIn 10 b) || (!(isSpace b) && decide (b ≠ 45#8 ∧ b ≠ 43#8 ∧ upper b ≠ 67#8 ∧ b ≠ 65#8 ∧ lower b ≠ 110#8 ∧ lower b ≠ 100#8 ∧ lower b ≠ 101#8))

theorem plain10_all : ∀ b, plain10 b = true := byte_all (by decide +kernel)

theorem digit_plain {b : Byte} (h : digitIn 10 b = true) : isSpace b = false ∧ b ≠ 45#8 ∧ b ≠ 43#8 ∧ upper b ≠ 67#8 ∧ b ≠ 65#8 ∧ lower b ≠ 110#8 ∧ lower b ≠ 100#8 ∧ lower b ≠ 101#8 := by
  have := plain10_all b
  unfold plain10 at this
  rw [h] at this
  simpa using this

theorem drop_blanks {ws t : Bytes} (h : ∀ b ∈ ws, Blank b) (ht : ∀ b, t.head? = some b → isSpace b = false) : (ws ++ t).dropWhile isSpace = t := by
  induction ws with
  | nil =>
    cases t with
    | nil => rfl
    | cons a t => rw [List.nil_append, List.dropWhile_cons, if_neg (by rw [ht a rfl]; decide)]
  | cons a ws ih =>
    rw [List.cons_append, List.dropWhile_cons, if_pos ((isSpace_iff a).2 (h a (by simp)))]
    exact ih (fun b hb => h b (List.mem_cons_of_mem _ hb))

/-- `strtoul` of a number. -/
theorem strtoul_number {ws sg t : Bytes} {n : Nat} (hws : ∀ b ∈ ws, Blank b) (hs : sg = [] ∨ sg = [43#8] ∨ sg = [45#8]) (h : Number t n) :
    strtoul (ws ++ (sg ++ t)) = (if ulongMax < n then ulongMax else if sg = [45#8] then (ulongMax + 1 - n) % (ulongMax + 1) else n, []) ∧
    (ws ++ (sg ++ t)).dropWhile isSpace = sg ++ t := by
  obtain ⟨a, r, rfl, ha⟩ := number_head h
  have p := digit_plain ha
  have hd : (ws ++ (sg ++ (a :: r))).dropWhile isSpace = sg ++ (a :: r) := by
    refine drop_blanks hws ?_
    intro b hb
    rcases hs with rfl | rfl | rfl
    · cases hb; exact p.1
    · cases hb; decide
    · cases hb; decide
  refine ⟨?_, hd⟩
  have hsg : sign (sg ++ (a :: r)) = (decide (sg = [45#8]), a :: r) := by
    rcases hs with rfl | rfl | rfl
    · rw [List.nil_append, sign, if_neg p.2.1, if_neg p.2.2.1]; rfl
    · rfl
    · rfl
  obtain ⟨k1, k2, k3⟩ := baseOf_number h
  unfold strtoul
  rw [hd, hsg]
  dsimp only
  obtain ⟨base, ds, hb⟩ : ∃ x y, baseOf (a :: r) = (x, y) := ⟨_, _, rfl⟩
  rw [hb] at k1 k2 k3 ⊢
  dsimp only at k1 k2 k3 ⊢
  rw [(takeWhile_every k2).1, (takeWhile_every k2).2, if_neg k1, k3]
  rcases hs with rfl | rfl | rfl <;> rfl

/-- If `strtoul` reads all the text, it is a number, or empty. -/
theorem number_strtoul {s : Bytes} (h : (strtoul s).2 = []) :
    s = [] ∨ ∃ ws sg t n, s = ws ++ (sg ++ t) ∧ (∀ b ∈ ws, Blank b) ∧ (sg = [] ∨ sg = [43#8] ∨ sg = [45#8]) ∧ Number t n := by
  unfold strtoul at h
  obtain ⟨m, t, hs⟩ : ∃ x y, sign (s.dropWhile isSpace) = (x, y) := ⟨_, _, rfl⟩
  rw [hs] at h
  dsimp only at h
  obtain ⟨base, ds, hb⟩ : ∃ x y, baseOf t = (x, y) := ⟨_, _, rfl⟩
  rw [hb] at h
  dsimp only at h
  split at h
  · exact Or.inl h
  · rename_i h0
    right
    have all := dropWhile_nil h
    have hne : ds ≠ [] := by
      intro e; rw [e] at h0; exact h0 rfl
    have num := number_baseOf (t := t) (by rw [hb]; exact hne) (by rw [hb]; exact all)
    have hspl : s = s.takeWhile isSpace ++ s.dropWhile isSpace := (List.takeWhile_append_dropWhile).symm
    have hblank : ∀ b ∈ s.takeWhile isSpace, Blank b := fun b hb => (isSpace_iff b).1 (takeWhile_all _ _ b hb)
    cases hd : s.dropWhile isSpace with
    | nil =>
      rw [hd] at hs; cases hs
      obtain ⟨a, r, e, _⟩ := number_head num
      cases e
    | cons a r =>
      rw [hd] at hs hspl
      rw [sign] at hs
      split at hs
      · rename_i ha
        cases hs
        exact ⟨_, [45#8], _, _, hspl.trans (by rw [ha]; simp), hblank, Or.inr (Or.inr rfl), num⟩
      · split at hs
        · rename_i ha
          cases hs
          exact ⟨_, [43#8], _, _, hspl.trans (by rw [ha]; simp), hblank, Or.inr (Or.inl rfl), num⟩
        · cases hs
          exact ⟨_, [], _, _, hspl.trans (by simp), hblank, Or.inl rfl, num⟩

end Owamp.Dscp
