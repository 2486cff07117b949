import Verif.Lemmas.Dscp
/-!
# C78: the traffic class a user asks for is that of the packets
-/
namespace Owamp.Props
open Owamp.Policy Owamp.Dscp Owamp.Spec.Dscp Owamp.Spec.Classes

/-! ### Helpers -/

/-- All ways to write a word, with regard to case. -/
def spellings : List Char → List Bytes
  | [] => [[]]
  | c :: cs => (spellings cs).flatMap fun w => [BitVec.ofNat 8 c.toNat :: w, Dscp.upper (BitVec.ofNat 8 c.toNat) :: w]

def caseOk (a b : Byte) : Bool := !decide (caseless a = caseless b) || !decide (caseless b = b.toNat) || decide (a = b ∨ a = Dscp.upper b)

theorem caseOk_all : ∀ a b, caseOk a b = true := fun a b => byte_all (P := fun a => ∀ b, caseOk a b = true)
  (by
    intro n b
    have : ∀ n m : Fin 256, caseOk (BitVec.ofNat 8 n.val) (BitVec.ofNat 8 m.val) = true := by decide +kernel
    exact byte_all (P := fun b => caseOk (BitVec.ofNat 8 n.val) b = true) (this n) b) a b

theorem mem_spellings : ∀ (cs : List Char) (w : Bytes), (∀ c ∈ cs, caseless (BitVec.ofNat 8 c.toNat) = (BitVec.ofNat 8 c.toNat).toNat) →
    SameWord w (text cs) → w ∈ spellings cs
  | [], w, _, h => by
    unfold SameWord text at h
    cases w with
    | nil => simp [spellings]
    | cons a w => cases h
  | c :: cs, w, hc, h => by
    unfold SameWord text at h
    cases w with
    | nil => cases h
    | cons a w =>
      simp only [List.map_cons, List.cons.injEq] at h
      have ih := mem_spellings cs w (fun x hx => hc x (by simp [hx])) (by unfold SameWord text; exact h.2)
      have := caseOk_all a (BitVec.ofNat 8 c.toNat)
      unfold caseOk at this
      rw [h.1, hc c (by simp)] at this
      rw [spellings, List.mem_flatMap]
      refine ⟨w, ih, ?_⟩
      simp only [decide_true, Bool.not_true, Bool.false_or, decide_eq_true_eq] at this
      rcases this with rfl | rfl <;> simp

/-- The whole table, every name in every spelling but those of `AF` with a small first letter. -/
theorem table_ok : ∀ x ∈ names, (∀ c ∈ x.1, caseless (BitVec.ofNat 8 c.toNat) = (BitVec.ofNat 8 c.toNat).toNat) ∧ x.2 < 64 ∧ ∀ w ∈ spellings x.1, w.head? ≠ some 97#8 →
    named w = some (x.2 * 4, []) ∧ ∃ a, w.head? = some a ∧ isSpace a = false ∧ digitIn 10 a = false ∧ a ≠ 45#8 ∧ a ≠ 43#8 := by
  have h : (names.all fun x => (x.1.all fun c => decide (caseless (BitVec.ofNat 8 c.toNat) = (BitVec.ofNat 8 c.toNat).toNat)) && decide (x.2 < 64) && ((spellings x.1).all fun w =>
      decide (w.head? = some 97#8) || (decide (named w = some (x.2 * 4, [])) && (match w.head? with
        | some a => decide (isSpace a = false ∧ digitIn 10 a = false ∧ a ≠ 45#8 ∧ a ≠ 43#8)
        | none => false)))) = true := by decide +kernel
  intro x hx
  have h := List.all_eq_true.1 h x hx
  rw [Bool.and_eq_true, Bool.and_eq_true] at h
  refine ⟨fun c hc => of_decide_eq_true (List.all_eq_true.1 h.1.1 c hc), of_decide_eq_true h.1.2, ?_⟩
  intro w hw h97
  have := List.all_eq_true.1 h.2 w hw
  rw [Bool.or_eq_true, Bool.and_eq_true] at this
  rcases this with this | this
  · exact absurd (of_decide_eq_true this) h97
  · refine ⟨of_decide_eq_true this.1, ?_⟩
    cases hh : w.head? with
    | none => rw [hh] at this; exact absurd this.2 (by decide)
    | some a => rw [hh] at this; exact ⟨a, rfl, of_decide_eq_true this.2⟩

theorem baseOf_word {a : Byte} {r : Bytes} (h : digitIn 10 a = false) : baseOf (a :: r) = (10, a :: r) := by
  have h48 : a ≠ 48#8 := by intro e; rw [e] at h; exact absurd h (by decide)
  cases r with
  | nil => simp [baseOf, h48]
  | cons x r =>
    cases r with
    | nil => simp [baseOf, h48]
    | cons y r => simp [baseOf, h48]

theorem strtoul_word {s r : Bytes} {a : Byte} (hd : s.dropWhile isSpace = a :: r) (h : digitIn 10 a = false) (h1 : a ≠ 45#8) (h2 : a ≠ 43#8) :
    strtoul s = (0, s) := by
  unfold strtoul
  rw [hd, Ports.sign, if_neg h1, if_neg h2]
  dsimp only
  rw [baseOf_word h]
  dsimp only
  have : (a :: r).takeWhile (digitIn 10) = [] := by rw [List.takeWhile_cons, h]; rfl
  rw [if_pos this]

theorem typeP_of (d : Nat) : BitVec.ofNat 32 (d * 4 * 2 ^ 22) = typePOf d := by
  unfold typePOf
  rw [show d * 4 * 2 ^ 22 = d * 2 ^ 24 by omega]

theorem upper_67 : ∀ a, Dscp.upper a = 67#8 → a = 67#8 ∨ a = 99#8 :=
  byte_all (by decide +kernel)

theorem upper_83 : ∀ a, Dscp.upper a = 83#8 → a = 83#8 ∨ a = 115#8 :=
  byte_all (by decide +kernel)

theorem upper_70 : ∀ a, Dscp.upper a = 70#8 → a = 70#8 ∨ a = 102#8 :=
  byte_all (by decide +kernel)

instance (w : Bytes) (d : Nat) : Decidable (Names w d) :=
  decidable_of_iff ((names.any fun x => decide (x.2 = d ∧ w.map caseless = (text x.1).map caseless)) = true) (by
    unfold Names SameWord
    rw [List.any_eq_true]
    constructor
    · rintro ⟨x, hx, h⟩; exact ⟨x, hx, of_decide_eq_true h⟩
    · rintro ⟨x, hx, h⟩; exact ⟨x, hx, decide_eq_true h⟩)

theorem selector_name {d : Byte} {v : Nat} (h : selector d = some v) :
    ∃ c, v = c * 4 ∧ c < 64 ∧ Names [67#8, 83#8, d] c ∧ Names [67#8, 115#8, d] c ∧ Names [99#8, 83#8, d] c ∧ Names [99#8, 115#8, d] c := by
  unfold selector at h
  repeat' split at h
  all_goals first
    | (subst_vars; obtain rfl := Option.some.inj h; first
        | exact ⟨0, by decide +kernel⟩ | exact ⟨8, by decide +kernel⟩ | exact ⟨16, by decide +kernel⟩ | exact ⟨24, by decide +kernel⟩
        | exact ⟨32, by decide +kernel⟩ | exact ⟨40, by decide +kernel⟩ | exact ⟨48, by decide +kernel⟩ | exact ⟨56, by decide +kernel⟩)
    | cases h

theorem forwarding_name {b d : Byte} {v w : Nat} (h : forwarding b = some v) (h' : precedence d = some w) :
    ∃ c, v ||| w = c * 4 ∧ c < 64 ∧ Names [65#8, 70#8, b, d] c ∧ Names [65#8, 102#8, b, d] c := by
  unfold forwarding at h
  unfold precedence at h'
  repeat' split at h
  all_goals repeat' split at h'
  all_goals first
    | (cases h; done)
    | (cases h'; done)
    | (subst_vars; obtain rfl := Option.some.inj h; obtain rfl := Option.some.inj h'; first
        | exact ⟨10, by decide +kernel⟩ | exact ⟨12, by decide +kernel⟩ | exact ⟨14, by decide +kernel⟩
        | exact ⟨18, by decide +kernel⟩ | exact ⟨20, by decide +kernel⟩ | exact ⟨22, by decide +kernel⟩
        | exact ⟨26, by decide +kernel⟩ | exact ⟨28, by decide +kernel⟩ | exact ⟨30, by decide +kernel⟩
        | exact ⟨34, by decide +kernel⟩ | exact ⟨36, by decide +kernel⟩ | exact ⟨38, by decide +kernel⟩)

/-- What `named` finds. -/
theorem named_some {t rest : Bytes} {tos : Nat} (h : named t = some (tos, rest)) :
    (∃ w d, t = w ++ rest ∧ d < 64 ∧ tos = d * 4 ∧ Names w d) ∨ (tos = 0 ∧ rest = t) := by
  have whole : ∀ (cs : List Char) (d : Nat), eqNoCase t (text cs) = true → (cs, d) ∈ names → d < 64 → some (d * 4, t.drop cs.length) = some (tos, rest) →
      (∃ w d, t = w ++ rest ∧ d < 64 ∧ tos = d * 4 ∧ Names w d) ∨ (tos = 0 ∧ rest = t) := by
    intro cs d he hm hd e
    have hl : t.length = cs.length := by
      have := he
      unfold eqNoCase text at this
      have := congrArg List.length (of_decide_eq_true this)
      simpa using this
    have : t.drop cs.length = [] := by rw [← hl]; simp
    rw [this] at e
    cases e
    exact Or.inl ⟨t, d, by simp, hd, rfl, (cs, d), hm, rfl, (eqNoCase_iff _ _).1 he⟩
  unfold named at h
  split at h
  · rename_i he; exact whole _ 0 he (by decide +kernel) (by decide) h
  · split at h
    · rename_i he; exact whole _ 0 he (by decide +kernel) (by decide) h
    · split at h
      · rename_i he; exact whole _ 0 he (by decide +kernel) (by decide) h
      · split at h
        · rename_i he; exact whole _ 46 he (by decide +kernel) (by decide) h
        · split at h
          · rename_i a b r _ _ _ _
            split at h
            · rename_i hab
              split at h
              · cases h
              · rename_i d r _ _ _ _
                cases hd : selector d with
                | none => rw [hd] at h; cases h
                | some v =>
                  rw [hd] at h
                  cases h
                  obtain ⟨c, e1, e2, n1, n2, n3, n4⟩ := selector_name hd
                  refine Or.inl ⟨[a, b, d], c, rfl, e2, e1, ?_⟩
                  rcases upper_67 a hab.1 with rfl | rfl <;> rcases upper_83 b hab.2 with rfl | rfl <;> assumption
            · split at h
              · rename_i hab
                split at h
                · rename_i c d r _ _ _ _
                  cases hc : forwarding c with
                  | none => rw [hc] at h; cases h
                  | some v =>
                    cases hd : precedence d with
                    | none => rw [hc, hd] at h; cases h
                    | some w =>
                      rw [hc, hd] at h
                      cases h
                      obtain ⟨k, e1, e2, n1, n2⟩ := forwarding_name hc hd
                      refine Or.inl ⟨[a, b, c, d], k, rfl, e2, e1, ?_⟩
                      rcases upper_70 b hab.2 with rfl | rfl <;> rw [hab.1] <;> assumption
                · cases h
              · cases h; exact Or.inr ⟨rfl, rfl⟩
          · cases h; exact Or.inr ⟨rfl, rfl⟩

/-! ### The property -/

/-- A number in the notation of C is accepted if and only if it is below 64, and then it is the code point. -/
theorem C78_number (ws sg t : Bytes) (n : Nat) (hws : ∀ b ∈ ws, Blank b) (hs : sg = [] ∨ sg = [43#8]) (h : Number t n) :
    parseTypeP (ws ++ (sg ++ t)) = if n < 64 then some (typePOf n) else none := by
  obtain ⟨k1, k2⟩ := strtoul_number hws (hs.imp id Or.inl) h
  have hm : ¬ sg = [45#8] := by rcases hs with rfl | rfl <;> decide
  rw [if_neg hm] at k1
  unfold parseTypeP
  rw [k1, k2]
  dsimp only
  by_cases hn : n < 64
  · have : ¬ ulongMax < n := by unfold ulongMax; omega
    rw [if_neg this, if_pos ⟨rfl, by omega⟩, if_pos hn]
    dsimp only
    rw [List.dropWhile_nil, if_pos rfl, Nat.mod_eq_of_lt hn, typeP_of]
  · have hbig : (if ulongMax < n then ulongMax else n) / 64 ≠ 0 := by
      split
      · unfold ulongMax; decide
      · omega
    rw [if_neg (fun hh => hbig hh.2), if_neg hn]
    obtain ⟨a, r, rfl, ha⟩ := number_head h
    have p := digit_plain ha
    have key : named (sg ++ a :: r) = some (0, sg ++ a :: r) ∧ (sg ++ a :: r).dropWhile isSpace = sg ++ a :: r := by
      rcases hs with rfl | rfl
      · have e1 : ∀ (c : Byte) (w : Bytes), lower a ≠ c → lower c = c → eqNoCase (a :: r) (c :: w) = false := by
          intro c w hne hc
          unfold eqNoCase
          simp [hc, hne]
        refine ⟨?_, by rw [List.nil_append, List.dropWhile_cons, if_neg (by rw [p.1]; decide)]⟩
        rw [List.nil_append]
        unfold named
        rw [show text ['n', 'o', 'n', 'e'] = 110#8 :: text ['o', 'n', 'e'] from rfl, e1 _ _ p.2.2.2.2.2.1 (by decide),
          show text ['d', 'e', 'f', 'a', 'u', 'l', 't'] = 100#8 :: text ['e', 'f', 'a', 'u', 'l', 't'] from rfl, e1 _ _ p.2.2.2.2.2.2.1 (by decide),
          show text ['d', 'f'] = 100#8 :: text ['f'] from rfl, e1 _ _ p.2.2.2.2.2.2.1 (by decide),
          show text ['e', 'f'] = 101#8 :: text ['f'] from rfl, e1 _ _ p.2.2.2.2.2.2.2 (by decide)]
        simp only [Bool.false_eq_true, if_false]
        cases r with
        | nil => rfl
        | cons b r =>
          dsimp only
          rw [if_neg (fun hh => p.2.2.2.1 hh.1), if_neg (fun hh => p.2.2.2.2.1 hh.1)]
      · refine ⟨?_, by rw [List.cons_append, List.dropWhile_cons, if_neg (by decide)]⟩
        unfold named eqNoCase
        simp [text, lower, Dscp.upper]
    rw [key.1]
    dsimp only
    rw [key.2, if_neg (by rcases hs with rfl | rfl <;> simp)]

/-- Every name of RFC 4594 stands for its code point, whatever the case of its letters, except that the first letter must not be a small `a`. Missing: those
names, which are refused (`C78_lower_case`). -/
theorem C78_name_partial (ws w : Bytes) (d : Nat) (hws : ∀ b ∈ ws, Blank b) (h : Names w d) (ha : w.head? ≠ some 97#8) :
    parseTypeP (ws ++ w) = some (typePOf d) := by
  obtain ⟨x, hx, rfl, hw⟩ := h
  obtain ⟨t1, _, t3⟩ := table_ok x hx
  obtain ⟨k1, a, k2, k3, k4, k5, k6⟩ := t3 w (mem_spellings x.1 w t1 hw) ha
  cases w with
  | nil => cases k2
  | cons b r =>
    cases k2
    have hd : (ws ++ a :: r).dropWhile isSpace = a :: r := drop_blanks hws (fun b hb => by cases hb; exact k3)
    unfold parseTypeP
    rw [strtoul_word hd k4 k5 k6]
    dsimp only
    rw [if_neg (fun hh => by simp at hh), hd, k1]
    dsimp only
    rw [List.dropWhile_nil, if_pos rfl, typeP_of]

/-- Nothing else is accepted: what is accepted is blank, standing for code point 0, or a number that modulo `2^64` is the code point, or a name of the code
point, with blanks around. -/
theorem C78_accepted (s : Bytes) (v : U32) (h : parseTypeP s = some v) :
    ∃ d, d < 64 ∧ v = typePOf d ∧
      ((d = 0 ∧ ∀ b ∈ s, Blank b) ∨
       (∃ ws sg t n, s = ws ++ (sg ++ t) ∧ (∀ b ∈ ws, Blank b) ∧ Number t n ∧ ((sg ∈ [[], [43#8]] ∧ n = d) ∨ (sg = [45#8] ∧ n < 2 ^ 64 ∧ (n + d) % 2 ^ 64 = 0))) ∨
       (∃ ws w tl, s = ws ++ (w ++ tl) ∧ (∀ b ∈ ws ++ tl, Blank b) ∧ Names w d)) := by
  unfold parseTypeP at h
  dsimp only at h
  by_cases hn : (strtoul s).2 = [] ∧ (strtoul s).1 / 64 = 0
  · rw [if_pos hn] at h
    dsimp only at h
    rw [List.dropWhile_nil, if_pos rfl] at h
    have hlt : (strtoul s).1 < 64 := by omega
    rw [Nat.mod_eq_of_lt hlt, typeP_of] at h
    refine ⟨(strtoul s).1, hlt, (Option.some.inj h).symm, ?_⟩
    rcases number_strtoul hn.1 with rfl | ⟨ws, sg, t, n, rfl, hws, hs, hnum⟩
    · left; exact ⟨by decide, by simp⟩
    · right; left
      refine ⟨ws, sg, t, n, rfl, hws, hnum, ?_⟩
      have k := (strtoul_number hws hs hnum).1
      rw [k] at hlt ⊢
      dsimp only at hlt ⊢
      have hle : ¬ ulongMax < n := by
        intro hh; rw [if_pos hh] at hlt; unfold ulongMax at hlt; omega
      rw [if_neg hle] at hlt ⊢
      by_cases hm : sg = [45#8]
      · right
        rw [if_pos hm] at hlt ⊢
        unfold ulongMax at *
        refine ⟨hm, by omega, ?_⟩
        omega
      · left
        rw [if_neg hm]
        refine ⟨?_, rfl⟩
        rcases hs with rfl | rfl | rfl
        · simp
        · simp
        · exact absurd rfl hm
  · rw [if_neg hn] at h
    have hspl : s = s.takeWhile isSpace ++ s.dropWhile isSpace := (List.takeWhile_append_dropWhile).symm
    have hblank : ∀ b ∈ s.takeWhile isSpace, Blank b := fun b hb => (isSpace_iff b).1 (takeWhile_all _ _ b hb)
    have fin : ∀ (w tl : Bytes) (d : Nat), s.dropWhile isSpace = w ++ tl → d < 64 → Names w d →
        (if tl.dropWhile isSpace = [] then some (BitVec.ofNat 32 (d * 4 * 2 ^ 22)) else none) = some v →
        ∃ d, d < 64 ∧ v = typePOf d ∧ ((d = 0 ∧ ∀ b ∈ s, Blank b) ∨
          (∃ ws sg t n, s = ws ++ (sg ++ t) ∧ (∀ b ∈ ws, Blank b) ∧ Number t n ∧ ((sg ∈ [[], [43#8]] ∧ n = d) ∨ (sg = [45#8] ∧ n < 2 ^ 64 ∧ (n + d) % 2 ^ 64 = 0))) ∨
          (∃ ws w tl, s = ws ++ (w ++ tl) ∧ (∀ b ∈ ws ++ tl, Blank b) ∧ Names w d)) := by
      intro w tl d e hd hw hv
      split at hv
      · rename_i hb
        rw [typeP_of] at hv
        refine ⟨d, hd, (Option.some.inj hv).symm, Or.inr (Or.inr ⟨s.takeWhile isSpace, w, tl, by rw [← e]; exact hspl, ?_, hw⟩)⟩
        intro b hb'
        rcases List.mem_append.1 hb' with hb' | hb'
        · exact hblank b hb'
        · exact (isSpace_iff b).1 (dropWhile_nil hb b hb')
      · cases hv
    cases hx : named (s.dropWhile isSpace) with
    | none => rw [hx] at h; cases h
    | some x =>
      obtain ⟨tos, rest⟩ := x
      rw [hx] at h
      dsimp only at h
      rcases named_some hx with ⟨w, d, e, hd, rfl, hw⟩ | ⟨rfl, rfl⟩
      · exact fin w rest d e hd hw h
      · split at h
        · rename_i hb
          have h0 := Option.some.inj h
          refine ⟨0, by decide, h0.symm, Or.inl ⟨rfl, ?_⟩⟩
          intro b hb'
          rw [hspl] at hb'
          rcases List.mem_append.1 hb' with hb' | hb'
          · exact hblank b hb'
          · exact (isSpace_iff b).1 (dropWhile_nil hb b hb')
        · cases h

/-- The packets of an end that sends or reflects bear the code point that was asked for, and no bit of the congestion field is set; code point 0 is the default
of a socket. The report shows it. -/
theorem C78_packets (d : Nat) (h : d < 64) :
    socketTos (typePOf d) = (if d = 0 then .unset else .set (octetOf d)) ∧ reported (typePOf d) = some d := by
  have : ∀ d : Fin 64, socketTos (typePOf d.val) = (if d.val = 0 then .unset else .set (octetOf d.val)) ∧ reported (typePOf d.val) = some d.val := by decide +kernel
  exact this ⟨d, h⟩

/-- A type of packets that is no code point is refused by an end that sends or reflects, and not reported as one. -/
theorem C78_unsupported (v : U32) (h : ∀ d, d < 64 → v ≠ typePOf d) : socketTos v = .refused ∧ reported v = none := by
  have key : v &&& ~~~0x3F000000#32 ≠ 0 := by
    intro h0
    refine h (v.toNat / 2 ^ 24 % 64) (Nat.mod_lt _ (by decide)) ?_
    apply BitVec.eq_of_getLsbD_eq
    intro i hi
    have hb : (v &&& ~~~0x3F000000#32).getLsbD i = false := by rw [h0]; simp
    rw [BitVec.getLsbD_and] at hb
    have hm : (~~~0x3F000000#32).getLsbD i = decide (i < 24 ∨ 30 ≤ i) := by
      have : ∀ i : Fin 32, (~~~0x3F000000#32).getLsbD i.val = decide (i.val < 24 ∨ 30 ≤ i.val) := by decide +kernel
      exact this ⟨i, hi⟩
    rw [hm] at hb
    unfold typePOf
    rw [BitVec.getLsbD_ofNat, show (64 : Nat) = 2 ^ 6 from rfl, Nat.testBit_mul_two_pow, Nat.testBit_mod_two_pow, Nat.testBit_div_two_pow]
    rw [decide_eq_true hi, Bool.true_and]
    by_cases h1 : i < 24
    · rw [decide_eq_true (Or.inl h1), Bool.and_true] at hb
      rw [hb, decide_eq_false (by omega : ¬ 24 ≤ i)]; rfl
    · by_cases h2 : 30 ≤ i
      · rw [decide_eq_true (Or.inr h2), Bool.and_true] at hb
        rw [hb, decide_eq_false (by omega : ¬ i - 24 < 6)]; simp
      · rw [decide_eq_true (by omega : 24 ≤ i), decide_eq_true (by omega : i - 24 < 6), Bool.true_and, Bool.true_and, show i - 24 + 24 = i by omega]
        rfl
  have hv : v ≠ 0 := fun e => h 0 (by decide) (by rw [e]; rfl)
  unfold socketTos reported
  rw [if_neg hv, if_pos key, if_neg key]
  exact ⟨rfl, rfl⟩

/-! ### Examples -/

example : parseTypeP (text [' ', '0', 'x', '2', 'E']) = some (typePOf 46) :=
  (C78_number (text [' ']) [] (text ['0', 'x', '2', 'E']) 46 (by decide +kernel) (Or.inl rfl)
    (.hex _ _ _ (.more [_] 2 _ 14 (.one _ _ (by unfold Digit; decide)) (by unfold Digit; decide)) (by decide))).trans (if_pos (by decide))

example : Names (text ['A', 'f', '4', '1']) 34 ∧ parseTypeP (text ['A', 'f', '4', '1']) = some (typePOf 34) :=
  ⟨by decide +kernel, C78_name_partial [] _ _ (by simp) (by decide +kernel) (by decide)⟩

example : socketTos 0x40000000#32 = .refused := (C78_unsupported _ (by intro d hd; unfold typePOf; intro e; have := congrArg BitVec.toNat e; simp at this; omega)).1

/-! ### Where the code departs from the property -/

/-- `af11` names code point 10, and `cs1` and `ef` are accepted, but `af11` is refused. -/
theorem C78_lower_case : Names (text ['a', 'f', '1', '1']) 10 ∧ parseTypeP (text ['a', 'f', '1', '1']) = none ∧
    parseTypeP (text ['c', 's', '1']) = some (typePOf 8) ∧ parseTypeP (text ['e', 'f']) = some (typePOf 46) := by decide +kernel

/-- Blanks after the text are accepted after some names and refused after others and after numbers. -/
theorem C78_trailing : parseTypeP (text ['c', 's', '1', ' ']) = some (typePOf 8) ∧ parseTypeP (text ['e', 'f', ' ']) = none ∧
    parseTypeP (text ['8', ' ']) = none := by decide +kernel

end Owamp.Props
