import Verif.Spec.Ports
/-!
# Lemmas about port ranges
-/
namespace Owamp.Ports
open Owamp.Policy Owamp.Spec.Ports

theorem isSpace_iff (b : Byte) : isSpace b = true ↔ Blank b := by
  unfold isSpace Blank
  simp only [decide_eq_true_eq, BitVec.le_def, ← BitVec.toNat_inj]
  exact Iff.rfl

theorem isDigit_iff (b : Byte) : isDigit b = true ↔ Digit b := by
  unfold isDigit Digit
  simp only [decide_eq_true_eq, BitVec.le_def]
  exact Iff.rfl

theorem digitsValue_from (ds : Bytes) (n : Nat) :
    ds.foldl (fun n d => 10 * n + (d.toNat - 48)) n = n * 10 ^ ds.length + value ds := by
  induction ds generalizing n with
  | nil => simp [value]
  | cons d ds ih =>
    simp only [List.foldl_cons, ih, value, List.length_cons]
    rw [Nat.pow_succ]
    generalize 10 ^ ds.length = k
    rw [Nat.add_mul, Nat.mul_comm k 10, ← Nat.mul_assoc, Nat.mul_comm 10 n]
    omega

theorem digitsValue_eq (ds : Bytes) : digitsValue ds = value ds := by
  unfold digitsValue
  rw [digitsValue_from]; omega

theorem dropWhile_eq {p : Byte → Bool} {a b : Bytes} (ha : ∀ x ∈ a, p x = true) (hb : ∀ x r, b = x :: r → p x = false) :
    (a ++ b).dropWhile p = b := by
  induction a with
  | nil =>
    cases b with
    | nil => rfl
    | cons x r => simp [hb x r rfl]
  | cons x a ih =>
    rw [List.cons_append, List.dropWhile_cons, if_pos (ha x (by simp))]
    exact ih fun y hy => ha y (by simp [hy])

theorem takeWhile_eq {p : Byte → Bool} {a b : Bytes} (ha : ∀ x ∈ a, p x = true) (hb : ∀ x r, b = x :: r → p x = false) :
    (a ++ b).takeWhile p = a := by
  induction a with
  | nil =>
    cases b with
    | nil => rfl
    | cons x r => simp [hb x r rfl]
  | cons x a ih =>
    rw [List.cons_append, List.takeWhile_cons, if_pos (ha x (by simp)), ih fun y hy => ha y (by simp [hy])]

theorem mem_takeWhile {p : Byte → Bool} {s : Bytes} : ∀ x ∈ s.takeWhile p, p x = true := by
  induction s with
  | nil => simp
  | cons a s ih =>
    intro x hx
    rw [List.takeWhile_cons] at hx
    split at hx
    · rcases List.mem_cons.1 hx with rfl | hx
      · assumption
      · exact ih x hx
    · cases hx

theorem head_dropWhile {p : Byte → Bool} {s : Bytes} {x : Byte} {r : Bytes} (h : s.dropWhile p = x :: r) : p x = false := by
  have := List.head?_dropWhile_not p s
  rw [h] at this
  simpa using this

/-- What the sign leaves. -/
theorem sign_split (t : Bytes) :
    ∃ sg, t = sg ++ (sign t).2 ∧
      ((sg = [] ∨ sg = text ['+']) ∧ (sign t).1 = false ∨ sg = text ['-'] ∧ (sign t).1 = true) := by
  cases t with
  | nil => exact ⟨[], rfl, .inl ⟨.inl rfl, rfl⟩⟩
  | cons b r =>
    unfold sign
    by_cases h1 : b = 45#8
    · subst h1; exact ⟨text ['-'], rfl, .inr ⟨rfl, rfl⟩⟩
    · by_cases h2 : b = 43#8
      · subst h2; exact ⟨text ['+'], rfl, .inl ⟨.inr rfl, rfl⟩⟩
      · exact ⟨[], by simp [h1, h2], .inl ⟨.inl rfl, by simp [h1, h2]⟩⟩

theorem not_space_of_digit {d : Byte} (h : Digit d) : isSpace d = false := by
  rw [Bool.eq_false_iff]; intro hs
  have := (isSpace_iff d).1 hs
  unfold Blank at this; unfold Digit at h; omega

theorem sign_digit {d : Byte} {r : Bytes} (h : Digit d) : sign (d :: r) = (false, d :: r) := by
  unfold sign
  have h1 : d ≠ 45#8 := by rintro rfl; exact absurd h (by unfold Digit; decide)
  have h2 : d ≠ 43#8 := by rintro rfl; exact absurd h (by unfold Digit; decide)
  simp [h1, h2]

theorem strtol_iff (s : Bytes) (v : Int) (rest : Bytes) :
    strtol s = some (v, rest) ↔ ∃ n, s = n ++ rest ∧ Numeral n v ∧ NoDigit rest := by
  constructor
  · intro h
    unfold strtol at h
    obtain ⟨sg, hsg, hs⟩ := sign_split (s.dropWhile isSpace)
    generalize hm : sign (s.dropWhile isSpace) = q at h hsg hs
    obtain ⟨m, t⟩ := q
    dsimp only at h hsg hs
    split at h
    · cases h
    · rename_i hne
      simp only [Option.some.injEq, Prod.mk.injEq] at h
      refine ⟨s.takeWhile isSpace ++ sg ++ t.takeWhile isDigit, ?_, ⟨s.takeWhile isSpace, sg, t.takeWhile isDigit, rfl, ?_, ?_, hne, ?_⟩, ?_⟩
      · rw [← h.2, List.append_assoc, List.takeWhile_append_dropWhile, List.append_assoc, ← hsg, List.takeWhile_append_dropWhile]
      · exact fun b hb => (isSpace_iff b).1 (mem_takeWhile b hb)
      · exact fun b hb => (isDigit_iff b).1 (mem_takeWhile b hb)
      · rw [← digitsValue_eq]
        rcases hs with ⟨hs, hf⟩ | ⟨hs, hf⟩
        · exact .inl ⟨hs, by rw [← h.1, hf]; simp⟩
        · exact .inr ⟨hs, by rw [← h.1, hf]; simp⟩
      · intro b r hb hd
        have := head_dropWhile (h.2.trans hb)
        rw [(isDigit_iff b).2 hd] at this; cases this
  · rintro ⟨n, rfl, ⟨blanks, sg, ds, rfl, hbl, hdg, hne, hv⟩, hrest⟩
    have hrest' : ∀ x r, rest = x :: r → isDigit x = false := by
      intro x r hx
      rw [Bool.eq_false_iff]; intro hd
      exact hrest x r hx ((isDigit_iff x).1 hd)
    obtain ⟨d, ds', rfl⟩ : ∃ d ds', ds = d :: ds' := by
      cases ds with
      | nil => exact absurd rfl hne
      | cons d ds' => exact ⟨d, ds', rfl⟩
    have hd : Digit d := hdg d (by simp)
    have e1 : (blanks ++ sg ++ (d :: ds') ++ rest).dropWhile isSpace = sg ++ ((d :: ds') ++ rest) := by
      rw [List.append_assoc, List.append_assoc]
      apply dropWhile_eq
      · exact fun b hb => (isSpace_iff b).2 (hbl b hb)
      · intro x r hx
        rcases hv with ⟨rfl | rfl, _⟩ | ⟨rfl, _⟩
        · injection hx with hx _; rw [← hx]; exact not_space_of_digit hd
        · injection hx with hx _; rw [← hx]; decide
        · injection hx with hx _; rw [← hx]; decide
    have e2 : ((d :: ds') ++ rest).takeWhile isDigit = d :: ds' :=
      takeWhile_eq (fun b hb => (isDigit_iff b).2 (hdg b hb)) hrest'
    have e3 : ((d :: ds') ++ rest).dropWhile isDigit = rest :=
      dropWhile_eq (fun b hb => (isDigit_iff b).2 (hdg b hb)) hrest'
    unfold strtol
    rw [e1]
    rcases hv with ⟨rfl | rfl, rfl⟩ | ⟨rfl, rfl⟩
    · have e4 : sign ([] ++ ((d :: ds') ++ rest)) = (false, (d :: ds') ++ rest) := sign_digit hd
      rw [e4]; dsimp only; rw [e2, e3, if_neg hne, digitsValue_eq]; simp
    · have e4 : sign (text ['+'] ++ ((d :: ds') ++ rest)) = (false, (d :: ds') ++ rest) := rfl
      rw [e4]; dsimp only; rw [e2, e3, if_neg hne, digitsValue_eq]; simp
    · have e4 : sign (text ['-'] ++ ((d :: ds') ++ rest)) = (true, (d :: ds') ++ rest) := rfl
      rw [e4]; dsimp only; rw [e2, e3, if_neg hne, digitsValue_eq]; simp

theorem dropWhile_idem {p : Byte → Bool} (s : Bytes) : (s.dropWhile p).dropWhile p = s.dropWhile p :=
  dropWhile_eq (a := []) (by simp) (fun _ _ h => head_dropWhile h)

theorem portNumber_iff (s : Bytes) (q : U16) (rest : Bytes) :
    portNumber s = some (q, rest) ↔ ∃ n, s = n ++ rest ∧ Numeral n q.toNat ∧ NoDigit rest := by
  have e : strtol (s.dropWhile isSpace) = strtol s := by unfold strtol; rw [dropWhile_idem]
  unfold portNumber
  rw [e]
  constructor
  · intro h
    split at h
    · cases h
    · rename_i v r hv
      split at h
      · cases h
      · rename_i hr
        simp only [Option.some.injEq, Prod.mk.injEq] at h
        obtain ⟨rfl, rfl⟩ := h
        obtain ⟨n, h1, h2, h3⟩ := (strtol_iff _ _ _).1 hv
        refine ⟨n, h1, ?_, h3⟩
        have : ((BitVec.ofInt 16 v).toNat : Int) = v := by
          rw [BitVec.toNat_ofInt]; omega
        rw [this]; exact h2
  · intro h
    rw [(strtol_iff _ _ _).2 h]
    dsimp only
    have := q.isLt
    rw [if_neg (by omega)]
    simp

theorem numeral_noDigit_blank {b : Byte} (h : Blank b) : ¬ Digit b := by
  unfold Blank at h; unfold Digit; omega

theorem parse_iff (z : Bool) (s : Bytes) (g : Range) :
    parse z s = some g ↔
      (Single s g.low.toNat ∧ g.high = g.low ∧ (g.low = 0#16 → z = true)) ∨
      ∃ tail, Pair s g.low.toNat g.high.toNat tail ∧ g.low ≤ g.high := by
  unfold parse
  constructor
  · intro h
    split at h
    · cases h
    · rename_i low rest hp
      obtain ⟨n, rfl, hn, hnd⟩ := (portNumber_iff _ _ _).1 hp
      have hsplit : rest = rest.takeWhile isSpace ++ rest.dropWhile isSpace := (List.takeWhile_append_dropWhile).symm
      have hbl : ∀ b ∈ rest.takeWhile isSpace, Blank b := fun b hb => (isSpace_iff b).1 (mem_takeWhile b hb)
      split at h
      · rename_i hd
        rw [hd, List.append_nil] at hsplit
        split at h
        · cases h
        · rename_i hz
          simp only [Option.some.injEq] at h
          subst h
          refine .inl ⟨⟨n, rest, rfl, hn, ?_⟩, rfl, ?_⟩
          · rw [hsplit]; exact hbl
          · intro h0
            cases z with
            | true => rfl
            | false => exact absurd ⟨h0, by simp⟩ hz
      · rename_i b rest' hd
        split at h
        · rename_i hb
          subst hb
          split at h
          · cases h
          · rename_i high tail hp2
            obtain ⟨m, rfl, hm, hnd2⟩ := (portNumber_iff _ _ _).1 hp2
            split at h
            · cases h
            · rename_i hlt
              simp only [Option.some.injEq] at h
              subst h
              refine .inr ⟨tail, ⟨n, rest.takeWhile isSpace, m, ?_, hn, hbl, hm, hnd2⟩, BitVec.not_lt.1 hlt⟩
              calc n ++ rest = n ++ (rest.takeWhile isSpace ++ 45#8 :: (m ++ tail)) := by rw [← hd, ← hsplit]
                _ = _ := by
                  show _ = n ++ List.takeWhile isSpace rest ++ [45#8] ++ m ++ tail
                  simp
        · cases h
  · rintro (⟨⟨n, blanks, rfl, hn, hbl⟩, hh, hz⟩ | ⟨tail, ⟨n, blanks, m, rfl, hn, hbl, hm, hnd⟩, hle⟩)
    · have hp : portNumber (n ++ blanks) = some (g.low, blanks) :=
        (portNumber_iff _ _ _).2 ⟨n, rfl, hn, by
          intro b r hb; exact numeral_noDigit_blank (hbl b (by rw [hb]; simp))⟩
      have hd : blanks.dropWhile isSpace = [] := by
        have := dropWhile_eq (p := isSpace) (a := blanks) (b := []) (fun b hb => (isSpace_iff b).2 (hbl b hb)) (by simp)
        rwa [List.append_nil] at this
      rw [hp]; dsimp only; rw [hd]; dsimp only
      rw [if_neg (by rintro ⟨h1, h2⟩; exact h2 (hz h1))]
      cases g; simp only at hh; rw [hh]
    · have hp : portNumber (n ++ blanks ++ text ['-'] ++ m ++ tail) = some (g.low, blanks ++ (text ['-'] ++ m ++ tail)) :=
        (portNumber_iff _ _ _).2 ⟨n, by simp, hn, by
          intro b r hb
          cases blanks with
          | nil => injection hb with hb _; rw [← hb]; unfold Digit; decide
          | cons c cs => injection hb with hb _; rw [← hb]; exact numeral_noDigit_blank (hbl c (by simp))⟩
      have hd : (blanks ++ (text ['-'] ++ m ++ tail)).dropWhile isSpace = 45#8 :: (m ++ tail) := by
        rw [dropWhile_eq (fun b hb => (isSpace_iff b).2 (hbl b hb))]
        · rfl
        · intro x r hx; injection hx with hx _; rw [← hx]; decide
      have hp2 : portNumber (m ++ tail) = some (g.high, tail) := (portNumber_iff _ _ _).2 ⟨m, rfl, hm, hnd⟩
      rw [hp]; dsimp only; rw [hd]; dsimp only
      rw [if_pos rfl, hp2]; dsimp only
      rw [if_neg (BitVec.not_lt.2 hle)]

/-! ## Decimal texts -/

theorem digit_of (n : Nat) (h : n < 10) : Digit (BitVec.ofNat 8 (48 + n)) := by
  unfold Digit; rw [BitVec.toNat_ofNat]; omega

theorem value_append (a : Bytes) (d : Byte) : value (a ++ [d]) = 10 * value a + (d.toNat - 48) := by
  rw [← digitsValue_eq, ← digitsValue_eq]
  unfold digitsValue
  rw [List.foldl_append]; rfl

theorem decimal_ok (n : Nat) : (∀ d ∈ decimal n, Digit d) ∧ decimal n ≠ [] ∧ value (decimal n) = n := by
  induction n using decimal.induct with
  | case1 n h =>
    rw [decimal, if_pos h]
    refine ⟨?_, by simp, ?_⟩
    · intro d hd; rw [List.mem_singleton.1 hd]; exact digit_of n h
    · simp only [value, List.length_nil, BitVec.toNat_ofNat]; omega
  | case2 n h ih =>
    rw [decimal, if_neg h]
    refine ⟨?_, by simp, ?_⟩
    · intro d hd
      rcases List.mem_append.1 hd with hd | hd
      · exact ih.1 d hd
      · rw [List.mem_singleton.1 hd]; exact digit_of _ (by omega)
    · rw [value_append, ih.2.2, BitVec.toNat_ofNat]; omega

theorem decimal_numeral (n : Nat) : Numeral (decimal n) n :=
  ⟨[], [], decimal n, by simp, by simp, (decimal_ok n).1, (decimal_ok n).2.1, .inl ⟨.inl rfl, by rw [(decimal_ok n).2.2]⟩⟩

/-! ## The search -/

theorem width_eq {g : Range} (h : g.low ≤ g.high) (h0 : ¬ (g.low = 0#16 ∧ g.high = 65535#16)) :
    width g = g.high.toNat - g.low.toNat + 1 := by
  unfold width
  have h1 := g.high.isLt
  have h2 : g.low.toNat ≤ g.high.toNat := h
  have h3 : ¬ (g.low.toNat = 0 ∧ g.high.toNat = 65535) := by
    rintro ⟨a, b⟩
    exact h0 ⟨BitVec.eq_of_toNat_eq a, BitVec.eq_of_toNat_eq b⟩
  omega

theorem width_pos {g : Range} (h : g.low ≤ g.high) (h0 : ¬ (g.low = 0#16 ∧ g.high = 65535#16)) : 0 < width g := by
  rw [width_eq h h0]; omega

/-- The places of the ports a search visits: `k` turns after place `q` of `w`. -/
theorem nextPort_inside {g : Range} (h : g.low ≤ g.high) (h0 : ¬ (g.low = 0#16 ∧ g.high = 65535#16)) {p : Nat}
    (hp : Inside g p) :
    Inside g (nextPort g (width g) p) ∧ nextPort g (width g) p - g.low.toNat = (p - g.low.toNat + 1) % width g := by
  unfold nextPort Inside at *
  rw [width_eq h h0]
  have h1 := g.high.isLt
  have h2 : g.low.toNat ≤ g.high.toNat := h
  have h3 := Nat.mod_lt (p - g.low.toNat + 1) (y := g.high.toNat - g.low.toNat + 1) (by omega)
  have h4 : (p + 2 ^ 16 - g.low.toNat) % 2 ^ 16 = p - g.low.toNat := by omega
  rw [h4]
  generalize (p - g.low.toNat + 1) % (g.high.toNat - g.low.toNat + 1) = q at *
  omega

theorem _root_.Owamp.Spec.Ports.Told.cons {bind : Nat → Nat → Bind} {k p : Nat} {tried : List Nat} {e : Found} (h : Told bind (k + 1) tried e)
    (hp : bind k p = .inUse) : Told bind k (p :: tried) e := by
  refine ⟨by simp, ?_, ?_⟩
  · intro i q hq hi
    cases i with
    | zero => simp only [List.getElem?_cons_zero, Option.some.injEq] at hq; rw [← hq]; exact hp
    | succ i =>
      have := h.before i q (by simpa using hq) (by simpa using hi)
      rwa [show k + 1 + i = k + (i + 1) from by omega] at this
  · intro q hq
    have hl : 0 < tried.length := List.length_pos_iff.2 h.some_tried
    rw [List.getLast?_cons, List.getLast?_eq_some_getLast h.some_tried] at hq
    have := h.last q (by rw [List.getLast?_eq_some_getLast h.some_tried]; simpa using hq)
    rw [show k + 1 + (tried.length - 1) = k + ((p :: tried).length - 1) from by simp; omega] at this
    exact this

theorem search_told {g : Range} (h : g.low ≤ g.high) (h0 : ¬ (g.low = 0#16 ∧ g.high = 65535#16))
    (bind : Nat → Nat → Bind) {q0 : Nat} (hq0 : q0 < width g) (fuel k j : Nat) (hj : j < width g) (hf : width g - j ≤ fuel) :
    ∃ l, l ≤ width g - j ∧
      (search bind ⟨g.low.toNat + q0, width g, some g⟩ fuel k (g.low.toNat + (q0 + j) % width g)).1 =
        (List.range l).map (fun i => g.low.toNat + (q0 + j + i) % width g) ∧
      Told bind k (search bind ⟨g.low.toNat + q0, width g, some g⟩ fuel k (g.low.toNat + (q0 + j) % width g)).1
        (search bind ⟨g.low.toNat + q0, width g, some g⟩ fuel k (g.low.toNat + (q0 + j) % width g)).2 ∧
      ((search bind ⟨g.low.toNat + q0, width g, some g⟩ fuel k (g.low.toNat + (q0 + j) % width g)).2 = .exhausted →
        l = width g - j) := by
  have hw := width_eq h h0
  have hle : g.low.toNat ≤ g.high.toNat := h
  induction fuel generalizing k j with
  | zero => omega
  | succ fuel ih =>
    rw [search]
    dsimp only
    have one : (List.range 1).map (fun i => g.low.toNat + (q0 + j + i) % width g) = [g.low.toNat + (q0 + j) % width g] := rfl
    cases hb : bind k (g.low.toNat + (q0 + j) % width g) with
    | ok =>
      exact ⟨1, by omega, one.symm, ⟨by simp, by intro i q _ hi; simp at hi, by intro q hq; simp at hq; subst hq; exact ⟨rfl, hb⟩⟩,
        by intro h; cases h⟩
    | other =>
      exact ⟨1, by omega, one.symm, ⟨by simp, by intro i q _ hi; simp at hi, by intro q hq; simp at hq; subst hq; exact hb⟩,
        by intro h; cases h⟩
    | inUse =>
      dsimp only
      rw [if_neg (by omega)]
      have hin : Inside g (g.low.toNat + (q0 + j) % width g) := by
        have := Nat.mod_lt (q0 + j) (y := width g) (by omega)
        unfold Inside; omega
      obtain ⟨hni, hne⟩ := nextPort_inside h h0 hin
      have hnx : nextPort g (width g) (g.low.toNat + (q0 + j) % width g) = g.low.toNat + (q0 + (j + 1)) % width g := by
        rw [Nat.add_sub_cancel_left, Nat.mod_add_mod] at hne
        unfold Inside at hni
        rw [← Nat.add_assoc]; omega
      rw [hnx]
      by_cases hend : j + 1 = width g
      · have : (q0 + (j + 1)) % width g = q0 := by
          rw [hend, Nat.add_mod_right, Nat.mod_eq_of_lt hq0]
        rw [this, if_pos rfl]
        exact ⟨1, by omega, one.symm, ⟨by simp, by intro i q _ hi; simp at hi, by intro q hq; simp at hq; subst hq; exact hb⟩,
          by intro _; omega⟩
      · have hneq : ¬ g.low.toNat + (q0 + (j + 1)) % width g = g.low.toNat + q0 := by
          intro hc
          have hc : (q0 + (j + 1)) % width g = q0 := by omega
          by_cases hl : q0 + (j + 1) < width g
          · rw [Nat.mod_eq_of_lt hl] at hc; omega
          · rw [Nat.mod_eq_sub_mod (by omega), Nat.mod_eq_of_lt (by omega)] at hc; omega
        rw [if_neg hneq]
        obtain ⟨l, hl, ht, htold, hex⟩ := ih (k + 1) (j + 1) (by omega) (by omega)
        refine ⟨l + 1, by omega, ?_, htold.cons hb, fun he => by have := hex he; omega⟩
        rw [List.range_succ_eq_map, List.map_cons, List.map_map, ht]
        show _ :: _ = _ :: _
        refine congrArg _ (List.map_congr_left ?_)
        intro i _
        simp only [Function.comp]
        rw [show q0 + (j + 1) + i = q0 + j + (i + 1) from by omega]

/-! ## The random port -/

theorem rnd_unit {rnd : Rat → Rat} (hr : Rounding rnd) {a : Rat} (h0 : 0 ≤ a) (h1 : a ≤ 1) : 0 ≤ rnd a ∧ rnd a ≤ 1 := by
  have z : rnd 0 = 0 := by have := hr.whole 0 (by omega); simpa using this
  have o : rnd 1 = 1 := by have := hr.whole 1 (by omega); simpa using this
  have m1 := hr.mono 0 a (by grind) h0 (by grind)
  have m2 := hr.mono a 1 h0 h1 (by grind)
  rw [z] at m1; rw [o] at m2
  exact ⟨m1, m2⟩

theorem rnd_upto {rnd : Rat → Rat} (hr : Rounding rnd) {a : Rat} {n : Nat} (hn : n ≤ 131072) (h0 : 0 ≤ a) (h1 : a ≤ (n : Rat)) :
    0 ≤ rnd a ∧ rnd a ≤ n := by
  have z : rnd 0 = 0 := by have := hr.whole 0 (by omega); simpa using this
  have o : rnd (n : Rat) = n := hr.whole n (by omega)
  have hn' : (n : Rat) ≤ 131072 := by have := Rat.natCast_le_natCast.2 hn; exact this
  have m1 := hr.mono 0 a (by grind) h0 (by grind)
  have m2 := hr.mono a n h0 h1 (by grind)
  rw [z] at m1; rw [o] at m2
  exact ⟨m1, m2⟩

/-- The three operations, with `a` the quotient, `w` the width and `b` the first port. -/
theorem pick_steps {rnd : Rat → Rat} (hr : Rounding rnd) {a : Rat} {w b : Nat} (h0 : 0 ≤ a) (h1 : a ≤ 1)
    (hw : w ≤ 65536) (hb : b ≤ 65536) :
    0 ≤ rnd a ∧ rnd a ≤ 1 ∧ 0 ≤ rnd a * w ∧ rnd a * w ≤ w ∧ 0 ≤ rnd (rnd a * w) ∧ rnd (rnd a * w) ≤ w ∧
      (b : Rat) ≤ rnd (b + rnd (rnd a * w)) := by
  obtain ⟨x0, x1⟩ := rnd_unit hr h0 h1
  have hw0 : (0 : Rat) ≤ (w : Rat) := by have := Rat.natCast_le_natCast.2 (Nat.zero_le w); exact this
  have hb0 : (0 : Rat) ≤ (b : Rat) := by have := Rat.natCast_le_natCast.2 (Nat.zero_le b); exact this
  have hwn : (w : Rat) ≤ 65536 := by have := Rat.natCast_le_natCast.2 hw; exact this
  have hbn : (b : Rat) ≤ 65536 := by have := Rat.natCast_le_natCast.2 hb; exact this
  have p0 : 0 ≤ rnd a * w := Rat.mul_nonneg x0 hw0
  have p1 : rnd a * w ≤ w := by
    have := Rat.mul_le_mul_of_nonneg_right x1 hw0
    rwa [Rat.one_mul] at this
  obtain ⟨y0, y1⟩ := rnd_upto hr (n := w) (by omega) p0 p1
  refine ⟨x0, x1, p0, p1, y0, y1, ?_⟩
  have m := hr.mono b (b + rnd (rnd a * w)) hb0 (by grind) (by grind)
  rwa [hr.whole b (by omega)] at m

theorem pick_below {rnd : Rat → Rat} (hr : Rounding rnd) {a : Rat} {w b : Nat} (h0 : 0 ≤ a) (h1 : a ≤ 4294967294 / 4294967295)
    (hw1 : 1 ≤ w) (hwb : b + w ≤ 65536) : rnd (b + rnd (rnd a * w)) < (b + w : Rat) := by
  obtain ⟨x0, x1, p0, p1, y0, y1, _⟩ := pick_steps hr (a := a) (w := w) (b := b) h0 (by grind) (by omega) (by omega)
  have hw1' : (1 : Rat) ≤ (w : Rat) := by have := Rat.natCast_le_natCast.2 hw1; exact this
  have hb0 : (0 : Rat) ≤ (b : Rat) := by have := Rat.natCast_le_natCast.2 (Nat.zero_le b); exact this
  have hwb' : (b : Rat) + w ≤ 65536 := by
    have := Rat.natCast_le_natCast.2 hwb
    rw [Rat.natCast_add] at this; exact this
  have c1 := hr.close a h0 (by grind)
  have c2 := hr.close (rnd a * w) p0 (by grind)
  have c3 := hr.close (b + rnd (rnd a * w)) (by grind) (by grind)
  have q : rnd a * w ≤ (4294967294 / 4294967295 * (1 + 1 / 9007199254740992) + 1 / 1267650600228229401496703205376) * w := by
    apply Rat.mul_le_mul_of_nonneg_right
    · grind
    · grind
  generalize rnd (b + rnd (rnd a * w)) = z at *
  generalize rnd (rnd a * w) = y at *
  generalize rnd a * w = x at *
  generalize rnd a = t at *
  generalize (w : Rat) = W at *
  generalize (b : Rat) = B at *
  grind

theorem ratio_bounds (r : U32) : (0 : Rat) ≤ (r.toNat : Rat) / 4294967295 ∧ (r.toNat : Rat) / 4294967295 ≤ 1 ∧
    (r ≠ 4294967295#32 → (r.toNat : Rat) / 4294967295 ≤ 4294967294 / 4294967295) := by
  have h1 : (0 : Rat) ≤ (r.toNat : Rat) := by have := Rat.natCast_le_natCast.2 (Nat.zero_le r.toNat); exact this
  have h2 : (r.toNat : Rat) ≤ 4294967295 := by
    have := Rat.natCast_le_natCast.2 (show r.toNat ≤ 4294967295 from by have := r.isLt; omega); exact this
  refine ⟨by grind, by grind, ?_⟩
  intro hne
  have h3 : (r.toNat : Rat) ≤ 4294967294 := by
    have h : r.toNat ≤ 4294967294 := by
      have := r.isLt
      have : r.toNat ≠ 4294967295 := fun hc => hne (BitVec.eq_of_toNat_eq hc)
      omega
    have := Rat.natCast_le_natCast.2 h; exact this
  grind

theorem width_le (g : Range) : width g ≤ 65536 := by unfold width; omega

theorem pick_low {rnd : Rat → Rat} (hr : Rounding rnd) (g : Range) (r : U32) :
    (g.low.toNat : Int) ≤ pick rnd g r := by
  unfold pick
  rw [Rat.le_floor_iff, Rat.intCast_natCast]
  obtain ⟨h0, h1, _⟩ := ratio_bounds r
  exact (pick_steps hr h0 h1 (width_le g) (by have := g.low.isLt; omega)).2.2.2.2.2.2

theorem pick_high {rnd : Rat → Rat} (hr : Rounding rnd) {g : Range} (h : g.low ≤ g.high)
    (h0 : ¬ (g.low = 0#16 ∧ g.high = 65535#16)) {r : U32} (hm : r ≠ 4294967295#32) :
    pick rnd g r ≤ g.high.toNat := by
  have hle : g.low.toNat ≤ g.high.toNat := h
  have hw := width_eq h h0
  obtain ⟨q0, _, q1⟩ := ratio_bounds r
  have := pick_below hr (w := width g) (b := g.low.toNat) q0 (q1 hm) (by omega) (by have := g.high.isLt; omega)
  have e : ((g.low.toNat : Rat) + (width g : Rat)) = (((g.high.toNat : Int) + 1 : Int) : Rat) := by
    rw [← Rat.natCast_add, hw, show g.low.toNat + (g.high.toNat - g.low.toNat + 1) = g.high.toNat + 1 from by omega,
      ← Rat.intCast_natCast]
    rfl
  rw [e, ← Rat.floor_lt_iff] at this
  have h2 : pick rnd g r < (g.high.toNat : Int) + 1 := this
  omega

/-- With the greatest random number the port is the one after the range. -/
theorem pick_max {rnd : Rat → Rat} (hr : Rounding rnd) (g : Range) :
    pick rnd g 4294967295#32 = g.low.toNat + width g := by
  have o : rnd 1 = 1 := by have := hr.whole 1 (by omega); simpa using this
  have hl := g.low.isLt
  have hw := width_le g
  unfold pick
  rw [show (((4294967295#32 : U32).toNat : Rat) / 4294967295) = 1 from by
    show ((4294967295 : Nat) : Rat) / 4294967295 = 1
    grind, o, Rat.one_mul, hr.whole _ (by omega), ← Rat.natCast_add, hr.whole _ (by omega), ← Rat.intCast_natCast,
    Rat.floor_intCast]
  rfl

theorem pick_zero {rnd : Rat → Rat} (hr : Rounding rnd) {g : Range} (h : width g = 0) (r : U32) :
    pick rnd g r = g.low.toNat := by
  obtain ⟨q0, q1, _⟩ := ratio_bounds r
  have hl := g.low.isLt
  obtain ⟨_, _, _, _, y0, y1, _⟩ := pick_steps hr (w := width g) (b := g.low.toNat) q0 q1 (width_le g) (by omega)
  have hy : rnd (rnd ((r.toNat : Rat) / 4294967295) * (width g : Rat)) = 0 := by
    rw [h] at y1 y0 ⊢
    exact Rat.le_antisymm y1 y0
  unfold pick
  rw [hy, Rat.add_zero, hr.whole _ (by omega), ← Rat.intCast_natCast, Rat.floor_intCast]

theorem width_full {g : Range} (h0 : g.low = 0#16 ∧ g.high = 65535#16) : width g = 0 := by
  unfold width; rw [h0.1, h0.2]; rfl

/-- The search a configured range leads to. -/
theorem plan_range {rnd : Rat → Rat} (hr : Rounding rnd) {a : Ask} {g : Range} (hc : a.cfg = some g) (h : g.low ≤ g.high)
    (hw : a.asked = 0#16 ∨ a.reflector = true) (hm : a.r ≠ 4294967295#32) :
    ∃ port, plan rnd a = some ⟨port, width g, some g⟩ ∧ Inside g port := by
  have hle : g.low.toNat ≤ g.high.toNat := h
  have hh := g.high.isLt
  have hrand : ¬ (pick rnd g a.r < 0 ∨ pick rnd g a.r > 0xffff) ∧ Inside g (pick rnd g a.r).toNat := by
    have h1 := pick_low hr g a.r
    have h2 : pick rnd g a.r ≤ g.high.toNat := by
      by_cases h0 : g.low = 0#16 ∧ g.high = 65535#16
      · rw [pick_zero hr (width_full h0)]; omega
      · exact pick_high hr h h0 hm
    unfold Inside; omega
  unfold plan
  rw [hc]
  dsimp only
  by_cases hz : a.asked = 0#16
  · rw [if_neg (c := a.reflector = true ∧ a.asked ≠ 0#16 ∧ (a.asked < g.low ∨ a.asked > g.high)) (by rintro ⟨_, h, _⟩; exact h hz), hz]
    rw [if_neg (show ¬ ((0#16 : U16).toNat ≠ 0) from by decide), if_neg hrand.1]
    exact ⟨_, rfl, hrand.2⟩
  · have hrf := hw.resolve_left hz
    by_cases hout : a.asked < g.low ∨ a.asked > g.high
    · rw [if_pos (c := a.reflector = true ∧ a.asked ≠ 0#16 ∧ (a.asked < g.low ∨ a.asked > g.high)) ⟨hrf, hz, hout⟩, if_neg (by simp), if_neg hrand.1]
      exact ⟨_, rfl, hrand.2⟩
    · rw [if_neg (c := a.reflector = true ∧ a.asked ≠ 0#16 ∧ (a.asked < g.low ∨ a.asked > g.high)) (by rintro ⟨_, _, h⟩; exact hout h)]
      have hz' : a.asked.toNat ≠ 0 := fun hc => hz (BitVec.eq_of_toNat_eq hc)
      rw [if_pos hz', if_pos hrf]
      refine ⟨_, rfl, ?_⟩
      have h1 : ¬ a.asked.toNat < g.low.toNat := fun hc => hout (.inl hc)
      have h2 : ¬ g.high.toNat < a.asked.toNat := fun hc => hout (.inr hc)
      unfold Inside; omega

/-- What a search that begins inside its range does. -/
theorem search_inside {g : Range} (h : g.low ≤ g.high) (h0 : ¬ (g.low = 0#16 ∧ g.high = 65535#16))
    (bind : Nat → Nat → Bind) {port fuel : Nat} (hp : Inside g port) (hf : 65535 ≤ fuel) :
    Told bind 0 (search bind ⟨port, width g, some g⟩ fuel 0 port).1 (search bind ⟨port, width g, some g⟩ fuel 0 port).2 ∧
    (∀ p ∈ (search bind ⟨port, width g, some g⟩ fuel 0 port).1, Inside g p) ∧
    (search bind ⟨port, width g, some g⟩ fuel 0 port).1.Nodup ∧
    ((search bind ⟨port, width g, some g⟩ fuel 0 port).2 = .exhausted →
      ∀ p, Inside g p → p ∈ (search bind ⟨port, width g, some g⟩ fuel 0 port).1) := by
  have hle : g.low.toNat ≤ g.high.toNat := h
  have hh := g.high.isLt
  have hw := width_eq h h0
  unfold Inside at hp
  obtain ⟨q0, rfl⟩ : ∃ q0, port = g.low.toNat + q0 := ⟨port - g.low.toNat, by omega⟩
  have hq0 : q0 < width g := by omega
  have hwl : width g ≤ 65535 := by unfold width at *; omega
  have key := search_told h h0 bind hq0 fuel 0 0 (by omega) (by omega)
  rw [Nat.add_zero, Nat.mod_eq_of_lt hq0] at key
  obtain ⟨l, hl, ht, htold, hex⟩ := key
  refine ⟨htold, ?_, ?_, ?_⟩
  · rw [ht]
    intro p hp
    obtain ⟨i, _, rfl⟩ := List.mem_map.1 hp
    have := Nat.mod_lt (q0 + i) (y := width g) (by omega)
    unfold Inside; omega
  · rw [ht, List.Nodup, List.pairwise_map]
    refine List.Pairwise.imp_of_mem ?_ List.pairwise_lt_range
    intro i j hi hj hij hc
    have hi := List.mem_range.1 hi
    have hj := List.mem_range.1 hj
    have hc : (q0 + i) % width g = (q0 + j) % width g := by omega
    have hd : (q0 + j - (q0 + i)) % width g = 0 := Nat.sub_mod_eq_zero_of_mod_eq hc.symm
    rw [Nat.mod_eq_of_lt (by omega)] at hd
    omega
  · intro he p hp
    rw [ht, hex he]
    unfold Inside at hp
    refine List.mem_map.2 ⟨(p - g.low.toNat + width g - q0) % width g, List.mem_range.2 (by rw [Nat.sub_zero]; exact Nat.mod_lt _ (by omega)), ?_⟩
    rw [Nat.add_mod_mod, show q0 + (p - g.low.toNat + width g - q0) = p - g.low.toNat + width g from by omega,
      Nat.add_mod_right, Nat.mod_eq_of_lt (by omega)]
    omega

end Owamp.Ports
