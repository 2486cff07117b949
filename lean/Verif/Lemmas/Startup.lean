import Verif.Spec.Startup
import Verif.Lemmas.Classes
import Verif.Lemmas.Ports
/-!
# Lemmas about what a server is told before it starts
-/
namespace Owamp.Startup
open Owamp.Policy Owamp.Ports Owamp.Spec.Classes Owamp.Spec.Ports Owamp.Spec.Startup

/-! ## Keys -/

theorem sameWord_lower (a b : Bytes) : SameWord a b ↔ a.map lower = b.map lower := by
  rw [← eqNoCase_iff]; unfold eqNoCase; rw [decide_eq_true_eq]

theorem lower_zero (b : Byte) : lower b = 0#8 ↔ b = 0#8 := by
  have : ∀ b : Byte, lower b = 0#8 ↔ b = 0#8 := by decide +kernel
  exact this b

theorem sameUpTo_lower (n : Nat) (a b : Bytes) : sameUpTo n a b = (((a.map lower ++ [0#8]).take n) == ((b.map lower ++ [0#8]).take n)) := by
  unfold sameUpTo
  rw [List.map_take, List.map_take, List.map_append, List.map_append]
  rfl

theorem isKey_iff (k : Bytes) (name : List Char) (hk : 0#8 ∉ k) : isKey k name = true ↔ SameWord k (text name) := by
  rw [sameWord_lower]
  unfold isKey
  rw [sameUpTo_lower, beq_iff_eq]
  have hl : ((text name).map lower).length = name.length := by simp [text]
  have h0 : 0#8 ∉ k.map lower := by
    intro h
    obtain ⟨b, h1, h2⟩ := List.mem_map.1 h
    exact hk ((lower_zero b).1 h2 ▸ h1)
  generalize k.map lower = l at h0
  generalize (text name).map lower = t at hl
  rw [← hl, List.take_of_length_le (l := t ++ [0#8]) (by simp)]
  constructor
  · intro e
    by_cases hle : l.length ≤ t.length
    · rw [List.take_of_length_le (by simp; omega)] at e
      exact List.append_cancel_right e
    · rw [List.take_append_of_le_length (by omega)] at e
      exact absurd (List.mem_of_mem_take (show 0#8 ∈ l.take (t.length + 1) by rw [e]; simp)) h0
  · rintro rfl
    rw [List.take_of_length_le (by simp)]

theorem isKeyPrefix_iff (k : Bytes) (name : List Char) (hn : 0#8 ∉ text name) : isKeyPrefix k name = true ↔ SameWord (k.take name.length) (text name) := by
  rw [sameWord_lower]
  unfold isKeyPrefix
  rw [sameUpTo_lower, beq_iff_eq, List.map_take]
  have hl : ((text name).map lower).length = name.length := by simp [text]
  have h0 : 0#8 ∉ (text name).map lower := by
    intro h
    obtain ⟨b, h1, h2⟩ := List.mem_map.1 h
    exact hn ((lower_zero b).1 h2 ▸ h1)
  generalize k.map lower = l
  generalize (text name).map lower = t at hl h0
  rw [← hl, List.take_append_of_le_length (l₁ := t) (Nat.le_refl _), List.take_length]
  constructor
  · intro e
    by_cases hle : t.length ≤ l.length
    · rw [List.take_append_of_le_length hle] at e; exact e
    · exact absurd (by rw [← e, List.take_append, List.mem_append]; right; rw [List.take_of_length_le (by simp; omega)]; simp) h0
  · intro e
    have : t.length ≤ l.length := by rw [← e, List.length_take]; omega
    rw [List.take_append_of_le_length this, e]

/-- The names of the keys. -/
def Key.name : Key → List Char
  | .facility => ['f','a','c','i','l','i','t','y']
  | .loglevel => ['l','o','g','l','e','v','e','l']
  | .loglocation => ['l','o','g','l','o','c','a','t','i','o','n']
  | .rootfolly => ['r','o','o','t','f','o','l','l','y']
  | .datadir => ['d','a','t','a','d','i','r']
  | .user => ['u','s','e','r']
  | .group => ['g','r','o','u','p']
  | .verbose => ['v','e','r','b','o','s','e']
  | .authmode => ['a','u','t','h','m','o','d','e']
  | .srcnode => ['s','r','c','n','o','d','e']
  | .testports => ['t','e','s','t','p','o','r','t','s']
  | .vardir => ['v','a','r','d','i','r']
  | .diskfudge => ['d','i','s','k','f','u','d','g','e']
  | .dieby => ['d','i','e','b','y']
  | .controltimeout => ['c','o','n','t','r','o','l','t','i','m','e','o','u','t']
  | .pbkdf2 => ['p','b','k','d','f','2','_','c','o','u','n','t']
  | .enddelay => ['e','n','d','d','e','l','a','y']
  | .maxcontrolsessions => ['m','a','x','c','o','n','t','r','o','l','s','e','s','s','i','o','n','s']
  | .testtimeout => ['t','e','s','t','t','i','m','e','o','u','t']

/-- Which server has the key. -/
def Key.has (twoway : Bool) : Key → Bool
  | .diskfudge => !twoway
  | .testtimeout => twoway
  | _ => true

/-- The two keys that are only compared with the beginning. -/
def Key.loose : Key → Bool
  | .maxcontrolsessions => true
  | .testtimeout => true
  | _ => false

theorem keyOf_name (twoway : Bool) (x : Key) (h : x.has twoway = true) (k : Bytes) (hk : SameWord k (text x.name)) : keyOf twoway k = some x := by
  rw [sameWord_lower] at hk
  unfold keyOf isKey isKeyPrefix
  simp only [sameUpTo_lower, hk]
  cases x <;> cases twoway <;> first | rfl | exact absurd h (by decide)

theorem keyOf_some (twoway : Bool) (x : Key) (k : Bytes) (h0 : 0#8 ∉ k) (h : keyOf twoway k = some x) :
    x.has twoway = true ∧ (if x.loose then SameWord (k.take x.name.length) (text x.name) else SameWord k (text x.name)) := by
  unfold keyOf at h
  have step : ∀ (c : Prop) [Decidable c] (y : Key) (rest : Option Key) (P : Prop), (if c then some y else rest) = some x → (c → y = x → P) → (rest = some x → P) → P := by
    intro c _ y rest P e h1 h2
    by_cases hh : c
    · rw [if_pos hh] at e; cases e; exact h1 hh rfl
    · rw [if_neg hh] at e; exact h2 e
  revert h
  iterate 12 refine fun h => step _ _ _ _ h (fun hh e => by subst e; exact ⟨rfl, (isKey_iff k _ h0).1 hh⟩) ?_
  refine fun h => step _ _ _ _ h (fun hh e => by subst e; exact ⟨by show (!twoway) = true; rw [hh.1]; rfl, (isKey_iff k _ h0).1 hh.2⟩) ?_
  iterate 4 refine fun h => step _ _ _ _ h (fun hh e => by subst e; exact ⟨rfl, (isKey_iff k _ h0).1 hh⟩) ?_
  refine fun h => step _ _ _ _ h (fun hh e => by subst e; exact ⟨rfl, (isKeyPrefix_iff k _ (by decide)).1 hh⟩) ?_
  refine fun h => step _ _ _ _ h (fun hh e => by subst e; exact ⟨hh.1, (isKeyPrefix_iff k _ (by decide)).1 hh.2⟩) ?_
  nofun

theorem keyOf_iff (twoway : Bool) (x : Key) (k : Bytes) (h0 : 0#8 ∉ k) (hw : x.loose = true → SameWord (k.take x.name.length) (text x.name) → k.length = x.name.length) :
    keyOf twoway k = some x ↔ x.has twoway = true ∧ SameWord k (text x.name) := by
  constructor
  · intro h
    obtain ⟨h1, h2⟩ := keyOf_some twoway x k h0 h
    refine ⟨h1, ?_⟩
    split at h2
    · rename_i hl
      have := hw hl h2
      rwa [← this, List.take_length] at h2
    · exact h2
  · exact fun h => keyOf_name twoway x h.1 k h.2

theorem whole_loose {twoway : Bool} {lines : List (Bytes × Bytes)} (hw : Whole twoway lines) {l : Bytes × Bytes} (hl : l ∈ lines) (x : Key) (hx : x.has twoway = true) (h : x.loose = true) :
    SameWord (l.1.take x.name.length) (text x.name) → l.1.length = x.name.length := by
  cases x <;> first | exact absurd h (by decide) | skip
  · exact (hw l hl).1
  · exact (hw l hl).2 hx

theorem levelByName_iff (v : Bytes) (h0 : 0#8 ∉ v) (x : Level) : levelByName v = some x ↔ ∃ n ∈ levels, SameWord v (text n.1) ∧ x = n.2 := by
  constructor
  · intro h
    unfold levelByName at h
    have step : ∀ (name : List Char) (y : Level) (rest : Option Level) (P : Prop), (if isKey v name = true then some y else rest) = some x → (SameWord v (text name) → x = y → P) → (rest = some x → P) → P := by
      intro name y rest P e h1 h2
      by_cases hh : isKey v name = true
      · rw [if_pos hh] at e; cases e; exact h1 ((isKey_iff v _ h0).1 hh) rfl
      · rw [if_neg hh] at e; exact h2 e
    revert h
    iterate 6 refine fun h => step _ _ _ _ h (fun hh e => ⟨(_, _), by simp only [levels, List.mem_cons, true_or, or_true]; done, hh, e⟩) ?_
    nofun
  · rintro ⟨n, hn, hw, rfl⟩
    rw [sameWord_lower] at hw
    unfold levelByName isKey
    simp only [sameUpTo_lower, hw]
    simp only [levels, List.mem_cons, List.not_mem_nil, or_false] at hn
    rcases hn with rfl | rfl | rfl | rfl | rfl | rfl <;> rfl

/-! ## Numbers -/

theorem number_strtol (s : Bytes) : number s = (strtol s).bind fun q => if 2 ^ 64 ≤ q.1.natAbs then none else some (BitVec.ofInt 32 q.1) := by
  unfold number strtol
  obtain ⟨m, t, e⟩ : ∃ m t, sign (s.dropWhile isSpace) = (m, t) := ⟨_, _, rfl⟩
  rw [e]
  dsimp only
  split
  · rfl
  · have hu : Dscp.ulongMax = 2 ^ 64 - 1 := rfl
    rw [Option.bind_some]
    dsimp only
    generalize digitsValue (t.takeWhile isDigit) = n
    cases m
    · simp only [Bool.false_eq_true, if_false, Int.natAbs_natCast]
      by_cases h : 2 ^ 64 ≤ n
      · rw [if_pos h, if_pos (by omega)]
      · rw [if_neg h, if_neg (by omega)]; simp
    · simp only [if_true, Int.natAbs_neg, Int.natAbs_natCast]
      by_cases h : 2 ^ 64 ≤ n
      · rw [if_pos h, if_pos (by omega)]
      · rw [if_neg h, if_neg (by omega)]
        congr 1
        apply BitVec.eq_of_toNat_eq
        rw [BitVec.toNat_ofNat, BitVec.toNat_ofInt, hu, Nat.sub_add_cancel (by decide)]
        have : (0 : Int) ≤ -(n : Int) % ((2 ^ 32 : Nat) : Int) := Int.emod_nonneg _ (by decide)
        omega

theorem number_iff (s : Bytes) (n : U32) : number s = some n ↔ ∃ i, Begins s i ∧ n = BitVec.ofInt 32 i := by
  rw [number_strtol]
  constructor
  · intro h
    obtain ⟨⟨i, rest⟩, h1, h2⟩ := Option.bind_eq_some_iff.1 h
    dsimp only at h2
    split at h2
    · cases h2
    · cases h2
      obtain ⟨m, h3, h4, h5⟩ := (strtol_iff s i rest).1 h1
      exact ⟨i, ⟨m, rest, h3, h4, h5, by omega⟩, rfl⟩
  · rintro ⟨i, ⟨m, rest, h3, h4, h5, h6⟩, rfl⟩
    rw [(strtol_iff s i rest).2 ⟨m, h3, h4, h5⟩, Option.bind_some, if_neg (by dsimp only; omega)]

theorem parse_isRange (s : Bytes) (g : Range) : parse true s = some g ↔ IsRange s g.low.toNat g.high.toNat := by
  rw [parse_iff]
  unfold IsRange
  have h1 := g.low.isLt
  have h2 := g.high.isLt
  constructor
  · rintro (⟨a, b, _⟩ | ⟨tail, a, b⟩)
    · exact ⟨h1, h2, .inl ⟨a, by rw [b]⟩⟩
    · exact ⟨h1, h2, .inr ⟨tail, a, b⟩⟩
  · rintro ⟨_, _, ⟨a, b⟩ | ⟨tail, a, b⟩⟩
    · exact .inl ⟨a, BitVec.eq_of_toNat_eq b, fun _ => rfl⟩
    · exact .inr ⟨tail, a, b⟩

theorem parse_of_isRange {s : Bytes} {lo hi : Nat} (h : IsRange s lo hi) : parse true s = some ⟨BitVec.ofNat 16 lo, BitVec.ofNat 16 hi⟩ := by
  rw [parse_isRange]
  have h1 := h.1
  have h2 := h.2.1
  simp only [BitVec.toNat_ofNat]
  rw [Nat.mod_eq_of_lt h1, Nat.mod_eq_of_lt h2]
  exact h

/-! ## One setting among many -/

theorem valuesOf_nil (name : List Char) : valuesOf name [] = [] := rfl

theorem valuesOf_cons (name : List Char) (l : Bytes × Bytes) (r : List (Bytes × Bytes)) :
    valuesOf name (l :: r) = (if SameWord l.1 (text name) then [l.2] else []) ++ valuesOf name r := by
  unfold valuesOf
  rw [List.filter_cons]
  by_cases h : SameWord l.1 (text name)
  · rw [if_pos (decide_eq_true h), if_pos h]; rfl
  · rw [if_neg (by simpa using h), if_neg h]; rfl

theorem getLast?_append_or {α : Type} (a b : List α) : (a ++ b).getLast? = b.getLast?.or a.getLast? := by
  rw [List.getLast?_append]

/-- A field is what the last line with its key says. -/
theorem settings_field {α : Type} (E : Env) (twoway : Bool) (get : Opts → α) (R : Bytes → α → Prop) (x : Key)
    (h1 : ∀ o v o', assign E o v x = some o' → R v (get o')) (h2 : ∀ o v y o', y ≠ x → assign E o v y = some o' → get o' = get o)
    (lines : List (Bytes × Bytes)) (hs : Strings lines) (hx : x.has twoway = true) (hw : x.loose = true → Whole twoway lines) :
    ∀ o o', settings E twoway o lines = some o' →
      (∀ v, (valuesOf x.name lines).getLast? = some v → R v (get o')) ∧ ((valuesOf x.name lines).getLast? = none → get o' = get o) := by
  induction lines with
  | nil => intro o o' h; cases h; exact ⟨nofun, fun _ => rfl⟩
  | cons l r ih =>
    obtain ⟨k, v⟩ := l
    intro o o' h
    rw [settings] at h
    obtain ⟨o1, e1, e2⟩ := Option.bind_eq_some_iff.1 h
    unfold setting at e1
    obtain ⟨y, e3, e4⟩ := Option.bind_eq_some_iff.1 e1
    obtain ⟨i1, i2⟩ := ih (fun l hl => hs l (by simp [hl])) (fun e l hl => hw e l (by simp [hl])) o1 o' e2
    have key := keyOf_iff twoway x k (hs (k, v) (by simp)).1 (fun e => whole_loose (hw e) (l := (k, v)) (by simp) x hx e)
    rw [valuesOf_cons, getLast?_append_or]
    dsimp only
    cases hl : (valuesOf x.name r).getLast? with
    | some w =>
      rw [Option.some_or]
      refine ⟨fun u hu => ?_, nofun⟩
      cases hu
      exact i1 _ hl
    | none =>
      rw [Option.none_or]
      rw [i2 hl]
      by_cases hk : SameWord k (text x.name)
      · rw [if_pos hk]
        have : y = x := by
          have := key.2 ⟨hx, hk⟩
          rw [e3] at this; cases this; rfl
        subst this
        refine ⟨fun u hu => ?_, nofun⟩
        cases hu
        exact h1 _ _ _ e4
      · rw [if_neg hk]
        refine ⟨nofun, fun _ => h2 _ _ y _ (fun e => ?_) e4⟩
        subst e
        exact hk (key.1 e3).2

/-- A field is what the last option for it says. -/
theorem options_field {α : Type} (get : Opts → α) (R : Bytes → α → Prop) (sel : Arg → Option Bytes)
    (h1 : ∀ o a v o', sel a = some v → option o a = some o' → R v (get o')) (h2 : ∀ o a o', sel a = none → option o a = some o' → get o' = get o) (args : List Arg) :
    ∀ o o', options o args = some o' →
      (∀ v, (given sel args).getLast? = some v → R v (get o')) ∧ ((given sel args).getLast? = none → get o' = get o) := by
  induction args with
  | nil => intro o o' h; cases h; exact ⟨nofun, fun _ => rfl⟩
  | cons a r ih =>
    intro o o' h
    rw [options] at h
    obtain ⟨o1, e1, e2⟩ := Option.bind_eq_some_iff.1 h
    obtain ⟨i1, i2⟩ := ih o1 o' e2
    have hg : given sel (a :: r) = (sel a).toList ++ given sel r := by
      unfold given
      rw [List.filterMap_cons]
      cases sel a <;> rfl
    rw [hg, getLast?_append_or]
    cases hl : (given sel r).getLast? with
    | some w =>
      rw [Option.some_or]
      refine ⟨fun u hu => ?_, nofun⟩
      cases hu
      exact i1 _ hl
    | none =>
      rw [Option.none_or, i2 hl]
      cases hs : sel a with
      | some w =>
        refine ⟨fun u hu => ?_, nofun⟩
        cases hu
        exact h1 _ _ _ _ hs e1
      | none => exact ⟨nofun, fun _ => h2 _ _ _ hs e1⟩

theorem logging_field (E : Env) (args : List Arg) : ∀ o o', logging E args o = some o' →
    ((∀ v, (given optE args).getLast? = some v → E.facility v = some o'.facility) ∧ ((given optE args).getLast? = none → o'.facility = o.facility)) ∧
    o' = { o with facility := o'.facility, daemon := o'.daemon } ∧ (o'.daemon = false ↔ o.daemon = false ∨ .Z ∈ args) := by
  induction args with
  | nil => intro o o' h; cases h; exact ⟨⟨nofun, fun _ => rfl⟩, rfl, by simp⟩
  | cons a r ih =>
    intro o o' h
    have skip : optE a = none → a ≠ .Z → logging E r o = some o' →
        ((∀ v, (given optE (a :: r)).getLast? = some v → E.facility v = some o'.facility) ∧ ((given optE (a :: r)).getLast? = none → o'.facility = o.facility)) ∧
        o' = { o with facility := o'.facility, daemon := o'.daemon } ∧ (o'.daemon = false ↔ o.daemon = false ∨ .Z ∈ a :: r) := fun e1 e2 e3 => by
      obtain ⟨i1, i2, i3⟩ := ih o o' e3
      have hg : given optE (a :: r) = given optE r := by unfold given; rw [List.filterMap_cons, e1]
      rw [hg]
      refine ⟨i1, i2, ?_⟩
      rw [i3, List.mem_cons]
      simp [Ne.symm e2]
    cases a with
    | e v =>
      rw [logging] at h
      obtain ⟨n, e1, e2⟩ := Option.bind_eq_some_iff.1 h
      obtain ⟨⟨i1, i1'⟩, i2, i3⟩ := ih _ o' e2
      refine ⟨?_, i2, by rw [i3]; simp⟩
      have hg : given optE (.e v :: r) = [v] ++ given optE r := rfl
      rw [hg, getLast?_append_or]
      cases hl : (given optE r).getLast? with
      | some w =>
        rw [Option.some_or]
        refine ⟨fun u hu => ?_, nofun⟩
        cases hu
        exact i1 _ hl
      | none =>
        rw [Option.none_or]
        refine ⟨fun u hu => ?_, nofun⟩
        cases hu
        rw [i1' hl]; exact e1
    | Z =>
      rw [logging] at h
      obtain ⟨i1, i2, i3⟩ := ih _ o' h
      exact ⟨i1, i2, by rw [i3]; simp⟩
    | a v => exact skip rfl (fun e => by cases e) h
    | c v => exact skip rfl (fun e => by cases e) h
    | d v => exact skip rfl (fun e => by cases e) h
    | f => exact skip rfl (fun e => by cases e) h
    | G v => exact skip rfl (fun e => by cases e) h
    | P v => exact skip rfl (fun e => by cases e) h
    | R v => exact skip rfl (fun e => by cases e) h
    | S v => exact skip rfl (fun e => by cases e) h
    | U v => exact skip rfl (fun e => by cases e) h
    | v => exact skip rfl (fun e => by cases e) h
    | unknown => exact skip rfl (fun e => by cases e) h

end Owamp.Startup
