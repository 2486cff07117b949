import Verif.Lemmas.Ports
/-!
# C54: port ranges are read as documented, and ports chosen inside them
-/
namespace Owamp.Props
open Owamp.Ports Owamp.Policy Owamp.Spec.Ports

/-! ## Reading a range -/

/-- Exactly these texts are taken for a range by `OWPParsePortRange` (`zeroAlone = false`) and by the option `testports` of
owampd (`zeroAlone = true`): one port, which is not 0 in the first case, or two ports in order, with any text after them. -/
theorem C54_parse (zeroAlone : Bool) (s : Bytes) (g : Range) :
    parse zeroAlone s = some g ↔
      (Single s g.low.toNat ∧ g.high = g.low ∧ (g.low = 0#16 → zeroAlone = true)) ∨
      ∃ tail, Pair s g.low.toNat g.high.toNat tail ∧ g.low ≤ g.high :=
  parse_iff zeroAlone s g

/-- Every documented text other than a single 0 is accepted with the ports it names; and an accepted text is a documented
one, perhaps followed by something else. Missing for the full property: "0" is refused (`C54_zero_refused`), and text after
a range is not noticed (`C54_tail_ignored`). -/
theorem C54_documented_partial (s : Bytes) :
    (∀ g : Range, Documented s g.low.toNat g.high.toNat → g.high ≠ 0#16 → parse false s = some g ∧ parse true s = some g) ∧
    (∀ (z : Bool) (g : Range), parse z s = some g →
      ∃ n tail, s = n ++ tail ∧ Documented n g.low.toNat g.high.toNat ∧ (tail = [] ∨ Pair n g.low.toNat g.high.toNat [])) := by
  constructor
  · rintro g ⟨hd, hlo, hle, hhi⟩ hne
    have hle' : g.low ≤ g.high := by show g.low.toNat ≤ g.high.toNat; omega
    have key : ∀ z, parse z s = some g := by
      intro z
      refine (parse_iff z s g).2 ?_
      rcases hd with ⟨h1, h2⟩ | h1
      · have : g.high = g.low := BitVec.eq_of_toNat_eq (by omega)
        exact .inl ⟨h1, this, fun h => absurd (this.trans h) hne⟩
      · exact .inr ⟨[], h1, hle'⟩
    exact ⟨key false, key true⟩
  · intro z g h
    have hh := g.high.isLt
    rcases (parse_iff z s g).1 h with ⟨h1, h2, _⟩ | ⟨tail, ⟨n, blanks, m, rfl, hn, hbl, hm, hnd⟩, hle⟩
    · refine ⟨s, [], by simp, ⟨.inl ⟨h1, by rw [h2]⟩, by omega, by rw [h2]; omega, by omega⟩, .inl rfl⟩
    · have hle : g.low.toNat ≤ g.high.toNat := hle
      have hp : Pair (n ++ blanks ++ text ['-'] ++ m) g.low.toNat g.high.toNat [] :=
        ⟨n, blanks, m, by simp, hn, hbl, hm, by intro b r h; cases h⟩
      exact ⟨n ++ blanks ++ text ['-'] ++ m, tail, rfl, ⟨.inr hp, by omega, by omega, by omega⟩, .inr hp⟩

/-- Ports as one writes them come back. -/
theorem C54_written (z : Bool) (lo hi : U16) (h : lo ≤ hi) :
    parse z (decimal lo.toNat ++ text ['-'] ++ decimal hi.toNat) = some ⟨lo, hi⟩ ∧
    (lo ≠ 0#16 → parse z (decimal lo.toNat) = some ⟨lo, lo⟩) := by
  constructor
  · refine (parse_iff _ _ _).2 (.inr ⟨[], ⟨decimal lo.toNat, [], decimal hi.toNat, by simp, decimal_numeral _, by simp,
      decimal_numeral _, by intro b r h; cases h⟩, h⟩)
  · intro hne
    exact (parse_iff _ _ _).2 (.inl ⟨⟨decimal lo.toNat, [], by simp, decimal_numeral _, by simp⟩, rfl, fun h => absurd h hne⟩)

example : parse false (text [' ', '8', '7', '6', '0', ' ', '-', ' ', '+', '9', '9', '6', '0']) = some ⟨8760#16, 9960#16⟩ := by
  decide +kernel
example : parse false (text ['9', '-', '8']) = none := by decide +kernel
example : parse false (text ['6', '5', '5', '3', '6']) = none := by decide +kernel
example : decimal 8760 = text ['8', '7', '6', '0'] := by
  rw [decimal, decimal, decimal, decimal]; decide

/-- The text "0", which the comment before `OWPParsePortRange` names first, is refused by it. The tools compare their
argument with "0" before they call it, and so " 0" and "00" are refused by them too; owampd takes each of them. -/
theorem C54_zero_refused :
    Documented (text ['0']) 0 0 ∧ parse false (text ['0']) = none ∧ parse true (text ['0']) = some ⟨0#16, 0#16⟩ ∧
    toolRange (text ['0']) = some ⟨0#16, 0#16⟩ ∧ toolRange (text ['0', '0']) = none ∧ streamRange (text [' ', '0']) = none := by
  refine ⟨⟨.inl ⟨⟨text ['0'], [], rfl, ⟨[], [], text ['0'], rfl, by simp, ?_, by decide, .inl ⟨.inl rfl, rfl⟩⟩, by simp⟩, rfl⟩,
    by omega, by omega, by omega⟩, by decide +kernel, by decide +kernel, by decide +kernel, by decide +kernel, by decide +kernel⟩
  intro d hd
  have : d = 48#8 := by simpa [text] using hd
  rw [this]; unfold Digit; decide

/-- The daemon and owping use every documented range that does not end at port 0 as it is written, and powstream does so exactly when it has two ports or
more. -/
theorem C54_tools_take (s : Bytes) (g : Range) (h : Documented s g.low.toNat g.high.toNat) (hne : g.high ≠ 0#16) :
    daemonRange s = some (some g) ∧ toolRange s = some g ∧ (streamRange s = some g ↔ g.low.toNat + 1 ≤ g.high.toNat) ∧
    (streamRange s = none ↔ g.low = g.high) := by
  obtain ⟨h1, h2⟩ := (C54_documented_partial s).1 g h hne
  have hle := h.2.2.1
  have hs : s ≠ text ['0'] := by
    rintro rfl
    rw [show parse false (text ['0']) = none by decide +kernel] at h1
    cases h1
  refine ⟨?_, ?_, ?_⟩
  · unfold daemonRange
    rw [h2]
    exact congrArg some (if_neg fun hz => hne hz.1)
  · unfold toolRange
    rw [if_neg hs, h1]
  · unfold streamRange
    rw [if_neg hs, h1]
    dsimp only
    have hh : g.high.toNat ≠ 0 := fun hz => hne (BitVec.eq_of_toNat_eq hz)
    by_cases he : g.low = g.high
    · have e : g.low.toNat = g.high.toNat := congrArg _ he
      rw [if_pos ⟨hne, he ▸ hne, by omega⟩]
      exact ⟨⟨fun hc => (by cases hc), fun hc => by omega⟩, ⟨fun _ => he, fun _ => rfl⟩⟩
    · have e : g.low.toNat ≠ g.high.toNat := fun hc => he (BitVec.eq_of_toNat_eq hc)
      rw [if_neg (by rintro ⟨_, _, hc⟩; omega)]
      exact ⟨⟨fun _ => by omega, fun _ => rfl⟩, ⟨fun hc => (by cases hc), fun hc => (he hc).elim⟩⟩

example : Documented (text ['0', '-', '9']) 0 9 ∧ daemonRange (text ['0', '-', '9']) = some (some ⟨0#16, 9#16⟩) ∧
    streamRange (text ['8', '-', '9']) = some ⟨8#16, 9#16⟩ ∧ streamRange (text ['9', '-', '9']) = none := by
  refine ⟨⟨.inr ?_, by omega, by omega, by omega⟩, by decide +kernel, by decide +kernel, by decide +kernel⟩
  exact ⟨decimal 0, [], decimal 9, by decide +kernel, decimal_numeral _, by simp, decimal_numeral _, by intro b r h; cases h⟩

/-- Text after a range is not noticed: "80-90,100" is the range 80-90. -/
theorem C54_tail_ignored :
    parse false (text ['8', '0', '-', '9', '0', ',', '1', '0', '0']) = some ⟨80#16, 90#16⟩ ∧
    parse true (text ['8', '0', '-', '9', '0', ',', '1', '0', '0']) = some ⟨80#16, 90#16⟩ := by
  decide +kernel

/-- powstream refuses a range of one port other than 0, and takes no range with fewer than two ports unless an end of it
is 0. -/
theorem C54_stream_two_ports (s : Bytes) (g : Range) :
    streamRange s = some g → (g.low.toNat < g.high.toNat ∨ (g.low = 0#16 ∧ g.high = 0#16)) := by
  intro h
  unfold streamRange at h
  split at h
  · simp only [Option.some.injEq] at h; subst h; exact .inr ⟨rfl, rfl⟩
  · split at h
    · cases h
    · rename_i g' hg
      split at h
      · cases h
      · rename_i hn
        simp only [Option.some.injEq] at h
        subst h
        have hle : g'.low ≤ g'.high := by
          rcases (parse_iff _ _ _).1 hg with ⟨_, h2, _⟩ | ⟨_, _, h2⟩
          · rw [h2]; exact BitVec.le_refl _
          · exact h2
        have hle : g'.low.toNat ≤ g'.high.toNat := hle
        by_cases h1 : g'.low = 0#16
        · by_cases h2 : g'.high = 0#16
          · exact .inr ⟨h1, h2⟩
          · have : g'.high.toNat ≠ 0 := fun hc => h2 (BitVec.eq_of_toNat_eq hc)
            left; rw [h1]; show 0 < _; omega
        · by_cases h2 : g'.high = 0#16
          · have : g'.low.toNat ≠ 0 := fun hc => h1 (BitVec.eq_of_toNat_eq hc)
            rw [h2] at hle; have : (0#16 : U16).toNat = 0 := rfl; omega
          · left
            by_cases hlt : g'.low.toNat < g'.high.toNat
            · exact hlt
            · exact absurd ⟨h2, h1, by omega⟩ hn

example : streamRange (text ['8', '0', '-', '9', '0']) = some ⟨80#16, 90#16⟩ := by decide +kernel
example : streamRange (text ['8', '0']) = none := by decide +kernel

/-! ## Choosing a port -/

/-- Rounding that does nothing; real rounding to doubles is another case. -/
theorem rounding_id : Rounding id :=
  ⟨fun _ _ _ h _ => h, fun _ _ => rfl, fun x h _ => by show x ≤ _; grind⟩

/-- When a range is configured, and the endpoint's address has no port or this is the server of a two-way session, every
port tried lies in the range, for every answer of `bind` and every random number but one. Missing for the full property:
the greatest random number (`C54_beyond_range`). -/
theorem C54_inside_partial {rnd : Rat → Rat} (hr : Rounding rnd) (bind : Nat → Nat → Bind) (a : Ask) (g : Range) (fuel : Nat)
    (hc : a.cfg = some g) (h : g.low ≤ g.high) (hw : a.asked = 0#16 ∨ a.reflector = true) (hm : a.r ≠ 4294967295#32)
    (hf : 65535 ≤ fuel) :
    (∀ p ∈ (choose rnd bind a fuel).1, Inside g p) ∧
    ∀ p, (choose rnd bind a fuel).2 = .bound p → Inside g p ∧ ∃ k, bind k p = .ok := by
  obtain ⟨port, hp, hin⟩ := plan_range hr hc h hw hm
  unfold choose
  rw [hp]
  dsimp only
  rw [if_neg (BitVec.not_lt.2 h)]
  by_cases h0 : g.low = 0#16 ∧ g.high = 65535#16
  · rw [width_full h0]
    obtain ⟨fuel, rfl⟩ : ∃ n, fuel = n + 1 := ⟨fuel - 1, by omega⟩
    rw [search]
    cases hb : bind 0 port with
    | ok =>
      refine ⟨fun p hp => ?_, fun p hp => ?_⟩
      · rw [List.mem_singleton.1 hp]; exact hin
      · injection hp with hp; rw [← hp]; exact ⟨hin, 0, hb⟩
    | inUse =>
      refine ⟨fun p hp => ?_, fun p hp => by cases hp⟩
      rw [List.mem_singleton.1 hp]; exact hin
    | other =>
      refine ⟨fun p hp => ?_, fun p hp => by cases hp⟩
      rw [List.mem_singleton.1 hp]; exact hin
  · obtain ⟨ht, hins, _, _⟩ := search_inside h h0 bind hin hf
    refine ⟨hins, fun p hp => ?_⟩
    obtain ⟨hst, _, hlast⟩ := ht
    have hl := hlast _ (List.getLast?_eq_some_getLast hst)
    rw [hp] at hl
    exact ⟨hl.1 ▸ hins _ (List.getLast_mem hst), _, hl.1 ▸ hl.2⟩

/-- With the same assumptions, and a range other than 0-65535: the search ends; no port is tried twice; ports are given up
only because they are in use; the end tells the answer for the last port; and the range is called exhausted only if every
port of it was tried and in use. Missing: the greatest random number (`C54_never_ends`) and the range 0-65535
(`C54_full_range`). -/
theorem C54_search_partial {rnd : Rat → Rat} (hr : Rounding rnd) (bind : Nat → Nat → Bind) (a : Ask) (g : Range) (fuel : Nat)
    (hc : a.cfg = some g) (h : g.low ≤ g.high) (h0 : ¬ (g.low = 0#16 ∧ g.high = 65535#16))
    (hw : a.asked = 0#16 ∨ a.reflector = true) (hm : a.r ≠ 4294967295#32) (hf : 65535 ≤ fuel) :
    Told bind 0 (choose rnd bind a fuel).1 (choose rnd bind a fuel).2 ∧
    (choose rnd bind a fuel).1.Nodup ∧
    ((choose rnd bind a fuel).2 = .exhausted → ∀ p, Inside g p → p ∈ (choose rnd bind a fuel).1 ∧ ∃ k, bind k p = .inUse) := by
  obtain ⟨port, hp, hin⟩ := plan_range hr hc h hw hm
  unfold choose
  rw [hp]
  dsimp only
  rw [if_neg (BitVec.not_lt.2 h)]
  obtain ⟨ht, _, hnd, hall⟩ := search_inside h h0 bind hin hf
  refine ⟨ht, hnd, fun he p hp => ⟨hall he p hp, ?_⟩⟩
  obtain ⟨i, hi, hget⟩ := List.mem_iff_getElem.1 (hall he p hp)
  by_cases hlast : i + 1 < (search bind ⟨port, width g, some g⟩ fuel 0 port).1.length
  · exact ⟨_, ht.before i p (by rw [List.getElem?_eq_getElem hi, hget]) hlast⟩
  · obtain ⟨hst, _, hend⟩ := ht
    have hl := hend _ (List.getLast?_eq_some_getLast hst)
    rw [he] at hl
    have : (search bind ⟨port, width g, some g⟩ fuel 0 port).1.getLast hst = p := by
      rw [List.getLast_eq_getElem, ← hget]
      congr 1
      omega
    exact ⟨_, this ▸ hl⟩

/-- The server of a two-way session without configured range looks for a port between the one asked for and 65535, and
tries the one asked for first. -/
theorem C54_reflector_open (rnd : Rat → Rat) (bind : Nat → Nat → Bind) (a : Ask) (fuel : Nat)
    (hc : a.cfg = none) (hw : a.reflector = true) (hne : a.asked ≠ 0#16) (hf : 65535 ≤ fuel) :
    Told bind 0 (choose rnd bind a fuel).1 (choose rnd bind a fuel).2 ∧
    (choose rnd bind a fuel).1.head? = some a.asked.toNat ∧
    (choose rnd bind a fuel).1.Nodup ∧
    (∀ p ∈ (choose rnd bind a fuel).1, a.asked.toNat ≤ p ∧ p ≤ 65535) ∧
    ((choose rnd bind a fuel).2 = .exhausted → ∀ p, a.asked.toNat ≤ p → p ≤ 65535 → p ∈ (choose rnd bind a fuel).1) := by
  have hz : a.asked.toNat ≠ 0 := fun hc => hne (BitVec.eq_of_toNat_eq hc)
  have hlt := a.asked.isLt
  have hg : BitVec.ofNat 16 a.asked.toNat = a.asked := by simp
  have hle : (⟨a.asked, 65535#16⟩ : Range).low ≤ (⟨a.asked, 65535#16⟩ : Range).high := by
    show a.asked.toNat ≤ 65535; omega
  have hp : plan rnd a = some ⟨a.asked.toNat, width ⟨a.asked, 65535#16⟩, some ⟨a.asked, 65535#16⟩⟩ := by
    unfold plan
    rw [hc]
    dsimp only
    rw [if_pos hz, if_pos hw, hg]
    rfl
  have hin : Inside ⟨a.asked, 65535#16⟩ a.asked.toNat := ⟨Nat.le_refl _, by show a.asked.toNat ≤ 65535; omega⟩
  unfold choose
  rw [hp]
  dsimp only
  rw [if_neg (BitVec.not_lt.2 hle)]
  obtain ⟨ht, hins, hnd, hall⟩ := search_inside hle (by rintro ⟨h, _⟩; exact hne h) bind hin hf
  refine ⟨ht, ?_, hnd, fun p hp => hins p hp, fun he p h1 h2 => hall he p ⟨h1, h2⟩⟩
  obtain ⟨fuel, rfl⟩ : ∃ n, fuel = n + 1 := ⟨fuel - 1, by omega⟩
  rw [search]
  cases bind 0 a.asked.toNat with
  | ok => rfl
  | other => rfl
  | inUse =>
    dsimp only
    split
    · rfl
    · split <;> rfl

/-- A port in the address of an endpoint that is not the server of a two-way session is the only one tried, whether or not
it lies in the configured range. -/
theorem C54_asked (rnd : Rat → Rat) (bind : Nat → Nat → Bind) (a : Ask) (fuel : Nat)
    (hc : ∀ g, a.cfg = some g → g.low ≤ g.high) (hw : a.reflector = false) (hne : a.asked ≠ 0#16) :
    (choose rnd bind a (fuel + 1)).1 = [a.asked.toNat] ∧
    ((choose rnd bind a (fuel + 1)).2 = .bound a.asked.toNat ↔ bind 0 a.asked.toNat = .ok) ∧
    ((choose rnd bind a (fuel + 1)).2 = .failed ↔ bind 0 a.asked.toNat ≠ .ok) := by
  have hz : a.asked.toNat ≠ 0 := fun hc => hne (BitVec.eq_of_toNat_eq hc)
  have hp : plan rnd a = some ⟨a.asked.toNat, 0, a.cfg⟩ := by
    unfold plan
    cases hcfg : a.cfg with
    | none =>
      dsimp only
      rw [if_pos hz, if_neg (by rw [hw]; decide)]
    | some g =>
      dsimp only
      rw [if_neg (c := a.reflector = true ∧ a.asked ≠ 0#16 ∧ (a.asked < g.low ∨ a.asked > g.high))
        (by rw [hw]; rintro ⟨h, _⟩; cases h), if_pos hz, if_neg (by rw [hw]; decide)]
  have hs : choose rnd bind a (fuel + 1) = search bind ⟨a.asked.toNat, 0, a.cfg⟩ (fuel + 1) 0 a.asked.toNat := by
    unfold choose
    rw [hp]
    dsimp only
    split
    · rename_i g hg
      rw [if_neg (BitVec.not_lt.2 (hc g hg))]
    · rfl
  rw [hs, search]
  cases bind 0 a.asked.toNat with
  | ok => simp
  | other => simp
  | inUse =>
    dsimp only
    split <;> simp

/-- Without a range and without a port the system chooses. -/
theorem C54_ephemeral (rnd : Rat → Rat) (bind : Nat → Nat → Bind) (refl : Bool) (r : U32) (fuel : Nat) :
    (choose rnd bind ⟨0#16, refl, none, r⟩ (fuel + 1)).1 = [0] := by
  show (search bind ⟨0, 0, none⟩ (fuel + 1) 0 0).1 = [0]
  rw [search]
  cases bind 0 0 <;> rfl

/-- Ports 8760 and 8762 are in use. -/
def busyPorts : Nat → Nat → Bind := fun _ p => if p = 8760 ∨ p = 8762 then .inUse else .ok

/-- The search of a two-way server that is asked for port 8762 in the range 8760-8762. -/
example : choose id busyPorts ⟨8762#16, true, some ⟨8760#16, 8762#16⟩, 0#32⟩ 65535 = ([8762, 8760, 8761], .bound 8761) := by
  decide +kernel

/-- A random port of the range 8760-9960. -/
example : choose id busyPorts ⟨0#16, false, some ⟨8760#16, 9960#16⟩, 2147483648#32⟩ 65535 = ([9360], .bound 9360) := by
  decide +kernel

/-! ## The exceptions -/

/-- The greatest random number gives the port after the range. -/
theorem plan_beyond {rnd : Rat → Rat} (hr : Rounding rnd) (g : Range) (refl : Bool) (hle : g.low ≤ g.high)
    (hh : g.high ≠ 65535#16) :
    plan rnd ⟨0#16, refl, some g, 4294967295#32⟩ = some ⟨g.high.toNat + 1, width g, some g⟩ := by
  have hlt := g.high.isLt
  have hle : g.low.toNat ≤ g.high.toNat := hle
  have hw := width_eq (g := g) hle (by rintro ⟨_, h⟩; exact hh h)
  have hn : g.high.toNat ≠ 65535 := fun hc => hh (BitVec.eq_of_toNat_eq hc)
  have e : pick rnd g 4294967295#32 = g.high.toNat + 1 := by rw [pick_max hr, hw]; omega
  unfold plan
  dsimp only
  rw [if_neg (c := refl = true ∧ (0#16 : U16) ≠ 0#16 ∧ _) (by rintro ⟨_, h, _⟩; exact h rfl)]
  rw [if_neg (show ¬ ((0#16 : U16).toNat ≠ 0) from by decide), e, if_neg (by omega)]
  rfl

/-- Full statement that fails: every port tried lies in the range. With the greatest random number the first port tried is
the one after the range, and the endpoint gets it if it is free: with `-P 0`, which is stored as the range 0-0, port 1. -/
theorem C54_beyond_range {rnd : Rat → Rat} (hr : Rounding rnd) (bind : Nat → Nat → Bind) (g : Range) (refl : Bool) (fuel : Nat)
    (hle : g.low ≤ g.high) (hh : g.high ≠ 65535#16) (hb : bind 0 (g.high.toNat + 1) = .ok) :
    (choose rnd bind ⟨0#16, refl, some g, 4294967295#32⟩ (fuel + 1)).2 = .bound (g.high.toNat + 1) ∧
    ¬ Inside g (g.high.toNat + 1) := by
  constructor
  · unfold choose
    rw [plan_beyond hr g refl hle hh]
    dsimp only
    rw [if_neg (BitVec.not_lt.2 hle), search, hb]
  · unfold Inside; omega

/-- The ports a search that began outside the range visits are inside, and so it does not come back to its start. -/
theorem search_lost {g : Range} (hle : g.low ≤ g.high) (hh : g.high ≠ 65535#16) (fuel k p : Nat)
    (hp : Inside g p) :
    (search (fun _ _ => .inUse) ⟨g.high.toNat + 1, width g, some g⟩ fuel k p).2 = .running := by
  have h0 : ¬ (g.low = 0#16 ∧ g.high = 65535#16) := by rintro ⟨_, h⟩; exact hh h
  induction fuel generalizing k p with
  | zero => rfl
  | succ fuel ih =>
    rw [search]
    dsimp only
    obtain ⟨hn, _⟩ := nextPort_inside hle h0 hp
    have hw := width_pos hle h0
    rw [if_neg (by omega), if_neg (by unfold Inside at hn; omega)]
    exact ih _ _ hn

/-- Full statement that fails: the search ends after trying every port once. With the greatest random number, and every
port in use, the loop never ends. -/
theorem C54_never_ends {rnd : Rat → Rat} (hr : Rounding rnd) (g : Range) (refl : Bool) (fuel : Nat)
    (hle : g.low ≤ g.high) (hh : g.high ≠ 65535#16) :
    (choose rnd (fun _ _ => .inUse) ⟨0#16, refl, some g, 4294967295#32⟩ fuel).2 = .running := by
  unfold choose
  rw [plan_beyond hr g refl hle hh]
  dsimp only
  rw [if_neg (BitVec.not_lt.2 hle)]
  have h0 : ¬ (g.low = 0#16 ∧ g.high = 65535#16) := by rintro ⟨_, h⟩; exact hh h
  cases fuel with
  | zero => rfl
  | succ fuel =>
    rw [search]
    dsimp only
    have hlen := g.high.isLt
    have hn : g.high.toNat ≠ 65535 := fun hc => hh (BitVec.eq_of_toNat_eq hc)
    have hle' : g.low.toNat ≤ g.high.toNat := hle
    have hw := width_eq hle h0
    have hin : Inside g (nextPort g (width g) (g.high.toNat + 1)) := by
      unfold nextPort Inside
      have := Nat.mod_lt (((g.high.toNat + 1) + 2 ^ 16 - g.low.toNat) % 2 ^ 16 + 1) (y := width g) (by omega)
      generalize (((g.high.toNat + 1) + 2 ^ 16 - g.low.toNat) % 2 ^ 16 + 1) % width g = q at *
      omega
    rw [if_neg (by omega), if_neg (by unfold Inside at hin; omega)]
    exact search_lost hle hh _ _ _ hin

/-- With the greatest random number and a range that ends with 65535 the value 65536 is stored into 16 bits from a
floating point number, which C does not define. -/
theorem C54_undefined {rnd : Rat → Rat} (hr : Rounding rnd) (bind : Nat → Nat → Bind) (g : Range) (refl : Bool) (fuel : Nat)
    (hlo : g.low ≠ 0#16) (hh : g.high = 65535#16) :
    (choose rnd bind ⟨0#16, refl, some g, 4294967295#32⟩ fuel).2 = .undefined := by
  have hlt := g.low.isLt
  have hl0 : g.low.toNat ≠ 0 := fun hc => hlo (BitVec.eq_of_toNat_eq hc)
  have hhn : g.high.toNat = 65535 := by rw [hh]; rfl
  have hle : g.low ≤ g.high := by show g.low.toNat ≤ g.high.toNat; omega
  have hw := width_eq hle (by rintro ⟨h, _⟩; exact hlo h)
  have e : pick rnd g 4294967295#32 = 65536 := by rw [pick_max hr, hw]; omega
  have hp : plan rnd ⟨0#16, refl, some g, 4294967295#32⟩ = none := by
    unfold plan
    dsimp only
    rw [if_neg (c := refl = true ∧ (0#16 : U16) ≠ 0#16 ∧ _) (by rintro ⟨_, h, _⟩; exact h rfl)]
    rw [if_neg (show ¬ ((0#16 : U16).toNat ≠ 0) from by decide), e, if_pos (by omega)]
  unfold choose
  rw [hp]

/-- With the range 0-65535 the number of ports does not fit into its 16 bits: a two-way server that is asked for a port in
use gives up although every other port is free. -/
theorem C54_full_range :
    choose id (fun _ p => if p = 5000 then .inUse else .ok) ⟨5000#16, true, some ⟨0#16, 65535#16⟩, 0#32⟩ 65535 =
      ([5000], .failed) ∧
    choose id (fun _ p => if p = 5000 then .inUse else .ok) ⟨5000#16, true, some ⟨1#16, 65535#16⟩, 0#32⟩ 65535 =
      ([5000, 5001], .bound 5001) := by
  constructor <;> decide +kernel

end Owamp.Props
