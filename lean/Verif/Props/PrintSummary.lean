import Verif.Spec.PrintSummary
import Verif.Props.Print
/-!
# C85: the summary that people read
-/
namespace Owamp.Props
open Owamp.Codec Owamp.Stats Owamp.Spec.Stats Owamp.Policy Owamp.Spec.Print Owamp.Spec.Ports Owamp.Print
open StatSession (Object)

/-- `L` are the lines of the summary of packets `first` up to but without `last` of session `x`, with the percentiles `ps`, made from a file with the records
`rs` with a fresh object (`new`) or one that was used before. Texts from outside have no newlines. -/
structure Summarised (x : StatSession) (rs : List DataRec) (first last : Nat) (Z : Style) (i : Info) (ps : List (Rat × Bytes)) (new : Bool) (L : List Bytes) : Prop where
  made : ∃ s s' oset, Object x s ∧ (new = true → s = Stats.create x.c x.c0) ∧ x.summary rs s oset first last = .ok s' ∧ L = textLines (summary Z x.c i s' ps)
  size : rs.length < 2 ^ 32
  range : x.Range first last
  once : LostOnce rs
  style : PlainStyle Z
  info : PlainInfo i
  names : ∀ p ∈ ps, 10#8 ∉ p.2

/-! ## Reading the lines -/

theorem textLines_flatMap (L : List Bytes) (h : ∀ l ∈ L, 10#8 ∉ l) : textLines (L.flatMap (· ++ [10#8])) = L := by
  unfold textLines
  have : split 10#8 (L.flatMap (· ++ [10#8])) = L ++ [[]] := by
    induction L with
    | nil => rfl
    | cons l L ih =>
      rw [List.flatMap_cons, List.append_assoc, List.singleton_append, split_piece _ _ _ (h l (by simp)), ih (fun x hx => h x (by simp [hx]))]
      rfl
  rw [this, List.dropLast_concat]

theorem no_nl_append {a b : Bytes} (ha : 10#8 ∉ a) (hb : 10#8 ∉ b) : 10#8 ∉ a ++ b := by
  simp only [List.mem_append, not_or]; exact ⟨ha, hb⟩

theorem no_nl_cons {a : Byte} {b : Bytes} (ha : 10#8 ≠ a) (hb : 10#8 ∉ b) : 10#8 ∉ a :: b := by
  simp only [List.mem_cons, not_or]; exact ⟨ha, hb⟩

theorem no_nl_digits (n : Nat) : 10#8 ∉ digits n := (digits_plain n).2

theorem no_nl_orNan (v : Option Bytes) (h : ∀ x, v = some x → 10#8 ∉ x) : 10#8 ∉ orNan v := by
  cases v with
  | none => exact (by decide : 10#8 ∉ text ['n','a','n'])
  | some x => exact h x rfl

theorem no_nl_shareLines (Z : Style) (hZ : PlainStyle Z) (num : Nat) (h : List Nat) : ∀ j, ∀ l ∈ (shareLines Z num h j).1, 10#8 ∉ l := by
  induction h with
  | nil => intro j l hl; cases hl
  | cons n h ih =>
    intro j l hl
    rw [shareLines] at hl
    split at hl
    · cases hl
    · rcases List.mem_cons.1 hl with rfl | hl
      · exact no_nl_append (no_nl_append (no_nl_append (no_nl_digits _) (by decide)) (hZ.share _ _)) (by decide)
      · exact ih _ l hl

theorem read_summary (Z : Style) (c : Stats.Cfg) (i : Info) (s : Stats.St) (ps : List (Rat × Bytes)) (hZ : PlainStyle Z) (hi : PlainInfo i) (hn : ∀ p ∈ ps, 10#8 ∉ p.2) :
    textLines (summary Z c i s ps) = summaryLines Z c i s ps := by
  unfold summary
  apply textLines_flatMap
  have A := @no_nl_append
  have tl : ∀ name t, 10#8 ∉ name → 10#8 ∉ timeLine Z name t := by
    intro name t hname
    unfold timeLine
    exact A (A hname (no_nl_cons (by decide) (hZ.date _))) (no_nl_cons (by decide) (padded_plain _ _).2)
  intro l hl
  unfold summaryLines at hl
  simp only [List.mem_append, List.mem_cons, List.not_mem_nil, or_false] at hl
  rcases hl with (((hl | hl) | hl) | hl) | hl
  · rcases hl with rfl | rfl | rfl | rfl | rfl | rfl | rfl | rfl
    · simp
    · exact A (A (A (A (A (A (A (A (by decide) hi.fromHost.2) (by decide)) hi.fromPort.2) (by decide)) hi.toHost.2) (by decide)) hi.toPort.2) (by decide)
    · exact A (by decide) (no_nl_cons (by decide) hi.sid.2)
    · exact tl _ _ (by decide)
    · exact tl _ _ (by decide)
    · unfold countLine
      refine A (A (A (A (A (A (A (no_nl_digits _) (by decide)) (no_nl_digits _)) (by decide)) ?_) (by decide)) (no_nl_digits _)) (by decide)
      split <;> exact hZ.percent _ _
    · unfold delayLine
      refine A (A (A (A (A (A (A (A (A (by decide) ?_) (by decide)) ?_) (by decide)) ?_) (by decide)) hZ.unit) (by decide)) ?_
      · refine no_nl_orNan _ fun x hx => ?_
        split at hx
        · cases hx
        · cases hx; exact hZ.delay _
      · refine no_nl_orNan _ fun x hx => ?_
        obtain ⟨b, _, rfl⟩ := Option.map_eq_some_iff.1 hx
        exact hZ.bucket b
      · refine no_nl_orNan _ fun x hx => ?_
        split at hx
        · cases hx
        · cases hx; exact hZ.delay _
      · split
        · exact A (A (A (A (by decide) (hZ.err _)) (by decide)) hZ.unit) (by decide)
        · decide
    · unfold jitterLine
      refine A (A (A (A (by decide) (no_nl_orNan _ fun x hx => ?_)) (by decide)) hZ.unit) (by decide)
      split at hx
      · cases hx; exact hZ.spread _ _
      · cases hx
  · unfold percentileLines at hl
    split at hl
    · cases hl
    · rcases List.mem_cons.1 hl with rfl | hl
      · decide
      · obtain ⟨p, hp, rfl⟩ := List.mem_map.1 hl
        refine A (A (A (A (no_nl_cons (by decide) (hn p hp)) (by decide)) (no_nl_orNan _ fun x hx => ?_)) (by decide)) hZ.unit
        obtain ⟨b, _, rfl⟩ := Option.map_eq_some_iff.1 hx
        exact hZ.bucket b
  · rw [hl]
    unfold ttlLine
    dsimp only
    split
    · decide
    · split
      · exact A (A (by decide) (no_nl_digits _)) (by decide)
      · exact A (A (A (A (A (by decide) (no_nl_digits _)) (by decide)) (no_nl_digits _)) (by decide)) (no_nl_digits _)
  · unfold orderLines at hl
    dsimp only at hl
    rcases List.mem_append.1 hl with hl | hl
    · exact no_nl_shareLines Z hZ _ _ _ l hl
    · rw [List.mem_singleton.1 hl]
      split
      · decide
      · split
        · exact A (A (by decide) (no_nl_digits _)) (by decide)
        · exact A (no_nl_digits _) (by decide)
  · rw [hl]; simp

/-- How many lines the percentiles take. -/
def percentileCount (ps : List (Rat × Bytes)) : Nat := if ps = [] then 0 else ps.length + 1

theorem percentileLines_length (Z : Style) (s : Stats.St) (ps : List (Rat × Bytes)) : (percentileLines Z s ps).length = percentileCount ps := by
  unfold percentileLines percentileCount
  split
  · rfl
  · simp

theorem summary_at (Z : Style) (c : Stats.Cfg) (i : Info) (s : Stats.St) (ps : List (Rat × Bytes)) :
    (summaryLines Z c i s ps)[3]? = some (timeLine Z (text ['f','i','r','s','t',':']) s.startTime) ∧
    (summaryLines Z c i s ps)[4]? = some (timeLine Z (text ['l','a','s','t',':']) s.endTime) ∧
    (summaryLines Z c i s ps)[5]? = some (countLine Z s) ∧ (summaryLines Z c i s ps)[6]? = some (delayLine Z c s) ∧
    (summaryLines Z c i s ps)[7]? = some (jitterLine Z s) ∧
    (∀ k, k < percentileCount ps → (summaryLines Z c i s ps)[8 + k]? = (percentileLines Z s ps)[k]?) ∧
    (summaryLines Z c i s ps)[8 + percentileCount ps]? = some (ttlLine s) ∧
    (summaryLines Z c i s ps).drop (9 + percentileCount ps) = orderLines Z s ++ [[]] := by
  refine ⟨rfl, rfl, rfl, rfl, rfl, fun k hk => ?_, ?_, ?_⟩
  · unfold summaryLines
    rw [List.append_assoc, List.append_assoc, List.append_assoc, List.getElem?_append_right (by simp), List.getElem?_append_left (by simp [percentileLines_length]; omega)]
    simp
  · unfold summaryLines
    rw [List.append_assoc, List.append_assoc, List.append_assoc, List.getElem?_append_right (by simp), List.getElem?_append_right (by simp [percentileLines_length])]
    simp [percentileLines_length]
  · unfold summaryLines
    rw [List.append_assoc _ (orderLines Z s), List.drop_append_of_le_length (by simp [percentileLines_length]; omega), List.drop_of_length_le (by simp [percentileLines_length]; omega)]
    rfl

/-! ## Times -/

theorem padded3 (n : Nat) (h : n < 1000) : (padded 3 n).length = 3 := by
  have : ∀ n, n < 1000 → (padded 3 n).length = 3 := by decide +kernel
  exact this n h

theorem time_line (Z : Style) (hR : Rounds Z.ms) (name : List Char) (t : Nat) (ht : t < 2 ^ 64) (hf : Spec.Receiver.unixNanos t % 1000000000 < 999499936) :
    ∃ v, ShowsTime Z.date name (timeLine Z (text name) t) v ∧ v * 1000000 ≤ Spec.Receiver.unixNanos t + 500064 ∧ Spec.Receiver.unixNanos t ≤ v * 1000000 + 500064 := by
  have e : Num64.sub (BitVec.ofNat 64 t).toNat (Num64.ulongToNum64 Time.jan1970) = (t + 2 ^ 64 - Spec.Receiver.epoch) % 2 ^ 64 := by
    rw [BitVec.toNat_ofNat, Nat.mod_eq_of_lt ht]; rfl
  obtain ⟨n1, n2⟩ := C02_toTimespec_value ((t + 2 ^ 64 - Spec.Receiver.epoch) % 2 ^ 64) (Nat.mod_lt _ (by decide))
  obtain ⟨tv, htv⟩ : ∃ tv, Time.timestampToTimespec ⟨BitVec.ofNat 64 t, false, 0, 0⟩ = tv := ⟨_, rfl⟩
  have htv' : Num64.toTimespec ((t + 2 ^ 64 - Spec.Receiver.epoch) % 2 ^ 64) = tv := by
    rw [← htv]; unfold Time.timestampToTimespec; dsimp only; rw [e]
  rw [htv'] at n1 n2
  have n2 : tv.sec * 1000000000 + tv.sub = Spec.Receiver.unixNanos t := n2
  obtain ⟨_, _, s1, s2⟩ := n1
  have s2 : tv.sub < 1000000000 := s2
  obtain ⟨r1, r2⟩ := hR tv.sub s1 s2
  have hlt : Z.ms tv.sub < 1000 := by omega
  refine ⟨tv.sec * 1000 + Z.ms tv.sub, ⟨tv.sec, padded 3 (Z.ms tv.sub), ?_, padded3 _ hlt, padded_digit _ _, ?_⟩, by omega, by omega⟩
  · unfold timeLine
    rw [htv]
    simp only [List.append_assoc, List.cons_append]
    rfl
  · rw [show value (padded 3 (Z.ms tv.sub)) = Z.ms tv.sub by unfold padded; rw [value_zeros, digits_decimal, (Owamp.Ports.decimal_ok _).2.2]]

/-- **C85** for the times (partial: not in the last half millisecond of a second, see `C85_fraction`): the fourth and the fifth line say when the first and the last packet were
due, to the millisecond. -/
theorem C85_times_partial (x : StatSession) (rs : List DataRec) (first last : Nat) (Z : Style) (i : Info) (ps : List (Rat × Bytes)) (new : Bool) (L : List Bytes)
    (h : Summarised x rs first last Z i ps new L) (hR : Rounds Z.ms) (ds : List Nat) (hd : x.Delays ds) (T : Nat) :
    (T = Spec.Receiver.schedTime x.c.start.toNat ds first → Spec.Receiver.unixNanos T % 1000000000 < 999499936 →
      ∃ l v, L[3]? = some l ∧ ShowsTime Z.date ['f','i','r','s','t',':'] l v ∧ v * 1000000 ≤ Spec.Receiver.unixNanos T + 500064 ∧ Spec.Receiver.unixNanos T ≤ v * 1000000 + 500064) ∧
    (T = Spec.Receiver.schedTime x.c.start.toNat ds (lastOf x.c last - 1) → Spec.Receiver.unixNanos T % 1000000000 < 999499936 →
      ∃ l v, L[4]? = some l ∧ ShowsTime Z.date ['l','a','s','t',':'] l v ∧ v * 1000000 ≤ Spec.Receiver.unixNanos T + 500064 ∧ Spec.Receiver.unixNanos T ≤ v * 1000000 + 500064) := by
  obtain ⟨s, s', oset, hs, _, hp, hL⟩ := h.made
  obtain ⟨f1, f2, _⟩ := C65_figures x s s' hs ds hd rs h.size oset first last h.range hp _ rfl
  rw [read_summary Z x.c i s' ps h.style h.info h.names] at hL
  obtain ⟨a1, a2, _⟩ := summary_at Z x.c i s' ps
  constructor
  · intro e hf
    rw [← f1] at e
    obtain ⟨v, v1, v2⟩ := time_line Z hR ['f','i','r','s','t',':'] T (by rw [e, f1]; exact Nat.mod_lt _ (by decide)) hf
    exact ⟨_, v, by rw [hL, a1, ← e], v1, v2⟩
  · intro e hf
    rw [← f2] at e
    obtain ⟨v, v1, v2⟩ := time_line Z hR ['l','a','s','t',':'] T (by rw [e, f2]; exact Nat.mod_lt _ (by decide)) hf
    exact ⟨_, v, by rw [hL, a2, ← e], v1, v2⟩

/-- Rounding without floating point. -/
def exactMs (n : Int) : Nat := ((n + 500000) / 1000000).toNat

theorem exactMs_rounds : Rounds exactMs := by
  intro n h1 h2
  unfold exactMs
  omega

def demoStyle : Style where
  date := signed
  ms := exactMs
  delay := signed
  bucket := signed
  spread := fun a b => signed (a - b)
  err := digits
  percent := fun a b => digits (100 * a / b)
  share := fun a b => digits (100 * a / b)
  unit := text ['m','s']
  mul := fun a n => a * n

theorem demo_style : PlainStyle demoStyle :=
  ⟨fun _ => (signed_plain _).2, fun _ => (signed_plain _).2, fun _ => (signed_plain _).2, fun _ _ => (signed_plain _).2, no_nl_digits, fun _ _ => no_nl_digits _, fun _ _ => no_nl_digits _, by decide⟩

theorem stat_summarised : Summarised statDemo statRecords 0 (2 ^ 32 - 1) demoStyle demoInfo [] true (textLines (summary demoStyle statCfg demoInfo statAll [])) :=
  ⟨⟨_, _, 0, .fresh, fun _ => rfl, stat_all, rfl⟩, by decide, stat_range, stat_lostOnce, demo_style, demo_info, nofun⟩

/-- The first packet of the example was due at second 3758096385 after 1900. -/
example : ∃ l v, (textLines (summary demoStyle statCfg demoInfo statAll []))[3]? = some l ∧ ShowsTime signed ['f','i','r','s','t',':'] l v ∧ v = (3758096385 - 2208988800) * 1000 := by
  obtain ⟨l, v, h1, h2, h3, h4⟩ := (C85_times_partial statDemo statRecords 0 (2 ^ 32 - 1) demoStyle demoInfo [] true _ stat_summarised exactMs_rounds statDelays stat_delays _).1 rfl (by decide +kernel)
  refine ⟨l, v, h1, h2, ?_⟩
  have e : Spec.Receiver.unixNanos (Spec.Receiver.schedTime statDemo.c.start.toNat statDelays 0) = (3758096385 - 2208988800) * 1000000000 := by decide +kernel
  rw [e] at h3 h4
  omega

/-- C85 fails for the times in the last half millisecond of a second: the digits after the point are 1000, which reads as a tenth of a second. It does so for every
rounding that `float`s can give. -/
theorem C85_fraction (Z : Style) (hR : Rounds Z.ms) (name : List Char) (t : Nat) (ht : t < 2 ^ 64) (hf : 999500065 ≤ Spec.Receiver.unixNanos t % 1000000000) :
    ∃ sec : Int, sec * 1000000000 + Spec.Receiver.unixNanos t % 1000000000 = Spec.Receiver.unixNanos t ∧
      timeLine Z (text name) t = text name ++ [9#8] ++ Z.date sec ++ text ['.','1','0','0','0'] := by
  have e : Num64.sub (BitVec.ofNat 64 t).toNat (Num64.ulongToNum64 Time.jan1970) = (t + 2 ^ 64 - Spec.Receiver.epoch) % 2 ^ 64 := by
    rw [BitVec.toNat_ofNat, Nat.mod_eq_of_lt ht]; rfl
  obtain ⟨n1, n2⟩ := C02_toTimespec_value ((t + 2 ^ 64 - Spec.Receiver.epoch) % 2 ^ 64) (Nat.mod_lt _ (by decide))
  obtain ⟨tv, htv⟩ : ∃ tv, Time.timestampToTimespec ⟨BitVec.ofNat 64 t, false, 0, 0⟩ = tv := ⟨_, rfl⟩
  have htv' : Num64.toTimespec ((t + 2 ^ 64 - Spec.Receiver.epoch) % 2 ^ 64) = tv := by
    rw [← htv]; unfold Time.timestampToTimespec; dsimp only; rw [e]
  rw [htv'] at n1 n2
  have n2 : tv.sec * 1000000000 + tv.sub = Spec.Receiver.unixNanos t := n2
  obtain ⟨_, _, s1, s2⟩ := n1
  have s2 : tv.sub < 1000000000 := s2
  obtain ⟨r1, r2⟩ := hR tv.sub s1 s2
  have hms : Z.ms tv.sub = 1000 := by omega
  refine ⟨tv.sec, by omega, ?_⟩
  unfold timeLine
  rw [htv]
  dsimp only
  rw [hms]
  have : padded 3 1000 = text ['1','0','0','0'] := by decide +kernel
  rw [this]
  simp only [List.append_assoc, List.cons_append]
  rfl

/-- A time stamp 0.4 ms before the end of a second. -/
example : 999500065 ≤ Spec.Receiver.unixNanos (0xE0000000 * 2 ^ 32 + 4293249310) % 1000000000 ∧
    Spec.Receiver.unixNanos (0xE0000000 * 2 ^ 32 + 4293249310) % 1000000000 = 999600000 := by decide +kernel

/-! ## Heading and unit -/

/-- **C85** for the heading: after an empty line the summary says from where to where the packets went and which session it is. -/
theorem C85_heading (x : StatSession) (rs : List DataRec) (first last : Nat) (Z : Style) (i : Info) (ps : List (Rat × Bytes)) (new : Bool) (L : List Bytes)
    (h : Summarised x rs first last Z i ps new L) :
    L[0]? = some [] ∧
    L[1]? = some (text ['-','-','-',' ','o','w','p','i','n','g',' ','s','t','a','t','i','s','t','i','c','s',' ','f','r','o','m',' ','['] ++ i.fromHost ++ text [']',':'] ++ i.fromPort ++
      text [' ','t','o',' ','['] ++ i.toHost ++ text [']',':'] ++ i.toPort ++ text [' ','-','-','-']) ∧
    L[2]? = some (text ['S','I','D',':'] ++ [9#8] ++ i.sid) := by
  obtain ⟨s, s', oset, _, _, _, hL⟩ := h.made
  rw [read_summary Z x.c i s' ps h.style h.info h.names] at hL
  rw [hL]
  exact ⟨rfl, rfl, rfl⟩

example : (textLines (summary demoStyle statCfg demoInfo statAll []))[2]? = some (text ['S','I','D',':'] ++ [9#8] ++ demoInfo.sid) :=
  (C85_heading statDemo statRecords 0 (2 ^ 32 - 1) demoStyle demoInfo [] true _ stat_summarised).2.2

/-- **C85** for the unit (partial: not for seconds, see `C85_seconds`): the letters n, u, m and s are taken in both cases and nothing else is, and delays are multiplied by the number of
the units in a second that is printed after them. -/
theorem C85_unit_partial (b : Byte) :
    ((scaleFactor b).isSome ↔ b ∈ text ['n','N','u','U','m','M','s','S']) ∧
    (b ∉ text ['s','S'] → ∀ f u, scaleFactor b = some (f, u) → UnitOf u f ∧ u.head? = some (lower b)) := by
  have A : ∀ b : Byte, ((scaleFactor b).isSome ↔ b ∈ text ['n','N','u','U','m','M','s','S']) ∧
      (b ∉ text ['s','S'] → (scaleFactor b).all fun q => decide (q ∈ [(1000, text ['m','s']), (1000000, text ['u','s']), (1000000000, text ['n','s'])] ∧ q.2.head? = some (lower b)) = true) := by
    decide +kernel
  refine ⟨(A b).1, fun hb f u e => ?_⟩
  have := (A b).2 hb
  rw [e, Option.all_some, decide_eq_true_eq, decide_eq_true_eq] at this
  obtain ⟨h1, h2⟩ := this
  refine ⟨?_, h2⟩
  simp only [List.mem_cons, List.not_mem_nil, or_false, Prod.mk.injEq] at h1
  rcases h1 with ⟨rfl, rfl⟩ | ⟨rfl, rfl⟩ | ⟨rfl, rfl⟩
  · exact .milli
  · exact .micro
  · exact .nano

/-- Milliseconds, which owping takes if nothing else is asked for. -/
example : ∃ f u, scaleFactor 109#8 = some (f, u) ∧ UnitOf u f := ⟨1000, _, rfl, .milli⟩

/-- C85 fails for the unit if that is seconds: no unit is printed. -/
theorem C85_seconds (b : Byte) (h : b ∈ text ['s','S']) : scaleFactor b = some (1, []) ∧ ¬ UnitOf [] 1 := by
  have A : ∀ b : Byte, b ∈ text ['s','S'] → scaleFactor b = some (1, []) := by decide +kernel
  refine ⟨A b h, fun hu => ?_⟩
  generalize hx : ([] : Bytes) = e at hu
  cases hu
  exact absurd hx (by decide)

example : 115#8 ∈ text ['s','S'] := by decide

/-! ## Counts and delays -/

/-- The text for the percentile: its bucket's, or "nan" if there is none. -/
def QuantileText (x : StatSession) (n : Nat) (C : List DataRec) (mul : Rat → Nat → Rat) (f : Int → Bytes) (alpha : Rat) (t : Bytes) : Prop :=
  (∃ b, IsQuantile x n C mul alpha b ∧ t = f b) ∨ NoQuantile n C mul alpha ∧ t = text ['n','a','n']

/-- **C85** for counts and delays. The sixth line has the numbers of packets sent, lost and duplicated, with the share of lost packets (0 if none was sent); the seventh the
least delay, the median and the greatest delay, or "nan" where there is none, and the greatest error, or that the clocks were not synchronised; the eighth the variation of the
delay; then come the percentiles asked for, if any. -/
theorem C85_figures (x : StatSession) (rs : List DataRec) (first last : Nat) (Z : Style) (i : Info) (ps : List (Rat × Bytes)) (new : Bool) (L : List Bytes)
    (h : Summarised x rs first last Z i ps new L) (C : List DataRec) (hC : C = x.about first last rs) (n : Nat) (hn : n = lastOf x.c last)
    (D : List Int) (hD : D = (arrivals C).map fun r => x.c.delay r.send r.recv) :
    L[5]? = some (decimal (sent n C) ++ text [' ','s','e','n','t',',',' '] ++ decimal (lost n C) ++ text [' ','l','o','s','t',' ','('] ++
      (if sent n C = 0 then Z.percent 0 1 else Z.percent (lost n C) (sent n C)) ++ text ['%',')',',',' '] ++ decimal (duplicates n C) ++
      text [' ','d','u','p','l','i','c','a','t','e','s']) ∧
    (∃ a b c e m, L[6]? = some (text ['o','n','e','-','w','a','y',' ','d','e','l','a','y',' ','m','i','n','/','m','e','d','i','a','n','/','m','a','x',' ','=',' '] ++
        a ++ text ['/'] ++ b ++ text ['/'] ++ c ++ text [' '] ++ Z.unit ++ text [',',' '] ++ e) ∧
      ((∃ m ∈ D, m < x.c.inf ∧ (∀ d ∈ D, m ≤ d) ∧ a = Z.delay m) ∨ (∀ d ∈ D, x.c.inf ≤ d) ∧ a = text ['n','a','n']) ∧
      QuantileText x n C Z.mul Z.bucket (1 / 2) b ∧
      ((∃ m ∈ D, -x.c.inf < m ∧ (∀ d ∈ D, d ≤ m) ∧ c = Z.delay m) ∨ (∀ d ∈ D, d ≤ -x.c.inf) ∧ c = text ['n','a','n']) ∧
      GreatestOf 0 (C.map fun r => (recordError r : Int)) (m : Nat) ∧
      ((∀ r ∈ C, r.recv.sync = true ∧ (¬ Lost r → r.send.sync = true)) → e = text ['(','e','r','r','='] ++ Z.err m ++ text [' '] ++ Z.unit ++ text [')']) ∧
      (¬ (∀ r ∈ C, r.recv.sync = true ∧ (¬ Lost r → r.send.sync = true)) → e = text ['(','u','n','s','y','n','c',')'])) ∧
    (∃ j, L[7]? = some (text ['o','n','e','-','w','a','y',' ','j','i','t','t','e','r',' ','=',' '] ++ j ++ text [' '] ++ Z.unit ++ text [' ','(','P','9','5','-','P','5','0',')']) ∧
      ((∃ a b, IsQuantile x n C Z.mul (95 / 100) a ∧ IsQuantile x n C Z.mul (1 / 2) b ∧ j = Z.spread a b) ∨
        (NoQuantile n C Z.mul (95 / 100) ∨ NoQuantile n C Z.mul (1 / 2)) ∧ j = text ['n','a','n'])) ∧
    (∀ k p, ps[k]? = some p → ∃ t, L[9 + k]? = some (9#8 :: p.2 ++ text [':',' '] ++ t ++ text [' '] ++ Z.unit) ∧ QuantileText x n C Z.mul Z.bucket (p.1 / 100) t) := by
  obtain ⟨s, s', oset, hs, _, hp, hL⟩ := h.made
  obtain ⟨c1, c2, c3, _⟩ := C50_counts x s s' hs rs h.size oset first last h.range h.once hp
  obtain ⟨ds, hd, _⟩ := x.tells s hs rs h.size oset first last h.range s' hp
  obtain ⟨_, _, f3, f4, f5, f6, _⟩ := C65_figures x s s' hs ds hd rs h.size oset first last h.range hp C hC
  rw [← hD] at f3 f4
  rw [← hC, ← hn] at c1 c2 c3
  have perc := fun alpha => C51_percentile x s s' hs rs h.size oset first last h.range h.once hp Z.mul alpha C n (sent n C) hC hn rfl
  have pc : ∀ alpha, (∃ b, IsQuantile x n C Z.mul alpha b ∧ percentile Z.mul s' alpha = some b) ∨ NoQuantile n C Z.mul alpha ∧ percentile Z.mul s' alpha = none := by
    intro alpha
    cases hq : percentile Z.mul s' alpha with
    | some b => exact .inl ⟨b, ((perc alpha).1 b).1 hq, rfl⟩
    | none => exact .inr ⟨(perc alpha).2.1 hq, rfl⟩
  have qt : ∀ alpha, QuantileText x n C Z.mul Z.bucket alpha (orNan ((percentile Z.mul s' alpha).map Z.bucket)) := by
    intro alpha
    rcases pc alpha with ⟨b, h1, h2⟩ | ⟨h1, h2⟩
    · exact .inl ⟨b, h1, by rw [h2]; rfl⟩
    · exact .inr ⟨h1, by rw [h2]; rfl⟩
  rw [read_summary Z x.c i s' ps h.style h.info h.names] at hL
  obtain ⟨_, _, a3, a4, a5, a6, _, _⟩ := summary_at Z x.c i s' ps
  rw [← hL] at a3 a4 a5 a6
  refine ⟨?_, ⟨_, _, _, _, s'.maxerr, a4, ?_, qt _, ?_, f6, ?_, ?_⟩, ⟨_, a5, ?_⟩, ?_⟩
  · rw [a3]
    unfold countLine
    rw [digits_decimal, digits_decimal, digits_decimal, c1, c2, c3]
    by_cases h0 : sent n C = 0
    · rw [if_neg (by omega), if_pos h0]
    · rw [if_pos (by omega), if_neg h0]
  · by_cases hm : s'.min ≥ x.c.inf
    · right
      rw [if_pos hm]
      exact ⟨fun d hd => by have := f3.2.2 d hd; omega, rfl⟩
    · left
      rw [if_neg hm]
      refine ⟨s'.min, ?_, by omega, f3.2.2, rfl⟩
      rcases f3.1 with e | e
      · omega
      · exact e
  · by_cases hm : s'.max ≤ -x.c.inf
    · right
      rw [if_pos hm]
      exact ⟨fun d hd => by have := f4.2.2 d hd; omega, rfl⟩
    · left
      rw [if_neg hm]
      refine ⟨s'.max, ?_, by omega, f4.2.2, rfl⟩
      rcases f4.1 with e | e
      · omega
      · exact e
  · intro hy; rw [if_pos (f5.2 hy)]
  · intro hy; rw [if_neg (fun e => hy (f5.1 e))]
  · rcases pc (95 / 100) with ⟨a, h1, h2⟩ | ⟨h1, h2⟩
    · rcases pc (1 / 2) with ⟨b, h3, h4⟩ | ⟨h3, h4⟩
      · left; refine ⟨a, b, h1, h3, ?_⟩; rw [h2, h4]; rfl
      · right; refine ⟨.inr h3, ?_⟩; rw [h2, h4]; rfl
    · right; refine ⟨.inl h1, ?_⟩; rw [h2]; rfl
  · intro k p hk
    have hne : ps ≠ [] := fun e => by rw [e] at hk; cases hk
    have hlt := (List.getElem?_eq_some_iff.1 hk).1
    refine ⟨_, ?_, qt _⟩
    rw [show 9 + k = 8 + (k + 1) by omega, a6 (k + 1) (by unfold percentileCount; rw [if_neg hne]; omega)]
    unfold percentileLines
    rw [if_neg hne, List.getElem?_cons_succ, List.getElem?_map, hk]
    rfl

/-- The counts of the example. -/
example : (textLines (summary demoStyle statCfg demoInfo statAll []))[5]? = some (text ['3',' ','s','e','n','t',',',' ','1',' ','l','o','s','t',' ','(','3','3','%',')',',',' ','1',' ','d','u','p','l','i','c','a','t','e','s']) := by
  have h := (C85_figures statDemo statRecords 0 (2 ^ 32 - 1) demoStyle demoInfo [] true _ stat_summarised _ rfl _ rfl _ rfl).1
  rw [h]
  decide +kernel

/-! ## Hops -/

/-- **C85** for the hops (partial: not if all 256 TTL values occur, see `C85_hops_wrong`): the line after the percentiles says that no TTL was reported if no packet came; if
all packets first came with the same TTL, the hops that it means, for packets sent with 255; and otherwise how many values there are, the fewest hops, which are those of the greatest
TTL, and the most. -/
theorem C85_hops_partial (x : StatSession) (rs : List DataRec) (first last : Nat) (Z : Style) (i : Info) (ps : List (Rat × Bytes)) (new : Bool) (L : List Bytes)
    (h : Summarised x rs first last Z i ps new L) (C : List DataRec) (hC : C = x.about first last rs) (n : Nat) (hn : n = lastOf x.c last)
    (notAll : ∃ t, t < 256 ∧ ¬ TtlSeen n C t) (m : Nat) (hm : m = packets 256 fun t => decide (TtlSeen n C t)) (l : Bytes) (hl : L[8 + percentileCount ps]? = some l) :
    ((∀ t, ¬ TtlSeen n C t) → l = text ['T','T','L',' ','n','o','t',' ','r','e','p','o','r','t','e','d']) ∧
    (∀ t, TtlSeen n C t → (∀ t', TtlSeen n C t' → t' = t) →
      l = text ['h','o','p','s',' ','=',' '] ++ decimal (255 - t) ++ text [' ','(','c','o','n','s','i','s','t','e','n','t','l','y',')']) ∧
    (∀ lo hi, lo ≠ hi → TtlSeen n C lo → TtlSeen n C hi → (∀ t, TtlSeen n C t → lo ≤ t ∧ t ≤ hi) →
      l = text ['h','o','p','s',' ','t','a','k','e','s',' '] ++ decimal m ++ text [' ','v','a','l','u','e','s',';',' ','m','i','n',' ','h','o','p','s',' ','=',' '] ++
        decimal (255 - hi) ++ text [',',' ','m','a','x',' ','h','o','p','s',' ','=',' '] ++ decimal (255 - lo)) := by
  obtain ⟨s, s', oset, hs, _, hp, hL⟩ := h.made
  obtain ⟨p1, p2⟩ := C65_ttl_partial x s s' hs rs h.size oset first last h.range hp C hC n hn
  rw [read_summary Z x.c i s' ps h.style h.info h.names] at hL
  obtain ⟨_, _, _, _, _, _, a7, _⟩ := summary_at Z x.c i s' ps
  rw [← hL, hl, Option.some.injEq] at a7
  rw [← hm] at p1
  have hlt : ∀ t, TtlSeen n C t → t < 256 := by
    rintro t ⟨k, r, _, _, e⟩
    rw [← e]; exact r.ttl.isLt
  have hi : m < 256 := by
    obtain ⟨t, h1, h2⟩ := notAll
    rw [hm]
    unfold packets
    refine Nat.lt_of_le_of_ne (Nat.le_trans List.countP_le_length (by simp)) fun e => h2 ?_
    have e := List.countP_eq_length.1 (e.trans List.length_range.symm)
    exact of_decide_eq_true (e t (List.mem_range.2 h1))
  rw [Nat.mod_eq_of_lt hi] at p1
  obtain ⟨num, lo, hi', est⟩ : ∃ num lo hi, ttlStats s' = (num, lo, hi) := ⟨_, _, _, rfl⟩
  rw [est] at p1 p2
  dsimp only at p1 p2
  unfold ttlLine at a7
  rw [est] at a7
  dsimp only at a7
  have count : ∀ t, TtlSeen n C t → (∀ t', TtlSeen n C t' → t' = t) → m = 1 := by
    intro t ht hu
    rw [hm]
    unfold packets
    have e : (List.range 256).countP (fun t' => decide (TtlSeen n C t')) = (List.range 256).count t := by
      rw [List.count]
      apply List.countP_congr
      intro t' _
      rw [decide_eq_true_eq, beq_iff_eq]
      exact ⟨fun h => (hu t' h), fun h => h ▸ ht⟩
    rw [e, List.nodup_range.count, if_pos (List.mem_range.2 (hlt t ht))]
  refine ⟨fun hno => ?_, fun t ht hu => ?_, fun l1 h1 hne hl1 hh1 hb => ?_⟩
  · have : m = 0 := by
      rw [hm]
      apply Nat.eq_zero_of_not_pos
      intro hpos
      obtain ⟨t, _, h2⟩ := (packets_pos _ _).1 hpos
      exact hno t (of_decide_eq_true h2)
    rw [a7, if_pos (by omega)]
  · have e1 := count t ht hu
    rw [a7, if_neg (by omega), if_pos (by omega), digits_decimal, hu lo (p2 ⟨t, ht⟩).1]
  · obtain ⟨q1, q2, q3⟩ := p2 ⟨l1, hl1⟩
    have e1 : lo = l1 := Nat.le_antisymm (q3 l1 hl1).1 (hb lo q1).1
    have e2 : hi' = h1 := Nat.le_antisymm (hb hi' q2).2 (q3 h1 hh1).2
    have two : ¬ m < 1 ∧ m ≠ 1 := by
      have pos : 0 < m := by
        rw [hm, packets_pos]
        exact ⟨l1, hlt l1 hl1, decide_eq_true hl1⟩
      refine ⟨by omega, fun e => ?_⟩
      rw [hm] at e
      unfold packets at e
      have c1 : 2 ≤ ((List.range 256).filter fun t => decide (TtlSeen n C t)).length := by
        have m1 : l1 ∈ (List.range 256).filter fun t => decide (TtlSeen n C t) := List.mem_filter.2 ⟨List.mem_range.2 (hlt _ hl1), decide_eq_true hl1⟩
        have m2 : h1 ∈ (List.range 256).filter fun t => decide (TtlSeen n C t) := List.mem_filter.2 ⟨List.mem_range.2 (hlt _ hh1), decide_eq_true hh1⟩
        cases hf : (List.range 256).filter fun t => decide (TtlSeen n C t) with
        | nil => rw [hf] at m1; cases m1
        | cons a r =>
          cases r with
          | nil =>
            rw [hf] at m1 m2
            exact absurd ((List.mem_singleton.1 m1).trans (List.mem_singleton.1 m2).symm) hne
          | cons b r => simp
      rw [List.countP_eq_length_filter] at e
      omega
    rw [a7, p1, if_neg two.1, if_neg two.2, digits_decimal, digits_decimal, digits_decimal, e1, e2]

/-- The packets of the example came with TTL 60 and 61. -/
example : (textLines (summary demoStyle statCfg demoInfo statAll []))[8]? = some (text ['h','o','p','s',' ','t','a','k','e','s',' ','2',' ','v','a','l','u','e','s',';',' ',
    'm','i','n',' ','h','o','p','s',' ','=',' ','1','9','4',',',' ','m','a','x',' ','h','o','p','s',' ','=',' ','1','9','5']) := by
  have e := (summary_at demoStyle statCfg demoInfo statAll []).2.2.2.2.2.2.1
  rw [← read_summary demoStyle statCfg demoInfo statAll [] demo_style demo_info nofun] at e
  have h := (C85_hops_partial statDemo statRecords 0 (2 ^ 32 - 1) demoStyle demoInfo [] true _ stat_summarised _ rfl _ rfl ⟨0, by decide, by decide +kernel⟩ _ rfl _ e).2.2 60 61 (by decide)
    (by decide +kernel) (by decide +kernel) (by
      rintro t ⟨k, r, h1, h2, rfl⟩
      have : ∀ k, k < 4 → (firstCopy (statDemo.about 0 (2 ^ 32 - 1) statRecords) k).all fun r => decide (60 ≤ r.ttl.toNat ∧ r.ttl.toNat ≤ 61) := by decide +kernel
      have := this k h1
      rw [h2] at this
      exact of_decide_eq_true this)
  have e' : (textLines (summary demoStyle statCfg demoInfo statAll []))[8]? = some (ttlLine statAll) := e
  rw [e', h]
  decide +kernel

/-- C85 fails for the hops if all 256 TTL values occur: the summary says that none was reported. -/
theorem C85_hops_wrong (x : StatSession) (rs : List DataRec) (first last : Nat) (Z : Style) (i : Info) (ps : List (Rat × Bytes)) (new : Bool) (L : List Bytes)
    (h : Summarised x rs first last Z i ps new L) (all : ∀ t, t < 256 → TtlSeen (lastOf x.c last) (x.about first last rs) t) :
    L[8 + percentileCount ps]? = some (text ['T','T','L',' ','n','o','t',' ','r','e','p','o','r','t','e','d']) := by
  obtain ⟨s, s', oset, hs, _, hp, hL⟩ := h.made
  have e := (C65_all_ttls x s s' hs rs h.size oset first last h.range hp all).1
  rw [read_summary Z x.c i s' ps h.style h.info h.names] at hL
  obtain ⟨_, _, _, _, _, _, a7, _⟩ := summary_at Z x.c i s' ps
  rw [hL, a7]
  unfold ttlLine
  obtain ⟨num, lo, hi', est⟩ : ∃ num lo hi, ttlStats s' = (num, lo, hi) := ⟨_, _, _, rfl⟩
  rw [est] at e ⊢
  dsimp only at e ⊢
  rw [e]
  rfl

/-! ## Reordering -/

theorem shareLines_spec (Z : Style) (num : Nat) (l : List Nat) : ∀ j,
    (shareLines Z num l j).1 = (List.range (run0 l)).map (fun q => digits (q + j + 1) ++ text ['-','r','e','o','r','d','e','r','i','n','g',' ','=',' '] ++ Z.share (l.getD q 0) num ++ text ['%']) ∧
    (shareLines Z num l j).2 = j + run0 l := by
  induction l with
  | nil => intro j; exact ⟨rfl, rfl⟩
  | cons n l ih =>
    intro j
    rw [shareLines]
    by_cases h : n = 0
    · have e : run0 (n :: l) = 0 := by unfold run0; rw [List.takeWhile_cons, if_neg (by simpa using h)]; rfl
      rw [if_pos h, e]; exact ⟨rfl, rfl⟩
    · have e : run0 (n :: l) = run0 l + 1 := by unfold run0; rw [List.takeWhile_cons, if_pos (by simpa using h)]; rfl
      rw [if_neg h, e]
      obtain ⟨i1, i2⟩ := ih (j + 1)
      refine ⟨?_, by show (shareLines Z num l (j + 1)).2 = _; rw [i2]; omega⟩
      show _ :: (shareLines Z num l (j + 1)).1 = _
      rw [i1, List.range_succ_eq_map, List.map_cons, List.map_map, Nat.zero_add]
      refine congrArg _ (List.map_congr_left fun q _ => ?_)
      show _ = digits (q + 1 + j + 1) ++ _ ++ _ ++ _
      rw [show q + (j + 1) + 1 = q + 1 + j + 1 by omega]; rfl

/-- **C85** for reordering (partial: only for the first summary made with an object, see `C52_second_share`): the last lines give the share of `j`-reordered arrivals for `j` from 1
on as long as there are any; then that there is no more, or, if that is unknown because all the counts of the buffers were used, that more is not handled. -/
theorem C85_reordering_partial (x : StatSession) (rs : List DataRec) (first last : Nat) (Z : Style) (i : Info) (ps : List (Rat × Bytes)) (L : List Bytes)
    (h : Summarised x rs first last Z i ps true L) (C : List DataRec) (hC : C = x.about first last rs) :
    ∃ m l, L.drop (9 + percentileCount ps) = (List.range m).map (fun q => decimal (q + 1) ++ text ['-','r','e','o','r','d','e','r','i','n','g',' ','=',' '] ++
        Z.share (reordered C (q + 1)) (arrivals C).length ++ text ['%']) ++ [l, []] ∧
      m ≤ x.c.rlist ∧ (∀ j, 0 < j → j ≤ m → reordered C j ≠ 0) ∧
      ((m < x.c.rlist ∧ (∀ j, m < j → reordered C j = 0) ∧
        l = (if m = 0 then text ['n','o',' ','r','e','o','r','d','e','r','i','n','g'] else text ['n','o',' '] ++ decimal (m + 1) ++ text ['-','r','e','o','r','d','e','r','i','n','g'])) ∨
       m = x.c.rlist ∧ l = decimal (m + 1) ++ text ['-','r','e','o','r','d','e','r','i','n','g',' ','n','o','t',' ','h','a','n','d','l','e','d']) := by
  obtain ⟨s, s', oset, hs, hnew, hp, hL⟩ := h.made
  have hs0 := hnew rfl
  obtain ⟨c1, c2⟩ := C52_reordering x s s' hs rs h.size oset first last h.range hp
  rw [← hC] at c2
  have hnum : s'.rnum = (arrivals C).length := by
    rw [hs0] at hs hp
    obtain ⟨ds, _, g⟩ := x.tells _ hs rs h.size oset first last h.range s' hp
    obtain ⟨s0, hf, h2, _⟩ := g.fig
    have hnum := hf.rnum
    rw [h2.rnum, g.cnt, ← hC] at hnum
    rw [hnum]; exact Nat.zero_add _
  obtain ⟨r1, r2, r3⟩ := run0_spec s'.rn
  rw [read_summary Z x.c i s' ps h.style h.info h.names] at hL
  obtain ⟨_, _, _, _, _, _, _, a8⟩ := summary_at Z x.c i s' ps
  rw [← hL] at a8
  obtain ⟨b1, b2⟩ := shareLines_spec Z s'.rnum s'.rn 0
  rw [Nat.zero_add] at b2
  unfold orderLines at a8
  dsimp only at a8
  rw [b1, b2, c1, List.append_assoc] at a8
  rw [c1] at r1 r3
  obtain ⟨e, he⟩ : ∃ e, (if run0 s'.rn = 0 then text ['n','o',' ','r','e','o','r','d','e','r','i','n','g'] else
      if run0 s'.rn < x.c.rlist then text ['n','o',' '] ++ digits (run0 s'.rn + 1) ++ text ['-','r','e','o','r','d','e','r','i','n','g']
      else digits (x.c.rlist + 1) ++ text ['-','r','e','o','r','d','e','r','i','n','g',' ','n','o','t',' ','h','a','n','d','l','e','d']) = e := ⟨_, rfl⟩
  rw [he] at a8
  refine ⟨run0 s'.rn, e, ?_, r1, fun j j1 j2 => ?_, ?_⟩
  · rw [a8]
    congr 1
    apply List.map_congr_left
    intro q hq
    rw [digits_decimal, c2 q (by have := List.mem_range.1 hq; omega), hnum]
  · have := r2 (j - 1) (by omega)
    rw [c2 _ (by omega), show j - 1 + 1 = j by omega] at this
    exact this
  · by_cases hlt : run0 s'.rn < x.c.rlist
    · left
      refine ⟨hlt, fun j hj => ?_, ?_⟩
      · have z := r3 hlt
        rw [c2 _ hlt] at z
        have := reordered_le C (run0 s'.rn + 1) (j - (run0 s'.rn + 1))
        rw [show run0 s'.rn + 1 + (j - (run0 s'.rn + 1)) = j by omega] at this
        omega
      · rw [← he, if_pos hlt, digits_decimal]
    · right
      have e' : run0 s'.rn = x.c.rlist := by omega
      refine ⟨e', ?_⟩
      rw [← he, if_neg (by have := x.rlist; omega), if_neg hlt, digits_decimal, e']

/-- One of three arrivals of the example is 1-reordered. -/
example : (textLines (summary demoStyle statCfg demoInfo statAll [])).drop 9 =
    [text ['1','-','r','e','o','r','d','e','r','i','n','g',' ','=',' ','3','3','%'], text ['n','o',' ','2','-','r','e','o','r','d','e','r','i','n','g'], []] := by
  obtain ⟨m, l, h1, _, h3, h4⟩ := C85_reordering_partial statDemo statRecords 0 (2 ^ 32 - 1) demoStyle demoInfo [] _ stat_summarised _ rfl
  have hm1 : m < 2 := Nat.lt_of_not_le fun hh => h3 2 (by decide) hh (by decide +kernel)
  rcases h4 with ⟨_, h5, h6⟩ | ⟨h5, _⟩
  · have hm0 : m ≠ 0 := fun e => by
      have := h5 1 (by omega)
      exact absurd this (by decide +kernel)
    have e : m = 1 := by omega
    subst e
    have h1 : (textLines (summary demoStyle statCfg demoInfo statAll [])).drop 9 = _ := h1
    rw [h1, h6]
    decide +kernel
  · have : statDemo.c.rlist = 10 := rfl
    omega

end Owamp.Props
