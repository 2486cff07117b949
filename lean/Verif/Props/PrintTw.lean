import Verif.Lemmas.PrintTw
import Verif.Props.Print
import Verif.Props.TwStats
/-!
# C102: the report that programs read about a two-way session tells what the summary found
-/
namespace Owamp.Props
open Owamp.Codec Owamp.Policy Owamp.Spec.Print Owamp.Spec.Ports Owamp.Spec.TwStats
open Owamp.Print (Fmt Info digits padded hexByte digits_numeral padded_numeral)
open Owamp.PrintTw (value_says valueOf)

/-- `L` are the lines that a program reads in the report of packets `first` up to but without `last` of a two-way session, made with a fresh object from
a file with the records `rs`, in which no packet is recorded as lost twice and no number is in a skip range. Texts from outside are plain. -/
structure TwReported (c : TwStats.Cfg) (rs : List TWDataRec) (first last : Nat) (F : Fmt) (i : Info) (L : List (List Bytes)) : Prop where
  made : ∃ s oset, TwStats.parse c rs oset first last = .ok s ∧ L = lines (PrintTw.machine F c i s)
  size : rs.length < 2 ^ 32
  range : TwRange c first last
  clear : ∀ r ∈ twAbout c first last rs, Clear c r
  once : LossOnce (twAbout c first last rs)
  fmt : PlainFmt F
  info : PlainInfo i

/-! An example: the report of the session of C75. -/

/-- What a program reads in the report of a summary, if there is one. -/
def twLines (c : TwStats.Cfg) (rs : List TWDataRec) : List (List Bytes) :=
  match TwStats.parse c rs 0 0 (2 ^ 32 - 1) with
  | .error _ => []
  | .ok s => lines (PrintTw.machine demoFmt c demoInfo s)

theorem twLines_reported (c : TwStats.Cfg) (rs : List TWDataRec) (hok : (TwStats.parse c rs 0 0 (2 ^ 32 - 1)).toOption.isSome = true) (hl : rs.length < 2 ^ 32)
    (hr : TwRange c 0 (2 ^ 32 - 1)) (hs : c.skips = []) (h1 : LossOnce (twAbout c 0 (2 ^ 32 - 1) rs)) :
    TwReported c rs 0 (2 ^ 32 - 1) demoFmt demoInfo (twLines c rs) := by
  refine ⟨?_, hl, hr, ?_, h1, demo_fmt, demo_info⟩
  · unfold twLines
    cases h : TwStats.parse c rs 0 0 (2 ^ 32 - 1) with
    | error e => rw [h] at hok; cases hok
    | ok s => exact ⟨s, 0, h, rfl⟩
  · intro r _
    refine ⟨fun ⟨k, hk, _⟩ => ?_, fun _ ⟨k, hk, _⟩ => ?_⟩ <;> rw [hs] at hk <;> cases hk

theorem tw_reported : TwReported twDemo twRecords 0 (2 ^ 32 - 1) demoFmt demoInfo (twLines twDemo twRecords) :=
  twLines_reported _ _ (by decide +kernel) (by decide) twDemo_range rfl (by unfold LossOnce; decide +kernel)

/-! ## Counts, times and errors -/

/-- **C102** (partial: nothing is said about the lines for the synchronisation of clocks and for the time of the last packet, which are wrong, see `C102_synchronised`
and `C102_end_time`). Whoever reads the report finds, each once: the number of packets of the range that have a record, of those that were given up, of replies beyond
the first to a packet, and of copies beyond the first of a reply; the number of packets of the range and of the session; the scheduled time of the first; the
loss timeout and the padding; whether the session finished; the traffic class if the session has one; and the greatest errors of the three delays. The
lines of a one-way session for duplicates and TTLs are not there, and no table of reordering. -/
theorem C102_counts_partial (c : TwStats.Cfg) (rs : List TWDataRec) (first last : Nat) (F : Fmt) (i : Info) (L : List (List Bytes))
    (h : TwReported c rs first last F i L) (D : List TWDataRec) (hD : D = twAbout c first last rs) :
    Number L ['S','E','N','T'] (Spec.TwStats.firsts seqOf D).length ∧ Number L ['L','O','S','T'] (losses D).length ∧
    Number L ['D','U','P','S','_','F','W','D'] ((returned D).length - (answered D).length) ∧
    Number L ['D','U','P','S','_','B','C','K'] ((replies D).length - (returned D).length) ∧
    Number L ['S','A','M','P','L','E','_','P','A','C','K','E','T','_','C','O','U','N','T'] (lastOf c last - first) ∧
    Number L ['S','E','S','S','I','O','N','_','P','A','C','K','E','T','_','C','O','U','N','T'] c.npackets.toNat ∧
    Number L ['S','T','A','R','T','_','T','I','M','E'] (c.times first) ∧
    Number L ['L','O','S','S','_','T','I','M','E','O','U','T'] c.timeout.toNat ∧
    Number L ['P','A','C','K','E','T','_','P','A','D','D','I','N','G'] i.padding.toNat ∧
    Number L ['S','E','S','S','I','O','N','_','F','I','N','I','S','H','E','D'] i.finished.toNat ∧
    Says L ['S','I','D'] i.sid ∧
    (∀ d : Nat, d < 64 → i.typeP.toNat = d * 2 ^ 24 → Says L ['D','S','C','P'] (hexByte d)) ∧
    (∃ e : Nat, Says L ['M','A','X','E','R','R'] (F.err e) ∧ Spec.Stats.GreatestOf 0 (D.map fun r => (errTrip r : Int)) e) ∧
    (∃ e : Nat, Says L ['M','A','X','E','R','R','_','F','W','D'] (F.err e) ∧ Spec.Stats.GreatestOf 0 (D.map fun r => (errOut r : Int)) e) ∧
    (∃ e : Nat, Says L ['M','A','X','E','R','R','_','B','C','K'] (F.err e) ∧ Spec.Stats.GreatestOf 0 (D.map fun r => (errBack r : Int)) e) ∧
    Silent L ['D','U','P','S'] ∧ Silent L ['M','I','N','T','T','L'] ∧ Silent L ['M','A','X','T','T','L'] ∧
    NoTable L ['N','R','E','O','R','D','E','R','I','N','G'] := by
  obtain ⟨s, oset, hp, hL⟩ := h.made
  obtain ⟨c1, c2, c3, c4, _⟩ := C75_counts_partial c rs oset first last s h.range h.size h.clear h.once hp D hD
  obtain ⟨⟨ea, eb, ed, e0, e1, e2, e3⟩, _, _, t0⟩ := C75_errors_ttls c rs oset first last s h.range h.size h.clear hp D hD
  have g := tw_says h.range h.size h.clear hp
  have V := fun k name hn => value_says F c i s h.fmt h.info L hL k name hn
  have N : ∀ k name m, text name = k.text → valueOf F c i s k = some (digits m) → Number L name m :=
    fun k name m e hv => ⟨_, (V k name e).1 _ hv, digits_numeral m⟩
  have P : ∀ k name m, text name = k.text → valueOf F c i s k = some (padded 20 m) → Number L name m :=
    fun k name m e hv => ⟨_, (V k name e).1 _ hv, padded_numeral 20 m⟩
  refine ⟨N (.plain .sent) _ _ rfl (by rw [← c1]; rfl), N (.plain .lost) _ _ rfl (by rw [← c2]; rfl),
    N .dupsF _ _ rfl (by rw [← c3, Nat.add_sub_cancel]; rfl), N .dupsB _ _ rfl (by rw [← c4, Nat.add_sub_cancel]; rfl),
    N (.plain .sampleCount) _ _ rfl ?_, N (.plain .sessionCount) _ _ rfl rfl, P (.plain .startTime) _ _ rfl (by rw [← t0]; rfl),
    N (.plain .lossTimeout) _ _ rfl rfl, N (.plain .padding) _ _ rfl rfl, N (.plain .finished) _ _ rfl ?_, (V (.plain .sid) _ rfl).1 _ rfl,
    fun d hd he => (V (.plain .dscp) _ rfl).1 _ ?_, ⟨ea, (V (.plain .maxerr) _ rfl).1 _ ?_, e1⟩, ⟨eb, (V .maxerrF _ rfl).1 _ ?_, e2⟩,
    ⟨ed, (V .maxerrB _ rfl).1 _ ?_, e3⟩, (V (.plain .dups) _ rfl).2 rfl, (V (.plain .minTtl) _ rfl).2 rfl, (V (.plain .maxTtl) _ rfl).2 rfl,
    PrintTw.no_table F c i s h.fmt h.info L hL _ (by decide) (by decide)⟩
  · have h1 := h.range.1
    have h2 := h.range.2
    have h3 := c.npackets.isLt
    show some (digits ((s.last + 2 ^ 32 - s.first) % 2 ^ 32)) = _
    rw [g.isFirst, g.isLast, show (lastOf c last + 2 ^ 32 - first) % 2 ^ 32 = lastOf c last - first by omega]
  · show some (digits (if i.finished then 1 else 0)) = _
    cases i.finished <;> rfl
  · show (if i.typeP.toNat % 2 ^ 24 = 0 ∧ i.typeP.toNat / 2 ^ 30 = 0 then some (hexByte (i.typeP.toNat / 2 ^ 24)) else none) = _
    rw [if_pos (by omega), show i.typeP.toNat / 2 ^ 24 = d by omega]
  · show some (F.err (s.maxerr.getD 0 0)) = _
    rw [e0]; rfl
  · show some (F.err (s.maxerr.getD 1 0)) = _
    rw [e0]; rfl
  · show some (F.err (s.maxerr.getD 2 0)) = _
    rw [e0]; rfl

/-- The session of the example: five packets sent, one of them given up; one was reflected twice, and one reply came twice. -/
example : Number (twLines twDemo twRecords) ['S','E','N','T'] 5 ∧ Number (twLines twDemo twRecords) ['L','O','S','T'] 1 ∧
    Number (twLines twDemo twRecords) ['D','U','P','S','_','F','W','D'] 1 ∧ Number (twLines twDemo twRecords) ['D','U','P','S','_','B','C','K'] 1 := by
  obtain ⟨h1, h2, h3, h4, _⟩ := C102_counts_partial twDemo twRecords 0 (2 ^ 32 - 1) demoFmt demoInfo _ tw_reported _ rfl
  have e1 : (Spec.TwStats.firsts seqOf (twAbout twDemo 0 (2 ^ 32 - 1) twRecords)).length = 5 := by decide +kernel
  have e2 : (losses (twAbout twDemo 0 (2 ^ 32 - 1) twRecords)).length = 1 := by decide +kernel
  have e3 : (returned (twAbout twDemo 0 (2 ^ 32 - 1) twRecords)).length - (answered (twAbout twDemo 0 (2 ^ 32 - 1) twRecords)).length = 1 := by decide +kernel
  have e4 : (replies (twAbout twDemo 0 (2 ^ 32 - 1) twRecords)).length - (returned (twAbout twDemo 0 (2 ^ 32 - 1) twRecords)).length = 1 := by decide +kernel
  exact ⟨e1 ▸ h1, e2 ▸ h2, e3 ▸ h3, e4 ▸ h4⟩

/-- The line for the synchronisation is wrong: no clock was synchronised for any time stamp, and the report says they were. -/
theorem C102_synchronised : ∃ rs, rs = [twGot 0 0 16 18 19 22 false] ∧
    TwReported { twDemo with npackets := 1 } rs 0 (2 ^ 32 - 1) demoFmt demoInfo (twLines { twDemo with npackets := 1 } rs) ∧
    (∀ r ∈ rs, r.sent.send.sync = false ∧ r.sent.recv.sync = false ∧ r.reflected.send.sync = false ∧ r.reflected.recv.sync = false) ∧
    Number (twLines { twDemo with npackets := 1 } rs) ['S','Y','N','C'] 1 := by
  have hr : TwReported { twDemo with npackets := 1 } [twGot 0 0 16 18 19 22 false] 0 (2 ^ 32 - 1) demoFmt demoInfo
      (twLines { twDemo with npackets := 1 } [twGot 0 0 16 18 19 22 false]) :=
    twLines_reported _ _ (by decide +kernel) (by decide) (by unfold TwRange; decide +kernel) rfl (by unfold LossOnce; decide +kernel)
  refine ⟨_, rfl, hr, by decide +kernel, ?_⟩
  have hy := C75_synchronised.1
  unfold twLines
  unfold twSeen at hy
  cases hp : TwStats.parse { twDemo with npackets := 1 } [twGot 0 0 16 18 19 22 false] 0 0 (2 ^ 32 - 1) with
  | error e => rw [hp] at hy; cases hy
  | ok s =>
    rw [hp] at hy
    have hy : s.sync = true := hy
    refine ⟨digits 1, (value_says demoFmt _ demoInfo s demo_fmt demo_info _ rfl (.plain .sync) _ rfl).1 _ ?_, digits_numeral 1⟩
    show some (digits (if s.sync then 1 else 0)) = _
    rw [if_pos hy]

/-- So is that for the time of the last packet: of two packets the report gives the time of the first. -/
theorem C102_end_time : ∃ rs, rs = [twGot 0 0 16 18 19 22, twGot 0 1 16 20 21 24, twLost 1 32] ∧
    TwReported { twDemo with npackets := 2 } rs 0 (2 ^ 32 - 1) demoFmt demoInfo (twLines { twDemo with npackets := 2 } rs) ∧
    Number (twLines { twDemo with npackets := 2 } rs) ['E','N','D','_','T','I','M','E'] (twDemo.times 0) ∧ twDemo.times 0 < twDemo.times 1 := by
  have hr : TwReported { twDemo with npackets := 2 } [twGot 0 0 16 18 19 22, twGot 0 1 16 20 21 24, twLost 1 32] 0 (2 ^ 32 - 1) demoFmt demoInfo
      (twLines { twDemo with npackets := 2 } [twGot 0 0 16 18 19 22, twGot 0 1 16 20 21 24, twLost 1 32]) :=
    twLines_reported _ _ (by decide +kernel) (by decide) (by unfold TwRange; decide +kernel) rfl (by unfold LossOnce; decide +kernel)
  refine ⟨_, rfl, hr, ?_, C75_end_time.2⟩
  have hy := C75_end_time.1
  unfold twLines
  unfold twSeen at hy
  cases hp : TwStats.parse { twDemo with npackets := 2 } [twGot 0 0 16 18 19 22, twGot 0 1 16 20 21 24, twLost 1 32] 0 0 (2 ^ 32 - 1) with
  | error e => rw [hp] at hy; cases hy
  | ok s =>
    rw [hp] at hy
    have hy : some s.endTime = some (twDemo.times 0) := hy
    have hy := Option.some.inj hy
    refine ⟨padded 20 (twDemo.times 0), (value_says demoFmt _ demoInfo s demo_fmt demo_info _ rfl (.plain .endTime) _ rfl).1 _ ?_, padded_numeral 20 _⟩
    show some (padded 20 s.endTime) = _
    rw [hy]

/-! ## Delays -/

/-- The delays with the endings of their names: round trip, out, back, and the time at the reflector. -/
def twDelays (c : TwStats.Cfg) : List (List Char × (TWDataRec → Int)) :=
  [([], trip c), (['_','F','W','D'], out c), (['_','B','C','K'], back c), (['_','P','R','O','C'], held c)]

/-- **C102** for delays. The least and the greatest of each of the four delays in the report are those of the replies, and there are such lines exactly if a reply has
a delay below the value (and above its negative) that stands for a loss. -/
theorem C102_delays (c : TwStats.Cfg) (rs : List TWDataRec) (first last : Nat) (F : Fmt) (i : Info) (L : List (List Bytes))
    (h : TwReported c rs first last F i L) (R : List TWDataRec) (hR : R = replies (twAbout c first last rs)) :
    ∀ e f, (e, f) ∈ twDelays c →
    (∀ m ∈ R.map f, m < c.inf → (∀ d ∈ R.map f, m ≤ d) → Says L (['M','I','N'] ++ e) (F.delay m)) ∧ ((∀ d ∈ R.map f, c.inf ≤ d) → Silent L (['M','I','N'] ++ e)) ∧
    (∀ m ∈ R.map f, -c.inf < m → (∀ d ∈ R.map f, d ≤ m) → Says L (['M','A','X'] ++ e) (F.delay m)) ∧
    ((∀ d ∈ R.map f, d ≤ -c.inf) → Silent L (['M','A','X'] ++ e)) := by
  obtain ⟨s, oset, hp, hL⟩ := h.made
  obtain ⟨⟨a, b, d, e, m0, m1, m2, m3, m4⟩, ⟨a', b', d', e', x0, x1, x2, x3, x4⟩, _⟩ := C75_delays c rs oset first last s h.range h.size h.clear hp R hR
  have V := fun k name hn => value_says F c i s h.fmt h.info L hL k name hn
  have one : ∀ (f : TWDataRec → Int) (j : Nat) (kmin kmax : PrintTw.Name) (nmin nmax : List Char), text nmin = kmin.text → text nmax = kmax.text →
      valueOf F c i s kmin = PrintTw.minValue F c s j → valueOf F c i s kmax = PrintTw.maxValue F c s j →
      Spec.Stats.LeastOf c.inf (R.map f) (s.min.getD j 0) → Spec.Stats.GreatestOf (-c.inf) (R.map f) (s.max.getD j 0) →
      (∀ m ∈ R.map f, m < c.inf → (∀ d ∈ R.map f, m ≤ d) → Says L nmin (F.delay m)) ∧ ((∀ d ∈ R.map f, c.inf ≤ d) → Silent L nmin) ∧
      (∀ m ∈ R.map f, -c.inf < m → (∀ d ∈ R.map f, d ≤ m) → Says L nmax (F.delay m)) ∧ ((∀ d ∈ R.map f, d ≤ -c.inf) → Silent L nmax) := by
    intro f j kmin kmax nmin nmax n1 n2 v1 v2 l g
    refine ⟨fun m hm hi hl => (V kmin _ n1).1 _ ?_, fun hl => (V kmin _ n1).2 ?_, fun m hm hi hl => (V kmax _ n2).1 _ ?_, fun hl => (V kmax _ n2).2 ?_⟩
    · have e : s.min.getD j 0 = m := least_unique l ⟨.inr hm, by omega, hl⟩
      rw [v1]; unfold PrintTw.minValue
      rw [e, if_pos hi]
    · have e : s.min.getD j 0 = c.inf := least_unique l ⟨.inl rfl, Int.le_refl _, hl⟩
      rw [v1]; unfold PrintTw.minValue
      rw [e, if_neg (by omega)]
    · have e : s.max.getD j 0 = m := greatest_unique g ⟨.inr hm, by omega, hl⟩
      rw [v2]; unfold PrintTw.maxValue
      rw [e, if_pos hi]
    · have e : s.max.getD j 0 = -c.inf := greatest_unique g ⟨.inl rfl, Int.le_refl _, hl⟩
      rw [v2]; unfold PrintTw.maxValue
      rw [e, if_neg (by omega)]
  intro n f hf
  simp only [twDelays, List.mem_cons, Prod.mk.injEq, List.not_mem_nil, or_false] at hf
  rcases hf with ⟨rfl, rfl⟩ | ⟨rfl, rfl⟩ | ⟨rfl, rfl⟩ | ⟨rfl, rfl⟩
  · exact one _ 0 (.plain .min) (.plain .max) _ _ rfl rfl rfl rfl (by rw [m0]; exact m1) (by rw [x0]; exact x1)
  · exact one _ 1 .minF .maxF _ _ rfl rfl rfl rfl (by rw [m0]; exact m2) (by rw [x0]; exact x2)
  · exact one _ 2 .minB .maxB _ _ rfl rfl rfl rfl (by rw [m0]; exact m3) (by rw [x0]; exact x3)
  · exact one _ 3 .minP .maxP _ _ rfl rfl rfl rfl (by rw [m0]; exact m4) (by rw [x0]; exact x4)

/-- In the example the shortest way back takes 1/16 s, and the reflector never more than that. -/
example : Says (twLines twDemo twRecords) ['M','I','N','_','B','C','K'] (demoFmt.delay (2 ^ 28)) ∧
    Says (twLines twDemo twRecords) ['M','A','X','_','P','R','O','C'] (demoFmt.delay (2 ^ 28)) := by
  have h := C102_delays twDemo twRecords 0 (2 ^ 32 - 1) demoFmt demoInfo _ tw_reported _ rfl
  exact ⟨(h ['_','B','C','K'] (back twDemo) (by simp [twDelays])).1 (2 ^ 28) (by decide +kernel) (by decide) (by decide +kernel),
    (h ['_','P','R','O','C'] (held twDemo) (by simp [twDelays])).2.2.1 (2 ^ 28) (by decide +kernel) (by decide) (by decide +kernel)⟩

/-- **C102** for the median and the variation, of the round trip and of both ways: they are the percentile 1/2, and the difference of the percentiles 0.95 and 1/2, of
the first replies to the packets, taken of all packets sent; they are there exactly if there are such percentiles, that is if enough packets were
answered. The floating point product of a positive share and a positive number is positive. -/
theorem C102_percentiles (c : TwStats.Cfg) (rs : List TWDataRec) (first last : Nat) (F : Fmt) (i : Info) (L : List (List Bytes))
    (h : TwReported c rs first last F i L) (D : List TWDataRec) (hD : D = twAbout c first last rs)
    (t : Rat → Rat) (ht : ∀ alpha, t alpha = F.mul alpha (Spec.TwStats.firsts seqOf D).length)
    (hm : ∀ alpha : Rat, ∀ n : Nat, 0 < alpha → 0 < n → 0 < F.mul alpha n) :
    ∀ e f, (e, f) ∈ (twDelays c).take 3 →
    (∀ b, IsPercentile (fun r => c.bucket (f r)) (answered D) (t (1 / 2)) b → Says L (['M','E','D','I','A','N'] ++ e) (F.bucket b)) ∧
    (answered D = [] ∨ ((answered D).length : Rat) < t (1 / 2) → Silent L (['M','E','D','I','A','N'] ++ e)) ∧
    (∀ a b, IsPercentile (fun r => c.bucket (f r)) (answered D) (t (95 / 100)) a → IsPercentile (fun r => c.bucket (f r)) (answered D) (t (1 / 2)) b →
      Says L (['P','D','V'] ++ e) (F.spread a b)) ∧
    (answered D = [] ∨ ((answered D).length : Rat) < t (95 / 100) ∨ ((answered D).length : Rat) < t (1 / 2) → Silent L (['P','D','V'] ++ e)) := by
  obtain ⟨s, oset, hp, hL⟩ := h.made
  have V := fun k name hn => value_says F c i s h.fmt h.info L hL k name hn
  have g := tw_says h.range h.size h.clear hp
  rw [← hD] at g
  have Q : ∀ alpha : Rat, 0 < alpha → ∀ f hh, (f, hh) ∈ [(trip c, s.hist), (out c, s.histF), (back c, s.histB)] →
      (∀ b, IsPercentile (fun r => c.bucket (f r)) (answered D) (t alpha) b → TwStats.percentile F.mul s hh alpha = some b) ∧
      (answered D = [] ∨ ((answered D).length : Rat) < t alpha → TwStats.percentile F.mul s hh alpha = none) := by
    intro alpha h0 f hh hf
    have hh' : TwStats.Hist (fun r => c.bucket (f r)) (answered D) hh := by
      simp only [List.mem_cons, Prod.mk.injEq, List.not_mem_nil, or_false] at hf
      rcases hf with ⟨rfl, rfl⟩ | ⟨rfl, rfl⟩ | ⟨rfl, rfl⟩
      · exact g.fig.hist
      · exact g.fig.histF
      · exact g.fig.histB
    by_cases hn : 0 < (Spec.TwStats.firsts seqOf D).length
    · obtain ⟨p1, p2⟩ := C75_percentile_partial c rs oset first last s h.range h.size h.clear h.once hp F.mul alpha D (t alpha) hD (ht alpha)
        (by rw [ht]; exact hm alpha _ h0 hn) f hh hf
      exact ⟨fun b hb => (p1 b).2 hb, p2.2⟩
    · have hz : answered D = [] := by
        have c1 := (C75_counts_partial c rs oset first last s h.range h.size h.clear h.once hp D hD).1
        have c2 := g.sent
        apply List.eq_nil_of_length_eq_zero
        show (Spec.TwStats.firsts seqOf (replies D)).length = 0
        omega
      have hnil : hh = [] := by
        cases hc : hh with
        | nil => rfl
        | cons x l =>
          have h1 := Stats.mem_total (fun _ => true) hh x (by rw [hc]; simp) rfl
          rw [hh'.count, hz] at h1
          have h2 := hh'.tidy.pos x (by rw [hc]; simp)
          simp at h1
          omega
      refine ⟨fun b hb => ?_, fun _ => ?_⟩
      · obtain ⟨⟨r, hr, _⟩, _⟩ := hb
        rw [hz] at hr; cases hr
      · unfold TwStats.percentile Stats.sorted
        rw [hnil, List.mergeSort_nil]; rfl
  have one : ∀ (f : TWDataRec → Int) (hh : List (Int × Nat)) (kmed kpdv : PrintTw.Name) (nmed npdv : List Char), text nmed = kmed.text → text npdv = kpdv.text →
      valueOf F c i s kmed = (TwStats.percentile F.mul s hh (1 / 2)).map F.bucket →
      valueOf F c i s kpdv = ((PrintTw.jitter F s hh).map fun p => F.spread p.1 p.2) →
      (f, hh) ∈ [(trip c, s.hist), (out c, s.histF), (back c, s.histB)] →
      (∀ b, IsPercentile (fun r => c.bucket (f r)) (answered D) (t (1 / 2)) b → Says L nmed (F.bucket b)) ∧
      (answered D = [] ∨ ((answered D).length : Rat) < t (1 / 2) → Silent L nmed) ∧
      (∀ a b, IsPercentile (fun r => c.bucket (f r)) (answered D) (t (95 / 100)) a → IsPercentile (fun r => c.bucket (f r)) (answered D) (t (1 / 2)) b →
        Says L npdv (F.spread a b)) ∧
      (answered D = [] ∨ ((answered D).length : Rat) < t (95 / 100) ∨ ((answered D).length : Rat) < t (1 / 2) → Silent L npdv) := by
    intro f hh kmed kpdv nmed npdv n1 n2 v1 v2 hf
    obtain ⟨q1, q2⟩ := Q (1 / 2) (by decide +kernel) f hh hf
    obtain ⟨q3, q4⟩ := Q (95 / 100) (by decide +kernel) f hh hf
    refine ⟨fun b hb => (V kmed _ n1).1 _ ?_, fun hb => (V kmed _ n1).2 ?_, fun a b ha hb => (V kpdv _ n2).1 _ ?_, fun hb => (V kpdv _ n2).2 ?_⟩
    · rw [v1, q1 b hb]; rfl
    · rw [v1, q2 hb]; rfl
    · rw [v2]; unfold PrintTw.jitter
      rw [q3 a ha, q1 b hb]; rfl
    · rw [v2]; unfold PrintTw.jitter
      rcases hb with hb | hb | hb
      · rw [q4 (.inl hb)]; rfl
      · rw [q4 (.inr hb)]; rfl
      · rw [q2 (.inr hb)]
        cases TwStats.percentile F.mul s hh (95 / 100) <;> rfl
  intro n f hf
  simp only [twDelays, List.take_succ_cons, List.take_zero, List.mem_cons, Prod.mk.injEq, List.not_mem_nil, or_false] at hf
  rcases hf with ⟨rfl, rfl⟩ | ⟨rfl, rfl⟩ | ⟨rfl, rfl⟩
  · exact one _ s.hist (.plain .median) (.plain .pdv) _ _ rfl rfl rfl rfl (by simp)
  · exact one _ s.histF .medianF .pdvF _ _ rfl rfl rfl rfl (by simp)
  · exact one _ s.histB .medianB .pdvB _ _ rfl rfl rfl rfl (by simp)

/-- In the example four of five packets were answered: there is a median, and no variation. -/
example : Says (twLines twDemo twRecords) ['M','E','D','I','A','N'] (demoFmt.bucket 6) ∧ Silent (twLines twDemo twRecords) ['P','D','V'] := by
  have h := C102_percentiles twDemo twRecords 0 (2 ^ 32 - 1) demoFmt demoInfo _ tw_reported _ rfl _ (fun _ => rfl)
    (fun a n ha hn => Rat.mul_pos ha (by exact_mod_cast hn)) [] (trip twDemo) (by simp [twDelays])
  have e5 : (Spec.TwStats.firsts seqOf (twAbout twDemo 0 (2 ^ 32 - 1) twRecords)).length = 5 := by decide +kernel
  refine ⟨h.1 6 ?_, h.2.2.2 (.inr (.inl ?_))⟩
  · rw [e5]; unfold IsPercentile
    decide +kernel
  · rw [e5]; decide +kernel

/-! ## The histogram of delays -/

/-- **C102** for the histogram of delays: it is there exactly if a packet was answered, and it has one row for each bucket into which any of the delays of a first reply
fell, with the numbers of packets for which the round trip, the way out and the way back fell into it. -/
theorem C102_histogram (c : TwStats.Cfg) (rs : List TWDataRec) (first last : Nat) (F : Fmt) (i : Info) (L : List (List Bytes))
    (h : TwReported c rs first last F i L) (A : List TWDataRec) (hA : A = answered (twAbout c first last rs)) :
    (A ≠ [] → ∃ rows, WideTable L ['B','U','C','K','E','T','S'] rows ∧ (rows.map (·.1)).Pairwise (· ≠ ·) ∧
      ∀ b ns, (b, ns) ∈ rows ↔ ns ≠ [0, 0, 0] ∧ ns = [A.countP fun r => c.bucket (trip c r) = b, A.countP fun r => c.bucket (out c r) = b,
        A.countP fun r => c.bucket (back c r) = b]) ∧
    (A = [] → NoTable L ['B','U','C','K','E','T','S']) := by
  obtain ⟨s, oset, hp, hL⟩ := h.made
  have c2 := (C75_counts_partial c rs oset first last s h.range h.size h.clear h.once hp _ rfl).2.1
  have g := tw_says h.range h.size h.clear hp
  have c1 := g.sent
  obtain ⟨t1, t2⟩ := PrintTw.table_bucket F c i s h.fmt h.info L hL
  have hA' : A = Spec.TwStats.firsts seqOf (replies (twAbout c first last rs)) := hA
  rw [← hA'] at c1
  have k0 : ∀ b, PrintTw.samples s.hist b = A.countP fun r => c.bucket (trip c r) = b := fun b => by
    rw [PrintTw.samples_total _ g.fig.hist.tidy, g.fig.hist.count, hA']
  have k1 : ∀ b, PrintTw.samples s.histF b = A.countP fun r => c.bucket (out c r) = b := fun b => by
    rw [PrintTw.samples_total _ g.fig.histF.tidy, g.fig.histF.count, hA']
  have k2 : ∀ b, PrintTw.samples s.histB b = A.countP fun r => c.bucket (back c r) = b := fun b => by
    rw [PrintTw.samples_total _ g.fig.histB.tidy, g.fig.histB.count, hA']
  constructor
  · intro ha
    have : 0 < A.length := List.length_pos_iff.2 ha
    refine ⟨_, t1 (by omega), ?_, fun b ns => ?_⟩
    · unfold PrintTw.bucketRows
      rw [List.map_map]
      have : ((fun x : Int × List Nat => x.1) ∘ fun b => (b, [PrintTw.samples s.hist b, PrintTw.samples s.histF b, PrintTw.samples s.histB b])) = id := rfl
      rw [this, List.map_id]
      exact PrintTw.buckets_once s
    · unfold PrintTw.bucketRows
      rw [List.mem_map, ← k0, ← k1, ← k2]
      constructor
      · rintro ⟨b', hb, e⟩
        obtain ⟨rfl, rfl⟩ := Prod.mk.injEq _ _ _ _ ▸ e
        refine ⟨fun e => ?_, rfl⟩
        rw [PrintTw.mem_buckets, PrintTw.samples_pos _ g.fig.hist.tidy, PrintTw.samples_pos _ g.fig.histF.tidy, PrintTw.samples_pos _ g.fig.histB.tidy] at hb
        simp only [List.cons.injEq, and_true] at e
        rcases hb with hb | hb | hb
        · exact hb e.1
        · exact hb e.2.1
        · exact hb e.2.2
      · rintro ⟨h1, rfl⟩
        refine ⟨b, ?_, rfl⟩
        rw [PrintTw.mem_buckets, PrintTw.samples_pos _ g.fig.hist.tidy, PrintTw.samples_pos _ g.fig.histF.tidy, PrintTw.samples_pos _ g.fig.histB.tidy]
        simp only [ne_eq, List.cons.injEq, and_true] at h1
        omega
  · intro ha
    have : A.length = 0 := by rw [ha]; rfl
    exact t2 (by omega)

/-- In the example a round trip, a way out and two ways back of the four packets answered fell into bucket 3: the buckets are of 1/16 s. -/
example : ∃ rows, WideTable (twLines twDemo twRecords) ['B','U','C','K','E','T','S'] rows ∧ (3, [1, 1, 2]) ∈ rows := by
  obtain ⟨rows, h1, _, h3⟩ := (C102_histogram twDemo twRecords 0 (2 ^ 32 - 1) demoFmt demoInfo _ tw_reported _ rfl).1 (by decide +kernel)
  exact ⟨rows, h1, (h3 _ _).2 ⟨by decide, by decide +kernel⟩⟩

/-! ## TTL values -/

/-- **C102** for TTL values (partial: if all 256 occur on both ways there is no table, see `C102_all_ttls`; and if no packet was answered, values are reported all the same, see
`C102_no_reply`): the least and the greatest TTL of each way are those with which first replies' packets and they themselves came, and the table has a row for each
that occurs, in their order, with the numbers for the way out and the way back. -/
theorem C102_ttls_partial (c : TwStats.Cfg) (rs : List TWDataRec) (first last : Nat) (F : Fmt) (i : Info) (L : List (List Bytes))
    (h : TwReported c rs first last F i L) (A : List TWDataRec) (hA : A = answered (twAbout c first last rs)) (some_ : A ≠ [])
    (notAll : ∃ t, t < 256 ∧ ((∀ r ∈ A, r.sent.ttl.toNat ≠ t) ∨ ∀ r ∈ A, r.reflected.ttl.toNat ≠ t)) :
    (∀ (e : List Char) (f : TWDataRec → Nat), (e, f) ∈ [(['_','F','W','D'], fun r : TWDataRec => r.sent.ttl.toNat), (['_','B','C','K'], fun r => r.reflected.ttl.toNat)] →
      ∃ lo hi, Number L (['M','I','N','T','T','L'] ++ e) lo ∧ Number L (['M','A','X','T','T','L'] ++ e) hi ∧ (∃ r ∈ A, f r = lo) ∧ (∃ r ∈ A, f r = hi) ∧
        ∀ r ∈ A, lo ≤ f r ∧ f r ≤ hi) ∧
    WideTable L ['T','T','L','B','U','C','K','E','T','S']
      (((List.range 256).filter fun t => A.any fun r => decide (r.sent.ttl.toNat = t ∨ r.reflected.ttl.toNat = t)).map fun (t : Nat) =>
        ((t : Int), [A.countP fun r => r.sent.ttl.toNat = t, A.countP fun r => r.reflected.ttl.toNat = t])) := by
  obtain ⟨s, oset, hp, hL⟩ := h.made
  have g := tw_says h.range h.size h.clear hp
  have hA' : A = Spec.TwStats.firsts seqOf (replies (twAbout c first last rs)) := hA
  obtain ⟨_, t1, t2, _⟩ := C75_errors_ttls c rs oset first last s h.range h.size h.clear hp _ rfl
  rw [← hA] at t1 t2
  have V := fun k name hn => value_says F c i s h.fmt h.info L hL k name hn
  have lF : s.ttlF.length = 256 := g.fig.ttlF.1
  have lB : s.ttlB.length = 256 := g.fig.ttlB.1
  have pos : ∀ (f : TWDataRec → Nat) t, (A.countP fun r => f r = t) ≠ 0 ↔ ∃ r ∈ A, f r = t := by
    intro f t
    rw [Nat.ne_zero_iff_zero_lt, List.countP_pos_iff]
    simp
  obtain ⟨r0, hr0⟩ := List.exists_mem_of_ne_nil _ some_
  -- what the loop finds
  have loop : ∀ (f : TWDataRec → Nat) (T : List Nat), T.length = 256 → (∀ r, f r < 256) → (∀ k, T.getD k 0 = A.countP fun r => f r = k) →
      ((PrintTw.ttlStats T).1 = (T.countP fun n => decide (n ≠ 0)) % 2 ^ 8) ∧ (∃ r ∈ A, f r = (PrintTw.ttlStats T).2.1) ∧ (∃ r ∈ A, f r = (PrintTw.ttlStats T).2.2) ∧
      ∀ r ∈ A, (PrintTw.ttlStats T).2.1 ≤ f r ∧ f r ≤ (PrintTw.ttlStats T).2.2 := by
    intro f T hT hf hk
    obtain ⟨a1, a2, a3, a4, a5, a6, a7⟩ := Stats.ttlLoop_spec T 0 0 255 0 (by omega)
    have seen : ∀ t, T.getD t 0 ≠ 0 ↔ ∃ r ∈ A, f r = t := fun t => by rw [hk]; exact pos f t
    have hr := fun r (hr : r ∈ A) => (seen (f r)).2 ⟨r, hr, rfl⟩
    have b4 : ∀ r ∈ A, (PrintTw.ttlStats T).2.1 ≤ f r := fun r hm => by
      have := a4 (f r) (by rw [hT]; exact hf r) (hr r hm)
      rw [Nat.zero_add] at this; exact this
    have b7 : ∀ r ∈ A, f r ≤ (PrintTw.ttlStats T).2.2 := fun r hm => by
      have := a7 (f r) (by rw [hT]; exact hf r) (hr r hm)
      rw [Nat.zero_add] at this; exact this
    refine ⟨by rw [Nat.zero_add] at a1; exact a1, ?_, ?_, fun r hm => ⟨b4 r hm, b7 r hm⟩⟩
    · rcases a2 with e | ⟨t, _, e1, e2⟩
      · refine ⟨r0, hr0, ?_⟩
        have := b4 r0 hr0
        have h2 := hf r0
        have e : (PrintTw.ttlStats T).2.1 = 255 := e
        omega
      · obtain ⟨r, h1, h2⟩ := (seen t).1 e1
        refine ⟨r, h1, ?_⟩
        rw [h2, show (PrintTw.ttlStats T).2.1 = 0 + t from e2, Nat.zero_add]
    · rcases a5 with e | ⟨t, _, e1, e2⟩
      · refine ⟨r0, hr0, ?_⟩
        have := b7 r0 hr0
        have e : (PrintTw.ttlStats T).2.2 = 0 := e
        omega
      · obtain ⟨r, h1, h2⟩ := (seen t).1 e1
        refine ⟨r, h1, ?_⟩
        rw [h2, show (PrintTw.ttlStats T).2.2 = 0 + t from e2, Nat.zero_add]
  obtain ⟨p1, p2, p3, p4⟩ := loop (fun r => r.sent.ttl.toNat) s.ttlF lF (fun r => r.sent.ttl.isLt) t1
  obtain ⟨q1, q2, q3, q4⟩ := loop (fun r => r.reflected.ttl.toNat) s.ttlB lB (fun r => r.reflected.ttl.isLt) t2
  constructor
  · intro e f hf
    simp only [List.mem_cons, Prod.mk.injEq, List.not_mem_nil, or_false] at hf
    rcases hf with ⟨rfl, rfl⟩ | ⟨rfl, rfl⟩
    · exact ⟨_, _, ⟨_, (V .minTtlF _ rfl).1 _ rfl, digits_numeral _⟩, ⟨_, (V .maxTtlF _ rfl).1 _ rfl, digits_numeral _⟩, p2, p3, p4⟩
    · exact ⟨_, _, ⟨_, (V .minTtlB _ rfl).1 _ rfl, digits_numeral _⟩, ⟨_, (V .maxTtlB _ rfl).1 _ rfl, digits_numeral _⟩, q2, q3, q4⟩
  · have count : ∀ (f : TWDataRec → Nat) (T : List Nat), T.length = 256 → (∀ r, f r < 256) → (∀ k, T.getD k 0 = A.countP fun r => f r = k) →
        (∃ t, t < 256 ∧ ∀ r ∈ A, f r ≠ t) → 0 < (T.countP fun n => decide (n ≠ 0)) % 2 ^ 8 := by
      intro f T hT hf hk ⟨t, ht, hn⟩
      have lo : 0 < T.countP fun n => decide (n ≠ 0) := by
        rw [List.countP_pos_iff]
        have hlt : f r0 < T.length := by rw [hT]; exact hf r0
        refine ⟨T[f r0], List.getElem_mem _, ?_⟩
        have : T.getD (f r0) 0 ≠ 0 := by rw [hk]; exact (pos f _).2 ⟨r0, hr0, rfl⟩
        rw [List.getD_eq_getElem?_getD, List.getElem?_eq_getElem hlt] at this
        simpa using this
      have hi : (T.countP fun n => decide (n ≠ 0)) < 256 := by
        have h1 := List.countP_le_length (p := fun n => decide (n ≠ 0)) (l := T)
        rcases Nat.lt_or_ge (T.countP fun n => decide (n ≠ 0)) 256 with h2 | h2
        · exact h2
        · have h3 := List.countP_eq_length.1 (Nat.le_antisymm h1 (by omega))
          have hlt : t < T.length := by rw [hT]; exact ht
          have h4 := h3 T[t] (List.getElem_mem _)
          have : T.getD t 0 ≠ 0 := by rw [List.getD_eq_getElem?_getD, List.getElem?_eq_getElem hlt]; simpa using h4
          rw [hk] at this
          obtain ⟨r, hr, e⟩ := (pos f t).1 this
          exact absurd e (hn r hr)
      omega
    have hpos : (PrintTw.ttlStats s.ttlF).1 + (PrintTw.ttlStats s.ttlB).1 > 0 := by
      obtain ⟨t, ht, hn | hn⟩ := notAll
      · have := count _ s.ttlF lF (fun r => r.sent.ttl.isLt) t1 ⟨t, ht, hn⟩
        rw [p1]; omega
      · have := count _ s.ttlB lB (fun r => r.reflected.ttl.isLt) t2 ⟨t, ht, hn⟩
        rw [q1]; omega
    have := (PrintTw.table_ttl F c i s h.fmt h.info L hL).1 hpos
    have e1 : ((List.range 256).filter fun t => A.any fun r => decide (r.sent.ttl.toNat = t ∨ r.reflected.ttl.toNat = t)) =
        (List.range 256).filter fun t => s.ttlF.getD t 0 ≠ 0 ∨ s.ttlB.getD t 0 ≠ 0 := by
      apply List.filter_congr
      intro t _
      rw [Bool.eq_iff_iff, List.any_eq_true, decide_eq_true_eq, t1, t2, pos (fun r => r.sent.ttl.toNat), pos (fun r => r.reflected.ttl.toNat)]
      constructor
      · rintro ⟨r, hr, e⟩
        rcases of_decide_eq_true e with e | e
        · exact .inl ⟨r, hr, e⟩
        · exact .inr ⟨r, hr, e⟩
      · rintro (⟨r, hr, e⟩ | ⟨r, hr, e⟩)
        · exact ⟨r, hr, decide_eq_true (.inl e)⟩
        · exact ⟨r, hr, decide_eq_true (.inr e)⟩
    rw [e1]
    simp only [← t1, ← t2]
    exact this

/-- In the example the packets came with TTL 60 and the replies with 61. -/
example : WideTable (twLines twDemo twRecords) ['T','T','L','B','U','C','K','E','T','S'] [(60, [4, 0]), (61, [0, 4])] ∧
    ∃ lo hi, Number (twLines twDemo twRecords) ['M','I','N','T','T','L','_','F','W','D'] lo ∧ Number (twLines twDemo twRecords) ['M','A','X','T','T','L','_','F','W','D'] hi ∧
      lo = 60 ∧ hi = 60 := by
  obtain ⟨h1, h2⟩ := C102_ttls_partial twDemo twRecords 0 (2 ^ 32 - 1) demoFmt demoInfo _ tw_reported _ rfl (by decide +kernel) ⟨0, by decide, by decide +kernel⟩
  have e : (((List.range 256).filter fun t => (answered (twAbout twDemo 0 (2 ^ 32 - 1) twRecords)).any fun r => decide (r.sent.ttl.toNat = t ∨ r.reflected.ttl.toNat = t)).map
      fun (t : Nat) => ((t : Int), [(answered (twAbout twDemo 0 (2 ^ 32 - 1) twRecords)).countP fun r => r.sent.ttl.toNat = t,
        (answered (twAbout twDemo 0 (2 ^ 32 - 1) twRecords)).countP fun r => r.reflected.ttl.toNat = t])) = [(60, [4, 0]), (61, [0, 4])] := by decide +kernel
  rw [e] at h2
  refine ⟨h2, ?_⟩
  obtain ⟨lo, hi, n1, n2, ⟨r, m1, e1⟩, ⟨r', m2, e2⟩, _⟩ := h1 ['_','F','W','D'] _ (List.mem_cons_self ..)
  have all : ∀ r ∈ answered (twAbout twDemo 0 (2 ^ 32 - 1) twRecords), r.sent.ttl.toNat = 60 := by decide +kernel
  exact ⟨lo, hi, n1, n2, by rw [← e1]; exact all r m1, by rw [← e2]; exact all r' m2⟩

/-- If no packet was answered, the report gives 255 as the least and 0 as the greatest TTL of both ways. -/
theorem C102_no_reply : ∃ rs, rs = [twLost 0 16] ∧
    TwReported { twDemo with npackets := 1 } rs 0 (2 ^ 32 - 1) demoFmt demoInfo (twLines { twDemo with npackets := 1 } rs) ∧
    answered (twAbout { twDemo with npackets := 1 } 0 (2 ^ 32 - 1) rs) = [] ∧
    Number (twLines { twDemo with npackets := 1 } rs) ['M','I','N','T','T','L','_','F','W','D'] 255 ∧
    Number (twLines { twDemo with npackets := 1 } rs) ['M','A','X','T','T','L','_','F','W','D'] 0 ∧
    Number (twLines { twDemo with npackets := 1 } rs) ['M','I','N','T','T','L','_','B','C','K'] 255 ∧
    Number (twLines { twDemo with npackets := 1 } rs) ['M','A','X','T','T','L','_','B','C','K'] 0 := by
  have hr : TwReported { twDemo with npackets := 1 } [twLost 0 16] 0 (2 ^ 32 - 1) demoFmt demoInfo (twLines { twDemo with npackets := 1 } [twLost 0 16]) :=
    twLines_reported _ _ (by decide +kernel) (by decide) (by unfold TwRange; decide +kernel) rfl (by unfold LossOnce; decide +kernel)
  refine ⟨_, rfl, hr, by decide +kernel, ?_⟩
  have hy : ((TwStats.parse { twDemo with npackets := 1 } [twLost 0 16] 0 0 (2 ^ 32 - 1)).toOption.map fun s => (PrintTw.ttlStats s.ttlF, PrintTw.ttlStats s.ttlB)) =
      some ((0, 255, 0), (0, 255, 0)) := by decide +kernel
  unfold twLines
  cases hp : TwStats.parse { twDemo with npackets := 1 } [twLost 0 16] 0 0 (2 ^ 32 - 1) with
  | error e => rw [hp] at hy; cases hy
  | ok s =>
    rw [hp] at hy
    have hy := Option.some.inj hy
    obtain ⟨h1, h2⟩ := Prod.mk.injEq _ _ _ _ ▸ hy
    have V := fun k name hn => value_says demoFmt { twDemo with npackets := 1 } demoInfo s demo_fmt demo_info _ rfl k name hn
    refine ⟨⟨_, (V .minTtlF _ rfl).1 _ rfl, ?_⟩, ⟨_, (V .maxTtlF _ rfl).1 _ rfl, ?_⟩, ⟨_, (V .minTtlB _ rfl).1 _ rfl, ?_⟩, ⟨_, (V .maxTtlB _ rfl).1 _ rfl, ?_⟩⟩
    · rw [h1]; exact digits_numeral _
    · rw [h1]; exact digits_numeral _
    · rw [h2]; exact digits_numeral _
    · rw [h2]; exact digits_numeral _

/-- A session of 256 packets: packet `k` comes with TTL `k`, and so does its reply. -/
def ttlTwRecords : List TWDataRec := (List.range 256).map fun k =>
  ⟨⟨BitVec.ofNat 32 k, twTime (16 * k + 16) true, twTime (16 * k + 17) true, BitVec.ofNat 8 k⟩,
    ⟨BitVec.ofNat 32 k, twTime (16 * k + 17) true, twTime (16 * k + 18) true, BitVec.ofNat 8 k⟩⟩

/-- If all 256 values occur on both ways, there is no table of TTLs, as if none had been seen. -/
theorem C102_all_ttls :
    TwReported { twDemo with npackets := 256 } ttlTwRecords 0 (2 ^ 32 - 1) demoFmt demoInfo (twLines { twDemo with npackets := 256 } ttlTwRecords) ∧
    (answered (twAbout { twDemo with npackets := 256 } 0 (2 ^ 32 - 1) ttlTwRecords)).length = 256 ∧
    NoTable (twLines { twDemo with npackets := 256 } ttlTwRecords) ['T','T','L','B','U','C','K','E','T','S'] := by
  have hr : TwReported { twDemo with npackets := 256 } ttlTwRecords 0 (2 ^ 32 - 1) demoFmt demoInfo (twLines { twDemo with npackets := 256 } ttlTwRecords) :=
    twLines_reported _ _ (by decide +kernel) (by decide +kernel) (by unfold TwRange; decide +kernel) rfl (by unfold LossOnce; decide +kernel)
  refine ⟨hr, by decide +kernel, ?_⟩
  have hy : ((TwStats.parse { twDemo with npackets := 256 } ttlTwRecords 0 0 (2 ^ 32 - 1)).toOption.map fun s =>
      (PrintTw.ttlStats s.ttlF).1 + (PrintTw.ttlStats s.ttlB).1) = some 0 := by decide +kernel
  unfold twLines
  cases hp : TwStats.parse { twDemo with npackets := 256 } ttlTwRecords 0 0 (2 ^ 32 - 1) with
  | error e => rw [hp] at hy; cases hy
  | ok s =>
    rw [hp] at hy
    have hy : (PrintTw.ttlStats s.ttlF).1 + (PrintTw.ttlStats s.ttlB).1 = 0 := Option.some.inj hy
    exact (PrintTw.table_ttl demoFmt _ demoInfo s demo_fmt demo_info _ rfl).2 (by omega)

end Owamp.Props
