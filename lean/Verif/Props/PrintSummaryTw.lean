import Verif.Model.PrintSummaryTw
import Verif.Props.PrintSummary
import Verif.Props.PrintTw
/-!
# C103: the summary that people read about a two-way session
-/
namespace Owamp.Props
open Owamp.Codec Owamp.Policy Owamp.Spec.Print Owamp.Spec.Ports Owamp.Spec.TwStats
open Owamp.Print (Style Info digits timeLine orNan)

/-- `L` are the lines of the summary of packets `first` up to but without `last` of a two-way session, with the percentiles `ps`, made with a fresh object from a file
with the records `rs`, in which no packet is recorded as lost twice and no number is in a skip range. Texts from outside have no newlines. -/
structure TwSummarised (c : TwStats.Cfg) (rs : List TWDataRec) (first last : Nat) (Z : Style) (i : Info) (ps : List (Rat × Bytes)) (L : List Bytes) : Prop where
  made : ∃ s oset, TwStats.parse c rs oset first last = .ok s ∧ L = textLines (PrintTw.summary Z c i s ps)
  size : rs.length < 2 ^ 32
  range : TwRange c first last
  clear : ∀ r ∈ twAbout c first last rs, Clear c r
  once : LossOnce (twAbout c first last rs)
  style : PlainStyle Z
  info : PlainInfo i
  names : ∀ p ∈ ps, 10#8 ∉ p.2

/-! ## Reading the lines -/

theorem read_tw_summary (Z : Style) (c : TwStats.Cfg) (i : Info) (s : TwStats.St) (ps : List (Rat × Bytes)) (hZ : PlainStyle Z) (hi : PlainInfo i) (hn : ∀ p ∈ ps, 10#8 ∉ p.2) :
    textLines (PrintTw.summary Z c i s ps) = PrintTw.warnLines s ++ PrintTw.summaryBody Z c i s ps := by
  unfold PrintTw.summary
  apply textLines_flatMap
  have A := @no_nl_append
  have tl : ∀ name t, 10#8 ∉ name → 10#8 ∉ timeLine Z name t := by
    intro name t hname
    unfold timeLine
    exact A (A hname (no_nl_cons (by decide) (hZ.date _))) (no_nl_cons (by decide) (Print.padded_plain _ _).2)
  have mi : ∀ j, 10#8 ∉ PrintTw.minText Z c s j := fun j => by
    refine no_nl_orNan _ fun x hx => ?_
    split at hx
    · cases hx
    · cases hx; exact hZ.delay _
  have ma : ∀ j, 10#8 ∉ PrintTw.maxText Z c s j := fun j => by
    refine no_nl_orNan _ fun x hx => ?_
    split at hx
    · cases hx
    · cases hx; exact hZ.delay _
  have pe : ∀ h alpha, 10#8 ∉ orNan ((TwStats.percentile Z.mul s h alpha).map Z.bucket) := fun h alpha => by
    refine no_nl_orNan _ fun x hx => ?_
    obtain ⟨b, _, rfl⟩ := Option.map_eq_some_iff.1 hx
    exact hZ.bucket b
  have dl : ∀ name j h, 10#8 ∉ name → 10#8 ∉ PrintTw.delayLine Z c s name j h := by
    intro name j h hname
    unfold PrintTw.delayLine
    refine A (A (A (A (A (A (A (A (A (A hname (by decide)) (mi j)) (by decide)) (pe _ _)) (by decide)) (ma j)) (by decide)) hZ.unit) (by decide)) ?_
    split
    · exact A (A (A (A (by decide) (hZ.err _)) (by decide)) hZ.unit) (by decide)
    · decide
  have jl : ∀ name h, 10#8 ∉ name → 10#8 ∉ PrintTw.jitterLine Z s name h := by
    intro name h hname
    unfold PrintTw.jitterLine
    refine A (A (A (A (A hname (by decide)) (no_nl_orNan _ fun x hx => ?_)) (by decide)) hZ.unit) (by decide)
    split at hx
    · cases hx; exact hZ.spread _ _
    · cases hx
  have tt : ∀ name h, 10#8 ∉ name → 10#8 ∉ PrintTw.ttlLine name h := by
    intro name h hname
    unfold PrintTw.ttlLine
    dsimp only
    split
    · exact A hname (by decide)
    · split
      · exact A (A (A hname (by decide)) (no_nl_digits _)) (by decide)
      · exact A (A (A (A (A (A hname (by decide)) (no_nl_digits _)) (by decide)) (no_nl_digits _)) (by decide)) (no_nl_digits _)
  intro l hl
  rcases List.mem_append.1 hl with hl | hl
  · unfold PrintTw.warnLines at hl
    split at hl
    · simp only [List.mem_cons, List.not_mem_nil, or_false] at hl
      rcases hl with rfl | rfl <;> decide
    · cases hl
  unfold PrintTw.summaryBody at hl
  rcases List.mem_append.1 hl with hl | hl
  · rcases List.mem_append.1 hl with hl | hl
    · simp only [List.mem_cons, List.not_mem_nil, or_false] at hl
      rcases hl with rfl | rfl | rfl | rfl | rfl | rfl | rfl | rfl | rfl | rfl | rfl | rfl | rfl
      · simp
      · exact A (A (A (A (A (A (A (A (by decide) hi.fromHost.2) (by decide)) hi.fromPort.2) (by decide)) hi.toHost.2) (by decide)) hi.toPort.2) (by decide)
      · exact A (by decide) (no_nl_cons (by decide) hi.sid.2)
      · exact tl _ _ (by decide)
      · exact tl _ _ (by decide)
      · unfold PrintTw.countLine
        refine A (A (A (A (A (A (A (A (A (no_nl_digits _) (by decide)) (no_nl_digits _)) (by decide)) ?_) (by decide)) (no_nl_digits _)) (by decide)) (no_nl_digits _)) (by decide)
        split <;> exact hZ.percent _ _
      · exact dl _ _ _ (by decide)
      · exact dl _ _ _ (by decide)
      · exact dl _ _ _ (by decide)
      · unfold PrintTw.processingLine
        exact A (A (A (A (A (by decide) (mi _)) (by decide)) (ma _)) (by decide)) hZ.unit
      · exact jl _ _ (by decide)
      · exact jl _ _ (by decide)
      · exact jl _ _ (by decide)
    · unfold PrintTw.percentileLines at hl
      split at hl
      · cases hl
      · rcases List.mem_cons.1 hl with rfl | hl
        · decide
        · obtain ⟨p, hp, rfl⟩ := List.mem_map.1 hl
          exact A (A (A (A (no_nl_cons (by decide) (hn p hp)) (by decide)) (pe _ _)) (by decide)) hZ.unit
  · simp only [List.mem_cons, List.not_mem_nil, or_false] at hl
    rcases hl with rfl | rfl | rfl
    · exact tt _ _ (by decide)
    · exact tt _ _ (by decide)
    · simp

theorem tw_percentileLines_length (Z : Style) (s : TwStats.St) (ps : List (Rat × Bytes)) : (PrintTw.percentileLines Z s ps).length = percentileCount ps := by
  unfold PrintTw.percentileLines percentileCount
  split
  · rfl
  · simp

theorem tw_summary_at (Z : Style) (c : TwStats.Cfg) (i : Info) (s : TwStats.St) (ps : List (Rat × Bytes)) :
    (∀ k, k < percentileCount ps → (PrintTw.summaryBody Z c i s ps)[13 + k]? = (PrintTw.percentileLines Z s ps)[k]?) ∧
    (PrintTw.summaryBody Z c i s ps).drop (13 + percentileCount ps) =
      [PrintTw.ttlLine (text ['s','e','n','d',' ']) s.ttlF, PrintTw.ttlLine (text ['r','e','f','l','e','c','t',' ']) s.ttlB, []] := by
  refine ⟨fun k hk => ?_, ?_⟩
  · unfold PrintTw.summaryBody
    rw [List.append_assoc, List.getElem?_append_right (by simp), List.getElem?_append_left (by simp [tw_percentileLines_length]; omega)]
    simp
  · unfold PrintTw.summaryBody
    rw [List.drop_append_of_le_length (by simp [tw_percentileLines_length]; omega), List.drop_of_length_le (by simp [tw_percentileLines_length]; omega)]
    rfl

/-- What the histograms of the summary give for a percentile. -/
theorem tw_percentile {c : TwStats.Cfg} {rs : List TWDataRec} {oset first last : Nat} {s : TwStats.St} (hr : TwRange c first last) (hlen : rs.length < 2 ^ 32)
    (hcl : ∀ r ∈ twAbout c first last rs, Clear c r) (h1 : LossOnce (twAbout c first last rs)) (hp : TwStats.parse c rs oset first last = .ok s)
    (D : List TWDataRec) (hD : D = twAbout c first last rs) (mul : Rat → Nat → Rat) (hm : ∀ alpha : Rat, ∀ n : Nat, 0 < alpha → 0 < n → 0 < mul alpha n)
    (alpha : Rat) (h0 : 0 < alpha) (f : TWDataRec → Int) (hh : List (Int × Nat)) (hf : (f, hh) ∈ [(trip c, s.hist), (out c, s.histF), (back c, s.histB)]) :
    (∃ b, IsPercentile (fun r => c.bucket (f r)) (answered D) (mul alpha (Spec.TwStats.firsts seqOf D).length) b ∧ TwStats.percentile mul s hh alpha = some b) ∨
    (answered D = [] ∨ ((answered D).length : Rat) < mul alpha (Spec.TwStats.firsts seqOf D).length) ∧ TwStats.percentile mul s hh alpha = none := by
  by_cases hn : 0 < (Spec.TwStats.firsts seqOf D).length
  · obtain ⟨p1, p2⟩ := C75_percentile_partial c rs oset first last s hr hlen hcl h1 hp mul alpha D _ hD rfl (hm alpha _ h0 hn) f hh hf
    cases hq : TwStats.percentile mul s hh alpha with
    | some b => exact .inl ⟨b, (p1 b).1 hq, rfl⟩
    | none => exact .inr ⟨p2.1 hq, rfl⟩
  · right
    have g := tw_says hr hlen hcl hp
    rw [← hD] at g
    have hz : answered D = [] := by
      have c1 := (C75_counts_partial c rs oset first last s hr hlen hcl h1 hp D hD).1
      have c2 := g.sent
      apply List.eq_nil_of_length_eq_zero
      show (Spec.TwStats.firsts seqOf (replies D)).length = 0
      omega
    have hh' : TwStats.Hist (fun r => c.bucket (f r)) (answered D) hh := by
      simp only [List.mem_cons, Prod.mk.injEq, List.not_mem_nil, or_false] at hf
      rcases hf with ⟨rfl, rfl⟩ | ⟨rfl, rfl⟩ | ⟨rfl, rfl⟩
      · exact g.fig.hist
      · exact g.fig.histF
      · exact g.fig.histB
    have hnil : hh = [] := by
      cases hc : hh with
      | nil => rfl
      | cons x l =>
        have h1 := Stats.mem_total (fun _ => true) hh x (by rw [hc]; simp) rfl
        rw [hh'.count, hz] at h1
        have h2 := hh'.tidy.pos x (by rw [hc]; simp)
        simp at h1
        omega
    refine ⟨.inl hz, ?_⟩
    unfold TwStats.percentile Stats.sorted
    rw [hnil, List.mergeSort_nil]; rfl

/-! An example: the summary of the session of C75. -/

/-- What people read about a session, if there is a summary. -/
def twText (c : TwStats.Cfg) (rs : List TWDataRec) (ps : List (Rat × Bytes)) : List Bytes :=
  match TwStats.parse c rs 0 0 (2 ^ 32 - 1) with
  | .error _ => []
  | .ok s => textLines (PrintTw.summary demoStyle c demoInfo s ps)

theorem twText_summarised (c : TwStats.Cfg) (rs : List TWDataRec) (ps : List (Rat × Bytes)) (hok : (TwStats.parse c rs 0 0 (2 ^ 32 - 1)).toOption.isSome = true)
    (hl : rs.length < 2 ^ 32) (hr : TwRange c 0 (2 ^ 32 - 1)) (hs : c.skips = []) (h1 : LossOnce (twAbout c 0 (2 ^ 32 - 1) rs)) (hn : ∀ p ∈ ps, 10#8 ∉ p.2) :
    TwSummarised c rs 0 (2 ^ 32 - 1) demoStyle demoInfo ps (twText c rs ps) := by
  refine ⟨?_, hl, hr, ?_, h1, demo_style, demo_info, hn⟩
  · unfold twText
    cases h : TwStats.parse c rs 0 0 (2 ^ 32 - 1) with
    | error e => rw [h] at hok; cases hok
    | ok s => exact ⟨s, 0, h, rfl⟩
  · intro r _
    refine ⟨fun ⟨k, hk, _⟩ => ?_, fun _ ⟨k, hk, _⟩ => ?_⟩ <;> rw [hs] at hk <;> cases hk

theorem tw_summarised : TwSummarised twDemo twRecords 0 (2 ^ 32 - 1) demoStyle demoInfo [(80, text ['8','0','.','0'])] (twText twDemo twRecords [(80, text ['8','0','.','0'])]) :=
  twText_summarised _ _ _ (by decide +kernel) (by decide) twDemo_range rfl (by unfold LossOnce; decide +kernel) (by decide)

/-! ## The lines -/

/-- What stands for the least of the delays: its text, or "nan" if none is below the value for lost packets. -/
def LeastText (Z : Style) (inf : Int) (D : List Int) (t : Bytes) : Prop :=
  (∃ m ∈ D, m < inf ∧ (∀ d ∈ D, m ≤ d) ∧ t = Z.delay m) ∨ (∀ d ∈ D, inf ≤ d) ∧ t = text ['n','a','n']

/-- What stands for the greatest. -/
def GreatestText (Z : Style) (inf : Int) (D : List Int) (t : Bytes) : Prop :=
  (∃ m ∈ D, -inf < m ∧ (∀ d ∈ D, d ≤ m) ∧ t = Z.delay m) ∨ (∀ d ∈ D, d ≤ -inf) ∧ t = text ['n','a','n']

/-- `A` has no percentile of the bucket for `t` packets: there are not so many. -/
def TooFew (A : List TWDataRec) (t : Rat) : Prop := A = [] ∨ (A.length : Rat) < t

/-- The three delays that have a median, by the names that the lines for the delay and for its variation give them, and with the error that goes with them. -/
def twLinesOf (c : TwStats.Cfg) : List (List Char × List Char × (TWDataRec → Int) × (TWDataRec → Nat)) :=
  [(['r','o','u','n','d','-','t','r','i','p',' ','t','i','m','e'], ['t','w','o','-','w','a','y'], trip c, errTrip),
   (['s','e','n','d',' ','t','i','m','e'], ['s','e','n','d'], out c, errOut),
   (['r','e','f','l','e','c','t',' ','t','i','m','e'], ['r','e','f','l','e','c','t'], back c, errBack)]

theorem least_text {Z : Style} {c : TwStats.Cfg} {s : TwStats.St} {j : Nat} {D : List Int} (h : Spec.Stats.LeastOf c.inf D (s.min.getD j 0)) :
    LeastText Z c.inf D (PrintTw.minText Z c s j) := by
  unfold PrintTw.minText LeastText
  by_cases hm : s.min.getD j 0 ≥ c.inf
  · right
    rw [if_pos hm]
    exact ⟨fun d hd => by have := h.2.2 d hd; omega, rfl⟩
  · left
    rw [if_neg hm]
    refine ⟨_, ?_, by omega, h.2.2, rfl⟩
    rcases h.1 with e | e
    · omega
    · exact e

theorem greatest_text {Z : Style} {c : TwStats.Cfg} {s : TwStats.St} {j : Nat} {D : List Int} (h : Spec.Stats.GreatestOf (-c.inf) D (s.max.getD j 0)) :
    GreatestText Z c.inf D (PrintTw.maxText Z c s j) := by
  unfold PrintTw.maxText GreatestText
  by_cases hm : s.max.getD j 0 ≤ -c.inf
  · right
    rw [if_pos hm]
    exact ⟨fun d hd => by have := h.2.2 d hd; omega, rfl⟩
  · left
    rw [if_neg hm]
    refine ⟨_, ?_, by omega, h.2.2, rfl⟩
    rcases h.1 with e | e
    · omega
    · exact e

/-- **C103** for warning, heading, counts and delays (partial: nothing is said about whether the error is given or that clocks were unsynchronised, and about the time of the
last packet, both of which are wrong, see `C103_synchronised` and `C103_end_time`). The summary begins with the warning that the clocks differ exactly if a reply took a negative
time on one of the ways. Then come: from where to where the packets went, and which session it is; the numbers of packets sent and lost with the share of the lost, of
copies beyond the first on the way out and on the way back; the least, median and greatest round-trip time, way out and way back, with the greatest
error where it is given; the least and greatest time at the reflector; the variations of the three delays; and the percentiles of the round trip that were asked for. The floating
point product of a positive share and a positive number is positive. -/
theorem C103_figures_partial (c : TwStats.Cfg) (rs : List TWDataRec) (first last : Nat) (Z : Style) (i : Info) (ps : List (Rat × Bytes)) (L : List Bytes)
    (h : TwSummarised c rs first last Z i ps L) (D R A : List TWDataRec) (hD : D = twAbout c first last rs) (hR : R = replies D) (hA : A = answered D)
    (n : Nat) (hn : n = (Spec.TwStats.firsts seqOf D).length) (hm : ∀ alpha : Rat, ∀ n : Nat, 0 < alpha → 0 < n → 0 < Z.mul alpha n) :
    ∃ W M, L = W ++ M ∧
    ((∃ r ∈ R, out c r < 0 ∨ back c r < 0) → W = [[], text ['D','i','r','e','c','t','i','o','n','a','l',' ','d','e','l','a','y','s',' ','m','a','y',' ','b','e',' ',
      'i','n','a','c','c','u','r','a','t','e',' ','d','u','e',' ','t','o',' ','o','u','t',' ','o','f',' ','s','y','n','c',' ','c','l','o','c','k','s','!']]) ∧
    ((∀ r ∈ R, 0 ≤ out c r ∧ 0 ≤ back c r) → W = []) ∧
    M.length = 16 + percentileCount ps ∧ M[0]? = some [] ∧
    M[1]? = some (text ['-','-','-',' ','t','w','p','i','n','g',' ','s','t','a','t','i','s','t','i','c','s',' ','f','r','o','m',' ','['] ++ i.fromHost ++ text [']',':'] ++ i.fromPort ++
      text [' ','t','o',' ','['] ++ i.toHost ++ text [']',':'] ++ i.toPort ++ text [' ','-','-','-']) ∧
    M[2]? = some (text ['S','I','D',':'] ++ [9#8] ++ i.sid) ∧
    M[5]? = some (decimal n ++ text [' ','s','e','n','t',',',' '] ++ decimal (losses D).length ++ text [' ','l','o','s','t',' ','('] ++
      (if n = 0 then Z.percent 0 1 else Z.percent (losses D).length n) ++ text ['%',')',',',' '] ++ decimal ((returned D).length - A.length) ++
      text [' ','s','e','n','d',' ','d','u','p','l','i','c','a','t','e','s',',',' '] ++ decimal (R.length - (returned D).length) ++
      text [' ','r','e','f','l','e','c','t',' ','d','u','p','l','i','c','a','t','e','s']) ∧
    (∀ j name var f err, (twLinesOf c)[j]? = some (name, var, f, err) →
      (∃ a b d e m, M[6 + j]? = some (text name ++ text [' ','m','i','n','/','m','e','d','i','a','n','/','m','a','x',' ','=',' '] ++
          a ++ text ['/'] ++ b ++ text ['/'] ++ d ++ text [' '] ++ Z.unit ++ text [',',' '] ++ e) ∧
        LeastText Z c.inf (R.map f) a ∧ GreatestText Z c.inf (R.map f) d ∧
        ((∃ q, IsPercentile (fun r => c.bucket (f r)) A (Z.mul (1 / 2) n) q ∧ b = Z.bucket q) ∨ TooFew A (Z.mul (1 / 2) n) ∧ b = text ['n','a','n']) ∧
        Spec.Stats.GreatestOf 0 (D.map fun r => (err r : Int)) (m : Nat) ∧
        (e = text ['(','e','r','r','='] ++ Z.err m ++ text [' '] ++ Z.unit ++ text [')'] ∨ e = text ['(','u','n','s','y','n','c',')'])) ∧
      ∃ v, M[10 + j]? = some (text var ++ text [' ','j','i','t','t','e','r',' ','=',' '] ++ v ++ text [' '] ++ Z.unit ++ text [' ','(','P','9','5','-','P','5','0',')']) ∧
        ((∃ p q, IsPercentile (fun r => c.bucket (f r)) A (Z.mul (95 / 100) n) p ∧ IsPercentile (fun r => c.bucket (f r)) A (Z.mul (1 / 2) n) q ∧ v = Z.spread p q) ∨
          (TooFew A (Z.mul (95 / 100) n) ∨ TooFew A (Z.mul (1 / 2) n)) ∧ v = text ['n','a','n'])) ∧
    (∃ a d, M[9]? = some (text ['r','e','f','l','e','c','t','o','r',' ','p','r','o','c','e','s','s','i','n','g',' ','t','i','m','e',' ','m','i','n','/','m','a','x',' ','=',' '] ++
        a ++ text ['/'] ++ d ++ text [' '] ++ Z.unit) ∧
      LeastText Z c.inf (R.map (held c)) a ∧ GreatestText Z c.inf (R.map (held c)) d) ∧
    (∀ (k : Nat) (p : Rat × Bytes), ps[k]? = some p → 0 < p.1 → ∃ t, M[14 + k]? = some (9#8 :: p.2 ++ text [':',' '] ++ t ++ text [' '] ++ Z.unit) ∧
      ((∃ q, IsPercentile (fun r => c.bucket (trip c r)) A (Z.mul (p.1 / 100) n) q ∧ t = Z.bucket q) ∨ TooFew A (Z.mul (p.1 / 100) n) ∧ t = text ['n','a','n'])) := by
  obtain ⟨s, oset, hp, hL⟩ := h.made
  rw [read_tw_summary Z c i s ps h.style h.info h.names] at hL
  obtain ⟨c1, c2, c3, c4, _⟩ := C75_counts_partial c rs oset first last s h.range h.size h.clear h.once hp D hD
  obtain ⟨⟨a, b, d, e, m0, m1, m2, m3, m4⟩, ⟨a', b', d', e', x0, x1, x2, x3, x4⟩, ho⟩ := C75_delays c rs oset first last s h.range h.size h.clear hp R (by rw [hR, hD])
  obtain ⟨⟨ea, eb, ed, e0, e1, e2, e3⟩, _⟩ := C75_errors_ttls c rs oset first last s h.range h.size h.clear hp D hD
  have P := fun alpha h0 f hh hf => tw_percentile h.range h.size h.clear h.once hp D hD Z.mul hm alpha h0 f hh hf
  rw [← hA, ← hn] at P
  rw [← hn] at c1
  rw [← hA] at c3
  rw [← hR] at c4
  have one : ∀ (f : TWDataRec → Int) (hh : List (Int × Nat)), (f, hh) ∈ [(trip c, s.hist), (out c, s.histF), (back c, s.histB)] → ∀ alpha : Rat, 0 < alpha →
      (∃ q, IsPercentile (fun r => c.bucket (f r)) A (Z.mul alpha n) q ∧ orNan ((TwStats.percentile Z.mul s hh alpha).map Z.bucket) = Z.bucket q) ∨
        TooFew A (Z.mul alpha n) ∧ orNan ((TwStats.percentile Z.mul s hh alpha).map Z.bucket) = text ['n','a','n'] := by
    intro f hh hf alpha h0
    rcases P alpha h0 f hh hf with ⟨q, h1, h2⟩ | ⟨h1, h2⟩
    · exact .inl ⟨q, h1, by rw [h2]; rfl⟩
    · exact .inr ⟨h1, by rw [h2]; rfl⟩
  have var : ∀ (f : TWDataRec → Int) (hh : List (Int × Nat)), (f, hh) ∈ [(trip c, s.hist), (out c, s.histF), (back c, s.histB)] →
      ∃ v, orNan (match TwStats.percentile Z.mul s hh (95 / 100), TwStats.percentile Z.mul s hh (1 / 2) with
        | some a, some b => some (Z.spread a b)
        | _, _ => none) = v ∧
      ((∃ p q, IsPercentile (fun r => c.bucket (f r)) A (Z.mul (95 / 100) n) p ∧ IsPercentile (fun r => c.bucket (f r)) A (Z.mul (1 / 2) n) q ∧ v = Z.spread p q) ∨
        (TooFew A (Z.mul (95 / 100) n) ∨ TooFew A (Z.mul (1 / 2) n)) ∧ v = text ['n','a','n']) := by
    intro f hh hf
    rcases P (95 / 100) (by decide +kernel) f hh hf with ⟨p, h1, h2⟩ | ⟨h1, h2⟩
    · rcases P (1 / 2) (by decide +kernel) f hh hf with ⟨q, h3, h4⟩ | ⟨h3, h4⟩
      · exact ⟨Z.spread p q, by rw [h2, h4]; rfl, .inl ⟨p, q, h1, h3, rfl⟩⟩
      · exact ⟨text ['n','a','n'], by rw [h2, h4]; rfl, .inr ⟨.inr h3, rfl⟩⟩
    · exact ⟨text ['n','a','n'], by rw [h2]; rfl, .inr ⟨.inl h1, rfl⟩⟩
  have err : ∀ j, ∃ e, (if s.sync then text ['(','e','r','r','='] ++ Z.err (s.maxerr.getD j 0) ++ text [' '] ++ Z.unit ++ text [')'] else text ['(','u','n','s','y','n','c',')']) = e ∧
      (e = text ['(','e','r','r','='] ++ Z.err (s.maxerr.getD j 0) ++ text [' '] ++ Z.unit ++ text [')'] ∨ e = text ['(','u','n','s','y','n','c',')']) := by
    intro j
    by_cases hs : s.sync = true
    · exact ⟨_, rfl, by rw [if_pos hs]; exact .inl rfl⟩
    · exact ⟨_, rfl, by rw [if_neg hs]; exact .inr rfl⟩
  refine ⟨PrintTw.warnLines s, PrintTw.summaryBody Z c i s ps, hL, fun hw => ?_, fun hw => ?_, ?_, rfl, rfl, rfl, ?_, fun j name va f er hj => ?_, ?_, fun k p hk h0 => ?_⟩
  · unfold PrintTw.warnLines
    rw [if_pos (ho.2 hw)]
  · unfold PrintTw.warnLines
    rw [if_neg (fun hs => ?_)]
    obtain ⟨r, h1, h2⟩ := ho.1 hs
    have := hw r h1
    omega
  · unfold PrintTw.summaryBody
    rw [List.length_append, List.length_append, tw_percentileLines_length]
    show 13 + percentileCount ps + 3 = _
    omega
  · show some (PrintTw.countLine Z s) = _
    unfold PrintTw.countLine
    rw [Print.digits_decimal, Print.digits_decimal, Print.digits_decimal, Print.digits_decimal, c1, c2, show (returned D).length - A.length = s.dupsF by omega,
      show R.length - (returned D).length = s.dupsB by omega]
    by_cases hz : n = 0
    · rw [if_neg (by omega), if_pos hz]
    · rw [if_pos (by omega), if_neg hz]
  · match j, hj with
    | 0, hj =>
      cases hj
      obtain ⟨ex, hex, hex'⟩ := err 0
      obtain ⟨v, hv, hv'⟩ := var (trip c) s.hist (by simp)
      refine ⟨⟨_, _, _, ex, s.maxerr.getD 0 0, by rw [← hex]; rfl, least_text (by rw [m0]; exact m1), greatest_text (by rw [x0]; exact x1), one _ s.hist (by simp) _ (by decide +kernel),
        by rw [e0]; exact e1, hex'⟩, v, by rw [← hv]; rfl, hv'⟩
    | 1, hj =>
      cases hj
      obtain ⟨ex, hex, hex'⟩ := err 1
      obtain ⟨v, hv, hv'⟩ := var (out c) s.histF (by simp)
      refine ⟨⟨_, _, _, ex, s.maxerr.getD 1 0, by rw [← hex]; rfl, least_text (by rw [m0]; exact m2), greatest_text (by rw [x0]; exact x2), one _ s.histF (by simp) _ (by decide +kernel),
        by rw [e0]; exact e2, hex'⟩, v, by rw [← hv]; rfl, hv'⟩
    | 2, hj =>
      cases hj
      obtain ⟨ex, hex, hex'⟩ := err 2
      obtain ⟨v, hv, hv'⟩ := var (back c) s.histB (by simp)
      refine ⟨⟨_, _, _, ex, s.maxerr.getD 2 0, by rw [← hex]; rfl, least_text (by rw [m0]; exact m3), greatest_text (by rw [x0]; exact x3), one _ s.histB (by simp) _ (by decide +kernel),
        by rw [e0]; exact e3, hex'⟩, v, by rw [← hv]; rfl, hv'⟩
  · exact ⟨_, _, rfl, least_text (by rw [m0]; exact m4), greatest_text (by rw [x0]; exact x4)⟩
  · have hne : ps ≠ [] := fun e => by rw [e] at hk; cases hk
    have hlt := (List.getElem?_eq_some_iff.1 hk).1
    refine ⟨_, ?_, one _ s.hist (by simp) (p.1 / 100) (by rw [Rat.div_def]; exact Rat.mul_pos h0 (by decide +kernel))⟩
    rw [show 14 + k = 13 + (k + 1) by omega, (tw_summary_at Z c i s ps).1 (k + 1) (by unfold percentileCount; rw [if_neg hne]; omega)]
    unfold PrintTw.percentileLines
    rw [if_neg hne, List.getElem?_cons_succ, List.getElem?_map, hk]
    rfl

/-- The lines of the example: five packets sent, one lost, one reflected twice, one reply that came twice; there is no warning; the median of the round trip is in bucket 6. -/
example : (twText twDemo twRecords [(80, text ['8','0','.','0'])])[5]? = some (text ['5',' ','s','e','n','t',',',' ','1',' ','l','o','s','t',' ','(','2','0','%',')',',',' ',
      '1',' ','s','e','n','d',' ','d','u','p','l','i','c','a','t','e','s',',',' ','1',' ','r','e','f','l','e','c','t',' ','d','u','p','l','i','c','a','t','e','s']) ∧
    ∃ a b d e, (twText twDemo twRecords [(80, text ['8','0','.','0'])])[6]? = some (text ['r','o','u','n','d','-','t','r','i','p',' ','t','i','m','e',' ','m','i','n','/',
      'm','e','d','i','a','n','/','m','a','x',' ','=',' '] ++ a ++ text ['/'] ++ b ++ text ['/'] ++ d ++ text [' ','m','s',',',' '] ++ e) ∧ b = text ['6'] := by
  obtain ⟨W, M, h0, _, h2, _, _, _, _, h5, h6, _⟩ := C103_figures_partial twDemo twRecords 0 (2 ^ 32 - 1) demoStyle demoInfo _ _ tw_summarised _ _ _ rfl rfl rfl _ rfl
    (fun a n ha hn => Rat.mul_pos ha (by exact_mod_cast hn))
  rw [h0, h2 (by decide +kernel), List.nil_append]
  refine ⟨by rw [h5]; decide +kernel, ?_⟩
  obtain ⟨⟨a, b, d, e, m, g1, _, _, g2, _⟩, _⟩ := h6 0 _ _ _ _ rfl
  refine ⟨a, b, d, e, by rw [g1]; simp only [List.append_assoc]; rfl, ?_⟩
  have e5 : (Spec.TwStats.firsts seqOf (twAbout twDemo 0 (2 ^ 32 - 1) twRecords)).length = 5 := by decide +kernel
  have e6 : IsPercentile (fun r => twDemo.bucket (trip twDemo r)) (answered (twAbout twDemo 0 (2 ^ 32 - 1) twRecords)) (demoStyle.mul (1 / 2) 5) 6 := by
    unfold IsPercentile; decide +kernel
  rw [e5] at g2
  rcases g2 with ⟨q, q1, q2⟩ | ⟨q1, _⟩
  · rw [q2]
    have : q = 6 := by
      obtain ⟨⟨r, r1, r2⟩, p2, p3⟩ := q1
      obtain ⟨⟨r', r1', r2'⟩, p2', p3'⟩ := e6
      rcases Int.lt_trichotomy q 6 with hl | hl | hl
      · exact absurd (by have := p3' r r1 (by rw [r2]; exact hl); rw [r2] at this; exact this) p2
      · exact hl
      · exact absurd (by have := p3 r' r1' (by rw [r2']; exact hl); rw [r2'] at this; exact this) p2'
    rw [this]; decide +kernel
  · exact absurd q1 (by unfold TooFew; decide +kernel)

/-- With a reply that seems to come back before it left, the summary begins with the warning. -/
example : (twText { twDemo with npackets := 1 } [twGot 0 0 16 18 19 18] [])[1]? = some (text ['D','i','r','e','c','t','i','o','n','a','l',' ','d','e','l','a','y','s',' ','m','a','y',' ',
    'b','e',' ','i','n','a','c','c','u','r','a','t','e',' ','d','u','e',' ','t','o',' ','o','u','t',' ','o','f',' ','s','y','n','c',' ','c','l','o','c','k','s','!']) := by
  obtain ⟨W, M, h0, h1, _⟩ := C103_figures_partial { twDemo with npackets := 1 } [twGot 0 0 16 18 19 18] 0 (2 ^ 32 - 1) demoStyle demoInfo [] _
    (twText_summarised _ _ _ (by decide +kernel) (by decide) (by unfold TwRange; decide +kernel) rfl (by unfold LossOnce; decide +kernel) nofun) _ _ _ rfl rfl rfl _ rfl
    (fun a n ha hn => Rat.mul_pos ha (by exact_mod_cast hn))
  rw [h0, h1 (by decide +kernel)]
  rfl

/-! ## Times -/

/-- **C103** for the time of the first packet (partial: not in the last half millisecond of a second, see `C85_fraction`; for the last packet see `C103_end_time`): it is the one
that was scheduled, to the millisecond. The line is the fourth, or the sixth after a warning. -/
theorem C103_first_partial (c : TwStats.Cfg) (rs : List TWDataRec) (first last : Nat) (Z : Style) (i : Info) (ps : List (Rat × Bytes)) (L : List Bytes)
    (h : TwSummarised c rs first last Z i ps L) (hR : Rounds Z.ms) (T : Nat) (hT : T = c.times first) (h64 : T < 2 ^ 64)
    (hf : Spec.Receiver.unixNanos T % 1000000000 < 999499936) (k : Nat)
    (hk : k = if (replies (twAbout c first last rs)).any fun r => decide (out c r < 0 ∨ back c r < 0) then 2 else 0) :
    ∃ l v, L[k + 3]? = some l ∧ ShowsTime Z.date ['f','i','r','s','t',':'] l v ∧
      v * 1000000 ≤ Spec.Receiver.unixNanos T + 500064 ∧ Spec.Receiver.unixNanos T ≤ v * 1000000 + 500064 := by
  obtain ⟨s, oset, hp, hL⟩ := h.made
  rw [read_tw_summary Z c i s ps h.style h.info h.names] at hL
  obtain ⟨_, _, ho⟩ := C75_delays c rs oset first last s h.range h.size h.clear hp _ rfl
  obtain ⟨_, _, _, t0⟩ := C75_errors_ttls c rs oset first last s h.range h.size h.clear hp _ rfl
  obtain ⟨v, v1, v2⟩ := time_line Z hR ['f','i','r','s','t',':'] T h64 hf
  have hw : (PrintTw.warnLines s).length = k := by
    have e : ((replies (twAbout c first last rs)).any fun r => decide (out c r < 0 ∨ back c r < 0)) = s.offset := by
      rw [Bool.eq_iff_iff, ho, List.any_eq_true]
      simp only [decide_eq_true_eq]
    rw [hk, e]
    unfold PrintTw.warnLines
    cases s.offset <;> rfl
  refine ⟨_, v, ?_, v1, v2⟩
  rw [hL, List.getElem?_append_right (by omega), show k + 3 - (PrintTw.warnLines s).length = 3 by omega, hT, ← t0]
  rfl

/-- The first packet of the example is due at the start of the session. -/
example : ∃ l v, (twText twDemo twRecords [(80, text ['8','0','.','0'])])[0 + 3]? = some l ∧ ShowsTime Print.signed ['f','i','r','s','t',':'] l v := by
  obtain ⟨l, v, h1, h2, _⟩ := C103_first_partial twDemo twRecords 0 (2 ^ 32 - 1) demoStyle demoInfo _ _ tw_summarised exactMs_rounds _ rfl (by decide +kernel) (by decide +kernel) 0
    (by decide +kernel)
  exact ⟨l, v, h1, h2⟩

/-- The time of the last packet is wrong: of two packets the summary gives that of the first, in both lines. -/
theorem C103_end_time : ∃ rs L, rs = [twGot 0 0 16 18 19 22, twGot 0 1 16 20 21 24, twLost 1 32] ∧
    TwSummarised { twDemo with npackets := 2 } rs 0 (2 ^ 32 - 1) demoStyle demoInfo [] L ∧
    L[4]? = some (timeLine demoStyle (text ['l','a','s','t',':']) (twDemo.times 0)) ∧ twDemo.times 0 < twDemo.times 1 := by
  have hr : TwSummarised { twDemo with npackets := 2 } [twGot 0 0 16 18 19 22, twGot 0 1 16 20 21 24, twLost 1 32] 0 (2 ^ 32 - 1) demoStyle demoInfo []
      (twText { twDemo with npackets := 2 } [twGot 0 0 16 18 19 22, twGot 0 1 16 20 21 24, twLost 1 32] []) :=
    twText_summarised _ _ _ (by decide +kernel) (by decide) (by unfold TwRange; decide +kernel) rfl (by unfold LossOnce; decide +kernel) nofun
  refine ⟨_, _, rfl, hr, ?_, C75_end_time.2⟩
  have hy : ((TwStats.parse { twDemo with npackets := 2 } [twGot 0 0 16 18 19 22, twGot 0 1 16 20 21 24, twLost 1 32] 0 0 (2 ^ 32 - 1)).toOption.map fun s =>
      (s.endTime, s.offset)) = some (twDemo.times 0, false) := by decide +kernel
  unfold twText
  cases hp : TwStats.parse { twDemo with npackets := 2 } [twGot 0 0 16 18 19 22, twGot 0 1 16 20 21 24, twLost 1 32] 0 0 (2 ^ 32 - 1) with
  | error e => rw [hp] at hy; cases hy
  | ok s =>
    rw [hp] at hy
    have hy : some (s.endTime, s.offset) = some (twDemo.times 0, false) := hy
    have hy := Option.some.inj hy
    have h1 : s.endTime = twDemo.times 0 := congrArg Prod.fst hy
    have h2 : s.offset = false := congrArg Prod.snd hy
    dsimp only
    rw [read_tw_summary _ _ _ _ [] demo_style demo_info nofun]
    unfold PrintTw.warnLines
    rw [h2, ← h1]
    rfl

/-- The summary gives an error though no clock was synchronised for any time stamp. -/
theorem C103_synchronised : ∃ rs L l m, rs = [twGot 0 0 16 18 19 22 false] ∧
    TwSummarised { twDemo with npackets := 1 } rs 0 (2 ^ 32 - 1) demoStyle demoInfo [] L ∧
    (∀ r ∈ rs, r.sent.send.sync = false ∧ r.sent.recv.sync = false ∧ r.reflected.send.sync = false ∧ r.reflected.recv.sync = false) ∧
    L[6]? = some (l ++ text ['(','e','r','r','='] ++ decimal m ++ text [' ','m','s',')']) := by
  have hr : TwSummarised { twDemo with npackets := 1 } [twGot 0 0 16 18 19 22 false] 0 (2 ^ 32 - 1) demoStyle demoInfo []
      (twText { twDemo with npackets := 1 } [twGot 0 0 16 18 19 22 false] []) :=
    twText_summarised _ _ _ (by decide +kernel) (by decide) (by unfold TwRange; decide +kernel) rfl (by unfold LossOnce; decide +kernel) nofun
  have hy : ((TwStats.parse { twDemo with npackets := 1 } [twGot 0 0 16 18 19 22 false] 0 0 (2 ^ 32 - 1)).toOption.map fun s =>
      (s.sync, s.offset)) = some (true, false) := by decide +kernel
  cases hp : TwStats.parse { twDemo with npackets := 1 } [twGot 0 0 16 18 19 22 false] 0 0 (2 ^ 32 - 1) with
  | error e => rw [hp] at hy; cases hy
  | ok s =>
    rw [hp] at hy
    have hy : some (s.sync, s.offset) = some (true, false) := hy
    have hy := Option.some.inj hy
    have h1 : s.sync = true := congrArg Prod.fst hy
    have h2 : s.offset = false := congrArg Prod.snd hy
    refine ⟨_, _, text ['r','o','u','n','d','-','t','r','i','p',' ','t','i','m','e',' ','m','i','n','/','m','e','d','i','a','n','/','m','a','x',' ','=',' '] ++
      PrintTw.minText demoStyle { twDemo with npackets := 1 } s 0 ++ text ['/'] ++ orNan ((TwStats.percentile demoStyle.mul s s.hist (1 / 2)).map demoStyle.bucket) ++ text ['/'] ++
      PrintTw.maxText demoStyle { twDemo with npackets := 1 } s 0 ++ text [' ','m','s',',',' '], s.maxerr.getD 0 0, rfl, hr, by decide +kernel, ?_⟩
    unfold twText
    rw [hp]
    dsimp only
    rw [read_tw_summary _ _ _ _ [] demo_style demo_info nofun]
    unfold PrintTw.warnLines
    rw [h2]
    show some (PrintTw.delayLine demoStyle _ s _ 0 s.hist) = _
    unfold PrintTw.delayLine
    rw [if_pos h1, show demoStyle.err (s.maxerr.getD 0 0) = decimal _ from Print.digits_decimal _]
    simp only [List.append_assoc]
    rfl

/-! ## Hops -/

/-- The line about the hops of one way, on which the packets first answered came with the TTLs `T`: none, if there is none; if all came with the same TTL, the hops that it means for
packets sent with 255; and otherwise how many values there are, the fewest hops, which are those of the greatest TTL, and the most. -/
structure HopsLine (name : List Char) (T : List Nat) (l : Bytes) : Prop where
  none : T = [] → l = text name ++ text ['T','T','L',' ','n','o','t',' ','r','e','p','o','r','t','e','d']
  one : ∀ t ∈ T, (∀ t' ∈ T, t' = t) → l = text name ++ text ['h','o','p','s',' ','=',' '] ++ decimal (255 - t) ++ text [' ','(','c','o','n','s','i','s','t','e','n','t','l','y',')']
  more : ∀ lo ∈ T, ∀ hi ∈ T, lo ≠ hi → (∀ t ∈ T, lo ≤ t ∧ t ≤ hi) →
    l = text name ++ text ['h','o','p','s',' ','t','a','k','e','s',' '] ++ decimal ((List.range 256).countP fun t => decide (t ∈ T)) ++
      text [' ','v','a','l','u','e','s',';',' ','m','i','n',' ','h','o','p','s',' ','=',' '] ++
      decimal (255 - hi) ++ text [',',' ','m','a','x',' ','h','o','p','s',' ','=',' '] ++ decimal (255 - lo)

private theorem hops_line (name : List Char) (T h : List Nat) (hlen : h.length = 256) (hT : ∀ t ∈ T, t < 256) (seen : ∀ t, h.getD t 0 ≠ 0 ↔ t ∈ T)
    (notAll : ∃ t, t < 256 ∧ t ∉ T) : HopsLine name T (PrintTw.ttlLine (text name) h) := by
  obtain ⟨a1, a2, a3, a4, a5, a6, a7⟩ := Stats.ttlLoop_spec h 0 0 255 0 (by omega)
  obtain ⟨num, lo, hi, est⟩ : ∃ num lo hi, PrintTw.ttlStats h = (num, lo, hi) := ⟨_, _, _, rfl⟩
  unfold PrintTw.ttlStats at est
  rw [est] at a1 a2 a3 a4 a5 a6 a7
  dsimp only at a1 a2 a3 a4 a5 a6 a7
  have hm : (h.countP fun n => decide (n ≠ 0)) = (List.range 256).countP fun t => decide (t ∈ T) := by
    have e : h = (List.range 256).map fun t => h.getD t 0 := by
      apply List.ext_getElem
      · rw [List.length_map, List.length_range, hlen]
      · intro k h1 h2
        rw [List.getElem_map, List.getElem_range, List.getD_eq_getElem?_getD, List.getElem?_eq_getElem h1]; rfl
    conv => lhs; rw [e]
    rw [List.countP_map]
    apply List.countP_congr
    intro t _
    rw [Function.comp_apply, decide_eq_true_eq, decide_eq_true_eq]
    exact seen t
  obtain ⟨m, em⟩ : ∃ m, ((List.range 256).countP fun t => decide (t ∈ T)) = m := ⟨_, rfl⟩
  have hlt : m < 256 := by
    obtain ⟨t, h1, h2⟩ := notAll
    rw [← em]
    refine Nat.lt_of_le_of_ne (Nat.le_trans List.countP_le_length (by simp)) fun e => h2 ?_
    have e := List.countP_eq_length.1 (e.trans List.length_range.symm)
    exact of_decide_eq_true (e t (List.mem_range.2 h1))
  rw [hm, em, Nat.zero_add, Nat.mod_eq_of_lt hlt] at a1
  have low : ∀ t ∈ T, lo ≤ t := fun t ht => by
    have := a4 t (by rw [hlen]; exact hT t ht) ((seen t).2 ht)
    omega
  have high : ∀ t ∈ T, t ≤ hi := fun t ht => by
    have := a7 t (by rw [hlen]; exact hT t ht) ((seen t).2 ht)
    omega
  have isLo : ∀ t ∈ T, lo ∈ T := fun t ht => by
    rcases a2 with e | ⟨t', _, e1, e2⟩
    · have h1 := low t ht
      have h2 := hT t ht
      rwa [show lo = t by omega]
    · rw [show lo = t' by omega]; exact (seen t').1 e1
  have isHi : ∀ t ∈ T, hi ∈ T := fun t ht => by
    rcases a5 with e | ⟨t', _, e1, e2⟩
    · have h1 := high t ht
      rwa [show hi = t by omega]
    · rw [show hi = t' by omega]; exact (seen t').1 e1
  have mem : ∀ t ∈ T, t ∈ (List.range 256).filter fun t => decide (t ∈ T) := fun t ht => List.mem_filter.2 ⟨List.mem_range.2 (hT t ht), decide_eq_true ht⟩
  rw [List.countP_eq_length_filter] at em
  have el : PrintTw.ttlLine (text name) h = if num < 1 then text name ++ text ['T','T','L',' ','n','o','t',' ','r','e','p','o','r','t','e','d']
      else if num = 1 then text name ++ text ['h','o','p','s',' ','=',' '] ++ digits (255 - lo) ++ text [' ','(','c','o','n','s','i','s','t','e','n','t','l','y',')']
      else text name ++ text ['h','o','p','s',' ','t','a','k','e','s',' '] ++ digits num ++ text [' ','v','a','l','u','e','s',';',' ','m','i','n',' ','h','o','p','s',' ','=',' '] ++
        digits (255 - hi) ++ text [',',' ','m','a','x',' ','h','o','p','s',' ','=',' '] ++ digits (255 - lo) := by
    unfold PrintTw.ttlLine PrintTw.ttlStats
    rw [est]
  refine ⟨fun e => ?_, fun t ht hu => ?_, fun l1 hl1 h1 hh1 hne hb => ?_⟩
  · rw [el, if_pos]
    have : (List.range 256).filter (fun t => decide (t ∈ T)) = [] := List.filter_eq_nil_iff.2 fun t _ => by rw [e]; simp
    rw [this] at em
    rw [a1, ← em]; decide
  · have e1 : m = 1 := by
      rw [← em, ← List.countP_eq_length_filter]
      have e : (List.range 256).countP (fun t' => decide (t' ∈ T)) = (List.range 256).count t := by
        rw [List.count]
        apply List.countP_congr
        intro t' _
        rw [decide_eq_true_eq, beq_iff_eq]
        exact ⟨fun h => hu t' h, fun h => h ▸ ht⟩
      rw [e, List.nodup_range.count, if_pos (List.mem_range.2 (hT t ht))]
    rw [el, if_neg (by omega), if_pos (by omega), Print.digits_decimal, hu lo (isLo t ht)]
  · have e1 : lo = l1 := Nat.le_antisymm (low l1 hl1) (hb lo (isLo l1 hl1)).1
    have e2 : hi = h1 := Nat.le_antisymm (hb hi (isHi h1 hh1)).2 (high h1 hh1)
    have two : 2 ≤ m := by
      have m1 := mem l1 hl1
      have m2 := mem h1 hh1
      rw [← em]
      cases hf : (List.range 256).filter fun t => decide (t ∈ T) with
      | nil => rw [hf] at m1; cases m1
      | cons a r =>
        cases r with
        | nil =>
          rw [hf] at m1 m2
          exact absurd ((List.mem_singleton.1 m1).trans (List.mem_singleton.1 m2).symm) hne
        | cons b r => simp
    rw [el, if_neg (by omega), if_neg (by omega), Print.digits_decimal, Print.digits_decimal, Print.digits_decimal, e1, e2, a1, ← em, List.countP_eq_length_filter]

/-- **C103** for the hops (partial: if all 256 TTL values occur on a way, the summary says that none was reported, see `C103_all_ttls`): the two lines before the last, which is
empty, are about the way out and the way back. -/
theorem C103_hops_partial (c : TwStats.Cfg) (rs : List TWDataRec) (first last : Nat) (Z : Style) (i : Info) (ps : List (Rat × Bytes)) (L : List Bytes)
    (h : TwSummarised c rs first last Z i ps L) (A : List TWDataRec) (hA : A = answered (twAbout c first last rs)) :
    ∃ K l l', L = K ++ [l, l', []] ∧
    ((∃ t, t < 256 ∧ ∀ r ∈ A, r.sent.ttl.toNat ≠ t) → HopsLine ['s','e','n','d',' '] (A.map fun r => r.sent.ttl.toNat) l) ∧
    ((∃ t, t < 256 ∧ ∀ r ∈ A, r.reflected.ttl.toNat ≠ t) → HopsLine ['r','e','f','l','e','c','t',' '] (A.map fun r => r.reflected.ttl.toNat) l') := by
  obtain ⟨s, oset, hp, hL⟩ := h.made
  rw [read_tw_summary Z c i s ps h.style h.info h.names] at hL
  have g := tw_says h.range h.size h.clear hp
  obtain ⟨_, t1, t2, _⟩ := C75_errors_ttls c rs oset first last s h.range h.size h.clear hp _ rfl
  rw [← hA] at t1 t2
  have pos : ∀ (f : TWDataRec → Nat) (T : List Nat), (∀ k, T.getD k 0 = A.countP fun r => f r = k) → ∀ t, T.getD t 0 ≠ 0 ↔ t ∈ A.map f := by
    intro f T hk t
    rw [hk, Nat.ne_zero_iff_zero_lt, List.countP_pos_iff, List.mem_map]
    simp
  have out : ∀ f : TWDataRec → Nat, (∃ t, t < 256 ∧ ∀ r ∈ A, f r ≠ t) → ∃ t, t < 256 ∧ t ∉ A.map f := by
    rintro f ⟨t, h1, h2⟩
    refine ⟨t, h1, fun hm => ?_⟩
    obtain ⟨r, hr, e⟩ := List.mem_map.1 hm
    exact h2 r hr e
  refine ⟨PrintTw.warnLines s ++ (PrintTw.summaryBody Z c i s ps).take (13 + percentileCount ps), _, _, ?_, fun hn => hops_line _ _ s.ttlF g.fig.ttlF.1 ?_ (pos _ _ t1) (out _ hn),
    fun hn => hops_line _ _ s.ttlB g.fig.ttlB.1 ?_ (pos _ _ t2) (out _ hn)⟩
  · rw [hL, List.append_assoc, ← (tw_summary_at Z c i s ps).2, List.take_append_drop]
  · intro t ht
    obtain ⟨r, _, rfl⟩ := List.mem_map.1 ht
    exact r.sent.ttl.isLt
  · intro t ht
    obtain ⟨r, _, rfl⟩ := List.mem_map.1 ht
    exact r.reflected.ttl.isLt

/-- In the example all packets came with TTL 60 and all replies with 61. -/
example : ∃ K, twText twDemo twRecords [(80, text ['8','0','.','0'])] = K ++ [text ['s','e','n','d',' ','h','o','p','s',' ','=',' ','1','9','5',' ','(','c','o','n','s','i','s','t','e','n','t','l','y',')'],
    text ['r','e','f','l','e','c','t',' ','h','o','p','s',' ','=',' ','1','9','4',' ','(','c','o','n','s','i','s','t','e','n','t','l','y',')'], []] := by
  obtain ⟨K, l, l', h1, h2, h3⟩ := C103_hops_partial twDemo twRecords 0 (2 ^ 32 - 1) demoStyle demoInfo _ _ tw_summarised _ rfl
  have h2 := (h2 ⟨0, by decide, by decide +kernel⟩).one 60 (by decide +kernel) (by decide +kernel)
  have h3 := (h3 ⟨0, by decide, by decide +kernel⟩).one 61 (by decide +kernel) (by decide +kernel)
  refine ⟨K, ?_⟩
  rw [h1, h2, h3]
  congr 1
  decide +kernel

/-- If all 256 values occur, the summary says that no TTL was reported. -/
theorem C103_all_ttls : ∃ K L, TwSummarised { twDemo with npackets := 256 } ttlTwRecords 0 (2 ^ 32 - 1) demoStyle demoInfo [] L ∧
    (answered (twAbout { twDemo with npackets := 256 } 0 (2 ^ 32 - 1) ttlTwRecords)).length = 256 ∧
    L = K ++ [text ['s','e','n','d',' ','T','T','L',' ','n','o','t',' ','r','e','p','o','r','t','e','d'],
      text ['r','e','f','l','e','c','t',' ','T','T','L',' ','n','o','t',' ','r','e','p','o','r','t','e','d'], []] := by
  have hr : TwSummarised { twDemo with npackets := 256 } ttlTwRecords 0 (2 ^ 32 - 1) demoStyle demoInfo [] (twText { twDemo with npackets := 256 } ttlTwRecords []) :=
    twText_summarised _ _ _ (by decide +kernel) (by decide +kernel) (by unfold TwRange; decide +kernel) rfl (by unfold LossOnce; decide +kernel) nofun
  have hy : ((TwStats.parse { twDemo with npackets := 256 } ttlTwRecords 0 0 (2 ^ 32 - 1)).toOption.map fun s =>
      ((PrintTw.ttlStats s.ttlF).1, (PrintTw.ttlStats s.ttlB).1)) = some (0, 0) := by decide +kernel
  cases hp : TwStats.parse { twDemo with npackets := 256 } ttlTwRecords 0 0 (2 ^ 32 - 1) with
  | error e => rw [hp] at hy; cases hy
  | ok s =>
    rw [hp] at hy
    have hy : some ((PrintTw.ttlStats s.ttlF).1, (PrintTw.ttlStats s.ttlB).1) = some (0, 0) := hy
    have hy := Option.some.inj hy
    have h1 : (PrintTw.ttlStats s.ttlF).1 = 0 := congrArg Prod.fst hy
    have h2 : (PrintTw.ttlStats s.ttlB).1 = 0 := congrArg Prod.snd hy
    refine ⟨PrintTw.warnLines s ++ (PrintTw.summaryBody demoStyle { twDemo with npackets := 256 } demoInfo s []).take (13 + percentileCount []), _, hr, by decide +kernel, ?_⟩
    have zero : ∀ name (h : List Nat), (PrintTw.ttlStats h).1 = 0 → PrintTw.ttlLine name h = name ++ text ['T','T','L',' ','n','o','t',' ','r','e','p','o','r','t','e','d'] := by
      intro name h h0
      unfold PrintTw.ttlLine
      obtain ⟨num, lo, hi, est⟩ : ∃ num lo hi, PrintTw.ttlStats h = (num, lo, hi) := ⟨_, _, _, rfl⟩
      rw [est] at h0 ⊢
      dsimp only at h0 ⊢
      rw [h0]; rfl
    unfold twText
    rw [hp]
    dsimp only
    rw [read_tw_summary _ _ _ _ [] demo_style demo_info nofun, List.append_assoc]
    have e := (tw_summary_at demoStyle { twDemo with npackets := 256 } demoInfo s []).2
    rw [zero _ _ h1, zero _ _ h2] at e
    conv => lhs; rw [← List.take_append_drop (13 + percentileCount []) (PrintTw.summaryBody demoStyle { twDemo with npackets := 256 } demoInfo s []), e]
    rfl

end Owamp.Props
