import Verif.Spec.Reports
import Verif.Props.Summary
/-!
# C90: reports in parts
-/
namespace Owamp.Props
open Owamp.Codec Owamp.Stats Owamp.Reports Owamp.Spec.Stats Owamp.Spec.Reports Owamp.Spec.DataFile StatSession

/-! ## The parts -/

theorem count_bounds (n N : Nat) (h0 : 0 < n) (hn : n < N) : n * (count n N - 1) < N ∧ N ≤ n * count n N ∧ 2 ≤ count n N ∧ n * count n N = n * (count n N - 1) + n := by
  have hd := Nat.div_add_mod N n
  have hm := Nat.mod_lt N h0
  have h1 : 1 ≤ N / n := (Nat.one_le_div_iff h0).2 (Nat.le_of_lt hn)
  obtain ⟨q, hq⟩ : ∃ q, q = N / n := ⟨_, rfl⟩
  obtain ⟨c, hc⟩ : ∃ c, c = count n N := ⟨_, rfl⟩
  have hcc : c = q + (if N % n ≠ 0 then 1 else 0) := by
    rw [hc, hq]; unfold count; rw [if_neg (by omega)]
  rw [← hc]
  rw [← hq] at hd h1
  by_cases hz : N % n = 0
  · rw [if_neg (by omega)] at hcc
    have : c = q := by omega
    subst this
    obtain ⟨k, rfl⟩ : ∃ k, c = k + 1 := ⟨c - 1, by omega⟩
    rw [Nat.add_sub_cancel, Nat.mul_add, Nat.mul_one] at *
    refine ⟨by omega, by omega, ?_, rfl⟩
    rcases Nat.eq_zero_or_pos k with h | h
    · subst h; omega
    · omega
  · rw [if_pos hz] at hcc
    subst hcc
    rw [Nat.add_sub_cancel, Nat.mul_add, Nat.mul_one]
    exact ⟨by omega, by omega, by omega, rfl⟩

/-- A part, when no number is too large. -/
theorem part_eq (n N i : Nat) (h0 : 0 < n) (hn : n < N) (hN : N < 2 ^ 32) (hs : n * count n N < 2 ^ 32) (hi : i < count n N) :
    (part n N i).1 = n * i ∧ endOf N (part n N i).2 = min (n * (i + 1)) N ∧ n * i < min (n * (i + 1)) N ∧
    (i + 1 < count n N → (part n N i).2 = n * (i + 1) ∧ (part n N i).2 ≠ 2 ^ 32 - 1) := by
  obtain ⟨b1, b2, b3, b4⟩ := count_bounds n N h0 hn
  have m1 : n * (i + 1) ≤ n * count n N := Nat.mul_le_mul_left n hi
  have m2 : n * (i + 1) = n * i + n := by rw [Nat.mul_add, Nat.mul_one]
  have m3 : n * i ≤ n * (count n N - 1) := Nat.mul_le_mul_left n (by omega)
  have e1 : (part n N i).1 = n * i := by show n * i % 2 ^ 32 = _; exact Nat.mod_eq_of_lt (by omega)
  have e2 : (part n N i).2 = if n * (i + 1) > N then 2 ^ 32 - 1 else n * (i + 1) := by
    show (if n * (i + 1) % 2 ^ 32 > N then _ else n * (i + 1) % 2 ^ 32) = _
    rw [Nat.mod_eq_of_lt (by omega)]
  refine ⟨e1, ?_, by omega, fun hl => ?_⟩
  · rw [e2]
    unfold endOf
    by_cases h : n * (i + 1) > N
    · rw [if_pos h, if_pos rfl]; omega
    · rw [if_neg h]
      by_cases h' : n * (i + 1) = 2 ^ 32 - 1
      · rw [if_pos h']; omega
      · rw [if_neg h']; omega
  · have m4 : n * (i + 1) ≤ n * (count n N - 1) := Nat.mul_le_mul_left n (by omega)
    rw [e2, if_neg (by omega)]
    exact ⟨rfl, by omega⟩

/-- The ranges of the parts, as they are summarised. -/
def ranges (n N : Nat) : List (Nat × Nat) := (List.range (count n N)).map fun i => ((part n N i).1, endOf N (part n N i).2)

theorem tiles_mem {a b : Nat} {rs : List (Nat × Nat)} (h : Tiles a b rs) : a ≤ b ∧ ∀ k, rs.countP (fun r => decide (In k r)) = if a ≤ k ∧ k < b then 1 else 0 := by
  induction h with
  | nil a => exact ⟨Nat.le_refl _, fun k => by rw [if_neg (by omega)]; rfl⟩
  | cons a e b rs h _ ih =>
    refine ⟨by omega, fun k => ?_⟩
    rw [List.countP_cons, ih.2 k]
    have hin : (if decide (In k (a, e)) = true then 1 else 0) = if a ≤ k ∧ k < e then 1 else 0 := by
      by_cases h1 : a ≤ k ∧ k < e
      · rw [if_pos h1]; exact if_pos (decide_eq_true (show In k (a, e) from h1))
      · rw [if_neg h1]; exact if_neg (by rw [decide_eq_true_eq]; exact h1)
    rw [hin]
    by_cases h1 : a ≤ k ∧ k < e
    · rw [if_neg (by omega), if_pos h1, if_pos (by omega)]
    · rw [if_neg h1]
      by_cases h2 : e ≤ k ∧ k < b
      · rw [if_pos h2, if_pos (by omega)]
      · rw [if_neg h2, if_neg (by omega)]

/-- **C90** (partial: `-N` times the number of parts must be below 2³², see `C90_too_many_packets`). The parts follow each other and together are the session; no part is empty;
all but the last have the number of packets asked for, the last has no more; so that every packet of the session is in exactly one part. -/
theorem C90_parts_partial (n N : Nat) (h0 : 0 < n) (hn : n < N) (hN : N < 2 ^ 32) (hs : n * count n N < 2 ^ 32) :
    Tiles 0 N (ranges n N) ∧ (∀ r ∈ (ranges n N).dropLast, r.2 = r.1 + n) ∧ (∀ r ∈ ranges n N, r.2 ≤ r.1 + n) ∧
    ∀ k, (ranges n N).countP (fun r => decide (In k r)) = if k < N then 1 else 0 := by
  obtain ⟨b1, b2, b3, b4⟩ := count_bounds n N h0 hn
  have key : ∀ m j, j + m = count n N → Tiles (min (n * j) N) N ((List.range' j m).map fun i => ((part n N i).1, endOf N (part n N i).2)) := by
    intro m
    induction m with
    | zero =>
      intro j hj
      have : j = count n N := by omega
      subst this
      rw [Nat.min_eq_right b2]
      exact .nil N
    | succ m ih =>
      intro j hj
      obtain ⟨p1, p2, p3, _⟩ := part_eq n N j h0 hn hN hs (by omega)
      rw [List.range'_succ, List.map_cons, p1, p2, Nat.min_eq_left (by omega)]
      exact .cons _ _ _ _ p3 (ih (j + 1) (by omega))
  have t : Tiles 0 N (ranges n N) := by
    have := key (count n N) 0 (by omega)
    rw [Nat.mul_zero, Nat.zero_min] at this
    unfold ranges
    rw [List.range_eq_range']
    exact this
  refine ⟨t, ?_, ?_, fun k => ?_⟩
  · intro r hr
    obtain ⟨q, hq⟩ : ∃ q, count n N = q + 1 := ⟨count n N - 1, by omega⟩
    unfold ranges at hr
    rw [hq, List.range_succ, List.map_append, List.map_singleton, List.dropLast_concat] at hr
    obtain ⟨i, hi, rfl⟩ := List.mem_map.1 hr
    rw [List.mem_range] at hi
    obtain ⟨p1, _, _, p4⟩ := part_eq n N i h0 hn hN hs (by omega)
    obtain ⟨p5, p6⟩ := p4 (by omega)
    show endOf N (part n N i).2 = (part n N i).1 + n
    unfold endOf
    rw [if_neg p6, p5, p1, Nat.mul_add, Nat.mul_one]
  · intro r hr
    obtain ⟨i, hi, rfl⟩ := List.mem_map.1 hr
    rw [List.mem_range] at hi
    obtain ⟨p1, p2, _, _⟩ := part_eq n N i h0 hn hN hs hi
    show endOf N (part n N i).2 ≤ (part n N i).1 + n
    rw [p1, p2, Nat.mul_add, Nat.mul_one]; omega
  · rw [(tiles_mem t).2 k]
    by_cases h : k < N
    · rw [if_pos h, if_pos ⟨Nat.zero_le _, h⟩]
    · rw [if_neg h, if_neg (by omega)]

/-- Ten packets by three. -/
example : ranges 3 10 = [(0, 3), (3, 6), (6, 9), (9, 10)] ∧ 3 * count 3 10 < 2 ^ 32 := by decide +kernel

/-! ## The summaries -/

theorem parseLimited_zero (c : Stats.Cfg) (f : Bytes) (h : File.Header) : parseLimited c f h 0 = parseFile c f h := by
  funext s oset first last
  unfold parseLimited parseFile lookedAt
  dsimp only
  rw [if_neg (by omega)]

/-- `~0` as end is the end of the session. -/
theorem parseFile_upTo (c : Stats.Cfg) (f : Bytes) (h : File.Header) (s : Stats.St) (oset first last : Nat) :
    parseFile c f h s oset first last = parseFile c f h s oset first (endOf c.npackets.toNat last) := by
  have hb : ∀ o, Stats.begin c s o first last = Stats.begin c s o first (endOf c.npackets.toNat last) := by
    intro o
    unfold Stats.begin endOf
    dsimp only
    by_cases hl : last = 2 ^ 32 - 1
    · rw [if_pos hl]
      have : (if c.npackets.toNat = 2 ^ 32 - 1 then c.npackets.toNat else c.npackets.toNat) = c.npackets.toNat := by split <;> rfl
      rw [this]
    · rw [if_neg hl, if_neg hl]
  unfold parseFile Stats.parse
  dsimp only
  rw [hb]

theorem summaries_append {σ : Type} (as bs : List (Act σ)) : summaries (as ++ bs) = summaries as ++ summaries bs := List.filterMap_append

theorem summaries_report {σ : Type} (M : Engine σ) (o : Opts) (s : σ) : summaries (report M o s) = [s] := by
  unfold report
  cases o.files <;> rfl

/-- A part that is reported. -/
theorem one_ok {σ : Type} (M : Engine σ) (o : Opts) (w : World) (clean : List (Act σ)) (i : Nat) (s s' : σ) (oset first last : Nat)
    (hw : o.files = true → w.fopen i = true ∧ w.link i = true) (hp : M.parse s oset first last = .ok s') :
    one M o w clean i s oset first last = (report M o s', .ok, s') := by
  unfold one
  rw [hp]
  cases hf : o.files with
  | false => simp [make, publish, report, hf]
  | true =>
    obtain ⟨w1, w2⟩ := hw hf
    simp [make, publish, report, hf, w1, w2]

/-- **C90** (partial as `C90_parts_partial`, and without a limit on the records, see `C90_limit`). For the file of a session as a receiver writes it, if the files of the reports can be
made and named, `do_stats` succeeds, and reports the parts in order, one summary for each, that says the same as a summary of these packets made from the whole file. -/
theorem C90_reports_partial (x : StatSession) (ds : List Nat) (hd : x.Delays ds) (f : Bytes) (h : File.Header) (rs : List DataRec) (hf : HasRecords x f h rs) (h1 : LostOnce rs)
    (ho : x.Orderly ds rs) (o : Opts) (w : World) (hN : o.npackets = x.c.npackets.toNat) (h0 : 0 < o.bucket) (hn : o.bucket < o.npackets)
    (hs : o.bucket * count o.bucket o.npackets < 2 ^ 32) (hw : o.files = true → ∀ i, w.fopen i = true ∧ w.link i = true) :
    ∃ sums : List Stats.St, doStats (oneWay x.c f h 0) o w (Stats.create x.c x.c0) = (sums.flatMap (report (oneWay x.c f h 0) o), .ok) ∧ sums.length = count o.bucket o.npackets ∧
      ∀ i s, sums[i]? = some s → ∃ t, parseFile x.c f h (Stats.create x.c x.c0) 0 (o.bucket * i) (min (o.bucket * (i + 1)) o.npackets) = .ok t ∧ SameReport s t := by
  have hsz : 0 < x.c.recSize := by rw [hf.size]; omega
  have hN32 : o.npackets < 2 ^ 32 := by rw [hN]; exact x.c.npackets.isLt
  obtain ⟨b1, b2, b3, b4⟩ := count_bounds o.bucket o.npackets h0 hn
  have key : ∀ m i s, i + m = count o.bucket o.npackets → (m = 0 ∨ Chain x rs (o.bucket * i) s) →
      ∃ sums : List Stats.St, loop (oneWay x.c f h 0) o w m i s = (sums.flatMap (report (oneWay x.c f h 0) o), .ok) ∧ sums.length = m ∧
      ∀ j s, sums[j]? = some s → ∃ t, parseFile x.c f h (Stats.create x.c x.c0) 0 (o.bucket * (i + j)) (min (o.bucket * (i + j + 1)) o.npackets) = .ok t ∧ SameReport s t := by
    intro m
    induction m with
    | zero =>
      intro i s _ _
      exact ⟨[], rfl, rfl, fun j s hj => by simp at hj⟩
    | succ m ih =>
      intro i s hi hc
      have hc : Chain x rs (o.bucket * i) s := by rcases hc with hc | hc; · omega
                                                  · exact hc
      obtain ⟨p1, p2, p3, p4⟩ := part_eq o.bucket o.npackets i h0 hn hN32 hs (by omega)
      have hl : lastOf x.c (part o.bucket o.npackets i).2 = min (o.bucket * (i + 1)) o.npackets := by
        rw [← p2]; unfold lastOf endOf; rw [hN]
      have hr : x.Range (o.bucket * i) (part o.bucket o.npackets i).2 := by
        unfold StatSession.Range
        rw [hl, ← hN]
        exact ⟨p3, Nat.min_le_right _ _⟩
      obtain ⟨s', t, e1, e2, e3⟩ := C64_file_chain x ds hd f h rs hf h1 ho _ _ s hc hr
      have hone : one (oneWay x.c f h 0) o w [] i s ((oneWay x.c f h 0).oset s) (part o.bucket o.npackets i).1 (part o.bucket o.npackets i).2 =
          (report (oneWay x.c f h 0) o s', .ok, s') := by
        refine one_ok _ o w [] i s s' _ _ _ (fun hh => hw hh i) ?_
        show parseLimited x.c f h 0 s s.nextOset _ _ = _
        rw [parseLimited_zero, p1]
        exact e1
      have hnext : m = 0 ∨ Chain x rs (o.bucket * (i + 1)) s' := by
        rcases Nat.eq_zero_or_pos m with hm | hm
        · exact Or.inl hm
        · right
          obtain ⟨q1, q2⟩ := p4 (by omega)
          obtain ⟨_, _, a3, _, a5⟩ := Chain.inv x hsz hc
          rw [← q1]
          refine .next rs _ _ s s' hc hf.few hr q2 ?_
          rw [← hf.summary s s.nextOset _ _ a3 a5]
          exact e1
      obtain ⟨sums, g1, g2, g3⟩ := ih (i + 1) s' (by omega) hnext
      refine ⟨s' :: sums, ?_, by rw [List.length_cons, g2], ?_⟩
      · rw [loop, hone, goOn, g1, List.flatMap_cons]
      · intro j s'' hj
        cases j with
        | zero =>
          simp only [List.getElem?_cons_zero, Option.some.injEq] at hj
          subst hj
          refine ⟨t, ?_, e3⟩
          rw [← e2, parseFile_upTo x.c f h _ _ _ (part o.bucket o.npackets i).2, ← hN, p2, Nat.add_zero]
        | succ j =>
          rw [List.getElem?_cons_succ] at hj
          have := g3 j s'' hj
          rw [show i + 1 + j = i + (j + 1) by omega] at this
          exact this
  obtain ⟨sums, g1, g2, g3⟩ := key (count o.bucket o.npackets) 0 (Stats.create x.c x.c0) (by omega) (Or.inr (by rw [Nat.mul_zero]; exact .start rs))
  refine ⟨sums, ?_, g2, fun i s hi => ?_⟩
  · unfold doStats
    rw [if_neg (by omega)]
    exact g1
  · have := g3 i s hi
    rw [Nat.zero_add] at this
    exact this

/-- **C90.** Without `-N`, or with one that is not below the number of packets, there is one report, of the whole session. -/
theorem C90_whole (x : StatSession) (ds : List Nat) (hd : x.Delays ds) (f : Bytes) (h : File.Header) (rs : List DataRec) (hf : HasRecords x f h rs) (h1 : LostOnce rs)
    (ho : x.Orderly ds rs) (o : Opts) (w : World) (hN : o.npackets = x.c.npackets.toNat) (hpos : 0 < o.npackets) (hb : o.bucket = 0 ∨ o.npackets ≤ o.bucket)
    (hw : o.files = true → w.fopen 0 = true ∧ w.link 0 = true) :
    ∃ s, doStats (oneWay x.c f h 0) o w (Stats.create x.c x.c0) = (report (oneWay x.c f h 0) o s, .ok) ∧
      parseFile x.c f h (Stats.create x.c x.c0) 0 0 o.npackets = .ok s := by
  have hr : x.Range 0 (2 ^ 32 - 1) := by
    unfold StatSession.Range lastOf
    rw [if_pos rfl, ← hN]
    exact ⟨hpos, Nat.le_refl _⟩
  obtain ⟨s', t, e1, e2, e3⟩ := C64_file_chain x ds hd f h rs hf h1 ho 0 (2 ^ 32 - 1) _ (.start rs) hr
  refine ⟨t, ?_, ?_⟩
  · unfold doStats
    rw [if_pos (by unfold count; rw [if_pos (by omega)])]
    rw [one_ok (oneWay x.c f h 0) o w _ 0 _ t 0 0 (2 ^ 32 - 1) hw (by show parseLimited x.c f h 0 _ _ _ _ = _; rw [parseLimited_zero]; exact e2)]
  · rw [← e2, parseFile_upTo x.c f h _ _ _ (2 ^ 32 - 1), hN]
    rfl

/-- A file of the example of `C50`, not finished. -/
def partsFile : Bytes := zeros 112 ++ (statRecords.map recLayout).flatten

def partsHeader : File.Header := ⟨3, 25, false, 0, none, 0, 0, 0, 0, 112⟩

theorem parts_records : HasRecords statDemo partsFile partsHeader statRecords :=
  ⟨rfl, rfl, by decide, (by unfold Stamp; decide +kernel), zeros 112, [], by rw [List.append_nil]; rfl, by simp [zeros]; rfl, Or.inr ⟨by decide, rfl⟩⟩

/-- The four packets of the example by three: two reports in files. -/
example : ∃ sums : List Stats.St, doStats (oneWay statDemo.c partsFile partsHeader 0) ⟨3, true, false, 7, 4⟩ ⟨fun _ => true, fun _ => true⟩ (Stats.create statDemo.c statDemo.c0) =
    (sums.flatMap (report (oneWay statDemo.c partsFile partsHeader 0) ⟨3, true, false, 7, 4⟩), .ok) ∧ sums.length = 2 := by
  obtain ⟨sums, h1, h2, _⟩ := C90_reports_partial statDemo statDelays stat_delays partsFile partsHeader statRecords parts_records stat_lostOnce stat_orderly
    ⟨3, true, false, 7, 4⟩ ⟨fun _ => true, fun _ => true⟩ rfl (by decide) (by decide) (by decide) (fun _ _ => ⟨rfl, rfl⟩)
  exact ⟨sums, h1, h2⟩

/-- … and all of them. -/
example : ∃ s, doStats (oneWay statDemo.c partsFile partsHeader 0) ⟨0, false, false, 7, 4⟩ ⟨fun _ => true, fun _ => true⟩ (Stats.create statDemo.c statDemo.c0) =
    ([.summary s], .ok) := by
  obtain ⟨s, h1, _⟩ := C90_whole statDemo statDelays stat_delays partsFile partsHeader statRecords parts_records stat_lostOnce stat_orderly
    ⟨0, false, false, 7, 4⟩ ⟨fun _ => true, fun _ => true⟩ rfl (by decide) (Or.inl rfl) (fun h => by cases h)
  exact ⟨s, h1⟩

/-- The refusal of a range whose end is before its beginning. -/
theorem parseLimited_refused (c : Stats.Cfg) (f : Bytes) (h : File.Header) (limit : Nat) (s : Stats.St) (oset first last : Nat) (hl : last < first) (hm : last ≠ 2 ^ 32 - 1) :
    parseLimited c f h limit s oset first last = .error .refused := by
  unfold parseLimited Stats.parse Stats.begin
  dsimp only
  rw [if_neg hm, if_pos (Or.inl hl)]

/-- … and the exception to it: when `-N` times the number of parts is not below 2³², the end of the last part is computed modulo 2³² and the part is refused; so
`do_stats` never succeeds, whatever the file. -/
theorem C90_too_many_packets (c : Stats.Cfg) (f : Bytes) (h : File.Header) (limit : Nat) (o : Opts) (w : World) (s : Stats.St) (h0 : 0 < o.bucket)
    (hn : o.bucket < o.npackets) (hN : o.npackets < 2 ^ 32) (hs : 2 ^ 32 ≤ o.bucket * count o.bucket o.npackets) :
    (doStats (oneWay c f h limit) o w s).2 ≠ .ok := by
  obtain ⟨b1, b2, b3, b4⟩ := count_bounds o.bucket o.npackets h0 hn
  obtain ⟨q, hq⟩ : ∃ q, count o.bucket o.npackets = q + 2 := ⟨count o.bucket o.npackets - 2, by omega⟩
  have key : ∀ m i s, i + m = count o.bucket o.npackets → 0 < m → (loop (oneWay c f h limit) o w m i s).2 ≠ .ok := by
    intro m
    induction m with
    | zero => intro i s _ hm; omega
    | succ m ih =>
      intro i s hi _
      rw [loop]
      rcases Nat.eq_zero_or_pos m with hm | hm
      · subst hm
        have hlast : i = q + 1 := by omega
        have l1 : (part o.bucket o.npackets i).1 = o.bucket * i := by
          show o.bucket * i % 2 ^ 32 = _
          refine Nat.mod_eq_of_lt ?_
          rw [hlast, show q + 1 = count o.bucket o.npackets - 1 by omega]
          omega
        have l2 : o.bucket * (i + 1) % 2 ^ 32 = o.bucket * (i + 1) - 2 ^ 32 := by
          rw [show i + 1 = count o.bucket o.npackets by omega]
          omega
        have l3 : o.bucket * (i + 1) = o.bucket * (count o.bucket o.npackets - 1) + o.bucket := by
          rw [show i + 1 = count o.bucket o.npackets by omega]; exact b4
        have l4 : o.bucket ≤ o.bucket * i := by
          rw [hlast, Nat.mul_add, Nat.mul_one]; omega
        have l5 : (part o.bucket o.npackets i).2 = o.bucket * (i + 1) - 2 ^ 32 := by
          show (if o.bucket * (i + 1) % 2 ^ 32 > o.npackets then _ else o.bucket * (i + 1) % 2 ^ 32) = _
          rw [l2, if_neg (by omega)]
        have hp := parseLimited_refused c f h limit s s.nextOset (part o.bucket o.npackets i).1 (part o.bucket o.npackets i).2 (by rw [l1, l5]; omega) (by rw [l5]; omega)
        have hone : (one (oneWay c f h limit) o w [] i s ((oneWay c f h limit).oset s) (part o.bucket o.npackets i).1 (part o.bucket o.npackets i).2).2.1 = .failed := by
          unfold one
          split
          · rfl
          · rw [show (oneWay c f h limit).parse s ((oneWay c f h limit).oset s) (part o.bucket o.npackets i).1 (part o.bucket o.npackets i).2 = .error .refused from hp]
        obtain ⟨as, r, s', hx⟩ : ∃ as r s', one (oneWay c f h limit) o w [] i s ((oneWay c f h limit).oset s) (part o.bucket o.npackets i).1 (part o.bucket o.npackets i).2 = (as, r, s') :=
          ⟨_, _, _, rfl⟩
        rw [hx] at hone ⊢
        dsimp only at hone
        subst hone
        exact End.noConfusion
      · obtain ⟨as, r, s', hx⟩ : ∃ as r s', one (oneWay c f h limit) o w [] i s ((oneWay c f h limit).oset s) (part o.bucket o.npackets i).1 (part o.bucket o.npackets i).2 = (as, r, s') :=
          ⟨_, _, _, rfl⟩
        rw [hx]
        cases r with
        | ok => exact ih (i + 1) s' (by omega) hm
        | failed => exact End.noConfusion
        | undefined => exact End.noConfusion
  unfold doStats
  rw [if_neg (by omega)]
  exact key _ 0 s (by omega) (by omega)

/-- Such a session: as many packets as there can be, in halves. -/
example : (0 < 2 ^ 31) ∧ 2 ^ 31 < 2 ^ 32 - 1 ∧ 2 ^ 32 ≤ 2 ^ 31 * count (2 ^ 31) (2 ^ 32 - 1) ∧ part (2 ^ 31) (2 ^ 32 - 1) 1 = (2 ^ 31, 0) := by decide +kernel

/-! ## The files -/

theorem loop_shape {σ : Type} (M : Engine σ) (o : Opts) (w : World) : ∀ n i s, ∃ (sums : List σ) (tail : List (Act σ)), (loop M o w n i s).1 = sums.flatMap (report M o) ++ tail ∧ sums.length ≤ n ∧
    ((loop M o w n i s).2 = .ok → tail = [] ∧ sums.length = n) ∧
    ((loop M o w n i s).2 ≠ .ok → tail = [] ∨ tail = make o ∨ ∃ s', o.files = true ∧ tail = [.create (.inc o.start), .summary s', .unlink (.inc o.start)]) := by
  intro n
  induction n with
  | zero => intro i s; exact ⟨[], [], rfl, Nat.le_refl _, (fun _ => ⟨rfl, rfl⟩), (fun h => (h rfl).elim)⟩
  | succ n ih =>
    intro i s
    rw [loop]
    generalize M.oset s = oset
    generalize (part o.bucket o.npackets i).1 = first
    generalize (part o.bucket o.npackets i).2 = last
    unfold one
    by_cases hf : o.files ∧ w.fopen i = false
    · rw [if_pos hf]
      exact ⟨[], [], rfl, Nat.zero_le _, (fun h => by cases h), (fun _ => Or.inl rfl)⟩
    · rw [if_neg hf]
      cases hp : M.parse s oset first last with
      | error b =>
        cases b with
        | refused =>
          dsimp only
          rw [List.append_nil]
          exact ⟨[], make o, rfl, Nat.zero_le _, (fun h => by cases h), (fun _ => Or.inr (Or.inl rfl))⟩
        | stuck =>
          exact ⟨[], make o, rfl, Nat.zero_le _, (fun h => by cases h), (fun _ => Or.inr (Or.inl rfl))⟩
      | ok s' =>
        dsimp only
        obtain ⟨sums, tail, g1, g2, g3, g4⟩ := ih (i + 1) s'
        unfold publish make
        cases hfl : o.files with
        | false =>
          simp only [if_false, Bool.false_eq_true, List.nil_append]
          refine ⟨s' :: sums, tail, ?_, by simpa using g2, ?_, ?_⟩
          · rw [goOn, g1, List.flatMap_cons]; simp [report, hfl]
          · intro h; obtain ⟨a, b⟩ := g3 h; exact ⟨a, by simp [b]⟩
          · intro h
            have := g4 h
            simpa [make, hfl] using this
        | true =>
          cases hlk : w.link i with
          | false =>
            simp only [if_true, if_false, Bool.false_eq_true]
            exact ⟨[], _, rfl, Nat.zero_le _, (fun h => by cases h), (fun _ => Or.inr (Or.inr ⟨s', trivial, rfl⟩))⟩
          | true =>
            simp only [if_true]
            refine ⟨s' :: sums, tail, ?_, by simpa using g2, ?_, ?_⟩
            · rw [goOn, g1, List.flatMap_cons]; simp [report, hfl]
            · intro h; obtain ⟨a, b⟩ := g3 h; exact ⟨a, by simp [b]⟩
            · intro h
              have := g4 h
              simpa [make, hfl] using this

/-- **C90**, the files, for one-way and two-way sessions, whatever `OWPStatsParse`, `fopen` and `link` do. When `do_stats` succeeds it has done nothing but report
the parts, each once. -/
theorem C90_success {σ : Type} (M : Engine σ) (o : Opts) (w : World) (s : σ) (h : (doStats M o w s).2 = .ok) :
    ∃ sums : List σ, (doStats M o w s).1 = sums.flatMap (report M o) ∧ sums.length = max 1 (count o.bucket o.npackets) := by
  unfold doStats at h ⊢
  by_cases hc : count o.bucket o.npackets = 0
  · rw [if_pos hc] at h ⊢
    rw [hc]
    unfold one at h ⊢
    by_cases hf : o.files ∧ w.fopen 0 = false
    · rw [if_pos hf] at h; cases h
    · rw [if_neg hf] at h ⊢
      cases hp : M.parse s 0 0 (2 ^ 32 - 1) with
      | error b => rw [hp] at h; cases b <;> cases h
      | ok s' =>
        rw [hp] at h
        dsimp only at h ⊢
        refine ⟨[s'], ?_, rfl⟩
        rw [List.flatMap_cons, List.flatMap_nil, List.append_nil]
        unfold publish at h ⊢
        unfold make report
        cases hfl : o.files with
        | false => simp
        | true =>
          rw [hfl] at h
          cases hlk : w.link 0 with
          | false => rw [hlk] at h; cases h
          | true => simp
  · rw [if_neg hc] at h ⊢
    obtain ⟨sums, tail, g1, g2, g3, g4⟩ := loop_shape M o w (count o.bucket o.npackets) 0 s
    obtain ⟨a, b⟩ := g3 h
    exact ⟨sums, by rw [g1, a, List.append_nil], by rw [b]; omega⟩

/-- The names a report leaves behind. -/
theorem after_reports {σ : Type} (M : Engine σ) (o : Opts) : ∀ (sums : List σ) (ns : List Name) (tail : List (Act σ)),
    (∀ n ∈ ns, n ≠ Name.inc o.start) → ∃ ms, after ns (sums.flatMap (report M o) ++ tail) = after ms tail ∧ (∀ n ∈ ms, n ≠ Name.inc o.start) ∧
      ∀ n, n ∈ ms ↔ n ∈ ns ∨ (o.files = true ∧ ∃ s ∈ sums, n = .done (M.start s) (M.stop s) o.machine)
  | [], ns, tail, h => ⟨ns, rfl, h, fun n => by simp⟩
  | s :: sums, ns, tail, h => by
    rw [List.flatMap_cons, List.append_assoc]
    cases hf : o.files with
    | false =>
      rw [show report M o s = [.summary s] by unfold report; rw [hf]; rfl]
      simp only [List.singleton_append, after]
      obtain ⟨ms, a, b, c⟩ := after_reports M o sums ns tail h
      refine ⟨ms, a, b, fun n => ?_⟩
      rw [c n, hf]; simp
    | true =>
      rw [show report M o s = [.create (.inc o.start), .summary s, .link (.inc o.start) (.done (M.start s) (M.stop s) o.machine), .unlink (.inc o.start),
        .say (.done (M.start s) (M.stop s) o.machine)] by unfold report; rw [hf]; rfl]
      simp only [List.cons_append, List.nil_append, after]
      obtain ⟨ns', hns⟩ : ∃ ns', (List.filter (fun x => decide (x ≠ Name.inc o.start)) (Name.done (M.start s) (M.stop s) o.machine :: Name.inc o.start :: ns)) = ns' := ⟨_, rfl⟩
      rw [hns]
      have hmem : ∀ n, n ∈ ns' ↔ n = .done (M.start s) (M.stop s) o.machine ∨ n ∈ ns := by
        intro n
        rw [← hns, List.mem_filter]
        simp only [List.mem_cons, decide_eq_true_eq]
        constructor
        · rintro ⟨e | e | e, g⟩
          · exact Or.inl e
          · exact (g e).elim
          · exact Or.inr e
        · rintro (e | e)
          · exact ⟨Or.inl e, by rw [e]; exact Name.noConfusion⟩
          · exact ⟨Or.inr (Or.inr e), h n e⟩
      obtain ⟨ms, a, b, c⟩ := after_reports M o sums ns' tail (fun n hn => by
        rcases (hmem n).1 hn with e | e
        · rw [e]; exact Name.noConfusion
        · exact h n e)
      refine ⟨ms, a, b, fun n => ?_⟩
      rw [c n, hmem n, hf]
      simp only [List.mem_cons, true_and, exists_eq_or_imp]
      constructor
      · rintro ((e | e) | e)
        · exact Or.inr (Or.inl e)
        · exact Or.inl e
        · exact Or.inr (Or.inr e)
      · rintro (e | e | e)
        · exact Or.inl (Or.inr e)
        · exact Or.inl (Or.inl e)
        · exact Or.inr e

/-- **C90.** The files there are after a success are the reports, each under the times of its summary; nothing unfinished is left. -/
theorem C90_files {σ : Type} (M : Engine σ) (o : Opts) (w : World) (s : σ) (h : (doStats M o w s).2 = .ok) (hf : o.files = true) (n : Name) :
    n ∈ after [] (doStats M o w s).1 ↔ ∃ s' ∈ summaries (doStats M o w s).1, n = .done (M.start s') (M.stop s') o.machine := by
  obtain ⟨sums, g1, _⟩ := C90_success M o w s h
  have hsum : ∀ l : List σ, summaries (l.flatMap (report M o)) = l := by
    intro l
    induction l with
    | nil => rfl
    | cons a t ih => rw [List.flatMap_cons, summaries_append, summaries_report, ih, List.singleton_append]
  rw [g1, hsum]
  obtain ⟨ms, a, _, c⟩ := after_reports M o sums [] [] (by simp)
  rw [List.append_nil] at a
  rw [a]
  show n ∈ ms ↔ _
  rw [c n, hf]
  simp

/-- **C90.** A name is printed only for a report that was linked under it just before, whatever happens. -/
theorem C90_announced {σ : Type} (M : Engine σ) (o : Opts) (w : World) (s : σ) (n : Name) (h : .say n ∈ (doStats M o w s).1) :
    ∃ s' ∈ summaries (doStats M o w s).1, n = .done (M.start s') (M.stop s') o.machine ∧ .link (.inc o.start) n ∈ (doStats M o w s).1 := by
  have key : ∀ (sums : List σ) (tail : List (Act σ)), (∀ m, .say m ∉ tail) → .say n ∈ sums.flatMap (report M o) ++ tail →
      ∃ s' ∈ summaries (sums.flatMap (report M o) ++ tail), n = .done (M.start s') (M.stop s') o.machine ∧
        .link (.inc o.start) n ∈ sums.flatMap (report M o) ++ tail := by
    intro sums tail ht hm
    rcases List.mem_append.1 hm with e | e
    · obtain ⟨s', hs', e⟩ := List.mem_flatMap.1 e
      have e' := e
      unfold report at e'
      cases hfl : o.files with
      | false => rw [hfl] at e'; simp at e'
      | true =>
        rw [hfl] at e'
        simp only [if_true, List.mem_cons, List.not_mem_nil, or_false, reduceCtorEq, false_or, Act.say.injEq] at e'
        refine ⟨s', ?_, e', ?_⟩
        · rw [summaries_append]
          refine List.mem_append_left _ ?_
          unfold summaries
          refine List.mem_filterMap.2 ⟨.summary s', List.mem_flatMap.2 ⟨s', hs', ?_⟩, rfl⟩
          unfold report; rw [hfl]; simp
        · refine List.mem_append_left _ (List.mem_flatMap.2 ⟨s', hs', ?_⟩)
          unfold report; rw [hfl, e']; simp
    · exact (ht n e).elim
  have htail : ∀ tail : List (Act σ), (tail = [] ∨ tail = make o ∨ ∃ s', o.files = true ∧ tail = [.create (.inc o.start), .summary s', .unlink (.inc o.start)]) →
      ∀ m, Act.say m ∉ tail := by
    rintro tail (e | e | ⟨s', _, e⟩) m
    · rw [e]; simp
    · rw [e]; unfold make; cases o.files <;> simp
    · rw [e]; simp
  by_cases hok : (doStats M o w s).2 = .ok
  · obtain ⟨sums, g1, _⟩ := C90_success M o w s hok
    rw [g1, ← List.append_nil (sums.flatMap (report M o))] at h ⊢
    exact key sums [] (by simp) h
  · by_cases hc : count o.bucket o.npackets = 0
    · exfalso
      unfold doStats at h hok
      rw [if_pos hc] at h hok
      unfold one at h hok
      by_cases hf : o.files ∧ w.fopen 0 = false
      · rw [if_pos hf] at h; simp at h
      · rw [if_neg hf] at h hok
        cases hp : M.parse s 0 0 (2 ^ 32 - 1) with
        | error b =>
          rw [hp] at h
          cases b <;> (dsimp only at h; unfold make at h; cases hfl : o.files <;> rw [hfl] at h <;> simp at h)
        | ok s' =>
          rw [hp] at h hok
          dsimp only at h hok
          unfold publish at h hok
          unfold make at h
          cases hfl : o.files with
          | false => rw [hfl] at hok; simp at hok
          | true =>
            rw [hfl] at h hok
            cases hlk : w.link 0 with
            | false => rw [hlk] at h; simp at h
            | true => rw [hlk] at hok; simp at hok
    · have hd : doStats M o w s = loop M o w (count o.bucket o.npackets) 0 s := by unfold doStats; rw [if_neg hc]
      rw [hd] at h hok ⊢
      obtain ⟨sums, tail, g1, g2, g3, g4⟩ := loop_shape M o w (count o.bucket o.npackets) 0 s
      rw [g1] at h ⊢
      exact key sums tail (htail tail (g4 hok)) h

/-- An object that knows only its place. -/
def placeEngine (refuse : Nat → Bool) : Engine Nat := ⟨fun _ _ first last => if refuse first then .error .refused else .ok last, id, id, id⟩

/-- A session of ten packets by five, in files. -/
example : (doStats (placeEngine fun _ => false) ⟨5, true, false, 7, 10⟩ ⟨fun _ => true, fun _ => true⟩ 0).2 = .ok ∧
    after [] (doStats (placeEngine fun _ => false) ⟨5, true, false, 7, 10⟩ ⟨fun _ => true, fun _ => true⟩ 0).1 = [.done 10 10 false, .done 5 5 false] := by decide +kernel

/-- When a part cannot be summarised the unfinished file stays behind (owping.c:513-518); for a whole session it is removed (owping.c:441-445). -/
theorem C90_left_behind :
    (doStats (placeEngine (· = 5)) ⟨5, true, false, 7, 10⟩ ⟨fun _ => true, fun _ => true⟩ 0).2 = .failed ∧
    Name.inc 7 ∈ after [] (doStats (placeEngine (· = 5)) ⟨5, true, false, 7, 10⟩ ⟨fun _ => true, fun _ => true⟩ 0).1 ∧
    (doStats (placeEngine (· = 0)) ⟨0, true, false, 7, 10⟩ ⟨fun _ => true, fun _ => true⟩ 0).2 = .failed ∧
    after [] (doStats (placeEngine (· = 0)) ⟨0, true, false, 7, 10⟩ ⟨fun _ => true, fun _ => true⟩ 0).1 = [] := by decide +kernel

/-! ## The limit on the records -/

/-- **C90**, the number that `-v` takes "to limit the print to the first N packets" limits the summary as well: it is that of the first N records in the file, and the
others are not looked at. -/
theorem C90_limit (x : StatSession) (f : Bytes) (h : File.Header) (rs : List DataRec) (hf : HasRecords x f h rs) (k : Nat) (h0 : 0 < k) (hk : k < rs.length) (s : Stats.St)
    (first last : Nat) : parseLimited x.c f h k s 0 first last = x.summary (rs.take k) s 0 first last := by
  obtain ⟨h1, h2, h3, h4, pre, post, h5, h6, h7⟩ := hf
  have hkk : ∀ r ∈ rs, (recLayout r).length = 25 ∧ decodeDataRec 3 (recLayout r) = some r := fun r hr => (C12_record_partial r (h4 r hr).1 (h4 r hr).2).2
  have hlen := File.flatten_map_length recLayout 25 rs (fun r hr => (hkk r hr).1)
  have hmax : Nat.max 0 x.c.osetData = x.c.osetData := by show max 0 _ = _; omega
  have hnr : nrecs f h.osetSkip h.osetData x.c.recSize x.c.osetData = rs.length := by
    unfold nrecs
    have hx : (if h.osetSkip > h.osetData then h.osetSkip else (f.length : Int)) = ((x.c.osetData + 25 * rs.length : Nat) : Int) := by
      rcases h7 with ⟨e1, e2⟩ | ⟨e1, e2⟩
      · rw [if_pos e1, e2]
      · rw [if_neg e1, h5, e2, List.append_nil, List.length_append, hlen, h6]
    dsimp only
    rw [hx, h2, File.nat_tdiv _ _ _ (by omega), File.ofInt_nat, show (x.c.osetData + 25 * rs.length - x.c.osetData) / 25 = rs.length by omega]
    simp only [BitVec.toNat_ofNat]
    omega
  have : ∀ (proc : Except Bad Stats.St → DataRec → Int × Except Bad Stats.St) (s : Except Bad Stats.St),
      File.parseRecords proc f x.c.osetData k h.version s = feed proc (rs.take k) s := by
    intro proc s
    rw [File.parseRecords, h1, if_neg (by omega), if_pos rfl, ← h6, h5]
    exact File.parseLoop_feed 25 (decodeDataRec 3) proc recLayout rs hkk _ pre post k s (by rfl) (by omega)
  unfold parseLimited StatSession.summary
  dsimp only
  rw [hmax, hnr, show lookedAt k rs.length = k by unfold lookedAt; rw [if_pos ⟨h0, hk⟩]]
  simp only [this]
  have hb : Stats.begin x.c s x.c.osetData first last = Stats.begin x.c s 0 first last := by
    unfold Stats.begin
    rw [hmax, show Nat.max x.c.osetData x.c.osetData = x.c.osetData by show max _ _ = _; omega]
  unfold Stats.parse
  rw [hb]

/-- The file of the example with `-v1`. -/
example (s : Stats.St) : parseLimited statDemo.c partsFile partsHeader 1 s 0 0 4 = statDemo.summary (statRecords.take 1) s 0 0 4 :=
  C90_limit statDemo partsFile partsHeader statRecords parts_records 1 (by decide) (by decide) s 0 4

/-- … so that `owping -v1` says of the example, of which three packets were sent and one was lost, that one was sent and none lost. -/
theorem C90_limited_summary : ∃ (x : StatSession) (rs : List DataRec) (k : Nat) (s t : Stats.St), 0 < k ∧ k < rs.length ∧
    x.summary rs (Stats.create x.c x.c0) 0 0 (2 ^ 32 - 1) = .ok s ∧ x.summary (rs.take k) (Stats.create x.c x.c0) 0 0 (2 ^ 32 - 1) = .ok t ∧
    s.sent = 3 ∧ s.lost = 1 ∧ t.sent = 1 ∧ t.lost = 0 := by
  obtain ⟨t, ht⟩ : ∃ t, t = (match statDemo.summary (statRecords.take 1) (Stats.create statCfg statDemo.c0) 0 0 (2 ^ 32 - 1) with
    | .ok s => s
    | .error _ => statAll) := ⟨_, rfl⟩
  refine ⟨statDemo, statRecords, 1, statAll, t, by decide, by decide, stat_all, ?_, by decide +kernel, by decide +kernel, ?_, ?_⟩
  · rw [ht]; decide +kernel
  · rw [ht]; decide +kernel
  · rw [ht]; decide +kernel

end Owamp.Props
