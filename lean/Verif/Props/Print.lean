import Verif.Lemmas.Print
import Verif.Props.Stats
/-!
# C84: the report that programs read tells what the summary found
-/
namespace Owamp.Props
open Owamp.Codec Owamp.Stats Owamp.Spec.Stats Owamp.Policy Owamp.Spec.Print Owamp.Spec.Ports Owamp.Print
open StatSession (Object)

/-- `L` are the lines that a program reads in the report of packets `first` up to but without `last` of session `x`, made from a file with the
records `rs` (in which no packet is recorded as lost twice) with a fresh object or one that was used before. Texts from outside are plain. -/
structure Reported (x : StatSession) (rs : List DataRec) (first last : Nat) (F : Fmt) (i : Info) (L : List (List Bytes)) : Prop where
  made : ∃ s s' oset, Object x s ∧ x.summary rs s oset first last = .ok s' ∧ L = lines (machine F x.c i s')
  size : rs.length < 2 ^ 32
  range : x.Range first last
  once : LostOnce rs
  fmt : PlainFmt F
  info : PlainInfo i

/-! An example: the report of the session of C50. -/

/-- Texts for floating point numbers (here: whole numbers). -/
def demoFmt : Fmt where
  delay := signed
  bucket := signed
  spread := fun a b => signed (a - b)
  err := digits
  unix := digits
  width := text ['0','.','0','0','0','1']
  mul := fun a n => a * n

def demoInfo : Info where
  sid := text ['c','0','f','f']
  fromHost := text ['a']
  fromAddr := text ['1']
  fromPort := text ['8','7']
  toHost := text ['b']
  toAddr := text ['2']
  toPort := text ['8','8']
  unix := false
  typeP := 0x2E000000
  padding := 0
  finished := true

theorem demo_fmt : PlainFmt demoFmt :=
  ⟨signed_plain, signed_plain, fun _ _ => signed_plain _, digits_plain, digits_plain, by decide, by decide⟩

theorem demo_info : PlainInfo demoInfo := by constructor <;> exact ⟨by decide, by decide⟩

theorem stat_reported : Reported statDemo statRecords 0 (2 ^ 32 - 1) demoFmt demoInfo (lines (machine demoFmt statCfg demoInfo statAll)) :=
  ⟨⟨_, _, 0, .fresh, stat_all, rfl⟩, by decide, stat_range, stat_lostOnce, demo_fmt, demo_info⟩

/-! ## Counts and times -/

/-- **C84.** Whoever reads the report finds, each once: the number of packets of the range that have a record, of those that were lost, and of copies beyond
the first; the number of packets of the range and of the session; the scheduled times of the first and the last; the loss timeout and the padding;
whether the clocks were synchronised for every record, and whether the session finished; and the traffic class if the session has one. -/
theorem C84_counts (x : StatSession) (rs : List DataRec) (first last : Nat) (F : Fmt) (i : Info) (L : List (List Bytes))
    (h : Reported x rs first last F i L) (ds : List Nat) (hd : x.Delays ds) (C : List DataRec) (hC : C = x.about first last rs) (n : Nat) (hn : n = lastOf x.c last) :
    Number L ['S','E','N','T'] (sent n C) ∧ Number L ['L','O','S','T'] (lost n C) ∧ Number L ['D','U','P','S'] (duplicates n C) ∧
    Number L ['S','A','M','P','L','E','_','P','A','C','K','E','T','_','C','O','U','N','T'] (n - first) ∧
    Number L ['S','E','S','S','I','O','N','_','P','A','C','K','E','T','_','C','O','U','N','T'] x.c.npackets.toNat ∧
    Number L ['S','T','A','R','T','_','T','I','M','E'] (Spec.Receiver.schedTime x.c.start.toNat ds first) ∧
    Number L ['E','N','D','_','T','I','M','E'] (Spec.Receiver.schedTime x.c.start.toNat ds (n - 1)) ∧
    Number L ['L','O','S','S','_','T','I','M','E','O','U','T'] x.c.timeout.toNat ∧
    Number L ['P','A','C','K','E','T','_','P','A','D','D','I','N','G'] i.padding.toNat ∧
    ((∀ r ∈ C, r.recv.sync = true ∧ (¬ Lost r → r.send.sync = true)) → Number L ['S','Y','N','C'] 1) ∧
    (¬ (∀ r ∈ C, r.recv.sync = true ∧ (¬ Lost r → r.send.sync = true)) → Number L ['S','Y','N','C'] 0) ∧
    Number L ['S','E','S','S','I','O','N','_','F','I','N','I','S','H','E','D'] i.finished.toNat ∧
    Says L ['S','I','D'] i.sid ∧
    (∀ d : Nat, d < 64 → i.typeP.toNat = d * 2 ^ 24 → Says L ['D','S','C','P'] (hexByte d)) := by
  obtain ⟨s, s', oset, hs, hp, hL⟩ := h.made
  obtain ⟨c1, c2, c3, _⟩ := C50_counts x s s' hs rs h.size oset first last h.range h.once hp
  obtain ⟨f1, f2, _, _, f5, _⟩ := C65_figures x s s' hs ds hd rs h.size oset first last h.range hp C hC
  have g := x.tells_at s hs ds hd rs h.size oset first last h.range s' hp
  rw [← hC, ← hn] at c1 c2 c3
  rw [← hn] at f2
  have V := fun k name hn => value_says F x.c i s' h.fmt h.info L hL k name hn
  have N : ∀ k name m, text name = k.name → valueOf F x.c i s' k = some (digits m) → Number L name m :=
    fun k name m e hv => ⟨_, (V k name e).1 _ hv, digits_numeral m⟩
  have P : ∀ k name m, text name = k.name → valueOf F x.c i s' k = some (padded 20 m) → Number L name m :=
    fun k name m e hv => ⟨_, (V k name e).1 _ hv, padded_numeral 20 m⟩
  refine ⟨N .sent _ _ rfl (by rw [← c1]; rfl), N .lost _ _ rfl (by rw [← c2]; rfl), N .dups _ _ rfl (by rw [← c3]; rfl), ?_, N .sessionCount _ _ rfl rfl,
    P .startTime _ _ rfl (by rw [← f1]; rfl), P .endTime _ _ rfl (by rw [← f2]; rfl), N .lossTimeout _ _ rfl rfl, N .padding _ _ rfl rfl,
    fun hy => N .sync _ _ rfl ?_, fun hy => N .sync _ _ rfl ?_, N .finished _ _ rfl ?_, (V .sid _ rfl).1 _ rfl, fun d hd he => (V .dscp _ rfl).1 _ ?_⟩
  · refine N .sampleCount _ _ rfl ?_
    have h1 := h.range.1
    have h2 := h.range.2
    have h3 := x.c.npackets.isLt
    rw [← hn] at h1 h2
    show some (digits ((s'.last + 2 ^ 32 - s'.first) % 2 ^ 32)) = _
    rw [g.isFirst, g.isLast, ← hn, show (n + 2 ^ 32 - first) % 2 ^ 32 = n - first by omega]
  · show some (digits (if s'.sync then 1 else 0)) = _
    rw [if_pos (f5.2 hy)]
  · show some (digits (if s'.sync then 1 else 0)) = _
    rw [if_neg (fun e => hy (f5.1 e))]
  · show some (digits (if i.finished then 1 else 0)) = _
    cases i.finished <;> rfl
  · show (if i.typeP.toNat % 2 ^ 24 = 0 ∧ i.typeP.toNat / 2 ^ 30 = 0 then some (hexByte (i.typeP.toNat / 2 ^ 24)) else none) = _
    rw [if_pos (by omega), show i.typeP.toNat / 2 ^ 24 = d by omega]

/-- The session of the example: 3 packets sent, one of them lost. -/
example : Number (lines (machine demoFmt statCfg demoInfo statAll)) ['S','E','N','T'] 3 ∧ Number (lines (machine demoFmt statCfg demoInfo statAll)) ['L','O','S','T'] 1 ∧
    Says (lines (machine demoFmt statCfg demoInfo statAll)) ['D','S','C','P'] (text ['0','x','2','e']) := by
  have h := C84_counts statDemo statRecords 0 (2 ^ 32 - 1) demoFmt demoInfo _ stat_reported statDelays stat_delays _ rfl _ rfl
  have e1 : sent (lastOf statDemo.c (2 ^ 32 - 1)) (statDemo.about 0 (2 ^ 32 - 1) statRecords) = 3 := by decide +kernel
  have e2 : lost (lastOf statDemo.c (2 ^ 32 - 1)) (statDemo.about 0 (2 ^ 32 - 1) statRecords) = 1 := by decide +kernel
  refine ⟨e1 ▸ h.1, e2 ▸ h.2.1, h.2.2.2.2.2.2.2.2.2.2.2.2.2 46 (by decide) (by decide)⟩

/-! ## Delays -/

/-- Bucket `b` is the percentile `alpha` as C51 says it: the smallest into which a packet fell such that at least the share `alpha` of the packets sent came
with a delay in it or below. -/
def IsQuantile (x : StatSession) (n : Nat) (C : List DataRec) (mul : Rat → Nat → Rat) (alpha : Rat) (b : Int) : Prop :=
  (∃ k r, k < n ∧ firstCopy C k = some r ∧ x.bucketOf r = b) ∧ ¬ (x.upTo n C b : Rat) < mul alpha (sent n C) ∧
    ∀ k r, k < n → firstCopy C k = some r → x.bucketOf r < b → (x.upTo n C (x.bucketOf r) : Rat) < mul alpha (sent n C)

/-- There is none: no packet came, or too few. -/
def NoQuantile (n : Nat) (C : List DataRec) (mul : Rat → Nat → Rat) (alpha : Rat) : Prop :=
  arrived n C = 0 ∨ (arrived n C : Rat) < mul alpha (sent n C)

/-- **C84** for delays. The least and the greatest delay in the report are those of the arrivals, and there are such lines exactly if an arrival has a delay below the
value (and above its negative) that stands for a loss. The median is the percentile 1/2 of C51 and the variation the difference of the percentiles
0.95 and 1/2, and they are there exactly if those exist. -/
theorem C84_delays (x : StatSession) (rs : List DataRec) (first last : Nat) (F : Fmt) (i : Info) (L : List (List Bytes))
    (h : Reported x rs first last F i L) (C : List DataRec) (hC : C = x.about first last rs) (n : Nat) (hn : n = lastOf x.c last)
    (D : List Int) (hD : D = (arrivals C).map fun r => x.c.delay r.send r.recv) :
    (∀ m ∈ D, m < x.c.inf → (∀ d ∈ D, m ≤ d) → Says L ['M','I','N'] (F.delay m)) ∧ ((∀ d ∈ D, x.c.inf ≤ d) → Silent L ['M','I','N']) ∧
    (∀ m ∈ D, -x.c.inf < m → (∀ d ∈ D, d ≤ m) → Says L ['M','A','X'] (F.delay m)) ∧ ((∀ d ∈ D, d ≤ -x.c.inf) → Silent L ['M','A','X']) ∧
    (∀ b, IsQuantile x n C F.mul (1 / 2) b → Says L ['M','E','D','I','A','N'] (F.bucket b)) ∧
    (NoQuantile n C F.mul (1 / 2) → Silent L ['M','E','D','I','A','N']) ∧
    (∀ a b, IsQuantile x n C F.mul (95 / 100) a → IsQuantile x n C F.mul (1 / 2) b → Says L ['P','D','V'] (F.spread a b)) ∧
    (NoQuantile n C F.mul (95 / 100) ∨ NoQuantile n C F.mul (1 / 2) → Silent L ['P','D','V']) := by
  obtain ⟨s, s', oset, hs, hp, hL⟩ := h.made
  obtain ⟨ds, hd, _⟩ := x.tells s hs rs h.size oset first last h.range s' hp
  obtain ⟨_, _, f3, f4, _⟩ := C65_figures x s s' hs ds hd rs h.size oset first last h.range hp C hC
  rw [← hD] at f3 f4
  have V := fun k name hn => value_says F x.c i s' h.fmt h.info L hL k name hn
  have perc := fun alpha => C51_percentile x s s' hs rs h.size oset first last h.range h.once hp F.mul alpha C n (sent n C) hC hn rfl
  have is_ : ∀ alpha b, IsQuantile x n C F.mul alpha b → percentile F.mul s' alpha = some b := fun alpha b hb => ((perc alpha).1 b).2 hb
  have no_ : ∀ alpha, NoQuantile n C F.mul alpha → percentile F.mul s' alpha = none := fun alpha hb => (perc alpha).2.2 hb
  refine ⟨fun m hm hi hl => (V .min _ rfl).1 _ ?_, fun hl => (V .min _ rfl).2 ?_, fun m hm hi hl => (V .max _ rfl).1 _ ?_, fun hl => (V .max _ rfl).2 ?_,
    fun b hb => (V .median _ rfl).1 _ ?_, fun hb => (V .median _ rfl).2 ?_, fun a b ha hb => (V .pdv _ rfl).1 _ ?_, fun hb => (V .pdv _ rfl).2 ?_⟩
  · have e : s'.min = m := least_unique f3 ⟨.inr hm, by omega, hl⟩
    show (if s'.min < x.c.inf then some (F.delay s'.min) else none) = _
    rw [e, if_pos hi]
  · have e : s'.min = x.c.inf := least_unique f3 ⟨.inl rfl, Int.le_refl _, hl⟩
    show (if s'.min < x.c.inf then some (F.delay s'.min) else none) = _
    rw [e, if_neg (by omega)]
  · have e : s'.max = m := greatest_unique f4 ⟨.inr hm, by omega, hl⟩
    show (if s'.max > -x.c.inf then some (F.delay s'.max) else none) = _
    rw [e, if_pos hi]
  · have e : s'.max = -x.c.inf := greatest_unique f4 ⟨.inl rfl, Int.le_refl _, hl⟩
    show (if s'.max > -x.c.inf then some (F.delay s'.max) else none) = _
    rw [e, if_neg (by omega)]
  · show (percentile F.mul s' (1 / 2)).map F.bucket = _
    rw [is_ _ b hb]; rfl
  · show (percentile F.mul s' (1 / 2)).map F.bucket = _
    rw [no_ _ hb]; rfl
  · show (jitter F s').map _ = _
    unfold jitter
    rw [is_ _ a ha, is_ _ b hb]; rfl
  · show (jitter F s').map _ = _
    unfold jitter
    rcases hb with hb | hb
    · rw [no_ _ hb]; rfl
    · rw [no_ _ hb]
      cases percentile F.mul s' (95 / 100) <;> rfl

/-- In the example the least delay is 1/8 s; with one of three packets lost there is no percentile 0.95 and so no variation. -/
example : Says (lines (machine demoFmt statCfg demoInfo statAll)) ['M','I','N'] (demoFmt.delay (2 * 2 ^ 28)) ∧
    Silent (lines (machine demoFmt statCfg demoInfo statAll)) ['P','D','V'] := by
  have h := C84_delays statDemo statRecords 0 (2 ^ 32 - 1) demoFmt demoInfo _ stat_reported _ rfl _ rfl _ rfl
  refine ⟨h.1 (2 * 2 ^ 28) (by decide +kernel) (by decide) (by decide +kernel), h.2.2.2.2.2.2.2 (.inl (.inr ?_))⟩
  have e1 : arrived (lastOf statDemo.c (2 ^ 32 - 1)) (statDemo.about 0 (2 ^ 32 - 1) statRecords) = 2 := by decide +kernel
  have e2 : sent (lastOf statDemo.c (2 ^ 32 - 1)) (statDemo.about 0 (2 ^ 32 - 1) statRecords) = 3 := by decide +kernel
  rw [e1, e2]
  decide +kernel

/-! ## The histogram of delays -/

theorem packets_or (n : Nat) (p q : Nat → Bool) (h : ∀ k, p k = true → q k = false) : packets n (fun k => p k || q k) = packets n p + packets n q := by
  unfold packets
  induction List.range n with
  | nil => rfl
  | cons k l ih =>
    rw [List.countP_cons, List.countP_cons, List.countP_cons, ih]
    cases hp : p k with
    | false => cases q k <;> simp; try omega
    | true => rw [h k hp]; simp; omega

/-- A packet that has a record was lost or came. -/
theorem sent_split (n : Nat) (C : List DataRec) (h : ∀ k, losses C k ≠ 0 → copies C k = 0) : sent n C = lost n C + arrived n C := by
  unfold sent lost arrived firsts
  rw [← packets_or]
  · unfold packets
    apply List.countP_congr
    intro k _
    simp only [decide_eq_true_eq, Bool.or_eq_true]
    constructor
    · rintro ⟨r, hr, e⟩
      by_cases hl : Lost r
      · left
        unfold losses
        rw [Nat.ne_zero_iff_zero_lt, List.countP_pos_iff]
        exact ⟨r, hr, by simpa using ⟨hl, e⟩⟩
      · right
        cases hc : firstCopy C k with
        | some r => rfl
        | none =>
          unfold firstCopy at hc
          have := List.find?_eq_none.1 hc r (by unfold arrivals; simp [hr, hl])
          simp [e] at this
    · rintro (hk | hk)
      · unfold losses at hk
        rw [Nat.ne_zero_iff_zero_lt, List.countP_pos_iff] at hk
        obtain ⟨r, hr, e⟩ := hk
        simp only [decide_eq_true_eq] at e
        exact ⟨r, hr, e.2⟩
      · cases hc : firstCopy C k with
        | none => rw [hc] at hk; cases hk
        | some r =>
          unfold firstCopy at hc
          have h1 := List.mem_of_find?_eq_some hc
          have h2 := List.find?_some hc
          unfold arrivals at h1
          exact ⟨r, (List.mem_filter.1 h1).1, by simpa using h2⟩
  · intro k hk
    have hk := h k (by simpa using hk)
    cases hc : firstCopy C k with
    | none => rfl
    | some r =>
      unfold firstCopy at hc
      have h1 := List.mem_of_find?_eq_some hc
      have h2 := List.find?_some hc
      unfold copies at hk
      exact absurd h2 (List.countP_eq_zero.1 hk r h1)

theorem tidy_total (h : List (Int × Nat)) (ht : Tidy h) (b : Int) (k : Nat) : (b, k) ∈ h ↔ k ≠ 0 ∧ total (fun c => decide (c = b)) h = k := by
  induction h with
  | nil =>
    constructor
    · intro hm; cases hm
    · rintro ⟨h1, h2⟩; exact absurd h2.symm h1
  | cons p h ih =>
    obtain ⟨o1, o2⟩ := List.pairwise_cons.1 ht.once
    have ih := ih ⟨o2, fun x hx => ht.pos x (by simp [hx])⟩
    rw [total_cons, List.mem_cons]
    by_cases e : p.1 = b
    · have h0 : total (fun c => decide (c = b)) h = 0 := by
        unfold total
        rw [List.sum_eq_zero_iff_forall_eq_nat]
        intro v hv
        obtain ⟨y, hy, rfl⟩ := List.mem_map.1 hv
        rw [if_neg (by simpa using fun e' => o1 y hy (e.trans e'.symm))]
      rw [if_pos (by simpa using e), h0, Nat.add_zero]
      constructor
      · rintro (rfl | hm)
        · exact ⟨Nat.ne_of_gt (ht.pos (b, k) (by simp)), rfl⟩
        · exact absurd e (o1 _ hm)
      · rintro ⟨_, rfl⟩; left; rw [← e]
    · rw [if_neg (by simpa using e), Nat.zero_add, ← ih]
      constructor
      · rintro (rfl | hm)
        · exact absurd rfl e
        · exact hm
      · exact .inr

/-- **C84** for the histogram of delays: it is there exactly if a packet came, and it has one row for each bucket into which one fell, with the number of packets
that first came with a delay in it. -/
theorem C84_histogram (x : StatSession) (rs : List DataRec) (first last : Nat) (F : Fmt) (i : Info) (L : List (List Bytes))
    (h : Reported x rs first last F i L) (C : List DataRec) (hC : C = x.about first last rs) (n : Nat) (hn : n = lastOf x.c last) :
    (arrived n C ≠ 0 → ∃ rows, Table L ['B','U','C','K','E','T','S'] rows ∧ (rows.map (·.1)).Pairwise (· ≠ ·) ∧
      ∀ b k, (b, k) ∈ rows ↔ k ≠ 0 ∧ firsts n C (fun r => x.bucketOf r = b) = k) ∧
    (arrived n C = 0 → NoTable L ['B','U','C','K','E','T','S']) := by
  obtain ⟨s, s', oset, hs, hp, hL⟩ := h.made
  obtain ⟨c1, c2, _, c4⟩ := C50_counts x s s' hs rs h.size oset first last h.range h.once hp
  obtain ⟨ds, _, g⟩ := x.tells s hs rs h.size oset first last h.range s' hp
  obtain ⟨s0, hf, _⟩ := g.fig
  rw [← hC, ← hn] at c1 c2
  rw [← hC] at c4
  obtain ⟨t1, t2⟩ := table_bucket F x.c i s' h.fmt h.info L hL
  have e := sent_split n C c4
  constructor
  · intro ha
    refine ⟨_, t1 (by omega), ?_, fun b k => ?_⟩
    · rw [List.pairwise_map]; exact hf.tidy.once
    · rw [tidy_total _ hf.tidy, hf.hist, g.cnt, g.isLast, ← hC, ← hn]; rfl
  · intro ha
    exact t2 (by omega)

/-- In the example two packets came, with different delays. -/
example : ∃ rows, Table (lines (machine demoFmt statCfg demoInfo statAll)) ['B','U','C','K','E','T','S'] rows ∧ (2 * 2 ^ 28, 1) ∈ rows ∧ (20 * 2 ^ 28, 1) ∈ rows := by
  obtain ⟨rows, h1, _, h3⟩ := (C84_histogram statDemo statRecords 0 (2 ^ 32 - 1) demoFmt demoInfo _ stat_reported _ rfl _ rfl).1 (by decide +kernel)
  exact ⟨rows, h1, (h3 _ _).2 ⟨by decide, by decide +kernel⟩, (h3 _ _).2 ⟨by decide, by decide +kernel⟩⟩

/-! ## TTL values -/

/-- **C84** for TTL values (partial: if all 256 occur there is no table, see `C84_all_ttls`; and if no packet came, values are reported all the same, see `C84_no_ttl`):
the least and the greatest TTL are those with which packets came, and the table has a row for each of them, in their order, with the number of packets
that first came with it. -/
theorem C84_ttls_partial (x : StatSession) (rs : List DataRec) (first last : Nat) (F : Fmt) (i : Info) (L : List (List Bytes))
    (h : Reported x rs first last F i L) (C : List DataRec) (hC : C = x.about first last rs) (n : Nat) (hn : n = lastOf x.c last)
    (some_ : ∃ t, TtlSeen n C t) (notAll : ∃ t, t < 256 ∧ ¬ TtlSeen n C t) :
    (∃ lo hi, Number L ['M','I','N','T','T','L'] lo ∧ Number L ['M','A','X','T','T','L'] hi ∧ TtlSeen n C lo ∧ TtlSeen n C hi ∧
      ∀ t, TtlSeen n C t → lo ≤ t ∧ t ≤ hi) ∧
    Table L ['T','T','L','B','U','C','K','E','T','S'] (((List.range 256).filter fun t => decide (TtlSeen n C t)).map fun (t : Nat) =>
      ((t : Int), firsts n C fun r => r.ttl.toNat = t)) := by
  obtain ⟨s, s', oset, hs, hp, hL⟩ := h.made
  obtain ⟨ds, hd, _⟩ := x.tells s hs rs h.size oset first last h.range s' hp
  obtain ⟨_, _, _, _, _, _, hl, ht⟩ := C65_figures x s s' hs ds hd rs h.size oset first last h.range hp C hC
  obtain ⟨p1, p2⟩ := C65_ttl_partial x s s' hs rs h.size oset first last h.range hp C hC n hn
  obtain ⟨q1, q2, q3⟩ := p2 some_
  have V := fun k name hn => value_says F x.c i s' h.fmt h.info L hL k name hn
  have seen : ∀ t, t < 256 → (s'.ttl.getD t 0 ≠ 0 ↔ TtlSeen n C t) := by
    intro t hlt
    rw [ht t hlt, ← hn, Nat.ne_zero_iff_zero_lt, firsts_pos]
    unfold TtlSeen
    simp
  refine ⟨⟨_, _, ⟨_, (V .minTtl _ rfl).1 _ rfl, digits_numeral _⟩, ⟨_, (V .maxTtl _ rfl).1 _ rfl, digits_numeral _⟩, q1, q2, q3⟩, ?_⟩
  have pos : (ttlStats s').1 > 0 := by
    rw [p1]
    have lo : 0 < packets 256 fun t => decide (TtlSeen n C t) := by
      obtain ⟨t, hts⟩ := some_
      rw [packets_pos]
      obtain ⟨k, r, hk, hc, e⟩ := hts
      exact ⟨t, by rw [← e]; exact r.ttl.isLt, decide_eq_true ⟨k, r, hk, hc, e⟩⟩
    have hi : (packets 256 fun t => decide (TtlSeen n C t)) < 256 := by
      obtain ⟨t, h1, h2⟩ := notAll
      unfold packets
      refine Nat.lt_of_le_of_ne (Nat.le_trans List.countP_le_length (by simp)) fun e => h2 ?_
      have e := List.countP_eq_length.1 (e.trans List.length_range.symm)
      exact of_decide_eq_true (e t (List.mem_range.2 h1))
    omega
  have tab := (table_ttl F x.c i s' h.fmt h.info L hL).1 pos
  rw [hl] at tab
  have e : ((List.range 256).filter fun t => s'.ttl.getD t 0 ≠ 0) = (List.range 256).filter fun t => decide (TtlSeen n C t) := by
    apply List.filter_congr
    intro t hm
    exact decide_eq_decide.2 (seen t (List.mem_range.1 hm))
  rw [e] at tab
  have e2 : (((List.range 256).filter fun t => decide (TtlSeen n C t)).map fun (t : Nat) => ((t : Int), s'.ttl.getD t 0)) =
      ((List.range 256).filter fun t => decide (TtlSeen n C t)).map fun (t : Nat) => ((t : Int), firsts n C fun r => r.ttl.toNat = t) := by
    apply List.map_congr_left
    intro t hm
    rw [ht t (List.mem_range.1 (List.mem_filter.1 hm).1), hn]
  rw [e2] at tab
  exact tab

/-- In the example one packet came with TTL 60 and one with 61. -/
example : Table (lines (machine demoFmt statCfg demoInfo statAll)) ['T','T','L','B','U','C','K','E','T','S'] [(60, 1), (61, 1)] := by
  have h := (C84_ttls_partial statDemo statRecords 0 (2 ^ 32 - 1) demoFmt demoInfo _ stat_reported _ rfl _ rfl ⟨60, by decide +kernel⟩ ⟨0, by decide, by decide +kernel⟩).2
  have e : (((List.range 256).filter fun t => decide (TtlSeen (lastOf statDemo.c (2 ^ 32 - 1)) (statDemo.about 0 (2 ^ 32 - 1) statRecords) t)).map fun (t : Nat) =>
      ((t : Int), firsts (lastOf statDemo.c (2 ^ 32 - 1)) (statDemo.about 0 (2 ^ 32 - 1) statRecords) fun r => r.ttl.toNat = t)) = [(60, 1), (61, 1)] := by decide +kernel
  rw [e] at h
  exact h

/-- C84 fails for TTL values when all 256 of them occur: the table is missing. -/
theorem C84_all_ttls (x : StatSession) (rs : List DataRec) (first last : Nat) (F : Fmt) (i : Info) (L : List (List Bytes))
    (h : Reported x rs first last F i L) (all : ∀ t, t < 256 → TtlSeen (lastOf x.c last) (x.about first last rs) t) :
    NoTable L ['T','T','L','B','U','C','K','E','T','S'] := by
  obtain ⟨s, s', oset, hs, hp, hL⟩ := h.made
  have e := (C65_all_ttls x s s' hs rs h.size oset first last h.range hp all).1
  exact (table_ttl F x.c i s' h.fmt h.info L hL).2 (by rw [e]; decide)

/-- The session of `C65_all_ttls`: packet `k` comes with TTL `k`. -/
example : ∃ L, Reported ttlDemo ttlRecords 0 256 demoFmt demoInfo L ∧ NoTable L ['T','T','L','B','U','C','K','E','T','S'] := by
  have ha : ttlDemo.about 0 256 ttlRecords = ttlRecords := by decide +kernel
  obtain ⟨s', h⟩ : ∃ s', ttlDemo.summary ttlRecords (Stats.create ttlDemo.c ttlDemo.c0) 0 0 256 = .ok s' := by
    have : (ttlDemo.summary ttlRecords (Stats.create ttlDemo.c ttlDemo.c0) 0 0 256).toOption.isSome := by decide +kernel
    cases hc : ttlDemo.summary ttlRecords (Stats.create ttlDemo.c ttlDemo.c0) 0 0 256 with
    | ok s' => exact ⟨s', rfl⟩
    | error e => rw [hc] at this; cases this
  have once : LostOnce ttlRecords := by
    intro k
    refine Nat.le_trans (Nat.le_of_eq (List.countP_eq_zero.2 fun r hr => ?_)) (Nat.zero_le 1)
    have : ∀ r ∈ ttlRecords, ¬ Lost r := by decide +kernel
    simp only [decide_eq_true_eq]
    exact fun e => this r hr e.1
  have R : Reported ttlDemo ttlRecords 0 256 demoFmt demoInfo (lines (machine demoFmt ttlDemo.c demoInfo s')) :=
    ⟨⟨_, _, 0, .fresh, h, rfl⟩, by decide +kernel, by unfold StatSession.Range; decide +kernel, once, demo_fmt, demo_info⟩
  refine ⟨_, R, C84_all_ttls ttlDemo ttlRecords 0 256 demoFmt demoInfo _ R ?_⟩
  rw [ha]
  intro t ht
  have : ∀ t, t < 256 → firstCopy ttlRecords t = some (came t (16 * t + 16) (16 * t + 17) (BitVec.ofNat 8 t)) := by decide +kernel
  exact ⟨t, _, ht, this t ht, by show (BitVec.ofNat 8 t).toNat = t; rw [BitVec.toNat_ofNat]; exact Nat.mod_eq_of_lt ht⟩

/-- C84 fails for TTL values when no packet came: the report says that the least is 255 and the greatest 0. -/
theorem C84_no_ttl (x : StatSession) (rs : List DataRec) (first last : Nat) (F : Fmt) (i : Info) (L : List (List Bytes))
    (h : Reported x rs first last F i L) (none_ : arrived (lastOf x.c last) (x.about first last rs) = 0) :
    Number L ['M','I','N','T','T','L'] 255 ∧ Number L ['M','A','X','T','T','L'] 0 ∧ NoTable L ['T','T','L','B','U','C','K','E','T','S'] := by
  obtain ⟨s, s', oset, hs, hp, hL⟩ := h.made
  obtain ⟨ds, hd, _⟩ := x.tells s hs rs h.size oset first last h.range s' hp
  obtain ⟨_, _, _, _, _, _, hl, ht⟩ := C65_figures x s s' hs ds hd rs h.size oset first last h.range hp _ rfl
  have V := fun k name hn => value_says F x.c i s' h.fmt h.info L hL k name hn
  have z : ∀ l : List Nat, (∀ v ∈ l, v = 0) → ∀ i a, ttlLoop l i a = a := by
    intro l
    induction l with
    | nil => intro _ i a; rfl
    | cons v l ih =>
      intro hv i a
      obtain ⟨a1, a2, a3⟩ := a
      rw [ttlLoop, if_pos (hv v (by simp))]
      exact ih (fun w hw => hv w (by simp [hw])) _ _
  have e : ttlStats s' = (0, 255, 0) := by
    refine z _ (fun v hv => ?_) 0 _
    obtain ⟨t, ht1, rfl⟩ := List.getElem_of_mem hv
    have := ht t (by omega)
    rw [List.getD_eq_getElem?_getD, List.getElem?_eq_getElem ht1, Option.getD_some] at this
    rw [this]
    apply Nat.eq_zero_of_not_pos
    intro hpos
    obtain ⟨k, r, k1, k2, _⟩ := (firsts_pos _ _ _).1 hpos
    have : 0 < arrived (lastOf x.c last) (x.about first last rs) := (firsts_pos _ _ _).2 ⟨k, r, k1, k2, rfl⟩
    omega
  refine ⟨⟨_, (V .minTtl _ rfl).1 _ (by show some (digits (ttlStats s').2.1) = some (digits 255); rw [e]), digits_numeral 255⟩,
    ⟨_, (V .maxTtl _ rfl).1 _ (by show some (digits (ttlStats s').2.2) = some (digits 0); rw [e]), digits_numeral 0⟩,
    (table_ttl F x.c i s' h.fmt h.info L hL).2 (by rw [e]; decide)⟩

/-- All packets of the session of C50 are lost. -/
example : ∃ L, Reported statDemo [wentMissing 0 16, wentMissing 1 32] 0 2 demoFmt demoInfo L ∧ Number L ['M','I','N','T','T','L'] 255 := by
  obtain ⟨s', h⟩ : ∃ s', statDemo.summary [wentMissing 0 16, wentMissing 1 32] (Stats.create statCfg statDemo.c0) 0 0 2 = .ok s' := by
    have : (statDemo.summary [wentMissing 0 16, wentMissing 1 32] (Stats.create statCfg statDemo.c0) 0 0 2).toOption.isSome := by decide +kernel
    cases hc : statDemo.summary [wentMissing 0 16, wentMissing 1 32] (Stats.create statCfg statDemo.c0) 0 0 2 with
    | ok s' => exact ⟨s', rfl⟩
    | error e => rw [hc] at this; cases this
  have once : LostOnce [wentMissing 0 16, wentMissing 1 32] := by
    intro k
    unfold losses
    rw [List.countP_cons, List.countP_cons, List.countP_nil]
    have : ¬ ((wentMissing 0 16).seq.toNat = k ∧ (wentMissing 1 32).seq.toNat = k) := by
      rintro ⟨e1, e2⟩
      exact absurd (e1.trans e2.symm) (by decide)
    split
    · split
      · simp_all
      · decide
    · split <;> decide
  have R : Reported statDemo [wentMissing 0 16, wentMissing 1 32] 0 2 demoFmt demoInfo (lines (machine demoFmt statDemo.c demoInfo s')) :=
    ⟨⟨_, _, 0, .fresh, h, rfl⟩, by decide, by unfold StatSession.Range; decide +kernel, once, demo_fmt, demo_info⟩
  exact ⟨_, R, (C84_no_ttl statDemo _ 0 2 demoFmt demoInfo _ R (by decide +kernel)).1⟩

/-! ## Reordering -/

theorem reordered_mono (C : List DataRec) (j : Nat) : reordered C (j + 1) ≤ reordered C j := by
  unfold reordered
  apply List.countP_mono_left
  intro p _ hp
  simp only [decide_eq_true_eq] at hp ⊢
  exact ⟨by omega, fun y hy => hp.2 y (by omega)⟩

theorem reordered_le (C : List DataRec) (j k : Nat) : reordered C (j + k) ≤ reordered C j := by
  induction k with
  | zero => exact Nat.le_refl _
  | succ k ih => exact Nat.le_trans (reordered_mono C (j + k)) ih

theorem run0_spec (l : List Nat) : run0 l ≤ l.length ∧ (∀ q, q < run0 l → l.getD q 0 ≠ 0) ∧ (run0 l < l.length → l.getD (run0 l) 0 = 0) := by
  induction l with
  | nil => exact ⟨Nat.le_refl _, fun q hq => (Nat.not_lt_zero _ hq).elim, fun _ => rfl⟩
  | cons n l ih =>
    by_cases h : n = 0
    · have e : run0 (n :: l) = 0 := by unfold run0; rw [List.takeWhile_cons, if_neg (by simpa using h)]; rfl
      rw [e]
      exact ⟨Nat.zero_le _, fun q hq => (Nat.not_lt_zero _ hq).elim, fun _ => h⟩
    · have e : run0 (n :: l) = run0 l + 1 := by unfold run0; rw [List.takeWhile_cons, if_pos (by simpa using h)]; rfl
      rw [e]
      refine ⟨by simp; exact ih.1, fun q hq => ?_, fun hq => ?_⟩
      · cases q with
        | zero => exact h
        | succ q => exact ih.2.1 q (by omega)
      · exact ih.2.2 (by simpa using hq)

/-- **C84** for reordering (partial: only if no arrival comes after as many larger numbers as the buffers hold, 10 or what `-N` says; see `C84_beyond`): the table has
the number of `j`-reordered packets for `j` from 1 on, as long as there are any, and for all further `j` there are none. -/
theorem C84_reordering_partial (x : StatSession) (rs : List DataRec) (first last : Nat) (F : Fmt) (i : Info) (L : List (List Bytes))
    (h : Reported x rs first last F i L) (C : List DataRec) (hC : C = x.about first last rs) (held : reordered C x.c.rlist = 0) :
    ∃ m, (∀ j, 0 < j → (reordered C j ≠ 0 ↔ j ≤ m)) ∧
      Table L ['N','R','E','O','R','D','E','R','I','N','G'] (if m = 0 then [(1, 0)] else (List.range m).map fun (q : Nat) => (((q + 1 : Nat) : Int), reordered C (q + 1))) := by
  obtain ⟨s, s', oset, hs, hp, hL⟩ := h.made
  obtain ⟨c1, c2⟩ := C52_reordering x s s' hs rs h.size oset first last h.range hp
  rw [← hC] at c2
  obtain ⟨r1, r2, r3⟩ := run0_spec s'.rn
  have tab := table_reorder F x.c i s' h.fmt h.info L hL
  have hlt : run0 s'.rn < x.c.rlist := by
    refine Nat.lt_of_le_of_ne (c1 ▸ r1) fun e => ?_
    have hp0 := x.rlist
    refine r2 (x.c.rlist - 1) (by omega) ?_
    rw [c2 _ (by omega), show x.c.rlist - 1 + 1 = x.c.rlist by omega, held]
  refine ⟨run0 s'.rn, fun j hj => ⟨fun hne => ?_, fun hle => ?_⟩, ?_⟩
  · apply Nat.le_of_not_lt
    intro hgt
    have z := r3 (by rw [c1]; exact hlt)
    rw [c2 _ hlt] at z
    have := reordered_le C (run0 s'.rn + 1) (j - (run0 s'.rn + 1))
    rw [show run0 s'.rn + 1 + (j - (run0 s'.rn + 1)) = j by omega] at this
    omega
  · have := r2 (j - 1) (by omega)
    rw [c2 _ (by omega), show j - 1 + 1 = j by omega] at this
    exact this
  · by_cases h0 : run0 s'.rn = 0
    · rw [if_pos (Or.inl h0), h0] at tab
      rw [if_pos h0]
      exact tab
    · rw [if_neg (by rw [c1]; omega), List.append_nil] at tab
      rw [if_neg h0]
      have e : ((List.range (run0 s'.rn)).map fun (q : Nat) => (((q + 1 : Nat) : Int), s'.rn.getD q 0)) =
          (List.range (run0 s'.rn)).map fun (q : Nat) => (((q + 1 : Nat) : Int), reordered C (q + 1)) := by
        apply List.map_congr_left
        intro q hq
        rw [c2 q (by have := List.mem_range.1 hq; omega)]
      rw [e] at tab
      exact tab

/-- In the example one arrival is 1-reordered and none more. -/
example : Table (lines (machine demoFmt statCfg demoInfo statAll)) ['N','R','E','O','R','D','E','R','I','N','G'] [(1, 1)] := by
  obtain ⟨m, h1, h2⟩ := C84_reordering_partial statDemo statRecords 0 (2 ^ 32 - 1) demoFmt demoInfo _ stat_reported _ rfl (by decide +kernel)
  have a : 1 ≤ m := (h1 1 (by decide)).1 (by decide +kernel)
  have b : ¬ 2 ≤ m := fun h => (h1 2 (by decide)).2 h (by decide +kernel)
  have e : m = 1 := by omega
  rw [e] at h2
  have e2 : (if (1 : Nat) = 0 then [(1, 0)] else (List.range 1).map fun (q : Nat) => (((q + 1 : Nat) : Int), reordered (statDemo.about 0 (2 ^ 32 - 1) statRecords) (q + 1))) = [(1, 1)] := by decide +kernel
  rw [e2] at h2
  exact h2

/-- What the report says when arrivals come after as many larger numbers as the buffers hold: after the counts that were kept, a row with the count 0 for the next. -/
theorem C84_beyond_row (x : StatSession) (rs : List DataRec) (first last : Nat) (F : Fmt) (i : Info) (L : List (List Bytes))
    (h : Reported x rs first last F i L) (C : List DataRec) (hC : C = x.about first last rs) (more : reordered C x.c.rlist ≠ 0) :
    Table L ['N','R','E','O','R','D','E','R','I','N','G']
      ((List.range x.c.rlist).map (fun (q : Nat) => (((q + 1 : Nat) : Int), reordered C (q + 1))) ++ [(((x.c.rlist + 1 : Nat) : Int), 0)]) := by
  obtain ⟨s, s', oset, hs, hp, hL⟩ := h.made
  obtain ⟨c1, c2⟩ := C52_reordering x s s' hs rs h.size oset first last h.range hp
  rw [← hC] at c2
  obtain ⟨r1, r2, r3⟩ := run0_spec s'.rn
  have tab := table_reorder F x.c i s' h.fmt h.info L hL
  have e : run0 s'.rn = x.c.rlist := by
    apply Nat.le_antisymm (c1 ▸ r1)
    apply Nat.le_of_not_lt
    intro hlt
    have z := r3 (by rw [c1]; exact hlt)
    rw [c2 _ hlt] at z
    have := reordered_le C (run0 s'.rn + 1) (x.c.rlist - (run0 s'.rn + 1))
    rw [show run0 s'.rn + 1 + (x.c.rlist - (run0 s'.rn + 1)) = x.c.rlist by omega] at this
    omega
  rw [e, if_pos (Or.inr (by rw [c1]))] at tab
  have e2 : ((List.range x.c.rlist).map fun (q : Nat) => (((q + 1 : Nat) : Int), s'.rn.getD q 0)) =
      (List.range x.c.rlist).map fun (q : Nat) => (((q + 1 : Nat) : Int), reordered C (q + 1)) := by
    apply List.map_congr_left
    intro q hq
    rw [c2 q (List.mem_range.1 hq)]
  rw [e2] at tab
  exact tab

/-- A session of 13 packets whose packets come in reverse order, all in time. -/
def backDemo : StatSession where
  c := { statCfg with npackets := 13, skips := [], timeout := 100#64 <<< 32 }
  sid := zeros 16
  slots := [.literal (1#64 <<< 32)]
  c0 := Sched.setup (zeros 16) ⟨13, [.literal (1#64 <<< 32)]⟩
  sched := by decide +kernel
  rlist := by decide
  data := by decide

def backRecords : List DataRec := (List.range 13).map fun k => came (12 - k) (16 * (13 - k)) (210 + k) 60

def backAll : Stats.St := match backDemo.summary backRecords (Stats.create backDemo.c backDemo.c0) 0 0 13 with
  | .ok s => s
  | .error _ => Stats.create backDemo.c backDemo.c0

theorem back_all : backDemo.summary backRecords (Stats.create backDemo.c backDemo.c0) 0 0 13 = .ok backAll := by decide +kernel

theorem back_once : LostOnce backRecords := by
  intro k
  refine Nat.le_trans (Nat.le_of_eq (List.countP_eq_zero.2 fun r hr => ?_)) (Nat.zero_le 1)
  have : ∀ r ∈ backRecords, ¬ Lost r := by decide +kernel
  simp only [decide_eq_true_eq]
  exact fun e => this r hr e.1

/-- C84 fails for reordering beyond what the buffers hold (the default is 10): of 13 packets in reverse order two come after eleven with larger numbers, and the report
says that none does. (The summary for people says that this is not handled.) -/
theorem C84_beyond : ∃ (x : StatSession) (rs : List DataRec) (F : Fmt) (i : Info) (L : List (List Bytes)) (rows : List (Int × Nat)), Reported x rs 0 13 F i L ∧
    Table L ['N','R','E','O','R','D','E','R','I','N','G'] (rows ++ [(11, 0)]) ∧ reordered (x.about 0 13 rs) 11 = 2 :=
  ⟨backDemo, backRecords, demoFmt, demoInfo, lines (machine demoFmt backDemo.c demoInfo backAll), _,
    ⟨⟨_, _, 0, .fresh, back_all, rfl⟩, by decide, by unfold StatSession.Range; decide +kernel, back_once, demo_fmt, demo_info⟩,
    C84_beyond_row backDemo backRecords 0 13 demoFmt demoInfo _
      ⟨⟨_, _, 0, .fresh, back_all, rfl⟩, by decide, by unfold StatSession.Range; decide +kernel, back_once, demo_fmt, demo_info⟩ _ rfl (by decide +kernel),
    by decide +kernel⟩

end Owamp.Props
