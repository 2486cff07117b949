import Verif.Lemmas.TwStatsParse
import Verif.Lemmas.StatsShow
import Verif.Props.TwoWay
import Verif.Props.Stats
/-!
# C75 and C76: summaries of two-way sessions
-/
namespace Owamp.Props
open Owamp.Num64 Owamp.Codec Owamp.TwStats Owamp.Spec.TwStats
open Owamp.Spec.Stats (LeastOf GreatestOf)

/-- The range is one of the session and not empty. -/
def TwRange (c : TwStats.Cfg) (first last : Nat) : Prop := first < lastOf c last ∧ lastOf c last ≤ c.npackets.toNat

/-- The records that a summary is about. -/
def twAbout (c : TwStats.Cfg) (first last : Nat) (rs : List TWDataRec) : List TWDataRec := within first (lastOf c last) rs

theorem tw_says {c : TwStats.Cfg} {rs : List TWDataRec} {oset first last : Nat} {s : TwStats.St} (hr : TwRange c first last) (hlen : rs.length < 2 ^ 32)
    (hcl : ∀ r ∈ twAbout c first last rs, Clear c r) (hp : TwStats.parse c rs oset first last = .ok s) :
    Says c first (lastOf c last) (twAbout c first last rs) s := by
  rcases parse_spec c rs oset first last hr.1 hr.2 hlen hcl with ⟨h, _⟩ | ⟨s', h, h'⟩
  · rw [hp] at h; cases h
  · rw [hp] at h; cases h; exact h'

private theorem firsts_split (D : List TWDataRec) (h : ∀ r ∈ losses D, ∀ r' ∈ replies D, seqOf r ≠ seqOf r') :
    (Spec.TwStats.firsts seqOf D).length = (Spec.TwStats.firsts seqOf (losses D)).length + (Spec.TwStats.firsts seqOf (replies D)).length := by
  induction D using List.reverseRecOn with
  | nil => rfl
  | append_singleton D r ih =>
    have hsub : ∀ a ∈ losses D, ∀ b ∈ replies D, seqOf a ≠ seqOf b := by
      intro a ha b hb
      refine h a ?_ b ?_
      · exact mem_losses.2 ⟨List.mem_append_left _ (mem_losses.1 ha).1, (mem_losses.1 ha).2⟩
      · exact mem_replies.2 ⟨List.mem_append_left _ (mem_replies.1 hb).1, (mem_replies.1 hb).2⟩
    have ih := ih hsub
    by_cases hl : Lost r
    · rw [losses_lost hl, replies_lost hl]
      have e : (∃ x ∈ D, seqOf x = seqOf r) ↔ ∃ x ∈ losses D, seqOf x = seqOf r := by
        refine ⟨fun ⟨x, x1, x2⟩ => ?_, fun ⟨x, x1, x2⟩ => ⟨x, (mem_losses.1 x1).1, x2⟩⟩
        by_cases hx : Lost x
        · exact ⟨x, mem_losses.2 ⟨x1, hx⟩, x2⟩
        · exact absurd x2.symm (h r (mem_losses.2 ⟨by simp, hl⟩) x (mem_replies.2 ⟨by simp [x1], hx⟩))
      by_cases hd : ∃ x ∈ D, seqOf x = seqOf r
      · rw [firsts_old _ _ _ hd, firsts_old _ _ _ (e.1 hd)]; exact ih
      · rw [firsts_new _ _ _ hd, firsts_new _ _ _ (fun hh => hd (e.2 hh))]; simp only [List.length_append, List.length_singleton]; omega
    · rw [losses_got hl, replies_got hl]
      have e : (∃ x ∈ D, seqOf x = seqOf r) ↔ ∃ x ∈ replies D, seqOf x = seqOf r := by
        refine ⟨fun ⟨x, x1, x2⟩ => ?_, fun ⟨x, x1, x2⟩ => ⟨x, (mem_replies.1 x1).1, x2⟩⟩
        by_cases hx : Lost x
        · exact absurd x2 (h x (mem_losses.2 ⟨by simp [x1], hx⟩) r (mem_replies.2 ⟨by simp, hl⟩))
        · exact ⟨x, mem_replies.2 ⟨x1, hx⟩, x2⟩
      by_cases hd : ∃ x ∈ D, seqOf x = seqOf r
      · rw [firsts_old _ _ _ hd, firsts_old _ _ _ (e.1 hd)]; exact ih
      · rw [firsts_new _ _ _ hd, firsts_new _ _ _ (fun hh => hd (e.2 hh))]; simp only [List.length_append, List.length_singleton]; omega

private theorem firsts_all (l : List TWDataRec) (h : l.Pairwise fun r r' => seqOf r ≠ seqOf r') : Spec.TwStats.firsts seqOf l = l := by
  induction l using List.reverseRecOn with
  | nil => rfl
  | append_singleton l r ih =>
    obtain ⟨h1, _, h2⟩ := List.pairwise_append.1 h
    rw [firsts_new, ih h1]
    rintro ⟨x, x1, x2⟩
    exact h2 x x1 r (by simp) x2

/-- **C75**, the counts. When the packets from `first` up to but without `last` of a two-way session are summarised, `sent` is the number of packets that have a record,
`lost` the number of those recorded as lost; the duplicates of the way out are the replies beyond the first to each packet, those of the way back
the records beyond the first of each reply. No packet is both lost and answered, and no reply is one to two packets. -/
theorem C75_counts_partial (c : TwStats.Cfg) (rs : List TWDataRec) (oset first last : Nat) (s : TwStats.St) (hr : TwRange c first last) (hlen : rs.length < 2 ^ 32)
    (hcl : ∀ r ∈ twAbout c first last rs, Clear c r) (h1 : LossOnce (twAbout c first last rs)) (hp : TwStats.parse c rs oset first last = .ok s) :
    ∀ D, D = twAbout c first last rs →
    s.sent = (Spec.TwStats.firsts seqOf D).length ∧
    s.lost = (losses D).length ∧
    s.dupsF + (answered D).length = (returned D).length ∧
    s.dupsB + (returned D).length = (replies D).length ∧
    (∀ r ∈ losses D, ∀ r' ∈ replies D, seqOf r ≠ seqOf r') ∧
    ∀ r ∈ replies D, ∀ r' ∈ replies D, replyOf r = replyOf r' → seqOf r = seqOf r' := by
  intro D hD
  have h := tw_says hr hlen hcl hp
  rw [← hD] at h h1
  have e := firsts_all _ h1
  refine ⟨?_, by rw [h.lost, e], h.dupsF, h.dupsB, h.excl, h.owner⟩
  rw [h.sent, firsts_split D h.excl, e]

/-- **C75**, the delays. The least and greatest of the round-trip time (without the time at the reflector), of the ways out and back and of the time at the
reflector are those of all replies, `inf` and `-inf` if there is none; and the report of unsynchronised clocks by a negative delay is right. -/
theorem C75_delays (c : TwStats.Cfg) (rs : List TWDataRec) (oset first last : Nat) (s : TwStats.St) (hr : TwRange c first last) (hlen : rs.length < 2 ^ 32)
    (hcl : ∀ r ∈ twAbout c first last rs, Clear c r) (hp : TwStats.parse c rs oset first last = .ok s) :
    ∀ R, R = replies (twAbout c first last rs) →
    (∃ a b d e, s.min = [a, b, d, e] ∧ LeastOf c.inf (R.map (trip c)) a ∧ LeastOf c.inf (R.map (out c)) b ∧ LeastOf c.inf (R.map (back c)) d ∧
      LeastOf c.inf (R.map (held c)) e) ∧
    (∃ a b d e, s.max = [a, b, d, e] ∧ GreatestOf (-c.inf) (R.map (trip c)) a ∧ GreatestOf (-c.inf) (R.map (out c)) b ∧
      GreatestOf (-c.inf) (R.map (back c)) d ∧ GreatestOf (-c.inf) (R.map (held c)) e) ∧
    (s.offset = true ↔ ∃ r ∈ R, out c r < 0 ∨ back c r < 0) := by
  intro R hR
  have h := tw_says hr hlen hcl hp
  have hb := h.fig.bounds
  have ho := h.fig.offset
  rw [← hR] at hb ho
  exact ⟨hb.min, hb.max, ho⟩

/-- **C75**, errors and TTLs. The errors of the three delays are the greatest of any record, and the TTLs reported for the two ways are those of the first
reply to each packet. -/
theorem C75_errors_ttls (c : TwStats.Cfg) (rs : List TWDataRec) (oset first last : Nat) (s : TwStats.St) (hr : TwRange c first last) (hlen : rs.length < 2 ^ 32)
    (hcl : ∀ r ∈ twAbout c first last rs, Clear c r) (hp : TwStats.parse c rs oset first last = .ok s) :
    ∀ D, D = twAbout c first last rs →
    (∃ a b d : Nat, s.maxerr = [a, b, d] ∧ GreatestOf 0 (D.map fun r => (errTrip r : Int)) a ∧ GreatestOf 0 (D.map fun r => (errOut r : Int)) b ∧
      GreatestOf 0 (D.map fun r => (errBack r : Int)) d) ∧
    (∀ k, s.ttlF.getD k 0 = (answered D).countP fun r => r.sent.ttl.toNat = k) ∧
    (∀ k, s.ttlB.getD k 0 = (answered D).countP fun r => r.reflected.ttl.toNat = k) ∧
    s.startTime = c.times first := by
  intro D hD
  have h := tw_says hr hlen hcl hp
  rw [← hD] at h
  exact ⟨h.fig.errs.max, h.fig.ttlF.count, h.fig.ttlB.count, h.startTime⟩

/-! ## Percentiles -/

/-- How many of the records `l` have a value of `f` of at most `b`. -/
def upToB (f : TWDataRec → Int) (l : List TWDataRec) (b : Int) : Nat := l.countP fun r => decide (f r ≤ b)

/-- `b` is the percentile: the smallest value of `f` on `l` such that at least `t` of the records have that value or a smaller one. -/
def IsPercentile (f : TWDataRec → Int) (l : List TWDataRec) (t : Rat) (b : Int) : Prop :=
  (∃ r ∈ l, f r = b) ∧ ¬ (upToB f l b : Rat) < t ∧ ∀ r ∈ l, f r < b → (upToB f l (f r) : Rat) < t

theorem hist_percentile {f : TWDataRec → Int} {l : List TWDataRec} {h : List (Int × Nat)} (hh : Hist f l h) (t : Rat) :
    (∀ b, Stats.percentileLoop t 0 (Stats.sorted h) = some b ↔ IsPercentile f l t b) ∧
    (Stats.percentileLoop t 0 (Stats.sorted h) = none ↔ l = [] ∨ (l.length : Rat) < t) := by
  have hl := Stats.percentileLoop_spec t (Stats.sorted h) 0 (Stats.sorted_strict h hh.tidy)
  have htot : ∀ b, Stats.total (fun k => decide (k ≤ b)) (Stats.sorted h) = upToB f l b := by
    intro b; rw [Stats.total_perm _ (Stats.sorted_perm h), hh.count]; rfl
  have hmem : ∀ b, (∃ x ∈ Stats.sorted h, x.1 = b) ↔ ∃ r ∈ l, f r = b := by
    intro b
    have e := Stats.total_pos (fun k => decide (k = b)) h hh.tidy
    rw [hh.count, List.countP_pos_iff] at e
    simp only [decide_eq_true_eq] at e
    rw [e]
    exact ⟨fun ⟨x, a, b⟩ => ⟨x, (Stats.sorted_perm h).mem_iff.1 a, b⟩, fun ⟨x, a, b⟩ => ⟨x, (Stats.sorted_perm h).mem_iff.2 a, b⟩⟩
  have hsome : ∀ b, Stats.percentileLoop t 0 (Stats.sorted h) = some b → IsPercentile f l t b := by
    intro b hb
    rw [hb] at hl
    dsimp only at hl
    obtain ⟨l1, l2, l3⟩ := hl
    rw [htot, Nat.zero_add] at l2
    refine ⟨(hmem b).1 l1, l2, fun r r1 r2 => ?_⟩
    obtain ⟨x, x1, x2⟩ := (hmem (f r)).2 ⟨r, r1, rfl⟩
    have := l3 x x1 (by rw [x2]; exact r2)
    rw [x2, htot, Nat.zero_add] at this
    exact this
  have hnone : Stats.percentileLoop t 0 (Stats.sorted h) = none → ∀ r ∈ l, (upToB f l (f r) : Rat) < t := by
    intro hb r r1
    rw [hb] at hl
    dsimp only at hl
    obtain ⟨x, x1, x2⟩ := (hmem (f r)).2 ⟨r, r1, rfl⟩
    have := hl x x1
    rw [x2, htot, Nat.zero_add] at this
    exact this
  constructor
  · intro b
    refine ⟨hsome b, fun ⟨⟨r, e1, e3⟩, e4, e5⟩ => ?_⟩
    cases hc : Stats.percentileLoop t 0 (Stats.sorted h) with
    | none => rw [← e3] at e4; exact (e4 (hnone hc r e1)).elim
    | some b' =>
      obtain ⟨⟨r', g1, g3⟩, g4, g5⟩ := hsome b' hc
      congr 1
      rcases Int.lt_trichotomy b b' with hl | hl | hl
      · rw [← e3] at e4; exact (e4 (g5 r e1 (by rw [e3]; exact hl))).elim
      · exact hl.symm
      · rw [← g3] at g4; exact (g4 (e5 r' g1 (by rw [g3]; exact hl))).elim
  · constructor
    · intro hc
      by_cases h0 : l = []
      · exact Or.inl h0
      · right
        obtain ⟨a, a1, a2⟩ := StatSession.argmax f l h0
        have := hnone hc a a1
        have e : upToB f l (f a) = l.length := by
          unfold upToB
          rw [List.countP_eq_length]
          intro r hr; exact decide_eq_true (a2 r hr)
        rw [e] at this
        exact this
    · intro h0
      cases hc : Stats.percentileLoop t 0 (Stats.sorted h) with
      | none => rfl
      | some b =>
        obtain ⟨⟨r, g1, g3⟩, g4, _⟩ := hsome b hc
        rcases h0 with h0 | h0
        · rw [h0] at g1; cases g1
        · exfalso
          apply g4
          have hle : (upToB f l b : Rat) ≤ (l.length : Rat) := Rat.natCast_le_natCast.2 List.countP_le_length
          exact Rat.not_le.1 fun hh => Rat.not_le.2 h0 (Rat.le_trans hh hle)

/-- **C75**, the percentiles. (A target above 0: the code has one table with three counters for each bucket, so for smaller targets it would stop at a bucket of another delay.) The percentile `alpha` of a delay (the median for `alpha` = 0.5) is the smallest bucket such that at least `alpha * sent` packets were answered, for the first time, with
a delay in it or below; none is reported exactly if no packet was answered, or fewer than `alpha * sent`, so that lost packets count as infinitely late. -/
theorem C75_percentile_partial (c : TwStats.Cfg) (rs : List TWDataRec) (oset first last : Nat) (s : TwStats.St) (hr : TwRange c first last) (hlen : rs.length < 2 ^ 32)
    (hcl : ∀ r ∈ twAbout c first last rs, Clear c r) (h1 : LossOnce (twAbout c first last rs)) (hp : TwStats.parse c rs oset first last = .ok s)
    (mul : Rat → Nat → Rat) (alpha : Rat) :
    ∀ D t, D = twAbout c first last rs → t = mul alpha (Spec.TwStats.firsts seqOf D).length → 0 < t →
    (∀ f h, (f, h) ∈ [(trip c, s.hist), (out c, s.histF), (back c, s.histB)] →
      (∀ b, TwStats.percentile mul s h alpha = some b ↔ IsPercentile (fun r => c.bucket (f r)) (answered D) t b) ∧
      (TwStats.percentile mul s h alpha = none ↔ answered D = [] ∨ ((answered D).length : Rat) < t)) := by
  intro D t hD ht _ f h hf
  have hc := (C75_counts_partial c rs oset first last s hr hlen hcl h1 hp D hD).1
  have hs := tw_says hr hlen hcl hp
  rw [← hD] at hs
  unfold TwStats.percentile
  rw [hc, ← ht]
  simp only [List.mem_cons, Prod.mk.injEq, List.not_mem_nil, or_false] at hf
  rcases hf with ⟨rfl, rfl⟩ | ⟨rfl, rfl⟩ | ⟨rfl, rfl⟩
  · exact hist_percentile hs.fig.hist t
  · exact hist_percentile hs.fig.histF t
  · exact hist_percentile hs.fig.histB t

/-! ## C76 -/

private theorem pairwise_at {R : TWDataRec → TWDataRec → Prop} {l q : List TWDataRec} {r : TWDataRec} {t : List TWDataRec} (h : l.Pairwise R) (e : l = q ++ r :: t) :
    ∀ x ∈ q, R x r := by
  rw [e] at h
  intro x hx
  exact (List.pairwise_append.1 h).2.2 x hx r (by simp)

/-- **C76.** A two-way session whose replies come back in step can be summarised, for every range of packets below which the reflector numbered no
reply. -/
theorem C76_in_step_partial (c : TwStats.Cfg) (rs : List TWDataRec) (oset first last : Nat) (hr : TwRange c first last) (hlen : rs.length < 2 ^ 32)
    (hcl : ∀ r ∈ twAbout c first last rs, Clear c r) (hs : InStep c.timeout.toNat c.times (twAbout c first last rs))
    (hf : ∀ r ∈ replies (twAbout c first last rs), first ≤ replyOf r) : ∃ s, TwStats.parse c rs oset first last = .ok s := by
  rcases parse_spec c rs oset first last hr.1 hr.2 hlen hcl with ⟨_, q, r, t, hq, hin, hc⟩ | ⟨s, h, _⟩
  · exfalso
    have hD : twAbout c first last rs = within first (lastOf c last) q ++ r :: within first (lastOf c last) t := by
      unfold twAbout
      rw [hq]
      unfold within
      rw [List.filter_append, List.filter_cons, if_pos (by simpa using hin)]
    have hrD : r ∈ twAbout c first last rs := by rw [hD]; simp
    have hqD : ∀ x ∈ within first (lastOf c last) q, x ∈ twAbout c first last rs := fun x hx => by rw [hD]; exact List.mem_append_left _ hx
    have hR : ¬ Lost r → replies (twAbout c first last rs) = replies (within first (lastOf c last) q) ++ r :: replies (within first (lastOf c last) t) := by
      intro hl
      rw [hD]
      unfold replies
      rw [List.filter_append, List.filter_cons, if_pos (by simpa using hl)]
    have hp : ∀ x, ¬ Lost x → ∀ k, Passed c x k → ¬ InTime c.timeout.toNat (c.times k) x := by
      intro x hx k hk ht
      rcases hk with ⟨h, _⟩ | ⟨_, h⟩
      · exact hx h
      · unfold InTime at ht
        unfold Num64.sub Num64.u64 at h
        omega
    rcases hc with ⟨x, x1, x2⟩ | ⟨x, x1, x2, x3⟩ | ⟨h1, h2⟩ | ⟨h1, x, x1, x2, x3⟩ | ⟨h1, x, x1, x2, x3⟩
    · by_cases hl : Lost x
      · rcases x2 with ⟨_, h⟩ | ⟨h, _⟩
        · rcases List.mem_append.1 x1 with x1 | x1
          · have := pairwise_at hs.passed hD x x1 hl; omega
          · rw [List.mem_singleton.1 x1] at h; omega
        · exact h hl
      · refine hp x hl _ x2 ?_
        rcases List.mem_append.1 x1 with x1 | x1
        · exact pairwise_at hs.later hD x x1 hl
        · rw [List.mem_singleton.1 x1] at hl ⊢; exact hs.self r hrD hl
    · by_cases hl : Lost r
      · exact hs.verdict r hrD x (hqD x x1) hl (fun h => x3.1 h hl) x2.symm
      · exact hs.verdict x (hqD x x1) r hrD (x3.2 hl) hl x2
    · have := hf r (mem_replies.2 ⟨hrD, h1⟩); omega
    · have := pairwise_at hs.crossing (hR h1) x x1 x2; omega
    · exact x3 (hs.owner x (by rw [hR h1]; simp [x1]) r (by rw [hR h1]; simp) x2)
  · exact ⟨s, h⟩

/-- **C76**, what can be the matter. If the summary is refused, then at some record `r` of the range, after the records `q`: its packet had been passed by an earlier record or by `r` itself,
or has the other verdict, or the reply's number is below the range, or an earlier reply to a smaller or the same packet has a larger number, or an earlier reply with the same number is
to another packet. It is never refused for another reason, and the internal checks never fail. -/
theorem C76_refused (c : TwStats.Cfg) (rs : List TWDataRec) (oset first last : Nat) (hr : TwRange c first last) (hlen : rs.length < 2 ^ 32)
    (hcl : ∀ r ∈ twAbout c first last rs, Clear c r) (x : Stats.Bad) (h : TwStats.parse c rs oset first last = .error x) :
    x = .refused ∧ ∃ q r t D, rs = q ++ r :: t ∧ D = twAbout c first last q ∧ r ∈ twAbout c first last rs ∧
      ((∃ r' ∈ D ++ [r], (Lost r' ∧ seqOf r < seqOf r') ∨ (¬ Lost r' ∧ ¬ InTime c.timeout.toNat (c.times (seqOf r)) r')) ∨
       (∃ r' ∈ D, seqOf r' = seqOf r ∧ (Lost r' ↔ ¬ Lost r)) ∨
       (¬ Lost r ∧ (replyOf r < first ∨ (∃ r' ∈ replies D, replyOf r < replyOf r' ∧ seqOf r' ≤ seqOf r) ∨
        ∃ r' ∈ replies D, replyOf r' = replyOf r ∧ seqOf r' ≠ seqOf r))) := by
  rcases parse_spec c rs oset first last hr.1 hr.2 hlen hcl with ⟨e, q, r, t, hq, hin, hc⟩ | ⟨s, e, _⟩
  · rw [h] at e
    cases e
    refine ⟨rfl, q, r, t, _, hq, rfl, ?_, ?_⟩
    · unfold twAbout within; rw [hq]; simp [hin]
    · rcases hc with ⟨x, x1, x2⟩ | hc | ⟨h1, h2⟩ | ⟨h1, h2⟩ | ⟨h1, h2⟩
      · refine Or.inl ⟨x, x1, x2.imp id fun ⟨a, b⟩ => ⟨a, fun ht => ?_⟩⟩
        unfold InTime at ht
        unfold Num64.sub Num64.u64 at b
        omega
      · exact Or.inr (Or.inl hc)
      · exact Or.inr (Or.inr ⟨h1, Or.inl h2⟩)
      · exact Or.inr (Or.inr ⟨h1, Or.inr (Or.inl h2)⟩)
      · exact Or.inr (Or.inr ⟨h1, Or.inr (Or.inr h2)⟩)
  · rw [h] at e; cases e

/-! ## Concrete sessions -/

/-- Packets due at the seconds 101, 102, …, as in `demoTwCfg`; loss timeout two seconds; delays are exact. -/
def twDemo : TwStats.Cfg :=
  { times := fun k => 0x83AA7EE400000000 + (k + 1) * 2 ^ 32, timeout := 0x200000000, npackets := 5, skips := [], recSize := 50, osetData := 120
    delay := fun a b => (b.owptime.toNat : Int) - a.owptime.toNat, bucket := fun x => x / 2 ^ 28, inf := 10 ^ 30 }

/-- A time stamp in sixteenths of a second after the start of `twDemo`. -/
def twTime (t : Nat) (sync : Bool) : Time.TimeStamp := ⟨BitVec.ofNat 64 (0x83AA7EE400000000 + t * 2 ^ 28), sync, 1, 1⟩

/-- The reply numbered `k` to packet `q`, with the times of sending, of arrival and departure at the reflector and of return. -/
def twGot (q k a b d e : Nat) (sync : Bool := true) : TWDataRec :=
  ⟨⟨BitVec.ofNat 32 q, twTime a sync, twTime b sync, 60⟩, ⟨BitVec.ofNat 32 k, twTime d sync, twTime e sync, 61⟩⟩
/-- Packet `q`, sent at `a`, is given up. -/
def twLost (q a : Nat) : TWDataRec := ⟨⟨BitVec.ofNat 32 q, twTime a true, ⟨0, true, 1, 1⟩, 255⟩, ⟨0, ⟨0, true, 1, 1⟩, ⟨0, true, 1, 1⟩, 255⟩⟩

/-- The network gives back the reply to packet 0 twice; packet 1 reaches the reflector twice; the reply to packet 3 overtakes that to packet 2; packet 4 is given up. -/
def twRecords : List TWDataRec :=
  [twGot 0 0 16 18 19 22, twGot 0 0 16 18 19 24, twGot 1 1 32 35 36 39, twGot 1 2 32 37 38 41, twGot 3 4 64 66 67 68, twGot 2 3 48 52 53 70, twLost 4 80]

theorem twDemo_range : TwRange twDemo 0 (2 ^ 32 - 1) := by unfold TwRange; decide +kernel
theorem twDemo_clear (rs : List TWDataRec) : ∀ r ∈ rs, Clear twDemo r := by
  intro r _
  refine ⟨fun ⟨k, hk, _⟩ => ?_, fun _ ⟨k, hk, _⟩ => ?_⟩ <;> simp [twDemo] at hk

/-- Figures of a summary. -/
structure TwFigures where
  sent : Nat
  lost : Nat
  dupsF : Nat
  dupsB : Nat
  min : List Int
  max : List Int
  offset : Bool
  startTime : Nat
deriving DecidableEq

def twFigures (c : TwStats.Cfg) (rs : List TWDataRec) (first last : Nat) : Option TwFigures :=
  match TwStats.parse c rs 0 first last with
  | .error _ => none
  | .ok s => some ⟨s.sent, s.lost, s.dupsF, s.dupsB, s.min, s.max, s.offset, s.startTime⟩

/-- Non-vacuity for C75: the example, with its figures. -/
theorem C75_example :
    twFigures twDemo twRecords 0 (2 ^ 32 - 1) =
      some ⟨5, 1, 1, 1, [3 * 2 ^ 28, 2 * 2 ^ 28, 2 ^ 28, 2 ^ 28], [21 * 2 ^ 28, 5 * 2 ^ 28, 17 * 2 ^ 28, 2 ^ 28], false, 0x83AA7EE500000000⟩ := by decide +kernel

/-- … which meets the hypotheses of the theorems. -/
example : TwRange twDemo 0 (2 ^ 32 - 1) ∧ (∀ r ∈ twAbout twDemo 0 (2 ^ 32 - 1) twRecords, Clear twDemo r) ∧ LossOnce (twAbout twDemo 0 (2 ^ 32 - 1) twRecords) ∧
    ∃ s, TwStats.parse twDemo twRecords 0 0 (2 ^ 32 - 1) = .ok s ∧
      TwStats.percentile (fun a n => a * n) s s.hist (1 / 2) = some 6 ∧ TwStats.percentile (fun a n => a * n) s s.hist (9 / 10) = none := by
  refine ⟨twDemo_range, twDemo_clear _, by unfold LossOnce; decide +kernel, ?_⟩
  have hex : ∃ s, TwStats.parse twDemo twRecords 0 0 (2 ^ 32 - 1) = .ok s := by
    cases h : TwStats.parse twDemo twRecords 0 0 (2 ^ 32 - 1) with
    | ok s => exact ⟨s, rfl⟩
    | error x => have := C75_example; unfold twFigures at this; rw [h] at this; cases this
  obtain ⟨s, hs⟩ := hex
  have hp := fun alpha h => C75_percentile_partial twDemo twRecords 0 0 (2 ^ 32 - 1) s twDemo_range (by decide) (twDemo_clear _)
    (by unfold LossOnce; decide +kernel) hs (fun a n => a * n) alpha _ _ rfl rfl h (trip twDemo) s.hist (by simp)
  refine ⟨s, hs, ((hp (1 / 2) (by decide +kernel)).1 6).2 ⟨?_, by decide +kernel, ?_⟩, (hp (9 / 10) (by decide +kernel)).2.2 (Or.inr (by decide +kernel))⟩
  · exact ⟨twGot 1 1 32 35 36 39, by decide +kernel, by decide +kernel⟩
  · intro r hr hb
    have : (answered (twAbout twDemo 0 (2 ^ 32 - 1) twRecords)).all (fun r => !decide (twDemo.bucket (trip twDemo r) < 6) ||
      decide ((upToB (fun r => twDemo.bucket (trip twDemo r)) (answered (twAbout twDemo 0 (2 ^ 32 - 1) twRecords)) (twDemo.bucket (trip twDemo r)) : Rat) <
        1 / 2 * ((Spec.TwStats.firsts seqOf (twAbout twDemo 0 (2 ^ 32 - 1) twRecords)).length : Nat))) = true := by decide +kernel
    have := List.all_eq_true.1 this r hr
    rw [decide_eq_true hb] at this
    exact of_decide_eq_true this

/-- Non-vacuity for C76: the example is in step. -/
example : InStep twDemo.timeout.toNat twDemo.times (twAbout twDemo 0 (2 ^ 32 - 1) twRecords) ∧
    ∀ r ∈ replies (twAbout twDemo 0 (2 ^ 32 - 1) twRecords), 0 ≤ replyOf r := by
  have e : twAbout twDemo 0 (2 ^ 32 - 1) twRecords = twRecords := by decide +kernel
  rw [e]
  refine ⟨⟨?_, ?_, ?_, ?_, ?_, ?_⟩, fun _ _ => Nat.zero_le _⟩
  · unfold InTime; decide +kernel
  · unfold InTime; decide +kernel
  all_goals decide +kernel

/-! ## Where C75 and C76 fail -/

/-- Of a summary: the packets sent, the end of the period, and whether the clocks are reported as synchronised. -/
def twSeen (c : TwStats.Cfg) (rs : List TWDataRec) (first last : Nat) : Except Stats.Bad (Nat × Nat × Bool) :=
  match TwStats.parse c rs 0 first last with
  | .error x => .error x
  | .ok s => .ok (s.sent, s.endTime, s.sync)

/-- Whether a summary is refused. -/
def twRefused (c : TwStats.Cfg) (rs : List TWDataRec) (first last : Nat) : Bool :=
  match TwStats.parse c rs 0 first last with
  | .error .refused => true
  | _ => false

/-- **C75** fails: if none of the clocks that stamped the replies was synchronised, the summary still says that they were: only records of lost packets are looked at. -/
theorem C75_synchronised :
    (twSeen { twDemo with npackets := 1 } [twGot 0 0 16 18 19 22 false] 0 (2 ^ 32 - 1)).toOption.any (fun x => x.2.2) = true ∧
    (twGot 0 0 16 18 19 22 false).sent.send.sync = false ∧ (twGot 0 0 16 18 19 22 false).sent.recv.sync = false ∧
    (twGot 0 0 16 18 19 22 false).reflected.send.sync = false ∧ (twGot 0 0 16 18 19 22 false).reflected.recv.sync = false := by decide +kernel

/-- **C75** fails: the end of the period is not the time of the last packet. Packet 0 is answered twice, and is what the summary of both packets gives as the end. -/
theorem C75_end_time :
    (twSeen { twDemo with npackets := 2 } [twGot 0 0 16 18 19 22, twGot 0 1 16 20 21 24, twLost 1 32] 0 (2 ^ 32 - 1)).toOption.map (fun x => x.2.1) =
      some (twDemo.times 0) ∧ twDemo.times 0 < twDemo.times 1 := by decide +kernel

/-- **C75** fails: a packet with two records of its loss counts as two packets sent. -/
theorem C75_lost_twice :
    (twSeen { twDemo with npackets := 1 } [twLost 0 16, twLost 0 16] 0 (2 ^ 32 - 1)).toOption.map (fun x => x.1) = some 2 := by decide +kernel

/-- A reply of the reflector, in open mode, with its number, to packet `k` which was sent `t` sixteenths of a second after the start. -/
def twAnswer (n k : Byte) (t : Nat) : Bytes :=
  [0, 0, 0, n] ++ beEnc 8 (0x83AA7EE410000000 + t * 2 ^ 28) ++ [0x80, 1] ++ [0, 0] ++ beEnc 8 (0x83AA7EE408000000 + t * 2 ^ 28) ++
  [0, 0, 0, k] ++ beEnc 8 (0x83AA7EE400000000 + t * 2 ^ 28) ++ [0x80, 1] ++ [0, 0] ++ [63]

/-- The records that the sender of a two-way test writes, if it marks them as complete. -/
def twWritten (ts : List TwoWay.Tick) (e : TwoWay.End) : List TWDataRec :=
  match demoTwRun demoTwCfg with
  | none => []
  | some x => if (x.final ts e).phase = .normal then (x.final ts e).entries.map (·.data) else []

/-- **C76** fails. Packets 0 and 1 overtake each other on the way out, and so do their replies on the way back; the sender records both replies, and packet 2 as given up, in results
marked as those of a normal test. They cannot be summarised. -/
theorem C76_crossed :
    ∀ rs, rs = twWritten [demoTwAt 1000, demoTwAt 1011, demoTwAt 1015, demoTwAt 1021, demoTwGot (twAnswer 1 0 18) 1022, demoTwGot (twAnswer 0 1 34) 1024, demoTwAt 1029,
        demoTwAt 1031, demoTwAt 1056] (demoTwEnd 1056) →
      rs.map (fun r => (seqOf r, replyOf r, decide (Lost r))) = [(0, 1, false), (1, 0, false), (2, 0, true)] ∧
      twRefused { twDemo with npackets := 3 } rs 0 (2 ^ 32 - 1) = true := by
  rintro rs rfl; decide +kernel

/-- **C76** fails. Packets 0 and 1 go out one and a half seconds late, within the timeout; the reply to packet 1 comes back first. Packet 0 is then taken for one whose time is over, as that is
counted from the schedule, and its reply, which the sender recorded in time, makes the summary impossible. -/
theorem C76_late :
    ∀ rs, rs = twWritten [demoTwAt 1000, demoTwAt 1025, demoTwAt 1026, demoTwAt 1035, demoTwAt 1036, demoTwAt 1036, demoTwGot (twAnswer 1 1 56) 1037,
        demoTwGot (twAnswer 0 0 40) 1040, demoTwAt 1070] (demoTwEnd 1070) →
      rs.map (fun r => (seqOf r, replyOf r, decide (Lost r))) = [(1, 1, false), (0, 0, false), (2, 0, true)] ∧
      twRefused { twDemo with npackets := 3 } rs 0 (2 ^ 32 - 1) = true := by
  rintro rs rfl; decide +kernel

/-- **C76** fails: the packets from the second on cannot be summarised on their own if a packet before them was lost on its way out, as the reflector then numbers the replies from below. -/
theorem C76_renumbered :
    twRefused twDemo [twLost 0 16, twGot 1 0 32 35 36 39, twGot 2 1 48 50 51 54, twGot 3 2 64 67 68 71, twGot 4 3 80 83 84 87] 1 5 = true ∧
    twRefused twDemo [twLost 0 16, twGot 1 0 32 35 36 39, twGot 2 1 48 50 51 54, twGot 3 2 64 67 68 71, twGot 4 3 80 83 84 87] 0 5 = false := by decide +kernel

end Owamp.Props
