import Verif.Lemmas.ReceiverStored
import Verif.Props.Stats
import Verif.Props.DataFile
/-!
# C50, C53: summaries of what a receiver recorded
-/
namespace Owamp.Props
open Owamp.Num64 Owamp.Time Owamp.Codec Owamp.Stats Owamp.Spec.Stats Owamp.Spec.Receiver Owamp.Recv StatSession

/-- The receiver and the summary are of the same session. -/
structure SameSession (x : StatSession) (y : RecvRun) : Prop where
  cipher : x.c.E = y.c.E
  start : x.c.start = y.c.start
  timeout : x.c.timeout = y.c.timeout
  packets : x.c.npackets = y.c.npackets
  sid : x.sid = y.sid
  slots : x.slots = y.slots

/-- The records in the file of a receiver after the arrivals `as`, as they are read back. -/
def RecvRun.records (y : RecvRun) (as : List Arrival) : List DataRec := (y.after as).entries.map fun e => stored e.data

theorem stored_lost (e : Entry) : Lost (stored e.data) ↔ Spec.Receiver.isLost e = true := by
  unfold Lost Spec.Receiver.isLost
  rw [decide_eq_true_eq]
  exact Iff.rfl

theorem losses_records (es : List Entry) (k : Nat) : losses (es.map fun e => stored e.data) k = (lostFor k es).length := by
  unfold losses lostFor
  rw [List.countP_map, List.countP_eq_length_filter]
  congr 1
  apply List.filter_congr
  intro e _
  simp only [Function.comp]
  rw [Bool.eq_iff_iff, decide_eq_true_eq, Bool.and_eq_true, decide_eq_true_eq, stored_lost, and_comm]
  exact Iff.rfl

/-- No receiver records a packet as lost twice. -/
theorem C50_receiver_lostOnce (y : RecvRun) (as : List Arrival) (h : y.Ok as) : LostOnce (y.records as) := by
  obtain ⟨h1, h2, _⟩ := C24_one_verdict y as h
  intro k
  unfold RecvRun.records
  rw [losses_records]
  by_cases hk : k < passed y.c (y.after as)
  · rcases h1 k hk with ⟨e, _⟩ | ⟨e, _⟩
    · omega
    · rw [e]; simp
  · rw [h2 k (by omega)]; simp

/-- The records of a receiver are orderly. The assumptions: the session and all clock readings lie between 1970 and the wrap of the 64 bit time stamps in 2036; the
timeout is no longer than 70 years; a stop signal that comes during a flush is still seen after it. -/
theorem C53_receiver_orderly (y : RecvRun) (as : List Arrival) (h : y.Ok as) (hst : ∀ a ∈ as, Steady a) (ds : List Nat) (hd : y.Delays ds)
    (hera : Era y.c ds) (hclk : ∀ a ∈ as, ∀ r, a.clock = some r → InEra r) :
    Spec.Stats.Orderly y.c.timeout.toNat (schedTime y.c.start.toNat ds) (y.records as) := by
  obtain ⟨ds', h1, h2, h3⟩ := C06_schedule y.c.E y.sid _ y.c0 h.sched
  have e : ds = ds' := List.ext_getElem (by rw [hd.2, h2]) fun n n1 n2 => C06_spec_unique y.c.E y.sid y.slots 0 0 ds ds' hd.1 h3 n n1 n2
  subst e
  obtain ⟨b0, i1, _⟩ := init_spec y.c y.sid y.slots y.c0 h.sched y.ops ds h1 h2 False (fun _ => True) (fun _ => True) y.clock y.usr2
    (fun hq => hq.elim) (fun r hr => ⟨trivial, h.first r hr⟩) y.stamp
  have o1 := init_ord y.c y.sid y.slots y.c0 h.sched y.ops ds h1 h2 y.clock y.usr2 y.stamp b0 i1.1.1
  obtain ⟨b, _, o⟩ := run_ord y.c ds h2 (era_rising hera) as b0 _ (fun a ha => ⟨hst a ha, h.later a ha⟩) i1 o1
  change Ord y.c ds b (y.after as).entries at o
  obtain ⟨ds2, hd2, hg⟩ := C26_only_genuine_partial y as h
  have hin : ∀ e ∈ (y.after as).entries, Spec.Receiver.isLost e = false → ∀ k, ¬ Expired y.c ds k e.now →
      InTime y.c.timeout.toNat (schedTime y.c.start.toNat ds k) (stored e.data) := by
    intro e he hl k hE
    obtain ⟨a, ha, bytes, ttl, i, r, P, t, d, _, g2, _, _, g5, _, _, g8, _⟩ := hg e he hl
    have := hclk a ha r g2
    rw [g5] at hE
    exact inTime_of y.c ds hera k r.time this.1 this.2 hE _ g8
  have nl : ∀ e : Entry, ¬ Lost (stored e.data) → Spec.Receiver.isLost e = false := by
    intro e hl
    rw [stored_lost] at hl
    simpa using hl
  obtain ⟨v1, v2, _⟩ := C24_one_verdict y as h
  unfold RecvRun.records
  refine ⟨?_, ?_, ?_, ?_⟩
  · intro r hr hl
    obtain ⟨e, he, rfl⟩ := List.mem_map.1 hr
    exact hin e he (nl e hl) _ (o.self e he (nl e hl))
  · rw [List.pairwise_map]
    refine List.Pairwise.imp_of_mem ?_ o.later
    intro e e' he _ hp hl
    exact hin e he (nl e hl) _ (hp (nl e hl))
  · rw [List.pairwise_map]
    refine List.Pairwise.imp ?_ o.passed
    intro e e' hp hl
    exact hp ((stored_lost e).1 hl)
  · rw [List.pairwise_map]
    refine List.pairwise_of_forall_mem_list ?_
    intro e he e' he' hl hl' hs
    have hs' : e.data.seq = e'.data.seq := hs
    have m1 : e ∈ gotFor e.data.seq.toNat (y.after as).entries := by
      unfold gotFor; rw [List.mem_filter]; exact ⟨he, by rw [nl e hl]; simp⟩
    have m2 : e' ∈ lostFor e.data.seq.toNat (y.after as).entries := by
      unfold lostFor; rw [List.mem_filter]; exact ⟨he', by rw [(stored_lost e').1 hl', hs']; simp⟩
    by_cases hk : e.data.seq.toNat < passed y.c (y.after as)
    · rcases v1 _ hk with ⟨_, g⟩ | ⟨g, _⟩
      · rw [g] at m1; cases m1
      · rw [g] at m2; cases m2
    · rw [v2 _ (by omega)] at m2; cases m2

theorem SameSession.delays {x : StatSession} {y : RecvRun} (h : SameSession x y) (ds : List Nat) (hd : y.Delays ds) : x.Delays ds := by
  unfold StatSession.Delays
  rw [h.cipher, h.sid, h.slots, h.packets]
  exact hd

theorem SameSession.orderly {x : StatSession} {y : RecvRun} (h : SameSession x y) (ds : List Nat) (rs : List DataRec)
    (ho : Spec.Stats.Orderly y.c.timeout.toNat (schedTime y.c.start.toNat ds) rs) : x.Orderly ds rs := by
  unfold StatSession.Orderly
  rw [h.timeout, h.start]
  exact ho

/-- What is assumed of a run of the receiver in `C53_receiver_partial`: it has the session's schedule `ds`; the session and all clock readings lie between 1970 and the
wrap of the 64 bit time stamps in 2036, and the timeout is no longer than 70 years; a stop signal that comes during a flush is still seen after it. -/
structure RecvRun.Usual (y : RecvRun) (as : List Arrival) (ds : List Nat) : Prop where
  ok : y.Ok as
  steady : ∀ a ∈ as, Steady a
  delays : y.Delays ds
  era : Era y.c ds
  clock : ∀ a ∈ as, ∀ r, a.clock = some r → InEra r

/-- **C53** for records of a receiver (partial: see `RecvRun.Usual`; an object that was used must not be asked again for a range that starts with packet 0). At every moment
of a run of the receiver, whatever came and whenever, every range of the records so far can be summarised; and by `C50_counts` the counts are the true ones. -/
theorem C53_receiver_partial (x : StatSession) (y : RecvRun) (hxy : SameSession x y) (as : List Arrival) (ds : List Nat) (hy : y.Usual as ds)
    (hrs : (y.records as).length < 2 ^ 32) (s : Stats.St) (hs : Object x s) (oset first last : Nat) (hr : x.Range first last)
    (hz : s = Stats.create x.c x.c0 ∨ 0 < first) (C : List DataRec) (hC : C = x.about first last (y.records as)) :
    ∃ s', x.summary (y.records as) s oset first last = .ok s' ∧ s'.sent = sent (lastOf x.c last) C ∧ s'.lost = lost (lastOf x.c last) C ∧
      s'.dups = duplicates (lastOf x.c last) C := by
  have ho := hxy.orderly ds _ (C53_receiver_orderly y as hy.ok hy.steady ds hy.delays hy.era hy.clock)
  obtain ⟨s', h⟩ := C53_orderly_partial x s hs ds (hxy.delays ds hy.delays) _ hrs ho oset first last hr hz
  obtain ⟨c1, c2, c3, _⟩ := C50_counts x s s' hs _ hrs oset first last hr (C50_receiver_lostOnce y as hy.ok) h
  rw [hC]
  exact ⟨s', h, c1, c2, c3⟩

/-- **C50** for complete sessions. If the receiver ended its test without being stopped, then `sent` is the number of all packets of the range that the sender did
not skip, and `lost` the number of those for which the receiver has a lost record. -/
theorem C50_complete (x : StatSession) (y : RecvRun) (hxy : SameSession x y) (as : List Arrival) (hy : y.Ok as) (hun : ∀ a ∈ as, unstopped a)
    (hov : (y.after as).status = .over) (hrs : (y.records as).length < 2 ^ 32) (s s' : Stats.St) (hs : Object x s) (oset first last : Nat) (hr : x.Range first last)
    (hp : x.summary (y.records as) s oset first last = .ok s') :
    s'.sent = packets (lastOf x.c last) (fun k => decide (first ≤ k ∧ ¬ Skipped x.c.skips k)) ∧
    s'.lost = packets (lastOf x.c last) (fun k => decide (first ≤ k ∧ ¬ Skipped x.c.skips k ∧ lostFor k (y.after as).entries ≠ [])) := by
  obtain ⟨c1, c2, _⟩ := C50_counts x s s' hs _ hrs oset first last hr (C50_receiver_lostOnce y as hy) hp
  have hv := C24_complete y as hy hun hov
  have hmem : ∀ r k, k < lastOf x.c last → r.seq.toNat = k → (r ∈ x.about first last (y.records as) ↔ r ∈ y.records as ∧ first ≤ k ∧ ¬ Skipped x.c.skips k) := by
    intro r k hk hs
    unfold StatSession.about counted
    rw [List.mem_filter, decide_eq_true_eq, hs]
    unfold Within
    rw [hs]
    exact ⟨fun h => ⟨h.1, h.2.1.1, h.2.2⟩, fun h => ⟨h.1, ⟨h.2.1, hk⟩, h.2.2⟩⟩
  constructor
  · rw [c1]
    unfold sent packets
    apply List.countP_congr
    intro k hk
    rw [List.mem_range] at hk
    rw [decide_eq_true_eq, decide_eq_true_eq]
    constructor
    · rintro ⟨r, h1, h2⟩
      exact ((hmem r k hk h2).1 h1).2
    · intro h
      have hkn : k < y.c.npackets.toNat := by have := hr.2; rw [hxy.packets] at this; omega
      have : ∃ e ∈ (y.after as).entries, e.data.seq.toNat = k := by
        rcases hv k hkn with ⟨g, _⟩ | ⟨_, g⟩
        · obtain ⟨e, he⟩ := List.exists_mem_of_length_pos (l := lostFor k (y.after as).entries) (by omega)
          unfold lostFor at he
          rw [List.mem_filter, Bool.and_eq_true, decide_eq_true_eq] at he
          exact ⟨e, he.1, he.2.1⟩
        · obtain ⟨e, he⟩ := List.exists_mem_of_ne_nil _ g
          unfold gotFor at he
          rw [List.mem_filter, Bool.and_eq_true, decide_eq_true_eq] at he
          exact ⟨e, he.1, he.2.1⟩
      obtain ⟨e, h1, h2⟩ := this
      exact ⟨stored e.data, (hmem (stored e.data) k hk h2).2 ⟨List.mem_map.2 ⟨e, h1, rfl⟩, h⟩, h2⟩
  · rw [c2]
    unfold lost packets
    apply List.countP_congr
    intro k hk
    rw [List.mem_range] at hk
    rw [decide_eq_true_eq, decide_eq_true_eq]
    have hpos : ∀ rs : List DataRec, losses rs k ≠ 0 ↔ ∃ r ∈ rs, Lost r ∧ r.seq.toNat = k := by
      intro rs
      unfold losses
      rw [Nat.ne_zero_iff_zero_lt, List.countP_pos_iff]
      simp only [decide_eq_true_eq]
    rw [hpos]
    have hlf : lostFor k (y.after as).entries ≠ [] ↔ ∃ r ∈ y.records as, Lost r ∧ r.seq.toNat = k := by
      rw [← hpos]
      unfold RecvRun.records
      rw [losses_records]
      simp [List.length_eq_zero_iff]
    rw [hlf]
    constructor
    · rintro ⟨r, h1, h2, h3⟩
      obtain ⟨g1, g2, g3⟩ := (hmem r k hk h3).1 h1
      exact ⟨g2, g3, r, g1, h2, h3⟩
    · rintro ⟨g2, g3, r, g1, h2, h3⟩
      exact ⟨r, (hmem r k hk h3).2 ⟨g1, g2, g3⟩, h2, h3⟩

/-! The run of `C24_example`: packet 1 comes first and twice, packet 0 is lost, packet 2 comes. -/

def sumRecv : RecvRun where
  c := demoRecvCfg
  sid := []
  slots := demoSlots
  c0 := Sched.setup [] ⟨3, demoSlots⟩
  ops := []
  clock := some ⟨⟨100, 0⟩, 1, true⟩
  usr2 := fun _ => false
  stamp := ⟨0, false, 0, 0⟩

def sumArrivals : List Arrival :=
  [demoRecvGot (demoRecvPkt 1 0xE6 1) 102, demoRecvFrom [10, 0, 0, 2] (demoRecvPkt 0 0xE6 1) 102, demoRecvGot (demoRecvPkt 1 0xE6 1) 103,
   demoRecvIdle 104, demoRecvGot (demoRecvPkt 2 0xE7 1) 104, demoRecvIdle 106]

def sumStat : StatSession where
  c := { statCfg with E := demoRecvCfg.E, start := demoRecvCfg.start, timeout := demoRecvCfg.timeout, npackets := 3, skips := [], osetData := 200 }
  sid := []
  slots := demoSlots
  c0 := Sched.setup [] ⟨3, demoSlots⟩
  sched := by decide +kernel
  rlist := by decide
  data := by decide

theorem sum_same : SameSession sumStat sumRecv := ⟨rfl, rfl, rfl, rfl, rfl, rfl⟩

def sumDelays : List Nat := (Sched.deltas sumRecv.c.E 3 sumRecv.c0).map fun d => match d with
  | .ok d => d
  | .error _ => 0

theorem sum_usual : sumRecv.Usual sumArrivals sumDelays := by
  have hok : sumRecv.Ok sumArrivals := by
    refine ⟨by decide +kernel, ?_, ?_⟩
    · intro r hr; cases hr; unfold GoodClock; decide +kernel
    · intro a ha r hr
      simp only [sumArrivals, List.mem_cons, List.not_mem_nil, or_false] at ha
      rcases ha with rfl | rfl | rfl | rfl | rfl | rfl <;> (cases hr; unfold GoodClock; decide +kernel)
  refine ⟨hok, ?_, ?_, ⟨by decide +kernel, by decide +kernel, by decide +kernel⟩, ?_⟩
  · intro a ha ⟨j, hj⟩
    simp only [sumArrivals, List.mem_cons, List.not_mem_nil, or_false] at ha
    rcases ha with rfl | rfl | rfl | rfl | rfl | rfl <;> cases hj
  · obtain ⟨ds, h1, h2, h3⟩ := C06_schedule sumRecv.c.E sumRecv.sid _ sumRecv.c0 hok.sched
    have e : sumDelays = ds := by
      have h1' : Sched.deltas sumRecv.c.E 3 sumRecv.c0 = ds.map .ok := h1
      unfold sumDelays
      rw [h1', List.map_map]
      exact List.map_id _
    rw [e]
    exact ⟨h3, h2⟩
  · intro a ha r hr
    simp only [sumArrivals, List.mem_cons, List.not_mem_nil, or_false] at ha
    rcases ha with rfl | rfl | rfl | rfl | rfl | rfl <;> (cases hr; unfold InEra Spec.Normalised; decide +kernel)

/-- The summary of the run: three packets sent, one lost, one duplicate. -/
example : ∃ s', sumStat.summary (sumRecv.records sumArrivals) (Stats.create sumStat.c sumStat.c0) 0 0 3 = .ok s' ∧ s'.sent = 3 ∧ s'.lost = 1 ∧ s'.dups = 1 := by
  have hr : sumStat.Range 0 3 := by unfold StatSession.Range; decide +kernel
  obtain ⟨s', h1, h2, h3, h4⟩ := C53_receiver_partial sumStat sumRecv sum_same sumArrivals sumDelays sum_usual (by decide +kernel) _ .fresh 0 0 3 hr (Or.inl rfl) _ rfl
  have h5 := C50_complete sumStat sumRecv sum_same sumArrivals sum_usual.ok ?_ (by decide +kernel) (by decide +kernel) _ s' .fresh 0 0 3 hr h1
  · refine ⟨s', h1, ?_, ?_, ?_⟩
    · rw [h5.1]; decide +kernel
    · rw [h3]; decide +kernel
    · rw [h4]; decide +kernel
  · intro a ha
    simp only [sumArrivals, List.mem_cons, List.not_mem_nil, or_false] at ha
    rcases ha with rfl | rfl | rfl | rfl | rfl | rfl <;> (unfold unstopped; decide)

/-! A session that starts one second before the 64 bit time stamps wrap to zero (7 February 2036): its packets are due zero, one and two seconds after. -/

def wrapRecv : RecvRun := { sumRecv with c := { demoRecvCfg with start := 0xFFFFFFFF00000000 }, clock := some ⟨⟨2085978495, 0⟩, 1, true⟩ }

def wrapStat : StatSession := { sumStat with c := { sumStat.c with start := 0xFFFFFFFF00000000 } }

/-- The first packet comes a quarter of a second after the time it was sent. -/
def wrapArrivals : List Arrival :=
  [⟨true, .none, .dgram [10, 0, 0, 1] ([0, 0, 0, 0] ++ [0, 0, 0, 0, 0, 0, 0, 0] ++ [0x80, 1]) 63 false, .none, some ⟨⟨2085978496, 250000000⟩, 1, true⟩, .none, fun _ => false, .none⟩]

/-- C53 fails for sessions around the wrap of the time stamps: the receiver records the packet, but the summary takes it to be long overdue (`recv - timeout` wraps and exceeds the packet's
time), and refuses the file. -/
theorem C53_wrap : ∃ (x : StatSession) (y : RecvRun) (as : List Arrival), SameSession x y ∧ y.Ok as ∧ (∀ a ∈ as, Steady a) ∧ x.Range 0 3 ∧
    (y.records as).map (fun r => (r.seq.toNat, r.recv.owptime.toNat)) = [(0, 2 ^ 30)] ∧
    x.summary (y.records as) (Stats.create x.c x.c0) 0 0 3 = .error .refused := by
  refine ⟨wrapStat, wrapRecv, wrapArrivals, ⟨rfl, rfl, rfl, rfl, rfl, rfl⟩, ⟨by decide +kernel, ?_, ?_⟩, ?_, by unfold StatSession.Range; decide +kernel, by decide +kernel, by decide +kernel⟩
  · intro r hr; cases hr; unfold GoodClock; decide +kernel
  · intro a ha r hr
    simp only [wrapArrivals, List.mem_cons, List.not_mem_nil, or_false] at ha
    subst ha
    cases hr
    unfold GoodClock
    decide +kernel
  · intro a ha ⟨j, hj⟩
    simp only [wrapArrivals, List.mem_cons, List.not_mem_nil, or_false] at ha
    subst ha
    cases hj

/-! ## Files -/

/-- The file `f` with header `h` has the records `rs`, at the place and of the size that the object knows. -/
structure HasRecords (x : StatSession) (f : Bytes) (h : File.Header) (rs : List DataRec) : Prop where
  version : h.version = 3
  size : x.c.recSize = 25
  few : rs.length < 2 ^ 32
  good : ∀ r ∈ rs, Stamp r.send ∧ Stamp r.recv
  there : ∃ pre post, f = pre ++ (rs.map recLayout).flatten ++ post ∧ pre.length = x.c.osetData ∧
    ((h.osetSkip > h.osetData ∧ h.osetSkip = ((x.c.osetData + 25 * rs.length : Nat) : Int)) ∨ (¬ h.osetSkip > h.osetData ∧ post = []))

/-- `OWPStatsParse` on such a file, from the start or from the place of some record, is the summary of the records from there on. -/
theorem HasRecords.summary {x : StatSession} {f : Bytes} {h : File.Header} {rs : List DataRec} (hf : HasRecords x f h rs) (s : Stats.St) (oset first last : Nat)
    (hle : x.place oset ≤ rs.length) (hat : max oset x.c.osetData = x.c.osetData + x.place oset * x.c.recSize) :
    parseFile x.c f h s oset first last = x.summary (rs.drop (x.place oset)) s oset first last := by
  obtain ⟨h1, h2, h3, h4, pre, post, h5, h6, h7⟩ := hf
  obtain ⟨p, hp⟩ : ∃ p, p = x.place oset := ⟨_, rfl⟩
  rw [← hp] at hle hat ⊢
  have hlen := File.flatten_map_length recLayout 25 (rs.take p) (fun r hr => (C12_record_partial r (h4 r (List.mem_of_mem_take hr)).1 (h4 r (List.mem_of_mem_take hr)).2).2.1)
  rw [List.length_take, Nat.min_eq_left hle] at hlen
  have hsplit : f = (pre ++ ((rs.take p).map recLayout).flatten) ++ ((rs.drop p).map recLayout).flatten ++ post := by
    rw [h5]
    conv => lhs; rw [← List.take_append_drop p rs]
    rw [List.map_append, List.flatten_append]
    simp only [List.append_assoc]
  have hpl : (pre ++ ((rs.take p).map recLayout).flatten).length = Nat.max oset x.c.osetData := by
    rw [List.length_append, hlen, h6]
    show _ = max oset x.c.osetData
    rw [hat, h2]; omega
  rw [hsplit, parseFile_feed x.c h s oset first last _ post (rs.drop p) (fun r hr => h4 r (List.mem_of_mem_drop hr)) (by rw [List.length_drop]; omega) hpl h1 h2 ?_]
  · have hb : ∀ o, Stats.begin x.c s (Nat.max o x.c.osetData) first last = Stats.begin x.c s o first last := by
      intro o
      unfold Stats.begin
      rw [show Nat.max (Nat.max o x.c.osetData) x.c.osetData = Nat.max o x.c.osetData by show max (max o x.c.osetData) x.c.osetData = max o x.c.osetData; omega]
    unfold StatSession.summary Stats.parse
    rw [hb]
  · rcases h7 with ⟨e1, e2⟩ | e
    · left
      refine ⟨e1, ?_⟩
      rw [e2, List.length_append, hlen, h6, List.length_drop, show x.c.osetData + 25 * rs.length = x.c.osetData + 25 * p + 25 * (rs.length - p) by omega]
    · exact Or.inr e

/-- **C53**, **C64** for files: however far the chain of summaries of a session's file has come, the next range of its packets can be summarised, and the result is that of
a fresh object that reads the file from the start. -/
theorem C64_file_chain (x : StatSession) (ds : List Nat) (hd : x.Delays ds) (f : Bytes) (h : File.Header) (rs : List DataRec) (hf : HasRecords x f h rs) (h1 : LostOnce rs)
    (ho : x.Orderly ds rs) (b e : Nat) (s : Stats.St) (hc : Chain x rs b s) (hr : x.Range b e) :
    ∃ s' t', parseFile x.c f h s s.nextOset b e = .ok s' ∧ parseFile x.c f h (Stats.create x.c x.c0) 0 b e = .ok t' ∧ SameReport s' t' := by
  have hsz : 0 < x.c.recSize := by rw [hf.size]; omega
  obtain ⟨_, _, a3, _, a5⟩ := Chain.inv x hsz hc
  obtain ⟨_, _, c3, _, c5⟩ := Chain.inv x hsz (Chain.start (x := x) rs)
  obtain ⟨s', t', e1, e2, e3⟩ := C64_chain x hsz ds hd rs hf.few h1 ho b e s hc hr
  refine ⟨s', t', ?_, ?_, e3⟩
  · rw [hf.summary s s.nextOset b e a3 a5]; exact e1
  · have hz : x.place (Stats.create x.c x.c0).nextOset = 0 := by
      show x.place 0 = 0
      unfold StatSession.place
      rw [Nat.zero_max, Nat.sub_self, Nat.zero_div]
    have := hf.summary (Stats.create x.c x.c0) (Stats.create x.c x.c0).nextOset b e c3 c5
    rw [hz, List.drop_zero] at this
    exact this.trans e2

/-- The file that a receiver and its control process write has the receiver's records (with the scale of the times in six bits). -/
theorem life_stored (junk : Bytes) (h : File.HdrIn) (rs : List DataRec) (status : Nat) (skips : List Skip) (next : U32) :
    File.life junk h rs status skips next = File.life junk h (rs.map stored) status skips next := by
  have hw : (rs.map fun r f => File.writeRecord f r) = (rs.map stored).map fun r f => File.writeRecord f r := by
    rw [List.map_map]
    apply List.map_congr_left
    intro r _
    funext f
    unfold File.writeRecord
    simp only [Function.comp]
    rw [stored_encode]
  unfold File.life
  rw [hw, List.length_map]

open Owamp.File Owamp.Spec.DataFile Owamp.Spec.Request in
/-- **C53**, **C50** for the file of a session (partial as `C53_receiver_partial`; and a file without any record must have no ranges of skipped packets). The file that the receiver
writes and the control process finishes, with the sender's ranges of skipped packets, is summarised, for every range of packets, with the true counts. -/
theorem C53_file_partial (x : StatSession) (y : RecvRun) (hxy : SameSession x y) (as : List Arrival) (ds : List Nat) (hy : y.Usual as ds)
    (hrs : 25 * (y.records as).length < 2 ^ 32) (junk : Bytes) (h : HdrIn) (status : Nat) (next : U32) (hj : junk.length = 112) (hs : Storable h) (hone : h.twoway = false)
    (hns : h.nskip = 0) (hnd : h.ndata = 0) (hst : status ≤ 2) (hsz : x.c.recSize = 25) (hat : x.c.osetData = headerEnd h.spec.slots.length)
    (hsome : y.records as ≠ [] ∨ x.c.skips.length = 0) :
    ∃ ws hd, script (life junk h ((y.after as).entries.map (·.data)) status x.c.skips next) [] = some ws ∧ readHeader (after [] ws) = .ok hd x.c.osetData ∧
      HasRecords x (after [] ws) hd (y.records as) ∧
      ∀ first last, x.Range first last → ∃ s', parseFile x.c (after [] ws) hd (Stats.create x.c x.c0) 0 first last = .ok s' ∧
        s'.sent = sent (lastOf x.c last) (x.about first last (y.records as)) ∧ s'.lost = lost (lastOf x.c last) (x.about first last (y.records as)) ∧
        s'.dups = duplicates (lastOf x.c last) (x.about first last (y.records as)) := by
  have henc : Enc (y.after as).entries := run_enc y.c as _ (init_enc _ _ _ _ _)
  have hgood : ∀ r ∈ y.records as, Stamp r.send ∧ Stamp r.recv := by
    intro r hr
    obtain ⟨e, he, rfl⟩ := List.mem_map.1 hr
    exact stored_stamp _ (henc e he)
  have hmap : ((y.after as).entries.map (·.data)).map stored = y.records as := by rw [List.map_map]; rfl
  obtain ⟨rs, hR⟩ : ∃ rs, rs = y.records as := ⟨_, rfl⟩
  have hlife : life junk h ((y.after as).entries.map (·.data)) status x.c.skips next = life junk h rs status x.c.skips next := by
    rw [life_stored, hmap, hR]
  obtain ⟨ws, e1, e2, _⟩ := life_ok junk h rs status x.c.skips next hj hs hone hns hnd (by rw [hR]; exact hgood) hst (by rw [hR]; exact hrs)
  rw [← hR] at hgood hrs hsome
  have hlen := flatten_map_length recLayout 25 rs (fun r hr => (C12_record_partial r (hgood r hr).1 (hgood r hr).2).2.1)
  have hskl := flatten_map_length encodeSkip 8 x.c.skips (fun s _ => encodeSkip_length s)
  have hrl := requestPart_length h hs
  have hfew := hs.few
  have hHlt : x.c.osetData < 2 ^ 33 := by rw [hat]; unfold headerEnd; omega
  rw [← hat] at e2
  have t1 := toNat_small x.c.osetData (by omega)
  have t2 := toNat_small (x.c.osetData + 25 * rs.length) (by omega)
  have hnn : (BitVec.ofNat 32 rs.length).toNat = rs.length := by rw [BitVec.toNat_ofNat, Nat.mod_eq_of_lt (by omega)]
  have hpre : (fixedLayout 3 1 next (BitVec.ofNat 32 x.c.skips.length) (BitVec.ofNat 32 rs.length)
      (BitVec.ofNat 64 (x.c.osetData + 25 * rs.length)) (BitVec.ofNat 64 x.c.osetData) ++ requestPart h.args h.sid).length = x.c.osetData := by
    rw [List.length_append, fixedLayout_length, hrl, hat]; unfold headerEnd; omega
  have hflen : (after [] ws).length = x.c.osetData + 25 * rs.length + 8 * x.c.skips.length := by
    rw [e2, List.length_append, List.length_append, hpre, hlen, hskl]
  have hr := readHeader_fixed h hs 1 next (BitVec.ofNat 32 x.c.skips.length) (BitVec.ofNat 32 rs.length)
    (BitVec.ofNat 64 (x.c.osetData + 25 * rs.length)) (BitVec.ofNat 64 x.c.osetData) ((rs.map recLayout).flatten ++ (x.c.skips.map encodeSkip).flatten)
    (by rw [t2]; omega) (by rw [t1]; omega) 25 (by rw [hone]; rfl) (after [] ws)
    (by rw [e2, hone]; simp only [List.append_assoc]; rfl) (by rw [t1, hnn, hflen]; omega)
  rw [t1] at hr
  have hhas : ∀ hd : File.Header, hd.version = 3 → hd.osetSkip = ((x.c.osetData + 25 * rs.length : Nat) : Int) → hd.osetData = (x.c.osetData : Int) →
      HasRecords x (after [] ws) hd rs := by
    intro hd v1 v2 v3
    refine ⟨v1, hsz, by omega, hgood, _, _, e2, hpre, ?_⟩
    rw [v2, v3]
    by_cases hn : rs.length = 0
    · right
      refine ⟨by rw [hn]; omega, ?_⟩
      rcases hsome with hsome | hsome
      · exact (hsome (List.length_eq_zero_iff.1 hn)).elim
      · rw [List.length_eq_zero_iff.1 hsome]; rfl
    · left
      exact ⟨by omega, rfl⟩
  obtain ⟨hd, hr, v1, v2, v3⟩ : ∃ hd : File.Header, readHeader (after [] ws) = .ok hd x.c.osetData ∧ hd.version = 3 ∧
      hd.osetSkip = ((x.c.osetData + 25 * rs.length : Nat) : Int) ∧ hd.osetData = (x.c.osetData : Int) :=
    ⟨_, hr, by rw [hone]; rfl, by rw [t2], rfl⟩
  have hh := hhas hd v1 v2 v3
  refine ⟨ws, hd, by rw [hlife]; exact e1, hr, by rw [← hR]; exact hh, fun first last hrange => ?_⟩
  obtain ⟨s', c1, c2⟩ := C53_receiver_partial x y hxy as ds hy (by rw [← hR]; omega) _ .fresh 0 first last hrange (Or.inl rfl) _ rfl
  refine ⟨s', ?_, c2⟩
  have hz : x.place 0 = 0 := by
    unfold StatSession.place
    rw [Nat.zero_max, Nat.sub_self, Nat.zero_div]
  rw [hh.summary (Stats.create x.c x.c0) 0 first last (by rw [hz]; exact Nat.zero_le _) (by rw [hz]; omega), hz, List.drop_zero, hR]
  exact c1

/-- The file of the run above. -/
example : ∃ ws hd, File.script (File.life (zeros 112) demoFileHdr ((sumRecv.after sumArrivals).entries.map (·.data)) 2 [] 0) [] = some ws ∧
    ∃ s', parseFile sumStat.c (File.after [] ws) hd (Stats.create sumStat.c sumStat.c0) 0 0 3 = .ok s' ∧ s'.lost = 1 := by
  obtain ⟨ws, hd, h1, _, _, h2⟩ := C53_file_partial sumStat sumRecv sum_same sumArrivals sumDelays sum_usual (by decide +kernel) (zeros 112) demoFileHdr 2 0 (by simp)
    demoFileHdr_storable rfl rfl rfl (by decide) rfl rfl (Or.inr rfl)
  obtain ⟨s', h3, h4, h5, _⟩ := h2 0 3 (by unfold StatSession.Range; decide +kernel)
  exact ⟨ws, hd, h1, s', h3, by rw [h5]; decide +kernel⟩

end Owamp.Props
