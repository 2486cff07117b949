import Verif.Lemmas.TwoWayEnd
import Verif.Props.Sender
/-!
# C67 – C70: two-way tests, the side that sends
-/
namespace Owamp.Props
open Owamp.Num64 Owamp.Time Owamp.Pkt Owamp.Ctl Owamp.Codec Owamp.Spec Owamp.Spec.TwoWay
open Owamp.TwoWay (Tick End Entry Call Phase)
open Owamp.Spec.Sender (nanos due)
open Owamp.Spec.Receiver (GoodClock schedTime unixNanos stampOf)

/-- Everything a run is given: the configuration, the schedule context (which may have been used before), the payload buffer and the
uninitialised time stamps. -/
structure TwRun where
  c : TwoWay.Cfg
  sid : Bytes
  slots : List Sched.Slot
  c0 : Sched.Ctx
  ops : List Sched.Op
  buf : Bytes
  stamp : TimeStamp
  rtime : TimeStamp

/-- The state after the passes `ts`. -/
def TwRun.after (x : TwRun) (ts : List Tick) : TwoWay.St :=
  TwoWay.run x.c (TwoWay.init x.c (Sched.run x.c.E x.c0 x.ops) x.buf x.stamp x.rtime) ts

/-- The state when the process is through with `finish_sender` too (if it got there). -/
def TwRun.final (x : TwRun) (ts : List Tick) (e : End) : TwoWay.St := TwoWay.conclude x.c e (x.after ts)

/-- The schedule is the session's, the start time is a normalised time and so is every clock reading. -/
structure TwRun.Ok (x : TwRun) (ts : List Tick) (e : End) : Prop where
  sched : Sched.create x.sid ⟨x.c.npackets, x.slots⟩ = some x.c0
  start : 0 ≤ x.c.begin.sub ∧ x.c.begin.sub < 1000000000
  clocks : ∀ t ∈ ts, ∀ r, t.clock = some r → GoodClock r
  last : ∀ r, e.clock = some r → GoodClock r

/-- `ds` are the delays of the session's schedule. -/
def TwRun.Delays (x : TwRun) (ds : List Nat) : Prop :=
  Spec.Delays x.c.E x.sid x.slots 0 0 ds ∧ ds.length = x.c.npackets.toNat

/-- The stop signal never arrives while the process is inside a flush. -/
def TwRun.Quiet (ts : List Tick) (e : End) : Prop := (∀ t ∈ ts, ∀ j, t.usr2 j = false) ∧ ∀ j, e.usr2 j = false

/-- `t` is a time the process read from its clock. -/
def TwRun.Read (ts : List Tick) (e : End) (t : TimeParts) : Prop :=
  (∃ a ∈ ts, ∃ r, a.clock = some r ∧ r.time = t) ∨ ∃ r, e.clock = some r ∧ r.time = t

/-- Nothing disturbs any of the passes, and records can be written. -/
def TwRun.Calm (x : TwRun) (ts : List Tick) : Prop :=
  (∀ l r, x.c.write l r = true) ∧ ∀ pre t post, ts = pre ++ t :: post → Undisturbed x.c (x.after pre) t

private theorem ran (x : TwRun) (ts : List Tick) (e : End) (h : x.Ok ts e) :
    ∃ ds, x.Delays ds ∧ ∃ b m, TwoWay.Next x.c ds (TwRun.Quiet ts e) (· ∈ ts) (TwRun.Read ts e) (x.Calm ts) b m (x.after ts) := by
  obtain ⟨ds, h1, h2, h3⟩ := C06_schedule x.c.E x.sid _ x.c0 h.sched
  obtain ⟨i1, i2⟩ := TwoWay.init_spec x.c (TwRun.Quiet ts e) (· ∈ ts) (TwRun.Read ts e) x.sid x.slots x.c0 h.sched x.ops x.buf x.stamp x.rtime ds h1 h2
  obtain ⟨b, m, _, _, r⟩ := TwoWay.run_spec (calm := x.Calm ts) h2 h.start ts 0 0 _ ⟨i1, fun _ e => by
      rcases Nat.eq_zero_or_pos x.c.npackets.toNat with hz | hz
      · exact hz.symm
      · rw [i2 hz] at e; cases e⟩
    (fun t ht => ⟨ht, fun hq => hq.1 t ht, fun r hr => ⟨Or.inl ⟨t, ht, r, hr, rfl⟩, h.clocks t ht r hr⟩⟩)
    (fun hc => hc)
  exact ⟨ds, ⟨h3, h2⟩, b, m, r⟩

private theorem ended (x : TwRun) (ts : List Tick) (e : End) (h : x.Ok ts e) :
    ∃ ds, x.Delays ds ∧ ∃ b m, TwoWay.Core x.c ds (TwRun.Quiet ts e) (· ∈ ts) (TwRun.Read ts e) b m (x.final ts e) ∧
      ((x.final ts e).phase = .undef → (x.after ts).phase = .finish ∧ (x.after ts).rc = none) ∧
      (x.Calm ts → (x.after ts).phase = .finish → m = x.c.npackets.toNat) ∧
      ((x.after ts).phase = .finish → ∀ r, e.clock = some r → (x.final ts e).phase = .normal →
        ∀ n rest, (x.final ts e).q = n :: rest → n.sent = true →
          (TwRun.Quiet ts e → ¬ total 1000000000 n.absolute + nanos x.c.timeout.toNat < total 1000000000 r.time) ∧
          ((∀ j, e.usr2 j = true) → 0 < nanos x.c.timeout.toNat → False)) := by
  obtain ⟨ds, hd, b, m, hn⟩ := ran x ts e h
  obtain ⟨b', _, h2, h3, h4⟩ := TwoWay.conclude_spec hd.2 hn.1
    (TwoWay.run_rc x.c ts _ (TwoWay.init_rc x.c (Sched.run x.c.E x.c0 x.ops) x.buf x.stamp x.rtime)) e (fun hq => hq.2)
    (fun r hr => ⟨Or.inr ⟨r, hr, rfl⟩, h.last r hr⟩)
  exact ⟨ds, hd, b', m, h2, h3, hn.2, h4⟩

/-! ## C67 -/

/-- **C67.** Whatever is received, whatever the clock shows, however sending fails and whichever signals come: a packet has at most one lost record
and not both a lost record and a reply; lost records are in strictly ascending order of packets; every record is for a packet of the session that was handed to the network (or
skipped) before. -/
theorem C67_one_verdict (x : TwRun) (ts : List Tick) (e : End) (h : x.Ok ts e) :
    let s := x.final ts e
    (∀ k, (lostFor k s.entries).length ≤ 1 ∧ (lostFor k s.entries ≠ [] → gotFor k s.entries = [])) ∧
      (s.entries.filter noReply).Pairwise (fun a b => a.data.sent.seq.toNat < b.data.sent.seq.toNat) ∧
      ∀ a ∈ s.entries, a.data.sent.seq.toNat < x.c.npackets.toNat ∧
        (handed a.data.sent.seq.toNat s.calls ≠ [] ∨ a.data.sent.seq.toNat ∈ s.missed) := by
  intro s
  obtain ⟨ds, hd, b, m, hC, _, _, _⟩ := ended x ts e h
  refine ⟨fun k => ?_, hC.asc, fun a ha => ?_⟩
  · rcases Nat.lt_or_ge k b with hk | hk
    · rcases hC.settled k hk with (⟨h1, h2⟩ | ⟨h1, h2⟩) | ⟨_, h1⟩
      · exact ⟨Nat.le_of_eq h1, fun _ => h2⟩
      · exact ⟨by rw [h1]; exact Nat.zero_le _, fun z => (z h1).elim⟩
      · exact ⟨by rw [h1]; exact Nat.zero_le _, fun z => (z h1).elim⟩
    · have := hC.nolost k hk
      exact ⟨by rw [this]; exact Nat.zero_le _, fun z => (z this).elim⟩
  · have hm : a.data.sent.seq.toNat < m := by
      rcases Nat.lt_or_ge a.data.sent.seq.toNat m with hh | hh
      · exact hh
      · have h1 := hC.nogot _ hh
        have h2 := hC.nolost _ (Nat.le_trans hC.bm hh)
        rw [gotFor, List.filter_eq_nil_iff] at h1
        rw [lostFor, List.filter_eq_nil_iff] at h2
        have h1 := h1 a ha
        have h2 := h2 a ha
        simp only [decide_true, Bool.true_and] at h1 h2
        cases hn : noReply a with
        | true => exact (h2 hn).elim
        | false => rw [hn] at h1; exact (h1 rfl).elim
    refine ⟨Nat.lt_of_lt_of_le hm (Nat.le_trans hC.mq hC.queue.fits), ?_⟩
    rcases hC.acct _ hm with ⟨y, hy, _⟩ | ⟨_, hy⟩
    · exact Or.inl (by rw [hy]; simp)
    · exact Or.inr hy

/-- **C67**: a packet recorded as lost was handed to the network; its record carries the scheduled time and nothing from a reply; the time it was given up was read
from the clock, and if no stop signal was noticed inside a flush, it is more than the timeout after the packet was sent. -/
theorem C67_lost_partial (x : TwRun) (ts : List Tick) (e : End) (h : x.Ok ts e) :
    ∃ ds, x.Delays ds ∧ ∀ a ∈ (x.final ts e).entries, noReply a = true →
      LostRecord x.c ds a ∧ TwRun.Read ts e a.now ∧
      ∃ y ∈ (x.final ts e).calls, y.seq = a.data.sent.seq.toNat ∧ counted y ∧ (TwRun.Quiet ts e → Expired x.c y a.now) := by
  obtain ⟨ds, hd, b, m, hC, _, _, _⟩ := ended x ts e h
  refine ⟨ds, hd, fun a ha hl => ?_⟩
  rcases hC.good a ha with ⟨_, g1, g2, g3⟩ | ⟨g, _⟩
  · exact ⟨g1, g2, g3⟩
  · rw [hl] at g; cases g

/-- **C67**: every packet the process has passed has exactly one verdict, or was skipped. -/
theorem C67_passed (x : TwRun) (ts : List Tick) (e : End) (h : x.Ok ts e) :
    ∀ k, k < passed x.c (x.after ts) → OneVerdict (x.after ts).entries k ∨ (k ∈ (x.after ts).missed ∧ lostFor k (x.after ts).entries = []) := by
  obtain ⟨ds, hd, b, m, hn⟩ := ran x ts e h
  rw [TwoWay.passed_eq hn.1.1]
  exact hn.1.1.settled

/-! ## C68 -/

/-- Why a packet may be left without a verdict at the end, at the final clock reading `r`: an earlier packet (or itself) was sent within the timeout before `r`; or was skipped and its
scheduled time plus the timeout is not before `r`; or its sending was interrupted by a signal. -/
def Pending (x : TwRun) (ds : List Nat) (r : Sender.Reading) (calls : List Call) (missed : List Nat) (k : Nat) : Prop :=
  ∃ j, j ≤ k ∧
    ((∃ y ∈ calls, y.seq = j ∧ counted y ∧ ¬ Expired x.c y r.time) ∨
     (j ∈ missed ∧ ¬ unixNanos (schedTime x.c.start.toNat ds j) + nanos x.c.timeout.toNat < total 1000000000 r.time) ∨
     (∃ y ∈ calls, y.seq = j ∧ y.res = .intr))

theorem tw_abs_sched (x : TwRun) (ds : List Nat) (k : Nat) :
    total 1000000000 (TwoWay.absOf x.c (Recv.rel ds k)) = unixNanos (schedTime x.c.start.toNat ds k) := by
  have e : sub (BitVec.ofNat 64 (add (Recv.rel ds k) x.c.start.toNat)).toNat (ulongToNum64 jan1970) =
      ((x.c.start.toNat + Recv.rel ds k) % 2 ^ 64 + 2 ^ 64 - Spec.Receiver.epoch) % 2 ^ 64 := by
    rw [BitVec.toNat_ofNat, add, u64, Nat.mod_mod, sub, u64, Nat.add_comm (Recv.rel ds k)]
    rfl
  have := Sender.nanos_eq (((x.c.start.toNat + Recv.rel ds k) % 2 ^ 64 + 2 ^ 64 - Spec.Receiver.epoch) % 2 ^ 64) (Nat.mod_lt _ (by decide))
  unfold TwoWay.absOf timestampToTimespec
  simp only
  rw [e, ← Recv.sched_rel]
  exact this.1

/-- **C68.** When a test that was not stopped ends normally, every packet that was sent has a verdict, unless it is held up as in `Pending`. -/
theorem C68_complete_partial (x : TwRun) (ts : List Tick) (e : End) (h : x.Ok ts e) (hq : TwRun.Quiet ts e)
    (hf : (x.after ts).phase = .finish) (hn : (x.final ts e).phase = .normal) (r : Sender.Reading) (hr : e.clock = some r) :
    ∃ ds, x.Delays ds ∧ ∀ y ∈ (x.final ts e).calls, counted y →
      OneVerdict (x.final ts e).entries y.seq ∨ Pending x ds r (x.final ts e).calls (x.final ts e).missed y.seq := by
  obtain ⟨ds, hd, b, m, hC, _, _, h4⟩ := ended x ts e h
  refine ⟨ds, hd, fun y hy hc => ?_⟩
  rcases TwoWay.verdict_of hC (by rw [hn]; decide) y hy hc with hv | ⟨n, rest, q1, q2, q3⟩
  · exact Or.inl hv
  · refine Or.inr ⟨n.seq, q2, ?_⟩
    have h4 := h4 hf r hr hn n rest q1
    rcases q3 with ⟨_, q3⟩ | ⟨q3, _, z, z1, z2, z3, z4⟩ | ⟨q3, q4, q5⟩
    · exact Or.inr (Or.inr q3)
    · refine Or.inl ⟨z, z1, z2, z3, ?_⟩
      unfold Expired
      rw [z4]
      exact (h4 q3).1 hq
    · refine Or.inr (Or.inl ⟨q4, ?_⟩)
      have := (h4 q3).1 hq
      rwa [q5, tw_abs_sched] at this

/-- **C68**, the usual case: no packet was skipped and no sending was interrupted, later packets were sent at later times. Then every packet that was
sent more than the timeout before the end has a verdict. -/
theorem C68_complete_expired (x : TwRun) (ts : List Tick) (e : End) (h : x.Ok ts e) (hq : TwRun.Quiet ts e)
    (hf : (x.after ts).phase = .finish) (hn : (x.final ts e).phase = .normal) (r : Sender.Reading) (hr : e.clock = some r)
    (hm : (x.final ts e).missed = []) (hi : ∀ y ∈ (x.final ts e).calls, y.res ≠ .intr)
    (ho : ∀ y ∈ (x.final ts e).calls, ∀ z ∈ (x.final ts e).calls, y.seq ≤ z.seq → total 1000000000 y.time ≤ total 1000000000 z.time)
    (y : Call) (hy : y ∈ (x.final ts e).calls) (hc : counted y) (hx : Expired x.c y r.time) : OneVerdict (x.final ts e).entries y.seq := by
  obtain ⟨ds, _, hv⟩ := C68_complete_partial x ts e h hq hf hn r hr
  rcases hv y hy hc with hv | ⟨j, hj, ⟨z, z1, z2, _, z4⟩ | ⟨z, _⟩ | ⟨z, z1, _, z3⟩⟩
  · exact hv
  · have := ho z z1 y hy (by omega)
    unfold Expired at hx z4
    omega
  · rw [hm] at z; cases z
  · exact (hi z z1 z3).elim

/-- **C68**, a stopped test: if the stop signal is set when the process makes up its results, and the timeout is not zero, every packet that was sent has a verdict,
except those from one on whose sending was interrupted. -/
theorem C68_stopped (x : TwRun) (ts : List Tick) (e : End) (h : x.Ok ts e) (hu : ∀ j, e.usr2 j = true) (ht : 0 < nanos x.c.timeout.toNat)
    (hf : (x.after ts).phase = .finish) (hn : (x.final ts e).phase = .normal) (r : Sender.Reading) (hr : e.clock = some r) :
    ∀ y ∈ (x.final ts e).calls, counted y →
      OneVerdict (x.final ts e).entries y.seq ∨ ∃ z ∈ (x.final ts e).calls, z.seq ≤ y.seq ∧ z.res = .intr := by
  obtain ⟨ds, hd, b, m, hC, _, _, h4⟩ := ended x ts e h
  intro y hy hc
  rcases TwoWay.verdict_of hC (by rw [hn]; decide) y hy hc with hv | ⟨n, rest, q1, q2, q3⟩
  · exact Or.inl hv
  · have h4 := h4 hf r hr hn n rest q1
    rcases q3 with ⟨_, z, z1, z2, z3⟩ | ⟨q3, _⟩ | ⟨q3, _⟩
    · exact Or.inr ⟨z, z1, by omega, z3⟩
    · exact ((h4 q3).2 hu ht).elim
    · exact ((h4 q3).2 hu ht).elim

/-- **C68**: if nothing disturbs the test, the process leaves its loop only when it has sent, or skipped, every packet of the session. -/
theorem C68_undisturbed (x : TwRun) (ts : List Tick) (e : End) (h : x.Ok ts e) (hc : x.Calm ts) (hf : (x.after ts).phase = .finish) :
    ∃ ds, x.Delays ds ∧ ∀ k, k < x.c.npackets.toNat →
      Accounted (due x.c.begin ds) (nanos x.c.timeout.toNat) (x.final ts e).calls (x.final ts e).missed k := by
  obtain ⟨ds, hd, b, m, hC, _, hm, _⟩ := ended x ts e h
  refine ⟨ds, hd, fun k hk => hC.acct k ?_⟩
  rw [hm hc hf]
  exact hk

/-- **C68**: the only undefined behaviour is the use of `flush_rc` without a value. -/
theorem C68_defined (x : TwRun) (ts : List Tick) (e : End) (h : x.Ok ts e) :
    (x.after ts).phase ≠ .undef ∧ ((x.final ts e).phase = .undef ↔ (x.after ts).phase = .finish ∧ (x.after ts).rc = none) := by
  obtain ⟨_, _, _, _, hn⟩ := ran x ts e h
  obtain ⟨_, _, _, _, _, h2, _, _⟩ := ended x ts e h
  refine ⟨hn.1.2.defined, h2, fun ⟨h3, h4⟩ => ?_⟩
  unfold TwRun.final TwoWay.conclude
  rw [h3, h4]

/-- **C68**: results are marked as normal only if the process was not interrupted; those of an interrupted one are marked as failed, and so is the test. -/
theorem C68_interrupt_marked (x : TwRun) (ts : List Tick) (e : End) (hf : (x.after ts).phase = .finish) (hi : e.int = true) :
    (x.final ts e).phase = .undef ∨ TwoWay.ended (x.final ts e) = some (0, false) := by
  unfold TwRun.final TwoWay.conclude
  rw [hf]
  dsimp only
  split
  · exact Or.inl rfl
  · split
    · right; rw [hi]; rfl
    · split
      · exact Or.inr rfl
      · exact Or.inl rfl
      · right; rw [hi]; rfl
  · right; rw [hi]; rfl

/-! ## C69 -/

/-- **C69.** Every reply in the results is the record of a datagram the process received in one of its passes: long enough, valid under the session's
keys, with valid error estimates; the record's numbers, times, estimates and TTLs are those of the datagram and of that pass. -/
theorem C69_genuine (x : TwRun) (ts : List Tick) (e : End) (h : x.Ok ts e) :
    ∀ a ∈ (x.final ts e).entries, noReply a = false → ∃ t ∈ ts, Genuine x.c t a := by
  obtain ⟨ds, hd, b, m, hC, _, _, _⟩ := ended x ts e h
  intro a ha hl
  rcases hC.good a ha with ⟨g, _⟩ | ⟨_, t, ht, _, g⟩
  · rw [hl] at g; cases g
  · exact ⟨t, ht, g⟩

/-- **C69**, the other way round: in a pass that is not disturbed, a datagram that is long enough and opens to a reply for a packet already sent is recorded, provided the process waits for
replies in this pass at all and has not passed the packet; what it has passed has its verdict (`C67_passed`). -/
theorem C69_recorded (x : TwRun) (ts : List Tick) (t : Tick) (e : End) (h : x.Ok (ts ++ [t]) e) (hs : (x.after ts).phase = .receiving)
    (hc : Undisturbed x.c (x.after ts) t) (hw : ∀ l r, x.c.write l r = true) (ds : List Nat) (hd : x.Delays ds) (hwait : Waits x.c ds (x.after ts))
    (peer bytes : Bytes) (ttl : Byte) (i : Bool) (P : Bytes) (hgot : t.got = .dgram peer bytes ttl i)
    (hl : twPayloadSize x.c.fmt 0 ≤ (bytes.take (TwoWay.respLen x.c)).length)
    (hP : openReply x.c.H x.c.fmt x.c.ep (bytes.take (TwoWay.respLen x.c)) = .plain P) :
    (∃ es a, (x.after (ts ++ [t])).entries = (x.after ts).entries ++ es ++ [a] ∧ a.data.sent.seq = (readReply x.c.fmt P).sndSeq ∧ Genuine x.c t a) ∨
      (readReply x.c.fmt P).sndSeq.toNat < passed x.c (x.after (ts ++ [t])) := by
  obtain ⟨ds', h1, h2, h3⟩ := C06_schedule x.c.E x.sid _ x.c0 h.sched
  have hds : ds' = ds := List.ext_getElem (by rw [h2, hd.2])
    (fun n hn hn' => C06_spec_unique x.c.E x.sid x.slots 0 0 ds' ds h3 hd.1 n hn hn')
  subst hds
  obtain ⟨i1, i2⟩ := TwoWay.init_spec x.c (TwRun.Quiet (ts ++ [t]) e) (· ∈ ts ++ [t]) (TwRun.Read (ts ++ [t]) e) x.sid x.slots x.c0 h.sched x.ops x.buf x.stamp x.rtime ds' h1 h2
  obtain ⟨b, m, _, _, r⟩ := TwoWay.run_spec (calm := False) h2 h.start ts 0 0 _ ⟨i1, fun hf => hf.elim⟩
    (fun t' ht => ⟨List.mem_append_left _ ht, fun hq => hq.1 t' (List.mem_append_left _ ht),
      fun r hr => ⟨Or.inl ⟨t', List.mem_append_left _ ht, r, hr, rfl⟩, h.clocks t' (List.mem_append_left _ ht) r hr⟩⟩)
    (fun hc => hc.elim)
  obtain ⟨r0, hr0⟩ := Option.isSome_iff_exists.1 (hc.2.2 hs).2.2.1
  have he : x.after (ts ++ [t]) = TwoWay.recvTurn x.c t (x.after ts) := by
    have : x.after (ts ++ [t]) = TwoWay.step x.c (x.after ts) t := by simp [TwRun.after, TwoWay.run]
    rw [this, TwoWay.step, hs]
  rw [he]
  exact TwoWay.recvTurn_records h2 h.start r.1 hs t (fun hq => hq.1 t (by simp)) r0 hr0
    ⟨Or.inl ⟨t, by simp, r0, hr0, rfl⟩, h.clocks t (by simp) r0 hr0⟩ hw hc hwait peer bytes ttl i P hgot hl hP

/-! ## C70 -/

/-- **C70.** Of the packets of the session a first part has been dealt with, each either handed over exactly once (after its time, no more than the timeout
after it) or skipped because it was later than that, and never both; of the others none has been skipped and, unless a fatal error ended the process, none has been handed over. -/
theorem C70_sent (x : TwRun) (ts : List Tick) (e : End) (h : x.Ok ts e) :
    ∃ ds m, x.Delays ds ∧ m ≤ x.c.npackets.toNat ∧
      (∀ k, k < m → Accounted (due x.c.begin ds) (nanos x.c.timeout.toNat) (x.final ts e).calls (x.final ts e).missed k) ∧
      ∀ k, m ≤ k → k ∉ (x.final ts e).missed ∧ ((x.final ts e).phase ≠ .dead → handed k (x.final ts e).calls = []) := by
  obtain ⟨ds, hd, b, m, hC, _, _, _⟩ := ended x ts e h
  exact ⟨ds, m, hd, Nat.le_trans hC.mq hC.queue.fits, hC.acct, fun k hk => ⟨hC.unmissed k hk, fun hp => hC.unsent hp k hk⟩⟩

/-- The packet is understood at the other end: it opens there, with its own number, the time it was sent (from 1900 on) and a valid error estimate. -/
def UnderstoodThere (c : TwoWay.Cfg) (e' : Ep) (y : Call) : Prop :=
  ∃ P, openPacket c.H c.fmt e' y.bytes = .plain P ∧ seqOf P = BitVec.ofNat 32 y.seq ∧
    timeOf c.fmt P = BitVec.ofNat 64 (ofTimespec y.time + 2208988800 * 2 ^ 32) ∧ (errOf c.fmt P).valid = true

theorem estimate_valid (t : TimeStamp) : (Packet.estimateRead t).valid = true := by
  unfold Packet.estimateRead
  split <;> rfl

private theorem sent_time (old : TimeStamp) (tv : TimeParts) (e l : Nat) :
    (timespecToTimestamp old tv (some e) (some l)).owptime = BitVec.ofNat 64 (ofTimespec tv + 2208988800 * 2 ^ 32) := by
  have h : BitVec.ofNat 64 (add (ofTimespec tv) (ulongToNum64 jan1970)) = BitVec.ofNat 64 (ofTimespec tv + 2208988800 * 2 ^ 32) := by
    apply BitVec.eq_of_toNat_eq
    simp only [BitVec.toNat_ofNat, add, u64]
    rw [Nat.mod_mod]
    rfl
  simp only [timespecToTimestamp]
  rw [← h]
  split
  · split <;> rfl
  · rfl

/-- **C70**, contents: although the buffer is shared with the replies that come in between, every packet handed to the network has the session's size and
is understood by the reflector of the session, with its own number and the time it was sent. -/
theorem C70_understood (x : TwRun) (ts : List Tick) (e : End) (m : U32) (hf : fmtTW m = some x.c.fmt) (send send' : Bool)
    (aes hmac sid : Bytes) (hh : hmac.length = 32) (he : x.c.ep = initKeys m true false send aes hmac sid) (n : Nat)
    (hpad : ∀ i, (x.c.pad i).length = n) (hbuf : x.buf.length = payloadSize x.c.fmt n) :
    ∀ y ∈ (x.final ts e).calls,
      y.bytes.length = payloadSize x.c.fmt n ∧ UnderstoodThere x.c (initKeys m true true send' aes hmac sid) y := by
  have key : ∀ s, TwoWay.Wire x.c n (fun y => y.bytes.length = payloadSize x.c.fmt n ∧ UnderstoodThere x.c (initKeys m true true send' aes hmac sid) y) s →
      ∀ t, TwoWay.Wire x.c n (fun y => y.bytes.length = payloadSize x.c.fmt n ∧ UnderstoodThere x.c (initKeys m true true send' aes hmac sid) y)
        (TwoWay.step x.c s t) := by
    intro s hs t
    refine TwoWay.step_wire x.c n _ s t hs fun r hb => ?_
    obtain ⟨pkt, P, h1, h2, h3, h4, h5, h6⟩ := C28_twoway_understood x.c.H m x.c.fmt hf send send' aes hmac sid hh
      s.buf (x.c.pad s.i) (by rw [hb, hpad]) (BitVec.ofNat 32 s.i)
      { timespecToTimestamp s.stamp r.time (some r.err) (some s.last) with sync := r.sync }
    rw [hpad] at h2
    refine ⟨pkt, by rw [he]; exact h1, h2, fun res => ⟨h2, P, h3, h4, ?_, ?_⟩⟩
    · rw [h5]
      exact sent_time s.stamp r.time r.err s.last
    · rw [h6]
      exact estimate_valid _
  have run : ∀ ts s, TwoWay.Wire x.c n (fun y => y.bytes.length = payloadSize x.c.fmt n ∧ UnderstoodThere x.c (initKeys m true true send' aes hmac sid) y) s →
      TwoWay.Wire x.c n (fun y => y.bytes.length = payloadSize x.c.fmt n ∧ UnderstoodThere x.c (initKeys m true true send' aes hmac sid) y)
        (TwoWay.run x.c s ts) := by
    intro ts
    induction ts with
    | nil => exact fun s h => h
    | cons t ts ih => exact fun s h => ih _ (key s h t)
  have hi := run ts _ (TwoWay.init_wire x.c n _ (Sched.run x.c.E x.c0 x.ops) x.buf x.stamp x.rtime hbuf)
  intro y hy
  refine hi.2 y ?_
  have := TwoWay.conclude_calls x.c e (x.after ts)
  unfold TwRun.final at hy
  rw [this] at hy
  exact hy

/-! ## Concrete runs -/

/-- Open mode, no padding, three packets one second apart (due at seconds 101, 102, 103), loss timeout two seconds. -/
def demoTwCfg : TwoWay.Cfg :=
  { H := demoSendMac, E := fun _ _ => List.replicate 16 0x20, fmt := .clear, ep := {}, len := 14
    start := 0x83AA7EE400000000, begin := ⟨100, 0⟩, timeout := 0x200000000, npackets := 3, pad := fun _ => [], write := fun _ _ => true }

def demoTwRun (c : TwoWay.Cfg) : Option TwRun := (Sched.create [] ⟨c.npackets, demoSlots⟩).map fun c0 =>
  { c := c, sid := [], slots := demoSlots, c0 := c0, ops := [], buf := zeros c.len, stamp := ⟨0, false, 0, 0⟩, rtime := ⟨0, false, 0, 0⟩ }

/-- A clock reading in tenths of a second, and passes at that time. -/
def demoTwClock (ds : Int) : Sender.Reading := ⟨⟨ds / 10, ds % 10 * 100000000⟩, 1, true⟩
def demoTwAt (ds : Int) : Tick := ⟨false, some (demoTwClock ds), false, .ok, true, false, true, .fail true, [], true, fun _ => false⟩
def demoTwGot (bytes : Bytes) (ds : Int) : Tick := { demoTwAt ds with got := .dgram [10, 0, 0, 9] bytes 61 true }
def demoTwEnd (ds : Int) : End := ⟨some (demoTwClock ds), fun _ => false, false⟩

/-- A reply to packet `k`, in open mode; `rcv` is the time the reflector says it received the packet. -/
def demoTwReply (k : Byte) (rcv : U64) : Bytes :=
  [0, 0, 0, k] ++ [0x83, 0xAA, 0x7E, 0xE5, 0x90, 0, 0, 1] ++ [0x80, 1] ++ [0, 0] ++ beEnc 8 rcv.toNat ++
  [0, 0, 0, k] ++ [0x83, 0xAA, 0x7E, 0xE5, 0x80, 0, 0, 0] ++ [0x80, 1] ++ [0, 0] ++ [63]
def demoTwRcv : U64 := 0x83AA7EE588000000

/-- The phase; for each record the packet, whether it is lost, and when it was written; the packets sent; those skipped. -/
structure DemoTwSeen where
  phase : Phase
  records : List (Nat × Bool × Int)
  sent : List Nat
  missed : List Nat
deriving DecidableEq

def demoTwShow (s : TwoWay.St) : DemoTwSeen :=
  ⟨s.phase, s.entries.map fun a => (a.data.sent.seq.toNat, noReply a, a.now.sec), s.calls.map (·.seq), s.missed⟩
def demoTwFinal (ts : List Tick) (e : End) : Option DemoTwSeen := (demoTwRun demoTwCfg).map fun x => demoTwShow (x.final ts e)

/-- The ordinary course of a test: packet 0 goes out, its reply comes twice; packets 1 and 2 go out and are given up. -/
def demoTwPasses : List Tick :=
  [demoTwAt 1000, demoTwAt 1015, demoTwGot (demoTwReply 0 demoTwRcv) 1016, demoTwGot (demoTwReply 0 demoTwRcv) 1017, demoTwAt 1019,
   demoTwAt 1025, demoTwAt 1029, demoTwAt 1035, demoTwAt 1056]

/-- Non-vacuity for C67 – C70: the run ends normally with a verdict for each packet. -/
theorem C67_example :
    demoTwFinal demoTwPasses (demoTwEnd 1056) =
      some ⟨.normal, [(0, false, 101), (0, false, 101), (1, true, 105), (2, true, 105)], [0, 1, 2], []⟩ := by decide +kernel

private theorem demo_good (ds : Int) (h1 : 0 ≤ ds % 10 * 100000000) (h2 : ds % 10 * 100000000 < 1000000000)
    (h3 : stampOf ⟨ds / 10, ds % 10 * 100000000⟩ ≠ 0) : GoodClock (demoTwClock ds) := ⟨h1, h2, h3⟩

private theorem demo_ok (x : TwRun) (hx : demoTwRun demoTwCfg = some x) : x.Ok demoTwPasses (demoTwEnd 1056) := by
  obtain ⟨c0, hc0, rfl⟩ := Option.map_eq_some_iff.1 hx
  refine ⟨hc0, ⟨show (0 : Int) ≤ 0 by decide, show (0 : Int) < 1000000000 by decide⟩, fun t ht r hr => ?_, fun r hr => ?_⟩
  · simp only [demoTwPasses, List.mem_cons, List.not_mem_nil, or_false] at ht
    rcases ht with rfl | rfl | rfl | rfl | rfl | rfl | rfl | rfl | rfl <;> cases hr <;>
      exact demo_good _ (by decide +kernel) (by decide +kernel) (by decide +kernel)
  · cases hr
    exact demo_good _ (by decide +kernel) (by decide +kernel) (by decide +kernel)

/-- Non-vacuity: the run meets the hypotheses `Ok`, `Quiet`, and those on phases of C67 – C70. -/
example : ∃ x, demoTwRun demoTwCfg = some x ∧ x.Ok demoTwPasses (demoTwEnd 1056) ∧ TwRun.Quiet demoTwPasses (demoTwEnd 1056) ∧
    (x.after demoTwPasses).phase = .finish ∧ (x.final demoTwPasses (demoTwEnd 1056)).phase = .normal ∧
    (∀ y ∈ (x.final demoTwPasses (demoTwEnd 1056)).calls, y.res ≠ .intr ∧ counted y ∧ Expired x.c y ⟨105, 600000000⟩) := by
  obtain ⟨x, hx⟩ : ∃ x, demoTwRun demoTwCfg = some x := Option.isSome_iff_exists.1 (by decide +kernel)
  have key : (demoTwRun demoTwCfg).all (fun x => decide ((x.after demoTwPasses).phase = .finish ∧
      (x.final demoTwPasses (demoTwEnd 1056)).phase = .normal ∧
      ∀ y ∈ (x.final demoTwPasses (demoTwEnd 1056)).calls, y.res ≠ .intr ∧ (y.res = .ok ∨ y.res = .other) ∧
        total 1000000000 y.time + nanos x.c.timeout.toNat < total 1000000000 ⟨105, 600000000⟩)) = true := by decide +kernel
  rw [hx] at key
  obtain ⟨k1, k2, k3⟩ := of_decide_eq_true key
  refine ⟨x, hx, demo_ok x hx, ⟨fun t ht j => ?_, fun _ => rfl⟩, k1, k2, k3⟩
  simp only [demoTwPasses, List.mem_cons, List.not_mem_nil, or_false] at ht
  rcases ht with rfl | rfl | rfl | rfl | rfl | rfl | rfl | rfl | rfl <;> rfl

/-- Non-vacuity for C69_recorded: the pass in which the first reply comes. -/
example : ∃ x, demoTwRun demoTwCfg = some x ∧
    (x.after (demoTwPasses.take 2)).phase = .receiving ∧ (x.after (demoTwPasses.take 3)).entries.length = 1 ∧
    total 1000000000 (x.after (demoTwPasses.take 2)).cur + 1000000 ≤ 102000000000 ∧
    (openReply x.c.H x.c.fmt x.c.ep ((demoTwReply 0 demoTwRcv).take (TwoWay.respLen x.c)) = .plain (demoTwReply 0 demoTwRcv)) ∧
    twPayloadSize x.c.fmt 0 = 41 := by
  obtain ⟨x, hx⟩ : ∃ x, demoTwRun demoTwCfg = some x := Option.isSome_iff_exists.1 (by decide +kernel)
  have key : (demoTwRun demoTwCfg).all (fun x => decide (
    (x.after (demoTwPasses.take 2)).phase = .receiving ∧ (x.after (demoTwPasses.take 3)).entries.length = 1 ∧
    total 1000000000 (x.after (demoTwPasses.take 2)).cur + 1000000 ≤ 102000000000 ∧
    (openReply x.c.H x.c.fmt x.c.ep ((demoTwReply 0 demoTwRcv).take (TwoWay.respLen x.c)) = .plain (demoTwReply 0 demoTwRcv)) ∧
    twPayloadSize x.c.fmt 0 = 41)) = true := by decide +kernel
  rw [hx] at key
  exact ⟨x, hx, of_decide_eq_true key⟩

/-! ### What fails -/

/-- **C67** fails when the stop signal is noticed inside a flush: packet 0, sent at 101.5 s, is recorded as lost at 101.6 s although the timeout is two
seconds. -/
theorem C67_stopped_in_flush :
    demoTwFinal [demoTwAt 1015, { demoTwAt 1016 with usr2 := fun _ => true }, { demoTwAt 1016 with stop1 := true }] (demoTwEnd 1016) =
      some ⟨.normal, [(0, true, 101)], [0], []⟩ := by decide +kernel

/-- **C68** fails: when the test ends before the first wait for replies is over, the result of the last flush has no value and is used all the same. Here the stop signal comes before the
first packet; or every packet is so late that it is skipped. -/
theorem C68_undefined :
    demoTwFinal [{ demoTwAt 1005 with stop1 := true }] (demoTwEnd 1005) = some ⟨.undef, [], [], []⟩ ∧
    demoTwFinal [demoTwAt 1100, demoTwAt 1100, demoTwAt 1100] (demoTwEnd 1100) = some ⟨.undef, [], [], [0, 1, 2]⟩ := by decide +kernel

/-- **C68** fails: in open mode one datagram, from any address, with a number above that of the last packet sent ends the test after one packet of three;
an invalid error estimate does the same. The results are marked as those of a normal test and have no record of the packet that was sent. -/
theorem C68_forged_end :
    demoTwFinal [demoTwAt 1015, demoTwGot (demoTwReply 7 demoTwRcv) 1016] (demoTwEnd 1016) = some ⟨.normal, [], [0], []⟩ ∧
    demoTwFinal [demoTwAt 1015, demoTwGot (put (demoTwReply 0 demoTwRcv) 13 [0]) 1016] (demoTwEnd 1016) = some ⟨.normal, [], [0], []⟩ ∧
    ∀ s : TwoWay.St, s.phase = .normal → TwoWay.ended s = some (1, true) := by
  refine ⟨by decide +kernel, by decide +kernel, fun s h => ?_⟩
  unfold TwoWay.ended
  rw [h]

/-- **C68** fails: a datagram that is too short, met while `errno` is `EINTR` during the wait after the last packet, ends the wait. Packets 1 and 2, sent at 102.5 s and
103.5 s, have no record, and the test ends at 103.6 s as a normal one. -/
theorem C68_short_end :
    demoTwFinal (demoTwPasses.take 8 ++ [demoTwGot [0] 1036]) (demoTwEnd 1036) =
      some ⟨.normal, [(0, false, 101), (0, false, 101)], [0, 1, 2], []⟩ := by decide +kernel

/-- **C68** fails: when a signal interrupts the sending of a packet, the process goes on with the next one but never counts that packet as sent, so nothing after it is given up:
no packet has a record, although the last was sent more than six seconds before the end. -/
theorem C68_interrupted :
    demoTwFinal [{ demoTwAt 1015 with send := .intr }, demoTwAt 1025, demoTwAt 1029, demoTwAt 1035, demoTwAt 1100] (demoTwEnd 1100) =
      some ⟨.normal, [], [0, 1, 2], []⟩ := by decide +kernel

/-- Non-vacuity for `C68_interrupt_marked`: an interrupted test. -/
example : (demoTwRun demoTwCfg).map (fun x => ((x.after [demoTwAt 1015, demoTwAt 1016, { demoTwAt 1017 with stop1 := true }]).phase,
    (x.final [demoTwAt 1015, demoTwAt 1016, { demoTwAt 1017 with stop1 := true }] { demoTwEnd 1017 with int := true }).phase)) = some (.finish, .error) := by decide +kernel

/-- A packet that is skipped has no record of any kind: the results of a normal test tell nothing of packet 0. -/
theorem C68_skipped_unrecorded :
    demoTwFinal [demoTwAt 1035, demoTwAt 1035, demoTwAt 1036, demoTwAt 1036, demoTwAt 1100] (demoTwEnd 1100) =
      some ⟨.normal, [(1, true, 110), (2, true, 110)], [1, 2], [0]⟩ := by decide +kernel

/-- **C69** fails for readers of the results: a reply whose time of receipt at the reflector is 0 is recorded as a reply, but every reader that tests the record of the way out for loss
(`OWPIsLostRecord`, api.c:3743) takes it for a lost packet. -/
theorem C69_zero_time :
    (demoTwRun demoTwCfg).map (fun x => (x.after [demoTwAt 1015, demoTwGot (demoTwReply 0 0) 1016]).entries.map fun a =>
      (noReply a, decide (a.data.sent.recv.owptime = 0))) = some [(false, true)] := by decide +kernel

private theorem reflect_length {H : Mac} {f : Fmt} {e : Ep} {buf : Bytes} {len : Nat} {i : U32} {rcv now : TimeStamp} {ttl : Byte} {r : Bytes}
    (h : reflect H f e buf len i rcv now ttl = some r) : r.length ≤ max len (twPayloadSize f 0) := by
  unfold reflect at h
  cases f with
  | clear => simp only [Option.some.injEq] at h; rw [← h]; exact get_length_le _ _ _
  | auth =>
    obtain ⟨c, _, h⟩ := Option.map_eq_some_iff.1 h
    rw [← h]; exact get_length_le _ _ _
  | enc =>
    obtain ⟨c, _, h⟩ := Option.bind_eq_some_iff.1 h
    obtain ⟨c', _, h⟩ := Option.map_eq_some_iff.1 h
    rw [← h]; exact get_length_le _ _ _

/-- **C69** fails for every session with padding: the reply of the project's own reflector is shorter than what is asked for, so when it
comes with an `errno` other than `EINTR`, the process ends the test instead of recording it, in every mode. (`errno` is a leftover of earlier calls: a
successful receive does not set it.) -/
theorem C69_padded (c : TwoWay.Cfg) (n : Nat) (hn : 0 < n) (hl : c.len = payloadSize c.fmt n) (H : Mac) (e : Ep) (buf : Bytes) (k : U32)
    (rcv now : TimeStamp) (ttl : Byte) (reply : Bytes) (hr : reflect H c.fmt e buf c.len k rcv now ttl = some reply)
    (s : TwoWay.St) (t : Tick) (hs : s.phase = .receiving) (hi : s.i + 1 = c.npackets.toNat) (peer : Bytes) (ttl' : Byte)
    (hg : t.got = .dgram peer reply ttl' false) :
    (TwoWay.step c s t).phase = .finish ∧ (TwoWay.step c s t).entries = s.entries := by
  have h1 := reflect_length hr
  have h2 : twPayloadSize c.fmt 0 > payloadSize c.fmt 0 := by cases c.fmt <;> decide
  have h3 : payloadSize c.fmt n = payloadSize c.fmt 0 + n := by
    cases c.fmt <;> simp only [payloadSize]
  have h4 : reply.length < TwoWay.respLen c := by
    unfold TwoWay.respLen
    omega
  have h5 : (TwoWay.taken c t.got).all (fun g => decide (g.1.length ≠ TwoWay.respLen c)) = true := by
    rw [hg]
    simp only [TwoWay.taken, Option.all_some, decide_eq_true_eq, List.length_take]
    omega
  have h6 : t.got.eintr = false := by rw [hg]; rfl
  have h7 : ¬ s.i < c.npackets.toNat - 1 := by omega
  have hrcv : (TwoWay.receive c t s).phase = .finish ∧ (TwoWay.receive c t s).entries = s.entries := by
    unfold TwoWay.receive
    split
    · exact ⟨rfl, rfl⟩
    · dsimp only
      rw [if_pos (by rw [h5, h6]; rfl)]
      exact ⟨rfl, rfl⟩
  unfold TwoWay.step
  rw [hs]
  dsimp only
  unfold TwoWay.recvTurn
  rw [if_neg h7]
  split
  · exact ⟨rfl, rfl⟩
  · exact hrcv

/-- Non-vacuity: such a reply exists for a session with three bytes of padding (see `C57_example`), and here is a run it ends: one packet, an authentic reply, no record. -/
theorem C69_padded_example :
    ((demoTwRun { demoTwCfg with len := 17, npackets := 1, pad := fun _ => [1, 2, 3] }).bind fun x =>
      (reflect demoSendMac .clear {} (zeros 44) 17 0 ⟨demoTwRcv, true, 1, 1⟩ ⟨demoTwRcv, true, 1, 1⟩ 63).map fun r =>
        (r.length, TwoWay.respLen x.c, demoTwShow (x.final [demoTwAt 1015, { demoTwAt 1016 with got := .dgram [] r 63 false }] (demoTwEnd 1016)))) =
      some (41, 44, ⟨.undef, [], [0], []⟩) := by decide +kernel

end Owamp.Props
