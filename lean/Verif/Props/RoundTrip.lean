import Verif.Lemmas.RoundTrip
import Verif.Lemmas.ReceiverStored
import Verif.Lemmas.ReceiverOrder
import Verif.Spec.RoundTrip
import Verif.Props.Reflector
import Verif.Props.TwStats
/-!
# C98: from the sender to the reflector, back, and to the report
-/
namespace Owamp.Props
open Owamp.Num64 Owamp.Time Owamp.Pkt Owamp.Ctl Owamp.Codec Owamp.Spec Owamp.Spec.TwoWay Owamp.Spec.RoundTrip
open Owamp.TwoWay (Tick End Entry respLen heard)
open Owamp.Spec.Sender (nanos due)
open Owamp.Spec.Receiver (GoodClock schedTime unixNanos stampOf epoch)
open Owamp.Spec.Reflector (answers answered arrival Short)

/-- A two-way session: the client's test process with what it meets (`ts`, and `e` at its end), and the reflector with what it meets (`ps`). -/
structure TwoEnds where
  z : TwRun
  ts : List Tick
  e : End
  x : ReflRun
  ps : List Refl.Pass

namespace TwoEnds

/-- The client's state at its end: its results and what it handed to the network. -/
def final (w : TwoEnds) : TwoWay.St := w.z.final w.ts w.e

/-- The replies that left the reflector. -/
def replies (w : TwoEnds) : List Refl.Call := answers (w.x.after w.ps).calls

/-- The trips that ended at the client, in the order in which they ended. -/
def trips (w : TwoEnds) : List Trip := w.ts.filterMap (trip w.final.calls w.replies)

/-- Those that ended in time. -/
def good (w : TwoEnds) : List Trip := w.trips.filter (inTime w.z.c.timeout)

/-- The two ends have the same session: its mode, keys, identifier and packet size. -/
structure Agreed (w : TwoEnds) : Prop where
  mac : w.z.c.H = w.x.H
  format : w.z.c.fmt = w.x.fmt
  keys : ∃ send, w.z.c.ep = w.x.client send
  size : w.z.c.len = payloadSize w.x.fmt w.x.n
  padding : ∀ i, (w.z.c.pad i).length = w.x.n
  buf : w.z.buf.length = payloadSize w.z.c.fmt w.x.n

/-- Nothing from outside stops or disturbs the client: no signals, its timers and its clock work, the clock does not go back, no sending is interrupted or fails for good, records
can be written; a datagram is received only when the process waits for one, and has the expected size or comes with `errno` `EINTR`. It ends by
itself, when the timeout has passed since it sent its last packet. The session is before 2036 and the timeout is a nanosecond at least. -/
structure Undisturbed (w : TwoEnds) (ds : List Nat) : Prop where
  ok : w.z.Ok w.ts w.e
  delays : w.z.Delays ds
  start : w.z.c.begin = timestampToTimespec ⟨w.z.c.start, false, 0, 0⟩
  era : epoch ≤ w.z.c.start.toNat ∧ w.z.c.start.toNat + ds.sum < 2 ^ 64
  timeout : 1 ≤ nanos w.z.c.timeout.toNat
  written : ∀ l r, w.z.c.write l r = true
  calm : ∀ t ∈ w.ts, t.clock.isSome = true ∧ t.stop1 = false ∧ t.stop2 = false ∧ t.timer1 = true ∧ t.timer2 = true ∧ (∀ j, t.usr2 j = false) ∧
    (t.send ≠ .intr ∧ t.send ≠ .fatal) ∧ ∀ i, t.got = .fail i → i = true
  onward : (w.ts.filterMap (·.clock)).Pairwise fun r r' => total 1000000000 r.time ≤ total 1000000000 r'.time
  waited : ∀ pre t post, w.ts = pre ++ t :: post → ∀ peer bytes ttl i, t.got = .dgram peer bytes ttl i →
    (w.z.after pre).phase = .receiving ∧ Waits w.z.c ds (w.z.after pre) ∧ (respLen w.z.c ≤ bytes.length ∨ i = true)
  over : (w.z.after w.ts).phase = .finish ∧ w.final.phase = .normal
  usr2 : ∀ j, w.e.usr2 j = false
  last : ∃ r, w.e.clock = some r ∧ ∀ q ∈ w.final.calls, q.res ≠ .nobufs → Expired w.z.c q r.time

/-- The reflector's clock works in 1970 or later, and no datagram shorter than a packet comes to it while its `errno` is `EINTR`. -/
structure Reflecting (w : TwoEnds) : Prop where
  ok : w.x.Ok
  clock : ∀ p ∈ w.ps, ∀ r, p.clock = some r → GoodClock r
  whole : ∀ p ∈ w.ps, ¬ Short w.x.cfg p

/-- The network: it may lose, repeat, delay and reorder packets both ways, and others may send to the reflector from other addresses; but what comes to it from the client's
address is what the client handed over, and what comes to the client is a reply that the reflector handed over, to a packet that the client had handed over by then. -/
structure Network (w : TwoEnds) : Prop where
  out : ∀ p ∈ w.ps, ∀ bytes ttl i, p.got = .dgram w.x.remote bytes ttl i → ∃ q ∈ w.final.calls, q.res ≠ .nobufs ∧ q.bytes = bytes
  back : ∀ pre t post, w.ts = pre ++ t :: post → ∀ peer bytes ttl i, t.got = .dgram peer bytes ttl i →
    ∃ y ∈ w.replies, y.bytes = bytes ∧ ∃ q ∈ (w.z.after pre).calls, q.res ≠ .nobufs ∧ q.bytes = y.recvd

end TwoEnds

open TwoEnds

private theorem nanos_add (a b : Nat) : nanos (a + b) ≤ nanos a + nanos b + 1 := by
  unfold nanos
  omega

private theorem near (w : TwoEnds) (ds : List Nat) (h : w.Undisturbed ds) : TwoWay.Near w.z.c ds := by
  intro k _
  obtain ⟨e1, e2⟩ := h.era
  have hs : (ds.take (k + 1)).sum ≤ ds.sum := by
    have := List.sum_append (l₁ := ds.take (k + 1)) (l₂ := ds.drop (k + 1))
    rw [List.take_append_drop] at this
    omega
  have hlt : w.z.c.start.toNat + (ds.take (k + 1)).sum < 2 ^ 64 := Nat.lt_of_le_of_lt (Nat.add_le_add_left hs _) e2
  rw [tw_abs_sched]
  unfold unixNanos schedTime due
  rw [Nat.mod_eq_of_lt hlt, Recv.wrap_back _ _ (Nat.le_trans e1 (Nat.le_add_right _ _)) hlt,
    Nat.mod_eq_of_lt (Nat.lt_of_le_of_lt (Nat.le_add_left _ _) hlt)]
  have hb : total 1000000000 w.z.c.begin = nanos (w.z.c.start.toNat - epoch) := by
    rw [h.start]
    have := (Sender.nanos_eq (sub w.z.c.start.toNat (ulongToNum64 jan1970)) (Nat.mod_lt _ (by decide))).1
    unfold timestampToTimespec
    simp only
    have e : sub w.z.c.start.toNat (ulongToNum64 jan1970) = (w.z.c.start.toNat + 2 ^ 64 - epoch) % 2 ^ 64 := by rw [sub, u64]; rfl
    rw [this, e, Recv.wrap_back _ _ e1 w.z.c.start.isLt]
  rw [hb, show w.z.c.start.toNat + (ds.take (k + 1)).sum - epoch = (w.z.c.start.toNat - epoch) + (ds.take (k + 1)).sum by omega]
  have := nanos_add (w.z.c.start.toNat - epoch) (ds.take (k + 1)).sum
  have := h.timeout
  omega

private theorem after_snoc' (z : TwRun) (ts : List Tick) (t : Tick) : z.after (ts ++ [t]) = TwoWay.step z.c (z.after ts) t := by
  simp [TwRun.after, TwoWay.run]

private theorem calls_within (w : TwoEnds) (pre post : List Tick) (h : w.ts = pre ++ post) : ∀ q ∈ (w.z.after pre).calls, q ∈ w.final.calls := by
  intro q hq
  unfold TwoEnds.final TwRun.final
  rw [TwoWay.conclude_calls, h]
  obtain ⟨l, hl⟩ := TwoWay.run_grows w.z.c post (w.z.after pre)
  have : w.z.after (pre ++ post) = TwoWay.run w.z.c (w.z.after pre) post := by simp [TwRun.after, TwoWay.run]
  rw [this, hl]
  exact List.mem_append_left _ hq

private theorem lower (l : List Sender.Reading) : ∃ m : Int, ∀ r ∈ l, m ≤ total 1000000000 r.time := by
  induction l with
  | nil => exact ⟨0, fun r h => by cases h⟩
  | cons a l ih =>
    obtain ⟨m, hm⟩ := ih
    refine ⟨min m (total 1000000000 a.time), fun r hr => ?_⟩
    rcases List.mem_cons.1 hr with rfl | hr
    · exact Int.min_le_right _ _
    · exact Int.le_trans (Int.min_le_left _ _) (hm r hr)

/-- What every reply tells, and what it answers. -/
private theorem reply_tells (w : TwoEnds) (ha : w.Agreed) (hr : w.Reflecting) (hn : w.Network) (y : Refl.Call) (hy : y ∈ w.replies) :
    ∃ q ∈ w.final.calls, q.res ≠ .nobufs ∧ q.bytes = y.recvd ∧ stampOf y.came ≠ 0 ∧ y.num < 2 ^ 31 ∧
    ∀ q ∈ w.final.calls, q.bytes = y.recvd →
      twPayloadSize w.z.c.fmt 0 ≤ (y.bytes.take (respLen w.z.c)).length ∧
      ∃ B, openReply w.z.c.H w.z.c.fmt w.z.c.ep (y.bytes.take (respLen w.z.c)) = .plain B ∧
        (readReply w.z.c.fmt B).sndErr.valid = true ∧ (readReply w.z.c.fmt B).err.valid = true ∧
        (readReply w.z.c.fmt B).sndSeq = BitVec.ofNat 32 q.seq ∧ (readReply w.z.c.fmt B).sndTime = stampOf q.time ∧
        (readReply w.z.c.fmt B).rcvTime = stampOf y.came ∧ (readReply w.z.c.fmt B).ttl = y.ttl ∧
        (readReply w.z.c.fmt B).seq = BitVec.ofNat 32 y.num ∧ (readReply w.z.c.fmt B).time = stampOf y.time := by
  have hyc : y ∈ (w.x.after w.ps).calls := (List.mem_filter.1 hy).1
  obtain ⟨s1, s2⟩ := C71_answered w.x hr.ok w.ps
  obtain ⟨g1, g2⟩ := C71_genuine_partial w.x hr.ok w.ps hr.whole y hyc
  have hmem : answered y ∈ w.ps.filterMap (arrival w.x.cfg) := s1.subset (List.mem_map.2 ⟨y, hy, rfl⟩)
  obtain ⟨p, hp, hpa⟩ := List.mem_filterMap.1 hmem
  obtain ⟨send, hk⟩ := ha.keys
  have und := C70_understood w.z w.ts w.e w.x.mode (by rw [ha.format]; exact hr.ok.fmt) send w.x.send w.x.aes w.x.hmac w.x.sid hr.ok.key hk w.x.n ha.padding ha.buf
  unfold arrival at hpa
  split at hpa
  · rename_i peer bytes ttl i r hgot hclk
    injection hpa with hpa
    have d1 : peer = w.x.remote := by have := congrArg Spec.Reflector.Arrived.peer hpa; exact this.trans (s2 y hyc)
    have d2 : bytes.take w.x.cfg.len = y.recvd := congrArg Spec.Reflector.Arrived.bytes hpa
    have d3 : r.time = y.came := congrArg Spec.Reflector.Arrived.at' hpa
    subst d1
    obtain ⟨q0, q1, q2, q3⟩ := hn.out p hp bytes ttl i hgot
    have hl0 := (und q0 q1).1
    rw [ha.format] at hl0
    refine ⟨q0, q1, q2, ?_, ?_, C71_number_fits w.x hr.ok w.ps y hyc, fun q hq hqb => ?_⟩
    · rw [← d2, ← q3]
      exact (List.take_of_length_le (Nat.le_of_eq hl0)).symm
    · rw [← d3]
      exact (hr.clock p hp r hclk).2.2
    · obtain ⟨P, p1, p2, p3⟩ := C71_contents w.x hr.ok w.ps send y hyc
      rw [g1, ← hqb] at p1
      obtain ⟨u1, P', u2, u3, u4, u5⟩ := und q hq
      rw [ha.mac, ha.format] at u2
      rw [ha.format] at u4 u5
      have e : P' = P := by
        have := u2.symm.trans p1
        cases this; rfl
      subst e
      obtain ⟨B, err, b1, b2, b3⟩ := p3 []
      have hlen : y.bytes.take (respLen w.z.c) = y.bytes := by
        apply List.take_of_length_le
        rw [p2]
        unfold TwoWay.respLen
        rw [ha.format, ha.size]
        have : payloadSize w.x.fmt 0 ≤ payloadSize w.x.fmt w.x.n := by cases w.x.fmt <;> simp only [payloadSize] <;> omega
        omega
      rw [hlen, ha.mac, ha.format, hk]
      rw [List.append_nil] at b1
      refine ⟨by rw [p2]; omega, B, b1, ?_⟩
      rw [b2]
      exact ⟨u5, b3, u3, u4, rfl, rfl, rfl, rfl⟩
  · cases hpa

private theorem find_some {α} (p : α → Bool) (l : List α) (a : α) (h : a ∈ l) (hp : p a = true) : ∃ b, l.find? p = some b ∧ b ∈ l ∧ p b = true := by
  cases hf : l.find? p with
  | none => exact (List.find?_eq_none.1 hf a h hp).elim
  | some b => exact ⟨b, rfl, List.mem_of_find?_eq_some hf, List.find?_some hf⟩

/-- A packet is handed over once at most, and has a number below that of the packets of the session. -/
private theorem sent_once (w : TwoEnds) (ds : List Nat) (hu : w.Undisturbed ds) (q q' : TwoWay.Call) (h : q ∈ w.final.calls) (h' : q' ∈ w.final.calls)
    (hr : q.res ≠ .nobufs) (hr' : q'.res ≠ .nobufs) : q.seq < w.z.c.npackets.toNat ∧ (q.seq = q'.seq → q = q') := by
  obtain ⟨_, m, _, h1, h2, h3⟩ := C70_sent w.z w.ts w.e hu.ok
  have m1 : q ∈ handed q.seq w.final.calls := List.mem_filter.2 ⟨h, by simpa using hr⟩
  have hd : (w.z.final w.ts w.e).phase ≠ .dead := by rw [show (w.z.final w.ts w.e).phase = .normal from hu.over.2]; decide
  rcases Nat.lt_or_ge q.seq m with hm | hm
  · refine ⟨Nat.lt_of_lt_of_le hm h1, fun he => ?_⟩
    have m2 : q' ∈ handed q.seq w.final.calls := List.mem_filter.2 ⟨h', by simpa using ⟨he.symm, hr'⟩⟩
    rcases h2 _ hm with ⟨z, z1, _⟩ | ⟨z1, _⟩
    · have z1' : handed q.seq w.final.calls = [z] := z1
      rw [z1', List.mem_singleton] at m1 m2
      rw [m1, m2]
    · have z1' : handed q.seq w.final.calls = [] := z1
      rw [z1'] at m1; cases m1
  · have := (h3 _ hm).2 hd
    have z1' : handed q.seq w.final.calls = [] := this
    rw [z1'] at m1; cases m1

private theorem ofNat32_inj {a b : Nat} (ha : a < 2 ^ 32) (hb : b < 2 ^ 32) (h : BitVec.ofNat 32 a = BitVec.ofNat 32 b) : a = b := by
  have := congrArg BitVec.toNat h
  rwa [BitVec.toNat_ofNat, BitVec.toNat_ofNat, Nat.mod_eq_of_lt ha, Nat.mod_eq_of_lt hb] at this

/-- What the client reads in a pass is a trip, of a packet it had sent. -/
private theorem trip_of (w : TwoEnds) (ds : List Nat) (ha : w.Agreed) (hu : w.Undisturbed ds) (hr : w.Reflecting) (hn : w.Network)
    (pre post : List Tick) (t : Tick) (h : w.ts = pre ++ t :: post) (peer bytes : Bytes) (ttl : Byte) (i : Bool) (hgot : t.got = .dgram peer bytes ttl i)
    (r : Sender.Reading) (hclk : t.clock = some r) :
    ∃ y ∈ w.replies, ∃ q ∈ (w.z.after pre).calls, q.res ≠ .nobufs ∧ y.bytes = bytes ∧ q.bytes = y.recvd ∧
      trip w.final.calls w.replies t = some ⟨q.seq, q.time, y.came, y.ttl, y.num, y.time, r.time, ttl⟩ := by
  obtain ⟨y0, a1, a2, q0, a3, a4, a5⟩ := hn.back pre t post h peer bytes ttl i hgot
  obtain ⟨y, b1, b2, b3⟩ := find_some (fun y : Refl.Call => decide (y.bytes = bytes)) w.replies y0 a1 (decide_eq_true a2)
  have b3 := of_decide_eq_true b3
  obtain ⟨q1, c1, c2, c3, _, _, c4⟩ := reply_tells w ha hr hn y b2
  obtain ⟨q, d1, d2, d3⟩ := find_some (fun q : TwoWay.Call => decide (q.res ≠ .nobufs ∧ q.bytes = y.recvd)) w.final.calls q1 c1 (decide_eq_true ⟨c2, c3⟩)
  have d3 := of_decide_eq_true d3
  have ht : trip w.final.calls w.replies t = some ⟨q.seq, q.time, y.came, y.ttl, y.num, y.time, r.time, ttl⟩ := by
    unfold trip
    rw [hgot, hclk]
    simp only
    rw [b1]
    simp only [Option.bind_some]
    rw [d1]
    rfl
  have hq0 : q0 ∈ w.final.calls := calls_within w pre (t :: post) h q0 a3
  have e : q = q0 := by
    obtain ⟨_, _, _, _, _, _, e0⟩ := reply_tells w ha hr hn y0 a1
    obtain ⟨_, B0, f1, _, _, f2, _⟩ := e0 q0 hq0 a5
    obtain ⟨_, B, g1, _, _, g2, _⟩ := c4 q d2 d3.2
    rw [a2, ← b3, g1] at f1
    injection f1 with f1
    rw [← f1, g2] at f2
    have n1 := (sent_once w ds hu q q0 d2 hq0 d3.1 a4)
    have n2 := (sent_once w ds hu q0 q0 hq0 hq0 a4 a4).1
    have := w.z.c.npackets.isLt
    exact n1.2 (ofNat32_inj (Nat.lt_trans n1.1 this) (Nat.lt_trans n2 this) f2)
  rw [e] at ht d3
  exact ⟨y, b2, q0, a3, a4, b3, d3.2, ht⟩

/-- The client, pass by pass. -/
private theorem upto (w : TwoEnds) (ds : List Nat) (ha : w.Agreed) (hu : w.Undisturbed ds) (hr : w.Reflecting) (hn : w.Network) (pre : List Tick) :
    ∀ post, w.ts = pre ++ post → ∃ b m last, TwoWay.Inv w.z.c ds True (fun _ => True) (fun _ => True) b m (w.z.after pre) ∧
      TwoWay.Tide w.z.c ds (w.z.after pre) last ∧ TwoWay.Gone w.z.c b (w.z.after pre) last ∧ (∀ r ∈ post.filterMap (·.clock), last ≤ total 1000000000 r.time) ∧
      (heard (w.z.after pre).entries).map (fun a => told a.data) =
        ((pre.filterMap (trip w.final.calls w.replies)).filter (inTime w.z.c.timeout)).map truth := by
  induction pre using List.reverseRecOn with
  | nil =>
    intro post h
    obtain ⟨last, hlast⟩ := lower (post.filterMap (·.clock))
    obtain ⟨ds', h1, h2, h3⟩ := C06_schedule w.z.c.E w.z.sid _ w.z.c0 hu.ok.sched
    have hds : ds' = ds := List.ext_getElem (by rw [h2, hu.delays.2])
      (fun n hn hn' => C06_spec_unique w.z.c.E w.z.sid w.z.slots 0 0 ds' ds h3 hu.delays.1 n hn hn')
    subst hds
    have hi := (TwoWay.init_spec w.z.c True (fun _ => True) (fun _ => True) w.z.sid w.z.slots w.z.c0 hu.ok.sched w.z.ops w.z.buf w.z.stamp w.z.rtime ds' h1 h2).1
    obtain ⟨e1, e2, e3⟩ := TwoWay.init_empty w.z.c (Sched.run w.z.c.E w.z.c0 w.z.ops) w.z.buf w.z.stamp w.z.rtime
    obtain ⟨t1, t2⟩ := TwoWay.Tide.empty (c := w.z.c) (ds := ds') e1 e2 last
    refine ⟨0, 0, last, hi, t1, t2 0, hlast, ?_⟩
    show (heard (TwoWay.init w.z.c (Sched.run w.z.c.E w.z.c0 w.z.ops) w.z.buf w.z.stamp w.z.rtime).entries).map _ = _
    rw [e3]
    rfl
  | append_singleton pre t ih =>
    intro post h
    rw [List.append_assoc] at h
    obtain ⟨b, m, last, i1, i2, i3, i4, i5⟩ := ih _ h
    have htm : t ∈ w.ts := by rw [h]; simp
    obtain ⟨c1, c2, c3, c4, c5, c6, c7, c8⟩ := hu.calm t htm
    obtain ⟨r, hclk⟩ := Option.isSome_iff_exists.1 c1
    have hl : last ≤ total 1000000000 r.time := i4 r (by simp [hclk])
    have hsm : TwoWay.Smooth w.z.c ds (w.z.after pre) t r := ⟨hclk, c2, c3, c4, c5, c6, c7, c8, hu.waited pre t post h⟩
    obtain ⟨b', m', j1, j2, j3, j4⟩ := TwoWay.step_tide hu.delays.2 hu.ok.start (near w ds hu) i1 trivial t trivial r hsm ⟨trivial, hu.ok.clocks t htm r hclk⟩ hu.written i2 i3 hl
    rw [after_snoc']
    refine ⟨b', m', _, j1, j2, j3, ?_, ?_⟩
    · intro r' hr'
      have ho := hu.onward
      rw [h, List.filterMap_append, List.filterMap_append] at ho
      have := (List.pairwise_append.1 (List.pairwise_append.1 ho).2.1).2.2 r (by simp [hclk]) r' hr'
      exact this
    · rw [List.filterMap_append, List.filter_append, List.map_append, ← i5]
      cases hg : t.got with
      | fail i =>
        rw [j4.1 i hg]
        have : trip w.final.calls w.replies t = none := by unfold trip; rw [hg]
        simp [this]
      | dgram peer bytes ttl i =>
        obtain ⟨y, y1, q, q1, q2, y2, q3, ht⟩ := trip_of w ds ha hu hr hn pre post t h peer bytes ttl i hg r hclk
        obtain ⟨_, _, _, _, _, _, e0⟩ := reply_tells w ha hr hn y y1
        have hqf := calls_within w pre (t :: post) h q q1
        obtain ⟨f1, B, f2, f3, f4, f5, f6, f7, f8, f9, f10⟩ := e0 q hqf q3
        rw [y2] at f1 f2
        have hn1 := (sent_once w ds hu q q hqf hqf q2 q2).1
        have hn2 := Nat.lt_trans hn1 w.z.c.npackets.isLt
        have hnum := C71_number_fits w.x hr.ok w.ps y (List.mem_filter.1 y1).1
        have hcount : counted q := by
          have := i2.whole q q1
          unfold counted
          cases hres : q.res <;> simp_all
        have hseq : q.seq = (readReply w.z.c.fmt B).sndSeq.toNat := by
          rw [f5, BitVec.toNat_ofNat, Nat.mod_eq_of_lt hn2]
        obtain ⟨k1, k2⟩ := j4.2 peer bytes ttl i B q hg f1 f2 f3 f4 q1 hcount hseq
        have hf : [t].filterMap (trip w.final.calls w.replies) = [⟨q.seq, q.time, y.came, y.ttl, y.num, y.time, r.time, ttl⟩] := by
          rw [List.filterMap_cons, ht]; rfl
        rw [hf]
        by_cases hx : Expired w.z.c q r.time
        · rw [k1 hx]
          have : inTime w.z.c.timeout ⟨q.seq, q.time, y.came, y.ttl, y.num, y.time, r.time, ttl⟩ = false :=
            decide_eq_false (Int.not_le.2 hx)
          simp [this]
        · obtain ⟨rt, t1, t2⟩ := k2 hx
          have : inTime w.z.c.timeout ⟨q.seq, q.time, y.came, y.ttl, y.num, y.time, r.time, ttl⟩ = true :=
            decide_eq_true (Int.not_lt.1 hx)
          rw [t2, List.map_append, List.filter_cons, if_pos this]
          congr 1
          simp only [List.map_cons, List.map_nil, List.filter_nil, told, truth, TwoWay.replyRec]
          rw [f6, f7, f8, f9, f10, t1, ← hseq, BitVec.toNat_ofNat, Nat.mod_eq_of_lt (Nat.lt_trans hnum (by decide))]

private theorem final_calls (w : TwoEnds) : w.final.calls = (w.z.after w.ts).calls := by
  unfold TwoEnds.final TwRun.final
  rw [TwoWay.conclude_calls]

private theorem same_delays' (z : TwRun) (ds ds' : List Nat) (h : z.Delays ds) (h' : z.Delays ds') : ds' = ds :=
  List.ext_getElem (by rw [h'.2, h.2]) (fun n hn hn' => C06_spec_unique z.c.E z.sid z.slots 0 0 ds' ds h'.1 h.1 n hn hn')

private theorem handed_ne {k : Nat} {calls : List TwoWay.Call} : handed k calls ≠ [] ↔ ∃ q ∈ calls, q.seq = k ∧ q.res ≠ .nobufs := by
  have key : ∀ q, q ∈ handed k calls ↔ q ∈ calls ∧ q.seq = k ∧ q.res ≠ .nobufs := by
    intro q
    unfold handed
    simp only [List.mem_filter, Bool.and_eq_true, decide_eq_true_eq]
  constructor
  · intro h
    obtain ⟨q, hq⟩ := List.exists_mem_of_ne_nil _ h
    exact ⟨q, (key q).1 hq⟩
  · rintro ⟨q, hq⟩
    exact List.ne_nil_of_mem ((key q).2 hq)

/-! ## The results -/

/-- **C98**, the results of the client: its records of replies are, in order, the true accounts of the trips that ended in time; and it has one record of the loss of a packet
exactly if the packet was handed to the network and no trip of it ended in time. -/
theorem C98_records (w : TwoEnds) (ds : List Nat) (ha : w.Agreed) (hu : w.Undisturbed ds) (hr : w.Reflecting) (hn : w.Network) :
    (w.final.entries.filter fun a => !noReply a).map (fun a => told a.data) = w.good.map truth ∧
    ∀ k, (lostFor k w.final.entries).length = if handed k w.final.calls ≠ [] ∧ ∀ p ∈ w.good, p.packet ≠ k then 1 else 0 := by
  obtain ⟨b, m, last, i1, i2, _, _, i5⟩ := upto w ds ha hu hr hn w.ts [] (by rw [List.append_nil])
  have hh : (w.final.entries.filter fun a => !noReply a).map (fun a => told a.data) = w.good.map truth := by
    have : heard w.final.entries = heard (w.z.after w.ts).entries := (TwoWay.conclude_heard w.e (w.z.after w.ts)).1
    exact (congrArg (List.map fun a => told a.data) this).trans i5
  refine ⟨hh, fun k => ?_⟩
  have got : gotFor k w.final.entries ≠ [] ↔ ∃ p ∈ w.good, p.packet = k := by
    constructor
    · intro h
      obtain ⟨a, ha⟩ := List.exists_mem_of_ne_nil _ h
      obtain ⟨a1, a2⟩ := List.mem_filter.1 ha
      rw [Bool.and_eq_true, decide_eq_true_eq] at a2
      have : told a.data ∈ w.good.map truth := by
        rw [← hh]
        exact List.mem_map.2 ⟨a, List.mem_filter.2 ⟨a1, a2.2⟩, rfl⟩
      obtain ⟨p, p1, p2⟩ := List.mem_map.1 this
      exact ⟨p, p1, (congrArg Told.packet p2).trans a2.1⟩
    · rintro ⟨p, p1, p2⟩
      have : truth p ∈ (w.final.entries.filter fun a => !noReply a).map (fun a => told a.data) := by
        rw [hh]; exact List.mem_map.2 ⟨p, p1, rfl⟩
      obtain ⟨a, a1, a2⟩ := List.mem_map.1 this
      obtain ⟨a3, a4⟩ := List.mem_filter.1 a1
      have a5 : a.data.sent.seq.toNat = k := (congrArg Told.packet a2).trans p2
      intro h
      exact List.filter_eq_nil_iff.1 h a a3 (by rw [Bool.and_eq_true]; exact ⟨decide_eq_true a5, a4⟩)
  obtain ⟨v1, v2⟩ := (C67_one_verdict w.z w.ts w.e hu.ok).1 k
  split
  · rename_i hk
    obtain ⟨q, q1, q2, q3⟩ := handed_ne.1 hk.1
    have hw := i2.whole q (by rw [← final_calls]; exact q1)
    have hcount : counted q := by
      unfold counted
      cases hres : q.res <;> simp_all
    obtain ⟨re, e1, e2⟩ := hu.last
    obtain ⟨ds', d1, d2⟩ := C68_complete_partial w.z w.ts w.e hu.ok ⟨fun t ht => (hu.calm t ht).2.2.2.2.2.1, hu.usr2⟩ hu.over.1 hu.over.2 re e1
    have e := same_delays' w.z ds ds' hu.delays d1
    subst e
    rcases d2 q q1 hcount with hv | ⟨j, j1, ⟨y, y1, y2, y3, y4⟩ | ⟨j2, j3⟩ | ⟨y, y1, _, y3⟩⟩
    · rw [q2] at hv
      rcases hv with hv | hv
      · exact hv.1
      · obtain ⟨p, p1, p2⟩ := got.1 hv.2
        exact (hk.2 p p1 p2).elim
    · exact (y4 (e2 y y1 (TwoWay.counted_sent y3))).elim
    · have hm : j ∈ (w.z.after w.ts).missed := by
        have := (TwoWay.conclude_heard (c := w.z.c) w.e (w.z.after w.ts)).2
        rw [← this]; exact j2
      have hqa : q ∈ (w.z.after w.ts).calls := by rw [← final_calls]; exact q1
      have hne : q.seq ∉ (w.z.after w.ts).missed :=
        (TwoWay.unique_call i1.1 (by rw [hu.over.1]; decide) hqa hqa q3 q3 rfl).2.2
      have hlt : j < q.seq := by
        rcases Nat.lt_or_eq_of_le j1 with h | h
        · exact h
        · rw [← h] at hne; exact (hne hm).elim
      have b1 := i2.missedBefore j hm q hqa hlt
      have b2 := e2 q q1 q3
      have b3 := near w ds' hu j (Nat.lt_trans hlt (sent_once w ds' hu q q q1 q1 q3 q3).1)
      rw [tw_abs_sched] at b3
      unfold Expired at b2
      exact (j3 (by omega)).elim
    · exact ((i2.whole y (by rw [← final_calls]; exact y1)).1 y3).elim
  · rename_i hk
    rw [List.length_eq_zero_iff]
    apply Classical.byContradiction
    intro hne
    apply hk
    have hg := v2 hne
    refine ⟨?_, fun p p1 p2 => got.2 ⟨p, p1, p2⟩ hg⟩
    obtain ⟨a, ha⟩ := List.exists_mem_of_ne_nil _ hne
    obtain ⟨a1, a2⟩ := List.mem_filter.1 ha
    rw [Bool.and_eq_true, decide_eq_true_eq] at a2
    obtain ⟨_, _, hl⟩ := C67_lost_partial w.z w.ts w.e hu.ok
    obtain ⟨_, _, y, y1, y2, y3, _⟩ := hl a a1 a2.2
    exact handed_ne.2 ⟨y, y1, y2.trans a2.1, TwoWay.counted_sent y3⟩

/-! ## The report -/

/-- The records as they are read back from the file. -/
def readBack (a : Entry) : Option TWDataRec := (encodeTWDataRec a.data).bind (decodeTWDataRec 131)

private def storedTW (r : TWDataRec) : TWDataRec := ⟨stored r.sent, stored r.reflected⟩

private theorem readBack_eq (a : Entry) (r : TWDataRec) (h : readBack a = some r) : r = storedTW a.data := by
  unfold readBack at h
  have he : encodeTWDataRec (storedTW a.data) = encodeTWDataRec a.data := by
    unfold encodeTWDataRec storedTW
    rw [stored_encode, stored_encode]
  obtain ⟨bytes, h1, h2⟩ := Option.bind_eq_some_iff.1 h
  have hs : (encodeDataRec a.data.sent).isSome = true ∧ (encodeDataRec a.data.reflected).isSome = true := by
    unfold encodeTWDataRec at h1
    cases e1 : encodeDataRec a.data.sent with
    | none => rw [e1] at h1; cases h1
    | some x =>
      cases e2 : encodeDataRec a.data.reflected with
      | none => rw [e1, e2] at h1; cases h1
      | some y => exact ⟨rfl, rfl⟩
  obtain ⟨s1, s2⟩ := stored_stamp _ hs.1
  obtain ⟨s3, s4⟩ := stored_stamp _ hs.2
  obtain ⟨l1, l2⟩ := C12_twoway_record_partial (storedTW a.data) s1 s2 s3 s4
  rw [he, h1] at l1
  injection l1 with l1
  rw [← l1, h2] at l2
  injection l2

private theorem count_eq (l : List Nat) (hl : l.Nodup) (n : Nat) (p : Nat → Bool) (h : ∀ k, k ∈ l ↔ k < n ∧ p k = true) : l.length = Spec.Stats.packets n p := by
  unfold Spec.Stats.packets
  rw [List.countP_eq_length_filter]
  apply List.Perm.length_eq
  rw [List.perm_ext_iff_of_nodup hl (List.nodup_range.filter p)]
  intro k
  rw [h, List.mem_filter, List.mem_range]

private theorem firsts_nodup (key : TWDataRec → Nat) (D : List TWDataRec) : ((Spec.TwStats.firsts key D).map key).Nodup := by
  induction D using List.reverseRecOn with
  | nil => exact List.nodup_nil
  | append_singleton D r ih =>
    by_cases h : ∃ x ∈ D, key x = key r
    · rw [TwStats.firsts_old key D r h]; exact ih
    · rw [TwStats.firsts_new key D r h, List.map_append]
      refine List.nodup_append.2 ⟨ih, by simp, fun a ha b hb => ?_⟩
      rw [List.map_singleton, List.mem_singleton] at hb
      subst hb
      rintro rfl
      obtain ⟨x, x1, x2⟩ := List.mem_map.1 ha
      exact h ((TwStats.firsts_key key D _).1 ⟨x, x1, x2⟩)

private theorem firsts_mem (key : TWDataRec → Nat) (D : List TWDataRec) (k : Nat) : k ∈ (Spec.TwStats.firsts key D).map key ↔ k ∈ D.map key := by
  rw [List.mem_map, List.mem_map]
  exact TwStats.firsts_key key D k

private theorem firsts_different (key : TWDataRec → Nat) (D : List TWDataRec) (f : Trip → Nat) (l : List Trip) (h : D.map key = l.map f) :
    (Spec.TwStats.firsts key D).length = different f l := by
  unfold different
  rw [← List.length_map (f := key)]
  apply List.Perm.length_eq
  rw [List.perm_ext_iff_of_nodup (firsts_nodup key D) (List.nodup_dedup _)]
  intro k
  rw [firsts_mem, List.mem_dedup, h]

private theorem records_tell (w : TwoEnds) (ds : List Nat) (ha : w.Agreed) (hu : w.Undisturbed ds) (hr : w.Reflecting) (hn : w.Network)
    (rs : List TWDataRec) (hrs : w.final.entries.map readBack = rs.map some) :
    (∀ p ∈ w.good, stampOf p.came ≠ 0 ∧ handed p.packet w.final.calls ≠ []) ∧
    (∀ r ∈ rs, Spec.TwStats.seqOf r < w.z.c.npackets.toNat) ∧
    Spec.TwStats.losses rs = (w.final.entries.filter noReply).map (fun a => storedTW a.data) ∧
    (Spec.TwStats.replies rs).map told = w.good.map truth ∧ Spec.TwStats.LossOnce rs := by
  obtain ⟨r1, r2⟩ := C98_records w ds ha hu hr hn
  have hrs' : rs = w.final.entries.map fun a => storedTW a.data := by
    apply List.ext_getElem
    · have := congrArg List.length hrs
      simpa using this.symm
    · intro n n1 n2
      rw [List.getElem_map]
      have h1 : n < (w.final.entries.map readBack).length := by rw [hrs]; simpa using n1
      have h2 : (w.final.entries.map readBack)[n] = (rs.map some)[n]'(by simpa using n1) := by simp only [hrs]
      rw [List.getElem_map, List.getElem_map] at h2
      exact readBack_eq _ _ h2
  obtain ⟨dl, _, hlost⟩ := C67_lost_partial w.z w.ts w.e hu.ok
  obtain ⟨v1, v2, v3⟩ := C67_one_verdict w.z w.ts w.e hu.ok
  have came : ∀ p ∈ w.good, stampOf p.came ≠ 0 ∧ handed p.packet w.final.calls ≠ [] := by
    intro p hp
    obtain ⟨t, _, ht⟩ := List.mem_filterMap.1 (List.mem_filter.1 hp).1
    unfold trip at ht
    split at ht
    · obtain ⟨y, y1, y2⟩ := Option.bind_eq_some_iff.1 ht
      obtain ⟨q, q1, q2⟩ := Option.map_eq_some_iff.1 y2
      obtain ⟨_, _, _, _, hcame, _⟩ := reply_tells w ha hr hn y (List.mem_of_find?_eq_some y1)
      have hq := List.find?_some q1
      rw [decide_eq_true_eq] at hq
      rw [← q2]
      exact ⟨hcame, handed_ne.2 ⟨q, List.mem_of_find?_eq_some q1, rfl, hq.1⟩⟩
    · cases ht
  have lostIff : ∀ a ∈ w.final.entries, (Spec.TwStats.Lost (storedTW a.data) ↔ noReply a = true) := by
    intro a h
    cases hna : noReply a with
    | true => exact ⟨fun _ => rfl, fun _ => (hlost a h hna).1.2.1⟩
    | false =>
      refine ⟨fun hl => ?_, fun hf => by cases hf⟩
      have : told a.data ∈ w.good.map truth := by
        rw [← r1]
        exact List.mem_map.2 ⟨a, List.mem_filter.2 ⟨h, by rw [hna]; rfl⟩, rfl⟩
      obtain ⟨p, p1, p2⟩ := List.mem_map.1 this
      have hca : stampOf p.came = a.data.sent.recv.owptime := by
        have := congrArg Told.came p2
        simpa only [truth, told] using this
      exact ((came p p1).1 (hca.trans hl)).elim
  have hbelow : ∀ r ∈ rs, Spec.TwStats.seqOf r < w.z.c.npackets.toNat := by
    intro r hr
    rw [hrs'] at hr
    obtain ⟨a, a1, rfl⟩ := List.mem_map.1 hr
    exact show a.data.sent.seq.toNat < w.z.c.npackets.toNat from (v3 a a1).1
  have hlosses : Spec.TwStats.losses rs = (w.final.entries.filter noReply).map fun a => storedTW a.data := by
    unfold Spec.TwStats.losses
    rw [hrs', List.filter_map]
    congr 1
    apply List.filter_congr
    intro a h
    have := lostIff a h
    simp only [Function.comp]
    cases hna : noReply a <;> simp_all
  have hreplies : Spec.TwStats.replies rs = (w.final.entries.filter fun a => !noReply a).map fun a => storedTW a.data := by
    unfold Spec.TwStats.replies
    rw [hrs', List.filter_map]
    congr 1
    apply List.filter_congr
    intro a h
    have := lostIff a h
    simp only [Function.comp]
    cases hna : noReply a <;> simp_all
  have htold : (Spec.TwStats.replies rs).map told = w.good.map truth := by
    rw [hreplies, List.map_map, ← r1]
    rfl
  refine ⟨came, hbelow, hlosses, htold, ?_⟩
  unfold Spec.TwStats.LossOnce
  rw [hlosses, List.pairwise_map]
  exact v2.imp fun h => Nat.ne_of_lt h

/-- **C98**, the file: the records of replies that are read back from the client's file tell, one after the other, of the trips that ended in time; no record is of a packet that the
session does not have, and no packet is recorded as lost twice. -/
theorem C98_told (w : TwoEnds) (ds : List Nat) (ha : w.Agreed) (hu : w.Undisturbed ds) (hr : w.Reflecting) (hn : w.Network)
    (rs : List TWDataRec) (hrs : w.final.entries.map readBack = rs.map some) :
    (Spec.TwStats.replies rs).map told = w.good.map truth ∧ (∀ r ∈ rs, Spec.TwStats.seqOf r < w.z.c.npackets.toNat) ∧ Spec.TwStats.LossOnce rs :=
  have h := records_tell w ds ha hu hr hn rs hrs
  ⟨h.2.2.2.1, h.2.1, h.2.2.2.2⟩

/-- **C98**, the report. When all packets of such a session are summarised from the client's file, `sent` is the number of packets handed to the network, `lost` the number of
those without a trip that ended in time; the duplicates of the way out are the different replies in time beyond one for each packet, those of the way back the copies of replies in time beyond one for
each reply; and the least and greatest delay of the way out, of the way back and of the time at the reflector are those of the trips in time, computed from the clocks of the two ends. -/
theorem C98_report (w : TwoEnds) (ds : List Nat) (ha : w.Agreed) (hu : w.Undisturbed ds) (hr : w.Reflecting) (hn : w.Network)
    (rs : List TWDataRec) (hrs : w.final.entries.map readBack = rs.map some) (hlen : rs.length < 2 ^ 32)
    (c : TwStats.Cfg) (h0 : 0 < w.z.c.npackets.toNat) (hc : c.npackets = w.z.c.npackets) (hsk : c.skips = []) (oset : Nat) (s : TwStats.St)
    (hp : TwStats.parse c rs oset 0 (2 ^ 32 - 1) = .ok s) (delay : U64 → U64 → Int) (hdel : ∀ a b, c.delay a b = delay a.owptime b.owptime) :
    s.sent = Spec.Stats.packets w.z.c.npackets.toNat (fun k => decide (handed k w.final.calls ≠ [])) ∧
    s.lost = Spec.Stats.packets w.z.c.npackets.toNat (fun k => decide (handed k w.final.calls ≠ [] ∧ ∀ p ∈ w.good, p.packet ≠ k)) ∧
    s.dupsF + different (·.packet) w.good = different (·.reply) w.good ∧
    s.dupsB + different (·.reply) w.good = w.good.length ∧
    (∃ t o b h, s.min = [t, o, b, h] ∧ Spec.Stats.LeastOf c.inf (w.good.map fun p => delay (stampOf p.sent) (stampOf p.came)) o ∧
      Spec.Stats.LeastOf c.inf (w.good.map fun p => delay (stampOf p.left) (stampOf p.back)) b ∧
      Spec.Stats.LeastOf c.inf (w.good.map fun p => delay (stampOf p.came) (stampOf p.left)) h ∧
      Spec.Stats.LeastOf c.inf (w.good.map fun p => delay (stampOf p.sent) (stampOf p.back) - delay (stampOf p.came) (stampOf p.left)) t) ∧
    ∃ t o b h, s.max = [t, o, b, h] ∧ Spec.Stats.GreatestOf (-c.inf) (w.good.map fun p => delay (stampOf p.sent) (stampOf p.came)) o ∧
      Spec.Stats.GreatestOf (-c.inf) (w.good.map fun p => delay (stampOf p.left) (stampOf p.back)) b ∧
      Spec.Stats.GreatestOf (-c.inf) (w.good.map fun p => delay (stampOf p.came) (stampOf p.left)) h ∧
      Spec.Stats.GreatestOf (-c.inf) (w.good.map fun p => delay (stampOf p.sent) (stampOf p.back) - delay (stampOf p.came) (stampOf p.left)) t := by
  obtain ⟨r1, r2⟩ := C98_records w ds ha hu hr hn
  obtain ⟨came, hbelow, hlosses, htold, honce'⟩ := records_tell w ds ha hu hr hn rs hrs
  have hall : twAbout c 0 (2 ^ 32 - 1) rs = rs := by
    unfold twAbout Spec.TwStats.within Spec.TwStats.lastOf
    rw [if_pos rfl, List.filter_eq_self, hc]
    intro r hr
    rw [decide_eq_true_eq]
    exact ⟨Nat.zero_le _, hbelow r hr⟩
  have hrange : TwRange c 0 (2 ^ 32 - 1) := by
    unfold TwRange Spec.TwStats.lastOf
    rw [if_pos rfl, hc]
    exact ⟨h0, Nat.le_refl _⟩
  have hclear : ∀ r ∈ twAbout c 0 (2 ^ 32 - 1) rs, Spec.TwStats.Clear c r := by
    intro r _
    unfold Spec.TwStats.Clear Spec.Stats.Skipped
    rw [hsk]
    exact ⟨(fun h => by obtain ⟨_, h, _⟩ := h; cases h), fun _ => (fun h => by obtain ⟨_, h, _⟩ := h; cases h)⟩
  have honce : Spec.TwStats.LossOnce (twAbout c 0 (2 ^ 32 - 1) rs) := by rw [hall]; exact honce'
  obtain ⟨c1, c2, c3, c4, _, _⟩ := C75_counts_partial c rs oset 0 (2 ^ 32 - 1) s hrange hlen hclear honce hp rs hall.symm
  have hm : ∀ (f : Told → Nat), (Spec.TwStats.replies rs).map (fun r => f (told r)) = w.good.map fun p => f (truth p) := by
    intro f
    have := congrArg (List.map f) htold
    rwa [List.map_map, List.map_map] at this
  have hmi : ∀ (f : Told → Int), (Spec.TwStats.replies rs).map (fun r => f (told r)) = w.good.map fun p => f (truth p) := by
    intro f
    have := congrArg (List.map f) htold
    rwa [List.map_map, List.map_map] at this
  have lostk : ∀ k, k ∈ (Spec.TwStats.losses rs).map Spec.TwStats.seqOf ↔ (handed k w.final.calls ≠ [] ∧ ∀ p ∈ w.good, p.packet ≠ k) := by
    intro k
    have h2 := r2 k
    constructor
    · intro hk
      obtain ⟨r, k1, k2⟩ := List.mem_map.1 hk
      rw [hlosses] at k1
      obtain ⟨a, a1, rfl⟩ := List.mem_map.1 k1
      obtain ⟨a2, a3⟩ := List.mem_filter.1 a1
      apply Classical.byContradiction
      intro hne
      rw [if_neg hne, List.length_eq_zero_iff] at h2
      exact List.filter_eq_nil_iff.1 h2 a a2 (by rw [Bool.and_eq_true]; exact ⟨decide_eq_true k2, a3⟩)
    · intro hk
      rw [if_pos hk] at h2
      obtain ⟨a, ha⟩ := List.exists_mem_of_length_pos (l := lostFor k w.final.entries) (by omega)
      obtain ⟨a1, a2⟩ := List.mem_filter.1 ha
      rw [Bool.and_eq_true, decide_eq_true_eq] at a2
      rw [hlosses, List.map_map]
      exact List.mem_map.2 ⟨a, List.mem_filter.2 ⟨a1, a2.2⟩, a2.1⟩
  have gotk : ∀ k, k ∈ (Spec.TwStats.replies rs).map Spec.TwStats.seqOf ↔ ∃ p ∈ w.good, p.packet = k := by
    intro k
    have := hm Told.packet
    rw [show (Spec.TwStats.replies rs).map Spec.TwStats.seqOf = w.good.map fun p => p.packet from this]
    exact List.mem_map
  have below : ∀ k, handed k w.final.calls ≠ [] → k < w.z.c.npackets.toNat := by
    intro k hk
    obtain ⟨q, q1, q2, q3⟩ := handed_ne.1 hk
    rw [← q2]
    exact (sent_once w ds hu q q q1 q1 q3 q3).1
  refine ⟨?_, ?_, ?_, ?_, ?_, ?_⟩
  · rw [c1, ← List.length_map (f := Spec.TwStats.seqOf)]
    apply count_eq _ (firsts_nodup _ _)
    intro k
    rw [firsts_mem, decide_eq_true_eq]
    have hsplit : k ∈ rs.map Spec.TwStats.seqOf ↔ k ∈ (Spec.TwStats.losses rs).map Spec.TwStats.seqOf ∨ k ∈ (Spec.TwStats.replies rs).map Spec.TwStats.seqOf := by
      simp only [List.mem_map, Spec.TwStats.losses, Spec.TwStats.replies, List.mem_filter, decide_eq_true_eq]
      constructor
      · rintro ⟨r, h1, h2⟩
        by_cases hl : Spec.TwStats.Lost r
        · exact Or.inl ⟨r, ⟨h1, hl⟩, h2⟩
        · exact Or.inr ⟨r, ⟨h1, hl⟩, h2⟩
      · rintro (⟨r, ⟨h1, _⟩, h2⟩ | ⟨r, ⟨h1, _⟩, h2⟩) <;> exact ⟨r, h1, h2⟩
    rw [hsplit, lostk, gotk]
    constructor
    · rintro (h | ⟨p, p1, p2⟩)
      · exact ⟨below k h.1, h.1⟩
      · have := (came p p1).2
        rw [p2] at this
        exact ⟨below k this, this⟩
    · rintro ⟨_, h⟩
      by_cases hex : ∃ p ∈ w.good, p.packet = k
      · exact Or.inr hex
      · exact Or.inl ⟨h, fun p p1 p2 => hex ⟨p, p1, p2⟩⟩
  · rw [c2, ← List.length_map (f := Spec.TwStats.seqOf)]
    apply count_eq
    · unfold Spec.TwStats.LossOnce at honce
      rw [hall] at honce
      exact List.pairwise_map.2 honce
    · intro k
      rw [lostk, decide_eq_true_eq]
      exact ⟨fun h => ⟨below k h.1, h⟩, fun h => h.2⟩
  · unfold Spec.TwStats.answered Spec.TwStats.returned at c3
    rw [firsts_different Spec.TwStats.seqOf _ (·.packet) w.good (hm Told.packet), firsts_different Spec.TwStats.replyOf _ (·.reply) w.good (hm Told.reply)] at c3
    exact c3
  · unfold Spec.TwStats.returned at c4
    rw [firsts_different Spec.TwStats.replyOf _ (·.reply) w.good (hm Told.reply)] at c4
    have : (Spec.TwStats.replies rs).length = w.good.length := by
      have := congrArg List.length htold
      simpa using this
    rw [this] at c4
    exact c4
  all_goals
    obtain ⟨⟨t, o, b, e, l1, l2, l3, l4, l5⟩, ⟨t', o', b', e', g1, g2, g3, g4, g5⟩, _⟩ :=
      C75_delays c rs oset 0 (2 ^ 32 - 1) s hrange hlen hclear hp (Spec.TwStats.replies rs) (by rw [hall])
  all_goals
    have ho : (Spec.TwStats.replies rs).map (Spec.TwStats.out c) = w.good.map fun p => delay (stampOf p.sent) (stampOf p.came) := by
      refine Eq.trans ?_ (hmi fun t => delay t.sent t.came)
      exact List.map_congr_left fun r _ => hdel _ _
    have hb : (Spec.TwStats.replies rs).map (Spec.TwStats.back c) = w.good.map fun p => delay (stampOf p.left) (stampOf p.back) := by
      refine Eq.trans ?_ (hmi fun t => delay t.left t.back)
      exact List.map_congr_left fun r _ => hdel _ _
    have hh : (Spec.TwStats.replies rs).map (Spec.TwStats.held c) = w.good.map fun p => delay (stampOf p.came) (stampOf p.left) := by
      refine Eq.trans ?_ (hmi fun t => delay t.came t.left)
      exact List.map_congr_left fun r _ => hdel _ _
    have ht : (Spec.TwStats.replies rs).map (Spec.TwStats.trip c) =
        w.good.map fun p => delay (stampOf p.sent) (stampOf p.back) - delay (stampOf p.came) (stampOf p.left) := by
      refine Eq.trans ?_ (hmi fun t => delay t.sent t.back - delay t.came t.left)
      refine List.map_congr_left fun r _ => ?_
      unfold Spec.TwStats.trip Spec.TwStats.held
      rw [hdel, hdel]
      rfl
  · rw [ht] at l2; rw [ho] at l3; rw [hb] at l4; rw [hh] at l5
    exact ⟨t, o, b, e, l1, l3, l4, l5, l2⟩
  · rw [ht] at g2; rw [ho] at g3; rw [hb] at g4; rw [hh] at g5
    exact ⟨t', o', b', e', g1, g3, g4, g5, g2⟩

/-! A session of three packets, due at seconds 101, 102 and 103, timeout two seconds. Packet 0 is answered, and the reply comes back twice; packet 1 comes to the reflector twice and both replies come
back; packet 2 is answered but the reply is back too late. -/

def loopRun : TwRun where
  c := demoTwCfg
  sid := []
  slots := demoSlots
  c0 := Sched.setup [] ⟨3, demoSlots⟩
  ops := []
  buf := zeros 14
  stamp := ⟨0, false, 0, 0⟩
  rtime := ⟨0, false, 0, 0⟩

/-- The bytes of packet `k`, as the client sends it when nothing comes back. -/
def loopPacket (k : Nat) : Bytes := ((loopRun.final [demoTwAt 1000, demoTwAt 1015, demoTwAt 1019, demoTwAt 1025, demoTwAt 1029, demoTwAt 1035] (demoTwEnd 1056)).calls[k]?.map (·.bytes)).getD []

def loopPasses : List Refl.Pass :=
  [demoReflPass (.dgram [10, 0, 0, 1] (loopPacket 0) 63 false) 1016, demoReflPass (.dgram [10, 0, 0, 2] (loopPacket 1) 61 false) 1020,
   demoReflPass (.dgram [10, 0, 0, 1] (loopPacket 1) 62 false) 1025, demoReflPass (.dgram [10, 0, 0, 1] (loopPacket 1) 60 false) 1026,
   demoReflPass (.dgram [10, 0, 0, 1] (loopPacket 2) 63 false) 1036]

/-- The bytes of reply `k`. -/
def loopReply (k : Nat) : Bytes := ((answers (demoReflRun.after loopPasses).calls)[k]?.map (·.bytes)).getD []

def loopTicks : List Tick :=
  [demoTwAt 1000, demoTwAt 1015, demoTwGot (loopReply 0) 1017, demoTwGot (loopReply 0) 1018, demoTwAt 1019, demoTwAt 1025, demoTwGot (loopReply 1) 1027,
   demoTwGot (loopReply 2) 1028, demoTwAt 1029, demoTwAt 1035, demoTwGot (loopReply 3) 1056]

def loop : TwoEnds := ⟨loopRun, loopTicks, demoTwEnd 1056, demoReflRun, loopPasses⟩

def loopDelays : List Nat := (Sched.deltas demoTwCfg.E 3 loopRun.c0).map fun d => match d with
  | .ok d => d
  | .error _ => 0

theorem loop_agreed : loop.Agreed where
  mac := rfl
  format := rfl
  keys := ⟨true, by decide +kernel⟩
  size := rfl
  padding := fun _ => rfl
  buf := rfl

private theorem at_splits (P : List Tick → Tick → Bool) (ts : List Tick) (h : ((List.range ts.length).all fun i => (ts[i]?).all (P (ts.take i))) = true) :
    ∀ pre t post, ts = pre ++ t :: post → P pre t = true := by
  intro pre t post e
  have := List.all_eq_true.1 h pre.length (by rw [List.mem_range, e]; simp)
  rw [e] at this
  simpa using this

theorem loop_ok : loopRun.Ok loopTicks (demoTwEnd 1056) := by
  refine ⟨by decide +kernel, by decide, ?_, ?_⟩
  · intro t ht r hr
    simp only [loopTicks, List.mem_cons, List.not_mem_nil, or_false] at ht
    rcases ht with rfl | rfl | rfl | rfl | rfl | rfl | rfl | rfl | rfl | rfl | rfl <;> (cases hr; unfold GoodClock; decide +kernel)
  · intro r hr; cases hr; unfold GoodClock; decide +kernel

private def loopWaited (pre : List Tick) (t : Tick) : Bool :=
  match t.got with
  | .fail _ => true
  | .dgram _ bytes _ i => decide ((loopRun.after pre).phase = .receiving ∧
      ((loopRun.after pre).i + 1 = demoTwCfg.npackets.toNat ∨
        ((0 ≤ (loopRun.after pre).cur.sub ∧ (loopRun.after pre).cur.sub < 1000000000) ∧
          total 1000000000 (loopRun.after pre).cur + 1000000 ≤ due demoTwCfg.begin loopDelays ((loopRun.after pre).i + 1))) ∧
      (respLen demoTwCfg ≤ bytes.length ∨ i = true))

theorem loop_undisturbed : loop.Undisturbed loopDelays where
  ok := loop_ok
  delays := by
    obtain ⟨ds, h1, h2, h3⟩ := C06_schedule loopRun.c.E loopRun.sid _ loopRun.c0 loop_ok.sched
    have e : loopDelays = ds := by
      have h1' : Sched.deltas demoTwCfg.E 3 loopRun.c0 = ds.map .ok := h1
      unfold loopDelays
      rw [h1', List.map_map]
      exact List.map_id _
    rw [e]
    exact ⟨h3, h2⟩
  start := by decide +kernel
  era := ⟨by decide +kernel, by decide +kernel⟩
  timeout := by decide +kernel
  written := fun _ _ => rfl
  calm := by
    intro t ht
    simp only [loop, loopTicks, List.mem_cons, List.not_mem_nil, or_false] at ht
    rcases ht with rfl | rfl | rfl | rfl | rfl | rfl | rfl | rfl | rfl | rfl | rfl <;>
      exact ⟨rfl, rfl, rfl, rfl, rfl, fun _ => rfl, ⟨by decide, by decide⟩, fun i h => by first | (cases h; rfl) | cases h⟩
  onward := by
    show ([1000, 1015, 1017, 1018, 1019, 1025, 1027, 1028, 1029, 1035, 1056].map demoTwClock).Pairwise _
    decide +kernel
  waited := by
    intro pre t post h peer bytes ttl i hgot
    have := at_splits loopWaited loopTicks (by decide +kernel) pre t post h
    unfold loopWaited at this
    rw [hgot] at this
    have := of_decide_eq_true this
    exact this
  over := by decide +kernel
  usr2 := fun _ => rfl
  last := by
    refine ⟨demoTwClock 1056, rfl, ?_⟩
    have : loop.final.calls.all (fun q => decide (total 1000000000 q.time + nanos demoTwCfg.timeout.toNat < total 1000000000 (demoTwClock 1056).time)) = true := by decide +kernel
    intro q hq _
    have := of_decide_eq_true (List.all_eq_true.1 this q hq)
    exact this

theorem loop_reflecting : loop.Reflecting where
  ok := ⟨by decide +kernel, by decide +kernel, by decide +kernel⟩
  clock := by
    intro p hp r hr
    simp only [loop, loopPasses, List.mem_cons, List.not_mem_nil, or_false] at hp
    rcases hp with rfl | rfl | rfl | rfl | rfl <;> (cases hr; unfold GoodClock; decide +kernel)
  whole := by
    intro p hp
    simp only [loop, loopPasses, List.mem_cons, List.not_mem_nil, or_false] at hp
    rcases hp with rfl | rfl | rfl | rfl | rfl <;> (rintro ⟨_, _, _, h, _⟩; cases h)

private def loopCaused (pre : List Tick) (t : Tick) : Bool :=
  match t.got with
  | .fail _ => true
  | .dgram _ bytes _ _ => (answers (demoReflRun.after loopPasses).calls).any fun y => decide (y.bytes = bytes) &&
      (loopRun.after pre).calls.any fun q => decide (q.res ≠ .nobufs ∧ q.bytes = y.recvd)

theorem loop_network : loop.Network where
  out := by
    intro p hp bytes ttl i hgot
    have key : ∀ k, k < 3 → ∃ q ∈ loop.final.calls, q.res ≠ .nobufs ∧ q.bytes = loopPacket k := by
      have : ((List.range 3).all fun k => loop.final.calls.any fun q => decide (q.res ≠ .nobufs ∧ q.bytes = loopPacket k)) = true := by decide +kernel
      intro k hk
      obtain ⟨q, h1, h2⟩ := List.any_eq_true.1 (List.all_eq_true.1 this k (List.mem_range.2 hk))
      exact ⟨q, h1, of_decide_eq_true h2⟩
    simp only [loop, loopPasses, List.mem_cons, List.not_mem_nil, or_false] at hp
    rcases hp with rfl | rfl | rfl | rfl | rfl
    · injection hgot with _ e; rw [← e]; exact key 0 (by decide)
    · injection hgot with e; exact absurd e (by decide)
    · injection hgot with _ e; rw [← e]; exact key 1 (by decide)
    · injection hgot with _ e; rw [← e]; exact key 1 (by decide)
    · injection hgot with _ e; rw [← e]; exact key 2 (by decide)
  back := by
    intro pre t post h peer bytes ttl i hgot
    have := at_splits loopCaused loopTicks (by decide +kernel) pre t post h
    unfold loopCaused at this
    rw [hgot] at this
    obtain ⟨y, y1, y2⟩ := List.any_eq_true.1 this
    rw [Bool.and_eq_true, decide_eq_true_eq] at y2
    obtain ⟨q, q1, q2⟩ := List.any_eq_true.1 y2.2
    exact ⟨y, y1, y2.1, q, q1, of_decide_eq_true q2⟩

def loopRecords : List TWDataRec := loop.final.entries.filterMap readBack

/-- Its report: three packets sent, one lost, one duplicate on the way out and one on the way back. -/
theorem C98_example : ∃ s, TwStats.parse { twDemo with npackets := 3 } loopRecords 0 0 (2 ^ 32 - 1) = .ok s ∧ s.sent = 3 ∧ s.lost = 1 ∧ s.dupsF = 1 ∧ s.dupsB = 1 := by
  have hok : (TwStats.parse { twDemo with npackets := 3 } loopRecords 0 0 (2 ^ 32 - 1)).toOption.isSome = true := by decide +kernel
  cases hp : TwStats.parse { twDemo with npackets := 3 } loopRecords 0 0 (2 ^ 32 - 1) with
  | error e => rw [hp] at hok; cases hok
  | ok s =>
    have hrs : loop.final.entries.map readBack = loopRecords.map some := by decide +kernel
    obtain ⟨h1, h2, h3, h4, _⟩ := C98_report loop loopDelays loop_agreed loop_undisturbed loop_reflecting loop_network loopRecords hrs (by decide +kernel) _ (by decide) rfl rfl 0 s hp
      (fun a b => (b.toNat : Int) - a.toNat) (fun _ _ => rfl)
    have e1 : different (·.packet) loop.good = 2 ∧ different (·.reply) loop.good = 3 ∧ loop.good.length = 4 := by decide +kernel
    refine ⟨s, rfl, ?_, ?_, by omega, by omega⟩
    · rw [h1]; decide +kernel
    · rw [h2]; decide +kernel

end Owamp.Props
