import Verif.Lemmas.EndToEnd
import Verif.Lemmas.SenderCalls
import Verif.Props.Summary
/-!
# C97: from the sender to the report
-/
namespace Owamp.Props
open Owamp.Num64 Owamp.Time Owamp.Codec Owamp.Pkt Owamp.Recv Owamp.Spec.Sender Owamp.Spec.Receiver Owamp.Spec.EndToEnd StatSession
open Owamp.Spec (total Normalised)

/-- A one-way session: the sender with what its clock, its signals and its system calls do (`ticks`), the receiver with what comes to it (`as`), and the summary of the
receiver's file. -/
structure OneWay where
  c : Sender.Cfg
  sops : List Sched.Op
  buf : Bytes
  stamp : TimeStamp
  ticks : List Sender.Tick
  y : RecvRun
  as : List Arrival
  x : StatSession

namespace OneWay

/-- The sender at its end. -/
def sent (w : OneWay) : Sender.St := Sender.run w.c (Sender.init w.c (Sched.run w.c.E w.y.c0 w.sops) w.buf w.stamp) w.ticks

/-- The two ends and the summary have the same session: its schedule, start, timeout, packets, keys and sizes; and the file has the skip ranges that the sender reports. -/
structure Agreed (w : OneWay) : Prop where
  summary : SameSession w.x w.y
  cipher : w.c.E = w.y.c.E
  mac : w.c.H = w.y.c.H
  format : w.c.fmt = w.y.c.fmt
  packets : w.c.npackets = w.y.c.npackets
  timeout : w.c.timeout = w.y.c.timeout
  start : w.c.start = timestampToTimespec ⟨w.y.c.start, false, 0, 0⟩
  keys : ∃ m server server' aes hmac sid, fmtOW m = some w.c.fmt ∧ hmac.length = 32 ∧
    w.c.ep = initKeys m false server true aes hmac sid ∧ w.y.c.ep = initKeys m false server' false aes hmac sid
  padding : ∃ n, (∀ i, (w.c.pad i).length = n) ∧ w.y.c.len = payloadSize w.c.fmt n ∧ w.buf.length = payloadSize w.c.fmt n
  skips : w.x.c.skips = w.sent.skips

/-- Nothing from outside stops the two ends, their clocks are between 1970 and 2036 and the receiver's does not go back; both come to their ends. The session and its
timeout are before 2036. -/
structure Undisturbed (w : OneWay) (ds : List Nat) : Prop where
  ok : w.y.Ok w.as
  delays : w.y.Delays ds
  era : Era w.y.c ds
  packets : w.y.c.npackets ≠ 0
  sendClock : ∀ t ∈ w.ticks, ∀ r, t.clock = some r → InEra r
  sendSignals : ∀ t ∈ w.ticks, t.stop1 = false ∧ t.stop2 = false
  sendDone : w.sent.phase = .finish
  first : ∃ r, w.y.clock = some r ∧ (∀ a ∈ w.as, ∀ r', a.clock = some r' → total 1000000000 r.time ≤ total 1000000000 r'.time)
  firstUsr2 : ∀ j, w.y.usr2 j = false
  calm : ∀ a ∈ w.as, ∃ r, Calm a r ∧ InEra r
  onward : Onward w.as
  recvDone : (w.y.after w.as).status = .over
  room : (w.y.records w.as).length < 2 ^ 32

/-- The network: it may lose, repeat, delay and reorder packets, and others may send to the receiver from other addresses; but what comes from the sender's address is
what the sender handed over. -/
def Network (w : OneWay) : Prop :=
  ∀ a ∈ w.as, ∀ bytes ttl i, a.got = .dgram w.y.c.remote bytes ttl i → ∃ x ∈ w.sent.calls, x.res ≠ .nobufs ∧ x.bytes = bytes

/-- No packet is sent in the last 10 ns before it would be skipped. -/
def Prompt (w : OneWay) (ds : List Nat) : Prop :=
  ∀ x ∈ w.sent.calls, total 1000000000 x.time + 10 ≤ due w.c.start ds x.seq + nanos w.c.timeout.toNat

end OneWay

open OneWay

private theorem start_total (c : Recv.Cfg) :
    total 1000000000 (timestampToTimespec ⟨c.start, false, 0, 0⟩) = unixNanos c.start.toNat ∧
      0 ≤ (timestampToTimespec ⟨c.start, false, 0, 0⟩).sub ∧ (timestampToTimespec ⟨c.start, false, 0, 0⟩).sub < 1000000000 := by
  have h := absOf_total c 0 (by decide)
  have e : absOf c 0 = timestampToTimespec ⟨c.start, false, 0, 0⟩ := by
    unfold absOf
    have : BitVec.ofNat 64 (add 0 c.start.toNat) = c.start := by
      apply BitVec.eq_of_toNat_eq
      rw [BitVec.toNat_ofNat, add, u64, Nat.zero_add, Nat.mod_mod]
      exact Nat.mod_eq_of_lt c.start.isLt
    rw [this]
  rw [e, Nat.add_zero, Nat.mod_eq_of_lt c.start.isLt] at h
  exact h

/-- The two ends' schedules are the same list. -/
private theorem same_delays (w : OneWay) (h : w.Agreed) (ds : List Nat) (hd : w.y.Delays ds) (ds' : List Nat)
    (h1 : Spec.Delays w.c.E w.y.sid w.y.slots 0 0 ds') (h2 : ds'.length = w.c.npackets.toNat) : ds' = ds := by
  rw [h.cipher] at h1
  exact List.ext_getElem (by rw [h2, hd.2, h.packets]) fun n n1 n2 => C06_spec_unique w.y.c.E w.y.sid w.y.slots 0 0 ds' ds h1 hd.1 n n1 n2

/-- What the sender's calls are like. -/
theorem oneWay_calls (w : OneWay) (h : w.Agreed) (ds : List Nat) (hu : w.Undisturbed ds) :
    ∀ x ∈ w.sent.calls, Sender.Reads w.y.c.H w.y.c.fmt w.y.c.ep w.y.c.len x ∧ (Normalised 1000000000 x.time ∧ ofTimespec x.time + epoch < 2 ^ 64) := by
  obtain ⟨m, server, server', aes, hmac, sid, k1, k2, k3, k4⟩ := h.keys
  obtain ⟨n, p1, p2, p3⟩ := h.padding
  have hm : Sender.Makes w.c w.y.c.ep w.y.c.len := by
    intro buf i t hb
    obtain ⟨pkt, P, q1, q2, q3, q4, q5, _⟩ := C28_oneway_understood w.c.H m w.c.fmt k1 server server' aes hmac sid k2 buf (w.c.pad i) (by rw [hb, p2, p1]) (BitVec.ofNat 32 i) t
    rw [← k3] at q1
    rw [← k4] at q3
    exact ⟨pkt, P, q1, by rw [q2, p2, p1], q3, q4, q5⟩
  have := Sender.run_calls (fun t => Normalised 1000000000 t ∧ ofTimespec t + epoch < 2 ^ 64) w.c w.y.c.ep w.y.c.len hm w.ticks (fun t ht r hr => hu.sendClock t ht r hr) _
    (Sender.init_calls _ w.c w.y.c.ep w.y.c.len (Sched.run w.c.E w.y.c0 w.sops) w.buf w.stamp (by rw [p3, p2]))
  rw [h.mac, h.format] at this
  exact this.2.2

/-- How the sender dealt with each packet. -/
theorem oneWay_account (w : OneWay) (h : w.Agreed) (ds : List Nat) (hu : w.Undisturbed ds) :
    (∀ k, k < w.y.c.npackets.toNat → Accounted (due w.c.start ds) (nanos w.c.timeout.toNat) w.sent.calls w.sent.skips k) ∧
      ∀ k, w.y.c.npackets.toNat ≤ k → handed k w.sent.calls = [] := by
  have hst := (start_total w.y.c).2
  rw [← h.start] at hst
  have hc : Sched.create w.y.sid ⟨w.c.npackets, w.y.slots⟩ = some w.y.c0 := by rw [h.packets]; exact hu.ok.sched
  have hn : w.c.npackets ≠ 0 := by rw [h.packets]; exact hu.packets
  have hclk : Sender.GoodClock w.ticks := fun t ht r hr => ⟨(hu.sendClock t ht r hr).1.2.2.1, (hu.sendClock t ht r hr).1.2.2.2⟩
  obtain ⟨ds', d1, d2, d3⟩ := C22_accounted_partial w.c w.y.sid w.y.slots w.y.c0 hc w.sops hn hst w.buf w.stamp w.ticks hclk
  have e := same_delays w h ds hu.delays ds' d1 d2
  subst e
  have hi := C22_uninterrupted w.c w.y.sid w.y.slots w.y.c0 hc w.sops hn hst w.buf w.stamp w.ticks hclk hu.sendSignals hu.sendDone
  obtain ⟨_, a2, a3⟩ := d3 hu.sendDone
  rw [hi, h.packets] at a2 a3
  exact ⟨a2, fun k hk => (a3 k hk).1⟩

theorem oneWay_handed {k : Nat} {calls : List Sender.Call} {x : Sender.Call} : x ∈ handed k calls ↔ x ∈ calls ∧ x.seq = k ∧ x.res ≠ .nobufs := by
  unfold handed
  rw [List.mem_filter]
  simp

/-- What comes is on time. -/
theorem oneWay_brought (w : OneWay) (h : w.Agreed) (ds : List Nat) (hu : w.Undisturbed ds) (hn : w.Network) :
    ∀ a ∈ w.as, ∀ P, brought w.y.c a = some P → ∃ x ∈ w.sent.calls, x.res ≠ .nobufs ∧ brings w.y.c.remote x.bytes a = true ∧
      openPacket w.y.c.H w.y.c.fmt w.y.c.ep x.bytes = .plain P ∧ (seqOf P).toNat = x.seq ∧ timeOf w.y.c.fmt P = stampOf x.time := by
  intro a ha P hb
  unfold brought at hb
  split at hb
  · cases hb
  · rename_i peer bytes ttl ht
    split at hb
    · rename_i hpeer
      subst hpeer
      split at hb
      · rename_i P' hopen
        cases hb
        unfold Got.taken at ht
        split at ht
        · rename_i p b t i hgot
          split at ht
          · injection ht with ht
            injection ht with e1 e2
            injection e2 with e2 e3
            subst e1
            obtain ⟨x, hx, hr, hxb⟩ := hn a ha b t i hgot
            obtain ⟨⟨hlen, P2, o1, o2, o3⟩, _⟩ := oneWay_calls w h ds hu x hx
            have htake : b.take w.y.c.len = b := by
              rw [← hxb, ← hlen]; exact List.take_length
            rw [htake, ← hxb] at e2
            rw [← e2, o1] at hopen
            injection hopen with e
            subst e
            refine ⟨x, hx, hr, ?_, o1, o2, o3⟩
            unfold brings
            rw [hgot]
            simp [hxb]
          · cases ht
        · cases ht
      · cases hb
    · cases hb

theorem oneWay_schedule (w : OneWay) (h : w.Agreed) (ds : List Nat) (hu : w.Undisturbed ds) (hn : w.Network) (hp : w.Prompt ds) :
    ∀ a ∈ w.as, OnTime w.y.c ds a := by
  intro a ha P hb y d hd hy hs
  obtain ⟨x, hx, hres, _, _, hseq, htime⟩ := oneWay_brought w h ds hu hn a ha P hb
  obtain ⟨_, hnorm, hera⟩ := oneWay_calls w h ds hu x hx
  rw [htime]
  rw [hseq] at hs
  have hst : (stampOf x.time).toNat = ofTimespec x.time + epoch := by
    unfold stampOf
    rw [BitVec.toNat_ofNat]
    exact Nat.mod_eq_of_lt hera
  rw [hst]
  have hmem : x ∈ handed x.seq w.sent.calls := oneWay_handed.2 ⟨hx, rfl, hres⟩
  have hlow : due w.c.start ds x.seq ≤ total 1000000000 x.time := by
    by_cases hk : x.seq < w.y.c.npackets.toNat
    · rcases (oneWay_account w h ds hu).1 x.seq hk with ⟨z, z1, z2, _⟩ | ⟨z, _⟩
      · rw [z1, List.mem_singleton] at hmem; rw [hmem] at z2 ⊢; exact z2
      · rw [z] at hmem; cases hmem
    · rw [(oneWay_account w h ds hu).2 x.seq (by omega)] at hmem; cases hmem
  have hhigh := hp x hx
  obtain ⟨e1, e2, _⟩ := era_sched hu.era x.seq
  have hD := take_sum_le ds (x.seq + 1)
  have hstop := hu.era.stop
  have hstart := hu.era.start
  unfold due at hlow hhigh
  rw [h.start, (start_total w.y.c).1, Nat.mod_eq_of_lt (by omega)] at hlow hhigh
  rw [h.timeout] at hhigh
  have hun : unixNanos w.y.c.start.toNat = nanos (w.y.c.start.toNat - epoch) := by
    unfold unixNanos
    rw [wrap_back _ _ hstart w.y.c.start.isLt]
  rw [hun] at hlow hhigh
  obtain ⟨t1, t2⟩ := ofTimespec_tight x.time hnorm
  refine window_near (w.y.c.start.toNat - epoch) (ds.take (x.seq + 1)).sum w.y.c.timeout.toNat _ d y _ t1 t2 hlow hhigh hd ?_
  rw [e1] at hs
  have he : 5 < epoch := by decide
  omega

/-- The turns that bring packet `k` in time are the in-time copies of what the sender handed over. -/
private theorem arrived_eq (w : OneWay) (h : w.Agreed) (ds : List Nat) (hu : w.Undisturbed ds) (hn : w.Network) (k : Nat) :
    w.as.countP (timely w.y.c ds k) = inTimeCopies w.y.c ds w.sent.calls w.as k := by
  unfold inTimeCopies
  apply List.countP_congr
  intro a ha
  constructor
  · intro ht
    unfold timely at ht
    split at ht
    · rename_i P r hb hr
      obtain ⟨x, hx, hres, hbr, hopen, hseq, htime⟩ := oneWay_brought w h ds hu hn a ha P hb
      simp only [Bool.and_eq_true, decide_eq_true_eq] at ht
      obtain ⟨⟨t1, t2⟩, t3⟩ := ht
      rw [List.any_eq_true]
      refine ⟨x, oneWay_handed.2 ⟨hx, by omega, hres⟩, ?_⟩
      rw [hbr, hr]
      simp only [Bool.true_and, Option.any_some, inTime, Bool.and_eq_true, decide_eq_true_eq]
      rw [← htime]
      exact ⟨t2, t3⟩
    · cases ht
  · intro ht
    rw [List.any_eq_true] at ht
    obtain ⟨x, hx, hx2⟩ := ht
    obtain ⟨hx, hseq, hres⟩ := oneWay_handed.1 hx
    obtain ⟨⟨hlen, P, o1, o2, o3⟩, _⟩ := oneWay_calls w h ds hu x hx
    rw [Bool.and_eq_true] at hx2
    obtain ⟨hbr, hin⟩ := hx2
    cases hr : a.clock with
    | none => rw [hr] at hin; cases hin
    | some r =>
      rw [hr] at hin
      simp only [Option.any_some, inTime, Bool.and_eq_true, decide_eq_true_eq] at hin
      have hb : brought w.y.c a = some P := by
        unfold brings at hbr
        split at hbr
        · rename_i peer b ttl i hgot
          simp only [Bool.and_eq_true, decide_eq_true_eq] at hbr
          obtain ⟨e1, e2⟩ := hbr
          have ht : a.got.taken w.y.c.len = some (peer, x.bytes, ttl) := by
            unfold Got.taken
            rw [hgot, e2]
            dsimp only
            rw [if_pos (by omega), ← hlen, List.take_length]
          unfold brought
          rw [ht]
          dsimp only
          rw [if_pos e1, o1]
        · cases hbr
      unfold timely
      rw [hb, hr]
      simp only [Bool.and_eq_true, decide_eq_true_eq]
      exact ⟨⟨by omega, hin.1⟩, by rw [o3]; exact hin.2⟩

/-- **C97, the records.** The receiver of an undisturbed session has for each packet as many records of arrivals as copies of the packet came in time. -/
theorem C97_records (w : OneWay) (h : w.Agreed) (ds : List Nat) (hu : w.Undisturbed ds) (hn : w.Network) (hp : w.Prompt ds) (k : Nat) (hk : k < w.y.c.npackets.toNat) :
    (gotFor k (w.y.after w.as).entries).length = inTimeCopies w.y.c ds w.sent.calls w.as k := by
  obtain ⟨ds', h1, h2, h3⟩ := C06_schedule w.y.c.E w.y.sid _ w.y.c0 hu.ok.sched
  have e : ds = ds' := List.ext_getElem (by rw [hu.delays.2, h2]) fun n n1 n2 => C06_spec_unique w.y.c.E w.y.sid w.y.slots 0 0 ds ds' hu.delays.1 h3 n n1 n2
  subst e
  obtain ⟨r, hr, hfirst⟩ := hu.first
  have hg := hu.ok.first r hr
  obtain ⟨b0, i1, i2⟩ := init_spec w.y.c w.y.sid w.y.slots w.y.c0 hu.ok.sched w.y.ops ds h1 h2 True (fun _ => True) (fun _ => True) w.y.clock w.y.usr2
    (fun _ => hu.firstUsr2) (fun r hr => ⟨trivial, hu.ok.first r hr⟩) w.y.stamp
  rw [hr] at i1 i2
  obtain ⟨c1, c2⟩ := init_counts w.y.c w.y.sid w.y.slots w.y.c0 hu.ok.sched w.y.ops ds h1 h2 r hg w.y.usr2 hu.firstUsr2 w.y.stamp b0 i1.1.1 (by omega)
  have hend := hu.recvDone
  unfold RecvRun.after at hend ⊢
  rw [hr] at hend ⊢
  rw [run_counts w.y.c ds h2 (era_rising hu.era) w.as (total 1000000000 r.time) b0 _ ?_ (oneWay_schedule w h ds hu hn hp) hu.onward i1 i2 c1 hend k hk, c2 k,
    arrived_eq w h ds hu hn k]
  · simp
  · intro a ha
    obtain ⟨r', q1, _⟩ := hu.calm a ha
    exact ⟨r', q1, hu.ok.later a ha r' q1.clock, hfirst a ha r' q1.clock⟩

private theorem skipped_iff (l : List Skip) (k : Nat) : Spec.Stats.Skipped l k ↔ l.filter (covers k) ≠ [] := by
  unfold Spec.Stats.Skipped
  rw [Ne, List.filter_eq_nil_iff]
  unfold covers
  simp

/-- The packets that the sender skipped are those it never handed over. -/
theorem oneWay_skipped (w : OneWay) (h : w.Agreed) (ds : List Nat) (hu : w.Undisturbed ds) (k : Nat) (hk : k < w.y.c.npackets.toNat) :
    Spec.Stats.Skipped w.x.c.skips k ↔ handed k w.sent.calls = [] := by
  rw [h.skips, skipped_iff]
  rcases (oneWay_account w h ds hu).1 k hk with ⟨z, z1, _, _, z4⟩ | ⟨z1, z2⟩
  · rw [z4, z1]; simp
  · rw [z1]
    constructor
    · intro _; rfl
    · intro _ e; rw [e] at z2; cases z2

private theorem none_arrived (w : OneWay) (ds : List Nat) (k : Nat) (h : handed k w.sent.calls = []) : inTimeCopies w.y.c ds w.sent.calls w.as k = 0 := by
  unfold inTimeCopies
  rw [h]
  simp

private theorem copies_eq (y : RecvRun) (x : StatSession) (as : List Arrival) (last k : Nat) (hk : k < Spec.Stats.lastOf x.c last) (hs : ¬ Spec.Stats.Skipped x.c.skips k) :
    Spec.Stats.copies (x.about 0 last (y.records as)) k = (gotFor k (y.after as).entries).length := by
  unfold Spec.Stats.copies Spec.Stats.arrivals StatSession.about Spec.Stats.counted RecvRun.records gotFor
  rw [List.countP_eq_length_filter, List.filter_filter, List.filter_filter, List.filter_map, List.length_map]
  congr 1
  apply List.filter_congr
  intro e _
  simp only [Function.comp]
  have hl := stored_lost e
  have hq : (stored e.data).seq = e.data.seq := rfl
  rw [Bool.eq_iff_iff]
  simp only [Bool.and_eq_true, decide_eq_true_eq, Bool.not_eq_true', hq, hl, Spec.Stats.Within]
  constructor
  · rintro ⟨⟨a1, a2⟩, a3⟩
    exact ⟨a1, by simpa using a2⟩
  · rintro ⟨a1, a2⟩
    exact ⟨⟨a1, by rw [a2]; simp⟩, ⟨Nat.zero_le _, by omega⟩, by rw [a1]; exact hs⟩

private theorem copies_skipped (y : RecvRun) (x : StatSession) (as : List Arrival) (last k : Nat) (hs : Spec.Stats.Skipped x.c.skips k) :
    Spec.Stats.copies (x.about 0 last (y.records as)) k = 0 := by
  unfold Spec.Stats.copies Spec.Stats.arrivals StatSession.about Spec.Stats.counted
  rw [List.countP_eq_zero]
  intro r hr
  rw [List.mem_filter, List.mem_filter] at hr
  have := hr.1.2
  rw [decide_eq_true_eq] at this
  rw [decide_eq_true_eq]
  intro e
  rw [e] at this
  exact this.2 hs

/-- **C97.** The report of an undisturbed one-way session tells the truth about the packets on the network: the summary of the receiver's file can be made; it counts as sent
exactly the packets that the sender handed to the network, as lost exactly those of them of which no copy came in time, and as duplicates the further copies that came in
time. -/
theorem C97_report (w : OneWay) (h : w.Agreed) (ds : List Nat) (hu : w.Undisturbed ds) (hn : w.Network) (hp : w.Prompt ds) :
    ∃ s', w.x.summary (w.y.records w.as) (Stats.create w.x.c w.x.c0) 0 0 (2 ^ 32 - 1) = .ok s' ∧
      s'.sent = sentCount w.y.c.npackets.toNat w.sent.calls ∧
      s'.lost = lostCount w.y.c.npackets.toNat w.y.c ds w.sent.calls w.as ∧
      s'.dups = extraCount w.y.c.npackets.toNat w.y.c ds w.sent.calls w.as := by
  have hlast : Spec.Stats.lastOf w.x.c (2 ^ 32 - 1) = w.y.c.npackets.toNat := by
    unfold Spec.Stats.lastOf
    rw [if_pos rfl, h.summary.packets]
  have hpos : w.y.c.npackets.toNat ≠ 0 := fun e => hu.packets (by apply BitVec.eq_of_toNat_eq; simpa using e)
  have hrange : w.x.Range 0 (2 ^ 32 - 1) := by
    unfold StatSession.Range
    rw [hlast, h.summary.packets]
    omega
  have husual : w.y.Usual w.as ds := by
    refine ⟨hu.ok, ?_, hu.delays, hu.era, ?_⟩
    · intro a ha ⟨j, hj⟩
      obtain ⟨r, c1, _⟩ := hu.calm a ha
      rw [c1.usr2 j] at hj; cases hj
    · intro a ha r hr
      obtain ⟨r', c1, c2⟩ := hu.calm a ha
      rw [c1.clock] at hr; cases hr
      exact c2
  have hun : ∀ a ∈ w.as, unstopped a := by
    intro a ha
    obtain ⟨r, c1, _⟩ := hu.calm a ha
    obtain ⟨s1, s2, s3, s4⟩ := c1.sigs
    unfold unstopped
    rw [s1, s2, s3, s4]
    decide
  obtain ⟨s', p1, _, _, p4⟩ := C53_receiver_partial w.x w.y h.summary w.as ds husual hu.room _ .fresh 0 0 (2 ^ 32 - 1) hrange (Or.inl rfl) _ rfl
  obtain ⟨q1, q2⟩ := C50_complete w.x w.y h.summary w.as hu.ok hun hu.recvDone hu.room _ s' .fresh 0 0 (2 ^ 32 - 1) hrange p1
  rw [hlast] at q1 q2 p4
  have hv := C24_complete w.y w.as hu.ok hun hu.recvDone
  refine ⟨s', p1, ?_, ?_, ?_⟩
  · rw [q1]
    unfold sentCount Spec.Stats.packets
    apply List.countP_congr
    intro k hk
    rw [List.mem_range] at hk
    rw [decide_eq_true_eq, decide_eq_true_eq, oneWay_skipped w h ds hu k hk]
    exact ⟨fun x => x.2, fun x => ⟨Nat.zero_le _, x⟩⟩
  · rw [q2]
    unfold lostCount Spec.Stats.packets
    apply List.countP_congr
    intro k hk
    rw [List.mem_range] at hk
    have hl : lostFor k (w.y.after w.as).entries ≠ [] ↔ inTimeCopies w.y.c ds w.sent.calls w.as k = 0 := by
      rw [← C97_records w h ds hu hn hp k hk]
      rcases hv k hk with ⟨g1, g2⟩ | ⟨g1, g2⟩
      · rw [g2]
        refine ⟨fun _ => rfl, fun _ e => ?_⟩
        rw [e] at g1; cases g1
      · rw [g1]
        refine ⟨fun e => (e rfl).elim, fun e => (g2 (List.length_eq_zero_iff.1 e)).elim⟩
    rw [decide_eq_true_eq, Bool.and_eq_true, decide_eq_true_eq, decide_eq_true_eq, oneWay_skipped w h ds hu k hk, hl]
    exact ⟨fun x => x.2, fun x => ⟨Nat.zero_le _, x⟩⟩
  · rw [p4]
    unfold extraCount Spec.Stats.duplicates
    congr 1
    apply List.map_congr_left
    intro k hk
    rw [List.mem_range] at hk
    by_cases hs : Spec.Stats.Skipped w.x.c.skips k
    · rw [copies_skipped _ _ _ _ _ hs, none_arrived w ds k ((oneWay_skipped w h ds hu k hk).1 hs)]
    · rw [copies_eq _ _ _ _ _ (by rw [hlast]; exact hk) hs, C97_records w h ds hu hn hp k hk]

/-! A session of four packets, due at seconds 101 to 104, timeout two seconds. The sender sends packet 0 at 101.5 and packet 1 at 102.5; then its clock jumps to 105.9: packet 2
is skipped and packet 3 still goes out. Packet 0 arrives twice, packet 1 never, packet 3 too late; a stranger's datagram comes in between. -/

def wayCfg : Sender.Cfg := { demoSend 4 with start := timestampToTimespec ⟨demoRecvCfg.start, false, 0, 0⟩ }

def wayTicks : List Sender.Tick :=
  [demoAt 101 500000000, demoAt 102 500000000, demoAt 105 900000000, { demoAt 105 900000000 with send := .nobufs }, demoAt 105 900000000, demoAt 200 0]

def wayCtx : Sched.Ctx := Sched.setup [] ⟨4, demoSlots⟩

def waySent : Sender.St := Sender.run wayCfg (Sender.init wayCfg (Sched.run wayCfg.E wayCtx []) (zeros 14) ⟨0, false, 0, 0⟩) wayTicks

/-- The bytes of the sender's call number `n`. -/
def wayBytes (n : Nat) : Bytes := (waySent.calls[n]?.map (·.bytes)).getD []

def wayArrivals : List Arrival :=
  [demoRecvGot (wayBytes 0) 102, demoRecvFrom [10, 0, 0, 2] (wayBytes 1) 102, demoRecvGot (wayBytes 0) 103, demoRecvIdle 104, demoRecvGot (wayBytes 3) 107]

def wayRecv : RecvRun where
  c := { demoRecvCfg with npackets := 4 }
  sid := []
  slots := demoSlots
  c0 := wayCtx
  ops := []
  clock := some ⟨⟨100, 0⟩, 1, true⟩
  usr2 := fun _ => false
  stamp := ⟨0, false, 0, 0⟩

def wayStat : StatSession where
  c := { sumStat.c with npackets := 4, skips := waySent.skips }
  sid := []
  slots := demoSlots
  c0 := wayCtx
  sched := by decide +kernel
  rlist := by decide
  data := by decide

def way : OneWay where
  c := wayCfg
  sops := []
  buf := zeros 14
  stamp := ⟨0, false, 0, 0⟩
  ticks := wayTicks
  y := wayRecv
  as := wayArrivals
  x := wayStat

theorem way_calls : waySent.calls.map (fun x => (x.seq, x.res)) = [(0, .ok), (1, .ok), (3, .nobufs), (3, .ok)] ∧ waySent.skips = [⟨2, 2⟩] ∧ waySent.phase = .finish := by
  decide +kernel

def wayDelays : List Nat := (Sched.deltas wayRecv.c.E 4 wayRecv.c0).map fun d => match d with
  | .ok d => d
  | .error _ => 0

theorem way_agreed : way.Agreed where
  summary := ⟨rfl, rfl, rfl, rfl, rfl, rfl⟩
  cipher := rfl
  mac := rfl
  format := rfl
  packets := rfl
  timeout := rfl
  start := rfl
  keys := ⟨1, false, true, zeros 16, zeros 32, zeros 16, by decide, by decide, by decide, by decide⟩
  padding := ⟨0, fun _ => rfl, rfl, rfl⟩
  skips := rfl

theorem way_ok : wayRecv.Ok wayArrivals := by
  refine ⟨by decide +kernel, ?_, ?_⟩
  · intro r hr; cases hr; unfold GoodClock; decide +kernel
  · intro a ha r hr
    simp only [wayArrivals, List.mem_cons, List.not_mem_nil, or_false] at ha
    rcases ha with rfl | rfl | rfl | rfl | rfl <;> (cases hr; unfold GoodClock; decide +kernel)

theorem way_undisturbed : way.Undisturbed wayDelays where
  ok := way_ok
  delays := by
    obtain ⟨ds, h1, h2, h3⟩ := C06_schedule wayRecv.c.E wayRecv.sid _ wayRecv.c0 way_ok.sched
    have e : wayDelays = ds := by
      have h1' : Sched.deltas wayRecv.c.E 4 wayRecv.c0 = ds.map .ok := h1
      unfold wayDelays
      rw [h1', List.map_map]
      exact List.map_id _
    rw [e]
    exact ⟨h3, h2⟩
  era := ⟨by decide +kernel, by decide +kernel, by decide +kernel⟩
  packets := by decide
  sendClock := by
    intro t ht r hr
    simp only [way, wayTicks, List.mem_cons, List.not_mem_nil, or_false] at ht
    rcases ht with rfl | rfl | rfl | rfl | rfl | rfl <;> (cases hr; unfold InEra Spec.Normalised; decide +kernel)
  sendSignals := by
    intro t ht
    simp only [way, wayTicks, List.mem_cons, List.not_mem_nil, or_false] at ht
    rcases ht with rfl | rfl | rfl | rfl | rfl | rfl <;> exact ⟨rfl, rfl⟩
  sendDone := way_calls.2.2
  first := by
    refine ⟨_, rfl, ?_⟩
    intro a ha r hr
    simp only [way, wayArrivals, List.mem_cons, List.not_mem_nil, or_false] at ha
    rcases ha with rfl | rfl | rfl | rfl | rfl <;> (cases hr; decide +kernel)
  firstUsr2 := fun _ => rfl
  calm := by
    intro a ha
    simp only [way, wayArrivals, List.mem_cons, List.not_mem_nil, or_false] at ha
    rcases ha with rfl | rfl | rfl | rfl | rfl <;>
      exact ⟨_, ⟨rfl, ⟨rfl, rfl, rfl, rfl⟩, fun _ => rfl, rfl⟩, by unfold InEra Spec.Normalised; decide +kernel⟩
  onward := by
    unfold Onward
    have : ∀ a a' : Arrival, ∀ t t' : Owamp.Sender.Reading, a.clock = some t → a'.clock = some t' → total 1000000000 t.time ≤ total 1000000000 t'.time →
        ∀ r r', a.clock = some r → a'.clock = some r' → total 1000000000 r.time ≤ total 1000000000 r'.time := by
      intro a a' t t' h1 h2 h3 r r' h4 h5
      rw [h1] at h4; rw [h2] at h5; cases h4; cases h5; exact h3
    simp only [way, wayArrivals, List.pairwise_cons, List.mem_cons, List.not_mem_nil, or_false, forall_eq_or_imp, forall_eq, List.Pairwise.nil, and_true, false_implies, implies_true]
    refine ⟨⟨?_, ?_, ?_, ?_⟩, ⟨?_, ?_, ?_⟩, ⟨?_, ?_⟩, ?_⟩ <;> exact this _ _ _ _ rfl rfl (by decide +kernel)
  recvDone := by decide +kernel
  room := by decide +kernel

theorem way_network : way.Network := by
  intro a ha bytes ttl i hgot
  simp only [way, wayArrivals, List.mem_cons, List.not_mem_nil, or_false] at ha
  have h0 : ∃ x ∈ waySent.calls, x.res ≠ .nobufs ∧ x.bytes = wayBytes 0 := by
    have : waySent.calls.any (fun x => x.res ≠ .nobufs && x.bytes = wayBytes 0) = true := by decide +kernel
    simpa [List.any_eq_true] using this
  have h3 : ∃ x ∈ waySent.calls, x.res ≠ .nobufs ∧ x.bytes = wayBytes 3 := by
    have : waySent.calls.any (fun x => x.res ≠ .nobufs && x.bytes = wayBytes 3) = true := by decide +kernel
    simpa [List.any_eq_true] using this
  rcases ha with rfl | rfl | rfl | rfl | rfl
  · injection hgot with _ e; rw [← e]; exact h0
  · injection hgot with e; exact absurd e (by decide)
  · injection hgot with _ e; rw [← e]; exact h0
  · cases hgot
  · injection hgot with _ e; rw [← e]; exact h3

theorem way_prompt : way.Prompt wayDelays := by
  have : waySent.calls.all (fun x => decide (total 1000000000 x.time + 10 ≤ due wayCfg.start wayDelays x.seq + nanos wayCfg.timeout.toNat)) = true := by decide +kernel
  intro x hx
  exact of_decide_eq_true (List.all_eq_true.1 this x hx)

/-- Its report: three packets sent, two lost, one duplicate. -/
example : ∃ s', wayStat.summary (wayRecv.records wayArrivals) (Stats.create wayStat.c wayStat.c0) 0 0 (2 ^ 32 - 1) = .ok s' ∧ s'.sent = 3 ∧ s'.lost = 2 ∧ s'.dups = 1 := by
  obtain ⟨s', h1, h2, h3, h4⟩ := C97_report way way_agreed wayDelays way_undisturbed way_network way_prompt
  refine ⟨s', h1, ?_, ?_, ?_⟩
  · rw [h2]; decide +kernel
  · rw [h3]; decide +kernel
  · rw [h4]; decide +kernel

end Owamp.Props
