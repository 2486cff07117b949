import Verif.Lemmas.Trips
import Verif.Props.EndToEnd
import Verif.Props.Print
import Verif.Props.PrintSummary
/-!
# C97: what is read about a one-way session is true of the copies that came over the network
-/
namespace Owamp.Props
open Owamp.Num64 Owamp.Time Owamp.Codec Owamp.Pkt Owamp.Recv Owamp.Spec.Sender Owamp.Spec.Receiver Owamp.Spec.EndToEnd StatSession OneWay
open Owamp.Spec (total Normalised)

/-- What a record of an arrival says. -/
def toldBy (r : DataRec) : Copy := ⟨r.seq.toNat, r.send.owptime, r.recv.owptime, r.ttl⟩

/-- The copies that came in time in a session. -/
def OneWay.came (w : OneWay) (ds : List Nat) : List Copy := copiesInTime w.y.c ds w.sent.calls w.as

private theorem found {w : OneWay} (h : w.Agreed) {ds : List Nat} (hu : w.Undisturbed ds) {x : Sender.Call} (hx : x ∈ w.sent.calls) (hres : x.res ≠ .nobufs) :
    x.seq < w.y.c.npackets.toNat := by
  apply Nat.lt_of_not_le
  intro hk
  have := (oneWay_account w h ds hu).2 x.seq hk
  have hm : x ∈ handed x.seq w.sent.calls := oneWay_handed.2 ⟨hx, rfl, hres⟩
  rw [this] at hm
  cases hm

private theorem copy_trip (w : OneWay) (h : w.Agreed) (ds : List Nat) (hu : w.Undisturbed ds) (a : Arrival) (q : Copy)
    (hq : copyOf w.y.c ds w.sent.calls a = some q) : tripOf w.y.c ds a = some q := by
  unfold copyOf at hq
  split at hq
  · rename_i peer b ttl i r hgot hclk
    split at hq
    · rename_i hpeer
      obtain ⟨x, hx, hxq⟩ := Option.map_eq_some_iff.1 hq
      have hmem := List.mem_of_find?_eq_some hx
      have hprop := List.find?_some hx
      simp only [Bool.and_eq_true, decide_eq_true_eq, inTime] at hprop
      obtain ⟨⟨hres, hb⟩, t1, t2⟩ := hprop
      obtain ⟨⟨hlen, P, o1, o2, o3⟩, _⟩ := oneWay_calls w h ds hu x hmem
      have htk : a.got.taken w.y.c.len = some (peer, x.bytes, ttl) := by
        unfold Got.taken
        rw [hgot, ← hb]
        dsimp only
        rw [if_pos (by omega), ← hlen, List.take_length]
      have hbr : brought w.y.c a = some P := by
        unfold brought
        rw [htk]
        dsimp only
        rw [if_pos hpeer, o1]
      have ht : timely w.y.c ds (seqOf P).toNat a = true := by
        unfold timely
        rw [hbr, hclk]
        simp only [Bool.and_eq_true, decide_eq_true_eq]
        exact ⟨⟨trivial, by rw [o2]; exact t1⟩, by rw [o3]; exact t2⟩
      unfold tripOf
      rw [htk, hbr, hclk]
      dsimp only
      rw [if_pos ⟨by rw [o2]; exact found h hu hmem hres, ht⟩, ← hxq, o2, o3]
    · cases hq
  · cases hq

private theorem trip_copy (w : OneWay) (h : w.Agreed) (ds : List Nat) (hu : w.Undisturbed ds) (hn : w.Network) (a : Arrival) (ha : a ∈ w.as) (q : Copy)
    (hq : tripOf w.y.c ds a = some q) : copyOf w.y.c ds w.sent.calls a ≠ none := by
  unfold tripOf at hq
  split at hq
  · rename_i p b ttl P r htk hbr hclk
    split at hq
    · rename_i hc
      obtain ⟨hk, ht⟩ := hc
      obtain ⟨x, hx, hres, hbrings, hopen, hseq, htime⟩ := oneWay_brought w h ds hu hn a ha P hbr
      unfold timely at ht
      rw [hbr, hclk] at ht
      simp only [Bool.and_eq_true, decide_eq_true_eq] at ht
      obtain ⟨⟨_, t1⟩, t2⟩ := ht
      unfold brings at hbrings
      split at hbrings
      · rename_i peer b' ttl' i hgot
        simp only [Bool.and_eq_true, decide_eq_true_eq] at hbrings
        obtain ⟨e1, e2⟩ := hbrings
        unfold copyOf
        rw [hgot, hclk]
        dsimp only
        rw [if_pos e1]
        intro hnone
        rw [Option.map_eq_none_iff, List.find?_eq_none] at hnone
        refine hnone x hx ?_
        simp only [Bool.and_eq_true, decide_eq_true_eq, inTime]
        exact ⟨⟨hres, e2.symm⟩, by rw [← hseq]; exact t1, by rw [← htime]; exact t2⟩
      · cases hbrings
    · cases hq
  · cases hq

private theorem trips_copies (w : OneWay) (h : w.Agreed) (ds : List Nat) (hu : w.Undisturbed ds) (hn : w.Network) :
    w.as.filterMap (tripOf w.y.c ds) = w.came ds := by
  unfold OneWay.came copiesInTime
  apply List.filterMap_congr
  intro a ha
  cases hc : copyOf w.y.c ds w.sent.calls a with
  | some q => exact copy_trip w h ds hu a q hc
  | none =>
    cases ht : tripOf w.y.c ds a with
    | none => rfl
    | some q => exact (trip_copy w h ds hu hn a ha q ht hc).elim

/-- The packets of the copies are packets of the session that the sender did not skip. -/
theorem came_packets (w : OneWay) (h : w.Agreed) (ds : List Nat) (hu : w.Undisturbed ds) (q : Copy) (hq : q ∈ w.came ds) :
    q.packet < w.y.c.npackets.toNat ∧ ¬ Spec.Stats.Skipped w.x.c.skips q.packet := by
  unfold OneWay.came copiesInTime at hq
  obtain ⟨a, _, hc⟩ := List.mem_filterMap.1 hq
  unfold copyOf at hc
  split at hc
  · split at hc
    · obtain ⟨x, hx, hxq⟩ := Option.map_eq_some_iff.1 hc
      have hmem := List.mem_of_find?_eq_some hx
      have hprop := List.find?_some hx
      simp only [Bool.and_eq_true, decide_eq_true_eq] at hprop
      have hres := hprop.1.1
      have hk := found h hu hmem hres
      rw [← hxq]
      refine ⟨hk, fun hs => ?_⟩
      have hm : x ∈ handed x.seq w.sent.calls := oneWay_handed.2 ⟨hmem, rfl, hres⟩
      rw [(oneWay_skipped w h ds hu x.seq hk).1 hs] at hm
      cases hm
    · cases hc
  · cases hc

private theorem records_came (w : OneWay) (h : w.Agreed) (ds : List Nat) (hu : w.Undisturbed ds) (hn : w.Network) (hp : w.Prompt ds) :
    (got (w.y.after w.as).entries).map mark = w.came ds := by
  obtain ⟨ds', h1, h2, h3⟩ := C06_schedule w.y.c.E w.y.sid _ w.y.c0 hu.ok.sched
  have e : ds = ds' := List.ext_getElem (by rw [hu.delays.2, h2]) fun n n1 n2 => C06_spec_unique w.y.c.E w.y.sid w.y.slots 0 0 ds ds' hu.delays.1 h3 n n1 n2
  subst e
  obtain ⟨r, hr, hfirst⟩ := hu.first
  have hg := hu.ok.first r hr
  obtain ⟨b0, i1, i2⟩ := init_spec w.y.c w.y.sid w.y.slots w.y.c0 hu.ok.sched w.y.ops ds h1 h2 True (fun _ => True) (fun _ => True) w.y.clock w.y.usr2
    (fun _ => hu.firstUsr2) (fun r hr => ⟨trivial, hu.ok.first r hr⟩) w.y.stamp
  rw [hr] at i1 i2
  have hpos : w.y.c.npackets.toNat ≠ 0 := fun e => hu.packets (by apply BitVec.eq_of_toNat_eq; simpa using e)
  obtain ⟨c1, c2⟩ := init_counts w.y.c w.y.sid w.y.slots w.y.c0 hu.ok.sched w.y.ops ds h1 h2 r hg w.y.usr2 hu.firstUsr2 w.y.stamp b0 i1.1.1 hpos
  have hend := hu.recvDone
  unfold RecvRun.after at hend ⊢
  rw [hr] at hend ⊢
  have hnone : got (init w.y.c (Sched.run w.y.c.E w.y.c0 w.y.ops) (some r) w.y.usr2 w.y.stamp).entries = [] := by
    apply List.eq_nil_iff_forall_not_mem.2
    intro e he
    have := c2 e.data.seq.toNat
    unfold gotFor at this
    unfold got at he
    rw [List.mem_filter] at he
    rw [List.filter_eq_nil_iff] at this
    refine this e he.1 ?_
    have h2 := he.2
    simp only [Bool.and_eq_true, decide_eq_true_eq]
    simp_all
  rw [run_trips w.y.c ds h2 (era_rising hu.era) w.as (total 1000000000 r.time) b0 _ ?_ (oneWay_schedule w h ds hu hn hp) hu.onward i1 i2 c1 hend, hnone,
    trips_copies w h ds hu hn]
  · rfl
  · intro a ha
    obtain ⟨r', q1, _⟩ := hu.calm a ha
    exact ⟨r', q1, hu.ok.later a ha r' q1.clock, hfirst a ha r' q1.clock⟩

/-- **C97, the copies.** The records of arrivals that count for the summary of an undisturbed one-way session are, one by one and in their order, the copies of its packets that came in
time: with the packet's number, the time the packet was sent by the sender's clock, the time the copy came by the receiver's, and the TTL it came with. -/
theorem C97_copies (w : OneWay) (h : w.Agreed) (ds : List Nat) (hu : w.Undisturbed ds) (hn : w.Network) (hp : w.Prompt ds) :
    (Spec.Stats.arrivals (w.x.about 0 (2 ^ 32 - 1) (w.y.records w.as))).map toldBy = w.came ds := by
  have hlast : Spec.Stats.lastOf w.x.c (2 ^ 32 - 1) = w.y.c.npackets.toNat := by
    unfold Spec.Stats.lastOf
    rw [if_pos rfl, h.summary.packets]
  have hr := records_came w h ds hu hn hp
  have hin := came_packets w h ds hu
  rw [← hr] at hin
  rw [← hr]
  unfold Spec.Stats.arrivals StatSession.about Spec.Stats.counted RecvRun.records
  rw [hlast, List.filter_filter, List.filter_map, List.map_map]
  unfold got
  rw [show (toldBy ∘ fun e : Entry => stored e.data) = mark from rfl]
  congr 1
  apply List.filter_congr
  intro e he
  have hl := stored_lost e
  have hq : (stored e.data).seq = e.data.seq := rfl
  rw [Bool.eq_iff_iff]
  simp only [Function.comp, Bool.and_eq_true, decide_eq_true_eq, Bool.not_eq_true', hq, hl, Spec.Stats.Within]
  constructor
  · rintro ⟨a1, _⟩
    simpa using a1
  · intro a1
    have := hin (mark e) (List.mem_map.2 ⟨e, by unfold got; rw [List.mem_filter]; exact ⟨he, by rw [a1]; rfl⟩, rfl⟩)
    exact ⟨by rw [a1]; simp, ⟨Nat.zero_le _, this.1⟩, this.2⟩

/-! ## The figures -/

theorem first_told (C : List DataRec) (l : List Copy) (h : (Spec.Stats.arrivals C).map toldBy = l) (k : Nat) :
    (Spec.Stats.firstCopy C k).map toldBy = firstOf l k := by
  subst h
  unfold Spec.Stats.firstCopy firstOf
  rw [List.find?_map]
  rfl

private theorem firsts_told (C : List DataRec) (l : List Copy) (h : (Spec.Stats.arrivals C).map toldBy = l) (n : Nat) (p : DataRec → Bool) (p' : Copy → Bool)
    (hp : ∀ r, p r = p' (toldBy r)) : Spec.Stats.firsts n C p = firstsOf n l p' := by
  unfold Spec.Stats.firsts firstsOf
  congr 1
  funext k
  rw [← first_told C l h k]
  cases Spec.Stats.firstCopy C k with
  | none => rfl
  | some r => exact hp r

theorem seen_told (C : List DataRec) (l : List Copy) (h : (Spec.Stats.arrivals C).map toldBy = l) (n t : Nat) : TtlSeen n C t ↔ TtlCame n l t := by
  unfold TtlSeen TtlCame
  constructor
  · rintro ⟨k, r, h1, h2, h3⟩
    refine ⟨k, toldBy r, h1, ?_, h3⟩
    rw [← first_told C l h k, h2]
    rfl
  · rintro ⟨k, q, h1, h2, h3⟩
    rw [← first_told C l h k] at h2
    obtain ⟨r, h4, h5⟩ := Option.map_eq_some_iff.1 h2
    exact ⟨k, r, h1, h4, by rw [← h5] at h3; exact h3⟩

private theorem reordered_told (C : List DataRec) (l : List Copy) (h : (Spec.Stats.arrivals C).map toldBy = l) (j : Nat) :
    Spec.Stats.reordered C j = overtaken l j := by
  subst h
  unfold Spec.Stats.reordered overtaken
  dsimp only
  rw [List.map_map, List.length_map, List.length_map]
  rfl

private theorem arrived_told (w : OneWay) (h : w.Agreed) (ds : List Nat) (hu : w.Undisturbed ds) (hn : w.Network) (hp : w.Prompt ds) :
    arrived w.y.c.npackets.toNat (w.x.about 0 (2 ^ 32 - 1) (w.y.records w.as)) = 0 ↔ w.came ds = [] := by
  unfold arrived
  rw [firsts_told _ _ (C97_copies w h ds hu hn hp) _ _ (fun _ => true) (fun _ => rfl)]
  unfold firstsOf Spec.Stats.packets
  rw [List.countP_eq_zero]
  constructor
  · intro hz
    apply List.eq_nil_iff_forall_not_mem.2
    intro q hq
    have := hz q.packet (List.mem_range.2 (came_packets w h ds hu q hq).1)
    refine this ?_
    cases hf : firstOf (w.came ds) q.packet with
    | some _ => rfl
    | none =>
      unfold firstOf at hf
      rw [List.find?_eq_none] at hf
      exact absurd (decide_eq_true rfl) (hf q hq)
  · intro e k _ hk
    rw [e] at hk
    exact absurd hk (by simp [firstOf])

/-- **C97, the figures.** In every summary of an undisturbed one-way session the least and greatest delay are those of the copies that came in time, the counts for the TTL
values are those of the first copies, and the counts for reordering those of the order in which the copies came. -/
theorem C97_figures (w : OneWay) (h : w.Agreed) (ds : List Nat) (hu : w.Undisturbed ds) (hn : w.Network) (hp : w.Prompt ds)
    (delay : U64 → U64 → Int) (hdel : ∀ a b, w.x.c.delay a b = delay a.owptime b.owptime)
    (s s' : Stats.St) (oset : Nat) (hs : Object w.x s) (hsum : w.x.summary (w.y.records w.as) s oset 0 (2 ^ 32 - 1) = .ok s') :
    Spec.Stats.LeastOf w.x.c.inf ((w.came ds).map fun q => delay q.sent q.came) s'.min ∧
    Spec.Stats.GreatestOf (-w.x.c.inf) ((w.came ds).map fun q => delay q.sent q.came) s'.max ∧
    (∀ t, t < 256 → s'.ttl.getD t 0 = firstsOf w.y.c.npackets.toNat (w.came ds) fun q => q.ttl.toNat = t) ∧
    ∀ j, j < w.x.c.rlist → s'.rn.getD j 0 = overtaken (w.came ds) (j + 1) := by
  have hlast : Spec.Stats.lastOf w.x.c (2 ^ 32 - 1) = w.y.c.npackets.toNat := by
    unfold Spec.Stats.lastOf
    rw [if_pos rfl, h.summary.packets]
  have hpos : w.y.c.npackets.toNat ≠ 0 := fun e => hu.packets (by apply BitVec.eq_of_toNat_eq; simpa using e)
  have hrange : w.x.Range 0 (2 ^ 32 - 1) := by
    unfold StatSession.Range
    rw [hlast, h.summary.packets]
    omega
  have hc := C97_copies w h ds hu hn hp
  obtain ⟨ds', hd, _⟩ := w.x.tells s hs _ hu.room oset 0 (2 ^ 32 - 1) hrange s' hsum
  obtain ⟨_, _, f3, f4, _, _, _, f8⟩ := C65_figures w.x s s' hs ds' hd _ hu.room oset 0 (2 ^ 32 - 1) hrange hsum _ rfl
  obtain ⟨_, r2⟩ := C52_reordering w.x s s' hs _ hu.room oset 0 (2 ^ 32 - 1) hrange hsum
  have hm : ((Spec.Stats.arrivals (w.x.about 0 (2 ^ 32 - 1) (w.y.records w.as))).map fun r => w.x.c.delay r.send r.recv) = (w.came ds).map fun q => delay q.sent q.came := by
    rw [← hc, List.map_map]
    apply List.map_congr_left
    intro r _
    exact hdel _ _
  rw [hm] at f3 f4
  rw [hlast] at f8
  refine ⟨f3, f4, fun t ht => ?_, fun j hj => ?_⟩
  · rw [f8 t ht]
    exact firsts_told _ _ hc _ _ _ fun _ => rfl
  · rw [r2 j hj]
    exact reordered_told _ _ hc _

private theorem counts_true (w : OneWay) (h : w.Agreed) (ds : List Nat) (hu : w.Undisturbed ds) (hn : w.Network) (hp : w.Prompt ds) :
    Spec.Stats.sent w.y.c.npackets.toNat (w.x.about 0 (2 ^ 32 - 1) (w.y.records w.as)) = sentCount w.y.c.npackets.toNat w.sent.calls ∧
    Spec.Stats.lost w.y.c.npackets.toNat (w.x.about 0 (2 ^ 32 - 1) (w.y.records w.as)) = lostCount w.y.c.npackets.toNat w.y.c ds w.sent.calls w.as ∧
    Spec.Stats.duplicates w.y.c.npackets.toNat (w.x.about 0 (2 ^ 32 - 1) (w.y.records w.as)) = extraCount w.y.c.npackets.toNat w.y.c ds w.sent.calls w.as := by
  have hlast : Spec.Stats.lastOf w.x.c (2 ^ 32 - 1) = w.y.c.npackets.toNat := by
    unfold Spec.Stats.lastOf
    rw [if_pos rfl, h.summary.packets]
  have hpos : w.y.c.npackets.toNat ≠ 0 := fun e => hu.packets (by apply BitVec.eq_of_toNat_eq; simpa using e)
  have hrange : w.x.Range 0 (2 ^ 32 - 1) := by
    unfold StatSession.Range
    rw [hlast, h.summary.packets]
    omega
  obtain ⟨s', h1, h2, h3, h4⟩ := C97_report w h ds hu hn hp
  obtain ⟨c1, c2, c3, _⟩ := C50_counts w.x _ s' .fresh _ hu.room 0 0 (2 ^ 32 - 1) hrange (C50_receiver_lostOnce w.y w.as hu.ok) h1
  rw [hlast] at c1 c2 c3
  exact ⟨by rw [← c1, h2], by rw [← c2, h3], by rw [← c3, h4]⟩

open Owamp.Print in
open Owamp.Spec.Print in
/-- **C97, what programs read.** The report of an undisturbed one-way session says how many packets the sender handed to the network, of how many no copy came in time, and how many
further copies came in time; the least and greatest delay of the copies; and how many packets first came with a delay in each bucket. -/
theorem C97_program (w : OneWay) (h : w.Agreed) (ds : List Nat) (hu : w.Undisturbed ds) (hn : w.Network) (hp : w.Prompt ds)
    (delay : U64 → U64 → Int) (hdel : ∀ a b, w.x.c.delay a b = delay a.owptime b.owptime)
    (F : Print.Fmt) (i : Info) (L : List (List Bytes)) (hL : Reported w.x (w.y.records w.as) 0 (2 ^ 32 - 1) F i L)
    (n : Nat) (hN : n = w.y.c.npackets.toNat) (K : List Copy) (hK : K = w.came ds) (D : List Int) (hD : D = K.map fun q => delay q.sent q.came) :
    Number L ['S','E','N','T'] (sentCount n w.sent.calls) ∧ Number L ['L','O','S','T'] (lostCount n w.y.c ds w.sent.calls w.as) ∧
    Number L ['D','U','P','S'] (extraCount n w.y.c ds w.sent.calls w.as) ∧
    (∀ m ∈ D, m < w.x.c.inf → (∀ d ∈ D, m ≤ d) → Says L ['M','I','N'] (F.delay m)) ∧ ((∀ d ∈ D, w.x.c.inf ≤ d) → Spec.Print.Silent L ['M','I','N']) ∧
    (∀ m ∈ D, -w.x.c.inf < m → (∀ d ∈ D, d ≤ m) → Says L ['M','A','X'] (F.delay m)) ∧ ((∀ d ∈ D, d ≤ -w.x.c.inf) → Spec.Print.Silent L ['M','A','X']) ∧
    (K ≠ [] → ∃ rows, Table L ['B','U','C','K','E','T','S'] rows ∧ (rows.map (·.1)).Pairwise (· ≠ ·) ∧
      ∀ b k, (b, k) ∈ rows ↔ k ≠ 0 ∧ firstsOf n K (fun q => w.x.c.bucket (delay q.sent q.came) = b) = k) ∧
    (K = [] → NoTable L ['B','U','C','K','E','T','S']) := by
  have hlast : Spec.Stats.lastOf w.x.c (2 ^ 32 - 1) = n := by
    unfold Spec.Stats.lastOf
    rw [if_pos rfl, h.summary.packets, hN]
  subst hN
  subst hK
  have hc := C97_copies w h ds hu hn hp
  obtain ⟨t1, t2, t3⟩ := counts_true w h ds hu hn hp
  obtain ⟨ds', hd, _⟩ : ∃ ds', w.x.Delays ds' ∧ True := by
    obtain ⟨s, s', oset, hs, hsum, _⟩ := hL.made
    obtain ⟨ds', hd, _⟩ := w.x.tells s hs _ hL.size oset 0 (2 ^ 32 - 1) hL.range s' hsum
    exact ⟨ds', hd, trivial⟩
  obtain ⟨a1, a2, a3, _⟩ := C84_counts w.x _ 0 (2 ^ 32 - 1) F i L hL ds' hd _ rfl _ hlast.symm
  rw [t1] at a1
  rw [t2] at a2
  rw [t3] at a3
  obtain ⟨d1, d2, d3, d4, _⟩ := C84_delays w.x _ 0 (2 ^ 32 - 1) F i L hL _ rfl _ hlast.symm D (by
    rw [hD, ← hc, List.map_map]
    apply List.map_congr_left
    intro r _
    exact (hdel _ _).symm)
  obtain ⟨b1, b2⟩ := C84_histogram w.x _ 0 (2 ^ 32 - 1) F i L hL _ rfl _ hlast.symm
  have har := arrived_told w h ds hu hn hp
  refine ⟨a1, a2, a3, d1, d2, d3, d4, ?_, fun e => b2 (har.2 e)⟩
  · intro hne
    obtain ⟨rows, r1, r2, r3⟩ := b1 (fun e => hne (har.1 e))
    refine ⟨rows, r1, r2, fun b k => ?_⟩
    rw [r3 b k, firsts_told _ _ hc _ _ (fun q => decide (w.x.c.bucket (delay q.sent q.came) = b))]
    intro r
    show decide (w.x.c.bucket (w.x.c.delay r.send r.recv) = b) = _
    rw [hdel]
    rfl

open Owamp.Print in
open Owamp.Spec.Print in
/-- **C84, and the copies on the network.** The report of an undisturbed one-way session has the least and greatest TTL of the first copies that came, and how many packets first came with each
(partial as in C84: some value, but not all 256, occurs). -/
theorem C84_came_ttls_partial (w : OneWay) (h : w.Agreed) (ds : List Nat) (hu : w.Undisturbed ds) (hn : w.Network) (hp : w.Prompt ds)
    (F : Print.Fmt) (i : Info) (L : List (List Bytes)) (hL : Reported w.x (w.y.records w.as) 0 (2 ^ 32 - 1) F i L)
    (n : Nat) (hN : n = w.y.c.npackets.toNat) (K : List Copy) (hK : K = w.came ds) :
    ((∃ t, TtlCame n K t) → (∃ t, t < 256 ∧ ¬ TtlCame n K t) →
      (∃ lo hi, Number L ['M','I','N','T','T','L'] lo ∧ Number L ['M','A','X','T','T','L'] hi ∧ TtlCame n K lo ∧ TtlCame n K hi ∧ ∀ t, TtlCame n K t → lo ≤ t ∧ t ≤ hi) ∧
      ∃ rows, Table L ['T','T','L','B','U','C','K','E','T','S'] rows ∧
        ∀ t k, (t, k) ∈ rows ↔ ∃ t' : Nat, t = (t' : Int) ∧ TtlCame n K t' ∧ k = firstsOf n K fun q => q.ttl.toNat = t') := by
  have hlast : Spec.Stats.lastOf w.x.c (2 ^ 32 - 1) = n := by
    unfold Spec.Stats.lastOf
    rw [if_pos rfl, h.summary.packets, hN]
  subst hN
  subst hK
  have hc := C97_copies w h ds hu hn hp
  rintro ⟨t, ht⟩ ⟨u, hu1, hu2⟩
  obtain ⟨⟨lo, hi, e1, e2, e3, e4, e5⟩, e6⟩ := C84_ttls_partial w.x _ 0 (2 ^ 32 - 1) F i L hL _ rfl _ hlast.symm ⟨t, (seen_told _ _ hc _ _).2 ht⟩
    ⟨u, hu1, fun g => hu2 ((seen_told _ _ hc _ _).1 g)⟩
  refine ⟨⟨lo, hi, e1, e2, (seen_told _ _ hc _ _).1 e3, (seen_told _ _ hc _ _).1 e4, fun v hv => e5 v ((seen_told _ _ hc _ _).2 hv)⟩, _, e6, fun v k => ?_⟩
  rw [List.mem_map]
  constructor
  · rintro ⟨v', m1, m2⟩
    rw [List.mem_filter, decide_eq_true_eq] at m1
    injection m2 with m3 m4
    exact ⟨v', m3.symm, (seen_told _ _ hc _ _).1 m1.2, by rw [← m4]; exact firsts_told _ _ hc _ _ _ fun _ => rfl⟩
  · rintro ⟨v', m1, m2, m3⟩
    have hs := (seen_told _ _ hc _ _).2 m2
    have hlt : v' < 256 := by
      obtain ⟨_, r, _, _, e⟩ := hs
      rw [← e]
      exact r.ttl.isLt
    refine ⟨v', by rw [List.mem_filter, decide_eq_true_eq]; exact ⟨List.mem_range.2 hlt, hs⟩, ?_⟩
    rw [m1, m3]
    congr 1
    exact firsts_told _ _ hc _ _ _ fun _ => rfl

open Owamp.Print in
open Owamp.Spec.Print in
open Owamp.Spec.Ports in
open Owamp.Policy (text) in
/-- **C97, what people read.** The summary of an undisturbed one-way session says how many packets the sender handed to the network, of how many no copy came in time and what share that
is, and how many further copies came in time; and it shows the least and the greatest delay of the copies. -/
theorem C97_people (w : OneWay) (h : w.Agreed) (ds : List Nat) (hu : w.Undisturbed ds) (hn : w.Network) (hp : w.Prompt ds)
    (delay : U64 → U64 → Int) (hdel : ∀ a b, w.x.c.delay a b = delay a.owptime b.owptime)
    (Z : Style) (i : Info) (ps : List (Rat × Bytes)) (new : Bool) (L : List Bytes) (hL : Summarised w.x (w.y.records w.as) 0 (2 ^ 32 - 1) Z i ps new L)
    (n : Nat) (hN : n = w.y.c.npackets.toNat) (D : List Int) (hD : D = (w.came ds).map fun q => delay q.sent q.came)
    (sent : Nat) (hsent : sent = sentCount n w.sent.calls) (lost : Nat) (hlost : lost = lostCount n w.y.c ds w.sent.calls w.as) :
    L[5]? = some (decimal sent ++ text [' ','s','e','n','t',',',' '] ++ decimal lost ++ text [' ','l','o','s','t',' ','('] ++
      (if sent = 0 then Z.percent 0 1 else Z.percent lost sent) ++ text ['%',')',',',' '] ++ decimal (extraCount n w.y.c ds w.sent.calls w.as) ++
      text [' ','d','u','p','l','i','c','a','t','e','s']) ∧
    ∃ a b c e, L[6]? = some (text ['o','n','e','-','w','a','y',' ','d','e','l','a','y',' ','m','i','n','/','m','e','d','i','a','n','/','m','a','x',' ','=',' '] ++
        a ++ text ['/'] ++ b ++ text ['/'] ++ c ++ text [' '] ++ Z.unit ++ text [',',' '] ++ e) ∧
      ((∃ m ∈ D, m < w.x.c.inf ∧ (∀ d ∈ D, m ≤ d) ∧ a = Z.delay m) ∨ (∀ d ∈ D, w.x.c.inf ≤ d) ∧ a = text ['n','a','n']) ∧
      ((∃ m ∈ D, -w.x.c.inf < m ∧ (∀ d ∈ D, d ≤ m) ∧ c = Z.delay m) ∨ (∀ d ∈ D, d ≤ -w.x.c.inf) ∧ c = text ['n','a','n']) := by
  have hlast : Spec.Stats.lastOf w.x.c (2 ^ 32 - 1) = n := by
    unfold Spec.Stats.lastOf
    rw [if_pos rfl, h.summary.packets, hN]
  subst hN
  have hc := C97_copies w h ds hu hn hp
  obtain ⟨t1, t2, t3⟩ := counts_true w h ds hu hn hp
  obtain ⟨a1, ⟨a, b, c, e, _, g1, g2, _, g3, _⟩, _⟩ := C85_figures w.x _ 0 (2 ^ 32 - 1) Z i ps new L hL _ rfl _ hlast.symm D (by
    rw [hD, ← hc, List.map_map]
    apply List.map_congr_left
    intro r _
    exact (hdel _ _).symm)
  rw [t1, t2, t3, ← hsent, ← hlost] at a1
  exact ⟨a1, a, b, c, e, g1, g2, g3⟩

/-! An example: the session of `C97_report`'s example. -/

/-- The delay between two time stamps, in units of 2^-32 s. -/
def ticksBetween (a b : U64) : Int := (b.toNat : Int) - a.toNat

theorem way_delay (a b : TimeStamp) : way.x.c.delay a b = ticksBetween a.owptime b.owptime := rfl

theorem way_summary : ∃ s', way.x.summary (way.y.records way.as) (Stats.create way.x.c way.x.c0) 0 0 (2 ^ 32 - 1) = .ok s' := by
  obtain ⟨s', h, _⟩ := C97_report way way_agreed wayDelays way_undisturbed way_network way_prompt
  exact ⟨s', h⟩

/-- Two copies of packet 0 came in time. -/
theorem way_came : (way.came wayDelays).map (fun q => (q.packet, q.ttl.toNat)) = [(0, 63), (0, 63)] := by decide +kernel

/-- Programs read: three sent, two lost, one duplicate. -/
example : ∃ L, Reported way.x (way.y.records way.as) 0 (2 ^ 32 - 1) demoFmt demoInfo L ∧ Spec.Print.Number L ['S','E','N','T'] 3 ∧ Spec.Print.Number L ['L','O','S','T'] 2 ∧
    Spec.Print.Number L ['D','U','P','S'] 1 := by
  obtain ⟨s', h⟩ := way_summary
  have R : Reported way.x (way.y.records way.as) 0 (2 ^ 32 - 1) demoFmt demoInfo (Spec.Print.lines (Print.machine demoFmt way.x.c demoInfo s')) :=
    ⟨⟨_, s', 0, .fresh, h, rfl⟩, way_undisturbed.room, by unfold StatSession.Range; decide +kernel, C50_receiver_lostOnce way.y way.as way_undisturbed.ok, demo_fmt, demo_info⟩
  obtain ⟨h1, h2, h3, _⟩ := C97_program way way_agreed wayDelays way_undisturbed way_network way_prompt ticksBetween way_delay demoFmt demoInfo _ R _ rfl _ rfl _ rfl
  refine ⟨_, R, ?_⟩
  have e1 : sentCount way.y.c.npackets.toNat way.sent.calls = 3 := by decide +kernel
  have e2 : lostCount way.y.c.npackets.toNat way.y.c wayDelays way.sent.calls way.as = 2 := by decide +kernel
  have e3 : extraCount way.y.c.npackets.toNat way.y.c wayDelays way.sent.calls way.as = 1 := by decide +kernel
  rw [e1] at h1
  rw [e2] at h2
  rw [e3] at h3
  exact ⟨h1, h2, h3⟩

/-- All copies came with TTL 63. -/
example : (∃ t, TtlCame 4 (way.came wayDelays) t) ∧ ∃ t, t < 256 ∧ ¬ TtlCame 4 (way.came wayDelays) t := by
  have e : ∀ k, k < 4 → (firstOf (way.came wayDelays) k).map (·.ttl.toNat) = if k = 0 then some 63 else none := by decide +kernel
  constructor
  · obtain ⟨q, h1, h2⟩ := Option.map_eq_some_iff.1 (e 0 (by decide))
    exact ⟨63, 0, q, by decide, h1, h2⟩
  · refine ⟨64, by decide, ?_⟩
    rintro ⟨k, q, h1, h2, h3⟩
    have := e k h1
    rw [h2, Option.map_some, h3] at this
    split at this <;> simp at this

open Owamp.Policy (text) in
/-- People read the same. -/
example : ∃ L, Summarised way.x (way.y.records way.as) 0 (2 ^ 32 - 1) demoStyle demoInfo [] true L ∧
    (L[5]?).map (·.take 14) = some (text ['3',' ','s','e','n','t',',',' ','2',' ','l','o','s','t']) := by
  obtain ⟨s', h⟩ := way_summary
  have R : Summarised way.x (way.y.records way.as) 0 (2 ^ 32 - 1) demoStyle demoInfo [] true (Spec.Print.textLines (Print.summary demoStyle way.x.c demoInfo s' [])) :=
    ⟨⟨_, s', 0, .fresh, fun _ => rfl, h, rfl⟩, way_undisturbed.room, by unfold StatSession.Range; decide +kernel, C50_receiver_lostOnce way.y way.as way_undisturbed.ok, demo_style, demo_info, nofun⟩
  obtain ⟨h1, _⟩ := C97_people way way_agreed wayDelays way_undisturbed way_network way_prompt ticksBetween way_delay demoStyle demoInfo [] true _ R _ rfl _ rfl 3 (by decide +kernel) 2 (by decide +kernel)
  refine ⟨_, R, ?_⟩
  rw [h1]
  have e3 : extraCount way.y.c.npackets.toNat way.y.c wayDelays way.sent.calls way.as = 1 := by decide +kernel
  rw [e3]
  decide +kernel

end Owamp.Props
