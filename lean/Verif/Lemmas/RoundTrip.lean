import Verif.Lemmas.TwoWayEnd
/-!
# Steps towards C98: which replies an undisturbed sender of a two-way test records
-/
namespace Owamp.TwoWay
open Owamp.Num64 Owamp.Time Owamp.Pkt Owamp.Ctl Owamp.Codec Owamp.Spec Owamp.Spec.TwoWay Owamp.Props
open Owamp.Spec.Sender (nanos due)
open Owamp.Spec.Receiver (schedTime unixNanos stampOf epoch)
open Owamp.Sender (Reading nanos_eq toNat_ofNat32)
open Owamp.Recv (rel clear_add sched_rel Got Flushed)

/-- The records of replies. -/
def heard (es : List Entry) : List Entry := es.filter fun e => !noReply e

theorem heard_append (a b : List Entry) : heard (a ++ b) = heard a ++ heard b := List.filter_append ..

theorem heard_lost (c : Cfg) (n : Node) (rt : TimeStamp) (now : TimeParts) : heard [⟨lostRec c n rt, now⟩] = [] := by
  have : noReply ⟨lostRec c n rt, now⟩ = true := by simp only [noReply, lostRec]; rfl
  simp [heard, this]

theorem flush_heard (c : Cfg) (usr2 : Nat → Bool) (clock : TimeParts) (n : Nat) : ∀ (j : Nat) (cur : TimeParts) (s : St),
    heard (flush c usr2 clock n j cur s).2.entries = heard s.entries ∧ (flush c usr2 clock n j cur s).2.missed = s.missed ∧
      (flush c usr2 clock n j cur s).2.i = s.i := by
  induction n with
  | zero => intro j cur s; exact ⟨rfl, rfl, rfl⟩
  | succ n ih =>
    intro j cur s
    rw [flush]
    split
    · exact ⟨rfl, rfl, rfl⟩
    · rename_i b rest hq
      simp only
      generalize (if usr2 j = true then tsAdd (tsAdd ⟨0, 0⟩ (tsAdd (tsAdd ⟨0, 0⟩ b.absolute) (toTimespec c.timeout.toNat))) (toTimespec c.timeout.toNat) else cur) = cur'
      split
      · split
        · exact ⟨rfl, rfl, rfl⟩
        · rename_i s1 h1
          have hs1 : heard s1.entries = heard s.entries ∧ s1.missed = s.missed ∧ s1.i = s.i := by
            split at h1
            · rw [← Option.some.inj h1]; exact ⟨rfl, rfl, rfl⟩
            · unfold writeRec at h1
              split at h1
              · rw [← Option.some.inj h1]
                simp only [heard_append, heard_lost, List.append_nil, and_self]
              · cases h1
          split
          · exact hs1
          · rename_i s2 h2
            have hs2 : s2.entries = s1.entries ∧ s2.missed = s1.missed ∧ s2.i = s1.i := by
              unfold pop at h2
              split at h2
              · rw [← Option.some.inj h2]; exact ⟨rfl, rfl, rfl⟩
              · split at h2
                · obtain ⟨r, _, hr⟩ := Option.map_eq_some_iff.1 h2
                  rw [← hr]; exact ⟨rfl, rfl, rfl⟩
                · rw [← Option.some.inj h2]; exact ⟨rfl, rfl, rfl⟩
            have hs2 : heard s2.entries = heard s.entries ∧ s2.missed = s.missed ∧ s2.i = s.i :=
              ⟨by rw [hs2.1, hs1.1], by rw [hs2.2.1, hs1.2.1], by rw [hs2.2.2, hs1.2.2]⟩
            split
            · exact hs2
            · have := ih (j + 1) cur' s2
              exact ⟨by rw [this.1, hs2.1], by rw [this.2.1, hs2.2.1], by rw [this.2.2, hs2.2.2]⟩
      · exact ⟨rfl, rfl, rfl⟩

/-- What a flush takes off the queue was sent and its time is over. -/
theorem flush_popped (c : Cfg) (usr2 : Nat → Bool) (hu : ∀ j, usr2 j = false) (clock : TimeParts) (n : Nat) : ∀ (j : Nat) (cur : TimeParts) (s : St),
    ∀ x ∈ s.q, x ∈ (flush c usr2 clock n j cur s).2.q ∨
      (x.sent = true ∧ tsLt (tsAdd (tsAdd ⟨0, 0⟩ x.absolute) (toTimespec c.timeout.toNat)) cur = true) := by
  induction n with
  | zero => intro j cur s x hx; exact Or.inl hx
  | succ n ih =>
    intro j cur s x hx
    rw [flush]
    split
    · rename_i hq; rw [hq] at hx; cases hx
    · rename_i b rest hq
      simp only [hu j, Bool.false_eq_true, if_false]
      split
      · rename_i hcond
        rw [Bool.and_eq_true] at hcond
        split
        · exact Or.inl hx
        · rename_i s1 h1
          have hs1 : s1.q = s.q := by
            split at h1
            · rw [← Option.some.inj h1]
            · unfold writeRec at h1
              split at h1
              · rw [← Option.some.inj h1]
              · cases h1
          split
          · exact Or.inl (by rw [hs1]; exact hx)
          · rename_i s2 h2
            rw [hq] at hx
            rcases List.mem_cons.1 hx with rfl | hx
            · exact Or.inr ⟨hcond.2, hcond.1⟩
            · have h2q : x ∈ s2.q := by
                cases rest with
                | nil => cases hx
                | cons y rest' =>
                  have h2' := h2
                  simp only [pop] at h2'
                  rw [← Option.some.inj h2']
                  exact hx
              split
              · exact Or.inl h2q
              · exact ih (j + 1) cur s2 x h2q
      · exact Or.inl hx

/-- The history of an undisturbed run whose clock last showed `last`: packets are sent in order, at times that do not go back; a packet is skipped only when its time was over before
any later one was sent. -/
structure Tide (c : Cfg) (ds : List Nat) (s : St) (last : Int) : Prop where
  callsLe : ∀ x ∈ s.calls, total 1000000000 x.time ≤ last
  seqs : ∀ x ∈ s.calls, x.seq ≤ s.i
  asc : s.calls.Pairwise fun x y => x.seq ≤ y.seq ∧ total 1000000000 x.time ≤ total 1000000000 y.time
  whole : ∀ x ∈ s.calls, x.res ≠ .intr ∧ x.res ≠ .fatal
  missedLe : ∀ j ∈ s.missed, due c.begin ds j + nanos c.timeout.toNat < last
  missedBefore : ∀ j ∈ s.missed, ∀ x ∈ s.calls, j < x.seq → due c.begin ds j + nanos c.timeout.toNat < total 1000000000 x.time

/-- The packets taken off the queue are over. -/
def Gone (c : Cfg) (b : Nat) (s : St) (last : Int) : Prop :=
  ∀ x ∈ s.calls, counted x → x.seq < b → total 1000000000 x.time + nanos c.timeout.toNat < last

theorem Tide.keep {c : Cfg} {ds : List Nat} {s s' : St} {last last' : Int} (h : Tide c ds s last) (h1 : s'.calls = s.calls) (h2 : s'.missed = s.missed)
    (h3 : s.i ≤ s'.i) (h4 : last ≤ last') : Tide c ds s' last' := by
  refine ⟨fun x hx => ?_, fun x hx => ?_, by rw [h1]; exact h.asc, by rw [h1]; exact h.whole, fun j hj => ?_, by rw [h1, h2]; exact h.missedBefore⟩
  · rw [h1] at hx; exact Int.le_trans (h.callsLe x hx) h4
  · rw [h1] at hx; exact Nat.le_trans (h.seqs x hx) h3
  · rw [h2] at hj; have := h.missedLe j hj; omega

theorem Gone.keep {c : Cfg} {b : Nat} {s s' : St} {last last' : Int} (h : Gone c b s last) (h1 : s'.calls = s.calls) (h4 : last ≤ last') : Gone c b s' last' := by
  intro x hx hc hb
  rw [h1] at hx
  have := h x hx hc hb
  omega

/-- Adding a call. -/
theorem Tide.call {c : Cfg} {ds : List Nat} {s s' : St} {last : Int} (h : Tide c ds s last) (x : Call) (h1 : s'.calls = s.calls ++ [x]) (h2 : s'.missed = s.missed)
    (h3 : s.i ≤ s'.i) (hx : x.seq = s.i) (hr : x.res ≠ .intr ∧ x.res ≠ .fatal) (hl : last ≤ total 1000000000 x.time) : Tide c ds s' (total 1000000000 x.time) := by
  have split : ∀ y ∈ s'.calls, y ∈ s.calls ∨ y = x := by
    intro y hy
    rw [h1] at hy
    rcases List.mem_append.1 hy with hy | hy
    · exact Or.inl hy
    · exact Or.inr (List.mem_singleton.1 hy)
  refine ⟨fun y hy => ?_, fun y hy => ?_, ?_, fun y hy => ?_, fun j hj => ?_, fun j hj y hy hlt => ?_⟩
  · rcases split y hy with hy | rfl
    · exact Int.le_trans (h.callsLe y hy) hl
    · exact Int.le_refl _
  · rcases split y hy with hy | rfl
    · exact Nat.le_trans (h.seqs y hy) h3
    · omega
  · rw [h1, List.pairwise_append]
    refine ⟨h.asc, by simp, fun a ha b hb => ?_⟩
    rw [List.mem_singleton] at hb
    subst hb
    exact ⟨by have := h.seqs a ha; omega, Int.le_trans (h.callsLe a ha) hl⟩
  · rcases split y hy with hy | rfl
    · exact h.whole y hy
    · exact hr
  · rw [h2] at hj; have := h.missedLe j hj; omega
  · rw [h2] at hj
    rcases split y hy with hy | rfl
    · exact h.missedBefore j hj y hy hlt
    · have := h.missedLe j hj; omega

theorem prep_keeps (c : Cfg) (s : St) : (prep c s).calls = s.calls ∧ (prep c s).missed = s.missed ∧ (prep c s).i = s.i ∧ (prep c s).entries = s.entries := by
  unfold prep
  split
  · exact ⟨rfl, rfl, rfl, rfl⟩
  · split
    · exact ⟨rfl, rfl, rfl, rfl⟩
    · split
      · exact ⟨rfl, rfl, rfl, rfl⟩
      · simp only
        split <;> exact ⟨rfl, rfl, rfl, rfl⟩

theorem advance_keeps (c : Cfg) (s : St) (hi : s.i + 1 < 2 ^ 32) :
    (advance c s).calls = s.calls ∧ (advance c s).missed = s.missed ∧ s.i ≤ (advance c s).i ∧ (advance c s).entries = s.entries := by
  have hmod : (s.i + 1) % 2 ^ 32 = s.i + 1 := Nat.mod_eq_of_lt hi
  simp only [advance, hmod]
  split
  · have := prep_keeps c { s with i := s.i + 1 }
    exact ⟨this.1, this.2.1, by rw [this.2.2.1]; exact Nat.le_succ _, this.2.2.2⟩
  · exact ⟨rfl, rfl, Nat.le_succ _, rfl⟩

section
variable {c : Cfg} {ds : List Nat} {quiet : Prop} {A : Tick → Prop} {R : TimeParts → Prop} {b m : Nat} {s : St}

theorem unique_call (h : Core c ds quiet A R b m s) (hd : s.phase ≠ .dead) {x y : Call} (hx : x ∈ s.calls) (hy : y ∈ s.calls) (h1 : x.res ≠ .nobufs) (h2 : y.res ≠ .nobufs)
    (he : x.seq = y.seq) : x = y ∧ x.seq < m ∧ x.seq ∉ s.missed := by
  have m1 : x ∈ handed x.seq s.calls := List.mem_filter.2 ⟨hx, by simpa using h1⟩
  have m2 : y ∈ handed x.seq s.calls := List.mem_filter.2 ⟨hy, by simpa using ⟨he.symm, h2⟩⟩
  rcases Nat.lt_or_ge x.seq m with hm | hm
  · rcases h.acct _ hm with ⟨z, z1, _, _, z4⟩ | ⟨z1, _⟩
    · rw [z1, List.mem_singleton] at m1 m2
      exact ⟨by rw [m1, m2], hm, z4⟩
    · rw [z1] at m1; cases m1
  · rw [h.unsent hd _ hm] at m1; cases m1

theorem counted_sent {x : Call} (h : counted x) : x.res ≠ .nobufs := by
  rcases h with h | h <;> rw [h] <;> decide

/-- Of two packets handed over the earlier has the smaller number. -/
theorem Tide.order {last : Int} (h : Tide c ds s last) {x y : Call} (hx : x ∈ s.calls) (hy : y ∈ s.calls) (hlt : x.seq < y.seq) :
    total 1000000000 x.time ≤ total 1000000000 y.time := by
  obtain ⟨a, b, e⟩ := List.append_of_mem hx
  have ha := h.asc
  rw [e] at ha hy
  rcases List.mem_append.1 hy with hy | hy
  · have := (List.pairwise_append.1 ha).2.2 y hy x (by simp)
    omega
  · rcases List.mem_cons.1 hy with rfl | hy
    · omega
    · exact ((List.pairwise_cons.1 (List.pairwise_append.1 ha).2.1).1 y hy).2

/-- The schedule as the process computes it in two ways: from the start as a time stamp, and from the start as a time of day. -/
def Near (c : Cfg) (ds : List Nat) : Prop := ∀ k, k < c.npackets.toNat → total 1000000000 (absOf c (rel ds k)) ≤ due c.begin ds k + nanos c.timeout.toNat

/-- A flush in an undisturbed run: afterwards a packet that was sent is off the queue exactly if its time is over. -/
theorem stampFlush_tide (hlen : ds.length = c.npackets.toNat) (hnear : Near c ds) (h : Core c ds quiet A R b m s) (hq : quiet) (hd : s.phase ≠ .dead) (hne : s.q ≠ [])
    (usr2 : Nat → Bool) (hu : ∀ j, usr2 j = false) (r : Sender.Reading) (hr : Clocked R r) {last : Int} (ht : Tide c ds s last) (hg : Gone c b s last)
    (hl : last ≤ total 1000000000 r.time) :
    heard (stampFlush c usr2 r s).2.entries = heard s.entries ∧
    ∃ b', Core c ds quiet A R b' m (stampFlush c usr2 r s).2 ∧ Tide c ds (stampFlush c usr2 r s).2 (total 1000000000 r.time) ∧
      Gone c b' (stampFlush c usr2 r s).2 (total 1000000000 r.time) ∧
      ((stampFlush c usr2 r s).1 = .over → b' = c.npackets.toNat) ∧
      ((stampFlush c usr2 r s).1 = .more → ∀ x ∈ s.calls, counted x → Expired c x r.time → x.seq < b') := by
  obtain ⟨b', q, ctx, es, g1, g2, g3, _, g5, g6, g7⟩ := stampFlush_spec hlen h hne usr2 (fun _ => hu) r hr
  have hh := flush_heard c usr2 r.time (c.npackets.toNat + 1) 0 r.time
    { s with rtime := { timespecToTimestamp s.rtime r.time (some r.err) none with sync := r.sync }, cur := r.time }
  have hp := flush_popped c usr2 hu r.time (c.npackets.toNat + 1) 0 r.time
    { s with rtime := { timespecToTimestamp s.rtime r.time (some r.err) none with sync := r.sync }, cur := r.time }
  refine ⟨hh.1, b', g3, ?_, ?_, fun e => (g6 e).1, fun e x hx hc hex => ?_⟩
  · exact ht.keep (by rw [g2]) (by rw [g2]) (by rw [g2]; exact Nat.le_refl _) hl
  · intro x hx hc hb
    rw [g2] at hx
    have hx : x ∈ s.calls := hx
    rcases Nat.lt_or_ge x.seq b with hxb | hxb
    · have := hg x hx hc hxb
      omega
    · obtain ⟨_, u2, u3⟩ := unique_call h hd hx hx (counted_sent hc) (counted_sent hc) rfl
      obtain ⟨n, _, n2, n3, _⟩ := chain_find ds s.q b x.seq h.queue.chain hxb (Nat.lt_of_lt_of_le u2 h.mq)
      rcases hp n n2 with hn | ⟨hn1, hn2⟩
      · exfalso
        have hc' := g3.queue.chain
        have : n ∈ (stampFlush c usr2 r s).2.q := hn
        have := (chain_mem ds _ b' hc' n this).1
        omega
      · have hok := h.nodes n n2
        obtain ⟨y, y1, y2, y3, y4⟩ := hok.onAir hn1 (by rw [n3]; exact u3)
        have hxy := (unique_call h hd hx y1 (counted_sent hc) (counted_sent y3) (by omega)).1
        have hto := nanos_eq c.timeout.toNat c.timeout.isLt
        have hex := (C60_timespec_arith n.absolute (toTimespec c.timeout.toNat) hok.norm hto.2).2.2.1
        rw [clear_add _ hok.norm, (C60_timespec_arith _ r.time hex.2 ⟨hr.2.1, hr.2.2.1⟩).1, hex.1, hto.1, ← y4, ← hxy] at hn2
        exact hn2
  · rcases Nat.lt_or_ge x.seq b' with hb | hb
    · exact hb
    · exfalso
      obtain ⟨n, rest, hqq⟩ : ∃ n rest, q = n :: rest := by
        cases hqq : q with
        | nil => exact (g5 e hqq).elim
        | cons n rest => exact ⟨n, rest, rfl⟩
      have hY : (stampFlush c usr2 r s).2.q = n :: rest := by rw [g2]; exact hqq
      have hcalls : (stampFlush c usr2 r s).2.calls = s.calls := by rw [g2]
      have hmiss : (stampFlush c usr2 r s).2.missed = s.missed := by rw [g2]
      have hpY : (stampFlush c usr2 r s).2.phase = s.phase := by rw [g2]
      have hok := g3.nodes n (by rw [hY]; simp)
      have hc' := g3.queue.chain
      rw [hY] at hc'
      have hnb : n.seq = b' := hc'.1.1
      obtain ⟨_, u2, u3⟩ := unique_call g3 (by rw [hpY]; exact hd) (by rw [hcalls]; exact hx) (by rw [hcalls]; exact hx) (counted_sent hc) (counted_sent hc) rfl
      rw [hmiss] at u3
      have hns : n.sent = true := by
        cases hs : n.sent with
        | true => rfl
        | false =>
          obtain ⟨y, y1, _, y3⟩ := hok.cut hs (by omega)
          rw [hcalls] at y1
          exact ((ht.whole y y1).1 y3).elim
      have hnot := (g7 e n rest hqq hns).1 hq
      unfold Expired at hex
      by_cases hm : n.seq ∈ s.missed
      · have hlt : n.seq < x.seq := by
          rcases Nat.lt_or_ge n.seq x.seq with hh | hh
          · exact hh
          · exact (u3 (by rw [show x.seq = n.seq by omega]; exact hm)).elim
        have h1 := ht.missedBefore _ hm x hx hlt
        have h2 := hok.abs (Or.inr (by rw [hmiss]; exact hm))
        have hfit := g3.queue.fits
        rw [hY, List.length_cons] at hfit
        have h3 := hnear n.seq (by omega)
        rw [← h2] at h3
        omega
      · obtain ⟨y, y1, y2, y3, y4⟩ := hok.onAir hns (by rw [hmiss]; exact hm)
        rw [hcalls] at y1
        rw [← y4] at hnot
        rcases Nat.lt_or_ge y.seq x.seq with hh | hh
        · have := ht.order y1 hx hh
          omega
        · have : y.seq = x.seq := by omega
          have := (unique_call h hd y1 hx (counted_sent y3) (counted_sent hc) this).1
          rw [this] at hnot
          omega

theorem sendTurn_tide (hst : 0 ≤ c.begin.sub ∧ c.begin.sub < 1000000000) (h : Inv c ds quiet A R b m s) (hs : s.phase = .sending) (t : Tick) (r : Sender.Reading) (hc : t.clock = some r)
    (hr : Clocked R r) (hsend : t.send ≠ .intr ∧ t.send ≠ .fatal) {last : Int} (ht : Tide c ds s last) (hg : Gone c b s last) (hl : last ≤ total 1000000000 r.time) :
    (sendTurn c t s).entries = s.entries ∧ Tide c ds (sendTurn c t s) (total 1000000000 r.time) ∧ Gone c b (sendTurn c t s) (total 1000000000 r.time) := by
  obtain ⟨hi, hmq, hnx⟩ := h.2.sending hs
  have hi32 : s.i + 1 < 2 ^ 32 := by have := h.1.queue.fits; have := c.npackets.isLt; omega
  have same : ∀ s' : St, s'.calls = s.calls → s'.missed = s.missed → s.i ≤ s'.i → s'.entries = s.entries →
      s'.entries = s.entries ∧ Tide c ds s' (total 1000000000 r.time) ∧ Gone c b s' (total 1000000000 r.time) :=
    fun s' h1 h2 h3 h4 => ⟨h4, ht.keep h1 h2 h3 hl, hg.keep h1 hl⟩
  unfold sendTurn
  split
  · exact same _ rfl rfl (Nat.le_refl _) rfl
  · rw [hc]
    simp only
    have hto := nanos_eq c.timeout.toNat c.timeout.isLt
    have hdt := due_total (ds := ds) hst m
    rw [← hnx] at hdt
    have hla := (C60_timespec_arith (toTimespec c.timeout.toNat) s.next hto.2 hdt.2).2.2.1
    have hg2 := (C60_timespec_arith r.time (tsAdd (toTimespec c.timeout.toNat) s.next) ⟨hr.2.1, hr.2.2.1⟩ hla.2).2.1
    rw [hla.1, hto.1, hdt.1] at hg2
    split
    · split
      · rename_i h2
        rw [hg2] at h2
        have hk := advance_keeps c { s with q := mark s.i (fun n => { n with sent := true, hit := true }) s.q, cur := r.time, missed := s.missed ++ [s.i] } hi32
        refine ⟨hk.2.2.2, ⟨fun x hx => ?_, fun x hx => ?_, by rw [hk.1]; exact ht.asc, by rw [hk.1]; exact ht.whole, fun j hj => ?_, fun j hj x hx hlt => ?_⟩, hg.keep hk.1 hl⟩
        · rw [hk.1] at hx; exact Int.le_trans (ht.callsLe x hx) hl
        · rw [hk.1] at hx; exact Nat.le_trans (ht.seqs x hx) hk.2.2.1
        · rw [hk.2.1] at hj
          rcases List.mem_append.1 hj with hj | hj
          · exact Int.lt_of_lt_of_le (ht.missedLe j hj) hl
          · rw [List.mem_singleton] at hj
            rw [hj, hi, Int.add_comm]
            exact h2
        · rw [hk.1] at hx
          rw [hk.2.1] at hj
          rcases List.mem_append.1 hj with hj | hj
          · exact ht.missedBefore j hj x hx hlt
          · rw [List.mem_singleton] at hj
            rw [hj] at hlt
            exact (Nat.not_lt.2 (ht.seqs x hx) hlt).elim
      · simp only [transmit]
        split
        · exact same _ rfl rfl (Nat.le_refl _) rfl
        · rename_i pkt _
          split
          · exact same _ rfl rfl (Nat.le_refl _) rfl
          · have new : ∀ s' : St, s'.calls = s.calls ++ [⟨s.i, r.time, pkt, t.send⟩] → s'.missed = s.missed → s.i ≤ s'.i → s'.entries = s.entries →
                s'.entries = s.entries ∧ Tide c ds s' (total 1000000000 r.time) ∧ Gone c b s' (total 1000000000 r.time) := by
              intro s' h1 h2 h3 h4
              refine ⟨h4, ht.call ⟨s.i, r.time, pkt, t.send⟩ h1 h2 h3 rfl hsend hl, fun x hx hcx hb => ?_⟩
              rw [h1] at hx
              rcases List.mem_append.1 hx with hx | hx
              · exact Int.lt_of_lt_of_le (hg x hx hcx hb) hl
              · rw [List.mem_singleton] at hx
                subst hx
                exact (Nat.not_lt.2 (by rw [hi]; exact h.1.bm) hb).elim
            cases hres : t.send with
            | ok => exact new _ (by simp only [hres]) rfl (Nat.le_refl _) rfl
            | other => exact new _ (by simp only [hres]) rfl (Nat.le_refl _) rfl
            | nobufs => exact new _ (by simp only [hres]) rfl (Nat.le_refl _) rfl
            | fatal => exact new _ (by simp only [hres]) rfl (Nat.le_refl _) rfl
            | intr => exact (hsend.1 hres).elim
    · split
      · exact same _ rfl rfl (Nat.le_refl _) rfl
      · exact same _ rfl rfl (Nat.le_refl _) rfl

/-- A valid reply to a packet already sent is recorded unless the packet is off the queue. -/
theorem judge_exact (hlen : ds.length = c.npackets.toNat) (h : Inv c ds quiet A R b m s) (hs : s.phase = .receiving) (P : Bytes) (ttl : Byte)
    (now : TimeParts) (hmul : s.rtime.multiplier ≠ 0) (hw : ∀ l r, c.write l r = true) (hi : (readReply c.fmt P).sndSeq.toNat ≤ s.i)
    (v1 : (readReply c.fmt P).sndErr.valid = true) (v2 : (readReply c.fmt P).err.valid = true) :
    ((readReply c.fmt P).sndSeq.toNat < b → judge c P ttl now s = s) ∧
    (b ≤ (readReply c.fmt P).sndSeq.toNat → (judge c P ttl now s).entries = s.entries ++ [⟨replyRec (readReply c.fmt P) s.rtime ttl, now⟩]) := by
  have hm := h.2.receiving hs
  have hne := h.2.full (Or.inr (Or.inl hs))
  obtain ⟨x, rest, hq⟩ : ∃ x rest, s.q = x :: rest := by
    cases hs : s.q with
    | nil => exact (hne hs).elim
    | cons x rest => exact ⟨x, rest, rfl⟩
  have hxb : x.seq = b := by
    have hc := h.1.queue.chain
    rw [hq] at hc
    exact hc.1.1
  obtain ⟨k, hk⟩ : ∃ k, k = (readReply c.fmt P).sndSeq.toNat := ⟨_, rfl⟩
  have hmq := h.1.mq
  obtain ⟨new, ctx', r1, _⟩ := reach_spec c ds hlen b k s.q s.ctx h.1.queue hne (by have := h.1.queue.fits; omega)
  have hen := replyRec_encodes (readReply c.fmt P) s.rtime ttl (readReply_mult c.fmt P).1 (readReply_mult c.fmt P).2 v1 v2 hmul
  unfold judge
  simp only
  rw [if_neg (by omega), hq]
  simp only
  refine ⟨fun hb => if_pos (by omega), fun hb => ?_⟩
  rw [if_neg (by omega), v1, v2, if_neg (by decide), if_neg (by decide), writeRec_some c _ now s hw hen]
  simp only
  rw [← hk, r1]

theorem judge_keeps (P : Bytes) (ttl : Byte) (now : TimeParts) (s : St) : (judge c P ttl now s).missed = s.missed ∧ (judge c P ttl now s).i = s.i := by
  simp only [judge]
  split
  · exact ⟨rfl, rfl⟩
  · split
    · exact ⟨rfl, rfl⟩
    · split
      · exact ⟨rfl, rfl⟩
      · split
        · exact ⟨rfl, rfl⟩
        · split
          · exact ⟨rfl, rfl⟩
          · split
            · exact ⟨rfl, rfl⟩
            · rename_i s1 hw
              have : s1.missed = s.missed ∧ s1.i = s.i := by
                unfold writeRec at hw
                split at hw
                · rw [← Option.some.inj hw]; exact ⟨rfl, rfl⟩
                · cases hw
              split
              · exact this
              · exact this

/-- What a pass of an undisturbed process adds to its records of replies. -/
def Adds (c : Cfg) (t : Tick) (r : Sender.Reading) (calls : List Call) (es es' : List Entry) : Prop :=
  (∀ i, t.got = .fail i → heard es' = heard es) ∧
  ∀ peer bytes ttl i P x, t.got = .dgram peer bytes ttl i → twPayloadSize c.fmt 0 ≤ (bytes.take (respLen c)).length →
    openReply c.H c.fmt c.ep (bytes.take (respLen c)) = .plain P → (readReply c.fmt P).sndErr.valid = true → (readReply c.fmt P).err.valid = true →
    x ∈ calls → counted x → x.seq = (readReply c.fmt P).sndSeq.toNat →
    (Expired c x r.time → heard es' = heard es) ∧
    (¬ Expired c x r.time → ∃ rt : TimeStamp, rt.owptime = stampOf r.time ∧ heard es' = heard es ++ [⟨replyRec (readReply c.fmt P) rt ttl, r.time⟩])

theorem receive_tide (hlen : ds.length = c.npackets.toNat) (hnear : Near c ds) (h : Inv c ds quiet A R b m s) (hs : s.phase = .receiving) (hq : quiet) (t : Tick) (hA : A t)
    (hu : ∀ j, t.usr2 j = false) (r : Sender.Reading) (hclk : t.clock = some r) (hr : Clocked R r) (hw : ∀ l r, c.write l r = true)
    (c2 : t.stop2 = false) (c4 : t.timer1 = true) (c5 : t.timer2 = true)
    (hsz : ¬ ((taken c t.got).all (fun g => g.1.length ≠ respLen c) && !t.got.eintr) = true)
    {last : Int} (ht : Tide c ds s last) (hg : Gone c b s last) (hl : last ≤ total 1000000000 r.time) :
    ∃ b', Inv c ds quiet A R b' m (receive c t s) ∧ Tide c ds (receive c t s) (total 1000000000 r.time) ∧ Gone c b' (receive c t s) (total 1000000000 r.time) ∧
      Adds c t r s.calls s.entries (receive c t s).entries := by
  have hi := h.2.receiving hs
  have hne := h.2.full (Or.inr (Or.inl hs))
  have hd : s.phase ≠ .dead := by rw [hs]; decide
  have hi32 : s.i + 1 < 2 ^ 32 := by have := h.1.queue.fits; have := h.1.mq; have := c.npackets.isLt; omega
  unfold receive
  rw [c4, if_neg (by decide)]
  simp only
  rw [if_neg hsz, c2, if_neg (by decide), hclk]
  simp only
  rw [c5, if_neg (by decide)]
  obtain ⟨S, hS⟩ : ∃ S : St, S = { s with buf := (t.left ++ s.buf).take s.buf.length } := ⟨_, rfl⟩
  rw [← hS]
  have hcS : Core c ds quiet A R b m S := h.1.congr S (by rw [hS]) (by rw [hS]) (by rw [hS]) (by rw [hS]) (by rw [hS]) (fun _ => hd)
  have hneS : S.q ≠ [] := by rw [hS]; exact hne
  have hpS : S.phase = .receiving := by rw [hS]; exact hs
  have hiS : S.i = s.i := by rw [hS]
  have heS : S.entries = s.entries := by rw [hS]
  have hkS : S.calls = s.calls := by rw [hS]
  have htS : Tide c ds S last := ht.keep (by rw [hS]) (by rw [hS]) (by rw [hS]; exact Nat.le_refl _) (Int.le_refl _)
  have hgS : Gone c b S last := hg.keep (by rw [hS]) (Int.le_refl _)
  obtain ⟨b0, q, ctx, es, _, g2, g3', g4, g5, _⟩ := stampFlush_spec hlen hcS hneS t.usr2 (fun _ => hu) r hr
  obtain ⟨f1, es', f2⟩ := flush_adds c t.usr2 r.time (c.npackets.toNat + 1) hw 0 r.time
    { S with rtime := { timespecToTimestamp S.rtime r.time (some r.err) none with sync := r.sync }, cur := r.time } (stamp_mult _ r)
  obtain ⟨k1, b', g3, k2, k3, k4, k5⟩ := stampFlush_tide hlen hnear hcS hq (by rw [hpS]; decide) hneS t.usr2 hu r hr htS hgS hl
  obtain ⟨Y, hY⟩ : ∃ Y, Y = (stampFlush c t.usr2 r S).2 := ⟨_, rfl⟩
  rw [← hY] at g2 g3 k1 k2 k3 ⊢
  rw [heS] at k1
  rw [hkS] at k5
  have hpY : Y.phase = .receiving := by rw [g2]; exact hpS
  have hdY : Y.phase ≠ .dead := by rw [hpY]; decide
  have hiY : Y.i + 1 = m := by rw [g2]; simp only [hiS]; exact hi
  have hkY : Y.calls = s.calls := by rw [g2]; exact hkS
  refine ⟨b', ?_⟩
  cases hf : (stampFlush c t.usr2 r S).1 with
  | stuck => exact (g4 hf).elim
  | error => exact (f1 hf).elim
  | over =>
    simp only
    have hbn := k4 hf
    refine ⟨⟨g3.congr _ rfl rfl rfl rfl rfl (fun _ => hdY), ⟨fun e => (by cases e), fun e => (by cases e), fun e => ?_, by simp⟩⟩, k2.keep rfl rfl (Nat.le_refl _) (Int.le_refl _),
      k3.keep rfl (Int.le_refl _), fun _ _ => k1, fun _ _ _ _ P x _ _ _ _ _ hx hcx _ => ⟨fun _ => k1, fun hnot => (hnot ?_).elim⟩⟩
    · rcases e with e | e | ⟨_, e⟩ <;> cases e
    · obtain ⟨_, u2, _⟩ := unique_call h.1 hd hx hx (counted_sent hcx) (counted_sent hcx) rfl
      have h1 := h.1.mq
      have h2 := h.1.queue.fits
      exact k3 x (by rw [hkY]; exact hx) hcx (by omega)
  | more =>
    simp only
    have hqY : Y.q ≠ [] := by rw [g2]; exact g5 hf
    have hI : Inv c ds quiet A R b' m { Y with rc := some 0 } :=
      ⟨g3.congr _ rfl rfl rfl rfl rfl (fun e => e), ⟨fun e => (by simp only at e; rw [hpY] at e; cases e), fun _ => hiY, fun _ => hqY,
        by simp only; rw [hpY]; decide⟩⟩
    have hrt : Y.rtime.owptime = stampOf r.time := by rw [g2]; exact stamp_time _ r
    have hsy : Y.rtime.sync = r.sync := by rw [g2]
    have hmu : Y.rtime.multiplier ≠ 0 := by rw [g2]; exact stamp_mult _ r
    have hE := (examine_spec (calm := False) hlen hI hpY t hA r hclk hr hrt hsy hmu (fun hc => hc.elim)).1
    have hk : (examine c (taken c t.got) r.time { Y with rc := some 0 }).calls = Y.calls := (examine_wire c (taken c t.got) r.time { Y with rc := some 0 }).2
    have hadv := advance_keeps c { Y with rc := some 0 } (by simp only; rw [g2]; simp only [hiS]; exact hi32)
    have hmi : (examine c (taken c t.got) r.time { Y with rc := some 0 }).missed = Y.missed ∧ Y.i ≤ (examine c (taken c t.got) r.time { Y with rc := some 0 }).i := by
      unfold examine
      split
      · exact ⟨hadv.2.1, hadv.2.2.1⟩
      · split
        · exact ⟨hadv.2.1, hadv.2.2.1⟩
        · split
          · exact ⟨(judge_keeps ..).1, by rw [(judge_keeps ..).2]; exact Nat.le_refl _⟩
          · exact ⟨hadv.2.1, hadv.2.2.1⟩
    refine ⟨hE, k2.keep hk hmi.1 hmi.2 (Int.le_refl _), k3.keep hk (Int.le_refl _), fun i hfail => ?_, fun peer bytes ttl i P x hgot hlen' hP v1 v2 hx hcx hseq => ?_⟩
    · rw [hfail]
      simp only [taken, examine]
      rw [hadv.2.2.2]
      exact k1
    · have hle := ht.seqs x hx
      have hj := judge_exact hlen hI hpY P ttl r.time hmu hw (by simp only; rw [g2]; simp only [hiS]; omega) v1 v2
      rw [hgot]
      simp only [taken, examine]
      rw [if_neg (by omega), hP]
      simp only
      refine ⟨fun hex => ?_, fun hnot => ⟨Y.rtime, hrt, ?_⟩⟩
      · rw [hj.1 (by have := k5 hf x hx hcx hex; omega)]
        exact k1
      · have hb : b' ≤ (readReply c.fmt P).sndSeq.toNat := by
          rcases Nat.lt_or_ge (readReply c.fmt P).sndSeq.toNat b' with hh | hh
          · exact (hnot (k3 x (by rw [hkY]; exact hx) hcx (by omega))).elim
          · exact hh
        rw [hj.2 hb, heard_append]
        simp only
        rw [k1]
        have : noReply ⟨replyRec (readReply c.fmt P) Y.rtime ttl, r.time⟩ = false := by
          simp only [noReply, replyRec, hrt]
          exact decide_eq_false hr.2.2.2
        simp [heard, this]

/-- Nothing disturbs the pass `t`, in which the clock shows `r`; a datagram is received only when the process waits for one, and has the expected size or comes with `EINTR`. -/
structure Smooth (c : Cfg) (ds : List Nat) (s : St) (t : Tick) (r : Sender.Reading) : Prop where
  clock : t.clock = some r
  stop1 : t.stop1 = false
  stop2 : t.stop2 = false
  timer1 : t.timer1 = true
  timer2 : t.timer2 = true
  usr2 : ∀ j, t.usr2 j = false
  send : t.send ≠ .intr ∧ t.send ≠ .fatal
  woken : ∀ i, t.got = .fail i → i = true
  dgram : ∀ peer bytes ttl i, t.got = .dgram peer bytes ttl i →
    s.phase = .receiving ∧ Waits c ds s ∧ (respLen c ≤ bytes.length ∨ i = true)

theorem Smooth.sizes {t : Tick} {r : Sender.Reading} (h : Smooth c ds s t r) :
    ¬ ((taken c t.got).all (fun g => g.1.length ≠ respLen c) && !t.got.eintr) = true := by
  intro hx
  cases hg : t.got with
  | fail e =>
    rw [hg] at hx
    have := h.woken e hg
    subst this
    simp [Got.eintr] at hx
  | dgram peer bytes ttl e =>
    rw [hg] at hx
    rcases (h.dgram peer bytes ttl e hg).2.2 with h | h
    · simp [taken, Got.eintr] at hx
      omega
    · subst h
      simp [Got.eintr] at hx

theorem recvTurn_tide (hlen : ds.length = c.npackets.toNat) (hst : 0 ≤ c.begin.sub ∧ c.begin.sub < 1000000000) (hnear : Near c ds)
    (h : Inv c ds quiet A R b m s) (hs : s.phase = .receiving) (hq : quiet) (t : Tick) (hA : A t) (r : Sender.Reading) (hsm : Smooth c ds s t r) (hr : Clocked R r)
    (hw : ∀ l r, c.write l r = true) {last : Int} (ht : Tide c ds s last) (hg : Gone c b s last) (hl : last ≤ total 1000000000 r.time) :
    ∃ b', Inv c ds quiet A R b' m (recvTurn c t s) ∧ Tide c ds (recvTurn c t s) (total 1000000000 r.time) ∧ Gone c b' (recvTurn c t s) (total 1000000000 r.time) ∧
      Adds c t r s.calls s.entries (recvTurn c t s).entries := by
  have hd : s.phase ≠ .dead := by rw [hs]; decide
  have hi := h.2.receiving hs
  have hne := h.2.full (Or.inr (Or.inl hs))
  have hi32 : s.i + 1 < 2 ^ 32 := by have := h.1.queue.fits; have := h.1.mq; have := c.npackets.isLt; omega
  unfold recvTurn
  rw [hsm.stop1, if_neg (by decide)]
  split
  · rename_i hin
    obtain ⟨new, ctx', r1, r2, r3, r4, _, _⟩ := reach_spec c ds hlen b (s.i + 1) s.q s.ctx h.1.queue hne (by omega)
    obtain ⟨n, f1, f2, f3, f4⟩ := chain_find ds _ b (s.i + 1) r3.chain (by have := h.1.bm; omega) r4
    rw [r1]
    simp only [f1]
    have hC := h.1.grow r2 r3
    have hneN : s.q ++ new ≠ [] := by simp [hne]
    have hlast : ¬ s.i + 1 = c.npackets.toNat := by omega
    have adv : (Waits c ds s → False) → ∃ b', Inv c ds quiet A R b' m (advance c { s with q := s.q ++ new, ctx := ctx', next := dueAt c n.relative }) ∧
        Tide c ds (advance c { s with q := s.q ++ new, ctx := ctx', next := dueAt c n.relative }) (total 1000000000 r.time) ∧
        Gone c b' (advance c { s with q := s.q ++ new, ctx := ctx', next := dueAt c n.relative }) (total 1000000000 r.time) ∧
        Adds c t r s.calls s.entries (advance c { s with q := s.q ++ new, ctx := ctx', next := dueAt c n.relative }).entries := by
      intro hno
      have hk := advance_keeps c { s with q := s.q ++ new, ctx := ctx', next := dueAt c n.relative } hi32
      refine ⟨b, (advance_of (calm := False) hlen hC hd hneN { s with q := s.q ++ new, ctx := ctx', next := dueAt c n.relative } rfl rfl rfl rfl rfl rfl hi).1, ht.keep hk.1 hk.2.1 hk.2.2.1 hl, hg.keep hk.1 hl,
        fun _ _ => by rw [hk.2.2.2], fun peer bytes ttl i _ _ hgot => ?_⟩
      exact (hno (hsm.dgram peer bytes ttl i hgot).2.1).elim
    split
    · rename_i h1
      refine adv fun hwait => ?_
      have hwa := wait_of hst s.cur (s.i + 1) (hwait.resolve_left hlast)
      rw [← f4] at hwa
      exact hwa.1 h1
    · split
      · rename_i h1
        refine adv fun hwait => ?_
        have hwa := wait_of hst s.cur (s.i + 1) (hwait.resolve_left hlast)
        rw [← f4] at hwa
        exact hwa.2 h1
      · have hI : Inv c ds quiet A R b m { s with q := s.q ++ new, ctx := ctx', next := dueAt c n.relative } := by
          refine ⟨hC.congr _ rfl rfl rfl rfl rfl (fun e => e), ⟨fun e => ?_, fun _ => hi, fun _ => hneN, ?_⟩⟩
          · simp only at e; rw [hs] at e; cases e
          · simp only; rw [hs]; decide
        exact receive_tide hlen hnear hI hs hq t hA hsm.usr2 r hsm.clock hr hw hsm.stop2 hsm.timer1 hsm.timer2 hsm.sizes
          (ht.keep rfl rfl (Nat.le_refl _) (Int.le_refl _)) (hg.keep rfl (Int.le_refl _)) hl
  · exact receive_tide hlen hnear h hs hq t hA hsm.usr2 r hsm.clock hr hw hsm.stop2 hsm.timer1 hsm.timer2 hsm.sizes ht hg hl

theorem step_tide (hlen : ds.length = c.npackets.toNat) (hst : 0 ≤ c.begin.sub ∧ c.begin.sub < 1000000000) (hnear : Near c ds)
    (h : Inv c ds quiet A R b m s) (hq : quiet) (t : Tick) (hA : A t) (r : Sender.Reading) (hsm : Smooth c ds s t r) (hr : Clocked R r)
    (hw : ∀ l r, c.write l r = true) {last : Int} (ht : Tide c ds s last) (hg : Gone c b s last) (hl : last ≤ total 1000000000 r.time) :
    ∃ b' m', Inv c ds quiet A R b' m' (step c s t) ∧ Tide c ds (step c s t) (total 1000000000 r.time) ∧ Gone c b' (step c s t) (total 1000000000 r.time) ∧
      Adds c t r s.calls s.entries (step c s t).entries := by
  by_cases hsend : s.phase = .sending
  · have e : step c s t = sendTurn c t s := by unfold step; rw [hsend]
    rw [e]
    obtain ⟨m', _, h2⟩ := sendTurn_spec (calm := False) hlen hst h hsend t (fun r' hr' => by rw [hsm.clock] at hr'; cases hr'; exact hr) (fun hc => hc.elim)
    obtain ⟨k1, k2, k3⟩ := sendTurn_tide hst h hsend t r hsm.clock hr hsm.send ht hg hl
    refine ⟨b, m', h2.1, k2, k3, fun _ _ => by rw [k1], fun peer bytes ttl i _ _ hgot => ?_⟩
    have := (hsm.dgram peer bytes ttl i hgot).1
    rw [hsend] at this; cases this
  · by_cases hrecv : s.phase = .receiving
    · have e : step c s t = recvTurn c t s := by unfold step; rw [hrecv]
      rw [e]
      obtain ⟨b', k⟩ := recvTurn_tide hlen hst hnear h hrecv hq t hA r hsm hr hw ht hg hl
      exact ⟨b', m, k⟩
    · have e : step c s t = s := by
        unfold step
        split
        · rename_i hh; exact (hsend hh).elim
        · rename_i hh; exact (hrecv hh).elim
        · rfl
      rw [e]
      refine ⟨b, m, h, ht.keep rfl rfl (Nat.le_refl _) hl, hg.keep rfl hl, fun _ _ => rfl, fun peer bytes ttl i _ _ hgot => ?_⟩
      exact (hrecv (hsm.dgram peer bytes ttl i hgot).1).elim

/-- The end adds no record of a reply. -/
theorem conclude_heard (e : End) (s : St) : heard (conclude c e s).entries = heard s.entries ∧ (conclude c e s).missed = s.missed := by
  unfold conclude
  split
  · split
    · exact ⟨rfl, rfl⟩
    · split
      · exact ⟨rfl, rfl⟩
      · rename_i r _
        have hf := flush_heard c e.usr2 r.time (c.npackets.toNat + 1) 0 r.time
          { s with rtime := { timespecToTimestamp s.rtime r.time (some r.err) none with sync := r.sync }, cur := r.time }
        simp only
        split
        · exact ⟨hf.1, hf.2.1⟩
        · exact ⟨hf.1, hf.2.1⟩
        · exact ⟨hf.1, hf.2.1⟩
    · exact ⟨rfl, rfl⟩
  · exact ⟨rfl, rfl⟩

end

theorem init_empty (c : Cfg) (ctx : Sched.Ctx) (buf : Bytes) (stamp rtime : TimeStamp) :
    (init c ctx buf stamp rtime).calls = [] ∧ (init c ctx buf stamp rtime).missed = [] ∧ (init c ctx buf stamp rtime).entries = [] := by
  simp only [init]
  split
  · exact ⟨rfl, rfl, rfl⟩
  · split
    · exact ⟨rfl, rfl, rfl⟩
    · exact ⟨(prep_keeps ..).1, (prep_keeps ..).2.1, (prep_keeps ..).2.2.2⟩

theorem Tide.empty {c : Cfg} {ds : List Nat} {s : St} (h1 : s.calls = []) (h2 : s.missed = []) (last : Int) : Tide c ds s last ∧ ∀ b, Gone c b s last := by
  refine ⟨⟨?_, ?_, ?_, ?_, ?_, ?_⟩, fun b x hx => ?_⟩
  all_goals first | (rw [h1]; simp) | (rw [h2]; simp) | skip
  rw [h1] at hx; cases hx

/-- A pass only adds calls. -/
theorem step_grows (c : Cfg) (s : St) (t : Tick) : ∃ l, (step c s t).calls = s.calls ++ l := by
  have same : ∀ s' : St, s'.calls = s.calls → ∃ l, s'.calls = s.calls ++ l := fun s' h => ⟨[], by rw [h, List.append_nil]⟩
  unfold step
  split
  · unfold sendTurn
    split
    · exact same _ rfl
    · split
      · exact same _ rfl
      · split
        · split
          · exact same _ (advance_wire _ _).2
          · unfold transmit
            simp only
            split
            · exact same _ rfl
            · split
              · exact same _ rfl
              · split
                · exact ⟨_, rfl⟩
                · exact ⟨_, rfl⟩
                · exact ⟨_, (advance_wire _ _).2⟩
                · exact ⟨_, rfl⟩
        · split <;> exact same _ rfl
  · unfold recvTurn
    split
    · exact same _ rfl
    · split
      · split
        · exact same _ rfl
        · split
          · exact same _ rfl
          · simp only
            split
            · exact same _ (advance_wire _ _).2
            · split
              · exact same _ (advance_wire _ _).2
              · exact same _ (receive_wire _ _ _).2
      · exact same _ (receive_wire _ _ _).2
  · exact same _ rfl

theorem run_grows (c : Cfg) (ts : List Tick) : ∀ s : St, ∃ l, (run c s ts).calls = s.calls ++ l := by
  induction ts with
  | nil => exact fun s => ⟨[], by rw [List.append_nil]; rfl⟩
  | cons t ts ih =>
    intro s
    obtain ⟨l, hl⟩ := step_grows c s t
    obtain ⟨l', hl'⟩ := ih (step c s t)
    exact ⟨l ++ l', by rw [← List.append_assoc, ← hl]; exact hl'⟩

end Owamp.TwoWay
