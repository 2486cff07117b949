import Verif.Lemmas.TwoWay
/-!
# The end of a two-way test (C68)
-/
namespace Owamp.TwoWay
open Owamp.Num64 Owamp.Time Owamp.Pkt Owamp.Ctl Owamp.Codec Owamp.Spec Owamp.Spec.TwoWay Owamp.Props
open Owamp.Spec.Sender (nanos due)
open Owamp.Spec.Receiver (schedTime unixNanos stampOf epoch)
open Owamp.Sender (Reading nanos_eq toNat_ofNat32)
open Owamp.Recv (rel clear_add sched_rel Got Flushed)

/-! ## The variable `flush_rc` -/

theorem prep_rc (c : Cfg) (s : St) : (prep c s).rc = s.rc := by
  unfold prep
  split
  · rfl
  · split
    · rfl
    · split
      · rfl
      · simp only
        split <;> rfl

theorem advance_rc (c : Cfg) (s : St) : (advance c s).rc = s.rc := by
  simp only [advance]
  split
  · rw [prep_rc]
  · rfl

theorem transmit_rc (c : Cfg) (t : Tick) (r : Sender.Reading) (s : St) : (transmit c t r s).rc = s.rc := by
  simp only [transmit]
  split
  · rfl
  · split
    · rfl
    · cases t.send <;> simp only [advance_rc]

theorem sendTurn_rc (c : Cfg) (t : Tick) (s : St) : (sendTurn c t s).rc = s.rc := by
  unfold sendTurn
  split
  · rfl
  · split
    · rfl
    · split
      · split
        · rw [advance_rc]
        · exact transmit_rc c t _ s
      · split <;> rfl

theorem writeRec_rc (c : Cfg) (r : TWDataRec) (now : TimeParts) (s s' : St) (h : writeRec c r now s = some s') : s'.rc = s.rc := by
  unfold writeRec at h
  split at h
  · rw [← Option.some.inj h]
  · cases h

theorem judge_rc (c : Cfg) (P : Bytes) (ttl : Byte) (now : TimeParts) (s : St) : (judge c P ttl now s).rc = s.rc := by
  simp only [judge]
  split
  · rfl
  · split
    · rfl
    · split
      · rfl
      · split
        · rfl
        · split
          · rfl
          · split
            · rfl
            · rename_i s1 hw
              have := writeRec_rc _ _ _ _ _ hw
              split
              · exact this
              · exact this

theorem examine_rc (c : Cfg) (got : Option (Bytes × Byte)) (now : TimeParts) (s : St) : (examine c got now s).rc = s.rc := by
  unfold examine
  split
  · exact advance_rc c s
  · split
    · exact advance_rc c s
    · split
      · exact judge_rc ..
      · exact advance_rc c s

theorem pop_rc (c : Cfg) (b : Node) (rest : List Node) (s s' : St) (h : pop c b rest s = some s') : s'.rc = s.rc := by
  unfold pop at h
  split at h
  · rw [← Option.some.inj h]
  · split at h
    · obtain ⟨r, _, hr⟩ := Option.map_eq_some_iff.1 h
      rw [← hr]
    · rw [← Option.some.inj h]

theorem flush_over (c : Cfg) (usr2 : Nat → Bool) (clock : TimeParts) (n : Nat) : ∀ (j : Nat) (cur : TimeParts) (s : St),
    (flush c usr2 clock n j cur s).2.rc = s.rc ∧
      ((flush c usr2 clock n j cur s).1 = .over → (flush c usr2 clock n j cur s).2.q = []) := by
  induction n with
  | zero => intro j cur s; exact ⟨rfl, fun e => (by cases e)⟩
  | succ n ih =>
    intro j cur s
    rw [flush]
    split
    · exact ⟨rfl, fun e => (by cases e)⟩
    · rename_i b rest hq
      simp only
      generalize (if usr2 j = true then tsAdd (tsAdd ⟨0, 0⟩ (tsAdd (tsAdd ⟨0, 0⟩ b.absolute) (toTimespec c.timeout.toNat))) (toTimespec c.timeout.toNat) else cur) = cur'
      split
      · split
        · exact ⟨rfl, fun e => (by cases e)⟩
        · rename_i s1 h1
          have hs1 : s1.rc = s.rc := by
            split at h1
            · rw [← Option.some.inj h1]
            · exact writeRec_rc _ _ _ _ _ h1
          split
          · exact ⟨hs1, fun e => (by cases e)⟩
          · rename_i s2 h2
            have hs2 := pop_rc _ _ _ _ _ h2
            split
            · rename_i hz
              exact ⟨by rw [hs2, hs1], fun _ => hz⟩
            · obtain ⟨i1, i2⟩ := ih (j + 1) cur' s2
              exact ⟨by rw [i1, hs2, hs1], i2⟩
      · exact ⟨rfl, fun e => (by cases e)⟩

/-- `flush_rc` has no value, or is 0, or is 1 and then the queue is empty. -/
def RcOk (s : St) : Prop := s.rc = none ∨ s.rc = some 0 ∨ (s.rc = some 1 ∧ s.q = [] ∧ s.phase = .finish)

theorem receive_rc (c : Cfg) (t : Tick) (s : St) (h : s.rc = none ∨ s.rc = some 0) : RcOk (receive c t s) := by
  have old : ∀ s', s'.rc = s.rc → RcOk s' := by
    intro s' hs'
    rcases h with h | h
    · exact Or.inl (by rw [hs', h])
    · exact Or.inr (Or.inl (by rw [hs', h]))
  unfold receive
  split
  · exact old _ rfl
  · simp only
    split
    · exact old _ rfl
    · split
      · exact old _ rfl
      · split
        · exact old _ rfl
        · split
          · exact old _ rfl
          · rename_i r _ _
            have hf := flush_over c t.usr2 r.time (c.npackets.toNat + 1) 0 r.time
              { { s with buf := (t.left ++ s.buf).take s.buf.length } with rtime := { timespecToTimestamp s.rtime r.time (some r.err) none with sync := r.sync }, cur := r.time }
            split
            · exact old _ hf.1
            · exact old _ hf.1
            · rename_i hx
              exact Or.inr (Or.inr ⟨rfl, hf.2 hx, rfl⟩)
            · exact Or.inr (Or.inl (by rw [examine_rc]))

theorem step_rc (c : Cfg) (s : St) (t : Tick) (h : RcOk s) : RcOk (step c s t) := by
  have run : s.phase ≠ .finish → s.rc = none ∨ s.rc = some 0 := by
    intro hp
    rcases h with h | h | ⟨_, _, h⟩
    · exact Or.inl h
    · exact Or.inr h
    · exact (hp h).elim
  unfold step
  split
  · rename_i hp
    rcases run (by rw [hp]; decide) with h | h
    · exact Or.inl (by rw [sendTurn_rc, h])
    · exact Or.inr (Or.inl (by rw [sendTurn_rc, h]))
  · rename_i hp
    have hrc := run (by rw [hp]; decide)
    have old : ∀ s', s'.rc = s.rc → RcOk s' := by
      intro s' hs'
      rcases hrc with h | h
      · exact Or.inl (by rw [hs', h])
      · exact Or.inr (Or.inl (by rw [hs', h]))
    unfold recvTurn
    split
    · exact old _ rfl
    · split
      · split
        · exact old _ rfl
        · split
          · exact old _ rfl
          · simp only
            split
            · exact old _ (advance_rc _ _)
            · split
              · exact old _ (advance_rc _ _)
              · exact receive_rc _ _ _ hrc
      · exact receive_rc _ _ _ hrc
  · exact h

theorem run_rc (c : Cfg) (ts : List Tick) : ∀ s, RcOk s → RcOk (run c s ts) := by
  induction ts with
  | nil => intro s h; exact h
  | cons t ts ih => intro s h; exact ih _ (step_rc c s t h)

theorem init_rc (c : Cfg) (ctx : Sched.Ctx) (buf : Bytes) (stamp rtime : TimeStamp) : RcOk (init c ctx buf stamp rtime) := by
  refine Or.inl ?_
  simp only [init]
  split
  · rfl
  · split
    · rfl
    · rw [prep_rc]

/-! ## `finish_sender` -/

section
variable {c : Cfg} {ds : List Nat} {quiet : Prop} {A : Tick → Prop} {R : TimeParts → Prop} {b m : Nat} {s : St}

theorem conclude_spec (hlen : ds.length = c.npackets.toNat) (h : Inv c ds quiet A R b m s) (hrc : RcOk s) (e : End)
    (hu : quiet → ∀ j, e.usr2 j = false) (hr : ∀ r, e.clock = some r → Clocked R r) :
    ∃ b', b ≤ b' ∧ Core c ds quiet A R b' m (conclude c e s) ∧
      ((conclude c e s).phase = .undef → s.phase = .finish ∧ s.rc = none) ∧
      (s.phase = .finish → ∀ r, e.clock = some r → (conclude c e s).phase = .normal →
        ∀ x rest, (conclude c e s).q = x :: rest → x.sent = true →
          (quiet → ¬ total 1000000000 x.absolute + nanos c.timeout.toNat < total 1000000000 r.time) ∧
          ((∀ j, e.usr2 j = true) → 0 < nanos c.timeout.toNat → False)) := by
  by_cases hp : s.phase = .finish
  · have hd : s.phase ≠ .dead := by rw [hp]; decide
    unfold conclude
    rw [hp]
    simp only
    rcases hrc with h0 | h0 | ⟨h0, hq, _⟩
    · rw [h0]
      exact ⟨b, Nat.le_refl _, h.1.congr _ rfl rfl rfl rfl rfl (fun _ => hd), fun _ => (by simp), fun _ r _ hn => (by simp at hn)⟩
    · rw [h0]
      simp only
      cases hc : e.clock with
      | none =>
        refine ⟨b, Nat.le_refl _, h.1.congr _ rfl rfl rfl rfl rfl (fun _ => hd), fun e' => ?_, fun _ r hr' => (by cases hr')⟩
        simp only [close] at e'
        split at e' <;> cases e'
      | some r =>
        simp only
        have hne := h.2.full (Or.inr (Or.inr ⟨hp, h0⟩))
        obtain ⟨b', q, ctx, es, g1, g2, g3, g4, g5, g6, g7⟩ := stampFlush_spec hlen h.1 hne e.usr2 hu r (hr r hc)
        have hdY : (stampFlush c e.usr2 r s).2.phase ≠ .dead := by rw [g2]; exact hd
        have hqY : (stampFlush c e.usr2 r s).2.q = q := by rw [g2]
        refine ⟨b', g1, ?_⟩
        cases hf : (stampFlush c e.usr2 r s).1 with
        | stuck => exact (g4 hf).elim
        | error =>
          refine ⟨g3.congr _ rfl rfl rfl rfl rfl (fun _ => hdY), fun e' => (by cases e'), fun _ r' _ e' => (by cases e')⟩
        | over =>
          refine ⟨g3.congr _ rfl rfl rfl rfl rfl (fun _ => hdY), fun e' => ?_, fun _ r' _ _ x rest hx => ?_⟩
          · simp only [close] at e'
            split at e' <;> cases e'
          · simp only [close] at hx
            rw [hqY, (g6 hf).2] at hx
            cases hx
        | more =>
          refine ⟨g3.congr _ rfl rfl rfl rfl rfl (fun _ => hdY), fun e' => ?_, fun _ r' hr' _ x rest hx hs => ?_⟩
          · simp only [close] at e'
            split at e' <;> cases e'
          · cases hr'
            simp only [close] at hx
            rw [hqY] at hx
            exact g7 hf x rest hx hs
    · rw [h0]
      simp only
      refine ⟨b, Nat.le_refl _, h.1.congr _ rfl rfl rfl rfl rfl (fun _ => hd), fun e' => ?_, fun _ r _ _ x rest hx => ?_⟩
      · simp only [close] at e'
        split at e' <;> cases e'
      · simp only [close] at hx
        rw [hq] at hx
        cases hx
  · have he : conclude c e s = s := by
      unfold conclude
      split
      · rename_i hh; exact (hp hh).elim
      · rfl
    rw [he]
    exact ⟨b, Nat.le_refl _, h.1, fun hh => (h.2.defined hh).elim, fun hh => (hp hh).elim⟩

/-- How the packets have been dealt with, from the invariant: a packet that was handed over has a verdict, unless the first packet in the queue blocks it. -/
theorem verdict_of (h : Core c ds quiet A R b m s) (hd : s.phase ≠ .dead) (x : Call) (hx : x ∈ s.calls) (hc : counted x) :
    OneVerdict s.entries x.seq ∨
    ∃ n rest, s.q = n :: rest ∧ n.seq ≤ x.seq ∧
      ((n.sent = false ∧ ∃ y ∈ s.calls, y.seq = n.seq ∧ y.res = .intr) ∨
       (n.sent = true ∧ n.seq ∉ s.missed ∧ ∃ y ∈ s.calls, y.seq = n.seq ∧ counted y ∧ y.time = n.absolute) ∨
       (n.sent = true ∧ n.seq ∈ s.missed ∧ n.absolute = absOf c (rel ds n.seq))) := by
  have hin : x ∈ handed x.seq s.calls := by
    rw [handed, List.mem_filter]
    refine ⟨hx, ?_⟩
    rcases hc with e | e <;> simp [e]
  have hm : x.seq < m := by
    rcases Nat.lt_or_ge x.seq m with e | e
    · exact e
    · rw [h.unsent hd _ e] at hin
      cases hin
  have hnm : x.seq ∉ s.missed := by
    rcases h.acct _ hm with ⟨_, _, _, _, e⟩ | ⟨e, _⟩
    · exact e
    · rw [e] at hin; cases hin
  rcases Nat.lt_or_ge x.seq b with hb | hb
  · rcases h.settled _ hb with e | ⟨e, _⟩
    · exact Or.inl e
    · exact (hnm e).elim
  · right
    cases hq : s.q with
    | nil =>
      have h1 := h.queue.empty hq
      have h2 := h.mq
      rw [hq] at h2
      simp only [List.length_nil] at h2
      omega
    | cons n rest =>
      have hch := h.queue.chain
      rw [hq] at hch
      have hnb : n.seq = b := hch.1.1
      have hk := h.nodes n (by rw [hq]; simp)
      refine ⟨n, rest, rfl, by omega, ?_⟩
      cases hs : n.sent with
      | false => exact Or.inl ⟨rfl, hk.cut hs (by omega)⟩
      | true =>
        by_cases hmi : n.seq ∈ s.missed
        · exact Or.inr (Or.inr ⟨rfl, hmi, hk.abs (Or.inr hmi)⟩)
        · exact Or.inr (Or.inl ⟨rfl, hmi, hk.onAir hs hmi⟩)

end

/-! ## The payload buffer and the packets sent -/

/-- The buffer has the size of a packet, and all packets sent have property `Q`. -/
def Wire (c : Cfg) (n : Nat) (Q : Call → Prop) (s : St) : Prop := s.buf.length = payloadSize c.fmt n ∧ ∀ x ∈ s.calls, Q x

theorem prep_wire (c : Cfg) (s : St) : (prep c s).buf = s.buf ∧ (prep c s).calls = s.calls := by
  unfold prep
  split
  · exact ⟨rfl, rfl⟩
  · split
    · exact ⟨rfl, rfl⟩
    · split
      · exact ⟨rfl, rfl⟩
      · simp only
        split <;> exact ⟨rfl, rfl⟩

theorem advance_wire (c : Cfg) (s : St) : (advance c s).buf = s.buf ∧ (advance c s).calls = s.calls := by
  simp only [advance]
  split
  · exact prep_wire _ _
  · exact ⟨rfl, rfl⟩

theorem writeRec_wire (c : Cfg) (r : TWDataRec) (now : TimeParts) (s s' : St) (h : writeRec c r now s = some s') :
    s'.buf = s.buf ∧ s'.calls = s.calls := by
  unfold writeRec at h
  split at h
  · rw [← Option.some.inj h]; exact ⟨rfl, rfl⟩
  · cases h

theorem judge_wire (c : Cfg) (P : Bytes) (ttl : Byte) (now : TimeParts) (s : St) :
    (judge c P ttl now s).buf = s.buf ∧ (judge c P ttl now s).calls = s.calls := by
  simp only [judge]
  split
  · exact ⟨rfl, rfl⟩
  · split
    · exact ⟨rfl, rfl⟩
    · split
      · exact ⟨rfl, rfl⟩
      · split
        · exact ⟨rfl, rfl⟩
        · split
          · exact ⟨rfl, rfl⟩
          · split
            · exact ⟨rfl, rfl⟩
            · rename_i s1 hw
              have := writeRec_wire _ _ _ _ _ hw
              split
              · exact this
              · exact this

theorem examine_wire (c : Cfg) (got : Option (Bytes × Byte)) (now : TimeParts) (s : St) :
    (examine c got now s).buf = s.buf ∧ (examine c got now s).calls = s.calls := by
  unfold examine
  split
  · exact advance_wire c s
  · split
    · exact advance_wire c s
    · split
      · exact judge_wire ..
      · exact advance_wire c s

theorem pop_wire (c : Cfg) (b : Node) (rest : List Node) (s s' : St) (h : pop c b rest s = some s') :
    s'.buf = s.buf ∧ s'.calls = s.calls := by
  unfold pop at h
  split at h
  · rw [← Option.some.inj h]; exact ⟨rfl, rfl⟩
  · split at h
    · obtain ⟨r, _, hr⟩ := Option.map_eq_some_iff.1 h
      rw [← hr]; exact ⟨rfl, rfl⟩
    · rw [← Option.some.inj h]; exact ⟨rfl, rfl⟩

theorem flush_wire (c : Cfg) (usr2 : Nat → Bool) (clock : TimeParts) (n : Nat) : ∀ (j : Nat) (cur : TimeParts) (s : St),
    (flush c usr2 clock n j cur s).2.buf = s.buf ∧ (flush c usr2 clock n j cur s).2.calls = s.calls := by
  induction n with
  | zero => intro j cur s; exact ⟨rfl, rfl⟩
  | succ n ih =>
    intro j cur s
    rw [flush]
    split
    · exact ⟨rfl, rfl⟩
    · rename_i b rest hq
      simp only
      generalize (if usr2 j = true then tsAdd (tsAdd ⟨0, 0⟩ (tsAdd (tsAdd ⟨0, 0⟩ b.absolute) (toTimespec c.timeout.toNat))) (toTimespec c.timeout.toNat) else cur) = cur'
      split
      · split
        · exact ⟨rfl, rfl⟩
        · rename_i s1 h1
          have hs1 : s1.buf = s.buf ∧ s1.calls = s.calls := by
            split at h1
            · rw [← Option.some.inj h1]; exact ⟨rfl, rfl⟩
            · exact writeRec_wire _ _ _ _ _ h1
          split
          · exact hs1
          · rename_i s2 h2
            have hs2 := pop_wire _ _ _ _ _ h2
            have hs2 : s2.buf = s.buf ∧ s2.calls = s.calls := ⟨by rw [hs2.1, hs1.1], by rw [hs2.2, hs1.2]⟩
            split
            · exact hs2
            · have := ih (j + 1) cur' s2
              exact ⟨by rw [this.1, hs2.1], by rw [this.2, hs2.2]⟩
      · exact ⟨rfl, rfl⟩

theorem receive_wire (c : Cfg) (t : Tick) (s : St) : (receive c t s).buf.length = s.buf.length ∧ (receive c t s).calls = s.calls := by
  have hl : ((t.left ++ s.buf).take s.buf.length).length = s.buf.length := by
    rw [List.length_take, List.length_append]; omega
  unfold receive
  split
  · exact ⟨rfl, rfl⟩
  · simp only
    split
    · exact ⟨rfl, rfl⟩
    · split
      · exact ⟨hl, rfl⟩
      · split
        · exact ⟨hl, rfl⟩
        · split
          · exact ⟨hl, rfl⟩
          · rename_i r _ _
            have hf := flush_wire c t.usr2 r.time (c.npackets.toNat + 1) 0 r.time
              { { s with buf := (t.left ++ s.buf).take s.buf.length } with rtime := { timespecToTimestamp s.rtime r.time (some r.err) none with sync := r.sync }, cur := r.time }
            have hf : (stampFlush c t.usr2 r { s with buf := (t.left ++ s.buf).take s.buf.length }).2.buf.length = s.buf.length ∧
                (stampFlush c t.usr2 r { s with buf := (t.left ++ s.buf).take s.buf.length }).2.calls = s.calls :=
              ⟨by unfold stampFlush; rw [hf.1]; exact hl, by unfold stampFlush; rw [hf.2]⟩
            split
            · exact hf
            · exact hf
            · exact hf
            · have := examine_wire c (taken c t.got) r.time { (stampFlush c t.usr2 r { s with buf := (t.left ++ s.buf).take s.buf.length }).2 with rc := some 0 }
              exact ⟨by rw [this.1]; exact hf.1, by rw [this.2]; exact hf.2⟩

theorem step_wire (c : Cfg) (n : Nat) (Q : Call → Prop) (s : St) (t : Tick) (h : Wire c n Q s)
    (hs : ∀ r : Sender.Reading, s.buf.length = payloadSize c.fmt n →
      ∃ pkt, sendPacket c.H c.fmt c.ep s.buf (c.pad s.i) (BitVec.ofNat 32 s.i)
          { timespecToTimestamp s.stamp r.time (some r.err) (some s.last) with sync := r.sync } = some pkt ∧
        pkt.length = payloadSize c.fmt n ∧ ∀ res, Q ⟨s.i, r.time, pkt, res⟩) : Wire c n Q (step c s t) := by
  have keep : ∀ s' : St, s'.buf.length = s.buf.length → s'.calls = s.calls → Wire c n Q s' :=
    fun s' h1 h2 => ⟨by rw [h1]; exact h.1, by rw [h2]; exact h.2⟩
  unfold step
  split
  · unfold sendTurn
    split
    · exact keep _ rfl rfl
    · split
      · exact keep _ rfl rfl
      · rename_i r _
        split
        · split
          · have := advance_wire c { s with q := mark s.i (fun n => { n with sent := true, hit := true }) s.q, cur := r.time, missed := s.missed ++ [s.i] }
            exact keep _ (by rw [this.1]) this.2
          · obtain ⟨pkt, p1, p2, p3⟩ := hs r h.1
            have new : ∀ s' : St, s'.buf = pkt → s'.calls = s.calls ++ [⟨s.i, r.time, pkt, t.send⟩] → Wire c n Q s' := by
              intro s' e1 e2
              refine ⟨by rw [e1]; exact p2, fun x hx => ?_⟩
              rw [e2] at hx
              rcases List.mem_append.1 hx with hx | hx
              · exact h.2 x hx
              · rw [List.mem_singleton] at hx
                rw [hx]
                exact p3 _
            simp only [transmit, p1]
            split
            · exact keep _ (by simp only; rw [p2, h.1]) rfl
            · cases hsend : t.send with
              | ok => exact new _ rfl (by simp only [hsend])
              | other => exact new _ rfl (by simp only [hsend])
              | nobufs => exact new _ rfl (by simp only [hsend])
              | fatal => exact new _ rfl (by simp only [hsend])
              | intr => exact new _ (by simp only [advance_wire]) (by simp only [advance_wire, hsend])
        · split <;> exact keep _ rfl rfl
  · unfold recvTurn
    split
    · exact keep _ rfl rfl
    · split
      · split
        · exact keep _ rfl rfl
        · split
          · exact keep _ rfl rfl
          · simp only
            split
            · exact keep _ (by simp only [advance_wire]) (by simp only [advance_wire])
            · split
              · exact keep _ (by simp only [advance_wire]) (by simp only [advance_wire])
              · exact keep _ (receive_wire ..).1 (receive_wire ..).2
      · exact keep _ (receive_wire ..).1 (receive_wire ..).2
  · exact h

theorem init_wire (c : Cfg) (n : Nat) (Q : Call → Prop) (ctx : Sched.Ctx) (buf : Bytes) (stamp rtime : TimeStamp)
    (hb : buf.length = payloadSize c.fmt n) : Wire c n Q (init c ctx buf stamp rtime) := by
  simp only [init]
  split
  · exact ⟨hb, fun x hx => (by cases hx)⟩
  · split
    · exact ⟨hb, fun x hx => (by cases hx)⟩
    · unfold Wire
      rw [(prep_wire _ _).1, (prep_wire _ _).2]
      exact ⟨hb, fun x hx => (by cases hx)⟩

theorem conclude_calls (c : Cfg) (e : End) (s : St) : (conclude c e s).calls = s.calls := by
  unfold conclude
  split
  · split
    · rfl
    · split
      · rfl
      · rename_i r _
        have hf := (flush_wire c e.usr2 r.time (c.npackets.toNat + 1) 0 r.time
          { s with rtime := { timespecToTimestamp s.rtime r.time (some r.err) none with sync := r.sync }, cur := r.time }).2
        simp only
        split
        · exact hf
        · exact hf
        · exact hf
    · rfl
  · rfl

/-! ## A reply that comes in time is recorded -/

theorem writeRec_some (c : Cfg) (r : TWDataRec) (now : TimeParts) (s : St) (hw : ∀ l r, c.write l r = true) (he : (encodeTWDataRec r).isSome = true) :
    writeRec c r now s = some { s with entries := s.entries ++ [⟨r, now⟩] } := by
  rw [writeRec, hw, he, if_pos (show (true && true) = true from rfl)]

theorem lostRec_encodes (c : Cfg) (b : Node) (errest : TimeStamp) (h : errest.multiplier ≠ 0) : (encodeTWDataRec (lostRec c b errest)).isSome = true := by
  obtain ⟨b1, e1⟩ := encodeRec_some (lostRec c b errest).sent (by simp [lostRec]) (by simp only [lostRec]; exact h)
  obtain ⟨b2, e2⟩ := encodeRec_some (lostRec c b errest).reflected (by simp only [lostRec]; exact h) (by simp only [lostRec]; exact h)
  unfold encodeTWDataRec
  rw [e1, e2]
  rfl

theorem pop_keeps (c : Cfg) (b : Node) (rest : List Node) (s s' : St) (h : pop c b rest s = some s') :
    s'.entries = s.entries ∧ s'.rtime = s.rtime := by
  unfold pop at h
  split at h
  · rw [← Option.some.inj h]; exact ⟨rfl, rfl⟩
  · split at h
    · obtain ⟨r, _, hr⟩ := Option.map_eq_some_iff.1 h
      rw [← hr]; exact ⟨rfl, rfl⟩
    · rw [← Option.some.inj h]; exact ⟨rfl, rfl⟩

theorem flush_adds (c : Cfg) (usr2 : Nat → Bool) (clock : TimeParts) (n : Nat) (hw : ∀ l r, c.write l r = true) :
    ∀ (j : Nat) (cur : TimeParts) (s : St), s.rtime.multiplier ≠ 0 →
      (flush c usr2 clock n j cur s).1 ≠ .error ∧ ∃ es, (flush c usr2 clock n j cur s).2.entries = s.entries ++ es := by
  induction n with
  | zero => intro j cur s _; exact ⟨(by simp [flush]), [], by simp [flush]⟩
  | succ n ih =>
    intro j cur s hm
    rw [flush]
    split
    · exact ⟨by simp, [], by simp⟩
    · rename_i b rest hq
      simp only
      generalize (if usr2 j = true then tsAdd (tsAdd ⟨0, 0⟩ (tsAdd (tsAdd ⟨0, 0⟩ b.absolute) (toTimespec c.timeout.toNat))) (toTimespec c.timeout.toNat) else cur) = cur'
      split
      · obtain ⟨s1, h1, h2, h3⟩ : ∃ s1, (if b.hit = true then some s else writeRec c (lostRec c b s.rtime) clock s) = some s1 ∧ s1.rtime = s.rtime ∧
            ∃ es, s1.entries = s.entries ++ es := by
          split
          · exact ⟨s, rfl, rfl, [], by simp⟩
          · rw [writeRec_some c _ clock s hw (lostRec_encodes c b s.rtime hm)]
            exact ⟨_, rfl, rfl, _, rfl⟩
        obtain ⟨es, h3⟩ := h3
        rw [h1]
        simp only
        split
        · exact ⟨by simp, es, h3⟩
        · rename_i s2 hp
          have hp := pop_keeps _ _ _ _ _ hp
          split
          · exact ⟨by simp, es, by simp only; rw [hp.1, h3]⟩
          · obtain ⟨i1, es', i2⟩ := ih (j + 1) cur' s2 (by rw [hp.2, h2]; exact hm)
            exact ⟨i1, es ++ es', by rw [i2, hp.1, h3, List.append_assoc]⟩
      · exact ⟨by simp, [], by simp⟩

section
variable {c : Cfg} {ds : List Nat} {quiet : Prop} {A : Tick → Prop} {R : TimeParts → Prop} {b m : Nat} {s : St}

theorem passed_eq (h : Core c ds quiet A R b m s) : passed c s = b := by
  unfold passed
  split
  · rename_i e; exact (h.queue.empty e).symm
  · rename_i n rest e
    have := h.queue.chain
    rw [e] at this
    exact this.1.1

theorem judge_records (hlen : ds.length = c.npackets.toNat) (h : Inv c ds quiet A R b m s) (hs : s.phase = .receiving) (P : Bytes) (ttl : Byte)
    (now : TimeParts) (hmul : s.rtime.multiplier ≠ 0) (hw : ∀ l r, c.write l r = true) (hi : (readReply c.fmt P).sndSeq.toNat ≤ s.i)
    (v1 : (readReply c.fmt P).sndErr.valid = true) (v2 : (readReply c.fmt P).err.valid = true) :
    (judge c P ttl now s).entries = s.entries ++ [⟨replyRec (readReply c.fmt P) s.rtime ttl, now⟩] ∨
      (readReply c.fmt P).sndSeq.toNat < passed c (judge c P ttl now s) := by
  have hm := h.2.receiving hs
  have hne := h.2.full (Or.inr (Or.inl hs))
  have hp := passed_eq h.1
  obtain ⟨x, rest, hq⟩ : ∃ x rest, s.q = x :: rest := by
    cases hs : s.q with
    | nil => exact (hne hs).elim
    | cons x rest => exact ⟨x, rest, rfl⟩
  have hxb : x.seq = b := by
    have hc := h.1.queue.chain
    rw [hq] at hc
    exact hc.1.1
  obtain ⟨k, hk⟩ : ∃ k, k = (readReply c.fmt P).sndSeq.toNat := ⟨_, rfl⟩
  have hmq := h.1.mq
  obtain ⟨new, ctx', r1, _⟩ := reach_spec c ds hlen b k s.q s.ctx h.1.queue hne (by have := h.1.queue.fits; omega)
  have hen := replyRec_encodes (readReply c.fmt P) s.rtime ttl (readReply_mult c.fmt P).1 (readReply_mult c.fmt P).2 v1 v2 hmul
  unfold judge
  simp only
  rw [if_neg (by omega), hq]
  simp only
  by_cases hb : (readReply c.fmt P).sndSeq.toNat < x.seq
  · rw [if_pos hb]
    right
    rw [hp]; omega
  · left
    rw [if_neg hb, v1, v2, if_neg (by decide), if_neg (by decide), writeRec_some c _ now s hw hen]
    simp only
    rw [← hk, r1]

theorem receive_records (hlen : ds.length = c.npackets.toNat) (h : Inv c ds quiet A R b m s) (hs : s.phase = .receiving) (t : Tick)
    (hu : quiet → ∀ j, t.usr2 j = false) (r : Sender.Reading) (hclk : t.clock = some r) (hr : Clocked R r) (hw : ∀ l r, c.write l r = true)
    (hc : Undisturbed c s t) (peer bytes : Bytes) (ttl : Byte) (i : Bool) (P : Bytes) (hgot : t.got = .dgram peer bytes ttl i)
    (hl : twPayloadSize c.fmt 0 ≤ (bytes.take (respLen c)).length) (hP : openReply c.H c.fmt c.ep (bytes.take (respLen c)) = .plain P) :
    (∃ es a, (receive c t s).entries = s.entries ++ es ++ [a] ∧ a.data.sent.seq = (readReply c.fmt P).sndSeq ∧ Genuine c t a) ∨
      (readReply c.fmt P).sndSeq.toNat < passed c (receive c t s) := by
  obtain ⟨c1, c2, c3⟩ := hc
  obtain ⟨c4, c5, _, _, c6⟩ := c3 hs
  obtain ⟨c7, c8⟩ := c6 peer bytes ttl i hgot
  obtain ⟨c8, c9, c10⟩ := c8 P hP
  have hsz : ¬ ((taken c t.got).all (fun g => g.1.length ≠ respLen c) && !t.got.eintr) = true := by
    intro hx
    exact sizes_of c t s hs ⟨c1, c2, c3⟩ hx
  have hi := h.2.receiving hs
  have hne := h.2.full (Or.inr (Or.inl hs))
  have hd : s.phase ≠ .dead := by rw [hs]; decide
  unfold receive
  rw [c4, if_neg (by decide)]
  simp only
  rw [if_neg hsz, c2, if_neg (by decide), hclk]
  simp only
  rw [c5, if_neg (by decide)]
  obtain ⟨S, hS⟩ : ∃ S : St, S = { s with buf := (t.left ++ s.buf).take s.buf.length } := ⟨_, rfl⟩
  rw [← hS]
  have hcS : Core c ds quiet A R b m S := h.1.congr S (by rw [hS]) (by rw [hS]) (by rw [hS]) (by rw [hS]) (by rw [hS]) (fun _ => hd)
  have hneS : S.q ≠ [] := by rw [hS]; exact hne
  have hpS : S.phase = .receiving := by rw [hS]; exact hs
  have hiS : S.i + 1 = m := by rw [hS]; exact hi
  have heS : S.entries = s.entries := by rw [hS]
  obtain ⟨b', q, ctx, es, g1, g2, g3, g4, g5, g6, _⟩ := stampFlush_spec hlen hcS hneS t.usr2 hu r hr
  obtain ⟨f1, es', f2⟩ := flush_adds c t.usr2 r.time (c.npackets.toNat + 1) hw 0 r.time
    { S with rtime := { timespecToTimestamp S.rtime r.time (some r.err) none with sync := r.sync }, cur := r.time } (stamp_mult _ r)
  obtain ⟨Y, hY⟩ : ∃ Y, Y = (stampFlush c t.usr2 r S).2 := ⟨_, rfl⟩
  have hYe : Y.entries = s.entries ++ es' := by rw [hY]; unfold stampFlush; simp only; rw [f2]; simp only; rw [heS]
  rw [← hY] at g2 g3 ⊢
  have hpY : Y.phase = .receiving := by rw [g2]; exact hpS
  have hiY : Y.i + 1 = m := by rw [g2]; exact hiS
  cases hf : (stampFlush c t.usr2 r S).1 with
  | stuck => exact (g4 hf).elim
  | error => exact (f1 hf).elim
  | over =>
    right
    have hY0 : Y.q = [] := by rw [g2]; exact (g6 hf).2
    have hmq := h.1.mq
    have hfit := h.1.queue.fits
    simp only [passed, hY0]
    omega
  | more =>
    simp only
    have hqY : Y.q ≠ [] := by rw [g2]; exact g5 hf
    have hI : Inv c ds quiet A R b' m { Y with rc := some 0 } :=
      ⟨g3.congr _ rfl rfl rfl rfl rfl (fun e => e), ⟨fun e => (by simp only at e; rw [hpY] at e; cases e), fun _ => hiY, fun _ => hqY,
        by simp only; rw [hpY]; decide⟩⟩
    have hrt : Y.rtime.owptime = stampOf r.time := by rw [g2]; exact stamp_time _ r
    have hsy : Y.rtime.sync = r.sync := by rw [g2]
    have hmu : Y.rtime.multiplier ≠ 0 := by rw [g2]; exact stamp_mult _ r
    have hj := judge_records hlen hI hpY P ttl r.time hmu hw (by simp only; omega) c9 c10
    simp only [hgot, taken, examine]
    rw [if_neg (by omega), hP]
    simp only
    rcases hj with hj | hj
    · left
      refine ⟨es', _, by rw [hj]; simp only; rw [hYe], rfl, ?_⟩
      exact replyRec_genuine t r peer bytes ttl i P Y.rtime hgot hclk hl hP hrt hsy c9 c10
    · exact Or.inr hj

theorem wait_arith (a b : TimeParts) (ha : 0 ≤ a.sub ∧ a.sub < 1000000000) (hb : 0 ≤ b.sub ∧ b.sub < 1000000000) (D : Int)
    (hD : total 1000000000 a = D) (h : total 1000000000 b + 1000000 ≤ D) :
    ¬ tsLt a b = true ∧ ¬ ((tsSub a b).sec = 0 && decide ((tsSub a b).sub < 1000000)) = true := by
  have hc := C60_timespec_arith a b ha hb
  refine ⟨?_, fun e => ?_⟩
  · rw [hc.1, hD]; omega
  · simp only [Bool.and_eq_true, decide_eq_true_eq] at e
    have h1 := hc.2.2.2.1.1
    simp only [total] at h1 h hD
    omega

theorem wait_of (hst : 0 ≤ c.begin.sub ∧ c.begin.sub < 1000000000) (cur : TimeParts) (k : Nat)
    (h : (0 ≤ cur.sub ∧ cur.sub < 1000000000) ∧ total 1000000000 cur + 1000000 ≤ due c.begin ds k) :
    ¬ tsLt (dueAt c (rel ds k)) cur = true ∧
      ¬ ((tsSub (dueAt c (rel ds k)) cur).sec = 0 && decide ((tsSub (dueAt c (rel ds k)) cur).sub < 1000000)) = true :=
  wait_arith _ cur (due_total hst k).2 h.1 _ (due_total hst k).1 h.2

/-- The process waits for a reply in this pass: all packets are sent, or the next one is due in a millisecond or more. -/
theorem recvTurn_records (hlen : ds.length = c.npackets.toNat) (hst : 0 ≤ c.begin.sub ∧ c.begin.sub < 1000000000)
    (h : Inv c ds quiet A R b m s) (hs : s.phase = .receiving) (t : Tick)
    (hu : quiet → ∀ j, t.usr2 j = false) (r : Sender.Reading) (hclk : t.clock = some r) (hr : Clocked R r) (hw : ∀ l r, c.write l r = true)
    (hc : Undisturbed c s t) (hwait : Waits c ds s) (peer bytes : Bytes) (ttl : Byte) (i : Bool) (P : Bytes) (hgot : t.got = .dgram peer bytes ttl i)
    (hl : twPayloadSize c.fmt 0 ≤ (bytes.take (respLen c)).length) (hP : openReply c.H c.fmt c.ep (bytes.take (respLen c)) = .plain P) :
    (∃ es a, (recvTurn c t s).entries = s.entries ++ es ++ [a] ∧ a.data.sent.seq = (readReply c.fmt P).sndSeq ∧ Genuine c t a) ∨
      (readReply c.fmt P).sndSeq.toNat < passed c (recvTurn c t s) := by
  have hd : s.phase ≠ .dead := by rw [hs]; decide
  have hi := h.2.receiving hs
  have hne := h.2.full (Or.inr (Or.inl hs))
  unfold recvTurn
  rw [hc.1, if_neg (by decide)]
  split
  · rename_i hin
    obtain ⟨new, ctx', r1, r2, r3, r4, _, _⟩ := reach_spec c ds hlen b (s.i + 1) s.q s.ctx h.1.queue hne (by omega)
    obtain ⟨n, f1, f2, f3, f4⟩ := chain_find ds _ b (s.i + 1) r3.chain (by have := h.1.bm; omega) r4
    rw [r1]
    simp only [f1]
    have hC := h.1.grow r2 r3
    have hneN : s.q ++ new ≠ [] := by simp [hne]
    have hlast : ¬ s.i + 1 = c.npackets.toNat := by omega
    have hwa := wait_of hst s.cur (s.i + 1) (hwait.resolve_left hlast)
    rw [← f4] at hwa
    have hlt := hwa.1
    have hsub := hwa.2
    rw [if_neg hlt, if_neg hsub]
    have hI : Inv c ds quiet A R b m { s with q := s.q ++ new, ctx := ctx', next := dueAt c n.relative } := by
      refine ⟨hC.congr _ rfl rfl rfl rfl rfl (fun e => e), ⟨fun e => ?_, fun _ => hi, fun _ => hneN, ?_⟩⟩
      · simp only at e; rw [hs] at e; cases e
      · simp only; rw [hs]; decide
    exact receive_records hlen hI hs t hu r hclk hr hw (hc.of_state rfl rfl) peer bytes ttl i P hgot hl hP
  · exact receive_records hlen h hs t hu r hclk hr hw hc peer bytes ttl i P hgot hl hP

end

end Owamp.TwoWay
