import Verif.Lemmas.Receiver
import Verif.Props.Sender
/-!
# C24 – C27: what a receiver records
-/
namespace Owamp.Props
open Owamp.Num64 Owamp.Time Owamp.Pkt Owamp.Ctl Owamp.Codec Owamp.Spec Owamp.Spec.Sender Owamp.Spec.Receiver Owamp.Recv

/-- Everything a run of the receiver is given: the configuration, the schedule context (which may have been used before) and what
the system calls return. -/
structure RecvRun where
  c : Recv.Cfg
  sid : Bytes
  slots : List Sched.Slot
  c0 : Sched.Ctx
  ops : List Sched.Op
  clock : Option Owamp.Sender.Reading
  usr2 : Nat → Bool
  stamp : TimeStamp

/-- The state after the arrivals `as`. -/
def RecvRun.after (x : RecvRun) (as : List Arrival) : Recv.St :=
  Recv.run x.c (Recv.init x.c (Sched.run x.c.E x.c0 x.ops) x.clock x.usr2 x.stamp) as

/-- The schedule is the session's, and every clock reading is a normalised time. -/
structure RecvRun.Ok (x : RecvRun) (as : List Arrival) : Prop where
  sched : Sched.create x.sid ⟨x.c.npackets, x.slots⟩ = some x.c0
  first : ∀ r, x.clock = some r → GoodClock r
  later : ∀ a ∈ as, ∀ r, a.clock = some r → GoodClock r

/-- `ds` are the delays of the session's schedule. -/
def RecvRun.Delays (x : RecvRun) (ds : List Nat) : Prop :=
  Spec.Delays x.c.E x.sid x.slots 0 0 ds ∧ ds.length = x.c.npackets.toNat

/-- The stop signal never arrives while the receiver is inside a flush. -/
def RecvRun.Quiet (x : RecvRun) (as : List Arrival) : Prop := (∀ j, x.usr2 j = false) ∧ ∀ a ∈ as, ∀ j, a.usr2 j = false

/-- `t` is a time the process read from its clock. -/
def RecvRun.Read (x : RecvRun) (as : List Arrival) (t : TimeParts) : Prop :=
  (∃ r, x.clock = some r ∧ r.time = t) ∨ ∃ a ∈ as, ∃ r, a.clock = some r ∧ r.time = t

private theorem started (x : RecvRun) (as : List Arrival) (h : x.Ok as) :
    ∃ ds, x.Delays ds ∧ ∃ b, RInv x.c ds (x.Quiet as) (· ∈ as) (x.Read as) b (x.after []) ∧
      ((x.after []).status = .over → b = x.c.npackets.toNat) := by
  obtain ⟨ds, h1, h2, h3⟩ := C06_schedule x.c.E x.sid _ x.c0 h.sched
  obtain ⟨b, i1, i2⟩ := init_spec x.c x.sid x.slots x.c0 h.sched x.ops ds h1 h2 (x.Quiet as) (· ∈ as) (x.Read as) x.clock x.usr2
    (fun hq => hq.1) (fun r hr => ⟨Or.inl ⟨r, hr, rfl⟩, h.first r hr⟩) x.stamp
  exact ⟨ds, ⟨h3, h2⟩, b, i1, i2⟩

private theorem ran (x : RecvRun) (as : List Arrival) (h : x.Ok as) :
    ∃ ds, x.Delays ds ∧ ∃ b, RInv x.c ds (x.Quiet as) (· ∈ as) (x.Read as) b (x.after as) ∧
      ((∀ a ∈ as, unstopped a) → (x.after as).status = .over → b = x.c.npackets.toNat) := by
  obtain ⟨ds, hd, b0, i1, i2⟩ := started x as h
  obtain ⟨b, _, r1, r2⟩ := run_spec x.c ds hd.2 (x.Quiet as) (· ∈ as) (x.Read as) as b0 (x.after [])
    (fun a ha => ⟨ha, fun hq => hq.2 a ha, fun r hr => ⟨Or.inr ⟨a, ha, r, hr, rfl⟩, h.later a ha r hr⟩⟩) i1
  exact ⟨ds, hd, b, r1, fun y => r2 y i2⟩

private theorem passed_eq (c : Recv.Cfg) (ds : List Nat) (quiet : Prop) (A : Arrival → Prop) (R : TimeParts → Prop) (b : Nat) (s : Recv.St)
    (h : RInv c ds quiet A R b s) : passed c s = b := by
  unfold passed
  have hq := h.1.1
  split
  · rename_i e; exact (hq.empty e).symm
  · rename_i n rest e
    have := hq.chain
    rw [e] at this
    exact this.1.1

/-! ## C24 -/

/-- **C24.** Whatever arrives, whatever the clock shows and whichever signals come: every packet the receiver has passed has exactly
one verdict; a packet it has not passed is not recorded as lost; lost records are in strictly ascending order of packets; no record names a
packet outside the session. -/
theorem C24_one_verdict (x : RecvRun) (as : List Arrival) (h : x.Ok as) :
    let s := x.after as
    (∀ k, k < passed x.c s → OneVerdict s.entries k) ∧ (∀ k, passed x.c s ≤ k → lostFor k s.entries = []) ∧
      (s.entries.filter isLost).Pairwise (fun e e' => e.data.seq.toNat < e'.data.seq.toNat) ∧
      (∀ e ∈ s.entries, e.data.seq.toNat < x.c.npackets.toNat) ∧ passed x.c s ≤ x.c.npackets.toNat := by
  intro s
  obtain ⟨ds, _, b, hI, _⟩ := ran x as h
  rw [passed_eq _ _ _ _ _ _ _ hI]
  refine ⟨hI.1.2.before, hI.1.2.nolost, hI.1.2.asc, ?_, hI.2.2⟩
  intro e he
  rcases hI.1.2.good e he with ⟨_, g, _⟩ | ⟨_, a, _, g⟩
  · exact g.2.2.2
  · obtain ⟨_, _, _, _, _, _, _, _, _, _, _, _, _, _, _, _, g, _⟩ := g
    exact g

/-- **C24**, at the end: a receiver that ends its test without being stopped has a verdict for every packet of the session. -/
theorem C24_complete (x : RecvRun) (as : List Arrival) (h : x.Ok as) (hs : ∀ a ∈ as, unstopped a)
    (ho : (x.after as).status = .over) : ∀ k, k < x.c.npackets.toNat → OneVerdict (x.after as).entries k := by
  obtain ⟨ds, _, b, hI, hb⟩ := ran x as h
  intro k hk
  exact hI.1.2.before k (by rw [hb hs ho]; exact hk)

/-- What was passed stays passed, so by `C24_one_verdict` a verdict once given stays. -/
theorem C24_final (x : RecvRun) (as bs : List Arrival) (h : x.Ok (as ++ bs)) :
    passed x.c (x.after as) ≤ passed x.c (x.after (as ++ bs)) := by
  obtain ⟨ds, hd, b0, i1, i2⟩ := started x (as ++ bs) h
  have hyp : ∀ a ∈ as ++ bs, (a ∈ as ++ bs) ∧ (x.Quiet (as ++ bs) → ∀ j, a.usr2 j = false) ∧
      ∀ r, a.clock = some r → x.Read (as ++ bs) r.time ∧ GoodClock r :=
    fun a ha => ⟨ha, fun hq => hq.2 a ha, fun r hr => ⟨Or.inr ⟨a, ha, r, hr, rfl⟩, h.later a ha r hr⟩⟩
  obtain ⟨b1, _, r1, _⟩ := run_spec x.c ds hd.2 (x.Quiet (as ++ bs)) (· ∈ as ++ bs) (x.Read (as ++ bs)) as b0 (x.after [])
    (fun a ha => hyp a (List.mem_append_left _ ha)) i1
  obtain ⟨b2, h12, r2, _⟩ := run_spec x.c ds hd.2 (x.Quiet (as ++ bs)) (· ∈ as ++ bs) (x.Read (as ++ bs)) bs b1 (x.after as)
    (fun a ha => hyp a (List.mem_append_right _ ha)) r1
  have e : x.after (as ++ bs) = Recv.run x.c (x.after as) bs := by simp [RecvRun.after, Recv.run]
  rw [e, passed_eq _ _ _ _ _ _ _ r2]
  change RInv x.c ds _ _ _ b1 (x.after as) at r1
  rw [passed_eq _ _ _ _ _ _ _ r1]
  exact h12

/-! ## C25 -/

/-- **C25** (partial: the stop signal does not arrive inside a flush; see `C25_stopped_in_flush`). Every lost record carries the
packet's scheduled time, and was written when the clock had been read more than the timeout after that time. -/
theorem C25_lost_after_timeout_partial (x : RecvRun) (as : List Arrival) (h : x.Ok as) (hq : x.Quiet as) :
    ∃ ds, x.Delays ds ∧ ∀ e ∈ (x.after as).entries, isLost e = true →
      LostRecord x.c ds e ∧ x.Read as e.now ∧ Expired x.c ds e.data.seq.toNat e.now := by
  obtain ⟨ds, hd, b, hI, _⟩ := ran x as h
  refine ⟨ds, hd, ?_⟩
  intro e he hl
  rcases hI.1.2.good e he with ⟨_, g1, g2, g3⟩ | ⟨g, _⟩
  · exact ⟨g1, g2, g3 hq⟩
  · rw [hl] at g; cases g

/-- The part of **C25** that needs no assumption on signals: lost records always carry the scheduled time. -/
theorem C25_scheduled_time (x : RecvRun) (as : List Arrival) (h : x.Ok as) :
    ∃ ds, x.Delays ds ∧ ∀ e ∈ (x.after as).entries, isLost e = true → LostRecord x.c ds e := by
  obtain ⟨ds, hd, b, hI, _⟩ := ran x as h
  refine ⟨ds, hd, ?_⟩
  intro e he hl
  rcases hI.1.2.good e he with ⟨_, g1, _⟩ | ⟨g, _⟩
  · exact g1
  · rw [hl] at g; cases g

/-! ## C26 -/

/-- **C26** (partial: the scheduled time is compared after being cut to nanoseconds, see `Genuine`; and some rejected datagrams end the
session, see the witnesses below). Every record that is not a lost one is the true record of a genuine, timely datagram. -/
theorem C26_only_genuine_partial (x : RecvRun) (as : List Arrival) (h : x.Ok as) :
    ∃ ds, x.Delays ds ∧ ∀ e ∈ (x.after as).entries, isLost e = false → ∃ a ∈ as, Genuine x.c ds a e := by
  obtain ⟨ds, hd, b, hI, _⟩ := ran x as h
  refine ⟨ds, hd, ?_⟩
  intro e he hl
  rcases hI.1.2.good e he with ⟨g, _⟩ | ⟨_, g⟩
  · rw [hl] at g; cases g
  · exact g

/-- What "opens" means in the ciphered modes: the digest in the packet is the keyed hash of the header in clear (16 bytes in
authenticated mode, 32 in encrypted mode). -/
theorem C26_digest (H : Mac) (e : Ep) (bytes P : Bytes) :
    (openPacket H .auth e bytes = .plain P → get P 32 16 = (H.hash e.hmacKey (get P 0 16)).take 16) ∧
    (openPacket H .enc e bytes = .plain P → get P 32 16 = (H.hash e.hmacKey (get P 0 16 ++ get P 16 16)).take 16) := by
  constructor
  · intro h
    unfold openPacket openWith at h
    simp only at h
    cases hd : e.aeskey.decrypt (zeros 16) (get bytes 0 16) with
    | none => rw [hd] at h; cases h
    | some d =>
      rw [hd] at h
      simp only [Option.elim] at h
      split at h
      · rename_i hh; cases h; exact hh
      · cases h
  · intro h
    unfold openPacket openWith at h
    simp only at h
    cases hd : e.aeskey.decrypt (zeros 16) (get bytes 0 16) with
    | none => rw [hd] at h; cases h
    | some d =>
      rw [hd] at h
      simp only [Option.elim] at h
      cases hd' : e.aeskey.decrypt d.2 (get (put bytes 0 d.1) 16 16) with
      | none => rw [hd'] at h; cases h
      | some d' =>
        rw [hd'] at h
        dsimp only at h
        split at h
        · rename_i hh; cases h; exact hh
        · cases h

/-- The same turn with the wake-up timer going off instead of a datagram arriving. -/
def Recv.Arrival.nothing (a : Arrival) : Arrival := { a with got := .fail true }

/-- **C26**, rejected datagrams: unless it ends the session, a datagram leaves exactly the records there would be had nothing
arrived, or adds one record, the genuine one of this datagram. So a datagram that is not genuine changes nothing. -/
theorem C26_rejected_unchanged (x : RecvRun) (as : List Arrival) (a : Arrival) (h : x.Ok (as ++ [a]))
    (hr : (x.after as).status = .running) (hf : (x.after (as ++ [a])).status ≠ .failed) :
    ∃ ds, x.Delays ds ∧
      ((x.after (as ++ [a])).entries = (x.after (as ++ [Recv.Arrival.nothing a])).entries ∨
       ∃ e, (x.after (as ++ [a])).entries = (x.after (as ++ [Recv.Arrival.nothing a])).entries ++ [e] ∧ Genuine x.c ds a e) := by
  obtain ⟨ds, hd, b0, i1, i2⟩ := started x (as ++ [a]) h
  refine ⟨ds, hd, ?_⟩
  have hyp : ∀ y ∈ as ++ [a], (y ∈ as ++ [a]) ∧ (x.Quiet (as ++ [a]) → ∀ j, y.usr2 j = false) ∧
      ∀ r, y.clock = some r → x.Read (as ++ [a]) r.time ∧ GoodClock r :=
    fun y hy => ⟨hy, fun hq => hq.2 y hy, fun r hr => ⟨Or.inr ⟨y, hy, r, hr, rfl⟩, h.later y hy r hr⟩⟩
  obtain ⟨b, _, hI, _⟩ := run_spec x.c ds hd.2 (x.Quiet (as ++ [a])) (· ∈ as ++ [a]) (x.Read (as ++ [a])) as b0 (x.after [])
    (fun y hy => hyp y (List.mem_append_left _ hy)) i1
  have e1 : ∀ y, x.after (as ++ [y]) = Recv.turn x.c y (x.after as) := by
    intro y
    have : x.after (as ++ [y]) = Recv.step x.c (x.after as) y := by simp [RecvRun.after, Recv.run]
    rw [this, Recv.step, if_pos hr]
  change RInv x.c ds _ _ _ b (x.after as) at hI
  rw [e1] at hf
  rw [e1, e1]
  obtain ⟨_, hu, hclk⟩ := hyp a (by simp)
  generalize x.after as = s at *
  clear e1
  unfold Recv.turn at hf ⊢
  have n1 : (Recv.Arrival.nothing a).timer = a.timer := rfl
  have n2 : (Recv.Arrival.nothing a).sig1 = a.sig1 := rfl
  have n3 : (Recv.Arrival.nothing a).sig2 = a.sig2 := rfl
  have n4 : (Recv.Arrival.nothing a).sig3 = a.sig3 := rfl
  have n5 : (Recv.Arrival.nothing a).sig4 = a.sig4 := rfl
  have n6 : (Recv.Arrival.nothing a).clock = a.clock := rfl
  have n7 : (Recv.Arrival.nothing a).usr2 = a.usr2 := rfl
  have n8 : (Recv.Arrival.nothing a).got.taken x.c.len = none := rfl
  have n9 : (Recv.Arrival.nothing a).got.eintr = true := rfl
  rw [n1, n2, n3, n4, n5, n6, n7, n8, n9]
  split
  · exact Or.inl rfl
  · rename_i ht
    rw [if_neg ht] at hf
    cases h1 : a.sig1 with
    | int => exact Or.inl rfl
    | usr2 => exact Or.inl rfl
    | none =>
      rw [h1] at hf
      simp only [Recv.Sig.then] at hf ⊢
      by_cases hb : ((a.got.taken x.c.len).isNone && !a.got.eintr) = true
      · rw [if_pos hb] at hf; exact (hf rfl).elim
      · rw [if_neg hb] at hf ⊢
        rw [if_neg (by simp)]
        cases h2 : a.sig2 with
        | int => exact Or.inl rfl
        | usr2 => exact Or.inl rfl
        | none =>
          rw [h2] at hf
          simp only at hf ⊢
          cases hc : a.clock with
          | none => exact Or.inl rfl
          | some r =>
            rw [hc] at hf
            simp only at hf ⊢
            cases h3 : a.sig3 with
            | int => exact Or.inl rfl
            | usr2 => exact Or.inl rfl
            | none =>
              rw [h3] at hf
              simp only at hf ⊢
              obtain ⟨hR, hg⟩ := hclk r hc
              obtain ⟨b', g1, g2, g3, g4, g5, g6, g7, g8⟩ := stampFlush_spec x.c ds hd.2 _ (· ∈ as ++ [a]) _ a.usr2 hu r hR hg s b hI.1 hr (hI.2.1 hr)
              generalize Recv.stampFlush x.c a.usr2 r s = F at *
              unfold Recv.afterFlush at hf ⊢
              cases hF : F.1 with
              | error => exact Or.inl rfl
              | stuck => exact Or.inl rfl
              | over => exact Or.inl rfl
              | more =>
                rw [hF] at hf
                simp only at hf ⊢
                cases h4 : a.sig4 with
                | int => exact Or.inl rfl
                | usr2 => exact Or.inl rfl
                | none =>
                  rw [h4] at hf
                  simp only at hf ⊢
                  cases ht : a.got.taken x.c.len with
                  | none => exact Or.inl rfl
                  | some y =>
                    obtain ⟨peer, bytes, ttl⟩ := y
                    simp only
                    unfold Recv.Got.taken at ht
                    split at ht
                    · rename_i pr bs tl ei hgot
                      split at ht
                      · rename_i hln
                        simp only [Option.some.injEq, Prod.mk.injEq] at ht
                        obtain ⟨rfl, rfl, rfl⟩ := ht
                        exact (examine_spec x.c ds hd.2 _ _ _ b' F.2 g2 g5 a (by simp) pr bs tl ei r hgot hc hln g4 hg.2.2).2.1
                      · cases ht
                    · cases ht

/-- **C26**, the converse: a datagram of the peer that opens, whose packet is in the session and not yet passed and whose send time is
within the timeout of the receive time and of every instant up to 5 units of 2⁻³² s before the scheduled one, is recorded, unless
the session ends in failure. -/
theorem C26_timely_recorded (x : RecvRun) (as : List Arrival) (a : Arrival) (h : x.Ok (as ++ [a]))
    (hr : (x.after as).status = .running) (hf : (x.after (as ++ [a])).status ≠ .failed)
    (hgo : (x.after (as ++ [Recv.Arrival.nothing a])).status = .running)
    (bytes : Bytes) (ttl : Byte) (i : Bool) (r : Owamp.Sender.Reading) (P : Bytes)
    (hgot : a.got = .dgram x.c.remote bytes ttl i) (hclock : a.clock = some r) (hlen : x.c.len ≤ bytes.length)
    (hopen : openPacket x.c.H x.c.fmt x.c.ep (bytes.take x.c.len) = .plain P)
    (hpass : passed x.c (x.after (as ++ [Recv.Arrival.nothing a])) ≤ (seqOf P).toNat)
    (hrecv : apart (timeOf x.c.fmt P).toNat (stampOf r.time).toNat ≤ x.c.timeout.toNat) :
    ∃ ds, x.Delays ds ∧
      ((∀ y d, d ≤ 5 → y < 2 ^ 64 → (y + d) % 2 ^ 64 = schedTime x.c.start.toNat ds (seqOf P).toNat →
          apart (timeOf x.c.fmt P).toNat y ≤ x.c.timeout.toNat) →
        ∃ e, (x.after (as ++ [a])).entries = (x.after (as ++ [Recv.Arrival.nothing a])).entries ++ [e] ∧ Genuine x.c ds a e) := by
  obtain ⟨ds, hd, b0, i1, i2⟩ := started x (as ++ [a]) h
  refine ⟨ds, hd, ?_⟩
  intro hsched
  have hyp : ∀ y ∈ as ++ [a], (y ∈ as ++ [a]) ∧ (x.Quiet (as ++ [a]) → ∀ j, y.usr2 j = false) ∧
      ∀ r, y.clock = some r → x.Read (as ++ [a]) r.time ∧ GoodClock r :=
    fun y hy => ⟨hy, fun hq => hq.2 y hy, fun r hr => ⟨Or.inr ⟨y, hy, r, hr, rfl⟩, h.later y hy r hr⟩⟩
  obtain ⟨b, _, hI, _⟩ := run_spec x.c ds hd.2 (x.Quiet (as ++ [a])) (· ∈ as ++ [a]) (x.Read (as ++ [a])) as b0 (x.after [])
    (fun y hy => hyp y (List.mem_append_left _ hy)) i1
  have e1 : ∀ y, x.after (as ++ [y]) = Recv.turn x.c y (x.after as) := by
    intro y
    have : x.after (as ++ [y]) = Recv.step x.c (x.after as) y := by simp [RecvRun.after, Recv.run]
    rw [this, Recv.step, if_pos hr]
  change RInv x.c ds _ _ _ b (x.after as) at hI
  rw [e1] at hf hgo hpass
  rw [e1, e1]
  obtain ⟨_, hu, hclk⟩ := hyp a (by simp)
  generalize x.after as = s at *
  clear e1
  have n8 : (Recv.Arrival.nothing a).got.taken x.c.len = none := rfl
  have n9 : (Recv.Arrival.nothing a).got.eintr = true := rfl
  have n10 : a.got.taken x.c.len = some (x.c.remote, bytes.take x.c.len, ttl) := by
    rw [hgot, Recv.Got.taken, if_pos hlen]
  have n1 : (Recv.Arrival.nothing a).timer = a.timer := rfl
  have n2 : (Recv.Arrival.nothing a).sig1 = a.sig1 := rfl
  have n3 : (Recv.Arrival.nothing a).sig2 = a.sig2 := rfl
  have n4 : (Recv.Arrival.nothing a).sig3 = a.sig3 := rfl
  have n5 : (Recv.Arrival.nothing a).sig4 = a.sig4 := rfl
  have n6 : (Recv.Arrival.nothing a).clock = some r := hclock
  have n7 : (Recv.Arrival.nothing a).usr2 = a.usr2 := rfl
  unfold Recv.turn at hf hgo hpass ⊢
  rw [n1, n2, n3, n4, n5, n6, n7, n8, n9] at hgo hpass ⊢
  rw [hclock, n10] at hf ⊢
  by_cases ht : (!a.timer) = true
  · rw [if_pos ht] at hgo; cases hgo
  · rw [if_neg ht] at hgo hpass hf ⊢
    rw [if_neg ht]
    cases h1 : a.sig1 with
    | int => rw [h1] at hgo; cases hgo
    | usr2 => rw [h1] at hgo; cases hgo
    | none =>
      rw [h1] at hgo hpass hf
      simp only [Recv.Sig.then] at hgo hpass hf ⊢
      rw [if_neg (by simp)] at hgo hpass hf ⊢
      rw [if_neg (by simp)]
      cases h2 : a.sig2 with
      | int => rw [h2] at hgo; cases hgo
      | usr2 => rw [h2] at hgo; cases hgo
      | none =>
        rw [h2] at hgo hpass hf
        simp only at hgo hpass hf ⊢
        cases h3 : a.sig3 with
        | int => rw [h3] at hgo; cases hgo
        | usr2 => rw [h3] at hgo; cases hgo
        | none =>
          rw [h3] at hgo hpass hf
          simp only at hgo hpass hf ⊢
          obtain ⟨hR, hg⟩ := hclk r hclock
          obtain ⟨b', g1, g2, g3, g4, g5, g6, g7, g8⟩ := stampFlush_spec x.c ds hd.2 _ (· ∈ as ++ [a]) _ a.usr2 hu r hR hg s b hI.1 hr (hI.2.1 hr)
          generalize Recv.stampFlush x.c a.usr2 r s = F at *
          unfold Recv.afterFlush at hgo hpass hf ⊢
          cases hF : F.1 with
          | error => rw [hF] at hgo; cases hgo
          | stuck => rw [hF] at hgo; cases hgo
          | over => rw [hF] at hgo; cases hgo
          | more =>
            rw [hF] at hgo hpass hf
            simp only at hgo hpass hf ⊢
            cases h4 : a.sig4 with
            | int => rw [h4] at hgo; cases hgo
            | usr2 => rw [h4] at hgo; cases hgo
            | none =>
              rw [h4] at hgo hpass hf
              simp only at hgo hpass hf ⊢
              have hpb : passed x.c F.2 = b' := passed_eq _ _ _ _ _ _ _ ⟨g2, fun _ => g6 hF, g2.fits⟩
              rw [hpb] at hpass
              have hex := (examine_spec x.c ds hd.2 _ _ _ b' F.2 g2 g5 a (by simp) x.c.remote bytes ttl i r hgot hclock hlen g4 hg.2.2).2.1
              have hne : (Recv.examine x.c x.c.remote (bytes.take x.c.len) ttl r.time F.2).entries ≠ F.2.entries := by
                unfold Recv.examine at hf ⊢
                rw [if_neg (by simp)] at hf ⊢
                rw [hopen] at hf ⊢
                exact judge_records x.c ds hd.2 _ _ _ b' F.2 g2 ttl r.time P hpass (by rw [g4, diff_apart]; exact hrecv) (fun y d y1 y2 y3 => by rw [diff_apart]; exact hsched y d y1 y2 y3) hf
              rcases hex with hex | hex
              · exact (hne hex).elim
              · exact hex

/-! ## C27 -/

private theorem unwrap (W e v : Nat) (h1 : e ≤ v) (h2 : v < W) : (v + W - e) % W = v - e := by
  rw [show v + W - e = W + (v - e) by omega, Nat.add_mod_left]
  exact Nat.mod_eq_of_lt (by omega)

private theorem nanos_mono (u v : Nat) (h : u ≤ v) : nanos u ≤ nanos v := by
  unfold nanos
  exact Int.ofNat_le.2 (Nat.div_le_div_right (Nat.mul_le_mul_right _ h))

private theorem expired_mono (c : Recv.Cfg) (ds : List Nat) (hs : epoch ≤ c.start.toNat) (hw : c.start.toNat + ds.sum < 2 ^ 64) (t : TimeParts)
    (b k : Nat) (hbk : b ≤ k) (h : Expired c ds k t) : Expired c ds b t := by
  have hm : ∀ m, (ds.take m).sum ≤ ds.sum := by
    intro m
    have := congrArg List.sum (List.take_append_drop m ds)
    rw [List.sum_append] at this
    omega
  have hle : (ds.take (b + 1)).sum ≤ (ds.take (k + 1)).sum := by
    have e : ds.take (k + 1) = ds.take (b + 1) ++ (ds.drop (b + 1)).take (k - b) := by
      rw [← List.take_add]
      congr 1
      omega
    rw [e, List.sum_append]
    omega
  have hu : ∀ m, unixNanos (schedTime c.start.toNat ds m) = nanos (c.start.toNat + (ds.take (m + 1)).sum - epoch) := by
    intro m
    have h1 := hm (m + 1)
    have h2 : schedTime c.start.toNat ds m = c.start.toNat + (ds.take (m + 1)).sum := by
      unfold schedTime
      exact Nat.mod_eq_of_lt (Nat.lt_of_le_of_lt (Nat.add_le_add_left h1 _) hw)
    rw [h2, unixNanos]
    rw [unwrap _ _ _ (Nat.le_trans hs (Nat.le_add_right _ _)) (Nat.lt_of_le_of_lt (Nat.add_le_add_left h1 _) hw)]
  unfold Expired at h ⊢
  rw [hu] at h ⊢
  have h3 : nanos (c.start.toNat + (ds.take (b + 1)).sum - epoch) ≤ nanos (c.start.toNat + (ds.take (k + 1)).sum - epoch) := by
    exact nanos_mono _ _ (Nat.sub_le_sub_right (Nat.add_le_add_left hle _) _)
  exact Int.lt_of_le_of_lt (Int.add_le_add_right h3 _) h

/-- **C27** (partial: up to the last turn of the loop that read the clock and got past the signal tests; see
`C27_stopped_before_flush`). Once the receiver has flushed at a clock reading, every packet whose time plus timeout had passed at that
reading has a verdict, and keeps it however the receiver ends. The schedule starts after 1970 and does not wrap. -/
theorem C27_due_have_verdict_partial (x : RecvRun) (as bs : List Arrival) (a : Arrival) (h : x.Ok (as ++ a :: bs))
    (hq : x.Quiet (as ++ a :: bs)) (r : Owamp.Sender.Reading)
    (hrun : (x.after as).status = .running) (hpass : reaches a r) (hlive : (x.after (as ++ [a])).status ≠ .failed) :
    ∃ ds, x.Delays ds ∧ (epoch ≤ x.c.start.toNat → x.c.start.toNat + ds.sum < 2 ^ 64 →
      ∀ k, k < x.c.npackets.toNat → Expired x.c ds k r.time → OneVerdict (x.after (as ++ a :: bs)).entries k) := by
  obtain ⟨ds, hd, b0, i1, i2⟩ := started x (as ++ a :: bs) h
  refine ⟨ds, hd, ?_⟩
  intro hs hw k hk hek
  have hyp : ∀ y ∈ as ++ a :: bs, (y ∈ as ++ a :: bs) ∧ (x.Quiet (as ++ a :: bs) → ∀ j, y.usr2 j = false) ∧
      ∀ r, y.clock = some r → x.Read (as ++ a :: bs) r.time ∧ GoodClock r :=
    fun y hy => ⟨hy, fun hq => hq.2 y hy, fun r hr => ⟨Or.inr ⟨y, hy, r, hr, rfl⟩, h.later y hy r hr⟩⟩
  obtain ⟨b1, _, r1, _⟩ := run_spec x.c ds hd.2 (x.Quiet (as ++ a :: bs)) (· ∈ as ++ a :: bs) (x.Read (as ++ a :: bs)) as b0 (x.after [])
    (fun y hy => hyp y (List.mem_append_left _ hy)) i1
  obtain ⟨y1, y2, y3⟩ := hyp a (by simp)
  have e1 : x.after (as ++ [a]) = Recv.turn x.c a (x.after as) := by
    have : x.after (as ++ [a]) = Recv.step x.c (x.after as) a := by simp [RecvRun.after, Recv.run]
    rw [this, Recv.step, if_pos hrun]
  obtain ⟨b2, _, r2, f2, _⟩ := turn_spec x.c ds hd.2 _ _ _ b1 (x.after as) a y1 y2 y3 r1 hrun
  rw [← e1] at r2 f2
  obtain ⟨b3, h23, r3, _⟩ := run_spec x.c ds hd.2 (x.Quiet (as ++ a :: bs)) (· ∈ as ++ a :: bs) (x.Read (as ++ a :: bs)) bs b2 (x.after (as ++ [a]))
    (fun y hy => hyp y (by simp [hy])) r2
  have e2 : x.after (as ++ a :: bs) = Recv.run x.c (x.after (as ++ [a])) bs := by simp [RecvRun.after, Recv.run]
  rw [e2]
  apply r3.1.2.before
  rcases f2 r hpass hq hlive with f | f
  · omega
  · have : ¬ b2 ≤ k := fun hle => f (expired_mono x.c ds hs hw r.time b2 k hle hek)
    omega

/-! ## Concrete runs -/

/-- Open mode, three packets one second apart (due at seconds 101, 102, 103), loss timeout two seconds. -/
def demoRecvCfg : Recv.Cfg :=
  { H := demoSendMac, E := fun _ _ => List.replicate 16 0x20, fmt := .clear, ep := {}, remote := [10, 0, 0, 1], len := 14
    start := 0x83AA7EE400000000, timeout := 0x200000000, npackets := 3, write := fun _ _ => true }

def demoRecvRun (sec : Int) : Option RecvRun := (Sched.create [] ⟨3, demoSlots⟩).map fun c0 =>
  { c := demoRecvCfg, sid := [], slots := demoSlots, c0 := c0, ops := [], clock := some ⟨⟨sec, 0⟩, 1, true⟩, usr2 := fun _ => false
    stamp := ⟨0, false, 0, 0⟩ }

/-- A packet numbered `seq`, sent at second `256 * 0x83AA7E + sec` of the century. -/
def demoRecvPkt (seq sec err : Byte) : Bytes := [0, 0, 0, seq] ++ [0x83, 0xAA, 0x7E, sec, 0, 0, 0, 0] ++ [0x80, err]
def demoRecvFrom (peer bytes : Bytes) (sec : Int) : Arrival :=
  ⟨true, .none, .dgram peer bytes 63 false, .none, some ⟨⟨sec, 0⟩, 1, true⟩, .none, fun _ => false, .none⟩
def demoRecvGot (bytes : Bytes) (sec : Int) : Arrival := demoRecvFrom [10, 0, 0, 1] bytes sec
def demoRecvIdle (sec : Int) : Arrival := ⟨true, .none, .fail true, .none, some ⟨⟨sec, 0⟩, 1, true⟩, .none, fun _ => false, .none⟩
def demoRecvShow (s : Recv.St) : Recv.Status × List (Nat × Bool × Int) := (s.status, s.entries.map fun e => (e.data.seq.toNat, isLost e, e.now.sec))

/-- Non-vacuity for C24 – C26: packet 1 arrives first, a stranger's packet is ignored, packet 1 arrives again, packet 0 never does and is
given up at second 104, packet 2 arrives; at second 106 the receiver ends with a verdict for all three. -/
theorem C24_example :
    (demoRecvRun 100).map (fun x => demoRecvShow (x.after [demoRecvGot (demoRecvPkt 1 0xE6 1) 102,
        demoRecvFrom [10, 0, 0, 2] (demoRecvPkt 0 0xE6 1) 102, demoRecvGot (demoRecvPkt 1 0xE6 1) 103,
        demoRecvIdle 104, demoRecvGot (demoRecvPkt 2 0xE7 1) 104, demoRecvIdle 106])) =
      some (.over, [(1, false, 102), (1, false, 103), (0, true, 104), (2, false, 104)]) := by decide +kernel

/-- Non-vacuity: the hypotheses of C24 – C27 hold of such runs. -/
example : ∃ x, demoRecvRun 100 = some x ∧ x.Ok [demoRecvGot (demoRecvPkt 1 0xE6 1) 102, demoRecvIdle 104, demoRecvIdle 106] ∧
    x.Quiet [demoRecvGot (demoRecvPkt 1 0xE6 1) 102, demoRecvIdle 104, demoRecvIdle 106] ∧
    reaches (demoRecvIdle 104) ⟨⟨104, 0⟩, 1, true⟩ ∧ unstopped (demoRecvIdle 104) := by
  obtain ⟨x, hx⟩ : ∃ x, demoRecvRun 100 = some x := Option.isSome_iff_exists.1 (by decide +kernel)
  have hx' := hx
  unfold demoRecvRun at hx
  obtain ⟨c0, hc0, rfl⟩ := Option.map_eq_some_iff.1 hx
  refine ⟨_, hx', ⟨hc0, ?_, ?_⟩, ⟨fun _ => rfl, ?_⟩, ⟨rfl, rfl, rfl, rfl, rfl⟩, by unfold unstopped; decide⟩
  · intro r hr; cases hr; unfold GoodClock; decide +kernel
  · intro a ha r hr
    simp only [List.mem_cons, List.not_mem_nil, or_false] at ha
    rcases ha with rfl | rfl | rfl <;> (cases hr; unfold GoodClock; decide +kernel)
  · intro a ha j
    simp only [List.mem_cons, List.not_mem_nil, or_false] at ha
    rcases ha with rfl | rfl | rfl <;> rfl

/-- **C25** fails when the stop signal is noticed inside a flush: the flush then runs its own time forward, and packets that
are not yet due to be given up (here all three, at second 100, before the first is even scheduled) are recorded as lost. -/
theorem C25_stopped_in_flush :
    (demoRecvRun 100).map (fun x => demoRecvShow (x.after [{ demoRecvIdle 100 with usr2 := fun _ => true }])) =
      some (.over, [(0, true, 100), (1, true, 100), (2, true, 100)]) := by decide +kernel

/-- **C26** fails: datagrams that must be rejected end the session and so destroy its results. A packet number that is not
below the packet count; an error estimate with multiplier 0; a datagram that is too short (with `errno` not `EINTR`). In open mode
anyone able to send from the peer's address can do this. -/
theorem C26_rejected_fatal :
    (demoRecvRun 100).map (fun x => demoRecvShow (x.after [demoRecvGot (demoRecvPkt 0 0xE5 1) 101, demoRecvGot (demoRecvPkt 3 0xE5 1) 101])) =
      some (.failed, [(0, false, 101)]) ∧
    (demoRecvRun 100).map (fun x => demoRecvShow (x.after [demoRecvGot (demoRecvPkt 0 0xE5 1) 101, demoRecvGot (demoRecvPkt 1 0xE5 0) 101])) =
      some (.failed, [(0, false, 101)]) ∧
    (demoRecvRun 100).map (fun x => demoRecvShow (x.after [demoRecvGot (demoRecvPkt 0 0xE5 1) 101, demoRecvGot [0] 101])) =
      some (.failed, [(0, false, 101)]) ∧
    ∀ s : Recv.St, s.status = .failed → Recv.ended s true = some (0, false, false) := by
  refine ⟨by decide +kernel, by decide +kernel, by decide +kernel, ?_⟩
  intro s hs
  unfold Recv.ended
  rw [hs]
  rfl

/-- A short datagram from a stranger does the same: the size is tested before the address. -/
theorem C26_stranger_fatal :
    (demoRecvRun 100).map (fun x => demoRecvShow (x.after [demoRecvGot (demoRecvPkt 0 0xE5 1) 101, demoRecvFrom [10, 0, 0, 2] [] 101])) =
      some (.failed, [(0, false, 101)]) := by decide +kernel

/-- **C27** fails when the stop signal is found set before the flush: at second 106 (read from the clock in this very turn) all three
packets are due, the receiver ends as stopped and none of them has a record. -/
theorem C27_stopped_before_flush :
    (demoRecvRun 100).map (fun x => demoRecvShow (x.after [{ demoRecvIdle 106 with sig3 := .usr2 }])) = some (.over, []) ∧
    (∃ ds, Spec.Delays demoRecvCfg.E [] demoSlots 0 0 ds ∧ ds.length = 3 ∧ ∀ k, k < 3 → Expired demoRecvCfg ds k ⟨106, 0⟩) ∧
    ∀ k, ¬ OneVerdict [] k := by
  refine ⟨by decide +kernel, ⟨[0x100000000, 0x100000000, 0x100000000], ?_, rfl, ?_⟩, ?_⟩
  · exact .lit 0 0 0x100000000 _ rfl (.lit 1 0 0x100000000 _ rfl (.lit 2 0 0x100000000 _ rfl (.nil 3 0)))
  · intro k hk
    have : k = 0 ∨ k = 1 ∨ k = 2 := by omega
    rcases this with rfl | rfl | rfl <;> (unfold Expired; decide +kernel)
  · intro k h
    rcases h with ⟨h, _⟩ | ⟨_, h⟩
    · cases h
    · exact h rfl

end Owamp.Props
