import Verif.Spec.EndToEnd
import Verif.Lemmas.ReceiverOrder
/-!
# What an undisturbed receiver records
-/
namespace Owamp.Recv
open Owamp.Num64 Owamp.Time Owamp.Pkt Owamp.Ctl Owamp.Codec Owamp.Spec Owamp.Spec.Sender Owamp.Spec.Receiver Owamp.Spec.EndToEnd Owamp.Props

theorem gotFor_lost (k : Nat) (es : List Entry) (e : Entry) (h : isLost e = true) : gotFor k (es ++ [e]) = gotFor k es := by
  unfold gotFor
  rw [List.filter_append]
  simp [h]

/-- A flush without stop signal only passes packets that have expired, and records no arrivals. -/
theorem flush_gone (c : Cfg) (ds : List Nat) (hlen : ds.length = c.npackets.toNat) (usr2 : Nat → Bool) (hu : ∀ j, usr2 j = false) (clock : TimeParts)
    (hclk : 0 ≤ clock.sub ∧ clock.sub < 1000000000) (n : Nat) :
    ∀ (j : Nat) (s : St) (b : Nat), Queue c ds b s.q s.ctx →
      ∃ b', b ≤ b' ∧ Queue c ds b' (flush c usr2 clock n j clock s).2.q (flush c usr2 clock n j clock s).2.ctx ∧
        (∀ k, b ≤ k → k < b' → Expired c ds k clock) ∧ ∀ k, gotFor k (flush c usr2 clock n j clock s).2.entries = gotFor k s.entries := by
  induction n with
  | zero => intro j s b hQ; exact ⟨b, Nat.le_refl _, hQ, (fun k h1 h2 => by omega), fun _ => rfl⟩
  | succ n ih =>
    intro j s b hQ
    rw [flush]
    cases hq : s.q with
    | nil => exact ⟨b, Nat.le_refl _, hQ, (fun k h1 h2 => by omega), fun _ => rfl⟩
    | cons x rest =>
      dsimp only
      have hQ' := hQ
      rw [hq] at hQ'
      obtain ⟨⟨h1, h2, h3⟩, h4⟩ := hQ'.chain
      have hfit := hQ'.fits
      simp only [List.length_cons] at hfit
      rw [hu j, if_neg (show ¬ (false = true) by decide)]
      split
      · rename_i hlt
        rw [h3, expired_iff c ds b clock hclk] at hlt
        by_cases hhit : x.hit = true
        · rw [if_pos hhit]
          dsimp only
          obtain ⟨q, ctx, p1, p2, p3, p4⟩ := pop_spec c ds hlen b x rest s hq hQ'
          rw [p1]
          dsimp only
          split
          · exact ⟨b + 1, by omega, p2, (fun k g1 g2 => by rw [show k = b by omega]; exact hlt), fun _ => rfl⟩
          · obtain ⟨b', g1, g2, g3, g4⟩ := ih (j + 1) { s with q := q, ctx := ctx } (b + 1) p2
            refine ⟨b', by omega, g2, fun k k1 k2 => ?_, g4⟩
            by_cases hk : k = b
            · rw [hk]; exact hlt
            · exact g3 k (by omega) k2
        · rw [if_neg hhit]
          cases hw : writeRec c (lostRec c x s.stamp) clock s with
          | none => exact ⟨b, Nat.le_refl _, hQ, (fun k h1 h2 => by omega), fun _ => rfl⟩
          | some s1 =>
            have hs1 := writeRec_eq _ _ _ _ _ hw
            subst hs1
            dsimp only
            have hlost : isLost ⟨lostRec c x s.stamp, clock⟩ = true := by simp only [isLost, lostRec]; rfl
            obtain ⟨q, ctx, p1, p2, p3, p4⟩ := pop_spec c ds hlen b x rest { s with entries := s.entries ++ [⟨lostRec c x s.stamp, clock⟩] } hq hQ'
            rw [p1]
            dsimp only
            split
            · exact ⟨b + 1, by omega, p2, (fun k g1 g2 => by rw [show k = b by omega]; exact hlt), fun k => gotFor_lost k _ _ hlost⟩
            · obtain ⟨b', g1, g2, g3, g4⟩ := ih (j + 1) { s with q := q, ctx := ctx, entries := s.entries ++ [⟨lostRec c x s.stamp, clock⟩] } (b + 1) p2
              refine ⟨b', by omega, g2, fun k k1 k2 => ?_, fun k => (g4 k).trans (gotFor_lost k _ _ hlost)⟩
              by_cases hk : k = b
              · rw [hk]; exact hlt
              · exact g3 k (by omega) k2
      · exact ⟨b, Nat.le_refl _, hQ, (fun k h1 h2 => by omega), fun _ => rfl⟩

/-- The packet in clear that a turn brings from the sender's address. -/
def brought (c : Cfg) (a : Arrival) : Option Bytes :=
  match a.got.taken c.len with
  | none => none
  | some (peer, bytes, _) =>
    if peer = c.remote then
      match openPacket c.H c.fmt c.ep bytes with
      | .plain P => some P
      | _ => none
    else none

/-- The turn brings packet `k` in time. -/
def timely (c : Cfg) (ds : List Nat) (k : Nat) (a : Arrival) : Bool :=
  match brought c a, a.clock with
  | some P, some r => (seqOf P).toNat = k && total 1000000000 r.time ≤ unixNanos (schedTime c.start.toNat ds k) + nanos c.timeout.toNat &&
      apart (timeOf c.fmt P).toNat (stampOf r.time).toNat ≤ c.timeout.toNat
  | _, _ => false

/-- All packets below `b` had expired at time `T`. -/
def Past (c : Cfg) (ds : List Nat) (b : Nat) (T : Int) : Prop :=
  ∀ k, k < b → unixNanos (schedTime c.start.toNat ds k) + nanos c.timeout.toNat < T

theorem timely_late {c : Cfg} {ds : List Nat} {k : Nat} {a : Arrival} {r : Owamp.Sender.Reading} (hr : a.clock = some r)
    (h : unixNanos (schedTime c.start.toNat ds k) + nanos c.timeout.toNat < total 1000000000 r.time) : timely c ds k a = false := by
  unfold timely
  rw [hr]
  cases brought c a with
  | none => rfl
  | some P =>
    simp only [Bool.and_eq_false_iff, decide_eq_false_iff_not]
    exact Or.inl (Or.inr (by omega))

/-- The send times of what the turn brings are those of a sender that keeps to the schedule. -/
def OnTime (c : Cfg) (ds : List Nat) (a : Arrival) : Prop :=
  ∀ P, brought c a = some P → ∀ y d, d ≤ 5 → y < 2 ^ 64 → (y + d) % 2 ^ 64 = schedTime c.start.toNat ds (seqOf P).toNat →
    apart (timeOf c.fmt P).toNat y ≤ c.timeout.toNat

theorem genuine_seq {c : Cfg} {ds : List Nat} {a : Arrival} {e : Entry} (h : Genuine c ds a e) {bytes : Bytes} {ttl : Byte} {i : Bool} {r : Owamp.Sender.Reading} {P : Bytes}
    (h1 : a.got = .dgram c.remote bytes ttl i) (h2 : a.clock = some r) (h3 : openPacket c.H c.fmt c.ep (bytes.take c.len) = .plain P) :
    e.data.seq = seqOf P ∧ e.data.recv.owptime = stampOf r.time ∧ apart (timeOf c.fmt P).toNat (stampOf r.time).toNat ≤ c.timeout.toNat := by
  obtain ⟨bytes', ttl', i', r', P', x, d, g1, g2, g3, g4, g5, g6, g7, g8, g9, g10, g11, _⟩ := h
  rw [h1] at g1
  rw [h2] at g2
  injection g1 with _ e2
  subst e2
  injection g2 with e3
  subst e3
  rw [h3] at g4
  injection g4 with e4
  subst e4
  exact ⟨g6, g8, by rw [← g7, ← g8]; exact g11⟩

theorem judge_old (c : Cfg) (ds : List Nat) (b : Nat) (P : Bytes) (ttl : Byte) (now : TimeParts) (s : St) (hQ : Queue c ds b s.q s.ctx)
    (hk : (seqOf P).toNat < b) (hf : (judge c P ttl now s).status ≠ .failed) : judge c P ttl now s = s := by
  unfold judge at hf ⊢
  dsimp only at hf ⊢
  split at hf
  · exact (hf rfl).elim
  · rename_i hn
    rw [if_neg hn]
    cases hq : s.q with
    | nil => rw [hq] at hf; exact (hf rfl).elim
    | cons x rest =>
      have hx : x.seq = b := by have := hQ.chain; rw [hq] at this; exact this.1.1
      dsimp only
      rw [if_pos (by omega)]

theorem gotFor_add (k : Nat) (es : List Entry) (e : Entry) (h : isLost e = false) :
    (gotFor k (es ++ [e])).length = (gotFor k es).length + if e.data.seq.toNat = k then 1 else 0 := by
  unfold gotFor
  rw [List.filter_append, List.length_append]
  by_cases hk : e.data.seq.toNat = k
  · simp [h, hk]
  · simp [hk]

/-- What a turn of an undisturbed receiver does to the count of a packet's arrivals. -/
theorem turn_counts (c : Cfg) (ds : List Nat) (hlen : ds.length = c.npackets.toNat) (hup : Rising c ds) (a : Arrival) (r : Owamp.Sender.Reading)
    (hcalm : Calm a r) (hg : GoodClock r) (hon : OnTime c ds a) (T : Int) (hT : T ≤ total 1000000000 r.time)
    (b : Nat) (s : St) (h : RInv c ds True (fun _ => True) (fun _ => True) b s) (hv : s.status = .running) (hp : Past c ds b T)
    (hf : (turn c a s).status ≠ .failed) :
    ∃ b', RInv c ds True (fun _ => True) (fun _ => True) b' (turn c a s) ∧ Past c ds b' (total 1000000000 r.time) ∧
      ((turn c a s).status = .over → b' = c.npackets.toNat) ∧
      ∀ k, k < c.npackets.toNat → (gotFor k (turn c a s).entries).length = (gotFor k s.entries).length + if timely c ds k a then 1 else 0 := by
  obtain ⟨b', h1, h2, _, h4⟩ := turn_spec c ds hlen True (fun _ => True) (fun _ => True) b s a trivial (fun _ => hcalm.usr2)
    (fun r' hr' => by rw [hcalm.clock] at hr'; cases hr'; exact ⟨trivial, hg⟩) h hv
  have hun : unstopped a := by
    obtain ⟨s1, s2, s3, s4⟩ := hcalm.sigs
    unfold unstopped
    rw [s1, s2, s3, s4]
    decide
  obtain ⟨b1, f1, f2, f3, f4⟩ := flush_gone c ds hlen a.usr2 hcalm.usr2 r.time ⟨hg.1, hg.2.1⟩ (c.npackets.toNat + 1) 0
    { s with stamp := { timespecToTimestamp s.stamp r.time (some r.err) (some s.last) with sync := r.sync }, last := r.err } b h.1.1
  change Queue c ds b1 (stampFlush c a.usr2 r s).2.q (stampFlush c a.usr2 r s).2.ctx at f2
  change ∀ k, gotFor k (stampFlush c a.usr2 r s).2.entries = gotFor k s.entries at f4
  obtain ⟨b2, g1, g2, g3, g4, g5, g6, g7, g8⟩ := stampFlush_spec c ds hlen True (fun _ => True) (fun _ => True) a.usr2 (fun _ => hcalm.usr2) r trivial hg s b h.1 hv (h.2.1 hv)
  have e12 : b1 = b2 := by rw [← f2.front, ← g2.1.front]
  subst e12
  have hpast : Past c ds b1 (total 1000000000 r.time) := by
    intro k hk
    by_cases hb : k < b
    · have := hp k hb; omega
    · exact f3 k (by omega) hk
  have heq : turn c a s = (if (a.got.taken c.len).isNone && !a.got.eintr then { s with status := .failed } else
      afterFlush (stampFlush c a.usr2 r s) fun s => match a.got.taken c.len with
        | none => s
        | some (peer, bytes, ttl) => examine c peer bytes ttl r.time s) := by
    obtain ⟨s1, s2, s3, s4⟩ := hcalm.sigs
    unfold turn
    rw [hcalm.timer, s1, s2, s3, s4, hcalm.clock]
    rfl
  have key : front c (turn c a s).q = b1 ∧ ∀ k, k < c.npackets.toNat →
      (gotFor k (turn c a s).entries).length = (gotFor k s.entries).length + if timely c ds k a then 1 else 0 := by
    rw [heq] at hf ⊢
    split at hf
    · exact (hf rfl).elim
    rename_i hgo
    rw [if_neg hgo]
    revert hf
    unfold afterFlush
    cases hF : (stampFlush c a.usr2 r s).1 with
    | error => intro hf; exact (hf rfl).elim
    | stuck => intro hf; exact (hf rfl).elim
    | over =>
      intro hf
      dsimp only
      refine ⟨f2.front, ?_⟩
      intro k hk
      rw [f4, timely_late hcalm.clock (hpast k (by rw [g7 hF]; exact hk))]
      simp
    | more =>
      intro hf
      dsimp only at hf ⊢
      cases ht : a.got.taken c.len with
      | none =>
        dsimp only
        refine ⟨f2.front, ?_⟩
        intro k hk
        rw [f4, show timely c ds k a = false by unfold timely brought; rw [ht]]
        simp
      | some y =>
        obtain ⟨peer, bytes', ttl⟩ := y
        rw [ht] at hf
        dsimp only at hf ⊢
        refine ⟨by rw [examine_front]; exact f2.front, ?_⟩
        obtain ⟨bytes, i, hgot, hle, hby⟩ : ∃ bytes i, a.got = .dgram peer bytes ttl i ∧ c.len ≤ bytes.length ∧ bytes' = bytes.take c.len := by
          unfold Got.taken at ht
          split at ht
          · rename_i p b t i hgot
            split at ht
            · rename_i hle
              cases ht
              exact ⟨b, i, hgot, hle, rfl⟩
            · cases ht
          · cases ht
        subst hby
        obtain ⟨_, hex, _⟩ := examine_spec c ds hlen True (fun _ => True) (fun _ => True) b1 _ g2 g5 a trivial peer bytes ttl i r hgot hcalm.clock hle g4 hg.2.2
        intro k hk
        by_cases hpeer : peer = c.remote
        · subst hpeer
          unfold examine at hf hex ⊢
          rw [if_neg (by simp)] at hf hex ⊢
          cases hopen : openPacket c.H c.fmt c.ep (bytes.take c.len) with
          | wrongKey => rw [hopen] at hf; exact (hf rfl).elim
          | badDigest =>
            dsimp only
            rw [f4, show timely c ds k a = false by unfold timely brought; rw [ht]; simp [hopen]]
            simp
          | plain P =>
            rw [hopen] at hf hex
            dsimp only at hf hex ⊢
            have hbr : brought c a = some P := by unfold brought; rw [ht]; simp [hopen]
            by_cases hold : (seqOf P).toNat < b1
            · rw [judge_old c ds b1 P ttl r.time _ f2 hold hf, f4]
              by_cases hkk : (seqOf P).toNat = k
              · rw [timely_late hcalm.clock (hpast k (by omega))]; simp
              · rw [show timely c ds k a = false by unfold timely; rw [hbr, hcalm.clock]; simp [hkk]]; simp
            · have hnE : (seqOf P).toNat < c.npackets.toNat → ¬ Expired c ds (seqOf P).toNat r.time := by
                intro hn hE
                exact g8 trivial hF (hup b1 _ r.time (by omega) hn hE)
              rcases hex with hex | ⟨e, hex, hgen⟩
              · have hna : ¬ apart (timeOf c.fmt P).toNat (stampOf r.time).toNat ≤ c.timeout.toNat := by
                  intro hap
                  exact judge_records c ds hlen True (fun _ => True) (fun _ => True) b1 _ g2 ttl r.time P (by omega) (by rw [g4, diff_apart]; exact hap)
                    (fun y d y1 y2 y3 => by rw [diff_apart]; exact hon P hbr y d y1 y2 y3) hf hex
                rw [hex, f4, show timely c ds k a = false by unfold timely; rw [hbr, hcalm.clock]; simp [hna]]
                simp
              · obtain ⟨q1, q2, q3⟩ := genuine_seq hgen hgot hcalm.clock hopen
                have hnl : isLost e = false := by simp only [isLost, q2]; simpa using hg.2.2
                rw [hex, gotFor_add k _ e hnl, f4, q1]
                congr 1
                by_cases hkk : (seqOf P).toNat = k
                · rw [if_pos hkk]
                  have hne := hnE (by omega)
                  unfold Expired at hne
                  rw [hkk] at hne
                  rw [if_pos]
                  unfold timely
                  rw [hbr, hcalm.clock]
                  simp only [Bool.and_eq_true, decide_eq_true_eq]
                  exact ⟨⟨hkk, by omega⟩, q3⟩
                · rw [if_neg hkk, if_neg]
                  unfold timely
                  rw [hbr, hcalm.clock]
                  simp [hkk]
        · unfold examine
          rw [if_pos hpeer, f4, show timely c ds k a = false by unfold timely brought; rw [ht]; simp [hpeer]]
          simp
  have hb : b' = b1 := by rw [← h2.1.1.front, key.1]
  subst hb
  exact ⟨b', h2, hpast, fun ho => h4 hun ho, key.2⟩

theorem init_counts (c : Cfg) (sid : Bytes) (slots : List Sched.Slot) (c0 : Sched.Ctx)
    (hc : Sched.create sid ⟨c.npackets, slots⟩ = some c0) (ops : List Sched.Op) (ds : List Nat)
    (hds : Sched.deltas c.E c.npackets.toNat c0 = ds.map Except.ok) (hlen : ds.length = c.npackets.toNat)
    (r : Owamp.Sender.Reading) (hg : GoodClock r) (usr2 : Nat → Bool) (hu : ∀ j, usr2 j = false) (stamp : TimeStamp) (b : Nat)
    (hb : Queue c ds b (init c (Sched.run c.E c0 ops) (some r) usr2 stamp).q (init c (Sched.run c.E c0 ops) (some r) usr2 stamp).ctx)
    (hn : c.npackets.toNat ≠ 0) :
    Past c ds b (total 1000000000 r.time) ∧ ∀ k, gotFor k (init c (Sched.run c.E c0 ops) (some r) usr2 stamp).entries = [] := by
  unfold init at hb ⊢
  rw [C06_reset_restores c.E sid _ c0 hc ops] at hb ⊢
  simp only at hb ⊢
  rw [if_neg (by simpa using hn)] at hb ⊢
  obtain ⟨m, hm⟩ : ∃ m, c.npackets.toNat = m + 1 := ⟨c.npackets.toNat - 1, by omega⟩
  obtain ⟨d0, ds', hdd⟩ : ∃ d0 ds', ds = d0 :: ds' := by
    cases ds with
    | nil => simp at hlen; omega
    | cons d0 ds' => exact ⟨d0, ds', rfl⟩
  have hd' := hds
  rw [hm, hdd] at hd'
  simp only [Sched.deltas, List.map_cons, List.cons.injEq] at hd'
  simp only [hd'.1] at hb ⊢
  have hd0 : d0 < 2 ^ 64 := nextDelta_lt _ _ _ hd'.1
  have hrel : rel ds 0 = d0 := by
    rw [rel, hdd]
    simp only [Nat.zero_add, List.take_succ_cons, List.take_zero, List.sum_cons, List.sum_nil, Nat.add_zero]
    exact Nat.mod_eq_of_lt hd0
  have hQ : Queue c ds 0 [⟨0, false, d0, absOf c d0⟩] (Sched.nextDelta c.E c0).2 := by
    refine ⟨⟨⟨rfl, hrel.symm, by rw [hrel]⟩, trivial⟩, by simp; omega, by simp, fun _ => ?_⟩
    simp only [List.length_cons, List.length_nil]
    rw [show c.npackets.toNat - (0 + (0 + 1)) = m by omega, hdd]
    exact hd'.2
  unfold firstFlush at hb ⊢
  dsimp only at hb ⊢
  obtain ⟨b1, f1, f2, f3, f4⟩ := flush_gone c ds hlen usr2 hu r.time ⟨hg.1, hg.2.1⟩ (c.npackets.toNat + 1) 0
    { status := .running, ctx := (Sched.nextDelta c.E c0).2, q := [⟨0, false, d0, absOf c d0⟩], entries := [],
      stamp := { timespecToTimestamp stamp r.time (some r.err) (some 0) with sync := r.sync }, last := r.err } 0 hQ
  obtain ⟨F, hF⟩ : ∃ F, F = stampFlush c usr2 r { status := .running, ctx := (Sched.nextDelta c.E c0).2, q := [⟨0, false, d0, absOf c d0⟩], entries := [], stamp := stamp, last := 0 } := ⟨_, rfl⟩
  have g2 : Queue c ds b1 F.2.q F.2.ctx := by rw [hF]; exact f2
  have g4 : ∀ k, gotFor k F.2.entries = [] := by intro k; rw [hF]; exact f4 k
  rw [← hF] at hb ⊢
  have hall : (afterFlush F id).q = F.2.q ∧ (afterFlush F id).ctx = F.2.ctx ∧ (afterFlush F id).entries = F.2.entries := by
    unfold afterFlush
    cases F.1 <;> exact ⟨rfl, rfl, rfl⟩
  rw [hall.1, hall.2.1] at hb
  have e : b = b1 := by rw [← hb.front, g2.front]
  rw [hall.2.2, e]
  exact ⟨fun k hk => f3 k (by omega) hk, g4⟩

theorem failed_stays (c : Cfg) (as : List Arrival) (s : St) (h : s.status = .failed) : (run c s as).status = .failed := by
  induction as generalizing s with
  | nil => exact h
  | cons a as ih =>
    refine ih (step c s a) ?_
    unfold step
    rw [if_neg (by rw [h]; decide)]
    exact h

/-- The clock does not go back. -/
def Onward (as : List Arrival) : Prop :=
  as.Pairwise fun a a' => ∀ r r', a.clock = some r → a'.clock = some r' → total 1000000000 r.time ≤ total 1000000000 r'.time

/-- An undisturbed receiver that came to its end recorded as many arrivals of each packet as copies came in time. -/
theorem run_counts (c : Cfg) (ds : List Nat) (hlen : ds.length = c.npackets.toNat) (hup : Rising c ds) (as : List Arrival) :
    ∀ (T : Int) (b : Nat) (s : St), (∀ a ∈ as, ∃ r, Calm a r ∧ GoodClock r ∧ T ≤ total 1000000000 r.time) → (∀ a ∈ as, OnTime c ds a) → Onward as →
    RInv c ds True (fun _ => True) (fun _ => True) b s → (s.status = .over → b = c.npackets.toNat) → Past c ds b T →
    (run c s as).status = .over → ∀ k, k < c.npackets.toNat →
      (gotFor k (run c s as).entries).length = (gotFor k s.entries).length + as.countP (timely c ds k) := by
  induction as with
  | nil => intro T b s _ _ _ _ _ _ _ k _; rfl
  | cons a as ih =>
    intro T b s hcalm hon hmono hI hov hp hend k hk
    obtain ⟨r, hc, hg, hT⟩ := hcalm a (by simp)
    have hmono' := List.pairwise_cons.1 hmono
    have hnext : ∀ a' ∈ as, ∃ r', Calm a' r' ∧ GoodClock r' ∧ total 1000000000 r.time ≤ total 1000000000 r'.time := by
      intro a' ha'
      obtain ⟨r', c1, c2, _⟩ := hcalm a' (by simp [ha'])
      exact ⟨r', c1, c2, hmono'.1 a' ha' r r' hc.clock c1.clock⟩
    have hend' : (run c (step c s a) as).status = .over := hend
    have hnf : (step c s a).status ≠ .failed := by
      intro hf
      rw [failed_stays c as _ hf] at hend'
      cases hend'
    show (gotFor k (run c (step c s a) as).entries).length = _
    rw [List.countP_cons]
    by_cases hv : s.status = .running
    · have est : step c s a = turn c a s := by unfold step; rw [if_pos hv]
      rw [est] at hnf hend' ⊢
      obtain ⟨b', t1, t2, t3, t4⟩ := turn_counts c ds hlen hup a r hc hg (hon a (by simp)) T hT b s hI hv hp hnf
      rw [ih (total 1000000000 r.time) b' _ hnext (fun a' h' => hon a' (by simp [h'])) hmono'.2 t1 t3 t2 hend' k hk, t4 k hk]
      omega
    · have est : step c s a = s := by unfold step; rw [if_neg hv]
      rw [est] at hnf hend' ⊢
      have ho : s.status = .over := by
        cases hs : s.status with
        | running => exact (hv hs).elim
        | over => rfl
        | failed => exact (hnf hs).elim
      have hp' : Past c ds b (total 1000000000 r.time) := fun k hk => by have := hp k hk; omega
      rw [ih (total 1000000000 r.time) b s hnext (fun a' h' => hon a' (by simp [h'])) hmono'.2 hI hov hp' hend' k hk,
        timely_late hc.clock (hp' k (by rw [hov ho]; exact hk))]
      simp

/-- A packet sent in its window, and not in the last 10 ns of it, carries a time near its scheduled one. -/
theorem window_near (A D W U d y : Nat) (tot : Int) (h1 : ((U : Nat) : Int) * 1000000000 ≤ tot * 2 ^ 32) (h2 : tot * 2 ^ 32 < ((U : Nat) + 1 : Int) * 1000000000)
    (h3 : nanos A + nanos D ≤ tot) (h4 : tot + 10 ≤ nanos A + nanos D + nanos W) (hd : d ≤ 5) (hy : y + d = A + D + epoch) :
    apart (U + epoch) y ≤ W := by
  unfold nanos at h3 h4
  unfold apart
  unfold epoch at *
  omega

theorem ofTimespec_tight (t : TimeParts) (h : Normalised 1000000000 t) :
    ((ofTimespec t : Nat) : Int) * 1000000000 ≤ total 1000000000 t * 2 ^ 32 ∧ total 1000000000 t * 2 ^ 32 < ((ofTimespec t : Nat) + 1 : Int) * 1000000000 := by
  refine ⟨ofTimespec_floor t h, ?_⟩
  obtain ⟨s, n⟩ := t
  obtain ⟨a1, a2, a3, a4⟩ := h
  simp only at *
  obtain ⟨s, rfl⟩ := Int.eq_ofNat_of_zero_le a1
  obtain ⟨n, rfl⟩ := Int.eq_ofNat_of_zero_le a3
  rw [C02_timespec_value s n (by omega) (by omega)]
  unfold total
  simp only
  have e1 : n / 1000000000 = 0 := by omega
  have e2 : n % 1000000000 = n := by omega
  have e3 : s % 2 ^ 32 = s := by omega
  rw [e1, e2, Nat.add_zero, e3]
  omega

end Owamp.Recv
