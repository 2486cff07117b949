import Verif.Lemmas.EndToEnd
/-!
# The records of arrivals of an undisturbed receiver, one by one
-/
namespace Owamp.Recv
open Owamp.Num64 Owamp.Time Owamp.Pkt Owamp.Ctl Owamp.Codec Owamp.Spec Owamp.Spec.Sender Owamp.Spec.Receiver Owamp.Spec.EndToEnd Owamp.Props

/-- The records of arrivals. -/
def got (es : List Entry) : List Entry := es.filter fun e => !isLost e

/-- What a record of an arrival says. -/
def mark (e : Entry) : Copy := ⟨e.data.seq.toNat, e.data.send.owptime, e.data.recv.owptime, e.data.ttl⟩

/-- What a turn brings, if it brings a packet of the session in time. -/
def tripOf (c : Cfg) (ds : List Nat) (a : Arrival) : Option Copy :=
  match a.got.taken c.len, brought c a, a.clock with
  | some (_, _, ttl), some P, some r =>
    if (seqOf P).toNat < c.npackets.toNat ∧ timely c ds (seqOf P).toNat a = true then some ⟨(seqOf P).toNat, timeOf c.fmt P, stampOf r.time, ttl⟩ else none
  | _, _, _ => none

theorem got_lost (es : List Entry) (e : Entry) (h : isLost e = true) : got (es ++ [e]) = got es := by
  unfold got
  rw [List.filter_append]
  simp [h]

theorem got_add (es : List Entry) (e : Entry) (h : isLost e = false) : got (es ++ [e]) = got es ++ [e] := by
  unfold got
  rw [List.filter_append]
  simp [h]

theorem tripOf_none {c : Cfg} {ds : List Nat} {a : Arrival} (h : ∀ P, brought c a = some P → (seqOf P).toNat < c.npackets.toNat → timely c ds (seqOf P).toNat a = false) :
    tripOf c ds a = none := by
  unfold tripOf
  split
  · rename_i P r _ hb _
    rw [if_neg]
    rintro ⟨h1, h2⟩
    rw [h P hb h1] at h2
    cases h2
  · rfl

/-- A flush without stop signal only passes packets that have expired, and records no arrivals. -/
theorem flush_got (c : Cfg) (ds : List Nat) (hlen : ds.length = c.npackets.toNat) (usr2 : Nat → Bool) (hu : ∀ j, usr2 j = false) (clock : TimeParts)
    (hclk : 0 ≤ clock.sub ∧ clock.sub < 1000000000) (n : Nat) :
    ∀ (j : Nat) (s : St) (b : Nat), Queue c ds b s.q s.ctx →
      ∃ b', b ≤ b' ∧ Queue c ds b' (flush c usr2 clock n j clock s).2.q (flush c usr2 clock n j clock s).2.ctx ∧
        (∀ k, b ≤ k → k < b' → Expired c ds k clock) ∧ got (flush c usr2 clock n j clock s).2.entries = got s.entries := by
  induction n with
  | zero => intro j s b hQ; exact ⟨b, Nat.le_refl _, hQ, (fun k h1 h2 => by omega), rfl⟩
  | succ n ih =>
    intro j s b hQ
    rw [flush]
    cases hq : s.q with
    | nil => exact ⟨b, Nat.le_refl _, hQ, (fun k h1 h2 => by omega), rfl⟩
    | cons x rest =>
      dsimp only
      have hQ' := hQ
      rw [hq] at hQ'
      obtain ⟨⟨h1, h2, h3⟩, h4⟩ := hQ'.chain
      have hfit := hQ'.fits
      simp only [List.length_cons] at hfit
      rw [hu j, if_neg (show ¬ (false = true) by decide)]
      split
      · rename_i hlt
        rw [h3, expired_iff c ds b clock hclk] at hlt
        by_cases hhit : x.hit = true
        · rw [if_pos hhit]
          dsimp only
          obtain ⟨q, ctx, p1, p2, p3, p4⟩ := pop_spec c ds hlen b x rest s hq hQ'
          rw [p1]
          dsimp only
          split
          · exact ⟨b + 1, by omega, p2, (fun k g1 g2 => by rw [show k = b by omega]; exact hlt), rfl⟩
          · obtain ⟨b', g1, g2, g3, g4⟩ := ih (j + 1) { s with q := q, ctx := ctx } (b + 1) p2
            refine ⟨b', by omega, g2, fun k k1 k2 => ?_, g4⟩
            by_cases hk : k = b
            · rw [hk]; exact hlt
            · exact g3 k (by omega) k2
        · rw [if_neg hhit]
          cases hw : writeRec c (lostRec c x s.stamp) clock s with
          | none => exact ⟨b, Nat.le_refl _, hQ, (fun k h1 h2 => by omega), rfl⟩
          | some s1 =>
            have hs1 := writeRec_eq _ _ _ _ _ hw
            subst hs1
            dsimp only
            have hlost : isLost ⟨lostRec c x s.stamp, clock⟩ = true := by simp only [isLost, lostRec]; rfl
            obtain ⟨q, ctx, p1, p2, p3, p4⟩ := pop_spec c ds hlen b x rest { s with entries := s.entries ++ [⟨lostRec c x s.stamp, clock⟩] } hq hQ'
            rw [p1]
            dsimp only
            split
            · exact ⟨b + 1, by omega, p2, (fun k g1 g2 => by rw [show k = b by omega]; exact hlt), got_lost _ _ hlost⟩
            · obtain ⟨b', g1, g2, g3, g4⟩ := ih (j + 1) { s with q := q, ctx := ctx, entries := s.entries ++ [⟨lostRec c x s.stamp, clock⟩] } (b + 1) p2
              refine ⟨b', by omega, g2, fun k k1 k2 => ?_, g4.trans (got_lost _ _ hlost)⟩
              by_cases hk : k = b
              · rw [hk]; exact hlt
              · exact g3 k (by omega) k2
      · exact ⟨b, Nat.le_refl _, hQ, (fun k h1 h2 => by omega), rfl⟩

theorem genuine_rest {c : Cfg} {ds : List Nat} {a : Arrival} {e : Entry} (h : Genuine c ds a e) {bytes : Bytes} {ttl : Byte} {i : Bool} {P : Bytes}
    (h1 : a.got = .dgram c.remote bytes ttl i) (h3 : openPacket c.H c.fmt c.ep (bytes.take c.len) = .plain P) :
    e.data.send.owptime = timeOf c.fmt P ∧ e.data.ttl = ttl ∧ e.data.seq.toNat < c.npackets.toNat := by
  obtain ⟨bytes', ttl', i', r', P', x, d, g1, g2, g3, g4, g5, g6, g7, g8, g9, g10, g11, _⟩ := h
  rw [h1] at g1
  injection g1 with _ e2 e3
  subst e2
  subst e3
  rw [h3] at g4
  injection g4 with e4
  subst e4
  exact ⟨g7, g9, g10⟩

/-- What a turn of an undisturbed receiver does to the records of arrivals. -/
theorem turn_trips (c : Cfg) (ds : List Nat) (hlen : ds.length = c.npackets.toNat) (hup : Rising c ds) (a : Arrival) (r : Owamp.Sender.Reading)
    (hcalm : Calm a r) (hg : GoodClock r) (hon : OnTime c ds a) (T : Int) (hT : T ≤ total 1000000000 r.time)
    (b : Nat) (s : St) (h : RInv c ds True (fun _ => True) (fun _ => True) b s) (hv : s.status = .running) (hp : Past c ds b T)
    (hf : (turn c a s).status ≠ .failed) :
    ∃ b', RInv c ds True (fun _ => True) (fun _ => True) b' (turn c a s) ∧ Past c ds b' (total 1000000000 r.time) ∧
      ((turn c a s).status = .over → b' = c.npackets.toNat) ∧
      (got (turn c a s).entries).map mark = (got s.entries).map mark ++ (tripOf c ds a).toList := by
  obtain ⟨b', h1, h2, _, h4⟩ := turn_spec c ds hlen True (fun _ => True) (fun _ => True) b s a trivial (fun _ => hcalm.usr2)
    (fun r' hr' => by rw [hcalm.clock] at hr'; cases hr'; exact ⟨trivial, hg⟩) h hv
  have hun : unstopped a := by
    obtain ⟨s1, s2, s3, s4⟩ := hcalm.sigs
    unfold unstopped
    rw [s1, s2, s3, s4]
    decide
  obtain ⟨b1, f1, f2, f3, f4⟩ := flush_got c ds hlen a.usr2 hcalm.usr2 r.time ⟨hg.1, hg.2.1⟩ (c.npackets.toNat + 1) 0
    { s with stamp := { timespecToTimestamp s.stamp r.time (some r.err) (some s.last) with sync := r.sync }, last := r.err } b h.1.1
  change Queue c ds b1 (stampFlush c a.usr2 r s).2.q (stampFlush c a.usr2 r s).2.ctx at f2
  change got (stampFlush c a.usr2 r s).2.entries = got s.entries at f4
  obtain ⟨b2, g1, g2, g3, g4, g5, g6, g7, g8⟩ := stampFlush_spec c ds hlen True (fun _ => True) (fun _ => True) a.usr2 (fun _ => hcalm.usr2) r trivial hg s b h.1 hv (h.2.1 hv)
  have e12 : b1 = b2 := by rw [← f2.front, ← g2.1.front]
  subst e12
  have hpast : Past c ds b1 (total 1000000000 r.time) := by
    intro k hk
    by_cases hb : k < b
    · have := hp k hb; omega
    · exact f3 k (by omega) hk
  have heq : turn c a s = (if (a.got.taken c.len).isNone && !a.got.eintr then { s with status := .failed } else
      afterFlush (stampFlush c a.usr2 r s) fun s => match a.got.taken c.len with
        | none => s
        | some (peer, bytes, ttl) => examine c peer bytes ttl r.time s) := by
    obtain ⟨s1, s2, s3, s4⟩ := hcalm.sigs
    unfold turn
    rw [hcalm.timer, s1, s2, s3, s4, hcalm.clock]
    rfl
  have key : front c (turn c a s).q = b1 ∧ 
      (got (turn c a s).entries).map mark = (got s.entries).map mark ++ (tripOf c ds a).toList := by
    rw [heq] at hf ⊢
    split at hf
    · exact (hf rfl).elim
    rename_i hgo
    rw [if_neg hgo]
    revert hf
    unfold afterFlush
    cases hF : (stampFlush c a.usr2 r s).1 with
    | error => intro hf; exact (hf rfl).elim
    | stuck => intro hf; exact (hf rfl).elim
    | over =>
      intro hf
      dsimp only
      refine ⟨f2.front, ?_⟩
      rw [f4, tripOf_none fun P _ hk => timely_late hcalm.clock (hpast _ (by rw [g7 hF]; exact hk))]
      simp
    | more =>
      intro hf
      dsimp only at hf ⊢
      cases ht : a.got.taken c.len with
      | none =>
        dsimp only
        refine ⟨f2.front, ?_⟩
        rw [f4, show tripOf c ds a = none by unfold tripOf; rw [ht]]
        simp
      | some y =>
        obtain ⟨peer, bytes', ttl⟩ := y
        rw [ht] at hf
        dsimp only at hf ⊢
        refine ⟨by rw [examine_front]; exact f2.front, ?_⟩
        obtain ⟨bytes, i, hgot, hle, hby⟩ : ∃ bytes i, a.got = .dgram peer bytes ttl i ∧ c.len ≤ bytes.length ∧ bytes' = bytes.take c.len := by
          unfold Got.taken at ht
          split at ht
          · rename_i p b t i hgot
            split at ht
            · rename_i hle
              cases ht
              exact ⟨b, i, hgot, hle, rfl⟩
            · cases ht
          · cases ht
        subst hby
        obtain ⟨_, hex, _⟩ := examine_spec c ds hlen True (fun _ => True) (fun _ => True) b1 _ g2 g5 a trivial peer bytes ttl i r hgot hcalm.clock hle g4 hg.2.2
        by_cases hpeer : peer = c.remote
        · subst hpeer
          unfold examine at hf hex ⊢
          rw [if_neg (by simp)] at hf hex ⊢
          cases hopen : openPacket c.H c.fmt c.ep (bytes.take c.len) with
          | wrongKey => rw [hopen] at hf; exact (hf rfl).elim
          | badDigest =>
            dsimp only
            rw [f4, tripOf_none fun P hb _ => by unfold brought at hb; rw [ht] at hb; simp [hopen] at hb]
            simp
          | plain P =>
            rw [hopen] at hf hex
            dsimp only at hf hex ⊢
            have hbr : brought c a = some P := by unfold brought; rw [ht]; simp [hopen]
            by_cases hold : (seqOf P).toNat < b1
            · rw [judge_old c ds b1 P ttl r.time _ f2 hold hf, f4]
              rw [tripOf_none fun P' hb _ => by rw [hbr] at hb; cases hb; exact timely_late hcalm.clock (hpast _ hold)]
              simp
            · have hnE : (seqOf P).toNat < c.npackets.toNat → ¬ Expired c ds (seqOf P).toNat r.time := by
                intro hn hE
                exact g8 trivial hF (hup b1 _ r.time (by omega) hn hE)
              rcases hex with hex | ⟨e, hex, hgen⟩
              · have hna : ¬ apart (timeOf c.fmt P).toNat (stampOf r.time).toNat ≤ c.timeout.toNat := by
                  intro hap
                  exact judge_records c ds hlen True (fun _ => True) (fun _ => True) b1 _ g2 ttl r.time P (by omega) (by rw [g4, diff_apart]; exact hap)
                    (fun y d y1 y2 y3 => by rw [diff_apart]; exact hon P hbr y d y1 y2 y3) hf hex
                rw [hex, f4, tripOf_none fun P' hb _ => by rw [hbr] at hb; cases hb; unfold timely; rw [hbr, hcalm.clock]; simp [hna]]
                simp
              · obtain ⟨q1, q2, q3⟩ := genuine_seq hgen hgot hcalm.clock hopen
                have hnl : isLost e = false := by simp only [isLost, q2]; simpa using hg.2.2
                obtain ⟨u1, u2, u3⟩ := genuine_rest hgen hgot hopen
                have hk : (seqOf P).toNat < c.npackets.toNat := by rw [← q1]; exact u3
                have ht' : timely c ds (seqOf P).toNat a = true := by
                  have hne := hnE hk
                  unfold Expired at hne
                  unfold timely
                  rw [hbr, hcalm.clock]
                  simp only [Bool.and_eq_true, decide_eq_true_eq]
                  exact ⟨⟨trivial, by omega⟩, q3⟩
                have htr : tripOf c ds a = some ⟨(seqOf P).toNat, timeOf c.fmt P, stampOf r.time, ttl⟩ := by
                  unfold tripOf
                  rw [ht, hbr, hcalm.clock]
                  dsimp only
                  rw [if_pos ⟨hk, ht'⟩]
                rw [hex, got_add _ e hnl, f4, htr, List.map_append]
                congr 1
                show [mark e] = [_]
                unfold mark
                rw [q1, q2, u1, u2]
        · unfold examine
          rw [if_pos hpeer, f4, tripOf_none fun P hb _ => by unfold brought at hb; rw [ht] at hb; simp [hpeer] at hb]
          simp
  have hb : b' = b1 := by rw [← h2.1.1.front, key.1]
  subst hb
  exact ⟨b', h2, hpast, fun ho => h4 hun ho, key.2⟩

/-- An undisturbed receiver that came to its end recorded the copies that came in time, in their order. -/
theorem run_trips (c : Cfg) (ds : List Nat) (hlen : ds.length = c.npackets.toNat) (hup : Rising c ds) (as : List Arrival) :
    ∀ (T : Int) (b : Nat) (s : St), (∀ a ∈ as, ∃ r, Calm a r ∧ GoodClock r ∧ T ≤ total 1000000000 r.time) → (∀ a ∈ as, OnTime c ds a) → Onward as →
    RInv c ds True (fun _ => True) (fun _ => True) b s → (s.status = .over → b = c.npackets.toNat) → Past c ds b T →
    (run c s as).status = .over → (got (run c s as).entries).map mark = (got s.entries).map mark ++ as.filterMap (tripOf c ds) := by
  induction as with
  | nil => intro T b s _ _ _ _ _ _ _; simp [run]
  | cons a as ih =>
    intro T b s hcalm hon hmono hI hov hp hend
    obtain ⟨r, hc, hg, hT⟩ := hcalm a (by simp)
    have hmono' := List.pairwise_cons.1 hmono
    have hnext : ∀ a' ∈ as, ∃ r', Calm a' r' ∧ GoodClock r' ∧ total 1000000000 r.time ≤ total 1000000000 r'.time := by
      intro a' ha'
      obtain ⟨r', c1, c2, _⟩ := hcalm a' (by simp [ha'])
      exact ⟨r', c1, c2, hmono'.1 a' ha' r r' hc.clock c1.clock⟩
    have hend' : (run c (step c s a) as).status = .over := hend
    have hnf : (step c s a).status ≠ .failed := by
      intro hf
      rw [failed_stays c as _ hf] at hend'
      cases hend'
    have hcons : (a :: as).filterMap (tripOf c ds) = (tripOf c ds a).toList ++ as.filterMap (tripOf c ds) := by
      cases h : tripOf c ds a <;> simp [h]
    show (got (run c (step c s a) as).entries).map mark = _
    rw [hcons, ← List.append_assoc]
    by_cases hv : s.status = .running
    · have est : step c s a = turn c a s := by unfold step; rw [if_pos hv]
      rw [est] at hnf hend' ⊢
      obtain ⟨b', t1, t2, t3, t4⟩ := turn_trips c ds hlen hup a r hc hg (hon a (by simp)) T hT b s hI hv hp hnf
      rw [ih (total 1000000000 r.time) b' _ hnext (fun a' h' => hon a' (by simp [h'])) hmono'.2 t1 t3 t2 hend', t4]
    · have est : step c s a = s := by unfold step; rw [if_neg hv]
      rw [est] at hnf hend' ⊢
      have ho : s.status = .over := by
        cases hs : s.status with
        | running => exact (hv hs).elim
        | over => rfl
        | failed => exact (hnf hs).elim
      have hp' : Past c ds b (total 1000000000 r.time) := fun k hk => by have := hp k hk; omega
      rw [ih (total 1000000000 r.time) b s hnext (fun a' h' => hon a' (by simp [h'])) hmono'.2 hI hov hp' hend',
        tripOf_none fun P _ hk => timely_late hc.clock (hp' _ (by rw [hov ho]; exact hk))]
      simp

end Owamp.Recv
