import Verif.Lemmas.Receiver
import Verif.Spec.Stats
/-!
# The order in which a receiver writes its records
-/
namespace Owamp.Recv
open Owamp.Num64 Owamp.Time Owamp.Pkt Owamp.Ctl Owamp.Codec Owamp.Spec Owamp.Spec.Receiver Owamp.Props
open Owamp.Spec.Sender (nanos)
open Owamp.Sender (Reading toNat_ofNat32)

/-- What holds of the records written before packet `b` is passed. -/
structure Ord (c : Cfg) (ds : List Nat) (b : Nat) (es : List Entry) : Prop where
  passed : es.Pairwise fun x y => isLost x = true → x.data.seq.toNat < y.data.seq.toNat
  later : es.Pairwise fun x y => isLost x = false → ¬ Expired c ds y.data.seq.toNat x.now
  self : ∀ x ∈ es, isLost x = false → ¬ Expired c ds x.data.seq.toNat x.now
  open' : ∀ x ∈ es, isLost x = false → ∀ k, b ≤ k → k < c.npackets.toNat → ¬ Expired c ds k x.now
  below : ∀ x ∈ es, isLost x = true → x.data.seq.toNat < b

theorem Ord.mono {c : Cfg} {ds : List Nat} {b b' : Nat} {es : List Entry} (h : Ord c ds b es) (hb : b ≤ b') : Ord c ds b' es :=
  ⟨h.passed, h.later, h.self, fun x hx hl k h1 h2 => h.open' x hx hl k (by omega) h2, fun x hx hl => by have := h.below x hx hl; omega⟩

theorem Ord.lose {c : Cfg} {ds : List Nat} {b : Nat} {es : List Entry} (h : Ord c ds b es) (e : Entry) (hl : isLost e = true)
    (hs : e.data.seq.toNat = b) (hb : b < c.npackets.toNat) : Ord c ds (b + 1) (es ++ [e]) := by
  refine ⟨?_, ?_, ?_, ?_, ?_⟩
  · refine List.pairwise_append.2 ⟨h.passed, by simp, fun x hx y hy hxl => ?_⟩
    rw [List.mem_singleton.1 hy, hs]; exact h.below x hx hxl
  · refine List.pairwise_append.2 ⟨h.later, by simp, fun x hx y hy hxl => ?_⟩
    rw [List.mem_singleton.1 hy, hs]; exact h.open' x hx hxl b (Nat.le_refl _) hb
  · intro x hx hxl
    rcases List.mem_append.1 hx with hx | hx
    · exact h.self x hx hxl
    · rw [List.mem_singleton.1 hx, hl] at hxl; cases hxl
  · intro x hx hxl k h1 h2
    rcases List.mem_append.1 hx with hx | hx
    · exact h.open' x hx hxl k (by omega) h2
    · rw [List.mem_singleton.1 hx, hl] at hxl; cases hxl
  · intro x hx hxl
    rcases List.mem_append.1 hx with hx | hx
    · have := h.below x hx hxl; omega
    · rw [List.mem_singleton.1 hx, hs]; omega

theorem Ord.record {c : Cfg} {ds : List Nat} {b : Nat} {es : List Entry} (h : Ord c ds b es) (e : Entry) (hl : isLost e = false)
    (hb : b ≤ e.data.seq.toNat) (hn : e.data.seq.toNat < c.npackets.toNat)
    (he : ∀ k, b ≤ k → k < c.npackets.toNat → ¬ Expired c ds k e.now) : Ord c ds b (es ++ [e]) := by
  refine ⟨?_, ?_, ?_, ?_, ?_⟩
  · refine List.pairwise_append.2 ⟨h.passed, by simp, fun x hx y hy hxl => ?_⟩
    rw [List.mem_singleton.1 hy]; have := h.below x hx hxl; omega
  · refine List.pairwise_append.2 ⟨h.later, by simp, fun x hx y hy hxl => ?_⟩
    rw [List.mem_singleton.1 hy]; exact h.open' x hx hxl _ hb hn
  · intro x hx hxl
    rcases List.mem_append.1 hx with hx | hx
    · exact h.self x hx hxl
    · rw [List.mem_singleton.1 hx]; exact he _ hb hn
  · intro x hx hxl k h1 h2
    rcases List.mem_append.1 hx with hx | hx
    · exact h.open' x hx hxl k h1 h2
    · rw [List.mem_singleton.1 hx]; exact he k h1 h2
  · intro x hx hxl
    rcases List.mem_append.1 hx with hx | hx
    · exact h.below x hx hxl
    · rw [List.mem_singleton.1 hx, hl] at hxl; cases hxl

/-- `passed` of the queue. -/
def front (c : Cfg) (q : List Node) : Nat :=
  match q with
  | [] => c.npackets.toNat
  | n :: _ => n.seq

theorem Queue.front {c : Cfg} {ds : List Nat} {b : Nat} {q : List Node} {ctx : Sched.Ctx} (h : Queue c ds b q ctx) : front c q = b := by
  unfold Recv.front
  split
  · exact (h.empty rfl).symm
  · exact h.chain.1.1

theorem writeRec_eq (c : Cfg) (r : DataRec) (now : TimeParts) (s s1 : St) (h : writeRec c r now s = some s1) :
    s1 = { s with entries := s.entries ++ [⟨r, now⟩] } := by
  unfold writeRec at h
  split at h
  · exact (Option.some.inj h).symm
  · cases h

theorem flush_ord (c : Cfg) (ds : List Nat) (hlen : ds.length = c.npackets.toNat) (usr2 : Nat → Bool) (clock : TimeParts) (n : Nat) :
    ∀ (j : Nat) (cur : TimeParts) (s : St) (b : Nat), Queue c ds b s.q s.ctx → Ord c ds b s.entries →
      ∃ b', b ≤ b' ∧ Queue c ds b' (flush c usr2 clock n j cur s).2.q (flush c usr2 clock n j cur s).2.ctx ∧
        Ord c ds b' (flush c usr2 clock n j cur s).2.entries := by
  induction n with
  | zero => intro j cur s b hQ hO; exact ⟨b, Nat.le_refl _, hQ, hO⟩
  | succ n ih =>
    intro j cur s b hQ hO
    rw [flush]
    cases hq : s.q with
    | nil => exact ⟨b, Nat.le_refl _, hQ, hO⟩
    | cons x rest =>
      dsimp only
      have hQ' := hQ
      rw [hq] at hQ'
      obtain ⟨⟨h1, h2, h3⟩, h4⟩ := hQ'.chain
      have hfit := hQ'.fits
      simp only [List.length_cons] at hfit
      generalize (if usr2 j = true then _ else cur) = cur'
      split
      · by_cases hhit : x.hit = true
        · rw [if_pos hhit]
          dsimp only
          obtain ⟨q, ctx, p1, p2, p3, p4⟩ := pop_spec c ds hlen b x rest s hq hQ'
          rw [p1]
          dsimp only
          split
          · exact ⟨b + 1, by omega, p2, hO.mono (by omega)⟩
          · obtain ⟨b', g1, g2⟩ := ih (j + 1) _ { s with q := q, ctx := ctx } (b + 1) p2 (hO.mono (by omega))
            exact ⟨b', by omega, g2⟩
        · rw [if_neg hhit]
          cases hw : writeRec c (lostRec c x s.stamp) clock s with
          | none => exact ⟨b, Nat.le_refl _, hQ, hO⟩
          | some s1 =>
            have hs1 := writeRec_eq _ _ _ _ _ hw
            subst hs1
            dsimp only
            have hseq : (lostRec c x s.stamp).seq.toNat = b := by
              simp only [lostRec, h1]; exact toNat_ofNat32 b (Nat.lt_of_lt_of_le (by omega) (Nat.le_of_lt c.npackets.isLt))
            have hlost : isLost ⟨lostRec c x s.stamp, clock⟩ = true := by simp only [isLost, lostRec]; rfl
            have hO' := hO.lose ⟨lostRec c x s.stamp, clock⟩ hlost hseq (by omega)
            obtain ⟨q, ctx, p1, p2, p3, p4⟩ := pop_spec c ds hlen b x rest { s with entries := s.entries ++ [⟨lostRec c x s.stamp, clock⟩] } hq hQ'
            rw [p1]
            dsimp only
            split
            · exact ⟨b + 1, by omega, p2, hO'⟩
            · obtain ⟨b', g1, g2⟩ := ih (j + 1) _ { s with q := q, ctx := ctx, entries := s.entries ++ [⟨lostRec c x s.stamp, clock⟩] } (b + 1) p2 hO'
              exact ⟨b', by omega, g2⟩
      · exact ⟨b, Nat.le_refl _, hQ, hO⟩

/-- A flush that leaves packets, without stop signal: the front packet is not lost yet. -/
theorem flush_front (c : Cfg) (usr2 : Nat → Bool) (hu : ∀ j, usr2 j = false) (clock : TimeParts) (n : Nat) :
    ∀ (j : Nat) (s : St), (flush c usr2 clock n j clock s).1 = .more → ∃ x rest, (flush c usr2 clock n j clock s).2.q = x :: rest ∧
      tsLt (tsAdd (tsAdd ⟨0, 0⟩ x.absolute) (toTimespec c.timeout.toNat)) clock = false := by
  induction n with
  | zero => intro j s h; rw [flush] at h; cases h
  | succ n ih =>
    intro j s h
    rw [flush] at h ⊢
    cases hq : s.q with
    | nil => rw [hq] at h; cases h
    | cons x rest =>
      rw [hq] at h
      dsimp only at h ⊢
      rw [hu j] at h ⊢
      simp only [Bool.false_eq_true, if_false] at h ⊢
      by_cases ht : tsLt (tsAdd (tsAdd ⟨0, 0⟩ x.absolute) (toTimespec c.timeout.toNat)) clock = true
      · rw [if_pos ht] at h ⊢
        cases h1 : (if x.hit = true then some s else writeRec c (lostRec c x s.stamp) clock s) with
        | none => rw [h1] at h; cases h
        | some s1 =>
          rw [h1] at h
          dsimp only at h ⊢
          cases h2 : pop c x rest s1 with
          | none => rw [h2] at h; cases h
          | some s2 =>
            rw [h2] at h
            dsimp only at h ⊢
            by_cases h3 : s2.q = []
            · rw [if_pos h3] at h; cases h
            · rw [if_neg h3] at h ⊢
              exact ih (j + 1) s2 h
      · rw [if_neg ht] at h ⊢
        exact ⟨x, rest, hq, by simpa using ht⟩

/-- What a judgement may add. -/
theorem judge_adds (c : Cfg) (P : Bytes) (ttl : Byte) (now : TimeParts) (s : St) :
    (judge c P ttl now s).entries = s.entries ∨
      ∃ e : Entry, (judge c P ttl now s).entries = s.entries ++ [e] ∧ front c s.q ≤ e.data.seq.toNat ∧ e.data.seq.toNat < c.npackets.toNat ∧
        e.now = now ∧ e.data.recv = s.stamp := by
  unfold judge
  dsimp only
  split
  · exact Or.inl rfl
  · rename_i hn
    cases hq : s.q with
    | nil => exact Or.inl rfl
    | cons b rest =>
      dsimp only
      split
      · exact Or.inl rfl
      · rename_i hb
        split
        · exact Or.inl rfl
        · split
          · exact Or.inl rfl
          · split
            · exact Or.inl rfl
            · split
              · exact Or.inl rfl
              · split
                · exact Or.inl rfl
                · cases hw : writeRec c _ now _ with
                  | none => exact Or.inl rfl
                  | some s1 =>
                    have := writeRec_eq _ _ _ _ _ hw
                    rw [this]
                    exact Or.inr ⟨_, rfl, Nat.not_lt.1 hb, Nat.not_le.1 hn, rfl, rfl⟩

theorem examine_adds (c : Cfg) (peer bytes : Bytes) (ttl : Byte) (now : TimeParts) (s : St) :
    (examine c peer bytes ttl now s).entries = s.entries ∨
      ∃ e : Entry, (examine c peer bytes ttl now s).entries = s.entries ++ [e] ∧ front c s.q ≤ e.data.seq.toNat ∧ e.data.seq.toNat < c.npackets.toNat ∧
        e.now = now ∧ e.data.recv = s.stamp := by
  unfold examine
  split
  · exact Or.inl rfl
  · split
    · exact Or.inl rfl
    · exact Or.inl rfl
    · exact judge_adds c _ ttl now s

theorem grow_front (c : Cfg) (n : Nat) : ∀ (q : List Node) (ctx : Sched.Ctx) (r : List Node × Sched.Ctx), grow c n q ctx = some r →
    ∃ new, r.1 = q ++ new := by
  induction n with
  | zero => intro q ctx r h; rw [grow] at h; cases h; exact ⟨[], by simp⟩
  | succ n ih =>
    intro q ctx r h
    rw [grow] at h
    split at h
    · cases h
    · split at h
      · cases h
      · dsimp only at h
        split at h
        · cases h
        · obtain ⟨new, e⟩ := ih _ _ _ h
          exact ⟨_ :: new, by rw [e, List.append_assoc]; rfl⟩

theorem judge_front (c : Cfg) (P : Bytes) (ttl : Byte) (now : TimeParts) (s : St) : front c (judge c P ttl now s).q = front c s.q := by
  unfold judge
  dsimp only
  split
  · rfl
  · cases hq : s.q with
    | nil => rfl
    | cons b rest =>
      dsimp only
      split
      · rw [hq]
      · cases hr : reach c (seqOf P).toNat (b :: rest) s.ctx with
        | none => rfl
        | some r =>
          obtain ⟨new, e⟩ : ∃ new, r.1 = (b :: rest) ++ new := by
            unfold reach at hr
            split at hr
            · cases hr
            · split at hr
              · exact grow_front _ _ _ _ _ hr
              · cases hr; exact ⟨[], by simp⟩
          dsimp only
          have e' : front c r.1 = front c (b :: rest) := by rw [e]; rfl
          have em : front c (r.1.map fun n => if n.seq = (seqOf P).toNat then { n with hit := true } else n) = front c (b :: rest) := by
            rw [e]
            show (if b.seq = (seqOf P).toNat then { b with hit := true } else b : Node).seq = b.seq
            split <;> rfl
          split
          · exact e'
          · split
            · exact e'
            · split
              · exact e'
              · split
                · exact e'
                · cases hw : writeRec c _ now _ with
                  | none => exact em
                  | some s1 =>
                    have := writeRec_eq _ _ _ _ _ hw
                    rw [this]
                    exact em

theorem examine_front (c : Cfg) (peer bytes : Bytes) (ttl : Byte) (now : TimeParts) (s : St) :
    front c (examine c peer bytes ttl now s).q = front c s.q := by
  unfold examine
  split
  · rfl
  · split
    · rfl
    · rfl
    · exact judge_front c _ ttl now s

/-- How far a turn gets. -/
theorem turn_cases (c : Cfg) (a : Arrival) (s : St) :
    ((turn c a s).entries = s.entries ∧ (turn c a s).q = s.q ∧ (turn c a s).ctx = s.ctx) ∨
    ∃ r, a.clock = some r ∧
      (((turn c a s).entries = (stampFlush c a.usr2 r s).2.entries ∧ (turn c a s).q = (stampFlush c a.usr2 r s).2.q ∧
          (turn c a s).ctx = (stampFlush c a.usr2 r s).2.ctx) ∨
       ((stampFlush c a.usr2 r s).1 = .more ∧ a.sig4 = .none ∧
          ∃ peer bytes ttl, turn c a s = examine c peer bytes ttl r.time (stampFlush c a.usr2 r s).2)) := by
  unfold turn
  split
  · exact Or.inl ⟨rfl, rfl, rfl⟩
  · cases h1 : a.sig1 with
    | int => exact Or.inl ⟨rfl, rfl, rfl⟩
    | usr2 => exact Or.inl ⟨rfl, rfl, rfl⟩
    | none =>
      simp only [Sig.then]
      split
      · exact Or.inl ⟨rfl, rfl, rfl⟩
      · cases h2 : a.sig2 with
        | int => exact Or.inl ⟨rfl, rfl, rfl⟩
        | usr2 => exact Or.inl ⟨rfl, rfl, rfl⟩
        | none =>
          dsimp only
          cases hc : a.clock with
          | none => exact Or.inl ⟨rfl, rfl, rfl⟩
          | some r =>
            dsimp only
            cases h3 : a.sig3 with
            | int => exact Or.inl ⟨rfl, rfl, rfl⟩
            | usr2 => exact Or.inl ⟨rfl, rfl, rfl⟩
            | none =>
              dsimp only
              refine Or.inr ⟨r, rfl, ?_⟩
              generalize stampFlush c a.usr2 r s = F
              unfold afterFlush
              cases hF : F.1 with
              | error => exact Or.inl ⟨rfl, rfl, rfl⟩
              | stuck => exact Or.inl ⟨rfl, rfl, rfl⟩
              | over => exact Or.inl ⟨rfl, rfl, rfl⟩
              | more =>
                dsimp only
                cases h4 : a.sig4 with
                | int => exact Or.inl ⟨rfl, rfl, rfl⟩
                | usr2 => exact Or.inl ⟨rfl, rfl, rfl⟩
                | none =>
                  dsimp only
                  cases a.got.taken c.len with
                  | none => exact Or.inl ⟨rfl, rfl, rfl⟩
                  | some x => exact Or.inr ⟨rfl, rfl, _, _, _, rfl⟩

/-- The stop signal stays noticed: what a flush saw, the next test sees. -/
def Steady (a : Arrival) : Prop := (∃ j, a.usr2 j = true) → a.sig4 ≠ .none

/-- The schedule never goes back. -/
def Rising (c : Cfg) (ds : List Nat) : Prop := ∀ k k' t, k ≤ k' → k' < c.npackets.toNat → Expired c ds k' t → Expired c ds k t

theorem turn_ord (c : Cfg) (ds : List Nat) (hlen : ds.length = c.npackets.toNat) (hup : Rising c ds) (a : Arrival) (hst : Steady a)
    (hclk : ∀ r, a.clock = some r → GoodClock r) (s : St) (b b' : Nat) (hQ : Queue c ds b s.q s.ctx) (hO : Ord c ds b s.entries)
    (hQ' : Queue c ds b' (turn c a s).q (turn c a s).ctx) (hbb : b ≤ b') : Ord c ds b' (turn c a s).entries := by
  rcases turn_cases c a s with ⟨e1, e2, _⟩ | ⟨r, hr, hc⟩
  · rw [e1]; exact hO.mono hbb
  · obtain ⟨b1, f1, f2, f3⟩ := flush_ord c ds hlen a.usr2 r.time (c.npackets.toNat + 1) 0 r.time
      { s with stamp := { timespecToTimestamp s.stamp r.time (some r.err) (some s.last) with sync := r.sync }, last := r.err } b hQ hO
    change Queue c ds b1 (stampFlush c a.usr2 r s).2.q (stampFlush c a.usr2 r s).2.ctx at f2
    change Ord c ds b1 (stampFlush c a.usr2 r s).2.entries at f3
    rcases hc with ⟨e1, e2, e3⟩ | ⟨hm, h4, peer, bytes, ttl, he⟩
    · rw [e1]
      rw [e2, e3] at hQ'
      rw [← hQ'.front, f2.front]; exact f3
    · have hno : ∀ j, a.usr2 j = false := by
        intro j
        cases hj : a.usr2 j with
        | false => rfl
        | true => exact (hst ⟨j, hj⟩ h4).elim
      obtain ⟨x, rest, q1, q2⟩ := flush_front c a.usr2 hno r.time (c.npackets.toNat + 1) 0
        { s with stamp := { timespecToTimestamp s.stamp r.time (some r.err) (some s.last) with sync := r.sync }, last := r.err } hm
      change (stampFlush c a.usr2 r s).2.q = x :: rest at q1
      have hgood := hclk r hr
      have hstamp : (stampFlush c a.usr2 r s).2.stamp.owptime = stampOf r.time := by
        have : ∀ (n j : Nat) (cur : TimeParts) (s : St), (flush c a.usr2 r.time n j cur s).2.stamp = s.stamp := by
          intro n
          induction n with
          | zero => intro j cur s; rfl
          | succ n ih =>
            intro j cur s
            rw [flush]
            split
            · rfl
            · rename_i b rest _
              dsimp only
              generalize (if a.usr2 j = true then _ else cur) = cur'
              split
              · cases h1 : (if b.hit = true then some s else writeRec c (lostRec c b s.stamp) r.time s) with
                | none => rfl
                | some s1 =>
                  have e1 : s1.stamp = s.stamp := by
                    split at h1
                    · cases h1; rfl
                    · rw [writeRec_eq _ _ _ _ _ h1]
                  dsimp only
                  cases h2 : pop c b rest s1 with
                  | none => exact e1
                  | some s2 =>
                    have e2 : s2.stamp = s1.stamp := by
                      unfold pop at h2
                      split at h2
                      · cases h2; rfl
                      · split at h2
                        · cases hrch : reach c (b.seq + 1) s1.q s1.ctx with
                          | none => rw [hrch] at h2; cases h2
                          | some y => rw [hrch] at h2; cases h2; rfl
                        · cases h2; rfl
                    dsimp only
                    split
                    · exact e2.trans e1
                    · rw [ih, e2, e1]
              · rfl
        unfold stampFlush
        rw [this]
        exact stamp_owptime _ _ _ _
      rw [he] at hQ' ⊢
      have hb1 : ∀ k, b1 ≤ k → k < c.npackets.toNat → ¬ Expired c ds k r.time := by
        intro k h1 h2 hE
        have := f2.chain
        rw [q1] at this
        rw [this.1.2.2] at q2
        have hb : Expired c ds b1 r.time := hup b1 k r.time h1 h2 hE
        rw [← expired_iff c ds b1 r.time ⟨hgood.1, hgood.2.1⟩] at hb
        rw [hb] at q2; cases q2
      rcases examine_adds c peer bytes ttl r.time (stampFlush c a.usr2 r s).2 with e | ⟨e, e1, e2, e3, e4, e5⟩
      all_goals
        have hfr : b1 ≤ b' := by
          have h1 := hQ'.front
          have h2 := f2.front
          have := examine_front c peer bytes ttl r.time (stampFlush c a.usr2 r s).2
          omega
      · rw [e]; exact f3.mono hfr
      · rw [e1]
        have hl : isLost e = false := by
          simp only [isLost, e5, hstamp]
          simpa using hgood.2.2
        have := f3.record e hl (by rw [← f2.front]; exact e2) e3 (by rw [e4]; exact hb1)
        exact this.mono hfr

theorem run_ord (c : Cfg) (ds : List Nat) (hlen : ds.length = c.npackets.toNat) (hup : Rising c ds) (as : List Arrival) :
    ∀ (b : Nat) (s : St), (∀ a ∈ as, Steady a ∧ ∀ r, a.clock = some r → GoodClock r) →
    RInv c ds False (fun _ => True) (fun _ => True) b s → Ord c ds b s.entries →
    ∃ b', RInv c ds False (fun _ => True) (fun _ => True) b' (run c s as) ∧ Ord c ds b' (run c s as).entries := by
  induction as with
  | nil => intro b s _ h hO; exact ⟨b, h, hO⟩
  | cons a as ih =>
    intro b s ha h hO
    obtain ⟨x1, x2⟩ := ha a (by simp)
    obtain ⟨b1, h1, h2, _⟩ := step_spec c ds hlen False (fun _ => True) (fun _ => True) b s a trivial (fun hh => hh.elim)
      (fun r hr => ⟨trivial, x2 r hr⟩) h
    have hO1 : Ord c ds b1 (step c s a).entries := by
      unfold step at h2 ⊢
      split
      · rename_i hv
        rw [if_pos hv] at h2
        exact turn_ord c ds hlen hup a x1 x2 s b b1 h.1.1 hO h2.1.1 h1
      · exact hO.mono h1
    exact ih b1 (step c s a) (fun a' h' => ha a' (by simp [h'])) h2 hO1

/-- The first flush only declares losses. -/
theorem init_ord (c : Cfg) (sid : Bytes) (slots : List Sched.Slot) (c0 : Sched.Ctx)
    (hc : Sched.create sid ⟨c.npackets, slots⟩ = some c0) (ops : List Sched.Op) (ds : List Nat)
    (hds : Sched.deltas c.E c.npackets.toNat c0 = ds.map Except.ok) (hlen : ds.length = c.npackets.toNat)
    (clock : Option Owamp.Sender.Reading) (usr2 : Nat → Bool) (stamp : TimeStamp) (b : Nat)
    (hb : Queue c ds b (init c (Sched.run c.E c0 ops) clock usr2 stamp).q (init c (Sched.run c.E c0 ops) clock usr2 stamp).ctx) :
    Ord c ds b (init c (Sched.run c.E c0 ops) clock usr2 stamp).entries := by
  have hnil : ∀ b, Ord c ds b [] := fun b => ⟨by simp, by simp, by simp, by simp, by simp⟩
  unfold init at hb ⊢
  rw [C06_reset_restores c.E sid _ c0 hc ops] at hb ⊢
  simp only at hb ⊢
  split
  · exact hnil b
  · rename_i hn
    rw [if_neg hn] at hb
    have hn : c.npackets.toNat ≠ 0 := by simpa using hn
    obtain ⟨m, hm⟩ : ∃ m, c.npackets.toNat = m + 1 := ⟨c.npackets.toNat - 1, by omega⟩
    obtain ⟨d0, ds', hdd⟩ : ∃ d0 ds', ds = d0 :: ds' := by
      cases ds with
      | nil => simp at hlen; omega
      | cons d0 ds' => exact ⟨d0, ds', rfl⟩
    have hd' := hds
    rw [hm, hdd] at hd'
    simp only [Sched.deltas, List.map_cons, List.cons.injEq] at hd'
    simp only [hd'.1] at hb ⊢
    have hd0 : d0 < 2 ^ 64 := nextDelta_lt _ _ _ hd'.1
    have hrel : rel ds 0 = d0 := by
      rw [rel, hdd]
      simp only [Nat.zero_add, List.take_succ_cons, List.take_zero, List.sum_cons, List.sum_nil, Nat.add_zero]
      exact Nat.mod_eq_of_lt hd0
    have hQ : Queue c ds 0 [⟨0, false, d0, absOf c d0⟩] (Sched.nextDelta c.E c0).2 := by
      refine ⟨⟨⟨rfl, hrel.symm, by rw [hrel]⟩, trivial⟩, by simp; omega, by simp, fun _ => ?_⟩
      simp only [List.length_cons, List.length_nil]
      rw [show c.npackets.toNat - (0 + (0 + 1)) = m by omega, hdd]
      exact hd'.2
    unfold firstFlush at hb ⊢
    cases clock with
    | none => exact hnil b
    | some r =>
      dsimp only at hb ⊢
      obtain ⟨b1, f1, f2, f3⟩ := flush_ord c ds hlen usr2 r.time (c.npackets.toNat + 1) 0 r.time
        { status := .running, ctx := (Sched.nextDelta c.E c0).2, q := [⟨0, false, d0, absOf c d0⟩], entries := [],
          stamp := { timespecToTimestamp stamp r.time (some r.err) (some 0) with sync := r.sync }, last := r.err } 0 hQ (hnil 0)
      obtain ⟨F, hF⟩ : ∃ F, F = stampFlush c usr2 r { status := .running, ctx := (Sched.nextDelta c.E c0).2, q := [⟨0, false, d0, absOf c d0⟩], entries := [], stamp := stamp, last := 0 } := ⟨_, rfl⟩
      have g2 : Queue c ds b1 F.2.q F.2.ctx := by rw [hF]; exact f2
      have g3 : Ord c ds b1 F.2.entries := by rw [hF]; exact f3
      rw [← hF] at hb ⊢
      have hall : (afterFlush F id).q = F.2.q ∧ (afterFlush F id).ctx = F.2.ctx ∧ (afterFlush F id).entries = F.2.entries := by
        unfold afterFlush
        cases F.1 <;> exact ⟨rfl, rfl, rfl⟩
      rw [hall.1, hall.2.1] at hb
      rw [hall.2.2, ← hb.front, g2.front]
      exact g3

/-! ## Times -/

/-- The times of the session are all in one era of the 64 bit clock, after 1970. -/
structure Era (c : Cfg) (ds : List Nat) : Prop where
  start : epoch ≤ c.start.toNat
  stop : c.start.toNat + ds.sum < 2 ^ 64
  timeout : c.timeout.toNat ≤ epoch

theorem take_sum_mono (ds : List Nat) (k k' : Nat) (h : k ≤ k') : (ds.take k).sum ≤ (ds.take k').sum := by
  induction k generalizing ds k' with
  | zero => simp
  | succ k ih =>
    cases k' with
    | zero => omega
    | succ k' =>
      cases ds with
      | nil => simp
      | cons d ds => simp only [List.take_succ_cons, List.sum_cons]; have := ih ds k' (by omega); omega

theorem take_sum_le (ds : List Nat) (k : Nat) : (ds.take k).sum ≤ ds.sum := by
  have h := take_sum_mono ds k (k + ds.length) (by omega)
  rwa [List.take_of_length_le (l := ds) (i := k + ds.length) (by omega)] at h

theorem wrap_back (S e : Nat) (h1 : e ≤ S) (h2 : S < 2 ^ 64) : (S + 2 ^ 64 - e) % 2 ^ 64 = S - e := by
  rw [show S + 2 ^ 64 - e = (S - e) + 2 ^ 64 by omega, Nat.add_mod_right, Nat.mod_eq_of_lt (by omega)]

theorem era_sched {c : Cfg} {ds : List Nat} (h : Era c ds) (k : Nat) :
    schedTime c.start.toNat ds k = c.start.toNat + (ds.take (k + 1)).sum ∧ epoch ≤ schedTime c.start.toNat ds k ∧
      unixNanos (schedTime c.start.toNat ds k) = nanos (schedTime c.start.toNat ds k - epoch) := by
  have h1 := take_sum_le ds (k + 1)
  have h2 := h.stop
  have h3 := h.start
  have e : schedTime c.start.toNat ds k = c.start.toNat + (ds.take (k + 1)).sum := Nat.mod_eq_of_lt (by omega)
  have hlt : schedTime c.start.toNat ds k < 2 ^ 64 := Nat.mod_lt _ (by decide)
  have hge : epoch ≤ schedTime c.start.toNat ds k := by omega
  refine ⟨e, hge, ?_⟩
  unfold unixNanos
  rw [wrap_back _ _ hge hlt]

theorem nanos_mono (x y : Nat) (h : x ≤ y) : nanos x ≤ nanos y := by
  unfold nanos
  exact Int.ofNat_le.2 (Nat.div_le_div_right (Nat.mul_le_mul_right _ h))

theorem era_rising {c : Cfg} {ds : List Nat} (h : Era c ds) : Rising c ds := by
  intro k k' t h1 _ hE
  obtain ⟨a1, a2, a3⟩ := era_sched h k
  obtain ⟨b1, b2, b3⟩ := era_sched h k'
  have hm := take_sum_mono ds (k + 1) (k' + 1) (by omega)
  unfold Expired at hE ⊢
  rw [a3]
  rw [b3] at hE
  have := nanos_mono (schedTime c.start.toNat ds k - epoch) (schedTime c.start.toNat ds k' - epoch) (by omega)
  omega

/-- A clock reading whose time stamp is in the era. -/
def InEra (r : Owamp.Sender.Reading) : Prop := Normalised 1000000000 r.time ∧ ofTimespec r.time + epoch < 2 ^ 64

theorem ofTimespec_floor (t : TimeParts) (h : Normalised 1000000000 t) :
    ((ofTimespec t : Nat) : Int) * 1000000000 ≤ total 1000000000 t * 2 ^ 32 := by
  obtain ⟨s, n⟩ := t
  obtain ⟨a1, a2, a3, a4⟩ := h
  simp only at *
  obtain ⟨s, rfl⟩ := Int.eq_ofNat_of_zero_le a1
  obtain ⟨n, rfl⟩ := Int.eq_ofNat_of_zero_le a3
  rw [C02_timespec_value s n (by omega) (by omega)]
  rw [Nat.div_eq_of_lt (show n < 1000000000 by omega), Nat.mod_eq_of_lt (show n < 1000000000 by omega), Nat.add_zero,
    Nat.mod_eq_of_lt (show s < 2 ^ 32 by omega)]
  simp only [total]
  have hq := Nat.div_mul_le_self (n * 2 ^ 32) 1000000000
  generalize n * 2 ^ 32 / 1000000000 = q at hq
  omega

/-- Not more than the timeout late, to the nanosecond: then in time as the summary sees it. -/
theorem inTime_of (c : Cfg) (ds : List Nat) (h : Era c ds) (k : Nat) (t : TimeParts) (ht : Normalised 1000000000 t)
    (hw : ofTimespec t + epoch < 2 ^ 64) (hE : ¬ Expired c ds k t) (r : DataRec) (hr : r.recv.owptime = stampOf t) :
    Spec.Stats.InTime c.timeout.toNat (schedTime c.start.toNat ds k) r := by
  obtain ⟨a1, a2, a3⟩ := era_sched h k
  have h3 := h.timeout
  have hfl := ofTimespec_floor t ht
  unfold Expired at hE
  rw [a3] at hE
  unfold Spec.Stats.InTime
  have hr' : r.recv.owptime.toNat = ofTimespec t + epoch := by
    rw [hr, stampOf, BitVec.toNat_ofNat, Nat.mod_eq_of_lt hw]
  rw [hr']
  generalize schedTime c.start.toNat ds k = S at *
  generalize c.timeout.toNat = T at *
  rw [wrap_back _ _ (by omega) hw]
  unfold nanos at hE
  generalize epoch = e at *
  generalize ofTimespec t = x at *
  generalize total 1000000000 t = tt at *
  have : x ≤ S - e + T := by omega
  omega

end Owamp.Recv
