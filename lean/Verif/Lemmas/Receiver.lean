import Verif.Spec.Receiver
import Verif.Lemmas.Sender
/-!
# Steps towards C24-C27
-/
namespace Owamp.Recv
open Owamp.Num64 Owamp.Time Owamp.Pkt Owamp.Ctl Owamp.Codec Owamp.Spec Owamp.Spec.Receiver Owamp.Props
open Owamp.Spec.Sender (nanos)
open Owamp.Sender (Reading nanos_eq toNat_ofNat32)

theorem diff_apart (x y : Nat) : diff x y = apart x y := by unfold diff apart; split <;> omega

/-- Sum of the first delays, in 64 bits. -/
def rel (ds : List Nat) (k : Nat) : Nat := (ds.take (k + 1)).sum % 2 ^ 64

/-! ## The queue -/

def Chain (c : Cfg) (ds : List Nat) : Nat → List Node → Prop
  | _, [] => True
  | k, n :: q => (n.seq = k ∧ n.relative = rel ds k ∧ n.absolute = absOf c (rel ds k)) ∧ Chain c ds (k + 1) q

theorem chain_append (c : Cfg) (ds : List Nat) (q r : List Node) (k : Nat) :
    Chain c ds k (q ++ r) ↔ Chain c ds k q ∧ Chain c ds (k + q.length) r := by
  induction q generalizing k with
  | nil => simp [Chain]
  | cons n q ih =>
    simp only [List.cons_append, Chain, ih, List.length_cons, and_assoc]
    rw [show k + 1 + q.length = k + (q.length + 1) by omega]

theorem chain_mem (c : Cfg) (ds : List Nat) (q : List Node) (k : Nat) (h : Chain c ds k q) (n : Node) (hn : n ∈ q) :
    k ≤ n.seq ∧ n.seq < k + q.length ∧ n.relative = rel ds n.seq ∧ n.absolute = absOf c (rel ds n.seq) := by
  induction q generalizing k with
  | nil => simp at hn
  | cons x q ih =>
    obtain ⟨⟨h1, h2, h3⟩, h4⟩ := h
    rcases List.mem_cons.1 hn with e | e
    · subst e
      simp only [List.length_cons]
      refine ⟨by omega, by omega, by rw [h2, h1], by rw [h3, h1]⟩
    · have := ih (k + 1) h4 e
      simp only [List.length_cons]
      refine ⟨by omega, by omega, this.2.2⟩

theorem chain_find (c : Cfg) (ds : List Nat) (q : List Node) (k seq : Nat) (h : Chain c ds k q) (h1 : k ≤ seq) (h2 : seq < k + q.length) :
    ∃ n, q.find? (fun n => n.seq = seq) = some n ∧ n ∈ q ∧ n.seq = seq ∧ n.absolute = absOf c (rel ds seq) := by
  induction q generalizing k with
  | nil => simp at h2; omega
  | cons x q ih =>
    obtain ⟨⟨a1, a2, a3⟩, a4⟩ := h
    by_cases hx : x.seq = seq
    · refine ⟨x, ?_, by simp, hx, ?_⟩
      · simp [hx]
      · rw [a3, ← a1, hx]
    · obtain ⟨n, b1, b2, b3, b4⟩ := ih (k + 1) a4 (by omega) (by simp only [List.length_cons] at h2; omega)
      refine ⟨n, ?_, by simp [b2], b3, b4⟩
      rw [List.find?_cons_of_neg (by simpa using hx)]
      exact b1

structure Queue (c : Cfg) (ds : List Nat) (b : Nat) (q : List Node) (ctx : Sched.Ctx) : Prop where
  chain : Chain c ds b q
  fits : b + q.length ≤ c.npackets.toNat
  empty : q = [] → b = c.npackets.toNat
  rest : q ≠ [] → Sched.deltas c.E (c.npackets.toNat - (b + q.length)) ctx = (ds.drop (b + q.length)).map Except.ok

theorem grow_spec (c : Cfg) (ds : List Nat) (hlen : ds.length = c.npackets.toNat) (b n : Nat) :
    ∀ (q : List Node) (ctx : Sched.Ctx), Queue c ds b q ctx → q ≠ [] → b + q.length + n ≤ c.npackets.toNat →
    ∃ new ctx', grow c n q ctx = some (q ++ new, ctx') ∧ new.length = n ∧ (∀ x ∈ new, x.hit = false) ∧
      Queue c ds b (q ++ new) ctx' := by
  induction n with
  | zero =>
    intro q ctx hq _ _
    exact ⟨[], ctx, by simp [grow], rfl, by simp, by simpa using hq⟩
  | succ n ih =>
    intro q ctx hq hne hle
    obtain ⟨a, e, he⟩ : ∃ a e, q = a ++ [e] := by
      rcases List.eq_nil_or_concat q with h | ⟨a, e, h⟩
      · exact (hne h).elim
      · exact ⟨a, e, by rw [h]; simp⟩
    have hc := hq.chain
    rw [he, chain_append] at hc
    obtain ⟨_, ⟨hs, hr, _⟩, _⟩ := hc
    have hl : q.length = a.length + 1 := by rw [he]; simp
    have hd := hq.rest hne
    obtain ⟨m, hm⟩ : ∃ m, c.npackets.toNat - (b + q.length) = m + 1 := ⟨c.npackets.toNat - (b + q.length) - 1, by omega⟩
    have hdrop : ds.drop (b + q.length) = ds[b + q.length]'(by omega) :: ds.drop (b + q.length + 1) :=
      List.drop_eq_getElem_cons (by omega)
    rw [hm, hdrop] at hd
    simp only [Sched.deltas, List.map_cons, List.cons.injEq] at hd
    obtain ⟨x, hx⟩ : ∃ x, x = ds[b + q.length]'(by omega) := ⟨_, rfl⟩
    rw [← hx] at hd
    have hr' : add e.relative x = rel ds (b + q.length) := by
      rw [hr, add, u64, rel, Nat.mod_add_mod, rel, hx, List.take_succ_eq_append_getElem (i := b + q.length) (by omega), List.sum_append]
      rw [show b + a.length + 1 = b + q.length by omega]
      simp only [List.sum_cons, List.sum_nil, Nat.add_zero]
    have hlast : q.getLast? = some e := by rw [he]; simp
    have hstep : grow c (n + 1) q ctx = grow c n (q ++ [⟨e.seq + 1, false, rel ds (b + q.length), absOf c (rel ds (b + q.length))⟩])
        (Sched.nextDelta c.E ctx).2 := by
      rw [grow]
      simp only [hlast]
      rw [if_neg (by omega)]
      simp only [hd.1, hr']
    have hq' : Queue c ds b (q ++ [⟨e.seq + 1, false, rel ds (b + q.length), absOf c (rel ds (b + q.length))⟩])
        (Sched.nextDelta c.E ctx).2 := by
      refine ⟨?_, by simp; omega, by simp, fun _ => ?_⟩
      · rw [chain_append]
        refine ⟨hq.chain, ⟨by simp only; omega, rfl, rfl⟩, trivial⟩
      · simp only [List.length_append, List.length_cons, List.length_nil]
        rw [show c.npackets.toNat - (b + (q.length + (0 + 1))) = m by omega, show b + (q.length + (0 + 1)) = b + q.length + 1 by omega]
        exact hd.2
    obtain ⟨new, ctx', h1, h2, h3, h4⟩ := ih _ _ hq' (by simp) (by simp; omega)
    refine ⟨⟨e.seq + 1, false, rel ds (b + q.length), absOf c (rel ds (b + q.length))⟩ :: new, ctx', ?_, by simp [h2], ?_, ?_⟩
    · rw [hstep, h1]; simp
    · intro y hy
      rcases List.mem_cons.1 hy with hh | hh
      · rw [hh]
      · exact h3 y hh
    · simpa using h4

theorem reach_spec (c : Cfg) (ds : List Nat) (hlen : ds.length = c.npackets.toNat) (b seq : Nat) (q : List Node) (ctx : Sched.Ctx)
    (hq : Queue c ds b q ctx) (hne : q ≠ []) (hseq : seq < c.npackets.toNat) :
    ∃ new ctx', reach c seq q ctx = some (q ++ new, ctx') ∧ (∀ x ∈ new, x.hit = false) ∧
      Queue c ds b (q ++ new) ctx' ∧ seq < b + (q ++ new).length ∧ (seq = b + q.length → new.length = 1) := by
  obtain ⟨a, e, he⟩ : ∃ a e, q = a ++ [e] := by
    rcases List.eq_nil_or_concat q with h | ⟨a, e, h⟩
    · exact (hne h).elim
    · exact ⟨a, e, by rw [h]; simp⟩
  have hc := hq.chain
  rw [he, chain_append] at hc
  obtain ⟨_, ⟨hs, _, _⟩, _⟩ := hc
  have hl : q.length = a.length + 1 := by rw [he]; simp
  have hlast : q.getLast? = some e := by rw [he]; simp
  unfold reach
  rw [hlast]
  simp only
  by_cases h : seq > e.seq
  · rw [if_pos h]
    obtain ⟨new, ctx', h1, h2, h3, h4⟩ := grow_spec c ds hlen b (seq - e.seq) q ctx hq hne (by omega)
    refine ⟨new, ctx', h1, h3, h4, ?_, ?_⟩
    · rw [List.length_append]; omega
    · intro hh; omega
  · rw [if_neg h]
    refine ⟨[], ctx, by simp, by simp, by simpa using hq, by simp; omega, ?_⟩
    intro hh; omega

/-! ## Records -/

/-- What holds of the records when the receiver has passed `b` packets. `A` are the arrivals, `quiet` says that no stop signal was
noticed during a flush, `R` the clock readings; `live`: the process has not failed. -/
structure Recs (live : Prop) (c : Cfg) (ds : List Nat) (quiet : Prop) (A : Arrival → Prop) (R : TimeParts → Prop) (b : Nat) (q : List Node)
    (es : List Entry) : Prop where
  before : ∀ k, k < b → OneVerdict es k
  nolost : ∀ k, b ≤ k → lostFor k es = []
  nogot : ∀ k, b + q.length ≤ k → gotFor k es = []
  hits : live → ∀ n ∈ q, n.hit = true ↔ gotFor n.seq es ≠ []
  asc : (es.filter isLost).Pairwise fun x y => x.data.seq.toNat < y.data.seq.toNat
  good : ∀ e ∈ es, (isLost e = true ∧ LostRecord c ds e ∧ R e.now ∧ (quiet → Expired c ds e.data.seq.toNat e.now)) ∨
    (isLost e = false ∧ ∃ a, A a ∧ Genuine c ds a e)

theorem lostFor_append (k : Nat) (es : List Entry) (e : Entry) :
    lostFor k (es ++ [e]) = lostFor k es ++ (if e.data.seq.toNat = k ∧ isLost e = true then [e] else []) := by
  simp only [lostFor, List.filter_append, List.filter_cons, List.filter_nil]
  by_cases h : e.data.seq.toNat = k ∧ isLost e = true
  · rw [if_pos h, if_pos (by simpa using h)]
  · rw [if_neg h, if_neg (by simpa using h)]

theorem gotFor_append (k : Nat) (es : List Entry) (e : Entry) :
    gotFor k (es ++ [e]) = gotFor k es ++ (if e.data.seq.toNat = k ∧ isLost e = false then [e] else []) := by
  simp only [gotFor, List.filter_append, List.filter_cons, List.filter_nil]
  by_cases h : e.data.seq.toNat = k ∧ isLost e = false
  · rw [if_pos h, if_pos (by simpa using h)]
  · rw [if_neg h, if_neg (by simpa using h)]

theorem lost_below (es : List Entry) (b : Nat) (h : ∀ k, b ≤ k → lostFor k es = []) (e : Entry) (he : e ∈ es) (hl : isLost e = true) :
    e.data.seq.toNat < b := by
  rcases Nat.lt_or_ge e.data.seq.toNat b with hh | hh
  · exact hh
  · have := h _ hh
    rw [lostFor, List.filter_eq_nil_iff] at this
    have := this e he
    simp [hl] at this

/-- The times of a queue node. -/
theorem absOf_total (c : Cfg) (r : Nat) (hr : r < 2 ^ 64) :
    total 1000000000 (absOf c r) = unixNanos ((c.start.toNat + r) % 2 ^ 64) ∧ 0 ≤ (absOf c r).sub ∧ (absOf c r).sub < 1000000000 := by
  have e : sub (BitVec.ofNat 64 (add r c.start.toNat)).toNat (ulongToNum64 jan1970) = ((c.start.toNat + r) % 2 ^ 64 + 2 ^ 64 - epoch) % 2 ^ 64 := by
    rw [BitVec.toNat_ofNat, add, u64, Nat.mod_mod, sub, u64, Nat.add_comm r]
    rfl
  have := nanos_eq (((c.start.toNat + r) % 2 ^ 64 + 2 ^ 64 - epoch) % 2 ^ 64) (Nat.mod_lt _ (by decide))
  unfold absOf timestampToTimespec
  simp only
  rw [e]
  exact ⟨this.1, this.2⟩

theorem sched_rel (start : Nat) (ds : List Nat) (k : Nat) : (start + rel ds k) % 2 ^ 64 = schedTime start ds k := by
  rw [rel, schedTime, Nat.add_mod_mod]

theorem pop_spec (c : Cfg) (ds : List Nat) (hlen : ds.length = c.npackets.toNat) (b : Nat) (n : Node) (rest : List Node) (s : St)
    (hs : s.q = n :: rest) (hq : Queue c ds b (n :: rest) s.ctx) :
    ∃ q ctx, pop c n rest s = some { s with q := q, ctx := ctx } ∧ Queue c ds (b + 1) q ctx ∧
      (∀ x ∈ q, x ∈ rest ∨ (x.hit = false ∧ b + 1 + rest.length ≤ x.seq)) ∧ rest.length ≤ q.length := by
  obtain ⟨⟨h1, h2, h3⟩, h4⟩ := hq.chain
  have hfit := hq.fits
  simp only [List.length_cons] at hfit
  cases rest with
  | cons y rest =>
    refine ⟨y :: rest, s.ctx, rfl, ⟨h4, by simp only [List.length_cons] at *; omega, by simp, fun _ => ?_⟩, fun x hx => Or.inl hx, Nat.le_refl _⟩
    have := hq.rest (by simp)
    simp only [List.length_cons] at this ⊢
    rw [show b + 1 + (rest.length + 1) = b + (rest.length + 1 + 1) by omega]
    exact this
  | nil =>
    simp only [List.length_nil, Nat.zero_add] at hfit
    have hmod : (n.seq + 1) % 2 ^ 32 = b + 1 := by
      rw [h1]; exact Nat.mod_eq_of_lt (Nat.lt_of_le_of_lt hfit c.npackets.isLt)
    simp only [pop, hmod]
    by_cases h : b + 1 < c.npackets.toNat
    · rw [if_pos h]
      obtain ⟨new, ctx', r1, r2, r3, r4, r5⟩ := reach_spec c ds hlen b (b + 1) [n] s.ctx hq (by simp) h
      rw [h1, hs, r1]
      refine ⟨new, ctx', rfl, ?_, ?_, by simp⟩
      · have hc := r3.chain
        rw [chain_append] at hc
        have hnl := r5 rfl
        refine ⟨hc.2, ?_, ?_, fun hne => ?_⟩
        · have := r3.fits; simp only [List.length_append, List.length_cons, List.length_nil] at this; omega
        · intro he; rw [he] at hnl; simp at hnl
        · have := r3.rest (by simp)
          simp only [List.length_append, List.length_cons, List.length_nil] at this
          rw [show b + 1 + new.length = b + (0 + 1 + new.length) by omega]
          exact this
      · intro x hx
        have hc := r3.chain
        rw [chain_append] at hc
        exact Or.inr ⟨r2 x hx, by simpa using (chain_mem c ds new _ hc.2 x hx).1⟩
    · rw [if_neg h]
      exact ⟨[], s.ctx, rfl, ⟨trivial, by simp; omega, fun _ => by omega, fun h => (h rfl).elim⟩, by simp, by simp⟩

/-- Popping the front packet once it has a verdict. -/
theorem Recs.pop {live : Prop} (hv : live) {c : Cfg} {ds : List Nat} {quiet : Prop} {A : Arrival → Prop} {R : TimeParts → Prop} {b : Nat} {n : Node}
    {rest q : List Node} {es : List Entry} (h : Recs live c ds quiet A R b (n :: rest) es) (hn : n.seq = b) (hit : n.hit = true)
    (hq : ∀ x ∈ q, x ∈ rest ∨ (x.hit = false ∧ b + 1 + rest.length ≤ x.seq)) (hl : rest.length ≤ q.length) :
    Recs live c ds quiet A R (b + 1) q es := by
  refine ⟨?_, fun k hk => h.nolost k (by omega), fun k hk => h.nogot k (by simp only [List.length_cons]; omega), ?_, h.asc, h.good⟩
  · intro k hk
    rcases Nat.lt_succ_iff_lt_or_eq.1 hk with hk | hk
    · exact h.before k hk
    · subst hk
      have := (h.hits hv n (by simp)).1 hit
      rw [hn] at this
      exact Or.inr ⟨h.nolost _ (Nat.le_refl _), this⟩
  · intro _ x hx
    rcases hq x hx with hh | ⟨h1, h2⟩
    · exact h.hits hv x (by simp [hh])
    · rw [h1, h.nogot x.seq (by simp only [List.length_cons]; omega)]
      simp

/-- Declaring the front packet lost. -/
theorem Recs.lose {live : Prop} (hv : live) {c : Cfg} {ds : List Nat} {quiet : Prop} {A : Arrival → Prop} {R : TimeParts → Prop} {b : Nat} {n : Node}
    {rest q : List Node} {es : List Entry} (h : Recs live c ds quiet A R b (n :: rest) es) (hn : n.seq = b) (hit : n.hit = false)
    (hrel : n.relative = rel ds b) (hb : b < c.npackets.toNat)
    (hq : ∀ x ∈ q, x ∈ rest ∨ (x.hit = false ∧ b + 1 + rest.length ≤ x.seq)) (hl : rest.length ≤ q.length)
    (hrest : Chain c ds (b + 1) rest)
    (now : TimeParts) (stamp : TimeStamp) (hR : R now) (hexp : quiet → Expired c ds b now) :
    Recs live c ds quiet A R (b + 1) q (es ++ [⟨lostRec c n stamp, now⟩]) := by
  have hseq : (lostRec c n stamp).seq.toNat = b := by
    simp only [lostRec, hn]; exact toNat_ofNat32 b (Nat.lt_trans hb c.npackets.isLt)
  have hlost : isLost ⟨lostRec c n stamp, now⟩ = true := by
    simp only [isLost, lostRec]; rfl
  have hgotb : gotFor b es = [] := by
    have := h.hits hv n (by simp)
    rw [hit, hn] at this
    simp at this
    exact this
  refine ⟨?_, ?_, ?_, ?_, ?_, ?_⟩
  · intro k hk
    unfold OneVerdict
    rw [lostFor_append, gotFor_append]
    simp only [hseq, hlost]
    by_cases hkb : b = k
    · subst hkb
      rw [if_pos ⟨rfl, trivial⟩, if_neg (by simp), h.nolost _ (Nat.le_refl _), hgotb]
      exact Or.inl ⟨rfl, rfl⟩
    · rw [if_neg (fun e => hkb e.1), if_neg (fun e => hkb e.1), List.append_nil, List.append_nil]
      exact h.before k (by omega)
  · intro k hk
    rw [lostFor_append, if_neg (by simp only [hseq]; omega), List.append_nil]
    exact h.nolost k (by omega)
  · intro k hk
    rw [gotFor_append, if_neg (by simp [hlost]), List.append_nil]
    exact h.nogot k (by simp only [List.length_cons]; omega)
  · intro _ x hx
    rw [gotFor_append, if_neg (by simp [hlost]), List.append_nil]
    rcases hq x hx with hh | ⟨h1, h2⟩
    · exact h.hits hv x (by simp [hh])
    · rw [h1, h.nogot x.seq (by simp only [List.length_cons]; omega)]
      simp
  · rw [List.filter_append, List.pairwise_append]
    refine ⟨h.asc, ?_, ?_⟩
    · simp only [List.filter_cons, hlost, List.filter_nil, if_true]
      simp
    · intro x hx y hy
      simp only [List.filter_cons, hlost, List.filter_nil, if_true, List.mem_singleton] at hy
      subst hy
      simp only [hseq]
      rw [List.mem_filter] at hx
      exact lost_below es b h.nolost x hx.1 hx.2
  · intro e he
    rcases List.mem_append.1 he with he | he
    · exact h.good e he
    · simp only [List.mem_singleton] at he
      subst he
      refine Or.inl ⟨hlost, ⟨?_, ?_, rfl, ?_⟩, hR, ?_⟩
      · simp only [hseq]
        simp only [lostRec, BitVec.toNat_ofNat, add, u64]
        rw [Nat.mod_mod, hrel, sched_rel]
      · simp only [lostRec]; rfl
      · simp only [hseq]; exact hb
      · simp only [hseq]; exact hexp

/-- The invariant of the receiver. -/
def Inv (c : Cfg) (ds : List Nat) (quiet : Prop) (A : Arrival → Prop) (R : TimeParts → Prop) (b : Nat) (s : St) : Prop :=
  Queue c ds b s.q s.ctx ∧ Recs (s.status ≠ .failed) c ds quiet A R b s.q s.entries

theorem clear_add (a : TimeParts) (h : 0 ≤ a.sub ∧ a.sub < 1000000000) : tsAdd ⟨0, 0⟩ a = a := by
  unfold tsAdd
  simp only [Int.zero_add]
  rw [if_neg (by omega)]

/-- When a node's packet counts as lost. -/
theorem expired_iff (c : Cfg) (ds : List Nat) (k : Nat) (t : TimeParts) (ht : 0 ≤ t.sub ∧ t.sub < 1000000000) :
    tsLt (tsAdd (tsAdd ⟨0, 0⟩ (absOf c (rel ds k))) (toTimespec c.timeout.toNat)) t = true ↔ Expired c ds k t := by
  have h1 := absOf_total c (rel ds k) (Nat.mod_lt _ (by decide))
  rw [sched_rel] at h1
  have h2 := nanos_eq c.timeout.toNat c.timeout.isLt
  rw [clear_add _ h1.2]
  have h3 := (C60_timespec_arith (absOf c (rel ds k)) (toTimespec c.timeout.toNat) h1.2 h2.2).2.2.1
  rw [(C60_timespec_arith _ t h3.2 ht).1, h3.1, h1.1, h2.1]
  rfl

theorem flush_spec (c : Cfg) (ds : List Nat) (hlen : ds.length = c.npackets.toNat) (quiet : Prop) (A : Arrival → Prop)
    (R : TimeParts → Prop) (usr2 : Nat → Bool) (hu : quiet → ∀ j, usr2 j = false) (clock : TimeParts) (hR : R clock)
    (hclk : 0 ≤ clock.sub ∧ clock.sub < 1000000000) (n : Nat) :
    ∀ (j : Nat) (cur : TimeParts) (s : St) (b : Nat), (quiet → cur = clock) → Inv c ds quiet A R b s → s.status ≠ .failed → s.q ≠ [] →
      c.npackets.toNat < n + b →
      ∃ b', b ≤ b' ∧ Inv c ds quiet A R b' (flush c usr2 clock n j cur s).2 ∧
        (flush c usr2 clock n j cur s).1 ≠ .stuck ∧
        (flush c usr2 clock n j cur s).2.stamp = s.stamp ∧ (flush c usr2 clock n j cur s).2.last = s.last ∧
        (flush c usr2 clock n j cur s).2.status = s.status ∧
        ((flush c usr2 clock n j cur s).1 = .more → (flush c usr2 clock n j cur s).2.q ≠ []) ∧
        ((flush c usr2 clock n j cur s).1 = .over → b' = c.npackets.toNat) ∧
        (quiet → (flush c usr2 clock n j cur s).1 = .more → ¬ Expired c ds b' clock) := by
  induction n with
  | zero =>
    intro j cur s b _ h hv hne hlt
    have := h.1.fits
    omega
  | succ n ih =>
    intro j cur s b hcur h hv hne hlt
    obtain ⟨x, rest, hq⟩ : ∃ x rest, s.q = x :: rest := by
      cases hs : s.q with
      | nil => exact (hne hs).elim
      | cons x rest => exact ⟨x, rest, rfl⟩
    have hQ := h.1
    have hRc := h.2
    rw [hq] at hQ hRc
    obtain ⟨⟨h1, h2, h3⟩, h4⟩ := hQ.chain
    have hfit := hQ.fits
    simp only [List.length_cons] at hfit
    rw [flush]
    simp only [hq]
    obtain ⟨cur', hc'⟩ : ∃ cur', cur' = if usr2 j = true then
        tsAdd (tsAdd ⟨0, 0⟩ (tsAdd (tsAdd ⟨0, 0⟩ x.absolute) (toTimespec c.timeout.toNat))) (toTimespec c.timeout.toNat) else cur := ⟨_, rfl⟩
    rw [← hc']
    have hcq : quiet → cur' = clock := by
      intro hh
      rw [hc', hu hh j]
      simpa using hcur hh
    split
    · rename_i hexp
      have hE : quiet → Expired c ds b clock := by
        intro hh
        rw [hcq hh, h3, expired_iff c ds b clock hclk] at hexp
        exact hexp
      by_cases hhit : x.hit = true
      · rw [if_pos hhit]
        simp only
        obtain ⟨q, ctx, p1, p2, p3, p4⟩ := pop_spec c ds hlen b x rest s hq hQ
        rw [p1]
        simp only
        have hR' := Recs.pop hv hRc h1 hhit p3 p4
        by_cases hqe : q = []
        · rw [if_pos hqe]
          exact ⟨b + 1, by omega, ⟨p2, hR'⟩, by simp, rfl, rfl, rfl, by simp, fun _ => p2.empty hqe, by simp⟩
        · rw [if_neg hqe]
          obtain ⟨b', g1, g2⟩ := ih (j + 1) cur' { s with q := q, ctx := ctx } (b + 1) hcq ⟨p2, hR'⟩ hv hqe (by omega)
          exact ⟨b', by omega, g2⟩
      · have hhit' : x.hit = false := by simpa using hhit
        rw [if_neg hhit]
        cases hw : writeRec c (lostRec c x s.stamp) clock s with
        | none =>
          simp only
          exact ⟨b, Nat.le_refl _, h, by simp, (by first | trivial | rfl), (by first | trivial | rfl), (by first | trivial | rfl), by simp, by simp, by simp⟩
        | some s1 =>
          have hs1 : s1 = { s with entries := s.entries ++ [⟨lostRec c x s.stamp, clock⟩] } := by
            unfold writeRec at hw
            split at hw
            · exact (Option.some.inj hw).symm
            · cases hw
          subst hs1
          simp only
          obtain ⟨q, ctx, p1, p2, p3, p4⟩ := pop_spec c ds hlen b x rest { s with entries := s.entries ++ [⟨lostRec c x s.stamp, clock⟩] } hq hQ
          rw [p1]
          simp only
          have hR' := Recs.lose hv hRc h1 hhit' h2 (by omega) p3 p4 h4 clock s.stamp hR hE
          by_cases hqe : q = []
          · rw [if_pos hqe]
            exact ⟨b + 1, by omega, ⟨p2, hR'⟩, by simp, rfl, rfl, rfl, by simp, fun _ => p2.empty hqe, by simp⟩
          · rw [if_neg hqe]
            obtain ⟨b', g1, g2⟩ := ih (j + 1) cur' { s with q := q, ctx := ctx, entries := s.entries ++ [⟨lostRec c x s.stamp, clock⟩] }
              (b + 1) hcq ⟨p2, hR'⟩ hv hqe (by omega)
            exact ⟨b', by omega, g2⟩
    · rename_i hexp
      refine ⟨b, Nat.le_refl _, h, by simp, (by first | trivial | rfl), (by first | trivial | rfl), (by first | trivial | rfl), fun _ => hne, by simp, ?_⟩
      intro hh _
      rw [hcq hh, h3, expired_iff c ds b clock hclk] at hexp
      exact hexp

/-! ## Judging a datagram -/

theorem chain_map (c : Cfg) (ds : List Nat) (f : Node → Node) (hf : ∀ n, (f n).seq = n.seq ∧ (f n).relative = n.relative ∧ (f n).absolute = n.absolute)
    (q : List Node) (k : Nat) (h : Chain c ds k q) : Chain c ds k (q.map f) := by
  induction q generalizing k with
  | nil => trivial
  | cons n q ih =>
    obtain ⟨⟨h1, h2, h3⟩, h4⟩ := h
    obtain ⟨f1, f2, f3⟩ := hf n
    exact ⟨⟨by rw [f1, h1], by rw [f2, h2], by rw [f3, h3]⟩, ih _ h4⟩

theorem Queue.extend {live : Prop} (hv : live) {c : Cfg} {ds : List Nat} {quiet : Prop} {A : Arrival → Prop} {R : TimeParts → Prop} {b : Nat} {q new : List Node}
    {es : List Entry} {ctx : Sched.Ctx} (h : Recs live c ds quiet A R b q es) (hq : Queue c ds b (q ++ new) ctx) (hn : ∀ x ∈ new, x.hit = false) :
    Recs live c ds quiet A R b (q ++ new) es := by
  refine ⟨h.before, h.nolost, fun k hk => h.nogot k (by rw [List.length_append] at hk; omega), ?_, h.asc, h.good⟩
  intro _ x hx
  rcases List.mem_append.1 hx with hx | hx
  · exact h.hits hv x hx
  · have hc := hq.chain
    rw [chain_append] at hc
    rw [hn x hx, h.nogot x.seq (chain_mem c ds new _ hc.2 x hx).1]
    simp

/-- The expected time the receiver compares with. -/
theorem expect_near (c : Cfg) (ds : List Nat) (k : Nat) :
    ∃ x d, (timespecToTimestamp ⟨0, false, 0, 0⟩ (absOf c (rel ds k)) none none).owptime.toNat = x ∧ d ≤ 5 ∧ x < 2 ^ 64 ∧
      (x + d) % 2 ^ 64 = schedTime c.start.toNat ds k := by
  obtain ⟨S, hS⟩ : ∃ S, S = schedTime c.start.toNat ds k := ⟨_, rfl⟩
  have hSlt : S < 2 ^ 64 := by rw [hS]; exact Nat.mod_lt _ (by decide)
  have e : absOf c (rel ds k) = toTimespec ((S + 2 ^ 64 - epoch) % 2 ^ 64) := by
    unfold absOf timestampToTimespec
    simp only
    rw [BitVec.toNat_ofNat, add, u64, Nat.mod_mod, sub, u64, Nat.add_comm (rel ds k), sched_rel, ← hS]
    rfl
  obtain ⟨y, hy⟩ : ∃ y, y = (S + 2 ^ 64 - epoch) % 2 ^ 64 := ⟨_, rfl⟩
  have hylt : y < 2 ^ 64 := by rw [hy]; exact Nat.mod_lt _ (by decide)
  have hr := C02_num64_roundtrip y hylt
  rw [e, ← hy]
  refine ⟨_, y - ofTimespec (toTimespec y), rfl, by omega, BitVec.isLt _, ?_⟩
  have e2 : (timespecToTimestamp ⟨0, false, 0, 0⟩ (toTimespec y) none none).owptime.toNat = (ofTimespec (toTimespec y) + epoch) % 2 ^ 64 := by
    simp only [timespecToTimestamp, BitVec.toNat_ofNat, add, u64]
    rw [Nat.mod_mod]
    rfl
  rw [e2, Nat.mod_add_mod, ← hS]
  have e3 : ofTimespec (toTimespec y) + epoch + (y - ofTimespec (toTimespec y)) = y + epoch := by omega
  rw [e3, hy, Nat.mod_add_mod]
  have e4 : S + 2 ^ 64 - epoch + epoch = S + 2 ^ 64 := by
    have : epoch ≤ 2 ^ 64 := by decide
    omega
  rw [e4, Nat.add_mod_right, Nat.mod_eq_of_lt hSlt]

/-- Recording a received packet. -/
theorem Recs.record {live : Prop} (hv : live) {c : Cfg} {ds : List Nat} {quiet : Prop} {A : Arrival → Prop} {R : TimeParts → Prop} {b : Nat}
    {q : List Node} {es : List Entry} (h : Recs live c ds quiet A R b q es) (hch : Chain c ds b q) (e : Entry) (hb : b ≤ e.data.seq.toNat)
    (hlt : e.data.seq.toNat < b + q.length) (hl : isLost e = false) (hg : ∃ a, A a ∧ Genuine c ds a e) :
    Recs live c ds quiet A R b (q.map fun n => if n.seq = e.data.seq.toNat then { n with hit := true } else n) (es ++ [e]) := by
  refine ⟨?_, ?_, ?_, ?_, ?_, ?_⟩
  · intro k hk
    unfold OneVerdict
    rw [lostFor_append, gotFor_append, if_neg (by omega), if_neg (by omega), List.append_nil, List.append_nil]
    exact h.before k hk
  · intro k hk
    rw [lostFor_append, if_neg (by rw [hl]; simp), List.append_nil]
    exact h.nolost k hk
  · intro k hk
    rw [List.length_map] at hk
    rw [gotFor_append, if_neg (by omega), List.append_nil]
    exact h.nogot k hk
  · intro _ n hn
    rw [List.mem_map] at hn
    obtain ⟨m, hm, rfl⟩ := hn
    by_cases hs : m.seq = e.data.seq.toNat
    · rw [if_pos hs]
      simp only [hs]
      rw [gotFor_append, if_pos ⟨rfl, hl⟩]
      simp
    · rw [if_neg hs, gotFor_append, if_neg (fun x => hs x.1.symm), List.append_nil]
      exact h.hits hv m hm
  · rw [List.filter_append, List.filter_cons, hl]
    simpa using h.asc
  · intro x hx
    rcases List.mem_append.1 hx with hx | hx
    · exact h.good x hx
    · simp only [List.mem_singleton] at hx
      subst hx
      exact Or.inr ⟨hl, hg⟩

theorem Inv.status {c : Cfg} {ds : List Nat} {quiet : Prop} {A : Arrival → Prop} {R : TimeParts → Prop} {b : Nat} {s : St}
    (h : Inv c ds quiet A R b s) (hv : s.status ≠ .failed) (x : Status) : Inv c ds quiet A R b { s with status := x } :=
  ⟨h.1, ⟨h.2.before, h.2.nolost, h.2.nogot, fun _ => h.2.hits hv, h.2.asc, h.2.good⟩⟩

/-- `s'` has the records of `s`, or one more: the genuine one of arrival `a`. -/
def Adds (c : Cfg) (ds : List Nat) (a : Arrival) (s s' : St) : Prop :=
  s'.entries = s.entries ∨ ∃ e, s'.entries = s.entries ++ [e] ∧ Genuine c ds a e

theorem judge_spec (c : Cfg) (ds : List Nat) (hlen : ds.length = c.npackets.toNat) (quiet : Prop) (A : Arrival → Prop)
    (R : TimeParts → Prop) (b : Nat) (s : St) (h : Inv c ds quiet A R b s) (hv : s.status ≠ .failed) (a : Arrival) (hA : A a) (bytes : Bytes) (ttl : Byte) (i : Bool)
    (r : Owamp.Sender.Reading) (P : Bytes) (h1 : a.got = .dgram c.remote bytes ttl i) (h2 : a.clock = some r) (h3 : c.len ≤ bytes.length)
    (h4 : openPacket c.H c.fmt c.ep (bytes.take c.len) = .plain P) (h5 : s.stamp.owptime = stampOf r.time) (h6 : stampOf r.time ≠ 0) :
    Inv c ds quiet A R b (judge c P ttl r.time s) ∧ Adds c ds a s (judge c P ttl r.time s) := by
  unfold judge
  simp only
  split
  · exact ⟨h.status hv _, Or.inl rfl⟩
  · rename_i hseq
    cases hq : s.q with
    | nil =>
      simp only
      have := h.status hv .failed
      rw [hq] at this
      exact ⟨this, Or.inl rfl⟩
    | cons x rest =>
      simp only
      split
      · exact ⟨h, Or.inl rfl⟩
      · rename_i hge
        have hQ := h.1
        have hx : x.seq = b := by have := hQ.chain; rw [hq] at this; exact this.1.1
        obtain ⟨new, ctx', r1, r2, r3, r4, _⟩ := reach_spec c ds hlen b (seqOf P).toNat s.q s.ctx hQ (by rw [hq]; simp) (by omega)
        rw [hq] at r1
        rw [r1]
        simp only
        rw [← hq]
        have hrec := Queue.extend hv h.2 r3 r2
        obtain ⟨n, f1, f2, f3, f4⟩ := chain_find c ds (s.q ++ new) b (seqOf P).toNat r3.chain (by omega) r4
        rw [f1]
        simp only
        have hbase : Inv c ds quiet A R b { s with q := s.q ++ new, ctx := ctx' } := ⟨r3, hrec⟩
        split
        · exact ⟨hbase.status hv _, Or.inl rfl⟩
        · split
          · exact ⟨hbase, Or.inl rfl⟩
          · rename_i hd1
            split
            · exact ⟨hbase, Or.inl rfl⟩
            · rename_i hd2
              obtain ⟨xx, d, e1, e2, e3, e4⟩ := expect_near c ds (seqOf P).toNat
              rw [f4, e1] at hd2
              obtain ⟨rec', hrec'⟩ : ∃ rec' : DataRec, rec' = { seq := seqOf P, send := ⟨timeOf c.fmt P, (errOf c.fmt P).sync, (errOf c.fmt P).multiplier, (errOf c.fmt P).scale⟩, recv := s.stamp, ttl := ttl } := ⟨_, rfl⟩
              have hseq' : rec'.seq = seqOf P := by rw [hrec']
              have hchain' := chain_map c ds (fun n => if n.seq = (seqOf P).toNat then { n with hit := true } else n)
                (fun n => by split <;> exact ⟨rfl, rfl, rfl⟩) (s.q ++ new) b r3.chain
              have hQ' : Queue c ds b ((s.q ++ new).map fun n => if n.seq = (seqOf P).toNat then { n with hit := true } else n) ctx' := by
                refine ⟨hchain', by rw [List.length_map]; exact r3.fits, ?_, ?_⟩
                · intro hh; rw [List.map_eq_nil_iff] at hh; exact r3.empty hh
                · intro hh; rw [Ne, List.map_eq_nil_iff] at hh; rw [List.length_map]; exact r3.rest hh
              rw [← hrec']
              cases hw : writeRec c rec' r.time { s with q := (s.q ++ new).map fun n => if n.seq = (seqOf P).toNat then { n with hit := true } else n, ctx := ctx' } with
              | none =>
                refine ⟨⟨hQ', ?_⟩, Or.inl rfl⟩
                exact ⟨hrec.before, hrec.nolost, fun k hk => hrec.nogot k (by simpa using hk), fun hh => (hh rfl).elim, hrec.asc, hrec.good⟩
              | some s1 =>
                have hs1 : s1 = { s with q := (s.q ++ new).map fun n => if n.seq = (seqOf P).toNat then { n with hit := true } else n, ctx := ctx', entries := s.entries ++ [⟨rec', r.time⟩] } := by
                  unfold writeRec at hw
                  split at hw
                  · exact (Option.some.inj hw).symm
                  · cases hw
                subst hs1
                simp only
                have hl : isLost ⟨rec', r.time⟩ = false := by
                  simp only [isLost, hrec', h5]
                  simpa using h6
                have hb' : b ≤ rec'.seq.toNat := by rw [hseq']; omega
                have hg : Genuine c ds a ⟨rec', r.time⟩ := ⟨bytes, ttl, i, r, P, xx, d, h1, h2, h3, h4, rfl, hseq',
                  by simp only [hrec'], by simp only [hrec', h5], by simp only [hrec'], by simp only [hseq']; omega, by simp only [hrec']; rw [← diff_apart]; omega, by simp only [hrec']; rw [← diff_apart]; omega, e2, e3, by simp only [hseq']; exact e4⟩
                have := Recs.record hv hrec r3.chain ⟨rec', r.time⟩ hb' (by simp only [hseq']; exact r4) hl ⟨a, hA, hg⟩
                simp only [hseq'] at this
                exact ⟨⟨hQ', this⟩, Or.inr ⟨_, rfl, hg⟩⟩

/-- Conversely, a timely datagram for a packet not yet passed is recorded, unless the session ends. -/
theorem judge_records (c : Cfg) (ds : List Nat) (hlen : ds.length = c.npackets.toNat) (quiet : Prop) (A : Arrival → Prop)
    (R : TimeParts → Prop) (b : Nat) (s : St) (h : Inv c ds quiet A R b s) (ttl : Byte) (now : TimeParts) (P : Bytes)
    (h1 : b ≤ (seqOf P).toNat) (h2 : diff (timeOf c.fmt P).toNat s.stamp.owptime.toNat ≤ c.timeout.toNat)
    (h3 : ∀ y d, d ≤ 5 → y < 2 ^ 64 → (y + d) % 2 ^ 64 = schedTime c.start.toNat ds (seqOf P).toNat →
      diff (timeOf c.fmt P).toNat y ≤ c.timeout.toNat)
    (hf : (judge c P ttl now s).status ≠ .failed) :
    (judge c P ttl now s).entries ≠ s.entries := by
  unfold judge at hf ⊢
  simp only at hf ⊢
  by_cases hseq : (seqOf P).toNat ≥ c.npackets.toNat
  · rw [if_pos hseq] at hf; exact (hf rfl).elim
  · rw [if_neg hseq] at hf ⊢
    cases hq : s.q with
    | nil => rw [hq] at hf; exact (hf rfl).elim
    | cons x rest =>
      rw [hq] at hf
      simp only at hf ⊢
      have hQ := h.1
      have hx : x.seq = b := by have := hQ.chain; rw [hq] at this; exact this.1.1
      rw [if_neg (by omega)] at hf ⊢
      obtain ⟨new, ctx', r1, r2, r3, r4, _⟩ := reach_spec c ds hlen b (seqOf P).toNat s.q s.ctx hQ (by rw [hq]; simp) (by omega)
      rw [hq] at r1
      rw [r1] at hf ⊢
      simp only at hf ⊢
      rw [← hq] at hf ⊢
      obtain ⟨n, f1, f2, f3, f4⟩ := chain_find c ds (s.q ++ new) b (seqOf P).toNat r3.chain (by omega) r4
      rw [f1] at hf ⊢
      simp only at hf ⊢
      obtain ⟨xx, d, e1, e2, e3, e4⟩ := expect_near c ds (seqOf P).toNat
      rw [f4, e1] at hf ⊢
      by_cases hval : (!(errOf c.fmt P).valid) = true
      · rw [if_pos hval] at hf; exact (hf rfl).elim
      · rw [if_neg hval, if_neg (by omega), if_neg (by have := h3 xx d e2 e3 e4; omega)] at hf ⊢
        cases hw : writeRec c _ now _ with
        | none => rw [hw] at hf; exact (hf rfl).elim
        | some s1 =>
          simp only
          unfold writeRec at hw
          split at hw
          · rw [← Option.some.inj hw]
            simp
          · cases hw

/-! ## Turns -/

theorem stamp_owptime (old : TimeStamp) (tv : TimeParts) (e l : Nat) :
    (timespecToTimestamp old tv (some e) (some l)).owptime = stampOf tv := by
  have h : BitVec.ofNat 64 (add (ofTimespec tv) (ulongToNum64 jan1970)) = stampOf tv := by
    apply BitVec.eq_of_toNat_eq
    simp only [stampOf, BitVec.toNat_ofNat, add, u64]
    rw [Nat.mod_mod]
    rfl
  simp only [timespecToTimestamp]
  rw [← h]
  split
  · split <;> rfl
  · rfl

/-- The invariant between turns. -/
def RInv (c : Cfg) (ds : List Nat) (quiet : Prop) (A : Arrival → Prop) (R : TimeParts → Prop) (b : Nat) (s : St) : Prop :=
  Inv c ds quiet A R b s ∧ (s.status = .running → s.q ≠ []) ∧ b ≤ c.npackets.toNat

theorem stampFlush_spec (c : Cfg) (ds : List Nat) (hlen : ds.length = c.npackets.toNat) (quiet : Prop) (A : Arrival → Prop)
    (R : TimeParts → Prop) (usr2 : Nat → Bool) (hu : quiet → ∀ j, usr2 j = false) (r : Owamp.Sender.Reading) (hR : R r.time)
    (hg : GoodClock r) (s : St) (b : Nat) (h : Inv c ds quiet A R b s) (hv : s.status = .running) (hne : s.q ≠ []) :
    ∃ b', b ≤ b' ∧ Inv c ds quiet A R b' (stampFlush c usr2 r s).2 ∧ (stampFlush c usr2 r s).1 ≠ .stuck ∧
      (stampFlush c usr2 r s).2.stamp.owptime = stampOf r.time ∧ (stampFlush c usr2 r s).2.status = .running ∧
      ((stampFlush c usr2 r s).1 = .more → (stampFlush c usr2 r s).2.q ≠ []) ∧
      ((stampFlush c usr2 r s).1 = .over → b' = c.npackets.toNat) ∧
      (quiet → (stampFlush c usr2 r s).1 = .more → ¬ Expired c ds b' r.time) := by
  unfold stampFlush
  simp only
  have := flush_spec c ds hlen quiet A R usr2 hu r.time hR ⟨hg.1, hg.2.1⟩ (c.npackets.toNat + 1) 0 r.time
    { s with stamp := { timespecToTimestamp s.stamp r.time (some r.err) (some s.last) with sync := r.sync }, last := r.err } b
    (fun _ => rfl) h (by rw [hv]; decide) hne (by omega)
  obtain ⟨b', g1, g2, g3, g4, g5, g6, g7, g8, g9⟩ := this
  refine ⟨b', g1, g2, g3, ?_, ?_, g7, g8, g9⟩
  · rw [g4]; exact stamp_owptime _ _ _ _
  · rw [g6]; exact hv

theorem Inv.fits {c : Cfg} {ds : List Nat} {quiet : Prop} {A : Arrival → Prop} {R : TimeParts → Prop} {b : Nat} {s : St}
    (h : Inv c ds quiet A R b s) : b ≤ c.npackets.toNat := Nat.le_trans (Nat.le_add_right _ _) h.1.fits

theorem RInv.fail {c : Cfg} {ds : List Nat} {quiet : Prop} {A : Arrival → Prop} {R : TimeParts → Prop} {b : Nat} {s : St}
    (h : Inv c ds quiet A R b s) (hv : s.status ≠ .failed) : RInv c ds quiet A R b { s with status := .failed } :=
  ⟨h.status hv _, fun e => (nomatch e), h.fits⟩

theorem RInv.done {c : Cfg} {ds : List Nat} {quiet : Prop} {A : Arrival → Prop} {R : TimeParts → Prop} {b : Nat} {s : St}
    (h : Inv c ds quiet A R b s) (hv : s.status ≠ .failed) : RInv c ds quiet A R b { s with status := .over } :=
  ⟨h.status hv _, fun e => (nomatch e), h.fits⟩

/-- A turn that gets as far as its flush. -/
def reaches (a : Arrival) (r : Owamp.Sender.Reading) : Prop :=
  a.timer = true ∧ a.sig1 = .none ∧ a.sig2 = .none ∧ a.sig3 = .none ∧ a.clock = some r

theorem judge_status (c : Cfg) (P : Bytes) (ttl : Byte) (now : TimeParts) (s : St) (hv : s.status = .running) :
    (judge c P ttl now s).status ≠ .over := by
  have hr : s.status ≠ .over := by rw [hv]; exact fun hh => nomatch hh
  unfold judge
  simp only
  split
  · exact fun hh => nomatch hh
  · split
    · exact fun hh => nomatch hh
    · split
      · exact hr
      · split
        · exact fun hh => nomatch hh
        · split
          · exact fun hh => nomatch hh
          · split
            · exact fun hh => nomatch hh
            · split
              · exact hr
              · split
                · exact hr
                · cases hw : writeRec c _ now _ with
                  | none => exact fun hh => nomatch hh
                  | some s1 =>
                    unfold writeRec at hw
                    split at hw
                    · rw [← Option.some.inj hw]; exact hr
                    · cases hw

theorem examine_spec (c : Cfg) (ds : List Nat) (hlen : ds.length = c.npackets.toNat) (quiet : Prop) (A : Arrival → Prop)
    (R : TimeParts → Prop) (b : Nat) (s : St) (h : Inv c ds quiet A R b s) (hv : s.status = .running) (a : Arrival) (hA : A a)
    (peer bytes : Bytes) (ttl : Byte) (i : Bool)
    (r : Owamp.Sender.Reading) (h1 : a.got = .dgram peer bytes ttl i) (h2 : a.clock = some r) (h3 : c.len ≤ bytes.length)
    (h5 : s.stamp.owptime = stampOf r.time) (h6 : stampOf r.time ≠ 0) :
    Inv c ds quiet A R b (examine c peer (bytes.take c.len) ttl r.time s) ∧
      Adds c ds a s (examine c peer (bytes.take c.len) ttl r.time s) ∧ (examine c peer (bytes.take c.len) ttl r.time s).status ≠ .over := by
  have hv' : s.status ≠ .failed := by rw [hv]; decide
  unfold examine
  split
  · exact ⟨h, Or.inl rfl, by rw [hv]; exact fun hh => nomatch hh⟩
  · rename_i hp
    have hp : peer = c.remote := by simpa using hp
    subst hp
    split
    · exact ⟨h.status hv' _, Or.inl rfl, fun hh => nomatch hh⟩
    · exact ⟨h, Or.inl rfl, by rw [hv]; exact fun hh => nomatch hh⟩
    · rename_i P hP
      have := judge_spec c ds hlen quiet A R b s h hv' a hA bytes ttl i r P h1 h2 h3 hP h5 h6
      exact ⟨this.1, this.2, judge_status c P ttl r.time s hv⟩

/-- No stop signal is found set at the tests of the loop. -/
def unstopped (a : Arrival) : Prop := a.sig1 ≠ .usr2 ∧ a.sig2 ≠ .usr2 ∧ a.sig3 ≠ .usr2 ∧ a.sig4 ≠ .usr2

theorem examine_running (c : Cfg) (peer bytes : Bytes) (ttl : Byte) (now : TimeParts) (s : St) (hq : s.q ≠ []) :
    (examine c peer bytes ttl now s).q ≠ [] := by
  unfold examine
  split
  · exact hq
  · split
    · exact hq
    · exact hq
    · rename_i P _
      have hg : ∀ n q ctx r, grow c n q ctx = some r → q ≠ [] → r.1 ≠ [] := by
        intro n
        induction n with
        | zero => intro q ctx r h hq; rw [grow] at h; cases h; exact hq
        | succ n ih =>
          intro q ctx r h hq
          rw [grow] at h
          split at h
          · cases h
          · split at h
            · cases h
            · dsimp only at h
              split at h
              · cases h
              · exact ih _ _ _ h (by simp)
      unfold judge
      simp only
      split
      · exact hq
      · split
        · exact hq
        · split
          · exact hq
          · split
            · exact hq
            · rename_i r hr
              have hr1 : r.1 ≠ [] := by
                unfold reach at hr
                split at hr
                · cases hr
                · split at hr
                  · exact hg _ _ _ _ hr hq
                  · cases hr; exact hq
              split
              · exact hr1
              · split
                · exact hr1
                · split
                  · exact hr1
                  · split
                    · exact hr1
                    · cases hw : writeRec c _ now _ with
                      | none => simp [hr1]
                      | some s1 =>
                        simp only
                        unfold writeRec at hw
                        split at hw
                        · rw [← Option.some.inj hw]; simp [hr1]
                        · cases hw

theorem turn_spec (c : Cfg) (ds : List Nat) (hlen : ds.length = c.npackets.toNat) (quiet : Prop) (A : Arrival → Prop)
    (R : TimeParts → Prop) (b : Nat) (s : St) (a : Arrival) (hA : A a) (hu : quiet → ∀ j, a.usr2 j = false)
    (hclk : ∀ r, a.clock = some r → R r.time ∧ GoodClock r)
    (h : RInv c ds quiet A R b s) (hv : s.status = .running) :
    ∃ b', b ≤ b' ∧ RInv c ds quiet A R b' (turn c a s) ∧
      (∀ r, reaches a r → quiet → (turn c a s).status ≠ .failed → b' = c.npackets.toNat ∨ ¬ Expired c ds b' r.time) ∧
      (unstopped a → (turn c a s).status = .over → b' = c.npackets.toNat) := by
  have hv' : s.status ≠ .failed := by rw [hv]; decide
  unfold turn
  split
  · rename_i ht
    refine ⟨b, Nat.le_refl _, RInv.fail h.1 hv', fun r hr => ?_, fun _ hh => (nomatch hh)⟩
    rw [hr.1] at ht; simp at ht
  · cases h1 : a.sig1 with
    | int =>
      refine ⟨b, Nat.le_refl _, RInv.fail h.1 hv', fun r hr => ?_, fun _ hh => (nomatch hh)⟩
      rw [hr.2.1] at h1; cases h1
    | usr2 =>
      refine ⟨b, Nat.le_refl _, RInv.done h.1 hv', fun r hr => ?_, fun hs => (hs.1 h1).elim⟩
      rw [hr.2.1] at h1; cases h1
    | none =>
      simp only [Sig.then]
      generalize hgood : a.got.taken c.len = good
      generalize a.got.eintr = eintr
      by_cases hb : (good.isNone && !eintr) = true
      · rw [if_pos hb]
        refine ⟨b, Nat.le_refl _, RInv.fail h.1 hv', fun r hr _ hf => ?_, fun _ hh => (nomatch hh)⟩
        exact (hf rfl).elim
      · rw [if_neg hb]
        cases h2 : a.sig2 with
        | int =>
          refine ⟨b, Nat.le_refl _, RInv.fail h.1 hv', fun r hr => ?_, fun _ hh => (nomatch hh)⟩
          rw [hr.2.2.1] at h2; cases h2
        | usr2 =>
          refine ⟨b, Nat.le_refl _, RInv.done h.1 hv', fun r hr => ?_, fun hs => (hs.2.1 h2).elim⟩
          rw [hr.2.2.1] at h2; cases h2
        | none =>
          simp only
          cases hc : a.clock with
          | none =>
            refine ⟨b, Nat.le_refl _, RInv.fail h.1 hv', fun r hr => ?_, fun _ hh => (nomatch hh)⟩
            rw [hr.2.2.2.2] at hc; cases hc
          | some r =>
            simp only
            obtain ⟨hR, hg⟩ := hclk r hc
            cases h3 : a.sig3 with
            | int =>
              refine ⟨b, Nat.le_refl _, RInv.fail h.1 hv', fun r hr => ?_, fun _ hh => (nomatch hh)⟩
              rw [hr.2.2.2.1] at h3; cases h3
            | usr2 =>
              refine ⟨b, Nat.le_refl _, RInv.done h.1 hv', fun r hr => ?_, fun hs => (hs.2.2.1 h3).elim⟩
              rw [hr.2.2.2.1] at h3; cases h3
            | none =>
              simp only
              obtain ⟨b', g1, g2, g3, g4, g5, g6, g7, g8⟩ := stampFlush_spec c ds hlen quiet A R a.usr2 hu r hR hg s b h.1 hv (h.2.1 hv)
              generalize stampFlush c a.usr2 r s = F at *
              have hf : F.2.status ≠ .failed := by rw [g5]; decide
              have hsame : ∀ r', reaches a r' → r' = r := by
                intro r' hr'
                have := hr'.2.2.2.2
                rw [hc] at this
                exact (Option.some.inj this).symm
              unfold afterFlush
              cases hF : F.1 with
              | error =>
                exact ⟨b', g1, RInv.fail g2 hf, fun _ _ _ hh => (hh rfl).elim, fun _ hh => (nomatch hh)⟩
              | stuck => exact (g3 hF).elim
              | over => exact ⟨b', g1, RInv.done g2 hf, fun _ _ _ _ => Or.inl (g7 hF), fun _ _ => g7 hF⟩
              | more =>
                simp only
                have hne := g6 hF
                cases h4 : a.sig4 with
                | int => exact ⟨b', g1, RInv.fail g2 hf, fun _ _ _ hh => (hh rfl).elim, fun _ hh => (nomatch hh)⟩
                | usr2 =>
                  refine ⟨b', g1, RInv.done g2 hf, fun r' hr' hqt _ => Or.inr ?_, fun hs => (hs.2.2.2 h4).elim⟩
                  rw [hsame r' hr']; exact g8 hqt hF
                | none =>
                  simp only
                  cases good with
                  | none =>
                    refine ⟨b', g1, ⟨g2, fun _ => hne, g2.fits⟩, fun r' hr' hqt _ => Or.inr ?_, fun _ hh => ?_⟩
                    · rw [hsame r' hr']; exact g8 hqt hF
                    · rw [g5] at hh; cases hh
                  | some x =>
                    obtain ⟨peer, bytes, ttl⟩ := x
                    simp only
                    unfold Got.taken at hgood
                    split at hgood
                    · rename_i pr bs tl ei hgot
                      split at hgood
                      · rename_i hln
                        simp only [Option.some.injEq, Prod.mk.injEq] at hgood
                        obtain ⟨rfl, rfl, rfl⟩ := hgood
                        obtain ⟨hI, _, hno⟩ := examine_spec c ds hlen quiet A R b' F.2 g2 g5 a hA pr bs tl ei r hgot hc hln g4 hg.2.2
                        refine ⟨b', g1, ⟨hI, fun _ => examine_running c pr _ tl r.time F.2 hne, hI.fits⟩, fun r' hr' hqt _ => Or.inr ?_, fun _ hh => (hno hh).elim⟩
                        rw [hsame r' hr']; exact g8 hqt hF
                      · cases hgood
                    · cases hgood

theorem step_spec (c : Cfg) (ds : List Nat) (hlen : ds.length = c.npackets.toNat) (quiet : Prop) (A : Arrival → Prop)
    (R : TimeParts → Prop) (b : Nat) (s : St) (a : Arrival) (hA : A a) (hu : quiet → ∀ j, a.usr2 j = false)
    (hclk : ∀ r, a.clock = some r → R r.time ∧ GoodClock r) (h : RInv c ds quiet A R b s) :
    ∃ b', b ≤ b' ∧ RInv c ds quiet A R b' (step c s a) ∧
      (unstopped a → (s.status = .over → b = c.npackets.toNat) → (step c s a).status = .over → b' = c.npackets.toNat) := by
  unfold step
  split
  · rename_i hv
    obtain ⟨b', h1, h2, _, h4⟩ := turn_spec c ds hlen quiet A R b s a hA hu hclk h hv
    exact ⟨b', h1, h2, fun x _ => h4 x⟩
  · exact ⟨b, Nat.le_refl _, h, fun _ x => x⟩

theorem run_spec (c : Cfg) (ds : List Nat) (hlen : ds.length = c.npackets.toNat) (quiet : Prop) (A : Arrival → Prop)
    (R : TimeParts → Prop) (as : List Arrival) :
    ∀ (b : Nat) (s : St), (∀ a ∈ as, A a ∧ (quiet → ∀ j, a.usr2 j = false) ∧ ∀ r, a.clock = some r → R r.time ∧ GoodClock r) →
    RInv c ds quiet A R b s → ∃ b', b ≤ b' ∧ RInv c ds quiet A R b' (run c s as) ∧
      ((∀ a ∈ as, unstopped a) → (s.status = .over → b = c.npackets.toNat) → (run c s as).status = .over → b' = c.npackets.toNat) := by
  induction as with
  | nil => intro b s _ h; exact ⟨b, Nat.le_refl _, h, fun _ x => x⟩
  | cons a as ih =>
    intro b s ha h
    obtain ⟨x1, x2, x3⟩ := ha a (by simp)
    obtain ⟨b1, h1, h2, u1⟩ := step_spec c ds hlen quiet A R b s a x1 x2 x3 h
    obtain ⟨b2, h3, h4, u2⟩ := ih b1 (step c s a) (fun a' h' => ha a' (by simp [h'])) h2
    exact ⟨b2, by omega, h4, fun y z => u2 (fun a' h' => y a' (by simp [h'])) (u1 (y a (by simp)) z)⟩

theorem nextDelta_lt (E : Bytes → Bytes → Bytes) (x : Sched.Ctx) (d : Nat) (h : (Sched.nextDelta E x).1 = .ok d) : d < 2 ^ 64 := by
  unfold Sched.nextDelta at h
  split at h
  · cases h; simp [Sched.errFATAL]
  · split at h
    · cases h
    · dsimp only at h
      split at h
      · cases h
      · simp only [Except.ok.injEq] at h
        rw [← h]
        exact Nat.mod_lt _ (Nat.two_pow_pos 64)
      · simp only [Except.ok.injEq] at h
        rw [← h]; exact BitVec.isLt _
      · cases h

theorem opened_spec (c : Cfg) (ds : List Nat) (hlen : ds.length = c.npackets.toNat)
    (quiet : Prop) (A : Arrival → Prop) (R : TimeParts → Prop) (clock : Option Owamp.Sender.Reading) (usr2 : Nat → Bool)
    (hu : quiet → ∀ j, usr2 j = false) (hclk : ∀ r, clock = some r → R r.time ∧ GoodClock r) (s : St) (hI : Inv c ds quiet A R 0 s)
    (hv : s.status = .running) (hne : s.q ≠ []) :
    ∃ b, RInv c ds quiet A R b (firstFlush c clock usr2 s) ∧ ((firstFlush c clock usr2 s).status = .over → b = c.npackets.toNat) := by
  unfold firstFlush
  cases clock with
  | none => exact ⟨0, RInv.fail hI (by rw [hv]; exact fun hh => nomatch hh), fun hh => nomatch hh⟩
  | some r =>
    simp only
    obtain ⟨hR, hg⟩ := hclk r rfl
    obtain ⟨b', g1, g2, g3, g4, g5, g6, g7, g8⟩ := stampFlush_spec c ds hlen quiet A R usr2 hu r hR hg s 0 hI hv hne
    generalize stampFlush c usr2 r s = F at *
    have hf : F.2.status ≠ .failed := by rw [g5]; decide
    unfold afterFlush
    cases hF : F.1 with
    | error => exact ⟨b', RInv.fail g2 hf, fun hh => nomatch hh⟩
    | stuck => exact (g3 hF).elim
    | over => exact ⟨b', RInv.done g2 hf, fun _ => g7 hF⟩
    | more => exact ⟨b', ⟨g2, fun _ => g6 hF, g2.fits⟩, fun hh => by rw [id, g5] at hh; cases hh⟩

theorem init_spec (c : Cfg) (sid : Bytes) (slots : List Sched.Slot) (c0 : Sched.Ctx)
    (hc : Sched.create sid ⟨c.npackets, slots⟩ = some c0) (ops : List Sched.Op) (ds : List Nat)
    (hds : Sched.deltas c.E c.npackets.toNat c0 = ds.map Except.ok) (hlen : ds.length = c.npackets.toNat)
    (quiet : Prop) (A : Arrival → Prop) (R : TimeParts → Prop) (clock : Option Owamp.Sender.Reading) (usr2 : Nat → Bool)
    (hu : quiet → ∀ j, usr2 j = false) (hclk : ∀ r, clock = some r → R r.time ∧ GoodClock r) (stamp : TimeStamp) :
    ∃ b, RInv c ds quiet A R b (init c (Sched.run c.E c0 ops) clock usr2 stamp) ∧
      ((init c (Sched.run c.E c0 ops) clock usr2 stamp).status = .over → b = c.npackets.toNat) := by
  unfold init
  rw [C06_reset_restores c.E sid _ c0 hc ops]
  simp only
  have hnil : ∀ k : Nat, lostFor k [] = [] ∧ gotFor k [] = [] := fun k => ⟨rfl, rfl⟩
  split
  · rename_i hn
    have hn : c.npackets.toNat = 0 := by simpa using hn
    exact ⟨0, ⟨⟨⟨trivial, by simp, fun _ => hn.symm, fun hh => (hh rfl).elim⟩, ⟨fun k hk => (Nat.not_lt_zero k hk).elim, fun k _ => (hnil k).1, fun k _ => (hnil k).2, fun _ n hn => by simp at hn, by simp, fun e he => by simp at he⟩⟩, fun hh => (nomatch hh), Nat.zero_le _⟩, fun hh => nomatch hh⟩
  · rename_i hn
    have hn : c.npackets.toNat ≠ 0 := by simpa using hn
    obtain ⟨m, hm⟩ : ∃ m, c.npackets.toNat = m + 1 := ⟨c.npackets.toNat - 1, by omega⟩
    obtain ⟨d0, ds', hdd⟩ : ∃ d0 ds', ds = d0 :: ds' := by
      cases ds with
      | nil => simp at hlen; omega
      | cons d0 ds' => exact ⟨d0, ds', rfl⟩
    have hd' := hds
    rw [hm, hdd] at hd'
    simp only [Sched.deltas, List.map_cons, List.cons.injEq] at hd'
    simp only [hd'.1]
    have hd0 : d0 < 2 ^ 64 := nextDelta_lt _ _ _ hd'.1
    have hrel : rel ds 0 = d0 := by
      rw [rel, hdd]
      simp only [Nat.zero_add, List.take_succ_cons, List.take_zero, List.sum_cons, List.sum_nil, Nat.add_zero]
      exact Nat.mod_eq_of_lt hd0
    have hI : Inv c ds quiet A R 0 ⟨.running, (Sched.nextDelta c.E c0).2, [⟨0, false, d0, absOf c d0⟩], [], stamp, 0⟩ := by
      refine ⟨⟨⟨⟨rfl, hrel.symm, by rw [hrel]⟩, trivial⟩, by simp; omega, by simp, fun _ => ?_⟩, ⟨fun k hk => by omega, fun k _ => (hnil k).1, fun k _ => (hnil k).2, ?_, by simp, fun e he => by simp at he⟩⟩
      · simp only [List.length_cons, List.length_nil]
        rw [show c.npackets.toNat - (0 + (0 + 1)) = m by omega, hdd]
        exact hd'.2
      · intro _ n hn'
        simp only [List.mem_singleton] at hn'
        subst hn'
        simp [gotFor]
    exact opened_spec c ds hlen quiet A R clock usr2 hu hclk _ hI rfl (by simp)

end Owamp.Recv
