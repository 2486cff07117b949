import Verif.Spec.TwoWay
import Verif.Lemmas.Receiver
/-!
# Steps towards C67-C70
-/
namespace Owamp.TwoWay
open Owamp.Num64 Owamp.Time Owamp.Pkt Owamp.Ctl Owamp.Codec Owamp.Spec Owamp.Spec.TwoWay Owamp.Props
open Owamp.Spec.Sender (nanos due)
open Owamp.Spec.Receiver (schedTime unixNanos stampOf epoch)
open Owamp.Sender (Reading nanos_eq toNat_ofNat32)
open Owamp.Recv (rel clear_add sched_rel Got Flushed)

/-! ## The queue -/

def Chain (ds : List Nat) : Nat → List Node → Prop
  | _, [] => True
  | k, n :: q => (n.seq = k ∧ n.relative = rel ds k) ∧ Chain ds (k + 1) q

theorem chain_append (ds : List Nat) (q r : List Node) (k : Nat) :
    Chain ds k (q ++ r) ↔ Chain ds k q ∧ Chain ds (k + q.length) r := by
  induction q generalizing k with
  | nil => simp [Chain]
  | cons n q ih =>
    simp only [List.cons_append, Chain, ih, List.length_cons, and_assoc]
    rw [show k + 1 + q.length = k + (q.length + 1) by omega]

theorem chain_mem (ds : List Nat) (q : List Node) (k : Nat) (h : Chain ds k q) (n : Node) (hn : n ∈ q) :
    k ≤ n.seq ∧ n.seq < k + q.length ∧ n.relative = rel ds n.seq := by
  induction q generalizing k with
  | nil => simp at hn
  | cons x q ih =>
    obtain ⟨⟨h1, h2⟩, h4⟩ := h
    rcases List.mem_cons.1 hn with e | e
    · subst e
      simp only [List.length_cons]
      refine ⟨by omega, by omega, by rw [h2, h1]⟩
    · have := ih (k + 1) h4 e
      simp only [List.length_cons]
      refine ⟨by omega, by omega, this.2.2⟩

theorem chain_find (ds : List Nat) (q : List Node) (k seq : Nat) (h : Chain ds k q) (h1 : k ≤ seq) (h2 : seq < k + q.length) :
    ∃ n, q.find? (fun n => n.seq = seq) = some n ∧ n ∈ q ∧ n.seq = seq ∧ n.relative = rel ds seq := by
  induction q generalizing k with
  | nil => simp at h2; omega
  | cons x q ih =>
    obtain ⟨⟨a1, a2⟩, a4⟩ := h
    by_cases hx : x.seq = seq
    · refine ⟨x, ?_, by simp, hx, ?_⟩
      · simp [hx]
      · rw [a2, ← a1, hx]
    · obtain ⟨n, b1, b2, b3, b4⟩ := ih (k + 1) a4 (by omega) (by simp only [List.length_cons] at h2; omega)
      refine ⟨n, ?_, by simp [b2], b3, b4⟩
      rw [List.find?_cons_of_neg (by simpa using hx)]
      exact b1

theorem chain_map (ds : List Nat) (f : Node → Node) (hf : ∀ n, (f n).seq = n.seq ∧ (f n).relative = n.relative)
    (q : List Node) (k : Nat) (h : Chain ds k q) : Chain ds k (q.map f) := by
  induction q generalizing k with
  | nil => trivial
  | cons n q ih =>
    obtain ⟨⟨h1, h2⟩, h4⟩ := h
    obtain ⟨f1, f2⟩ := hf n
    exact ⟨⟨by rw [f1, h1], by rw [f2, h2]⟩, ih _ h4⟩

structure Queue (c : Cfg) (ds : List Nat) (b : Nat) (q : List Node) (ctx : Sched.Ctx) : Prop where
  chain : Chain ds b q
  fits : b + q.length ≤ c.npackets.toNat
  empty : q = [] → b = c.npackets.toNat
  rest : q ≠ [] → Sched.deltas c.E (c.npackets.toNat - (b + q.length)) ctx = (ds.drop (b + q.length)).map Except.ok

/-- A node as `alloc_node` makes it. -/
def Fresh (c : Cfg) (ds : List Nat) (n : Node) : Prop := n.hit = false ∧ n.sent = false ∧ n.absolute = absOf c (rel ds n.seq)

theorem Queue.map {c : Cfg} {ds : List Nat} {b : Nat} {q : List Node} {ctx : Sched.Ctx} (h : Queue c ds b q ctx) (f : Node → Node)
    (hf : ∀ n, (f n).seq = n.seq ∧ (f n).relative = n.relative) : Queue c ds b (q.map f) ctx := by
  refine ⟨chain_map ds f hf q b h.chain, by rw [List.length_map]; exact h.fits, fun e => h.empty (List.map_eq_nil_iff.1 e), fun e => ?_⟩
  rw [List.length_map]
  exact h.rest (fun e' => e (by rw [e']; rfl))

theorem grow_spec (c : Cfg) (ds : List Nat) (hlen : ds.length = c.npackets.toNat) (b n : Nat) :
    ∀ (q : List Node) (ctx : Sched.Ctx), Queue c ds b q ctx → q ≠ [] → b + q.length + n ≤ c.npackets.toNat →
    ∃ new ctx', grow c n q ctx = some (q ++ new, ctx') ∧ new.length = n ∧ (∀ x ∈ new, Fresh c ds x) ∧
      Queue c ds b (q ++ new) ctx' := by
  induction n with
  | zero =>
    intro q ctx hq _ _
    exact ⟨[], ctx, by simp [grow], rfl, by simp, by simpa using hq⟩
  | succ n ih =>
    intro q ctx hq hne hle
    obtain ⟨a, e, he⟩ : ∃ a e, q = a ++ [e] := by
      rcases List.eq_nil_or_concat q with h | ⟨a, e, h⟩
      · exact (hne h).elim
      · exact ⟨a, e, by rw [h]; simp⟩
    have hc := hq.chain
    rw [he, chain_append] at hc
    obtain ⟨_, ⟨hs, hr⟩, _⟩ := hc
    have hl : q.length = a.length + 1 := by rw [he]; simp
    have hd := hq.rest hne
    obtain ⟨m, hm⟩ : ∃ m, c.npackets.toNat - (b + q.length) = m + 1 := ⟨c.npackets.toNat - (b + q.length) - 1, by omega⟩
    have hdrop : ds.drop (b + q.length) = ds[b + q.length]'(by omega) :: ds.drop (b + q.length + 1) :=
      List.drop_eq_getElem_cons (by omega)
    rw [hm, hdrop] at hd
    simp only [Sched.deltas, List.map_cons, List.cons.injEq] at hd
    obtain ⟨x, hx⟩ : ∃ x, x = ds[b + q.length]'(by omega) := ⟨_, rfl⟩
    rw [← hx] at hd
    have hr' : add e.relative x = rel ds (b + q.length) := by
      rw [hr, add, u64, rel, Nat.mod_add_mod, rel, hx, List.take_succ_eq_append_getElem (i := b + q.length) (by omega), List.sum_append]
      rw [show b + a.length + 1 = b + q.length by omega]
      simp only [List.sum_cons, List.sum_nil, Nat.add_zero]
    have hlast : q.getLast? = some e := by rw [he]; simp
    have hseq : e.seq + 1 = b + q.length := by omega
    have hstep : grow c (n + 1) q ctx = grow c n (q ++ [⟨e.seq + 1, false, false, rel ds (b + q.length), absOf c (rel ds (b + q.length))⟩])
        (Sched.nextDelta c.E ctx).2 := by
      rw [grow]
      simp only [hlast]
      rw [if_neg (by omega)]
      simp only [hd.1, hr']
    have hq' : Queue c ds b (q ++ [⟨e.seq + 1, false, false, rel ds (b + q.length), absOf c (rel ds (b + q.length))⟩])
        (Sched.nextDelta c.E ctx).2 := by
      refine ⟨?_, by simp; omega, by simp, fun _ => ?_⟩
      · rw [chain_append]
        refine ⟨hq.chain, ⟨by simp only; omega, rfl⟩, trivial⟩
      · simp only [List.length_append, List.length_cons, List.length_nil]
        rw [show c.npackets.toNat - (b + (q.length + (0 + 1))) = m by omega, show b + (q.length + (0 + 1)) = b + q.length + 1 by omega]
        exact hd.2
    obtain ⟨new, ctx', h1, h2, h3, h4⟩ := ih _ _ hq' (by simp) (by simp; omega)
    refine ⟨⟨e.seq + 1, false, false, rel ds (b + q.length), absOf c (rel ds (b + q.length))⟩ :: new, ctx', ?_, by simp [h2], ?_, ?_⟩
    · rw [hstep, h1]; simp
    · intro y hy
      rcases List.mem_cons.1 hy with hh | hh
      · rw [hh]; exact ⟨rfl, rfl, by simp only [hseq]⟩
      · exact h3 y hh
    · simpa using h4

theorem reach_spec (c : Cfg) (ds : List Nat) (hlen : ds.length = c.npackets.toNat) (b seq : Nat) (q : List Node) (ctx : Sched.Ctx)
    (hq : Queue c ds b q ctx) (hne : q ≠ []) (hseq : seq < c.npackets.toNat) :
    ∃ new ctx', reach c seq q ctx = some (q ++ new, ctx') ∧ (∀ x ∈ new, Fresh c ds x) ∧
      Queue c ds b (q ++ new) ctx' ∧ seq < b + (q ++ new).length ∧ (seq = b + q.length → new.length = 1) ∧
      (seq < b + q.length → new = []) := by
  obtain ⟨a, e, he⟩ : ∃ a e, q = a ++ [e] := by
    rcases List.eq_nil_or_concat q with h | ⟨a, e, h⟩
    · exact (hne h).elim
    · exact ⟨a, e, by rw [h]; simp⟩
  have hc := hq.chain
  rw [he, chain_append] at hc
  obtain ⟨_, ⟨hs, _⟩, _⟩ := hc
  have hl : q.length = a.length + 1 := by rw [he]; simp
  have hlast : q.getLast? = some e := by rw [he]; simp
  unfold reach
  rw [hlast]
  simp only
  by_cases h : seq > e.seq
  · rw [if_pos h]
    obtain ⟨new, ctx', h1, h2, h3, h4⟩ := grow_spec c ds hlen b (seq - e.seq) q ctx hq hne (by omega)
    refine ⟨new, ctx', h1, h3, h4, ?_, ?_, ?_⟩
    · rw [List.length_append]; omega
    · intro hh; omega
    · intro hh; omega
  · rw [if_neg h]
    refine ⟨[], ctx, by simp, by simp, by simpa using hq, by simp; omega, ?_, fun _ => rfl⟩
    intro hh; omega

theorem pop_spec (c : Cfg) (ds : List Nat) (hlen : ds.length = c.npackets.toNat) (b : Nat) (n : Node) (rest : List Node) (s : St)
    (hs : s.q = n :: rest) (hq : Queue c ds b (n :: rest) s.ctx) :
    ∃ q ctx, pop c n rest s = some { s with q := q, ctx := ctx } ∧ Queue c ds (b + 1) q ctx ∧
      (∀ x ∈ q, x ∈ rest ∨ (Fresh c ds x ∧ b + 1 + rest.length ≤ x.seq)) ∧ rest.length ≤ q.length := by
  obtain ⟨⟨h1, h2⟩, h4⟩ := hq.chain
  have hfit := hq.fits
  simp only [List.length_cons] at hfit
  cases rest with
  | cons y rest =>
    refine ⟨y :: rest, s.ctx, rfl, ⟨h4, by simp only [List.length_cons] at *; omega, by simp, fun _ => ?_⟩, fun x hx => Or.inl hx, Nat.le_refl _⟩
    have := hq.rest (by simp)
    simp only [List.length_cons] at this ⊢
    rw [show b + 1 + (rest.length + 1) = b + (rest.length + 1 + 1) by omega]
    exact this
  | nil =>
    simp only [List.length_nil, Nat.zero_add] at hfit
    have hmod : (n.seq + 1) % 2 ^ 32 = b + 1 := by
      rw [h1]; exact Nat.mod_eq_of_lt (Nat.lt_of_le_of_lt hfit c.npackets.isLt)
    simp only [pop, hmod]
    by_cases h : b + 1 < c.npackets.toNat
    · rw [if_pos h]
      obtain ⟨new, ctx', r1, r2, r3, r4, r5, _⟩ := reach_spec c ds hlen b (b + 1) [n] s.ctx hq (by simp) h
      rw [h1, hs, r1]
      refine ⟨new, ctx', rfl, ?_, ?_, by simp⟩
      · have hc := r3.chain
        rw [chain_append] at hc
        have hnl := r5 rfl
        refine ⟨hc.2, ?_, ?_, fun hne => ?_⟩
        · have := r3.fits; simp only [List.length_append, List.length_cons, List.length_nil] at this; omega
        · intro he; rw [he] at hnl; simp at hnl
        · have := r3.rest (by simp)
          simp only [List.length_append, List.length_cons, List.length_nil] at this
          rw [show b + 1 + new.length = b + (0 + 1 + new.length) by omega]
          exact this
      · intro x hx
        have hc := r3.chain
        rw [chain_append] at hc
        exact Or.inr ⟨r2 x hx, by simpa using (chain_mem ds new _ hc.2 x hx).1⟩
    · rw [if_neg h]
      exact ⟨[], s.ctx, rfl, ⟨trivial, by simp; omega, fun _ => by omega, fun h => (h rfl).elim⟩, by simp, by simp⟩

/-! ## The invariant -/

theorem lostFor_append (k : Nat) (es : List Entry) (e : Entry) :
    lostFor k (es ++ [e]) = lostFor k es ++ (if e.data.sent.seq.toNat = k ∧ noReply e = true then [e] else []) := by
  simp only [lostFor, List.filter_append, List.filter_cons, List.filter_nil]
  by_cases h : e.data.sent.seq.toNat = k ∧ noReply e = true
  · rw [if_pos h, if_pos (by simpa using h)]
  · rw [if_neg h, if_neg (by simpa using h)]

theorem gotFor_append (k : Nat) (es : List Entry) (e : Entry) :
    gotFor k (es ++ [e]) = gotFor k es ++ (if e.data.sent.seq.toNat = k ∧ noReply e = false then [e] else []) := by
  simp only [gotFor, List.filter_append, List.filter_cons, List.filter_nil]
  by_cases h : e.data.sent.seq.toNat = k ∧ noReply e = false
  · rw [if_pos h, if_pos (by simpa using h)]
  · rw [if_neg h, if_neg (by simpa using h)]

theorem handed_append (k : Nat) (l : List Call) (x : Call) :
    handed k (l ++ [x]) = handed k l ++ (if x.seq = k ∧ x.res ≠ .nobufs then [x] else []) := by
  simp only [handed, List.filter_append, List.filter_cons, List.filter_nil]
  by_cases h : x.seq = k ∧ x.res ≠ .nobufs
  · rw [if_pos h, if_pos (by simpa using h)]
  · rw [if_neg h, if_neg (by simpa using h)]

theorem lost_below (es : List Entry) (b : Nat) (h : ∀ k, b ≤ k → lostFor k es = []) (e : Entry) (he : e ∈ es) (hl : noReply e = true) :
    e.data.sent.seq.toNat < b := by
  rcases Nat.lt_or_ge e.data.sent.seq.toNat b with hh | hh
  · exact hh
  · have := h _ hh
    rw [lostFor, List.filter_eq_nil_iff] at this
    have := this e he
    simp [hl] at this

/-- What holds of a node of the queue when `m` packets have been sent or skipped. -/
structure NodeOk (c : Cfg) (ds : List Nat) (m : Nat) (missed : List Nat) (calls : List Call) (es : List Entry) (n : Node) : Prop where
  sentLt : n.sent = true → n.seq < m
  onAir : n.sent = true → n.seq ∉ missed → ∃ x ∈ calls, x.seq = n.seq ∧ counted x ∧ x.time = n.absolute
  cut : n.sent = false → n.seq < m → ∃ x ∈ calls, x.seq = n.seq ∧ x.res = .intr
  miss : n.seq ∈ missed → n.sent = true ∧ n.hit = true
  abs : n.sent = false ∨ n.seq ∈ missed → n.absolute = absOf c (rel ds n.seq)
  norm : 0 ≤ n.absolute.sub ∧ n.absolute.sub < 1000000000
  hits : n.hit = true ↔ gotFor n.seq es ≠ [] ∨ n.seq ∈ missed

/-- The invariant. `b` is the first packet in the queue, `m` the number of packets sent or skipped. `A` are the passes, `quiet` says that no stop
signal was noticed during a flush, `R` the clock readings. -/
structure Core (c : Cfg) (ds : List Nat) (quiet : Prop) (A : Tick → Prop) (R : TimeParts → Prop) (b m : Nat) (s : St) : Prop where
  queue : Queue c ds b s.q s.ctx
  bm : b ≤ m
  mq : m ≤ b + s.q.length
  nodes : ∀ n ∈ s.q, NodeOk c ds m s.missed s.calls s.entries n
  acct : ∀ k, k < m → Accounted (due c.begin ds) (nanos c.timeout.toNat) s.calls s.missed k
  unmissed : ∀ k, m ≤ k → k ∉ s.missed
  unsent : s.phase ≠ .dead → ∀ k, m ≤ k → handed k s.calls = []
  settled : ∀ k, k < b → OneVerdict s.entries k ∨ (k ∈ s.missed ∧ lostFor k s.entries = [])
  nolost : ∀ k, b ≤ k → lostFor k s.entries = []
  nogot : ∀ k, m ≤ k → gotFor k s.entries = []
  asc : (s.entries.filter noReply).Pairwise fun x y => x.data.sent.seq.toNat < y.data.sent.seq.toNat
  good : ∀ e ∈ s.entries,
    (noReply e = true ∧ LostRecord c ds e ∧ R e.now ∧
      ∃ x ∈ s.calls, x.seq = e.data.sent.seq.toNat ∧ counted x ∧ (quiet → Expired c x e.now)) ∨
    (noReply e = false ∧ ∃ t, A t ∧ R e.now ∧ Genuine c t e)

theorem absOf_norm (c : Cfg) (r : Nat) : 0 ≤ (absOf c r).sub ∧ (absOf c r).sub < 1000000000 := by
  unfold absOf timestampToTimespec
  exact (nanos_eq _ (Nat.mod_lt _ (by decide))).2

theorem Fresh.ok {c : Cfg} {ds : List Nat} {n : Node} (h : Fresh c ds n) {m : Nat} {missed : List Nat} {calls : List Call} {es : List Entry}
    (hm : m ≤ n.seq) (h1 : ∀ k, m ≤ k → k ∉ missed) (h2 : ∀ k, m ≤ k → gotFor k es = []) : NodeOk c ds m missed calls es n := by
  obtain ⟨f1, f2, f3⟩ := h
  refine ⟨fun e => ?_, fun e => ?_, fun _ e => by omega, fun e => (h1 _ hm e).elim, fun _ => f3, by rw [f3]; exact absOf_norm c _, ?_⟩
  · rw [f2] at e; cases e
  · rw [f2] at e; cases e
  · rw [f1, h2 _ hm]
    constructor
    · intro e; cases e
    · intro e
      rcases e with e | e
      · exact (e rfl).elim
      · exact (h1 _ hm e).elim

/-- Growing the queue. -/
theorem Core.grow {c : Cfg} {ds : List Nat} {quiet : Prop} {A : Tick → Prop} {R : TimeParts → Prop} {b m : Nat} {s : St}
    (h : Core c ds quiet A R b m s) {new : List Node} {ctx : Sched.Ctx} (hf : ∀ x ∈ new, Fresh c ds x) (hq : Queue c ds b (s.q ++ new) ctx) :
    Core c ds quiet A R b m { s with q := s.q ++ new, ctx := ctx } := by
  refine ⟨hq, h.bm, by simp only [List.length_append]; have := h.mq; omega, ?_, h.acct, h.unmissed, h.unsent, h.settled, h.nolost, h.nogot, h.asc, h.good⟩
  intro n hn
  rcases List.mem_append.1 hn with hn | hn
  · exact h.nodes n hn
  · have hc := hq.chain
    rw [chain_append] at hc
    have := (chain_mem ds new _ hc.2 n hn).1
    exact (hf n hn).ok (Nat.le_trans h.mq this) h.unmissed h.nogot

/-- Popping a packet that has been answered or was skipped. -/
theorem Core.drop {c : Cfg} {ds : List Nat} {quiet : Prop} {A : Tick → Prop} {R : TimeParts → Prop} {b m : Nat} {s : St}
    (h : Core c ds quiet A R b m s) {n : Node} {rest q : List Node} {ctx : Sched.Ctx} (hs : s.q = n :: rest) (hit : n.hit = true) (hsent : n.sent = true)
    (hq : Queue c ds (b + 1) q ctx) (hf : ∀ x ∈ q, x ∈ rest ∨ (Fresh c ds x ∧ b + 1 + rest.length ≤ x.seq)) (hl : rest.length ≤ q.length) :
    Core c ds quiet A R (b + 1) m { s with q := q, ctx := ctx } := by
  have hn := h.nodes n (by rw [hs]; simp)
  have hc := h.queue.chain
  rw [hs] at hc
  have hnb : n.seq = b := hc.1.1
  have hmq := h.mq
  rw [hs, List.length_cons] at hmq
  have hbm := hn.sentLt hsent
  refine ⟨hq, by omega, by simp only; omega, ?_, h.acct, h.unmissed, h.unsent, ?_, fun k hk => h.nolost k (by omega), h.nogot, h.asc, h.good⟩
  · intro x hx
    rcases hf x hx with hh | ⟨h1, h2⟩
    · exact h.nodes x (by rw [hs]; simp [hh])
    · exact h1.ok (by omega) h.unmissed h.nogot
  · intro k hk
    rcases Nat.lt_succ_iff_lt_or_eq.1 hk with hk | hk
    · exact h.settled k hk
    · subst hk
      rcases hn.hits.1 hit with e | e
      · rw [hnb] at e
        exact Or.inl (Or.inr ⟨h.nolost _ (Nat.le_refl _), e⟩)
      · rw [hnb] at e
        exact Or.inr ⟨e, h.nolost _ (Nat.le_refl _)⟩

/-- Declaring the front packet lost. -/
theorem Core.lose {c : Cfg} {ds : List Nat} {quiet : Prop} {A : Tick → Prop} {R : TimeParts → Prop} {b m : Nat} {s : St}
    (h : Core c ds quiet A R b m s) {n : Node} {rest q : List Node} {ctx : Sched.Ctx} (hs : s.q = n :: rest) (hit : n.hit = false) (hsent : n.sent = true)
    (hq : Queue c ds (b + 1) q ctx) (hf : ∀ x ∈ q, x ∈ rest ∨ (Fresh c ds x ∧ b + 1 + rest.length ≤ x.seq)) (hl : rest.length ≤ q.length)
    (now : TimeParts) (hR : R now)
    (hexp : quiet → total 1000000000 n.absolute + nanos c.timeout.toNat < total 1000000000 now) :
    Core c ds quiet A R (b + 1) m { s with q := q, ctx := ctx, entries := s.entries ++ [⟨lostRec c n s.rtime, now⟩] } := by
  have hn := h.nodes n (by rw [hs]; simp)
  have hc := h.queue.chain
  rw [hs] at hc
  have hnb : n.seq = b := hc.1.1
  have hrel : n.relative = rel ds b := hc.1.2
  have hmq := h.mq
  rw [hs, List.length_cons] at hmq
  have hbm := hn.sentLt hsent
  have hbn : b < c.npackets.toNat := by
    have := h.queue.fits
    rw [hs, List.length_cons] at this
    omega
  have hseq : (lostRec c n s.rtime).sent.seq.toNat = b := by
    simp only [lostRec, hnb]; exact toNat_ofNat32 b (Nat.lt_trans hbn c.npackets.isLt)
  have hlost : noReply ⟨lostRec c n s.rtime, now⟩ = true := by
    simp only [noReply, lostRec]; rfl
  have hnm : b ∉ s.missed := by
    intro e
    have := (hn.miss (by rw [hnb]; exact e)).2
    rw [hit] at this; cases this
  have hgotb : gotFor b s.entries = [] := by
    have := hn.hits
    rw [hit, hnb] at this
    simp at this
    exact this.1
  have gsame : ∀ k, gotFor k (s.entries ++ [⟨lostRec c n s.rtime, now⟩]) = gotFor k s.entries := by
    intro k
    rw [gotFor_append, if_neg (by simp [hlost]), List.append_nil]
  refine ⟨hq, by omega, by simp only; omega, ?_, h.acct, h.unmissed, h.unsent, ?_, ?_, ?_, ?_, ?_⟩
  · intro x hx
    have key : NodeOk c ds m s.missed s.calls s.entries x := by
      rcases hf x hx with hh | ⟨h1, h2⟩
      · exact h.nodes x (by rw [hs]; simp [hh])
      · exact h1.ok (by omega) h.unmissed h.nogot
    exact ⟨key.sentLt, key.onAir, key.cut, key.miss, key.abs, key.norm, by simp only [gsame]; exact key.hits⟩
  · intro k hk
    unfold OneVerdict
    simp only [gsame, lostFor_append, hseq, hlost]
    by_cases hkb : b = k
    · subst hkb
      rw [if_pos ⟨rfl, trivial⟩, h.nolost _ (Nat.le_refl _), hgotb]
      exact Or.inl (Or.inl ⟨rfl, rfl⟩)
    · rw [if_neg (fun e => hkb e.1), List.append_nil]
      exact h.settled k (by omega)
  · intro k hk
    simp only
    rw [lostFor_append, if_neg (by simp only [hseq]; omega), List.append_nil]
    exact h.nolost k (by omega)
  · intro k hk
    simp only [gsame]
    exact h.nogot k hk
  · simp only
    rw [List.filter_append, List.pairwise_append]
    refine ⟨h.asc, ?_, ?_⟩
    · simp only [List.filter_cons, hlost, List.filter_nil, if_true]
      simp
    · intro x hx y hy
      simp only [List.filter_cons, hlost, List.filter_nil, if_true, List.mem_singleton] at hy
      subst hy
      simp only [hseq]
      rw [List.mem_filter] at hx
      exact lost_below s.entries b h.nolost x hx.1 hx.2
  · intro e he
    rcases List.mem_append.1 he with he | he
    · exact h.good e he
    · simp only [List.mem_singleton] at he
      subst he
      obtain ⟨x, x1, x2, x3, x4⟩ := hn.onAir hsent (by rw [hnb]; exact hnm)
      refine Or.inl ⟨hlost, ⟨?_, ?_, ?_, ?_, rfl, rfl, rfl⟩, hR, x, x1, by simp only [hseq]; omega, x3, fun hh => ?_⟩
      · simp only [hseq]
        simp only [lostRec, BitVec.toNat_ofNat, add, u64]
        rw [Nat.mod_mod, hrel, sched_rel]
      · simp only [lostRec]; rfl
      · simp only [lostRec]; rfl
      · simp only [lostRec]; rfl
      · have := hexp hh
        unfold Expired
        rw [x4]; exact this

/-! ## Flushing -/

theorem flush_spec (c : Cfg) (ds : List Nat) (hlen : ds.length = c.npackets.toNat) (quiet : Prop) (A : Tick → Prop)
    (R : TimeParts → Prop) (usr2 : Nat → Bool) (hu : quiet → ∀ j, usr2 j = false) (clock : TimeParts) (hR : R clock)
    (hclk : 0 ≤ clock.sub ∧ clock.sub < 1000000000) (m n : Nat) :
    ∀ (j : Nat) (cur : TimeParts) (s : St) (b : Nat), (quiet → cur = clock) → Core c ds quiet A R b m s → s.q ≠ [] →
      c.npackets.toNat < n + b →
      ∃ b' q ctx es, b ≤ b' ∧ (flush c usr2 clock n j cur s).2 = { s with q := q, ctx := ctx, entries := es } ∧
        Core c ds quiet A R b' m { s with q := q, ctx := ctx, entries := es } ∧
        (flush c usr2 clock n j cur s).1 ≠ .stuck ∧
        ((flush c usr2 clock n j cur s).1 = .more → q ≠ []) ∧
        ((flush c usr2 clock n j cur s).1 = .over → b' = c.npackets.toNat ∧ q = []) ∧
        ((flush c usr2 clock n j cur s).1 = .more → ∀ x rest, q = x :: rest → x.sent = true →
          (quiet → ¬ total 1000000000 x.absolute + nanos c.timeout.toNat < total 1000000000 clock) ∧
          ((∀ j, usr2 j = true) → 0 < nanos c.timeout.toNat → False)) := by
  induction n with
  | zero =>
    intro j cur s b _ h hne hlt
    have := h.queue.fits
    omega
  | succ n ih =>
    intro j cur s b hcur h hne hlt
    obtain ⟨x, rest, hq⟩ : ∃ x rest, s.q = x :: rest := by
      cases hs : s.q with
      | nil => exact (hne hs).elim
      | cons x rest => exact ⟨x, rest, rfl⟩
    have hQ := h.queue
    rw [hq] at hQ
    obtain ⟨⟨h1, h2⟩, h4⟩ := hQ.chain
    have hfit := hQ.fits
    simp only [List.length_cons] at hfit
    have hx := h.nodes x (by rw [hq]; simp)
    rw [flush]
    simp only [hq]
    obtain ⟨cur', hc'⟩ : ∃ cur', cur' = if usr2 j = true then
        tsAdd (tsAdd ⟨0, 0⟩ (tsAdd (tsAdd ⟨0, 0⟩ x.absolute) (toTimespec c.timeout.toNat))) (toTimespec c.timeout.toNat) else cur := ⟨_, rfl⟩
    rw [← hc']
    have hcq : quiet → cur' = clock := by
      intro hh
      rw [hc', hu hh j]
      simpa using hcur hh
    have hto := nanos_eq c.timeout.toNat c.timeout.isLt
    have hex := (C60_timespec_arith x.absolute (toTimespec c.timeout.toNat) hx.norm hto.2).2.2.1
    rw [clear_add _ hx.norm]
    rw [clear_add _ hx.norm, clear_add _ hex.2] at hc'
    have hexp : quiet → (tsLt (tsAdd x.absolute (toTimespec c.timeout.toNat)) cur' = true ↔
        total 1000000000 x.absolute + nanos c.timeout.toNat < total 1000000000 clock) := by
      intro hh
      rw [hcq hh, (C60_timespec_arith _ clock hex.2 hclk).1, hex.1, hto.1]
    have huexp : usr2 j = true → 0 < nanos c.timeout.toNat → tsLt (tsAdd x.absolute (toTimespec c.timeout.toNat)) cur' = true := by
      intro hh hp
      rw [hc', if_pos hh]
      have h3 := (C60_timespec_arith (tsAdd x.absolute (toTimespec c.timeout.toNat)) (toTimespec c.timeout.toNat) hex.2 hto.2).2.2.1
      rw [(C60_timespec_arith _ _ hex.2 h3.2).1, h3.1, hto.1]
      omega
    split
    · rename_i hcond
      rw [Bool.and_eq_true] at hcond
      obtain ⟨hE, hsent⟩ := hcond
      have hE' : quiet → total 1000000000 x.absolute + nanos c.timeout.toNat < total 1000000000 clock := fun hh => (hexp hh).1 hE
      by_cases hhit : x.hit = true
      · rw [if_pos hhit]
        simp only
        obtain ⟨q, ctx, p1, p2, p3, p4⟩ := pop_spec c ds hlen b x rest s hq hQ
        rw [p1]
        simp only
        have hC := h.drop hq hhit hsent p2 p3 p4
        by_cases hqe : q = []
        · rw [if_pos hqe]
          exact ⟨b + 1, q, ctx, s.entries, by omega, rfl, hC, by simp, by simp, fun _ => ⟨p2.empty hqe, hqe⟩, by simp⟩
        · rw [if_neg hqe]
          obtain ⟨b', q', ctx', es', g1, g2, g3⟩ := ih (j + 1) cur' { s with q := q, ctx := ctx } (b + 1) hcq hC hqe (by omega)
          exact ⟨b', q', ctx', es', by omega, g2, g3⟩
      · have hhit' : x.hit = false := by simpa using hhit
        rw [if_neg hhit]
        cases hw : writeRec c (lostRec c x s.rtime) clock s with
        | none =>
          simp only
          exact ⟨b, s.q, s.ctx, s.entries, Nat.le_refl _, rfl, h, by simp, by simp, by simp, by simp⟩
        | some s1 =>
          have hs1 : s1 = { s with entries := s.entries ++ [⟨lostRec c x s.rtime, clock⟩] } := by
            unfold writeRec at hw
            split at hw
            · exact (Option.some.inj hw).symm
            · cases hw
          subst hs1
          simp only
          obtain ⟨q, ctx, p1, p2, p3, p4⟩ := pop_spec c ds hlen b x rest { s with entries := s.entries ++ [⟨lostRec c x s.rtime, clock⟩] } hq hQ
          rw [p1]
          simp only
          have hC := h.lose hq hhit' hsent p2 p3 p4 clock hR hE'
          by_cases hqe : q = []
          · rw [if_pos hqe]
            exact ⟨b + 1, q, ctx, _, by omega, rfl, hC, by simp, by simp, fun _ => ⟨p2.empty hqe, hqe⟩, by simp⟩
          · rw [if_neg hqe]
            obtain ⟨b', q', ctx', es', g1, g2, g3⟩ := ih (j + 1) cur'
              { s with q := q, ctx := ctx, entries := s.entries ++ [⟨lostRec c x s.rtime, clock⟩] } (b + 1) hcq hC hqe (by omega)
            exact ⟨b', q', ctx', es', by omega, g2, g3⟩
    · rename_i hcond
      refine ⟨b, s.q, s.ctx, s.entries, Nat.le_refl _, rfl, h, by simp, fun _ => hne, by simp, ?_⟩
      intro _ y rest' hy hsent
      rw [hq] at hy
      obtain ⟨rfl, rfl⟩ := List.cons.inj hy
      rw [Bool.and_eq_true] at hcond
      refine ⟨fun hh hlt => hcond ⟨(hexp hh).2 hlt, hsent⟩, fun hall hp => hcond ⟨huexp (hall j) hp, hsent⟩⟩

/-! ## Single changes of the state -/

section
variable {c : Cfg} {ds : List Nat} {quiet : Prop} {A : Tick → Prop} {R : TimeParts → Prop} {b m : Nat} {s : St}

theorem Core.congr (h : Core c ds quiet A R b m s) (s' : St) (h1 : s'.q = s.q) (h2 : s'.ctx = s.ctx) (h3 : s'.entries = s.entries)
    (h4 : s'.calls = s.calls) (h5 : s'.missed = s.missed) (h6 : s'.phase ≠ .dead → s.phase ≠ .dead) : Core c ds quiet A R b m s' := by
  refine ⟨by rw [h1, h2]; exact h.queue, h.bm, by rw [h1]; exact h.mq, ?_, by rw [h4, h5]; exact h.acct, by rw [h5]; exact h.unmissed,
    fun hd => by rw [h4]; exact h.unsent (h6 hd), by rw [h3, h5]; exact h.settled, by rw [h3]; exact h.nolost, by rw [h3]; exact h.nogot,
    by rw [h3]; exact h.asc, by rw [h3, h4]; exact h.good⟩
  rw [h1, h3, h4, h5]; exact h.nodes

theorem mem_mark {k : Nat} {f : Node → Node} {q : List Node} {n : Node} (h : n ∈ mark k f q) :
    ∃ x ∈ q, (x.seq = k ∧ n = f x) ∨ (x.seq ≠ k ∧ n = x) := by
  unfold mark at h
  rw [List.mem_map] at h
  obtain ⟨x, hx, rfl⟩ := h
  refine ⟨x, hx, ?_⟩
  by_cases hk : x.seq = k
  · rw [if_pos hk]; exact Or.inl ⟨hk, rfl⟩
  · rw [if_neg hk]; exact Or.inr ⟨hk, rfl⟩

theorem Queue.mark {q : List Node} {ctx : Sched.Ctx} (h : Queue c ds b q ctx) (k : Nat) (f : Node → Node)
    (hf : ∀ n, (f n).seq = n.seq ∧ (f n).relative = n.relative) : Queue c ds b (TwoWay.mark k f q) ctx := by
  refine h.map _ fun n => ?_
  split
  · exact hf n
  · exact ⟨rfl, rfl⟩

theorem mark_length (k : Nat) (f : Node → Node) (q : List Node) : (mark k f q).length = q.length := List.length_map ..

theorem mark_nil {k : Nat} {f : Node → Node} {q : List Node} : mark k f q = [] ↔ q = [] := List.map_eq_nil_iff

/-- A call that does not count as having handed the packet over, or that ends the process. -/
theorem Core.tried (h : Core c ds quiet A R b m s) (hd : s.phase ≠ .dead) (x : Call) (hx : x.seq = m) (p : Phase)
    (hp : x.res = .nobufs ∨ p = .dead) : Core c ds quiet A R b m { s with calls := s.calls ++ [x], phase := p } := by
  have keep : ∀ k, k < m → handed k (s.calls ++ [x]) = handed k s.calls := by
    intro k hk
    rw [handed_append, if_neg (fun e => by have := e.1; omega), List.append_nil]
  refine ⟨h.queue, h.bm, h.mq, ?_, ?_, h.unmissed, ?_, h.settled, h.nolost, h.nogot, h.asc, ?_⟩
  · intro n hn
    have k := h.nodes n hn
    refine ⟨k.sentLt, fun h1 h2 => ?_, fun h1 h2 => ?_, k.miss, k.abs, k.norm, k.hits⟩
    · obtain ⟨y, y1, y2⟩ := k.onAir h1 h2
      exact ⟨y, List.mem_append.2 (Or.inl y1), y2⟩
    · obtain ⟨y, y1, y2⟩ := k.cut h1 h2
      exact ⟨y, List.mem_append.2 (Or.inl y1), y2⟩
  · intro k hk
    have := h.acct k hk
    unfold Accounted at this ⊢
    rwa [keep k hk]
  · intro hd' k hk
    rcases hp with hp | hp
    · simp only
      rw [handed_append, if_neg (fun e => e.2 hp), List.append_nil]
      exact h.unsent hd k hk
    · exact (hd' hp).elim
  · intro e he
    rcases h.good e he with ⟨a1, a2, a3, y, y1, y2⟩ | g
    · exact Or.inl ⟨a1, a2, a3, y, List.mem_append.2 (Or.inl y1), y2⟩
    · exact Or.inr g

/-- A call that hands packet `m` over. `f` is what happens to its node. -/
theorem Core.sent (h : Core c ds quiet A R b m s) (hd : s.phase ≠ .dead) (x : Call) (hx : x.seq = m) (hm : m < b + s.q.length)
    (h1 : due c.begin ds m < total 1000000000 x.time) (h2 : total 1000000000 x.time ≤ due c.begin ds m + nanos c.timeout.toNat)
    (hnorm : 0 ≤ x.time.sub ∧ x.time.sub < 1000000000) (f : Node → Node) (p : Phase)
    (hf : (x.res = .intr ∧ f = id) ∨ (counted x ∧ f = fun n => { n with sent := true, absolute := x.time })) :
    Core c ds quiet A R b (m + 1) { s with calls := s.calls ++ [x], q := mark m f s.q, phase := p } := by
  have hfs : ∀ n, (f n).seq = n.seq ∧ (f n).relative = n.relative ∧ (f n).hit = n.hit := by
    rcases hf with ⟨_, hf⟩ | ⟨_, hf⟩ <;> rw [hf] <;> exact fun n => ⟨rfl, rfl, rfl⟩
  have hnb : x.res ≠ .nobufs := by
    rcases hf with ⟨hf, _⟩ | ⟨hf, _⟩
    · rw [hf]; decide
    · rcases hf with hf | hf <;> rw [hf] <;> decide
  have keep : ∀ k, k ≠ m → handed k (s.calls ++ [x]) = handed k s.calls := by
    intro k hk
    rw [handed_append, if_neg (fun e => hk (by rw [← hx]; exact e.1.symm)), List.append_nil]
  have hmm : m ∉ s.missed := h.unmissed m (Nat.le_refl _)
  have old : ∀ n ∈ s.q, n.seq ≠ m → NodeOk c ds (m + 1) s.missed (s.calls ++ [x]) s.entries n := by
    intro n hn hne
    have k := h.nodes n hn
    refine ⟨fun e => Nat.lt_succ_of_lt (k.sentLt e), fun e1 e2 => ?_, fun e1 e2 => ?_, k.miss, k.abs, k.norm, k.hits⟩
    · obtain ⟨y, y1, y2⟩ := k.onAir e1 e2
      exact ⟨y, List.mem_append.2 (Or.inl y1), y2⟩
    · obtain ⟨y, y1, y2⟩ := k.cut e1 (by omega)
      exact ⟨y, List.mem_append.2 (Or.inl y1), y2⟩
  refine ⟨h.queue.mark m f (fun n => ⟨(hfs n).1, (hfs n).2.1⟩), by have := h.bm; omega, by simp only [mark_length]; omega, ?_, ?_,
    fun k hk => h.unmissed k (by omega), ?_, h.settled, h.nolost, fun k hk => h.nogot k (by omega), h.asc, ?_⟩
  · intro n hn
    obtain ⟨y, hy, ⟨hs, rfl⟩ | ⟨hs, rfl⟩⟩ := mem_mark hn
    · have k := h.nodes y hy
      have hns : y.sent = false := by
        cases hc : y.sent with
        | false => rfl
        | true => have := k.sentLt hc; omega
      have hnh : y.seq ∉ s.missed := by rw [hs]; exact hmm
      rcases hf with ⟨hf1, rfl⟩ | ⟨hf1, rfl⟩
      · simp only [id_eq]
        refine ⟨fun e => by omega, fun e => (by rw [hns] at e; cases e), fun _ _ => ⟨x, by simp, by omega, hf1⟩, fun e => (hnh e).elim, k.abs, k.norm, k.hits⟩
      · refine ⟨fun _ => by simp only; omega, fun _ _ => ⟨x, by simp, by simp only; omega, hf1, rfl⟩, fun e => (by cases e), fun e => (hnh e).elim,
          fun e => ?_, hnorm, k.hits⟩
        rcases e with e | e
        · cases e
        · exact (hnh e).elim
    · exact old _ hy hs
  · intro k hk
    rcases Nat.lt_succ_iff_lt_or_eq.1 hk with hk | hk
    · have := h.acct k hk
      unfold Accounted at this ⊢
      simp only
      rwa [keep k (by omega)]
    · subst hk
      refine Or.inl ⟨x, ?_, h1, h2, hmm⟩
      simp only
      rw [handed_append, if_pos ⟨hx, hnb⟩, h.unsent hd _ (Nat.le_refl _)]; rfl
  · intro _ k hk
    simp only
    rw [keep k (by omega)]
    exact h.unsent hd k (by omega)
  · intro e he
    rcases h.good e he with ⟨a1, a2, a3, y, y1, y2⟩ | g
    · exact Or.inl ⟨a1, a2, a3, y, List.mem_append.2 (Or.inl y1), y2⟩
    · exact Or.inr g

/-- Skipping packet `m`. -/
theorem Core.skip (h : Core c ds quiet A R b m s) (hd : s.phase ≠ .dead) (hm : m < b + s.q.length) (cur : TimeParts) :
    Core c ds quiet A R b (m + 1)
      { s with q := mark m (fun n => { n with sent := true, hit := true }) s.q, cur := cur, missed := s.missed ++ [m] } := by
  refine ⟨h.queue.mark m _ (fun n => ⟨rfl, rfl⟩), by have := h.bm; omega, by simp only [mark_length]; omega, ?_, ?_, ?_,
    fun hd k hk => h.unsent hd k (by omega), ?_, h.nolost, fun k hk => h.nogot k (by omega), h.asc, h.good⟩
  · intro n hn
    obtain ⟨y, hy, ⟨hs, rfl⟩ | ⟨hs, rfl⟩⟩ := mem_mark hn
    · have k := h.nodes y hy
      have hns : y.sent = false := by
        cases hc : y.sent with
        | false => rfl
        | true => have := k.sentLt hc; omega
      have hin : y.seq ∈ s.missed ++ [m] := by rw [hs]; simp
      refine ⟨fun _ => by simp only; omega, fun _ e => (e hin).elim, fun e => (by cases e), fun _ => ⟨rfl, rfl⟩, fun _ => k.abs (Or.inl hns), k.norm,
        ⟨fun _ => Or.inr hin, fun _ => rfl⟩⟩
    · have k := h.nodes _ hy
      have hiff : n.seq ∈ s.missed ++ [m] ↔ n.seq ∈ s.missed := by simp [hs]
      refine ⟨fun e => Nat.lt_succ_of_lt (k.sentLt e), fun e1 e2 => k.onAir e1 (fun z => e2 (hiff.2 z)), fun e1 e2 => k.cut e1 (by omega),
        fun e => k.miss (hiff.1 e), fun e => k.abs (e.imp_right hiff.1), k.norm, ?_⟩
      simp only [hiff]
      exact k.hits
  · intro k hk
    rcases Nat.lt_succ_iff_lt_or_eq.1 hk with hk | hk
    · rcases h.acct k hk with ⟨x, a1, a2, a3, a4⟩ | ⟨a1, a2⟩
      · refine Or.inl ⟨x, a1, a2, a3, ?_⟩
        simp only [List.mem_append, List.mem_singleton]
        rintro (e | e)
        · exact a4 e
        · omega
      · exact Or.inr ⟨a1, List.mem_append.2 (Or.inl a2)⟩
    · subst hk
      exact Or.inr ⟨h.unsent hd _ (Nat.le_refl _), by simp⟩
  · intro k hk e
    simp only [List.mem_append, List.mem_singleton] at e
    rcases e with e | e
    · exact h.unmissed k (by omega) e
    · omega
  · intro k hk
    rcases h.settled k hk with e | e
    · exact Or.inl e
    · exact Or.inr ⟨List.mem_append.2 (Or.inl e.1), e.2⟩

/-- Recording a reply. -/
theorem Core.record (h : Core c ds quiet A R b m s) (e : Entry) (hb : b ≤ e.data.sent.seq.toNat) (hm : e.data.sent.seq.toNat < m)
    (hl : noReply e = false) (hg : ∃ t, A t ∧ R e.now ∧ Genuine c t e) :
    Core c ds quiet A R b m
      { s with entries := s.entries ++ [e], q := mark e.data.sent.seq.toNat (fun n => { n with hit := true }) s.q } := by
  have lsame : ∀ k, lostFor k (s.entries ++ [e]) = lostFor k s.entries := by
    intro k
    rw [lostFor_append, if_neg (by simp [hl]), List.append_nil]
  have gsame : ∀ k, k ≠ e.data.sent.seq.toNat → gotFor k (s.entries ++ [e]) = gotFor k s.entries := by
    intro k hk
    rw [gotFor_append, if_neg (fun x => hk x.1.symm), List.append_nil]
  refine ⟨h.queue.mark _ _ (fun n => ⟨rfl, rfl⟩), h.bm, by simp only [mark_length]; exact h.mq, ?_, h.acct, h.unmissed, h.unsent, ?_, ?_, ?_, ?_, ?_⟩
  · intro n hn
    obtain ⟨y, hy, ⟨hs, rfl⟩ | ⟨hs, rfl⟩⟩ := mem_mark hn
    · have k := h.nodes y hy
      refine ⟨k.sentLt, k.onAir, k.cut, fun z => ⟨(k.miss z).1, rfl⟩, k.abs, k.norm, ⟨fun _ => Or.inl ?_, fun _ => rfl⟩⟩
      simp only [hs]
      rw [gotFor_append, if_pos ⟨rfl, hl⟩]
      simp
    · have k := h.nodes _ hy
      refine ⟨k.sentLt, k.onAir, k.cut, k.miss, k.abs, k.norm, ?_⟩
      simp only [gsame _ hs]
      exact k.hits
  · intro k hk
    unfold OneVerdict
    simp only [lsame, gsame k (by omega)]
    exact h.settled k hk
  · intro k hk
    simp only [lsame]
    exact h.nolost k hk
  · intro k hk
    simp only [gsame k (by omega)]
    exact h.nogot k hk
  · simp only
    rw [List.filter_append, List.filter_cons, hl]
    simpa using h.asc
  · intro x hx
    rcases List.mem_append.1 hx with hx | hx
    · exact h.good x hx
    · simp only [List.mem_singleton] at hx
      subst hx
      exact Or.inr ⟨hl, hg⟩

/-! ## The loop -/

/-- What holds of the variables in the phases. -/
structure PhaseOk (c : Cfg) (ds : List Nat) (b m : Nat) (s : St) : Prop where
  sending : s.phase = .sending → s.i = m ∧ m < b + s.q.length ∧ s.next = dueAt c (rel ds m)
  receiving : s.phase = .receiving → s.i + 1 = m
  full : s.phase = .sending ∨ s.phase = .receiving ∨ (s.phase = .finish ∧ s.rc = some 0) → s.q ≠ []
  defined : s.phase ≠ .undef

def Inv (c : Cfg) (ds : List Nat) (quiet : Prop) (A : Tick → Prop) (R : TimeParts → Prop) (b m : Nat) (s : St) : Prop :=
  Core c ds quiet A R b m s ∧ PhaseOk c ds b m s

/-- The invariant, and: if the pass was not disturbed, the loop ends only when all packets have been sent or skipped. -/
def Next (c : Cfg) (ds : List Nat) (quiet : Prop) (A : Tick → Prop) (R : TimeParts → Prop) (calm : Prop) (b m : Nat) (s : St) : Prop :=
  Inv c ds quiet A R b m s ∧ (calm → s.phase = .finish → m = c.npackets.toNat)

theorem Next.go {calm : Prop} (h : Inv c ds quiet A R b m s) (hp : s.phase ≠ .finish) : Next c ds quiet A R calm b m s :=
  ⟨h, fun _ e => (hp e).elim⟩

/-- Leaving the loop. -/
theorem Inv.leave (h : Core c ds quiet A R b m s) (hd : s.phase ≠ .dead) (hne : s.q ≠ []) (s' : St) (h1 : s'.q = s.q) (h2 : s'.ctx = s.ctx)
    (h3 : s'.entries = s.entries) (h4 : s'.calls = s.calls) (h5 : s'.missed = s.missed)
    (h6 : s'.phase = .finish ∨ s'.phase = .dead ∨ s'.phase = .error) : Inv c ds quiet A R b m s' := by
  refine ⟨h.congr s' h1 h2 h3 h4 h5 (fun _ => hd), ⟨fun e => ?_, fun e => ?_, fun _ => by rw [h1]; exact hne, fun e => ?_⟩⟩ <;>
    (rcases h6 with h6 | h6 | h6 <;> rw [h6] at e <;> cases e)

theorem prep_spec (hlen : ds.length = c.npackets.toNat) (h : Core c ds quiet A R b m s) (hd : s.phase ≠ .dead) (hne : s.q ≠ []) (hi : s.i = m)
    (hm : m < c.npackets.toNat) :
    Inv c ds quiet A R b m (prep c s) ∧ (prep c s).phase = .sending := by
  obtain ⟨x, rest, hq⟩ : ∃ x rest, s.q = x :: rest := by
    cases hs : s.q with
    | nil => exact (hne hs).elim
    | cons x rest => exact ⟨x, rest, rfl⟩
  have hc := h.queue.chain
  rw [hq] at hc
  have hxb : x.seq = b := hc.1.1
  have hbm := h.bm
  obtain ⟨new, ctx', r1, r2, r3, r4, _, _⟩ := reach_spec c ds hlen b m s.q s.ctx h.queue hne hm
  obtain ⟨n, f1, f2, f3, f4⟩ := chain_find ds _ b m r3.chain hbm r4
  have he : prep c s = { s with q := s.q ++ new, ctx := ctx', next := dueAt c n.relative, phase := .sending } := by
    unfold prep
    simp only [hq]
    rw [if_neg (by omega), ← hq, hi, r1]
    simp only
    rw [f1]
  rw [he]
  refine ⟨⟨(h.grow r2 r3).congr _ rfl rfl rfl rfl rfl (fun _ => hd), ⟨fun _ => ⟨hi, r4, by rw [f4]⟩, fun e => (by cases e), fun _ => ?_, by simp⟩⟩, rfl⟩
  simp [hne]

theorem advance_spec (hlen : ds.length = c.npackets.toNat) (h : Core c ds quiet A R b m s) (hd : s.phase ≠ .dead) (hne : s.q ≠ []) (hi : s.i + 1 = m) :
    Inv c ds quiet A R b m (advance c s) ∧
      (((advance c s).phase = .sending ∧ m < c.npackets.toNat) ∨ ((advance c s).phase = .finish ∧ m = c.npackets.toNat)) := by
  have hmn : m ≤ c.npackets.toNat := Nat.le_trans h.mq h.queue.fits
  have hlt := c.npackets.isLt
  have hmod : (s.i + 1) % 2 ^ 32 = s.i + 1 := Nat.mod_eq_of_lt (by omega)
  simp only [advance, hmod]
  split
  · have hp := prep_spec (s := { s with i := s.i + 1 }) hlen (h.congr _ rfl rfl rfl rfl rfl (fun e => e)) hd hne hi (by omega)
    exact ⟨hp.1, Or.inl ⟨hp.2, by omega⟩⟩
  · exact ⟨Inv.leave h hd hne _ rfl rfl rfl rfl rfl (Or.inl rfl), Or.inr ⟨rfl, by omega⟩⟩

theorem advance_of {calm : Prop} (hlen : ds.length = c.npackets.toNat) (h : Core c ds quiet A R b m s) (hd : s.phase ≠ .dead) (hne : s.q ≠ []) (s' : St)
    (h1 : s'.q = s.q) (h2 : s'.ctx = s.ctx) (h3 : s'.entries = s.entries) (h4 : s'.calls = s.calls) (h5 : s'.missed = s.missed)
    (h6 : s'.phase = s.phase) (hi : s'.i + 1 = m) : Next c ds quiet A R calm b m (advance c s') := by
  have := advance_spec hlen (h.congr s' h1 h2 h3 h4 h5 (fun _ => hd)) (by rw [h6]; exact hd) (by rw [h1]; exact hne) hi
  refine ⟨this.1, fun _ e => ?_⟩
  rcases this.2 with ⟨e', _⟩ | ⟨_, e'⟩
  · rw [e'] at e; cases e
  · exact e'

end

/-- A clock reading the run may use. -/
def Clocked (R : TimeParts → Prop) (r : Sender.Reading) : Prop := R r.time ∧ Spec.Receiver.GoodClock r

section
variable {c : Cfg} {ds : List Nat} {quiet : Prop} {A : Tick → Prop} {R : TimeParts → Prop} {b m : Nat} {s : St} {calm : Prop}

theorem due_total (hst : 0 ≤ c.begin.sub ∧ c.begin.sub < 1000000000) (k : Nat) :
    total 1000000000 (dueAt c (rel ds k)) = due c.begin ds k ∧ 0 ≤ (dueAt c (rel ds k)).sub ∧ (dueAt c (rel ds k)).sub < 1000000000 := by
  have hn := nanos_eq (rel ds k) (Nat.mod_lt _ (by decide))
  have ha := (C60_timespec_arith (toTimespec (rel ds k)) c.begin hn.2 hst).2.2.1
  refine ⟨?_, ha.2⟩
  unfold dueAt
  rw [ha.1, hn.1, due, rel]
  omega

theorem transmit_spec (hlen : ds.length = c.npackets.toNat) (h : Inv c ds quiet A R b m s) (hs : s.phase = .sending) (t : Tick) (r : Sender.Reading)
    (hr : Clocked R r) (h1 : due c.begin ds m < total 1000000000 r.time)
    (h2 : total 1000000000 r.time ≤ due c.begin ds m + nanos c.timeout.toNat) (hcalm : calm → t.stop2 = false) :
    ∃ m', m ≤ m' ∧ Next c ds quiet A R calm b m' (transmit c t r s) := by
  have hd : s.phase ≠ .dead := by rw [hs]; decide
  obtain ⟨hi, hmq, hnx⟩ := h.2.sending hs
  have hne := h.2.full (Or.inl hs)
  simp only [transmit]
  split
  · exact ⟨m, Nat.le_refl _, Next.go (Inv.leave h.1 hd hne _ rfl rfl rfl rfl rfl (Or.inr (Or.inl rfl))) (by simp)⟩
  · rename_i pkt _
    split
    · rename_i hst2
      exact ⟨m, Nat.le_refl _, Inv.leave h.1 hd hne _ rfl rfl rfl rfl rfl (Or.inl rfl), fun hc _ => (by rw [hcalm hc] at hst2; cases hst2)⟩
    · obtain ⟨x, hx⟩ : ∃ x : Call, x = ⟨s.i, r.time, pkt, t.send⟩ := ⟨_, rfl⟩
      have hxs : x.seq = m := by rw [hx]; exact hi
      have hxt : x.time = r.time := by rw [hx]
      have hxr : x.res = t.send := by rw [hx]
      rw [← hx]
      cases hsend : t.send with
      | nobufs =>
        have := h.1.tried hd x hxs .sending (Or.inl (by rw [hxr, hsend]))
        exact ⟨m, Nat.le_refl _, Next.go ⟨this.congr _ rfl rfl rfl rfl rfl (fun _ => by simp),
          ⟨fun _ => ⟨hi, hmq, hnx⟩, fun e => h.2.receiving e, fun _ => hne, by simp only; rw [hs]; decide⟩⟩ (by simp only; rw [hs]; decide)⟩
      | fatal =>
        have := h.1.tried hd x hxs .dead (Or.inr rfl)
        exact ⟨m, Nat.le_refl _, Next.go ⟨this.congr _ rfl rfl rfl rfl rfl (fun e => e), ⟨fun e => (by cases e), fun e => (by cases e), fun _ => hne, by simp⟩⟩ (by simp)⟩
      | intr =>
        have := h.1.sent hd x hxs hmq (by rw [hxt]; exact h1) (by rw [hxt]; exact h2) (by rw [hxt]; exact ⟨hr.2.1, hr.2.2.1⟩) id s.phase
          (Or.inl ⟨by rw [hxr, hsend], rfl⟩)
        have hmark : mark m id s.q = s.q := by
          unfold mark
          rw [List.map_congr_left (g := id) (fun n _ => by simp), List.map_id]
        simp only [hmark] at this
        simp only
        exact ⟨m + 1, Nat.le_succ _, advance_of hlen this hd hne _ rfl rfl rfl rfl rfl rfl (by simp only; omega)⟩
      | ok =>
        have := h.1.sent hd x hxs hmq (by rw [hxt]; exact h1) (by rw [hxt]; exact h2) (by rw [hxt]; exact ⟨hr.2.1, hr.2.2.1⟩) _ .receiving
          (Or.inr ⟨Or.inl (by rw [hxr, hsend]), rfl⟩)
        simp only [hi]
        refine ⟨m + 1, Nat.le_succ _, Next.go ⟨this.congr _ (by simp only [hxt]) rfl rfl rfl rfl (fun _ => by simp), ⟨fun e => (by cases e), fun _ => by simp only, fun _ => ?_, by simp⟩⟩ (by simp)⟩
        simp only [Ne, mark_nil]; exact hne
      | other =>
        have := h.1.sent hd x hxs hmq (by rw [hxt]; exact h1) (by rw [hxt]; exact h2) (by rw [hxt]; exact ⟨hr.2.1, hr.2.2.1⟩) _ .receiving
          (Or.inr ⟨Or.inr (by rw [hxr, hsend]), rfl⟩)
        simp only [hi]
        refine ⟨m + 1, Nat.le_succ _, Next.go ⟨this.congr _ (by simp only [hxt]) rfl rfl rfl rfl (fun _ => by simp), ⟨fun e => (by cases e), fun _ => by simp only, fun _ => ?_, by simp⟩⟩ (by simp)⟩
        simp only [Ne, mark_nil]; exact hne

theorem sendTurn_spec (hlen : ds.length = c.npackets.toNat) (hst : 0 ≤ c.begin.sub ∧ c.begin.sub < 1000000000)
    (h : Inv c ds quiet A R b m s) (hs : s.phase = .sending) (t : Tick)
    (hr : ∀ r, t.clock = some r → Clocked R r) (hcalm : calm → Undisturbed c s t) :
    ∃ m', m ≤ m' ∧ Next c ds quiet A R calm b m' (sendTurn c t s) := by
  have hd : s.phase ≠ .dead := by rw [hs]; decide
  obtain ⟨hi, hmq, hnx⟩ := h.2.sending hs
  have hne := h.2.full (Or.inl hs)
  unfold sendTurn
  split
  · rename_i hst1
    exact ⟨m, Nat.le_refl _, Inv.leave h.1 hd hne _ rfl rfl rfl rfl rfl (Or.inl rfl), fun hc _ => (by rw [(hcalm hc).1] at hst1; cases hst1)⟩
  · cases hc : t.clock with
    | none => exact ⟨m, Nat.le_refl _, Next.go (Inv.leave h.1 hd hne _ rfl rfl rfl rfl rfl (Or.inr (Or.inl rfl))) (by simp)⟩
    | some r =>
      have hr := hr r hc
      have hto := nanos_eq c.timeout.toNat c.timeout.isLt
      have hdt := due_total (ds := ds) hst m
      rw [← hnx] at hdt
      have hl := (C60_timespec_arith (toTimespec c.timeout.toNat) s.next hto.2 hdt.2).2.2.1
      have hg1 := (C60_timespec_arith r.time s.next ⟨hr.2.1, hr.2.2.1⟩ hdt.2).2.1
      have hg2 := (C60_timespec_arith r.time (tsAdd (toTimespec c.timeout.toNat) s.next) ⟨hr.2.1, hr.2.2.1⟩ hl.2).2.1
      rw [hl.1, hto.1, hdt.1] at hg2
      rw [hdt.1] at hg1
      simp only
      split
      · rename_i h1
        rw [hg1] at h1
        split
        · have := h.1.skip hd hmq r.time
          refine ⟨m + 1, Nat.le_succ _, advance_of hlen this hd ?_ _ (by simp only [hi]) rfl rfl rfl (by simp only [hi]) rfl (by simp only; omega)⟩
          simp only [Ne, mark_nil]; exact hne
        · rename_i h2
          rw [hg2] at h2
          exact transmit_spec hlen h hs t r hr h1 (Int.add_comm .. ▸ Int.not_lt.1 h2) (fun hc => (hcalm hc).2.1)
      · split
        · exact ⟨m, Nat.le_refl _, Next.go ⟨h.1.congr _ rfl rfl rfl rfl rfl (fun e => e), ⟨fun _ => ⟨hi, hmq, hnx⟩, fun e => h.2.receiving e, fun _ => hne, h.2.defined⟩⟩
            (by simp only; rw [hs]; decide)⟩
        · exact ⟨m, Nat.le_refl _, Next.go (Inv.leave h.1 hd hne _ rfl rfl rfl rfl rfl (Or.inr (Or.inl rfl))) (by simp)⟩

/-- The record of a reply is genuine. -/
theorem replyRec_genuine (t : Tick) (r : Sender.Reading) (peer bytes : Bytes) (ttl : Byte) (i : Bool) (P : Bytes) (rtime : TimeStamp)
    (hgot : t.got = .dgram peer bytes ttl i) (hclk : t.clock = some r) (hlen : twPayloadSize c.fmt 0 ≤ (bytes.take (respLen c)).length)
    (hP : openReply c.H c.fmt c.ep (bytes.take (respLen c)) = .plain P) (hrt : rtime.owptime = stampOf r.time) (hsy : rtime.sync = r.sync)
    (v1 : (readReply c.fmt P).sndErr.valid = true) (v2 : (readReply c.fmt P).err.valid = true) :
    Genuine c t ⟨replyRec (readReply c.fmt P) rtime ttl, r.time⟩ := by
  rw [List.length_take] at hlen
  exact ⟨peer, bytes, ttl, i, r, P, hgot, hclk, by omega, hP, rfl, rfl, rfl, rfl, hrt, hsy, rfl, v1, v2⟩

theorem encodeErr_some (t : TimeStamp) (h : t.multiplier ≠ 0) : ∃ b, encodeErrEstimate t = some b := by
  unfold encodeErrEstimate
  rw [if_neg h]
  exact ⟨_, rfl⟩

theorem encodeRec_some (r : DataRec) (h1 : r.send.multiplier ≠ 0) (h2 : r.recv.multiplier ≠ 0) : ∃ b, encodeDataRec r = some b := by
  obtain ⟨b1, e1⟩ := encodeErr_some _ h1
  obtain ⟨b2, e2⟩ := encodeErr_some _ h2
  unfold encodeDataRec
  rw [e1, e2]
  exact ⟨_, rfl⟩

/-- The decoder calls an estimate valid exactly when its multiplier is not 0. -/
theorem readReply_mult (f : Fmt) (P : Bytes) :
    ((readReply f P).sndErr.valid = true → (readReply f P).sndErr.multiplier ≠ 0) ∧
    ((readReply f P).err.valid = true → (readReply f P).err.multiplier ≠ 0) := by
  unfold readReply decodeErrEstimate
  cases f <;> simp

theorem replyRec_encodes (r : Reply) (rtime : TimeStamp) (ttl : Byte) (h1 : r.sndErr.valid = true → r.sndErr.multiplier ≠ 0)
    (h2 : r.err.valid = true → r.err.multiplier ≠ 0) (v1 : r.sndErr.valid = true) (v2 : r.err.valid = true) (hm : rtime.multiplier ≠ 0) :
    (encodeTWDataRec (replyRec r rtime ttl)).isSome = true := by
  obtain ⟨b1, e1⟩ := encodeRec_some (replyRec r rtime ttl).sent (h1 v1) (h2 v2)
  obtain ⟨b2, e2⟩ := encodeRec_some (replyRec r rtime ttl).reflected (h2 v2) hm
  unfold encodeTWDataRec
  rw [e1, e2]
  rfl

theorem judge_spec (hlen : ds.length = c.npackets.toNat) (h : Inv c ds quiet A R b m s) (hs : s.phase = .receiving) (P : Bytes) (ttl : Byte)
    (now : TimeParts)
    (hg : (readReply c.fmt P).sndErr.valid = true → (readReply c.fmt P).err.valid = true →
      noReply ⟨replyRec (readReply c.fmt P) s.rtime ttl, now⟩ = false ∧
      ∃ t, A t ∧ R now ∧ Genuine c t ⟨replyRec (readReply c.fmt P) s.rtime ttl, now⟩)
    (hmul : s.rtime.multiplier ≠ 0)
    (hcalm : calm → (∀ l r, c.write l r = true) ∧ (readReply c.fmt P).sndSeq.toNat ≤ s.i ∧ (readReply c.fmt P).sndErr.valid = true ∧
      (readReply c.fmt P).err.valid = true) :
    Next c ds quiet A R calm b m (judge c P ttl now s) := by
  have hd : s.phase ≠ .dead := by rw [hs]; decide
  have hi := h.2.receiving hs
  have hne := h.2.full (Or.inr (Or.inl hs))
  obtain ⟨x, rest, hq⟩ : ∃ x rest, s.q = x :: rest := by
    cases hs : s.q with
    | nil => exact (hne hs).elim
    | cons x rest => exact ⟨x, rest, rfl⟩
  have hc := h.1.queue.chain
  rw [hq] at hc
  have hxb : x.seq = b := hc.1.1
  unfold judge
  simp only
  split
  · rename_i hsi
    exact ⟨Inv.leave h.1 hd hne _ rfl rfl rfl rfl rfl (Or.inl rfl), fun hc _ => by have := (hcalm hc).2.1; omega⟩
  · rename_i hsi
    simp only [hq]
    split
    · exact Next.go h (by rw [hs]; decide)
    · rename_i hsb
      split
      · rename_i hv1
        exact ⟨Inv.leave h.1 hd hne _ (by simp [hq]) rfl rfl rfl rfl (Or.inl rfl), fun hc _ => by rw [(hcalm hc).2.2.1] at hv1; cases hv1⟩
      · rename_i hv1
        split
        · rename_i hv2
          exact ⟨Inv.leave h.1 hd hne _ (by simp [hq]) rfl rfl rfl rfl (Or.inl rfl), fun hc _ => by rw [(hcalm hc).2.2.2] at hv2; cases hv2⟩
        · rename_i hv2
          obtain ⟨hl, hgen⟩ := hg (by simpa using hv1) (by simpa using hv2)
          cases hw : writeRec c (replyRec (readReply c.fmt P) s.rtime ttl) now s with
          | none =>
            refine ⟨Inv.leave h.1 hd hne _ (by simp [hq]) rfl rfl rfl rfl (Or.inl rfl), fun hc _ => ?_⟩
            have hen := replyRec_encodes (readReply c.fmt P) s.rtime ttl (readReply_mult c.fmt P).1 (readReply_mult c.fmt P).2 (by simpa using hv1) (by simpa using hv2) hmul
            rw [writeRec, hen, (hcalm hc).1, if_pos (show (true && true) = true from rfl)] at hw
            cases hw
          | some s1 =>
            have hs1 : s1 = { s with entries := s.entries ++ [⟨replyRec (readReply c.fmt P) s.rtime ttl, now⟩] } := by
              unfold writeRec at hw
              split at hw
              · exact (Option.some.inj hw).symm
              · cases hw
            subst hs1
            obtain ⟨k, hk⟩ : ∃ k, k = (readReply c.fmt P).sndSeq.toNat := ⟨_, rfl⟩
            have hmq := h.1.mq
            obtain ⟨new, ctx', r1, r2, r3, r4, _, r6⟩ := reach_spec c ds hlen b k s.q s.ctx h.1.queue hne
              (by have := h.1.queue.fits; omega)
            have hnew := r6 (by omega)
            subst hnew
            rw [← hk]
            simp only
            rw [r1]
            simp only [List.append_nil]
            have := (h.1.grow r2 r3).record ⟨replyRec (readReply c.fmt P) s.rtime ttl, now⟩ (by simp only [replyRec]; omega) (by simp only [replyRec]; omega) hl hgen
            refine Next.go ⟨this.congr _ (by simp only [hk, List.append_nil]; rfl) rfl rfl rfl rfl (fun e => e), ⟨fun e => ?_, fun _ => hi, fun _ => ?_, ?_⟩⟩
              (by simp only; rw [hs]; decide)
            · simp only at e; rw [hs] at e; cases e
            · simp only [Ne, mark_nil]; exact hne
            · simp only; rw [hs]; decide

/-- The state after a flush. -/
theorem stampFlush_spec (hlen : ds.length = c.npackets.toNat) (h : Core c ds quiet A R b m s) (hne : s.q ≠ []) (usr2 : Nat → Bool)
    (hu : quiet → ∀ j, usr2 j = false) (r : Sender.Reading) (hr : Clocked R r) :
    ∃ b' q ctx es, b ≤ b' ∧ (stampFlush c usr2 r s).2 = { s with q := q, ctx := ctx, entries := es, cur := r.time, rtime := { timespecToTimestamp s.rtime r.time (some r.err) none with sync := r.sync } } ∧
      Core c ds quiet A R b' m (stampFlush c usr2 r s).2 ∧
      (stampFlush c usr2 r s).1 ≠ .stuck ∧
      ((stampFlush c usr2 r s).1 = .more → q ≠ []) ∧
      ((stampFlush c usr2 r s).1 = .over → b' = c.npackets.toNat ∧ q = []) ∧
      ((stampFlush c usr2 r s).1 = .more → ∀ x rest, q = x :: rest → x.sent = true →
        (quiet → ¬ total 1000000000 x.absolute + nanos c.timeout.toNat < total 1000000000 r.time) ∧
        ((∀ j, usr2 j = true) → 0 < nanos c.timeout.toNat → False)) := by
  obtain ⟨b', q, ctx, es, g1, g2, g3, g4, g5, g6, g7⟩ := flush_spec c ds hlen quiet A R usr2 hu r.time hr.1 ⟨hr.2.1, hr.2.2.1⟩ m (c.npackets.toNat + 1) 0 r.time
    { s with rtime := { timespecToTimestamp s.rtime r.time (some r.err) none with sync := r.sync }, cur := r.time } b (fun _ => rfl)
    (h.congr _ rfl rfl rfl rfl rfl (fun e => e)) hne (by omega)
  refine ⟨b', q, ctx, es, g1, ?_, ?_, g4, g5, g6, g7⟩
  · unfold stampFlush
    simp only
    rw [g2]
  · unfold stampFlush
    simp only
    rw [g2]
    exact g3

theorem stamp_time (old : TimeStamp) (r : Sender.Reading) :
    ({ timespecToTimestamp old r.time (some r.err) none with sync := r.sync } : TimeStamp).owptime = stampOf r.time := by
  simp only [timespecToTimestamp, stampOf]
  split <;> (apply BitVec.eq_of_toNat_eq; simp [add, u64, epoch, ulongToNum64, jan1970])

theorem stamp_mult (old : TimeStamp) (r : Sender.Reading) :
    ({ timespecToTimestamp old r.time (some r.err) none with sync := r.sync } : TimeStamp).multiplier ≠ 0 := by
  have h := (errShift_spec (usecToNum64 r.err) 0).1
  by_cases he : r.err = 0
  · simp [timespecToTimestamp, he]
  · simp only [timespecToTimestamp, ne_eq, he, not_false_eq_true, if_true, reduceCtorEq]
    generalize (errShift (usecToNum64 r.err) 0).1 = x at *
    intro e
    have e := congrArg BitVec.toNat e
    rw [show (0xFF &&& (x + 1)) = (x + 1) % 2 ^ 8 by rw [Nat.and_comm]; exact Nat.and_two_pow_sub_one_eq_mod (x + 1) 8, BitVec.toNat_ofNat] at e
    simp at e
    omega

theorem examine_spec (hlen : ds.length = c.npackets.toNat) (h : Inv c ds quiet A R b m s) (hs : s.phase = .receiving) (t : Tick) (hA : A t) (r : Sender.Reading)
    (hclk : t.clock = some r) (hr : Clocked R r) (hrt : s.rtime.owptime = stampOf r.time) (hsy : s.rtime.sync = r.sync)
    (hmul : s.rtime.multiplier ≠ 0) (hcalm : calm → (∀ l r, c.write l r = true) ∧ Undisturbed c s t) :
    Next c ds quiet A R calm b m (examine c (taken c t.got) r.time s) := by
  have hd : s.phase ≠ .dead := by rw [hs]; decide
  have hi := h.2.receiving hs
  have hne := h.2.full (Or.inr (Or.inl hs))
  have adv : Next c ds quiet A R calm b m (advance c s) := advance_of hlen h.1 hd hne s rfl rfl rfl rfl rfl rfl hi
  cases hgot : t.got with
  | fail e => exact adv
  | dgram peer bytes ttl i =>
    simp only [taken, examine]
    split
    · exact adv
    · rename_i hl
      cases hP : openReply c.H c.fmt c.ep (bytes.take (respLen c)) with
      | wrongKey => exact adv
      | badDigest => exact adv
      | plain P =>
        simp only
        refine judge_spec hlen h hs P ttl r.time (fun v1 v2 => ⟨?_, t, hA, hr.1,
          replyRec_genuine t r peer bytes ttl i P s.rtime hgot hclk (by omega) hP hrt hsy v1 v2⟩) hmul
          (fun hc => ⟨(hcalm hc).1, (((hcalm hc).2.2.2 hs).2.2.2.2 peer bytes ttl i hgot).2 P hP⟩)
        simp only [noReply, replyRec, hrt]
        exact decide_eq_false hr.2.2.2

/-- A datagram of the wrong size ends an undisturbed pass only with `EINTR`. -/
theorem sizes_of (c : Cfg) (t : Tick) (s : St) (hs : s.phase = .receiving) (h : Undisturbed c s t) {P : Prop}
    (hx : ((taken c t.got).all (fun g => g.1.length ≠ respLen c) && !t.got.eintr) = true) : P := by
  exfalso
  obtain ⟨_, _, _, h4, h5⟩ := h.2.2 hs
  cases hg : t.got with
  | fail e =>
    rw [hg] at hx
    have := h4 e hg
    subst this
    simp [Got.eintr] at hx
  | dgram peer bytes ttl e =>
    rw [hg] at hx
    rcases (h5 peer bytes ttl e hg).1 with h | h
    · simp [taken, Got.eintr] at hx
      omega
    · subst h
      simp [Got.eintr] at hx

theorem _root_.Owamp.Spec.TwoWay.Undisturbed.of_state {c : Cfg} {s s' : St} {t : Tick} (h : Undisturbed c s t) (h1 : s'.phase = s.phase) (h2 : s'.i = s.i) :
    Undisturbed c s' t := by
  unfold Undisturbed
  rw [h1, h2]
  exact h

theorem receive_spec (hlen : ds.length = c.npackets.toNat) (h : Inv c ds quiet A R b m s) (hs : s.phase = .receiving) (t : Tick) (hA : A t)
    (hu : quiet → ∀ j, t.usr2 j = false) (hr : ∀ r, t.clock = some r → Clocked R r)
    (hcalm : calm → (∀ l r, c.write l r = true) ∧ Undisturbed c s t) :
    ∃ b', b ≤ b' ∧ Next c ds quiet A R calm b' m (receive c t s) := by
  have hd : s.phase ≠ .dead := by rw [hs]; decide
  have hi := h.2.receiving hs
  have hne := h.2.full (Or.inr (Or.inl hs))
  unfold receive
  split
  · rename_i hx; exact ⟨b, Nat.le_refl _, Inv.leave h.1 hd hne _ rfl rfl rfl rfl rfl (Or.inl rfl), fun hc _ => (by rw [((hcalm hc).2.2.2 hs).1] at hx; cases hx)⟩
  · simp only
    split
    · rename_i hx; exact ⟨b, Nat.le_refl _, Inv.leave h.1 hd hne _ rfl rfl rfl rfl rfl (Or.inl rfl), fun hc _ => sizes_of c t s hs (hcalm hc).2 hx⟩
    · split
      · rename_i hx; exact ⟨b, Nat.le_refl _, Inv.leave h.1 hd hne _ rfl rfl rfl rfl rfl (Or.inl rfl), fun hc _ => (by rw [(hcalm hc).2.2.1] at hx; cases hx)⟩
      · cases hc' : t.clock with
        | none => exact ⟨b, Nat.le_refl _, Inv.leave h.1 hd hne _ rfl rfl rfl rfl rfl (Or.inl rfl), fun hc _ => (by have := ((hcalm hc).2.2.2 hs).2.2.1; rw [hc'] at this; cases this)⟩
        | some r =>
          simp only
          split
          · rename_i hx; exact ⟨b, Nat.le_refl _, Inv.leave h.1 hd hne _ rfl rfl rfl rfl rfl (Or.inl rfl), fun hc _ => (by rw [((hcalm hc).2.2.2 hs).2.1] at hx; cases hx)⟩
          · obtain ⟨S, hS⟩ : ∃ S : St, S = { s with buf := (t.left ++ s.buf).take s.buf.length } := ⟨_, rfl⟩
            rw [← hS]
            have hcS : Core c ds quiet A R b m S := h.1.congr S (by rw [hS]) (by rw [hS]) (by rw [hS]) (by rw [hS]) (by rw [hS]) (fun _ => hd)
            have hneS : S.q ≠ [] := by rw [hS]; exact hne
            have hpS : S.phase = .receiving := by rw [hS]; exact hs
            have hiS : S.i + 1 = m := by rw [hS]; exact hi
            obtain ⟨b', q, ctx, es, g1, g2, g3, g4, g5, g6, _⟩ := stampFlush_spec hlen hcS hneS t.usr2 hu r (hr r hc')
            obtain ⟨Y, hY⟩ : ∃ Y, Y = (stampFlush c t.usr2 r S).2 := ⟨_, rfl⟩
            rw [← hY] at g2 g3 ⊢
            have hpY : Y.phase = .receiving := by rw [g2]; exact hpS
            have hdY : Y.phase ≠ .dead := by rw [hpY]; decide
            have hiY : Y.i + 1 = m := by rw [g2]; exact hiS
            refine ⟨b', g1, ?_⟩
            cases hf : (stampFlush c t.usr2 r S).1 with
            | stuck => exact (g4 hf).elim
            | error =>
              simp only
              refine Next.go ⟨g3.congr _ rfl rfl rfl rfl rfl (fun _ => hdY), ⟨fun e => (by cases e), fun e => (by cases e), fun e => ?_, by simp⟩⟩ (by simp)
              rcases e with e | e | ⟨e, _⟩ <;> cases e
            | over =>
              simp only
              refine ⟨⟨g3.congr _ rfl rfl rfl rfl rfl (fun _ => hdY), ⟨fun e => (by cases e), fun e => (by cases e), fun e => ?_, by simp⟩⟩, fun _ _ => ?_⟩
              · rcases e with e | e | ⟨_, e⟩ <;> cases e
              · have h1 := g3.bm
                have h2 := g3.mq
                have h3 := g3.queue.fits
                have h4 := (g6 hf).1
                omega
            | more =>
              simp only
              have hqY : Y.q ≠ [] := by rw [g2]; exact g5 hf
              have hI : Inv c ds quiet A R b' m { Y with rc := some 0 } :=
                ⟨g3.congr _ rfl rfl rfl rfl rfl (fun e => e), ⟨fun e => (by simp only at e; rw [hpY] at e; cases e), fun _ => hiY, fun _ => hqY,
                  by simp only; rw [hpY]; decide⟩⟩
              exact examine_spec hlen hI hpY t hA r hc' (hr r hc') (by simp only; rw [g2]; exact stamp_time _ r) (by simp only; rw [g2])
                (by simp only; rw [g2]; exact stamp_mult _ r) (fun hc => ⟨(hcalm hc).1, ((hcalm hc).2).of_state (by simp only; rw [hpY, hs]) (by simp only; omega)⟩)

end

section
variable {c : Cfg} {ds : List Nat} {quiet : Prop} {A : Tick → Prop} {R : TimeParts → Prop} {b m : Nat} {s : St} {calm : Prop}

theorem recvTurn_spec (hlen : ds.length = c.npackets.toNat) (h : Inv c ds quiet A R b m s) (hs : s.phase = .receiving) (t : Tick) (hA : A t)
    (hu : quiet → ∀ j, t.usr2 j = false) (hr : ∀ r, t.clock = some r → Clocked R r)
    (hcalm : calm → (∀ l r, c.write l r = true) ∧ Undisturbed c s t) :
    ∃ b', b ≤ b' ∧ Next c ds quiet A R calm b' m (recvTurn c t s) := by
  have hd : s.phase ≠ .dead := by rw [hs]; decide
  have hi := h.2.receiving hs
  have hne := h.2.full (Or.inr (Or.inl hs))
  unfold recvTurn
  split
  · rename_i hx
    exact ⟨b, Nat.le_refl _, Inv.leave h.1 hd hne _ rfl rfl rfl rfl rfl (Or.inl rfl), fun hc _ => (by rw [(hcalm hc).2.1] at hx; cases hx)⟩
  · split
    · rename_i hin
      obtain ⟨new, ctx', r1, r2, r3, r4, _, _⟩ := reach_spec c ds hlen b (s.i + 1) s.q s.ctx h.1.queue hne (by omega)
      obtain ⟨n, f1, f2, f3, f4⟩ := chain_find ds _ b (s.i + 1) r3.chain (by have := h.1.bm; omega) r4
      rw [r1]
      simp only [f1]
      have hC := h.1.grow r2 r3
      have hneN : s.q ++ new ≠ [] := by simp [hne]
      split
      · exact ⟨b, Nat.le_refl _, advance_of hlen hC hd hneN _ rfl rfl rfl rfl rfl rfl hi⟩
      · split
        · exact ⟨b, Nat.le_refl _, advance_of hlen hC hd hneN _ rfl rfl rfl rfl rfl rfl hi⟩
        · have hI : Inv c ds quiet A R b m { s with q := s.q ++ new, ctx := ctx', next := dueAt c n.relative } := by
            refine ⟨hC.congr _ rfl rfl rfl rfl rfl (fun e => e), ⟨fun e => ?_, fun _ => hi, fun _ => hneN, ?_⟩⟩
            · simp only at e; rw [hs] at e; cases e
            · simp only; rw [hs]; decide
          exact receive_spec hlen hI hs t hA hu hr (fun hc => ⟨(hcalm hc).1, ((hcalm hc).2).of_state rfl rfl⟩)
    · exact receive_spec hlen h hs t hA hu hr hcalm

/-- What the passes of a run are given. -/
def Fits (quiet : Prop) (A : Tick → Prop) (R : TimeParts → Prop) (t : Tick) : Prop :=
  A t ∧ (quiet → ∀ j, t.usr2 j = false) ∧ ∀ r, t.clock = some r → Clocked R r

theorem step_spec (hlen : ds.length = c.npackets.toNat) (hst : 0 ≤ c.begin.sub ∧ c.begin.sub < 1000000000)
    (h : Next c ds quiet A R calm b m s) (t : Tick) (ht : Fits quiet A R t)
    (hcalm : calm → (∀ l r, c.write l r = true) ∧ Undisturbed c s t) :
    ∃ b' m', b ≤ b' ∧ m ≤ m' ∧ Next c ds quiet A R calm b' m' (step c s t) := by
  unfold step
  split
  · rename_i hs
    obtain ⟨m', h1, h2⟩ := sendTurn_spec hlen hst h.1 hs t ht.2.2 (fun hc => (hcalm hc).2)
    exact ⟨b, m', Nat.le_refl _, h1, h2⟩
  · rename_i hs
    obtain ⟨b', h1, h2⟩ := recvTurn_spec hlen h.1 hs t ht.1 ht.2.1 ht.2.2 hcalm
    exact ⟨b', m, h1, Nat.le_refl _, h2⟩
  · exact ⟨b, m, Nat.le_refl _, Nat.le_refl _, h⟩

theorem run_spec (hlen : ds.length = c.npackets.toNat) (hst : 0 ≤ c.begin.sub ∧ c.begin.sub < 1000000000) (ts : List Tick) :
    ∀ (b m : Nat) (s : St), Next c ds quiet A R calm b m s → (∀ t ∈ ts, Fits quiet A R t) →
    (calm → (∀ l r, c.write l r = true) ∧ ∀ pre t post, ts = pre ++ t :: post → Undisturbed c (run c s pre) t) →
    ∃ b' m', b ≤ b' ∧ m ≤ m' ∧ Next c ds quiet A R calm b' m' (run c s ts) := by
  induction ts with
  | nil => intro b m s h _ _; exact ⟨b, m, Nat.le_refl _, Nat.le_refl _, h⟩
  | cons t ts ih =>
    intro b m s h ht hcalm
    obtain ⟨b1, m1, a1, a2, a3⟩ := step_spec hlen hst h t (ht t (by simp)) (fun hc => ⟨(hcalm hc).1, (hcalm hc).2 [] t ts rfl⟩)
    obtain ⟨b2, m2, c1, c2, c3⟩ := ih b1 m1 (step c s t) a3 (fun t' h' => ht t' (by simp [h']))
      (fun hc => ⟨(hcalm hc).1, fun pre t' post e => (hcalm hc).2 (t :: pre) t' post (by rw [e]; rfl)⟩)
    exact ⟨b2, m2, by omega, by omega, c3⟩

end

theorem init_spec (c : Cfg) (quiet : Prop) (A : Tick → Prop) (R : TimeParts → Prop) (sid : Bytes) (slots : List Sched.Slot) (c0 : Sched.Ctx)
    (hc : Sched.create sid ⟨c.npackets, slots⟩ = some c0) (ops : List Sched.Op) (buf : Bytes) (stamp rtime : TimeStamp) (ds : List Nat)
    (hds : Sched.deltas c.E c.npackets.toNat c0 = ds.map Except.ok) (hlen : ds.length = c.npackets.toNat) :
    Inv c ds quiet A R 0 0 (init c (Sched.run c.E c0 ops) buf stamp rtime) ∧
      (0 < c.npackets.toNat → (init c (Sched.run c.E c0 ops) buf stamp rtime).phase = .sending) := by
  have hnil : ∀ k : Nat, lostFor k [] = [] ∧ gotFor k [] = [] := fun k => ⟨rfl, rfl⟩
  unfold init
  rw [C06_reset_restores c.E sid _ c0 hc ops]
  simp only
  split
  · rename_i hn
    have hn : c.npackets.toNat = 0 := by simpa using hn
    refine ⟨⟨⟨⟨trivial, by simp, fun _ => hn.symm, fun hh => (hh rfl).elim⟩, Nat.le_refl _, by simp, by simp, fun k hk => (Nat.not_lt_zero k hk).elim,
      fun k _ => by simp, fun _ k _ => rfl, fun k hk => (Nat.not_lt_zero k hk).elim, fun k _ => (hnil k).1, fun k _ => (hnil k).2, by simp, by simp⟩,
      ⟨fun e => (by cases e), fun e => (by cases e), fun e => ?_, by simp⟩⟩, fun h => by omega⟩
    rcases e with e | e | ⟨e, _⟩ <;> cases e
  · rename_i hn
    have hn : c.npackets.toNat ≠ 0 := by simpa using hn
    obtain ⟨k, hk⟩ : ∃ m, c.npackets.toNat = m + 1 := ⟨c.npackets.toNat - 1, by omega⟩
    obtain ⟨d0, ds', hdd⟩ : ∃ d0 ds', ds = d0 :: ds' := by
      cases ds with
      | nil => simp at hlen; omega
      | cons d0 ds' => exact ⟨d0, ds', rfl⟩
    have hd' := hds
    rw [hk, hdd] at hd'
    simp only [Sched.deltas, List.map_cons, List.cons.injEq] at hd'
    simp only [hd'.1]
    have hd0 : d0 < 2 ^ 64 := Recv.nextDelta_lt _ _ _ hd'.1
    have hrel : rel ds 0 = d0 := by
      rw [rel, hdd]
      simp only [Nat.zero_add, List.take_succ_cons, List.take_zero, List.sum_cons, List.sum_nil, Nat.add_zero]
      exact Nat.mod_eq_of_lt hd0
    have hfr : Fresh c ds ⟨0, false, false, d0, absOf c d0⟩ := ⟨rfl, rfl, by simp only [hrel]⟩
    have hC : Core c ds quiet A R 0 0 { phase := .sending, i := 0, ctx := (Sched.nextDelta c.E c0).2, q := [⟨0, false, false, d0, absOf c d0⟩], cur := ⟨0, 0⟩, next := ⟨0, 0⟩, stamp := stamp, last := 0, rtime := rtime, rc := none, buf := buf, entries := [], calls := [], missed := [] } := by
      refine ⟨⟨⟨⟨rfl, hrel.symm⟩, trivial⟩, by simp; omega, by simp, fun _ => ?_⟩, Nat.le_refl _, by simp, ?_, fun k hk => (Nat.not_lt_zero k hk).elim,
        fun k _ => by simp, fun _ k _ => rfl, fun k hk => (Nat.not_lt_zero k hk).elim, fun k _ => (hnil k).1, fun k _ => (hnil k).2, by simp, by simp⟩
      · simp only [List.length_cons, List.length_nil]
        rw [show c.npackets.toNat - (0 + (0 + 1)) = k by omega, hdd]
        exact hd'.2
      · intro n hn'
        simp only [List.mem_singleton] at hn'
        subst hn'
        exact hfr.ok (Nat.le_refl _) (fun k _ => by simp) (fun k _ => (hnil k).2)
    have := prep_spec hlen hC (by simp) (by simp) rfl (by omega)
    exact ⟨this.1, fun _ => this.2⟩

end Owamp.TwoWay
