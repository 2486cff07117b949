import Verif.Spec.Stats
import Verif.Spec.Receiver
import Verif.Lemmas.DataFile
import Verif.Props.Schedule
/-!
# Lemmas about summaries: the window of packets
-/
namespace Owamp.Stats
open Owamp.Num64 Owamp.Codec Owamp.Spec.Stats

/-- The time reached by the schedule after `m` delays. -/
def tm (c : Cfg) (ds : List Nat) (m : Nat) : Nat := (c.start.toNat + (ds.take m).sum) % 2 ^ 64

theorem tm_sched (c : Cfg) (ds : List Nat) (k : Nat) : tm c ds (k + 1) = Spec.Receiver.schedTime c.start.toNat ds k := rfl

theorem tm_zero (c : Cfg) (ds : List Nat) : tm c ds 0 = c.start.toNat := by
  simp [tm, Nat.mod_eq_of_lt c.start.isLt]

theorem tm_succ (c : Cfg) (ds : List Nat) (m d : Nat) (h : ds[m]? = some d) : tm c ds (m + 1) = add (tm c ds m) d := by
  unfold tm add u64
  have : ds.take (m + 1) = ds.take m ++ [d] := by
    rw [List.take_add_one, h]; rfl
  rw [this, List.sum_append, List.sum_singleton, Nat.mod_add_mod, Nat.add_assoc]

/-! ## The schedule -/

structure Clock (c : Cfg) (c0 : Sched.Ctx) (ds : List Nat) (m : Nat) (s : St) : Prop where
  idx : s.isctx = m
  time : s.endnum = tm c ds m
  used : ∃ ops, s.ctx = Sched.run c.E c0 ops
  rest : Sched.deltas c.E (ds.length - m) s.ctx = (ds.drop m).map .ok
  le : m ≤ ds.length

theorem Clock.next {c : Cfg} {c0 : Sched.Ctx} {ds : List Nat} {m : Nat} {s : St} (h : Clock c c0 ds m s) (hm : m < ds.length) :
    ∃ d, (Sched.nextDelta c.E s.ctx).1 = .ok d ∧ add s.endnum d = tm c ds (m + 1) ∧
      ∀ s' : St, s'.ctx = (Sched.nextDelta c.E s.ctx).2 → s'.isctx = s.isctx + 1 → s'.endnum = add s.endnum d →
        Clock c c0 ds (m + 1) s' := by
  have hr := h.rest
  rw [show ds.length - m = (ds.length - (m + 1)) + 1 by omega, Sched.deltas, List.drop_eq_getElem_cons hm, List.map_cons] at hr
  have h1 := (List.cons.inj hr).1
  have h2 := (List.cons.inj hr).2
  have h3 : add s.endnum ds[m] = tm c ds (m + 1) := by
    rw [h.time]; exact (tm_succ c ds m _ (List.getElem?_eq_getElem hm)).symm
  refine ⟨_, h1, h3, ?_⟩
  intro s' e1 e2 e3
  obtain ⟨ops, ho⟩ := h.used
  refine ⟨by rw [e2, h.idx], by rw [e3, h3], ⟨ops ++ [.next], ?_⟩, by rw [e1]; exact h2, hm⟩
  rw [e1, ho, Sched.run, Sched.run, List.foldl_append]
  rfl

/-! ## What does not change -/

/-- The object without what moving the window changes. -/
def strip (x : Sched.Ctx) (s : St) : St :=
  { s with ctx := x, isctx := 0, endnum := 0, nodes := [], iskip := 0, lost := 0, dups := 0, endTime := 0 }

def Same (s s' : St) : Prop := ∀ x, strip x s' = strip x s

theorem Same.rfl' (s : St) : Same s s := fun _ => rfl
theorem Same.trans {a b c : St} (h : Same a b) (h' : Same b c) : Same a c := fun x => (h' x).trans (h x)
theorem Same.first {s s' : St} (h : Same s s') : s'.first = s.first := by
  have := congrArg St.first (h s.ctx); exact this
theorem Same.last {s s' : St} (h : Same s s') : s'.last = s.last := by
  have := congrArg St.last (h s.ctx); exact this
theorem Same.sent {s s' : St} (h : Same s s') : s'.sent = s.sent := by
  have := congrArg St.sent (h s.ctx); exact this

/-! ## The window -/

def Chain (c : Cfg) (ds : List Nat) : Nat → List Node → Prop
  | _, [] => True
  | k, n :: q => (n.seq = k ∧ n.sched = tm c ds (k + 1)) ∧ Chain c ds (k + 1) q

theorem chain_append (c : Cfg) (ds : List Nat) (q r : List Node) (k : Nat) :
    Chain c ds k (q ++ r) ↔ Chain c ds k q ∧ Chain c ds (k + q.length) r := by
  induction q generalizing k with
  | nil => simp [Chain]
  | cons n q ih =>
    simp only [List.cons_append, Chain, ih, List.length_cons, and_assoc]
    rw [show k + 1 + q.length = k + (q.length + 1) by omega]

theorem chain_mem (c : Cfg) (ds : List Nat) (q : List Node) (k : Nat) (h : Chain c ds k q) (n : Node) (hn : n ∈ q) :
    k ≤ n.seq ∧ n.seq < k + q.length ∧ n.sched = tm c ds (n.seq + 1) := by
  induction q generalizing k with
  | nil => simp at hn
  | cons x q ih =>
    obtain ⟨⟨h1, h2⟩, h4⟩ := h
    rcases List.mem_cons.1 hn with e | e
    · subst e
      simp only [List.length_cons]
      refine ⟨by omega, by omega, by rw [h2, h1]⟩
    · have := ih _ h4 e
      simp only [List.length_cons]
      exact ⟨by omega, by omega, this.2.2⟩

theorem chain_find (c : Cfg) (ds : List Nat) (q : List Node) (k seq : Nat) (h : Chain c ds k q) (h1 : k ≤ seq) (h2 : seq < k + q.length) :
    ∃ n, q.find? (fun n => n.seq = seq) = some n ∧ n ∈ q ∧ n.seq = seq := by
  induction q generalizing k with
  | nil => simp at h2; omega
  | cons x q ih =>
    obtain ⟨⟨a1, a2⟩, a4⟩ := h
    by_cases hx : x.seq = seq
    · exact ⟨x, by simp [hx], by simp, hx⟩
    · obtain ⟨n, n1, n2, n3⟩ := ih (k + 1) a4 (by omega) (by simp only [List.length_cons] at h2; omega)
      exact ⟨n, by simp [hx, n1], by simp [n2], n3⟩

theorem chain_inj (c : Cfg) (ds : List Nat) (q : List Node) (k : Nat) (h : Chain c ds k q) (n m : Node) (hn : n ∈ q) (hm : m ∈ q)
    (he : n.seq = m.seq) : n = m := by
  induction q generalizing k with
  | nil => simp at hn
  | cons x q ih =>
    obtain ⟨⟨a1, a2⟩, a4⟩ := h
    rcases List.mem_cons.1 hn with e | e <;> rcases List.mem_cons.1 hm with e' | e'
    · rw [e, e']
    · have := (chain_mem c ds q _ a4 m e').1; subst e; omega
    · have := (chain_mem c ds q _ a4 n e).1; subst e'; omega
    · exact ih _ a4 e e'

theorem chain_last (c : Cfg) (ds : List Nat) (q : List Node) (k : Nat) (h : Chain c ds k q) (hne : q ≠ []) :
    ∃ e, q.getLast? = some e ∧ e ∈ q ∧ e.seq + 1 = k + q.length := by
  obtain ⟨a, e, rfl⟩ : ∃ a e, q = a ++ [e] := by
    rcases List.eq_nil_or_concat q with h | ⟨a, e, h⟩
    · exact (hne h).elim
    · exact ⟨a, e, by rw [h]; simp⟩
  rw [chain_append] at h
  refine ⟨e, by simp, by simp, ?_⟩
  have := h.2.1.1
  simp only [List.length_append, List.length_singleton]
  omega

/-- The window is `[b, b + length)` and the schedule has been followed up to its end. -/
structure Win (c : Cfg) (c0 : Sched.Ctx) (ds : List Nat) (b : Nat) (s : St) : Prop where
  clock : Clock c c0 ds (b + s.nodes.length) s
  chain : Chain c ds b s.nodes
  ne : s.nodes ≠ []
  lo : s.first ≤ b
  fits : b + s.nodes.length ≤ s.last
  all : s.last ≤ ds.length

theorem grow_spec (c : Cfg) (c0 : Sched.Ctx) (ds : List Nat) (b n : Nat) :
    ∀ s : St, Win c c0 ds b s → b + s.nodes.length + n ≤ s.last →
      ∃ s' new, grow c n s = .ok s' ∧ Win c c0 ds b s' ∧ s'.nodes = s.nodes ++ new ∧ new.length = n ∧ Same s s' ∧
        (∀ x ∈ new, x.seen = 0 ∧ x.lost = false) ∧ s'.iskip = s.iskip ∧ s'.lost = s.lost ∧ s'.dups = s.dups := by
  induction n with
  | zero => intro s h _; exact ⟨s, [], rfl, h, by simp, rfl, Same.rfl' s, by simp, rfl, rfl, rfl⟩
  | succ n ih =>
    intro s h hle
    obtain ⟨e, e1, e2, e3⟩ := chain_last c ds s.nodes b h.chain h.ne
    have hall := h.all
    obtain ⟨d, d1, d2, d3⟩ := h.clock.next (by omega)
    obtain ⟨s1, hs1⟩ : ∃ s1 : St, s1 = { s with ctx := (Sched.nextDelta c.E s.ctx).2, isctx := s.isctx + 1, endnum := add s.endnum d
                                                nodes := s.nodes ++ [⟨e.seq + 1, add s.endnum d, 0, false⟩] } := ⟨_, rfl⟩
    have hn1 : s1.nodes = s.nodes ++ [⟨e.seq + 1, add s.endnum d, 0, false⟩] := by rw [hs1]
    have hl1 : s1.nodes.length = s.nodes.length + 1 := by rw [hn1]; simp
    have hsame : Same s s1 := by rw [hs1]; exact fun _ => rfl
    have hw : Win c c0 ds b s1 := by
      refine ⟨?_, ?_, by rw [hn1]; simp, by rw [hs1]; exact h.lo, by rw [hl1, hsame.last]; omega, by rw [hsame.last]; exact h.all⟩
      · rw [hl1]; exact d3 s1 (by rw [hs1]) (by rw [hs1]) (by rw [hs1])
      · rw [hn1, chain_append]
        refine ⟨h.chain, ⟨e3, ?_⟩, trivial⟩
        exact d2
    obtain ⟨s', new, r1, r2, r3, r4, r5, r6, r7, r8, r9⟩ := ih s1 hw (by rw [hl1, hsame.last]; omega)
    refine ⟨s', ⟨e.seq + 1, add s.endnum d, 0, false⟩ :: new, ?_, r2, by rw [r3, hn1]; simp, by simp [r4], hsame.trans r5, ?_,
      by rw [r7, hs1], by rw [r8, hs1], by rw [r9, hs1]⟩
    · rw [grow, e1]
      dsimp only
      rw [if_neg (by rw [h.clock.idx]; omega), d1]
      dsimp only
      rw [if_neg (by omega), ← hs1]
      exact r1
    · intro x hx
      rcases List.mem_cons.1 hx with hx | hx
      · rw [hx]; exact ⟨rfl, rfl⟩
      · exact r6 x hx

theorem packetGet_spec (c : Cfg) (c0 : Sched.Ctx) (ds : List Nat) (b seq : Nat) (s : St) (h : Win c c0 ds b s)
    (h1 : s.first ≤ seq) (h2 : seq < s.last) :
    (seq < b → packetGet c seq s = .error .refused) ∧
    (b ≤ seq → ∃ n s' new, packetGet c seq s = .ok (n, s') ∧ Win c c0 ds b s' ∧ s'.nodes = s.nodes ++ new ∧ n ∈ s'.nodes ∧
      n.seq = seq ∧ Same s s' ∧ (∀ x ∈ new, x.seen = 0 ∧ x.lost = false) ∧ s'.iskip = s.iskip ∧ s'.lost = s.lost ∧ s'.dups = s.dups ∧
      (seq = b + s.nodes.length → new.length = 1)) := by
  obtain ⟨e, e1, e2, e3⟩ := chain_last c ds s.nodes b h.chain h.ne
  obtain ⟨f, q, hf⟩ : ∃ f q, s.nodes = f :: q := by
    cases hq : s.nodes with
    | nil => exact (h.ne hq).elim
    | cons f q => exact ⟨f, q, rfl⟩
  have hb : f.seq = b := by have := h.chain; rw [hf] at this; exact this.1.1
  have hhead : s.nodes.head? = some f := by rw [hf]; rfl
  have hlen : 0 < s.nodes.length := by rw [hf]; simp
  unfold packetGet
  rw [hhead, e1]
  dsimp only
  constructor
  · intro hlt
    rw [if_neg (by omega), if_neg (by omega), if_neg (by omega), if_pos (by omega)]
  · intro hge
    by_cases c1 : seq = e.seq
    · rw [if_pos c1]
      exact ⟨e, s, [], rfl, h, by simp, e2, c1.symm, Same.rfl' s, by simp, rfl, rfl, rfl, by omega⟩
    · rw [if_neg c1, if_neg (by omega)]
      by_cases c2 : seq > e.seq
      · rw [if_pos c2]
        obtain ⟨s', new, r1, r2, r3, r4, r5, r6, r7, r8, r9⟩ := grow_spec c c0 ds b (seq - e.seq) s h (by omega)
        obtain ⟨x, x1, x2, x3⟩ := chain_last c ds s'.nodes b r2.chain r2.ne
        rw [r1]
        dsimp only
        rw [x1]
        refine ⟨x, s', new, rfl, r2, r3, x2, ?_, r5, r6, r7, r8, r9, by omega⟩
        rw [r3, List.length_append, r4] at x3
        omega
      · rw [if_neg c2, if_neg (by omega)]
        obtain ⟨n, n1, n2, n3⟩ := chain_find c ds s.nodes b seq h.chain hge (by omega)
        have n1' : s.nodes.find? (·.seq = seq) = some n := n1
        rw [n1']
        exact ⟨n, s, [], rfl, h, by simp, n2, n3, Same.rfl' s, by simp, rfl, rfl, rfl, by omega⟩

/-! ## Counting packets -/

theorem packets_succ (n : Nat) (p : Nat → Bool) : packets (n + 1) p = packets n p + (if p n then 1 else 0) := by
  simp [packets, List.range_succ, List.countP_append, List.countP_cons]

theorem packets_congr (n : Nat) (p q : Nat → Bool) (h : ∀ k, k < n → p k = q k) : packets n p = packets n q := by
  induction n with
  | zero => rfl
  | succ n ih => rw [packets_succ, packets_succ, ih (fun k hk => h k (by omega)), h n (by omega)]

theorem packets_le (n : Nat) (p : Nat → Bool) : packets n p ≤ n := by
  have := List.countP_le_length (p := p) (l := List.range n)
  simpa [packets] using this

theorem packets_point (n m : Nat) (p q : Nat → Bool) (hm : m < n) (h : ∀ k, k ≠ m → q k = p k) (hp : p m = false) (hq : q m = true) :
    packets n q = packets n p + 1 := by
  induction n with
  | zero => omega
  | succ n ih =>
    rw [packets_succ, packets_succ]
    by_cases e : m = n
    · subst e
      rw [hp, hq, packets_congr m q p (fun k hk => h k (by omega))]
      simp
    · rw [ih (by omega), h n (fun e' => e e'.symm)]
      omega

theorem sum_point (l : List DataRec) (n : Nat) :
    ((List.range n).map fun k => l.countP fun r => r.seq.toNat = k).sum ≤ l.length := by
  induction l with
  | nil =>
    induction n with
    | zero => simp
    | succ n ih => simpa [List.range_succ] using ih
  | cons r l ih =>
    have : ∀ n, ((List.range n).map fun k => (r :: l).countP fun r => r.seq.toNat = k).sum =
        ((List.range n).map fun k => l.countP fun r => r.seq.toNat = k).sum + (if r.seq.toNat < n then 1 else 0) := by
      intro n
      induction n with
      | zero => simp
      | succ n ih2 =>
        rw [List.range_succ, List.map_append, List.map_append, List.sum_append, List.sum_append, ih2]
        simp only [List.map_cons, List.map_nil, List.sum_cons, List.sum_nil, List.countP_cons, decide_eq_true_eq]
        split <;> split <;> split <;> omega
    rw [this, List.length_cons]
    split <;> omega

theorem dups_le (n : Nat) (C : List DataRec) : duplicates n C ≤ (arrivals C).length := by
  refine Nat.le_trans ?_ (sum_point (arrivals C) n)
  unfold duplicates copies
  induction n with
  | zero => simp
  | succ n ih =>
    simp only [List.range_succ, List.map_append, List.sum_append, List.map_cons, List.map_nil, List.sum_cons, List.sum_nil]
    omega

theorem dups_succ (n : Nat) (C : List DataRec) : duplicates (n + 1) C = duplicates n C + (copies C n - 1) := by
  simp [duplicates, List.range_succ, List.sum_append]

theorem arrivals_append (C : List DataRec) (r : DataRec) :
    arrivals (C ++ [r]) = arrivals C ++ (if Lost r then [] else [r]) := by
  by_cases h : Lost r <;> simp [arrivals, List.filter_append, h]

theorem copies_append (C : List DataRec) (r : DataRec) (k : Nat) :
    copies (C ++ [r]) k = copies C k + (if ¬ Lost r ∧ r.seq.toNat = k then 1 else 0) := by
  unfold copies
  rw [arrivals_append]
  by_cases h : Lost r <;> by_cases h2 : r.seq.toNat = k <;> simp [h, h2, List.countP_append]

theorem losses_append (C : List DataRec) (r : DataRec) (k : Nat) :
    losses (C ++ [r]) k = losses C k + (if Lost r ∧ r.seq.toNat = k then 1 else 0) := by
  unfold losses
  by_cases h : Lost r <;> by_cases h2 : r.seq.toNat = k <;> simp [h, h2, List.countP_append]

theorem counted_append (skips : List Skip) (f l : Nat) (D : List DataRec) (r : DataRec) :
    counted skips f l (D ++ [r]) = counted skips f l D ++ (if Within f l r ∧ ¬ Skipped skips r.seq.toNat then [r] else []) := by
  by_cases h : Within f l r ∧ ¬ Skipped skips r.seq.toNat
  · rw [if_pos h]; simp [counted, List.filter_append, h]
  · rw [if_neg h]
    simp only [counted, List.filter_append, List.filter_cons, List.filter_nil]
    rw [if_neg (by simpa using h)]

theorem counted_length (skips : List Skip) (f l : Nat) (D : List DataRec) : (counted skips f l D).length ≤ D.length :=
  List.length_filter_le _ _

theorem arrivals_length (D : List DataRec) : (arrivals D).length ≤ D.length := List.length_filter_le _ _

theorem copies_le (C : List DataRec) (k : Nat) : copies C k ≤ C.length :=
  Nat.le_trans List.countP_le_length (arrivals_length C)

theorem copies_ne (C : List DataRec) (k : Nat) : copies C k ≠ 0 ↔ ∃ r ∈ C, ¬ Lost r ∧ r.seq.toNat = k := by
  unfold copies arrivals
  rw [← Nat.pos_iff_ne_zero, List.countP_pos_iff]
  simp [and_assoc]

theorem losses_ne (C : List DataRec) (k : Nat) : losses C k ≠ 0 ↔ ∃ r ∈ C, Lost r ∧ r.seq.toNat = k := by
  unfold losses
  rw [← Nat.pos_iff_ne_zero, List.countP_pos_iff]
  simp

theorem mem_counted (skips : List Skip) (f l : Nat) (D : List DataRec) (r : DataRec) (h : r ∈ counted skips f l D) :
    r ∈ D ∧ Within f l r ∧ ¬ Skipped skips r.seq.toNat := by
  unfold counted at h
  rw [List.mem_filter] at h
  exact ⟨h.1, by simpa using h.2⟩

theorem counted_skip (skips : List Skip) (f l : Nat) (D : List DataRec) (k : Nat) (h : Skipped skips k) :
    copies (counted skips f l D) k = 0 ∧ losses (counted skips f l D) k = 0 := by
  constructor
  · apply Decidable.byContradiction
    intro hn
    obtain ⟨r, h1, _, h3⟩ := (copies_ne _ _).1 hn
    exact (mem_counted _ _ _ _ _ h1).2.2 (h3 ▸ h)
  · apply Decidable.byContradiction
    intro hn
    obtain ⟨r, h1, _, h3⟩ := (losses_ne _ _).1 hn
    exact (mem_counted _ _ _ _ _ h1).2.2 (h3 ▸ h)

/-! ## Skip ranges -/

theorem skipPast_spec (skips : List Skip) (seq : Nat) (n : Nat) : ∀ i, skips.length ≤ n + i →
    let j := skipPast skips seq n i
    i ≤ j ∧ (∀ m, i ≤ m → m < j → ∀ k, skips[m]? = some k → k.last.toNat < seq) ∧ (∀ k, skips[j]? = some k → seq ≤ k.last.toNat) := by
  induction n with
  | zero =>
    intro i hi
    refine ⟨Nat.le_refl _, fun m h1 h2 => ?_, fun k hk => ?_⟩
    · simp only [skipPast] at h2; omega
    · simp only [skipPast] at hk
      rw [List.getElem?_eq_none (by omega)] at hk; cases hk
  | succ n ih =>
    intro i hi
    simp only [skipPast]
    cases hs : skips[i]? with
    | none =>
      dsimp only
      exact ⟨Nat.le_refl _, fun m h1 h2 => by omega, fun k hk => by rw [hs] at hk; cases hk⟩
    | some x =>
      dsimp only
      by_cases hx : seq > x.last.toNat
      · rw [if_pos hx]
        obtain ⟨h1, h2, h3⟩ := ih (i + 1) (by omega)
        refine ⟨by omega, fun m m1 m2 k hk => ?_, h3⟩
        by_cases e : m = i
        · subst e; rw [hs] at hk; cases hk; exact hx
        · exact h2 m (by omega) m2 k hk
      · rw [if_neg hx]
        exact ⟨Nat.le_refl _, fun m h1 h2 => by omega, fun k hk => by rw [hs] at hk; cases hk; omega⟩

theorem skipped_iff (skips : List Skip) (i seq b : Nat) (hb : b ≤ seq)
    (h : ∀ m, m < i → ∀ k, skips[m]? = some k → k.last.toNat < b) : skipped skips i seq = true ↔ Skipped skips seq := by
  unfold skipped Skipped
  rw [List.any_eq_true]
  constructor
  · rintro ⟨k, h1, h2⟩
    simp only [Bool.and_eq_true, decide_eq_true_eq] at h2
    exact ⟨k, List.mem_of_mem_drop h1, h2⟩
  · rintro ⟨k, h1, h2⟩
    refine ⟨k, ?_, by simpa using h2⟩
    obtain ⟨m, hm, e⟩ := List.getElem_of_mem h1
    have : i ≤ m := by
      apply Decidable.byContradiction
      intro hn
      have := h m (by omega) k (by rw [List.getElem?_eq_getElem hm, e])
      omega
    rw [List.mem_iff_getElem]
    refine ⟨m - i, by rw [List.length_drop]; omega, ?_⟩
    rw [List.getElem_drop]
    simp only [show i + (m - i) = m by omega]
    exact e

/-! ## The window knows what the records said -/

/-- The records that count so far. -/
abbrev cnt (c : Cfg) (s : St) (D : List DataRec) : List DataRec := counted c.skips s.first s.last D

structure Marks (c : Cfg) (b : Nat) (D : List DataRec) (s : St) : Prop where
  marks : ∀ n ∈ s.nodes, n.seen = copies (cnt c s D) n.seq ∧ (n.lost = true ↔ losses (cnt c s D) n.seq ≠ 0)
  beyond : ∀ r ∈ cnt c s D, r.seq.toNat < b + s.nodes.length
  done : ∀ m, m < s.iskip → ∀ k, c.skips[m]? = some k → k.last.toNat < b
  lost : s.lost = packets b fun k => decide (losses (cnt c s D) k ≠ 0)
  dups : s.dups = duplicates b (cnt c s D)
  excl : ∀ k, losses (cnt c s D) k ≠ 0 → copies (cnt c s D) k = 0
  short : D.length < 2 ^ 32

theorem cnt_same {c : Cfg} {s s' : St} (h : Same s s') (D : List DataRec) : cnt c s' D = cnt c s D := by
  rw [cnt, cnt, h.first, h.last]

theorem beyond_zero {c : Cfg} {b : Nat} {D : List DataRec} {s : St} (h : Marks c b D s) (k : Nat) (hk : b + s.nodes.length ≤ k) :
    copies (cnt c s D) k = 0 ∧ losses (cnt c s D) k = 0 := by
  constructor
  · apply Decidable.byContradiction
    intro hn
    obtain ⟨r, h1, _, h3⟩ := (copies_ne _ _).1 hn
    have := h.beyond r h1
    omega
  · apply Decidable.byContradiction
    intro hn
    obtain ⟨r, h1, _, h3⟩ := (losses_ne _ _).1 hn
    have := h.beyond r h1
    omega

/-- Extending the window keeps the marks. -/
theorem Marks.extend {c : Cfg} {c0 : Sched.Ctx} {ds : List Nat} {b : Nat} {D : List DataRec} {s s' : St} {new : List Node}
    (h : Marks c b D s) (hw : Win c c0 ds b s') (hn : s'.nodes = s.nodes ++ new) (hs : Same s s') (hz : ∀ x ∈ new, x.seen = 0 ∧ x.lost = false)
    (h1 : s'.iskip = s.iskip) (h2 : s'.lost = s.lost) (h3 : s'.dups = s.dups) : Marks c b D s' := by
  have hl : s.nodes.length ≤ s'.nodes.length := by rw [hn]; simp
  refine ⟨?_, ?_, ?_, ?_, ?_, ?_, h.short⟩
  · intro n hmem
    rw [cnt_same hs]
    rw [hn] at hmem
    rcases List.mem_append.1 hmem with hm | hm
    · exact h.marks n hm
    · have hc := hw.chain
      rw [hn, chain_append] at hc
      have := beyond_zero h n.seq (chain_mem c ds new _ hc.2 n hm).1
      rw [this.1, this.2, (hz n hm).1, (hz n hm).2]
      simp
  · rw [cnt_same hs]; intro r hr; have := h.beyond r hr; omega
  · rw [h1]; exact h.done
  · rw [cnt_same hs, h2]; exact h.lost
  · rw [cnt_same hs, h3]; exact h.dups
  · rw [cnt_same hs]; exact h.excl

/-- What `tally` does. -/
theorem tally_spec (c : Cfg) (c0 : Sched.Ctx) (ds : List Nat) (b : Nat) (D : List DataRec) (s : St) (n : Node) (rest : List Node)
    (hn : s.nodes = n :: rest) (hb : n.seq = b) (hw : Win c c0 ds b s) (h : Marks c b D s) (hN : ds.length < 2 ^ 32) :
    ∃ i l d, tally c n s = { s with iskip := i, lost := l, dups := d } ∧
      (∀ m, m < i → ∀ k, c.skips[m]? = some k → k.last.toNat < b) ∧
      l = packets (b + 1) (fun k => decide (losses (cnt c s D) k ≠ 0)) ∧ d = duplicates (b + 1) (cnt c s D) := by
  obtain ⟨C, hC⟩ : ∃ C, C = cnt c s D := ⟨_, rfl⟩
  obtain ⟨m1, m2⟩ := h.marks n (by rw [hn]; simp)
  have hl := h.lost
  have hd := h.dups
  have hex := h.excl b
  rw [hb] at m1 m2
  rw [← hC] at m1 m2 hl hd hex ⊢
  obtain ⟨j, hj⟩ : ∃ j, j = skipPast c.skips n.seq c.skips.length s.iskip := ⟨_, rfl⟩
  obtain ⟨k1, k2, k3⟩ := skipPast_spec c.skips n.seq c.skips.length s.iskip (by omega)
  rw [← hj] at k1 k2 k3
  have hdone : ∀ m, m < j → ∀ k, c.skips[m]? = some k → k.last.toNat < b := by
    intro m hm k hk
    by_cases hlt : m < s.iskip
    · exact h.done m hlt k hk
    · rw [← hb]; exact k2 m (by omega) hm k hk
  rw [packets_succ, dups_succ, ← hl, ← hd]
  have hlb : s.lost ≤ b := by rw [hl]; exact packets_le _ _
  have hbN : b + 1 ≤ ds.length := by
    have := hw.fits; have := hw.all
    have : 0 < s.nodes.length := by rw [hn]; simp
    omega
  have hdb : s.dups + (copies C b - 1) < 2 ^ 32 := by
    rw [hd, ← dups_succ]
    have a1 := dups_le (b + 1) C
    have a2 := arrivals_length C
    have a3 : C.length ≤ D.length := by rw [hC]; exact counted_length _ _ _ _
    have a4 := h.short
    omega
  by_cases hsk : (c.skips[j]?).any (fun k => decide (n.seq ≥ k.first.toNat)) = true
  · have hs : Skipped c.skips b := by
      cases he : c.skips[j]? with
      | none => rw [he] at hsk; simp at hsk
      | some k =>
        rw [he] at hsk
        simp only [Option.any_some, decide_eq_true_eq] at hsk
        exact ⟨k, List.mem_of_getElem? he, hb ▸ hsk, hb ▸ k3 k he⟩
    have hz := counted_skip c.skips s.first s.last D b hs
    change copies (cnt c s D) b = 0 ∧ losses (cnt c s D) b = 0 at hz
    rw [← hC] at hz
    refine ⟨j, s.lost, s.dups, ?_, hdone, by simp [hz.2], by simp [hz.1]⟩
    unfold tally
    simp only
    rw [← hj, if_pos hsk]
  · by_cases hlo : n.lost = true
    · have := hex (m2.1 hlo)
      refine ⟨j, (s.lost + 1) % 2 ^ 32, s.dups, ?_, hdone, ?_, by simp [this]⟩
      · unfold tally
        simp only
        rw [← hj, if_neg hsk, if_pos hlo]
      · rw [if_pos (by simpa using m2.1 hlo)]; omega
    · have hlo2 : ¬ losses C b ≠ 0 := fun hh => hlo (m2.2 hh)
      by_cases hse : n.seen ≠ 0
      · refine ⟨j, s.lost, (s.dups + (n.seen - 1)) % 2 ^ 32, ?_, hdone, ?_, ?_⟩
        · unfold tally
          simp only
          rw [← hj, if_neg hsk, if_neg hlo, if_pos hse]
        · rw [if_neg (by simpa using hlo2)]; rfl
        · rw [m1]; omega
      · refine ⟨j, s.lost, s.dups, ?_, hdone, ?_, ?_⟩
        · unfold tally
          simp only
          rw [← hj, if_neg hsk, if_neg hlo, if_neg hse]
        · rw [if_neg (by simpa using hlo2)]; rfl
        · have : copies C b = 0 := by rw [← m1]; omega
          rw [this]; rfl

/-- What one flush does: the first packet of the window leaves it, and the next is there if it is in the range. -/
theorem flushOne_spec (c : Cfg) (c0 : Sched.Ctx) (ds : List Nat) (b : Nat) (D : List DataRec) (s : St)
    (hw : Win c c0 ds b s) (h : Marks c b D s) (hN : ds.length < 2 ^ 32) :
    (b + 1 < s.last → ∃ s', flushOne c s = .ok (true, s') ∧ Win c c0 ds (b + 1) s' ∧ Marks c (b + 1) D s' ∧ Same s s') ∧
    (¬ b + 1 < s.last → ∃ s', flushOne c s = .ok (false, s') ∧ Same s s' ∧ s'.lost = packets (b + 1) (fun k => decide (losses (cnt c s D) k ≠ 0)) ∧
      s'.dups = duplicates (b + 1) (cnt c s D) ∧ s.nodes.length = 1 ∧ s'.ctx = s.ctx ∧ s'.isctx = s.isctx ∧ s'.endnum = s.endnum) := by
  obtain ⟨n, rest, hn⟩ : ∃ f q, s.nodes = f :: q := by
    cases hq : s.nodes with
    | nil => exact (hw.ne hq).elim
    | cons f q => exact ⟨f, q, rfl⟩
  have hch := hw.chain
  rw [hn] at hch
  have hb : n.seq = b := hch.1.1
  obtain ⟨i, l, d, t1, t2, t3, t4⟩ := tally_spec c c0 ds b D s n rest hn hb hw h hN
  have hfit := hw.fits
  rw [hn, List.length_cons] at hfit
  have hcl := hw.clock
  rw [hn, List.length_cons] at hcl
  obtain ⟨s1, hs1⟩ : ∃ s1 : St, s1 = { s with iskip := i, lost := l, dups := d, endTime := n.sched } := ⟨_, rfl⟩
  have hsame : Same s s1 := by rw [hs1]; exact fun _ => rfl
  cases rest with
  | cons y rest =>
    have hlt : b + 1 < s.last := by simp only [List.length_cons] at hfit; omega
    refine ⟨fun _ => ?_, fun hx => (hx hlt).elim⟩
    refine ⟨{ s1 with nodes := y :: rest }, ?_, ?_, ?_, ?_⟩
    · rw [flushOne, hn]
      dsimp only
      rw [t1, hs1]
    · refine ⟨?_, hch.2, by simp, ?_, ?_, ?_⟩
      · have : b + 1 + (y :: rest).length = b + ((y :: rest).length + 1) := by omega
        show Clock c c0 ds (b + 1 + (y :: rest).length) _
        rw [this]
        exact ⟨by rw [hs1]; exact hcl.idx, by rw [hs1]; exact hcl.time, by rw [hs1]; exact hcl.used, by rw [hs1]; exact hcl.rest, hcl.le⟩
      · have := hw.lo; rw [hs1]; show s.first ≤ b + 1; omega
      · rw [hs1]; show b + 1 + (y :: rest).length ≤ s.last; omega
      · rw [hs1]; exact hw.all
    · have hc : cnt c { s1 with nodes := y :: rest } D = cnt c s D := by rw [hs1]
      refine ⟨?_, ?_, ?_, ?_, ?_, ?_, h.short⟩
      · rw [hc]; intro m hm; exact h.marks m (by rw [hn]; exact List.mem_cons_of_mem _ hm)
      · rw [hc]; intro r hr; have := h.beyond r hr; rw [hn] at this
        show r.seq.toNat < b + 1 + (y :: rest).length
        simp only [List.length_cons] at *; omega
      · rw [hs1]; intro m hm k hk; have := t2 m hm k hk; omega
      · rw [hc, hs1]; exact t3
      · rw [hc, hs1]; exact t4
      · rw [hc]; exact h.excl
    · exact fun x => (hsame x)
  | nil =>
    simp only [List.length_nil] at hfit hcl
    have hw1 : Win c c0 ds b s1 := by
      refine ⟨?_, by rw [hs1]; exact hw.chain, by rw [hs1]; exact hw.ne, by rw [hs1]; exact hw.lo, by rw [hs1]; exact hw.fits, by rw [hs1]; exact hw.all⟩
      have := hw.clock
      exact ⟨by rw [hs1]; exact this.idx, by rw [hs1]; exact this.time, by rw [hs1]; exact this.used,
        by rw [hs1]; exact this.rest, by rw [hs1]; exact this.le⟩
    have hn1 : s1.nodes = [n] := by rw [hs1]; exact hn
    have hlast : s1.last = s.last := hsame.last
    constructor
    · intro hlt
      obtain ⟨x, s', new, g1, g2, g3, g4, g5, g6, g7, g8, g9, g10, g11⟩ :=
        (packetGet_spec c c0 ds b (b + 1) s1 hw1 (by have := hw1.lo; omega) (by rw [hlast]; exact hlt)).2 (by omega)
      have g11' := g11 (by rw [hn1]; rfl)
      have hnew : s'.nodes.tail = new := by rw [g3, hn1]; rfl
      have hlen : s'.nodes.length = new.length + 1 := by rw [g3, hn1]; simp
      have hsm : Same s s' := hsame.trans g6
      refine ⟨{ s' with nodes := s'.nodes.tail }, ?_, ?_, ?_, ?_⟩
      · rw [flushOne, hn]
        dsimp only
        rw [t1]
        subst hs1
        dsimp only at g1 ⊢
        rw [if_pos (by rw [hb]; exact hlt), hb, g1]
      · have hch2 := g2.chain
        rw [g3, hn1, List.singleton_append] at hch2
        refine ⟨?_, by rw [hnew]; exact hch2.2, ?_, ?_, ?_, g2.all⟩
        · have := g2.clock
          rw [hlen] at this
          show Clock c c0 ds (b + 1 + s'.nodes.tail.length) _
          rw [hnew, show b + 1 + new.length = b + (new.length + 1) by omega]
          exact ⟨this.idx, this.time, this.used, this.rest, this.le⟩
        · intro hh
          have hh2 : s'.nodes.tail = [] := hh
          rw [hnew] at hh2; rw [hh2] at g11'; cases g11'
        · have := g2.lo; show s'.first ≤ b + 1; omega
        · have := g2.fits; show b + 1 + s'.nodes.tail.length ≤ s'.last; rw [hnew]; omega
      · have hc : cnt c { s' with nodes := s'.nodes.tail } D = cnt c s D := cnt_same (c := c) (s := s) (s' := s') hsm D
        have hz := beyond_zero h
        rw [hn] at hz
        refine ⟨?_, ?_, ?_, ?_, ?_, ?_, h.short⟩
        · rw [hc]
          intro m hm
          have hm' : m ∈ new := by rw [← hnew]; exact hm
          have hch2 := g2.chain
          rw [g3, hn1, List.singleton_append] at hch2
          have := hz m.seq (by have := (chain_mem c ds new _ hch2.2 m hm').1; simp only [List.length_singleton]; omega)
          rw [this.1, this.2, (g7 m hm').1, (g7 m hm').2]
          simp
        · rw [hc]; intro r hr; have := h.beyond r hr; rw [hn] at this
          show r.seq.toNat < b + 1 + _
          simp only [List.length_singleton] at this; omega
        · show ∀ m, m < s'.iskip → _
          rw [g8, hs1]; intro m hm k hk; have := t2 m hm k hk; omega
        · rw [hc]; show s'.lost = _; rw [g9, hs1]; exact t3
        · rw [hc]; show s'.dups = _; rw [g10, hs1]; exact t4
        · rw [hc]; exact h.excl
      · exact fun x => hsm x
    · intro hlt
      refine ⟨{ s1 with nodes := [] }, ?_, fun x => hsame x, by rw [hs1]; exact t3, by rw [hs1]; exact t4, by rw [hn]; rfl, by rw [hs1], by rw [hs1], by rw [hs1]⟩
      rw [flushOne, hn]
      dsimp only
      rw [t1, hs1]
      dsimp only
      rw [if_neg (by rw [hb]; exact hlt)]

end Owamp.Stats
