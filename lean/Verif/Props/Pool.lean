import Verif.Lemmas.Pool
/-!
# C92: an end point knows its packets apart, in bounded memory
-/
namespace Owamp.Props
open Owamp.Num64 Owamp.Time Owamp.Pool Owamp.Spec.Pool
open Owamp.TwoWay (Node)

/-- `get_node` on the list of contents. -/
def reachL (c : Pool.Cfg) (seq : Nat) (q : List Node) (ctx : Sched.Ctx) : Option (List Node × Sched.Ctx) :=
  match q.getLast? with
  | none => none
  | some e => if seq > e.seq then growL c (seq - e.seq) q ctx else some (q, ctx)

theorem rep_first {p : Pool} {used fs : List Nat} {q : List Node} {lo b : Nat} {r : List Nat} (h : Rep p used fs q lo) (hu : used = b :: r) : p.first = some b ∧ (p.mem b).node.seq = lo := by
  subst hu
  refine ⟨h.linked.1, ?_⟩
  have h1 := h.numbers
  rw [← h.holds] at h1
  simp only [List.map_cons, List.length_cons, List.length_map] at h1
  rw [List.range'_succ] at h1
  exact (List.cons.inj h1).1

/-- The cell of a number. -/
theorem rep_find {p : Pool} {used fs : List Nat} {q : List Node} {lo a : Nat} (h : Rep p used fs q lo) (ha : a ∈ used) : q[(p.mem a).node.seq - lo]? = some (p.mem a).node := by
  obtain ⟨i, hi, rfl⟩ := List.mem_iff_getElem.1 ha
  have hq : q[i]? = some (p.mem used[i]).node := by
    rw [← h.holds, List.getElem?_map, List.getElem?_eq_getElem hi]; rfl
  have hs : (q.map (·.seq))[i]? = some (p.mem used[i]).node.seq := by
    rw [List.getElem?_map, hq]; rfl
  have hil : i < q.length := by rw [← h.length]; exact hi
  rw [h.numbers, List.getElem?_range' hil, Option.some.injEq] at hs
  rw [← hs]
  rw [show lo + 1 * i - lo = i by omega, hq]

/-- A cell for every number in between. -/
theorem rep_has {p : Pool} {used fs : List Nat} {q : List Node} {lo seq : Nat} (h : Rep p used fs q lo) (h1 : lo ≤ seq) (h2 : seq < lo + q.length) : ∃ a ∈ used, (p.mem a).node.seq = seq := by
  have : seq ∈ q.map (·.seq) := by rw [h.numbers, List.mem_range'_1]; omega
  rw [← h.holds] at this
  simp only [List.map_map, List.mem_map] at this
  exact this

theorem getNode_rep (c : Pool.Cfg) (p : Pool) {used fs : List Nat} {q : List Node} {lo l seq : Nat} (h : Rep p used fs q lo) (hlast : used.getLast? = some l) (hl : p.last = some l) :
    (seq < lo → getNode c p seq = some (none, p)) ∧ (lo ≤ seq →
    match reachL c seq q p.ctx with
    | none => getNode c p seq = none
    | some (q', ctx') => (getNode c p seq = none ∧ ∃ k, c.ok k = false) ∨
      ∃ a l' p' used' fs', getNode c p seq = some (some a, p') ∧ Rep p' used' fs' q' lo ∧ used'.getLast? = some l' ∧ p'.last = some l' ∧ p'.ctx = ctx' ∧ p'.first = p.first ∧
        p'.numalist = p.numalist ∧ a ∈ used' ∧ (p'.mem a).node.seq = seq ∧ used <+: used' ∧ (p'.blocks = p.blocks ∨ (p'.blocks.length - 1) * (p.numalist - 1) < used'.length)) := by
  obtain ⟨s1, s2, s3⟩ := h.last_seq hlast
  obtain ⟨b, r, hu⟩ : ∃ b r, used = b :: r := by
    cases used with
    | nil => simp at hlast
    | cons b r => exact ⟨b, r, rfl⟩
  obtain ⟨f1, f2⟩ := rep_first h hu
  have hlu : l ∈ used := List.mem_of_getLast? hlast
  have hqpos : 0 < q.length := by rw [← h.length, hu]; simp
  constructor
  · intro hs
    unfold getNode
    rw [hl]
    dsimp only
    rw [if_neg (by omega), if_neg (by omega), f1]
    dsimp only
    rw [if_pos (by omega)]
  · intro hs
    unfold reachL
    rw [s2]
    dsimp only
    by_cases hgt : seq > (p.mem l).node.seq
    · rw [if_pos hgt]
      have e : getNode c p seq = extend c (seq - (p.mem l).node.seq) l p := by
        unfold getNode
        rw [hl]
        dsimp only
        rw [if_neg (by omega), if_pos hgt]
      rw [e]
      have hx := extend_rep c (seq - (p.mem l).node.seq) l p h hlast hl (Nat.le_refl _) hlu
      revert hx
      cases growL c (seq - (p.mem l).node.seq) q p.ctx with
      | none => exact id
      | some x =>
        rcases x with ⟨q', ctx'⟩
        dsimp only
        rintro (hx | ⟨a, p', used', fs', i1, i2, i3, i4, i5, i6, i7, i8, i9, i10⟩)
        · exact Or.inl hx
        · refine Or.inr ⟨a, a, p', used', fs', i1, i2, i3, i4, i5, i6, i7, List.mem_of_getLast? i3, ?_, i8, i10⟩
          have := (i2.last_seq i3).1
          rw [← i2.length, i9, h.length] at this
          omega
    · rw [if_neg hgt]
      dsimp only
      right
      by_cases heq : seq = (p.mem l).node.seq
      · refine ⟨l, l, p, used, fs, ?_, h, hlast, hl, rfl, rfl, rfl, hlu, heq.symm, List.prefix_refl _, Or.inl rfl⟩
        unfold getNode
        rw [hl]
        dsimp only
        rw [if_pos heq]
      · obtain ⟨a, ha, has⟩ := rep_has h hs (by omega)
        refine ⟨a, l, p, used, fs, ?_, h, hlast, hl, rfl, rfl, rfl, ha, has, List.prefix_refl _, Or.inl rfl⟩
        unfold getNode
        rw [hl]
        dsimp only
        rw [if_neg heq, if_neg hgt, f1]
        dsimp only
        rw [if_neg (by omega), ← has, fetch_core p h.core ha]

/-- Taking the front off. -/
theorem freeNode_rep {p : Pool} {used fs : List Nat} {q : List Node} {lo b n : Nat} (h : Rep p (b :: n :: used) fs q lo) :
    Rep (freeNode { p with first := some n } b) (n :: used) (b :: fs) q.tail (lo + 1) := by
  have hc : Core { p with first := some n } (b :: n :: used) fs := h.core.change (some n) p.last p.ctx (fun _ _ => rfl) (fun _ _ => rfl)
  obtain ⟨c1, c2⟩ := free_core _ hc
  have hne : ∀ x ∈ n :: used, x ≠ b := by
    intro x hx e
    have := h.core.nodup
    rw [List.cons_append, List.nodup_cons] at this
    exact this.1 (by rw [← e]; exact List.mem_append_left _ hx)
  refine ⟨c1, ?_, ?_, ?_⟩
  · have hl := h.linked.2
    have hfirst : (p.mem b).next = some n := hl.1
    rw [hfirst] at hl
    exact hl.frame fun a ha => by rw [c2 a (hne a ha)]
  · rw [List.map_congr_left (fun a ha => by rw [c2 a (hne a ha)]), ← h.holds]
    rfl
  · have hn := h.numbers
    have hql : q.length = used.length + 2 := by rw [← h.length]; rfl
    cases q with
    | nil => simp at hql
    | cons x r =>
      rw [List.map_cons, List.length_cons, List.range'_succ] at hn
      exact (List.cons.inj hn).2

/-- The schedule on the list. -/
theorem growL_draws (c : Pool.Cfg) (delta : Nat → Nat) (state : Nat → Sched.Ctx) (hd : ∀ k < c.npackets.toNat, Sched.nextDelta c.E (state k) = (.ok (delta k), state (k + 1))) :
    ∀ (n : Nat) (q : List Node) (hi : Nat) (e : Node), q.getLast? = some e → e.seq + 1 = hi → e.relative = offset delta e.seq → hi + n ≤ c.npackets.toNat →
    growL c n q (state hi) = some (q ++ (List.range' hi n).map (scheduled c.start delta), state (hi + n))
  | 0, q, hi, e, _, _, _, _ => by simp [growL]
  | n + 1, q, hi, e, h1, h2, h3, h4 => by
    rw [growL, h1]
    dsimp only
    rw [if_neg (by omega), hd hi (by omega)]
    dsimp only
    have hoff : add e.relative (delta hi) = offset delta hi := by
      rw [← h2, h3]; rfl
    have hnew : (⟨e.seq + 1, false, false, add e.relative (delta hi), absOf c (add e.relative (delta hi))⟩ : Node) = scheduled c.start delta hi := by
      rw [hoff, h2]; rfl
    rw [hnew, growL_draws c delta state hd n _ (hi + 1) (scheduled c.start delta hi) (by rw [List.getLast?_concat]) rfl rfl (by omega)]
    rw [List.range'_succ, List.map_cons, List.append_assoc, List.singleton_append, show hi + 1 + n = hi + (n + 1) by omega]

/-- The window of the table. -/
def window (t : Table) (hi : Nat) : List Node := (List.range' t.lo (hi - t.lo)).map t.now

/-- The memory shows the table. -/
structure Shows (c : Pool.Cfg) (delta : Nat → Nat) (state : Nat → Sched.Ctx) (p : Pool) (t : Table) : Prop where
  fits : t.hi ≤ c.npackets.toNat
  order : t.lo < t.hi
  most : t.hi - t.lo ≤ t.most
  seqs : ∀ k, (t.now k).seq = k
  offs : ∀ k, (t.now k).relative = offset delta k
  later : ∀ k, t.hi ≤ k → t.now k = scheduled c.start delta k
  rep : ∃ used fs l, Rep p used fs (window t t.hi) t.lo ∧ used.getLast? = some l ∧ p.last = some l
  ctx : p.ctx = state t.hi
  blocks : 1 < p.blocks.length → (p.blocks.length - 1) * (p.numalist - 1) < t.most

/-- After the last packet. -/
structure Over (p : Pool) (t : Table) : Prop where
  core : ∃ fs, Core p [] fs
  blocks : 1 < p.blocks.length → (p.blocks.length - 1) * (p.numalist - 1) < t.most

theorem window_length (t : Table) (hi : Nat) : (window t hi).length = hi - t.lo := by
  unfold window; rw [List.length_map, List.length_range']

theorem window_get (t : Table) (hi k : Nat) (h1 : t.lo ≤ k) (h2 : k < hi) : (window t hi)[k - t.lo]? = some (t.now k) := by
  unfold window
  rw [List.getElem?_map, List.getElem?_range' (by omega)]
  rw [show t.lo + 1 * (k - t.lo) = k by omega]
  rfl

theorem window_last (t : Table) (hi : Nat) (h : t.lo < hi) : (window t hi).getLast? = some (t.now (hi - 1)) := by
  unfold window
  obtain ⟨n, hn⟩ : ∃ n, hi - t.lo = n + 1 := ⟨hi - t.lo - 1, by omega⟩
  rw [hn, List.getLast?_map, range'_getLast?, show t.lo + n = hi - 1 by omega]
  rfl

/-- A line is needed: what `get_node` does on the list. -/
theorem reach_need (c : Pool.Cfg) (delta : Nat → Nat) (state : Nat → Sched.Ctx) (hd : ∀ k < c.npackets.toNat, Sched.nextDelta c.E (state k) = (.ok (delta k), state (k + 1)))
    {p : Pool} {t : Table} (h : Shows c delta state p t) {seq : Nat} (hs : seq < c.npackets.toNat) :
    reachL c seq (window t t.hi) (state t.hi) = some (window t (max t.hi (seq + 1)), state (max t.hi (seq + 1))) := by
  have ho := h.order
  unfold reachL
  rw [window_last t t.hi ho]
  dsimp only
  rw [h.seqs]
  by_cases hgt : seq > t.hi - 1
  · rw [if_pos hgt, growL_draws c delta state hd (seq - (t.hi - 1)) _ t.hi (t.now (t.hi - 1)) (window_last t t.hi ho) (by rw [h.seqs]; omega) (by rw [h.offs, h.seqs]) (by omega)]
    rw [show max t.hi (seq + 1) = t.hi + (seq - (t.hi - 1)) by omega]
    unfold window
    rw [show t.hi + (seq - (t.hi - 1)) - t.lo = (t.hi - t.lo) + (seq - (t.hi - 1)) by omega, ← List.range'_append (step := 1), List.map_append]
    rw [show t.lo + 1 * (t.hi - t.lo) = t.hi by omega]
    rw [show (List.range' t.hi (seq - (t.hi - 1))).map t.now = (List.range' t.hi (seq - (t.hi - 1))).map (scheduled c.start delta) from
      List.map_congr_left fun k hk => h.later k (by rw [List.mem_range'_1] at hk; exact hk.1)]
  · rw [if_neg hgt, show max t.hi (seq + 1) = t.hi by omega]

/-- `get_node` shows the table. -/
theorem need_shows (c : Pool.Cfg) (delta : Nat → Nat) (state : Nat → Sched.Ctx) (hd : ∀ k < c.npackets.toNat, Sched.nextDelta c.E (state k) = (.ok (delta k), state (k + 1)))
    {p : Pool} {t : Table} (h : Shows c delta state p t) {seq : Nat} (hs : seq < c.npackets.toNat) (hlo : t.lo ≤ seq) : (getNode c p seq = none ∧ ∃ k, c.ok k = false) ∨
    ∃ a p', getNode c p seq = some (some a, p') ∧ (p'.mem a).node = t.now seq ∧ Shows c delta state p' (t.need seq) ∧ p'.numalist = p.numalist ∧
      ∃ used fs l, Rep p' used fs (window t (max t.hi (seq + 1))) t.lo ∧ used.getLast? = some l ∧ p'.last = some l ∧ a ∈ used ∧
        (p'.blocks = p.blocks ∨ (p'.blocks.length - 1) * (p.numalist - 1) < max t.hi (seq + 1) - t.lo) := by
  obtain ⟨used, fs, l, hr, hlast, hl⟩ := h.rep
  have hg := (getNode_rep c p (seq := seq) hr hlast hl).2 hlo
  rw [h.ctx, reach_need c delta state hd h hs] at hg
  dsimp only at hg
  rcases hg with hg | ⟨a, l', p', used', fs', g1, g2, g3, g4, g5, g6, g7, g8, g9, g10, g11⟩
  · exact Or.inl hg
  · right
    have ho := h.order
    have hnode : (p'.mem a).node = t.now seq := by
      have h1 := rep_find g2 g8
      rw [g9, window_get t _ seq hlo (by omega)] at h1
      exact (Option.some.inj h1).symm
    have hlen : used'.length = max t.hi (seq + 1) - t.lo := by rw [g2.length, window_length]
    refine ⟨a, p', g1, hnode, ?_, g7, used', fs', l', g2, g3, g4, g8, ?_⟩
    · refine ⟨?_, ?_, ?_, h.seqs, h.offs, ?_, ⟨used', fs', l', g2, g3, g4⟩, g5, ?_⟩
      · show max t.hi (seq + 1) ≤ _
        have := h.fits; omega
      · show t.lo < max t.hi (seq + 1)
        omega
      · show max t.hi (seq + 1) - t.lo ≤ max t.most (max t.hi (seq + 1) - t.lo)
        omega
      · intro k hk
        have hk' : max t.hi (seq + 1) ≤ k := hk
        exact h.later k (by omega)
      · intro hb
        show _ < max t.most (max t.hi (seq + 1) - t.lo)
        rcases g11 with g | g
        · have h2 := h.blocks (by rw [← g]; exact hb)
          rw [g, g7]; omega
        · rw [g7, ← hlen]; omega
    · rw [← hlen]; exact g11

/-- One step. -/
theorem step_shows (c : Pool.Cfg) (delta : Nat → Nat) (state : Nat → Sched.Ctx) (hd : ∀ k < c.npackets.toNat, Sched.nextDelta c.E (state k) = (.ok (delta k), state (k + 1)))
    {p : Pool} {t t' : Table} {o : Op} {out : Out} (h : Shows c delta state p t) (hu : use c.npackets.toNat t o = some (out, t')) : (step c p o = none ∧ ∃ k, c.ok k = false) ∨
    ∃ p', step c p o = some (out, p') ∧ p'.numalist = p.numalist ∧ ((t'.lo < c.npackets.toNat ∧ Shows c delta state p' t') ∨ (t'.lo = c.npackets.toNat ∧ Over p' t')) := by
  have hord := h.order
  have hfit := h.fits
  cases o with
  | look seq =>
    rw [use] at hu
    by_cases hc : t.lo < c.npackets.toNat ∧ seq < c.npackets.toNat
    · rw [if_pos hc] at hu
      by_cases hlt : seq < t.lo
      · rw [if_pos hlt] at hu
        obtain ⟨used, fs, l, hr, hlast, hl⟩ := h.rep
        have hg := (getNode_rep c p hr hlast hl).1 hlt
        injection hu with hu
        injection hu with h1 h2
        subst h1; subst h2
        refine Or.inr ⟨p, ?_, rfl, Or.inl ⟨hc.1, h⟩⟩
        rw [step, hg]; rfl
      · rw [if_neg hlt] at hu
        injection hu with hu
        injection hu with h1 h2
        subst h1; subst h2
        rcases need_shows c delta state hd h hc.2 (Nat.le_of_not_lt hlt) with ⟨g1, g2⟩ | ⟨a, p', g1, g2, g3, g4, _⟩
        · exact Or.inl ⟨by rw [step, g1]; rfl, g2⟩
        · refine Or.inr ⟨p', ?_, g4, Or.inl ⟨hc.1, g3⟩⟩
          rw [step, g1]
          show some (Out.node (some (p'.mem a).node), p') = _
          rw [g2]
    · rw [if_neg hc] at hu; cases hu
  | change seq hh ss aa =>
    rw [use] at hu
    by_cases hc : t.lo < c.npackets.toNat ∧ seq < c.npackets.toNat
    · rw [if_pos hc] at hu
      by_cases hlt : seq < t.lo
      · rw [if_pos hlt] at hu
        obtain ⟨used, fs, l, hr, hlast, hl⟩ := h.rep
        have hg := (getNode_rep c p hr hlast hl).1 hlt
        injection hu with hu
        injection hu with h1 h2
        subst h1; subst h2
        refine Or.inr ⟨p, ?_, rfl, Or.inl ⟨hc.1, h⟩⟩
        rw [step, hg]; rfl
      · rw [if_neg hlt] at hu
        injection hu with hu
        injection hu with h1 h2
        subst h1; subst h2
        rcases need_shows c delta state hd h hc.2 (Nat.le_of_not_lt hlt) with ⟨g1, g2⟩ | ⟨a, p', g1, g2, g3, g4, used, fs, l, r1, r2, r3, r4, _⟩
        · exact Or.inl ⟨by rw [step, g1]; rfl, g2⟩
        · obtain ⟨mem', hm⟩ : ∃ mem', Pool.put p'.mem a ⟨{ (p'.mem a).node with hit := hh, sent := ss, absolute := aa }, (p'.mem a).next⟩ = mem' := ⟨_, rfl⟩
          refine Or.inr ⟨{ p' with mem := mem' }, ?_, g4, Or.inl ⟨hc.1, ?_⟩⟩
          · rw [step, g1, ← hm, ← g2]
            rfl
          · have hma : mem' a = ⟨{ t.now seq with hit := hh, sent := ss, absolute := aa }, (p'.mem a).next⟩ := by
              rw [← hm, ← g2]; unfold Pool.put; rw [if_pos rfl]
            have hmo : ∀ x, x ≠ a → mem' x = p'.mem x := by
              intro x hx; rw [← hm]; unfold Pool.put; rw [if_neg hx]
            have hnext : ∀ x, (mem' x).next = (p'.mem x).next := by
              intro x
              by_cases hx : x = a
              · rw [hx, hma]
              · rw [hmo x hx]
            have hseq : ∀ x, (mem' x).node.seq = (p'.mem x).node.seq := by
              intro x
              by_cases hx : x = a
              · rw [hx, hma, g2]
              · rw [hmo x hx]
            have hnu : used.Nodup := by
              have := r1.core.nodup
              rw [List.nodup_append] at this
              exact this.1
            obtain ⟨t2, ht2⟩ : ∃ t2 : Table, { t.need seq with now := fun k => if k = seq then { t.now seq with hit := hh, sent := ss, absolute := aa } else t.now k } = t2 := ⟨_, rfl⟩
            rw [ht2]
            have tlo : t2.lo = t.lo := by rw [← ht2]; rfl
            have thi : t2.hi = max t.hi (seq + 1) := by rw [← ht2]; rfl
            have tmost : t2.most = max t.most (max t.hi (seq + 1) - t.lo) := by rw [← ht2]; rfl
            have tnow : ∀ k, t2.now k = if k = seq then { t.now seq with hit := hh, sent := ss, absolute := aa } else t.now k := by intro k; rw [← ht2]
            have hrep : Rep { p' with mem := mem' } used fs (window t2 t2.hi) t2.lo := by
              refine ⟨?_, ?_, ?_, ?_⟩
              · exact r1.core.change p'.first p'.last p'.ctx (fun x _ => hseq x) (fun x _ => hnext x)
              · exact r1.linked.frame fun x _ => hnext x
              · show used.map (fun x => (mem' x).node) = _
                apply List.ext_getElem?
                intro i
                have h1 : (used.map fun x => (p'.mem x).node)[i]? = (window t (max t.hi (seq + 1)))[i]? := by rw [r1.holds]
                rw [List.getElem?_map] at h1 ⊢
                by_cases hi : i < max t.hi (seq + 1) - t.lo
                · have h2 := window_get t (max t.hi (seq + 1)) (t.lo + i) (by omega) (by omega)
                  have h3 := window_get t2 t2.hi (t2.lo + i) (by omega) (by rw [thi, tlo]; omega)
                  rw [Nat.add_sub_cancel_left] at h2 h3
                  rw [h3, tnow, tlo]
                  rw [h2] at h1
                  cases hui : used[i]? with
                  | none => rw [hui] at h1; cases h1
                  | some x =>
                    rw [hui] at h1
                    have hx1 : (p'.mem x).node = t.now (t.lo + i) := Option.some.inj h1
                    show some (mem' x).node = _
                    congr 1
                    by_cases hxa : x = a
                    · have : t.lo + i = seq := by
                        rw [hxa, g2] at hx1
                        have := congrArg Node.seq hx1
                        rw [h.seqs, h.seqs] at this
                        exact this.symm
                      rw [hxa, hma, if_pos this]
                    · rw [hmo x hxa, hx1, if_neg]
                      intro e
                      apply hxa
                      refine inj_of_nodup r1.core.distinct (List.mem_of_getElem? hui) r4 ?_
                      show (p'.mem x).node.seq = (p'.mem a).node.seq
                      rw [hx1, g2, h.seqs, h.seqs]
                      exact e
                · have e1 : used[i]? = none := List.getElem?_eq_none (by rw [r1.length, window_length]; omega)
                  have e2 : (window t2 t2.hi)[i]? = none := List.getElem?_eq_none (by rw [window_length, thi, tlo]; omega)
                  rw [e1, e2]; rfl
              · unfold window
                rw [List.map_map, List.length_map, List.length_range']
                rw [List.map_congr_left (g := id) (fun k _ => ?_), List.map_id]
                show (t2.now k).seq = k
                rw [tnow]
                split
                · rename_i e; rw [e]; exact h.seqs seq
                · exact h.seqs k
            refine ⟨?_, ?_, ?_, ?_, ?_, ?_, ⟨used, fs, l, hrep, r2, r3⟩, ?_, ?_⟩
            · rw [thi]; omega
            · rw [thi, tlo]; omega
            · rw [thi, tlo, tmost]; omega
            · intro k
              rw [tnow]
              split
              · rename_i e; rw [e]; exact h.seqs seq
              · exact h.seqs k
            · intro k
              rw [tnow]
              split
              · rename_i e; rw [e]; exact h.offs seq
              · exact h.offs k
            · intro k hk
              rw [thi] at hk
              rw [tnow, if_neg (by omega)]
              exact h.later k (by omega)
            · rw [thi]; exact g3.ctx
            · rw [tmost]; exact g3.blocks
    · rw [if_neg hc] at hu; cases hu
  | pop =>
    rw [use] at hu
    rw [if_pos (show t.lo < c.npackets.toNat by omega)] at hu
    injection hu with hu
    injection hu with h1 h2
    subst h1; subst h2
    obtain ⟨used, fs, l, hr, hlast, hl⟩ := h.rep
    have hlen : used.length = t.hi - t.lo := by rw [hr.length, window_length]
    have h32 := c.npackets.isLt
    have hnum := hr.core.num
    cases used with
    | nil => simp at hlast
    | cons b r =>
      obtain ⟨f1, f2⟩ := rep_first hr rfl
      have hnext := hr.linked.2.head
      cases r with
      | cons n r =>
        right
        have hlen' : t.lo + 2 ≤ t.hi := by simp at hlen; omega
        have e : Pool.pop c p = some (false, freeNode { p with first := some n } b) := by
          unfold Pool.pop
          rw [f1]
          dsimp only
          rw [hnext]
          rfl
        refine ⟨freeNode { p with first := some n } b, ?_, rfl, Or.inl ⟨?_, ?_⟩⟩
        · rw [step, e]
          show some (Out.popped false, _) = some (Out.popped (decide (t.lo + 1 = c.npackets.toNat)), _)
          rw [decide_eq_false (by omega)]
        · show t.lo + 1 < _
          omega
        · have hrep := freeNode_rep hr
          refine ⟨?_, ?_, ?_, h.seqs, h.offs, ?_, ⟨n :: r, b :: fs, l, ?_, ?_, hl⟩, ?_, h.blocks⟩
          · show max t.hi (min (t.lo + 2) c.npackets.toNat) ≤ _
            omega
          · show t.lo + 1 < max t.hi (min (t.lo + 2) c.npackets.toNat)
            omega
          · show max t.hi (min (t.lo + 2) c.npackets.toNat) - (t.lo + 1) ≤ t.most
            have := h.most
            omega
          · intro k hk
            have hk' : max t.hi (min (t.lo + 2) c.npackets.toNat) ≤ k := hk
            exact h.later k (by omega)
          · show Rep _ (n :: r) (b :: fs) (window { t with lo := t.lo + 1, hi := max t.hi (min (t.lo + 2) c.npackets.toNat) } (max t.hi (min (t.lo + 2) c.npackets.toNat))) (t.lo + 1)
            rw [show max t.hi (min (t.lo + 2) c.npackets.toNat) = t.hi by omega]
            have : window { t with lo := t.lo + 1, hi := t.hi } t.hi = (window t t.hi).tail := by
              unfold window
              show (List.range' (t.lo + 1) (t.hi - (t.lo + 1))).map t.now = _
              rw [show t.hi - t.lo = (t.hi - (t.lo + 1)) + 1 by omega, List.range'_succ]
              rfl
            rw [this]
            exact hrep
          · rw [List.getLast?_cons_cons] at hlast; exact hlast
          · show p.ctx = state (max t.hi (min (t.lo + 2) c.npackets.toNat))
            rw [show max t.hi (min (t.lo + 2) c.npackets.toNat) = t.hi by omega]
            exact h.ctx
      | nil =>
        have hlen' : t.hi = t.lo + 1 := by simp at hlen; omega
        have hpb : (p.mem b).next = none := hnext
        by_cases hmore : t.lo + 1 < c.npackets.toNat
        · rcases need_shows c delta state hd h (seq := t.lo + 1) hmore (by omega) with ⟨g1, g2⟩ | ⟨a, p', g1, g2, g3, g4, used', fs', l', r1, r2, r3, r4, r5⟩
          · refine Or.inl ⟨?_, g2⟩
            rw [step]
            unfold Pool.pop
            rw [f1]
            dsimp only
            rw [hpb]
            dsimp only
            rw [if_pos (by rw [f2, Nat.mod_eq_of_lt (by omega)]; exact hmore), f2, g1]
            rfl
          · right
            have hmax : max t.hi (t.lo + 1 + 1) = t.lo + 2 := by omega
            rw [hmax] at r1 r5
            have hulen : used'.length = 2 := by rw [r1.length, window_length]; omega
            obtain ⟨b', n, hu'⟩ : ∃ b' n, used' = [b', n] := by
              match used', hulen with
              | [x, y], _ => exact ⟨x, y, rfl⟩
            subst hu'
            have hpf : p'.first = some b := by
              have hg := (getNode_rep c p (seq := t.lo + 1) hr hlast hl).2 (by omega)
              rw [h.ctx, reach_need c delta state hd h hmore] at hg
              dsimp only at hg
              rcases hg with ⟨e1, _⟩ | ⟨_, _, p'', _, _, e1, _, _, _, _, e2, _⟩
              · rw [g1] at e1; cases e1
              · rw [g1] at e1
                have : p' = p'' := (Prod.mk.inj (Option.some.inj e1)).2
                rw [this, e2, f1]
            obtain ⟨f1', f2'⟩ := rep_first r1 rfl
            have hbb : b' = b := by rw [hpf] at f1'; exact (Option.some.inj f1').symm
            subst hbb
            have han : a = n := by
              rcases List.mem_cons.1 r4 with e | e
              · exfalso
                have h1 := g2
                rw [e] at h1
                have h2 := congrArg Node.seq h1
                rw [f2', h.seqs] at h2
                omega
              · simpa using e
            subst han
            have e : Pool.pop c p = some (false, freeNode { p' with first := some a } b') := by
              unfold Pool.pop
              rw [f1]
              dsimp only
              rw [hpb]
              dsimp only
              rw [if_pos (by rw [f2, Nat.mod_eq_of_lt (by omega)]; exact hmore), f2, g1]
            have hrep := freeNode_rep r1
            refine ⟨freeNode { p' with first := some a } b', ?_, g4, Or.inl ⟨hmore, ?_⟩⟩
            · rw [step, e]
              show some (Out.popped false, _) = some (Out.popped (decide (t.lo + 1 = c.npackets.toNat)), _)
              rw [decide_eq_false (by omega)]
            · have hm2 : max t.hi (min (t.lo + 2) c.npackets.toNat) = t.lo + 2 := by omega
              refine ⟨?_, ?_, ?_, h.seqs, h.offs, ?_, ⟨[a], b' :: fs', a, ?_, rfl, ?_⟩, ?_, ?_⟩
              · show max t.hi (min (t.lo + 2) c.npackets.toNat) ≤ _
                omega
              · show t.lo + 1 < max t.hi (min (t.lo + 2) c.npackets.toNat)
                omega
              · show max t.hi (min (t.lo + 2) c.npackets.toNat) - (t.lo + 1) ≤ t.most
                have := h.most
                omega
              · intro k hk
                have hk' : max t.hi (min (t.lo + 2) c.npackets.toNat) ≤ k := hk
                exact h.later k (by omega)
              · show Rep _ [a] (b' :: fs') (window { t with lo := t.lo + 1, hi := max t.hi (min (t.lo + 2) c.npackets.toNat) } (max t.hi (min (t.lo + 2) c.npackets.toNat))) (t.lo + 1)
                rw [hm2]
                have : window { t with lo := t.lo + 1, hi := t.lo + 2 } (t.lo + 2) = (window t (t.lo + 2)).tail := by
                  unfold window
                  show (List.range' (t.lo + 1) (t.lo + 2 - (t.lo + 1))).map t.now = _
                  rw [show t.lo + 2 - t.lo = (t.lo + 2 - (t.lo + 1)) + 1 by omega, List.range'_succ]
                  rfl
                rw [this]
                exact hrep
              · show p'.last = some a
                rw [r3, ← r2]; rfl
              · show p'.ctx = state (max t.hi (min (t.lo + 2) c.npackets.toNat))
                rw [hm2, g3.ctx]
                show state (max t.hi (t.lo + 1 + 1)) = _
                rw [hmax]
              · intro hb
                have hb' : 1 < p'.blocks.length := hb
                show (p'.blocks.length - 1) * (p'.numalist - 1) < t.most
                rcases r5 with r5 | r5
                · rw [r5, g4]; exact h.blocks (by rw [← r5]; exact hb')
                · exfalso
                  have h1 : 99 ≤ p.numalist - 1 := by omega
                  have h2 : 1 * 99 ≤ (p'.blocks.length - 1) * (p.numalist - 1) := Nat.mul_le_mul (by omega) h1
                  omega
        · right
          have e : Pool.pop c p = some (true, { freeNode p b with first := none, last := none }) := by
            unfold Pool.pop
            rw [f1]
            dsimp only
            rw [hpb]
            dsimp only
            rw [if_neg]
            rw [f2]
            by_cases hw : t.lo + 1 < 2 ^ 32
            · rw [Nat.mod_eq_of_lt hw]; exact hmore
            · omega
          refine ⟨{ freeNode p b with first := none, last := none }, ?_, rfl, Or.inr ⟨?_, ?_⟩⟩
          · rw [step, e]
            show some (Out.popped true, _) = some (Out.popped (decide (t.lo + 1 = c.npackets.toNat)), _)
            rw [decide_eq_true (by omega)]
          · show t.lo + 1 = _
            omega
          · refine ⟨⟨b :: fs, ?_⟩, h.blocks⟩
            exact (free_core p hr.core).1.change none none p.ctx (fun _ _ => rfl) (fun _ _ => rfl)

/-- All steps. -/
theorem run_shows (c : Pool.Cfg) (delta : Nat → Nat) (state : Nat → Sched.Ctx) (hd : ∀ k < c.npackets.toNat, Sched.nextDelta c.E (state k) = (.ok (delta k), state (k + 1))) :
    ∀ (ops : List Op) (p : Pool) (t : Table) (outs : List Out) (t' : Table), ((t.lo < c.npackets.toNat ∧ Shows c delta state p t) ∨ (t.lo = c.npackets.toNat ∧ Over p t)) →
    uses c.npackets.toNat t ops = some (outs, t') → (run c p ops = none ∧ ∃ k, c.ok k = false) ∨
    ∃ p', run c p ops = some (outs, p') ∧ p'.numalist = p.numalist ∧ ((t'.lo < c.npackets.toNat ∧ Shows c delta state p' t') ∨ (t'.lo = c.npackets.toNat ∧ Over p' t'))
  | [], p, t, outs, t', h, hu => by
    rw [uses] at hu
    injection hu with hu
    injection hu with h1 h2
    subst h1; subst h2
    exact Or.inr ⟨p, rfl, rfl, h⟩
  | o :: os, p, t, outs, t', h, hu => by
    rw [uses] at hu
    cases ho : use c.npackets.toNat t o with
    | none => rw [ho] at hu; cases hu
    | some x =>
      rcases x with ⟨out, t1⟩
      rw [ho] at hu
      simp only [Option.bind_some] at hu
      cases hos : uses c.npackets.toNat t1 os with
      | none => rw [hos] at hu; cases hu
      | some y =>
        rcases y with ⟨outs1, t2⟩
        rw [hos] at hu
        injection hu with hu
        injection hu with h1 h2
        subst h1
        have h2' : t2 = t' := h2
        subst h2'
        rcases h with ⟨_, h⟩ | ⟨h, _⟩
        · rcases step_shows c delta state hd h ho with ⟨s1, s2⟩ | ⟨p1, s1, s2, s3⟩
          · exact Or.inl ⟨by rw [run, s1]; rfl, s2⟩
          · rcases run_shows c delta state hd os p1 t1 outs1 t2 s3 hos with ⟨r1, r2⟩ | ⟨p2, r1, r2, r3⟩
            · refine Or.inl ⟨?_, r2⟩
              rw [run, s1]
              simp only [Option.bind_some]
              rw [r1]; rfl
            · refine Or.inr ⟨p2, ?_, by rw [r2, s2], r3⟩
              rw [run, s1]
              simp only [Option.bind_some]
              rw [r1]; rfl
        · exfalso
          have : use c.npackets.toNat t o = none := by
            cases o <;> rw [use, if_neg (by omega)]
          rw [this] at ho; cases ho

theorem setUp_core (c : Pool.Cfg) (estimate : Nat) (ctx : Sched.Ctx) (p : Pool) (h : setUp c estimate ctx = some p) :
    Core p [] (cells 0 (max estimate 100 - 1)) ∧ p.numalist = max estimate 100 ∧ p.blocks = [0] ∧ p.last = none ∧ p.ctx = ctx := by
  unfold setUp at h
  have h0 : Core ⟨fun _ => ⟨zeroNode, none⟩, 0, max estimate 100, [], none, none, none, none, [], 0, ctx⟩ [] [] :=
    ⟨rfl, rfl, List.nodup_nil, by simp, by simp, Nat.le_max_right _ _, List.Perm.refl _, List.nodup_nil⟩
  rcases grab_core c _ h0 with ⟨g, _⟩ | ⟨p', g1, g2, _, g4, g5, _, g7, g8⟩
  · rw [g] at h; cases h
  · rw [g1] at h
    injection h with h
    subst h
    exact ⟨g2, g5, g4, g7, g8⟩

theorem begin_shows (c : Pool.Cfg) (delta : Nat → Nat) (state : Nat → Sched.Ctx) (hd : ∀ k < c.npackets.toNat, Sched.nextDelta c.E (state k) = (.ok (delta k), state (k + 1)))
    (estimate : Nat) (p : Pool) (h : setUp c estimate (state 0) = some p) (hn : 0 < c.npackets.toNat) : (∃ p', begin_ c p = some (false, p') ∧ ∃ k, c.ok k = false) ∨
    ∃ p', begin_ c p = some (true, p') ∧ p'.numalist = max estimate 100 ∧ Shows c delta state p' ⟨0, 1, 1, scheduled c.start delta⟩ := by
  obtain ⟨h1, h2, h3, h4, h5⟩ := setUp_core c estimate _ p h
  rcases alloc_core c p h1 hn (by unfold stale; rw [h4]) (by simp) with ⟨p', a1, a2⟩ | ⟨a, p', fs', a1, a2, a3, a4, a5, a6, a7, a8, a9, a10, a11, a12⟩
  · left
    unfold begin_
    rw [a1]
    exact ⟨p', rfl, a2⟩
  · right
    obtain ⟨mem', hm⟩ : ∃ mem', Pool.put p'.mem a ⟨{ (p'.mem a).node with relative := delta 0, absolute := Pool.absOf c (delta 0) }, (p'.mem a).next⟩ = mem' := ⟨_, rfl⟩
    have hma : mem' a = ⟨⟨0, false, false, delta 0, Pool.absOf c (delta 0)⟩, none⟩ := by
      rw [← hm]
      unfold Pool.put
      rw [if_pos rfl, a7]
      dsimp only
      rw [a4, a5, a6]
    have hmo : ∀ x, x ≠ a → mem' x = p'.mem x := by
      intro x hx; rw [← hm]; unfold Pool.put; rw [if_neg hx]
    refine ⟨{ p' with mem := mem', ctx := state 1, first := some a, last := some a }, ?_, by rw [← h2]; exact a8, ?_⟩
    · unfold begin_
      rw [a1]
      dsimp only
      rw [a11, h5, hd 0 hn]
      dsimp only
      rw [hm]
    · have hcore : Core { p' with mem := mem', ctx := state 1, first := some a, last := some a } [a] fs' := by
        refine a2.change (some a) (some a) (state 1) ?_ ?_
        · intro x hx
          have : x = a := by simpa using hx
          rw [this, hma, a4]
        · intro x hx
          rw [hmo x]
          rintro rfl
          have hnd := a2.nodup
          rw [List.nodup_append] at hnd
          exact hnd.2.2 x (by simp) x hx rfl
      refine ⟨hn, Nat.zero_lt_one, Nat.le_refl _, fun _ => rfl, fun _ => rfl, fun _ _ => rfl, ⟨[a], fs', a, ⟨hcore, ?_, ?_, rfl⟩, rfl, rfl⟩, rfl, ?_⟩
      · refine ⟨rfl, ?_⟩
        show (mem' a).next = none
        rw [hma]
      · show [(mem' a).node] = [scheduled c.start delta 0]
        rw [hma]; rfl
      · intro hb
        exfalso
        have hb' : 1 < p'.blocks.length := hb
        have hpos : 99 ≤ p.numalist - 1 := by have := h1.num; omega
        rcases a12 with e | ⟨_, e⟩
        · rw [e, h3] at hb'; simp at hb'
        · rw [h3] at e; simp at e; omega

/-- **C92.** Whatever an end point looks up, changes and takes off, it gets what a table of all packets would give, with each packet's own scheduled time and notes, unless memory was refused. It has more than one
array only if so many packets were waited for at one time that the others were full. And all arrays it got, each once, are given back in the end. -/
theorem C92_kept (c : Pool.Cfg) (estimate : Nat) (ctx : Sched.Ctx) (delta : Nat → Nat) (hd : Draws c.E ctx delta c.npackets.toNat) (p : Pool) (hs : setUp c estimate ctx = some p)
    (p1 : Pool) (hb : begin_ c p = some (true, p1)) (hn : 0 < c.npackets.toNat) (ops : List Op) (outs : List Out) (t : Table)
    (hu : uses c.npackets.toNat ⟨0, 1, 1, scheduled c.start delta⟩ ops = some (outs, t)) :
    (run c p1 ops = none ∧ ∃ k, c.ok k = false) ∨
    ∃ p2, run c p1 ops = some (outs, p2) ∧ (1 < p2.blocks.length → (p2.blocks.length - 1) * (max estimate 100 - 1) < t.most) ∧
      p2.blocks.Nodup ∧ ∀ n, p2.blocks.length ≤ n → lostFree p2.mem n p2.allocated = p2.blocks := by
  obtain ⟨state, rfl, hst⟩ := hd
  rcases begin_shows c delta state hst estimate p hs hn with ⟨p', e, _⟩ | ⟨p', e, e2, e3⟩
  · rw [e] at hb
    injection hb with hb
    injection hb with hb
    cases hb
  · rw [e] at hb
    injection hb with hb
    injection hb with _ hb
    subst hb
    rcases run_shows c delta state hst ops p' _ outs t (Or.inl ⟨hn, e3⟩) hu with r | ⟨p2, r1, r2, r3⟩
    · exact Or.inl r
    · right
      refine ⟨p2, r1, ?_⟩
      rw [← e2, ← r2]
      rcases r3 with ⟨_, r3⟩ | ⟨_, r3⟩
      · obtain ⟨used, fs, l, h1, _⟩ := r3.rep
        refine ⟨r3.blocks, ?_, fun n hn => h1.core.heads.frees n hn⟩
        have := h1.core.nodup
        rw [List.nodup_append, List.nodup_append] at this
        exact this.2.1.2.1
      · obtain ⟨fs, h1⟩ := r3.core
        refine ⟨r3.blocks, ?_, fun n hn => h1.heads.frees n hn⟩
        have := h1.nodup
        rw [List.nodup_append, List.nodup_append] at this
        exact this.2.1.2.1

/-- **C92.** A session that was set up begins, unless memory is refused. -/
theorem C92_begins (c : Pool.Cfg) (estimate : Nat) (ctx : Sched.Ctx) (delta : Nat → Nat) (hd : Draws c.E ctx delta c.npackets.toNat) (p : Pool) (hs : setUp c estimate ctx = some p)
    (hn : 0 < c.npackets.toNat) : ∃ b p', begin_ c p = some (b, p') ∧ (b = false → ∃ k, c.ok k = false) := by
  obtain ⟨state, rfl, hst⟩ := hd
  rcases begin_shows c delta state hst estimate p hs hn with ⟨p', e, h⟩ | ⟨p', e, _⟩
  · exact ⟨false, p', e, fun _ => h⟩
  · exact ⟨true, p', e, fun h => by cases h⟩

/-! The lists of the models of the receiver and of two-way tests. -/

theorem tw_grow (tw : TwoWay.Cfg) (ok : Nat → Bool) : ∀ n q ctx, growL ⟨tw.E, tw.start, tw.npackets, ok⟩ n q ctx = TwoWay.grow tw n q ctx
  | 0, _, _ => rfl
  | n + 1, q, ctx => by
    rw [growL, TwoWay.grow]
    cases q.getLast? with
    | none => rfl
    | some e =>
      dsimp only
      split
      · rfl
      · rcases hd : Sched.nextDelta tw.E ctx with ⟨r, ctx'⟩
        cases r with
        | error _ => rfl
        | ok delta => exact tw_grow tw ok n _ _

/-- Two-way tests use `sent`, receivers do not. -/
def forget (n : Node) : Recv.Node := ⟨n.seq, n.hit, n.relative, n.absolute⟩

theorem recv_grow (rc : Recv.Cfg) (ok : Nat → Bool) : ∀ n q ctx, (growL ⟨rc.E, rc.start, rc.npackets, ok⟩ n q ctx).map (fun x => (x.1.map forget, x.2)) = Recv.grow rc n (q.map forget) ctx
  | 0, _, _ => rfl
  | n + 1, q, ctx => by
    rw [growL, Recv.grow, List.getLast?_map]
    cases q.getLast? with
    | none => rfl
    | some e =>
      dsimp only [Option.map_some]
      rw [show (forget e).seq = e.seq from rfl]
      split
      · rfl
      · rcases hd : Sched.nextDelta rc.E ctx with ⟨r, ctx'⟩
        cases r with
        | error _ => rfl
        | ok delta =>
          dsimp only
          rw [recv_grow rc ok n, List.map_append]
          rfl

/-- **C92.** The lists by which packets are modelled in the other properties are those in memory: looking a packet up leaves in memory what it leaves on the list of the model of a two-way
test, and the one found is that packet. -/
theorem C92_twoway (tw : TwoWay.Cfg) (ok : Nat → Bool) (p : Pool) {used fs : List Nat} {q : List Node} {lo l seq : Nat} (h : Rep p used fs q lo) (hlast : used.getLast? = some l)
    (hl : p.last = some l) (hs : lo ≤ seq) :
    (TwoWay.reach tw seq q p.ctx = none → getNode ⟨tw.E, tw.start, tw.npackets, ok⟩ p seq = none) ∧
    ∀ q' ctx', TwoWay.reach tw seq q p.ctx = some (q', ctx') → (getNode ⟨tw.E, tw.start, tw.npackets, ok⟩ p seq = none ∧ ∃ k, ok k = false) ∨
      ∃ a l' p' used' fs', getNode ⟨tw.E, tw.start, tw.npackets, ok⟩ p seq = some (some a, p') ∧ Rep p' used' fs' q' lo ∧ used'.getLast? = some l' ∧ p'.last = some l' ∧ p'.ctx = ctx' ∧
        a ∈ used' ∧ (p'.mem a).node.seq = seq := by
  have hr : reachL ⟨tw.E, tw.start, tw.npackets, ok⟩ seq q p.ctx = TwoWay.reach tw seq q p.ctx := by
    unfold reachL TwoWay.reach
    cases q.getLast? with
    | none => rfl
    | some e => dsimp only; rw [tw_grow]
  have hg := (getNode_rep ⟨tw.E, tw.start, tw.npackets, ok⟩ p (seq := seq) h hlast hl).2 hs
  rw [hr] at hg
  constructor
  · intro e; rw [e] at hg; exact hg
  · intro q' ctx' e
    rw [e] at hg
    rcases hg with g | ⟨a, l', p', used', fs', g1, g2, g3, g4, g5, _, _, g8, g9, _, _⟩
    · exact Or.inl g
    · exact Or.inr ⟨a, l', p', used', fs', g1, g2, g3, g4, g5, g8, g9⟩

/-- **C92.** The same for a receiver. -/
theorem C92_receiver (rc : Recv.Cfg) (ok : Nat → Bool) (p : Pool) {used fs : List Nat} {q : List Node} {lo l seq : Nat} (h : Rep p used fs q lo) (hlast : used.getLast? = some l)
    (hl : p.last = some l) (hs : lo ≤ seq) :
    (Recv.reach rc seq (q.map forget) p.ctx = none → getNode ⟨rc.E, rc.start, rc.npackets, ok⟩ p seq = none) ∧
    ∀ q' ctx', Recv.reach rc seq (q.map forget) p.ctx = some (q', ctx') → (getNode ⟨rc.E, rc.start, rc.npackets, ok⟩ p seq = none ∧ ∃ k, ok k = false) ∨
      ∃ a l' p' used' fs' q2, getNode ⟨rc.E, rc.start, rc.npackets, ok⟩ p seq = some (some a, p') ∧ Rep p' used' fs' q2 lo ∧ q2.map forget = q' ∧ used'.getLast? = some l' ∧ p'.last = some l' ∧
        p'.ctx = ctx' ∧ a ∈ used' ∧ (p'.mem a).node.seq = seq := by
  have hr : (reachL ⟨rc.E, rc.start, rc.npackets, ok⟩ seq q p.ctx).map (fun x => (x.1.map forget, x.2)) = Recv.reach rc seq (q.map forget) p.ctx := by
    unfold reachL Recv.reach
    rw [List.getLast?_map]
    cases q.getLast? with
    | none => rfl
    | some e =>
      dsimp only [Option.map_some]
      rw [show (forget e).seq = e.seq from rfl]
      split
      · exact recv_grow rc ok _ _ _
      · rfl
  have hg := (getNode_rep ⟨rc.E, rc.start, rc.npackets, ok⟩ p (seq := seq) h hlast hl).2 hs
  rw [← hr]
  constructor
  · intro e
    rw [Option.map_eq_none_iff] at e
    rw [e] at hg; exact hg
  · intro q' ctx' e
    rw [Option.map_eq_some_iff] at e
    obtain ⟨⟨q2, ctx2⟩, e1, e2⟩ := e
    injection e2 with e2 e3
    subst e3
    rw [e1] at hg
    rcases hg with g | ⟨a, l', p', used', fs', g1, g2, g3, g4, g5, _, _, g8, g9, _, _⟩
    · exact Or.inl g
    · exact Or.inr ⟨a, l', p', used', fs', q2, g1, g2, e2, g3, g4, g5, g8, g9⟩

/-! Examples and exceptions. -/

/-- A session of 300 packets, one every 5 units. -/
def poolCtx : Sched.Ctx := ⟨⟨[], [], []⟩, 0, 300, 1, [.literal 5]⟩

def poolCfg (ok : Nat → Bool) : Pool.Cfg := ⟨fun _ b => b, 0, 300, ok⟩

theorem poolDraws : Draws (fun _ b => b) poolCtx (fun _ => 5) 300 := by
  refine ⟨fun k => { poolCtx with i := k }, rfl, ?_⟩
  intro k hk
  unfold Sched.nextDelta
  rw [if_neg (by show ¬ k ≥ 300; omega), if_neg (by show ¬ 1 = 0; omega)]
  dsimp only [poolCtx]
  rw [Nat.mod_one]
  rfl

/-- What a history gives. -/
def poolRun (ok : Nat → Bool) (ops : List Op) : Option (List Out × Nat × List Nat) :=
  (setUp (poolCfg ok) 0 poolCtx).bind fun p => (begin_ (poolCfg ok) p).bind fun r => (run (poolCfg ok) r.2 ops).map fun x => (x.1, x.2.blocks.length, x.2.blocks)

example : poolRun (fun _ => true) [.change 2 true false ⟨7, 7⟩, .pop, .look 2, .pop, .look 1, .look 3] =
    some ([.node (some ⟨2, false, false, 15, timestampToTimespec ⟨15, false, 0, 0⟩⟩), .popped false, .node (some ⟨2, true, false, 15, ⟨7, 7⟩⟩), .popped false, .node none,
      .node (some ⟨3, false, false, 20, timestampToTimespec ⟨20, false, 0, 0⟩⟩)], 1, [0]) := by decide +kernel

/-- After 99 packets at a time a second array is needed; it is used again. -/
example : (poolRun (fun _ => true) [.look 98]).map (·.2) = some (1, [0]) ∧ (poolRun (fun _ => true) [.look 99]).map (·.2) = some (2, [100, 0]) ∧
    (poolRun (fun _ => true) (.look 99 :: List.replicate 150 .pop ++ [.look 280])).map (·.2) = some (2, [100, 0]) := by
  refine ⟨by decide +kernel, by decide +kernel, by decide +kernel⟩

/-- C92 does not go further: when memory is refused in the middle of a session the program uses a null pointer. -/
theorem C92_no_memory : ∃ (c : Pool.Cfg) (p1 : Pool), (∃ p, setUp c 0 poolCtx = some p ∧ begin_ c p = some (true, p1)) ∧ c.ok 2 = false ∧ 1 < c.npackets.toNat ∧ getNode c p1 1 = none := by
  have h : ((setUp (poolCfg fun k => k < 2) 0 poolCtx).bind fun p => (begin_ (poolCfg fun k => k < 2) p).map fun r => (r.1, (getNode (poolCfg fun k => k < 2) r.2 1).isNone)) = some (true, true) := by
    decide +kernel
  rw [Option.bind_eq_some_iff] at h
  obtain ⟨p, h1, h2⟩ := h
  rw [Option.map_eq_some_iff] at h2
  obtain ⟨⟨b, p1⟩, h3, h4⟩ := h2
  injection h4 with h4 h5
  have h4' : b = true := h4
  subst h4'
  exact ⟨_, p1, ⟨p, h1, h3⟩, by decide, by decide, Option.isNone_iff_eq_none.1 h5⟩

end Owamp.Props
