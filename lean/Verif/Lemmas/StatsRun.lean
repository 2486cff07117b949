import Verif.Lemmas.Stats
/-!
# Lemmas about summaries: what one record does
-/
namespace Owamp.Stats
open Owamp.Num64 Owamp.Codec Owamp.Spec.Stats

theorem flushWhile_spec (c : Cfg) (c0 : Sched.Ctx) (ds : List Nat) (D : List DataRec) (p : Node → Bool) (P : Nat → Bool)
    (hp : ∀ n : Node, n.sched = tm c ds (n.seq + 1) → p n = P n.seq) (hN : ds.length < 2 ^ 32) (f : Nat) :
    ∀ (b : Nat) (s : St), Win c c0 ds b s → Marks c b D s → s.last < f + b →
      (flushWhile c p f s = .error .refused ∧ ∀ k, b ≤ k → k < s.last → P k = true) ∨
      (∃ b' s', flushWhile c p f s = .ok s' ∧ b ≤ b' ∧ (∀ k, b ≤ k → k < b' → P k = true) ∧ P b' = false ∧
        Win c c0 ds b' s' ∧ Marks c b' D s' ∧ Same s s') := by
  induction f with
  | zero => intro b s hw _ hf; have := hw.fits; omega
  | succ f ih =>
    intro b s hw hm hf
    obtain ⟨n, rest, hn⟩ : ∃ f q, s.nodes = f :: q := by
      cases hq : s.nodes with
      | nil => exact (hw.ne hq).elim
      | cons f q => exact ⟨f, q, rfl⟩
    have hch := hw.chain
    rw [hn] at hch
    have hb : n.seq = b := hch.1.1
    have hpn : p n = P b := by rw [hp n (by rw [hch.1.2, hb]), hb]
    have hfit := hw.fits
    rw [hn, List.length_cons] at hfit
    by_cases hP : P b = true
    · obtain ⟨f1, f2⟩ := flushOne_spec c c0 ds b D s hw hm hN
      by_cases hlt : b + 1 < s.last
      · obtain ⟨s', e1, e2, e3, e4⟩ := f1 hlt
        have hgo : flushWhile c p (f + 1) s = flushWhile c p f s' := by
          rw [flushWhile, hn]
          dsimp only
          rw [if_pos (by rw [hpn]; exact hP), e1]
        rw [hgo]
        rcases ih (b + 1) s' e2 e3 (by rw [e4.last]; omega) with ⟨a1, a2⟩ | ⟨b', s'', a1, a2, a3, a4, a5, a6, a7⟩
        · left
          refine ⟨a1, fun k k1 k2 => ?_⟩
          by_cases e : k = b
          · rw [e]; exact hP
          · exact a2 k (by omega) (by rw [e4.last]; exact k2)
        · right
          refine ⟨b', s'', a1, by omega, fun k k1 k2 => ?_, a4, a5, a6, e4.trans a7⟩
          by_cases e : k = b
          · rw [e]; exact hP
          · exact a3 k (by omega) k2
      · left
        obtain ⟨s', e1, _⟩ := f2 hlt
        refine ⟨?_, fun k k1 k2 => ?_⟩
        · rw [flushWhile, hn]
          dsimp only
          rw [if_pos (by rw [hpn]; exact hP), e1]
        · rw [show k = b by omega]; exact hP
    · right
      refine ⟨b, s, ?_, Nat.le_refl _, fun k k1 k2 => by omega, by simpa using hP, hw, hm, Same.rfl' s⟩
      rw [flushWhile, hn]
      dsimp only
      rw [if_neg (by rw [hpn]; exact hP)]

/-! ## Figures -/

/-- The position in the file (stats.c:1030-1038). -/
def place (c : Cfg) (s : St) (r : DataRec) : St :=
  { s with nextOset := if s.nextOset = 0 ∧ r.seq.toNat ≥ s.last then s.beginOset + s.i * c.recSize else s.nextOset
           i := s.i + 1 }

/-- A loss. -/
def figLost (r : DataRec) (s : St) : St :=
  { s with sent := (s.sent + 1) % 2 ^ 32
           sync := s.sync && r.recv.sync
           maxerr := Nat.max s.maxerr (stampError r.recv) }

/-- The arrival of a packet of which `seen` copies came before. -/
def figGot (c : Cfg) (seen : Nat) (r : DataRec) (s : St) : St :=
  let s := { s with sent := if seen = 0 then (s.sent + 1) % 2 ^ 32 else s.sent }
  let s := arrive c r.seq.toNat s
  let d := c.delay r.send r.recv
  let s := { s with sync := s.sync && r.send.sync && r.recv.sync
                    maxerr := Nat.max s.maxerr (stampError r.send + stampError r.recv)
                    min := if d < s.min then d else s.min
                    max := if d > s.max then d else s.max }
  if seen ≠ 0 then s
  else
    { s with hist := bump (c.bucket d) s.hist
             ttl := s.ttl.set r.ttl.toNat (s.ttl.getD r.ttl.toNat 0 + 1) }

/-- The figures after a record. -/
def figure (c : Cfg) (D : List DataRec) (r : DataRec) (s : St) : St :=
  if Within s.first s.last r ∧ ¬ Skipped c.skips r.seq.toNat then
    if Lost r then figLost r (place c s r) else figGot c (copies (cnt c s D) r.seq.toNat) r (place c s r)
  else place c s r

theorem strip_figLost (r : DataRec) (s s' : St) (h : Same s s') : Same (figLost r s) (figLost r s') := by
  intro x
  have := h x
  have e : ∀ u : St, strip x (figLost r u) = figLost r (strip x u) := fun _ => rfl
  rw [e, e, this]

theorem strip_figGot (c : Cfg) (n : Nat) (r : DataRec) (s s' : St) (h : Same s s') : Same (figGot c n r s) (figGot c n r s') := by
  intro x
  have := h x
  have e : ∀ u : St, strip x (figGot c n r u) = figGot c n r (strip x u) := by
    intro u
    unfold figGot
    by_cases hn : n ≠ 0
    · simp only [if_pos hn]; rfl
    · simp only [if_neg hn]; rfl
  rw [e, e, this]

theorem strip_place (c : Cfg) (r : DataRec) (s s' : St) (h : Same s s') : Same (place c s r) (place c s' r) := by
  intro x
  have := h x
  have e : ∀ u : St, strip x (place c u r) = place c (strip x u) r := fun _ => rfl
  rw [e, e, this]

theorem addLost_fig (r : DataRec) (n : Node) (s : St) (h : n.seen = 0) :
    ∃ s', addLost r n s = .ok s' ∧ Same (figLost r s) s' ∧ s'.nodes = setNode { n with lost := true } s.nodes ∧ s'.ctx = s.ctx ∧
      s'.isctx = s.isctx ∧ s'.endnum = s.endnum ∧ s'.iskip = s.iskip ∧ s'.lost = s.lost ∧ s'.dups = s.dups ∧ s'.first = s.first ∧ s'.last = s.last := by
  unfold addLost
  rw [if_neg (by omega)]
  exact ⟨_, rfl, fun _ => rfl, rfl, rfl, rfl, rfl, rfl, rfl, rfl, rfl, rfl⟩

theorem addGot_fig (c : Cfg) (r : DataRec) (n : Node) (s : St) (h : n.lost = false) (hs : n.seen + 1 < 2 ^ 32) :
    ∃ s', addGot c r n s = .ok s' ∧ Same (figGot c n.seen r s) s' ∧ s'.nodes = setNode { n with seen := n.seen + 1 } s.nodes ∧ s'.ctx = s.ctx ∧
      s'.isctx = s.isctx ∧ s'.endnum = s.endnum ∧ s'.iskip = s.iskip ∧ s'.lost = s.lost ∧ s'.dups = s.dups ∧ s'.first = s.first ∧ s'.last = s.last := by
  unfold addGot figGot
  rw [if_neg (by rw [h]; exact Bool.false_ne_true)]
  rw [Nat.mod_eq_of_lt hs]
  by_cases h0 : n.seen = 0
  · simp only [h0, ne_eq, not_true, if_false, if_true, Nat.zero_add, gt_iff_lt, Nat.lt_irrefl]
    exact ⟨_, rfl, fun _ => rfl, rfl, rfl, rfl, rfl, rfl, rfl, rfl, rfl, rfl⟩
  · have : n.seen + 1 > 1 := by omega
    simp only [h0, ne_eq, not_false_iff, if_false, if_true, this]
    exact ⟨_, rfl, fun _ => rfl, rfl, rfl, rfl, rfl, rfl, rfl, rfl, rfl, rfl⟩

/-! ## Changing one packet of the window -/

theorem setNode_length (n : Node) (q : List Node) : (setNode n q).length = q.length := by simp [setNode]

theorem setNode_chain (c : Cfg) (ds : List Nat) (n : Node) (hn : n.sched = tm c ds (n.seq + 1)) (q : List Node) (k : Nat)
    (h : Chain c ds k q) : Chain c ds k (setNode n q) := by
  induction q generalizing k with
  | nil => trivial
  | cons x q ih =>
    obtain ⟨⟨h1, h2⟩, h3⟩ := h
    refine ⟨?_, ih _ h3⟩
    dsimp only
    by_cases e : x.seq = n.seq
    · rw [if_pos e]; exact ⟨by rw [← e]; exact h1, by rw [hn, ← e, h1]⟩
    · rw [if_neg e]; exact ⟨h1, h2⟩

theorem mem_setNode (n m : Node) (q : List Node) (h : m ∈ setNode n q) : m = n ∨ (m ∈ q ∧ m.seq ≠ n.seq) := by
  unfold setNode at h
  obtain ⟨x, h1, h2⟩ := List.mem_map.1 h
  by_cases e : x.seq = n.seq
  · rw [if_pos e] at h2; exact Or.inl h2.symm
  · rw [if_neg e] at h2; subst h2; exact Or.inr ⟨h1, e⟩

/-- After a record that counts: `n'` is the changed record of its packet. -/
theorem Marks.update {c : Cfg} {c0 : Sched.Ctx} {ds : List Nat} {b : Nat} {D : List DataRec} {s s' : St} {r : DataRec} {n n' : Node}
    (hw : Win c c0 ds b s) (h : Marks c b D s) (hD : (D ++ [r]).length < 2 ^ 32) (hnm : n ∈ s.nodes) (hnr : n.seq = r.seq.toNat)
    (hin : Within s.first s.last r ∧ ¬ Skipped c.skips r.seq.toNat)
    (hn' : n'.seq = n.seq ∧ n'.sched = n.sched)
    (hgot : n'.seen = n.seen + (if Lost r then 0 else 1)) (hlost : n'.lost = (n.lost || decide (Lost r)))
    (hok : if Lost r then n.seen = 0 else n.lost = false)
    (e1 : s'.nodes = setNode n' s.nodes) (e2 : s'.ctx = s.ctx) (e3 : s'.isctx = s.isctx) (e4 : s'.endnum = s.endnum)
    (e5 : s'.iskip = s.iskip) (e6 : s'.lost = s.lost) (e7 : s'.dups = s.dups) (e8 : s'.first = s.first) (e9 : s'.last = s.last) :
    Win c c0 ds b s' ∧ Marks c b (D ++ [r]) s' := by
  have hlen : s'.nodes.length = s.nodes.length := by rw [e1, setNode_length]
  obtain ⟨c1, c2, c3⟩ := chain_mem c ds s.nodes b hw.chain n hnm
  have hcnt : cnt c s' (D ++ [r]) = cnt c s D ++ [r] := by
    show counted _ _ _ _ = _
    rw [e8, e9, counted_append, if_pos hin]
  have hlow : ∀ k, k < b → copies (cnt c s D ++ [r]) k = copies (cnt c s D) k ∧ losses (cnt c s D ++ [r]) k = losses (cnt c s D) k := by
    intro k hk
    rw [copies_append, losses_append, if_neg (by omega), if_neg (by omega)]
    exact ⟨rfl, rfl⟩
  obtain ⟨m1, m2⟩ := h.marks n hnm
  refine ⟨⟨?_, ?_, ?_, by rw [e8]; exact hw.lo, by rw [hlen, e9]; exact hw.fits, by rw [e9]; exact hw.all⟩, ⟨?_, ?_, by rw [e5]; exact h.done, ?_, ?_, ?_, hD⟩⟩
  · have := hw.clock
    rw [hlen]
    exact ⟨by rw [e3]; exact this.idx, by rw [e4]; exact this.time, by rw [e2]; exact this.used, by rw [e2]; exact this.rest, this.le⟩
  · rw [e1]; exact setNode_chain c ds n' (by rw [hn'.1, hn'.2]; exact c3) _ _ hw.chain
  · intro hh; have := hw.ne; rw [hh] at hlen; exact this (List.eq_nil_of_length_eq_zero hlen.symm)
  · intro m hm
    rw [hcnt, copies_append, losses_append]
    rw [e1] at hm
    rcases mem_setNode n' m s.nodes hm with hx | ⟨hx1, hx2⟩
    · subst hx
      rw [hn'.1, ← m1, hgot, hlost]
      by_cases hl : Lost r
      · simp [hl, hnr]
      · rw [if_neg hl] at hok ⊢
        have : losses (cnt c s D) n.seq = 0 := by
          apply Decidable.byContradiction
          intro hh; have := m2.2 hh; rw [hok] at this; cases this
        simp [hl, hnr, hok]
        rw [hnr] at this; exact this
    · rw [hn'.1, hnr] at hx2
      rw [if_neg (by omega), if_neg (by omega)]
      exact h.marks m hx1
  · rw [hcnt, hlen]
    intro x hx
    rcases List.mem_append.1 hx with hx | hx
    · exact h.beyond x hx
    · rw [List.mem_singleton.1 hx]; omega
  · rw [e6, hcnt, h.lost]
    exact packets_congr _ _ _ fun k hk => by rw [(hlow k hk).2]
  · rw [e7, hcnt, h.dups]
    unfold duplicates
    congr 1
    refine List.map_congr_left fun k hk => ?_
    rw [(hlow k (List.mem_range.1 hk)).1]
  · intro k
    rw [hcnt, copies_append, losses_append]
    have hex := h.excl k
    by_cases hk : r.seq.toNat = k
    · rw [← hnr] at hk
      rw [hk] at m1 m2
      by_cases hl : Lost r
      · rw [if_pos hl] at hok
        simp [hl]; omega
      · rw [if_neg hl] at hok
        have : ¬ losses (cnt c s D) k ≠ 0 := fun hh => by have := m2.2 hh; rw [hok] at this; cases this
        intro hh
        rw [if_neg (fun x => hl x.1)] at hh
        omega
    · rw [if_neg (by omega), if_neg (by omega)]
      exact hex

/-- A record that does not count leaves the marks. -/
theorem Marks.ignore {c : Cfg} {b : Nat} {D : List DataRec} {s : St} {r : DataRec} (h : Marks c b D s) (hD : (D ++ [r]).length < 2 ^ 32)
    (hin : ¬ (Within s.first s.last r ∧ ¬ Skipped c.skips r.seq.toNat)) : Marks c b (D ++ [r]) s := by
  have hc : cnt c s (D ++ [r]) = cnt c s D := by
    show counted _ _ _ _ = _
    rw [counted_append, if_neg hin, List.append_nil]
  exact ⟨by rw [hc]; exact h.marks, by rw [hc]; exact h.beyond, h.done, by rw [hc]; exact h.lost, by rw [hc]; exact h.dups,
    by rw [hc]; exact h.excl, hD⟩

/-- Which packets record `r` lets go. -/
def Gone (c : Cfg) (ds : List Nat) (r : DataRec) (k : Nat) : Prop :=
  if Lost r then k < r.seq.toNat else ¬ InTime c.timeout.toNat (tm c ds (k + 1)) r

instance (c : Cfg) (ds : List Nat) (r : DataRec) (k : Nat) : Decidable (Gone c ds r k) := by
  unfold Gone InTime; infer_instance

theorem isLost_iff (r : DataRec) : isLost r = true ↔ Lost r := by simp [isLost, Lost]

theorem process_spec (c : Cfg) (c0 : Sched.Ctx) (ds : List Nat) (b : Nat) (D : List DataRec) (s : St) (r : DataRec)
    (hw : Win c c0 ds b s) (hm : Marks c b D s) (hN : ds.length < 2 ^ 32) (hD : (D ++ [r]).length < 2 ^ 32) :
    (process c s r = .error .refused ∧ Within s.first s.last r ∧
      ¬ (b ≤ r.seq.toNat ∧ ¬ Gone c ds r r.seq.toNat ∧
         (¬ Skipped c.skips r.seq.toNat → if Lost r then copies (cnt c s D) r.seq.toNat = 0 else losses (cnt c s D) r.seq.toNat = 0))) ∨
    (∃ b' s', process c s r = .ok s' ∧ b ≤ b' ∧ Win c c0 ds b' s' ∧ Marks c b' (D ++ [r]) s' ∧ Same (figure c D r s) s' ∧
      (∀ k, b ≤ k → k < b' → Within s.first s.last r ∧ Gone c ds r k)) := by
  obtain ⟨s1, hs1⟩ : ∃ s1, s1 = place c s r := ⟨_, rfl⟩
  have hw1 : Win c c0 ds b s1 := by
    have := hw.clock
    rw [hs1]
    exact ⟨⟨this.idx, this.time, this.used, this.rest, this.le⟩, hw.chain, hw.ne, hw.lo, hw.fits, hw.all⟩
  have hm1 : Marks c b D s1 := by rw [hs1]; exact ⟨hm.marks, hm.beyond, hm.done, hm.lost, hm.dups, hm.excl, hm.short⟩
  have hf1 : s1.first = s.first := by rw [hs1]; rfl
  have hl1 : s1.last = s.last := by rw [hs1]; rfl
  by_cases hin : Within s.first s.last r
  · obtain ⟨p, hp⟩ : ∃ p : Node → Bool, p = (if isLost r then fun n => decide (n.seq < r.seq.toNat) else expired c r) := ⟨_, rfl⟩
    have hpP : ∀ n : Node, n.sched = tm c ds (n.seq + 1) → p n = decide (Gone c ds r n.seq) := by
      intro n hn
      rw [hp]
      by_cases hl : Lost r
      · rw [if_pos ((isLost_iff r).2 hl)]
        simp [Gone, hl]
      · rw [if_neg (fun h => hl ((isLost_iff r).1 h))]
        unfold expired Gone InTime sub u64
        apply decide_eq_decide.2
        rw [hn, if_neg hl]
        omega
    have hstart : process c s r = match flushWhile c p (s1.last + 2) s1 with
        | .error x => .error x
        | .ok s =>
          match packetGet c r.seq.toNat s with
          | .error x => .error x
          | .ok (n, s) =>
            if skipped c.skips s.iskip r.seq.toNat then .ok s
            else if isLost r then addLost r n s
            else addGot c r n s := by
      have : ¬ (r.seq.toNat < s1.first ∨ r.seq.toNat ≥ s1.last) := by
        rw [hf1, hl1]; have h1 := hin.1; have h2 := hin.2; omega
      have h0 : process c s r = if r.seq.toNat < s1.first ∨ r.seq.toNat ≥ s1.last then .ok s1 else
          match flushWhile c (if isLost r then fun n => decide (n.seq < r.seq.toNat) else expired c r) (s1.last + 2) s1 with
        | .error x => .error x
        | .ok s =>
          match packetGet c r.seq.toNat s with
          | .error x => .error x
          | .ok (n, s) =>
            if skipped c.skips s.iskip r.seq.toNat then .ok s
            else if isLost r then addLost r n s
            else addGot c r n s := by rw [hs1]; rfl
      rw [h0, if_neg this, ← hp]
    rcases flushWhile_spec c c0 ds D p (fun k => decide (Gone c ds r k)) hpP hN (s1.last + 2) b s1 hw1 hm1 (by omega) with
      ⟨a1, a2⟩ | ⟨b', s2, a1, a2, a3, a4, a5, a6, a7⟩
    · left
      refine ⟨by rw [hstart, a1], hin, fun hh => ?_⟩
      have := a2 r.seq.toNat hh.1 (by rw [hl1]; exact hin.2)
      exact hh.2.1 (by simpa using this)
    · rw [a1] at hstart
      dsimp only at hstart
      obtain ⟨g1, g2⟩ := packetGet_spec c c0 ds b' r.seq.toNat s2 a5 (by rw [a7.first, hf1]; exact hin.1) (by rw [a7.last, hl1]; exact hin.2)
      by_cases hlt : r.seq.toNat < b'
      · left
        refine ⟨by rw [hstart, g1 hlt], hin, fun hh => ?_⟩
        have := a3 r.seq.toNat hh.1 hlt
        exact hh.2.1 (by simpa using this)
      · obtain ⟨n, s3, new, k1, k2, k3, k4, k5, k6, k7, k8, k9, k10, _⟩ := g2 (by omega)
        rw [k1] at hstart
        dsimp only at hstart
        have hm3 := Marks.extend a6 k2 k3 k6 k7 k8 k9 k10
        have hsame : Same s1 s3 := a7.trans k6
        have hcs : cnt c s3 D = cnt c s D := by rw [cnt_same hsame]; rw [hs1]; rfl
        have hsk := skipped_iff c.skips s3.iskip r.seq.toNat b' (by omega) hm3.done
        have hcause : ∀ k, b ≤ k → k < b' → Within s.first s.last r ∧ Gone c ds r k :=
          fun k x y => ⟨hin, by simpa using a3 k x y⟩
        by_cases hskip : Skipped c.skips r.seq.toNat
        · right
          refine ⟨b', s3, by rw [hstart, if_pos (hsk.2 hskip)], a2, k2, Marks.ignore hm3 hD (fun h => h.2 hskip), ?_, hcause⟩
          unfold figure
          rw [if_neg (fun h => h.2 hskip), ← hs1]
          exact hsame
        · rw [if_neg (fun h => hskip (hsk.1 h))] at hstart
          obtain ⟨m1, m2⟩ := hm3.marks n k4
          rw [hcs, k5] at m1 m2
          have hin3 : Within s3.first s3.last r ∧ ¬ Skipped c.skips r.seq.toNat := by
            rw [hsame.first, hsame.last, hf1, hl1]; exact ⟨hin, hskip⟩
          have hfig : figure c D r s = if Lost r then figLost r s1 else figGot c n.seen r s1 := by
            unfold figure
            rw [if_pos ⟨hin, hskip⟩, ← hs1, m1]
          by_cases hl : Lost r
          · rw [if_pos ((isLost_iff r).2 hl)] at hstart
            rw [if_pos hl] at hfig
            by_cases hz : n.seen = 0
            · right
              obtain ⟨s', z1, z2, z3, z4, z5, z6, z7, z8, z9, z10, z11⟩ := addLost_fig r n s3 hz
              obtain ⟨y1, y2⟩ := Marks.update (n' := { n with lost := true }) k2 hm3 hD k4 k5 hin3 ⟨rfl, rfl⟩ (by simp [hl]) (by simp [hl]) (by rw [if_pos hl]; exact hz)
                z3 z4 z5 z6 z7 z8 z9 z10 z11
              refine ⟨b', s', by rw [hstart, z1], a2, y1, y2, ?_, hcause⟩
              rw [hfig]
              exact (strip_figLost r s1 s3 hsame).trans z2
            · left
              refine ⟨by rw [hstart, addLost, if_pos hz], hin, fun hh => ?_⟩
              have := hh.2.2 hskip
              rw [if_pos hl] at this
              exact hz (by rw [m1]; exact this)
          · rw [if_neg (fun h => hl ((isLost_iff r).1 h))] at hstart
            rw [if_neg hl] at hfig
            by_cases hz : n.lost = false
            · right
              have hbig : n.seen + 1 < 2 ^ 32 := by
                rw [m1]
                have q1 := copies_le (cnt c s D) r.seq.toNat
                have q2 := counted_length c.skips s.first s.last D
                simp only [List.length_append, List.length_singleton] at hD
                have q3 : (cnt c s D).length ≤ D.length := q2
                omega
              obtain ⟨s', z1, z2, z3, z4, z5, z6, z7, z8, z9, z10, z11⟩ := addGot_fig c r n s3 hz hbig
              obtain ⟨y1, y2⟩ := Marks.update (n' := { n with seen := n.seen + 1 }) k2 hm3 hD k4 k5 hin3 ⟨rfl, rfl⟩ (by simp [hl]) (by simp [hl]) (by rw [if_neg hl]; exact hz)
                z3 z4 z5 z6 z7 z8 z9 z10 z11
              refine ⟨b', s', by rw [hstart, z1], a2, y1, y2, ?_, hcause⟩
              rw [hfig]
              exact (strip_figGot c n.seen r s1 s3 hsame).trans z2
            · left
              have hz' : n.lost = true := by simpa using hz
              refine ⟨by rw [hstart, addGot, if_pos hz'], hin, fun hh => ?_⟩
              have := hh.2.2 hskip
              rw [if_neg hl] at this
              exact m2.1 hz' this
  · right
    refine ⟨b, s1, ?_, Nat.le_refl _, hw1, Marks.ignore hm1 hD (by rw [hf1, hl1]; exact fun h => hin h.1), ?_, fun k x y => by omega⟩
    · have : r.seq.toNat < s.first ∨ r.seq.toNat ≥ s.last := by unfold Within at hin; omega
      show (if r.seq.toNat < s.first ∨ r.seq.toNat ≥ s.last then Except.ok (place c s r) else _) = _
      rw [if_pos this, ← hs1]
    · unfold figure
      rw [if_neg (fun h => hin h.1), ← hs1]
      exact Same.rfl' _

end Owamp.Stats
