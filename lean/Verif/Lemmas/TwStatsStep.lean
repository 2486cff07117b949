import Verif.Lemmas.TwStatsInv
/-!
# Facts about the summaries of two-way sessions: the records
-/
namespace Owamp.TwStats
open Owamp.Codec Owamp.Spec.TwStats Owamp.Num64
open Owamp.Stats (Bad skipPast)

/-! ## Longer buffers -/

theorem Chain.new {k : Nat} {b b' : Buf} (_ : Chain k b) (h' : Chain k b') (new : List Node) (hn : b'.nodes = b.nodes ++ new) : ∀ x ∈ new, k + b.nodes.length ≤ x.seq := by
  intro x hx
  have h1 := h'.seqs
  rw [hn, List.map_append, List.length_append, ← List.range'_append_1] at h1
  have h2 := (List.append_inj h1 (by simp)).2
  have hm : x.seq ∈ new.map (·.seq) := List.mem_map_of_mem hx
  rw [h2, List.mem_range'_1] at hm
  exact hm.1

theorem Inv.extF {c : Cfg} {D : List TWDataRec} {kF kB : Nat} {s : St} (hI : Inv c D kF kB s) (b : Buf) (hc : Chain kF b) (he : Ext c.times s.fwd b)
    (hl : kF + b.nodes.length ≤ s.last) : Inv c D kF kB { s with fwd := b } := by
  obtain ⟨⟨new, e1, e2⟩, e3, e4⟩ := he
  have hnew := hI.chF.new hc new e1
  have hold : ∀ x ∈ b.nodes, x ∈ s.fwd.nodes ∨ x ∈ new := fun x hx => by rw [e1] at hx; exact List.mem_append.1 hx
  have hnone : ∀ x ∈ new, ∀ r ∈ D, seqOf r ≠ x.seq := fun x hx r hr => by have := hI.topF r hr; have := hnew x hx; omega
  have hlen : b.nodes.length = s.fwd.nodes.length + new.length := by rw [e1]; simp
  refine { chF := hc, chB := hI.chB, firstF := hI.firstF, firstB := hI.firstB, capF := hl, seen := ?_, assoc := ?_, topF := fun r hr => by have := hI.topF r hr; dsimp only; omega, seenB := hI.seenB, assocB := hI.assocB, topB := hI.topB, owner := hI.owner, excl := hI.excl, dupF := ?_, dupB := hI.dupB, lost := ?_, sent := hI.sent, sched := ?_, stale := fun x hx => hI.stale x (e3 x hx), idle := ?_ }
  · intro x hx
    rcases hold x hx with h | h
    · exact hI.seen x h
    · obtain ⟨a1, a2, _⟩ := e2 x h
      exact ⟨⟨fun hh => absurd a1 hh, fun ⟨r, r1, r2⟩ => absurd r2 (hnone x h r (mem_replies.1 r1).1)⟩,
        ⟨fun hh => (by rw [a2] at hh; cases hh), fun ⟨r, r1, r2⟩ => absurd r2 (hnone x h r (mem_losses.1 r1).1)⟩⟩
  · intro x hx hs
    rcases hold x hx with h | h
    · exact hI.assoc x h hs
    · exact absurd (e2 x h).1 hs
  · dsimp only
    rw [e1, sum_append_zero extra _ new fun x hx => by simp [extra, (e2 x hx).1]]; exact hI.dupF
  · dsimp only
    rw [e1, sum_append_zero gone _ new fun x hx => by simp [gone, (e2 x hx).2.1]]; exact hI.lost
  · intro x hx
    rcases hold x hx with h | h
    · exact hI.sched x h
    · exact (e2 x h).2.2.2
  · intro x hx hs
    rcases hold x hx with h | h
    · exact hI.idle x h hs
    · rcases (e2 x h).2.2.1 with h | h
      · exact Or.inl h
      · exact hI.stale _ h

theorem Inv.extB {c : Cfg} {D : List TWDataRec} {kF kB : Nat} {s : St} (hI : Inv c D kF kB s) (sched : Nat → Nat) (b : Buf) (hc : Chain kB b) (he : Ext sched s.bck b) :
    Inv c D kF kB { s with bck := b } := by
  obtain ⟨⟨new, e1, e2⟩, e3, e4⟩ := he
  have hnew := hI.chB.new hc new e1
  have hold : ∀ x ∈ b.nodes, x ∈ s.bck.nodes ∨ x ∈ new := fun x hx => by rw [e1] at hx; exact List.mem_append.1 hx
  have hnone : ∀ x ∈ new, ∀ r ∈ replies D, replyOf r ≠ x.seq := fun x hx r hr => by have := hI.topB r hr; have := hnew x hx; omega
  have hlen : b.nodes.length = s.bck.nodes.length + new.length := by rw [e1]; simp
  refine { hI with chB := hc, seenB := ?_, assocB := ?_, topB := fun r hr => by have := hI.topB r hr; dsimp only; omega, dupB := ?_ }
  · intro x hx
    rcases hold x hx with h | h
    · exact hI.seenB x h
    · obtain ⟨a1, a2, _⟩ := e2 x h
      exact ⟨a2, ⟨fun hh => absurd a1 hh, fun ⟨r, r1, r2⟩ => absurd r2 (hnone x h r r1)⟩⟩
  · intro x hx r hr hq
    rcases hold x hx with h | h
    · exact hI.assocB x h r hr hq
    · exact absurd hq (hnone x h r hr)
  · dsimp only
    rw [e1, sum_append_zero extra _ new fun x hx => by simp [extra, (e2 x hx).1]]; exact hI.dupB

/-! ## One record -/

theorem replies_lost {D : List TWDataRec} {r : TWDataRec} (h : Lost r) : replies (D ++ [r]) = replies D := by rw [replies_snoc, if_pos h]
theorem replies_got {D : List TWDataRec} {r : TWDataRec} (h : ¬ Lost r) : replies (D ++ [r]) = replies D ++ [r] := by rw [replies_snoc, if_neg h]
theorem losses_lost {D : List TWDataRec} {r : TWDataRec} (h : Lost r) : losses (D ++ [r]) = losses D ++ [r] := by rw [losses_snoc, if_pos h]
theorem losses_got {D : List TWDataRec} {r : TWDataRec} (h : ¬ Lost r) : losses (D ++ [r]) = losses D := by rw [losses_snoc, if_neg h]

/-- The record of a lost packet. -/
theorem addLost_spec {c : Cfg} {D : List TWDataRec} {kF kB : Nat} {s : St} (hI : Inv c D kF kB s) (r : TWDataRec) (hD : (D ++ [r]).length < 2 ^ 32) (hr : Lost r)
    (n : Node) (hn : n ∈ s.fwd.nodes) (hs : n.seq = seqOf r) :
    (addLost r n s = .error .refused ∧ ∃ r' ∈ replies D, seqOf r' = seqOf r) ∨
    ∃ s', addLost r n s = .ok s' ∧ Inv c (D ++ [r]) kF kB s' ∧ s'.fwd.nodes.length = s.fwd.nodes.length ∧ s'.bck = s.bck ∧
      s' = { s with fwd := s'.fwd, sent := s'.sent, sync := s.sync && r.sent.recv.sync
                    maxerr := s.maxerr.map fun e => Nat.max e (Stats.stampError r.sent.recv) } := by
  unfold addLost
  by_cases h : n.seen ≠ 0
  · rw [if_pos h]
    obtain ⟨r', r1, r2⟩ := (hI.seen n hn).1.1 h
    exact Or.inl ⟨rfl, r', r1, r2.trans hs⟩
  · rw [if_neg h]
    refine Or.inr ⟨_, rfl, ?_, setNode_length _ _, rfl, rfl⟩
    have h0 : n.seen = 0 := by omega
    have hno : ¬ ∃ r' ∈ replies D, seqOf r' = n.seq := fun hh => h ((hI.seen n hn).1.2 hh)
    have hmem := hI.chF.mem n hn
    have he := hI.chF.sum_set extra n { n with lost := true } rfl hn
    have hg := hI.chF.sum_set gone n { n with lost := true } rfl hn
    have hsent : (s.sent + 1) % 2 ^ 32 = s.sent + 1 := by
      apply Nat.mod_eq_of_lt
      have := hI.sent
      have := firsts_length seqOf (replies D)
      have := split_length D
      simp at hD
      omega
    have hgn : gone n = 0 ↔ ¬ ∃ r' ∈ losses D, seqOf r' = seqOf r := by
      rw [← hs, ← (hI.seen n hn).2]; unfold gone; split <;> simp_all
    have hgn' : gone n = 1 ∨ gone n = 0 := by unfold gone; split <;> simp
    have hfl : (firsts seqOf (losses D ++ [r])).length = (firsts seqOf (losses D)).length + (1 - gone n) := by
      by_cases hd : ∃ r' ∈ losses D, seqOf r' = seqOf r
      · rw [firsts_old _ _ _ hd]
        have : gone n ≠ 0 := fun hh => hgn.1 hh hd
        omega
      · rw [firsts_new _ _ _ hd, hgn.2 hd]; simp
    rw [hsent]
    refine { hI with chF := hI.chF.setNode _, capF := by dsimp only; rw [setNode_length]; exact hI.capF
                     seen := ?_, assoc := ?_, topF := ?_, seenB := ?_, assocB := ?_, topB := ?_, owner := ?_, excl := ?_, dupF := ?_, dupB := ?_, lost := ?_, sent := ?_
                     sched := ?_, stale := ?_, idle := ?_ }
    · intro x hx
      rw [replies_lost hr, losses_lost hr]
      rcases mem_setNode hx with rfl | ⟨h1, h2⟩
      · refine ⟨⟨fun hh => absurd h0 hh, fun hh => absurd hh hno⟩, ⟨fun _ => ⟨r, by simp, hs.symm⟩, fun _ => rfl⟩⟩
      · refine ⟨(hI.seen x h1).1, (hI.seen x h1).2.trans ⟨fun ⟨r', a, b⟩ => ⟨r', List.mem_append_left _ a, b⟩, fun ⟨r', a, b⟩ => ?_⟩⟩
        rcases List.mem_append.1 a with a | a
        · exact ⟨r', a, b⟩
        · rw [List.mem_singleton.1 a] at b; exact absurd (b.symm.trans hs.symm) h2
    · intro x hx hsx
      rw [replies_lost hr]
      rcases mem_setNode hx with rfl | ⟨h1, h2⟩
      · exact absurd h0 hsx
      · exact hI.assoc x h1 hsx
    · intro r' hr'
      dsimp only
      rw [setNode_length]
      rcases List.mem_append.1 hr' with a | a
      · exact hI.topF r' a
      · rw [List.mem_singleton.1 a]; omega
    · rw [replies_lost hr]; exact hI.seenB
    · rw [replies_lost hr]; exact hI.assocB
    · rw [replies_lost hr]; exact hI.topB
    · rw [replies_lost hr]; exact hI.owner
    · rw [replies_lost hr, losses_lost hr]
      intro a ha b hb
      rcases List.mem_append.1 ha with ha | ha
      · exact hI.excl a ha b hb
      · rw [List.mem_singleton.1 ha]; intro hab; exact hno ⟨b, hb, by rw [hs, hab]⟩
    · rw [replies_lost hr]
      have : (List.map extra (setNode { n with lost := true } s.fwd).nodes).sum = (s.fwd.nodes.map extra).sum := by
        have : extra { n with lost := true } = extra n := rfl
        omega
      dsimp only; rw [this]; exact hI.dupF
    · rw [replies_lost hr]; exact hI.dupB
    · rw [losses_lost hr]
      have := hI.lost
      have : gone { n with lost := true } = 1 := rfl
      have := sum_le gone n _ hn
      dsimp only
      omega
    · rw [replies_lost hr, losses_lost hr]
      have := hI.sent
      simp only [List.length_append, List.length_singleton]
      omega
    · intro x hx
      rcases mem_setNode hx with rfl | ⟨h1, h2⟩
      · exact hI.sched n hn
      · exact hI.sched x h1
    · rw [replies_lost hr]; exact hI.stale
    · intro x hx hsx
      rw [replies_lost hr]
      rcases mem_setNode hx with rfl | ⟨h1, h2⟩
      · exact hI.idle n hn h0
      · exact hI.idle x h1 hsx

theorem Inv.figures {c : Cfg} {D : List TWDataRec} {kF kB : Nat} {s : St} (hI : Inv c D kF kB s) (r : TWDataRec) (dup : Bool) : Inv c D kF kB (figures c r dup s) := by
  unfold TwStats.figures
  dsimp only
  split
  · exact { hI with }
  · exact { hI with }

/-- The record of a reply. -/
theorem addGot_spec {c : Cfg} {D : List TWDataRec} {kF kB : Nat} {s : St} (hI : Inv c D kF kB s) (r : TWDataRec) (hD : (D ++ [r]).length < 2 ^ 32) (hr : ¬ Lost r)
    (hne : s.bck.nodes ≠ []) (n : Node) (hn : n ∈ s.fwd.nodes) (hs : n.seq = seqOf r) :
    (addGot c r n s = .error .refused ∧ ((∃ r' ∈ losses D, seqOf r' = seqOf r) ∨ replyOf r < s.first ∨ replyOf r < kB ∨
        ∃ r' ∈ replies D, replyOf r' = replyOf r ∧ seqOf r' ≠ seqOf r)) ∨
    ∃ t, addGot c r n s = .ok (figures c r (decide (∃ r' ∈ replies D, seqOf r' = seqOf r)) t) ∧ Inv c (D ++ [r]) kF kB t ∧
      t.fwd.nodes.length = s.fwd.nodes.length ∧ t.bck.nodes ≠ [] ∧ t = { s with fwd := t.fwd, bck := t.bck, sent := t.sent } := by
  unfold addGot
  by_cases hl : n.lost = true
  · rw [if_pos hl]
    obtain ⟨r', r1, r2⟩ := (hI.seen n hn).2.1 hl
    exact Or.inl ⟨rfl, Or.inl ⟨r', r1, r2.trans hs⟩⟩
  rw [if_neg hl]
  rcases get_spec (fun _ => c.times (s.fwd.next - 1)) s.first none (replyOf r) kB s.bck hI.chB hne with ⟨h1, h2⟩ | ⟨m, b, h1, h2, h3, hm, h5, h6, h7, h8⟩
  · have : getB c r.reflected.seq.toNat s = .error .refused := h1
    rw [this]
    refine Or.inl ⟨rfl, Or.inr ?_⟩
    rcases h2 with h | h | ⟨l, h, _⟩
    · exact Or.inl h
    · exact Or.inr (Or.inl h)
    · cases h
  have hg : getB c r.reflected.seq.toNat s = .ok (m, b) := h1
  rw [hg]
  dsimp only
  have hJ := hI.extB _ b h2 h3
  have hseenB := (hJ.seenB m hm).2
  have hassB := hJ.assocB m hm
  by_cases hbad : m.seen ≠ 0 ∧ m.assoc ≠ r.sent.seq.toNat
  · rw [if_pos hbad]
    obtain ⟨r', r1, r2⟩ := hseenB.1 hbad.1
    refine Or.inl ⟨rfl, Or.inr (Or.inr (Or.inr ⟨r', r1, r2.trans h5, ?_⟩))⟩
    rw [hassB r' r1 r2]; exact hbad.2
  rw [if_neg hbad]
  refine Or.inr ?_
  have hown : m.seen ≠ 0 → m.assoc = seqOf r := fun h => Decidable.byContradiction fun hh => hbad ⟨h, hh⟩
  have hsn := (hI.seen n hn).1
  have hln : ¬ ∃ r' ∈ losses D, seqOf r' = seqOf r := fun ⟨r', r1, r2⟩ => hl ((hI.seen n hn).2.2 ⟨r', r1, r2.trans hs.symm⟩)
  have hmn : m.seen ≠ 0 → n.seen ≠ 0 := by
    intro h
    obtain ⟨r', r1, r2⟩ := hseenB.1 h
    exact hsn.2 ⟨r', r1, by rw [hassB r' r1 r2, hown h, hs]⟩
  have hfD : D.length + 1 < 2 ^ 32 := by simpa using hD
  have hlen1 := replies_length D
  have hlen2 := firsts_length replyOf (replies D)
  have hlen3 := firsts_length seqOf (replies D)
  have hsl := split_length D
  have hmod : (m.seen + 1) % 2 ^ 32 = m.seen + 1 := by
    apply Nat.mod_eq_of_lt
    have h1 := hJ.dupB
    have h2 := sum_le extra m _ hm
    dsimp only at h1
    unfold extra at h1 h2
    have : firsts replyOf (replies D) ≠ [] ∨ m.seen = 0 := by
      by_cases hz : m.seen = 0
      · exact Or.inr hz
      · obtain ⟨k, k1, _⟩ := (firsts_key replyOf (replies D) _).2 (hseenB.1 hz)
        exact Or.inl (List.ne_nil_of_mem k1)
    rcases this with h | h
    · have := List.length_pos_iff.2 h
      omega
    · omega
  have hmodn : n.seen ≠ 0 → (n.seen + 1) % 2 ^ 32 = n.seen + 1 := by
    intro hz
    apply Nat.mod_eq_of_lt
    have h1 := hI.dupF
    have h2 := sum_le extra n _ hn
    unfold extra at h1 h2
    obtain ⟨k, k1, _⟩ := (firsts_key seqOf (replies D) _).2 (hsn.1 hz)
    have := List.length_pos_iff.2 (List.ne_nil_of_mem k1)
    omega
  have hmods : (s.sent + 1) % 2 ^ 32 = s.sent + 1 := by
    apply Nat.mod_eq_of_lt
    have := hI.sent
    omega
  rw [hmod]
  have hkey : n.seen = 0 ↔ ¬ ∃ r' ∈ replies D, seqOf r' = seqOf r := by
    rw [← hs, ← hsn]; omega
  have hkeyB : m.seen = 0 ↔ ¬ ∃ r' ∈ replies D, replyOf r' = replyOf r := by
    rw [← h5, ← hseenB]; omega
  have hnas : n.seen ≠ 0 → m.seen = 0 → n.assoc ≠ replyOf r := by
    intro a1 a2 a3
    obtain ⟨r', r1, r2, r3⟩ := hI.assoc n hn a1
    exact hkeyB.1 a2 ⟨r', r1, r3.trans a3⟩
  -- the new node
  obtain ⟨n', hn', hn's, hn'0, hn'1, hn'2⟩ : ∃ n', (if n.seen = 0 then { n with seen := 1, assoc := r.reflected.seq.toNat }
          else if n.assoc ≠ r.reflected.seq.toNat ∧ m.seen + 1 = 1 then { n with seen := (n.seen + 1) % 2 ^ 32 } else n) = n' ∧
      n'.seq = n.seq ∧ n'.lost = n.lost ∧ n'.sched = n.sched ∧
      ((n.seen = 0 ∧ m.seen = 0 ∧ n'.seen = 1 ∧ n'.assoc = replyOf r) ∨ (n.seen ≠ 0 ∧ m.seen = 0 ∧ n'.seen = n.seen + 1 ∧ n'.assoc = n.assoc) ∨
        (n.seen ≠ 0 ∧ m.seen ≠ 0 ∧ n'.seen = n.seen ∧ n'.assoc = n.assoc)) := by
    refine ⟨_, rfl, ?_⟩
    by_cases hz : n.seen = 0
    · rw [if_pos hz]
      have hm0 : m.seen = 0 := Decidable.byContradiction fun h => hmn h hz
      exact ⟨rfl, rfl, rfl, Or.inl ⟨hz, hm0, rfl, rfl⟩⟩
    · rw [if_neg hz]
      by_cases hm0 : m.seen = 0
      · rw [if_pos ⟨hnas hz hm0, by omega⟩]
        exact ⟨rfl, rfl, rfl, Or.inr (Or.inl ⟨hz, hm0, hmodn hz, rfl⟩)⟩
      · rw [if_neg (by omega)]
        exact ⟨rfl, rfl, rfl, Or.inr (Or.inr ⟨hz, hm0, rfl, rfl⟩)⟩
  rw [hn']
  have hdupb : (decide (n'.seen > 1) || decide (m.seen + 1 > 1)) = decide (∃ r' ∈ replies D, seqOf r' = seqOf r) := by
    rw [Bool.eq_iff_iff]
    simp only [Bool.or_eq_true, decide_eq_true_eq]
    have : (∃ r' ∈ replies D, seqOf r' = seqOf r) ↔ n.seen ≠ 0 := by rw [Ne, hkey]; exact Decidable.not_not.symm
    rw [this]
    clear * - hn'2
    omega
  rw [hdupb]
  generalize hm' : ({ m with assoc := r.sent.seq.toNat, seen := m.seen + 1 } : Node) = m'
  have m1 : m'.seq = replyOf r := by rw [← hm']; exact h5
  have m2 : m'.seen = m.seen + 1 := by rw [← hm']
  have m3 : m'.assoc = seqOf r := by rw [← hm']; rfl
  have m4 : m'.lost = m.lost := by rw [← hm']
  refine ⟨_, rfl, ?_, setNode_length _ _, ?_, rfl⟩
  rotate_left
  · intro hh
    have hh' : (setNode m' b).nodes.length = 0 := by rw [show (setNode m' b).nodes = [] from hh]; rfl
    rw [setNode_length] at hh'
    have := List.length_pos_iff.2 (List.ne_nil_of_mem hm)
    omega
  have hmem := hI.chF.mem n hn
  have he := hI.chF.sum_set extra n n' hn's hn
  have hg := hI.chF.sum_set gone n n' hn's hn
  have heB := h2.sum_set extra m m' (m1.trans h5.symm) hm
  have hgone : gone n' = gone n := by unfold gone; rw [hn'0]
  have hfs : (firsts seqOf (replies D ++ [r])).length = (firsts seqOf (replies D)).length + (if n.seen = 0 then 1 else 0) := by
    split
    · rename_i hz; rw [firsts_new _ _ _ (hkey.1 hz)]; simp
    · rename_i hz; rw [firsts_old _ _ _ (Decidable.byContradiction fun h => hz (hkey.2 h))]; rfl
  have hfr : (firsts replyOf (replies D ++ [r])).length = (firsts replyOf (replies D)).length + (if m.seen = 0 then 1 else 0) := by
    split
    · rename_i hz; rw [firsts_new _ _ _ (hkeyB.1 hz)]; simp
    · rename_i hz; rw [firsts_old _ _ _ (Decidable.byContradiction fun h => hz (hkeyB.2 h))]; rfl
  have hdF := hI.dupF
  have hdB := hJ.dupB
  dsimp only at hdB
  have hsnew : ∀ x ∈ s.fwd.nodes, x.seq ≠ n'.seq → ((∃ r' ∈ replies D ++ [r], seqOf r' = x.seq) ↔ ∃ r' ∈ replies D, seqOf r' = x.seq) := by
    intro x hx hxs
    refine ⟨fun ⟨r', a, b⟩ => ?_, fun ⟨r', a, b⟩ => ⟨r', List.mem_append_left _ a, b⟩⟩
    rcases List.mem_append.1 a with a | a
    · exact ⟨r', a, b⟩
    · rw [List.mem_singleton.1 a] at b; exact absurd (b.symm.trans (hs.symm.trans hn's.symm)) hxs
  refine { chF := hI.chF.setNode _, chB := h2.setNode _, firstF := hI.firstF, firstB := hI.firstB, capF := by dsimp only; rw [setNode_length]; exact hI.capF, seen := ?_, assoc := ?_, topF := ?_, seenB := ?_, assocB := ?_, topB := ?_, owner := ?_, excl := ?_, dupF := ?_, dupB := ?_, lost := ?_, sent := ?_, sched := ?_, stale := ?_, idle := ?_ }
  · intro x hx
    rw [replies_got hr, losses_got hr]
    rcases mem_setNode hx with rfl | ⟨x1, x2⟩
    · refine ⟨⟨fun _ => ⟨r, by simp, by rw [hn's, hs]⟩, fun _ => by omega⟩, ?_⟩
      rw [hn'0, hn's]; exact (hI.seen n hn).2
    · rw [hsnew x x1 x2]; exact hI.seen x x1
  · intro x hx hsx
    rw [replies_got hr]
    rcases mem_setNode hx with rfl | ⟨x1, x2⟩
    · rcases hn'2 with ⟨a1, a2, a3, a4⟩ | ⟨a1, a2, a3, a4⟩ | ⟨a1, a2, a3, a4⟩
      · exact ⟨r, by simp, by rw [hn's, hs], a4.symm⟩
      all_goals
        obtain ⟨r', r1, r2, r3⟩ := hI.assoc n hn a1
        exact ⟨r', by simp [r1], by rw [hn's, r2], by rw [a4, r3]⟩
    · obtain ⟨r', r1, r2, r3⟩ := hI.assoc x x1 hsx
      exact ⟨r', by simp [r1], r2, r3⟩
  · intro r' hr'
    dsimp only
    rw [setNode_length]
    rcases List.mem_append.1 hr' with a | a
    · exact hI.topF r' a
    · rw [List.mem_singleton.1 a]; omega
  · intro x hx
    rw [replies_got hr]
    rcases mem_setNode hx with rfl | ⟨x1, x2⟩
    · refine ⟨by rw [m4]; exact (hJ.seenB m hm).1, ⟨fun _ => ⟨r, by simp, m1.symm⟩, fun _ => by omega⟩⟩
    · refine ⟨(hJ.seenB x x1).1, (hJ.seenB x x1).2.trans ⟨fun ⟨r', a, b⟩ => ⟨r', List.mem_append_left _ a, b⟩, fun ⟨r', a, b⟩ => ?_⟩⟩
      rcases List.mem_append.1 a with a | a
      · exact ⟨r', a, b⟩
      · rw [List.mem_singleton.1 a] at b; exact absurd (b.symm.trans m1.symm) x2
  · intro x hx r' hr' hq
    rw [replies_got hr] at hr'
    rcases mem_setNode hx with rfl | ⟨x1, x2⟩
    · rw [m3]
      rcases List.mem_append.1 hr' with a | a
      · have hz : m.seen ≠ 0 := hseenB.2 ⟨r', a, by rw [hq, m1, h5]⟩
        rw [hassB r' a (by rw [hq, m1, h5]), hown hz]
      · rw [List.mem_singleton.1 a]
    · rcases List.mem_append.1 hr' with a | a
      · exact hJ.assocB x x1 r' a hq
      · rw [List.mem_singleton.1 a] at hq; exact absurd (hq.symm.trans m1.symm) x2
  · intro r' hr'
    rw [replies_got hr] at hr'
    dsimp only
    rw [setNode_length]
    rcases List.mem_append.1 hr' with a | a
    · exact hJ.topB r' a
    · rw [List.mem_singleton.1 a]; exact h7
  · intro a ha b' hb hab
    rw [replies_got hr] at ha hb
    have key : ∀ r' ∈ replies D, replyOf r' = replyOf r → seqOf r' = seqOf r := by
      intro r' h hq
      have hz : m.seen ≠ 0 := hseenB.2 ⟨r', h, by rw [hq, h5]⟩
      rw [hassB r' h (by rw [hq, h5]), hown hz]
    rcases List.mem_append.1 ha with ha | ha
    · rcases List.mem_append.1 hb with hb | hb
      · exact hI.owner a ha b' hb hab
      · rw [List.mem_singleton.1 hb] at hab ⊢; exact key a ha hab
    · rw [List.mem_singleton.1 ha] at hab ⊢
      rcases List.mem_append.1 hb with hb | hb
      · exact (key b' hb hab.symm).symm
      · rw [List.mem_singleton.1 hb]
  · rw [replies_got hr, losses_got hr]
    intro a ha b' hb hab
    rcases List.mem_append.1 hb with hb | hb
    · exact hI.excl a ha b' hb hab
    · rw [List.mem_singleton.1 hb] at hab; exact hln ⟨a, ha, hab⟩
  · rw [replies_got hr, hfs, hfr]
    dsimp only
    unfold extra at *
    split <;> split <;> omega
  · rw [replies_got hr, hfr]
    dsimp only
    simp only [List.length_append, List.length_singleton]
    unfold extra at *
    split <;> omega
  · rw [losses_got hr]
    have := hI.lost
    dsimp only
    omega
  · rw [replies_got hr, losses_got hr, hfs]
    have := hI.sent
    dsimp only
    rw [hmods]
    split <;> omega
  · intro x hx
    rcases mem_setNode hx with rfl | ⟨x1, x2⟩
    · rw [hn'1, hn's]; exact hI.sched n hn
    · exact hI.sched x x1
  · intro x hx
    rw [replies_got hr]
    exact (hI.stale x hx).imp id fun ⟨r', r1, r2, r3⟩ => ⟨r', by simp [r1], r2, r3⟩
  · intro x hx hsx
    rw [replies_got hr]
    rcases mem_setNode hx with rfl | ⟨x1, x2⟩
    · exfalso; omega
    · exact (hI.idle x x1 hsx).imp id fun ⟨r', r1, r2, r3⟩ => ⟨r', by simp [r1], r2, r3⟩

end Owamp.TwStats
