import Verif.Lemmas.TwStats
import Mathlib.Data.List.Induction
/-!
# Facts about the summaries of two-way sessions: the invariant
-/
namespace Owamp.TwStats
open Owamp.Codec Owamp.Spec.TwStats Owamp.Num64
open Owamp.Stats (Bad skipPast)
open Owamp.Spec.Stats (Skipped)

/-! ## Lists of records -/

theorem firsts_snoc (key : TWDataRec → Nat) (D : List TWDataRec) (r : TWDataRec) :
    firsts key (D ++ [r]) = if (firsts key D).any (fun k => key k = key r) then firsts key D else firsts key D ++ [r] := by
  unfold firsts; rw [List.foldl_append]; rfl

theorem mem_firsts (key : TWDataRec → Nat) (D : List TWDataRec) : ∀ x ∈ firsts key D, x ∈ D := by
  induction D using List.reverseRecOn with
  | nil => intro x h; cases h
  | append_singleton D r ih =>
    intro x h
    rw [firsts_snoc] at h
    split at h
    · exact List.mem_append_left _ (ih x h)
    · rcases List.mem_append.1 h with h | h
      · exact List.mem_append_left _ (ih x h)
      · exact List.mem_append_right _ h

theorem firsts_key (key : TWDataRec → Nat) (D : List TWDataRec) (x : Nat) : (∃ k ∈ firsts key D, key k = x) ↔ ∃ r ∈ D, key r = x := by
  constructor
  · rintro ⟨k, h1, h2⟩; exact ⟨k, mem_firsts key D k h1, h2⟩
  · induction D using List.reverseRecOn with
    | nil => rintro ⟨r, h, _⟩; cases h
    | append_singleton D r ih =>
      rintro ⟨y, hy, h2⟩
      rw [firsts_snoc]
      rcases List.mem_append.1 hy with hy | hy
      · obtain ⟨k, k1, k2⟩ := ih ⟨y, hy, h2⟩
        split
        · exact ⟨k, k1, k2⟩
        · exact ⟨k, List.mem_append_left _ k1, k2⟩
      · rw [List.mem_singleton.1 hy] at h2
        split
        · rename_i h
          obtain ⟨k, k1, k2⟩ := List.any_eq_true.1 h
          exact ⟨k, k1, (of_decide_eq_true k2).trans h2⟩
        · exact ⟨r, by simp, h2⟩

theorem firsts_old (key : TWDataRec → Nat) (D : List TWDataRec) (r : TWDataRec) (h : ∃ x ∈ D, key x = key r) : firsts key (D ++ [r]) = firsts key D := by
  rw [firsts_snoc, if_pos]
  obtain ⟨k, k1, k2⟩ := (firsts_key key D _).2 h
  exact List.any_eq_true.2 ⟨k, k1, decide_eq_true k2⟩

theorem firsts_new (key : TWDataRec → Nat) (D : List TWDataRec) (r : TWDataRec) (h : ¬ ∃ x ∈ D, key x = key r) : firsts key (D ++ [r]) = firsts key D ++ [r] := by
  rw [firsts_snoc, if_neg]
  intro hh
  obtain ⟨k, k1, k2⟩ := List.any_eq_true.1 hh
  exact h ((firsts_key key D _).1 ⟨k, k1, of_decide_eq_true k2⟩)

theorem firsts_length (key : TWDataRec → Nat) (D : List TWDataRec) : (firsts key D).length ≤ D.length := by
  induction D using List.reverseRecOn with
  | nil => exact Nat.le_refl _
  | append_singleton D r ih =>
    rw [firsts_snoc]
    split
    · simp; omega
    · simp; omega

theorem replies_snoc (D : List TWDataRec) (r : TWDataRec) : replies (D ++ [r]) = if Lost r then replies D else replies D ++ [r] := by
  unfold replies; rw [List.filter_append]
  by_cases h : Lost r
  · simp [h]
  · simp [h]

theorem losses_snoc (D : List TWDataRec) (r : TWDataRec) : losses (D ++ [r]) = if Lost r then losses D ++ [r] else losses D := by
  unfold losses; rw [List.filter_append]
  by_cases h : Lost r
  · simp [h]
  · simp [h]

theorem mem_replies {D : List TWDataRec} {r : TWDataRec} : r ∈ replies D ↔ r ∈ D ∧ ¬ Lost r := by simp [replies]
theorem mem_losses {D : List TWDataRec} {r : TWDataRec} : r ∈ losses D ↔ r ∈ D ∧ Lost r := by simp [losses]

theorem split_length (D : List TWDataRec) : (losses D).length + (replies D).length = D.length := by
  induction D with
  | nil => rfl
  | cons a D ih =>
    unfold losses replies at *
    by_cases h : Lost a
    · simp only [List.filter_cons, h, not_true, decide_true, decide_false, if_true, Bool.false_eq_true, if_false, List.length_cons]; omega
    · simp only [List.filter_cons, h, not_false_iff, decide_true, decide_false, if_true, Bool.false_eq_true, if_false, List.length_cons]; omega

theorem isLost_iff (r : TWDataRec) : isLost r = true ↔ Lost r := by simp [isLost, Lost]

/-! ## Replacing a node -/

theorem setNode_seqs (n : Node) (b : Buf) : (setNode n b).nodes.map (·.seq) = b.nodes.map (·.seq) := by
  simp only [setNode, List.map_map]
  apply List.map_congr_left
  intro x _
  simp only [Function.comp]
  split
  · rename_i h; exact h.symm
  · rfl

theorem setNode_length (n : Node) (b : Buf) : (setNode n b).nodes.length = b.nodes.length := by simp [setNode]

theorem Chain.setNode {k : Nat} {b : Buf} (h : Chain k b) (n : Node) : Chain k (setNode n b) :=
  ⟨by rw [setNode_seqs, setNode_length]; exact h.seqs, by rw [setNode_length]; exact h.next⟩

theorem mem_setNode {n x : Node} {b : Buf} (h : x ∈ (setNode n b).nodes) : x = n ∨ (x ∈ b.nodes ∧ x.seq ≠ n.seq) := by
  obtain ⟨y, h1, h2⟩ := List.mem_map.1 h
  split at h2
  · exact Or.inl h2.symm
  · rename_i hne; rw [← h2]; exact Or.inr ⟨h1, hne⟩

private theorem sum_set (f : Node → Nat) (n n' : Node) (hs : n'.seq = n.seq) : ∀ l : List Node, (l.map (·.seq)).Nodup → n ∈ l →
    ((l.map fun m => if m.seq = n'.seq then n' else m).map f).sum + f n = (l.map f).sum + f n' := by
  intro l
  induction l with
  | nil => intro _ h; cases h
  | cons a l ih =>
    intro hnd hm
    simp only [List.map_cons, List.nodup_cons] at hnd
    simp only [List.map_cons, List.sum_cons]
    rcases List.mem_cons.1 hm with h | h
    · have hrest : (l.map fun m => if m.seq = n'.seq then n' else m) = l := by
        conv => rhs; rw [← List.map_id l]
        apply List.map_congr_left
        intro x hx
        rw [if_neg]; rfl
        intro he; apply hnd.1; rw [← h, ← hs, ← he]; exact List.mem_map_of_mem hx
      rw [hrest, if_pos (by rw [hs, h]), ← h]; omega
    · have : a.seq ≠ n'.seq := by intro he; apply hnd.1; rw [he, hs]; exact List.mem_map_of_mem h
      rw [if_neg this]
      have := ih hnd.2 h
      omega

theorem Chain.nodup {k : Nat} {b : Buf} (h : Chain k b) : (b.nodes.map (·.seq)).Nodup := by
  rw [h.seqs]; exact List.nodup_range'

theorem Chain.sum_set {k : Nat} {b : Buf} (h : Chain k b) (f : Node → Nat) (n n' : Node) (hs : n'.seq = n.seq) (hn : n ∈ b.nodes) :
    ((TwStats.setNode n' b).nodes.map f).sum + f n = (b.nodes.map f).sum + f n' := by
  exact TwStats.sum_set f n n' hs b.nodes h.nodup hn

theorem sum_le (f : Node → Nat) (n : Node) : ∀ l : List Node, n ∈ l → f n ≤ (l.map f).sum := by
  intro l
  induction l with
  | nil => intro h; cases h
  | cons a l ih =>
    intro h
    simp only [List.map_cons, List.sum_cons]
    rcases List.mem_cons.1 h with rfl | h
    · omega
    · have := ih h; omega

theorem sum_zero (f : Node → Nat) : ∀ l : List Node, (∀ n ∈ l, f n = 0) → (l.map f).sum = 0 := by
  intro l h
  induction l with
  | nil => rfl
  | cons a l ih =>
    simp only [List.map_cons, List.sum_cons]
    rw [h a (by simp), ih fun n hn => h n (by simp [hn])]

/-! ## The invariant -/

def extra (n : Node) : Nat := n.seen - 1
def gone (n : Node) : Nat := if n.lost then 1 else 0

/-- Why the first packet out, `q`, is flushed when record `r` is met. -/
def Passed (c : Cfg) (r : TWDataRec) (q : Nat) : Prop :=
  (Lost r ∧ q < seqOf r) ∨ (¬ Lost r ∧ c.times q < sub r.sent.send.owptime.toNat c.timeout.toNat)

/-- The state after the records `D`, all about packets in the range: the packets out from `kF` on and the replies from `kB` on are in the buffers. -/
structure Inv (c : Cfg) (D : List TWDataRec) (kF kB : Nat) (s : St) : Prop where
  chF : Chain kF s.fwd
  chB : Chain kB s.bck
  firstF : s.first ≤ kF
  firstB : s.first ≤ kB
  capF : kF + s.fwd.nodes.length ≤ s.last
  seen : ∀ n ∈ s.fwd.nodes, (n.seen ≠ 0 ↔ ∃ r ∈ replies D, seqOf r = n.seq) ∧ (n.lost = true ↔ ∃ r ∈ losses D, seqOf r = n.seq)
  assoc : ∀ n ∈ s.fwd.nodes, n.seen ≠ 0 → ∃ r ∈ replies D, seqOf r = n.seq ∧ replyOf r = n.assoc
  topF : ∀ r ∈ D, seqOf r < kF + s.fwd.nodes.length
  seenB : ∀ m ∈ s.bck.nodes, m.lost = false ∧ (m.seen ≠ 0 ↔ ∃ r ∈ replies D, replyOf r = m.seq)
  assocB : ∀ m ∈ s.bck.nodes, ∀ r ∈ replies D, replyOf r = m.seq → seqOf r = m.assoc
  topB : ∀ r ∈ replies D, replyOf r < kB + s.bck.nodes.length
  owner : ∀ r ∈ replies D, ∀ r' ∈ replies D, replyOf r = replyOf r' → seqOf r = seqOf r'
  excl : ∀ r ∈ losses D, ∀ r' ∈ replies D, seqOf r ≠ seqOf r'
  dupF : s.dupsF + (s.fwd.nodes.map extra).sum + (firsts seqOf (replies D)).length = (firsts replyOf (replies D)).length
  dupB : s.dupsB + (s.bck.nodes.map extra).sum + (firsts replyOf (replies D)).length = (replies D).length
  lost : s.lost + (s.fwd.nodes.map gone).sum = (firsts seqOf (losses D)).length
  sent : s.sent = (losses D).length + (firsts seqOf (replies D)).length
  sched : ∀ n ∈ s.fwd.nodes, n.sched = c.times n.seq
  stale : ∀ x ∈ s.fwd.free, x = 0 ∨ ∃ r ∈ replies D, replyOf r = x ∧ seqOf r < kF
  idle : ∀ n ∈ s.fwd.nodes, n.seen = 0 → n.assoc = 0 ∨ ∃ r ∈ replies D, replyOf r = n.assoc ∧ seqOf r < kF

/-- What has left the buffers has been passed by one of the records `E`, of which `D` have been dealt with. -/
structure Gone (c : Cfg) (D E : List TWDataRec) (first kF kB : Nat) : Prop where
  out : ∀ q, first ≤ q → q < kF → ∃ r ∈ E, Passed c r q
  back : kB = first ∨ ∃ r ∈ replies D, kB ≤ replyOf r ∧ seqOf r ≤ kF

/-- What flushes leave alone. -/
def strip (s : St) : St :=
  { s with fwd := ⟨[], 0, []⟩, bck := ⟨[], 0, []⟩, iskip := 0, endTime := 0, lost := 0, dupsF := 0, dupsB := 0 }

def Same (s s' : St) : Prop := strip s' = strip s

theorem Same.rfl' (s : St) : Same s s := rfl
theorem Same.trans {a b d : St} (h : Same a b) (h' : Same b d) : Same a d := Eq.trans h' h
theorem Same.first {s s' : St} (h : Same s s') : s'.first = s.first := by simpa [strip] using congrArg St.first h
theorem Same.last {s s' : St} (h : Same s s') : s'.last = s.last := by simpa [strip] using congrArg St.last h

/-- A packet whose number is in the skip range that is looked at. -/
theorem atSkip_true {c : Cfg} {n : Node} {i : Nat} (h : (atSkip c n i).2 = true) : Skipped c.skips n.seq := by
  unfold atSkip at h
  dsimp only at h
  have hs := (Stats.skipPast_spec c.skips n.seq c.skips.length i (by omega))
  generalize skipPast c.skips n.seq c.skips.length i = j at h hs
  cases hj : c.skips[j]? with
  | none => rw [hj] at h; cases h
  | some k =>
    rw [hj] at h
    simp only [Option.any_some, decide_eq_true_eq] at h
    exact ⟨k, List.mem_of_getElem? hj, h, hs.2.2 k hj⟩

/-- A packet of the buffer for which there is a record is in no skip range. -/
theorem skip_idle {c : Cfg} {D : List TWDataRec} {kF kB : Nat} {s : St} (hI : Inv c D kF kB s) (hcl : ∀ r ∈ D, Clear c r) (n : Node) (hn : n ∈ s.fwd.nodes)
    (i : Nat) (h : (atSkip c n i).2 = true) : n.seen = 0 ∧ n.lost = false := by
  have hs := atSkip_true h
  obtain ⟨h1, h2⟩ := hI.seen n hn
  constructor
  · apply Decidable.byContradiction; intro hh
    obtain ⟨r, r1, r2⟩ := h1.1 hh
    exact (hcl r (mem_replies.1 r1).1).1 (r2 ▸ hs)
  · apply Bool.eq_false_iff.2; intro hh
    obtain ⟨r, r1, r2⟩ := h2.1 hh
    exact (hcl r (mem_losses.1 r1).1).1 (r2 ▸ hs)

theorem skip_idleB {c : Cfg} {D : List TWDataRec} {kF kB : Nat} {s : St} (hI : Inv c D kF kB s) (hcl : ∀ r ∈ D, Clear c r) (n : Node) (hn : n ∈ s.bck.nodes)
    (i : Nat) (h : (atSkip c n i).2 = true) : n.seen = 0 := by
  have hs := atSkip_true h
  apply Decidable.byContradiction; intro hh
  obtain ⟨r, r1, r2⟩ := (hI.seenB n hn).2.1 hh
  exact (hcl r (mem_replies.1 r1).1).2 (mem_replies.1 r1).2 (r2 ▸ hs)

theorem replies_length (D : List TWDataRec) : (replies D).length ≤ D.length := List.length_filter_le _ _
theorem losses_length (D : List TWDataRec) : (losses D).length ≤ D.length := List.length_filter_le _ _

theorem sum_append_zero (f : Node → Nat) (l new : List Node) (h : ∀ n ∈ new, f n = 0) : ((l ++ new).map f).sum = (l.map f).sum := by
  rw [List.map_append, List.sum_append, sum_zero f new h]; omega

/-- A flush of a packet out. -/
theorem flushF_spec {c : Cfg} {D : List TWDataRec} {kF kB : Nat} {s : St} (hI : Inv c D kF kB s) (hcl : ∀ r ∈ D, Clear c r) (hD : D.length < 2 ^ 32)
    (n : Node) (rest : List Node) (hn : s.fwd.nodes = n :: rest) :
    ∃ g s', flushF c s = .ok (g, s') ∧ Inv c D (kF + 1) kB s' ∧ Same s s' ∧ s'.bck = s.bck ∧ (g = true ↔ s'.fwd.nodes ≠ []) ∧ (g = false → s.last ≤ kF + 1) := by
  have hk := hI.chF.head n rest hn
  have hmem : n ∈ s.fwd.nodes := by rw [hn]; simp
  have hlen : s.fwd.nodes.length = rest.length + 1 := by rw [hn]; simp
  obtain ⟨g, b', e1, e2, e3, e4, ⟨new, e5, e6⟩, e7, e8, e9⟩ := shift_spec (fun q => getF c q s) c.times s.last kF n rest s.fwd hn hI.chF (fun hr hl => by
    rcases get_spec c.times s.first (some s.last) (n.seq + 1) kF s.fwd hI.chF (by rw [hn]; simp) with ⟨_, h⟩ | ⟨m, b', h1, h2, h3, h4, h5, h6, h7, h8⟩
    · have := hI.firstF
      rcases h with h | h | ⟨l, h, h'⟩
      · omega
      · omega
      · cases h; omega
    · refine ⟨m, b', h1, h2, h3, h7, ?_⟩
      rcases h8 with h8 | h8
      · rw [hr] at hlen; simp at hlen; omega
      · omega)
  unfold flushF
  rw [hn]
  dsimp only
  unfold getF at e1 ⊢
  dsimp only
  rw [e1]
  dsimp only
  have hF := hI.dupF
  have hL := hI.lost
  rw [hn] at hF hL
  simp only [List.map_cons, List.sum_cons] at hF hL
  have hlF := firsts_length replyOf (replies D)
  have hlL := firsts_length seqOf (losses D)
  have := replies_length D
  have := losses_length D
  have hx : n.lost = true → n.seen = 0 := by
    intro hl
    apply Decidable.byContradiction; intro hh
    obtain ⟨r, r1, r2⟩ := (hI.seen n hmem).1.1 hh
    obtain ⟨r', r1', r2'⟩ := (hI.seen n hmem).2.1 hl
    exact hI.excl r' r1' r r1 (r2'.trans r2.symm)
  have hdup : (if !(atSkip c n s.iskip).2 && !n.lost && n.seen ≠ 0 then (s.dupsF + (n.seen - 1)) % 2 ^ 32 else s.dupsF) = s.dupsF + extra n := by
    unfold extra at hF ⊢
    split
    · rw [Nat.mod_eq_of_lt (by omega)]
    · rename_i hc
      by_cases hz : n.seen = 0
      · rw [hz]; rfl
      · exfalso; apply hc
        cases hsk : (atSkip c n s.iskip).2
        · cases hll : n.lost
          · simp [hz]
          · exact absurd (hx hll) hz
        · exact absurd (skip_idle hI hcl n hmem _ hsk).1 hz
  have hlost : (if !(atSkip c n s.iskip).2 && n.lost then (s.lost + 1) % 2 ^ 32 else s.lost) = s.lost + gone n := by
    unfold gone at hL ⊢
    cases hll : n.lost
    · simp
    · rw [hll] at hL
      cases hsk : (atSkip c n s.iskip).2
      · simp only [Bool.not_false, Bool.and_self, if_true] at hL ⊢
        rw [Nat.mod_eq_of_lt (by omega)]
      · rw [(skip_idle hI hcl n hmem _ hsk).2] at hll; cases hll
  rw [hdup, hlost]
  have hex : ∀ x ∈ new, extra x = 0 ∧ gone x = 0 := fun x hx => ⟨by simp [extra, (e6 x hx).1], by simp [gone, (e6 x hx).2.1]⟩
  have hold : ∀ x ∈ b'.nodes, x ∈ s.fwd.nodes ∨ (x ∈ new ∧ kF + s.fwd.nodes.length ≤ x.seq) := by
    intro x hx
    have hnx : b'.nodes.map (·.seq) = List.range' (kF + 1) b'.nodes.length := e2.seqs
    have hsx := e2.mem x hx
    rw [e5] at hx
    rcases List.mem_append.1 hx with hx | hx
    · exact Or.inl (by rw [hn]; exact List.mem_cons_of_mem _ hx)
    · refine Or.inr ⟨hx, ?_⟩
      rw [e5, List.map_append, List.length_append, ← List.range'_append_1] at hnx
      have := (List.append_inj hnx (by simp)).2
      have hm : x.seq ∈ new.map (·.seq) := List.mem_map_of_mem hx
      rw [this, List.mem_range'_1] at hm
      omega
  have hlen' : b'.nodes.length = rest.length + new.length := by rw [e5]; simp
  have hnone : ∀ q, kF + s.fwd.nodes.length ≤ q → ∀ r ∈ D, seqOf r ≠ q := fun q hq r hr => by have := hI.topF r hr; omega
  refine ⟨g, _, rfl, ?_, rfl, rfl, e3, fun h => by have := (e4 h).2; omega⟩
  refine { chF := e2, chB := hI.chB, firstF := by have := hI.firstF; dsimp only; omega, firstB := hI.firstB, capF := by have := hI.capF; dsimp only; omega,
           seen := ?_, assoc := ?_, topF := fun r hr => by have := hI.topF r hr; dsimp only; omega, seenB := hI.seenB, assocB := hI.assocB, topB := hI.topB
           owner := hI.owner, excl := hI.excl, dupF := ?_, dupB := hI.dupB, lost := ?_, sent := hI.sent, sched := ?_, stale := ?_, idle := ?_ }
  · intro x hx
    rcases hold x hx with h | ⟨h, h'⟩
    · exact hI.seen x h
    · obtain ⟨a1, a2, _⟩ := e6 x h
      exact ⟨⟨fun hh => absurd a1 hh, fun ⟨r, r1, r2⟩ => absurd r2 (hnone _ h' r (mem_replies.1 r1).1)⟩,
        ⟨fun hh => (by rw [a2] at hh; cases hh), fun ⟨r, r1, r2⟩ => absurd r2 (hnone _ h' r (mem_losses.1 r1).1)⟩⟩
  · intro x hx hs
    rcases hold x hx with h | ⟨h, h'⟩
    · exact hI.assoc x h hs
    · exact absurd (e6 x h).1 hs
  · dsimp only
    rw [e5, sum_append_zero extra rest new fun x hx => (hex x hx).1]; omega
  · dsimp only
    rw [e5, sum_append_zero gone rest new fun x hx => (hex x hx).2]; omega
  · intro x hx
    rcases hold x hx with h | ⟨h, h'⟩
    · exact hI.sched x h
    · exact (e6 x h).2.2.2
  · intro x hx
    rcases e7 x hx with h | h
    · exact (hI.stale x h).imp id fun ⟨r, r1, r2, r3⟩ => ⟨r, r1, r2, by omega⟩
    · by_cases hs : n.seen = 0
      · rw [h]; exact (hI.idle n hmem hs).imp id fun ⟨r, r1, r2, r3⟩ => ⟨r, r1, r2, by omega⟩
      · obtain ⟨r, r1, r2, r3⟩ := hI.assoc n hmem hs
        exact Or.inr ⟨r, r1, by rw [r3, h], by omega⟩
  · intro x hx hs
    rcases hold x hx with h | ⟨h, h'⟩
    · exact (hI.idle x h hs).imp id fun ⟨r, r1, r2, r3⟩ => ⟨r, r1, r2, by omega⟩
    · rcases (e6 x h).2.2.1 with h | h
      · exact Or.inl h
      · exact (hI.stale _ h).imp id fun ⟨r, r1, r2, r3⟩ => ⟨r, r1, r2, by omega⟩

/-- A flush of a packet back. -/
theorem flushB_spec {c : Cfg} {D : List TWDataRec} {kF kB : Nat} {s : St} (hI : Inv c D kF kB s) (hcl : ∀ r ∈ D, Clear c r) (hD : D.length < 2 ^ 32)
    (n : Node) (rest : List Node) (hn : s.bck.nodes = n :: rest) :
    ∃ g s', flushB c s = .ok (g, s') ∧ Inv c D kF (kB + 1) s' ∧ Same s s' ∧ s'.fwd = s.fwd ∧ (g = true ↔ s'.bck.nodes ≠ []) ∧ (g = false → s.last ≤ kB + 1) ∧
      s.bck.nodes.length ≤ s'.bck.nodes.length + 1 ∧
      (kB + 1 + s'.bck.nodes.length ≤ kB + s.bck.nodes.length ∨ (s.bck.nodes.length = 1 ∧ kB + 1 + s'.bck.nodes.length ≤ s.last)) := by
  have hk := hI.chB.head n rest hn
  have hmem : n ∈ s.bck.nodes := by rw [hn]; simp
  have hlen : s.bck.nodes.length = rest.length + 1 := by rw [hn]; simp
  obtain ⟨g, b', e1, e2, e3, e4, ⟨new, e5, e6⟩, e7, e8, e9⟩ := shift_spec (fun q => getB c q s) (fun _ => c.times (s.fwd.next - 1)) s.last kB n rest s.bck hn hI.chB (fun hr hl => by
    rcases get_spec (fun _ => c.times (s.fwd.next - 1)) s.first none (n.seq + 1) kB s.bck hI.chB (by rw [hn]; simp) with ⟨_, h⟩ | ⟨m, b', h1, h2, h3, h4, h5, h6, h7, h8⟩
    · have := hI.firstB
      rcases h with h | h | ⟨l, h, h'⟩
      · omega
      · omega
      · cases h
    · refine ⟨m, b', h1, h2, h3, h7, ?_⟩
      rcases h8 with h8 | h8
      · rw [hr] at hlen; simp at hlen; omega
      · omega)
  unfold flushB
  rw [hn]
  dsimp only
  have hll := (hI.seenB n hmem).1
  rw [hll, if_neg (by simp)]
  unfold getB at e1 ⊢
  dsimp only
  rw [e1]
  dsimp only
  have hF := hI.dupB
  rw [hn] at hF
  simp only [List.map_cons, List.sum_cons] at hF
  have := replies_length D
  have hdup : (if !(atSkip c n s.iskip).2 && n.seen ≠ 0 then (s.dupsB + (n.seen - 1)) % 2 ^ 32 else s.dupsB) = s.dupsB + extra n := by
    unfold extra at hF ⊢
    split
    · rw [Nat.mod_eq_of_lt (by omega)]
    · rename_i hc
      by_cases hz : n.seen = 0
      · rw [hz]; rfl
      · exfalso; apply hc
        cases hsk : (atSkip c n s.iskip).2
        · simp [hz]
        · exact absurd (skip_idleB hI hcl n hmem _ hsk) hz
  rw [hdup]
  have hex : ∀ x ∈ new, extra x = 0 := fun x hx => by simp [extra, (e6 x hx).1]
  have hold : ∀ x ∈ b'.nodes, x ∈ s.bck.nodes ∨ (x ∈ new ∧ kB + s.bck.nodes.length ≤ x.seq) := by
    intro x hx
    have hnx : b'.nodes.map (·.seq) = List.range' (kB + 1) b'.nodes.length := e2.seqs
    have hsx := e2.mem x hx
    rw [e5] at hx
    rcases List.mem_append.1 hx with hx | hx
    · exact Or.inl (by rw [hn]; exact List.mem_cons_of_mem _ hx)
    · refine Or.inr ⟨hx, ?_⟩
      rw [e5, List.map_append, List.length_append, ← List.range'_append_1] at hnx
      have := (List.append_inj hnx (by simp)).2
      have hm : x.seq ∈ new.map (·.seq) := List.mem_map_of_mem hx
      rw [this, List.mem_range'_1] at hm
      omega
  have hlen' : b'.nodes.length = rest.length + new.length := by rw [e5]; simp
  have hnone : ∀ q, kB + s.bck.nodes.length ≤ q → ∀ r ∈ replies D, replyOf r ≠ q := fun q hq r hr => by have := hI.topB r hr; omega
  refine ⟨g, _, rfl, ?_, rfl, rfl, e3, fun h => by have := (e4 h).2; omega, by dsimp only [List.length_cons]; omega, ?_⟩
  rotate_left
  · rcases e9 with h | ⟨h, h'⟩
    · exact Or.inl (by rw [hn] at h; exact h)
    · exact Or.inr ⟨by rw [h]; rfl, h'⟩
  refine { chF := hI.chF, chB := e2, firstF := hI.firstF, firstB := by have := hI.firstB; dsimp only; omega, capF := hI.capF, seen := hI.seen, assoc := hI.assoc, topF := hI.topF, seenB := ?_, assocB := ?_, topB := fun r hr => by have := hI.topB r hr; dsimp only; omega, owner := hI.owner, excl := hI.excl, dupF := hI.dupF, dupB := ?_, lost := hI.lost, sent := hI.sent, sched := hI.sched, stale := hI.stale, idle := hI.idle }
  · intro x hx
    rcases hold x hx with h | ⟨h, h'⟩
    · exact hI.seenB x h
    · obtain ⟨a1, a2, _⟩ := e6 x h
      exact ⟨a2, ⟨fun hh => absurd a1 hh, fun ⟨r, r1, r2⟩ => absurd r2 (hnone _ h' r r1)⟩⟩
  · intro x hx r hr hq
    rcases hold x hx with h | ⟨h, h'⟩
    · exact hI.assocB x h r hr hq
    · exact absurd hq (hnone _ h' r hr)
  · dsimp only
    rw [e5, sum_append_zero extra rest new hex]; omega

/-! ## The loops that flush -/

theorem early_iff {c : Cfg} {r : TWDataRec} {s : St} (n : Node) (rest : List Node) (hn : s.fwd.nodes = n :: rest) (hs : n.sched = c.times n.seq) :
    early c r s = true ↔ Passed c r n.seq := by
  unfold early Passed
  rw [hn]
  dsimp only
  by_cases h : Lost r
  · rw [if_pos ((isLost_iff r).2 h)]; simp [h, seqOf]
  · rw [if_neg (fun hh => h ((isLost_iff r).1 hh))]; simp [h, hs]

/-- The loop that flushes packets out before record `r`: it goes on to the first packet that `r` does not pass, and is refused if there is none. -/
theorem flushWhileF {c : Cfg} {D : List TWDataRec} {kB : Nat} (hcl : ∀ r ∈ D, Clear c r) (hD : D.length < 2 ^ 32) (r : TWDataRec) :
    ∀ (fuel kF : Nat) (s : St), Inv c D kF kB s → s.fwd.nodes ≠ [] → s.last < fuel + kF →
    (flushWhile (flushF c) (early c r) fuel s = .error .refused ∧ ∀ q, kF ≤ q → q < s.last → Passed c r q) ∨
    ∃ kF' s', flushWhile (flushF c) (early c r) fuel s = .ok s' ∧ Inv c D kF' kB s' ∧ Same s s' ∧ s'.bck = s.bck ∧ s'.fwd.nodes ≠ [] ∧ kF ≤ kF' ∧
      (∀ q, kF ≤ q → q < kF' → Passed c r q) ∧ ¬ Passed c r kF' := by
  intro fuel
  induction fuel with
  | zero =>
    intro kF s hI hne hf
    have := hI.capF
    obtain ⟨n, rest, hn⟩ := List.exists_cons_of_ne_nil hne
    rw [hn] at this; simp at this; omega
  | succ fuel ih =>
    intro kF s hI hne hf
    obtain ⟨n, rest, hn⟩ := List.exists_cons_of_ne_nil hne
    have hk := hI.chF.head n rest hn
    have he := early_iff (r := r) n rest hn (hI.sched n (by rw [hn]; simp))
    rw [hk] at he
    unfold flushWhile
    by_cases h : early c r s = true
    · rw [if_pos h]
      have hp := he.1 h
      obtain ⟨g, s', f1, f2, f3, f4, f5, f6⟩ := flushF_spec hI hcl hD n rest hn
      rw [f1]
      cases g with
      | false =>
        dsimp only
        refine Or.inl ⟨rfl, fun q q1 q2 => ?_⟩
        have := f6 rfl
        have : q = kF := by omega
        rw [this]; exact hp
      | true =>
        dsimp only
        have hl := f3.last
        rcases ih (kF + 1) s' f2 (f5.1 rfl) (by rw [hl]; omega) with ⟨g1, g2⟩ | ⟨kF', t, g1, g2, g3, g4, g5, g6, g7, g8⟩
        · refine Or.inl ⟨g1, fun q q1 q2 => ?_⟩
          by_cases hq : q = kF
          · rw [hq]; exact hp
          · exact g2 q (by omega) (by rw [hl]; omega)
        · refine Or.inr ⟨kF', t, g1, g2, f3.trans g3, g4.trans f4, g5, by omega, fun q q1 q2 => ?_, g8⟩
          by_cases hq : q = kF
          · rw [hq]; exact hp
          · exact g7 q (by omega) q2
    · rw [if_neg h]
      exact Or.inr ⟨kF, s, rfl, hI, rfl, rfl, hne, Nat.le_refl _, fun q q1 q2 => by omega, fun hp => h (he.2 hp)⟩

/-- The reply that the first packet out is associated with. -/
theorem assoc_known {c : Cfg} {D : List TWDataRec} {kF kB : Nat} {s : St} (hI : Inv c D kF kB s) (n : Node) (rest : List Node) (hn : s.fwd.nodes = n :: rest) :
    n.assoc = 0 ∨ ∃ r ∈ replies D, replyOf r = n.assoc ∧ seqOf r ≤ kF := by
  have hk := hI.chF.head n rest hn
  have hmem : n ∈ s.fwd.nodes := by rw [hn]; simp
  by_cases hs : n.seen = 0
  · exact (hI.idle n hmem hs).imp id fun ⟨r, r1, r2, r3⟩ => ⟨r, r1, r2, by omega⟩
  · obtain ⟨r, r1, r2, r3⟩ := hI.assoc n hmem hs
    exact Or.inr ⟨r, r1, r3, by omega⟩

/-- The loop that flushes packets back: it stops at the latest at the reply to the first packet out. -/
theorem flushWhileB {c : Cfg} {D : List TWDataRec} {kF : Nat} (hcl : ∀ r ∈ D, Clear c r) (hD : D.length < 2 ^ 32) :
    ∀ (fuel kB : Nat) (s : St), Inv c D kF kB s → s.fwd.nodes ≠ [] → s.bck.nodes ≠ [] → s.bck.nodes.length < fuel →
    ∃ kB' s', flushWhile (flushB c) behind fuel s = .ok s' ∧ Inv c D kF kB' s' ∧ Same s s' ∧ s'.fwd = s.fwd ∧ s'.bck.nodes ≠ [] ∧
      (kB' = kB ∨ ∃ r ∈ replies D, kB' ≤ replyOf r ∧ seqOf r ≤ kF) := by
  intro fuel
  induction fuel with
  | zero => intro kB s _ _ _ hf; omega
  | succ fuel ih =>
    intro kB s hI hne hneB hf
    obtain ⟨n, rest, hn⟩ := List.exists_cons_of_ne_nil hne
    obtain ⟨m, restB, hm⟩ := List.exists_cons_of_ne_nil hneB
    have hkB := hI.chB.head m restB hm
    unfold flushWhile
    have hb : behind s = decide (n.assoc > m.seq) := by unfold behind; rw [hn, hm]
    by_cases h : n.assoc > m.seq
    · rw [if_pos (by rw [hb]; exact decide_eq_true h)]
      obtain ⟨r, r1, r2, r3⟩ : ∃ r ∈ replies D, replyOf r = n.assoc ∧ seqOf r ≤ kF := by
        rcases assoc_known hI n rest hn with h0 | h0
        · omega
        · exact h0
      have htop := hI.topB r r1
      obtain ⟨g, s', f1, f2, f3, f4, f5, f6, f7, f8⟩ := flushB_spec hI hcl hD m restB hm
      have hlen : 2 ≤ s.bck.nodes.length := by omega
      have hne' : s'.bck.nodes ≠ [] := by intro hh; rw [hh] at f7; simp at f7; omega
      rw [f1, f5.2 hne']
      dsimp only
      have hcut : s'.bck.nodes.length < fuel := by omega
      obtain ⟨kB', t, g1, g2, g3, g4, g5, g6⟩ := ih (kB + 1) s' f2 (by rw [f4]; exact hne) hne' hcut
      refine ⟨kB', t, g1, g2, f3.trans g3, g4.trans f4, g5, ?_⟩
      rcases g6 with g6 | g6
      · exact Or.inr ⟨r, r1, by omega, r3⟩
      · exact Or.inr g6
    · rw [if_neg (by rw [hb]; simpa using h)]
      exact ⟨kB, s, rfl, hI, rfl, rfl, hneB, Or.inl rfl⟩

end Owamp.TwStats
