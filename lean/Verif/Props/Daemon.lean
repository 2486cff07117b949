import Verif.Spec.Daemon
import Verif.Props.Limits
import Verif.Props.Broker
import Mathlib.Data.List.Nodup
import Mathlib.Data.List.Range
import Mathlib.Data.List.Perm.Subperm
import Mathlib.Data.List.Induction
/-!
# C47 and C48: the daemon's processes
-/
namespace Owamp.Props
open Owamp.Policy Owamp.Daemon Owamp.Spec.Daemon Owamp.Spec.Limits

/-- What holds of the daemon whenever memory was available. -/
structure Sane (d : State) : Prop where
  nofault : d.fault = false
  perm : (d.table.map (·.pid)).Perm (d.alive ++ d.ended)
  nodup : (d.alive ++ d.ended).Nodup
  small : ∀ p ∈ d.alive ++ d.ended, p < 2 ^ 31
  count : d.sessions.toNat = d.table.length
  bound : d.max ≠ 0 → d.table.length ≤ d.max.toNat
  room : d.point = .fork → d.max ≠ 0 → d.table.length < d.max.toNat

theorem length_le_of_nodup {l : List Nat} {n : Nat} (h : l.Nodup) (hs : ∀ p ∈ l, p < n) : l.length ≤ n := by
  have := (List.Nodup.subperm h (fun x hx => List.mem_range.2 (hs x hx))).length_le
  rwa [List.length_range] at this

theorem Sane.length {d : State} (h : Sane d) : d.table.length = d.alive.length + d.ended.length := by
  have := h.perm.length_eq
  simpa using this

theorem Sane.table_le {d : State} (h : Sane d) : d.table.length ≤ 2 ^ 31 := by
  rw [h.length, ← List.length_append]
  exact length_le_of_nodup h.nodup h.small

theorem Sane.full {d : State} (h : Sane d) : full d = true ↔ d.max ≠ 0 ∧ d.max.toNat ≤ d.table.length := by
  have h1 := h.table_le
  have h2 := h.count
  unfold Daemon.full
  rw [decide_eq_true_iff]
  have : (d.sessions + 1).toNat = d.table.length + 1 := by
    rw [BitVec.toNat_add, h2]
    exact Nat.mod_eq_of_lt (by show d.table.length + 1 < 2 ^ 32; omega)
  rw [this]
  constructor
  · rintro ⟨a, b⟩; exact ⟨a, by omega⟩
  · rintro ⟨a, b⟩; exact ⟨a, by omega⟩

theorem sane_start (max : U32) (t : Tree) : Sane (start max t) :=
  ⟨rfl, List.Perm.refl _, List.nodup_nil, (fun _ hp => nomatch hp), rfl, (fun _ => Nat.zero_le _), (fun h => nomatch h)⟩

theorem sane_point {d : State} (h : Sane d) (p : Point) (hp : p = .fork → d.max ≠ 0 → d.table.length < d.max.toNat) :
    Sane { d with point := p } :=
  ⟨h.nofault, h.perm, h.nodup, h.small, h.count, h.bound, hp⟩

theorem filter_ne_of_notMem {l : List Nat} {p : Nat} (h : p ∉ l) : l.filter (· ≠ p) = l :=
  List.filter_eq_self.2 fun x hx => by simp only [ne_eq, decide_not, Bool.not_eq_eq_eq_not, Bool.not_true, decide_eq_false_iff_not]; rintro rfl; exact h hx

theorem filter_ne_erase {l : List Nat} {p : Nat} (h : l.Nodup) : l.filter (· ≠ p) = l.erase p := by
  rw [h.erase_eq_filter]
  refine List.filter_congr fun x _ => ?_
  by_cases hx : x = p <;> simp [hx, bne]

theorem sane_step {claimOver : U64 → U64 → Bool} {big : Bool} {d d' : State} {e : Ev} (h : Sane d) (hm : ∀ pid fd, e ≠ .forked pid fd false)
    (hs : step claimOver big d e = some d') : Sane d' ∧ d'.max = d.max := by
  unfold step at hs
  rw [if_neg (by rw [h.nofault]; exact Bool.false_ne_true)] at hs
  cases e with
  | ends pid =>
    dsimp only at hs
    split at hs
    · rename_i ha
      cases hs
      have hnd := List.nodup_append.1 h.nodup
      have hp : (d.alive.filter (· ≠ pid) ++ (d.ended ++ [pid])).Perm (d.alive ++ d.ended) := by
        have h1 : (pid :: d.alive.filter (· ≠ pid)).Perm d.alive := by
          rw [filter_ne_erase hnd.1]
          exact (List.perm_cons_erase ha).symm
        have h2 : (d.alive.filter (· ≠ pid) ++ (d.ended ++ [pid])).Perm (pid :: d.alive.filter (· ≠ pid) ++ d.ended) := by
          rw [← List.append_assoc]
          exact List.perm_append_singleton _ _
        exact h2.trans (h1.append_right _)
      exact ⟨⟨h.nofault, h.perm.trans hp.symm, hp.nodup_iff.2 h.nodup, fun p hh => h.small p (hp.subset hh), h.count, h.bound, h.room⟩, rfl⟩
    · cases hs
  | intr =>
    dsimp only at hs
    split at hs <;> cases hs <;> exact ⟨sane_point h _ (by intro hh; cases hh), rfl⟩
  | ready =>
    dsimp only at hs
    split at hs <;> cases hs
    exact ⟨sane_point h _ (by intro hh; cases hh), rfl⟩
  | mesg pid s =>
    dsimp only at hs
    split at hs
    · split at hs
      · cases hs
      · cases hs
        refine ⟨⟨h.nofault, ?_, h.nodup, h.small, ?_, ?_, (fun hh => nomatch hh)⟩, rfl⟩
        · dsimp only
          rw [List.map_map]
          refine (List.Perm.of_eq ?_).trans h.perm
          refine List.map_congr_left fun x _ => ?_
          dsimp only [Function.comp]
          split <;> rfl
        · dsimp only; rw [List.length_map]; exact h.count
        · dsimp only; rw [List.length_map]; exact h.bound
    · cases hs
  | accepted =>
    dsimp only at hs
    split at hs <;> cases hs
    exact ⟨sane_point h _ (by intro hh; cases hh), rfl⟩
  | notAccepted =>
    dsimp only at hs
    split at hs <;> cases hs
    exact ⟨sane_point h _ (by intro hh; cases hh), rfl⟩
  | go =>
    dsimp only at hs
    split at hs
    · cases hs
      exact ⟨sane_point h _ (by intro hh; cases hh), rfl⟩
    · cases hs
      refine ⟨sane_point h _ fun hh hz => ?_, rfl⟩
      by_cases hf : full d = true
      · rw [if_pos hf] at hh; cases hh
      · have := mt h.full.2 hf
        rw [not_and] at this
        exact Nat.lt_of_not_le (this hz)
    · cases hs
      refine ⟨sane_point h _ fun hh hz => ?_, rfl⟩
      by_cases hf : full d = true
      · rw [if_pos hf] at hh; cases hh
      · have := mt h.full.2 hf
        rw [not_and] at this
        exact Nat.lt_of_not_le (this hz)
    · rename_i k _
      cases hs
      refine ⟨sane_point h _ fun hh => ?_, rfl⟩
      split at hh
      · cases hh
      · cases k <;> cases hh
    · split at hs <;> cases hs
      exact ⟨sane_point h _ (by intro hh; cases hh), rfl⟩
    · rename_i k _
      cases hs
      exact ⟨⟨h.nofault, h.perm, h.nodup, h.small, h.count, h.bound, fun hh => by cases k <;> cases hh⟩, rfl⟩
    · cases hs
  | waited pid =>
    dsimp only at hs
    split at hs
    · rename_i k hk
      split at hs
      · rename_i he
        have hmem : pid ∈ d.table.map (·.pid) := h.perm.mem_iff.2 (List.mem_append_right _ he)
        split at hs
        · rename_i c hc
          cases hs
          have hcp : c.pid = pid := by simpa using List.find?_some hc
          have hnd := List.nodup_append.1 h.nodup
          have hna : pid ∉ d.alive := fun hh => hnd.2.2 pid hh pid he rfl
          have hperm : ((d.table.filter (·.pid ≠ c.pid)).map (·.pid)).Perm (d.alive ++ d.ended.filter (· ≠ pid)) := by
            have h1 := h.perm.filter (· ≠ pid)
            rw [List.filter_append, filter_ne_of_notMem hna] at h1
            rw [List.filter_map] at h1
            rw [hcp]
            exact h1
          have hsub : (d.alive ++ d.ended.filter (· ≠ pid)).Sublist (d.alive ++ d.ended) :=
            (List.Sublist.refl _).append List.filter_sublist
          have hlen : (d.table.filter (·.pid ≠ c.pid)).length + 1 = d.table.length := by
            have h1 := hperm.length_eq
            have h2 := h.length
            have h3 : (d.ended.filter (· ≠ pid)).length + 1 = d.ended.length := by
              rw [filter_ne_erase hnd.2.1, List.length_erase_of_mem he]
              have := List.length_pos_of_mem he
              omega
            rw [List.length_map, List.length_append] at h1
            omega
          refine ⟨⟨h.nofault, hperm, hsub.nodup h.nodup, fun p hp => h.small p (hsub.subset hp), ?_, ?_, ?_⟩, rfl⟩
          · show (d.sessions - 1).toNat = _
            have h2 := h.count
            have h3 := h.table_le
            show _ = (d.table.filter (·.pid ≠ c.pid)).length
            have h4 : (1 : U32) ≤ d.sessions := by
              show (1 : U32).toNat ≤ d.sessions.toNat
              rw [h2, ← hlen]; exact Nat.le_add_left _ _
            rw [BitVec.toNat_sub_of_le h4, h2]
            show d.table.length - 1 = _
            omega
          · intro hz
            have := h.bound hz
            show (d.table.filter (·.pid ≠ c.pid)).length ≤ d.max.toNat
            omega
          · intro hp
            have : d.point = .fork := hp
            rw [hk] at this; cases this
        · rename_i hn
          exfalso
          obtain ⟨c, hc, hcp⟩ := List.mem_map.1 hmem
          have := List.find?_eq_none.1 hn c hc
          simp [hcp] at this
      · cases hs
    · cases hs
  | forked pid fd mem =>
    dsimp only at hs
    split at hs
    · rename_i hf
      obtain ⟨f1, f2, f3, f4, _⟩ := hf
      cases mem with
      | false => exact absurd rfl (hm pid fd)
      | true =>
        rw [if_pos rfl] at hs
        cases hs
        have hp : (d.alive ++ [pid] ++ d.ended).Perm ((d.alive ++ d.ended) ++ [pid]) := by
          rw [List.append_assoc, List.append_assoc]
          exact List.Perm.append_left _ List.perm_append_comm
        refine ⟨⟨h.nofault, ?_, ?_, ?_, ?_, ?_, (fun hh => nomatch hh)⟩, rfl⟩
        · show ((d.table ++ [(⟨pid, fd, none⟩ : Child)]).map (·.pid)).Perm (d.alive ++ [pid] ++ d.ended)
          rw [List.map_append]
          exact (h.perm.append_right [pid]).trans hp.symm
        · show (d.alive ++ [pid] ++ d.ended).Nodup
          refine hp.nodup_iff.2 (List.nodup_append.2 ⟨h.nodup, List.nodup_singleton _, fun a ha b hb => ?_⟩)
          rw [List.mem_singleton] at hb
          rintro rfl
          rw [hb] at ha
          rcases List.mem_append.1 ha with ha | ha
          · exact f3 ha
          · exact f4 ha
        · intro p hpp
          have hpp : p ∈ d.alive ++ [pid] ++ d.ended := hpp
          rcases List.mem_append.1 (hp.subset hpp) with ha | ha
          · exact h.small p ha
          · rw [List.mem_singleton.1 ha]; exact f2
        · show (d.sessions + 1).toNat = (d.table ++ [_]).length
          rw [BitVec.toNat_add, h.count, List.length_append]
          have := h.table_le
          exact Nat.mod_eq_of_lt (by show d.table.length + 1 < 2 ^ 32; omega)
        · intro hz
          show (d.table ++ [_]).length ≤ d.max.toNat
          have := h.room f1 hz
          rw [List.length_append]
          exact this
    · cases hs
  | notForked =>
    dsimp only at hs
    split at hs <;> cases hs
    exact ⟨sane_point h _ (by intro hh; cases hh), rfl⟩

theorem sane_run {claimOver : U64 → U64 → Bool} {big : Bool} {es : List Ev} {d d' : State} (h : Sane d) (hm : Memory es)
    (hr : run claimOver big d es = some d') : Sane d' ∧ d'.max = d.max := by
  induction es generalizing d with
  | nil => cases hr; exact ⟨h, rfl⟩
  | cons e es ih =>
    unfold run at hr
    split at hr
    · cases hr
    · rename_i d1 h1
      obtain ⟨s1, m1⟩ := sane_step h (fun pid fd he => hm pid fd (he ▸ List.mem_cons_self)) h1
      obtain ⟨s2, m2⟩ := ih s1 (fun pid fd he => hm pid fd (List.mem_cons_of_mem _ he)) hr
      exact ⟨s2, m2.trans m1⟩

/-- C47: with a maximum configured, there are never more processes serving connections than it allows, whatever happens; and
the daemon never looks for a process that it does not know. (Memory has to be available: a process for which the daemon
gets no memory is killed at once, but not counted, see `C47_memory`.) -/
theorem C47_max (claimOver : U64 → U64 → Bool) (big : Bool) (max : U32) (t : Tree) (es : List Ev) (d : State) (hm : Memory es)
    (hr : run claimOver big (start max t) es = some d) : (max ≠ 0 → d.alive.length ≤ max.toNat) ∧ d.fault = false := by
  obtain ⟨h, hmax⟩ := sane_run (sane_start max t) hm hr
  refine ⟨fun hz => ?_, h.nofault⟩
  have hmax : d.max = max := hmax
  have h1 := h.bound (by rw [hmax]; exact hz)
  rw [h.length, hmax] at h1
  omega

/-- C47: the places taken are those of the processes that run or have not been waited for. -/
theorem C47_count (claimOver : U64 → U64 → Bool) (big : Bool) (max : U32) (t : Tree) (es : List Ev) (d : State) (hm : Memory es)
    (hr : run claimOver big (start max t) es = some d) : d.sessions.toNat = d.alive.length + d.ended.length := by
  obtain ⟨h, _⟩ := sane_run (sane_start max t) hm hr
  rw [h.count, h.length]

theorem wait_all {claimOver : U64 → U64 → Bool} {big : Bool} {d : State} {k : Back} (h : Sane d) (hp : d.point = .wait k) :
    ∃ d', run claimOver big d (d.ended.map .waited ++ [.go]) = some d' ∧ d'.point = .clear k ∧ d'.ended = [] ∧ d'.alive = d.alive ∧
      d'.max = d.max ∧ Sane d' := by
  induction hn : d.ended.length generalizing d with
  | zero =>
    have he : d.ended = [] := List.length_eq_zero_iff.1 hn
    refine ⟨{ d with point := .clear k }, ?_, rfl, he, rfl, rfl, sane_point h _ (by intro hh; cases hh)⟩
    rw [show d.ended.map Ev.waited = [] by rw [he]; rfl]
    show run claimOver big d [.go] = _
    unfold run
    have : step claimOver big d .go = some { d with point := .clear k } := by
      unfold step
      rw [if_neg (by rw [h.nofault]; exact Bool.false_ne_true)]
      dsimp only
      rw [hp]
      dsimp only
      rw [if_pos he]
    rw [this]
    rfl
  | succ n ih =>
    cases he : d.ended with
    | nil => rw [he] at hn; cases hn
    | cons p ps =>
      have hpm : p ∈ d.ended := by rw [he]; exact List.mem_cons_self
      have hmem : p ∈ d.table.map (·.pid) := h.perm.mem_iff.2 (List.mem_append_right _ hpm)
      obtain ⟨c, hc⟩ : ∃ c, d.table.find? (·.pid = p) = some c := by
        cases hf : d.table.find? (·.pid = p) with
        | some c => exact ⟨c, rfl⟩
        | none =>
          obtain ⟨c, hc, hcp⟩ := List.mem_map.1 hmem
          have := List.find?_eq_none.1 hf c hc
          simp [hcp] at this
      have hstep : step claimOver big d (.waited p) = some (free { d with ended := d.ended.filter (· ≠ p) } c) := by
        unfold step
        rw [if_neg (by rw [h.nofault]; exact Bool.false_ne_true)]
        dsimp only
        rw [hp]
        dsimp only
        rw [if_pos hpm, hc]
      obtain ⟨d1, hd1⟩ : ∃ d1, d1 = free { d with ended := d.ended.filter (· ≠ p) } c := ⟨_, rfl⟩
      rw [← hd1] at hstep
      have hs1 := (sane_step h (fun _ _ hh => Ev.noConfusion hh) hstep).1
      have hnd := (List.nodup_append.1 h.nodup).2.1
      have hend : d1.ended = ps := by
        rw [hd1]
        show d.ended.filter (· ≠ p) = ps
        rw [he] at hnd ⊢
        rw [List.filter_cons_of_neg (by simp)]
        exact filter_ne_of_notMem (List.nodup_cons.1 hnd).1
      obtain ⟨d', g1, g2, g3, g4, g5, g6⟩ := ih hs1 (by rw [hd1]; exact hp) (by rw [hend]; rw [he] at hn; simpa using hn)
      refine ⟨d', ?_, g2, g3, ?_, ?_, g6⟩
      · rw [List.map_cons, List.cons_append]
        unfold run
        rw [hstep]
        dsimp only
        rw [hend] at g1
        exact g1
      · rw [g4, hd1]; rfl
      · rw [g5, hd1]; rfl

/-- C47: when the daemon waits for its processes, it goes on until it has waited for each that has ended, and then only the
processes that run have places. -/
theorem C47_freed (claimOver : U64 → U64 → Bool) (big : Bool) (max : U32) (t : Tree) (es : List Ev) (d : State) (hm : Memory es)
    (hr : run claimOver big (start max t) es = some d) (k : Back) (hp : d.point = .wait k) :
    ∃ d', run claimOver big d (d.ended.map .waited ++ [.go]) = some d' ∧ d'.point = .clear k ∧ d'.ended = [] ∧ d'.alive = d.alive ∧
      d'.sessions.toNat = d.alive.length := by
  obtain ⟨h, _⟩ := sane_run (sane_start max t) hm hr
  obtain ⟨d', g1, g2, g3, g4, _, g6⟩ := wait_all (claimOver := claimOver) (big := big) h hp
  refine ⟨d', g1, g2, g3, g4, ?_⟩
  rw [g6.count, g6.length, g3, g4]
  simp

/-- The flag is set when there are processes to wait for. -/
structure Aware (d : State) : Prop where
  flag : d.ended ≠ [] → d.chld = true
  clear : ∀ k, d.point = .clear k → d.ended = []

theorem aware_step {claimOver : U64 → U64 → Bool} {big : Bool} {d d' : State} {e : Ev} (h : Aware d)
    (hq : ∀ pid k, e = .ends pid → d.point ≠ .clear k) (hs : step claimOver big d e = some d') : Aware d' := by
  unfold step at hs
  split at hs
  · cases hs
  cases e with
  | ends pid =>
    dsimp only at hs
    split at hs <;> cases hs
    exact ⟨fun _ => rfl, fun k hk => absurd hk (hq pid k rfl)⟩
  | intr => dsimp only at hs; split at hs <;> cases hs <;> exact ⟨h.flag, (fun k hk => nomatch hk)⟩
  | ready => dsimp only at hs; split at hs <;> cases hs; exact ⟨h.flag, (fun k hk => nomatch hk)⟩
  | mesg pid s =>
    dsimp only at hs
    split at hs
    · split at hs <;> cases hs
      exact ⟨h.flag, (fun k hk => nomatch hk)⟩
    · cases hs
  | accepted => dsimp only at hs; split at hs <;> cases hs; exact ⟨h.flag, (fun k hk => nomatch hk)⟩
  | notAccepted => dsimp only at hs; split at hs <;> cases hs; exact ⟨h.flag, (fun k hk => nomatch hk)⟩
  | go =>
    dsimp only at hs
    split at hs
    · cases hs
      exact ⟨h.flag, (fun k hk => nomatch hk)⟩
    · cases hs
      refine ⟨h.flag, fun k hk => ?_⟩
      dsimp only at hk
      split at hk <;> cases hk
    · cases hs
      refine ⟨h.flag, fun k hk => ?_⟩
      dsimp only at hk
      split at hk <;> cases hk
    · rename_i k' _
      cases hs
      refine ⟨h.flag, fun k hk => ?_⟩
      dsimp only at hk
      split at hk
      · cases hk
      · cases k' <;> cases hk
    · split at hs <;> cases hs
      rename_i he
      exact ⟨h.flag, fun _ _ => he⟩
    · rename_i k' hk'
      cases hs
      exact ⟨fun hh => absurd (h.clear k' hk') hh, fun k hk => by cases k' <;> cases hk⟩
    · cases hs
  | waited pid =>
    dsimp only at hs
    split at hs
    · rename_i k' hk'
      split at hs
      · rename_i he
        have hflag : d.chld = true := h.flag (List.ne_nil_of_mem he)
        split at hs <;> cases hs
        · exact ⟨fun _ => hflag, fun k hk => absurd (hk'.symm.trans hk) (fun hh => nomatch hh)⟩
        · exact ⟨fun _ => hflag, fun k hk => absurd (hk'.symm.trans hk) (fun hh => nomatch hh)⟩
      · cases hs
    · cases hs
  | forked pid fd mem =>
    dsimp only at hs
    split at hs
    · cases mem
      · rw [if_neg Bool.false_ne_true] at hs; cases hs; exact ⟨h.flag, (fun k hk => nomatch hk)⟩
      · rw [if_pos rfl] at hs; cases hs; exact ⟨h.flag, (fun k hk => nomatch hk)⟩
    · cases hs
  | notForked => dsimp only at hs; split at hs <;> cases hs; exact ⟨h.flag, (fun k hk => nomatch hk)⟩

theorem aware_run {claimOver : U64 → U64 → Bool} {big : Bool} {es : List Ev} {d d' : State} (h : Aware d)
    (hq : Quiet claimOver big d es) (hr : run claimOver big d es = some d') : Aware d' := by
  induction es generalizing d with
  | nil => cases hr; exact h
  | cons e es ih =>
    unfold run at hr
    unfold Quiet at hq
    split at hr
    · cases hr
    · rename_i d1 h1
      rw [h1] at hq
      exact ih (aware_step h hq.1 h1) hq.2 hr

/-- C47: if no process ends just before the daemon resets its flag, then whenever the daemon comes to look for ended
processes and there are some, it waits for them (all, by `C47_freed`). What is missing: see `C47_lost`. -/
theorem C47_seen_partial (claimOver : U64 → U64 → Bool) (big : Bool) (max : U32) (t : Tree) (es : List Ev) (d : State)
    (hq : Quiet claimOver big (start max t) es) (hf : d.fault = false)
    (hr : run claimOver big (start max t) es = some d) (k : Back) (hp : d.point = .reap k) (he : d.ended ≠ []) :
    step claimOver big d .go = some { d with point := .wait k } := by
  have h := aware_run (d := start max t) ⟨fun hh => absurd rfl hh, (fun k hk => nomatch hk)⟩ hq hr
  unfold step
  rw [if_neg (by rw [hf]; exact Bool.false_ne_true)]
  dsimp only
  rw [hp]
  dsimp only
  rw [h.flag he, if_pos rfl]

theorem run_cons {claimOver : U64 → U64 → Bool} {big : Bool} {d d1 d' : State} {e : Ev} {es : List Ev} (h1 : step claimOver big d e = some d1)
    (h2 : run claimOver big d1 es = some d') : run claimOver big d (e :: es) = some d' := by
  unfold run
  rw [h1]
  exact h2

theorem run_append {claimOver : U64 → U64 → Bool} {big : Bool} {es fs : List Ev} {d d1 d' : State} (h1 : run claimOver big d es = some d1)
    (h2 : run claimOver big d1 fs = some d') : run claimOver big d (es ++ fs) = some d' := by
  induction es generalizing d with
  | nil => cases h1; exact h2
  | cons e es ih =>
    unfold run at h1
    split at h1
    · cases h1
    · rename_i d2 hd2
      exact run_cons hd2 (ih h1)

theorem go_step {claimOver : U64 → U64 → Bool} {big : Bool} {d : State} (h : d.fault = false) :
    (∀ k, d.point = .clear k → step claimOver big d .go = some { d with chld := false, point := resume k }) ∧
    (∀ k, d.point = .reap k → step claimOver big d .go = some { d with point := if d.chld then .wait k else resume k }) ∧
    (d.point = .check → step claimOver big d .go = some { d with point := if full d then .reap .recheck else .fork }) ∧
    (d.point = .recheck → step claimOver big d .go = some { d with point := if full d then .reap .loop else .fork }) := by
  unfold step
  rw [if_neg (by rw [h]; exact Bool.false_ne_true)]
  dsimp only
  refine ⟨fun k hk => ?_, fun k hk => ?_, fun hk => ?_, fun hk => ?_⟩ <;> rw [hk]

/-- C47: if no process ended just before the daemon reset its flag, a connection is served whenever fewer processes run than
are allowed when it has been accepted and no further event comes in between: the daemon's own steps lead it to `fork`. What
is missing: see `C47_lost`. -/
theorem C47_accepted_partial (claimOver : U64 → U64 → Bool) (big : Bool) (max : U32) (t : Tree) (es : List Ev) (d : State) (hm : Memory es)
    (hq : Quiet claimOver big (start max t) es) (hr : run claimOver big (start max t) es = some d)
    (hp : d.point = .check) (hfree : max = 0 ∨ d.alive.length < max.toNat) :
    ∃ own d', (∀ e ∈ own, e = .go ∨ ∃ pid, e = .waited pid) ∧ run claimOver big d own = some d' ∧ d'.point = .fork ∧ d'.alive = d.alive := by
  have ha := aware_run (d := start max t) ⟨fun hh => absurd rfl hh, (fun k hk => nomatch hk)⟩ hq hr
  obtain ⟨hs, hmax⟩ := sane_run (sane_start max t) hm hr
  have hmax : d.max = max := hmax
  have notfull : ∀ x : State, Sane x → x.max = max → x.alive = d.alive → x.ended = [] → full x = false := by
    intro x hx h1 h2 h3
    cases hfx : full x with
    | false => rfl
    | true =>
      obtain ⟨a, b⟩ := hx.full.1 hfx
      have hl := hx.length
      rw [h2, h3] at hl
      rw [h1] at a b
      rcases hfree with hz | hlt
      · exact absurd hz a
      · simp only [List.length_nil, Nat.add_zero] at hl
        omega
  cases hf : full d with
  | false =>
    refine ⟨[.go], { d with point := .fork }, fun e he => Or.inl (List.mem_singleton.1 he), ?_, rfl, rfl⟩
    refine run_cons ((go_step hs.nofault).2.2.1 hp) ?_
    rw [hf]
    rfl
  | true =>
    have hend : d.ended ≠ [] := fun h0 => by rw [notfull d hs hmax rfl h0] at hf; cases hf
    have hc := ha.flag hend
    have s1 := (go_step (claimOver := claimOver) (big := big) hs.nofault).2.2.1 hp
    rw [hf, if_pos rfl] at s1
    have sane1 := (sane_step hs (fun _ _ hh => Ev.noConfusion hh) s1).1
    have s2 := (go_step (claimOver := claimOver) (big := big) sane1.nofault).2.1 .recheck rfl
    rw [if_pos (show ({ d with point := Point.reap .recheck } : State).chld = true from hc)] at s2
    have sane2 := (sane_step sane1 (fun _ _ hh => Ev.noConfusion hh) s2).1
    obtain ⟨d3, g1, g2, g3, g4, g5, g6⟩ := wait_all (claimOver := claimOver) (big := big) sane2 (k := .recheck) rfl
    have s4 := (go_step (claimOver := claimOver) (big := big) g6.nofault).1 .recheck g2
    have sane4 := (sane_step g6 (fun _ _ hh => Ev.noConfusion hh) s4).1
    have s5 := (go_step (claimOver := claimOver) (big := big) sane4.nofault).2.2.2 rfl
    rw [notfull _ sane4 (g5.trans hmax) g4 g3, if_neg Bool.false_ne_true] at s5
    refine ⟨.go :: .go :: ((d.ended.map .waited ++ [.go]) ++ [.go, .go]), { d3 with chld := false, point := .fork }, ?_,
      run_cons s1 (run_cons s2 (run_append g1 (run_cons s4 (run_cons s5 rfl)))), rfl, g4⟩
    intro e he
    simp only [List.mem_cons, List.mem_append, List.mem_map, List.not_mem_nil, or_false] at he
    rcases he with rfl | rfl | (⟨p, _, rfl⟩ | rfl) | rfl | rfl
    · exact Or.inl rfl
    · exact Or.inl rfl
    · exact Or.inr ⟨p, rfl⟩
    · exact Or.inl rfl
    · exact Or.inl rfl
    · exact Or.inl rfl

/-! ## The resources -/

theorem step_tree {claimOver : U64 → U64 → Bool} {big : Bool} {d d' : State} {e : Ev} (hs : step claimOver big d e = some d') :
    d'.tree = (history claimOver d.tree ((demandOf big d e).toList.map (·.2))).1 := by
  unfold step at hs
  split at hs
  · cases hs
  cases e with
  | ends pid => dsimp only at hs; split at hs <;> cases hs; rfl
  | intr => dsimp only at hs; split at hs <;> cases hs <;> rfl
  | ready => dsimp only at hs; split at hs <;> cases hs; rfl
  | mesg pid s =>
    dsimp only at hs
    split at hs
    · unfold demandOf
      dsimp only
      cases hf : d.table.find? (·.pid = pid) with
      | none => rw [hf] at hs; cases hs
      | some c =>
        rw [hf] at hs
        cases hs
        obtain ⟨p, fd, node⟩ := c
        cases node with
        | none =>
          unfold checkFd
          dsimp only
          split
          · rfl
          · rfl
          · split <;> rfl
        | some c =>
          unfold checkFd
          dsimp only
          cases readQuery big s <;> rfl
    · cases hs
  | accepted => dsimp only at hs; split at hs <;> cases hs; rfl
  | notAccepted => dsimp only at hs; split at hs <;> cases hs; rfl
  | go => dsimp only at hs; split at hs <;> (try split at hs) <;> cases hs <;> rfl
  | waited pid =>
    dsimp only at hs
    split at hs
    · split at hs
      · split at hs <;> cases hs <;> rfl
      · cases hs
    · cases hs
  | forked pid fd mem =>
    dsimp only at hs
    split at hs
    · cases mem <;> cases hs <;> rfl
    · cases hs
  | notForked => dsimp only at hs; split at hs <;> cases hs; rfl

theorem history_append (claimOver : U64 → U64 → Bool) (as bs : List Event) (t : Tree) :
    history claimOver t (as ++ bs) = ((history claimOver (history claimOver t as).1 bs).1,
      (history claimOver t as).2 ++ (history claimOver (history claimOver t as).1 bs).2) := by
  induction as generalizing t with
  | nil => rfl
  | cons a as ih =>
    rw [List.cons_append, history, ih]
    rfl

/-- C48: what is in use after any sequence of events is determined by the demands made, in their order, and nothing else: in
particular it does not depend on which of the processes that made them have ended. -/
theorem C48_only_demands (claimOver : U64 → U64 → Bool) (big : Bool) (es : List Ev) (d d' : State)
    (hr : run claimOver big d es = some d') : d'.tree = (history claimOver d.tree ((demands claimOver big d es).map (·.2))).1 := by
  induction es generalizing d with
  | nil => cases hr; rfl
  | cons e es ih =>
    unfold run at hr
    cases h1 : step claimOver big d e with
    | none => rw [h1] at hr; cases hr
    | some d1 =>
      rw [h1] at hr
      rw [ih d1 hr, step_tree h1]
      have : demands claimOver big d (e :: es) = (demandOf big d e).toList ++ demands claimOver big d1 es := by
        rw [demands, h1]
      rw [this, List.map_append, history_append]

/-- The process with this number has announced the class `k` since it was started, during the events `es` from the state `d0`. -/
def Announced (claimOver : U64 → U64 → Bool) (big : Bool) (d0 : State) (es : List Ev) (pid k : Nat) : Prop :=
  ∃ pre d1 s name rest post, es = pre ++ .mesg pid s :: post ∧ run claimOver big d0 pre = some d1 ∧ readClass big s = .named name rest ∧
    findClass d1.tree name = some k ∧ ∀ fd mem, .forked pid fd mem ∉ post

theorem Announced.later {claimOver : U64 → U64 → Bool} {big : Bool} {d0 : State} {es : List Ev} {pid k : Nat} (h : Announced claimOver big d0 es pid k)
    (e : Ev) (he : ∀ fd mem, e ≠ .forked pid fd mem) : Announced claimOver big d0 (es ++ [e]) pid k := by
  obtain ⟨pre, d1, s, name, rest, post, rfl, h2, h3, h4, h5⟩ := h
  refine ⟨pre, d1, s, name, rest, post ++ [e], by simp, h2, h3, h4, fun fd mem hh => ?_⟩
  rcases List.mem_append.1 hh with hh | hh
  · exact h5 fd mem hh
  · exact he fd mem (List.mem_singleton.1 hh).symm

theorem run_snoc {claimOver : U64 → U64 → Bool} {big : Bool} {es : List Ev} {e : Ev} {d d' : State} (h : run claimOver big d (es ++ [e]) = some d') :
    ∃ d1, run claimOver big d es = some d1 ∧ step claimOver big d1 e = some d' := by
  induction es generalizing d with
  | nil =>
    rw [List.nil_append] at h
    unfold run at h
    cases hs : step claimOver big d e with
    | none => rw [hs] at h; cases h
    | some d1 => rw [hs] at h; cases h; exact ⟨d, rfl, hs⟩
  | cons x es ih =>
    rw [List.cons_append] at h
    unfold run at h ⊢
    cases hs : step claimOver big d x with
    | none => rw [hs] at h; cases h
    | some d1 => rw [hs] at h; exact ih h

theorem announced_run (claimOver : U64 → U64 → Bool) (big : Bool) (max : U32) (t : Tree) (es : List Ev) (d : State) (hm : Memory es)
    (hr : run claimOver big (start max t) es = some d) :
    ∀ c ∈ d.table, ∀ k, c.node = some k → Announced claimOver big (start max t) es c.pid k := by
  induction es using List.reverseRecOn generalizing d with
  | nil => cases hr; intro c hc; cases hc
  | append_singleton es e ih =>
    obtain ⟨d1, h1, hs⟩ := run_snoc hr
    have hm1 : Memory es := fun pid fd hh => hm pid fd (List.mem_append_left _ hh)
    have hsane := (sane_run (sane_start max t) hm1 h1).1
    have ih := ih d1 hm1 h1
    unfold step at hs
    rw [if_neg (by rw [hsane.nofault]; exact Bool.false_ne_true)] at hs
    have same : d.table = d1.table → (∀ pid fd mem, e ≠ .forked pid fd mem) → ∀ c ∈ d.table, ∀ k, c.node = some k →
        Announced claimOver big (start max t) (es ++ [e]) c.pid k := by
      intro ht he c hc k hk
      rw [ht] at hc
      exact (ih c hc k hk).later e (fun fd mem => he _ fd mem)
    cases e with
    | ends pid => dsimp only at hs; split at hs <;> cases hs; exact same rfl (fun _ _ _ hh => Ev.noConfusion hh)
    | intr => dsimp only at hs; split at hs <;> cases hs <;> exact same rfl (fun _ _ _ hh => Ev.noConfusion hh)
    | ready => dsimp only at hs; split at hs <;> cases hs; exact same rfl (fun _ _ _ hh => Ev.noConfusion hh)
    | mesg pid s =>
      dsimp only at hs
      split at hs
      · cases hf : d1.table.find? (·.pid = pid) with
        | none => rw [hf] at hs; cases hs
        | some c0 =>
          rw [hf] at hs
          cases hs
          intro c hc k hk
          have hc0 : c0.pid = pid := by simpa using List.find?_some hf
          have hm0 := List.mem_of_find?_eq_some hf
          obtain ⟨x, hx, hxc⟩ := List.mem_map.1 hc
          by_cases hp : x.pid = pid
          · rw [if_pos hp] at hxc
            subst hxc
            have hk : (checkFd claimOver big d1.tree c0.node s).node = some k := hk
            show Announced claimOver big (start max t) (es ++ [.mesg pid s]) x.pid k
            rw [hp]
            cases hn : c0.node with
            | some k0 =>
              rw [hn] at hk
              have : k0 = k := by
                unfold checkFd at hk
                dsimp only at hk
                cases hq : readQuery big s <;> rw [hq] at hk <;> exact Option.some.inj hk
              have := ih c0 hm0 k (by rw [hn, this])
              rw [hc0] at this
              exact this.later _ (fun _ _ hh => Ev.noConfusion hh)
            | none =>
              rw [hn] at hk
              unfold checkFd at hk
              dsimp only at hk
              cases hq : readClass big s with
              | none => rw [hq] at hk; cases hk
              | bad => rw [hq] at hk; cases hk
              | named name rest =>
                rw [hq] at hk
                dsimp only at hk
                cases hfc : findClass d1.tree name with
                | none => rw [hfc] at hk; cases hk
                | some k0 =>
                  rw [hfc] at hk
                  cases hk
                  exact ⟨es, d1, s, name, rest, [], rfl, h1, hq, hfc, (fun _ _ hh => nomatch hh)⟩
          · rw [if_neg hp] at hxc
            subst hxc
            exact (ih x hx k hk).later _ (fun _ _ hh => Ev.noConfusion hh)
      · cases hs
    | accepted => dsimp only at hs; split at hs <;> cases hs; exact same rfl (fun _ _ _ hh => Ev.noConfusion hh)
    | notAccepted => dsimp only at hs; split at hs <;> cases hs; exact same rfl (fun _ _ _ hh => Ev.noConfusion hh)
    | go => dsimp only at hs; split at hs <;> (try split at hs) <;> cases hs <;> exact same rfl (fun _ _ _ hh => Ev.noConfusion hh)
    | waited pid =>
      dsimp only at hs
      split at hs
      · split at hs
        · split at hs <;> cases hs
          · intro c hc k hk
            exact (ih c (List.mem_filter.1 hc).1 k hk).later _ (fun _ _ hh => Ev.noConfusion hh)
          · exact same rfl (fun _ _ _ hh => Ev.noConfusion hh)
        · cases hs
      · cases hs
    | forked pid fd mem =>
      dsimp only at hs
      split at hs
      · rename_i hf
        obtain ⟨_, _, f3, f4, _⟩ := hf
        cases mem with
        | false => exact absurd (List.mem_append_right _ (List.mem_singleton.2 rfl)) (hm pid fd)
        | true =>
          rw [if_pos rfl] at hs
          cases hs
          intro c hc k hk
          rcases List.mem_append.1 hc with hc | hc
          · refine (ih c hc k hk).later _ (fun fd' mem' hh => ?_)
            injection hh with hpid _ _
            have : c.pid ∈ d1.alive ++ d1.ended := hsane.perm.subset (List.mem_map.2 ⟨c, hc, rfl⟩)
            rw [← hpid] at this
            rcases List.mem_append.1 this with h | h
            · exact f3 h
            · exact f4 h
          · rw [List.mem_singleton.1 hc] at hk
            cases hk
      · cases hs
    | notForked => dsimp only at hs; split at hs <;> cases hs; exact same rfl (fun _ _ _ hh => Ev.noConfusion hh)

/-- C44: a demand is made for the class that the process making it has announced, whatever other processes have announced or
demanded in between. -/
theorem C44_own_class (claimOver : U64 → U64 → Bool) (big : Bool) (max : U32) (t : Tree) (es : List Ev) (d : State) (hm : Memory es)
    (hr : run claimOver big (start max t) es = some d) (pid : Nat) (s : Source) (ev : Event) (h : demandOf big d (.mesg pid s) = some (pid, ev)) :
    Announced claimOver big (start max t) es pid ev.cls := by
  unfold demandOf at h
  dsimp only at h
  cases hf : d.table.find? (·.pid = pid) with
  | none => rw [hf] at h; cases h
  | some c =>
    rw [hf] at h
    have hc0 : c.pid = pid := by simpa using List.find?_some hf
    obtain ⟨p, fd, node⟩ := c
    cases node with
    | none => cases h
    | some k =>
      dsimp only at h
      cases hq : readQuery big s with
      | query q l v rest =>
        rw [hq] at h
        cases h
        have := announced_run claimOver big max t es d hm hr _ (List.mem_of_find?_eq_some hf) k rfl
        rw [hc0] at this
        exact this
      | none => rw [hq] at h; cases h
      | bad => rw [hq] at h; cases h

/-- C39: whatever connections come and go, and whatever demands their processes make, in every state of the daemon what is in
use of a limit of a class is what has been granted and not given back, and is within the limit. (Limits below 2^53, amounts
below 2^63, no claims; see `C39_within_partial`.) -/
theorem C39_daemon_partial (claimOver : U64 → U64 → Bool) (big : Bool) (max : U32) (t : Tree) (hw : WellFormed t) (h0 : Unused t)
    (hsmall : ∀ c l e, entry t c l = some e → e.value.toNat < 2 ^ 53) (es : List Ev) (d : State)
    (hr : run claimOver big (start max t) es = some d)
    (hv : ∀ x ∈ demands claimOver big (start max t) es, x.2.value.toNat < 2 ^ 63 ∧ x.2.query ≠ mesgClaim)
    (c : Nat) (l : U32) (e : Lim) (he : entry t c l = some e) (hz : e.value ≠ 0) (hk : limKind l = .int) :
    ∃ e', entry d.tree c l = some e' ∧ e'.value = e.value ∧ (e'.used.toNat : Int) =
      outstanding t c l (history claimOver t ((demands claimOver big (start max t) es).map (·.2))).2 ∧ e'.used.toNat ≤ e.value.toNat := by
  rw [C48_only_demands claimOver big es (start max t) d hr]
  refine C39_within_partial claimOver t hw h0 hsmall _ (fun ev hev => ?_) c l e he hz hk
  obtain ⟨x, hx, rfl⟩ := List.mem_map.1 hev
  exact hv x hx

theorem history_length (claimOver : U64 → U64 → Bool) (evs : List Event) (t : Tree) : (history claimOver t evs).2.length = evs.length := by
  induction evs generalizing t with
  | nil => rfl
  | cons e es ih => rw [history]; dsimp only; rw [List.length_cons, List.length_cons, ih]

theorem sum_by_owner {α : Type} (f : α → Int) (own : Nat → Bool) (n : Nat) (log : List (Nat × α)) (hn : log.length = n)
    (h : ∀ p, own p = false → ((log.filter (·.1 = p)).map (fun x => f x.2)).sum = 0) :
    (log.map (fun x => f x.2)).sum = ((log.filter (fun x => own x.1)).map (fun x => f x.2)).sum := by
  induction n using Nat.strongRecOn generalizing log with
  | ind n ih =>
    cases log with
    | nil => rfl
    | cons x xs =>
      obtain ⟨log, hlog⟩ : ∃ log, log = x :: xs := ⟨_, rfl⟩
      rw [← hlog] at hn h ⊢
      have split : ∀ (l : List (Nat × α)), (l.map (fun x => f x.2)).sum =
          ((l.filter (·.1 = x.1)).map (fun x => f x.2)).sum + ((l.filter (fun y => !decide (y.1 = x.1))).map (fun x => f x.2)).sum := by
        intro l
        induction l with
        | nil => rfl
        | cons y ys ihl =>
          by_cases hy : y.1 = x.1
          · rw [List.filter_cons_of_pos (by simp [hy]), List.filter_cons_of_neg (by simp [hy])]
            simp only [List.map_cons, List.sum_cons]
            omega
          · rw [List.filter_cons_of_neg (by simp [hy]), List.filter_cons_of_pos (by simp [hy])]
            simp only [List.map_cons, List.sum_cons]
            omega
      have hlt : (log.filter (fun y => !decide (y.1 = x.1))).length < n := by
        rw [hlog, List.filter_cons_of_neg (by simp), ← hn, hlog]
        exact Nat.lt_succ_of_le (List.length_filter_le _ _)
      have hrest := ih _ hlt (log.filter (fun y => !decide (y.1 = x.1))) rfl (fun p hp => by
        by_cases hpx : p = x.1
        · rw [List.filter_filter, List.filter_eq_nil_iff.2 (by intro y _; simp [hpx])]
          rfl
        · rw [List.filter_filter, List.filter_congr (q := fun y => decide (y.1 = p)) (fun y _ => ?_)]
          · exact h p hp
          · by_cases hy : y.1 = p
            · simp [hy, hpx]
            · simp [hy])
      rw [split log, hrest]
      cases hox : own x.1 with
      | false =>
        rw [h x.1 hox, List.filter_filter, List.filter_congr (q := fun y => own y.1) (fun y _ => ?_)]
        · omega
        · by_cases hy : y.1 = x.1
          · simp [hy, hox]
          · simp [hy]
      | true =>
        rw [split (log.filter fun y => own y.1), List.filter_filter, List.filter_filter, List.filter_filter]
        congr 1
        · refine congrArg (fun l => (l.map (fun x : Nat × α => f x.2)).sum) (List.filter_congr (fun y _ => ?_))
          by_cases hy : y.1 = x.1
          · simp [hy, hox]
          · simp [hy]
        · rw [List.filter_congr (fun y _ => Bool.and_comm _ _)]

/-- The demands made during some events and the answers, with the processes that made them. -/
def answered (claimOver : U64 → U64 → Bool) (big : Bool) (max : U32) (t : Tree) (es : List Ev) : List (Nat × (Event × Bool)) :=
  ((demands claimOver big (start max t) es).map (·.1)).zip
    (history claimOver t ((demands claimOver big (start max t) es).map (·.2))).2

/-- C48: if the processes that have ended had given back what they had been granted, what is in use is what the running
processes have been granted and have not given back; nothing, if none is running. What is missing: a process that is killed
does not give anything back, and the daemon does not do it in its place (`C48_bandwidth`). -/
theorem C48_returned_partial (claimOver : U64 → U64 → Bool) (big : Bool) (max : U32) (t : Tree) (hw : WellFormed t) (h0 : Unused t)
    (hsmall : ∀ c l e, entry t c l = some e → e.value.toNat < 2 ^ 53) (es : List Ev) (d : State)
    (hr : run claimOver big (start max t) es = some d)
    (hv : ∀ x ∈ demands claimOver big (start max t) es, x.2.value.toNat < 2 ^ 63 ∧ x.2.query ≠ mesgClaim)
    (c : Nat) (l : U32) (e : Lim) (he : entry t c l = some e) (hz : e.value ≠ 0) (hk : limKind l = .int)
    (hback : ∀ pid, pid ∉ d.alive → outstanding t c l (((answered claimOver big max t es).filter (·.1 = pid)).map (·.2)) = 0) :
    ∃ e', entry d.tree c l = some e' ∧ (e'.used.toNat : Int) =
      outstanding t c l (((answered claimOver big max t es).filter (fun x => decide (x.1 ∈ d.alive))).map (·.2)) := by
  obtain ⟨e', h1, _, h3, _⟩ := C39_daemon_partial claimOver big max t hw h0 hsmall es d hr hv c l e he hz hk
  refine ⟨e', h1, ?_⟩
  rw [h3]
  have hsnd : (history claimOver t ((demands claimOver big (start max t) es).map (·.2))).2 = (answered claimOver big max t es).map (·.2) := by
    unfold answered
    rw [List.map_snd_zip]
    rw [history_length, List.length_map, List.length_map]
  rw [hsnd]
  unfold outstanding at hback ⊢
  rw [List.map_map, List.map_map]
  refine sum_by_owner (contribution t c l) (fun p => decide (p ∈ d.alive)) _ _ rfl (fun p hp => ?_)
  have := hback p (by simpa using hp)
  rwa [List.map_map] at this

/-! ## Histories -/

theorem of_any {o : Option State} {p : State → Bool} (h : o.any p = true) : ∃ d, o = some d ∧ p d = true := by
  cases o with
  | none => cases h
  | some d => exact ⟨d, rfl, h⟩

/-- Two connections; the first process ends and is waited for; the second ends just before the daemon resets its flag; a
third connection. -/
def lostRun : List Ev :=
  [.ready, .accepted, .go, .forked 11 5 true, .go, .ready, .accepted, .go, .forked 12 6 true, .go,
   .ends 11, .intr, .go, .waited 11, .go, .ends 12, .go,
   .ready, .accepted, .go, .forked 13 5 true, .go]

/-- C47 is false: with a maximum of two, one process running and one ended long ago, a connection is refused: the daemon does
not look for the ended process because `owpd_chld` was reset after the process had ended. -/
theorem C47_lost : ∃ d d', run (fun _ _ => true) false (start 2 linkTree) lostRun = some d ∧ d.alive = [13] ∧ d.ended = [12] ∧
    d.point = .poll ∧ d.chld = false ∧ run (fun _ _ => true) false d [.ready, .accepted, .go, .go, .go] = some d' ∧
    d'.point = .reap .loop ∧ d'.alive = [13] ∧ d'.sessions = 2 := by
  obtain ⟨d, h1, h2⟩ := of_any (o := run (fun _ _ => true) false (start 2 linkTree) lostRun)
    (p := fun d : State => decide (d.alive = [13] ∧ d.ended = [12] ∧ d.point = .poll ∧ d.chld = false) &&
      (run (fun _ _ => true) false d [.ready, .accepted, .go, .go, .go]).any
        (fun d' : State => decide (d'.point = .reap .loop ∧ d'.alive = [13] ∧ d'.sessions = 2))) (by decide +kernel)
  rw [Bool.and_eq_true, decide_eq_true_iff] at h2
  obtain ⟨⟨a1, a2, a3, a4⟩, h2⟩ := h2
  obtain ⟨d', h3, h4⟩ := of_any h2
  rw [decide_eq_true_iff] at h4
  exact ⟨d, d', h1, a1, a2, a3, a4, h3, h4⟩

/-- A process for which the daemon gets no memory is not in its table: when it has ended, the daemon uses an uninitialised
variable (owampd.c:334-341). -/
theorem C47_memory : ∃ d, run (fun _ _ => true) false (start 1 linkTree)
    [.ready, .accepted, .go, .forked 11 5 false, .go, .ends 11, .intr, .go, .waited 11] = some d ∧ d.fault = true :=
  of_any (p := fun d => d.fault) (by decide +kernel)

/-- Non-vacuity of `C47_max`, `C47_count`: the maximum is reached, a further connection refused. -/
example : ∃ d, run (fun _ _ => true) false (start 1 linkTree)
    [.ready, .accepted, .go, .forked 11 5 true, .go, .ready, .accepted, .go, .go, .go] = some d ∧
    decide (d.alive = [11] ∧ d.point = .reap .loop) = true := of_any (by decide +kernel)
/-- Non-vacuity of `C47_freed`: two processes have ended. -/
example : ∃ d, run (fun _ _ => true) false (start 2 linkTree)
    [.ready, .accepted, .go, .forked 11 5 true, .go, .ready, .accepted, .go, .forked 12 6 true, .go, .ends 11, .intr, .ends 12, .go] = some d ∧
    decide (d.point = .wait .loop ∧ d.ended = [11, 12]) = true := of_any (by decide +kernel)

/-- Whether `Quiet` holds. -/
def quietB (claimOver : U64 → U64 → Bool) (big : Bool) (d : State) : List Ev → Bool
  | [] => true
  | e :: es =>
    (match e, d.point with
      | .ends _, .clear _ => false
      | _, _ => true) &&
    match step claimOver big d e with
    | none => true
    | some d' => quietB claimOver big d' es

theorem quiet_of {claimOver : U64 → U64 → Bool} {big : Bool} {es : List Ev} {d : State} (h : quietB claimOver big d es = true) :
    Quiet claimOver big d es := by
  induction es generalizing d with
  | nil => trivial
  | cons e es ih =>
    unfold quietB at h
    rw [Bool.and_eq_true] at h
    unfold Quiet
    refine ⟨?_, ?_⟩
    · rintro pid k rfl hk
      rw [hk] at h
      cases h.1
    · cases hs : step claimOver big d e with
      | none => trivial
      | some d' => rw [hs] at h; exact ih h.2

/-- Non-vacuity of `C47_seen_partial`: at the call of `ReapChildren` one process has ended. -/
example : ∃ es, Quiet (fun _ _ => true) false (start 1 linkTree) es ∧ ∃ d, run (fun _ _ => true) false (start 1 linkTree) es = some d ∧
    decide (d.point = .reap .loop ∧ d.ended = [11] ∧ d.fault = false) = true :=
  ⟨[.ready, .accepted, .go, .forked 11 5 true, .go, .ends 11, .intr], quiet_of (by decide +kernel), of_any (by decide +kernel)⟩
/-- Non-vacuity of `C47_accepted_partial`: the only place is that of a process that has ended while the next connection was
accepted. -/
example : ∃ es, Memory es ∧ Quiet (fun _ _ => true) false (start 1 linkTree) es ∧ ∃ d, run (fun _ _ => true) false (start 1 linkTree) es = some d ∧
    decide (d.point = .check ∧ d.alive = [] ∧ d.ended = [11] ∧ d.sessions = 1) = true :=
  ⟨[.ready, .accepted, .go, .forked 11 5 true, .go, .ready, .accepted, .ends 11], (by intro _ _ h; simp at h),
    quiet_of (by decide +kernel), of_any (by decide +kernel)⟩

/-- A connection whose process names the class `r` and asks for an amount of bandwidth. -/
def takes (pid fd : Nat) (v : U64) : List Ev :=
  [.ready, .accepted, .go, .forked pid fd true, .go, .mesg pid ⟨(classFrame false (text ['r'])).getD [], false⟩, .go, .go,
   .mesg pid ⟨queryFrame false mesgRequest limBandwidth v, false⟩, .go, .go]

/-- A process ends and is waited for. -/
def dies (pid : Nat) : List Ev := [.ends pid, .intr, .go, .waited pid, .go, .go]

/-- C48 is false: after a process that was granted all the bandwidth of its class has ended, been waited for and lost its place,
no process is running, but all the bandwidth is in use, and the next connection is denied any. -/
theorem C48_bandwidth : ∃ d, run (fun _ _ => true) false (start 4 linkTree) (takes 11 5 10 ++ dies 11) = some d ∧ d.alive = [] ∧
    d.ended = [] ∧ d.sessions = 0 ∧ entry d.tree 0 limBandwidth = some ⟨limBandwidth, 10, 10⟩ ∧
    (answered (fun _ _ => true) false 4 linkTree (takes 11 5 10 ++ dies 11 ++ takes 12 5 1)).map (fun x => (x.1, x.2.2)) = [(11, true), (12, false)] := by
  obtain ⟨d, h1, h2⟩ := of_any (o := run (fun _ _ => true) false (start 4 linkTree) (takes 11 5 10 ++ dies 11))
    (p := fun d : State => decide (d.alive = [] ∧ d.ended = [] ∧ d.sessions = 0 ∧ entry d.tree 0 limBandwidth = some ⟨limBandwidth, 10, 10⟩))
    (by decide +kernel)
  rw [decide_eq_true_iff] at h2
  exact ⟨d, h1, h2.1, h2.2.1, h2.2.2.1, h2.2.2.2, by decide +kernel⟩

theorem linkTree_entry (c : Nat) (l : U32) (e : Lim) (h : entry linkTree c l = some e) : e.used = 0 ∧ e.value.toNat < 2 ^ 53 := by
  unfold entry linkTree findLim at h
  match c with
  | 0 =>
    simp only [List.getElem?_cons_zero, List.find?_cons, List.find?_nil] at h
    split at h
    · cases h; decide
    · cases h
  | n + 1 => simp at h

/-- Non-vacuity of `C44_own_class`. -/
example : ∃ d, run (fun _ _ => true) false (start 4 linkTree) (takes 11 5 4) = some d ∧
    ((demandOf false d (.mesg 11 ⟨queryFrame false mesgRelease limBandwidth 4, false⟩)).map fun x => (x.1, x.2.cls)) == some (11, 0) := by
  exact of_any (by decide +kernel)
/-- Non-vacuity of `C39_daemon_partial`, `C48_returned_partial`: one process takes 4 and gives them back before it ends, a second
takes 3 and is running. -/
example : WellFormed linkTree ∧ Unused linkTree ∧
    (∃ d, run (fun _ _ => true) false (start 4 linkTree) (takes 11 5 4 ++
      [.mesg 11 ⟨queryFrame false mesgRelease limBandwidth 4, false⟩, .go, .go] ++ dies 11 ++ takes 12 5 3) = some d ∧
      decide (d.alive = [12] ∧ entry d.tree 0 limBandwidth = some ⟨limBandwidth, 10, 3⟩) = true) ∧
    (answered (fun _ _ => true) false 4 linkTree (takes 11 5 4 ++ [.mesg 11 ⟨queryFrame false mesgRelease limBandwidth 4, false⟩, .go, .go] ++
      dies 11 ++ takes 12 5 3)).map (fun x => (x.1, x.2.1.value, x.2.2)) = [(11, 4, true), (11, 4, true), (12, 3, true)] :=
  ⟨wellFormed_of _ (by decide +kernel), (fun c l e h => (linkTree_entry c l e h).1), of_any (by decide +kernel), by decide +kernel⟩

end Owamp.Props
