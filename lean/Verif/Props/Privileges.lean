import Verif.Spec.Privileges
/-!
# C81: a server started as root serves as somebody else
-/
namespace Owamp.Props
open Owamp.Priv Owamp.Spec.Privileges

theorem chooseUser_some {N : Names} {num : Bytes → Nat} {w : Wish} {u : Nat} :
    chooseUser N num w = some u ↔ (u ≠ 0 ∨ w.allowroot = true) ∧ ((w.user = none ∧ u = 0) ∨ ∃ s, w.user = some s ∧ Means N num s u) := by
  unfold chooseUser
  cases hu : w.user with
  | none =>
    dsimp only
    cases ha : w.allowroot
    · simp
    · simp [eq_comm]
  | some s =>
    dsimp only
    unfold Means
    simp only [reduceCtorEq, false_and, false_or, Option.some.injEq, exists_eq_left']
    cases hn : N.byName s with
    | some v =>
      simp only [reduceCtorEq, false_and, or_false, Option.some.injEq]
      cases ha : w.allowroot
      · by_cases hv : v = 0
        · simp [hv]; omega
        · simp [hv]; omega
      · simp
    | none =>
      simp only [reduceCtorEq, false_or, true_and]
      cases s with
      | nil => simp
      | cons a d =>
        by_cases h45 : a = 45#8
        · subst h45
          have e1 : number num (45#8 :: d) = num d % 2 ^ 32 := rfl
          rw [if_pos (c := (45#8 :: d).head? = some 45#8) rfl, e1]
          constructor
          · intro h
            split at h
            · cases h
            · rename_i h1
              split at h
              · cases h
              · rename_i h2
                cases h
                refine ⟨?_, d, rfl, by simpa using fun e => h1 (Or.inl e), rfl, by simpa using fun e => h1 (Or.inr e)⟩
                by_cases hz : num d % 2 ^ 32 = 0
                · right
                  cases ha : w.allowroot
                  · exact absurd ⟨hz, ha⟩ h2
                  · rfl
                · exact Or.inl hz
          · rintro ⟨h0, d', e, h1, h2, h3⟩
            cases e
            rw [← h2, if_neg (by rw [h1, h3]; simp), if_neg]
            rintro ⟨z, ha⟩
            rcases h0 with h0 | h0
            · exact h0 z
            · rw [ha] at h0; cases h0
        · rw [if_neg (by simpa using h45)]
          simp [h45]

theorem chooseGroup_some {N : Names} {num : Bytes → Nat} {w : Wish} {g : Nat} :
    chooseGroup N num w = some g ↔ (w.group = none ∧ g = 0) ∨ (g ≠ 0 ∧ ∃ s, w.group = some s ∧ Means N num s g) := by
  unfold chooseGroup
  cases hg : w.group with
  | none => simp [eq_comm]
  | some s =>
    dsimp only
    unfold Means
    simp only [reduceCtorEq, false_and, false_or, Option.some.injEq, exists_eq_left']
    cases hn : N.byName s with
    | some v =>
      dsimp only
      simp only [Option.some.injEq, reduceCtorEq, false_and, or_false]
      by_cases hv : v = 0
      · rw [if_pos hv]; simp; omega
      · rw [if_neg hv]; simp only [Option.some.injEq]
        exact ⟨fun e => ⟨e ▸ hv, e⟩, fun h => h.2⟩
    | none =>
      dsimp only
      simp only [reduceCtorEq, false_or, true_and]
      cases s with
      | nil => simp
      | cons a d =>
        by_cases h45 : a = 45#8
        · subst h45
          have e1 : number num (45#8 :: d) = num d % 2 ^ 32 := rfl
          rw [if_pos (c := (45#8 :: d).head? = some 45#8) rfl, e1]
          by_cases h1 : N.stale (45#8 :: d) = true ∨ N.byId (num d % 2 ^ 32) = false
          · rw [if_pos h1, if_pos rfl]
            constructor
            · intro h; cases h
            · rintro ⟨_, d', e, g1, g2, g3⟩
              cases e
              rcases h1 with h1 | h1
              · rw [h1] at g1; cases g1
              · rw [g2, h1] at g3; cases g3
          · rw [if_neg h1]
            by_cases hz : num d % 2 ^ 32 = 0
            · rw [if_pos hz]
              constructor
              · intro h; cases h
              · rintro ⟨g0, d', e, _, g2, _⟩
                cases e
                exact absurd (g2.trans hz) g0
            · rw [if_neg hz]
              simp only [Option.some.injEq]
              constructor
              · rintro rfl
                exact ⟨hz, d, rfl, by simpa using fun e => h1 (Or.inl e), rfl, by simpa using fun e => h1 (Or.inr e)⟩
              · rintro ⟨_, d', e, _, g2, _⟩
                cases e
                exact g2.symm
        · rw [if_neg (c := (a :: d).head? = some 45#8) (by simpa using h45), if_pos rfl]
          constructor
          · intro h; cases h
          · rintro ⟨_, d', e, _⟩
            cases e; exact absurd rfl h45

/-- What `lower` does for root. -/
theorem lower_root {U G : Names} {num : Bytes → Nat} {w : Wish} {k : Cred} (h : k.euid = 0) {u g : Nat} {k' : Cred} :
    lower U G num w k = some (u, g, k') ↔ chooseUser U num w = some u ∧ chooseGroup G num w = some g ∧
      k' = { k with euid := u, egid := if g = 0 then k.egid else g } := by
  unfold lower
  rw [if_pos h]
  cases hu : chooseUser U num w with
  | none => simp
  | some u1 =>
    dsimp only
    cases hg : chooseGroup G num w with
    | none => simp
    | some g1 =>
      dsimp only
      unfold callIf
      by_cases h0 : g1 = 0
      · rw [if_pos h0]
        dsimp only [call]
        rw [if_pos (Or.inl h)]
        simp only [Option.some.injEq, Prod.mk.injEq]
        constructor
        · rintro ⟨rfl, rfl, rfl⟩; simp [h0]
        · rintro ⟨rfl, rfl, rfl⟩; simp [h0]
      · rw [if_neg h0]
        dsimp only [call]
        rw [if_pos (Or.inl h)]
        dsimp only
        rw [if_pos (Or.inl h)]
        simp only [Option.some.injEq, Prod.mk.injEq]
        constructor
        · rintro ⟨rfl, rfl, rfl⟩; simp [h0]
        · rintro ⟨rfl, rfl, rfl⟩; simp [h0]

theorem raise_drop {u g : Nat} {k : Cred} (hr : k.ruid = 0) (he : k.euid = u) (hg : k.egid = if g = 0 then k.egid else g) :
    settle u g k = some { k with
      ruid := u, euid := u, suid := if u = 0 then k.suid else u
      rgid := if g = 0 then k.rgid else g, egid := if g = 0 then k.egid else g, sgid := if g = 0 then k.sgid else g } := by
  obtain ⟨ruid, euid, suid, rgid, egid, sgid, groups⟩ := k
  dsimp only at hr he hg ⊢
  subst hr he
  unfold settle raise drop callIf call
  by_cases h1 : euid = 0 <;> by_cases h2 : g = 0 <;> simp [h1, h2]

/-- C81: a server started as root (and not by a program with root's rights) serves if and only if the user and the group asked for exist, and the user is not root unless that is allowed;
it is then that user and nothing else; if a group was asked for it has that group, otherwise it keeps its own. Missing: the supplementary groups, which it keeps (`C81_groups`), and the
group if none was asked for. -/
theorem C81_serves_partial (U G : Names) (num : Bytes → Nat) (w : Wish) (k k' : Cred) (hr : IsUser k 0) :
    serve U G num w k = some k' ↔ ∃ u, (u ≠ 0 ∨ w.allowroot = true) ∧ IsUser k' u ∧
      ((w.user = none ∧ u = 0) ∨ ∃ s, w.user = some s ∧ Means U num s u) ∧
      k'.groups = k.groups ∧
      ((w.group = none ∧ k'.rgid = k.rgid ∧ k'.egid = k.egid ∧ k'.sgid = k.sgid) ∨ ∃ s g, w.group = some s ∧ Means G num s g ∧ g ≠ 0 ∧ IsGroup k' g) := by
  obtain ⟨hr1, hr2, hr3⟩ := hr
  have key : ∀ u g, chooseUser U num w = some u → chooseGroup G num w = some g →
      serve U G num w k = some { k with
        ruid := u, euid := u, suid := u
        rgid := if g = 0 then k.rgid else g, egid := if g = 0 then k.egid else g, sgid := if g = 0 then k.sgid else g } := by
    intro u g hu hg
    unfold serve
    rw [(lower_root hr2).2 ⟨hu, hg, rfl⟩]
    dsimp only
    rw [raise_drop (u := u) (g := g) (k := { k with euid := u, egid := if g = 0 then k.egid else g }) hr1 rfl (by dsimp only; split <;> rfl)]
    dsimp only
    have e1 : (if u = 0 then k.suid else u) = u := by split <;> omega
    have e2 : (if g = 0 then (if g = 0 then k.egid else g) else g) = (if g = 0 then k.egid else g) := by split <;> rfl
    rw [e1, e2]
  constructor
  · intro h
    unfold serve at h
    split at h
    · cases h
    · rename_i u g k1 hl
      obtain ⟨hu, hg, _⟩ := (lower_root hr2).1 hl
      have h' := key u g hu hg
      unfold serve at h'
      rw [hl] at h'
      dsimp only at h'
      rw [h] at h'
      cases h'
      obtain ⟨a1, a2⟩ := chooseUser_some.1 hu
      refine ⟨u, a1, ⟨rfl, rfl, rfl⟩, a2, rfl, ?_⟩
      rcases chooseGroup_some.1 hg with ⟨b1, rfl⟩ | ⟨b1, s, b2, b3⟩
      · exact Or.inl ⟨b1, rfl, rfl, rfl⟩
      · exact Or.inr ⟨s, g, b2, b3, b1, by simp [IsGroup, b1]⟩
  · rintro ⟨u, h1, ⟨u1, u2, u3⟩, h3, h4, h5⟩
    have hu := chooseUser_some.2 ⟨h1, h3⟩
    obtain ⟨ruid, euid, suid, rgid, egid, sgid, groups⟩ := k'
    dsimp only at u1 u2 u3 h4 h5
    subst u1 u2 u3 h4
    rcases h5 with ⟨g1, g2, g3, g4⟩ | ⟨s, g, g1, g2, g3, g4, g5, g6⟩
    · rw [key _ 0 hu (chooseGroup_some.2 (Or.inl ⟨g1, rfl⟩)), g2, g3, g4]; rfl
    · dsimp only at g4 g5 g6
      rw [key _ g hu (chooseGroup_some.2 (Or.inr ⟨g3, s, g1, g2⟩)), g4, g5, g6]; simp [g3]

/-- C81: the data directory is read, and the catalog made, with the effective identity with which connections are served. -/
theorem C81_install (U G : Names) (num : Bytes → Nat) (w : Wish) (k k' : Cred) (hr : IsUser k 0) (h : serve U G num w k = some k') :
    ∃ k1, install U G num w k = some k1 ∧ k1.euid = k'.euid ∧ k1.egid = k'.egid := by
  obtain ⟨hr1, hr2, hr3⟩ := hr
  unfold serve at h
  unfold install
  split at h
  · cases h
  · rename_i u g k1 hl
    obtain ⟨_, _, e⟩ := (lower_root hr2).1 hl
    refine ⟨k1, by rw [hl]; rfl, ?_⟩
    rw [raise_drop (u := u) (g := g) (k := k1) (by rw [e]; exact hr1) (by rw [e]) (by rw [e]; dsimp only; split <;> rfl)] at h
    cases h
    dsimp only
    refine ⟨by rw [e], ?_⟩
    split
    · rfl
    · rename_i hg; rw [e]; dsimp only; rw [if_neg hg]

/-- C81: a process that is a user other than root and nothing else stays that user, whatever calls it makes; if it has one group (but for supplementary ones) it keeps that, too. -/
theorem C81_forever (k k' : Cred) (u : Nat) (h0 : u ≠ 0) (h : IsUser k u) (hr : Reaches k k') :
    IsUser k' u ∧ k'.groups = k.groups ∧ ∀ g, IsGroup k g → IsGroup k' g := by
  induction hr with
  | here k => exact ⟨h, rfl, fun _ hg => hg⟩
  | @call k k1 k2 c hc _ ih =>
    obtain ⟨h1, h2, h3⟩ := h
    have hne : ¬ k.euid = 0 := by omega
    have step : IsUser k1 u ∧ k1.groups = k.groups ∧ ∀ g, IsGroup k g → IsGroup k1 g := by
      cases c with
      | seteuid v =>
        dsimp only [Priv.call] at hc
        split at hc
        · rename_i hv
          cases hc
          exact ⟨⟨h1, by dsimp only; omega, h3⟩, rfl, fun g hg => hg⟩
        · cases hc
      | setuid v =>
        dsimp only [Priv.call] at hc
        rw [if_neg hne] at hc
        split at hc
        · rename_i hv
          cases hc
          exact ⟨⟨h1, by dsimp only; omega, h3⟩, rfl, fun g hg => hg⟩
        · cases hc
      | setegid v =>
        dsimp only [Priv.call] at hc
        split at hc
        · rename_i hv
          cases hc
          refine ⟨⟨h1, h2, h3⟩, rfl, fun g ⟨g1, g2, g3⟩ => ⟨g1, ?_, g3⟩⟩
          dsimp only
          rcases hv with hv | hv | hv | hv <;> omega
        · cases hc
      | setgid v =>
        dsimp only [Priv.call] at hc
        rw [if_neg hne] at hc
        split at hc
        · rename_i hv
          cases hc
          refine ⟨⟨h1, h2, h3⟩, rfl, fun g ⟨g1, g2, g3⟩ => ⟨g1, ?_, g3⟩⟩
          dsimp only
          omega
        · cases hc
      | setgroups l =>
        dsimp only [Priv.call] at hc
        rw [if_neg hne] at hc
        cases hc
    obtain ⟨a, b, c⟩ := step
    obtain ⟨a', b', c'⟩ := ih a
    exact ⟨a', b'.trans b, fun g hg => c' g (c g hg)⟩

/-- C81: a server not started with root's privileges serves with the identities it was started with. -/
theorem C81_plain (U G : Names) (num : Bytes → Nat) (w : Wish) (k : Cred) (h : k.euid ≠ 0) : serve U G num w k = some k := by
  unfold serve lower
  rw [if_neg h]
  rfl

/-! ## Examples -/

/-- Users `owamp` (500) and `root`, groups `owamp` (501). -/
def someUsers : Names := ⟨fun s => if s = Policy.text ['o', 'w', 'a', 'm', 'p'] then some 500 else if s = Policy.text ['r', 'o', 'o', 't'] then some 0 else none, fun n => n = 0 ∨ n = 500, fun _ => false⟩
def someGroups : Names := ⟨fun s => if s = Policy.text ['o', 'w', 'a', 'm', 'p'] then some 501 else none, fun n => n = 501, fun _ => false⟩
def rootCred : Cred := ⟨0, 0, 0, 0, 0, 0, [0, 10]⟩

/-- Non-vacuity of C81: with `-U owamp -G owamp` root's server serves as 500 and 501; with `-U root`, or without -U, it does not serve. -/
example : IsUser rootCred 0 ∧
    serve someUsers someGroups (fun _ => 500) ⟨some (Policy.text ['o', 'w', 'a', 'm', 'p']), some (Policy.text ['o', 'w', 'a', 'm', 'p']), false⟩ rootCred = some ⟨500, 500, 500, 501, 501, 501, [0, 10]⟩ ∧
    serve someUsers someGroups (fun _ => 500) ⟨some (Policy.text ['-', '5', '0', '0']), none, false⟩ rootCred = some ⟨500, 500, 500, 0, 0, 0, [0, 10]⟩ ∧
    serve someUsers someGroups (fun _ => 500) ⟨some (Policy.text ['r', 'o', 'o', 't']), none, false⟩ rootCred = none ∧
    serve someUsers someGroups (fun _ => 500) ⟨none, none, false⟩ rootCred = none ∧
    serve someUsers someGroups (fun _ => 500) ⟨none, none, true⟩ rootCred = some rootCred := by
  refine ⟨⟨rfl, rfl, rfl⟩, ?_⟩; decide +kernel

/-- C81 fails for groups: with `-U` alone, connections are served with root's group, and in any case with root's supplementary groups. -/
theorem C81_groups : ∃ w k', w.user.isSome = true ∧ w.allowroot = false ∧ serve someUsers someGroups (fun _ => 500) w rootCred = some k' ∧
    IsUser k' 500 ∧ IsGroup k' 0 ∧ 0 ∈ k'.groups :=
  ⟨⟨some (Policy.text ['o', 'w', 'a', 'm', 'p']), none, false⟩, ⟨500, 500, 500, 0, 0, 0, [0, 10]⟩, by decide, rfl, by decide +kernel, ⟨rfl, rfl, rfl⟩, ⟨rfl, rfl, rfl⟩, by decide⟩

/-- C81 fails for a server that is installed with root's set-user-id bit and started by the user that is given with `-U`: it can become root again while it serves. -/
theorem C81_setuid : ∃ w k k' k2, k.ruid = 500 ∧ k.euid = 0 ∧ w.allowroot = false ∧ serve someUsers someGroups (fun _ => 500) w k = some k' ∧
    k'.euid = 500 ∧ Reaches k' k2 ∧ IsUser k2 0 :=
  ⟨⟨some (Policy.text ['o', 'w', 'a', 'm', 'p']), none, false⟩, ⟨500, 0, 0, 501, 501, 501, []⟩, ⟨500, 500, 0, 501, 501, 501, []⟩, ⟨0, 0, 0, 501, 501, 501, []⟩,
    rfl, rfl, rfl, by decide +kernel, rfl, .call (.seteuid 0) rfl (.call (.setuid 0) rfl (.here _)), ⟨rfl, rfl, rfl⟩⟩

end Owamp.Props
