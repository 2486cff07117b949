import Verif.Spec.Admit
import Verif.Lemmas.ClassFile
import Verif.Lemmas.Broker
/-!
# Lemmas about the class of a connection
-/
namespace Owamp.Policy
open Owamp.Ctl Owamp.Spec.Classes Owamp.Spec.Admit

/-! ## Names do not change -/

theorem modUsed_names (t : Tree) (i : Nat) (l : U32) (f : U64 → U64) : (modUsed t i l f).map (·.name) = t.map (·.name) := by
  unfold modUsed
  split
  · rename_i n h
    rw [List.map_set]
    apply List.ext_getElem?
    intro j
    rw [List.getElem?_set]
    split
    · rename_i hij
      subst hij
      rw [List.getElem?_map, h]
      simp [(List.getElem?_eq_some_iff.1 h).1]
    · rfl
  · rfl

theorem settle_names (claimOver : U64 → U64 → Bool) (q l : U32) (v : U64) (t : Tree) (i : Nat) (e : Lim) (up : Bool × Tree)
    (hup : up.2.map (·.name) = t.map (·.name)) : (settle claimOver q l v t i e up).2.map (·.name) = t.map (·.name) := by
  unfold settle
  repeat' split
  all_goals first
    | exact hup
    | rfl
    | (dsimp only; rw [modUsed_names]; exact hup)

theorem intDemand_names (claimOver : U64 → U64 → Bool) (q l : U32) (v : U64) (t : Tree) (i : Nat) :
    (intDemand claimOver q l v t i).2.map (·.name) = t.map (·.name) := by
  induction i using Nat.strongRecOn with
  | _ i ih =>
    rw [intDemand]
    split
    · rfl
    · rename_i n hn
      split
      · rfl
      · apply settle_names
        split
        · rfl
        · rename_i p hp
          split
          · rename_i h; exact ih p h
          · rfl

theorem demand_names (claimOver : U64 → U64 → Bool) (t : Tree) (i : Nat) (q l : U32) (v : U64) :
    (demand claimOver t i q l v).2.map (·.name) = t.map (·.name) := by
  unfold demand
  split
  · rfl
  · split
    · rfl
    · split <;> rfl
  · exact intDemand_names claimOver q l v t i

theorem checkFd_names (claimOver : U64 → U64 → Bool) (big : Bool) (t : Tree) (node : Option Nat) (s : Source) :
    (checkFd claimOver big t node s).tree.map (·.name) = t.map (·.name) := by
  unfold checkFd
  split
  · split
    · rfl
    · rfl
    · split <;> rfl
  · split
    · rfl
    · rfl
    · exact demand_names _ _ _ _ _ _

theorem findClass_names {s t : Tree} (h : SameNames s t) (name : Bytes) : findClass s name = findClass t name := by
  have e : ∀ r : Tree, findClass r name = (r.map (·.name)).findIdx? (· = name) := by
    intro r
    unfold findClass
    rw [List.findIdx?_map]
    rfl
  rw [e, e, h]

theorem findClass_own {t : Tree} (hn : (t.map (·.name)).Nodup) {c : Nat} {n : Node} (h : t[c]? = some n) : findClass t n.name = some c := by
  unfold findClass
  rw [List.findIdx?_eq_some_iff_getElem]
  obtain ⟨hc, he⟩ := List.getElem?_eq_some_iff.1 h
  refine ⟨hc, by simp [he], fun j hj => ?_⟩
  simp only [decide_eq_true_eq]
  intro hh
  have h1 : (t.map (·.name))[j]'(by simp; omega) = (t.map (·.name))[c]'(by simp; omega) := by
    rw [List.getElem_map, List.getElem_map, he]; exact hh
  have := (List.getElem_inj hn).1 h1
  omega

/-! ## Names of classes in a file -/

/-- The names are C strings of 80 bytes at most. -/
def Plain (t : Tree) : Prop := ∀ n ∈ t, n.name.length ≤ 80 ∧ 0#8 ∉ n.name

theorem plain_limit {num : Bytes → Option U64} {t t' : Tree} {line : Bytes} (hp : Plain t) (h0 : 0#8 ∉ line)
    (h : parseLimitLine num t line = .ok t') : Plain t' := by
  unfold parseLimitLine at h
  split at h
  · cases h
  · rename_i cname rest hs
    obtain ⟨ws, tail, hl, _⟩ := strtok_some.1 hs
    have hc0 : 0#8 ∉ cname := fun hh => h0 (by rw [hl]; simp [hh])
    split at h
    · cases h
    · rename_i hlen
      have add : ∀ parent lims, Plain (addClass t cname parent lims) := by
        intro parent lims n hn
        unfold addClass at hn
        rcases List.mem_append.1 hn with hn | hn
        · exact hp n hn
        · rw [List.mem_singleton.1 hn]; exact ⟨by dsimp only; omega, hc0⟩
      split at h
      · cases h
      · split at h
        · cases h
        · split at h
          · cases h
          · split at h
            · unfold finishClass at h
              split at h
              · split at h
                · cases h; exact add _ _
                · cases h
              · split at h
                · cases h
                · cases h; exact add _ _
            · cases h
            · cases h

theorem plain_assign {E : AssignEnv} {P P' : Policy} {line : Bytes} (h : parseAssignLine E P line = .ok P') : P'.nodes = P.nodes := by
  unfold parseAssignLine at h
  repeat' split at h
  all_goals first
    | cases h; done
    | (cases h; rfl)

theorem not_mem_dropWhile {p : Byte → Bool} {s : Bytes} {b : Byte} (h : b ∉ s) : b ∉ s.dropWhile p :=
  fun hh => h ((List.dropWhile_sublist p).subset hh)

theorem plain_lines {num : Bytes → Option U64} {E : AssignEnv} {lines : List Bytes} (hl : Lines lines) {P P' : Policy} (hp : Plain P.nodes)
    (h : parseLines num E P lines = .ok P') : Plain P'.nodes := by
  induction lines generalizing P with
  | nil => cases h; exact hp
  | cons l ls ih =>
    unfold parseLines at h
    split at h
    · rename_i P1 h1
      refine ih (fun x hx => hl x (List.mem_cons_of_mem _ hx)) ?_ h
      have h0 := hl l List.mem_cons_self
      unfold parseLine at h1
      split at h1
      · split at h1
        · rename_i t ht
          cases h1
          exact plain_limit hp (not_mem_dropWhile fun hh => h0 (List.mem_of_mem_drop hh)) ht
        · cases h1
        · cases h1
      · split at h1
        · rw [plain_assign h1]; exact hp
        · cases h1
    · cases h
    · cases h

theorem plain_file {num : Bytes → Option U64} {E : AssignEnv} {lines : List Bytes} (hl : Lines lines) {P : Policy}
    (h : parseLimits num E lines = .ok P) : Plain P.nodes := by
  unfold parseLimits at h
  split at h
  · rename_i P1 h1
    have hp := plain_lines hl (P := ⟨[], []⟩) (by intro n hn; cases hn) h1
    split at h
    · split at h
      · rename_i t ht
        cases h
        exact plain_limit (by intro n hn; cases hn) (by decide) ht
      · cases h
      · cases h
    · cases h; exact hp
  · cases h
  · cases h

/-! ## Announcements -/

/-- A message that was cut off does not announce a class. -/
theorem readClass_cut (big : Bool) (name : Bytes) (h0 : 0#8 ∉ name) (hl : name.length ≤ 80) (f : Bytes) (hf : classFrame big name = some f) (k : Nat)
    (hk : k < f.length) (c : Bool) (name' : Bytes) (rest : Source) : readClass big ⟨f.take k, c⟩ ≠ .named name' rest := by
  intro h
  obtain ⟨f', h1, h2, h3, h4⟩ := readClass_some h
  dsimp only at h2
  obtain ⟨f1, g1, _, g2⟩ := readClass_frame big name h0 hl [] c
  rw [hf] at g1
  cases g1
  obtain ⟨f2, g3, _, g4⟩ := readClass_frame big name' h3 h4 (rest.data ++ f.drop k) c
  rw [h1] at g3
  cases g3
  rw [← List.append_assoc, ← h2, List.take_append_drop] at g4
  rw [List.append_nil, g4] at g2
  injection g2 with a1 a2
  have a3 : rest.data ++ f.drop k = [] := by injection a2
  have := congrArg List.length (List.append_eq_nil_iff.1 a3).2
  simp at this
  omega

/-- The whole message. -/
theorem readClass_whole (big : Bool) (name : Bytes) (h0 : 0#8 ∉ name) (hl : name.length ≤ 80) (c : Bool) :
    ∃ f, classFrame big name = some f ∧ readClass big ⟨f, c⟩ = .named name ⟨[], c⟩ := by
  obtain ⟨f, h1, _, h2⟩ := readClass_frame big name h0 hl [] c
  rw [List.append_nil] at h2
  exact ⟨f, h1, h2⟩

/-- What the announcement of a class leads to, for a new process. -/
theorem sendClass_new (claimOver : U64 → U64 → Bool) (big : Bool) (w : Luck) (t : Tree) (c : Nat) (name : Bytes) (h0 : 0#8 ∉ name)
    (hl : name.length ≤ 80) (hc : findClass t name = some c) :
    ∃ f, classFrame big name = some f ∧
      ((w.written < f.length ∧ ∃ d, sendClass claimOver big w name (newDoor t) = some (mesgInvalid, d) ∧ d.mine = none ∧ d.theirs = none ∧ d.tree = t) ∨
       (f.length ≤ w.written ∧ w.intr = true ∧
         sendClass claimOver big w name (newDoor t) = some (mesgInvalid, ⟨none, some c, t, response big mesgOk, false⟩)) ∨
       (f.length ≤ w.written ∧ w.intr = false ∧
         sendClass claimOver big w name (newDoor t) = some (mesgOk, ⟨none, some c, t, [], false⟩))) := by
  obtain ⟨f, hf, hr⟩ := readClass_whole big name h0 hl false
  refine ⟨f, hf, ?_⟩
  unfold sendClass
  rw [hf]
  dsimp only
  by_cases hw : w.written < f.length
  · rw [if_pos hw]
    refine .inl ⟨hw, _, rfl, rfl, ?_, ?_⟩
    · unfold Door.hear newDoor checkFd
      dsimp only
      have := readClass_cut big name h0 hl f hf w.written hw true
      cases hx : readClass big ⟨f.take w.written, true⟩ with
      | named n r => exact absurd hx (this n r)
      | none => rfl
      | bad => rfl
    · unfold Door.hear newDoor checkFd
      dsimp only
      have := readClass_cut big name h0 hl f hf w.written hw true
      cases hx : readClass big ⟨f.take w.written, true⟩ with
      | named n r => exact absurd hx (this n r)
      | none => rfl
      | bad => rfl
  · rw [if_neg hw]
    have hh : (newDoor t).hear claimOver big ⟨f, false⟩ = ⟨none, some c, t, response big mesgOk, false⟩ := by
      unfold Door.hear newDoor checkFd
      dsimp only
      rw [hr]
      dsimp only
      rw [hc]
      rfl
    rw [hh]
    unfold Door.answer
    cases hi : w.intr
    · refine .inr (.inr ⟨by omega, rfl, ?_⟩)
      have := readResponse_frame big mesgOk [] false
      rw [List.append_nil] at this
      rw [if_neg (by simp)]
      dsimp only
      rw [this]
    · exact .inr (.inl ⟨by omega, rfl, rfl⟩)

end Owamp.Policy
