import Verif.Spec.Restart
import Verif.Lemmas.Limits
import Verif.Lemmas.Classes
/-!
# Lemmas about the session files of a server that is started again
-/
namespace Owamp.Policy
open Owamp.Spec.Restart Owamp.Spec.Limits

/-! ## Classes and their directories -/

theorem hasName_unique {t : Tree} {c : Nat} {a b : Bytes} (h : HasName t c a) (h' : HasName t c b) : a = b := by
  obtain ⟨n, h1, rfl⟩ := h
  obtain ⟨m, h2, rfl⟩ := h'
  rw [h1] at h2; cases h2; rfl

theorem hasParent_unique {t : Tree} {c a b : Nat} (h : HasParent t c a) (h' : HasParent t c b) : a = b := by
  obtain ⟨n, h1, e1⟩ := h
  obtain ⟨m, h2, e2⟩ := h'
  rw [h1] at h2; cases h2; rw [e1] at e2; cases e2; rfl

theorem root_no_parent {t : Tree} {c p : Nat} (h : IsRoot t c) (h' : HasParent t c p) : False := by
  obtain ⟨n, h1, e1⟩ := h
  obtain ⟨m, h2, e2⟩ := h'
  rw [h1] at h2; cases h2; rw [e1] at e2; cases e2

theorem home_ne_nil {t : Tree} {c : Nat} {p : List Bytes} (h : Home t c p) : p ≠ [] := by
  cases h <;> simp

theorem home_snoc {t : Tree} {c : Nat} {p : List Bytes} {n : Bytes} (h : Home t c (p ++ [n])) :
    HasName t c n ∧ ((p = [] ∧ IsRoot t c) ∨ ∃ d, HasParent t c d ∧ Home t d p) := by
  generalize hq : p ++ [n] = q at h
  cases h with
  | root hr hn =>
    have : p = [] := by cases p with
      | nil => rfl
      | cons a l => simp at hq
    subst this
    simp at hq; subst hq
    exact ⟨hn, Or.inl ⟨rfl, hr⟩⟩
  | child hp hn hh =>
    obtain ⟨e1, e2⟩ := List.append_inj' hq rfl
    simp at e2; subst e1 e2
    exact ⟨hn, Or.inr ⟨_, hp, hh⟩⟩

theorem home_name {t : Tree} {c : Nat} {p : List Bytes} (h : Home t c p) : ∃ q n, p = q ++ [n] ∧ HasName t c n := by
  cases h with
  | root _ hn => exact ⟨[], _, rfl, hn⟩
  | child _ hn _ => exact ⟨_, _, rfl, hn⟩

theorem home_inj {t : Tree} (C : Classes t) {c d : Nat} {p : List Bytes} (h : Home t c p) (h' : Home t d p) : c = d := by
  obtain ⟨q, n, rfl, hn⟩ := home_name h
  exact C.names _ _ _ hn (home_snoc h').1

theorem home_unique {t : Tree} {c : Nat} {p q : List Bytes} (h : Home t c p) : Home t c q → p = q := by
  induction h generalizing q with
  | root hr hn =>
    intro h'
    cases h' with
    | root _ hn' => rw [hasName_unique hn hn']
    | child hp _ _ => exact (root_no_parent hr hp).elim
  | child hp hn _ ih =>
    intro h'
    cases h' with
    | root hr _ => exact (root_no_parent hr hp).elim
    | child hp' hn' hh' => rw [hasName_unique hn hn']; rw [hasParent_unique hp hp'] at ih; rw [ih hh']

theorem prefix_snoc {α : Type} {p q : List α} {a : α} (h : p <+: q ++ [a]) : p = q ++ [a] ∨ p <+: q := by
  rcases List.prefix_concat_iff.1 h with h | h
  · exact Or.inl h
  · exact Or.inr h

theorem home_prefix {t : Tree} {k : Nat} {p q : List Bytes} (h : Home t k q) (hp : p <+: q) (hne : p ≠ []) : ∃ c, Home t c p ∧ Under t k c := by
  induction h with
  | @root c name hr hn =>
    rcases prefix_snoc (q := []) hp with rfl | h0
    · exact ⟨_, .root hr hn, .self _⟩
    · exact absurd (List.prefix_nil.1 h0) hne
  | @child c d name path hp' hn hh ih =>
    rcases prefix_snoc hp with rfl | h0
    · exact ⟨_, .child hp' hn hh, .self _⟩
    · obtain ⟨e, h1, h2⟩ := ih h0
      exact ⟨e, h1, .up hp' h2⟩

theorem under_prefix {t : Tree} {k c : Nat} {q : List Bytes} (h : Under t k c) (hq : Home t k q) : ∃ p, Home t c p ∧ p <+: q := by
  induction h generalizing q with
  | self => exact ⟨q, hq, List.prefix_refl _⟩
  | up hp _ ih =>
    cases hq with
    | root hr _ => exact (root_no_parent hr hp).elim
    | child hp' hn hh =>
      rw [hasParent_unique hp' hp] at hh
      obtain ⟨p, h1, h2⟩ := ih hh
      exact ⟨p, h1, h2.trans (List.prefix_append _ _)⟩

theorem under_of_prefix {t : Tree} (C : Classes t) {k c : Nat} {p q : List Bytes} (hk : Home t k q) (hc : Home t c p) (h : p <+: q) : Under t k c := by
  obtain ⟨e, h1, h2⟩ := home_prefix hk h (home_ne_nil hc)
  rw [home_inj C h1 hc] at h2; exact h2

/-- For classes with directories `p`, `q`: being at or below is being at or below in the file system. -/
theorem under_iff {t : Tree} (C : Classes t) {k c : Nat} {p q : List Bytes} (hk : Home t k q) (hc : Home t c p) : Under t k c ↔ p <+: q := by
  constructor
  · intro h
    obtain ⟨p', h1, h2⟩ := under_prefix h hk
    rw [home_unique hc h1]; exact h2
  · exact under_of_prefix C hk hc

theorem under_trans {t : Tree} {a b c : Nat} (h : Under t a b) (h' : Under t b c) : Under t a c := by
  induction h with
  | self => exact h'
  | up hp _ ih => exact .up hp (ih h')

/-- A class above another that has a directory has one too. -/
theorem under_home {t : Tree} {k c : Nat} {q : List Bytes} (h : Under t k c) (hq : Home t k q) : ∃ p, Home t c p :=
  let ⟨p, h1, _⟩ := under_prefix h hq; ⟨p, h1⟩

theorem exists_home {t : Tree} (C : Classes t) : ∀ c n, t[c]? = some n → ∃ p, Home t c p := by
  intro c
  induction c using Nat.strongRecOn with
  | _ c ih =>
    intro n hn
    cases hp : n.parent with
    | none => exact ⟨_, .root ⟨n, hn, hp⟩ ⟨n, hn, rfl⟩⟩
    | some p =>
      have hlt := C.before c p ⟨n, hn, hp⟩
      have hc : c < t.length := (List.getElem?_eq_some_iff.1 hn).1
      obtain ⟨q, hq⟩ := ih p hlt t[p] (List.getElem?_eq_getElem (by omega))
      exact ⟨_, .child ⟨n, hn, hp⟩ ⟨n, hn, rfl⟩ hq⟩

/-- A class at or below one that has a directory has one too. -/
theorem home_below {t : Tree} (C : Classes t) {c k : Nat} {q : List Bytes} (h : Under t c k) (hq : Home t k q) : ∃ p, Home t c p := by
  cases h with
  | self => exact ⟨q, hq⟩
  | up hp _ => obtain ⟨n, hn, _⟩ := hp; exact exists_home C c n hn

theorem nodeDir_home {t : Tree} (C : Classes t) : ∀ c n, t[c]? = some n → Home t c (nodeDir t c) := by
  intro c
  induction c using Nat.strongRecOn with
  | _ c ih =>
    intro n hn
    rw [nodeDir, hn]
    dsimp only
    cases hp : n.parent with
    | none => exact .root ⟨n, hn, hp⟩ ⟨n, hn, rfl⟩
    | some p =>
      have hlt := C.before c p ⟨n, hn, hp⟩
      have hc : c < t.length := (List.getElem?_eq_some_iff.1 hn).1
      dsimp only
      rw [dif_pos hlt]
      exact .child ⟨n, hn, hp⟩ ⟨n, hn, rfl⟩ (ih p hlt t[p] (List.getElem?_eq_getElem (by omega)))

/-! ## Sums and lists of files -/

theorem total_append (P : File → Prop) (a b : List File) : total P (a ++ b) = total P a + total P b := by
  induction a with
  | nil => simp [total]
  | cons f l ih => simp only [List.cons_append, total, ih]; omega

theorem total_zero {P : File → Prop} {l : List File} (h : ∀ f ∈ l, ¬ P f) : total P l = 0 := by
  induction l with
  | nil => rfl
  | cons f l ih =>
    rw [total, if_neg (h f (by simp)), ih fun g hg => h g (by simp [hg])]

theorem total_congr {P Q : File → Prop} {l : List File} (h : ∀ f ∈ l, P f ↔ Q f) : total P l = total Q l := by
  induction l with
  | nil => rfl
  | cons f l ih =>
    rw [total, total, ih fun g hg => h g (by simp [hg])]
    have := h f (by simp)
    by_cases hp : P f
    · rw [if_pos hp, if_pos (this.1 hp)]
    · rw [if_neg hp, if_neg fun hq => hp (this.2 hq)]

theorem files_prefix {p : List Bytes} {d : Dir} {f : File} (h : f ∈ files p d) : p <+: f.path := by
  induction d generalizing p with
  | nil => simp [files] at h
  | file n s r ih =>
    simp only [files, List.mem_cons] at h
    rcases h with rfl | h
    · exact List.prefix_refl _
    · exact ih h
  | sub n i r ih1 ih2 =>
    simp only [files, List.mem_append] at h
    rcases h with h | h
    · exact (List.prefix_append _ _).trans (ih1 h)
    · exact ih2 h

theorem dirs_prefix {p : List Bytes} {d : Dir} {q : List Bytes} {n : Bytes} (h : (q, n) ∈ dirs p d) : p <+: q := by
  induction d generalizing p with
  | nil => simp [dirs] at h
  | file n s r ih => exact ih h
  | sub n i r ih1 ih2 =>
    simp only [dirs, List.mem_cons, List.mem_append, Prod.mk.injEq] at h
    rcases h with ⟨rfl, _⟩ | h | h
    · exact List.prefix_refl _
    · exact (List.prefix_append _ _).trans (ih1 h)
    · exact ih2 h

theorem sessionName_iff (hex : Bytes → Bool) (n : Bytes) : sessionName hex n = true ↔ SessionFile hex n := by
  have he : fileExt.length = 4 := by decide
  unfold sessionName SessionFile
  rw [he]
  simp only [Bool.and_eq_true, decide_eq_true_eq]
  constructor
  · rintro ⟨⟨h1, h2⟩, h3⟩
    exact ⟨n.take 32, by rw [List.length_take]; omega, h3, by
      rw [show text ['.', 'o', 'w', 'p'] = n.drop 32 from h2.symm]; exact (List.take_append_drop 32 n).symm⟩
  · rintro ⟨sid, h1, h2, rfl⟩
    have he' : (text ['.', 'o', 'w', 'p']).length = 4 := by decide
    refine ⟨⟨by rw [List.length_append, h1, he'], ?_⟩, ?_⟩
    · rw [← h1, List.drop_left]; rfl
    · rw [← h1, List.take_left]; exact h2

/-! ## The counters -/

theorem diskUsage_cases (t : Tree) (k v : Nat) :
    (diskUsage t k v = t ∧ charge t k = none) ∨ (diskUsage t k v = modUsed t k limDisk (fun _ => BitVec.ofNat 64 v) ∧ ∃ e, entry t k limDisk = some e ∧ e.value ≠ 0) := by
  unfold diskUsage charge entry
  cases t[k]? with
  | none => exact Or.inl ⟨rfl, rfl⟩
  | some n =>
    dsimp only
    cases findLim n.lims limDisk with
    | none => exact Or.inl ⟨rfl, rfl⟩
    | some e =>
      dsimp only
      by_cases he : e.value = 0
      · rw [if_pos he]; exact Or.inl ⟨rfl, by rw [if_pos he]⟩
      · rw [if_neg he]; exact Or.inr ⟨rfl, e, rfl, he⟩

theorem diskUsage_charge (t : Tree) (k v c : Nat) :
    charge (diskUsage t k v) c = if c = k then (charge t c).map (fun _ => BitVec.ofNat 64 v) else charge t c := by
  rcases diskUsage_cases t k v with ⟨h1, h2⟩ | ⟨h1, e, h2, h3⟩
  · rw [h1]
    split
    · rename_i hc; subst hc; rw [h2]; rfl
    · rfl
  · rw [h1]
    unfold charge
    rw [entry_mod]
    by_cases hc : c = k
    · subst hc
      simp only [true_and, if_true, h2, Option.map_some]
      rw [if_neg h3]
      rw [if_neg h3]
      rfl
    · rw [if_neg (fun h => hc h.1), if_neg hc]

theorem sameButDisk_refl (t : Tree) : SameButDisk t t := ⟨fun _ => rfl, fun _ _ _ => rfl⟩
theorem sameButDisk_trans {a b c : Tree} (h : SameButDisk a b) (h' : SameButDisk b c) : SameButDisk a c :=
  ⟨fun i => (h.1 i).trans (h'.1 i), fun i l hl => (h.2 i l hl).trans (h'.2 i l hl)⟩

theorem modLims_same (f : U64 → U64) (l : U32) (lims : List Lim) : (modLims f l lims).map (fun e => (e.limit, e.value)) = lims.map fun e => (e.limit, e.value) := by
  induction lims with
  | nil => rfl
  | cons e es ih =>
    unfold modLims
    split
    · rfl
    · simp [ih]

theorem diskUsage_same (t : Tree) (k v : Nat) : SameButDisk (diskUsage t k v) t := by
  rcases diskUsage_cases t k v with ⟨h1, _⟩ | ⟨h1, _⟩
  · rw [h1]; exact sameButDisk_refl t
  · rw [h1]
    refine ⟨fun c => ?_, fun c l hl => by rw [entry_mod, if_neg fun h => hl h.2]⟩
    unfold modUsed
    cases hk : t[k]? with
    | none => rfl
    | some n =>
      dsimp only
      rw [List.getElem?_set]
      by_cases hc : k = c
      · subst hc
        rw [if_pos rfl, if_pos (List.getElem?_eq_some_iff.1 hk).1, hk]
        simp only [Option.map_some, outline, modLims_same]
      · rw [if_neg hc]

/-! ## Reading the directories -/

/-- Where the reading is: at the top, or in the directory of a class. -/
def Where (t : Tree) (level : Nat) (here : Option Nat) (path : List Bytes) : Prop :=
  (here = none ∧ level = 1 ∧ path = []) ∨ ∃ h, here = some h ∧ 1 < level ∧ Home t h path

/-- The classes whose counters may change there. -/
def Inside (t : Tree) (here : Option Nat) (c : Nat) : Prop := ∀ h, here = some h → Under t c h

/-- The classes below the directories of classes in `d`. -/
def Visits (t : Tree) (path : List Bytes) (d : Dir) (c : Nat) : Prop := ∃ n ∈ subs d, ∃ k, Home t k (path ++ [n]) ∧ Under t c k

theorem under_le {t : Tree} (C : Classes t) {a b : Nat} (h : Under t a b) : b ≤ a := by
  induction h with
  | self => exact Nat.le_refl _
  | up hp _ ih => have := C.before _ _ hp; omega

theorem under_antisymm {t : Tree} (C : Classes t) {a b : Nat} (h : Under t a b) (h' : Under t b a) : a = b := by
  have := under_le C h; have := under_le C h'; omega

/-- Whether a directory is in its place is found out. -/
theorem place_iff {t : Tree} (C : Classes t) {level : Nat} {here : Option Nat} {path : List Bytes} (W : Where t level here path) {name : Bytes} {k : Nat} (hk : HasName t k name) :
    ((level = 1 ∧ k = 0) ∨ (1 < level ∧ here = t[k]?.bind (·.parent))) ↔ Home t k (path ++ [name]) := by
  obtain ⟨n, hn, rfl⟩ := hk
  rcases W with ⟨rfl, rfl, rfl⟩ | ⟨h, rfl, hl, hh⟩
  · constructor
    · rintro (⟨_, rfl⟩ | ⟨hl, _⟩)
      · exact .root ((C.root 0).2 ⟨rfl, by rintro rfl; simp at hn⟩) ⟨n, hn, rfl⟩
      · omega
    · intro h
      obtain ⟨_, ⟨_, hr⟩ | ⟨d, _, hd⟩⟩ := home_snoc h
      · exact Or.inl ⟨rfl, ((C.root k).1 hr).1⟩
      · exact absurd rfl (home_ne_nil hd)
  · constructor
    · rintro (⟨hl', _⟩ | ⟨_, e⟩)
      · omega
      · rw [hn] at e
        exact .child ⟨n, hn, e.symm⟩ ⟨n, hn, rfl⟩ hh
    · intro hk
      obtain ⟨_, ⟨hp, _⟩ | ⟨d, ⟨m, hm, hd⟩, hd'⟩⟩ := home_snoc hk
      · exact absurd hp (home_ne_nil hh)
      · rw [hn] at hm; cases hm
        rw [hn, Option.bind_some, hd, home_inj C hh hd']
        exact Or.inr ⟨hl, rfl⟩

/-- Files in a directory that belongs to no class count for none. -/
theorem outside {hex : Bytes → Bool} {t : Tree} {path : List Bytes} {name : Bytes} (hn : ∀ k, ¬ HasName t k name) {d : Dir} {f : File} (hf : f ∈ files (path ++ [name]) d) (k : Nat) : ¬ Recorded hex t f k := by
  rintro ⟨_, h⟩
  obtain ⟨c, hc, _⟩ := home_prefix h (files_prefix hf) (by simp)
  exact hn c (home_snoc hc).1

theorem kept_append (hex : Bytes → Bool) (t : Tree) (a b : List File) : kept hex t (a ++ b) = kept hex t a ++ kept hex t b := by
  unfold kept; rw [List.filter_append]

theorem kept_nil {hex : Bytes → Bool} {t : Tree} {l : List File} (h : ∀ f ∈ l, ∀ k, ¬ Recorded hex t f k) : kept hex t l = [] := by
  unfold kept
  rw [List.filter_eq_nil_iff]
  intro f hf
  simp only [decide_eq_true_eq]
  rintro ⟨k, hk⟩
  exact h f hf k hk

/-- The link to a file. -/
def linkOf (f : File) : Bytes × List Bytes := (f.name, f.path ++ [f.name])

/-- What one file does. -/
theorem bootFile_spec {hex : Bytes → Bool} {t : Tree} (C : Classes t) {level : Nat} {here : Option Nat} {path : List Bytes} (W : Where t level here path) (name : Bytes) (size : Nat) (s : Boot) :
    (bootFile hex here path name size s = none ↔ (∃ k, Recorded hex t ⟨path, name, size⟩ k) ∧ name ∈ s.catalog.map (·.1)) ∧
    ∀ s', bootFile hex here path name size s = some s' →
      s'.nodes = s.nodes ∧ s'.catalog = s.catalog ++ (kept hex t [⟨path, name, size⟩]).map linkOf ∧
      (∀ c, Inside t here c → s'.disk c = s.disk c + total (CountsFor hex t c) [⟨path, name, size⟩]) ∧ (∀ c, ¬ Inside t here c → s'.disk c = s.disk c) ∧
      ∀ c, (∀ h, here = some h → c ≠ h) → s'.disk c = s.disk c := by
  unfold bootFile
  rcases W with ⟨rfl, rfl, rfl⟩ | ⟨h, rfl, hl, hh⟩
  · have no : ∀ k, ¬ Recorded hex t ⟨[], name, size⟩ k := fun k hk => absurd rfl (home_ne_nil hk.2)
    dsimp only
    refine ⟨⟨(fun h => by cases h), fun h => absurd h.1.choose_spec (no _)⟩, ?_⟩
    intro s' hs
    cases hs
    refine ⟨rfl, ?_, ?_, fun c hc => rfl, fun _ _ => rfl⟩
    · rw [kept_nil]; · simp
      intro f hf; simp only [List.mem_singleton] at hf; subst hf; exact no
    · intro c _
      rw [total_zero, Nat.add_zero]
      intro f hf; simp only [List.mem_singleton] at hf; subst hf
      rintro ⟨k, hk, _⟩; exact no k hk
  · dsimp only
    by_cases hs : sessionName hex name = true
    · have recd : ∀ k, Recorded hex t ⟨path, name, size⟩ k ↔ k = h := by
        intro k
        constructor
        · rintro ⟨_, hk⟩; exact home_inj C hk hh
        · rintro rfl; exact ⟨(sessionName_iff hex name).1 hs, hh⟩
      have cnt : ∀ c, CountsFor hex t c ⟨path, name, size⟩ ↔ Under t h c := by
        intro c
        constructor
        · rintro ⟨k, hk, hu⟩; rw [(recd k).1 hk] at hu; exact hu
        · intro hu; exact ⟨h, (recd h).2 rfl, hu⟩
      rw [hs]
      simp only [Bool.not_true, Bool.false_eq_true, if_false]
      by_cases hd : name ∈ s.catalog.map (·.1)
      · have : s.catalog.any (fun l => decide (l.1 = name)) = true := by
          rw [List.any_eq_true]
          obtain ⟨l, hl1, hl2⟩ := List.mem_map.1 hd
          exact ⟨l, hl1, by simpa using hl2⟩
        rw [if_pos this]
        exact ⟨⟨fun _ => ⟨⟨h, (recd h).2 rfl⟩, hd⟩, fun _ => rfl⟩, fun s' hs' => by cases hs'⟩
      · have : ¬ s.catalog.any (fun l => decide (l.1 = name)) = true := by
          rw [List.any_eq_true]
          rintro ⟨l, hl1, hl2⟩
          exact hd (List.mem_map.2 ⟨l, hl1, by simpa using hl2⟩)
        rw [if_neg this]
        refine ⟨⟨(fun h => by cases h), fun h => absurd h.2 hd⟩, ?_⟩
        intro s' hs'
        cases hs'
        refine ⟨rfl, ?_, ?_, ?_, ?_⟩
        · have : kept hex t [⟨path, name, size⟩] = [⟨path, name, size⟩] := by
            unfold kept
            rw [List.filter_eq_self]
            intro f hf
            simp only [List.mem_singleton] at hf; subst hf
            simp only [decide_eq_true_eq]
            exact ⟨h, (recd h).2 rfl⟩
          rw [this]; rfl
        · intro c hc
          dsimp only
          by_cases hch : c = h
          · subst hch
            rw [if_pos rfl, total, if_pos ((cnt c).2 (.self c)), total]; rfl
          · rw [if_neg hch, total, if_neg, total]
            · rfl
            · intro hcc; exact hch (under_antisymm C (hc h rfl) ((cnt c).1 hcc))
        · intro c hc
          dsimp only
          rw [if_neg]
          rintro rfl
          exact hc fun h' he => by cases he; exact .self _
        · intro c hc; dsimp only; rw [if_neg (hc h rfl)]
    · have no : ∀ k, ¬ Recorded hex t ⟨path, name, size⟩ k := fun k hk => hs ((sessionName_iff hex name).2 hk.1)
      rw [if_pos (by simpa using hs)]
      refine ⟨⟨(fun h => by cases h), fun h => absurd h.1.choose_spec (no _)⟩, ?_⟩
      intro s' hs
      cases hs
      refine ⟨rfl, ?_, ?_, fun c hc => rfl, fun _ _ => rfl⟩
      · rw [kept_nil]; · simp
        intro f hf; simp only [List.mem_singleton] at hf; subst hf; exact no
      · intro c _
        rw [total_zero, Nat.add_zero]
        intro f hf; simp only [List.mem_singleton] at hf; subst hf
        rintro ⟨k, hk, _⟩; exact no k hk

/-- The links that are made. -/
theorem bootDir_catalog {hex : Bytes → Bool} {t : Tree} (C : Classes t) : ∀ (d : Dir) (level : Nat) (here : Option Nat) (path : List Bytes) (s s' : Boot),
    Where t level here path → bootDir hex t d level here path s = some s' → s'.catalog = s.catalog ++ (kept hex t (files path d)).map linkOf := by
  intro d
  induction d with
  | nil =>
    intro level here path s s' _ h
    cases h; simp [files, kept]
  | file name size rest ih =>
    intro level here path s s' W h
    unfold bootDir at h
    split at h
    · cases h
    · rename_i s1 h1
      have b2 := ((bootFile_spec C W name size s).2 s1 h1).2.1
      rw [ih level here path s1 s' W h, b2, show files path (.file name size rest) = [⟨path, name, size⟩] ++ files path rest from rfl, kept_append, List.map_append, List.append_assoc]
  | sub name inside rest ih1 ih2 =>
    intro level here path s s' W h
    unfold bootDir at h
    have hfl : files path (.sub name inside rest) = files (path ++ [name]) inside ++ files path rest := rfl
    cases hc : findClass t name with
    | none =>
      rw [hc] at h
      dsimp only at h
      have hno : ∀ k, ¬ HasName t k name := by
        rintro k ⟨n, hn, e⟩
        exact findClass_none.1 hc n (List.mem_of_getElem? hn) e
      rw [ih2 level here path s s' W h, hfl, kept_append, kept_nil fun f hf k => outside hno hf k]; rfl
    | some k =>
      rw [hc] at h
      dsimp only at h
      have hname : HasName t k name := by
        obtain ⟨n, h1, h2, _⟩ := findClass_some hc
        exact ⟨n, h1, h2⟩
      split at h
      · rename_i hplace
        have hk : Home t k (path ++ [name]) := (place_iff C W hname).1 hplace
        have hl0 : 1 < level + 1 := by rcases W with ⟨_, rfl, _⟩ | ⟨_, _, h, _⟩ <;> omega
        split at h
        · cases h
        · rename_i s1 h1
          have hb : (bootLeave t k s1).catalog = s1.catalog := by
            unfold bootLeave; dsimp only; split <;> rfl
          rw [ih2 level here path _ s' W h, hb, ih1 _ _ _ _ _ (Or.inr ⟨k, rfl, hl0, hk⟩) h1, hfl, kept_append, List.map_append, List.append_assoc]
      · cases h

/-- Nothing has been charged yet to the classes below the directories to be read. -/
def Fresh (t : Tree) (path : List Bytes) (d : Dir) (s : Boot) : Prop :=
  ∀ c, Visits t path d c → s.disk c = 0 ∧ (charge s.nodes c = none ∨ charge s.nodes c = some 0)

/-- Where the files of a directory are. -/
theorem files_sub {path : List Bytes} {d : Dir} {f : File} (h : f ∈ files path d) : f.path = path ∨ ∃ n ∈ subs d, path ++ [n] <+: f.path := by
  induction d with
  | nil => simp [files] at h
  | file n s r ih =>
    simp only [files, List.mem_cons] at h
    rcases h with rfl | h
    · exact Or.inl rfl
    · exact ih h
  | sub n i r _ ih2 =>
    simp only [files, List.mem_append] at h
    rcases h with h | h
    · exact Or.inr ⟨n, by simp [subs], files_prefix h⟩
    · rcases ih2 h with h | ⟨m, hm, h⟩
      · exact Or.inl h
      · exact Or.inr ⟨m, by simp [subs, hm], h⟩

theorem snoc_prefix_inj {α : Type} {p q : List α} {a b : α} (h1 : p ++ [a] <+: q) (h2 : p ++ [b] <+: q) : a = b := by
  have : p ++ [a] = p ++ [b] := by
    rcases List.prefix_or_prefix_of_prefix h1 h2 with h | h
    · exact h.eq_of_length (by simp)
    · exact (h.eq_of_length (by simp)).symm
  simpa using List.append_cancel_left this

theorem home_parent {t : Tree} (C : Classes t) {level : Nat} {here : Option Nat} {path : List Bytes} (W : Where t level here path) {name : Bytes} {k : Nat} (hk : Home t k (path ++ [name])) :
    here = t[k]?.bind (·.parent) := by
  obtain ⟨_, ⟨hp, n, hn, hr⟩ | ⟨d, ⟨n, hn, hd⟩, hd'⟩⟩ := home_snoc hk
  · rcases W with ⟨rfl, rfl, rfl⟩ | ⟨h, rfl, hl, hh⟩
    · rw [hn, Option.bind_some, hr]
    · exact absurd hp (home_ne_nil hh)
  · rcases W with ⟨rfl, rfl, rfl⟩ | ⟨h, rfl, hl, hh⟩
    · exact absurd rfl (home_ne_nil hd')
    · rw [hn, Option.bind_some, hd, home_inj C hh hd']

theorem bootLeave_spec {t : Tree} {k : Nat} {here : Option Nat} (h : here = t[k]?.bind (·.parent)) (s : Boot) :
    (∀ c, (bootLeave t k s).disk c = if here = some c then s.disk c + s.disk k else s.disk c) ∧
    (bootLeave t k s).nodes = diskUsage s.nodes k (s.disk k) ∧ (bootLeave t k s).catalog = s.catalog := by
  unfold bootLeave
  dsimp only
  rw [← h]
  cases here with
  | none => exact ⟨fun c => by rw [if_neg (by simp)], rfl, rfl⟩
  | some p =>
    refine ⟨fun c => ?_, rfl, rfl⟩
    dsimp only
    by_cases hc : c = p
    · subst hc; rw [if_pos rfl, if_pos rfl]
    · rw [if_neg hc, if_neg]; intro e; cases e; exact hc rfl

open Classical in
theorem bootDir_spec {hex : Bytes → Bool} {t : Tree} (C : Classes t) : ∀ (d : Dir) (level : Nat) (here : Option Nat) (path : List Bytes) (s s' : Boot),
    Where t level here path → Distinct d → Fresh t path d s → bootDir hex t d level here path s = some s' →
    (∀ c, Inside t here c → s'.disk c = s.disk c + total (CountsFor hex t c) (files path d)) ∧ (∀ c, ¬ Inside t here c → s'.disk c = s.disk c) ∧
    (∀ c, charge s'.nodes c = if Visits t path d c then (charge s.nodes c).map (fun _ => BitVec.ofNat 64 (total (CountsFor hex t c) (files path d))) else charge s.nodes c) ∧
    s'.catalog = s.catalog ++ (kept hex t (files path d)).map linkOf ∧ SameButDisk s'.nodes s.nodes := by
  intro d
  induction d with
  | nil =>
    intro level here path s s' _ _ _ h
    cases h
    refine ⟨fun c _ => rfl, fun c _ => rfl, fun c => ?_, by simp [files, kept], sameButDisk_refl _⟩
    rw [if_neg]
    rintro ⟨n, hn, _⟩
    simp [subs] at hn
  | file name size rest ih =>
    intro level here path s s' W D F h
    unfold bootDir at h
    split at h
    · cases h
    · rename_i s1 h1
      obtain ⟨b1, b2, b3, b4, b5⟩ := (bootFile_spec C W name size s).2 s1 h1
      have F' : Fresh t path rest s1 := by
        intro c hc
        obtain ⟨f1, f2⟩ := F c hc
        refine ⟨?_, by rw [b1]; exact f2⟩
        rw [b5 c ?_]; · exact f1
        rintro h rfl rfl
        obtain ⟨n, _, k, hk, hu⟩ := hc
        rcases W with ⟨e, _⟩ | ⟨h', e, _, hh⟩
        · cases e
        · cases e
          have := (under_iff C hh hk).1 hu
          have := this.length_le
          simp only [List.length_append, List.length_cons, List.length_nil] at this; omega
      obtain ⟨c1, c2, c3, c4, c5⟩ := ih level here path s1 s' W D F' h
      have hf : files path (.file name size rest) = [⟨path, name, size⟩] ++ files path rest := rfl
      refine ⟨?_, ?_, ?_, ?_, ?_⟩
      · intro c hc
        rw [c1 c hc, b3 c hc, hf, total_append]; omega
      · intro c hc
        rw [c2 c hc, b4 c hc]
      · intro c
        rw [c3 c, b1]
        show _ = if Visits t path rest c then _ else _
        split
        · rename_i hv
          rw [hf, total_append]
          have : total (CountsFor hex t c) [⟨path, name, size⟩] = 0 := by
            apply total_zero
            intro f hf; simp only [List.mem_singleton] at hf; subst hf
            rintro ⟨k, hk, hu⟩
            obtain ⟨n, _, k', hk', hu'⟩ := hv
            obtain ⟨q, hq⟩ := under_home hu hk.2
            have e1 := (under_iff C hk.2 hq).1 hu
            have e2 := (under_iff C hq hk').1 hu'
            have := (e2.trans e1).length_le
            simp only [List.length_append, List.length_cons, List.length_nil] at this; omega
          rw [this, Nat.zero_add]
        · rfl
      · rw [c4, b2, hf, kept_append, List.map_append, List.append_assoc]
      · rw [← b1]; exact c5
  | sub name inside rest ih1 ih2 =>
    intro level here path s s' W D F h
    obtain ⟨D1, D2, D3⟩ := D
    unfold bootDir at h
    have hfl : files path (.sub name inside rest) = files (path ++ [name]) inside ++ files path rest := rfl
    cases hc : findClass t name with
    | none =>
      rw [hc] at h
      dsimp only at h
      have hno : ∀ k, ¬ HasName t k name := by
        rintro k ⟨n, hn, e⟩
        exact findClass_none.1 hc n (List.mem_of_getElem? hn) e
      have hz : ∀ c, total (CountsFor hex t c) (files (path ++ [name]) inside) = 0 := fun c => total_zero fun f hf => by
        rintro ⟨k, hk, _⟩; exact outside hno hf k hk
      have hv : ∀ c, Visits t path (.sub name inside rest) c ↔ Visits t path rest c := by
        intro c
        constructor
        · rintro ⟨n, hn, k, hk, hu⟩
          simp only [subs, List.mem_cons] at hn
          rcases hn with rfl | hn
          · exact absurd (home_snoc hk).1 (hno k)
          · exact ⟨n, hn, k, hk, hu⟩
        · rintro ⟨n, hn, k, hk, hu⟩; exact ⟨n, by simp [subs, hn], k, hk, hu⟩
      obtain ⟨c1, c2, c3, c4, c5⟩ := ih2 level here path s s' W D3 (fun c h => F c ((hv c).2 h)) h
      refine ⟨fun c hc => ?_, c2, fun c => ?_, ?_, c5⟩
      · rw [c1 c hc, hfl, total_append, hz]; omega
      · rw [c3 c, hfl, total_append, hz, Nat.zero_add]
        by_cases h' : Visits t path rest c
        · rw [if_pos h', if_pos ((hv c).2 h')]
        · rw [if_neg h', if_neg fun h => h' ((hv c).1 h)]
      · rw [c4, hfl, kept_append, kept_nil fun f hf k => outside hno hf k]; rfl
    | some k =>
      rw [hc] at h
      dsimp only at h
      have hname : HasName t k name := by
        obtain ⟨n, h1, h2, _⟩ := findClass_some hc
        exact ⟨n, h1, h2⟩
      split at h
      · rename_i hplace
        have hk : Home t k (path ++ [name]) := (place_iff C W hname).1 hplace
        split at h
        · cases h
        · rename_i s1 h1
          obtain ⟨hname', hplace'⟩ := home_snoc hk
          have hl0 : 1 < level + 1 := by rcases W with ⟨_, rfl, _⟩ | ⟨_, _, h, _⟩ <;> omega
          -- the classes at and below `k`
          have vis : ∀ c, Under t c k → Visits t path (.sub name inside rest) c := fun c hu => ⟨name, by simp [subs], k, hk, hu⟩
          have inU : ∀ c, Visits t (path ++ [name]) inside c → Under t c k := by
            rintro c ⟨n, _, k', hk', hu⟩
            exact under_trans hu ((under_iff C hk' hk).2 (List.prefix_append _ _))
          have restU : ∀ c, Visits t path rest c → ¬ Under t c k := by
            rintro c ⟨n, hn, k', hk', hu⟩ hu'
            obtain ⟨q, hq⟩ := home_below C hu' hk
            have := snoc_prefix_inj ((under_iff C hq hk').1 hu) ((under_iff C hq hk).1 hu')
            exact D1 (this ▸ hn)
          have notHere : ∀ c, (∃ n, ∃ k', Home t k' (path ++ [n]) ∧ Under t c k') → here ≠ some c := by
            rintro c ⟨n, k', hk', hu⟩ rfl
            rcases W with ⟨e, _⟩ | ⟨h', e, _, hh⟩
            · cases e
            · cases e
              have := ((under_iff C hh hk').1 hu).length_le
              simp only [List.length_append, List.length_cons, List.length_nil] at this; omega
          have below : ∀ c, (∃ n, ∃ k', Home t k' (path ++ [n]) ∧ Under t c k') → Inside t here c := by
            rintro c ⟨n, k', hk', hu⟩ h' rfl
            rcases W with ⟨e, _⟩ | ⟨h'', e, _, hh⟩
            · cases e
            · cases e
              exact under_trans hu ((under_iff C hk' hh).2 (List.prefix_append _ _))
          -- files inside count only for these and those above
          have zeroIn : ∀ c, ¬ Under t c k → Inside t here c → here ≠ some c → total (CountsFor hex t c) (files (path ++ [name]) inside) = 0 := by
            intro c h1 h2 h3
            apply total_zero
            rintro f hf ⟨k', hk', hu⟩
            obtain ⟨p, hp⟩ := under_home hu hk'.2
            have e1 := (under_iff C hk'.2 hp).1 hu
            rcases List.prefix_or_prefix_of_prefix e1 (files_prefix hf) with h | h
            · rcases prefix_snoc h with h | h
              · exact h1 ((under_iff C hp hk).2 (by rw [h]; exact List.prefix_refl _))
              · rcases W with ⟨e, _, e'⟩ | ⟨h', e, _, hh⟩
                · rw [e'] at h; exact home_ne_nil hp (List.prefix_nil.1 h)
                · have := under_antisymm C (h2 h' e) ((under_iff C hh hp).2 h)
                  rw [← this] at e
                  exact h3 e
            · exact h1 ((under_iff C hp hk).2 h)
          have zeroRest : ∀ c, Under t c k → total (CountsFor hex t c) (files path rest) = 0 := by
            intro c hu
            apply total_zero
            rintro f hf ⟨k', hk', hu'⟩
            have e1 := (under_iff C hk'.2 hk).1 (under_trans hu' hu)
            rcases files_sub hf with h | ⟨n, hn, h⟩
            · rw [h] at e1; have := e1.length_le; simp only [List.length_append, List.length_cons, List.length_nil] at this; omega
            · exact D1 (snoc_prefix_inj e1 h ▸ hn)
          obtain ⟨a1, a2, a3, a4, a5⟩ := ih1 (level + 1) (some k) (path ++ [name]) s s1 (Or.inr ⟨k, rfl, hl0, hk⟩) D2
            (fun c hc => F c (vis c (inU c hc))) h1
          have inK : ∀ c, Inside t (some k) c ↔ Under t c k := fun c => ⟨fun h => h k rfl, fun h h' e => by cases e; exact h⟩
          obtain ⟨l1, l2, l3⟩ := bootLeave_spec (home_parent C W hk) s1
          have diskK : s1.disk k = total (CountsFor hex t k) (files (path ++ [name]) inside) := by
            rw [a1 k ((inK k).2 (.self k)), (F k (vis k (.self k))).1, Nat.zero_add]
          have notIn : ¬ Visits t (path ++ [name]) inside k := by
            rintro ⟨n, _, k', hk', hu⟩
            have := ((under_iff C hk hk').1 hu).length_le
            simp only [List.length_append, List.length_cons, List.length_nil] at this; omega
          have chargeOut : ∀ c, ¬ Under t c k → charge (bootLeave t k s1).nodes c = charge s.nodes c := by
            intro c hu
            rw [l2, diskUsage_charge, if_neg (fun e : c = k => hu (by rw [e]; exact .self _)), a3 c, if_neg fun hv => hu (inU c hv)]
          have F2 : Fresh t path rest (bootLeave t k s1) := by
            intro c hv
            have hu := restU c hv
            obtain ⟨n, hn, k', hk', hu'⟩ := hv
            obtain ⟨f1, f2⟩ := F c ⟨n, by simp [subs, hn], k', hk', hu'⟩
            refine ⟨?_, by rw [chargeOut c hu]; exact f2⟩
            rw [l1, if_neg (notHere c ⟨n, k', hk', hu'⟩), a2 c fun h => hu ((inK c).1 h)]
            exact f1
          obtain ⟨c1, c2, c3, c4, c5⟩ := ih2 level here path (bootLeave t k s1) s' W D3 F2 h
          refine ⟨?_, ?_, ?_, ?_, ?_⟩
          · intro c hin
            rw [c1 c hin, hfl, total_append, l1]
            by_cases hh : here = some c
            · rw [if_pos hh]
              have hnu : ¬ Under t c k := fun hu => notHere c ⟨name, k, hk, hu⟩ hh
              rw [a2 c fun h => hnu ((inK c).1 h), diskK]
              have : total (CountsFor hex t k) (files (path ++ [name]) inside) = total (CountsFor hex t c) (files (path ++ [name]) inside) := by
                apply total_congr
                intro f hf
                constructor
                · rintro ⟨k', hk', hu⟩
                  rcases hplace' with ⟨hp, _⟩ | ⟨d, hd1, hd2⟩
                  · rcases W with ⟨e, _⟩ | ⟨h', _, _, hh'⟩
                    · rw [e] at hh; cases hh
                    · exact absurd hp (home_ne_nil hh')
                  · have : d = c := by
                      rcases W with ⟨e, _⟩ | ⟨h', e, _, hh'⟩
                      · rw [e] at hh; cases hh
                      · rw [e] at hh; cases hh; exact home_inj C hd2 hh'
                    subst this
                    exact ⟨k', hk', under_trans hu (.up hd1 (.self _))⟩
                · rintro ⟨k', hk', hu⟩
                  exact ⟨k', hk', (under_iff C hk'.2 hk).2 (files_prefix hf)⟩
              rw [this]; omega
            · rw [if_neg hh]
              by_cases hu : Under t c k
              · rw [a1 c ((inK c).2 hu)]; omega
              · rw [a2 c fun h => hu ((inK c).1 h), zeroIn c hu hin hh]; omega
          · intro c hin
            rw [c2 c hin, l1, if_neg, a2 c]
            · intro h
              exact hin (below c ⟨name, k, hk, (inK c).1 h⟩)
            · rintro rfl
              exact hin fun h' e => by cases e; exact .self _
          · intro c
            rw [c3 c, hfl, total_append]
            by_cases hv : Visits t path rest c
            · have hu := restU c hv
              rw [if_pos hv, chargeOut c hu]
              obtain ⟨n, hn, k', hk', hu'⟩ := hv
              rw [if_pos ⟨n, by simp [subs, hn], k', hk', hu'⟩, zeroIn c hu (below c ⟨n, k', hk', hu'⟩) (notHere c ⟨n, k', hk', hu'⟩), Nat.zero_add]
            · rw [if_neg hv]
              by_cases hu : Under t c k
              · rw [if_pos (vis c hu), zeroRest c hu, Nat.add_zero, l2, diskUsage_charge]
                by_cases hck : c = k
                · subst hck
                  rw [if_pos rfl, a3 c, if_neg notIn, diskK]
                · rw [if_neg hck, a3 c]
                  by_cases hvi : Visits t (path ++ [name]) inside c
                  · rw [if_pos hvi]
                  · rw [if_neg hvi]
                    have : total (CountsFor hex t c) (files (path ++ [name]) inside) = 0 := by
                      apply total_zero
                      rintro f hf ⟨k', hk', hu'⟩
                      obtain ⟨p, hp⟩ := home_below C hu hk
                      have e1 := (under_iff C hk'.2 hp).1 hu'
                      have e2 := (under_iff C hp hk).1 hu
                      have e3 : p ≠ path ++ [name] := by
                        intro e; rw [e] at hp; exact hck (home_inj C hp hk)
                      rcases files_sub hf with h | ⟨n, hn, h⟩
                      · rw [h] at e1
                        exact e3 (e1.eq_of_length (Nat.le_antisymm e1.length_le e2.length_le))
                      · rcases List.prefix_or_prefix_of_prefix e1 h with h' | h'
                        · rcases prefix_snoc h' with h' | h'
                          · exact hvi ⟨n, hn, c, h' ▸ hp, .self c⟩
                          · exact e3 (h'.eq_of_length (Nat.le_antisymm h'.length_le e2.length_le))
                        · obtain ⟨k'', g1, g2⟩ := home_prefix hp h' (by simp)
                          exact hvi ⟨n, hn, k'', g1, g2⟩
                    rw [this]
                    rcases (F c (vis c hu)).2 with e | e <;> rw [e] <;> rfl
              · rw [chargeOut c hu, if_neg]
                rintro ⟨n, hn, k', hk', hu'⟩
                simp only [subs, List.mem_cons] at hn
                rcases hn with rfl | hn
                · exact hu (home_inj C hk' hk ▸ hu')
                · exact hv ⟨n, hn, k', hk', hu'⟩
          · rw [c4, l3, a4, hfl, kept_append, List.map_append, List.append_assoc]
          · rw [l2] at c5
            exact sameButDisk_trans c5 (sameButDisk_trans (diskUsage_same _ _ _) a5)
      · cases h

/-- When the reading succeeds. -/
theorem bootDir_ok {hex : Bytes → Bool} {t : Tree} (C : Classes t) : ∀ (d : Dir) (level : Nat) (here : Option Nat) (path : List Bytes) (s : Boot),
    Where t level here path → (s.catalog.map (·.1)).Nodup →
    ((∃ s', bootDir hex t d level here path s = some s') ↔
      (∀ p n, (p, n) ∈ dirs path d → (p = [] ∨ ∃ h, Home t h p) → ∀ k, HasName t k n → Home t k (p ++ [n])) ∧
      (s.catalog.map (·.1) ++ (kept hex t (files path d)).map (·.name)).Nodup) := by
  intro d
  induction d with
  | nil =>
    intro level here path s W N
    refine ⟨fun _ => ⟨?_, by simpa [files, kept] using N⟩, fun _ => ⟨s, rfl⟩⟩
    intro p n h; simp [dirs] at h
  | file name size rest ih =>
    intro level here path s W N
    unfold bootDir
    obtain ⟨e1, e2⟩ := bootFile_spec (hex := hex) C W name size s
    have hf : files path (.file name size rest) = [⟨path, name, size⟩] ++ files path rest := rfl
    have hkept : ∀ f ∈ kept hex t [⟨path, name, size⟩], f.name = name ∧ ∃ k, Recorded hex t ⟨path, name, size⟩ k := by
      intro f hf
      unfold kept at hf
      simp only [List.mem_filter, List.mem_singleton, decide_eq_true_eq] at hf
      obtain ⟨rfl, h⟩ := hf
      exact ⟨rfl, h⟩
    cases hb : bootFile hex here path name size s with
    | none =>
      obtain ⟨⟨k, hk⟩, h2⟩ := e1.1 hb
      dsimp only
      constructor
      · rintro ⟨s', h⟩; cases h
      · rintro ⟨_, h⟩
        exfalso
        rw [hf, kept_append, List.map_append] at h
        have : name ∈ (kept hex t [⟨path, name, size⟩]).map (·.name) := by
          refine List.mem_map.2 ⟨⟨path, name, size⟩, ?_, rfl⟩
          unfold kept
          simp only [List.mem_filter, List.mem_singleton, true_and, decide_eq_true_eq]
          exact ⟨k, hk⟩
        rw [List.nodup_append] at h
        exact h.2.2 name h2 name (List.mem_append_left _ this) rfl
    | some s1 =>
      obtain ⟨b1, b2, _⟩ := e2 s1 hb
      dsimp only
      have hm : s1.catalog.map (·.1) = s.catalog.map (·.1) ++ (kept hex t [⟨path, name, size⟩]).map (·.name) := by
        rw [b2, List.map_append, List.map_map]; rfl
      have N1 : (s1.catalog.map (·.1)).Nodup := by
        rw [hm, List.nodup_append]
        refine ⟨N, ?_, ?_⟩
        · unfold kept
          by_cases h : ∃ k, Recorded hex t ⟨path, name, size⟩ k
          · rw [List.filter_cons_of_pos (by simpa using h)]; simp
          · rw [List.filter_cons_of_neg (by simpa using h)]; simp
        · intro a ha b hb' e
          subst e
          obtain ⟨f, hf1, hf2⟩ := List.mem_map.1 hb'
          obtain ⟨g1, g2⟩ := hkept f hf1
          have := e1.2 ⟨g2, by rw [← g1, hf2]; exact ha⟩
          rw [hb] at this; cases this
      rw [ih level here path s1 W N1, hm, hf, kept_append, List.map_append, List.append_assoc]
      rfl
  | sub name inside rest ih1 ih2 =>
    intro level here path s W N
    unfold bootDir
    have hfl : files path (.sub name inside rest) = files (path ++ [name]) inside ++ files path rest := rfl
    have hdl : dirs path (.sub name inside rest) = (path, name) :: (dirs (path ++ [name]) inside ++ dirs path rest) := rfl
    have hhome : path = [] ∨ ∃ h, Home t h path := by
      rcases W with ⟨_, _, rfl⟩ | ⟨h, _, _, hh⟩
      · exact Or.inl rfl
      · exact Or.inr ⟨h, hh⟩
    cases hc : findClass t name with
    | none =>
      have hno : ∀ k, ¬ HasName t k name := by
        rintro k ⟨n, hn, e⟩
        exact findClass_none.1 hc n (List.mem_of_getElem? hn) e
      dsimp only
      rw [ih2 level here path s W N, hfl, kept_append, kept_nil fun f hf k => outside hno hf k]
      constructor
      · rintro ⟨h1, h2⟩
        refine ⟨?_, h2⟩
        intro p n hm hp k hk
        rw [hdl] at hm
        simp only [List.mem_cons, List.mem_append, Prod.mk.injEq] at hm
        rcases hm with ⟨rfl, rfl⟩ | hm | hm
        · exact absurd hk (hno k)
        · exfalso
          have hpre := dirs_prefix hm
          rcases hp with rfl | ⟨h, hh⟩
          · have := List.prefix_nil.1 hpre; simp at this
          · obtain ⟨c, hc', _⟩ := home_prefix hh hpre (by simp)
            exact hno c (home_snoc hc').1
        · exact h1 p n hm hp k hk
      · rintro ⟨h1, h2⟩
        exact ⟨fun p n hm => h1 p n (by rw [hdl]; simp [hm]), h2⟩
    | some k =>
      have hname : HasName t k name := by
        obtain ⟨n, h1, h2, _⟩ := findClass_some hc
        exact ⟨n, h1, h2⟩
      dsimp only
      by_cases hplace : (level = 1 ∧ k = 0) ∨ (1 < level ∧ here = t[k]?.bind (·.parent))
      · rw [if_pos hplace]
        have hk : Home t k (path ++ [name]) := (place_iff C W hname).1 hplace
        have hl0 : 1 < level + 1 := by rcases W with ⟨_, rfl, _⟩ | ⟨_, _, h, _⟩ <;> omega
        have W1 : Where t (level + 1) (some k) (path ++ [name]) := Or.inr ⟨k, rfl, hl0, hk⟩
        have I := ih1 (level + 1) (some k) (path ++ [name]) s W1 N
        cases hb : bootDir hex t inside (level + 1) (some k) (path ++ [name]) s with
        | none =>
          dsimp only
          constructor
          · rintro ⟨s', h⟩; cases h
          · rintro ⟨h1, h2⟩
            obtain ⟨s', hs'⟩ := I.2 ⟨fun p n hm => h1 p n (by rw [hdl]; simp [hm]), by
              rw [hfl, kept_append, List.map_append, ← List.append_assoc] at h2
              exact (List.nodup_append.1 h2).1⟩
            rw [hb] at hs'; cases hs'
        | some s1 =>
          dsimp only
          obtain ⟨i1, i2⟩ := I.1 ⟨s1, hb⟩
          have hcat : s1.catalog = s.catalog ++ (kept hex t (files (path ++ [name]) inside)).map linkOf := bootDir_catalog C inside _ _ _ _ _ W1 hb
          have hm : (bootLeave t k s1).catalog.map (·.1) = s.catalog.map (·.1) ++ (kept hex t (files (path ++ [name]) inside)).map (·.name) := by
            rw [(bootLeave_spec (home_parent C W hk) s1).2.2, hcat, List.map_append, List.map_map]; rfl
          rw [ih2 level here path (bootLeave t k s1) W (by rw [hm]; exact i2), hm, hfl, kept_append, List.map_append, List.append_assoc]
          constructor
          · rintro ⟨h1, h2⟩
            refine ⟨?_, h2⟩
            intro p n hm hp j hj
            rw [hdl] at hm
            simp only [List.mem_cons, List.mem_append, Prod.mk.injEq] at hm
            rcases hm with ⟨rfl, rfl⟩ | hm | hm
            · rw [C.names j k n hj hname]; exact hk
            · exact i1 p n hm hp j hj
            · exact h1 p n hm hp j hj
          · rintro ⟨h1, h2⟩
            exact ⟨fun p n hm => h1 p n (by rw [hdl]; simp [hm]), h2⟩
      · rw [if_neg hplace]
        constructor
        · rintro ⟨s', h⟩; cases h
        · rintro ⟨h1, _⟩
          exact absurd ((place_iff C W hname).2 (h1 path name (by rw [hdl]; simp) hhome k hname)) hplace

end Owamp.Policy
