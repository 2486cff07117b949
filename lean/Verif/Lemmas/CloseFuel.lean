import Verif.Lemmas.CloseStep
/-!
# More rounds make no difference
-/
namespace Owamp.Close
open Owamp.Spec.Close

/-- What one gives, the other gives. -/
def Ext {α : Type} (x y : Except Bad α) : Prop := ∀ r, x = .ok r → y = .ok r

theorem Ext.refl {α : Type} (x : Except Bad α) : Ext x x := fun _ h => h

theorem Ext.bind {α β : Type} {x y : Except Bad α} {f g : α → Except Bad β} (h : Ext x y) (hf : ∀ a, Ext (f a) (g a)) : Ext (x >>= f) (y >>= g) := by
  intro r hr
  cases hx : x with
  | error e => rw [hx] at hr; cases hr
  | ok a =>
    rw [h a hx]
    rw [hx] at hr
    exact hf a r hr

theorem Ext.map {α β : Type} {x y : Except Bad α} (f : α → β) (h : Ext x y) : Ext (x.map f) (y.map f) := by
  intro r hr
  cases hx : x with
  | error e => rw [hx] at hr; cases hr
  | ok a =>
    rw [h a hx]
    rw [hx] at hr
    exact hr

theorem Ext.ite {α : Type} {p : Prop} [Decidable p] {x y x' y' : Except Bad α} (h : Ext x x') (h' : Ext y y') :
    Ext (if p then x else y) (if p then x' else y') := by
  by_cases hp : p
  · rw [if_pos hp, if_pos hp]; exact h
  · rw [if_neg hp, if_neg hp]; exact h'

theorem walk_ext (f : Mem → Nat → Except Bad Bool) (n : Nat) : ∀ k m l, n ≤ k → Ext (walk f n m l) (walk f k m l) := by
  induction n with
  | zero => intro k m l _ r h; cases h
  | succ n ih =>
    intro k m l hk
    obtain ⟨k, rfl⟩ : ∃ j, k = j + 1 := ⟨k - 1, by omega⟩
    intro r h
    rw [walk] at h ⊢
    cases e : load m l with
    | error _ => rw [e] at h; cases h
    | ok p =>
      rw [e] at h
      dsimp only at h ⊢
      by_cases hp : p = 0
      · rw [if_pos hp] at h ⊢; exact h
      · rw [if_neg hp] at h ⊢
        cases e' : f m p with
        | error _ => rw [e'] at h; cases h
        | ok b =>
          rw [e'] at h
          cases b with
          | true => exact h
          | false => exact ih k m _ (by omega) r h

theorem testSessionFree_ext (H : Hooks) {n k : Nat} (m : Mem) (t : Nat) (aval : Int) (hk : n ≤ k) : Ext (testSessionFree H n m t aval) (testSessionFree H k m t aval) := by
  unfold testSessionFree
  refine Ext.ite (Ext.refl _) (Ext.bind (Ext.refl _) fun s => Ext.bind (walk_ext _ _ _ _ _ hk) fun l => Ext.refl _)

theorem freeTests_ext (H : Hooks) {n n' : Nat} (hn : n ≤ n') (c : Nat) (aval : Int) (j : Nat) : ∀ k m err, j ≤ k → Ext (freeTests H n j m c aval err) (freeTests H n' k m c aval err) := by
  induction j with
  | zero => intro k m err _ r h; cases h
  | succ j ih =>
    intro k m err hk
    obtain ⟨k, rfl⟩ : ∃ i, k = i + 1 := ⟨k - 1, by omega⟩
    intro r h
    rw [freeTests] at h ⊢
    cases e : load m (.tests c) with
    | error _ => rw [e] at h; cases h
    | ok p =>
      rw [e] at h
      dsimp only at h ⊢
      by_cases hp : p = 0
      · rw [if_pos hp] at h ⊢; exact h
      · rw [if_neg hp] at h ⊢
        cases e' : testSessionFree H n m p aval with
        | error _ => rw [e'] at h; cases h
        | ok b =>
          rw [e'] at h
          rw [testSessionFree_ext H m p aval hn b e']
          exact ih k _ _ (by omega) r h

theorem controlClose_ext (H : Hooks) {n k : Nat} (m : Mem) (c : Nat) (hk : n ≤ k) : Ext (controlClose H n m c) (controlClose H k m c) := by
  unfold controlClose
  exact Ext.bind (freeTests_ext H hk c 2 n k m _ hk) fun a => Ext.bind (walk_ext _ _ _ _ _ hk) fun l => Ext.refl _

theorem contextFree_ext (H : Hooks) {n n' : Nat} (hn : n ≤ n') (j : Nat) : ∀ k m, j ≤ k → Ext (contextFree H n j m) (contextFree H n' k m) := by
  induction j with
  | zero => intro k m _ r h; cases h
  | succ j ih =>
    intro k m hk
    obtain ⟨k, rfl⟩ : ∃ i, k = i + 1 := ⟨k - 1, by omega⟩
    intro r h
    rw [contextFree] at h ⊢
    by_cases hp : m.list = 0
    · rw [if_pos hp] at h ⊢; exact h
    · rw [if_neg hp] at h ⊢
      cases e' : controlClose H n m m.list with
      | error _ => rw [e'] at h; cases h
      | ok b =>
        rw [e'] at h
        rw [controlClose_ext H m m.list hn b e']
        exact ih k _ (by omega) r h

theorem pull_ext (n : Nat) : ∀ k m l, n ≤ k → Ext (pull n m l) (pull k m l) := by
  induction n with
  | zero => intro k m l _ r h; cases h
  | succ n ih =>
    intro k m l hk
    obtain ⟨k, rfl⟩ : ∃ j, k = j + 1 := ⟨k - 1, by omega⟩
    intro r h
    rw [pull] at h ⊢
    cases e : load m l with
    | error _ => rw [e] at h; cases h
    | ok p =>
      rw [e] at h
      dsimp only at h ⊢
      by_cases hp : p = 0
      · rw [if_pos hp] at h ⊢; exact h
      · rw [if_neg hp] at h ⊢
        cases e1 : session m p with
        | error _ => rw [e1] at h; cases h
        | ok s =>
          rw [e1] at h
          dsimp only at h ⊢
          cases e2 : s.ep with
          | none => rw [e2] at h; exact h
          | some ep =>
            rw [e2] at h
            dsimp only at h ⊢
            by_cases hs : ep.send = true
            · rw [if_pos hs] at h ⊢; exact ih k _ _ (by omega) r h
            · rw [if_neg hs] at h ⊢
              revert h
              generalize (do
                let q ← load m (.next p)
                let m ← store m l q
                let m ← store m (.next p) m.recv
                store m .recv p : Except Bad Mem) = x
              intro h
              cases x with
              | error _ => cases h
              | ok m1 => exact ih k _ _ (by omega) r h

theorem putBack_ext (n : Nat) : ∀ k m c, n ≤ k → Ext (putBack n m c) (putBack k m c) := by
  induction n with
  | zero => intro k m l _ r h; cases h
  | succ n ih =>
    intro k m c hk
    obtain ⟨k, rfl⟩ : ∃ j, k = j + 1 := ⟨k - 1, by omega⟩
    intro r h
    rw [putBack] at h ⊢
    by_cases hp : m.recv = 0
    · rw [if_pos hp] at h ⊢; exact h
    · rw [if_neg hp] at h ⊢
      revert h
      generalize (do
        let p := m.recv
        let q ← load m (.next p)
        let m ← store m .recv q
        push m c p : Except Bad Mem) = x
      intro h
      cases x with
      | error _ => cases h
      | ok m1 => exact ih k _ _ (by omega) r h

theorem takeNamed_ext {n k : Nat} (m : Mem) (c sid : Nat) (hk : n ≤ k) : Ext (takeNamed n m c sid) (takeNamed k m c sid) := by
  unfold takeNamed
  exact Ext.bind (walk_ext _ _ _ _ _ hk) fun l => Ext.refl _

theorem takeAll_ext {n k : Nat} (c : Nat) (hk : n ≤ k) (sids : List Nat) : ∀ m l, Ext (takeAll n c sids m l) (takeAll k c sids m l) := by
  induction sids with
  | nil => intro m l; exact Ext.refl _
  | cons sid sids ih =>
    intro m l r h
    rw [takeAll] at h ⊢
    cases e : takeNamed n m c sid with
    | error _ => rw [e] at h; cases h
    | ok x =>
      rw [takeNamed_ext m c sid hk x e]
      rw [e] at h
      obtain ⟨b, l', m'⟩ := x
      cases b with
      | false => exact h
      | true => exact ih _ _ r h

theorem readStop_ext {n k : Nat} (m : Mem) (c : Nat) (sids : List Nat) (fails : Bool) (hk : n ≤ k) : Ext (readStop n m c sids fails) (readStop k m c sids fails) := by
  have pb : ∀ m, Ext (do let m ← putBack n m c; .ok (false, m)) (do let m ← putBack k m c; .ok (false, m)) :=
    fun m => Ext.bind (putBack_ext n k m c hk) fun _ => Ext.refl _
  unfold readStop
  refine Ext.bind (pull_ext n k _ _ hk) fun a => ?_
  refine Ext.ite (Ext.bind (takeAll_ext c hk sids _ _) fun b => ?_) (pb _)
  exact Ext.ite (Ext.bind (Ext.refl _) fun p => Ext.ite (Ext.refl _) (pb _)) (pb _)

theorem step_ext (H : Hooks) {n k : Nat} (m : Mem) (o : Op) (hk : n ≤ k) : Ext (step H n m o) (step H k m o) := by
  cases o with
  | connect a => exact Ext.refl _
  | request t s refused =>
    cases refused with
    | none => exact Ext.refl _
    | some aval => exact Ext.map _ (testSessionFree_ext H _ t aval hk)
  | change t e => exact Ext.refl _
  | stop c sids fails => exact Ext.map _ (readStop_ext m c sids fails hk)
  | finish c aval => exact Ext.map _ (freeTests_ext H hk c aval n k m _ hk)
  | close c => exact Ext.map _ (controlClose_ext H m c hk)

/-- What is done in some number of rounds is done in any larger number. -/
theorem does_of {H : Hooks} {n : Nat} {m m' : Mem} {o : Op} (h : step H n m o = .ok m') : Does H m o m' := ⟨n, fun _ hk => step_ext H m o hk m' h⟩

theorem does_unique {H : Hooks} {m m1 m2 : Mem} {o : Op} (h1 : Does H m o m1) (h2 : Does H m o m2) : m1 = m2 := by
  obtain ⟨n1, h1⟩ := h1
  obtain ⟨n2, h2⟩ := h2
  have := (h1 (max n1 n2) (Nat.le_max_left _ _)).symm.trans (h2 (max n1 n2) (Nat.le_max_right _ _))
  exact Except.ok.inj this

end Owamp.Close
