import Verif.Lemmas.Close
/-!
# The memory of a context and the lists it stands for
-/
namespace Owamp.Close
open Owamp.Spec.Close

/-- The addresses of connections with their sessions. -/
def addrs (A : List (Nat × List Nat)) : List Nat := A.flatMap fun x => x.1 :: x.2

/-- The addresses of the sessions. -/
def sess (A : List (Nat × List Nat)) : List Nat := A.flatMap fun x => x.2

/-- The memory holds the connections `A`, each with its sessions, and sessions `L` that are on no list. -/
structure Rep (m : Mem) (A : List (Nat × List Nat)) (L : List Nat) : Prop where
  chain : Chain m m.list (A.map (·.1))
  conn : ∀ x ∈ A, ∃ nx h, m.cell x.1 = some ⟨nx, .conn h⟩ ∧ Chain m h x.2
  sess : ∀ x ∈ A, ∀ t ∈ x.2, ∃ s, Body m t = some (some s) ∧ s.cntrl = x.1
  lost : ∀ t ∈ L, ∃ s, Body m t = some (some s)
  nodup : (addrs A ++ L).Nodup
  all : ∀ a, (m.cell a).isSome → a ∈ addrs A ++ L
  recv : m.recv = 0

theorem addrs_append (A B : List (Nat × List Nat)) : addrs (A ++ B) = addrs A ++ addrs B := by simp [addrs]
theorem addrs_cons (x : Nat × List Nat) (B : List (Nat × List Nat)) : addrs (x :: B) = x.1 :: x.2 ++ addrs B := by simp [addrs]

theorem perm_out (A1 A2 : List (Nat × List Nat)) (c : Nat) (ts L : List Nat) :
    (addrs (A1 ++ (c, ts) :: A2) ++ L).Perm ((c :: (addrs A1 ++ addrs A2 ++ L)) ++ ts) := by
  rw [addrs_append, addrs_cons]
  refine List.perm_iff_count.2 fun a => ?_
  simp only [List.count_append, List.count_cons, List.cons_append]
  omega

theorem mem_addrs {A : List (Nat × List Nat)} {x : Nat × List Nat} (h : x ∈ A) : x.1 ∈ addrs A ∧ ∀ t ∈ x.2, t ∈ addrs A :=
  ⟨List.mem_flatMap.2 ⟨x, h, by simp⟩, fun t ht => List.mem_flatMap.2 ⟨x, h, by simp [ht]⟩⟩

theorem body_some {m : Mem} {t : Nat} {b : Option Session} (h : Body m t = some b) : (m.cell t).isSome := by
  unfold Body at h
  cases hx : m.cell t with
  | none => rw [hx] at h; cases h
  | some x => rfl

theorem Rep.cells {m : Mem} {A : List (Nat × List Nat)} {L : List Nat} (r : Rep m A L) : ∀ a ∈ addrs A ++ L, (m.cell a).isSome := by
  intro a ha
  rcases List.mem_append.1 ha with h | h
  · obtain ⟨x, hx, h⟩ := List.mem_flatMap.1 h
    rcases List.mem_cons.1 h with h | h
    · obtain ⟨nx, t, hc, _⟩ := r.conn x hx
      rw [h, hc]; rfl
    · obtain ⟨s, hs, _⟩ := r.sess x hx a h
      exact body_some hs
  · obtain ⟨s, hs⟩ := r.lost a h
    exact body_some hs

/-- The connection and its sessions. -/
theorem Rep.own {m : Mem} {A1 A2 : List (Nat × List Nat)} {c : Nat} {ts L : List Nat} (r : Rep m (A1 ++ (c, ts) :: A2) L) : ∃ nx, Own m c nx ts [] := by
  obtain ⟨nx, h, h1, h2⟩ := r.conn (c, ts) (by simp)
  refine ⟨nx, ⟨h, h1, h2⟩, r.recv, ?_, ?_⟩
  · intro t ht
    rw [List.append_nil] at ht
    exact r.sess (c, ts) (by simp) t ht
  · have := (perm_out A1 A2 c ts L).nodup_iff.1 r.nodup
    rw [List.append_nil]
    rw [List.cons_append, List.nodup_cons] at this
    exact List.nodup_cons.2 ⟨fun e => this.1 (by simp [e]), (List.nodup_append.1 this.2).2.1⟩

/-- A connection that is open is on the list. -/
theorem Rep.find {m : Mem} {A : List (Nat × List Nat)} {L : List Nat} (r : Rep m A L) {c : Nat} (hc : IsConn m c) : ∃ A1 ts A2, A = A1 ++ (c, ts) :: A2 := by
  obtain ⟨nx, h, hc⟩ := hc
  have hb := body_conn hc
  rcases List.mem_append.1 (r.all c (by rw [hc]; rfl)) with h' | h'
  · obtain ⟨x, hx, h'⟩ := List.mem_flatMap.1 h'
    rcases List.mem_cons.1 h' with e | e
    · obtain ⟨A1, A2, e2⟩ := List.append_of_mem hx
      exact ⟨A1, x.2, A2, by rw [e2, e]⟩
    · obtain ⟨s, hs, _⟩ := r.sess x hx c e
      rw [hb] at hs; cases hs
  · obtain ⟨s, hs⟩ := r.lost c h'
    rw [hb] at hs; cases hs

/-- The sessions of one connection replaced. -/
theorem Rep.update {m m' : Mem} {A1 A2 : List (Nat × List Nat)} {c nx : Nat} {ts L ts' : List Nat} (r : Rep m (A1 ++ (c, ts) :: A2) L)
    (hold : Own m c nx ts []) (ho : Own m' c nx ts' []) (hlist : m'.list = m.list) (new extra : List Nat)
    (hcell : ∀ a, a ∉ c :: ts → a ∉ new → m'.cell a = m.cell a) (hnew : ∀ a ∈ new, m.cell a = none) (hsub : ∀ t ∈ ts' ++ extra, t ∈ ts ∨ t ∈ new)
    (hnd : (ts' ++ extra).Nodup) (hex : ∀ t ∈ extra, ∃ s, Body m' t = some (some s)) (hall : ∀ a ∈ ts ++ new, (m'.cell a).isSome → a ∈ ts' ++ extra) :
    Rep m' (A1 ++ (c, ts') :: A2) (L ++ extra) := by
  have nd := (perm_out A1 A2 c ts L).nodup_iff.1 r.nodup
  have cs := r.cells
  have pm := (perm_out A1 A2 c ts L)
  have ndc : c ∉ addrs A1 ++ addrs A2 ++ L ++ ts := by
    rw [List.cons_append] at nd; exact (List.nodup_cons.1 nd).1
  have ndr : (addrs A1 ++ addrs A2 ++ L).Nodup := by
    rw [List.cons_append] at nd; exact (List.nodup_append.1 (List.nodup_cons.1 nd).2).1
  have dis : ∀ a ∈ addrs A1 ++ addrs A2 ++ L, a ∉ ts := by
    rw [List.cons_append] at nd
    exact fun a h1 h2 => (List.nodup_append.1 (List.nodup_cons.1 nd).2).2.2 a h1 a h2 rfl
  have rest : ∀ a ∈ addrs A1 ++ addrs A2 ++ L, m'.cell a = m.cell a ∧ Body m' a = Body m a := by
    intro a ha
    have e : m'.cell a = m.cell a := by
      apply hcell
      · intro h
        rcases List.mem_cons.1 h with h | h
        · exact ndc (by rw [← h]; exact List.mem_append_left _ ha)
        · exact dis a ha h
      · intro h
        have := cs a (pm.mem_iff.2 (List.mem_append_left _ (List.mem_cons_of_mem _ ha)))
        rw [hnew a h] at this
        cases this
    exact ⟨e, by unfold Body; rw [e]⟩
  have inA : ∀ x ∈ A1 ++ A2, x.1 ∈ addrs A1 ++ addrs A2 ++ L ∧ ∀ t ∈ x.2, t ∈ addrs A1 ++ addrs A2 ++ L := by
    intro x hx
    rcases List.mem_append.1 hx with h | h
    · exact ⟨by simp [(mem_addrs h).1], fun t ht => by simp [(mem_addrs h).2 t ht]⟩
    · exact ⟨by simp [(mem_addrs h).1], fun t ht => by simp [(mem_addrs h).2 t ht]⟩
  have split : ∀ x ∈ A1 ++ (c, ts') :: A2, x = (c, ts') ∨ x ∈ A1 ++ A2 := by
    intro x hx
    simp only [List.mem_append, List.mem_cons] at hx ⊢
    rcases hx with h | h | h <;> simp [h]
  have up : ∀ x ∈ A1 ++ A2, x ∈ A1 ++ (c, ts) :: A2 := by
    intro x hx
    simp only [List.mem_append, List.mem_cons] at hx ⊢
    rcases hx with h | h <;> simp [h]
  obtain ⟨h0, hc0, _⟩ := hold.conn
  obtain ⟨h1, hc1, hl1⟩ := ho.conn
  refine ⟨?_, ?_, ?_, ?_, ?_, ?_, ho.recv⟩
  · rw [hlist]
    have : (A1 ++ (c, ts') :: A2).map (·.1) = (A1 ++ (c, ts) :: A2).map (·.1) := by simp
    rw [this]
    refine chain_congr (fun a ha => ?_) r.chain
    obtain ⟨x, hx, e⟩ := List.mem_map.1 ha
    have : x = (c, ts) ∨ x ∈ A1 ++ A2 := by
      simp only [List.mem_append, List.mem_cons] at hx ⊢
      rcases hx with h | h | h <;> simp [h]
    rcases this with h | h
    · rw [← e, h]
      show (m'.cell c).map _ = (m.cell c).map _
      rw [hc0, hc1]; rfl
    · rw [← e, (rest x.1 (inA x h).1).1]
  · intro x hx
    rcases split x hx with h | h
    · rw [h]; exact ⟨nx, h1, hc1, hl1⟩
    · obtain ⟨nx', h', q1, q2⟩ := r.conn x (up x h)
      exact ⟨nx', h', by rw [(rest x.1 (inA x h).1).1, q1], chain_congr (fun a ha => by rw [(rest a ((inA x h).2 a ha)).1]) q2⟩
  · intro x hx t ht
    rcases split x hx with h | h
    · rw [h] at ht ⊢
      exact ho.sess t (by rw [List.append_nil]; exact ht)
    · obtain ⟨s, q1, q2⟩ := r.sess x (up x h) t ht
      exact ⟨s, by rw [(rest t ((inA x h).2 t ht)).2, q1], q2⟩
  · intro t ht
    rcases List.mem_append.1 ht with h | h
    · obtain ⟨s, q⟩ := r.lost t h
      exact ⟨s, by rw [(rest t (by simp [h])).2, q]⟩
    · exact hex t h
  · have hp : (addrs (A1 ++ (c, ts') :: A2) ++ (L ++ extra)).Perm ((c :: (addrs A1 ++ addrs A2 ++ L)) ++ (ts' ++ extra)) := by
      rw [addrs_append, addrs_cons]
      refine List.perm_iff_count.2 fun a => ?_
      simp only [List.count_append, List.count_cons, List.cons_append]
      omega
    rw [hp.nodup_iff]
    refine List.nodup_append.2 ⟨List.nodup_cons.2 ⟨fun e => ndc (List.mem_append_left _ e), ndr⟩, hnd, ?_⟩
    rintro a ha b hb rfl
    rcases hsub a hb with h | h
    · rcases List.mem_cons.1 ha with h' | h'
      · exact ndc (by rw [← h']; exact List.mem_append_right _ h)
      · exact dis a h' h
    · have := cs a (pm.mem_iff.2 (List.mem_append_left _ ha))
      rw [hnew a h] at this
      cases this
  · intro a ha
    have hp : (addrs (A1 ++ (c, ts') :: A2) ++ (L ++ extra)).Perm ((c :: (addrs A1 ++ addrs A2 ++ L)) ++ (ts' ++ extra)) := by
      rw [addrs_append, addrs_cons]
      refine List.perm_iff_count.2 fun a => ?_
      simp only [List.count_append, List.count_cons, List.cons_append]
      omega
    rw [hp.mem_iff]
    by_cases h : a ∈ ts ++ new
    · exact List.mem_append_right _ (hall a h ha)
    · apply List.mem_append_left
      by_cases hac : a = c
      · rw [hac]; simp
      · rw [hcell a (by simp only [List.mem_append, not_or] at h; simp [hac, h.1]) (fun e => h (by simp [e]))] at ha
        have := pm.mem_iff.1 (r.all a ha)
        rcases List.mem_append.1 this with h' | h'
        · exact h'
        · exact absurd (List.mem_append_left _ h') h

/-- A session has this to do with the count. -/
def weight (f : Session → Nat) (m : Mem) (t : Nat) : Nat :=
  match Body m t with
  | some (some s) => f s
  | _ => 0

/-- The sum over sessions. -/
def total (f : Session → Nat) (m : Mem) (l : List Nat) : Nat := (l.map (weight f m)).sum

theorem total_append (f : Session → Nat) (m : Mem) (l l' : List Nat) : total f m (l ++ l') = total f m l + total f m l' := by simp [total]

theorem total_cons (f : Session → Nat) (m : Mem) (t : Nat) (l : List Nat) : total f m (t :: l) = weight f m t + total f m l := by simp [total]

theorem total_perm (f : Session → Nat) (m : Mem) {l l' : List Nat} (h : l.Perm l') : total f m l = total f m l' := (h.map _).sum_nat

theorem total_congr (f : Session → Nat) {m m' : Mem} {l : List Nat} (h : ∀ t ∈ l, Body m' t = Body m t) : total f m' l = total f m l := by
  induction l with
  | nil => rfl
  | cons a l ih =>
    rw [total_cons, total_cons, ih (fun t ht => h t (by simp [ht]))]
    unfold weight
    rw [h a (by simp)]

end Owamp.Close
