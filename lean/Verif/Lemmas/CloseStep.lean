import Verif.Lemmas.CloseRep
/-!
# What the operations on a context do
-/
namespace Owamp.Close
open Owamp.Spec.Close

theorem sess_perm (A1 A2 : List (Nat × List Nat)) (c : Nat) (ts L : List Nat) :
    (sess (A1 ++ (c, ts) :: A2) ++ L).Perm ((sess A1 ++ sess A2 ++ L) ++ ts) := by
  unfold sess
  rw [List.flatMap_append, List.flatMap_cons]
  refine List.perm_iff_count.2 fun a => ?_
  simp only [List.count_append]
  omega

theorem sess_sub (A : List (Nat × List Nat)) : ∀ t ∈ sess A, t ∈ addrs A := by
  intro t ht
  obtain ⟨x, hx, h⟩ := List.mem_flatMap.1 ht
  exact (mem_addrs hx).2 t h

/-- Events of a kind that each session gives a fixed number of at its end. -/
def Measures (H : Hooks) (ev : Event → Bool) (f : Session → Nat) : Prop :=
  (∀ s aval, (seen H s aval).countP ev = f s) ∧ ∀ s e, s.ep.isSome → f { s with ep := some e } = f s

theorem count_seenAt {H : Hooks} {ev : Event → Bool} {f : Session → Nat} (hm : Measures H ev f) (m : Mem) (aval : Int) : ∀ ts : List Nat,
    (ts.flatMap (seenAt H m aval)).countP ev = total f m ts
  | [] => rfl
  | t :: ts => by
    rw [List.flatMap_cons, List.countP_append, total_cons, count_seenAt hm m aval ts]
    congr 1
    unfold seenAt weight
    rcases Body m t with _ | _ | s
    · rfl
    · rfl
    · exact hm.1 _ _

/-- The other cells stay when only those of a connection change. -/
theorem Rep.others {m m' : Mem} {A1 A2 : List (Nat × List Nat)} {c : Nat} {ts L : List Nat} (r : Rep m (A1 ++ (c, ts) :: A2) L)
    (new : List Nat) (hnew : ∀ a ∈ new, m.cell a = none) (hcell : ∀ a, a ∉ c :: ts → a ∉ new → m'.cell a = m.cell a) :
    ∀ a ∈ addrs A1 ++ addrs A2 ++ L, m'.cell a = m.cell a ∧ Body m' a = Body m a := by
  intro a ha
  have nd := (perm_out A1 A2 c ts L).nodup_iff.1 r.nodup
  have e : m'.cell a = m.cell a := by
    apply hcell
    · intro h
      rw [List.cons_append, List.nodup_cons] at nd
      rcases List.mem_cons.1 h with h | h
      · exact nd.1 (by rw [← h]; exact List.mem_append_left _ ha)
      · exact (List.nodup_append.1 nd.2).2.2 a ha a h rfl
    · intro h
      have := r.cells a ((perm_out A1 A2 c ts L).mem_iff.2 (List.mem_append_left _ (List.mem_cons_of_mem _ ha)))
      rw [hnew a h] at this
      cases this
  exact ⟨e, by unfold Body; rw [e]⟩

theorem rest_sub {A1 A2 : List (Nat × List Nat)} {L : List Nat} : ∀ t ∈ sess A1 ++ sess A2 ++ L, t ∈ addrs A1 ++ addrs A2 ++ L := by
  intro t ht
  simp only [List.mem_append] at ht ⊢
  rcases ht with (h | h) | h
  · exact Or.inl (Or.inl (sess_sub _ t h))
  · exact Or.inl (Or.inr (sess_sub _ t h))
  · exact Or.inr h

theorem Rep.congr {m m' : Mem} {A : List (Nat × List Nat)} {L : List Nat} (r : Rep m A L) (hc : m'.cell = m.cell) (hl : m'.list = m.list)
    (hr : m'.recv = m.recv) : Rep m' A L := by
  have hb : ∀ a, Body m' a = Body m a := fun a => by unfold Body; rw [hc]
  refine ⟨?_, ?_, ?_, ?_, r.nodup, ?_, hr.trans r.recv⟩
  · rw [hl]; exact chain_congr (fun a _ => by rw [hc]) r.chain
  · intro x hx
    obtain ⟨nx, h, h1, h2⟩ := r.conn x hx
    exact ⟨nx, h, by rw [hc]; exact h1, chain_congr (fun a _ => by rw [hc]) h2⟩
  · intro x hx t ht; rw [hb]; exact r.sess x hx t ht
  · intro t ht; rw [hb]; exact r.lost t ht
  · intro a ha; rw [hc] at ha; exact r.all a ha

/-- Ending a session that is on no list. -/
theorem freeLoose_ok (H : Hooks) {m : Mem} {c nx n t : Nat} {ts : List Nat} {s : Session} (ho : Own m c nx ts []) (hs : Body m t = some (some s))
    (hsc : s.cntrl = c) (ht0 : t ≠ 0) (htt : t ∉ ts) (aval : Int) (hn : ts.length < n) :
    ∃ m', testSessionFree H n m t aval = .ok ((endpointFree H s aval).1, m') ∧ (∀ a, a ≠ t → m'.cell a = m.cell a) ∧
      m'.cell t = none ∧ m'.list = m.list ∧ m'.recv = m.recv ∧ m'.log = m.log ++ seen H s aval := by
  obtain ⟨h, hc, hl⟩ := ho.conn
  obtain ⟨hses, nx', hct⟩ := session_body hs
  have ldc : load m (.tests c) = .ok h := by simp only [load, hc]
  have hw : walk (same t) n m (.tests s.cntrl) = .ok (behind (.tests c) ts) := by
    rw [hsc]
    exact walk_end (same t) ts n h (.tests c) ldc hl (fun a ha => by
      have : (a == t) = false := by
        rw [beq_eq_false_iff_ne]; exact fun e => htt (e ▸ ha)
      simp only [same, this]) hn
  obtain ⟨p, ld, hp⟩ : ∃ p, load m (behind (.tests c) ts) = .ok p ∧ p = 0 :=
    ⟨0, load_behind (l2 := []) (p := h) ldc (by rw [List.append_nil]; exact hl), rfl⟩
  refine ⟨setCell { m with log := m.log ++ (endpointFree H s aval).2 ++ if s.closure then callComplete H s.sid aval else [] } t none, ?_, ?_, ?_, rfl, rfl, ?_⟩
  · unfold testSessionFree
    rw [if_neg ht0, hses]
    show (walk (same t) n m (.tests s.cntrl) >>= fun l => _) = _
    rw [hw]
    show (load m (behind (.tests c) ts) >>= fun p => _) = _
    rw [ld]
    show (if p = 0 then _ else _) = _
    rw [if_pos hp]
    show (release { m with log := m.log ++ (endpointFree H s aval).2 ++ if s.closure then callComplete H s.sid aval else [] } t >>= fun m => _) = _
    unfold release
    dsimp only
    rw [hct]
    rfl
  · intro a ha; simp [setCell, ha]
  · simp [setCell]
  · show m.log ++ _ ++ _ = _
    rw [List.append_assoc]
    rfl

/-- `OWPControlClose`. -/
theorem close_ok (H : Hooks) {m : Mem} {A1 A2 : List (Nat × List Nat)} {c : Nat} {ts L : List Nat} (r : Rep m (A1 ++ (c, ts) :: A2) L) {n : Nat}
    (hn : (addrs (A1 ++ (c, ts) :: A2)).length < n) :
    ∃ e m', controlClose H n m c = .ok (e, m') ∧ Rep m' (A1 ++ A2) L ∧ m'.log = m.log ++ ts.flatMap (seenAt H m 2) ∧
      (∀ a ∈ addrs A1 ++ addrs A2 ++ L, Body m' a = Body m a) ∧ m'.cell c = none ∧ (∀ t ∈ ts, m'.cell t = none) := by
  obtain ⟨nx, ho⟩ := r.own
  have hlen : ts.length < n ∧ A1.length < n := by
    rw [addrs_append, addrs_cons] at hn
    simp only [List.length_append, List.length_cons] at hn
    have : ∀ A : List (Nat × List Nat), A.length ≤ (addrs A).length := by
      intro A
      induction A with
      | nil => simp
      | cons x A ih => rw [addrs_cons]; simp; omega
    have := this A1
    exact ⟨by omega, by omega⟩
  obtain ⟨e, m1, a1, a2, a3, a4, a5, a6⟩ := freeTests_ok H n c nx 2 (by omega) ts n m Owamp.Local.allOk ho hlen.1
  have r1 : Rep m1 (A1 ++ (c, []) :: A2) (L ++ []) :=
    r.update ho a2 a5 [] [] (fun a h _ => a3 a h) (fun _ h => by cases h) (fun _ h => by cases h) List.nodup_nil (fun _ h => by cases h) (fun a ha h => by
      rw [List.append_nil] at ha; rw [a4 a ha] at h; cases h)
  rw [List.append_nil] at r1
  have nd := (perm_out A1 A2 c [] L).nodup_iff.1 r1.nodup
  rw [List.append_nil] at nd
  have hch := r1.chain
  have hmap : (A1 ++ (c, []) :: A2).map (·.1) = A1.map (·.1) ++ c :: A2.map (·.1) := by simp
  rw [hmap] at hch
  have sub : ∀ a ∈ A1.map (·.1) ++ A2.map (·.1), a ∈ addrs A1 ++ addrs A2 ++ L := by
    intro a ha
    rcases List.mem_append.1 ha with h | h
    · obtain ⟨x, hx, e⟩ := List.mem_map.1 h
      rw [← e]; simp [(mem_addrs hx).1]
    · obtain ⟨x, hx, e⟩ := List.mem_map.1 h
      rw [← e]; simp [(mem_addrs hx).1]
  have hcn : c ∉ A1.map (·.1) ++ A2.map (·.1) := fun h => (List.nodup_cons.1 nd).1 (sub c h)
  have ndm : (A1.map (·.1) ++ c :: A2.map (·.1)).Nodup := by
    have hs : ∀ A : List (Nat × List Nat), List.Sublist (A.map (·.1)) (addrs A) := by
      intro A
      induction A with
      | nil => exact List.Sublist.refl _
      | cons x A ih =>
        rw [addrs_cons, List.map_cons, List.cons_append]
        exact List.Sublist.cons_cons _ (ih.trans (List.sublist_append_right _ _))
    have h1 := (List.nodup_append.1 r1.nodup).1.sublist (hs _)
    rw [hmap] at h1
    exact h1
  have w := walk_found (m := m1) (same c) c (A2.map (·.1)) (A1.map (·.1)) n m1.list .list rfl hch
    (fun a ha => by
      have : (a == c) = false := by
        rw [beq_eq_false_iff_ne]; exact fun e => hcn (by rw [← e]; exact List.mem_append_left _ ha)
      simp only [same, this]) (by simp [same]) (by simpa using hlen.2)
  have ld : load m1 (behind .list (A1.map (·.1))) = .ok c := load_behind (p := m1.list) rfl hch
  obtain ⟨h1, hc1, hl1⟩ := a2.conn
  have hnx : nx = hd (A2.map (·.1)) := by
    have : Chain m1 c (c :: A2.map (·.1)) := chain_append (l1 := A1.map (·.1)) hch
    obtain ⟨_, _, x, hx, hh⟩ := this
    rw [hc1] at hx
    cases hx
    exact chain_hd hh
  obtain ⟨m2, p2, u1, u2, u3, u4, u5, u6, u7, u8⟩ := unlink (m := m1) (loc := .list) (p := m1.list) rfl hch ndm (fun _ _ h => by cases h)
  have baddr : ∀ a, (behind .list (A1.map (·.1))).addr = some a → a ∈ A1.map (·.1) := by
    intro a ha
    rcases behind_addr (A1.map (·.1)) .list with ⟨e, eb⟩ | ⟨l, b, e, eb⟩
    · rw [eb] at ha; cases ha
    · rw [eb] at ha; cases ha; rw [e]; simp
  have hc2 : m2.cell c = m1.cell c := u4 c (fun e => hcn (List.mem_append_left _ (baddr c e)))
  have c0 : c ≠ 0 := (chain_mem hch c (by simp)).1
  have live : ∀ a, a ≠ c → (setCell m2 c none).cell a = m2.cell a := fun a ha => by simp [setCell, ha]
  have bd : ∀ a, a ≠ c → Body (setCell m2 c none) a = Body m1 a := fun a ha => by
    have : Body (setCell m2 c none) a = Body m2 a := by unfold Body; rw [live a ha]
    rw [this, u5]
  have nc : ∀ a ∈ addrs A1 ++ addrs A2 ++ L, a ≠ c := fun a ha e => (List.nodup_cons.1 nd).1 (e ▸ ha)
  have inA : ∀ x ∈ A1 ++ A2, x.1 ∈ addrs A1 ++ addrs A2 ++ L ∧ ∀ t ∈ x.2, t ∈ addrs A1 ++ addrs A2 ++ L := by
    intro x hx
    rcases List.mem_append.1 hx with h | h
    · exact ⟨by simp [(mem_addrs h).1], fun t ht => by simp [(mem_addrs h).2 t ht]⟩
    · exact ⟨by simp [(mem_addrs h).1], fun t ht => by simp [(mem_addrs h).2 t ht]⟩
  have up : ∀ x ∈ A1 ++ A2, x ∈ A1 ++ (c, []) :: A2 := by
    intro x hx
    simp only [List.mem_append, List.mem_cons] at hx ⊢
    rcases hx with h | h <;> simp [h]
  -- which `tests` fields and sessions change: none
  have keep : ∀ a, a ≠ c → a ∉ A1.map (·.1) → m2.cell a = m1.cell a := fun a _ h => u4 a (fun e => h (baddr a e))
  have sessNot : ∀ a s, Body m1 a = some (some s) → a ∉ A1.map (·.1) := by
    intro a s hb h
    obtain ⟨x, hx, e⟩ := List.mem_map.1 h
    obtain ⟨nx', h', q1, _⟩ := r1.conn x (up x (by simp [hx]))
    rw [← e, body_conn q1] at hb
    cases hb
  refine ⟨e, setCell m2 c none, ?_, ⟨?_, ?_, ?_, ?_, ?_, ?_, ?_⟩, ?_, ?_, ?_, ?_⟩
  · unfold controlClose
    rw [a1]
    show (walk (same c) n m1 .list >>= fun l => _) = _
    rw [w]
    show (load m1 (behind .list (A1.map (·.1))) >>= fun p => _) = _
    rw [ld]
    show (if c = c then _ else _) = _
    rw [if_pos rfl]
    show (load m1 (.next c) >>= fun q => _) = _
    rw [show load m1 (.next c) = .ok (hd (A2.map (·.1))) by simp only [load, hc1, hnx]]
    show (store m1 (behind .list (A1.map (·.1))) (hd (A2.map (·.1))) >>= fun m => _) = _
    rw [u1]
    show (release m2 c >>= fun m => _) = _
    unfold release
    rw [hc2, hc1]
    rfl
  · have hp : m2.list = p2 := by simpa [load] using u2
    show Chain _ m2.list _
    rw [hp, List.map_append]
    refine chain_congr (fun a ha => ?_) u3
    rw [live a (fun e => hcn (by rw [← e]; exact ha))]
  · intro x hx
    obtain ⟨nx', h', q1, q2⟩ := r1.conn x (up x hx)
    have hb : Body (setCell m2 c none) x.1 = some none := by rw [bd x.1 (nc _ (inA x hx).1), body_conn q1]
    -- only `next` may have changed
    have : ∃ nx'', m2.cell x.1 = some ⟨nx'', .conn h'⟩ := by
      rcases behind_addr (A1.map (·.1)) .list with ⟨e, eb⟩ | ⟨l, b, e, eb⟩
      · have : m2.cell x.1 = m1.cell x.1 := u4 x.1 (by rw [eb]; intro h; cases h)
        exact ⟨nx', by rw [this, q1]⟩
      · by_cases hxb : x.1 = b
        · rw [eb] at u1
          simp only [store] at u1
          rw [← hxb, q1] at u1
          cases u1
          exact ⟨_, by simp [setCell]; rfl⟩
        · have : m2.cell x.1 = m1.cell x.1 := u4 x.1 (by rw [eb]; intro h; cases h; exact hxb rfl)
          exact ⟨nx', by rw [this, q1]⟩
    obtain ⟨nx'', hx2⟩ := this
    refine ⟨nx'', h', by rw [live x.1 (nc _ (inA x hx).1), hx2], chain_congr (fun a ha => ?_) q2⟩
    obtain ⟨s, hs, _⟩ := r1.sess x (up x hx) a ha
    have na := nc a ((inA x hx).2 a ha)
    rw [live a na, keep a na (sessNot a s hs)]
  · intro x hx t ht
    obtain ⟨s, q1, q2⟩ := r1.sess x (up x hx) t ht
    exact ⟨s, by rw [bd t (nc t ((inA x hx).2 t ht)), q1], q2⟩
  · intro t ht
    obtain ⟨s, q⟩ := r1.lost t ht
    exact ⟨s, by rw [bd t (nc t (by simp [ht])), q]⟩
  · rw [addrs_append]; exact (List.nodup_cons.1 nd).2
  · intro a ha
    by_cases hac : a = c
    · rw [hac] at ha; simp [setCell] at ha
    · rw [live a hac] at ha
      have h1 : (m1.cell a).isSome := by
        have hb : Body m2 a = Body m1 a := u5 a
        unfold Body at hb
        cases hx : m1.cell a with
        | none =>
          rw [hx] at hb
          cases hy : m2.cell a with
          | none => rw [hy] at ha; cases ha
          | some y => rw [hy] at hb; cases hb
        | some y => rfl
      have := (perm_out A1 A2 c [] L).mem_iff.1 (r1.all a h1)
      rw [List.append_nil] at this
      rcases List.mem_cons.1 this with h | h
      · exact absurd h hac
      · rw [addrs_append]; exact h
  · show m2.recv = 0
    rw [u8 (by simp)]; exact r1.recv
  · show m2.log = _
    rw [u6, a6]
  · intro a ha
    rw [bd a (nc a ha)]
    exact (r.others [] (fun _ h => by cases h) (fun a h _ => a3 a h) a ha).2
  · simp [setCell]
  · intro t ht
    have htc : t ≠ c := by
      intro e
      have := ho.nodup
      rw [List.append_nil] at this
      exact (List.nodup_cons.1 this).1 (e ▸ ht)
    rw [live t htc]
    have h0 : Body m1 t = none := by unfold Body; rw [a4 t ht]; rfl
    have hb : Body m2 t = none := (u5 t).trans h0
    unfold Body at hb
    cases hy : m2.cell t with
    | none => rfl
    | some y => rw [hy] at hb; cases hb

end Owamp.Close
