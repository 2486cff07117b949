import Verif.Lemmas.CloseFuel
/-!
# Histories of a context
-/
namespace Owamp.Close
open Owamp.Spec.Close

theorem total_split (f : Session → Nat) (m : Mem) (A1 A2 : List (Nat × List Nat)) (c : Nat) (ts L : List Nat) :
    total f m (sess (A1 ++ (c, ts) :: A2) ++ L) = total f m (sess A1 ++ sess A2 ++ L) + total f m ts := by
  rw [total_perm f m (sess_perm A1 A2 c ts L), total_append]

/-- What an operation does to the count of events. -/
def Balance (H : Hooks) (m m' : Mem) (A A' : List (Nat × List Nat)) (L L' : List Nat) (o : Op) : Prop :=
  ∀ ev f, Measures H ev f → m'.log.countP ev + total f m' (sess A' ++ L') = m.log.countP ev + total f m (sess A ++ L) + ((asked [o]).map f).sum

theorem connect_ok (H : Hooks) {m : Mem} {A : List (Nat × List Nat)} {L : List Nat} (r : Rep m A L) (a : Nat) (hf : Free m a) :
    Rep (controlAlloc m a) ((a, []) :: A) L ∧ Balance H m (controlAlloc m a) A ((a, []) :: A) L L (.connect a) := by
  have na : a ∉ addrs A ++ L := fun h => by have := r.cells a h; rw [hf.2] at this; cases this
  have hcell : ∀ b, b ≠ a → (controlAlloc m a).cell b = m.cell b := fun b hb => by simp [controlAlloc, setCell, hb]
  have same : ∀ b ∈ addrs A ++ L, (controlAlloc m a).cell b = m.cell b ∧ Body (controlAlloc m a) b = Body m b := by
    intro b hb
    have e := hcell b (fun e => na (e ▸ hb))
    exact ⟨e, by unfold Body; rw [e]⟩
  have inA : ∀ x ∈ A, x.1 ∈ addrs A ++ L ∧ ∀ t ∈ x.2, t ∈ addrs A ++ L :=
    fun x hx => ⟨List.mem_append_left _ (mem_addrs hx).1, fun t ht => List.mem_append_left _ ((mem_addrs hx).2 t ht)⟩
  have ca : (controlAlloc m a).cell a = some ⟨m.list, .conn 0⟩ := by simp [controlAlloc, setCell]
  refine ⟨⟨⟨rfl, hf.1, _, ca, ?_⟩, ?_, ?_, ?_, ?_, ?_, r.recv⟩, ?_⟩
  · refine chain_congr (fun b hb => ?_) r.chain
    obtain ⟨x, hx, e⟩ := List.mem_map.1 hb
    rw [← e, (same x.1 (inA x hx).1).1]
  · intro x hx
    rcases List.mem_cons.1 hx with h | h
    · rw [h]; exact ⟨_, _, ca, rfl⟩
    · obtain ⟨nx, h', q1, q2⟩ := r.conn x h
      exact ⟨nx, h', by rw [(same x.1 (inA x h).1).1, q1], chain_congr (fun b hb => by rw [(same b ((inA x h).2 b hb)).1]) q2⟩
  · intro x hx t ht
    rcases List.mem_cons.1 hx with h | h
    · rw [h] at ht; cases ht
    · rw [(same t ((inA x h).2 t ht)).2]; exact r.sess x h t ht
  · intro t ht; rw [(same t (List.mem_append_right _ ht)).2]; exact r.lost t ht
  · rw [addrs_cons]; exact List.nodup_cons.2 ⟨na, r.nodup⟩
  · intro b hb
    rw [addrs_cons]
    by_cases h : b = a
    · simp [h]
    · rw [hcell b h] at hb
      exact List.mem_cons_of_mem _ (r.all b hb)
  · intro ev f _
    show m.log.countP ev + total f _ (sess A ++ L) = _
    rw [total_congr f (m := m)]
    · simp [asked]
    · intro t ht
      refine (same t ?_).2
      rcases List.mem_append.1 ht with h | h
      · exact List.mem_append_left _ (sess_sub _ t h)
      · exact List.mem_append_right _ h

theorem request_ok (H : Hooks) {m : Mem} {A : List (Nat × List Nat)} {L : List Nat} (r : Rep m A L) (t : Nat) (s : Session) (hf : Free m t)
    (hc : IsConn m s.cntrl) :
    ∃ A' m', (∀ k, step H k m (.request t s none) = .ok m') ∧ Rep m' A' L ∧ Balance H m m' A A' L L (.request t s none) := by
  obtain ⟨A1, ts, A2, e⟩ := r.find hc
  subst e
  obtain ⟨nx, ho⟩ := r.own
  have hcell : ∀ b, b ≠ t → (sessionAlloc m t s).cell b = m.cell b := fun b hb => by simp [sessionAlloc, setCell, hb]
  have liv : ∀ a, (m.cell a).isSome → a ≠ t := fun a h e => by rw [e, hf.2] at h; cases h
  obtain ⟨h, hc1, hl⟩ := ho.conn
  have nd := ho.nodup
  rw [List.append_nil] at nd
  have tsliv : ∀ a ∈ ts, a ≠ t := fun a ha => liv a (chain_mem hl a ha).2
  have htc : t ≠ s.cntrl := fun e => liv s.cntrl (by rw [hc1]; rfl) e.symm
  obtain ⟨m', p1, p2, p3, p4, p5⟩ := push_ok (m := sessionAlloc m t s) (t := t) (x := ⟨0, .sess s⟩) (ts := ts)
    (by rw [hcell _ (liv s.cntrl (by rw [hc1]; rfl)), hc1])
    (chain_congr (fun a ha => by rw [hcell a (tsliv a ha)]) hl) hf.1 htc (fun h => tsliv t h rfl) (List.nodup_cons.1 nd).1
    (by simp [sessionAlloc, setCell])
  have bt : Body m' t = some (some s) := by
    rw [p4.body]; unfold Body sessionAlloc setCell; simp
  have bo : ∀ a, a ≠ t → Body m' a = Body m a := fun a ha => by rw [p4.body]; unfold Body; rw [hcell a ha]
  have own' : Own m' s.cntrl nx (t :: ts) [] := by
    refine ⟨⟨t, p2, p3⟩, ?_, ?_, ?_⟩
    · show m'.recv = 0
      rw [p5]; exact r.recv
    · intro a ha
      rw [List.append_nil] at ha
      rcases List.mem_cons.1 ha with h | h
      · exact ⟨s, by rw [h, bt], rfl⟩
      · obtain ⟨s', q1, q2⟩ := ho.sess a (by simp [h])
        exact ⟨s', by rw [bo a (tsliv a h), q1], q2⟩
    · rw [List.append_nil]
      refine List.nodup_cons.2 ⟨?_, List.nodup_cons.2 ⟨fun h => tsliv t h rfl, (List.nodup_cons.1 nd).2⟩⟩
      intro hh
      rcases List.mem_cons.1 hh with h | h
      · exact htc h.symm
      · exact (List.nodup_cons.1 nd).1 h
  have cells : ∀ a, a ∉ s.cntrl :: ts → a ∉ [t] → m'.cell a = m.cell a := by
    intro a h1 h2
    rw [List.mem_singleton] at h2
    rw [p4.cell a (by simp only [List.mem_cons, not_or] at h1; simp [h1.1, h2]), hcell a h2]
  have hnew : ∀ a ∈ [t], m.cell a = none := fun a ha => by rw [List.mem_singleton.1 ha]; exact hf.2
  have r' := r.update (ts' := t :: ts) ho own' p4.list [t] [] cells hnew
    (fun a ha => by rw [List.append_nil] at ha; rcases List.mem_cons.1 ha with h | h <;> simp [h])
    (by rw [List.append_nil]; exact List.nodup_cons.2 ⟨fun h => tsliv t h rfl, (List.nodup_cons.1 nd).2⟩) (fun _ h => by cases h)
    (fun a ha _ => by rw [List.append_nil]; rcases List.mem_append.1 ha with h | h <;> simp at h ⊢ <;> simp [h])
  rw [List.append_nil] at r'
  refine ⟨_, m', fun k => p1, r', ?_⟩
  intro ev f _
  have oth := r.others [t] hnew cells
  rw [total_split, total_split, total_cons,
    total_congr f (m := m) (m' := m') (fun a ha => (oth a (rest_sub a ha)).2), total_congr f (m := m) (m' := m') (fun a ha => bo a (tsliv a ha)), p4.log]
  have : weight f m' t = f s := by unfold weight; rw [bt]
  rw [this]
  simp [asked, sessionAlloc, setCell]
  omega

theorem refused_ok (H : Hooks) {m : Mem} {A : List (Nat × List Nat)} {L : List Nat} (r : Rep m A L) (t : Nat) (s : Session) (aval : Int) (hf : Free m t)
    (hc : IsConn m s.cntrl) :
    ∃ m', Does H m (.request t s (some aval)) m' ∧ Rep m' A L ∧ Balance H m m' A A L L (.request t s (some aval)) ∧
      m'.cell = m.cell ∧ m'.log = m.log ++ seen H s aval := by
  obtain ⟨A1, ts, A2, e⟩ := r.find hc
  subst e
  obtain ⟨nx, ho⟩ := r.own
  have hcell : ∀ b, b ≠ t → (sessionAlloc m t s).cell b = m.cell b := fun b hb => by simp [sessionAlloc, setCell, hb]
  have liv : ∀ a, (m.cell a).isSome → a ≠ t := fun a h e => by rw [e, hf.2] at h; cases h
  obtain ⟨h, hc1, hl⟩ := ho.conn
  have nd := ho.nodup
  rw [List.append_nil] at nd
  have tsliv : ∀ a ∈ ts, a ≠ t := fun a ha => liv a (chain_mem hl a ha).2
  have ho1 : Own (sessionAlloc m t s) s.cntrl nx ts [] := by
    refine ⟨⟨h, by rw [hcell _ (liv s.cntrl (by rw [hc1]; rfl)), hc1], chain_congr (fun a ha => by rw [hcell a (tsliv a ha)]) hl⟩, ho.recv, ?_, ho.nodup⟩
    intro a ha
    obtain ⟨s', q1, q2⟩ := ho.sess a ha
    rw [List.append_nil] at ha
    exact ⟨s', by unfold Body at q1 ⊢; rw [hcell a (tsliv a ha), q1], q2⟩
  have bt : Body (sessionAlloc m t s) t = some (some s) := by unfold Body sessionAlloc setCell; simp
  have key : ∀ k ≥ ts.length + 1, ∃ m', testSessionFree H k (sessionAlloc m t s) t aval = .ok ((endpointFree H s aval).1, m') ∧ m'.cell = m.cell ∧
      m'.list = m.list ∧ m'.recv = m.recv ∧ m'.log = m.log ++ seen H s aval := by
    intro k hk
    obtain ⟨m', q1, q2, q3, q4, q5, q6⟩ := freeLoose_ok H (n := k) ho1 bt rfl hf.1 (fun h => tsliv t h rfl) aval hk
    refine ⟨m', q1, funext fun a => ?_, q4, q5, q6⟩
    by_cases ha : a = t
    · rw [ha, q3, hf.2]
    · rw [q2 a ha, hcell a ha]
  obtain ⟨m', _, k2, k3, k4, k5⟩ := key _ (Nat.le_refl _)
  refine ⟨m', ⟨ts.length + 1, fun k hk => ?_⟩, r.congr k2 k3 k4, ?_, k2, k5⟩
  · obtain ⟨m'', j1, j2, j3, j4, j5⟩ := key k hk
    have : m'' = m' := by
      cases m''; cases m'; simp only [Mem.mk.injEq]
      exact ⟨j2.trans k2.symm, j3.trans k3.symm, j4.trans k4.symm, j5.trans k5.symm⟩
    rw [this] at j1
    simp only [step, j1]
    rfl
  · intro ev f hm
    rw [k5, List.countP_append, hm.1, total_congr f (m := m) (fun a _ => by unfold Body; rw [k2])]
    simp [asked]
    omega

theorem change_ok (H : Hooks) {m : Mem} {A : List (Nat × List Nat)} {L : List Nat} (r : Rep m A L) (t : Nat) (e : Owamp.Local.Ep) (s : Session)
    (hs : IsSess m t s) (he : s.ep.isSome) :
    ∃ m', (∀ k, step H k m (.change t e) = .ok m') ∧ Rep m' A L ∧ Balance H m m' A A L L (.change t e) := by
  obtain ⟨nx, hc⟩ := hs
  have bt0 : Body m t = some (some s) := by unfold Body; rw [hc]; rfl
  let m' := setCell m t (some ⟨nx, .sess { s with ep := some e }⟩)
  have ct : m'.cell t = some ⟨nx, .sess { s with ep := some e }⟩ := by simp [m', setCell]
  have co : ∀ a, a ≠ t → m'.cell a = m.cell a := fun a ha => by simp [m', setCell, ha]
  have bt : Body m' t = some (some { s with ep := some e }) := by unfold Body; rw [ct]; rfl
  have bo : ∀ a, a ≠ t → Body m' a = Body m a := fun a ha => by unfold Body; rw [co a ha]
  have nxt : ∀ a, (m'.cell a).map (·.next) = (m.cell a).map (·.next) := by
    intro a
    by_cases ha : a = t
    · rw [ha, ct, hc]; rfl
    · rw [co a ha]
  have bs : ∀ a s', Body m a = some (some s') → ∃ s'', Body m' a = some (some s'') ∧ s''.cntrl = s'.cntrl := by
    intro a s' h
    by_cases ha : a = t
    · subst ha
      rw [bt0] at h
      cases h
      exact ⟨_, bt, rfl⟩
    · exact ⟨s', by rw [bo a ha, h], rfl⟩
  refine ⟨m', fun k => by simp only [step, change, hc]; rfl, ⟨chain_congr (fun a _ => nxt a) r.chain, ?_, ?_, ?_, r.nodup, ?_, r.recv⟩, ?_⟩
  · intro x hx
    obtain ⟨nx', h', q1, q2⟩ := r.conn x hx
    have : x.1 ≠ t := fun e' => by rw [e', hc] at q1; cases q1
    exact ⟨nx', h', by rw [co x.1 this, q1], chain_congr (fun a _ => nxt a) q2⟩
  · intro x hx a ha
    obtain ⟨s', q1, q2⟩ := r.sess x hx a ha
    obtain ⟨s'', q3, q4⟩ := bs a s' q1
    exact ⟨s'', q3, q4.trans q2⟩
  · intro a ha
    obtain ⟨s', q1⟩ := r.lost a ha
    obtain ⟨s'', q3, _⟩ := bs a s' q1
    exact ⟨s'', q3⟩
  · intro a ha
    apply r.all
    by_cases h : a = t
    · rw [h, hc]; rfl
    · rwa [co a h] at ha
  · intro ev f hm
    have : ∀ l, total f m' l = total f m l := by
      intro l
      induction l with
      | nil => rfl
      | cons a l ih =>
        rw [total_cons, total_cons, ih]
        congr 1
        by_cases h : a = t
        · unfold weight; rw [h, bt, bt0]; exact hm.2 s e he
        · unfold weight; rw [bo a h]
    rw [this]
    simp [asked]
    rfl

theorem Rep.belongs {m : Mem} {A1 A2 : List (Nat × List Nat)} {c t nx : Nat} {ts L : List Nat} {s : Session} (r : Rep m (A1 ++ (c, ts) :: A2) L)
    (h1 : m.cell t = some ⟨nx, .sess s⟩) (h2 : s.cntrl = c) : t ∈ ts ∨ t ∈ L := by
  have nd := (perm_out A1 A2 c ts L).nodup_iff.1 r.nodup
  rw [List.cons_append] at nd
  have nc : c ∉ addrs A1 ++ addrs A2 := fun h => (List.nodup_cons.1 nd).1 (List.mem_append_left _ (List.mem_append_left _ h))
  rcases List.mem_append.1 (r.all t (by rw [h1]; rfl)) with h | h
  · obtain ⟨x, hx, hm⟩ := List.mem_flatMap.1 h
    rcases List.mem_cons.1 hm with e | e
    · obtain ⟨_, _, q, _⟩ := r.conn x hx
      rw [← e, h1] at q
      cases q
    · obtain ⟨s', q1, q2⟩ := r.sess x hx t e
      have : Body m t = some (some s) := by unfold Body; rw [h1]; rfl
      rw [this] at q1
      cases q1
      have hxc : x.1 = c := q2.symm.trans h2
      rcases List.mem_append.1 hx with g | g
      · exact absurd (List.mem_append_left _ (hxc ▸ (mem_addrs g).1)) nc
      · rcases List.mem_cons.1 g with g | g
        · rw [g] at e; exact .inl e
        · exact absurd (List.mem_append_right _ (hxc ▸ (mem_addrs g).1)) nc
  · exact .inr h

theorem stop_ok (H : Hooks) {m : Mem} {A : List (Nat × List Nat)} {L : List Nat} (r : Rep m A L) (c : Nat) (sids : List Nat) (fails : Bool) (hc : IsConn m c) :
    ∃ A' L' m', Does H m (.stop c sids fails) m' ∧ Rep m' A' L' ∧ Balance H m m' A A' L L' (.stop c sids fails) ∧
      (∀ a, Body m' a = Body m a) ∧ m'.log = m.log ∧ (Counts m (.stop c sids fails) → L = [] → L' = []) := by
  obtain ⟨A1, ts, A2, e⟩ := r.find hc
  subst e
  obtain ⟨nx, ho⟩ := r.own
  obtain ⟨b, m', ts', lost, q1, q2, q3, q4, _, q5, q6⟩ := readStop_ok ho sids fails (Nat.lt_succ_self ts.length)
  have nd := ho.nodup
  rw [List.append_nil] at nd
  have hmem : ∀ t, t ∈ ts' ++ lost ↔ t ∈ ts := fun t => q4.mem_iff
  have cells : ∀ a, a ∉ c :: ts → a ∉ ([] : List Nat) → m'.cell a = m.cell a := fun a h _ => q3.cell a h
  have r' := r.update ho q2 q3.list [] lost cells (fun _ h => by cases h) (fun t ht => .inl ((hmem t).1 ht))
    (q4.nodup_iff.2 (List.nodup_cons.1 nd).2) (fun t ht => by
      obtain ⟨s, hs, _⟩ := ho.sess t (List.mem_append_left _ ((hmem t).1 (List.mem_append_right _ ht)))
      exact ⟨s, by rw [q3.body, hs]⟩) (fun a ha _ => by rw [List.append_nil] at ha; exact (hmem a).2 ha)
  refine ⟨_, _, m', does_of (n := ts.length + 1) (by simp only [step, q1]; rfl), r', ?_, q3.body, q3.log, ?_⟩
  · intro ev f _
    have e : ∀ l, total f m' l = total f m l := fun l => total_congr f (fun a _ => q3.body a)
    rw [e, total_split, total_split, q3.log, ← List.append_assoc (sess A1 ++ sess A2), total_append]
    have := total_perm f m q4
    rw [total_append] at this
    simp [asked]
    omega
  · intro hco hL
    subst hL
    rw [List.nil_append]
    cases fails with
    | true => exact q5 rfl
    | false =>
      obtain ⟨l, ⟨l1, l2⟩, l3⟩ := hco
      refine q6 ⟨l, l1, fun t => (l2 t).trans ⟨?_, ?_⟩, l3⟩
      · rintro ⟨s, e, ⟨nx', h1⟩, h2, h3, h4⟩
        have hb : Body m t = some (some s) := by unfold Body; rw [h1]; rfl
        refine ⟨?_, s, e, hb, h3, h4⟩
        exact (r.belongs h1 h2).resolve_right (fun h => by cases h)
      · rintro ⟨h1, s, e, h2, h3, h4⟩
        obtain ⟨s', g1, g2⟩ := ho.sess t (by simp [h1])
        rw [h2] at g1
        cases g1
        exact ⟨s, e, (session_body h2).2, g2, h3, h4⟩

theorem finish_ok (H : Hooks) {m : Mem} {A : List (Nat × List Nat)} {L : List Nat} (r : Rep m A L) (c : Nat) (aval : Int) (hc : IsConn m c) :
    ∃ A1 ts A2 m', A = A1 ++ (c, ts) :: A2 ∧ Does H m (.finish c aval) m' ∧ Rep m' (A1 ++ (c, []) :: A2) L ∧
      Balance H m m' A (A1 ++ (c, []) :: A2) L L (.finish c aval) ∧ m'.log = m.log ++ ts.flatMap (seenAt H m aval) ∧
      (∀ t ∈ ts, m'.cell t = none) ∧ IsConn m' c ∧ ∀ a ∈ addrs A1 ++ addrs A2 ++ L, Body m' a = Body m a := by
  obtain ⟨A1, ts, A2, e⟩ := r.find hc
  subst e
  obtain ⟨nx, ho⟩ := r.own
  obtain ⟨e, m', q1, q2, q3, q4, q5, q6⟩ := freeTests_ok H (ts.length + 1) c nx aval (by omega) ts (ts.length + 1) m Local.allOk ho (by omega)
  have cells : ∀ a, a ∉ c :: ts → a ∉ ([] : List Nat) → m'.cell a = m.cell a := fun a h _ => q3 a h
  have oth := r.others [] (fun _ h => by cases h) cells
  have r' := r.update (ts' := []) ho q2 q5 [] [] cells (fun _ h => by cases h) (fun t ht => by cases ht) (by simp) (fun t ht => by cases ht)
    (fun a ha h => by rw [List.append_nil] at ha; rw [q4 a ha] at h; cases h)
  rw [List.append_nil] at r'
  obtain ⟨h', hc', _⟩ := q2.conn
  refine ⟨A1, ts, A2, m', rfl, does_of (n := ts.length + 1) (by simp only [step, q1]; rfl), r', ?_, q6, q4, ⟨nx, h', hc'⟩, fun a ha => (oth a ha).2⟩
  intro ev f hm
  rw [total_split, total_split, q6, List.countP_append, count_seenAt hm, total_congr f (m := m) (m' := m') (fun a ha => (oth a (rest_sub a ha)).2)]
  simp [asked, total]
  omega

theorem close_step (H : Hooks) {m : Mem} {A : List (Nat × List Nat)} {L : List Nat} (r : Rep m A L) (c : Nat) (hc : IsConn m c) :
    ∃ A1 ts A2 m', A = A1 ++ (c, ts) :: A2 ∧ Does H m (.close c) m' ∧ Rep m' (A1 ++ A2) L ∧ Balance H m m' A (A1 ++ A2) L L (.close c) ∧
      m'.log = m.log ++ ts.flatMap (seenAt H m 2) ∧ (∀ t ∈ ts, m'.cell t = none) ∧ m'.cell c = none ∧
      ∀ a ∈ addrs A1 ++ addrs A2 ++ L, Body m' a = Body m a := by
  obtain ⟨A1, ts, A2, e⟩ := r.find hc
  subst e
  obtain ⟨e, m', q1, q2, q3, q4, q5, q6⟩ := close_ok H r (Nat.lt_succ_self _)
  refine ⟨A1, ts, A2, m', rfl, does_of (n := (addrs (A1 ++ (c, ts) :: A2)).length + 1) (by simp only [step, q1]; rfl), q2, ?_, q3, q6, q5, q4⟩
  intro ev f hm
  have : sess (A1 ++ A2) = sess A1 ++ sess A2 := by simp [sess]
  rw [total_split, q3, List.countP_append, count_seenAt hm, this, total_congr f (m := m) (m' := m') (fun a ha => q4 a (rest_sub a ha))]
  simp [asked]
  omega

theorem step_ok (H : Hooks) {m : Mem} {A : List (Nat × List Nat)} {L : List Nat} (r : Rep m A L) (o : Op) (hv : Valid m o) :
    ∃ A' L' m', Does H m o m' ∧ Rep m' A' L' ∧ Balance H m m' A A' L L' o ∧ (Counts m o → L = [] → L' = []) := by
  cases o with
  | connect a =>
    obtain ⟨q1, q2⟩ := connect_ok H r a hv
    exact ⟨_, L, _, does_of (n := 0) rfl, q1, q2, fun _ h => h⟩
  | request t s refused =>
    cases refused with
    | none =>
      obtain ⟨A', m', q1, q2, q3⟩ := request_ok H r t s hv.1 hv.2
      exact ⟨A', L, m', does_of (q1 0), q2, q3, fun _ h => h⟩
    | some aval =>
      obtain ⟨m', q1, q2, q3, _⟩ := refused_ok H r t s aval hv.1 hv.2
      exact ⟨A, L, m', q1, q2, q3, fun _ h => h⟩
  | change t e =>
    obtain ⟨s, h1, h2⟩ := hv
    obtain ⟨m', q1, q2, q3⟩ := change_ok H r t e s h1 h2
    exact ⟨A, L, m', does_of (q1 0), q2, q3, fun _ h => h⟩
  | stop c sids fails =>
    obtain ⟨A', L', m', q1, q2, q3, _, _, q4⟩ := stop_ok H r c sids fails hv
    exact ⟨A', L', m', q1, q2, q3, q4⟩
  | finish c aval =>
    obtain ⟨A1, ts, A2, m', _, q1, q2, q3, _⟩ := finish_ok H r c aval hv
    exact ⟨_, L, m', q1, q2, q3, fun _ h => h⟩
  | close c =>
    obtain ⟨A1, ts, A2, m', _, q1, q2, q3, _⟩ := close_step H r c hv
    exact ⟨_, L, m', q1, q2, q3, fun _ h => h⟩

theorem rep_fresh : Rep fresh [] [] :=
  ⟨rfl, (fun _ h => by cases h), (fun _ h => by cases h), (fun _ h => by cases h), by simp [addrs], (fun a h => by cases h), rfl⟩

theorem asked_append : ∀ (h h' : List Op), asked (h ++ h') = asked h ++ asked h'
  | [], _ => rfl
  | .request _ s _ :: h, h' => by simp [asked, asked_append h h']
  | .connect _ :: h, h' => by simp [asked, asked_append h h']
  | .change _ _ :: h, h' => by simp [asked, asked_append h h']
  | .stop _ _ _ :: h, h' => by simp [asked, asked_append h h']
  | .finish _ _ :: h, h' => by simp [asked, asked_append h h']
  | .close _ :: h, h' => by simp [asked, asked_append h h']

theorem reach_rep {H : Hooks} {h : List Op} {m : Mem} (hr : Reach H h m) : ∃ A L, Rep m A L := by
  induction hr with
  | nil => exact ⟨[], [], rep_fresh⟩
  | step h m m' o _ hv hd ih =>
    obtain ⟨A, L, r⟩ := ih
    obtain ⟨A', L', m1, q1, q2, _⟩ := step_ok H r o hv
    rw [does_unique hd q1]
    exact ⟨A', L', q2⟩

theorem reachC_rep {H : Hooks} {h : List Op} {m : Mem} (hr : ReachC H h m) :
    ∃ A, Rep m A [] ∧ ∀ ev f, Measures H ev f → m.log.countP ev + total f m (sess A) = ((asked h).map f).sum := by
  induction hr with
  | nil => exact ⟨[], rep_fresh, fun _ _ _ => rfl⟩
  | step h m m' o _ hv hc hd ih =>
    obtain ⟨A, r, hb⟩ := ih
    obtain ⟨A', L', m1, q1, q2, q3, q4⟩ := step_ok H r o hv
    rw [does_unique hd q1]
    have := q4 hc rfl
    subst this
    refine ⟨A', q2, fun ev f hm => ?_⟩
    have := q3 ev f hm
    rw [List.append_nil, List.append_nil, hb ev f hm] at this
    rw [this, asked_append, List.map_append, List.sum_append]

/-- `OWPContextFree`. -/
theorem contextFree_ok (H : Hooks) : ∀ (A : List (Nat × List Nat)) (m : Mem) (L : List Nat) (n k : Nat), Rep m A L → (addrs A).length < n → A.length < k →
    ∃ m', contextFree H n k m = .ok m' ∧ Rep m' [] L ∧ ∀ ev f, Measures H ev f → m'.log.countP ev = m.log.countP ev + total f m (sess A) := by
  intro A
  induction A with
  | nil =>
    intro m L n k r _ hk
    obtain ⟨k, rfl⟩ : ∃ j, k = j + 1 := ⟨k - 1, by simp at hk; omega⟩
    exact ⟨m, by rw [contextFree, if_pos (show m.list = 0 from r.chain)], r, fun ev f _ => by simp [sess, total]⟩
  | cons x A ih =>
    intro m L n k r hn hk
    obtain ⟨k, rfl⟩ : ∃ j, k = j + 1 := ⟨k - 1, by simp at hk; omega⟩
    obtain ⟨c, ts⟩ := x
    obtain ⟨e, m1, q1, q2, q3, q4, _⟩ := close_ok (A1 := []) H r hn
    obtain ⟨hl, hc0, _⟩ := r.chain
    have hl : m.list = c := hl
    rw [List.nil_append] at q2
    have hle : (addrs A).length ≤ (addrs ((c, ts) :: A)).length := by rw [addrs_cons]; simp; omega
    obtain ⟨m2, p1, p2, p3⟩ := ih m1 L n k q2 (Nat.lt_of_le_of_lt hle hn) (by simp at hk; omega)
    refine ⟨m2, ?_, p2, fun ev f hm => ?_⟩
    · rw [contextFree, if_neg (by rw [hl]; exact hc0), hl, q1]
      exact p1
    · rw [p3 ev f hm, q3, List.countP_append, count_seenAt hm, total_congr f (m := m) (m' := m1) (fun a ha => q4 a ?_)]
      · have : sess ((c, ts) :: A) = ts ++ sess A := by simp [sess]
        rw [this, total_append]; omega
      · simp only [addrs, List.flatMap_nil, List.nil_append]
        exact List.mem_append_left _ (sess_sub A a ha)

/-! ## What is counted -/

theorem measures_complete (H : Hooks) (i : Nat) : Measures H (completes i) (fun s => if H.complete = true ∧ s.closure = true ∧ s.sid = i then 1 else 0) := by
  refine ⟨fun s aval => ?_, fun s e _ => rfl⟩
  have h1 : ((endpointFree H s aval).2).countP (completes i) = 0 := by
    unfold endpointFree
    cases s.ep with
    | none => rfl
    | some e =>
      dsimp only
      unfold stopSeen callClose
      repeat' split
      all_goals rfl
  unfold seen
  rw [List.countP_append, h1]
  unfold callComplete
  cases hc : s.closure <;> cases H.complete <;> simp [completes, hc]

theorem measures_close (H : Hooks) (i : Nat) : Measures H (closes i) (fun s => if s.ep.isSome = true ∧ s.file = true ∧ s.sid = i then 1 else 0) := by
  refine ⟨fun s aval => ?_, fun s e he => by simp [he]⟩
  have h2 : ∀ b : Bool, (if b then callComplete H s.sid aval else []).countP (closes i) = 0 := by
    intro b
    unfold callComplete
    cases b <;> cases H.complete <;> rfl
  unfold seen
  rw [List.countP_append, h2]
  unfold endpointFree
  cases he : s.ep with
  | none => simp [he]
  | some e =>
    dsimp only
    have h1 : (stopSeen s.sid e aval).countP (closes i) = 0 := by
      unfold stopSeen
      repeat' split
      all_goals rfl
    rw [List.countP_append, h1]
    unfold callClose
    cases hf : s.file <;> cases H.close <;> simp [closes, he]

theorem seen_ends (H : Hooks) (s : Session) (aval : Int) : Ends H s aval (seen H s aval) := by
  unfold seen endpointFree Ends
  have hp : (if s.closure = true then callComplete H s.sid aval else []) =
      if s.closure = true ∧ H.complete = true then [.complete s.sid aval] else [] := by
    unfold callComplete
    cases s.closure <;> cases H.complete <;> rfl
  rw [hp]
  cases he : s.ep with
  | none => exact ⟨[], [], _, rfl, by simp, by simp, by simp, by simp, by simp, by simp, rfl⟩
  | some e =>
    dsimp only
    refine ⟨_, _, _, rfl, ?_, ?_, ?_, ?_, ?_, ?_, rfl⟩
    · rintro _ ⟨⟩ h1 h2 h3
      unfold stopSeen
      rw [if_neg (by rw [h2]; simp; omega), if_pos h3]
    · rintro _ ⟨⟩ h1 h2 h3
      unfold stopSeen
      rw [if_neg (by rw [h2]; simp; omega), h3]
      rfl
    · intro h
      unfold stopSeen
      rw [if_pos (h e rfl)]
    · intro _ h1 h2
      rw [if_pos h1]
      unfold callClose
      rw [if_pos h2]
      refine ⟨_, rfl, fun h => ?_, ?_⟩
      · unfold Local.endpointStop
        repeat' split
        all_goals first | rfl | (exact absurd ‹aval = 0› h)
      · rintro _ ⟨⟩ h0 ha
        unfold Local.endpointStop
        rw [if_pos (.inl ha), if_pos h0]
    · intro _ h1 h2
      rw [if_pos h1]
      unfold callClose
      rw [h2]
      rfl
    · intro h
      rw [if_neg (fun hf => h ⟨rfl, hf⟩)]

end Owamp.Close
