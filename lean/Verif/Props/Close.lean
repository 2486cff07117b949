import Verif.Lemmas.CloseAll
/-!
# C96: closing a connection or a context ends all its sessions, each once
-/
namespace Owamp.Props
open Owamp.Close Owamp.Spec.Close

/-- Whatever has been done with a context, everything that a program may do next ends, with no use of memory that has been given back; and so does
freeing the context. -/
theorem C96_safe (H : Hooks) (h : List Op) (m : Mem) (hr : Reach H h m) :
    (∀ o, Valid m o → ∃ m', Does H m o m') ∧ ∃ m' n, ∀ j ≥ n, ∀ k ≥ n, contextFree H j k m = .ok m' := by
  obtain ⟨A, L, r⟩ := reach_rep hr
  refine ⟨fun o hv => ?_, ?_⟩
  · obtain ⟨_, _, m', q, _⟩ := step_ok H r o hv
    exact ⟨m', q⟩
  · obtain ⟨m', q, _⟩ := contextFree_ok H A m L ((addrs A).length + A.length + 1) ((addrs A).length + A.length + 1) r (by omega) (by omega)
    exact ⟨m', _, fun j hj k hk => contextFree_ext H hj _ k m hk _ q⟩

theorem closeSum (p : Session → Bool) : ∀ l : List Session, (l.map (fun s => if p s = true then 1 else 0)).sum = l.countP p
  | [] => rfl
  | s :: l => by
    rw [List.map_cons, List.sum_cons, closeSum p l, List.countP_cons]
    omega

/-- If the stop messages that are not given up name as many sessions as receive, freeing the context leaves nothing allocated, and by then each
session that was asked for, whether it was refused or not, has been completed once if it has something to complete, and its file closed once if it
has one. -/
theorem C96_once_partial (H : Hooks) (h : List Op) (m : Mem) (hr : ReachC H h m) :
    ∃ m' n, (∀ j ≥ n, ∀ k ≥ n, contextFree H j k m = .ok m') ∧ (∀ a, m'.cell a = none) ∧
      (∀ i, m'.log.countP (completes i) = (asked h).countP (fun s => H.complete && s.closure && s.sid == i)) ∧
      ∀ i, m'.log.countP (closes i) = (asked h).countP (fun s => s.ep.isSome && s.file && s.sid == i) := by
  obtain ⟨A, r, hb⟩ := reachC_rep hr
  obtain ⟨m', q, r', hc⟩ := contextFree_ok H A m [] ((addrs A).length + A.length + 1) ((addrs A).length + A.length + 1) r (by omega) (by omega)
  refine ⟨m', _, fun j hj k hk => contextFree_ext H hj _ k m hk _ q, fun a => ?_, fun i => ?_, fun i => ?_⟩
  · cases e : m'.cell a with
    | none => rfl
    | some x =>
      have := r'.all a (by rw [e]; rfl)
      simp [addrs] at this
  · rw [hc _ _ (measures_complete H i), hb _ _ (measures_complete H i), ← closeSum]
    simp [and_assoc]
  · rw [hc _ _ (measures_close H i), hb _ _ (measures_close H i), ← closeSum]
    simp [and_assoc]

theorem sessions_of {m : Mem} {A1 A2 : List (Nat × List Nat)} {c : Nat} {ts : List Nat} (r : Rep m (A1 ++ (c, ts) :: A2) []) : Sessions m c ts := by
  obtain ⟨nx, ho⟩ := r.own
  have nd := ho.nodup
  rw [List.append_nil] at nd
  refine ⟨(List.nodup_cons.1 nd).2, fun t => ⟨fun h => ?_, ?_⟩⟩
  · obtain ⟨s, h1, h2⟩ := ho.sess t (by simp [h])
    exact ⟨s, (session_body h1).2, h2⟩
  · rintro ⟨s, ⟨nx', h1⟩, h2⟩
    exact (r.belongs h1 h2).resolve_right (fun h => by cases h)

theorem seenAt_ends (H : Hooks) {m : Mem} {t : Nat} {s : Session} (aval : Int) (h : IsSess m t s) : Ends H s aval (seenAt H m aval t) := by
  obtain ⟨nx, h⟩ := h
  have : Body m t = some (some s) := by unfold Body; rw [h]; rfl
  have e : seenAt H m aval t = seen H s aval := by unfold seenAt; rw [this]
  rw [e]
  exact seen_ends H s aval

theorem kept_of {m m' : Mem} {a : Nat} (h : Body m' a = Body m a) : (IsConn m a ↔ IsConn m' a) ∧ ∀ s, IsSess m a s ↔ IsSess m' a s := by
  have key : ∀ m1 m2 : Mem, Body m1 a = Body m2 a → (IsConn m1 a → IsConn m2 a) ∧ ∀ s, IsSess m1 a s → IsSess m2 a s := by
    intro m1 m2 h
    refine ⟨fun hc => ?_, fun s hs => ?_⟩
    · obtain ⟨nx, hd, e⟩ := hc
      have : Body m2 a = some none := by rw [← h]; unfold Body; rw [e]; rfl
      exact conn_of_body this
    · obtain ⟨nx, e⟩ := hs
      have : Body m2 a = some (some s) := by rw [← h]; unfold Body; rw [e]; rfl
      exact (session_body this).2
  exact ⟨⟨(key m m' h.symm).1, (key m' m h).1⟩, fun s => ⟨(key m m' h.symm).2 s, (key m' m h).2 s⟩⟩

theorem elsewhere {m m' : Mem} {A1 A2 : List (Nat × List Nat)} {c : Nat} {ts : List Nat} (r : Rep m (A1 ++ (c, ts) :: A2) [])
    (r' : ∀ a, (m'.cell a).isSome → a ∈ c :: (addrs A1 ++ addrs A2)) (hb : ∀ a ∈ addrs A1 ++ addrs A2 ++ [], Body m' a = Body m a) (a : Nat) (h1 : a ≠ c)
    (h2 : a ∉ ts) : Body m' a = Body m a := by
  have pm := perm_out A1 A2 c ts []
  by_cases ha : a ∈ addrs A1 ++ addrs A2 ++ []
  · exact hb a ha
  · have e1 : m'.cell a = none := by
      cases e : m'.cell a with
      | none => rfl
      | some x =>
        rcases List.mem_cons.1 (r' a (by rw [e]; rfl)) with g | g
        · exact absurd g h1
        · exact absurd (by simpa using g) ha
    have e2 : m.cell a = none := by
      cases e : m.cell a with
      | none => rfl
      | some x =>
        have := pm.mem_iff.1 (r.all a (by rw [e]; rfl))
        rw [List.cons_append] at this
        rcases List.mem_cons.1 this with g | g
        · exact absurd g h1
        · rcases List.mem_append.1 g with g | g
          · exact absurd g ha
          · exact absurd g h2
    unfold Body
    rw [e1, e2]

/-- Closing a connection ends each of its sessions, with the accept value for a failed connection, gives back their memory and its own, and touches
no other connection and no other session. -/
theorem C96_close_partial (H : Hooks) (h : List Op) (m : Mem) (hr : ReachC H h m) (c : Nat) (hc : IsConn m c) :
    ∃ m' l ev, Does H m (.close c) m' ∧ Sessions m c l ∧ m'.log = m.log ++ l.flatMap ev ∧ (∀ t ∈ l, ∀ s, IsSess m t s → Ends H s 2 (ev t)) ∧
      m'.cell c = none ∧ (∀ t ∈ l, m'.cell t = none) ∧
      ∀ a, a ≠ c → a ∉ l → (IsConn m a ↔ IsConn m' a) ∧ ∀ s, IsSess m a s ↔ IsSess m' a s := by
  obtain ⟨A, r, _⟩ := reachC_rep hr
  obtain ⟨A1, ts, A2, m', e, q1, q2, _, q3, q4, q5, q6⟩ := close_step H r c hc
  subst e
  refine ⟨m', ts, seenAt H m 2, q1, sessions_of r, q3, fun t _ s hs => seenAt_ends H 2 hs, q5, q4, fun a h1 h2 => kept_of ?_⟩
  refine elsewhere r (fun a ha => ?_) q6 a h1 h2
  have := q2.all a ha
  rw [List.append_nil, addrs_append] at this
  exact List.mem_cons_of_mem _ this

/-- Stopping the sessions of a connection ends each of them with the given accept value; the connection stays, with no sessions, and no other
connection and no other session is touched. -/
theorem C96_finish_partial (H : Hooks) (h : List Op) (m : Mem) (hr : ReachC H h m) (c : Nat) (hc : IsConn m c) (aval : Int) :
    ∃ m' l ev, Does H m (.finish c aval) m' ∧ Sessions m c l ∧ m'.log = m.log ++ l.flatMap ev ∧ (∀ t ∈ l, ∀ s, IsSess m t s → Ends H s aval (ev t)) ∧
      IsConn m' c ∧ Sessions m' c [] ∧ (∀ t ∈ l, m'.cell t = none) ∧
      ∀ a, a ≠ c → a ∉ l → (IsConn m a ↔ IsConn m' a) ∧ ∀ s, IsSess m a s ↔ IsSess m' a s := by
  obtain ⟨A, r, _⟩ := reachC_rep hr
  obtain ⟨A1, ts, A2, m', e, q1, q2, _, q3, q4, q5, q6⟩ := finish_ok H r c aval hc
  subst e
  refine ⟨m', ts, seenAt H m aval, q1, sessions_of r, q3, fun t _ s hs => seenAt_ends H aval hs, q5, sessions_of q2, q4, fun a h1 h2 => kept_of ?_⟩
  refine elsewhere r (fun a ha => ?_) q6 a h1 h2
  have := q2.all a ha
  rw [List.append_nil, addrs_append, addrs_cons] at this
  simp only [List.mem_append, List.mem_cons, List.not_mem_nil, or_false] at this ⊢
  rcases this with g | g | g
  · exact .inr (.inl g)
  · exact .inl g
  · exact .inr (.inr g)

/-- Reading a stop message ends no session and frees nothing: what is seen of the sessions does not change. -/
theorem C96_stop (H : Hooks) (h : List Op) (m : Mem) (hr : Reach H h m) (c : Nat) (hc : IsConn m c) (sids : List Nat) (fails : Bool) :
    ∃ m', Does H m (.stop c sids fails) m' ∧ m'.log = m.log ∧ ∀ a, (IsConn m a ↔ IsConn m' a) ∧ ∀ s, IsSess m a s ↔ IsSess m' a s := by
  obtain ⟨A, L, r⟩ := reach_rep hr
  obtain ⟨_, _, m', q1, _, _, q2, q3, _⟩ := stop_ok H r c sids fails hc
  exact ⟨m', q1, q3, fun a => kept_of (q2 a)⟩

/-! ## A message that leaves out a receiver -/

/-- A session that receives, with a process that runs. -/
def closeReceiver (sid : Nat) (c : Nat) : Session :=
  { cntrl := c, sid := sid, closure := true, file := true,
    ep := some { send := false, acceptval := -1, child := true, now := none, ends := fun _ => .exited 0, killOk := true, signalOk := true, skipOk := true } }

/-- A session that is asked for and then left out of the stop message. -/
def leakOps : List Op := [.connect 1, .request 2 (closeReceiver 7 1) none, .stop 1 [] false]

/-- The memory after each. -/
def leakMem : Nat → Mem
  | 0 => fresh
  | n + 1 =>
    match leakOps[n]? with
    | some o => match step ⟨true, true⟩ 9 (leakMem n) o with
      | .ok m => m
      | .error _ => fresh
    | none => fresh

theorem C96_leak : ∃ m m', Reach ⟨true, true⟩ leakOps m ∧ (∀ j ≥ 9, ∀ k ≥ 9, contextFree ⟨true, true⟩ j k m = .ok m') ∧
    IsSess m' 2 (closeReceiver 7 1) ∧ m'.cell 1 = none ∧ m'.list = 0 ∧ m'.log = [] := by
  have r0 : Reach ⟨true, true⟩ [] (leakMem 0) := .nil
  have r1 : Reach ⟨true, true⟩ ([] ++ [.connect 1]) (leakMem 1) := .step _ _ _ _ r0 ⟨by decide, rfl⟩ (does_of (n := 9) rfl)
  have r2 : Reach ⟨true, true⟩ ([] ++ [.connect 1] ++ [.request 2 (closeReceiver 7 1) none]) (leakMem 2) :=
    .step _ _ _ _ r1 ⟨⟨by decide, rfl⟩, 0, 0, rfl⟩ (does_of (n := 9) rfl)
  have r3 : Reach ⟨true, true⟩ ([] ++ [.connect 1] ++ [.request 2 (closeReceiver 7 1) none] ++ [.stop 1 [] false]) (leakMem 3) :=
    .step _ _ _ _ r2 ⟨0, 2, rfl⟩ (does_of (n := 9) rfl)
  have e : ∃ m', contextFree ⟨true, true⟩ 9 9 (leakMem 3) = .ok m' ∧ IsSess m' 2 (closeReceiver 7 1) ∧ m'.cell 1 = none ∧ m'.list = 0 ∧ m'.log = [] :=
    ⟨_, rfl, ⟨0, rfl⟩, rfl, rfl, rfl⟩
  obtain ⟨m', e1, e2⟩ := e
  exact ⟨_, m', r3, fun j hj k hk => contextFree_ext _ hj 9 k _ hk _ e1, e2⟩

/-! ## A case that meets the hypotheses -/

/-- Two connections; on the first a session that is refused and two that receive, of which one is named in a stop message that is given up, and both
in the next; on the second a session that does not leave the list. -/
def closeOps : List Op :=
  [.connect 1, .connect 2, .request 3 (closeReceiver 5 1) (some 1), .request 3 (closeReceiver 7 1) none, .request 4 (closeReceiver 8 1) none,
    .request 5 (closeReceiver 9 2) none, .stop 1 [8] true, .stop 1 [7, 8] false, .finish 1 0]

/-- The memory after each. -/
def closeMem : Nat → Mem
  | 0 => fresh
  | n + 1 =>
    match closeOps[n]? with
    | some o => match step ⟨true, true⟩ 9 (closeMem n) o with
      | .ok m => m
      | .error _ => fresh
    | none => fresh

example : (closeMem 9).log = [.signal 5 true, .waited 5, .closeHook 5 1, .complete 5 1, .signal 8 false, .waited 8, .closeHook 8 0, .complete 8 0,
    .signal 7 false, .waited 7, .closeHook 7 0, .complete 7 0] := rfl

theorem closeMem_reach : ReachC ⟨true, true⟩ closeOps (closeMem 9) := by
  have s : ∀ n (hn : n < 9), ReachC ⟨true, true⟩ (closeOps.take n) (closeMem n) → Valid (closeMem n) (closeOps[n]'hn) → Counts (closeMem n) (closeOps[n]'hn) →
      step ⟨true, true⟩ 9 (closeMem n) (closeOps[n]'hn) = .ok (closeMem (n + 1)) → ReachC ⟨true, true⟩ (closeOps.take (n + 1)) (closeMem (n + 1)) := by
    intro n hn hr hv hc hd
    rw [List.take_succ_eq_append_getElem hn]
    exact .step _ _ _ _ hr hv hc (does_of hd)
  have r1 := s 0 (by decide) .nil ⟨by decide, rfl⟩ trivial rfl
  have r2 := s 1 (by decide) r1 ⟨by decide, rfl⟩ trivial rfl
  have r3 := s 2 (by decide) r2 ⟨⟨by decide, rfl⟩, _, _, rfl⟩ trivial rfl
  have r4 := s 3 (by decide) r3 ⟨⟨by decide, rfl⟩, _, _, rfl⟩ trivial rfl
  have r5 := s 4 (by decide) r4 ⟨⟨by decide, rfl⟩, _, _, rfl⟩ trivial rfl
  have r6 := s 5 (by decide) r5 ⟨⟨by decide, rfl⟩, _, _, rfl⟩ trivial rfl
  have r7 := s 6 (by decide) r6 ⟨_, _, rfl⟩ trivial rfl
  have c8 : Counts (closeMem 7) (.stop 1 [7, 8] false) := by
    refine ⟨[3, 4], ⟨by decide, fun t => ⟨fun h => ?_, ?_⟩⟩, rfl⟩
    · rcases List.mem_cons.1 h with h | h
      · subst h; exact ⟨closeReceiver 7 1, _, ⟨_, rfl⟩, rfl, rfl, rfl⟩
      · have := List.mem_singleton.1 h
        subst this; exact ⟨closeReceiver 8 1, _, ⟨_, rfl⟩, rfl, rfl, rfl⟩
    · rintro ⟨s, e, ⟨nx, h1⟩, h2, _⟩
      match t, h1 with
      | 0, h1 => exact absurd h1 (fun h => by cases h)
      | 1, h1 => exact absurd h1 (fun h => by cases h)
      | 2, h1 => exact absurd h1 (fun h => by cases h)
      | 3, _ => decide
      | 4, _ => decide
      | 5, h1 => cases h1; cases h2
      | n + 6, h1 => exact absurd h1 (fun h => by cases h)
  have r8 := s 7 (by decide) r7 ⟨_, _, rfl⟩ c8 rfl
  exact s 8 (by decide) r8 ⟨_, _, rfl⟩ trivial rfl

example := C96_close_partial _ _ _ closeMem_reach 2 ⟨_, _, rfl⟩
example : ∃ m', contextFree ⟨true, true⟩ 9 9 (closeMem 9) = .ok m' ∧ m'.log.countP (completes 9) = 1 ∧ m'.log.countP (closes 7) = 1 := ⟨_, rfl, rfl, rfl⟩

end Owamp.Props
