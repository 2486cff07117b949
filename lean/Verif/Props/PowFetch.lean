import Verif.Spec.PowFetch
import Verif.Props.Fetch
import Verif.Lemmas.More
/-!
# C110: any number of fetches over one connection
-/
namespace Owamp.Props
open Owamp.Ctl Owamp.Codec Owamp.File Owamp.Spec.DataFile Owamp.Spec.Fetch Owamp.Spec.Channel Owamp.Fetch Owamp.PowFetch
open Owamp.Spec.PowFetch

namespace PowFetched

/-- The connection that is held, if any, has nothing under way. -/
def Held (s : State) : Prop := ∀ A B, s.fetch = some (A, B) → Idle A B

theorem peers_inp {A B : Conn} (P : Peers A B) (x y : Bytes) : Peers { A with inp := x } { B with inp := y } :=
  ⟨P.readyA, P.readyB, P.linked, P.requestA, P.idleA, P.testA, P.onewayA, P.requestB, P.testB, P.onewayB⟩

theorem turn_eq (H : Mac) (E : Env) (A : Conn) : turn H E A = (afterType .fetchSession (serve H E) A).2 := by
  unfold turn afterType
  cases readRequestType A with
  | mk t c =>
    dsimp only
    by_cases h : t = .fetchSession
    · rw [if_pos h, if_pos h]
    · rw [if_neg h, if_neg h]

theorem request_sent (H : Mac) (A B : Conn) (P : Peers A B) (first last : U32) (sid : Bytes) (hs : sid.length = 16) :
    (writeFetchSession H B first last sid).2.out.drop B.out.length = request H B first last sid := by
  obtain ⟨B1, e1, o1, _⟩ := C10_fetch_session H B A P.readyB P.readyA P.linked first last sid hs P.requestB
    P.testB P.onewayB P.requestA P.idleA P.testA P.onewayA
  dsimp only at e1 o1
  rw [e1]
  dsimp only
  rw [o1, List.drop_left]
  rfl

theorem exchange_any (H : Mac) (k : Call) (hs : k.sid.length = 16) (P : Result → Prop)
    (hk : Answers H k P) (A B : Conn) (hAB : Idle A B) :
    ∃ res A' B', exchange H k A B = (res, A', B') ∧ (res = .failed ∧ k.cut ≠ none ∨ P res ∧ Idle A' B') := by
  obtain ⟨hP, hA, hB⟩ := hAB
  let q := request H B k.first k.last k.sid
  obtain ⟨blocks, res0, hc0, hp0⟩ := hk { A with inp := q } B (peers_inp hP q B.inp)
  obtain ⟨A', resp, e1, _, e2, e3, _⟩ := hc0 [] (by show q = request H B k.first k.last k.sid ++ []; rw [List.append_nil])
  obtain ⟨blocks, res, hc, hp⟩ := hk { A with inp := q } { B with inp := resp } (peers_inp hP q resp)
  obtain ⟨A2, resp2, f1, _, f2, f3, f4⟩ := hc [] (by
    show q = request H { B with inp := resp } k.first k.last k.sid ++ []; rw [List.append_nil]; rfl)
  have hA2 : A2 = A' := by
    rw [e1] at f1
    exact (congrArg Prod.snd f1).symm
  subst hA2
  have hr : resp2 = resp := by
    rw [e2] at f2
    exact (List.append_cancel_left f2).symm
  subst hr
  obtain ⟨B2, g1, g2, g3, g4⟩ := f4 [] (by show resp2 = resp2 ++ []; rw [List.append_nil])
  have e1' : afterType .fetchSession (serve H k.env) { A with inp := request H B k.first k.last k.sid } = (some (), A2) := e1
  have e2' : A2.out = A.out ++ resp2 := e2
  have hx : exchange H k A B =
      ((Fetch.fetch H k.remote k.loc k.junk k.first k.last k.sid { B with inp := arrived k.cut resp2 }).1, A2,
        (Fetch.fetch H k.remote k.loc k.junk k.first k.last k.sid { B with inp := arrived k.cut resp2 }).2) := by
    unfold exchange
    dsimp only
    rw [request_sent H A B hP k.first k.last k.sid hs, hA, List.nil_append, turn_eq, e1']
    dsimp only
    rw [e2', List.drop_left, hB, List.nil_append]
  cases hcut : k.cut with
  | none =>
    refine ⟨res, A2, B2, ?_, .inr ⟨hp, g4, f3, g3⟩⟩
    rw [hx, hcut]
    show ((Fetch.fetch H k.remote k.loc k.junk k.first k.last k.sid { B with inp := resp2 }).1, A2,
        (Fetch.fetch H k.remote k.loc k.junk k.first k.last k.sid { B with inp := resp2 }).2) = _
    rw [g1]
  | some n =>
    rw [hcut] at hx
    cases hf : Fetch.fetch H k.remote k.loc k.junk k.first k.last k.sid { B with inp := resp2.take n } with
    | mk r B3 =>
      have hx' : exchange H k A B = (r, A2, B3) := by
        rw [hx]
        show ((Fetch.fetch H k.remote k.loc k.junk k.first k.last k.sid { B with inp := resp2.take n }).1, A2,
          (Fetch.fetch H k.remote k.loc k.junk k.first k.last k.sid { B with inp := resp2.take n }).2) = _
        rw [hf]
      by_cases hr : r = .failed
      · exact ⟨r, A2, B3, hx', .inl ⟨hr, nofun⟩⟩
      · have hm := More.fetch_more (resp2.drop n) H k.remote k.loc k.junk k.first k.last k.sid _ _ r hr hf
        have hi : More.more (resp2.drop n) { B with inp := resp2.take n } = { B with inp := resp2 } := by
          unfold More.more
          dsimp only
          rw [List.take_append_drop]
        rw [hi, g1] at hm
        have h1 : res = r := congrArg Prod.fst hm
        have h2 : B2 = More.more (resp2.drop n) B3 := congrArg Prod.snd hm
        have h3 : B3.inp ++ resp2.drop n = [] := by rw [← g3, h2]; rfl
        obtain ⟨h4, h5⟩ := List.append_eq_nil_iff.1 h3
        have h6 : B2 = B3 := by
          rw [h2, h5]
          unfold More.more
          rw [List.append_nil]
        exact ⟨r, A2, B3, hx', .inr ⟨h1 ▸ hp, h6 ▸ g4, f3, h4⟩⟩

theorem drop_none (s : State) : s.drop.fetch = none := by
  unfold State.drop
  cases h : s.fetch with
  | none => simp [h]
  | some c => simp

theorem ask_any (H : Mac) (s : State) (k : Call) (A B : Conn) (hs : k.sid.length = 16) (P : Result → Prop)
    (hk : Answers H k P) (hAB : Idle A B) :
    (k.cut ≠ none ∧ (ask H s k A B).1 = none ∨ ∃ res, P res ∧ (ask H s k A B).1 = given res) ∧ Held (ask H s k A B).2 ∧
    ((ask H s k A B).1 = none → (ask H s k A B).2.fetch = none) := by
  obtain ⟨res, A', B', he, hp⟩ := exchange_any H k hs P hk A B hAB
  unfold ask
  rw [he]
  have hd : Held s.drop := fun A B h => by rw [drop_none] at h; cases h
  rcases hp with ⟨hf, hc⟩ | ⟨hp, hi⟩
  · rw [hf]
    exact ⟨.inl ⟨hc, rfl⟩, hd, fun _ => drop_none s⟩
  cases res with
  | failed => exact ⟨.inr ⟨_, hp, rfl⟩, hd, fun _ => drop_none s⟩
  | refused => exact ⟨.inr ⟨_, hp, rfl⟩, hd, fun _ => drop_none s⟩
  | fetched n file =>
    dsimp only
    by_cases hn : n = 0
    · rw [if_pos hn]
      exact ⟨.inr ⟨_, hp, by unfold given; dsimp only; rw [if_pos hn]⟩, hd, fun _ => drop_none s⟩
    · rw [if_neg hn]
      refine ⟨.inr ⟨_, hp, by unfold given; dsimp only; rw [if_neg hn]⟩, fun A B h => ?_, fun h => by cases h⟩
      have : (A', B') = (A, B) := Option.some.inj h
      cases this
      exact hi

theorem ask_ok (H : Mac) (s : State) (k : Call) (A B : Conn) (hs : k.sid.length = 16) (hb : k.cut = none) (P : Result → Prop)
    (hk : Answers H k P) (hAB : Idle A B) :
    (∃ res, P res ∧ (ask H s k A B).1 = given res) ∧ Held (ask H s k A B).2 ∧
    ((ask H s k A B).1 = none → (ask H s k A B).2.fetch = none) := by
  obtain ⟨a, b⟩ := ask_any H s k A B hs P hk hAB
  rcases a with ⟨c, _⟩ | a
  · exact absurd hb c
  · exact ⟨a, b⟩

theorem ask_cases (H : Mac) (s : State) (k : Call) (A B : Conn) :
    ask H s k A B = (none, s.drop) ∨ ∃ r c, ask H s k A B = (some r, { s with fetch := some c }) := by
  unfold ask
  split
  · split
    · exact .inl rfl
    · exact .inr ⟨_, _, rfl⟩
  · exact .inl rfl

theorem step_held (H : Mac) (s : State) (k : Call) (hk : Sound H k) (h : Held s) :
    Held (fetchSession H s k).2 := by
  have hd : ∀ s : State, Held s.drop := fun s A B h => by rw [drop_none] at h; cases h
  have hask : ∀ (s : State) (A B : Conn), Idle A B → Held (ask H s k A B).2 := fun s A B hAB =>
    (ask_any H s k A B hk.sid _ hk.answered hAB).2.1
  unfold fetchSession
  cases hf : s.fetch with
  | some c =>
    obtain ⟨A, B⟩ := c
    exact hask s A B (h A B hf)
  | none =>
    cases hc : k.conn with
    | none => exact hd s
    | some c =>
      obtain ⟨A, B⟩ := c
      dsimp only
      split
      · intro A' B' h'
        have : (A, B) = (A', B') := Option.some.inj h'
        cases this
        exact hk.fresh A B hc
      · exact hask _ A B (hk.fresh A B hc)

theorem run_held (H : Mac) (ks : List Call) (hks : ∀ k ∈ ks, Sound H k) :
    ∀ s, Held s → Held (run H s ks).2 := by
  induction ks with
  | nil => exact fun s h => h
  | cons k ks ih =>
    intro s h
    have hk := hks k (List.mem_cons_self ..)
    exact ih (fun k' hk' => hks k' (List.mem_cons_of_mem _ hk')) _ (step_held H s k hk h)

theorem zero_held : Held State.zero := fun _ _ h => by cases h

theorem call_ok (H : Mac) (s : State) (k : Call) (hs : k.sid.length = 16) (hr : Reachable k)
    (hf : ∀ A B, k.conn = some (A, B) → Idle A B) (P : Result → Prop) (hk : Answers H k P) (h : Held s) :
    ∃ res, P res ∧ (fetchSession H s k).1 = given res ∧ ((fetchSession H s k).1 = none → (fetchSession H s k).2.fetch = none) := by
  unfold fetchSession
  cases hs' : s.fetch with
  | some c =>
    obtain ⟨A, B⟩ := c
    obtain ⟨⟨res, a, b⟩, _, d⟩ := ask_ok H s k A B hs hr.whole P hk (h A B hs')
    exact ⟨res, a, b, d⟩
  | none =>
    cases hc : k.conn with
    | none => exact absurd hc hr.opens
    | some c =>
      obtain ⟨A, B⟩ := c
      dsimp only
      rw [hr.quiet]
      obtain ⟨⟨res, a, b⟩, _, d⟩ := ask_ok H { s with fetch := some (A, B), opened := s.opened + 1 } k A B hs hr.whole P hk (hf A B hc)
      exact ⟨res, a, b, d⟩

theorem call_any (H : Mac) (s : State) (k : Call) (hs : k.sid.length = 16)
    (hf : ∀ A B, k.conn = some (A, B) → Idle A B) (P : Result → Prop) (hk : Answers H k P) (h : Held s) :
    (fetchSession H s k).1 = none ∨ ∃ res, P res ∧ (fetchSession H s k).1 = given res := by
  have hask : ∀ (s : State) (A B : Conn), Idle A B → (ask H s k A B).1 = none ∨ ∃ res, P res ∧ (ask H s k A B).1 = given res :=
    fun s A B hAB => (ask_any H s k A B hs P hk hAB).1.imp (·.2) id
  unfold fetchSession
  cases hs' : s.fetch with
  | some c => exact hask s c.1 c.2 (h c.1 c.2 hs')
  | none =>
    cases hc : k.conn with
    | none => exact .inl rfl
    | some c =>
      dsimp only
      split
      · exact .inl rfl
      · exact hask _ c.1 c.2 (hf c.1 c.2 hc)

theorem asks_answers (H : Mac) (k : Call) (rs : List DataRec) (h : AsksFor k rs) :
    Answers H k fun res => ∃ n file, res = .fetched n file ∧ n.toNat = (inRange k.first k.last rs).length ∧
      recordsSeen file = inRange k.first k.last rs := by
  intro A B P
  obtain ⟨f, hd, next, skips, hst, hg, hk, h1, h2⟩ := h.stored
  obtain ⟨b, file, c, _, d, _⟩ := C36_fetch_partial H k.env k.remote k.loc k.junk h.junk A B P k.first k.last k.sid h.sid f hd true
    next skips rs hst hg (fun _ => rfl) hk h1 h2
  refine ⟨b, _, c, _, file, rfl, ?_, d⟩
  have hl := Nat.lt_of_le_of_lt (inRange_length_le k.first k.last rs) hst.nrecs
  show (BitVec.ofNat 32 (inRange k.first k.last rs).length).toNat = _
  rw [BitVec.toNat_ofNat]
  exact Nat.mod_eq_of_lt hl

theorem asks_records (H : Mac) (s : State) (k : Call) (rs : List DataRec) (ha : AsksFor k rs) (hr : Reachable k) (h : Held s) :
    recordsOf (fetchSession H s k).1 = inRange k.first k.last rs ∧
    (∀ n file, (fetchSession H s k).1 = some (n, file) → n.toNat = (inRange k.first k.last rs).length) := by
  obtain ⟨res, ⟨n, file, rfl, hn, hrec⟩, hg, _⟩ := call_ok H s k ha.sid hr ha.fresh _ (asks_answers H k rs ha) h
  rw [hg]
  unfold given
  dsimp only
  by_cases hz : n = 0
  · rw [if_pos hz]
    rw [hz] at hn
    exact ⟨(List.length_eq_zero_iff.1 hn.symm).symm, fun n file h => by cases h⟩
  · rw [if_neg hz]
    refine ⟨hrec, fun n' file' h => ?_⟩
    have : (n, file) = (n', file') := Option.some.inj h
    cases this
    exact hn

theorem asks_sound (H : Mac) (k : Call) (rs : List DataRec) (ha : AsksFor k rs) : Sound H k :=
  ⟨ha.sid, ha.fresh, fun A B P => by
    obtain ⟨b, res, c, _⟩ := asks_answers H k rs ha A B P
    exact ⟨b, res, c, trivial⟩⟩

theorem run_records (H : Mac) (rs : List DataRec) (ks : List Call) (hks : ∀ k ∈ ks, AsksFor k rs ∧ Reachable k) :
    ∀ s, Held s → (run H s ks).1.map recordsOf = ks.map fun k => inRange k.first k.last rs := by
  induction ks with
  | nil => exact fun _ _ => rfl
  | cons k ks ih =>
    intro s h
    have hk := hks k (List.mem_cons_self ..)
    show recordsOf (fetchSession H s k).1 :: (run H (fetchSession H s k).2 ks).1.map recordsOf = _
    rw [(asks_records H s k rs hk.1 hk.2 h).1,
      ih (fun k' hk' => hks k' (List.mem_cons_of_mem _ hk')) _ (step_held H s k (asks_sound H k rs hk.1) h)]
    rfl

theorem below_split (rs : List DataRec) (a b : Nat) (hab : a ≤ b) :
    (rs.filter (fun r => decide (r.seq.toNat < a)) ++ rs.filter (fun r => decide (a ≤ r.seq.toNat ∧ r.seq.toNat < b))).Perm
      (rs.filter fun r => decide (r.seq.toNat < b)) := by
  have h1 := List.filter_append_perm (fun r : DataRec => decide (r.seq.toNat < a)) (rs.filter fun r => decide (r.seq.toNat < b))
  rw [List.filter_filter, List.filter_filter] at h1
  have e1 : (rs.filter fun r => decide (r.seq.toNat < a) && decide (r.seq.toNat < b)) =
      rs.filter fun r => decide (r.seq.toNat < a) := by
    congr 1; funext r
    by_cases h : r.seq.toNat < a
    · simp [h, Nat.lt_of_lt_of_le h hab]
    · simp [h]
  have e2 : (rs.filter fun r => !decide (r.seq.toNat < a) && decide (r.seq.toNat < b)) =
      rs.filter fun r => decide (a ≤ r.seq.toNat ∧ r.seq.toNat < b) := by
    congr 1; funext r
    by_cases h : r.seq.toNat < a
    · simp [h, Nat.not_le_of_lt h]
    · simp [h, Nat.le_of_not_lt h]
  rw [e1, e2] at h1
  exact h1

theorem part_eq (rs : List DataRec) (n i : Nat) (hn : 0 < n) (k : Call) (h1 : k.first.toNat = n * i)
    (h2 : k.last.toNat = n * (i + 1) - 1) :
    inRange k.first k.last rs = rs.filter fun r => decide (n * i ≤ r.seq.toNat ∧ r.seq.toNat < n * (i + 1)) := by
  unfold inRange
  congr 1; funext r
  rw [h1, h2]
  have hp : 0 < n * (i + 1) := Nat.mul_pos hn (Nat.succ_pos i)
  congr 1
  apply propext
  constructor <;> (intro h; omega)

theorem parts_perm (rs : List DataRec) (n : Nat) : ∀ m,
    ((List.range m).flatMap fun i => rs.filter fun r => decide (n * i ≤ r.seq.toNat ∧ r.seq.toNat < n * (i + 1))).Perm
      (rs.filter fun r => decide (r.seq.toNat < n * m))
  | 0 => by simp
  | m + 1 => by
    rw [List.range_succ, List.flatMap_append]
    refine ((parts_perm rs n m).append_right _).trans ?_
    simp only [List.flatMap_cons, List.flatMap_nil, List.append_nil]
    exact below_split rs (n * m) (n * (m + 1)) (Nat.mul_le_mul_left n (Nat.le_succ m))

end PowFetched
open PowFetched

/-- C110: whatever the calls before were given - records, none, a refusal, a connection that could not be opened or that broke,
a signal - a fetch that the server answers is given that answer, with `P` what is known of it; and a call that returns
no records leaves no connection. -/
theorem C110_each (H : Mac) (ks : List Call) (hks : ∀ k ∈ ks, Sound H k) (k : Call) (hk : Sound H k)
    (hr : Reachable k) (P : Result → Prop) (ha : Answers H k P) :
    ∃ res, P res ∧ (fetchSession H (run H State.zero ks).2 k).1 = given res ∧
      ((fetchSession H (run H State.zero ks).2 k).1 = none → (fetchSession H (run H State.zero ks).2 k).2.fetch = none) :=
  call_ok H _ k hk.sid hr hk.fresh P ha (run_held H ks hks _ zero_held)

/-- C110, whatever else happens - the server cannot be reached, a signal comes, the connection ends at any byte of the answer -
a fetch returns 0 or is given the server's answer, all of it. -/
theorem C110_never_part (H : Mac) (ks : List Call) (hks : ∀ k ∈ ks, Sound H k) (k : Call) (hk : Sound H k)
    (P : Result → Prop) (ha : Answers H k P) :
    (fetchSession H (run H State.zero ks).2 k).1 = none ∨
      ∃ res, P res ∧ (fetchSession H (run H State.zero ks).2 k).1 = given res :=
  call_any H _ k hk.sid hk.fresh P ha (run_held H ks hks _ zero_held)

/-- C36, an answer that is cut off: if a fetch is answered with `resp` and one byte or more of it does not reach the client, the
fetch fails. -/
theorem C36_cut_off (H : Mac) (remote loc : SockAddr) (junk : Bytes) (first last : U32) (sid resp : Bytes) (B B' : Conn) (res : Result)
    (h : Fetch.fetch H remote loc junk first last sid { B with inp := resp } = (res, B')) (hall : B'.inp = []) (n : Nat)
    (hn : n < resp.length) :
    (Fetch.fetch H remote loc junk first last sid { B with inp := resp.take n }).1 = .failed := by
  cases hf : Fetch.fetch H remote loc junk first last sid { B with inp := resp.take n } with
  | mk r B3 =>
    dsimp only
    refine Decidable.byContradiction fun hr => ?_
    have hm := More.fetch_more (resp.drop n) H remote loc junk first last sid _ _ r hr hf
    have hi : More.more (resp.drop n) { B with inp := resp.take n } = { B with inp := resp } := by
      unfold More.more
      dsimp only
      rw [List.take_append_drop]
    rw [hi, h] at hm
    have h2 : B' = More.more (resp.drop n) B3 := congrArg Prod.snd hm
    have h3 : B3.inp ++ resp.drop n = [] := by rw [← hall, h2]; rfl
    have h5 := congrArg List.length (List.append_eq_nil_iff.1 h3).2
    rw [List.length_drop, List.length_nil] at h5
    omega

/-- C110, the records: a fetch of a part of a finished session is given exactly the records of that part, and their number,
after any history. -/
theorem C110_records (H : Mac) (ks : List Call) (hks : ∀ k ∈ ks, Sound H k) (k : Call) (rs : List DataRec)
    (hk : AsksFor k rs) (hr : Reachable k) :
    recordsOf (fetchSession H (run H State.zero ks).2 k).1 = inRange k.first k.last rs ∧
    ∀ n file, (fetchSession H (run H State.zero ks).2 k).1 = some (n, file) → n.toNat = (inRange k.first k.last rs).length :=
  asks_records H _ k rs hk hr (run_held H ks hks _ zero_held)

/-- C110, the parts: a session fetched in `m` parts of `n` packets each is all there, every record once. -/
theorem C110_parts (H : Mac) (ks : List Call) (hks : ∀ k ∈ ks, Sound H k) (rs : List DataRec) (n m : Nat)
    (hn : 0 < n) (part : Nat → Call)
    (hpart : ∀ i, i < m → AsksFor (part i) rs ∧ Reachable (part i) ∧ (part i).first.toNat = n * i ∧
      (part i).last.toNat = n * (i + 1) - 1)
    (hall : ∀ r ∈ rs, r.seq.toNat < n * m) :
    ((run H (run H State.zero ks).2 ((List.range m).map part)).1.flatMap recordsOf).Perm rs := by
  rw [List.flatMap_def, run_records H rs _ (fun k hk => by
    obtain ⟨i, hi, rfl⟩ := List.mem_map.1 hk
    have := hpart i (List.mem_range.1 hi)
    exact ⟨this.1, this.2.1⟩) _ (run_held H ks hks _ zero_held), List.map_map]
  have e : (List.range m).map ((fun k => inRange k.first k.last rs) ∘ part) = (List.range m).map fun i =>
      rs.filter fun r => decide (n * i ≤ r.seq.toNat ∧ r.seq.toNat < n * (i + 1)) := by
    apply List.map_congr_left
    intro i hi
    obtain ⟨_, _, h1, h2⟩ := hpart i (List.mem_range.1 hi)
    exact part_eq rs n i hn (part i) h1 h2
  rw [e, ← List.flatMap_def]
  refine (parts_perm rs n m).trans ?_
  rw [List.filter_eq_self.2 (fun r hr => decide_eq_true (hall r hr))]

/-- C110, the connections: after any history the connections that were opened are closed, but the one that is held; and no more
were opened than calls returned 0, and one. -/
theorem C110_connections (H : Mac) (ks : List Call) :
    (run H State.zero ks).2.opened = (run H State.zero ks).2.closed + (if (run H State.zero ks).2.fetch.isSome then 1 else 0) ∧
    (run H State.zero ks).2.opened ≤ ((run H State.zero ks).1.filter (·.isNone)).length + 1 := by
  have hdrop : ∀ s : State, s.opened = s.closed + (if s.fetch.isSome then 1 else 0) →
      s.drop.opened = s.drop.closed + (if s.drop.fetch.isSome then 1 else 0) ∧ s.drop.closed ≤ s.closed + 1 := by
    intro s h
    unfold State.drop
    cases hf : s.fetch with
    | none => rw [hf] at h; simp [hf] at h ⊢; exact h
    | some c => rw [hf] at h; simp at h ⊢; exact h
  have hask : ∀ (s : State) (k : Call) (A B : Conn), s.fetch.isSome = true →
      s.opened = s.closed + (if s.fetch.isSome then 1 else 0) →
      (ask H s k A B).2.opened = (ask H s k A B).2.closed + (if (ask H s k A B).2.fetch.isSome then 1 else 0) ∧
      (ask H s k A B).2.closed ≤ s.closed + (if (ask H s k A B).1.isNone then 1 else 0) := by
    intro s k A B hs h
    rcases ask_cases H s k A B with e | ⟨r, c, e⟩
    · rw [e]; exact hdrop s h
    · rw [e]; rw [hs] at h; exact ⟨h, Nat.le_add_right _ _⟩
  have hstep : ∀ (s : State) (k : Call), s.opened = s.closed + (if s.fetch.isSome then 1 else 0) →
      (fetchSession H s k).2.opened = (fetchSession H s k).2.closed + (if (fetchSession H s k).2.fetch.isSome then 1 else 0) ∧
      (fetchSession H s k).2.closed ≤ s.closed + (if (fetchSession H s k).1.isNone then 1 else 0) := by
    intro s k h
    unfold fetchSession
    cases hf : s.fetch with
    | some c => exact hask s k c.1 c.2 (by rw [hf]; rfl) h
    | none =>
      rw [hf] at h
      cases hc : k.conn with
      | none => exact hdrop s (by rw [hf]; exact h)
      | some c =>
        have h' : s.opened + 1 = s.closed + 1 := by simp at h; omega
        dsimp only
        split
        · exact ⟨h', Nat.le_add_right _ _⟩
        · exact hask { s with fetch := some (c.1, c.2), opened := s.opened + 1 } k c.1 c.2 rfl h'
  have hrun : ∀ (ks : List Call) (s : State), s.opened = s.closed + (if s.fetch.isSome then 1 else 0) →
      (run H s ks).2.opened = (run H s ks).2.closed + (if (run H s ks).2.fetch.isSome then 1 else 0) ∧
      (run H s ks).2.closed ≤ s.closed + ((run H s ks).1.filter (·.isNone)).length := by
    intro ks
    induction ks with
    | nil => exact fun s h => ⟨h, Nat.le_add_right _ _⟩
    | cons k ks ih =>
      intro s h
      obtain ⟨a, b⟩ := hstep s k h
      obtain ⟨c, d⟩ := ih _ a
      refine ⟨c, ?_⟩
      show (run H (fetchSession H s k).2 ks).2.closed ≤
        s.closed + (((fetchSession H s k).1 :: (run H (fetchSession H s k).2 ks).1).filter (·.isNone)).length
      rw [List.filter_cons]
      split
      · rename_i hN; rw [if_pos hN] at b; rw [List.length_cons]; omega
      · rename_i hN; rw [if_neg hN] at b; omega
  obtain ⟨a, b⟩ := hrun ks State.zero rfl
  refine ⟨a, ?_⟩
  have hz : State.zero.closed = 0 := rfl
  rw [hz] at b
  split at a <;> omega

/-! ## Cases that meet the hypotheses -/

/-- A call for the packets `first` to `last` of the session of `demoFetchFile`. -/
def demoCall (first last : U32) : Call :=
  { conn := some ({ demoB with inp := [] }, { demoA with inp := [] }), signal := false, cut := none
    env := demoFetchEnv demoFetchFile, remote := .v4 1 861, loc := .v4 2 4000, junk := zeros 112, first := first, last := last
    sid := demoFileHdr.sid }

theorem demoCall_idle (A B : Conn) (h : some (({ demoB with inp := [] } : Conn), ({ demoA with inp := [] } : Conn)) = some (A, B)) :
    Idle A B := by
  have := Option.some.inj h
  cases this
  exact ⟨peers_inp demo_peers [] [], rfl, rfl⟩

theorem demoCall_asks (first last : U32) : AsksFor (demoCall first last) demoFetchRecs :=
  ⟨demoFileHdr_storable.sid, zeros_length _,
    ⟨_, _, _, _, demoFetchFile_stored, demoFetchEnv_grants _ _ _ _, by decide, trivial, trivial⟩, demoCall_idle⟩

theorem demoCall_reachable (first last : U32) : Reachable (demoCall first last) := ⟨nofun, rfl, rfl⟩

/-- A history: the server cannot be reached; two packets are fetched; a connection ends in the middle of an answer; a signal comes; the server
refuses; packets are asked for that there are not. -/
def demoHistory : List Call :=
  [{ demoCall 0 1 with conn := none }, demoCall 1 2, { demoCall 0 1 with cut := some 300 }, { demoCall 0 1 with signal := true },
    { demoCall 0 1 with env := { demoFetchEnv demoFetchFile with policy := fun _ _ _ => some false } }, demoCall 50 60]

theorem sound_unreachable (H : Mac) (k : Call) (h : Sound H k) : Sound H { k with conn := none } :=
  ⟨h.sid, fun A B e => (by cases e), h.answered⟩
theorem sound_cut (H : Mac) (k : Call) (h : Sound H k) (n : Nat) : Sound H { k with cut := some n } := ⟨h.sid, h.fresh, h.answered⟩
theorem sound_signal (H : Mac) (k : Call) (h : Sound H k) : Sound H { k with signal := true } := ⟨h.sid, h.fresh, h.answered⟩
theorem sound_refused (H : Mac) (k : Call) (h : Sound H k) (E : Env) (hE : E.policy k.first k.last k.sid = some false) :
    Sound H { k with env := E } := by
  refine ⟨h.sid, h.fresh, fun A B P => ⟨2, .refused, ?_, trivial⟩⟩
  refine refuse_travels H E k.remote k.loc k.junk A B P k.first k.last k.sid h.sid (fun c => ?_)
  refine ⟨.reject, by decide, by decide, fun c0 h0 => ?_⟩
  unfold serve; rw [h0]; dsimp only; rw [hE]

theorem demoHistory_sound (H : Mac) : ∀ k ∈ demoHistory, Sound H k := by
  have hs := fun a b => asks_sound H _ _ (demoCall_asks a b)
  intro k hk
  simp only [demoHistory, List.mem_cons, List.not_mem_nil, or_false] at hk
  rcases hk with rfl | rfl | rfl | rfl | rfl | rfl
  · exact sound_unreachable H _ (hs 0 1)
  · exact hs 1 2
  · exact sound_cut H _ (hs 0 1) 300
  · exact sound_signal H _ (hs 0 1)
  · exact sound_refused H _ (hs 0 1) _ rfl
  · exact hs 50 60

example (H : Mac) : recordsOf (fetchSession H (run H State.zero demoHistory).2 (demoCall 1 2)).1 = [demoFileRec 1, demoFileRec 2] :=
  (C110_records H demoHistory (demoHistory_sound H) _ _ (demoCall_asks 1 2) (demoCall_reachable 1 2)).1.trans (by decide +kernel)

/-- After that history the session is fetched in two parts of two packets. -/
example (H : Mac) : ((run H (run H State.zero demoHistory).2
    ((List.range 2).map fun i => demoCall (BitVec.ofNat 32 (2 * i)) (BitVec.ofNat 32 (2 * (i + 1) - 1)))).1.flatMap recordsOf).Perm
      demoFetchRecs :=
  C110_parts H demoHistory (demoHistory_sound H) demoFetchRecs 2 2 (by decide) _
    (fun i hi => ⟨demoCall_asks _ _, demoCall_reachable _ _, by
      match i, hi with
      | 0, _ => exact ⟨rfl, rfl⟩
      | 1, _ => exact ⟨rfl, rfl⟩⟩)
    (by decide)

example (H : Mac) := C110_each H demoHistory (demoHistory_sound H) (demoCall 1 2) (asks_sound H _ _ (demoCall_asks 1 2))
  (demoCall_reachable 1 2) _ (asks_answers H _ _ (demoCall_asks 1 2))

example (H : Mac) := C110_never_part H demoHistory (demoHistory_sound H) { demoCall 1 2 with cut := some 77 }
  (sound_cut H _ (asks_sound H _ _ (demoCall_asks 1 2)) 77) _ (asks_answers H (demoCall 1 2) _ (demoCall_asks 1 2))

/-- The hypotheses of `C36_cut_off` are met by every conversation. -/
example (H : Mac) (E : Env) (remote loc : SockAddr) (junk : Bytes) (first last : U32) (sid resp : Bytes) (A A' B : Conn) (blocks : Nat) (res : Result)
    (h : Conversation H E remote loc junk first last sid A { B with inp := resp } blocks res) (hA : A.inp = request H B first last sid)
    (hr : afterType .fetchSession (serve H E) A = (some (), A')) (ho : A'.out = A.out ++ resp) (n : Nat) (hn : n < resp.length) :
    (Fetch.fetch H remote loc junk first last sid { B with inp := resp.take n }).1 = .failed := by
  obtain ⟨A2, resp2, a, _, b, _, c⟩ := h [] (by rw [List.append_nil]; exact hA)
  rw [hr] at a
  have e1 : A' = A2 := congrArg Prod.snd a
  have e2 : resp = resp2 := by rw [← e1, ho] at b; exact List.append_cancel_left b
  obtain ⟨B', d, _, e, _⟩ := c [] (by rw [← e2, List.append_nil])
  exact C36_cut_off H remote loc junk first last sid resp B B' res d e n hn

end Owamp.Props
