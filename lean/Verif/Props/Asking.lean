import Verif.Lemmas.Asking
import Verif.Props.TestRequest
/-!
# C77: asking for a session
-/
namespace Owamp.Props
open Owamp.Ctl Owamp.Spec.Channel Owamp.Spec.Request Owamp.Spec.Asking

theorem family_kind {x y : SockAddr} {f : Nat} (hf : f = 4 ∨ f = 6) (hx : x.family = f) (h : x.family = y.family) : kind x = f ∧ kind y = f := by
  cases x <;> cases y <;> simp_all [SockAddr.family, kind]
  omega

theorem pickFamily_sound (f : Nat) (ss : List Info) : ∀ (rs : List Info) (r s : Info), pickFamily f rs ss = some (r, s) →
    r ∈ rs ∧ s ∈ ss ∧ r.addr.family = f ∧ r.addr.family = s.addr.family ∧ r.socktype = s.socktype := by
  intro rs
  induction rs with
  | nil => intro r s h; cases h
  | cons x xs ih =>
    intro r s h
    unfold pickFamily at h
    split at h
    · rename_i hx
      split at h
      · rename_i y hy
        cases h
        have h1 := List.mem_of_find?_eq_some hy
        have h2 := List.find?_some hy
        simp only [decide_eq_true_eq] at h2
        exact ⟨List.mem_cons_self, h1, hx, h2.1, h2.2⟩
      · obtain ⟨a, b⟩ := ih r s h
        exact ⟨List.mem_cons_of_mem _ a, b⟩
    · obtain ⟨a, b⟩ := ih r s h
      exact ⟨List.mem_cons_of_mem _ a, b⟩

theorem pickFamily_none (f : Nat) (ss : List Info) : ∀ (rs : List Info), pickFamily f rs ss = none →
    ∀ r ∈ rs, ∀ s ∈ ss, r.addr.family = f → r.addr.family = s.addr.family → r.socktype = s.socktype → False := by
  intro rs
  induction rs with
  | nil => intro _ r hr; cases hr
  | cons x xs ih =>
    intro h r hr s hs h1 h2 h3
    unfold pickFamily at h
    split at h
    · split at h
      · cases h
      · rename_i hy
        cases hr with
        | head =>
          have := List.find?_eq_none.1 hy s hs
          simp only [decide_eq_true_eq] at this
          exact this ⟨h2, h3⟩
        | tail _ hr => exact ih h r hr s hs h1 h2 h3
    · rename_i hx
      cases hr with
      | head => exact hx h1
      | tail _ hr => exact ih h r hr s hs h1 h2 h3

/-- C77, addresses: the pair that is chosen is one of the receiver's and one of the sender's addresses, of one family and allowed; an IPv4 pair is only chosen when there is no IPv6 pair that is
allowed; and when none is chosen there is none. -/
theorem C77_addresses (v4only v6only : Bool) (rs ss : List Info) (hr : ∀ i ∈ rs, i.socktype = 2) (hs : ∀ i ∈ ss, i.socktype = 2) :
    match pickPair v4only v6only rs ss with
    | some (r, s) => r ∈ rs ∧ s ∈ ss ∧ Fit v4only v6only r.addr s.addr ∧
        (kind r.addr = 4 → v4only = false → ∀ r' ∈ rs, ∀ s' ∈ ss, kind r'.addr = 6 → kind s'.addr = 6 → False)
    | none => ∀ r ∈ rs, ∀ s ∈ ss, ¬ Fit v4only v6only r.addr s.addr := by
  have fam : ∀ x : SockAddr, (kind x = 4 ↔ x.family = 4) ∧ (kind x = 6 ↔ x.family = 6) := by
    intro x; cases x <;> simp [kind, SockAddr.family]
  have six : ∀ r' ∈ rs, ∀ s' ∈ ss, kind r'.addr = 6 → kind s'.addr = 6 → pickFamily 6 rs ss ≠ none := by
    intro r' h1 s' h2 h3 h4 h5
    exact pickFamily_none 6 ss rs h5 r' h1 s' h2 ((fam _).2.1 h3) (((fam _).2.1 h3).trans ((fam _).2.1 h4).symm) ((hr r' h1).trans (hs s' h2).symm)
  have four : ∀ r' ∈ rs, ∀ s' ∈ ss, kind r'.addr = 4 → kind s'.addr = 4 → pickFamily 4 rs ss ≠ none := by
    intro r' h1 s' h2 h3 h4 h5
    exact pickFamily_none 4 ss rs h5 r' h1 s' h2 ((fam _).1.1 h3) (((fam _).1.1 h3).trans ((fam _).1.1 h4).symm) ((hr r' h1).trans (hs s' h2).symm)
  unfold pickPair
  cases h6 : (if v4only then none else pickFamily 6 rs ss) with
  | some p =>
    obtain ⟨r, s⟩ := p
    cases hv : v4only with
    | true => rw [hv] at h6; cases h6
    | false =>
      rw [hv] at h6
      obtain ⟨a, b, c, d, e⟩ := pickFamily_sound 6 ss rs r s h6
      obtain ⟨k1, k2⟩ := family_kind (Or.inr rfl) c d
      exact ⟨a, b, ⟨k1.trans k2.symm, Or.inl ⟨k1, rfl⟩⟩, fun h => by omega⟩
  | none =>
    dsimp only
    have no6 : v4only = false → pickFamily 6 rs ss = none := by
      intro hv; rw [hv] at h6; exact h6
    cases h4 : (if v6only then none else pickFamily 4 rs ss) with
    | some p =>
      obtain ⟨r, s⟩ := p
      cases hv : v6only with
      | true => rw [hv] at h4; cases h4
      | false =>
        rw [hv] at h4
        obtain ⟨a, b, c, d, e⟩ := pickFamily_sound 4 ss rs r s h4
        obtain ⟨k1, k2⟩ := family_kind (Or.inl rfl) c d
        exact ⟨a, b, ⟨k1.trans k2.symm, Or.inr ⟨k1, rfl⟩⟩, fun _ hv r' h1 s' h2 h3 h4 => six r' h1 s' h2 h3 h4 (no6 hv)⟩
    | none =>
      intro r h1 s h2 hfit
      obtain ⟨hk, ⟨h3, hv⟩ | ⟨h3, hv⟩⟩ := hfit
      · exact six r h1 s h2 h3 (by omega) (no6 hv)
      · rw [hv] at h4
        exact four r h1 s h2 h3 (by omega) h4

/-- Two pairs: the IPv6 one is chosen although it is named last; with `v4only` the other. -/
example : let r4 : Info := ⟨.v4 1 0, 2⟩; let r6 : Info := ⟨.v6 1 0 0, 2⟩; let s4 : Info := ⟨.v4 2 0, 2⟩; let s6 : Info := ⟨.v6 2 0 0, 2⟩
    pickPair false false [r4, r6] [s4, s6] = some (r6, s6) ∧ pickPair true false [r4, r6] [s4, s6] = some (r4, s4) ∧
    pickPair false false [r4] [s6] = none := by decide +kernel

/-- What every way through the request gives. -/
def Booked (e : ClientEnv) (tests : List Mine) (out : Called) : Prop :=
  (out.ret = true ∧ out.err = .ok ∧ ∃ m, out.tests = m :: tests ∧ out.sid = some m.sid ∧ m.spec = e.spec) ∨
  (out.ret = false ∧ out.tests = tests ∧ out.sid = none)

theorem booked_refuse (e : ClientEnv) (tests : List Mine) (x : Sev) (c : Conn) : Booked e tests (refuse tests x c) := Or.inr ⟨rfl, rfl, rfl⟩
theorem booked_keep (e : ClientEnv) (tests : List Mine) (a : Bytes) (b d : SockAddr) (f : Option Bool) (c : Conn) :
    Booked e tests (keep tests ⟨a, b, d, e.spec, f⟩ c) := Or.inl ⟨rfl, rfl, _, rfl, rfl, rfl⟩

theorem booked_remote (H : Mac) (e : ClientEnv) (tests : List Mine) (snd rcv : SockAddr) (c : Conn) : Booked e tests (requestRemote H e tests snd rcv c) := by
  unfold requestRemote
  repeat' split
  all_goals first | exact booked_refuse _ _ _ _ | exact booked_keep _ _ _ _ _ _ _

theorem booked_local (H : Mac) (e : ClientEnv) (tests : List Mine) (snd rcv : SockAddr) (c : Conn) : Booked e tests (requestLocal H e tests snd rcv c) := by
  unfold requestLocal
  dsimp only
  repeat' split
  all_goals first | exact booked_refuse _ _ _ _ | exact booked_keep _ _ _ _ _ _ _

/-- C77, the list of sessions: it changes only when the caller is told that the request succeeded, and then by one session, whose identifier the caller gets. -/
theorem C77_list (H : Mac) (e : ClientEnv) (tests : List Mine) (c : Conn) :
    let out := sessionRequest H e tests c
    (out.ret = true ∧ out.err = .ok ∧ ∃ m, out.tests = m :: tests ∧ out.sid = some m.sid ∧ m.spec = e.spec) ∨
    (out.ret = false ∧ out.tests = tests ∧ out.sid = none) := by
  show Booked e tests (sessionRequest H e tests c)
  unfold sessionRequest
  repeat' split
  all_goals first | exact booked_refuse _ _ _ _ | exact booked_remote _ _ _ _ _ _ | exact booked_local _ _ _ _ _ _

/-! ## Both sides -/

theorem ask_unless_grant {n : Option No} {k : Verdict} {p : U16} {s : Bytes} {d : Option SockAddr} (h : Verdict.unless n k = .grant p s d) :
    n = none ∧ k = .grant p s d := by
  cases n with
  | none => exact ⟨rfl, h⟩
  | some x => cases h

theorem ask_unless_refuse {n : Option No} {k : Verdict} {a : Accept} (h : Verdict.unless n k = .no (.refuse a)) :
    n = some (.refuse a) ∨ k = .no (.refuse a) := by
  cases n with
  | none => exact Or.inr h
  | some x => cases h; exact Or.inl rfl

theorem grant_oneway {env : TestEnv} {ci : Bool} {r : TestReq} {p : U16} {s : Bytes} {d : Option SockAddr} (hx : r.confSender = !r.confReceiver)
    (h : answerTest env false ci r = .grant p s d) :
    p = env.port ∧ (if r.confReceiver then env.newSid = some s else r.sid = s) ∧ d = if r.confSender then some r.receiver else none := by
  unfold answerTest answerTestOW at h
  simp only [Bool.false_eq_true, if_false] at h
  split at h
  · cases h
  · rename_i sid hs
    split at h
    · cases h
    split at h
    · cases h
    obtain ⟨_, h⟩ := ask_unless_grant h
    obtain ⟨_, h⟩ := ask_unless_grant h
    obtain ⟨_, h⟩ := ask_unless_grant h
    obtain ⟨_, h⟩ := ask_unless_grant h
    obtain ⟨_, h⟩ := ask_unless_grant h
    obtain ⟨_, h⟩ := ask_unless_grant h
    obtain ⟨_, h⟩ := ask_unless_grant h
    simp only [Verdict.grant.injEq] at h
    obtain ⟨h1, rfl, h3⟩ := h
    have hc : r.confSender = true ∨ r.confReceiver = true := by
      cases hh : r.confReceiver <;> simp_all
    rw [if_pos hc] at h1
    refine ⟨h1.symm, ?_, h3.symm⟩
    by_cases hr : r.confReceiver = true
    · rw [if_pos hr] at hs ⊢; exact hs
    · rw [if_neg hr] at hs ⊢; cases hs; rfl

theorem grant_twoway {env : TestEnv} {ci : Bool} {r : TestReq} {p : U16} {s : Bytes} {d : Option SockAddr}
    (h : answerTest env true ci r = .grant p s d) : p = env.port ∧ env.newSid = some s ∧ d = some r.sender := by
  unfold answerTest answerTestTW at h
  simp only [if_true] at h
  split at h
  · cases h
  · rename_i sid hs
    obtain ⟨_, h⟩ := ask_unless_grant h
    obtain ⟨_, h⟩ := ask_unless_grant h
    obtain ⟨_, h⟩ := ask_unless_grant h
    split at h
    · cases h
    simp only [Verdict.grant.injEq] at h
    obtain ⟨h1, rfl, h3⟩ := h
    exact ⟨h1.symm, hs, h3.symm⟩

theorem refuse_proper {env : TestEnv} (P : Proper env) {tw ci : Bool} {r : TestReq} {a : Accept} (h : answerTest env tw ci r = .no (.refuse a)) :
    a ≠ .accept ∧ a ≠ .invalid := by
  have lit : ∀ {x : Accept}, Verdict.no (.refuse x) = .no (.refuse a) → x ≠ .accept ∧ x ≠ .invalid → a ≠ .accept ∧ a ≠ .invalid := by
    intro x hx h; cases hx; exact h
  have pol : ∀ {c : Prop} [Decidable c] {b x y sp}, (if c then env.policy b x y sp else none) = some (.refuse a) → a ≠ .accept ∧ a ≠ .invalid := by
    intro c _ b x y sp h
    split at h
    · exact P.policy _ _ _ _ _ h
    · cases h
  have ep : ∀ {c : Prop} [Decidable c] {x}, (if c then env.endpoint x else none) = some (.refuse a) → a ≠ .accept ∧ a ≠ .invalid := by
    intro c _ x h
    split at h
    · exact P.endpoint _ _ h
    · cases h
  unfold answerTest at h
  split at h
  · unfold answerTestTW at h
    split at h
    · exact lit h (by decide)
    rcases ask_unless_refuse h with h | h
    · exact P.policy _ _ _ _ _ h
    rcases ask_unless_refuse h with h | h
    · exact P.endpoint _ _ h
    rcases ask_unless_refuse h with h | h
    · exact P.hook _ h
    split at h
    · exact lit h (by decide)
    · cases h
  · unfold answerTestOW at h
    split at h
    · exact lit h (by decide)
    split at h
    · exact lit h (by decide)
    split at h
    · exact lit h (by decide)
    rcases ask_unless_refuse h with h | h
    · exact pol h
    rcases ask_unless_refuse h with h | h
    · exact ep h
    rcases ask_unless_refuse h with h | h
    · split at h <;> cases h
    rcases ask_unless_refuse h with h | h
    · split at h
      · cases h; decide
      · cases h
    rcases ask_unless_refuse h with h | h
    · exact pol h
    rcases ask_unless_refuse h with h | h
    · exact ep h
    rcases ask_unless_refuse h with h | h
    · split at h
      · exact P.hook _ h
      · cases h
    · cases h

/-- After a request: what the caller has learnt, and what the server holds. Exactly one of

* success: one more session on each side, and they agree; the addresses are ones that the caller named;
* failure without a session at the server: nothing was asked, the server did not answer, or it refused, in which case there is no error and the connection is as good as before;
* failure although the server has set the session up: a step of the client's own failed afterwards. -/
def Outcome (env : TestEnv) (e : ClientEnv) (tests : List Mine) (twoway : Bool) (out : Called) (srv : Pass × Option Session) : Prop :=
  (out.ret = true ∧ out.err = .ok ∧ ∃ m s, out.tests = m :: tests ∧ out.sid = some m.sid ∧ m.spec = e.spec ∧ srv.2 = some s ∧
    Agree twoway e.zeroAddr env.remote env.localAddr env.port m s ∧ Quiet out.c srv.1.c ∧ Idle out.c srv.1.c ∧
    ∃ a ∈ offered e.localAddr e.receiver, ∃ b ∈ offered e.localAddr e.sender, Fit e.v4only e.v6only a b ∧ SameHost m.receiver a ∧ SameHost m.sender b) ∨
  (out.ret = false ∧ out.tests = tests ∧ out.sid = none ∧ srv.2 = none ∧
    (srv.1.rc = .warning → out.err = .ok ∧ Quiet out.c srv.1.c ∧ Idle out.c srv.1.c)) ∨
  (out.ret = false ∧ out.tests = tests ∧ out.sid = none ∧ ∃ s, srv.2 = some s ∧ OwnFailure e s.sid out.err ∧ Quiet out.c srv.1.c ∧ Idle out.c srv.1.c)

/-- The client said nothing, so the server heard nothing. -/
theorem outcome_silent {ρ : Type} {H : Mac} {env : TestEnv} {t : Turn ρ} {e : ClientEnv} {A B : Conn} (M : Meeting H env t e A B) (tests : List Mine) (x : Sev) :
    Outcome env e tests A.twoway (refuse tests x A) (serverTurn H env t (fed A A B)) := by
  have hf : fed A A B = { B with inp := [] } := by
    unfold fed
    rw [List.drop_length, M.quiet.empty.2]; rfl
  have hs : ∀ T, (T = ReqType.testTW ∨ T = .test) → (readRequestType { B with inp := [] }).1 ≠ T := by
    intro T hT
    apply readRequestType_empty { B with inp := [] } M.quiet.ready.2.1 rfl
    · rcases hT with rfl | rfl <;> decide
    · rcases hT with rfl | rfl <;> decide
  have : serverTurn H env t (fed A A B) = (⟨[], true, .fatal, (readRequestType { B with inp := [] }).2⟩, none) := by
    unfold serverTurn
    rw [hf]
    dsimp only
    rw [if_neg]
    apply hs
    split
    · exact Or.inl rfl
    · exact Or.inr rfl
  rw [this]
  exact Or.inr (Or.inl ⟨rfl, rfl, rfl, rfl, fun h => by cases h⟩)

theorem sameFamily_of {x y : SockAddr} (h : kind x = kind y) (h6 : kind x = 6 ∨ kind x = 4) : sameFamily x y := by
  cases x <;> cases y <;> simp_all [kind, sameFamily]

theorem kind_setPort (x : SockAddr) (p : U16) : kind (x.setPort p) = kind x := by cases x <;> rfl
theorem scope_setPort (remote : SockAddr) (z : Bool) (x : SockAddr) (p : U16) : scopeKnown remote z (x.setPort p) ↔ scopeKnown remote z x := by
  cases x <;> exact Iff.rfl
theorem host_setPort (x y : SockAddr) (p : U16) (h : SameHost x y) : SameHost (x.setPort p) y := by
  cases x <;> cases y <;> exact h
theorem host_refl (x : SockAddr) (h : kind x = 6 ∨ kind x = 4) : SameHost x x := by
  cases x <;> simp_all [kind, SameHost]
theorem port_setPort (x : SockAddr) (p : U16) (h : kind x = 6 ∨ kind x = 4) : portOf (x.setPort p) = p := by
  cases x <;> simp_all [kind, portOf, SockAddr.setPort]
theorem setPort_setPort (x : SockAddr) (p q : U16) : (x.setPort p).setPort q = x.setPort q := by cases x <;> rfl
theorem withPort_setPort (x : SockAddr) (p q : U16) : withPort q (x.setPort p) = x.setPort q := by cases x <;> rfl
theorem seen_ours (remote : SockAddr) (z : Bool) (x : SockAddr) (p : U16) : seen remote z true (x.setPort p) = seen remote z true x := by
  cases x <;> rfl
theorem asked_setPort (tw : Bool) (a b : SockAddr) : ∃ p, asked tw a b = b.setPort p := by
  unfold asked
  split
  · exact ⟨_, rfl⟩
  · exact ⟨portOf b, by cases b <;> rfl⟩

/-- The addresses to choose from, and those chosen. -/
theorem chosen {e : ClientEnv} {rs ss : List Info} {r s : Info} (hr : given e.receiver e.confReceiver e.localAddr = some rs)
    (hs : given e.sender e.confSender e.localAddr = some ss) (hp : pickPair e.v4only e.v6only rs ss = some (r, s)) :
    ∃ a ∈ offered e.localAddr e.receiver, ∃ b ∈ offered e.localAddr e.sender, r.addr = a.setPort 0 ∧ s.addr = b.setPort 0 ∧ Fit e.v4only e.v6only a b := by
  have two : ∀ (x : Option (List Info)) (cf : Bool) (l : List Info), given x cf e.localAddr = some l →
      ∀ i ∈ l, i.socktype = 2 ∧ ∃ a ∈ offered e.localAddr x, i.addr = a.setPort 0 := by
    intro x cf l h i hi
    unfold given at h
    split at h
    · cases h
      rw [List.mem_map] at hi
      obtain ⟨j, hj, rfl⟩ := hi
      refine ⟨rfl, j.addr, ?_, rfl⟩
      simp only [offered, Option.map_some, Option.getD_some, List.mem_map]
      exact ⟨j, hj, rfl⟩
    · split at h
      · cases h
      · cases h
        simp only [List.mem_singleton] at hi
        subst hi
        exact ⟨rfl, e.localAddr, by simp [offered], rfl⟩
  have C := C77_addresses e.v4only e.v6only rs ss (fun i hi => (two _ _ _ hr i hi).1) (fun i hi => (two _ _ _ hs i hi).1)
  rw [hp] at C
  obtain ⟨c1, c2, c3, _⟩ := C
  obtain ⟨_, a, ha, ea⟩ := two _ _ _ hr r c1
  obtain ⟨_, b, hb, eb⟩ := two _ _ _ hs s c2
  refine ⟨a, ha, b, hb, ea, eb, ?_⟩
  rw [ea, eb] at c3
  unfold Fit at c3 ⊢
  rw [kind_setPort, kind_setPort] at c3
  exact c3

theorem idle_after {A B C D : Conn} (h : Idle A B) (b1 b2 b3 : Bool) (hC : C.state = { A.state with acceptSession := false })
    (hD : D.state = { B.state with testRequest := false, testRequestSlots := b1, testRequestTW := b2, acceptSession := b3 }) : Idle C D := by
  obtain ⟨h1, h2, h3, h4, h5⟩ := h
  refine ⟨by rw [hC]; exact h1, ?_, by rw [hD]; exact h3, ?_, by rw [hD]; exact h5⟩
  · rw [hC]
    unfold CState.isPending at h2 ⊢
    simp only [Bool.or_eq_false_iff] at h2 ⊢
    exact ⟨⟨⟨trivial, h2.1.1.2⟩, h2.1.2⟩, h2.2⟩
  · rw [hD]
    unfold CState.isReading at h4 ⊢
    simp only [Bool.or_eq_false_iff] at h4 ⊢
    exact ⟨⟨⟨trivial, h4.1.1.2⟩, h4.1.2⟩, h4.2⟩

/-- The server receives or reflects. -/
theorem outcome_remote {ρ : Type} {H : Mac} {env : TestEnv} {t : Turn ρ} {e : ClientEnv} {A B : Conn} (M : Meeting H env t e A B) (tests : List Mine)
    (a b : SockAddr) (ha : a ∈ offered e.localAddr e.receiver) (hb : b ∈ offered e.localAddr e.sender) (hfit : Fit e.v4only e.v6only a b)
    (hcs : e.confSender = false) (hcr : A.twoway = false → e.confReceiver = true) :
    let out := requestRemote H e tests (b.setPort 0) (a.setPort 0) A
    Outcome env e tests A.twoway out (serverTurn H env t (fed A out.c B)) := by
  intro out
  have hka : kind a = 6 ∨ kind a = 4 := hfit.2.imp (·.1) (·.1)
  have hkb : kind b = 6 ∨ kind b = 4 := by rw [← hfit.1]; exact hka
  have hsa : scopeKnown env.remote e.zeroAddr a := M.scopes a (List.mem_append_right _ ha)
  have hsb : scopeKnown env.remote e.zeroAddr b := M.scopes b (List.mem_append_left _ hb)
  show Outcome env e tests A.twoway (requestRemote H e tests (b.setPort 0) (a.setPort 0) A) (serverTurn H env t (fed A (requestRemote H e tests (b.setPort 0) (a.setPort 0) A).c B))
  unfold requestRemote
  rw [hcs]
  simp only [Bool.false_eq_true, if_false]
  cases hep : e.endpoint (b.setPort 0) with
  | error x => exact outcome_silent M tests x
  | ok p =>
    simp only [Except.map, setPort_setPort]
    have hc2 : (!A.twoway && false) = false := by cases A.twoway <;> rfl
    have hc3 : (!A.twoway && e.confReceiver) = !A.twoway := by
      cases h : A.twoway
      · rw [hcr h]; rfl
      · rfl
    rw [hc2, hc3]
    obtain ⟨pa, hpa⟩ := asked_setPort A.twoway (b.setPort p) (a.setPort 0)
    rw [setPort_setPort] at hpa
    obtain ⟨i1, i2, i3, i4, i5⟩ := M.idle
    -- what the server reads
    obtain ⟨wire, b1, b2, D⟩ : ∃ wire b1 b2, ∀ i, Delivers A { B with inp := i }
        (writeTestRequest H · ⟨b.setPort p, asked A.twoway (b.setPort p) (a.setPort 0), false, !A.twoway, e.zeroAddr, if A.twoway then none else some (zeros 16), e.spec⟩)
        (afterType (if B.twoway then .testTW else .test) (serverReads H env.remote env.localAddr)) wire
        (if A.twoway then
          (⟨filledIn env.remote (seen env.remote e.zeroAddr false (b.setPort p)), filledIn env.localAddr (seen env.remote e.zeroAddr false (a.setPort pa)),
            false, false, zeros 16, { e.spec with npackets := 0, slots := [] }⟩, .accept)
        else (⟨seen env.remote e.zeroAddr false (b.setPort p), seen env.remote e.zeroAddr true a, false, true, zeros 16, e.spec⟩, .accept))
        { A.state with acceptSession := true }
        { B.state with testRequest := false, testRequestSlots := b1, testRequestTW := b2, acceptSession := true } := by
      rw [hpa]
      have hfam : sameFamily (b.setPort p) (a.setPort pa) := sameFamily_of (by rw [kind_setPort, kind_setPort, hfit.1]) (by rw [kind_setPort]; exact hkb)
      cases htw : A.twoway with
      | true =>
        have hB : B.twoway = true := by rw [← M.twoway]; exact htw
        have D := fun i => C11_request_twoway H env.remote env.localAddr A { B with inp := i } M.quiet.ready.1 M.quiet.ready.2 M.quiet.linked
          ⟨b.setPort p, a.setPort pa, false, false, e.zeroAddr, none, e.spec⟩ hfam (fun s h => by cases h)
          ((scope_setPort _ _ _ _).2 hsb) ((scope_setPort _ _ _ _).2 hsa) i1 i2 htw i3 i4 i5 hB
        exact ⟨_, true, true, by rw [show (if B.twoway then ReqType.testTW else .test) = .testTW by rw [hB]; rfl]; exact D⟩
      | false =>
        have hB : B.twoway = false := by rw [← M.twoway]; exact htw
        obtain ⟨n1, n2, n3, n4⟩ := M.spec htw
        have D := fun i => C11_request H env.remote env.localAddr A { B with inp := i } M.quiet.ready.1 M.quiet.ready.2 M.quiet.linked
          ⟨b.setPort p, a.setPort pa, false, true, e.zeroAddr, some (zeros 16), e.spec⟩ hfam (fun s h => by cases h; simp) (Or.inr rfl) n1 n2 n3 n4
          ((scope_setPort _ _ _ _).2 hsb) ((scope_setPort _ _ _ _).2 hsa) i1 i2 htw i3 i4 i5 hB
        simp only [seen_ours] at D
        exact ⟨_, false, B.state.testRequestTW, by rw [show (if B.twoway then ReqType.testTW else .test) = .test by rw [hB]; rfl]; exact D⟩
    have K := ask_server H env t A B M.quiet.empty.1 M.quiet.empty.2 e M.peer false (!A.twoway) (b.setPort p) (a.setPort 0) (zeros 16) wire _ _ _ rfl rfl
      (by
        intro i
        have := D i
        rw [show ∀ (c : Bool) (x y : TestReq), (if c then (x, Accept.accept) else (y, Accept.accept)) = ((if c then x else y), Accept.accept) from fun c x y => by cases c <;> rfl] at this
        exact this)
    dsimp only at K
    obtain ⟨xr, xc, hx⟩ : ∃ xr xc, askServer H e false (!A.twoway) (b.setPort p) (a.setPort 0) (zeros 16) A = (xr, xc) := ⟨_, _, rfl⟩
    rw [hx] at K ⊢
    dsimp only at K
    generalize hreq : (if A.twoway then (⟨filledIn env.remote (seen env.remote e.zeroAddr false (b.setPort p)), filledIn env.localAddr (seen env.remote e.zeroAddr false (a.setPort pa)),
            false, false, zeros 16, { e.spec with npackets := 0, slots := [] }⟩ : TestReq)
        else ⟨seen env.remote e.zeroAddr false (b.setPort p), seen env.remote e.zeroAddr true a, false, true, zeros 16, e.spec⟩) = req at K
    cases hv : answerTest env B.twoway B.cipher req with
    | no n =>
      rw [hv] at K
      cases n with
      | fatal =>
        obtain ⟨rfl, k2, k3⟩ := K
        exact Or.inr (Or.inl ⟨rfl, rfl, rfl, k2, fun h => by rw [show (refuse tests Sev.fatal xc).c = xc from rfl, k3] at h; cases h⟩)
      | refuse acc =>
        obtain ⟨p1, p2⟩ := refuse_proper M.proper hv
        obtain ⟨rfl, k2, k3, k4, k5, k6⟩ := K p2 p1
        exact Or.inr (Or.inl ⟨rfl, rfl, rfl, k2, fun _ => ⟨rfl, k4, idle_after M.idle b1 b2 false k5 k6⟩⟩)
    | grant port sid dest =>
      rw [hv] at K
      have hg : port = env.port ∧ env.newSid = some sid ∧ dest = if A.twoway then some req.sender else none := by
        rw [← M.twoway] at hv
        cases htw : A.twoway with
        | true => rw [htw] at hv; exact grant_twoway hv
        | false =>
          rw [htw] at hv hreq
          subst hreq
          exact grant_oneway rfl hv
      obtain ⟨rfl, g2, g3⟩ := hg
      obtain ⟨rfl, k2, k3, k4, k5, k6⟩ := K (M.sids.2 sid g2)
      have hid := idle_after M.idle b1 b2 false k5 k6
      have hrcv : (if !(false && !(!A.twoway)) && (A.twoway || (!false && !A.twoway)) then (asked A.twoway (b.setPort p) (a.setPort 0)).setPort env.port
          else asked A.twoway (b.setPort p) (a.setPort 0)) = a.setPort env.port := by
        rw [hpa]
        cases A.twoway <;> exact setPort_setPort _ _ _
      have hsid : (if A.twoway || !A.twoway then sid else zeros 16) = sid := by cases A.twoway <;> rfl
      rw [hrcv, hsid]
      simp only [Bool.false_and, Bool.false_eq_true, if_false]
      have fail : ∀ x, OwnFailure e sid x → Outcome env e tests A.twoway (refuse tests x xc) (serverTurn H env t (fed A xc B)) := by
        intro x hx
        exact Or.inr (Or.inr ⟨rfl, rfl, rfl, _, k2, hx, k4, hid⟩)
      split
      · rename_i hsch
        exact fail .ok (Or.inl ⟨by simpa using hsch, rfl⟩)
      · split
        · rename_i x hpol
          exact fail x (Or.inr (Or.inl ⟨_, _, hpol⟩))
        · split
          · rename_i x hhk
            exact fail x (Or.inr (Or.inr ⟨_, _, hhk⟩))
          · refine Or.inl ⟨rfl, rfl, _, _, rfl, rfl, rfl, k2, ?_, k4, hid, a, ha, b, hb, hfit, host_setPort _ _ _ (host_refl a hka), host_setPort _ _ _ (host_refl b hkb)⟩
            rw [← hreq] at g3 ⊢
            cases htw : A.twoway with
            | true =>
              rw [htw] at g3
              refine ⟨rfl, rfl, Or.inl ⟨rfl, rfl, rfl⟩, ⟨fun _ => rfl, fun h => by cases h⟩, ⟨fun _ => port_setPort _ _ hka, fun h => by cases h⟩, ?_, ⟨fun _ => ⟨pa, ?_⟩, fun h => by cases h⟩⟩
              · simpa using g3
              · simp only [withPort_setPort]
                rfl
            | false =>
              rw [htw] at g3
              refine ⟨rfl, rfl, Or.inl ⟨rfl, rfl, rfl⟩, ⟨fun _ => rfl, fun h => by cases h⟩, ⟨fun _ => port_setPort _ _ hka, fun h => by cases h⟩, ?_, ⟨fun _ => ⟨0, ?_⟩, fun h => by cases h⟩⟩
              · simpa using g3
              · simp only [seen_ours]
                rfl

/-- The server sends. -/
theorem outcome_local {ρ : Type} {H : Mac} {env : TestEnv} {t : Turn ρ} {e : ClientEnv} {A B : Conn} (M : Meeting H env t e A B) (tests : List Mine)
    (a b : SockAddr) (ha : a ∈ offered e.localAddr e.receiver) (hb : b ∈ offered e.localAddr e.sender) (hfit : Fit e.v4only e.v6only a b)
    (htw : A.twoway = false) (hcs : e.confSender = true) (hcr : e.confReceiver = false) :
    let out := requestLocal H e tests (b.setPort 0) (a.setPort 0) A
    Outcome env e tests A.twoway out (serverTurn H env t (fed A out.c B)) := by
  intro out
  have hka : kind a = 6 ∨ kind a = 4 := hfit.2.imp (·.1) (·.1)
  have hkb : kind b = 6 ∨ kind b = 4 := by rw [← hfit.1]; exact hka
  have hsa : scopeKnown env.remote e.zeroAddr a := M.scopes a (List.mem_append_right _ ha)
  have hsb : scopeKnown env.remote e.zeroAddr b := M.scopes b (List.mem_append_left _ hb)
  show Outcome env e tests A.twoway (requestLocal H e tests (b.setPort 0) (a.setPort 0) A) (serverTurn H env t (fed A (requestLocal H e tests (b.setPort 0) (a.setPort 0) A).c B))
  unfold requestLocal
  rw [hcs, hcr]
  simp only [Bool.not_true, Bool.false_eq_true, if_false, setPort_setPort]
  cases hn : e.newSid with
  | none => exact outcome_silent M tests _
  | some sid0 =>
    dsimp only
    split
    · exact outcome_silent M tests _
    split
    · exact outcome_silent M tests _
    split
    · exact outcome_silent M tests _
    rename_i p hep
    obtain ⟨i1, i2, i3, i4, i5⟩ := M.idle
    have hB : B.twoway = false := by rw [← M.twoway]; exact htw
    have hfam : sameFamily (b.setPort 0) (a.setPort p) := sameFamily_of (by rw [kind_setPort, kind_setPort, hfit.1]) (by rw [kind_setPort]; exact hkb)
    obtain ⟨n1, n2, n3, n4⟩ := M.spec htw
    have hask : asked A.twoway (b.setPort 0) (a.setPort p) = a.setPort p := by rw [htw]; rfl
    have D := fun i => C11_request H env.remote env.localAddr A { B with inp := i } M.quiet.ready.1 M.quiet.ready.2 M.quiet.linked
      ⟨b.setPort 0, a.setPort p, true, false, e.zeroAddr, some sid0, e.spec⟩ hfam (fun s h => by cases h; exact M.sids.1 _ hn) (Or.inl rfl) n1 n2 n3 n4
      ((scope_setPort _ _ _ _).2 hsb) ((scope_setPort _ _ _ _).2 hsa) i1 i2 htw i3 i4 i5 hB
    simp only [seen_ours] at D
    have K := ask_server H env t A B M.quiet.empty.1 M.quiet.empty.2 e M.peer true false (b.setPort 0) (a.setPort p) sid0 _ _ _ _ rfl rfl
      (by rw [hask, htw, show (if B.twoway then ReqType.testTW else .test) = .test by rw [hB]; rfl]; exact D)
    dsimp only at K
    obtain ⟨xr, xc, hx⟩ : ∃ xr xc, askServer H e true false (b.setPort 0) (a.setPort p) sid0 A = (xr, xc) := ⟨_, _, rfl⟩
    rw [hx] at K ⊢
    dsimp only at K
    simp only [Option.getD_some] at K
    generalize hreq : (⟨seen env.remote e.zeroAddr true b, seen env.remote e.zeroAddr false (a.setPort p), true, false, sid0, e.spec⟩ : TestReq) = req at K
    cases hv : answerTest env B.twoway B.cipher req with
    | no n =>
      rw [hv] at K
      cases n with
      | fatal =>
        obtain ⟨rfl, k2, k3⟩ := K
        exact Or.inr (Or.inl ⟨rfl, rfl, rfl, k2, fun h => by rw [show (refuse tests Sev.fatal xc).c = xc from rfl, k3] at h; cases h⟩)
      | refuse acc =>
        obtain ⟨p1, p2⟩ := refuse_proper M.proper hv
        obtain ⟨rfl, k2, k3, k4, k5, k6⟩ := K p2 p1
        exact Or.inr (Or.inl ⟨rfl, rfl, rfl, k2, fun _ => ⟨rfl, k4, idle_after M.idle false B.state.testRequestTW false k5 k6⟩⟩)
    | grant port sid dest =>
      rw [hv] at K
      rw [hB] at hv
      subst hreq
      obtain ⟨rfl, g2, g3⟩ := grant_oneway rfl hv
      have g2 : sid0 = sid := g2
      subst g2
      obtain ⟨rfl, k2, k3, k4, k5, k6⟩ := K (M.sids.1 _ hn)
      have hid := idle_after M.idle false B.state.testRequestTW false k5 k6
      rw [hask, htw]
      simp only [Bool.not_false, Bool.and_self, if_true, Bool.not_true, Bool.false_eq_true, if_false, Bool.or_self, setPort_setPort]
      split
      · rename_i x hhk
        exact Or.inr (Or.inr ⟨rfl, rfl, rfl, _, k2, Or.inr (Or.inr ⟨_, _, hhk⟩), k4, hid⟩)
      · refine Or.inl ⟨rfl, rfl, _, _, rfl, rfl, rfl, k2, ?_, k4, hid, a, ha, b, hb, hfit, host_setPort _ _ _ (host_refl a hka), host_setPort _ _ _ (host_refl b hkb)⟩
        refine ⟨rfl, rfl, Or.inr ⟨rfl, rfl, rfl, rfl⟩, ⟨fun h => (by cases h), fun _ => rfl⟩, ⟨fun h => (by cases h), fun _ => port_setPort _ _ hkb⟩, ?_, ⟨fun h => (by cases h), fun _ => ?_⟩⟩
        · simpa using g3
        · simp only [seen_ours]

/-- C77: whatever the caller asks, whatever the server decides and whatever steps fail, there are three outcomes, see `Outcome`. -/
theorem C77_outcomes {ρ : Type} (H : Mac) (env : TestEnv) (t : Turn ρ) (e : ClientEnv) (A B : Conn) (M : Meeting H env t e A B) (tests : List Mine) :
    let out := sessionRequest H e tests A
    Outcome env e tests A.twoway out (serverTurn H env t (fed A out.c B)) := by
  intro out
  show Outcome env e tests A.twoway (sessionRequest H e tests A) (serverTurn H env t (fed A (sessionRequest H e tests A).c B))
  unfold sessionRequest
  rw [M.idle.1]
  simp only [Bool.not_true, Bool.false_eq_true, if_false]
  split
  · rename_i rs ss hr hs
    split
    · exact outcome_silent M tests _
    · rename_i r s hp
      obtain ⟨a, ha, b, hb, ea, eb, hfit⟩ := chosen hr hs hp
      rw [ea, eb]
      have hu := M.use
      split
      · rename_i hc
        refine outcome_remote M tests a b ha hb hfit ?_ ?_
        · cases htw : A.twoway with
          | true => rw [htw] at hu; exact hu
          | false => rw [htw] at hu hc; simp only [Bool.false_or] at hc; simp only [Bool.false_eq_true, if_false] at hu; rw [hu, hc]; rfl
        · intro htw; rw [htw] at hc; simpa using hc
      · rename_i hc
        simp only [Bool.or_eq_true, not_or, Bool.not_eq_true] at hc
        rw [hc.1] at hu
        simp only [Bool.false_eq_true, if_false] at hu
        exact outcome_local M tests a b ha hb hfit hc.1 (by rw [hu, hc.2]; rfl) hc.2
  · exact outcome_silent M tests _

/-- C77, success: when the call returns true the server holds a session too, and the two agree. -/
theorem C77_agree {ρ : Type} (H : Mac) (env : TestEnv) (t : Turn ρ) (e : ClientEnv) (A B : Conn) (M : Meeting H env t e A B) (tests : List Mine) :
    let out := sessionRequest H e tests A
    let srv := serverTurn H env t (fed A out.c B)
    out.ret = true → ∃ m s, out.tests = m :: tests ∧ out.sid = some m.sid ∧ srv.2 = some s ∧ Agree A.twoway e.zeroAddr env.remote env.localAddr env.port m s ∧
      Quiet out.c srv.1.c ∧ Idle out.c srv.1.c := by
  intro out srv h
  rcases C77_outcomes H env t e A B M tests with ⟨_, _, m, s, h1, h2, _, h3, h4, h5, h6, _⟩ | ⟨h1, _⟩ | ⟨h1, _⟩
  · exact ⟨m, s, h1, h2, h3, h4, h5, h6⟩
  · rw [show out.ret = false from h1] at h; cases h
  · rw [show out.ret = false from h1] at h; cases h

/-- C77, refusal: when the server refuses, the call returns false without an error, neither side holds a session, and both can go on. -/
theorem C77_refused {ρ : Type} (H : Mac) (env : TestEnv) (t : Turn ρ) (e : ClientEnv) (A B : Conn) (M : Meeting H env t e A B) (tests : List Mine) :
    let out := sessionRequest H e tests A
    let srv := serverTurn H env t (fed A out.c B)
    srv.1.rc = .warning → srv.2 = none → out.ret = false ∧ out.err = .ok ∧ out.tests = tests ∧ Quiet out.c srv.1.c ∧ Idle out.c srv.1.c := by
  intro out srv h h'
  rcases C77_outcomes H env t e A B M tests with ⟨_, _, m, s, _, _, _, h3, _⟩ | ⟨h1, h2, _, _, h3⟩ | ⟨_, _, _, s, h3, _⟩
  · rw [show srv.2 = some s from h3] at h'; cases h'
  · obtain ⟨a, b, c⟩ := h3 h
    exact ⟨h1, a, h2, b, c⟩
  · rw [show srv.2 = some s from h3] at h'; cases h'

/-- The client's own steps after the server's agreement succeed. -/
def Smooth (e : ClientEnv) : Prop := (∀ s, e.sched s = true) ∧ (∀ x y, e.policy true x y = none) ∧ (∀ x y, e.hook x y = none)

/-- Sessions in the same order, each agreeing with its counterpart. -/
inductive Paired : List Mine → List Session → Prop
  | nil : Paired [] []
  | cons {m : Mine} {s : Session} {ms : List Mine} {ss : List Session} (twoway zero : Bool) (remote own : SockAddr) (port : U16) :
      Agree twoway zero remote own port m s → Paired ms ss → Paired (m :: ms) (s :: ss)

/-- A control connection on which the client asks for one session after the other: the sessions of both sides, and the connection. -/
inductive Asked (H : Mac) (ρ : Type) : List Mine → List Session → Conn → Conn → Prop
  | start (A B : Conn) : Asked H ρ [] [] A B
  | ask {ms : List Mine} {ss : List Session} {A B : Conn} (env : TestEnv) (t : Turn ρ) (e : ClientEnv) : Asked H ρ ms ss A B → Meeting H env t e A B → Smooth e →
      (out : Called) → out = sessionRequest H e ms A → (srv : Pass × Option Session) → srv = serverTurn H env t (fed A out.c B) →
      Asked H ρ out.tests (srv.2.toList ++ ss) out.c srv.1.c

/-- C77, over any number of requests: the client's and the server's list of sessions correspond one to one. What is missing for the full C77: a request after which a step
of the client's own fails, see `C77_orphan`. -/
theorem C77_history_partial (H : Mac) (ρ : Type) (ms : List Mine) (ss : List Session) (A B : Conn) (h : Asked H ρ ms ss A B) : Paired ms ss := by
  induction h with
  | start => exact .nil
  | @ask ms ss A B env t e _ M S out ho srv hs ih =>
    subst ho hs
    rcases C77_outcomes H env t e A B M ms with ⟨_, _, m, s, h1, _, _, h3, h4, _⟩ | ⟨_, h2, _, h3, _⟩ | ⟨_, _, _, s, _, h4, _⟩
    · rw [h1, h3]
      exact .cons _ _ _ _ _ h4 ih
    · rw [h2, h3]
      exact ih
    · rcases h4 with ⟨h, _⟩ | ⟨x, y, h⟩ | ⟨x, y, h⟩
      · rw [S.1] at h; cases h
      · rw [S.2.1] at h; cases h
      · rw [S.2.2] at h; cases h

/-! ## What the caller asked for -/

theorem setPort_twice (x : SockAddr) (p q : U16) : (x.setPort p).setPort q = x.setPort q := by cases x <;> rfl
theorem setPort_self (x : SockAddr) : x = x.setPort x.port := by cases x <;> rfl
theorem sameHost_setPort {x : SockAddr} (h : kind x = 4 ∨ kind x = 6) (p q : U16) : SameHost (x.setPort p) (x.setPort q) := by
  cases x <;> simp [kind, SameHost, SockAddr.setPort] at h ⊢
theorem fit_setPort {v4 v6 : Bool} {r s : SockAddr} (p q : U16) : Fit v4 v6 (r.setPort p) (s.setPort q) ↔ Fit v4 v6 r s := by
  unfold Fit; rw [kind_setPort, kind_setPort]

/-- The answer of the server changes nothing but ports and the identifier. -/
theorem askServer_ends {H : Mac} {e : ClientEnv} {cs cr : Bool} {snd rcv : SockAddr} {sid : Bytes} {c c' : Conn} {x y : SockAddr} {sid' : Bytes}
    (h : askServer H e cs cr snd rcv sid c = (.ok (x, y, sid'), c')) : (∃ p, x = snd.setPort p) ∧ ∃ p, y = rcv.setPort p := by
  unfold askServer at h
  dsimp only at h
  have hr : ∃ p, (if (c.twoway && decide (rcv.port = 0)) = true then rcv.setPort snd.port else rcv) = rcv.setPort p := by
    split
    · exact ⟨_, rfl⟩
    · exact ⟨_, setPort_self _⟩
  obtain ⟨p, hp⟩ := hr
  rw [hp] at h
  split at h
  · cases h
  · split at h
    · cases h
    · split at h
      · simp only [Prod.mk.injEq, Except.ok.injEq] at h
        obtain ⟨⟨h1, h2, _⟩, _⟩ := h
        rw [← h1, ← h2]
        split
        · exact ⟨⟨_, rfl⟩, ⟨_, rfl⟩⟩
        · split
          · exact ⟨⟨_, setPort_self _⟩, ⟨_, setPort_twice _ _ _⟩⟩
          · exact ⟨⟨_, setPort_self _⟩, ⟨_, rfl⟩⟩
      · cases h

theorem remote_proper {H : Mac} {e : ClientEnv} {tests : List Mine} {a b : SockAddr} {c : Conn} (ha : a ∈ offered e.localAddr e.receiver) (hb : b ∈ offered e.localAddr e.sender)
    (hf : Fit e.v4only e.v6only a b) (hw : c.twoway = true ∨ e.confReceiver = true) :
    let out := requestRemote H e tests (b.setPort 0) (a.setPort 0) c
    out.ret = true → ∃ m, out.tests = m :: tests ∧ Wanted e c.twoway m := by
  intro out hret
  have ka : kind a = 4 ∨ kind a = 6 := by have := hf.2; omega
  have kb : kind b = 4 ∨ kind b = 6 := by have := hf.1; omega
  have hout : out = requestRemote H e tests (b.setPort 0) (a.setPort 0) c := rfl
  unfold requestRemote at hout
  split at hout
  · rw [hout] at hret; cases hret
  · rename_i snd hs
    have hsnd : ∃ p, snd = b.setPort p := by
      split at hs
      · cases hs; exact ⟨_, rfl⟩
      · cases he : e.endpoint (b.setPort 0) with
        | error x => rw [he] at hs; cases hs
        | ok p => rw [he] at hs; cases hs; exact ⟨p, setPort_twice _ _ _⟩
    obtain ⟨p, rfl⟩ := hsnd
    split at hout
    · rw [hout] at hret; cases hret
    · rename_i x y sid c' hask
      obtain ⟨⟨q, hx⟩, ⟨r, hy⟩⟩ := askServer_ends hask
      rw [setPort_twice] at hx hy
      subst hx hy
      have S : SameHost b (b.setPort q) := by have := sameHost_setPort kb b.port q; rwa [← setPort_self] at this
      have R : SameHost a (a.setPort r) := by have := sameHost_setPort ka a.port r; rwa [← setPort_self] at this
      split at hout
      · rw [hout] at hret; cases hret
      · rename_i hsched
        have hsched : e.sched sid = true := by simpa using hsched
        split at hout
        · rename_i hcs
          rw [hout]
          exact ⟨_, rfl, ⟨b, hb, S⟩, ⟨a, ha, R⟩, (fit_setPort _ _).2 hf, ⟨sid, hsched, fun _ => rfl⟩, fun _ => ⟨hcs, hw⟩, (fun h => by cases h), (fun h => by cases h)⟩
        · rename_i hcs
          split at hout
          · rw [hout] at hret; cases hret
          · rename_i hp
            split at hout
            · rw [hout] at hret; cases hret
            · rename_i hh
              rw [hout]
              exact ⟨_, rfl, ⟨b, hb, S⟩, ⟨a, ha, R⟩, (fit_setPort _ _).2 hf, ⟨sid, hsched, fun _ => rfl⟩, (fun h => by cases h), (fun _ => ⟨by simpa using hcs, hw, hp, hh⟩), (fun h => by cases h)⟩

theorem local_proper {H : Mac} {e : ClientEnv} {tests : List Mine} {a b : SockAddr} {c : Conn} (ha : a ∈ offered e.localAddr e.receiver) (hb : b ∈ offered e.localAddr e.sender)
    (hf : Fit e.v4only e.v6only a b) (hw : c.twoway = false ∧ e.confReceiver = false) :
    let out := requestLocal H e tests (b.setPort 0) (a.setPort 0) c
    out.ret = true → ∃ m, out.tests = m :: tests ∧ Wanted e c.twoway m := by
  intro out hret
  have ka : kind a = 4 ∨ kind a = 6 := by have := hf.2; omega
  have kb : kind b = 4 ∨ kind b = 6 := by have := hf.1; omega
  have hout : out = requestLocal H e tests (b.setPort 0) (a.setPort 0) c := rfl
  unfold requestLocal at hout
  dsimp only at hout
  split at hout
  · rw [hout] at hret; cases hret
  · rename_i sid0 _
    split at hout
    · rw [hout] at hret; cases hret
    · rename_i hsched
      split at hout
      · rw [hout] at hret; cases hret
      · rename_i hpol
        split at hout
        · rw [hout] at hret; cases hret
        · rename_i p _
          split at hout
          · rw [hout] at hret; cases hret
          · rename_i hcs
            split at hout
            · rw [hout] at hret; cases hret
            · rename_i x y sid c' hask
              obtain ⟨⟨q, hx⟩, ⟨r, hy⟩⟩ := askServer_ends hask
              rw [setPort_twice] at hx
              rw [setPort_twice, setPort_twice] at hy
              subst hx hy
              have S : SameHost b (b.setPort q) := by have := sameHost_setPort kb b.port q; rwa [← setPort_self] at this
              have R : SameHost a (a.setPort r) := by have := sameHost_setPort ka a.port r; rwa [← setPort_self] at this
              split at hout
              · rw [hout] at hret; cases hret
              · rename_i hh
                rw [hout]
                exact ⟨_, rfl, ⟨b, hb, S⟩, ⟨a, ha, R⟩, (fit_setPort _ _).2 hf, ⟨sid0, by simpa using hsched, fun h => absurd rfl h⟩, (fun h => by cases h), (fun h => by cases h),
                  fun _ => ⟨hw.1, by simpa using hcs, hw.2, hh, _, _, sameHost_setPort ka 0 r, sameHost_setPort kb 0 q, hpol⟩⟩

/-- C77, whatever the server does: a session that the caller is told to have is the one they asked for, and the client's policy allows it. -/
theorem C77_asked (H : Mac) (e : ClientEnv) (tests : List Mine) (c : Conn) :
    let out := sessionRequest H e tests c
    out.ret = true → ∃ m, out.tests = m :: tests ∧ Wanted e c.twoway m := by
  intro out hret
  have hout : out = sessionRequest H e tests c := rfl
  unfold sessionRequest at hout
  split at hout
  · rw [hout] at hret; cases hret
  · split at hout
    · rename_i rs ss hr hs
      split at hout
      · rw [hout] at hret; cases hret
      · rename_i r s hp
        obtain ⟨a, ha, b, hb, ea, eb, hfit⟩ := chosen hr hs hp
        rw [ea, eb] at hout
        split at hout
        · rename_i hw
          rw [hout] at hret ⊢
          exact remote_proper ha hb hfit (by simpa using hw) hret
        · rename_i hw
          rw [hout] at hret ⊢
          exact local_proper ha hb hfit (by simpa using hw) hret
    · rw [hout] at hret; cases hret

/-- C77, addresses that do not fit: the caller is warned, and the server is not asked. -/
theorem C77_misfit (H : Mac) (e : ClientEnv) (tests : List Mine) (c : Conn) (hq : c.state.request = true)
    (hn : (e.sender = none → e.confSender = false) ∧ (e.receiver = none → e.confReceiver = false)) 
    (hm : ∀ a ∈ offered e.localAddr e.receiver, ∀ b ∈ offered e.localAddr e.sender, ¬ Fit e.v4only e.v6only a b) :
    let out := sessionRequest H e tests c
    out.ret = false ∧ out.err = .warning ∧ out.tests = tests ∧ out.c = c := by
  unfold sessionRequest
  rw [hq]
  simp only [Bool.not_true, Bool.false_eq_true, if_false]
  have hg : ∀ (x : Option (List Info)) (cf : Bool), (x = none → cf = false) → ∃ l, given x cf e.localAddr = some l := by
    intro x cf h
    unfold given
    cases x with
    | some l => exact ⟨_, rfl⟩
    | none => rw [h rfl]; exact ⟨_, rfl⟩
  obtain ⟨rs, hr⟩ := hg _ _ hn.2
  obtain ⟨ss, hs⟩ := hg _ _ hn.1
  rw [hr, hs]
  dsimp only
  cases hp : pickPair e.v4only e.v6only rs ss with
  | none => exact ⟨rfl, rfl, rfl, rfl⟩
  | some p =>
    obtain ⟨r, s⟩ := p
    obtain ⟨a, ha, b, hb, _, _, hfit⟩ := chosen hr hs hp
    exact absurd hfit (hm a ha b hb)

/-! ## Concrete requests -/

/-- Either end of a connection in open mode. -/
def askConn (twoway : Bool) : Conn := { openConn twoway [] with writeIV := zeros 16, readIV := zeros 16 }

/-- A client at 10.0.0.2 that asks the server at 10.0.0.1 for a session; its own end is left to the library. `deny`: its own policy does not allow sending. -/
def demoAsk (twoway send deny : Bool) : ClientEnv where
  sender := if send then none else some [⟨.v4 0x0a000001#32 0, 1⟩]
  receiver := if send then some [⟨.v6 5 0 0, 1⟩, ⟨.v4 0x0a000001#32 0, 1⟩] else none
  localAddr := .v4 0x0a000002#32 4000#16
  confSender := !send
  confReceiver := send
  zeroAddr := false
  spec := ⟨7#64, 8#64, 0#32, 10#32, 100#32, [.randExp 9#64, .literal 10#64]⟩
  v4only := false
  v6only := false
  newSid := some (List.replicate 16 3#8)
  sched := fun _ => true
  policy := fun _ _ _ => if deny then some .ok else none
  endpoint := fun _ => .ok 8000#16
  hook := fun _ _ => none
  peer := servedBy anyMac demoTest openTurn (askConn twoway) (askConn twoway)

theorem demo_meeting (twoway send deny : Bool) (h : twoway = true → send = true) :
    Meeting anyMac demoTest openTurn (demoAsk twoway send deny) (askConn twoway) (askConn twoway) where
  quiet := ⟨⟨⟨rfl, zeros_length _, zeros_length _⟩, ⟨rfl, zeros_length _, zeros_length _⟩⟩, ⟨⟨rfl, fun _ => ⟨rfl, rfl, rfl, rfl⟩⟩, ⟨rfl, fun _ => ⟨rfl, rfl, rfl, rfl⟩⟩⟩, rfl, rfl⟩
  idle := ⟨rfl, rfl, rfl, rfl, rfl⟩
  peer := rfl
  twoway := rfl
  use := by cases twoway <;> cases send <;> simp_all [demoAsk, askConn, openConn]
  named := by cases send <;> simp [demoAsk]
  sids := ⟨fun s h => by cases h; exact List.length_replicate, fun s h => by cases h; exact List.length_replicate⟩
  spec := fun _ => ⟨show (100#32 : U32) ≠ 0 by decide, by simp [demoAsk], show 2 < 2 ^ 32 by decide, by intro s hs; simp [demoAsk] at hs; rcases hs with rfl | rfl <;> trivial⟩
  scopes := by
    intro a ha
    cases send <;> simp [offered, demoAsk] at ha
    · rcases ha with rfl | rfl <;> trivial
    · rcases ha with rfl | rfl | rfl
      · trivial
      · intro _ h; revert h; decide
      · trivial
  proper := ⟨fun _ _ _ _ _ h => (by cases h), fun _ _ h => (by cases h), fun _ h => (by cases h)⟩

/-- What the two sides of a concrete request hold: the client's return value, its session, the server's session. -/
def demoBoth (twoway send deny : Bool) : Bool × Sev × Option Mine × Option Session :=
  let A := askConn twoway
  let out := sessionRequest anyMac (demoAsk twoway send deny) [] A
  (out.ret, out.err, out.tests.head?, (serverTurn anyMac demoTest openTurn (fed A out.c A)).2)

/-- A server that receives, one that sends and one that reflects: each request succeeds, with the identifier of the receiving or reflecting side. -/
theorem C77_example :
    (demoBoth false true false).2.2.1.map (fun m => (m.sid, m.sender, m.receiver)) =
      some (List.replicate 16 1#8, .v4 0x0a000002#32 8000#16, .v4 0x0a000001#32 9000#16) ∧
    (demoBoth false false false).2.2.1.map (fun m => (m.sid, m.sender, m.receiver)) =
      some (List.replicate 16 3#8, .v4 0x0a000001#32 9000#16, .v4 0x0a000002#32 8000#16) ∧
    (demoBoth true true false).2.2.1.map (fun m => (m.sid, m.sender, m.receiver)) =
      some (List.replicate 16 1#8, .v4 0x0a000002#32 8000#16, .v4 0x0a000001#32 9000#16) ∧
    (demoBoth false false false).2.2.2.map (fun s => (s.sid, s.dest)) = some (List.replicate 16 3#8, some (.v4 0x0a000002#32 8000#16)) := by
  decide +kernel

/-- `C77_asked` is met by it, and `C77_misfit` by a caller who wants an IPv6 session between IPv4 addresses. -/
example : (demoBoth false true false).1 = true ∧ (demoBoth false false false).1 = true ∧ (demoBoth true true false).1 = true := by decide +kernel
example : (sessionRequest anyMac { demoAsk false true false with v6only := true } [] (askConn false)).err = .warning := by decide +kernel

/-- **C77 fails when a step of the client's own fails after the server has agreed.** Here the client's policy does not allow the session: the caller is told "no", without an error, as if the
server had refused, and may go on with the connection; but the server has set the session up, and will start it with the next sessions. -/
theorem C77_orphan :
    ∃ (env : TestEnv) (e : ClientEnv) (A B : Conn), Meeting anyMac env openTurn e A B ∧
      let out := sessionRequest anyMac e [] A
      out.ret = false ∧ out.err = .ok ∧ out.tests = [] ∧ ((serverTurn anyMac env openTurn (fed A out.c B)).2).isSome = true := by
  refine ⟨demoTest, demoAsk false true true, askConn false, askConn false, demo_meeting false true true (fun h => by cases h), ?_⟩
  decide +kernel

end Owamp.Props
