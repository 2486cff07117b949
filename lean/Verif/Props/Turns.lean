import Verif.Lemmas.Client
import Verif.Spec.Turns
import Verif.Props.Server
import Verif.Props.Asking
/-!
# C99: a client speaks only when it is its turn
-/
namespace Owamp.Props
open Owamp.Ctl Owamp.Client Owamp.Spec.Turns

variable {ρ : Type}

/-- What a call is about. -/
def kindOf : Call ρ → Kind
  | .ask _ _ => .ask
  | .start _ _ => .start
  | .stop _ => .stop
  | .wait _ _ => .stop
  | .fetch .. => .fetch

/-- How it ended. -/
def endOf : Res → End
  | .ok => .ok
  | .kept => .kept
  | .failed => .failed

/-- A call as it is seen from outside. -/
def seen (k : Call ρ) (r : Res) (c c' : Conn) : Step :=
  ⟨kindOf k, endOf r, c'.out ≠ c.out, c'.out ≠ c.out ∨ c'.inp ≠ c.inp⟩

/-- The calls of a program one after the other, each with the phase in which it was made. -/
def talk (H : Mac) : Phase → Conn → List (Call ρ) → List (Phase × Step)
  | _, _, [] => []
  | p, c, k :: ks =>
    let r := act H k c
    let s := seen k r.1 c r.2
    (p, s) :: talk H (next p s) r.2 ks

/-- The other side only sends, and the program's own steps report no fatal errors. -/
def SoundCall : Call ρ → Prop
  | .ask _ e => Peer e ∧ Mild e
  | _ => True

/-- The step says something that it may say, or it says nothing and does not succeed. -/
def InTurn (p : Phase) (s : Step) : Prop := s.spoke = true ∨ s.result = .ok → permits p s.kind = true

/-- A request for a session, or to start sessions, while sessions run. -/
def Lapse (p : Phase) (s : Step) : Prop := p = .running ∧ (s.kind = .ask ∨ s.kind = .start)

/-- The state of the connection in a phase. -/
def Fits (p : Phase) (c : Conn) : Prop :=
  c.state = .invalid ∨ (p = .idle ∧ c.state = .requestOnly) ∨ (p = .running ∧ c.state = busy)

theorem fits_over {c : Conn} (h : c.state = .invalid) (p : Phase) : Fits p c := Or.inl h

theorem spoke_iff (k : Call ρ) (r : Res) (c c' : Conn) : (seen k r c c').spoke = true ↔ c'.out ≠ c.out := by simp [seen]
theorem moved_still {k : Call ρ} {r : Res} {c c' : Conn} (h : Still c c') : (seen k r c c').moved = false ∧ (seen k r c c').spoke = false := by
  simp [seen, h.1, h.2]

theorem still_self {k : Call ρ} {r : Res} {c c' : Conn} (h : c' = c) : (seen k r c c').moved = false ∧ (seen k r c c').spoke = false := by
  subst h; exact moved_still (still_refl _)

theorem next_quiet {p : Phase} {s : Step} (hm : s.moved = false) (hr : s.result ≠ .ok) : next p s = p := by
  unfold next
  cases p <;> cases hk : s.kind <;> cases he : s.result <;> simp_all

theorem next_kept {p : Phase} {s : Step} (hr : s.result = .kept) : next p s = p := by
  unfold next
  cases p <;> cases hk : s.kind <;> simp_all

theorem next_same {p : Phase} {s : Step} (hk : s.kind = .ask ∨ s.kind = .fetch) (hr : s.result ≠ .failed) : next p s = p := by
  unfold next
  rcases hk with hk | hk <;> cases p <;> cases he : s.result <;> simp_all

/-- One call in a state that fits the phase. -/
theorem act_turn (H : Mac) (k : Call ρ) (hk : SoundCall k) (p : Phase) (c : Conn) (hc : Fits p c) :
    (InTurn p (seen k (act H k c).1 c (act H k c).2) ∨ Lapse p (seen k (act H k c).1 c (act H k c).2)) ∧
      Fits (next p (seen k (act H k c).1 c (act H k c).2)) (act H k c).2 := by
  -- a call that says nothing and does not succeed
  have mute : ∀ {s : Step}, s.spoke = false → s.result ≠ .ok → InTurn p s := by
    intro s h1 h2 h3
    rcases h3 with h3 | h3
    · rw [h1] at h3; cases h3
    · exact absurd h3 h2
  rcases hc with hc | ⟨rfl, hc⟩ | ⟨rfl, hc⟩
  · -- the connection failed before
    have no : c.state.request = false := by rw [hc]; rfl
    have all : Still c (act H k c).2 ∧ (act H k c).1 ≠ .ok ∧ (act H k c).2.state = .invalid := by
      cases k with
      | ask ms e =>
        show Still c (sessionRequest H e ms c).c ∧ Client.asked (sessionRequest H e ms c) ≠ .ok ∧ (sessionRequest H e ms c).c.state = .invalid
        have : sessionRequest H e ms c = refuse ms .fatal c := by
          unfold sessionRequest
          rw [if_pos (by rw [no]; rfl)]
        rw [this]
        exact ⟨still_refl _, by simp [Client.asked, refuse], hc⟩
      | start a b =>
        rcases start_st H a b c with ⟨h1, h2, h3⟩ | ⟨_, h2, _⟩
        · refine ⟨h3 no, ?_, h2⟩
          show (if (Client.start H a b c).1 then Res.ok else .failed) ≠ .ok
          rw [h1]; decide
        · rw [no] at h2; cases h2
      | stop t =>
        obtain ⟨h1, h2⟩ := stop_quiet H t c (by rw [no]; simp)
        refine ⟨?_, ?_, ?_⟩
        · show Still c (Client.stop H t c).2
          rw [h2]; exact still_fail _
        · show (if (Client.stop H t c).1 then Res.ok else .failed) ≠ .ok
          rw [h1]; decide
        · show (Client.stop H t c).2.state = _
          rw [h2]; rfl
      | wait ev t => exact wait_dead H ev t c hc
      | fetch a b j f l sid =>
        obtain ⟨h1, h2⟩ := fetch_refused H a b j f l sid c (Or.inl no)
        refine ⟨?_, ?_, ?_⟩
        · show Still c (Fetch.fetch H a b j f l sid c).2
          rcases h2 with h2 | h2 <;> rw [h2]
          · exact still_refl _
          · exact still_fail _
        · show fetched (Fetch.fetch H a b j f l sid c).1 ≠ .ok
          rw [h1]; decide
        · show (Fetch.fetch H a b j f l sid c).2.state = _
          rcases h2 with h2 | h2 <;> rw [h2]
          · exact hc
          · rfl
    obtain ⟨h1, h2, h3⟩ := all
    refine ⟨Or.inl (mute (moved_still h1).2 ?_), fits_over h3 _⟩
    intro h
    apply h2
    cases hr : (act H k c).1 <;> simp [seen, endOf, hr] at h ⊢
  · -- no sessions run
    cases k with
    | ask ms e =>
      show (InTurn .idle (seen (.ask ms e) (Client.asked (sessionRequest H e ms c)) c (sessionRequest H e ms c).c) ∨ _) ∧ Fits (next .idle (seen (.ask ms e) (Client.asked (sessionRequest H e ms c)) c (sessionRequest H e ms c).c)) (sessionRequest H e ms c).c
      refine ⟨Or.inl fun _ => rfl, ?_⟩
      rcases request_st H e hk.1 hk.2 ms c with ⟨h1, _, _⟩ | ⟨h1, _, h3, _⟩
      · exact fits_over h1 _
      · have : next .idle (seen (ρ := ρ) (.ask ms e) (Client.asked (sessionRequest H e ms c)) c (sessionRequest H e ms c).c) = .idle := by
          by_cases hr : (sessionRequest H e ms c).ret = true
          · exact next_same (Or.inl rfl) (by simp [seen, Client.asked, hr, endOf])
          · by_cases he : (sessionRequest H e ms c).err = .fatal
            · exact next_quiet (moved_still (h3 (by simpa using hr) he)).1 (by simp [seen, Client.asked, hr, he, endOf])
            · exact next_same (Or.inl rfl) (by simp [seen, Client.asked, hr, he, endOf])
        rw [this]
        exact Or.inr (Or.inl ⟨rfl, h1.trans hc⟩)
    | start a b =>
      refine ⟨Or.inl fun _ => rfl, ?_⟩
      show Fits (next .idle (seen (.start a b) (if (Client.start H a b c).1 then .ok else .failed) c (Client.start H a b c).2)) (Client.start H a b c).2
      rcases start_st H a b c with ⟨h1, h2, _⟩ | ⟨h1, _, h3⟩
      · exact fits_over h2 _
      · rw [h1]
        exact Or.inr (Or.inr ⟨rfl, by rw [h3, hc]; rfl⟩)
    | stop t =>
      obtain ⟨h1, h2⟩ := stop_quiet H t c (by rw [hc]; decide)
      show (InTurn .idle (seen (.stop t) (if (Client.stop H t c).1 then .ok else .failed) c (Client.stop H t c).2) ∨ _) ∧ Fits _ (Client.stop H t c).2
      rw [h1, h2]
      exact ⟨Or.inl (mute (moved_still (still_fail _)).2 (by simp [seen, endOf])), fits_over rfl _⟩
    | wait ev t =>
      obtain ⟨h1, h2, h3⟩ := wait_idle H ev t c hc
      show (InTurn .idle (seen (.wait ev t) (Client.wait H ev t c).1 c (Client.wait H ev t c).2) ∨ _) ∧ Fits (next .idle (seen (.wait ev t) (Client.wait H ev t c).1 c (Client.wait H ev t c).2)) (Client.wait H ev t c).2
      have hr : endOf (Client.wait H ev t c).1 ≠ .ok := by
        intro h
        apply h2
        cases hr : (Client.wait H ev t c).1 <;> simp [endOf, hr] at h ⊢
      refine ⟨Or.inl (mute ?_ hr), ?_⟩
      · simp [seen, h1]
      · rcases h3 with h3 | ⟨_, h3⟩
        · rw [next_quiet (still_self h3).1 hr, h3]
          exact Or.inr (Or.inl ⟨rfl, hc⟩)
        · exact fits_over h3 _
    | fetch a b j f l sid =>
      refine ⟨Or.inl fun _ => rfl, ?_⟩
      show Fits (next .idle (seen (.fetch a b j f l sid) (fetched (Fetch.fetch H a b j f l sid c).1) c (Fetch.fetch H a b j f l sid c).2)) (Fetch.fetch H a b j f l sid c).2
      rcases fetch_idle H a b j f l sid c hc with ⟨h1, h2 | h2⟩ | ⟨h1, h2⟩
      · rw [next_quiet (still_self h2).1 (by rw [h1]; simp [seen, endOf, fetched]), h2]
        exact Or.inr (Or.inl ⟨rfl, hc⟩)
      · exact fits_over h2 _
      · rw [next_same (Or.inr rfl) (by cases hf : (Fetch.fetch H a b j f l sid c).1 <;> simp [seen, endOf, fetched, hf] at h1 ⊢)]
        exact Or.inr (Or.inl ⟨rfl, h2⟩)
  · -- sessions run
    cases k with
    | ask ms e =>
      show (_ ∨ Lapse .running (seen (.ask ms e) (Client.asked (sessionRequest H e ms c)) c (sessionRequest H e ms c).c)) ∧ Fits (next .running (seen (.ask ms e) (Client.asked (sessionRequest H e ms c)) c (sessionRequest H e ms c).c)) (sessionRequest H e ms c).c
      refine ⟨Or.inr ⟨rfl, Or.inl rfl⟩, ?_⟩
      rcases request_st H e hk.1 hk.2 ms c with ⟨h1, _, _⟩ | ⟨h1, _, h3, _⟩
      · exact fits_over h1 _
      · have : next .running (seen (ρ := ρ) (.ask ms e) (Client.asked (sessionRequest H e ms c)) c (sessionRequest H e ms c).c) = .running := by
          by_cases hr : (sessionRequest H e ms c).ret = true
          · exact next_same (Or.inl rfl) (by simp [seen, Client.asked, hr, endOf])
          · by_cases he : (sessionRequest H e ms c).err = .fatal
            · exact next_quiet (moved_still (h3 (by simpa using hr) he)).1 (by simp [seen, Client.asked, hr, he, endOf])
            · exact next_same (Or.inl rfl) (by simp [seen, Client.asked, hr, he, endOf])
        rw [this]
        exact Or.inr (Or.inr ⟨rfl, h1.trans hc⟩)
    | start a b =>
      show (_ ∨ Lapse .running (seen (.start a b) (if (Client.start H a b c).1 then .ok else .failed) c (Client.start H a b c).2)) ∧
        Fits (next .running (seen (.start a b) (if (Client.start H a b c).1 then .ok else .failed) c (Client.start H a b c).2)) (Client.start H a b c).2
      refine ⟨Or.inr ⟨rfl, Or.inr rfl⟩, ?_⟩
      rcases start_st H a b c with ⟨h1, h2, _⟩ | ⟨h1, _, h3⟩
      · exact fits_over h2 _
      · rw [h1]
        exact Or.inr (Or.inr ⟨rfl, by rw [h3, hc]⟩)
    | stop t =>
      refine ⟨Or.inl fun _ => rfl, ?_⟩
      show Fits (next .running (seen (.stop t) (if (Client.stop H t c).1 then .ok else .failed) c (Client.stop H t c).2)) (Client.stop H t c).2
      rcases stop_busy H t c hc with ⟨h1, h2⟩ | ⟨h1, h2⟩
      · exact fits_over h2 _
      · rw [h1]
        exact Or.inr (Or.inl ⟨rfl, h2⟩)
    | wait ev t =>
      refine ⟨Or.inl fun _ => rfl, ?_⟩
      show Fits (next .running (seen (.wait ev t) (Client.wait H ev t c).1 c (Client.wait H ev t c).2)) (Client.wait H ev t c).2
      rcases wait_busy H ev t c hc with ⟨h1, h2⟩ | ⟨_, h2⟩ | ⟨h1, h2⟩
      · rw [next_quiet (still_self h1).1 (by cases hr : (Client.wait H ev t c).1 <;> simp [seen, endOf, hr] at h2 ⊢), h1]
        exact Or.inr (Or.inr ⟨rfl, hc⟩)
      · exact fits_over h2 _
      · rw [h1]
        exact Or.inr (Or.inl ⟨rfl, h2⟩)
    | fetch a b j f l sid =>
      obtain ⟨h1, h2⟩ := fetch_refused H a b j f l sid c (Or.inr (by rw [hc]))
      show (InTurn .running (seen (.fetch a b j f l sid) (fetched (Fetch.fetch H a b j f l sid c).1) c (Fetch.fetch H a b j f l sid c).2) ∨ _) ∧
        Fits (next .running (seen (.fetch a b j f l sid) (fetched (Fetch.fetch H a b j f l sid c).1) c (Fetch.fetch H a b j f l sid c).2)) (Fetch.fetch H a b j f l sid c).2
      rw [h1]
      have st : Still c (Fetch.fetch H a b j f l sid c).2 := by
        rcases h2 with h2 | h2 <;> rw [h2]
        · exact still_refl _
        · exact still_fail _
      refine ⟨Or.inl (mute (moved_still st).2 (by simp [seen, endOf, fetched])), ?_⟩
      rw [next_quiet (moved_still st).1 (by simp [seen, endOf, fetched])]
      rcases h2 with h2 | h2 <;> rw [h2]
      · exact Or.inr (Or.inr ⟨rfl, hc⟩)
      · exact fits_over rfl _

theorem talk_turn (H : Mac) (ks : List (Call ρ)) (hk : ∀ k ∈ ks, SoundCall k) (p : Phase) (c : Conn) (hc : Fits p c) :
    ∀ x ∈ talk H p c ks, InTurn x.1 x.2 ∨ Lapse x.1 x.2 := by
  induction ks generalizing p c with
  | nil => intro x hx; cases hx
  | cons k ks ih =>
    obtain ⟨h1, h2⟩ := act_turn H k (hk k (by simp)) p c hc
    intro x hx
    rw [talk] at hx
    rcases List.mem_cons.1 hx with rfl | hx
    · exact h1
    · exact ih (fun k h => hk k (by simp [h])) _ _ h2 x hx

/-- C99. Whatever a program calls after it has connected, whatever the server sends, whatever reads and writes fail and whatever endpoints and files do: a request to stop is sent only while
sessions run, a request for results only when none run, and nothing at all after an exchange broke off; and a call never succeeds in another phase. -/
theorem C99_in_turn_or_lapse (H : Mac) (ks : List (Call ρ)) (hk : ∀ k ∈ ks, SoundCall k) (c : Conn) (hs : c.state = .requestOnly) (p : Phase) (s : Step)
    (h : (p, s) ∈ talk H .idle c ks) : (s.spoke = true ∨ s.result = .ok → permits p s.kind = true) ∨ (p = .running ∧ (s.kind = .ask ∨ s.kind = .start)) :=
  talk_turn H ks hk .idle c (Or.inr (Or.inl ⟨rfl, hs⟩)) (p, s) h

/-- C99 for programs that ask for no sessions and start none while sessions run. What is missing: the library does not see to that itself, see `C99_out_of_turn`. -/
theorem C99_in_turn_partial (H : Mac) (ks : List (Call ρ)) (hk : ∀ k ∈ ks, SoundCall k) (c : Conn) (hs : c.state = .requestOnly)
    (polite : ∀ s, (Phase.running, s) ∈ talk H .idle c ks → s.kind ≠ .ask ∧ s.kind ≠ .start) (p : Phase) (s : Step)
    (h : (p, s) ∈ talk H .idle c ks) : s.spoke = true ∨ s.result = .ok → permits p s.kind = true := by
  rcases C99_in_turn_or_lapse H ks hk c hs p s h with k | ⟨rfl, k⟩
  · exact k
  · obtain ⟨h1, h2⟩ := polite s h
    rcases k with k | k
    · exact absurd k h1
    · exact absurd k h2

/-- C99: once an exchange broke off, the client is silent and every call fails, whatever it is. -/
theorem C99_silent_after_break (H : Mac) (ks : List (Call ρ)) (hk : ∀ k ∈ ks, SoundCall k) (c : Conn) (hs : c.state = .requestOnly) (s : Step)
    (h : (Phase.over, s) ∈ talk H .idle c ks) : s.spoke = false ∧ s.result ≠ .ok := by
  rcases C99_in_turn_or_lapse H ks hk c hs .over s h with k | ⟨k, _⟩
  · have no : permits .over s.kind = false := by cases s.kind <;> rfl
    rw [no] at k
    exact ⟨by cases hsp : s.spoke <;> simp_all, fun hr => by simp_all⟩
  · cases k

/-- A program's request for a session; the answer is in the input. -/
def askCall : Call Unit := .ask [] { demoAsk false true false with peer := id }
/-- Sessions that stop without trouble. -/
def easyEnds : Ends Unit := ⟨some (.accept, 0#32), true, true, [], ⟨fun _ _ _ => some (), fun _ _ => some (), fun _ _ _ => some ()⟩⟩

example : ∀ k ∈ [askCall, .start true true, .stop easyEnds], SoundCall k := by
  intro k hk
  simp only [List.mem_cons, List.not_mem_nil, or_false] at hk
  rcases hk with rfl | rfl | rfl
  · exact ⟨fun c => ⟨c.inp, rfl⟩, ⟨fun _ _ _ => (by simp [demoAsk]), fun _ _ => (by simp [demoAsk])⟩⟩
  · trivial
  · trivial

/-- A session is Client.asked for and granted, started, waited for, stopped; a fetch is refused; a second request is not answered, after which nothing goes any more. -/
theorem C99_example : talk anyMac .idle (openConn false (zeros 48 ++ zeros 32 ++ stopMsg ++ (1#8 :: zeros 31)))
    [askCall, .start true true, .wait .later easyEnds, .stop easyEnds, .fetch .unspec .unspec [] 0#32 9#32 (zeros 16), askCall, .start true true] =
    [(.idle, ⟨.ask, .ok, true, true⟩), (.idle, ⟨.start, .ok, true, true⟩), (.running, ⟨.stop, .kept, false, false⟩), (.running, ⟨.stop, .ok, true, true⟩),
      (.idle, ⟨.fetch, .kept, true, true⟩), (.idle, ⟨.ask, .failed, true, true⟩), (.over, ⟨.start, .failed, false, false⟩)] := by
  decide +kernel

/-- C99 is false: the library sends a request for a session while sessions run, which the protocol does not allow; the server that gets the three messages honours the first two and
refuses the third, which ends the connection and with it the sessions. -/
theorem C99_out_of_turn :
    talk anyMac .idle (openConn false (zeros 48 ++ zeros 32 ++ zeros 48)) [askCall, .start true true, askCall] =
      [(.idle, ⟨.ask, .ok, true, true⟩), (.idle, ⟨.start, .ok, true, true⟩), (.running, ⟨.ask, .ok, true, true⟩)] ∧
    (let c1 := (act anyMac askCall (openConn false (zeros 48 ++ zeros 32 ++ zeros 48))).2
     let c2 := (act anyMac (.start true true : Call Unit) c1).2
     (serve anyMac [openTurn, openTurn, openTurn] (openConn false (act anyMac askCall c2).2.out)).map (fun p => (p.heard, p.bad, p.rc)) =
      [([.test], false, .ok), ([.startSessions], true, .fatal)]) := by
  decide +kernel

end Owamp.Props
