import Verif.Lemmas.Setup
import Verif.Props.Protocol
/-!
# Lemmas for the client's side of set-up
-/
namespace Owamp.Ctl
open Owamp.Spec.Channel Owamp.Spec.Setup

theorem useridBuf_length (u : Bytes) : (useridBuf u).length = 80 := by
  unfold useridBuf
  rw [put_length _ _ _ (by simp [zeros_length]), zeros_length]

theorem cstr_zeros (n : Nat) : cstr (zeros n) = [] := by
  cases n <;> simp [cstr, zeros, List.replicate_succ]

theorem cstr_append (a b : Bytes) (h : ∀ x ∈ a, x ≠ 0#8) : cstr (a ++ b) = a ++ cstr b := by
  induction a with
  | nil => rfl
  | cons x xs ih =>
    have hx : x ≠ 0#8 := h x (by simp)
    simp only [cstr, List.cons_append]
    rw [List.takeWhile_cons_of_pos (by simpa using hx)]
    exact congrArg (x :: ·) (ih fun y hy => h y (by simp [hy]))

theorem cstr_useridBuf (u : Bytes) (h : ∀ x ∈ u, x ≠ 0#8) : cstr (useridBuf u) = u.take 80 := by
  unfold useridBuf put
  have hz : (zeros 80).take 0 = [] := rfl
  have hd : ∃ n, (zeros 80).drop (0 + (u.take 80).length) = zeros n :=
    ⟨80 - (0 + (u.take 80).length), by unfold zeros; rw [List.drop_replicate]⟩
  obtain ⟨n, hd⟩ := hd
  rw [hz, hd, List.nil_append, cstr_append _ _ (fun x hx => h x (List.mem_of_mem_take hx)), cstr_zeros, List.append_nil]

theorem avail_cipher (tw : Bool) (m avail : U32) (hm : IsMode tw m) (hc : Ciphered m) (h : InSet m avail) :
    avail &&& 14#32 ≠ 0#32 := by
  obtain ⟨i, hi, rfl⟩ := bit_of_mode tw m hm
  rw [inSet_iff i (by omega)] at h
  intro e
  have e2 := congrArg (fun x : U32 => x.getLsbD i) e
  have h14 : (14#32 : U32).getLsbD i = true := by
    have hi0 : i ≠ 0 := by
      rintro rfl
      exact hc rfl
    have : i = 1 ∨ i = 2 ∨ i = 3 := by omega
    rcases this with h | h | h <;> subst h <;> decide
  simp [h, h14] at e2

/-- What the client makes of the greeting. -/
theorem answer_cases (K : Cbc.Kdf) (e : OpenEnv) (g : Greeting) (c : Conn) :
    ∃ who, (who = none ∨ ∃ u, e.userid = some u ∧ who = some (useridBuf u)) ∧
    ((∃ m pf c1, Usable c.twoway g.modes e m ∧ e.policy m who = .yes ∧
        (∀ m', Usable c.twoway g.modes e m' → rank m < rank m' → e.policy m' who = .no) ∧
        (m ≠ 1#32 → ∃ u, e.userid = some u ∧ e.getPF (u.take 80) = .known pf ∧ c1.userid = useridBuf u) ∧
        (c1 = c ∨ ∃ u : Bytes, u.length = 80 ∧ c1 = { c with userid := u }) ∧
        answerGreeting K e g c = openIn K e g pf c1 (.mode m)) ∨
     ((answerGreeting K e g c).1 = false ∧ (answerGreeting K e g c).2.out = c.out ∧
        ((∀ m, Usable c.twoway g.modes e m → e.policy m who = .no) ∨
         (∃ u, e.userid = some u ∧ e.getPF (u.take 80) = .error) ∨
         ∃ m, Usable c.twoway g.modes e m ∧ e.policy m who = .error))) := by
  unfold answerGreeting
  dsimp only
  cases hp : askPF e (g.modes &&& e.requested) with
  | error =>
    refine ⟨none, Or.inl rfl, Or.inr ⟨rfl, ?_, ?_⟩⟩
    · cases hu : e.userid
      · rfl
      · simp only [Option.elim]; split <;> rfl
    · unfold askPF at hp
      split at hp
      · rename_i u hu
        split at hp
        · exact Or.inr (Or.inl ⟨u, hu, hp⟩)
        · cases hp
      · cases hp
  | unknown =>
    refine ⟨none, Or.inl rfl, ?_⟩
    have hc1 : (e.userid.elim c fun u => if g.modes &&& e.requested &&& 14#32 ≠ 0 then { c with userid := useridBuf u } else c) = c ∨
        ∃ u : Bytes, u.length = 80 ∧ (e.userid.elim c fun u => if g.modes &&& e.requested &&& 14#32 ≠ 0 then { c with userid := useridBuf u } else c)
          = { c with userid := u } := by
      cases hu : e.userid with
      | none => exact Or.inl rfl
      | some u =>
        simp only [Option.elim]
        split
        · exact Or.inr ⟨_, useridBuf_length u, rfl⟩
        · exact Or.inl rfl
    generalize (e.userid.elim c fun u => if g.modes &&& e.requested &&& 14#32 ≠ 0 then { c with userid := useridBuf u } else c) = c1 at *
    have htw : c1.twoway = c.twoway := by rcases hc1 with h | ⟨u, _, h⟩ <;> rw [h]
    have hout : c1.out = c.out := by rcases hc1 with h | ⟨u, _, h⟩ <;> rw [h]
    rw [htw]
    have hus : ∀ m, Usable c.twoway g.modes e m ↔ IsMode c.twoway m ∧ InSet m (g.modes &&& e.requested &&& ~~~ 14#32) := by
      intro m
      constructor
      · intro h
        refine ⟨h.mode, ?_⟩
        rw [inSet_open _ _ _ h.mode, inSet_and _ _ _ _ h.mode]
        refine ⟨⟨h.offered, h.requested⟩, ?_⟩
        by_cases h1 : m = 1#32
        · exact h1
        · exfalso
          obtain ⟨u, pf, hu, hpf⟩ := h.secret h1
          unfold askPF at hp
          rw [hu] at hp
          have hav := avail_cipher _ m (g.modes &&& e.requested) h.mode h1
            ((inSet_and _ _ _ _ h.mode).2 ⟨h.offered, h.requested⟩)
          simp only at hp
          rw [if_pos (show g.modes &&& e.requested &&& 14#32 ≠ 0 from hav), hpf] at hp
          cases hp
      · rintro ⟨hm, hs⟩
        rw [inSet_open _ _ _ hm, inSet_and _ _ _ _ hm] at hs
        exact ⟨hm, hs.1.1, hs.1.2, fun hc => absurd hs.2 hc⟩
    rcases choose_cases c.twoway (g.modes &&& e.requested &&& ~~~ 14#32) (fun m => e.policy m none) with ⟨h1, h2⟩ | ⟨m, h1, h2, h3, h4⟩
    · right
      rw [h2]
      exact ⟨rfl, hout, Or.inl fun m hm => h1 m ((hus m).1 hm).1 ((hus m).1 hm).2⟩
    · rcases h4 with ⟨h4, h5⟩ | ⟨h4, h5⟩
      · left
        rw [h5]
        refine ⟨m, [], c1, (hus m).2 ⟨h1, h2⟩, h4, fun m' hm' hr => h3 m' ((hus m').1 hm').1 ((hus m').1 hm').2 hr, ?_, hc1, rfl⟩
        intro hne
        exact absurd ((inSet_open _ _ _ h1).1 h2).2 hne
      · right
        rw [h5]
        exact ⟨rfl, hout, Or.inr (Or.inr ⟨m, (hus m).2 ⟨h1, h2⟩, h4⟩)⟩
  | known pf =>
    unfold askPF at hp
    split at hp
    · rename_i u hu
      split at hp
      · rename_i hav
        refine ⟨some (useridBuf u), Or.inr ⟨u, hu, rfl⟩, ?_⟩
        rw [hu]
        simp only [Option.elim, if_pos hav]
        have hus : ∀ m, Usable c.twoway g.modes e m ↔ IsMode c.twoway m ∧ InSet m (g.modes &&& e.requested) := by
          intro m
          constructor
          · intro h
            exact ⟨h.mode, (inSet_and _ _ _ _ h.mode).2 ⟨h.offered, h.requested⟩⟩
          · rintro ⟨hm, hs⟩
            rw [inSet_and _ _ _ _ hm] at hs
            exact ⟨hm, hs.1, hs.2, fun _ => ⟨u, pf, hu, hp⟩⟩
        rcases choose_cases c.twoway (g.modes &&& e.requested) (fun m => e.policy m (some (useridBuf u))) with ⟨h1, h2⟩ | ⟨m, h1, h2, h3, h4⟩
        · right
          rw [h2]
          exact ⟨rfl, rfl, Or.inl fun m hm => h1 m ((hus m).1 hm).1 ((hus m).1 hm).2⟩
        · rcases h4 with ⟨h4, h5⟩ | ⟨h4, h5⟩
          · left
            rw [h5]
            exact ⟨m, pf, { c with userid := useridBuf u }, (hus m).2 ⟨h1, h2⟩, h4,
              fun m' hm' hr => h3 m' ((hus m').1 hm').1 ((hus m').1 hm').2 hr,
              fun _ => ⟨u, rfl, hp, rfl⟩, Or.inr ⟨_, useridBuf_length u, rfl⟩, rfl⟩
          · right
            rw [h5]
            exact ⟨rfl, rfl, Or.inr (Or.inr ⟨m, (hus m).2 ⟨h1, h2⟩, h4⟩)⟩
      · cases hp
    · cases hp

/-- The response as written. -/
theorem response_ran (A : Conn) (rA : Ready A) (hA : A.state = .setupOnly) (token : Bytes)
    (ht : A.cipher = true → token.length = 64) (hu : A.userid.length = 80) :
    ∃ m u t iv, m.length = 400 ∧ u.length = 80 ∧ t.length = 64 ∧ iv.length = 16 ∧
      (A.cipher = true → u = A.userid ∧ t = token ∧ iv = A.writeIV) ∧
      writeSetupResponse A token =
        (some (), { A with msg := m, out := A.out ++ setupLayout A.mode u t iv, faults := [] }) := by
  have hm := rA.2.1
  unfold writeSetupResponse
  simp only [hA, ne_eq, not_true_eq_false, if_false]
  cases hc : A.cipher
  · refine ⟨put32 (put A.msg 0 (zeros 164)) 0 A.mode, zeros 80, zeros 64, zeros 16, ?_, zeros_length _, zeros_length _,
      zeros_length _, (fun h => by cases h), ?_⟩
    · simp (disch := blen) only [put32, put_length]; exact hm
    · simp only [Bool.false_eq_true, if_false]
      rw [Props.setup_body_open A.msg hm A.mode, writeN_ok _ (by exact rA.1)]
  · have ht := ht hc
    refine ⟨put (put (put (put32 (put A.msg 0 (zeros 164)) 0 A.mode) 4 A.userid) 84 token) 148 A.writeIV, A.userid, token,
      A.writeIV, ?_, hu, ht, rA.2.2, fun _ => ⟨rfl, rfl, rfl⟩, ?_⟩
    · have := rA.2.2
      simp (disch := blen) only [put32, put_length]; exact hm
    · simp only [if_true]
      rw [Props.setup_body A.msg hm A.mode A.userid token A.writeIV hu ht rA.2.2, writeN_ok _ (by exact rA.1)]

/-- The greeting as read by a client with nothing in the way. -/
theorem greeting_read (C : Conn) (rC : Ready C) (hC : C.state = .invalid) (modes count : U32) (ch salt rest : Bytes)
    (hc : ch.length = 16) (hs : salt.length = 16) (hi : C.inp = greetingLayout modes ch salt count ++ rest) :
    ∃ m, m.length = 400 ∧ readServerGreeting C =
      (some ⟨modes, ch, salt, count⟩, { C with inp := rest, faults := [], msg := m, state := .setupOnly }) := by
  have hm := rC.2.1
  have hl : (greetingLayout modes ch salt count).length = 64 := by simp [greetingLayout, hc, hs]
  refine ⟨put C.msg 0 (greetingLayout modes ch salt count), by rw [put_length _ _ _ (by omega)]; exact hm, ?_⟩
  unfold readServerGreeting
  simp only [hC, ne_eq, not_true_eq_false, if_false]
  rw [readN_ok C rC.1 _ rest 64 hl hi]
  refine Prod.ext (congrArg some ?_) rfl
  have e : ∀ o n, o + n ≤ 64 → get (put C.msg 0 (greetingLayout modes ch salt count)) o n = get (greetingLayout modes ch salt count) o n := by
    intro o n ho
    rw [get_put_inside _ _ _ _ _ (by omega) (by omega) (by omega), Nat.sub_zero]
  obtain ⟨g1, g2, g3, g4⟩ := greeting_split _ modes count ch salt hc hs rfl
  show Greeting.mk (BitVec.ofNat 32 (beDec (get (put C.msg 0 _) 12 4))) (get (put C.msg 0 _) 16 16)
    (get (put C.msg 0 _) 32 16) (BitVec.ofNat 32 (beDec (get (put C.msg 0 _) 48 4))) = _
  rw [e _ _ (by omega), e _ _ (by omega), e _ _ (by omega), e _ _ (by omega)]
  unfold get32 at g1 g4
  rw [g1, g2, g3, g4]

end Owamp.Ctl
