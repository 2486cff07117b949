import Verif.Spec.Secrets
import Verif.Props.Setup
import Verif.Props.Startup
/-!
# C89: identities and pass-phrases are those of the files
-/
namespace Owamp.Props
open Owamp.Secrets Owamp.Spec.Secrets Owamp.Ctl Owamp.Spec.Setup Owamp.Spec.Channel Owamp.Policy

theorem fetch_iff (t : Store) (h : Once t) (u p : Bytes) : fetch t u = some p ↔ (u, p) ∈ t := by
  induction t with
  | nil => simp [fetch]
  | cons e r ih =>
    obtain ⟨v, q⟩ := e
    have hn : v ∉ r.map (·.1) ∧ Once r := by
      have := h; unfold Once at this ⊢; rw [List.map_cons, List.nodup_cons] at this; exact this
    by_cases hv : v = u
    · subst hv
      have : fetch ((v, q) :: r) v = some q := by simp [fetch]
      rw [this, List.mem_cons]
      constructor
      · intro e; cases e; exact .inl rfl
      · rintro (e | e)
        · cases e; rfl
        · exact absurd (List.mem_map.2 ⟨_, e, rfl⟩) hn.1
    · have : fetch ((v, q) :: r) u = fetch r u := by simp [fetch, hv]
      rw [this, ih hn.2, List.mem_cons]
      constructor
      · exact .inr
      · rintro (e | e)
        · cases e; exact absurd rfl hv
        · exact e

theorem fetch_none (t : Store) (u : Bytes) : fetch t u = none ↔ u ∉ t.map (·.1) := by
  unfold fetch
  rw [Option.map_eq_none_iff, List.find?_eq_none]
  simp only [List.mem_map, not_exists, not_and, beq_iff_eq]

theorem store_spec (l : List (Bytes × Bytes)) : ∀ t : Store, Once t → match store l t with
    | some t' => t' = l.reverse ++ t ∧ Once t'
    | none => ¬ Once (l.reverse ++ t) := by
  induction l with
  | nil => intro t h; exact ⟨rfl, h⟩
  | cons e r ih =>
    obtain ⟨u, p⟩ := e
    intro t h
    rw [store]
    cases hf : fetch t u with
    | some q =>
      dsimp only
      intro ho
      have hu : u ∈ t.map (·.1) := Classical.not_not.1 fun hh => by rw [(fetch_none t u).2 hh] at hf; cases hf
      unfold Once at ho
      rw [List.map_append, List.nodup_append] at ho
      exact ho.2.2 u (List.mem_map.2 ⟨(u, p), by simp, rfl⟩) u hu rfl
    | none =>
      dsimp only
      have hn : Once ((u, p) :: t) := by
        unfold Once
        rw [List.map_cons, List.nodup_cons]
        exact ⟨(fetch_none t u).1 hf, h⟩
      have := ih ((u, p) :: t) hn
      rw [List.reverse_cons, List.append_assoc]
      exact this

theorem once_reverse (l : List (Bytes × Bytes)) : Once l.reverse ↔ Once l := by
  unfold Once
  rw [List.map_reverse]
  exact List.nodup_reverse

/-- **C89** for the server: it starts if and only if its file, if there is one, is in order and has no user twice, and then knows exactly the users of the file, each with their pass-phrase. -/
theorem C89_server (file : Option (List (Bytes × Bytes) × Bool)) :
    ((∃ t, parsePfs file = some t) ↔ ∀ lines bad, file = some (lines, bad) → Once lines ∧ bad = false) ∧
    (∀ t, parsePfs file = some t → (file = none → ∀ u, serverPF t u = .unknown) ∧
      ∀ lines bad, file = some (lines, bad) → ∀ u, (∀ p, serverPF t u = .known p ↔ (u, p) ∈ lines) ∧ (serverPF t u = .unknown ↔ ∀ p, (u, p) ∉ lines)) := by
  have known : ∀ (t : Store) (lines : List (Bytes × Bytes)) (u : Bytes), Once t → (∀ e, e ∈ t ↔ e ∈ lines) →
      (∀ p, serverPF t u = .known p ↔ (u, p) ∈ lines) ∧ (serverPF t u = .unknown ↔ ∀ p, (u, p) ∉ lines) := by
    intro t lines u ho he
    unfold serverPF
    cases hf : fetch t u with
    | none =>
      have hn : ∀ p, (u, p) ∉ lines := fun p hp => by
        rw [← he, ← fetch_iff t ho, hf] at hp; cases hp
      exact ⟨fun p => ⟨(fun e => by cases e), fun e => absurd e (hn p)⟩, ⟨fun _ => hn, fun _ => rfl⟩⟩
    | some q =>
      have hq : (u, q) ∈ lines := (he _).1 ((fetch_iff t ho u q).1 hf)
      refine ⟨fun p => ?_, ⟨(fun e => by cases e), fun e => absurd hq (e q)⟩⟩
      rw [← he, ← fetch_iff t ho, hf]
      exact ⟨(fun e => by cases e; rfl), (fun e => by cases e; rfl)⟩
  have hnil : Once [] := List.nodup_nil
  cases file with
  | none =>
    refine ⟨⟨fun _ l b e => (by cases e), fun _ => ⟨[], rfl⟩⟩, fun t ht => ?_⟩
    cases ht
    exact ⟨fun _ u => rfl, fun l b e => (by cases e)⟩
  | some x =>
    obtain ⟨lines, bad⟩ := x
    have h := store_spec lines [] hnil
    unfold parsePfs
    dsimp only
    cases hs : store lines [] with
    | none =>
      rw [hs] at h
      refine ⟨⟨fun ⟨t, e⟩ => (by cases e), fun hh => ?_⟩, fun t e => (by cases e)⟩
      refine absurd ((once_reverse lines).2 (hh lines bad rfl).1) ?_
      have h : ¬ Once (lines.reverse ++ []) := h
      rwa [List.append_nil] at h
    | some t =>
      rw [hs] at h
      obtain ⟨h1, h2⟩ : t = lines.reverse ++ [] ∧ Once t := h
      rw [List.append_nil] at h1
      subst h1
      rw [Option.bind_some]
      cases bad with
      | true =>
        refine ⟨⟨fun ⟨t, e⟩ => (by cases e), fun hh => ?_⟩, fun t e => (by cases e)⟩
        cases (hh lines true rfl).2
      | false =>
        refine ⟨⟨fun _ l b e => ?_, fun _ => ⟨_, rfl⟩⟩, fun t e => ⟨(fun e => by cases e), fun l b e' u => ?_⟩⟩
        · cases e; exact ⟨(once_reverse lines).1 h2, rfl⟩
        · cases e; cases e'
          exact known _ lines u h2 (fun e => by simp)

example : (parsePfs (some ([([97#8], [1#8]), ([98#8], [2#8])], false))).isSome ∧ parsePfs (some ([([97#8], [1#8]), ([98#8], [2#8]), ([97#8], [3#8])], false)) = none := by decide

/-- **C89** for clients (partial: unless the file has no line for the identity, see `C89_undefined`): the client goes on if and only if the letters are modes; it keeps its identity if and only if there is a
pass-phrase for it, which is that of the file or the one typed; and without letters it uses the usual modes. -/
theorem C89_client_partial (tool : Tool) (identity : Option Bytes) (src : Source) (letters : Option Bytes) (hm : identity.isSome → ¬ Missing src) :
    (setAuth tool identity src letters = .exits ↔ ∃ s, letters = some s ∧ ¬ ∀ b ∈ s, b ∈ text ['o','O','a','A','e','E'] ∨ tool = .twping ∧ b ∈ text ['m','M']) ∧
    setAuth tool identity src letters ≠ .undefined ∧
    (∀ i p m, setAuth tool identity src letters = .ready i p m →
      (identity = none → i = none ∧ p = none) ∧
      (∀ u, identity = some u → Gives u src p ∧ i = (if p.isSome then some u else none)) ∧
      (letters = none → m = usual tool i.isSome) ∧
      (∀ s, letters = some s → m < 16 ∧
        (m.testBit 0 = true ↔ ∃ b ∈ s, b ∈ text ['o','O']) ∧ (m.testBit 1 = true ↔ ∃ b ∈ s, b ∈ text ['a','A']) ∧
        (m.testBit 2 = true ↔ ∃ b ∈ s, b ∈ text ['e','E']) ∧ (m.testBit 3 = true ↔ tool = .twping ∧ ∃ b ∈ s, b ∈ text ['m','M']))) := by
  have hb : (tool == .twping) = true ↔ tool = .twping := by simp
  have modes : ∀ i : Option Bytes,
      (clientModes tool i letters = none ↔ ∃ s, letters = some s ∧ ¬ ∀ b ∈ s, b ∈ text ['o','O','a','A','e','E'] ∨ tool = .twping ∧ b ∈ text ['m','M']) ∧
      (∀ m, clientModes tool i letters = some m → (letters = none → m = usual tool i.isSome) ∧
        (∀ s, letters = some s → m < 16 ∧
          (m.testBit 0 = true ↔ ∃ b ∈ s, b ∈ text ['o','O']) ∧ (m.testBit 1 = true ↔ ∃ b ∈ s, b ∈ text ['a','A']) ∧
          (m.testBit 2 = true ↔ ∃ b ∈ s, b ∈ text ['e','E']) ∧ (m.testBit 3 = true ↔ tool = .twping ∧ ∃ b ∈ s, b ∈ text ['m','M']))) := by
    intro i
    unfold clientModes
    cases letters with
    | none =>
      refine ⟨⟨(fun e => by cases e), fun ⟨s, e, _⟩ => (by cases e)⟩, fun m e => ⟨fun _ => ?_, fun s e => (by cases e)⟩⟩
      cases e
      cases tool <;> cases i <;> rfl
    | some s =>
      dsimp only
      obtain ⟨_, h⟩ := C86_modes (tool == .twping) { facility := 0, controltimeout := 0#32, authmode := some s }
      obtain ⟨h1, h2⟩ := h s rfl
      change (∃ m, Startup.modeBits (tool == .twping) 0 s = some m) ↔ _ at h1
      change ∀ m, Startup.modeBits (tool == .twping) 0 s = some m → _ at h2
      simp only [hb] at h1 h2
      refine ⟨⟨fun e => ⟨s, rfl, fun hh => ?_⟩, fun ⟨s', e, hh⟩ => ?_⟩, fun m e => ⟨(fun e => by cases e), fun s' e' => ?_⟩⟩
      · obtain ⟨m, hm⟩ := h1.2 hh
        rw [hm] at e; cases e
      · cases e
        cases e : Startup.modeBits (tool == .twping) 0 s with
        | none => rfl
        | some m => exact absurd (h1.1 ⟨m, e⟩) hh
      · cases e'; exact h2 m e
  unfold setAuth
  cases identity with
  | none =>
    dsimp only
    obtain ⟨m1, m2⟩ := modes none
    cases hc : clientModes tool none letters with
    | none => exact ⟨⟨fun _ => m1.1 hc, fun _ => rfl⟩, (fun e => by cases e), (fun i p m e => by cases e)⟩
    | some m =>
      refine ⟨⟨(fun e => by cases e), fun h => ?_⟩, (fun e => by cases e), fun i p m' e => ?_⟩
      · rw [m1.2 h] at hc; cases hc
      · cases e
        exact ⟨fun _ => ⟨rfl, rfl⟩, (fun u e => by cases e), m2 m hc⟩
  | some u =>
    dsimp only
    obtain ⟨q, hp, hg⟩ : ∃ q, passphrase u src = some q ∧ Gives u src q := by
      have hm := hm rfl
      cases src with
      | noFile => exact ⟨none, rfl, rfl⟩
      | file f =>
        cases f with
        | none => exact absurd trivial hm
        | some p => exact ⟨some p, rfl, rfl⟩
      | terminal r =>
        unfold passphrase Gives
        by_cases hl : u.length < 222
        · refine ⟨r, ?_, ?_⟩
          · exact if_pos (show promptFits u = true from decide_eq_true (by omega))
          · dsimp only; rw [if_pos hl]
        · refine ⟨none, ?_, ?_⟩
          · exact if_neg (fun h => by have : 34 + u.length < 256 := of_decide_eq_true h; omega)
          · dsimp only; rw [if_neg hl]
    rw [hp]
    dsimp only
    obtain ⟨i, hi⟩ : ∃ i, (if q.isSome then some u else none) = i := ⟨_, rfl⟩
    rw [hi]
    obtain ⟨m1, m2⟩ := modes i
    cases hc : clientModes tool i letters with
    | none => exact ⟨⟨fun _ => m1.1 hc, fun _ => rfl⟩, (fun e => by cases e), (fun i p m e => by cases e)⟩
    | some m =>
      refine ⟨⟨(fun e => by cases e), fun h => ?_⟩, (fun e => by cases e), fun i' p m' e => ?_⟩
      · rw [m1.2 h] at hc; cases hc
      · cases e
        refine ⟨(fun e => by cases e), fun v e => ?_, m2 m hc⟩
        cases e
        exact ⟨hg, hi.symm⟩

example : setAuth .owping (some [97#8]) (.file (some [1#8])) (some (text ['e','A'])) = .ready (some [97#8]) (some [1#8]) 6 ∧
    setAuth .twping (some [97#8]) (.terminal (some [1#8])) none = .ready (some [97#8]) (some [1#8]) 15 := by decide

/-- C89 fails if the file of the client was read and has no line for the identity: a pointer is used that was never set. -/
theorem C89_undefined (tool : Tool) (u : Bytes) (letters : Option Bytes) : setAuth tool (some u) (.file none) letters = .undefined := rfl

/-- A client that was given an identity, but finds no pass-phrase for it, goes on without, and owping and twping then use the open mode only. -/
theorem C89_goes_on (u : Bytes) : setAuth .owping (some u) .noFile none = .ready none none 1 ∧ setAuth .twping (some u) .noFile none = .ready none none 1 := ⟨rfl, rfl⟩

/-- **C89** for who is let in: a connection in a mode other than open is accepted only for a user of the server's file and a token that was made with the pass-phrase of this user. -/
theorem C89_let_in (K : Cbc.Kdf) (e : AcceptEnv) (S S' : Conn) (hm : S.msg.length = 400) (hc : e.challenge.length = 16) (hs : e.salt.length = 16)
    (lines : List (Bytes × Bytes)) (t : Store) (ht : parsePfs (some (lines, false)) = some t) (he : e.getPF = serverPF t)
    (h : controlAccept K e S = (true, S')) (hci : S'.mode ≠ 1#32) :
    ∃ keyid pf iv rest, keyid.length = 80 ∧ iv.length = 16 ∧ (cstr keyid, pf) ∈ lines ∧ S.inp = setupLayout S'.mode keyid (tokenFor K pf e.salt e.count e.challenge S'.aesKey S'.hmacKey) iv ++ rest := by
  obtain ⟨keyid, pf, iv, rest, k1, k2, h1, h2⟩ := C20_proof_of_secret K e S S' hm hc hs h hci
  refine ⟨keyid, pf, iv, rest, k1, k2, ?_, h2⟩
  rw [he] at h1
  exact (((C89_server (some (lines, false))).2 t ht).2 lines false rfl (cstr keyid)).1 pf |>.1 h1

/-- **C89** for both sides: if the client has an identity with a pass-phrase, and the server's file has no other pass-phrase for it, then, once both have a connection, they are in the same mode, with the same
keys. -/
theorem C89_both (K : Cbc.Kdf) (e : AcceptEnv) (o : OpenEnv) (S C S' C' : Conn) (fS : Fresh S) (fC : Fresh C)
    (htw : S.twoway = C.twoway) (hc : e.challenge.length = 16) (hs : e.salt.length = 16) (hiv : ∀ iv, e.iv = some iv → iv.length = 16) (hz : OpenEnv.Sized o)
    (lines : List (Bytes × Bytes)) (t : Store) (ht : parsePfs (some (lines, false)) = some t) (he : e.getPF = serverPF t)
    (tool : Tool) (identity : Option Bytes) (src : Source) (letters : Option Bytes) (i p : Option Bytes) (m : Nat) (hset : setAuth tool identity src letters = .ready i p m)
    (ho : o.userid = i ∧ o.getPF = clientPF p) (hnul : ∀ u, identity = some u → 0#8 ∉ u) (hline : ∀ u q, identity = some u → (u.take 80, q) ∈ lines → Gives u src (some q))
    (x : Exchange K e o S C S' C') :
    Linked S' C' ∧ S'.mode = C'.mode ∧ IsMode S.twoway S'.mode ∧ InSet S'.mode e.offered := by
  have hmiss : identity.isSome → ¬ Missing src := by
    intro h1 h2
    cases identity with
    | none => cases h1
    | some u =>
      cases src with
      | file f =>
        cases f with
        | none => rw [C89_undefined] at hset; cases hset
        | some p => exact h2
      | noFile => exact h2
      | terminal r => exact h2
  obtain ⟨k1, k2, _⟩ := (C89_client_partial tool identity src letters hmiss).2.2 i p m hset
  have hiu : ∀ u, i = some u → identity = some u ∧ Gives u src p := by
    intro u hu
    cases identity with
    | none => rw [(k1 rfl).1] at hu; cases hu
    | some v =>
      obtain ⟨g1, g2⟩ := k2 v rfl
      rw [g2] at hu
      split at hu
      · cases hu; exact ⟨rfl, g1⟩
      · cases hu
  have gives : ∀ u (a b : Option Bytes), Gives u src a → Gives u src b → a = b := by
    intro u a b h1 h2
    cases src with
    | noFile => exact h1.trans (Eq.symm h2)
    | file f => exact h1.trans (Eq.symm h2)
    | terminal r =>
      change (if u.length < 222 then a = r else a = none) at h1
      change (if u.length < 222 then b = r else b = none) at h2
      by_cases hl : u.length < 222
      · rw [if_pos hl] at h1 h2; rw [h1, h2]
      · rw [if_neg hl] at h1 h2; rw [h1, h2]
  obtain ⟨c1, c2, c3, c4, _⟩ := C20_keys_agree K e o S C S' C' fS fC htw hc hs hiv hz (fun u hu b hb hb0 => by
      rw [ho.1] at hu
      exact hnul u (hiu u hu).1 (hb0 ▸ hb)) (fun u pf pf' hu h1 h2 => by
      rw [ho.1] at hu
      obtain ⟨hid, hg⟩ := hiu u hu
      rw [ho.2] at h1
      rw [he] at h2
      have hl := (((C89_server (some (lines, false))).2 t ht).2 lines false rfl (u.take 80)).1 pf' |>.1 h2
      have := gives u _ _ (hline u pf' hid hl) hg
      rw [← this] at h1
      cases h1
      rfl) x
  exact ⟨c1, c2, c3, c4⟩

/-- The files of a server and of a client with a user `u` in both. -/
def pfLines : List (Bytes × Bytes) := [([97#8], [1#8]), ([117#8], [112#8, 102#8])]

def pfStore : Store := [([117#8], [112#8, 102#8]), ([97#8], [1#8])]

def pfServer : AcceptEnv := { demoEnv 7#32 with getPF := serverPF pfStore }

def pfClient : OpenEnv := { demoOpen [] with requested := 7#32, getPF := clientPF (some [112#8, 102#8]) }

/-- The hypotheses of `C89_both` and, with an encrypted connection, those of `C89_let_in` are met. -/
theorem C89_example : parsePfs (some (pfLines, false)) = some pfStore ∧
    setAuth .owping (some [117#8]) (.file (some [112#8, 102#8])) none = .ready (some [117#8]) (some [112#8, 102#8]) 7 ∧
    (∀ q, ([117#8], q) ∈ pfLines → q = [112#8, 102#8]) ∧
    ∃ (S C : Conn), Fresh S ∧ Fresh C ∧ Exchange anyKdf pfServer pfClient S C (controlAccept anyKdf pfServer S).2 (controlOpen anyKdf pfClient C).2 ∧
      (controlAccept anyKdf pfServer S).2.mode = 4#32 := by
  refine ⟨by decide, by decide, fun q hq => ?_, ?_⟩
  · simp only [pfLines, List.mem_cons, Prod.mk.injEq, List.not_mem_nil, or_false] at hq
    rcases hq with ⟨h, _⟩ | ⟨_, h⟩
    · exact absurd h (by decide)
    · exact h
  obtain ⟨S, hS⟩ : ∃ S, S = newConn false (setupLayout 4#32 (useridBuf [117#8])
    (Cbc.encryptToken anyKdf [112#8, 102#8] (List.replicate 16 6#8) 2048#32
      (List.replicate 16 5#8 ++ List.replicate 16 21#8 ++ List.replicate 32 22#8)) (List.replicate 16 23#8)) := ⟨_, rfl⟩
  refine ⟨S, newConn false (controlAccept anyKdf pfServer S).2.out, by rw [hS]; exact newConn_fresh _ _, newConn_fresh _ _,
    ⟨pair_true _ ?_, pair_true _ ?_, rfl, ?_⟩, ?_⟩ <;> subst hS <;> decide +kernel

end Owamp.Props
