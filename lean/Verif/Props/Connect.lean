import Verif.Spec.Connect
/-!
# C87: a client connects to the first address of a server that works, from where it was told
# C88: a server listens on the first of its addresses that is free
-/
namespace Owamp.Props
open Owamp.Connect Owamp.Spec.Connect

theorem bindAddress_iff (l : List (Nat × Bool)) : (∀ a, bindAddress l = some a → (a, true) ∈ l) ∧ (bindAddress l = none → ∀ a, (a, true) ∉ l) := by
  induction l with
  | nil => exact ⟨(fun a h => by cases h), (fun _ a h => by cases h)⟩
  | cons x r ih =>
    obtain ⟨b, ok⟩ := x
    unfold bindAddress
    cases ok with
    | true => exact ⟨(fun a h => by cases h; simp), (fun h => by cases h)⟩
    | false =>
      refine ⟨fun a h => List.mem_cons_of_mem _ (ih.1 a h), fun h a ha => ?_⟩
      rcases List.mem_cons.1 ha with e | e
      · cases e
      · exact ih.2 h a e

theorem bindInterface_iff (name : Bytes) (f : Family) (l : List Iface) :
    (∀ a, bindInterface name f l = some a → ∃ i ∈ l, i.name = name ∧ i.addr = some (f, a) ∧ i.binds = true) ∧
    (bindInterface name f l = none → ∀ a, ¬ ∃ i ∈ l, i.name = name ∧ i.addr = some (f, a) ∧ i.binds = true) := by
  induction l with
  | nil => exact ⟨(fun a h => by cases h), (fun _ a ⟨_, h, _⟩ => by cases h)⟩
  | cons x r ih =>
    have skip : bindInterface name f (x :: r) = bindInterface name f r → (∀ a, ¬ (x.name = name ∧ x.addr = some (f, a) ∧ x.binds = true)) →
        (∀ a, bindInterface name f (x :: r) = some a → ∃ i ∈ x :: r, i.name = name ∧ i.addr = some (f, a) ∧ i.binds = true) ∧
        (bindInterface name f (x :: r) = none → ∀ a, ¬ ∃ i ∈ x :: r, i.name = name ∧ i.addr = some (f, a) ∧ i.binds = true) := by
      intro e hx
      rw [e]
      refine ⟨fun a h => ?_, fun h a ⟨i, hi, hh⟩ => ?_⟩
      · obtain ⟨i, hi, hh⟩ := ih.1 a h
        exact ⟨i, List.mem_cons_of_mem _ hi, hh⟩
      · rcases List.mem_cons.1 hi with e | e
        · exact hx a (e ▸ hh)
        · exact ih.2 h a ⟨i, e, hh⟩
    by_cases h1 : x.name ≠ name
    · exact skip (by rw [bindInterface, if_pos h1]) (fun a h => h1 h.1)
    · cases h2 : x.addr with
      | none => exact skip (by rw [bindInterface, if_neg h1, h2]) (fun a h => by rw [h2] at h; cases h.2.1)
      | some q =>
        obtain ⟨g, b⟩ := q
        by_cases h3 : f ≠ g
        · exact skip (by rw [bindInterface, if_neg h1, h2]; exact if_pos h3) (fun a h => by rw [h2] at h; cases h.2.1; exact h3 rfl)
        · have h3 : f = g := Classical.not_not.1 h3
          cases h4 : x.binds with
          | false => exact skip (by rw [bindInterface, if_neg h1, h2]; simp [h3, h4]) (fun a h => by rw [h4] at h; cases h.2.2)
          | true =>
            have e : bindInterface name f (x :: r) = some b := by rw [bindInterface, if_neg h1, h2]; simp [h3, h4]
            rw [e]
            refine ⟨fun a h => ?_, (fun h => by cases h)⟩
            cases h
            exact ⟨x, List.mem_cons_self, Classical.not_not.1 h1, by rw [h2, h3], h4⟩

theorem clientBind_iff (c : Cand) (name : Bytes) : (∀ a, clientBind c name = some a → CanBind c name a) ∧ (clientBind c name = none → ∀ a, ¬ CanBind c name a) := by
  have hif : isInterface c.ifaces name = true ↔ ∃ l, c.ifaces = some l ∧ ∃ i ∈ l, i.name = name := by
    unfold isInterface
    cases c.ifaces with
    | none => simp
    | some l => simp
  unfold clientBind CanBind
  by_cases h : isInterface c.ifaces name = true
  · rw [if_pos h]
    simp only [if_pos (hif.1 h)]
    cases c.ifaces2 with
    | none => exact ⟨(fun a h => by cases h), (fun _ a ⟨l, h, _⟩ => by cases h)⟩
    | some l =>
      refine ⟨fun a h => ⟨l, rfl, (bindInterface_iff name c.family l).1 a h⟩, fun h a ⟨l', e, hh⟩ => ?_⟩
      cases e
      exact (bindInterface_iff name c.family l).2 h a hh
  · rw [if_neg h]
    simp only [if_neg (fun x => h (hif.2 x))]
    cases c.locals with
    | none => exact ⟨(fun a h => by cases h), (fun _ a ⟨l, h, _⟩ => by cases h)⟩
    | some l =>
      refine ⟨fun a h => ⟨l, rfl, (bindAddress_iff l).1 a h⟩, fun h a ⟨l', e, hh⟩ => ?_⟩
      cases e
      exact (bindAddress_iff l).2 h a hh

/-- The socket that a client should have: with this peer, over this interface and from this address. -/
structure Made (loc dev : Option Bytes) (c : Cand) (s : Sock) : Prop where
  family : s.family = c.family
  peer : s.peer = some c.addr
  device : s.device = dev
  free : loc = none → s.bound = none
  bound : ∀ l, loc = some l → ∃ a, s.bound = some a ∧ CanBind c l a

/-- What came of an attempt. -/
structure Tried (loc dev : Option Bytes) (c : Cand) (n : Net) (x : Net × Bool) : Prop where
  works : x.2 = true ↔ Works loc dev c
  socket : x.2 = true → ∃ s, x.1.socks = s :: n.socks ∧ Made loc dev c s
  record : x.2 = true → x.1.record = some c.addr
  contacted : x.2 = true → x.1.contacted = c.addr :: n.contacted
  socks : x.2 = false → x.1.socks = n.socks
  kept : x.2 = false → c.localRecord = true → x.1.record = n.record
  tried : x.1.contacted = n.contacted ∨ x.1.contacted = c.addr :: n.contacted

theorem tried_not {loc dev : Option Bytes} {c : Cand} {n : Net} {x : Net × Bool} (h1 : x.2 = false) (h2 : ¬ Works loc dev c) (h3 : x.1.socks = n.socks)
    (h4 : c.localRecord = true → x.1.record = n.record) (h5 : x.1.contacted = n.contacted ∨ x.1.contacted = c.addr :: n.contacted) : Tried loc dev c n x :=
  ⟨⟨(fun h => by rw [h1] at h; cases h), fun h => absurd h h2⟩, (fun h => by rw [h1] at h; cases h), (fun h => by rw [h1] at h; cases h), (fun h => by rw [h1] at h; cases h),
    fun _ => h3, fun _ => h4, h5⟩

theorem tryAddr_spec (loc dev : Option Bytes) (c : Cand) (n : Net) : Tried loc dev c n (tryAddr loc dev c n) := by
  unfold tryAddr
  by_cases h1 : c.socket = true
  case neg => rw [if_pos (by simp [h1])]; exact tried_not rfl (fun w => h1 w.socket) rfl (fun _ => rfl) (.inl rfl)
  rw [if_neg (by simp [h1])]
  dsimp only
  have hdev : bindDevice dev c { n with socks := { family := c.family } :: n.socks } =
      if dev.isSome → c.device = true ∧ c.dup = true then some { n with socks := { family := c.family, device := dev } :: n.socks } else none := by
    unfold bindDevice
    cases dev with
    | none => simp
    | some d => cases h : c.device <;> cases h' : c.dup <;> simp [Net.change]
  rw [hdev]
  by_cases h2 : dev.isSome → c.device = true ∧ c.dup = true
  case neg => rw [if_neg h2]; exact tried_not rfl (fun w => h2 w.device) rfl (fun _ => rfl) (.inl rfl)
  rw [if_pos h2]
  dsimp only
  cases h3 : bindLocal loc c { n with socks := { family := c.family, device := dev } :: n.socks } with
  | none =>
    dsimp only
    refine tried_not rfl (fun w => ?_) rfl (fun _ => rfl) (.inl rfl)
    unfold bindLocal at h3
    cases loc with
    | none => cases h3
    | some l =>
      obtain ⟨a, ha⟩ := w.bound l rfl
      exact (clientBind_iff c l).2 (Option.map_eq_none_iff.1 h3) a ha
  | some m =>
    dsimp only
    obtain ⟨b, hm, hb1, hb2⟩ : ∃ b, m = { n with socks := { family := c.family, device := dev, bound := b } :: n.socks } ∧ (loc = none → b = none) ∧
        ∀ l, loc = some l → ∃ a, b = some a ∧ CanBind c l a := by
      unfold bindLocal at h3
      cases loc with
      | none => cases h3; exact ⟨none, rfl, fun _ => rfl, (fun l e => by cases e)⟩
      | some l =>
        obtain ⟨a, e1, e2⟩ := Option.map_eq_some_iff.1 h3
        refine ⟨some a, e2.symm, (fun e => by cases e), fun l' e => ?_⟩
        cases e
        exact ⟨a, rfl, (clientBind_iff c l).1 a e1⟩
    subst hm
    unfold connectTo
    by_cases h4 : c.connect = true
    case neg => rw [if_pos (by simp [h4])]; exact tried_not rfl (fun w => h4 w.connect) rfl (fun _ => rfl) (.inr rfl)
    rw [if_neg (by simp [h4])]
    dsimp only
    by_cases h5 : c.records = true
    case neg => rw [if_pos (by simp [h5])]; exact tried_not rfl (fun w => h5 w.records.1) rfl (fun _ => rfl) (.inr rfl)
    rw [if_neg (by simp [h5])]
    by_cases h6 : c.localRecord = true
    case neg => rw [if_pos (by simp [h6])]; exact tried_not rfl (fun w => h6 w.records.2) rfl (fun e => absurd e h6) (.inr rfl)
    rw [if_neg (by simp [h6])]
    have w : Works loc dev c := ⟨h1, h2, fun l e => by obtain ⟨a, _, h⟩ := hb2 l e; exact ⟨a, h⟩, h4, h5, h6⟩
    exact ⟨⟨fun _ => w, fun _ => rfl⟩, fun _ => ⟨_, rfl, rfl, rfl, rfl, hb1, hb2⟩, fun _ => rfl, fun _ => rfl, (fun h => by cases h), (fun h => by cases h), .inr rfl⟩

/-- What came of a list of attempts. -/
structure TriedAll (loc dev : Option Bytes) (l : List Cand) (n : Net) (x : Net × Option Cand) : Prop where
  first : ∀ c, x.2 = some c → ∃ pre post, l = pre ++ c :: post ∧ (∀ d ∈ pre, ¬ Works loc dev d) ∧ Works loc dev c
  nowhere : x.2 = none → ∀ c ∈ l, ¬ Works loc dev c
  socket : ∀ c, x.2 = some c → (∃ s, x.1.socks = s :: n.socks ∧ Made loc dev c s) ∧ x.1.record = some c.addr
  socks : x.2 = none → x.1.socks = n.socks
  kept : x.2 = none → (∀ c ∈ l, c.localRecord = true) → x.1.record = n.record
  contacted : ∃ t : List Nat, x.1.contacted = t.reverse ++ n.contacted ∧ t.Sublist (l.map (·.addr))

theorem triedAll_nil (loc dev : Option Bytes) (n : Net) : TriedAll loc dev [] n (n, none) :=
  ⟨(fun c h => by cases h), (fun _ c h => by cases h), (fun c h => by cases h), fun _ => rfl, fun _ _ => rfl, [], rfl, .slnil⟩

/-- One list of attempts after another that gave nothing. -/
theorem triedAll_append {loc dev : Option Bytes} {l m : List Cand} {n n1 : Net} {x : Net × Option Cand} (h1 : TriedAll loc dev l n (n1, none)) (h2 : TriedAll loc dev m n1 x) :
    TriedAll loc dev (l ++ m) n x := by
  obtain ⟨t1, e1, s1⟩ := h1.contacted
  obtain ⟨t2, e2, s2⟩ := h2.contacted
  refine ⟨fun c h => ?_, fun h c hc => ?_, fun c h => ?_, fun h => ?_, fun h hh => ?_, t1 ++ t2, ?_, ?_⟩
  · obtain ⟨pre, post, e, h3, h4⟩ := h2.first c h
    refine ⟨l ++ pre, post, by rw [e, List.append_assoc], fun d hd => ?_, h4⟩
    rcases List.mem_append.1 hd with hd | hd
    · exact h1.nowhere rfl d hd
    · exact h3 d hd
  · rcases List.mem_append.1 hc with hc | hc
    · exact h1.nowhere rfl c hc
    · exact h2.nowhere h c hc
  · have := h2.socket c h
    rw [h1.socks rfl] at this
    exact this
  · rw [h2.socks h]; exact h1.socks rfl
  · rw [h2.kept h (fun c hc => hh c (by simp [hc]))]; exact h1.kept rfl (fun c hc => hh c (by simp [hc]))
  · rw [e2, show n1.contacted = _ from e1, List.reverse_append, List.append_assoc]
  · rw [List.map_append]; exact s1.append s2

/-- A list of attempts that ended before another. -/
theorem triedAll_left {loc dev : Option Bytes} {l m : List Cand} {n n1 : Net} {c : Cand} (h : TriedAll loc dev l n (n1, some c)) : TriedAll loc dev (l ++ m) n (n1, some c) := by
  obtain ⟨t, e, s⟩ := h.contacted
  refine ⟨fun d hd => ?_, (fun h => by cases h), h.socket, (fun h => by cases h), (fun h => by cases h), t, e, ?_⟩
  · obtain ⟨pre, post, e, h3⟩ := h.first d hd
    exact ⟨pre, post ++ m, by rw [e]; simp, h3⟩
  · rw [List.map_append]; exact s.trans (List.sublist_append_left _ _)

theorem tryAll_spec (loc dev : Option Bytes) (f : Family) (l : List Cand) : ∀ n, TriedAll loc dev (l.filter fun c => c.family == f) n (tryAll loc dev f l n) := by
  induction l with
  | nil => intro n; exact triedAll_nil loc dev n
  | cons c r ih =>
    intro n
    rw [tryAll]
    by_cases hf : c.family = f
    · rw [if_neg (by simp [hf]), List.filter_cons_of_pos (by simp [hf])]
      have ht := tryAddr_spec loc dev c n
      obtain ⟨n1, b, e⟩ : ∃ n1 b, tryAddr loc dev c n = (n1, b) := ⟨_, _, rfl⟩
      rw [e] at ht ⊢
      have hone : TriedAll loc dev [c] n (n1, if b then some c else none) := by
        refine ⟨fun d h => ?_, fun h d hd => ?_, fun d h => ?_, fun h => ?_, fun h hh => ?_, ?_⟩
        · cases b with
          | false => cases h
          | true => cases h; exact ⟨[], [], rfl, (fun d h => by cases h), ht.works.1 rfl⟩
        · cases b with
          | true => cases h
          | false => rw [List.mem_singleton.1 hd]; exact fun w => by cases ht.works.2 w
        · cases b with
          | false => cases h
          | true => cases h; exact ⟨ht.socket rfl, ht.record rfl⟩
        · cases b with
          | true => cases h
          | false => exact ht.socks rfl
        · cases b with
          | true => cases h
          | false => exact ht.kept rfl (hh c (by simp))
        · rcases ht.tried with h | h
          · exact ⟨[], h, List.nil_sublist _⟩
          · exact ⟨[c.addr], h, List.Sublist.refl _⟩
      cases b with
      | true => exact triedAll_left (m := r.filter fun c => c.family == f) hone
      | false => exact triedAll_append hone (ih n1)
    · rw [if_pos hf, List.filter_cons_of_neg (by simp [hf])]
      exact ih n

theorem clientConnect_spec (only4 only6 : Bool) (loc dev : Option Bytes) (addrs : List Cand) (n : Net) :
    TriedAll loc dev (order only4 only6 addrs) n (clientConnect only4 only6 loc dev addrs n) := by
  unfold clientConnect order
  have h6 : TriedAll loc dev (if only4 then [] else addrs.filter fun c => c.family == .v6) n (if only4 then (n, none) else tryAll loc dev .v6 addrs n) := by
    cases only4 with
    | true => exact triedAll_nil loc dev n
    | false => exact tryAll_spec loc dev .v6 addrs n
  obtain ⟨n1, q, e⟩ : ∃ n1 q, (if only4 then (n, none) else tryAll loc dev .v6 addrs n) = (n1, q) := ⟨_, _, rfl⟩
  rw [e] at h6 ⊢
  cases q with
  | some c => exact triedAll_left h6
  | none =>
    refine triedAll_append h6 ?_
    cases only6 with
    | true => exact triedAll_nil loc dev n1
    | false => exact tryAll_spec loc dev .v4 addrs n1

/-- **C87** (partial: what the record of the server says after a failure, see `C87_dead`): the client ends up connected to the first of the permitted addresses, those of version 6 first, that
works, and to none if and only if none works. -/
theorem C87_first_partial (only4 only6 : Bool) (loc dev : Option Bytes) (addrs : List Cand) (n : Net) :
    (∀ c, (clientConnect only4 only6 loc dev addrs n).2 = some c →
      ∃ pre post, order only4 only6 addrs = pre ++ c :: post ∧ (∀ d ∈ pre, ¬ Works loc dev d) ∧ Works loc dev c) ∧
    ((clientConnect only4 only6 loc dev addrs n).2 = none ↔ ∀ c ∈ order only4 only6 addrs, ¬ Works loc dev c) := by
  have h := clientConnect_spec only4 only6 loc dev addrs n
  refine ⟨h.first, h.nowhere, fun hn => ?_⟩
  cases e : (clientConnect only4 only6 loc dev addrs n).2 with
  | none => rfl
  | some c =>
    obtain ⟨pre, post, e1, _, w⟩ := h.first c e
    exact absurd w (hn c (by rw [e1]; simp))

/-- **C87**: it is then left with one more socket, which has this address as its peer, is of its family, and goes over the interface and from the address that were asked for; and with none more if
it did not connect. -/
theorem C87_socket (only4 only6 : Bool) (loc dev : Option Bytes) (addrs : List Cand) (n : Net) :
    (∀ c, (clientConnect only4 only6 loc dev addrs n).2 = some c → ∃ s, (clientConnect only4 only6 loc dev addrs n).1.socks = s :: n.socks ∧
      s.family = c.family ∧ s.peer = some c.addr ∧ s.device = dev ∧ (loc = none → s.bound = none) ∧ (∀ l, loc = some l → ∃ a, s.bound = some a ∧ CanBind c l a)) ∧
    ((clientConnect only4 only6 loc dev addrs n).2 = none → (clientConnect only4 only6 loc dev addrs n).1.socks = n.socks) := by
  have h := clientConnect_spec only4 only6 loc dev addrs n
  refine ⟨fun c e => ?_, h.socks⟩
  obtain ⟨⟨s, h1, h2⟩, _⟩ := h.socket c e
  exact ⟨s, h1, h2.family, h2.peer, h2.device, h2.free, h2.bound⟩

/-- **C87**: only permitted addresses are contacted, each at most as often as the name has it, and in their order. -/
theorem C87_contacted (only4 only6 : Bool) (loc dev : Option Bytes) (addrs : List Cand) (n : Net) :
    ∃ t : List Nat, (clientConnect only4 only6 loc dev addrs n).1.contacted = t.reverse ++ n.contacted ∧ t.Sublist ((order only4 only6 addrs).map (·.addr)) :=
  (clientConnect_spec only4 only6 loc dev addrs n).contacted

/-- **C87** for the server's record: it has the socket that is connected, and without one is as it was (partial: if the local address can always be found, see `C87_dead`). -/
theorem C87_record_partial (only4 only6 : Bool) (loc dev : Option Bytes) (addrs : List Cand) (n : Net) :
    (∀ c, (clientConnect only4 only6 loc dev addrs n).2 = some c → (clientConnect only4 only6 loc dev addrs n).1.record = some c.addr) ∧
    ((∀ c ∈ addrs, c.localRecord = true) → (clientConnect only4 only6 loc dev addrs n).2 = none → (clientConnect only4 only6 loc dev addrs n).1.record = n.record) := by
  have h := clientConnect_spec only4 only6 loc dev addrs n
  refine ⟨fun c e => (h.socket c e).2, fun hl e => h.kept e fun c hc => ?_⟩
  unfold order at hc
  rcases List.mem_append.1 hc with hc | hc <;> split at hc
  · cases hc
  · exact hl c (List.mem_filter.1 hc).1
  · cases hc
  · exact hl c (List.mem_filter.1 hc).1

/-- A host with one address of version 4 and two of version 6, of which the second answers. -/
def host : List Cand :=
  [⟨.v4, 4, true, true, true, some [], some [], some [(40, true)], true, true, true⟩, ⟨.v6, 61, true, true, true, some [], some [], some [(60, true)], false, true, true⟩,
    ⟨.v6, 62, true, true, true, some [], some [], some [(59, false), (60, true)], true, true, true⟩]

example : ((clientConnect false false (some [97#8]) none host {}).2.map (·.addr) = some 62) ∧ (clientConnect false false (some [97#8]) none host {}).1.contacted = [62, 61] ∧
    (clientConnect false false (some [97#8]) none host {}).1.socks = [⟨.v6, none, some 60, some 62⟩] ∧ ((clientConnect true false none none host {}).2.map (·.addr) = some 4) := by decide

/-- C87 fails for the record of the server: if the local address cannot be found after the connection was made, the socket is closed, but the record has it still, and will close the number once
more. -/
theorem C87_dead : ∃ addrs : List Cand, (clientConnect false false none none addrs {}).2.isNone ∧ (clientConnect false false none none addrs {}).1.socks = [] ∧
    (clientConnect false false none none addrs {}).1.record = some 4 :=
  ⟨[⟨.v4, 4, true, true, true, some [], some [], some [], true, true, false⟩], by decide, by decide, by decide⟩

/-- A client that may use neither version connects nowhere. -/
theorem C87_neither (loc dev : Option Bytes) (addrs : List Cand) (n : Net) : clientConnect true true loc dev addrs n = (n, none) := rfl

/-! ## C88 -/

/-- What came of the addresses of a family, unless a record could not be set. -/
structure Sat (l : List Seat) (f : Family) (n : Net) (x : Net × Opened) : Prop where
  seat : ∀ s, x.2 = .seat s → (∃ pre post, l = pre ++ s :: post ∧ (∀ d ∈ pre, ¬ Free d ∧ ¬ Taken d)) ∧ Free s ∧ x.1.socks = ⟨f, none, some s.addr, none⟩ :: n.socks ∧ x.1.record = some s.addr
  no : x.2 = .no → x.1.socks = n.socks ∧ x.1.record = n.record ∧ ∀ d ∈ l, ¬ Free d ∧ ¬ Taken d
  stop : x.2 = .stop → x.1.socks = ⟨f, none, none, none⟩ :: n.socks ∧ x.1.record = n.record ∧ ∃ pre s post, l = pre ++ s :: post ∧ (∀ d ∈ pre, ¬ Free d) ∧ Taken s
  contacted : x.1.contacted = n.contacted

theorem openSocket_spec (f : Family) (l : List Seat) (hr : ∀ s ∈ l, s.records = true) : ∀ n, Sat (l.filter fun s => s.family == f) f n (openSocket f l n) := by
  induction l with
  | nil => intro n; exact ⟨(fun s h => by cases h), fun _ => ⟨rfl, rfl, (fun d h => by cases h)⟩, (fun h => by cases h), rfl⟩
  | cons s r ih =>
    intro n
    have ih := ih (fun s hs => hr s (by simp [hs]))
    rw [openSocket]
    by_cases hf : s.family = f
    case neg => rw [if_pos hf, List.filter_cons_of_neg (by simp [hf])]; exact ih n
    rw [if_neg (by simp [hf]), List.filter_cons_of_pos (by simp [hf])]
    have skip : ¬ Free s → ¬ Taken s → Sat (s :: r.filter fun s => s.family == f) f n (openSocket f r n) := by
      intro h1 h2
      have h := ih n
      refine ⟨fun t e => ?_, fun e => ?_, fun e => ?_, h.contacted⟩
      · obtain ⟨⟨pre, post, e1, e2⟩, e3⟩ := h.seat t e
        refine ⟨⟨s :: pre, post, by rw [e1]; rfl, fun d hd => ?_⟩, e3⟩
        rcases List.mem_cons.1 hd with hd | hd
        · rw [hd]; exact ⟨h1, h2⟩
        · exact e2 d hd
      · obtain ⟨e1, e2, e3⟩ := h.no e
        refine ⟨e1, e2, fun d hd => ?_⟩
        rcases List.mem_cons.1 hd with hd | hd
        · rw [hd]; exact ⟨h1, h2⟩
        · exact e3 d hd
      · obtain ⟨e1, e2, pre, t, post, e3, e4, e5⟩ := h.stop e
        refine ⟨e1, e2, s :: pre, t, post, by rw [e3]; rfl, fun d hd => ?_, e5⟩
        rcases List.mem_cons.1 hd with hd | hd
        · rw [hd]; exact h1
        · exact e4 d hd
    by_cases h1 : s.socket = true
    case neg => rw [if_pos (by simp [h1])]; exact skip (fun h => h1 h.socket) (fun h => h1 h.socket)
    rw [if_neg (by simp [h1])]
    dsimp only
    by_cases h2 : s.reuse = true
    case neg => rw [if_pos (by simp [h2])]; exact skip (fun h => h2 h.reuse) (fun h => h2 h.reuse)
    rw [if_neg (by simp [h2])]
    by_cases h3 : s.family = .v6 → s.both = true
    case neg =>
      rw [if_pos (by cases hb : s.both <;> simp_all)]; exact skip (fun h => h3 h.both) (fun h => h3 h.both)
    rw [if_neg (by intro hh; have := h3 hh.1; simp [this] at hh)]
    by_cases h4 : s.bind = true
    · rw [if_pos h4, if_neg (by simp [hr s (by simp)])]
      refine ⟨fun t e => ?_, (fun h => by cases h), (fun h => by cases h), rfl⟩
      cases e
      exact ⟨⟨[], _, rfl, (fun d h => by cases h)⟩, ⟨h1, h2, h3, h4⟩, rfl, rfl⟩
    · rw [if_neg h4]
      have h4 : s.bind = false := by simpa using h4
      by_cases h5 : s.inUse = true
      · rw [if_pos h5]
        exact ⟨(fun t e => by cases e), (fun h => by cases h), fun _ => ⟨rfl, rfl, [], s, _, rfl, (fun d h => by cases h), h1, h2, h3, h4, h5⟩, rfl⟩
      · rw [if_neg h5]
        exact skip (fun h => by rw [h.bind] at h4; cases h4) (fun h => h5 h.inUse)

/-- **C88** (partial: if no address is taken, see `C88_taken`, and records can be set): a server listens on the first of its addresses, those of version 6 first, that is free, with one more socket that
is bound to it. It fails if and only if none is free or it may not listen, and is then left without a further socket. -/
theorem C88_first_partial (listens : Bool) (seats : List Seat) (n : Net) (hr : ∀ s ∈ seats, s.records = true) (ht : ∀ s ∈ seats, ¬ Taken s) :
    (∀ s, (serverSocket listens seats n).2 = some s → (∃ pre post, seatOrder seats = pre ++ s :: post ∧ (∀ d ∈ pre, ¬ Free d)) ∧ Free s ∧ listens = true ∧
      (serverSocket listens seats n).1.socks = ⟨s.family, none, some s.addr, none⟩ :: n.socks ∧ (serverSocket listens seats n).1.record = some s.addr) ∧
    ((serverSocket listens seats n).2 = none ↔ listens = false ∨ ∀ s ∈ seatOrder seats, ¬ Free s) ∧
    ((serverSocket listens seats n).2 = none → (serverSocket listens seats n).1.socks = n.socks) := by
  have sat : ∀ (f : Family) n, Sat (seats.filter fun s => s.family == f) f n (openSocket f seats n) := fun f => openSocket_spec f seats hr
  have nostop : ∀ f n, (openSocket f seats n).2 ≠ .stop := by
    intro f n e
    obtain ⟨_, _, pre, s, post, e1, _, e2⟩ := (sat f n).stop e
    exact ht s (List.mem_filter.1 (by rw [e1]; simp)).1 e2
  have fam : ∀ f s, s ∈ seats.filter (fun s => s.family == f) → s.family = f := fun f s h => by simpa using (List.mem_filter.1 h).2
  obtain ⟨n1, q, e⟩ : ∃ n1 q, openEither seats n = (n1, q) := ⟨_, _, rfl⟩
  have key : (∀ s, q = .seat s → (∃ pre post, seatOrder seats = pre ++ s :: post ∧ (∀ d ∈ pre, ¬ Free d)) ∧ Free s ∧ n1.socks = ⟨s.family, none, some s.addr, none⟩ :: n.socks ∧ n1.record = some s.addr) ∧
      (q = .no → n1.socks = n.socks ∧ ∀ d ∈ seatOrder seats, ¬ Free d) ∧ q ≠ .stop := by
    have h6 := sat .v6 n
    have z6 := nostop .v6 n
    obtain ⟨m, p, e6⟩ : ∃ m p, openSocket .v6 seats n = (m, p) := ⟨_, _, rfl⟩
    unfold openEither at e
    rw [e6] at h6 z6 e
    unfold seatOrder
    cases p with
    | stop => exact absurd rfl z6
    | seat t =>
      cases e
      refine ⟨fun s es => ?_, (fun h => by cases h), (fun h => by cases h)⟩
      cases es
      obtain ⟨⟨pre, post, a1, a2⟩, a3, a4, a5⟩ := h6.seat t rfl
      refine ⟨⟨pre, post ++ (seats.filter fun s => s.family == .v4), by rw [a1]; simp, fun d hd => (a2 d hd).1⟩, a3, ?_, a5⟩
      rw [a4, fam .v6 t (by rw [a1]; simp)]
    | no =>
      have h4 := sat .v4 m
      have z4 := nostop .v4 m
      dsimp only at e
      rw [e] at h4 z4
      obtain ⟨b1, b2, b3⟩ := h6.no rfl
      refine ⟨fun s es => ?_, fun es => ?_, z4⟩
      · obtain ⟨⟨pre, post, a1, a2⟩, a3, a4, a5⟩ := h4.seat s es
        refine ⟨⟨_ ++ pre, post, by rw [a1, List.append_assoc], fun d hd => ?_⟩, a3, ?_, a5⟩
        · rcases List.mem_append.1 hd with hd | hd
          · exact (b3 d hd).1
          · exact (a2 d hd).1
        · rw [a4, b1, fam .v4 s (by rw [a1]; simp)]
      · obtain ⟨a1, _, a2⟩ := h4.no es
        refine ⟨a1.trans b1, fun d hd => ?_⟩
        rcases List.mem_append.1 hd with hd | hd
        · exact (b3 d hd).1
        · exact (a2 d hd).1
  unfold serverSocket
  rw [e]
  obtain ⟨k1, k2, k3⟩ := key
  cases q with
  | stop => exact absurd rfl k3
  | no =>
    obtain ⟨a1, a2⟩ := k2 rfl
    exact ⟨(fun s h => by cases h), ⟨fun _ => .inr a2, fun _ => rfl⟩, fun _ => a1⟩
  | seat t =>
    obtain ⟨⟨pre, post, a1, a2⟩, a3, a4, a5⟩ := k1 t rfl
    cases listens with
    | true =>
      refine ⟨fun s es => ?_, ⟨(fun h => by cases h), fun h => ?_⟩, (fun h => by cases h)⟩
      · cases es; exact ⟨⟨pre, post, a1, a2⟩, a3, rfl, a4, a5⟩
      · rcases h with h | h
        · cases h
        · exact absurd a3 (h t (by rw [a1]; simp))
    | false =>
      refine ⟨(fun s h => by cases h), ⟨fun _ => .inl rfl, fun _ => rfl⟩, fun _ => ?_⟩
      show n1.socks.tail = n.socks
      rw [a4]; rfl

/-- A name with an address of each version, where version 6 is switched off. -/
def hall : List Seat := [⟨.v4, 4, true, true, true, true, false, true⟩, ⟨.v6, 6, false, true, true, true, false, true⟩]

example : (∀ s ∈ hall, s.records = true) ∧ (∀ s ∈ hall, ¬ Taken s) ∧ ((serverSocket true hall {}).2.map (·.addr) = some 4) ∧ (serverSocket true hall {}).1.socks = [⟨.v4, none, some 4, none⟩] := by
  refine ⟨by decide, fun s hs h => ?_, by decide, by decide⟩
  have : ∀ s ∈ hall, s.inUse = false := by decide
  have hu := h.inUse
  rw [this s hs] at hu
  cases hu

/-- C88 fails if an address is taken: however many others are free, the server gives up, and leaves its socket open. -/
theorem C88_taken (listens : Bool) (seats : List Seat) (n : Net) (s : Seat) (hf : s.family = .v6) (ht : Taken s) :
    (serverSocket listens (s :: seats) n).2 = none ∧ (serverSocket listens (s :: seats) n).1.socks = ⟨.v6, none, none, none⟩ :: n.socks := by
  have e : openSocket .v6 (s :: seats) n = ({ n with socks := { family := .v6 } :: n.socks }, .stop) := by
    rw [openSocket]
    simp [hf, ht.socket, ht.reuse, ht.both hf, ht.bind, ht.inUse]
  unfold serverSocket openEither
  rw [e]
  exact ⟨rfl, rfl⟩

end Owamp.Props
