import Verif.Lemmas.Startup
/-!
# C86: a server runs with what its configuration file and its command line say

A file and a command line that meet the hypotheses of all the theorems below are `confFile` and `confArgs`, see the example under "A server's file".
-/
namespace Owamp.Props
open Owamp.Startup Owamp.Policy Owamp.Ports Owamp.Spec.Classes Owamp.Spec.Ports Owamp.Spec.Startup

theorem read_steps {E : Env} {twoway : Bool} {file : Option File} {args : List Arg} {more : Bool} {o : Opts} (h : Startup.read E twoway file args more = some o) :
    ∃ o1 o2, settings E twoway (defaults E twoway) (linesOf file) = some o1 ∧ logging E args o1 = some o2 ∧ options o2 args = some o := by
  unfold Startup.read at h
  obtain ⟨o1, h1, h⟩ := Option.bind_eq_some_iff.1 h
  obtain ⟨o2, h2, h⟩ := Option.bind_eq_some_iff.1 h
  obtain ⟨o3, h3, h⟩ := Option.bind_eq_some_iff.1 h
  split at h
  · cases h
  · cases h
    refine ⟨o1, o2, ?_, h2, h3⟩
    unfold loadConfig at h1
    cases file with
    | none =>
      dsimp only at h1
      split at h1
      · cases h1
      · exact h1
    | some f =>
      obtain ⟨o4, h4, h5⟩ := Option.bind_eq_some_iff.1 h1
      split at h5
      · cases h5
      · cases h5; exact h4

/-- One field, from the file and from the command line. -/
theorem read_field {α : Type} {E : Env} {twoway : Bool} {file : Option File} {args : List Arg} {more : Bool} {o : Opts} (h : Startup.read E twoway file args more = some o)
    (get : Opts → α) (R : Bytes → α → Prop) (x : Key) (sel : Arg → Option Bytes) (hs : Strings (linesOf file)) (hx : x.has twoway = true) (hw : x.loose = true → Whole twoway (linesOf file))
    (h1 : ∀ o v o', assign E o v x = some o' → R v (get o')) (h2 : ∀ o v y o', y ≠ x → assign E o v y = some o' → get o' = get o)
    (h3 : ∀ o f d, get { o with facility := f, daemon := d } = get o)
    (h4 : ∀ o a v o', sel a = some v → Startup.option o a = some o' → R v (get o')) (h5 : ∀ o a o', sel a = none → Startup.option o a = some o' → get o' = get o) :
    (∀ v, counts (given sel args) (valuesOf x.name (linesOf file)) = some v → R v (get o)) ∧
    (counts (given sel args) (valuesOf x.name (linesOf file)) = none → get o = get (defaults E twoway)) := by
  obtain ⟨o1, o2, e1, e2, e3⟩ := read_steps h
  obtain ⟨a1, a2⟩ := settings_field E twoway get R x h1 h2 _ hs hx hw _ _ e1
  obtain ⟨_, b1, _⟩ := logging_field E args _ _ e2
  obtain ⟨c1, c2⟩ := options_field get R sel h4 h5 args _ _ e3
  have b1 : get o2 = get o1 := by rw [b1]; exact h3 _ _ _
  rw [b1] at c2
  unfold counts
  cases hl : (given sel args).getLast? with
  | some w =>
    rw [Option.some_or]
    exact ⟨fun v hv => by cases hv; exact c1 _ hl, nofun⟩
  | none =>
    rw [Option.none_or, c2 hl]
    exact ⟨a1, a2⟩

/-- A text. -/
theorem read_text {E : Env} {twoway : Bool} {file : Option File} {args : List Arg} {more : Bool} {o : Opts} (h : Startup.read E twoway file args more = some o) (hs : Strings (linesOf file))
    (get : Opts → Option Bytes) (x : Key) (sel : Arg → Option Bytes) (hx : x.has twoway = true) (hl : x.loose = false)
    (h0 : get (defaults E twoway) = none) (h1 : ∀ o v o', assign E o v x = some o' → get o' = some v) (h2 : ∀ o v y o', y ≠ x → assign E o v y = some o' → get o' = get o)
    (h3 : ∀ o f d, get { o with facility := f, daemon := d } = get o)
    (h4 : ∀ o a v o', sel a = some v → Startup.option o a = some o' → get o' = some v) (h5 : ∀ o a o', sel a = none → Startup.option o a = some o' → get o' = get o) :
    get o = counts (given sel args) (valuesOf x.name (linesOf file)) := by
  obtain ⟨a1, a2⟩ := read_field h get (fun v a => a = some v) x sel hs hx (fun e => by rw [hl] at e; cases e) h1 h2 h3 h4 h5
  cases hc : counts (given sel args) (valuesOf x.name (linesOf file)) with
  | some v => exact a1 v hc
  | none => rw [a2 hc, h0]

theorem setPorts_same {o o' : Opts} {v : Bytes} (h : setPorts o v = some o') : o' = { o with portspec := o'.portspec } := by
  unfold setPorts at h
  split at h
  · cases h
  · split at h <;> cases h <;> rfl

/-- What every key leaves alone. -/
theorem assign_same {E : Env} {o o' : Opts} {v : Bytes} {y : Key} (h : assign E o v y = some o') :
    (y ≠ .facility → o'.facility = o.facility) ∧ (y ≠ .loglevel → o'.level = o.level) ∧ (y ≠ .loglocation → o'.location = o.location) ∧
    (y ≠ .rootfolly → o'.allowroot = o.allowroot) ∧ (y ≠ .datadir → o'.datadir = o.datadir) ∧ (y ≠ .user → o'.user = o.user) ∧ (y ≠ .group → o'.group = o.group) ∧
    (y ≠ .verbose → o'.verbose = o.verbose) ∧ (y ≠ .authmode → o'.authmode = o.authmode) ∧ (y ≠ .srcnode → o'.srcnode = o.srcnode) ∧
    (y ≠ .testports → o'.portspec = o.portspec) ∧ (y ≠ .vardir → o'.vardir = o.vardir) ∧ (y ≠ .diskfudge → o'.diskfudge = o.diskfudge) ∧ (y ≠ .dieby → o'.dieby = o.dieby) ∧
    (y ≠ .controltimeout → o'.controltimeout = o.controltimeout) ∧ (y ≠ .pbkdf2 → o'.pbkdf2 = o.pbkdf2) ∧ (y ≠ .enddelay → o'.endDelay = o.endDelay) ∧
    (y ≠ .maxcontrolsessions → o'.maxcontrolsessions = o.maxcontrolsessions) ∧ (y ≠ .testtimeout → o'.testtimeout = o.testtimeout) ∧ o'.daemon = o.daemon := by
  have m : ∀ {α : Type} {q : Option α} {f : α → Opts}, q.map f = some o' → ∃ a, o' = f a := by
    intro α q f e
    obtain ⟨a, _, e⟩ := Option.map_eq_some_iff.1 e
    exact ⟨a, e.symm⟩
  have i : ∀ {α : Type} {q : Option α} {c : α → Prop} [DecidablePred c] {f : α → Opts}, (q.bind fun a => if c a then some (f a) else none) = some o' → ∃ a, o' = f a := by
    intro α q c _ f e
    obtain ⟨a, _, e⟩ := Option.bind_eq_some_iff.1 e
    split at e
    · cases e; exact ⟨a, rfl⟩
    · cases e
  cases y <;> unfold assign at h <;> dsimp only at h
  case testports => rw [setPorts_same h]; simp
  all_goals first
    | (cases h; simp; done)
    | (obtain ⟨a, rfl⟩ := m h; simp; done)
    | (obtain ⟨a, rfl⟩ := i h; simp; done)

/-- What every option leaves alone. -/
theorem option_same {o o' : Opts} {a : Arg} (h : Startup.option o a = some o') :
    (optA a = none → o'.authmode = o.authmode) ∧ (optD a = none → o'.datadir = o.datadir) ∧ (a ≠ .f → o'.allowroot = o.allowroot) ∧ (a ≠ .v → o'.verbose = o.verbose) ∧
    (optS a = none → o'.srcnode = o.srcnode) ∧ (optU a = none → o'.user = o.user) ∧ (optG a = none → o'.group = o.group) ∧ (optP a = none → o'.portspec = o.portspec) ∧
    (optR a = none → o'.vardir = o.vardir) ∧ o'.facility = o.facility ∧ o'.level = o.level ∧ o'.location = o.location ∧ o'.daemon = o.daemon ∧ o'.diskfudge = o.diskfudge ∧
    o'.dieby = o.dieby ∧ o'.controltimeout = o.controltimeout ∧ o'.pbkdf2 = o.pbkdf2 ∧ o'.endDelay = o.endDelay ∧ o'.maxcontrolsessions = o.maxcontrolsessions ∧
    o'.testtimeout = o.testtimeout := by
  cases a <;> unfold Startup.option at h <;> dsimp only at h
  case P => rw [setPorts_same h]; simp [optP]
  all_goals first
    | (cases h; simp [optA, optD, optS, optU, optG, optR]; done)
    | cases h

/-- **C86** for the texts: modes, directories, user, group and address are those of the last option for them, otherwise those of the last line of the file with their key, whatever the
case of the key. Without either there is none, and a missing directory is the current one. -/
theorem C86_texts (E : Env) (twoway : Bool) (file : Option File) (args : List Arg) (more : Bool) (o : Opts) (h : Startup.read E twoway file args more = some o) (hs : Strings (linesOf file)) (cwd : Bytes) :
    o.authmode = counts (given optA args) (valuesOf ['a','u','t','h','m','o','d','e'] (linesOf file)) ∧
    directory cwd o.datadir = (counts (given optD args) (valuesOf ['d','a','t','a','d','i','r'] (linesOf file))).getD cwd ∧
    directory cwd o.vardir = (counts (given optR args) (valuesOf ['v','a','r','d','i','r'] (linesOf file))).getD cwd ∧
    directory cwd (confdir args none) = ((given optC args).getLast?).getD cwd ∧
    (wish o).user = counts (given optU args) (valuesOf ['u','s','e','r'] (linesOf file)) ∧
    (wish o).group = counts (given optG args) (valuesOf ['g','r','o','u','p'] (linesOf file)) ∧
    o.srcnode = counts (given optS args) (valuesOf ['s','r','c','n','o','d','e'] (linesOf file)) := by
  have conf : ∀ (args : List Arg) (c : Option Bytes), confdir args c = (given optC args).getLast?.or c := by
    intro args
    induction args with
    | nil => intro c; rfl
    | cons a r ih =>
      intro c
      cases a with
      | c v =>
        rw [confdir, ih]
        have : given optC (.c v :: r) = [v] ++ given optC r := rfl
        rw [this, getLast?_append_or, Option.or_assoc]
        rfl
      | _ => exact ih c
  unfold directory wish
  refine ⟨?_, ?_, ?_, ?_, ?_, ?_, ?_⟩
  · exact read_text h hs (·.authmode) .authmode optA rfl rfl rfl (fun o v o' e => by cases e; rfl) (fun o v y o' hy e => (assign_same e).2.2.2.2.2.2.2.2.1 hy) (fun _ _ _ => rfl)
      (fun o a v o' e1 e2 => by cases a <;> cases e1; cases e2; rfl) (fun o a o' e1 e2 => (option_same e2).1 e1)
  · rw [read_text h hs (·.datadir) .datadir optD rfl rfl rfl (fun o v o' e => by cases e; rfl) (fun o v y o' hy e => (assign_same e).2.2.2.2.1 hy) (fun _ _ _ => rfl)
      (fun o a v o' e1 e2 => by cases a <;> cases e1; cases e2; rfl) (fun o a o' e1 e2 => (option_same e2).2.1 e1)]
    rfl
  · rw [read_text h hs (·.vardir) .vardir optR rfl rfl rfl (fun o v o' e => by cases e; rfl) (fun o v y o' hy e => (assign_same e).2.2.2.2.2.2.2.2.2.2.2.1 hy) (fun _ _ _ => rfl)
      (fun o a v o' e1 e2 => by cases a <;> cases e1; cases e2; rfl) (fun o a o' e1 e2 => (option_same e2).2.2.2.2.2.2.2.2.1 e1)]
    rfl
  · rw [conf, Option.or_none]
  · exact read_text h hs (·.user) .user optU rfl rfl rfl (fun o v o' e => by cases e; rfl) (fun o v y o' hy e => (assign_same e).2.2.2.2.2.1 hy) (fun _ _ _ => rfl)
      (fun o a v o' e1 e2 => by cases a <;> cases e1; cases e2; rfl) (fun o a o' e1 e2 => (option_same e2).2.2.2.2.2.1 e1)
  · exact read_text h hs (·.group) .group optG rfl rfl rfl (fun o v o' e => by cases e; rfl) (fun o v y o' hy e => (assign_same e).2.2.2.2.2.2.1 hy) (fun _ _ _ => rfl)
      (fun o a v o' e1 e2 => by cases a <;> cases e1; cases e2; rfl) (fun o a o' e1 e2 => (option_same e2).2.2.2.2.2.2.1 e1)
  · exact read_text h hs (·.srcnode) .srcnode optS rfl rfl rfl (fun o v o' e => by cases e; rfl) (fun o v y o' hy e => (assign_same e).2.2.2.2.2.2.2.2.2.1 hy) (fun _ _ _ => rfl)
      (fun o a v o' e1 e2 => by cases a <;> cases e1; cases e2; rfl) (fun o a o' e1 e2 => (option_same e2).2.2.2.2.1 e1)

/-- A flag. -/
theorem read_flag {E : Env} {twoway : Bool} {file : Option File} {args : List Arg} {more : Bool} {o : Opts} (h : Startup.read E twoway file args more = some o) (hs : Strings (linesOf file))
    (get : Opts → Bool) (x : Key) (P : Arg → Prop) [DecidablePred P] (hx : x.has twoway = true) (hl : x.loose = false)
    (h0 : get (defaults E twoway) = false) (h1 : ∀ o v o', assign E o v x = some o' → get o' = true) (h2 : ∀ o v y o', y ≠ x → assign E o v y = some o' → get o' = get o)
    (h3 : ∀ o f d, get { o with facility := f, daemon := d } = get o)
    (h4 : ∀ o a o', P a → Startup.option o a = some o' → get o' = true) (h5 : ∀ o a o', ¬ P a → Startup.option o a = some o' → get o' = get o) :
    get o = true ↔ (∃ a ∈ args, P a) ∨ ∃ l ∈ linesOf file, SameWord l.1 (text x.name) := by
  obtain ⟨a1, a2⟩ := read_field h get (fun _ a => a = true) x (fun a => if P a then some [] else none) hs hx (fun e => by rw [hl] at e; cases e) h1 h2 h3
    (fun o a v o' e1 e2 => by
      by_cases hp : P a
      · exact h4 _ _ _ hp e2
      · rw [if_neg hp] at e1; cases e1)
    (fun o a o' e1 e2 => by
      by_cases hp : P a
      · rw [if_pos hp] at e1; cases e1
      · exact h5 _ _ _ hp e2)
  have g : given (fun a => if P a then some [] else none) args = [] ↔ ¬ ∃ a ∈ args, P a := by
    unfold given
    rw [List.filterMap_eq_nil_iff]
    constructor
    · rintro e ⟨a, ha, hp⟩
      have := e a ha
      rw [if_pos hp] at this; cases this
    · intro e a ha
      exact if_neg fun hp => e ⟨a, ha, hp⟩
  have l : valuesOf x.name (linesOf file) = [] ↔ ¬ ∃ l ∈ linesOf file, SameWord l.1 (text x.name) := by
    unfold valuesOf
    rw [List.map_eq_nil_iff, List.filter_eq_nil_iff]
    simp
  cases hc : counts (given (fun a => if P a then some [] else none) args) (valuesOf x.name (linesOf file)) with
  | some v =>
    refine ⟨fun _ => ?_, fun _ => a1 v hc⟩
    unfold counts at hc
    by_cases e1 : ∃ a ∈ args, P a
    · exact .inl e1
    · refine .inr (Decidable.not_not.1 fun e2 => ?_)
      rw [g.2 e1, l.2 e2] at hc
      cases hc
  | none =>
    rw [a2 hc, h0]
    refine ⟨nofun, fun e => ?_⟩
    unfold counts at hc
    rw [Option.or_eq_none_iff, List.getLast?_eq_none_iff, List.getLast?_eq_none_iff] at hc
    rcases e with e | e
    · exact absurd e (g.1 hc.1)
    · exact absurd e (l.1 hc.2)

/-- **C86** for what is only said or not: permission to be root, verbosity, source locations in messages (by its mention in the file, whatever its value), and running in the
foreground. -/
theorem C86_flags (E : Env) (twoway : Bool) (file : Option File) (args : List Arg) (more : Bool) (o : Opts) (h : Startup.read E twoway file args more = some o) (hs : Strings (linesOf file)) :
    ((wish o).allowroot = true ↔ .f ∈ args ∨ ∃ l ∈ linesOf file, SameWord l.1 (text ['r','o','o','t','f','o','l','l','y'])) ∧
    (o.verbose = true ↔ .v ∈ args ∨ ∃ l ∈ linesOf file, SameWord l.1 (text ['v','e','r','b','o','s','e'])) ∧
    (o.location = true ↔ ∃ l ∈ linesOf file, SameWord l.1 (text ['l','o','g','l','o','c','a','t','i','o','n'])) ∧
    (o.daemon = false ↔ .Z ∈ args) := by
  unfold wish
  refine ⟨?_, ?_, ?_, ?_⟩
  · refine (read_flag h hs (·.allowroot) .rootfolly (· = .f) rfl rfl rfl (fun o v o' e => by cases e; rfl) (fun o v y o' hy e => (assign_same e).2.2.2.1 hy) (fun _ _ _ => rfl)
      (fun o a o' e1 e2 => by cases e1; cases e2; rfl) (fun o a o' e1 e2 => (option_same e2).2.2.1 e1)).trans ?_
    simp [Key.name]
  · refine (read_flag h hs (·.verbose) .verbose (· = .v) rfl rfl rfl (fun o v o' e => by cases e; rfl) (fun o v y o' hy e => (assign_same e).2.2.2.2.2.2.2.1 hy) (fun _ _ _ => rfl)
      (fun o a o' e1 e2 => by cases e1; cases e2; rfl) (fun o a o' e1 e2 => (option_same e2).2.2.2.1 e1)).trans ?_
    simp [Key.name]
  · refine (read_flag h hs (·.location) .loglocation (fun _ => False) rfl rfl rfl (fun o v o' e => by cases e; rfl) (fun o v y o' hy e => (assign_same e).2.2.1 hy) (fun _ _ _ => rfl)
      (fun o a o' e1 e2 => e1.elim) (fun o a o' e1 e2 => (option_same e2).2.2.2.2.2.2.2.2.2.2.2.1)).trans ?_
    simp [Key.name]
  · obtain ⟨o1, o2, e1, e2, e3⟩ := read_steps h
    obtain ⟨_, _, b⟩ := logging_field E args _ _ e2
    have s1 : ∀ lines o o', settings E twoway o lines = some o' → o'.daemon = o.daemon := by
      intro lines
      induction lines with
      | nil => intro o o' e; cases e; rfl
      | cons l r ih =>
        obtain ⟨k, v⟩ := l
        intro o o' e
        rw [settings] at e
        obtain ⟨o3, f1, f2⟩ := Option.bind_eq_some_iff.1 e
        unfold setting at f1
        obtain ⟨y, _, f4⟩ := Option.bind_eq_some_iff.1 f1
        rw [ih _ _ f2]
        obtain ⟨_, _, _, _, _, _, _, _, _, _, _, _, _, _, _, _, _, _, _, q⟩ := assign_same f4
        exact q
    have s2 : ∀ args o o', options o args = some o' → o'.daemon = o.daemon := by
      intro args
      induction args with
      | nil => intro o o' e; cases e; rfl
      | cons a r ih =>
        intro o o' e
        rw [options] at e
        obtain ⟨o3, f1, f2⟩ := Option.bind_eq_some_iff.1 e
        rw [ih _ _ f2]
        exact (option_same f1).2.2.2.2.2.2.2.2.2.2.2.2.1
    rw [s2 _ _ _ e3, b, s1 _ _ _ e1]
    simp [defaults]

/-- A setting that only the file has. -/
theorem read_file {α : Type} {E : Env} {twoway : Bool} {file : Option File} {args : List Arg} {more : Bool} {o : Opts} (h : Startup.read E twoway file args more = some o) (hs : Strings (linesOf file))
    (get : Opts → α) (R : Bytes → α → Prop) (x : Key) (hx : x.has twoway = true) (hw : x.loose = true → Whole twoway (linesOf file))
    (h1 : ∀ o v o', assign E o v x = some o' → R v (get o')) (h2 : ∀ o v y o', y ≠ x → assign E o v y = some o' → get o' = get o)
    (h3 : ∀ o f d, get { o with facility := f, daemon := d } = get o) (h5 : ∀ o a o', Startup.option o a = some o' → get o' = get o) :
    (∀ v, (valuesOf x.name (linesOf file)).getLast? = some v → R v (get o)) ∧ ((valuesOf x.name (linesOf file)).getLast? = none → get o = get (defaults E twoway)) := by
  have := read_field h get R x (fun _ => none) hs hx hw h1 h2 h3 (fun _ _ _ _ e => by cases e) (fun o a o' _ e => h5 o a o' e)
  have e : given (fun _ => none) args = [] := by unfold given; rw [List.filterMap_eq_nil_iff]; exact fun _ _ => rfl
  rw [e] at this
  exact this

/-- The number `n` is what the values say: the last of them begins with a number, and `n` is that number if it has no more than 32 bits; if there is no value `n` is the default. -/
def TakesNumber (values : List Bytes) (dflt : Nat) (n : U32) : Prop :=
  (∀ v, values.getLast? = some v → ∃ i, Begins v i ∧ n = BitVec.ofInt 32 i ∧ (0 ≤ i → i < 2 ^ 32 → (n.toNat : Int) = i)) ∧ (values.getLast? = none → n.toNat = dflt)

theorem takesNumber {values : List Bytes} {dflt : Nat} {n : U32} (h1 : ∀ v, values.getLast? = some v → number v = some n) (h2 : values.getLast? = none → n.toNat = dflt) : TakesNumber values dflt n := by
  refine ⟨fun v hv => ?_, h2⟩
  obtain ⟨i, hi, rfl⟩ := (number_iff _ _).1 (h1 v hv)
  refine ⟨i, hi, rfl, fun h3 h4 => ?_⟩
  rw [BitVec.toNat_ofInt]
  omega

theorem assign_map {o' : Opts} {v : Bytes} {f : U32 → Opts} (get : Opts → U32) (hf : ∀ n, get (f n) = n) (h : (number v).map f = some o') : number v = some (get o') := by
  obtain ⟨n, e1, e2⟩ := Option.map_eq_some_iff.1 h
  rw [e1, ← e2, hf]

/-- **C86** for whole numbers (partial: a number of more than 32 bits is cut, and what follows a number is not looked at, see `C86_cut` and `C86_text_after`; a key that only begins
like one of the last two counts for it, see `C86_prefix`): the last line with the key counts, otherwise the default does. -/
theorem C86_numbers_partial (E : Env) (twoway : Bool) (file : Option File) (args : List Arg) (more : Bool) (o : Opts) (h : Startup.read E twoway file args more = some o) (hs : Strings (linesOf file)) :
    TakesNumber (valuesOf ['d','i','e','b','y'] (linesOf file)) 5 o.dieby ∧
    TakesNumber (valuesOf ['c','o','n','t','r','o','l','t','i','m','e','o','u','t'] (linesOf file)) (if twoway then 900 else 1800) o.controltimeout ∧
    TakesNumber (valuesOf ['p','b','k','d','f','2','_','c','o','u','n','t'] (linesOf file)) 0 o.pbkdf2 ∧
    (Whole twoway (linesOf file) →
      TakesNumber (valuesOf ['m','a','x','c','o','n','t','r','o','l','s','e','s','s','i','o','n','s'] (linesOf file)) 0 o.maxcontrolsessions ∧
      (twoway = true → TakesNumber (valuesOf ['t','e','s','t','t','i','m','e','o','u','t'] (linesOf file)) 0 o.testtimeout)) := by
  refine ⟨?_, ?_, ?_, fun hw => ⟨?_, fun tw => ?_⟩⟩
  · obtain ⟨a, b⟩ := read_file h hs (·.dieby) (fun v n => number v = some n) .dieby rfl nofun (fun o v o' e => assign_map (·.dieby) (fun _ => rfl) e)
      (fun o v y o' hy e => by obtain ⟨_, _, _, _, _, _, _, _, _, _, _, _, _, q, _⟩ := assign_same e; exact q hy) (fun _ _ _ => rfl)
      (fun o a o' e => by obtain ⟨_, _, _, _, _, _, _, _, _, _, _, _, _, _, q, _⟩ := option_same e; exact q)
    exact takesNumber a fun e => by rw [b e]; rfl
  · obtain ⟨a, b⟩ := read_file h hs (·.controltimeout) (fun v n => number v = some n) .controltimeout rfl nofun (fun o v o' e => assign_map (·.controltimeout) (fun _ => rfl) e)
      (fun o v y o' hy e => by obtain ⟨_, _, _, _, _, _, _, _, _, _, _, _, _, _, q, _⟩ := assign_same e; exact q hy) (fun _ _ _ => rfl)
      (fun o a o' e => by obtain ⟨_, _, _, _, _, _, _, _, _, _, _, _, _, _, _, q, _⟩ := option_same e; exact q)
    exact takesNumber a fun e => by rw [b e]; cases twoway <;> rfl
  · obtain ⟨a, b⟩ := read_file h hs (·.pbkdf2) (fun v n => number v = some n) .pbkdf2 rfl nofun (fun o v o' e => assign_map (·.pbkdf2) (fun _ => rfl) e)
      (fun o v y o' hy e => by obtain ⟨_, _, _, _, _, _, _, _, _, _, _, _, _, _, _, q, _⟩ := assign_same e; exact q hy) (fun _ _ _ => rfl)
      (fun o a o' e => by obtain ⟨_, _, _, _, _, _, _, _, _, _, _, _, _, _, _, _, q, _⟩ := option_same e; exact q)
    exact takesNumber a fun e => by rw [b e]; rfl
  · obtain ⟨a, b⟩ := read_file h hs (·.maxcontrolsessions) (fun v n => number v = some n) .maxcontrolsessions rfl (fun _ => hw)
      (fun o v o' e => assign_map (·.maxcontrolsessions) (fun _ => rfl) e)
      (fun o v y o' hy e => by obtain ⟨_, _, _, _, _, _, _, _, _, _, _, _, _, _, _, _, _, q, _⟩ := assign_same e; exact q hy) (fun _ _ _ => rfl)
      (fun o a o' e => by obtain ⟨_, _, _, _, _, _, _, _, _, _, _, _, _, _, _, _, _, _, q, _⟩ := option_same e; exact q)
    exact takesNumber a fun e => by rw [b e]; rfl
  · obtain ⟨a, b⟩ := read_file h hs (·.testtimeout) (fun v n => number v = some n) .testtimeout tw (fun _ => hw)
      (fun o v o' e => assign_map (·.testtimeout) (fun _ => rfl) e)
      (fun o v y o' hy e => by obtain ⟨_, _, _, _, _, _, _, _, _, _, _, _, _, _, _, _, _, _, q, _⟩ := assign_same e; exact q hy) (fun _ _ _ => rfl)
      (fun o a o' e => by obtain ⟨_, _, _, _, _, _, _, _, _, _, _, _, _, _, _, _, _, _, _, q⟩ := option_same e; exact q)
    exact takesNumber a fun e => by rw [b e]; rfl

/-- **C86** for the facility and the level of messages: the facility is that of the last option, otherwise that of the last line, otherwise the daemons'; the level that of the last line. -/
theorem C86_logging (E : Env) (twoway : Bool) (file : Option File) (args : List Arg) (more : Bool) (o : Opts) (h : Startup.read E twoway file args more = some o) (hs : Strings (linesOf file)) :
    ((∀ v, counts (given optE args) (valuesOf ['f','a','c','i','l','i','t','y'] (linesOf file)) = some v → E.facility v = some o.facility) ∧
     (counts (given optE args) (valuesOf ['f','a','c','i','l','i','t','y'] (linesOf file)) = none → o.facility = E.daemon)) ∧
    (∀ v, (valuesOf ['l','o','g','l','e','v','e','l'] (linesOf file)).getLast? = some v → ∃ n ∈ levels, SameWord v (text n.1) ∧ o.level = n.2) ∧
    ((valuesOf ['l','o','g','l','e','v','e','l'] (linesOf file)).getLast? = none → o.level = .info) := by
  refine ⟨?_, ?_, ?_⟩
  · obtain ⟨o1, o2, e1, e2, e3⟩ := read_steps h
    have s2 : ∀ args o o', options o args = some o' → o'.facility = o.facility := by
      intro args
      induction args with
      | nil => intro o o' e; cases e; rfl
      | cons a r ih =>
        intro o o' e
        rw [options] at e
        obtain ⟨o3, f1, f2⟩ := Option.bind_eq_some_iff.1 e
        rw [ih _ _ f2]
        obtain ⟨_, _, _, _, _, _, _, _, _, q, _⟩ := option_same f1
        exact q
    obtain ⟨a1, a2⟩ := settings_field E twoway (·.facility) (fun v n => E.facility v = some n) .facility
      (fun o v o' e => by obtain ⟨n, f1, f2⟩ := Option.map_eq_some_iff.1 e; rw [f1, ← f2])
      (fun o v y o' hy e => (assign_same e).1 hy) _ hs rfl nofun _ _ e1
    obtain ⟨⟨b1, b2⟩, _, _⟩ := logging_field E args _ _ e2
    rw [s2 _ _ _ e3]
    unfold counts
    cases hl : (given optE args).getLast? with
    | some w =>
      rw [Option.some_or]
      exact ⟨fun v hv => by cases hv; exact b1 _ hl, nofun⟩
    | none =>
      rw [Option.none_or, b2 hl]
      exact ⟨a1, a2⟩
  all_goals
    obtain ⟨a, b⟩ := read_file h hs (·.level) (fun v n => levelByName v = some n) .loglevel rfl nofun
      (fun o v o' e => by obtain ⟨n, f1, f2⟩ := Option.map_eq_some_iff.1 e; rw [f1, ← f2])
      (fun o v y o' hy e => (assign_same e).2.1 hy) (fun _ _ _ => rfl)
      (fun o a o' e => by obtain ⟨_, _, _, _, _, _, _, _, _, _, q, _⟩ := option_same e; exact q)
  · intro v hv
    have hm : v ∈ valuesOf ['l','o','g','l','e','v','e','l'] (linesOf file) := List.mem_of_getLast? hv
    unfold valuesOf at hm
    obtain ⟨l, hl, rfl⟩ := List.mem_map.1 hm
    exact (levelByName_iff _ (hs l (List.mem_filter.1 hl).1).2 _).1 (a _ hv)
  · intro e; exact b e

/-- **C86** for fractions: the factor for disk space is the last one given, which is from 1 to 10, otherwise 1; the delay at the end is the last one given, which is not negative, and none
is set otherwise. -/
theorem C86_fractions (E : Env) (twoway : Bool) (file : Option File) (args : List Arg) (more : Bool) (o : Opts) (h : Startup.read E twoway file args more = some o) (hs : Strings (linesOf file)) :
    (twoway = false →
      (∀ v, (valuesOf ['d','i','s','k','f','u','d','g','e'] (linesOf file)).getLast? = some v → ∃ q : Rat, E.dbl v = some (.fin q) ∧ 1 ≤ q ∧ q ≤ 10 ∧ o.diskfudge = .fin q) ∧
      ((valuesOf ['d','i','s','k','f','u','d','g','e'] (linesOf file)).getLast? = none → o.diskfudge = .fin 1)) ∧
    (∀ v, (valuesOf ['e','n','d','d','e','l','a','y'] (linesOf file)).getLast? = some v →
      ∃ x, E.dbl v = some x ∧ (x = .inf ∨ ∃ q : Rat, x = .fin q ∧ 0 ≤ q) ∧ o.endDelay = some x) ∧
    ((valuesOf ['e','n','d','d','e','l','a','y'] (linesOf file)).getLast? = none → o.endDelay = none) := by
  refine ⟨fun tw => ?_, ?_⟩
  · obtain ⟨a, b⟩ := read_file h hs (·.diskfudge) (fun v x => ∃ q : Rat, E.dbl v = some (.fin q) ∧ 1 ≤ q ∧ q ≤ 10 ∧ x = .fin q) .diskfudge (by rw [tw]; rfl) nofun
      (fun o v o' e => by
        obtain ⟨x, f1, f2⟩ := Option.bind_eq_some_iff.1 e
        split at f2
        · rename_i hx
          cases f2
          cases x with
          | fin q => exact ⟨q, f1, of_decide_eq_true hx.1, of_decide_eq_true hx.2, rfl⟩
          | inf => exact absurd hx.2 (by simp [Dbl.le])
          | minusInf => exact absurd hx.1 (by simp [Dbl.ge])
          | nan => exact absurd hx.1 (by simp [Dbl.ge])
        · cases f2)
      (fun o v y o' hy e => by obtain ⟨_, _, _, _, _, _, _, _, _, _, _, _, q, _⟩ := assign_same e; exact q hy) (fun _ _ _ => rfl)
      (fun o a o' e => by obtain ⟨_, _, _, _, _, _, _, _, _, _, _, _, _, q, _⟩ := option_same e; exact q)
    exact ⟨a, b⟩
  · obtain ⟨a, b⟩ := read_file h hs (·.endDelay) (fun v y => ∃ x, E.dbl v = some x ∧ (x = .inf ∨ ∃ q : Rat, x = .fin q ∧ 0 ≤ q) ∧ y = some x) .enddelay rfl nofun
      (fun o v o' e => by
        obtain ⟨x, f1, f2⟩ := Option.bind_eq_some_iff.1 e
        split at f2
        · rename_i hx
          cases f2
          refine ⟨x, f1, ?_, rfl⟩
          cases x with
          | fin q => exact .inr ⟨q, rfl, of_decide_eq_true hx⟩
          | inf => exact .inl rfl
          | minusInf => exact absurd hx (by simp [Dbl.ge])
          | nan => exact absurd hx (by simp [Dbl.ge])
        · cases f2)
      (fun o v y o' hy e => by obtain ⟨_, _, _, _, _, _, _, _, _, _, _, _, _, _, _, _, q, _⟩ := assign_same e; exact q hy) (fun _ _ _ => rfl)
      (fun o a o' e => by obtain ⟨_, _, _, _, _, _, _, _, _, _, _, _, _, _, _, _, _, q, _⟩ := option_same e; exact q)
    exact ⟨a, b⟩

/-- **C86** for the ports (partial: "0" after another range, see `C86_zero_after`): the last option, otherwise the last line, says a range, and it is used; without any, or if only "0"
was said, the system chooses. -/
theorem C86_ports_partial (E : Env) (twoway : Bool) (file : Option File) (args : List Arg) (more : Bool) (o : Opts) (h : Startup.read E twoway file args more = some o) (hs : Strings (linesOf file)) :
    (∀ v, counts (given optP args) (valuesOf ['t','e','s','t','p','o','r','t','s'] (linesOf file)) = some v →
      ∃ lo hi, IsRange v lo hi ∧ (hi ≠ 0 → ∃ g : Range, o.portspec = some g ∧ g.low.toNat = lo ∧ g.high.toNat = hi)) ∧
    ((∀ v ∈ given optP args ++ valuesOf ['t','e','s','t','p','o','r','t','s'] (linesOf file), IsRange v 0 0) → o.portspec = none) := by
  have one : ∀ o v o', setPorts o v = some o' → ∃ lo hi, IsRange v lo hi ∧ (hi ≠ 0 → ∃ g : Range, o'.portspec = some g ∧ g.low.toNat = lo ∧ g.high.toNat = hi) := by
    intro o v o' e
    unfold setPorts at e
    split at e
    · cases e
    · rename_i g hg
      refine ⟨_, _, (parse_isRange v g).1 hg, fun hne => ?_⟩
      rw [if_neg (fun hh => hne (by rw [hh.1]; rfl))] at e
      cases e
      exact ⟨g, rfl, rfl, rfl⟩
  have zero : ∀ o v o', IsRange v 0 0 → setPorts o v = some o' → o.portspec = none → o'.portspec = none := by
    intro o v o' hr e hn
    unfold setPorts at e
    rw [parse_of_isRange hr] at e
    dsimp only at e
    rw [if_pos ⟨rfl, rfl⟩] at e
    cases e
    dsimp only
    rw [hn]; rfl
  constructor
  · exact (read_field h (·.portspec) (fun v x => ∃ lo hi, IsRange v lo hi ∧ (hi ≠ 0 → ∃ g : Range, x = some g ∧ g.low.toNat = lo ∧ g.high.toNat = hi)) .testports optP hs rfl nofun
      (fun o v o' e => one o v o' e) (fun o v y o' hy e => by obtain ⟨_, _, _, _, _, _, _, _, _, _, q, _⟩ := assign_same e; exact q hy) (fun _ _ _ => rfl)
      (fun o a v o' e1 e2 => by cases a <;> cases e1; exact one _ _ _ e2)
      (fun o a o' e1 e2 => by obtain ⟨_, _, _, _, _, _, _, q, _⟩ := option_same e2; exact q e1)).1
  · intro hz
    obtain ⟨o1, o2, e1, e2, e3⟩ := read_steps h
    have s1 : ∀ lines : List (Bytes × Bytes), Strings lines → (∀ v ∈ valuesOf ['t','e','s','t','p','o','r','t','s'] lines, IsRange v 0 0) →
        ∀ o o', settings E twoway o lines = some o' → o.portspec = none → o'.portspec = none := by
      intro lines
      induction lines with
      | nil => intro _ _ o o' e hn; cases e; exact hn
      | cons l r ih =>
        obtain ⟨k, v⟩ := l
        intro hs hz o o' e hn
        rw [settings] at e
        obtain ⟨o3, f1, f2⟩ := Option.bind_eq_some_iff.1 e
        unfold setting at f1
        obtain ⟨y, f3, f4⟩ := Option.bind_eq_some_iff.1 f1
        rw [valuesOf_cons] at hz
        refine ih (fun l hl => hs l (by simp [hl])) (fun v hv => hz v (by simp [hv])) _ _ f2 ?_
        by_cases hy : y = .testports
        · subst hy
          have hw := ((keyOf_iff twoway .testports k (hs (k, v) (by simp)).1 nofun).1 f3).2
          have hw : SameWord k (text ['t','e','s','t','p','o','r','t','s']) := hw
          exact zero _ _ _ (hz v (by rw [if_pos hw]; simp)) f4 hn
        · obtain ⟨_, _, _, _, _, _, _, _, _, _, q, _⟩ := assign_same f4
          rw [q hy]; exact hn
    have s2 : ∀ args : List Arg, (∀ v ∈ given optP args, IsRange v 0 0) → ∀ o o', options o args = some o' → o.portspec = none → o'.portspec = none := by
      intro args
      induction args with
      | nil => intro _ o o' e hn; cases e; exact hn
      | cons a r ih =>
        intro hz o o' e hn
        rw [options] at e
        obtain ⟨o3, f1, f2⟩ := Option.bind_eq_some_iff.1 e
        refine ih (fun v hv => hz v ?_) _ _ f2 ?_
        · unfold given at hv ⊢
          rw [List.filterMap_cons]
          cases optP a with
          | none => exact hv
          | some w => exact List.mem_cons_of_mem _ hv
        · cases hp : optP a with
          | none =>
            obtain ⟨_, _, _, _, _, _, _, q, _⟩ := option_same f1
            rw [q hp]; exact hn
          | some w =>
            refine zero _ w _ (hz w ?_) ?_ hn
            · unfold given; rw [List.filterMap_cons, hp]; exact List.mem_cons_self
            · cases a <;> cases hp; exact f1
    have n1 := s1 _ hs (fun v hv => hz v (List.mem_append_right _ hv)) _ _ e1 rfl
    obtain ⟨_, b, _⟩ := logging_field E args _ _ e2
    exact s2 args (fun v hv => hz v (List.mem_append_left _ hv)) _ _ e3 (by rw [b]; exact n1)

/-! ## When it starts -/

theorem setPorts_isSome (o : Opts) (v : Bytes) : (setPorts o v).isSome ↔ ∃ lo hi, IsRange v lo hi := by
  unfold setPorts
  constructor
  · intro h
    split at h
    · cases h
    · rename_i g hg; exact ⟨_, _, (parse_isRange v g).1 hg⟩
  · rintro ⟨lo, hi, h⟩
    rw [parse_of_isRange h]
    dsimp only
    split <;> rfl

theorem number_isSome (v : Bytes) : (number v).isSome ↔ ∃ i, Begins v i := by
  rw [Option.isSome_iff_exists]
  constructor
  · rintro ⟨n, h⟩
    obtain ⟨i, h1, _⟩ := (number_iff v n).1 h
    exact ⟨i, h1⟩
  · rintro ⟨i, h⟩
    exact ⟨_, (number_iff v _).2 ⟨i, h, rfl⟩⟩

theorem setting_isSome (E : Env) (twoway : Bool) (o : Opts) (k v : Bytes) (hk : 0#8 ∉ k) (hv : 0#8 ∉ v) (hw : Whole twoway [(k, v)]) :
    (setting E twoway o k v).isSome ↔ GoodLine E twoway k v := by
  unfold setting
  constructor
  · intro h
    obtain ⟨o', h⟩ := Option.isSome_iff_exists.1 h
    obtain ⟨x, h1, h2⟩ := Option.bind_eq_some_iff.1 h
    have hx := (keyOf_some twoway x k hk h1).1
    have key := ((keyOf_iff twoway x k hk (fun e => whole_loose hw (l := (k, v)) (by simp) x hx e)).1 h1).2
    have num : ∀ f : U32 → Opts, (number v).map f = some o' → ∃ i, Begins v i := by
      intro f e
      obtain ⟨n, e, _⟩ := Option.map_eq_some_iff.1 e
      exact (number_isSome v).1 (by rw [e]; rfl)
    cases x with
    | facility =>
      obtain ⟨f, e, _⟩ := Option.map_eq_some_iff.1 h2
      exact .facility f key e
    | loglevel =>
      obtain ⟨n, e, _⟩ := Option.map_eq_some_iff.1 h2
      obtain ⟨n, a, b, _⟩ := (levelByName_iff v hv n).1 e
      exact .level n key a b
    | loglocation => exact .flag Key.loglocation.name (by decide) key
    | rootfolly => exact .flag Key.rootfolly.name (by decide) key
    | datadir => exact .text Key.datadir.name (by decide) key
    | user => exact .text Key.user.name (by decide) key
    | group => exact .text Key.group.name (by decide) key
    | verbose => exact .flag Key.verbose.name (by decide) key
    | authmode => exact .text Key.authmode.name (by decide) key
    | srcnode => exact .text Key.srcnode.name (by decide) key
    | testports =>
      obtain ⟨lo, hi, e⟩ := (setPorts_isSome o v).1 (by rw [show setPorts o v = some o' from h2]; rfl)
      exact .ports lo hi key e
    | vardir => exact .text Key.vardir.name (by decide) key
    | diskfudge =>
      obtain ⟨x, e1, e2⟩ := Option.bind_eq_some_iff.1 h2
      split at e2
      · rename_i hh
        cases x with
        | fin q => exact .fudge q (by revert hx; cases twoway <;> decide) key e1 (of_decide_eq_true hh.1) (of_decide_eq_true hh.2)
        | inf => exact absurd hh.2 (by simp [Dbl.le])
        | minusInf => exact absurd hh.1 (by simp [Dbl.ge])
        | nan => exact absurd hh.1 (by simp [Dbl.ge])
      · cases e2
    | dieby => obtain ⟨i, e⟩ := num _ h2; exact .number Key.dieby.name i (by cases twoway <;> decide) key e
    | controltimeout => obtain ⟨i, e⟩ := num _ h2; exact .number Key.controltimeout.name i (by cases twoway <;> decide) key e
    | pbkdf2 => obtain ⟨i, e⟩ := num _ h2; exact .number Key.pbkdf2.name i (by cases twoway <;> decide) key e
    | enddelay =>
      obtain ⟨x, e1, e2⟩ := Option.bind_eq_some_iff.1 h2
      split at e2
      · rename_i hh
        cases x with
        | fin q => exact .delay q key e1 (of_decide_eq_true hh)
        | inf => exact .endless key e1
        | minusInf => exact absurd hh (by simp [Dbl.ge])
        | nan => exact absurd hh (by simp [Dbl.ge])
      · cases e2
    | maxcontrolsessions => obtain ⟨i, e⟩ := num _ h2; exact .number Key.maxcontrolsessions.name i (by cases twoway <;> decide) key e
    | testtimeout => obtain ⟨i, e⟩ := num _ h2; exact .number Key.testtimeout.name i (by rw [show twoway = true from hx]; decide) key e
  · have go : ∀ x : Key, x.has twoway = true → SameWord k (text x.name) → (assign E o v x).isSome → ((keyOf twoway k).bind (assign E o v)).isSome := by
      intro x hx hs hh
      rw [keyOf_name twoway x hx k hs]
      exact hh
    rintro (⟨n, h1, h2⟩ | ⟨n, h1, h2⟩ | ⟨n, i, h1, h2, h3⟩ | ⟨f, h1, h2⟩ | ⟨n, h1, h2, h3⟩ | ⟨lo, hi, h1, h2⟩ | ⟨q, h0, h1, h2, h3, h4⟩ | ⟨q, h1, h2, h3⟩ | ⟨h1, h2⟩)
    · simp only [textKeys, List.mem_cons, List.not_mem_nil, or_false] at h1
      rcases h1 with rfl | rfl | rfl | rfl | rfl | rfl
      · exact go .datadir rfl h2 rfl
      · exact go .user rfl h2 rfl
      · exact go .group rfl h2 rfl
      · exact go .authmode rfl h2 rfl
      · exact go .srcnode rfl h2 rfl
      · exact go .vardir rfl h2 rfl
    · simp only [flagKeys, List.mem_cons, List.not_mem_nil, or_false] at h1
      rcases h1 with rfl | rfl | rfl
      · exact go .loglocation rfl h2 rfl
      · exact go .rootfolly rfl h2 rfl
      · exact go .verbose rfl h2 rfl
    · have num : ∀ f : U32 → Opts, ((number v).map f).isSome := by
        intro f
        rw [Option.isSome_map]
        exact (number_isSome v).2 ⟨i, h3⟩
      have hn : n ∈ [Key.dieby.name, Key.controltimeout.name, Key.pbkdf2.name, Key.maxcontrolsessions.name] ∨ twoway = true ∧ n = Key.testtimeout.name := by
        unfold numberKeys at h1
        rcases List.mem_append.1 h1 with h1 | h1
        · exact .inl h1
        · split at h1
          · rename_i ht; exact .inr ⟨ht, List.mem_singleton.1 h1⟩
          · cases h1
      rcases hn with hn | ⟨ht, rfl⟩
      · simp only [List.mem_cons, List.not_mem_nil, or_false] at hn
        rcases hn with rfl | rfl | rfl | rfl
        · exact go .dieby rfl h2 (num _)
        · exact go .controltimeout rfl h2 (num _)
        · exact go .pbkdf2 rfl h2 (num _)
        · exact go .maxcontrolsessions rfl h2 (num _)
      · exact go .testtimeout ht h2 (num _)
    · exact go .facility rfl h1 (by show (Option.map _ _).isSome; rw [h2]; rfl)
    · exact go .loglevel rfl h1 (by show (Option.map _ _).isSome; rw [(levelByName_iff v hv n.2).2 ⟨n, h2, h3, rfl⟩]; rfl)
    · exact go .testports rfl h1 ((setPorts_isSome o v).2 ⟨lo, hi, h2⟩)
    · refine go .diskfudge (by rw [h0]; rfl) h1 ?_
      show (Option.bind _ _).isSome
      rw [h2, Option.bind_some, if_pos ⟨decide_eq_true h3, decide_eq_true h4⟩]; rfl
    · refine go .enddelay rfl h1 ?_
      show (Option.bind _ _).isSome
      rw [h2, Option.bind_some, if_pos (show (Dbl.fin q).ge 0 = true from decide_eq_true h3)]; rfl
    · refine go .enddelay rfl h1 ?_
      show (Option.bind _ _).isSome
      rw [h2, Option.bind_some, if_pos (show Dbl.inf.ge 0 = true from rfl)]; rfl

theorem bind_isSome {α β : Type} {q : Option α} {f : α → Option β} {P Q : Prop} (h1 : q.isSome ↔ P) (h2 : ∀ a, (f a).isSome ↔ Q) : (q.bind f).isSome ↔ P ∧ Q := by
  cases q with
  | none => rw [← h1]; simp
  | some a => rw [← h1, Option.bind_some, h2]; simp

theorem settings_isSome (E : Env) (twoway : Bool) (lines : List (Bytes × Bytes)) (hs : Strings lines) (hw : Whole twoway lines) : ∀ o,
    (settings E twoway o lines).isSome ↔ ∀ l ∈ lines, GoodLine E twoway l.1 l.2 := by
  induction lines with
  | nil => intro o; simp [settings]
  | cons l r ih =>
    obtain ⟨k, v⟩ := l
    intro o
    obtain ⟨h1, h2⟩ := hs (k, v) (by simp)
    rw [settings, bind_isSome (setting_isSome E twoway o k v h1 h2 (fun l hl => hw l (by simp [List.mem_singleton.1 hl])))
      (fun o' => ih (fun l hl => hs l (by simp [hl])) (fun l hl => hw l (by simp [hl])) o')]
    rw [List.forall_mem_cons]

theorem logging_isSome (E : Env) (args : List Arg) : ∀ o, (logging E args o).isSome ↔ ∀ v ∈ given optE args, ∃ f, E.facility v = some f := by
  induction args with
  | nil => intro o; exact ⟨(fun _ v hv => by cases hv), fun _ => rfl⟩
  | cons a r ih =>
    intro o
    cases a with
    | e v =>
      have hg : given optE (.e v :: r) = v :: given optE r := rfl
      rw [logging, bind_isSome (P := ∃ f, E.facility v = some f) Option.isSome_iff_exists (fun n => ih _), hg, List.forall_mem_cons]
    | Z => exact ih _
    | _ => exact ih _

theorem options_isSome (args : List Arg) : ∀ o, (options o args).isSome ↔ .unknown ∉ args ∧ ∀ v ∈ given optP args, ∃ lo hi, IsRange v lo hi := by
  induction args with
  | nil => intro o; exact ⟨fun _ => ⟨List.not_mem_nil, fun v hv => by cases hv⟩, fun _ => rfl⟩
  | cons a r ih =>
    intro o
    have go : a ≠ .unknown → optP a = none → (Startup.option o a).isSome → ((options o (a :: r)).isSome ↔ .unknown ∉ a :: r ∧ ∀ v ∈ given optP (a :: r), ∃ lo hi, IsRange v lo hi) := by
      intro h1 h2 h3
      have hg : given optP (a :: r) = given optP r := by unfold given; rw [List.filterMap_cons, h2]
      rw [options, bind_isSome (P := True) (iff_true_intro h3) (fun o' => ih o'), hg, List.mem_cons]
      simp [Ne.symm h1]
    cases a with
    | P v =>
      have hg : given optP (.P v :: r) = v :: given optP r := rfl
      rw [options, bind_isSome (q := Startup.option o (.P v)) (setPorts_isSome o v) (fun o' => ih o'), hg, List.forall_mem_cons, List.mem_cons]
      simp only [reduceCtorEq, false_or]
      exact ⟨fun ⟨h1, h2, h3⟩ => ⟨h2, h1, h3⟩, fun ⟨h2, h1, h3⟩ => ⟨h1, h2, h3⟩⟩
    | unknown =>
      rw [options]
      refine ⟨(fun hh => by cases hh), fun hh => absurd List.mem_cons_self hh.1⟩
    | a v => exact go nofun rfl rfl
    | c v => exact go nofun rfl rfl
    | d v => exact go nofun rfl rfl
    | e v => exact go nofun rfl rfl
    | f => exact go nofun rfl rfl
    | G v => exact go nofun rfl rfl
    | R v => exact go nofun rfl rfl
    | S v => exact go nofun rfl rfl
    | U v => exact go nofun rfl rfl
    | v => exact go nofun rfl rfl
    | Z => exact go nofun rfl rfl

/-- **C86**: a server gets past its configuration if and only if every line of the file and every option is in order, the file can be opened if its directory was given, and there is
nothing on the command line but options. (Partial: under the hypothesis that no key merely begins like one of two, see `C86_prefix`.) -/
theorem C86_starts_partial (E : Env) (twoway : Bool) (file : Option File) (args : List Arg) (more : Bool) (hs : Strings (linesOf file)) (hw : Whole twoway (linesOf file)) :
    (∃ o, Startup.read E twoway file args more = some o) ↔
      (∀ l ∈ linesOf file, GoodLine E twoway l.1 l.2) ∧ (∀ f, file = some f → f.broken = false) ∧ (file = none → given optC args = []) ∧ (∀ a ∈ args, GoodArg E a) ∧ more = false := by
  have hargs : (∀ a ∈ args, GoodArg E a) ↔ (∀ v ∈ given optE args, ∃ f, E.facility v = some f) ∧ .unknown ∉ args ∧ ∀ v ∈ given optP args, ∃ lo hi, IsRange v lo hi := by
    constructor
    · intro h
      refine ⟨fun v hv => ?_, fun hu => h _ hu, fun v hv => ?_⟩
      · obtain ⟨a, ha, e⟩ := List.mem_filterMap.1 hv
        cases a <;> cases e
        exact h _ ha
      · obtain ⟨a, ha, e⟩ := List.mem_filterMap.1 hv
        cases a <;> cases e
        exact h _ ha
    · rintro ⟨h1, h2, h3⟩ a ha
      cases a <;> first | trivial | skip
      · exact h1 _ (List.mem_filterMap.2 ⟨_, ha, rfl⟩)
      · exact h3 _ (List.mem_filterMap.2 ⟨_, ha, rfl⟩)
  have hconf : confdir args none = none ↔ given optC args = [] := by
    have conf : ∀ (args : List Arg) (c : Option Bytes), confdir args c = none ↔ given optC args = [] ∧ c = none := by
      intro args
      induction args with
      | nil => intro c; exact ⟨fun h => ⟨rfl, h⟩, fun h => h.2⟩
      | cons a r ih =>
        intro c
        cases a with
        | c v =>
          rw [confdir, ih]
          exact ⟨(fun h => by cases h.2), (fun h => by cases h.1)⟩
        | _ => exact ih c
    rw [conf]; simp
  rw [← Option.isSome_iff_exists]
  unfold Startup.read
  have hlast : ∀ o : Opts, (if more = true then none else some o).isSome ↔ more = false := by
    intro o; cases more <;> simp
  have h3 := fun o => bind_isSome (options_isSome args o) hlast
  have h2 := fun o => bind_isSome (logging_isSome E args o) h3
  have h1 : (loadConfig E twoway (confdir args none) file (defaults E twoway)).isSome ↔
      (∀ l ∈ linesOf file, GoodLine E twoway l.1 l.2) ∧ (∀ f, file = some f → f.broken = false) ∧ (file = none → given optC args = []) := by
    unfold loadConfig
    cases file with
    | none =>
      dsimp only
      rw [← hconf]
      cases confdir args none with
      | none => simp [linesOf]
      | some c => simp [linesOf]
    | some f =>
      dsimp only
      rw [bind_isSome (Q := f.broken = false) (settings_isSome E twoway f.lines hs hw _) (fun o => by cases f.broken <;> simp)]
      simp [linesOf]
  rw [bind_isSome h1 h2, hargs]
  simp only [and_assoc]

/-! ## Modes -/

theorem exists_cons {α : Type} {p : α → Prop} {a : α} {l : List α} : (∃ x ∈ a :: l, p x) ↔ p a ∨ ∃ x ∈ l, p x := by simp

/-- **C86** for the modes: those of the letters given are offered and no others, in any case; a letter that is no mode is refused; without any letters given all are offered. -/
theorem C86_modes (twoway : Bool) (o : Opts) :
    (o.authmode = none → offered twoway o = some (if twoway then 15 else 7)) ∧
    (∀ s, o.authmode = some s →
      ((∃ m, offered twoway o = some m) ↔ ∀ b ∈ s, b ∈ text ['o','O','a','A','e','E'] ∨ twoway = true ∧ b ∈ text ['m','M']) ∧
      (∀ m, offered twoway o = some m → m < 16 ∧
        (m.testBit 0 = true ↔ ∃ b ∈ s, b ∈ text ['o','O']) ∧ (m.testBit 1 = true ↔ ∃ b ∈ s, b ∈ text ['a','A']) ∧
        (m.testBit 2 = true ↔ ∃ b ∈ s, b ∈ text ['e','E']) ∧ (m.testBit 3 = true ↔ twoway = true ∧ ∃ b ∈ s, b ∈ text ['m','M']))) := by
  have bit : ∀ (tw : Bool) (b : Byte),
      ((modeBit tw b).isSome ↔ b ∈ text ['o','O','a','A','e','E'] ∨ tw = true ∧ b ∈ text ['m','M']) ∧
      ((modeBit tw b).all fun x => decide (x < 16 ∧ (x.testBit 0 = true ↔ b ∈ text ['o','O']) ∧ (x.testBit 1 = true ↔ b ∈ text ['a','A']) ∧
        (x.testBit 2 = true ↔ b ∈ text ['e','E']) ∧ (x.testBit 3 = true ↔ tw = true ∧ b ∈ text ['m','M']))) = true := by
    intro tw
    cases tw <;> decide +kernel
  have all : ∀ (s : Bytes) (m0 : Nat), ((modeBits twoway m0 s).isSome ↔ ∀ b ∈ s, b ∈ text ['o','O','a','A','e','E'] ∨ twoway = true ∧ b ∈ text ['m','M']) ∧
      ∀ m, m0 < 16 → modeBits twoway m0 s = some m → m < 16 ∧
        (m.testBit 0 = true ↔ m0.testBit 0 = true ∨ ∃ b ∈ s, b ∈ text ['o','O']) ∧ (m.testBit 1 = true ↔ m0.testBit 1 = true ∨ ∃ b ∈ s, b ∈ text ['a','A']) ∧
        (m.testBit 2 = true ↔ m0.testBit 2 = true ∨ ∃ b ∈ s, b ∈ text ['e','E']) ∧ (m.testBit 3 = true ↔ m0.testBit 3 = true ∨ twoway = true ∧ ∃ b ∈ s, b ∈ text ['m','M']) := by
    intro s
    induction s with
    | nil =>
      intro m0
      refine ⟨by simp [modeBits], fun m hm e => ?_⟩
      cases e
      refine ⟨hm, ?_, ?_, ?_, ?_⟩ <;> simp
    | cons b s ih =>
      intro m0
      rw [modeBits]
      constructor
      · rw [bind_isSome (bit twoway b).1 (fun x => (ih (m0 ||| x)).1), List.forall_mem_cons]
      · intro m hm e
        obtain ⟨x, e1, e2⟩ := Option.bind_eq_some_iff.1 e
        have hb := (bit twoway b).2
        rw [e1, Option.all_some, decide_eq_true_eq] at hb
        obtain ⟨b0, b1, b2, b3, b4⟩ := hb
        obtain ⟨i0, i1, i2, i3, i4⟩ := (ih (m0 ||| x)).2 m (Nat.or_lt_two_pow (n := 4) hm b0) e2
        refine ⟨i0, ?_, ?_, ?_, ?_⟩
        · rw [i1, Nat.testBit_or, Bool.or_eq_true, b1, or_assoc, exists_cons]
        · rw [i2, Nat.testBit_or, Bool.or_eq_true, b2, or_assoc, exists_cons]
        · rw [i3, Nat.testBit_or, Bool.or_eq_true, b3, or_assoc, exists_cons]
        · rw [i4, Nat.testBit_or, Bool.or_eq_true, b4, or_assoc, exists_cons, and_or_left]
  refine ⟨fun h => by unfold offered; rw [h], fun s h => ?_⟩
  unfold offered
  rw [h]
  dsimp only
  obtain ⟨a1, a2⟩ := all s 0
  refine ⟨by rw [← a1, Option.isSome_iff_exists], fun m hm => ?_⟩
  obtain ⟨c0, c1, c2, c3, c4⟩ := a2 m (by decide) hm
  exact ⟨c0, by simpa using c1, by simpa using c2, by simpa using c3, by simpa using c4⟩

/-! ## A server's file -/

/-- Facilities by name, and whole numbers for `strtod`. -/
def confEnv : Env where
  facility v := if eqNoCase v (text ['l','o','c','a','l','5']) then some 21 else none
  dbl v := (strtol v).map fun q => .fin q.1
  daemon := 3

def confLines : List (Bytes × Bytes) :=
  [(text ['u','s','e','r'], text ['o','w','a','m','p']), (text ['V','e','r','b','o','s','e'], []), (text ['f','a','c','i','l','i','t','y'], text ['l','o','c','a','l','5']),
    (text ['t','e','s','t','p','o','r','t','s'], text ['8','7','6','0','-','9','9','6','0']), (text ['d','i','e','b','y'], text ['3','0']),
    (text ['D','a','t','a','D','i','r'], text ['/','v']), (text ['d','i','s','k','f','u','d','g','e'], text ['3']), (text ['d','i','e','b','y'], text ['2','0']),
    (text ['m','a','x','c','o','n','t','r','o','l','s','e','s','s','i','o','n','s'], text ['2'])]

def confFile : Option File := some { lines := confLines }

def confArgs : List Arg := [.d (text ['/','w']), .a (text ['e','O']), .Z]

theorem conf_strings : Strings (linesOf confFile) := by
  have : ∀ l ∈ confLines, 0#8 ∉ l.1 ∧ 0#8 ∉ l.2 := by decide
  exact this

theorem conf_whole : Whole false (linesOf confFile) := by
  have : ∀ l ∈ confLines, (SameWord (l.1.take 18) (text ['m','a','x','c','o','n','t','r','o','l','s','e','s','s','i','o','n','s']) → l.1.length = 18) ∧
    (false = true → SameWord (l.1.take 11) (text ['t','e','s','t','t','i','m','e','o','u','t']) → l.1.length = 11) := by decide
  exact this

/-- The server starts; the option for the directory counts, and of the two times for ending the last. -/
example : ∃ o, Startup.read confEnv false confFile confArgs false = some o ∧ o.datadir = some (text ['/','w']) ∧ o.user = some (text ['o','w','a','m','p']) ∧ o.dieby = 20#32 ∧
    o.maxcontrolsessions = 2#32 ∧ o.portspec = some ⟨8760#16, 9960#16⟩ ∧ o.verbose = true ∧ o.allowroot = false ∧ o.facility = 21 ∧ o.daemon = false ∧ o.diskfudge = .fin 3 ∧
    offered false o = some 5 := by
  refine ⟨_, rfl, ?_⟩
  refine ⟨rfl, rfl, by decide +kernel, by decide +kernel, by decide +kernel, rfl, rfl, by decide +kernel, rfl, by decide +kernel, by decide +kernel⟩

/-! ## Where it is false -/

/-- C86 fails for numbers of more than 32 bits: they are cut. A greatest number of control sessions of 2^32 is no limit at all (`C47`). -/
theorem C86_cut (v : Bytes) (n : Nat) (h : Numeral v n) (hn : n < 2 ^ 64) : number v = some (BitVec.ofNat 32 n) ∧ (2 ^ 32 ≤ n → (BitVec.ofNat 32 n).toNat ≠ n) := by
  refine ⟨(number_iff v _).2 ⟨n, ⟨v, [], by simp, h, (fun b r e => by cases e), by simpa using hn⟩, by simp⟩, fun h1 h2 => ?_⟩
  rw [BitVec.toNat_ofNat] at h2
  omega

example : ∃ o, Startup.read confEnv false (some ⟨[(text ['m','a','x','c','o','n','t','r','o','l','s','e','s','s','i','o','n','s'], text ['4','2','9','4','9','6','7','2','9','6'])], false⟩) [] false = some o ∧
    o.maxcontrolsessions = 0#32 := ⟨_, rfl, by decide +kernel⟩

/-- C86 fails for what follows a number: "1minute" is 1. And a number may be negative: "-1" is 2^32 - 1. -/
theorem C86_text_after : number (text ['1','m','i','n','u','t','e']) = some 1#32 ∧ number (text ['-','1']) = some 4294967295#32 := by decide +kernel

/-- C86 fails for keys: one that goes on after "maxcontrolsessions" is taken for it, although no other key is. -/
theorem C86_prefix (twoway : Bool) (tail : Bytes) : keyOf twoway (text ['m','a','x','c','o','n','t','r','o','l','s','e','s','s','i','o','n','s'] ++ tail) = some .maxcontrolsessions := by
  have h : isKeyPrefix (text ['m','a','x','c','o','n','t','r','o','l','s','e','s','s','i','o','n','s'] ++ tail) ['m','a','x','c','o','n','t','r','o','l','s','e','s','s','i','o','n','s'] = true := by
    rw [isKeyPrefix_iff _ _ (by decide)]
    have : (text ['m','a','x','c','o','n','t','r','o','l','s','e','s','s','i','o','n','s'] ++ tail).take 18 = text ['m','a','x','c','o','n','t','r','o','l','s','e','s','s','i','o','n','s'] :=
      List.take_left' (by decide)
    show SameWord (List.take 18 _) _
    rw [this]
    rfl
  have no : ∀ (name : List Char), name.length < 18 → isKey (text ['m','a','x','c','o','n','t','r','o','l','s','e','s','s','i','o','n','s'] ++ tail) name =
      isKey (text ['m','a','x','c','o','n','t','r','o','l','s','e','s','s','i','o','n','s']) name := by
    intro name hn
    unfold isKey sameUpTo
    rw [List.append_assoc, List.take_append_of_le_length (by simp [text]; omega), List.take_append_of_le_length (l₁ := text ['m','a','x','c','o','n','t','r','o','l','s','e','s','s','i','o','n','s']) (by simp [text]; omega)]
  unfold keyOf
  rw [no _ (by decide), no _ (by decide), no _ (by decide), no _ (by decide), no _ (by decide), no _ (by decide), no _ (by decide), no _ (by decide), no _ (by decide), no _ (by decide),
    no _ (by decide), no _ (by decide), no _ (by decide), no _ (by decide), no _ (by decide), no _ (by decide), no _ (by decide), h]
  cases twoway <;> rfl

/-- C86 fails for the ports: "0" on the command line does not undo a range in the file, it leaves the server with the range from 0 to 0. -/
theorem C86_zero_after : ∃ o, Startup.read confEnv false confFile [.P (text ['0'])] false = some o ∧ o.portspec = some ⟨0#16, 0#16⟩ := ⟨_, rfl, by decide +kernel⟩

/-- C86 fails for the level "WARN" that the example file of the project lists: a server with it does not start. -/
theorem C86_warn (twoway : Bool) : Startup.read confEnv twoway (some ⟨[(text ['l','o','g','l','e','v','e','l'], text ['W','A','R','N'])], false⟩) [] false = none ∧
    (Startup.read confEnv twoway (some ⟨[(text ['l','o','g','l','e','v','e','l'], text ['W','A','R','N','I','N','G'])], false⟩) [] false).isSome := by
  cases twoway <;> exact ⟨rfl, rfl⟩

/-- A server may be left without any mode to offer. -/
theorem C86_no_mode (twoway : Bool) : ∃ o, Startup.read confEnv twoway none [.a []] false = some o ∧ offered twoway o = some 0 := ⟨_, rfl, rfl⟩

end Owamp.Props
