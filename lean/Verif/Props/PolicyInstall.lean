import Verif.Spec.PolicyInstall
import Verif.Props.Secrets
import Verif.Props.Classes
/-!
# C108: a server starts only by the whole of its files
-/
namespace Owamp.Props
open Owamp.Policy
open Owamp.Secrets
open Owamp.Install
open Owamp.Spec.Install
open Owamp.Spec.Secrets (Once)
open Owamp.Spec.Classes
open Owamp.Ctl

namespace PolicyInst

theorem path_some (c p s x : Bytes) : path c p s = some x ↔ c.length + 1 + p.length + s.length ≤ 4096 ∧ x = c ++ [47#8] ++ p ++ s := by
  unfold path maxPath
  split
  · exact ⟨(fun h => by cases h), fun h => (by omega)⟩
  · split
    · exact ⟨(fun h => by cases h), fun h => (by omega)⟩
    · exact ⟨(fun h => by cases h; exact ⟨by omega, rfl⟩), fun h => (by rw [h.2])⟩

theorem setHooks_some (set : Hook → Bool) (l done r : List (Hook × Hook)) :
    setHooks set l done = some r ↔ (∀ x ∈ l, set x.1 = true) ∧ r = done ++ l := by
  induction l generalizing done with
  | nil =>
    unfold setHooks
    rw [List.append_nil, Option.some.injEq]
    exact ⟨fun h => ⟨(fun x hx => nomatch hx), h.symm⟩, fun h => h.2.symm⟩
  | cons x l ih =>
    obtain ⟨k, f⟩ := x
    unfold setHooks
    split
    · rename_i hk
      rw [ih]
      simp [hk]
    · rename_i hk
      refine ⟨(fun h => by cases h), fun h => absurd (h.1 (k, f) List.mem_cons_self) hk⟩

theorem all_hooks (set : Hook → Bool) : (∀ x ∈ table, set x.1 = true) ↔ ∀ k, set k = true := by
  refine ⟨fun h k => ?_, fun h x _ => h x.1⟩
  cases k
  · exact h (.getPF, .getPF) (by decide)
  · exact h (.checkControl, .checkControl) (by decide)
  · exact h (.checkTest, .checkTest) (by decide)
  · exact h (.checkFetch, .checkFetch) (by decide)
  · exact h (.testComplete, .testComplete) (by decide)
  · exact h (.openFile, .openFile) (by decide)
  · exact h (.closeFile, .closeFile) (by decide)

/-- What the reading of the pass-phrases leaves, for the lines the server goes by. -/
theorem pfs_ok (o : Opened (List (Bytes × Bytes) × Bool)) (t : Store) :
    (∃ f, opened o = some f ∧ parsePfs (f.map (·.1)) = some t ∧ closesWell f = true) ↔
      ∃ users, GoesBy o users ∧ Once users ∧ store users [] = some t := by
  cases o with
  | missing =>
    refine ⟨fun ⟨f, h1, h2, _⟩ => ?_, fun ⟨users, h1, _, h3⟩ => ?_⟩
    · cases h1; exact ⟨[], .nothing, List.nodup_nil, h2⟩
    · cases h1; exact ⟨none, rfl, h3, rfl⟩
  | unreadable =>
    exact ⟨(fun ⟨f, h1, _⟩ => by cases h1), (fun ⟨users, h1, _⟩ => by cases h1)⟩
  | there c closes =>
    obtain ⟨lines, bad⟩ := c
    refine ⟨fun ⟨f, h1, h2, h3⟩ => ?_, fun ⟨users, h1, h2, h3⟩ => ?_⟩
    · cases h1
      have h3 : closes = true := h3
      subst h3
      have h2 : parsePfs (some (lines, bad)) = some t := h2
      obtain ⟨h4, h5⟩ := (C89_server (some (lines, bad))).1.1 ⟨t, h2⟩ lines bad rfl
      subst h5
      refine ⟨lines, .all lines, h4, ?_⟩
      unfold parsePfs at h2
      dsimp only at h2
      cases hs : store lines [] with
      | none => rw [hs] at h2; cases h2
      | some x => rw [hs] at h2; cases h2; rfl
    · cases h1
      refine ⟨some ((lines, false), true), rfl, ?_, rfl⟩
      show (store lines []).bind _ = _
      rw [h3]; rfl

theorem env_eq (E : Env) (users : List (Bytes × Bytes)) (t : Store) (hs : store users [] = some t) :
    assignEnv E t = reading E users ∧ ∀ u p, serverPF t u = .known p ↔ (u, p) ∈ users := by
  have h1 : parsePfs (some (users, false)) = some t := by
    show (store users []).bind _ = _
    rw [hs]; rfl
  have h2 := ((C89_server (some (users, false))).2 t h1).2 users false rfl
  refine ⟨?_, fun u p => (h2 u).1 p⟩
  unfold assignEnv reading
  congr 1
  funext u
  have h3 := (h2 u).1
  have h4 := (h2 u).2
  unfold serverPF at h3 h4
  cases hf : fetch t u with
  | none =>
    rw [hf] at h4
    have h5 : ∀ p, (u, p) ∉ users := h4.1 rfl
    have : ¬ u ∈ users.map (·.1) := fun hm => by
      obtain ⟨x, hx, e⟩ := List.mem_map.1 hm
      obtain ⟨a, b⟩ := x
      have e : a = u := e
      subst e
      exact h5 b hx
    rw [decide_eq_false this]; rfl
  | some q =>
    rw [hf] at h3
    have h5 : (u, q) ∈ users := (h3 q).1 rfl
    rw [decide_eq_true (List.mem_map.2 ⟨(u, q), h5, rfl⟩)]; rfl

theorem limits_ok (E : Env) (t : Store) (o : Opened (List Bytes × Bool)) (P : Policy) :
    (∃ f, opened o = some f ∧ limitsOf E t (f.map (·.1)) = .ok P ∧ closesWell f = true) ↔
      ∃ lines, GoesBy o lines ∧ parseLimits E.num (assignEnv E t) lines = .ok P := by
  cases o with
  | missing =>
    refine ⟨fun ⟨f, h1, h2, _⟩ => ?_, fun ⟨lines, h1, h3⟩ => ?_⟩
    · cases h1; exact ⟨[], .nothing, h2⟩
    · cases h1; exact ⟨none, rfl, h3, rfl⟩
  | unreadable =>
    exact ⟨(fun ⟨f, h1, _⟩ => by cases h1), (fun ⟨lines, h1, _⟩ => by cases h1)⟩
  | there c closes =>
    obtain ⟨lines, bad⟩ := c
    refine ⟨fun ⟨f, h1, h2, h3⟩ => ?_, fun ⟨l, h1, h3⟩ => ?_⟩
    · cases h1
      have h3 : closes = true := h3
      subst h3
      have h2 : limitsOf E t (some (lines, bad)) = .ok P := h2
      unfold limitsOf at h2
      dsimp only at h2
      cases bad with
      | true =>
        rw [if_pos rfl] at h2
        split at h2 <;> cases h2
      | false => exact ⟨lines, .all lines, h2⟩
    · cases h1
      exact ⟨some ((lines, false), true), rfl, h3, rfl⟩

theorem install_ok (E : Env) (d : Option Bytes) (c p : Bytes) (I : Installed) :
    install E d c p = .ok I ↔ E.memory = true ∧ c.length + 1 + p.length + 7 ≤ 4096 ∧
      (∃ f, opened (E.pfs (pfsFile c p)) = some f ∧ parsePfs (f.map (·.1)) = some I.secrets ∧ closesWell f = true) ∧
      (∃ f, opened (E.limits (limitsFile c p)) = some f ∧ limitsOf E I.secrets (f.map (·.1)) = .ok I.policy ∧ closesWell f = true) ∧
      E.setPolicy = true ∧ (∀ k, E.setHook k = true) ∧ I.datadir = d.getD [46#8] ∧ I.hooks = table := by
  constructor
  · intro h
    unfold install at h
    split at h; · cases h
    rename_i hm
    split at h; · cases h
    rename_i x hx
    split at h; · cases h
    rename_i kfp hk
    split at h; · cases h
    rename_i y hy
    split at h; · cases h
    rename_i lfp hl
    split at h; · cases h
    rename_i t ht
    split at h
    · cases h
    · cases h
    rename_i P hP
    split at h; · cases h
    rename_i c1
    split at h; · cases h
    rename_i c2
    split at h; · cases h
    rename_i c3
    split at h; · cases h
    rename_i hs hh
    cases h
    have hx := (path_some _ _ _ _).1 hx
    have hy := (path_some _ _ _ _).1 hy
    have hh := (setHooks_some _ _ _ _).1 hh
    have e1 : x = pfsFile c p := hx.2
    have e2 : y = limitsFile c p := hy.2
    subst e1 e2
    have e3 : limitsSuffix.length = 7 := rfl
    refine ⟨by simpa using hm, by have := hy.1; omega, ⟨kfp, hk, ht, by simpa using c1⟩, ⟨lfp, hl, hP, by simpa using c2⟩,
      by simpa using c3, (all_hooks _).1 hh.1, rfl, hh.2⟩
  · rintro ⟨hm, hlen, ⟨kfp, hk, ht, c1⟩, ⟨lfp, hl, hP, c2⟩, c3, hh, hd, hI⟩
    have e1 : path c p pfsSuffix = some (pfsFile c p) :=
      (path_some _ _ _ _).2 ⟨by have : pfsSuffix.length = 4 := rfl; omega, rfl⟩
    have e2 : path c p limitsSuffix = some (limitsFile c p) :=
      (path_some _ _ _ _).2 ⟨by have : limitsSuffix.length = 7 := rfl; omega, rfl⟩
    have e3 : setHooks E.setHook table [] = some table := (setHooks_some _ _ _ _).2 ⟨(all_hooks _).2 hh, rfl⟩
    unfold install
    rw [hm, e1]; dsimp only
    rw [hk, e2]; dsimp only
    rw [hl]; dsimp only
    rw [ht]; dsimp only
    rw [hP]; dsimp only
    rw [c1, c2, c3, e3]
    obtain ⟨a, b, e, f⟩ := I
    have hd : a = _ := hd
    have hI : f = _ := hI
    subst hd hI
    simp

end PolicyInst

open PolicyInst

/-- **C108**: a server that starts goes by the whole of its two files, `PREFIX.pfs` and `PREFIX.limits` in its directory: it knows
exactly the users of the first, no user being there twice, and its classes and assignments are those of the second (see C41 and
C42), read with these users; a file that could not be opened, read to its end and closed keeps it from starting, unless there is
no such file. Its data is under the directory given, else under the one it was started in, and each of its hooks is its own. -/
theorem C108_only (E : Env) (datadir : Option Bytes) (confdir pre : Bytes) (I : Installed)
    (h : install E datadir confdir pre = .ok I) :
    ∃ users lines, GoesBy (E.pfs (pfsFile confdir pre)) users ∧ GoesBy (E.limits (limitsFile confdir pre)) lines ∧
      Once users ∧ (∀ u p, serverPF I.secrets u = .known p ↔ (u, p) ∈ users) ∧
      parseLimits E.num (reading E users) lines = .ok I.policy ∧
      (∀ d, datadir = some d → I.datadir = d) ∧ (datadir = none → I.datadir = text ['.']) ∧
      (∀ k f, (k, f) ∈ I.hooks ↔ f = k) ∧ (pfsFile confdir pre).length ≤ 4096 ∧ (limitsFile confdir pre).length ≤ 4096 := by
  obtain ⟨_, hlen, hp, hl, _, _, hd, hI⟩ := (install_ok _ _ _ _ _).1 h
  obtain ⟨users, g1, g2, g3⟩ := (pfs_ok _ _).1 hp
  obtain ⟨lines, g4, g5⟩ := (limits_ok _ _ _ _).1 hl
  obtain ⟨g6, g7⟩ := env_eq E users _ g3
  rw [g6] at g5
  refine ⟨users, lines, g1, g4, g2, g7, g5, fun d e => by rw [hd, e]; rfl, fun e => by rw [hd, e]; rfl, fun k f => ?_, ?_, ?_⟩
  · rw [hI]; cases k <;> cases f <;> decide
  · simp [pfsFile, text]; omega
  · simp [limitsFile, text]; omega

/-- **C108**: and it does start, when both files are in order (or not there), their names fit, and nothing else fails. -/
theorem C108_starts (E : Env) (datadir : Option Bytes) (confdir pre : Bytes) (users : List (Bytes × Bytes)) (lines : List Bytes) (P : Policy)
    (hm : E.memory = true) (hs : E.setPolicy = true) (hk : ∀ k, E.setHook k = true)
    (hl : (limitsFile confdir pre).length ≤ 4096) (h1 : GoesBy (E.pfs (pfsFile confdir pre)) users) (h2 : Once users)
    (h3 : GoesBy (E.limits (limitsFile confdir pre)) lines) (h4 : parseLimits E.num (reading E users) lines = .ok P) :
    ∃ I, install E datadir confdir pre = .ok I ∧ I.policy = P := by
  have hst := store_spec users [] (List.nodup_nil)
  cases ht : store users [] with
  | none =>
    rw [ht] at hst
    have hst : ¬ Once (users.reverse ++ []) := hst
    rw [List.append_nil] at hst
    exact absurd ((once_reverse users).2 h2) hst
  | some t =>
    obtain ⟨g6, _⟩ := env_eq E users t ht
    refine ⟨⟨datadir.getD [46#8], t, P, table⟩, (install_ok _ _ _ _ _).2 ⟨hm, ?_, ?_, ?_, hs, hk, rfl, rfl⟩, rfl⟩
    · simp [limitsFile, text] at hl; omega
    · exact (pfs_ok _ _).2 ⟨users, h1, h2, ht⟩
    · exact (limits_ok _ _ _ _).2 ⟨lines, h3, by rw [g6]; exact h4⟩

theorem assigned_known {E : AssignEnv} {lines : List Bytes} {f g : Ident → Option Bytes} (h : Assignments E lines f g) (name : Bytes)
    (hn : g (.user (name ++ List.replicate (81 - name.length) 0)) ≠ none) :
    f (.user (name ++ List.replicate (81 - name.length) 0)) ≠ none ∨
      ∃ w, E.known w = true ∧ w ++ List.replicate (81 - w.length) 0 = name ++ List.replicate (81 - name.length) 0 := by
  induction h with
  | nil => exact .inl hn
  | limit _ _ ih => exact ih hn
  | @assign line rest lines f g who cname _ _ ha _ ih =>
    rcases ih hn with h | h
    · by_cases e : Ident.user (name ++ List.replicate (81 - name.length) 0) = who.key
      · generalize fields Blank rest = ws at ha
        cases ha with
        | default => exact nomatch e
        | network => exact nomatch e
        | user k w c r _ _ hk =>
          refine .inr ⟨w, hk, ?_⟩
          simp only [Who.key, Ident.user.injEq] at e
          exact e.symm
      · dsimp only at h; rw [if_neg e] at h; exact .inl h
    · exact .inr h

/-- **C108**: a user to whom the server's limits assign a class has a pass-phrase in its other file. -/
theorem C108_assigned (E : Env) (hE : AddrSizes (reading E [])) (datadir : Option Bytes) (confdir pre : Bytes) (I : Installed)
    (h : install E datadir confdir pre = .ok I) (h0 : ∀ users, GoesBy (E.pfs (pfsFile confdir pre)) users → ∀ x ∈ users, 0#8 ∉ x.1)
    (name : Bytes) (hz : 0#8 ∉ name) (c : Nat) (hc : ((Who.user name).key, c) ∈ I.policy.idents) :
    ∃ p, serverPF I.secrets name = .known p := by
  obtain ⟨users, lines, g1, _, _, g4, g5, _⟩ := C108_only E datadir confdir pre I h
  have hE' : AddrSizes (reading E users) := hE
  obtain ⟨ha, hids⟩ := C42_assignments E.num (reading E users) hE' lines I.policy g5
  have hh := hids _ hc
  have hsome : assignedName I.policy (Who.user name).key ≠ none := by
    unfold assignedName
    rw [hh.1, Option.bind_some]
    rw [List.getElem?_eq_getElem hh.2]
    simp
  rcases assigned_known ha name hsome with h | ⟨w, hw, e⟩
  · exact absurd rfl h
  · have hw : decide (w ∈ users.map (·.1)) = true := hw
    obtain ⟨x, hx, ex⟩ := List.mem_map.1 (of_decide_eq_true hw)
    obtain ⟨a, b⟩ := x
    have ex : a = w := ex
    subst ex
    have hz2 := h0 users g1 _ hx
    have ea : a = name := by
      have e1 := congrArg cstr e
      rw [cstr_append _ _ (fun x hx hxx => hz2 (hxx ▸ hx)), cstr_append _ _ (fun x hx hxx => hz (hxx ▸ hx))] at e1
      have z : ∀ n, cstr (List.replicate n (0 : Byte)) = [] := cstr_zeros
      rw [z, z, List.append_nil, List.append_nil] at e1
      exact e1
    subst ea
    exact ⟨b, (g4 a b).2 hx⟩

/-- **C108**: without a file of limits (or with one that says nothing) every client gets the class of those without limits: it may
connect in the open mode, and whatever it asks for of what is counted is granted. -/
theorem C108_unlimited (E : Env) (datadir : Option Bytes) (confdir pre : Bytes) (I : Installed)
    (h : install E datadir confdir pre = .ok I) (hf : GoesBy (E.limits (limitsFile confdir pre)) [])
    (sa : SockAddr) (ha : sa ≠ .unspec ∧ sa ≠ .other) :
    controlClass I.policy false none sa = some 0 ∧ allowOpenMode I.policy sa = some true ∧
      ∀ (over : U64 → U64 → Bool) (q l : U32) (v : U64), limKind l = .int → demand over I.policy.nodes 0 q l v = (true, I.policy.nodes) := by
  obtain ⟨users, lines, _, g, _, _, g5, _⟩ := C108_only E datadir confdir pre I h
  have el : lines = [] := by
    generalize E.limits (limitsFile confdir pre) = o at hf g
    cases hf with
    | nothing => cases g; rfl
    | all => cases g; rfl
  subst el
  have hp : I.policy = ⟨[⟨text ['d', 'e', 'f', 'a', 'u', 'l', 't'], none, []⟩], []⟩ := by
    unfold parseLimits parseLines at g5
    dsimp only at g5
    rw [if_pos rfl, default_line] at g5
    injection g5 with e; exact e.symm
  rw [hp]
  have hm : ∀ size n a, matchNet [] size n a = none := by
    intro size n
    induction n with
    | zero => intro a; rfl
    | succ n ih => intro a; exact ih _
  have hn : nodeFromAddr ⟨[⟨text ['d', 'e', 'f', 'a', 'u', 'l', 't'], none, []⟩], []⟩ sa = some 0 := by
    unfold nodeFromAddr
    cases hk : addrKey sa with
    | none =>
      exfalso
      cases sa with
      | v4 => cases hk
      | v6 => simp only [addrKey] at hk; split at hk <;> cases hk
      | unspec => exact ha.1 rfl
      | other => exact ha.2 rfl
    | some x =>
      obtain ⟨size, a⟩ := x
      dsimp only
      rw [hm]; rfl
  refine ⟨hn, ?_, fun over q l v hl => ?_⟩
  · unfold allowOpenMode
    rw [hn]
    decide
  · unfold demand
    rw [hl]
    unfold intDemand
    rfl

/-- **C108**: without a file of pass-phrases no user is known. -/
theorem C108_secretless (E : Env) (datadir : Option Bytes) (confdir pre : Bytes) (I : Installed)
    (h : install E datadir confdir pre = .ok I) (hf : GoesBy (E.pfs (pfsFile confdir pre)) []) (u : Bytes) :
    ∀ p, serverPF I.secrets u ≠ .known p := by
  obtain ⟨users, lines, g, _, _, g4, _⟩ := C108_only E datadir confdir pre I h
  have el : users = [] := by
    generalize E.pfs (pfsFile confdir pre) = o at hf g
    cases hf with
    | nothing => cases g; rfl
    | all => cases g; rfl
  subst el
  intro p e
  cases (g4 u p).1 e

/-- **C108**: a file that is there and cannot be opened, has a line that cannot be read, or cannot be closed, keeps the server from
starting. -/
theorem C108_unreadable (E : Env) (datadir : Option Bytes) (confdir pre : Bytes) (I : Installed)
    (h : E.pfs (pfsFile confdir pre) = .unreadable ∨ (∃ l b, E.pfs (pfsFile confdir pre) = .there (l, true) b) ∨
      (∃ l b, E.pfs (pfsFile confdir pre) = .there (l, b) false) ∨ E.limits (limitsFile confdir pre) = .unreadable ∨
      (∃ l b, E.limits (limitsFile confdir pre) = .there (l, true) b) ∨ (∃ l b, E.limits (limitsFile confdir pre) = .there (l, b) false)) :
    install E datadir confdir pre ≠ .ok I := by
  intro hI
  obtain ⟨users, lines, g, g', _⟩ := C108_only E datadir confdir pre I hI
  rcases h with e | ⟨l, b, e⟩ | ⟨l, b, e⟩ | e | ⟨l, b, e⟩ | ⟨l, b, e⟩ <;> first
    | (rw [e] at g; cases g)
    | (rw [e] at g'; cases g')

namespace PolicyInst

/-- A server with one user and one class, and nothing failing. -/
def small (pfs : Opened (List (Bytes × Bytes) × Bool)) (limits : Opened (List Bytes × Bool)) : Env :=
  { memory := true, pfs := fun _ => pfs, limits := fun _ => limits, setPolicy := true, setHook := fun _ => true,
    num := fun _ => none, refuseDup := false, getaddr := fun _ => none, strtoul := fun _ => none }

def joe : Bytes := text ['j', 'o', 'e']
def joeFile : Opened (List (Bytes × Bytes) × Bool) := .there ([(joe, [1#8, 2#8])], false) true
def rootLine : Bytes := text ['l', 'i', 'm', 'i', 't', ' ', 'r', 'o', 'o', 't', ' ', 'w', 'i', 't', 'h', ' ',
  'a', 'l', 'l', 'o', 'w', '_', 'o', 'p', 'e', 'n', '_', 'm', 'o', 'd', 'e', '=', 'o', 'f', 'f']
def joeLine : Bytes := text ['a', 's', 's', 'i', 'g', 'n', ' ', 'u', 's', 'e', 'r', ' ', 'j', 'o', 'e', ' ', 'r', 'o', 'o', 't']

/-- What a server came to. -/
def outcome (o : Outcome Installed) : Option (List Bytes × List (Ident × Nat) × Store) :=
  match o with
  | .ok I => some (I.policy.nodes.map (·.name), I.policy.idents, I.secrets)
  | _ => none

end PolicyInst

example : outcome (install (small joeFile (.there ([rootLine, joeLine], false) true)) none (text ['e']) (text ['o'])) =
    some ([text ['r', 'o', 'o', 't']], [((Who.user joe).key, 0)], [(joe, [1#8, 2#8])]) := by decide +kernel
example : outcome (install (small .missing (.there ([rootLine, joeLine], false) true)) none (text ['e']) (text ['o'])) = none := by decide +kernel
example : outcome (install (small .missing .missing) none (text ['e']) (text ['o'])) = some ([text ['d', 'e', 'f', 'a', 'u', 'l', 't']], [], []) := by
  decide +kernel
example : outcome (install (small joeFile .unreadable) none (text ['e']) (text ['o'])) = none := by decide +kernel
example : outcome (install (small joeFile (.there ([rootLine], true) true)) none (text ['e']) (text ['o'])) = none := by decide +kernel

end Owamp.Props
