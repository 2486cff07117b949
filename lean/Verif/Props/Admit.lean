import Verif.Lemmas.Admit
import Verif.Props.Setup
import Verif.Props.Classes
import Verif.Props.Daemon
/-!
# C104: the class under which a connection is served
-/
namespace Owamp.Props
open Owamp.Policy Owamp.Ctl Owamp.Daemon Owamp.Spec.Channel Owamp.Spec.Setup Owamp.Spec.Classes Owamp.Spec.Limits Owamp.Spec.Daemon Owamp.Spec.Admit

/-! ## The class chosen -/

theorem nodeFromAddr_class {num : Bytes → Option U64} {E : AssignEnv} (hE : AddrSizes E) {lines : List Bytes} {P : Policy}
    (h : parseLimits num E lines = .ok P) {sa : SockAddr} {c : Nat} (hc : nodeFromAddr P sa = some c) :
    c < P.nodes.length ∧ AddressClass P sa c := by
  cases ha : addressOf sa with
  | none =>
    unfold nodeFromAddr at hc
    rw [addrKey_eq, ha] at hc
    cases hc
  | some wx =>
    obtain ⟨w, x⟩ := wx
    obtain ⟨c', h1, h2, h3⟩ := C42_longest_partial num E hE lines P h sa w x ha
    rw [hc] at h1
    cases h1
    exact ⟨h2, w, x, ha, h3⟩

theorem controlClass_belongs {num : Bytes → Option U64} {E : AssignEnv} (hE : AddrSizes E) {lines : List Bytes} {P : Policy}
    (h : parseLimits num E lines = .ok P) {m : U32} {user : Option Bytes} {sa : SockAddr} {c : Nat}
    (hc : controlClass P (cipherMode m) user sa = some c) :
    c < P.nodes.length ∧ Belongs P sa c (if cipherMode m then user else none) := by
  obtain ⟨hs, _⟩ := parseLimits_ok hE h
  unfold controlClass at hc
  generalize (if cipherMode m = true then user else none) = who at hc ⊢
  cases who with
  | none =>
    obtain ⟨h1, h2⟩ := nodeFromAddr_class hE h hc
    exact ⟨h1, .address h2⟩
  | some field =>
    dsimp only at hc
    cases hf : findClass P.nodes (cstr field) with
    | some c' =>
      rw [hf] at hc
      cases hc
      obtain ⟨n, h1, h2, _⟩ := findClass_some hf
      exact ⟨(List.getElem?_eq_some_iff.1 h1).1, .named field ⟨n, h1, h2⟩⟩
    | none =>
      rw [hf] at hc
      have hno := findClass_none.1 hf
      dsimp only at hc
      cases hu : nodeFromUser P field with
      | some c' =>
        rw [hu] at hc
        cases hc
        unfold nodeFromUser at hu
        have := fetchIdent_some_mem hu
        exact ⟨(hs.ids _ this).1, .assigned field hno this⟩
      | none =>
        rw [hu] at hc
        obtain ⟨h1, h2⟩ := nodeFromAddr_class hE h hc
        refine ⟨h1, .stranger field hno (fun c' hm => ?_) h2⟩
        have := fetchIdent_of_mem hs.keys hm
        unfold nodeFromUser at hu
        rw [show (Who.user field).key = Ident.user (field ++ zeros (81 - field.length)) from rfl, hu] at this
        cases this

/-- What `OWPDCheckControlPolicy` does with a new connection: no class, a message that was not sent as a whole, an answer that
was not read, a class that could not be saved, or success. -/
theorem control_cases (claimOver : U64 → U64 → Bool) (big : Bool) {num : Bytes → Option U64} {E : AssignEnv} (hE : AddrSizes E) {lines : List Bytes}
    (hl : Lines lines) {P : Policy} (h : parseLimits num E lines = .ok P) (w : Luck) (m : U32) (user : Option Bytes) (sa : SockAddr) (t : Tree)
    (ht : SameNames t P.nodes) :
    (controlClass P (cipherMode m) user sa = none ∧ checkControl claimOver big P w m user sa (newDoor t) = some (.error, newDoor t)) ∨
    ∃ c n f, controlClass P (cipherMode m) user sa = some c ∧ P.nodes[c]? = some n ∧ classFrame big n.name = some f ∧
      ((∃ d, checkControl claimOver big P w m user sa (newDoor t) = some (.error, d) ∧ d.mine = none ∧
          (w.written < f.length ∨ w.intr = true ∨ w.saved = false)) ∨
       (f.length ≤ w.written ∧ w.intr = false ∧ w.saved = true ∧
          checkControl claimOver big P w m user sa (newDoor t) = some (.yes, ⟨some c, some c, t, [], false⟩))) := by
  obtain ⟨hs, _⟩ := parseLimits_ok hE h
  cases hc : controlClass P (cipherMode m) user sa with
  | none => refine .inl ⟨rfl, ?_⟩; unfold checkControl; rw [hc]
  | some c =>
    obtain ⟨hlt, _⟩ := controlClass_belongs hE h hc
    have hn := List.getElem?_eq_getElem hlt
    have hp := plain_file hl h P.nodes[c] (List.getElem_mem hlt)
    have hfc : findClass t P.nodes[c].name = some c := by
      rw [findClass_names ht]; exact findClass_own hs.names hn
    obtain ⟨f, hf, hcases⟩ := sendClass_new claimOver big w t c P.nodes[c].name hp.2 hp.1 hfc
    refine .inr ⟨c, _, f, rfl, hn, hf, ?_⟩
    unfold checkControl
    rw [hc]
    dsimp only
    rw [hn]
    dsimp only
    rcases hcases with ⟨h1, d, h2, h3, h4, h5⟩ | ⟨h1, h2, h3⟩ | ⟨h1, h2, h3⟩
    · rw [h2]
      exact .inl ⟨d, rfl, h3, .inl h1⟩
    · rw [h3]
      exact .inl ⟨_, rfl, rfl, .inr (.inl h2)⟩
    · rw [h3]
      cases hsv : w.saved
      · exact .inl ⟨_, rfl, rfl, .inr (.inr rfl)⟩
      · exact .inr ⟨h1, h2, rfl, rfl⟩

/-! ## The theorems -/

/-- **C104.** A daemon with a valid limits file accepts a connection only if the process and the daemon both have it in the class
that the file gives to its user (in a mode with authentication) and its address; the process is not told to end, and no answer of the daemon
is left unread. `t` are the classes with what is in use of them when the connection comes. -/
theorem C104_served (claimOver : U64 → U64 → Bool) (big : Bool) (num : Bytes → Option U64) (E : AssignEnv) (hE : AddrSizes E) (lines : List Bytes)
    (hl : Lines lines) (P : Policy) (h : parseLimits num E lines = .ok P) (w : Luck) (sa : SockAddr) (t : Tree) (ht : SameNames t P.nodes)
    (K : Cbc.Kdf) (e : AcceptEnv) (he : e.policy = controlHook claimOver big P w sa (newDoor t)) (S S' : Conn) (hm : S.msg.length = 400)
    (hc : e.challenge.length = 16) (hs : e.salt.length = 16) (ha : controlAccept K e S = (true, S')) :
    ∃ field token iv rest c d, field.length = 80 ∧ token.length = 64 ∧ iv.length = 16 ∧
      S.inp = setupLayout S'.mode field token iv ++ rest ∧
      checkControl claimOver big P w S'.mode (if S'.mode = 1#32 then none else some field) sa (newDoor t) = some (.yes, d) ∧
      d.mine = some c ∧ d.theirs = some c ∧ d.killed = false ∧ d.inbox = [] ∧ d.tree = t ∧
      Belongs P sa c (if S'.mode = 1#32 then none else some field) := by
  obtain ⟨m, field, token, iv, rest, more, k1, k2, k3, hin, _, hmode, hism, _, hp⟩ := C18_one_mode_partial K e S S' hm hc hs ha
  have hcm := cipher_of_mode _ _ hism
  subst hmode
  rw [he] at hp
  unfold controlHook at hp
  generalize hu : (if S'.mode = 1#32 then none else some field) = user at hp ⊢
  have huser : (if cipherMode S'.mode then user else none) = user := by
    by_cases h1 : S'.mode = 1#32
    · rw [if_pos h1] at hu
      rw [← hu]; split <;> rfl
    · rw [hcm.2 h1]; rfl
  rcases control_cases claimOver big hE hl h w S'.mode user sa t ht with ⟨_, g⟩ | ⟨c, n, f, g1, g2, g3, ⟨d, g4, _⟩ | ⟨_, _, _, g4⟩⟩
  · rw [g] at hp; cases hp
  · rw [g4] at hp; cases hp
  · have hb := (controlClass_belongs hE h g1).2
    rw [huser] at hb
    subst hu
    exact ⟨field, token, iv, rest, c, _, k1, k2, k3, hin, g4, rfl, rfl, rfl, rfl, rfl, hb⟩

/-- **C104.** Settling the class of a connection never misuses memory, and a connection that was not accepted has no class: all
its requests for tests and sessions fail. -/
theorem C104_unserved (claimOver : U64 → U64 → Bool) (big : Bool) (num : Bytes → Option U64) (E : AssignEnv) (hE : AddrSizes E) (lines : List Bytes)
    (hl : Lines lines) (P : Policy) (h : parseLimits num E lines = .ok P) (w : Luck) (sa : SockAddr) (t : Tree) (ht : SameNames t P.nodes)
    (m : U32) (user : Option Bytes) :
    ∃ a d, checkControl claimOver big P w m user sa (newDoor t) = some (a, d) ∧
      (a ≠ .yes → ∀ A mine log tw sender b sp mem first last sid,
        (testHook claimOver A mine log d tw sender b sp) = (.fatal, mine, log) ∧ fetchHook d mem first last sid = none) := by
  rcases control_cases claimOver big hE hl h w m user sa t ht with ⟨_, g⟩ | ⟨c, n, f, g1, g2, g3, ⟨d, g4, g5, _⟩ | ⟨_, _, _, g4⟩⟩
  · exact ⟨_, _, g, fun _ _ _ _ _ _ _ _ _ _ _ _ => ⟨rfl, rfl⟩⟩
  · refine ⟨_, _, g4, fun _ _ _ _ _ _ _ _ _ _ _ _ => ?_⟩
    unfold testHook fetchHook
    rw [g5]
    exact ⟨rfl, rfl⟩
  · exact ⟨_, _, g4, fun hne => absurd rfl hne⟩

/-- **C104.** A client with an IPv4 or IPv6 address whose process can talk to the daemon is admitted, in every mode and as any
user. -/
theorem C104_admitted (claimOver : U64 → U64 → Bool) (big : Bool) (num : Bytes → Option U64) (E : AssignEnv) (hE : AddrSizes E) (lines : List Bytes)
    (hl : Lines lines) (P : Policy) (h : parseLimits num E lines = .ok P) (w : Luck) (hw : 93 ≤ w.written) (hi : w.intr = false)
    (hsv : w.saved = true) (sa : SockAddr) (hsa : addressOf sa ≠ none) (t : Tree) (ht : SameNames t P.nodes) (m : U32) (user : Option Bytes) :
    controlHook claimOver big P w sa (newDoor t) m user = .yes := by
  unfold controlHook
  rcases control_cases claimOver big hE hl h w m user sa t ht with ⟨g1, g⟩ | ⟨c, n, f, g1, g2, g3, ⟨d, g4, g5, g6⟩ | ⟨_, _, _, g4⟩⟩
  · exfalso
    cases ha : addressOf sa with
    | none => exact hsa ha
    | some wx =>
      obtain ⟨c', h1, _⟩ := C42_longest_partial num E hE lines P h sa wx.1 wx.2 ha
      unfold controlClass at g1
      rw [h1] at g1
      repeat' split at g1
      all_goals cases g1
  · exfalso
    have hp := plain_file hl h n (List.mem_of_getElem? g2)
    obtain ⟨f', e1, e2, _⟩ := readClass_frame big n.name hp.2 hp.1 [] false
    rw [g3] at e1
    cases e1
    rcases g6 with g6 | g6 | g6
    · omega
    · rw [hi] at g6; cases g6
    · rw [hsv] at g6; cases g6
  · rw [g4]

/-- **C104.** In whatever order the process then makes demands, the daemon makes each for the class the process has settled on
(`history`), the process sees the answers, and both keep the class. -/
theorem C104_charged (claimOver : U64 → U64 → Bool) (big : Bool) (d : Door) (c : Nat) (h1 : d.mine = some c) (h2 : d.theirs = some c) (h3 : d.inbox = [])
    (q l : U32) (v : U64) (hq : IsQuery q) :
    ∃ d', d.query claimOver big q l v false = (if (demand claimOver d.tree c q l v).1 then 1#32 else 2#32, d') ∧
      d'.tree = (demand claimOver d.tree c q l v).2 ∧ d'.mine = some c ∧ d'.theirs = some c ∧ d'.inbox = [] ∧ d'.killed = d.killed ∧
      SameNames d'.tree d.tree := by
  have hr := readQuery_frame big q l v hq [] false
  rw [List.append_nil] at hr
  have hc : checkFd claimOver big d.tree (some c) ⟨queryFrame big q l v, false⟩ =
      ⟨some c, (demand claimOver d.tree c q l v).2, response big (if (demand claimOver d.tree c q l v).1 then mesgOk else mesgDenied), false⟩ := by
    unfold checkFd
    dsimp only
    rw [hr]
  have hx := readResponse_frame big (if (demand claimOver d.tree c q l v).1 then mesgOk else mesgDenied) [] false
  rw [List.append_nil] at hx
  unfold Door.query Door.hear Door.answer
  rw [h2, hc, h3]
  dsimp only
  rw [List.nil_append, if_neg (by simp), hx]
  exact ⟨_, rfl, rfl, h1, rfl, rfl, Bool.or_false _, demand_names claimOver d.tree c q l v⟩

/-- **C104.** The two hooks that come later work for that class: a test is granted only within it, a session is given out
for it. -/
theorem C104_later (claimOver : U64 → U64 → Bool) (A : Answers) (mine : Tree) (log : List Asked) (d : Door) (c : Nat) (h : d.mine = some c) (tw sender : Bool)
    (b sp : U64) (first last : U32) (sid : Bytes) :
    testHook claimOver A mine log d tw sender b sp = checkTest claimOver A mine log c tw sender b sp ∧
    fetchHook d true first last sid = some ⟨c, first, last⟩ := by
  unfold testHook fetchHook
  rw [h]
  exact ⟨rfl, rfl⟩

theorem run_names (claimOver : U64 → U64 → Bool) (big : Bool) (es : List Ev) (d d' : State) (hr : run claimOver big d es = some d') :
    SameNames d'.tree d.tree := by
  unfold SameNames
  rw [C48_only_demands claimOver big es d d' hr]
  generalize (demands claimOver big d es).map (·.2) = evs
  generalize d.tree = t
  induction evs generalizing t with
  | nil => rfl
  | cons ev evs ih =>
    rw [history]
    exact (ih _).trans (demand_names claimOver t _ _ _ _)

/-- **C104, the daemon.** Whatever other connections come and go: if all that a process announces is the class numbered `c` of the
limits file, every demand of this process is made for the class `c`. -/
theorem C104_daemon (claimOver : U64 → U64 → Bool) (big : Bool) (num : Bytes → Option U64) (E : AssignEnv) (hE : AddrSizes E) (lines : List Bytes)
    (P : Policy) (h : parseLimits num E lines = .ok P) (max : U32) (es : List Ev) (d : State) (hm : Memory es)
    (hr : run claimOver big (start max P.nodes) es = some d) (pid c : Nat) (n : Node) (hn : P.nodes[c]? = some n)
    (hsent : ∀ s name rest, .mesg pid s ∈ es → readClass big s = .named name rest → some s.data = (classFrame big n.name).map (· ++ rest.data))
    (s : Source) (ev : Event) (hd : demandOf big d (.mesg pid s) = some (pid, ev)) : ev.cls = c := by
  obtain ⟨hs, _⟩ := parseLimits_ok hE h
  obtain ⟨pre, d1, s1, name, rest, post, he, h2, h3, h4, _⟩ := C44_own_class claimOver big max P.nodes es d hm hr pid s ev hd
  have hmem : Ev.mesg pid s1 ∈ es := by rw [he]; simp
  have hx := hsent s1 name rest hmem h3
  obtain ⟨f, g1, g2, g3, g4⟩ := readClass_some h3
  have hname : n.name = name := by
    unfold classFrame at hx g1
    split at g1
    · cases g1
      split at hx
      · rename_i hle1 hle
        rw [g2, Option.map_some] at hx
        have hx := List.append_cancel_right (Option.some.inj hx)
        simp only [List.append_assoc] at hx
        have hx := List.append_cancel_left (List.append_cancel_left hx)
        have hlen := congrArg List.length hx
        simp only [List.length_append] at hlen
        exact (List.append_inj_left hx (by omega)).symm
      · cases hx
    · cases g1
  rw [findClass_names (run_names claimOver big pre _ d1 h2), ← hname] at h4
  have := findClass_own hs.names hn
  rw [show (start max P.nodes).tree = P.nodes from rfl, this] at h4
  exact (Option.some.inj h4).symm

/-- **C104, part.** A client that is served in open mode is in a class that allows it, if it chose a mode it was offered. What is
missing: the choice of other modes, see `C104_open_mode`. -/
theorem C104_open_partial (claimOver : U64 → U64 → Bool) (big : Bool) (num : Bytes → Option U64) (E : AssignEnv) (hE : AddrSizes E) (lines : List Bytes)
    (hl : Lines lines) (P : Policy) (h : parseLimits num E lines = .ok P) (w : Luck) (sa : SockAddr) (t : Tree) (ht : SameNames t P.nodes)
    (K : Cbc.Kdf) (e : AcceptEnv) (he : e.policy = controlHook claimOver big P w sa (newDoor t)) (modes : U32) (allow : Bool)
    (hallow : allowOpenMode P sa = some allow) (ho : e.offered = daemonOffer modes allow) (S S' : Conn) (hm : S.msg.length = 400)
    (hc : e.challenge.length = 16) (hs : e.salt.length = 16) (ha : controlAccept K e S = (true, S')) (hopen : S'.mode = 1#32)
    (hin : InSet S'.mode e.offered) :
    ∃ d c n, checkControl claimOver big P w 1#32 none sa (newDoor t) = some (.yes, d) ∧ d.mine = some c ∧ P.nodes[c]? = some n ∧
      getLimit n limAllowOpenMode ≠ 0 := by
  obtain ⟨field, token, iv, rest, c, d, _, _, _, _, h1, h2, _⟩ := C104_served claimOver big num E hE lines hl P h w sa t ht K e he S S' hm hc hs ha
  rw [hopen, if_pos rfl] at h1
  rcases control_cases claimOver big hE hl h w 1#32 none sa t ht with ⟨_, g⟩ | ⟨c', n, f, g1, g2, g3, ⟨d', g4, _⟩ | ⟨_, _, _, g4⟩⟩
  · rw [g] at h1; cases h1
  · rw [g4] at h1; cases h1
  · refine ⟨d, c', n, h1, ?_, g2, ?_⟩
    · rw [g4] at h1; cases h1; rfl
    · have g1 : nodeFromAddr P sa = some c' := g1
      unfold allowOpenMode at hallow
      rw [g1] at hallow
      dsimp only at hallow
      rw [g2] at hallow
      have hal := Option.some.inj hallow
      have htrue : allow = true := by
        cases allow with
        | true => rfl
        | false =>
          exfalso
          rw [hopen, ho] at hin
          unfold InSet daemonOffer at hin
          split at hin
          · have : modes &&& ~~~1#32 &&& 1#32 = 0#32 := by
              rw [BitVec.and_assoc]; simp
            rw [this] at hin
            cases hin
          · rename_i hx
            simp only [Bool.false_eq_true, not_false_eq_true, and_true, ne_eq, Decidable.not_not] at hx
            rw [hx] at hin
            cases hin
      rw [htrue] at hal
      simpa using hal

/-! ## Files for examples -/

/-- `limit root with allow_open_mode=on` -/
def lineOpenRoot : Bytes := text ['l', 'i', 'm', 'i', 't', ' ', 'r', 'o', 'o', 't', ' ', 'w', 'i', 't', 'h', ' ', 'a', 'l', 'l', 'o', 'w', '_', 'o', 'p',
  'e', 'n', '_', 'm', 'o', 'd', 'e', '=', 'o', 'n']
/-- `limit jail with parent=root, allow_open_mode=off` -/
def lineShut : Bytes := text ['l', 'i', 'm', 'i', 't', ' ', 'j', 'a', 'i', 'l', ' ', 'w', 'i', 't', 'h', ' ', 'p', 'a', 'r', 'e', 'n', 't', '=', 'r', 'o',
  'o', 't', ',', ' ', 'a', 'l', 'l', 'o', 'w', '_', 'o', 'p', 'e', 'n', '_', 'm', 'o', 'd', 'e', '=', 'o', 'f', 'f']

/-- A file that forbids open mode to 10.0.0.0/8 and puts the user `bob` in the class `root`. -/
def shutFile : List Bytes := [lineOpenRoot, lineShut, assignTen,
  text ['a', 's', 's', 'i', 'g', 'n', ' ', 'u', 's', 'e', 'r', ' ', 'b', 'o', 'b', ' ', 'r', 'o', 'o', 't']]

def shutJail : Node := ⟨text ['j', 'a', 'i', 'l'], some 0, [⟨limAllowOpenMode, 0, 0⟩]⟩

def shutPolicy : Policy := ⟨[⟨text ['r', 'o', 'o', 't'], none, [⟨limAllowOpenMode, 1, 0⟩]⟩, shutJail],
  [((Who.user bob).key, 0), (.net 4 8 ([10, 0, 0, 0] ++ zeros 12), 1)]⟩

theorem shutFile_policy : policyOf shutFile = some shutPolicy := by decide +kernel

theorem shutFile_lines : Lines shutFile := by unfold Lines; decide +kernel

/-- The process can talk to the daemon. -/
def calm : Luck := ⟨93, false, true⟩

/-- A server with this file, for a client at 10.1.2.3. -/
def shutEnv (offered : U32) : AcceptEnv :=
  { demoEnv offered with
    getPF := fun n => if n = bob then .known [112#8, 102#8] else .unknown
    policy := controlHook (fun _ _ => false) false shutPolicy calm (.v4 0x0a010203 0) (newDoor shutPolicy.nodes) }

/-- **C104 fails.** A client at 10.1.2.3, an address of the class `jail`, which forbids open mode, is served in open mode in this very
class: the daemon does not offer open mode, but `OWPControlAccept` accepts what was not offered, and `OWPDCheckControlPolicy` does not look at the
limit again. -/
theorem C104_open_mode : ∃ (P : Policy) (e : AcceptEnv) (S : Conn) (allow : Bool) (d : Door), parseLimits fileNum fileEnv shutFile = .ok P ∧ Fresh S ∧
    e.policy = controlHook (fun _ _ => false) false P calm (.v4 0x0a010203 0) (newDoor P.nodes) ∧
    allowOpenMode P (.v4 0x0a010203 0) = some allow ∧ e.offered = daemonOffer 7#32 allow ∧
    (controlAccept anyKdf e S).1 = true ∧ (controlAccept anyKdf e S).2.mode = 1#32 ∧
    checkControl (fun _ _ => false) false P calm 1#32 none (.v4 0x0a010203 0) (newDoor P.nodes) = some (.yes, d) ∧
    d.mine = some 1 ∧ P.nodes[1]? = some shutJail ∧ getLimit shutJail limAllowOpenMode = 0 := by
  refine ⟨shutPolicy, shutEnv 6#32, newConn false (setupLayout 1#32 (zeros 80) (zeros 64) (zeros 16)), false,
    ⟨some 1, some 1, shutPolicy.nodes, [], false⟩, policyOf_some shutFile_policy, newConn_fresh _ _, rfl, ?_, ?_, ?_, ?_, ?_, rfl, rfl, ?_⟩ <;> decide +kernel

/-- Non-vacuity of C104: at the same address the user `bob` gets the class `root`, both of the process and of the daemon; the daemon's classes may
be in use already. -/
example : ∃ t, SameNames t shutPolicy.nodes ∧ t ≠ shutPolicy.nodes ∧
    checkControl (fun _ _ => false) false shutPolicy calm 4#32 (some (bob ++ zeros 77)) (.v4 0x0a010203 0) (newDoor t) =
      some (.yes, ⟨some 0, some 0, t, [], false⟩) ∧
    checkControl (fun _ _ => false) true shutPolicy calm 4#32 (some (text ['e', 'v', 'e'] ++ zeros 77)) (.v4 0x0a010203 0) (newDoor t) =
      some (.yes, ⟨some 1, some 1, t, [], false⟩) ∧
    Belongs shutPolicy (.v4 0x0a010203 0) 0 (some (bob ++ zeros 77)) := by
  refine ⟨modUsed shutPolicy.nodes 1 limAllowOpenMode (· + 1), by unfold SameNames; decide +kernel, by decide +kernel, by decide +kernel,
    by decide +kernel, .assigned _ (by decide +kernel) (by decide +kernel)⟩

/-- Non-vacuity of `C104_served`: `bob` is served at that address in encrypted mode. -/
theorem C104_served_example : ∃ (S : Conn), Fresh S ∧ (controlAccept anyKdf (shutEnv 6#32) S).1 = true ∧
    (controlAccept anyKdf (shutEnv 6#32) S).2.mode = 4#32 := by
  refine ⟨newConn false (setupLayout 4#32 (bob ++ zeros 77)
    (tokenFor anyKdf [112#8, 102#8] (shutEnv 6#32).salt (shutEnv 6#32).count (shutEnv 6#32).challenge (List.replicate 16 1#8) (List.replicate 32 2#8))
    (zeros 16)), newConn_fresh _ _, ?_, ?_⟩ <;> decide +kernel

/-- Non-vacuity of `C104_unserved`: the wait for the answer is interrupted: the daemon has the class, the process has not. -/
example : checkControl (fun _ _ => false) false shutPolicy ⟨93, true, true⟩ 1#32 none (.v4 0x0a010203 0) (newDoor shutPolicy.nodes) =
    some (.error, ⟨none, some 1, shutPolicy.nodes, response false mesgOk, false⟩) := by decide +kernel

/-- Non-vacuity of `C104_daemon`: a process announces `jail` and asks for something. -/
example : ((classFrame false shutJail.name).bind fun f =>
    (run (fun _ _ => false) false (start 0 shutPolicy.nodes) [.ready, .accepted, .go, .forked 7 3 true, .go, .mesg 7 ⟨f, false⟩]).bind fun d =>
      (demandOf false d (.mesg 7 ⟨queryFrame false mesgRequest limBandwidth 5, false⟩)).map fun x => (x.1, x.2.cls)) = some (7, 1) := by
  decide +kernel

end Owamp.Props
