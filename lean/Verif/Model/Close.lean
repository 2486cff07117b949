import Verif.Model.Sessions
/-!
# Model of the lists of connections and sessions, and of their end

`owamp/context.c` (`_OWPControlAlloc`, `OWPControlClose`, `OWPContextFree`, `_OWPCallTestComplete`, `_OWPCallCloseFile`), `owamp/api.c`
(`_OWPTestSessionAlloc`, `_OWPTestSessionFree`), `owamp/endpoint.c` (`_OWPEndpointFree`) and what `owamp/protocol.c` (`_OWPReadStopSessions`)
does with the lists, with pointers and memory as they are in C.

An address is a number, `NULL` is 0. Using memory that is not allocated, or not allocated for what is looked for, is an error of its own, and so
is a loop that does not end within a number of rounds. Not modelled: the tables, digests and addresses that belong to a connection, slots and
schedule that belong to a session (each freed once next to what is modelled), and failing allocations.
-/
namespace Owamp.Close
open Owamp.Local

/-- `OWPTestSessionRec` (owampP.h:335-378) without `next`: its connection, identifier, whether the policy attached something to it (`closure`),
its endpoint, and whether that has a file for the user (`userfile`). -/
structure Session where
  cntrl : Nat
  sid : Nat
  closure : Bool
  ep : Option Ep
  file : Bool

/-- What an allocated piece of memory holds besides `next`: an `OWPControlRec` (owampP.h:193-267) with its `tests`, or an `OWPTestSessionRec`. -/
inductive Kind where
  | conn (tests : Nat)
  | sess (s : Session)

/-- An allocated piece of memory. -/
structure Cell where
  next : Nat
  kind : Kind

/-- What others see: a signal to the process of a session (`true`: SIGINT), that its end was waited for, the hooks `OWPCloseFile` and
`OWPTestComplete` with the accept value they are given, and `fclose` where there is no hook. -/
inductive Event where
  | signal (sid : Nat) (interrupt : Bool)
  | waited (sid : Nat)
  | closeHook (sid : Nat) (aval : Int)
  | fclose (sid : Nat)
  | complete (sid : Nat) (aval : Int)
deriving DecidableEq, Repr

/-- Memory, `ctx->cntrl_list`, the variable `receivers` of `_OWPReadStopSessions`, and what was seen so far. -/
structure Mem where
  cell : Nat → Option Cell
  list : Nat
  recv : Nat
  log : List Event

/-- Use of memory that is not allocated, or a loop without end. -/
inductive Bad where
  | wild
  | spin
deriving DecidableEq, Repr

/-- A place that holds a pointer: `&ctx->cntrl_list`, `&receivers`, `&cntrl->tests`, `&x->next`. -/
inductive Loc where
  | list
  | recv
  | tests (c : Nat)
  | next (a : Nat)
deriving DecidableEq, Repr

/-- Which hooks are set in the context. -/
structure Hooks where
  complete : Bool
  close : Bool

/-- Reading a place. -/
def load (m : Mem) : Loc → Except Bad Nat
  | .list => .ok m.list
  | .recv => .ok m.recv
  | .tests c =>
    match m.cell c with
    | some ⟨_, .conn t⟩ => .ok t
    | _ => .error .wild
  | .next a =>
    match m.cell a with
    | some x => .ok x.next
    | none => .error .wild

/-- Memory with another piece at an address. -/
def setCell (m : Mem) (a : Nat) (x : Option Cell) : Mem := { m with cell := fun b => if b = a then x else m.cell b }

/-- Writing to a place. -/
def store (m : Mem) (l : Loc) (v : Nat) : Except Bad Mem :=
  match l with
  | .list => .ok { m with list := v }
  | .recv => .ok { m with recv := v }
  | .tests c =>
    match m.cell c with
    | some ⟨nx, .conn _⟩ => .ok (setCell m c (some ⟨nx, .conn v⟩))
    | _ => .error .wild
  | .next a =>
    match m.cell a with
    | some x => .ok (setCell m a (some { x with next := v }))
    | none => .error .wild

/-- The session at an address. -/
def session (m : Mem) (t : Nat) : Except Bad Session :=
  match m.cell t with
  | some ⟨_, .sess s⟩ => .ok s
  | _ => .error .wild

/-- `free`. -/
def release (m : Mem) (a : Nat) : Except Bad Mem :=
  match m.cell a with
  | some _ => .ok (setCell m a none)
  | none => .error .wild

/-- `for(l = …; *l; l = &(*l)->next)` up to the first for which `f` holds: the place where it is, or that of the `NULL` at the end. -/
def walk (f : Mem → Nat → Except Bad Bool) : Nat → Mem → Loc → Except Bad Loc
  | 0, _, _ => .error .spin
  | n + 1, m, l =>
    match load m l with
    | .error e => .error e
    | .ok p =>
      if p = 0 then .ok l
      else
        match f m p with
        | .error e => .error e
        | .ok true => .ok l
        | .ok false => walk f n m (.next p)

/-- `p == t`. -/
def same (t : Nat) (_ : Mem) (p : Nat) : Except Bad Bool := .ok (p == t)

/-- What is seen of `_OWPEndpointStop` (endpoint.c:4189-4242). -/
def stopSeen (sid : Nat) (e : Ep) (aval : Int) : List Event :=
  if e.acceptval ≥ 0 ∨ e.child = false then []
  else .signal sid (aval ≠ 0) :: (if e.killOk then [.waited sid] else [])

/-- `_OWPCallCloseFile` (context.c:1027-1050). -/
def callClose (H : Hooks) (sid : Nat) (aval : Int) : List Event := if H.close then [.closeHook sid aval] else [.fclose sid]

/-- `_OWPCallTestComplete` (context.c:940-963). -/
def callComplete (H : Hooks) (sid : Nat) (aval : Int) : List Event := if H.complete then [.complete sid aval] else []

/-- `_OWPEndpointFree` (endpoint.c:4244-4257) with `EndpointFree` (endpoint.c:186-223): the severity, and what is seen. -/
def endpointFree (H : Hooks) (s : Session) (aval : Int) : Nat × List Event :=
  match s.ep with
  | none => (allOk, [])
  | some e =>
    let q := endpointStop e aval
    (q.2.2, stopSeen s.sid e aval ++ if s.file then callClose H s.sid q.2.1 else [])

/-- `_OWPTestSessionFree` (api.c:250-297): the severity and the memory. `n` is the number of rounds after which a loop is given up. -/
def testSessionFree (H : Hooks) (n : Nat) (m : Mem) (t : Nat) (aval : Int) : Except Bad (Nat × Mem) :=
  if t = 0 then .ok (allOk, m)
  else do
    let s ← session m t
    let l ← walk (same t) n m (.tests s.cntrl)
    let p ← load m l
    let m ← if p = 0 then .ok m else do
      let q ← load m (.next t)
      store m l q
    let m := { m with log := m.log ++ (endpointFree H s aval).2 ++ if s.closure then callComplete H s.sid aval else [] }
    let m ← release m t
    .ok ((endpointFree H s aval).1, m)

/-- `while(cntrl->tests) err = MIN(err,_OWPTestSessionFree(cntrl->tests,aval))` (context.c:293-296, api.c:1859-1862, 2117-2120), with at most
`k` rounds. -/
def freeTests (H : Hooks) (n : Nat) : Nat → Mem → Nat → Int → Nat → Except Bad (Nat × Mem)
  | 0, _, _, _, _ => .error .spin
  | k + 1, m, c, aval, err =>
    match load m (.tests c) with
    | .error e => .error e
    | .ok p =>
      if p = 0 then .ok (err, m)
      else
        match testSessionFree H n m p aval with
        | .error e => .error e
        | .ok (e, m) => freeTests H n k m c aval (min err e)

/-- `OWPControlClose` (context.c:279-334). `OWP_CNTRL_FAILURE` is 2. -/
def controlClose (H : Hooks) (n : Nat) (m : Mem) (c : Nat) : Except Bad (Nat × Mem) := do
  let (err, m) ← freeTests H n n m c 2 allOk
  let l ← walk (same c) n m .list
  let p ← load m l
  let m ← if p = c then do
      let q ← load m (.next c)
      store m l q
    else .ok m
  let m ← release m c
  .ok (err, m)

/-- The loop of `OWPContextFree` (context.c:251-253), with at most `k` rounds. -/
def contextFree (H : Hooks) (n : Nat) : Nat → Mem → Except Bad Mem
  | 0, _ => .error .spin
  | k + 1, m =>
    if m.list = 0 then .ok m
    else
      match controlClose H n m m.list with
      | .error e => .error e
      | .ok (_, m) => contextFree H n k m

/-- `_OWPControlAlloc` (context.c:336-398), when `calloc` gives `a`. -/
def controlAlloc (m : Mem) (a : Nat) : Mem :=
  { setCell m a (some ⟨m.list, .conn 0⟩) with list := a }

/-- `_OWPTestSessionAlloc` (api.c:169-233), when `calloc` gives `t`; the fields are set until the session is put on the list or freed. -/
def sessionAlloc (m : Mem) (t : Nat) (s : Session) : Mem := setCell m t (some ⟨0, .sess s⟩)

/-- `tsession->next = cntrl->tests; cntrl->tests = tsession;` (capi.c:1238, sapi.c:777, 897, protocol.c:2336, 2417, 2624). -/
def push (m : Mem) (c t : Nat) : Except Bad Mem := do
  let h ← load m (.tests c)
  let m ← store m (.next t) h
  store m (.tests c) t

/-- The loop that takes the receiving sessions out of the list (protocol.c:2344-2370): whether all have an endpoint, and `sptr`. -/
def pull : Nat → Mem → Loc → Except Bad (Bool × Loc × Mem)
  | 0, _, _ => .error .spin
  | n + 1, m, l =>
    match load m l with
    | .error e => .error e
    | .ok p =>
      if p = 0 then .ok (true, l, m)
      else
        match session m p with
        | .error e => .error e
        | .ok s =>
          match s.ep with
          | none => .ok (false, l, m)
          | some e =>
            if e.send then pull n m (.next p)
            else
              match (do
                let q ← load m (.next p)
                let m ← store m l q
                let m ← store m (.next p) m.recv
                store m .recv p) with
              | .error e => .error e
              | .ok m => pull n m l

/-- `!memcmp(buf,(*sptr)->sid,sizeof(OWPSID))`. -/
def hasSid (sid : Nat) (m : Mem) (p : Nat) : Except Bad Bool :=
  match session m p with
  | .error e => .error e
  | .ok s => .ok (s.sid == sid)

/-- Looking for the session named in the message (protocol.c:2396-2428): whether it is there, `sptr`, and the memory. -/
def takeNamed (n : Nat) (m : Mem) (c sid : Nat) : Except Bad (Bool × Loc × Mem) := do
  let l ← walk (hasSid sid) n m .recv
  let p ← load m l
  if p = 0 then .ok (false, l, m)
  else do
    let q ← load m (.next p)
    let m ← store m l q
    let m ← push m c p
    .ok (true, l, m)

/-- Putting the rest back (protocol.c:2332-2338, 2620-2626), with at most `n` rounds. -/
def putBack : Nat → Mem → Nat → Except Bad Mem
  | 0, _, _ => .error .spin
  | n + 1, m, c =>
    if m.recv = 0 then .ok m
    else
      match (do
        let p := m.recv
        let q ← load m (.next p)
        let m ← store m .recv q
        push m c p) with
      | .error e => .error e
      | .ok m => putBack n m c

/-- The loop over the sessions named in the message. -/
def takeAll (n : Nat) (c : Nat) : List Nat → Mem → Loc → Except Bad (Bool × Loc × Mem)
  | [], m, l => .ok (true, l, m)
  | sid :: sids, m, _ =>
    match takeNamed n m c sid with
    | .error e => .error e
    | .ok (false, l, m) => .ok (false, l, m)
    | .ok (true, l, m) => takeAll n c sids m l

/-- What `_OWPReadStopSessions` (protocol.c:2272-2632) does with the lists for a one-way connection: whether the message is accepted. `sids` are
the sessions that it names as far as it is read, `fails` says that it is given up after that for another reason. When it is accepted, what is left
in `receivers` is forgotten. -/
def readStop (n : Nat) (m : Mem) (c : Nat) (sids : List Nat) (fails : Bool) : Except Bad (Bool × Mem) := do
  let (all, l, m) ← pull n { m with recv := 0 } (.tests c)
  if all then do
    let (found, l, m) ← takeAll n c sids m l
    if found && !fails then do
      let p ← load m l
      if p = 0 then .ok (true, { m with recv := 0 })
      else do
        let m ← putBack n m c
        .ok (false, m)
    else do
      let m ← putBack n m c
      .ok (false, m)
  else do
    let m ← putBack n m c
    .ok (false, m)

/-! ## What programs do with a context -/

/-- What is done with a context: a connection is made (`calloc` gives `a`); a session is asked for (`calloc` gives `t`) and either becomes one of the
connection or fails with an accept value; something happens to the endpoint of a session; a stop message arrives; the sessions of a connection
are ended with an accept value; a connection is closed. -/
inductive Op where
  | connect (a : Nat)
  | request (t : Nat) (s : Session) (refused : Option Int)
  | change (t : Nat) (e : Ep)
  | stop (c : Nat) (sids : List Nat) (fails : Bool)
  | finish (c : Nat) (aval : Int)
  | close (c : Nat)

/-- The endpoint of a session replaced. -/
def change (m : Mem) (t : Nat) (e : Ep) : Except Bad Mem :=
  match m.cell t with
  | some ⟨nx, .sess s⟩ => .ok (setCell m t (some ⟨nx, .sess { s with ep := some e }⟩))
  | _ => .error .wild

/-- One of these (capi.c:1235-1275, sapi.c:775-793, api.c:1859-1862). -/
def step (H : Hooks) (n : Nat) (m : Mem) : Op → Except Bad Mem
  | .connect a => .ok (controlAlloc m a)
  | .request t s none => push (sessionAlloc m t s) s.cntrl t
  | .request t s (some aval) => (testSessionFree H n (sessionAlloc m t s) t aval).map (·.2)
  | .change t e => change m t e
  | .stop c sids fails => (readStop n m c sids fails).map (·.2)
  | .finish c aval => (freeTests H n n m c aval allOk).map (·.2)
  | .close c => (controlClose H n m c).map (·.2)

/-- A context as `OWPContextCreate` makes it. -/
def fresh : Mem := ⟨fun _ => none, 0, 0, []⟩

end Owamp.Close
