import Verif.Base.Bytes
/-!
# Model of the life of the process that serves a connection (the child in `NewConnection`, owampd/owampd.c:707-856): signals and the timer

The process is a state machine; what happens between two of its steps is an event. Signals are not blocked, so the handler can run
between any two steps. A system call that waits returns when the handler has run; a handler that runs just before the call does not
keep it from waiting. `I2Readni` and `I2Writeni` give up an interrupted call if `owpd_intr` is set, which the handler always does. A failing
`setitimer` and a failing `poll` are not modelled. What requests say and what is answered is the subject of `Server.lean`.
-/
namespace Owamp.Life

/-- What `OWPReadRequestType` returns; `other` is `OWPReqInvalid` or a request not served (protocol.c:455-527). -/
inductive Msg where
  | test
  | fetch
  | start
  | other
  | close
  | intr
deriving DecidableEq, Repr

/-- The functions in which the process can wait for its client or its sessions: `OWPReadRequestType`; those that serve a request other than to start, or
refuse it; `OWPProcessStartSessions`; within `OWPStopSessionsWait`, the `poll`, the reading of the client's message, and `OWPStopSessions` (api.c:1931); and
`OWPStopSessions` called by the loop (owampd.c:792). -/
inductive Fn where
  | read
  | serve
  | start
  | poll
  | readStop
  | stopIn
  | stop
deriving DecidableEq, Repr

/-- Modelling device: whether a function is at work, waits, or had its wait interrupted (and is about to return). -/
inductive Mode where
  | free
  | blocked
  | broken
deriving DecidableEq, Repr

/-- Where the process is in the loop (owampd.c:710-856). -/
inductive Point where
  /-- At the top of the loop (owampd.c:710-722). -/
  | top
  | inside (f : Fn) (m : Mode)
  /-- At the `switch` (owampd.c:726). -/
  | handle
  /-- The sessions are started: before the timer is unset (owampd.c:749-754). -/
  | unset
  /-- Before `OWPStopSessionsWait` is called (owampd.c:758-759). -/
  | again
  /-- At its first test (api.c:1917-1942). -/
  | waitTop
  /-- It has returned, 2 or not (owampd.c:762-777). -/
  | waited (two : Bool)
  /-- Before the timer is set again (owampd.c:786-791). -/
  | rearm
  /-- `nextreq` (owampd.c:833-839). -/
  | next
  /-- `done` (owampd.c:842-856). -/
  | done
  | ended (status : Nat)
deriving DecidableEq, Repr

/-- `opts.controltimeout`; `cntrl->twoway`; whether the connection is in the request state; the flags of the signal handler; whether the timer is set;
`msgtype`; whether `rc` is not below `OWPErrWARNING`; the processes of test sessions that run, and whether one has failed. -/
structure State where
  timeout : Nat
  twoway : Bool
  valid : Bool
  intr : Bool
  alrm : Bool
  exit : Bool
  int : Bool
  timer : Bool
  msg : Msg
  rc : Bool
  sessions : Nat
  failed : Bool
  point : Point
deriving DecidableEq, Repr

/-- What a function returns: the kind of a request, or whether the severity is not below `OWPErrWARNING` (`OWPErrOK` for `OWPProcessStartSessions`). -/
inductive Ret where
  | msg (m : Msg)
  | rc (ok : Bool)
deriving DecidableEq, Repr

/-- Events: a step of the loop; a function begins to wait; what it waits for comes; a function returns; a signal to end (`SIGINT` if the flag is set, else
`SIGTERM`, `SIGHUP`, `SIGUSR1` or `SIGUSR2`); the process of a session ends; the timer expires. -/
inductive Event where
  | go
  | block
  | bytes
  | ret (r : Ret)
  | term (int : Bool)
  | child (fails : Bool)
  | alarm
deriving DecidableEq, Repr

/-- A handler has run: a call that waits is interrupted. -/
def woken : Point → Point
  | .inside f .blocked => .inside f .broken
  | p => p

/-- A step of the loop (owampd.c:710-856) outside of the functions; `none` if there is none. -/
def step (s : State) : Option State :=
  match s.point with
  | .top => some { s with intr := false, alrm := false, timer := decide (s.timeout ≠ 0), rc := true, point := .inside .read .free }
  | .handle =>
    match s.msg with
    | .test => some { s with point := .inside .serve .free }
    | .fetch => some { s with point := .inside .serve .free }
    | .start => some { s with point := .inside .start .free }
    | .other => if s.twoway then some { s with valid := true, point := .inside .serve .free } else some { s with rc := false, point := .next }
    | .close => some { s with rc := false, point := .next }
    | .intr => some { s with point := .next }
  | .unset => some { s with intr := false, timer := false, point := .again }
  | .again => some { s with rc := true, intr := false, point := .waitTop }
  | .waitTop =>
    if s.twoway then
      if s.sessions = 0 ∧ s.failed then some { s with point := .waited false }
      else if s.intr then some { s with point := .waited true }
      else some { s with point := .inside .poll .free }
    else if s.sessions = 0 ∨ s.failed then some { s with point := .inside .stopIn .free }
    else if s.intr then some { s with point := .waited true }
    else some { s with point := .inside .poll .free }
  | .waited two =>
    if s.int then some { s with point := .done }
    else if s.exit then some { s with point := if two then (if s.twoway then .next else .rearm) else .done }
    else some { s with point := if two then .again else .next }
  | .rearm => some { s with intr := false, timer := decide (s.timeout ≠ 0), point := .inside .stop .free }
  | .next => some { s with point := if !s.rc then .done else if s.exit || s.alrm then .done else .top }
  | .done => some { s with point := .ended (if s.exit then 0 else if s.msg = .close then 0 else 1) }
  | .inside _ _ => none
  | .ended _ => none

/-- A function returns; `none` if it cannot return this. `OWPReadRequestType` (protocol.c:455-527) reads nothing unless the connection is in the request
state; an interruption, the end of the connection and a wrong request take it out of this state. -/
def ret (s : State) (r : Ret) : Option State :=
  match s.point, r with
  | .inside .read .free, .msg m =>
    if m = .intr then none
    else if s.valid then some { s with msg := m, valid := decide (m ≠ .close ∧ m ≠ .other), point := .handle }
    else if m = .other then some { s with msg := .other, point := .handle } else none
  | .inside .read .broken, .msg m => if m = .intr then some { s with msg := .intr, valid := false, point := .handle } else none
  | .inside .serve .free, .rc ok => some { s with rc := ok, sessions := if ok ∧ s.msg = .test then s.sessions + 1 else s.sessions, point := .next }
  | .inside .serve .broken, .rc ok => some { s with rc := ok, point := .next }
  | .inside .start .free, .rc ok => some { s with rc := ok, point := if ok then .unset else .next }
  | .inside .start .broken, .rc ok => if ok then none else some { s with rc := false, point := .next }
  | .inside .poll .free, .rc _ => some { s with point := .inside .readStop .free }
  | .inside .poll .broken, .rc _ => some { s with point := .waited true }
  | .inside .readStop .free, .rc ok => some { s with rc := ok, point := .waited false }
  | .inside .readStop .broken, .rc ok => some { s with rc := ok, point := .waited false }
  | .inside .stopIn .free, .rc ok => some { s with rc := ok, point := .waited false }
  | .inside .stopIn .broken, .rc ok => some { s with rc := ok, point := .waited false }
  | .inside .stop .free, .rc ok => some { s with rc := ok, point := .next }
  | .inside .stop .broken, .rc ok => some { s with rc := ok, point := .next }
  | _, _ => none

/-- Whether the process has ended. -/
def Point.over : Point → Bool
  | .ended _ => true
  | _ => false

/-- An event; one that cannot happen changes nothing. The signals are `signal_catch` (owampd.c:134-166). -/
def apply (s : State) : Event → State
  | .go => (step s).getD s
  | .block =>
    match s.point with
    | .inside f .free => if f = .read ∧ ¬ s.valid then s else { s with point := .inside f .blocked }
    | _ => s
  | .bytes =>
    match s.point with
    | .inside .poll .blocked => { s with point := .inside .readStop .free }
    | .inside f .blocked => { s with point := .inside f .free }
    | _ => s
  | .ret r => (ret s r).getD s
  | .term int => if s.point.over then s else { s with exit := true, int := s.int || int, intr := true, point := woken s.point }
  | .child fails =>
    if s.point.over ∨ s.sessions = 0 then s
    else { s with sessions := s.sessions - 1, failed := s.failed || fails, intr := true, point := woken s.point }
  | .alarm => if s.timer && !s.point.over then { s with alrm := true, timer := false, intr := true, point := woken s.point } else s

/-- A history: events one after the other. -/
def run (s : State) (es : List Event) : State := es.foldl apply s

/-- The connection has been accepted (owampd.c:696-705). -/
def accepted (timeout : Nat) (twoway : Bool) : State :=
  ⟨timeout, twoway, true, false, false, false, false, decide (timeout ≠ 0), .other, true, 0, false, .top⟩

end Owamp.Life
