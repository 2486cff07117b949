import Verif.Base.Bytes
/-!
# Model of how owampd ends (owampd/owampd.c:1888-1987) and of the lock on its process file (owampd.c:1507-1533, 1723-1802)

The daemon is a state machine; what happens between two of its steps is an event. Signals are not blocked, so a handler can run between any two steps; `poll` and `sigsuspend` return when one
has run while they wait. What is done for a connection or a message is one step. `Daemon.lean` models the loop in detail, without signals to end.
-/
namespace Owamp.Shutdown

/-- Where `ReapChildren` was called: in the main loop or at the end. -/
inductive From where
  | loop
  | down
deriving DecidableEq, Repr

/-- Where the daemon is. -/
inductive Point where
  /-- At the test of `owpd_exit` before `poll` (owampd.c:1895). -/
  | top
  /-- Between that test and `poll`. -/
  | toPoll
  /-- In `poll` (owampd.c:1901). -/
  | polling
  /-- After `poll` was interrupted (owampd.c:1906). -/
  | back
  /-- A connection, or messages, are to be dealt with (owampd.c:1921-1928). -/
  | work (connection : Bool)
  /-- At the test of `owpd_exit` after that (owampd.c:1930). -/
  | done
  /-- After the loop: `kill`, `alarm`, `ClosePipes` (owampd.c:1937-1961). -/
  | leave
  /-- At the test of the loop at the end (owampd.c:1968). -/
  | test
  /-- At the test of `owpd_chld` in it (owampd.c:1969). -/
  | check
  /-- Between that test and `sigsuspend`. -/
  | toSuspend
  /-- In `sigsuspend` (owampd.c:1970). -/
  | suspended
  /-- At the test of `owpd_chld` in `ReapChildren` (owampd.c:328). -/
  | reap (f : From)
  /-- Before `waitpid` (owampd.c:332). -/
  | wait (f : From)
  /-- Before `owpd_chld = 0` (owampd.c:345). -/
  | clear (f : From)
  /-- At the end, after `kill(-mypid,SIGKILL)` if there are children (owampd.c:1978-1986). -/
  | ended
deriving DecidableEq, Repr

/-- `opts.dieby`, `owpd_exit`, `owpd_alrm`, `owpd_chld`, whether an alarm is set, the number of children that run and that have ended and not been waited for, and whether the
group was sent `SIGTERM` and `SIGKILL`. -/
structure State where
  dieby : U32
  point : Point
  exit : Bool
  alrm : Bool
  chld : Bool
  armed : Bool
  running : Nat
  zombies : Nat
  termed : Bool
  killed : Bool
deriving DecidableEq, Repr

/-- What happens: a step of the daemon; a signal to end (`SIGTERM`, `SIGHUP`, `SIGINT`, `SIGUSR1`, `SIGUSR2`); the end of a child; the alarm; a connection or a message. -/
inductive Event where
  | step
  | term
  | child
  | alarm
  | connection
  | message
deriving DecidableEq, Repr

/-- A handler has run: `poll` and `sigsuspend` return. -/
def woken : Point → Point
  | .polling => .back
  | .suspended => .reap .down
  | p => p

/-- The next step of the daemon; `none` if it waits or has ended. -/
def step (s : State) : Option State :=
  match s.point with
  | .top => some { s with point := if s.exit then .leave else .toPoll }
  | .toPoll => some { s with point := .polling }
  | .polling => none
  | .back => some { s with point := if s.exit then .leave else .reap .loop }
  | .work c => some { s with point := .done, running := if c then s.running + 1 else s.running }
  | .done => some { s with point := if s.exit then .leave else .reap .loop }
  | .leave => some { s with point := .test, alrm := false, armed := decide (s.dieby ≠ 0), termed := true }
  | .test => if !s.alrm && decide (0 < s.running + s.zombies) then some { s with point := .check }
      else some { s with point := .ended, killed := decide (0 < s.running + s.zombies) }
  | .check => some { s with point := if s.chld then .reap .down else .toSuspend }
  | .toSuspend => some { s with point := .suspended }
  | .suspended => none
  | .reap f => some { s with point := if s.chld then .wait f else (match f with | .loop => .top | .down => .test) }
  | .wait f => if 0 < s.zombies then some { s with zombies := s.zombies - 1 } else some { s with point := .clear f }
  | .clear f => some { s with chld := false, point := match f with | .loop => .top | .down => .test }
  | .ended => none

/-- An event; one that cannot happen changes nothing. -/
def apply (s : State) : Event → State
  | .step => (step s).getD s
  | .term => if s.point = .ended then s else { s with exit := true, point := woken s.point }
  | .child => if s.point = .ended ∨ s.running = 0 then s else { s with running := s.running - 1, zombies := s.zombies + 1, chld := true, point := woken s.point }
  | .alarm => if s.armed && decide (s.point ≠ .ended) then { s with alrm := true, armed := false, point := woken s.point } else s
  | .connection => if s.point = .polling then { s with point := .work true } else s
  | .message => if s.point = .polling then { s with point := .work false } else s

def run (s : State) (l : List Event) : State := l.foldl apply s

/-- At the main loop, without children. -/
def start (dieby : U32) : State := ⟨dieby, .top, false, false, false, false, 0, 0, false, false⟩

/-! ## The lock -/

/-- Where a process that starts as a server is. -/
inductive Phase where
  /-- Before `fcntl(F_SETLK)` (owampd.c:1521). -/
  | begin_ (detach : Bool)
  /-- It has the lock (owampd.c:1526-1722). -/
  | locked (detach : Bool)
  /-- The parent, after `fork` (owampd.c:1740): about to write the child's number. -/
  | parent (child : Nat)
  /-- Before the socket for connections is made (owampd.c:1810-1823). -/
  | binding
  | serving
  | gone
deriving DecidableEq, Repr

/-- The processes (every number not used yet is `gone`), the holder of the lock, the number in the process file, and the processes that listen with their addresses. -/
structure World where
  phase : Nat → Phase
  lock : Option Nat
  file : Option Nat
  bound : List (Nat × Nat)

/-- What a process does. -/
inductive Act where
  /-- A server is started, with or without -Z. -/
  | start (p : Nat) (detach : Bool)
  /-- `fcntl`; if another process has the lock it exits (owampd.c:1520-1525). -/
  | lock (p : Nat)
  /-- `fork` (owampd.c:1740), if it detaches. The child has no lock: locks belong to a process. -/
  | fork (p q : Nat)
  /-- Without -Z the parent writes the child's number and exits; with -Z the process writes its own (owampd.c:1765-1802). -/
  | record (p : Nat)
  /-- `NWPServerSockCreate` on an address; if another process listens there it exits (owampd.c:1814-1823). -/
  | bind (p : Nat) (a : Nat)
  /-- It exits or is killed, at any moment. -/
  | die (p : Nat)
deriving DecidableEq, Repr

/-- A process is gone: its lock is released. -/
def gone (w : World) (p : Nat) : World :=
  { phase := fun i => if i = p then .gone else w.phase i
    lock := if w.lock = some p then none else w.lock
    file := w.file
    bound := w.bound.filter fun x => decide (x.1 ≠ p) }

def setPhase (w : World) (p : Nat) (f : Phase) : World := { w with phase := fun i => if i = p then f else w.phase i }

/-- One action; `none` if it is not possible. -/
def act (w : World) : Act → Option World
  | .start p d => if w.phase p = .gone then some (setPhase w p (.begin_ d)) else none
  | .lock p =>
    match w.phase p with
    | .begin_ d => if w.lock = none then some { setPhase w p (.locked d) with lock := some p } else some (gone w p)
    | _ => none
  | .fork p q =>
    match w.phase p with
    | .locked true => if w.phase q = .gone ∧ p ≠ q then some (setPhase (setPhase w p (.parent q)) q .binding) else none
    | _ => none
  | .record p =>
    match w.phase p with
    | .parent q => some { gone w p with file := some q }
    | .locked false => some { setPhase w p .binding with file := some p }
    | _ => none
  | .bind p a =>
    match w.phase p with
    | .binding => if w.bound.any (fun x => decide (x.2 = a)) = false then some { setPhase w p .serving with bound := (p, a) :: w.bound } else some (gone w p)
    | _ => none
  | .die p => some (gone w p)

end Owamp.Shutdown
