import Verif.Model.Broker
/-!
# Model of the daemon's main loop (owampd/owampd.c)

The daemon is a state machine. Each event is either a step of the daemon or something that happens to it: a connection
request, a message of a process that serves a connection, the end of such a process. A process can end between any two steps;
the handler of `SIGCHLD` then sets `owpd_chld`. The table of file descriptors to poll and the exit of the daemon are not
modelled.
-/
namespace Owamp.Daemon
open Owamp.Policy

/-- `ChldStateRec` (owampd.c:168-174); `policy` and the unused `used` are left out. -/
structure Child where
  pid : Nat
  fd : Nat
  node : Option Nat
deriving DecidableEq, Repr

/-- Where `ReapChildren` returns to. -/
inductive Back where
  /-- The end of the main loop, or a `continue` in it. -/
  | loop
  /-- `goto ACCEPT` (owampd.c:524-526). -/
  | accept
  /-- The second check of the number of sessions (owampd.c:549-550). -/
  | recheck
deriving DecidableEq, Repr

/-- Where the daemon is. -/
inductive Point where
  /-- In `poll` (owampd.c:1901). -/
  | poll
  /-- In `CleanPipes`, which looks at each socket that is ready (owampd.c:426-446). -/
  | pipes
  /-- In `accept` (owampd.c:512). -/
  | accept
  /-- At the first check of the number of sessions (owampd.c:542). -/
  | check
  /-- At the second check (owampd.c:550). -/
  | recheck
  /-- Before `socketpair` and `fork` (owampd.c:562-571). -/
  | fork
  /-- At the call of `ReapChildren`. -/
  | reap (k : Back)
  /-- Before `waitpid` (owampd.c:332). -/
  | wait (k : Back)
  /-- Before `owpd_chld = 0` (owampd.c:345). -/
  | clear (k : Back)
deriving DecidableEq, Repr

/-- The daemon: `opts.maxcontrolsessions`, the classes, `control_sessions`, `pidtable` and `fdtable` (which have the same
entries), `owpd_chld`; and of the system: its processes that run, those that have ended and have not been waited for. `fault`
says that it has used an uninitialised variable. -/
structure State where
  max : U32
  tree : Tree
  sessions : U32
  table : List Child
  chld : Bool
  point : Point
  alive : List Nat
  ended : List Nat
  fault : Bool
deriving DecidableEq, Repr

/-- Events. -/
inductive Ev where
  /-- A process ends; `SIGCHLD` (owampd.c:151-153). -/
  | ends (pid : Nat)
  /-- `poll` or `accept` is interrupted by a signal (owampd.c:1907-1912, 517-527). -/
  | intr
  /-- The listening socket is ready (owampd.c:1924). -/
  | ready
  /-- The socket of the process is ready (owampd.c:1928). -/
  | mesg (pid : Nat) (s : Source)
  /-- `accept` succeeds. -/
  | accepted
  /-- `accept` fails (owampd.c:529-537). -/
  | notAccepted
  /-- A step of the daemon without choice. -/
  | go
  /-- `waitpid` returns a process (owampd.c:332). -/
  | waited (pid : Nat)
  /-- `socketpair` and `fork` succeed with this process and this descriptor; `mem` says that `AllocChldState` gets its
  memory (owampd.c:571-608). -/
  | forked (pid fd : Nat) (mem : Bool)
  /-- `socketpair` or `fork` fails (owampd.c:562-580). -/
  | notForked
deriving Repr

/-- Whether there is no place left (owampd.c:542-543, 550): `uint32_t` arithmetic. -/
def full (d : State) : Bool := decide (d.max ≠ 0 ∧ (d.sessions + 1).toNat > d.max.toNat)

/-- `AllocChldState` (owampd.c:179-227). -/
def alloc (d : State) (pid fd : Nat) : State := { d with table := d.table ++ [⟨pid, fd, none⟩], sessions := d.sessions + 1 }

/-- `FreeChldState` (owampd.c:230-313): "TODO: Release bandwidth resources here if there are any left". -/
def free (d : State) (c : Child) : State := { d with table := d.table.filter (·.pid ≠ c.pid), sessions := d.sessions - 1 }

/-- Where the daemon goes on after `ReapChildren`. -/
def resume : Back → Point
  | .loop => .poll
  | .accept => .accept
  | .recheck => .recheck

/-- One event; `none` if it cannot happen in the state. -/
def step (claimOver : U64 → U64 → Bool) (big : Bool) (d : State) (e : Ev) : Option State :=
  if d.fault then none
  else match e with
  | .ends pid => if pid ∈ d.alive then some { d with alive := d.alive.filter (· ≠ pid), ended := d.ended ++ [pid], chld := true } else none
  | .intr =>
    match d.point with
    | .poll => some { d with point := .reap .loop }
    | .accept => some { d with point := .reap .accept }
    | _ => none
  | .ready => if d.point = .poll then some { d with point := .accept } else none
  | .mesg pid s =>
    if d.point = .poll ∨ d.point = .pipes then
      match d.table.find? (·.pid = pid) with
      | none => none
      | some c =>
        let r := checkFd claimOver big d.tree c.node s
        some { d with tree := r.tree, table := d.table.map (fun x => if x.pid = pid then { x with node := r.node } else x), point := .pipes }
    else none
  | .accepted => if d.point = .accept then some { d with point := .check } else none
  | .notAccepted => if d.point = .accept then some { d with point := .reap .loop } else none
  | .go =>
    match d.point with
    | .pipes => some { d with point := .reap .loop }
    | .check => some { d with point := if full d then .reap .recheck else .fork }
    | .recheck => some { d with point := if full d then .reap .loop else .fork }
    | .reap k => some { d with point := if d.chld then .wait k else resume k }
    | .wait k => if d.ended = [] then some { d with point := .clear k } else none
    | .clear k => some { d with chld := false, point := resume k }
    | _ => none
  | .waited pid =>
    match d.point with
    | .wait _ =>
      if pid ∈ d.ended then
        let d1 := { d with ended := d.ended.filter (· ≠ pid) }
        match d.table.find? (·.pid = pid) with
        | some c => some (free d1 c)
        | none => some { d1 with fault := true }
      else none
    | _ => none
  | .forked pid fd mem =>
    if d.point = .fork ∧ pid < 2 ^ 31 ∧ pid ∉ d.alive ∧ pid ∉ d.ended ∧ ∀ c ∈ d.table, c.fd ≠ fd then
      let d1 := { d with alive := d.alive ++ [pid], point := .reap .loop }
      if mem then some (alloc d1 pid fd) else some d1
    else none
  | .notForked => if d.point = .fork then some { d with point := .reap .loop } else none

/-- The state after some events. -/
def run (claimOver : U64 → U64 → Bool) (big : Bool) (d : State) : List Ev → Option State
  | [] => some d
  | e :: es =>
    match step claimOver big d e with
    | none => none
    | some d => run claimOver big d es

/-- The daemon at the start of its loop. -/
def start (max : U32) (t : Tree) : State := ⟨max, t, 0, [], false, .poll, [], [], false⟩

end Owamp.Daemon
