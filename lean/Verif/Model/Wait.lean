import Verif.Model.Sessions
import Verif.Model.Num64
/-!
# Model of `OWPStopSessionsWait` (owamp/api.c:1879-2142)

The processes of the sessions, `poll`, the clock, the interrupt flag and the control connection are parameters. Not modelled: a NULL control connection
(it is used before it is checked, api.c:1900), the state bits of the control connection.
-/
namespace Owamp.Local
open Owamp.Num64

/-- Time goes by: process `i`, if it still runs, ends as `ends i` says. -/
def elapseFrom (ends : Nat → Option Ending) : Nat → List Ses → List Ses
  | _, [] => []
  | i, t :: ts =>
    (match t.ep with
      | some e => if e.now = none then { t with ep := some { e with now := ends i } } else t
      | none => t) :: elapseFrom ends (i + 1) ts

def elapse (ends : Nat → Option Ending) (ts : List Ses) : List Ses := elapseFrom ends 0 ts

/-- What `poll` gives: an error other than `EINTR`, `EINTR`, 0, or 1 (`events`: `revents` has one of the three bits). `silence`: nothing, it still
waits. -/
inductive Polled where
  | failed
  | interrupted
  | timeout
  | ready (events : Bool)
  | silence
deriving DecidableEq, Repr

/-- A stretch of time in `poll`: which processes end meanwhile, what `poll` gives for its timeout argument, `*retn_on_intr` when it returns (`false` if the pointer
is NULL), and which processes end between the two questions of api.c:1990 and 1995. -/
structure Turn where
  ends : Nat → Option Ending
  polled : Int → Polled
  intr : Bool
  ends2 : Nat → Option Ending

/-- What the caller of `OWPStopSessionsWait` gets: the return value, `*err_ret`, `*acceptval_ret`; and the sessions. -/
structure Waited where
  rc : Int
  err : Nat
  aval : Int
  sessions : List Ses

inductive Outcome where
  | waiting (ts : List Ses)
  | returned (w : Waited)

/-- A 64 bit number assigned to an `int`: reduced modulo 2^32, as compilers define it. -/
def toInt32 (x : Int) : Int := (x + 2 ^ 31) % 2 ^ 32 - 2 ^ 31

/-- The timeout for `poll` in milliseconds (api.c:1946-1966). -/
def pollTimeout (wake : Option U64) (now : U64) : Int :=
  match wake with
  | none => -1
  | some w =>
    let rel : TimeParts := if now.toNat < w.toNat then toTimespec (sub w.toNat now.toNat) else ⟨0, 0⟩
    toInt32 (rel.sec * 1000 + rel.sub.tdiv 1000000)

/-- From `done` on (api.c:2087-2141). -/
def waitDone (twoway server readstop : Bool) (p : Peer) (s : Stopping) (ts : List Ses) : Waited :=
  let aval := if s.err < warning then 2 else s.aval
  let err := if readstop && decide (warning ≤ s.err) && !(twoway && server) then min (p.write aval s.num) s.err else s.err
  let f := freeAll aval ts err
  if f.1 < warning then ⟨-1, f.1, 2, f.2⟩
  else if !readstop then ⟨-1, f.1, aval, f.2⟩
  else ⟨0, f.1, aval, f.2⟩

/-- Stopping the sessions after a stop message (`readstop`) or the end of the connection (api.c:2046-2085). -/
def waitStop (twoway server readstop : Bool) (p : Peer) (aval : Int) (ts : List Ses) : Waited :=
  let r := stopSend twoway ts ⟨aval, allOk, 0⟩
  if r.1.err < warning then waitDone twoway server readstop p r.1 r.2
  else
    let q := stopRecv twoway server (!readstop) p.late r.2 r.1
    if q.1.err < warning then waitDone twoway server readstop p q.1 q.2
    else if readstop then waitDone twoway server readstop p { q.1 with aval := p.read.2, err := min p.read.1 q.1.err } q.2
    else if p.cleanUp then waitDone twoway server readstop p { q.1 with aval := 0 } q.2
    else waitDone twoway server readstop p { q.1 with err := fatal } q.2

/-- Something is to be read (api.c:2006-2044). -/
def waitRead (twoway server events : Bool) (p : Peer) (aval : Int) (ts : List Ses) : Waited :=
  let readstop := !(twoway && !server)
  if !events then waitDone twoway server readstop p ⟨aval, fatal, 0⟩ ts
  else
    match p.heard with
    | .stop => if twoway && !server then waitDone twoway server readstop p ⟨aval, fatal, 0⟩ ts else waitStop twoway server readstop p aval ts
    | .closed => waitStop twoway server false p aval ts
    | .other => waitDone twoway server readstop p ⟨aval, fatal, 0⟩ ts

/-- `OWPStopSessions` and `return 0` (api.c:1928-1929, 2001-2003). -/
def waitOwn (twoway server : Bool) (p : Peer) (aval : Int) (ts : List Ses) : Waited :=
  let r := stopSessions twoway server p aval ts
  ⟨0, r.rc, r.aval, r.sessions⟩

/-- The loop at `AGAIN` (api.c:1970-2044). -/
def waitLoop (twoway server wake : Bool) (timeout : Int) (p : Peer) : List Turn → Int → List Ses → Outcome
  | [], _, ts => .waiting ts
  | t :: rest, aval, ts0 =>
    let ts := elapse t.ends ts0
    match t.polled timeout with
    | .silence => waitLoop twoway server wake timeout p rest aval ts
    | .failed => .returned ⟨-1, fatal, aval, ts⟩
    | .timeout => .returned ⟨1, allOk, aval, ts⟩
    | .ready events => .returned (waitRead twoway server events p aval ts)
    | .interrupted =>
      if wake || t.intr then .returned ⟨2, allOk, aval, ts⟩
      else
        let a := sessionsActive ts
        if a.1 ≠ 0 ∧ a.2.1 = 0 then waitLoop twoway server wake timeout p rest a.2.1 a.2.2
        else if twoway && server then
          let b := sessionsActive (elapse t.ends2 a.2.2)
          if b.1 = 0 ∧ b.2.1 ≠ 0 then .returned ⟨0, allOk, b.2.1, b.2.2⟩
          else waitLoop twoway server wake timeout p rest b.2.1 b.2.2
        else .returned (waitOwn twoway server p a.2.1 a.2.2)

/-- `OWPStopSessionsWait` (api.c:1879-2142). `fd` says that the control connection is open, `intr` is `*retn_on_intr` at the start, `clock` the
time of day. -/
def wait (twoway server fd : Bool) (wake : Option U64) (intr : Bool) (clock : Option U64) (p : Peer) (turns : List Turn) (ts : List Ses) : Outcome :=
  if !fd then .returned ⟨-1, fatal, 0, ts⟩
  else
    let a := sessionsActive ts
    if (twoway && server) ∧ a.1 = 0 ∧ a.2.1 ≠ 0 then .returned ⟨0, allOk, a.2.1, a.2.2⟩
    else if ¬ (twoway && server) ∧ (a.1 = 0 ∨ a.2.1 ≠ 0) then .returned (waitOwn twoway server p a.2.1 a.2.2)
    else if intr then .returned ⟨2, allOk, a.2.1, a.2.2⟩
    else if wake.isSome && clock.isNone then .returned ⟨-1, allOk, a.2.1, a.2.2⟩
    else waitLoop twoway server wake.isSome (pollTimeout wake (clock.getD 0)) p turns a.2.1 a.2.2

end Owamp.Local
