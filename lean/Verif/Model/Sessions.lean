import Verif.Model.Conn
/-!
# Model of starting, watching and stopping the local sides of sessions

`owamp/capi.c` (`OWPStartSessions`), `owamp/sapi.c` (`OWPProcessStartSessions`), `owamp/api.c` (`OWPSessionStatus`,
`OWPSessionsActive`, `_OWPStopSendSessions`, `_OWPStopRecvSessions`, `OWPStopSessions`, `OWPStopSessionsWait`) and
`owamp/endpoint.c` (`_OWPEndpointStart`, `_OWPEndpointStatus`, `_OWPEndpointStop`).

What the child processes do, and what the control connection gives, are parameters.
-/
namespace Owamp.Local

/-! ## Child processes -/

/-- What `waitpid` tells about a process that is over: its exit status, that a signal has ended it, or that there is no
such child. -/
inductive Ending where
  | exited (code : Byte)
  | killed
  | lost
deriving DecidableEq, Repr

/-- `OWPEndpointRec` (owampP.h:269-330) as far as it is used here, and its process.

`acceptval` is −1 until the end of the process has been noticed. `now` is the state of the process when it is looked at
(`none`: it runs), `ends` how it ends after the signal that `_OWPEndpointStop` sends (`true` for SIGINT, `false` for
SIGUSR2) if it still runs, `killOk` that `kill` gives 0 or `ESRCH`, `signalOk` that the signal to start can be sent, and
`skipOk` that the file of skipped packets passes the checks of api.c:705-757. Not modelled: a process that does not end
after the signal, for which the caller waits for ever. -/
structure Ep where
  send : Bool
  acceptval : Int
  child : Bool
  now : Option Ending
  ends : Bool → Ending
  killOk : Bool
  signalOk : Bool
  skipOk : Bool

/-- `OWPErrSeverity` (owamp.h:288-294). -/
abbrev fatal : Nat := 3
abbrev warning : Nat := 4
abbrev allOk : Nat := 8

/-- The result of a process that is over (endpoint.c:4153-4176) and the severity. -/
def reap : Ending → Int × Nat
  | .exited code => (code.toNat, allOk)
  | .killed => (2, warning)
  | .lost => (2, warning)

/-- `_OWPEndpointStatus` (endpoint.c:4141-4186): the endpoint, `*aval` and the severity. -/
def endpointStatus (e : Ep) (aval : Int) : Ep × Int × Nat :=
  let r : Ep × Nat :=
    if e.acceptval < 0 then
      match e.now with
      | none => (e, allOk)
      | some en => ({ e with acceptval := (reap en).1 }, (reap en).2)
    else (e, allOk)
  (r.1, if aval = 0 then r.1.acceptval else aval, r.2)

/-- `_OWPEndpointStop` (endpoint.c:4189-4242). -/
def endpointStop (e : Ep) (aval : Int) : Ep × Int × Nat :=
  if e.acceptval ≥ 0 ∨ e.child = false then (e, if aval = 0 then e.acceptval else aval, allOk)
  else if e.killOk = false then (e, if aval = 0 then e.acceptval else aval, fatal)
  else
    let r := endpointStatus { e with now := some (e.now.getD (e.ends (aval ≠ 0))) } 0
    (r.1, if aval = 0 then r.1.acceptval else aval, r.2.2)

/-! ## Watching -/

/-- A test session (owampP.h:335-378): its identifier and its endpoint. -/
structure Ses where
  sid : Bytes
  ep : Option Ep

/-- `OWPSessionStatus` (api.c:574-600): whether there is an answer, and `*aval`. -/
def sessionStatus (sid : Bytes) (aval : Int) : List Ses → Bool × Int × List Ses
  | [] => (false, aval, [])
  | t :: ts =>
    if t.sid = sid then
      match t.ep with
      | some e => (true, (endpointStatus e aval).2.1, { t with ep := some (endpointStatus e aval).1 } :: ts)
      | none => (false, aval, t :: ts)
    else
      let r := sessionStatus sid aval ts
      (r.1, r.2.1, t :: r.2.2)

/-- The loop of `OWPSessionsActive` (api.c:613-625) with the count `n` and `raval` so far. -/
def activeLoop : List Ses → Nat → Int → Nat × Int × List Ses
  | [], n, raval => (n, raval, [])
  | t :: ts, n, raval =>
    match t.ep with
    | none => let r := activeLoop ts n raval; (r.1, r.2.1, t :: r.2.2)
    | some e =>
      let q := endpointStatus e 0
      let r := if q.2.1 < 0 then activeLoop ts (n + 1) raval else activeLoop ts n (max q.2.1 raval)
      (r.1, r.2.1, { t with ep := some q.1 } :: r.2.2)

/-- `OWPSessionsActive` (api.c:602-631): how many run, `*aval`, and the sessions. -/
def sessionsActive (ts : List Ses) : Nat × Int × List Ses := activeLoop ts 0 0

/-! ## Stopping -/

/-- How far the stopping of sessions has come. -/
structure Stopping where
  aval : Int
  err : Nat
  num : Nat

/-- `_OWPStopSendSessions` (api.c:649-764): stops at a session without endpoint. -/
def stopSend (twoway : Bool) : List Ses → Stopping → Stopping × List Ses
  | [], s => (s, [])
  | t :: ts, s =>
    match t.ep with
    | none => ({ s with aval := 2 }, t :: ts)
    | some e =>
      if ¬ twoway ∧ ¬ e.send then
        let r := stopSend twoway ts s
        (r.1, t :: r.2)
      else
        let q := endpointStop e s.aval
        let bad := ¬ twoway ∧ ¬ e.skipOk
        let s' : Stopping :=
          ⟨if bad then 2 else q.2.1, if bad then min warning (min q.2.2 s.err) else min q.2.2 s.err, s.num + 1⟩
        let r := stopSend twoway ts s'
        (r.1, { t with ep := some q.1 } :: r.2)

/-- `_OWPStopRecvSessions` (api.c:782-863). `late` says that for the session the time to wait for packets on their way is
over already (api.c:817-840), at which the loop ends; it only matters for the server of two-way sessions that has heard a
stop message. -/
def stopRecv (twoway server nowait : Bool) (late : Ses → Bool) : List Ses → Stopping → Stopping × List Ses
  | [], s => (s, [])
  | t :: ts, s =>
    match t.ep with
    | none => ({ s with aval := 2 }, t :: ts)
    | some e =>
      if ¬ twoway ∧ e.send then
        let r := stopRecv twoway server nowait late ts s
        (r.1, t :: r.2)
      else if twoway ∧ server ∧ ¬ nowait ∧ late t then (s, t :: ts)
      else
        let q := endpointStop e s.aval
        let r := stopRecv twoway server nowait late ts { s with aval := q.2.1, err := min q.2.2 s.err }
        (r.1, { t with ep := some q.1 } :: r.2)

/-- Freeing the sessions (api.c:1861-1864 with `_OWPTestSessionFree`, api.c:250-297, and `_OWPEndpointFree`,
endpoint.c:4244-4257): each endpoint is stopped, with a copy of the accept value. -/
def freeAll (aval : Int) : List Ses → Nat → Nat × List Ses
  | [], err => (err, [])
  | t :: ts, err =>
    match t.ep with
    | none => let r := freeAll aval ts err; (r.1, t :: r.2)
    | some e =>
      let q := endpointStop e aval
      let r := freeAll aval ts (min q.2.2 err)
      (r.1, { t with ep := some q.1 } :: r.2)

/-- What `OWPReadRequestType` gives while sessions are stopped. -/
inductive Heard where
  | stop
  | closed
  | other
deriving DecidableEq, Repr

/-- What the control connection and the files contribute: the severity of `_OWPWriteStopSessions` for an accept value and
a number of senders, the request type read, severity and accept value of `_OWPReadStopSessions` (which sets `*acceptval`
to what the other side says, protocol.c:2297), and whether `_OWPCleanUpSessions` succeeds (which sets `*acceptval` to
`OWP_CNTRL_ACCEPT` first, api.c:1419). That `_OWPReadStopSessions` moves sessions in the list is in `Model/Stop.lean`. -/
structure Peer where
  write : Int → Nat → Nat
  heard : Heard
  read : Nat × Int
  cleanUp : Bool
  late : Ses → Bool

/-- What `OWPStopSessions` leaves: its return value, `*acceptval`, the sessions just before they are freed and after that. -/
structure Stopped where
  rc : Nat
  aval : Int
  sessions : List Ses

/-- The end of `OWPStopSessions` (api.c:1857-1876). -/
def stopDone (readstop : Bool) (s : Stopping) (ts : List Ses) : Stopped :=
  let f := freeAll s.aval ts s.err
  if f.1 < warning then ⟨f.1, if s.aval = 0 then 2 else s.aval, f.2⟩
  else if ¬ readstop then ⟨fatal, s.aval, f.2⟩
  else ⟨f.1, s.aval, f.2⟩

/-- From `clean_sessions` on (api.c:1826-1857). -/
def stopClean (twoway server readstop : Bool) (p : Peer) (s : Stopping) (ts : List Ses) : Stopped :=
  let r := stopRecv twoway server (!readstop) p.late ts s
  if r.1.err < warning then stopDone readstop r.1 r.2
  else if readstop then stopDone readstop { r.1 with aval := p.read.2, err := min p.read.1 r.1.err } r.2
  else if p.cleanUp then stopDone readstop { r.1 with aval := 0 } r.2
  else stopDone readstop { r.1 with aval := 2, err := fatal } r.2

/-- `OWPStopSessions` (api.c:1757-1877). -/
def stopSessions (twoway server : Bool) (p : Peer) (aval : Int) (ts : List Ses) : Stopped :=
  let r := stopSend twoway ts ⟨aval, allOk, 0⟩
  if r.1.err < warning then stopDone true r.1 r.2
  else
    let s := { r.1 with err := min (p.write r.1.aval r.1.num) r.1.err }
    if s.err < warning then stopClean twoway server false p s r.2
    else if twoway ∧ ¬ server then stopClean twoway server false p s r.2
    else match p.heard with
      | .stop => stopClean twoway server true p s r.2
      | .closed => stopClean twoway server false p s r.2
      | .other => stopDone true { s with err := fatal } r.2

/-! ## Starting -/

/-- What can be seen of the start of sessions. -/
inductive Event where
  /-- The start message is sent. -/
  | request
  /-- The signal to start is sent to the endpoint of session `i`. -/
  | started (i : Nat)
  /-- The answer to the start message is sent or has been read. -/
  | ack (aval : Int)
deriving DecidableEq, Repr

/-- `_OWPEndpointStart` (endpoint.c:4124-4139) succeeds. -/
def startOk (e : Ep) : Bool := e.acceptval < 0 ∧ e.child ∧ e.signalOk

/-- A loop that starts endpoints (capi.c:1343-1350, 1363-1370; sapi.c:937-946): those for which `which` holds. It stops
when one cannot be started. -/
def startLoop (which : Ep → Bool) : List Ses → Nat → List Event × Bool
  | [], _ => ([], true)
  | t :: ts, i =>
    match t.ep with
    | none => startLoop which ts (i + 1)
    | some e =>
      if which e then
        if startOk e then
          let r := startLoop which ts (i + 1)
          (.started i :: r.1, r.2)
        else ([], false)
      else startLoop which ts (i + 1)

/-- `OWPStartSessions` (capi.c:1303-1374): what happens and the severity returned. `write` is the severity of
`_OWPWriteStartSessions`, `ack` what `_OWPReadStartAck` gives. -/
def startSessions (write : Nat) (ack : Nat × Int) (ts : List Ses) : List Event × Nat :=
  if write < allOk then ([], write)
  else
    let r := startLoop (fun e => !e.send) ts 0
    if r.2 = false then (.request :: r.1, fatal)
    else if ack.1 < allOk then (.request :: r.1, fatal)
    else if ack.2 ≠ 0 then (.request :: (r.1 ++ [.ack ack.2]), fatal)
    else
      let q := startLoop (fun e => e.send) ts 0
      (.request :: (r.1 ++ (.ack ack.2 :: q.1)), if q.2 then allOk else fatal)

/-- `OWPProcessStartSessions` (sapi.c:918-952) after the start message has been read: what happens and the severity.
`write` is the severity of `_OWPWriteStartAck`; an answer that could not be written is not in the list. -/
def processStart (write : Nat) (ts : List Ses) : List Event × Nat :=
  let r := startLoop (fun _ => true) ts 0
  if r.2 = false then (r.1 ++ (if write < allOk then [] else [.ack 2]), fatal)
  else if write < allOk then (r.1, write)
  else (r.1 ++ [.ack 0], allOk)

end Owamp.Local
