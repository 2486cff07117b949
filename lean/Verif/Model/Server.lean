import Verif.Model.Stop
/-!
# Model of the server's request loop

`owampd/owampd.c:710-840` and the functions it calls (`owamp/sapi.c`, `owamp/api.c`), as far as the
control connection is concerned. What the rest of the server decides (policy, files, processes) enters
as the parameters collected in `Turn`. `c.twoway` is true in the server built with `TWAMP`.
-/
namespace Owamp.Ctl
open Owamp.Codec

variable {ρ : Type}

/-- `OWPErrSeverity` (owamp.h:288-294) as far as the callers distinguish it. -/
inductive Rc where
  | ok
  | warning
  | fatal
deriving DecidableEq, Repr

/-- What became of a fetch request that was read: a fatal error of the policy check, a refusal, or an
answer with the data, whose sending is `send` (`none`: failed; the flag says whether the error returned
is fatal, which it is not on some paths of sapi.c:1392-1450). -/
inductive FetchPlan where
  | fatal
  | refuse (acc : Accept)
  | serve (ack : FetchAck) (send : Conn → Option Unit × Bool × Conn)

/-- How a session set ends, as seen by `OWPStopSessionsWait` on the server (api.c:1879-2142) and its
caller. -/
inductive WaitPlan where
  /-- sessions over (or shutdown asked for): `OWPStopSessions` (api.c:1928, owampd.c:792) -/
  | ours
  /-- two-way sessions over with an error: back to the request state (api.c:1923) -/
  | failedTW
  /-- `poll` failed (api.c:1972-1977) -/
  | pollError
  /-- the client has sent something -/
  | theirs

/-- Everything that the server's environment decides during one pass of the loop. -/
structure Turn (ρ : Type) where
  remote : SockAddr
  localAddr : SockAddr
  /-- Answer to a test request; `none` for an error below `OWPErrWARNING`, when nothing is sent. -/
  onTest : TestReq → Option (Accept × U16 × Option Bytes)
  /-- Whether all endpoints started. -/
  started : Bool
  wait : WaitPlan
  /-- `_OWPStopSendSessions`: accept value and number of sending sessions, or failure. -/
  stopSend : Option (Accept × U32)
  /-- `_OWPStopRecvSessions` succeeded. -/
  stopRecv : Bool
  /-- sessions and their files when the stop message is read and written -/
  tests : List (Sess ρ)
  file : RecvFile ρ
  onFetch : U32 × U32 × Bytes → FetchPlan

/-- What happened in one pass: the requests read completely and found authentic, whether some request
was refused or could not be read, the result code and the connection. -/
structure Pass where
  heard : List ReqType
  bad : Bool
  rc : Rc
  c : Conn

/-- `OWPProcessTestRequest` (sapi.c:593-795) and `OWPProcessTestRequestTW` (sapi.c:798-915). -/
def processTestRequest (H : Mac) (t : Turn ρ) (c : Conn) : Pass :=
  let ty := if c.twoway then ReqType.testTW else .test
  match readTestRequest H true t.remote t.localAddr c with
  | (none, acc, c) =>
    if acc = .invalid then ⟨[], true, .fatal, c⟩
    else if c.twoway then ⟨[], true, .warning, (writeAcceptSession H c acc 0 none).2⟩
    else ⟨[], true, .warning, c⟩
  | (some r, _, c) =>
    match t.onTest r with
    | none => ⟨[ty], false, .fatal, c⟩
    | some (acc, port, sid) =>
      match writeAcceptSession H c acc port sid with
      | (some _, c) => ⟨[ty], false, if acc = .accept then .ok else .warning, c⟩
      | (none, c) => ⟨[ty], false, if acc = .accept then .fatal else .warning, c⟩

/-- `OWPProcessFetchSession` (sapi.c:1031-1499). -/
def processFetchSession (H : Mac) (t : Turn ρ) (c : Conn) : Pass :=
  match readFetchSession H c with
  | (none, c) => ⟨[], true, .fatal, c.fail⟩
  | (some q, c) =>
    match t.onFetch q with
    | .fatal => ⟨[.fetchSession], false, .fatal, c.fail⟩
    | .refuse acc =>
      match writeFetchAck H c ⟨acc, 0, 0, 0, 0⟩ with
      | (none, c) => ⟨[.fetchSession], false, .fatal, c.fail⟩
      | (some _, c) => ⟨[.fetchSession], false, .warning, c⟩
    | .serve ack send =>
      match writeFetchAck H c ack with
      | (none, c) => ⟨[.fetchSession], false, .fatal, c.fail⟩
      | (some _, c) =>
        match send c with
        | (none, fatal, c) => ⟨[.fetchSession], false, if fatal then .fatal else .ok, c.fail⟩
        | (some _, _, c) =>
          ⟨[.fetchSession], false, .ok, c.setState { c.state with fetching := false, request := true }⟩

/-- `OWPStopSessions` on the server (api.c:1757-1877). Freeing the sessions is not shown. -/
def stopSessions (H : Mac) (t : Turn ρ) (c : Conn) : Pass :=
  match t.stopSend with
  | none => ⟨[], false, .fatal, c.fail⟩
  | some (acc, num) =>
    match writeStopSessions H c acc num t.tests with
    | (none, c, _) => ⟨[], false, .fatal, c.fail⟩
    | (some _, c, ts) =>
      match readRequestType c with
      | (.stopSessions, c) =>
        if ¬ t.stopRecv then ⟨[], true, .fatal, c.fail⟩ else
        match readStopSessions H t.file c ts with
        | (none, c, _) => ⟨[], true, .fatal, c.fail⟩
        | (some _, c, _) => ⟨[.stopSessions], false, .ok, c.setState { c.state with test := false }⟩
      | (_, c) => ⟨[], true, .fatal, c.fail⟩

/-- `OWPStopSessionsWait` on the server once something has happened (api.c:1879-2142). When the client
closed the connection `*err_ret` can be `OWPErrOK`. The accept value sent back is the client's, with which
`_OWPReadStopSessions` has replaced that of the local sessions (protocol.c:2297). -/
def stopSessionsWait (H : Mac) (t : Turn ρ) (c : Conn) : Pass :=
  match t.wait with
  | .ours => if c.twoway then ⟨[], false, .ok, c⟩ else stopSessions H t c
  | .failedTW => if c.twoway then ⟨[], false, .ok, c.setState { c.state with test := false }⟩ else stopSessions H t c
  | .pollError => ⟨[], false, .fatal, c⟩
  | .theirs =>
    match readRequestType c with
    | (.stopSessions, c) =>
      match t.stopSend with
      | none => ⟨[], true, .fatal, c.fail⟩
      | some (_, num) =>
        if ¬ t.stopRecv then ⟨[], true, .fatal, c.fail⟩ else
        match readStopSessions H t.file c t.tests with
        | (none, c, _) => ⟨[], true, .fatal, c.fail⟩
        | (some acc, c, ts) =>
          if c.twoway then ⟨[.stopSessions], false, .ok, c.setState { c.state with test := false }⟩ else
          match writeStopSessions H c acc num ts with
          | (none, c, _) => ⟨[.stopSessions], false, .fatal, c.fail⟩
          | (some _, c, _) => ⟨[.stopSessions], false, .ok, c.setState { c.state with test := false }⟩
    | (.sockClose, c) => ⟨[], true, .ok, c.fail⟩
    | (.sockIntr, c) => ⟨[], true, .ok, c.fail⟩
    | (_, c) => ⟨[], true, .fatal, c.fail⟩

/-- `OWPProcessStartSessions` (sapi.c:918-952), and what the loop does after it (owampd.c:738-795). -/
def processStartSessions (H : Mac) (t : Turn ρ) (c : Conn) : Pass :=
  match readStartSessions H c with
  | (none, c) => ⟨[], true, .fatal, c.fail⟩
  | (some _, c) =>
    if ¬ t.started then ⟨[.startSessions], false, .fatal, (writeStartAck H c .failure).2.fail⟩ else
    match writeStartAck H c .accept with
    | (none, c) => ⟨[.startSessions], false, .fatal, c.fail⟩
    | (some _, c) =>
      let p := stopSessionsWait H t c
      { p with heard := .startSessions :: p.heard }

/-- `OWPUnexpectedRequestType` (sapi.c:1502-1528). -/
def unexpectedRequestType (H : Mac) (c : Conn) : Pass :=
  if ¬ c.twoway then ⟨[], true, .fatal, c⟩ else
  let r := writeAcceptSession H (c.setState { c.state with acceptSession := true }) .unsupported 0 none
  ⟨[], true, if r.1.isSome then .ok else .fatal, r.2.setState .requestOnly⟩

/-- One pass of the loop (owampd.c:724-833). -/
def serveOnce (H : Mac) (t : Turn ρ) (c : Conn) : Pass :=
  match readRequestType c with
  | (.test, c) => if c.twoway then unexpectedRequestType H c else processTestRequest H t c
  | (.testTW, c) => if c.twoway then processTestRequest H t c else unexpectedRequestType H c
  | (.startSessions, c) => processStartSessions H t c
  | (.fetchSession, c) => if c.twoway then unexpectedRequestType H c else processFetchSession H t c
  | (.sockIntr, c) => ⟨[], true, .ok, c⟩
  | (.sockClose, c) => ⟨[], true, .fatal, c⟩
  | (.stopSessions, c) => unexpectedRequestType H c
  | (.invalid, c) => unexpectedRequestType H c

/-- The loop (owampd.c:710-840): it ends at an error below `OWPErrWARNING`. What each pass did. -/
def serve (H : Mac) : List (Turn ρ) → Conn → List Pass
  | [], _ => []
  | t :: ts, c =>
    let p := serveOnce H t c
    p :: if p.rc = .fatal then [] else serve H ts p.c

end Owamp.Ctl
