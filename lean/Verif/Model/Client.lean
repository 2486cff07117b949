import Verif.Model.Request
import Verif.Model.Fetch
/-!
# Model of the client's calls on a control connection

`owamp/capi.c` (`OWPSessionRequest`, `OWPStartSessions`, `OWPFetchSession`) and `owamp/api.c` (`OWPStopSessions`, `OWPStopSessionsWait`) as far as the control connection is concerned, one
after the other on one connection. `c.inp` is all that the server will ever send. What endpoints, files and sessions do enters as parameters.
-/
namespace Owamp.Client
open Owamp.Ctl

variable {ρ : Type}

/-- What the sessions do when they are stopped: `_OWPStopSendSessions` (accept value and number of sending sessions, or failure); `_OWPStopRecvSessions` succeeds; `_OWPTestSessionFree`
succeeds for all; the sessions and their files. -/
structure Ends (ρ : Type) where
  stopSend : Option (Accept × U32)
  stopRecv : Bool
  freed : Bool
  tests : List (Sess ρ)
  file : RecvFile ρ

/-- `OWPStartSessions` (capi.c:1303-1374): `rcv` and `snd` say that the local receivers and senders start. Whether the call succeeds. -/
def start (H : Mac) (rcv snd : Bool) (c : Conn) : Bool × Conn :=
  match writeStartSessions H c with
  | (none, c) => (false, c.fail)
  | (some _, c) =>
    if !rcv then (false, c.fail)
    else
      match readStartAck H c with
      | (some .accept, c) => if snd then (true, c) else (false, c.fail)
      | (_, c) => (false, c.fail)

/-- `OWPStopSessions` (api.c:1757-1877) on the client. Without the other side's message (`readstop` false), which is always so on a two-way connection, it ends in
`_OWPFailControlSession`. -/
def stop (H : Mac) (t : Ends ρ) (c : Conn) : Bool × Conn :=
  match t.stopSend with
  | none => (false, c.fail)
  | some (acc, num) =>
    match writeStopSessions H c acc num t.tests with
    | (none, c, _) => (false, c.fail)
    | (some _, c, ts) =>
      if c.twoway then (false, c.fail)
      else
        match readRequestType c with
        | (.stopSessions, c) =>
          if !t.stopRecv then (false, c.fail)
          else
            match readStopSessions H t.file c ts with
            | (none, c, _) => (false, c.fail)
            | (some _, c, _) => if t.freed then (true, c.setState { c.state with test := false }) else (false, c.fail)
        | (_, c) => (false, c.fail)

/-- What `OWPStopSessionsWait` meets: the sessions are over or one failed; a signal, the time to wake up or a broken clock; `poll` fails; `poll` says nothing about the socket; the server
has sent something. -/
inductive Event where
  | over
  | later
  | pollError
  | unready
  | message

/-- The result of a call: success; nothing done or refused by the server, the connection being as it was; failure. -/
inductive Res where
  | ok
  | kept
  | failed
deriving DecidableEq, Repr

/-- `OWPStopSessionsWait` (api.c:1879-2142) on the client. `later` is its return values 1 and 2, and -1 without an error when the clock fails. -/
def wait (H : Mac) (ev : Event) (t : Ends ρ) (c : Conn) : Res × Conn :=
  match ev with
  | .over => let r := stop H t c; (if r.1 then .ok else .failed, r.2)
  | .later => (.kept, c)
  | .pollError => (.failed, c)
  | .unready => (.failed, c.fail)
  | .message =>
    match readRequestType c with
    | (.stopSessions, c) =>
      if c.twoway then (.failed, c.fail)
      else
        match t.stopSend with
        | none => (.failed, c.fail)
        | some (_, num) =>
          if !t.stopRecv then (.failed, c.fail)
          else
            match readStopSessions H t.file c t.tests with
            | (none, c, _) => (.failed, c.fail)
            | (some acc, c, ts) =>
              match writeStopSessions H c acc num ts with
              | (none, c, _) => (.failed, c.fail)
              | (some _, c, _) => if t.freed then (.ok, c.setState { c.state with test := false }) else (.failed, c.fail)
    | (_, c) => (.failed, c.fail)

/-- A call of the library by a program, with what the rest of the program and the system contribute. `mine` are the sessions there are. -/
inductive Call (ρ : Type) where
  | ask (mine : List Mine) (e : ClientEnv)
  | start (rcv snd : Bool)
  | stop (t : Ends ρ)
  | wait (ev : Event) (t : Ends ρ)
  | fetch (remote loc : SockAddr) (junk : Bytes) (first last : U32) (sid : Bytes)

/-- The result of `OWPSessionRequest` in these terms: true, false without a fatal error, false with one. -/
def asked (r : Called) : Res := if r.ret then .ok else if r.err = .fatal then .failed else .kept

/-- The result of `OWPFetchSession` in these terms. -/
def fetched : Fetch.Result → Res
  | .failed => .failed
  | .refused => .kept
  | .fetched _ _ => .ok

/-- A call (capi.c:905-1286, 1303-1374, 1433-1688, api.c:1757-2142). -/
def act (H : Mac) (k : Call ρ) (c : Conn) : Res × Conn :=
  match k with
  | .ask mine e => let r := sessionRequest H e mine c; (asked r, r.c)
  | .start rcv snd => let r := start H rcv snd c; (if r.1 then .ok else .failed, r.2)
  | .stop t => let r := stop H t c; (if r.1 then .ok else .failed, r.2)
  | .wait ev t => wait H ev t c
  | .fetch remote loc junk first last sid => let r := Fetch.fetch H remote loc junk first last sid c; (fetched r.1, r.2)

end Owamp.Client
