import Verif.Model.TestRequest
/-!
# Model of how a client asks for a session: `OWPSessionRequest` (owamp/capi.c:905-1286)

The caller's addresses, the policy hook, the sockets and processes of the endpoint, the random source and the server are parameters. Not modelled: a NULL control
connection (used before it is checked, capi.c:947-950), failing allocations, `I2Addr` functions that fail.
-/
namespace Owamp.Ctl

/-- `OWPErrSeverity`, as far as it occurs here. -/
inductive Sev where
  | fatal
  | warning
  | ok
deriving DecidableEq, Repr

/-- A `struct addrinfo`. Its `ai_family` is that of the address. -/
structure Info where
  addr : SockAddr
  socktype : Nat
deriving DecidableEq, Repr

/-- `I2AddrPort` and `I2AddrSetPort` (I2util). -/
def SockAddr.port : SockAddr → U16
  | .v4 _ p => p
  | .v6 _ p _ => p
  | _ => 0

def SockAddr.setPort (p : U16) : SockAddr → SockAddr
  | .v4 a _ => .v4 a p
  | .v6 a _ s => .v6 a p s
  | x => x

/-- The loops over both lists for one family (capi.c:1019-1026, 1030-1037). -/
def pickFamily (f : Nat) : List Info → List Info → Option (Info × Info)
  | [], _ => none
  | r :: rs, ss =>
    if r.addr.family = f then
      match ss.find? (fun s => decide (r.addr.family = s.addr.family ∧ r.socktype = s.socktype)) with
      | some s => some (r, s)
      | none => pickFamily f rs ss
    else pickFamily f rs ss

/-- The choice of the addresses, receiver first (capi.c:1010-1046). -/
def pickPair (v4only v6only : Bool) (rs ss : List Info) : Option (Info × Info) :=
  match (if v4only then none else pickFamily 6 rs ss) with
  | some p => some p
  | none => if v6only then none else pickFamily 4 rs ss

/-- The arguments and the environment. `sender`, `receiver`: the addresses behind the caller's `I2Addr`, `none` for NULL; `newSid`: `_OWPCreateSID`; `sched`:
`OWPScheduleContextCreate` succeeds; `policy`: the hook `OWPCheckTestPolicy` (whether we send, local address, remote address), its denial with the value of `*err_ret`;
`endpoint`: `_OWPEndpointInit` for the local address, the port it bound or failure; `hook`: `_OWPEndpointInitHook` for the local and the remote address; `peer`: what the server does between our
request and our reading of its answer. -/
structure ClientEnv where
  sender : Option (List Info)
  receiver : Option (List Info)
  localAddr : SockAddr
  confSender : Bool
  confReceiver : Bool
  zeroAddr : Bool
  spec : TestSpec
  v4only : Bool
  v6only : Bool
  newSid : Option Bytes
  sched : Bytes → Bool
  policy : Bool → SockAddr → SockAddr → Option Sev
  endpoint : SockAddr → Except Sev U16
  hook : SockAddr → SockAddr → Option Sev
  peer : Conn → Conn

/-- A session on the client's list. `sends`: the local endpoint sends; `none`: there is no local endpoint. -/
structure Mine where
  sid : Bytes
  sender : SockAddr
  receiver : SockAddr
  spec : TestSpec
  sends : Option Bool
deriving DecidableEq, Repr

/-- The outcome: the return value, `*err_ret`, `sid_ret`, the sessions of the connection, the connection. -/
structure Called where
  ret : Bool
  err : Sev
  sid : Option Bytes
  tests : List Mine
  c : Conn

/-- `goto error` (capi.c:1246-1285): the session is freed. -/
def refuse (tests : List Mine) (err : Sev) (c : Conn) : Called := ⟨false, err, none, tests, c⟩

/-- capi.c:1233-1244. -/
def keep (tests : List Mine) (s : Mine) (c : Conn) : Called := ⟨true, .ok, some s.sid, s :: tests, c⟩

/-- `_OWPClientRequestTestReadResponse` (capi.c:803-885): the two addresses and the SID afterwards, or nothing and `*err_ret`. -/
def askServer (H : Mac) (e : ClientEnv) (cs cr : Bool) (snd rcv : SockAddr) (sid : Bytes) (c : Conn) : Except Sev (SockAddr × SockAddr × Bytes) × Conn :=
  let tw := c.twoway
  let rcv := if tw && rcv.port = 0 then rcv.setPort snd.port else rcv
  match writeTestRequest H c ⟨snd, rcv, cs, cr, e.zeroAddr, if tw then none else some sid, e.spec⟩ with
  | (none, c) => (.error .fatal, c)
  | (some _, c) =>
    match readAcceptSession H (e.peer c) with
    | (none, c) => (.error .fatal, c)
    | (some (acc, port, answer), c) =>
      let sid := if tw || cr then answer else sid
      let x := if cs && !cr then (snd.setPort port, rcv) else if tw || (!cs && cr) then (snd, rcv.setPort port) else (snd, rcv)
      if acc = .accept then (.ok (x.1, x.2, sid), c) else (.error .ok, c)

/-- The server receives, or reflects (capi.c:1090-1168). -/
def requestRemote (H : Mac) (e : ClientEnv) (tests : List Mine) (snd rcv : SockAddr) (c : Conn) : Called :=
  match (if e.confSender then .ok snd else (e.endpoint snd).map fun p => snd.setPort p) with
  | .error x => refuse tests x c
  | .ok snd =>
    match askServer H e (!c.twoway && e.confSender) (!c.twoway && e.confReceiver) snd rcv (zeros 16) c with
    | (.error x, c) => refuse tests x c
    | (.ok (snd, rcv, sid), c) =>
      if !e.sched sid then refuse tests .ok c
      else if e.confSender then keep tests ⟨sid, snd, rcv, e.spec, none⟩ c
      else
        match e.policy true snd rcv with
        | some x => refuse tests x c
        | none =>
          match e.hook snd rcv with
          | some x => refuse tests x c
          | none => keep tests ⟨sid, snd, rcv, e.spec, some true⟩ c

/-- We receive (capi.c:1169-1231). -/
def requestLocal (H : Mac) (e : ClientEnv) (tests : List Mine) (snd rcv : SockAddr) (c : Conn) : Called :=
  match e.newSid with
  | none => refuse tests .ok c
  | some sid =>
    if !e.sched sid then refuse tests .ok c
    else
      match e.policy false rcv snd with
      | some x => refuse tests x c
      | none =>
        match e.endpoint rcv with
        | .error x => refuse tests x c
        | .ok p =>
          let rcv := rcv.setPort p
          if !e.confSender then refuse tests .ok c
          else
            match askServer H e e.confSender e.confReceiver snd rcv sid c with
            | (.error x, c) => refuse tests x c
            | (.ok (snd, rcv, sid), c) =>
              match e.hook rcv snd with
              | some x => refuse tests x c
              | none => keep tests ⟨sid, snd, rcv, e.spec, some false⟩ c

/-- An address of the caller's, or our own end of the control connection unless the server is to provide it (capi.c:965-1000); 2 is `SOCK_DGRAM`. The ports are set to 0. -/
def given (a : Option (List Info)) (conf : Bool) (own : SockAddr) : Option (List Info) :=
  match a with
  | some l => some (l.map fun i => ⟨i.addr.setPort 0, 2⟩)
  | none => if conf then none else some [⟨own.setPort 0, 2⟩]

/-- `OWPSessionRequest` (capi.c:905-1286). -/
def sessionRequest (H : Mac) (e : ClientEnv) (tests : List Mine) (c : Conn) : Called :=
  if !c.state.request then refuse tests .fatal c
  else
    match given e.receiver e.confReceiver e.localAddr, given e.sender e.confSender e.localAddr with
    | some rs, some ss =>
      match pickPair e.v4only e.v6only rs ss with
      | none => refuse tests .warning c
      | some (r, s) =>
        if c.twoway || e.confReceiver then requestRemote H e tests s.addr r.addr c
        else requestLocal H e tests s.addr r.addr c
    | _, _ => refuse tests .ok c

end Owamp.Ctl
