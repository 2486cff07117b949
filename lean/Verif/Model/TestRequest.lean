import Verif.Model.Server
/-!
# Model of how the server answers a test request (`owamp/sapi.c:593-915`)

The application's policy hook, the random source, the sockets and `I2SockAddrEqual` (I2util) are
parameters.
-/
namespace Owamp.Ctl

/-- A negative outcome of a step: an error below `OWPErrWARNING`, after which nothing is sent, or an
accept value to be sent. -/
inductive No where
  | fatal
  | refuse (acc : Accept)
deriving DecidableEq, Repr

/-- Environment of `OWPProcessTestRequest` and `OWPProcessTestRequestTW`. -/
structure TestEnv where
  remote : SockAddr
  localAddr : SockAddr
  /-- `_OWPCreateSID` (api.c:315-363) -/
  newSid : Option Bytes
  /-- `OWPScheduleContextCreate` succeeds -/
  schedOk : Bool
  /-- the hook `OWPCheckTestPolicy`: whether we send, local and remote address, specification. `refuse
  .reject` stands for `False` with `OWPErrOK`, `refuse .failure` for `False` with a warning. -/
  policy : Bool → SockAddr → SockAddr → TestSpec → Option No
  /-- both `getnameinfo` calls succeed (sapi.c:688-694) -/
  named : Bool
  /-- `I2SockAddrEqual(…, I2SADDR_ADDR)` -/
  sameAddr : SockAddr → SockAddr → Int
  /-- `_OWPEndpointInit` for the local address (endpoint.c:373-1089) -/
  endpoint : SockAddr → Option No
  /-- the port it bound -/
  port : U16
  /-- `_OWPEndpointInitHook` (endpoint.c:3782-4122) -/
  hook : Option No

/-- Outcome of the decision: refusal, or the port and SID to answer with and the address the new
endpoint will send test packets to, if it sends any (endpoint.c:3880-3887; a reflector answers to its
`remoteaddr`, endpoint.c:2638). -/
inductive Verdict where
  | no (n : No)
  | grant (port : U16) (sid : Bytes) (dest : Option SockAddr)
deriving DecidableEq, Repr

/-- Continue unless a step failed (`goto error`). -/
def Verdict.unless (n : Option No) (k : Verdict) : Verdict := n.elim k .no

/-- `OWPProcessTestRequest` (sapi.c:615-776) after the request is read. `cipher` is
`cntrl->mode & OWP_MODE_DOCIPHER_CNTRL`. -/
def answerTestOW (e : TestEnv) (cipher : Bool) (r : TestReq) : Verdict :=
  match (if r.confReceiver then e.newSid else some r.sid) with
  | none => .no (.refuse .failure)
  | some sid =>
    if ¬ e.schedOk then .no (.refuse .failure)
    else if r.confReceiver ∧ r.confSender then .no (.refuse .unsupported)
    else
      Verdict.unless (if r.confReceiver then e.policy false r.receiver r.sender r.spec else none) <|
      Verdict.unless (if r.confReceiver then e.endpoint r.receiver else none) <|
      Verdict.unless (if r.confSender ∧ ¬ cipher ∧ ¬ e.named then some .fatal else none) <|
      Verdict.unless
        (if r.confSender ∧ ¬ cipher ∧ e.sameAddr e.remote r.receiver ≤ 0 then some (.refuse .reject) else none) <|
      Verdict.unless (if r.confSender then e.policy true r.sender r.receiver r.spec else none) <|
      Verdict.unless (if r.confSender then e.endpoint r.sender else none) <|
      Verdict.unless (if r.confSender ∨ r.confReceiver then e.hook else none) <|
      .grant (if r.confSender ∨ r.confReceiver then e.port else 0#16) sid
        (if r.confSender then some r.receiver else none)

/-- `OWPProcessTestRequestTW` (sapi.c:824-892) after the request is read. -/
def answerTestTW (e : TestEnv) (r : TestReq) : Verdict :=
  match e.newSid with
  | none => .no (.refuse .failure)
  | some sid =>
    Verdict.unless (e.policy true r.receiver r.sender r.spec) <|
    Verdict.unless (e.endpoint r.receiver) <|
    Verdict.unless e.hook <|
    if e.port = 0 then .no (.refuse .failure) else .grant e.port sid (some r.sender)

def answerTest (e : TestEnv) (twoway cipher : Bool) (r : TestReq) : Verdict :=
  if twoway then answerTestTW e r else answerTestOW e cipher r

/-- What the verdict makes the server write. -/
def Verdict.reply : Verdict → Option (Accept × U16 × Option Bytes)
  | .no .fatal => none
  | .no (.refuse acc) => some (acc, 0, none)
  | .grant port sid _ => some (.accept, port, some sid)

/-- A test session on the server's list (sapi.c:770-773) and where its packets go. -/
structure Session where
  req : TestReq
  sid : Bytes
  dest : Option SockAddr
deriving DecidableEq, Repr

/-- `OWPProcessTestRequest` and `OWPProcessTestRequestTW` with the session they add: `processTestRequest`
with the decision filled in. The session is added only when the positive answer was written. -/
def processTest {ρ : Type} (H : Mac) (e : TestEnv) (t : Turn ρ) (c : Conn) : Pass × Option Session :=
  let t := { t with
    remote := e.remote, localAddr := e.localAddr,
    onTest := fun r => (answerTest e c.twoway c.cipher r).reply }
  (processTestRequest H t c,
    match readTestRequest H true t.remote t.localAddr c with
    | (none, _, _) => none
    | (some r, _, c') =>
      match answerTest e c.twoway c.cipher r with
      | .no _ => none
      | .grant port sid dest =>
        match writeAcceptSession H c' .accept port (some sid) with
        | (some _, _) => some ⟨r, sid, dest⟩
        | (none, _) => none)

end Owamp.Ctl
