import Verif.Spec.Request
import Verif.Model.Request
/-!
# What asking for a session is to achieve

The records `Mine` (the client's session), `Session` (the server's), `Info` and `ClientEnv` come from the model; everything else is defined here.
-/
namespace Owamp.Spec.Asking
open Owamp.Ctl Owamp.Spec.Request Owamp.Spec.Channel

/-- An IPv4 address: 4, an IPv6 address: 6. -/
def kind : SockAddr → Nat
  | .v4 .. => 4
  | .v6 .. => 6
  | _ => 0

/-- The port number. -/
def portOf : SockAddr → U16
  | .v4 _ p => p
  | .v6 _ p _ => p
  | _ => 0

/-- The address with another port. -/
def withPort (p : U16) : SockAddr → SockAddr
  | .v4 a _ => .v4 a p
  | .v6 a _ s => .v6 a p s
  | x => x

/-- The same address, whatever the port. -/
def SameHost : SockAddr → SockAddr → Prop
  | .v4 a _, .v4 b _ => a = b
  | .v6 a _ s, .v6 b _ t => a = b ∧ s = t
  | _, _ => False

instance (x y : SockAddr) : Decidable (SameHost x y) := by cases x <;> cases y <;> unfold SameHost <;> infer_instance

/-- The addresses that a caller names: theirs, or else the local end of the control connection. -/
def offered (own : SockAddr) (x : Option (List Info)) : List SockAddr := (x.map (·.map (·.addr))).getD [own]

/-- A receiver's and a sender's address can be used together. -/
def Fit (v4only v6only : Bool) (r s : SockAddr) : Prop :=
  kind r = kind s ∧ (kind r = 6 ∧ v4only = false ∨ kind r = 4 ∧ v6only = false)

/-- What client and server hold after a successful request agrees. `port`: the port of the server's socket.

* the same session identifier and the same specification (the server of a two-way test is not told the schedule);
* exactly one side sends and the other receives, or the client sends and the server reflects;
* the server knows the client's end with its port, and the client knows the port of the server's end. -/
structure Agree (twoway zero : Bool) (remote own : SockAddr) (port : U16) (m : Mine) (s : Session) : Prop where
  sid : m.sid = s.sid
  spec : s.req.spec = if twoway then { m.spec with npackets := 0, slots := [] } else m.spec
  roles : (m.sends = some true ∧ s.req.confSender = false ∧ s.req.confReceiver = !twoway)
    ∨ (m.sends = some false ∧ twoway = false ∧ s.req.confSender = true ∧ s.req.confReceiver = false)
  clientEnd : (m.sends = some true → s.req.sender = if twoway then filledIn remote (seen remote zero false m.sender) else seen remote zero false m.sender)
    ∧ (m.sends = some false → s.req.receiver = seen remote zero false m.receiver)
  serverEnd : (m.sends = some true → portOf m.receiver = port) ∧ (m.sends = some false → portOf m.sender = port)
  packets : s.dest = if m.sends = some true ∧ twoway = false then none else some (if twoway then s.req.sender else s.req.receiver)
  serverAddr : (m.sends = some true → ∃ p, s.req.receiver = if twoway then filledIn own (seen remote zero false (withPort p m.receiver)) else seen remote zero true m.receiver)
    ∧ (m.sends = some false → s.req.sender = seen remote zero true m.sender)

/-- One turn of a server that waits for a request: it reads the type, then serves the test request (owampd.c:870-905). -/
def serverTurn {ρ : Type} (H : Mac) (env : TestEnv) (t : Turn ρ) (B : Conn) : Pass × Option Session :=
  match readRequestType B with
  | (ty, B') =>
    if ty = (if B.twoway then .testTW else .test) then processTest H env t B' else (⟨[], true, .fatal, B'⟩, none)

/-- The bytes that `A` has become longer by, at `B`. -/
def fed (A A' B : Conn) : Conn := { B with inp := B.inp ++ A'.out.drop A.out.length }

/-- The server `B` answers what the client has written since `A`. -/
def servedBy {ρ : Type} (H : Mac) (env : TestEnv) (t : Turn ρ) (A B A' : Conn) : Conn :=
  { A' with inp := A'.inp ++ (serverTurn H env t (fed A A' B)).1.c.out.drop B.out.length }

/-- What the two ends are after a question and its answer. -/
structure Quiet (A B : Conn) : Prop where
  ready : Ready A ∧ Ready B
  linked : Linked A B
  empty : A.inp = [] ∧ B.inp = []

/-- The server's steps do not refuse with "accepted" or with a value that is no answer. -/
structure Proper (env : TestEnv) : Prop where
  policy : ∀ b x y sp acc, env.policy b x y sp = some (.refuse acc) → acc ≠ .accept ∧ acc ≠ .invalid
  endpoint : ∀ x acc, env.endpoint x = some (.refuse acc) → acc ≠ .accept ∧ acc ≠ .invalid
  hook : ∀ acc, env.hook = some (.refuse acc) → acc ≠ .accept ∧ acc ≠ .invalid

/-- Another request can follow on both sides. -/
def Idle (A B : Conn) : Prop :=
  A.state.request = true ∧ A.state.isPending = false ∧ B.state.request = true ∧ B.state.isReading = false ∧ B.state.test = false

/-- A client `A` with arguments and environment `e` asks a server `B` with environment `env`, over a connection that works and on which nothing is under way. Exactly one
end is the server's; no address is left out at the server's end; link-local addresses are those of the control connection; a one-way session has packets and slots. -/
structure Meeting {ρ : Type} (H : Mac) (env : TestEnv) (t : Turn ρ) (e : ClientEnv) (A B : Conn) : Prop where
  quiet : Quiet A B
  idle : Idle A B
  peer : e.peer = servedBy H env t A B
  twoway : A.twoway = B.twoway
  use : if A.twoway then e.confSender = false else e.confSender = !e.confReceiver
  named : (e.sender = none → e.confSender = false) ∧ (e.receiver = none → e.confReceiver = false)
  sids : (∀ s, e.newSid = some s → s.length = 16) ∧ (∀ s, env.newSid = some s → s.length = 16)
  spec : A.twoway = false → e.spec.npackets ≠ 0 ∧ e.spec.slots ≠ [] ∧ e.spec.slots.length < 2 ^ 32 ∧ ∀ s ∈ e.spec.slots, Known s
  scopes : ∀ a ∈ offered e.localAddr e.sender ++ offered e.localAddr e.receiver, scopeKnown env.remote e.zeroAddr a
  proper : Proper env

/-- A step of the client's own, after the server has agreed, failed and left `err`. -/
def OwnFailure (e : ClientEnv) (sid : Bytes) (err : Sev) : Prop :=
  (e.sched sid = false ∧ err = .ok) ∨ (∃ x y, e.policy true x y = some err) ∨ (∃ x y, e.hook x y = some err)

/-- A session on the client's list is one that the caller asked for and that the client's own policy allows: both its ends are at addresses the caller named, or the client's own; the client takes part in
it as the caller said, through an endpoint that could be set up, for this local and this remote end; the policy was asked about these ends and this direction and did not object. -/
structure Wanted (e : ClientEnv) (twoway : Bool) (m : Mine) : Prop where
  sender : ∃ a ∈ offered e.localAddr e.sender, SameHost a m.sender
  receiver : ∃ a ∈ offered e.localAddr e.receiver, SameHost a m.receiver
  family : Fit e.v4only e.v6only m.receiver m.sender
  sched : ∃ sid, e.sched sid = true ∧ (m.sends ≠ some false → sid = m.sid)
  neither : m.sends = none → e.confSender = true ∧ (twoway = true ∨ e.confReceiver = true)
  sends : m.sends = some true → e.confSender = false ∧ (twoway = true ∨ e.confReceiver = true) ∧ e.policy true m.sender m.receiver = none ∧ e.hook m.sender m.receiver = none
  receives : m.sends = some false → twoway = false ∧ e.confSender = true ∧ e.confReceiver = false ∧ e.hook m.receiver m.sender = none ∧
    ∃ r s, SameHost r m.receiver ∧ SameHost s m.sender ∧ e.policy false r s = none

end Owamp.Spec.Asking
