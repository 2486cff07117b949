import Verif.Model.Server
import Verif.Model.Client
import Verif.Model.Accept
import Verif.Spec.Channel
/-!
# What is to hold of the reading of messages that arrive in part
-/
namespace Owamp.Spec.Whole
open Owamp.Ctl Owamp.Codec

/-- Whatever message the reader `R` accepts, it accepts no part of it: if all of the input `x` is read for a message, then
nothing is accepted when the connection ends after less of `x`. -/
def NeedsAll {β : Type} (R : Conn → Option β × Conn) : Prop :=
  ∀ (c c' : Conn) (x : Bytes) (v : β), R { c with inp := x } = (some v, c') → c'.inp = [] →
    ∀ n, n < x.length → (R { c with inp := x.take n }).1 = none

/-- A message is the same whatever follows it, and what follows it stays for the next reader. -/
def LeavesRest {β : Type} (R : Conn → Option β × Conn) : Prop :=
  ∀ (c c' : Conn) (x y : Bytes) (v : β), R { c with inp := x } = (some v, c') →
    R { c with inp := x ++ y } = (some v, { c' with inp := c'.inp ++ y })

/-- `_OWPReadTestRequest` as a reader: the session asked for, and the accept value it leaves. -/
def testRequest (H : Mac) (server : Bool) (remote loc : SockAddr) (c : Conn) : Option (TestReq × Accept) × Conn :=
  match readTestRequest H server remote loc c with
  | (r, acc, c) => (r.map (·, acc), c)

/-- `_OWPReadStopSessions` as a reader: what the message says, and the test sessions as it leaves them. -/
def stopMessage {ρ : Type} (H : Mac) (F : RecvFile ρ) (tests : List (Sess ρ)) (c : Conn) : Option (Accept × List (Sess ρ)) × Conn :=
  ((readStopSessions H F c tests).1.map fun a => (a, (readStopSessions H F c tests).2.2), (readStopSessions H F c tests).2.1)

/-- A call of a client that succeeds or not, as a reader of what the server sends during it. -/
def succeeds (r : Conn → Bool × Conn) (c : Conn) : Option Unit × Conn := (if (r c).1 then some () else none, (r c).2)

/-- `x` is one whole request to the server `B`: a test request, a request to start the sessions or a request for the
records of a session, and it ends where `x` ends. -/
def WholeRequest {ρ : Type} (H : Mac) (t : Turn ρ) (B : Conn) (x : Bytes) : Prop :=
  (∃ v B', Channel.afterType (if B.twoway then .testTW else .test) (testRequest H true t.remote t.localAddr) { B with inp := x } = (some v, B') ∧ B'.inp = []) ∨
  (∃ v B', Channel.afterType .startSessions (readStartSessions H) { B with inp := x } = (some v, B') ∧ B'.inp = []) ∨
  (∃ v B', Channel.afterType .fetchSession (readFetchSession H) { B with inp := x } = (some v, B') ∧ B'.inp = [])

/-- The answering of a fetch reads nothing from the client: it is the same whatever the client sends after its request. -/
def Silent {ρ : Type} (t : Turn ρ) : Prop :=
  ∀ f ack send, t.onFetch f = .serve ack send → ∀ (c : Conn) (y : Bytes),
    send { c with inp := c.inp ++ y } = ((send c).1, (send c).2.1, { (send c).2.2 with inp := (send c).2.2.inp ++ y })

end Owamp.Spec.Whole
