/-!
# Whose turn it is on a control connection (RFC 4656, section 3)

Seen from the client, from what goes over the wire and from what its calls return.
-/
namespace Owamp.Spec.Turns

/-- What a call is about: asking for a session, starting the sessions, stopping them, fetching results. -/
inductive Kind where
  | ask
  | start
  | stop
  | fetch
deriving DecidableEq, Repr

/-- How a call ended: with success; with nothing changed, or refused by the server; with failure. -/
inductive End where
  | ok
  | kept
  | failed
deriving DecidableEq, Repr

/-- No sessions run; sessions run; an exchange broke off, so that the two sides may no longer understand each other. -/
inductive Phase where
  | idle
  | running
  | over
deriving DecidableEq, Repr

/-- The messages that the protocol allows the client. -/
def permits : Phase → Kind → Bool
  | .idle, .ask => true
  | .idle, .start => true
  | .idle, .fetch => true
  | .running, .stop => true
  | _, _ => false

/-- A call: what it was about, how it ended, whether it sent anything, whether it sent or received anything. -/
structure Step where
  kind : Kind
  result : End
  spoke : Bool
  moved : Bool
deriving DecidableEq, Repr

/-- The phase after a call. A failure counts when part of an exchange took place. -/
def next (p : Phase) (s : Step) : Phase :=
  match p, s.kind, s.result with
  | .over, _, _ => .over
  | _, .start, .ok => .running
  | _, .stop, .ok => .idle
  | p, _, .failed => if s.moved then .over else p
  | p, _, _ => p

end Owamp.Spec.Turns
