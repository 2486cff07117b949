import Verif.Model.PowFetch
import Verif.Spec.Fetch
/-!
# What many fetches over one connection are to deliver
-/
namespace Owamp.Spec.PowFetch
open Owamp.Ctl Owamp.Codec Owamp.File Owamp.Spec.DataFile Owamp.Spec.Fetch Owamp.Spec.Channel Owamp.Fetch Owamp.PowFetch

/-- A connection on which a request may be sent and nothing is under way. -/
def Idle (A B : Conn) : Prop := Peers A B ∧ A.inp = [] ∧ B.inp = []

/-- Over any connection on which a request may be sent, the request of `k` is answered, with a result such that `P`. -/
def Answers (H : Mac) (k : Call) (P : Result → Prop) : Prop :=
  ∀ A B, Peers A B → ∃ blocks res,
    Conversation H k.env k.remote k.loc k.junk k.first k.last k.sid A B blocks res ∧ P res

/-- What a call may meet: a connection that is opened is fresh, and the server answers in some way (grants, refuses); all of the
answer or a part of it reaches the client. -/
structure Sound (H : Mac) (k : Call) : Prop where
  sid : k.sid.length = 16
  fresh : ∀ A B, k.conn = some (A, B) → Idle A B
  answered : Answers H k fun _ => True

/-- The server can be reached, the connection lasts, and no signal comes. -/
structure Reachable (k : Call) : Prop where
  opens : k.conn ≠ none
  quiet : k.signal = false
  whole : k.cut = none

/-- What the user is given for a result: 0 unless records were fetched. -/
def given : Result → Ret
  | .fetched n file => if n = 0 then none else some (n, file)
  | _ => none

/-- The records in the file of a call that did not return 0. -/
def recordsOf : Ret → List DataRec
  | some (_, file) => recordsSeen file
  | none => []

/-- `k` asks for a part of the finished session with the records `rs`, whose file the server has and gives. -/
structure AsksFor (k : Call) (rs : List DataRec) : Prop where
  sid : k.sid.length = 16
  junk : k.junk.length = 112
  stored : ∃ f h next skips, Stored f h true next skips rs ∧ Grants k.env k.first k.last k.sid f ∧ 8 * skips.length < 2 ^ 32 ∧
    Spec.Request.scopeKnown k.remote false h.sender ∧ Spec.Request.scopeKnown k.remote false h.receiver
  fresh : ∀ A B, k.conn = some (A, B) → Idle A B

end Owamp.Spec.PowFetch
