import Verif.Model.Fetch
import Verif.Spec.DataFile
import Verif.Spec.Channel
import Verif.Spec.Request
import Verif.Props.Records
/-!
# What a fetch is to deliver
-/
namespace Owamp.Spec.Fetch
open Owamp.Codec Owamp.Ctl Owamp.File Owamp.Spec.DataFile Owamp.Spec.Channel Owamp.Fetch

/-- The records with a sequence number in the range, in order. -/
def inRange (first last : U32) (rs : List DataRec) : List DataRec :=
  rs.filter fun r => decide (first.toNat ≤ r.seq.toNat ∧ r.seq.toNat ≤ last.toNat)

/-- The greatest sequence number of a packet that arrived, 0 if none did. -/
def lastArrived (rs : List DataRec) : Nat :=
  ((rs.filter fun r => decide (r.recv.owptime ≠ 0)).map fun r => r.seq.toNat).foldl max 0

/-- The last sequence number that is sent of a session: of one that is not finished nothing is sent beyond the last
packet that arrived. -/
def lastSent (fin : Bool) (last : U32) (rs : List DataRec) : U32 :=
  if fin then last else BitVec.ofNat 32 (min last.toNat (lastArrived rs))

/-- `f` is the file of a session on the server: header, records and skip ranges as `C34_finished` leaves them when the
session was stopped normally (`fin`), or the file of a session that is not finished, whose header does not yet
count the records and which may end in a part of a record, or whose records have been counted. -/
structure Stored (f : Bytes) (h : HdrIn) (fin : Bool) (next : U32) (skips : List Skip) (rs : List DataRec) : Prop where
  header : Storable h
  oneway : h.twoway = false
  records : ∀ r ∈ rs, Props.Stamp r.send ∧ Props.Stamp r.recv
  nrecs : rs.length < 2 ^ 32
  nskips : skips.length < 2 ^ 32
  file : ∃ (nd : U32) (os : U64) (tail : Bytes),
    f = fixedLayout 3 (if fin then 1 else 2) next (BitVec.ofNat 32 skips.length) nd os
          (BitVec.ofNat 64 (headerEnd h.spec.slots.length)) ++ requestPart h.args h.sid
        ++ (rs.map Props.recLayout).flatten ++ tail ∧
    (fin = true → nd.toNat = rs.length ∧ tail = (skips.map encodeSkip).flatten ∧
      os.toNat = headerEnd h.spec.slots.length + 25 * rs.length) ∧
    (fin = false → skips = [] ∧ os = 0 ∧ (nd = 0 ∧ tail.length < 25 ∨ nd ≠ 0 ∧ nd.toNat = rs.length))

/-- The server `A` and the client `B` at the ends of a control connection on which a request may be sent. -/
structure Peers (A B : Conn) : Prop where
  readyA : Ready A
  readyB : Ready B
  linked : Linked B A
  requestA : A.state.request = true
  idleA : A.state.isReading = false
  testA : A.state.test = false
  onewayA : A.twoway = false
  requestB : B.state.request = true
  testB : B.state.test = false
  onewayB : B.twoway = false

/-- The request as it travels. -/
def request (H : Mac) (B : Conn) (first last : U32) (sid : Bytes) : Bytes :=
  sealed B (fetchLayout first last sid ++ tag H B (fetchLayout first last sid))

/-- `OWPFetchSession` on `B` against a server that has read a request type and runs `OWPProcessFetchSession` on `A`: the
server answers with 16 * `blocks` bytes and the client returns `result`; each has then read just what the other
wrote, and the next request may be sent. -/
def Conversation (H : Mac) (E : Env) (remote loc : SockAddr) (junk : Bytes) (first last : U32) (sid : Bytes) (A B : Conn)
    (blocks : Nat) (result : Result) : Prop :=
  ∀ restA, A.inp = request H B first last sid ++ restA →
    ∃ A' resp, afterType .fetchSession (serve H E) A = (some (), A') ∧ resp.length = 16 * blocks ∧
      A'.out = A.out ++ resp ∧ A'.inp = restA ∧
      ∀ restB, B.inp = resp ++ restB →
        ∃ B', fetch H remote loc junk first last sid B = (result, B') ∧ B'.out = B.out ++ request H B first last sid ∧
          B'.inp = restB ∧ Peers A' B'

/-- The server grants the fetch of `f`: the policy allows it, the file can be opened and locked, and nobody writes to
it meanwhile. -/
structure Grants (E : Env) (first last : U32) (sid f : Bytes) : Prop where
  policy : E.policy first last sid = some true
  opens : E.opens sid = true
  file : ∀ n, E.file n = f
  lock : ∀ n, E.lock n = .got

end Owamp.Spec.Fetch
