import Verif.Model.Accept
import Verif.Model.Broker
import Verif.Model.Classes
import Verif.Model.TestPolicy
/-!
# Model of the hooks with which the process of a connection settles and uses its class (owampd/policy.c)

The process and the daemon have a copy each of the classes (`fork`), and know the class of the connection each on its own: the
process in the configuration of its control structure, the daemon in its record of the process.
-/
namespace Owamp.Policy
open Owamp.Ctl

/-- A connection between its process and the daemon. -/
structure Door where
  /-- `OWPDPOLICY_NODE` in the control structure of the process, if set. -/
  mine : Option Nat
  /-- `cstate->node` of the daemon. -/
  theirs : Option Nat
  /-- The daemon's classes. -/
  tree : Tree
  /-- What the daemon has written and the process has not read. -/
  inbox : Bytes
  /-- The daemon has sent the process `SIGTERM`. -/
  killed : Bool
deriving DecidableEq, Repr

/-- What may go wrong: how many bytes can be written to the daemon before an error or a signal, whether the wait for the answer
ends with an error or a signal, whether there is memory to save the class. -/
structure Luck where
  written : Nat
  intr : Bool
  saved : Bool
deriving DecidableEq, Repr

/-- The daemon looks at what the process has sent (`checkFd`). -/
def Door.hear (claimOver : U64 → U64 → Bool) (big : Bool) (d : Door) (s : Source) : Door :=
  let r := checkFd claimOver big d.tree d.theirs s
  { d with theirs := r.node, tree := r.tree, inbox := d.inbox ++ r.out, killed := d.killed || r.kill }

/-- `OWPDReadResponse` (policy.c:1873-1891), or its failure because of a signal. -/
def Door.answer (big : Bool) (d : Door) (intr : Bool) : U32 × Door :=
  if intr then (mesgInvalid, d)
  else
    match readResponse big ⟨d.inbox, false⟩ with
    | (m, some rest) => (m, { d with inbox := rest.data })
    | (m, none) => (m, { d with inbox := [] })

/-- `OWPDSendClass` (policy.c:2016-2046) for a class of that name; `none` if the name is too long for the buffer. If the message
cannot be written as a whole, what was written is all the daemon gets before the process ends. -/
def sendClass (claimOver : U64 → U64 → Bool) (big : Bool) (w : Luck) (name : Bytes) (d : Door) : Option (U32 × Door) :=
  match classFrame big name with
  | none => none
  | some f =>
    if w.written < f.length then some (mesgInvalid, d.hear claimOver big ⟨f.take w.written, true⟩)
    else some ((d.hear claimOver big ⟨f, false⟩).answer big w.intr)

/-- `OWPDCheckControlPolicy` (policy.c:2179-2260) of a daemon whose policy is `P`, for a mode, the user field (in the modes with
authentication) and the address of the client: what it answers, and the connection afterwards. `none` if memory is misused. -/
def checkControl (claimOver : U64 → U64 → Bool) (big : Bool) (P : Policy) (w : Luck) (mode : U32) (userid : Option Bytes)
    (sa : SockAddr) (d : Door) : Option (Ask × Door) :=
  match controlClass P (cipherMode mode) userid sa with
  | none => some (.error, d)
  | some c =>
    match P.nodes[c]? with
    | none => none
    | some n =>
      match sendClass claimOver big w n.name d with
      | none => none
      | some (m, d) =>
        if m = mesgOk then
          if w.saved then some (.yes, { d with mine := some c }) else some (.error, d)
        else some (if m = mesgDenied then .no else .error, d)

/-- The hook as `OWPControlAccept` sees it. -/
def controlHook (claimOver : U64 → U64 → Bool) (big : Bool) (P : Policy) (w : Luck) (sa : SockAddr) (d : Door) (mode : U32)
    (userid : Option Bytes) : Ask :=
  match checkControl claimOver big P w mode userid sa d with
  | some (a, _) => a
  | none => .error

/-- `OWPDQuery` (policy.c:2098-2123): the daemon answers for the class it knows. -/
def Door.query (claimOver : U64 → U64 → Bool) (big : Bool) (d : Door) (q l : U32) (v : U64) (intr : Bool) : U32 × Door :=
  (d.hear claimOver big ⟨queryFrame big q l v, false⟩).answer big intr

/-- `OWPDCheckTestPolicy` (policy.c:2317-2415) from the class on: without one it fails. -/
def testHook (claimOver : U64 → U64 → Bool) (A : Answers) (mine : Tree) (log : List Asked) (d : Door) (twoway sender : Bool)
    (bandwidth space : U64) : Check × Tree × List Asked :=
  match d.mine with
  | none => (.fatal, mine, log)
  | some c => checkTest claimOver A mine log c twoway sender bandwidth space

/-- `OWPDInfoFetchRec` (policy.c:2301-2307) without `finfo`. -/
structure FetchInfo where
  node : Nat
  first : U32
  last : U32
deriving DecidableEq, Repr

/-- `OWPDCheckFetchPolicy` (policy.c:2417-2466); `none` is `False` with an error. The session asked for, `_sid`, is not looked
at. -/
def fetchHook (d : Door) (mem : Bool) (first last : U32) (_sid : Bytes) : Option FetchInfo :=
  match d.mine with
  | none => none
  | some c => if mem then some ⟨c, first, last⟩ else none

/-- The control structure as allocated and the daemon's record of the process as allocated (owampd.c:203-213). -/
def newDoor (t : Tree) : Door := ⟨none, none, t, [], false⟩

end Owamp.Policy
