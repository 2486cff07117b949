import Verif.Model.Broker
import Verif.Model.Fetch
/-!
# Model of the policy for test sessions and their files (owampd/policy.c)

A process that serves a connection keeps its own copy of the classes, which counts its test sessions, and asks the daemon for
bandwidth and disk space. What the daemon answers is a function of all that has been asked and answered before: every daemon,
with any other processes asking in between, is such a function.
-/
namespace Owamp.Policy
open Owamp.Fetch Owamp.Ctl

/-- `OWPDLimRec` (policy.h:127-130). -/
structure Res where
  limit : U32
  value : U64
deriving DecidableEq, Repr

/-- A query and the answer that `OWPDQuery` returned. -/
structure Asked where
  query : U32
  res : Res
  answer : U32
deriving DecidableEq, Repr

/-- What the daemon answers after the queries of the list. -/
abbrev Answers := List Asked → U32 → Res → U32

/-- The queries after a further one (`OWPDQuery`, policy.c:2098-2123). -/
def query (A : Answers) (log : List Asked) (q : U32) (r : Res) : List Asked := log ++ [⟨q, r, A log q r⟩]

/-- `OWPDInfoTestRec` (policy.c:2294-2299); `finfo` only says whether a file is open. -/
structure TestInfo where
  node : Nat
  opened : Bool
  res0 : Res
  res1 : Res
deriving DecidableEq, Repr

/-- What `OWPDCheckTestPolicy` returns: `False`; `False` and `OWPErrFATAL`; `True`. -/
inductive Check where
  | refused
  | fatal
  | granted (i : TestInfo)
deriving DecidableEq, Repr

/-- `OWPDCheckTestPolicy` from the check of the disk space on (policy.c:2386-2412). -/
def checkDisk (claimOver : U64 → U64 → Bool) (A : Answers) (mine : Tree) (log : List Asked) (c : Nat) (sender : Bool) (space : U64) (res0 : Res) :
    Check × Tree × List Asked :=
  if sender then (.granted ⟨c, false, res0, ⟨0, 0⟩⟩, mine, log)
  else
    let r : Res := ⟨limDisk, space⟩
    let log1 := query A log mesgRequest r
    if A log mesgRequest r = mesgDenied then
      (.refused, (demand claimOver mine c mesgRelease limTestSessions 1).2, query A log1 mesgRelease res0)
    else if A log mesgRequest r = mesgInvalid then (.fatal, mine, log1)
    else (.granted ⟨c, false, res0, r⟩, mine, log1)

/-- `OWPDCheckTestPolicy` (policy.c:2316-2419) for a process whose class is `c`. `sender` is `local_sender`, `bandwidth`
and `space` are what `OWPTestPacketBandwidth` and `OWPTestDiskspace` return. The failure of `calloc` is not modelled. -/
def checkTest (claimOver : U64 → U64 → Bool) (A : Answers) (mine : Tree) (log : List Asked) (c : Nat) (twoway sender : Bool) (bandwidth space : U64) :
    Check × Tree × List Asked :=
  let d := demand claimOver mine c mesgRequest limTestSessions 1
  if d.1 then
    if twoway then checkDisk claimOver A d.2 log c sender space ⟨0, 0⟩
    else
      let r : Res := ⟨limBandwidth, bandwidth⟩
      let log1 := query A log mesgRequest r
      if A log mesgRequest r = mesgDenied then (.refused, (demand claimOver d.2 c mesgRelease limTestSessions 1).2, log1)
      else if A log mesgRequest r = mesgInvalid then (.fatal, d.2, log1)
      else checkDisk claimOver A d.2 log1 c sender space r
  else (.refused, mine, log)

/-- `OWPDOpenFile` (policy.c:2522-2628) for a test session: `ok` says that directories, file and link could be made. If not,
nothing is left. -/
def openTest (i : TestInfo) (ok : Bool) : TestInfo := if ok then { i with opened := true } else i

/-- `OWPDCloseFile` (policy.c:2785-2887, 2939-2956) for a test session: the session, the queries, and whether the file is
removed. `size` is what `fstat` gives, `accept` whether the session ended with `OWP_CNTRL_ACCEPT`. The comparisons are
those of `off_t`, signed 64 bit integers. -/
def closeTest (A : Answers) (log : List Asked) (i : TestInfo) (size : Option U64) (accept : Bool) : TestInfo × List Asked × Bool :=
  let done : TestInfo := { i with opened := false, res1 := ⟨0, 0⟩ }
  match size with
  | none => (done, log, false)
  | some size =>
    if ¬ accept then (done, query A log mesgRelease i.res1, true)
    else if size.toInt < i.res1.value.toInt then (done, query A log mesgRelease ⟨limDisk, i.res1.value - size⟩, false)
    else if i.res1.value.toInt < size.toInt then
      let r : Res := ⟨limDisk, size - i.res1.value⟩
      let log1 := query A log mesgClaim r
      if A log mesgClaim r = mesgDenied then (done, query A log1 mesgRelease i.res1, true)
      else (done, log1, false)
    else (done, log, false)

/-- `OWPDTestComplete` (policy.c:2470-2508). -/
def completeTest (A : Answers) (log : List Asked) (i : TestInfo) : List Asked :=
  let log1 := if i.res0.limit = 0 then log else query A log mesgRelease i.res0
  if i.res1.limit = 0 then log1 else query A log1 mesgRelease i.res1

/-- What becomes of the file of a session that was granted. -/
inductive Fate where
  /-- No file is opened, or it cannot be. -/
  | noFile
  /-- A file of that size is left when the session ends; `stat` says whether `fstat` succeeds on it, `accept` whether the
  session ended well. -/
  | file (size : U64) (stat accept : Bool)
deriving DecidableEq, Repr

/-- `_OWPTestSessionFree` (api.c:250-297) of a session granted with `i`: the endpoint closes its file (endpoint.c:212-218), then
the session is complete. The result is the queries and the size of the file left. -/
def endTest (A : Answers) (log : List Asked) (i : TestInfo) : Fate → List Asked × Nat
  | .noFile => (completeTest A log i, 0)
  | .file size stat accept =>
    let c := closeTest A log (openTest i true) (if stat then some size else none) accept
    (completeTest A c.2.1 c.1, if c.2.2 then 0 else size.toNat)

/-! ## Fetching -/

/-- From the acknowledgement to the last data record (sapi.c:1277-1463). -/
def answerBody (H : Mac) (c : Conn) (q : Plan) : Option Unit × Conn :=
  match writeFetchAck H c
      { accept := .accept, finished := BitVec.ofNat 8 q.p.finished, nextSeq := if q.p.finished ≠ 0 then q.p.next else 0
        nskips := if q.p.finished ≠ 0 then q.p.nskip else 0, nrecs := q.sendrecs } with
  | (none, c) => (none, c.fail)
  | (some _, c) =>
    match sendRequest H c q.f q.p with
    | (none, c) => (none, c)
    | (some _, c) =>
      match sendSkips H c q.f q.p with
      | (none, c) => (none, c)
      | (some _, c) => sendData c q

/-- With what `_OWPCallCloseFile` is called during `OWPProcessFetchSession` (sapi.c:1030-1499): `none` if it is not called; else
the range requested and whether it is called with `OWP_CNTRL_ACCEPT`. -/
def fetchClose (H : Mac) (E : Env) (c : Conn) : Option (U32 × U32 × Bool) :=
  match readFetchSession H c with
  | (none, _) => none
  | (some (first, last, sid), c) =>
    if E.policy first last sid = some true ∧ E.opens sid then
      match header E first last 0 0 0 with
      | .error _ => some (first, last, false)
      | .ok (f, p) =>
        match plan c first last f p with
        | none => some (first, last, false)
        | some q => some (first, last, (answerBody H c q).1.isSome)
    else none

/-- `OWPDCloseFile` (policy.c:2888-2937) for a fetch: whether the file, which belongs to the class `n`, is removed, and the
queries. The class is looked up by the name of the directory (policy.c:2677-2731); that it is found is assumed:
`verify_datadir` and `OWPDOpenFile` make links only to files in directories of classes. -/
def closeFetch (A : Answers) (log : List Asked) (n : Node) (first last : U32) (size : Option U64) (accept : Bool) : List Asked × Bool :=
  if first = 0 ∧ last = 0xFFFFFFFF#32 ∧ accept ∧ getLimit n limDeleteOnFetch ≠ 0 then
    match size with
    | none => (log, true)
    | some size => if 0 < size.toInt then (query A log mesgRelease ⟨limDisk, size⟩, true) else (log, true)
  else (log, false)

/-- `OWPProcessFetchSession` with the policy of owampd, seen from the file: whether it is removed, and the queries. -/
def fetchFile (A : Answers) (log : List Asked) (n : Node) (H : Mac) (E : Env) (c : Conn) (size : Option U64) : List Asked × Bool :=
  match fetchClose H E c with
  | none => (log, false)
  | some (first, last, accept) => closeFetch A log n first last size accept

/-! ## A process -/

/-- A process that serves a connection of the class `c`: its copy of the classes, its queries, the sessions that have been
granted and not ended, how many were granted altogether, and the sizes of the files of its sessions left on disk, in sum. -/
structure Proc where
  mine : Tree
  log : List Asked
  live : List TestInfo
  granted : Nat
  kept : Nat
deriving DecidableEq, Repr

/-- What a process does with test sessions. -/
inductive Op where
  /-- A test session is requested. -/
  | request (twoway sender : Bool) (bandwidth space : U64)
  /-- The `k`th of the sessions in progress ends. -/
  | finish (k : Nat) (f : Fate)
deriving DecidableEq, Repr

/-- A request (sapi.c:657-700: the session is granted, or the request refused, or the connection closed), or the end of a
session. Only a session with disk space may have a file (endpoint.c:713). -/
def Proc.act (claimOver : U64 → U64 → Bool) (A : Answers) (c : Nat) (p : Proc) : Op → Proc
  | .request twoway sender bandwidth space =>
    match checkTest claimOver A p.mine p.log c twoway sender bandwidth space with
    | (.granted i, mine, log) => { p with mine := mine, log := log, live := p.live ++ [i], granted := p.granted + 1 }
    | (_, mine, log) => { p with mine := mine, log := log }
  | .finish k f =>
    match p.live[k]? with
    | none => p
    | some i =>
      match f with
      | .noFile => { p with log := (endTest A p.log i f).1, live := p.live.eraseIdx k }
      | .file _ _ _ =>
        if i.res1.limit = limDisk then
          { p with log := (endTest A p.log i f).1, live := p.live.eraseIdx k, kept := p.kept + (endTest A p.log i f).2 }
        else p

end Owamp.Policy
