import Verif.Model.Protocol
/-!
# Model of the stop-sessions message of `owamp/protocol.c`

The type `ρ` stands for the receiver's data file. What is done to it is a parameter (`RecvFile`), so
that the theorems hold whatever the file operations do and whenever they fail.
-/
namespace Owamp.Ctl
open Owamp.Codec

/-- The parts of `struct OWPEndpointRec` (owampP.h:269-330) used here: `send`, the content and recorded
size of the sender's skip file (`skiprecfd`, `skiprecsize`) and the receiver's `datafile`. -/
structure Endpoint (ρ : Type) where
  send : Bool
  skipData : Bytes
  skipSize : Nat
  file : ρ

/-- The parts of `struct OWPTestSessionRec` (owampP.h:335-378) used here. -/
structure Sess (ρ : Type) where
  sid : Bytes
  ep : Option (Endpoint ρ)

/-- Operations on the receiver's file, `none` for failure. -/
structure RecvFile (ρ : Type) where
  /-- `fcntl` lock, `_OWPCleanDataRecs(…, next_seqno, stoptime)`, `_OWPReadDataHeaderInitial` and, when
  there are skips, `fseeko` past the records (protocol.c:2442-2476): next number, number of skips. -/
  start : ρ → U32 → U32 → Option ρ
  /-- `fwrite` of one skip record (protocol.c:2532). -/
  skip : ρ → Bytes → Option ρ
  /-- `OWPWriteDataHeaderNumSkipRecs`, `_OWPWriteDataHeaderFinished(NORMAL, next_seqno)` and unlocking
  (protocol.c:2557-2574): number of skips, next number. -/
  finish : ρ → U32 → U32 → Option ρ

variable {ρ : Type}

/-- Sending the skip file of one session (protocol.c:2092-2129). -/
def sendSkips (c : Conn) (data : Bytes) (size : Nat) : Option Unit × Conn :=
  if 16 ≤ size then
    if data.length < 16 then (none, c.fail) else
    let b := data.take 16
    match sendBlocks (sendHmacAdd { c with msg := put c.msg 0 b } b) b with
    | (.done, c) => sendSkips c (data.drop 16) (size - 16)
    | (_, c) => (none, c.fail)
  else if size = 8 then
    if data.length < 8 then (none, c.fail) else
    let b := data.take 8 ++ zeros 8
    match sendBlocks (sendHmacAdd { c with msg := put c.msg 0 b } b) b with
    | (.done, c) => (some (), c)
    | (_, c) => (none, c.fail)
  else if size ≠ 0 then (none, c.fail)
  else (some (), c)
termination_by size

/-- The loop over the sessions (protocol.c:2067-2130). `_OWPSendBlocksIntr` is given the session's own
`sid` as buffer, so in a ciphered mode the session is left with the encrypted bytes as its `sid`. -/
def writeStopLoop (c : Conn) : List (Sess ρ) → Option Unit × Conn × List (Sess ρ)
  | [] => (some (), c, [])
  | t :: ts =>
    match t.ep with
    | none => let r := writeStopLoop c ts; (r.1, r.2.1, t :: r.2.2)
    | some e =>
      if ¬ e.send then let r := writeStopLoop c ts; (r.1, r.2.1, t :: r.2.2) else
      match sendBuf (sendHmacAdd c t.sid) t.sid with
      | (.done, b, c) =>
        let t := { t with sid := b }
        match sendSkips c e.skipData e.skipSize with
        | (some _, c) => let r := writeStopLoop c ts; (r.1, r.2.1, t :: r.2.2)
        | (none, c) => (none, c, t :: ts)
      | (_, b, c) => (none, c.fail, { t with sid := b } :: ts)

/-- `_OWPWriteStopSessions` (protocol.c:2025-2146). -/
def writeStopSessions (H : Mac) (c : Conn) (acc : Accept) (num : U32) (tests : List (Sess ρ)) :
    Option Unit × Conn × List (Sess ρ) :=
  if ¬ (c.state.request ∧ c.state.test) then (none, c, tests) else
  let m := put c.msg 0 (zeros 16)
  let m := put8 m 0 3#8
  let m := put8 m 1 acc.code
  let m := put32 m 4 num
  if c.twoway then
    match sendMsg H c m 1 with
    | (.done, c) => (some (), c, tests)
    | (_, c) => (none, c.fail, tests)
  else
    match sendBlocks (sendHmacAdd { c with msg := m } (get m 0 16)) (get m 0 16) with
    | (.done, c) =>
      match writeStopLoop c tests with
      | (none, c, tests) => (none, c, tests)
      | (some _, c, tests) =>
        let d := sendDigest H c
        match sendBlocks { d.2 with msg := put d.2.msg 0 d.1 } d.1 with
        | (.done, c) => (some (), c, tests)
        | (_, c) => (none, c.fail, tests)
    | (_, c) => (none, c.fail, tests)

/-- Pulling the receiving sessions out of the test list (protocol.c:2340-2364): whether all had an
endpoint, what is left in the list, and the receivers, last first. -/
def pullReceivers : List (Sess ρ) → List (Sess ρ) → Bool × List (Sess ρ) × List (Sess ρ)
  | [], rs => (true, [], rs)
  | t :: ts, rs =>
    match t.ep with
    | none => (false, t :: ts, rs)
    | some e =>
      if e.send then let r := pullReceivers ts rs; (r.1, t :: r.2.1, r.2.2)
      else pullReceivers ts (t :: rs)

/-- Looking a session up by its `sid` (protocol.c:2394-2417): those before it, it, those after it. -/
def findReceiver (sid : Bytes) : List (Sess ρ) → Option (List (Sess ρ) × Sess ρ × List (Sess ρ))
  | [] => none
  | t :: ts =>
    if t.sid = sid then some ([], t, ts)
    else (findReceiver sid ts).map fun r => (t :: r.1, r.2.1, r.2.2)

/-- The loop over the skip records of a session (protocol.c:2478-2541), with `n` records to go from
index `j`. `prev` is `prev_skip`, which the code never assigns in the loop. -/
def readSkipLoop (F : RecvFile ρ) (c : Conn) (f : ρ) (prev : Skip) (j : Nat) : Nat → Option ρ × Conn × ρ
  | 0 => (some f, c, f)
  | n + 1 =>
    let bufi := (j + 1) % 2 * 8
    let rd : RdBlk × Conn :=
      if bufi = 0 then
        match recvBlocks c 0 1 with
        | (.done, c) => (.done, recvHmacAdd c (get c.msg 0 16))
        | r => r
      else (.done, c)
    match rd with
    | (.done, c) =>
      let rec8 := get c.msg bufi 8
      let curr := decodeSkip rec8
      if curr.last.toNat < curr.first.toNat then (none, c, f) else
      if prev.last ≠ 0#32 ∧ curr.first.toNat < prev.last.toNat then (none, c, f) else
      match F.skip f rec8 with
      | none => (none, c, f)
      | some f => readSkipLoop F c f prev (j + 1) n
    | (_, c) => (none, c, f)

/-- What follows the `sid` of a session (protocol.c:2428-2575): the file on success, the connection, and
the file as it is left. -/
def readStopRecord (F : RecvFile ρ) (c : Conn) (f : ρ) : Option ρ × Conn × ρ :=
  match recvBlocks c 0 1 with
  | (.done, c) =>
    let c := recvHmacAdd c (get c.msg 0 16)
    let next := get32 c.msg 0
    let nskips := get32 c.msg 4
    match F.start f next nskips with
    | none => (none, c, f)
    | some f =>
      match readSkipLoop F c f ⟨0#32, 0#32⟩ 0 nskips.toNat with
      | (none, c, f) => (none, c, f)
      | (some f, c, _) =>
        if nskips.toNat % 2 = 0 ∧ get c.msg 8 8 ≠ zeros 8 then (none, c, f) else
        match F.finish f nskips next with
        | none => (none, c, f)
        | some f => (some f, c, f)
  | (_, c) => (none, c, f)

/-- Where the loop over the session descriptions is: the connection, the receivers not named so far,
the test list, and the receivers from `*sptr` on. -/
structure StopAt (ρ : Type) where
  c : Conn
  receivers : List (Sess ρ)
  tests : List (Sess ρ)
  after : List (Sess ρ)

/-- The loop over the session descriptions (protocol.c:2370-2576), with `n` to go. -/
def readStopLoop (F : RecvFile ρ) (s : StopAt ρ) : Nat → Bool × StopAt ρ
  | 0 => (true, s)
  | n + 1 =>
    match recvBlocks s.c 0 1 with
    | (.done, c) =>
      let c := recvHmacAdd c (get c.msg 0 16)
      match findReceiver (get c.msg 0 16) s.receivers with
      | none => (false, { s with c := c })
      | some (before, t, after) =>
        match t.ep with
        | none => (false, { s with c := c }) -- not reached: every receiver has an endpoint
        | some e =>
          match readStopRecord F c e.file with
          | (none, c, f) =>
            (false, ⟨c, before ++ after, { t with ep := some { e with file := f } } :: s.tests, after⟩)
          | (some f, c, _) =>
            readStopLoop F ⟨c, before ++ after, { t with ep := some { e with file := f } } :: s.tests, after⟩ n
    | (_, c) => (false, { s with c := c })

/-- Putting what is in `receivers` back (protocol.c:2618-2624). -/
def putBack (receivers tests : List (Sess ρ)) : List (Sess ρ) := receivers.foldl (fun ts t => t :: ts) tests

/-- The end of `_OWPReadStopSessions` (protocol.c:2590-2610); what `receivers` still holds is put back
only on failure. -/
def readStopEnd (H : Mac) (acc : Accept) (s : StopAt ρ) : Option Accept × Conn × List (Sess ρ) :=
  match recvBlocks s.c 0 1 with
  | (.done, c) =>
    match recvCheck H c (get c.msg 0 16) with
    | (true, c) => (some acc, c.setState { c.state with stopSessions := false, request := true }, s.tests)
    | (false, c) => (none, c.fail, putBack s.receivers s.tests)
  | (_, c) => (none, c.fail, putBack s.receivers s.tests)

/-- `_OWPReadStopSessions` (protocol.c:2272-2632). On failure `*acceptval` is `OWP_CNTRL_FAILURE`. -/
def readStopSessions (H : Mac) (F : RecvFile ρ) (c : Conn) (tests : List (Sess ρ)) :
    Option Accept × Conn × List (Sess ρ) :=
  if ¬ (c.state.request ∧ c.state.test) then (none, c, tests) else
  let acc := getAcceptType (get8 c.msg 1)
  if acc = .invalid then (none, c.fail, tests) else
  let num := get32 c.msg 4
  let c := recvHmacAdd c (get c.msg 0 16)
  if c.twoway then
    if num.toNat ≠ tests.length then (none, c.fail, tests)
    else readStopEnd H acc ⟨c, [], tests, []⟩
  else
    match pullReceivers tests [] with
    | (false, ts, rs) => (none, c.fail, putBack rs ts)
    | (true, ts, rs) =>
      match readStopLoop F ⟨c, rs, ts, []⟩ num.toNat with
      | (false, s) => (none, s.c.fail, putBack s.receivers s.tests)
      | (true, s) =>
        if s.after ≠ [] then (none, s.c.fail, putBack s.receivers s.tests)
        else readStopEnd H acc s

end Owamp.Ctl
