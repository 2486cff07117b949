import Verif.Model.DataFile
/-!
# Model of fetching a session: `OWPProcessFetchSession` (sapi.c) and `OWPFetchSession` (capi.c)
-/
namespace Owamp.Fetch
open Owamp.Codec Owamp.Ctl Owamp.File

/-- `_OWPSendHMACAdd` and `_OWPSendBlocksIntr` of the first bytes of `cntrl->msg`, which are `b`. -/
def sendText (c : Conn) (b : Bytes) : Wr × Conn := sendBlocks (sendHmacAdd { c with msg := put c.msg 0 b } b) b

/-- `_OWPSendHMACDigestClear(cntrl,buf)` and `_OWPSendBlocksIntr(cntrl,buf,1,intr)` (sapi.c:1353-1357, 1412-1416, 1474-1477);
`none` stands for the failed connection. -/
def sendTag (H : Mac) (c : Conn) : Option Unit × Conn :=
  match sendBlocks { (sendDigest H c).2 with msg := put (sendDigest H c).2.msg 0 (sendDigest H c).1 } (sendDigest H c).1 with
  | (.done, c) => (some (), c)
  | (_, c) => (none, c.fail)

/-! ## The server -/

/-- `struct DoDataState` (sapi.c:954-965) without the constant fields; `rec_size` is 25 for the only version served.
`count` is a `uint64_t` and counts at most 2^32 records. -/
structure DoData where
  c : Conn
  first : U32
  last : U32
  send : Bool
  inbuf : Nat
  count : Nat
  maxSeen : U32

/-- `maxiseen` after a record (sapi.c:984-986); `OWPIsLostRecord` is api.c:3743. -/
def nextMax (m : U32) (r : DataRec) : U32 := if m < r.seq ∧ r.recv.owptime ≠ 0 then r.seq else m

/-- The end of `DoDataRecords` (sapi.c:1008-1022), a record having been put into the buffer. -/
def flushFull (s : DoData) : Int × DoData :=
  if s.inbuf = 16 then
    match sendText s.c (get s.c.msg 0 400) with
    | (.done, c) => (0, { s with c := c, inbuf := 0 })
    | (_, c) => (-1, { s with c := c.fail })
  else if s.inbuf > 16 then (-1, { s with c := s.c.fail })
  else (0, s)

/-- `DoDataRecords` (sapi.c:967-1028). -/
def doRecord (s : DoData) (r : DataRec) : Int × DoData :=
  if r.seq < s.first ∨ s.last < r.seq then (0, { s with maxSeen := nextMax s.maxSeen r })
  else if s.send then
    match encodeDataRec r with
    | none => (-1, { s with maxSeen := nextMax s.maxSeen r, count := s.count + 1 })
    | some b =>
      flushFull { s with
        maxSeen := nextMax s.maxSeen r, count := s.count + 1, inbuf := s.inbuf + 1
        c := { s.c with msg := put s.c.msg (s.inbuf * 25) b } }
  else (0, { s with maxSeen := nextMax s.maxSeen r, count := s.count + 1 })

/-- Result of `fcntl(fileno(fp),F_SETLK,&flk)` for a read lock: obtained, `EACCES`/`EAGAIN`, or another error. -/
inductive Lock where
  | got
  | busy
  | error
deriving DecidableEq, Repr

/-- What the outside gives to one fetch: the answer of the policy (`none` is an error), whether the session file can be
opened, and, as other processes change the file, its contents at the time of the `n`th reading of its header and what an
attempt to lock it after that reading gives. -/
structure Env where
  policy : U32 → U32 → Bytes → Option Bool
  opens : Bytes → Bool
  file : Nat → Bytes
  lock : Nat → Lock

/-- `fhdr.num_datarecs` after sapi.c:1217-1220; the size is that of the file at the last reading of its header. -/
def countRecs (f : Bytes) (p : Init) : U32 :=
  if p.ndata = 0 then BitVec.ofInt 32 ((f.length - p.osetData).tdiv p.recSize) else p.ndata

/-- From `read_file:` to the set-up of `dodata` (sapi.c:1094-1222): the file and its header to be used, or the negative
answer. `n` counts the readings of the header. Records, slots and skip ranges are later read from the file as it was at
the last reading: a session that finished normally is not written any more, and any other is locked. -/
def header (E : Env) (first last : U32) (n lockTries finishTries : Nat) : Except Accept (Bytes × Init) :=
  match readInitial (E.file n) with
  | none => .error .failure
  | some p =>
    if p.version ≠ 3 then .error .failure
    else if p.finished = 0 then .error .failure
    else if p.finished = 1 then .ok (E.file n, p)
    else
      match E.lock n with
      | .error => .error .failure
      | .busy => if 4 < lockTries then .error .failure else header E first last (n + 1) (lockTries + 1) finishTries
      | .got =>
        match readInitial (E.file (n + 1)) with
        | none => .error .failure
        | some p =>
          if first = 0 ∧ last = 0xFFFFFFFF#32 ∧ p.finished ≠ 1 then
            if 4 < finishTries then .error .reject else header E first last (n + 2) lockTries (finishTries + 1)
          else .ok (E.file (n + 1), { p with ndata := countRecs (E.file (n + 1)) p })
termination_by (5 - lockTries) + (5 - finishTries)

/-- `fseeko` to the data records and `OWPParseRecords` with `DoDataRecords` (sapi.c:1245-1255, 1261-1270, 1426-1439). -/
def parse (f : Bytes) (p : Init) (s : DoData) : Parsed × DoData :=
  if p.osetData < 0 then (.fatal, s) else parseRecords doRecord f p.osetData.toNat p.ndata.toNat p.version s

/-- What a positive answer goes on with: `fp`, `fhdr`, `dodata` and `sendrecs`. -/
structure Plan where
  f : Bytes
  p : Init
  s : DoData
  sendrecs : U32

/-- Counting the records to send (sapi.c:1227-1275). -/
def plan (c : Conn) (first last : U32) (f : Bytes) (p : Init) : Option Plan :=
  let s : DoData := { c := c, first := first, last := last, send := false, inbuf := 0, count := 0, maxSeen := 0 }
  if p.finished = 1 ∧ first = 0 ∧ last = 0xFFFFFFFF#32 then some ⟨f, p, s, p.ndata⟩
  else
    match parse f p s with
    | (.ok, s) =>
      if p.finished ≠ 1 ∧ s.maxSeen < last then
        match parse f p { s with count := 0, last := s.maxSeen } with
        | (.ok, s) => some ⟨f, p, { s with count := 0 }, BitVec.ofNat 32 s.count⟩
        | _ => none
      else some ⟨f, p, { s with count := 0 }, BitVec.ofNat 32 s.count⟩
    | _ => none

/-- `while(tr_size > 16)`: blocks of the file sent as they are (sapi.c:1337-1352, 1378-1390); the position reached, the
size left and the connection, or `none` with a failed one. A negative `tr_size` is 0 here. -/
def copyBlocks (c : Conn) (f : Bytes) (pos tr : Nat) : Option (Nat × Nat) × Conn :=
  if 16 < tr then
    match rd f pos 16 with
    | none => (none, c.fail)
    | some b =>
      match sendText c b with
      | (.done, c) => copyBlocks c f (pos + 16) (tr - 16)
      | (_, c) => (none, c.fail)
  else (some (pos, tr), c)
termination_by tr

/-- `tr_size` before the slots are sent (sapi.c:1297-1330). -/
def trSize (p : Init) : Int :=
  let t := if p.osetSkip ≠ 0 then p.osetSkip else p.osetData
  (if p.osetData ≠ 0 then min t p.osetData else t) - 40 - 112

/-- The test request of the file, with new digests (sapi.c:1297-1357). -/
def sendRequest (H : Mac) (c : Conn) (f : Bytes) (p : Init) : Option Unit × Conn :=
  match rd f 40 112 with
  | none => (none, c.fail)
  | some b =>
    match sendMsg H c (put c.msg 0 b) 6 with
    | (.done, c) =>
      match copyBlocks c f 152 (trSize p).toNat with
      | (none, c) => (none, c)
      | (some _, c) => sendTag H c
    | (_, c) => (none, c.fail)

/-- The rest of the skip ranges, filled up with zeros to a block (sapi.c:1395-1408). -/
def sendRest (c : Conn) (f : Bytes) (pos tr : Nat) : Option Unit × Conn :=
  if 0 < tr then
    match rd f pos tr with
    | none => (none, c.fail)
    | some b =>
      match sendText c (b ++ zeros (16 - tr)) with
      | (.done, c) => (some (), c)
      | (_, c) => (none, c.fail)
  else (some (), c)

/-- The skip ranges and the digest after them (sapi.c:1359-1416). `num_skiprecs * 8` is a 32 bit product. -/
def sendSkips (H : Mac) (c : Conn) (f : Bytes) (p : Init) : Option Unit × Conn :=
  if p.finished ≠ 0 ∧ p.nskip ≠ 0 then
    if p.osetSkip < 0 then (none, c.fail)
    else
      match copyBlocks c f p.osetSkip.toNat ((p.nskip.toNat * 8) % 2 ^ 32) with
      | (none, c) => (none, c)
      | (some (pos, tr), c) =>
        match sendRest c f pos tr with
        | (none, c) => (none, c)
        | (some _, c) => sendTag H c
  else sendTag H c

/-- The records left in the buffer (sapi.c:1441-1463). -/
def flushRest (s : DoData) : Option Unit × Conn :=
  if s.inbuf ≠ 0 then
    match sendText s.c (get s.c.msg 0 (s.inbuf * 25) ++
        zeros ((s.inbuf * 25 / 16 + 1) * 16 - s.inbuf * 25)) with
    | (.done, c) => (some (), c)
    | (_, c) => (none, c.fail)
  else (some (), s.c)

/-- The data records (sapi.c:1419-1463). -/
def sendData (c : Conn) (q : Plan) : Option Unit × Conn :=
  if q.sendrecs = 0 then (some (), c)
  else
    match parse q.f q.p { q.s with c := c, send := true } with
    | (.ok, s) => if s.count ≠ q.sendrecs.toNat then (none, s.c.fail) else flushRest s
    | (_, s) => (none, s.c.fail)

/-- From the positive acknowledgement to the end (sapi.c:1277-1485). Beyond the `fseeko`s no errors of the file system
are modelled; `_OWPCallCloseFile` is in `Model/TestPolicy.lean`. -/
def answer (H : Mac) (c : Conn) (q : Plan) : Option Unit × Conn :=
  match writeFetchAck H c
      { accept := .accept, finished := BitVec.ofNat 8 q.p.finished, nextSeq := if q.p.finished ≠ 0 then q.p.next else 0
        nskips := if q.p.finished ≠ 0 then q.p.nskip else 0, nrecs := q.sendrecs } with
  | (none, c) => (none, c.fail)
  | (some _, c) =>
    match sendRequest H c q.f q.p with
    | (none, c) => (none, c)
    | (some _, c) =>
      match sendSkips H c q.f q.p with
      | (none, c) => (none, c)
      | (some _, c) =>
        match sendData c q with
        | (none, c) => (none, c)
        | (some _, c) =>
          match sendTag H c with
          | (none, c) => (none, c)
          | (some _, c) => (some (), c.setState { c.state with fetching := false, request := true })

/-- A negative acknowledgement (sapi.c:1487-1497). -/
def refuse (H : Mac) (c : Conn) (a : Accept) : Option Unit × Conn :=
  match writeFetchAck H c { accept := a, finished := 0, nextSeq := 0, nskips := 0, nrecs := 0 } with
  | (none, c) => (none, c.fail)
  | (some _, c) => (some (), c)

/-- `OWPProcessFetchSession` (sapi.c:1030-1499). `some` says that a whole answer was sent. -/
def serve (H : Mac) (E : Env) (c : Conn) : Option Unit × Conn :=
  match readFetchSession H c with
  | (none, c) => (none, c.fail)
  | (some (first, last, sid), c) =>
    match E.policy first last sid with
    | none => (none, c.fail)
    | some false => refuse H c .reject
    | some true =>
      if E.opens sid then
        match header E first last 0 0 0 with
        | .error a => refuse H c a
        | .ok (f, p) =>
          match plan c first last f p with
          | none => refuse H c .failure
          | some q => answer H c q
      else refuse H c .reject

/-! ## The client -/

/-- `while(toff > 16)` (capi.c:1569-1583) and the incomplete block (capi.c:1587-1599): the bytes written to the file. -/
def readSkipBytes (c : Conn) (toff : Nat) : Option Bytes × Conn :=
  if 16 < toff then
    match recvBlocks c 0 1 with
    | (.done, c) =>
      match readSkipBytes (recvHmacAdd c (get c.msg 0 16)) (toff - 16) with
      | (none, c') => (none, c')
      | (some bs, c') => (some (get c.msg 0 16 ++ bs), c')
    | (_, c) => (none, c.fail)
  else if toff ≠ 0 then
    match recvBlocks c 0 1 with
    | (.done, c) => (some (get c.msg 0 toff), recvHmacAdd c (get c.msg 0 16))
    | (_, c) => (none, c.fail)
  else (some [], c)
termination_by toff

/-- The data records (capi.c:1622-1660): the bytes written to the file. -/
def readRecords (c : Conn) (n : Nat) : Option Bytes × Conn :=
  if 16 ≤ n then
    match recvBlocks c 0 25 with
    | (.done, c) =>
      match readRecords (recvHmacAdd c (get c.msg 0 400)) (n - 16) with
      | (none, c') => (none, c')
      | (some bs, c') => (some (get c.msg 0 400 ++ bs), c')
    | (_, c) => (none, c.fail)
  else if n ≠ 0 then
    match recvBlocks c 0 (n * 25 / 16 + 1) with
    | (.done, c) => (some (get c.msg 0 (25 * n)), recvHmacAdd c (get c.msg 0 ((n * 25 / 16 + 1) * 16)))
    | (_, c) => (none, c.fail)
  else (some [], c)
termination_by n

/-- A digest is read and compared (capi.c:1604-1613, 1667-1676). -/
def readTag (H : Mac) (c : Conn) : Option Unit × Conn :=
  match recvBlocks c 0 1 with
  | (.done, c) =>
    match recvCheck H c (get c.msg 0 16) with
    | (true, c) => (some (), c)
    | (false, c) => (none, c.fail)
  | (_, c) => (none, c.fail)

/-- What `OWPFetchSession` gives its caller: an error that ends the connection, a refusal by the server, or a number of
records and the contents of the file. -/
inductive Result where
  | failed
  | refused
  | fetched (n : U32) (file : Bytes)
deriving DecidableEq, Repr

/-- The header that goes into the fetched file (capi.c:1495-1541): `rec_size` stays 0. -/
def hdrOf (a : FetchAck) (r : TestReq) : HdrIn :=
  { sender := r.sender, receiver := r.receiver, confSender := r.confSender, confReceiver := r.confReceiver, sid := r.sid
    spec := r.spec, twoway := false, finished := a.finished.toNat, next := a.nextSeq, nskip := a.nskips, ndata := a.nrecs
    recSize := 0 }

/-- After the test request (capi.c:1543-1685). When the header cannot be written the rest is still read, nothing more
goes to the file and 0 is returned. Failing `fwrite`s are not modelled. -/
def readBody (H : Mac) (junk : Bytes) (c : Conn) (a : FetchAck) (r : TestReq) : Result × Conn :=
  match readSkipBytes c ((a.nskips.toNat * 8) % 2 ^ 32) with
  | (none, c) => (.failed, c)
  | (some sk, c) =>
    match readTag H c with
    | (none, c) => (.failed, c)
    | (some _, c) =>
      match readRecords c a.nrecs.toNat with
      | (none, c) => (.failed, c)
      | (some rs, c) =>
        match readTag H c with
        | (none, c) => (.failed, c)
        | (some _, c) =>
          let w := writeHeader junk (hdrOf a r)
          (if w.2 then .fetched a.nrecs (w.1 ++ sk ++ rs) else .fetched 0 w.1,
            c.setState { c.state with fetching := false, request := true })

/-- `OWPFetchSession` after the request was sent (capi.c:1478-1685). -/
def readAnswer (H : Mac) (remote loc : SockAddr) (junk : Bytes) (c : Conn) : Result × Conn :=
  match readFetchAck H c with
  | (none, c) => (.failed, c.fail)
  | (some a, c) =>
    if a.accept ≠ .accept then (.refused, c)
    else
      match readTestRequest H false remote loc c with
      | (none, _, c) => (.failed, c.fail)
      | (some r, _, c) => readBody H junk c a r

/-- `OWPFetchSession` (capi.c:1433-1688) with an empty file; `remote` and `loc` are the addresses of the control
connection and `junk` the uninitialised buffer of `OWPWriteDataHeader`. The received blocks go through `cntrl->msg`
here and through a local buffer of the same size in the code. -/
def fetch (H : Mac) (remote loc : SockAddr) (junk : Bytes) (first last : U32) (sid : Bytes) (c : Conn) : Result × Conn :=
  if c.twoway then (.failed, c) else
  match writeFetchSession H c first last sid with
  | (none, c) => (.failed, c.fail)
  | (some _, c) => readAnswer H remote loc junk c

end Owamp.Fetch
