import Verif.Model.Cbc
/-!
# Model of a control connection: `owampP.h` state and `owamp/io.c`

A connection is a record; a function that mutates it returns the new one. The socket is the pair of
byte strings `inp` (sent by the peer, not yet read; the peer has closed after them) and `out` (written
so far). `faults` decides the outcome of successive reads and writes, so a theorem that quantifies over
connections quantifies over every pattern of interrupted and failed I/O.
-/
namespace Owamp.Ctl

/-- HMAC-SHA1 from the external I2util library (`I2HMACSha1Init/Append/Finish`): a function of the key
and of all text appended since the context was initialised, with a 20 byte result. -/
structure Mac where
  hash : Bytes → Bytes → Bytes
  len : ∀ k t, (hash k t).length = 20

/-- `OWPAcceptType` (owamp.h:309-317). -/
inductive Accept where
  | invalid | accept | reject | failure | unsupported | unavailPerm | unavailTemp
deriving DecidableEq, Repr

/-- The byte `acceptval & 0xff`. -/
def Accept.code : Accept → Byte
  | .invalid => 0xff#8
  | .accept => 0#8
  | .reject => 1#8
  | .failure => 2#8
  | .unsupported => 3#8
  | .unavailPerm => 4#8
  | .unavailTemp => 5#8

/-- `GetAcceptType` (protocol.c:256-280). -/
def getAcceptType (val : Byte) : Accept :=
  if val = 0#8 then .accept
  else if val = 1#8 then .reject
  else if val = 2#8 then .failure
  else if val = 3#8 then .unsupported
  else if val = 4#8 then .unavailPerm
  else if val = 5#8 then .unavailTemp
  else .invalid

/-- The state bits of a control connection (owampP.h:136-159), one field per bit.
`_OWPStateInitial` and `_OWPStateInvalid` are both the value with no bit set. -/
structure CState where
  setup : Bool := false
  uptime : Bool := false
  request : Bool := false
  test : Bool := false
  testRequest : Bool := false
  testRequestSlots : Bool := false
  startSessions : Bool := false
  stopSessions : Bool := false
  fetchSession : Bool := false
  testRequestTW : Bool := false
  acceptSession : Bool := false
  startAck : Bool := false
  fetchAck : Bool := false
  fetching : Bool := false
  fetchingRecords : Bool := false
deriving DecidableEq, Repr

/-- `_OWPStateInitial`/`_OWPStateInvalid` (owampP.h:137-138). -/
def CState.invalid : CState := {}
/-- `_OWPStateSetup` (owampP.h:140). -/
def CState.setupOnly : CState := { setup := true }
/-- `_OWPStateRequest` (owampP.h:143). -/
def CState.requestOnly : CState := { request := true }
/-- `_OWPStateIsReading` (owampP.h:162, 174): a request whose first block was read and whose rest was
not. `_OWPStateTestRequestTW` is not in the mask. -/
def CState.isReading (s : CState) : Bool :=
  s.testRequest || s.startSessions || s.stopSessions || s.fetchSession
/-- `_OWPStateIsPending` (owampP.h:167, 175). -/
def CState.isPending (s : CState) : Bool :=
  s.acceptSession || s.startAck || s.stopSessions || s.fetchAck

/-- Outcome of one socket call: success, return of -1 with `errno == EINTR` (only when the caller's
`retn_on_intr` is set: otherwise I2util retries), or -1 with another error. The number is how many
bytes had moved before the failure. -/
inductive Fault where
  | ok
  | intr (moved : Nat)
  | err (moved : Nat)
deriving DecidableEq, Repr

/-- `OWPControlRec` (owampP.h:207-262), the fields the modelled functions use. `sendAcc`/`recvAcc` are
the texts appended to `send_hmac_ctx`/`recv_hmac_ctx` since their last initialisation. -/
structure Conn where
  state : CState
  mode : U32
  twoway : Bool
  userid : Bytes
  aesKey : Bytes
  hmacKey : Bytes
  readIV : Bytes
  writeIV : Bytes
  sendAcc : Bytes
  recvAcc : Bytes
  msg : Bytes
  inp : Bytes
  out : Bytes
  faults : List Fault
deriving DecidableEq, Repr

/-- `cntrl->mode & OWP_MODE_DOCIPHER_CNTRL` (owamp.h:341: AUTHENTICATED 2, ENCRYPTED 4, MIXED 8). -/
def cipherMode (mode : U32) : Bool := (mode &&& 14#32) ≠ 0

def Conn.cipher (c : Conn) : Bool := cipherMode c.mode

/-- Result of `I2Readni` (I2util): everything asked for, fewer bytes because the peer closed, or -1. -/
inductive Rd where
  | full (bs : Bytes)
  | short (bs : Bytes)
  | intr
  | err
deriving DecidableEq, Repr

/-- `I2Readni(sockfd, buf, n, intr)`. -/
def readN (c : Conn) (n : Nat) : Rd × Conn :=
  match c.faults with
  | .intr k :: fs => (.intr, { c with inp := c.inp.drop k, faults := fs })
  | .err k :: fs => (.err, { c with inp := c.inp.drop k, faults := fs })
  | fs =>
    if n ≤ c.inp.length then
      (.full (c.inp.take n), { c with inp := c.inp.drop n, faults := fs.tail })
    else (.short c.inp, { c with inp := [], faults := fs.tail })

/-- Result of `I2Writeni` (I2util): all bytes written, or -1. -/
inductive Wr where
  | done
  | intr
  | err
deriving DecidableEq, Repr

/-- `I2Writeni(sockfd, buf, n, intr)`. -/
def writeN (c : Conn) (bs : Bytes) : Wr × Conn :=
  match c.faults with
  | .intr k :: fs => (.intr, { c with out := c.out ++ bs.take k, faults := fs })
  | .err k :: fs => (.err, { c with out := c.out ++ bs.take k, faults := fs })
  | fs => (.done, { c with out := c.out ++ bs, faults := fs.tail })

/-- `_OWPSendBlocksIntr` (io.c:27-47) on the buffer `buf`, whose length is `num_blocks * 16`. In a
ciphered mode the buffer is encrypted in place: its new content is returned too. -/
def sendBuf (c : Conn) (buf : Bytes) : Wr × Bytes × Conn :=
  if c.cipher then
    let r := Cbc.blockEncrypt c.aesKey c.writeIV buf
    let w := writeN { c with writeIV := r.2 } r.1
    (w.1, r.1, w.2)
  else
    let w := writeN c buf
    (w.1, buf, w.2)

/-- `_OWPSendBlocksIntr` where the buffer is the beginning of `cntrl->msg`. -/
def sendBlocks (c : Conn) (buf : Bytes) : Wr × Conn :=
  let r := sendBuf c buf
  (r.1, { r.2.2 with msg := put c.msg 0 r.2.1 })

/-- Result of `_OWPReceiveBlocksIntr`: `num_blocks`, 0 (closed), or -1. -/
inductive RdBlk where
  | done
  | closed
  | intr
  | err
deriving DecidableEq, Repr

/-- `_OWPReceiveBlocksIntr(cntrl, &msg[off], n, intr)` (io.c:49-75). Simplification: after a short or
failed read `msg` is left alone; the C code may have part of the block there, which no caller uses. -/
def recvBlocks (c : Conn) (off n : Nat) : RdBlk × Conn :=
  match readN c (n * 16) with
  | (.full bs, c) =>
    if c.cipher then
      let r := Cbc.blockDecrypt c.aesKey c.readIV bs
      (.done, { c with readIV := r.2, msg := put c.msg off r.1 })
    else (.done, { c with msg := put c.msg off bs })
  | (.short _, c) => (.closed, c)
  | (.intr, c) => (.intr, c)
  | (.err, c) => (.err, c)

/-- `_OWPSendHMACAdd` (io.c:258-273). -/
def sendHmacAdd (c : Conn) (txt : Bytes) : Conn :=
  if c.cipher then { c with sendAcc := c.sendAcc ++ txt } else c

/-- `_OWPSendHMACDigestClear` (io.c:291-313): the 16 digest bytes and the connection. -/
def sendDigest (H : Mac) (c : Conn) : Bytes × Conn :=
  if c.cipher then ((H.hash c.hmacKey c.sendAcc).take 16, { c with sendAcc := [] })
  else (zeros 16, c)

/-- `_OWPRecvHMACAdd` (io.c:329-344). -/
def recvHmacAdd (c : Conn) (txt : Bytes) : Conn :=
  if c.cipher then { c with recvAcc := c.recvAcc ++ txt } else c

/-- `_OWPRecvHMACCheckClear` (io.c:363-386). -/
def recvCheck (H : Mac) (c : Conn) (check : Bytes) : Bool × Conn :=
  if c.cipher then (check = (H.hash c.hmacKey c.recvAcc).take 16, { c with recvAcc := [] })
  else (true, c)

end Owamp.Ctl
