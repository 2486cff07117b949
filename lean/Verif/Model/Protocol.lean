import Verif.Model.Conn
import Verif.Model.Codec
/-!
# Model of the control messages of `owamp/protocol.c`

Each function returns `none` for a return of `OWPErrFATAL` and `some` of the returned values for
`OWPErrOK`, together with the connection afterwards. `msg` is `cntrl->msg`, the 400 byte buffer
(`_OWP_MAX_MSG_SIZE`, owampP.h:128) in which the C code builds and parses messages.

Not modelled here: the error-log text; failures of `malloc`.
-/
namespace Owamp.Ctl
open Owamp.Codec Owamp.Time

/-- `cntrl->state = s`. -/
def Conn.setState (c : Conn) (s : CState) : Conn := { c with state := s }
/-- `cntrl->state = _OWPStateInvalid`. -/
def Conn.fail (c : Conn) : Conn := c.setState .invalid

/-- The sequence shared by the writers of messages that end in a digest: the first `k` blocks of the
message buffer `m` go into the HMAC, the digest becomes block `k`, and `k + 1` blocks are sent (for
example protocol.c:1622-1625). -/
def sendMsg (H : Mac) (c : Conn) (m : Bytes) (k : Nat) : Wr × Conn :=
  let c := sendHmacAdd { c with msg := m } (get m 0 (16 * k))
  let d := sendDigest H c
  let m := put m (16 * k) d.1
  sendBlocks { d.2 with msg := m } (get m 0 (16 * (k + 1)))

/-- The end of the readers of such messages: the first `k` blocks of `msg` go into the HMAC and block
`k` is compared with the digest (for example protocol.c:1665-1666). -/
def checkMsg (H : Mac) (c : Conn) (k : Nat) : Bool × Conn :=
  recvCheck H (recvHmacAdd c (get c.msg 0 (16 * k))) (get c.msg (16 * k) 16)

/-- What the server greeting carries. -/
structure Greeting where
  modes : U32
  challenge : Bytes
  salt : Bytes
  count : U32
deriving DecidableEq, Repr

/-- `_OWPWriteServerGreeting` (protocol.c:79-118). -/
def writeServerGreeting (c : Conn) (g : Greeting) : Option Unit × Conn :=
  if c.state ≠ .invalid then (none, c) else
  let m := put c.msg 0 (zeros 64)
  let m := put32 m 12 g.modes
  let m := put m 16 g.challenge
  let m := put m 32 g.salt
  let m := put32 m 48 g.count
  match writeN { c with msg := m } (get m 0 64) with
  | (.done, c) => (some (), c.setState .setupOnly)
  | (_, c) => (none, c)

/-- `_OWPReadServerGreeting` (protocol.c:120-152). -/
def readServerGreeting (c : Conn) : Option Greeting × Conn :=
  if c.state ≠ .invalid then (none, c) else
  match readN c 64 with
  | (.full bs, c) =>
    let m := put c.msg 0 bs
    (some ⟨get32 m 12, get m 16 16, get m 32 16, get32 m 48⟩,
      { c with msg := m, state := .setupOnly })
  | (_, c) => (none, c)

/-- `_OWPWriteSetupResponse` (protocol.c:186-214). -/
def writeSetupResponse (c : Conn) (token : Bytes) : Option Unit × Conn :=
  if c.state ≠ .setupOnly then (none, c) else
  let m := put c.msg 0 (zeros 164)
  let m := put32 m 0 c.mode
  let m :=
    if c.cipher then
      let m := put m 4 c.userid
      let m := put m 84 token
      put m 148 c.writeIV
    else m
  match writeN { c with msg := m } (get m 0 164) with
  | (.done, c) => (some (), c)
  | (_, c) => (none, c)

/-- What the set-up response carries besides the user name. -/
structure Setup where
  mode : U32
  token : Bytes
  clientIV : Bytes
deriving DecidableEq, Repr

/-- `_OWPReadSetupResponse` (protocol.c:216-254); `userid` stands for `userid_buffer`. -/
def readSetupResponse (c : Conn) : Option Setup × Conn :=
  if c.state ≠ .setupOnly then (none, c) else
  match readN c 164 with
  | (.full bs, c) =>
    let m := put c.msg 0 bs
    (some ⟨get32 m 0, get m 84 64, get m 148 16⟩, { c with msg := m, userid := get m 4 80 })
  | (_, c) => (none, c)

/-- `_OWPWriteServerStart` (protocol.c:309-377). -/
def writeServerStart (c : Conn) (code : Accept) (uptime : U64) : Option Unit × Conn :=
  if c.state ≠ .setupOnly then (none, c) else
  let m := put c.msg 0 (zeros 15)
  let m := put8 m 15 code.code
  let m := put m 16 c.writeIV
  let m :=
    if code = .accept then
      let m := put m 32 (encTime uptime)
      put m 40 (zeros 8)
    else put m 32 (zeros 16)
  let c :=
    if code = .accept then { c with msg := m, state := .requestOnly }
    else { c with msg := m, mode := 1#32, state := .invalid }
  let c := sendHmacAdd c (get c.msg 32 16)
  let c :=
    if c.cipher then
      let r := Cbc.blockEncrypt c.aesKey c.writeIV (get c.msg 32 16)
      { c with writeIV := r.2, msg := put c.msg 32 r.1 }
    else c
  match writeN c (get c.msg 0 48) with
  | (.done, c) => (some (), c)
  | (_, c) => (none, c)

/-- `_OWPReadServerStart` (protocol.c:379-444). -/
def readServerStart (c : Conn) : Option (Accept × U64) × Conn :=
  if c.state ≠ .setupOnly then (none, c) else
  match readN c 32 with
  | (.full bs, c) =>
    let c := { c with msg := put c.msg 0 bs }
    let acc := getAcceptType (get8 c.msg 15)
    if acc = .invalid then (none, c.fail) else
    let c := { c with readIV := get c.msg 16 16 }
    let c := if acc ≠ .accept then { c with mode := 1#32 } else c
    match recvBlocks c 0 1 with
    | (.done, c) =>
      let c := recvHmacAdd c (get c.msg 0 16)
      (some (acc, decodeTimeStamp (get c.msg 0 8)), c.setState .requestOnly)
    | (_, c) => (none, c.fail)
  | (_, c) => (none, c.fail)

/-- `OWPRequestType` (owamp.h:1156-1165). -/
inductive ReqType where
  | invalid | sockClose | sockIntr | test | startSessions | stopSessions | fetchSession | testTW
deriving DecidableEq, Repr

/-- `OWPReadRequestType` (protocol.c:455-527). -/
def readRequestType (c : Conn) : ReqType × Conn :=
  if ¬ c.state.request ∨ c.state.isReading then (.invalid, c) else
  match recvBlocks c 0 1 with
  | (.done, c) =>
    let t := get8 c.msg 0
    if (c.state.test ∧ t ≠ 3#8) ∨ (¬ c.state.test ∧ t = 3#8) then (.invalid, c.fail)
    else if t = 1#8 then (.test, c.setState { c.state with testRequest := true })
    else if t = 2#8 then (.startSessions, c.setState { c.state with startSessions := true })
    else if t = 3#8 then (.stopSessions, c.setState { c.state with stopSessions := true })
    else if t = 4#8 then (.fetchSession, c.setState { c.state with fetchSession := true })
    else if t = 5#8 then (.testTW, c.setState { c.state with testRequestTW := true })
    else (.invalid, c.fail)
  | (.intr, c) => (.sockIntr, c.fail)
  | (_, c) => (.sockClose, c.fail)

/-- The socket addresses that occur: `sockaddr_in`, `sockaddr_in6` (address in network order as a
number), the zeroed `sockaddr_storage` (family `AF_UNSPEC`), and any other family. -/
inductive SockAddr where
  | v4 (addr : U32) (port : U16)
  | v6 (addr : BitVec 128) (port : U16) (scope : U32)
  | unspec
  | other
deriving DecidableEq, Repr

/-- `OWPTestSpec` (owamp.h:383-391). `nslots` is the length of `slots`. -/
structure TestSpec where
  startTime : U64
  lossTimeout : U64
  typeP : U32
  padding : U32
  npackets : U32
  slots : List Sched.Slot
deriving DecidableEq, Repr

def get128 (buf : Bytes) (off : Nat) : BitVec 128 := BitVec.ofNat 128 (beDec (get buf off 16))
def enc128 (x : BitVec 128) : Bytes := beEnc 16 x.toNat

/-- `sa_family` compared (protocol.c:620). -/
def SockAddr.family : SockAddr → Nat
  | .v4 .. => 4
  | .v6 .. => 6
  | .unspec => 0
  | .other => 1

/-- Arguments of a test request. `sid` is `none` for a null pointer. -/
structure ReqArgs where
  sender : SockAddr
  receiver : SockAddr
  confSender : Bool
  confReceiver : Bool
  zeroAddr : Bool
  sid : Option Bytes
  spec : TestSpec
deriving DecidableEq, Repr

/-- The part of `_OWPEncodeTestRequestPreamble` that fills in the addresses and ports
(protocol.c:676-720); `none` for an unsupported family or a mismatch (619-643). -/
def encodeAddrs (m : Bytes) (a : ReqArgs) : Option Bytes :=
  match a.sender, a.receiver with
  | .v6 sa sp _, .v6 ra rp _ =>
    let m := put8 m 1 6#8
    let m := put m 16 (if a.zeroAddr then zeros 16 else enc128 sa)
    let m := put16 m 12 sp
    let m := put m 32 (if a.zeroAddr then zeros 16 else enc128 ra)
    some (put16 m 14 rp)
  | .v4 sa sp, .v4 ra rp =>
    let m := put8 m 1 4#8
    let m := put32 m 16 (if a.zeroAddr then 0#32 else sa)
    let m := put16 m 12 sp
    let m := put m 20 (zeros 12)
    let m := put32 m 32 (if a.zeroAddr then 0#32 else ra)
    let m := put16 m 14 rp
    some (put m 36 (zeros 12))
  | _, _ => none

/-- `_OWPEncodeTestRequestPreamble` (protocol.c:581-745) on the buffer `m`. -/
def encodePreamble (m : Bytes) (twoway : Bool) (a : ReqArgs) : Option Bytes :=
  if ¬ twoway ∧ ¬ a.confSender ∧ ¬ a.confReceiver then none
  else if a.sender.family ≠ a.receiver.family then none
  else if a.sender.family ≠ 4 ∧ a.sender.family ≠ 6 then none
  else if ¬ twoway ∧ (a.spec.npackets = 0 ∨ a.spec.slots.length = 0) then none
  else
    let m := put8 m 0 (if twoway then 5#8 else 1#8)
    let m := put8 m 2 (if a.confSender ∧ ¬ twoway then 1#8 else 0#8)
    let m := put8 m 3 (if a.confReceiver ∧ ¬ twoway then 1#8 else 0#8)
    let m := put32 m 4 (if twoway then 0#32 else BitVec.ofNat 32 a.spec.slots.length)
    let m := put32 m 8 (if twoway then 0#32 else a.spec.npackets)
    match encodeAddrs m a with
    | none => none
    | some m =>
      let m := a.sid.elim m fun s => put m 48 s
      let m := put32 m 64 a.spec.padding
      let m := put m 68 (encTime a.spec.startTime)
      let m := put m 76 (encTime a.spec.lossTimeout)
      let m := put32 m 84 a.spec.typeP
      some (put m 88 (zeros 24))

/-- What `_OWPDecodeTestRequestPreamble` returns through its pointers. -/
structure Preamble where
  sender : SockAddr
  receiver : SockAddr
  confSender : Bool
  confReceiver : Bool
  sid : Bytes
  nslots : U32
  npackets : U32
  padding : U32
  startTime : U64
  lossTimeout : U64
  typeP : U32
deriving DecidableEq, Repr

/-- `_OWPDecodeTestRequestPreamble` (protocol.c:746-903). The Boolean is true for `OWPErrOK` and false
for `OWPErrWARNING`; in the latter case the fields not reached keep the zeros the caller put there
(protocol.c:1346-1349). The size checks cannot fail: the only caller passes 112 bytes and
`sockaddr_storage`. -/
def decodePreamble (request : Bool) (m : Bytes) (twoway : Bool) : Bool × Preamble :=
  let ipvn := get8 m 1 &&& 0xf#8
  let nslots := get32 m 4
  let npackets := get32 m 8
  let cs : Bool := get8 m 2 ≠ 0#8
  let cr : Bool := get8 m 3 ≠ 0#8
  let p0 : Preamble :=
    { sender := .unspec, receiver := .unspec, confSender := cs, confReceiver := cr, sid := zeros 16
      nslots := nslots, npackets := npackets, padding := 0, startTime := 0, lossTimeout := 0, typeP := 0 }
  if ¬ cs ∧ ¬ cr ∧ ¬ twoway then (false, p0)
  else if twoway ∧ (cs ∨ cr) then (false, p0)
  else if twoway ∧ (nslots ≠ 0 ∨ npackets ≠ 0) then (false, p0)
  else
    let sport := if request ∧ cs then 0#16 else get16 m 12
    let rport := if request ∧ cr then 0#16 else get16 m 14
    let p1 :=
      { p0 with
        sid := get m 48 16
        padding := get32 m 64
        startTime := decodeTimeStamp (get m 68 8)
        lossTimeout := decodeTimeStamp (get m 76 8)
        typeP := get32 m 84 }
    if ipvn = 6#8 then
      (true, { p1 with sender := .v6 (get128 m 16) sport 0, receiver := .v6 (get128 m 32) rport 0 })
    else if ipvn = 4#8 then
      (true, { p1 with sender := .v4 (get32 m 16) sport, receiver := .v4 (get32 m 32) rport })
    else (false, p0)

/-- The slots of `_OWPWriteTestRequest` (protocol.c:1061-1073). -/
def writeSlots (c : Conn) : List Sched.Slot → Option Unit × Conn
  | [] => (some (), c)
  | s :: ss =>
    match encodeSlot s with
    | none => (none, c.fail)
    | some b =>
      match sendBlocks (sendHmacAdd { c with msg := put c.msg 0 b } b) b with
      | (.done, c) => writeSlots c ss
      | (_, c) => (none, c.fail)

/-- `_OWPWriteTestRequest` (protocol.c:1006-1087). -/
def writeTestRequest (H : Mac) (c : Conn) (a : ReqArgs) : Option Unit × Conn :=
  if ¬ c.state.request ∨ c.state.isPending then (none, c) else
  match encodePreamble c.msg c.twoway a with
  | none => (none, c)
  | some m =>
    match sendMsg H c m 6 with
    | (.done, c) =>
      if c.twoway then
        (some (), c.setState { c.state with acceptSession := true })
      else
        match writeSlots c a.spec.slots with
        | (none, c) => (none, c)
        | (some _, c) =>
          let d := sendDigest H c
          match sendBlocks { d.2 with msg := put d.2.msg 0 d.1 } d.1 with
          | (.done, c) => (some (), c.setState { c.state with acceptSession := true })
          | (_, c) => (none, c.fail)
    | (_, c) => (none, c.fail)

/-- The loop of `_OWPReadTestRequestSlots` (protocol.c:1154-1189). -/
def readSlotLoop (c : Conn) : Nat → Option (List Sched.Slot) × Conn
  | 0 => (some [], c)
  | n + 1 =>
    match recvBlocks c 0 1 with
    | (.done, c) =>
      let c := recvHmacAdd c (get c.msg 0 16)
      match decodeSlot (get c.msg 0 16) with
      | none => (none, c.fail)
      | some s =>
        match readSlotLoop c n with
        | (none, c) => (none, c)
        | (some ss, c) => (some (s :: ss), c)
    | (_, c) => (none, c.fail)

/-- `_OWPReadTestRequestSlots` (protocol.c:1136-1220), `slots` not null. -/
def readSlots (H : Mac) (c : Conn) (nslots : U32) : Option (List Sched.Slot) × Conn :=
  if ¬ c.state.testRequestSlots then (none, c) else
  match readSlotLoop c nslots.toNat with
  | (none, c) => (none, c)
  | (some ss, c) =>
    match recvBlocks c 0 1 with
    | (.done, c) =>
      match recvCheck H c (get c.msg 0 16) with
      | (true, c) => (some ss, c.setState { c.state with testRequestSlots := false })
      | (false, c) => (none, c.fail)
    | (_, c) => (none, c.fail)

/-- `IN6_IS_ADDR_LINKLOCAL`: the first ten bits are those of `fe80::/10`. -/
def linkLocal (a : BitVec 128) : Bool := a.toNat / 2 ^ 118 = 0x3fa

/-- `_OWPTestSessionSetIPv6LLScope` (protocol.c:1222-1260); `none` is `OWPErrFATAL`. -/
def setLLScope (cntrl test : SockAddr) : Option SockAddr :=
  match test with
  | .v6 a p s =>
    if linkLocal a then
      match cntrl with
      | .v6 ca _ cs => if linkLocal ca then some (.v6 a p cs) else none
      | _ => none
    else some (.v6 a p s)
  | t => some t

/-- `_OWPSetSAddrIfUnspec` (protocol.c:1262-1294). -/
def setIfUnspec (cntrl test : SockAddr) : SockAddr :=
  match test, cntrl with
  | .v6 a p s, .v6 ca _ _ => if a = 0 then .v6 ca p s else .v6 a p s
  | .v4 a p, .v4 ca _ => if a = 0 then .v4 ca p else .v4 a p
  | t, _ => t

/-- The parts of an `OWPTestSession` that a request fills in. -/
structure TestReq where
  sender : SockAddr
  receiver : SockAddr
  confSender : Bool
  confReceiver : Bool
  sid : Bytes
  spec : TestSpec
deriving DecidableEq, Repr

/-- `_OWPReadTestRequest` (protocol.c:1316-1567). `server` says that `accept_ret` is not null;
`remote` and `local` are the addresses of the control connection. Returns the session (`none` when the
function returns an error) and the accept value. -/
def readTestRequest (H : Mac) (server : Bool) (remote localAddr : SockAddr) (c : Conn) :
    Option TestReq × Accept × Conn :=
  if ¬ (if c.twoway then c.state.testRequestTW else c.state.testRequest) then
    (none, .invalid, c)
  else
    let first := if server then (RdBlk.done, c) else recvBlocks c 0 1
    match first with
    | (.done, c) =>
      match recvBlocks c 16 6 with
      | (.done, c) =>
        match checkMsg H c 6 with
        | (false, c) => (none, .invalid, c.fail)
        | (true, c) =>
          let d := decodePreamble server c.msg c.twoway
          if ¬ d.1 ∧ server then (none, .unsupported, c) else
          let p := d.2
          match setLLScope remote p.sender with
          | none => (none, .unsupported, c)
          | some snd =>
            match setLLScope remote p.receiver with
            | none => (none, .unsupported, c)
            | some rcv =>
              let snd := if c.twoway then setIfUnspec remote snd else snd
              let rcv := if c.twoway then setIfUnspec localAddr rcv else rcv
              let c := c.setState { c.state with testRequest := false, testRequestSlots := true }
              let fin (c : Conn) : Conn :=
                if server then c.setState { c.state with acceptSession := true }
                else c.setState { c.state with fetching := true }
              let sess (sid : Bytes) (ss : List Sched.Slot) : TestReq :=
                ⟨snd, rcv, p.confSender, p.confReceiver, sid,
                  ⟨p.startTime, p.lossTimeout, p.typeP, p.padding, p.npackets, ss⟩⟩
              if c.twoway then (some (sess (zeros 16) []), .accept, fin c)
              else
                match readSlots H c p.nslots with
                | (none, c) => (none, .invalid, c.fail)
                | (some ss, c) => (some (sess p.sid ss), .accept, fin c)
      | (_, c) => (none, .invalid, c.fail)
    | (_, c) => (none, .invalid, c.fail)

/-- `_OWPWriteAcceptSession` (protocol.c:1596-1633). -/
def writeAcceptSession (H : Mac) (c : Conn) (acc : Accept) (port : U16) (sid : Option Bytes) :
    Option Unit × Conn :=
  if ¬ c.state.acceptSession then (none, c) else
  let m := zeros 400
  let m := put8 m 0 acc.code
  let m := put16 m 2 port
  let m := match sid with
    | some s => put m 4 s
    | none => m
  match sendMsg H c m 2 with
  | (.done, c) => (some (), c.setState { c.state with acceptSession := false })
  | (_, c) => (none, c.fail)

/-- `_OWPReadAcceptSession` (protocol.c:1635-1688). -/
def readAcceptSession (H : Mac) (c : Conn) : Option (Accept × U16 × Bytes) × Conn :=
  if ¬ c.state.acceptSession then (none, c) else
  match recvBlocks c 0 3 with
  | (.done, c) =>
    match checkMsg H c 2 with
    | (false, c) => (none, c.fail)
    | (true, c) =>
      let acc := getAcceptType (get8 c.msg 0)
      if acc = .invalid then (none, c.fail)
      else (some (acc, get16 c.msg 2, get c.msg 4 16),
        c.setState { c.state with acceptSession := false })
  | (_, c) => (none, c.fail)

/-- `_OWPWriteStartSessions` (protocol.c:1712-1743). -/
def writeStartSessions (H : Mac) (c : Conn) : Option Unit × Conn :=
  if ¬ c.state.request ∨ c.state.isPending then (none, c) else
  let m := put8 c.msg 0 2#8
  let m := put m 1 (zeros 31)
  match sendMsg H c m 1 with
  | (.done, c) => (some (), c.setState { c.state with startAck := true, test := true })
  | (_, c) => (none, c.fail)

/-- `_OWPReadStartSessions` (protocol.c:1745-1805). -/
def readStartSessions (H : Mac) (c : Conn) : Option Unit × Conn :=
  if ¬ c.state.startSessions then (none, c) else
  match recvBlocks c 16 1 with
  | (.intr, c) => (none, c)
  | (.done, c) =>
    match checkMsg H c 1 with
    | (false, c) => (none, c.fail)
    | (true, c) =>
      if get8 c.msg 0 ≠ 2#8 then (none, c.fail)
      else (some (), c.setState { c.state with startSessions := false, startAck := true, test := true })
  | (_, c) => (none, c.fail)

/-- `_OWPWriteStartAck` (protocol.c:1829-1875). -/
def writeStartAck (H : Mac) (c : Conn) (acc : Accept) : Option Unit × Conn :=
  if ¬ c.state.startAck then (none, c) else
  let m := put8 c.msg 0 acc.code
  let m := put m 1 (zeros 15)
  match sendMsg H c m 1 with
  | (.intr, c) => (none, c)
  | (.done, c) =>
    let c := c.setState { c.state with startAck := false }
    (some (), if acc ≠ .accept then c.setState { c.state with test := false } else c)
  | (_, c) => (none, c.fail)

/-- `_OWPReadStartAck` (protocol.c:1877-1932). -/
def readStartAck (H : Mac) (c : Conn) : Option Accept × Conn :=
  if ¬ c.state.startAck then (none, c) else
  match recvBlocks c 0 2 with
  | (.done, c) =>
    match checkMsg H c 1 with
    | (false, c) => (none, c.fail)
    | (true, c) =>
      let acc := getAcceptType (get8 c.msg 0)
      if acc = .invalid then (none, c.fail)
      else
        let c := c.setState { c.state with startAck := false }
        (some acc, if acc ≠ .accept then c.setState { c.state with test := false, request := true } else c)
  | (_, c) => (none, c.fail)

/-- `_OWPWriteFetchSession` (protocol.c:2662-2700). -/
def writeFetchSession (H : Mac) (c : Conn) (first last : U32) (sid : Bytes) : Option Unit × Conn :=
  if ¬ c.state.request ∨ c.state.test then (none, c) else
  if c.twoway then (none, c) else
  let m := put8 c.msg 0 4#8
  let m := put m 1 (zeros 7)
  let m := put32 m 8 first
  let m := put32 m 12 last
  let m := put m 16 sid
  match sendMsg H c m 2 with
  | (.done, c) =>
    (some (), c.setState { c.state with fetchAck := true, fetchSession := true, request := false })
  | (_, c) => (none, c)

/-- `_OWPReadFetchSession` (protocol.c:2702-2772). -/
def readFetchSession (H : Mac) (c : Conn) : Option (U32 × U32 × Bytes) × Conn :=
  if ¬ c.state.fetchSession then (none, c) else
  if c.twoway then (none, c) else
  match recvBlocks c 16 2 with
  | (.intr, c) => (none, c)
  | (.done, c) =>
    match checkMsg H c 2 with
    | (false, c) => (none, c.fail)
    | (true, c) =>
      if get8 c.msg 0 ≠ 4#8 then (none, c.fail)
      else (some (get32 c.msg 8, get32 c.msg 12, get c.msg 16 16),
        c.setState { c.state with
          fetchSession := false, request := false, fetchAck := true, fetching := true })
  | (_, c) => (none, c.fail)

/-- What a fetch acknowledgement carries. -/
structure FetchAck where
  accept : Accept
  finished : Byte
  nextSeq : U32
  nskips : U32
  nrecs : U32
deriving DecidableEq, Repr

/-- `_OWPWriteFetchAck` (protocol.c:2798-2865). -/
def writeFetchAck (H : Mac) (c : Conn) (a : FetchAck) : Option Unit × Conn :=
  if ¬ c.state.fetchAck then (none, c) else
  let m := put c.msg 0 (zeros 32)
  let m := put8 m 0 a.accept.code
  let m := put8 m 1 a.finished
  let m := if a.finished ≠ 0 then put32 (put32 m 4 a.nextSeq) 8 a.nskips else m
  let m := put32 m 12 a.nrecs
  match sendMsg H c m 1 with
  | (.intr, c) => (none, c)
  | (.done, c) =>
    let c := c.setState { c.state with fetchAck := false }
    (some (), if a.accept ≠ .accept then c.setState { c.state with fetching := false, request := true }
      else c)
  | (_, c) => (none, c.fail)

/-- `_OWPReadFetchAck` (protocol.c:2867-2930). -/
def readFetchAck (H : Mac) (c : Conn) : Option FetchAck × Conn :=
  if ¬ c.state.fetchAck then (none, c) else
  match recvBlocks c 0 2 with
  | (.done, c) =>
    match checkMsg H c 1 with
    | (false, c) => (none, c.fail)
    | (true, c) =>
      let acc := getAcceptType (get8 c.msg 0)
      if acc = .invalid then (none, c.fail)
      else
        let r : FetchAck := ⟨acc, get8 c.msg 1, get32 c.msg 4, get32 c.msg 8, get32 c.msg 12⟩
        let c := c.setState { c.state with fetchAck := false, fetchSession := false }
        (some r,
          if acc ≠ .accept then c.setState { c.state with request := true }
          else if c.twoway then c.setState { c.state with testRequestTW := true }
          else c.setState { c.state with testRequest := true })
  | (_, c) => (none, c.fail)

end Owamp.Ctl
