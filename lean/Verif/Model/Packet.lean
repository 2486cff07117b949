import Verif.Model.Conn
import Verif.Model.Time
/-!
# Model of the test packets of `owamp/endpoint.c` and of the test-session keys

The payload buffer `ep->payload` outlives a packet, so its previous contents are an argument. HMAC-SHA1
is the parameter `H` (`Owamp.Ctl.Mac`). The random padding (`I2RandomBytes`) is an argument.
-/
namespace Owamp.Pkt
open Owamp.Ctl Owamp.Time

/-- The three packet formats the `switch(ep->cntrl->mode)` statements distinguish
(endpoint.c:1321-1352, 2177-2199, 2651-2709, 3187-3252). -/
inductive Fmt where
  | clear | auth | enc
deriving DecidableEq, Repr

/-- One-way `switch`: modes 1, 2, 4; anything else exits with failure
(endpoint.c:1321-1352, 2177-2199). -/
def fmtOW (mode : U32) : Option Fmt :=
  if mode = 1#32 then some .clear else if mode = 2#32 then some .auth else if mode = 4#32 then some .enc else none

/-- Two-way `switch`: mixed mode (8) also sends clear packets (endpoint.c:2651-2709, 3187-3252). -/
def fmtTW (mode : U32) : Option Fmt :=
  if mode = 1#32 ∨ mode = 8#32 then some .clear
  else if mode = 2#32 then some .auth else if mode = 4#32 then some .enc else none

/-- What `rijndaelKeySetupEnc`/`rijndaelKeySetupDec` left in a `keyInstance`: the key and which of the two
functions built the round keys. `unset` is a `keyInstance` never set up. -/
inductive KeyInst where
  | unset
  | forEnc (key : Bytes)
  | forDec (key : Bytes)
deriving DecidableEq, Repr

/-- `blockEncrypt` with a key instance. `none`: the round keys are not encryption keys, so the output is
not the cipher; the model stops there. -/
def KeyInst.encrypt (k : KeyInst) (iv p : Bytes) : Option (Bytes × Bytes) :=
  match k with
  | .forEnc key => some (Cbc.blockEncrypt key iv p)
  | _ => none

/-- `blockDecrypt` with a key instance; `none` as for `KeyInst.encrypt`. -/
def KeyInst.decrypt (k : KeyInst) (iv p : Bytes) : Option (Bytes × Bytes) :=
  match k with
  | .forDec key => some (Cbc.blockDecrypt key iv p)
  | _ => none

/-- The fields of `OWPEndpointRec` (owampP.h:253-306) the packet code reads. -/
structure Ep where
  aeskey : KeyInst := .unset
  replyKey : KeyInst := .unset
  hmacKey : Bytes := []
deriving DecidableEq, Repr

/-- The key set-up of `_OWPEndpointInitHook` (endpoint.c:3813-3872): `mode & OWP_MODE_DOCIPHER_TEST` decides
whether keys are made. `server`, `twoway` and `mode` are fields of the control connection, `send` of the
endpoint. -/
def initKeys (mode : U32) (twoway server send : Bool) (aesSession hmacSession sid : Bytes) : Ep :=
  if mode &&& 6#32 ≠ 0#32 then
    let aesbytes := Rijndael.encrypt sid aesSession
    let e : Ep :=
      if twoway then
        if server then { aeskey := .forDec aesbytes, replyKey := .forEnc aesbytes }
        else { aeskey := .forEnc aesbytes, replyKey := .forDec aesbytes }
      else if send then { aeskey := .forEnc aesbytes }
      else { aeskey := .forDec aesbytes }
    { e with hmacKey := (Cbc.blockEncrypt sid (zeros 16) hmacSession).1 }
  else {}

/-- The error estimate bytes put in a packet: `_OWPEncodeTimeStampErrEstimate`, and when that refuses (a zero
multiplier) the largest possible estimate (endpoint.c:1454-1464, 2948-2958, 3377-3387). -/
def errBytes (t : TimeStamp) : Bytes :=
  (encodeErrEstimate t).getD
    ((encodeErrEstimate { t with multiplier := 0xFF#8, scale := 0x3F#8, sync := false }).getD [])

/-- A packet of a sender, as built in `ep->payload` by `run_sender` (endpoint.c:1319-1352, 1383-1384, 1397-1418,
1453-1495) and by `run_tw_test` (3185-3219, 3296-3332, 3376-3418): padding, header, first block
encryption, then time stamp, second block encryption and digest. `buf` is the previous contents of the payload.
`clr_buffer` is zero except where a packet writes it. -/
def sendPacket (H : Mac) (f : Fmt) (e : Ep) (buf pad : Bytes) (seq : U32) (t : TimeStamp) : Option Bytes :=
  match f with
  | .clear =>
    let buf := put buf 14 pad
    let buf := put32 buf 0 seq
    let buf := put buf 4 (encodeTimeStamp t)
    some (put buf 12 (errBytes t))
  | .auth =>
    let buf := put buf 48 pad
    let clr := put32 (zeros 32) 0 seq
    (e.aeskey.encrypt (zeros 16) (get clr 0 16)).map fun c =>
      let buf := put buf 0 c.1
      let buf := put buf 16 (encodeTimeStamp t)
      let buf := put buf 24 (errBytes t)
      put buf 32 ((H.hash e.hmacKey (get clr 0 16)).take 16)
  | .enc =>
    let buf := put buf 48 pad
    let clr := put32 (zeros 32) 0 seq
    (e.aeskey.encrypt (zeros 16) (get clr 0 16)).bind fun c =>
      let buf := put buf 0 c.1
      let clr := put clr 16 (encodeTimeStamp t)
      let clr := put clr 24 (errBytes t)
      (e.aeskey.encrypt c.2 (get clr 16 16)).map fun c' =>
        let buf := put buf 16 c'.1
        put buf 32 ((H.hash e.hmacKey (get clr 0 16 ++ get clr 16 16)).take 16)

/-- What the receiving code makes of the payload: a wrong kind of key, a digest that does not match, or the
payload with its header in clear. -/
inductive Opened where
  | wrongKey
  | badDigest
  | plain (buf : Bytes)
deriving DecidableEq, Repr

/-- The decryption and digest check of `run_receiver` (endpoint.c:2405-2454), `run_reflector` (2860-2908) and,
with `rest` = 80 bytes and the digest at 96, `run_tw_test` (3573-3621). -/
def openWith (H : Mac) (f : Fmt) (key : KeyInst) (hmacKey : Bytes) (rest hmacAt : Nat) (buf : Bytes) : Opened :=
  match f with
  | .clear => .plain buf
  | .auth =>
    (key.decrypt (zeros 16) (get buf 0 16)).elim .wrongKey fun d =>
      let buf := put buf 0 d.1
      if get buf hmacAt 16 = (H.hash hmacKey (get buf 0 16)).take 16 then .plain buf else .badDigest
  | .enc =>
    (key.decrypt (zeros 16) (get buf 0 16)).elim .wrongKey fun d =>
      let buf := put buf 0 d.1
      (key.decrypt d.2 (get buf 16 rest)).elim .wrongKey fun d' =>
        let buf := put buf 16 d'.1
        if get buf hmacAt 16 = (H.hash hmacKey (get buf 0 16 ++ get buf 16 rest)).take 16 then .plain buf
        else .badDigest

/-- Opening a sender's packet: `run_receiver` (endpoint.c:2405-2454) and `run_reflector` (2860-2908). -/
def openPacket (H : Mac) (f : Fmt) (e : Ep) (buf : Bytes) : Opened := openWith H f e.aeskey e.hmacKey 16 32 buf

/-- `seq`, `tstamp`, `tstamperr` of an opened sender packet (endpoint.c:2176-2199, 2650-2709). -/
def seqOf (buf : Bytes) : U32 := get32 buf 0
def timeAt : Fmt → Nat | .clear => 4 | _ => 16
def errAt : Fmt → Nat | .clear => 12 | _ => 24
def timeOf (f : Fmt) (buf : Bytes) : U64 := decodeTimeStamp (get buf (timeAt f) 8)
def errOf (f : Fmt) (buf : Bytes) : ErrEst := decodeErrEstimate (get8 buf (errAt f)) (get8 buf (errAt f + 1))

/-- `OWPTestPayloadSize` (api.c:365-385) for the three formats. -/
def payloadSize (f : Fmt) (padding : Nat) : Nat := (match f with | .clear => 14 | _ => 48) + padding
/-- `OWPTestTWPayloadSize` (api.c:387-407). -/
def twPayloadSize (f : Fmt) (padding : Nat) : Nat := (match f with | .clear => 41 | _ => 112) + padding

/-- The reply of `run_reflector` (endpoint.c:2910-3016) up to the point it is sent. `buf` is the whole payload
allocation with the opened packet in it, `len` is `ep->len_payload`, `i` the reflector's own counter, `rcv` the
time the packet arrived, `now` the time of the reply. Returns the bytes handed to `sendto`. -/
def reflect (H : Mac) (f : Fmt) (e : Ep) (buf : Bytes) (len : Nat) (i : U32) (rcv now : TimeStamp) (ttl : Byte) :
    Option Bytes :=
  let sndSeq := get buf 0 4
  let sndTime := get buf (timeAt f) 8
  let sndErr := get buf (errAt f) 2
  let sndLen := max len (twPayloadSize f 0)
  let rpad := match f with | .clear => 41 | _ => 112
  let pad := match f with | .clear => 14 | _ => 48
  let buf := if len > rpad then put buf rpad (get buf pad (len - rpad)) else buf
  let buf := put buf 0 (zeros rpad)
  match f with
  | .clear =>
    let buf := put32 buf 0 i
    let buf := put buf 16 (encodeTimeStamp rcv)
    let buf := put buf 24 sndSeq
    let buf := put buf 28 sndTime
    let buf := put buf 36 sndErr
    let buf := put8 buf 40 ttl
    let buf := put buf 4 (encodeTimeStamp now)
    let buf := put buf 12 (errBytes now)
    some (get buf 0 sndLen)
  | .auth =>
    let clr := put32 (zeros 96) 0 i
    let buf := put buf 32 (encodeTimeStamp rcv)
    let buf := put buf 48 sndSeq
    let buf := put buf 64 sndTime
    let buf := put buf 72 sndErr
    let buf := put8 buf 80 ttl
    let buf := put buf 16 (encodeTimeStamp now)
    let buf := put buf 24 (errBytes now)
    (e.replyKey.encrypt (zeros 16) (get clr 0 16)).map fun c =>
      let buf := put buf 0 c.1
      let buf := put buf 96 ((H.hash e.hmacKey (get clr 0 16)).take 16)
      get buf 0 sndLen
  | .enc =>
    let clr := put32 (zeros 96) 0 i
    let clr := put clr 32 (encodeTimeStamp rcv)
    let clr := put clr 48 sndSeq
    let clr := put clr 64 sndTime
    let clr := put clr 72 sndErr
    let clr := put8 clr 80 ttl
    let clr := put clr 16 (encodeTimeStamp now)
    let clr := put clr 24 (errBytes now)
    (e.replyKey.encrypt (zeros 16) (get clr 0 16)).bind fun c =>
      let buf := put buf 0 c.1
      (e.replyKey.encrypt c.2 (get clr 16 80)).map fun c' =>
        let buf := put buf 16 c'.1
        let buf := put buf 96 ((H.hash e.hmacKey (get clr 0 16 ++ get clr 16 80)).take 16)
        get buf 0 sndLen

/-- Opening a reply in `run_tw_test` (endpoint.c:3573-3621). -/
def openReply (H : Mac) (f : Fmt) (e : Ep) (buf : Bytes) : Opened := openWith H f e.replyKey e.hmacKey 80 96 buf

/-- The values `run_tw_test` takes from an opened reply (endpoint.c:3221-3252, 3629-3669). The error estimate of the
reply is used for both reflector times. -/
structure Reply where
  sndSeq : U32
  sndTime : U64
  sndErr : ErrEst
  rcvTime : U64
  ttl : Byte
  seq : U32
  time : U64
  err : ErrEst
deriving DecidableEq, Repr

def readReply (f : Fmt) (buf : Bytes) : Reply :=
  match f with
  | .clear =>
    { sndSeq := get32 buf 24, sndTime := decodeTimeStamp (get buf 28 8)
      sndErr := decodeErrEstimate (get8 buf 36) (get8 buf 37)
      rcvTime := decodeTimeStamp (get buf 16 8), ttl := get8 buf 40
      seq := get32 buf 0, time := decodeTimeStamp (get buf 4 8)
      err := decodeErrEstimate (get8 buf 12) (get8 buf 13) }
  | _ =>
    { sndSeq := get32 buf 48, sndTime := decodeTimeStamp (get buf 64 8)
      sndErr := decodeErrEstimate (get8 buf 72) (get8 buf 73)
      rcvTime := decodeTimeStamp (get buf 32 8), ttl := get8 buf 80
      seq := get32 buf 0, time := decodeTimeStamp (get buf 16 8)
      err := decodeErrEstimate (get8 buf 24) (get8 buf 25) }

end Owamp.Pkt
