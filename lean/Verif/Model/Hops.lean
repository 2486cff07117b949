import Verif.Model.Receiver
import Verif.Model.Sizes
import Verif.Model.Dscp
/-!
# Model of the sockets of a test: their options, and the TTL of what arrives (`owamp/endpoint.c`)

The numbers of levels, options and ancillary data are those of Linux, where all the `#ifdef`s of this code hold.
-/
namespace Owamp.Hops
open Owamp.Sizes

/-- A call of `setsockopt` with an `int`. -/
structure SockOpt where
  level : Nat
  name : Nat
  value : Int
deriving DecidableEq, Repr

/-- What the system answers: `setsockopt`, and `getsockopt` for `SO_RCVBUF` and `SO_SNDBUF` (`none`: it fails). -/
structure Os where
  set : SockOpt → Bool
  rcvbuf : Option Int
  sndbuf : Option Int

/-- One `setsockopt`; a failure refuses the session (`goto error`). `l` are the calls that were made. -/
def ask (os : Os) (o : SockOpt) (l : List SockOpt) : Option (List SockOpt) := if os.set o then some (l ++ [o]) else none

/-- A buffer that is too small is enlarged (endpoint.c:786-802 with `SO_RCVBUF` = 8; 915-932 with `SO_SNDBUF` = 7; `SOL_SOCKET` = 1). -/
def enlarge (os : Os) (name : Nat) (size : Int) : Option Int → List SockOpt → Option (List SockOpt)
  | none, _ => none
  | some have', l => if have' < size then ask os ⟨1, name, size⟩ l else some l

/-- The options of a socket that receives (endpoint.c:780-843): `IPPROTO_IPV6` = 41, `IPV6_RECVHOPLIMIT` = 51; `IPPROTO_IP` = 0, `IP_RECVTTL` = 12. -/
def forReceiving (os : Os) (af : Family) (size : Int) (l : List SockOpt) : Option (List SockOpt) :=
  (enlarge os 8 size os.rcvbuf l).bind fun l =>
    match af with
    | .inet6 => ask os ⟨41, 51, 1⟩ l
    | .inet => ask os ⟨0, 12, 1⟩ l
    | .other => none

/-- The traffic class (endpoint.c:978-1054): `IP_TOS` = 1, `IPV6_TCLASS` = 67. -/
def forClass (os : Os) (af : Family) (typeP : U32) (l : List SockOpt) : Option (List SockOpt) :=
  match Dscp.socketTos typeP with
  | .unset => some l
  | .refused => none
  | .set v =>
    match af with
    | .inet6 => ask os ⟨41, 67, v⟩ l
    | _ => ask os ⟨0, 1, v⟩ l

/-- The options of a socket that sends (endpoint.c:909-1055): `IPV6_UNICAST_HOPS` = 16, `IP_TTL` = 2. -/
def forSending (os : Os) (af : Family) (size : Int) (typeP : U32) (l : List SockOpt) : Option (List SockOpt) :=
  (enlarge os 7 size os.sndbuf l).bind fun l =>
    (match af with
    | .inet6 => ask os ⟨41, 16, 255⟩ l
    | .inet => ask os ⟨0, 2, 255⟩ l
    | .other => none).bind fun l => forClass os af typeP l

/-- The options `_OWPEndpointInit` sets (endpoint.c:780-843, 909-1055), and the size it wants (431-445). `none`: the session is refused. -/
def prepare (os : Os) (twoway send : Bool) (af : Family) (mode padding typeP : U32) : Option (List SockOpt) :=
  (bufferSize twoway af mode padding).bind fun size =>
    (if twoway || !send then forReceiving os af size [] else some []).bind fun l =>
      if twoway || send then forSending os af size typeP l else some l

/-! ## Receiving -/

/-- A piece of ancillary data. -/
structure Cmsg where
  level : Nat
  type : Nat
  data : Bytes
deriving DecidableEq, Repr

/-- What `recvmsg` gives when it succeeds: the peer, the datagram (all of it), the ancillary data in the buffer (none: `msg_controllen` is below the
size of a header), and the flag `MSG_CTRUNC`. -/
structure Delivery where
  peer : Bytes
  bytes : Bytes
  ctl : List Cmsg
  cut : Bool
deriving DecidableEq, Repr

/-- The `int` at the front of a piece of ancillary data, on a machine of the given byte order (`memcpy` of `sizeof(int)`), cast to `uint8_t`
(endpoint.c:1870-1871, 1902-1903). -/
def intByte (big : Bool) (data : Bytes) : Byte :=
  BitVec.ofNat 8 (beDec (if big then data.take 4 else (data.take 4).reverse))

/-- The loop over the ancillary data (endpoint.c:1857-1919): whether it ended well, and `*ttl`. -/
def readTtl (big : Bool) (af : Family) : List Cmsg → Byte → Bool × Byte
  | [], t => (true, t)
  | m :: ms, t =>
    match af with
    | .inet6 => if m.level = 41 ∧ m.type = 52 then readTtl big af ms (intByte big m.data) else (false, t)
    | .inet =>
      if m.level = 0 ∧ m.type = 12 then readTtl big af ms (get8 m.data 0)
      else if m.level = 0 ∧ m.type = 2 then readTtl big af ms (intByte big m.data)
      else (false, t)
    | .other => (false, t)

/-- `recvfromttl` (endpoint.c:1809-1922) with a buffer of `len` bytes on a socket of family `af`: its value and `*ttl`. `none`: `recvmsg` fails. -/
def recvFromTtl (big : Bool) (af : Family) (len : Nat) : Option Delivery → Int × Byte
  | none => (-1, 255)
  | some d =>
    let rc : Int := (min d.bytes.length len : Nat)
    if d.ctl = [] ∨ d.cut then (rc, 255)
    else
      let r := readTtl big af d.ctl 255
      if r.1 then (rc, r.2) else (-rc, r.2)

/-- The size of the buffer for ancillary data, `CMSG_SPACE(sizeof(uint8_t))` (endpoint.c:1826-1829), where a word (`size_t`) has `w` bytes: a header of
`w + 8` bytes and one word. -/
def ctlRoom (w : Nat) : Nat := (w + 8) + w

/-- The call as the receiver, the reflector and the two-way client see it (`Recv.Got`). A negative value is taken for an error: `errno` is not set by it, so
`eintr` is stale. -/
def got (big : Bool) (af : Family) (len : Nat) (eintr : Bool) (x : Option Delivery) : Recv.Got :=
  match x with
  | none => .fail eintr
  | some d => if (recvFromTtl big af len x).1 < 0 then .fail eintr else .dgram d.peer d.bytes (recvFromTtl big af len x).2 eintr

end Owamp.Hops
