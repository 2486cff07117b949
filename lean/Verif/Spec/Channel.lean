import Verif.Spec.AES
import Verif.Model.Protocol
/-!
# What a control connection promises: AES-128 in CBC mode, a MAC over everything since the last
digest, and message layouts of RFC 4656 sections 3.1-3.9

`Owamp.Ctl.Conn` (the connection record) and `Mac` come from the model; the cipher, the tag and the
layouts are defined here independently of the functions that compute them.
-/
namespace Owamp.Spec.Channel
open Owamp.Ctl

/-- The 16 byte blocks of a byte string. -/
def blocksOf (p : Bytes) : List Bytes := (List.range (p.length / 16)).map fun i => get p (16 * i) 16

/-- Cipher block chaining (NIST SP 800-38A) with AES-128: each block is xored with the previous
ciphertext block (the IV for the first) and encrypted. -/
def cbc (key : Bytes) : Bytes → List Bytes → List Bytes
  | _, [] => []
  | iv, p :: ps =>
    let c := Spec.AES.encrypt key (List.zipWith (· ^^^ ·) p iv)
    c :: cbc key c ps

/-- The bytes that travel when `c` sends the plaintext `p`. -/
def sealed (c : Conn) (p : Bytes) : Bytes :=
  if c.cipher then (cbc c.aesKey c.writeIV (blocksOf p)).flatten else p

/-- The 16 byte HMAC field after `body`: the first 16 bytes of the MAC of everything `c` has sent since
its last digest and of `body`; zeros in open mode. -/
def tag (H : Mac) (c : Conn) (body : Bytes) : Bytes :=
  if c.cipher then (H.hash c.hmacKey (c.sendAcc ++ body)).take 16 else zeros 16

/-- No socket errors ahead; buffers have the sizes of the C arrays. -/
def Ready (c : Conn) : Prop := c.faults = [] ∧ c.msg.length = 400 ∧ c.writeIV.length = 16

/-- `B` can decrypt and verify what `A` sends next: same kind of mode and, if ciphered, same keys, same
chaining value and same text under the MAC. -/
def InStep (A B : Conn) : Prop :=
  A.cipher = B.cipher ∧
  (A.cipher = true → A.aesKey = B.aesKey ∧ A.hmacKey = B.hmacKey ∧ A.writeIV = B.readIV ∧
    A.sendAcc = B.recvAcc)

/-- In step in both directions. -/
def Linked (A B : Conn) : Prop := InStep A B ∧ InStep B A

/-- `wr` succeeds on `A`, moves it to state `sA` and puts `wire` on the socket; and a peer `B` with
those bytes next in its input gets `v` from `rd`, consumes just those bytes and ends in state `sB`,
with the two still linked. -/
def Delivers {β : Type} (A B : Conn) (wr : Conn → Option Unit × Conn) (rd : Conn → Option β × Conn)
    (wire : Bytes) (v : β) (sA sB : CState) : Prop :=
  ∃ A', wr A = (some (), A') ∧ A'.out = A.out ++ wire ∧ A'.inp = A.inp ∧ Ready A' ∧ A'.state = sA ∧
    ∀ rest, B.inp = wire ++ rest →
      ∃ B', rd B = (some v, B') ∧ B'.inp = rest ∧ B'.out = B.out ∧ Ready B' ∧ B'.state = sB ∧ Linked A' B'

/-- A server reads the type of a request and then the request. -/
def afterType {β : Type} (t : ReqType) (rd : Conn → Option β × Conn) (B : Conn) : Option β × Conn :=
  match readRequestType B with
  | (t', B) => if t' = t then rd B else (none, B)

/-- Server greeting (RFC 4656 3.1). -/
def greetingLayout (modes : U32) (challenge salt : Bytes) (count : U32) : Bytes :=
  zeros 12 ++ enc32 modes ++ challenge ++ salt ++ enc32 count ++ zeros 12

/-- Set-up response (RFC 4656 3.1); KeyID, Token and Client-IV are zero in open mode. -/
def setupLayout (mode : U32) (keyid token iv : Bytes) : Bytes := enc32 mode ++ keyid ++ token ++ iv

/-- Server start (RFC 4656 3.1), the two blocks in clear. -/
def startClearLayout (acc : Accept) (iv : Bytes) : Bytes := zeros 15 ++ [acc.code] ++ iv
/-- Server start, the last block. -/
def startLayout (uptime : U64) : Bytes := enc64 uptime ++ zeros 8

/-- Accept-session (RFC 4656 3.5). -/
def acceptLayout (acc : Accept) (port : U16) (sid : Bytes) : Bytes :=
  [acc.code] ++ zeros 1 ++ enc16 port ++ sid ++ zeros 12

/-- Start-sessions (RFC 4656 3.7). -/
def startSessionsLayout : Bytes := [2#8] ++ zeros 15

/-- Start-ack (RFC 4656 3.7). -/
def startAckLayout (acc : Accept) : Bytes := [acc.code] ++ zeros 15

/-- Fetch-session (RFC 4656 3.9). -/
def fetchLayout (first last : U32) (sid : Bytes) : Bytes := [4#8] ++ zeros 7 ++ enc32 first ++ enc32 last ++ sid

/-- Fetch-ack (RFC 4656 3.9). -/
def fetchAckLayout (a : FetchAck) : Bytes :=
  [a.accept.code] ++ [a.finished] ++ zeros 2 ++ enc32 a.nextSeq ++ enc32 a.nskips ++ enc32 a.nrecs

/-- A schedule slot (RFC 4656 3.6). -/
def slotLayout : Sched.Slot → Bytes
  | .randExp mean => [0#8] ++ zeros 7 ++ enc64 mean
  | .literal off => [1#8] ++ zeros 7 ++ enc64 off
  | .other _ => []

/-- The 16 byte address field. -/
def addrField : SockAddr → Bytes
  | .v4 a _ => enc32 a ++ zeros 12
  | .v6 a _ _ => beEnc 16 a.toNat
  | _ => []

def SockAddr.ipvn : SockAddr → Byte
  | .v4 .. => 4#8
  | _ => 6#8

def SockAddr.port : SockAddr → U16
  | .v4 _ p => p
  | .v6 _ p _ => p
  | _ => 0

/-- The test request without its slots and without its HMAC (RFC 4656 3.5; RFC 5357 3.5 for a two-way
request). -/
def requestLayout (twoway : Bool) (a : ReqArgs) (sid : Bytes) : Bytes :=
  [if twoway then 5#8 else 1#8] ++ [SockAddr.ipvn a.sender]
  ++ [if a.confSender ∧ ¬ twoway then 1#8 else 0#8]
  ++ [if a.confReceiver ∧ ¬ twoway then 1#8 else 0#8]
  ++ enc32 (if twoway then 0#32 else BitVec.ofNat 32 a.spec.slots.length)
  ++ enc32 (if twoway then 0#32 else a.spec.npackets)
  ++ enc16 (SockAddr.port a.sender) ++ enc16 (SockAddr.port a.receiver)
  ++ (if a.zeroAddr then zeros 32 else addrField a.sender ++ addrField a.receiver)
  ++ sid ++ enc32 a.spec.padding ++ enc64 a.spec.startTime ++ enc64 a.spec.lossTimeout
  ++ enc32 a.spec.typeP ++ zeros 8

end Owamp.Spec.Channel

namespace Owamp.Spec.Channel
open Owamp.Ctl

/-- The plaintext of everything still to be read on `c`: all of the input, decrypted in ciphered
modes with the key and the current chaining value. -/
def plainIn (c : Conn) : Bytes := if c.cipher then (Cbc.blockDecrypt c.aesKey c.readIV c.inp).1 else c.inp

/-- `d` is the digest due after the texts `pending` and `text`. In open mode there is no digest. -/
def DigestOf (H : Mac) (c : Conn) (text d : Bytes) : Prop :=
  c.cipher = true → d = (H.hash c.hmacKey (c.recvAcc ++ text)).take 16

/-- The read IV is a block. -/
def IVok (c : Conn) : Prop := c.cipher = true → c.readIV.length = 16

end Owamp.Spec.Channel
