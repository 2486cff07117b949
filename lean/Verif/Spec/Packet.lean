import Verif.Spec.Channel
import Verif.Model.Packet
/-!
# Test packet formats (RFC 4656 section 4.1.2, RFC 5357 section 4.2.1)

Layouts as concatenations, with the ciphers of `Spec.AES` and `Spec.Channel.cbc`. `mac` is the keyed digest.
-/
namespace Owamp.Spec.Packet
open Owamp.Pkt Owamp.Time Owamp.Spec.Channel

/-- The two bytes of an error estimate: `S` bit, 6 bits of scale, multiplier. -/
def estimate (sync : Bool) (scale mult : Byte) : Bytes := [(if sync then 0x80#8 else 0#8) ||| (scale &&& 0x3F#8), mult]

/-- The estimate a packet carries for a time stamp: its own, or the largest one expressible and unsynchronised when
it has none. -/
def estimateOf (t : TimeStamp) : Bytes :=
  if t.multiplier = 0 then estimate false 63 255 else estimate t.sync t.scale t.multiplier

/-- A sender's test packet. -/
def senderPacket (mac : Bytes → Bytes) (aes : Bytes) (seq : U32) (time : U64) (err pad : Bytes) : Fmt → Bytes
  | .clear => enc32 seq ++ enc64 time ++ err ++ pad
  | .auth =>
    let h := enc32 seq ++ zeros 12
    Spec.AES.encrypt aes h ++ enc64 time ++ err ++ zeros 6 ++ (mac h).take 16 ++ pad
  | .enc =>
    let h := enc32 seq ++ zeros 12 ++ enc64 time ++ err ++ zeros 6
    (cbc aes (zeros 16) (blocksOf h)).flatten ++ (mac h).take 16 ++ pad

/-- The header of a reflected packet in the two ciphered modes, after the sequence number block. -/
def replyTail (time : U64) (err : Bytes) (rcv : U64) (sndSeq : U32) (sndTime : U64) (sndErr : Bytes) (ttl : Byte) : Bytes :=
  enc64 time ++ err ++ zeros 6 ++ enc64 rcv ++ zeros 8 ++ enc32 sndSeq ++ zeros 12 ++ enc64 sndTime ++ sndErr ++ zeros 6 ++
    [ttl] ++ zeros 15

/-- A reflector's test packet without its padding. -/
def replyPacket (mac : Bytes → Bytes) (aes : Bytes) (seq : U32) (time : U64) (err : Bytes) (rcv : U64) (sndSeq : U32)
    (sndTime : U64) (sndErr : Bytes) (ttl : Byte) : Fmt → Bytes
  | .clear => enc32 seq ++ enc64 time ++ err ++ zeros 2 ++ enc64 rcv ++ enc32 sndSeq ++ enc64 sndTime ++ sndErr ++ zeros 2 ++ [ttl]
  | .auth =>
    let h := enc32 seq ++ zeros 12
    Spec.AES.encrypt aes h ++ replyTail time err rcv sndSeq sndTime sndErr ttl ++ (mac h).take 16
  | .enc =>
    let h := enc32 seq ++ zeros 12 ++ replyTail time err rcv sndSeq sndTime sndErr ttl
    (cbc aes (zeros 16) (blocksOf h)).flatten ++ (mac h).take 16

/-- What a reader should make of an error estimate: flag, scale (a 6 bit field), multiplier, and that it is usable. -/
def estimateRead (t : TimeStamp) : ErrEst :=
  if t.multiplier = 0 then ⟨false, 63, 255, true⟩ else ⟨t.sync, t.scale &&& 0x3F#8, t.multiplier, true⟩

end Owamp.Spec.Packet
