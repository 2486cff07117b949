import Verif.Model.Hops
/-!
# What a system does for a socket: options, TTLs, ancillary data
-/
namespace Owamp.Spec.Hops
open Owamp.Hops Owamp.Sizes

/-- The value a socket has for an option after the calls `l`: that of the last call that set it. -/
def setting (l : List SockOpt) (level name : Nat) : Option Int :=
  (l.reverse.find? fun o => o.level = level ∧ o.name = name).map (·.value)

/-- The TTL (hop limit) of packets sent through the socket, as set by the program: `IP_TTL`, `IPV6_UNICAST_HOPS`. -/
def ttlSet (l : List SockOpt) : Family → Option Int
  | .inet => setting l 0 2
  | .inet6 => setting l 41 16
  | .other => none

/-- Whether the program asked to be told the TTL of packets that arrive: `IP_RECVTTL`, `IPV6_RECVHOPLIMIT`. -/
def tells (l : List SockOpt) : Family → Prop
  | .inet => setting l 0 12 = some 1
  | .inet6 => setting l 41 51 = some 1
  | .other => False

/-- An `int` in memory on a machine of the given byte order. -/
def cint (big : Bool) (t : Nat) : Bytes := if big then beEnc 4 t else (beEnc 4 t).reverse

/-- How a system reports a TTL: IPv4 as `IP_TTL` with an `int` (Linux) or as `IP_RECVTTL` with a byte (BSD); IPv6 as `IPV6_HOPLIMIT` with an `int`. -/
inductive Report (big : Bool) (t : Nat) : Family → Cmsg → Prop where
  | linux : Report big t .inet ⟨0, 2, cint big t⟩
  | bsd : Report big t .inet ⟨0, 12, [BitVec.ofNat 8 t]⟩
  | six : Report big t .inet6 ⟨41, 52, cint big t⟩

/-- How the system puts ancillary data into a buffer of `room` bytes, where a word has `w` bytes (RFC 3542, section 20; `put_cmsg` of Linux): each piece takes a
header of `w + 8` bytes and its data, filled up to words; a piece that does not fit is cut, and this is flagged. -/
def place (w : Nat) : Nat → List Cmsg → List Cmsg × Bool
  | _, [] => ([], false)
  | room, m :: ms =>
    if room < w + 8 then ([], true)
    else if room < w + 8 + m.data.length then ([{ m with data := m.data.take (room - (w + 8)) }], true)
    else
      let r := place w (room - (w + 8 + (m.data.length + w - 1) / w * w)) ms
      (m :: r.1, r.2)

/-- A datagram with TTL `t` comes to a socket with the options `l` that asks for no other ancillary data. -/
def Arrives (big : Bool) (w : Nat) (af : Family) (l : List SockOpt) (peer bytes : Bytes) (t : Nat) (d : Delivery) : Prop :=
  d.peer = peer ∧ d.bytes = bytes ∧
    ((tells l af ∧ ∃ m, Report big t af m ∧ place w (ctlRoom w) [m] = (d.ctl, d.cut)) ∨ (¬ tells l af ∧ d.ctl = [] ∧ d.cut = false))

/-- Every router on the way takes one from the TTL and drops a packet whose TTL would be zero: what is left of `t` after `hops` routers. -/
def remains (t hops : Nat) : Option Nat := if hops < t then some (t - hops) else none

end Owamp.Spec.Hops
