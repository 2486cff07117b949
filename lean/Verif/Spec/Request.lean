import Verif.Spec.Channel
/-!
# What a server is to understand of a test request
-/
namespace Owamp.Spec.Request
open Owamp.Ctl

/-- `a` is an IPv6 address in `fe80::/10`: its first ten bits are 1111111010. -/
def isLinkLocal (a : BitVec 128) : Prop := a.extractLsb' 118 10 = 0b1111111010#10

instance (a : BitVec 128) : Decidable (isLinkLocal a) := by unfold isLinkLocal; infer_instance

/-- The address and port travel; an endpoint the server is to provide has no port yet. The scope of a
link-local address is that of the control connection, any other IPv6 address has none. `zero`
says that the client left the addresses out. -/
def seen (remote : SockAddr) (zero ours : Bool) : SockAddr → SockAddr
  | .v4 a p => .v4 (if zero then 0 else a) (if ours then 0 else p)
  | .v6 a p _ =>
    let a' := if zero then 0 else a
    .v6 a' (if ours then 0 else p)
      (if isLinkLocal a' then (match remote with | .v6 _ _ s => s | _ => 0) else 0)
  | x => x

/-- A link-local test address needs a link-local control connection. -/
def scopeKnown (remote : SockAddr) (zero : Bool) : SockAddr → Prop
  | .v6 a _ _ => zero = false → isLinkLocal a → ∃ c p s, remote = .v6 c p s ∧ isLinkLocal c
  | _ => True

/-- Both IPv4 or both IPv6. -/
def sameFamily : SockAddr → SockAddr → Prop
  | .v4 .., .v4 .. => True
  | .v6 .., .v6 .. => True
  | _, _ => False

/-- In a two-way request an all-zero address stands for an end of the control connection. -/
def filledIn (ctl : SockAddr) : SockAddr → SockAddr
  | .v4 a p => match ctl with
    | .v4 ca _ => .v4 (if a = 0 then ca else a) p
    | _ => .v4 a p
  | .v6 a p s => match ctl with
    | .v6 ca _ _ => .v6 (if a = 0 then ca else a) p s
    | _ => .v6 a p s
  | x => x

/-- The slots in the order of the schedule. -/
def slotsText (ss : List Sched.Slot) : Bytes := (ss.map Channel.slotLayout).flatten

/-- A slot of one of the two kinds of RFC 4656. -/
def Known : Sched.Slot → Prop
  | .other _ => False
  | _ => True

end Owamp.Spec.Request
