import Verif.Spec.Receiver
import Verif.Spec.Stats
/-!
# What the report of a one-way session should say of the packets the sender sent
-/
namespace Owamp.Spec.EndToEnd
open Owamp.Num64 Owamp.Recv Owamp.Spec.Sender Owamp.Spec.Receiver

/-- A turn of the receiver in which its system calls succeed (or only the wake-up comes) and no signal stops it; the clock then showed `r`. -/
structure Calm (a : Arrival) (r : Owamp.Sender.Reading) : Prop where
  timer : a.timer = true
  sigs : a.sig1 = .none ∧ a.sig2 = .none ∧ a.sig3 = .none ∧ a.sig4 = .none
  usr2 : ∀ j, a.usr2 j = false
  clock : a.clock = some r

/-- The turn brings exactly these bytes from the address `remote`. -/
def brings (remote bytes : Bytes) (a : Arrival) : Bool :=
  match a.got with
  | .dgram peer b _ _ => peer = remote && b = bytes
  | .fail _ => false

/-- A copy of packet `k`, sent at `sent`, that arrives at `now` is in time: no more than the timeout after the packet's scheduled time, and no more than the timeout
away from the time it was sent. -/
def inTime (c : Recv.Cfg) (ds : List Nat) (k : Nat) (sent now : TimeParts) : Bool :=
  total 1000000000 now ≤ unixNanos (schedTime c.start.toNat ds k) + nanos c.timeout.toNat &&
    apart (stampOf sent).toNat (stampOf now).toNat ≤ c.timeout.toNat

/-- How many copies of packet `k`, as the sender handed it to the network in `calls`, arrived in time. -/
def inTimeCopies (c : Recv.Cfg) (ds : List Nat) (calls : List Owamp.Sender.Call) (as : List Arrival) (k : Nat) : Nat :=
  as.countP fun a => (handed k calls).any fun x => brings c.remote x.bytes a && a.clock.any fun r => inTime c ds k x.time r.time

/-- How many packets below `n` were handed to the network. -/
def sentCount (n : Nat) (calls : List Owamp.Sender.Call) : Nat := Spec.Stats.packets n fun k => handed k calls ≠ []

/-- How many packets below `n` were handed to the network but no copy arrived in time. -/
def lostCount (n : Nat) (c : Recv.Cfg) (ds : List Nat) (calls : List Owamp.Sender.Call) (as : List Arrival) : Nat :=
  Spec.Stats.packets n fun k => handed k calls ≠ [] && inTimeCopies c ds calls as k = 0

/-- How many copies beyond the first of each packet arrived in time. -/
def extraCount (n : Nat) (c : Recv.Cfg) (ds : List Nat) (calls : List Owamp.Sender.Call) (as : List Arrival) : Nat :=
  ((List.range n).map fun k => inTimeCopies c ds calls as k - 1).sum

/-- A copy of a packet that arrived: which packet, when the packet was sent and when the copy came, as time stamps of the two clocks, and the TTL it came with. -/
structure Copy where
  packet : Nat
  sent : U64
  came : U64
  ttl : Byte
deriving DecidableEq, Repr

/-- The copy, in time, of a packet handed to the network in `calls`, that a turn of the receiver brings. -/
def copyOf (c : Recv.Cfg) (ds : List Nat) (calls : List Owamp.Sender.Call) (a : Arrival) : Option Copy :=
  match a.got, a.clock with
  | .dgram peer b ttl _, some r =>
    if peer = c.remote then
      (calls.find? fun x => decide (x.res ≠ .nobufs) && decide (x.bytes = b) && inTime c ds x.seq x.time r.time).map fun x => ⟨x.seq, stampOf x.time, stampOf r.time, ttl⟩
    else none
  | _, _ => none

/-- The copies that arrived in time, in the order in which they came. -/
def copiesInTime (c : Recv.Cfg) (ds : List Nat) (calls : List Owamp.Sender.Call) (as : List Arrival) : List Copy := as.filterMap (copyOf c ds calls)

/-- The copy of packet `k` that came first. -/
def firstOf (l : List Copy) (k : Nat) : Option Copy := l.find? fun q => decide (q.packet = k)

/-- How many of the packets below `n` came first in a copy that satisfies `p`. -/
def firstsOf (n : Nat) (l : List Copy) (p : Copy → Bool) : Nat := Spec.Stats.packets n fun k => (firstOf l k).any p

/-- How many copies came right after `j` copies that all had larger numbers. -/
def overtaken (l : List Copy) (j : Nat) : Nat :=
  (List.range l.length).countP fun p => decide (j ≤ p ∧ ∀ x, x < j → (l.map (·.packet)).getD p 0 < (l.map (·.packet)).getD (p - 1 - x) 0)

/-- Some packet below `n` came first in a copy with TTL `t`. -/
def TtlCame (n : Nat) (l : List Copy) (t : Nat) : Prop := ∃ k q, k < n ∧ firstOf l k = some q ∧ q.ttl.toNat = t

end Owamp.Spec.EndToEnd
