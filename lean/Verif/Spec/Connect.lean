import Verif.Model.Connect
/-!
# What it means that an address works, for C87 and C88
-/
namespace Owamp.Spec.Connect
open Owamp.Connect

/-- The addresses that may be tried, in the order in which they should be: those of version 6 before those of version 4, otherwise as the name service gives them. -/
def order (only4 only6 : Bool) (addrs : List Cand) : List Cand :=
  (if only4 then [] else addrs.filter fun c => c.family == .v6) ++ (if only6 then [] else addrs.filter fun c => c.family == .v4)

/-- A socket for the address `c` can be bound to the address `a` of what the user calls `name`: an interface of this name, or else a host. -/
def CanBind (c : Cand) (name : Bytes) (a : Nat) : Prop :=
  if ∃ l, c.ifaces = some l ∧ ∃ i ∈ l, i.name = name then ∃ l, c.ifaces2 = some l ∧ ∃ i ∈ l, i.name = name ∧ i.addr = some (c.family, a) ∧ i.binds = true
  else ∃ l, c.locals = some l ∧ (a, true) ∈ l

/-- The address can be connected to, from the address `loc` and over the interface `dev`, if they are given. -/
structure Works (loc dev : Option Bytes) (c : Cand) : Prop where
  socket : c.socket = true
  device : dev.isSome → c.device = true ∧ c.dup = true
  bound : ∀ l, loc = some l → ∃ a, CanBind c l a
  connect : c.connect = true
  records : c.records = true ∧ c.localRecord = true

/-- The addresses for a server, those of version 6 first. -/
def seatOrder (seats : List Seat) : List Seat := (seats.filter fun s => s.family == .v6) ++ (seats.filter fun s => s.family == .v4)

/-- A socket can be bound to the address. -/
structure Free (s : Seat) : Prop where
  socket : s.socket = true
  reuse : s.reuse = true
  both : s.family = .v6 → s.both = true
  bind : s.bind = true

/-- The address is taken by another socket. -/
structure Taken (s : Seat) : Prop where
  socket : s.socket = true
  reuse : s.reuse = true
  both : s.family = .v6 → s.both = true
  bind : s.bind = false
  inUse : s.inUse = true

end Owamp.Spec.Connect
