import Verif.Model.TwStats
import Verif.Spec.Stats
/-!
# What the summary of a two-way session should say

Everything here is about the list of records of a session file, in the order of the file (which is the order in which replies came back).
-/
namespace Owamp.Spec.TwStats
open Owamp.Codec

/-- A record without a time of arrival at the reflector says that no reply came. -/
def Lost (r : TWDataRec) : Prop := r.sent.recv.owptime = 0

instance (r : TWDataRec) : Decidable (Lost r) := inferInstanceAs (Decidable (_ = _))

/-- The number of the packet, and the number the reflector gave to its reply. -/
def seqOf (r : TWDataRec) : Nat := r.sent.seq.toNat
def replyOf (r : TWDataRec) : Nat := r.reflected.seq.toNat

/-- The records about packets from `first` up to but without `last`. -/
def within (first last : Nat) (rs : List TWDataRec) : List TWDataRec := rs.filter fun r => decide (first ≤ seqOf r ∧ seqOf r < last)

def losses (rs : List TWDataRec) : List TWDataRec := rs.filter fun r => decide (Lost r)
def replies (rs : List TWDataRec) : List TWDataRec := rs.filter fun r => decide (¬ Lost r)

/-- The first record for each value of `key`. -/
def firsts (key : TWDataRec → Nat) (rs : List TWDataRec) : List TWDataRec :=
  rs.foldl (fun kept r => if kept.any (fun k => key k = key r) then kept else kept ++ [r]) []

/-- Of every delay: the way out, the way back, the time at the reflector, and the round trip without the last. -/
def out (c : Owamp.TwStats.Cfg) (r : TWDataRec) : Int := c.delay r.sent.send r.sent.recv
def back (c : Owamp.TwStats.Cfg) (r : TWDataRec) : Int := c.delay r.reflected.send r.reflected.recv
def held (c : Owamp.TwStats.Cfg) (r : TWDataRec) : Int := c.delay r.sent.recv r.reflected.send
def trip (c : Owamp.TwStats.Cfg) (r : TWDataRec) : Int := c.delay r.sent.send r.reflected.recv - held c r

/-- The errors of the three delays over the network: the sums of those of the time stamps they are computed from. For a lost packet: that of the only
time there is. -/
def errOut (r : TWDataRec) : Nat :=
  if Lost r then Stats.stampError r.sent.recv else Stats.stampError r.sent.send + Stats.stampError r.sent.recv
def errBack (r : TWDataRec) : Nat :=
  if Lost r then Stats.stampError r.sent.recv else Stats.stampError r.reflected.send + Stats.stampError r.reflected.recv
def errTrip (r : TWDataRec) : Nat := if Lost r then Stats.stampError r.sent.recv else errOut r + errBack r

/-- The end of a range: -1 as `uint32_t` stands for all the packets of the session. -/
def lastOf (c : Owamp.TwStats.Cfg) (last : Nat) : Nat := if last = 2 ^ 32 - 1 then c.npackets.toNat else last

/-- Neither the packet nor the reply has a number in a skip range. -/
def Clear (c : Owamp.TwStats.Cfg) (r : TWDataRec) : Prop :=
  ¬ Stats.Skipped c.skips (seqOf r) ∧ (¬ Lost r → ¬ Stats.Skipped c.skips (replyOf r))

/-- The first reply to each packet that was answered, and the first copy of each reply of the reflector. -/
def answered (rs : List TWDataRec) : List TWDataRec := firsts seqOf (replies rs)
def returned (rs : List TWDataRec) : List TWDataRec := firsts replyOf (replies rs)

/-- No packet is recorded as lost twice. -/
def LossOnce (rs : List TWDataRec) : Prop := (losses rs).Pairwise fun r r' => seqOf r ≠ seqOf r'

/-- When the packet of the reply `r` was sent, the timeout had not yet passed since the time `sched`, in the arithmetic of 64 bit time stamps. -/
def InTime (timeout sched : Nat) (r : TWDataRec) : Prop := (r.sent.send.owptime.toNat + 2 ^ 64 - timeout) % 2 ^ 64 ≤ sched

/-- Records, for packets scheduled at `sched`, as they come if no packet is sent late and no two packets overtake each other both on the way out and on the way
back: a reply's packet was sent in time for the schedule of its own and of every later record; no later record is about a packet below one that was
given up; no packet is both answered and given up; the reflector gives a number to one packet only; and of two replies that come back in another order than
that in which they were sent, the one that comes last is to a packet with a smaller number. -/
structure InStep (timeout : Nat) (sched : Nat → Nat) (rs : List TWDataRec) : Prop where
  self : ∀ r ∈ rs, ¬ Lost r → InTime timeout (sched (seqOf r)) r
  later : rs.Pairwise fun r r' => ¬ Lost r → InTime timeout (sched (seqOf r')) r
  passed : rs.Pairwise fun r r' => Lost r → seqOf r ≤ seqOf r'
  verdict : ∀ r ∈ rs, ∀ r' ∈ rs, Lost r → ¬ Lost r' → seqOf r ≠ seqOf r'
  owner : ∀ r ∈ replies rs, ∀ r' ∈ replies rs, replyOf r = replyOf r' → seqOf r = seqOf r'
  crossing : (replies rs).Pairwise fun r r' => replyOf r' < replyOf r → seqOf r' < seqOf r

end Owamp.Spec.TwStats
