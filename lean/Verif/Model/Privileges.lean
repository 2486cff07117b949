import Verif.Model.Dscp
/-!
# Model of how owampd gives up root's privileges (owampd/owampd.c:1580-1643, 1749-1763, 1833-1843)

The identities of a process and what the system calls make of them are those of Linux without file capabilities: only a process whose effective user is 0 is privileged.
-/
namespace Owamp.Priv

/-- The real, effective and saved user and group and the supplementary groups of a process. -/
structure Cred where
  ruid : Nat
  euid : Nat
  suid : Nat
  rgid : Nat
  egid : Nat
  sgid : Nat
  groups : List Nat
deriving DecidableEq, Repr

/-- The system calls that change identities. -/
inductive Call where
  | seteuid (u : Nat)
  | setuid (u : Nat)
  | setegid (g : Nat)
  | setgid (g : Nat)
  | setgroups (l : List Nat)
deriving DecidableEq, Repr

/-- What a call does; `none`: EPERM. -/
def call (k : Cred) : Call → Option Cred
  | .seteuid u => if k.euid = 0 ∨ u = k.ruid ∨ u = k.euid ∨ u = k.suid then some { k with euid := u } else none
  | .setuid u => if k.euid = 0 then some { k with ruid := u, euid := u, suid := u } else if u = k.ruid ∨ u = k.suid then some { k with euid := u } else none
  | .setegid g => if k.euid = 0 ∨ g = k.rgid ∨ g = k.egid ∨ g = k.sgid then some { k with egid := g } else none
  | .setgid g => if k.euid = 0 then some { k with rgid := g, egid := g, sgid := g } else if g = k.rgid ∨ g = k.sgid then some { k with egid := g } else none
  | .setgroups l => if k.euid = 0 then some { k with groups := l } else none

/-- The data base of users or groups: `getpwnam`/`getgrnam` and `getpwuid`/`getgrgid`; `stale`: `errno` is set when `strtoul` returns (it is not cleared before). -/
structure Names where
  byName : Bytes → Option Nat
  byId : Nat → Bool
  stale : Bytes → Bool

/-- The options: `-U` or `user`, `-G` or `group`, `-f` or `rootfolly`. -/
structure Wish where
  user : Option Bytes
  group : Option Bytes
  allowroot : Bool

/-- `strtoul(&s[1],NULL,10)` assigned to a `uid_t`; `num` is `strtoul` in base 10. -/
def number (num : Bytes → Nat) (s : Bytes) : Nat := num (s.drop 1) % 2 ^ 32

/-- `setuser` (owampd.c:1582-1604); `none`: exit. -/
def chooseUser (N : Names) (num : Bytes → Nat) (w : Wish) : Option Nat :=
  match w.user with
  | none => if w.allowroot then some 0 else none
  | some s =>
    match N.byName s with
    | some u => if u = 0 ∧ w.allowroot = false then none else some u
    | none =>
      if s.head? = some 45#8 then
        if N.stale s ∨ N.byId (number num s) = false then none
        else if number num s = 0 ∧ w.allowroot = false then none else some (number num s)
      else none

/-- `setgroup` (owampd.c:1609-1624); `none`: exit, `some 0`: not asked for. -/
def chooseGroup (N : Names) (num : Bytes → Nat) (w : Wish) : Option Nat :=
  match w.group with
  | none => some 0
  | some s =>
    let g := match N.byName s with
      | some g => g
      | none =>
        if s.head? = some 45#8 then
          if N.stale s ∨ N.byId (number num s) = false then 0 else number num s
        else 0
    if g = 0 then none else some g

/-- A call made only if the number is not 0 (owampd.c:1631, 1749, 1754, 1836, 1840). -/
def callIf (n : Nat) (c : Call) (k : Cred) : Option Cred := if n = 0 then some k else call k c

/-- The effective identity while the data directory is read (owampd.c:1580-1641): the identity chosen, and the identities of the process. -/
def lower (U G : Names) (num : Bytes → Nat) (w : Wish) (k : Cred) : Option (Nat × Nat × Cred) :=
  if k.euid = 0 then
    match chooseUser U num w with
    | none => none
    | some u =>
      match chooseGroup G num w with
      | none => none
      | some g =>
        match callIf g (.setegid g) k with
        | none => none
        | some k =>
          match call k (.seteuid u) with
          | none => none
          | some k => some (u, g, k)
  else some (0, 0, k)

/-- While the files for the process number are written and the socket for connections is made (owampd.c:1749-1758). -/
def raise (u g : Nat) (k : Cred) : Option Cred :=
  match callIf u (.seteuid k.ruid) k with
  | none => none
  | some k => callIf g (.setegid k.rgid) k

/-- For good (owampd.c:1836-1843). -/
def drop (u g : Nat) (k : Cred) : Option Cred :=
  match callIf g (.setgid g) k with
  | none => none
  | some k => callIf u (.setuid u) k

/-- From the reading of the data directory to the first connection (owampd.c:1749-1843). -/
def settle (u g : Nat) (k : Cred) : Option Cred :=
  match raise u g k with
  | none => none
  | some k => drop u g k

/-- The identities with which connections are served: all of `main` that concerns them. `none`: the program ends. A call may fail for other reasons than permission; then it ends, too. -/
def serve (U G : Names) (num : Bytes → Nat) (w : Wish) (k : Cred) : Option Cred :=
  match lower U G num w k with
  | none => none
  | some (u, g, k) => settle u g k

/-- The identities with which the data directory is read and the catalog made (owampd.c:1649). -/
def install (U G : Names) (num : Bytes → Nat) (w : Wish) (k : Cred) : Option Cred := (lower U G num w k).map (·.2.2)

end Owamp.Priv
