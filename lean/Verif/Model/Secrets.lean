import Verif.Model.Accept
import Verif.Model.Startup
/-!
# Model of where pass-phrases come from (owampd/policy.c, owping/owping.c, powstream/powstream.c)

What is in a file of pass-phrases is given as its users and pass-phrases in order: `I2ParsePFFile` is external, and so is `I2ReadPassPhraseAlloc`. Not modelled: failing allocations.
-/
namespace Owamp.Secrets
open Owamp.Ctl

/-- A hash of pass-phrases by user: keys are compared with their length, the whole of them. -/
abbrev Store := List (Bytes × Bytes)

/-- `I2HashFetch`. -/
def fetch (t : Store) (u : Bytes) : Option Bytes := (t.find? fun e => e.1 == u).map (·.2)

/-- The loop of `parsepfs` (policy.c:72-117) on the users and pass-phrases of the file: a user who is there already ends it. -/
def store : List (Bytes × Bytes) → Store → Option Store
  | [], t => some t
  | (u, p) :: r, t =>
    match fetch t u with
    | some _ => none
    | none => store r ((u, p) :: t)

/-- `parsepfs` (policy.c:54-120): without a file there are no pass-phrases; a file with a broken line (`bad`) is refused. `none`: the server does not start (policy.c:1278-1282). -/
def parsePfs (file : Option (List (Bytes × Bytes) × Bool)) : Option Store :=
  match file with
  | none => some []
  | some (lines, bad) => (store lines []).bind fun t => if bad then none else some t

/-- `OWPDGetPF` (policy.c:1400-1436), the hook of the server. -/
def serverPF (t : Store) (u : Bytes) : PF :=
  match fetch t u with
  | some p => .known p
  | none => .unknown

/-- Where a client is told to take the pass-phrase from: a file, which cannot be opened, or is searched for the user; or the terminal. -/
inductive Source where
  | noFile
  | file (found : Option Bytes)
  | terminal (read : Option Bytes)

/-- What a client ends up with: it exits, it uses a pointer that was never set, or it has a pass-phrase with its identity, or neither, and the modes it will accept. -/
inductive Client where
  | exits
  | undefined
  | ready (identity : Option Bytes) (pass : Option Bytes) (modes : Nat)
deriving DecidableEq

/-- `"Enter passphrase for identity '%s': "` has 34 characters besides the name, and must leave room for the terminator in `MAX_PASSPROMPT` (256) characters (owping.c:706-713). -/
def promptFits (u : Bytes) : Bool := decide (34 + u.length < 256)

/-- The pass-phrase in `owp_set_auth` (owping.c:676-735; powstream.c:210-271): `none` is the pointer that was never set, `some none` no pass-phrase. -/
def passphrase (u : Bytes) : Source → Option (Option Bytes)
  | .noFile => some none
  | .file (some p) => some (some p)
  | .file none => none
  | .terminal r => if promptFits u then some r else some none

/-- The programs that connect as clients. -/
inductive Tool where
  | owping
  | twping
  | powstream
deriving DecidableEq, Repr

/-- The modes (owping.c:757-795; powstream.c:300-326): the letters, or without any all modes; with owping and twping the open mode only if there is no identity. -/
def clientModes (tool : Tool) (identity : Option Bytes) (letters : Option Bytes) : Option Nat :=
  match letters with
  | some s => Startup.modeBits (tool == .twping) 0 s
  | none => some (match tool with
    | .powstream => 7
    | .owping => if identity.isSome then 7 else 1
    | .twping => if identity.isSome then 15 else 1)

/-- `owp_set_auth` (owping.c:665-796; powstream.c:207-329). -/
def setAuth (tool : Tool) (identity : Option Bytes) (src : Source) (letters : Option Bytes) : Client :=
  match identity with
  | none =>
    match clientModes tool none letters with
    | none => .exits
    | some m => .ready none none m
  | some u =>
    match passphrase u src with
    | none => .undefined
    | some p =>
      let i := if p.isSome then some u else none
      match clientModes tool i letters with
      | none => .exits
      | some m => .ready i p m

/-- `getclientpf` (owping.c:644-659), the hook of the client: it gives what it has to whoever asks. The hook is only set if there is a pass-phrase, and without it no user is known (context.c:793-818). -/
def clientPF (pass : Option Bytes) (_ : Bytes) : PF :=
  match pass with
  | some p => .known p
  | none => .unknown

end Owamp.Secrets
