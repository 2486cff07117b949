import Verif.Model.Classes
import Verif.Model.Secrets

/-!
Model of `OWPDPolicyInstall` (owampd/policy.c:1150-1364): where the server takes its pass-phrases and its limits from, and what
it does when a file is not there, cannot be read, or is not in order.

Simplified: the two tables and the record are values (the C code allocates them; that failing is `memory = false`); the readings
of `I2ParsePFFile` and `I2GetConfLine` are what `fopen` gives (see `Opened`), together with whether the reading then met a line
that it could not make sense of; the messages written to the log are left out.
-/

namespace Owamp.Install
open Owamp.Policy
open Owamp.Secrets

/-- What `fopen(name,"r")` gives (policy.c:1237, 1264): no such file, another failure, or a file, what is in it, and whether
`fclose` succeeds after the reading. -/
inductive Opened (α : Type) where
  | missing
  | unreadable
  | there (content : α) (closes : Bool)
deriving DecidableEq, Repr

/-- The hooks of a context that the server sets (policy.c:1172-1178). -/
inductive Hook where
  | getPF | checkControl | checkTest | checkFetch | testComplete | openFile | closeFile
deriving DecidableEq, Repr

/-- Everything the function depends on besides its arguments: whether memory can be had, the files, by name, read as
pass-phrases and read as limits (the flag: a line could not be read), whether a value can be put into the context, and the
readings of numbers and addresses. -/
structure Env where
  memory : Bool
  pfs : Bytes → Opened (List (Bytes × Bytes) × Bool)
  limits : Bytes → Opened (List Bytes × Bool)
  setPolicy : Bool
  setHook : Hook → Bool
  num : Bytes → Option U64
  refuseDup : Bool
  getaddr : Bytes → Option Bytes
  strtoul : Bytes → Option Nat

/-- `OWPDPolicyRec` (policy.h) and the hooks of the context, each with the function it was set to. -/
structure Installed where
  datadir : Bytes
  secrets : Store
  policy : Policy
  hooks : List (Hook × Hook)

/-- `MAXPATHLEN`. -/
def maxPath : Nat := 4096

/-- `OWP_PFS_FILE_SUFFIX` (policy.h:31). -/
def pfsSuffix : Bytes := text ['.', 'p', 'f', 's']

/-- `OWP_LIMITS_FILE_SUFFIX` (policy.h:30). -/
def limitsSuffix : Bytes := text ['.', 'l', 'i', 'm', 'i', 't', 's']

/-- The name of a file (policy.c:1219-1236, 1246-1263); `none`: it does not fit. -/
def path (confdir pre suffix : Bytes) : Option Bytes :=
  if pre.length + suffix.length > maxPath then none
  else if pre.length + suffix.length + confdir.length + 1 > maxPath then none
  else some (confdir ++ [47#8] ++ pre ++ suffix)

/-- `fopen` and the question about `errno` (policy.c:1237-1240, 1264-1270): `none`, the function fails; `some none`, there is no
such file. -/
def opened {α : Type} : Opened α → Option (Option (α × Bool))
  | .missing => some none
  | .unreadable => none
  | .there c closes => some (some (c, closes))

/-- `fp && (fclose(fp) != 0)` (policy.c:1289, 1295). -/
def closesWell {α : Type} (f : Option (α × Bool)) : Bool :=
  match f with
  | none => true
  | some (_, closes) => closes

/-- The users `assign user` lines may name: `I2HashFetch(policy->pfs,…)` (policy.c:577-586). -/
def assignEnv (E : Env) (t : Store) : AssignEnv :=
  { refuseDup := E.refuseDup, getaddr := E.getaddr, strtoul := E.strtoul, known := fun u => (fetch t u).isSome }

/-- `parselimits` (policy.c:625-723) with a file that may be missing (policy.c:645-647) or have a line that cannot be read
(policy.c:699-701). -/
def limitsOf (E : Env) (t : Store) (f : Option (List Bytes × Bool)) : Outcome Policy :=
  match f with
  | none => parseLimits E.num (assignEnv E t) []
  | some (lines, bad) =>
    if bad then
      match parseLines E.num (assignEnv E t) ⟨[], []⟩ lines with
      | .overrun => .overrun
      | _ => .refused
    else parseLimits E.num (assignEnv E t) lines

/-- The hooks in the order they are set, each with its function (policy.c:1172-1178, 1311-1339). -/
def table : List (Hook × Hook) :=
  [(.getPF, .getPF), (.checkControl, .checkControl), (.checkTest, .checkTest), (.checkFetch, .checkFetch),
   (.testComplete, .testComplete), (.openFile, .openFile), (.closeFile, .closeFile)]

/-- The hooks are set one by one (policy.c:1311-1339); `none`: one could not be set. -/
def setHooks (set : Hook → Bool) : List (Hook × Hook) → List (Hook × Hook) → Option (List (Hook × Hook))
  | [], done => some done
  | (k, f) :: r, done => if set k then setHooks set r (done ++ [(k, f)]) else none

/-- `OWPDPolicyInstall` (policy.c:1150-1364). `refused` is `NULL`: the server exits (owampd.c:1534-1538). -/
def install (E : Env) (datadir : Option Bytes) (confdir pre : Bytes) : Outcome Installed :=
  if ¬ E.memory then .refused
  else
    match path confdir pre pfsSuffix with
    | none => .refused
    | some pfname =>
      match opened (E.pfs pfname) with
      | none => .refused
      | some kfp =>
        match path confdir pre limitsSuffix with
        | none => .refused
        | some lfname =>
          match opened (E.limits lfname) with
          | none => .refused
          | some lfp =>
            match parsePfs (kfp.map (·.1)) with
            | none => .refused
            | some t =>
              match limitsOf E t (lfp.map (·.1)) with
              | .refused => .refused
              | .overrun => .overrun
              | .ok P =>
                if ¬ closesWell kfp then .refused
                else if ¬ closesWell lfp then .refused
                else if ¬ E.setPolicy then .refused
                else
                  match setHooks E.setHook table [] with
                  | none => .refused
                  | some hs => .ok ⟨datadir.getD [46#8], t, P, hs⟩

end Owamp.Install
