import Verif.Model.Classes
/-!
# Model of how owampd finds its session files again when it is started (owampd/policy.c)

Not modelled: paths longer than `PATH_MAX`, directories that cannot be read or created, files whose status cannot be read. `clean_catalog` (policy.c:794-867) has emptied the catalog.
-/
namespace Owamp.Policy

/-- The contents of a directory, in the order in which `fts_read` (`FTS_PHYSICAL`) gives them: files, with `st_size`, and directories. -/
inductive Dir where
  | nil
  | file (name : Bytes) (size : Nat) (rest : Dir)
  | sub (name : Bytes) (inside : Dir) (rest : Dir)
deriving DecidableEq, Repr

/-- `OWP_FILE_EXT` (owamp.h:126-128). -/
def fileExt : Bytes := text ['.', 'o', 'w', 'p']

/-- A name that `verify_datadir` takes for that of a session file (policy.c:1015-1022); `hex`: `I2HexDecode` of 32 characters succeeds. -/
def sessionName (hex : Bytes → Bool) (name : Bytes) : Bool :=
  decide (name.length = fileExt.length + 16 * 2) && decide (name.drop 32 = fileExt) && hex (name.take 32)

/-- `node_dir` (policy.c:747-791): the names of the directories below the directory `OWP_HIER_DIR`. -/
def nodeDir (t : Tree) (i : Nat) : List Bytes :=
  match t[i]? with
  | none => []
  | some n =>
    (match n.parent with
    | none => []
    | some p => if _h : p < i then nodeDir t p else []) ++ [n.name]
termination_by i

/-- What changes while the directories are read: `initdisk` of each class, the classes with their counters, and the catalog, a list of links (name, path below `OWP_HIER_DIR`). -/
structure Boot where
  disk : Nat → Nat
  nodes : Tree
  catalog : List (Bytes × List Bytes)

/-- `OWPDResourceUsage` (policy.c:1653-1680) with `IntegerResourceUsage` (policy.c:1602-1651) for `OWPDLimDisk`. -/
def diskUsage (t : Tree) (k v : Nat) : Tree :=
  match t[k]? with
  | none => t
  | some n =>
    match findLim n.lims limDisk with
    | none => t
    | some e => if e.value = 0 then t else modUsed t k limDisk (fun _ => BitVec.ofNat 64 v)

/-- The case of a file (policy.c:999-1042): `here` is `fts_pointer` of the directory. `none`: the link cannot be made since there is one of that name. -/
def bootFile (hex : Bytes → Bool) (here : Option Nat) (path : List Bytes) (name : Bytes) (size : Nat) (s : Boot) : Option Boot :=
  match here with
  | none => some s
  | some k =>
    if !sessionName hex name then some s
    else if s.catalog.any (fun l => decide (l.1 = name)) then none
    else some { s with catalog := s.catalog ++ [(name, path ++ [name])], disk := fun c => if c = k then s.disk c + size else s.disk c }

/-- The case of a directory that has been read (policy.c:971-997). -/
def bootLeave (t : Tree) (k : Nat) (s : Boot) : Boot :=
  let s := { s with nodes := diskUsage s.nodes k (s.disk k) }
  match t[k]?.bind (·.parent) with
  | none => s
  | some p => { s with disk := fun c => if c = p then s.disk c + s.disk k else s.disk c }

/-- `verify_datadir` (policy.c:875-1050) from the contents of a directory on: `level` is `fts_level` of the entries. `none`: `goto err`. The root is the first class. -/
def bootDir (hex : Bytes → Bool) (t : Tree) : Dir → Nat → Option Nat → List Bytes → Boot → Option Boot
  | .nil, _, _, _, s => some s
  | .file name size rest, level, here, path, s =>
    match bootFile hex here path name size s with
    | none => none
    | some s => bootDir hex t rest level here path s
  | .sub name inside rest, level, here, path, s =>
    match findClass t name with
    | none => bootDir hex t rest level here path s
    | some k =>
      if (level = 1 ∧ k = 0) ∨ (1 < level ∧ here = t[k]?.bind (·.parent)) then
        match bootDir hex t inside (level + 1) (some k) (path ++ [name]) s with
        | none => none
        | some s => bootDir hex t rest level here path (bootLeave t k s)
      else none

/-- `OWPDPolicyPostInstall` (policy.c:1365-1380) with `InitializeDiskUsage` (policy.c:1052-1125) for the contents of the directory `OWP_HIER_DIR`; `initdisk` is 0 in a new class. -/
def boot (hex : Bytes → Bool) (t : Tree) (d : Dir) : Option Boot := bootDir hex t d 1 none [] ⟨fun _ => 0, t, []⟩

/-! ## The class of a file -/

/-- `OWP_PATH_SEPARATOR`. -/
def slash : Byte := 47#8

/-- The path that `OWPDOpenFile` gives a session file (policy.c:2572-2582), `sid` being the name made by `I2HexEncode`. -/
def filePath (datadir : Bytes) (t : Tree) (c : Nat) (sid : Bytes) : Bytes :=
  datadir ++ slash :: text ['h', 'i', 'e', 'r', 'a', 'r', 'c', 'h', 'y'] ++ (nodeDir t c).flatMap (fun n => slash :: n) ++ slash :: sid ++ fileExt

/-- The class that `OWPDOpenFile` finds for a file that is to be fetched (policy.c:2638-2724), from the link's contents. `none`: failure. (An unknown class is reported, and an unset variable used:
modelled as a failure, too.) -/
def fetchClass (t : Tree) (link : Bytes) : Option Nat :=
  if link.length < 1 + 16 * 2 + fileExt.length then none
  else
    let s := link.take (link.length - (1 + 16 * 2 + fileExt.length))
    let dname := (s.reverse.takeWhile (fun b => decide (b ≠ slash))).reverse
    if dname.length + 1 < s.length then findClass t dname else none

end Owamp.Policy
