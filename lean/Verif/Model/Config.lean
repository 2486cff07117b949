import Verif.Base.Bytes
/-!
# Model of the configuration tables of contexts and control connections (context.c)

A table of I2util (`I2Table`) is a list of records: `I2HashFetch` finds the record with the key, `I2HashDelete` removes it,
`I2HashStore` adds one. Keys are C strings, given by their bytes up to the terminating zero.
-/
namespace Owamp.Config

/-- `struct _OWPContextHashRecord` (context.c:206-209); `val` are the bytes of the union (context.c:200-204), the first four of
which are `u32`. -/
structure Entry where
  key : Bytes
  val : Bytes
deriving DecidableEq, Repr

abbrev Table := List Entry

/-- `strncpy(kval,key,_OWP_CONTEXT_MAX_KEYLEN)` (context.c:431, 511, 583) with `_OWP_CONTEXT_MAX_KEYLEN` 64 (owampP.h:195). -/
def cut (key : Bytes) : Bytes := key.take 64

/-- What becomes of a call to set a value: `calloc` may fail, and `I2HashStore` may. -/
inductive Stored where
  | done
  | noMemory
  | refused
deriving DecidableEq, Repr

/-- `ConfigSetU` (context.c:413-458). -/
def setU (t : Table) (key val : Bytes) : Stored → Bool × Table
  | .noMemory => (false, t)
  | s =>
    let k := cut key
    let t := if t.any (·.key = k) then t.filter (·.key ≠ k) else t
    match s with
    | .done => (true, ⟨k, val⟩ :: t)
    | _ => (false, t)

/-- `ConfigSetV` and `ConfigSetF` (context.c:460-471, 486-497): a pointer has eight bytes, as the union. -/
def setV (t : Table) (key ptr : Bytes) (s : Stored) : Bool × Table := setU t key ptr s

/-- `ConfigSetU32` (context.c:473-484): the rest of the union is not initialised. -/
def setU32 (t : Table) (key u32 junk : Bytes) (s : Stored) : Bool × Table := setU t key (u32 ++ junk) s

/-- `ConfigGetU` (context.c:499-525). -/
def getU (t : Table) (key : Bytes) : Option Bytes := (t.find? (·.key = cut key)).map (·.val)

/-- `ConfigGetV` and `ConfigGetF` (context.c:527-540, 560-573); `none` is `NULL` for a missing key. -/
def getV (t : Table) (key : Bytes) : Option Bytes := getU t key

/-- `ConfigGetU32` (context.c:542-558). -/
def getU32 (t : Table) (key : Bytes) : Option Bytes := (getU t key).map (·.take 4)

/-- `ConfigDelete` (context.c:575-597). -/
def delete (t : Table) (key : Bytes) : Bool × Table :=
  if t.any (·.key = cut key) then (true, t.filter (·.key ≠ cut key)) else (false, t)

/-- The calls that change a table. -/
inductive Op where
  | setV (key ptr : Bytes) (s : Stored)
  | setU32 (key u32 junk : Bytes) (s : Stored)
  | delete (key : Bytes)
deriving DecidableEq, Repr

/-- The effect of a call. -/
def Op.run (t : Table) : Op → Table
  | .setV key ptr s => (Config.setV t key ptr s).2
  | .setU32 key u32 junk s => (Config.setU32 t key u32 junk s).2
  | .delete key => (Config.delete t key).2

/-! ## The count of the key derivation -/

/-- `OWPContextRec` (owampP.h:197-204): the table and `pbkdf2_count`. -/
structure Context where
  table : Table
  count : Nat
deriving DecidableEq, Repr

/-- `OWPKeyDerivationCount` (owamp.h:703): the bytes of the key. -/
def countKey : Bytes :=
  ['O', 'W', 'P', 'K', 'e', 'y', 'D', 'e', 'r', 'i', 'v', 'a', 't', 'i', 'o', 'n', 'C', 'o', 'u', 'n', 't'].map fun c => BitVec.ofNat 8 c.toNat

/-- A `uint32_t` in memory; `big` is the byte order of the host. -/
def hostWord (big : Bool) (b : Bytes) : Nat := beDec (if big then b else b.reverse)

/-- `OWPContextCreate` (context.c:73-175), the table and the count: the count is taken from the table that has just been
made, else it is `_OWP_DEFAULT_PBKDF2_COUNT`, 2048 (owampP.h:63). -/
def create (big : Bool) : Context :=
  let t : Table := []
  ⟨t, match getU32 t countKey with | some b => hostWord big b | none => 2048⟩

/-- A configuration call on a context (context.c:610-690). -/
def Context.config (ctx : Context) (op : Op) : Context := { ctx with table := op.run ctx.table }

/-- The count that the greeting offers (sapi.c:357-358) and with which the token is decrypted (sapi.c:422). -/
def Context.offered (ctx : Context) : Nat := ctx.count

end Owamp.Config
