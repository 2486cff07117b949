import Verif.Base.Bytes
/-!
# Model of how powstream gives its files their names (powstream/powstream.c:634-823, 2111-2195)

The disk is a directory of names, each for a numbered file, and the contents of the files. A function of this module gives the worlds that come about one
after the other, so that any of them may be the one a crash leaves behind. What the system calls do is a parameter. Not modelled: `exit` when a file cannot be
opened for lack of permission or because it exists (the model goes on, which adds worlds and takes none away), the order in which the system writes the contents of files and the directory to the disk.
-/
namespace Owamp.Publish

/-- The directory, the contents, the number of the next new file, the names the program has printed, and whether it has used a value never
set. -/
structure World where
  dir : Nat → Option Nat
  data : Nat → Bytes
  fresh : Nat
  said : List Nat
  undef : Bool

/-- What a reader finds under a name. -/
def World.read (w : World) (n : Nat) : Option Bytes := (w.dir n).map w.data

/-- `open` with `O_CREAT|O_EXCL`, or `fopen` of a name that does not exist. -/
def create (w : World) (n : Nat) : World :=
  { w with dir := fun m => if m = n then some w.fresh else w.dir m, data := fun i => if i = w.fresh then [] else w.data i, fresh := w.fresh + 1 }

/-- The file number `i` gets the contents `c`. -/
def fill (w : World) (i : Nat) (c : Bytes) : World := { w with data := fun j => if j = i then c else w.data j }

/-- `fopen` for writing: a file that exists is emptied. -/
def fopen (w : World) (n : Nat) : World × Nat :=
  match w.dir n with
  | some i => (fill w i [], i)
  | none => (create w n, w.fresh)

/-- `link(a,b)`; `ok`: nothing else stands against it. Fails if `b` exists. -/
def link (w : World) (a b : Nat) (ok : Bool) : World × Bool :=
  if ok = true ∧ w.dir b = none then ({ w with dir := fun m => if m = b then w.dir a else w.dir m }, true) else (w, false)

def unlink (w : World) (n : Nat) (ok : Bool) : World :=
  if ok then { w with dir := fun m => if m = n then none else w.dir m } else w

def say (w : World) (n : Nat) : World := { w with said := w.said ++ [n] }

/-- What the data file meets: the open, how much is copied when `I2CopyFile` gives up (`none`: all), the link, the unlink. -/
structure DataEnv where
  opens : Bool
  stops : Option Nat
  links : Bool
  unlinks : Bool

/-- A name the program keeps in a buffer: never set, empty, or set. -/
inductive Kept where
  | unset
  | empty
  | name (n : Nat)
deriving DecidableEq, Repr

/-- The data file (powstream.c:643-706): the worlds, and `ofname`. -/
def putData (w : World) (tmp final : Nat) (content : Bytes) (e : DataEnv) : List World × World × Kept :=
  if e.opens = false ∨ w.dir tmp ≠ none then ([w], w, .unset)
  else
    let w1 := create w tmp
    match e.stops with
    | some k =>
      let w2 := fill w1 w.fresh (content.take k)
      let w3 := unlink w2 tmp e.unlinks
      ([w, w1, w2, w3], w3, .unset)
    | none =>
      let w2 := fill w1 w.fresh content
      let l := link w2 tmp final e.links
      let w3 := unlink l.1 tmp e.unlinks
      ([w, w1, w2, l.1, w3], w3, if l.2 then .name final else .empty)

/-- What a summary meets: the statistics and the open, how much has left the buffer when `OWPStatsPrintMachine` is done and whether it succeeds, the
link, whether the rest can be written, the unlink. -/
structure SumEnv where
  opens : Bool
  early : Nat
  prints : Bool
  links : Bool
  flushes : Bool
  unlinks : Bool

/-- The summary of a session, in `write_session` (powstream.c:733-808): the name, then the unlink, then `fclose`. -/
def putSummary (w : World) (tmp final : Nat) (content : Bytes) (e : SumEnv) : List World × World × Kept :=
  if e.opens = false then ([w], w, .unset)
  else
    let o := fopen w tmp
    let w1 := o.1
    let w2 := fill w1 o.2 (content.take e.early)
    if e.prints = false then
      let w3 := unlink w2 tmp e.unlinks
      ([w, w1, w2, w3], w3, .unset)
    else
      let l := link w2 tmp final e.links
      let w3 := unlink l.1 tmp e.unlinks
      let w4 := if e.flushes then fill w3 o.2 content else w3
      ([w, w1, w2, l.1, w3, w4], w4, if l.2 then .name final else .empty)

/-- The names printed at the end of `write_session` (powstream.c:811-819). -/
def sayKept (w : World) : Kept → World
  | .unset => { w with undef := true }
  | .empty => w
  | .name n => say w n

/-- `write_session` from powstream.c:634 on, with `-p` or without. -/
def putSession (w : World) (tmpD finalD tmpS finalS : Nat) (content summary : Bytes) (d : DataEnv) (e : SumEnv) (p : Bool) : List World × World :=
  let a := putData w tmpD finalD content d
  let b := putSummary a.2.1 tmpS finalS summary e
  if p then
    let w1 := sayKept b.2.1 a.2.2
    let w2 := if w1.undef then w1 else sayKept w1 b.2.2
    (a.1 ++ b.1 ++ [w1, w2], w2)
  else (a.1 ++ b.1, b.2.1)

/-- A summary of part of a session, in the main loop (powstream.c:2111-2195): the name, then with `-p` `fflush` and the name on the output whether or not
the link was made, then `fclose` and the unlink. -/
def putPart (w : World) (tmp final : Nat) (content : Bytes) (e : SumEnv) (p : Bool) : List World × World :=
  if e.opens = false then ([w], w)
  else
    let o := fopen w tmp
    let w1 := o.1
    let w2 := fill w1 o.2 (content.take e.early)
    if e.prints = false then
      let w3 := unlink w2 tmp e.unlinks
      ([w, w1, w2, w3], w3)
    else
      let l := link w2 tmp final e.links
      let full := fun v => if e.flushes then fill v o.2 content else v
      if p then
        let w3 := full l.1
        let w4 := say w3 final
        let w5 := unlink w4 tmp e.unlinks
        ([w, w1, w2, l.1, w3, w4, w5], w5)
      else
        let w3 := full l.1
        let w4 := unlink w3 tmp e.unlinks
        ([w, w1, w2, l.1, w3, w4], w4)

end Owamp.Publish
