import Verif.Model.Close
/-!
# What may be done with a context, and what becomes of sessions
-/
namespace Owamp.Spec.Close
open Owamp.Close

/-- `c` is a connection that has not been closed. -/
def IsConn (m : Mem) (c : Nat) : Prop := ∃ nx h, m.cell c = some ⟨nx, .conn h⟩

/-- `s` is a session that has not been ended, at address `t`. -/
def IsSess (m : Mem) (t : Nat) (s : Session) : Prop := ∃ nx, m.cell t = some ⟨nx, .sess s⟩

/-- `calloc` may give `a`. -/
def Free (m : Mem) (a : Nat) : Prop := a ≠ 0 ∧ m.cell a = none

/-- The sessions that belong to connection `c`. -/
def Sessions (m : Mem) (c : Nat) (l : List Nat) : Prop := l.Nodup ∧ ∀ t, t ∈ l ↔ ∃ s, IsSess m t s ∧ s.cntrl = c

/-- Those of them that receive. -/
def Receivers (m : Mem) (c : Nat) (l : List Nat) : Prop :=
  l.Nodup ∧ ∀ t, t ∈ l ↔ ∃ s e, IsSess m t s ∧ s.cntrl = c ∧ s.ep = some e ∧ e.send = false

/-- What a program may do: `calloc` gives memory that is not in use; handles are those of connections that are open and of sessions that have not
ended; endpoints do not come or go. -/
def Valid (m : Mem) : Op → Prop
  | .connect a => Free m a
  | .request t s _ => Free m t ∧ IsConn m s.cntrl
  | .change t _ => ∃ s, IsSess m t s ∧ s.ep.isSome
  | .stop c _ _ => IsConn m c
  | .finish c _ => IsConn m c
  | .close c => IsConn m c

/-- A stop message that is not given up names as many sessions as receive. -/
def Counts (m : Mem) : Op → Prop
  | .stop c sids false => ∃ l, Receivers m c l ∧ l.length = sids.length
  | _ => True

/-- The operation ends, and `m'` is the memory after it. -/
def Does (H : Hooks) (m : Mem) (o : Op) (m' : Mem) : Prop := ∃ n, ∀ k ≥ n, step H k m o = .ok m'

/-- All that can be done with a context. -/
inductive Reach (H : Hooks) : List Op → Mem → Prop where
  | nil : Reach H [] fresh
  | step (h : List Op) (m m' : Mem) (o : Op) (hr : Reach H h m) (hv : Valid m o) (hd : Does H m o m') : Reach H (h ++ [o]) m'

/-- The same, when each stop message that is not given up names as many sessions as receive. -/
inductive ReachC (H : Hooks) : List Op → Mem → Prop where
  | nil : ReachC H [] fresh
  | step (h : List Op) (m m' : Mem) (o : Op) (hr : ReachC H h m) (hv : Valid m o) (hc : Counts m o) (hd : Does H m o m') : ReachC H (h ++ [o]) m'

/-- The sessions asked for. -/
def asked : List Op → List Session
  | [] => []
  | .request _ s _ :: h => s :: asked h
  | _ :: h => asked h

/-- The hook for the end of session `i` is called. -/
def completes (i : Nat) : Event → Bool
  | .complete j _ => j == i
  | _ => false

/-- A file of session `i` is closed. -/
def closes (i : Nat) : Event → Bool
  | .closeHook j _ => j == i
  | .fclose j => j == i
  | _ => false

/-- What is seen of the end of a session, in this order: if it has a process whose end was not noticed, that is told to end (at once, unless the
accept value is good), and its end is waited for if it could be told; then its file is closed, with the
accept value, or with its result if that is good; then the policy is told. -/
def Ends (H : Hooks) (s : Session) (aval : Int) (l : List Event) : Prop :=
  ∃ stop file pol, l = stop ++ file ++ pol ∧
    (∀ e, s.ep = some e → e.acceptval < 0 → e.child = true → e.killOk = true → stop = [.signal s.sid (aval ≠ 0), .waited s.sid]) ∧
    (∀ e, s.ep = some e → e.acceptval < 0 → e.child = true → e.killOk = false → stop = [.signal s.sid (aval ≠ 0)]) ∧
    ((∀ e, s.ep = some e → e.acceptval ≥ 0 ∨ e.child = false) → stop = []) ∧
    (s.ep.isSome → s.file = true → H.close = true → ∃ r, file = [.closeHook s.sid r] ∧ (aval ≠ 0 → r = aval) ∧
      ∀ e, s.ep = some e → aval = 0 → e.acceptval ≥ 0 → r = e.acceptval) ∧
    (s.ep.isSome → s.file = true → H.close = false → file = [.fclose s.sid]) ∧
    (¬ (s.ep.isSome ∧ s.file = true) → file = []) ∧
    pol = if s.closure = true ∧ H.complete = true then [.complete s.sid aval] else []

end Owamp.Spec.Close
