import Verif.Spec.PowOptions
import Verif.Lemmas.Ports
/-!
# C106: powstream does what its command line says, and is alone in its directory
-/
namespace Owamp.Props
namespace PowOpts
open Owamp.Policy (text)
open Owamp.Ports (Range strtol streamRange strtol_iff)
open Owamp.PowOpt Owamp.Spec.Ports Owamp.Spec.PowOpt
open Owamp.Startup (Dbl)

/-- What one option leaves in a place: what its value says, or what was there. -/
def Kept {β : Type} (get : Opts → β) (r : Bytes → β → Prop) (o o' : Opts) : Option Bytes → Prop
  | some s => r s (get o')
  | none => get o' = get o

theorem fold_last {β : Type} {E : Env} {sel : Arg → Option Bytes} {get : Opts → β} {r : Bytes → β → Prop}
    (hs : ∀ o a o', option E o a = .ok o' → Kept get r o o' (sel a)) :
    ∀ (args : List Arg) (o o' : Opts), options E o args = .ok o' → Kept get r o o' (last sel args) := by
  intro args
  induction args with
  | nil => intro o o' h; cases h; exact rfl
  | cons a t ih =>
    intro o o' h
    unfold options at h
    split at h
    · cases h
    · rename_i o1 h1
      have a1 := hs _ _ _ h1
      have a2 := ih _ _ h
      unfold last at a2 ⊢
      cases ha : sel a with
      | none =>
        rw [ha] at a1
        rw [List.filterMap_cons_none ha]
        revert a2
        cases (List.filterMap sel t).getLast? with
        | some s => exact fun a2 => a2
        | none => intro a2; exact Eq.trans a2 a1
      | some s =>
        rw [ha] at a1
        rw [List.filterMap_cons_some ha]
        cases hl : List.filterMap sel t with
        | nil =>
          rw [hl] at a2
          show r s (get o')
          rw [show get o' = get o1 from a2]; exact a1
        | cons b l =>
          rw [hl] at a2
          rw [List.getLast?_cons_cons]; exact a2

/-- All options of an accepted command line are accepted. -/
theorem each {E : Env} : ∀ (args : List Arg) (o o' : Opts), options E o args = .ok o' → ∀ a ∈ args, ∃ o1 o2, option E o1 a = .ok o2 := by
  intro args
  induction args with
  | nil => intro _ _ _ a ha; cases ha
  | cons b t ih =>
    intro o o' h a ha
    unfold options at h
    split at h
    · cases h
    · rename_i o1 h1
      cases ha with
      | head => exact ⟨_, _, h1⟩
      | tail _ ha => exact ih _ _ h a ha

macro "opt_cases" : tactic => `(tactic| (
  intro o a o' h
  cases a <;> simp only [option] at h <;> (try split at h) <;> first | (cases h; first | rfl | assumption) | cases h))

theorem keeps_c (E : Env) : ∀ o a o', option E o a = .ok o' → Kept (·.numPackets) (fun s n => whole s = some n) o o' (optc a) := by opt_cases
theorem keeps_I (E : Env) : ∀ o a o', option E o a = .ok o' → Kept (·.retryDelay) (fun s n => whole s = some n) o o' (optI a) := by opt_cases
theorem keeps_s (E : Env) : ∀ o a o', option E o a = .ok o' → Kept (·.padding) (fun s n => whole s = some n) o o' (opts a) := by opt_cases
theorem keeps_z (E : Env) : ∀ o a o', option E o a = .ok o' → Kept (·.delayStart) (fun s n => whole s = some n) o o' (optz a) := by opt_cases
theorem keeps_N (E : Env) : ∀ o a o', option E o a = .ok o' → Kept (·.bucket) (fun s n => whole s = some n) o o' (optN a) := by opt_cases
theorem keeps_i (E : Env) : ∀ o a o', option E o a = .ok o' → Kept (·.meanWait) (fun s x => frac E s = some x) o o' (opti a) := by opt_cases
theorem keeps_L (E : Env) : ∀ o a o', option E o a = .ok o' → Kept (·.loss) (fun s x => positive E s = some x) o o' (optL a) := by opt_cases
theorem keeps_b (E : Env) : ∀ o a o', option E o a = .ok o' → Kept (·.width) (fun s x => positive E s = some x) o o' (optb a) := by opt_cases
theorem keeps_A (E : Env) : ∀ o a o', option E o a = .ok o' → Kept (·.authmode) (fun s x => x = some s) o o' (optA a) := by opt_cases
theorem keeps_k (E : Env) : ∀ o a o', option E o a = .ok o' → Kept (·.pffile) (fun s x => x = some s) o o' (optk a) := by opt_cases
theorem keeps_S (E : Env) : ∀ o a o', option E o a = .ok o' → Kept (·.srcaddr) (fun s x => x = some s) o o' (optS a) := by opt_cases
theorem keeps_u (E : Env) : ∀ o a o', option E o a = .ok o' → Kept (·.identity) (fun s x => x = some s) o o' (optu a) := by opt_cases
theorem keeps_d (E : Env) : ∀ o a o', option E o a = .ok o' → Kept (·.savedir) (fun s x => x = some s) o o' (optd a) := by opt_cases
theorem keeps_B (E : Env) : ∀ o a o', option E o a = .ok o' → Kept (·.interface) (fun s x => x = some (s.take 16)) o o' (optB a) := by opt_cases
theorem keeps_P (E : Env) : ∀ o a o', option E o a = .ok o' → Kept (·.ports) (fun s g => streamRange s = some g) o o' (optP a) := by opt_cases
theorem keeps_set (E : Env) : ∀ o a o', option E o a = .ok o' → Kept (·.setEndDelay) (fun _ _ => True) o o' ((fun _ => none : Arg → Option Bytes) a) := by opt_cases

/-- A flag is on if its option is there. -/
theorem flag {E : Env} {get : Opts → Bool} {x : Arg} (hs : ∀ o a o', option E o a = .ok o' → get o' = (get o || decide (a = x))) :
    ∀ (args : List Arg) (o o' : Opts), options E o args = .ok o' → get o' = (get o || decide (x ∈ args)) := by
  intro args
  induction args with
  | nil => intro o o' h; cases h; simp
  | cons a t ih =>
    intro o o' h
    unfold options at h
    split at h
    · cases h
    · rename_i o1 h1
      rw [ih _ _ h, hs _ _ _ h1]
      by_cases he : a = x
      · subst he; simp
      · have : x ≠ a := fun e => he e.symm
        simp [he, this]

macro "flag_cases" : tactic => `(tactic| (
  intro o a o' h
  cases a <;> simp only [option] at h <;> (try split at h) <;> first | (cases h; simp) | cases h))

theorem flag_four (E : Env) : ∀ o a o', option E o a = .ok o' → o'.v4 = (o.v4 || decide (a = .four)) := by flag_cases
theorem flag_six (E : Env) : ∀ o a o', option E o a = .ok o' → o'.v6 = (o.v6 || decide (a = .six)) := by flag_cases
theorem flag_t (E : Env) : ∀ o a o', option E o a = .ok o' → o'.sender = (o.sender || decide (a = .t)) := by flag_cases
theorem flag_p (E : Env) : ∀ o a o', option E o a = .ok o' → o'.printfiles = (o.printfiles || decide (a = .p)) := by flag_cases
theorem flag_U (E : Env) : ∀ o a o', option E o a = .ok o' → o'.unix = (o.unix || decide (a = .U)) := by flag_cases

/-- A number of 32 bits is taken as it is. -/
theorem whole_numeral {s : Bytes} {v : Int} {n : U32} (hv : Numeral s v) (h0 : 0 ≤ v) (h1 : v < 4294967296) (h : whole s = some n) : (n.toNat : Int) = v := by
  have e : strtol s = some (v, []) := (strtol_iff s v []).2 ⟨s, (List.append_nil s).symm, hv, fun b r hb => by cases hb⟩
  unfold whole ulong at h
  rw [e] at h
  simp only [if_true, Option.some.injEq] at h
  subst h
  have : ¬ Dscp.ulongMax < v.natAbs := by unfold Dscp.ulongMax; omega
  rw [if_neg this, BitVec.toNat_ofNat]
  omega

/-- What is taken as a number is empty or a number. -/
theorem whole_some {s : Bytes} {n : U32} (h : whole s = some n) : s = [] ∨ ∃ v, Numeral s v := by
  unfold whole ulong at h
  cases e : strtol s with
  | none =>
    rw [e] at h
    dsimp only at h
    split at h
    · exact .inl (by assumption)
    · cases h
  | some q =>
    obtain ⟨v, rest⟩ := q
    rw [e] at h
    dsimp only at h
    split at h
    · rename_i h0
      subst h0
      obtain ⟨m, hm, hv, _⟩ := (strtol_iff s v []).1 e
      rw [List.append_nil] at hm; subst hm
      exact .inr ⟨v, hv⟩
    · cases h

theorem tells {dflt : U32} {get : Opts → U32} {o o' : Opts} {l : Option Bytes} (h0 : get o = dflt) (h : Kept get (fun s n => whole s = some n) o o' l) :
    Tells dflt.toNat l (get o').toNat := by
  constructor
  · intro hl; subst hl; rw [show get o' = get o from h, h0]
  · intro s v hl hv h0 h1; subst hl; exact whole_numeral hv h0 h1 h

theorem frac_gives {E : Env} {s : Bytes} {x : Dbl} (h : frac E s = some x) : E.strtod s = (x, []) := by
  unfold frac at h
  split at h
  · rename_i h0; cases h; rw [← h0]
  · cases h

theorem positive_gives {E : Env} {s : Bytes} {x : Dbl} (h : positive E s = some x) : E.strtod s = (x, []) ∧ x.le 0 = false := by
  unfold positive at h
  split at h
  · cases h
  · rename_i h0
    rw [not_or, Classical.not_not] at h0
    cases h
    exact ⟨by rw [← h0.1], by simpa using h0.2⟩

/-- What is known of a start. -/
theorem start_ok {E : Env} {args : List Arg} {rest : List Bytes} {lock : Bool} {P : Plan} (h : start E args rest lock = .ok P) :
    options E (defaults E) args = .ok P.opts ∧ settle E P.opts rest lock = .ok P := by
  unfold start at h
  split at h
  · split at h
    · cases h
    · rename_i o ho
      have : P.opts = o := by
        unfold settle at h
        split at h
        · cases h
        · repeat (split at h; · cases h)
          cases h; rfl
      rw [this]; exact ⟨ho, h⟩
  · cases h

/-- What a start works with, in terms of the options. -/
theorem settle_ok {E : Env} {o : Opts} {rest : List Bytes} {lock : Bool} {P : Plan} (h : settle E o rest lock = .ok P) :
    ∃ test more, rest = test :: more ∧ more.length ≤ 1 ∧ (∀ d, o.savedir = some d → d.length ≤ 4047) ∧ lock = true ∧
      (o.bucket ≠ 0 → o.bucket.toNat ≤ o.numPackets.toNat ∧ o.numPackets.toNat % o.bucket.toNat = 0) ∧ (o.v4 && o.v6) = false ∧
      P = { test := test
            server := more.head?.getD test
            npackets := o.numPackets
            padding := if o.padding.toNat > 0xFFFF then 0xFFFF else o.padding
            timeout := E.num64 o.loss
            mean := E.num64 o.meanWait
            bucket := if o.bucket = 0 then o.numPackets else o.bucket
            summaries := if o.bucket = 0 then 0 else o.numPackets.toNat / o.bucket.toNat
            retry := if (E.session o.numPackets o.meanWait).toNat < o.retryDelay.toNat then E.session o.numPackets o.meanWait else o.retryDelay
            delayStart := o.delayStart
            endDelay := if o.setEndDelay then some o.endDelay else none
            iotime := E.iotime o.meanWait
            dir := match o.savedir with
              | some d => d ++ text ['/']
              | none => []
            opts := o } := by
  unfold settle at h
  split at h
  · cases h
  · rename_i test more
    split at h
    · cases h
    · rename_i h1
      split at h
      · cases h
      · rename_i h2
        split at h
        · cases h
        · rename_i h3
          split at h
          · cases h
          · rename_i h4
            split at h
            · cases h
            · rename_i h5
              cases h
              refine ⟨test, more, rfl, by omega, ?_, by simpa using h3, ?_, by simpa using h5, rfl⟩
              · intro d hd
                rw [hd] at h2
                simp at h2
                omega
              · intro hb
                rw [not_and] at h4
                have := h4 hb
                omega

end PowOpts

open Owamp.Policy (text)
open Owamp.Ports (Range)
open Owamp.PowOpt Owamp.Spec.Ports Owamp.Spec.PowOpt PowOpts
open Owamp.Startup (Dbl)

/-- C106 (part): when powstream starts to work, what the last of several equal options says holds if it is a number of 32 bits, and the default if the option is not there: the packets of a session;
the padding, but at most 65535; the pause after a failure, but at most the length of a session; the delay before the first session. -/
theorem C106_numbers_partial (E : Env) (args : List Arg) (rest : List Bytes) (lock : Bool) (P : Plan) (h : start E args rest lock = .ok P) :
    Tells 300 (last optc args) P.npackets.toNat ∧
    (∃ n, Tells 0 (last opts args) n ∧ P.padding.toNat = min n 65535) ∧
    (∃ n, Tells 60 (last optI args) n ∧ P.retry.toNat = min n (E.session P.npackets P.opts.meanWait).toNat) ∧
    Tells 0 (last optz args) P.delayStart.toNat := by
  obtain ⟨ho, hs⟩ := start_ok h
  generalize P.opts = o at ho hs ⊢
  obtain ⟨test, more, -, -, -, -, -, -, rfl⟩ := settle_ok hs
  dsimp only
  refine ⟨tells rfl (fold_last (keeps_c E) args _ _ ho), ⟨o.padding.toNat, tells rfl (fold_last (keeps_s E) args _ _ ho), ?_⟩,
    ⟨o.retryDelay.toNat, tells rfl (fold_last (keeps_I E) args _ _ ho), ?_⟩, tells rfl (fold_last (keeps_z E) args _ _ ho)⟩
  · split
    · show 65535 = _; omega
    · omega
  · split <;> omega

/-- C106: with `-N n` the packets of a session are divided into summaries of `n` packets each, none left over; without it, or with 0, there is no summary but the one of the session. -/
theorem C106_summaries (E : Env) (args : List Arg) (rest : List Bytes) (lock : Bool) (P : Plan) (h : start E args rest lock = .ok P) :
    ∃ n, Tells 0 (last optN args) n ∧ (n = 0 → P.summaries = 0 ∧ P.bucket = P.npackets) ∧
      (n ≠ 0 → P.bucket.toNat = n ∧ P.summaries * n = P.npackets.toNat ∧ P.npackets.toNat / n = P.summaries) := by
  obtain ⟨ho, hs⟩ := start_ok h
  generalize P.opts = o at ho hs
  obtain ⟨test, more, -, -, -, -, hb, -, rfl⟩ := settle_ok hs
  dsimp only
  refine ⟨o.bucket.toNat, tells rfl (fold_last (keeps_N E) args _ _ ho), ?_, ?_⟩
  · intro h0
    have : o.bucket = 0 := BitVec.eq_of_toNat_eq h0
    rw [if_pos this, if_pos this]; exact ⟨rfl, rfl⟩
  · intro h0
    have h1 : ¬ o.bucket = 0 := fun e => h0 (by rw [e]; rfl)
    rw [if_neg h1, if_neg h1]
    exact ⟨rfl, Nat.div_mul_cancel (Nat.dvd_of_mod_eq_zero (hb h1).2), rfl⟩

/-- C106: the loss threshold, the mean wait and the width of buckets are what the last such option says, all of whose text `strtod` read, or the default; the first and the last are not zero or less. -/
theorem C106_fractions (E : Env) (args : List Arg) (rest : List Bytes) (lock : Bool) (P : Plan) (h : start E args rest lock = .ok P) :
    (∃ x, Gives E E.ten (last optL args) x ∧ P.timeout = E.num64 x ∧ (last optL args ≠ none → x.le 0 = false)) ∧
    (∃ x, Gives E E.tenth (last opti args) x ∧ P.mean = E.num64 x) ∧
    Gives E E.width (last optb args) P.opts.width ∧ (last optb args ≠ none → P.opts.width.le 0 = false) := by
  obtain ⟨ho, hs⟩ := start_ok h
  generalize P.opts = o at ho hs ⊢
  obtain ⟨test, more, -, -, -, -, -, -, rfl⟩ := settle_ok hs
  dsimp only
  have kL := fold_last (keeps_L E) args _ _ ho
  have ki := fold_last (keeps_i E) args _ _ ho
  have kb := fold_last (keeps_b E) args _ _ ho
  refine ⟨⟨o.loss, ⟨?_, ?_⟩, rfl, ?_⟩, ⟨o.meanWait, ⟨?_, ?_⟩, rfl⟩, ⟨?_, ?_⟩, ?_⟩
  · intro e; rw [e] at kL; exact kL
  · intro s e; rw [e] at kL; exact (positive_gives kL).1
  · intro e
    cases hl : last optL args with
    | none => exact absurd hl e
    | some s => rw [hl] at kL; exact (positive_gives kL).2
  · intro e; rw [e] at ki; exact ki
  · intro s e; rw [e] at ki; exact frac_gives ki
  · intro e; rw [e] at kb; exact kb
  · intro s e; rw [e] at kb; exact (positive_gives kb).1
  · intro e
    cases hl : last optb args with
    | none => exact absurd hl e
    | some s => rw [hl] at kb; exact (positive_gives kb).2

/-- Of several interfaces, none is accepted. -/
theorem one_interface {E : Env} : ∀ (args : List Arg) (o o' : Opts), options E o args = .ok o' →
    (args.filterMap optB).length + (if o.interface.isSome then 1 else 0) ≤ 1 := by
  intro args
  induction args with
  | nil => intro o o' _; show 0 + _ ≤ 1; split <;> omega
  | cons a t ih =>
    intro o o' h
    unfold options at h
    split at h
    · cases h
    · rename_i o1 h1
      have a1 := keeps_B E _ _ _ h1
      have a2 := ih _ _ h
      cases ha : optB a with
      | none =>
        rw [ha] at a1
        rw [List.filterMap_cons_none ha, ← show o1.interface = o.interface from a1]; exact a2
      | some v =>
        rw [ha] at a1
        rw [List.filterMap_cons_some ha, List.length_cons]
        rw [show o1.interface = some (v.take 16) from a1] at a2
        have : o.interface.isSome = false := by
          cases a <;> simp [optB] at ha
          simp only [option] at h1
          split at h1
          · cases h1
          · rename_i hn; simpa using hn
        rw [this]
        simp at a2 ⊢
        exact a2

theorem text_kept {get : Opts → Option Bytes} {o o' : Opts} {l : Option Bytes} (h0 : get o = none) (h : Kept get (fun s x => x = some s) o o' l) : get o' = l := by
  cases l with
  | none => exact Eq.trans h h0
  | some s => exact h

/-- C106: the modes, the file of passphrases, the local address, the user and the directory are those of the last such option; the interface is that of the only one, at most 16 bytes of it; files go
to the directory, of at most 4047 bytes, or to the working directory; sessions are with the first argument and asked of the second, if there is one. -/
theorem C106_texts (E : Env) (args : List Arg) (rest : List Bytes) (lock : Bool) (P : Plan) (h : start E args rest lock = .ok P) :
    P.opts.authmode = last optA args ∧ P.opts.pffile = last optk args ∧ P.opts.srcaddr = last optS args ∧ P.opts.identity = last optu args ∧
    P.opts.interface = (last optB args).map (·.take 16) ∧ (args.filterMap optB).length ≤ 1 ∧
    (∀ d, last optd args = some d → P.dir = d ++ text ['/'] ∧ d.length ≤ 4047) ∧ (last optd args = none → P.dir = []) ∧
    (rest = [P.test] ∧ P.server = P.test ∨ rest = [P.test, P.server]) := by
  obtain ⟨ho, hs⟩ := start_ok h
  generalize P.opts = o at ho hs ⊢
  obtain ⟨test, more, hr, hm, hd, -, -, -, rfl⟩ := settle_ok hs
  dsimp only
  have kd : o.savedir = last optd args := text_kept (get := (·.savedir)) rfl (fold_last (keeps_d E) args _ _ ho)
  refine ⟨text_kept (get := (·.authmode)) rfl (fold_last (keeps_A E) args _ _ ho), text_kept (get := (·.pffile)) rfl (fold_last (keeps_k E) args _ _ ho),
    text_kept (get := (·.srcaddr)) rfl (fold_last (keeps_S E) args _ _ ho), text_kept (get := (·.identity)) rfl (fold_last (keeps_u E) args _ _ ho), ?_, ?_, ?_, ?_, ?_⟩
  · have kB := fold_last (keeps_B E) args _ _ ho
    cases hl : last optB args with
    | none => rw [hl] at kB; exact kB
    | some s => rw [hl] at kB; exact kB
  · have := one_interface args _ _ ho
    omega
  · intro d e
    rw [← kd] at e
    refine ⟨?_, hd d e⟩
    rw [e]
  · intro e
    rw [← kd] at e
    rw [e]
  · rw [hr]
    match more, hm with
    | [], _ => exact .inl ⟨rfl, rfl⟩
    | [x], _ => exact .inr rfl

/-- C106: a flag is on exactly if its option is there, and only one of `-4` and `-6` is. -/
theorem C106_flags (E : Env) (args : List Arg) (rest : List Bytes) (lock : Bool) (P : Plan) (h : start E args rest lock = .ok P) :
    (P.opts.sender = true ↔ .t ∈ args) ∧ (P.opts.printfiles = true ↔ .p ∈ args) ∧ (P.opts.unix = true ↔ .U ∈ args) ∧
    (P.opts.v4 = true ↔ .four ∈ args) ∧ (P.opts.v6 = true ↔ .six ∈ args) ∧ ¬ (.four ∈ args ∧ .six ∈ args) := by
  obtain ⟨ho, hs⟩ := start_ok h
  generalize P.opts = o at ho hs ⊢
  obtain ⟨test, more, -, -, -, -, -, h46, -⟩ := settle_ok hs
  have f4 := flag (flag_four E) args _ _ ho
  have f6 := flag (flag_six E) args _ _ ho
  have ft := flag (flag_t E) args _ _ ho
  have fp := flag (flag_p E) args _ _ ho
  have fU := flag (flag_U E) args _ _ ho
  simp only [defaults, Bool.false_or] at f4 f6 ft fp fU
  rw [f4, f6] at h46
  rw [f4, f6, ft, fp, fU]
  refine ⟨decide_eq_true_iff, decide_eq_true_iff, decide_eq_true_iff, decide_eq_true_iff, decide_eq_true_iff, ?_⟩
  rintro ⟨a, b⟩
  rw [decide_eq_true a, decide_eq_true b] at h46; cases h46

/-- C106: sessions use the ports from 8760 to 9960, or those that the last `-P` says: the first less than the second, or 0 for any. -/
theorem C106_ports (E : Env) (args : List Arg) (rest : List Bytes) (lock : Bool) (P : Plan) (h : start E args rest lock = .ok P) :
    (last optP args = none → P.opts.ports.low.toNat = 8760 ∧ P.opts.ports.high.toNat = 9960) ∧
    (∀ s, last optP args = some s → Owamp.Ports.streamRange s = some P.opts.ports) := by
  obtain ⟨ho, -⟩ := start_ok h
  have k := fold_last (keeps_P E) args _ _ ho
  constructor
  · intro e; rw [e] at k
    rw [show P.opts.ports = (defaults E).ports from k]; exact ⟨rfl, rfl⟩
  · intro s e; rw [e] at k; exact k

/-- C106: powstream does not start if a number or a fraction is followed by other text or is none, if a fraction of `-E`, `-L` or `-b` is zero or less, if a facility or a level is not known, if an
option is not known, if there is no argument or there are more than two, or if it does not have the lock. -/
theorem C106_refused (E : Env) (args : List Arg) (rest : List Bytes) (lock : Bool) (P : Plan) (h : start E args rest lock = .ok P) :
    (∀ s ∈ args.filterMap wholes, s = [] ∨ ∃ v, Numeral s v) ∧ (∀ s ∈ args.filterMap fractions, (E.strtod s).2 = []) ∧
    (∀ s, .E s ∈ args ∨ .L s ∈ args ∨ .b s ∈ args → (E.strtod s).1.le 0 = false) ∧
    (∀ s, .e s ∈ args → (E.facility s).isSome) ∧ (∀ s, .g s ∈ args → (Owamp.Startup.levelByName s).isSome) ∧
    .unknown ∉ args ∧ (rest.length = 1 ∨ rest.length = 2) ∧ lock = true := by
  obtain ⟨ho, hs⟩ := start_ok h
  have hall := each args _ _ ho
  obtain ⟨test, more, hr, hm, -, hl, -, -, -⟩ := settle_ok hs
  have hf : first E args = true := by
    unfold start at h
    split at h
    · assumption
    · cases h
  have hpos : ∀ s, .E s ∈ args ∨ .L s ∈ args ∨ .b s ∈ args → ∃ x, positive E s = some x := by
    intro s hm
    rcases hm with hm | hm | hm <;> obtain ⟨o1, o2, h1⟩ := hall _ hm <;> simp only [option] at h1 <;> split at h1 <;> first | cases h1; done | exact ⟨_, by assumption⟩
  refine ⟨?_, ?_, ?_, ?_, ?_, ?_, ?_, hl⟩
  · intro s hm
    obtain ⟨a, ha, he⟩ := List.mem_filterMap.1 hm
    obtain ⟨o1, o2, h1⟩ := hall _ ha
    cases a <;> simp only [wholes, Option.some.injEq, reduceCtorEq] at he <;> subst he <;> simp only [option] at h1 <;> split at h1 <;>
      first | cases h1; done | exact whole_some (by assumption)
  · intro s hm
    obtain ⟨a, ha, he⟩ := List.mem_filterMap.1 hm
    cases a with
    | E v => cases he; obtain ⟨x, hx⟩ := hpos s (.inl ha); rw [(positive_gives hx).1]
    | L v => cases he; obtain ⟨x, hx⟩ := hpos s (.inr (.inl ha)); rw [(positive_gives hx).1]
    | b v => cases he; obtain ⟨x, hx⟩ := hpos s (.inr (.inr ha)); rw [(positive_gives hx).1]
    | i v =>
      cases he
      obtain ⟨o1, o2, h1⟩ := hall _ ha
      simp only [option] at h1
      split at h1
      · cases h1
      · rename_i x hx; rw [frac_gives hx]
    | _ => cases he
  · intro s hm
    obtain ⟨x, hx⟩ := hpos s hm
    rw [(positive_gives hx).1]; exact (positive_gives hx).2
  · intro s hm
    clear h ho hs hall hpos
    induction args with
    | nil => cases hm
    | cons a t ih =>
      have hf' : first E t = true := by
        cases a <;> simp only [first] at hf <;> (try split at hf) <;> first | exact hf | cases hf
      cases hm with
      | head =>
        simp only [first] at hf
        split at hf
        · assumption
        · cases hf
      | tail _ hm => exact ih hf' hm
  · intro s hm
    clear h ho hs hall hpos
    induction args with
    | nil => cases hm
    | cons a t ih =>
      have hf' : first E t = true := by
        cases a <;> simp only [first] at hf <;> (try split at hf) <;> first | exact hf | cases hf
      cases hm with
      | head =>
        simp only [first] at hf
        split at hf
        · assumption
        · cases hf
      | tail _ hm => exact ih hf' hm
  · intro hm
    obtain ⟨o1, o2, h1⟩ := hall _ hm
    cases h1
  · rw [hr, List.length_cons]
    omega

/-- C106 (defect): `-E`, which is to say how long to wait at the end of a session, never has an effect: none is configured. -/
theorem C106_end_delay (E : Env) (args : List Arg) (rest : List Bytes) (lock : Bool) (P : Plan) (h : start E args rest lock = .ok P) : P.endDelay = none := by
  obtain ⟨ho, hs⟩ := start_ok h
  generalize P.opts = o at ho hs
  obtain ⟨test, more, -, -, -, -, -, -, rfl⟩ := settle_ok hs
  have k := fold_last (keeps_set E) args _ _ ho
  have hn : last (fun _ => none : Arg → Option Bytes) args = none := by
    unfold last
    rw [List.filterMap_eq_nil_iff.2 (fun _ _ => rfl)]; rfl
  rw [hn] at k
  dsimp only
  rw [show o.setEndDelay = (defaults E).setEndDelay from k]; rfl

/-- C106: the main loop works with these numbers: packets, summaries, loss threshold, delay, direction. -/
theorem C106_loop (E : Env) (args : List Arg) (rest : List Bytes) (lock : Bool) (P : Plan) (gap : Nat → Nat → U64) (h : start E args rest lock = .ok P) :
    (P.cfg gap).npackets = P.npackets.toNat ∧ (P.cfg gap).summaries = some P.summaries ∧ (P.cfg gap).loss = P.timeout ∧
    (P.cfg gap).delay = P.delayStart.toNat ∧ ((P.cfg gap).sender = true ↔ .t ∈ args) := by
  have hfl := (C106_flags E args rest lock P h).1
  obtain ⟨ho, hs⟩ := start_ok h
  refine ⟨rfl, ?_, rfl, rfl, hfl⟩
  unfold Plan.cfg
  generalize P.opts = o at ho hs ⊢
  obtain ⟨test, more, -, -, -, -, hb, -, rfl⟩ := settle_ok hs
  dsimp only
  unfold Pow.Cfg.summaries
  dsimp only
  by_cases h0 : o.bucket = 0
  · rw [if_pos h0, if_pos (by rw [h0]; rfl)]
  · have h1 : ¬ o.bucket.toNat = 0 := fun e => h0 (BitVec.eq_of_toNat_eq e)
    have := hb h0
    rw [if_neg h0, if_neg h1, if_neg (by omega)]

/-! ## The lock -/

/-- A loop that is told nothing but to try again and errors does not get the lock. -/
theorem locked_ok : ∀ {l : List Answer}, locked l = some true → .ok ∈ l := by
  intro l
  induction l with
  | nil => intro h; cases h
  | cons a t ih =>
    intro h
    cases a with
    | ok => exact .head _
    | intr => exact .tail _ (ih h)
    | other => cases h

theorem locked_world {w : World} (h : Reached w) : (∀ p ∈ w.working, p ∈ w.locks) ∧ (∀ p ∈ w.locks, ∀ q ∈ w.locks, p.2 = q.2 → p = q) := by
  induction h with
  | nothing => exact ⟨(fun _ h => by cases h), (fun _ h => by cases h)⟩
  | more _ ha ih =>
    cases ha with
    | granted h1 h2 _ _ =>
      refine ⟨?_, ?_⟩
      · intro p hp
        dsimp only at hp ⊢
        split at hp
        · cases hp with
          | head => exact .head _
          | tail _ hp => exact .tail _ (ih.1 p hp)
        · exact .tail _ (ih.1 p hp)
      · intro p hp q hq e
        cases hp with
        | head =>
          cases hq with
          | head => rfl
          | tail _ hq => exact absurd e.symm (h2 q hq)
        | tail _ hp =>
          cases hq with
          | head => exact absurd e (h2 p hp)
          | tail _ hq => exact ih.2 p hp q hq e
    | denied hn =>
      refine ⟨?_, ih.2⟩
      intro p hp
      dsimp only at hp ⊢
      rw [if_neg (fun e => hn (locked_ok e))] at hp
      exact ih.1 p hp
    | ended =>
      refine ⟨?_, ?_⟩
      · intro p hp
        rw [List.mem_filter] at hp ⊢
        exact ⟨ih.1 p hp.1, hp.2⟩
      · intro p hp q hq e
        exact ih.2 p (List.mem_filter.1 hp).1 q (List.mem_filter.1 hq).1 e

/-- C106: whatever powstreams begin and end, and however often the system interrupts them: never do two work in a directory at a time (the lock file is the same file for both). -/
theorem C106_alone {w : World} (h : Reached w) : ∀ p ∈ w.working, ∀ q ∈ w.working, p.2 = q.2 → p.1 = q.1 := by
  intro p hp q hq e
  have hw := locked_world h
  rw [hw.2 p (hw.1 p hp) q (hw.1 q hq) e]

/-- C106: a powstream that the system grants the lock goes to work, however often it was interrupted before; one that it refuses the lock does not. -/
theorem C106_lock (n : Nat) (r : List Answer) :
    locked (List.replicate n .intr ++ .ok :: r) = some true ∧ locked (List.replicate n .intr ++ .other :: r) = some false ∧ locked (List.replicate n .intr) = none := by
  induction n with
  | zero => exact ⟨rfl, rfl, rfl⟩
  | succ n ih =>
    rw [List.replicate_succ]
    exact ih

/-- A directory is free again when the powstream in it has ended: another one that begins is at work. -/
example : Reached ⟨[(2, 7)], [(2, 7)]⟩ := by
  have r1 := Reached.more .nothing (Happens.granted (w := ⟨[], []⟩) (pid := 1) (f := 7) (answers := [.intr, .ok]) (by decide) (by decide) rfl (by decide))
  have r2 := Reached.more r1 (Happens.denied (pid := 2) (f := 7) (answers := [.other]) (by decide))
  have r3 := Reached.more r2 (Happens.ended (pid := 1))
  exact Reached.more r3 (Happens.granted (pid := 2) (f := 7) (answers := [.ok]) (by decide) (by decide) rfl (by decide))

/-! ## Examples -/

/-- A `strtod` for examples: `nan`, and a number of one digit. -/
def powEnv : Env where
  strtod s := if s = text ['n','a','n'] then (.nan, []) else match s with
    | b :: r => if 48 ≤ b.toNat ∧ b.toNat ≤ 57 then (.fin ((b.toNat - 48 : Nat) : Rat), r) else (.fin 0, s)
    | [] => (.fin 0, [])
  facility s := if s = text ['l','o','c','a','l','0'] then some 128 else none
  num64 x := match x with
    | .fin q => BitVec.ofNat 64 (q.num.toNat * 4294967296 / q.den)
    | _ => 0
  session n x := match x with
    | .fin q => BitVec.ofNat 32 (n.toNat * q.num.toNat / q.den)
    | _ => 0
  iotime _ := 3
  ten := .fin 10
  tenth := .fin (1 / 10)
  width := .fin (1 / 10000)

/-- What a start says, as numbers. -/
def figures : Except Nat Plan → Option (List Nat)
  | .ok P => some [P.npackets.toNat, P.bucket.toNat, P.summaries, P.padding.toNat, P.retry.toNat, P.delayStart.toNat]
  | .error _ => none

def statusOf : Except Nat Plan → Option Nat
  | .ok _ => none
  | .error n => some n

example : figures (start powEnv [.c (text ['6','0','0']), .N (text ['1','0','0']), .s (text ['7','0','0','0','0']), .z (text ['5']), .c (text [' ','1','2','0','0']), .d (text ['/','t'])]
    [text ['h']] true) = some [1200, 100, 12, 65535, 60, 5] := by decide +kernel
example : figures (start powEnv [] [text ['h']] true) = some [300, 300, 0, 0, 30, 0] := by decide +kernel
example : statusOf (start powEnv [.c (text ['1','0','x'])] [text ['h']] true) = some 1 := by decide +kernel
example : statusOf (start powEnv [.N (text ['7'])] [text ['h']] true) = some 1 := by decide +kernel
example : statusOf (start powEnv [.four, .six] [text ['h']] true) = some 1 := by decide +kernel
example : statusOf (start powEnv [.e (text ['x'])] [text ['h']] true) = some 1 := by decide +kernel
example : statusOf (start powEnv [.L (text ['0'])] [text ['h']] true) = some 1 := by decide +kernel
example : statusOf (start powEnv [.B (text ['e','0']), .B (text ['e','1'])] [text ['h']] true) = some 1 := by decide +kernel
example : statusOf (start powEnv [] [text ['h']] false) = some 1 := by decide +kernel
example : Numeral (text [' ','1','2','0','0']) 1200 :=
  ⟨text [' '], [], text ['1','2','0','0'], rfl, by unfold Blank; decide, by unfold Digit; decide, by decide, .inl ⟨.inl rfl, by decide⟩⟩

/-- C106 (defects): a negative number, one beyond 32 bits and none at all are taken for numbers of packets: 4294967295, 1 and 0. -/
theorem C106_negative : (figures (start powEnv [.c (text ['-','1'])] [text ['h']] true)).bind (·.head?) = some 4294967295 := by decide +kernel
theorem C106_truncated : (figures (start powEnv [.c (text ['4','2','9','4','9','6','7','2','9','7'])] [text ['h']] true)).bind (·.head?) = some 1 := by decide +kernel
theorem C106_empty : (figures (start powEnv [.c []] [text ['h']] true)).bind (·.head?) = some 0 := by decide +kernel

/-- C106 (defect): a loss threshold that is no number is accepted. -/
theorem C106_nan : statusOf (start powEnv [.L (text ['n','a','n'])] [text ['h']] true) = none := by decide +kernel

/-- C106 (defect): a mean wait of zero is accepted, and then powstream does not pause at all after a failure. -/
theorem C106_no_wait : figures (start powEnv [.i (text ['0'])] [text ['h']] true) = some [300, 300, 0, 0, 0, 0] := by decide +kernel

/-- C106 (defect): an option that is not known makes powstream end with status 0, as if it had done its work. -/
theorem C106_status (E : Env) (r : List Arg) (rest : List Bytes) (lock : Bool) (hf : first E r = true) : start E (.unknown :: r) rest lock = .error 0 := by
  unfold start
  rw [show first E (.unknown :: r) = first E r from rfl, hf]
  rfl
example : first powEnv [.v, .g (text ['w','a','r','n','i','n','g'])] = true := by decide +kernel

end Owamp.Props
