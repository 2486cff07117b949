import Verif.Spec.PingOptions
import Verif.Props.PowOptions
import Verif.Props.Options
/-!
# C107: a test of owping or twping is what the options say
-/
namespace Owamp.Props
namespace PingOpts
open Owamp.Policy (text)
open Owamp.PingOpt Owamp.Spec.Ports Owamp.Spec.PingOpt
open Owamp.Spec.PowOpt (Tells)
open Owamp.Startup (Dbl)

/-- What one option leaves in a place: what its value says, or what was there. -/
def Kept {β : Type} (get : Opts → β) (r : Bytes → β → Prop) (o o' : Opts) : Option Bytes → Prop
  | some s => r s (get o')
  | none => get o' = get o

theorem fold_last {β : Type} {E : Env} {sel : Arg → Option Bytes} {get : Opts → β} {r : Bytes → β → Prop}
    (hs : ∀ o a o', option E o a = .ok o' → Kept get r o o' (sel a)) :
    ∀ (args : List Arg) (o o' : Opts), options E o args = .ok o' → Kept get r o o' (last sel args) := by
  intro args
  induction args with
  | nil => intro o o' h; cases h; exact rfl
  | cons a t ih =>
    intro o o' h
    unfold options at h
    split at h
    · cases h
    · rename_i o1 h1
      have a1 := hs _ _ _ h1
      have a2 := ih _ _ h
      unfold last at a2 ⊢
      cases ha : sel a with
      | none =>
        rw [ha] at a1
        rw [List.filterMap_cons_none ha]
        revert a2
        cases (List.filterMap sel t).getLast? with
        | some s => exact fun a2 => a2
        | none => intro a2; exact Eq.trans a2 a1
      | some s =>
        rw [ha] at a1
        rw [List.filterMap_cons_some ha]
        cases hl : List.filterMap sel t with
        | nil =>
          rw [hl] at a2
          show r s (get o')
          rw [show get o' = get o1 from a2]; exact a1
        | cons b l =>
          rw [hl] at a2
          rw [List.getLast?_cons_cons]; exact a2

/-- All options of an accepted command line are accepted. -/
theorem each {E : Env} : ∀ (args : List Arg) (o o' : Opts), options E o args = .ok o' → ∀ a ∈ args, ∃ o1 o2, option E o1 a = .ok o2 := by
  intro args
  induction args with
  | nil => intro _ _ _ a ha; cases ha
  | cons b t ih =>
    intro o o' h a ha
    unfold options at h
    split at h
    · cases h
    · rename_i o1 h1
      cases ha with
      | head => exact ⟨_, _, h1⟩
      | tail _ ha => exact ih _ _ h a ha

macro "ping_cases" : tactic => `(tactic| (
  intro o a o' h
  cases a <;> simp only [option] at h <;> (try split at h) <;> (try split at h) <;> first | (cases h; first | rfl | assumption | exact ⟨by assumption, rfl⟩) | cases h))

theorem keeps_A (E : Env) : ∀ o a o', option E o a = .ok o' → Kept (·.authmode) (fun s x => x = some s) o o' (optA a) := by ping_cases
theorem keeps_k (E : Env) : ∀ o a o', option E o a = .ok o' → Kept (·.pffile) (fun s x => x = some s) o o' (optk a) := by ping_cases
theorem keeps_S (E : Env) : ∀ o a o', option E o a = .ok o' → Kept (·.srcaddr) (fun s x => x = some s) o o' (optS a) := by ping_cases
theorem keeps_u (E : Env) : ∀ o a o', option E o a = .ok o' → Kept (·.identity) (fun s x => x = some s) o o' (optu a) := by ping_cases
theorem keeps_B (E : Env) : ∀ o a o', option E o a = .ok o' → Kept (·.interface) (fun s x => x = some (s.take 16)) o o' (optB a) := by ping_cases
theorem keeps_F (E : Env) : ∀ o a o', option E o a = .ok o' → Kept (·.saveBack) (fun s x => x = some s) o o' (optF a) := by ping_cases
theorem keeps_T (E : Env) : ∀ o a o', option E o a = .ok o' → Kept (·.saveThere) (fun s x => x = some s) o o' (optT a) := by ping_cases
theorem keeps_d (E : Env) : ∀ o a o', option E o a = .ok o' → Kept (·.savedir) (fun s x => x = some s) o o' (optd a) := by ping_cases
theorem keeps_c (E : Env) : ∀ o a o', option E o a = .ok o' → Kept (·.numPackets) (fun s n => PowOpt.whole s = some n) o o' (optc a) := by ping_cases
theorem keeps_s (E : Env) : ∀ o a o', option E o a = .ok o' → Kept (·.padding) (fun s n => PowOpt.whole s = some n) o o' (opts a) := by ping_cases
theorem keeps_N (E : Env) : ∀ o a o', option E o a = .ok o' → Kept (·.bucket) (fun s n => PowOpt.whole s = some n) o o' (optN a) := by ping_cases
theorem keeps_v (E : Env) : ∀ o a o', option E o a = .ok o' → Kept (·.limit) (fun s n => (PowOpt.ulong s).2 = [] ∧ n = (PowOpt.ulong s).1) o o' (optv a) := by ping_cases
theorem keeps_L (E : Env) : ∀ o a o', option E o a = .ok o' → Kept (·.loss) (fun s x => nonneg E s = some x) o o' (optL a) := by ping_cases
theorem keeps_z (E : Env) : ∀ o a o', option E o a = .ok o' → Kept (·.delayStart) (fun s x => nonneg E s = some x) o o' (optz a) := by ping_cases
theorem keeps_E (E : Env) : ∀ o a o', option E o a = .ok o' → Kept (·.endDelay) (fun s x => nonneg E s = some x) o o' (optE a) := by ping_cases
theorem keeps_b (E : Env) : ∀ o a o', option E o a = .ok o' → Kept (·.width) (fun s x => positive E s = some x) o o' (optb a) := by ping_cases
theorem keeps_P (E : Env) : ∀ o a o', option E o a = .ok o' → Kept (·.ports) (fun s g => Ports.toolRange s = some g) o o' (optP a) := by ping_cases
theorem keeps_n (E : Env) : ∀ o a o', option E o a = .ok o' → Kept (·.units) (fun s b => unitKnown (firstByte s) = true ∧ b = firstByte s) o o' (optn a) := by ping_cases
theorem keeps_i (E : Env) : ∀ o a o', option E o a = .ok o' → Kept (·.slots) (fun s x => Options.parseSlots (floats E) s = x ∧ x.isSome) o o' (opti a) := by
  intro o a o' h
  cases a <;> simp only [option] at h <;> (try split at h) <;> (try split at h) <;> first | (cases h; first | rfl | exact ⟨by assumption, rfl⟩) | cases h
theorem keeps_a (E : Env) : ∀ o a o', option E o a = .ok o' → Kept (·.percentiles) (fun s x => Options.parsePercentile (floats E) s = x ∧ x.isSome) o o' (opta a) := by
  intro o a o' h
  cases a <;> simp only [option] at h <;> (try split at h) <;> (try split at h) <;> first | (cases h; first | rfl | exact ⟨by assumption, rfl⟩) | cases h
theorem keeps_D (E : Env) : ∀ o a o', option E o a = .ok o' → Kept (·.typeP) (fun s x => Dscp.parseTypeP s = some x) o o' (optD a) := by ping_cases

/-- A flag is on if one of its options is there. -/
theorem flag {E : Env} {get : Opts → Bool} {x : Arg → Bool} (hs : ∀ o a o', option E o a = .ok o' → get o' = (get o || x a)) :
    ∀ (args : List Arg) (o o' : Opts), options E o args = .ok o' → get o' = (get o || args.any x) := by
  intro args
  induction args with
  | nil => intro o o' h; cases h; simp
  | cons a t ih =>
    intro o o' h
    unfold options at h
    split at h
    · cases h
    · rename_i o1 h1
      rw [ih _ _ h, hs _ _ _ h1, List.any_cons, Bool.or_assoc]

macro "flags" : tactic => `(tactic| (
  intro o a o' h
  cases a <;> simp only [option] at h <;> (try split at h) <;> (try split at h) <;> first | (cases h; simp [optE, optF, optT, optv]) | cases h))

theorem flag_four (E : Env) : ∀ o a o', option E o a = .ok o' → o'.v4 = (o.v4 || decide (a = .four)) := by flags
theorem flag_six (E : Env) : ∀ o a o', option E o a = .ok o' → o'.v6 = (o.v6 || decide (a = .six)) := by flags
theorem flag_Z (E : Env) : ∀ o a o', option E o a = .ok o' → o'.zero = (o.zero || decide (a = .Z)) := by flags
theorem flag_M (E : Env) : ∀ o a o', option E o a = .ok o' → o'.machine = (o.machine || decide (a = .M)) := by flags
theorem flag_p (E : Env) : ∀ o a o', option E o a = .ok o' → o'.printfiles = (o.printfiles || decide (a = .p)) := by flags
theorem flag_Q (E : Env) : ∀ o a o', option E o a = .ok o' → o'.quiet = (o.quiet || decide (a = .Q)) := by flags
theorem flag_R (E : Env) : ∀ o a o', option E o a = .ok o' → o'.raw = (o.raw || decide (a = .R)) := by flags
theorem flag_U (E : Env) : ∀ o a o', option E o a = .ok o' → o'.unix = (o.unix || decide (a = .U)) := by flags
theorem flag_E (E : Env) : ∀ o a o', option E o a = .ok o' → o'.setEndDelay = (o.setEndDelay || (optE a).isSome) := by flags
theorem flag_f (E : Env) : ∀ o a o', option E o a = .ok o' → o'.back = (o.back || (decide (a = .f) || (optF a).isSome)) := by flags
theorem flag_t (E : Env) : ∀ o a o', option E o a = .ok o' → o'.there = (o.there || (decide (a = .t) || (optT a).isSome)) := by flags
theorem flag_v (E : Env) : ∀ o a o', option E o a = .ok o' → o'.records = (o.records || (decide (a = .v) || (optv a).isSome)) := by flags

theorem any_is (args : List Arg) (x : Arg) : args.any (fun a => decide (a = x)) = decide (x ∈ args) := by
  rw [Bool.eq_iff_iff, List.any_eq_true, decide_eq_true_iff]
  exact ⟨fun ⟨a, h, e⟩ => by rw [decide_eq_true_iff] at e; exact e ▸ h, fun h => ⟨x, h, by simp⟩⟩

theorem any_sel (args : List Arg) (sel : Arg → Option Bytes) : args.any (fun a => (sel a).isSome) = (last sel args).isSome := by
  rw [Bool.eq_iff_iff, List.any_eq_true]
  unfold last
  rw [List.getLast?_isSome]
  constructor
  · rintro ⟨a, h, e⟩ hn
    obtain ⟨s, hs⟩ := Option.isSome_iff_exists.1 e
    have : s ∈ args.filterMap sel := List.mem_filterMap.2 ⟨a, h, hs⟩
    rw [hn] at this; cases this
  · intro hn
    obtain ⟨s, hs⟩ := List.exists_mem_of_ne_nil _ hn
    obtain ⟨a, h, e⟩ := List.mem_filterMap.1 hs
    exact ⟨a, h, by rw [e]; rfl⟩

theorem any_or (args : List Arg) (x y : Arg → Bool) : args.any (fun a => x a || y a) = (args.any x || args.any y) := by
  induction args with
  | nil => rfl
  | cons a t ih => rw [List.any_cons, List.any_cons, List.any_cons, ih]; cases x a <;> cases y a <;> simp

theorem tells {dflt : U32} {get : Opts → U32} {o o' : Opts} {l : Option Bytes} (h0 : get o = dflt) (h : Kept get (fun s n => PowOpt.whole s = some n) o o' l) :
    Tells dflt.toNat l (get o').toNat := by
  constructor
  · intro hl; subst hl; rw [show get o' = get o from h, h0]
  · intro s v hl hv h0 h1; subst hl; exact PowOpts.whole_numeral hv h0 h1 h

theorem neg_iff (x : Dbl) : neg x = true ↔ Negative x := by
  unfold neg Negative
  split
  · rename_i q
    rw [decide_eq_true_iff]
    exact ⟨(fun h => .inr ⟨q, rfl, h⟩), (fun h => by rcases h with h | ⟨r, h, hr⟩; cases h; cases h; exact hr)⟩
  · exact ⟨fun _ => .inl rfl, fun _ => rfl⟩
  · rename_i h1 h2
    exact ⟨(fun h => by cases h), (fun h => by rcases h with h | ⟨r, h, hr⟩; exact absurd h h2; exact absurd h (h1 r))⟩

theorem nonneg_gives {E : Env} {s : Bytes} {x : Dbl} (h : nonneg E s = some x) : E.strtod s = (x, []) ∧ ¬ Negative x := by
  unfold nonneg at h
  split at h
  · cases h
  · rename_i h0
    rw [not_or, Classical.not_not] at h0
    cases h
    exact ⟨by rw [← h0.1], fun hn => h0.2 ((neg_iff _).2 hn)⟩

theorem positive_gives {E : Env} {s : Bytes} {x : Dbl} (h : positive E s = some x) : E.strtod s = (x, []) ∧ x.le 0 = false := by
  unfold positive at h
  split at h
  · cases h
  · rename_i h0
    rw [not_or, Classical.not_not] at h0
    cases h
    exact ⟨by rw [← h0.1], by simpa using h0.2⟩

/-- What a start works with, in terms of the options. -/
theorem start_ok {E : Env} {tw : Bool} {args : List Arg} {rest : List Bytes} {secret : Bool} {P : Plan} (h : start E tw args rest secret = .ok P) :
    ∃ o test more modes, options E (defaults E) args = .ok o ∧ rest = test :: more ∧ more.length ≤ 1 ∧ (∀ d, o.savedir = some d → d.length ≤ 4047) ∧ (o.v4 && o.v6) = false ∧
      Options.authModes tw (if secret then o.identity else none).isSome o.authmode = some modes ∧
      P = { test := test
            server := more.head?.getD test
            modes := modes
            identity := if secret then o.identity else none
            npackets := o.numPackets
            padding := paddingOf tw modes o.padding
            slots := o.slots.getD [.randExp (E.num64 E.tenth)]
            typeP := o.typeP
            endDelay := if o.setEndDelay then some o.endDelay else none
            shown := shown o
            dir := match o.savedir with
              | some d => d ++ text ['/']
              | none => []
            ping := ⟨tw, o.there, o.back, o.quiet, o.raw, o.saveThere.isSome, o.saveBack.isSome⟩
            opts := o } := by
  unfold start at h
  split at h
  · cases h
  · rename_i o ho
    unfold settle at h
    split at h
    · cases h
    · rename_i h1
      split at h
      · cases h
      · rename_i h2
        split at h
        · cases h
        · rename_i test more
          split at h
          · cases h
          · rename_i h3
            dsimp only at h
            split at h
            · cases h
            · rename_i modes hm
              cases h
              refine ⟨o, test, more, modes, ho, rfl, by omega, ?_, by simpa using h1, hm, rfl⟩
              intro d hd
              rw [hd] at h2
              simp at h2
              omega

end PingOpts

open Owamp.Policy (text)
open Owamp.PingOpt Owamp.Spec.Ports Owamp.Spec.PingOpt PingOpts
open Owamp.Spec.PowOpt (Tells)
open Owamp.Startup (Dbl)

/-- C107 (part): what the last of several equal options says holds if it is a number of 32 bits, and the default if the option is not there: the packets of a session, and the packets of a report in
parts. A padding that is given, up to 65000, is used; more is 65000. -/
theorem C107_numbers_partial (E : Env) (tw : Bool) (args : List Arg) (rest : List Bytes) (secret : Bool) (P : Plan) (h : start E tw args rest secret = .ok P) :
    Tells 100 (last optc args) P.npackets.toNat ∧ Tells 0 (last optN args) P.opts.bucket.toNat ∧
    (∀ s v, last opts args = some s → Numeral s v → 0 ≤ v → v < 4294967295 → (P.padding.toNat : Int) = min v 65000) := by
  obtain ⟨o, test, more, modes, ho, -, -, -, -, -, rfl⟩ := start_ok h
  dsimp only
  refine ⟨tells rfl (fold_last (keeps_c E) args _ _ ho), tells rfl (fold_last (keeps_N E) args _ _ ho), ?_⟩
  intro s v hs hv h0 h1
  have k := fold_last (keeps_s E) args _ _ ho
  rw [hs] at k
  have e : (o.padding.toNat : Int) = v := PowOpts.whole_numeral hv h0 (by omega) k
  unfold paddingOf
  have hn : o.padding ≠ 4294967295#32 := by
    intro he
    rw [he] at e
    simp at e
    omega
  dsimp only
  rw [if_neg hn]
  split
  · show ((65000 : Nat) : Int) = _; omega
  · omega

/-- C107 (part): without `-s` a packet of owping has no padding; one of twping has so much that the answer, without padding of its own, is as long, if the modes that the connection may use are one only. -/
theorem C107_padding_partial (E : Env) (tw : Bool) (args : List Arg) (rest : List Bytes) (secret : Bool) (P : Plan) (h : start E tw args rest secret = .ok P)
    (hs : last opts args = none) :
    (tw = false → P.padding = 0) ∧ (tw = true → Mode P.modes → Sizes.payloadSize P.modes P.padding = Sizes.twPayloadSize P.modes 0) := by
  obtain ⟨o, test, more, modes, ho, -, -, -, -, -, rfl⟩ := start_ok h
  have k := fold_last (keeps_s E) args _ _ ho
  rw [hs] at k
  dsimp only
  rw [show o.padding = 4294967295#32 from k]
  constructor
  · rintro rfl; rfl
  · rintro rfl hm
    rcases hm with rfl | rfl | rfl | rfl <;> decide

/-- C107 (defect): somebody who gives an identity (and has a pass-phrase) but no modes may use several, and then the sizes are those of no mode: the padding is 0, and in no mode is the answer as long as the packet. -/
theorem C107_asymmetric (E : Env) (args : List Arg) (rest : List Bytes) (P : Plan) (h : start E true args rest true = .ok P)
    (hs : last opts args = none) (hA : last optA args = none) (hu : last optu args ≠ none) :
    P.padding = 0 ∧ ∀ m, Mode m → Sizes.payloadSize m P.padding ≠ Sizes.twPayloadSize m 0 := by
  obtain ⟨o, test, more, modes, ho, -, -, -, -, hm, rfl⟩ := start_ok h
  have k := fold_last (keeps_s E) args _ _ ho
  have kA := fold_last (keeps_A E) args _ _ ho
  have ku := fold_last (keeps_u E) args _ _ ho
  rw [hs] at k
  rw [hA] at kA
  cases hl : last optu args with
  | none => exact absurd hl hu
  | some u =>
    rw [hl] at ku
    rw [show o.authmode = none from kA, if_pos rfl, show o.identity = some u from ku] at hm
    have hm : modes = 15#32 := by
      simp only [Options.authModes, Option.isSome_some, if_true, Option.some.injEq] at hm
      exact hm.symm
    subst hm
    have hp : paddingOf true 15#32 o.padding = 0 := by
      rw [show o.padding = 4294967295#32 from k]; decide
    dsimp only
    rw [hp]
    refine ⟨rfl, ?_⟩
    intro m hm
    rcases hm with rfl | rfl | rfl | rfl <;> decide

/-- C107: the loss threshold, the delay before the test, the width of buckets and the delay at the end are what the last such option says, all of whose text `strtod` read, or the default; none is
negative, and the width is not zero. The delay at the end is configured exactly if it is given. -/
theorem C107_fractions (E : Env) (tw : Bool) (args : List Arg) (rest : List Bytes) (secret : Bool) (P : Plan) (h : start E tw args rest secret = .ok P) :
    Gives E (.fin 0) (last optL args) P.opts.loss ∧ ¬ Negative P.opts.loss ∧ Gives E (.fin 0) (last optz args) P.opts.delayStart ∧ ¬ Negative P.opts.delayStart ∧
    Gives E E.width (last optb args) P.opts.width ∧ (last optb args ≠ none → P.opts.width.le 0 = false) ∧
    (last optE args = none → P.endDelay = none) ∧ (∀ s, last optE args = some s → ∃ x, P.endDelay = some x ∧ E.strtod s = (x, []) ∧ ¬ Negative x) := by
  obtain ⟨o, test, more, modes, ho, -, -, -, -, -, rfl⟩ := start_ok h
  dsimp only
  have kL := fold_last (keeps_L E) args _ _ ho
  have kz := fold_last (keeps_z E) args _ _ ho
  have kb := fold_last (keeps_b E) args _ _ ho
  have kE := fold_last (keeps_E E) args _ _ ho
  have fE := flag (flag_E E) args _ _ ho
  rw [any_sel, show (defaults E).setEndDelay = false from rfl, Bool.false_or] at fE
  have z0 : ¬ Negative (.fin 0) := by
    rintro (h | ⟨q, h, hq⟩)
    · cases h
    · cases h; exact absurd hq (by decide +kernel)
  refine ⟨⟨?_, ?_⟩, ?_, ⟨?_, ?_⟩, ?_, ⟨?_, ?_⟩, ?_, ?_, ?_⟩
  · intro e; rw [e] at kL; exact kL
  · intro s e; rw [e] at kL; exact (nonneg_gives kL).1
  · cases hl : last optL args with
    | none => rw [hl] at kL; rw [show o.loss = .fin 0 from kL]; exact z0
    | some s => rw [hl] at kL; exact (nonneg_gives kL).2
  · intro e; rw [e] at kz; exact kz
  · intro s e; rw [e] at kz; exact (nonneg_gives kz).1
  · cases hl : last optz args with
    | none => rw [hl] at kz; rw [show o.delayStart = .fin 0 from kz]; exact z0
    | some s => rw [hl] at kz; exact (nonneg_gives kz).2
  · intro e; rw [e] at kb; exact kb
  · intro s e; rw [e] at kb; exact (positive_gives kb).1
  · intro e
    cases hl : last optb args with
    | none => exact absurd hl e
    | some s => rw [hl] at kb; exact (positive_gives kb).2
  · intro e; rw [e] at fE; rw [fE]; rfl
  · intro s e; rw [e] at fE kE
    exact ⟨o.endDelay, by rw [fE]; rfl, nonneg_gives kE⟩

/-- C107: the sessions begin no earlier than the delay `-z`, counted from the reading of the clock, and no earlier than the messages need; and no later than the later of the two. -/
theorem C107_delay (E : Env) (o : Opts) (rtt now : Nat) (there back : Bool) (hr : rtt < 2 ^ 64)
    (h1 : rtt * (1 + there.toNat + back.toNat) + 2 ^ 32 + now < 2 ^ 64) (h2 : (delayOf E o).toNat + now < 2 ^ 64) :
    (∀ q, o.delayStart = .fin q → 0 < q → Owamp.Options.startTime rtt there back (delayOf E o).toNat now = now + max (rtt * (1 + there.toNat + back.toNat) + 2 ^ 32) (E.num64 (.fin q)).toNat) ∧
    (∀ q, o.delayStart = .fin q → q ≤ 0 → Owamp.Options.startTime rtt there back (delayOf E o).toNat now = now + (rtt * (1 + there.toNat + back.toNat) + 2 ^ 32)) ∧
    (o.delayStart = .nan → Owamp.Options.startTime rtt there back (delayOf E o).toNat now = now + (rtt * (1 + there.toNat + back.toNat) + 2 ^ 32)) := by
  have h := C79_start rtt (delayOf E o).toNat now there back hr h1 h2
  refine ⟨fun q e hq => ?_, fun q e hq => ?_, fun e => ?_⟩
  · rw [h]; unfold delayOf; rw [e]; dsimp only; rw [if_pos hq]
  · rw [h]; unfold delayOf; rw [e]; dsimp only; rw [if_neg (Rat.not_lt.2 hq), show (0 : U64).toNat = 0 from rfl, Nat.max_zero]
  · rw [h]; unfold delayOf; rw [e]; dsimp only; rw [show (0 : U64).toNat = 0 from rfl, Nat.max_zero]

/-- C107: the threshold of a test is the one given, or, if none or zero is given, what `patience` makes of the bound on the round-trip time; the test is not made if it is below the width of a bucket. -/
theorem C107_threshold (E : Env) (o : Opts) (rtt timeout : U64) (h : timeoutOf E o rtt = some timeout) :
    (∀ q, o.loss = .fin q → q ≤ 0 → timeout = E.num64 (E.patience rtt) ∧ E.less (E.patience rtt) o.width = false) ∧
    (∀ q, o.loss = .fin q → 0 < q → timeout = E.num64 (.fin q) ∧ E.less (.fin q) o.width = false) := by
  unfold timeoutOf at h
  dsimp only at h
  generalize hg : (if o.loss.le 0 = true then E.patience rtt else o.loss) = loss at h
  split at h
  · cases h
  · rename_i hl
    cases h
    subst hg
    refine ⟨?_, ?_⟩
    · intro q hq h0
      have : o.loss.le 0 = true := by rw [hq]; exact decide_eq_true h0
      rw [if_pos this] at hl ⊢
      exact ⟨rfl, by simpa using hl⟩
    · intro q hq h0
      have : ¬ o.loss.le 0 = true := by
        rw [hq]; intro hh; exact absurd (of_decide_eq_true hh) (Rat.not_le.2 h0)
      rw [if_neg this] at hl ⊢
      rw [hq] at hl ⊢
      exact ⟨rfl, by simpa using hl⟩

/-- C107: the schedule is that of the last `-i` (C79 says which), or exponential with a mean of a tenth of a second; the ports are those of the last `-P` (C54) or 8760 to 9960; the percentiles are those of
the last `-a` (C79); the unit is the first letter of the last `-n`, one of n, u, m and s in either case, or m. -/
theorem C107_schedule (E : Env) (tw : Bool) (args : List Arg) (rest : List Bytes) (secret : Bool) (P : Plan) (h : start E tw args rest secret = .ok P) :
    (last opti args = none → P.slots = [.randExp (E.num64 E.tenth)]) ∧ (∀ s, last opti args = some s → Options.parseSlots (floats E) s = some P.slots) ∧
    (last optP args = none → P.opts.ports.low.toNat = 8760 ∧ P.opts.ports.high.toNat = 9960) ∧ (∀ s, last optP args = some s → Ports.toolRange s = some P.opts.ports) ∧
    (last opta args = none → P.opts.percentiles = none) ∧
    (∀ s, last opta args = some s → P.opts.percentiles.isSome ∧ Options.parsePercentile (floats E) s = P.opts.percentiles) ∧
    (last optn args = none → P.opts.units = 109#8) ∧ (∀ s, last optn args = some s → s.head? = some P.opts.units ∧ P.opts.units ∈ text ['n','u','m','s','N','U','M','S']) := by
  obtain ⟨o, test, more, modes, ho, -, -, -, -, -, rfl⟩ := start_ok h
  dsimp only
  have ki := fold_last (keeps_i E) args _ _ ho
  have kP := fold_last (keeps_P E) args _ _ ho
  have ka := fold_last (keeps_a E) args _ _ ho
  have kn := fold_last (keeps_n E) args _ _ ho
  refine ⟨?_, ?_, ?_, ?_, ?_, ?_, ?_, ?_⟩
  · intro e; rw [e] at ki; rw [show o.slots = none from ki]; rfl
  · intro s e; rw [e] at ki
    obtain ⟨k1, k2⟩ := ki
    obtain ⟨l, hl⟩ := Option.isSome_iff_exists.1 k2
    have hl : o.slots = some l := hl
    have k1 : Options.parseSlots (floats E) s = o.slots := k1
    rw [k1, hl]; rfl
  · intro e; rw [e] at kP; rw [show o.ports = (defaults E).ports from kP]; exact ⟨rfl, rfl⟩
  · intro s e; rw [e] at kP; exact kP
  · intro e; rw [e] at ka; exact ka
  · intro s e; rw [e] at ka; exact ⟨ka.2, ka.1⟩
  · intro e; rw [e] at kn; exact kn
  · intro s e; rw [e] at kn
    obtain ⟨k1, k2⟩ := kn
    have hall : ∀ b : Byte, unitKnown b = true → b ∈ text ['n','u','m','s','N','U','M','S'] := by
      unfold unitKnown; decide +kernel
    have k2 : o.units = firstByte s := k2
    cases s with
    | nil => exact absurd k1 (by decide)
    | cons b r =>
      rw [k2]
      exact ⟨rfl, hall b k1⟩

/-- The traffic class can be set once. -/
theorem one_class {E : Env} : ∀ (args : List Arg) (o o' : Opts), options E o args = .ok o' → o.typeP ≠ 0 → last optD args = none := by
  intro args
  induction args with
  | nil => intro _ _ _ _; rfl
  | cons a t ih =>
    intro o o' h hn
    unfold options at h
    split at h
    · cases h
    · rename_i o1 h1
      have a1 := keeps_D E _ _ _ h1
      cases ha : optD a with
      | none =>
        rw [ha] at a1
        have := ih _ _ h (by rw [show o1.typeP = o.typeP from a1]; exact hn)
        unfold last at this ⊢
        rw [List.filterMap_cons_none ha]; exact this
      | some v =>
        cases a <;> simp [optD] at ha
        simp only [option, if_pos hn] at h1
        cases h1

/-- C107: the class of the packets is that of the last `-D` (C78 says which), or none; a class other than 0 is not followed by another `-D`. -/
theorem C107_class (E : Env) (tw : Bool) (args : List Arg) (rest : List Bytes) (secret : Bool) (P : Plan) (h : start E tw args rest secret = .ok P) :
    (last optD args = none → P.typeP = 0) ∧ (∀ s, last optD args = some s → Dscp.parseTypeP s = some P.typeP) ∧
    (∀ before v after, args = before ++ .D v :: after → Dscp.parseTypeP v ≠ some 0 → last optD after = none) := by
  obtain ⟨o, test, more, modes, ho, -, -, -, -, -, rfl⟩ := start_ok h
  dsimp only
  have kD := fold_last (keeps_D E) args _ _ ho
  refine ⟨?_, ?_, ?_⟩
  · intro e; rw [e] at kD; exact kD
  · intro s e; rw [e] at kD; exact kD
  · intro before v after e hv
    subst e
    clear kD h
    generalize defaults E = o0 at ho
    induction before generalizing o0 with
    | nil =>
      rw [List.nil_append] at ho
      unfold options at ho
      split at ho
      · cases ho
      · rename_i o1 h1
        have a1 : Dscp.parseTypeP v = some o1.typeP := keeps_D E _ _ _ h1
        exact one_class after _ _ ho (fun e0 => hv (by rw [a1, e0]))
    | cons a t ih =>
      rw [List.cons_append] at ho
      unfold options at ho
      split at ho
      · cases ho
      · exact ih _ ho

theorem ping_text_kept {get : Opts → Option Bytes} {o o' : Opts} {l : Option Bytes} (h0 : get o = none) (h : Kept get (fun s x => x = some s) o o' l) : get o' = l := by
  cases l with
  | none => exact Eq.trans h h0
  | some s => exact h

/-- C107: the file of passphrases, the local address and the directory are those of the last such option; so is the identity, but it counts only with a pass-phrase; the modes are those that C79 says for the
last `-A`; sessions are with the first argument and asked of the second, if there is one; there are one or two. -/
theorem C107_texts (E : Env) (tw : Bool) (args : List Arg) (rest : List Bytes) (secret : Bool) (P : Plan) (h : start E tw args rest secret = .ok P) :
    P.opts.pffile = last optk args ∧ P.opts.srcaddr = last optS args ∧ P.opts.interface = (last optB args).map (·.take 16) ∧
    P.identity = (if secret then last optu args else none) ∧ Options.authModes tw P.identity.isSome (last optA args) = some P.modes ∧
    (∀ d, last optd args = some d → P.dir = d ++ text ['/'] ∧ d.length ≤ 4047) ∧ (last optd args = none → P.dir = []) ∧
    (rest = [P.test] ∧ P.server = P.test ∨ rest = [P.test, P.server]) := by
  obtain ⟨o, test, more, modes, ho, hr, hm, hd, -, hmo, rfl⟩ := start_ok h
  dsimp only
  have kd : o.savedir = last optd args := ping_text_kept (get := (·.savedir)) rfl (fold_last (keeps_d E) args _ _ ho)
  have ku : o.identity = last optu args := ping_text_kept (get := (·.identity)) rfl (fold_last (keeps_u E) args _ _ ho)
  have kA : o.authmode = last optA args := ping_text_kept (get := (·.authmode)) rfl (fold_last (keeps_A E) args _ _ ho)
  refine ⟨ping_text_kept (get := (·.pffile)) rfl (fold_last (keeps_k E) args _ _ ho), ping_text_kept (get := (·.srcaddr)) rfl (fold_last (keeps_S E) args _ _ ho), ?_,
    by rw [ku], by rw [← kA]; exact hmo, ?_, ?_, ?_⟩
  · have kB := fold_last (keeps_B E) args _ _ ho
    cases hl : last optB args with
    | none => rw [hl] at kB; exact kB
    | some s => rw [hl] at kB; exact kB
  · intro d e
    rw [← kd] at e
    refine ⟨?_, hd d e⟩
    rw [e]
  · intro e
    rw [← kd] at e
    rw [e]
  · rw [hr]
    match more, hm with
    | [], _ => exact .inl ⟨rfl, rfl⟩
    | [x], _ => exact .inr rfl

/-- C107: which sessions there are, and what is kept of them: there is one to the server if `-t` or `-T` is given, or neither of these nor `-f` nor `-F`; likewise from the server; results are kept in a file if
`-T` or `-F` is given. -/
theorem C107_directions (E : Env) (tw : Bool) (args : List Arg) (rest : List Bytes) (secret : Bool) (P : Plan) (h : start E tw args rest secret = .ok P) :
    (P.ping.there = true ↔ (.t ∈ args ∨ last optT args ≠ none) ∨ ¬ (.f ∈ args ∨ last optF args ≠ none)) ∧
    (P.ping.back = true ↔ (.f ∈ args ∨ last optF args ≠ none) ∨ ¬ (.t ∈ args ∨ last optT args ≠ none)) ∧
    P.opts.saveThere = last optT args ∧ P.opts.saveBack = last optF args ∧ (P.ping.saveTo = true ↔ last optT args ≠ none) ∧ (P.ping.saveFrom = true ↔ last optF args ≠ none) ∧
    P.ping.twoway = tw := by
  obtain ⟨o, test, more, modes, ho, -, -, -, -, -, rfl⟩ := start_ok h
  have ft := flag (flag_t E) args _ _ ho
  have ff := flag (flag_f E) args _ _ ho
  have kT : o.saveThere = last optT args := ping_text_kept (get := (·.saveThere)) rfl (fold_last (keeps_T E) args _ _ ho)
  have kF : o.saveBack = last optF args := ping_text_kept (get := (·.saveBack)) rfl (fold_last (keeps_F E) args _ _ ho)
  rw [any_or, any_is, any_sel, show (defaults E).there = false from rfl, Bool.false_or] at ft
  rw [any_or, any_is, any_sel, show (defaults E).back = false from rfl, Bool.false_or] at ff
  have nn : ∀ l : Option Bytes, l ≠ none ↔ l.isSome = true := fun l => by cases l <;> simp
  simp only [nn]
  dsimp only [Ping.Opts.there, Ping.Opts.back]
  rw [ft, ff, kT, kF]
  refine ⟨?_, ?_, rfl, rfl, Iff.rfl, Iff.rfl, trivial⟩ <;> simp [Bool.or_eq_true]

/-- C107: what is shown: with `-Q` or `-R` no summary; otherwise the lines for programs with `-M`; otherwise each packet with `-v`. The other flags are on exactly if their options are there, and only one
of `-4` and `-6` is. -/
theorem C107_shown (E : Env) (tw : Bool) (args : List Arg) (rest : List Bytes) (secret : Bool) (P : Plan) (h : start E tw args rest secret = .ok P) :
    (P.shown.quiet = true ↔ .Q ∈ args ∨ .R ∈ args) ∧ (P.shown.machine = true ↔ .M ∈ args ∧ ¬ (.Q ∈ args ∨ .R ∈ args)) ∧
    (P.shown.records = true ↔ (.v ∈ args ∨ last optv args ≠ none) ∧ ¬ (.Q ∈ args ∨ .R ∈ args ∨ .M ∈ args)) ∧
    (P.ping.silent = true ↔ .Q ∈ args ∨ .R ∈ args) ∧ (P.ping.raw = true ↔ .R ∈ args) ∧
    (P.opts.unix = true ↔ .U ∈ args) ∧ (P.opts.printfiles = true ↔ .p ∈ args) ∧ (P.opts.zero = true ↔ .Z ∈ args) ∧
    (P.opts.v4 = true ↔ .four ∈ args) ∧ (P.opts.v6 = true ↔ .six ∈ args) ∧ ¬ (.four ∈ args ∧ .six ∈ args) := by
  obtain ⟨o, test, more, modes, ho, -, -, -, h46, -, rfl⟩ := start_ok h
  have f4 := flag (flag_four E) args _ _ ho
  have f6 := flag (flag_six E) args _ _ ho
  have fQ := flag (flag_Q E) args _ _ ho
  have fR := flag (flag_R E) args _ _ ho
  have fM := flag (flag_M E) args _ _ ho
  have fv := flag (flag_v E) args _ _ ho
  have fU := flag (flag_U E) args _ _ ho
  have fp := flag (flag_p E) args _ _ ho
  have fZ := flag (flag_Z E) args _ _ ho
  rw [any_is] at f4 f6 fQ fR fM fU fp fZ
  rw [any_or, any_is, any_sel] at fv
  simp only [defaults, Bool.false_or] at f4 f6 fQ fR fM fU fp fZ fv
  have nn : ∀ l : Option Bytes, l ≠ none ↔ l.isSome = true := fun l => by cases l <;> simp
  simp only [nn]
  dsimp only [shown, Ping.Opts.silent]
  rw [f4, f6] at h46
  rw [f4, f6, fQ, fR, fM, fU, fp, fZ, fv]
  refine ⟨by simp, ?_, ?_, by simp, by simp, by simp, by simp, by simp, by simp, by simp, ?_⟩
  · by_cases a : Arg.Q ∈ args <;> by_cases b : Arg.R ∈ args <;> by_cases c : Arg.M ∈ args <;> simp [a, b, c]
  · by_cases a : Arg.Q ∈ args <;> by_cases b : Arg.R ∈ args <;> by_cases c : Arg.M ∈ args <;> by_cases d : Arg.v ∈ args <;> by_cases e : (last optv args).isSome = true <;> simp [a, b, c, d, e]
  · rintro ⟨a, b⟩
    rw [decide_eq_true a, decide_eq_true b] at h46; cases h46

/-- C107: owping and twping do not start if a number or a fraction is followed by other text or is none, if a fraction is negative, a width is zero, or a schedule, a class, a range of ports, a unit, a list of
percentiles or a letter of `-A` is none, if an option is not known, or if there is no argument or there are more than two. -/
theorem C107_refused (E : Env) (tw : Bool) (args : List Arg) (rest : List Bytes) (secret : Bool) (P : Plan) (h : start E tw args rest secret = .ok P) :
    (∀ s ∈ args.filterMap wholes, s = [] ∨ ∃ v, Numeral s v) ∧ (∀ s ∈ args.filterMap fractions, (E.strtod s).2 = [] ∧ ¬ Negative (E.strtod s).1) ∧
    (∀ s, .b s ∈ args → (E.strtod s).1.le 0 = false) ∧ (∀ s, .i s ∈ args → (Options.parseSlots (floats E) s).isSome) ∧ (∀ s, .D s ∈ args → (Dscp.parseTypeP s).isSome) ∧
    (∀ s, .P s ∈ args → (Ports.toolRange s).isSome) ∧ (∀ s, .n s ∈ args → unitKnown (firstByte s) = true) ∧ (∀ s, .a s ∈ args → (Options.parsePercentile (floats E) s).isSome) ∧
    .unknown ∉ args ∧ (rest.length = 1 ∨ rest.length = 2) := by
  obtain ⟨o, test, more, modes, ho, hr, hm, -, -, -, -⟩ := start_ok h
  have hall := each args _ _ ho
  refine ⟨?_, ?_, ?_, ?_, ?_, ?_, ?_, ?_, ?_, ?_⟩
  · intro s hm
    obtain ⟨a, ha, he⟩ := List.mem_filterMap.1 hm
    obtain ⟨o1, o2, h1⟩ := hall _ ha
    cases a <;> simp only [wholes, Option.some.injEq, reduceCtorEq] at he <;> subst he <;> simp only [option] at h1 <;> split at h1 <;>
      first | cases h1; done | exact PowOpts.whole_some (by assumption) | exact PowOpts.whole_some (if_pos (by assumption))
  · intro s hm
    obtain ⟨a, ha, he⟩ := List.mem_filterMap.1 hm
    obtain ⟨o1, o2, h1⟩ := hall _ ha
    cases a with
    | b v =>
      cases he
      simp only [option] at h1
      split at h1
      · cases h1
      · rename_i x hx
        have hp := positive_gives hx
        rw [hp.1]
        refine ⟨rfl, ?_⟩
        rintro (hn | ⟨q, hn, hq⟩)
        · dsimp only at hn; rw [hn] at hp; cases hp.2
        · dsimp only at hn
          rw [hn] at hp
          exact absurd (Rat.le_of_lt hq) (of_decide_eq_false hp.2)
    | E v | L v | z v =>
      all_goals
        cases he
        simp only [option] at h1
        split at h1
        · cases h1
        · rename_i x hx
          have hp := nonneg_gives hx
          rw [hp.1]; exact ⟨rfl, hp.2⟩
    | _ => cases he
  · intro s hm
    obtain ⟨o1, o2, h1⟩ := hall _ hm
    simp only [option] at h1
    split at h1
    · cases h1
    · rename_i x hx; rw [(positive_gives hx).1]; exact (positive_gives hx).2
  · intro s hm
    obtain ⟨o1, o2, h1⟩ := hall _ hm
    simp only [option] at h1
    split at h1
    · cases h1
    · rename_i x hx; rw [hx]; rfl
  · intro s hm
    obtain ⟨o1, o2, h1⟩ := hall _ hm
    simp only [option] at h1
    split at h1
    · cases h1
    · split at h1
      · cases h1
      · rename_i x hx; rw [hx]; rfl
  · intro s hm
    obtain ⟨o1, o2, h1⟩ := hall _ hm
    simp only [option] at h1
    split at h1
    · cases h1
    · rename_i x hx; rw [hx]; rfl
  · intro s hm
    obtain ⟨o1, o2, h1⟩ := hall _ hm
    simp only [option] at h1
    split at h1
    · assumption
    · cases h1
  · intro s hm
    obtain ⟨o1, o2, h1⟩ := hall _ hm
    simp only [option] at h1
    split at h1
    · cases h1
    · rename_i x hx; rw [hx]; rfl
  · intro hm
    obtain ⟨o1, o2, h1⟩ := hall _ hm
    cases h1
  · rw [hr, List.length_cons]
    omega

/-- C107, the percentiles: when the program starts, there is one for each element of the list of the last `-a`, the number at its beginning, and each is from 0 to 100 or not a number
(`C107_no_number`). A list of numbers from 0 to 100 is never refused. -/
theorem C107_percentiles_partial (E : Env) (hE : ∀ s, (E.strtod s).2.length ≤ s.length) (tw : Bool) (args : List Arg) (rest : List Bytes) (secret : Bool) (P : Plan)
    (h : start E tw args rest secret = .ok P) (s : Bytes) (hs : last opta args = some s) :
    ∃ l fs, P.opts.percentiles = some l ∧ Spec.Options.Listed s fs ∧
      Spec.Options.Each (fun f (v : Dbl) => (E.strtod f).1 = v ∧ (E.strtod f).2.length < f.length ∧ (v = .nan ∨ ∃ q, v = .fin q ∧ 0 ≤ q ∧ q ≤ 100)) fs l := by
  obtain ⟨h1, h2⟩ := (C107_schedule E tw args rest secret P h).2.2.2.2.2.1 s hs
  obtain ⟨l, hl⟩ := Option.isSome_iff_exists.1 h1
  rw [hl] at h2
  obtain ⟨fs, a, b, c⟩ := (C79_percentile_partial (floats E) hE s l).2 h2
  refine ⟨l, fs, hl, a, b, fun i f v hf hv => ?_⟩
  obtain ⟨⟨rest, d, e⟩, g, k⟩ := c i f v hf hv
  have d' : E.strtod f = (v, rest) := d
  have g' : neg v = false := g
  refine ⟨by rw [d'], by rw [d']; exact e, ?_⟩
  cases v with
  | nan => exact .inl rfl
  | inf => exact absurd (show true = false from k) (by decide)
  | minusInf => exact absurd (show true = false from g') (by decide)
  | fin q =>
    have k' : decide (100 < q) = false := k
    have g'' : decide (q < 0) = false := g'
    exact .inr ⟨q, rfl, Rat.not_lt.1 (of_decide_eq_false g''), Rat.not_lt.1 (of_decide_eq_false k')⟩

theorem C107_percentiles_taken (E : Env) (hE : ∀ s, (E.strtod s).2.length ≤ s.length) (o : Opts) (s : Bytes) (fs : List Bytes) (qs : List Rat)
    (hf : Spec.Options.Listed s fs) (hl : Spec.Options.Each (fun f q => E.strtod f = (.fin q, []) ∧ f ≠ [] ∧ 0 ≤ q ∧ q ≤ 100) fs qs) :
    option E o (.a s) = .ok { o with percentiles := some (qs.map Dbl.fin) } := by
  have hlen : (qs.map Dbl.fin).length = fs.length := by rw [List.length_map]; exact hl.1
  have hget : ∀ (i : Nat) (f : Bytes) (v : Dbl), fs[i]? = some f → (qs.map Dbl.fin)[i]? = some v → E.strtod f = (v, []) ∧ f ≠ [] ∧ neg v = false ∧ (floats E).above v = false := by
    intro i f v hf' hv
    rw [List.getElem?_map] at hv
    cases hq : qs[i]? with
    | none => rw [hq] at hv; cases hv
    | some q =>
      rw [hq] at hv
      have hv : Dbl.fin q = v := Option.some.inj hv
      subst hv
      obtain ⟨a, b, c, d⟩ := hl.2 i f q hf' hq
      exact ⟨a, b, decide_eq_false (Rat.not_lt.2 c), decide_eq_false (Rat.not_lt.2 d)⟩
  generalize qs.map Dbl.fin = l at hlen hget
  have := (C79_percentile_partial (floats E) hE s l).1 fs hf ⟨hlen, fun i f v hf' hv => by
    obtain ⟨a, b, c, d⟩ := hget i f v hf' hv
    exact ⟨⟨a, List.length_pos_iff.2 b⟩, c, d⟩⟩
  simp only [option]
  rw [this]

/-- C107 (defect): a percentile may be given that is not a number: `-a nan`. -/
theorem C107_no_number (E : Env) (hE : ∀ s, (E.strtod s).2.length ≤ s.length) (o : Opts) (h : E.strtod (text ['n','a','n']) = (.nan, [])) :
    option E o (.a (text ['n','a','n'])) = .ok { o with percentiles := some [.nan] } := by
  have := (C79_percentile_partial (floats E) hE (text ['n','a','n']) [Dbl.nan]).1 [text ['n','a','n']] ⟨rfl, nofun, by decide⟩ ⟨rfl, fun i f v hf hv => by
    match i, hf, hv with
    | 0, hf, hv =>
      have e1 : text ['n','a','n'] = f := Option.some.inj hf
      have e2 : Dbl.nan = v := Option.some.inj hv
      subst e1 e2
      exact ⟨⟨h, by decide⟩, rfl, rfl⟩⟩
  simp only [option]
  rw [this]
  rfl

/-! ## Examples -/

/-- A `strtod` for examples: a number of one digit. -/
def pingEnv : Env where
  strtod s := match s with
    | b :: r => if 48 ≤ b.toNat ∧ b.toNat ≤ 57 then (.fin ((b.toNat - 48 : Nat) : Rat), r) else (.fin 0, s)
    | [] => (.fin 0, [])
  num64 x := match x with
    | .fin q => BitVec.ofNat 64 (q.num.toNat * 4294967296 / q.den)
    | _ => 0
  patience rtt := .fin ((rtt.toNat : Rat) / 4294967296 + 2)
  less x y := match x, y with
    | .fin a, .fin b => decide (a < b)
    | _, _ => false
  tenth := .fin (1 / 10)
  width := .fin (1 / 10000)

/-- What a start says, as numbers: packets, padding, modes, class, flags for the directions and for what is shown. -/
def pingFigures : Except Nat Plan → Option (List Nat × List Bool)
  | .ok P => some ([P.npackets.toNat, P.padding.toNat, P.modes.toNat, P.typeP.toNat], [P.ping.there, P.ping.back, P.shown.quiet, P.shown.machine, P.shown.records])
  | .error _ => none

example : pingFigures (start pingEnv false [] [text ['h']] false) = some ([100, 0, 1, 0], [true, true, false, false, false]) := by decide +kernel
example : pingFigures (start pingEnv true [] [text ['h']] false) = some ([100, 27, 1, 0], [true, true, false, false, false]) := by decide +kernel
example : pingFigures (start pingEnv true [.A (text ['E']), .u (text ['j'])] [text ['h']] true) = some ([100, 64, 4, 0], [true, true, false, false, false]) := by decide +kernel
example : pingFigures (start pingEnv false [.c (text ['5']), .T (text ['x']), .v, .M, .s (text ['9','9','9','9','9']), .c (text ['7']), .D (text ['E','F']), .i (text ['1','f',',','2'])] [text ['h'], text ['g']] false) =
    some ([7, 65000, 1, 46 * 4 * 2 ^ 22], [true, false, false, true, false]) := by decide +kernel
example : pingFigures (start pingEnv false [.c (text ['5','x'])] [text ['h']] false) = none := by decide +kernel
example : pingFigures (start pingEnv false [.b (text ['0'])] [text ['h']] false) = none := by decide +kernel
example : timeoutOf pingEnv (defaults pingEnv) 4294967296 = some (BitVec.ofNat 64 (3 * 4294967296)) := by decide +kernel

theorem pingEnv_rest (s : Bytes) : (pingEnv.strtod s).2.length ≤ s.length := by
  cases s with
  | nil => exact Nat.le_refl _
  | cons b r =>
    show (if 48 ≤ b.toNat ∧ b.toNat ≤ 57 then ((.fin ((b.toNat - 48 : Nat) : Rat), r) : Dbl × Bytes) else (.fin 0, b :: r)).2.length ≤ _
    split
    · exact Nat.le_succ _
    · exact Nat.le_refl _

/-- `-a 5,9` is taken, and the program starts. -/
example (o : Opts) : option pingEnv o (.a (text ['5',',','9'])) = .ok { o with percentiles := some [.fin 5, .fin 9] } :=
  C107_percentiles_taken pingEnv pingEnv_rest o _ [text ['5'], text ['9']] [5, 9] ⟨rfl, nofun, by decide⟩ ⟨rfl, fun i f q hf hq => by
    match i, hf, hq with
    | 0, hf, hq => cases hf; cases hq; decide +kernel
    | 1, hf, hq => cases hf; cases hq; decide +kernel⟩
example : (match start pingEnv false [.a (text ['5',',','9'])] [text ['h']] false with | .ok P => P.opts.percentiles | .error _ => none) = some [.fin 5, .fin 9] := by decide +kernel
/-- A `strtod` that knows `nan`. -/
example : ∃ E : Env, (∀ s, (E.strtod s).2.length ≤ s.length) ∧ E.strtod (text ['n','a','n']) = (.nan, []) :=
  ⟨{ pingEnv with strtod := fun s => if s = text ['n','a','n'] then (.nan, []) else (.fin 0, s) }, fun s => by dsimp only; split <;> simp, rfl⟩

/-- C107 (defect): twping with an identity and a pass-phrase, as in `C107_asymmetric`. -/
example : pingFigures (start pingEnv true [.u (text ['j'])] [text ['h']] true) = some ([100, 0, 15, 0], [true, true, false, false, false]) := by decide +kernel

/-- C107 (defect): a padding of 4294967295, or -1, is taken for none, not for too much. -/
theorem C107_unset : (pingFigures (start pingEnv false [.s (text ['-','1'])] [text ['h']] false)).map (·.1) = some [100, 0, 1, 0] := by decide +kernel

/-- C107 (defects): a negative number of packets, and none at all. -/
theorem C107_negative : (pingFigures (start pingEnv false [.c (text ['-','1'])] [text ['h']] false)).map (·.1) = some [4294967295, 0, 1, 0] := by decide +kernel
theorem C107_empty : (pingFigures (start pingEnv false [.c []] [text ['h']] false)).map (·.1) = some [0, 0, 1, 0] := by decide +kernel

/-- C107 (defect): a second class is accepted after class 0, although `-D` can be given only once. -/
theorem C107_two_classes : (pingFigures (start pingEnv false [.D (text ['C','S','0']), .D (text ['E','F'])] [text ['h']] false)).map (·.1) = some [100, 0, 1, 46 * 4 * 2 ^ 22] := by decide +kernel

/-- C107 (defect): an option that is not known makes the program end with status 0. -/
theorem C107_status (E : Env) (tw : Bool) (r : List Arg) (rest : List Bytes) (secret : Bool) : start E tw (.unknown :: r) rest secret = .error 0 := rfl

end Owamp.Props
