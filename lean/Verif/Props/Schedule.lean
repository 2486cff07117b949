import Verif.Lemmas.Schedule
/-!
# C06-C09: send schedules
-/
namespace Owamp.Props
open Owamp.Num64 Owamp.Spec Owamp.Sched

/-- A cipher that makes examples computable: it hands back its input. -/
private def toyE : Bytes → Bytes → Bytes := fun _ b => b

/-! ## C08 -/

/-- Draw `n` words. -/
def draws (E : Bytes → Bytes → Bytes) : Nat → ExpCtx → List Nat × ExpCtx
  | 0, x => ([], x)
  | n + 1, x => let r := unifRand E x; let s := draws E n r.2; (r.1 :: s.1, s.2)

private theorem draws_at (E : Bytes → Bytes → Bytes) (key : Bytes) :
    ∀ n p x, At E key p x → (draws E n x).1 = (List.range n).map (fun i => word E key (p + i)) ∧
      At E key (p + n) (draws E n x).2 := by
  intro n
  induction n with
  | zero => intro p x h; exact ⟨rfl, h⟩
  | succ n ih =>
    intro p x h
    obtain ⟨h1, h2⟩ := unifRand_at E key p x h
    obtain ⟨h3, h4⟩ := ih (p + 1) _ h2
    refine ⟨?_, ?_⟩
    · rw [List.range_succ_eq_map, List.map_cons, List.map_map, Nat.add_zero]
      refine (congr (congrArg List.cons h1) (h3.trans ?_))
      apply List.map_congr_left
      intro i _
      rw [Function.comp, show p + 1 + i = p + i.succ by omega]
    · rw [show p + (n + 1) = p + 1 + n by omega]; exact h4

/-- **C08.** From a fresh context keyed by `sid`, the `n`-th word drawn is word `n mod 4` of
the cipher applied to the 128-bit counter `n - n mod 4`, for every `n`. The stale contents of the
output buffer never matter. -/
theorem C08_counter_stream (E : Bytes → Bytes → Bytes) (sid o : Bytes) (n : Nat) :
    (draws E n ⟨sid, zeros 16, o⟩).1 = (List.range n).map (word E sid) := by
  have := (draws_at E sid n 0 _ (at_init E sid o)).1
  simpa using this

/-- **C08.** The counter itself: after `n` draws it holds `n` mod 2^128, most significant byte first. -/
theorem C08_counter_value (E : Bytes → Bytes → Bytes) (sid o : Bytes) (n : Nat) :
    beDec (draws E n ⟨sid, zeros 16, o⟩).2.counter = n % 2 ^ 128 := by
  have := (draws_at E sid n 0 _ (at_init E sid o)).2.2.1
  rw [this, Nat.zero_add, beDec_beEnc]

/-- A carry through two bytes. -/
example : incr (beEnc 16 65535) 16 = beEnc 16 65536 ∧
    (draws toyE 7 ⟨[], zeros 16, []⟩).1 = [0, 0, 0, 0, 0, 0, 0] ∧
    (draws toyE 8 ⟨[], zeros 16, []⟩).1.getLast? = some 4 := by decide +kernel

/-! ## C09 -/

/-- **C09.** Whatever the cipher and wherever the stream stands, one call returns the value algorithm S
specifies for the words that follow and leaves the stream just after the words it consumed. (The model
function is total, so it terminates.) -/
theorem C09_exponential (E : Bytes → Bytes → Bytes) (sid o : Bytes) (n : Nat) :
    ∃ used, AlgS (fun i => word E sid (n + i)) (expNext E (draws E n ⟨sid, zeros 16, o⟩).2).1 used ∧
      1 ≤ used ∧ used ≤ 12 ∧
      (unifRand E (expNext E (draws E n ⟨sid, zeros 16, o⟩).2).2).1 = word E sid (n + used) := by
  have h := (draws_at E sid n 0 _ (at_init E sid o)).2
  rw [Nat.zero_add] at h
  obtain ⟨used, h1, h2⟩ := expNext_at E sid n _ h
  refine ⟨used, h1, ?_, ?_, (unifRand_at E sid _ _ h2).1⟩
  · obtain ⟨j, _, hh⟩ := h1
    rcases hh with ⟨_, _, h⟩ | ⟨_, k, _, _, _, _, h, _⟩ <;> omega
  · obtain ⟨j, _, hh⟩ := h1
    rcases hh with ⟨_, _, h⟩ | ⟨_, k, _, _, _, _, h, _⟩ <;> omega

/-- **C09.** Every value algorithm S specifies for 32-bit words is below 33 ln 2. -/
theorem C09_bound (u : Nat → Nat) (hu : ∀ i, u i < 2 ^ 32) (val used : Nat) (h : AlgS u val used) :
    val < 33 * ln2 := by
  obtain ⟨j, hl, hh⟩ := h
  have hj := hl.1
  rcases hh with ⟨h1, h2, _⟩ | ⟨_, k, _, _, _, _, _, V, ⟨⟨i, _, _, hV⟩, _⟩, h2⟩
  · simp only [ln2] at *; omega
  · have := hu i
    rw [← hV] at this
    simp only [ln2] at *; omega

private theorem leading_unique (x j j' : Nat) (h : LeadingOnes x j) (h' : LeadingOnes x j')
    (hlt : j < j') : False := by
  obtain ⟨_, _, a3⟩ := h
  obtain ⟨b1, b2, _⟩ := h'
  have a3 := a3 (by omega)
  have e : x / 2 ^ (31 - j) = x / 2 ^ (32 - j') / 2 ^ (j' - 1 - j) := by
    rw [Nat.div_div_eq_div_mul, ← Nat.pow_add]; congr 2; omega
  rw [e, b2] at a3
  have e2 : (2 : Nat) ^ j' = 2 ^ (j + 1) * 2 ^ (j' - 1 - j) := by
    rw [← Nat.pow_add]; congr 1; omega
  have e3 : (2 : Nat) ^ (j + 1) = 2 * 2 ^ j := by rw [Nat.pow_succ, Nat.mul_comm]
  have p1 := Nat.two_pow_pos (j' - 1 - j)
  have p2 := Nat.two_pow_pos j
  have e4 : (2 ^ j' - 1) / 2 ^ (j' - 1 - j) = 2 * 2 ^ j - 1 := by
    apply Nat.div_eq_of_lt_le
    · rw [e2, e3, Nat.sub_mul, Nat.one_mul]; omega
    · rw [e2, e3, show 2 * 2 ^ j - 1 + 1 = 2 * 2 ^ j by omega]
      have : 0 < 2 * 2 ^ j * 2 ^ (j' - 1 - j) := Nat.mul_pos (by omega) p1
      omega
  rw [e4] at a3
  omega

/-- The specification determines value and word count: it leaves the code no freedom. -/
theorem C09_spec_unique (u : Nat → Nat) (v v' n n' : Nat) (h : AlgS u v n) (h' : AlgS u v' n') :
    v = v' ∧ n = n' := by
  obtain ⟨j, hl, hh⟩ := h
  obtain ⟨j', hl', hh'⟩ := h'
  have hj : j = j' := by
    rcases Nat.lt_trichotomy j j' with h | h | h
    · exact (leading_unique _ _ _ hl hl' h).elim
    · exact h
    · exact (leading_unique _ _ _ hl' hl h).elim
  subst hj
  simp only at hh hh'
  rcases hh with ⟨a1, a2, a3⟩ | ⟨a1, k, k1, k2, k3, k4, k5, V, ⟨⟨i, i1, i2, i3⟩, m⟩, a2⟩ <;>
  rcases hh' with ⟨b1, b2, b3⟩ | ⟨b1, k', k1', k2', k3', k4', k5', V', ⟨⟨i', i1', i2', i3'⟩, m'⟩, b2⟩
  · omega
  · omega
  · omega
  · have hk : k = k' := by
      rcases Nat.lt_trichotomy k k' with h | h | h
      · have := k4' k (by omega) h; omega
      · exact h
      · have := k4 k' (by omega) h; omega
    subst hk
    have hV : V = V' := by
      have h1 := m i' i1' i2'
      have h2 := m' i i1 i2
      omega
    subst hV
    omega

/-- Both branches occur: a word below one half and small gives `U`; a word whose shifted value exceeds
ln 2 takes further words; all ones gives exactly 32 ln 2. -/
example : AlgS (fun _ => 0x20000000) 0x40000000 1 := by
  refine ⟨0, by unfold LeadingOnes; decide, Or.inl (by decide)⟩
example : (expNext (fun _ _ => List.replicate 16 0xff) ⟨[], zeros 16, []⟩).1 = 32 * ln2 := by
  decide +kernel
example : (expNext (fun _ _ => List.replicate 16 0x7f) ⟨[], zeros 16, []⟩).1 =
    0x7f7f7f7f * ln2 / 2 ^ 32 ∧
    (expNext (fun _ _ => List.replicate 16 0x7f) ⟨[], zeros 16, []⟩).2.counter = beEnc 16 5 := by
  decide +kernel

/-! ## C06 -/

/-- Fields no call other than a re-keying reset changes. -/
private theorem next_fixed (E : Bytes → Bytes → Bytes) (x : ExpCtx) : (unifRand E x).2.key = x.key := rfl

private theorem min_key (E : Bytes → Bytes → Bytes) : ∀ n V x, (minLoop E n V x).2.key = x.key := by
  intro n
  induction n with
  | zero => intro V x; rfl
  | succ n ih => intro V x; rw [minLoop, ih]; rfl

private theorem exp_key (E : Bytes → Bytes → Bytes) (x : ExpCtx) : (expNext E x).2.key = x.key := by
  simp only [expNext]
  split
  · rfl
  · simp only; rw [min_key]; rfl

private theorem step_fixed (E : Bytes → Bytes → Bytes) (c : Ctx) (op : Op) :
    (step E c op).exp.key = c.exp.key ∧ (step E c op).maxi = c.maxi ∧
    (step E c op).nslots = c.nslots ∧ (step E c op).slots = c.slots := by
  cases op with
  | reset => exact ⟨rfl, rfl, rfl, rfl⟩
  | next =>
    simp only [step, nextDelta]
    split
    · exact ⟨rfl, rfl, rfl, rfl⟩
    · split
      · exact ⟨rfl, rfl, rfl, rfl⟩
      · split
        · exact ⟨rfl, rfl, rfl, rfl⟩
        · exact ⟨exp_key E c.exp, rfl, rfl, rfl⟩
        · exact ⟨rfl, rfl, rfl, rfl⟩
        · exact ⟨rfl, rfl, rfl, rfl⟩

private theorem run_fixed (E : Bytes → Bytes → Bytes) (ops : List Op) (c : Ctx) :
    (run E c ops).exp.key = c.exp.key ∧ (run E c ops).maxi = c.maxi ∧
    (run E c ops).nslots = c.nslots ∧ (run E c ops).slots = c.slots := by
  induction ops generalizing c with
  | nil => exact ⟨rfl, rfl, rfl, rfl⟩
  | cons op ops ih =>
    have h1 := ih (step E c op)
    have h2 := step_fixed E c op
    exact ⟨h1.1.trans h2.1, h1.2.1.trans h2.2.1, h1.2.2.1.trans h2.2.2.1, h1.2.2.2.trans h2.2.2.2⟩

/-- **C06.** Whatever sequence of draws and resets happened on a context, a reset puts it back exactly
where creation left it, so it yields the same delays again. -/
theorem C06_reset_restores (E : Bytes → Bytes → Bytes) (sid : Bytes) (t : Sched.Spec) (c : Ctx)
    (hc : create sid t = some c) (ops : List Op) : reset (run E c ops) none = (true, c) := by
  have hc' : c = setup sid t := by
    simp only [create] at hc
    split at hc
    · cases hc
    · exact (Option.some.inj hc).symm
  obtain ⟨h1, h2, h3, h4⟩ := run_fixed E ops c
  generalize run E c ops = d at *
  obtain ⟨⟨k, cn, o⟩, i, m, ns, sl⟩ := d
  subst hc'
  cases h1; cases h2; cases h3; cases h4
  rfl

/-- **C06.** A reset to another session gives exactly the context creation would have given, whatever
the context was used for before. -/
theorem C06_reset_rekeys (c : Ctx) (sid : Bytes) (t : Sched.Spec) (c' : Ctx)
    (hc : create sid t = some c') : reset c (some (sid, t)) = (true, c') := by
  simp only [create] at hc
  split at hc
  · cases hc
  · rename_i h
    simp only [Bool.or_eq_true, not_or] at h
    simp only [reset]
    rw [if_neg h.2, Option.some.inj hc]

private theorem slot_index (len np k : Nat) (hk : k < np) : k % min len np = k % len := by
  rcases Nat.le_total len np with h | h
  · rw [Nat.min_eq_left h]
  · rw [Nat.min_eq_right h, Nat.mod_eq_of_lt hk, Nat.mod_eq_of_lt (by omega)]

private theorem delays_from (E : Bytes → Bytes → Bytes) (sid : Bytes) (t : Sched.Spec)
    (hne : t.slots ≠ []) (hok : checkSlots t = false) :
    ∀ n (c : Ctx) pos, c.maxi = t.npackets.toNat → c.nslots = min t.slots.length t.npackets.toNat →
      c.slots = t.slots → c.i + n ≤ t.npackets.toNat → At E sid pos c.exp →
      ∃ ds, deltas E n c = ds.map Except.ok ∧ ds.length = n ∧
        Delays E sid t.slots c.i pos ds := by
  intro n
  induction n with
  | zero => intro c pos _ _ _ _ _; exact ⟨[], rfl, rfl, .nil _ _⟩
  | succ n ih =>
    intro c pos h1 h2 h3 h4 h5
    have hlen : 0 < t.slots.length := List.length_pos_iff.mpr hne
    have hidx : c.i % c.nslots = c.i % t.slots.length := by
      rw [h2]; exact slot_index _ _ _ (by omega)
    have hlt : c.i % t.slots.length < t.slots.length := Nat.mod_lt _ hlen
    obtain ⟨sl, hsl⟩ : ∃ sl, t.slots[c.i % t.slots.length]? = some sl :=
      ⟨_, List.getElem?_eq_getElem hlt⟩
    have hg1 : ¬ (c.i ≥ c.maxi) := by omega
    have hg2 : ¬ (c.nslots = 0) := by omega
    have hmem : sl ∈ t.slots := by
      obtain ⟨hh, rfl⟩ := List.getElem?_eq_some_iff.mp hsl
      exact List.getElem_mem _
    rw [deltas]
    cases sl with
    | other ty =>
      exfalso
      have := List.any_eq_false.mp hok _ hmem
      simp at this
    | literal o =>
      have hn : nextDelta E c = (.ok o.toNat, { c with i := c.i + 1 }) := by
        rw [nextDelta, if_neg hg1, if_neg hg2]
        simp only [h3, hidx, hsl]
      obtain ⟨ds, e1, e2, e3⟩ := ih { c with i := c.i + 1 } pos h1 h2 h3 (by simp only; omega) h5
      refine ⟨o.toNat :: ds, ?_, by simp [e2], .lit _ _ _ _ hsl e3⟩
      rw [hn, e1]; rfl
    | randExp m =>
      obtain ⟨used, hs, ha⟩ := expNext_at E sid pos _ h5
      have hn : nextDelta E c =
          (.ok (mult (expNext E c.exp).1 m.toNat),
            { c with i := c.i + 1, exp := (expNext E c.exp).2 }) := by
        rw [nextDelta, if_neg hg1, if_neg hg2]
        simp only [h3, hidx, hsl]
      obtain ⟨ds, e1, e2, e3⟩ := ih { c with i := c.i + 1, exp := (expNext E c.exp).2 } (pos + used)
        h1 h2 h3 (by simp only; omega) ha
      have hb : (expNext E c.exp).1 < 2 ^ 64 := by
        have := C09_bound _ (fun i => word_lt E sid (pos + i)) _ _ hs
        simp only [ln2] at this; omega
      refine ⟨_ :: ds, ?_, by simp [e2], .exp _ _ _ _ _ _ hsl hs e3⟩
      rw [hn, e1, C01_mult_exact _ _ hb m.isLt]; rfl

/-- **C06/C07.** All the delays of a valid specification: a created context returns, without any fault,
`npackets` delays; delay `k` uses slot `k mod nslots`, literal slots give exactly their offset and
exponential slots the algorithm S deviate (of the key stream of the SID, at the point where the
previous deviate stopped) times the mean. -/
theorem C06_schedule (E : Bytes → Bytes → Bytes) (sid : Bytes) (t : Sched.Spec) (c : Ctx)
    (hc : create sid t = some c) :
    ∃ ds, deltas E t.npackets.toNat c = ds.map Except.ok ∧ ds.length = t.npackets.toNat ∧
      Delays E sid t.slots 0 0 ds := by
  simp only [create] at hc
  split at hc
  · cases hc
  · rename_i h
    simp only [Bool.or_eq_true, decide_eq_true_eq, not_or, Bool.not_eq_true] at h
    have hc := Option.some.inj hc
    subst hc
    exact delays_from E sid t (fun h' => h.1 (by rw [h']; rfl)) h.2 _ (setup sid t) 0 rfl rfl rfl
      (by simp [setup]) (at_init E sid _)

/-- **C06.** The delays of a session are a function of the SID, the slots and the cipher alone: any two lists
that meet the specification agree on every packet they both describe. -/
theorem C06_spec_unique (E : Bytes → Bytes → Bytes) (sid : Bytes) (slots : List Slot) (k pos : Nat)
    (ds ds' : List Nat) (h : Delays E sid slots k pos ds) (h' : Delays E sid slots k pos ds')
    (n : Nat) (hn : n < ds.length) (hn' : n < ds'.length) : ds[n] = ds'[n] := by
  induction h generalizing ds' n with
  | nil => simp at hn
  | lit k pos o ds hs _ ih =>
    cases h' with
    | nil => simp at hn'
    | lit _ _ o' ds' hs' hd' =>
      rw [hs] at hs'
      cases hs'
      cases n with
      | zero => rfl
      | succ n => exact ih _ hd' n (by simpa using hn) (by simpa using hn')
    | exp _ _ _ _ _ _ hs' => rw [hs] at hs'; cases hs'
  | exp k pos m v used ds hs ha _ ih =>
    cases h' with
    | nil => simp at hn'
    | lit _ _ _ _ hs' => rw [hs] at hs'; cases hs'
    | exp _ _ m' v' used' ds' hs' ha' hd' =>
      rw [hs] at hs'
      cases hs'
      obtain ⟨rfl, rfl⟩ := C09_spec_unique _ _ _ _ _ ha ha'
      cases n with
      | zero => rfl
      | succ n => exact ih _ hd' n (by simpa using hn) (by simpa using hn')

/-- What happens beyond the last packet: the call returns the number 3 (`OWPErrFATAL`) as a delay
of 3/2^32 s, and changes nothing. -/
theorem C06_after_last (E : Bytes → Bytes → Bytes) (c : Ctx) (h : c.maxi ≤ c.i) :
    nextDelta E c = (.ok 3, c) := by
  simp only [nextDelta, ge_iff_le, h, if_true, errFATAL]

/-- Reset accepts what creation refuses: after a reset to a specification without slots the next call
divides by zero. -/
theorem C06_reset_empty_divides_by_zero (E : Bytes → Bytes → Bytes) (c : Ctx) (sid : Bytes)
    (n : U32) (hn : n ≠ 0) :
    create sid ⟨n, []⟩ = none ∧ (reset c (some (sid, ⟨n, []⟩))).1 = true ∧
    (nextDelta E (reset c (some (sid, ⟨n, []⟩))).2).1 = .error .divByZero := by
  have h : 0 < n.toNat := by
    rcases Nat.eq_zero_or_pos n.toNat with h | h
    · exact (hn (BitVec.eq_of_toNat_eq h)).elim
    · exact h
  refine ⟨rfl, rfl, ?_⟩
  have h' : n.toNat ≠ 0 := by omega
  simp [reset, checkSlots, setup, nextDelta, h']

/-- Non-vacuity: a two-slot specification is accepted and gives mixed delays. -/
example : (create [1, 2, 3] ⟨5, [.literal 7, .randExp 0x200000000]⟩).isSome = true ∧
    (deltas (fun _ _ => List.replicate 16 0x20) 5
      (setup [1, 2, 3] ⟨5, [.literal 7, .randExp 0x200000000]⟩)) =
      [.ok 7, .ok 0x80808080, .ok 7, .ok 0x80808080, .ok 7] := by
  decide +kernel

/-! ## C07 -/

/-- **C07.** Each delay individually. -/
theorem C07_slot_cyclic (E : Bytes → Bytes → Bytes) (sid : Bytes) (t : Sched.Spec) (c : Ctx)
    (hc : create sid t = some c) (k : Nat) (hk : k < t.npackets.toNat) :
    ∃ d, (deltas E t.npackets.toNat c)[k]? = some (.ok d) ∧
      ((∃ o, t.slots[k % t.slots.length]? = some (.literal o) ∧ d = o.toNat) ∨
       (∃ m v pos used, t.slots[k % t.slots.length]? = some (.randExp m) ∧
          AlgS (fun i => word E sid (pos + i)) v used ∧ d = (v * m.toNat / 2 ^ 32) % 2 ^ 64)) := by
  obtain ⟨ds, h1, h2, h3⟩ := C06_schedule E sid t c hc
  have key : ∀ a pos ds, Delays E sid t.slots a pos ds → ∀ n (hn : n < ds.length),
      ((∃ o, t.slots[(a + n) % t.slots.length]? = some (.literal o) ∧ ds[n] = o.toNat) ∨
       (∃ m v pos used, t.slots[(a + n) % t.slots.length]? = some (.randExp m) ∧
          AlgS (fun i => word E sid (pos + i)) v used ∧ ds[n] = (v * m.toNat / 2 ^ 32) % 2 ^ 64)) := by
    intro a pos ds hd
    induction hd with
    | nil => intro n hn; simp at hn
    | lit a pos o ds hs _ ih =>
      intro n hn
      cases n with
      | zero => exact Or.inl ⟨o, hs, rfl⟩
      | succ n =>
        have := ih n (by simpa using hn)
        rw [show a + 1 + n = a + (n + 1) by omega] at this
        exact this
    | exp a pos m v used ds hs ha _ ih =>
      intro n hn
      cases n with
      | zero => exact Or.inr ⟨m, v, pos, used, hs, ha, rfl⟩
      | succ n =>
        have := ih n (by simpa using hn)
        rw [show a + 1 + n = a + (n + 1) by omega] at this
        exact this
  refine ⟨ds[k]'(by omega), ?_, ?_⟩
  · rw [h1, List.getElem?_map, List.getElem?_eq_getElem (by omega)]; rfl
  · have := key 0 0 ds h3 k (by omega)
    rwa [Nat.zero_add] at this

/-- The offsets of a list of literal slots. -/
def offsets (l : List U64) : List Nat := l.map BitVec.toNat

private theorem lit_delays (E : Bytes → Bytes → Bytes) (sid : Bytes) (l : List U64) (k pos : Nat)
    (ds : List Nat) (h : Delays E sid (l.map Slot.literal) k pos ds) :
    ∀ n (hn : n < ds.length), (offsets l)[(k + n) % l.length]? = some ds[n] := by
  induction h with
  | nil => intro n hn; simp at hn
  | lit a pos o ds hs _ ih =>
    intro n hn
    cases n with
    | zero =>
      rw [List.length_map, List.getElem?_map] at hs
      rw [offsets, List.getElem?_map, Nat.add_zero]
      cases hx : l[a % l.length]? with
      | none => rw [hx] at hs; cases hs
      | some v =>
        rw [hx] at hs
        cases hs
        rfl
    | succ n =>
      have := ih n (by simpa using hn)
      rw [show a + 1 + n = a + (n + 1) by omega] at this
      exact this
  | exp a pos m v used ds hs =>
    rw [List.getElem?_map] at hs
    cases hx : l[a % (l.map Slot.literal).length]? with
    | none => rw [hx] at hs; cases hs
    | some v => rw [hx] at hs; cases hs

private theorem cyc_sum (l ds : List Nat)
    (h : ∀ n (hn : n < ds.length), l[n % l.length]? = some ds[n]) (k r : Nat) (hr : r < l.length)
    (hlen : k * l.length + r < ds.length) :
    (ds.take (k * l.length + r + 1)).sum = k * l.sum + (l.take (r + 1)).sum := by
  induction k generalizing ds with
  | zero =>
    rw [Nat.zero_mul, Nat.zero_add, Nat.zero_mul, Nat.zero_add]
    congr 1
    apply List.ext_getElem?
    intro i
    rw [List.getElem?_take, List.getElem?_take]
    by_cases hi : i < r + 1
    · rw [if_pos hi, if_pos hi]
      have := h i (by omega)
      rw [Nat.mod_eq_of_lt (by omega)] at this
      rw [this, List.getElem?_eq_getElem]
    · rw [if_neg hi, if_neg hi]
  | succ k ih =>
    have hkl : (k + 1) * l.length = l.length + k * l.length := by rw [Nat.succ_mul, Nat.add_comm]
    rw [hkl] at hlen ⊢
    have htake : ds.take l.length = l := by
      apply List.ext_getElem?
      intro i
      rw [List.getElem?_take]
      by_cases hi : i < l.length
      · rw [if_pos hi]
        have := h i (by omega)
        rw [Nat.mod_eq_of_lt hi] at this
        rw [this, List.getElem?_eq_getElem]
      · rw [if_neg hi, List.getElem?_eq_none (by omega)]
    have hdrop := ih (ds.drop l.length) (by
      intro n hn
      have := h (l.length + n) (by simp at hn; omega)
      rw [Nat.add_mod_left] at this
      rw [this, List.getElem_drop]) (by simp; omega)
    rw [show l.length + k * l.length + r + 1 = l.length + (k * l.length + r + 1) by omega,
      List.take_add, List.sum_append, htake, hdrop, Nat.succ_mul]
    omega

/-- **C07.** With literal slots only, the delays before packet `k*nslots + r` add up to exactly
`k` periods plus the first `r+1` offsets. -/
theorem C07_literal_period (E : Bytes → Bytes → Bytes) (sid : Bytes) (l : List U64) (np : U32)
    (c : Ctx) (hc : create sid ⟨np, l.map Slot.literal⟩ = some c) (k r : Nat) (hr : r < l.length)
    (hp : k * l.length + r < np.toNat) :
    ∃ ds : List Nat, deltas E np.toNat c = ds.map Except.ok ∧
      (ds.take (k * l.length + r + 1)).sum =
        k * (offsets l).sum + ((offsets l).take (r + 1)).sum := by
  obtain ⟨ds, h1, h2, h3⟩ := C06_schedule E sid _ c hc
  simp only at h1 h2 h3
  refine ⟨ds, h1, ?_⟩
  have hlen : (offsets l).length = l.length := by simp [offsets]
  have := lit_delays E sid l 0 0 ds h3
  have h4 := cyc_sum (offsets l) ds (fun n hn => by
    have := this n hn
    rwa [Nat.zero_add, ← hlen] at this) k r (by omega) (by rw [hlen]; omega)
  rwa [hlen] at h4

/-- Non-vacuity: packet 4 of a three-slot literal schedule. -/
example : (create [9] ⟨5, [10, 20, 40].map Slot.literal⟩).isSome = true ∧
    deltas toyE 5 (setup [9] ⟨5, [10, 20, 40].map Slot.literal⟩) =
      [.ok 10, .ok 20, .ok 40, .ok 10, .ok 20] := by decide +kernel

end Owamp.Props
