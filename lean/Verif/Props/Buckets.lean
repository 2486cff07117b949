import Verif.Lemmas.Buckets
import Verif.Props.Stats
import Verif.Props.TwStats
/-!
# C93: how exact the reported delays are
-/
namespace Owamp.Props
open Owamp.Codec Owamp.Buckets Owamp.Spec.Buckets
open Owamp.Spec.Stats (Lost arrivals firstCopy sent lastOf LeastOf GreatestOf)
open StatSession (Object)

/-! ## Delays -/

/-- **C93**, the delay of a packet. For time stamps from 1968 to 2036 the delay the program computes differs from the difference of the two by at most 2¹¹ units of
2⁻³² s, that is 2⁻²¹ s; it has the sign of the difference, or is 0; a later arrival never has a smaller delay, and a later departure never a greater one. -/
theorem C93_delay (a b a' b' : Time.TimeStamp) (ha : Modern a) (hb : Modern b) (ha' : Modern a') (hb' : Modern b') :
    (delay a b ≤ exactDelay a b + 2 ^ 11 ∧ exactDelay a b ≤ delay a b + 2 ^ 11) ∧
    (0 ≤ exactDelay a b → 0 ≤ delay a b) ∧ (exactDelay a b ≤ 0 → delay a b ≤ 0) ∧
    (a'.owptime ≤ a.owptime → b.owptime ≤ b'.owptime → delay a b ≤ delay a' b') := by
  rw [delay_eq a b ha hb, delay_eq a' b' ha' hb']
  unfold exactDelay
  have h1 := toDouble_near _ a.owptime.isLt
  have h2 := toDouble_near _ b.owptime.isLt
  refine ⟨by omega, fun h => ?_, fun h => ?_, fun h h' => ?_⟩
  · have := toDouble_mono a.owptime.toNat b.owptime.toNat (by omega); omega
  · have := toDouble_mono b.owptime.toNat a.owptime.toNat (by omega); omega
  · have := toDouble_mono _ _ (BitVec.le_def.1 h)
    have := toDouble_mono _ _ (BitVec.le_def.1 h')
    omega

/-- **C93**, the round trip. The difference of two such delays is not rounded again, so that the round-trip time is within 2⁻²⁰ s of the exact one. -/
theorem C93_trip (a b d e : Time.TimeStamp) (ha : Modern a) (hb : Modern b) (hd : Modern d) (he : Modern e) :
    toDoubleI (delay a e - delay b d) = delay a e - delay b d ∧
    delay a e - delay b d ≤ exactDelay a e - exactDelay b d + 2 ^ 12 ∧ exactDelay a e - exactDelay b d ≤ delay a e - delay b d + 2 ^ 12 := by
  have h1 := C93_delay a e a e ha he ha he
  have h2 := C93_delay b d b d hb hd hb hd
  have d1 := delay_dvd a e ha he
  have d2 := delay_dvd b d hb hd
  have l1 := toDouble_modern _ ha a.owptime.isLt
  have l2 := toDouble_modern _ hb b.owptime.isLt
  have l3 := toDouble_modern _ hd d.owptime.isLt
  have l4 := toDouble_modern _ he e.owptime.isLt
  have e1 := delay_eq a e ha he
  have e2 := delay_eq b d hb hd
  refine ⟨?_, by omega, by omega⟩
  by_cases hx : (delay a e - delay b d).natAbs < 2 ^ 64
  · exact toDoubleI_exact _ (by omega) hx
  · have : (delay a e - delay b d).natAbs = 2 ^ 64 := by omega
    unfold toDoubleI
    rw [this, show Policy.toDouble (2 ^ 64) = 2 ^ 64 by decide +kernel]
    split <;> omega

/-- A delay of 30 ms between two times of the year 2026: the program has it 1/2 µs too small at most. -/
example : Modern ⟨0xEE0000001234567A#64, true, 1, 1⟩ ∧ Modern ⟨0xEE00000019E26C23#64, true, 1, 1⟩ ∧
    exactDelay ⟨0xEE0000001234567A#64, true, 1, 1⟩ ⟨0xEE00000019E26C23#64, true, 1, 1⟩ = 128849321 ∧
    delay ⟨0xEE0000001234567A#64, true, 1, 1⟩ ⟨0xEE00000019E26C23#64, true, 1, 1⟩ = 128849920 := by decide +kernel

/-! ## Buckets -/

/-- **C93**, the bucket of a delay. What is reported for the bucket of a delay is within the width of a bucket of the delay. With exact division it is less than that
away, and on the side away from 0. -/
theorem C93_bucket (rnd : Rat → Rat) (w : Rat) (hr : Rounds rnd) (hw : 0 < w) (d b : Int) (hb : bucket rnd w d = some b) :
    Within (value w b) d w ∧
    (rnd = id → (0 ≤ d → (d : Rat) ≤ value w b ∧ value w b < d + w) ∧ (d < 0 → value w b ≤ d ∧ (d : Rat) - w < value w b)) := by
  refine ⟨value_near rnd w hr hw d b hb, fun hid => ?_⟩
  subst hid
  unfold bucket toInt at hb
  split at hb
  · injection hb with hb
    have e : (d : Rat) / w * w = d := Rat.div_mul_cancel (by grind)
    unfold bucketNo at hb
    dsimp only [id] at hb
    have hw' := Rat.le_of_lt hw
    constructor
    · intro h0
      have hx : ¬ (d : Rat) / w < 0 := by
        have := div_mono w hw (Rat.intCast_le_intCast.2 h0)
        rw [Rat.div_def, Rat.div_def] at this
        rw [Rat.div_def]
        exact Rat.not_lt.2 (by simpa using this)
      rw [if_neg hx] at hb
      have a := @Rat.le_ceil ((d : Rat) / w)
      have c := @Rat.ceil_lt ((d : Rat) / w)
      rw [hb] at a c
      have a' := Rat.mul_le_mul_of_nonneg_right a hw'
      have c' := Rat.mul_lt_mul_of_pos_right c hw
      rw [e] at a'
      rw [Rat.add_mul, e, Rat.one_mul] at c'
      exact ⟨a', c'⟩
    · intro h0
      have hx : (d : Rat) / w < 0 := by
        refine Rat.not_le.1 fun hc => ?_
        have := Rat.mul_le_mul_of_nonneg_right hc hw'
        rw [e, Rat.zero_mul] at this
        have : (0 : Int) ≤ d := Rat.intCast_le_intCast.1 (by simpa using this)
        omega
      rw [if_pos hx] at hb
      have a := Rat.floor_le ((d : Rat) / w)
      have c := @Rat.lt_floor ((d : Rat) / w)
      rw [hb] at a c
      have a' := Rat.mul_le_mul_of_nonneg_right a hw'
      have c' := Rat.mul_lt_mul_of_pos_right c hw
      rw [e] at a'
      refine ⟨a', ?_⟩
      rw [Rat.sub_eq_add_neg, Rat.add_mul, e, Rat.neg_mul, Rat.one_mul] at c'
      rw [Rat.sub_eq_add_neg]
      exact c'
  · cases hb

/-- **C93**, no overflow. If no delay is as long as 2³⁰ - 1 buckets, all the bucket numbers are `int` values, and comparing them as the program does gives their order. -/
theorem C93_fits (rnd : Rat → Rat) (w : Rat) (hr : Rounds rnd) (hw : 0 < w) (d e : Int)
    (hd : Within d 0 (w * ((2 ^ 30 - 1 : Int) : Rat))) (he : Within e 0 (w * ((2 ^ 30 - 1 : Int) : Rat))) :
    ∃ b b' x, bucket rnd w d = some b ∧ bucket rnd w e = some b' ∧ bucketCmp b b' = some x ∧ (x < 0 ↔ b < b') ∧ (x = 0 ↔ b = b') := by
  have key : ∀ d : Int, Within d 0 (w * ((2 ^ 30 - 1 : Int) : Rat)) → -(2 ^ 30 - 1) ≤ bucketNo rnd w d ∧ bucketNo rnd w d ≤ 2 ^ 30 - 1 := by
    intro d hd
    have hi : 0 ≤ w⁻¹ := Rat.le_of_lt (Rat.inv_pos.2 hw)
    have hc : w * w⁻¹ = 1 := Rat.mul_inv_cancel w (by grind)
    have h1 : (d : Rat) / w ≤ ((2 ^ 30 - 1 : Int) : Rat) := by
      have := Rat.mul_le_mul_of_nonneg_right hd.1 hi
      rw [Rat.div_def]
      rw [Rat.zero_add, Rat.mul_comm w, Rat.mul_assoc, hc, Rat.mul_one] at this
      exact this
    have h2 : ((-(2 ^ 30 - 1) : Int) : Rat) ≤ (d : Rat) / w := by
      have := Rat.mul_le_mul_of_nonneg_right hd.2 hi
      rw [Rat.intCast_neg, Rat.div_def]
      rw [Rat.zero_mul, Rat.add_mul, Rat.mul_comm w, Rat.mul_assoc, hc, Rat.mul_one] at this
      generalize ((2 ^ 30 - 1 : Int) : Rat) = K at *
      generalize (d : Rat) * w⁻¹ = v at *
      grind
    have g1 := hr.mono _ _ h1
    have g2 := hr.mono _ _ h2
    rw [hr.whole _ (by decide)] at g1 g2
    unfold bucketNo
    dsimp only
    generalize rnd ((d : Rat) / w) = x at *
    split
    · exact ⟨Rat.le_floor_iff.2 g2, Rat.intCast_le_intCast.1 (Rat.le_trans (Rat.floor_le x) g1)⟩
    · exact ⟨Rat.intCast_le_intCast.1 (Rat.le_trans g2 Rat.le_ceil), Rat.ceil_le_iff.2 g1⟩
  have k1 := key d hd
  have k2 := key e he
  refine ⟨bucketNo rnd w d, bucketNo rnd w e, bucketNo rnd w d - bucketNo rnd w e, ?_, ?_, ?_, ?_, ?_⟩
  · unfold bucket toInt; rw [if_pos (by omega)]
  · unfold bucket toInt; rw [if_pos (by omega)]
  · unfold bucketCmp toInt; rw [if_pos (by omega)]
  · omega
  · omega

/-! ## Percentiles -/

/-- The delays of the packets that came, of each the first copy. -/
def exactDelays (n : Nat) (rs : List DataRec) : List Int := ((List.range n).filterMap (firstCopy rs)).map fun r => exactDelay r.send r.recv

private theorem firsts_eq (n : Nat) (C : List DataRec) (p : DataRec → Bool) :
    Spec.Stats.firsts n C p = ((List.range n).filterMap (firstCopy C)).countP p := by
  unfold Spec.Stats.firsts Spec.Stats.packets
  induction List.range n with
  | nil => rfl
  | cons a l ih =>
    rw [List.countP_cons, List.filterMap_cons, ih]
    cases firstCopy C a with
    | none => rfl
    | some r => simp only [Option.any_some, List.countP_cons]

/-- The end of the argument, for any list of records. -/
private theorem near {α : Type} (l : List α) (f e : α → Int) (δ : Int) (hδ : ∀ a ∈ l, f a ≤ e a + δ ∧ e a ≤ f a + δ) (rnd : Rat → Rat) (w : Rat) (hr : Rounds rnd)
    (hw : 0 < w) (hfit : ∀ a ∈ l, (bucket rnd w (f a)).isSome) (t : Rat) (b : Int) (hb : Quantile (l.map fun a => bucketNo rnd w (f a)) t b) :
    ∃ q, Quantile (l.map e) t q ∧ Within (value w b) q (w + δ) := by
  obtain ⟨h1, h2⟩ := quantile_some hb
  rw [List.length_map] at h2
  have hl : l ≠ [] := fun h => h1 (by rw [h]; rfl)
  obtain ⟨q', hq'⟩ := quantile_exists (l.map f) t (by simpa using hl) (by rw [List.length_map]; exact h2)
  obtain ⟨q, hq⟩ := quantile_exists (l.map e) t (by simpa using hl) (by rw [List.length_map]; exact h2)
  refine ⟨q, hq, ?_⟩
  have hm := quantile_map (bucketNo rnd w) (bucketNo_mono rnd w hr hw) hq'
  rw [List.map_map] at hm
  have e1 : b = bucketNo rnd w q' := Quantile.unique hb hm
  obtain ⟨a, a1, a2⟩ := List.mem_map.1 hq'.isOne
  have hbk : bucket rnd w q' = some b := by
    have := hfit a a1
    rw [a2] at this
    unfold bucket toInt at this ⊢
    split
    · rw [e1]
    · rename_i hc; rw [if_neg hc] at this; cases this
  have s1 := quantile_shift l f e δ (fun a ha => (hδ a ha).1) hq' hq
  have s2 := quantile_shift l e f δ (fun a ha => (hδ a ha).2) hq hq'
  have s1' : (q' : Rat) ≤ (q : Rat) + (δ : Rat) := by rw [← Rat.intCast_add]; exact Rat.intCast_le_intCast.2 s1
  have s2' : (q : Rat) ≤ (q' : Rat) + (δ : Rat) := by rw [← Rat.intCast_add]; exact Rat.intCast_le_intCast.2 s2
  obtain ⟨v1, v2⟩ := value_near rnd w hr hw q' b hbk
  constructor <;> grind

/-- **C93**, the percentiles of one-way sessions. With the program's arithmetic for delays and buckets, whatever rounding does to the quotients: the percentile `alpha` of a
summary differs by at most the width of a bucket and 2⁻²¹ s from the exact one, that is, from the smallest difference of receive and send time such that at least
`alpha * sent` packets came with it or a smaller one; and none is reported exactly if there is none. -/
theorem C93_percentile (x : StatSession) (s s' : Stats.St) (hs : Object x s) (rs : List DataRec) (hrs : rs.length < 2 ^ 32) (oset first last : Nat)
    (hr : x.Range first last) (h1 : LostOnce rs) (hp : x.summary rs s oset first last = .ok s') (mul : Rat → Nat → Rat) (alpha : Rat)
    (rnd : Rat → Rat) (w : Rat) (hrnd : Rounds rnd) (hw : 0 < w) (hdel : x.c.delay = delay) (hbuck : x.c.bucket = bucketNo rnd w)
    (hera : ∀ r ∈ rs, ¬ Lost r → Modern r.send ∧ Modern r.recv) (hfit : ∀ r ∈ rs, ¬ Lost r → (bucket rnd w (delay r.send r.recv)).isSome) :
    ∀ C n t, C = x.about first last rs → n = lastOf x.c last → t = mul alpha (sent n C) →
    (∀ b, Stats.percentile mul s' alpha = some b → ∃ q, Quantile (exactDelays n C) t q ∧ Within (value w b) q (w + ((2 ^ 11 : Int) : Rat))) ∧
    (Stats.percentile mul s' alpha = none ↔ ¬ ∃ q, Quantile (exactDelays n C) t q) := by
  intro C n t hC hn ht
  have hpc := C51_percentile x s s' hs rs hrs oset first last hr h1 hp mul alpha C n _ hC hn rfl
  rw [← ht] at hpc
  obtain ⟨p1, p2⟩ := hpc
  obtain ⟨l, hl⟩ : ∃ l, l = (List.range n).filterMap (firstCopy C) := ⟨_, rfl⟩
  have hmem : ∀ r, r ∈ l ↔ ∃ k, k < n ∧ firstCopy C k = some r := by
    intro r; rw [hl, List.mem_filterMap]; simp only [List.mem_range]
  have hin : ∀ r ∈ l, r ∈ rs ∧ ¬ Lost r := by
    intro r hr
    obtain ⟨k, _, hk⟩ := (hmem r).1 hr
    have := List.mem_of_find?_eq_some hk
    unfold arrivals at this
    rw [List.mem_filter] at this
    refine ⟨?_, of_decide_eq_true this.2⟩
    have h := this.1
    rw [hC] at h
    unfold StatSession.about Spec.Stats.counted at h
    exact (List.mem_filter.1 h).1
  have hup : ∀ b, x.upTo n C b = Spec.Buckets.upTo (l.map x.bucketOf) b := by
    intro b
    unfold StatSession.upTo Spec.Buckets.upTo
    rw [firsts_eq, ← hl, List.countP_map]
    rfl
  have harr : arrived n C = l.length := by
    unfold arrived
    rw [firsts_eq, ← hl, List.countP_eq_length]
    intros; rfl
  have hquant : ∀ b, Stats.percentile mul s' alpha = some b → Quantile (l.map x.bucketOf) t b := by
    intro b hb
    obtain ⟨⟨k, r, k1, k2, k3⟩, g2, g3⟩ := (p1 b).1 hb
    refine ⟨List.mem_map.2 ⟨r, (hmem r).2 ⟨k, k1, k2⟩, k3⟩, by rw [← hup]; exact Rat.not_lt.1 g2, fun y hy hlt => ?_⟩
    obtain ⟨r', r1, r2⟩ := List.mem_map.1 hy
    obtain ⟨k', k1', k2'⟩ := (hmem r').1 r1
    rw [← r2, ← hup]
    exact g3 k' r' k1' k2' (by rw [r2]; exact hlt)
  have hbo : x.bucketOf = fun r => bucketNo rnd w (delay r.send r.recv) := by
    funext r; unfold StatSession.bucketOf; rw [hdel, hbuck]
  constructor
  · intro b hb
    have hq := hquant b hb
    rw [hbo] at hq
    have := near l (fun r => delay r.send r.recv) (fun r => exactDelay r.send r.recv) (2 ^ 11)
      (fun r hr => (C93_delay r.send r.recv r.send r.recv (hera r (hin r hr).1 (hin r hr).2).1 (hera r (hin r hr).1 (hin r hr).2).2
        (hera r (hin r hr).1 (hin r hr).2).1 (hera r (hin r hr).1 (hin r hr).2).2).1)
      rnd w hrnd hw (fun r hr => hfit r (hin r hr).1 (hin r hr).2) t b hq
    rw [hl] at this
    exact this
  · rw [p2, harr]
    have hlen : (exactDelays n C).length = l.length := by unfold exactDelays; rw [← hl, List.length_map]
    constructor
    · rintro h ⟨q, hq⟩
      obtain ⟨q1, q2⟩ := quantile_some hq
      rw [hlen] at q2
      rcases h with h | h
      · exact q1 (List.length_eq_zero_iff.1 (by omega))
      · exact Rat.not_lt.2 q2 h
    · intro h
      refine Decidable.byContradiction fun hc => h ?_
      rw [not_or] at hc
      refine quantile_exists _ t (fun he => hc.1 (by rw [← hlen, he]; rfl)) (by rw [hlen]; exact Rat.not_lt.1 hc.2)

/-- **C93**, the least and greatest delay of one-way sessions. The least delay reported is at most 2⁻²¹ s more than the delay of any packet that came, and at most that less
than that of one of them, unless it is `inf_delay`, the loss timeout; the greatest likewise. -/
theorem C93_extremes (x : StatSession) (s s' : Stats.St) (hs : Object x s) (ds : List Nat) (hd : x.Delays ds) (rs : List DataRec) (hrs : rs.length < 2 ^ 32)
    (oset first last : Nat) (hr : x.Range first last) (hp : x.summary rs s oset first last = .ok s') (hdel : x.c.delay = delay)
    (hera : ∀ r ∈ rs, ¬ Lost r → Modern r.send ∧ Modern r.recv) :
    ∀ A, A = arrivals (x.about first last rs) →
    (∀ r ∈ A, s'.min ≤ exactDelay r.send r.recv + 2 ^ 11) ∧ (s'.min = x.c.inf ∨ ∃ r ∈ A, exactDelay r.send r.recv ≤ s'.min + 2 ^ 11) ∧
    (∀ r ∈ A, exactDelay r.send r.recv ≤ s'.max + 2 ^ 11) ∧ (s'.max = -x.c.inf ∨ ∃ r ∈ A, s'.max ≤ exactDelay r.send r.recv + 2 ^ 11) := by
  intro A hA
  have hf := C65_figures x s s' hs ds hd rs hrs oset first last hr hp _ rfl
  rw [← hA, hdel] at hf
  obtain ⟨_, _, ⟨m1, _, m3⟩, ⟨g1, _, g3⟩, _⟩ := hf
  have hin : ∀ r ∈ A, Modern r.send ∧ Modern r.recv := by
    intro r hr
    rw [hA] at hr
    unfold arrivals at hr
    rw [List.mem_filter] at hr
    refine hera r ?_ (of_decide_eq_true hr.2)
    have h := hr.1
    unfold StatSession.about Spec.Stats.counted at h
    exact (List.mem_filter.1 h).1
  have hnear : ∀ r ∈ A, delay r.send r.recv ≤ exactDelay r.send r.recv + 2 ^ 11 ∧ exactDelay r.send r.recv ≤ delay r.send r.recv + 2 ^ 11 :=
    fun r hr => (C93_delay r.send r.recv r.send r.recv (hin r hr).1 (hin r hr).2 (hin r hr).1 (hin r hr).2).1
  refine ⟨fun r hr => ?_, ?_, fun r hr => ?_, ?_⟩
  · have := m3 _ (List.mem_map.2 ⟨r, hr, rfl⟩)
    have := (hnear r hr).1
    omega
  · rcases m1 with h | h
    · exact Or.inl h
    · obtain ⟨r, r1, r2⟩ := List.mem_map.1 h
      exact Or.inr ⟨r, r1, by rw [← r2]; exact (hnear r r1).2⟩
  · have := g3 _ (List.mem_map.2 ⟨r, hr, rfl⟩)
    have := (hnear r hr).2
    omega
  · rcases g1 with h | h
    · exact Or.inl h
    · obtain ⟨r, r1, r2⟩ := List.mem_map.1 h
      exact Or.inr ⟨r, r1, by rw [← r2]; exact (hnear r r1).1⟩

/-! ## Two-way sessions -/

/-- The exact delays of a reply: the way out, the way back, and the round trip without the time at the reflector. -/
def exactOut (r : TWDataRec) : Int := exactDelay r.sent.send r.sent.recv
def exactBack (r : TWDataRec) : Int := exactDelay r.reflected.send r.reflected.recv
def exactTrip (r : TWDataRec) : Int := exactDelay r.sent.send r.reflected.recv - exactDelay r.sent.recv r.reflected.send

/-- The four time stamps of a reply are from 1968 to 2036. -/
def ModernReply (r : TWDataRec) : Prop := Modern r.sent.send ∧ Modern r.sent.recv ∧ Modern r.reflected.send ∧ Modern r.reflected.recv

instance (r : TWDataRec) : Decidable (ModernReply r) := inferInstanceAs (Decidable (_ ∧ _))

open Owamp.Spec.TwStats in
/-- **C93**, the percentiles of two-way sessions (for `alpha * sent` above 0). Those of the ways out and back differ by at most the width of a bucket and 2⁻²¹ s from the exact ones, those
of the round trip by at most the width of a bucket and 2⁻²⁰ s; and none is reported exactly if there is none. -/
theorem C93_twoway (c : TwStats.Cfg) (rs : List TWDataRec) (oset first last : Nat) (s : TwStats.St) (hr : TwRange c first last) (hlen : rs.length < 2 ^ 32)
    (hcl : ∀ r ∈ twAbout c first last rs, Clear c r) (h1 : LossOnce (twAbout c first last rs)) (hp : TwStats.parse c rs oset first last = .ok s)
    (mul : Rat → Nat → Rat) (alpha : Rat) (rnd : Rat → Rat) (w : Rat) (hrnd : Rounds rnd) (hw : 0 < w) (hdel : c.delay = delay) (hbuck : c.bucket = bucketNo rnd w)
    (hera : ∀ r ∈ replies rs, ModernReply r)
    (hfit : ∀ r ∈ replies rs, (bucket rnd w (trip c r)).isSome ∧ (bucket rnd w (out c r)).isSome ∧ (bucket rnd w (back c r)).isSome) :
    ∀ D t, D = twAbout c first last rs → t = mul alpha (Spec.TwStats.firsts seqOf D).length → 0 < t →
    ∀ (e : TWDataRec → Int) (δ : Int) (h : List (Int × Nat)),
      (e, δ, h) ∈ [(exactTrip, (2 ^ 12 : Int), s.hist), (exactOut, (2 ^ 11 : Int), s.histF), (exactBack, (2 ^ 11 : Int), s.histB)] →
      (∀ b, TwStats.percentile mul s h alpha = some b → ∃ q, Quantile ((answered D).map e) t q ∧ Spec.Buckets.Within (value w b) q (w + (δ : Rat))) ∧
      (TwStats.percentile mul s h alpha = none ↔ ¬ ∃ q, Quantile ((answered D).map e) t q) := by
  intro D t hD ht htp e δ h he
  have hpc := C75_percentile_partial c rs oset first last s hr hlen hcl h1 hp mul alpha D t hD ht htp
  have hsub : ∀ r ∈ answered D, r ∈ replies rs := by
    intro r hr
    have hr := Owamp.TwStats.mem_firsts _ _ _ hr
    obtain ⟨a1, a2⟩ := Owamp.TwStats.mem_replies.1 hr
    refine Owamp.TwStats.mem_replies.2 ⟨?_, a2⟩
    rw [hD] at a1
    unfold twAbout within at a1
    exact (List.mem_filter.1 a1).1
  have main : ∀ f : TWDataRec → Int, (f, h) ∈ [(trip c, s.hist), (out c, s.histF), (back c, s.histB)] →
      (∀ r ∈ answered D, f r ≤ e r + δ ∧ e r ≤ f r + δ) → (∀ r ∈ answered D, (bucket rnd w (f r)).isSome) →
      (∀ b, TwStats.percentile mul s h alpha = some b → ∃ q, Quantile ((answered D).map e) t q ∧ Spec.Buckets.Within (value w b) q (w + (δ : Rat))) ∧
      (TwStats.percentile mul s h alpha = none ↔ ¬ ∃ q, Quantile ((answered D).map e) t q) := by
    intro f hf hδ hfi
    obtain ⟨p1, p2⟩ := hpc f h hf
    constructor
    · intro b hb
      obtain ⟨⟨r, r1, r2⟩, g2, g3⟩ := (p1 b).1 hb
      rw [hbuck] at r2 g2 g3
      have hup : ∀ b, upToB (fun r => bucketNo rnd w (f r)) (answered D) b = Spec.Buckets.upTo ((answered D).map fun r => bucketNo rnd w (f r)) b := by
        intro b; unfold upToB Spec.Buckets.upTo; rw [List.countP_map]; rfl
      refine near (answered D) f e δ hδ rnd w hrnd hw hfi t b ⟨List.mem_map.2 ⟨r, r1, r2⟩, by rw [← hup]; exact Rat.not_lt.1 g2, fun y hy hlt => ?_⟩
      obtain ⟨r', r1', r2'⟩ := List.mem_map.1 hy
      rw [← r2', ← hup]
      exact g3 r' r1' (by show bucketNo rnd w (f r') < b; rw [r2']; exact hlt)
    · rw [p2]
      constructor
      · rintro hh ⟨q, hq⟩
        obtain ⟨q1, q2⟩ := quantile_some hq
        rw [List.length_map] at q2
        rcases hh with hh | hh
        · exact q1 (by rw [hh]; rfl)
        · exact Rat.not_lt.2 q2 hh
      · intro hh
        refine Decidable.byContradiction fun hc => hh ?_
        rw [not_or] at hc
        exact quantile_exists _ t (by simpa using hc.1) (by rw [List.length_map]; exact Rat.not_lt.1 hc.2)
  simp only [List.mem_cons, Prod.mk.injEq, List.not_mem_nil, or_false] at he
  have hcd : c.delay = delay := hdel
  rcases he with ⟨rfl, rfl, rfl⟩ | ⟨rfl, rfl, rfl⟩ | ⟨rfl, rfl, rfl⟩
  · refine main (trip c) (by simp) (fun r hr => ?_) fun r hr => (hfit r (hsub r hr)).1
    obtain ⟨e1, e2, e3, e4⟩ := hera r (hsub r hr)
    unfold trip held exactTrip
    rw [hcd]
    exact (C93_trip _ _ _ _ e1 e2 e3 e4).2
  · refine main (out c) (by simp) (fun r hr => ?_) fun r hr => (hfit r (hsub r hr)).2.1
    obtain ⟨e1, e2, e3, e4⟩ := hera r (hsub r hr)
    unfold out exactOut
    rw [hcd]
    exact (C93_delay _ _ _ _ e1 e2 e1 e2).1
  · refine main (back c) (by simp) (fun r hr => ?_) fun r hr => (hfit r (hsub r hr)).2.2
    obtain ⟨e1, e2, e3, e4⟩ := hera r (hsub r hr)
    unfold back exactBack
    rw [hcd]
    exact (C93_delay _ _ _ _ e3 e4 e3 e4).1

/-! ## Concrete sessions -/

theorem rounds_id : Rounds id := ⟨fun _ _ h => h, fun _ _ => rfl⟩

/-- A rounding that is not exact: down to quarters. -/
example : Rounds fun x => (((x * 4).floor : Int) : Rat) / 4 := by
  refine ⟨fun x y h => ?_, fun n _ => ?_⟩
  · exact div_mono 4 (by decide) (Rat.intCast_le_intCast.2 (Rat.floor_monotone (Rat.mul_le_mul_of_nonneg_right h (by decide))))
  · have e : (n : Rat) * 4 = ((n * 4 : Int) : Rat) := by rw [Rat.intCast_mul]; rfl
    rw [e, Rat.floor_intCast, ← e, Rat.div_def, Rat.mul_assoc, Rat.mul_inv_cancel 4 (by decide), Rat.mul_one]

/-- The width of buckets if the user does not choose one (owping.c:1293): 0.1 ms. -/
def defaultWidth : Rat := 2 ^ 32 / 10000

theorem defaultWidth_pos : 0 < defaultWidth := by decide +kernel

/-- The one-way session of the other examples, with the program's arithmetic. -/
def bucketDemo : StatSession where
  c := { statCfg with delay := delay, bucket := bucketNo id defaultWidth }
  sid := zeros 16
  slots := [.literal (1#64 <<< 32)]
  c0 := Sched.setup (zeros 16) ⟨4, [.literal (1#64 <<< 32)]⟩
  sched := by decide +kernel
  rlist := by decide
  data := by decide

/-- The session meets the hypotheses of `C93_percentile`; it has a median, and the buckets of its two delays are 1250 and 12500. -/
example : ∃ s', bucketDemo.summary statRecords (Stats.create bucketDemo.c bucketDemo.c0) 0 0 (2 ^ 32 - 1) = .ok s' ∧
    (∀ r ∈ statRecords, ¬ Lost r → Modern r.send ∧ Modern r.recv) ∧ (∀ r ∈ statRecords, ¬ Lost r → (bucket id defaultWidth (delay r.send r.recv)).isSome) ∧
    (∃ b, Stats.percentile (fun a n => a * n) s' (1 / 2) = some b) ∧ s'.hist.map (·.1) = [1250, 12500] ∧ exactDelays 4 (bucketDemo.about 0 (2 ^ 32 - 1) statRecords) = [20 * 2 ^ 28, 2 * 2 ^ 28] := by
  obtain ⟨s', hs', hh⟩ : ∃ s', bucketDemo.summary statRecords (Stats.create bucketDemo.c bucketDemo.c0) 0 0 (2 ^ 32 - 1) = .ok s' ∧ s'.hist.map (·.1) = [1250, 12500] := by
    have : (match bucketDemo.summary statRecords (Stats.create bucketDemo.c bucketDemo.c0) 0 0 (2 ^ 32 - 1) with
      | .ok s => some (s.hist.map (·.1)) | .error _ => none) = some [1250, 12500] := by decide +kernel
    split at this
    · rename_i s h; exact ⟨s, h, by injection this⟩
    · cases this
  have h1 : ∀ r ∈ statRecords, ¬ Lost r → Modern r.send ∧ Modern r.recv := by decide +kernel
  have h2 : ∀ r ∈ statRecords, ¬ Lost r → (bucket id defaultWidth (delay r.send r.recv)).isSome := by decide +kernel
  have he : exactDelays 4 (bucketDemo.about 0 (2 ^ 32 - 1) statRecords) = [20 * 2 ^ 28, 2 * 2 ^ 28] := by decide +kernel
  refine ⟨s', hs', h1, h2, ?_, hh, he⟩
  have h := (C93_percentile bucketDemo _ s' .fresh statRecords (by decide) 0 0 (2 ^ 32 - 1) (by unfold StatSession.Range; decide +kernel) stat_lostOnce hs'
    (fun a n => a * n) (1 / 2) id defaultWidth rounds_id defaultWidth_pos rfl rfl h1 h2 _ 4 _ rfl rfl rfl).2
  cases hp : Stats.percentile (fun a n => a * n) s' (1 / 2) with
  | some b => exact ⟨b, rfl⟩
  | none =>
    exact absurd (quantile_exists _ _ (by rw [he]; decide) (by rw [he]; decide +kernel)) (h.1 hp)

/-- The two-way session of the other examples, with the program's arithmetic. -/
def bucketTw : TwStats.Cfg := { twDemo with delay := delay, bucket := bucketNo id defaultWidth }

/-- It meets the hypotheses of `C93_twoway`. -/
example : TwRange bucketTw 0 (2 ^ 32 - 1) ∧ Spec.TwStats.LossOnce (twAbout bucketTw 0 (2 ^ 32 - 1) twRecords) ∧
    twFigures bucketTw twRecords 0 (2 ^ 32 - 1) ≠ none ∧ (∀ r ∈ Spec.TwStats.replies twRecords, ModernReply r) ∧
    (∀ r ∈ Spec.TwStats.replies twRecords, (bucket id defaultWidth (Spec.TwStats.trip bucketTw r)).isSome ∧ (bucket id defaultWidth (Spec.TwStats.out bucketTw r)).isSome ∧
      (bucket id defaultWidth (Spec.TwStats.back bucketTw r)).isSome) := by
  refine ⟨?_, ?_, ?_, ?_, ?_⟩
  · unfold TwRange; decide +kernel
  · unfold Spec.TwStats.LossOnce; decide +kernel
  · decide +kernel
  · decide +kernel
  · decide +kernel

/-! ## Where C93 fails -/

/-- A reply of a reflector whose clock is `h` hours ahead. -/
def aheadReply (h : Nat) : TWDataRec := twGot 0 0 16 (18 + h * 57600) (19 + h * 57600) 22

/-- **C93** fails: if the clock of the reflector is 30 hours ahead, the buckets of the ways out and back, which are in one table, cannot be compared: the difference of
their numbers is not an `int`. If it is 60 hours ahead, the number of the bucket is not an `int` itself. In both cases the test is one that is summarised, and the round-trip time is 5/16 s. -/
theorem C93_far_clock :
    (∃ b b', bucket id defaultWidth (Spec.TwStats.out bucketTw (aheadReply 30)) = some b ∧ bucket id defaultWidth (Spec.TwStats.back bucketTw (aheadReply 30)) = some b' ∧ bucketCmp b b' = none) ∧
    bucket id defaultWidth (Spec.TwStats.out bucketTw (aheadReply 60)) = none ∧
    ∀ h ∈ [30, 60], twFigures { bucketTw with npackets := 1 } [aheadReply h] 0 (2 ^ 32 - 1) ≠ none ∧ ModernReply (aheadReply h) ∧ exactTrip (aheadReply h) = 5 * 2 ^ 28 := by
  refine ⟨⟨1080001250, -1079998125, ?_, ?_, ?_⟩, ?_, ?_⟩ <;> decide +kernel

end Owamp.Props
