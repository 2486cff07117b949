import Verif.Spec.Clean
import Verif.Lemmas.DataFile
import Verif.Props.Schedule
import Verif.Props.Num64
/-!
# Lemmas on the clean-up of session files
-/
namespace Owamp.Clean
open Owamp.Num64 Owamp.Codec Owamp.File Owamp.Ctl Owamp.Spec.Clean Owamp.Spec.DataFile Owamp.Props

/-! ## The search -/

/-- Interpolation never leaves its interval, though it may give its upper end. -/
def Within (interp : Nat → Nat → Nat → Nat → Nat) : Prop :=
  ∀ low portion n range, portion ≤ range → 0 < range → 0 < n → low ≤ interp low portion n range ∧ interp low portion n range ≤ low + n

theorem u64_lt (x : Nat) (h : x < 2 ^ 64) : u64 x = x := Nat.mod_eq_of_lt h

theorem sub_exact (x y : Nat) (h : y ≤ x) (hx : x < 2 ^ 64) : sub x y = x - y := by
  unfold sub u64; omega

theorem add_exact (x y : Nat) (h : x + y < 2 ^ 64) : add x y = x + y := by
  unfold add u64; omega

theorem timeOf_made (T : Nat) (r : DataRec) (h : Lost r → r.send.owptime.toNat + T < 2 ^ 64) : timeOf T r = made T r := by
  unfold timeOf made
  by_cases hl : Lost r
  · rw [if_pos hl, if_pos (show lost r = true from decide_eq_true hl), add_exact _ _ (h hl)]
  · rw [if_neg hl, if_neg (by intro hh; exact hl (of_decide_eq_true hh))]

/-- The size of the interval. -/
theorem span (low high : Nat) (h : low < high) (hh : high < 2 ^ 32) : (high + 2 ^ 32 - low) % 2 ^ 32 = high - low := by omega

/-- The next probe, while the interval is in order. -/
theorem probe_eq (env : Env) (thresh low lowR high highR : Nat) (h1 : low < high) (h2 : high < 2 ^ 32)
    (h3 : lowR < thresh) (h4 : thresh ≤ highR) (h5 : highR < 2 ^ 64) :
    probe env thresh low lowR high highR =
      if env.interp low (thresh - lowR) (high - low) (highR - lowR) = low then (low + 1) % 2 ^ 32
      else env.interp low (thresh - lowR) (high - low) (highR - lowR) := by
  unfold probe
  dsimp only
  rw [span low high h1 h2, sub_exact highR lowR (by omega) h5, sub_exact thresh lowR (by omega) (by omega), if_neg (by omega)]
  by_cases h : env.interp low (thresh - lowR) (high - low) (highR - lowR) = low
  · rw [if_pos h, if_pos h, h]
  · rw [if_neg h, if_neg h]

theorem probe_within (env : Env) (hw : Within env.interp) (thresh low lowR high highR : Nat) (h1 : low + 1 < high) (h2 : high < 2 ^ 32)
    (h3 : lowR < thresh) (h4 : thresh ≤ highR) (h5 : highR < 2 ^ 64) :
    low < probe env thresh low lowR high highR ∧ probe env thresh low lowR high highR ≤ high := by
  rw [probe_eq env thresh low lowR high highR (by omega) h2 h3 h4 h5]
  have := hw low (thresh - lowR) (high - low) (highR - lowR) (by omega) (by omega) (by omega)
  by_cases h : env.interp low (thresh - lowR) (high - low) (highR - lowR) = low
  · rw [if_pos h]; omega
  · rw [if_neg h]; omega

theorem probe_inside (env : Env) (hw : Inside env.interp) (thresh low lowR high highR : Nat) (h1 : low + 1 < high) (h2 : high < 2 ^ 32)
    (h3 : lowR < thresh) (h4 : thresh < highR) (h5 : highR < 2 ^ 64) :
    low < probe env thresh low lowR high highR ∧ probe env thresh low lowR high highR < high := by
  rw [probe_eq env thresh low lowR high highR (by omega) h2 h3 (by omega) h5]
  have := hw low (thresh - lowR) (high - low) (highR - lowR) (by omega) (by omega)
  by_cases h : env.interp low (thresh - lowR) (high - low) (highR - lowR) = low
  · rw [if_pos h]; omega
  · rw [if_neg h]; omega

/-- The times of a list of records are 64 bit numbers. -/
theorem timeOf_lt (T : Nat) (r : DataRec) : timeOf T r < 2 ^ 64 := by
  unfold timeOf
  split
  · exact Nat.mod_lt _ (by decide)
  · exact r.recv.owptime.isLt

/-- Where the search ends is inside the file, and all the records up to there are older than the threshold. -/
theorem search_safe (env : Env) (hw : Within env.interp) (T thresh : Nat) (rs : List DataRec) (rec : Nat → Option DataRec)
    (hrec : ∀ i, i ≤ rs.length → rec i = rs[i]?) (hn : rs.length < 2 ^ 32) :
    ∀ fuel low lowR high highR l, low < high → high ≤ rs.length → lowR < thresh → thresh ≤ highR → highR < 2 ^ 64 →
      (∃ r, rs[low]? = some r ∧ timeOf T r < thresh) → search env T thresh rec fuel low lowR high highR = some (some l) →
      ∃ r, rs[l]? = some r ∧ timeOf T r < thresh := by
  intro fuel
  induction fuel with
  | zero => intro low lowR high highR l _ _ _ _ _ _ h; simp [search] at h
  | succ fuel ih =>
    intro low lowR high highR l h1 h2 h3 h4 h5 h6 h
    rw [search, span low high h1 (by omega)] at h
    by_cases hg : high - low > 1
    · rw [if_pos hg] at h
      obtain ⟨p1, p2⟩ := probe_within env hw thresh low lowR high highR (by omega) (by omega) h3 h4 h5
      rw [hrec _ (by omega)] at h
      cases hr : rs[probe env thresh low lowR high highR]? with
      | none => rw [hr] at h; simp at h
      | some r =>
        rw [hr] at h
        dsimp only at h
        have hlt : probe env thresh low lowR high highR < rs.length := (List.getElem?_eq_some_iff.1 hr).1
        by_cases ht : timeOf T r < thresh
        · rw [if_pos ht] at h
          by_cases hph : probe env thresh low lowR high highR < high
          · exact ih _ _ _ _ _ hph h2 ht h4 h5 ⟨r, hr, ht⟩ h
          · -- the upper end itself is older than the threshold: the interval is empty
            have he : probe env thresh low lowR high highR = high := by omega
            rw [he] at h hr
            cases fuel with
            | zero => simp [search] at h
            | succ fuel =>
              rw [search, if_neg (by omega)] at h
              obtain rfl : high = l := by simpa using h
              exact ⟨r, hr, ht⟩
        · rw [if_neg ht] at h
          exact ih _ _ _ _ _ p1 (by omega) h3 (by omega) (timeOf_lt T r) h6 h
    · rw [if_neg hg] at h
      obtain rfl : low = l := by simpa using h
      exact h6

/-- The search ends. -/
theorem search_ends (env : Env) (hw : Inside env.interp) (T thresh : Nat) (rs : List DataRec) (rec : Nat → Option DataRec)
    (hrec : ∀ i, i ≤ rs.length → rec i = rs[i]?) (hn : rs.length < 2 ^ 32) (htie : ∀ r ∈ rs, timeOf T r ≠ thresh) :
    ∀ k low lowR high highR, high - low ≤ k → low < high → high ≤ rs.length → lowR < thresh → thresh < highR → highR < 2 ^ 64 →
      (∃ r, rs[low]? = some r ∧ timeOf T r < thresh) →
      ∃ l r, rs[l]? = some r ∧ timeOf T r < thresh ∧ ∀ fuel, k ≤ fuel → search env T thresh rec fuel low lowR high highR = some (some l) := by
  intro k
  induction k with
  | zero => intro low _ high _ h1 h2; omega
  | succ k ih =>
    intro low lowR high highR hk h1 h2 h3 h4 h5 h6
    by_cases hg : high - low > 1
    · obtain ⟨p1, p2⟩ := probe_inside env hw thresh low lowR high highR (by omega) (by omega) h3 h4 h5
      have hlt : probe env thresh low lowR high highR < rs.length := by omega
      have hr := List.getElem?_eq_getElem hlt
      have hmem := List.getElem_mem hlt
      generalize rs[probe env thresh low lowR high highR] = r at hr hmem
      by_cases ht : timeOf T r < thresh
      · obtain ⟨l, r', a, b, c⟩ := ih (probe env thresh low lowR high highR) (timeOf T r) high highR (by omega) p2 h2 ht h4 h5 ⟨r, hr, ht⟩
        refine ⟨l, r', a, b, fun fuel hf => ?_⟩
        obtain ⟨fuel, rfl⟩ : ∃ n, fuel = n + 1 := ⟨fuel - 1, by omega⟩
        rw [search, span low high h1 (by omega), if_pos hg, hrec _ (by omega), hr]
        dsimp only
        rw [if_pos ht]
        exact c fuel (by omega)
      · have hne := htie r hmem
        obtain ⟨l, r', a, b, c⟩ := ih low lowR (probe env thresh low lowR high highR) (timeOf T r) (by omega) p1 (by omega) h3 (by omega)
          (timeOf_lt T r) h6
        refine ⟨l, r', a, b, fun fuel hf => ?_⟩
        obtain ⟨fuel, rfl⟩ : ∃ n, fuel = n + 1 := ⟨fuel - 1, by omega⟩
        rw [search, span low high h1 (by omega), if_pos hg, hrec _ (by omega), hr]
        dsimp only
        rw [if_neg ht]
        exact c fuel (by omega)
    · obtain ⟨r, hr, ht⟩ := h6
      refine ⟨low, r, hr, ht, fun fuel hf => ?_⟩
      obtain ⟨fuel, rfl⟩ : ∃ n, fuel = n + 1 := ⟨fuel - 1, by omega⟩
      rw [search, span low high h1 (by omega), if_neg hg]

/-! ## The schedule -/

theorem timeAfter_eq (E : Bytes → Bytes → Bytes) : ∀ (n : Nat) (c : Sched.Ctx) (ds : List Nat) (t : Nat),
    Sched.deltas E n c = ds.map Except.ok → t + ds.sum < 2 ^ 64 → ∀ m, m ≤ n → timeAfter E m c t = .ok (t + (ds.take m).sum) := by
  intro n
  induction n with
  | zero => intro c ds t h1 h2 m hm; obtain rfl : m = 0 := by omega
            simp [timeAfter]
  | succ n ih =>
    intro c ds t h1 h2 m hm
    cases ds with
    | nil => simp [Sched.deltas] at h1
    | cons d ds =>
      simp only [Sched.deltas, List.map_cons, List.cons.injEq] at h1
      simp only [List.sum_cons] at h2
      cases m with
      | zero => simp [timeAfter]
      | succ m =>
        cases hd : Sched.nextDelta E c with
        | mk a c' =>
          rw [hd] at h1
          dsimp only at h1
          rw [timeAfter, hd, h1.1]
          dsimp only
          rw [add_exact _ _ (by omega), ih c' ds (t + d) h1.2 (by omega) m (by omega), List.take_succ_cons, List.sum_cons]
          congr 1; omega

theorem take_sum_mono (ds : List Nat) : ∀ a b, a ≤ b → (ds.take a).sum ≤ (ds.take b).sum := by
  induction ds with
  | nil => intro a b _; simp
  | cons d ds ih =>
    intro a b h
    cases a with
    | zero => simp
    | succ a =>
      obtain ⟨b, rfl⟩ : ∃ n, b = n + 1 := ⟨b - 1, by omega⟩
      have := ih a b (by omega)
      simp; omega

/-! ## Records before the threshold -/

theorem before_threshold (start T : Nat) (ds : List Nat) (next stop : Nat) (r : DataRec) (hp : Plausible start T ds r)
    (h2T : 2 * T ≤ min (lastTime start ds next) stop) (h : made T r < min (lastTime start ds next) stop - 2 * T) :
    kept next stop T r = true ∧ ¬ contradicts next r := by
  unfold made at h
  have key : r.seq.toNat < next ∧ r.send.owptime.toNat + T ≤ stop := by
    by_cases hl : Lost r
    · rw [if_pos hl] at h
      have hg := (hp.gone hl).1
      refine ⟨?_, by omega⟩
      apply Decidable.byContradiction
      intro hc
      have := take_sum_mono ds next (r.seq.toNat + 1) (by omega)
      unfold lastTime at *
      omega
    · rw [if_neg hl] at h
      have hg := hp.received hl
      refine ⟨?_, by omega⟩
      apply Decidable.byContradiction
      intro hc
      have := take_sum_mono ds next (r.seq.toNat + 1) (by omega)
      unfold lastTime at *
      omega
  exact ⟨by unfold kept; exact decide_eq_true key, fun hc => by have := hc.2; omega⟩

/-! ## The scan -/

theorem sub_sub32 (a b c : U32) : a - b - c = a - (b + c) := by bv_omega

/-- The bytes kept so far: what the temporary file is to hold, or what it would be made of. -/
def contents (H : Nat) (f : Bytes) (j : Nat) (s : Scan) : Bytes :=
  match s.tmp with
  | none => f.take (H + 25 * j)
  | some (a, b) => a ++ b

/-- A version 3 header with its data at `H`. -/
def hdr3 (fin next nskip ndata : U32) (skip H : Nat) (P : Init) : Prop :=
  P = { version := 3, recSize := 25, finished := finishedType fin.toNat, next := next, nskip := nskip, ndata := ndata,
        osetSkip := (skip : Int), osetData := (H : Int), hdrLen := (H : Int) }

theorem scanStep_eq (p : Init) (hdr : Bytes) (pre suf : List DataRec) (r : DataRec) (f : Bytes) (next stop T : Nat) (s : Scan)
    (hv : p.version = 3) (hrs : p.recSize = 25) (ho : p.osetData = (hdr.length : Int)) (hT : T ≤ stop) (hstop : stop < 2 ^ 64)
    (hd : ∀ x ∈ pre ++ r :: suf, Stamp x.send ∧ Stamp x.recv) (hlen : 25 * (pre ++ r :: suf).length < 2 ^ 32)
    (hf : f = hdr ++ ((pre ++ r :: suf).map recLayout).flatten) :
    if contradicts next r then scanStep p f next (sub stop T) pre.length s = none
    else ∃ s', scanStep p f next (sub stop T) pre.length s = some s' ∧
      contents hdr.length f (pre.length + 1) s' =
        contents hdr.length f pre.length s ++ (if kept next stop T r then recLayout r else []) ∧
      s'.num = (if kept next stop T r then s.num else s.num - 1#32) ∧
      (kept next stop T r = true → s.tmp = none → s'.tmp = none) ∧
      (kept next stop T r = false → (s.tmp = none ∨ ∃ a, s.tmp = some (a, [])) → ∃ a, s'.tmp = some (a, [])) ∧
      s'.maxRecv = (if kept next stop T r then (if s.maxRecv < r.seq then r.seq else s.maxRecv) else s.maxRecv) := by
  have hk : ∀ x ∈ pre ++ r :: suf, (recLayout x).length = 25 ∧ decodeDataRec 3 (recLayout x) = some x :=
    fun x hx => (C12_record_partial x (hd x hx).1 (hd x hx).2).2
  have hlp := flatten_map_length recLayout 25 pre (fun x hx => (hk x (by simp [hx])).1)
  have hls := flatten_map_length recLayout 25 suf (fun x hx => (hk x (by simp [hx])).1)
  obtain ⟨hlr, hdr'⟩ := hk r (by simp)
  have e : f = (hdr ++ (pre.map recLayout).flatten) ++ (recLayout r ++ (suf.map recLayout).flatten) := by
    rw [hf]; simp
  have hpos : p.osetData.toNat + (pre.length * p.recSize) % 2 ^ 32 = hdr.length + 25 * pre.length := by
    rw [ho, hrs, Int.toNat_natCast, Nat.mod_eq_of_lt (by simp at hlen; omega)]; omega
  have hl1 : (hdr ++ (pre.map recLayout).flatten).length = hdr.length + 25 * pre.length := by rw [List.length_append, hlp]
  have hrd : rd f (hdr.length + 25 * pre.length) 25 = some (recLayout r) := by
    rw [rd_ok _ _ _ (by rw [e, List.length_append, hl1, List.length_append, hlr]; omega), e, ← hl1,
      get_append_right _ _ _ _ (Nat.le_refl _), Nat.sub_self, get_zero_append _ _ _ hlr.symm]
  have ht1 : f.take (hdr.length + 25 * pre.length) = hdr ++ (pre.map recLayout).flatten := by
    rw [e, List.take_left' hl1]
  have ht2 : f.take (hdr.length + 25 * (pre.length + 1)) = (hdr ++ (pre.map recLayout).flatten) ++ recLayout r := by
    rw [e, ← List.append_assoc, List.take_left' (by rw [List.length_append, hl1, hlr]; omega)]
  have hstep : scanStep p f next (sub stop T) pre.length s =
      if r.seq.toNat ≥ next ∧ ¬ lost r then none
      else if r.seq.toNat < next ∧ r.send.owptime.toNat ≤ sub stop T then
        some { s with
          maxRecv := if s.maxRecv < r.seq then r.seq else s.maxRecv
          tmp := s.tmp.map fun t => (t.1, t.2 ++ recLayout r) }
      else
        some { s with
          num := s.num - 1#32
          tmp := some (s.tmp.getD (f.take (hdr.length + 25 * pre.length), [])) } := by
    unfold scanStep
    rw [hpos, hrs, hrd, hv, Option.bind_some, hdr', Option.bind_some]
  have hL : lost r = decide (Lost r) := by unfold lost Lost; rfl
  by_cases hc : contradicts next r
  · rw [if_pos hc, hstep, if_pos]
    exact ⟨hc.2, by rw [hL]; simpa using hc.1⟩
  · rw [if_neg hc, hstep, if_neg (by rw [hL]; intro hh; exact hc ⟨by simpa using hh.2, hh.1⟩)]
    have hkc : kept next stop T r = decide (r.seq.toNat < next ∧ r.send.owptime.toNat ≤ sub stop T) := by
      unfold kept
      rw [sub_exact _ _ hT hstop]
      congr 1
      apply propext
      constructor <;> intro ⟨a, b⟩ <;> exact ⟨a, by omega⟩
    by_cases hkk : r.seq.toNat < next ∧ r.send.owptime.toNat ≤ sub stop T
    · have hkt : kept next stop T r = true := by rw [hkc]; exact decide_eq_true hkk
      rw [if_pos hkk, hkt]
      refine ⟨_, rfl, ?_, rfl, ?_, (nomatch ·), rfl⟩
      · unfold contents
        cases s.tmp with
        | none => dsimp only [Option.map_none]; rw [ht2, ht1]; simp
        | some t => simp
      · intro _ hn; simp [hn]
    · have hkt : kept next stop T r = false := by rw [hkc]; exact decide_eq_false hkk
      rw [if_neg hkk, hkt]
      refine ⟨_, rfl, ?_, rfl, (nomatch ·), ?_, rfl⟩
      · unfold contents
        cases s.tmp with
        | none => simp
        | some t => simp
      · intro _ hs
        rcases hs with hs | ⟨a, hs⟩
        · exact ⟨_, by simp [hs]; rfl⟩
        · exact ⟨a, by simp [hs]⟩

/-- The largest number of a list of records, and of what was there before. -/
def topSeq (m : U32) (rs : List DataRec) : U32 := rs.foldl (fun m r => if m < r.seq then r.seq else m) m

theorem scan_eq (p : Init) (hdr : Bytes) (f : Bytes) (next stop T : Nat)
    (hv : p.version = 3) (hrs : p.recSize = 25) (ho : p.osetData = (hdr.length : Int)) (hT : T ≤ stop) (hstop : stop < 2 ^ 64) :
    ∀ (suf pre : List DataRec) (s : Scan), (∀ x ∈ pre ++ suf, Stamp x.send ∧ Stamp x.recv) → 25 * (pre ++ suf).length < 2 ^ 32 →
    f = hdr ++ ((pre ++ suf).map recLayout).flatten →
    if ∃ r ∈ suf, contradicts next r then scan p f next (sub stop T) suf.length pre.length s = none
    else ∃ s', scan p f next (sub stop T) suf.length pre.length s = some s' ∧
      contents hdr.length f (pre.length + suf.length) s' =
        contents hdr.length f pre.length s ++ ((suf.filter (kept next stop T)).map recLayout).flatten ∧
      s'.num = s.num - BitVec.ofNat 32 (suf.length - (suf.filter (kept next stop T)).length) ∧
      ((∃ A B, suf = A ++ B ∧ (∀ x ∈ A, kept next stop T x = true) ∧ (∀ x ∈ B, kept next stop T x = false) ∧
          (s.tmp = none ∨ A = [] ∧ ∃ a, s.tmp = some (a, []))) → s'.tmp = none ∨ ∃ a, s'.tmp = some (a, [])) ∧
      s'.maxRecv = topSeq s.maxRecv (suf.filter (kept next stop T)) := by
  intro suf
  induction suf with
  | nil =>
    intro pre s _ _ _
    rw [if_neg (by simp)]
    refine ⟨s, rfl, by simp, by simp, ?_, rfl⟩
    rintro ⟨A, B, _, _, _, h | h⟩
    · exact Or.inl h
    · exact Or.inr h.2
  | cons r suf ih =>
    intro pre s hd hlen hf
    have h1 := scanStep_eq p hdr pre suf r f next stop T s hv hrs ho hT hstop hd hlen hf
    have hlist : pre ++ r :: suf = (pre ++ [r]) ++ suf := by simp
    by_cases hc : contradicts next r
    · rw [if_pos hc] at h1
      rw [if_pos ⟨r, by simp, hc⟩, List.length_cons, scan, h1]; rfl
    · rw [if_neg hc] at h1
      obtain ⟨s1, e1, e2, e3, e4, e5, e6⟩ := h1
      have h2 := ih (pre ++ [r]) s1 (by rw [← hlist]; exact hd) (by rw [← hlist]; exact hlen) (by rw [← hlist]; exact hf)
      have hpl : (pre ++ [r]).length = pre.length + 1 := by simp
      rw [hpl] at h2
      by_cases he : ∃ x ∈ suf, contradicts next x
      · obtain ⟨x, hx, hxc⟩ := he
        rw [if_pos ⟨x, hx, hxc⟩] at h2
        rw [if_pos ⟨x, by simp [hx], hxc⟩, List.length_cons, scan, e1, Option.bind_some, h2]
      · rw [if_neg he] at h2
        obtain ⟨s', g1, g2, g3, g4, g5⟩ := h2
        rw [if_neg (by rintro ⟨x, hx, hxc⟩
                       rcases List.mem_cons.1 hx with rfl | hx
                       · exact hc hxc
                       · exact he ⟨x, hx, hxc⟩)]
        refine ⟨s', by rw [List.length_cons, scan, e1, Option.bind_some, g1], ?_, ?_, ?_, ?_⟩
        · rw [List.length_cons, show pre.length + (suf.length + 1) = pre.length + 1 + suf.length by omega, g2, e2, List.append_assoc]
          congr 1
          by_cases hk : kept next stop T r = true
          · rw [if_pos hk, List.filter_cons_of_pos hk, List.map_cons, List.flatten_cons]
          · rw [if_neg hk, List.filter_cons_of_neg hk, List.nil_append]
        · rw [g3, e3]
          have hle : (suf.filter (kept next stop T)).length ≤ suf.length := List.length_filter_le _ _
          by_cases hk : kept next stop T r = true
          · rw [if_pos hk, List.filter_cons_of_pos hk, List.length_cons, List.length_cons, Nat.add_sub_add_right]
          · rw [if_neg hk, List.filter_cons_of_neg hk, List.length_cons,
              show suf.length + 1 - (suf.filter (kept next stop T)).length = 1 + (suf.length - (suf.filter (kept next stop T)).length) by omega,
              BitVec.ofNat_add]
            exact sub_sub32 _ _ _
        · rintro ⟨A, B, hAB, hA, hB, hs⟩
          apply g4
          cases A with
          | nil =>
            rw [List.nil_append] at hAB
            subst hAB
            refine ⟨[], suf, rfl, by simp, fun x hx => hB x (by simp [hx]), Or.inr ⟨rfl, ?_⟩⟩
            exact e5 (hB r (by simp)) (hs.imp id And.right)
          | cons a A =>
            simp only [List.cons_append, List.cons.injEq] at hAB
            obtain ⟨rfl, hAB⟩ := hAB
            refine ⟨A, B, hAB, fun x hx => hA x (by simp [hx]), hB, Or.inl ?_⟩
            rcases hs with hs | hs
            · exact e4 (hA r (by simp)) hs
            · exact absurd hs.1 (by simp)
        · rw [g5, e6]
          by_cases hk : kept next stop T r = true
          · rw [if_pos hk, List.filter_cons_of_pos hk]; rfl
          · rw [if_neg hk, List.filter_cons_of_neg hk]

/-- What a reader sees of a file whose header announces the right number of records. -/
theorem seen_fixed (h : HdrIn) (hs : Storable h) (hone : h.twoway = false) (fi ne ns nd : U32) (os : U64) (rs : List DataRec)
    (hd : ∀ r ∈ rs, Stamp r.send ∧ Stamp r.recv) (hos : os.toNat < 2 ^ 63) (hn : nd.toNat = rs.length) (f : Bytes)
    (hf : f = fixedLayout 3#32 fi ne ns nd os (BitVec.ofNat 64 (headerEnd h.spec.slots.length)) ++ requestPart h.args h.sid ++
      (rs.map recLayout).flatten) :
    recordsSeen f = rs ∧ ∃ hd pos, readHeader f = .ok hd pos ∧ hd.ndata.toNat = rs.length := by
  have hk : ∀ r ∈ rs, (recLayout r).length = 25 ∧ decodeDataRec 3 (recLayout r) = some r :=
    fun r hr => (C12_record_partial r (hd r hr).1 (hd r hr).2).2
  have hlen := flatten_map_length recLayout 25 rs (fun r hr => (hk r hr).1)
  have hrl := requestPart_length h hs
  have hfew := hs.few
  obtain ⟨H, hH⟩ : ∃ H, H = headerEnd h.spec.slots.length := ⟨_, rfl⟩
  have hHlt : H < 2 ^ 33 := by rw [hH]; unfold headerEnd; omega
  rw [← hH] at hf
  have t1 := toNat_small H (by omega)
  have hpl : (fixedLayout 3#32 fi ne ns nd os (BitVec.ofNat 64 H) ++ requestPart h.args h.sid).length = H := by
    rw [List.length_append, fixedLayout_length, hrl, hH]; unfold headerEnd; omega
  have hfl : f.length = H + 25 * rs.length := by rw [hf, List.length_append, hpl, hlen]
  have hnd := nd.isLt
  have hr := readHeader_fixed h hs fi ne ns nd os (BitVec.ofNat 64 H) (rs.map recLayout).flatten hos (by rw [t1]; omega) 25
    (by rw [hone]; rfl) f (by rw [hf, hone]; rfl) (by rw [t1, hfl, hn]; omega)
  have hcount : ∀ x : U32, x = (if finishedType fi.toNat = 1 ∧ h.twoway = false then nd
      else BitVec.ofNat 32 ((f.length - (BitVec.ofNat 64 H).toNat) / 25)) → x.toNat = rs.length := by
    intro x hx
    rw [hx]
    split
    · exact hn
    · rw [t1, hfl, BitVec.toNat_ofNat, Nat.add_sub_cancel_left, Nat.mul_div_cancel_left _ (by omega), Nat.mod_eq_of_lt (by omega)]
  refine ⟨?_, _, _, hr, hcount _ rfl⟩
  unfold recordsSeen
  rw [hr]
  dsimp only
  rw [hcount _ rfl, t1, parseRecords, hone]
  simp only [Bool.false_eq_true, if_false]
  rw [if_neg (by omega), if_pos trivial]
  have := parseLoop_feed 25 (decodeDataRec 3) keep recLayout rs hk f _ [] rs.length [] (by rw [List.append_nil]; exact hf) (Nat.le_refl _)
  rw [hpl] at this
  rw [this, List.take_length, feed_keep]; rfl

end Owamp.Clean
