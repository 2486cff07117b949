import Verif.Lemmas.StatsShow
import Verif.Lemmas.ReceiverOrder
import Verif.Props.Receiver
/-!
# C50 – C53: summaries of one-way sessions
-/
namespace Owamp.Props
open Owamp.Num64 Owamp.Codec Owamp.Stats Owamp.Spec.Stats Owamp.Spec.DataFile

/-- A session to be summarised: what the object is created with, and the session's schedule. The reordering buffers are not empty and the
records do not start at the beginning of the file. -/
structure StatSession where
  c : Stats.Cfg
  sid : Bytes
  slots : List Sched.Slot
  c0 : Sched.Ctx
  sched : Sched.create sid ⟨c.npackets, slots⟩ = some c0
  rlist : 0 < c.rlist
  data : 0 < c.osetData

namespace StatSession

/-- `OWPStatsParse` of object `s` for the packets from `first` up to but without `last`, when the file has the records `rs` from offset
`oset` on. -/
def summary (x : StatSession) (rs : List DataRec) (s : Stats.St) (oset first last : Nat) : Except Stats.Bad Stats.St :=
  Stats.parse x.c (fun proc s => feed proc rs s) s oset first last

/-- The range is one of the session and not empty. -/
def Range (x : StatSession) (first last : Nat) : Prop := first < lastOf x.c last ∧ lastOf x.c last ≤ x.c.npackets.toNat

/-- The objects: fresh ones, and those with which some records, of this session or not, were summarised before. -/
inductive Object (x : StatSession) : Stats.St → Prop where
  | fresh : Object x (Stats.create x.c x.c0)
  | again (rs : List DataRec) (s s' : Stats.St) (oset first last : Nat) : Object x s → rs.length < 2 ^ 32 → x.Range first last →
      x.summary rs s oset first last = .ok s' → Object x s'

/-- `ds` are the delays of the schedule. -/
def Delays (x : StatSession) (ds : List Nat) : Prop := Spec.Delays x.c.E x.sid x.slots 0 0 ds ∧ ds.length = x.c.npackets.toNat

/-- The records that a summary is about. -/
def about (x : StatSession) (first last : Nat) (rs : List DataRec) : List DataRec := counted x.c.skips first (lastOf x.c last) rs

end StatSession

open StatSession

theorem StatSession.used_zero (x : StatSession) (rs : List DataRec) (s : Stats.St) (m : Nat) (ds : List Nat)
    (hds : Sched.deltas x.c.E ds.length x.c0 = ds.map .ok) (hn : ds.length = x.c.npackets.toNat) (h : Clock x.c x.c0 ds m s)
    (hu : s.used = true) (oset last : Nat) (hr : x.Range 0 last) : x.summary rs s oset 0 last = .error .stuck := by
  obtain ⟨h1, h2⟩ := hr
  obtain ⟨s1, hs1⟩ : ∃ s1 : Stats.St, s1 = { s with ctx := (Sched.reset s.ctx none).2, isctx := 0, endnum := x.c.start.toNat } := ⟨_, rfl⟩
  have hk : Clock x.c x.c0 ds 0 s1 := by
    obtain ⟨ops, ho⟩ := h.used
    have hreset : (Sched.reset s.ctx none).2 = x.c0 := by rw [ho, C06_reset_restores x.c.E x.sid _ x.c0 x.sched ops]
    rw [hreset] at hs1
    exact ⟨by rw [hs1], by rw [hs1, tm_zero], ⟨[], by rw [hs1]; rfl⟩, by rw [hs1]; exact hds, Nat.zero_le _⟩
  obtain ⟨s2, a1, a2, a3, a4, a5, a6⟩ := advance_spec x.c x.c0 ds 1 0 s1 hk (by omega)
  have hb : begin x.c s oset 0 last = .error .stuck := by
    unfold begin
    dsimp only
    rw [if_neg (by show ¬ (0 > lastOf x.c last ∨ lastOf x.c last > _); omega), if_pos (c := 0 = 0 ∨ 0 < s.isctx) (Or.inl rfl), ← hs1]
    rw [show 0 + 1 - s1.isctx = 1 by rw [hk.idx], a1]
    dsimp only
    rw [if_pos]
    refine ⟨?_, Nat.le_refl _⟩
    rw [a3, hs1]; exact hu
  unfold StatSession.summary Stats.parse
  rw [hb]

/-- Facts about the objects. -/
theorem StatSession.object_inv (x : StatSession) (s : Stats.St) (h : Object x s) (ds : List Nat)
    (hds : Sched.deltas x.c.E ds.length x.c0 = ds.map .ok) (hn : ds.length = x.c.npackets.toNat) :
    (∃ m, Clock x.c x.c0 ds m s) ∧ s.rindex < x.c.rlist := by
  induction h with
  | fresh => exact ⟨⟨0, create_clock x.c x.c0 ds hds⟩, x.rlist⟩
  | again rs s s' oset first last _ hrs hr hp ih =>
    obtain ⟨⟨m, hm⟩, hri⟩ := ih
    have hu : s.used = false ∨ 0 < first := by
      cases hus : s.used with
      | false => exact Or.inl rfl
      | true =>
        right
        apply Nat.pos_of_ne_zero
        intro h0
        rw [h0, used_zero x rs s m ds hds hn hm hus oset last (by rw [← h0]; exact hr)] at hp
        cases hp
    rcases parse_spec x.c x.sid x.slots x.c0 x.sched ds hds hn m s hm rs hrs oset first last hu hr.1 hr.2 with
      ⟨s0, t, e1, e2, e3, e4, _⟩ | ⟨e1, _⟩
    · rw [StatSession.summary, e1] at hp
      cases hp
      have hf := (Fig.all (by rw [e2.begOset]; have := x.data; show 0 < max oset x.c.osetData; omega)
        (by rw [e2.last]; have := hr.2; have := x.c.npackets.isLt; omega) rs [] s0 (Fig.fresh e2 hri) (by simpa using hrs)).same e4
      exact ⟨⟨_, e3⟩, hf.ring.index⟩
    · rw [StatSession.summary, e1] at hp; cases hp

/-- There is one schedule. -/
theorem StatSession.the_delays (x : StatSession) (ds : List Nat) (h : x.Delays ds) :
    Sched.deltas x.c.E ds.length x.c0 = ds.map .ok ∧ ds.length = x.c.npackets.toNat := by
  obtain ⟨ds', h1, h2, h3⟩ := C06_schedule x.c.E x.sid _ x.c0 x.sched
  have e : ds = ds' := List.ext_getElem (by rw [h.2, h2]) fun n n1 n2 => C06_spec_unique x.c.E x.sid x.slots 0 0 ds ds' h.1 h3 n n1 n2
  subst e
  exact ⟨by rw [h.2]; exact h1, h2⟩

/-- What a successful summary says. -/
structure StatSession.Says (x : StatSession) (ds : List Nat) (rs : List DataRec) (oset first last : Nat) (s s' : Stats.St) : Prop where
  fig : ∃ s0, Fig x.c s0 rs s' ∧ Fresh x.c oset first (lastOf x.c last) s s0 ∧ s0.startTime = tm x.c ds (first + 1)
  isFirst : s'.first = first
  isLast : s'.last = lastOf x.c last
  cnt : cnt x.c s' rs = x.about first last rs
  lost : s'.lost = Spec.Stats.lost (lastOf x.c last) (x.about first last rs)
  dups : s'.dups = duplicates (lastOf x.c last) (x.about first last rs)
  endTime : s'.endTime = tm x.c ds (lastOf x.c last)
  excl : ∀ k, losses (x.about first last rs) k ≠ 0 → copies (x.about first last rs) k = 0

theorem StatSession.summary_cases (x : StatSession) (s : Stats.St) (h : Object x s) (ds : List Nat)
    (hds : Sched.deltas x.c.E ds.length x.c0 = ds.map .ok) (hn : ds.length = x.c.npackets.toNat)
    (rs : List DataRec) (hrs : rs.length < 2 ^ 32) (oset first last : Nat) (hr : x.Range first last) :
    (s.used = true ∧ first = 0 ∧ x.summary rs s oset first last = .error .stuck) ∨
    (∃ s', x.summary rs s oset first last = .ok s' ∧ Says x ds rs oset first last s s') ∨
    (x.summary rs s oset first last = .error .refused ∧
        ∃ p r q, rs = p ++ r :: q ∧ Within first (lastOf x.c last) r ∧
          (Cause x.c ds first (lastOf x.c last) p r.seq.toNat ∨ Gone x.c ds r r.seq.toNat ∨
            (Lost r ∧ ∃ r' ∈ p, ¬ Lost r' ∧ r'.seq.toNat = r.seq.toNat) ∨
            (¬ Lost r ∧ ∃ r' ∈ p, Lost r' ∧ Within first (lastOf x.c last) r' ∧ r'.seq.toNat = r.seq.toNat))) := by
  obtain ⟨⟨m, hm⟩, hri⟩ := object_inv x s h ds hds hn
  by_cases hz : s.used = true ∧ first = 0
  · left
    refine ⟨hz.1, hz.2, ?_⟩
    rw [hz.2]
    exact used_zero x rs s m ds hds hn hm hz.1 oset last (by rw [← hz.2]; exact hr)
  · right
    have hu : s.used = false ∨ 0 < first := by
      cases hus : s.used with
      | false => exact Or.inl rfl
      | true => exact Or.inr (Nat.pos_of_ne_zero fun h0 => hz ⟨hus, h0⟩)
    rcases parse_spec x.c x.sid x.slots x.c0 x.sched ds hds hn m s hm rs hrs oset first last hu hr.1 hr.2 with
      ⟨s0, t, e1, e2, e3, e4, e5, e6, e7, e8, e9⟩ | e
    · left
      have hf := (Fig.all (by rw [e2.begOset]; have := x.data; show 0 < max oset x.c.osetData; omega)
        (by rw [e2.last]; have := hr.2; have := x.c.npackets.isLt; omega) rs [] s0 (Fig.fresh e2 hri) (by simpa using hrs)).same e4
      rw [List.nil_append] at hf
      have f1 : t.first = first := by rw [hf.first, e2.first]
      have f2 : t.last = lastOf x.c last := by rw [hf.last, e2.last]
      refine ⟨t, e1, ⟨s0, hf, e2, e7⟩, f1, f2, ?_, e5, e6, e8, e9⟩
      unfold Stats.cnt StatSession.about; rw [f1, f2]
    · exact Or.inr e

theorem StatSession.tells_at (x : StatSession) (s : Stats.St) (h : Object x s) (ds : List Nat) (hd : x.Delays ds) (rs : List DataRec)
    (hrs : rs.length < 2 ^ 32) (oset first last : Nat)
    (hr : x.Range first last) (s' : Stats.St) (hp : x.summary rs s oset first last = .ok s') : Says x ds rs oset first last s s' := by
  obtain ⟨h1, h2⟩ := the_delays x ds hd
  rcases summary_cases x s h ds h1 h2 rs hrs oset first last hr with ⟨_, _, e⟩ | ⟨t, e1, e2⟩ | ⟨e, _⟩
  · rw [e] at hp; cases hp
  · rw [e1] at hp; cases hp; exact e2
  · rw [e] at hp; cases hp

theorem StatSession.tells (x : StatSession) (s : Stats.St) (h : Object x s) (rs : List DataRec) (hrs : rs.length < 2 ^ 32) (oset first last : Nat)
    (hr : x.Range first last) (s' : Stats.St) (hp : x.summary rs s oset first last = .ok s') :
    ∃ ds, x.Delays ds ∧ Says x ds rs oset first last s s' := by
  obtain ⟨ds, h1, h2, h3⟩ := C06_schedule x.c.E x.sid _ x.c0 x.sched
  exact ⟨ds, ⟨h3, h2⟩, tells_at x s h ds ⟨h3, h2⟩ rs hrs oset first last hr s' hp⟩

/-! A session of four packets, one every second, of which the sender skipped the third. -/

/-- The session of the examples. Delays are in units of 2⁻³² s, buckets have that width. -/
def statCfg : Stats.Cfg where
  E := fun _ _ => []
  start := 0xE0000000#64 <<< 32
  timeout := 2#64 <<< 32
  npackets := 4
  skips := [⟨2, 2⟩]
  rlist := 10
  recSize := 25
  osetData := 112
  delay := fun a b => b.owptime.toNat - a.owptime.toNat
  bucket := id
  inf := 2 ^ 34

def statDemo : StatSession where
  c := statCfg
  sid := zeros 16
  slots := [.literal (1#64 <<< 32)]
  c0 := Sched.setup (zeros 16) ⟨4, [.literal (1#64 <<< 32)]⟩
  sched := by decide +kernel
  rlist := by decide
  data := by decide

/-- An arrival: the times in sixteenths of seconds since the start. -/
def came (seq send recv : Nat) (ttl : Byte) : DataRec :=
  ⟨BitVec.ofNat 32 seq, ⟨0xE0000000#64 <<< 32 + BitVec.ofNat 64 (send * 2 ^ 28), true, 1, 4⟩, ⟨0xE0000000#64 <<< 32 + BitVec.ofNat 64 (recv * 2 ^ 28), true, 1, 5⟩, ttl⟩

def wentMissing (seq send : Nat) : DataRec :=
  ⟨BitVec.ofNat 32 seq, ⟨0xE0000000#64 <<< 32 + BitVec.ofNat 64 (send * 2 ^ 28), false, 1, 0⟩, ⟨0, true, 1, 6⟩, 255⟩

/-- The second packet comes before the first, and twice; the fourth is lost. -/
def statRecords : List DataRec := [came 1 32 34 61, came 0 16 36 60, came 1 32 40 61, wentMissing 3 64]

def statAll : Stats.St := match statDemo.summary statRecords (Stats.create statCfg statDemo.c0) 0 0 (2 ^ 32 - 1) with
  | .ok s => s
  | .error _ => Stats.create statCfg statDemo.c0

/-- The summary of packets 1 to 3 made from the same records with the same object. -/
def statAgain : Stats.St := match statDemo.summary statRecords statAll 0 1 4 with
  | .ok s => s
  | .error _ => statAll

theorem stat_all : statDemo.summary statRecords (Stats.create statCfg statDemo.c0) 0 0 (2 ^ 32 - 1) = .ok statAll := by decide +kernel

theorem stat_again : statDemo.summary statRecords statAll 0 1 4 = .ok statAgain := by decide +kernel

theorem stat_range : statDemo.Range 0 (2 ^ 32 - 1) := by unfold StatSession.Range; decide +kernel

theorem stat_range' : statDemo.Range 1 4 := by unfold StatSession.Range; decide +kernel

theorem stat_object : Object statDemo statAll := .again statRecords _ _ 0 0 (2 ^ 32 - 1) .fresh (by decide) stat_range stat_all

/-! ## C50 -/

/-- No packet is recorded as lost twice. (A receiver records every packet it has passed once, `C24_one_verdict`.) -/
def LostOnce (rs : List DataRec) : Prop := ∀ k, losses rs k ≤ 1

theorem StatSession.lostOnce_about (x : StatSession) (first last : Nat) (rs : List DataRec) (h : LostOnce rs) : LostOnce (x.about first last rs) := by
  intro k
  refine Nat.le_trans ?_ (h k)
  unfold losses StatSession.about counted
  rw [List.countP_filter]
  apply List.countP_mono_left
  intro r _ hh
  simp only [Bool.and_eq_true] at hh
  exact hh.1

/-- **C50.** After a summary, whatever the file says and however the object was used before: `sent` is the number of packets of the range, not
skipped by the sender, that have a record, `lost` the number of those recorded as lost, and `dups` the number of copies beyond the
first of each; no packet is both lost and received. -/
theorem C50_counts (x : StatSession) (s s' : Stats.St) (hs : Object x s) (rs : List DataRec) (hrs : rs.length < 2 ^ 32) (oset first last : Nat)
    (hr : x.Range first last) (h1 : LostOnce rs) (hp : x.summary rs s oset first last = .ok s') :
    s'.sent = sent (lastOf x.c last) (x.about first last rs) ∧
    s'.lost = lost (lastOf x.c last) (x.about first last rs) ∧
    s'.dups = duplicates (lastOf x.c last) (x.about first last rs) ∧
    ∀ k, losses (x.about first last rs) k ≠ 0 → copies (x.about first last rs) k = 0 := by
  obtain ⟨ds, _, h⟩ := tells x s hs rs hrs oset first last hr s' hp
  obtain ⟨s0, hf, _⟩ := h.fig
  refine ⟨?_, h.lost, h.dups, h.excl⟩
  rw [hf.sent, h.cnt, h.isLast]
  rw [h.cnt]
  exact fun k => ⟨lostOnce_about x first last rs h1 k, h.excl k⟩

theorem stat_lostOnce : LostOnce statRecords := by
  intro k
  by_cases h : k = 3
  · rw [h]; decide +kernel
  · refine Nat.le_trans (Nat.le_of_eq (List.countP_eq_zero.2 fun r hr => ?_)) (Nat.zero_le 1)
    have : ∀ r ∈ statRecords, Lost r → r.seq.toNat = 3 := by decide +kernel
    simp only [decide_eq_true_eq]
    rintro ⟨h1, h2⟩
    have := this r hr h1
    omega

/-- The records of the example: three packets sent, one lost, one duplicate. -/
example : (statAll.sent, statAll.lost, statAll.dups) = (3, 1, 1) ∧ sent 4 (statDemo.about 0 (2 ^ 32 - 1) statRecords) = 3 := by
  have h := C50_counts statDemo _ _ .fresh statRecords (by decide) 0 0 (2 ^ 32 - 1) stat_range stat_lostOnce stat_all
  refine ⟨by decide +kernel, ?_⟩
  have h1 : _ = sent 4 (statDemo.about 0 (2 ^ 32 - 1) statRecords) := h.1
  rw [← h1]
  decide +kernel

/-! ## C51 -/

/-- The bucket of an arrival's delay. -/
def StatSession.bucketOf (x : StatSession) (r : DataRec) : Int := x.c.bucket (x.c.delay r.send r.recv)

/-- How many packets came, the first time, with a delay in bucket `b` or below. -/
def StatSession.upTo (x : StatSession) (n : Nat) (rs : List DataRec) (b : Int) : Nat := firsts n rs fun r => decide (x.bucketOf r ≤ b)

/-- How many packets came. -/
def arrived (n : Nat) (rs : List DataRec) : Nat := firsts n rs fun _ => true

theorem StatSession.argmax {α : Type} (f : α → Int) : ∀ l : List α, l ≠ [] → ∃ a ∈ l, ∀ b ∈ l, f b ≤ f a := by
  intro l
  induction l with
  | nil => intro h; exact (h rfl).elim
  | cons a l ih =>
    intro _
    cases l with
    | nil => exact ⟨a, by simp, by simp⟩
    | cons b l =>
      obtain ⟨m, h1, h2⟩ := ih (by simp)
      by_cases h : f m ≤ f a
      · refine ⟨a, by simp, fun y hy => ?_⟩
        rcases List.mem_cons.1 hy with e | e
        · rw [e]
        · have := h2 y e; omega
      · refine ⟨m, List.mem_cons_of_mem _ h1, fun y hy => ?_⟩
        rcases List.mem_cons.1 hy with e | e
        · rw [e]; omega
        · exact h2 y e

/-- **C51.** The percentile `alpha` of a summary is the smallest bucket into which a packet fell such that at least `alpha * sent` packets came
with a delay in it or below; and none is reported exactly if no packet came, or fewer than `alpha * sent`, lost packets thus counting as
infinitely late. `mul` is the multiplication of floating point numbers. -/
theorem C51_percentile (x : StatSession) (s s' : Stats.St) (hs : Object x s) (rs : List DataRec) (hrs : rs.length < 2 ^ 32) (oset first last : Nat)
    (hr : x.Range first last) (h1 : LostOnce rs) (hp : x.summary rs s oset first last = .ok s') (mul : Rat → Nat → Rat) (alpha : Rat) :
    ∀ C n N, C = x.about first last rs → n = lastOf x.c last → N = sent n C →
    (∀ b, percentile mul s' alpha = some b ↔
      (∃ k r, k < n ∧ firstCopy C k = some r ∧ x.bucketOf r = b) ∧ ¬ (x.upTo n C b : Rat) < mul alpha N ∧
      ∀ k r, k < n → firstCopy C k = some r → x.bucketOf r < b → (x.upTo n C (x.bucketOf r) : Rat) < mul alpha N) ∧
    (percentile mul s' alpha = none ↔ arrived n C = 0 ∨ (arrived n C : Rat) < mul alpha N) := by
  intro C n N hC hn hN
  have hsent := (C50_counts x s s' hs rs hrs oset first last hr h1 hp).1
  obtain ⟨ds, _, h⟩ := tells x s hs rs hrs oset first last hr s' hp
  obtain ⟨s0, hf, _⟩ := h.fig
  have hps := percentile_spec x.c s0 s' rs hf mul alpha x.bucketOf rfl
  rw [h.cnt, h.isLast, hsent, ← hC, ← hn, ← hN] at hps
  have hmono : ∀ b, x.upTo n C b ≤ arrived n C := by
    intro b
    unfold StatSession.upTo arrived firsts packets
    apply List.countP_mono_left
    intro k _
    cases firstCopy C k with
    | none => exact id
    | some r => intro _; rfl
  have hlt : ∀ b, (x.upTo n C b : Rat) ≤ (arrived n C : Rat) := fun b => Rat.natCast_le_natCast.2 (hmono b)
  have hsome : ∀ b, percentile mul s' alpha = some b → (∃ k r, k < n ∧ firstCopy C k = some r ∧ x.bucketOf r = b) ∧ ¬ (x.upTo n C b : Rat) < mul alpha N ∧
      ∀ k r, k < n → firstCopy C k = some r → x.bucketOf r < b → (x.upTo n C (x.bucketOf r) : Rat) < mul alpha N := by
    intro b hb
    rw [hb] at hps
    exact hps
  have hnone : percentile mul s' alpha = none → ∀ k r, k < n → firstCopy C k = some r → (x.upTo n C (x.bucketOf r) : Rat) < mul alpha N := by
    intro hb
    rw [hb] at hps
    exact hps
  constructor
  · intro b
    refine ⟨hsome b, fun ⟨⟨k, r, e1, e2, e3⟩, e4, e5⟩ => ?_⟩
    cases hc : percentile mul s' alpha with
    | none => rw [← e3] at e4; exact (e4 (hnone hc k r e1 e2)).elim
    | some b' =>
      obtain ⟨⟨k', r', g1, g2, g3⟩, g4, g5⟩ := hsome b' hc
      congr 1
      rcases Int.lt_trichotomy b b' with hl | hl | hl
      · rw [← e3] at e4; exact (e4 (g5 k r e1 e2 (by rw [e3]; exact hl))).elim
      · exact hl.symm
      · rw [← g3] at g4; exact (g4 (e5 k' r' g1 g2 (by rw [g3]; exact hl))).elim
  · constructor
    · intro hc
      by_cases h0 : arrived n C = 0
      · exact Or.inl h0
      · right
        obtain ⟨k, r, k1, k2, _⟩ := (firsts_pos n C _).1 (Nat.pos_of_ne_zero h0)
        obtain ⟨l, hl⟩ : ∃ l, l = (List.range n).filterMap (firstCopy C) := ⟨_, rfl⟩
        have hmem : ∀ y, y ∈ l ↔ ∃ k, k < n ∧ firstCopy C k = some y := by
          intro y; rw [hl, List.mem_filterMap]; simp only [List.mem_range]
        obtain ⟨a, a1, a2⟩ := argmax x.bucketOf l (List.ne_nil_of_mem ((hmem r).2 ⟨k, k1, k2⟩))
        obtain ⟨k', b1, b2⟩ := (hmem a).1 a1
        have := hnone hc k' a b1 b2
        have heq : x.upTo n C (x.bucketOf a) = arrived n C := by
          unfold StatSession.upTo arrived firsts packets
          apply List.countP_congr
          intro j hj
          rw [List.mem_range] at hj
          cases hj2 : firstCopy C j with
          | none => exact Iff.rfl
          | some y =>
            have := a2 y ((hmem y).2 ⟨j, hj, hj2⟩)
            simp [this]
        rw [heq] at this
        exact this
    · intro h0
      cases hc : percentile mul s' alpha with
      | none => rfl
      | some b =>
        obtain ⟨⟨k, r, g1, g2, g3⟩, g4, _⟩ := hsome b hc
        rcases h0 with h0 | h0
        · have := (firsts_pos n C (fun _ => true)).2 ⟨k, r, g1, g2, rfl⟩
          unfold arrived at h0; omega
        · exact (g4 (by have := hlt b; grind)).elim

/-- The median of the example is the greater of its two delays, that of the packet sent first; of three packets two came, so that there is no 90th percentile. -/
example : percentile (fun a n => a * n) statAll (1 / 2) = some (20 * 2 ^ 28) ∧ percentile (fun a n => a * n) statAll (9 / 10) = none ∧
    arrived 4 (statDemo.about 0 (2 ^ 32 - 1) statRecords) = 2 := by
  have h := fun alpha => C51_percentile statDemo _ _ .fresh statRecords (by decide) 0 0 (2 ^ 32 - 1) stat_range stat_lostOnce stat_all (fun a n => a * n) alpha _ 4 3
    rfl rfl (by decide +kernel)
  have ha : arrived 4 (statDemo.about 0 (2 ^ 32 - 1) statRecords) = 2 := by decide +kernel
  refine ⟨((h _).1 _).2 ⟨⟨0, came 0 16 36 60, by decide, by decide +kernel, by decide +kernel⟩, by decide +kernel, ?_⟩, (h _).2.2 (Or.inr ?_), ha⟩
  · intro k r hk hr hb
    have : ∀ k, k < 4 → (firstCopy (statDemo.about 0 (2 ^ 32 - 1) statRecords) k).all (fun r => !decide (statDemo.bucketOf r < 20 * 2 ^ 28) ||
      decide ((statDemo.upTo 4 (statDemo.about 0 (2 ^ 32 - 1) statRecords) (statDemo.bucketOf r) : Rat) < 1 / 2 * (3 : Nat))) = true := by decide +kernel
    have := this k hk
    rw [hr] at this
    have : (!decide (statDemo.bucketOf r < 20 * 2 ^ 28) || decide _) = true := this
    rw [decide_eq_true hb] at this
    exact of_decide_eq_true this
  · rw [ha]; decide +kernel

/-! ## C52 -/

/-- **C52.** For every `j` up to the length of the buffers, the `j`-th reordering count of a summary is the number of arrivals that come right
after `j` arrivals with larger numbers. -/
theorem C52_reordering (x : StatSession) (s s' : Stats.St) (hs : Object x s) (rs : List DataRec) (hrs : rs.length < 2 ^ 32) (oset first last : Nat)
    (hr : x.Range first last) (hp : x.summary rs s oset first last = .ok s') :
    s'.rn.length = x.c.rlist ∧ ∀ j, j < x.c.rlist → s'.rn.getD j 0 = reordered (x.about first last rs) (j + 1) := by
  obtain ⟨ds, _, h⟩ := tells x s hs rs hrs oset first last hr s' hp
  obtain ⟨s0, hf, _⟩ := h.fig
  have := hf.ring
  rw [h.cnt] at this
  exact ⟨this.cntLen, this.counts⟩

/-- **C52** (partial: only for the first summary made with an object; see `C52_second_share`): the shares that are printed relate these counts to the number
of arrivals. -/
theorem C52_shares_partial (x : StatSession) (s' : Stats.St) (rs : List DataRec) (hrs : rs.length < 2 ^ 32) (oset first last : Nat)
    (hr : x.Range first last) (hp : x.summary rs (Stats.create x.c x.c0) oset first last = .ok s') :
    ∀ p ∈ reorderShares s', p.2 = (arrivals (x.about first last rs)).length ∧ p.1 ≠ 0 ∧ ∃ j, p.1 = reordered (x.about first last rs) (j + 1) := by
  obtain ⟨ds, _, h⟩ := tells x _ .fresh rs hrs oset first last hr s' hp
  obtain ⟨s0, hf, h2, _⟩ := h.fig
  obtain ⟨c1, c2⟩ := C52_reordering x _ s' .fresh rs hrs oset first last hr hp
  intro p hpm
  unfold reorderShares at hpm
  obtain ⟨n, n1, n2⟩ := List.mem_map.1 hpm
  have hnum := hf.rnum
  rw [h2.rnum, h.cnt] at hnum
  subst n2
  refine ⟨by rw [hnum]; exact Nat.zero_add _, ?_, ?_⟩
  · have := List.all_eq_true.1 (List.all_takeWhile (p := fun n : Nat => decide (n ≠ 0)) (l := s'.rn)) n n1; simpa using this
  · obtain ⟨j, hj⟩ := List.getElem?_of_mem ((List.takeWhile_sublist _).mem n1)
    have hlt : j < x.c.rlist := by
      rw [← c1]; exact (List.getElem?_eq_some_iff.1 hj).1
    refine ⟨j, ?_⟩
    rw [← c2 j hlt, List.getD_eq_getElem?_getD, hj]
    rfl

/-- One of the three arrivals of the example comes after a packet with a larger number. -/
example : reordered (statDemo.about 0 (2 ^ 32 - 1) statRecords) 1 = 1 ∧ reorderShares statAll = [(1, 3)] := by
  have h := (C52_reordering statDemo _ _ .fresh statRecords (by decide) 0 0 (2 ^ 32 - 1) stat_range stat_all).2 0 (by decide)
  refine ⟨?_, by decide +kernel⟩
  rw [← h]
  decide +kernel

/-- The second range of the example without its duplicate and with packets in the wrong order. -/
def statSwapped : List DataRec := [came 3 61 62 60, came 1 32 63 60]

def statShare : Stats.St := match statDemo.summary statSwapped statAll 0 1 4 with
  | .ok s => s
  | .error _ => statAll

/-- C52 fails for the shares of a second summary made with an object, as `owping` makes and prints them for a session in parts (owping.c:480-528): the number of
arrivals that the counts are divided by goes on from the summary before. Here one of two arrivals is reordered, and the share says one of five. -/
theorem C52_second_share : ∃ (x : StatSession) (s s' : Stats.St) (rs : List DataRec) (first last : Nat), Object x s ∧ x.Range first last ∧
    x.summary rs s 0 first last = .ok s' ∧ (arrivals (x.about first last rs)).length = 2 ∧ reorderShares s' = [(1, 5)] :=
  ⟨statDemo, statAll, statShare, statSwapped, 1, 4, stat_object, stat_range', by decide +kernel, by decide +kernel, by decide +kernel⟩

/-! ## C53 -/

theorem least_unique {a u v : Int} {l : List Int} (h : LeastOf a l u) (h' : LeastOf a l v) : u = v := by
  obtain ⟨u1, u2, u3⟩ := h
  obtain ⟨v1, v2, v3⟩ := h'
  have e1 : u ≤ v := by
    rcases v1 with e | e
    · omega
    · exact u3 v e
  have e2 : v ≤ u := by
    rcases u1 with e | e
    · omega
    · exact v3 u e
  omega

theorem greatest_unique {a u v : Int} {l : List Int} (h : GreatestOf a l u) (h' : GreatestOf a l v) : u = v := by
  obtain ⟨u1, u2, u3⟩ := h
  obtain ⟨v1, v2, v3⟩ := h'
  have e1 : v ≤ u := by
    rcases v1 with e | e
    · omega
    · exact u3 v e
  have e2 : u ≤ v := by
    rcases u1 with e | e
    · omega
    · exact v3 u e
  omega

/-- Records as a receiver of the session writes them; see `Orderly`. -/
def StatSession.Orderly (x : StatSession) (ds : List Nat) (rs : List DataRec) : Prop :=
  Spec.Stats.Orderly x.c.timeout.toNat (Spec.Receiver.schedTime x.c.start.toNat ds) rs

/-- **C53** (partial: an object that was used must not be asked again for a range that starts with packet 0, see `C53_second_from_zero`). Records that are in the
order in which a receiver writes them can be summarised, for every range. -/
theorem C53_orderly_partial (x : StatSession) (s : Stats.St) (hs : Object x s) (ds : List Nat) (hd : x.Delays ds) (rs : List DataRec)
    (hrs : rs.length < 2 ^ 32) (ho : x.Orderly ds rs) (oset first last : Nat) (hr : x.Range first last)
    (hz : s = Stats.create x.c x.c0 ∨ 0 < first) : ∃ s', x.summary rs s oset first last = .ok s' := by
  obtain ⟨h1, h2⟩ := the_delays x ds hd
  rcases summary_cases x s hs ds h1 h2 rs hrs oset first last hr with ⟨e1, e2, _⟩ | ⟨t, e1, _⟩ | ⟨_, p, r, q, e1, e2, e3⟩
  · rcases hz with hz | hz
    · rw [hz] at e1; cases e1
    · omega
  · exact ⟨t, e1⟩
  · exfalso
    obtain ⟨o1, o2, o3, o4⟩ := ho
    rw [e1] at o1 o2 o3 o4
    have b2 := (List.pairwise_append.1 o2).2.2
    have b3 := (List.pairwise_append.1 o3).2.2
    have b4 := (List.pairwise_append.1 o4).2.2
    rcases e3 with ⟨r', m1, _, m3⟩ | g | ⟨g1, r', m1, g2, g3⟩ | ⟨g1, r', m1, g2, _, g3⟩
    · unfold Gone at m3
      by_cases hl : Lost r'
      · rw [if_pos hl] at m3
        have := b3 r' m1 r (by simp) hl
        omega
      · rw [if_neg hl, tm_sched] at m3
        exact m3 (b2 r' m1 r (by simp) hl)
    · unfold Gone at g
      by_cases hl : Lost r
      · rw [if_pos hl] at g; omega
      · rw [if_neg hl, tm_sched] at g
        exact g (o1 r (by simp) hl)
    · exact b4 r' m1 r (by simp) g2 g1 (BitVec.eq_of_toNat_eq g3)
    · have := b3 r' m1 r (by simp) g2
      omega

/-- The delays of the example. -/
def statDelays : List Nat := List.replicate 4 (2 ^ 32)

theorem stat_delays : statDemo.Delays statDelays := by
  obtain ⟨ds, h1, h2, h3⟩ := C06_schedule statCfg.E statDemo.sid _ statDemo.c0 statDemo.sched
  have hds : (Sched.deltas statCfg.E 4 statDemo.c0) = statDelays.map .ok := by decide +kernel
  have h1' : Sched.deltas statCfg.E 4 statDemo.c0 = ds.map .ok := h1
  rw [hds] at h1'
  have inj : ∀ l m : List Nat, l.map (Except.ok (ε := Sched.Fault)) = m.map .ok → l = m := by
    intro l
    induction l with
    | nil => intro m h; cases m with
      | nil => rfl
      | cons a m => cases h
    | cons a l ih => intro m h; cases m with
      | nil => cases h
      | cons b m => simp only [List.map_cons, List.cons.injEq, Except.ok.injEq] at h; rw [h.1, ih m h.2]
  rw [inj _ _ h1']
  exact ⟨h3, h2⟩

/-- The records of the example are orderly, and can be summarised again for packets 1 to 3. -/
theorem stat_orderly : statDemo.Orderly statDelays statRecords := by
  refine ⟨?_, ?_, ?_, ?_⟩ <;> (first | decide +kernel | (simp only [InTime]; decide +kernel))

example : ∃ s', statDemo.summary statRecords statAll 0 1 4 = .ok s' :=
  C53_orderly_partial statDemo statAll stat_object statDelays stat_delays statRecords (by decide) stat_orderly 0 1 4 stat_range' (Or.inr (by decide))

/-- C53 fails for objects that are used again: the second summary that starts with packet 0 dereferences a NULL pointer, whatever the records. -/
theorem C53_second_from_zero (x : StatSession) (rs rs' : List DataRec) (s s' : Stats.St) (hs : Object x s) (hrs : rs.length < 2 ^ 32)
    (oset first last : Nat) (hr : x.Range first last) (hp : x.summary rs s oset first last = .ok s') (oset' last' : Nat) (hr' : x.Range 0 last') :
    x.summary rs' s' oset' 0 last' = .error .stuck := by
  obtain ⟨ds, h1, h2, h3⟩ := C06_schedule x.c.E x.sid _ x.c0 x.sched
  have hds : Sched.deltas x.c.E ds.length x.c0 = ds.map .ok := by rw [h2]; exact h1
  obtain ⟨⟨m, hm⟩, _⟩ := object_inv x s' (.again rs s s' oset first last hs hrs hr hp) ds hds h2
  refine used_zero x rs' s' m ds hds h2 hm ?_ oset' last' hr'
  have hb : ∀ s t oset first last, Stats.begin x.c s oset first last = .ok t → t.used = true := by
    intro s t oset first last h
    unfold Stats.begin at h
    dsimp only at h
    generalize (if last = 2 ^ 32 - 1 then _ else last) = L at h
    generalize (if first = 0 ∨ first < s.isctx then _ else s) = s1 at h
    split at h
    · cases h
    · split at h
      · cases h
      · split at h
        · cases h
        · cases h; rfl
  exact used_parse x.c rs s s' oset first last hp hb

example (rs : List DataRec) : statDemo.summary rs statAll 0 0 4 = .error .stuck :=
  C53_second_from_zero statDemo statRecords rs _ _ .fresh (by decide) 0 0 (2 ^ 32 - 1) stat_range stat_all 0 4 (by unfold StatSession.Range; decide +kernel)

/-- Two results that report the same. -/
structure SameReport (s t : Stats.St) : Prop where
  sent : s.sent = t.sent
  lost : s.lost = t.lost
  dups : s.dups = t.dups
  reordering : s.rn = t.rn
  ttl : s.ttl = t.ttl
  min : s.min = t.min
  max : s.max = t.max
  sync : s.sync = t.sync
  maxerr : s.maxerr = t.maxerr
  startTime : s.startTime = t.startTime
  endTime : s.endTime = t.endTime
  percentile : ∀ mul alpha, percentile mul s alpha = percentile mul t alpha

/-- Summaries that are about the same records report the same. -/
theorem StatSession.agree (x : StatSession) (rs rs' : List DataRec) (hrs : rs.length < 2 ^ 32) (hrs' : rs'.length < 2 ^ 32) (h1 : LostOnce rs)
    (h1' : LostOnce rs') (first last : Nat) (hr : x.Range first last) (hsame : x.about first last rs = x.about first last rs')
    (s t s' t' : Stats.St) (hs : Object x s) (ht : Object x t) (oset oset' : Nat)
    (hp : x.summary rs s oset first last = .ok s') (hq : x.summary rs' t oset' first last = .ok t') : SameReport s' t' := by
  obtain ⟨ds, d1, d2, d3⟩ := C06_schedule x.c.E x.sid _ x.c0 x.sched
  have hd : x.Delays ds := ⟨d3, d2⟩
  have a := tells_at x s hs ds hd rs hrs oset first last hr s' hp
  have b := tells_at x t ht ds hd rs' hrs' oset' first last hr t' hq
  have bc := b.cnt
  rw [← hsame] at bc
  obtain ⟨s0, af, af2, af3⟩ := a.fig
  obtain ⟨t0, bf, bf2, bf3⟩ := b.fig
  have ca := C50_counts x s s' hs rs hrs oset first last hr h1 hp
  have cb := C50_counts x t t' ht rs' hrs' oset' first last hr h1' hq
  rw [← hsame] at cb
  have eqList : ∀ (l m : List Nat) (n : Nat), l.length = n → m.length = n → (∀ i, i < n → l.getD i 0 = m.getD i 0) → l = m := by
    intro l m n hl hm h
    apply List.ext_getElem (by omega)
    intro i h1 h2
    have := h i (by omega)
    rw [List.getD_eq_getElem?_getD, List.getD_eq_getElem?_getD, List.getElem?_eq_getElem h1, List.getElem?_eq_getElem h2] at this
    exact this
  refine ⟨ca.1.trans cb.1.symm, ca.2.1.trans cb.2.1.symm, ca.2.2.1.trans cb.2.2.1.symm, ?_, ?_, ?_, ?_, ?_, ?_, ?_, ?_, ?_⟩
  · obtain ⟨r1, r2⟩ := C52_reordering x s s' hs rs hrs oset first last hr hp
    obtain ⟨r3, r4⟩ := C52_reordering x t t' ht rs' hrs' oset' first last hr hq
    exact eqList _ _ _ r1 r3 fun i hi => by rw [r2 i hi, r4 i hi, hsame]
  · refine eqList _ _ 256 af.ttlLen bf.ttlLen fun i hi => ?_
    rw [af.ttl i hi, bf.ttl i hi, a.cnt, bc, a.isLast, b.isLast]
  · have := af.min; rw [a.cnt] at this
    have h' := bf.min; rw [bc] at h'
    exact least_unique this h'
  · have := af.max; rw [a.cnt] at this
    have h' := bf.max; rw [bc] at h'
    exact greatest_unique this h'
  · have := af.sync; rw [a.cnt] at this
    have h' := bf.sync; rw [bc] at h'
    exact Bool.eq_iff_iff.2 (this.trans h'.symm)
  · have := af.err; rw [a.cnt] at this
    have h' := bf.err; rw [bc] at h'
    exact Int.ofNat.inj (greatest_unique this h')
  · rw [af.start, bf.start, af3, bf3]
  · rw [a.endTime, b.endTime]
  · intro mul alpha
    have p1 := (C51_percentile x s s' hs rs hrs oset first last hr h1 hp mul alpha _ _ _ rfl rfl rfl).1
    have p2 := (C51_percentile x t t' ht rs' hrs' oset' first last hr h1' hq mul alpha _ _ _ hsame rfl rfl).1
    exact Option.ext fun b => (p1 b).trans (p2 b).symm

/-- **C53**: summaries of the same records and range agree, whatever the objects were used for before. (Not so the denominator of the printed
reordering shares: `C52_second_share`.) -/
theorem C53_same_answer (x : StatSession) (rs : List DataRec) (hrs : rs.length < 2 ^ 32) (h1 : LostOnce rs) (first last : Nat) (hr : x.Range first last)
    (s t s' t' : Stats.St) (hs : Object x s) (ht : Object x t) (oset : Nat)
    (hp : x.summary rs s oset first last = .ok s') (hq : x.summary rs t oset first last = .ok t') : SameReport s' t' ∧ s'.nextOset = t'.nextOset := by
  refine ⟨StatSession.agree x rs rs hrs hrs h1 h1 first last hr rfl s t s' t' hs ht oset oset hp hq, ?_⟩
  obtain ⟨ds, d1, d2, d3⟩ := C06_schedule x.c.E x.sid _ x.c0 x.sched
  have a := tells_at x s hs ds ⟨d3, d2⟩ rs hrs oset first last hr s' hp
  have b := tells_at x t ht ds ⟨d3, d2⟩ rs hrs oset first last hr t' hq
  obtain ⟨s0, af, af2, af3⟩ := a.fig
  obtain ⟨t0, bf, bf2, bf3⟩ := b.fig
  rw [af.next, bf.next, af.begOset, bf.begOset, af2.begOset, bf2.begOset, a.isLast, b.isLast]

example : statAgain.sent = 2 ∧ ∀ t' , statDemo.summary statRecords (Stats.create statCfg statDemo.c0) 0 1 4 = .ok t' → SameReport statAgain t' :=
  ⟨by decide +kernel, fun t' h => (C53_same_answer statDemo statRecords (by decide) stat_lostOnce 1 4 stat_range' _ _ _ _ stat_object .fresh 0 stat_again h).1⟩

/-! ## C64: consecutive ranges -/

/-- **C64.** After a summary of the packets from `first` up to but without `mid`, the offset for the next range says where the first record is that is
not about a packet below `mid`; the records before it do not matter for any range that starts at `mid`. If the offset is 0 then there is no such record. -/
theorem C64_next_offset (x : StatSession) (s s' : Stats.St) (hs : Object x s) (rs : List DataRec) (hrs : rs.length < 2 ^ 32) (oset first mid : Nat)
    (hr : x.Range first mid) (hm : mid ≠ 2 ^ 32 - 1) (hp : x.summary rs s oset first mid = .ok s') :
    (s'.nextOset = 0 ∧ ∀ r ∈ rs, r.seq.toNat < mid) ∨
    ∃ i, i < rs.length ∧ s'.nextOset = max oset x.c.osetData + i * x.c.recSize ∧ (∀ r, rs[i]? = some r → mid ≤ r.seq.toNat) ∧
      (∀ r ∈ rs.take i, r.seq.toNat < mid) ∧ ∀ last, x.about mid last (rs.drop i) = x.about mid last rs := by
  obtain ⟨ds, _, a⟩ := tells x s hs rs hrs oset first mid hr s' hp
  obtain ⟨s0, af, af2, _⟩ := a.fig
  have hl : lastOf x.c mid = mid := by unfold lastOf; rw [if_neg hm]
  have hn := af.next
  rw [af.begOset, af2.begOset, a.isLast, hl] at hn
  unfold nextPlace at hn
  cases hi : rs.findIdx? (fun r => decide (mid ≤ r.seq.toNat)) with
  | none =>
    rw [hi] at hn
    left
    refine ⟨hn, fun r hr => ?_⟩
    have := List.findIdx?_eq_none_iff.1 hi r hr
    simpa using this
  | some i =>
    rw [hi] at hn
    right
    obtain ⟨i1, i2, i3⟩ := List.findIdx?_eq_some_iff_getElem.1 hi
    have htake : ∀ r ∈ rs.take i, r.seq.toNat < mid := by
      intro r hr
      obtain ⟨j, hj, hjr⟩ := List.mem_take_iff_getElem.1 hr
      have hji : j < i := by omega
      have := i3 j hji
      simp only [decide_eq_true_eq] at this
      rw [hjr] at this
      omega
    refine ⟨i, i1, hn, ?_, htake, fun last => ?_⟩
    · intro r hr
      rw [List.getElem?_eq_getElem i1] at hr
      cases hr
      simpa using i2
    · have hsplit : rs = rs.take i ++ rs.drop i := (List.take_append_drop i rs).symm
      unfold StatSession.about counted
      conv => rhs; rw [hsplit, List.filter_append]
      rw [show (rs.take i).filter _ = [] from List.filter_eq_nil_iff.2 fun r hr => ?_, List.nil_append]
      have := htake r hr
      simp only [decide_eq_true_eq]
      intro hw
      have := hw.1.1
      omega

/-- **C64**, the whole: the summary of the next range, made with the same object from that offset on, reports the same as the summary of that range
from all the records. -/
theorem C64_next_range (x : StatSession) (s s1 : Stats.St) (hs : Object x s) (rs : List DataRec) (hrs : rs.length < 2 ^ 32) (ho : LostOnce rs) (oset first mid : Nat)
    (hr : x.Range first mid) (hm : mid ≠ 2 ^ 32 - 1) (hp : x.summary rs s oset first mid = .ok s1) (i last : Nat) (hr2 : x.Range mid last)
    (hi : s1.nextOset = max oset x.c.osetData + i * x.c.recSize) (hsz : 0 < x.c.recSize) (s2 t t2 : Stats.St) (ht : Object x t) (oset' : Nat)
    (h2 : x.summary (rs.drop i) s1 s1.nextOset mid last = .ok s2) (h3 : x.summary rs t oset' mid last = .ok t2) : SameReport s2 t2 := by
  have hdrop : LostOnce (rs.drop i) := by
    intro k
    exact Nat.le_trans ((List.drop_sublist i rs).countP_le) (ho k)
  refine StatSession.agree x (rs.drop i) rs (by rw [List.length_drop]; omega) hrs hdrop ho mid last hr2 ?_ s1 t s2 t2
    (.again rs s s1 oset first mid hs hrs hr hp) ht s1.nextOset oset' h2 h3
  rcases C64_next_offset x s s1 hs rs hrs oset first mid hr hm hp with ⟨e, _⟩ | ⟨j, _, e, _, _, e2⟩
  · have := x.data
    omega
  · have : i = j := by
      rw [hi] at e
      exact Nat.eq_of_mul_eq_mul_right hsz (by omega)
    rw [this]
    exact e2 last

/-- The record at which a reader of the file starts that is given the offset `oset`; the first record is at `osetData`. -/
def StatSession.place (x : StatSession) (oset : Nat) : Nat := (max oset x.c.osetData - x.c.osetData) / x.c.recSize

/-- An object used for consecutive ranges of packets, each time from the offset left by the time before, of a file with the records `rs` to which more
records may be added between (as `powstream` does, powstream.c:1990-2100, and `owping` for a session in parts, owping.c:480-515). The next range starts with the
packet given. -/
inductive Chain (x : StatSession) : List DataRec → Nat → Stats.St → Prop where
  | start (rs : List DataRec) : Chain x rs 0 (Stats.create x.c x.c0)
  | more (rs rs' : List DataRec) (b : Nat) (s : Stats.St) : Chain x rs b s → Chain x (rs ++ rs') b s
  | next (rs : List DataRec) (b e : Nat) (s s' : Stats.St) : Chain x rs b s → rs.length < 2 ^ 32 → x.Range b e → e ≠ 2 ^ 32 - 1 →
      x.summary (rs.drop (x.place s.nextOset)) s s.nextOset b e = .ok s' → Chain x rs e s'

theorem Chain.inv (x : StatSession) (hsz : 0 < x.c.recSize) {rs : List DataRec} {b : Nat} {s : Stats.St} (h : Chain x rs b s) :
    Object x s ∧ (s = Stats.create x.c x.c0 ∨ 0 < b) ∧ x.place s.nextOset ≤ rs.length ∧ (∀ r ∈ rs.take (x.place s.nextOset), r.seq.toNat < b) ∧
    max s.nextOset x.c.osetData = x.c.osetData + x.place s.nextOset * x.c.recSize := by
  have p0 : x.place 0 = 0 := by
    unfold StatSession.place
    rw [Nat.zero_max, Nat.sub_self, Nat.zero_div]
  induction h with
  | start rs =>
    have e : (Stats.create x.c x.c0).nextOset = 0 := rfl
    rw [e, p0]
    exact ⟨.fresh, Or.inl rfl, Nat.zero_le _, by simp, by omega⟩
  | more rs rs' b s _ ih =>
    obtain ⟨a1, a2, a3, a4, a5⟩ := ih
    refine ⟨a1, a2, by rw [List.length_append]; omega, ?_, a5⟩
    rw [List.take_append_of_le_length a3]
    exact a4
  | next rs b e s s' _ hrs hr he hp ih =>
    obtain ⟨a1, a2, a3, a4, a5⟩ := ih
    have hl : lastOf x.c e = e := by unfold lastOf; rw [if_neg he]
    have hbe : b < e := by have := hr.1; rw [hl] at this; exact this
    have hrs' : (rs.drop (x.place s.nextOset)).length < 2 ^ 32 := by rw [List.length_drop]; omega
    refine ⟨.again _ s s' s.nextOset b e a1 hrs' hr hp, Or.inr (by omega), ?_⟩
    rcases C64_next_offset x s s' a1 _ hrs' s.nextOset b e hr he hp with ⟨e1, e2⟩ | ⟨i, i1, i2, i3, i4, i5⟩
    · rw [e1, p0]
      exact ⟨Nat.zero_le _, by simp, by omega⟩
    · rw [a5, Nat.add_assoc, ← Nat.add_mul] at i2
      have hpl : x.place s'.nextOset = x.place s.nextOset + i := by
        rw [i2]
        generalize x.place s.nextOset + i = q
        unfold StatSession.place
        rw [Nat.max_eq_left (Nat.le_add_right _ _), Nat.add_sub_cancel_left, Nat.mul_div_cancel _ hsz]
      rw [hpl]
      refine ⟨by rw [List.length_drop] at i1; omega, ?_, ?_⟩
      · intro r hr'
        rw [List.take_add] at hr'
        rcases List.mem_append.1 hr' with g | g
        · have := a4 r g; omega
        · exact i4 r g
      · rw [i2, Nat.max_eq_left (Nat.le_add_right _ _)]

/-- **C64**, for any number of ranges. However far the chain has come, the summary of the next range succeeds if the records are those of a receiver, and reports
the same as a fresh object that reads the whole file: no record is missed and none is counted twice. -/
theorem C64_chain (x : StatSession) (hsz : 0 < x.c.recSize) (ds : List Nat) (hd : x.Delays ds) (rs : List DataRec) (hrs : rs.length < 2 ^ 32) (h1 : LostOnce rs)
    (ho : x.Orderly ds rs) (b e : Nat) (s : Stats.St) (h : Chain x rs b s) (hr : x.Range b e) :
    ∃ s' t', x.summary (rs.drop (x.place s.nextOset)) s s.nextOset b e = .ok s' ∧ x.summary rs (Stats.create x.c x.c0) 0 b e = .ok t' ∧ SameReport s' t' := by
  obtain ⟨a1, a2, a3, a4, a5⟩ := Chain.inv x hsz h
  obtain ⟨p, hp⟩ : ∃ p, p = x.place s.nextOset := ⟨_, rfl⟩
  rw [← hp] at a3 a4 ⊢
  have hlen : (rs.drop p).length < 2 ^ 32 := by rw [List.length_drop]; omega
  have sub := List.drop_sublist p rs
  have hod : x.Orderly ds (rs.drop p) :=
    ⟨fun r hr' => ho.self r (sub.mem hr'), ho.later.sublist sub, ho.passed.sublist sub, ho.verdict.sublist sub⟩
  obtain ⟨s', hs'⟩ := C53_orderly_partial x s a1 ds hd (rs.drop p) hlen hod s.nextOset b e hr a2
  obtain ⟨t', ht'⟩ := C53_orderly_partial x _ .fresh ds hd rs hrs ho 0 b e hr (Or.inl rfl)
  refine ⟨s', t', hs', ht', StatSession.agree x (rs.drop p) rs hlen hrs (fun k => Nat.le_trans sub.countP_le (h1 k)) h1 b e hr ?_ s _ s' t' a1 .fresh _ _ hs' ht'⟩
  have hsplit : rs = rs.take p ++ rs.drop p := (List.take_append_drop p rs).symm
  unfold StatSession.about counted
  conv => rhs; rw [hsplit, List.filter_append]
  rw [show (rs.take p).filter _ = [] from List.filter_eq_nil_iff.2 fun r hr' => ?_, List.nil_append]
  have := a4 r hr'
  simp only [decide_eq_true_eq]
  intro hw
  have := hw.1.1
  omega

/-- The first packet of the example, alone. -/
def statFirst : Stats.St := match statDemo.summary statRecords (Stats.create statCfg statDemo.c0) 0 0 1 with
  | .ok s => s
  | .error _ => statAll

/-- The next range starts with the first record of the file, for the second packet came first; and with the offset of the first range the rest is summarised. -/
example : statFirst.nextOset = 112 ∧ statDemo.summary statRecords (Stats.create statCfg statDemo.c0) 0 0 1 = .ok statFirst ∧ statDemo.Range 0 1 ∧
    ∃ s2, statDemo.summary (statRecords.drop 0) statFirst statFirst.nextOset 1 4 = .ok s2 ∧ SameReport s2 statAgain := by
  have h1 : statDemo.summary statRecords (Stats.create statCfg statDemo.c0) 0 0 1 = .ok statFirst := by decide +kernel
  have h2 : statDemo.Range 0 1 := by unfold StatSession.Range; decide +kernel
  have h4 : statFirst.nextOset = 112 := by decide +kernel
  obtain ⟨s2, h3⟩ := C53_orderly_partial statDemo statFirst (.again statRecords _ _ 0 0 1 .fresh (by decide) h2 h1) statDelays stat_delays statRecords (by decide) stat_orderly
    statFirst.nextOset 1 4 stat_range' (Or.inr (by decide))
  exact ⟨h4, h1, h2, s2, h3, C64_next_range statDemo _ _ .fresh statRecords (by decide) stat_lostOnce 0 0 1 h2 (by decide) h1 0 4 stat_range' h4 (by decide)
    s2 statAll statAgain stat_object 0 h3 stat_again⟩

def statEarly : Stats.St := match statDemo.summary (statRecords.take 3) (Stats.create statCfg statDemo.c0) 0 0 1 with
  | .ok s => s
  | .error _ => statAll

/-- A chain of the example: the first packet, then, with one more record in the file, the others. -/
example : ∃ s' t', statDemo.summary (statRecords.drop (statDemo.place statEarly.nextOset)) statEarly statEarly.nextOset 1 4 = .ok s' ∧
    statDemo.summary statRecords (Stats.create statCfg statDemo.c0) 0 1 4 = .ok t' ∧ SameReport s' t' := by
  refine C64_chain statDemo (by decide) statDelays stat_delays statRecords (by decide) stat_lostOnce stat_orderly 1 4 statEarly ?_ stat_range'
  have h : Chain statDemo (statRecords.take 3) 1 statEarly :=
    .next _ 0 1 _ _ (.start _) (by decide) (by unfold StatSession.Range; decide +kernel) (by decide) (by decide +kernel)
  exact .more (statRecords.take 3) [wentMissing 3 64] 1 statEarly h

/-! ## C65: the other figures -/

/-- **C65.** The times of a summary are the scheduled times of the first and the last packet of the range; `min` and `max` are the least and greatest delay
of all arrivals, bounded by `inf_delay`, the value given to lost packets; the clocks count as synchronised if they were for every record; the error is the
greatest of the records'; and the table of TTL values has, for each, the number of packets that first came with it. -/
theorem C65_figures (x : StatSession) (s s' : Stats.St) (hs : Object x s) (ds : List Nat) (hd : x.Delays ds) (rs : List DataRec) (hrs : rs.length < 2 ^ 32)
    (oset first last : Nat) (hr : x.Range first last) (hp : x.summary rs s oset first last = .ok s') (C : List DataRec) (hC : C = x.about first last rs) :
    s'.startTime = Spec.Receiver.schedTime x.c.start.toNat ds first ∧
    s'.endTime = Spec.Receiver.schedTime x.c.start.toNat ds (lastOf x.c last - 1) ∧
    LeastOf x.c.inf ((arrivals C).map fun r => x.c.delay r.send r.recv) s'.min ∧
    GreatestOf (-x.c.inf) ((arrivals C).map fun r => x.c.delay r.send r.recv) s'.max ∧
    (s'.sync = true ↔ ∀ r ∈ C, r.recv.sync = true ∧ (¬ Lost r → r.send.sync = true)) ∧
    GreatestOf 0 (C.map fun r => (recordError r : Int)) s'.maxerr ∧
    s'.ttl.length = 256 ∧ ∀ t, t < 256 → s'.ttl.getD t 0 = firsts (lastOf x.c last) C fun r => r.ttl.toNat = t := by
  have a := tells_at x s hs ds hd rs hrs oset first last hr s' hp
  obtain ⟨s0, af, af2, af3⟩ := a.fig
  have hcnt := a.cnt
  rw [← hC] at hcnt
  refine ⟨by rw [af.start, af3, tm_sched], ?_, ?_, ?_, ?_, ?_, af.ttlLen, ?_⟩
  · rw [a.endTime, ← tm_sched, show lastOf x.c last - 1 + 1 = lastOf x.c last by have := hr.1; omega]
  · have := af.min; rw [hcnt] at this; exact this
  · have := af.max; rw [hcnt] at this; exact this
  · have := af.sync; rw [hcnt] at this; exact this
  · have := af.err; rw [hcnt] at this; exact this
  · intro t ht
    rw [af.ttl t ht, hcnt, a.isLast]

/-- The example lasts from the time of its first packet to that of its last; the least delay is 1/8 s and the greatest 5/4 s. -/
example : statAll.startTime = 0xE0000001 <<< 32 ∧ statAll.endTime = 0xE0000004 <<< 32 ∧ statAll.min = 2 * 2 ^ 28 ∧ statAll.max = 20 * 2 ^ 28 ∧
    statAll.maxerr = 2 ^ 6 ∧ Spec.Receiver.schedTime statCfg.start.toNat statDelays 3 = 0xE0000004 <<< 32 := by
  have h := C65_figures statDemo _ _ .fresh statDelays stat_delays statRecords (by decide) 0 0 (2 ^ 32 - 1) stat_range stat_all _ rfl
  have h2 : statAll.endTime = Spec.Receiver.schedTime statCfg.start.toNat statDelays 3 := h.2.1
  have h3 : statAll.endTime = 0xE0000004 <<< 32 := by decide +kernel
  refine ⟨by decide +kernel, h3, by decide +kernel, by decide +kernel, by decide +kernel, ?_⟩
  rw [← h2]; exact h3

/-- The TTL value `t` occurs: some packet first came with it. -/
def TtlSeen (n : Nat) (rs : List DataRec) (t : Nat) : Prop := ∃ k r, k < n ∧ firstCopy rs k = some r ∧ r.ttl.toNat = t

instance (n : Nat) (rs : List DataRec) (t : Nat) : Decidable (TtlSeen n rs t) :=
  decidable_of_iff (0 < firsts n rs fun r => r.ttl.toNat = t) (by
    rw [firsts_pos]; unfold TtlSeen; simp)

/-- **C65** for the TTL line (partial: the number of different values is kept in 8 bits, so that all 256 of them count as none; see `C65_all_ttls`): if some
packet came, the least and greatest TTL are those that occur, and the number is that of the values that occur. -/
theorem C65_ttl_partial (x : StatSession) (s s' : Stats.St) (hs : Object x s) (rs : List DataRec) (hrs : rs.length < 2 ^ 32)
    (oset first last : Nat) (hr : x.Range first last) (hp : x.summary rs s oset first last = .ok s') (C : List DataRec) (hC : C = x.about first last rs)
    (n : Nat) (hn : n = lastOf x.c last) :
    (ttlStats s').1 = (packets 256 fun t => decide (TtlSeen n C t)) % 256 ∧
    ((∃ t, TtlSeen n C t) → TtlSeen n C (ttlStats s').2.1 ∧ TtlSeen n C (ttlStats s').2.2 ∧
      ∀ t, TtlSeen n C t → (ttlStats s').2.1 ≤ t ∧ t ≤ (ttlStats s').2.2) := by
  obtain ⟨ds, hd, _⟩ := tells x s hs rs hrs oset first last hr s' hp
  obtain ⟨_, _, _, _, _, _, hl, ht⟩ := C65_figures x s s' hs ds hd rs hrs oset first last hr hp C hC
  have hseen : ∀ t, t < 256 → (s'.ttl.getD t 0 ≠ 0 ↔ TtlSeen n C t) := by
    intro t h
    rw [ht t h, ← hn, Nat.ne_zero_iff_zero_lt, firsts_pos]
    unfold TtlSeen
    simp
  have hlt : ∀ t, TtlSeen n C t → t < 256 := by
    rintro t ⟨k, r, _, _, e⟩
    rw [← e]; exact r.ttl.isLt
  obtain ⟨a1, a2, a3, a4, a5, a6, a7⟩ := ttlLoop_spec s'.ttl 0 0 255 0 (by omega)
  refine ⟨?_, fun ⟨t0, h0⟩ => ?_⟩
  · unfold ttlStats
    rw [a1, countP_places, hl, Nat.zero_add]
    congr 1
    unfold packets
    apply List.countP_congr
    intro t htm
    rw [List.mem_range] at htm
    simp only [decide_eq_true_eq]
    exact hseen t htm
  · have b0 := hlt t0 h0
    have c0 := (hseen t0 b0).2 h0
    unfold ttlStats
    have lo : TtlSeen n C (ttlLoop s'.ttl 0 (0, 255, 0)).2.1 := by
      rcases a2 with e | ⟨t, t1, t2, t3⟩
      · have h5 := a4 t0 (by omega) c0
        have : t0 = 255 := by omega
        rw [e, ← this]; exact h0
      · rw [t3, Nat.zero_add]; exact (hseen t (by omega)).1 t2
    have hi : TtlSeen n C (ttlLoop s'.ttl 0 (0, 255, 0)).2.2 := by
      rcases a5 with e | ⟨t, t1, t2, t3⟩
      · have h5 := a7 t0 (by omega) c0
        have : t0 = 0 := by omega
        rw [e, ← this]; exact h0
      · rw [t3, Nat.zero_add]; exact (hseen t (by omega)).1 t2
    refine ⟨lo, hi, fun t htt => ?_⟩
    have b1 := hlt t htt
    have c1 := (hseen t b1).2 htt
    have := a4 t (by omega) c1
    have := a7 t (by omega) c1
    omega

/-- Two TTL values occur in the example. -/
example : ttlStats statAll = (2, 60, 61) ∧ TtlSeen 4 (statDemo.about 0 (2 ^ 32 - 1) statRecords) 60 := by
  have h0 : ∃ t, TtlSeen 4 (statDemo.about 0 (2 ^ 32 - 1) statRecords) t :=
    ⟨61, 1, came 1 32 34 61, by decide, by decide +kernel, by decide⟩
  have h : (_ ∧ _) := (C65_ttl_partial statDemo _ _ .fresh statRecords (by decide) 0 0 (2 ^ 32 - 1) stat_range stat_all _ rfl 4 rfl).2 h0
  have e : ttlStats statAll = (2, 60, 61) := by decide +kernel
  refine ⟨e, ?_⟩
  have := h.1
  rw [e] at this
  exact this

/-- C65 fails for the number of different TTL values when all occur: it is 0. -/
theorem C65_all_ttls (x : StatSession) (s s' : Stats.St) (hs : Object x s) (rs : List DataRec) (hrs : rs.length < 2 ^ 32)
    (oset first last : Nat) (hr : x.Range first last) (hp : x.summary rs s oset first last = .ok s')
    (hall : ∀ t, t < 256 → TtlSeen (lastOf x.c last) (x.about first last rs) t) :
    (ttlStats s').1 = 0 ∧ (packets 256 fun t => decide (TtlSeen (lastOf x.c last) (x.about first last rs) t)) = 256 := by
  have h := (C65_ttl_partial x s s' hs rs hrs oset first last hr hp _ rfl _ rfl).1
  have e : (packets 256 fun t => decide (TtlSeen (lastOf x.c last) (x.about first last rs) t)) = 256 := by
    unfold packets
    rw [List.countP_eq_length.2, List.length_range]
    intro t ht
    rw [List.mem_range] at ht
    simpa using hall t ht
  rw [e] at h
  exact ⟨h, e⟩

/-- A session of 256 packets without skips, and its records: packet `k` comes with TTL `k`. -/
def ttlDemo : StatSession where
  c := { statCfg with npackets := 256, skips := [] }
  sid := zeros 16
  slots := [.literal (1#64 <<< 32)]
  c0 := Sched.setup (zeros 16) ⟨256, [.literal (1#64 <<< 32)]⟩
  sched := by decide +kernel
  rlist := by decide
  data := by decide

def ttlRecords : List DataRec := (List.range 256).map fun k => came k (16 * k + 16) (16 * k + 17) (BitVec.ofNat 8 k)

def ttlAll : Stats.St := match ttlDemo.summary ttlRecords (Stats.create ttlDemo.c ttlDemo.c0) 0 0 256 with
  | .ok s => s
  | .error _ => Stats.create ttlDemo.c ttlDemo.c0

/-- All 256 TTL values occur in it, and none is reported. -/
example : (ttlStats ttlAll).1 = 0 ∧ ttlAll.sent = 256 := by
  have h : ttlDemo.summary ttlRecords (Stats.create ttlDemo.c ttlDemo.c0) 0 0 256 = .ok ttlAll := by decide +kernel
  have ha : ttlDemo.about 0 256 ttlRecords = ttlRecords := by
    have : ∀ r ∈ ttlRecords, r.seq.toNat < 256 := by decide +kernel
    unfold StatSession.about counted
    rw [List.filter_eq_self]
    intro r hr
    simp only [decide_eq_true_eq]
    exact ⟨⟨Nat.zero_le _, this r hr⟩, by rintro ⟨y, hy, _⟩; cases hy⟩
  refine ⟨(C65_all_ttls ttlDemo _ _ .fresh ttlRecords (by decide +kernel) 0 0 256 (by unfold StatSession.Range; decide +kernel) h ?_).1, by decide +kernel⟩
  rw [ha]
  intro t ht
  have : ∀ t, t < 256 → firstCopy ttlRecords t = some (came t (16 * t + 16) (16 * t + 17) (BitVec.ofNat 8 t)) := by decide +kernel
  exact ⟨t, _, ht, this t ht, by show (BitVec.ofNat 8 t).toNat = t; rw [BitVec.toNat_ofNat]; exact Nat.mod_eq_of_lt ht⟩

end Owamp.Props
