import Verif.Props.Hops
import Verif.Props.PrintTrip
/-!
# C101 to C103: the hops, medians and tables that are read about an undisturbed two-way session
-/
namespace Owamp.Props
open Owamp.Codec Owamp.Policy Owamp.Hops Owamp.Spec.Hops Owamp.Spec.RoundTrip
open Owamp.Spec.Receiver (stampOf)
open Owamp.Spec.Print (Says Silent Number WideTable NoTable)
open Owamp.Spec.Ports (decimal)
open Owamp.Print (Fmt Info)
open Owamp.Sizes (Family)

namespace TripRead

theorem any_packet (l : List TWDataRec) (l' : List Trip) (h : l.map told = l'.map truth) (r : TWDataRec) (p : Trip) (e : told r = truth p) :
    (l.any fun k => decide (Spec.TwStats.seqOf k = Spec.TwStats.seqOf r)) = l'.any fun k => decide (k.packet = p.packet) := by
  have h1 : (l.any fun k => decide (Spec.TwStats.seqOf k = Spec.TwStats.seqOf r)) = (l.map told).any fun t => decide (t.packet = (told r).packet) := by
    rw [List.any_map]; rfl
  have h2 : (l'.any fun k => decide (k.packet = p.packet)) = (l'.map truth).any fun t => decide (t.packet = (truth p).packet) := by
    rw [List.any_map]; rfl
  rw [h1, h2, h, e]

theorem folded : ∀ (D : List TWDataRec) (G : List Trip) (kept : List TWDataRec) (kept' : List Trip), D.map told = G.map truth → kept.map told = kept'.map truth →
    (D.foldl (fun kept r => if kept.any (fun k => Spec.TwStats.seqOf k = Spec.TwStats.seqOf r) then kept else kept ++ [r]) kept).map told =
      (G.foldl (fun kept p => if kept.any (fun k => k.packet = p.packet) then kept else kept ++ [p]) kept').map truth
  | [], [], _, _, _, hk => hk
  | [], _ :: _, _, _, h, _ => by cases h
  | _ :: _, [], _, _, h, _ => by cases h
  | r :: D, p :: G, kept, kept', h, hk => by
    have h1 : told r = truth p := (List.cons.inj h).1
    rw [List.foldl_cons, List.foldl_cons, any_packet kept kept' hk r p h1]
    apply folded D G _ _ (List.cons.inj h).2
    split
    · exact hk
    · rw [List.map_append, List.map_append, hk, List.map_singleton, List.map_singleton, h1]

theorem firsts_told (D : List TWDataRec) (G : List Trip) (h : D.map told = G.map truth) : (Spec.TwStats.firsts Spec.TwStats.seqOf D).map told = (firstTrips G).map truth :=
  folded D G [] [] h rfl

theorem through {α : Type} {A : List TWDataRec} {T : List Trip} (h : A.map told = T.map truth) (f : Told → α) : A.map (fun r => f (told r)) = T.map fun p => f (truth p) := by
  have := congrArg (List.map f) h
  rwa [List.map_map, List.map_map] at this

theorem all_through {A : List TWDataRec} {T : List Trip} (h : A.map told = T.map truth) (P : Told → Prop) : (∀ r ∈ A, P (told r)) ↔ ∀ p ∈ T, P (truth p) := by
  have e : ∀ {β : Type} (l : List β) (f : β → Told), (∀ x ∈ l, P (f x)) ↔ ∀ t ∈ l.map f, P t := by
    intro β l f
    simp
  rw [e A told, e T truth, h]

theorem count_through {A : List TWDataRec} {T : List Trip} (h : A.map told = T.map truth) (P : Told → Bool) : (A.countP fun r => P (told r)) = T.countP fun p => P (truth p) := by
  have := congrArg (List.countP P) h
  rwa [List.countP_map, List.countP_map] at this

theorem percentile_through (f : TWDataRec → Int) (A : List TWDataRec) (t : Rat) (b : Int) : IsPercentile f A t b ↔ PercentileOf (A.map f) t b := by
  have e : ∀ b, ((A.map f).countP fun x => decide (x ≤ b)) = upToB f A b := by
    intro b
    rw [List.countP_map]; rfl
  unfold IsPercentile PercentileOf
  simp only [e, List.mem_map, forall_exists_index, and_imp, forall_apply_eq_imp_iff₂]

theorem about (w : TwoEnds) (ds : List Nat) (ha : w.Agreed) (hu : w.Undisturbed ds) (hr : w.Reflecting) (hn : w.Network)
    (rs : List TWDataRec) (hrs : w.final.entries.map readBack = rs.map some) (c : TwStats.Cfg) (hc : c.npackets = w.z.c.npackets) :
    twAbout c 0 (2 ^ 32 - 1) rs = rs ∧ (Spec.TwStats.answered rs).map told = (firstTrips w.good).map truth := by
  obtain ⟨h1, h2, _⟩ := C98_told w ds ha hu hr hn rs hrs
  refine ⟨?_, firsts_told _ _ h1⟩
  unfold twAbout Spec.TwStats.within Spec.TwStats.lastOf
  rw [if_pos rfl, List.filter_eq_self, hc]
  intro r hr
  rw [decide_eq_true_eq]
  exact ⟨Nat.zero_le _, h2 r hr⟩

end TripRead
open TripRead

/-- **C103**, joined with C98: the two lines about hops tell of the TTLs with which the first reply in time of each packet, and the packet that it answers, came. What is missing is a way on which
all 256 TTLs were seen (`C103_all_ttls`). -/
theorem C103_trips_partial (w : TwoEnds) (ds : List Nat) (ha : w.Agreed) (hu : w.Undisturbed ds) (hr : w.Reflecting) (hn : w.Network)
    (rs : List TWDataRec) (hrs : w.final.entries.map readBack = rs.map some) (c : TwStats.Cfg) (hc : c.npackets = w.z.c.npackets)
    (Z : Print.Style) (i : Info) (ps : List (Rat × Bytes)) (L : List Bytes) (h : TwSummarised c rs 0 (2 ^ 32 - 1) Z i ps L) (T : List Trip) (hT : T = firstTrips w.good) :
    ∃ K l l', L = K ++ [l, l', []] ∧
    ((∃ t, t < 256 ∧ ∀ p ∈ T, p.ttlOut.toNat ≠ t) → HopsLine ['s','e','n','d',' '] (T.map fun p => p.ttlOut.toNat) l) ∧
    ((∃ t, t < 256 ∧ ∀ p ∈ T, p.ttlBack.toNat ≠ t) → HopsLine ['r','e','f','l','e','c','t',' '] (T.map fun p => p.ttlBack.toNat) l') := by
  obtain ⟨h1, h2⟩ := about w ds ha hu hr hn rs hrs c hc
  rw [← hT] at h2
  obtain ⟨K, l, l', e, a, b⟩ := C103_hops_partial c rs 0 (2 ^ 32 - 1) Z i ps L h (Spec.TwStats.answered rs) (by rw [h1])
  refine ⟨K, l, l', e, fun ⟨t, t1, t2⟩ => ?_, fun ⟨t, t1, t2⟩ => ?_⟩
  · have := a ⟨t, t1, (all_through h2 fun x => x.ttlOut.toNat ≠ t).2 t2⟩
    rwa [show (Spec.TwStats.answered rs).map (fun r => r.sent.ttl.toNat) = _ from through h2 fun x => x.ttlOut.toNat] at this
  · have := b ⟨t, t1, (all_through h2 fun x => x.ttlBack.toNat ≠ t).2 t2⟩
    rwa [show (Spec.TwStats.answered rs).map (fun r => r.reflected.ttl.toNat) = _ from through h2 fun x => x.ttlBack.toNat] at this

/-- **C102**, joined with C98: the least and greatest TTL of each way and the table of the TTLs are those with which the first reply in time of each packet, and the packet that it answers, came. What is
missing is a session with a way on which all 256 TTLs were seen. -/
theorem C102_trips_partial (w : TwoEnds) (ds : List Nat) (ha : w.Agreed) (hu : w.Undisturbed ds) (hr : w.Reflecting) (hn : w.Network)
    (rs : List TWDataRec) (hrs : w.final.entries.map readBack = rs.map some) (c : TwStats.Cfg) (hc : c.npackets = w.z.c.npackets)
    (F : Fmt) (i : Info) (L : List (List Bytes)) (h : TwReported c rs 0 (2 ^ 32 - 1) F i L) (T : List Trip) (hT : T = firstTrips w.good) (some_ : T ≠ [])
    (notAll : ∃ t, t < 256 ∧ ((∀ p ∈ T, p.ttlOut.toNat ≠ t) ∨ ∀ p ∈ T, p.ttlBack.toNat ≠ t)) :
    (∀ (e : List Char) (f : Trip → Nat), (e, f) ∈ [(['_','F','W','D'], fun p : Trip => p.ttlOut.toNat), (['_','B','C','K'], fun p => p.ttlBack.toNat)] →
      ∃ lo hi, Number L (['M','I','N','T','T','L'] ++ e) lo ∧ Number L (['M','A','X','T','T','L'] ++ e) hi ∧ (∃ p ∈ T, f p = lo) ∧ (∃ p ∈ T, f p = hi) ∧
        ∀ p ∈ T, lo ≤ f p ∧ f p ≤ hi) ∧
    WideTable L ['T','T','L','B','U','C','K','E','T','S']
      (((List.range 256).filter fun t => T.any fun p => decide (p.ttlOut.toNat = t ∨ p.ttlBack.toNat = t)).map fun (t : Nat) =>
        ((t : Int), [T.countP fun p => p.ttlOut.toNat = t, T.countP fun p => p.ttlBack.toNat = t])) := by
  obtain ⟨h1, h2⟩ := about w ds ha hu hr hn rs hrs c hc
  rw [← hT] at h2
  have hne : Spec.TwStats.answered rs ≠ [] := by
    intro e
    rw [e] at h2
    exact some_ (List.map_eq_nil_iff.1 h2.symm)
  obtain ⟨a, b⟩ := C102_ttls_partial c rs 0 (2 ^ 32 - 1) F i L h (Spec.TwStats.answered rs) (by rw [h1]) hne (by
    obtain ⟨t, t1, t2⟩ := notAll
    exact ⟨t, t1, t2.imp (all_through h2 fun x => x.ttlOut.toNat ≠ t).2 (all_through h2 fun x => x.ttlBack.toNat ≠ t).2⟩)
  have ex : ∀ (P : Told → Prop), (∃ r ∈ Spec.TwStats.answered rs, P (told r)) → ∃ p ∈ T, P (truth p) := by
    rintro P ⟨r, r1, r2⟩
    apply Classical.byContradiction
    intro hno
    exact (all_through h2 fun x => ¬ P x).2 (fun p hp hP => hno ⟨p, hp, hP⟩) r r1 r2
  refine ⟨?_, ?_⟩
  · intro e f hf
    simp only [List.mem_cons, Prod.mk.injEq, List.not_mem_nil, or_false] at hf
    rcases hf with ⟨rfl, rfl⟩ | ⟨rfl, rfl⟩
    · obtain ⟨lo, hi, b1, b2, b3, b4, b5⟩ := a ['_','F','W','D'] _ (List.mem_cons_self ..)
      exact ⟨lo, hi, b1, b2, ex (fun x => x.ttlOut.toNat = lo) b3, ex (fun x => x.ttlOut.toNat = hi) b4, (all_through h2 fun x => lo ≤ x.ttlOut.toNat ∧ x.ttlOut.toNat ≤ hi).1 b5⟩
    · obtain ⟨lo, hi, b1, b2, b3, b4, b5⟩ := a ['_','B','C','K'] _ (List.mem_cons_of_mem _ (List.mem_cons_self ..))
      exact ⟨lo, hi, b1, b2, ex (fun x => x.ttlBack.toNat = lo) b3, ex (fun x => x.ttlBack.toNat = hi) b4, (all_through h2 fun x => lo ≤ x.ttlBack.toNat ∧ x.ttlBack.toNat ≤ hi).1 b5⟩
  · have e1 : ∀ t : Nat, ((Spec.TwStats.answered rs).any fun r => decide (r.sent.ttl.toNat = t ∨ r.reflected.ttl.toNat = t)) =
        T.any fun p => decide (p.ttlOut.toNat = t ∨ p.ttlBack.toNat = t) := by
      intro t
      have := congrArg (List.any · fun x : Told => decide (x.ttlOut.toNat = t ∨ x.ttlBack.toNat = t)) h2
      simp only [List.any_map] at this
      exact this
    have e2 : ∀ t : Nat, ((Spec.TwStats.answered rs).countP fun r => r.sent.ttl.toNat = t) = T.countP fun p => p.ttlOut.toNat = t :=
      fun t => count_through h2 fun x => decide (x.ttlOut.toNat = t)
    have e3 : ∀ t : Nat, ((Spec.TwStats.answered rs).countP fun r => r.reflected.ttl.toNat = t) = T.countP fun p => p.ttlBack.toNat = t :=
      fun t => count_through h2 fun x => decide (x.ttlBack.toNat = t)
    simp only [e1, e2, e3] at b
    exact b

/-- **C102**, joined with C98: the histogram of the delays is that of the first trip in time of each packet; the medians are those of these trips, among the packets handed to the network. -/
theorem C102_trip_delays (w : TwoEnds) (ds : List Nat) (ha : w.Agreed) (hu : w.Undisturbed ds) (hr : w.Reflecting) (hn : w.Network)
    (rs : List TWDataRec) (hrs : w.final.entries.map readBack = rs.map some) (c : TwStats.Cfg) (h0 : 0 < w.z.c.npackets.toNat) (hc : c.npackets = w.z.c.npackets) (hsk : c.skips = [])
    (delay : U64 → U64 → Int) (hdel : ∀ a b, c.delay a b = delay a.owptime b.owptime)
    (F : Fmt) (i : Info) (L : List (List Bytes)) (h : TwReported c rs 0 (2 ^ 32 - 1) F i L) (T : List Trip) (hT : T = firstTrips w.good)
    (hm : ∀ alpha : Rat, ∀ n : Nat, 0 < alpha → 0 < n → 0 < F.mul alpha n)
    (sent : Nat) (hsent : sent = Spec.Stats.packets w.z.c.npackets.toNat fun k => decide (Spec.TwoWay.handed k w.final.calls ≠ []))
    (whole out back : Trip → Int) (h1 : whole = fun p => delay (stampOf p.sent) (stampOf p.back) - delay (stampOf p.came) (stampOf p.left))
    (h2 : out = fun p => delay (stampOf p.sent) (stampOf p.came)) (h3 : back = fun p => delay (stampOf p.left) (stampOf p.back)) :
    (T ≠ [] → ∃ rows, WideTable L ['B','U','C','K','E','T','S'] rows ∧ (rows.map (·.1)).Pairwise (· ≠ ·) ∧
      ∀ b ns, (b, ns) ∈ rows ↔ ns ≠ [0, 0, 0] ∧ ns = [T.countP fun p => c.bucket (whole p) = b, T.countP fun p => c.bucket (out p) = b, T.countP fun p => c.bucket (back p) = b]) ∧
    ∀ e f, (e, f) ∈ [(([] : List Char), whole), (['_','F','W','D'], out), (['_','B','C','K'], back)] →
      (∀ b, PercentileOf (T.map fun p => c.bucket (f p)) (F.mul (1 / 2) sent) b → Says L (['M','E','D','I','A','N'] ++ e) (F.bucket b)) ∧
      (∀ a b, PercentileOf (T.map fun p => c.bucket (f p)) (F.mul (95 / 100) sent) a → PercentileOf (T.map fun p => c.bucket (f p)) (F.mul (1 / 2) sent) b →
        Says L (['P','D','V'] ++ e) (F.spread a b)) := by
  obtain ⟨g1, g2⟩ := about w ds ha hu hr hn rs hrs c hc
  rw [← hT] at g2
  have hs : sent = (Spec.TwStats.firsts Spec.TwStats.seqOf rs).length := by
    obtain ⟨s, oset, hp, _⟩ := h.made
    have c1 := (C98_report w ds ha hu hr hn rs hrs h.size c h0 hc hsk oset s hp delay hdel).1
    have c2 := (C75_counts_partial c rs oset 0 (2 ^ 32 - 1) s h.range h.size h.clear h.once hp rs g1.symm).1
    rw [hsent, ← c1, c2]
  have k0 : ∀ r, Spec.TwStats.trip c r = (fun x : Told => delay x.sent x.back - delay x.came x.left) (told r) := by
    intro r
    unfold Spec.TwStats.trip Spec.TwStats.held
    rw [hdel, hdel]; rfl
  have k1 : ∀ r, Spec.TwStats.out c r = (fun x : Told => delay x.sent x.came) (told r) := fun r => hdel _ _
  have k2 : ∀ r, Spec.TwStats.back c r = (fun x : Told => delay x.left x.back) (told r) := fun r => hdel _ _
  have q0 : ∀ p, whole p = (fun x : Told => delay x.sent x.back - delay x.came x.left) (truth p) := fun p => by rw [h1]; rfl
  have q1 : ∀ p, out p = (fun x : Told => delay x.sent x.came) (truth p) := fun p => by rw [h2]; rfl
  have q2 : ∀ p, back p = (fun x : Told => delay x.left x.back) (truth p) := fun p => by rw [h3]; rfl
  have cnt : ∀ (f : TWDataRec → Int) (g : Trip → Int) (k : Told → Int), (∀ r, f r = k (told r)) → (∀ p, g p = k (truth p)) →
      (∀ b, ((Spec.TwStats.answered rs).countP fun r => c.bucket (f r) = b) = T.countP fun p => c.bucket (g p) = b) ∧
      ((Spec.TwStats.answered rs).map fun r => c.bucket (f r)) = T.map fun p => c.bucket (g p) := by
    intro f g k hf hg
    simp only [hf, hg]
    exact ⟨fun b => count_through g2 fun x => decide (c.bucket (k x) = b), through g2 fun x => c.bucket (k x)⟩
  have t0 := cnt (Spec.TwStats.trip c) whole (fun x => delay x.sent x.back - delay x.came x.left) k0 q0
  have t1 := cnt (Spec.TwStats.out c) out (fun x => delay x.sent x.came) k1 q1
  have t2 := cnt (Spec.TwStats.back c) back (fun x => delay x.left x.back) k2 q2
  refine ⟨fun hne => ?_, ?_⟩
  · have hne' : Spec.TwStats.answered rs ≠ [] := by
      intro e
      rw [e] at g2
      exact hne (List.map_eq_nil_iff.1 g2.symm)
    obtain ⟨rows, r1, r2, r3⟩ := (C102_histogram c rs 0 (2 ^ 32 - 1) F i L h (Spec.TwStats.answered rs) (by rw [g1])).1 hne'
    refine ⟨rows, r1, r2, fun b ns => ?_⟩
    rw [r3, t0.1, t1.1, t2.1]
  · have P := C102_percentiles c rs 0 (2 ^ 32 - 1) F i L h rs g1.symm (fun a => F.mul a sent) (fun a => by rw [hs]) hm
    have one : ∀ e (f : TWDataRec → Int) (g : Trip → Int), ((Spec.TwStats.answered rs).map fun r => c.bucket (f r)) = T.map (fun p => c.bucket (g p)) → (e, f) ∈ (twDelays c).take 3 →
        (∀ b, PercentileOf (T.map fun p => c.bucket (g p)) (F.mul (1 / 2) sent) b → Says L (['M','E','D','I','A','N'] ++ e) (F.bucket b)) ∧
        (∀ a b, PercentileOf (T.map fun p => c.bucket (g p)) (F.mul (95 / 100) sent) a → PercentileOf (T.map fun p => c.bucket (g p)) (F.mul (1 / 2) sent) b →
          Says L (['P','D','V'] ++ e) (F.spread a b)) := by
      intro e f g hfg hm
      obtain ⟨p1, _, p3, _⟩ := P e f hm
      rw [← hfg]
      exact ⟨fun b hb => p1 b ((percentile_through _ _ _ _).2 hb), fun a b h1 h2 => p3 a b ((percentile_through _ _ _ _).2 h1) ((percentile_through _ _ _ _).2 h2)⟩
    intro e f hf
    simp only [List.mem_cons, Prod.mk.injEq, List.not_mem_nil, or_false] at hf
    rcases hf with ⟨rfl, rfl⟩ | ⟨rfl, rfl⟩ | ⟨rfl, rfl⟩
    · exact one _ _ _ t0.2 (by simp [twDelays])
    · exact one _ _ _ t1.2 (by simp [twDelays])
    · exact one _ _ _ t2.2 (by simp [twDelays])

/-! ## Hops -/

/-- Every datagram that comes from the client to the reflector left the client's prepared socket, and passed `out p` routers, when it came in the pass `p`; every datagram that comes to the client left
the reflector's prepared socket and passed `back t` routers, when it came in the pass `t`. -/
structure TwoEnds.Path (w : TwoEnds) (big : Bool) (wd : Nat) (af : Family) (lc ls : List SockOpt) (out : Refl.Pass → Nat) (back : TwoWay.Tick → Nat) : Prop where
  there : ∀ p ∈ w.ps, ∀ bytes ttl i, p.got = .dgram w.x.remote bytes ttl i → Met big wd af lc ls w.x.cfg.len p.got (out p)
  home : ∀ t ∈ w.ts, ∀ peer bytes ttl i, t.got = .dgram peer bytes ttl i → ∃ len, Met big wd af ls lc len t.got (back t)

/-- **C101**, two-way, the trips: of every trip in time, the TTLs are what the routers on the way out and on the way back left of 255. -/
theorem C101_trips (w : TwoEnds) (hr : w.Reflecting) (osc oss : Os) (sc ss : Bool) (af : Family) (mode padding typeP mode' padding' typeP' : U32) (lc ls : List SockOpt)
    (hc : prepare osc true sc af mode padding typeP = some lc) (hs : prepare oss true ss af mode' padding' typeP' = some ls)
    (big : Bool) (wd : Nat) (hw : 4 ≤ wd) (out : Refl.Pass → Nat) (back : TwoWay.Tick → Nat) (hpath : w.Path big wd af lc ls out back) :
    ∀ p ∈ w.good,
      (∃ q ∈ w.ps, (∃ bytes i r, q.got = .dgram w.x.remote bytes p.ttlOut i ∧ q.clock = some r ∧ r.time = p.came) ∧ p.ttlOut.toNat + out q = 255 ∧ 0 < p.ttlOut.toNat) ∧
      ∃ t ∈ w.ts, (∃ peer bytes i r, t.got = .dgram peer bytes p.ttlBack i ∧ t.clock = some r ∧ r.time = p.back) ∧ p.ttlBack.toNat + back t = 255 ∧ 0 < p.ttlBack.toNat := by
  intro p hp
  obtain ⟨t, t1, ht⟩ := List.mem_filterMap.1 (List.mem_filter.1 hp).1
  unfold trip at ht
  split at ht
  · next peer bytes ttl i r hgot hclock =>
    obtain ⟨y, y1, y2⟩ := Option.bind_eq_some_iff.1 ht
    obtain ⟨q, q1, q2⟩ := Option.map_eq_some_iff.1 y2
    subst q2
    obtain ⟨len, hmet⟩ := hpath.home t t1 _ _ _ _ hgot
    have hb := met_ttl hw ((C101_sockets _ _ _ _ _ _ _ _ hs).2.1 (Or.inl rfl)) ((C101_sockets _ _ _ _ _ _ _ _ hc).2.2.1 (Or.inl rfl)) hmet hgot
    refine ⟨?_, t, t1, ⟨_, _, _, r, hgot, hclock, rfl⟩, hb⟩
    have hy : y ∈ w.replies := List.mem_of_find?_eq_some y1
    obtain ⟨a1, a2⟩ := C71_answered w.x hr.ok w.ps
    obtain ⟨z, z1, z2⟩ := List.mem_filterMap.1 (a1.subset (List.mem_map.2 ⟨y, hy, rfl⟩))
    have hd := a2 y (List.mem_of_mem_filter hy)
    unfold Spec.Reflector.arrival at z2
    split at z2
    · next peer' bytes' ttl' i' r' hgot' hclock' =>
      have e := Option.some.inj z2
      have e1 : peer' = w.x.remote := (congrArg Spec.Reflector.Arrived.peer e).trans hd
      have e2 : ttl' = y.ttl := congrArg Spec.Reflector.Arrived.ttl e
      have e3 : r'.time = y.came := congrArg Spec.Reflector.Arrived.at' e
      subst e1 e2
      exact ⟨z, z1, ⟨_, _, r', hgot', hclock', e3⟩,
        met_ttl hw ((C101_sockets _ _ _ _ _ _ _ _ hc).2.1 (Or.inl rfl)) ((C101_sockets _ _ _ _ _ _ _ _ hs).2.2.1 (Or.inl rfl)) (hpath.there z z1 _ _ _ hgot') hgot'⟩
    · cases z2
  · cases ht

private theorem mem_firsts {l : List Trip} {p : Trip} (h : p ∈ firstTrips l) : p ∈ l := by
  have key : ∀ (l kept : List Trip), ∀ q ∈ l.foldl (fun kept p => if kept.any (fun k => k.packet = p.packet) then kept else kept ++ [p]) kept, q ∈ kept ∨ q ∈ l := by
    intro l
    induction l with
    | nil => exact fun kept q hq => Or.inl hq
    | cons a l ih =>
      intro kept q hq
      rw [List.foldl_cons] at hq
      rcases ih _ q hq with h | h
      · split at h
        · exact Or.inl h
        · rcases List.mem_append.1 h with h | h
          · exact Or.inl h
          · rw [List.mem_singleton] at h
            exact Or.inr (by rw [h]; exact List.mem_cons_self ..)
      · exact Or.inr (List.mem_cons_of_mem _ h)
  rcases key l [] p h with h | h
  · cases h
  · exact h

private theorem firsts_ne {l : List Trip} (h : l ≠ []) : firstTrips l ≠ [] := by
  have key : ∀ (l kept : List Trip), kept ≠ [] → l.foldl (fun kept p => if kept.any (fun k => k.packet = p.packet) then kept else kept ++ [p]) kept ≠ [] := by
    intro l
    induction l with
    | nil => exact fun kept h => h
    | cons a l ih =>
      intro kept hk
      rw [List.foldl_cons]
      apply ih
      split
      · exact hk
      · simp
  cases l with
  | nil => exact absurd rfl h
  | cons a l => exact key l [a] (by simp)

/-- **C101**, two-way, what is read: when a reply in time came, and all packets of an undisturbed two-way session between prepared ends pass `K` routers on the way out, the summary that people read says
that the hops of sending are `K`, consistently, and the report that programs read has 255 less `K` as least and as greatest TTL forward; and the same for the replies and the way back. -/
theorem C101_read_tw (w : TwoEnds) (ds : List Nat) (ha : w.Agreed) (hu : w.Undisturbed ds) (hr : w.Reflecting) (hn : w.Network)
    (rs : List TWDataRec) (hrs : w.final.entries.map readBack = rs.map some) (c : TwStats.Cfg) (hc : c.npackets = w.z.c.npackets)
    (osc oss : Os) (sc ss : Bool) (af : Family) (mode padding typeP mode' padding' typeP' : U32) (lc ls : List SockOpt)
    (hpc : prepare osc true sc af mode padding typeP = some lc) (hps : prepare oss true ss af mode' padding' typeP' = some ls)
    (big : Bool) (wd : Nat) (hw : 4 ≤ wd) (out : Refl.Pass → Nat) (back : TwoWay.Tick → Nat) (hpath : w.Path big wd af lc ls out back) (hne : w.good ≠ []) :
    (∀ Z i ps L, TwSummarised c rs 0 (2 ^ 32 - 1) Z i ps L → ∃ M l l', L = M ++ [l, l', []] ∧
      (∀ K, (∀ p ∈ w.ps, out p = K) → l = text ['s','e','n','d',' ','h','o','p','s',' ','=',' '] ++ decimal K ++ text [' ','(','c','o','n','s','i','s','t','e','n','t','l','y',')']) ∧
      (∀ K, (∀ t ∈ w.ts, back t = K) →
        l' = text ['r','e','f','l','e','c','t',' ','h','o','p','s',' ','=',' '] ++ decimal K ++ text [' ','(','c','o','n','s','i','s','t','e','n','t','l','y',')'])) ∧
    ∀ F i L, TwReported c rs 0 (2 ^ 32 - 1) F i L →
      (∀ K, (∀ p ∈ w.ps, out p = K) → Number L ['M','I','N','T','T','L','_','F','W','D'] (255 - K) ∧ Number L ['M','A','X','T','T','L','_','F','W','D'] (255 - K)) ∧
      (∀ K, (∀ t ∈ w.ts, back t = K) → Number L ['M','I','N','T','T','L','_','B','C','K'] (255 - K) ∧ Number L ['M','A','X','T','T','L','_','B','C','K'] (255 - K)) := by
  have ht := C101_trips w hr osc oss sc ss af mode padding typeP mode' padding' typeP' lc ls hpc hps big wd hw out back hpath
  have ho : ∀ p ∈ firstTrips w.good, 0 < p.ttlOut.toNat ∧ 0 < p.ttlBack.toNat := by
    intro p hp
    obtain ⟨⟨_, _, _, _, h1⟩, _, _, _, _, h2⟩ := ht p (mem_firsts hp)
    exact ⟨h1, h2⟩
  have hK : ∀ K, (∀ p ∈ w.ps, out p = K) → K ≤ 255 ∧ ∀ p ∈ firstTrips w.good, p.ttlOut.toNat = 255 - K := by
    intro K hK
    have : ∀ p ∈ firstTrips w.good, p.ttlOut.toNat + K = 255 := by
      intro p hp
      obtain ⟨⟨q, q1, _, h1, _⟩, _⟩ := ht p (mem_firsts hp)
      rwa [hK q q1] at h1
    obtain ⟨p, hp⟩ := List.exists_mem_of_ne_nil _ (firsts_ne hne)
    exact ⟨by have := this p hp; omega, fun q hq => by have := this q hq; omega⟩
  have hB : ∀ K, (∀ t ∈ w.ts, back t = K) → K ≤ 255 ∧ ∀ p ∈ firstTrips w.good, p.ttlBack.toNat = 255 - K := by
    intro K hK
    have : ∀ p ∈ firstTrips w.good, p.ttlBack.toNat + K = 255 := by
      intro p hp
      obtain ⟨_, t, t1, _, h1, _⟩ := ht p (mem_firsts hp)
      rwa [hK t t1] at h1
    obtain ⟨p, hp⟩ := List.exists_mem_of_ne_nil _ (firsts_ne hne)
    exact ⟨by have := this p hp; omega, fun q hq => by have := this q hq; omega⟩
  constructor
  · intro Z i ps L hL
    obtain ⟨M, l, l', e, a, b⟩ := C103_trips_partial w ds ha hu hr hn rs hrs c hc Z i ps L hL _ rfl
    have a := a ⟨0, by omega, fun p hp => by have := (ho p hp).1; omega⟩
    have b := b ⟨0, by omega, fun p hp => by have := (ho p hp).2; omega⟩
    refine ⟨M, l, l', e, fun K h => ?_, fun K h => ?_⟩
    · obtain ⟨k1, k2⟩ := hK K h
      obtain ⟨p, hp⟩ := List.exists_mem_of_ne_nil _ (firsts_ne hne)
      have := a.one (255 - K) (List.mem_map.2 ⟨p, hp, k2 p hp⟩) (fun t' ht' => by obtain ⟨q, q1, q2⟩ := List.mem_map.1 ht'; rw [← q2]; exact k2 q q1)
      rw [this, show 255 - (255 - K) = K by omega]
      rfl
    · obtain ⟨k1, k2⟩ := hB K h
      obtain ⟨p, hp⟩ := List.exists_mem_of_ne_nil _ (firsts_ne hne)
      have := b.one (255 - K) (List.mem_map.2 ⟨p, hp, k2 p hp⟩) (fun t' ht' => by obtain ⟨q, q1, q2⟩ := List.mem_map.1 ht'; rw [← q2]; exact k2 q q1)
      rw [this, show 255 - (255 - K) = K by omega]
      rfl
  · intro F i L hL
    obtain ⟨a, _⟩ := C102_trips_partial w ds ha hu hr hn rs hrs c hc F i L hL _ rfl (firsts_ne hne) ⟨0, by omega, Or.inl fun p hp => by have := (ho p hp).1; omega⟩
    refine ⟨fun K h => ?_, fun K h => ?_⟩
    · obtain ⟨_, k2⟩ := hK K h
      obtain ⟨lo, hi, b1, b2, ⟨p, p1, p2⟩, ⟨q, q1, q2⟩, _⟩ := a ['_','F','W','D'] _ (List.mem_cons_self ..)
      have e1 : lo = 255 - K := p2.symm.trans (k2 p p1)
      have e2 : hi = 255 - K := q2.symm.trans (k2 q q1)
      subst e1 e2
      exact ⟨b1, b2⟩
    · obtain ⟨_, k2⟩ := hB K h
      obtain ⟨lo, hi, b1, b2, ⟨p, p1, p2⟩, ⟨q, q1, q2⟩, _⟩ := a ['_','B','C','K'] _ (List.mem_cons_of_mem _ (List.mem_cons_self ..))
      have e1 : lo = 255 - K := p2.symm.trans (k2 p p1)
      have e2 : hi = 255 - K := q2.symm.trans (k2 q q1)
      subst e1 e2
      exact ⟨b1, b2⟩

/-! ## Concrete cases -/

/-- The session of C98: the packets of the first replies in time came with TTLs 63 and 62, these replies with 61. -/
theorem loop_firsts : (firstTrips loop.good).map (fun p => (p.packet, p.ttlOut.toNat, p.ttlBack.toNat)) = [(0, 63, 61), (1, 62, 61)] := by decide +kernel

/-- The options of both ends over IPv4. -/
def loopOpts : List SockOpt := [⟨0, 12, 1⟩, ⟨1, 7, 197⟩, ⟨0, 2, 255⟩]

theorem loop_prepared : prepare demoOs true true .inet 1 0 0 = some loopOpts ∧ prepare demoOs true false .inet 1 0 0 = some loopOpts := by decide +kernel

private theorem loop_met (peer b : Bytes) (t : Nat) (i : Bool) (len : Nat) (h0 : 0 < t) (ht : t < 256) : Met false 8 .inet loopOpts loopOpts len (.dgram peer b (BitVec.ofNat 8 t) i) (255 - t) := by
  have arr : Arrives false 8 .inet loopOpts peer b t ⟨peer, b, [⟨0, 2, cint false t⟩], false⟩ := by
    refine ⟨rfl, rfl, Or.inl ⟨?_, ⟨0, 2, cint false t⟩, .linux, ?_⟩⟩
    · show setting loopOpts 0 12 = some 1
      decide
    · show place 8 (ctlRoom 8) [⟨0, 2, cint false t⟩] = ([⟨0, 2, cint false t⟩], false)
      rfl
  refine ⟨i, some ⟨peer, b, [⟨0, 2, cint false t⟩], false⟩, ?_, fun d hd => ?_⟩
  · have e := C101_told false 8 (by decide) .inet loopOpts (by show setting loopOpts 0 12 = some 1; decide) peer b t ht _ arr len
    unfold Hops.got
    dsimp only
    rw [e, if_neg (by omega)]
  · cases hd
    refine ⟨255, t, by decide, by decide, ?_, arr⟩
    unfold remains
    rw [if_pos (by omega)]
    congr 1
    omega

/-- How many routers a datagram passed, by its TTL. -/
def loopOut (p : Refl.Pass) : Nat := match p.got with
  | .dgram _ _ ttl _ => 255 - ttl.toNat
  | _ => 0

/-- Non-vacuity: the session of C98; its packets pass 192, 193 or 195 routers on the way out and its replies 194 on the way back. -/
theorem loop_path : loop.Path false 8 .inet loopOpts loopOpts loopOut fun _ => 194 where
  there := by
    intro p hp bytes ttl i hgot
    simp only [loop, loopPasses, List.mem_cons, List.not_mem_nil, or_false] at hp
    rcases hp with rfl | rfl | rfl | rfl | rfl
    · exact loop_met _ _ 63 _ _ (by decide) (by decide)
    · exact loop_met _ _ 61 _ _ (by decide) (by decide)
    · exact loop_met _ _ 62 _ _ (by decide) (by decide)
    · exact loop_met _ _ 60 _ _ (by decide) (by decide)
    · exact loop_met _ _ 63 _ _ (by decide) (by decide)
  home := by
    intro t ht peer bytes ttl i hgot
    simp only [loop, loopTicks, List.mem_cons, List.not_mem_nil, or_false] at ht
    refine ⟨14, ?_⟩
    rcases ht with rfl | rfl | rfl | rfl | rfl | rfl | rfl | rfl | rfl | rfl | rfl
    · cases hgot
    · cases hgot
    · exact loop_met _ _ 61 _ _ (by decide) (by decide)
    · exact loop_met _ _ 61 _ _ (by decide) (by decide)
    · cases hgot
    · cases hgot
    · exact loop_met _ _ 61 _ _ (by decide) (by decide)
    · exact loop_met _ _ 61 _ _ (by decide) (by decide)
    · cases hgot
    · cases hgot
    · exact loop_met _ _ 61 _ _ (by decide) (by decide)

private theorem loop_read : loop.final.entries.map readBack = loopRecords.map some := by decide +kernel

private theorem loop_once : Spec.TwStats.LossOnce (twAbout { twDemo with npackets := 3 } 0 (2 ^ 32 - 1) loopRecords) := by
  unfold Spec.TwStats.LossOnce; decide +kernel

private theorem loop_range : TwRange { twDemo with npackets := 3 } 0 (2 ^ 32 - 1) := by unfold TwRange; decide +kernel

/-- People read that the hops of sending take two values, 192 and 193, and that those of the replies are 194. -/
example : ∃ M, twText { twDemo with npackets := 3 } loopRecords [] = M ++
    [text ['s','e','n','d',' ','h','o','p','s',' ','t','a','k','e','s',' ','2',' ','v','a','l','u','e','s',';',' ','m','i','n',' ','h','o','p','s',' ','=',' ','1','9','2',',',' ',
      'm','a','x',' ','h','o','p','s',' ','=',' ','1','9','3'],
     text ['r','e','f','l','e','c','t',' ','h','o','p','s',' ','=',' ','1','9','4',' ','(','c','o','n','s','i','s','t','e','n','t','l','y',')'], []] := by
  have hs : TwSummarised { twDemo with npackets := 3 } loopRecords 0 (2 ^ 32 - 1) demoStyle demoInfo [] (twText { twDemo with npackets := 3 } loopRecords []) :=
    twText_summarised _ _ _ (by decide +kernel) (by decide +kernel) loop_range rfl loop_once nofun
  have hf : (firstTrips loop.good).map (fun p => p.ttlOut.toNat) = [63, 62] := by decide +kernel
  obtain ⟨M, l, l', e, a, _⟩ := C103_trips_partial loop loopDelays loop_agreed loop_undisturbed loop_reflecting loop_network loopRecords loop_read { twDemo with npackets := 3 } rfl
    demoStyle demoInfo [] _ hs _ rfl
  obtain ⟨M', m, m', e', _, b⟩ := (C101_read_tw loop loopDelays loop_agreed loop_undisturbed loop_reflecting loop_network loopRecords loop_read { twDemo with npackets := 3 } rfl
    demoOs demoOs true false .inet 1 0 0 1 0 0 loopOpts loopOpts loop_prepared.1 loop_prepared.2 false 8 (by decide) loopOut (fun _ => 194) loop_path (by
      intro h
      have := congrArg List.length h
      rw [show loop.good.length = 4 by decide +kernel] at this
      cases this)).1 demoStyle demoInfo [] _ hs
  have same : M = M' ∧ [l, l', []] = [m, m', []] := List.append_inj' (e.symm.trans e') rfl
  have hl' : l' = m' := by
    have := same.2
    injection this with _ h
    injection h
  have a := a ⟨0, by decide, fun p hp => by
    have : p.ttlOut.toNat ∈ (firstTrips loop.good).map (fun p => p.ttlOut.toNat) := List.mem_map.2 ⟨p, hp, rfl⟩
    rw [hf] at this
    simp at this
    omega⟩
  rw [hf] at a
  have hl := a.more 62 (by decide) 63 (by decide) (by decide) (by decide)
  have hb := b 194 fun _ _ => rfl
  refine ⟨M, ?_⟩
  rw [e, hl', hl, hb]
  congr 1
  decide +kernel

/-- A program reads 61 as TTL back, and 62 and 63 as least and greatest TTL forward. -/
example : Number (twLines { twDemo with npackets := 3 } loopRecords) ['M','I','N','T','T','L','_','B','C','K'] 61 ∧
    ∃ lo hi, Number (twLines { twDemo with npackets := 3 } loopRecords) ['M','I','N','T','T','L','_','F','W','D'] lo ∧
      Number (twLines { twDemo with npackets := 3 } loopRecords) ['M','A','X','T','T','L','_','F','W','D'] hi ∧ lo = 62 ∧ hi = 63 := by
  have hs : TwReported { twDemo with npackets := 3 } loopRecords 0 (2 ^ 32 - 1) demoFmt demoInfo (twLines { twDemo with npackets := 3 } loopRecords) :=
    twLines_reported _ _ (by decide +kernel) (by decide +kernel) loop_range rfl loop_once
  have hne : loop.good ≠ [] := by
    intro h
    have := congrArg List.length h
    rw [show loop.good.length = 4 by decide +kernel] at this
    cases this
  have hf : (firstTrips loop.good).map (fun p => p.ttlOut.toNat) = [63, 62] := by decide +kernel
  have hin : ∀ p ∈ firstTrips loop.good, p.ttlOut.toNat = 63 ∨ p.ttlOut.toNat = 62 := by
    intro p hp
    have : p.ttlOut.toNat ∈ (firstTrips loop.good).map (fun p => p.ttlOut.toNat) := List.mem_map.2 ⟨p, hp, rfl⟩
    rw [hf] at this
    simpa using this
  refine ⟨(((C101_read_tw loop loopDelays loop_agreed loop_undisturbed loop_reflecting loop_network loopRecords loop_read { twDemo with npackets := 3 } rfl
    demoOs demoOs true false .inet 1 0 0 1 0 0 loopOpts loopOpts loop_prepared.1 loop_prepared.2 false 8 (by decide) loopOut (fun _ => 194) loop_path hne).2 demoFmt demoInfo _ hs).2 194
    fun _ _ => rfl).1, ?_⟩
  obtain ⟨a, _⟩ := C102_trips_partial loop loopDelays loop_agreed loop_undisturbed loop_reflecting loop_network loopRecords loop_read { twDemo with npackets := 3 } rfl demoFmt demoInfo _ hs _ rfl
    (firsts_ne hne) ⟨0, by decide, Or.inl fun p hp => by have := hin p hp; omega⟩
  obtain ⟨lo, hi, b1, b2, ⟨p, p1, p2⟩, ⟨q, q1, q2⟩, b5⟩ := a ['_','F','W','D'] _ (List.mem_cons_self ..)
  have m63 : (63 : Nat) ∈ (firstTrips loop.good).map (fun p => p.ttlOut.toNat) := by rw [hf]; decide
  have m62 : (62 : Nat) ∈ (firstTrips loop.good).map (fun p => p.ttlOut.toNat) := by rw [hf]; decide
  obtain ⟨x, x1, x2⟩ := List.mem_map.1 m63
  obtain ⟨y, y1, y2⟩ := List.mem_map.1 m62
  have e1 := b5 x x1
  have e2 := b5 y y1
  have e3 := hin p p1
  have e4 := hin q q1
  exact ⟨lo, hi, b1, b2, by omega, by omega⟩

/-- The median of the delays back is that of the two first trips, one of which took less than a sixteenth of a second; two of three packets have one. -/
example : Says (twLines { twDemo with npackets := 3 } loopRecords) ['M','E','D','I','A','N','_','B','C','K'] (demoFmt.bucket 1) := by
  have hs : TwReported { twDemo with npackets := 3 } loopRecords 0 (2 ^ 32 - 1) demoFmt demoInfo (twLines { twDemo with npackets := 3 } loopRecords) :=
    twLines_reported _ _ (by decide +kernel) (by decide +kernel) loop_range rfl loop_once
  have h := (C102_trip_delays loop loopDelays loop_agreed loop_undisturbed loop_reflecting loop_network loopRecords loop_read { twDemo with npackets := 3 } (by decide) rfl rfl
    (fun a b => (b.toNat : Int) - a.toNat) (fun _ _ => rfl) demoFmt demoInfo _ hs _ rfl (fun a n ha hn => Rat.mul_pos ha (by exact_mod_cast hn)) 3 (by decide +kernel) _ _ _ rfl rfl rfl).2
    ['_','B','C','K'] (fun p => ((stampOf p.back).toNat : Int) - (stampOf p.left).toNat) (List.mem_cons_of_mem _ (List.mem_cons_of_mem _ (List.mem_cons_self ..)))
  refine h.1 1 ?_
  unfold PercentileOf
  decide +kernel

end Owamp.Props
