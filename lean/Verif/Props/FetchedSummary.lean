import Verif.Props.Fetch
import Verif.Props.Summary
/-!
# C109: the summary of what was fetched is the summary of what the server has
-/
namespace Owamp.Props
open Owamp.Codec Owamp.Ctl Owamp.File Owamp.Fetch Owamp.Spec.DataFile Owamp.Spec.Channel Owamp.Spec.Fetch Owamp.Spec.Request
open Owamp.Stats Owamp.Spec.Stats StatSession

/-- The same session, in a file whose records are elsewhere. -/
def StatSession.moved (x : StatSession) (o : Nat) (ho : 0 < o) : StatSession :=
  { c := { x.c with osetData := o }, sid := x.sid, slots := x.slots, c0 := x.c0, sched := x.sched, rlist := x.rlist, data := ho }

/-- The session of a file: all that `OWPStatsCreate` (stats.c:656-937) takes from the file and its header. -/
structure SessionOf (x : StatSession) (f : Bytes) (hd : File.Header) : Prop where
  pre : ∃ p, hd.pre = some p ∧ x.sid = p.sid ∧ x.c.npackets = p.npackets ∧ x.c.start = p.startTime ∧ x.c.timeout = p.lossTimeout ∧
    File.readSlots f p.nslots = some x.slots
  skips : readSkips f hd.nskip = some x.c.skips
  data : hd.osetData = (x.c.osetData : Int)
  size : hd.recSize = x.c.recSize

/-- The session of the header given to `OWPWriteDataHeader`, with these skip ranges. -/
structure SessionIn (x : StatSession) (h : HdrIn) (skips : List Skip) : Prop where
  sid : x.sid = h.sid
  npackets : x.c.npackets = h.spec.npackets
  start : x.c.start = h.spec.startTime
  timeout : x.c.timeout = h.spec.lossTimeout
  slots : x.slots = h.spec.slots
  skips : x.c.skips = skips

namespace FetchedSum

/-- As `StatSession.agree`, for the records of two files. -/
theorem agree_moved (x : StatSession) (o : Nat) (h0 : 0 < o) (rs rs' : List DataRec) (hrs : rs.length < 2 ^ 32) (hrs' : rs'.length < 2 ^ 32) (h1 : LostOnce rs)
    (h1' : LostOnce rs') (first last : Nat) (hr : x.Range first last) (hsame : x.about first last rs = x.about first last rs')
    (s t s' t' : Stats.St) (hs : Object x s) (ht : Object (x.moved o h0) t) (oset oset' : Nat)
    (hp : x.summary rs s oset first last = .ok s') (hq : (x.moved o h0).summary rs' t oset' first last = .ok t') : SameReport t' s' := by
  obtain ⟨ds, d1, d2, d3⟩ := C06_schedule x.c.E x.sid _ x.c0 x.sched
  have hd : x.Delays ds := ⟨d3, d2⟩
  have hr' : (x.moved o h0).Range first last := hr
  have hsame' : x.about first last rs = (x.moved o h0).about first last rs' := hsame
  have a := tells_at x s hs ds hd rs hrs oset first last hr s' hp
  have b := tells_at (x.moved o h0) t ht ds hd rs' hrs' oset' first last hr' t' hq
  have bc := b.cnt
  rw [← hsame'] at bc
  obtain ⟨s0, af, af2, af3⟩ := a.fig
  obtain ⟨t0, bf, bf2, bf3⟩ := b.fig
  have ca := C50_counts x s s' hs rs hrs oset first last hr h1 hp
  have cb := C50_counts (x.moved o h0) t t' ht rs' hrs' oset' first last hr' h1' hq
  rw [← hsame'] at cb
  have eqList : ∀ (l m : List Nat) (n : Nat), l.length = n → m.length = n → (∀ i, i < n → l.getD i 0 = m.getD i 0) → l = m := by
    intro l m n hl hm h
    apply List.ext_getElem (by omega)
    intro i h1 h2
    have := h i (by omega)
    rw [List.getD_eq_getElem?_getD, List.getD_eq_getElem?_getD, List.getElem?_eq_getElem h1, List.getElem?_eq_getElem h2] at this
    exact this
  refine ⟨(ca.1.trans cb.1.symm).symm, (ca.2.1.trans cb.2.1.symm).symm, (ca.2.2.1.trans cb.2.2.1.symm).symm, ?_, ?_, ?_, ?_, ?_, ?_, ?_, ?_, ?_⟩
  · obtain ⟨r1, r2⟩ := C52_reordering x s s' hs rs hrs oset first last hr hp
    obtain ⟨r3, r4⟩ := C52_reordering (x.moved o h0) t t' ht rs' hrs' oset' first last hr' hq
    exact eqList _ _ _ r3 r1 fun i hi => by rw [r2 i hi, r4 i hi, hsame']
  · refine eqList _ _ 256 bf.ttlLen af.ttlLen fun i hi => ?_
    rw [af.ttl i hi, bf.ttl i hi, a.cnt, bc, a.isLast, b.isLast]; rfl
  · have := af.min; rw [a.cnt] at this
    have h' := bf.min; rw [bc] at h'
    exact least_unique h' this
  · have := af.max; rw [a.cnt] at this
    have h' := bf.max; rw [bc] at h'
    exact greatest_unique h' this
  · have := af.sync; rw [a.cnt] at this
    have h' := bf.sync; rw [bc] at h'
    exact Bool.eq_iff_iff.2 (h'.trans this.symm)
  · have := af.err; rw [a.cnt] at this
    have h' := bf.err; rw [bc] at h'
    exact Int.ofNat.inj (greatest_unique h' this)
  · rw [af.start, bf.start, af3, bf3]; rfl
  · rw [a.endTime, b.endTime]; rfl
  · intro mul alpha
    have p1 := (C51_percentile x s s' hs rs hrs oset first last hr h1 hp mul alpha _ _ _ rfl rfl rfl).1
    have p2 := (C51_percentile (x.moved o h0) t t' ht rs' hrs' oset' first last hr' h1' hq mul alpha _ _ _ hsame' rfl rfl).1
    exact Option.ext fun b => (p2 b).trans (p1 b).symm

theorem about_inRange (x : StatSession) (first last : U32) (rs : List DataRec) :
    x.about first.toNat (last.toNat + 1) rs = x.about first.toNat (last.toNat + 1) (inRange first last rs) := by
  unfold StatSession.about counted inRange
  rw [List.filter_filter]
  apply List.filter_congr
  intro r _
  have hn := x.c.npackets.isLt
  have hl : lastOf x.c (last.toNat + 1) ≤ last.toNat + 1 := by
    unfold lastOf
    split <;> omega
  by_cases hw : Within first.toNat (lastOf x.c (last.toNat + 1)) r
  · have h1 := hw.1
    have h2 := hw.2
    have : first.toNat ≤ r.seq.toNat ∧ r.seq.toNat ≤ last.toNat := ⟨by omega, by omega⟩
    simp [this]
  · simp [hw]

theorem lostOnce_sub {rs ws : List DataRec} (hs : ws.Sublist rs) (h : LostOnce rs) : LostOnce ws := by
  intro k
  refine Nat.le_trans ?_ (h k)
  unfold losses
  exact hs.countP_le

theorem orderly_sub (x : StatSession) (ds : List Nat) {rs ws : List DataRec} (hs : ws.Sublist rs) (h : x.Orderly ds rs) : x.Orderly ds ws := by
  obtain ⟨h1, h2, h3, h4⟩ := h
  exact ⟨fun r hr => h1 r (hs.subset hr), h2.sublist hs, h3.sublist hs, h4.sublist hs⟩

theorem foldl_max_le (l : List Nat) : ∀ a, a ≤ l.foldl max a ∧ ∀ x ∈ l, x ≤ l.foldl max a := by
  induction l with
  | nil => intro a; exact ⟨Nat.le_refl _, fun x hx => nomatch hx⟩
  | cons y l ih =>
    intro a
    obtain ⟨i1, i2⟩ := ih (max a y)
    refine ⟨Nat.le_trans (Nat.le_max_left _ _) i1, fun x hx => ?_⟩
    rcases List.mem_cons.1 hx with e | e
    · subst e; exact Nat.le_trans (Nat.le_max_right _ _) i1
    · exact i2 x e

theorem lastSent_all (fin : Bool) (last : U32) (rs : List DataRec) (h : fin = true ∨ ∃ r ∈ rs, ¬ Lost r ∧ last.toNat ≤ r.seq.toNat) : lastSent fin last rs = last := by
  unfold lastSent
  cases fin with
  | true => rfl
  | false =>
    rcases h with h | ⟨r, h1, h2, h3⟩
    · cases h
    · have : last.toNat ≤ lastArrived rs := by
        refine Nat.le_trans h3 ?_
        unfold lastArrived
        exact (foldl_max_le _ 0).2 _ (List.mem_map.2 ⟨r, List.mem_filter.2 ⟨h1, decide_eq_true h2⟩, rfl⟩)
      rw [if_neg (by decide), Nat.min_eq_left this, BitVec.ofNat_toNat, BitVec.setWidth_eq]

/-- The records in the file that the client writes. -/
theorem fetchedFile_has (x : StatSession) (hsz : x.c.recSize = 25) (remote : SockAddr) (h : HdrIn) (hs : Storable h) (hone : h.twoway = false) (fin : Bool) (next : U32)
    (skips : List Skip) (ws : List DataRec) (hd : ∀ r ∈ ws, Stamp r.send ∧ Stamp r.recv) (hw : ws.length < 2 ^ 32)
    (hk : 8 * skips.length < 2 ^ 32) (hx : SessionIn x h skips) :
    ∃ hdr pos o, ∃ h0 : 0 < o, readHeader (fetchedFile remote h fin next skips ws) = .ok hdr pos ∧
      HasRecords (x.moved o h0) (fetchedFile remote h fin next skips ws) hdr ws ∧ SessionOf (x.moved o h0) (fetchedFile remote h fin next skips ws) hdr := by
  obtain ⟨⟨hdr0, pos0, q1, q2, q3, q4, q5, q6, q7⟩, q8, q9, q10⟩ := fetchedFile_read remote h hs hone fin next skips ws hd hw hk
  obtain ⟨g, hg⟩ : ∃ g, g = hdrOf (ackOf fin next skips ws.length) (requestOf remote h) := ⟨_, rfl⟩
  have hgs : Storable g := by rw [hg]; exact storable_fetched remote h hs hone _
  have hj : (zeros 112).length = 112 := zeros_length _
  have hsl : (skipBytes skips) = (skips.map encodeSkip).flatten := by
    unfold skipBytes
    rw [Nat.mod_eq_of_lt hk, ← skipText_length skips, List.take_length]
  have hskl := skipText_length skips
  have hfl := flat_length ws hd
  have hgk : g.nskip.toNat = skips.length := by
    rw [hg]; show (BitVec.ofNat 32 skips.length).toNat = _
    rw [BitVec.toNat_ofNat]; exact Nat.mod_eq_of_lt (by omega)
  have hgn : g.ndata.toNat = ws.length := by
    rw [hg]; show (BitVec.ofNat 32 ws.length).toNat = _
    rw [BitVec.toNat_ofNat]; exact Nat.mod_eq_of_lt hw
  have hgr : g.recSize.toNat = 0 := by rw [hg]; rfl
  have hgt : g.twoway = false := by rw [hg]; rfl
  obtain ⟨tail, htail⟩ : ∃ tail, tail = (skips.map encodeSkip).flatten ++ flat ws := ⟨_, rfl⟩
  have htl : tail.length = 8 * skips.length + 25 * ws.length := by rw [htail, List.length_append, hskl, hfl]
  have hw1 : (writeHeader (zeros 112) g).1 = g.fixed ++ requestPart g.args g.sid := by rw [writeHeader_eq _ _ hj hgs]
  have hfile : fetchedFile remote h fin next skips ws = (writeHeader (zeros 112) g).1 ++ tail := by
    rw [hw1, htail, ← hsl, hg]
    unfold fetchedFile
    simp only [List.append_assoc]
    rfl
  obtain ⟨_, c2, _⟩ := C32_header_partial (zeros 112) g tail hj hgs (by rw [hgk]; exact hk) (by rw [hgr]; omega) 25
    (by rw [hgt]; rfl) (by rw [hgk, hgn, htl])
  rw [← hfile] at c2
  have hwl := writeHeader_length (zeros 112) g hj hgs
  have hoset : (wantedOsets g).2 = headerEnd g.spec.slots.length + 8 * skips.length ∧ (wantedOsets g).1 ≤ (wantedOsets g).2 := by
    unfold wantedOsets
    dsimp only
    by_cases hz : g.nskip = 0
    · rw [if_neg (by simp [hz])]
      have : skips.length = 0 := by rw [← hgk, hz]; rfl
      rw [hgr]
      refine ⟨by simp [this], ?_⟩
      dsimp only
      split <;> omega
    · rw [if_pos hz, hgk]
      exact ⟨rfl, by dsimp only; omega⟩
  have h0 : 0 < (wantedOsets g).2 := by rw [hoset.1]; unfold headerEnd; omega
  rw [c2] at q1
  injection q1 with e1 e2
  have e1' := e1
  refine ⟨_, _, (wantedOsets g).2, h0, c2, ?_, ?_⟩
  · refine ⟨by dsimp only; rw [hgt]; rfl, hsz, hw, hd, (writeHeader (zeros 112) g).1 ++ (skips.map encodeSkip).flatten, [], ?_, ?_, .inr ⟨?_, rfl⟩⟩
    · rw [hfile, htail, List.append_nil, List.append_assoc]; rfl
    · rw [List.length_append, hwl, hskl]
      show _ = (wantedOsets g).2
      rw [hoset.1]
    · dsimp only
      have := hoset.2
      omega
  · rw [e1]
    refine ⟨⟨_, q7, hx.sid, hx.npackets, hx.start, hx.timeout, ?_⟩, ?_, ?_, ?_⟩
    · rw [q9, ← hx.slots]; rfl
    · have : hdr0.nskip = BitVec.ofNat 32 skips.length := by
        apply BitVec.eq_of_toNat_eq
        rw [q5, BitVec.toNat_ofNat, Nat.mod_eq_of_lt (by omega)]
      rw [this, q10, ← hx.skips]; rfl
    · rw [← e1']; rfl
    · rw [← e1']; exact hsz.symm

theorem whole {x : StatSession} {f : Bytes} {hd : File.Header} {rs : List DataRec} (hf : HasRecords x f hd rs) (first last : Nat) :
    parseFile x.c f hd (Stats.create x.c x.c0) 0 first last = x.summary rs (Stats.create x.c x.c0) 0 first last := by
  have hz : x.place 0 = 0 := by
    unfold StatSession.place
    rw [Nat.zero_max, Nat.sub_self, Nat.zero_div]
  rw [hf.summary (Stats.create x.c x.c0) 0 first last (by rw [hz]; exact Nat.zero_le _) (by rw [hz]; omega), hz, List.drop_zero]

end FetchedSum

open FetchedSum

/-- **C109** (partial: of a session that is not finished a packet must have arrived that is not before the last of the part, see
`C109_cut`). A part of a session, first to last packet, that is fetched from a server can be summarised, and the summary reports what the
summary of that part of the server's own file reports; and what the client's file says about the session is what the server's says. -/
theorem C109_part_partial (H : Mac) (E : Env) (remote loc : SockAddr) (junk : Bytes) (hj : junk.length = 112) (A B : Conn)
    (P : Peers A B) (first last : U32) (sid : Bytes) (hsid : sid.length = 16)
    (f : Bytes) (h : HdrIn) (fin : Bool) (next : U32) (skips : List Skip) (rs : List DataRec)
    (hst : Stored f h fin next skips rs) (hE : Grants E first last sid f)
    (hfull : first = 0 ∧ last = 0xFFFFFFFF#32 → fin = true) (hk : 8 * skips.length < 2 ^ 32)
    (hs1 : scopeKnown remote false h.sender) (hs2 : scopeKnown remote false h.receiver)
    (x : StatSession) (hx : SessionIn x h skips) (ds : List Nat) (hd : x.Delays ds) (hdr : File.Header) (hf : HasRecords x f hdr rs)
    (h1 : LostOnce rs) (ho : x.Orderly ds rs) (hr : x.Range first.toNat (last.toNat + 1))
    (hfin : fin = true ∨ ∃ r ∈ rs, ¬ Lost r ∧ last.toNat ≤ r.seq.toNat) :
    ∃ blocks n file hd' pos o, ∃ h0 : 0 < o, Conversation H E remote loc junk first last sid A B blocks (.fetched n file) ∧
      readHeader file = .ok hd' pos ∧ SessionOf (x.moved o h0) file hd' ∧
      ∃ s t, parseFile (x.moved o h0).c file hd' (Stats.create (x.moved o h0).c x.c0) 0 first.toNat (last.toNat + 1) = .ok s ∧
        parseFile x.c f hdr (Stats.create x.c x.c0) 0 first.toNat (last.toNat + 1) = .ok t ∧ SameReport s t := by
  have hc := serve_travels H E remote loc junk hj A B P first last sid hsid f h fin next skips rs hst hE hfull hs1 hs2
  rw [lastSent_all fin last rs hfin] at hc
  have hsub : (inRange first last rs).Sublist rs := List.filter_sublist
  have hlen : (inRange first last rs).length < 2 ^ 32 := Nat.lt_of_le_of_lt (inRange_length_le _ _ _) hst.nrecs
  obtain ⟨hd', pos, o, h0, g1, g2, g3⟩ := fetchedFile_has x hf.size remote h hst.header hst.oneway fin next skips (inRange first last rs)
    (fun r hr => hst.records r (List.mem_filter.1 hr).1) hlen hk hx
  have hd2 : (x.moved o h0).Delays ds := hd
  obtain ⟨t, ht⟩ := C53_orderly_partial x _ .fresh ds hd rs hst.nrecs ho 0 first.toNat (last.toNat + 1) hr (.inl rfl)
  obtain ⟨s, hs⟩ := C53_orderly_partial (x.moved o h0) _ .fresh ds hd2 (inRange first last rs) hlen (orderly_sub (x.moved o h0) ds hsub ho) 0 first.toNat
    (last.toNat + 1) hr (.inl rfl)
  refine ⟨_, _, _, hd', pos, o, h0, hc, g1, g3, s, t, (whole g2 _ _).trans hs, (whole hf _ _).trans ht, ?_⟩
  exact agree_moved x o h0 rs (inRange first last rs) hst.nrecs hlen h1 (lostOnce_sub hsub h1) first.toNat (last.toNat + 1) hr (about_inRange x first last rs) _ _ t s
    .fresh .fresh 0 0 ht hs

/-! ## A session that is not finished -/

namespace FetchedSum

def cutHdr : HdrIn :=
  { sender := .v4 0x0A000001#32 5000#16, receiver := .v4 0x0A000002#32 6000#16, confSender := false, confReceiver := true
    sid := zeros 16
    spec := { startTime := 0xE0000000#64 <<< 32, lossTimeout := 2#64 <<< 32, typeP := 0, padding := 10, npackets := 4, slots := [.literal (1#64 <<< 32)] }
    twoway := false, finished := 2, next := 0, nskip := 0, ndata := 0, recSize := 0 }

theorem cut_storable : Storable cutHdr where
  family := trivial
  sid := rfl
  conf := Or.inr (Or.inr rfl)
  packets := by decide
  slots := by decide
  known := by
    intro s hs
    simp only [cutHdr, List.mem_cons, List.not_mem_nil, or_false] at hs
    subst hs; trivial
  few := by decide

/-- The session of four packets, one every second. -/
def cutStat : StatSession where
  c := { statCfg with skips := [], osetData := 184 }
  sid := zeros 16
  slots := [.literal (1#64 <<< 32)]
  c0 := statDemo.c0
  sched := statDemo.sched
  rlist := by decide
  data := by decide

theorem cut_in : SessionIn cutStat cutHdr [] := ⟨rfl, rfl, rfl, rfl, rfl, rfl⟩

theorem cut_delays : cutStat.Delays statDelays := stat_delays

/-- The first two packets arrive, the other two are lost. -/
def cutRecords : List DataRec := [came 0 16 18 60, came 1 32 34 61, wentMissing 2 48, wentMissing 3 64]

/-- The last packet arrives. -/
def heldRecords : List DataRec := [came 0 16 18 60, wentMissing 1 32, wentMissing 2 48, came 3 64 66 61]

theorem cut_stamp : ∀ r ∈ cutRecords, Stamp r.send ∧ Stamp r.recv := by unfold Stamp; decide +kernel
theorem held_stamp : ∀ r ∈ heldRecords, Stamp r.send ∧ Stamp r.recv := by unfold Stamp; decide +kernel

theorem cut_orderly : cutStat.Orderly statDelays cutRecords := by
  refine ⟨?_, ?_, ?_, ?_⟩ <;> (first | decide +kernel | (simp only [InTime]; decide +kernel))
theorem held_orderly : cutStat.Orderly statDelays heldRecords := by
  refine ⟨?_, ?_, ?_, ?_⟩ <;> (first | decide +kernel | (simp only [InTime]; decide +kernel))

theorem once_of {rs : List DataRec} (h : (rs.map (·.seq)).Nodup) : LostOnce rs := by
  intro k
  unfold losses
  induction rs with
  | nil => exact Nat.zero_le _
  | cons r rs ih =>
    rw [List.map_cons, List.nodup_cons] at h
    rw [List.countP_cons]
    split
    · rename_i hr
      have hr := of_decide_eq_true hr
      have : rs.countP (fun r => decide (Lost r ∧ r.seq.toNat = k)) = 0 := by
        rw [List.countP_eq_zero]
        intro y hy hh
        have hh := of_decide_eq_true hh
        exact h.1 (List.mem_map.2 ⟨y, hy, BitVec.eq_of_toNat_eq (hh.2.trans hr.2.symm)⟩)
      omega
    · have := ih h.2
      omega

theorem cut_once : LostOnce cutRecords := once_of (by decide)
theorem held_once : LostOnce heldRecords := once_of (by decide)

/-- What reading the header of an open file gives, as far as summaries need it. -/
def cutHeader : File.Header := ⟨3, 25, false, 2, none, 0, 0, 0, 0, 184⟩

theorem open_has (rs : List DataRec) (hd : ∀ r ∈ rs, Stamp r.send ∧ Stamp r.recv) (hn : rs.length < 2 ^ 32) : HasRecords cutStat (openFile cutHdr 2 rs) cutHeader rs :=
  ⟨rfl, rfl, hn, hd, fixedLayout 3 2 0 0 0 0 (BitVec.ofNat 64 (headerEnd cutHdr.spec.slots.length)) ++ requestPart cutHdr.args cutHdr.sid, [],
    by rw [List.append_nil]; rfl, by decide +kernel, Or.inr ⟨by decide, rfl⟩⟩

theorem cut_range : cutStat.Range 0 4 := by unfold StatSession.Range; decide +kernel

end FetchedSum

/-- Packets 0 to 3 of a session whose second and third packets are lost. -/
example (H : Mac) (loc : SockAddr) := C109_part_partial H (demoFetchEnv (openFile cutHdr 2 heldRecords)) (.v4 1 861) loc (zeros 112) (zeros_length _)
  demoB demoA demo_peers 0 3 cutHdr.sid cut_storable.sid _ cutHdr false 0 [] _ (openFile_stored cutHdr cut_storable rfl heldRecords held_stamp (by decide))
  (demoFetchEnv_grants _ _ _ _) (by decide) (by decide) trivial trivial cutStat cut_in statDelays cut_delays cutHeader (open_has heldRecords held_stamp (by decide))
  held_once held_orderly cut_range (.inr ⟨came 3 64 66 61, by decide, by decide +kernel, by decide⟩)

/-- C109 fails for a session that is not finished when nothing has arrived since the last packets of the part were lost: the server's file says that
two of four packets are lost; the server does not send the records of these, and the client's summary says two packets, none lost. -/
theorem C109_cut (H : Mac) (loc : SockAddr) :
    ∃ blocks n file hd' pos o, ∃ h0 : 0 < o,
      Conversation H (demoFetchEnv (openFile cutHdr 2 cutRecords)) (.v4 1 861) loc (zeros 112) 0 3 cutHdr.sid demoB demoA blocks (.fetched n file) ∧
      readHeader file = .ok hd' pos ∧ SessionOf (cutStat.moved o h0) file hd' ∧
      ∃ s t, parseFile (cutStat.moved o h0).c file hd' (Stats.create (cutStat.moved o h0).c cutStat.c0) 0 0 4 = .ok s ∧ s.sent = 2 ∧ s.lost = 0 ∧
        parseFile cutStat.c (openFile cutHdr 2 cutRecords) cutHeader (Stats.create cutStat.c cutStat.c0) 0 0 4 = .ok t ∧ t.sent = 4 ∧ t.lost = 2 := by
  have hst := openFile_stored cutHdr cut_storable rfl cutRecords cut_stamp (by decide)
  have hc := serve_travels H (demoFetchEnv (openFile cutHdr 2 cutRecords)) (.v4 1 861) loc (zeros 112) (zeros_length _) demoB demoA demo_peers 0 3 cutHdr.sid
    cut_storable.sid _ cutHdr false 0 [] _ hst (demoFetchEnv_grants _ _ _ _) (by decide) trivial trivial
  have hw : inRange 0 (lastSent false 3 cutRecords) cutRecords = [came 0 16 18 60, came 1 32 34 61] := by decide +kernel
  rw [hw] at hc
  have hsub : [came 0 16 18 60, came 1 32 34 61].Sublist cutRecords := by rw [← hw]; exact List.filter_sublist
  obtain ⟨hd', pos, o, h0, g1, g2, g3⟩ := fetchedFile_has cutStat rfl (.v4 1 861) cutHdr cut_storable rfl false 0 [] [came 0 16 18 60, came 1 32 34 61]
    (fun r hr => cut_stamp r (hsub.subset hr)) (by decide) (by decide) cut_in
  have hf := open_has cutRecords cut_stamp (by decide)
  obtain ⟨t, ht⟩ := C53_orderly_partial cutStat _ .fresh statDelays cut_delays cutRecords (by decide) cut_orderly 0 0 4 cut_range (.inl rfl)
  obtain ⟨s, hs⟩ := C53_orderly_partial (cutStat.moved o h0) _ .fresh statDelays cut_delays [came 0 16 18 60, came 1 32 34 61] (by decide)
    (orderly_sub (cutStat.moved o h0) statDelays hsub cut_orderly) 0 0 4 cut_range (.inl rfl)
  have ct := C50_counts cutStat _ t .fresh cutRecords (by decide) 0 0 4 cut_range cut_once ht
  have cs := C50_counts (cutStat.moved o h0) _ s .fresh [came 0 16 18 60, came 1 32 34 61] (by decide) 0 0 4 cut_range (lostOnce_sub hsub cut_once) hs
  have a1 : sent 4 (cutStat.about 0 4 [came 0 16 18 60, came 1 32 34 61]) = 2 ∧ lost 4 (cutStat.about 0 4 [came 0 16 18 60, came 1 32 34 61]) = 0 ∧
      sent 4 (cutStat.about 0 4 cutRecords) = 4 ∧ lost 4 (cutStat.about 0 4 cutRecords) = 2 := by decide +kernel
  exact ⟨_, _, _, hd', pos, o, h0, hc, g1, g3, s, t, (whole g2 _ _).trans hs, cs.1.trans a1.1, cs.2.1.trans a1.2.1, (whole hf _ _).trans ht,
    ct.1.trans a1.2.2.1, ct.2.1.trans a1.2.2.2⟩

end Owamp.Props
