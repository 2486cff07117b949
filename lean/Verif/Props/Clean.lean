import Verif.Lemmas.Clean
import Verif.Props.DataFile
/-!
# C30 and C31: the clean-up of session files
-/
namespace Owamp.Props
open Owamp.Num64 Owamp.Codec Owamp.File Owamp.Ctl Owamp.Clean Owamp.Spec.Clean Owamp.Spec.DataFile

/-! ## C31 -/

/-- C31: the search for the records to examine ends after at most as many probes as there are records, probes only records of the file,
and stops at a record that is, like all those before it, older than the threshold. It is assumed that no record was made exactly at the threshold
(`C31_never_ends`), that the threshold is before the stop time (`C31_zero_timeout`), and that floating point interpolation stays inside its
interval as exact arithmetic does. -/
theorem C31_search_partial (env : Env) (T thresh stop : Nat) (rs : List DataRec) (r0 : DataRec)
    (hin : Inside env.interp) (h0 : rs[0]? = some r0) (hfirst : timeOf T r0 < thresh) (hstop : thresh < stop) (h64 : stop < 2 ^ 64)
    (hn : rs.length < 2 ^ 32) (htie : ∀ r ∈ rs, timeOf T r ≠ thresh) (hsorted : rs.Pairwise fun a b => timeOf T a ≤ timeOf T b) :
    ∃ l, l < rs.length ∧ (∀ r ∈ rs.take (l + 1), timeOf T r < thresh) ∧
      ∀ fuel, rs.length ≤ fuel → search env T thresh (fun i => rs[i]?) fuel 0 (timeOf T r0) rs.length stop = some (some l) := by
  have hlen : 0 < rs.length := (List.getElem?_eq_some_iff.1 h0).1
  obtain ⟨l, r, hl, ht, hs⟩ := search_ends env hin T thresh rs (fun i => rs[i]?) (fun i _ => rfl) hn htie rs.length 0 (timeOf T r0) rs.length stop
    (by omega) hlen (Nat.le_refl _) hfirst hstop h64 ⟨r0, h0, hfirst⟩
  obtain ⟨hl', rfl⟩ := List.getElem?_eq_some_iff.1 hl
  refine ⟨l, hl', ?_, hs⟩
  intro x hx
  obtain ⟨i, hi, rfl⟩ := List.mem_take_iff_getElem.1 hx
  have hi' : i < rs.length := by omega
  by_cases he : i = l
  · subst he; exact ht
  · have := List.pairwise_iff_getElem.1 hsorted i l hi' hl' (by omega)
    omega

/-- C31: however interpolation rounds, as long as it does not leave its interval, a search that ends has ended at a record of the file that is older
than the threshold, as are all before it: no record to be dropped is skipped. -/
theorem C31_safe (env : Env) (T thresh stop : Nat) (rs : List DataRec) (r0 : DataRec) (hw : Within env.interp)
    (h0 : rs[0]? = some r0) (hfirst : timeOf T r0 < thresh) (hstop : thresh ≤ stop) (h64 : stop < 2 ^ 64)
    (hn : rs.length < 2 ^ 32) (hsorted : rs.Pairwise fun a b => timeOf T a ≤ timeOf T b) (fuel l : Nat)
    (hs : search env T thresh (fun i => rs[i]?) fuel 0 (timeOf T r0) rs.length stop = some (some l)) :
    l < rs.length ∧ ∀ r ∈ rs.take (l + 1), timeOf T r < thresh := by
  have hlen : 0 < rs.length := (List.getElem?_eq_some_iff.1 h0).1
  obtain ⟨r, hl, ht⟩ := search_safe env hw T thresh rs (fun i => rs[i]?) (fun i _ => rfl) hn fuel 0 (timeOf T r0) rs.length stop l
    hlen (Nat.le_refl _) hfirst hstop h64 ⟨r0, h0, hfirst⟩ hs
  obtain ⟨hl', rfl⟩ := List.getElem?_eq_some_iff.1 hl
  refine ⟨hl', ?_⟩
  intro x hx
  obtain ⟨i, hi, rfl⟩ := List.mem_take_iff_getElem.1 hx
  have hi' : i < rs.length := by omega
  by_cases he : i = l
  · subst he; exact ht
  · have := List.pairwise_iff_getElem.1 hsorted i l hi' hl' (by omega)
    omega

/-- Interpolation in exact arithmetic. -/
def exactInterp (low portion n range : Nat) : Nat := low + portion * n / range

theorem exactInterp_inside : Inside exactInterp := by
  intro low p n r hp hn
  unfold exactInterp
  have : p * n / r < n := (Nat.div_lt_iff_lt_mul (by omega)).2 (by rw [Nat.mul_comm n r]; exact Nat.mul_lt_mul_of_pos_right hp hn)
  generalize p * n / r = q at this ⊢
  omega

theorem exactInterp_within : Within exactInterp := by
  intro low p n r hp hr _
  unfold exactInterp
  have : p * n / r ≤ n := Nat.div_le_of_le_mul (Nat.mul_le_mul_right n hp)
  generalize p * n / r = q at this ⊢
  omega

theorem exactInterp_ends : EndToEnd exactInterp := by
  intro low n r hr
  unfold exactInterp
  rw [Nat.mul_div_cancel_left _ hr]

/-- C31 fails for a timeout of 0 when the threshold is the stop time: the first probe is behind the last record, and the whole clean-up fails. -/
theorem C31_zero_timeout (env : Env) (hend : EndToEnd env.interp) (T stop : Nat) (rs : List DataRec) (r0 : DataRec)
    (hfirst : timeOf T r0 < stop) (h64 : stop < 2 ^ 64) (h2 : 2 ≤ rs.length) (hn : rs.length < 2 ^ 32) (fuel : Nat) :
    search env T stop (fun i => rs[i]?) (fuel + 1) 0 (timeOf T r0) rs.length stop = some none := by
  have hp := probe_eq env stop 0 (timeOf T r0) rs.length stop (by omega) hn hfirst (Nat.le_refl _) h64
  rw [hend 0 _ _ (by omega), if_neg (by omega)] at hp
  rw [search, span 0 _ (by omega) hn, if_pos (by omega), hp]
  simp

example : EndToEnd exactInterp ∧ Inside exactInterp := ⟨exactInterp_ends, exactInterp_inside⟩

/-! ## C30 -/

/-- The file as the receiver leaves it: header, records and its status. -/
def receiverFile (junk : Bytes) (h : HdrIn) (rs : List DataRec) (status : Nat) : Option Bytes :=
  (script ([openFile junk h] ++ (rs.map fun r f => writeRecord f r) ++ [fun f => writeFinished f status 0]) []).map (after [])

/-- A session that a receiver has recorded, about to be cleaned up: `h` and `rs` are in its file `f`; `ctx` is its schedule context, whatever it was
used for; `ds` are the delays of the schedule; `next` is the number of packets the sender says it sent. -/
structure Recorded (env : Env) (junk : Bytes) (h : HdrIn) (rs : List DataRec) (status : Nat) (f : Bytes) (ctx : Sched.Ctx) (ds : List Nat)
    (nextSeq : U32) (next stop : Nat) : Prop where
  file : receiverFile junk h rs status = some f
  junkLen : junk.length = 112
  storable : Storable h
  oneway : h.twoway = false
  fresh : h.nskip = 0 ∧ h.ndata = 0
  statusIs : status ≤ 2
  stamps : ∀ r ∈ rs, Stamp r.send ∧ Stamp r.recv
  size : 25 * rs.length < 2 ^ 32
  schedule : ∃ c ops, Sched.create h.sid ⟨h.spec.npackets, h.spec.slots⟩ = some c ∧ ctx = Sched.run env.E c ops ∧
    Sched.deltas env.E h.spec.npackets.toNat c = ds.map Except.ok
  noWrap : h.spec.startTime.toNat + ds.sum < 2 ^ 64
  nextIs : next = if nextSeq = 0xFFFFFFFF#32 then h.spec.npackets.toNat else nextSeq.toNat
  nextFits : next ≤ h.spec.npackets.toNat
  stop64 : stop < 2 ^ 64
  longEnough : 2 * h.spec.lossTimeout.toNat ≤ min (lastTime h.spec.startTime.toNat ds next) stop
  plausible : ∀ r ∈ rs, Plausible h.spec.startTime.toNat h.spec.lossTimeout.toNat ds r
  sorted : rs.Pairwise fun a b => made h.spec.lossTimeout.toNat a ≤ made h.spec.lossTimeout.toNat b

/-- What the clean-up puts back of the temporary file is all of it: either the stream was flushed, or no record was kept after a dropped one. -/
def Drained (env : Env) (next stop T : Nat) (rs : List DataRec) : Prop :=
  (∀ n, env.drain n = n) ∨
    ∃ A B, rs = A ++ B ∧ (∀ r ∈ A, kept next stop T r = true) ∧ (∀ r ∈ B, kept next stop T r = false)

theorem receiverFile_eq (junk : Bytes) (h : HdrIn) (rs : List DataRec) (status : Nat) (hj : junk.length = 112) (hs : Storable h)
    (hone : h.twoway = false) (hf : h.nskip = 0 ∧ h.ndata = 0) (hst : status ≤ 2)
    (hd : ∀ r ∈ rs, Stamp r.send ∧ Stamp r.recv) :
    receiverFile junk h rs status = some (fixedLayout 3#32 (BitVec.ofNat 32 status) 0 0 0 0
      (BitVec.ofNat 64 (headerEnd h.spec.slots.length)) ++ requestPart h.args h.sid ++ (rs.map recLayout).flatten) := by
  obtain ⟨ws, e1, e2, _⟩ := script_records rs hd (writeHeader junk h).1
  have op : openFile junk h [] = some [⟨0, (writeHeader junk h).1⟩] := by
    unfold openFile; rw [if_pos (by rw [writeHeader_eq junk h hj hs])]
  have ha : after [] [⟨0, (writeHeader junk h).1⟩] = (writeHeader junk h).1 := pwrite_new _
  have hx : (writeHeader junk h).1 = fixedLayout 3#32 (finWord h.finished) h.next h.nskip h.ndata
      (BitVec.ofNat 64 h.osets.1) (BitVec.ofNat 64 h.osets.2) ++ requestPart h.args h.sid := by
    rw [writeHeader_eq junk h hj hs, fixed_eq, hone]; rfl
  have ho : h.osets = (0, headerEnd h.spec.slots.length) := by
    unfold HdrIn.osets
    rw [if_neg (by simp [hf.1]), if_neg (by simp [hf.2]), oset_eq h hs]
  rw [hf.1, hf.2, ho] at hx
  have hw : ∀ g, writeFinished g status 0 = some [⟨8, enc32 (BitVec.ofNat 32 status) ++ enc32 0⟩] := by
    intro g; unfold writeFinished; rw [if_neg (by omega)]
  have s1 := script_one (openFile junk h) _ [] _ ws op (by rw [ha]; exact e1)
  have s2 := script_append _ [fun f => writeFinished f status 0] [] _ _ s1 (script_one _ [] _ _ [] (hw _) rfl)
  unfold receiverFile
  rw [show [openFile junk h] ++ (rs.map fun r f => writeRecord f r) ++ [fun f => writeFinished f status 0] =
    openFile junk h :: (rs.map fun r f => writeRecord f r) ++ [fun f => writeFinished f status 0] from rfl, s2, Option.map_some,
    after_append, after_append, after_append, ha, e2]
  congr 1
  show pwrite _ 8 _ = _
  rw [hx, List.append_assoc, pwrite_fin, List.append_assoc]
  rfl

/-- `readInitial` on such a file. -/
theorem receiverFile_initial (h : HdrIn) (hs : Storable h) (fi nd : U32) (body : Bytes) :
    readInitial (fixedLayout 3#32 fi 0 0 nd 0 (BitVec.ofNat 64 (headerEnd h.spec.slots.length)) ++ body) =
      some { version := 3, recSize := 25, finished := finishedType fi.toNat, next := 0, nskip := 0, ndata := nd, osetSkip := 0
             osetData := (headerEnd h.spec.slots.length : Int), hdrLen := (headerEnd h.spec.slots.length : Int) } := by
  have hfew := hs.few
  have t1 := toNat_small (headerEnd h.spec.slots.length) (by unfold headerEnd; omega)
  have := readInitial_fixed 3#32 fi 0 0 nd 0 (BitVec.ofNat 64 (headerEnd h.spec.slots.length)) body (Or.inl rfl) (by decide)
    (by rw [t1]; unfold headerEnd; omega)
  rw [t1] at this
  rw [this]
  rfl

section
variable {env : Env} {junk : Bytes} {h : HdrIn} {rs : List DataRec} {status : Nat} {f : Bytes} {ctx : Sched.Ctx} {ds : List Nat}
  {nextSeq : U32} {next stop : Nat}

theorem Recorded.file_eq (S : Recorded env junk h rs status f ctx ds nextSeq next stop) :
    f = fixedLayout 3#32 (BitVec.ofNat 32 status) 0 0 0 0 (BitVec.ofNat 64 (headerEnd h.spec.slots.length)) ++
      requestPart h.args h.sid ++ (rs.map recLayout).flatten := by
  have := S.file
  rw [receiverFile_eq junk h rs status S.junkLen S.storable S.oneway S.fresh S.statusIs S.stamps] at this
  exact (Option.some.inj this).symm

theorem Recorded.recAt_eq (S : Recorded env junk h rs status f ctx ds nextSeq next stop) (p : Init) (hv : p.version = 3) (hr : p.recSize = 25)
    (ho : p.osetData = (headerEnd h.spec.slots.length : Int)) (i : Nat) (hi : i ≤ rs.length) : recAt p f i = rs[i]? := by
  have hk : ∀ r ∈ rs, (recLayout r).length = 25 ∧ decodeDataRec 3 (recLayout r) = some r :=
    fun r hr => (C12_record_partial r (S.stamps r hr).1 (S.stamps r hr).2).2
  have hsize := S.size
  have hlen := flatten_map_length recLayout 25 rs (fun r hr => (hk r hr).1)
  have hpl : (fixedLayout 3#32 (BitVec.ofNat 32 status) 0 0 0 0 (BitVec.ofNat 64 (headerEnd h.spec.slots.length)) ++
      requestPart h.args h.sid).length = headerEnd h.spec.slots.length := by
    rw [List.length_append, fixedLayout_length, requestPart_length h S.storable]; unfold headerEnd; omega
  have hf := S.file_eq
  unfold recAt
  rw [hv, hr, ho, Int.toNat_natCast, Nat.mod_eq_of_lt (by omega)]
  by_cases hlt : i < rs.length
  · have e : rs = rs.take i ++ rs[i] :: rs.drop (i + 1) := by
      rw [← List.drop_eq_getElem_cons hlt, List.take_append_drop]
    have hl1 := flatten_map_length recLayout 25 (rs.take i) (fun r hr => (hk r (List.mem_of_mem_take hr)).1)
    rw [List.length_take, Nat.min_eq_left (by omega)] at hl1
    obtain ⟨a, b⟩ := hk rs[i] (List.getElem_mem hlt)
    have e2 : f = (fixedLayout 3#32 (BitVec.ofNat 32 status) 0 0 0 0 (BitVec.ofNat 64 (headerEnd h.spec.slots.length)) ++
        requestPart h.args h.sid ++ ((rs.take i).map recLayout).flatten) ++
        (recLayout rs[i] ++ ((rs.drop (i + 1)).map recLayout).flatten) := by
      rw [hf]
      conv => lhs; rw [e]
      simp only [List.map_append, List.map_cons, List.flatten_append, List.flatten_cons, List.append_assoc]
    rw [rd_ok _ _ _ (by rw [hf, List.length_append, hpl, hlen]; omega), Option.bind_some, List.getElem?_eq_getElem hlt, e2,
      get_append_right _ _ _ _ (by rw [List.length_append, hpl, hl1]; omega), List.length_append, hpl, hl1,
      show headerEnd h.spec.slots.length + i * 25 - (headerEnd h.spec.slots.length + 25 * i) = 0 by omega,
      get_zero_append _ _ _ a.symm, b]
  · rw [rd_none _ _ _ (by rw [hf, List.length_append, hpl, hlen]; omega), Option.bind_none, List.getElem?_eq_none (by omega)]

/-- The threshold in ordinary arithmetic. -/
theorem Recorded.threshold_eq (S : Recorded env junk h rs status f ctx ds nextSeq next stop) :
    threshold (lastTime h.spec.startTime.toNat ds next) stop h.spec.lossTimeout.toNat =
      min (lastTime h.spec.startTime.toNat ds next) stop - 2 * h.spec.lossTimeout.toNat := by
  have h1 := S.longEnough
  have h2 := S.stop64
  have h3 := h.spec.lossTimeout.isLt
  have hm : mult h.spec.lossTimeout.toNat (ulongToNum64 2) = 2 * h.spec.lossTimeout.toNat := by
    rw [show ulongToNum64 2 = 2 ^ 33 from by decide,
      C01_mult_no_overflow _ _ h3 (by decide) (by omega)]
    omega
  unfold threshold
  rw [hm, sub_exact _ _ h1 (by omega)]

/-- Up to the search the clean-up is plain sailing. -/
theorem Recorded.clean_eq (S : Recorded env junk h rs status f ctx ds nextSeq next stop) (hne : rs ≠ []) (fuel : Nat) :
    ∃ p : Init, p.version = 3 ∧ p.recSize = 25 ∧ p.osetData = (headerEnd h.spec.slots.length : Int) ∧
      clean env f h.spec ctx nextSeq (BitVec.ofNat 64 stop) fuel =
        locate env p f next (lastTime h.spec.startTime.toNat ds next) stop h.spec.lossTimeout.toNat (BitVec.ofNat 32 rs.length) fuel := by
  have hf := S.file_eq
  have hi := receiverFile_initial h S.storable (BitVec.ofNat 32 status) 0 (requestPart h.args h.sid ++ (rs.map recLayout).flatten)
  rw [← List.append_assoc, ← hf] at hi
  have hsize := S.size
  have hlen := flatten_map_length recLayout 25 rs
    (fun r hr => (C12_record_partial r (S.stamps r hr).1 (S.stamps r hr).2).2.1)
  have hfl : f.length = headerEnd h.spec.slots.length + 25 * rs.length := by
    rw [hf, List.length_append, List.length_append, fixedLayout_length, requestPart_length h S.storable, hlen]; unfold headerEnd; omega
  have hpos : 0 < rs.length := List.length_pos_iff.2 hne
  have hn : (BitVec.ofNat 32 rs.length).toNat = rs.length := by rw [BitVec.toNat_ofNat, Nat.mod_eq_of_lt (by omega)]
  have hst : (BitVec.ofNat 64 stop).toNat = stop := by rw [BitVec.toNat_ofNat, Nat.mod_eq_of_lt S.stop64]
  refine ⟨{ version := 3, recSize := 25, finished := finishedType (BitVec.ofNat 32 status).toNat, next := 0, nskip := 0, ndata := 0
            osetSkip := 0, osetData := (headerEnd h.spec.slots.length : Int), hdrLen := (headerEnd h.spec.slots.length : Int) },
    rfl, rfl, rfl, ?_⟩
  · unfold clean
    rw [hi]
    dsimp only
    have hsub : ((f.length : Int) - (headerEnd h.spec.slots.length : Int)) = ((25 * rs.length : Nat) : Int) := by rw [hfl]; omega
    have hd : ((25 * rs.length : Nat) : Int).tdiv ((25 : Nat) : Int) = ((rs.length : Nat) : Int) := by
      rw [← Int.ofNat_tdiv, Nat.mul_div_cancel_left _ (by omega)]
    rw [hsub, hd, ofInt_nat, if_neg (by rw [← Int.ofNat_tmod, Nat.mul_mod_right]; simp),
      if_neg (by intro hh; exact absurd (hn.symm.trans (congrArg BitVec.toNat hh)) (Nat.ne_of_gt hpos)),
      if_neg (by omega)]
    have hnext : (if nextSeq = 0xFFFFFFFF#32 then h.spec.npackets else nextSeq).toNat = next := by
      rw [S.nextIs]; split <;> rfl
    obtain ⟨c, ops, hc, hctx, hds⟩ := S.schedule
    have hreset : (Sched.reset ctx none).2 = c := by rw [hctx, C06_reset_restores env.E _ _ c hc ops]
    have ht := timeAfter_eq env.E _ c ds h.spec.startTime.toNat hds S.noWrap next S.nextFits
    rw [hnext, if_neg (by have := S.nextFits; omega), if_neg (by omega), hreset, ht]
    dsimp only
    rw [hst]
    rfl

/-- The scan from a place before which every record is to be kept. -/
theorem Recorded.fromLow_eq (S : Recorded env junk h rs status f ctx ds nextSeq next stop) (p : Init) (hv : p.version = 3)
    (hr : p.recSize = 25) (ho : p.osetData = (headerEnd h.spec.slots.length : Int)) (l : Nat) (hl : l ≤ rs.length)
    (hpre : ∀ r ∈ rs.take l, kept next stop h.spec.lossTimeout.toNat r = true ∧ ¬ contradicts next r) :
    ((∃ r ∈ rs, contradicts next r) →
      fromLow env p f next stop h.spec.lossTimeout.toNat (BitVec.ofNat 32 rs.length) l = .failed f) ∧
    ((¬ ∃ r ∈ rs, contradicts next r) → Drained env next stop h.spec.lossTimeout.toNat rs →
      ∃ f' m o, fromLow env p f next stop h.spec.lossTimeout.toNat (BitVec.ofNat 32 rs.length) l = .ok f' m o ∧
        f' = fixedLayout 3#32 (BitVec.ofNat 32 status) 0 0 (BitVec.ofNat 32 (rs.filter (kept next stop h.spec.lossTimeout.toNat)).length) 0
          (BitVec.ofNat 64 (headerEnd h.spec.slots.length)) ++ requestPart h.args h.sid ++
          ((rs.filter (kept next stop h.spec.lossTimeout.toNat)).map recLayout).flatten ∧
        m = topSeq 0#32 ((rs.drop l).filter (kept next stop h.spec.lossTimeout.toNat)) ∧
        o = headerEnd h.spec.slots.length + 25 * l) := by
  have hf := S.file_eq
  have hsize := S.size
  have hT : h.spec.lossTimeout.toNat ≤ stop := by have := S.longEnough; omega
  obtain ⟨hdr, hhdr⟩ : ∃ hdr, hdr = fixedLayout 3#32 (BitVec.ofNat 32 status) 0 0 0 0
    (BitVec.ofNat 64 (headerEnd h.spec.slots.length)) ++ requestPart h.args h.sid := ⟨_, rfl⟩
  have hpl : hdr.length = headerEnd h.spec.slots.length := by
    rw [hhdr, List.length_append, fixedLayout_length, requestPart_length h S.storable]; unfold headerEnd; omega
  rw [← hhdr] at hf
  have hsplit : rs.take l ++ rs.drop l = rs := List.take_append_drop l rs
  have htl : (rs.take l).length = l := by rw [List.length_take, Nat.min_eq_left hl]
  have hdl : (rs.drop l).length = rs.length - l := List.length_drop
  have hn : (BitVec.ofNat 32 rs.length).toNat = rs.length := by rw [BitVec.toNat_ofNat, Nat.mod_eq_of_lt (by omega)]
  have hscan := scan_eq p hdr f next stop h.spec.lossTimeout.toNat hv hr (by rw [ho, hpl]) hT S.stop64 (rs.drop l) (rs.take l)
    ⟨none, BitVec.ofNat 32 rs.length, 0⟩ (by rw [hsplit]; exact S.stamps) (by rw [hsplit]; exact hsize) (by rw [hsplit]; exact hf)
  rw [htl, hdl, hpl] at hscan
  have hiff : (∃ r ∈ rs, contradicts next r) ↔ ∃ r ∈ rs.drop l, contradicts next r := by
    constructor
    · rintro ⟨r, hr, hc⟩
      rw [← hsplit] at hr
      rcases List.mem_append.1 hr with hr | hr
      · exact absurd hc (hpre r hr).2
      · exact ⟨r, hr, hc⟩
    · rintro ⟨r, hr, hc⟩
      exact ⟨r, List.mem_of_mem_drop hr, hc⟩
  constructor
  · intro hc
    rw [if_pos (hiff.1 hc)] at hscan
    unfold fromLow
    rw [hn, hscan]
  · intro hc hdr'
    rw [if_neg (fun hh => hc (hiff.2 hh))] at hscan
    obtain ⟨s', e1, e2, e3, e4, e5⟩ := hscan
    have hfil : rs.filter (kept next stop h.spec.lossTimeout.toNat) =
        rs.take l ++ (rs.drop l).filter (kept next stop h.spec.lossTimeout.toNat) := by
      conv => lhs; rw [← hsplit]
      rw [List.filter_append, List.filter_eq_self.2 (fun r hr => (hpre r hr).1)]
    -- what the temporary file holds, all of it
    have hcont : contents (headerEnd h.spec.slots.length) f rs.length s' =
        hdr ++ ((rs.filter (kept next stop h.spec.lossTimeout.toNat)).map recLayout).flatten := by
      rw [show l + (rs.length - l) = rs.length by omega] at e2
      rw [e2, hfil, List.map_append, List.flatten_append, ← List.append_assoc]
      congr 1
      show f.take _ = _
      have hlt := flatten_map_length recLayout 25 (rs.take l)
        (fun r hr => (C12_record_partial r (S.stamps r (List.mem_of_mem_take hr)).1 (S.stamps r (List.mem_of_mem_take hr)).2).2.1)
      rw [htl] at hlt
      have e : f = (hdr ++ ((rs.take l).map recLayout).flatten) ++ ((rs.drop l).map recLayout).flatten := by
        rw [hf]
        conv => lhs; rw [← hsplit]
        rw [List.map_append, List.flatten_append, List.append_assoc]
      rw [e, List.take_left' (by rw [List.length_append, hpl, hlt])]
    have hlenAll := flatten_map_length recLayout 25 rs
      (fun r hr => (C12_record_partial r (S.stamps r hr).1 (S.stamps r hr).2).2.1)
    have hback : copyBack env f s'.tmp =
        hdr ++ ((rs.filter (kept next stop h.spec.lossTimeout.toNat)).map recLayout).flatten := by
      unfold contents at hcont
      cases ht : s'.tmp with
      | none =>
        rw [ht] at hcont
        dsimp only [copyBack] at hcont ⊢
        rw [← hcont, List.take_of_length_le (by rw [hf, List.length_append, hpl, hlenAll]; omega)]
      | some t =>
        obtain ⟨a, b⟩ := t
        rw [ht] at hcont
        dsimp only [copyBack] at hcont ⊢
        rcases hdr' with hd | ⟨A, B, hAB, hA, hB⟩
        · rw [hd, List.take_length, hcont]
        · have := e4 (by
            by_cases hla : l ≤ A.length
            · refine ⟨A.drop l, B, ?_, fun x hx => hA x (List.mem_of_mem_drop hx), hB, Or.inl rfl⟩
              rw [hAB, List.drop_append, Nat.sub_eq_zero_of_le hla, List.drop_zero]
            · refine ⟨[], rs.drop l, rfl, by simp, ?_, Or.inl rfl⟩
              intro x hx
              rw [hAB, List.drop_append, List.drop_eq_nil_of_le (by omega), List.nil_append] at hx
              exact hB x (List.mem_of_mem_drop hx))
          rw [ht] at this
          rcases this with this | ⟨a', this⟩
          · cases this
          · simp only [Option.some.injEq, Prod.mk.injEq] at this
            rw [this.2] at hcont ⊢
            simpa using hcont
    have hnum : s'.num = BitVec.ofNat 32 (rs.filter (kept next stop h.spec.lossTimeout.toNat)).length := by
      rw [e3]
      have h1 : ((rs.drop l).filter (kept next stop h.spec.lossTimeout.toNat)).length ≤ rs.length - l := by
        rw [← hdl]; exact List.length_filter_le _ _
      have h2 : (rs.filter (kept next stop h.spec.lossTimeout.toNat)).length =
          l + ((rs.drop l).filter (kept next stop h.spec.lossTimeout.toNat)).length := by rw [hfil, List.length_append, htl]
      rw [h2]
      generalize ((rs.drop l).filter (kept next stop h.spec.lossTimeout.toNat)).length = k at h1 ⊢
      apply BitVec.eq_of_toNat_eq
      dsimp only
      rw [BitVec.toNat_sub, BitVec.toNat_ofNat, BitVec.toNat_ofNat, BitVec.toNat_ofNat]
      omega
    unfold fromLow finish
    rw [hn, e1]
    dsimp only
    rw [hback, hnum]
    unfold writeNumData
    have hi := receiverFile_initial h S.storable (BitVec.ofNat 32 status) 0
      (requestPart h.args h.sid ++ ((rs.filter (kept next stop h.spec.lossTimeout.toNat)).map recLayout).flatten)
    rw [← List.append_assoc, ← hhdr] at hi
    rw [hi, Option.bind_some]
    dsimp only
    rw [if_neg (by omega), if_neg (by omega)]
    refine ⟨_, _, _, rfl, ?_, e5, by rw [ho, hr, Int.toNat_natCast, Nat.mod_eq_of_lt (by omega)]; omega⟩
    show pwrite _ 20 _ = _
    rw [hhdr, List.append_assoc, pwrite_ndata, List.append_assoc]

/-- Records older than the threshold are to be kept. -/
theorem Recorded.before (S : Recorded env junk h rs status f ctx ds nextSeq next stop) (l : Nat)
    (hl : ∀ r ∈ rs.take l, timeOf h.spec.lossTimeout.toNat r <
      threshold (lastTime h.spec.startTime.toNat ds next) stop h.spec.lossTimeout.toNat) :
    ∀ r ∈ rs.take l, kept next stop h.spec.lossTimeout.toNat r = true ∧ ¬ contradicts next r := by
  intro r hr
  have hp := S.plausible r (List.mem_of_mem_take hr)
  have := hl r hr
  rw [S.threshold_eq, timeOf_made _ _ (fun h => (hp.gone h).2)] at this
  exact before_threshold _ _ ds next stop r hp S.longEnough this

theorem Recorded.sortedTimes (S : Recorded env junk h rs status f ctx ds nextSeq next stop) :
    rs.Pairwise fun a b => timeOf h.spec.lossTimeout.toNat a ≤ timeOf h.spec.lossTimeout.toNat b := by
  refine S.sorted.imp_of_mem ?_
  intro a b ha hb hab
  rw [timeOf_made _ _ (fun h => ((S.plausible a ha).gone h).2), timeOf_made _ _ (fun h => ((S.plausible b hb).gone h).2)]
  exact hab

/-- `search` reads the records of the file. -/
theorem search_congr (env : Env) (hw : Within env.interp) (T thresh : Nat) (rec rec' : Nat → Option DataRec) (n : Nat) (hn : n < 2 ^ 32)
    (hrec : ∀ i, i ≤ n → rec i = rec' i) : ∀ fuel low lowR high highR, low ≤ high → high ≤ n → lowR < thresh → thresh ≤ highR →
      highR < 2 ^ 64 → search env T thresh rec fuel low lowR high highR = search env T thresh rec' fuel low lowR high highR := by
  intro fuel
  induction fuel with
  | zero => intros; rfl
  | succ fuel ih =>
    intro low lowR high highR h1 h2 h3 h4 h5
    rw [search, search]
    by_cases hg : (high + 2 ^ 32 - low) % 2 ^ 32 > 1
    · rw [if_pos hg, if_pos hg]
      obtain ⟨p1, p2⟩ := probe_within env hw thresh low lowR high highR (by omega) (by omega) h3 h4 h5
      rw [hrec _ (by omega)]
      cases rec' (probe env thresh low lowR high highR) with
      | none => rfl
      | some r =>
        dsimp only
        by_cases ht : timeOf T r < thresh
        · rw [if_pos ht, if_pos ht]; exact ih _ _ _ _ p2 h2 ht h4 h5
        · rw [if_neg ht, if_neg ht]; exact ih _ _ _ _ (by omega) (by omega) h3 (by omega) (timeOf_lt T r)
    · rw [if_neg hg, if_neg hg]

/-- Whatever the search does, an answer of the clean-up is the right one. -/
theorem Recorded.locate_cases (S : Recorded env junk h rs status f ctx ds nextSeq next stop) (hw : Within env.interp) (hne : rs ≠ [])
    (fuel : Nat) :
    clean env f h.spec ctx nextSeq (BitVec.ofNat 64 stop) fuel = none ∨
    clean env f h.spec ctx nextSeq (BitVec.ofNat 64 stop) fuel = some (.failed f) ∨
    ∃ l p, l ≤ rs.length ∧ p.version = 3 ∧ p.recSize = 25 ∧ p.osetData = (headerEnd h.spec.slots.length : Int) ∧
      (∀ r ∈ rs.take l, kept next stop h.spec.lossTimeout.toNat r = true ∧ ¬ contradicts next r) ∧
      clean env f h.spec ctx nextSeq (BitVec.ofNat 64 stop) fuel =
        some (fromLow env p f next stop h.spec.lossTimeout.toNat (BitVec.ofNat 32 rs.length) l) := by
  obtain ⟨p, hv, hr, ho, hc⟩ := S.clean_eq hne fuel
  have hsize := S.size
  have hpos : 0 < rs.length := List.length_pos_iff.2 hne
  have hn : (BitVec.ofNat 32 rs.length).toNat = rs.length := by rw [BitVec.toNat_ofNat, Nat.mod_eq_of_lt (by omega)]
  have h0 := S.recAt_eq p hv hr ho 0 (by omega)
  have h0' := List.getElem?_eq_getElem hpos
  generalize rs[0] = r0 at h0'
  rw [hc]
  unfold locate
  rw [h0, h0']
  dsimp only
  by_cases hlt : timeOf h.spec.lossTimeout.toNat r0 < threshold (lastTime h.spec.startTime.toNat ds next) stop h.spec.lossTimeout.toNat
  · rw [if_neg (by simpa using hlt), hn]
    have hth : threshold (lastTime h.spec.startTime.toNat ds next) stop h.spec.lossTimeout.toNat ≤ stop := by
      rw [S.threshold_eq]; omega
    rw [search_congr env hw _ _ (recAt p f) (fun i => rs[i]?) rs.length (by omega) (fun i hi => S.recAt_eq p hv hr ho i hi) fuel 0 _ rs.length stop
      (by omega) (Nat.le_refl _) hlt hth S.stop64]
    cases hsr : search env h.spec.lossTimeout.toNat (threshold (lastTime h.spec.startTime.toNat ds next) stop h.spec.lossTimeout.toNat)
        (fun i => rs[i]?) fuel 0 (timeOf h.spec.lossTimeout.toNat r0) rs.length stop with
    | none => exact Or.inl rfl
    | some x =>
      cases x with
      | none => exact Or.inr (Or.inl rfl)
      | some l =>
        obtain ⟨hl, hall⟩ := C31_safe env _ _ stop rs r0 hw h0' hlt hth S.stop64 (by omega) S.sortedTimes fuel l hsr
        refine Or.inr (Or.inr ⟨l, p, by omega, hv, hr, ho, ?_, rfl⟩)
        exact S.before l (fun r hr => hall r (List.take_subset_take_left rs (by omega) hr))
  · rw [if_pos hlt]
    exact Or.inr (Or.inr ⟨0, p, by omega, hv, hr, ho, by simp, rfl⟩)

/-- C30: if the clean-up of a recorded session succeeds, no received packet contradicts the sender, and a reader of the file sees, in the
original order, exactly the records to keep, all announced by the header. `Drained`: see `C30_unflushed`. Missing: the clean-up may fail or never end
although nothing is wrong (`C30_cleans_partial` says when it does not). -/
theorem C30_kept_partial (S : Recorded env junk h rs status f ctx ds nextSeq next stop) (hw : Within env.interp)
    (hdr : Drained env next stop h.spec.lossTimeout.toNat rs) (fuel : Nat) (f' : Bytes) (m : U32) (o : Nat)
    (hok : clean env f h.spec ctx nextSeq (BitVec.ofNat 64 stop) fuel = some (.ok f' m o)) :
    (∀ r ∈ rs, ¬ contradicts next r) ∧ recordsSeen f' = rs.filter (kept next stop h.spec.lossTimeout.toNat) := by
  have hsize := S.size
  have hseen : ∀ ks : List DataRec, (∀ r ∈ ks, Stamp r.send ∧ Stamp r.recv) → ks.length < 2 ^ 32 →
      recordsSeen (fixedLayout 3#32 (BitVec.ofNat 32 status) 0 0 (BitVec.ofNat 32 ks.length) 0
          (BitVec.ofNat 64 (headerEnd h.spec.slots.length)) ++ requestPart h.args h.sid ++ (ks.map recLayout).flatten) = ks := by
    intro ks hks hn
    exact (seen_fixed h S.storable S.oneway _ 0 0 (BitVec.ofNat 32 ks.length) 0 ks hks (by decide)
      (by rw [BitVec.toNat_ofNat, Nat.mod_eq_of_lt hn]) _ rfl).1
  by_cases hne : rs = []
  · subst hne
    have hf := S.file_eq
    have hi := receiverFile_initial h S.storable (BitVec.ofNat 32 status) 0 (requestPart h.args h.sid)
    simp only [List.map_nil, List.flatten_nil, List.append_nil] at hf
    rw [← hf] at hi
    have hfl : f.length = headerEnd h.spec.slots.length := by
      rw [hf, List.length_append, fixedLayout_length, requestPart_length h S.storable]; unfold headerEnd; omega
    have hfin : finish env f ⟨none, 0, 0⟩ 0 = .ok f 0 0 := by
      unfold finish writeNumData
      dsimp only [copyBack]
      rw [hi, Option.bind_some]
      dsimp only
      rw [if_neg (by omega), if_neg (by omega)]
      dsimp only
      have : after f [⟨20, enc32 0⟩] = f := by
        show pwrite f 20 (enc32 0) = f
        rw [hf, pwrite_ndata]
      rw [this]
    unfold clean at hok
    rw [hi] at hok
    dsimp only at hok
    rw [hfl, Int.sub_self] at hok
    rw [if_neg (by simp), if_pos (by simp), hfin] at hok
    simp only [Option.some.injEq, Result.ok.injEq] at hok
    refine ⟨by simp, ?_⟩
    have := hseen [] (by simp) (by simp)
    simp only [List.map_nil, List.flatten_nil, List.append_nil, List.length_nil] at this
    rw [← hok.1, hf]
    exact this
  · rcases S.locate_cases hw hne fuel with hc | hc | ⟨l, p, hl, hv, hr, ho, hpre, hc⟩
    · rw [hc] at hok; cases hok
    · rw [hc] at hok; simp at hok
    · rw [hc] at hok
      obtain ⟨hbad, hgood⟩ := S.fromLow_eq p hv hr ho l hl hpre
      by_cases hcon : ∃ r ∈ rs, contradicts next r
      · rw [hbad hcon] at hok; simp at hok
      · obtain ⟨f'', m', o', e1, e2, _⟩ := hgood hcon hdr
        rw [e1] at hok
        simp only [Option.some.injEq, Result.ok.injEq] at hok
        refine ⟨fun r hr hc => hcon ⟨r, hr, hc⟩, ?_⟩
        rw [← hok.1, e2]
        refine hseen _ (fun r hr => S.stamps r (List.mem_filter.1 hr).1) ?_
        have := List.length_filter_le (kept next stop h.spec.lossTimeout.toNat) rs
        omega

/-- C30: the clean-up ends, and succeeds unless a received packet contradicts the sender, in which case it fails and leaves the file as it was.
Assumed: no record was made exactly at the search threshold and that threshold is before the stop time (see C31); the interpolation stays
inside its interval. -/
theorem C30_cleans_partial (S : Recorded env junk h rs status f ctx ds nextSeq next stop) (hw : Within env.interp) (hin : Inside env.interp)
    (htie : ∀ r ∈ rs, made h.spec.lossTimeout.toNat r ≠ min (lastTime h.spec.startTime.toNat ds next) stop - 2 * h.spec.lossTimeout.toNat)
    (hlate : min (lastTime h.spec.startTime.toNat ds next) stop - 2 * h.spec.lossTimeout.toNat < stop) (hne : rs ≠ []) (fuel : Nat)
    (hfuel : rs.length ≤ fuel) :
    ((∃ r ∈ rs, contradicts next r) → clean env f h.spec ctx nextSeq (BitVec.ofNat 64 stop) fuel = some (.failed f)) ∧
    ((¬ ∃ r ∈ rs, contradicts next r) → Drained env next stop h.spec.lossTimeout.toNat rs →
      ∃ f' m o, clean env f h.spec ctx nextSeq (BitVec.ofNat 64 stop) fuel = some (.ok f' m o) ∧
        recordsSeen f' = rs.filter (kept next stop h.spec.lossTimeout.toNat)) := by
  have hsize := S.size
  have hpos : 0 < rs.length := List.length_pos_iff.2 hne
  obtain ⟨l, p, hl, hv, hr, ho, hpre, hc⟩ : ∃ l p, l ≤ rs.length ∧ p.version = 3 ∧ p.recSize = 25 ∧
      p.osetData = (headerEnd h.spec.slots.length : Int) ∧
      (∀ r ∈ rs.take l, kept next stop h.spec.lossTimeout.toNat r = true ∧ ¬ contradicts next r) ∧
      clean env f h.spec ctx nextSeq (BitVec.ofNat 64 stop) fuel =
        some (fromLow env p f next stop h.spec.lossTimeout.toNat (BitVec.ofNat 32 rs.length) l) := by
    obtain ⟨p, hv, hr, ho, hc⟩ := S.clean_eq hne fuel
    have hn : (BitVec.ofNat 32 rs.length).toNat = rs.length := by rw [BitVec.toNat_ofNat, Nat.mod_eq_of_lt (by omega)]
    have h0 := S.recAt_eq p hv hr ho 0 (by omega)
    have h0' := List.getElem?_eq_getElem hpos
    generalize rs[0] = r0 at h0'
    rw [hc]
    unfold locate
    rw [h0, h0']
    dsimp only
    have hth := S.threshold_eq
    by_cases hlt : timeOf h.spec.lossTimeout.toNat r0 <
        threshold (lastTime h.spec.startTime.toNat ds next) stop h.spec.lossTimeout.toNat
    · rw [if_neg (by simpa using hlt), hn]
      rw [search_congr env hw _ _ (recAt p f) (fun i => rs[i]?) rs.length (by omega) (fun i hi => S.recAt_eq p hv hr ho i hi) fuel 0 _
        rs.length stop (by omega) (Nat.le_refl _) hlt (by rw [hth]; omega) S.stop64]
      obtain ⟨l, hl, hall, hs⟩ := C31_search_partial env h.spec.lossTimeout.toNat
        (threshold (lastTime h.spec.startTime.toNat ds next) stop h.spec.lossTimeout.toNat) stop rs r0 hin h0' hlt
        (by rw [hth]; exact hlate) S.stop64 (by omega)
        (by intro r hr; rw [hth, timeOf_made _ _ (fun h => ((S.plausible r hr).gone h).2)]; exact htie r hr) S.sortedTimes
      rw [hs fuel hfuel]
      exact ⟨l, p, by omega, hv, hr, ho, S.before l (fun r hr => hall r (List.take_subset_take_left rs (by omega) hr)), rfl⟩
    · rw [if_pos hlt]
      exact ⟨0, p, by omega, hv, hr, ho, by simp, rfl⟩
  obtain ⟨hbad, hgood⟩ := S.fromLow_eq p hv hr ho l hl hpre
  constructor
  · intro hcon; rw [hc, hbad hcon]
  · intro hcon hdr
    obtain ⟨f', m, o, e1, _⟩ := hgood hcon hdr
    refine ⟨f', m, o, by rw [hc, e1], ?_⟩
    exact (C30_kept_partial S hw hdr fuel f' m o (by rw [hc, e1])).2
end

/-! ## A concrete session, and what goes wrong -/

/-- One packet a second from `S`, ten packets, timeout one second. -/
def demoCleanHdr : HdrIn :=
  { demoFileHdr with
    spec := { demoFileHdr.spec with lossTimeout := 0x1_00000000#64, npackets := 10, slots := [.literal 0x1_00000000#64] } }

theorem demoCleanHdr_storable : Storable demoCleanHdr where
  family := trivial
  sid := rfl
  conf := Or.inr (Or.inr rfl)
  packets := by decide
  slots := by decide
  known := by
    intro s hs
    obtain rfl : s = .literal 0x1_00000000#64 := by simpa [demoCleanHdr] using hs
    trivial
  few := by decide

/-- A record of a packet sent and received so many sixteenths of a second after `S`. -/
def demoCleanRec (seq : U32) (send recv : Nat) : DataRec :=
  ⟨seq, ⟨BitVec.ofNat 64 (0xE0000000_00000000 + send * 0x10000000), true, 1, 10⟩,
    ⟨BitVec.ofNat 64 (0xE0000000_00000000 + recv * 0x10000000), true, 1, 10⟩, 64⟩

/-- The record of a lost packet. -/
def demoCleanLost (seq : U32) (send : Nat) : DataRec := { demoCleanRec seq send 0 with recv := ⟨0, true, 1, 10⟩ }

/-- Two packets, an early one sent within a second of the stop, and a lost one sent just before that. -/
def demoCleanRecs : List DataRec :=
  [demoCleanRec 0 16 20, demoCleanRec 1 32 33, demoCleanRec 5 88 90, demoCleanLost 4 80]

def demoCleanEnv (drain : Nat → Nat) : Env := ⟨fun _ _ => [], exactInterp, drain⟩

/-- The schedule context. -/
def demoCleanCtx : Sched.Ctx := Sched.setup demoCleanHdr.sid ⟨demoCleanHdr.spec.npackets, demoCleanHdr.spec.slots⟩

/-- Stopped six seconds after `S`. -/
def demoCleanStop : Nat := 0xE0000006_00000000

theorem demoClean_deltas : Sched.deltas (fun _ _ => []) 10 demoCleanCtx = (List.replicate 10 0x1_00000000).map Except.ok := by
  decide +kernel

theorem demoClean_recorded (rs : List DataRec) (hst : ∀ r ∈ rs, Stamp r.send ∧ Stamp r.recv) (hl : rs.length < 100)
    (hp : ∀ r ∈ rs, Plausible 0xE0000000_00000000 0x1_00000000 (List.replicate 10 0x1_00000000) r)
    (hs : rs.Pairwise fun a b => made 0x1_00000000 a ≤ made 0x1_00000000 b) (drain : Nat → Nat) :
    ∃ f, Recorded (demoCleanEnv drain) (zeros 112) demoCleanHdr rs 2 f demoCleanCtx (List.replicate 10 0x1_00000000) 0xFFFFFFFF#32 10
      demoCleanStop :=
  ⟨_, { file := receiverFile_eq _ _ rs 2 rfl demoCleanHdr_storable rfl ⟨rfl, rfl⟩ (by decide) hst
        junkLen := rfl
        storable := demoCleanHdr_storable
        oneway := rfl
        fresh := ⟨rfl, rfl⟩
        statusIs := by decide
        stamps := hst
        size := by omega
        schedule := ⟨demoCleanCtx, [], rfl, rfl, demoClean_deltas⟩
        noWrap := by decide
        nextIs := rfl
        nextFits := by decide
        stop64 := by decide
        longEnough := by decide
        plausible := hp
        sorted := hs }⟩

theorem demoClean (drain : Nat → Nat) :
    ∃ f, Recorded (demoCleanEnv drain) (zeros 112) demoCleanHdr demoCleanRecs 2 f demoCleanCtx (List.replicate 10 0x1_00000000) 0xFFFFFFFF#32 10
      demoCleanStop := by
  refine demoClean_recorded demoCleanRecs ?_ (by decide) ?_ (by decide) drain
  · intro r hr
    simp only [demoCleanRecs, List.mem_cons, List.not_mem_nil, or_false] at hr
    rcases hr with rfl | rfl | rfl | rfl <;> unfold Stamp <;> decide
  · intro r hr
    simp only [demoCleanRecs, List.mem_cons, List.not_mem_nil, or_false] at hr
    rcases hr with rfl | rfl | rfl | rfl
    · exact ⟨by decide, fun _ => by decide, fun h => absurd h (by decide)⟩
    · exact ⟨by decide, fun _ => by decide, fun h => absurd h (by decide)⟩
    · exact ⟨by decide, fun _ => by decide, fun h => absurd h (by decide)⟩
    · exact ⟨by decide, fun h => absurd (by decide) h, fun _ => by decide⟩

/-- The premises of `C30_cleans_partial` are met, with a flushing stream, by a session with kept and dropped records. -/
example : ∃ f f' m o, clean (demoCleanEnv id) f demoCleanHdr.spec demoCleanCtx 0xFFFFFFFF#32 (BitVec.ofNat 64 demoCleanStop) 4 =
    some (.ok f' m o) ∧ recordsSeen f' = [demoCleanRec 0 16 20, demoCleanRec 1 32 33, demoCleanLost 4 80] := by
  obtain ⟨f, S⟩ := demoClean id
  obtain ⟨f', m, o, h1, h2⟩ := (C30_cleans_partial S exactInterp_within exactInterp_inside
    (by intro r hr
        simp only [demoCleanRecs, List.mem_cons, List.not_mem_nil, or_false] at hr
        rcases hr with rfl | rfl | rfl | rfl <;> decide) (by decide) (by decide) 4 (by decide)).2 (by decide) (Or.inl fun _ => rfl)
  refine ⟨f, f', m, o, h1, h2.trans ?_⟩
  decide +kernel

/-- C30 fails for lack of a `fflush`: while the records written to the temporary file are in the buffer of its stream, they are not copied back. In
this session one kept record follows a dropped one. The clean-up succeeds and announces three records, the file holds two, and a reader
rejects it. -/
theorem C30_unflushed : ∃ f f' m o,
    Recorded (demoCleanEnv fun _ => 0) (zeros 112) demoCleanHdr demoCleanRecs 2 f demoCleanCtx (List.replicate 10 0x1_00000000) 0xFFFFFFFF#32 10
      demoCleanStop ∧
    clean (demoCleanEnv fun _ => 0) f demoCleanHdr.spec demoCleanCtx 0xFFFFFFFF#32 (BitVec.ofNat 64 demoCleanStop) 4 = some (.ok f' m o) ∧
    (demoCleanRecs.filter (kept 10 demoCleanStop 0x1_00000000)).length = 3 ∧ readHeader f' = .bad true ∧ recordsSeen f' = [] := by
  obtain ⟨f, S⟩ := demoClean fun _ => 0
  have hf := S.file
  have key : (match receiverFile (zeros 112) demoCleanHdr demoCleanRecs 2 with
      | none => false
      | some f =>
        match clean (demoCleanEnv fun _ => 0) f demoCleanHdr.spec demoCleanCtx 0xFFFFFFFF#32 (BitVec.ofNat 64 demoCleanStop) 4 with
        | some (.ok f' _ _) => decide (readHeader f' = .bad true)
        | _ => false) = true := by decide +kernel
  rw [hf] at key
  dsimp only at key
  cases hc : clean (demoCleanEnv fun _ => 0) f demoCleanHdr.spec demoCleanCtx 0xFFFFFFFF#32 (BitVec.ofNat 64 demoCleanStop) 4 with
  | none => rw [hc] at key; cases key
  | some r =>
    rw [hc] at key
    cases r with
    | undefined => cases key
    | failed _ => cases key
    | ok f' m o =>
      have hb : readHeader f' = .bad true := of_decide_eq_true key
      exact ⟨f, f', m, o, S, hc, by decide +kernel, hb, by unfold recordsSeen; rw [hb]⟩

/-- A search whose upper end is a record made exactly at the threshold goes on forever. -/
theorem search_tie (env : Env) (hend : EndToEnd env.interp) (T thresh : Nat) (rec : Nat → Option DataRec) (low lowR high : Nat)
    (h1 : low + 1 < high) (h2 : high < 2 ^ 32) (h3 : lowR < thresh) (h4 : thresh < 2 ^ 64)
    (hr : ∃ r, rec high = some r ∧ timeOf T r = thresh) : ∀ fuel, search env T thresh rec fuel low lowR high thresh = none := by
  obtain ⟨r, hr, ht⟩ := hr
  intro fuel
  induction fuel with
  | zero => rfl
  | succ fuel ih =>
    have hp := probe_eq env thresh low lowR high thresh (by omega) h2 h3 (Nat.le_refl _) h4
    rw [hend low _ _ (by omega), show low + (high - low) = high by omega, if_neg (by omega)] at hp
    rw [search, span low high (by omega) h2, if_pos (by omega), hp, hr]
    dsimp only
    rw [if_neg (by omega), ht, ih]

/-- Four packets, the third of which arrives exactly two timeouts before the stop. -/
def demoTieRecs : List DataRec := [demoCleanRec 0 24 32, demoCleanRec 1 40 48, demoCleanRec 2 60 64, demoCleanRec 3 65 70]

/-- C31 fails when a record was made exactly at the threshold: the clean-up of this session never ends. -/
theorem C31_never_ends : ∃ f,
    Recorded (demoCleanEnv id) (zeros 112) demoCleanHdr demoTieRecs 2 f demoCleanCtx (List.replicate 10 0x1_00000000) 0xFFFFFFFF#32 10
      demoCleanStop ∧
    ∀ fuel, clean (demoCleanEnv id) f demoCleanHdr.spec demoCleanCtx 0xFFFFFFFF#32 (BitVec.ofNat 64 demoCleanStop) fuel = none := by
  obtain ⟨f, S⟩ := demoClean_recorded demoTieRecs
    (by intro r hr
        simp only [demoTieRecs, List.mem_cons, List.not_mem_nil, or_false] at hr
        rcases hr with rfl | rfl | rfl | rfl <;> unfold Stamp <;> decide) (by decide)
    (by intro r hr
        simp only [demoTieRecs, List.mem_cons, List.not_mem_nil, or_false] at hr
        rcases hr with rfl | rfl | rfl | rfl <;> exact ⟨by decide, fun _ => by decide, fun h => absurd h (by decide)⟩)
    (by decide) id
  refine ⟨f, S, fun fuel => ?_⟩
  obtain ⟨p, hv, hr, ho, hc⟩ := S.clean_eq (by decide) fuel
  have hth : threshold (lastTime demoCleanHdr.spec.startTime.toNat (List.replicate 10 0x1_00000000) 10) demoCleanStop
      demoCleanHdr.spec.lossTimeout.toNat = 0xE0000004_00000000 := by decide +kernel
  rw [hc]
  unfold locate
  rw [S.recAt_eq p hv hr ho 0 (by decide), hth]
  have h0 : demoTieRecs[0]? = some (demoCleanRec 0 24 32) := rfl
  rw [h0]
  dsimp only
  have ht0 : timeOf demoCleanHdr.spec.lossTimeout.toNat (demoCleanRec 0 24 32) = 0xE0000002_00000000 := by decide +kernel
  have ht2 : timeOf demoCleanHdr.spec.lossTimeout.toNat (demoCleanRec 2 60 64) = 0xE0000004_00000000 := by decide +kernel
  rw [ht0, if_neg (by decide)]
  have hlen : (BitVec.ofNat 32 demoTieRecs.length).toNat = 4 := by decide
  rw [hlen]
  cases fuel with
  | zero => rfl
  | succ fuel =>
    have hprobe : probe (demoCleanEnv id) 0xE0000004_00000000 0 0xE0000002_00000000 4 demoCleanStop = 2 := by decide +kernel
    have h2 : recAt p f 2 = some (demoCleanRec 2 60 64) := S.recAt_eq p hv hr ho 2 (by decide)
    rw [search, if_pos (by decide), hprobe, h2]
    dsimp only
    rw [ht2, if_neg (by decide)]
    rw [search_tie (demoCleanEnv id) exactInterp_ends _ _ _ 0 _ 2 (by decide) (by decide) (by decide) (by decide) ⟨_, h2, ht2⟩ fuel]

end Owamp.Props
