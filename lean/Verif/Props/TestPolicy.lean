import Verif.Spec.TestPolicy
import Verif.Props.Daemon
import Verif.Props.Fetch
/-!
# C45, C46 and C62: test sessions and their files under the policy
-/
namespace Owamp.Props
open Owamp.Policy Owamp.Spec.TestPolicy Owamp.Spec.Limits Owamp.Spec.Fetch Owamp.Fetch Owamp.Ctl Owamp.File

theorem held_append (l : U32) (a b : List Asked) : held l (a ++ b) = held l a + held l b := by
  unfold held
  rw [List.map_append, List.sum_append]

theorem held_query (A : Answers) (log : List Asked) (q : U32) (r : Res) (l : U32) :
    held l (query A log q r) = held l log + gained l ⟨q, r, A log q r⟩ := by
  unfold query
  rw [held_append]
  simp [held]

/-- The part of a record that concerns the limit. -/
def part (l : U32) (r : Res) : Int := if r.limit = l then (r.value.toNat : Int) else 0

theorem part_nonneg (l : U32) (r : Res) : 0 ≤ part l r := by unfold part; split <;> omega
theorem part_self (r : Res) : part r.limit r = r.value.toNat := by unfold part; rw [if_pos rfl]
theorem part_zero (l : U32) : part l ⟨0, 0⟩ = 0 := by unfold part; split <;> rfl

theorem held_release (A : Answers) (hA : Honest A) (log : List Asked) (hm : Made A log) (r : Res)
    (hh : (r.value.toNat : Int) ≤ held r.limit log) (l : U32) : held l (query A log mesgRelease r) = held l log - part l r := by
  rw [held_query]
  by_cases hz : r.value = 0
  · have : (r.value.toNat : Int) = 0 := by rw [hz]; rfl
    unfold gained part
    dsimp only
    split <;> split <;> omega
  · rw [hA.takes log r hm hz hh]
    unfold gained part
    dsimp only
    by_cases hl : r.limit = l
    · rw [if_pos ⟨rfl, hl⟩, if_pos rfl, if_pos hl]; omega
    · rw [if_neg (fun h => hl h.2), if_neg hl]; omega

theorem held_ok (A : Answers) (log : List Asked) (q : U32) (r : Res) (hq : q ≠ mesgRelease) (ha : A log q r = mesgOk) (l : U32) :
    held l (query A log q r) = held l log + part l r := by
  rw [held_query, ha]
  unfold gained part
  dsimp only
  by_cases hl : r.limit = l
  · rw [if_pos ⟨rfl, hl⟩, if_neg hq, if_pos hl]
  · rw [if_neg (fun h => hl h.2), if_neg hl]

theorem held_denied (A : Answers) (log : List Asked) (q : U32) (r : Res) (ha : A log q r = mesgDenied) (l : U32) :
    held l (query A log q r) = held l log := by
  rw [held_query, ha]
  unfold gained
  dsimp only
  rw [if_neg (fun h => absurd h.1 (by decide))]
  omega

/-- What a session may have reserved. -/
structure Fine (i : TestInfo) : Prop where
  r0 : i.res0 = ⟨0, 0⟩ ∨ (i.res0.limit = limBandwidth ∧ i.res0.value.toNat < 2 ^ 63)
  r1 : i.res1 = ⟨0, 0⟩ ∨ (i.res1.limit = limDisk ∧ i.res1.value.toNat < 2 ^ 63)

theorem reserved_eq (l : U32) (i : TestInfo) : reserved l i = part l i.res0 + part l i.res1 := rfl

theorem checkDisk_held (claimOver : U64 → U64 → Bool) (A : Answers) (hA : Honest A) (mine : Tree) (log : List Asked) (hm : Made A log)
    (c : Nat) (sender : Bool) (space : U64) (hs : space.toNat < 2 ^ 63) (res0 : Res)
    (hres : res0 = ⟨0, 0⟩ ∨ (res0.limit = limBandwidth ∧ res0.value.toNat < 2 ^ 63))
    (hh : (res0.value.toNat : Int) ≤ held res0.limit log) (k : Check) (mine' : Tree) (log' : List Asked)
    (h : checkDisk claimOver A mine log c sender space res0 = (k, mine', log')) :
    Made A log' ∧ k ≠ .fatal ∧ (k = .refused → ∀ l, held l log' = held l log - part l res0) ∧
    (∀ i, k = .granted i → Fine i ∧ ∀ l, held l log' = held l log - part l res0 + reserved l i) := by
  unfold checkDisk at h
  cases sender with
  | true =>
    rw [if_pos rfl] at h
    cases h
    refine ⟨hm, Check.noConfusion, Check.noConfusion, ?_⟩
    rintro i ⟨⟩
    refine ⟨⟨hres, Or.inl rfl⟩, fun l => ?_⟩
    have := reserved_eq l ⟨c, false, res0, ⟨0, 0⟩⟩
    have := part_zero l
    dsimp only at *
    omega
  | false =>
    rw [if_neg Bool.false_ne_true] at h
    dsimp only at h
    have hm1 : Made A (query A log mesgRequest ⟨limDisk, space⟩) := .more _ _ _ hm hs
    rcases hA.answers log mesgRequest ⟨limDisk, space⟩ hm with ha | ha
    · rw [ha, if_neg (by decide), if_neg (by decide)] at h
      cases h
      refine ⟨hm1, Check.noConfusion, Check.noConfusion, ?_⟩
      rintro i ⟨⟩
      refine ⟨⟨hres, Or.inr ⟨rfl, hs⟩⟩, fun l => ?_⟩
      rw [held_ok A log _ _ (by decide) ha]
      have := reserved_eq l ⟨c, false, res0, ⟨limDisk, space⟩⟩
      dsimp only at *
      omega
    · rw [ha, if_pos rfl] at h
      cases h
      have hd := held_denied A log mesgRequest ⟨limDisk, space⟩ ha
      refine ⟨.more _ _ _ hm1 ?_, Check.noConfusion, fun _ l => ?_, fun i hi => Check.noConfusion hi⟩
      · rcases hres with hr | hr
        · rw [hr]; decide
        · exact hr.2
      · rw [held_release A hA _ hm1 res0 (by rw [hd]; exact hh), hd]

theorem checkTest_held (claimOver : U64 → U64 → Bool) (A : Answers) (hA : Honest A) (mine : Tree) (log : List Asked) (hm : Made A log)
    (hpos : ∀ l, 0 ≤ held l log) (c : Nat) (twoway sender : Bool) (bandwidth space : U64) (hb : bandwidth.toNat < 2 ^ 63)
    (hs : space.toNat < 2 ^ 63) (k : Check) (mine' : Tree) (log' : List Asked)
    (h : checkTest claimOver A mine log c twoway sender bandwidth space = (k, mine', log')) :
    Made A log' ∧ k ≠ .fatal ∧ (k = .refused → ∀ l, held l log' = held l log) ∧
    (∀ i, k = .granted i → Fine i ∧ ∀ l, held l log' = held l log + reserved l i) := by
  unfold checkTest at h
  dsimp only at h
  split at h
  · cases twoway with
    | true =>
      rw [if_pos rfl] at h
      obtain ⟨h1, h2, h3, h4⟩ := checkDisk_held claimOver A hA _ log hm c sender space hs ⟨0, 0⟩ (Or.inl rfl) (hpos _) k mine' log' h
      refine ⟨h1, h2, fun hk l => ?_, fun i hi => ⟨(h4 i hi).1, fun l => ?_⟩⟩
      · rw [h3 hk l, part_zero]; omega
      · rw [(h4 i hi).2 l, part_zero]; omega
    | false =>
      rw [if_neg Bool.false_ne_true] at h
      have hm1 : Made A (query A log mesgRequest ⟨limBandwidth, bandwidth⟩) := .more _ _ _ hm hb
      rcases hA.answers log mesgRequest ⟨limBandwidth, bandwidth⟩ hm with ha | ha
      · rw [ha, if_neg (by decide), if_neg (by decide)] at h
        have hok := held_ok A log mesgRequest ⟨limBandwidth, bandwidth⟩ (by decide) ha
        obtain ⟨h1, h2, h3, h4⟩ := checkDisk_held claimOver A hA _ _ hm1 c sender space hs ⟨limBandwidth, bandwidth⟩ (Or.inr ⟨rfl, hb⟩)
          (by rw [hok, part_self]; have := hpos limBandwidth; dsimp only at *; omega) k mine' log' h
        refine ⟨h1, h2, fun hk l => ?_, fun i hi => ⟨(h4 i hi).1, fun l => ?_⟩⟩
        · rw [h3 hk l, hok]; omega
        · rw [(h4 i hi).2 l, hok]; omega
      · rw [ha, if_pos rfl] at h
        cases h
        exact ⟨hm1, Check.noConfusion, fun _ l => held_denied A log _ _ ha l, fun i hi => Check.noConfusion hi⟩
  · cases h
    exact ⟨hm, Check.noConfusion, fun _ _ => rfl, fun i hi => Check.noConfusion hi⟩

theorem complete_held (A : Answers) (hA : Honest A) (log : List Asked) (hm : Made A log) (i : TestInfo) (hf : Fine i)
    (hh : ∀ l, reserved l i ≤ held l log) :
    Made A (completeTest A log i) ∧ ∀ l, held l (completeTest A log i) = held l log - reserved l i := by
  unfold completeTest
  dsimp only
  have key : ∀ (log : List Asked) (r : Res), Made A log → (r = ⟨0, 0⟩ ∨ (r.limit ≠ 0 ∧ r.value.toNat < 2 ^ 63)) → part r.limit r ≤ held r.limit log →
      Made A (if r.limit = 0 then log else query A log mesgRelease r) ∧
      ∀ l, held l (if r.limit = 0 then log else query A log mesgRelease r) = held l log - part l r := by
    intro log r hm hr hp
    rcases hr with rfl | ⟨hr, hv⟩
    · rw [if_pos rfl]
      exact ⟨hm, fun l => by rw [part_zero]; omega⟩
    · rw [if_neg hr]
      exact ⟨.more _ _ _ hm hv, held_release A hA log hm r (by rw [part_self] at hp; exact hp)⟩
  have h0 := hh i.res0.limit
  rw [reserved_eq] at h0
  have hp1 := part_nonneg i.res0.limit i.res1
  obtain ⟨m0, e0⟩ := key log i.res0 hm (hf.r0.imp id (fun h => ⟨by rw [h.1]; decide, h.2⟩)) (by omega)
  have h1 := hh i.res1.limit
  rw [reserved_eq] at h1
  obtain ⟨m1, e1⟩ := key _ i.res1 m0 (hf.r1.imp id (fun h => ⟨by rw [h.1]; decide, h.2⟩)) (by rw [e0]; omega)
  refine ⟨m1, fun l => ?_⟩
  rw [e1, e0, reserved_eq]
  omega

theorem toInt_eq (x : U64) (h : x.toNat < 2 ^ 63) : x.toInt = x.toNat := by
  rw [BitVec.toInt_eq_toNat_cond, if_pos (by omega)]

theorem end_held (A : Answers) (hA : Honest A) (log : List Asked) (hm : Made A log) (i : TestInfo) (hf : Fine i)
    (hh : ∀ l, reserved l i ≤ held l log) (f : Fate) (hreg : ∀ size stat accept, f = .file size stat accept → size.toNat < 2 ^ 63 ∧ stat = true)
    (hd : ∀ size stat accept, f = .file size stat accept → i.res1.limit = limDisk) :
    Made A (endTest A log i f).1 ∧ ∀ l, held l (endTest A log i f).1 = held l log - reserved l i + (if l = limDisk then ((endTest A log i f).2 : Int) else 0) := by
  cases f with
  | noFile =>
    obtain ⟨h1, h2⟩ := complete_held A hA log hm i hf hh
    refine ⟨h1, fun l => ?_⟩
    show held l (completeTest A log i) = held l log - reserved l i + (if l = limDisk then ((0 : Nat) : Int) else 0)
    rw [h2 l]
    split <;> omega
  | file size stat accept =>
    obtain ⟨hsz, rfl⟩ := hreg _ _ _ rfl
    have hlim := hd _ _ _ rfl
    have hr1 : i.res1.value.toNat < 2 ^ 63 := by
      rcases hf.r1 with h | h
      · rw [h] at hlim; exact absurd hlim (by decide)
      · exact h.2
    have hi1 : i.res1 = ⟨limDisk, i.res1.value⟩ := by rw [← hlim]
    -- closing and completing: once the disk space held for the file is right, only the bandwidth is left
    have fin : ∀ (log2 : List Asked) (left : Nat), Made A log2 →
        (∀ l, held l log2 = held l log - part l i.res1 + (if l = limDisk then (left : Int) else 0)) →
        Made A (completeTest A log2 { i with opened := false, res1 := ⟨0, 0⟩ }) ∧ ∀ l, held l (completeTest A log2 { i with opened := false, res1 := ⟨0, 0⟩ }) =
          held l log - reserved l i + (if l = limDisk then (left : Int) else 0) := by
      intro log2 left hm2 h2
      have hf2 : Fine { i with opened := false, res1 := ⟨0, 0⟩ } := ⟨hf.r0, Or.inl rfl⟩
      have hres : ∀ l, reserved l { i with opened := false, res1 := ⟨0, 0⟩ } = part l i.res0 := fun l => by
        rw [reserved_eq]; show part l i.res0 + part l ⟨0, 0⟩ = _; rw [part_zero]; omega
      obtain ⟨a, b⟩ := complete_held A hA log2 hm2 _ hf2 (fun l => by
        rw [hres, h2]
        have := hh l
        rw [reserved_eq] at this
        split <;> omega)
      refine ⟨a, fun l => ?_⟩
      rw [b, hres, h2, reserved_eq]
      omega
    have hheld : (i.res1.value.toNat : Int) ≤ held limDisk log := by
      have h1 := hh limDisk
      have h0 := part_nonneg limDisk i.res0
      rw [reserved_eq] at h1
      have : part limDisk i.res1 = i.res1.value.toNat := by rw [← hlim, part_self]
      omega
    have hrel : ∀ l, held l (query A log mesgRelease i.res1) = held l log - part l i.res1 :=
      held_release A hA log hm i.res1 (by rw [hlim]; exact hheld)
    have close : ∃ log2 removed, closeTest A log (openTest i true) (some size) accept = ({ i with opened := false, res1 := ⟨0, 0⟩ }, log2, removed) ∧
        Made A log2 ∧ ∀ l, held l log2 = held l log - part l i.res1 + (if l = limDisk then (((if removed then 0 else size.toNat : Nat)) : Int) else 0) := by
      unfold closeTest openTest
      rw [if_pos rfl]
      dsimp only
      cases accept with
      | false =>
        rw [if_pos (by decide)]
        exact ⟨_, true, rfl, .more _ _ _ hm hr1, fun l => by rw [hrel, if_pos rfl]; split <;> omega⟩
      | true =>
        rw [if_neg (by decide), toInt_eq _ hsz, toInt_eq _ hr1]
        by_cases hlt : (size.toNat : Int) < i.res1.value.toNat
        · rw [if_pos hlt]
          have hsub : (i.res1.value - size).toNat = i.res1.value.toNat - size.toNat := BitVec.toNat_sub_of_le (by
            show size.toNat ≤ i.res1.value.toNat; omega)
          refine ⟨_, false, rfl, .more _ _ _ hm (by dsimp only; omega), (fun l => ?_)⟩
          rw [held_release A hA log hm _ (by dsimp only; omega), if_neg Bool.false_ne_true]
          rw [hi1]
          unfold part
          dsimp only
          by_cases hl : limDisk = l
          · rw [if_pos hl, if_pos hl, if_pos hl.symm, hsub]; omega
          · rw [if_neg hl, if_neg hl, if_neg (Ne.symm hl)]; omega
        · rw [if_neg hlt]
          by_cases hgt : (i.res1.value.toNat : Int) < size.toNat
          · rw [if_pos hgt]
            have hsub : (size - i.res1.value).toNat = size.toNat - i.res1.value.toNat := BitVec.toNat_sub_of_le (by
              show i.res1.value.toNat ≤ size.toNat; omega)
            have hm1 : Made A (query A log mesgClaim ⟨limDisk, size - i.res1.value⟩) := .more _ _ _ hm (by dsimp only; omega)
            rcases hA.answers log mesgClaim ⟨limDisk, size - i.res1.value⟩ hm with ha | ha
            · rw [ha, if_neg (by decide)]
              refine ⟨_, false, rfl, hm1, (fun l => ?_)⟩
              rw [held_ok A log _ _ (by decide) ha, if_neg Bool.false_ne_true]
              rw [hi1]
              unfold part
              dsimp only
              by_cases hl : limDisk = l
              · rw [if_pos hl, if_pos hl, if_pos hl.symm, hsub]; omega
              · rw [if_neg hl, if_neg hl, if_neg (Ne.symm hl)]; omega
            · rw [ha, if_pos rfl]
              have hden := held_denied A log mesgClaim ⟨limDisk, size - i.res1.value⟩ ha
              refine ⟨_, true, rfl, .more _ _ _ hm1 hr1, (fun l => ?_)⟩
              rw [held_release A hA _ hm1 i.res1 (by rw [hden, hlim]; exact hheld), hden, if_pos rfl]
              split <;> omega
          · rw [if_neg hgt]
            refine ⟨log, false, rfl, hm, (fun l => ?_)⟩
            rw [if_neg Bool.false_ne_true, hi1]
            unfold part
            dsimp only
            by_cases hl : limDisk = l
            · rw [if_pos hl, if_pos hl.symm]; omega
            · rw [if_neg hl, if_neg (Ne.symm hl)]; omega
    obtain ⟨log2, removed, hc, hm2, h2⟩ := close
    unfold endTest
    dsimp only
    rw [if_pos rfl, hc]
    exact fin log2 _ hm2 h2

/-! ## Histories -/

/-- What the sessions in progress have reserved. -/
def reservedAll (l : U32) (live : List TestInfo) : Int := (live.map (reserved l)).sum

/-- What holds of a process whatever it has done. -/
structure Balanced (A : Answers) (p : Proc) : Prop where
  made : Made A p.log
  fine : ∀ i ∈ p.live, Fine i
  balance : ∀ l, held l p.log = reservedAll l p.live + (if l = limDisk then (p.kept : Int) else 0)

theorem reserved_nonneg (l : U32) (i : TestInfo) : 0 ≤ reserved l i := by
  rw [reserved_eq]; have := part_nonneg l i.res0; have := part_nonneg l i.res1; omega

theorem reservedAll_nonneg (l : U32) (live : List TestInfo) : 0 ≤ reservedAll l live := by
  induction live with
  | nil => exact Int.le_refl _
  | cons i is ih =>
    unfold reservedAll at *
    rw [List.map_cons, List.sum_cons]
    have := reserved_nonneg l i
    omega

theorem reservedAll_eraseIdx (l : U32) (live : List TestInfo) (k : Nat) (i : TestInfo) (h : live[k]? = some i) :
    reservedAll l (live.eraseIdx k) = reservedAll l live - reserved l i := by
  induction live generalizing k with
  | nil => cases h
  | cons x xs ih =>
    cases k with
    | zero =>
      rw [List.getElem?_cons_zero] at h
      cases h
      unfold reservedAll
      rw [List.eraseIdx_cons_zero, List.map_cons, List.sum_cons]
      omega
    | succ k =>
      rw [List.getElem?_cons_succ] at h
      have := ih k h
      unfold reservedAll at *
      rw [List.eraseIdx_cons_succ, List.map_cons, List.sum_cons, List.map_cons, List.sum_cons, this]
      omega

theorem balanced_act (claimOver : U64 → U64 → Bool) (A : Answers) (hA : Honest A) (c : Nat) (p : Proc) (op : Op) (hb : Balanced A p)
    (hr : Regular op) : Balanced A (p.act claimOver A c op) := by
  have hpos : ∀ l, 0 ≤ held l p.log := fun l => by
    rw [hb.balance l]
    have := reservedAll_nonneg l p.live
    split <;> omega
  unfold Proc.act
  cases op with
  | request twoway sender bandwidth space =>
    dsimp only
    cases h : checkTest claimOver A p.mine p.log c twoway sender bandwidth space with
    | mk k r =>
      obtain ⟨mine, log⟩ := r
      obtain ⟨h1, h2, h3, h4⟩ := checkTest_held claimOver A hA p.mine p.log hb.made hpos c twoway sender bandwidth space hr.1 hr.2 k mine log h
      cases k with
      | refused => exact ⟨h1, hb.fine, fun l => (h3 rfl l).trans (hb.balance l)⟩
      | fatal => exact absurd rfl h2
      | granted i =>
        obtain ⟨f, e⟩ := h4 i rfl
        refine ⟨h1, fun j hj => ?_, fun l => ?_⟩
        · rcases List.mem_append.1 hj with hj | hj
          · exact hb.fine j hj
          · rw [List.mem_singleton.1 hj]; exact f
        · show held l log = reservedAll l (p.live ++ [i]) + _
          rw [e l, hb.balance l]
          unfold reservedAll
          rw [List.map_append, List.sum_append]
          simp only [List.map_cons, List.map_nil, List.sum_cons, List.sum_nil]
          omega
  | finish k f =>
    dsimp only
    cases hk : p.live[k]? with
    | none => exact hb
    | some i =>
      have hmem := List.mem_of_getElem? hk
      have hle : ∀ l, reserved l i ≤ held l p.log := fun l => by
        rw [hb.balance l]
        have h1 := reservedAll_eraseIdx l p.live k i hk
        have h2 := reservedAll_nonneg l (p.live.eraseIdx k)
        split <;> omega
      cases f with
      | noFile =>
        obtain ⟨a, b⟩ := end_held A hA p.log hb.made i (hb.fine i hmem) hle .noFile (fun _ _ _ h => Fate.noConfusion h) (fun _ _ _ h => Fate.noConfusion h)
        refine ⟨a, fun j hj => hb.fine j (List.mem_of_mem_eraseIdx hj), fun l => ?_⟩
        dsimp only
        rw [b l, hb.balance l, reservedAll_eraseIdx l p.live k i hk]
        show _ + (if l = limDisk then ((0 : Nat) : Int) else 0) = _
        split <;> omega
      | file size stat accept =>
        dsimp only
        split
        · rename_i hlim
          obtain ⟨a, b⟩ := end_held A hA p.log hb.made i (hb.fine i hmem) hle (.file size stat accept)
            (fun _ _ _ h => by cases h; exact hr) (fun _ _ _ _ => hlim)
          refine ⟨a, fun j hj => hb.fine j (List.mem_of_mem_eraseIdx hj), fun l => ?_⟩
          dsimp only
          rw [b l, hb.balance l, reservedAll_eraseIdx l p.live k i hk]
          split <;> omega
        · exact hb

/-- A process at the start. -/
def fresh (t : Tree) : Proc := ⟨t, [], [], 0, 0⟩

theorem balanced_all (claimOver : U64 → U64 → Bool) (A : Answers) (hA : Honest A) (c : Nat) (ops : List Op) (p : Proc) (hb : Balanced A p)
    (hr : ∀ op ∈ ops, Regular op) : Balanced A (ops.foldl (Proc.act claimOver A c) p) := by
  induction ops generalizing p with
  | nil => exact hb
  | cons op ops ih =>
    rw [List.foldl_cons]
    exact ih _ (balanced_act claimOver A hA c p op hb (hr op List.mem_cons_self)) (fun o ho => hr o (List.mem_cons_of_mem _ ho))

/-- C45: after any sequence of requests and ends of sessions, with any answers of a daemon that is there, a process holds of
bandwidth what its sessions in progress have reserved, and of disk space what they have reserved and the sizes of the files its
sessions have left. (Amounts and sizes below 2^63; `fstat` succeeds. What is missing: `C45_lost_answer`, `C45_unknown_size`.) -/
theorem C45_balance_partial (claimOver : U64 → U64 → Bool) (A : Answers) (hA : Honest A) (t : Tree) (c : Nat) (ops : List Op)
    (hr : ∀ op ∈ ops, Regular op) (l : U32) :
    let p := ops.foldl (Proc.act claimOver A c) (fresh t)
    held l p.log = reservedAll l p.live + (if l = limDisk then (p.kept : Int) else 0) :=
  (balanced_all claimOver A hA c ops (fresh t) ⟨.start, (fun _ h => nomatch h), fun l => by
    show (0 : Int) = 0 + (if l = limDisk then ((0 : Nat) : Int) else 0)
    split <;> rfl⟩ hr).balance l

/-- C45: in particular, when all sessions have ended no bandwidth is held, and the disk space held is the sizes of the files
that are left. -/
theorem C45_returned_partial (claimOver : U64 → U64 → Bool) (A : Answers) (hA : Honest A) (t : Tree) (c : Nat) (ops : List Op)
    (hr : ∀ op ∈ ops, Regular op) (hend : (ops.foldl (Proc.act claimOver A c) (fresh t)).live = []) :
    held limBandwidth (ops.foldl (Proc.act claimOver A c) (fresh t)).log = 0 ∧
    held limDisk (ops.foldl (Proc.act claimOver A c) (fresh t)).log = (ops.foldl (Proc.act claimOver A c) (fresh t)).kept := by
  have h1 := C45_balance_partial claimOver A hA t c ops hr limBandwidth
  have h2 := C45_balance_partial claimOver A hA t c ops hr limDisk
  dsimp only at h1 h2
  rw [hend] at h1 h2
  exact ⟨h1, by rw [h2, if_pos rfl]; exact Int.zero_add _⟩

/-! ## The daemon that answers -/

/-- A query of a process of the class `c` as the daemon sees it. -/
def eventOf (c : Nat) (a : Asked) : Event := ⟨c, a.query, a.res.limit, a.res.value⟩

/-- The answers of the daemon with the classes `t` to a process of the class `c`, no other asking. -/
def daemonAnswers (claimOver : U64 → U64 → Bool) (t : Tree) (c : Nat) : Answers := fun log q r =>
  if (demand claimOver (history claimOver t (log.map (eventOf c))).1 c q r.limit r.value).1 then mesgOk else mesgDenied

theorem history_strip (claimOver : U64 → U64 → Bool) (evs : List Event) (t : Tree) (hw : WellFormed t) :
    strip (history claimOver t evs).1 = strip t := by
  induction evs generalizing t with
  | nil => rfl
  | cons ev evs ih =>
    rw [history]
    have hs := demand_strip claimOver t hw ev.cls ev.query ev.limit ev.value
    exact (ih _ (wellFormed_strip hs hw)).trans hs

theorem made_history (claimOver : U64 → U64 → Bool) (t : Tree) (c : Nat) (log : List Asked) (hm : Made (daemonAnswers claimOver t c) log) :
    (history claimOver t (log.map (eventOf c))).2 = log.map (fun a => (eventOf c a, decide (a.answer = mesgOk))) ∧
    ∀ a ∈ log, a.res.value.toNat < 2 ^ 63 := by
  induction hm with
  | start => exact ⟨rfl, (fun _ h => nomatch h)⟩
  | more log q r hm hv ih =>
    refine ⟨?_, fun a ha => ?_⟩
    · unfold query
      rw [List.map_append, history_append, ih.1, List.map_append]
      show _ ++ [(eventOf c ⟨q, r, _⟩, (demand claimOver (history claimOver t (log.map (eventOf c))).1 c q r.limit r.value).1)] = _ ++ [_]
      congr 2
      show (_, _) = (_, decide (daemonAnswers claimOver t c log q r = mesgOk))
      unfold daemonAnswers
      cases (demand claimOver (history claimOver t (log.map (eventOf c))).1 c q r.limit r.value).1 <;> rfl
    · rcases List.mem_append.1 ha with ha | ha
      · exact ih.2 a ha
      · rw [List.mem_singleton.1 ha]; exact hv

theorem self_mem_lineage (t : Tree) (c : Nat) : c ∈ lineage t c := by
  rw [lineage]
  split
  · exact List.mem_singleton.2 rfl
  · split
    · exact List.mem_singleton.2 rfl
    · split
      · exact List.mem_cons_self
      · exact List.mem_singleton.2 rfl

theorem outstanding_held (t : Tree) (c x : Nat) (hx : x ∈ lineage t c) (l : U32) (log : List Asked) :
    outstanding t x l (log.map (fun a => (eventOf c a, decide (a.answer = mesgOk)))) = held l log := by
  unfold outstanding held
  rw [List.map_map]
  congr 1
  apply List.map_congr_left
  intro a _
  unfold Function.comp contribution gained eventOf
  dsimp only
  by_cases h1 : a.answer = mesgOk
  · by_cases h2 : a.res.limit = l
    · rw [if_pos ⟨decide_eq_true h1, h2, hx⟩]
      exact (if_pos ⟨h1, h2⟩).symm
    · rw [if_neg (fun h => h2 h.2.1), if_neg (fun h => h2 h.2)]
  · rw [if_neg (fun h => h1 (of_decide_eq_true h.1)), if_neg (fun h => h1 h.1)]

/-- Limits for which 64 bit arithmetic suffices, and the use recorded at the start within them. -/
structure Sound (claimOver : U64 → U64 → Bool) (cap : U64 → Nat) (t : Tree) : Prop where
  shape : WellFormed t
  small : ∀ c l e, entry t c l = some e → e.value.toNat < 2 ^ 53
  ge : ∀ x : U64, x.toNat ≤ cap x
  lt : ∀ x : U64, x.toNat < 2 ^ 53 → cap x < 2 ^ 63
  claims : ∀ s lim, claimOver s lim = false → s.toNat ≤ cap lim
  within : ∀ c l e, entry t c l = some e → e.value ≠ 0 → e.used.toNat ≤ cap e.value

/-- What the daemon has recorded for a class is what it had at the start and what the process holds. -/
theorem C45_recorded (claimOver : U64 → U64 → Bool) (cap : U64 → Nat) (t : Tree) (hs : Sound claimOver cap t) (c : Nat) (log : List Asked)
    (hm : Made (daemonAnswers claimOver t c) log) (x : Nat) (hx : x ∈ lineage t c) (l : U32) (e : Lim) (he : entry t x l = some e)
    (hz : e.value ≠ 0) (hk : limKind l = .int) :
    ∃ e', entry (history claimOver t (log.map (eventOf c))).1 x l = some e' ∧ e'.value = e.value ∧
      (e'.used.toNat : Int) = e.used.toNat + held l log := by
  obtain ⟨h1, h2⟩ := made_history claimOver t c log hm
  obtain ⟨e', g1, g2, g3, _⟩ := history_counts claimOver cap (log.map (eventOf c)) t hs.shape
    ⟨fun c l e he s hh => Nat.le_trans (toDouble_le _ _ (hs.small c l e he) hh) (hs.ge _), fun c l e he => hs.lt _ (hs.small c l e he)⟩
    (fun ev hev => by obtain ⟨a, ha, rfl⟩ := List.mem_map.1 hev; exact h2 a ha) (fun _ _ _ => hs.claims) hs.within x l e he hz hk
  refine ⟨e', g1, g2, ?_⟩
  rw [g3, h1, outstanding_held t c x hx]

theorem daemon_honest (claimOver : U64 → U64 → Bool) (cap : U64 → Nat) (t : Tree) (hs : Sound claimOver cap t) (c : Nat) :
    Honest (daemonAnswers claimOver t c) := by
  refine ⟨fun log q r _ => ?_, fun log r hm hnz hh => ?_⟩
  · unfold daemonAnswers
    split
    · exact Or.inl rfl
    · exact Or.inr rfl
  · unfold daemonAnswers
    rw [if_pos]
    have hst := history_strip claimOver (log.map (eventOf c)) t hs.shape
    unfold demand
    cases hk : limKind r.limit with
    | not =>
      -- nothing of it was ever granted
      exfalso
      have hnone : ∀ log, Made (daemonAnswers claimOver t c) log → held r.limit log = 0 := by
        intro log hm
        induction hm with
        | start => rfl
        | more log q r' hm hv ih =>
          rw [held_query, ih]
          unfold gained
          dsimp only
          by_cases hl : r'.limit = r.limit
          · rw [if_neg]
            · rfl
            · rintro ⟨h1, _⟩
              unfold daemonAnswers demand at h1
              rw [hl, hk] at h1
              have h2 : mesgDenied = mesgOk := h1
              exact absurd h2 (by decide)
          · rw [if_neg (fun h => hl h.2)]; rfl
      rw [hnone log hm] at hh
      apply hnz
      apply BitVec.eq_of_toNat_eq
      show r.value.toNat = 0
      omega
    | bool => rfl
    | int =>
      dsimp only
      rw [(intDemand_spec claimOver mesgRelease r.limit r.value _ (wellFormed_strip hst hs.shape) c).2.2.1]
      rintro x e ⟨hx, he, hz⟩
      rw [lineage_strip hst] at hx
      obtain ⟨e0, he0, hv0⟩ := entry_some hst.symm he
      obtain ⟨e', g1, _, g3⟩ := C45_recorded claimOver cap t hs c log hm x hx r.limit e0 he0 (by rw [hv0]; exact hz) hk
      have : e' = e := Option.some.inj (g1.symm.trans he)
      subst this
      refine Or.inl ⟨rfl, fun hlt => ?_⟩
      have hlt : e'.used.toNat < r.value.toNat := hlt
      omega

/-- C45, seen from the daemon: when all sessions of a process have ended, the use of bandwidth recorded for its class and the
classes above it is what it was before the first of them, and the use of disk space has grown by the sizes of the files that are
left. (Limits below 2^53, amounts and sizes below 2^63, `fstat` succeeds, no other process in between.) -/
theorem C45_class_partial (claimOver : U64 → U64 → Bool) (cap : U64 → Nat) (t mine : Tree) (hs : Sound claimOver cap t) (c : Nat) (ops : List Op)
    (hr : ∀ op ∈ ops, Regular op) (p : Proc) (hp : p = ops.foldl (Proc.act claimOver (daemonAnswers claimOver t c) c) (fresh mine))
    (hend : p.live = []) (x : Nat) (hx : x ∈ lineage t c) :
    (∀ e, entry t x limBandwidth = some e → e.value ≠ 0 →
      ∃ e', entry (history claimOver t (p.log.map (eventOf c))).1 x limBandwidth = some e' ∧ e'.used.toNat = e.used.toNat) ∧
    (∀ e, entry t x limDisk = some e → e.value ≠ 0 →
      ∃ e', entry (history claimOver t (p.log.map (eventOf c))).1 x limDisk = some e' ∧ e'.used.toNat = e.used.toNat + p.kept) := by
  have hA := daemon_honest claimOver cap t hs c
  have hm : Made (daemonAnswers claimOver t c) p.log := by
    rw [hp]
    exact (balanced_all claimOver _ hA c ops (fresh mine) ⟨.start, (fun _ h => nomatch h), fun l => by
      show (0 : Int) = 0 + (if l = limDisk then ((0 : Nat) : Int) else 0)
      split <;> rfl⟩ hr).made
  obtain ⟨h1, h2⟩ := C45_returned_partial claimOver _ hA mine c ops hr (by rw [← hp]; exact hend)
  rw [← hp] at h1 h2
  refine ⟨fun e he hz => ?_, fun e he hz => ?_⟩
  · obtain ⟨e', g1, _, g3⟩ := C45_recorded claimOver cap t hs c p.log hm x hx limBandwidth e he hz (by decide)
    exact ⟨e', g1, by omega⟩
  · obtain ⟨e', g1, _, g3⟩ := C45_recorded claimOver cap t hs c p.log hm x hx limDisk e he hz (by decide)
    exact ⟨e', g1, by omega⟩

/-! ## C62 -/

/-- What is counted of test sessions is at least what was granted, and within the limits. -/
structure Counted (t : Tree) (c : Nat) (p : Proc) : Prop where
  same : strip p.mine = strip t
  within : ∀ x l e, entry p.mine x l = some e → e.value ≠ 0 → e.used.toNat ≤ e.value.toNat
  atLeast : ∀ x e, x ∈ lineage t c → entry p.mine x limTestSessions = some e → e.value ≠ 0 → p.granted ≤ e.used.toNat

theorem moderate_of (t : Tree) (hsmall : ∀ c l e, entry t c l = some e → e.value.toNat < 2 ^ 53) : Moderate (fun x => x.toNat) t :=
  ⟨fun c l e he _ hs => toDouble_le _ _ (hsmall c l e he) hs, fun c l e he => Nat.lt_of_lt_of_le (hsmall c l e he) (by decide)⟩

/-- One query for test sessions. -/
theorem sessions_step (claimOver : U64 → U64 → Bool) (t m : Tree) (hw : WellFormed t)
    (hsmall : ∀ c l e, entry t c l = some e → e.value.toNat < 2 ^ 53) (hst : strip m = strip t) (c : Nat)
    (hin : ∀ x l e, entry m x l = some e → e.value ≠ 0 → e.used.toNat ≤ e.value.toNat) (q : U32) (hq : q ≠ mesgClaim) :
    strip (demand claimOver m c q limTestSessions 1).2 = strip t ∧
    (∀ x l e, entry (demand claimOver m c q limTestSessions 1).2 x l = some e → e.value ≠ 0 → e.used.toNat ≤ e.value.toNat) ∧
    ∀ x e', x ∈ lineage t c → entry (demand claimOver m c q limTestSessions 1).2 x limTestSessions = some e' → e'.value ≠ 0 →
      ∃ e, entry m x limTestSessions = some e ∧ e.value = e'.value ∧ (e'.used.toNat : Int) = e.used.toNat +
        (if (demand claimOver m c q limTestSessions 1).1 then (if q = mesgRelease then -1 else 1) else 0) := by
  have hwm := wellFormed_strip hst hw
  have hsm : ∀ c l e, entry m c l = some e → e.value.toNat < 2 ^ 53 := fun c l e he => by
    obtain ⟨e0, he0, hv0⟩ := entry_some hst.symm he
    rw [← hv0]; exact hsmall c l e0 he0
  have hs1 := demand_strip claimOver m hwm c q limTestSessions 1
  refine ⟨hs1.trans hst, fun x l e he hz => demand_cap claimOver (fun x => x.toNat) m hwm (moderate_of m hsm) c q limTestSessions 1 (by decide)
    (fun h => absurd h hq) hin x l e he hz, fun x e' hx he' hz' => ?_⟩
  obtain ⟨e, he, hv⟩ := entry_some hs1.symm he'
  obtain ⟨e1, g1, _, g3⟩ := demand_counts claimOver (fun x => x.toNat) m hwm (moderate_of m hsm) c q limTestSessions 1 (by decide) hin x
    limTestSessions e he (by rw [hv]; exact hz') (by decide)
  have : e1 = e' := Option.some.inj (g1.symm.trans he')
  subst this
  refine ⟨e, he, hv, ?_⟩
  rw [g3]
  unfold contribution
  dsimp only
  rw [lineage_strip hst]
  by_cases hb : (demand claimOver m c q limTestSessions 1).1 = true
  · rw [if_pos ⟨hb, rfl, hx⟩, if_pos hb]; rfl
  · rw [if_neg (fun h => hb h.1), if_neg hb]

/-- The effect of a request on the count: it is counted if it is granted. -/
theorem check_sessions (claimOver : U64 → U64 → Bool) (A : Answers) (mine : Tree) (log : List Asked) (c : Nat) (twoway sender : Bool)
    (bandwidth space : U64) :
    let d := demand claimOver mine c mesgRequest limTestSessions 1
    let r := checkTest claimOver A mine log c twoway sender bandwidth space
    (d.1 = false → r.1 = .refused ∧ r.2.1 = mine) ∧
    (d.1 = true → (r.1 = .refused ∧ r.2.1 = (demand claimOver d.2 c mesgRelease limTestSessions 1).2) ∨ (r.1 ≠ .refused ∧ r.2.1 = d.2)) := by
  intro d r
  have disk : ∀ log res0, (checkDisk claimOver A d.2 log c sender space res0).1 = .refused ∧
      (checkDisk claimOver A d.2 log c sender space res0).2.1 = (demand claimOver d.2 c mesgRelease limTestSessions 1).2 ∨
      (checkDisk claimOver A d.2 log c sender space res0).1 ≠ .refused ∧ (checkDisk claimOver A d.2 log c sender space res0).2.1 = d.2 := by
    intro log res0
    unfold checkDisk
    split
    · exact Or.inr ⟨Check.noConfusion, rfl⟩
    · dsimp only
      split
      · exact Or.inl ⟨rfl, rfl⟩
      · split
        · exact Or.inr ⟨Check.noConfusion, rfl⟩
        · exact Or.inr ⟨Check.noConfusion, rfl⟩
  have hr : r = checkTest claimOver A mine log c twoway sender bandwidth space := rfl
  unfold checkTest at hr
  dsimp only at hr
  refine ⟨fun h => ?_, fun h => ?_⟩
  · rw [if_neg (by rw [show (demand claimOver mine c mesgRequest limTestSessions 1).1 = false from h]; decide)] at hr
    rw [hr]; exact ⟨rfl, rfl⟩
  · rw [if_pos h] at hr
    split at hr
    · rw [hr]; exact disk _ _
    · split at hr
      · rw [hr]; exact Or.inl ⟨rfl, rfl⟩
      · split at hr
        · rw [hr]; exact Or.inr ⟨Check.noConfusion, rfl⟩
        · rw [hr]; exact disk _ _

theorem counted_act (claimOver : U64 → U64 → Bool) (A : Answers) (t : Tree) (hw : WellFormed t)
    (hsmall : ∀ c l e, entry t c l = some e → e.value.toNat < 2 ^ 53) (c : Nat) (p : Proc) (op : Op) (hc : Counted t c p) :
    Counted t c (p.act claimOver A c op) := by
  unfold Proc.act
  cases op with
  | finish k f =>
    dsimp only
    split
    · exact hc
    · split
      · exact ⟨hc.same, hc.within, hc.atLeast⟩
      · split
        · exact ⟨hc.same, hc.within, hc.atLeast⟩
        · exact hc
  | request twoway sender bandwidth space =>
    dsimp only
    obtain ⟨h0, h1⟩ := check_sessions claimOver A p.mine p.log c twoway sender bandwidth space
    obtain ⟨s1, s2, s3⟩ := sessions_step claimOver t p.mine hw hsmall hc.same c hc.within mesgRequest (by decide)
    cases hd : (demand claimOver p.mine c mesgRequest limTestSessions 1).1 with
    | false =>
      obtain ⟨a, b⟩ := h0 hd
      cases h : checkTest claimOver A p.mine p.log c twoway sender bandwidth space with
      | mk k r =>
        obtain ⟨mine, log⟩ := r
        rw [h] at a b
        dsimp only at a b
        subst a b
        exact ⟨hc.same, hc.within, hc.atLeast⟩
    | true =>
      rw [hd, if_pos rfl, if_neg (by decide)] at s3
      obtain ⟨r1, r2, r3⟩ := sessions_step claimOver t _ hw hsmall s1 c s2 mesgRelease (by decide)
      cases h : checkTest claimOver A p.mine p.log c twoway sender bandwidth space with
      | mk k r =>
        obtain ⟨mine, log⟩ := r
        rw [h] at h1
        dsimp only at h1
        rcases h1 hd with ⟨a, b⟩ | ⟨a, b⟩
        · subst a b
          refine ⟨r1, r2, fun x e hx he hz => ?_⟩
          obtain ⟨e1, f1, f2, f3⟩ := r3 x e hx he hz
          obtain ⟨e0, g1, g2, g3⟩ := s3 x e1 hx f1 (by rw [f2]; exact hz)
          have := hc.atLeast x e0 hx g1 (by rw [g2, f2]; exact hz)
          dsimp only
          rw [if_pos rfl] at f3
          split at f3 <;> omega
        · subst b
          have hle : ∀ x e, x ∈ lineage t c → entry (demand claimOver p.mine c mesgRequest limTestSessions 1).2 x limTestSessions = some e →
              e.value ≠ 0 → p.granted + 1 ≤ e.used.toNat := fun x e hx he hz => by
            obtain ⟨e0, g1, g2, g3⟩ := s3 x e hx he hz
            have := hc.atLeast x e0 hx g1 (by rw [g2]; exact hz)
            omega
          cases k with
          | refused => exact absurd rfl a
          | fatal => exact ⟨s1, s2, fun x e hx he hz => Nat.le_of_succ_le (hle x e hx he hz)⟩
          | granted i => exact ⟨s1, s2, hle⟩

/-- C62: on one control connection never more test sessions are granted than the limit of its class, or of a class above it,
says, whatever the daemon answers and however the sessions end. (Limits below 2^53. The limit counts the sessions granted over
the life of the connection: a session that has ended is not given back.) -/
theorem C62_granted (claimOver : U64 → U64 → Bool) (A : Answers) (t : Tree) (hw : WellFormed t) (h0 : Unused t)
    (hsmall : ∀ c l e, entry t c l = some e → e.value.toNat < 2 ^ 53) (c : Nat) (ops : List Op) (x : Nat) (hx : x ∈ lineage t c) (e : Lim)
    (he : entry t x limTestSessions = some e) (hz : e.value ≠ 0) :
    (ops.foldl (Proc.act claimOver A c) (fresh t)).granted ≤ e.value.toNat := by
  have key : ∀ (ops : List Op) (p : Proc), Counted t c p → Counted t c (ops.foldl (Proc.act claimOver A c) p) := by
    intro ops
    induction ops with
    | nil => exact fun _ h => h
    | cons op ops ih => exact fun p h => by rw [List.foldl_cons]; exact ih _ (counted_act claimOver A t hw hsmall c p op h)
  have hk := key ops (fresh t) ⟨rfl, fun x l e he _ => by rw [h0 x l e he]; exact Nat.zero_le _, fun _ _ _ _ _ => Nat.zero_le _⟩
  obtain ⟨e', g1, g2⟩ := entry_some hk.same he
  have hz' : e'.value ≠ 0 := by rw [g2]; exact hz
  have h1 := hk.atLeast x e' hx g1 hz'
  have h2 := hk.within x limTestSessions e' g1 hz'
  rw [g2] at h2
  omega

/-- The count is exact. -/
structure Exact (t : Tree) (c : Nat) (p : Proc) : Prop where
  same : strip p.mine = strip t
  within : ∀ x l e, entry p.mine x l = some e → e.value ≠ 0 → e.used.toNat ≤ e.value.toNat
  count : ∀ x e, x ∈ lineage t c → entry p.mine x limTestSessions = some e → e.value ≠ 0 → e.used.toNat = p.granted

theorem exact_act (claimOver : U64 → U64 → Bool) (A : Answers) (hA : ∀ log q r, A log q r = mesgOk ∨ A log q r = mesgDenied) (t : Tree)
    (hw : WellFormed t) (hsmall : ∀ c l e, entry t c l = some e → e.value.toNat < 2 ^ 53) (c : Nat) (p : Proc) (op : Op) (hc : Exact t c p) :
    Exact t c (p.act claimOver A c op) := by
  unfold Proc.act
  cases op with
  | finish k f =>
    dsimp only
    split
    · exact hc
    · split
      · exact ⟨hc.same, hc.within, hc.count⟩
      · split
        · exact ⟨hc.same, hc.within, hc.count⟩
        · exact hc
  | request twoway sender bandwidth space =>
    dsimp only
    have nofatal : (checkTest claimOver A p.mine p.log c twoway sender bandwidth space).1 ≠ .fatal := by
      have inv : ∀ log q r, A log q r ≠ mesgInvalid := fun log q r h => by
        rcases hA log q r with h2 | h2 <;> rw [h] at h2 <;> exact absurd h2 (by decide)
      have disk : ∀ m log res0, (checkDisk claimOver A m log c sender space res0).1 ≠ .fatal := by
        intro m log res0
        unfold checkDisk
        dsimp only
        rw [if_neg (inv _ _ _)]
        split
        · exact Check.noConfusion
        · split <;> exact Check.noConfusion
      unfold checkTest
      dsimp only
      rw [if_neg (inv _ _ _)]
      split
      · split
        · exact disk _ _ _
        · split
          · exact Check.noConfusion
          · exact disk _ _ _
      · exact Check.noConfusion
    obtain ⟨h0, h1⟩ := check_sessions claimOver A p.mine p.log c twoway sender bandwidth space
    obtain ⟨s1, s2, s3⟩ := sessions_step claimOver t p.mine hw hsmall hc.same c hc.within mesgRequest (by decide)
    cases hd : (demand claimOver p.mine c mesgRequest limTestSessions 1).1 with
    | false =>
      obtain ⟨a, b⟩ := h0 hd
      cases h : checkTest claimOver A p.mine p.log c twoway sender bandwidth space with
      | mk k r =>
        obtain ⟨mine, log⟩ := r
        rw [h] at a b
        dsimp only at a b
        subst a b
        exact ⟨hc.same, hc.within, hc.count⟩
    | true =>
      rw [hd, if_pos rfl, if_neg (by decide)] at s3
      obtain ⟨r1, r2, r3⟩ := sessions_step claimOver t _ hw hsmall s1 c s2 mesgRelease (by decide)
      have hrel : (demand claimOver (demand claimOver p.mine c mesgRequest limTestSessions 1).2 c mesgRelease limTestSessions 1).1 = true := by
        have e : demand claimOver (demand claimOver p.mine c mesgRequest limTestSessions 1).2 c mesgRelease limTestSessions 1 =
          intDemand claimOver mesgRelease limTestSessions 1 (demand claimOver p.mine c mesgRequest limTestSessions 1).2 c := rfl
        rw [e, (intDemand_spec claimOver mesgRelease limTestSessions 1 _ (wellFormed_strip s1 hw) c).2.2.1]
        rintro x e ⟨hx, he, hz⟩
        rw [lineage_strip s1] at hx
        obtain ⟨e0, g1, g2, g3⟩ := s3 x e hx he hz
        refine Or.inl ⟨rfl, fun hlt => ?_⟩
        have hlt : e.used.toNat < 1 := hlt
        omega
      cases h : checkTest claimOver A p.mine p.log c twoway sender bandwidth space with
      | mk k r =>
        obtain ⟨mine, log⟩ := r
        rw [h] at h1 nofatal
        dsimp only at h1 nofatal
        rcases h1 hd with ⟨a, b⟩ | ⟨a, b⟩
        · subst a b
          refine ⟨r1, r2, fun x e hx he hz => ?_⟩
          obtain ⟨e1, f1, f2, f3⟩ := r3 x e hx he hz
          obtain ⟨e0, g1, g2, g3⟩ := s3 x e1 hx f1 (by rw [f2]; exact hz)
          have := hc.count x e0 hx g1 (by rw [g2, f2]; exact hz)
          dsimp only
          rw [hrel, if_pos rfl, if_pos rfl] at f3
          omega
        · subst b
          cases k with
          | refused => exact absurd rfl a
          | fatal => exact absurd rfl nofatal
          | granted i =>
            refine ⟨s1, s2, fun x e hx he hz => ?_⟩
            obtain ⟨e0, g1, g2, g3⟩ := s3 x e hx he hz
            have := hc.count x e0 hx g1 (by rw [g2]; exact hz)
            dsimp only
            omega

/-- C62, the other way round: as long as fewer sessions were granted than any of these limits says, a session for which the
daemon grants bandwidth and disk space is granted. (The daemon answers every query.) -/
theorem C62_not_reached (claimOver : U64 → U64 → Bool) (A : Answers) (hA : ∀ log q r, A log q r = mesgOk ∨ A log q r = mesgDenied) (t : Tree)
    (hw : WellFormed t) (h0 : Unused t) (hsmall : ∀ c l e, entry t c l = some e → e.value.toNat < 2 ^ 53) (c : Nat) (ops : List Op)
    (p : Proc) (hp : p = ops.foldl (Proc.act claimOver A c) (fresh t))
    (hless : ∀ x e, x ∈ lineage t c → entry t x limTestSessions = some e → e.value ≠ 0 → p.granted < e.value.toNat)
    (twoway sender : Bool) (bandwidth space : U64) (hok : ∀ log q r, q = mesgRequest → A log q r = mesgOk) :
    (p.act claimOver A c (.request twoway sender bandwidth space)).granted = p.granted + 1 := by
  have key : ∀ (ops : List Op) (p : Proc), Exact t c p → Exact t c (ops.foldl (Proc.act claimOver A c) p) := by
    intro ops
    induction ops with
    | nil => exact fun _ h => h
    | cons op ops ih => exact fun p h => by rw [List.foldl_cons]; exact ih _ (exact_act claimOver A hA t hw hsmall c p op h)
  have hk : Exact t c p := by
    rw [hp]
    exact key ops (fresh t) ⟨rfl, fun x l e he _ => by rw [h0 x l e he]; exact Nat.zero_le _, fun x e _ he _ => by rw [h0 x _ e he]; rfl⟩
  have hd : (demand claimOver p.mine c mesgRequest limTestSessions 1).1 = true := by
    have e : demand claimOver p.mine c mesgRequest limTestSessions 1 = intDemand claimOver mesgRequest limTestSessions 1 p.mine c := rfl
    rw [e, (intDemand_spec claimOver mesgRequest limTestSessions 1 _ (wellFormed_strip hk.same hw) c).2.2.1]
    rintro x e ⟨hx, he, hz⟩
    rw [lineage_strip hk.same] at hx
    obtain ⟨e0, g1, g2⟩ := entry_some hk.same.symm he
    have hl := hless x e0 hx g1 (by rw [g2]; exact hz)
    have hs := hsmall x _ e0 g1
    rw [g2] at hl hs
    have hu := hk.count x e hx he hz
    refine Or.inr ⟨by decide, by decide, ?_⟩
    unfold over
    rw [if_neg (by decide)]
    have hsum : (1 + e.used).toNat = 1 + e.used.toNat := by
      rw [BitVec.toNat_add]
      exact Nat.mod_eq_of_lt (by show 1 + e.used.toNat < _; omega)
    apply decide_eq_false
    rw [hsum]
    unfold toDouble
    rw [if_pos (by omega), if_pos (by omega)]
    omega
  have disk : ∀ m log res0, ∃ i log', checkDisk claimOver A m log c sender space res0 = (.granted i, m, log') := by
    intro m log res0
    unfold checkDisk
    dsimp only
    split
    · exact ⟨_, _, rfl⟩
    · rw [hok _ _ _ rfl, if_neg (by decide), if_neg (by decide)]
      exact ⟨_, _, rfl⟩
  have hchk : ∃ i m log', checkTest claimOver A p.mine p.log c twoway sender bandwidth space = (.granted i, m, log') := by
    unfold checkTest
    dsimp only
    rw [if_pos hd]
    split
    · obtain ⟨i, l, h⟩ := disk (demand claimOver p.mine c mesgRequest limTestSessions 1).2 p.log ⟨0, 0⟩
      exact ⟨i, _, l, h⟩
    · rw [hok _ _ _ rfl, if_neg (by decide), if_neg (by decide)]
      obtain ⟨i, l, h⟩ := disk (demand claimOver p.mine c mesgRequest limTestSessions 1).2 (query A p.log mesgRequest ⟨limBandwidth, bandwidth⟩)
        ⟨limBandwidth, bandwidth⟩
      exact ⟨i, _, l, h⟩
  obtain ⟨i, m, log', h⟩ := hchk
  unfold Proc.act
  dsimp only
  rw [h]

/-! ## C46 -/

theorem answer_eq (H : Mac) (c : Conn) (q : Plan) : (answer H c q).1 =
    (match answerBody H c q with
    | (none, _) => none
    | (some _, c) => (sendTag H c).1) := by
  unfold answer answerBody
  split
  · rename_i h; simp only [h]
  · rename_i h
    simp only [h]
    split
    · rename_i h; simp only [h]
    · rename_i h
      simp only [h]
      split
      · rename_i h; simp only [h]
      · rename_i h
        simp only [h]
        split
        · rename_i h; simp only [h]
        · rename_i h
          simp only [h]
          split
          · rename_i h; simp only [h]
          · rename_i h; simp only [h]

/-- C46: a file is removed by a fetch only if the whole session was asked for, the fetch was granted, the class of the file has
`delete_on_fetch`, the session had finished normally when its header was read, and the answer was sent up to the last digest:
the outcome of the fetch is that of sending this digest. What is missing: it is removed even if this fails (`C46_unsent`). -/
theorem C46_only_partial (A : Answers) (log : List Asked) (n : Node) (H : Mac) (E : Env) (c : Conn) (size : Option U64)
    (h : (fetchFile A log n H E c size).2 = true) :
    ∃ sid c1 m p q c2, readFetchSession H c = (some (0, 0xFFFFFFFF#32, sid), c1) ∧ E.policy 0 0xFFFFFFFF#32 sid = some true ∧
      getLimit n limDeleteOnFetch ≠ 0 ∧ readInitial (E.file m) = some p ∧ p.finished = 1 ∧
      answerBody H c1 q = (some (), c2) ∧ q.f = E.file m ∧ (serve H E c).1 = (sendTag H c2).1 := by
  unfold fetchFile at h
  cases hf : fetchClose H E c with
  | none => rw [hf] at h; cases h
  | some x =>
    obtain ⟨first, last, accept⟩ := x
    rw [hf] at h
    dsimp only at h
    unfold closeFetch at h
    split at h
    · rename_i hc
      obtain ⟨rfl, rfl, hacc, hdel⟩ := hc
      unfold fetchClose at hf
      cases hr : readFetchSession H c with
      | mk r c1 =>
        rw [hr] at hf
        cases r with
        | none => cases hf
        | some y =>
          obtain ⟨f', l', sid⟩ := y
          dsimp only at hf
          split at hf
          · rename_i hp
            split at hf
            · cases hf
              exact absurd hacc (by decide)
            · rename_i f p hh
              split at hf
              · cases hf
                exact absurd hacc (by decide)
              · rename_i q hq
                cases hf
                obtain ⟨m, p', _, h2, h3, h4, h5, _⟩ := header_ok E _ _ 0 0 0 f p hh
                have hfin : p'.finished = 1 := h5.resolve_right (fun hn => hn ⟨rfl, rfl⟩)
                have hqf : q.f = f := by
                  unfold plan at hq
                  dsimp only at hq
                  rw [if_pos ⟨h4.trans hfin, rfl, rfl⟩] at hq
                  cases hq
                  rfl
                cases ha : answerBody H c1 q with
                | mk r c2 =>
                  rw [ha] at hacc
                  cases r with
                  | none => cases hacc
                  | some u =>
                    refine ⟨sid, c1, m, p', q, c2, rfl, hp.1, hdel, h3, hfin, ha, hqf.trans h2, ?_⟩
                    unfold serve
                    rw [hr]
                    dsimp only
                    rw [hp.1]
                    dsimp only
                    rw [if_pos hp.2, hh]
                    dsimp only
                    rw [hq]
                    dsimp only
                    rw [answer_eq, ha]
          · cases hf
    · cases h

/-- C46: a fetch that does not ask for the whole session leaves the file and the charge for it alone. -/
theorem C46_part (A : Answers) (log : List Asked) (n : Node) (H : Mac) (E : Env) (c c1 : Conn) (first last : U32) (sid : Bytes) (size : Option U64)
    (hr : readFetchSession H c = (some (first, last, sid), c1)) (hpart : first ≠ 0 ∨ last ≠ 0xFFFFFFFF#32) :
    fetchFile A log n H E c size = (log, false) := by
  cases hx : fetchClose H E c with
  | none => unfold fetchFile; rw [hx]
  | some x =>
    have : x.1 = first ∧ x.2.1 = last := by
      unfold fetchClose at hx
      rw [hr] at hx
      dsimp only at hx
      split at hx
      · split at hx
        · cases hx; exact ⟨rfl, rfl⟩
        · split at hx
          · cases hx; exact ⟨rfl, rfl⟩
          · cases hx; exact ⟨rfl, rfl⟩
      · cases hx
    obtain ⟨f, l, a⟩ := x
    obtain ⟨rfl, rfl⟩ := this
    unfold fetchFile
    rw [hx]
    dsimp only
    unfold closeFetch
    rw [if_neg]
    rintro ⟨h1, h2, _⟩
    rcases hpart with h | h
    · exact h h1
    · exact h h2

/-- C46, the other way round: after a successful fetch of the whole of a finished session of a class with `delete_on_fetch` the
file is removed and its size given back. -/
theorem C46_deleted (A : Answers) (log : List Asked) (n : Node) (H : Mac) (E : Env) (c c1 : Conn) (sid f : Bytes) (h : HdrIn) (next : U32)
    (skips : List Codec.Skip) (rs : List Codec.DataRec) (hst : Stored f h true next skips rs) (hE : Grants E 0 0xFFFFFFFF#32 sid f)
    (hr : readFetchSession H c = (some (0, 0xFFFFFFFF#32, sid), c1)) (hs : (serve H E c).1 = some ())
    (hdel : getLimit n limDeleteOnFetch ≠ 0) (size : U64) (hsz : 0 < size.toNat ∧ size.toNat < 2 ^ 63) :
    fetchFile A log n H E c (some size) = (query A log mesgRelease ⟨limDisk, size⟩, true) := by
  obtain ⟨p, hp, hF⟩ := stored_header E 0 0xFFFFFFFF#32 f h true next skips rs hst hE.file hE.lock (fun _ => rfl)
  have hpf : p.finished = 1 := hF.finished
  have hplan : ∃ q, plan c1 0 0xFFFFFFFF#32 f p = some q := by
    unfold plan
    dsimp only
    rw [if_pos ⟨hpf, rfl, rfl⟩]
    exact ⟨_, rfl⟩
  obtain ⟨q, hq⟩ := hplan
  unfold serve at hs
  rw [hr] at hs
  dsimp only at hs
  rw [hE.policy] at hs
  dsimp only at hs
  rw [if_pos hE.opens, hp] at hs
  dsimp only at hs
  rw [hq] at hs
  dsimp only at hs
  rw [answer_eq] at hs
  unfold fetchFile fetchClose
  rw [hr]
  dsimp only
  rw [if_pos ⟨hE.policy, hE.opens⟩, hp]
  dsimp only
  rw [hq]
  cases ha : answerBody H c1 q with
  | mk r c2 =>
    rw [ha] at hs
    cases r with
    | none => cases hs
    | some u =>
      dsimp only
      rw [ha]
      unfold closeFetch
      rw [if_pos ⟨rfl, rfl, rfl, hdel⟩]
      dsimp only
      rw [if_pos (by rw [toInt_eq size hsz.2]; omega)]

/-! ## Histories -/

/-- The class `a` is limited to 10 of bandwidth, 100 bytes and two sessions, the class above it to 15 and 120. -/
def testTree : Tree :=
  [⟨text ['r'], none, [⟨limBandwidth, 15, 3⟩, ⟨limDisk, 120, 50⟩]⟩,
   ⟨text ['a'], some 0, [⟨limBandwidth, 10, 0⟩, ⟨limDisk, 100, 20⟩, ⟨limTestSessions, 2, 0⟩]⟩]

theorem testTree_entry (c : Nat) (l : U32) (e : Lim) (h : entry testTree c l = some e) : e.value.toNat < 2 ^ 53 ∧ e.used.toNat ≤ e.value.toNat := by
  unfold entry testTree findLim at h
  match c with
  | 0 | 1 =>
    simp only [List.getElem?_cons_zero, List.getElem?_cons_succ, List.find?_cons, List.find?_nil] at h
    repeat' split at h
    all_goals first | (cases h; decide) | cases h
  | n + 2 => simp at h

theorem testTree_sound : Sound (fun s lim => decide (2 * lim.toNat < s.toNat)) (fun x => 2 * x.toNat) testTree :=
  ⟨wellFormed_of _ (by decide +kernel), fun c l e h => (testTree_entry c l e h).1, fun x => by omega, fun x h => by omega,
    fun s lim h => Nat.le_of_not_lt (of_decide_eq_false h), fun c l e h _ => Nat.le_trans (testTree_entry c l e h).2 (by omega)⟩

/-- Two sessions are granted, a third refused for its bandwidth; one leaves a file smaller than estimated, one no file. -/
def testOps : List Op :=
  [.request false false 6 30, .request false false 5 1, .request false true 4 0, .finish 0 (.file 25 true true), .finish 0 .noFile]

/-- Non-vacuity of `C45_balance_partial`, `C45_returned_partial`, `C45_recorded`, `C45_class_partial`. -/
example : Sound (fun s lim => decide (2 * lim.toNat < s.toNat)) (fun x => 2 * x.toNat) testTree ∧ (∀ op ∈ testOps, Regular op) ∧
    (let p := testOps.foldl (Proc.act (fun s lim => decide (2 * lim.toNat < s.toNat)) (daemonAnswers (fun s lim => decide (2 * lim.toNat < s.toNat)) testTree 1) 1) (fresh testTree)
     p.live = [] ∧ p.granted = 2 ∧ p.kept = 25 ∧ p.log.map (fun a => (a.query, a.res.limit, a.res.value, a.answer)) =
      [(mesgRequest, limBandwidth, 6, mesgOk), (mesgRequest, limDisk, 30, mesgOk), (mesgRequest, limBandwidth, 5, mesgDenied),
       (mesgRequest, limBandwidth, 4, mesgOk), (mesgRelease, limDisk, 5, mesgOk), (mesgRelease, limBandwidth, 6, mesgOk),
       (mesgRelease, limBandwidth, 4, mesgOk)]) := by
  refine ⟨testTree_sound, fun op hop => ?_, by decide +kernel⟩
  simp only [testOps, List.mem_cons, List.not_mem_nil, or_false] at hop
  rcases hop with rfl | rfl | rfl | rfl | rfl <;> simp only [Regular] <;> decide

/-- C45 is false when the daemon does not answer: a session for which bandwidth was granted and no answer about disk space came
is refused, and the bandwidth is not given back. -/
theorem C45_lost_answer : ∃ (A : Answers) (op : Op), Regular op ∧
    (let p := Proc.act (fun _ _ => true) A 1 (fresh testTree) op
     p.live = [] ∧ held limBandwidth p.log = 6 ∧ entry p.mine 1 limTestSessions = some ⟨limTestSessions, 2, 1⟩) :=
  ⟨fun _ _ r => if r.limit = limDisk then mesgInvalid else mesgOk, .request false false 6 30, by constructor <;> decide,
    by decide +kernel⟩

/-- C45 is false when `fstat` fails on the file of a session: what was estimated stays charged, whatever the size is. -/
theorem C45_unknown_size : ∃ (A : Answers) (ops : List Op), Honest A ∧
    (let p := ops.foldl (Proc.act (fun _ _ => true) A 1) (fresh testTree)
     p.live = [] ∧ held limDisk p.log = 30 ∧ p.kept = 25) :=
  ⟨fun _ _ _ => mesgOk, [.request false false 6 30, .finish 0 (.file 25 false true)], ⟨fun _ _ _ _ => Or.inl rfl, fun _ _ _ _ _ => rfl⟩,
    by decide +kernel⟩

/-- Two sessions of the class `a`. -/
def twoTree : Tree := [⟨text ['r'], none, []⟩, ⟨text ['a'], some 0, [⟨limTestSessions, 2, 0⟩]⟩]

theorem twoTree_entry (c : Nat) (l : U32) (e : Lim) (h : entry twoTree c l = some e) : e.used = 0 ∧ e.value.toNat < 2 ^ 53 := by
  unfold entry twoTree findLim at h
  match c with
  | 0 | 1 =>
    simp only [List.getElem?_cons_zero, List.getElem?_cons_succ, List.find?_cons, List.find?_nil] at h
    repeat' split at h
    all_goals first | (cases h; decide) | cases h
  | n + 2 => simp at h

/-- Non-vacuity of `C62_granted`: the third request is refused, though the first session has ended. -/
example : WellFormed twoTree ∧ Unused twoTree ∧ entry twoTree 1 limTestSessions = some ⟨limTestSessions, 2, 0⟩ ∧ 1 ∈ lineage twoTree 1 ∧
    ((List.range 4).map fun k => (([.request false true 1 0, .finish 0 .noFile, .request true true 1 0, .request false true 1 0].take (k + 1)).foldl
      (Proc.act (fun _ _ => true) (fun _ _ _ => mesgOk) 1) (fresh twoTree)).granted) = [1, 1, 2, 2] :=
  ⟨wellFormed_of _ (by decide +kernel), fun c l e h => (twoTree_entry c l e h).1, by decide +kernel, self_mem_lineage _ _, by decide +kernel⟩
/-- Non-vacuity of `C62_not_reached`: after one session. -/
example (claimOver : U64 → U64 → Bool) := C62_not_reached claimOver (fun _ _ _ => mesgOk) (fun _ _ _ => Or.inl rfl) twoTree
  (wellFormed_of _ (by decide +kernel)) (fun c l e h => (twoTree_entry c l e h).1) (fun c l e h => (twoTree_entry c l e h).2) 1
  [.request false true 1 0] _ rfl
example : ([Op.request false true 1 0].foldl (Proc.act (fun _ _ => true) (fun _ _ _ => mesgOk) 1) (fresh twoTree)).granted = 1 := by decide +kernel

def zeroMac : Mac := ⟨fun _ _ => zeros 20, fun _ _ => zeros_length _⟩

/-- A connection in open mode on which the fetch of the whole session is requested, the first block having been read. -/
def fetchConn (faults : List Fault) : Conn :=
  { demoB with mode := 1#32, state := { fetchSession := true, request := true },
               msg := put (zeros 400) 0 (4#8 :: zeros 11 ++ [255#8, 255#8, 255#8, 255#8])
               inp := demoFileHdr.sid ++ zeros 16, faults := faults }

/-- A class with `delete_on_fetch`. -/
def deleteNode : Node := ⟨text ['a'], none, [⟨limDeleteOnFetch, 1, 0⟩]⟩

/-- Non-vacuity of `C46_only_partial`, `C46_deleted`, and, with another range, of `C46_part`. -/
example : getLimit deleteNode limDeleteOnFetch ≠ 0 ∧
    (readFetchSession zeroMac (fetchConn [])).1 = some (0, 0xFFFFFFFF#32, demoFileHdr.sid) ∧
    (serve zeroMac (demoFetchEnv demoFetchFile) (fetchConn [])).1 = some () ∧
    (fetchFile (fun _ _ _ => mesgOk) [] deleteNode zeroMac (demoFetchEnv demoFetchFile) (fetchConn []) (some 292)).2 = true := by
  decide +kernel

/-- C46 is false if the last digest cannot be sent: the fetch fails, but the file has been removed. -/
theorem C46_unsent : ∃ (n : Node) (H : Mac) (E : Env) (c : Conn), (serve H E c).1 = none ∧
    (fetchFile (fun _ _ _ => mesgOk) [] n H E c (some 292)).2 = true :=
  ⟨deleteNode, zeroMac, demoFetchEnv demoFetchFile, fetchConn (List.replicate 9 .ok ++ [.err 0]), by decide +kernel⟩

end Owamp.Props
