import Verif.Model.Publish
/-!
# C74: the files of powstream under their final names, at every moment

The first component of `putData`, `putSession` and `putPart` is the list of the worlds that come about one after the other: a crash leaves one of them behind.
-/
namespace Owamp.Props
open Owamp.Publish

/-- Every name is for a file that exists. -/
def SoundDir (w : World) : Prop := ∀ n i, w.dir n = some i → i < w.fresh

/-- Under the name `n`, `w'` shows what `w` shows. -/
def SameAt (w w' : World) (n : Nat) : Prop := w'.read n = w.read n

private theorem read_fill_ne {w : World} {i : Nat} {c : Bytes} {n : Nat} (h : w.dir n ≠ some i) : (fill w i c).read n = w.read n := by
  unfold World.read fill
  cases hd : w.dir n with
  | none => rfl
  | some j =>
    have : j ≠ i := fun e => h (by rw [hd, e])
    simp [this]

private theorem read_fill_eq {w : World} {i : Nat} {c : Bytes} {n : Nat} (h : w.dir n = some i) : (fill w i c).read n = some c := by
  unfold World.read fill; simp [h]

private theorem read_create {w : World} (hw : SoundDir w) {n m : Nat} (h : m ≠ n) : (create w n).read m = w.read m := by
  unfold World.read create
  simp only [h, if_false]
  cases hd : w.dir m with
  | none => rfl
  | some j =>
    have := hw m j hd
    have : j ≠ w.fresh := by omega
    simp [this]

private theorem dir_create {w : World} {n m : Nat} (h : m ≠ n) : (create w n).dir m = w.dir m := by simp [create, h]

private theorem read_unlink {w : World} {n m : Nat} {ok : Bool} (h : m ≠ n) : (unlink w n ok).read m = w.read m := by
  unfold unlink; split <;> simp [World.read, h]

private theorem dir_unlink {w : World} {n m : Nat} {ok : Bool} (h : m ≠ n) : (unlink w n ok).dir m = w.dir m := by
  unfold unlink; split <;> simp [h]

private theorem read_link_ne {w : World} {a b m : Nat} {ok : Bool} (h : m ≠ b) : (link w a b ok).1.read m = w.read m := by
  unfold link; split <;> simp [World.read, h]

private theorem dir_link_ne {w : World} {a b m : Nat} {ok : Bool} (h : m ≠ b) : (link w a b ok).1.dir m = w.dir m := by
  unfold link; split <;> simp [h]

private theorem link_cases (w : World) (a b : Nat) (ok : Bool) :
    ((link w a b ok).2 = false ∧ (link w a b ok).1 = w) ∨
    ((link w a b ok).2 = true ∧ ok = true ∧ w.dir b = none ∧ (link w a b ok).1.dir b = w.dir a ∧ (link w a b ok).1.read b = w.read a ∧ (link w a b ok).1.data = w.data) := by
  unfold link
  by_cases h : ok = true ∧ w.dir b = none
  · rw [if_pos h]; exact Or.inr ⟨rfl, h.1, h.2, by simp, by simp [World.read], rfl⟩
  · rw [if_neg h]; exact Or.inl ⟨rfl, rfl⟩

/-- The world after the temporary file is created and filled. -/
private theorem filled {w : World} (hw : SoundDir w) {tmp m : Nat} (h : m ≠ tmp) (c : Bytes) : (fill (create w tmp) w.fresh c).read m = w.read m := by
  rw [read_fill_ne, read_create hw h]
  rw [dir_create h]
  intro hd
  have := hw _ _ hd
  omega

private theorem filled_tmp (w : World) (tmp : Nat) (c : Bytes) : (fill (create w tmp) w.fresh c).read tmp = some c := by
  apply read_fill_eq; simp [create]

/-- At every moment of the writing of a data file a reader finds under its final name what was there before, or, if nothing was, the whole of the data;
and under any other name but the temporary one what was there before. -/
theorem C74_data (w : World) (hw : SoundDir w) (tmp final : Nat) (hne : final ≠ tmp) (content : Bytes) (e : DataEnv) :
    ∀ w' ∈ (putData w tmp final content e).1,
      (SameAt w w' final ∨ (w.read final = none ∧ w'.read final = some content)) ∧ ∀ n, n ≠ tmp → n ≠ final → SameAt w w' n := by
  unfold putData
  by_cases h1 : e.opens = false ∨ w.dir tmp ≠ none
  · rw [if_pos h1]
    intro w' hw'
    rw [List.mem_singleton] at hw'
    rw [hw']; exact ⟨Or.inl rfl, fun _ _ _ => rfl⟩
  · rw [if_neg h1]
    cases e.stops with
    | some k =>
      dsimp only
      intro w' hw'
      have key : ∀ n, n ≠ tmp → SameAt w w' n := by
        intro n hn
        simp only [List.mem_cons, List.not_mem_nil, or_false] at hw'
        rcases hw' with rfl | rfl | rfl | rfl
        · rfl
        · exact read_create hw hn
        · exact filled hw hn _
        · unfold SameAt; rw [read_unlink hn]; exact filled hw hn _
      exact ⟨Or.inl (key final hne), fun n hn _ => key n hn⟩
    | none =>
      dsimp only
      generalize hw2 : fill (create w tmp) w.fresh content = w2
      have r2 : ∀ n, n ≠ tmp → w2.read n = w.read n := by rw [← hw2]; exact fun n hn => filled hw hn _
      have t2 : w2.read tmp = some content := by rw [← hw2]; exact filled_tmp w tmp content
      have lk : ((link w2 tmp final e.links).1.read final = w.read final ∨ (w.read final = none ∧ (link w2 tmp final e.links).1.read final = some content)) := by
        rcases link_cases w2 tmp final e.links with ⟨_, h⟩ | ⟨_, _, h, _, h3, _⟩
        · rw [h]; exact Or.inl (r2 final hne)
        · refine Or.inr ⟨?_, by rw [h3]; exact t2⟩
          have : w2.read final = none := by unfold World.read; rw [h]; rfl
          rw [← r2 final hne]; exact this
      intro w' hw'
      simp only [List.mem_cons, List.not_mem_nil, or_false] at hw'
      rcases hw' with rfl | rfl | rfl | rfl | rfl
      · exact ⟨Or.inl rfl, fun _ _ _ => rfl⟩
      · exact ⟨Or.inl (read_create hw hne), fun n hn _ => read_create hw hn⟩
      · exact ⟨Or.inl (r2 final hne), fun n hn _ => r2 n hn⟩
      · exact ⟨lk, fun n hn hf => by unfold SameAt; rw [read_link_ne hf]; exact r2 n hn⟩
      · refine ⟨?_, fun n hn hf => by unfold SameAt; rw [read_unlink hn, read_link_ne hf]; exact r2 n hn⟩
        unfold SameAt
        rw [read_unlink hne]; exact lk

/-- When the data file could be written, its final name was free and nothing went wrong, it is there in the end, whole. -/
theorem C74_data_written (w : World) (tmp final : Nat) (hne : final ≠ tmp) (content : Bytes) (e : DataEnv)
    (ho : e.opens = true) (ht : w.dir tmp = none) (hs : e.stops = none) (hl : e.links = true) (hf : w.dir final = none) :
    (putData w tmp final content e).2.1.read final = some content ∧ (putData w tmp final content e).2.2 = .name final := by
  unfold putData
  rw [if_neg (by rw [ho, ht]; simp), hs]
  dsimp only
  have h0 : (fill (create w tmp) w.fresh content).dir final = none := by
    show (create w tmp).dir final = none
    rw [dir_create hne, hf]
  rcases link_cases (fill (create w tmp) w.fresh content) tmp final e.links with ⟨h, _⟩ | ⟨h1, _, _, _, h3, _⟩
  · unfold link at h; rw [if_pos ⟨hl, h0⟩] at h; cases h
  · rw [h1, read_unlink hne, h3]
    exact ⟨filled_tmp w tmp content, rfl⟩

/-- Without a temporary file left over from before, no file under any other name changes while a summary is written, at any moment, and the final name shows
what was there before, if anything was. -/
theorem C74_kept_partial (w : World) (hw : SoundDir w) (tmp final : Nat) (ht : w.dir tmp = none) (content : Bytes) (e : SumEnv) (p : Bool) :
    ∀ n c, n ≠ tmp → w.read n = some c →
      (∀ w' ∈ (putPart w tmp final content e p).1, w'.read n = some c) ∧ (∀ w' ∈ (putSummary w tmp final content e).1, w'.read n = some c) := by
  intro n c hn hc
  have hd : w.dir n ≠ none := by
    intro h; unfold World.read at hc; rw [h] at hc; cases hc
  have hdc : ∀ k, (fill (create w tmp) w.fresh k).dir n = w.dir n := fun k => dir_create hn
  have hnf : w.dir n ≠ some w.fresh := by
    intro h; have := hw _ _ h; omega
  have ho : fopen w tmp = (create w tmp, w.fresh) := by unfold fopen; rw [ht]
  have key : ∀ k, (fill (create w tmp) w.fresh k).read n = some c := fun k => by rw [filled hw hn, hc]
  -- after the link
  have lk : ∀ (v : World), v.read n = some c → v.dir n = w.dir n → (link v tmp final e.links).1.read n = some c ∧ (link v tmp final e.links).1.dir n = w.dir n := by
    intro v h1 h2
    rcases link_cases v tmp final e.links with ⟨_, h⟩ | ⟨_, _, h3, _⟩
    · rw [h]; exact ⟨h1, h2⟩
    · have : n ≠ final := fun h => by rw [h] at h2 hd; rw [h3] at h2; exact hd h2.symm
      rw [read_link_ne this, dir_link_ne this]; exact ⟨h1, h2⟩
  have flu : ∀ (v : World), v.read n = some c → v.dir n = w.dir n →
      (if e.flushes = true then fill v w.fresh content else v).read n = some c ∧ (if e.flushes = true then fill v w.fresh content else v).dir n = w.dir n := by
    intro v h1 h2
    split
    · exact ⟨by rw [read_fill_ne (by rw [h2]; exact hnf)]; exact h1, h2⟩
    · exact ⟨h1, h2⟩
  constructor
  · unfold putPart
    split
    · intro w' h; rw [List.mem_singleton] at h; rw [h]; exact hc
    · rw [ho]
      dsimp only
      split
      · intro w' h
        simp only [List.mem_cons, List.not_mem_nil, or_false] at h
        rcases h with rfl | rfl | rfl | rfl
        · exact hc
        · rw [read_create hw hn]; exact hc
        · exact key _
        · rw [read_unlink hn]; exact key _
      · obtain ⟨a1, a2⟩ := lk _ (key (content.take e.early)) (hdc _)
        obtain ⟨b1, b2⟩ := flu _ a1 a2
        split
        · intro w' h
          simp only [List.mem_cons, List.not_mem_nil, or_false] at h
          rcases h with rfl | rfl | rfl | rfl | rfl | rfl | rfl
          · exact hc
          · rw [read_create hw hn]; exact hc
          · exact key _
          · exact a1
          · exact b1
          · exact b1
          · rw [read_unlink hn]; exact b1
        · intro w' h
          simp only [List.mem_cons, List.not_mem_nil, or_false] at h
          rcases h with rfl | rfl | rfl | rfl | rfl | rfl
          · exact hc
          · rw [read_create hw hn]; exact hc
          · exact key _
          · exact a1
          · exact b1
          · rw [read_unlink hn]; exact b1
  · unfold putSummary
    split
    · intro w' h; rw [List.mem_singleton] at h; rw [h]; exact hc
    · rw [ho]
      dsimp only
      split
      · intro w' h
        simp only [List.mem_cons, List.not_mem_nil, or_false] at h
        rcases h with rfl | rfl | rfl | rfl
        · exact hc
        · rw [read_create hw hn]; exact hc
        · exact key _
        · rw [read_unlink hn]; exact key _
      · obtain ⟨a1, a2⟩ := lk _ (key (content.take e.early)) (hdc _)
        have u1 : (unlink (link (fill (create w tmp) w.fresh (content.take e.early)) tmp final e.links).1 tmp e.unlinks).read n = some c := by
          rw [read_unlink hn]; exact a1
        obtain ⟨b1, b2⟩ := flu _ u1 (by rw [dir_unlink hn]; exact a2)
        intro w' h
        simp only [List.mem_cons, List.not_mem_nil, or_false] at h
        rcases h with rfl | rfl | rfl | rfl | rfl | rfl
        · exact hc
        · rw [read_create hw hn]; exact hc
        · exact key _
        · exact a1
        · exact u1
        · exact b1

/-- With `-p`, from the moment the name of the summary of part of a session is printed its file is whole, provided the summary got its name and the rest of it could be
written. Missing: both conditions (`C74_printed_missing`; a failure of `fflush` is not noticed), and the time before (`C74_incomplete`). -/
theorem C74_printed_partial (w : World) (tmp final : Nat) (ht : w.dir tmp = none) (hne : final ≠ tmp) (content : Bytes) (e : SumEnv)
    (hsaid : final ∉ w.said) (hl : e.links = true) (hfree : w.dir final = none) (hfl : e.flushes = true) :
    ∀ w' ∈ (putPart w tmp final content e true).1, final ∈ w'.said → w'.read final = some content := by
  have ho : fopen w tmp = (create w tmp, w.fresh) := by unfold fopen; rw [ht]
  unfold putPart
  split
  · intro w' h hs; rw [List.mem_singleton] at h; rw [h] at hs; exact absurd hs hsaid
  · rw [ho]
    dsimp only
    split
    · intro w' h hs
      simp only [List.mem_cons, List.not_mem_nil, or_false] at h
      rcases h with rfl | rfl | rfl | rfl
      · exact absurd hs hsaid
      · exact absurd hs hsaid
      · exact absurd hs hsaid
      · exfalso; apply hsaid
        unfold unlink at hs
        split at hs <;> exact hs
    · have h0 : (fill (create w tmp) w.fresh (content.take e.early)).dir final = none := by
        show (create w tmp).dir final = none
        rw [dir_create hne, hfree]
      have saidL : (link (fill (create w tmp) w.fresh (content.take e.early)) tmp final e.links).1.said = w.said := by
        unfold link; split <;> rfl
      have full : ((if e.flushes = true then fill (link (fill (create w tmp) w.fresh (content.take e.early)) tmp final e.links).1 w.fresh content
          else (link (fill (create w tmp) w.fresh (content.take e.early)) tmp final e.links).1)).read final = some content := by
        rw [if_pos hfl]
        apply read_fill_eq
        unfold link
        rw [if_pos ⟨hl, h0⟩]
        simp [fill, create]
      rw [if_pos hfl] at full
      intro w' h hs
      simp only [if_true, List.mem_cons, List.not_mem_nil, or_false] at h
      rcases h with rfl | rfl | rfl | rfl | rfl | rfl | rfl
      · exact absurd hs hsaid
      · exact absurd hs hsaid
      · exact absurd hs hsaid
      · rw [saidL] at hs; exact absurd hs hsaid
      · exact full
      · exact full
      · rw [read_unlink hne]; exact full

private theorem read_sayKept (w : World) (k : Kept) (n : Nat) : (sayKept w k).read n = w.read n := by cases k <;> rfl

/-- A summary changes nothing under any name but its own two. -/
private theorem summary_same (w : World) (hw : SoundDir w) (tmp final : Nat) (ht : w.dir tmp = none) (content : Bytes) (e : SumEnv) (n : Nat) (hn : n ≠ tmp) (hf : n ≠ final) :
    (∀ w' ∈ (putSummary w tmp final content e).1, w'.read n = w.read n) ∧ (putSummary w tmp final content e).2.1.read n = w.read n := by
  have ho : fopen w tmp = (create w tmp, w.fresh) := by unfold fopen; rw [ht]
  have hnf : w.dir n ≠ some w.fresh := by
    intro h; have := hw _ _ h; omega
  unfold putSummary
  split
  · exact ⟨fun w' h => by rw [List.mem_singleton] at h; rw [h], rfl⟩
  · rw [ho]
    dsimp only
    split
    · have l : (unlink (fill (create w tmp) w.fresh (content.take e.early)) tmp e.unlinks).read n = w.read n := by rw [read_unlink hn]; exact filled hw hn _
      refine ⟨fun w' h => ?_, l⟩
      simp only [List.mem_cons, List.not_mem_nil, or_false] at h
      rcases h with rfl | rfl | rfl | rfl
      · rfl
      · exact read_create hw hn
      · exact filled hw hn _
      · exact l
    · have a1 : (link (fill (create w tmp) w.fresh (content.take e.early)) tmp final e.links).1.read n = w.read n := by
        rw [read_link_ne hf]; exact filled hw hn _
      have a2 : (link (fill (create w tmp) w.fresh (content.take e.early)) tmp final e.links).1.dir n = w.dir n := by
        rw [dir_link_ne hf]; exact dir_create hn
      have u1 := (read_unlink (ok := e.unlinks) hn).trans a1
      have u2 := (dir_unlink (ok := e.unlinks) hn).trans a2
      have l : (if e.flushes = true then fill (unlink (link (fill (create w tmp) w.fresh (content.take e.early)) tmp final e.links).1 tmp e.unlinks) w.fresh content
          else unlink (link (fill (create w tmp) w.fresh (content.take e.early)) tmp final e.links).1 tmp e.unlinks).read n = w.read n := by
        split
        · rw [read_fill_ne (by rw [u2]; exact hnf)]; exact u1
        · exact u1
      refine ⟨fun w' h => ?_, l⟩
      simp only [List.mem_cons, List.not_mem_nil, or_false] at h
      rcases h with rfl | rfl | rfl | rfl | rfl | rfl
      · rfl
      · exact read_create hw hn
      · exact filled hw hn _
      · exact a1
      · exact u1
      · exact l

private theorem sound_create {w : World} (hw : SoundDir w) (n : Nat) : SoundDir (create w n) := by
  intro m i h
  unfold create at h ⊢
  dsimp only at h ⊢
  split at h
  · cases h; omega
  · have := hw _ _ h; omega

private theorem sound_unlink {w : World} (hw : SoundDir w) (n : Nat) (ok : Bool) : SoundDir (unlink w n ok) := by
  unfold unlink
  split
  · intro m i h
    dsimp only at h
    split at h
    · cases h
    · exact hw _ _ h
  · exact hw

private theorem sound_link {w : World} (hw : SoundDir w) (a b : Nat) (ok : Bool) : SoundDir (link w a b ok).1 := by
  unfold link
  split
  · intro m i h
    dsimp only at h
    split at h
    · exact hw _ _ h
    · exact hw _ _ h
  · exact hw

/-- The world after the data file: it is one of those of `putData`, its names are for files that exist, and the names of other files are as before. -/
private theorem data_last (w : World) (hw : SoundDir w) (tmp final : Nat) (content : Bytes) (e : DataEnv) :
    (putData w tmp final content e).2.1 ∈ (putData w tmp final content e).1 ∧ SoundDir (putData w tmp final content e).2.1 ∧
    ∀ n, n ≠ tmp → n ≠ final → (putData w tmp final content e).2.1.dir n = w.dir n := by
  unfold putData
  split
  · exact ⟨by simp, hw, fun _ _ _ => rfl⟩
  · have sf : ∀ c, SoundDir (fill (create w tmp) w.fresh c) := fun c => sound_create hw tmp
    cases e.stops with
    | some k =>
      exact ⟨by simp, sound_unlink (sf _) _ _, fun n hn _ => by
        show (unlink _ _ _).dir n = _
        rw [dir_unlink hn]; exact dir_create hn⟩
    | none =>
      exact ⟨by simp, sound_unlink (sound_link (sf _) _ _ _) _ _, fun n hn hf => by
        show (unlink _ _ _).dir n = _
        rw [dir_unlink hn, dir_link_ne hf]; exact dir_create hn⟩

/-- At every moment of the writing of a session, its summary and the printing of the names included, the final name of the data file shows what was there before or,
if nothing was, the whole of the data, provided no temporary summary is left over from before (`C74_leftover`). -/
theorem C74_session_partial (w : World) (hw : SoundDir w) (tmpD finalD tmpS finalS : Nat) (ht : w.dir tmpS = none)
    (h1 : finalD ≠ tmpD) (h2 : finalD ≠ tmpS) (h3 : finalD ≠ finalS) (h4 : tmpS ≠ tmpD) (content summary : Bytes) (d : DataEnv) (e : SumEnv) (p : Bool) :
    ∀ w' ∈ (putSession w tmpD finalD tmpS finalS content summary d e p).1,
      w'.read finalD = w.read finalD ∨ (w.read finalD = none ∧ w'.read finalD = some content) := by
  obtain ⟨m, sd, keep⟩ := data_last w hw tmpD finalD content d
  have dat := fun w' hm => (C74_data w hw tmpD finalD h1 content d w' hm).1
  have ht' : (putData w tmpD finalD content d).2.1.dir tmpS = none := by rw [keep tmpS h4 (fun h => h2 h.symm)]; exact ht
  obtain ⟨s1, s2⟩ := summary_same _ sd tmpS finalS ht' summary e finalD h2 h3
  have last := dat _ m
  have all : ∀ w' ∈ (putData w tmpD finalD content d).1 ++ (putSummary (putData w tmpD finalD content d).2.1 tmpS finalS summary e).1,
      w'.read finalD = w.read finalD ∨ (w.read finalD = none ∧ w'.read finalD = some content) := by
    intro w' hm
    rcases List.mem_append.mp hm with h | h
    · exact dat w' h
    · rw [s1 w' h]; exact last
  unfold putSession
  dsimp only
  split
  · intro w' hm
    rcases List.mem_append.mp hm with h | h
    · exact all w' h
    · simp only [List.mem_cons, List.not_mem_nil, or_false] at h
      rcases h with rfl | rfl
      · rw [read_sayKept, s2]; exact last
      · split
        · rw [read_sayKept, s2]; exact last
        · rw [read_sayKept, read_sayKept, s2]; exact last
  · exact all

/-! ## Where the code does otherwise -/

/-- The directory holds nothing. -/
def demoBare : World := { dir := fun _ => none, data := fun _ => [], fresh := 0, said := [], undef := false }
def demoFine : SumEnv := { opens := true, early := 0, prints := true, links := true, flushes := true, unlinks := true }
def demoPut : DataEnv := { opens := true, stops := none, links := true, unlinks := true }

/-- The summary has its final name before its contents are in the file: a reader, or a crash at that moment, finds a file cut short. The same in the
main loop and at the end of a session. -/
theorem C74_incomplete :
    (putPart demoBare 1 2 [10, 20, 30] demoFine true).1.map (fun w => w.read 2) = [none, none, none, some [], some [10, 20, 30], some [10, 20, 30], some [10, 20, 30]] ∧
    (putSummary demoBare 1 2 [10, 20, 30] demoFine).1.map (fun w => w.read 2) = [none, none, none, some [], some [], some [10, 20, 30]] := by decide +kernel

/-- When the summary of part of a session cannot get its final name, that name is printed all the same. -/
theorem C74_printed_missing :
    (putPart demoBare 1 2 [10, 20, 30] { demoFine with links := false } true).1.map (fun w => (w.said, w.read 2)) =
      [([], none), ([], none), ([], none), ([], none), ([], none), ([2], none), ([2], none)] := by decide +kernel

/-- When the data file of a session cannot be opened and names are to be printed, a name that was never set is printed. -/
theorem C74_printed_unset :
    (putSession demoBare 1 2 3 4 [10] [20] { demoPut with opens := false } demoFine true).2.undef = true ∧
    (putSession demoBare 1 2 3 4 [10] [20] { demoPut with stops := some 0 } demoFine true).2.undef = true ∧
    (putSession demoBare 1 2 3 4 [10] [20] demoPut { demoFine with prints := false } true).2.undef = true := by decide +kernel

/-- A directory a crash between the link and the unlink of a summary leaves behind: the temporary name 1 and the final name 2 are for one file. -/
def demoLeft : World := { demoBare with dir := fun n => if n = 1 ∨ n = 2 then some 0 else none, data := fun _ => [10, 20, 30], fresh := 1 }

/-- It comes about: it reads as the moment before the unlink does. -/
theorem C74_left_behind : (putPart demoBare 1 2 [10, 20, 30] demoFine false).1[4]?.map (fun w => ((w.dir 1, w.dir 2), (w.read 1, w.read 2))) =
    some ((some 0, some 0), (some [10, 20, 30], some [10, 20, 30])) := by decide +kernel

/-- A summary written again under the same temporary name then destroys the contents of the file published under the final name. -/
theorem C74_leftover : (putPart demoLeft 1 2 [7] demoFine false).1.map (fun w => w.read 2) =
    [some [10, 20, 30], some [], some [], some [], some [7], some [7]] := by decide +kernel

/-- The conditions of the theorems hold of an empty directory and of one with a file in it, and the session is published whole. -/
def demoOne : World := { demoBare with dir := fun n => if n = 9 then some 0 else none, data := fun _ => [5], fresh := 1 }

example : SoundDir demoBare := fun n i h => by cases h
example : SoundDir demoOne := fun n i h => by
  simp only [demoOne] at h ⊢
  split at h
  · cases h; decide
  · cases h

theorem C74_example :
    (putSession demoOne 1 2 3 4 [10, 11] [20] demoPut demoFine true).2.said = [2, 4] ∧
    (putSession demoOne 1 2 3 4 [10, 11] [20] demoPut demoFine true).1.map (fun w => (w.read 2, w.read 4, w.read 9)) =
      [(none, none, some [5]), (none, none, some [5]), (none, none, some [5]), (some [10, 11], none, some [5]), (some [10, 11], none, some [5]),
       (some [10, 11], none, some [5]), (some [10, 11], none, some [5]), (some [10, 11], none, some [5]), (some [10, 11], some [], some [5]),
       (some [10, 11], some [], some [5]), (some [10, 11], some [20], some [5]), (some [10, 11], some [20], some [5]), (some [10, 11], some [20], some [5])] := by
  decide +kernel

end Owamp.Props
