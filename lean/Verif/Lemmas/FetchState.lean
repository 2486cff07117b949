import Verif.Model.Fetch
import Verif.Lemmas.State
/-!
# How serving a fetch moves the state of a connection
-/
namespace Owamp.Fetch
open Owamp.Codec Owamp.Ctl Owamp.File

theorem sendText_st {c c' : Conn} {b : Bytes} {x : Wr} (h : sendText c b = (x, c')) : Same c c' := by
  unfold sendText at h
  exact Same.trans (b := { c with msg := put c.msg 0 b }) ⟨rfl, rfl⟩ (Same.trans (sendHmacAdd_same _ b) (sendBlocks_st h))

theorem sendTag_st {H : Mac} {c c' : Conn} (h : sendTag H c = (some (), c')) : Same c c' := by
  unfold sendTag at h
  split at h
  · rename_i c1 e
    simp only [Prod.mk.injEq, true_and] at h
    subst h
    have h1 := sendDigest_same H c
    exact Same.trans (b := { (sendDigest H c).2 with msg := put (sendDigest H c).2.msg 0 (sendDigest H c).1 }) h1 (sendBlocks_st e)
  · simp at h

theorem copyBlocks_st (c : Conn) (f : Bytes) (pos tr : Nat) : ∀ (r : Nat × Nat) (c' : Conn), copyBlocks c f pos tr = (some r, c') → Same c c' := by
  fun_induction copyBlocks c f pos tr with
  | case1 => intro r c' h; simp at h
  | case2 c pos tr _ b _ c1 e ih => intro r c' h; exact (sendText_st e).trans (ih r c' h)
  | case3 => intro r c' h; simp at h
  | case4 => intro r c' h; simp only [Prod.mk.injEq] at h; rw [← h.2]; exact Same.refl _

theorem sendRequest_st {H : Mac} {c c' : Conn} {f : Bytes} {p : Init} (h : sendRequest H c f p = (some (), c')) : Same c c' := by
  unfold sendRequest at h
  split at h
  · simp at h
  · split at h
    · rename_i e
      have s1 := sendMsg_st e
      split at h
      · simp at h
      · rename_i e2
        exact s1.trans ((copyBlocks_st _ _ _ _ _ _ e2).trans (sendTag_st h))
    · simp at h

theorem sendRest_st {c c' : Conn} {f : Bytes} {pos tr : Nat} (h : sendRest c f pos tr = (some (), c')) : Same c c' := by
  unfold sendRest at h
  split at h
  · split at h
    · simp at h
    · split at h
      · rename_i e
        simp only [Prod.mk.injEq, true_and] at h
        subst h
        exact sendText_st e
      · simp at h
  · simp only [Prod.mk.injEq, true_and] at h
    subst h; exact Same.refl _

theorem sendSkips_st' {H : Mac} {c c' : Conn} {f : Bytes} {p : Init} (h : sendSkips H c f p = (some (), c')) : Same c c' := by
  unfold sendSkips at h
  split at h
  · split at h
    · simp at h
    · split at h
      · simp at h
      · rename_i e
        have s1 := copyBlocks_st _ _ _ _ _ _ e
        split at h
        · simp at h
        · rename_i e2
          exact s1.trans ((sendRest_st e2).trans (sendTag_st h))
  · exact sendTag_st h

theorem flushFull_st (s : DoData) (h : (flushFull s).1 = 0) : Same s.c (flushFull s).2.c := by
  unfold flushFull at h ⊢
  split
  · rename_i hi
    rw [if_pos hi] at h
    split
    · rename_i e
      exact sendText_st e
    · rename_i x c' hx e
      rw [e] at h
      cases x <;> simp at h hx
  · rename_i hi
    rw [if_neg hi] at h
    split
    · rename_i hj
      rw [if_pos hj] at h
      simp at h
    · exact Same.refl _

theorem doRecord_st (s : DoData) (r : DataRec) : (doRecord s r).1 ≤ 0 ∧ ((doRecord s r).1 = 0 → Same s.c (doRecord s r).2.c) := by
  unfold doRecord
  split
  · exact ⟨Int.le_refl _, fun _ => Same.refl _⟩
  · split
    · split
      · exact ⟨show (-1 : Int) ≤ 0 by decide, (fun h => by simp at h)⟩
      · rename_i b _
        refine ⟨?_, fun h => ?_⟩
        · unfold flushFull
          split
          · split <;> simp
          · split <;> simp
        · exact flushFull_st _ h
    · exact ⟨Int.le_refl _, fun _ => Same.refl _⟩

theorem parseLoop_st (len : Nat) (dec : Bytes → Option DataRec) (f : Bytes) (n : Nat) : ∀ (pos : Nat) (s s' : DoData),
    parseLoop len dec doRecord f pos n s = (.ok, s') → Same s.c s'.c := by
  induction n with
  | zero => intro pos s s' h; simp only [parseLoop, Prod.mk.injEq, true_and] at h; subst h; exact Same.refl _
  | succ n ih =>
    intro pos s s' h
    rw [parseLoop] at h
    split at h
    · simp at h
    · split at h
      · simp at h
      · rename_i r _
        obtain ⟨d1, d2⟩ := doRecord_st s r
        split at h
        · rename_i h0
          exact (d2 h0).trans (ih _ _ _ h)
        · rename_i h0
          rw [if_pos (by omega)] at h
          simp at h

theorem parse_st {f : Bytes} {p : Init} {s s' : DoData} (h : parse f p s = (.ok, s')) : Same s.c s'.c := by
  unfold parse at h
  split at h
  · simp at h
  · unfold parseRecords at h
    split at h
    · exact parseLoop_st _ _ _ _ _ _ _ h
    · split at h
      · exact parseLoop_st _ _ _ _ _ _ _ h
      · split at h
        · simp only [Prod.mk.injEq] at h
          rw [← h.2]; exact Same.refl _
        · simp at h

theorem sendData_st {c c' : Conn} {q : Plan} (h : sendData c q = (some (), c')) : Same c c' := by
  unfold sendData at h
  split at h
  · simp only [Prod.mk.injEq, true_and] at h
    subst h; exact Same.refl _
  · split at h
    · rename_i s e
      have s1 := parse_st e
      split at h
      · simp at h
      · unfold flushRest at h
        split at h
        · split at h
          · rename_i e2
            simp only [Prod.mk.injEq, true_and] at h
            subst h
            exact s1.trans (sendText_st e2)
          · simp at h
        · simp only [Prod.mk.injEq, true_and] at h
          subst h
          exact s1
    · simp at h

theorem serve_st (H : Mac) (E : Env) (c c' : Conn) (h : serve H E c = (some (), c')) (hs : c.state = { request := true, fetchSession := true }) :
    c'.state = .requestOnly := by
  unfold serve at h
  split at h
  · simp at h
  · rename_i first last sid c1 e1
    obtain ⟨-, s1, -⟩ := readFetch_st H _ _ _ e1
    rw [hs] at s1
    have no : ∀ a, a ≠ Accept.accept → refuse H c1 a = (some (), c') → c'.state = .requestOnly := by
      intro a ha h
      unfold refuse at h
      split at h
      · simp at h
      · rename_i e
        simp only [Prod.mk.injEq, true_and] at h
        subst h
        obtain ⟨-, h2 | h2⟩ := writeFetchAck_st H _ _ _ e
        · exact absurd h2.1 ha
        · rw [h2.2, s1]; rfl
    split at h
    · simp at h
    · exact no _ (by decide) h
    · split at h
      · split at h
        · rename_i a hh
          refine no a ?_ h
          have : ∀ (n lt ft : Nat) (a : Accept), header E first last n lt ft = .error a → a ≠ .accept := by
            intro n lt ft a h
            fun_induction header E first last n lt ft
            all_goals first
              | (simp only [Except.error.injEq] at h; subst h; simp; done)
              | (exact absurd h (by simp))
              | (rename_i ih; exact ih h)
          exact this _ _ _ _ hh
        · split at h
          · exact no _ (by decide) h
          · unfold answer at h
            split at h
            · simp at h
            · rename_i c2 e2
              obtain ⟨-, h2 | h2⟩ := writeFetchAck_st H _ _ _ e2
              · have h2 := h2.2
                rw [s1] at h2
                split at h
                · simp at h
                · rename_i e3
                  have s3 := sendRequest_st e3
                  split at h
                  · simp at h
                  · rename_i e4
                    have s4 := s3.trans (sendSkips_st' e4)
                    split at h
                    · simp at h
                    · rename_i e5
                      have s5 := s4.trans (sendData_st e5)
                      split at h
                      · simp at h
                      · rename_i e6
                        have s6 := s5.trans (sendTag_st e6)
                        simp only [Prod.mk.injEq, true_and] at h
                        subst h
                        simp only [Conn.setState, s6.1, h2]
                        rfl
              · exact absurd rfl h2.1
      · exact no _ (by decide) h

end Owamp.Fetch
