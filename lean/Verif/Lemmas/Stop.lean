import Verif.Lemmas.Accepted
import Verif.Lemmas.State
import Verif.Spec.Stop
/-!
# What is known when a stop-sessions message has been accepted
-/
namespace Owamp.Ctl
open Owamp.Spec.Channel Owamp.Spec.Stop Owamp.Codec

/-- `X` was read from `c`, and added to the MAC, giving `c'`. -/
structure Text (c c' : Conn) (X : Bytes) : Prop where
  kept : Kept c c'
  iv : IVok c'
  text : plainIn c = X ++ plainIn c'
  acc : c.cipher = true → c'.recvAcc = c.recvAcc ++ X

theorem Text.refl (c : Conn) (h : IVok c) : Text c c [] := ⟨Kept.refl c, h, rfl, fun _ => by simp⟩

theorem Text.trans {a b c : Conn} {X Y : Bytes} (h : Text a b X) (k : Text b c Y) : Text a c (X ++ Y) :=
  ⟨h.kept.trans k.kept, k.iv, by rw [h.text, k.text, List.append_assoc], fun x => by
    rw [k.acc (by rw [h.kept.cipher]; exact x), h.acc x, List.append_assoc]⟩

theorem block_text (c c1 : Conn) (hiv : IVok c) (hm : c.msg.length = 400) (h : recvBlocks c 0 1 = (.done, c1)) :
    ∃ b, b.length = 16 ∧ Text c (recvHmacAdd c1 (get c1.msg 0 16)) b ∧
      get (recvHmacAdd c1 (get c1.msg 0 16)).msg 0 16 = b := by
  have T := recvBlocks_took c c1 0 1 hiv h
  obtain ⟨k1, k2, k3, k4, k5⟩ := recvHmacAdd_kept c1 (get c1.msg 0 16)
  have hl : ((plainIn c).take (16 * 1)).length = 16 := by have := T.len; simp; omega
  have hg : get c1.msg 0 16 = (plainIn c).take (16 * 1) := by
    rw [T.msg, get_put_same _ _ _ _ hl (by omega)]
  refine ⟨_, hl, ⟨(T.kept (by omega)).trans k1, k3 T.iv, ?_, fun hc => ?_⟩, by rw [k4, hg]⟩
  · rw [k2, T.rest, List.take_append_drop]
  · rw [k5 (by rw [(T.kept (by omega)).cipher]; exact hc), T.acc, hg]

theorem rangeBytes_decode (b : Bytes) (h : b.length = 8) : rangeBytes (decodeSkip b) = b := by
  unfold rangeBytes decodeSkip
  dsimp only
  rw [enc_get32 b 0 (by omega), enc_get32 b 4 (by omega), get_concat b 0 4 4, get_all b 8 (by omega)]

/-- The part of the block in `msg` not used before record `j`. -/
def pend (c : Conn) (j : Nat) : Bytes := if j % 2 = 0 then get c.msg 8 8 else []

theorem skip_loop (ok : List FileOp → FileOp → Bool) (prev : Skip) (hp : prev.last = 0#32) (n : Nat) :
    ∀ (c c' : Conn) (f f' : List FileOp) (g : List FileOp) (j : Nat), IVok c → c.msg.length = 400 →
    readSkipLoop (logFile ok) c f prev j n = (some f', c', g) →
    ∃ (skips : List Skip) (X : Bytes), skips.length = n ∧ f' = f ++ skips.map (fun s => .skip (rangeBytes s)) ∧ Text c c' X ∧
      pend c j ++ X = (skips.map rangeBytes).flatten ++ pend c' (j + n) ∧
      ∀ s ∈ skips, s.first.toNat ≤ s.last.toNat := by
  induction n with
  | zero =>
    intro c c' f f' g j hiv hm h
    simp only [readSkipLoop, Prod.mk.injEq, Option.some.injEq] at h
    obtain ⟨rfl, rfl, -⟩ := h
    exact ⟨[], [], rfl, by simp, Text.refl c hiv, by simp, by simp⟩
  | succ n ih =>
    intro c c' f f' g j hiv hm h
    rw [readSkipLoop] at h
    dsimp only at h
    -- the record read, whichever half of the block it is in
    have key : ∀ c1, (if (j + 1) % 2 * 8 = 0 then
        match recvBlocks c 0 1 with
        | (.done, c) => (RdBlk.done, recvHmacAdd c (get c.msg 0 16))
        | r => r
      else (.done, c)) = (RdBlk.done, c1) →
      ∃ X, Text c c1 X ∧ pend c j ++ X = get c1.msg ((j + 1) % 2 * 8) 8 ++ pend c1 (j + 1) := by
      intro c1 e
      rcases Nat.mod_two_eq_zero_or_one j with hj | hj
      · have hj1 : (j + 1) % 2 = 1 := by omega
        rw [if_neg (by omega)] at e
        simp only [Prod.mk.injEq, true_and] at e
        subst e
        refine ⟨[], Text.refl c hiv, ?_⟩
        unfold pend
        rw [if_pos hj, if_neg (by omega), hj1]
      · have hj1 : (j + 1) % 2 = 0 := by omega
        rw [if_pos (by omega)] at e
        split at e
        · rename_i c2 e2
          simp only [Prod.mk.injEq, true_and] at e
          obtain ⟨b, hb, hT, hg⟩ := block_text c c2 hiv hm e2
          rw [e] at hT hg
          refine ⟨b, hT, ?_⟩
          unfold pend
          rw [if_neg (by omega), if_pos hj1, hj1, get_concat c1.msg (0 * 8) 8 8]
          simpa using hg.symm
        · rename_i hx
          exact absurd e (by rintro e; exact hx _ e)
    split at h
    · rename_i c1 e
      obtain ⟨X, hT, hX⟩ := key _ e
      have hm1 := hT.kept.len hm
      split at h
      · simp at h
      rename_i hle
      rw [if_neg (by rw [hp]; simp)] at h
      split at h
      · simp at h
      · rename_i f1 ef
        obtain ⟨skips, Y, h1, h2, h3, h4, h5⟩ := ih _ _ _ _ _ _ hT.iv hm1 h
        have hlen : (get c1.msg ((j + 1) % 2 * 8) 8).length = 8 := get_length _ _ _ (by omega)
        refine ⟨decodeSkip (get c1.msg ((j + 1) % 2 * 8) 8) :: skips, X ++ Y, by simp [h1], ?_, hT.trans h3, ?_, ?_⟩
        · simp only [logFile] at ef
          split at ef
          · simp only [Option.some.injEq] at ef
            rw [h2, ← ef, List.map_cons, rangeBytes_decode _ hlen]
            simp
          · simp at ef
        · rw [← List.append_assoc, hX, List.append_assoc, h4, List.map_cons, rangeBytes_decode _ hlen,
            List.flatten_cons, List.append_assoc, show j + (n + 1) = j + 1 + n by omega]
        · intro s hs
          rcases List.mem_cons.1 hs with rfl | hs
          · omega
          · exact h5 s hs
    · simp at h

theorem stop_record (ok : List FileOp → FileOp → Bool) (c c' : Conn) (f f' g : List FileOp) (hiv : IVok c)
    (hm : c.msg.length = 400) (h : readStopRecord (logFile ok) c f = (some f', c', g)) :
    ∃ a : Account, f' = f ++ recorded a ∧ Text c c' (accountText a) ∧ a.skips.length < 2 ^ 32 ∧
      ∀ s ∈ a.skips, s.first.toNat ≤ s.last.toNat := by
  unfold readStopRecord at h
  split at h
  · rename_i c1 e
    obtain ⟨b, hb, hT, hg⟩ := block_text c c1 hiv hm e
    dsimp only at h
    generalize hc2 : recvHmacAdd c1 (get c1.msg 0 16) = c2 at h hT hg
    have hm2 := hT.kept.len hm
    split at h
    · simp at h
    · rename_i f1 ef
      split at h
      · simp at h
      · rename_i f2 c3 g2 e3
        obtain ⟨skips, X, h1, h2, h3, h4, h5⟩ := skip_loop ok _ rfl _ _ _ _ _ _ _ hT.iv hm2 e3
        split at h
        · simp at h
        · rename_i hz
          split at h
          · simp at h
          · rename_i f3 e4
            simp only [Prod.mk.injEq, Option.some.injEq] at h
            obtain ⟨rfl, rfl, -⟩ := h
            have hlt : skips.length < 2 ^ 32 := by rw [h1]; exact (get32 c2.msg 4).isLt
            have hn : BitVec.ofNat 32 skips.length = get32 c2.msg 4 := by
              rw [h1]; simp
            refine ⟨⟨get32 c2.msg 0, skips⟩, ?_, ?_, hlt, h5⟩
            · simp only [logFile] at ef e4
              split at ef
              · split at e4
                · simp only [Option.some.injEq] at ef e4
                  rw [← e4, h2, ← ef]
                  simp only [recorded, hn]
                  simp
                · simp at e4
              · simp at ef
            · have hA : accountText ⟨get32 c2.msg 0, skips⟩ = b ++ X := by
                have hb2 : get c2.msg 0 8 ++ get c2.msg 8 8 = b := by rw [get_concat c2.msg 0 8 8]; exact hg
                have hp0 : pend c2 0 = get c2.msg 8 8 := rfl
                have hpn : pend c3 (0 + (get32 c2.msg 4).toNat) = if skips.length % 2 = 0 then zeros 8 else [] := by
                  unfold pend
                  rw [h1, Nat.zero_add]
                  split
                  · rename_i h0
                    exact Classical.byContradiction fun hne => hz ⟨h0, hne⟩
                  · rfl
                rw [← hb2, List.append_assoc, ← hp0, h4, hpn]
                unfold accountText
                dsimp only
                rw [hn, enc_get32 c2.msg 0 (by omega), enc_get32 c2.msg 4 (by omega), get_concat c2.msg 0 4 4]
                simp only [List.append_assoc]
              rw [hA]
              exact hT.trans h3
  · simp at h

theorem find_receiver {ρ : Type} (sid : Bytes) (l b a : List (Sess ρ)) (t : Sess ρ)
    (h : findReceiver sid l = some (b, t, a)) : l = b ++ t :: a ∧ t.sid = sid := by
  induction l generalizing b with
  | nil => simp [findReceiver] at h
  | cons x l ih =>
    rw [findReceiver] at h
    split at h
    · rename_i hs
      simp only [Option.some.injEq, Prod.mk.injEq] at h
      obtain ⟨rfl, rfl, rfl⟩ := h
      exact ⟨rfl, hs⟩
    · cases hf : findReceiver sid l with
      | none => rw [hf] at h; simp at h
      | some r =>
        rw [hf] at h
        simp only [Option.map_some, Option.some.injEq, Prod.mk.injEq] at h
        obtain ⟨rfl, rfl, rfl⟩ := h
        obtain ⟨h1, h2⟩ := ih r.1 hf
        exact ⟨by rw [List.cons_append, ← h1], h2⟩

theorem pull_receivers {ρ : Type} (l : List (Sess ρ)) : ∀ rs ts rs', pullReceivers l rs = (true, ts, rs') →
    (∀ t ∈ l, t.ep.isSome) ∧ ts = l.filter sending ∧ rs' = (l.filter receiving).reverse ++ rs := by
  induction l with
  | nil =>
    intro rs ts rs' h
    simp only [pullReceivers, Prod.mk.injEq, true_and] at h
    obtain ⟨rfl, rfl⟩ := h
    simp
  | cons t l ih =>
    intro rs ts rs' h
    rw [pullReceivers] at h
    split at h
    · simp at h
    · rename_i e he
      split at h
      · rename_i hs
        simp only [Prod.mk.injEq] at h
        obtain ⟨i1, i2, i3⟩ := ih rs (pullReceivers l rs).2.1 (pullReceivers l rs).2.2 (by rw [← h.1])
        refine ⟨?_, ?_, ?_⟩
        · intro x hx
          rcases List.mem_cons.1 hx with rfl | hx
          · rw [he]; rfl
          · exact i1 x hx
        · rw [← h.2.1, i2, List.filter_cons, if_pos (by simp [sending, he, hs])]
        · rw [← h.2.2, i3, List.filter_cons, if_neg (by simp [receiving, he, hs])]
      · rename_i hs
        obtain ⟨i1, i2, i3⟩ := ih _ _ _ h
        refine ⟨?_, ?_, ?_⟩
        · intro x hx
          rcases List.mem_cons.1 hx with rfl | hx
          · rw [he]; rfl
          · exact i1 x hx
        · rw [i2, List.filter_cons, if_neg (by simp [sending, he, hs])]
        · rw [i3, List.filter_cons, if_pos (by simp [receiving, he, hs])]
          simp

theorem stop_loop (ok : List FileOp → FileOp → Bool) (n : Nat) : ∀ (s s' : StopAt (List FileOp)), IVok s.c →
    s.c.msg.length = 400 → readStopLoop (logFile ok) s n = (true, s') →
    ∃ claims : List (Sess (List FileOp) × Account), claims.length = n ∧
      s.receivers.Perm (claims.map Prod.fst ++ s'.receivers) ∧
      s'.tests = (claims.map record).reverse ++ s.tests ∧
      Text s.c s'.c ((claims.map claimText).flatten) ∧
      ∀ k ∈ claims, k.2.skips.length < 2 ^ 32 ∧ ∀ r ∈ k.2.skips, r.first.toNat ≤ r.last.toNat := by
  induction n with
  | zero =>
    intro s s' hiv hm h
    simp only [readStopLoop, Prod.mk.injEq, true_and] at h
    subst h
    exact ⟨[], rfl, List.Perm.refl _, rfl, Text.refl _ hiv, by simp⟩
  | succ n ih =>
    intro s s' hiv hm h
    rw [readStopLoop] at h
    split at h
    · rename_i c1 e
      obtain ⟨b, hb, hT, hg⟩ := block_text s.c c1 hiv hm e
      dsimp only at h
      generalize hc2 : recvHmacAdd c1 (get c1.msg 0 16) = c2 at h hT hg
      have hm2 := hT.kept.len hm
      split at h
      · simp at h
      · rename_i before t aft hf
        obtain ⟨f1, f2⟩ := find_receiver _ _ _ _ _ hf
        split at h
        · simp at h
        · rename_i ep hep
          split at h
          · simp at h
          · rename_i f c3 g e3
            obtain ⟨a, a1, a2, a3, a4⟩ := stop_record ok _ _ _ _ _ hT.iv hm2 e3
            obtain ⟨claims, k1, k2, k3, k4, k5⟩ := ih _ _ a2.iv (a2.kept.len hm2) h
            refine ⟨(t, a) :: claims, by simp [k1], ?_, ?_, ?_, ?_⟩
            · rw [f1]
              refine List.perm_middle.trans ?_
              exact List.Perm.cons t k2
            · rw [k3]
              simp [record, hep, a1]
            · rw [List.map_cons, List.flatten_cons]
              have : claimText (t, a) = b ++ accountText a := by
                unfold claimText; rw [f2, hg]
              rw [this]
              exact (hT.trans a2).trans k4
            · intro k hk
              rcases List.mem_cons.1 hk with rfl | hk
              · exact ⟨a3, a4⟩
              · exact k5 k hk
    · simp at h

end Owamp.Ctl
