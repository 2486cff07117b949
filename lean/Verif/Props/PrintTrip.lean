import Verif.Props.PrintTw
import Verif.Props.PrintSummaryTw
import Verif.Props.RoundTrip
/-!
# C102 and C103: the reports about an undisturbed two-way session tell what happened
-/
namespace Owamp.Props
open Owamp.Codec Owamp.Policy Owamp.TwoWay Owamp.Spec.TwoWay Owamp.Spec.RoundTrip
open Owamp.Spec.Receiver (stampOf)
open Owamp.Spec.Print (Says Silent Number lines PlainFmt PlainInfo)
open Owamp.Print (Fmt Info digits digits_numeral)
open Owamp.PrintTw (value_says valueOf)

/-- **C102**, joined with C98: what a program reads about an undisturbed two-way session is true of the packets and replies that went over the network. -/
theorem C102_true (w : TwoEnds) (ds : List Nat) (ha : w.Agreed) (hu : w.Undisturbed ds) (hr : w.Reflecting) (hn : w.Network)
    (rs : List TWDataRec) (hrs : w.final.entries.map readBack = rs.map some) (hlen : rs.length < 2 ^ 32)
    (c : TwStats.Cfg) (h0 : 0 < w.z.c.npackets.toNat) (hc : c.npackets = w.z.c.npackets) (hsk : c.skips = []) (oset : Nat) (s : TwStats.St)
    (hp : TwStats.parse c rs oset 0 (2 ^ 32 - 1) = .ok s) (delay : U64 → U64 → Int) (hdel : ∀ a b, c.delay a b = delay a.owptime b.owptime)
    (F : Fmt) (i : Info) (hF : PlainFmt F) (hi : PlainInfo i) (L : List (List Bytes)) (hL : L = lines (PrintTw.machine F c i s)) :
    Number L ['S','E','N','T'] (Spec.Stats.packets w.z.c.npackets.toNat fun k => decide (handed k w.final.calls ≠ [])) ∧
    Number L ['L','O','S','T'] (Spec.Stats.packets w.z.c.npackets.toNat fun k => decide (handed k w.final.calls ≠ [] ∧ ∀ p ∈ w.good, p.packet ≠ k)) ∧
    Number L ['D','U','P','S','_','F','W','D'] (different (·.reply) w.good - different (·.packet) w.good) ∧
    Number L ['D','U','P','S','_','B','C','K'] (w.good.length - different (·.reply) w.good) ∧
    ∀ e f, (e, f) ∈ [(([] : List Char), fun p : Trip => delay (stampOf p.sent) (stampOf p.back) - delay (stampOf p.came) (stampOf p.left)),
        (['_','F','W','D'], fun p => delay (stampOf p.sent) (stampOf p.came)), (['_','B','C','K'], fun p => delay (stampOf p.left) (stampOf p.back)),
        (['_','P','R','O','C'], fun p => delay (stampOf p.came) (stampOf p.left))] →
      (∀ m ∈ w.good.map f, m < c.inf → (∀ d ∈ w.good.map f, m ≤ d) → Says L (['M','I','N'] ++ e) (F.delay m)) ∧
      (∀ m ∈ w.good.map f, -c.inf < m → (∀ d ∈ w.good.map f, d ≤ m) → Says L (['M','A','X'] ++ e) (F.delay m)) := by
  obtain ⟨c1, c2, c3, c4, ⟨a, b, d, e, m0, m1, m2, m3, m4⟩, a', b', d', e', x0, x1, x2, x3, x4⟩ :=
    C98_report w ds ha hu hr hn rs hrs hlen c h0 hc hsk oset s hp delay hdel
  have V := fun k name hn => value_says F c i s hF hi L hL k name hn
  have N : ∀ k name m, text name = k.text → valueOf F c i s k = some (digits m) → Number L name m :=
    fun k name m e hv => ⟨_, (V k name e).1 _ hv, digits_numeral m⟩
  refine ⟨N (.plain .sent) _ _ rfl (by rw [← c1]; rfl), N (.plain .lost) _ _ rfl (by rw [← c2]; rfl),
    N .dupsF _ _ rfl (by rw [← c3, Nat.add_sub_cancel]; rfl), N .dupsB _ _ rfl (by rw [← c4, Nat.add_sub_cancel]; rfl), ?_⟩
  have one : ∀ (R : List Int) (j : Nat) (kmin kmax : PrintTw.Name) (nmin nmax : List Char), text nmin = kmin.text → text nmax = kmax.text →
      valueOf F c i s kmin = PrintTw.minValue F c s j → valueOf F c i s kmax = PrintTw.maxValue F c s j →
      Spec.Stats.LeastOf c.inf R (s.min.getD j 0) → Spec.Stats.GreatestOf (-c.inf) R (s.max.getD j 0) →
      (∀ m ∈ R, m < c.inf → (∀ d ∈ R, m ≤ d) → Says L nmin (F.delay m)) ∧
      (∀ m ∈ R, -c.inf < m → (∀ d ∈ R, d ≤ m) → Says L nmax (F.delay m)) := by
    intro R j kmin kmax nmin nmax n1 n2 v1 v2 l g
    refine ⟨fun m hm hi hl => (V kmin _ n1).1 _ ?_, fun m hm hi hl => (V kmax _ n2).1 _ ?_⟩
    · have e : s.min.getD j 0 = m := least_unique l ⟨.inr hm, by omega, hl⟩
      rw [v1]; unfold PrintTw.minValue
      rw [e, if_pos hi]
    · have e : s.max.getD j 0 = m := greatest_unique g ⟨.inr hm, by omega, hl⟩
      rw [v2]; unfold PrintTw.maxValue
      rw [e, if_pos hi]
  intro n f hf
  simp only [List.mem_cons, Prod.mk.injEq, List.not_mem_nil, or_false] at hf
  rcases hf with ⟨rfl, rfl⟩ | ⟨rfl, rfl⟩ | ⟨rfl, rfl⟩ | ⟨rfl, rfl⟩
  · exact one _ 0 (.plain .min) (.plain .max) _ _ rfl rfl rfl rfl (by rw [m0]; exact m4) (by rw [x0]; exact x4)
  · exact one _ 1 .minF .maxF _ _ rfl rfl rfl rfl (by rw [m0]; exact m1) (by rw [x0]; exact x1)
  · exact one _ 2 .minB .maxB _ _ rfl rfl rfl rfl (by rw [m0]; exact m2) (by rw [x0]; exact x2)
  · exact one _ 3 .minP .maxP _ _ rfl rfl rfl rfl (by rw [m0]; exact m3) (by rw [x0]; exact x3)

/-- The session of C98: three packets sent, one reply was lost, one packet was reflected twice and one reply came twice. -/
example : Number (twLines { twDemo with npackets := 3 } loopRecords) ['S','E','N','T'] 3 ∧
    Number (twLines { twDemo with npackets := 3 } loopRecords) ['L','O','S','T'] 1 ∧
    Number (twLines { twDemo with npackets := 3 } loopRecords) ['D','U','P','S','_','F','W','D'] 1 ∧
    Number (twLines { twDemo with npackets := 3 } loopRecords) ['D','U','P','S','_','B','C','K'] 1 := by
  have hok : (TwStats.parse { twDemo with npackets := 3 } loopRecords 0 0 (2 ^ 32 - 1)).toOption.isSome = true := by decide +kernel
  unfold twLines
  cases hp : TwStats.parse { twDemo with npackets := 3 } loopRecords 0 0 (2 ^ 32 - 1) with
  | error e => rw [hp] at hok; cases hok
  | ok s =>
    have hrs : loop.final.entries.map readBack = loopRecords.map some := by decide +kernel
    obtain ⟨h1, h2, h3, h4, _⟩ := C102_true loop loopDelays loop_agreed loop_undisturbed loop_reflecting loop_network loopRecords hrs (by decide +kernel) _
      (by decide) rfl rfl 0 s hp (fun a b => (b.toNat : Int) - a.toNat) (fun _ _ => rfl) demoFmt demoInfo demo_fmt demo_info _ rfl
    have e1 : different (·.reply) loop.good - different (·.packet) loop.good = 1 ∧ loop.good.length - different (·.reply) loop.good = 1 := by decide +kernel
    have e2 : (Spec.Stats.packets loop.z.c.npackets.toNat fun k => decide (handed k loop.final.calls ≠ [])) = 3 := by decide +kernel
    have e3 : (Spec.Stats.packets loop.z.c.npackets.toNat fun k => decide (handed k loop.final.calls ≠ [] ∧ ∀ p ∈ loop.good, p.packet ≠ k)) = 1 := by decide +kernel
    exact ⟨e2 ▸ h1, e3 ▸ h2, e1.1 ▸ h3, e1.2 ▸ h4⟩

/-- The times of a packet's trip that the summary shows, by the name the line gives them. -/
def tripLines (delay : U64 → U64 → Int) : List (List Char × (Trip → Int)) :=
  [(['r','o','u','n','d','-','t','r','i','p',' ','t','i','m','e'], fun p => delay (stampOf p.sent) (stampOf p.back) - delay (stampOf p.came) (stampOf p.left)),
   (['s','e','n','d',' ','t','i','m','e'], fun p => delay (stampOf p.sent) (stampOf p.came)),
   (['r','e','f','l','e','c','t',' ','t','i','m','e'], fun p => delay (stampOf p.left) (stampOf p.back))]

open Owamp.Spec.Ports (decimal) in
/-- **C103**, joined with C98: what people read about an undisturbed two-way session is true of the packets and replies that went over the network. After the warning, if there is one, the sixth
line has the number of packets handed to the network, the number of those of which no reply came back in time and their share, the further copies that the reflector answered, and the further
copies of its replies; the seventh to ninth have the least and the greatest round-trip time, way out and way back of the replies in time, and the tenth the least and greatest time at
the reflector. -/
theorem C103_true (w : TwoEnds) (ds : List Nat) (ha : w.Agreed) (hu : w.Undisturbed ds) (hr : w.Reflecting) (hn : w.Network)
    (rs : List TWDataRec) (hrs : w.final.entries.map readBack = rs.map some) (hlen : rs.length < 2 ^ 32)
    (c : TwStats.Cfg) (h0 : 0 < w.z.c.npackets.toNat) (hc : c.npackets = w.z.c.npackets) (hsk : c.skips = []) (oset : Nat) (s : TwStats.St)
    (hp : TwStats.parse c rs oset 0 (2 ^ 32 - 1) = .ok s) (delay : U64 → U64 → Int) (hdel : ∀ a b, c.delay a b = delay a.owptime b.owptime)
    (Z : Print.Style) (i : Info) (ps : List (Rat × Bytes)) (hZ : Spec.Print.PlainStyle Z) (hi : PlainInfo i) (hps : ∀ p ∈ ps, 10#8 ∉ p.2)
    (L : List Bytes) (hL : L = Spec.Print.textLines (PrintTw.summary Z c i s ps))
    (sent : Nat) (hsent : sent = Spec.Stats.packets w.z.c.npackets.toNat fun k => decide (handed k w.final.calls ≠ []))
    (lost : Nat) (hlost : lost = Spec.Stats.packets w.z.c.npackets.toNat fun k => decide (handed k w.final.calls ≠ [] ∧ ∀ p ∈ w.good, p.packet ≠ k)) :
    ∃ W M, L = W ++ M ∧ (W = [] ∨ W.length = 2) ∧ M.length = 16 + percentileCount ps ∧
    M[5]? = some (decimal sent ++ text [' ','s','e','n','t',',',' '] ++ decimal lost ++ text [' ','l','o','s','t',' ','('] ++
      (if sent = 0 then Z.percent 0 1 else Z.percent lost sent) ++ text ['%',')',',',' '] ++ decimal (different (·.reply) w.good - different (·.packet) w.good) ++
      text [' ','s','e','n','d',' ','d','u','p','l','i','c','a','t','e','s',',',' '] ++ decimal (w.good.length - different (·.reply) w.good) ++
      text [' ','r','e','f','l','e','c','t',' ','d','u','p','l','i','c','a','t','e','s']) ∧
    (∀ j name f, (tripLines delay)[j]? = some (name, f) →
      ∃ a b d e, M[6 + j]? = some (text name ++ text [' ','m','i','n','/','m','e','d','i','a','n','/','m','a','x',' ','=',' '] ++
          a ++ text ['/'] ++ b ++ text ['/'] ++ d ++ text [' '] ++ Z.unit ++ text [',',' '] ++ e) ∧
        LeastText Z c.inf (w.good.map f) a ∧ GreatestText Z c.inf (w.good.map f) d) ∧
    ∃ a d, M[9]? = some (text ['r','e','f','l','e','c','t','o','r',' ','p','r','o','c','e','s','s','i','n','g',' ','t','i','m','e',' ','m','i','n','/','m','a','x',' ','=',' '] ++
        a ++ text ['/'] ++ d ++ text [' '] ++ Z.unit) ∧
      LeastText Z c.inf (w.good.map fun p => delay (stampOf p.came) (stampOf p.left)) a ∧
      GreatestText Z c.inf (w.good.map fun p => delay (stampOf p.came) (stampOf p.left)) d := by
  obtain ⟨c1, c2, c3, c4, ⟨a, b, d, e, m0, m1, m2, m3, m4⟩, a', b', d', e', x0, x1, x2, x3, x4⟩ :=
    C98_report w ds ha hu hr hn rs hrs hlen c h0 hc hsk oset s hp delay hdel
  rw [read_tw_summary Z c i s ps hZ hi hps] at hL
  rw [← hsent] at c1
  rw [← hlost] at c2
  refine ⟨PrintTw.warnLines s, PrintTw.summaryBody Z c i s ps, hL, ?_, ?_, ?_, ?_, ?_⟩
  · unfold PrintTw.warnLines
    split
    · exact .inr rfl
    · exact .inl rfl
  · unfold PrintTw.summaryBody
    rw [List.length_append, List.length_append, tw_percentileLines_length]
    show 13 + percentileCount ps + 3 = _
    omega
  · show some (PrintTw.countLine Z s) = _
    unfold PrintTw.countLine
    rw [Print.digits_decimal, Print.digits_decimal, Print.digits_decimal, Print.digits_decimal, c1, c2,
      show different (·.reply) w.good - different (·.packet) w.good = s.dupsF by omega, show w.good.length - different (·.reply) w.good = s.dupsB by omega]
    by_cases hz : sent = 0
    · rw [if_neg (by omega), if_pos hz]
    · rw [if_pos (by omega), if_neg hz]
  · intro j name f hj
    match j, hj with
    | 0, hj =>
      cases hj
      exact ⟨_, _, _, _, rfl, least_text (j := 0) (by rw [m0]; exact m4), greatest_text (j := 0) (by rw [x0]; exact x4)⟩
    | 1, hj =>
      cases hj
      exact ⟨_, _, _, _, rfl, least_text (j := 1) (by rw [m0]; exact m1), greatest_text (j := 1) (by rw [x0]; exact x1)⟩
    | 2, hj =>
      cases hj
      exact ⟨_, _, _, _, rfl, least_text (j := 2) (by rw [m0]; exact m2), greatest_text (j := 2) (by rw [x0]; exact x2)⟩
    | j + 3, hj => cases hj
  · exact ⟨_, _, rfl, least_text (j := 3) (by rw [m0]; exact m3), greatest_text (j := 3) (by rw [x0]; exact x3)⟩

/-- The session of C98, for people. -/
example : ∃ W M, twText { twDemo with npackets := 3 } loopRecords [] = W ++ M ∧
    (M[5]?).map (·.take 14) = some (text ['3',' ','s','e','n','t',',',' ','1',' ','l','o','s','t']) := by
  have hok : (TwStats.parse { twDemo with npackets := 3 } loopRecords 0 0 (2 ^ 32 - 1)).toOption.isSome = true := by decide +kernel
  unfold twText
  cases hp : TwStats.parse { twDemo with npackets := 3 } loopRecords 0 0 (2 ^ 32 - 1) with
  | error e => rw [hp] at hok; cases hok
  | ok s =>
    have hrs : loop.final.entries.map readBack = loopRecords.map some := by decide +kernel
    obtain ⟨W, M, h1, _, _, h2, _⟩ := C103_true loop loopDelays loop_agreed loop_undisturbed loop_reflecting loop_network loopRecords hrs (by decide +kernel) _
      (by decide) rfl rfl 0 s hp (fun a b => (b.toNat : Int) - a.toNat) (fun _ _ => rfl) demoStyle demoInfo [] demo_style demo_info nofun _ rfl
      3 (by decide +kernel) 1 (by decide +kernel)
    have e1 : different (·.reply) loop.good - different (·.packet) loop.good = 1 ∧ loop.good.length - different (·.reply) loop.good = 1 := by decide +kernel
    refine ⟨W, M, h1, ?_⟩
    rw [h2, e1.1, e1.2]
    decide +kernel

end Owamp.Props
