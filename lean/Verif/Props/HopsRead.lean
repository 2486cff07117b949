import Verif.Props.Hops
import Verif.Props.Truth
/-!
# C101: the hops that are read about a one-way session
-/
namespace Owamp.Props
open Owamp.Time Owamp.Codec Owamp.Recv Owamp.Hops Owamp.Spec.Hops Owamp.Spec.Receiver Owamp.Spec.EndToEnd
open Owamp.Sizes (Family)
open Owamp.Spec.Print (Number)
open Owamp.Policy (text)

/-- Every datagram that comes from the sender left its prepared socket and passed `K` routers on its way to the receiver's. -/
def OneWay.Path (w : OneWay) (big : Bool) (wd : Nat) (af : Family) (ls lr : List SockOpt) (K : Nat) : Prop :=
  ∀ a ∈ w.as, ∀ peer bytes ttl i, a.got = .dgram peer bytes ttl i → peer = w.y.c.remote → Met big wd af ls lr w.y.c.len a.got K

private theorem came_ttl (w : OneWay) (ds : List Nat) {big : Bool} {wd : Nat} (hw : 4 ≤ wd) {af : Family} {ls lr : List SockOpt} {K : Nat}
    (hs : ttlSet ls af = some 255) (hr : tells lr af) (hpath : w.Path big wd af ls lr K) : ∀ q ∈ w.came ds, q.ttl.toNat + K = 255 ∧ 0 < q.ttl.toNat := by
  intro q hq
  unfold OneWay.came copiesInTime at hq
  obtain ⟨a, ha, hc⟩ := List.mem_filterMap.1 hq
  unfold copyOf at hc
  split at hc
  · next peer b ttl i r hgot hclock =>
    split at hc
    · next hpeer =>
      obtain ⟨x, _, hx⟩ := Option.map_eq_some_iff.1 hc
      have := met_ttl hw hs hr (hpath a ha _ _ _ _ hgot hpeer) hgot
      rw [← hx]
      exact this
    · cases hc
  · cases hc

private theorem one_ttl (w : OneWay) (h : w.Agreed) (ds : List Nat) (hu : w.Undisturbed ds) (hn : w.Network) (hp : w.Prompt ds) (K : Nat)
    (ht : ∀ q ∈ w.came ds, q.ttl.toNat + K = 255 ∧ 0 < q.ttl.toNat) (hne : w.came ds ≠ []) :
    K < 255 ∧ ∀ t, TtlSeen w.y.c.npackets.toNat (w.x.about 0 (2 ^ 32 - 1) (w.y.records w.as)) t ↔ t = 255 - K := by
  have hc := C97_copies w h ds hu hn hp
  cases hl : w.came ds with
  | nil => exact absurd hl hne
  | cons q l =>
    have hq : q ∈ w.came ds := by rw [hl]; simp
    have h1 := ht q hq
    refine ⟨by omega, fun t => ?_⟩
    rw [seen_told _ _ hc]
    constructor
    · rintro ⟨k, q', _, e2, e3⟩
      have := ht q' (List.mem_of_find?_eq_some e2)
      omega
    · intro e
      refine ⟨q.packet, q, (came_packets w h ds hu q hq).1, ?_, by omega⟩
      unfold firstOf
      rw [hl, List.find?_cons_of_pos (by simp)]

open Owamp.Print in
open Owamp.Spec.Print in
open Owamp.Spec.Ports in
/-- **C101**, what is read: when the packets of an undisturbed one-way session between two prepared ends pass `K` routers and one comes in time, the summary that people read says that the hops
are `K`, consistently; and the report that programs read has 255 less `K` as least and as greatest TTL. -/
theorem C101_read (w : OneWay) (h : w.Agreed) (ds : List Nat) (hu : w.Undisturbed ds) (hn : w.Network) (hp : w.Prompt ds)
    (oss osr : Os) (af : Family) (mode padding typeP mode' padding' typeP' : U32) (ls lr : List SockOpt)
    (hs : prepare oss false true af mode padding typeP = some ls) (hr : prepare osr false false af mode' padding' typeP' = some lr)
    (big : Bool) (wd : Nat) (hw : 4 ≤ wd) (K : Nat) (hpath : w.Path big wd af ls lr K) (hne : w.came ds ≠ []) :
    (∀ Z i ps new L, Summarised w.x (w.y.records w.as) 0 (2 ^ 32 - 1) Z i ps new L →
      L[8 + percentileCount ps]? = some (text ['h','o','p','s',' ','=',' '] ++ decimal K ++ text [' ','(','c','o','n','s','i','s','t','e','n','t','l','y',')'])) ∧
    ∀ F i L, Reported w.x (w.y.records w.as) 0 (2 ^ 32 - 1) F i L →
      Number L ['M','I','N','T','T','L'] (255 - K) ∧ Number L ['M','A','X','T','T','L'] (255 - K) := by
  have hlast : Spec.Stats.lastOf w.x.c (2 ^ 32 - 1) = w.y.c.npackets.toNat := by
    unfold Spec.Stats.lastOf
    rw [if_pos rfl, h.summary.packets]
  have ht := came_ttl w ds hw ((C101_sockets _ _ _ _ _ _ _ _ hs).2.1 (Or.inr rfl)) ((C101_sockets _ _ _ _ _ _ _ _ hr).2.2.1 (Or.inr rfl)) hpath
  obtain ⟨hK, seen⟩ := one_ttl w h ds hu hn hp K ht hne
  have some' : ∃ t, TtlSeen w.y.c.npackets.toNat (w.x.about 0 (2 ^ 32 - 1) (w.y.records w.as)) t := ⟨_, (seen _).2 rfl⟩
  have notAll : ∃ t, t < 256 ∧ ¬ TtlSeen w.y.c.npackets.toNat (w.x.about 0 (2 ^ 32 - 1) (w.y.records w.as)) t :=
    ⟨0, by decide, fun e => by have := (seen 0).1 e; omega⟩
  constructor
  · intro Z i ps new L hL
    cases hl : L[8 + percentileCount ps]? with
    | none =>
      obtain ⟨s, s', oset, _, _, _, e⟩ := hL.made
      rw [read_summary Z w.x.c i s' ps hL.style hL.info hL.names] at e
      obtain ⟨_, _, _, _, _, _, a7, _⟩ := summary_at Z w.x.c i s' ps
      rw [← e, hl] at a7
      cases a7
    | some l =>
      have := (C85_hops_partial w.x _ 0 (2 ^ 32 - 1) Z i ps new L hL _ rfl _ hlast.symm notAll _ rfl l hl).2.1 (255 - K) ((seen _).2 rfl) fun t' e => (seen t').1 e
      rw [this, show 255 - (255 - K) = K by omega]
  · intro F i L hL
    obtain ⟨⟨lo, hi, e1, e2, e3, e4, _⟩, _⟩ := C84_ttls_partial w.x _ 0 (2 ^ 32 - 1) F i L hL _ rfl _ hlast.symm some' notAll
    rw [(seen lo).1 e3] at e1
    rw [(seen hi).1 e4] at e2
    exact ⟨e1, e2⟩

/-- Non-vacuity: the session of `C97_report`, whose packets pass 192 routers; a stranger's datagram comes in between. -/
theorem way_path : way.Path false 8 .inet [⟨1, 7, 170⟩, ⟨0, 2, 255⟩, ⟨0, 1, 184⟩] [⟨0, 12, 1⟩] 192 := by
  have key : ∀ (b : Bytes), Met false 8 .inet [⟨1, 7, 170⟩, ⟨0, 2, 255⟩, ⟨0, 1, 184⟩] [⟨0, 12, 1⟩] 14 (.dgram [10, 0, 0, 1] b 63 false) 192 := by
    intro b
    refine ⟨false, some ⟨[10, 0, 0, 1], b, [⟨0, 2, [63, 0, 0, 0]⟩], false⟩, ?_, fun d hd => ?_⟩
    · have e : recvFromTtl false .inet 14 (some ⟨[10, 0, 0, 1], b, [⟨0, 2, [63, 0, 0, 0]⟩], false⟩) = (((min b.length 14 : Nat) : Int), BitVec.ofNat 8 63) := by
        refine C101_told false 8 (by decide) .inet [⟨0, 12, 1⟩] ?_ [10, 0, 0, 1] b 63 (by decide) _ ⟨rfl, rfl, Or.inl ⟨?_, ⟨0, 2, cint false 63⟩, .linux, ?_⟩⟩ 14
        · show setting [⟨0, 12, 1⟩] 0 12 = some 1
          decide
        · show setting [⟨0, 12, 1⟩] 0 12 = some 1
          decide
        · show place 8 (ctlRoom 8) [⟨0, 2, cint false 63⟩] = ([⟨0, 2, [63, 0, 0, 0]⟩], false)
          decide
      unfold Hops.got
      dsimp only
      rw [e, if_neg (by omega)]
      rfl
    · cases hd
      refine ⟨255, 63, by decide, by decide, by decide, rfl, rfl, Or.inl ⟨?_, ⟨0, 2, cint false 63⟩, .linux, ?_⟩⟩
      · show setting [⟨0, 12, 1⟩] 0 12 = some 1
        decide
      · show place 8 (ctlRoom 8) [⟨0, 2, cint false 63⟩] = ([⟨0, 2, [63, 0, 0, 0]⟩], false)
        decide
  have hlen : way.y.c.len = 14 := by decide +kernel
  intro a ha peer bytes ttl i hgot hpeer
  rw [hlen]
  have hrem : way.y.c.remote = [10, 0, 0, 1] := by decide +kernel
  rw [hrem] at hpeer
  subst hpeer
  simp only [way, wayArrivals, List.mem_cons, List.not_mem_nil, or_false] at ha
  rcases ha with rfl | rfl | rfl | rfl | rfl
  · exact key _
  · exact absurd hgot (by intro h; injection h with h; exact absurd h (by decide))
  · exact key _
  · cases hgot
  · exact key _

open Owamp.Spec.Ports in
/-- People read that the hops are 192. -/
example : ∃ L, Summarised way.x (way.y.records way.as) 0 (2 ^ 32 - 1) demoStyle demoInfo [] true L ∧
    L[8]? = some (text ['h','o','p','s',' ','=',' '] ++ decimal 192 ++ text [' ','(','c','o','n','s','i','s','t','e','n','t','l','y',')']) := by
  obtain ⟨s', h⟩ := way_summary
  have R : Summarised way.x (way.y.records way.as) 0 (2 ^ 32 - 1) demoStyle demoInfo [] true (Spec.Print.textLines (Print.summary demoStyle way.x.c demoInfo s' [])) :=
    ⟨⟨_, s', 0, .fresh, fun _ => rfl, h, rfl⟩, way_undisturbed.room, by unfold StatSession.Range; decide +kernel, C50_receiver_lostOnce way.y way.as way_undisturbed.ok, demo_style, demo_info, nofun⟩
  refine ⟨_, R, (C101_read way way_agreed wayDelays way_undisturbed way_network way_prompt demoOs demoOs .inet 1 0 0x2E000000 1 0 0x2E000000 _ _ C101_sockets_example.1
    C101_sockets_example.2.1 false 8 (by decide) 192 way_path ?_).1 _ _ _ _ _ R⟩
  intro e
  have := way_came
  rw [e] at this
  cases this

end Owamp.Props
