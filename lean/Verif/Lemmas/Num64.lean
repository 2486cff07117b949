import Verif.Model.Num64
/-! Helper lemmas about `Verif.Model.Num64`. -/
namespace Owamp.Num64

theorem limbs (x : Nat) (hx : x < 2 ^ 64) :
    x = mask32 (x >>> 32) * 2 ^ 32 + mask32 x ∧ mask32 (x >>> 32) < 2 ^ 32 ∧ mask32 x < 2 ^ 32 := by
  simp only [mask32, Nat.shiftRight_eq_div_pow]; omega

theorem mult_limbs (x1 x0 y1 y0 a b c d : Nat)
    (ha : a ≤ (2 ^ 32 - 1) * (2 ^ 32 - 1)) (hb : b ≤ (2 ^ 32 - 1) * (2 ^ 32 - 1))
    (hc : c ≤ (2 ^ 32 - 1) * (2 ^ 32 - 1)) (_hd : d ≤ (2 ^ 32 - 1) * (2 ^ 32 - 1))
    (ea : x0 * y0 = a) (eb : x1 * y0 = b) (ec : x0 * y1 = c) (ed : x1 * y1 = d) :
    (let xdec := fun i => if i = 0 then x0 else x1
     let ydec := fun i => if i = 0 then y0 else y1
     let w := [0, 1].foldl (multRow xdec ydec) (fun _ => 0)
     u64 (w 1 + u64 (w 2 <<< 32))) = ((a + (b + c) * 2 ^ 32 + d * 2 ^ 64) / 2 ^ 32) % 2 ^ 64 := by
  simp [multRow, multBody, upd, u64, exp2pow32, Nat.shiftLeft_eq, ea, eb, ec, ed]
  omega

theorem prod_bound (a b : Nat) (ha : a < 2 ^ 32) (hb : b < 2 ^ 32) :
    a * b ≤ (2 ^ 32 - 1) * (2 ^ 32 - 1) := Nat.mul_le_mul (by omega) (by omega)

theorem normParts_eq (unit : Nat) (_hu : 0 < unit) (sec : Int) (sub : Nat) (h : sub < unit) :
    normParts unit sec sub = ⟨sec, sub⟩ := by
  rw [normParts]; simp; omega

theorem carry32_eq (unit : Nat) (hu : 0 < unit) (sec sub : Nat) (hs : sec < 2 ^ 32) :
    carry32 unit sec sub = ((sec + sub / unit) % 2 ^ 32, sub % unit) := by
  fun_induction carry32 unit sec sub with
  | case1 sec sub h ih =>
    rw [ih (by omega), Nat.div_eq_sub_div hu h.2, Nat.mod_eq_sub_mod h.2]
    congr 1
    omega
  | case2 sec sub h =>
    have h' : sub < unit := by omega
    rw [Nat.div_eq_of_lt h', Nat.mod_eq_of_lt h']
    congr 1
    omega

theorem or_disjoint (a b : Nat) (hb : b < 2 ^ 32) : (a * 2 ^ 32) ||| b = a * 2 ^ 32 + b := by
  rw [← Nat.shiftLeft_eq, ← Nat.shiftLeft_add_eq_or_of_lt hb]

theorem ofParts_aux (c q m unit : Nat) (hu : 0 < unit) (hu2 : unit < 2 ^ 32) (hm : m < unit)
    (hq : m * 2 ^ 32 / unit = q) :
    u64 (mask32 (c % 2 ^ 32) <<< 32) ||| mask32 (u64 (m <<< 32) / unit)
      = (c % 2 ^ 32) * 2 ^ 32 + q := by
  have hq' : q < 2 ^ 32 := by
    rw [← hq, Nat.div_lt_iff_lt_mul hu, Nat.mul_comm (2 ^ 32) unit]
    exact Nat.mul_lt_mul_of_pos_right hm (by decide)
  have h3 : u64 (m <<< 32) = m * 2 ^ 32 := by
    simp only [u64, Nat.shiftLeft_eq]; omega
  have h4 : u64 (mask32 (c % 2 ^ 32) <<< 32) = (c % 2 ^ 32) * 2 ^ 32 := by
    simp only [u64, mask32, Nat.shiftLeft_eq]; omega
  have h5 : mask32 q = q := by simp only [mask32]; omega
  rw [h3, h4, hq, h5]
  exact or_disjoint _ _ hq'

theorem ofParts_eq (unit : Nat) (hu : 0 < unit) (hu2 : unit < 2 ^ 32) (t : TimeParts) :
    ofParts unit t = ((toU32 t.sec + toU32 t.sub / unit) % 2 ^ 32) * 2 ^ 32
      + (toU32 t.sub % unit) * 2 ^ 32 / unit := by
  have h1 : toU32 t.sec < 2 ^ 32 := by simp only [toU32]; omega
  unfold ofParts
  rw [carry32_eq unit hu _ _ h1]
  exact ofParts_aux _ _ _ unit hu hu2 (Nat.mod_lt _ hu) rfl

theorem toParts_eq (unit : Nat) (hu : 0 < unit) (hu2 : unit < 2 ^ 32) (x : Nat) (hx : x < 2 ^ 64) :
    toParts unit x = ⟨(x / 2 ^ 32 : Nat), ((x % 2 ^ 32) * unit / 2 ^ 32 : Nat)⟩ := by
  have hlt : x % 2 ^ 32 < 2 ^ 32 := Nat.mod_lt _ (by decide)
  have h2 : (x % 2 ^ 32) * unit / 2 ^ 32 < unit := by
    rw [Nat.div_lt_iff_lt_mul (by decide), Nat.mul_comm unit]
    exact Nat.mul_lt_mul_of_pos_right hlt hu
  have h1 : (x % 2 ^ 32) * unit < 2 ^ 64 := by
    have := Nat.mul_lt_mul_of_lt_of_le hlt (Nat.le_of_lt hu2) (by decide)
    omega
  unfold toParts mask32 u64
  simp only [Nat.shiftRight_eq_div_pow]
  rw [Nat.mod_eq_of_lt h1, Nat.mod_eq_of_lt (by omega : x % 2 ^ 32 * unit / 2 ^ 32 < 2 ^ 32),
    Nat.mod_eq_of_lt (by omega : x / 2 ^ 32 < 2 ^ 32), normParts_eq _ hu _ _ h2]

end Owamp.Num64
