import Verif.Geo
import Verif.Props.Addr
/-
C72: geo coordinates in decimal degrees.
-/
namespace PyLisp.Props
open PyLisp

/-- `a` and the fraction `x / d` differ by at most half a second, `a` being given in seconds -/
def WithinHalfSecond (a x : Int) (d : Nat) : Prop := 2 * (3600 * x - a * d) ≤ d ∧ 2 * (a * d - 3600 * x) ≤ d

theorem decimal_parts (x : Int) (d : Nat) (hd : 0 < d) :
    0 ≤ (setDecimal x d).2.1 ∧ (setDecimal x d).2.1 < 60 ∧ 0 ≤ (setDecimal x d).2.2 ∧
    (setDecimal x d).2.2 ≤ 60 ∧
    WithinHalfSecond (60 * (setDecimal x d).2.1 + (setDecimal x d).2.2) (x % d) d := by
  have hd' : (0 : Int) < d := by omega
  have f0 := Int.emod_nonneg x (show (d : Int) ≠ 0 by omega)
  have f1 := Int.emod_lt_of_pos x hd'
  simp only [setDecimal, WithinHalfSecond]
  generalize x % (d : Int) = f at *
  have m1 := Int.mul_ediv_add_emod (f * 60) d
  have m2 := Int.emod_nonneg (f * 60) (show (d : Int) ≠ 0 by omega)
  have m3 := Int.emod_lt_of_pos (f * 60) hd'
  have q0 : 0 ≤ f * 60 / d := Int.ediv_nonneg (by omega) (by omega)
  have q1 : f * 60 / d < 60 := Int.ediv_lt_of_lt_mul hd' (by omega)
  generalize f * 60 / (d : Int) = q at *
  generalize f * 60 % (d : Int) = r at *
  have s1 := Int.mul_ediv_add_emod (2 * (r * 60) + d) (2 * d)
  have s2 := Int.emod_nonneg (2 * (r * 60) + d) (show (2 * d : Int) ≠ 0 by omega)
  have s3 := Int.emod_lt_of_pos (2 * (r * 60) + d) (show (0 : Int) < 2 * d by omega)
  have s0 : 0 ≤ (2 * (r * 60) + d) / (2 * d : Int) := Int.ediv_nonneg (by omega) (by omega)
  have s4 : (2 * (r * 60) + d) / (2 * d : Int) < 61 := Int.ediv_lt_of_lt_mul (by omega) (by omega)
  generalize (2 * (r * 60) + d) / (2 * d : Int) = s at *
  generalize (2 * (r * 60) + d) % (2 * d : Int) = t at *
  have e1 : (60 * q + s) * d = 60 * (d * q) + d * s := by
    rw [Int.add_mul, Int.mul_assoc, Int.mul_comm q, Int.mul_comm s]
  have e2 : 2 * (d : Int) * s = 2 * (d * s) := Int.mul_assoc _ _ _
  rw [e1]
  rw [e2] at s1
  generalize (d : Int) * q = dq at *
  generalize (d : Int) * s = ds at *
  refine ⟨q0, q1, s0, by omega, by omega, by omega⟩

/-- C72: setting a coordinate that is not negative stores whole degrees, minutes below 60 and seconds up
to 60, and reading it gives it back to within half a second. -/
theorem coordinate_kept (x : Int) (d : Nat) (hd : 0 < d) (hx : 0 ≤ x) :
    0 ≤ (setDecimal x d).1 ∧ 0 ≤ (setDecimal x d).2.1 ∧ (setDecimal x d).2.1 < 60 ∧
    0 ≤ (setDecimal x d).2.2 ∧ (setDecimal x d).2.2 ≤ 60 ∧
    WithinHalfSecond (getDecimal (setDecimal x d)) x d := by
  obtain ⟨h1, h2, h3, h4, h5⟩ := decimal_parts x d hd
  have ht : (setDecimal x d).1 = x / d := Int.tdiv_eq_ediv_of_nonneg hx
  refine ⟨by rw [ht]; exact Int.ediv_nonneg hx (by omega), h1, h2, h3, h4, ?_⟩
  unfold WithinHalfSecond getDecimal at *
  rw [ht]
  have hq := Int.mul_ediv_add_emod x d
  generalize (setDecimal x d).2.1 = m at *
  generalize (setDecimal x d).2.2 = s at *
  generalize x / (d : Int) = q at *
  have e : (3600 * q + 60 * m + s) * d = 3600 * (d * q) + (60 * m + s) * d := by
    rw [Int.add_assoc, Int.add_mul, Int.mul_assoc, Int.mul_comm q]
  rw [e]
  generalize (d : Int) * q = dq at *
  generalize (60 * m + s) * (d : Int) = z at *
  omega

/-- C72: a negative coordinate that is not a whole number of degrees comes back one degree too large. -/
theorem negative_coordinate (x : Int) (d : Nat) (hd : 0 < d) (hx : x < 0) (hf : x % d ≠ 0) :
    WithinHalfSecond (getDecimal (setDecimal x d) - 3600) x d := by
  obtain ⟨h1, h2, h3, h4, h5⟩ := decimal_parts x d hd
  have ht : (setDecimal x d).1 = x / d + 1 := by
    have := Int.tdiv_eq_ediv (a := x) (b := d)
    rw [if_neg (by
      rintro (h | h)
      · omega
      · exact hf (Int.emod_eq_zero_of_dvd h))] at this
    rw [show (setDecimal x d).1 = Int.tdiv x d from rfl, this,
      Int.sign_eq_one_of_pos (by omega)]
  unfold WithinHalfSecond getDecimal at *
  rw [ht]
  have hq := Int.mul_ediv_add_emod x d
  generalize (setDecimal x d).2.1 = m at *
  generalize (setDecimal x d).2.2 = s at *
  generalize x / (d : Int) = q at *
  have e : (3600 * (q + 1) + 60 * m + s - 3600) * d = 3600 * (d * q) + (60 * m + s) * d := by
    rw [show 3600 * (q + 1) + 60 * m + s - 3600 = 3600 * q + (60 * m + s) by omega, Int.add_mul,
      Int.mul_assoc, Int.mul_comm q]
  rw [e]
  generalize (d : Int) * q = dq at *
  generalize (60 * m + s) * (d : Int) = z at *
  omega

/-- the geo address of an IP address whose latitude was set to `x / d` and longitude to `y / e` -/
def geoAt (north : Bool) (x : Int) (d : Nat) (east : Bool) (y : Int) (e : Nat) (alt : Int) (a : IP) : Addr :=
  .geo north (setDecimal x d).1 (setDecimal x d).2.1 (setDecimal x d).2.2
    east (setDecimal y e).1 (setDecimal y e).2.1 (setDecimal y e).2.2 alt (.ip a)

/-- C72: every geo address set to coordinates that are not negative and below 32768 degrees can be sent and is
received unchanged. -/
theorem coordinates_sent (north : Bool) (x : Int) (d : Nat) (east : Bool) (y : Int) (e : Nat) (alt : Int)
    (a : IP) (hd : 0 < d) (he : 0 < e) (hx : 0 ≤ x) (hy : 0 ≤ y) (hx' : x < 32768 * d) (hy' : y < 32768 * e)
    (ha : -(2 ^ 31) ≤ alt ∧ alt < 2 ^ 31) (t : Bits) :
    ∃ b, encAddr (geoAt north x d east y e alt a) = .ok b ∧
      readAfi .none (b ++ t) = .ok (geoAt north x d east y e alt a, t) := by
  have key : ∀ (z : Int) (k : Nat), 0 < k → 0 ≤ z → z < 32768 * k →
      (0 ≤ (setDecimal z k).1 ∧ (setDecimal z k).1 < 2 ^ 15) ∧
      (0 ≤ (setDecimal z k).2.1 ∧ (setDecimal z k).2.1 < 2 ^ 8) ∧
      (0 ≤ (setDecimal z k).2.2 ∧ (setDecimal z k).2.2 < 2 ^ 8) := by
    intro z k hk hz hz'
    obtain ⟨h1, h2, h3, h4, h5, _⟩ := coordinate_kept z k hk hz
    have ht : (setDecimal z k).1 = z / k := Int.tdiv_eq_ediv_of_nonneg hz
    have : z / k < 32768 := Int.ediv_lt_of_lt_mul (by omega) hz'
    exact ⟨⟨h1, by omega⟩, ⟨h2, by omega⟩, ⟨h4, by omega⟩⟩
  obtain ⟨⟨p1, p2⟩, ⟨p3, p4⟩, p5, p6⟩ := key x d hd hx hx'
  obtain ⟨⟨q1, q2⟩, ⟨q3, q4⟩, q5, q6⟩ := key y e he hy hy'
  have henc : ∃ b, encAddr (geoAt north x d east y e alt a) = .ok b := by
    unfold geoAt
    simp only [encAddr, exBind_ok, encUint_iff, encInt_iff, encLcaf]
    refine ⟨_, _, ⟨p1, p2, rfl⟩, _, ⟨p3, p4, rfl⟩, _, ⟨p5, p6, rfl⟩, _, ⟨q1, q2, rfl⟩, _, ⟨q3, q4, rfl⟩,
      _, ⟨q5, q6, rfl⟩, _, ⟨ha.1, ha.2, rfl⟩, _, rfl, _, ⟨_, ⟨by omega, ?_, rfl⟩, rfl⟩, rfl⟩
    simp only [List.length_append, natToBits_length, List.length_cons, List.length_nil]
    have : (encIP a).length ≤ 144 := by
      unfold encIP; split <;> simp [natToBits_length]
    omega
  obtain ⟨b, hb⟩ := henc
  exact ⟨b, hb, lcaf_round_trip_exact _ b hb rfl t⟩

/-- C72: a geo address with a coordinate of at most minus one degree cannot be sent. -/
theorem negative_not_sent (north : Bool) (x : Int) (d : Nat) (east : Bool) (y : Int) (e : Nat) (alt : Int)
    (a : IP) (hd : 0 < d) (hx : x ≤ -d) (b : Bits) :
    encAddr (geoAt north x d east y e alt a) ≠ .ok b := by
  intro h
  unfold geoAt at h
  simp only [encAddr, exBind_ok, encUint_iff] at h
  obtain ⟨_, ⟨h1, _⟩, _⟩ := h
  have h1 : 0 ≤ Int.tdiv x d := h1
  have h2 : Int.tdiv x d = -(Int.tdiv (-x) d) := by rw [Int.neg_tdiv, Int.neg_neg]
  have h3 : Int.tdiv (-x) d = (-x) / d := Int.tdiv_eq_ediv_of_nonneg (by omega)
  have h4 : 1 ≤ (-x) / (d : Int) := by
    rw [Int.le_ediv_iff_mul_le (by omega)]; omega
  omega

/-! ### The hypotheses are met -/

-- 52.3731 degrees north, 4.8922 degrees east
example : setDecimal 523731 10000 = (52, 22, 23) := by decide
example : getDecimal (setDecimal 523731 10000) = 188543 := by decide
-- 60 seconds
example : setDecimal 59999 10000 = (5, 59, 60) := by decide
-- -1.5 degrees becomes -1 degree and 30 minutes, that is -0.5 degrees
example : setDecimal (-3) 2 = (-1, 30, 0) ∧ getDecimal (setDecimal (-3) 2) = -1800 := by decide

end PyLisp.Props
