/-
  The quartic with coefficients get_delta0..4.
-/
import Verif.Model.PhenomDUtils
import Mathlib.Tactic.LinearCombination

namespace Ripple
namespace PhenomD

section
variable {f1 f2 f3 : ℝ} (v1 v2 v3 d1 d3 : ℝ)

lemma delta_value1 (h12 : f1 ≠ f2) (h13 : f1 ≠ f3) (h23 : f2 ≠ f3) :
    get_delta0 f1 f2 f3 v1 v2 v3 d1 d3 + get_delta1 f1 f2 f3 v1 v2 v3 d1 d3 * f1
      + get_delta2 f1 f2 f3 v1 v2 v3 d1 d3 * f1 ^ 2 + get_delta3 f1 f2 f3 v1 v2 v3 d1 d3 * f1 ^ 3
      + get_delta4 f1 f2 f3 v1 v2 v3 d1 d3 * f1 ^ 4 = v1 := by
  have a := sub_ne_zero.2 h12
  have b := sub_ne_zero.2 h13
  have c := sub_ne_zero.2 h23
  unfold get_delta0 get_delta1 get_delta2 get_delta3 get_delta4
  field_simp
  ring

lemma delta_value2 (h12 : f1 ≠ f2) (h13 : f1 ≠ f3) (h23 : f2 ≠ f3) :
    get_delta0 f1 f2 f3 v1 v2 v3 d1 d3 + get_delta1 f1 f2 f3 v1 v2 v3 d1 d3 * f2
      + get_delta2 f1 f2 f3 v1 v2 v3 d1 d3 * f2 ^ 2 + get_delta3 f1 f2 f3 v1 v2 v3 d1 d3 * f2 ^ 3
      + get_delta4 f1 f2 f3 v1 v2 v3 d1 d3 * f2 ^ 4 = v2 := by
  have a := sub_ne_zero.2 h12
  have b := sub_ne_zero.2 h13
  have c := sub_ne_zero.2 h23
  unfold get_delta0 get_delta1 get_delta2 get_delta3 get_delta4
  field_simp
  ring

lemma delta_value3 (h12 : f1 ≠ f2) (h13 : f1 ≠ f3) (h23 : f2 ≠ f3) :
    get_delta0 f1 f2 f3 v1 v2 v3 d1 d3 + get_delta1 f1 f2 f3 v1 v2 v3 d1 d3 * f3
      + get_delta2 f1 f2 f3 v1 v2 v3 d1 d3 * f3 ^ 2 + get_delta3 f1 f2 f3 v1 v2 v3 d1 d3 * f3 ^ 3
      + get_delta4 f1 f2 f3 v1 v2 v3 d1 d3 * f3 ^ 4 = v3 := by
  have a := sub_ne_zero.2 h12
  have b := sub_ne_zero.2 h13
  have c := sub_ne_zero.2 h23
  unfold get_delta0 get_delta1 get_delta2 get_delta3 get_delta4
  field_simp
  ring

lemma delta_slope1 (h12 : f1 ≠ f2) (h13 : f1 ≠ f3) (h23 : f2 ≠ f3) :
    get_delta1 f1 f2 f3 v1 v2 v3 d1 d3
      + 2 * get_delta2 f1 f2 f3 v1 v2 v3 d1 d3 * f1 + 3 * get_delta3 f1 f2 f3 v1 v2 v3 d1 d3 * f1 ^ 2
      + 4 * get_delta4 f1 f2 f3 v1 v2 v3 d1 d3 * f1 ^ 3 = d1 := by
  have a := sub_ne_zero.2 h12
  have b := sub_ne_zero.2 h13
  have c := sub_ne_zero.2 h23
  unfold get_delta1 get_delta2 get_delta3 get_delta4
  field_simp
  ring

lemma delta_slope3 (h12 : f1 ≠ f2) (h13 : f1 ≠ f3) (h23 : f2 ≠ f3) :
    get_delta1 f1 f2 f3 v1 v2 v3 d1 d3
      + 2 * get_delta2 f1 f2 f3 v1 v2 v3 d1 d3 * f3 + 3 * get_delta3 f1 f2 f3 v1 v2 v3 d1 d3 * f3 ^ 2
      + 4 * get_delta4 f1 f2 f3 v1 v2 v3 d1 d3 * f3 ^ 3 = d3 := by
  have a := sub_ne_zero.2 h12
  have b := sub_ne_zero.2 h13
  have c := sub_ne_zero.2 h23
  unfold get_delta1 get_delta2 get_delta3 get_delta4
  field_simp
  ring
end

/-- a quartic with zero value and slope at `f1` and `f3` and zero value at `f2` is zero -/
lemma quartic_zero {f1 f2 f3 e0 e1 e2 e3 e4 : ℝ} (h12 : f1 ≠ f2) (h13 : f1 ≠ f3) (h23 : f2 ≠ f3)
    (a1 : e0 + e1 * f1 + e2 * f1 ^ 2 + e3 * f1 ^ 3 + e4 * f1 ^ 4 = 0)
    (a2 : e0 + e1 * f2 + e2 * f2 ^ 2 + e3 * f2 ^ 3 + e4 * f2 ^ 4 = 0)
    (a3 : e0 + e1 * f3 + e2 * f3 ^ 2 + e3 * f3 ^ 3 + e4 * f3 ^ 4 = 0)
    (b1 : e1 + 2 * e2 * f1 + 3 * e3 * f1 ^ 2 + 4 * e4 * f1 ^ 3 = 0)
    (b3 : e1 + 2 * e2 * f3 + 3 * e3 * f3 ^ 2 + 4 * e4 * f3 ^ 3 = 0) :
    e0 = 0 ∧ e1 = 0 ∧ e2 = 0 ∧ e3 = 0 ∧ e4 = 0 := by
  have A := sub_ne_zero.2 h12
  have B := sub_ne_zero.2 h13
  have C := sub_ne_zero.2 h23
  -- quotient by (x - f1)^2: r2 x² + r1 x + r0
  set r1 := e3 + 2 * f1 * e4 with hr1
  set r0 := e2 + 2 * f1 * r1 - f1 ^ 2 * e4 with hr0
  have q2 : r0 + r1 * f2 + e4 * f2 ^ 2 = 0 := by
    have : (f1 - f2) ^ 2 * (r0 + r1 * f2 + e4 * f2 ^ 2) = 0 := by
      rw [hr0, hr1]; linear_combination a2 - a1 - (f2 - f1) * b1
    exact (mul_eq_zero.1 this).resolve_left (pow_ne_zero 2 A)
  have q3 : r0 + r1 * f3 + e4 * f3 ^ 2 = 0 := by
    have : (f1 - f3) ^ 2 * (r0 + r1 * f3 + e4 * f3 ^ 2) = 0 := by
      rw [hr0, hr1]; linear_combination a3 - a1 - (f3 - f1) * b1
    exact (mul_eq_zero.1 this).resolve_left (pow_ne_zero 2 B)
  have q3' : r1 + 2 * e4 * f3 = 0 := by
    have : (f1 - f3) ^ 2 * (r1 + 2 * e4 * f3) = 0 := by
      have e : (f1 - f3) ^ 2 * (r1 + 2 * e4 * f3) =
        (e1 + 2 * e2 * f3 + 3 * e3 * f3 ^ 2 + 4 * e4 * f3 ^ 3) - (e1 + 2 * e2 * f1 + 3 * e3 * f1 ^ 2 + 4 * e4 * f1 ^ 3)
          - 2 * (f3 - f1) * (r0 + r1 * f3 + e4 * f3 ^ 2) := by rw [hr0, hr1]; ring
      rw [e, b3, b1, q3]; ring
    exact (mul_eq_zero.1 this).resolve_left (pow_ne_zero 2 B)
  have h4 : e4 = 0 := by
    have : (f2 - f3) ^ 2 * e4 = 0 := by linear_combination q2 - q3 - (f2 - f3) * q3'
    exact (mul_eq_zero.1 this).resolve_left (pow_ne_zero 2 C)
  have h3 : e3 = 0 := by
    have : r1 = 0 := by rw [h4] at q3'; linarith
    rw [hr1, h4] at this; linarith
  have h2 : e2 = 0 := by
    have r1z : r1 = 0 := by rw [hr1, h4, h3]; ring
    have : r0 = 0 := by rw [r1z, h4] at q3; linarith
    rw [hr0, r1z, h4] at this; linarith
  have h1 : e1 = 0 := by rw [h2, h3, h4] at b1; linarith
  have h0 : e0 = 0 := by rw [h1, h2, h3, h4] at a1; linarith
  exact ⟨h0, h1, h2, h3, h4⟩

end PhenomD
end Ripple
