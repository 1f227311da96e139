/-
  Where the ringdown coefficient `gamma2` of the IMRPhenomD amplitude is below one.
-/
import Verif.Proofs.DPos

namespace Ripple
namespace PhenomD

lemma dg2_near (e c : ℝ) (he : 0.225 ≤ e ∧ e ≤ 0.25) (hc : -1 ≤ c ∧ c ≤ 1) :
    0 < 1 - cG2 e (c * (1 - 76 / 113 * e) - 1) := by
  unfold cG2
  affine_bnb [he, hc] []

lemma dg2_moderate (e c : ℝ) (he : 0 ≤ e ∧ e ≤ 0.25) (hc : -1 ≤ c ∧ c ≤ 0.85) :
    0 < 1 - cG2 e (c * (1 - 76 / 113 * e) - 1) := by
  unfold cG2
  affine_bnb [he, hc] []

/-- the spin parameter of the fits is that of two equal spins between the actual ones -/
lemma xOf_eq {theta : Theta} (h : theta.Physical) {lo hi : ℝ} (l1 : lo ≤ theta.chi1) (l2 : lo ≤ theta.chi2)
    (u1 : theta.chi1 ≤ hi) (u2 : theta.chi2 ≤ hi) :
    ∃ c, lo ≤ c ∧ c ≤ hi ∧ xOf theta = c * (1 - 76 / 113 * XAS.etaOf theta) - 1 := by
  obtain ⟨e0, e4⟩ := XAS.etaOf_range h
  obtain ⟨d0, -, hd⟩ := XAS.dOf_range h
  unfold xOf
  generalize XAS.etaOf theta = e at *
  generalize XAS.dOf theta = d at *
  have hs : 0 < 1 - 76 / 113 * e := by linarith
  have dle : d ≤ 1 - 76 / 113 * e := by
    have : d ^ 2 ≤ (1 - 76 / 113 * e) ^ 2 := by rw [hd]; nlinarith
    exact (le_abs_self d).trans (abs_le_of_sq_le_sq this hs.le)
  refine ⟨((theta.chi1 + theta.chi2) / 2 * (1 - 76 / 113 * e) + d * ((theta.chi1 - theta.chi2) / 2)) / (1 - 76 / 113 * e),
    ?_, ?_, ?_⟩
  · rw [le_div_iff₀ hs]
    nlinarith [mul_nonneg (sub_nonneg.2 l1) (add_nonneg d0 hs.le), mul_nonneg (sub_nonneg.2 l2) (sub_nonneg.2 dle)]
  · rw [div_le_iff₀ hs]
    nlinarith [mul_nonneg (sub_nonneg.2 u1) (add_nonneg d0 hs.le), mul_nonneg (sub_nonneg.2 u2) (sub_nonneg.2 dle)]
  · rw [div_mul_cancel₀ _ hs.ne']
    ring

/-- `gamma2 < 1` for nearly equal masses with any spins, and for all mass ratios with aligned spins up to 0.85 -/
lemma gamma2_lt {theta : Theta} (h : theta.Physical)
    (hr : 0.225 ≤ XAS.etaOf theta ∨ theta.chi1 ≤ 0.85 ∧ theta.chi2 ≤ 0.85) : get_coeffs theta 5 < 1 := by
  rw [coeff5]
  obtain ⟨a, b⟩ := abs_le.1 h.chi1_le
  obtain ⟨c, d⟩ := abs_le.1 h.chi2_le
  have e := XAS.eta_box h
  rcases hr with hr | ⟨x, y⟩
  · obtain ⟨k, k1, k2, hk⟩ := xOf_eq h a c b d
    rw [hk]
    linarith [dg2_near _ k ⟨hr, e.2⟩ ⟨k1, k2⟩]
  · obtain ⟨k, k1, k2, hk⟩ := xOf_eq h a c x y
    rw [hk]
    linarith [dg2_moderate _ k e ⟨k1, k2⟩]

end PhenomD
end Ripple
