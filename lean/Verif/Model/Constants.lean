/-
  Model of src/ripplegw/constants.py (all literals as exact rationals).
-/
import Mathlib.Analysis.SpecialFunctions.Trigonometric.Basic

namespace Ripple
noncomputable section

/-- constants.py:5 -/
def EulerGamma : ℝ := 0.577215664901532860606512090082402431
/-- constants.py:7 -/
def MSUN : ℝ := 1.988409902147041637325262574352366540e30
/-- constants.py:10 -/
def MRSUN : ℝ := 1.476625038050124729627979840144936351e3
/-- constants.py:13 -/
def G : ℝ := 6.67430e-11
/-- constants.py:16 -/
def C : ℝ := 299792458
/-- constants.py:20.  Simplification: the decimal literal for π (37 digits) is modelled as the real π. -/
def PI : ℝ := Real.pi
/-- constants.py:22.  Simplification: likewise 2π. -/
def TWO_PI : ℝ := 2 * Real.pi
/-- constants.py:24 -/
def gt : ℝ := G * MSUN / C ^ 3
/-- constants.py:29 -/
def m_per_Mpc : ℝ := 3.085677581491367278913937957796471611e22

lemma MSUN_pos : 0 < MSUN := by unfold MSUN; norm_num
lemma MRSUN_pos : 0 < MRSUN := by unfold MRSUN; norm_num
lemma G_pos : 0 < G := by unfold G; norm_num
lemma C_pos : 0 < C := by unfold C; norm_num
lemma PI_pos : 0 < PI := Real.pi_pos
lemma gt_pos : 0 < gt := div_pos (mul_pos G_pos MSUN_pos) (pow_pos C_pos 3)
lemma m_per_Mpc_pos : 0 < m_per_Mpc := by unfold m_per_Mpc; norm_num

end
end Ripple
