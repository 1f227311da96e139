/-
  Expansion of the square of an inspiral amplitude against the stationary-phase amplitude (C100).
-/
import Verif.Proofs.Mode22
import Verif.Proofs.TaylorF2

namespace Ripple.Mode22
open Filter Topology Asymptotics Real

noncomputable section
variable (m1 m2 χ1 χ2 : ℝ)

/-- coefficients of `Spec.mode22` -/
def h2 : ℝ := -(107 / 42) + 55 / 42 * Spec.eta m1 m2
def h3 : ℝ := 2 * π - 4 / 3 * (Spec.delta m1 m2 * ((χ1 - χ2) / 2) + (1 - Spec.eta m1 m2) * ((χ1 + χ2) / 2))
def h4 : ℝ := -(2173 / 1512) - 1069 / 216 * Spec.eta m1 m2 + 2047 / 1512 * Spec.eta m1 m2 ^ 2
  + 2 * Spec.eta m1 m2 * χ1 * χ2
def h5 : ℝ := π * (-(107 / 21) + 34 / 21 * Spec.eta m1 m2)
def h6 : ℝ := 27027409 / 646800 - 856 / 105 * EulerGamma + 2 / 3 * π ^ 2
      + (-(278185 / 33264) + 41 / 96 * π ^ 2) * Spec.eta m1 m2 - 20261 / 2772 * Spec.eta m1 m2 ^ 2
      + 114635 / 99792 * Spec.eta m1 m2 ^ 3

/-- coefficients of `Spec.timePerFrequency` -/
def r2 : ℝ := 9 / 20 * Spec.psi2 (Spec.eta m1 m2)
def r3 : ℝ := 1 / 4 * Spec.psi3 (Spec.eta m1 m2) (Spec.delta m1 m2) ((χ1 + χ2) / 2) ((χ1 - χ2) / 2)
def r4 : ℝ := 1 / 10 * (Spec.psi4 (Spec.eta m1 m2) + Spec.psi4SS (m1 / (m1 + m2)) (m2 / (m1 + m2)) χ1 χ2 1 1)
def r5 : ℝ := -(9 / 40) * Spec.psi5 (Spec.eta m1 m2) (Spec.delta m1 m2) ((χ1 + χ2) / 2) ((χ1 - χ2) / 2)
def r6 : ℝ := -(1 / 20) * (Spec.psi6 EulerGamma 0 (Spec.eta m1 m2) (Spec.delta m1 m2) ((χ1 + χ2) / 2) ((χ1 - χ2) / 2)
  + Spec.psi6SS (m1 / (m1 + m2)) (m2 / (m1 + m2)) χ1 χ2 1 1) + 6848 / 840
def r7 : ℝ := -(1 / 20) * Spec.psi7 (Spec.eta m1 m2) (Spec.delta m1 m2) ((χ1 + χ2) / 2) ((χ1 - χ2) / 2)

variable {m1 m2} (p1 : 0 < m1) (p2 : 0 < m2)
include p1 p2

lemma timePerFrequency_eq {f : ℝ} (hf : 0 < f) :
    let v := (π * ((m1 + m2) * gt) * f) ^ ((1 : ℝ) / 3)
    Spec.timePerFrequency m1 m2 χ1 χ2 f = 1 + r2 m1 m2 * v ^ 2 + r3 m1 m2 χ1 χ2 * v ^ 3 + r4 m1 m2 χ1 χ2 * v ^ 4
      + r5 m1 m2 χ1 χ2 * v ^ 5 + r6 m1 m2 χ1 χ2 * v ^ 6 + 6848 / 420 * (v ^ 5 * (v * log (4 * v)))
      + r7 m1 m2 χ1 χ2 * v ^ 7 := by
  have hg := gt_pos
  have hK : 0 < π * ((m1 + m2) * gt) := by have := pi_pos; positivity
  have he : 0 < Spec.eta m1 m2 := by unfold Spec.eta; positivity
  intro v
  have hv : 0 < v := v_pos hK hf
  have dN := second_deriv hK (3 / (128 * Spec.eta m1 m2)) 0 0 0 0 0 0 0 (Spec.newtonianPhase m1 m2) (by
    intro f hf v
    have hv : 0 < v := v_pos hK hf
    show 3 / (128 * Spec.eta m1 m2 * v ^ 5) = _
    field_simp
    ring) hf
  have dP := second_deriv hK (3 / (128 * Spec.eta m1 m2)) (Spec.psi2 (Spec.eta m1 m2))
    (Spec.psi3 (Spec.eta m1 m2) (Spec.delta m1 m2) ((χ1 + χ2) / 2) ((χ1 - χ2) / 2))
    (Spec.psi4 (Spec.eta m1 m2) + Spec.psi4SS (m1 / (m1 + m2)) (m2 / (m1 + m2)) χ1 χ2 1 1)
    (Spec.psi5 (Spec.eta m1 m2) (Spec.delta m1 m2) ((χ1 + χ2) / 2) ((χ1 - χ2) / 2))
    (Spec.psi6 EulerGamma 0 (Spec.eta m1 m2) (Spec.delta m1 m2) ((χ1 + χ2) / 2) ((χ1 - χ2) / 2)
      + Spec.psi6SS (m1 / (m1 + m2)) (m2 / (m1 + m2)) χ1 χ2 1 1)
    (-(6848 / 21)) (Spec.psi7 (Spec.eta m1 m2) (Spec.delta m1 m2) ((χ1 + χ2) / 2) ((χ1 - χ2) / 2))
    (Spec.f2Phase m1 m2 χ1 χ2 0 0 1 1) (by
    intro f hf v
    have hv : 0 < v := v_pos hK hf
    have e6 : Spec.psi6 EulerGamma (log (4 * v)) (Spec.eta m1 m2) (Spec.delta m1 m2) ((χ1 + χ2) / 2) ((χ1 - χ2) / 2)
        = Spec.psi6 EulerGamma 0 (Spec.eta m1 m2) (Spec.delta m1 m2) ((χ1 + χ2) / 2) ((χ1 - χ2) / 2)
          + -(6848 / 21) * log (4 * v) := by unfold Spec.psi6; ring
    have e10 : Spec.psi10 m1 0 m2 0 = 0 := by unfold Spec.psi10 Spec.lambdaTilde; ring
    have e12 : Spec.psi12 m1 0 m2 0 = 0 := by
      unfold Spec.psi12 Spec.deltaLambdaTilde Spec.lambdaTilde; ring
    have e13 : Spec.psi13 m1 0 m2 0 = 0 := by unfold Spec.psi13 Spec.lambdaTilde; ring
    have e14 : ∀ X, Spec.psi14 X 0 = 0 := fun X => by unfold Spec.psi14; ring
    simp only [Spec.f2Phase]
    rw [show (π * ((m1 + m2) * gt) * f) ^ ((1 : ℝ) / 3) = v from rfl, e6, e10, e12, e13, e14, e14]
    generalize Spec.psi2 _ = q2
    generalize Spec.psi3 _ _ _ _ = q3
    generalize Spec.psi4 _ = q4
    generalize Spec.psi4SS _ _ _ _ _ _ = q4'
    generalize Spec.psi5 _ _ _ _ = q5
    generalize Spec.psi6 _ _ _ _ _ _ = q6
    generalize Spec.psi6SS _ _ _ _ _ _ = q6'
    generalize Spec.psi7 _ _ _ _ = q7
    field_simp
    ring) hf
  unfold Spec.timePerFrequency r2 r3 r4 r5 r6 r7
  rw [dN, dP, show (π * ((m1 + m2) * gt) * f) ^ ((1 : ℝ) / 3) = v from rfl]
  generalize Spec.psi2 _ = q2
  generalize Spec.psi3 _ _ _ _ = q3
  generalize Spec.psi4 _ = q4
  generalize Spec.psi4SS _ _ _ _ _ _ = q4'
  generalize Spec.psi5 _ _ _ _ = q5
  generalize Spec.psi6 _ _ _ _ _ _ = q6
  generalize Spec.psi6SS _ _ _ _ _ _ = q6'
  generalize Spec.psi7 _ _ _ _ = q7
  field_simp
  ring

/-- The square of a series amplitude against the stationary-phase amplitude. -/
lemma expand (a2 a3 a4 a5 a6 a7 a8 a9 F T : ℝ)
    (c2 : 2 * a2 = r2 m1 m2 + 2 * h2 m1 m2) (c3 : 2 * a3 = r3 m1 m2 χ1 χ2 + 2 * h3 m1 m2 χ1 χ2)
    (c4 : 2 * a4 + a2 ^ 2 = r4 m1 m2 χ1 χ2 + 2 * h2 m1 m2 * r2 m1 m2 + 2 * h4 m1 m2 χ1 χ2 + h2 m1 m2 ^ 2)
    (c5 : F + 2 * a5 + 2 * a2 * a3 = r5 m1 m2 χ1 χ2 + 2 * h2 m1 m2 * r3 m1 m2 χ1 χ2
      + 2 * h3 m1 m2 χ1 χ2 * r2 m1 m2 + 2 * h5 m1 m2 + 2 * h2 m1 m2 * h3 m1 m2 χ1 χ2)
    (a : ℝ → ℝ) (ha : ∀ᶠ f in 𝓝[>] 0, let v := (π * ((m1 + m2) * gt) * f) ^ ((1 : ℝ) / 3)
      a f = |1 + a2 * v ^ 2 + a3 * v ^ 3 + a4 * v ^ 4 + a5 * v ^ 5 + a6 * v ^ 6 + a7 * v ^ 7 + a8 * v ^ 8 + a9 * v ^ 9|) :
    (fun f => a f ^ 2 * (1 + F * (π * ((m1 + m2) * gt) * f) ^ ((5 : ℝ) / 3))
      - Spec.spaPower m1 m2 χ1 χ2 f * (1 + T * (π * ((m1 + m2) * gt) * f) ^ 2)
      - (2 * a6 + 2 * a2 * a4 + a3 ^ 2 - (T + r6 m1 m2 χ1 χ2 + 2 * h2 m1 m2 * r4 m1 m2 χ1 χ2
        + 2 * h3 m1 m2 χ1 χ2 * r3 m1 m2 χ1 χ2 + 2 * h4 m1 m2 χ1 χ2 * r2 m1 m2 + h2 m1 m2 ^ 2 * r2 m1 m2 + 2 * h6 m1 m2
        + 2 * h2 m1 m2 * h4 m1 m2 χ1 χ2 + h3 m1 m2 χ1 χ2 ^ 2)) * (π * ((m1 + m2) * gt) * f) ^ 2)
      =O[𝓝[>] 0] fun f => f ^ ((7 : ℝ) / 3) := by
  have hg := gt_pos
  have hK : 0 < π * ((m1 + m2) * gt) := by have := pi_pos; positivity
  obtain ⟨Q, hQ, hs⟩ := series a2 a3 a4 a5 a6 a7 a8 a9 (h2 m1 m2) (h3 m1 m2 χ1 χ2) (h4 m1 m2 χ1 χ2) (h5 m1 m2)
    (h6 m1 m2) (-(856 / 105)) (r2 m1 m2) (r3 m1 m2 χ1 χ2) (r4 m1 m2 χ1 χ2) (r5 m1 m2 χ1 χ2) (r6 m1 m2 χ1 χ2)
    (r7 m1 m2 χ1 χ2) (6848 / 420) F T c2 c3 c4 c5 (by norm_num)
  have hb := (bigO_v hK 7).mul (bounded hK hQ)
  simp only [mul_one, Nat.cast_ofNat] at hb
  refine IsBigO.congr' hb ?_ EventuallyEq.rfl
  filter_upwards [ha, self_mem_nhdsWithin] with f haf hf
  have hf : 0 < f := hf
  have et := timePerFrequency_eq χ1 χ2 p1 p2 hf
  have e5 : (π * ((m1 + m2) * gt) * f) ^ ((5 : ℝ) / 3) = ((π * ((m1 + m2) * gt) * f) ^ ((1 : ℝ) / 3)) ^ 5 := by
    rw [← Real.rpow_natCast, ← Real.rpow_mul (by positivity)]; norm_num
  have e6 : (π * ((m1 + m2) * gt) * f) ^ 2 = ((π * ((m1 + m2) * gt) * f) ^ ((1 : ℝ) / 3)) ^ 6 := by
    rw [← Real.rpow_natCast (_ ^ ((1 : ℝ) / 3)) 6, ← Real.rpow_mul (by positivity), ← Real.rpow_natCast]; norm_num
  simp only [Spec.spaPower]
  simp only at haf et
  have hv := v_pos hK hf
  rw [et, haf, sq_abs, e5, e6]
  generalize (π * ((m1 + m2) * gt) * f) ^ ((1 : ℝ) / 3) = v at *
  have em : Spec.mode22 (Spec.eta m1 m2) (Spec.delta m1 m2) χ1 χ2 v = 1 + h2 m1 m2 * v ^ 2 + h3 m1 m2 χ1 χ2 * v ^ 3
      + h4 m1 m2 χ1 χ2 * v ^ 4 + h5 m1 m2 * v ^ 5 + h6 m1 m2 * v ^ 6 + -(856 / 105) * (v ^ 5 * (v * log (4 * v))) := by
    unfold Spec.mode22 h2 h3 h4 h5 h6
    ring
  rw [em]
  linear_combination -hs v (v * log (4 * v))

lemma series_v {f : ℝ} (hf : 0 < f) (A2 A3 A4 A5 A6 A7 A8 A9 : ℝ) :
    let v := (π * ((m1 + m2) * gt) * f) ^ ((1 : ℝ) / 3)
    let y := f * ((m1 + m2) * gt)
    1 + A2 * y ^ ((2 : ℝ) / 3) + A3 * y + A4 * y ^ ((4 : ℝ) / 3) + A5 * y ^ ((5 : ℝ) / 3) + A6 * y ^ 2
      + A7 * y ^ ((7 : ℝ) / 3) + A8 * y ^ ((8 : ℝ) / 3) + A9 * y ^ 3 =
    1 + A2 / π ^ ((2 : ℝ) / 3) * v ^ 2 + A3 / π * v ^ 3 + A4 / π ^ ((4 : ℝ) / 3) * v ^ 4 + A5 / π ^ ((5 : ℝ) / 3) * v ^ 5
      + A6 / π ^ 2 * v ^ 6 + A7 / π ^ ((7 : ℝ) / 3) * v ^ 7 + A8 / π ^ ((8 : ℝ) / 3) * v ^ 8 + A9 / π ^ 3 * v ^ 9 := by
  intro v y
  have hg := gt_pos
  have hpi := pi_pos
  have hy : 0 < y := by positivity
  have e : v = (π * y) ^ ((1 : ℝ) / 3) := by simp only [v, y]; congr 1; ring
  have k : ∀ n : ℕ, v ^ n = π ^ ((n : ℝ) / 3) * y ^ ((n : ℝ) / 3) := fun n => by rw [e]; exact v_pow hpi hy n
  have k3 : v ^ 3 = π * y := by rw [k 3]; norm_num
  have k6 : v ^ 6 = π ^ 2 * y ^ 2 := by rw [show v ^ 6 = (v ^ 3) ^ 2 by ring, k3]; ring
  have k9 : v ^ 9 = π ^ 3 * y ^ 3 := by rw [show v ^ 9 = (v ^ 3) ^ 3 by ring, k3]; ring
  have k2 := k 2
  have k4 := k 4
  have k5 := k 5
  have k7 := k 7
  have k8 := k 8
  push_cast at k2 k4 k5 k7 k8
  rw [k2, k3, k4, k5, k6, k7, k8, k9]
  field_simp

end
end Ripple.Mode22
