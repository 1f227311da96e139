/-
  Model of the parameter conversions of src/ripplegw/__init__.py, lines 22-340.
-/
import Verif.Prelude.XR
import Verif.Model.Constants

namespace Ripple
noncomputable section

/-- `Mc_eta_to_ms` over exact reals. src/ripplegw/__init__.py:22-37.
    (`(M - sqrt(M**2 - 4*M**2*eta))/2` verbatim; the real-valued version is only meaningful where
    `Mc_eta_to_msX` below is finite, which is proved to be exactly 0 < eta ≤ 1/4.) -/
def Mc_eta_to_ms (Mchirp eta : ℝ) : ℝ × ℝ :=
  let M := Mchirp / eta ^ ((3 : ℝ) / 5)
  let m2 := (M - Real.sqrt (M ^ 2 - 4 * M ^ 2 * eta)) / 2
  let m1 := M - m2
  (m1, m2)

/-- `Mc_eta_to_ms` over floats with exceptional values. src/ripplegw/__init__.py:22-37. -/
def Mc_eta_to_msX (Mchirp eta : XR) : XR × XR :=
  let M := Mchirp / XR.powFrac eta ((3 : ℝ) / 5)
  let m2 := (M - XR.sqrt (M * M - XR.fin 4 * (M * M) * eta)) / XR.fin 2
  let m1 := M - m2
  (m1, m2)

/-- `ms_to_Mc_eta`. src/ripplegw/__init__.py:40-52. -/
def ms_to_Mc_eta (m1 m2 : ℝ) : ℝ × ℝ :=
  ((m1 * m2) ^ ((3 : ℝ) / 5) / (m1 + m2) ^ ((1 : ℝ) / 5), m1 * m2 / (m1 + m2) ^ 2)

/-- `lambdas_to_lambda_tildes_from_q`. src/ripplegw/__init__.py:56-103. -/
def lambdas_to_lambda_tildes_from_q (lambda_1 lambda_2 q : ℝ) : ℝ × ℝ :=
  let eta := q / (1 + q) ^ 2
  let lambda_plus := lambda_1 + lambda_2
  let lambda_minus := lambda_1 - lambda_2
  let lambda_tilde :=
    8 / 13 * ((1 + 7 * eta - 31 * eta ^ 2) * lambda_plus
      + (1 - 4 * eta) ^ (0.5 : ℝ) * (1 + 9 * eta - 11 * eta ^ 2) * lambda_minus)
  let delta_lambda_tilde :=
    1 / 2 * ((1 - 4 * eta) ^ (0.5 : ℝ)
        * (1 - 13272 / 1319 * eta + 8944 / 1319 * eta ^ 2) * lambda_plus
      + (1 - 15910 / 1319 * eta + 32850 / 1319 * eta ^ 2 + 3380 / 1319 * eta ^ 3) * lambda_minus)
  (lambda_tilde, delta_lambda_tilde)

/-- `lambdas_to_lambda_tildes`. src/ripplegw/__init__.py:106-153. -/
def lambdas_to_lambda_tildes (lambda_1 lambda_2 mass_1 mass_2 : ℝ) : ℝ × ℝ :=
  let eta := (ms_to_Mc_eta mass_1 mass_2).2
  let lambda_plus := lambda_1 + lambda_2
  let lambda_minus := lambda_1 - lambda_2
  let lambda_tilde :=
    8 / 13 * ((1 + 7 * eta - 31 * eta ^ 2) * lambda_plus
      + (1 - 4 * eta) ^ (0.5 : ℝ) * (1 + 9 * eta - 11 * eta ^ 2) * lambda_minus)
  let delta_lambda_tilde :=
    1 / 2 * ((1 - 4 * eta) ^ (0.5 : ℝ)
        * (1 - 13272 / 1319 * eta + 8944 / 1319 * eta ^ 2) * lambda_plus
      + (1 - 15910 / 1319 * eta + 32850 / 1319 * eta ^ 2 + 3380 / 1319 * eta ^ 3) * lambda_minus)
  (lambda_tilde, delta_lambda_tilde)

/-- `lambda_tildes_to_lambdas`. src/ripplegw/__init__.py:156-208. -/
def lambda_tildes_to_lambdas (lambda_tilde delta_lambda_tilde mass_1 mass_2 : ℝ) : ℝ × ℝ :=
  let eta := (ms_to_Mc_eta mass_1 mass_2).2
  let coefficient_1 := 1 + 7 * eta - 31 * eta ^ 2
  let coefficient_2 := (1 - 4 * eta) ^ (0.5 : ℝ) * (1 + 9 * eta - 11 * eta ^ 2)
  let coefficient_3 := (1 - 4 * eta) ^ (0.5 : ℝ) * (1 - 13272 / 1319 * eta + 8944 / 1319 * eta ^ 2)
  let coefficient_4 := 1 - 15910 / 1319 * eta + 32850 / 1319 * eta ^ 2 + 3380 / 1319 * eta ^ 3
  let lambda_1 :=
    (13 * lambda_tilde / 8 * (coefficient_3 - coefficient_4)
      - 2 * delta_lambda_tilde * (coefficient_1 - coefficient_2))
    / ((coefficient_1 + coefficient_2) * (coefficient_3 - coefficient_4)
      - (coefficient_1 - coefficient_2) * (coefficient_3 + coefficient_4))
  let lambda_2 :=
    (13 * lambda_tilde / 8 * (coefficient_3 + coefficient_4)
      - 2 * delta_lambda_tilde * (coefficient_1 + coefficient_2))
    / ((coefficient_1 - coefficient_2) * (coefficient_3 + coefficient_4)
      - (coefficient_1 + coefficient_2) * (coefficient_3 - coefficient_4))
  (lambda_1, lambda_2)

/-- `lambda_tildes_to_lambdas_from_q`. src/ripplegw/__init__.py:211-264. -/
def lambda_tildes_to_lambdas_from_q (lambda_tilde delta_lambda_tilde q : ℝ) : ℝ × ℝ :=
  let eta := q / (1 + q) ^ 2
  let coefficient_1 := 1 + 7 * eta - 31 * eta ^ 2
  let coefficient_2 := (1 - 4 * eta) ^ (0.5 : ℝ) * (1 + 9 * eta - 11 * eta ^ 2)
  let coefficient_3 := (1 - 4 * eta) ^ (0.5 : ℝ) * (1 - 13272 / 1319 * eta + 8944 / 1319 * eta ^ 2)
  let coefficient_4 := 1 - 15910 / 1319 * eta + 32850 / 1319 * eta ^ 2 + 3380 / 1319 * eta ^ 3
  let lambda_1 :=
    (13 * lambda_tilde / 8 * (coefficient_3 - coefficient_4)
      - 2 * delta_lambda_tilde * (coefficient_1 - coefficient_2))
    / ((coefficient_1 + coefficient_2) * (coefficient_3 - coefficient_4)
      - (coefficient_1 - coefficient_2) * (coefficient_3 + coefficient_4))
  let lambda_2 :=
    (13 * lambda_tilde / 8 * (coefficient_3 + coefficient_4)
      - 2 * delta_lambda_tilde * (coefficient_1 + coefficient_2))
    / ((coefficient_1 - coefficient_2) * (coefficient_3 + coefficient_4)
      - (coefficient_1 + coefficient_2) * (coefficient_3 - coefficient_4))
  (lambda_1, lambda_2)

/-- `get_chi_eff`. src/ripplegw/__init__.py:267-279. -/
def get_chi_eff (m1 m2 chi1 chi2 : ℝ) : ℝ := (m1 * chi1 + m2 * chi2) / (m1 + m2)

/-- `get_f_isco`. src/ripplegw/__init__.py:282-292. -/
def get_f_isco (m : ℝ) : ℝ := 1 / ((6 : ℝ) ^ ((3 : ℝ) / 2) * Real.pi * m / (C ^ 3 / G))

/-- The contract of `jax.random.uniform(key, minval=[a0,a1], maxval=[b0,b1], shape=(n,2))`:
    the sampler only sees an array `ms` of `n` rows with `lo ≤ entry`, and `entry < hi`
    (or `entry = lo` when the interval is empty, since jax returns `max(minval, ...)`).
    Used as a hypothesis on an arbitrary array: every possible draw is covered. -/
def IsUniformDraw (lo hi : ℝ × ℝ) (n : ℕ) (ms : List (ℝ × ℝ)) : Prop :=
  ms.length = n ∧ ∀ r ∈ ms,
    (lo.1 ≤ r.1 ∧ (r.1 < hi.1 ∨ r.1 = lo.1)) ∧ (lo.2 ≤ r.2 ∧ (r.2 < hi.2 ∨ r.2 = lo.2))

/-- `get_M_eta_sampler(M_range, eta_range)(key, n)` as a function of the uniform draw.
    src/ripplegw/__init__.py:295-310.  `uniform` stands for `random.uniform(key, minval, maxval, (n,2))`. -/
def get_M_eta_sampler (M_range eta_range : ℝ × ℝ)
    (uniform : (minval maxval : ℝ × ℝ) → (n : ℕ) → List (ℝ × ℝ)) (n : ℕ) : List (ℝ × ℝ) :=
  uniform (M_range.1, eta_range.1) (M_range.2, eta_range.2) n

/-- `get_m1_m2_sampler(m1_range, m2_range)(key, n)` as a function of the uniform draw.
    src/ripplegw/__init__.py:313-339.  `stack([max(axis=1), min(axis=1)]).T` is row-wise (max, min). -/
def get_m1_m2_sampler (m1_range m2_range : ℝ × ℝ)
    (uniform : (minval maxval : ℝ × ℝ) → (n : ℕ) → List (ℝ × ℝ)) (n : ℕ) : List (ℝ × ℝ) :=
  let ms := uniform (m1_range.1, m2_range.1) (m1_range.2, m2_range.2) n
  ms.map fun r => (max r.1 r.2, min r.1 r.2)

end
end Ripple
