/-
  The parameter conversions of src/ripplegw/__init__.py in floating-point arithmetic, every operation rounded.
-/
import Verif.Prelude.Fp

namespace Ripple
namespace Fp

noncomputable section

/-- A library function `pow` for fractional exponents between 0 and 1: nan for a negative base, zero for zero, otherwise a number of the
    format with a relative error of at most `eps` (which also covers the rounding of the exponent). -/
structure PowLib (F : Fmt) where
  pow : XR → ℝ → XR
  eps : ℝ
  eps_nonneg : 0 ≤ eps
  eps_le : eps ≤ 1 / 4
  pow_nan : ∀ q, pow .nan q = .nan
  pow_neg : ∀ a q, a < 0 → pow (.fin a) q = .nan
  pow_zero : ∀ q, 0 < q → pow (.fin 0) q = .fin 0
  pow_pos : ∀ a q, F.rd a = a → F.minNormal ≤ a → a < 2 ^ F.emax → 0 < q → q < 1 →
    ∃ r, pow (.fin a) q = .fin r ∧ F.rd r = r ∧ |r - a ^ q| ≤ eps * a ^ q

variable (F : Fmt) (lib : PowLib F)

/-- `Mc_eta_to_ms` in rounded arithmetic. src/ripplegw/__init__.py:22-37. -/
def Mc_eta_to_ms (Mchirp eta : XR) : XR × XR :=
  let M := F.div Mchirp (lib.pow eta (3 / 5))
  let m2 := F.div (F.sub M (F.sqrt (F.sub (F.mul M M) (F.mul (F.mul (.fin 4) (F.mul M M)) eta)))) (.fin 2)
  let m1 := F.sub M m2
  (m1, m2)

/-- The symmetric mass ratio `m1 * m2 / (m1 + m2) ** 2` in rounded arithmetic. src/ripplegw/__init__.py:52, and with the masses in
    seconds src/ripplegw/waveforms/IMRPhenomD_utils.py:75, IMRPhenomX_utils.py:19, IMRPhenomPv2_utils.py:369. -/
def etaOf (m1 m2 : XR) : XR := F.div (F.mul m1 m2) (F.mul (F.add m1 m2) (F.add m1 m2))

/-- `ms_to_Mc_eta` in rounded arithmetic. src/ripplegw/__init__.py:40-52. -/
def ms_to_Mc_eta (m1 m2 : XR) : XR × XR :=
  (F.div (lib.pow (F.mul m1 m2) (3 / 5)) (lib.pow (F.add m1 m2) (1 / 5)), etaOf F m1 m2)

/-- The relative mass difference `jnp.sqrt(1.0 - 4.0 * eta_s)` of the waveform models for masses in solar masses; `gt` is the
    solar mass in seconds, a number of the format. src/ripplegw/waveforms/IMRPhenomX_utils.py:16-23, IMRPhenomD_utils.py:41. -/
def massDifference (gt : ℝ) (m1 m2 : XR) : XR :=
  F.sqrt (F.sub (.fin 1) (F.mul (.fin 4) (etaOf F (F.mul m1 (.fin gt)) (F.mul m2 (.fin gt)))))

/-- a literal or a quotient of literals, rounded to the format -/
def lit (x : ℝ) : XR := F.ofReal x

/-- `lambdas_to_lambda_tildes` in rounded arithmetic. src/ripplegw/__init__.py:106-153.
    (`eta**3` is `eta * (eta * eta)`, as `lax.integer_pow` computes it.) -/
def lambdas_to_lambda_tildes (lambda_1 lambda_2 mass_1 mass_2 : XR) : XR × XR :=
  let eta := (ms_to_Mc_eta F lib mass_1 mass_2).2
  let eta2 := F.mul eta eta
  let lambda_plus := F.add lambda_1 lambda_2
  let lambda_minus := F.sub lambda_1 lambda_2
  let root := lib.pow (F.sub (.fin 1) (F.mul (.fin 4) eta)) (1 / 2)
  let lambda_tilde := F.mul (lit F (8 / 13))
    (F.add (F.mul (F.sub (F.add (.fin 1) (F.mul (.fin 7) eta)) (F.mul (.fin 31) eta2)) lambda_plus)
      (F.mul (F.mul root (F.sub (F.add (.fin 1) (F.mul (.fin 9) eta)) (F.mul (.fin 11) eta2))) lambda_minus))
  let delta_lambda_tilde := F.mul (lit F (1 / 2))
    (F.add
      (F.mul (F.mul root (F.add (F.sub (.fin 1) (F.mul (lit F (13272 / 1319)) eta)) (F.mul (lit F (8944 / 1319)) eta2)))
        lambda_plus)
      (F.mul (F.add (F.add (F.sub (.fin 1) (F.mul (lit F (15910 / 1319)) eta)) (F.mul (lit F (32850 / 1319)) eta2))
        (F.mul (lit F (3380 / 1319)) (F.mul eta eta2))) lambda_minus))
  (lambda_tilde, delta_lambda_tilde)

end
end Fp
end Ripple
