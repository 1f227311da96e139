/-
  Model of src/ripplegw/waveforms/TaylorF2.py.
-/
import Verif.Model.TidalUtils

namespace Ripple
namespace TaylorF2
open Tidal
noncomputable section

/-- `get_3PNSOCoeff`. src/ripplegw/waveforms/TaylorF2.py:16-17. -/
def get_3PNSOCoeff (mByM : ℝ) : ℝ :=
  mByM * (25 + 38 / 3 * mByM)

/-- `get_5PNSOCoeff`. src/ripplegw/waveforms/TaylorF2.py:20-25. -/
def get_5PNSOCoeff (mByM : ℝ) : ℝ :=
  (-mByM) * (1391.5 / 8.4 - mByM * (1 - mByM) * 10 / 3 + mByM * (1276 / 8.1 + mByM * (1 - mByM) * 170 / 9))

/-- `get_6PNSOCoeff`. src/ripplegw/waveforms/TaylorF2.py:28-29. -/
def get_6PNSOCoeff (mByM : ℝ) : ℝ :=
  PI * mByM * (1490 / 3 + mByM * 260)

/-- `get_7PNSOCoeff`. src/ripplegw/waveforms/TaylorF2.py:32-40. -/
def get_7PNSOCoeff (mByM : ℝ) : ℝ :=
  let eta : ℝ := mByM * (1 - mByM)
  mByM * ((-17097.8035) / 4.8384 + eta * 28764.25 / 6.72 + eta * eta * 47.35 / 1.44 + mByM * ((-7189.233785) /
    1.524096 + eta * 458.555 / 3.024 - eta * eta * 534.5 / 7.2))

/-- `get_4PNS1S2Coeff`. src/ripplegw/waveforms/TaylorF2.py:43-44. -/
def get_4PNS1S2Coeff (eta : ℝ) : ℝ :=
  247 / 4.8 * eta

/-- `get_4PNS1S2OCoeff`. src/ripplegw/waveforms/TaylorF2.py:47-48. -/
def get_4PNS1S2OCoeff (eta : ℝ) : ℝ :=
  (-721) / 4.8 * eta

/-- `get_4PNQM2SOCoeff`. src/ripplegw/waveforms/TaylorF2.py:51-52. -/
def get_4PNQM2SOCoeff (mByM : ℝ) : ℝ :=
  (-720) / 9.6 * mByM * mByM

/-- `get_4PNSelf2SOCoeff`. src/ripplegw/waveforms/TaylorF2.py:55-56. -/
def get_4PNSelf2SOCoeff (mByM : ℝ) : ℝ :=
  1 / 9.6 * mByM * mByM

/-- `get_4PNQM2SCoeff`. src/ripplegw/waveforms/TaylorF2.py:59-60. -/
def get_4PNQM2SCoeff (mByM : ℝ) : ℝ :=
  240 / 9.6 * mByM * mByM

/-- `get_4PNSelf2SCoeff`. src/ripplegw/waveforms/TaylorF2.py:63-64. -/
def get_4PNSelf2SCoeff (mByM : ℝ) : ℝ :=
  (-7) / 9.6 * mByM * mByM

/-- `get_6PNS1S2OCoeff`. src/ripplegw/waveforms/TaylorF2.py:67-68. -/
def get_6PNS1S2OCoeff (eta : ℝ) : ℝ :=
  (326.75 / 1.12 + 557.5 / 1.8 * eta) * eta

/-- `get_6PNSelf2SCoeff`. src/ripplegw/waveforms/TaylorF2.py:71-74. -/
def get_6PNSelf2SCoeff (mByM : ℝ) : ℝ :=
  ((-4108.25) / 6.72 - 108.5 / 1.2 * mByM + 125.5 / 3.6 * mByM * mByM) * mByM * mByM

/-- `get_6PNQM2SCoeff`. src/ripplegw/waveforms/TaylorF2.py:77-78. -/
def get_6PNQM2SCoeff (mByM : ℝ) : ℝ :=
  (4703.5 / 8.4 + 2935 / 6 * mByM - 120 * mByM * mByM) * mByM * mByM

/-- `get_10PNTidalCoeff`. src/ripplegw/waveforms/TaylorF2.py:81-82. -/
def get_10PNTidalCoeff (mByM : ℝ) : ℝ :=
  (-288 + 264 * mByM) * mByM * mByM * mByM * mByM

/-- `get_12PNTidalCoeff`. src/ripplegw/waveforms/TaylorF2.py:85-97. -/
def get_12PNTidalCoeff (mByM : ℝ) : ℝ :=
  ((-15895) / 28 + 4595 / 28 * mByM + 5715 / 14 * mByM * mByM - 325 / 7 * mByM * mByM * mByM) * mByM * mByM * mByM *
    mByM

/-- `get_13PNTidalCoeff`. src/ripplegw/waveforms/TaylorF2.py:100-101. -/
def get_13PNTidalCoeff (mByM : ℝ) : ℝ :=
  mByM * mByM * mByM * mByM * 24 * (12 - 11 * mByM) * PI

/-- `get_14PNTidalCoeff`. src/ripplegw/waveforms/TaylorF2.py:104-118. -/
def get_14PNTidalCoeff (mByM : ℝ) : ℝ :=
  let mByM3 : ℝ := mByM * mByM * mByM
  let mByM4 : ℝ := mByM3 * mByM
  (-mByM4) * 5 * (193986935 / 571536 - 14415613 / 381024 * mByM - 57859 / 378 * mByM * mByM - 209495 / 1512 * mByM3 +
    965 / 54 * mByM4 - 4 * mByM4 * mByM)

/-- `get_15PNTidalCoeff`. src/ripplegw/waveforms/TaylorF2.py:121-131. -/
def get_15PNTidalCoeff (mByM : ℝ) : ℝ :=
  let mByM2 : ℝ := mByM * mByM
  let mByM3 : ℝ := mByM2 * mByM
  let mByM4 : ℝ := mByM3 * mByM
  mByM4 * 1 / 28 * PI * (27719 - 22415 * mByM + 7598 * mByM2 - 10520 * mByM3)

/-- `get_flux_0PNCoeff`. src/ripplegw/waveforms/TaylorF2.py:134-135. -/
def get_flux_0PNCoeff (eta : ℝ) : ℝ :=
  32 * eta * eta / 5

/-- `get_energy_0PNCoeff`. src/ripplegw/waveforms/TaylorF2.py:138-139. -/
def get_energy_0PNCoeff (eta : ℝ) : ℝ :=
  (-eta) / 2

/-- the entries of the dictionaries `phasing_coeffs` ("nPN" ↦ `pn`) and `phasing_log_coeffs` ("nPN" ↦ `ln`) -/
@[ext] structure PNPhasing where
  p0 : ℝ
  p1 : ℝ
  p2 : ℝ
  p3 : ℝ
  p4 : ℝ
  p5 : ℝ
  p6 : ℝ
  p7 : ℝ
  p10 : ℝ
  p12 : ℝ
  p13 : ℝ
  p14 : ℝ
  p15 : ℝ
  l5 : ℝ
  l6 : ℝ

/-- `get_PNPhasing_F2`. src/ripplegw/waveforms/TaylorF2.py:147-264. -/
def get_PNPhasing_F2 (m1 m2 S1z S2z lambda1 lambda2 : ℝ) : PNPhasing :=
  let M : ℝ := m1 + m2
  let m1M : ℝ := m1 / M
  let m2M : ℝ := m2 / M
  let m1_s : ℝ := m1 * gt
  let m2_s : ℝ := m2 * gt
  let M_s : ℝ := m1_s + m2_s
  let eta : ℝ := m1_s * m2_s / M_s ^ 2
  let pfaN : ℝ := 3 / (128 * eta)
  let S1z_2 : ℝ := S1z ^ 2
  let S2z_2 : ℝ := S2z ^ 2
  let S1z_dot_S2z : ℝ := S1z * S2z
  let qm_def1 : ℝ := (get_quadparam_octparam lambda1).1
  let qm_def2 : ℝ := (get_quadparam_octparam lambda2).1
  let p0 : ℝ := 1
  let p1 : ℝ := 0
  let p2 : ℝ := 5 * (74.3 / 8.4 + 11 * eta) / 9
  let p3 : ℝ := -16 * PI
  let p4 : ℝ := 5 * (3058.673 / 7.056 + 5429 / 7 * eta + 617 * eta * eta) / 72
  let p5 : ℝ := 5 / 9 * (772.9 / 8.4 - 13 * eta) * PI
  let l5 : ℝ := 5 / 3 * (772.9 / 8.4 - 13 * eta) * PI
  let l6 : ℝ := -684.8 / 2.1
  let p6 : ℝ := 11583.231236531 / 4.694215680 - 640 / 3 * PI * PI - 684.8 / 2.1 * EulerGamma
    + eta * (-15737.765635 / 3.048192 + 225.5 / 1.2 * PI * PI) + eta * eta * 76.055 / 1.728
    - eta * eta * eta * 127.825 / 1.296 + l6 * Real.log 4
  let p7 : ℝ := PI * (770.96675 / 2.54016 + 378.515 / 1.512 * eta - 740.45 / 7.56 * eta * eta)
  let p7 : ℝ := p7 + (get_7PNSOCoeff m1M * S1z + get_7PNSOCoeff m2M * S2z)
  let p6 : ℝ := p6 + (get_6PNSOCoeff m1M * S1z + get_6PNSOCoeff m2M * S2z + get_6PNS1S2OCoeff eta * S1z * S2z
    + (get_6PNQM2SCoeff m1M * qm_def1 + get_6PNSelf2SCoeff m1M) * S1z_2
    + (get_6PNQM2SCoeff m2M * qm_def2 + get_6PNSelf2SCoeff m2M) * S2z_2)
  let p5 : ℝ := p5 + (get_5PNSOCoeff m1M * S1z + get_5PNSOCoeff m2M * S2z)
  let l5 : ℝ := l5 + 3 * (get_5PNSOCoeff m1M * S1z + get_5PNSOCoeff m2M * S2z)
  let p4 : ℝ := p4 + (get_4PNS1S2Coeff eta * S1z_dot_S2z + get_4PNS1S2OCoeff eta * S1z * S2z
    + (get_4PNQM2SOCoeff m1M * qm_def1 + get_4PNSelf2SOCoeff m1M) * S1z_2
    + (get_4PNQM2SOCoeff m2M * qm_def2 + get_4PNSelf2SOCoeff m2M) * S2z_2
    + (get_4PNQM2SCoeff m1M * qm_def1 + get_4PNSelf2SCoeff m1M) * S1z_2
    + (get_4PNQM2SCoeff m2M * qm_def2 + get_4PNSelf2SCoeff m2M) * S2z_2)
  let p3 : ℝ := p3 + (get_3PNSOCoeff m1M * S1z + get_3PNSOCoeff m2M * S2z)
  let p15 : ℝ := 0
  let p14 : ℝ := lambda1 * get_14PNTidalCoeff m1M + lambda2 * get_14PNTidalCoeff m2M
  let p13 : ℝ := lambda1 * get_13PNTidalCoeff m1M + lambda2 * get_13PNTidalCoeff m2M
  let p12 : ℝ := lambda1 * get_12PNTidalCoeff m1M + lambda2 * get_12PNTidalCoeff m2M
  let p10 : ℝ := lambda1 * get_10PNTidalCoeff m1M + lambda2 * get_10PNTidalCoeff m2M
  ⟨p0 * pfaN, p1 * pfaN, p2 * pfaN, p3 * pfaN, p4 * pfaN, p5 * pfaN, p6 * pfaN, p7 * pfaN, p10 * pfaN, p12 * pfaN,
    p13 * pfaN, p14 * pfaN, p15 * pfaN, l5 * pfaN, l6 * pfaN⟩

/-- the `ref_phasing` accumulated inside `if f_ref != 0`. src/ripplegw/waveforms/TaylorF2.py:413-446. -/
def ref_phasing_at (c : PNPhasing) (piM f_ref : ℝ) : ℝ :=
  let vref : ℝ := Jnp.cbrt (piM * f_ref)
  let logvref : ℝ := Real.log vref
  let v2ref : ℝ := vref * vref
  let v3ref : ℝ := vref * v2ref
  let v4ref : ℝ := vref * v3ref
  let v5ref : ℝ := vref * v4ref
  let v6ref : ℝ := vref * v5ref
  let v7ref : ℝ := vref * v6ref
  let v8ref : ℝ := vref * v7ref
  let v9ref : ℝ := vref * v8ref
  let v10ref : ℝ := vref * v9ref
  let v12ref : ℝ := v2ref * v10ref
  let v13ref : ℝ := vref * v12ref
  let v14ref : ℝ := vref * v13ref
  let v15ref : ℝ := vref * v14ref
  (0 + c.p7 * v7ref + (c.p6 + c.l6 * logvref) * v6ref + (c.p5 + c.l5 * logvref) * v5ref + c.p4 * v4ref + c.p3 * v3ref
    + c.p2 * v2ref + c.p1 * vref + c.p0 + c.p15 * v15ref + c.p14 * v14ref + c.p13 * v13ref + c.p12 * v12ref
    + c.p10 * v10ref) / v5ref

/-- `phasing` before the time and phase shifts. src/ripplegw/waveforms/TaylorF2.py:449-483. -/
def phasing_at (c : PNPhasing) (piM f : ℝ) : ℝ :=
  let v : ℝ := Jnp.cbrt (piM * f)
  let logv : ℝ := Real.log v
  let v2 : ℝ := v * v
  let v3 : ℝ := v * v2
  let v4 : ℝ := v * v3
  let v5 : ℝ := v * v4
  let v6 : ℝ := v * v5
  let v7 : ℝ := v * v6
  let v8 : ℝ := v * v7
  let v9 : ℝ := v * v8
  let v10 : ℝ := v * v9
  let v12 : ℝ := v2 * v10
  let v13 : ℝ := v * v12
  let v14 : ℝ := v * v13
  let v15 : ℝ := v * v14
  (0 + c.p7 * v7 + (c.p6 + c.l6 * logv) * v6 + (c.p5 + c.l5 * logv) * v5 + c.p4 * v4 + c.p3 * v3 + c.p2 * v2 + c.p1 * v
    + c.p0 + c.p15 * v15 + c.p14 * v14 + c.p13 * v13 + c.p12 * v12 + c.p10 * v10) / v5

/-- `fISCO`, computed but not used by `_gen_TaylorF2`. src/ripplegw/waveforms/TaylorF2.py:369-378. -/
def fISCO (m1 m2 : ℝ) : ℝ :=
  let M_s : ℝ := (m1 + m2) * gt
  let piM : ℝ := PI * M_s
  let vISCO : ℝ := 1 / Real.sqrt 6
  vISCO * vISCO * vISCO / piM

open Classical in
/-- `_gen_TaylorF2`. src/ripplegw/waveforms/TaylorF2.py:340-495.  `theta_extrinsic` = (dist_mpc, tc, phi_ref).
    The unused `fISCO` (377-378) is `fISCO` above. -/
def _gen_TaylorF2 (f : List ℝ) (theta : ThetaT) (dist_mpc tc phi_ref f_ref : ℝ) : List ℂ :=
  let m1 : ℝ := theta.m1
  let m2 : ℝ := theta.m2
  let m1_s : ℝ := m1 * gt
  let m2_s : ℝ := m2 * gt
  let M_s : ℝ := (m1 + m2) * gt
  let eta : ℝ := m1_s * m2_s / M_s ^ 2
  let piM : ℝ := PI * M_s
  let c := get_PNPhasing_F2 m1 m2 theta.chi1 theta.chi2 theta.lambda1 theta.lambda2
  let FTaN : ℝ := get_flux_0PNCoeff eta
  let dETaN : ℝ := 2 * get_energy_0PNCoeff eta
  let r : ℝ := dist_mpc * m_per_Mpc
  let amp0 : ℝ := -4 * m1 * m2 / r * MRSUN * gt * Real.sqrt (PI / 12)
  let ref_phasing : ℝ := if f_ref ≠ 0 then ref_phasing_at c piM f_ref else 0
  f.map fun f =>
    let v : ℝ := Jnp.cbrt (piM * f)
    let v2 : ℝ := v * v
    let v3 : ℝ := v * v2
    let v4 : ℝ := v * v3
    let v5 : ℝ := v * v4
    let v6 : ℝ := v * v5
    let v7 : ℝ := v * v6
    let v8 : ℝ := v * v7
    let v9 : ℝ := v * v8
    let v10 : ℝ := v * v9
    let flux : ℝ := FTaN * v10
    let dEnergy : ℝ := dETaN * v
    let shft : ℝ := 2 * PI * tc
    let phasing : ℝ := phasing_at c piM f + (shft * f - 2 * phi_ref - ref_phasing)
    let amp : ℝ := amp0 * Real.sqrt (-dEnergy / flux) * v
    ((amp * Real.cos (phasing - PI / 4) : ℝ) : ℂ) - ((amp * Real.sin (phasing - PI / 4) : ℝ) : ℂ) * Complex.I

open Classical in
/-- `gen_TaylorF2`. src/ripplegw/waveforms/TaylorF2.py:267-303. -/
def gen_TaylorF2 (f : List ℝ) (params : List ℝ) (f_ref : ℝ) (use_lambda_tildes : Bool) : List ℂ :=
  let ms := Mc_eta_to_ms (Jnp.index params 0) (Jnp.index params 1)
  let lambdas : ℝ × ℝ :=
    if use_lambda_tildes then lambda_tildes_to_lambdas (Jnp.index params 4) (Jnp.index params 5) ms.1 ms.2
    else (Jnp.index params 4, Jnp.index params 5)
  _gen_TaylorF2 f ⟨ms.1, ms.2, Jnp.index params 2, Jnp.index params 3, lambdas.1, lambdas.2⟩ (Jnp.index params 6)
    (Jnp.index params 7) (Jnp.index params 8) f_ref

/-- `gen_TaylorF2_hphc`. src/ripplegw/waveforms/TaylorF2.py:306-337. -/
def gen_TaylorF2_hphc (f : List ℝ) (params : List ℝ) (f_ref : ℝ) (use_lambda_tildes : Bool) : List ℂ × List ℂ :=
  let iota : ℝ := Jnp.index params (-1)
  let h0 := gen_TaylorF2 f params f_ref use_lambda_tildes
  (h0.map fun h => h * ((1 / 2 * (1 + Real.cos iota ^ 2) : ℝ) : ℂ),
   h0.map fun h => -Complex.I * h * (Real.cos iota : ℂ))

end
end TaylorF2
end Ripple
