/-
  Model of src/ripplegw/waveforms/IMRPhenomPv2_utils.py.
-/
import Verif.Model.PhenomD
import Mathlib.Analysis.SpecialFunctions.Complex.Arg
import Mathlib.Analysis.SpecialFunctions.Trigonometric.Inverse

namespace Ripple

namespace Jnp

/-- `jnp.arctan2(y, x)`: the polar angle of the point `(x, y)`, in `(-π, π]`, and `0` at the origin.
    Simplification: the sign of a zero argument is ignored. -/
noncomputable def arctan2 (y x : ℝ) : ℝ := Complex.arg ⟨x, y⟩

open Classical in
/-- `jnp.copysign(1.0, x)`.  Simplification: negative zero is treated as zero. -/
noncomputable def copysign1 (x : ℝ) : ℝ := if x < 0 then -1 else 1

end Jnp

namespace Pv2
noncomputable section

/-- `ROTATEZ`. src/ripplegw/waveforms/IMRPhenomPv2_utils.py:21-24. -/
def ROTATEZ (angle : ℝ) (v : ℝ × ℝ × ℝ) : ℝ × ℝ × ℝ :=
  let x := v.1
  let y := v.2.1
  let z := v.2.2
  let tmp_x := x * Real.cos angle - y * Real.sin angle
  let tmp_y := x * Real.sin angle + y * Real.cos angle
  (tmp_x, tmp_y, z)

/-- `ROTATEY`. src/ripplegw/waveforms/IMRPhenomPv2_utils.py:27-30. -/
def ROTATEY (angle : ℝ) (v : ℝ × ℝ × ℝ) : ℝ × ℝ × ℝ :=
  let x := v.1
  let y := v.2.1
  let z := v.2.2
  let tmp_x := x * Real.cos angle + z * Real.sin angle
  let tmp_z := -x * Real.sin angle + z * Real.cos angle
  (tmp_x, y, tmp_z)

/-- `FinalSpin0815`. src/ripplegw/waveforms/IMRPhenomPv2_utils.py:33-40. -/
def FinalSpin0815 (eta chi1 chi2 : ℝ) : ℝ :=
  let Seta := Real.sqrt (1 - 4 * eta)
  let m1 := 0.5 * (1 + Seta)
  let m2 := 0.5 * (1 - Seta)
  let m1s := m1 * m1
  let m2s := m2 * m2
  let s := m1s * chi1 + m2s * chi2
  PhenomD.FinalSpin0815_s eta s

/-- `L2PNR`. src/ripplegw/waveforms/IMRPhenomPv2_utils.py:203-214. -/
def L2PNR (v eta : ℝ) : ℝ :=
  let eta2 := eta ^ 2
  let x := v ^ 2
  let x2 := x ^ 2
  (eta * (1 + (1.5 + eta / 6) * x + (3.375 - (19 * eta) / 8 - eta2 / 24) * x2)) / x ^ (0.5 : ℝ)

/-- the seven values returned by `convert_spins` -/
structure Converted where
  chi1_l : ℝ
  chi2_l : ℝ
  chip : ℝ
  thetaJN : ℝ
  alpha0 : ℝ
  phi_aligned : ℝ
  zeta_polariz : ℝ

/-- `convert_spins`. src/ripplegw/waveforms/IMRPhenomPv2_utils.py:43-165. -/
def convert_spins (m1 m2 f_ref phiRef incl s1x s1y s1z s2x s2y s2z : ℝ) : Converted :=
  let M := m1 + m2
  let m1_2 := m1 * m1
  let m2_2 := m2 * m2
  let eta := m1 * m2 / (M * M)
  let chi1_l := s1z
  let chi2_l := s2z
  let S1_perp := m1_2 * Real.sqrt (s1x ^ 2 + s1y ^ 2)
  let S2_perp := m2_2 * Real.sqrt (s2x ^ 2 + s2y ^ 2)
  let A1 := 2 + (3 * m2) / (2 * m1)
  let A2 := 2 + (3 * m1) / (2 * m2)
  let ASp1 := A1 * S1_perp
  let ASp2 := A2 * S2_perp
  let num := max ASp1 ASp2
  let den := A2 * m2_2
  let chip := num / den
  let m_sec := M * gt
  let piM := PI * m_sec
  let v_ref := (piM * f_ref) ^ ((1 : ℝ) / 3)
  let L0 := M * M * L2PNR v_ref eta
  let J0x_sf := m1_2 * s1x + m2_2 * s2x
  let J0y_sf := m1_2 * s1y + m2_2 * s2y
  let J0z_sf := L0 + m1_2 * s1z + m2_2 * s2z
  let J0 := Real.sqrt (J0x_sf * J0x_sf + J0y_sf * J0y_sf + J0z_sf * J0z_sf)
  let thetaJ_sf := Real.arccos (J0z_sf / J0)
  let phiJ_sf := Jnp.arctan2 J0y_sf J0x_sf
  let phi_aligned := -phiJ_sf
  let Nx_sf := Real.sin incl * Real.cos (PI / 2 - phiRef)
  let Ny_sf := Real.sin incl * Real.sin (PI / 2 - phiRef)
  let Nz_sf := Real.cos incl
  let tmp := (Nx_sf, Ny_sf, Nz_sf)
  let tmp := ROTATEZ (-phiJ_sf) tmp
  let tmp := ROTATEY (-thetaJ_sf) tmp
  let kappa := -Jnp.arctan2 tmp.2.1 tmp.1
  let tmp : ℝ × ℝ × ℝ := (0, 0, 1)
  let tmp := ROTATEZ (-phiJ_sf) tmp
  let tmp := ROTATEY (-thetaJ_sf) tmp
  let tmp := ROTATEZ kappa tmp
  let alpha0 := Jnp.arctan2 tmp.2.1 tmp.1
  let tmp := (Nx_sf, Ny_sf, Nz_sf)
  let tmp := ROTATEZ (-phiJ_sf) tmp
  let tmp := ROTATEY (-thetaJ_sf) tmp
  let tmp := ROTATEZ kappa tmp
  let Nx_Jf := tmp.1
  let Nz_Jf := tmp.2.2
  let thetaJN := Real.arccos Nz_Jf
  let Xx_sf := -Real.cos incl * Real.sin phiRef
  let Xy_sf := -Real.cos incl * Real.cos phiRef
  let Xz_sf := Real.sin incl
  let tmp := (Xx_sf, Xy_sf, Xz_sf)
  let tmp := ROTATEZ (-phiJ_sf) tmp
  let tmp := ROTATEY (-thetaJ_sf) tmp
  let tmp := ROTATEZ kappa tmp
  let PArunx_Jf : ℝ := 0
  let PAruny_Jf : ℝ := -1
  let PArunz_Jf : ℝ := 0
  let QArunx_Jf := Nz_Jf
  let QAruny_Jf : ℝ := 0
  let QArunz_Jf := -Nx_Jf
  let XdotPArun := tmp.1 * PArunx_Jf + tmp.2.1 * PAruny_Jf + tmp.2.2 * PArunz_Jf
  let XdotQArun := tmp.1 * QArunx_Jf + tmp.2.1 * QAruny_Jf + tmp.2.2 * QArunz_Jf
  let zeta_polariz := Jnp.arctan2 XdotQArun XdotPArun
  ⟨chi1_l, chi2_l, chip, thetaJN, alpha0, phi_aligned, zeta_polariz⟩

/-- `SpinWeightedY`. src/ripplegw/waveforms/IMRPhenomPv2_utils.py:168-200.
    When `s ≠ -2` or `l ≠ 2` the local variable `fac` is never assigned. -/
def SpinWeightedY (theta phi : ℝ) (s l m : ℤ) : Except PyErr ℂ := do
  let fac : ℝ ←
    if s = -2 then
      if l = 2 then
        if m = -2 then
          .ok (Real.sqrt (5 / (64 * PI)) * (1 - Real.cos theta) * (1 - Real.cos theta))
        else if m = -1 then
          .ok (Real.sqrt (5 / (16 * PI)) * Real.sin theta * (1 - Real.cos theta))
        else if m = 0 then
          .ok (Real.sqrt (15 / (32 * PI)) * Real.sin theta * Real.sin theta)
        else if m = 1 then
          .ok (Real.sqrt (5 / (16 * PI)) * Real.sin theta * (1 + Real.cos theta))
        else if m = 2 then
          .ok (Real.sqrt (5 / (64 * PI)) * (1 + Real.cos theta) * (1 + Real.cos theta))
        else .error .valueError
      else .error .unboundLocalError
    else .error .unboundLocalError
  .ok ((fac : ℂ) * Complex.exp (Complex.I * (m : ℂ) * (phi : ℂ)))

/-- `WignerdCoefficients`. src/ripplegw/waveforms/IMRPhenomPv2_utils.py:217-226. -/
def WignerdCoefficients (v SL eta Sp : ℝ) : ℝ × ℝ :=
  let L := L2PNR v eta
  let s := Sp / (L + SL)
  let s2 := s ^ 2
  let cos_beta := 1 / (1 + s2) ^ (0.5 : ℝ)
  let cos_beta_half := ((1 + cos_beta) / 2) ^ (0.5 : ℝ)
  let sin_beta_half := ((1 - cos_beta) / 2) ^ (0.5 : ℝ)
  (cos_beta_half, sin_beta_half)

/-- the dictionary `angcoeffs` -/
structure AngCoeffs where
  alphacoeff1 : ℝ
  alphacoeff2 : ℝ
  alphacoeff3 : ℝ
  alphacoeff4 : ℝ
  alphacoeff5 : ℝ
  epsiloncoeff1 : ℝ
  epsiloncoeff2 : ℝ
  epsiloncoeff3 : ℝ
  epsiloncoeff4 : ℝ
  epsiloncoeff5 : ℝ

/-- `ComputeNNLOanglecoeffs`. src/ripplegw/waveforms/IMRPhenomPv2_utils.py:229-346. -/
def ComputeNNLOanglecoeffs (q chil chip : ℝ) : AngCoeffs :=
  let m2 : ℝ := q / (1 + q)
  let m1 : ℝ := 1 / (1 + q)
  let dm : ℝ := m1 - m2
  let mtot : ℝ := 1
  let eta : ℝ := m1 * m2
  let eta2 : ℝ := eta * eta
  let eta3 : ℝ := eta2 * eta
  let eta4 : ℝ := eta3 * eta
  let mtot2 : ℝ := mtot * mtot
  let mtot4 : ℝ := mtot2 * mtot2
  let mtot6 : ℝ := mtot4 * mtot2
  let mtot8 : ℝ := mtot6 * mtot2
  let chil2 : ℝ := chil * chil
  let chip2 : ℝ := chip * chip
  let chip4 : ℝ := chip2 * chip2
  let dm2 : ℝ := dm * dm
  let dm3 : ℝ := dm2 * dm
  let m2_2 : ℝ := m2 * m2
  let m2_3 : ℝ := m2_2 * m2
  let m2_4 : ℝ := m2_3 * m2
  let m2_5 : ℝ := m2_4 * m2
  let m2_6 : ℝ := m2_5 * m2
  let m2_7 : ℝ := m2_6 * m2
  let m2_8 : ℝ := m2_7 * m2
  let alphacoeff1 : ℝ := -0.18229166666666666 - (5 * dm) / (64 * m2)
  let alphacoeff2 : ℝ := (-15 * dm * m2 * chil) / (128 * mtot2 * eta) - (35 * m2_2 * chil) / (128 * mtot2 * eta)
  let alphacoeff3 : ℝ :=
    -1.7952473958333333
      - (4555 * dm) / (7168 * m2)
      - (15 * chip2 * dm * m2_3) / (128 * mtot4 * eta2)
      - (35 * chip2 * m2_4) / (128 * mtot4 * eta2)
      - (515 * eta) / 384
      - (15 * dm2 * eta) / (256 * m2_2)
      - (175 * dm * eta) / (256 * m2)
  let alphacoeff4 : ℝ :=
    -(35 * PI) / 48
      - (5 * dm * PI) / (16 * m2)
      + (5 * dm2 * chil) / (16 * mtot2)
      + (5 * dm * m2 * chil) / (3 * mtot2)
      + (2545 * m2_2 * chil) / (1152 * mtot2)
      - (5 * chip2 * dm * m2_5 * chil) / (128 * mtot6 * eta3)
      - (35 * chip2 * m2_6 * chil) / (384 * mtot6 * eta3)
      + (2035 * dm * m2 * chil) / (21504 * mtot2 * eta)
      + (2995 * m2_2 * chil) / (9216 * mtot2 * eta)
  let alphacoeff5 : ℝ :=
    4.318908476114694
      + (27895885 * dm) / (2.1676032e7 * m2)
      - (15 * chip4 * dm * m2_7) / (512 * mtot8 * eta4)
      - (35 * chip4 * m2_8) / (512 * mtot8 * eta4)
      - (485 * chip2 * dm * m2_3) / (14336 * mtot4 * eta2)
      + (475 * chip2 * m2_4) / (6144 * mtot4 * eta2)
      + (15 * chip2 * dm2 * m2_2) / (256 * mtot4 * eta)
      + (145 * chip2 * dm * m2_3) / (512 * mtot4 * eta)
      + (575 * chip2 * m2_4) / (1536 * mtot4 * eta)
      + (39695 * eta) / 86016
      + (1615 * dm2 * eta) / (28672 * m2_2)
      - (265 * dm * eta) / (14336 * m2)
      + (955 * eta2) / 576
      + (15 * dm3 * eta2) / (1024 * m2_3)
      + (35 * dm2 * eta2) / (256 * m2_2)
      + (2725 * dm * eta2) / (3072 * m2)
      - (15 * dm * m2 * PI * chil) / (16 * mtot2 * eta)
      - (35 * m2_2 * PI * chil) / (16 * mtot2 * eta)
      + (15 * chip2 * dm * m2_7 * chil2) / (128 * mtot8 * eta4)
      + (35 * chip2 * m2_8 * chil2) / (128 * mtot8 * eta4)
      + (375 * dm2 * m2_2 * chil2) / (256 * mtot4 * eta)
      + (1815 * dm * m2_3 * chil2) / (256 * mtot4 * eta)
      + (1645 * m2_4 * chil2) / (192 * mtot4 * eta)
  let epsiloncoeff1 : ℝ := -0.18229166666666666 - (5 * dm) / (64 * m2)
  let epsiloncoeff2 : ℝ := (-15 * dm * m2 * chil) / (128 * mtot2 * eta) - (35 * m2_2 * chil) / (128 * mtot2 * eta)
  let epsiloncoeff3 : ℝ :=
    -1.7952473958333333
      - (4555 * dm) / (7168 * m2)
      - (515 * eta) / 384
      - (15 * dm2 * eta) / (256 * m2_2)
      - (175 * dm * eta) / (256 * m2)
  let epsiloncoeff4 : ℝ :=
    -(35 * PI) / 48
      - (5 * dm * PI) / (16 * m2)
      + (5 * dm2 * chil) / (16 * mtot2)
      + (5 * dm * m2 * chil) / (3 * mtot2)
      + (2545 * m2_2 * chil) / (1152 * mtot2)
      + (2035 * dm * m2 * chil) / (21504 * mtot2 * eta)
      + (2995 * m2_2 * chil) / (9216 * mtot2 * eta)
  let epsiloncoeff5 : ℝ :=
    4.318908476114694
      + (27895885 * dm) / (2.1676032e7 * m2)
      + (39695 * eta) / 86016
      + (1615 * dm2 * eta) / (28672 * m2_2)
      - (265 * dm * eta) / (14336 * m2)
      + (955 * eta2) / 576
      + (15 * dm3 * eta2) / (1024 * m2_3)
      + (35 * dm2 * eta2) / (256 * m2_2)
      + (2725 * dm * eta2) / (3072 * m2)
      - (15 * dm * m2 * PI * chil) / (16 * mtot2 * eta)
      - (35 * m2_2 * PI * chil) / (16 * mtot2 * eta)
      + (375 * dm2 * m2_2 * chil2) / (256 * mtot4 * eta)
      + (1815 * dm * m2_3 * chil2) / (256 * mtot4 * eta)
      + (1645 * m2_4 * chil2) / (192 * mtot4 * eta)
  ⟨alphacoeff1, alphacoeff2, alphacoeff3, alphacoeff4, alphacoeff5,
    epsiloncoeff1, epsiloncoeff2, epsiloncoeff3, epsiloncoeff4, epsiloncoeff5⟩

/-- `FinalSpin_inplane`. src/ripplegw/waveforms/IMRPhenomPv2_utils.py:349-360. -/
def FinalSpin_inplane (m1 m2 chi1_l chi2_l chip : ℝ) : ℝ :=
  let M := m1 + m2
  let eta := m1 * m2 / (M * M)
  let q_factor := m1 / M
  let af_parallel := FinalSpin0815 eta chi1_l chi2_l
  let Sperp := chip * q_factor * q_factor
  let af := Jnp.copysign1 af_parallel * Real.sqrt (Sperp * Sperp + af_parallel * af_parallel)
  af

/-- `phP_get_fRD_fdamp`. src/ripplegw/waveforms/IMRPhenomPv2_utils.py:363-374. -/
def phP_get_fRD_fdamp (q : QNM) (m1 m2 chi1_l chi2_l chip : ℝ) : ℝ × ℝ :=
  let finspin := FinalSpin_inplane m1 m2 chi1_l chi2_l chip
  let m1_s := m1 * gt
  let m2_s := m2 * gt
  let M_s := m1_s + m2_s
  let eta_s := m1_s * m2_s / M_s ^ 2
  let Erad := PhenomD.EradRational0815 eta_s chi1_l chi2_l
  let fRD := Jnp.interp q.eps finspin q.a q.fRD / (1 - Erad)
  let fdamp := Jnp.interp q.eps finspin q.a q.fdamp / (1 - Erad)
  (fRD / M_s, fdamp / M_s)

open Classical in
/-- `phP_get_transition_frequencies`. src/ripplegw/waveforms/IMRPhenomPv2_utils.py:377-410. -/
def phP_get_transition_frequencies (q : QNM) (theta : Theta) (gamma2 gamma3 chip : ℝ) : TransFreqs :=
  let m1 := theta.m1
  let m2 := theta.m2
  let chi1 := theta.chi1
  let chi2 := theta.chi2
  let M := m1 + m2
  let f_RD := (phP_get_fRD_fdamp q m1 m2 chi1 chi2 chip).1
  let f_damp := (phP_get_fRD_fdamp q m1 m2 chi1 chi2 chip).2
  let f1 := 0.018 / (M * gt)
  let f2 := 0.5 * f_RD
  let f3 := 0.014 / (M * gt)
  let f4 :=
    if gamma2 ≥ 1 then |f_RD + -f_damp * gamma3 / gamma2|
    else |f_RD + f_damp * (-1 + Real.sqrt (1 - gamma2 ^ 2)) * gamma3 / gamma2|
  ⟨f1, f2, f3, f4, f_RD, f_damp⟩

end
end Pv2
end Ripple
