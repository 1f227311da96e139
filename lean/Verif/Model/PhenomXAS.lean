/-
  Model of src/ripplegw/waveforms/IMRPhenomXAS.py.
  The Python functions are elementwise in the frequency; long functions are split into the parts computed once
  (coefficients, collocation nodes and values) and the frequency dependent formula.
-/
import Verif.Model.PhenomXUtils
import Verif.Model.Conversions
import Mathlib.Analysis.Calculus.Deriv.Basic
import Mathlib.Analysis.SpecialFunctions.Trigonometric.Arctan
import Mathlib.LinearAlgebra.Matrix.NonsingularInverse
import Mathlib.LinearAlgebra.Matrix.Notation

namespace Ripple

/-- `jnp.linalg.solve(A, b)`: the solution `x` of `A x = b`.
    Simplification: for a singular matrix (where the code returns inf or nan) this is the zero vector; statements
    about the solution carry the hypothesis that the matrix is invertible. -/
noncomputable def Jnp.solve {n : ℕ} (A : Matrix (Fin n) (Fin n) ℝ) (b : Fin n → ℝ) : Fin n → ℝ :=
  A⁻¹.mulVec b

namespace XAS
noncomputable section

/-- `eqspin_indx`. src/ripplegw/waveforms/IMRPhenomXAS.py:10. -/
def eqspin_indx : ℕ := 10
/-- `uneqspin_indx`. src/ripplegw/waveforms/IMRPhenomXAS.py:11. -/
def uneqspin_indx : ℕ := 39
/-- `amp_eqspin_indx`. src/ripplegw/waveforms/IMRPhenomXAS.py:13. -/
def amp_eqspin_indx : ℕ := 8
/-- `amp_uneqspin_indx`. src/ripplegw/waveforms/IMRPhenomXAS.py:14. -/
def amp_uneqspin_indx : ℕ := 36

/-- The expression `nospin_CV(T[i, 0:eqspin_indx], eta) + Eqspin_CV(T[i, eqspin_indx:uneqspin_indx], eta, S)
    + Uneqspin_CV(T[i, uneqspin_indx:], eta, S, chia)`, repeated at
    src/ripplegw/waveforms/IMRPhenomXAS.py:233-254,385-433,592-636. -/
def phaseCV (T : Table) (i : ℕ) (eta S chia : ℝ) : ℝ :=
  nospin_CV (T i) eta + Eqspin_CV (fun k => T i (eqspin_indx + k)) eta S
    + Uneqspin_CV (fun k => T i (uneqspin_indx + k)) eta S chia

/-- The expression `Amp_Nospin_CV(T[i, 0:amp_eqspin_indx], eta)
    + Amp_Eqspin_CV(T[i, amp_eqspin_indx:amp_uneqspin_indx], eta, S)
    + Amp_Uneqspin_CV(T[i, amp_uneqspin_indx:], eta, S, chia)`, repeated at
    src/ripplegw/waveforms/IMRPhenomXAS.py:917-943,1057-1065,1224-1241,1250-1258. -/
def ampCV (T : Table) (i : ℕ) (eta S chia : ℝ) : ℝ :=
  Amp_Nospin_CV (T i) eta + Amp_Eqspin_CV (fun k => T i (amp_eqspin_indx + k)) eta S
    + Amp_Uneqspin_CV (fun k => T i (amp_uneqspin_indx + k)) eta S chia

/-- the TaylorF2 coefficients computed by `get_inspiral_phase` -/
structure PhasePN where
  phi0 : ℝ
  phi1 : ℝ
  phi2 : ℝ
  phi3 : ℝ
  phi4 : ℝ
  phi5 : ℝ
  phi5L : ℝ
  phi6 : ℝ
  phi6L : ℝ
  phi7 : ℝ
  phi8 : ℝ
  phi8L : ℝ

/-- TaylorF2 coefficients of `get_inspiral_phase`. src/ripplegw/waveforms/IMRPhenomXAS.py:21-214. -/
def inspiral_phase_PN (theta : Theta) : PhasePN :=
  let m1 : ℝ := theta.m1
  let m2 : ℝ := theta.m2
  let chi1 : ℝ := theta.chi1
  let chi2 : ℝ := theta.chi2
  let m1_s : ℝ := m1 * gt
  let m2_s : ℝ := m2 * gt
  let M_s : ℝ := m1_s + m2_s
  let eta : ℝ := m1_s * m2_s / M_s ^ 2
  let eta2 : ℝ := eta * eta
  let eta3 : ℝ := eta2 * eta
  let delta : ℝ := Real.sqrt (1 - 4 * eta)
  let chi1L2L : ℝ := chi1 * chi2
  let chi1L2 : ℝ := chi1 * chi1
  let chi1L3 : ℝ := chi1 * chi1 * chi1
  let chi2L2 : ℝ := chi2 * chi2
  let chi2L3 : ℝ := chi2 * chi2 * chi2
  let phi0 : ℝ := 1
  let phi1 : ℝ := 0
  let phi2 : ℝ := (3715 / 756 + 55 * eta / 9) * PI ^ ((2 : ℝ) / 3)
  let phi3 : ℝ := (-16) * PI ^ 2 + (113 * (chi1 + chi2 + chi1 * delta - chi2 * delta) - 76 * (chi1 + chi2) * eta) / 6
    * PI
  let phi4 : ℝ := (15293365 / 508032 + 27145 * eta / 504 + 3085 * eta2 / 72) * PI ^ ((4 : ℝ) / 3) + (-5) * (81 *
    chi1L2 * (1 + delta - 2 * eta) + 316 * chi1L2L * eta - 81 * chi2L2 * (-1 + delta + 2 * eta)) / 16 * PI ^ ((4 : ℝ) /
    3)
  let phi5 : ℝ := 0
  let phi5L : ℝ := 5 * (46374 - 6552 * eta) * PI / 4536 * PI ^ ((5 : ℝ) / 3) + ((-732985) * (chi1 + chi2 + chi1 *
    delta - chi2 * delta) - 560 * ((-1213) * (chi1 + chi2) + 63 * (chi1 - chi2) * delta) * eta + 85680 * (chi1 + chi2) *
    eta2) / 4536 * PI ^ ((5 : ℝ) / 3)
  let phi6L : ℝ := (-6848) / 63 * PI ^ 2
  let phi6 : ℝ := (11583231236531 / 4.69421568e9 - 5 * eta * (3147553127 + 588 * eta * (-45633 + 102260 * eta)) /
    3.048192e6 - 6848 * EulerGamma / 21 - 640 * PI ^ 2 / 3 + 2255 * eta * PI ^ 2 / 12 - 13696 * Real.log 2 / 21 - 6848 *
    Real.log PI / 63) * PI ^ 2 + 5 * (227 * (chi1 + chi2 + chi1 * delta - chi2 * delta) - 156 * (chi1 + chi2) * eta) *
    PI / 3 * PI ^ 2 + 5 * (20 * chi1L2L * eta * (11763 + 12488 * eta) + 7 * chi2L2 * ((-15103) * (-1 + delta) + 2 *
    (-21683 + 6580 * delta) * eta - 9808 * eta2) - 7 * chi1L2 * ((-15103) * (1 + delta) + 2 * (21683 + 6580 * delta) *
    eta + 9808 * eta2)) / 4032 * PI ^ 2
  let phi7 : ℝ := 5 * (15419335 + 168 * (75703 - 29618 * eta) * eta) * PI / 254016 * PI ^ ((7 : ℝ) / 3) + 5 *
    ((-5030016755) * (chi1 + chi2 + chi1 * delta - chi2 * delta) + 4 * (2113331119 * (chi1 + chi2) + 675484362 * (chi1 -
    chi2) * delta) * eta - 1008 * (208433 * (chi1 + chi2) + 25011 * (chi1 - chi2) * delta) * eta2 + 90514368 * (chi1 +
    chi2) * eta3) / 6.096384e6 * PI ^ ((7 : ℝ) / 3) + (-5) * (57 * chi1L2 * (1 + delta - 2 * eta) + 220 * chi1L2L * eta
    - 57 * chi2L2 * (-1 + delta + 2 * eta)) * PI * PI ^ ((7 : ℝ) / 3) + (14585 * (-(chi2L3 * (-1 + delta)) + chi1L3 * (1
    + delta)) - 5 * (chi2L3 * (8819 - 2985 * delta) + 8439 * chi1 * chi2L2 * (-1 + delta) - 8439 * chi1L2 * chi2 * (1 +
    delta) + chi1L3 * (8819 + 2985 * delta)) * eta + 40 * (chi1 + chi2) * (17 * chi1L2 - 14 * chi1L2L + 17 * chi2L2) *
    eta2) / 48 * PI ^ ((7 : ℝ) / 3)
  let phi8 : ℝ := (-5) * (1263141 * (chi1 + chi2 + chi1 * delta - chi2 * delta) - 2 * (794075 * (chi1 + chi2) + 178533
    * (chi1 - chi2) * delta) * eta + 94344 * (chi1 + chi2) * eta2) * PI * (-1 + Real.log PI) / 9072 * PI ^ ((8 : ℝ) / 3)
  let phi8L : ℝ := (-5) * (1263141 * (chi1 + chi2 + chi1 * delta - chi2 * delta) - 2 * (794075 * (chi1 + chi2) +
    178533 * (chi1 - chi2) * delta) * eta + 94344 * (chi1 + chi2) * eta2) * PI / 9072 * PI ^ ((8 : ℝ) / 3)
  ⟨phi0, phi1, phi2, phi3, phi4, phi5, phi5L, phi6, phi6L, phi7, phi8, phi8L⟩

/-- Collocation nodes `CP_phase_Ins0..3` of `get_inspiral_phase`. src/ripplegw/waveforms/IMRPhenomXAS.py:216-231. -/
def inspiral_phase_nodes (theta : Theta) : Fin 4 → ℝ :=
  let gpoints4 : Fin 4 → ℝ := ![0, 1 / 4, 3 / 4, 1]
  let fMs_MECO : ℝ := (get_cutoff_fMs theta.m1 theta.m2 theta.chi1 theta.chi2).fMECO
  let fMs_PhaseInsMin : ℝ := 0.0026
  let fMs_PhaseInsMax : ℝ := 1.020 * fMs_MECO
  let deltax : ℝ := fMs_PhaseInsMax - fMs_PhaseInsMin
  let xmin : ℝ := fMs_PhaseInsMin
  let CP_phase_Ins0 : ℝ := gpoints4 0 * deltax + xmin
  let CP_phase_Ins1 : ℝ := gpoints4 1 * deltax + xmin
  let CP_phase_Ins2 : ℝ := gpoints4 2 * deltax + xmin
  let CP_phase_Ins3 : ℝ := gpoints4 3 * deltax + xmin
  ![CP_phase_Ins0, CP_phase_Ins1, CP_phase_Ins2, CP_phase_Ins3]

/-- Collocation values `CV_phase_Ins0..3` of `get_inspiral_phase`. src/ripplegw/waveforms/IMRPhenomXAS.py:21-36,233-259. -/
def inspiral_phase_values (theta : Theta) (phase_coeffs : Table) : Fin 4 → ℝ :=
  let m1 : ℝ := theta.m1
  let m2 : ℝ := theta.m2
  let chi1 : ℝ := theta.chi1
  let chi2 : ℝ := theta.chi2
  let m1_s : ℝ := m1 * gt
  let m2_s : ℝ := m2 * gt
  let M_s : ℝ := m1_s + m2_s
  let eta : ℝ := m1_s * m2_s / M_s ^ 2
  let delta : ℝ := Real.sqrt (1 - 4 * eta)
  let mm1 : ℝ := 0.5 * (1 + delta)
  let mm2 : ℝ := 0.5 * (1 - delta)
  let chi_eff : ℝ := mm1 * chi1 + mm2 * chi2
  let S : ℝ := (chi_eff - 38 / 113 * eta * (chi1 + chi2)) / (1 - 76 * eta / 113)
  let chia : ℝ := chi1 - chi2
  let CV_phase_Ins0 : ℝ := phaseCV phase_coeffs 0 eta S chia
  let CV_phase_Ins1 : ℝ := phaseCV phase_coeffs 1 eta S chia
  let CV_phase_Ins2 : ℝ := phaseCV phase_coeffs 2 eta S chia
  let CV_phase_Ins3 : ℝ := phaseCV phase_coeffs 3 eta S chia
  let CV_phase_Ins0 : ℝ := CV_phase_Ins0 + CV_phase_Ins2
  let CV_phase_Ins1 : ℝ := CV_phase_Ins1 + CV_phase_Ins2
  let CV_phase_Ins3 : ℝ := CV_phase_Ins3 + CV_phase_Ins2
  ![CV_phase_Ins0, CV_phase_Ins1, CV_phase_Ins2, CV_phase_Ins3]

/-- Matrix `A` of `get_inspiral_phase`. src/ripplegw/waveforms/IMRPhenomXAS.py:261-294. -/
def inspiral_phase_matrix (CP : Fin 4 → ℝ) : Matrix (Fin 4) (Fin 4) ℝ :=
  !![1, CP 0 ^ ((1 : ℝ) / 3), CP 0 ^ ((2 : ℝ) / 3), CP 0;
     1, CP 1 ^ ((1 : ℝ) / 3), CP 1 ^ ((2 : ℝ) / 3), CP 1;
     1, CP 2 ^ ((1 : ℝ) / 3), CP 2 ^ ((2 : ℝ) / 3), CP 2;
     1, CP 3 ^ ((1 : ℝ) / 3), CP 3 ^ ((2 : ℝ) / 3), CP 3]

/-- `coeffs_Ins` of `get_inspiral_phase`. src/ripplegw/waveforms/IMRPhenomXAS.py:295-304. -/
def inspiral_phase_coeffs (theta : Theta) (phase_coeffs : Table) : Fin 4 → ℝ :=
  Jnp.solve (inspiral_phase_matrix (inspiral_phase_nodes theta)) (inspiral_phase_values theta phase_coeffs)

/-- `get_inspiral_phase`. src/ripplegw/waveforms/IMRPhenomXAS.py:17-334. -/
def get_inspiral_phase (fM_s : ℝ) (theta : Theta) (phase_coeffs : Table) : ℝ :=
  let p := inspiral_phase_PN theta
  let coeffs_Ins := inspiral_phase_coeffs theta phase_coeffs
  let sigma1 : ℝ := (-5) / 3 * coeffs_Ins 0
  let sigma2 : ℝ := (-5) / 4 * coeffs_Ins 1
  let sigma3 : ℝ := (-5) / 5 * coeffs_Ins 2
  let sigma4 : ℝ := (-5) / 6 * coeffs_Ins 3
  let phi_TF2 : ℝ := p.phi0 + p.phi1 * fM_s ^ ((1 : ℝ) / 3) + p.phi2 * fM_s ^ ((2 : ℝ) / 3) + p.phi3 * fM_s + p.phi4 * fM_s ^
    ((4 : ℝ) / 3) + p.phi5 * fM_s ^ ((5 : ℝ) / 3) + p.phi5L * fM_s ^ ((5 : ℝ) / 3) * Real.log fM_s + p.phi6 * fM_s ^ 2 + p.phi6L
    * fM_s ^ 2 * Real.log fM_s + p.phi7 * fM_s ^ ((7 : ℝ) / 3) + p.phi8 * fM_s ^ ((8 : ℝ) / 3) + p.phi8L * fM_s ^ ((8 : ℝ) /
    3) * Real.log fM_s
  let phi_Ins : ℝ := phi_TF2 + (sigma1 * fM_s ^ ((8 : ℝ) / 3) + sigma2 * fM_s ^ 3 + sigma3 * fM_s ^ ((10 : ℝ) / 3) +
    sigma4 * fM_s ^ ((11 : ℝ) / 3))
  let phiN : ℝ := (-(3 * PI ^ (-((5 : ℝ) / 3)))) / 128
  phi_Ins * phiN * fM_s ^ (-((5 : ℝ) / 3))

/-- Collocation nodes `CP_phase_Int0..4` of `get_intermediate_raw_phase`. src/ripplegw/waveforms/IMRPhenomXAS.py:352-379. -/
def intermediate_phase_nodes (theta : Theta) : Fin 5 → ℝ :=
  let c := get_cutoff_fMs theta.m1 theta.m2 theta.chi1 theta.chi2
  let fMs_RD : ℝ := c.fRD
  let fMs_MECO : ℝ := c.fMECO
  let fMs_ISCO : ℝ := c.fISCO
  let gpoints5 : Fin 5 → ℝ := ![0, 1 / 2 - 1 / (2 * Real.sqrt 2), 1 / 2, 1 / 2 + 1 / (2 * Real.sqrt 2), 1]
  let fMs_IMmatch : ℝ := 0.6 * (0.5 * fMs_RD + fMs_ISCO)
  let fMs_INmatch : ℝ := fMs_MECO
  let deltafMs : ℝ := (fMs_IMmatch - fMs_INmatch) * 0.03
  let fMs_PhaseMatchIN : ℝ := fMs_INmatch - 1 * deltafMs
  let fPhaseMatchIM : ℝ := fMs_IMmatch + 0.5 * deltafMs
  let deltax : ℝ := fPhaseMatchIM - fMs_PhaseMatchIN
  let xmin : ℝ := fMs_PhaseMatchIN
  let CP_phase_Int0 : ℝ := gpoints5 0 * deltax + xmin
  let CP_phase_Int1 : ℝ := gpoints5 1 * deltax + xmin
  let CP_phase_Int2 : ℝ := gpoints5 2 * deltax + xmin
  let CP_phase_Int3 : ℝ := gpoints5 3 * deltax + xmin
  let CP_phase_Int4 : ℝ := gpoints5 4 * deltax + xmin
  ![CP_phase_Int0, CP_phase_Int1, CP_phase_Int2, CP_phase_Int3, CP_phase_Int4]

/-- Collocation values `CV_phase_Int0..4` of `get_intermediate_raw_phase`. src/ripplegw/waveforms/IMRPhenomXAS.py:340-350,381-437. -/
def intermediate_phase_values (theta : Theta) (phase_coeffs : Table) (dPhaseIN dPhaseRD : ℝ) : Fin 5 → ℝ :=
  let m1 : ℝ := theta.m1
  let m2 : ℝ := theta.m2
  let chi1 : ℝ := theta.chi1
  let chi2 : ℝ := theta.chi2
  let m1_s : ℝ := m1 * gt
  let m2_s : ℝ := m2 * gt
  let M_s : ℝ := m1_s + m2_s
  let eta : ℝ := m1_s * m2_s / M_s ^ 2
  let delta : ℝ := Real.sqrt (1 - 4 * eta)
  let mm1 : ℝ := 0.5 * (1 + delta)
  let mm2 : ℝ := 0.5 * (1 - delta)
  let StotR : ℝ := (mm1 ^ 2 * chi1 + mm2 ^ 2 * chi2) / (mm1 ^ 2 + mm2 ^ 2)
  let chia : ℝ := chi1 - chi2
  let CV_phase_Int0 : ℝ := dPhaseIN
  let CV_phase_Int4 : ℝ := dPhaseRD
  let v2IMmRDv4 : ℝ := phaseCV phase_coeffs 4 eta StotR chia
  let v3IMmRDv4 : ℝ := phaseCV phase_coeffs 5 eta StotR chia
  let v2IM : ℝ := phaseCV phase_coeffs 6 eta StotR chia
  let d43 : ℝ := phaseCV phase_coeffs 7 eta StotR chia
  let CV_phase_RD3 : ℝ := phaseCV phase_coeffs 11 eta StotR chia
  let CV_phase_Int1 : ℝ := 0.75 * (v2IMmRDv4 + CV_phase_RD3) + 0.25 * v2IM
  let CV_phase_Int2 : ℝ := v3IMmRDv4 + CV_phase_RD3
  let CV_phase_Int3 : ℝ := d43 + CV_phase_Int2
  ![CV_phase_Int0, CV_phase_Int1, CV_phase_Int2, CV_phase_Int3, CV_phase_Int4]

/-- Matrix `A` of `get_intermediate_raw_phase`. src/ripplegw/waveforms/IMRPhenomXAS.py:439-485. -/
def intermediate_phase_matrix (CP : Fin 5 → ℝ) (fMs_RD : ℝ) : Matrix (Fin 5) (Fin 5) ℝ :=
  !![1, fMs_RD / CP 0, fMs_RD / CP 0 * (fMs_RD / CP 0), (fMs_RD / CP 0) ^ 3, (fMs_RD / CP 0) ^ 4;
     1, fMs_RD / CP 1, fMs_RD / CP 1 * (fMs_RD / CP 1), (fMs_RD / CP 1) ^ 3, (fMs_RD / CP 1) ^ 4;
     1, fMs_RD / CP 2, fMs_RD / CP 2 * (fMs_RD / CP 2), (fMs_RD / CP 2) ^ 3, (fMs_RD / CP 2) ^ 4;
     1, fMs_RD / CP 3, fMs_RD / CP 3 * (fMs_RD / CP 3), (fMs_RD / CP 3) ^ 3, (fMs_RD / CP 3) ^ 4;
     1, fMs_RD / CP 4, fMs_RD / CP 4 * (fMs_RD / CP 4), (fMs_RD / CP 4) ^ 3, (fMs_RD / CP 4) ^ 4]

/-- `coeffs_Int` of `get_intermediate_raw_phase`. src/ripplegw/waveforms/IMRPhenomXAS.py:486-531. -/
def intermediate_phase_coeffs (theta : Theta) (phase_coeffs : Table) (dPhaseIN dPhaseRD cL : ℝ) : Fin 5 → ℝ :=
  let c := get_cutoff_fMs theta.m1 theta.m2 theta.chi1 theta.chi2
  let fMs_RD : ℝ := c.fRD
  let fMs_damp : ℝ := c.fdamp
  let CP := intermediate_phase_nodes theta
  let CV := intermediate_phase_values theta phase_coeffs dPhaseIN dPhaseRD
  let b : Fin 5 → ℝ :=
    ![CV 0 - 4 * cL / (4 * fMs_damp * fMs_damp + (CP 0 - fMs_RD) * (CP 0 - fMs_RD)),
      CV 1 - 4 * cL / (4 * fMs_damp * fMs_damp + (CP 1 - fMs_RD) * (CP 1 - fMs_RD)),
      CV 2 - 4 * cL / (4 * fMs_damp * fMs_damp + (CP 2 - fMs_RD) * (CP 2 - fMs_RD)),
      CV 3 - 4 * cL / (4 * fMs_damp * fMs_damp + (CP 3 - fMs_RD) * (CP 3 - fMs_RD)),
      CV 4 - 4 * cL / (4 * fMs_damp * fMs_damp + (CP 4 - fMs_RD) * (CP 4 - fMs_RD))]
  Jnp.solve (intermediate_phase_matrix CP fMs_RD) b

/-- `get_intermediate_raw_phase`. src/ripplegw/waveforms/IMRPhenomXAS.py:337-546. -/
def get_intermediate_raw_phase (fM_s : ℝ) (theta : Theta) (phase_coeffs : Table) (dPhaseIN dPhaseRD cL : ℝ) : ℝ :=
  let c := get_cutoff_fMs theta.m1 theta.m2 theta.chi1 theta.chi2
  let fMs_RD : ℝ := c.fRD
  let fMs_damp : ℝ := c.fdamp
  let coeffs_Int := intermediate_phase_coeffs theta phase_coeffs dPhaseIN dPhaseRD cL
  let b0 : ℝ := coeffs_Int 0
  let b1 : ℝ := coeffs_Int 1 * fMs_RD
  let b2 : ℝ := coeffs_Int 2 * fMs_RD ^ 2
  let b3 : ℝ := coeffs_Int 3 * fMs_RD ^ 3
  let b4 : ℝ := coeffs_Int 4 * fMs_RD ^ 4
  b0 * fM_s + b1 * Real.log fM_s - b2 * fM_s ^ (-1 : ℤ) - b3 * fM_s ^ (-2 : ℤ) / 2 - b4 * fM_s ^ (-3 : ℤ) / 3 + 2 * cL
    * Real.arctan ((fM_s - fMs_RD) / (2 * fMs_damp)) / fMs_damp

/-- `dphase0` of `get_mergerringdown_raw_phase`. src/ripplegw/waveforms/IMRPhenomXAS.py:569. -/
def dphase0 : ℝ := 5 / (128 * PI ^ ((5 : ℝ) / 3))

/-- Collocation nodes `CP_phase_RD0..4` of `get_mergerringdown_raw_phase`. src/ripplegw/waveforms/IMRPhenomXAS.py:565-590. -/
def ringdown_phase_nodes (theta : Theta) : Fin 5 → ℝ :=
  let c := get_cutoff_fMs theta.m1 theta.m2 theta.chi1 theta.chi2
  let fMs_RD : ℝ := c.fRD
  let fMs_damp : ℝ := c.fdamp
  let fMs_ISCO : ℝ := c.fISCO
  let fMs_IMmatch : ℝ := 0.6 * (0.5 * fMs_RD + fMs_ISCO)
  let fMs_PhaseRDMin : ℝ := fMs_IMmatch
  let fMs_PhaseRDMax : ℝ := fMs_RD + 1.25 * fMs_damp
  let gpoints5 : Fin 5 → ℝ := ![0, 1 / 2 - 1 / (2 * Real.sqrt 2), 1 / 2, 1 / 2 + 1 / (2 * Real.sqrt 2), 1]
  let deltax : ℝ := fMs_PhaseRDMax - fMs_PhaseRDMin
  let xmin : ℝ := fMs_PhaseRDMin
  let CP_phase_RD0 : ℝ := gpoints5 0 * deltax + xmin
  let CP_phase_RD1 : ℝ := gpoints5 1 * deltax + xmin
  let CP_phase_RD2 : ℝ := gpoints5 2 * deltax + xmin
  let CP_phase_RD3 : ℝ := fMs_RD
  let CP_phase_RD4 : ℝ := gpoints5 4 * deltax + xmin
  ![CP_phase_RD0, CP_phase_RD1, CP_phase_RD2, CP_phase_RD3, CP_phase_RD4]

/-- Collocation values `CV_phase_RD0..4` of `get_mergerringdown_raw_phase`. src/ripplegw/waveforms/IMRPhenomXAS.py:552-563,592-641. -/
def ringdown_phase_values (theta : Theta) (phase_coeffs : Table) : Fin 5 → ℝ :=
  let m1 : ℝ := theta.m1
  let m2 : ℝ := theta.m2
  let chi1 : ℝ := theta.chi1
  let chi2 : ℝ := theta.chi2
  let m1_s : ℝ := m1 * gt
  let m2_s : ℝ := m2 * gt
  let M_s : ℝ := m1_s + m2_s
  let eta : ℝ := m1_s * m2_s / M_s ^ 2
  let delta : ℝ := Real.sqrt (1 - 4 * eta)
  let mm1 : ℝ := 0.5 * (1 + delta)
  let mm2 : ℝ := 0.5 * (1 - delta)
  let chia : ℝ := chi1 - chi2
  let StotR : ℝ := (mm1 ^ 2 * chi1 + mm2 ^ 2 * chi2) / (mm1 ^ 2 + mm2 ^ 2)
  let CV_phase_RD0 : ℝ := phaseCV phase_coeffs 8 eta StotR chia
  let CV_phase_RD1 : ℝ := phaseCV phase_coeffs 9 eta StotR chia
  let CV_phase_RD2 : ℝ := phaseCV phase_coeffs 10 eta StotR chia
  let CV_phase_RD3 : ℝ := phaseCV phase_coeffs 11 eta StotR chia
  let CV_phase_RD4 : ℝ := phaseCV phase_coeffs 12 eta StotR chia
  let CV_phase_RD4 : ℝ := CV_phase_RD4 + CV_phase_RD3
  let CV_phase_RD2 : ℝ := CV_phase_RD2 + CV_phase_RD3
  let CV_phase_RD1 : ℝ := CV_phase_RD1 + CV_phase_RD3
  let CV_phase_RD0 : ℝ := CV_phase_RD0 + CV_phase_RD1
  ![CV_phase_RD0, CV_phase_RD1, CV_phase_RD2, CV_phase_RD3, CV_phase_RD4]

/-- Matrix `A` of `get_mergerringdown_raw_phase`. src/ripplegw/waveforms/IMRPhenomXAS.py:643-694. -/
def ringdown_phase_matrix (CP : Fin 5 → ℝ) (fMs_RD fMs_damp : ℝ) : Matrix (Fin 5) (Fin 5) ℝ :=
  !![1, CP 0 ^ (-((1 : ℝ) / 3)), CP 0 ^ (-2 : ℤ), CP 0 ^ (-4 : ℤ),
       -dphase0 / (fMs_damp * fMs_damp + (CP 0 - fMs_RD) * (CP 0 - fMs_RD));
     1, CP 1 ^ (-((1 : ℝ) / 3)), CP 1 ^ (-2 : ℤ), CP 1 ^ (-4 : ℤ),
       -dphase0 / (fMs_damp * fMs_damp + (CP 1 - fMs_RD) * (CP 1 - fMs_RD));
     1, CP 2 ^ (-((1 : ℝ) / 3)), CP 2 ^ (-2 : ℤ), CP 2 ^ (-4 : ℤ),
       -dphase0 / (fMs_damp * fMs_damp + (CP 2 - fMs_RD) * (CP 2 - fMs_RD));
     1, CP 3 ^ (-((1 : ℝ) / 3)), CP 3 ^ (-2 : ℤ), CP 3 ^ (-4 : ℤ),
       -dphase0 / (fMs_damp * fMs_damp + (CP 3 - fMs_RD) * (CP 3 - fMs_RD));
     1, CP 4 ^ (-((1 : ℝ) / 3)), CP 4 ^ (-2 : ℤ), CP 4 ^ (-4 : ℤ),
       -dphase0 / (fMs_damp * fMs_damp + (CP 4 - fMs_RD) * (CP 4 - fMs_RD))]

/-- `coeffs_RD` of `get_mergerringdown_raw_phase`. src/ripplegw/waveforms/IMRPhenomXAS.py:695-705. -/
def ringdown_phase_coeffs (theta : Theta) (phase_coeffs : Table) : Fin 5 → ℝ :=
  let c := get_cutoff_fMs theta.m1 theta.m2 theta.chi1 theta.chi2
  Jnp.solve (ringdown_phase_matrix (ringdown_phase_nodes theta) c.fRD c.fdamp) (ringdown_phase_values theta phase_coeffs)

/-- `get_mergerringdown_raw_phase`; returns `(phiRD, (cL, CV_phase_RD0))`. src/ripplegw/waveforms/IMRPhenomXAS.py:549-719. -/
def get_mergerringdown_raw_phase (fM_s : ℝ) (theta : Theta) (phase_coeffs : Table) : ℝ × (ℝ × ℝ) :=
  let cut := get_cutoff_fMs theta.m1 theta.m2 theta.chi1 theta.chi2
  let fMs_RD : ℝ := cut.fRD
  let fMs_damp : ℝ := cut.fdamp
  let coeffs_RD := ringdown_phase_coeffs theta phase_coeffs
  let CV_phase_RD0 : ℝ := ringdown_phase_values theta phase_coeffs 0
  let c0 : ℝ := coeffs_RD 0
  let c1 : ℝ := coeffs_RD 1
  let c2 : ℝ := coeffs_RD 2
  let c4 : ℝ := coeffs_RD 3
  let cRD : ℝ := coeffs_RD 4
  let cL : ℝ := -(dphase0 * cRD)
  let c4ov3 : ℝ := c4 / 3
  let cLovfda : ℝ := cL / fMs_damp
  let phiRD : ℝ := c0 * fM_s + 1.5 * c1 * fM_s ^ ((2 : ℝ) / 3) - c2 * fM_s ^ (-1 : ℤ) - c4ov3 * fM_s ^ (-3 : ℤ) +
    cLovfda * Real.arctan ((fM_s - fMs_RD) / fMs_damp)
  (phiRD, (cL, CV_phase_RD0))

/-- `Phase` (elementwise). src/ripplegw/waveforms/IMRPhenomXAS.py:723-797. `jax.value_and_grad` of the raw phases is `deriv`. -/
def Phase (f : ℝ) (theta : Theta) (phase_coeffs : Table) : ℝ :=
  let m1 : ℝ := theta.m1
  let m2 : ℝ := theta.m2
  let chi1 : ℝ := theta.chi1
  let chi2 : ℝ := theta.chi2
  let m1_s : ℝ := m1 * gt
  let m2_s : ℝ := m2 * gt
  let M_s : ℝ := m1_s + m2_s
  let eta : ℝ := m1_s * m2_s / M_s ^ 2
  let fM_s : ℝ := f * M_s
  let c := get_cutoff_fMs m1 m2 chi1 chi2
  let fMs_RD : ℝ := c.fRD
  let fMs_MECO : ℝ := c.fMECO
  let fMs_ISCO : ℝ := c.fISCO
  let fMs_IMmatch : ℝ := 0.6 * (0.5 * fMs_RD + fMs_ISCO)
  let fMs_INmatch : ℝ := fMs_MECO
  let deltafMs : ℝ := (fMs_IMmatch - fMs_INmatch) * 0.03
  let f1_Ms : ℝ := fMs_INmatch - 1 * deltafMs
  let f2_Ms : ℝ := fMs_IMmatch + 0.5 * deltafMs
  let phi_Ins : ℝ := get_inspiral_phase fM_s theta phase_coeffs
  let mrd := get_mergerringdown_raw_phase fM_s theta phase_coeffs
  let phi_MRD : ℝ := mrd.1
  let cL : ℝ := mrd.2.1
  let CV_phase_RD0 : ℝ := mrd.2.2
  let phi_Ins_match_f1 : ℝ := get_inspiral_phase f1_Ms theta phase_coeffs
  let dphi_Ins_match_f1 : ℝ := deriv (fun x => get_inspiral_phase x theta phase_coeffs) f1_Ms
  let dphi_MRD_match_f2 : ℝ := deriv (fun x => (get_mergerringdown_raw_phase x theta phase_coeffs).1) f2_Ms
  let phi_MRD_match_f2 : ℝ := (get_mergerringdown_raw_phase f2_Ms theta phase_coeffs).1
  let phi_Int_match_f1 : ℝ := get_intermediate_raw_phase f1_Ms theta phase_coeffs dphi_Ins_match_f1 CV_phase_RD0 cL
  let dphi_Int_match_f1 : ℝ :=
    deriv (fun x => get_intermediate_raw_phase x theta phase_coeffs dphi_Ins_match_f1 CV_phase_RD0 cL) f1_Ms
  let alpha1 : ℝ := dphi_Ins_match_f1 - dphi_Int_match_f1
  let alpha0 : ℝ := phi_Ins_match_f1 - phi_Int_match_f1 - alpha1 * f1_Ms
  let phi_Int_func : ℝ → ℝ := fun fM_s_ =>
    get_intermediate_raw_phase fM_s_ theta phase_coeffs dphi_Ins_match_f1 CV_phase_RD0 cL + alpha1 * fM_s_ + alpha0
  let phi_Int_match_f2 : ℝ := phi_Int_func f2_Ms
  let dphi_Int_match_f2 : ℝ := deriv phi_Int_func f2_Ms
  let beta1 : ℝ := dphi_Int_match_f2 - dphi_MRD_match_f2
  let beta0 : ℝ := phi_Int_match_f2 - phi_MRD_match_f2 - beta1 * f2_Ms
  let phi_Int_corrected : ℝ := phi_Int_func fM_s
  let phi_MRD_corrected : ℝ := phi_MRD + beta0 + beta1 * fM_s
  1 / eta * (phi_Ins * Jnp.heaviside (f1_Ms - fM_s) 0.5
    + Jnp.heaviside (fM_s - f1_Ms) 0.5 * phi_Int_corrected * Jnp.heaviside (f2_Ms - fM_s) 0.5
    + phi_MRD_corrected * Jnp.heaviside (fM_s - f2_Ms) 0.5 * Jnp.heaviside (fM_CUT - fM_s) 0.5)

/-- `get_Amp0` (not called by the generator). src/ripplegw/waveforms/IMRPhenomXAS.py:800-804. -/
def get_Amp0 (fM_s eta : ℝ) : ℝ :=
  (2 / 3 * eta) ^ ((1 : ℝ) / 2) * fM_s ^ (-((7 : ℝ) / 6)) * PI ^ (-((1 : ℝ) / 6))

/-- the post-Newtonian amplitude coefficients of `get_inspiral_Amp` -/
structure AmpPN where
  A0 : ℝ
  A2 : ℝ
  A3 : ℝ
  A4 : ℝ
  A5 : ℝ
  A6 : ℝ

/-- Post-Newtonian coefficients of `get_inspiral_Amp`. src/ripplegw/waveforms/IMRPhenomXAS.py:808-814,826-913. -/
def inspiral_Amp_PN (theta : Theta) : AmpPN :=
  let m1 : ℝ := theta.m1
  let m2 : ℝ := theta.m2
  let chi1 : ℝ := theta.chi1
  let chi2 : ℝ := theta.chi2
  let m1_s : ℝ := m1 * gt
  let m2_s : ℝ := m2 * gt
  let M_s : ℝ := m1_s + m2_s
  let eta : ℝ := m1_s * m2_s / M_s ^ 2
  let eta2 : ℝ := eta * eta
  let delta : ℝ := Real.sqrt (1 - 4 * eta)
  let A0 : ℝ := 1
  let A2 : ℝ := (-969 + 1804 * eta) / 672 * PI ^ ((2 : ℝ) / 3)
  let A3 : ℝ := (81 * (chi1 + chi2) + 81 * chi1 * delta - 81 * chi2 * delta - 44 * (chi1 + chi2) * eta) / 48 * PI
  let A4 : ℝ := (-27312085 - 10287648 * chi1 ^ 2 * (1 + delta) + 24 * (428652 * chi2 ^ 2 * (-1 + delta) + (-1975055 +
    10584 * (81 * chi1 ^ 2 - 94 * chi1 * chi2 + 81 * chi2 ^ 2)) * eta + 1473794 * eta2)) / 8.128512e6 * PI ^ ((4 : ℝ) /
    3)
  let A5 : ℝ := ((-6048) * chi1 ^ 2 * chi1 * (-1 - delta + (3 + delta) * eta) + chi2 * (-((287213 + 6048 * chi2 ^ 2) *
    (-1 + delta)) + 4 * (-93414 + 1512 * chi2 ^ 2 * (-3 + delta) + 2083 * delta) * eta - 35632 * eta2) + chi1 * (287213
    * (1 + delta) - 4 * eta * (93414 + 2083 * delta + 8908 * eta)) + 42840 * (-1 + 4 * eta) * PI) / 32256 * PI ^ ((5 :
    ℝ) / 3)
  let A6 : ℝ := (-1242641879927 + 12 * (28 * (-3248849057 + 11088 * (163199 * chi1 ^ 2 - 266498 * chi1 * chi2 + 163199
    * chi2 ^ 2)) * eta2 + 27026893936 * eta2 * eta - 116424 * (147117 * (-(chi2 ^ 2 * (-1 + delta)) + chi1 ^ 2 * (1 +
    delta)) + 60928 * (chi1 + chi2 + chi1 * delta - chi2 * delta) * PI) + eta * (545384828789 - 77616 * (638642 * chi1 *
    chi2 + chi1 ^ 2 * (-158633 + 282718 * delta) - chi2 ^ 2 * (158633 + 282718 * delta) - 107520 * (chi1 + chi2) * PI +
    275520 * PI ^ 2)))) / 6.0085960704e10 * PI ^ 2
  ⟨A0, A2, A3, A4, A5, A6⟩

/-- `fMs_AmpMatchIN`, end of the inspiral amplitude region; the same expression at
    src/ripplegw/waveforms/IMRPhenomXAS.py:822-824,1031-1033,1292-1297. -/
def ampMatchIN (theta : Theta) : ℝ :=
  let c := get_cutoff_fMs theta.m1 theta.m2 theta.chi1 theta.chi2
  let fMs_MECO : ℝ := c.fMECO
  let fMs_ISCO : ℝ := c.fISCO
  let fMs_AmpInsMax : ℝ := fMs_MECO + 0.25 * (fMs_ISCO - fMs_MECO)
  fMs_AmpInsMax

/-- Collocation nodes `CP_Amp_Ins0..2` of `get_inspiral_Amp`. src/ripplegw/waveforms/IMRPhenomXAS.py:945-947. -/
def inspiral_Amp_nodes (theta : Theta) : Fin 3 → ℝ :=
  let fMs_AmpMatchIN : ℝ := ampMatchIN theta
  let CP_Amp_Ins0 : ℝ := 0.50 * fMs_AmpMatchIN
  let CP_Amp_Ins1 : ℝ := 0.75 * fMs_AmpMatchIN
  let CP_Amp_Ins2 : ℝ := 1 * fMs_AmpMatchIN
  ![CP_Amp_Ins0, CP_Amp_Ins1, CP_Amp_Ins2]

/-- Collocation values `CV_Amp_Ins0..2` of `get_inspiral_Amp`. src/ripplegw/waveforms/IMRPhenomXAS.py:808-820,917-943. -/
def inspiral_Amp_values (theta : Theta) (amp_coeffs : Table) : Fin 3 → ℝ :=
  let m1 : ℝ := theta.m1
  let m2 : ℝ := theta.m2
  let chi1 : ℝ := theta.chi1
  let chi2 : ℝ := theta.chi2
  let m1_s : ℝ := m1 * gt
  let m2_s : ℝ := m2 * gt
  let M_s : ℝ := m1_s + m2_s
  let eta : ℝ := m1_s * m2_s / M_s ^ 2
  let delta : ℝ := Real.sqrt (1 - 4 * eta)
  let mm1 : ℝ := 0.5 * (1 + delta)
  let mm2 : ℝ := 0.5 * (1 - delta)
  let chi_eff : ℝ := mm1 * chi1 + mm2 * chi2
  let S : ℝ := (chi_eff - 38 / 113 * eta * (chi1 + chi2)) / (1 - 76 * eta / 113)
  let chia : ℝ := chi1 - chi2
  ![ampCV amp_coeffs 0 eta S chia, ampCV amp_coeffs 1 eta S chia, ampCV amp_coeffs 2 eta S chia]

/-- `rho1`, `rho2`, `rho3` of `get_inspiral_Amp`. src/ripplegw/waveforms/IMRPhenomXAS.py:949-993. -/
def inspiral_Amp_rho (CP CV : Fin 3 → ℝ) : Fin 3 → ℝ :=
  let CP_Amp_Ins0 : ℝ := CP 0
  let CP_Amp_Ins1 : ℝ := CP 1
  let CP_Amp_Ins2 : ℝ := CP 2
  let CV_Amp_Ins0 : ℝ := CV 0
  let CV_Amp_Ins1 : ℝ := CV 1
  let CV_Amp_Ins2 : ℝ := CV 2
  let rho1 : ℝ := (-(CP_Amp_Ins1 ^ ((8 : ℝ) / 3) * CP_Amp_Ins2 ^ 3 * CV_Amp_Ins0) + CP_Amp_Ins1 ^ 3 * CP_Amp_Ins2 ^
    ((8 : ℝ) / 3) * CV_Amp_Ins0 + CP_Amp_Ins0 ^ ((8 : ℝ) / 3) * CP_Amp_Ins2 ^ 3 * CV_Amp_Ins1 - CP_Amp_Ins0 ^ 3 *
    CP_Amp_Ins2 ^ ((8 : ℝ) / 3) * CV_Amp_Ins1 - CP_Amp_Ins0 ^ ((8 : ℝ) / 3) * CP_Amp_Ins1 ^ 3 * CV_Amp_Ins2 +
    CP_Amp_Ins0 ^ 3 * CP_Amp_Ins1 ^ ((8 : ℝ) / 3) * CV_Amp_Ins2) / (CP_Amp_Ins0 ^ ((7 : ℝ) / 3) * (Jnp.cbrt CP_Amp_Ins0
    - Jnp.cbrt CP_Amp_Ins1) * CP_Amp_Ins1 ^ ((7 : ℝ) / 3) * (Jnp.cbrt CP_Amp_Ins0 - Jnp.cbrt CP_Amp_Ins2) * (Jnp.cbrt
    CP_Amp_Ins1 - Jnp.cbrt CP_Amp_Ins2) * CP_Amp_Ins2 ^ ((7 : ℝ) / 3))
  let rho2 : ℝ := (CP_Amp_Ins1 ^ ((7 : ℝ) / 3) * CP_Amp_Ins2 ^ 3 * CV_Amp_Ins0 - CP_Amp_Ins1 ^ 3 * CP_Amp_Ins2 ^ ((7 :
    ℝ) / 3) * CV_Amp_Ins0 - CP_Amp_Ins0 ^ ((7 : ℝ) / 3) * CP_Amp_Ins2 ^ 3 * CV_Amp_Ins1 + CP_Amp_Ins0 ^ 3 * CP_Amp_Ins2
    ^ ((7 : ℝ) / 3) * CV_Amp_Ins1 + CP_Amp_Ins0 ^ ((7 : ℝ) / 3) * CP_Amp_Ins1 ^ 3 * CV_Amp_Ins2 - CP_Amp_Ins0 ^ 3 *
    CP_Amp_Ins1 ^ ((7 : ℝ) / 3) * CV_Amp_Ins2) / (CP_Amp_Ins0 ^ ((7 : ℝ) / 3) * (Jnp.cbrt CP_Amp_Ins0 - Jnp.cbrt
    CP_Amp_Ins1) * CP_Amp_Ins1 ^ ((7 : ℝ) / 3) * (Jnp.cbrt CP_Amp_Ins0 - Jnp.cbrt CP_Amp_Ins2) * (Jnp.cbrt CP_Amp_Ins1 -
    Jnp.cbrt CP_Amp_Ins2) * CP_Amp_Ins2 ^ ((7 : ℝ) / 3))
  let rho3 : ℝ := (CP_Amp_Ins1 ^ ((8 : ℝ) / 3) * CP_Amp_Ins2 ^ ((7 : ℝ) / 3) * CV_Amp_Ins0 - CP_Amp_Ins1 ^ ((7 : ℝ) /
    3) * CP_Amp_Ins2 ^ ((8 : ℝ) / 3) * CV_Amp_Ins0 - CP_Amp_Ins0 ^ ((8 : ℝ) / 3) * CP_Amp_Ins2 ^ ((7 : ℝ) / 3) *
    CV_Amp_Ins1 + CP_Amp_Ins0 ^ ((7 : ℝ) / 3) * CP_Amp_Ins2 ^ ((8 : ℝ) / 3) * CV_Amp_Ins1 + CP_Amp_Ins0 ^ ((8 : ℝ) / 3)
    * CP_Amp_Ins1 ^ ((7 : ℝ) / 3) * CV_Amp_Ins2 - CP_Amp_Ins0 ^ ((7 : ℝ) / 3) * CP_Amp_Ins1 ^ ((8 : ℝ) / 3) *
    CV_Amp_Ins2) / (CP_Amp_Ins0 ^ ((7 : ℝ) / 3) * (Jnp.cbrt CP_Amp_Ins0 - Jnp.cbrt CP_Amp_Ins1) * CP_Amp_Ins1 ^ ((7 : ℝ)
    / 3) * (Jnp.cbrt CP_Amp_Ins0 - Jnp.cbrt CP_Amp_Ins2) * (Jnp.cbrt CP_Amp_Ins1 - Jnp.cbrt CP_Amp_Ins2) * CP_Amp_Ins2 ^
    ((7 : ℝ) / 3))
  ![rho1, rho2, rho3]

/-- `get_inspiral_Amp`. src/ripplegw/waveforms/IMRPhenomXAS.py:807-1009. -/
def get_inspiral_Amp (fM_s : ℝ) (theta : Theta) (amp_coeffs : Table) : ℝ :=
  let p := inspiral_Amp_PN theta
  let rho := inspiral_Amp_rho (inspiral_Amp_nodes theta) (inspiral_Amp_values theta amp_coeffs)
  p.A0 + p.A2 * fM_s ^ ((2 : ℝ) / 3) + p.A3 * fM_s + p.A4 * fM_s ^ ((4 : ℝ) / 3) + p.A5 * fM_s ^ ((5 : ℝ) / 3) + p.A6 * fM_s ^ 2 +
    rho 0 * fM_s ^ ((7 : ℝ) / 3) + rho 1 * fM_s ^ ((8 : ℝ) / 3) + rho 2 * fM_s ^ 3

/-- `gamma2`, `gamma3`, `v1RD` of `get_mergerringdown_Amp`. src/ripplegw/waveforms/IMRPhenomXAS.py:1210-1241,1250-1258. -/
def ringdown_Amp_fits (theta : Theta) (amp_coeffs : Table) : ℝ × ℝ × ℝ :=
  let m1 : ℝ := theta.m1
  let m2 : ℝ := theta.m2
  let chi1 : ℝ := theta.chi1
  let chi2 : ℝ := theta.chi2
  let m1_s : ℝ := m1 * gt
  let m2_s : ℝ := m2 * gt
  let M_s : ℝ := m1_s + m2_s
  let eta : ℝ := m1_s * m2_s / M_s ^ 2
  let delta : ℝ := Real.sqrt (1 - 4 * eta)
  let mm1 : ℝ := 0.5 * (1 + delta)
  let mm2 : ℝ := 0.5 * (1 - delta)
  let StotR : ℝ := (mm1 ^ 2 * chi1 + mm2 ^ 2 * chi2) / (mm1 ^ 2 + mm2 ^ 2)
  let chia : ℝ := chi1 - chi2
  (ampCV amp_coeffs 4 eta StotR chia, ampCV amp_coeffs 5 eta StotR chia, ampCV amp_coeffs 6 eta StotR chia)

open Classical in
/-- `fMs_AmpRDMin` of `get_mergerringdown_Amp`. src/ripplegw/waveforms/IMRPhenomXAS.py:1242-1249. -/
def ampRDMin (fMs_RD fMs_damp gamma2 gamma3 : ℝ) : ℝ :=
  if gamma2 ≤ 1 then |fMs_RD + fMs_damp * gamma3 * (Real.sqrt (1 - gamma2 * gamma2) - 1) / gamma2|
  else |fMs_RD + fMs_damp * (-1) * gamma3 / gamma2|

/-- `get_mergerringdown_Amp`; returns `(Amp_RD, fMs_AmpRDMin)`. src/ripplegw/waveforms/IMRPhenomXAS.py:1205-1281. -/
def get_mergerringdown_Amp (fM_s : ℝ) (theta : Theta) (amp_coeffs : Table) : ℝ × ℝ :=
  let c := get_cutoff_fMs theta.m1 theta.m2 theta.chi1 theta.chi2
  let fMs_RD : ℝ := c.fRD
  let fMs_damp : ℝ := c.fdamp
  let fits := ringdown_Amp_fits theta amp_coeffs
  let gamma2 : ℝ := fits.1
  let gamma3 : ℝ := fits.2.1
  let fMs_AmpRDMin : ℝ := ampRDMin fMs_RD fMs_damp gamma2 gamma3
  let v1RD : ℝ := fits.2.2
  let FMs1 : ℝ := fMs_AmpRDMin
  let gamma1 : ℝ := v1RD / (fMs_damp * gamma3) * (FMs1 * FMs1 - 2 * FMs1 * fMs_RD + fMs_RD * fMs_RD + fMs_damp *
    fMs_damp * gamma3 * gamma3) * Real.exp ((FMs1 - fMs_RD) * gamma2 / (fMs_damp * gamma3))
  let gammaR : ℝ := gamma2 / (fMs_damp * gamma3)
  let gammaD2 : ℝ := gamma3 * fMs_damp * (gamma3 * fMs_damp)
  let gammaD13 : ℝ := fMs_damp * gamma1 * gamma3
  let Amp_RD : ℝ := Real.exp ((-(fM_s - fMs_RD)) * gammaR) * gammaD13 / ((fM_s - fMs_RD) * (fM_s - fMs_RD) + gammaD2)
  (Amp_RD, fMs_AmpRDMin)

/-- `delta0..delta4` of `get_intermediate_Amp` from nodes, values and slopes. src/ripplegw/waveforms/IMRPhenomXAS.py:1072-1196. -/
def intermediate_Amp_delta (FMs1 FMs2 FMs4 V1 V2 V4 d1 d4 : ℝ) : Fin 5 → ℝ :=
  let F12 : ℝ := FMs1 * FMs1
  let F13 : ℝ := F12 * FMs1
  let F14 : ℝ := F13 * FMs1
  let F15 : ℝ := F14 * FMs1
  let F22 : ℝ := FMs2 * FMs2
  let F23 : ℝ := F22 * FMs2
  let F24 : ℝ := F23 * FMs2
  let F42 : ℝ := FMs4 * FMs4
  let F43 : ℝ := F42 * FMs4
  let F44 : ℝ := F43 * FMs4
  let F45 : ℝ := F44 * FMs4
  let F1mF2 : ℝ := FMs1 - FMs2
  let F1mF4 : ℝ := FMs1 - FMs4
  let F2mF4 : ℝ := FMs2 - FMs4
  let F1mF22 : ℝ := F1mF2 * F1mF2
  let F2mF42 : ℝ := F2mF4 * F2mF4
  let F1mF43 : ℝ := F1mF4 * F1mF4 * F1mF4
  let delta0 : ℝ := (-(d4 * F12 * F1mF22 * F1mF4 * FMs2 * F2mF4 * FMs4) + d1 * FMs1 * F1mF2 * F1mF4 * FMs2 * F2mF42 *
    F42 + F42 * (FMs2 * F2mF42 * ((-4) * F12 + 3 * FMs1 * FMs2 + 2 * FMs1 * FMs4 - FMs2 * FMs4) * V1 + F12 * F1mF43 *
    V2) + F12 * F1mF22 * FMs2 * (FMs1 * FMs2 - 2 * FMs1 * FMs4 - 3 * FMs2 * FMs4 + 4 * F42) * V4) / (F1mF22 * F1mF43 *
    F2mF42)
  let delta1 : ℝ := (d4 * FMs1 * F1mF22 * F1mF4 * F2mF4 * (2 * FMs2 * FMs4 + FMs1 * (FMs2 + FMs4)) + FMs4 * (-(d1 *
    F1mF2 * F1mF4 * F2mF42 * (2 * FMs1 * FMs2 + (FMs1 + FMs2) * FMs4)) - 2 * FMs1 * (F44 * (V1 - V2) + 3 * F24 * (V1 -
    V4) + F14 * (V2 - V4) + 4 * F23 * FMs4 * (-V1 + V4) + 2 * F13 * FMs4 * (-V2 + V4) + FMs1 * (2 * F43 * (-V1 + V2) + 6
    * F22 * FMs4 * (V1 - V4) + 4 * F23 * (-V1 + V4))))) / (F1mF22 * F1mF43 * F2mF42)
  let delta2 : ℝ := (-(d4 * F1mF22 * F1mF4 * F2mF4 * (F12 + FMs2 * FMs4 + 2 * FMs1 * (FMs2 + FMs4))) + d1 * F1mF2 *
    F1mF4 * F2mF42 * (FMs1 * FMs2 + 2 * (FMs1 + FMs2) * FMs4 + F42) - 4 * F12 * F23 * V1 + 3 * FMs1 * F24 * V1 - 4 *
    FMs1 * F23 * FMs4 * V1 + 3 * F24 * FMs4 * V1 + 12 * F12 * FMs2 * F42 * V1 - 4 * F23 * F42 * V1 - 8 * F12 * F43 * V1
    + FMs1 * F44 * V1 + F45 * V1 + F15 * V2 + F14 * FMs4 * V2 - 8 * F13 * F42 * V2 + 8 * F12 * F43 * V2 - FMs1 * F44 *
    V2 - F45 * V2 - F1mF22 * (F13 + FMs2 * (3 * FMs2 - 4 * FMs4) * FMs4 + F12 * (2 * FMs2 + FMs4) + FMs1 * (3 * FMs2 - 4
    * FMs4) * (FMs2 + 2 * FMs4)) * V4) / (F1mF22 * F1mF43 * F2mF42)
  let delta3 : ℝ := (d4 * F1mF22 * F1mF4 * F2mF4 * (2 * FMs1 + FMs2 + FMs4) - d1 * F1mF2 * F1mF4 * F2mF42 * (FMs1 +
    FMs2 + 2 * FMs4) + 2 * (F44 * (-V1 + V2) + 2 * F12 * F2mF42 * (V1 - V4) + 2 * F22 * F42 * (V1 - V4) + 2 * F13 * FMs4
    * (V2 - V4) + F24 * (-V1 + V4) + F14 * (-V2 + V4) + 2 * FMs1 * FMs4 * (F42 * (V1 - V2) + F22 * (V1 - V4) + 2 * FMs2
    * FMs4 * (-V1 + V4)))) / (F1mF22 * F1mF43 * F2mF42)
  let delta4 : ℝ := (-(d4 * F1mF22 * F1mF4 * F2mF4) + d1 * F1mF2 * F1mF4 * F2mF42 - 3 * FMs1 * F22 * V1 + 2 * F23 * V1
    + 6 * FMs1 * FMs2 * FMs4 * V1 - 3 * F22 * FMs4 * V1 - 3 * FMs1 * F42 * V1 + F43 * V1 + F13 * V2 - 3 * F12 * FMs4 *
    V2 + 3 * FMs1 * F42 * V2 - F43 * V2 - F1mF22 * (FMs1 + 2 * FMs2 - 3 * FMs4) * V4) / (F1mF22 * F1mF43 * F2mF42)
  ![delta0, delta1, delta2, delta3, delta4]

/-- `delta0..delta4` of `get_intermediate_Amp` for a binary. src/ripplegw/waveforms/IMRPhenomXAS.py:1015-1196. -/
def intermediate_Amp_coeffs (theta : Theta) (amp_coeffs : Table) (fMs_AmpRDMin : ℝ) : Fin 5 → ℝ :=
  let m1 : ℝ := theta.m1
  let m2 : ℝ := theta.m2
  let chi1 : ℝ := theta.chi1
  let chi2 : ℝ := theta.chi2
  let m1_s : ℝ := m1 * gt
  let m2_s : ℝ := m2 * gt
  let M_s : ℝ := m1_s + m2_s
  let eta : ℝ := m1_s * m2_s / M_s ^ 2
  let delta : ℝ := Real.sqrt (1 - 4 * eta)
  let mm1 : ℝ := 0.5 * (1 + delta)
  let mm2 : ℝ := 0.5 * (1 - delta)
  let StotR : ℝ := (mm1 ^ 2 * chi1 + mm2 ^ 2 * chi2) / (mm1 ^ 2 + mm2 ^ 2)
  let chia : ℝ := chi1 - chi2
  let FMs1 : ℝ := ampMatchIN theta
  let FMs4 : ℝ := fMs_AmpRDMin
  let inspFMs1 : ℝ := get_inspiral_Amp FMs1 theta amp_coeffs
  let d1 : ℝ := deriv (fun x => get_inspiral_Amp x theta amp_coeffs) FMs1
  let rdFMs4 : ℝ := (get_mergerringdown_Amp FMs4 theta amp_coeffs).1
  let d4 : ℝ := deriv (fun x => (get_mergerringdown_Amp x theta amp_coeffs).1) FMs4
  let d1 : ℝ := 7 / 6 * FMs1 ^ ((1 : ℝ) / 6) / inspFMs1 - FMs1 ^ ((7 : ℝ) / 6) * d1 / (inspFMs1 * inspFMs1)
  let d4 : ℝ := 7 / 6 * FMs4 ^ ((1 : ℝ) / 6) / rdFMs4 - FMs4 ^ ((7 : ℝ) / 6) * d4 / (rdFMs4 * rdFMs4)
  let FMs2 : ℝ := FMs1 + 1 / 2 * (FMs4 - FMs1)
  let V1 : ℝ := FMs1 ^ (-((7 : ℝ) / 6)) * inspFMs1
  let V2 : ℝ := ampCV amp_coeffs 3 eta StotR chia
  let V4 : ℝ := FMs4 ^ (-((7 : ℝ) / 6)) * rdFMs4
  let V1 : ℝ := 1 / V1
  let V2 : ℝ := 1 / V2
  let V4 : ℝ := 1 / V4
  intermediate_Amp_delta FMs1 FMs2 FMs4 V1 V2 V4 d1 d4

/-- `get_intermediate_Amp`. src/ripplegw/waveforms/IMRPhenomXAS.py:1012-1202. -/
def get_intermediate_Amp (fM_s : ℝ) (theta : Theta) (amp_coeffs : Table) (fMs_AmpRDMin : ℝ) : ℝ :=
  let delta := intermediate_Amp_coeffs theta amp_coeffs fMs_AmpRDMin
  fM_s ^ ((7 : ℝ) / 6) / (delta 0 + fM_s * (delta 1 + fM_s * (delta 2 + fM_s * (delta 3 + fM_s * delta 4))))

/-- `Amp` (elementwise). src/ripplegw/waveforms/IMRPhenomXAS.py:1284-1316. -/
def Amp (f : ℝ) (theta : Theta) (amp_coeffs : Table) (D : ℝ) : ℝ :=
  let m1 : ℝ := theta.m1
  let m2 : ℝ := theta.m2
  let chi1 : ℝ := theta.chi1
  let chi2 : ℝ := theta.chi2
  let m1_s : ℝ := m1 * gt
  let m2_s : ℝ := m2 * gt
  let M_s : ℝ := m1_s + m2_s
  let eta : ℝ := m1_s * m2_s / M_s ^ 2
  let fM_s : ℝ := f * M_s
  let amp0 : ℝ := 2 * Real.sqrt (5 / (64 * PI)) * M_s ^ 2 / (D * m_per_Mpc / C)
  let ampNorm : ℝ := Real.sqrt (2 * eta / 3) * PI ^ (-((1 : ℝ) / 6))
  let fMs_AmpMatchIN : ℝ := ampMatchIN theta
  let Overallamp : ℝ := amp0 * ampNorm
  let Amp_Ins : ℝ := get_inspiral_Amp fM_s theta amp_coeffs
  let rd := get_mergerringdown_Amp fM_s theta amp_coeffs
  let Amp_RD : ℝ := rd.1
  let fMs_AmpRDMin : ℝ := rd.2
  let Amp_Int : ℝ := get_intermediate_Amp fM_s theta amp_coeffs fMs_AmpRDMin
  let Amp : ℝ := Amp_Ins * Jnp.heaviside (fMs_AmpMatchIN - fM_s) 0.5
    + Jnp.heaviside (fM_s - fMs_AmpMatchIN) 0.5 * Amp_Int * Jnp.heaviside (fMs_AmpRDMin - fM_s) 0.5
    + Amp_RD * Jnp.heaviside (fM_s - fMs_AmpRDMin) 0.5 * Jnp.heaviside (fM_CUT - fM_s) 0.5
  Overallamp * Amp * fM_s ^ (-((7 : ℝ) / 6))

/-- The slope `linb` added to the phase by `_gen_IMRPhenomXAS`. src/ripplegw/waveforms/IMRPhenomXAS.py:1328-1353.
    `jax.grad(Phase)` is `deriv` (they agree where `Phase` is differentiable, see C62). -/
def phase_slope (theta_intrinsic : Theta) (phase_coeffs : Table) : ℝ :=
  let m1 : ℝ := theta_intrinsic.m1
  let m2 : ℝ := theta_intrinsic.m2
  let chi1 : ℝ := theta_intrinsic.chi1
  let chi2 : ℝ := theta_intrinsic.chi2
  let m1_s : ℝ := m1 * gt
  let m2_s : ℝ := m2 * gt
  let M_s : ℝ := m1_s + m2_s
  let eta : ℝ := m1_s * m2_s / M_s ^ 2
  let delta : ℝ := Real.sqrt (1 - 4 * eta)
  let mm1 : ℝ := 0.5 * (1 + delta)
  let mm2 : ℝ := 0.5 * (1 - delta)
  let StotR : ℝ := (mm1 ^ 2 * chi1 + mm2 ^ 2 * chi2) / (mm1 ^ 2 + mm2 ^ 2)
  let chia : ℝ := chi1 - chi2
  let c := get_cutoff_fMs m1 m2 chi1 chi2
  let fMs_RD : ℝ := c.fRD
  let fMs_damp : ℝ := c.fdamp
  let pk := calc_phaseatpeak eta StotR chia delta
  let linb : ℝ := pk.2.1
  let psi4tostrain : ℝ := pk.2.2
  let dphi22Ref : ℝ := deriv (fun f => Phase f theta_intrinsic phase_coeffs) ((fMs_RD - fMs_damp) / M_s) / M_s
  let linb : ℝ := linb - dphi22Ref - 2 * PI * (500 + psi4tostrain)
  linb

/-- `_gen_IMRPhenomXAS`. src/ripplegw/waveforms/IMRPhenomXAS.py:1320-1364. `theta_extrinsic` = (D, tc, phic); `lina` is the literal 0 returned by
    `calc_phaseatpeak`. -/
def _gen_IMRPhenomXAS (f : List ℝ) (theta_intrinsic : Theta) (D tc phic : ℝ) (phase_coeffs amp_coeffs : Table)
    (f_ref : ℝ) : List ℂ :=
  let m1_s : ℝ := theta_intrinsic.m1 * gt
  let m2_s : ℝ := theta_intrinsic.m2 * gt
  let M_s : ℝ := m1_s + m2_s
  let lina : ℝ := 0
  let linb : ℝ := phase_slope theta_intrinsic phase_coeffs
  let phifRef : ℝ := -(Phase f_ref theta_intrinsic phase_coeffs + linb * (f_ref * M_s) + lina) + PI / 4 + PI
  f.map fun f =>
    let fM_s : ℝ := f * M_s
    let Psi : ℝ := Phase f theta_intrinsic phase_coeffs
    let ext_phase_contrib : ℝ := 2 * PI * f * tc - phic
    let Psi : ℝ := Psi + linb * fM_s + lina + phifRef - 2 * PI + ext_phase_contrib
    let A : ℝ := Amp f theta_intrinsic amp_coeffs D
    (A : ℂ) * Complex.exp (Complex.I * (Psi : ℝ))

/-- `gen_IMRPhenomXAS`. src/ripplegw/waveforms/IMRPhenomXAS.py:1367-1395. `params` is a JAX array: indices out of range clamp. -/
def gen_IMRPhenomXAS (f : List ℝ) (params : List ℝ) (f_ref : ℝ) : List ℂ :=
  let ms := Mc_eta_to_ms (Jnp.index params 0) (Jnp.index params 1)
  let theta_intrinsic : Theta := ⟨ms.1, ms.2, Jnp.index params 2, Jnp.index params 3⟩
  _gen_IMRPhenomXAS f theta_intrinsic (Jnp.index params 4) (Jnp.index params 5) (Jnp.index params 6)
    PhenomX_phase_coeff_table PhenomX_amp_coeff_table f_ref

/-- `gen_IMRPhenomXAS_hphc`. src/ripplegw/waveforms/IMRPhenomXAS.py:1398-1425. -/
def gen_IMRPhenomXAS_hphc (f : List ℝ) (params : List ℝ) (f_ref : ℝ) : List ℂ × List ℂ :=
  let iota : ℝ := Jnp.index params 7
  let h0 := gen_IMRPhenomXAS f params f_ref
  (h0.map fun h => h * ((1 / 2 * (1 + Real.cos iota ^ 2) : ℝ) : ℂ),
   h0.map fun h => -Complex.I * h * (Real.cos iota : ℂ))

end
end XAS
end Ripple
