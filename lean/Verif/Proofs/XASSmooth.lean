/-
  Smoothness in the binary parameters of the quantities the IMRPhenomXAS model is built from.
-/
import Verif.Proofs.Smooth
import Verif.Proofs.XASSlope
import Mathlib.Analysis.SpecialFunctions.Pow.Deriv
import Mathlib.Analysis.SpecialFunctions.Sqrt
import Mathlib.Analysis.SpecialFunctions.Trigonometric.ArctanDeriv
import Mathlib.Analysis.Calculus.Deriv.Inverse
import Mathlib.Tactic.IntervalCases

namespace Ripple
open scoped ContDiff Topology
open Filter

namespace XAS

/-- the ISCO frequency is a smooth function of the spin of the remnant between -1 and 1 -/
lemma smooth_fISCOof {a0 : ℝ} (h1 : -1 < a0) (h2 : a0 < 1) : ContDiffAt ℝ ∞ fISCOof a0 := by
  obtain ⟨u0, hr, u1, -, hau, -⟩ := isco_exists h1.le h2.le
  have e1 : iscoSpin 1 = 1 := by unfold iscoSpin; norm_num
  have hu : 1 < u0 := by
    refine lt_of_le_of_ne u1 fun h => ?_
    rw [hau, ← h, e1] at h2
    exact lt_irrefl _ h2
  have hpos : (0 : ℝ) < 3 * u0 ^ 2 - 2 := by nlinarith
  have hc : ContDiffAt ℝ ∞ iscoSpin u0 := by
    unfold iscoSpin
    have hs : ContDiffAt ℝ ∞ (fun u : ℝ => Real.sqrt (3 * u ^ 2 - 2)) u0 := ContDiffAt.sqrt (by fun_prop) hpos.ne'
    exact (contDiffAt_id.mul (contDiffAt_const.sub hs)).div_const 3
  have hd := iscoSpin_deriv hu
  have hne : (4 - Real.sqrt (3 * u0 ^ 2 - 2) - 3 * u0 ^ 2 / Real.sqrt (3 * u0 ^ 2 - 2)) / 3 ≠ 0 := by
    have h0 : (1 : ℝ) < 3 * u0 ^ 2 - 2 := by nlinarith
    have hws : Real.sqrt (3 * u0 ^ 2 - 2) ^ 2 = 3 * u0 ^ 2 - 2 := Real.sq_sqrt (by linarith)
    have hw : 1 < Real.sqrt (3 * u0 ^ 2 - 2) := by rw [← Real.sqrt_one]; exact Real.sqrt_lt_sqrt (by norm_num) h0
    have hu2 : 3 * u0 ^ 2 = Real.sqrt (3 * u0 ^ 2 - 2) ^ 2 + 2 := by linarith
    rw [hu2]
    have e : ∀ x : ℝ, x ^ 2 + 2 - 2 = x ^ 2 := fun x => by ring
    rw [e, Real.sqrt_sq (by linarith)]
    generalize Real.sqrt (3 * u0 ^ 2 - 2) = w at *
    have : (4 - w - (w ^ 2 + 2) / w) / 3 = -(2 * (w - 1) ^ 2) / (3 * w) := by
      field_simp
      ring
    rw [this]
    refine div_ne_zero (neg_ne_zero.2 ?_) (by positivity)
    have : 0 < w - 1 := by linarith
    positivity
  have hf' := hd.hasFDerivAt_equiv hne
  have hinv := hc.to_localInverse hf' (by simp)
  have hright := (hc.hasStrictFDerivAt' hf' (by simp)).eventually_right_inverse
  have happ := hc.localInverse_apply_image hf' (by simp)
  rw [← hau] at hinv hright happ
  change ∀ᶠ y in 𝓝 a0, iscoSpin (hc.localInverse hf' (by simp) y) = y at hright
  generalize hc.localInverse hf' (by simp) = g at *
  have hden : u0 ^ 3 + a0 ≠ 0 := by
    have : (1 : ℝ) < u0 ^ 3 := one_lt_pow₀ hu (by norm_num)
    linarith
  have main : ContDiffAt ℝ ∞ (fun a => 1 / (g a ^ 3 + a) / Real.pi) a0 := by
    refine ContDiffAt.div_const (ContDiffAt.div contDiffAt_const ((hinv.pow 3).add contDiffAt_id) ?_) _
    rw [happ]; exact hden
  refine main.congr_of_eventuallyEq ?_
  have hg1 : ∀ᶠ a in 𝓝 a0, 1 < g a := hinv.continuousAt.eventually_const_lt (by rw [happ]; exact hu)
  filter_upwards [hright, hg1, Ioo_mem_nhds h1 h2] with a ha hga ⟨b1, b2⟩
  obtain ⟨u, hr', v1, -, hau', -⟩ := isco_exists b1.le b2.le
  have : u = g a := iscoSpin_strictAnti.injOn (Set.mem_Ici.2 v1) (Set.mem_Ici.2 hga.le) (by rw [← hau', ha])
  rw [fISCO_eq hr' (by linarith), this]

variable {E : Type} [NormedAddCommGroup E] [NormedSpace ℝ E]

/-- a family of binaries depending smoothly on `e`, physical and of unequal masses at `e0` -/
structure SmoothFam (θ : E → Theta) (e0 : E) : Prop where
  m1 : ContDiffAt ℝ ∞ (fun e => (θ e).m1) e0
  m2 : ContDiffAt ℝ ∞ (fun e => (θ e).m2) e0
  chi1 : ContDiffAt ℝ ∞ (fun e => (θ e).chi1) e0
  chi2 : ContDiffAt ℝ ∞ (fun e => (θ e).chi2) e0
  phys : (θ e0).Physical
  ne : (θ e0).m1 ≠ (θ e0).m2

namespace SmoothFam
variable {θ : E → Theta} {e0 : E}

lemma mass_ne (h : SmoothFam θ e0) : (θ e0).m1 * gt + (θ e0).m2 * gt ≠ 0 := by
  have := mul_pos h.phys.m1_pos gt_pos
  have := mul_pos h.phys.m2_pos gt_pos
  positivity

lemma eta (h : SmoothFam θ e0) : ContDiffAt ℝ ∞ (fun e => etaOf (θ e)) e0 := by
  unfold etaOf
  have := h.m1
  have := h.m2
  exact ContDiffAt.div (by fun_prop) (by fun_prop) (pow_ne_zero 2 h.mass_ne)

lemma eta_lt (h : SmoothFam θ e0) : etaOf (θ e0) < 1 / 4 := by
  have hg := gt_pos
  have h1 : 0 < (θ e0).m1 * gt := mul_pos h.phys.m1_pos hg
  have h2 : 0 < (θ e0).m2 * gt := mul_pos h.phys.m2_pos hg
  have hne : (θ e0).m1 * gt - (θ e0).m2 * gt ≠ 0 := by
    rw [← sub_mul]
    exact mul_ne_zero (sub_ne_zero.2 h.ne) hg.ne'
  unfold etaOf
  generalize (θ e0).m1 * gt = x at *
  generalize (θ e0).m2 * gt = y at *
  rw [div_lt_div_iff₀ (by positivity) (by norm_num)]
  have : 0 < (x - y) ^ 2 := by positivity
  nlinarith

lemma dd (h : SmoothFam θ e0) : ContDiffAt ℝ ∞ (fun e => dOf (θ e)) e0 := by
  unfold dOf
  have := h.eta
  exact ContDiffAt.sqrt (by fun_prop) (by have := h.eta_lt; linarith)

lemma stot (h : SmoothFam θ e0) : ContDiffAt ℝ ∞ (fun e => stotOf (θ e)) e0 := by
  unfold stotOf
  have := h.dd
  have := h.chi1
  have := h.chi2
  refine ContDiffAt.div (by fun_prop) (by fun_prop) ?_
  obtain ⟨d0, d1, -⟩ := dOf_range h.phys
  positivity

lemma chipn (h : SmoothFam θ e0) : ContDiffAt ℝ ∞ (fun e => chipnOf (θ e)) e0 := by
  unfold chipnOf
  have := h.dd
  have := h.eta
  have := h.chi1
  have := h.chi2
  refine ContDiffAt.div (by fun_prop) (by fun_prop) ?_
  have := h.eta_lt
  linarith

lemma spin_den (h : SmoothFam θ e0) : 1 + skk (etaOf (θ e0)) * stotOf (θ e0) ≠ 0 := by
  have k1 := skk_lo _ (eta_box h.phys)
  have k2 := skk_hi _ (eta_box h.phys)
  obtain ⟨s1, s2⟩ := stotOf_range h.phys
  generalize skk (etaOf (θ e0)) = k at *
  generalize stotOf (θ e0) = S at *
  rcases le_total S 0 with hs | hs <;> intro h0 <;> nlinarith

lemma spin (h : SmoothFam θ e0) : ContDiffAt ℝ ∞ (fun e => spinOf (θ e)) e0 := by
  have := h.dd
  have hη := h.eta
  have := h.stot
  have := h.chi1
  have := h.chi2
  have e0' := (etaOf_range h.phys).1
  have hd := h.spin_den
  unfold skk at hd
  unfold spinOf finalSpin
  simp only []
  refine ContDiffAt.add (ContDiffAt.add (ContDiffAt.div (by fun_prop) (by fun_prop) (by positivity))
    (ContDiffAt.add (by fun_prop) (ContDiffAt.div (by fun_prop) (by fun_prop) ?_))) (by fun_prop)
  intro h0
  apply hd
  rw [← h0]
  ring

lemma erad_den (e S : ℝ) (he : 0 ≤ e ∧ e ≤ 0.25) (hS : -1 ≤ S ∧ S ≤ 1) :
    0 < 1 + (-0.9919475346968611 + 0.367620218664352 * e + 4.274567337924067 * e ^ 2) * S := by
  interval_bnb [he, hS] []

lemma erad (h : SmoothFam θ e0) : ContDiffAt ℝ ∞ (fun e => eradOf (θ e)) e0 := by
  have := h.dd
  have hη := h.eta
  have := h.stot
  have := h.chi1
  have := h.chi2
  unfold eradOf eRad
  simp only []
  refine ContDiffAt.add (ContDiffAt.div (by fun_prop) (by fun_prop) ?_) (by fun_prop)
  have hd := erad_den _ _ (eta_box h.phys) (stotOf_range h.phys)
  intro h0
  apply hd.ne'
  rw [← h0]
  ring

lemma t_range (h : SmoothFam θ e0) : 0 ≤ 1 - spinOf (θ e0) ∧ 1 - spinOf (θ e0) ≤ 2 := by
  constructor <;> linarith [spin_lt h.phys, spin_gt h.phys]

lemma fRD (h : SmoothFam θ e0) : ContDiffAt ℝ ∞ (fun e => (cut (θ e)).fRD) e0 := by
  have := h.spin
  have := h.erad
  change ContDiffAt ℝ ∞ (fun e => fRDof (spinOf (θ e)) (eradOf (θ e))) e0
  simp only [fRDof_eq]
  refine ContDiffAt.div (ContDiffAt.div (by unfold rN; fun_prop) (by unfold rD; fun_prop) (rD_pos _ h.t_range).ne')
    (by fun_prop) ?_
  have := (erad_range h.phys).2
  norm_num at this
  linarith

lemma fdamp (h : SmoothFam θ e0) : ContDiffAt ℝ ∞ (fun e => (cut (θ e)).fdamp) e0 := by
  have := h.spin
  have := h.erad
  change ContDiffAt ℝ ∞ (fun e => fdampOf (spinOf (θ e)) (eradOf (θ e))) e0
  simp only [fdampOf_eq]
  refine ContDiffAt.div (ContDiffAt.div (by unfold dN; fun_prop) (by unfold dD; fun_prop) (dD_pos _ h.t_range).ne')
    (by fun_prop) ?_
  have := (erad_range h.phys).2
  norm_num at this
  linarith

lemma fISCO (h : SmoothFam θ e0) : ContDiffAt ℝ ∞ (fun e => (cut (θ e)).fISCO) e0 := by
  change ContDiffAt ℝ ∞ (fun e => fISCOof (spinOf (θ e))) e0
  exact (smooth_fISCOof (spin_gt h.phys) (spin_lt h.phys)).comp e0 h.spin

lemma meco_den (e S : ℝ) (he : 0 ≤ e ∧ e ≤ 0.25) (hS : -1 ≤ S ∧ S ≤ 1) :
    0 < 0.026666543809890402 + (-0.014590539285641243 -
    0.012429476486138982 * e + 1.4861197211952053 * e ^ 4 + 0.025066696514373803 * e ^ 2 + 0.005146809717492324 *
    e ^ 3) * S + (-0.0058684526275074025 - 0.02876774751921441 * e - 2.551566872093786 * e ^ 4 - 0.019641378027236502
    * e ^ 2 - 0.001956646166089053 * e ^ 3) * S ^ 2 + (0.003507640638496499 + 0.014176504653145768 * e + 1 * e ^ 4 +
    0.012622225233586283 * e ^ 2 - 0.00767768214056772 * e ^ 3) * S ^ 3 := by
  interval_bnb [he, hS] []

lemma fMECO (h : SmoothFam θ e0) : ContDiffAt ℝ ∞ (fun e => (cut (θ e)).fMECO) e0 := by
  have := h.dd
  have hη := h.eta
  have := h.chipn
  have := h.chi1
  have := h.chi2
  have hl := h.eta_lt
  change ContDiffAt ℝ ∞ (fun e => fMECOof (etaOf (θ e)) (dOf (θ e)) (chipnOf (θ e)) ((θ e).chi1 - (θ e).chi2)) e0
  unfold fMECOof
  simp only []
  refine ContDiffAt.add (ContDiffAt.add (ContDiffAt.div (by fun_prop) (by fun_prop) ?_)
    (ContDiffAt.div (by fun_prop) (by fun_prop) ?_)) (by fun_prop)
  · intro h0
    norm_num at h0
    linarith
  · have hd := meco_den _ _ (eta_box h.phys) (chipnOf_range h.phys)
    intro h0
    apply hd.ne'
    rw [← h0]
    ring

/-! ### the fits -/

lemma phase_nospin_den (i : ℕ) (hi : i < 13) (e : ℝ) (h0 : 0 ≤ e) (h1 : e ≤ 1 / 4) :
    PhenomX_phase_coeff_table i 6 + PhenomX_phase_coeff_table i 7 * e + PhenomX_phase_coeff_table i 8 * (e * e) +
      PhenomX_phase_coeff_table i 9 * (e * e * e) ≠ 0 := by
  have a : 0 ≤ e * e := by positivity
  have b : e * e ≤ 1 / 16 := by nlinarith
  have c : 0 ≤ e * e * e := by positivity
  interval_cases i
  · change (1 : ℝ) + (4.460294035404433 : ℝ) * e + (0 : ℝ) * (e * e) + (0 : ℝ) * (e * e * e) ≠ 0
    norm_num
    intro h
    nlinarith
  · change (1 : ℝ) + (18.53018618227582 : ℝ) * e + (0 : ℝ) * (e * e) + (0 : ℝ) * (e * e * e) ≠ 0
    norm_num
    intro h
    nlinarith
  · change (1 : ℝ) + (46.83697749859996 : ℝ) * e + (0 : ℝ) * (e * e) + (0 : ℝ) * (e * e * e) ≠ 0
    norm_num
    intro h
    nlinarith
  · change (1 : ℝ) + (0.41143032589262585 : ℝ) * e + (0 : ℝ) * (e * e) + (0 : ℝ) * (e * e * e) ≠ 0
    norm_num
    intro h
    nlinarith
  · change (0.00016803066316882238 : ℝ) + (0.11412314719189287 : ℝ) * e + (1.8413983770369362 : ℝ) * (e * e) + (1 : ℝ) * (e * e * e) ≠ 0
    norm_num
    intro h
    nlinarith
  · change (-0.004551938711031158 : ℝ) + (-0.7811680872741462 : ℝ) * e + (1 : ℝ) * (e * e) + (0 : ℝ) * (e * e * e) ≠ 0
    norm_num
    intro h
    nlinarith
  · change (1 : ℝ) + (66757.12830903867 : ℝ) * e + (5.385164380400193e6 : ℝ) * (e * e) + (2.5176585751772933e6 : ℝ) * (e * e * e) ≠ 0
    norm_num
    intro h
    nlinarith
  · change (1 : ℝ) + (1670.9440812294847 : ℝ) * e + (19783.077247023448 : ℝ) * (e * e) + (0 : ℝ) * (e * e * e) ≠ 0
    norm_num
    intro h
    nlinarith
  · change (0.006851189888541745 : ℝ) + (0.06099184229137391 : ℝ) * e + (-0.15500218299268662 : ℝ) * (e * e) + (1 : ℝ) * (e * e * e) ≠ 0
    norm_num
    intro h
    nlinarith
  · change (-0.0670554310666559 : ℝ) + (-0.09987544893382533 : ℝ) * e + (1 : ℝ) * (e * e) + (0 : ℝ) * (e * e * e) ≠ 0
    norm_num
    intro h
    nlinarith
  · change (-0.40919671232073945 : ℝ) + (1 : ℝ) * e + (0 : ℝ) * (e * e) + (0 : ℝ) * (e * e * e) ≠ 0
    norm_num
    intro h
    nlinarith
  · change (1 : ℝ) + (50.206318806624004 : ℝ) * e + (0 : ℝ) * (e * e) + (0 : ℝ) * (e * e * e) ≠ 0
    norm_num
    intro h
    nlinarith
  · change (0.26026709603623255 : ℝ) + (1 : ℝ) * e + (0 : ℝ) * (e * e) + (0 : ℝ) * (e * e * e) ≠ 0
    norm_num
    intro h
    nlinarith

lemma phase_eqspin_den (i : ℕ) (hi : i < 13) (S : ℝ) (h0 : -1 ≤ S) (h1 : S ≤ 1) :
    PhenomX_phase_coeff_table i 35 + PhenomX_phase_coeff_table i 36 * S + PhenomX_phase_coeff_table i 37 * (S * S) +
      PhenomX_phase_coeff_table i 38 * (S * S * S) ≠ 0 := by
  have k := mul_nonneg (sq_nonneg (S + 0.702)) (show 0 ≤ 2.534 - S by norm_num; linarith)
  norm_num at k
  interval_cases i
  · change (2.0412979553629143 : ℝ) + (1 : ℝ) * S + (0 : ℝ) * (S * S) + (0 : ℝ) * (S * S * S) ≠ 0
    norm_num
    intro h
    nlinarith
  · change (-1.5232497464826662 : ℝ) + (-3.062957826830017 : ℝ) * S + (-1.130185486082531 : ℝ) * (S * S) + (1 : ℝ) * (S * S * S) ≠ 0
    norm_num
    intro h
    nlinarith
  · change (-9.675704197652225 : ℝ) + (3.5804521763363075 : ℝ) * S + (2.5298346636273306 : ℝ) * (S * S) + (1 : ℝ) * (S * S * S) ≠ 0
    norm_num
    intro h
    nlinarith
  · change (-3.7385208695213668 : ℝ) + (0.25294420589064653 : ℝ) * S + (1 : ℝ) * (S * S) + (0 : ℝ) * (S * S * S) ≠ 0
    norm_num
    intro h
    nlinarith
  · change (2.965640445745779 : ℝ) + (-2.7706595614504725 : ℝ) * S + (1 : ℝ) * (S * S) + (0 : ℝ) * (S * S * S) ≠ 0
    norm_num
    intro h
    nlinarith
  · change (-1.5308507364054487 : ℝ) + (1 : ℝ) * S + (0 : ℝ) * (S * S) + (0 : ℝ) * (S * S * S) ≠ 0
    norm_num
    intro h
    nlinarith
  · change (-1.1492259468169692 : ℝ) + (1 : ℝ) * S + (0 : ℝ) * (S * S) + (0 : ℝ) * (S * S * S) ≠ 0
    norm_num
    intro h
    nlinarith
  · change (-1.2442293719740283 : ℝ) + (1 : ℝ) * S + (0 : ℝ) * (S * S) + (0 : ℝ) * (S * S * S) ≠ 0
    norm_num
    intro h
    nlinarith
  · change (1 : ℝ) + (-0.6628745847248266 : ℝ) * S + (0 : ℝ) * (S * S) + (0 : ℝ) * (S * S * S) ≠ 0
    norm_num
    intro h
    nlinarith
  · change (1 : ℝ) + (-0.7267610313751913 : ℝ) * S + (0 : ℝ) * (S * S) + (0 : ℝ) * (S * S * S) ≠ 0
    norm_num
    intro h
    nlinarith
  · change (1 : ℝ) + (-0.6862449113932192 : ℝ) * S + (0 : ℝ) * (S * S) + (0 : ℝ) * (S * S * S) ≠ 0
    norm_num
    intro h
    nlinarith
  · change (-1.3705601055555852 : ℝ) + (1 : ℝ) * S + (0 : ℝ) * (S * S) + (0 : ℝ) * (S * S * S) ≠ 0
    norm_num
    intro h
    nlinarith
  · change (1 : ℝ) + (-0.7162058321905909 : ℝ) * S + (0 : ℝ) * (S * S) + (0 : ℝ) * (S * S * S) ≠ 0
    norm_num
    intro h
    nlinarith

lemma phaseCV {i : ℕ} (hi : i < 13) {η S c : E → ℝ} (hη : ContDiffAt ℝ ∞ η e0) (hS : ContDiffAt ℝ ∞ S e0)
    (hc : ContDiffAt ℝ ∞ c e0) (e1 : 0 < η e0) (e2 : η e0 < 1 / 4) (s1 : -1 ≤ S e0) (s2 : S e0 ≤ 1) :
    ContDiffAt ℝ ∞ (fun e => XAS.phaseCV PhenomX_phase_coeff_table i (η e) (S e) (c e)) e0 := by
  have hd : ContDiffAt ℝ ∞ (fun e => Real.sqrt (1 - 4 * η e)) e0 := ContDiffAt.sqrt (by fun_prop) (by linarith)
  unfold XAS.phaseCV nospin_CV Eqspin_CV Uneqspin_CV
  simp only []
  exact ContDiffAt.add (ContDiffAt.add
    (ContDiffAt.div (by fun_prop) (by fun_prop) (phase_nospin_den i hi _ e1.le e2.le))
    (ContDiffAt.div (by fun_prop) (by fun_prop) (phase_eqspin_den i hi _ s1 s2))) (by fun_prop)

lemma amp_nospin_den (i : ℕ) (hi : i < 7) (e : ℝ) (h0 : 0 ≤ e) (h1 : e ≤ 1 / 4) :
    PhenomX_amp_coeff_table i 5 + PhenomX_amp_coeff_table i 6 * e + PhenomX_amp_coeff_table i 7 * e ^ 2 ≠ 0 := by
  interval_cases i
  · change (1 : ℝ) + (0.09799277215675059 : ℝ) * e + (0 : ℝ) * e ^ 2 ≠ 0
    norm_num
    try (intro h; nlinarith)
  · change (1 : ℝ) + (15.430818840453686 : ℝ) * e + (0 : ℝ) * e ^ 2 ≠ 0
    norm_num
    try (intro h; nlinarith)
  · change (1 : ℝ) + (0.04507019231274476 : ℝ) * e + (0 : ℝ) * e ^ 2 ≠ 0
    norm_num
    try (intro h; nlinarith)
  · change (1 : ℝ) + (143.29004876335128 : ℝ) * e + (458.4097306093354 : ℝ) * e ^ 2 ≠ 0
    norm_num
    try (intro h; nlinarith)
  · change (1 : ℝ) + (10.915453595496611 : ℝ) * e + (-30.578409433912874 : ℝ) * e ^ 2 ≠ 0
    norm_num
    try (intro h; nlinarith)
  · change (1 : ℝ) + (-2.7440263888207594 : ℝ) * e + (0 : ℝ) * e ^ 2 ≠ 0
    norm_num
    try (intro h; nlinarith)
  · change (1 : ℝ) + (61.19874463331437 : ℝ) * e + (-29.628854485544874 : ℝ) * e ^ 2 ≠ 0
    norm_num
    try (intro h; nlinarith)

lemma amp_eqspin_den (i : ℕ) (hi : i < 7) (e S : ℝ) (_h0 : -1 ≤ S) (h1 : S ≤ 1) :
    PhenomX_amp_coeff_table i 32 + PhenomX_amp_coeff_table i 33 * S + PhenomX_amp_coeff_table i 34 * e +
      PhenomX_amp_coeff_table i 35 * S ^ 2 ≠ 0 := by
  interval_cases i
  · change (1 : ℝ) + (-0.7340448493183307 : ℝ) * S + (0 : ℝ) * e + (0 : ℝ) * S ^ 2 ≠ 0
    norm_num
    try (intro h; nlinarith)
  · change (-1.332123330797879 : ℝ) + (1 : ℝ) * S + (0 : ℝ) * e + (0 : ℝ) * S ^ 2 ≠ 0
    norm_num
    try (intro h; nlinarith)
  · change (5.852706459485663 : ℝ) + (-5.717874483424523 : ℝ) * S + (0 : ℝ) * e + (1 : ℝ) * S ^ 2 ≠ 0
    norm_num
    try (intro h; nlinarith)
  · change (12.647425554323242 : ℝ) + (-10.540154508599963 : ℝ) * S + (0 : ℝ) * e + (1 : ℝ) * S ^ 2 ≠ 0
    norm_num
    try (intro h; nlinarith)
  · change (3.8775263105069953 : ℝ) + (-3.41755361841226 : ℝ) * S + (0 : ℝ) * e + (1 : ℝ) * S ^ 2 ≠ 0
    norm_num
    try (intro h; nlinarith)
  · change (1 : ℝ) + (0 : ℝ) * S + (0 : ℝ) * e + (0 : ℝ) * S ^ 2 ≠ 0
    norm_num
    try (intro h; nlinarith)
  · change (-1.4160870461211452 : ℝ) + (1 : ℝ) * S + (0 : ℝ) * e + (0 : ℝ) * S ^ 2 ≠ 0
    norm_num
    try (intro h; nlinarith)

lemma ampCV {i : ℕ} (hi : i < 7) {η S c : E → ℝ} (hη : ContDiffAt ℝ ∞ η e0) (hS : ContDiffAt ℝ ∞ S e0)
    (hc : ContDiffAt ℝ ∞ c e0) (e1 : 0 < η e0) (e2 : η e0 < 1 / 4) (s1 : -1 ≤ S e0) (s2 : S e0 ≤ 1) :
    ContDiffAt ℝ ∞ (fun e => XAS.ampCV PhenomX_amp_coeff_table i (η e) (S e) (c e)) e0 := by
  have hd : ContDiffAt ℝ ∞ (fun e => Real.sqrt (1 - 4 * η e)) e0 := ContDiffAt.sqrt (by fun_prop) (by linarith)
  unfold XAS.ampCV Amp_Nospin_CV Amp_Eqspin_CV Amp_Uneqspin_CV
  simp only []
  exact ContDiffAt.add (ContDiffAt.add
    (ContDiffAt.div (by fun_prop) (by fun_prop) (amp_nospin_den i hi _ e1.le e2.le))
    (ContDiffAt.div (by fun_prop) (by fun_prop) (amp_eqspin_den i hi _ _ s1 s2))) (by fun_prop)

/-! ### raw phases -/

lemma eta_fold (t : Theta) : t.m1 * gt * (t.m2 * gt) / (t.m1 * gt + t.m2 * gt) ^ 2 = etaOf t := rfl
lemma d_fold (t : Theta) : Real.sqrt (1 - 4 * etaOf t) = dOf t := rfl
lemma stot_fold (t : Theta) : ((0.5 * (1 + dOf t)) ^ 2 * t.chi1 + (0.5 * (1 - dOf t)) ^ 2 * t.chi2) /
    ((0.5 * (1 + dOf t)) ^ 2 + (0.5 * (1 - dOf t)) ^ 2) = stotOf t := rfl
lemma chipn_fold (t : Theta) : (0.5 * (1 + dOf t) * t.chi1 + 0.5 * (1 - dOf t) * t.chi2
    - 38 / 113 * etaOf t * (t.chi1 + t.chi2)) / (1 - 76 * etaOf t / 113) = chipnOf t := rfl

lemma phasePN (h : SmoothFam θ e0) :
    ContDiffAt ℝ ∞ (fun e => (inspiral_phase_PN (θ e)).phi0) e0 ∧ ContDiffAt ℝ ∞ (fun e => (inspiral_phase_PN (θ e)).phi1) e0 ∧
    ContDiffAt ℝ ∞ (fun e => (inspiral_phase_PN (θ e)).phi2) e0 ∧ ContDiffAt ℝ ∞ (fun e => (inspiral_phase_PN (θ e)).phi3) e0 ∧
    ContDiffAt ℝ ∞ (fun e => (inspiral_phase_PN (θ e)).phi4) e0 ∧ ContDiffAt ℝ ∞ (fun e => (inspiral_phase_PN (θ e)).phi5) e0 ∧
    ContDiffAt ℝ ∞ (fun e => (inspiral_phase_PN (θ e)).phi5L) e0 ∧ ContDiffAt ℝ ∞ (fun e => (inspiral_phase_PN (θ e)).phi6) e0 ∧
    ContDiffAt ℝ ∞ (fun e => (inspiral_phase_PN (θ e)).phi6L) e0 ∧ ContDiffAt ℝ ∞ (fun e => (inspiral_phase_PN (θ e)).phi7) e0 ∧
    ContDiffAt ℝ ∞ (fun e => (inspiral_phase_PN (θ e)).phi8) e0 ∧ ContDiffAt ℝ ∞ (fun e => (inspiral_phase_PN (θ e)).phi8L) e0 := by
  have := h.dd
  have := h.eta
  have := h.chi1
  have := h.chi2
  unfold inspiral_phase_PN
  simp only [eta_fold, d_fold]
  refine ⟨?_, ?_, ?_, ?_, ?_, ?_, ?_, ?_, ?_, ?_, ?_, ?_⟩ <;> fun_prop

lemma fIM_smooth (h : SmoothFam θ e0) : ContDiffAt ℝ ∞ (fun e => fIM (θ e)) e0 := by
  have := h.fRD
  have := h.fISCO
  unfold fIM
  fun_prop

lemma f1 (h : SmoothFam θ e0) : ContDiffAt ℝ ∞ (fun e => fPhase1 (θ e)) e0 := by
  have := h.fIM_smooth
  have := h.fMECO
  unfold fPhase1
  fun_prop

lemma f2 (h : SmoothFam θ e0) : ContDiffAt ℝ ∞ (fun e => fPhase2 (θ e)) e0 := by
  have := h.fIM_smooth
  have := h.fMECO
  unfold fPhase2
  fun_prop

lemma phase_fit_pn (h : SmoothFam θ e0) {i : ℕ} (hi : i < 13) :
    ContDiffAt ℝ ∞ (fun e => XAS.phaseCV PhenomX_phase_coeff_table i (etaOf (θ e)) (chipnOf (θ e))
      ((θ e).chi1 - (θ e).chi2)) e0 :=
  phaseCV hi h.eta h.chipn (h.chi1.sub h.chi2) (etaOf_range h.phys).1 h.eta_lt (chipnOf_range h.phys).1 (chipnOf_range h.phys).2

lemma phase_fit (h : SmoothFam θ e0) {i : ℕ} (hi : i < 13) :
    ContDiffAt ℝ ∞ (fun e => XAS.phaseCV PhenomX_phase_coeff_table i (etaOf (θ e)) (stotOf (θ e))
      ((θ e).chi1 - (θ e).chi2)) e0 :=
  phaseCV hi h.eta h.stot (h.chi1.sub h.chi2) (etaOf_range h.phys).1 h.eta_lt (stotOf_range h.phys).1 (stotOf_range h.phys).2

lemma ins_values (h : SmoothFam θ e0) (i : Fin 4) :
    ContDiffAt ℝ ∞ (fun e => inspiral_phase_values (θ e) PhenomX_phase_coeff_table i) e0 := by
  have h0 := h.phase_fit_pn (i := 0) (by norm_num)
  have h1 := h.phase_fit_pn (i := 1) (by norm_num)
  have h2 := h.phase_fit_pn (i := 2) (by norm_num)
  have h3 := h.phase_fit_pn (i := 3) (by norm_num)
  fin_cases i
  · exact h0.add h2
  · exact h1.add h2
  · exact h2
  · exact h3.add h2

lemma ins_nodes (h : SmoothFam θ e0) (i : Fin 4) :
    ContDiffAt ℝ ∞ (fun e => inspiral_phase_nodes (θ e) i) e0 ∧ 0 < inspiral_phase_nodes (θ e0) i := by
  have hm := h.fMECO
  have hl := (C92_regions_ordered _ h.phys).1.1
  norm_num at hl
  have e : ∀ k : ℝ, ContDiffAt ℝ ∞ (fun e => k * (1.020 * (cut (θ e)).fMECO - 0.0026) + 0.0026) e0 := fun k => by fun_prop
  fin_cases i
  · exact ⟨e 0, by change 0 < 0 * (1.020 * (cut (θ e0)).fMECO - 0.0026) + 0.0026; norm_num⟩
  · exact ⟨e (1 / 4), by change 0 < 1 / 4 * (1.020 * (cut (θ e0)).fMECO - 0.0026) + 0.0026; norm_num; linarith⟩
  · exact ⟨e (3 / 4), by change 0 < 3 / 4 * (1.020 * (cut (θ e0)).fMECO - 0.0026) + 0.0026; norm_num; linarith⟩
  · exact ⟨e 1, by change 0 < 1 * (1.020 * (cut (θ e0)).fMECO - 0.0026) + 0.0026; norm_num; linarith⟩

lemma rpow_smooth {x : E → ℝ} (hx : ContDiffAt ℝ ∞ x e0) (h0 : 0 < x e0) (p : ℝ) : ContDiffAt ℝ ∞ (fun e => x e ^ p) e0 :=
  hx.rpow_const_of_ne h0.ne'

lemma zpow_smooth {x : E → ℝ} (hx : ContDiffAt ℝ ∞ x e0) (h0 : 0 < x e0) (n : ℕ) :
    ContDiffAt ℝ ∞ (fun e => x e ^ (-(n : ℤ))) e0 := by
  simp only [zpow_neg, zpow_natCast]
  exact (hx.pow n).inv (by positivity)

lemma ins_coeffs (h : SmoothFam θ e0) (i : Fin 4) :
    ContDiffAt ℝ ∞ (fun e => inspiral_phase_coeffs (θ e) PhenomX_phase_coeff_table i) e0 := by
  unfold inspiral_phase_coeffs
  refine smooth_solve (A := fun e => inspiral_phase_matrix (inspiral_phase_nodes (θ e)))
    (b := fun e => inspiral_phase_values (θ e) PhenomX_phase_coeff_table) (fun i j => ?_) h.ins_values (ins_phase_det h.phys) i
  unfold inspiral_phase_matrix
  have hn := h.ins_nodes
  fin_cases i <;> fin_cases j <;> simp <;>
    first
      | exact contDiffAt_const
      | exact (hn _).1
      | exact rpow_smooth (hn _).1 (hn _).2 _

lemma ins_form {x p0 p1 p2 p3 p4 p5 p5L p6 p6L p7 p8 p8L c0 c1 c2 c3 : E → ℝ} (hx : ContDiffAt ℝ ∞ x e0) (h0 : 0 < x e0)
    (hp0 : ContDiffAt ℝ ∞ p0 e0) (hp1 : ContDiffAt ℝ ∞ p1 e0) (hp2 : ContDiffAt ℝ ∞ p2 e0) (hp3 : ContDiffAt ℝ ∞ p3 e0)
    (hp4 : ContDiffAt ℝ ∞ p4 e0) (hp5 : ContDiffAt ℝ ∞ p5 e0) (hp5L : ContDiffAt ℝ ∞ p5L e0) (hp6 : ContDiffAt ℝ ∞ p6 e0)
    (hp6L : ContDiffAt ℝ ∞ p6L e0) (hp7 : ContDiffAt ℝ ∞ p7 e0) (hp8 : ContDiffAt ℝ ∞ p8 e0) (hp8L : ContDiffAt ℝ ∞ p8L e0)
    (hc0 : ContDiffAt ℝ ∞ c0 e0) (hc1 : ContDiffAt ℝ ∞ c1 e0) (hc2 : ContDiffAt ℝ ∞ c2 e0) (hc3 : ContDiffAt ℝ ∞ c3 e0) :
    ContDiffAt ℝ ∞ (fun e => (p0 e + p1 e * x e ^ ((1 : ℝ) / 3) + p2 e * x e ^ ((2 : ℝ) / 3) + p3 e * x e + p4 e * x e ^
      ((4 : ℝ) / 3) + p5 e * x e ^ ((5 : ℝ) / 3) + p5L e * x e ^ ((5 : ℝ) / 3) * Real.log (x e) + p6 e * x e ^ 2 + p6L e
      * x e ^ 2 * Real.log (x e) + p7 e * x e ^ ((7 : ℝ) / 3) + p8 e * x e ^ ((8 : ℝ) / 3) + p8L e * x e ^ ((8 : ℝ) /
      3) * Real.log (x e) + ((-5) / 3 * c0 e * x e ^ ((8 : ℝ) / 3) + (-5) / 4 * c1 e * x e ^ 3 + (-5) / 5 * c2 e *
      x e ^ ((10 : ℝ) / 3) + (-5) / 6 * c3 e * x e ^ ((11 : ℝ) / 3))) * ((-(3 * PI ^ (-((5 : ℝ) / 3)))) / 128) *
      x e ^ (-((5 : ℝ) / 3))) e0 := by
  have hl : ContDiffAt ℝ ∞ (fun e => Real.log (x e)) e0 := hx.log h0.ne'
  have hn : x e0 ≠ 0 := h0.ne'
  fun_prop (disch := exact hn)

/-- the inspiral phase -/
lemma ins_phase (h : SmoothFam θ e0) {x : E → ℝ} (hx : ContDiffAt ℝ ∞ x e0) (h0 : 0 < x e0) :
    ContDiffAt ℝ ∞ (fun e => get_inspiral_phase (x e) (θ e) PhenomX_phase_coeff_table) e0 := by
  obtain ⟨p0, p1, p2, p3, p4, p5, p5L, p6, p6L, p7, p8, p8L⟩ := h.phasePN
  exact ins_form hx h0 p0 p1 p2 p3 p4 p5 p5L p6 p6L p7 p8 p8L (h.ins_coeffs 0) (h.ins_coeffs 1) (h.ins_coeffs 2)
    (h.ins_coeffs 3)

end SmoothFam
end XAS
end Ripple
