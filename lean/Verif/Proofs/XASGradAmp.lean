/-
  The amplitude of IMRPhenomXAS is continuously differentiable in all parameters and the frequency together, where the
  conditions under which it is positive hold and `gamma2 ≠ 1`.
-/
import Verif.Proofs.XASGradPsi
import Verif.Proofs.XASSpin
import Mathlib.Analysis.Calculus.Deriv.Abs

namespace Ripple
open scoped ContDiff Topology
open Filter

namespace XAS
namespace SmoothFam
variable {E : Type} [NormedAddCommGroup E] [NormedSpace ℝ E] {θ : E → Theta} {e0 : E}

/-! ### the pseudo-PN terms and the connection polynomial as functions of their data -/

lemma rho_form {a3 b3 c3 a7 b7 c7 a8 b8 c8 p q r u v w : E → ℝ} (a3' : ContDiffAt ℝ ∞ a3 e0) (b3' : ContDiffAt ℝ ∞ b3 e0)
    (c3' : ContDiffAt ℝ ∞ c3 e0) (a7' : ContDiffAt ℝ ∞ a7 e0) (b7' : ContDiffAt ℝ ∞ b7 e0) (c7' : ContDiffAt ℝ ∞ c7 e0)
    (a8' : ContDiffAt ℝ ∞ a8 e0) (b8' : ContDiffAt ℝ ∞ b8 e0) (c8' : ContDiffAt ℝ ∞ c8 e0) (p' : ContDiffAt ℝ ∞ p e0)
    (q' : ContDiffAt ℝ ∞ q e0) (r' : ContDiffAt ℝ ∞ r e0) (u' : ContDiffAt ℝ ∞ u e0) (v' : ContDiffAt ℝ ∞ v e0)
    (w' : ContDiffAt ℝ ∞ w e0)
    (hne : a7 e0 * (p e0 - q e0) * b7 e0 * (p e0 - r e0) * (q e0 - r e0) * c7 e0 ≠ 0) :
    ContDiffAt ℝ ∞ (fun e => (-(b8 e * c3 e * u e) + b3 e * c8 e * u e + a8 e * c3 e * v e - a3 e * c8 e * v e -
      a8 e * b3 e * w e + a3 e * b8 e * w e) / (a7 e * (p e - q e) * b7 e * (p e - r e) * (q e - r e) * c7 e)) e0 ∧
    ContDiffAt ℝ ∞ (fun e => (b7 e * c3 e * u e - b3 e * c7 e * u e - a7 e * c3 e * v e + a3 e * c7 e * v e +
      a7 e * b3 e * w e - a3 e * b7 e * w e) / (a7 e * (p e - q e) * b7 e * (p e - r e) * (q e - r e) * c7 e)) e0 ∧
    ContDiffAt ℝ ∞ (fun e => (b8 e * c7 e * u e - b7 e * c8 e * u e - a8 e * c7 e * v e + a7 e * c8 e * v e +
      a8 e * b7 e * w e - a7 e * b8 e * w e) / (a7 e * (p e - q e) * b7 e * (p e - r e) * (q e - r e) * c7 e)) e0 := by
  refine ⟨ContDiffAt.div ?_ ?_ hne, ContDiffAt.div ?_ ?_ hne, ContDiffAt.div ?_ ?_ hne⟩ <;> fun_prop

lemma cbrt_smooth {x : E → ℝ} (hx : ContDiffAt ℝ ∞ x e0) (h0 : 0 < x e0) : ContDiffAt ℝ ∞ (fun e => Jnp.cbrt (x e)) e0 := by
  refine (rpow_smooth hx h0 (1 / 3)).congr_of_eventuallyEq ?_
  filter_upwards [hx.continuousAt.eventually_const_lt h0] with e k
  unfold Jnp.cbrt
  rw [if_pos k.le]

lemma cbrt_lt {x y : ℝ} (hx : 0 < x) (hxy : x < y) : Jnp.cbrt x < Jnp.cbrt y := by
  unfold Jnp.cbrt
  rw [if_pos hx.le, if_pos (hx.trans hxy).le]
  exact Real.rpow_lt_rpow hx.le hxy (by norm_num)

lemma rho_smooth {a b c u v w : E → ℝ} (ha : ContDiffAt ℝ ∞ a e0) (hb : ContDiffAt ℝ ∞ b e0) (hc : ContDiffAt ℝ ∞ c e0)
    (hu : ContDiffAt ℝ ∞ u e0) (hv : ContDiffAt ℝ ∞ v e0) (hw : ContDiffAt ℝ ∞ w e0) (h0 : 0 < a e0) (h1 : a e0 < b e0)
    (h2 : b e0 < c e0) (i : Fin 3) :
    ContDiffAt ℝ ∞ (fun e => inspiral_Amp_rho ![a e, b e, c e] ![u e, v e, w e] i) e0 := by
  have b0 : 0 < b e0 := h0.trans h1
  have c0 : 0 < c e0 := b0.trans h2
  have k := rho_form (ha.pow 3) (hb.pow 3) (hc.pow 3) (rpow_smooth ha h0 (7 / 3)) (rpow_smooth hb b0 (7 / 3))
    (rpow_smooth hc c0 (7 / 3)) (rpow_smooth ha h0 (8 / 3)) (rpow_smooth hb b0 (8 / 3)) (rpow_smooth hc c0 (8 / 3))
    (cbrt_smooth ha h0) (cbrt_smooth hb b0) (cbrt_smooth hc c0) hu hv hw (by
      have r1 := cbrt_lt h0 h1
      have r2 := cbrt_lt b0 h2
      have p1 := Real.rpow_pos_of_pos h0 (7 / 3)
      have p2 := Real.rpow_pos_of_pos b0 (7 / 3)
      have p3 := Real.rpow_pos_of_pos c0 (7 / 3)
      refine mul_ne_zero (mul_ne_zero (mul_ne_zero (mul_ne_zero (mul_ne_zero p1.ne' ?_) p2.ne') ?_) ?_) p3.ne' <;>
        refine sub_ne_zero.2 (ne_of_lt ?_)
      · exact r1
      · exact r1.trans r2
      · exact r2)
  fin_cases i
  · exact k.1
  · exact k.2.1
  · exact k.2.2

lemma delta_smooth {a b c u v w p q : E → ℝ} (ha : ContDiffAt ℝ ∞ a e0) (hb : ContDiffAt ℝ ∞ b e0) (hc : ContDiffAt ℝ ∞ c e0)
    (hu : ContDiffAt ℝ ∞ u e0) (hv : ContDiffAt ℝ ∞ v e0) (hw : ContDiffAt ℝ ∞ w e0) (hp : ContDiffAt ℝ ∞ p e0)
    (hq : ContDiffAt ℝ ∞ q e0) (h1 : a e0 ≠ b e0) (h2 : b e0 ≠ c e0) (h3 : a e0 ≠ c e0) (i : Fin 5) :
    ContDiffAt ℝ ∞ (fun e => intermediate_Amp_delta (a e) (b e) (c e) (u e) (v e) (w e) (p e) (q e) i) e0 := by
  have n1 := sub_ne_zero.2 h1
  have n2 := sub_ne_zero.2 h2
  have n3 := sub_ne_zero.2 h3
  have hne : (a e0 - b e0) * (a e0 - b e0) * ((a e0 - c e0) * (a e0 - c e0) * (a e0 - c e0)) *
      ((b e0 - c e0) * (b e0 - c e0)) ≠ 0 := by positivity
  have hD : ContDiffAt ℝ ∞ (fun e => (a e - b e) * (a e - b e) * ((a e - c e) * (a e - c e) * (a e - c e)) *
      ((b e - c e) * (b e - c e))) e0 := by fun_prop
  unfold intermediate_Amp_delta
  fin_cases i
  · refine ContDiffAt.div ?_ hD hne
    fun_prop
  · refine ContDiffAt.div ?_ hD hne
    fun_prop
  · refine ContDiffAt.div ?_ hD hne
    fun_prop
  · refine ContDiffAt.div ?_ hD hne
    fun_prop
  · refine ContDiffAt.div ?_ hD hne
    fun_prop

/-! ### the inspiral amplitude -/

lemma F1 (h : SmoothFam θ e0) : ContDiffAt ℝ ∞ (fun e => ampMatchIN (θ e)) e0 := by
  have hm := h.fMECO
  have hi := h.fISCO
  change ContDiffAt ℝ ∞ (fun e => (cut (θ e)).fMECO + 0.25 * ((cut (θ e)).fISCO - (cut (θ e)).fMECO)) e0
  fun_prop

lemma F1_pos (h : SmoothFam θ e0) : 0 < ampMatchIN (θ e0) := by
  have := (C92_regions_ordered _ h.phys).2.2.2.1.1
  norm_num at this
  linarith

lemma F1_lt (h : SmoothFam θ e0) : ampMatchIN (θ e0) < ampPeak (θ e0) PhenomX_amp_coeff_table :=
  (C92_regions_ordered _ h.phys).2.2.2.1.2.1

lemma ampPN (h : SmoothFam θ e0) :
    ContDiffAt ℝ ∞ (fun e => (inspiral_Amp_PN (θ e)).A0) e0 ∧ ContDiffAt ℝ ∞ (fun e => (inspiral_Amp_PN (θ e)).A2) e0 ∧
    ContDiffAt ℝ ∞ (fun e => (inspiral_Amp_PN (θ e)).A3) e0 ∧ ContDiffAt ℝ ∞ (fun e => (inspiral_Amp_PN (θ e)).A4) e0 ∧
    ContDiffAt ℝ ∞ (fun e => (inspiral_Amp_PN (θ e)).A5) e0 ∧ ContDiffAt ℝ ∞ (fun e => (inspiral_Amp_PN (θ e)).A6) e0 := by
  have he := h.eta
  have hd := h.dd
  have c1 := h.chi1
  have c2 := h.chi2
  unfold inspiral_Amp_PN
  simp only [eta_fold, d_fold]
  generalize hη : (fun e => etaOf (θ e)) = η at *
  generalize hδ : (fun e => dOf (θ e)) = δ at *
  simp only [fun e => congrFun hη e, fun e => congrFun hδ e]
  refine ⟨?_, ?_, ?_, ?_, ?_, ?_⟩ <;> fun_prop

lemma amp_fit_pn (h : SmoothFam θ e0) {i : ℕ} (hi : i < 7) :
    ContDiffAt ℝ ∞ (fun e => XAS.ampCV PhenomX_amp_coeff_table i (etaOf (θ e)) (chipnOf (θ e))
      ((θ e).chi1 - (θ e).chi2)) e0 :=
  ampCV hi h.eta h.chipn (h.chi1.sub h.chi2) (etaOf_range h.phys).1 h.eta_lt (chipnOf_range h.phys).1 (chipnOf_range h.phys).2

lemma amp_fit (h : SmoothFam θ e0) {i : ℕ} (hi : i < 7) :
    ContDiffAt ℝ ∞ (fun e => XAS.ampCV PhenomX_amp_coeff_table i (etaOf (θ e)) (stotOf (θ e))
      ((θ e).chi1 - (θ e).chi2)) e0 :=
  ampCV hi h.eta h.stot (h.chi1.sub h.chi2) (etaOf_range h.phys).1 h.eta_lt (stotOf_range h.phys).1 (stotOf_range h.phys).2

lemma rho (h : SmoothFam θ e0) (i : Fin 3) : ContDiffAt ℝ ∞ (fun e => inspiral_Amp_rho (inspiral_Amp_nodes (θ e))
    (inspiral_Amp_values (θ e) PhenomX_amp_coeff_table) i) e0 := by
  have p := h.F1_pos
  exact rho_smooth (contDiffAt_const (c := (0.50 : ℝ)).mul h.F1) (contDiffAt_const (c := (0.75 : ℝ)).mul h.F1)
    (contDiffAt_const (c := (1 : ℝ)).mul h.F1) (h.amp_fit_pn (i := 0) (by norm_num)) (h.amp_fit_pn (i := 1) (by norm_num))
    (h.amp_fit_pn (i := 2) (by norm_num)) (by positivity) (by linarith) (by linarith) i

lemma insA_form {x a0 a2 a3 a4 a5 a6 r0 r1 r2 : E → ℝ} (hx : ContDiffAt ℝ ∞ x e0) (h0 : 0 < x e0)
    (ha0 : ContDiffAt ℝ ∞ a0 e0) (ha2 : ContDiffAt ℝ ∞ a2 e0) (ha3 : ContDiffAt ℝ ∞ a3 e0) (ha4 : ContDiffAt ℝ ∞ a4 e0)
    (ha5 : ContDiffAt ℝ ∞ a5 e0) (ha6 : ContDiffAt ℝ ∞ a6 e0) (hr0 : ContDiffAt ℝ ∞ r0 e0) (hr1 : ContDiffAt ℝ ∞ r1 e0)
    (hr2 : ContDiffAt ℝ ∞ r2 e0) :
    ContDiffAt ℝ ∞ (fun e => a0 e + a2 e * x e ^ ((2 : ℝ) / 3) + a3 e * x e + a4 e * x e ^ ((4 : ℝ) / 3) +
      a5 e * x e ^ ((5 : ℝ) / 3) + a6 e * x e ^ 2 + r0 e * x e ^ ((7 : ℝ) / 3) + r1 e * x e ^ ((8 : ℝ) / 3) + r2 e * x e ^ 3) e0 :=
  have k := rpow_smooth hx h0
  (((((((ha0.add (ha2.mul (k _))).add (ha3.mul hx)).add (ha4.mul (k _))).add (ha5.mul (k _))).add (ha6.mul (hx.pow 2))).add
    (hr0.mul (k _))).add (hr1.mul (k _))).add (hr2.mul (hx.pow 3))

lemma insA (h : SmoothFam θ e0) {x : E → ℝ} (hx : ContDiffAt ℝ ∞ x e0) (h0 : 0 < x e0) :
    ContDiffAt ℝ ∞ (fun e => get_inspiral_Amp (x e) (θ e) PhenomX_amp_coeff_table) e0 := by
  obtain ⟨a0, a2, a3, a4, a5, a6⟩ := h.ampPN
  exact insA_form hx h0 a0 a2 a3 a4 a5 a6 (h.rho 0) (h.rho 1) (h.rho 2)

/-! ### the ringdown amplitude -/

lemma g2 (h : SmoothFam θ e0) : ContDiffAt ℝ ∞ (fun e => (ringdown_Amp_fits (θ e) PhenomX_amp_coeff_table).1) e0 :=
  h.amp_fit (i := 4) (by norm_num)

lemma g3 (h : SmoothFam θ e0) : ContDiffAt ℝ ∞ (fun e => (ringdown_Amp_fits (θ e) PhenomX_amp_coeff_table).2.1) e0 :=
  h.amp_fit (i := 5) (by norm_num)

lemma v1 (h : SmoothFam θ e0) : ContDiffAt ℝ ∞ (fun e => (ringdown_Amp_fits (θ e) PhenomX_amp_coeff_table).2.2) e0 :=
  h.amp_fit (i := 6) (by norm_num)

lemma peak_form {r w g k : E → ℝ} (hr : ContDiffAt ℝ ∞ r e0) (hw : ContDiffAt ℝ ∞ w e0) (hg : ContDiffAt ℝ ∞ g e0)
    (hk : ContDiffAt ℝ ∞ k e0) (g0 : 0 < g e0) (g1 : g e0 ≠ 1) (hp : ampRDMin (r e0) (w e0) (g e0) (k e0) ≠ 0) :
    ContDiffAt ℝ ∞ (fun e => ampRDMin (r e) (w e) (g e) (k e)) e0 := by
  rcases lt_or_gt_of_ne g1 with h1 | h1
  · have hs : ContDiffAt ℝ ∞ (fun e => Real.sqrt (1 - g e * g e)) e0 := ContDiffAt.sqrt (by fun_prop) (by nlinarith)
    have hi : ContDiffAt ℝ ∞ (fun e => r e + w e * k e * (Real.sqrt (1 - g e * g e) - 1) / g e) e0 :=
      hr.add (((hw.mul hk).mul (hs.sub contDiffAt_const)).div hg g0.ne')
    have e1 : ∀ e, g e < 1 → ampRDMin (r e) (w e) (g e) (k e) =
        |r e + w e * k e * (Real.sqrt (1 - g e * g e) - 1) / g e| := fun e he => if_pos he.le
    rw [e1 _ h1] at hp
    refine (ContDiffAt.comp e0 (contDiffAt_abs (abs_ne_zero.1 hp)) hi).congr_of_eventuallyEq ?_
    filter_upwards [hg.continuousAt.eventually_lt_const h1] with e he
    exact e1 e he
  · have hi : ContDiffAt ℝ ∞ (fun e => r e + w e * (-1) * k e / g e) e0 :=
      hr.add (((hw.mul contDiffAt_const).mul hk).div hg g0.ne')
    have e1 : ∀ e, 1 < g e → ampRDMin (r e) (w e) (g e) (k e) = |r e + w e * (-1) * k e / g e| := fun e he => if_neg he.not_ge
    rw [e1 _ h1] at hp
    refine (ContDiffAt.comp e0 (contDiffAt_abs (abs_ne_zero.1 hp)) hi).congr_of_eventuallyEq ?_
    filter_upwards [hg.continuousAt.eventually_const_lt h1] with e he
    exact e1 e he

lemma g2_pos (h : SmoothFam θ e0) : 0 < (ringdown_Amp_fits (θ e0) PhenomX_amp_coeff_table).1 :=
  (C92_regions_ordered _ h.phys).2.2.2.2.2.1

lemma g3_pos (h : SmoothFam θ e0) : 0 < (ringdown_Amp_fits (θ e0) PhenomX_amp_coeff_table).2.1 :=
  (C92_regions_ordered _ h.phys).2.2.2.2.2.2

lemma F4_pos (h : SmoothFam θ e0) : 0 < ampPeak (θ e0) PhenomX_amp_coeff_table := h.F1_pos.trans h.F1_lt

lemma F4 (h : SmoothFam θ e0) (hg : (ringdown_Amp_fits (θ e0) PhenomX_amp_coeff_table).1 ≠ 1) :
    ContDiffAt ℝ ∞ (fun e => ampPeak (θ e) PhenomX_amp_coeff_table) e0 :=
  peak_form h.fRD h.fdamp h.g2 h.g3 h.g2_pos hg h.F4_pos.ne'

lemma rdA_form {x r w g k v F : E → ℝ} (hx : ContDiffAt ℝ ∞ x e0) (hr : ContDiffAt ℝ ∞ r e0) (hw : ContDiffAt ℝ ∞ w e0)
    (hg : ContDiffAt ℝ ∞ g e0) (hk : ContDiffAt ℝ ∞ k e0) (hv : ContDiffAt ℝ ∞ v e0) (hF : ContDiffAt ℝ ∞ F e0)
    (w0 : 0 < w e0) (k0 : 0 < k e0) :
    ContDiffAt ℝ ∞ (fun e => Real.exp ((-(x e - r e)) * (g e / (w e * k e))) * (w e * (v e / (w e * k e) *
      (F e * F e - 2 * F e * r e + r e * r e + w e * w e * k e * k e) * Real.exp ((F e - r e) * g e / (w e * k e))) * k e) /
      ((x e - r e) * (x e - r e) + k e * w e * (k e * w e))) e0 := by
  have hwk : ContDiffAt ℝ ∞ (fun e => w e * k e) e0 := hw.mul hk
  have n : w e0 * k e0 ≠ 0 := by positivity
  have h1 : ContDiffAt ℝ ∞ (fun e => g e / (w e * k e)) e0 := hg.div hwk n
  have h2 : ContDiffAt ℝ ∞ (fun e => v e / (w e * k e)) e0 := hv.div hwk n
  have h3 : ContDiffAt ℝ ∞ (fun e => (F e - r e) * g e / (w e * k e)) e0 := ((hF.sub hr).mul hg).div hwk n
  refine ContDiffAt.div ?_ (by fun_prop) ?_
  · exact (((hx.sub hr).neg.mul h1).exp).mul ((hw.mul ((h2.mul ((((hF.mul hF).sub ((contDiffAt_const.mul hF).mul hr)).add
      (hr.mul hr)).add (((hw.mul hw).mul hk).mul hk))).mul h3.exp)).mul hk)
  · have := mul_self_nonneg (x e0 - r e0)
    positivity

lemma rdA (h : SmoothFam θ e0) (hg : (ringdown_Amp_fits (θ e0) PhenomX_amp_coeff_table).1 ≠ 1) {x : E → ℝ}
    (hx : ContDiffAt ℝ ∞ x e0) :
    ContDiffAt ℝ ∞ (fun e => (get_mergerringdown_Amp (x e) (θ e) PhenomX_amp_coeff_table).1) e0 :=
  rdA_form hx h.fRD h.fdamp h.g2 h.g3 h.v1 (h.F4 hg) h.fdamp_pos h.g3_pos

/-! ### the connection polynomial -/

lemma insA_u (h : SmoothFam θ e0) {x0 : ℝ} (h0 : 0 < x0) :
    ContDiffAt ℝ ∞ (Function.uncurry fun e x => get_inspiral_Amp x (θ e) PhenomX_amp_coeff_table) (e0, x0) :=
  (h.prod x0).insA (x := Prod.snd) contDiffAt_snd h0

lemma rdA_u (h : SmoothFam θ e0) (hg : (ringdown_Amp_fits (θ e0) PhenomX_amp_coeff_table).1 ≠ 1) (x0 : ℝ) :
    ContDiffAt ℝ ∞ (Function.uncurry fun e x => (get_mergerringdown_Amp x (θ e) PhenomX_amp_coeff_table).1) (e0, x0) :=
  (h.prod x0).rdA hg (x := Prod.snd) contDiffAt_snd

lemma fd_ne (h : SmoothFam θ e0) : (get_cutoff_fMs (θ e0).m1 (θ e0).m2 (θ e0).chi1 (θ e0).chi2).fdamp *
    (ringdown_Amp_fits (θ e0) PhenomX_amp_coeff_table).2.1 ≠ 0 := (mul_pos h.fdamp_pos h.g3_pos).ne'

lemma slope_form {F i d : E → ℝ} (hF : ContDiffAt ℝ ∞ F e0) (F0 : 0 < F e0) (hi : ContDiffAt ℝ ∞ i e0)
    (hd : ContDiffAt ℝ ∞ d e0) (i0 : i e0 ≠ 0) :
    ContDiffAt ℝ ∞ (fun e => 7 / 6 * F e ^ ((1 : ℝ) / 6) / i e - F e ^ ((7 : ℝ) / 6) * d e / (i e * i e)) e0 :=
  ((contDiffAt_const.mul (rpow_smooth hF F0 _)).div hi i0).sub (((rpow_smooth hF F0 _).mul hd).div (hi.mul hi)
    (mul_ne_zero i0 i0))

lemma value_form {F i : E → ℝ} (hF : ContDiffAt ℝ ∞ F e0) (F0 : 0 < F e0) (hi : ContDiffAt ℝ ∞ i e0) (i0 : i e0 ≠ 0) :
    ContDiffAt ℝ ∞ (fun e => 1 / (F e ^ (-((7 : ℝ) / 6)) * i e)) e0 :=
  contDiffAt_const.div ((rpow_smooth hF F0 _).mul hi) (mul_ne_zero (Real.rpow_pos_of_pos F0 _).ne' i0)

lemma intA_coeffs (h : SmoothFam θ e0) (H : AmpGood (θ e0)) (hg : (ringdown_Amp_fits (θ e0) PhenomX_amp_coeff_table).1 ≠ 1)
    (i : Fin 5) :
    ContDiffAt ℝ ∞ (fun e => intermediate_Amp_coeffs (θ e) PhenomX_amp_coeff_table (ampPeak (θ e) PhenomX_amp_coeff_table) i) e0 := by
  have p1 := h.F1_pos
  have p4 := h.F4_pos
  have lt := h.F1_lt
  have hI := h.insA h.F1 p1
  have hR := h.rdA hg (h.F4 hg)
  have I0 := (H.ins_pos _ p1 le_rfl).ne'
  have R0 : (get_mergerringdown_Amp (ampPeak (θ e0) PhenomX_amp_coeff_table) (θ e0) PhenomX_amp_coeff_table).1 ≠ 0 := by
    rw [rd_Amp_peak _ _ h.fd_ne]; exact H.rd_pos.ne'
  have dI := smooth_deriv (G := fun e x => get_inspiral_Amp x (θ e) PhenomX_amp_coeff_table) (h.insA_u p1) h.F1
  have dR := smooth_deriv (G := fun e x => (get_mergerringdown_Amp x (θ e) PhenomX_amp_coeff_table).1) (h.rdA_u hg _) (h.F4 hg)
  have hm := contDiffAt_const (c := (1 : ℝ)).div (h.amp_fit (i := 3) (by norm_num)) H.mid_pos.ne'
  exact delta_smooth h.F1 (h.F1.add (contDiffAt_const (c := (1 : ℝ) / 2).mul ((h.F4 hg).sub h.F1))) (h.F4 hg)
    (value_form h.F1 p1 hI I0) hm (value_form (h.F4 hg) p4 hR R0) (slope_form h.F1 p1 hI dI I0)
    (slope_form (h.F4 hg) p4 hR dR R0) (by intro k; linarith) (by intro k; linarith) lt.ne i

lemma quartic_form {x a b c d f : E → ℝ} (hx : ContDiffAt ℝ ∞ x e0) (ha : ContDiffAt ℝ ∞ a e0) (hb : ContDiffAt ℝ ∞ b e0)
    (hc : ContDiffAt ℝ ∞ c e0) (hd : ContDiffAt ℝ ∞ d e0) (hf : ContDiffAt ℝ ∞ f e0) (h0 : 0 < x e0)
    (hq : a e0 + x e0 * (b e0 + x e0 * (c e0 + x e0 * (d e0 + x e0 * f e0))) ≠ 0) :
    ContDiffAt ℝ ∞ (fun e => x e ^ ((7 : ℝ) / 6) / (a e + x e * (b e + x e * (c e + x e * (d e + x e * f e))))) e0 :=
  (rpow_smooth hx h0 _).div (by fun_prop) hq

lemma intA (h : SmoothFam θ e0) (H : AmpGood (θ e0)) (hg : (ringdown_Amp_fits (θ e0) PhenomX_amp_coeff_table).1 ≠ 1) {x : E → ℝ}
    (hx : ContDiffAt ℝ ∞ x e0) (h1 : ampMatchIN (θ e0) ≤ x e0) (h4 : x e0 ≤ ampPeak (θ e0) PhenomX_amp_coeff_table) :
    ContDiffAt ℝ ∞ (fun e => get_intermediate_Amp (x e) (θ e) PhenomX_amp_coeff_table
      (ampPeak (θ e) PhenomX_amp_coeff_table)) e0 :=
  quartic_form hx (h.intA_coeffs H hg 0) (h.intA_coeffs H hg 1) (h.intA_coeffs H hg 2) (h.intA_coeffs H hg 3)
    (h.intA_coeffs H hg 4) (h.F1_pos.trans_le h1) (H.quartic_pos h.phys h1 h4).ne'

/-! ### the glued amplitude -/

lemma unit_smooth (h : SmoothFam θ e0) {D : E → ℝ} (hD : ContDiffAt ℝ ∞ D e0) (D0 : 0 < D e0) :
    ContDiffAt ℝ ∞ (fun e => ampUnit (θ e) (D e)) e0 := by
  have hM : ContDiffAt ℝ ∞ (fun e => PhenomD.Ms (θ e)) e0 := h.total
  have hmM : 0 < m_per_Mpc := by unfold m_per_Mpc; norm_num
  have hC : 0 < C := by unfold C; norm_num
  have hs : ContDiffAt ℝ ∞ (fun e => Real.sqrt (2 * etaOf (θ e) / 3)) e0 := by
    have he := h.eta
    have := (etaOf_range h.phys).1
    exact ContDiffAt.sqrt (by fun_prop) (by positivity)
  exact (((contDiffAt_const.mul (hM.pow 2)).div ((hD.mul contDiffAt_const).div_const _)
    (div_ne_zero (mul_ne_zero D0.ne' hmM.ne') hC.ne'))).mul (hs.mul contDiffAt_const)

/-- the amplitude is continuously differentiable in all parameters and the frequency together -/
lemma Amp_C1 (h : SmoothFam θ e0) (H : AmpGood (θ e0)) (hg : (ringdown_Amp_fits (θ e0) PhenomX_amp_coeff_table).1 ≠ 1)
    {f D : E → ℝ} (hf : ContDiffAt ℝ ∞ f e0) (hD : ContDiffAt ℝ ∞ D e0) (D0 : 0 < D e0) (f0 : 0 < f e0)
    (fc : f e0 * (((θ e0).m1 + (θ e0).m2) * gt) < 0.3) :
    ContDiffAt ℝ 1 (fun e => Amp (f e) (θ e) PhenomX_amp_coeff_table (D e)) e0 := by
  have hM : ContDiffAt ℝ ∞ (fun e => PhenomD.Ms (θ e)) e0 := h.total
  have g := gt_pos
  have p1 := h.phys.m1_pos
  have p2 := h.phys.m2_pos
  have M0 : 0 < PhenomD.Ms (θ e0) := by unfold PhenomD.Ms; positivity
  have hx : ContDiffAt ℝ ∞ (fun e => f e * PhenomD.Ms (θ e)) e0 := hf.mul hM
  have x0 : 0 < f e0 * PhenomD.Ms (θ e0) := mul_pos f0 M0
  simp only [Amp_eq]
  have q1 := h.F1_pos
  have q4 := h.F4_pos
  have I0 := (H.ins_pos _ q1 le_rfl).ne'
  have R0 : (get_mergerringdown_Amp (ampPeak (θ e0) PhenomX_amp_coeff_table) (θ e0) PhenomX_amp_coeff_table).1 ≠ 0 := by
    rw [rd_Amp_peak _ _ h.fd_ne]; exact H.rd_pos.ne'
  have e1 := h.F1.continuousAt.eventually_const_lt q1
  have e4 := (h.F4 hg).continuousAt.eventually_const_lt q4
  have e14 := h.F1.continuousAt.eventually_lt (h.F4 hg).continuousAt h.F1_lt
  have eI := (h.insA h.F1 q1).continuousAt.eventually_ne I0
  have eR := (h.rdA hg (h.F4 hg)).continuousAt.eventually_ne R0
  have nodes : ∀ e, ampMatchIN (θ e) < ampPeak (θ e) PhenomX_amp_coeff_table →
      ampMatchIN (θ e) ≠ ampMatchIN (θ e) + 1 / 2 * (ampPeak (θ e) PhenomX_amp_coeff_table - ampMatchIN (θ e)) ∧
      ampMatchIN (θ e) + 1 / 2 * (ampPeak (θ e) PhenomX_amp_coeff_table - ampMatchIN (θ e)) ≠
        ampPeak (θ e) PhenomX_amp_coeff_table := fun e k => ⟨by intro j; linarith, by intro j; linarith⟩
  have m1 : ∀ᶠ e in 𝓝 e0, ampMatchIN (θ e) ^ ((7 : ℝ) / 6) / quartic (intermediate_Amp_coeffs (θ e) PhenomX_amp_coeff_table
        (ampPeak (θ e) PhenomX_amp_coeff_table)) (ampMatchIN (θ e)) = get_inspiral_Amp (ampMatchIN (θ e)) (θ e) PhenomX_amp_coeff_table ∧
      deriv (fun x => x ^ ((7 : ℝ) / 6) / quartic (intermediate_Amp_coeffs (θ e) PhenomX_amp_coeff_table
        (ampPeak (θ e) PhenomX_amp_coeff_table)) x) (ampMatchIN (θ e)) = deriv (fun x => get_inspiral_Amp (x) (θ e) PhenomX_amp_coeff_table) (ampMatchIN (θ e)) := by
    filter_upwards [e1, e14, eI] with e a b c
    obtain ⟨n12, n24⟩ := nodes e b
    exact quot_match (P := quartic (intermediate_Amp_coeffs (θ e) PhenomX_amp_coeff_table (ampPeak (θ e) PhenomX_amp_coeff_table)))
      (g := fun x => get_inspiral_Amp x (θ e) PhenomX_amp_coeff_table) a (quartic_hasDeriv _ _).differentiableAt c
      (q_value1 _ _ _ _ _ n12 b.ne n24) (q_slope1 _ _ _ _ _ n12 b.ne n24)
  have m4 : ∀ᶠ e in 𝓝 e0, ampPeak (θ e) PhenomX_amp_coeff_table ^ ((7 : ℝ) / 6) / quartic (intermediate_Amp_coeffs (θ e) PhenomX_amp_coeff_table
        (ampPeak (θ e) PhenomX_amp_coeff_table)) (ampPeak (θ e) PhenomX_amp_coeff_table) = (get_mergerringdown_Amp (ampPeak (θ e) PhenomX_amp_coeff_table) (θ e) PhenomX_amp_coeff_table).1 ∧
      deriv (fun x => x ^ ((7 : ℝ) / 6) / quartic (intermediate_Amp_coeffs (θ e) PhenomX_amp_coeff_table
        (ampPeak (θ e) PhenomX_amp_coeff_table)) x) (ampPeak (θ e) PhenomX_amp_coeff_table) = deriv (fun x => (get_mergerringdown_Amp (x) (θ e) PhenomX_amp_coeff_table).1) (ampPeak (θ e) PhenomX_amp_coeff_table) := by
    filter_upwards [e4, e14, eR] with e a b c
    obtain ⟨n12, n24⟩ := nodes e b
    exact quot_match (P := quartic (intermediate_Amp_coeffs (θ e) PhenomX_amp_coeff_table (ampPeak (θ e) PhenomX_amp_coeff_table)))
      (g := fun x => (get_mergerringdown_Amp x (θ e) PhenomX_amp_coeff_table).1) a (quartic_hasDeriv _ _).differentiableAt c
      (q_value4 _ _ _ _ _ n12 b.ne n24) (q_slope4 _ _ _ _ _ n12 b.ne n24)
  refine (((h.unit_smooth hD D0).of_le (by simp)).mul ?_).mul ((rpow_smooth hx x0 _).of_le (by simp))
  refine glue_three (I := fun e x => get_inspiral_Amp x (θ e) PhenomX_amp_coeff_table)
    (N := fun e x => get_intermediate_Amp x (θ e) PhenomX_amp_coeff_table (ampPeak (θ e) PhenomX_amp_coeff_table))
    (R := fun e x => (get_mergerringdown_Amp x (θ e) PhenomX_amp_coeff_table).1) (hx.of_le (by simp))
    (h.F1.of_le (by simp)) ((h.F4 hg).of_le (by simp)) h.F1_lt ?_ (fun _ => (h.insA_u x0).of_le (by simp))
    (fun a b => ((h.prod _).intA H hg (x := Prod.snd) contDiffAt_snd a b).of_le (by simp))
    (fun _ => (h.rdA_u hg _).of_le (by simp)) ?_ ?_ ?_ ?_
  · have : f e0 * PhenomD.Ms (θ e0) = f e0 * (((θ e0).m1 + (θ e0).m2) * gt) := by unfold PhenomD.Ms; ring
    rw [this]
    exact fc
  · filter_upwards [m1] with e a
    exact a.1.symm
  · filter_upwards [m1] with e a
    exact a.2.symm
  · filter_upwards [m4] with e a
    exact a.1
  · filter_upwards [m4] with e a
    exact a.2

end SmoothFam
end XAS
end Ripple
