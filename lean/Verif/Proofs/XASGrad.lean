/-
  The raw intermediate and ringdown phases of IMRPhenomXAS are smooth in the binary parameters and the frequency, and the
  glued phase is continuously differentiable in all of them together.
-/
import Verif.Proofs.XASSmooth

namespace Ripple
open scoped ContDiff Topology
open Filter

namespace XAS
namespace SmoothFam
variable {E : Type} [NormedAddCommGroup E] [NormedSpace ℝ E] {θ : E → Theta} {e0 : E}

lemma fdamp_pos (h : SmoothFam θ e0) : 0 < (cut (θ e0)).fdamp := (C92_regions_ordered _ h.phys).2.2.2.2.1

lemma f1_pos (h : SmoothFam θ e0) : 0 < fPhase1 (θ e0) := by
  have := (C92_regions_ordered _ h.phys).2.1.1
  linarith

lemma f12 (h : SmoothFam θ e0) : fPhase1 (θ e0) < fPhase2 (θ e0) := (C92_regions_ordered _ h.phys).2.1.2.1

lemma int_nodes (h : SmoothFam θ e0) (i : Fin 5) :
    ContDiffAt ℝ ∞ (fun e => intermediate_phase_nodes (θ e) i) e0 ∧ 0 < intermediate_phase_nodes (θ e0) i := by
  have h1 := h.f1
  have h2 := h.f2
  have p1 := h.f1_pos
  have p12 := h.f12
  obtain ⟨r1, r2⟩ := sqrt2_half
  have e : ∀ k : ℝ, 0 ≤ k → ContDiffAt ℝ ∞ (fun e => k * (fPhase2 (θ e) - fPhase1 (θ e)) + fPhase1 (θ e)) e0 ∧
      0 < k * (fPhase2 (θ e0) - fPhase1 (θ e0)) + fPhase1 (θ e0) := fun k hk =>
    ⟨by fun_prop, by have := mul_nonneg hk (sub_nonneg.2 p12.le); linarith⟩
  simp only [XAS.int_nodes]
  fin_cases i
  · exact e 0 le_rfl
  · exact e _ (by linarith)
  · exact e (1 / 2) (by norm_num)
  · exact e _ (by linarith)
  · exact e 1 (by norm_num)

lemma int_values (h : SmoothFam θ e0) {a b : E → ℝ} (ha : ContDiffAt ℝ ∞ a e0) (hb : ContDiffAt ℝ ∞ b e0) (i : Fin 5) :
    ContDiffAt ℝ ∞ (fun e => intermediate_phase_values (θ e) PhenomX_phase_coeff_table (a e) (b e) i) e0 := by
  have v := fun e => XAS.int_values (θ e) PhenomX_phase_coeff_table (a e) (b e)
  have h4 := h.phase_fit (i := 4) (by norm_num)
  have h5 := h.phase_fit (i := 5) (by norm_num)
  have h6 := h.phase_fit (i := 6) (by norm_num)
  have h7 := h.phase_fit (i := 7) (by norm_num)
  have h11 := h.phase_fit (i := 11) (by norm_num)
  fin_cases i
  · exact ha
  · exact ((contDiffAt_const.mul (h4.add h11)).add (contDiffAt_const.mul h6)).congr_of_eventuallyEq
      (.of_forall fun e => (v e).1)
  · exact (h5.add h11).congr_of_eventuallyEq (.of_forall fun e => (v e).2.1)
  · exact (h7.add (h5.add h11)).congr_of_eventuallyEq (.of_forall fun e => (v e).2.2)
  · exact hb

lemma lorentz {w r x c : E → ℝ} (hw : ContDiffAt ℝ ∞ w e0) (hr : ContDiffAt ℝ ∞ r e0) (hx : ContDiffAt ℝ ∞ x e0)
    (hc : ContDiffAt ℝ ∞ c e0) (h0 : 0 < w e0) :
    ContDiffAt ℝ ∞ (fun e => 4 * c e / (4 * w e * w e + (x e - r e) * (x e - r e))) e0 ∧
    ContDiffAt ℝ ∞ (fun e => c e / (w e * w e + (x e - r e) * (x e - r e))) e0 := by
  have k := mul_self_nonneg (x e0 - r e0)
  have k' := mul_pos h0 h0
  exact ⟨ContDiffAt.div (by fun_prop) (by fun_prop) (by nlinarith), ContDiffAt.div (by fun_prop) (by fun_prop) (by nlinarith)⟩

lemma int_coeffs (h : SmoothFam θ e0) {a b c : E → ℝ} (ha : ContDiffAt ℝ ∞ a e0) (hb : ContDiffAt ℝ ∞ b e0)
    (hc : ContDiffAt ℝ ∞ c e0) (i : Fin 5) :
    ContDiffAt ℝ ∞ (fun e => intermediate_phase_coeffs (θ e) PhenomX_phase_coeff_table (a e) (b e) (c e) i) e0 := by
  have hn := h.int_nodes
  have hv := h.int_values ha hb
  have hr := h.fRD
  have hw := h.fdamp
  have w0 := h.fdamp_pos
  have hL := fun i => (lorentz hw hr (hn i).1 hc w0).1
  refine smooth_solve (A := fun e => intermediate_phase_matrix (intermediate_phase_nodes (θ e)) (cut (θ e)).fRD)
    (b := fun e => ![intermediate_phase_values (θ e) PhenomX_phase_coeff_table (a e) (b e) 0 - 4 * c e /
        (4 * (cut (θ e)).fdamp * (cut (θ e)).fdamp + (intermediate_phase_nodes (θ e) 0 - (cut (θ e)).fRD) *
          (intermediate_phase_nodes (θ e) 0 - (cut (θ e)).fRD)),
      intermediate_phase_values (θ e) PhenomX_phase_coeff_table (a e) (b e) 1 - 4 * c e /
        (4 * (cut (θ e)).fdamp * (cut (θ e)).fdamp + (intermediate_phase_nodes (θ e) 1 - (cut (θ e)).fRD) *
          (intermediate_phase_nodes (θ e) 1 - (cut (θ e)).fRD)),
      intermediate_phase_values (θ e) PhenomX_phase_coeff_table (a e) (b e) 2 - 4 * c e /
        (4 * (cut (θ e)).fdamp * (cut (θ e)).fdamp + (intermediate_phase_nodes (θ e) 2 - (cut (θ e)).fRD) *
          (intermediate_phase_nodes (θ e) 2 - (cut (θ e)).fRD)),
      intermediate_phase_values (θ e) PhenomX_phase_coeff_table (a e) (b e) 3 - 4 * c e /
        (4 * (cut (θ e)).fdamp * (cut (θ e)).fdamp + (intermediate_phase_nodes (θ e) 3 - (cut (θ e)).fRD) *
          (intermediate_phase_nodes (θ e) 3 - (cut (θ e)).fRD)),
      intermediate_phase_values (θ e) PhenomX_phase_coeff_table (a e) (b e) 4 - 4 * c e /
        (4 * (cut (θ e)).fdamp * (cut (θ e)).fdamp + (intermediate_phase_nodes (θ e) 4 - (cut (θ e)).fRD) *
          (intermediate_phase_nodes (θ e) 4 - (cut (θ e)).fRD))])
    (fun i j => ?_) (fun i => ?_) (int_phase_det h.phys) i
  · unfold intermediate_phase_matrix
    have q := fun i => hr.div (hn i).1 (hn i).2.ne'
    fin_cases i <;> fin_cases j <;>
      first
        | exact contDiffAt_const
        | exact q _
        | exact (q _).mul (q _)
        | exact (q _).pow _
  · fin_cases i <;> exact (hv _).sub (hL _)

lemma int_form {x r w b0 b1 b2 b3 b4 c : E → ℝ} (hx : ContDiffAt ℝ ∞ x e0) (h0 : 0 < x e0) (hr : ContDiffAt ℝ ∞ r e0)
    (hw : ContDiffAt ℝ ∞ w e0) (w0 : 0 < w e0) (hb0 : ContDiffAt ℝ ∞ b0 e0) (hb1 : ContDiffAt ℝ ∞ b1 e0)
    (hb2 : ContDiffAt ℝ ∞ b2 e0) (hb3 : ContDiffAt ℝ ∞ b3 e0) (hb4 : ContDiffAt ℝ ∞ b4 e0) (hc : ContDiffAt ℝ ∞ c e0) :
    ContDiffAt ℝ ∞ (fun e => b0 e * x e + b1 e * r e * Real.log (x e) - b2 e * r e ^ 2 * x e ^ (-1 : ℤ) -
      b3 e * r e ^ 3 * x e ^ (-2 : ℤ) / 2 - b4 e * r e ^ 4 * x e ^ (-3 : ℤ) / 3 +
      2 * c e * Real.arctan ((x e - r e) / (2 * w e)) / w e) e0 := by
  have hl : ContDiffAt ℝ ∞ (fun e => Real.log (x e)) e0 := hx.log h0.ne'
  have z1 := zpow_smooth hx h0 1
  have z2 := zpow_smooth hx h0 2
  have z3 := zpow_smooth hx h0 3
  have ht : ContDiffAt ℝ ∞ (fun e => Real.arctan ((x e - r e) / (2 * w e))) e0 :=
    ContDiffAt.arctan ((hx.sub hr).div (contDiffAt_const.mul hw) (by positivity))
  exact ((((((hb0.mul hx).add ((hb1.mul hr).mul hl)).sub ((hb2.mul (hr.pow 2)).mul z1)).sub
    (((hb3.mul (hr.pow 3)).mul z2).div_const 2)).sub (((hb4.mul (hr.pow 4)).mul z3).div_const 3)).add
    (((contDiffAt_const.mul hc).mul ht).div hw w0.ne'))

/-- the raw intermediate phase -/
lemma int_phase (h : SmoothFam θ e0) {x a b c : E → ℝ} (hx : ContDiffAt ℝ ∞ x e0) (h0 : 0 < x e0)
    (ha : ContDiffAt ℝ ∞ a e0) (hb : ContDiffAt ℝ ∞ b e0) (hc : ContDiffAt ℝ ∞ c e0) :
    ContDiffAt ℝ ∞ (fun e => get_intermediate_raw_phase (x e) (θ e) PhenomX_phase_coeff_table (a e) (b e) (c e)) e0 :=
  int_form hx h0 h.fRD h.fdamp h.fdamp_pos (h.int_coeffs ha hb hc 0) (h.int_coeffs ha hb hc 1) (h.int_coeffs ha hb hc 2)
    (h.int_coeffs ha hb hc 3) (h.int_coeffs ha hb hc 4) hc

lemma rd_nodes (h : SmoothFam θ e0) (i : Fin 5) :
    ContDiffAt ℝ ∞ (fun e => ringdown_phase_nodes (θ e) i) e0 ∧ 0 < ringdown_phase_nodes (θ e0) i := by
  have hr := h.fRD
  have hw := h.fdamp
  have hI := h.fISCO
  constructor
  · have e : ∀ k : ℝ, ContDiffAt ℝ ∞ (fun e => k * ((cut (θ e)).fRD + 1.25 * (cut (θ e)).fdamp -
      0.6 * (0.5 * (cut (θ e)).fRD + (cut (θ e)).fISCO)) + 0.6 * (0.5 * (cut (θ e)).fRD + (cut (θ e)).fISCO)) e0 :=
      fun k => by fun_prop
    fin_cases i
    · exact e 0
    · exact e (1 / 2 - 1 / (2 * Real.sqrt 2))
    · exact e (1 / 2)
    · exact hr
    · exact e 1
  · have c := C92_regions_ordered _ h.phys
    have hm := c.2.2.1.monotone (Fin.zero_le i)
    refine lt_of_lt_of_le ?_ hm
    have e : ringdown_phase_nodes (θ e0) 0 = fIM (θ e0) := by
      change 0 * _ + 0.6 * (0.5 * (cut (θ e0)).fRD + (cut (θ e0)).fISCO) = _
      unfold fIM
      ring
    rw [e]
    linarith [c.1.1, c.1.2]

lemma rd_values (h : SmoothFam θ e0) (i : Fin 5) :
    ContDiffAt ℝ ∞ (fun e => ringdown_phase_values (θ e) PhenomX_phase_coeff_table i) e0 := by
  have h8 := h.phase_fit (i := 8) (by norm_num)
  have h9 := h.phase_fit (i := 9) (by norm_num)
  have h10 := h.phase_fit (i := 10) (by norm_num)
  have h11 := h.phase_fit (i := 11) (by norm_num)
  have h12 := h.phase_fit (i := 12) (by norm_num)
  fin_cases i
  · exact h8.add (h9.add h11)
  · exact h9.add h11
  · exact h10.add h11
  · exact h11
  · exact h12.add h11

lemma rd_coeffs (h : SmoothFam θ e0) (i : Fin 5) :
    ContDiffAt ℝ ∞ (fun e => ringdown_phase_coeffs (θ e) PhenomX_phase_coeff_table i) e0 := by
  have hn := h.rd_nodes
  have hr := h.fRD
  have hw := h.fdamp
  have w0 := h.fdamp_pos
  have hL := fun i => (lorentz hw hr (hn i).1 (contDiffAt_const (c := -dphase0)) w0).2
  refine smooth_solve (A := fun e => ringdown_phase_matrix (ringdown_phase_nodes (θ e)) (cut (θ e)).fRD (cut (θ e)).fdamp)
    (b := fun e => ringdown_phase_values (θ e) PhenomX_phase_coeff_table) (fun i j => ?_) h.rd_values (rd_det h.phys) i
  unfold ringdown_phase_matrix
  fin_cases i <;> fin_cases j <;>
    first
      | exact contDiffAt_const
      | exact rpow_smooth (hn _).1 (hn _).2 _
      | exact zpow_smooth (hn _).1 (hn _).2 2
      | exact zpow_smooth (hn _).1 (hn _).2 4
      | exact hL _

lemma cL_smooth (h : SmoothFam θ e0) :
    ContDiffAt ℝ ∞ (fun e => -(dphase0 * ringdown_phase_coeffs (θ e) PhenomX_phase_coeff_table 4)) e0 :=
  (contDiffAt_const.mul (h.rd_coeffs 4)).neg

/-- the raw ringdown phase -/
lemma rd_phase (h : SmoothFam θ e0) {x : E → ℝ} (hx : ContDiffAt ℝ ∞ x e0) (h0 : 0 < x e0) :
    ContDiffAt ℝ ∞ (fun e => (get_mergerringdown_raw_phase (x e) (θ e) PhenomX_phase_coeff_table).1) e0 := by
  have r2 := rpow_smooth hx h0 (2 / 3)
  have z1 := zpow_smooth hx h0 1
  have z3 := zpow_smooth hx h0 3
  have hr := h.fRD
  have hw := h.fdamp
  have w0 := h.fdamp_pos
  have ht : ContDiffAt ℝ ∞ (fun e => Real.arctan ((x e - (cut (θ e)).fRD) / (cut (θ e)).fdamp)) e0 :=
    ContDiffAt.arctan ((hx.sub hr).div hw w0.ne')
  exact (((((h.rd_coeffs 0).mul hx).add ((contDiffAt_const.mul (h.rd_coeffs 1)).mul r2)).sub ((h.rd_coeffs 2).mul z1)).sub
    (((h.rd_coeffs 3).div_const 3).mul z3)).add ((h.cL_smooth.div hw w0.ne').mul ht)

/-- the same family seen as a family over the product with the line -/
lemma prod (h : SmoothFam θ e0) (x0 : ℝ) : SmoothFam (fun p : E × ℝ => θ p.1) (e0, x0) where
  m1 := ContDiffAt.comp (f := Prod.fst) (e0, x0) h.m1 contDiffAt_fst
  m2 := ContDiffAt.comp (f := Prod.fst) (e0, x0) h.m2 contDiffAt_fst
  chi1 := ContDiffAt.comp (f := Prod.fst) (e0, x0) h.chi1 contDiffAt_fst
  chi2 := ContDiffAt.comp (f := Prod.fst) (e0, x0) h.chi2 contDiffAt_fst
  phys := h.phys
  ne := h.ne

end SmoothFam

/-- slope of the raw inspiral phase at the first transition -/
noncomputable def slopeIN (t : Theta) : ℝ :=
  deriv (fun x => get_inspiral_phase x t PhenomX_phase_coeff_table) (fPhase1 t)

/-- raw intermediate phase -/
noncomputable def rawN (t : Theta) (x : ℝ) : ℝ :=
  get_intermediate_raw_phase x t PhenomX_phase_coeff_table (slopeIN t) (ringdown_phase_values t PhenomX_phase_coeff_table 0)
    (-(dphase0 * ringdown_phase_coeffs t PhenomX_phase_coeff_table 4))

/-- raw ringdown phase -/
noncomputable def rawR (t : Theta) (x : ℝ) : ℝ := (get_mergerringdown_raw_phase x t PhenomX_phase_coeff_table).1

/-- raw inspiral phase -/
noncomputable def rawI (t : Theta) (x : ℝ) : ℝ := get_inspiral_phase x t PhenomX_phase_coeff_table

/-- slope and offset that make the intermediate phase continue the inspiral phase -/
noncomputable def alpha1 (t : Theta) : ℝ := slopeIN t - deriv (rawN t) (fPhase1 t)
@[inherit_doc alpha1] noncomputable def alpha0 (t : Theta) : ℝ :=
  rawI t (fPhase1 t) - rawN t (fPhase1 t) - alpha1 t * fPhase1 t

/-- the intermediate phase that continues the inspiral phase -/
noncomputable def contN (t : Theta) (x : ℝ) : ℝ := rawN t x + alpha1 t * x + alpha0 t

/-- slope and offset that make the ringdown phase continue the intermediate phase -/
noncomputable def beta1 (t : Theta) : ℝ := deriv (contN t) (fPhase2 t) - deriv (rawR t) (fPhase2 t)
@[inherit_doc beta1] noncomputable def beta0 (t : Theta) : ℝ :=
  contN t (fPhase2 t) - rawR t (fPhase2 t) - beta1 t * fPhase2 t

/-- the ringdown phase that continues the intermediate phase -/
noncomputable def contR (t : Theta) (x : ℝ) : ℝ := rawR t x + beta0 t + beta1 t * x

lemma Phase_eq (f : ℝ) (t : Theta) : Phase f t PhenomX_phase_coeff_table =
    1 / (t.m1 * gt * (t.m2 * gt) / (t.m1 * gt + t.m2 * gt) ^ 2) *
      (rawI t (f * (t.m1 * gt + t.m2 * gt)) * Jnp.heaviside (fPhase1 t - f * (t.m1 * gt + t.m2 * gt)) 0.5
      + Jnp.heaviside (f * (t.m1 * gt + t.m2 * gt) - fPhase1 t) 0.5 * contN t (f * (t.m1 * gt + t.m2 * gt)) *
        Jnp.heaviside (fPhase2 t - f * (t.m1 * gt + t.m2 * gt)) 0.5
      + contR t (f * (t.m1 * gt + t.m2 * gt)) * Jnp.heaviside (f * (t.m1 * gt + t.m2 * gt) - fPhase2 t) 0.5 *
        Jnp.heaviside (fM_CUT - f * (t.m1 * gt + t.m2 * gt)) 0.5) := by
  unfold Phase
  simp only [f1_eq, f2_eq]
  rfl

namespace SmoothFam
variable {E : Type} [NormedAddCommGroup E] [NormedSpace ℝ E] {θ : E → Theta} {e0 : E}

lemma rawI_smooth (h : SmoothFam θ e0) {x0 : ℝ} (h0 : 0 < x0) :
    ContDiffAt ℝ ∞ (Function.uncurry fun e => rawI (θ e)) (e0, x0) :=
  (h.prod x0).ins_phase (x := Prod.snd) contDiffAt_snd h0

lemma rawR_smooth (h : SmoothFam θ e0) {x0 : ℝ} (h0 : 0 < x0) :
    ContDiffAt ℝ ∞ (Function.uncurry fun e => rawR (θ e)) (e0, x0) :=
  (h.prod x0).rd_phase (x := Prod.snd) contDiffAt_snd h0

lemma slopeIN_smooth (h : SmoothFam θ e0) : ContDiffAt ℝ ∞ (fun e => slopeIN (θ e)) e0 :=
  smooth_deriv (G := fun e => rawI (θ e)) (h.rawI_smooth h.f1_pos) h.f1

lemma rawN_smooth (h : SmoothFam θ e0) {x0 : ℝ} (h0 : 0 < x0) :
    ContDiffAt ℝ ∞ (Function.uncurry fun e => rawN (θ e)) (e0, x0) :=
  (h.prod x0).int_phase (x := Prod.snd) contDiffAt_snd h0 (h.prod x0).slopeIN_smooth ((h.prod x0).rd_values 0)
    (h.prod x0).cL_smooth

lemma at_point {G : E → ℝ → ℝ} {x : E → ℝ} (hG : ContDiffAt ℝ ∞ (Function.uncurry G) (e0, x e0))
    (hx : ContDiffAt ℝ ∞ x e0) : ContDiffAt ℝ ∞ (fun e => G e (x e)) e0 :=
  ContDiffAt.comp (f := fun e => (e, x e)) e0 hG (contDiffAt_id.prodMk hx)

lemma alpha1_smooth (h : SmoothFam θ e0) : ContDiffAt ℝ ∞ (fun e => alpha1 (θ e)) e0 :=
  h.slopeIN_smooth.sub (smooth_deriv (G := fun e => rawN (θ e)) (h.rawN_smooth h.f1_pos) h.f1)

lemma alpha0_smooth (h : SmoothFam θ e0) : ContDiffAt ℝ ∞ (fun e => alpha0 (θ e)) e0 :=
  ((at_point (G := fun e => rawI (θ e)) (h.rawI_smooth h.f1_pos) h.f1).sub
    (at_point (G := fun e => rawN (θ e)) (h.rawN_smooth h.f1_pos) h.f1)).sub (h.alpha1_smooth.mul h.f1)

lemma contN_smooth (h : SmoothFam θ e0) {x0 : ℝ} (h0 : 0 < x0) :
    ContDiffAt ℝ ∞ (Function.uncurry fun e => contN (θ e)) (e0, x0) :=
  ((h.rawN_smooth h0).add ((h.prod x0).alpha1_smooth.mul contDiffAt_snd)).add (h.prod x0).alpha0_smooth

lemma f2_pos (h : SmoothFam θ e0) : 0 < fPhase2 (θ e0) := h.f1_pos.trans h.f12

lemma beta1_smooth (h : SmoothFam θ e0) : ContDiffAt ℝ ∞ (fun e => beta1 (θ e)) e0 :=
  (smooth_deriv (G := fun e => contN (θ e)) (h.contN_smooth h.f2_pos) h.f2).sub
    (smooth_deriv (G := fun e => rawR (θ e)) (h.rawR_smooth h.f2_pos) h.f2)

lemma beta0_smooth (h : SmoothFam θ e0) : ContDiffAt ℝ ∞ (fun e => beta0 (θ e)) e0 :=
  ((at_point (G := fun e => contN (θ e)) (h.contN_smooth h.f2_pos) h.f2).sub
    (at_point (G := fun e => rawR (θ e)) (h.rawR_smooth h.f2_pos) h.f2)).sub (h.beta1_smooth.mul h.f2)

lemma contR_smooth (h : SmoothFam θ e0) {x0 : ℝ} (h0 : 0 < x0) :
    ContDiffAt ℝ ∞ (Function.uncurry fun e => contR (θ e)) (e0, x0) :=
  ((h.rawR_smooth h0).add (h.prod x0).beta0_smooth).add ((h.prod x0).beta1_smooth.mul contDiffAt_snd)

end SmoothFam

lemma contN_value (t : Theta) : rawI t (fPhase1 t) = contN t (fPhase1 t) := by
  unfold contN alpha0
  ring

lemma contR_value (t : Theta) : contN t (fPhase2 t) = contR t (fPhase2 t) := by
  unfold contR beta0
  ring

lemma contN_slope (t : Theta) {x : ℝ} (hx : 0 < x) : deriv (contN t) x = deriv (rawN t) x + alpha1 t := by
  have hd : DifferentiableAt ℝ (rawN t) x := (cd_int t PhenomX_phase_coeff_table _ _ _ hx).differentiableAt (by simp)
  have := ((hd.hasDerivAt.add ((hasDerivAt_id x).const_mul (alpha1 t))).add_const (alpha0 t)).deriv
  rw [mul_one] at this
  exact this

lemma contR_slope (t : Theta) {x : ℝ} (hx : 0 < x) : deriv (contR t) x = deriv (rawR t) x + beta1 t := by
  have hd : DifferentiableAt ℝ (rawR t) x := (cd_rd t PhenomX_phase_coeff_table hx).differentiableAt (by simp)
  have := ((hd.hasDerivAt.add_const (beta0 t)).add ((hasDerivAt_id x).const_mul (beta1 t))).deriv
  rw [mul_one] at this
  exact this

namespace SmoothFam
variable {E : Type} [NormedAddCommGroup E] [NormedSpace ℝ E] {θ : E → Theta} {e0 : E}

/-- the phase is continuously differentiable in all parameters and the frequency together -/
lemma Phase_C1 (h : SmoothFam θ e0) {f : E → ℝ} (hf : ContDiffAt ℝ ∞ f e0) (f0 : 0 < f e0)
    (fc : f e0 * (((θ e0).m1 + (θ e0).m2) * gt) < 0.3) :
    ContDiffAt ℝ 1 (fun e => Phase (f e) (θ e) PhenomX_phase_coeff_table) e0 := by
  have a1 := h.m1
  have a2 := h.m2
  have g := gt_pos
  have p1 := h.phys.m1_pos
  have p2 := h.phys.m2_pos
  have hM : ContDiffAt ℝ ∞ (fun e => (θ e).m1 * gt + (θ e).m2 * gt) e0 := by fun_prop
  have M0 : 0 < (θ e0).m1 * gt + (θ e0).m2 * gt := by positivity
  have hx : ContDiffAt ℝ ∞ (fun e => f e * ((θ e).m1 * gt + (θ e).m2 * gt)) e0 := hf.mul hM
  have x0 : 0 < f e0 * ((θ e0).m1 * gt + (θ e0).m2 * gt) := mul_pos f0 M0
  simp only [Phase_eq]
  have e1 : ∀ᶠ e in 𝓝 e0, 0 < fPhase1 (θ e) := h.f1.continuousAt.eventually_const_lt h.f1_pos
  have e2 : ∀ᶠ e in 𝓝 e0, 0 < fPhase2 (θ e) := h.f2.continuousAt.eventually_const_lt h.f2_pos
  refine ContDiffAt.mul (ContDiffAt.div contDiffAt_const (ContDiffAt.div (by fun_prop) (hM.pow 2) (by positivity) |>.of_le
    (by simp)) (by positivity)) ?_
  refine glue_three (I := fun e => rawI (θ e)) (N := fun e => contN (θ e)) (R := fun e => contR (θ e)) (hx.of_le (by simp))
    (h.f1.of_le (by simp)) (h.f2.of_le (by simp)) h.f12 ?_ (fun _ => (h.rawI_smooth x0).of_le (by simp))
    (fun _ _ => (h.contN_smooth x0).of_le (by simp)) (fun _ => (h.contR_smooth x0).of_le (by simp))
    (.of_forall fun e => contN_value _) ?_ (.of_forall fun e => contR_value _) ?_
  · have : f e0 * ((θ e0).m1 * gt + (θ e0).m2 * gt) = f e0 * (((θ e0).m1 + (θ e0).m2) * gt) := by ring
    rw [this]
    exact fc
  · filter_upwards [e1] with e k
    rw [contN_slope _ k]
    change slopeIN (θ e) = _ + (slopeIN (θ e) - _)
    ring
  · filter_upwards [e2] with e k
    rw [contR_slope _ k]
    unfold beta1
    ring

end SmoothFam
end XAS
end Ripple
