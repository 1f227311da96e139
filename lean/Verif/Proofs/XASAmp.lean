/-
  Helper lemmas about the IMRPhenomXAS amplitude: the connection polynomial, the pieces and the gluing.
-/
import Verif.Proofs.XASGen
import Verif.Proofs.PhenomD
import Verif.Proofs.Peak
import Mathlib.Tactic.LinearCombination

namespace Ripple
open Set Filter Topology

open Jnp in
/-- gluing of three pieces, each C¹ only on its own closed region -/
lemma contDiffOn_three_local {s : Set ℝ} {p0 p1 p2 : ℝ → ℝ} {a b : ℝ} (hab : a < b)
    (c0 : ∀ x ∈ s, x ≤ a → ContDiffAt ℝ 1 p0 x) (c1 : ∀ x ∈ s, a ≤ x → x ≤ b → ContDiffAt ℝ 1 p1 x)
    (c2 : ∀ x ∈ s, b ≤ x → ContDiffAt ℝ 1 p2 x)
    (va : p0 a = p1 a) (da : deriv p0 a = deriv p1 a) (vb : p1 b = p2 b) (db : deriv p1 b = deriv p2 b) :
    ContDiffOn ℝ 1 (fun x => p0 x * heaviside (a - x) 0.5
      + heaviside (x - a) 0.5 * p1 x * heaviside (b - x) 0.5 + p2 x * heaviside (x - b) 0.5) s := by
  set g : ℝ → ℝ := fun x => p0 x * heaviside (a - x) 0.5
      + heaviside (x - a) 0.5 * p1 x * heaviside (b - x) 0.5 + p2 x * heaviside (x - b) 0.5 with hg
  have g0 : ∀ x, x ≤ a → g x = p0 x := by
    intro x hx
    simp only [hg]
    rw [heaviside_pos (x := b - x) (by linarith), heaviside_neg (x := x - b) (by linarith)]
    rcases hx.lt_or_eq with h | rfl
    · rw [heaviside_pos (by linarith), heaviside_neg (by linarith)]; ring
    · rw [sub_self, heaviside_zero, ← va]; ring
  have g1 : ∀ x, a ≤ x → x ≤ b → g x = p1 x := by
    intro x hx hx'
    simp only [hg]
    rcases hx.lt_or_eq with h | rfl
    · rw [heaviside_neg (x := a - x) (by linarith), heaviside_pos (x := x - a) (by linarith)]
      rcases hx'.lt_or_eq with h' | rfl
      · rw [heaviside_pos (by linarith), heaviside_neg (by linarith)]; ring
      · rw [sub_self, heaviside_zero, ← vb]; ring
    · rw [sub_self, heaviside_zero, heaviside_pos (by linarith), heaviside_neg (by linarith), va]; ring
  have g2 : ∀ x, b ≤ x → g x = p2 x := by
    intro x hx
    simp only [hg]
    rw [heaviside_neg (x := a - x) (by linarith), heaviside_pos (x := x - a) (by linarith)]
    rcases hx.lt_or_eq with h | rfl
    · rw [heaviside_neg (by linarith), heaviside_pos (by linarith)]; ring
    · rw [sub_self, heaviside_zero, vb]; ring
  have glueAt : ∀ {u v : ℝ → ℝ} {c lo hi : ℝ}, lo < c → c < hi → ContDiffAt ℝ 1 u c → ContDiffAt ℝ 1 v c →
      deriv u c = deriv v c → (∀ x, lo < x → x ≤ c → g x = u x) → (∀ x, x < hi → c ≤ x → g x = v x) →
      ContDiffAt ℝ 1 g c := by
    intro u v c lo hi hlo hhi cu cv hd hl hr
    have e1 := cu.eventually (by simp)
    have e2 := cv.eventually (by simp)
    have e3 : ∀ᶠ y in 𝓝 c, lo < y := Ioi_mem_nhds hlo
    have e4 : ∀ᶠ y in 𝓝 c, y < hi := Iio_mem_nhds hhi
    obtain ⟨U, hU, hUo, hcU⟩ := eventually_nhds_iff.1 ((e1.and e2).and (e3.and e4))
    have key : ContDiffOn ℝ 1 g U := contDiffOn_glue hUo (fun x hx => (hU x hx).1.1.contDiffWithinAt)
      (fun x hx => (hU x hx).1.2.contDiffWithinAt) hd (fun x hx h => hl x (hU x hx).2.1 h)
      (fun x hx h => hr x (hU x hx).2.2 h)
    exact key.contDiffAt (hUo.mem_nhds hcU)
  intro x hx
  apply ContDiffAt.contDiffWithinAt
  rcases lt_trichotomy x a with h | h | h
  · refine (c0 x hx h.le).congr_of_eventuallyEq ?_
    filter_upwards [Iio_mem_nhds h] with y hy using g0 y (le_of_lt hy)
  · subst h
    exact glueAt (lo := x - 1) (hi := b) (by linarith) hab (c0 x hx le_rfl) (c1 x hx le_rfl hab.le) da
      (fun y _ hy => g0 y hy) (fun y hy hy' => g1 y hy' hy.le)
  · rcases lt_trichotomy x b with h' | h' | h'
    · refine (c1 x hx h.le h'.le).congr_of_eventuallyEq ?_
      filter_upwards [Ioi_mem_nhds h, Iio_mem_nhds h'] with y hy hy' using g1 y (le_of_lt hy) (le_of_lt hy')
    · subst h'
      exact glueAt (lo := a) (hi := x + 1) hab (by linarith) (c1 x hx hab.le le_rfl) (c2 x hx le_rfl) db
        (fun y hy hy' => g1 y hy.le hy') (fun y _ hy => g2 y hy)
    · refine (c2 x hx h'.le).congr_of_eventuallyEq ?_
      filter_upwards [Ioi_mem_nhds h'] with y hy using g2 y (le_of_lt hy)

namespace XAS
open PhenomD (Ms cd_rpow)

/-! ### the connection polynomial -/

section
variable {F1 F2 F4 : ℝ} (V1 V2 V4 d1 d4 : ℝ)

/-- the quartic with given coefficients -/
def quartic (d : Fin 5 → ℝ) (x : ℝ) : ℝ := d 0 + x * (d 1 + x * (d 2 + x * (d 3 + x * d 4)))

lemma quartic_hasDeriv (d : Fin 5 → ℝ) (x : ℝ) :
    HasDerivAt (quartic d) (d 1 + 2 * d 2 * x + 3 * d 3 * x ^ 2 + 4 * d 4 * x ^ 3) x := by
  have h := ((((hasDerivAt_const x (d 0)).add ((hasDerivAt_id x).const_mul (d 1))).add
    (((hasDerivAt_id x).pow 2).const_mul (d 2))).add (((hasDerivAt_id x).pow 3).const_mul (d 3))).add
    (((hasDerivAt_id x).pow 4).const_mul (d 4))
  have e : quartic d = ((((fun _ : ℝ => d 0) + fun y => d 1 * id y) + fun y => d 2 * (id ^ 2) y) +
      fun y => d 3 * (id ^ 3) y) + fun y => d 4 * (id ^ 4) y := by
    funext y
    simp only [quartic, Pi.add_apply, Pi.pow_apply, id_eq]
    ring
  rw [e]
  refine h.congr_deriv ?_
  simp only [id_eq]
  push_cast
  ring

lemma q_value1 (h12 : F1 ≠ F2) (h14 : F1 ≠ F4) (h24 : F2 ≠ F4) :
    quartic (intermediate_Amp_delta F1 F2 F4 V1 V2 V4 d1 d4) F1 = V1 := by
  have a := sub_ne_zero.2 h12
  have b := sub_ne_zero.2 h14
  have c := sub_ne_zero.2 h24
  unfold quartic intermediate_Amp_delta
  simp
  field_simp
  ring

lemma q_value2 (h12 : F1 ≠ F2) (h14 : F1 ≠ F4) (h24 : F2 ≠ F4) :
    quartic (intermediate_Amp_delta F1 F2 F4 V1 V2 V4 d1 d4) F2 = V2 := by
  have a := sub_ne_zero.2 h12
  have b := sub_ne_zero.2 h14
  have c := sub_ne_zero.2 h24
  unfold quartic intermediate_Amp_delta
  simp
  field_simp
  ring

lemma q_value4 (h12 : F1 ≠ F2) (h14 : F1 ≠ F4) (h24 : F2 ≠ F4) :
    quartic (intermediate_Amp_delta F1 F2 F4 V1 V2 V4 d1 d4) F4 = V4 := by
  have a := sub_ne_zero.2 h12
  have b := sub_ne_zero.2 h14
  have c := sub_ne_zero.2 h24
  unfold quartic intermediate_Amp_delta
  simp
  field_simp
  ring

lemma q_slope1 (h12 : F1 ≠ F2) (h14 : F1 ≠ F4) (h24 : F2 ≠ F4) :
    deriv (quartic (intermediate_Amp_delta F1 F2 F4 V1 V2 V4 d1 d4)) F1 = d1 := by
  have a := sub_ne_zero.2 h12
  have b := sub_ne_zero.2 h14
  have c := sub_ne_zero.2 h24
  rw [(quartic_hasDeriv _ _).deriv]
  unfold intermediate_Amp_delta
  simp
  field_simp
  ring

lemma q_slope4 (h12 : F1 ≠ F2) (h14 : F1 ≠ F4) (h24 : F2 ≠ F4) :
    deriv (quartic (intermediate_Amp_delta F1 F2 F4 V1 V2 V4 d1 d4)) F4 = d4 := by
  have a := sub_ne_zero.2 h12
  have b := sub_ne_zero.2 h14
  have c := sub_ne_zero.2 h24
  rw [(quartic_hasDeriv _ _).deriv]
  unfold intermediate_Amp_delta
  simp
  field_simp
  ring

end

/-! ### pseudo-PN terms of the inspiral -/

lemma rho_colloc {CP : Fin 3 → ℝ} (CV : Fin 3 → ℝ) (h0 : ∀ i, 0 < CP i) (hinj : Function.Injective CP) (i : Fin 3) :
    inspiral_Amp_rho CP CV 0 * CP i ^ ((7 : ℝ) / 3) + inspiral_Amp_rho CP CV 1 * CP i ^ ((8 : ℝ) / 3) +
      inspiral_Amp_rho CP CV 2 * CP i ^ 3 = CV i := by
  obtain ⟨c, hc0, hc⟩ : ∃ c : Fin 3 → ℝ, (∀ i, 0 < c i) ∧ ∀ i, CP i = c i ^ 3 :=
    ⟨fun i => CP i ^ ((1 : ℝ) / 3), fun i => Real.rpow_pos_of_pos (h0 i) _, fun i => by
      rw [← Real.rpow_natCast, ← Real.rpow_mul (h0 i).le]; norm_num⟩
  have e7 : ∀ i, CP i ^ ((7 : ℝ) / 3) = c i ^ 7 := fun i => by
    rw [hc, ← Real.rpow_natCast, ← Real.rpow_natCast, ← Real.rpow_mul (hc0 i).le]; norm_num
  have e8 : ∀ i, CP i ^ ((8 : ℝ) / 3) = c i ^ 8 := fun i => by
    rw [hc, ← Real.rpow_natCast, ← Real.rpow_natCast, ← Real.rpow_mul (hc0 i).le]; norm_num
  have eb : ∀ i, Jnp.cbrt (CP i) = c i := fun i => by
    unfold Jnp.cbrt
    rw [if_pos (h0 i).le, hc, ← Real.rpow_natCast, ← Real.rpow_mul (hc0 i).le]; norm_num
  have n01 : c 0 - c 1 ≠ 0 := fun h => absurd (hinj (by rw [hc, hc, sub_eq_zero.1 h])) (by decide : (0 : Fin 3) ≠ 1)
  have n02 : c 0 - c 2 ≠ 0 := fun h => absurd (hinj (by rw [hc, hc, sub_eq_zero.1 h])) (by decide : (0 : Fin 3) ≠ 2)
  have n12 : c 1 - c 2 ≠ 0 := fun h => absurd (hinj (by rw [hc, hc, sub_eq_zero.1 h])) (by decide : (1 : Fin 3) ≠ 2)
  have p0 := (hc0 0).ne'
  have p1 := (hc0 1).ne'
  have p2 := (hc0 2).ne'
  unfold inspiral_Amp_rho
  simp only [e7, e8, eb]
  simp only [hc]
  fin_cases i
  · simp
    field_simp
    ring
  · simp
    field_simp
    ring
  · simp
    field_simp
    ring

/-! ### the pieces -/

lemma cd_ins_Amp (theta : Theta) (A : Table) {x : ℝ} (hx : 0 < x) :
    ContDiffAt ℝ 1 (fun y => get_inspiral_Amp y theta A) x := by
  have h1 := fun p => cd_rpow hx p
  unfold get_inspiral_Amp
  simp only
  fun_prop

/-- the ringdown amplitude is the damped Lorentzian with peak value `v1RD` at `ampPeak` -/
lemma rd_Amp_eq (x : ℝ) (theta : Theta) (A : Table) :
    let c := get_cutoff_fMs theta.m1 theta.m2 theta.chi1 theta.chi2
    let g2 := (ringdown_Amp_fits theta A).1
    let w := c.fdamp * (ringdown_Amp_fits theta A).2.1
    (get_mergerringdown_Amp x theta A).1 =
      PhenomD.lor ((ringdown_Amp_fits theta A).2.2 / w * ((ampPeak theta A - c.fRD) ^ 2 + w ^ 2) *
        Real.exp ((ampPeak theta A - c.fRD) * g2 / w)) g2 w (x - c.fRD) := by
  intro c g2 w
  unfold get_mergerringdown_Amp PhenomD.lor ampPeak
  simp only []
  have e1 : ∀ a b g : ℝ, a * (g / b) = a * g / b := fun a b g => by ring
  rw [e1]
  congr 1
  · ring
  · ring

lemma cd_rd_Amp (theta : Theta) (A : Table)
    (h : (get_cutoff_fMs theta.m1 theta.m2 theta.chi1 theta.chi2).fdamp * (ringdown_Amp_fits theta A).2.1 ≠ 0) (x : ℝ) :
    ContDiffAt ℝ 1 (fun y => (get_mergerringdown_Amp y theta A).1) x := by
  simp only [rd_Amp_eq]
  unfold PhenomD.lor
  refine ContDiffAt.div ?_ ?_ ?_
  · exact ContDiffAt.mul (Real.contDiff_exp.contDiffAt.comp x (by fun_prop)) contDiffAt_const
  · fun_prop
  · have := pow_pos (abs_pos.2 h) 2
    rw [sq_abs] at this
    have := sq_nonneg (x - (get_cutoff_fMs theta.m1 theta.m2 theta.chi1 theta.chi2).fRD)
    positivity

/-- value of the ringdown amplitude at its reference frequency -/
lemma rd_Amp_peak (theta : Theta) (A : Table)
    (h : (get_cutoff_fMs theta.m1 theta.m2 theta.chi1 theta.chi2).fdamp * (ringdown_Amp_fits theta A).2.1 ≠ 0) :
    (get_mergerringdown_Amp (ampPeak theta A) theta A).1 = (ringdown_Amp_fits theta A).2.2 := by
  rw [rd_Amp_eq]
  unfold PhenomD.lor
  generalize (get_cutoff_fMs theta.m1 theta.m2 theta.chi1 theta.chi2).fdamp * (ringdown_Amp_fits theta A).2.1 = w at *
  generalize ampPeak theta A - (get_cutoff_fMs theta.m1 theta.m2 theta.chi1 theta.chi2).fRD = u
  have hw : u ^ 2 + w ^ 2 ≠ 0 := by
    have := pow_pos (abs_pos.2 h) 2
    rw [sq_abs] at this
    positivity
  have e1 : -u * (ringdown_Amp_fits theta A).1 / w = -(u * (ringdown_Amp_fits theta A).1 / w) := by ring
  rw [e1]
  have he : Real.exp (-(u * (ringdown_Amp_fits theta A).1 / w)) * Real.exp (u * (ringdown_Amp_fits theta A).1 / w) = 1 := by
    rw [← Real.exp_add]; simp
  generalize Real.exp (-(u * (ringdown_Amp_fits theta A).1 / w)) = p at *
  generalize Real.exp (u * (ringdown_Amp_fits theta A).1 / w) = q at *
  field_simp
  linear_combination (ringdown_Amp_fits theta A).2.2 * he

/-- the quotient `x^(7/6) / P(x)`: value and slope reproduce `v` and `dv` when P and P' have the values the code asks for -/
lemma quot_match {P g : ℝ → ℝ} {F : ℝ} (hF : 0 < F) (hP : DifferentiableAt ℝ P F) (hg : g F ≠ 0)
    (h0 : P F = 1 / (F ^ (-((7 : ℝ) / 6)) * g F))
    (h1 : deriv P F = 7 / 6 * F ^ ((1 : ℝ) / 6) / g F - F ^ ((7 : ℝ) / 6) * deriv g F / (g F * g F)) :
    F ^ ((7 : ℝ) / 6) / P F = g F ∧ deriv (fun x => x ^ ((7 : ℝ) / 6) / P x) F = deriv g F := by
  have hp : 0 < F ^ ((7 : ℝ) / 6) := Real.rpow_pos_of_pos hF _
  have hP0 : P F = F ^ ((7 : ℝ) / 6) / g F := by
    rw [h0, Real.rpow_neg hF.le]
    field_simp
  have hPne : P F ≠ 0 := by rw [hP0]; exact div_ne_zero hp.ne' hg
  constructor
  · rw [hP0]; field_simp
  · have hr : HasDerivAt (fun y : ℝ => y ^ ((7 : ℝ) / 6)) (7 / 6 * F ^ ((1 : ℝ) / 6)) F := by
      have := (hasDerivAt_id F).rpow_const (p := (7 : ℝ) / 6) (Or.inl hF.ne')
      have e : (7 : ℝ) / 6 - 1 = 1 / 6 := by norm_num
      simpa [e] using this
    have H := hr.div hP.hasDerivAt hPne
    refine Eq.trans (HasDerivAt.deriv H) ?_
    rw [h1, hP0]
    generalize F ^ ((1 : ℝ) / 6) = a at *
    generalize F ^ ((7 : ℝ) / 6) = b at *
    field_simp
    ring

lemma int_Amp_eq (x : ℝ) (theta : Theta) (A : Table) (r : ℝ) :
    get_intermediate_Amp x theta A r = x ^ ((7 : ℝ) / 6) / quartic (intermediate_Amp_coeffs theta A r) x := rfl

end XAS
end Ripple
