/-
  The PhenomPv2 polarisations as functions of the frequency: precession cone, Euler angles, twisted-up waveform.
-/
import Verif.Props.Pv2Phys
import Mathlib.Analysis.SpecialFunctions.Trigonometric.ArctanDeriv
import Mathlib.Analysis.Calculus.Deriv.Abs

namespace Ripple
open PhenomD Pv2 V3 Set Filter
open scoped Topology ContDiff

/-- the twist-up written with the precession cone and the azimuth -/
lemma twP_formula (Q : QNM) {m1 m2 : ℝ} (s1 s2 : V3) (D tc f_ref : ℝ) (c : Converted) (thr f : ℝ) (h2 : 0 < m2)
    (h : m2 ≤ m1) (hf : 0 < f) (hL : LplusS m1 m2 s1 s2 f ≠ 0) :
    let b := coneAngle m1 m2 s1 s2 c.chip f
    let u := Complex.exp (Complex.I * ((azimuth m1 m2 s1 s2 c f_ref f : ℝ) : ℂ) / 2)
    let ep := epsS (angP m1 m2 s1 s2 c.chip) (Real.pi * ((m1 + m2) * gt) * f)
      - epsS (angP m1 m2 s1 s2 c.chip) (Real.pi * ((m1 + m2) * gt) * f_ref)
    let e := Complex.exp (-(2 * Complex.I) * ((ep : ℝ) : ℂ)) * hDs Q m1 m2 s1 s2 c.chip c.phi_aligned D thr f / 2
    let n : ℂ := (Real.sqrt (5 / (4 * Real.pi)) : ℝ)
    let T := n * (((Real.cos (b / 2) : ℝ) : ℂ) * u * (Real.sin (c.thetaJN / 2) : ℝ)
      - ((Real.sin (b / 2) : ℝ) : ℂ) * u⁻¹ * (Real.cos (c.thetaJN / 2) : ℝ)) ^ 4
    let T' := n * (((Real.sin (b / 2) : ℝ) : ℂ) * u⁻¹ * (Real.sin (c.thetaJN / 2) : ℝ)
      + ((Real.cos (b / 2) : ℝ) : ℂ) * u * (Real.cos (c.thetaJN / 2) : ℝ)) ^ 4
    twP Q m1 m2 s1 s2 D tc f_ref c thr f =
      (e * (T + T') * corrP Q m1 m2 s1 s2 c.chip tc f, e * (Complex.I * (T - T')) * corrP Q m1 m2 s1 s2 c.chip tc f) := by
  intro b u ep e n T T'
  have h1 : 0 < m1 := lt_of_lt_of_le h2 h
  have hgt := gt_pos
  have hpi := Real.pi_pos
  obtain ⟨q1, q2⟩ := twist_masses h2 h
  have hw := twist_eq f (hDs Q m1 m2 s1 s2 c.chip c.phi_aligned D thr f) (m2 * m1 / ((m2 + m1) * (m2 + m1)))
    s2.2.2 s1.2.2 c.chip (m2 + m1) (angP m1 m2 s1 s2 c.chip) c.thetaJN
    (alphaS (angP m1 m2 s1 s2 c.chip) (PI * ((m2 + m1) * gt) * f_ref) - c.alpha0)
    (epsS (angP m1 m2 s1 s2 c.chip) (PI * ((m2 + m1) * gt) * f_ref))
  simp only [q1, q2] at hw
  have hom : PI * (f * gt * (m2 + m1)) = Real.pi * ((m1 + m2) * gt) * f := by unfold PI; ring
  have hom' : PI * ((m2 + m1) * gt) * f_ref = Real.pi * ((m1 + m2) * gt) * f_ref := by unfold PI; ring
  have heta : m2 * m1 / ((m2 + m1) * (m2 + m1)) = m1 * m2 / (m1 + m2) ^ 2 := by
    rw [mul_comm m2 m1, add_comm m2 m1, sq]
  have hSL : s2.2.2 * (m2 / (m1 + m2)) * (m2 / (m1 + m2)) + s1.2.2 * (m1 / (m1 + m2)) * (m1 / (m1 + m2)) =
      (m1 ^ 2 * s1.2.2 + m2 ^ 2 * s2.2.2) / (m1 + m2) ^ 2 := by field_simp; ring
  have hSp : c.chip * (m1 / (m1 + m2) * (m1 / (m1 + m2))) = c.chip * (m1 / (m1 + m2)) ^ 2 := by ring
  have hv : 0 < vOf m1 m2 f := by unfold vOf; positivity
  have hW := C55_half_angle (vOf m1 m2 f) ((m1 ^ 2 * s1.2.2 + m2 ^ 2 * s2.2.2) / (m1 + m2) ^ 2)
    (m1 * m2 / (m1 + m2) ^ 2) (c.chip * (m1 / (m1 + m2)) ^ 2) hv hL
  have hb : Real.arctan |c.chip * (m1 / (m1 + m2)) ^ 2 / (orbitalL 1 (m1 * m2 / (m1 + m2) ^ 2) (vOf m1 m2 f)
      + (m1 ^ 2 * s1.2.2 + m2 ^ 2 * s2.2.2) / (m1 + m2) ^ 2)| = coneAngle m1 m2 s1 s2 c.chip f := rfl
  rw [hb] at hW
  rw [heta, hSL, hSp, hom, hom', show (Real.pi * ((m1 + m2) * gt) * f) ^ ((1 : ℝ) / 3) = vOf m1 m2 f from rfl, hW] at hw
  have hal : alphaS (angP m1 m2 s1 s2 c.chip) (Real.pi * ((m1 + m2) * gt) * f)
      - (alphaS (angP m1 m2 s1 s2 c.chip) (Real.pi * ((m1 + m2) * gt) * f_ref) - c.alpha0) =
      azimuth m1 m2 s1 s2 c f_ref f := by unfold azimuth; ring
  rw [hal] at hw
  simp only [twP]
  rw [heta, hom', hw]

/-! ### smoothness in the frequency -/

lemma nnlo_smooth (c1 c2 c3 c4 c5 : ℝ) {w : ℝ} (hw : 0 < w) : ContDiffAt ℝ ∞ (nnlo c1 c2 c3 c4 c5) w := by
  have hp : ContDiffAt ℝ ∞ (fun w : ℝ => w ^ ((1 : ℝ) / 3)) w := Real.contDiffAt_rpow_const_of_ne hw.ne'
  have hp0 : w ^ ((1 : ℝ) / 3) ≠ 0 := (Real.rpow_pos_of_pos hw _).ne'
  have hl : ContDiffAt ℝ ∞ Real.log w := Real.contDiffAt_log.2 hw.ne'
  unfold nnlo
  refine ((((contDiffAt_const.div contDiffAt_id hw.ne').add (contDiffAt_const.div (hp.mul hp) (mul_ne_zero hp0 hp0))).add
    (contDiffAt_const.div hp hp0)).add (contDiffAt_const.mul hl)).add (contDiffAt_const.mul hp)

section
variable {m1 m2 : ℝ} (s1 s2 : V3)

lemma vOf_smooth (h2 : 0 < m2) (h : m2 ≤ m1) {f : ℝ} (hf : 0 < f) : ContDiffAt ℝ ∞ (vOf m1 m2) f := by
  have h1 : 0 < m1 := lt_of_lt_of_le h2 h
  have hgt := gt_pos
  have hpi := Real.pi_pos
  have hp : 0 < Real.pi * ((m1 + m2) * gt) * f := by positivity
  have : ContDiffAt ℝ ∞ (fun f : ℝ => Real.pi * ((m1 + m2) * gt) * f) f := by fun_prop
  exact this.rpow_const_of_ne hp.ne'

lemma LplusS_smooth (h2 : 0 < m2) (h : m2 ≤ m1) {f : ℝ} (hf : 0 < f) : ContDiffAt ℝ ∞ (LplusS m1 m2 s1 s2) f := by
  have h1 : 0 < m1 := lt_of_lt_of_le h2 h
  have hgt := gt_pos
  have hpi := Real.pi_pos
  have hv := vOf_smooth h2 h hf
  have hv0 : vOf m1 m2 f ≠ 0 := by
    have : 0 < vOf m1 m2 f := by unfold vOf; positivity
    exact this.ne'
  unfold LplusS orbitalL
  refine ContDiffAt.add (ContDiffAt.mul (contDiffAt_const.div hv hv0) ?_) contDiffAt_const
  fun_prop

lemma cone_smooth (h2 : 0 < m2) (h : m2 ≤ m1) {f : ℝ} (hf : 0 < f) (hL : LplusS m1 m2 s1 s2 f ≠ 0) (chip : ℝ) :
    ContDiffAt ℝ ∞ (coneAngle m1 m2 s1 s2 chip) f := by
  have h1 : 0 < m1 := lt_of_lt_of_le h2 h
  by_cases hc : chip = 0
  · have : coneAngle m1 m2 s1 s2 chip = fun _ => 0 := by
      funext x; simp [coneAngle, hc]
    rw [this]
    exact contDiffAt_const
  · have hx : chip * (m1 / (m1 + m2)) ^ 2 / LplusS m1 m2 s1 s2 f ≠ 0 := by
      refine div_ne_zero (mul_ne_zero hc ?_) hL
      have : 0 < m1 / (m1 + m2) := by positivity
      positivity
    have hq : ContDiffAt ℝ ∞ (fun f => chip * (m1 / (m1 + m2)) ^ 2 / LplusS m1 m2 s1 s2 f) f :=
      contDiffAt_const.div (LplusS_smooth s1 s2 h2 h hf) hL
    exact Real.contDiff_arctan.contDiffAt.comp (g := Real.arctan) f ((contDiffAt_abs hx).comp (g := fun x : ℝ => |x|) f hq)

lemma azimuth_smooth (h2 : 0 < m2) (h : m2 ≤ m1) (c : Converted) (f_ref : ℝ) {f : ℝ} (hf : 0 < f) :
    ContDiffAt ℝ ∞ (azimuth m1 m2 s1 s2 c f_ref) f := by
  have h1 : 0 < m1 := lt_of_lt_of_le h2 h
  have hgt := gt_pos
  have hpi := Real.pi_pos
  have hp : 0 < Real.pi * ((m1 + m2) * gt) * f := by positivity
  have hw : ContDiffAt ℝ ∞ (fun f : ℝ => Real.pi * ((m1 + m2) * gt) * f) f := by fun_prop
  unfold azimuth
  exact ((ContDiffAt.comp (g := alphaS (angP m1 m2 s1 s2 c.chip)) f (nnlo_smooth _ _ _ _ _ hp) hw).sub contDiffAt_const).add
    contDiffAt_const

lemma eps_smooth (h2 : 0 < m2) (h : m2 ≤ m1) (a : AngCoeffs) {f : ℝ} (hf : 0 < f) :
    ContDiffAt ℝ ∞ (fun f => epsS a (Real.pi * ((m1 + m2) * gt) * f)) f := by
  have h1 : 0 < m1 := lt_of_lt_of_le h2 h
  have hgt := gt_pos
  have hpi := Real.pi_pos
  have hp : 0 < Real.pi * ((m1 + m2) * gt) * f := by positivity
  have hw : ContDiffAt ℝ ∞ (fun f : ℝ => Real.pi * ((m1 + m2) * gt) * f) f := by fun_prop
  exact ContDiffAt.comp (g := epsS a) f (nnlo_smooth _ _ _ _ _ hp) hw

/-- complex exponentials and casts of real functions -/
lemma ofReal_C1 {n : WithTop ℕ∞} {g : ℝ → ℝ} {f : ℝ} (hg : ContDiffAt ℝ n g f) : ContDiffAt ℝ n (fun x => ((g x : ℝ) : ℂ)) f :=
  Complex.ofRealCLM.contDiff.contDiffAt.comp f hg

lemma cexp_C1 {n : WithTop ℕ∞} {g : ℝ → ℂ} {f : ℝ} (hg : ContDiffAt ℝ n g f) :
    ContDiffAt ℝ n (fun x => Complex.exp (g x)) f := hg.cexp

lemma hDs_C1 (Q : QNM) (hq : Q.Shipped) (h2 : 0 < m2) (h : m2 ≤ m1) (hs1 : len s1 ≤ 1) (hs2 : len s2 ≤ 1)
    (chip pa D : ℝ) (hD : 0 < D) {f : ℝ} (hf : 0 < f) (hc : f < 0.2 / ((m1 + m2) * gt)) :
    ContDiffAt ℝ 1 (hDs Q m1 m2 s1 s2 chip pa D (0.2 / ((m1 + m2) * gt))) f := by
  obtain ⟨hP, A, hA, hAe⟩ := C96_smooth s1 s2 Q hq h2 h hs1 hs2 chip D hD
  have hP' := hP.contDiffAt (Ioi_mem_nhds hf)
  have hA' := hA.contDiffAt (Ioi_mem_nhds hf)
  have hAl : ∀ x, x < 0.2 / ((m1 + m2) * gt) → ampAt (thetaP m1 m2 s1 s2) (get_coeffs (thetaP m1 m2 s1 s2))
      (tfP Q m1 m2 s1 s2 chip) D (0.2 / ((m1 + m2) * gt)) x = A x := by
    intro x hx
    have e := hAe [x] (by simpa using hx)
    have ecut : fM_CUT / Ms (thetaP m1 m2 s1 s2) = 0.2 / ((m1 + m2) * gt) := by rw [← Ms_eq]; rfl
    simp only [ampP, Amp_eq, List.map_cons, List.map_nil, List.cons.injEq, and_true] at e
    rw [← e]
    refine ampAt_below hx ?_
    rw [ecut]
    unfold cutThr
    rw [if_pos (by simpa [Jnp.index] using hx)]
    exact hx
  have e : hDs Q m1 m2 s1 s2 chip pa D (0.2 / ((m1 + m2) * gt)) =ᶠ[𝓝 f] fun x =>
      ((A x / (2 * Real.sqrt (5 / (64 * PI))) : ℝ) : ℂ) * Complex.exp (-Complex.I *
        ((Phase x (thetaP m1 m2 s1 s2) (get_coeffs (thetaP m1 m2 s1 s2)) (tfP Q m1 m2 s1 s2 chip) - 2 * pa : ℝ) : ℂ)) := by
    filter_upwards [Iio_mem_nhds hc] with x hx
    unfold hDs
    rw [hAl x hx]
  refine ContDiffAt.congr_of_eventuallyEq ?_ e
  exact (ofReal_C1 (hA'.div_const _)).mul (cexp_C1 (contDiffAt_const.mul (ofReal_C1 (hP'.sub contDiffAt_const))))

lemma corr_smooth (Q : QNM) (chip tc f : ℝ) : ContDiffAt ℝ 1 (corrP Q m1 m2 s1 s2 chip tc) f := by
  unfold corrP
  refine ContDiffAt.mul (ContDiffAt.sub ?_ (contDiffAt_const.mul ?_)) ?_
  · refine ofReal_C1 ?_
    fun_prop
  · refine ofReal_C1 ?_
    fun_prop
  · refine cexp_C1 ?_
    have : ContDiffAt ℝ 1 (fun x : ℝ => (x : ℂ)) f := ofReal_C1 contDiffAt_id
    fun_prop

lemma twP_C1 (Q : QNM) (hq : Q.Shipped) (h2 : 0 < m2) (h : m2 ≤ m1) (hs1 : len s1 ≤ 1) (hs2 : len s2 ≤ 1)
    (D tc f_ref : ℝ) (hD : 0 < D) (c : Converted) {f : ℝ} (hf : 0 < f) (hc : f < 0.2 / ((m1 + m2) * gt))
    (hL : LplusS m1 m2 s1 s2 f ≠ 0) :
    ContDiffAt ℝ 1 (fun x => (twP Q m1 m2 s1 s2 D tc f_ref c (0.2 / ((m1 + m2) * gt)) x).1) f ∧
    ContDiffAt ℝ 1 (fun x => (twP Q m1 m2 s1 s2 D tc f_ref c (0.2 / ((m1 + m2) * gt)) x).2) f := by
  have hev : ∀ᶠ x in 𝓝 f, 0 < x ∧ LplusS m1 m2 s1 s2 x ≠ 0 :=
    (eventually_gt_nhds hf).and
      ((LplusS_smooth s1 s2 h2 h hf).continuousAt.eventually_ne hL)
  have le : (1 : WithTop ℕ∞) ≤ ∞ := by exact_mod_cast le_top
  have hb := (cone_smooth s1 s2 h2 h hf hL c.chip).of_le le
  have ha := (azimuth_smooth s1 s2 h2 h c f_ref hf).of_le le
  have he := (eps_smooth h2 h (angP m1 m2 s1 s2 c.chip) hf).of_le le
  have hH := hDs_C1 s1 s2 Q hq h2 h hs1 hs2 c.chip c.phi_aligned D hD hf hc
  have hK := corr_smooth (m1 := m1) (m2 := m2) s1 s2 Q c.chip tc f
  have hcb := ofReal_C1 (Real.contDiff_cos.contDiffAt.comp (g := Real.cos) f (hb.div_const 2))
  have hsb := ofReal_C1 (Real.contDiff_sin.contDiffAt.comp (g := Real.sin) f (hb.div_const 2))
  have hu : ContDiffAt ℝ 1 (fun x => Complex.exp (Complex.I * ((azimuth m1 m2 s1 s2 c f_ref x : ℝ) : ℂ) / 2)) f :=
    cexp_C1 ((contDiffAt_const.mul (ofReal_C1 ha)).div_const 2)
  have hu' : ContDiffAt ℝ 1 (fun x => (Complex.exp (Complex.I * ((azimuth m1 m2 s1 s2 c f_ref x : ℝ) : ℂ) / 2))⁻¹) f :=
    hu.inv (Complex.exp_ne_zero _)
  have hE := ((cexp_C1 ((contDiffAt_const (c := -(2 * Complex.I))).mul (ofReal_C1 (he.sub
    (contDiffAt_const (c := epsS (angP m1 m2 s1 s2 c.chip) (Real.pi * ((m1 + m2) * gt) * f_ref))))))).mul hH).div_const 2
  have hT := (contDiffAt_const (c := ((Real.sqrt (5 / (4 * Real.pi)) : ℝ) : ℂ))).mul
    ((((hcb.mul hu).mul (contDiffAt_const (c := ((Real.sin (c.thetaJN / 2) : ℝ) : ℂ)))).sub
      ((hsb.mul hu').mul (contDiffAt_const (c := ((Real.cos (c.thetaJN / 2) : ℝ) : ℂ))))).pow 4)
  have hT' := (contDiffAt_const (c := ((Real.sqrt (5 / (4 * Real.pi)) : ℝ) : ℂ))).mul
    ((((hsb.mul hu').mul (contDiffAt_const (c := ((Real.sin (c.thetaJN / 2) : ℝ) : ℂ)))).add
      ((hcb.mul hu).mul (contDiffAt_const (c := ((Real.cos (c.thetaJN / 2) : ℝ) : ℂ))))).pow 4)
  constructor
  · refine ((hE.mul (hT.add hT')).mul hK).congr_of_eventuallyEq ?_
    filter_upwards [hev] with x hx
    rw [twP_formula Q s1 s2 D tc f_ref c _ x h2 h hx.1 hx.2]
    rfl
  · refine ((hE.mul ((contDiffAt_const (c := Complex.I)).mul (hT.sub hT'))).mul hK).congr_of_eventuallyEq ?_
    filter_upwards [hev] with x hx
    rw [twP_formula Q s1 s2 D tc f_ref c _ x h2 h hx.1 hx.2]
    rfl

end
end Ripple
