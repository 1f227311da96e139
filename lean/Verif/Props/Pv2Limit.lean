/-
  Property C118: the precessing model does not tend to its aligned-spin value as the in-plane spin vanishes.
-/
import Verif.Props.Pv2Sym
import Verif.Props.Pv2Aligned
import Verif.Proofs.Pv2Limit
import Verif.Props.PhenomDPos

namespace Ripple
open scoped Topology
open Filter PhenomD Pv2 V3

lemma circle_tendsto (d : ℝ) : Tendsto (fun t : ℝ => (t * Real.cos d, t * Real.sin d)) (𝓝[≠] 0) (𝓝 ((0 : ℝ), (0 : ℝ))) := by
  have : Continuous fun t : ℝ => (t * Real.cos d, t * Real.sin d) := by fun_prop
  have h := this.tendsto 0
  simp only [zero_mul] at h
  exact h.mono_left nhdsWithin_le_nhds

/-- For two reference phases that do not differ by a multiple of π, at least one of the two precessing waveforms is
    discontinuous, in the in-plane spin of the heavier body, at vanishing in-plane spins: at every sample where the
    aligned-spin waveform is not zero.  `P`, `X` and `P'`, `X'` are the plus and cross samples at the two phases. -/
theorem C118_discontinuous (Q : QNM) (grid : List ℝ) {Mc eta chi1 chi2 D tc phiRef incl f_ref d : ℝ} (hMc : 0 < Mc)
    (he : 0 < eta) (he' : eta ≤ 1 / 4) (hf : 0 < f_ref)
    (hL : LplusS (mHeavy Mc eta) (mLight Mc eta) (0, 0, chi1) (0, 0, chi2) f_ref ≠ 0) (hs : Real.sin incl ≠ 0)
    (hd : Real.sin d ≠ 0) (j : ℕ) {P X P' X' : ℝ × ℝ → ℂ}
    (h : ∀ a b, ∃ hp hc, gen_IMRPhenomPv2_hphc Q grid [Mc, eta, a, b, chi1, 0, 0, chi2, D, tc, phiRef, incl] f_ref =
      .ok (hp, hc) ∧ hp.getD j 0 = P (a, b) ∧ hc.getD j 0 = X (a, b))
    (h' : ∀ a b, ∃ hp hc, gen_IMRPhenomPv2_hphc Q grid [Mc, eta, a, b, chi1, 0, 0, chi2, D, tc, phiRef - d, incl] f_ref =
      .ok (hp, hc) ∧ hp.getD j 0 = P' (a, b) ∧ hc.getD j 0 = X' (a, b)) :
    (P (0, 0) ≠ 0 → ¬ (ContinuousAt P (0, 0) ∧ ContinuousAt P' (0, 0))) ∧
    (X (0, 0) ≠ 0 → ¬ (ContinuousAt X (0, 0) ∧ ContinuousAt X' (0, 0))) := by
  obtain ⟨h2, h12, -⟩ := C02_masses_ordered Mc eta hMc he he'
  have h1 : 0 < mHeavy Mc eta := lt_of_lt_of_le h2 h12
  have e1 : Complex.exp (-(2 * Complex.I * (d : ℂ))) ≠ 1 := by
    intro h
    have := congrArg Complex.re h
    rw [show -(2 * Complex.I * (d : ℂ)) = ((-(2 * d) : ℝ) : ℂ) * Complex.I by push_cast; ring,
      Complex.exp_ofReal_mul_I_re, Real.cos_neg, Real.cos_two_mul, Complex.one_re] at this
    have s := Real.sin_sq_add_cos_sq d
    exact hd (pow_eq_zero_iff two_ne_zero |>.1 (by linarith))
  have rot : ∀ t : ℝ, t ≠ 0 → P' (t * Real.cos d, t * Real.sin d) = Complex.exp (-(2 * Complex.I * (d : ℂ))) * P (t, 0) ∧
      X' (t * Real.cos d, t * Real.sin d) = Complex.exp (-(2 * Complex.I * (d : ℂ))) * X (t, 0) := by
    intro t ht
    obtain ⟨hp, hc, g, g'⟩ := C85_covariance Q grid (m1 := mHeavy Mc eta) (m2 := mLight Mc eta) (s1 := (t, 0, chi1))
      (s2 := (0, 0, chi2)) (D := D) (tc := tc) (phiRef := phiRef) (incl := incl) (f_ref := f_ref) h1 h2 hf
      (Or.inl (by simpa using And.intro h1.ne' ht)) d
    obtain ⟨hp1, hc1, k1, k2, k3⟩ := h t 0
    obtain ⟨hp2, hc2, l1, l2, l3⟩ := h' (t * Real.cos d) (t * Real.sin d)
    have m := C61_masses Q grid (t, 0, chi1) (0, 0, chi2) D tc phiRef incl f_ref Mc eta []
    have m' := C61_masses Q grid (t * Real.cos d, t * Real.sin d, chi1) (0, 0, chi2) D tc (phiRef - d) incl f_ref Mc eta []
    have a1 : aboutZ d (t, 0, chi1) = (t * Real.cos d, t * Real.sin d, chi1) := by simp [aboutZ]
    have a2 : aboutZ d (0, 0, chi2) = (0, 0, chi2) := by simp [aboutZ]
    rw [a1, a2] at g'
    have q := k1.symm.trans (m.trans g)
    have q' := l1.symm.trans (m'.trans g')
    simp only [Except.ok.injEq, Prod.mk.injEq] at q q'
    rw [← l2, ← l3, ← k2, ← k3, q.1, q.2, q'.1, q'.2]
    simp only [List.getD_eq_getElem?_getD, List.getElem?_map]
    constructor
    · cases hp[j]? <;> simp
    · cases hc[j]? <;> simp
  have same : P' (0, 0) = P (0, 0) ∧ X' (0, 0) = X (0, 0) := by
    obtain ⟨hp1, hc1, k1, k2, k3⟩ := h 0 0
    obtain ⟨hp2, hc2, l1, l2, l3⟩ := h' 0 0
    have := C86_phase_ignored Q grid Mc eta chi1 chi2 D tc phiRef incl f_ref hMc he he' hf hL hs (phiRef - d)
    rw [k1, l1] at this
    simp only [Except.ok.injEq, Prod.mk.injEq] at this
    rw [← l2, ← l3, ← k2, ← k3, this.1, this.2]
    exact ⟨rfl, rfl⟩
  have key : ∀ F F' : ℝ × ℝ → ℂ, (∀ t : ℝ, t ≠ 0 → F' (t * Real.cos d, t * Real.sin d) =
      Complex.exp (-(2 * Complex.I * (d : ℂ))) * F (t, 0)) → F' (0, 0) = F (0, 0) → F (0, 0) ≠ 0 →
      ¬ (ContinuousAt F (0, 0) ∧ ContinuousAt F' (0, 0)) := by
    intro F F' hr h0 hne ⟨hF, hF'⟩
    have c0 := circle_tendsto 0
    simp only [Real.cos_zero, Real.sin_zero, mul_one, mul_zero] at c0
    have t1 := (hF.tendsto.comp c0).const_mul (Complex.exp (-(2 * Complex.I * (d : ℂ))))
    have t2 := hF'.tendsto.comp (circle_tendsto d)
    have t3 := t2.congr' (f₂ := fun t => Complex.exp (-(2 * Complex.I * (d : ℂ))) * F (t, 0)) (by
      filter_upwards [self_mem_nhdsWithin] with t ht
      exact hr t ht)
    have e := tendsto_nhds_unique t3 t1
    rw [h0] at e
    exact e1 (mul_right_cancel₀ hne (by rw [one_mul]; exact e.symm))
  exact ⟨key P P' (fun t ht => (rot t ht).1) same.1, key X X' (fun t ht => (rot t ht).2) same.2⟩

section
variable {Q : QNM} {grid : List ℝ} {Mc eta chi1 chi2 D tc phiRef incl f_ref : ℝ} {j : ℕ} {P X : ℝ × ℝ → ℂ}

lemma limit_masses {m1 m2 : ℝ} (hq : Q.Shipped) (h2 : 0 < m2) (h12 : m2 < m1) (z1 : |chi1| ≤ 1) (z2 : |chi2| ≤ 1)
    (hD : 0 < D) (hf : 0 < f_ref) (hL : 0 < LplusS m1 m2 (0, 0, chi1) (0, 0, chi2) f_ref) (hs : Real.sin incl ≠ 0)
    (hj : j < grid.length) (hfj : 0 < grid.getD j 0) (ht : grid.getD j 0 < cutThr grid (0.2 / ((m1 + m2) * gt)))
    (hLj : LplusS m1 m2 (0, 0, chi1) (0, 0, chi2) (grid.getD j 0) ≠ 0)
    (h : ∀ a b, ∃ hp hc, gen_IMRPhenomPv2 Q grid (pars m1 m2 (a, b, chi1) (0, 0, chi2) D tc phiRef incl) f_ref =
      .ok (hp, hc) ∧ hp.getD j 0 = P (a, b) ∧ hc.getD j 0 = X (a, b)) :
    Tendsto P (𝓝[≠] (0, 0)) (𝓝 (-Complex.exp (2 * Complex.I * (phiRef : ℂ)) * P (0, 0))) ∧
    Tendsto X (𝓝[≠] (0, 0)) (𝓝 (-Complex.exp (2 * Complex.I * (phiRef : ℂ)) * X (0, 0))) := by
  have h1 : 0 < m1 := h2.trans h12
  have hJz := Jz_eq (f_ref := f_ref) h1 h2 (0, 0, chi1) (0, 0, chi2)
  have hJ : 0 < (totalJ gt m2 m1 f_ref (0, 0, chi2) (0, 0, chi1)).2.2 := by
    rw [hJz]
    positivity
  obtain ⟨-, -, -, -, z⟩ := aligned_frame h2 h1 hf phiRef incl chi2 chi1 hJ.ne'
  obtain ⟨k1, k2⟩ := z hs
  obtain ⟨-, -, -, lz, lz'⟩ := Limit.frame_limit (phiRef := phiRef) h1 h2 hf hJ hs
  have eM : ∀ p : ℝ × ℝ, PhenomD.fM_CUT / Ms (thetaP m1 m2 (p.1, p.2, chi1) (0, 0, chi2)) = 0.2 / ((m1 + m2) * gt) := fun p => by
    rw [show Ms (thetaP m1 m2 (p.1, p.2, chi1) (0, 0, chi2)) = (m1 + m2) * gt by rw [← Ms_eq]; rfl]
    rfl
  obtain ⟨t1, t2⟩ := Limit.tw_limit (phiRef := phiRef) (tc := tc) hq h2 h12 z1 z2 hf hJ hs hD hfj ht hLj
  obtain ⟨C, eC⟩ : ∃ C : ℝ × ℝ → Converted, ∀ p, conv m2 m1 f_ref phiRef incl (0, 0, chi2) (p.1, p.2, chi1) = C p :=
    ⟨_, fun _ => rfl⟩
  obtain ⟨W, eW⟩ : ∃ W : ℝ × ℝ → ℂ × ℂ, ∀ p : ℝ × ℝ, twP Q m1 m2 (p.1, p.2, chi1) (0, 0, chi2) D tc f_ref (C p)
    (cutThr grid (0.2 / ((m1 + m2) * gt))) (grid.getD j 0) = W p := ⟨_, fun _ => rfl⟩
  have eC0 := eC (0, 0)
  dsimp only at eC0
  have val : ∀ p, P p = (rotP (C p).zeta_polariz (W p)).1 ∧ X p = (rotP (C p).zeta_polariz (W p)).2 := by
    intro p
    obtain ⟨hp, hc, g, g1, g2⟩ := h p.1 p.2
    rw [genP_eq, eM p, eC] at g
    simp only [Except.ok.injEq, Prod.mk.injEq] at g
    obtain ⟨rfl, rfl⟩ := g
    rw [← show P (p.1, p.2) = P p from rfl, ← show X (p.1, p.2) = X p from rfl, ← g1, ← g2, ← eW]
    simp only [List.getD_eq_getElem?_getD, List.getElem?_map, List.getElem?_eq_getElem hj]
    exact ⟨rfl, rfl⟩
  rw [eC0] at k1 k2
  dsimp only at t1 t2 lz lz'
  simp only [eC, eW] at t1 t2 lz lz'
  have w0 : twP Q m1 m2 (0, 0, chi1) (0, 0, chi2) D tc f_ref (C (0, 0))
    (cutThr grid (0.2 / ((m1 + m2) * gt))) (grid.getD j 0) = W (0, 0) := eW (0, 0)
  rw [eC0, w0] at t1 t2
  have cz := (Complex.continuous_ofReal.tendsto _).comp lz
  have sz := (Complex.continuous_ofReal.tendsto _).comp lz'
  have v0 := val (0, 0)
  simp only [rotP, k1, k2] at v0
  constructor
  · refine (((cz.mul t1).add (sz.mul t2)).congr fun p => ?_).trans (le_of_eq ?_)
    · rw [(val p).1]
      rfl
    · rw [v0.1]
      congr 1
      push_cast
      ring
  · refine (((cz.mul t2).sub (sz.mul t1)).congr fun p => ?_).trans (le_of_eq ?_)
    · rw [(val p).2]
      rfl
    · rw [v0.2]
      congr 1
      push_cast
      ring

/-- As the in-plane spin of the heavier body vanishes, whatever its direction, both polarisations of the precessing model tend
    to those it gives without in-plane spin, multiplied by `-exp(2i phiRef)`: for binaries of unequal masses, seen off the axis,
    whose orbital angular momentum dominates at the reference frequency, at every sample below the cutoff at which orbital
    angular momentum and aligned spin do not cancel. -/
theorem C118_limit (hq : Q.Shipped) (hMc : 0 < Mc) (he : 0 < eta) (he' : eta < 1 / 4) (z1 : |chi1| ≤ 1) (z2 : |chi2| ≤ 1)
    (hD : 0 < D) (hf : 0 < f_ref) (hL : 0 < LplusS (mHeavy Mc eta) (mLight Mc eta) (0, 0, chi1) (0, 0, chi2) f_ref)
    (hs : Real.sin incl ≠ 0) (hinc : Increasing grid) (hj : j < grid.length) (hfj : 0 < grid.getD j 0)
    (hk : grid.getD (grid.length - 1) 0 < 0.2 / ((mHeavy Mc eta + mLight Mc eta) * gt) ∨
      (j + 2 < grid.length ∧ grid.getD (j + 2) 0 < 0.2 / ((mHeavy Mc eta + mLight Mc eta) * gt)))
    (hLj : LplusS (mHeavy Mc eta) (mLight Mc eta) (0, 0, chi1) (0, 0, chi2) (grid.getD j 0) ≠ 0)
    (h : ∀ a b, ∃ hp hc, gen_IMRPhenomPv2_hphc Q grid [Mc, eta, a, b, chi1, 0, 0, chi2, D, tc, phiRef, incl] f_ref =
      .ok (hp, hc) ∧ hp.getD j 0 = P (a, b) ∧ hc.getD j 0 = X (a, b)) :
    Tendsto P (𝓝[≠] (0, 0)) (𝓝 (-Complex.exp (2 * Complex.I * (phiRef : ℂ)) * P (0, 0))) ∧
    Tendsto X (𝓝[≠] (0, 0)) (𝓝 (-Complex.exp (2 * Complex.I * (phiRef : ℂ)) * X (0, 0))) := by
  obtain ⟨h2, hle, hne⟩ := C02_masses_ordered Mc eta hMc he he'.le
  have h12 : mLight Mc eta < mHeavy Mc eta := lt_of_le_of_ne hle fun e => he'.ne (hne.1 e.symm)
  refine limit_masses (D := D) (tc := tc) hq h2 h12 z1 z2 hD hf hL hs hj hfj (below_cutThr hinc hj hk) hLj fun a b => ?_
  obtain ⟨hp, hc, g, g1, g2⟩ := h a b
  exact ⟨hp, hc, (C61_masses Q grid (a, b, chi1) (0, 0, chi2) D tc phiRef incl f_ref Mc eta []).symm.trans g, g1, g2⟩

/-- So a sample that does not vanish is continuous at vanishing in-plane spin for the reference phases that are odd multiples
    of π/2, and for no others. -/
theorem C118_continuous_iff (hq : Q.Shipped) (hMc : 0 < Mc) (he : 0 < eta) (he' : eta < 1 / 4) (z1 : |chi1| ≤ 1) (z2 : |chi2| ≤ 1)
    (hD : 0 < D) (hf : 0 < f_ref) (hL : 0 < LplusS (mHeavy Mc eta) (mLight Mc eta) (0, 0, chi1) (0, 0, chi2) f_ref)
    (hs : Real.sin incl ≠ 0) (hinc : Increasing grid) (hj : j < grid.length) (hfj : 0 < grid.getD j 0)
    (hk : grid.getD (grid.length - 1) 0 < 0.2 / ((mHeavy Mc eta + mLight Mc eta) * gt) ∨
      (j + 2 < grid.length ∧ grid.getD (j + 2) 0 < 0.2 / ((mHeavy Mc eta + mLight Mc eta) * gt)))
    (hLj : LplusS (mHeavy Mc eta) (mLight Mc eta) (0, 0, chi1) (0, 0, chi2) (grid.getD j 0) ≠ 0)
    (h : ∀ a b, ∃ hp hc, gen_IMRPhenomPv2_hphc Q grid [Mc, eta, a, b, chi1, 0, 0, chi2, D, tc, phiRef, incl] f_ref =
      .ok (hp, hc) ∧ hp.getD j 0 = P (a, b) ∧ hc.getD j 0 = X (a, b)) :
    (P (0, 0) ≠ 0 → (ContinuousAt P (0, 0) ↔ Real.cos phiRef = 0)) ∧
    (X (0, 0) ≠ 0 → (ContinuousAt X (0, 0) ↔ Real.cos phiRef = 0)) := by
  obtain ⟨t1, t2⟩ := C118_limit hq hMc he he' z1 z2 hD hf hL hs hinc hj hfj hk hLj h
  have phase : -Complex.exp (2 * Complex.I * (phiRef : ℂ)) = 1 ↔ Real.cos phiRef = 0 := by
    have e : Complex.exp (2 * Complex.I * (phiRef : ℂ)) =
        (⟨Real.cos (2 * phiRef), Real.sin (2 * phiRef)⟩ : ℂ) := by
      rw [show 2 * Complex.I * (phiRef : ℂ) = ((2 * phiRef : ℝ) : ℂ) * Complex.I by push_cast; ring]
      apply Complex.ext
      · rw [Complex.exp_ofReal_mul_I_re]
      · rw [Complex.exp_ofReal_mul_I_im]
    rw [e, Complex.ext_iff]
    simp only [Complex.neg_re, Complex.neg_im, Complex.one_re, Complex.one_im]
    rw [Real.cos_two_mul, Real.sin_two_mul]
    constructor
    · rintro ⟨k, -⟩
      exact pow_eq_zero_iff two_ne_zero |>.1 (by linarith)
    · intro k
      rw [k]
      norm_num
  have key : ∀ F : ℝ × ℝ → ℂ, Tendsto F (𝓝[≠] (0, 0)) (𝓝 (-Complex.exp (2 * Complex.I * (phiRef : ℂ)) * F (0, 0))) →
      F (0, 0) ≠ 0 → (ContinuousAt F (0, 0) ↔ Real.cos phiRef = 0) := by
    intro F t hF
    rw [← phase, continuousAt_iff_punctured_nhds]
    constructor
    · intro c
      exact mul_right_cancel₀ hF (by rw [one_mul]; exact tendsto_nhds_unique t c)
    · intro c
      rwa [c, one_mul] at t
  exact ⟨key P t1, key X t2⟩

end

lemma LplusS_pos {m1 m2 chi1 chi2 f : ℝ} (h1 : 0 < m1) (h2 : 0 < m2) (z1 : 0 ≤ chi1) (z2 : 0 ≤ chi2) (hf : 0 < f) :
    0 < LplusS m1 m2 (0, 0, chi1) (0, 0, chi2) f := by
  have hv : 0 < vOf m1 m2 f := by
    have := gt_pos; have := Real.pi_pos; unfold vOf; positivity
  have heta : m1 * m2 / (m1 + m2) ^ 2 ≤ 1 / 4 := by
    rw [div_le_iff₀ (by positivity)]; nlinarith [sq_nonneg (m1 - m2)]
  have heta0 : 0 < m1 * m2 / (m1 + m2) ^ 2 := by positivity
  have b : 0 ≤ (m1 ^ 2 * chi1 + m2 ^ 2 * chi2) / (m1 + m2) ^ 2 := by positivity
  unfold LplusS orbitalL
  dsimp only
  generalize m1 * m2 / (m1 + m2) ^ 2 = e at *
  generalize vOf m1 m2 f = v at *
  have a2 : 0 ≤ (27 / 8 - 19 * e / 8 - e ^ 2 / 24) * v ^ 4 := mul_nonneg (by nlinarith) (by positivity)
  have a1 : 0 ≤ (3 / 2 + e / 6) * v ^ 2 := by positivity
  have : 0 < 1 ^ 2 * e / v * (1 + (3 / 2 + e / 6) * v ^ 2 + (27 / 8 - 19 * e / 8 - e ^ 2 / 24) * v ^ 4) :=
    mul_pos (by positivity) (by linarith)
  linarith

/-- With the tables as shipped, for mass ratios up to 50 other than 1 and aligned spins in [0, 1], on a grid below the cutoff:
    off the axis, and for every reference phase other than an odd multiple of π/2, the plus polarisation jumps at vanishing
    in-plane spin at every sample, and off the orbital plane so does the cross polarisation. -/
theorem C118_jump {eps : ℝ} (hp : 0 ≤ eps) (hp' : eps < 4e-6) {Mc eta chi1 chi2 D tc phiRef incl f_ref : ℝ} (hMc : 0 < Mc)
    (he : 50 / 2601 ≤ eta) (he' : eta < 1 / 4) (z1 : 0 ≤ chi1) (z1' : chi1 ≤ 1) (z2 : 0 ≤ chi2) (z2' : chi2 ≤ 1) (hD : 0 < D)
    (hf : 0 < f_ref) (hs : Real.sin incl ≠ 0) (hphi : Real.cos phiRef ≠ 0) {grid : List ℝ} (hinc : Increasing grid)
    (hlast : grid.getD (grid.length - 1) 0 < 0.2 / ((mHeavy Mc eta + mLight Mc eta) * gt)) {j : ℕ} (hj : j < grid.length)
    (hfj : 0 < grid.getD j 0) :
    ∃ P X : ℝ × ℝ → ℂ, (∀ a b, ∃ hp hc, gen_IMRPhenomPv2_hphc (qnmTable eps) grid
        [Mc, eta, a, b, chi1, 0, 0, chi2, D, tc, phiRef, incl] f_ref = .ok (hp, hc) ∧
        hp.getD j 0 = P (a, b) ∧ hc.getD j 0 = X (a, b)) ∧
      ¬ ContinuousAt P (0, 0) ∧ (Real.cos incl ≠ 0 → ¬ ContinuousAt X (0, 0)) := by
  have he0 : 0 < eta := by linarith
  obtain ⟨h2, hle, -⟩ := C02_masses_ordered Mc eta hMc he0 he'.le
  have h1 : 0 < mHeavy Mc eta := lt_of_lt_of_le h2 hle
  have hL := LplusS_pos h1 h2 z1 z2 hf
  have hLj := LplusS_pos h1 h2 z1 z2 hfj
  have c1 : |chi1| ≤ 1 := abs_le.2 ⟨by linarith, z1'⟩
  have c2 : |chi2| ≤ 1 := abs_le.2 ⟨by linarith, z2'⟩
  have ex : ∀ p : ℝ × ℝ, ∃ h : List ℂ × List ℂ, gen_IMRPhenomPv2_hphc (qnmTable eps) grid
      [Mc, eta, p.1, p.2, chi1, 0, 0, chi2, D, tc, phiRef, incl] f_ref = .ok h := fun p =>
    ⟨_, (C61_masses (qnmTable eps) grid (p.1, p.2, chi1) (0, 0, chi2) D tc phiRef incl f_ref Mc eta []).trans
      (genP_eq _ _ _ _ _ _ _ _ _ _ _)⟩
  choose H hH using ex
  obtain ⟨P, eP⟩ : ∃ P : ℝ × ℝ → ℂ, ∀ p, (H p).1.getD j 0 = P p := ⟨_, fun _ => rfl⟩
  obtain ⟨X, eX⟩ : ∃ X : ℝ × ℝ → ℂ, ∀ p, (H p).2.getD j 0 = X p := ⟨_, fun _ => rfl⟩
  have hall : ∀ a b, ∃ hp hc, gen_IMRPhenomPv2_hphc (qnmTable eps) grid
        [Mc, eta, a, b, chi1, 0, 0, chi2, D, tc, phiRef, incl] f_ref = .ok (hp, hc) ∧
        hp.getD j 0 = P (a, b) ∧ hc.getD j 0 = X (a, b) :=
    fun a b => ⟨_, _, hH (a, b), eP (a, b), eX (a, b)⟩
  obtain ⟨i1, i2⟩ := C118_continuous_iff (C93_shipped hp hp') hMc he0 he' c1 c2 hD hf hL hs hinc hj hfj (Or.inl hlast) hLj.ne' hall
  obtain ⟨wp, wc, g, -, -, mod⟩ := C59_moduli (qnmTable eps) grid Mc eta chi1 chi2 D tc phiRef incl f_ref hMc he0 he'.le hf
    hL.ne' 0 0 1
  obtain ⟨n1, n2⟩ := mod j hj hfj hLj.ne'
  have mono : grid.getD j 0 ≤ grid.getD (grid.length - 1) 0 := by
    rcases (show j ≤ grid.length - 1 by omega).lt_or_eq with h | h
    · exact (hinc j _ h (by omega)).le
    · rw [h]
  have nz := C101_strain_nonzero hp hp' Mc eta chi1 chi2 D 0 0 1 hMc he he'.le c1 c2 hD grid hlast j hj hfj (mono.trans_lt hlast)
  have g0 := (hH (0, 0)).symm.trans g
  simp only [Except.ok.injEq] at g0
  have v1 := eP (0, 0)
  have v2 := eX (0, 0)
  rw [g0] at v1 v2
  dsimp only at v1 v2
  rw [C35_D] at n1 n2
  generalize gen_IMRPhenomD (qnmTable eps) grid [Mc, eta, chi1, chi2, D, 0, 0] 1 = h at n1 n2 nz
  have hjl : j < h.length := by
    by_contra hn
    exact nz (List.getD_eq_default _ _ (by omega))
  dsimp only at n1 n2
  have md : ∀ g : ℂ → ℂ, (h.map g).getD j 0 = g (h.getD j 0) := fun g => by
    rw [List.getD_eq_getElem _ _ (by simpa using hjl), List.getElem_map, ← List.getD_eq_getElem _ 0 hjl]
  rw [md] at n1 n2
  refine ⟨P, X, hall, fun c => hphi ((i1 ?_).1 c), fun hc c => hphi ((i2 ?_).1 c)⟩
  · rw [← v1, ← norm_ne_zero_iff, n1, norm_ne_zero_iff]
    exact mul_ne_zero (by exact_mod_cast (by positivity : (1 + Real.cos incl ^ 2) / 2 ≠ 0)) nz
  · rw [← v2, ← norm_ne_zero_iff, n2, norm_ne_zero_iff]
    exact neg_ne_zero.2 (mul_ne_zero (mul_ne_zero Complex.I_ne_zero nz) (by exact_mod_cast hc))

/-- witness: chirp mass 1, symmetric mass ratio 1/32, aligned spins 0.3 and 0.1, inclination 1 rad, reference phase 0 -/
example (D tc : ℝ) (hD : 0 < D) : ∃ P X : ℝ × ℝ → ℂ, (∀ a b, ∃ hp hc, gen_IMRPhenomPv2_hphc (qnmTable 1.2e-7) [20, 30, 40]
      [1, 1 / 32, a, b, 0.3, 0, 0, 0.1, D, tc, 0, 1] 20 = .ok (hp, hc) ∧ hp.getD 1 0 = P (a, b) ∧ hc.getD 1 0 = X (a, b)) ∧
    ¬ ContinuousAt P (0, 0) ∧ ¬ ContinuousAt X (0, 0) := by
  obtain ⟨P, X, h, hP, hX⟩ := C118_jump (eps := 1.2e-7) (Mc := 1) (eta := 1 / 32) (chi1 := 0.3) (chi2 := 0.1) (D := D) (tc := tc)
    (phiRef := 0) (incl := 1) (f_ref := 20) (by norm_num) (by norm_num) (by norm_num) (by norm_num) (by norm_num) (by norm_num)
    (by norm_num) (by norm_num) (by norm_num) hD (by norm_num) (Real.sin_pos_of_pos_of_lt_pi one_pos (by linarith [Real.pi_gt_three])).ne'
    (by simp) witness_grid witness_cut (j := 1) (by simp) (by simp)
  exact ⟨P, X, h, hP, hX Real.cos_one_pos.ne'⟩

end Ripple
