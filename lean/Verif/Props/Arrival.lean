/-
  Property theorems C119: when the merger arrives.
-/
import Verif.Proofs.ArrivalGen

namespace Ripple
open PhenomD Filter Topology Set

/-- sanity of the definition: delaying a spectrum by `s` seconds delays each of its frequencies by `s` seconds -/
lemma Arrives.delay {h : ℝ → ℂ} {f t : ℝ} (a : Arrives h f t) (s : ℝ) :
    Arrives (fun x => h x * Complex.exp (-(2 * Real.pi * s * x : ℝ) * Complex.I)) f (t + s) := by
  obtain ⟨d, hd, h0, e⟩ := a
  have d2 : HasDerivAt (fun x : ℝ => ((-(2 * Real.pi * s * x) : ℝ) : ℂ)) ((-(2 * Real.pi * s) : ℝ) : ℂ) f := by
    have : HasDerivAt (fun x : ℝ => -(2 * Real.pi * s * x)) (-(2 * Real.pi * s)) f := by
      have h := (hasDerivAt_id f).const_mul (-(2 * Real.pi * s))
      simp only [mul_one, id] at h
      simpa only [neg_mul] using h
    exact this.ofReal_comp
  have d3 := (d2.mul_const Complex.I).cexp
  have hE := Complex.exp_ne_zero (((-(2 * Real.pi * s * f) : ℝ) : ℂ) * Complex.I)
  have d4 := hd.mul d3
  refine ⟨_, by simp only [Complex.ofReal_neg] at d4; exact d4, mul_ne_zero h0 (Complex.exp_ne_zero _), ?_⟩
  have : (d * Complex.exp (((-(2 * Real.pi * s * f) : ℝ) : ℂ) * Complex.I) + h f * (Complex.exp (((-(2 * Real.pi * s * f) : ℝ) : ℂ) *
      Complex.I) * (((-(2 * Real.pi * s) : ℝ) : ℂ) * Complex.I))) / (h f * Complex.exp (((-(2 * Real.pi * s * f) : ℝ) : ℂ) * Complex.I))
      = d / h f + ((-(2 * Real.pi * s) : ℝ) : ℂ) * Complex.I := by
    field_simp
  simp only [Complex.ofReal_neg] at this ⊢
  rw [this, e]
  simp
  field_simp
  ring

/-! ### C119 -/

/-- PhenomD.  Below the cutoff the strain is one fixed function of frequency, and from the amplitude peak on its frequency `f` arrives
    `M (s(f M) - s(f_peak M) + lag) / 2π` after the coalescence time given, where `s` is the slope of the fitted ringdown phase and
    `lag` collects the jumps of the slopes of the fitted pieces at the two points where they are joined. -/
theorem C119_phenomD (q : QNM) (hq : q.Shipped) (Mc eta chi1 chi2 D tc phic f_ref : ℝ) (hMc : 0 < Mc) (he : 0 < eta) (he' : eta ≤ 1 / 4)
    (h1 : |chi1| ≤ 1) (h2 : |chi2| ≤ 1) (hD : 0 < D) :
    let th := thetaOf Mc eta chi1 chi2
    let tf := tfOf q th
    let M := (th.m1 + th.m2) * gt
    let c := get_coeffs th
    let s := slopeRing c eta (tf.f_RD * M) (tf.f_damp * M)
    ∃ h : ℝ → ℂ, (∀ grid : List ℝ, grid ≠ [] → (∀ f ∈ grid, f < fCut th) →
        gen_IMRPhenomD q grid [Mc, eta, chi1, chi2, D, tc, phic] f_ref = grid.map h) ∧
      tf.f4 < fCut th ∧
      ∀ f, tf.f4 ≤ f → f < fCut th → Arrives h f (tc + M * (s (f * M) - s (tf.f4 * M)
        + lag (get_inspiral_phase_coeffs th) c eta (tf.f_RD * M) (tf.f_damp * M)) / (2 * Real.pi)) := by
  intro th tf M c s
  have hp : th.Physical := thetaOf_physical (chi1 := chi1) (chi2 := chi2) hMc he he' h1 h2
  have hM : M = Ms th := Ms_eq th
  obtain ⟨o1, o12, o24, oe1, oe2⟩ := tf_order hq hp
  obtain ⟨a, b, e4R, eRc, d, g1, -, g3⟩ := C74_amplitude_regions_ordered q hq th hp
  have f40 : 0 < tf.f4 := a.trans b
  refine ⟨strainAt th c tf D tc phic f_ref (fCut th), fun grid hne hg => ?_, lt_of_le_of_lt e4R eRc, fun f hf hfc => ?_⟩
  · rw [genD_eq, cutThr_uncut hne (hg _ (Jnp.getD_mem (by have := List.length_pos_of_ne_nil hne; omega)))]
  · have hs := psi_slope th hp.m1_pos hp.m2_pos c tf d o1 o12 f40 tc phic f_ref (lt_of_lt_of_le o24 hf)
    have hA := amp_diff hq hp hD (lt_of_lt_of_le f40 hf) hfc
    have h0 := amp_top hq hp hD hf hfc
    have := arrives_polar (h := strainAt th c tf D tc phic f_ref (fCut th)) hA h0.ne' one_ne_zero hs (by
      filter_upwards [gt_mem_nhds hfc] with x hx
      rw [strainAt_below hx, one_mul])
    convert this using 1
    have oe1' : tf.f1 * M = 0.018 := by rw [hM]; exact oe1
    have oe2' : tf.f2 * M = tf.f_RD * M / 2 := by rw [hM]; exact oe2
    unfold slopeTop
    rw [← hM, oe1', oe2', etaS_eq chi1 chi2 hMc he he']
    have := Real.pi_pos
    simp only [PhenomD.lag, s]
    field_simp
    ring

open Pv2 V3 in
/-- PhenomPv2 without in-plane spins.  Below the cutoff the plus polarisation is one fixed function of frequency, and from the
    amplitude peak on its frequency `f` arrives at `M (tc + s(f M) - s(f_ringdown M)) / 2π`: the ringdown frequency arrives at
    `M tc / 2π`, and there is no lag. -/
theorem C119_Pv2 (q : QNM) (hq : q.Shipped) (Mc eta chi1 chi2 D tc phiRef incl f_ref : ℝ) (hMc : 0 < Mc) (he : 0 < eta)
    (he' : eta ≤ 1 / 4) (h1 : |chi1| ≤ 1) (h2 : |chi2| ≤ 1) (hD : 0 < D) (hf : 0 < f_ref)
    (hL : LplusS (mHeavy Mc eta) (mLight Mc eta) (0, 0, chi1) (0, 0, chi2) f_ref ≠ 0) :
    let th := thetaOf Mc eta chi1 chi2
    let tf := tfOf q th
    let M := (th.m1 + th.m2) * gt
    let c := get_coeffs th
    let s := slopeRing c eta (tf.f_RD * M) (tf.f_damp * M)
    ∃ hp hc : ℝ → ℂ, (∀ grid : List ℝ, grid ≠ [] → (∀ f ∈ grid, f < fCut th) →
        gen_IMRPhenomPv2_hphc q grid [Mc, eta, 0, 0, chi1, 0, 0, chi2, D, tc, phiRef, incl] f_ref = .ok (grid.map hp, grid.map hc)) ∧
      ∀ f, tf.f4 ≤ f → f < fCut th → Arrives hp f (M * (tc + s (f * M) - s (tf.f_RD * M)) / (2 * Real.pi)) := by
  intro th tf M c s
  have hp : th.Physical := thetaOf_physical (chi1 := chi1) (chi2 := chi2) hMc he he' h1 h2
  have hM : M = Ms th := Ms_eq th
  obtain ⟨o1, o12, o24, -, -⟩ := tf_order hq hp
  obtain ⟨a, b, e4R, eRc, d, -, -, -⟩ := C74_amplitude_regions_ordered q hq th hp
  have f40 : 0 < tf.f4 := a.trans b
  have hsamp := fun grid => aligned_samples q grid Mc eta chi1 chi2 D tc phiRef incl f_ref hMc he he' hf hL
  simp only at hsamp
  set L := LplusS (mHeavy Mc eta) (mLight Mc eta) (0, 0, chi1) (0, 0, chi2) f_ref with hLd
  set z := (frameP (mHeavy Mc eta) (mLight Mc eta) (0, 0, chi1) (0, 0, chi2) f_ref phiRef incl).zeta_polariz with hz
  set x := L / |L| * Real.cos incl with hx
  set t0 := t0P q (mHeavy Mc eta) (mLight Mc eta) (0, 0, chi1) (0, 0, chi2) 0 with ht0
  have hcorr : ∀ f, corrP q (mHeavy Mc eta) (mLight Mc eta) (0, 0, chi1) (0, 0, chi2) 0 tc f =
      Complex.exp (Complex.I * ((-(2 * PI * t0 * f) - M * tc * f : ℝ) : ℂ)) := by
    intro f
    have hMl : M = (mLight Mc eta + mHeavy Mc eta) * gt := by
      rw [add_comm]; rfl
    unfold corrP
    rw [← ht0, show ((Real.cos (2 * PI * f * t0) : ℝ) : ℂ) - Complex.I * ((Real.sin (2 * PI * f * t0) : ℝ) : ℂ) =
      Complex.exp (((-(2 * PI * f * t0) : ℝ) : ℂ) * Complex.I) by
        rw [Complex.exp_mul_I, ← Complex.ofReal_cos, ← Complex.ofReal_sin, Real.cos_neg, Real.sin_neg]; push_cast; ring,
      ← Complex.exp_add, hMl]
    congr 1
    push_cast
    ring
  set g : ℝ → ℂ := fun f => (ampAt th c tf D (fCut th) f : ℂ) * Complex.exp (-Complex.I * ((Phase f th c tf : ℝ) : ℂ))
    * corrP q (mHeavy Mc eta) (mLight Mc eta) (0, 0, chi1) (0, 0, chi2) 0 tc f with hg
  refine ⟨fun f => (rotP z ((((1 + x ^ 2) / 2 : ℝ) : ℂ) * g f, -(Complex.I * g f * (x : ℂ)))).1,
    fun f => (rotP z ((((1 + x ^ 2) / 2 : ℝ) : ℂ) * g f, -(Complex.I * g f * (x : ℂ)))).2, fun grid hne hgr => ?_, fun f hf4 hfc => ?_⟩
  · obtain ⟨K, hK, -, e⟩ := hsamp grid
    rw [cutThr_uncut hne (hgr _ (Jnp.getD_mem (by have := List.length_pos_of_ne_nil hne; omega)))] at e
    rw [e]
    simp only [hg, hK]
    rfl
  · have hfp := lt_of_lt_of_le f40 hf4
    set k : ℂ := ((Real.cos (2 * z) : ℝ) : ℂ) * (((1 + x ^ 2) / 2 : ℝ) : ℂ) - ((Real.sin (2 * z) : ℝ) : ℂ) * (Complex.I * (x : ℂ)) with hk
    have hk0 : k ≠ 0 := by
      obtain ⟨-, -, hzz, -⟩ := hsamp []
      intro h0
      have hre : Real.cos (2 * z) * ((1 + x ^ 2) / 2) = 0 := by
        have := congrArg Complex.re h0
        rw [hk, Complex.sub_re, Complex.re_ofReal_mul, Complex.ofReal_re, Complex.re_ofReal_mul] at this
        simpa using this
      have him : Real.sin (2 * z) * x = 0 := by
        have := congrArg Complex.im h0
        rw [hk, Complex.sub_im, Complex.im_ofReal_mul, Complex.ofReal_im, Complex.im_ofReal_mul] at this
        simpa using this
      have hc0 : Real.cos (2 * z) = 0 := by
        rcases mul_eq_zero.1 hre with h | h
        · exact h
        · nlinarith [sq_nonneg x]
      have hs0 : Real.sin (2 * z) ≠ 0 := by
        intro h
        have := Real.sin_sq_add_cos_sq (2 * z)
        rw [h, hc0] at this; norm_num at this
      have hx0 : x = 0 := (mul_eq_zero.1 him).resolve_left hs0
      have hci : Real.cos incl = 0 := by
        rcases mul_eq_zero.1 hx0 with h | h
        · exact absurd h (div_ne_zero hL (abs_ne_zero.2 hL))
        · exact h
      have hsi : Real.sin incl ≠ 0 := by
        intro h
        have := Real.sin_sq_add_cos_sq incl
        rw [h, hci] at this; norm_num at this
      rw [(hzz hsi).1] at hc0
      norm_num at hc0
    have hPR := phase_slope th hp.m1_pos hp.m2_pos c tf d o1 o12 (f := tf.f_RD) (lt_of_lt_of_le o24 e4R)
    have hPf := phase_slope th hp.m1_pos hp.m2_pos c tf d o1 o12 (f := f) (lt_of_lt_of_le o24 hf4)
    have ht : t0 = -(Ms th * slopeTop th c tf (tf.f_RD * Ms th)) / (2 * PI) := by
      obtain ⟨hm2, hm12, -⟩ := C02_masses_ordered Mc eta hMc he he'
      rw [ht0, t0P, tfP_aligned q hm2 hm12 (0, 0, chi1) (0, 0, chi2)]
      congr 1
      exact hPR.neg.deriv
    have hlin : HasDerivAt (fun y : ℝ => 2 * PI * t0 * y + M * tc * y) (2 * PI * t0 + M * tc) f := by
      have h := ((hasDerivAt_id f).const_mul (2 * PI * t0)).add ((hasDerivAt_id f).const_mul (M * tc))
      simp only [mul_one] at h
      exact h
    have := arrives_polar (h := fun f => (rotP z ((((1 + x ^ 2) / 2 : ℝ) : ℂ) * g f, -(Complex.I * g f * (x : ℂ)))).1)
      (amp_diff hq hp hD hfp hfc) (amp_top hq hp hD hf4 hfc).ne' hk0 (hPf.add hlin) (by
        filter_upwards with y
        simp only [rotP, hg, hcorr, hk]
        have hE : Complex.exp (Complex.I * ((-(Phase y th c tf + (2 * PI * t0 * y + M * tc * y)) : ℝ) : ℂ)) =
          Complex.exp (-Complex.I * ((Phase y th c tf : ℝ) : ℂ)) * Complex.exp (Complex.I * ((-(2 * PI * t0 * y) - M * tc * y : ℝ) : ℂ)) := by
          rw [← Complex.exp_add]; congr 1; push_cast; ring
        simp only [Pi.add_apply]
        rw [hE]
        ring)
    convert this using 1
    rw [ht]
    unfold slopeTop
    rw [← hM, etaS_eq chi1 chi2 hMc he he']
    have := Real.pi_pos
    simp only [s, PI]
    field_simp
    ring

/-- The lag is not small.  Mass ratio 2, spins 0.9 and -0.9, any total mass, distance, coalescence time, phase and reference frequency:
    the frequency at the amplitude peak arrives between 38.7 and 39.8 total masses BEFORE the coalescence time given. -/
theorem C119_early {eps : ℝ} (e0 : 0 ≤ eps) (e1 : eps < 4e-6) (Mc D tc phic f_ref : ℝ) (hMc : 0 < Mc) (hD : 0 < D) :
    let th := thetaOf Mc (2 / 9) 0.9 (-0.9)
    let tf := tfOf (qnmTable eps) th
    let M := (th.m1 + th.m2) * gt
    0 < M ∧ 0 < tf.f4 ∧ tf.f4 < fCut th ∧
    ∃ h : ℝ → ℂ, (∀ grid : List ℝ, grid ≠ [] → (∀ f ∈ grid, f < fCut th) →
        gen_IMRPhenomD (qnmTable eps) grid [Mc, 2 / 9, 0.9, -0.9, D, tc, phic] f_ref = grid.map h) ∧
      ∃ t, Arrives h tf.f4 t ∧ tc - 39.8 * M < t ∧ t < tc - 38.7 * M := by
  intro th tf M
  obtain ⟨hM0, h4, ⟨l1, l2⟩, -⟩ := nums_I e0 e1 hMc
  obtain ⟨h, hgen, hcut, harr⟩ := C119_phenomD _ (C93_shipped e0 e1) Mc (2 / 9) 0.9 (-0.9) D tc phic f_ref hMc (by norm_num) (by norm_num)
    (by norm_num [abs_le]) (by norm_num [abs_le]) hD
  refine ⟨hM0, h4, hcut, h, hgen, _, harr tf.f4 le_rfl hcut, ?_⟩
  rw [sub_self, zero_add]
  obtain ⟨g1, g2⟩ := over_two_pi (a := -39.8) (b := -38.7) hM0 (lt_trans (by norm_num) l1)
    (lt_trans (by norm_num) l1) (lt_trans l2 (by norm_num)) (lt_trans l2 (by norm_num))
  refine ⟨lt_of_eq_of_lt ?_ (add_lt_add_of_le_of_lt (le_refl tc) g1), lt_of_lt_of_eq (add_lt_add_of_le_of_lt (le_refl tc) g2) ?_⟩
  · show tc - 39.8 * M = tc + -39.8 * M
    ring
  · show tc + -38.7 * M = tc - 38.7 * M
    ring

open Pv2 V3 in
/-- Same coalescence time (zero), equal masses without spins, any total mass, distances, inclination, phases and reference frequencies:
    every frequency from the amplitude peak to the cutoff arrives between 4.6 and 6.8 total masses LATER with PhenomD than with
    PhenomPv2. -/
theorem C119_generators_equal_mass {eps : ℝ} (e0 : 0 ≤ eps) (e1 : eps < 4e-6) (Mc D phic f_ref D' phiRef incl f_ref' : ℝ) (hMc : 0 < Mc)
    (hD : 0 < D) (hD' : 0 < D') (hf : 0 < f_ref') :
    let th := thetaOf Mc (1 / 4) 0 0
    let tf := tfOf (qnmTable eps) th
    let M := (th.m1 + th.m2) * gt
    0 < M ∧ tf.f4 < fCut th ∧
    ∃ h hp hc : ℝ → ℂ, (∀ grid : List ℝ, grid ≠ [] → (∀ f ∈ grid, f < fCut th) →
        gen_IMRPhenomD (qnmTable eps) grid [Mc, 1 / 4, 0, 0, D, 0, phic] f_ref = grid.map h ∧
        gen_IMRPhenomPv2_hphc (qnmTable eps) grid [Mc, 1 / 4, 0, 0, 0, 0, 0, 0, D', 0, phiRef, incl] f_ref' =
          .ok (grid.map hp, grid.map hc)) ∧
      ∀ f, tf.f4 ≤ f → f < fCut th → ∃ t t', Arrives h f t ∧ Arrives hp f t' ∧ 4.6 * M < t - t' ∧ t - t' < 6.8 * M := by
  intro th tf M
  obtain ⟨hM0, h4, ⟨l1, l2⟩, ⟨s1, s2⟩⟩ := nums_II e0 e1 hMc
  obtain ⟨hm2, hm12, -⟩ := C02_masses_ordered Mc (1 / 4) hMc (by norm_num) le_rfl
  obtain ⟨h, hgen, hcut, harr⟩ := C119_phenomD _ (C93_shipped e0 e1) Mc (1 / 4) 0 0 D 0 phic f_ref hMc (by norm_num) le_rfl
    (by norm_num) (by norm_num) hD
  obtain ⟨hp, hc, hgen', harr'⟩ := C119_Pv2 _ (C93_shipped e0 e1) Mc (1 / 4) 0 0 D' 0 phiRef incl f_ref' hMc (by norm_num) le_rfl
    (by norm_num) (by norm_num) hD' hf (LplusS_pos_arr (lt_of_lt_of_le hm2 hm12) hm2 hf (by norm_num)).ne'
  refine ⟨hM0, hcut, h, hp, hc, fun grid hne hg => ⟨hgen grid hne hg, hgen' grid hne hg⟩, fun f hf1 hf2 =>
    ⟨_, _, harr f hf1 hf2, harr' f hf1 hf2, ?_⟩⟩
  obtain ⟨g1, g2⟩ := over_two_pi (a := 4.6) (b := 6.8) hM0 (x := _ - _ + _) (lt_trans (by norm_num) (add_lt_add s1 l1))
    (lt_trans (by norm_num) (add_lt_add s1 l1)) (lt_trans (add_lt_add s2 l2) (by norm_num)) (lt_trans (add_lt_add s2 l2) (by norm_num))
  refine ⟨lt_of_lt_of_eq g1 ?_, lt_of_eq_of_lt ?_ g2⟩ <;>
  · have := Real.pi_pos
    field_simp
    ring

open Pv2 V3 in
/-- The same comparison for mass ratio 2 and spins 0.9, -0.9: between 31.7 and 33.9 total masses EARLIER with PhenomD. -/
theorem C119_generators_spinning {eps : ℝ} (e0 : 0 ≤ eps) (e1 : eps < 4e-6) (Mc D phic f_ref D' phiRef incl f_ref' : ℝ) (hMc : 0 < Mc)
    (hD : 0 < D) (hD' : 0 < D') (hf : 0 < f_ref') :
    let th := thetaOf Mc (2 / 9) 0.9 (-0.9)
    let tf := tfOf (qnmTable eps) th
    let M := (th.m1 + th.m2) * gt
    0 < M ∧ tf.f4 < fCut th ∧
    ∃ h hp hc : ℝ → ℂ, (∀ grid : List ℝ, grid ≠ [] → (∀ f ∈ grid, f < fCut th) →
        gen_IMRPhenomD (qnmTable eps) grid [Mc, 2 / 9, 0.9, -0.9, D, 0, phic] f_ref = grid.map h ∧
        gen_IMRPhenomPv2_hphc (qnmTable eps) grid [Mc, 2 / 9, 0, 0, 0.9, 0, 0, -0.9, D', 0, phiRef, incl] f_ref' =
          .ok (grid.map hp, grid.map hc)) ∧
      ∀ f, tf.f4 ≤ f → f < fCut th → ∃ t t', Arrives h f t ∧ Arrives hp f t' ∧ -33.9 * M < t - t' ∧ t - t' < -31.7 * M := by
  intro th tf M
  obtain ⟨hM0, h4, ⟨l1, l2⟩, ⟨s1, s2⟩⟩ := nums_I e0 e1 hMc
  obtain ⟨hm2, hm12, -⟩ := C02_masses_ordered Mc (2 / 9) hMc (by norm_num) (by norm_num)
  obtain ⟨h, hgen, hcut, harr⟩ := C119_phenomD _ (C93_shipped e0 e1) Mc (2 / 9) 0.9 (-0.9) D 0 phic f_ref hMc (by norm_num) (by norm_num)
    (by norm_num [abs_le]) (by norm_num [abs_le]) hD
  obtain ⟨hp, hc, hgen', harr'⟩ := C119_Pv2 _ (C93_shipped e0 e1) Mc (2 / 9) 0.9 (-0.9) D' 0 phiRef incl f_ref' hMc (by norm_num)
    (by norm_num) (by norm_num [abs_le]) (by norm_num [abs_le]) hD' hf
    (LplusS_pos_arr (lt_of_lt_of_le hm2 hm12) hm2 hf (by
      have := pow_le_pow_left₀ hm2.le hm12 2
      change 0 ≤ (Mc_eta_to_ms Mc (2 / 9)).1 ^ 2 * 0.9 + (Mc_eta_to_ms Mc (2 / 9)).2 ^ 2 * -0.9
      linarith)).ne'
  refine ⟨hM0, hcut, h, hp, hc, fun grid hne hg => ⟨hgen grid hne hg, hgen' grid hne hg⟩, fun f hf1 hf2 =>
    ⟨_, _, harr f hf1 hf2, harr' f hf1 hf2, ?_⟩⟩
  obtain ⟨g1, g2⟩ := over_two_pi (a := -33.9) (b := -31.7) hM0 (x := _ - _ + _) (lt_trans (by norm_num) (add_lt_add s1 l1))
    (lt_trans (by norm_num) (add_lt_add s1 l1)) (lt_trans (add_lt_add s2 l2) (by norm_num)) (lt_trans (add_lt_add s2 l2) (by norm_num))
  refine ⟨lt_of_lt_of_eq g1 ?_, lt_of_eq_of_lt ?_ g2⟩ <;>
  · have := Real.pi_pos
    field_simp
    ring

/-- the hypotheses of the general statements are met -/
example : (qnmTable 1e-7).Shipped ∧ |(0.3 : ℝ)| ≤ 1 ∧ |(-0.2 : ℝ)| ≤ 1 ∧ (0 : ℝ) < 0.24 ∧ (0.24 : ℝ) ≤ 1 / 4 ∧
    LplusS (mHeavy 30 0.24) (mLight 30 0.24) (0, 0, 0.3) (0, 0, -0.2) 20 ≠ 0 := by
  obtain ⟨h2, h12, -⟩ := C02_masses_ordered 30 0.24 (by norm_num) (by norm_num) (by norm_num)
  refine ⟨C93_shipped (by norm_num) (by norm_num), by norm_num [abs_le], by norm_num [abs_le], by norm_num, by norm_num, ?_⟩
  refine (LplusS_pos_arr (lt_of_lt_of_le h2 h12) h2 (by norm_num) ?_).ne'
  have := pow_le_pow_left₀ h2.le h12 2
  have h0 := sq_nonneg (mHeavy 30 0.24)
  change (mLight 30 0.24) ^ 2 ≤ (mHeavy 30 0.24) ^ 2 at this
  linarith

end Ripple
