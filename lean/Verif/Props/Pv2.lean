/-
  Property theorems about the PhenomPv2 generator: C60, C61, C81, C82.
  Throughout `gen_IMRPhenomPv2 Q grid (pars m1 m2 s1 s2 D tc phiRef incl) f_ref` with `m1 ≥ m2` and spins `s1`, `s2`;
  `pars` is the twelve-entry parameter vector of the API.
-/
import Verif.Proofs.Pv2Sym
import Verif.Props.Conversions

namespace Ripple
open Pv2 V3 PhenomD

/-- the angles `convert_spins` returns for this call (the generator swaps the two bodies) -/
noncomputable abbrev frameP (m1 m2 : ℝ) (s1 s2 : V3) (f_ref phiRef incl : ℝ) : Converted :=
  conv m2 m1 f_ref phiRef incl s2 s1

/-- the aligned-spin amplitude: PhenomD's amplitude function with the precessing final spin -/
noncomputable abbrev ampP (Q : QNM) (grid : List ℝ) (m1 m2 : ℝ) (s1 s2 : V3) (chip D : ℝ) : List ℝ :=
  Amp grid (thetaP m1 m2 s1 s2) (get_coeffs (thetaP m1 m2 s1 s2)) (tfP Q m1 m2 s1 s2 chip) D

lemma cosInst_abs (m1 m2 : ℝ) (s1 s2 : V3) (c : Converted) (f_ref f : ℝ) : |cosInst m1 m2 s1 s2 c f_ref f| ≤ 1 := by
  obtain ⟨n1, n2⟩ := norm_factor (coneAngle m1 m2 s1 s2 c.chip f) c.thetaJN (azimuth m1 m2 s1 s2 c f_ref f)
  unfold cosInst
  rw [abs_le]
  constructor
  · have := n2 ▸ sq_nonneg _; linarith
  · have := n1 ▸ sq_nonneg _; linarith

lemma parallelogram_C (a b : ℂ) : ‖a + b‖ * ‖a + b‖ + ‖a - b‖ * ‖a - b‖ = 2 * (‖a‖ * ‖a‖ + ‖b‖ * ‖b‖) := by
  simp only [← sq, Complex.sq_norm, Complex.normSq_apply, Complex.add_re, Complex.add_im, Complex.sub_re, Complex.sub_im]
  ring

section
variable (Q : QNM) (grid : List ℝ) {m1 m2 : ℝ} (s1 s2 : V3) (D tc phiRef incl f_ref : ℝ)

/-! ### C81: circular polarisations -/

/-- At every positive sample frequency the two circular polarisations `hp ∓ i hc` have moduli
    `A (1 ∓ x)² / 2` with `A` the aligned-spin amplitude and `x` the cosine of the instantaneous inclination: the
    radiation pattern is that of a non-precessing binary seen at that inclination. -/
theorem C81_circular (h2 : 0 < m2) (h : m2 ≤ m1) :
    ∃ hp hc, gen_IMRPhenomPv2 Q grid (pars m1 m2 s1 s2 D tc phiRef incl) f_ref = .ok (hp, hc) ∧
      hp.length = grid.length ∧ hc.length = grid.length ∧
      ∀ j, j < grid.length → 0 < grid.getD j 0 → LplusS m1 m2 s1 s2 (grid.getD j 0) ≠ 0 →
        let x := cosInst m1 m2 s1 s2 (frameP m1 m2 s1 s2 f_ref phiRef incl) f_ref (grid.getD j 0)
        let A := (ampP Q grid m1 m2 s1 s2 (frameP m1 m2 s1 s2 f_ref phiRef incl).chip D).getD j 0
        |x| ≤ 1 ∧
        ‖hp.getD j 0 - Complex.I * hc.getD j 0‖ = |A| * (1 - x) ^ 2 / 2 ∧
        ‖hp.getD j 0 + Complex.I * hc.getD j 0‖ = |A| * (1 + x) ^ 2 / 2 := by
  refine ⟨_, _, genP_eq Q grid m1 m2 s1 s2 D tc phiRef incl f_ref, by simp, by simp, fun j hj hf hL => ?_⟩
  intro x A
  rw [map_getElem hj, map_getElem hj]
  have hA : A = ampAt (thetaP m1 m2 s1 s2) (get_coeffs (thetaP m1 m2 s1 s2))
      (tfP Q m1 m2 s1 s2 (frameP m1 m2 s1 s2 f_ref phiRef incl).chip) D
      (cutThr grid (fM_CUT / Ms (thetaP m1 m2 s1 s2))) (grid.getD j 0) := by
    simp only [A, ampP, Amp_eq]
    rw [List.getD_eq_getElem _ _ (by simpa using hj), List.getD_eq_getElem _ _ hj]
    simp
  obtain ⟨r1, r2⟩ := norm_rot (conv m2 m1 f_ref phiRef incl s2 s1).zeta_polariz
    (twP Q m1 m2 s1 s2 D tc f_ref (conv m2 m1 f_ref phiRef incl s2 s1)
      (cutThr grid (fM_CUT / Ms (thetaP m1 m2 s1 s2))) (grid.getD j 0))
  obtain ⟨t1, t2⟩ := twP_norm Q s1 s2 D tc f_ref (conv m2 m1 f_ref phiRef incl s2 s1)
    (cutThr grid (fM_CUT / Ms (thetaP m1 m2 s1 s2))) (grid.getD j 0) h2 h hf hL
  rw [r1, r2, t1, t2, hA]
  exact ⟨cosInst_abs _ _ _ _ _ _ _, rfl, rfl⟩

/-! ### C60: power -/

/-- Total power in the two polarisations, and its bounds. -/
theorem C60_power (h2 : 0 < m2) (h : m2 ≤ m1) :
    ∃ hp hc, gen_IMRPhenomPv2 Q grid (pars m1 m2 s1 s2 D tc phiRef incl) f_ref = .ok (hp, hc) ∧
      ∀ j, j < grid.length → 0 < grid.getD j 0 → LplusS m1 m2 s1 s2 (grid.getD j 0) ≠ 0 →
        let x := cosInst m1 m2 s1 s2 (frameP m1 m2 s1 s2 f_ref phiRef incl) f_ref (grid.getD j 0)
        let A := (ampP Q grid m1 m2 s1 s2 (frameP m1 m2 s1 s2 f_ref phiRef incl).chip D).getD j 0
        ‖hp.getD j 0‖ ^ 2 + ‖hc.getD j 0‖ ^ 2 = A ^ 2 * (((1 + x ^ 2) / 2) ^ 2 + x ^ 2) ∧
        A ^ 2 / 4 ≤ ‖hp.getD j 0‖ ^ 2 + ‖hc.getD j 0‖ ^ 2 ∧ ‖hp.getD j 0‖ ^ 2 + ‖hc.getD j 0‖ ^ 2 ≤ 2 * A ^ 2 := by
  obtain ⟨hp, hc, he, -, -, hall⟩ := C81_circular Q grid s1 s2 D tc phiRef incl f_ref h2 h
  refine ⟨hp, hc, he, fun j hj hf hL => ?_⟩
  intro x A
  obtain ⟨hx, n1, n2⟩ := hall j hj hf hL
  have hpar := parallelogram_C (hp.getD j 0) (Complex.I * hc.getD j 0)
  rw [n1, n2, norm_mul, Complex.norm_I, one_mul] at hpar
  have key : ‖hp.getD j 0‖ ^ 2 + ‖hc.getD j 0‖ ^ 2 = A ^ 2 * (((1 + x ^ 2) / 2) ^ 2 + x ^ 2) := by
    have hA := sq_abs A
    simp only [A, x] at hA ⊢
    rw [← hA]
    linarith
  have hx' : |x| ≤ 1 := hx
  have hx2 : x ^ 2 ≤ 1 := by rw [← sq_abs]; exact pow_le_one₀ (abs_nonneg x) hx'
  have hA0 := sq_nonneg A
  refine ⟨key, ?_, ?_⟩
  · rw [key]; nlinarith [mul_nonneg hA0 (sq_nonneg x), mul_nonneg hA0 (sq_nonneg (x ^ 2))]
  · rw [key]
    have : ((1 + x ^ 2) / 2) ^ 2 + x ^ 2 ≤ 2 := by nlinarith [sq_nonneg x]
    nlinarith [mul_le_mul_of_nonneg_left this hA0]

/-- Both polarisations are inversely proportional to the distance. -/
theorem C60_distance (k : ℝ) (_hk : 0 < k) :
    ∃ hp hc, gen_IMRPhenomPv2 Q grid (pars m1 m2 s1 s2 D tc phiRef incl) f_ref = .ok (hp, hc) ∧
      gen_IMRPhenomPv2 Q grid (pars m1 m2 s1 s2 (k * D) tc phiRef incl) f_ref =
        .ok (hp.map (fun z => z / k), hc.map (fun z => z / k)) := by
  refine ⟨_, _, genP_eq Q grid m1 m2 s1 s2 D tc phiRef incl f_ref, ?_⟩
  rw [genP_eq]
  have hamp : ∀ th co tf thr x, ampAt th co tf (k * D) thr x = 1 / k * ampAt th co tf D thr x := by
    intro th co tf thr x
    unfold ampAt
    rw [show k * D * m_per_Mpc / C = k * (D * m_per_Mpc / C) by ring, div_mul_eq_div_div_swap]
    ring
  have hh : ∀ chip pa thr f, hDs Q m1 m2 s1 s2 chip pa (k * D) thr f =
      ((1 / k : ℝ) : ℂ) * hDs Q m1 m2 s1 s2 chip pa D thr f := by
    intro chip pa thr f
    unfold hDs
    rw [hamp]
    push_cast
    ring
  have ht : ∀ c thr f, twP Q m1 m2 s1 s2 (k * D) tc f_ref c thr f =
      (((1 / k : ℝ) : ℂ) * (twP Q m1 m2 s1 s2 D tc f_ref c thr f).1,
        ((1 / k : ℝ) : ℂ) * (twP Q m1 m2 s1 s2 D tc f_ref c thr f).2) := by
    intro c thr f
    simp only [twP]
    rw [hh, twist_smul]
    simp only [Prod.mk.injEq]
    constructor <;> ring
  congr 2
  all_goals
    rw [List.map_map]
    refine List.map_congr_left fun f _ => ?_
    rw [ht]
    simp only [rotP, Function.comp]
    push_cast
    ring

/-! ### C61: wrapper -/

/-- The chirp-mass wrapper is the component-mass generator at the masses of `Mc_eta_to_ms`, whatever follows the
    twelfth parameter. -/
theorem C61_masses (Mc eta : ℝ) (rest : List ℝ) :
    gen_IMRPhenomPv2_hphc Q grid
      (Mc :: eta :: s1.1 :: s1.2.1 :: s1.2.2 :: s2.1 :: s2.2.1 :: s2.2.2 :: D :: tc :: phiRef :: incl :: rest) f_ref =
    gen_IMRPhenomPv2 Q grid
      [(Mc_eta_to_ms Mc eta).1, (Mc_eta_to_ms Mc eta).2, s1.1, s1.2.1, s1.2.2, s2.1, s2.2.1, s2.2.2, D, tc, phiRef, incl]
      f_ref := by
  have ix : ∀ (l : List ℝ) (i : ℕ) (hi : i < l.length), Jnp.index l (i : ℤ) = l[i] := fun l i hi => by
    rw [Jnp.index_nat hi, List.getD_eq_getElem _ _ hi]
  unfold gen_IMRPhenomPv2_hphc
  generalize hl : (Mc :: eta :: s1.1 :: s1.2.1 :: s1.2.2 :: s2.1 :: s2.2.1 :: s2.2.2 :: D :: tc :: phiRef :: incl :: rest) = l
  have hlen : 12 ≤ l.length := by rw [← hl]; simp
  have j := fun i hi => ix l i hi
  have j0 := j 0 (by omega); have j1 := j 1 (by omega); have j2 := j 2 (by omega); have j3 := j 3 (by omega)
  have j4 := j 4 (by omega); have j5 := j 5 (by omega); have j6 := j 6 (by omega); have j7 := j 7 (by omega)
  have j8 := j 8 (by omega); have j9 := j 9 (by omega); have j10 := j 10 (by omega); have j11 := j 11 (by omega)
  subst hl
  norm_num at j0 j1 j2 j3 j4 j5 j6 j7 j8 j9 j10 j11
  simp only [j0, j1, j2, j3, j4, j5, j6, j7, j8, j9, j10, j11]

/-- Leaving the inclination out does not raise: the reference phase is silently used as the inclination. -/
theorem C61_short (Mc eta : ℝ) :
    gen_IMRPhenomPv2_hphc Q grid
      [Mc, eta, s1.1, s1.2.1, s1.2.2, s2.1, s2.2.1, s2.2.2, D, tc, phiRef] f_ref =
    gen_IMRPhenomPv2_hphc Q grid
      [Mc, eta, s1.1, s1.2.1, s1.2.2, s2.1, s2.2.1, s2.2.2, D, tc, phiRef, phiRef] f_ref := by
  unfold gen_IMRPhenomPv2_hphc
  rfl

/-- The component-mass generator itself insists on exactly twelve parameters. -/
theorem C61_count (theta : List ℝ) (hn : theta.length ≠ 12) :
    gen_IMRPhenomPv2 Q grid theta f_ref = .error .valueError := by
  unfold gen_IMRPhenomPv2
  split
  · exact absurd rfl hn
  · rfl

/-! ### C82: inclination at the reference frequency -/

/-- If only the heavier body has in-plane spin, the instantaneous inclination at the reference frequency is the
    inclination the caller asked for. -/
theorem C82_reference (h2 : 0 < m2) (h : m2 ≤ m1) (hf : 0 < f_ref) (hx : s2.1 = 0) (hy : s2.2.1 = 0)
    (hL : 0 < LplusS m1 m2 s1 s2 f_ref) :
    cosInst m1 m2 s1 s2 (frameP m1 m2 s1 s2 f_ref phiRef incl) f_ref f_ref = Real.cos incl := by
  have h1 : 0 < m1 := lt_of_lt_of_le h2 h
  have hchip : (conv m2 m1 f_ref phiRef incl s2 s1).chip = Real.sqrt (s1.1 ^ 2 + s1.2.1 ^ 2) := by
    rw [C57_value f_ref phiRef incl s2 s1 h2 h1, hx, hy]
    simp [Real.sqrt_nonneg]
  set p := Real.sqrt (s1.1 ^ 2 + s1.2.1 ^ 2) with hp
  have hp0 : 0 ≤ p := Real.sqrt_nonneg _
  have hp2 : p ^ 2 = s1.1 ^ 2 + s1.2.1 ^ 2 := Real.sq_sqrt (by positivity)
  set J := totalJ gt m2 m1 f_ref s2 s1 with hJd
  have hJx : J.1 = m1 ^ 2 * s1.1 := by simp [hJd, totalJ, hx]
  have hJy : J.2.1 = m1 ^ 2 * s1.2.1 := by simp [hJd, totalJ, hy]
  have hJz : J.2.2 = (m1 + m2) ^ 2 * LplusS m1 m2 s1 s2 f_ref := by
    simp only [hJd, totalJ, LplusS, orbitalL, vOf]
    rw [add_comm m2 m1, mul_comm m2 m1]
    field_simp
    ring
  have hJz0 : 0 < J.2.2 := by rw [hJz]; positivity
  have hJ0 : J ≠ 0 := fun hc => by rw [hc] at hJz0; exact lt_irrefl _ hJz0
  have hJp : Real.sqrt (J.1 ^ 2 + J.2.1 ^ 2) = m1 ^ 2 * p := by
    rw [hJx, hJy, show (m1 ^ 2 * s1.1) ^ 2 + (m1 ^ 2 * s1.2.1) ^ 2 = (m1 ^ 2 * p) ^ 2 by rw [mul_pow, mul_pow, mul_pow, hp2]; ring]
    exact Real.sqrt_sq (by positivity)
  have htri := C58_triangle f_ref phiRef incl s2 s1 h2 h1 hf hJ0
  simp only [] at htri
  rw [← hJd, hJp] at htri
  have hlen := len_pos hJ0
  have hl2 := len_sq J
  have ht : |p * (m1 / (m1 + m2)) ^ 2 / LplusS m1 m2 s1 s2 f_ref| = m1 ^ 2 * p / J.2.2 := by
    rw [abs_of_nonneg (by positivity), hJz]
    field_simp
  have hsq : Real.sqrt (1 + (m1 ^ 2 * p / J.2.2) ^ 2) = len J / J.2.2 := by
    rw [← Real.sqrt_sq (by positivity : 0 ≤ len J / J.2.2)]
    congr 1
    rw [div_pow, div_pow, hl2, ← hJp, Real.sq_sqrt (by positivity)]
    field_simp
    ring
  have haz : azimuth m1 m2 s1 s2 (conv m2 m1 f_ref phiRef incl s2 s1) f_ref f_ref =
      (conv m2 m1 f_ref phiRef incl s2 s1).alpha0 := by unfold azimuth; ring
  unfold cosInst coneAngle
  rw [haz, htri, hchip, ht, Real.cos_arctan, Real.sin_arctan, hsq]
  field_simp

/-- Consequently the waveform sample at the reference frequency has the moduli of a non-precessing binary at the
    inclination asked for. -/
theorem C82_reference_waveform (h2 : 0 < m2) (h : m2 ≤ m1) (hf : 0 < f_ref) (hx : s2.1 = 0) (hy : s2.2.1 = 0)
    (hL : 0 < LplusS m1 m2 s1 s2 f_ref) :
    ∃ hp hc, gen_IMRPhenomPv2 Q grid (pars m1 m2 s1 s2 D tc phiRef incl) f_ref = .ok (hp, hc) ∧
      ∀ j, j < grid.length → grid.getD j 0 = f_ref →
        let A := (ampP Q grid m1 m2 s1 s2 (frameP m1 m2 s1 s2 f_ref phiRef incl).chip D).getD j 0
        ‖hp.getD j 0 - Complex.I * hc.getD j 0‖ = |A| * (1 - Real.cos incl) ^ 2 / 2 ∧
        ‖hp.getD j 0 + Complex.I * hc.getD j 0‖ = |A| * (1 + Real.cos incl) ^ 2 / 2 := by
  obtain ⟨hp, hc, he, -, -, hall⟩ := C81_circular Q grid s1 s2 D tc phiRef incl f_ref h2 h
  refine ⟨hp, hc, he, fun j hj hfj => ?_⟩
  obtain ⟨-, n1, n2⟩ := hall j hj (hfj ▸ hf) (hfj ▸ hL.ne')
  rw [hfj, C82_reference s1 s2 phiRef incl f_ref h2 h hf hx hy hL] at n1 n2
  exact ⟨n1, n2⟩

end

/-- the hypotheses are met: a 30+20 binary whose heavier body has a tilted spin, at 50 Hz -/
example : (0 : ℝ) < 20 ∧ (20 : ℝ) ≤ 30 ∧ 0 < LplusS 30 20 (0.4, 0.1, 0.2) (0, 0, -0.3) 50 := by
  refine ⟨by norm_num, by norm_num, ?_⟩
  have hv : 0 < vOf 30 20 50 := by
    have := gt_pos; have := Real.pi_pos; unfold vOf; positivity
  unfold LplusS orbitalL
  have : (0 : ℝ) < 1 ^ 2 * (30 * 20 / (30 + 20) ^ 2) / vOf 30 20 50 *
      (1 + (3 / 2 + 30 * 20 / (30 + 20) ^ 2 / 6) * vOf 30 20 50 ^ 2
        + (27 / 8 - 19 * (30 * 20 / (30 + 20) ^ 2) / 8 - (30 * 20 / (30 + 20) ^ 2) ^ 2 / 24) * vOf 30 20 50 ^ 4) := by
    apply mul_pos (by positivity)
    have a1 : (0 : ℝ) ≤ (3 / 2 + 30 * 20 / (30 + 20) ^ 2 / 6) * vOf 30 20 50 ^ 2 := by positivity
    have a2 : (0 : ℝ) ≤ (27 / 8 - 19 * (30 * 20 / (30 + 20) ^ 2) / 8 - (30 * 20 / (30 + 20) ^ 2) ^ 2 / 24) * vOf 30 20 50 ^ 4 :=
      mul_nonneg (by norm_num) (by positivity)
    linarith
  have h2 : (0 : ℝ) < (30 ^ 2 * 0.2 + 20 ^ 2 * -0.3) / (30 + 20) ^ 2 := by norm_num
  simp only [] at this h2 ⊢
  linarith

end Ripple
