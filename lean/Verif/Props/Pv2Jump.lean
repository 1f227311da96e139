/-
  Property C117: where the aligned part of the remnant spin changes sign, the precessing model jumps: the in-plane spin enters
  the remnant spin with the sign of the aligned part.
-/
import Verif.Proofs.Pv2Jump

namespace Ripple
open scoped ContDiff Topology
open Set Filter PhenomD Pv2 V3

/-- With in-plane spin, the ringdown frequency of every binary of unequal masses jumps upwards where its aligned-spin remnant
    stops rotating backwards: it has a limit from the side of the backward rotating remnants, and that limit is smaller than the
    value.  So it is not continuous in the aligned spin of the heavier body. -/
theorem C117_ringdown {eps : ℝ} (he : 0 ≤ eps) (he' : eps < 4e-6) {m1 m2 chi2 chip c : ℝ} (h2 : 0 < m2) (h : m2 < m1)
    (hchi2 : |chi2| ≤ 1) (hp : 0 < chip) (hp' : chip ≤ 1) (c0 : -1 < c) (c1 : c ≤ 1)
    (h0 : remnantSpinOf ⟨m1, m2, c, chi2⟩ = 0) :
    let f := fun x => (phP_get_fRD_fdamp (qnmTable eps) m1 m2 x chi2 chip).1
    (∃ L, Tendsto f (𝓝[<] c) (𝓝 L) ∧ L < f c) ∧ ¬ ContinuousAt f c := by
  intro f
  have h1 : 0 < m1 := h2.trans h
  have hg := gt_pos
  have q1 : m1 / (m1 + m2) < 1 := by rw [div_lt_one (by positivity)]; linarith
  have q0 : 0 < m1 / (m1 + m2) := by positivity
  have S0 : 0 < chip * (m1 / (m1 + m2)) ^ 2 := by positivity
  have S1 : chip * (m1 / (m1 + m2)) ^ 2 ≤ 1 := mul_le_one₀ hp' (by positivity) (pow_le_one₀ q0.le q1.le)
  have hE := (Jump.energy h2 h hchi2 c0.le c1).2
  have t := Jump.read_left (C93_shipped he he') (qnmTable eps).fRD h2 h hchi2 c0 c1 hp.le h0
  have hlt : Jump.read (qnmTable eps) (qnmTable eps).fRD m1 m2 chi2 (-(chip * (m1 / (m1 + m2)) ^ 2)) c < f c := by
    show _ < (phP_get_fRD_fdamp (qnmTable eps) m1 m2 c chi2 chip).1
    rw [Jump.fRD_eq, Jump.spin_at h2 h.le hp.le h0]
    have := C93_increasing he he' (show -(chip * (m1 / (m1 + m2)) ^ 2) ∈ Icc (-1 : ℝ) 1 from ⟨by linarith, by linarith⟩)
      (show chip * (m1 / (m1 + m2)) ^ 2 ∈ Icc (-1 : ℝ) 1 from ⟨by linarith, by linarith⟩) (by linarith)
    unfold Jump.read
    rw [table_eps]
    exact div_lt_div_of_pos_right (div_lt_div_of_pos_right this hE) (by positivity)
  refine ⟨⟨_, t, hlt⟩, fun hc => hlt.ne (tendsto_nhds_unique t ?_)⟩
  exact hc.tendsto.mono_left nhdsWithin_le_nhds

lemma remnant_four (m x : ℝ) (hm : 0 < m) : remnantSpinOf ⟨4 * m, m, x, 0⟩ = FinalSpin0815_s (4 / 25) (16 / 25 * x) := by
  unfold remnantSpinOf
  dsimp only
  rw [show 4 * m * m / (4 * m + m) ^ 2 = 4 / 25 by field_simp; norm_num,
    show (x * (4 * m) ^ 2 + 0 * m ^ 2) / (4 * m + m) ^ 2 = 16 / 25 * x by field_simp; ring]

lemma zero_four : ∃ c : ℝ, -0.9 < c ∧ c < -0.7 ∧ FinalSpin0815_s (4 / 25) (16 / 25 * c) = 0 := by
  have hc : Continuous fun x : ℝ => FinalSpin0815_s (4 / 25) (16 / 25 * x) := by
    unfold FinalSpin0815_s
    fun_prop
  have l : FinalSpin0815_s (4 / 25) (16 / 25 * (-0.9)) < 0 := by
    unfold FinalSpin0815_s
    norm_num
  have r : 0 < FinalSpin0815_s (4 / 25) (16 / 25 * (-0.7)) := by
    unfold FinalSpin0815_s
    norm_num
  obtain ⟨c, hc, e⟩ := intermediate_value_Ioo (show (-0.9 : ℝ) ≤ -0.7 by norm_num) hc.continuousOn ⟨l, r⟩
  exact ⟨c, hc.1, hc.2, e⟩

lemma lookup_four {eps : ℝ} (he : 0 ≤ eps) (he' : eps < 4e-6) :
    |Jnp.interp eps (-0.256) (qnmTable eps).a (qnmTable eps).fRD - 0.0549876| ≤ 5e-5 ∧
    |Jnp.interp eps (-0.256) (qnmTable eps).a (qnmTable eps).fdamp - 0.0141952| ≤ 5e-5 ∧
    |Jnp.interp eps 0.256 (qnmTable eps).a (qnmTable eps).fRD - 0.0655024| ≤ 5e-5 ∧
    |Jnp.interp eps 0.256 (qnmTable eps).a (qnmTable eps).fdamp - 0.0140076| ≤ 5e-5 := by
  obtain ⟨a1, a2⟩ := C93_published he he' 373 (by norm_num)
  obtain ⟨b1, b2⟩ := C93_published he he' 629 (by norm_num)
  rw [QNMData.knots_getD _ (by norm_num), QNMData.valRD_getD] at a1 b1
  rw [QNMData.knots_getD _ (by norm_num), QNMData.valdamp_getD] at a2 b2
  have k1 : QNMData.X 373 = -256 := by decide +kernel
  have k2 : QNMData.X 629 = 256 := by decide +kernel
  have v1 : |(QNMData.fRD.getD 373 0 : ℤ) - 5498760| ≤ 900 := by decide +kernel
  have v2 : |(QNMData.fdamp.getD 373 0 : ℤ) - 1419520| ≤ 900 := by decide +kernel
  have v3 : |(QNMData.fRD.getD 629 0 : ℤ) - 6550240| ≤ 900 := by decide +kernel
  have v4 : |(QNMData.fdamp.getD 629 0 : ℤ) - 1400760| ≤ 900 := by decide +kernel
  rw [k1] at a1 a2
  rw [k2] at b1 b2
  rw [show (((-256 : ℤ) : ℝ) / 1000) = -0.256 by norm_num] at a1 a2
  rw [show (((256 : ℤ) : ℝ) / 1000) = 0.256 by norm_num] at b1 b2
  have cast : ∀ {n k : ℤ}, |n - k| ≤ 900 → |(n : ℝ) / 100000000 - k / 100000000| ≤ 9e-6 := fun {n k} hk => by
    have : |(n : ℝ) - k| ≤ 900 := by exact_mod_cast hk
    rw [← sub_div, abs_div, abs_of_pos (show (0 : ℝ) < 100000000 by norm_num)]
    rw [div_le_iff₀ (by norm_num)]
    linarith
  have w1 := cast v1
  have w2 := cast v2
  have w3 := cast v3
  have w4 := cast v4
  simp only [abs_le] at a1 a2 b1 b2 w1 w2 w3 w4 ⊢
  push_cast at w1 w2 w3 w4
  norm_num at a1 a2 b1 b2 w1 w2 w3 w4 ⊢
  refine ⟨⟨?_, ?_⟩, ⟨?_, ?_⟩, ⟨?_, ?_⟩, ?_, ?_⟩ <;> linarith

/-- Binaries of mass ratio 4 whose heavier body has in-plane spin 0.4, seen along the orbital angular momentum.  There is a
    value `c` of its aligned spin, between -0.9 and -0.7, at which no two continuous functions of the aligned spin agree with the
    polarisations the generator returns: at every sample from 0.09/M up to the cutoff where orbital angular momentum and aligned
    spin do not cancel, for every total mass, distance, time, phase and reference frequency. -/
theorem C117_waveform {eps : ℝ} (he : 0 ≤ eps) (he' : eps < 4e-6) :
    ∃ c : ℝ, -0.9 < c ∧ c < -0.7 ∧ ∀ m D tc phiRef f_ref : ℝ, 0 < m → 0 < D → 0 < f_ref → ∀ grid : List ℝ, Increasing grid →
      ∀ j, j < grid.length → 0.09 / ((4 * m + m) * gt) ≤ grid.getD j 0 →
        (grid.getD (grid.length - 1) 0 < 0.2 / ((4 * m + m) * gt) ∨
          (j + 2 < grid.length ∧ grid.getD (j + 2) 0 < 0.2 / ((4 * m + m) * gt))) →
        LplusS (4 * m) m (0.4, 0, c) (0, 0, 0) (grid.getD j 0) ≠ 0 →
      ¬ ∃ P X : ℝ → ℂ, ContinuousAt P c ∧ ContinuousAt X c ∧
        ∀ x, ∃ hp hc, gen_IMRPhenomPv2 (qnmTable eps) grid [4 * m, m, 0.4, 0, x, 0, 0, 0, D, tc, phiRef, 0] f_ref = .ok (hp, hc) ∧
          hp.getD j 0 = P x ∧ hc.getD j 0 = X x := by
  obtain ⟨c, cl, cu, hc⟩ := zero_four
  refine ⟨c, cl, cu, fun m D tc phiRef f_ref hm hD hr grid hinc j hj hlo hk hL ⟨P, X, hP, hX, e⟩ => ?_⟩
  have hg := gt_pos
  have hM : 0 < (4 * m + m) * gt := by positivity
  have h0 : remnantSpinOf ⟨4 * m, m, c, 0⟩ = 0 := by rw [remnant_four m c hm, hc]
  have ht := below_cutThr hinc hj hk
  have hup : grid.getD j 0 < 0.2 / ((4 * m + m) * gt) := by
    have mono : ∀ k, j ≤ k → k < grid.length → grid.getD j 0 ≤ grid.getD k 0 := fun k h h' => by
      rcases h.lt_or_eq with h | h
      · exact (hinc j k h h').le
      · rw [h]
    rcases hk with hk | ⟨h', hk⟩
    · exact (mono _ (by omega) (by omega)).trans_lt hk
    · exact (mono _ (by omega) h').trans_lt hk
  rw [lt_div_iff₀ hM] at hup
  rw [div_le_iff₀ hM] at hlo
  have hf : 0 < grid.getD j 0 := by
    by_contra hn
    push Not at hn
    have := mul_nonpos_of_nonpos_of_nonneg hn hM.le
    have : (0 : ℝ) < 0.09 := by norm_num
    linarith
  have hps : precessionSpin (4 * m) m (0.4, 0, c) (0, 0, 0) = 0.4 := by
    have r : √((0.4 : ℝ) ^ 2 + 0 ^ 2) = 0.4 := by
      rw [zero_pow two_ne_zero, add_zero, Real.sqrt_sq (by norm_num)]
    unfold precessionSpin
    dsimp only
    rw [r, zero_pow two_ne_zero, add_zero, Real.sqrt_zero, mul_zero, max_eq_right (by norm_num)]
  have hS : (0.256 : ℝ) = precessionSpin (4 * m) m (0.4, 0, c) (0, 0, 0) * (4 * m / (4 * m + m)) ^ 2 := by
    rw [hps, show 4 * m / (4 * m + m) = 4 / 5 by field_simp; norm_num]
    norm_num
  have J1 : (totalJ gt m (4 * m) f_ref (0, 0, 0) (0.4, 0, c)).1 ≠ 0 := by
    unfold totalJ
    dsimp only
    have : 0 < (4 * m) ^ 2 * 0.4 := by positivity
    linarith
  obtain ⟨l1, l2, l3, l4⟩ := lookup_four he he'
  have E := Jump.energy (m1 := 4 * m) (m2 := m) (chi2 := 0) (c := c) hm (by linarith) (by norm_num) (by norm_num at cl; linarith)
    (by norm_num at cu; linarith)
  have hph : (⟨4 * m, m, c, 0⟩ : Theta).Physical :=
    ⟨by positivity, hm, abs_le.2 ⟨by norm_num at cl; linarith, by norm_num at cu; linarith⟩, by norm_num⟩
  have er := eta_s_range hph.m1_pos hph.m2_pos
  have Eu := Erad_lt _ _ _ er.1 er.2 hph.chi1_le hph.chi2_le
  have El := (C26_radiated_energy _ _ _ er.1 er.2 hph.chi1_le hph.chi2_le).1
  dsimp only at Eu El
  obtain ⟨w, ew⟩ : ∃ w, w = 1 / (1 - EradRational0815 (4 * m * gt * (m * gt) / (4 * m * gt + m * gt) ^ 2) c 0) := ⟨_, rfl⟩
  have w1 : 1 < w := by rw [ew, lt_div_iff₀ E.2]; linarith
  have w2 : w < 1.25 := by rw [ew, div_lt_iff₀ E.2]; norm_num; linarith
  have hread : ∀ tab a, Jump.read (qnmTable eps) tab (4 * m) m 0 a c * ((4 * m + m) * gt) =
      Jnp.interp eps a (qnmTable eps).a tab * w := fun tab a => by
    unfold Jump.read
    rw [table_eps, ew, ← add_mul]
    have := E.2.ne'
    field_simp
  have r1 := hread (qnmTable eps).fRD (-0.256)
  have r2 := hread (qnmTable eps).fRD 0.256
  have r3 := hread (qnmTable eps).fdamp (-0.256)
  have r4 := hread (qnmTable eps).fdamp 0.256
  obtain ⟨RL, eRL⟩ : ∃ r, r = Jump.read (qnmTable eps) (qnmTable eps).fRD (4 * m) m 0 (-0.256) c := ⟨_, rfl⟩
  obtain ⟨RR, eRR⟩ : ∃ r, r = Jump.read (qnmTable eps) (qnmTable eps).fRD (4 * m) m 0 0.256 c := ⟨_, rfl⟩
  obtain ⟨DL, eDL⟩ : ∃ r, r = Jump.read (qnmTable eps) (qnmTable eps).fdamp (4 * m) m 0 (-0.256) c := ⟨_, rfl⟩
  obtain ⟨DR, eDR⟩ : ∃ r, r = Jump.read (qnmTable eps) (qnmTable eps).fdamp (4 * m) m 0 0.256 c := ⟨_, rfl⟩
  rw [← eRL] at r1
  rw [← eRR] at r2
  rw [← eDL] at r3
  rw [← eDR] at r4
  obtain ⟨M, eM⟩ : ∃ M, M = (4 * m + m) * gt := ⟨_, rfl⟩
  obtain ⟨f, ef⟩ : ∃ f, f = grid.getD j 0 := ⟨_, rfl⟩
  have key : RL < f ∧ RR < f ∧ 0 < DR ∧ DR < DL ∧ (f - RR) * DL < (f - RL) * DR := by
    rw [← eM] at hM hup hlo r1 r2 r3 r4
    rw [← ef] at hup hlo
    generalize Jnp.interp eps (-0.256) (qnmTable eps).a (qnmTable eps).fRD = a1 at l1 r1
    generalize Jnp.interp eps 0.256 (qnmTable eps).a (qnmTable eps).fRD = a2 at l3 r2
    generalize Jnp.interp eps (-0.256) (qnmTable eps).a (qnmTable eps).fdamp = a3 at l2 r3
    generalize Jnp.interp eps 0.256 (qnmTable eps).a (qnmTable eps).fdamp = a4 at l4 r4
    rw [abs_le] at l1 l2 l3 l4
    norm_num at l1 l2 l3 l4 hup hlo w2
    refine ⟨?_, ?_, ?_, ?_, ?_⟩
    · refine lt_of_mul_lt_mul_right ?_ hM.le
      rw [r1]
      nlinarith only [l1, w1, w2, hlo]
    · refine lt_of_mul_lt_mul_right ?_ hM.le
      rw [r2]
      nlinarith only [l3, w1, w2, hlo]
    · refine lt_of_mul_lt_mul_right ?_ hM.le
      rw [zero_mul, r4]
      nlinarith only [l4, w1, w2]
    · refine lt_of_mul_lt_mul_right ?_ hM.le
      rw [r3, r4]
      exact mul_lt_mul_of_pos_right (by linarith only [l2, l4]) (by linarith only [w1])
    · refine lt_of_mul_lt_mul_right ?_ (mul_pos hM hM).le
      rw [show (f - RR) * DL * (M * M) = (f * M - RR * M) * (DL * M) by ring,
        show (f - RL) * DR * (M * M) = (f * M - RL * M) * (DR * M) by ring, r1, r2, r3, r4]
      have d : f * M * (a3 - a4) < 0.00008 := by
        have : f * M * (a3 - a4) ≤ 1 / 5 * (a3 - a4) := mul_le_mul_of_nonneg_right hup.le (by linarith only [l2, l4])
        norm_num
        linarith only [this, l2, l4]
      have u : 0.0001 < a2 * a3 - a1 * a4 := by
        have p1 : 0.0654 * 0.0141 ≤ a2 * a3 :=
          mul_le_mul (by norm_num; linarith only [l3]) (by norm_num; linarith only [l2]) (by norm_num) (by linarith only [l3])
        have p2 : a1 * a4 ≤ 0.0551 * 0.01406 :=
          mul_le_mul (by norm_num; linarith only [l1]) (by norm_num; linarith only [l4]) (by linarith only [l4]) (by norm_num)
        norm_num at p1 p2 ⊢
        linarith only [p1, p2]
      have uw : a2 * a3 - a1 * a4 < w * (a2 * a3 - a1 * a4) := by
        norm_num at u
        nlinarith only [u, w1]
      have := mul_pos (show 0 < w by linarith only [w1]) (show 0 < w * (a2 * a3 - a1 * a4) - f * M * (a3 - a4) by
        norm_num at u d
        linarith only [u, uw, d])
      nlinarith only [this]
  obtain ⟨k1, k2, k3, k4, k5⟩ := key
  rw [ef] at k1 k2 k5
  refine Jump.no_extension (C93_shipped he he') (m1 := 4 * m) (m2 := m) (c := c) (s2 := (0, 0, 0)) (p := 0.4) (q := 0) hm
    (by linarith) ?_ ?_ hD hr ?_ (Or.inl J1) ?_ h0 hj hf hL ht hS eRL eRR eDL eDR k1 k2 k3 k4 k5 P X hP hX e
  · unfold len V3.dot
    dsimp only
    rw [Real.sqrt_lt' one_pos]
    norm_num at cl cu ⊢
    nlinarith only [cl, cu]
  · unfold len V3.dot
    norm_num
  · dsimp only
    rw [zero_pow two_ne_zero, add_zero, Real.sqrt_zero, mul_zero]
    refine ne_of_lt (Real.sqrt_pos.2 ?_)
    norm_num
  · intro hx
    have := congrArg (fun v : V3 => v.2.1) hx
    unfold V3.cross dir at this
    simp only [Real.sin_zero, Real.cos_zero, zero_mul, mul_zero, mul_one] at this
    apply J1
    simpa using this

/-- witness for the frequencies: at 0.512/(π M), between 0.09/M and 0.2/M, orbital angular momentum and aligned spin do not
    cancel, for any aligned spin between -0.9 and -0.7 -/
example (m c : ℝ) (hm : 0 < m) (cl : -0.9 < c) (_cu : c < -0.7) :
    let f := 0.512 / (Real.pi * ((4 * m + m) * gt))
    0.09 / ((4 * m + m) * gt) ≤ f ∧ f < 0.2 / ((4 * m + m) * gt) ∧ LplusS (4 * m) m (0.4, 0, c) (0, 0, 0) f ≠ 0 := by
  intro f
  have hg := gt_pos
  have hM : 0 < (4 * m + m) * gt := by positivity
  have p1 := Real.pi_gt_d2
  have p2 := Real.pi_lt_d2
  have hp : 0 < Real.pi := Real.pi_pos
  have ef : f = 0.512 / Real.pi / ((4 * m + m) * gt) := by rw [div_div]
  refine ⟨?_, ?_, ?_⟩
  · rw [ef]
    refine div_le_div_of_nonneg_right ?_ hM.le
    rw [le_div_iff₀ hp]
    norm_num at *
    linarith
  · rw [ef]
    refine div_lt_div_of_pos_right ?_ hM
    rw [div_lt_iff₀ hp]
    norm_num at *
    linarith
  · have hv : vOf (4 * m) m f = 0.8 := by
      unfold vOf
      rw [show Real.pi * ((4 * m + m) * gt) * f = 0.8 ^ (3 : ℝ) by
        rw [ef]
        field_simp
        norm_num]
      rw [← Real.rpow_mul (by norm_num)]
      norm_num
    unfold LplusS orbitalL
    rw [hv, show 4 * m * m / (4 * m + m) ^ 2 = 4 / 25 by field_simp; norm_num]
    dsimp only
    rw [show ((4 * m) ^ 2 * c + m ^ 2 * 0) / (4 * m + m) ^ 2 = 16 / 25 * c by field_simp; ring]
    refine ne_of_gt ?_
    norm_num at cl ⊢
    linarith

/-- witness for the ringdown frequency: a binary of mass ratio 4 -/
example : ∃ c : ℝ, -1 < c ∧ c ≤ 1 ∧ remnantSpinOf ⟨40, 10, c, 0⟩ = 0 := by
  obtain ⟨c, cl, cu, hc⟩ := zero_four
  refine ⟨c, by norm_num at cl; linarith, by norm_num at cu; linarith, ?_⟩
  rw [show (40 : ℝ) = 4 * 10 by norm_num, remnant_four 10 c (by norm_num), hc]

end Ripple
