/-
  C109: the mass conversions in floating-point arithmetic.
-/
import Verif.Proofs.RoundedEval
import Verif.Proofs.RoundedTides

namespace Ripple
open Fp

noncomputable section

variable {F : Fp.Fmt}

lemma inRange32 (b : Bool) {m1 m2 : ℝ} (h2 : 2 ^ (-40 : ℤ) ≤ m2) (h21 : m2 ≤ m1) (h1 : m1 ≤ 2 ^ (40 : ℤ)) :
    InRange (binary32 b) m1 m2 := by
  have e1 : (binary32 b).minNormal = 2 ^ (-126 : ℤ) := by simp [Fmt.minNormal, binary32]
  have e2 : (binary32 b).u = 2 ^ (-24 : ℤ) := by simp [Fmt.u, binary32]
  have e3 : (2 : ℝ) ^ (binary32 b).emax = 2 ^ (128 : ℤ) := rfl
  norm_num at h1 h2
  have hp : 0 < m2 := by linarith
  have hs : (m1 + m2) ^ 2 ≤ 4 * (m1 * m1) := by nlinarith
  constructor
  · exact hp
  · exact h21
  · rw [e1]; norm_num; linarith
  · rw [e1]; norm_num; nlinarith
  · rw [e1]; norm_num
    have : m1 * m1 ≤ m1 * (1208925819614629174706176 * m2) := mul_le_mul_of_nonneg_left (by linarith) (by linarith)
    linarith [mul_pos (hp.trans_le h21) hp]
  · rw [e1, e2]; norm_num; nlinarith
  · rw [e3]; norm_num
    have : m1 * m1 ≤ 1099511627776 * 1099511627776 := mul_le_mul h1 h1 (by linarith) (by norm_num)
    linarith

lemma inRange64 (b : Bool) {m1 m2 : ℝ} (h2 : 2 ^ (-40 : ℤ) ≤ m2) (h21 : m2 ≤ m1) (h1 : m1 ≤ 2 ^ (40 : ℤ)) :
    InRange (binary64 b) m1 m2 := by
  have e1 : (binary64 b).minNormal ≤ 2 ^ (-126 : ℤ) := by
    rw [Fmt.minNormal]; exact zpow_le (by simp [binary64])
  have e2 : (binary64 b).minNormal = 2 ^ (-900 : ℤ) * 2 ^ (-122 : ℤ) := by
    rw [Fmt.minNormal, ← zpow_add₀ two_ne_zero]; simp [binary64]
  have e0 : (binary64 b).minNormal ≤ (binary64 b).u * 2 ^ (-126 : ℤ) := by
    rw [Fmt.minNormal, Fmt.u, ← zpow_add₀ two_ne_zero]; exact zpow_le (by simp [binary64])
  have e3 : (2 : ℝ) ^ (128 : ℤ) ≤ 2 ^ (binary64 b).emax := zpow_le (by simp [binary64])
  have hu := u_pos (F := binary64 b)
  have h := inRange32 b h2 h21 h1
  have q1 : (binary32 b).minNormal = 2 ^ (-126 : ℤ) := by simp [Fmt.minNormal, binary32]
  have hp := h.pos
  constructor
  · exact hp
  · exact h21
  · have := h.low; rw [q1] at this; linarith
  · have := h.prod; rw [q1] at this; linarith
  · have := h.ratio; rw [q1] at this
    refine le_trans ?_ this
    exact mul_le_mul_of_nonneg_right (by linarith) (sq_nonneg _)
  · refine (mul_le_mul_of_nonneg_left e0 (by norm_num : (0 : ℝ) ≤ 256)).trans ?_
    rw [mul_left_comm]
    refine mul_le_mul_of_nonneg_left ?_ hu.le
    norm_num at h2 ⊢
    nlinarith
  · exact h.high.trans_le e3

/-- C109: in any binary floating-point format, with a `pow` of relative error `eps`, and for the chirp mass and mass ratio of
    two masses in the range of the format, the conversion returns two finite numbers in the right order and not negative.
    Their error is a few `sqrt u` of the total mass however close the masses are (`u` is the unit roundoff), and the error of
    the subtraction goes down to a few `u` as the difference of the masses grows to the total mass. -/
theorem C109_masses (hF : F.WF) (lib : PowLib F) {Mc eta x1 x2 : ℝ} (hb : Binary Mc eta x1 x2) (he : F.IsFloat eta)
    (hr : InRange F x1 x2) :
    ∃ m1 m2 : ℝ, Fp.Mc_eta_to_ms F lib (.fin Mc) (.fin eta) = (.fin m1, .fin m2) ∧ 0 ≤ m2 ∧ m2 ≤ m1
      ∧ |m1 - x1| ≤ (2 * lib.eps + 6 * Real.sqrt F.u) * (x1 + x2)
      ∧ |m2 - x2| ≤ (2 * lib.eps + 6 * Real.sqrt F.u) * (x1 + x2)
      ∧ (x1 - x2) * |m1 - x1| ≤ (2 * lib.eps * (x1 - x2) + 13 * F.u * (x1 + x2)) * (x1 + x2)
      ∧ (x1 - x2) * |m2 - x2| ≤ (2 * lib.eps * (x1 - x2) + 13 * F.u * (x1 + x2)) * (x1 + x2) := by
  have h2 := hr.pos
  have h1 : 0 < x1 := h2.trans_le hr.le
  have hn := minNormal_pos (F := F)
  have hs : 0 < (x1 + x2) ^ 2 := by positivity
  refine masses hF lib hb he.1 ?_ ⟨by linarith, by have := hr.sq; linarith, by have := hr.high; linarith⟩
  rw [← hb.ratio, le_div_iff₀ hs]
  have := hr.ratio
  have := mul_nonneg hn.le hs.le
  linarith

/-- C109: a mass ratio above a quarter, by however little, gives nan for both masses. -/
theorem C109_above_quarter (hF : F.WF) (lib : PowLib F) {Mc eta : ℝ} (hM : 0 < Mc) (he : F.IsFloat eta) (hq : 1 / 4 < eta)
    (hlow : 5 * F.minNormal ≤ F.u * (Mc / eta ^ ((3 : ℝ) / 5)) ^ 2)
    (hhigh : 12 * (Mc / eta ^ ((3 : ℝ) / 5)) ^ 2 < 2 ^ F.emax) :
    Fp.Mc_eta_to_ms F lib (.fin Mc) (.fin eta) = (.nan, .nan) := by
  have he0 : 0 < eta := by linarith
  have hen : F.minNormal ≤ eta := by have := hF.min_le; linarith
  obtain ⟨M, hMe, -, hMs, -⟩ := total_mass hF lib he.1 hen ((le_abs_self _).trans_lt he.2)
    ⟨div_pos hM (Real.rpow_pos_of_pos he0 _), hlow, hhigh⟩
  unfold Fp.Mc_eta_to_ms
  simp only [hMe, core_nan hF hMs he.1 hq, sub_nan, nan_div]

/-- C109: equal masses. The computed mass ratio is exactly a quarter, and the round trip returns two equal masses,
    with a relative error of a few `eps` and `u`. -/
theorem C109_equal_masses (hF : F.WF) (lib : PowLib F) {m : ℝ} (hm : F.IsFloat m) (h : InRange F m m) :
    (Fp.ms_to_Mc_eta F lib (.fin m) (.fin m)).2 = .fin (1 / 4)
      ∧ ∃ x : ℝ, Fp.Mc_eta_to_ms F lib (Fp.ms_to_Mc_eta F lib (.fin m) (.fin m)).1 (Fp.ms_to_Mc_eta F lib (.fin m) (.fin m)).2
          = (.fin x, .fin x) ∧ |x - m| ≤ (22 * lib.eps + 46 * F.u) * m := by
  have hn := minNormal_pos (F := F)
  have he := eta_equal hF hm.1 (by have := h.low; linarith) h.pair
  refine ⟨he, ?_⟩
  obtain ⟨x1, x2, hx, -, -, h4, -, -, h5⟩ := round_trip_fin hF lib h he le_rfl
  refine ⟨x2, by rw [hx, h4 rfl], ?_⟩
  have := h5 rfl
  rw [show (m + m) / 2 = m by ring] at this
  linarith

/-- C109: the chirp mass and the mass ratio of two masses in the range of the format are finite, and their relative errors are
    a few `eps` and `u`. -/
theorem C109_chirp_mass (hF : F.WF) (lib : PowLib F) {m1 m2 : ℝ} (h : InRange F m1 m2) :
    ∃ Mc eta : ℝ, Fp.ms_to_Mc_eta F lib (.fin m1) (.fin m2) = (.fin Mc, .fin eta)
      ∧ |Mc - (m1 * m2) ^ ((3 : ℝ) / 5) / (m1 + m2) ^ ((1 : ℝ) / 5)|
          ≤ (3 * lib.eps + 7 * F.u) * ((m1 * m2) ^ ((3 : ℝ) / 5) / (m1 + m2) ^ ((1 : ℝ) / 5))
      ∧ |eta - m1 * m2 / (m1 + m2) ^ 2| ≤ 8 * F.u * (m1 * m2 / (m1 + m2) ^ 2) := by
  obtain ⟨a, S, Q, -, -, -, he, -⟩ := eta_steps hF h.pair
  obtain ⟨Mc, e1, -, -, -, -, ⟨c1, c2⟩, d1, d2⟩ := chirp_total hF lib h he
  have p2 := h.pos
  have p1 : 0 < m1 := p2.trans_le h.le
  have hX : 0 ≤ (m1 * m2) ^ ((3 : ℝ) / 5) / (m1 + m2) ^ ((1 : ℝ) / 5) := by positivity
  have hE : 0 ≤ m1 * m2 / (m1 + m2) ^ 2 := by positivity
  have hu := u_pos (F := F)
  have he0 := lib.eps_nonneg
  refine ⟨Mc, _, e1, abs_le.2 ⟨?_, by linarith⟩, abs_le.2 ⟨?_, by linarith⟩⟩
  · have := mul_nonneg (show 0 ≤ lib.eps + 4 * F.u by linarith) hX
    linarith
  · have := mul_nonneg hu.le hE
    linarith

/-- C109: masses that differ by more than `2 sqrt u` of the total mass. The computed mass ratio is at most a quarter, and the
    round trip returns two finite masses in the right order, with an error of the order of `eps` and `sqrt u`. -/
theorem C109_round_trip (hF : F.WF) (lib : PowLib F) {m1 m2 : ℝ} (h : InRange F m1 m2)
    (hd : 2 * Real.sqrt F.u * (m1 + m2) ≤ m1 - m2) :
    (∃ Mc eta, Fp.ms_to_Mc_eta F lib (.fin m1) (.fin m2) = (.fin Mc, .fin eta) ∧ 0 < eta ∧ eta ≤ 1 / 4)
      ∧ ∃ x1 x2 : ℝ, Fp.Mc_eta_to_ms F lib (Fp.ms_to_Mc_eta F lib (.fin m1) (.fin m2)).1
          (Fp.ms_to_Mc_eta F lib (.fin m1) (.fin m2)).2 = (.fin x1, .fin x2) ∧ 0 ≤ x2 ∧ x2 ≤ x1
        ∧ |x1 - m1| ≤ (22 * lib.eps + 55 * Real.sqrt F.u) * (m1 + m2)
        ∧ |x2 - m2| ≤ (22 * lib.eps + 55 * Real.sqrt F.u) * (m1 + m2) := by
  have hu := u_pos (F := F)
  have hT : 0 < m1 + m2 := by have := h.pos; have := h.le; linarith
  have h0 : 0 ≤ 2 * Real.sqrt F.u * (m1 + m2) := by positivity
  obtain ⟨eta, he, -, -, hq⟩ := eta_le_quarter hF h.pair (by
    have := mul_self_le_mul_self h0 hd
    have hs := Real.mul_self_sqrt hu.le
    have e : 4 * F.u * (m1 + m2) ^ 2 = 2 * Real.sqrt F.u * (m1 + m2) * (2 * Real.sqrt F.u * (m1 + m2)) := by
      linear_combination -4 * (m1 + m2) ^ 2 * hs
    rw [e, pow_two]; exact this)
  obtain ⟨Mc, e1, -, e3, -⟩ := chirp_total hF lib h he
  obtain ⟨x1, x2, hx, h2, h3, -, h4, h5, -⟩ := round_trip_fin hF lib h he hq
  exact ⟨⟨Mc, eta, e1, minNormal_pos.trans_le e3, hq⟩, x1, x2, hx, h2, h3, h4, h5⟩

/-- C109: a power of two and the next number of the format, in any precision. The computed mass ratio is the number after a
    quarter, the round trip gives nan for both masses, and so do the tidal conversions whatever the deformabilities. -/
theorem C109_neighbours_nan (hF : F.WF) (lib : PowLib F) {k : ℤ} (h : InRange F (2 ^ k * (1 + 2 * F.u)) (2 ^ k))
    (l1 l2 : XR) :
    (Fp.ms_to_Mc_eta F lib (.fin (2 ^ k * (1 + 2 * F.u))) (.fin (2 ^ k))).2 = .fin (1 / 4 * (1 + 2 * F.u))
      ∧ Fp.Mc_eta_to_ms F lib (Fp.ms_to_Mc_eta F lib (.fin (2 ^ k * (1 + 2 * F.u))) (.fin (2 ^ k))).1
          (Fp.ms_to_Mc_eta F lib (.fin (2 ^ k * (1 + 2 * F.u))) (.fin (2 ^ k))).2 = (.nan, .nan)
      ∧ Fp.lambdas_to_lambda_tildes F lib l1 l2 (.fin (2 ^ k * (1 + 2 * F.u))) (.fin (2 ^ k)) = (.nan, .nan) := by
  have he := eta_neighbours hF h.pair
  have hq : 1 / 4 < 1 / 4 * (1 + 2 * F.u) := by have := u_pos (F := F); linarith
  exact ⟨he, round_trip_nan hF lib h he hq, tides_nan hF lib h he hq l1 l2⟩

/-- C109: the tidal conversion. For masses that are equal, or differ by more than `2 sqrt u` of the total mass, and
    deformabilities that are not negative, both results are finite and differ from those in exact arithmetic by at most
    `2 eps + 13 sqrt u` of the sum of the deformabilities. -/
theorem C109_tides (hF : F.Roomy) (lib : PowLib F) {m1 m2 l1 l2 : ℝ} (h : InRange F m1 m2)
    (hd : (m1 = m2 ∧ F.IsFloat m1) ∨ 2 * Real.sqrt F.u * (m1 + m2) ≤ m1 - m2) (h1 : 0 ≤ l1) (h2 : 0 ≤ l2)
    (hlow : F.minNormal ≤ F.u * (l1 + l2)) (hhigh : 20 * (l1 + l2) < 2 ^ F.emax) :
    ∃ t d : ℝ, Fp.lambdas_to_lambda_tildes F lib (.fin l1) (.fin l2) (.fin m1) (.fin m2) = (.fin t, .fin d)
      ∧ |t - (Ripple.lambdas_to_lambda_tildes l1 l2 m1 m2).1| ≤ (2 * lib.eps + 13 * Real.sqrt F.u) * (l1 + l2)
      ∧ |d - (Ripple.lambdas_to_lambda_tildes l1 l2 m1 m2).2| ≤ (2 * lib.eps + 13 * Real.sqrt F.u) * (l1 + l2) := by
  have hu := u_pos (F := F)
  have p2 := h.pos
  have p1 : 0 < m1 := p2.trans_le h.le
  have hE : 0 ≤ m1 * m2 / (m1 + m2) ^ 2 := by positivity
  have hE4 : m1 * m2 / (m1 + m2) ^ 2 ≤ 1 / 4 := by
    rw [div_le_iff₀ (by positivity)]; nlinarith only [sq_nonneg (m1 - m2)]
  obtain ⟨eta, he, hq⟩ : ∃ eta, etaOf F (.fin m1) (.fin m2) = .fin eta ∧ eta ≤ 1 / 4 := by
    rcases hd with ⟨rfl, hf⟩ | hd
    · exact ⟨1 / 4, eta_equal hF.toWF hf.1 (by have := h.low; have := minNormal_pos (F := F); linarith) h.pair, le_rfl⟩
    · obtain ⟨⟨Mc, eta, e1, -, hq⟩, -⟩ := C109_round_trip hF.toWF lib h hd
      exact ⟨eta, (congrArg Prod.snd e1 :), hq⟩
  obtain ⟨Mc, e1, e2, e3, -, -, -, d1, d2⟩ := chirp_total hF.toWF lib h he
  have hmul : F.u * (m1 * m2 / (m1 + m2) ^ 2) ≤ F.u * (1 / 4) := mul_le_mul_of_nonneg_left hE4 hu.le
  obtain ⟨⟨t, t1, t2⟩, ⟨d, g1, g2⟩⟩ := tides_near hF lib e2 e3 hq hE hE4 (abs_le.2 ⟨by linarith, by linarith⟩) h1 h2 hlow hhigh
    (m1 := .fin m1) (m2 := .fin m2) (by rw [e1])
  refine ⟨t, d, Prod.ext t1 g1, ?_, ?_⟩
  · convert t2 using 3
    simp only [Ripple.lambdas_to_lambda_tildes, Ripple.ms_to_Mc_eta, Real.sqrt_eq_rpow]
    norm_num
    ring
  · convert g2 using 3
    simp only [Ripple.lambdas_to_lambda_tildes, Ripple.ms_to_Mc_eta, Real.sqrt_eq_rpow]
    norm_num
    ring

/-- C109: in single precision the mass difference that the PhenomD, PhenomXAS and PhenomPv2 models compute for masses of 31 and
    31 + 1/64 suns is nan. -/
theorem C109_waveform_nan (b : Bool) :
    Fp.massDifference (binary32 b) ((binary32 b).rd gt) (.fin (31 + 1 / 64)) (.fin 31) = .nan := by
  have hf : (binary32 b).rd (8388609 / 33554432 : ℝ) = 8388609 / 33554432 := by
    have := eval32 (b := b) (x := 8388609 / 33554432) (-2) 8388609 (by norm_num) (by norm_num) (by norm_num)
      (by norm_num)
    norm_num at this ⊢; exact this
  obtain ⟨x, hx, hr⟩ := root_nan (wf32 b) hf (by norm_num) (by norm_num)
  unfold Fp.massDifference
  rw [eta_31, hr, Fmt.sqrt]
  simp [XR.sqrt, hx, Fmt.round]

/-! ### the hypotheses can be met -/

/-- single and double precision, with or without subnormal numbers, all masses from `2^-40` to `2^40` (a pico-sun to a tera-sun) -/
example (b : Bool) (m1 m2 : ℝ) (h2 : 2 ^ (-40 : ℤ) ≤ m2) (h21 : m2 ≤ m1) (h1 : m1 ≤ 2 ^ (40 : ℤ)) :
    ((binary32 b).WF ∧ InRange (binary32 b) m1 m2) ∧ (binary64 b).WF ∧ InRange (binary64 b) m1 m2 :=
  ⟨⟨wf32 b, inRange32 b h2 h21 h1⟩, wf64 b, inRange64 b h2 h21 h1⟩

/-- a correctly rounded `pow` -/
example (hF : F.WF) : (exactPow hF).eps = F.u := rfl

/-- a binary whose mass ratio is a number of the single-precision format: 30 and 10 suns -/
example (b : Bool) : ∃ Mc, Binary Mc (3 / 16) 30 10 ∧ (binary32 b).IsFloat (3 / 16) ∧ InRange (binary32 b) 30 10 := by
  refine ⟨_, ⟨by norm_num, by norm_num, rfl, by norm_num⟩, ⟨?_, ?_⟩, inRange32 b (by norm_num) (by norm_num) (by norm_num)⟩
  · have := eval32 (b := b) (x := 3 / 16) (-3) 12582912 (by norm_num) (by norm_num) (by norm_num) (by norm_num)
    norm_num at this ⊢; exact this
  · rw [show (2 : ℝ) ^ (binary32 b).emax = 2 ^ (128 : ℤ) from rfl, abs_of_pos (by norm_num)]; norm_num

/-- the accuracy of the round trip in single precision applies to 30 and 20 suns -/
example (b : Bool) : 2 * Real.sqrt (binary32 b).u * (30 + 20) ≤ 30 - 20 := by
  have : Real.sqrt (binary32 b).u ≤ 1 / 100 := by
    rw [show (binary32 b).u = 2 ^ (-24 : ℤ) by simp [Fmt.u, binary32]]
    exact Real.sqrt_le_iff.2 ⟨by norm_num, by norm_num⟩
  linarith

/-- the tidal conversion in single and double precision, for deformabilities of 400 and 800 -/
example (b : Bool) : ((binary32 b).Roomy ∧ (binary32 b).minNormal ≤ (binary32 b).u * (400 + 800)
      ∧ 20 * (400 + 800 : ℝ) < 2 ^ (binary32 b).emax) ∧ (binary64 b).Roomy := by
  refine ⟨⟨roomy32 b, ?_, ?_⟩, roomy64 b⟩
  · have := (wf32 b).min_le_u; have := u_pos (F := binary32 b); linarith
  · rw [show (2 : ℝ) ^ (binary32 b).emax = 2 ^ (128 : ℤ) from rfl]; norm_num

/-- neighbouring masses near one sun, in single and double precision -/
example (b : Bool) : InRange (binary32 b) (2 ^ (0 : ℤ) * (1 + 2 * (binary32 b).u)) (2 ^ (0 : ℤ))
    ∧ InRange (binary64 b) (2 ^ (0 : ℤ) * (1 + 2 * (binary64 b).u)) (2 ^ (0 : ℤ)) := by
  have h1 := (wf32 b).u_le
  have h2 := (wf64 b).u_le
  have h3 := u_pos (F := binary32 b)
  have h4 := u_pos (F := binary64 b)
  exact ⟨inRange32 b (by norm_num) (by norm_num; linarith) (by norm_num; linarith),
    inRange64 b (by norm_num) (by norm_num; linarith) (by norm_num; linarith)⟩

end
end Ripple
