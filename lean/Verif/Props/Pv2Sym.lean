/-
  Property theorems C85, C87, C88: symmetries of the PhenomPv2 generator.
-/
import Verif.Props.Pv2
import Verif.Props.PhenomDGen

namespace Ripple
open Pv2 V3 PhenomD

section
variable (Q : QNM) (grid : List ℝ) {m1 m2 : ℝ} (s1 s2 : V3) (D tc phiRef incl f_ref : ℝ)

/-! ### C85: choice of the in-plane axes -/

/-- Rotating both spins about the orbital axis by `d` and subtracting `d` from the reference phase multiplies both
    polarisations by the constant `exp(-2 i d)`, provided the total in-plane spin does not vanish: the in-plane axes are
    a gauge choice, only the overall phase depends on it. -/
theorem C85_covariance (h1 : 0 < m1) (h2 : 0 < m2) (hf : 0 < f_ref)
    (hJ : m1 ^ 2 * s1.1 + m2 ^ 2 * s2.1 ≠ 0 ∨ m1 ^ 2 * s1.2.1 + m2 ^ 2 * s2.2.1 ≠ 0) (d : ℝ) :
    ∃ hp hc, gen_IMRPhenomPv2 Q grid (pars m1 m2 s1 s2 D tc phiRef incl) f_ref = .ok (hp, hc) ∧
      gen_IMRPhenomPv2 Q grid (pars m1 m2 (aboutZ d s1) (aboutZ d s2) D tc (phiRef - d) incl) f_ref =
        .ok (hp.map (fun z => Complex.exp (-(2 * Complex.I * (d : ℂ))) * z),
          hc.map (fun z => Complex.exp (-(2 * Complex.I * (d : ℂ))) * z)) := by
  have hJ' : (totalJ gt m2 m1 f_ref s2 s1).1 ≠ 0 ∨ (totalJ gt m2 m1 f_ref s2 s1).2.1 ≠ 0 := by
    simp only [totalJ]
    rwa [add_comm (m2 ^ 2 * s2.1), add_comm (m2 ^ 2 * s2.2.1)]
  obtain ⟨c1, c2, c3, c4, c5, c6⟩ := conv_rot h2 h1 hf phiRef incl s2 s1 d hJ'
  refine ⟨_, _, genP_eq Q grid m1 m2 s1 s2 D tc phiRef incl f_ref, ?_⟩
  rw [genP_eq]
  have hz : (conv m2 m1 f_ref (phiRef - d) incl (aboutZ d s2) (aboutZ d s1)).zeta_polariz =
      (conv m2 m1 f_ref phiRef incl s2 s1).zeta_polariz := c4
  have ht : ∀ thr f, twP Q m1 m2 (aboutZ d s1) (aboutZ d s2) D tc f_ref
      (conv m2 m1 f_ref (phiRef - d) incl (aboutZ d s2) (aboutZ d s1)) thr f =
      (Complex.exp (-(2 * Complex.I * (d : ℂ))) * (twP Q m1 m2 s1 s2 D tc f_ref (conv m2 m1 f_ref phiRef incl s2 s1) thr f).1,
        Complex.exp (-(2 * Complex.I * (d : ℂ))) * (twP Q m1 m2 s1 s2 D tc f_ref (conv m2 m1 f_ref phiRef incl s2 s1) thr f).2) := by
    intro thr f
    have e1 : (conv m2 m1 f_ref (phiRef - d) incl (aboutZ d s2) (aboutZ d s1)).chip = (conv m2 m1 f_ref phiRef incl s2 s1).chip := c1
    have e2 : (conv m2 m1 f_ref (phiRef - d) incl (aboutZ d s2) (aboutZ d s1)).thetaJN = (conv m2 m1 f_ref phiRef incl s2 s1).thetaJN := c2
    have e3 : (conv m2 m1 f_ref (phiRef - d) incl (aboutZ d s2) (aboutZ d s1)).alpha0 = (conv m2 m1 f_ref phiRef incl s2 s1).alpha0 := c3
    have e5 := hDs_phase Q m1 m2 s1 s2 (conv m2 m1 f_ref phiRef incl s2 s1).chip D thr f c5 c6
    have t1 : thetaP m1 m2 (aboutZ d s1) (aboutZ d s2) = thetaP m1 m2 s1 s2 := rfl
    have t2 : ∀ c, angP m1 m2 (aboutZ d s1) (aboutZ d s2) c = angP m1 m2 s1 s2 c := fun _ => rfl
    have t3 : ∀ c p, hDs Q m1 m2 (aboutZ d s1) (aboutZ d s2) c p D thr f = hDs Q m1 m2 s1 s2 c p D thr f := fun _ _ => rfl
    have t4 : ∀ c, corrP Q m1 m2 (aboutZ d s1) (aboutZ d s2) c tc f = corrP Q m1 m2 s1 s2 c tc f := fun _ => rfl
    have t5 : (aboutZ d s1).2.2 = s1.2.2 := rfl
    have t6 : (aboutZ d s2).2.2 = s2.2.2 := rfl
    simp only [twP, e1, e2, e3, t2, t3, t4, t5, t6]
    have e5' : hDs Q m1 m2 s1 s2 (conv m2 m1 f_ref phiRef incl s2 s1).chip
        (conv m2 m1 f_ref (phiRef - d) incl (aboutZ d s2) (aboutZ d s1)).phi_aligned D thr f =
        Complex.exp (-(2 * Complex.I * (d : ℂ))) *
          hDs Q m1 m2 s1 s2 (conv m2 m1 f_ref phiRef incl s2 s1).chip (conv m2 m1 f_ref phiRef incl s2 s1).phi_aligned D thr f := e5
    rw [e5', twist_smul]
    simp only [Prod.mk.injEq]
    constructor <;> ring
  have hcut : cutThr grid (fM_CUT / Ms (thetaP m1 m2 (aboutZ d s1) (aboutZ d s2))) = cutThr grid (fM_CUT / Ms (thetaP m1 m2 s1 s2)) := rfl
  rw [hz, hcut]
  congr 2
  all_goals
    rw [List.map_map]
    refine List.map_congr_left fun f _ => ?_
    rw [ht, rot_smul]
    rfl

/-! ### C87: unit of the coalescence time -/

lemma corr_shift (chip tc tau f : ℝ) : corrP Q m1 m2 s1 s2 chip (tc + tau) f =
    Complex.exp (-(Complex.I * ((f * ((m1 + m2) * gt) * tau : ℝ) : ℂ))) * corrP Q m1 m2 s1 s2 chip tc f := by
  unfold corrP
  rw [mul_left_comm, ← Complex.exp_add]
  congr 2
  push_cast
  ring

/-- Adding `tau` to the coalescence time multiplies each sample by `exp(-i f M tau)` with `M` the total mass in seconds:
    the parameter is measured in units of `M / 2 pi`, not in seconds as in the other models. -/
theorem C87_time_shift (tau : ℝ) :
    ∃ hp hc, gen_IMRPhenomPv2 Q grid (pars m1 m2 s1 s2 D tc phiRef incl) f_ref = .ok (hp, hc) ∧
      gen_IMRPhenomPv2 Q grid (pars m1 m2 s1 s2 D (tc + tau) phiRef incl) f_ref =
        .ok (List.zipWith (fun f z => Complex.exp (-(Complex.I * ((f * ((m1 + m2) * gt) * tau : ℝ) : ℂ))) * z) grid hp,
          List.zipWith (fun f z => Complex.exp (-(Complex.I * ((f * ((m1 + m2) * gt) * tau : ℝ) : ℂ))) * z) grid hc) := by
  refine ⟨_, _, genP_eq Q grid m1 m2 s1 s2 D tc phiRef incl f_ref, ?_⟩
  rw [genP_eq]
  congr 2
  all_goals
    rw [List.zipWith_map_right, List.zipWith_self]
    refine List.map_congr_left fun f _ => ?_
    simp only [twP, corr_shift, rotP]
    ring

/-- A shift by `tau` seconds is obtained with the parameter `2 pi tau / M`. -/
theorem C87_seconds (h1 : 0 < m1) (h2 : 0 < m2) (tau : ℝ) :
    ∃ hp hc, gen_IMRPhenomPv2 Q grid (pars m1 m2 s1 s2 D tc phiRef incl) f_ref = .ok (hp, hc) ∧
      gen_IMRPhenomPv2 Q grid (pars m1 m2 s1 s2 D (tc + 2 * Real.pi * tau / ((m1 + m2) * gt)) phiRef incl) f_ref =
        .ok (List.zipWith (fun f z => Complex.exp (-(Complex.I * ((2 * Real.pi * f * tau : ℝ) : ℂ))) * z) grid hp,
          List.zipWith (fun f z => Complex.exp (-(Complex.I * ((2 * Real.pi * f * tau : ℝ) : ℂ))) * z) grid hc) := by
  obtain ⟨hp, hc, e, e'⟩ := C87_time_shift Q grid s1 s2 D tc phiRef incl f_ref (m1 := m1) (m2 := m2)
    (2 * Real.pi * tau / ((m1 + m2) * gt))
  refine ⟨hp, hc, e, ?_⟩
  rw [e']
  have hg := gt_pos
  have : ∀ f : ℝ, f * ((m1 + m2) * gt) * (2 * Real.pi * tau / ((m1 + m2) * gt)) = 2 * Real.pi * f * tau := fun f => by
    field_simp
  simp only [this]

/-! ### C88: total mass -/

/-- Multiplying both masses by `k` and dividing all frequencies by `k` multiplies the waveform by `k²`; the spins, the
    reference phase and the inclination are untouched, and so is the coalescence time (being in units of the total mass). -/
theorem C88_scaling (h1 : 0 < m1) (h2 : 0 < m2) (hf : 0 < f_ref) (k : ℝ) (hk : 0 < k) :
    ∃ hp hc, gen_IMRPhenomPv2 Q grid (pars m1 m2 s1 s2 D tc phiRef incl) f_ref = .ok (hp, hc) ∧
      gen_IMRPhenomPv2 Q (grid.map fun f => f / k) (pars (k * m1) (k * m2) s1 s2 D tc phiRef incl) (f_ref / k) =
        .ok (hp.map (fun z => (k : ℂ) ^ 2 * z), hc.map (fun z => (k : ℂ) ^ 2 * z)) := by
  refine ⟨_, _, genP_eq Q grid m1 m2 s1 s2 D tc phiRef incl f_ref, ?_⟩
  have hthr : cutThr (grid.map fun f => f / k) (fM_CUT / Ms (thetaP (k * m1) (k * m2) s1 s2)) =
      cutThr grid (fM_CUT / Ms (thetaP m1 m2 s1 s2)) / k := by
    have := sc_Ms hk (thetaP m1 m2 s1 s2)
    rw [show thetaP (k * m1) (k * m2) s1 s2 = scaleMass k (thetaP m1 m2 s1 s2) from rfl, this, mul_comm k,
      div_mul_eq_div_div, cutThr_scale hk]
  rw [genP_eq, conv_scale hk h2 h1 hf, hthr]
  congr 2
  all_goals
    rw [List.map_map, List.map_map]
    refine List.map_congr_left fun f _ => ?_
    simp only [Function.comp]
    rw [twP_scale hk Q h1 h2, rot_smul]

end

/-- the hypotheses are met by a binary with one tilted spin -/
example : ((30 : ℝ) ^ 2 * (0.4, 0.1, 0.2).1 + 20 ^ 2 * (0, 0, -0.3).1 ≠ 0) := by norm_num

end Ripple
