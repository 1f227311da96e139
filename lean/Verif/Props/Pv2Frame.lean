/-
  Property theorems C54, C57, C58, C84: frames and spins of PhenomPv2.
-/
import Verif.Proofs.Pv2Frame

namespace Ripple
open Pv2 V3

/-! ### C54: rotations -/

theorem C54_rotations (a : ℝ) : IsRotation (ROTATEZ a) ∧ IsRotation (ROTATEY a) :=
  ⟨rotZ_isRotation a, rotY_isRotation a⟩

/-- axis and sense of rotation -/
theorem C54_sense (a : ℝ) :
    ROTATEZ a (0, 0, 1) = (0, 0, 1) ∧ ROTATEZ a (1, 0, 0) = (Real.cos a, Real.sin a, 0) ∧
    ROTATEY a (0, 1, 0) = (0, 1, 0) ∧ ROTATEY a (0, 0, 1) = (Real.sin a, 0, Real.cos a) := by
  simp [ROTATEZ, ROTATEY]

theorem C54_additive (a b : ℝ) (v : V3) :
    ROTATEZ a (ROTATEZ b v) = ROTATEZ (a + b) v ∧ ROTATEY a (ROTATEY b v) = ROTATEY (a + b) v := by
  simp only [ROTATEZ, ROTATEY, Real.cos_add, Real.sin_add, Prod.mk.injEq]
  refine ⟨⟨by ring, by ring, trivial⟩, by ring, trivial, by ring⟩

theorem C54_inverse (a : ℝ) (v : V3) :
    ROTATEZ (-a) (ROTATEZ a v) = v ∧ ROTATEY (-a) (ROTATEY a v) = v := by
  rw [(C54_additive _ _ v).1, (C54_additive _ _ v).2]
  simp [ROTATEZ, ROTATEY]

theorem C54_length (a : ℝ) (v : V3) : len (ROTATEZ a v) = len v ∧ len (ROTATEY a v) = len v := by
  unfold len
  rw [(rotZ_isRotation a).dot, (rotY_isRotation a).dot]
  exact ⟨rfl, rfl⟩

/-! ### C57: effective precession spin -/

section
variable {m1 m2 : ℝ} (f_ref phiRef incl : ℝ) (s1 s2 : V3)

/-- `convert_spins` on vectors -/
noncomputable abbrev conv (m1 m2 f_ref phiRef incl : ℝ) (s1 s2 : V3) : Converted :=
  convert_spins m1 m2 f_ref phiRef incl s1.1 s1.2.1 s1.2.2 s2.1 s2.2.1 s2.2.2

/-- the effective precession spin: the larger of the two weighted in-plane spins -/
theorem C57_value (h1 : 0 < m1) (h2 : 0 < m2) :
    (conv m1 m2 f_ref phiRef incl s1 s2).chip =
      max ((4 * m1 + 3 * m2) * m1 / ((4 * m2 + 3 * m1) * m2) * Real.sqrt (s1.1 ^ 2 + s1.2.1 ^ 2))
        (Real.sqrt (s2.1 ^ 2 + s2.2.1 ^ 2)) := by
  simp only [conv, convert_spins]
  rw [← max_div_div_right (by positivity)]
  congr 1
  · field_simp
    ring
  · field_simp

theorem C57_range (h1 : 0 < m1) (h12 : m1 ≤ m2) (hs1 : len s1 ≤ 1) (hs2 : len s2 ≤ 1) :
    0 ≤ (conv m1 m2 f_ref phiRef incl s1 s2).chip ∧ (conv m1 m2 f_ref phiRef incl s1 s2).chip ≤ 1 := by
  have h2 : 0 < m2 := lt_of_lt_of_le h1 h12
  have key : ∀ s : V3, len s ≤ 1 → Real.sqrt (s.1 ^ 2 + s.2.1 ^ 2) ≤ 1 := fun s hs => by
    refine le_trans (Real.sqrt_le_sqrt ?_) hs
    unfold V3.dot
    nlinarith [mul_self_nonneg s.2.2]
  rw [C57_value f_ref phiRef incl s1 s2 h1 h2]
  refine ⟨le_max_of_le_right (Real.sqrt_nonneg _), max_le ?_ (key s2 hs2)⟩
  have hq : (4 * m1 + 3 * m2) * m1 / ((4 * m2 + 3 * m1) * m2) ≤ 1 := by
    rw [div_le_one (by positivity)]
    nlinarith
  have hq0 : 0 ≤ (4 * m1 + 3 * m2) * m1 / ((4 * m2 + 3 * m1) * m2) := by positivity
  calc _ ≤ 1 * 1 := mul_le_mul hq (key s1 hs1) (Real.sqrt_nonneg _) zero_le_one
    _ = 1 := one_mul 1

theorem C57_zero_iff (h1 : 0 < m1) (h2 : 0 < m2) :
    (conv m1 m2 f_ref phiRef incl s1 s2).chip = 0 ↔ s1.1 = 0 ∧ s1.2.1 = 0 ∧ s2.1 = 0 ∧ s2.2.1 = 0 := by
  have key : ∀ s : V3, Real.sqrt (s.1 ^ 2 + s.2.1 ^ 2) ≤ 0 → s.1 = 0 ∧ s.2.1 = 0 := fun s hs => by
    have := le_antisymm hs (Real.sqrt_nonneg _)
    rw [Real.sqrt_eq_zero (by positivity)] at this
    constructor <;> nlinarith [sq_nonneg s.1, sq_nonneg s.2.1]
  rw [C57_value f_ref phiRef incl s1 s2 h1 h2]
  have hq : 0 < (4 * m1 + 3 * m2) * m1 / ((4 * m2 + 3 * m1) * m2) := by positivity
  constructor
  · intro h
    have ha := le_of_le_of_eq (le_max_left _ _) h
    have hb := le_of_le_of_eq (le_max_right _ _) h
    have ha' : Real.sqrt (s1.1 ^ 2 + s1.2.1 ^ 2) ≤ 0 := by
      by_contra hc; rw [not_le] at hc; linarith [mul_pos hq hc]
    exact ⟨(key s1 ha').1, (key s1 ha').2, (key s2 hb).1, (key s2 hb).2⟩
  · rintro ⟨a, b, c, d⟩
    simp [a, b, c, d]

/-- rotating both spins about the orbital axis does not change the effective precession spin, nor do the reference
    frequency, phase and inclination -/
theorem C57_rotation (h1 : 0 < m1) (h2 : 0 < m2) (a f_ref' phiRef' incl' : ℝ) :
    (conv m1 m2 f_ref' phiRef' incl' (ROTATEZ a s1) (ROTATEZ a s2)).chip = (conv m1 m2 f_ref phiRef incl s1 s2).chip := by
  have key : ∀ s : V3, (ROTATEZ a s).1 ^ 2 + (ROTATEZ a s).2.1 ^ 2 = s.1 ^ 2 + s.2.1 ^ 2 := fun s => by
    simp only [ROTATEZ]
    linear_combination (s.1 ^ 2 + s.2.1 ^ 2) * Real.sin_sq_add_cos_sq a
  rw [C57_value _ _ _ _ _ h1 h2, C57_value _ _ _ _ _ h1 h2, key, key]

/-! ### C58: frame of the total angular momentum -/

/-- the line of sight -/
noncomputable abbrev lineOfSight (incl phiRef : ℝ) : V3 := dir incl (Real.pi / 2 - phiRef)

/-- the polarisation vector: opposite to the direction of increasing inclination -/
noncomputable abbrev polarX (incl phiRef : ℝ) : V3 :=
  comb (-1) (dir (incl + Real.pi / 2) (Real.pi / 2 - phiRef)) 0 (0, 0, 0)

/-- Everything `convert_spins` returns besides `chip`, characterised by one rotation `R` of space: it takes the total
    angular momentum `J` to the z axis and the line of sight to the half plane of azimuth zero; `thetaJN` is then the polar
    angle of the line of sight, `alpha0` the azimuth of the orbital angular momentum, `-phi_aligned` the azimuth of `J` in
    the original frame and `zeta_polariz` the angle of the polarisation vector in the basis
    `P = (0,-1,0)`, `Q = N × P`. -/
theorem C58_frame (h1 : 0 < m1) (h2 : 0 < m2) (hf : 0 < f_ref) (hJ : totalJ gt m1 m2 f_ref s1 s2 ≠ 0) :
    let J := totalJ gt m1 m2 f_ref s1 s2
    let c := conv m1 m2 f_ref phiRef incl s1 s2
    c.chi1_l = s1.2.2 ∧ c.chi2_l = s2.2.2 ∧ 0 ≤ c.thetaJN ∧ c.thetaJN ≤ Real.pi ∧
    (∃ r : ℝ, 0 ≤ r ∧ J.1 = r * Real.cos (-c.phi_aligned) ∧ J.2.1 = r * Real.sin (-c.phi_aligned)) ∧
    ∃ R : V3 → V3, IsRotation R ∧ R J = (0, 0, len J) ∧
      R (lineOfSight incl phiRef) = dir c.thetaJN 0 ∧
      (∃ b : ℝ, 0 ≤ b ∧ b ≤ Real.pi ∧ Real.cos b = J.2.2 / len J ∧ R (0, 0, 1) = dir b c.alpha0) ∧
      R (polarX incl phiRef) =
        comb (Real.cos c.zeta_polariz) (0, -1, 0) (Real.sin c.zeta_polariz) (V3.cross (dir c.thetaJN 0) (0, -1, 0)) := by
  intro J c
  obtain ⟨e1, e2, e3, e4, e5, e6⟩ := convert_eq h1 h2 hf phiRef incl s1 s2
  have hRot := toJN_isRotation J (losN incl phiRef)
  set R := toJN J (losN incl phiRef) with hR
  have hRJ : R J = (0, 0, len J) := toJN_J _ hJ
  have hRN := toJN_N J (losN incl phiRef)
  rw [← hR] at hRN
  have hlen : 0 < len J := len_pos hJ
  -- the line of sight is a unit vector
  have hN1 : V3.dot (R (losN incl phiRef)) (R (losN incl phiRef)) = 1 := by
    rw [hRot.dot]
    simp only [V3.dot, losN, dir]
    linear_combination Real.sin_sq_add_cos_sq incl
      + Real.sin incl ^ 2 * Real.sin_sq_add_cos_sq (Real.pi / 2 - phiRef)
  set nx := Real.sqrt ((toJ J (losN incl phiRef)).1 ^ 2 + (toJ J (losN incl phiRef)).2.1 ^ 2) with hnx
  set nz := (toJ J (losN incl phiRef)).2.2 with hnz
  have hnx0 : 0 ≤ nx := Real.sqrt_nonneg _
  have hn : nx ^ 2 + nz ^ 2 = 1 := by
    rw [hRN] at hN1; simp only [V3.dot] at hN1; linarith
  have hnz1 : -1 ≤ nz := by nlinarith [sq_nonneg nx]
  have hnz2 : nz ≤ 1 := by nlinarith [sq_nonneg nx]
  have hth : c.thetaJN = Real.arccos nz := by rw [show c.thetaJN = _ from e1, hRN]
  have hcos : Real.cos c.thetaJN = nz := by rw [hth, Real.cos_arccos hnz1 hnz2]
  have hsin : Real.sin c.thetaJN = nx := by
    rw [hth, Real.sin_arccos, show 1 - nz ^ 2 = nx ^ 2 by linarith, Real.sqrt_sq hnx0]
  refine ⟨e5, e6, by rw [hth]; exact Real.arccos_nonneg _, by rw [hth]; exact Real.arccos_le_pi _,
    ⟨Real.sqrt (J.1 ^ 2 + J.2.1 ^ 2), Real.sqrt_nonneg _, ?_, ?_⟩, R, hRot, hRJ, ?_, ?_, ?_⟩
  · rw [show c.phi_aligned = _ from e3, neg_neg]; exact (arctan2_cos J.2.1 J.1).symm
  · rw [show c.phi_aligned = _ from e3, neg_neg]; exact (arctan2_sin J.2.1 J.1).symm
  · show R (losN incl phiRef) = _
    rw [hRN]
    simp [dir, hcos, hsin]
  · -- orbital angular momentum
    have hw1 : V3.dot (R (0, 0, 1)) (R (0, 0, 1)) = 1 := by rw [hRot.dot]; norm_num [V3.dot]
    have hwJ : (R (0, 0, 1)).2.2 * len J = J.2.2 := by
      have := hRot.dot (0, 0, 1) J
      rw [hRJ] at this
      simpa [V3.dot] using this
    refine ⟨Real.arccos (R (0, 0, 1)).2.2, Real.arccos_nonneg _, Real.arccos_le_pi _, ?_, ?_⟩
    · rw [unit_cos _ hw1, eq_div_iff hlen.ne', hwJ]
    · rw [show c.alpha0 = _ from e2]
      exact unit_dir _ hw1
  · -- polarisation vector
    have hX : polarX incl phiRef =
        (-Real.cos incl * Real.sin phiRef, -Real.cos incl * Real.cos phiRef, Real.sin incl) := by
      simp [polarX, comb, dir, Real.sin_add, Real.cos_add, Real.cos_sub, Real.sin_sub]
    rw [hX]
    have hx1 := hRot.dot (-Real.cos incl * Real.sin phiRef, -Real.cos incl * Real.cos phiRef, Real.sin incl)
      (-Real.cos incl * Real.sin phiRef, -Real.cos incl * Real.cos phiRef, Real.sin incl)
    have hxN := hRot.dot (-Real.cos incl * Real.sin phiRef, -Real.cos incl * Real.cos phiRef, Real.sin incl)
      (losN incl phiRef)
    generalize R (-Real.cos incl * Real.sin phiRef, -Real.cos incl * Real.cos phiRef, Real.sin incl) = x
      at hx1 hxN e4 ⊢
    rw [hRN] at hxN
    have h1' : V3.dot x x = 1 := by
      rw [hx1]
      simp only [V3.dot]
      linear_combination Real.sin_sq_add_cos_sq incl + Real.cos incl ^ 2 * Real.sin_sq_add_cos_sq phiRef
    have h2' : V3.dot x (nx, 0, nz) = 0 := by
      rw [hxN]
      simp only [V3.dot, losN, dir, Real.cos_pi_div_two_sub, Real.sin_pi_div_two_sub]
      linear_combination -Real.cos incl * Real.sin incl * Real.sin_sq_add_cos_sq phiRef
    have hz : c.zeta_polariz = Jnp.arctan2 (x.1 * nz - x.2.2 * nx) (-x.2.1) := by
      rw [show c.zeta_polariz = _ from e4, hRN]
      congr 1 <;> ring
    have hd : dir c.thetaJN 0 = (nx, 0, nz) := by simp [dir, hcos, hsin]
    rw [hz, hd]
    exact pol_fact x hn h1' h2'

/-- In particular `thetaJN` is the angle between the line of sight and the total angular momentum. -/
theorem C58_angle (h1 : 0 < m1) (h2 : 0 < m2) (hf : 0 < f_ref) (hJ : totalJ gt m1 m2 f_ref s1 s2 ≠ 0) :
    Real.cos (conv m1 m2 f_ref phiRef incl s1 s2).thetaJN =
      V3.dot (lineOfSight incl phiRef) (totalJ gt m1 m2 f_ref s1 s2) / len (totalJ gt m1 m2 f_ref s1 s2) := by
  obtain ⟨-, -, -, -, -, R, hR, hRJ, hRN, -⟩ := C58_frame f_ref phiRef incl s1 s2 h1 h2 hf hJ
  have := hR.dot (lineOfSight incl phiRef) (totalJ gt m1 m2 f_ref s1 s2)
  rw [hRN, hRJ] at this
  simp only [V3.dot, dir] at this ⊢
  rw [← this]
  have := len_pos hJ
  field_simp
  ring

/-- The inclination is recovered from the angles returned by `convert_spins`: spherical triangle of the line of sight,
    the orbital and the total angular momentum. -/
theorem C58_triangle (h1 : 0 < m1) (h2 : 0 < m2) (hf : 0 < f_ref) (hJ : totalJ gt m1 m2 f_ref s1 s2 ≠ 0) :
    let J := totalJ gt m1 m2 f_ref s1 s2
    let c := conv m1 m2 f_ref phiRef incl s1 s2
    Real.cos incl = J.2.2 / len J * Real.cos c.thetaJN
      + Real.sqrt (J.1 ^ 2 + J.2.1 ^ 2) / len J * Real.sin c.thetaJN * Real.cos c.alpha0 := by
  intro J c
  obtain ⟨-, -, -, -, -, R, hR, hRJ, hRN, ⟨b, hb0, hb1, hb, hRz⟩, -⟩ :=
    C58_frame f_ref phiRef incl s1 s2 h1 h2 hf hJ
  have hlen := len_pos hJ
  have hsb : Real.sin b = Real.sqrt (J.1 ^ 2 + J.2.1 ^ 2) / len J := by
    have hs0 : 0 ≤ Real.sin b := Real.sin_nonneg_of_nonneg_of_le_pi hb0 hb1
    have hsq := len_sq J
    rw [← Real.sqrt_sq hlen.le, ← Real.sqrt_div (by positivity), ← Real.sqrt_sq hs0]
    congr 1
    rw [Real.sin_sq, hb]
    field_simp
    rw [show len J ^ 2 = _ from hsq]; ring
  have := hR.dot (lineOfSight incl phiRef) (0, 0, 1)
  rw [hRN, hRz] at this
  simp only [V3.dot, dir] at this
  simp only [Real.cos_zero, Real.sin_zero] at this
  rw [← hb, ← hsb]
  linarith

end

/-- the hypotheses are met: a 30+20 binary with a tilted spin -/
example : totalJ gt 20 30 20 (0, 0, 0.3) (0.4, 0, 0.2) ≠ 0 := by
  intro h
  have := congrArg (fun v : V3 => v.1) h
  simp [totalJ] at this
  norm_num at this

end Ripple
