/-
  Reverse-mode differentiation of `convert_spins`.
-/
import Verif.Proofs.AutodiffMass
import Verif.Proofs.AutodiffPeak
import Verif.Model.AutodiffPv2
import Verif.Proofs.Pv2Frame

namespace Ripple
namespace AD
open Classical Pv2

/-! ### Values -/

/-- the variable is not assigned by the program -/
def keeps : Prog → ℕ → Bool
  | [], _ => true
  | (d, _) :: p, i => i != d && keeps p i

lemma runR_keeps (i : ℕ) : ∀ (p : Prog) (ρ : ℕ → ℝ), keeps p i = true → runR ρ p i = ρ i := by
  intro p
  induction p with
  | nil => intro ρ _; rfl
  | cons x p ih =>
    obtain ⟨d, op⟩ := x
    intro ρ h
    simp only [keeps, Bool.and_eq_true, bne_iff_ne, ne_eq] at h
    exact (ih _ h.2).trans (Function.update_of_ne h.1 _ _)

/-- the two rotations with angles -/
noncomputable def turn (θ φ : ℝ) (v : V3) : V3 := ROTATEY (-θ) (ROTATEZ (-φ) v)

/-- the total angular momentum of the code -/
noncomputable def vJ (ρ : ℕ → ℝ) : V3 :=
  (ρ 0 * ρ 0 * ρ 5 + ρ 1 * ρ 1 * ρ 8, ρ 0 * ρ 0 * ρ 6 + ρ 1 * ρ 1 * ρ 9,
    (ρ 0 + ρ 1) * (ρ 0 + ρ 1) * L2PNR ((PI * ((ρ 0 + ρ 1) * gt) * ρ 2) ^ ((1 : ℝ) / 3)) (ρ 0 * ρ 1 / ((ρ 0 + ρ 1) * (ρ 0 + ρ 1)))
      + ρ 0 * ρ 0 * ρ 7 + ρ 1 * ρ 1 * ρ 10)

/-- the polar angle of the total angular momentum -/
noncomputable def vTh (ρ : ℕ → ℝ) : ℝ := Real.arccos ((vJ ρ).2.2 / V3.len (vJ ρ))

/-- the azimuth of the total angular momentum -/
noncomputable def vPh (ρ : ℕ → ℝ) : ℝ := Jnp.arctan2 (vJ ρ).2.1 (vJ ρ).1

/-- the line of sight -/
noncomputable def vN (ρ : ℕ → ℝ) : V3 := losN (ρ 4) (ρ 3)

lemma chip_val (ρ : ℕ → ℝ) : runR ρ chipProg 41 = max ((2 + 3 * ρ 1 / (2 * ρ 0)) * (ρ 0 * ρ 0 * Real.sqrt (ρ 5 ^ 2 + ρ 6 ^ 2)))
      ((2 + 3 * ρ 0 / (2 * ρ 1)) * (ρ 1 * ρ 1 * Real.sqrt (ρ 8 ^ 2 + ρ 9 ^ 2))) / ((2 + 3 * ρ 0 / (2 * ρ 1)) * (ρ 1 * ρ 1)) ∧
    runR ρ chipProg 11 = ρ 0 + ρ 1 ∧ runR ρ chipProg 12 = ρ 0 * ρ 0 ∧ runR ρ chipProg 13 = ρ 1 * ρ 1 ∧
    runR ρ chipProg 16 = ρ 0 * ρ 1 / ((ρ 0 + ρ 1) * (ρ 0 + ρ 1)) := by
  simp [chipProg, runR, Op.evalR, sq]

lemma j_val (σ : ℕ → ℝ) : runR σ jProg 76 = σ 12 * σ 5 + σ 13 * σ 8 ∧ runR σ jProg 79 = σ 12 * σ 6 + σ 13 * σ 9 ∧
    runR σ jProg 83 = σ 11 * σ 11 * L2PNR ((PI * (σ 11 * gt) * σ 2) ^ ((1 : ℝ) / 3)) (σ 16) + σ 12 * σ 7 + σ 13 * σ 10 := by
  unfold L2PNR
  simp [jProg, runR, Op.evalR, sq]

/-- the part of `jProg` up to the components of the angular momentum -/
noncomputable def jA : Prog := jProg.take 42
/-- the rest of `jProg` -/
def jB : Prog := [(84, .mul 76 76), (85, .mul 79 79), (86, .add 84 85), (87, .mul 83 83), (88, .add 86 87), (89, .sqrt 88),
   (90, .div 83 89), (91, .acos 90), (92, .atan2 79 76), (93, .neg 92)]

lemma j_split : jProg = jA ++ jB := rfl

lemma jA_val (σ : ℕ → ℝ) : runR σ jA 76 = σ 12 * σ 5 + σ 13 * σ 8 ∧ runR σ jA 79 = σ 12 * σ 6 + σ 13 * σ 9 ∧
    runR σ jA 83 = σ 11 * σ 11 * L2PNR ((PI * (σ 11 * gt) * σ 2) ^ ((1 : ℝ) / 3)) (σ 16) + σ 12 * σ 7 + σ 13 * σ 10 := by
  unfold L2PNR
  simp [jA, jProg, runR, Op.evalR, sq]

lemma jB_val (σ : ℕ → ℝ) : runR σ jB 91 = Real.arccos (σ 83 / V3.len (σ 76, σ 79, σ 83)) ∧
    runR σ jB 92 = Jnp.arctan2 (σ 79) (σ 76) ∧ runR σ jB 93 = -Jnp.arctan2 (σ 79) (σ 76) := by
  unfold V3.len V3.dot Jnp.arctan2
  simp [jB, runR, Op.evalR]

lemma kappa_val (σ : ℕ → ℝ) :
    runR σ kappaProg 128 = -Jnp.arctan2 (turn (σ 91) (σ 92) (vN σ)).2.1 (turn (σ 91) (σ 92) (vN σ)).1 ∧
    runR σ kappaProg 98 = (vN σ).1 ∧ runR σ kappaProg 102 = (vN σ).2.1 ∧ runR σ kappaProg 103 = (vN σ).2.2 := by
  unfold turn vN losN V3.dir Jnp.arctan2 ROTATEY ROTATEZ
  simp [kappaProg, rotZ, rotY, runR, Op.evalR, PI]

lemma ln_val (σ : ℕ → ℝ) : runR σ lnProg 159 = (ROTATEZ (σ 128) (turn (σ 91) (σ 92) (0, 0, 1))).1 ∧
    runR σ lnProg 164 = (ROTATEZ (σ 128) (turn (σ 91) (σ 92) (0, 0, 1))).2.1 := by
  unfold turn ROTATEY ROTATEZ
  simp [lnProg, rotZ, rotY, runR, Op.evalR]

lemma theta_val (σ : ℕ → ℝ) :
    runR σ thetaProg 193 = (ROTATEZ (σ 128) (turn (σ 91) (σ 92) (σ 98, σ 102, σ 103))).1 ∧
    runR σ thetaProg 188 = (ROTATEZ (σ 128) (turn (σ 91) (σ 92) (σ 98, σ 102, σ 103))).2.2 ∧
    runR σ thetaProg 199 = Real.arccos (ROTATEZ (σ 128) (turn (σ 91) (σ 92) (σ 98, σ 102, σ 103))).2.2 := by
  unfold turn ROTATEY ROTATEZ
  simp [thetaProg, rotZ, rotY, runR, Op.evalR]

/-- the first axis of the wave frame -/
noncomputable def vX (σ : ℕ → ℝ) : V3 := (-Real.cos (σ 4) * Real.sin (σ 3), -Real.cos (σ 4) * Real.cos (σ 3), Real.sin (σ 4))

lemma zeta_val (σ : ℕ → ℝ) : 
    let R := ROTATEZ (σ 128) (turn (σ 91) (σ 92) (vX σ))
    runR σ zetaProg 257 = Jnp.arctan2 (R.1 * σ 188 + R.2.1 * 0 + R.2.2 * -σ 193) (R.1 * 0 + R.2.1 * -1 + R.2.2 * 0) := by
  intro R
  simp only [R]
  unfold turn ROTATEY ROTATEZ vX Jnp.arctan2
  simp [zetaProg, rotZ, rotY, runR, Op.evalR]

/-! ### The stages of the program -/

/-- up to the direction of the angular momentum -/
noncomputable def headProg : Prog := chipProg ++ (jA ++ jB)

lemma convert_split : convertProg = headProg ++ (kappaProg ++ (lnProg ++ (alphaProg ++ (thetaProg ++ zetaProg)))) := rfl

lemma head_val (ρ : ℕ → ℝ) : runR ρ headProg 91 = vTh ρ ∧ runR ρ headProg 92 = vPh ρ ∧ runR ρ headProg 93 = -vPh ρ ∧
    runR ρ headProg 41 = runR ρ chipProg 41 ∧ runR ρ headProg 3 = ρ 3 ∧ runR ρ headProg 4 = ρ 4 := by
  obtain ⟨-, c11, c12, c13, c16⟩ := chip_val ρ
  have k : ∀ i, i ≤ 10 → runR ρ chipProg i = ρ i := fun i hi => runR_keeps i _ _ (by interval_cases i <;> decide +kernel)
  obtain ⟨a76, a79, a83⟩ := jA_val (runR ρ chipProg)
  rw [c11, c12, c13, c16, k 2 (by norm_num), k 7 (by norm_num), k 10 (by norm_num)] at a83
  rw [c12, c13, k 5 (by norm_num), k 8 (by norm_num)] at a76
  rw [c12, c13, k 6 (by norm_num), k 9 (by norm_num)] at a79
  obtain ⟨b91, b92, b93⟩ := jB_val (runR (runR ρ chipProg) jA)
  rw [a76, a79, a83] at b91
  rw [a76, a79] at b92 b93
  unfold headProg
  rw [runR_append, runR_append]
  refine ⟨b91, b92, b93, ?_, ?_, ?_⟩
  · rw [runR_keeps 41 jB _ (by decide +kernel), runR_keeps 41 jA _ (by decide +kernel)]
  · rw [runR_keeps 3 jB _ (by decide +kernel), runR_keeps 3 jA _ (by decide +kernel), k 3 (by norm_num)]
  · rw [runR_keeps 4 jB _ (by decide +kernel), runR_keeps 4 jA _ (by decide +kernel), k 4 (by norm_num)]

/-- what the later stages read -/
structure Stage (ρ σ : ℕ → ℝ) : Prop where
  s3 : σ 3 = ρ 3
  s4 : σ 4 = ρ 4
  s91 : σ 91 = vTh ρ
  s92 : σ 92 = vPh ρ

/-- and after the angle `kappa` -/
structure Stage' (ρ σ : ℕ → ℝ) : Prop extends Stage ρ σ where
  s128 : σ 128 = -Jnp.arctan2 (toJ (vJ ρ) (vN ρ)).2.1 (toJ (vJ ρ) (vN ρ)).1
  s98 : σ 98 = (vN ρ).1
  s102 : σ 102 = (vN ρ).2.1
  s103 : σ 103 = (vN ρ).2.2

lemma head_stage (ρ : ℕ → ℝ) : Stage ρ (runR ρ headProg) :=
  let h := head_val ρ
  ⟨h.2.2.2.2.1, h.2.2.2.2.2, h.1, h.2.1⟩

lemma Stage.keep {ρ σ : ℕ → ℝ} (h : Stage ρ σ) (p : Prog) (k : (keeps p 3 && keeps p 4 && keeps p 91 && keeps p 92) = true) :
    Stage ρ (runR σ p) := by
  simp only [Bool.and_eq_true] at k
  obtain ⟨⟨⟨k1, k2⟩, k3⟩, k4⟩ := k
  exact ⟨(runR_keeps _ _ _ k1).trans h.s3, (runR_keeps _ _ _ k2).trans h.s4, (runR_keeps _ _ _ k3).trans h.s91,
    (runR_keeps _ _ _ k4).trans h.s92⟩

lemma Stage'.keep {ρ σ : ℕ → ℝ} (h : Stage' ρ σ) (p : Prog) (k : (keeps p 3 && keeps p 4 && keeps p 91 && keeps p 92) = true)
    (k' : (keeps p 128 && keeps p 98 && keeps p 102 && keeps p 103) = true) : Stage' ρ (runR σ p) := by
  refine ⟨h.toStage.keep p k, ?_, ?_, ?_, ?_⟩ <;> simp only [Bool.and_eq_true] at k'
  · exact (runR_keeps _ _ _ k'.1.1.1).trans h.s128
  · exact (runR_keeps _ _ _ k'.1.1.2).trans h.s98
  · exact (runR_keeps _ _ _ k'.1.2).trans h.s102
  · exact (runR_keeps _ _ _ k'.2).trans h.s103

lemma Stage.los {ρ σ : ℕ → ℝ} (h : Stage ρ σ) : vN σ = vN ρ := by unfold vN; rw [h.s3, h.s4]

lemma Stage.wave {ρ σ : ℕ → ℝ} (h : Stage ρ σ) : vX σ = vX ρ := by unfold vX; rw [h.s3, h.s4]

lemma Stage.kappa {ρ σ : ℕ → ℝ} (h : Stage ρ σ) : Stage' ρ (runR σ kappaProg) := by
  obtain ⟨a, b, c, d⟩ := kappa_val σ
  rw [h.s91, h.s92, h.los] at a
  rw [h.los] at b c d
  exact ⟨h.keep _ (by decide +kernel), a, b, c, d⟩

lemma Stage'.ln {ρ σ : ℕ → ℝ} (h : Stage' ρ σ) : runR σ lnProg 159 = (toJN (vJ ρ) (vN ρ) (0, 0, 1)).1 ∧
    runR σ lnProg 164 = (toJN (vJ ρ) (vN ρ) (0, 0, 1)).2.1 := by
  have := ln_val σ
  rw [h.s91, h.s92, h.s128] at this
  exact this

lemma Stage'.theta {ρ σ : ℕ → ℝ} (h : Stage' ρ σ) : runR σ thetaProg 193 = (toJN (vJ ρ) (vN ρ) (vN ρ)).1 ∧
    runR σ thetaProg 188 = (toJN (vJ ρ) (vN ρ) (vN ρ)).2.2 ∧
    runR σ thetaProg 199 = Real.arccos (toJN (vJ ρ) (vN ρ) (vN ρ)).2.2 := by
  have := theta_val σ
  rw [h.s91, h.s92, h.s128, h.s98, h.s102, h.s103] at this
  exact this

lemma Stage'.zeta {ρ σ : ℕ → ℝ} (h : Stage' ρ σ) (h1 : σ 193 = (toJN (vJ ρ) (vN ρ) (vN ρ)).1)
    (h2 : σ 188 = (toJN (vJ ρ) (vN ρ) (vN ρ)).2.2) :
    let R := toJN (vJ ρ) (vN ρ)
    runR σ zetaProg 257 = Jnp.arctan2 ((R (vX ρ)).1 * (R (vN ρ)).2.2 + (R (vX ρ)).2.1 * 0 + (R (vX ρ)).2.2 * -(R (vN ρ)).1)
      ((R (vX ρ)).1 * 0 + (R (vX ρ)).2.1 * -1 + (R (vX ρ)).2.2 * 0) := by
  have := zeta_val σ
  rw [h.s91, h.s92, h.s128, h.wave, h1, h2] at this
  exact this

/-- the values of the program are those of `convert_spins` -/
lemma convert_runR (ρ : ℕ → ℝ) :
    let c := convert_spins (ρ 0) (ρ 1) (ρ 2) (ρ 3) (ρ 4) (ρ 5) (ρ 6) (ρ 7) (ρ 8) (ρ 9) (ρ 10)
    runR ρ convertProg 41 = c.chip ∧ runR ρ convertProg 199 = c.thetaJN ∧ runR ρ convertProg 165 = c.alpha0 ∧
      runR ρ convertProg 93 = c.phi_aligned ∧ runR ρ convertProg 257 = c.zeta_polariz := by
  intro c
  have S := head_stage ρ
  obtain ⟨-, -, h93, h41, -, -⟩ := head_val ρ
  have hc := (chip_val ρ).1
  rw [convert_split]
  simp only [runR_append]
  generalize runR ρ headProg = σ1 at *
  have S2 := S.kappa
  have k41 : runR σ1 kappaProg 41 = σ1 41 := runR_keeps _ _ _ (by decide +kernel)
  have k93 : runR σ1 kappaProg 93 = σ1 93 := runR_keeps _ _ _ (by decide +kernel)
  generalize runR σ1 kappaProg = σ2 at *
  obtain ⟨l1, l2⟩ := S2.ln
  have S3 := S2.keep lnProg (by decide +kernel) (by decide +kernel)
  have l41 : runR σ2 lnProg 41 = σ2 41 := runR_keeps _ _ _ (by decide +kernel)
  have l93 : runR σ2 lnProg 93 = σ2 93 := runR_keeps _ _ _ (by decide +kernel)
  generalize runR σ2 lnProg = σ3 at *
  have S4 := S3.keep alphaProg (by decide +kernel) (by decide +kernel)
  have a165 : runR σ3 alphaProg 165 = Jnp.arctan2 (σ3 164) (σ3 159) := by
    simp [alphaProg, runR, Op.evalR, Jnp.arctan2]
  have a41 : runR σ3 alphaProg 41 = σ3 41 := runR_keeps _ _ _ (by decide +kernel)
  have a93 : runR σ3 alphaProg 93 = σ3 93 := runR_keeps _ _ _ (by decide +kernel)
  generalize runR σ3 alphaProg = σ4 at *
  obtain ⟨t1, t2, t3⟩ := S4.theta
  have S5 := S4.keep thetaProg (by decide +kernel) (by decide +kernel)
  have t41 : runR σ4 thetaProg 41 = σ4 41 := runR_keeps _ _ _ (by decide +kernel)
  have t93 : runR σ4 thetaProg 93 = σ4 93 := runR_keeps _ _ _ (by decide +kernel)
  have t165 : runR σ4 thetaProg 165 = σ4 165 := runR_keeps _ _ _ (by decide +kernel)
  generalize runR σ4 thetaProg = σ5 at *
  have z := S5.zeta t1 t2
  have z41 : runR σ5 zetaProg 41 = σ5 41 := runR_keeps _ _ _ (by decide +kernel)
  have z93 : runR σ5 zetaProg 93 = σ5 93 := runR_keeps _ _ _ (by decide +kernel)
  have z165 : runR σ5 zetaProg 165 = σ5 165 := runR_keeps _ _ _ (by decide +kernel)
  have z199 : runR σ5 zetaProg 199 = σ5 199 := runR_keeps _ _ _ (by decide +kernel)
  refine ⟨?_, ?_, ?_, ?_, ?_⟩
  · rw [z41, t41, a41, l41, k41, h41, hc]; rfl
  · rw [z199, t3]; rfl
  · rw [z165, t165, a165, l1, l2]; rfl
  · rw [z93, t93, a93, l93, k93, h93]; rfl
  · rw [z]; rfl

/-! ### Regularity -/

/-- the point of the plane is not on the cut of `arctan2` -/
def OffCut (y x : ℝ) : Prop := 0 < x ∨ y ≠ 0

lemma turn_regular (σ : ℕ → ℝ) : Regular σ lnProg := by
  simp [lnProg, rotZ, rotY, Regular, Op.Regular]

lemma kappa_regular (σ : ℕ → ℝ) (h : OffCut (turn (σ 91) (σ 92) (vN σ)).2.1 (turn (σ 91) (σ 92) (vN σ)).1) :
    Regular σ kappaProg := by
  unfold OffCut turn vN losN V3.dir ROTATEY ROTATEZ at h
  simp at h
  simp [kappaProg, rotZ, rotY, Regular, Op.Regular, Op.evalR, PI]
  exact h

lemma theta_regular (σ : ℕ → ℝ) (h : -1 < (ROTATEZ (σ 128) (turn (σ 91) (σ 92) (σ 98, σ 102, σ 103))).2.2)
    (h' : (ROTATEZ (σ 128) (turn (σ 91) (σ 92) (σ 98, σ 102, σ 103))).2.2 < 1) : Regular σ thetaProg := by
  unfold turn ROTATEY ROTATEZ at h h'
  simp at h h'
  simp [thetaProg, rotZ, rotY, Regular, Op.Regular, Op.evalR]
  exact ⟨h, h'⟩

lemma zeta_regular (σ : ℕ → ℝ) (h : let R := ROTATEZ (σ 128) (turn (σ 91) (σ 92) (vX σ))
      OffCut (R.1 * σ 188 + R.2.1 * 0 + R.2.2 * -σ 193) (R.1 * 0 + R.2.1 * -1 + R.2.2 * 0)) : Regular σ zetaProg := by
  unfold OffCut turn ROTATEY ROTATEZ vX at h
  simp at h
  simp [zetaProg, rotZ, rotY, Regular, Op.Regular, Op.evalR]
  exact h

lemma chip_regular {ρ : ℕ → ℝ} (h0 : 0 < ρ 0) (h1 : 0 < ρ 1) (p1 : 0 < ρ 5 ^ 2 + ρ 6 ^ 2) (p2 : 0 < ρ 8 ^ 2 + ρ 9 ^ 2)
    (hm : (2 + 3 * ρ 1 / (2 * ρ 0)) * (ρ 0 * ρ 0 * Real.sqrt (ρ 5 ^ 2 + ρ 6 ^ 2)) ≠
      (2 + 3 * ρ 0 / (2 * ρ 1)) * (ρ 1 * ρ 1 * Real.sqrt (ρ 8 ^ 2 + ρ 9 ^ 2))) : Regular ρ chipProg := by
  have e : 2 + 3 * ρ 0 / (2 * ρ 1) ≠ 0 := by positivity
  simp only [sq] at p1 p2 hm
  simp [chipProg, Regular, Op.Regular, Op.evalR, p1, p2, hm, e, h0.ne', h1.ne', (add_pos h0 h1).ne']

lemma jA_regular {σ : ℕ → ℝ} (h11 : 0 < σ 11) (h2 : 0 < σ 2) : Regular σ jA := by
  have g := gt_pos
  have p : 0 < PI := Real.pi_pos
  have a : 0 < PI * (σ 11 * gt) * σ 2 := by positivity
  have b : 0 < (PI * (σ 11 * gt) * σ 2) ^ ((3 : ℝ)⁻¹) := Real.rpow_pos_of_pos a _
  have b' := mul_pos b b
  have c := Real.rpow_pos_of_pos b' 0.5
  simp [jA, jProg, Regular, Op.Regular, Op.evalR, a, b', c.ne']

lemma jB_regular {σ : ℕ → ℝ} (h : OffCut (σ 79) (σ 76)) : Regular σ jB := by
  have p : 0 < σ 76 * σ 76 + σ 79 * σ 79 := by
    rcases h with h | h
    · nlinarith [mul_self_nonneg (σ 79), mul_pos h h]
    · nlinarith [mul_self_nonneg (σ 76), mul_self_pos.2 h]
  have q : 0 < σ 76 * σ 76 + σ 79 * σ 79 + σ 83 * σ 83 := by nlinarith [mul_self_nonneg (σ 83)]
  have s := Real.sqrt_pos.2 q
  have e := Real.mul_self_sqrt q.le
  have r : |σ 83| < Real.sqrt (σ 76 * σ 76 + σ 79 * σ 79 + σ 83 * σ 83) := by
    apply abs_lt_of_sq_lt_sq _ s.le
    nlinarith
  rw [abs_lt] at r
  simp [jB, Regular, Op.Regular, Op.evalR, q, s.ne']
  refine ⟨⟨?_, ?_⟩, h⟩
  · rw [lt_div_iff₀ s]; linarith [r.1]
  · rw [div_lt_iff₀ s]; linarith [r.2]

/-! ### Values without derivatives -/

/-- an operation has a finite value -/
def Op.Defined (ρ : ℕ → ℝ) : Op → Prop
  | .div _ b => ρ b ≠ 0
  | .sqrt a => 0 ≤ ρ a
  | .powf a _ => 0 ≤ ρ a
  | .acos a => -1 ≤ ρ a ∧ ρ a ≤ 1
  | _ => True

/-- every operation of the program has a finite value -/
def Defined (ρ : ℕ → ℝ) : Prog → Prop
  | [] => True
  | (d, op) :: p => op.Defined ρ ∧ Defined (Function.update ρ d (op.evalR ρ)) p

lemma Regular.defined : ∀ {p : Prog} {ρ : ℕ → ℝ}, Regular ρ p → Defined ρ p := by
  intro p
  induction p with
  | nil => intro ρ _; trivial
  | cons x p ih =>
    obtain ⟨d, op⟩ := x
    intro ρ h
    refine ⟨?_, ih h.2⟩
    have := h.1
    cases op with
    | div a b => exact this
    | sqrt a => exact le_of_lt this
    | powf a p => exact le_of_lt this
    | acos a => exact ⟨this.1.le, this.2.le⟩
    | _ => trivial

lemma eval_defined {ρ : ℕ → ℝ} {op : Op} (h : op.Defined ρ) : op.eval (fun i => .fin (ρ i)) = .fin (op.evalR ρ) := by
  cases op with
  | div a b => exact XR.div_fin _ h
  | sqrt a => exact XR.sqrt_fin h
  | powf a p => simp [Op.eval, Op.evalR, XR.powFrac, not_lt.2 (show 0 ≤ ρ a from h)]
  | whereLe c k a b => by_cases l : ρ c ≤ k <;> simp [Op.eval, Op.evalR, xle, l]
  | acos a => simp [Op.eval, Op.evalR, xacos, (show -1 ≤ ρ a ∧ ρ a ≤ 1 from h).1, (show -1 ≤ ρ a ∧ ρ a ≤ 1 from h).2]
  | max a b =>
    by_cases l : ρ a < ρ b
    · simp [Op.eval, Op.evalR, xmax, XR.lt, l, l.le]
    · simp [Op.eval, Op.evalR, xmax, XR.lt, l, not_lt.1 l]
  | prim a f => simp [Op.eval, Op.evalR, toReal]
  | _ => simp [Op.eval, Op.evalR, xabs, XR.exp, xtrig, xatan2]

lemma run_defined : ∀ (p : Prog) {ρ : ℕ → ℝ}, Defined ρ p → run (fun i => .fin (ρ i)) p = fun i => .fin (runR ρ p i) := by
  intro p
  induction p with
  | nil => intro ρ _; rfl
  | cons x p ih =>
    obtain ⟨d, op⟩ := x
    intro ρ h
    have e : Function.update (fun i => XR.fin (ρ i)) d (op.eval fun i => .fin (ρ i)) =
        fun i => .fin (Function.update ρ d (op.evalR ρ) i) := by
      ext i
      rw [eval_defined h.1]
      by_cases k : i = d
      · subst k; simp
      · simp [k]
    show run (Function.update _ d _) p = _
    rw [e]
    exact ih h.2

lemma defined_append (p q : Prog) : ∀ ρ : ℕ → ℝ, Defined ρ (p ++ q) ↔ Defined ρ p ∧ Defined (runR ρ p) q := by
  induction p with
  | nil => intro ρ; simp [Defined, runR]
  | cons x p ih => intro ρ; simp only [List.cons_append, runR, Defined]; rw [ih]; exact and_assoc.symm

lemma chip_defined {ρ : ℕ → ℝ} (h0 : 0 < ρ 0) (h1 : 0 < ρ 1) : Defined ρ chipProg := by
  have e : 2 + 3 * ρ 0 / (2 * ρ 1) ≠ 0 := by positivity
  have p1 : 0 ≤ ρ 5 * ρ 5 + ρ 6 * ρ 6 := add_nonneg (mul_self_nonneg _) (mul_self_nonneg _)
  have p2 : 0 ≤ ρ 8 * ρ 8 + ρ 9 * ρ 9 := add_nonneg (mul_self_nonneg _) (mul_self_nonneg _)
  simp [chipProg, Defined, Op.Defined, Op.evalR, p1, p2, e, h0.ne', h1.ne', (add_pos h0 h1).ne']

lemma jB_defined {σ : ℕ → ℝ} (h : 0 < σ 76 * σ 76 + σ 79 * σ 79 + σ 83 * σ 83) : Defined σ jB := by
  have s := Real.sqrt_pos.2 h
  have e := Real.mul_self_sqrt h.le
  have r : |σ 83| ≤ Real.sqrt (σ 76 * σ 76 + σ 79 * σ 79 + σ 83 * σ 83) := by
    apply abs_le_of_sq_le_sq _ s.le
    nlinarith [mul_self_nonneg (σ 76), mul_self_nonneg (σ 79)]
  rw [abs_le] at r
  simp [jB, Defined, Op.Defined, Op.evalR, h.le, s.ne']
  constructor
  · rw [le_div_iff₀ s]; linarith [r.1]
  · rw [div_le_iff₀ s]; linarith [r.2]

lemma kappa_defined (σ : ℕ → ℝ) : Defined σ kappaProg := by
  simp [kappaProg, rotZ, rotY, Defined, Op.Defined]

/-! ### Generic binaries -/

/-- what the regularity of `convert_spins` rests on -/
structure Generic (ρ : ℕ → ℝ) : Prop where
  m1 : 0 < ρ 0
  m2 : 0 < ρ 1
  f_ref : 0 < ρ 2
  plane1 : 0 < ρ 5 ^ 2 + ρ 6 ^ 2
  plane2 : 0 < ρ 8 ^ 2 + ρ 9 ^ 2
  ne : (2 + 3 * ρ 1 / (2 * ρ 0)) * (ρ 0 * ρ 0 * Real.sqrt (ρ 5 ^ 2 + ρ 6 ^ 2)) ≠
      (2 + 3 * ρ 0 / (2 * ρ 1)) * (ρ 1 * ρ 1 * Real.sqrt (ρ 8 ^ 2 + ρ 9 ^ 2))
  cutJ : OffCut (vJ ρ).2.1 (vJ ρ).1
  cutN : OffCut (toJ (vJ ρ) (vN ρ)).2.1 (toJ (vJ ρ) (vN ρ)).1
  cutL : OffCut (toJN (vJ ρ) (vN ρ) (0, 0, 1)).2.1 (toJN (vJ ρ) (vN ρ) (0, 0, 1)).1
  cutX : let R := toJN (vJ ρ) (vN ρ)
    OffCut ((R (vX ρ)).1 * (R (vN ρ)).2.2 + (R (vX ρ)).2.1 * 0 + (R (vX ρ)).2.2 * -(R (vN ρ)).1)
      ((R (vX ρ)).1 * 0 + (R (vX ρ)).2.1 * -1 + (R (vX ρ)).2.2 * 0)

lemma jA_J (ρ : ℕ → ℝ) : runR (runR ρ chipProg) jA 76 = (vJ ρ).1 ∧ runR (runR ρ chipProg) jA 79 = (vJ ρ).2.1 ∧
    runR (runR ρ chipProg) jA 83 = (vJ ρ).2.2 := by
  obtain ⟨-, c11, c12, c13, c16⟩ := chip_val ρ
  have k : ∀ i, i ≤ 10 → runR ρ chipProg i = ρ i := fun i hi => runR_keeps i _ _ (by interval_cases i <;> decide +kernel)
  obtain ⟨a76, a79, a83⟩ := jA_val (runR ρ chipProg)
  rw [c11, c12, c13, c16, k 2 (by norm_num), k 7 (by norm_num), k 10 (by norm_num)] at a83
  rw [c12, c13, k 5 (by norm_num), k 8 (by norm_num)] at a76
  rw [c12, c13, k 6 (by norm_num), k 9 (by norm_num)] at a79
  exact ⟨a76, a79, a83⟩

lemma vN_unit (ρ : ℕ → ℝ) : V3.dot (vN ρ) (vN ρ) = 1 := by
  unfold vN losN V3.dir V3.dot
  nlinarith [Real.sin_sq_add_cos_sq (ρ 4), Real.sin_sq_add_cos_sq (Real.pi / 2 - ρ 3)]

lemma los_z {ρ : ℕ → ℝ} (h : OffCut (toJ (vJ ρ) (vN ρ)).2.1 (toJ (vJ ρ) (vN ρ)).1) :
    -1 < (toJN (vJ ρ) (vN ρ) (vN ρ)).2.2 ∧ (toJN (vJ ρ) (vN ρ) (vN ρ)).2.2 < 1 := by
  have e : V3.dot (toJ (vJ ρ) (vN ρ)) (toJ (vJ ρ) (vN ρ)) = 1 := by rw [(toJ_isRotation _).dot, vN_unit]
  rw [toJN_N]
  generalize toJ (vJ ρ) (vN ρ) = w at *
  unfold V3.dot at e
  show -1 < w.2.2 ∧ w.2.2 < 1
  have p : 0 < w.1 * w.1 + w.2.1 * w.2.1 := by
    rcases h with h | h
    · nlinarith [mul_self_nonneg w.2.1, mul_pos h h]
    · nlinarith [mul_self_nonneg w.1, mul_self_pos.2 h]
  constructor <;> nlinarith

lemma convert_regular {ρ : ℕ → ℝ} (h : Generic ρ) : Regular ρ convertProg := by
  have S := head_stage ρ
  have hh : Regular ρ headProg := by
    unfold headProg
    rw [regular_append, regular_append]
    refine ⟨chip_regular h.m1 h.m2 h.plane1 h.plane2 h.ne, jA_regular ?_ ?_, jB_regular ?_⟩
    · rw [(chip_val ρ).2.1]; exact add_pos h.m1 h.m2
    · rw [runR_keeps 2 _ _ (by decide +kernel)]; exact h.f_ref
    · rw [(jA_J ρ).1, (jA_J ρ).2.1]; exact h.cutJ
  rw [convert_split]
  simp only [regular_append]
  refine ⟨hh, ?_⟩
  generalize runR ρ headProg = σ1 at *
  refine ⟨kappa_regular σ1 (by rw [S.s91, S.s92, S.los]; exact h.cutN), ?_⟩
  have S2 := S.kappa
  generalize runR σ1 kappaProg = σ2 at *
  refine ⟨turn_regular σ2, ?_⟩
  obtain ⟨l1, l2⟩ := S2.ln
  have S3 := S2.keep lnProg (by decide +kernel) (by decide +kernel)
  generalize runR σ2 lnProg = σ3 at *
  refine ⟨?_, ?_⟩
  · simp only [alphaProg, Regular, Op.Regular, and_true]
    rw [l1, l2]; exact h.cutL
  have S4 := S3.keep alphaProg (by decide +kernel) (by decide +kernel)
  generalize runR σ3 alphaProg = σ4 at *
  obtain ⟨t1, t2, t3⟩ := S4.theta
  have S5 := S4.keep thetaProg (by decide +kernel) (by decide +kernel)
  have z := los_z h.cutN
  refine ⟨theta_regular σ4 ?_ ?_, zeta_regular _ ?_⟩
  · rw [S4.s91, S4.s92, S4.s128, S4.s98, S4.s102, S4.s103]; exact z.1
  · rw [S4.s91, S4.s92, S4.s128, S4.s98, S4.s102, S4.s103]; exact z.2
  · generalize runR σ4 thetaProg = σ5 at *
    simp only [S5.s91, S5.s92, S5.s128, S5.wave, t1, t2]
    exact h.cutX

/-! ### Aligned spins -/

lemma aligned_J {ρ : ℕ → ℝ} (p5 : ρ 5 = 0) (p6 : ρ 6 = 0) (p8 : ρ 8 = 0) (p9 : ρ 9 = 0) (hz : 0 < (vJ ρ).2.2) :
    vTh ρ = 0 ∧ vPh ρ = 0 ∧ (vJ ρ).1 = 0 ∧ (vJ ρ).2.1 = 0 := by
  have e1 : (vJ ρ).1 = 0 := by simp [vJ, p5, p8]
  have e2 : (vJ ρ).2.1 = 0 := by simp [vJ, p6, p9]
  refine ⟨?_, ?_, e1, e2⟩
  · unfold vTh V3.len V3.dot
    rw [e1, e2]
    have : Real.sqrt (0 * 0 + 0 * 0 + (vJ ρ).2.2 * (vJ ρ).2.2) = (vJ ρ).2.2 := by
      rw [show (0 : ℝ) * 0 + 0 * 0 + (vJ ρ).2.2 * (vJ ρ).2.2 = (vJ ρ).2.2 ^ 2 by ring, Real.sqrt_sq hz.le]
    rw [this, div_self hz.ne', Real.arccos_one]
  · unfold vPh
    rw [e1, e2, arctan2_zero]

/-- for aligned spins the cotangents of all inputs are nan, whatever is computed from `alpha0` -/
lemma aligned_nan {ρ : ℕ → ℝ} (h0 : 0 < ρ 0) (h1 : 0 < ρ 1) (h2 : 0 < ρ 2) (p5 : ρ 5 = 0) (p6 : ρ 6 = 0) (p8 : ρ 8 = 0)
    (p9 : ρ 9 = 0) (hz : 0 < (vJ ρ).2.2) {ct : Cot} (hl : Live (ct 165)) (i : ℕ) (hi : i ≤ 10) :
    back (fun i => .fin (ρ i)) convertProg ct i = some .nan := by
  obtain ⟨ht, hp, j1, j2⟩ := aligned_J p5 p6 p8 p9 hz
  have S := head_stage ρ
  obtain ⟨a1, a2, a3⟩ := jA_J ρ
  have hd : Defined ρ (headProg ++ (kappaProg ++ lnProg)) := by
    unfold headProg
    simp only [defined_append]
    refine ⟨⟨chip_defined h0 h1, (jA_regular ?_ ?_).defined, jB_defined ?_⟩, kappa_defined _, (turn_regular _).defined⟩
    · rw [(chip_val ρ).2.1]; exact add_pos h0 h1
    · rw [runR_keeps 2 _ _ (by decide +kernel)]; exact h2
    · rw [a1, a2, a3]
      nlinarith [mul_self_nonneg (vJ ρ).1, mul_self_nonneg (vJ ρ).2.1, mul_pos hz hz]
  have hr := run_defined _ hd
  have v : runR ρ (headProg ++ (kappaProg ++ lnProg)) 159 = 0 ∧ runR ρ (headProg ++ (kappaProg ++ lnProg)) 164 = 0 := by
    rw [runR_append, runR_append]
    obtain ⟨u, w⟩ := S.kappa.ln
    rw [u, w]
    have : toJ (vJ ρ) (0, 0, 1) = (0, 0, 1) := by
      show ROTATEY (-vTh ρ) (ROTATEZ (-vPh ρ) (0, 0, 1)) = _
      rw [ht, hp]
      simp [ROTATEY, ROTATEZ]
    unfold toJN
    rw [this]
    simp [ROTATEZ]
  have e : convertProg = (headProg ++ (kappaProg ++ lnProg)) ++ (alphaProg ++ (thetaProg ++ zetaProg)) := by
    rw [convert_split]; simp only [List.append_assoc]
  rw [e, back_append, hr, back_append alphaProg]
  have L : Live (back (run (fun i => .fin (runR ρ (headProg ++ (kappaProg ++ lnProg)) i)) alphaProg)
      (thetaProg ++ zetaProg) ct 165) := by
    refine back_live (fun i => i == 165) _ _ ct (fun i hi => ?_) 165 (by decide +kernel)
    rw [beq_iff_eq] at hi; rw [hi]; exact hl
  obtain ⟨g, hg⟩ := Option.ne_none_iff_exists'.1 L
  generalize back (run (fun i => .fin (runR ρ (headProg ++ (kappaProg ++ lnProg)) i)) alphaProg) (thetaProg ++ zetaProg) ct = c at *
  have q : XR.fin 0 / XR.fin 0 = .nan := by
    show XR.div _ _ = _
    simp [XR.div]
  have n : back (fun i => .fin (runR ρ (headProg ++ (kappaProg ++ lnProg)) i)) alphaProg c 164 = some .nan := by
    show pullStep _ _ _ _ 164 = _
    simp only [back, pullStep, hg, Op.pull, v.1, v.2]
    refine addAll_nan _ _ _ (Or.inr ?_)
    simp [q]
  refine back_nan (fun i => i == 164) _ _ _ (fun i hi => ?_) i (by interval_cases i <;> decide +kernel)
  rw [beq_iff_eq] at hi; rw [hi]; exact n

/-! ### One body without in-plane spin -/

/-- infinite or nan -/
def Bad (x : XR) : Prop := x = .nan ∨ x = .pinf ∨ x = .ninf

lemma bad_add (y : XR) {x : XR} (h : Bad x) : Bad (y + x) := by
  unfold Bad at *
  rcases h with rfl | rfl | rfl <;> cases y
  all_goals first | exact Or.inl rfl | exact Or.inr (Or.inl rfl) | exact Or.inr (Or.inr rfl)

lemma bad_mul {x : XR} (h : Bad x) : x * (XR.fin 2 * XR.fin 0) = .nan := by
  rw [XR.mul_fin, mul_zero]
  rcases h with rfl | rfl | rfl
  · rfl
  · show XR.infMul 0 = _; simp [XR.infMul]
  · show XR.infMul (-0) = _; simp [XR.infMul]

lemma add_bad (ct : Cot) (i : ℕ) {x : XR} (h : Bad x) : ∃ z, ct.add i x i = some z ∧ Bad z := by
  unfold Cot.add
  rw [Function.update_self]
  cases ct i with
  | none => exact ⟨x, rfl, h⟩
  | some y => exact ⟨y + x, rfl, bad_add y h⟩

lemma add_other (ct : Cot) {i j : ℕ} (x : XR) (h : j ≠ i) : ct.add i x j = ct j := by
  unfold Cot.add
  rw [Function.update_of_ne h]

/-- the length of a vanishing in-plane spin -/
lemma perp_nan (env : ℕ → XR) {a b n : ℕ} (hab : a < n) (hbn : b < n) (ha : env a = .fin 0) (hb : env b = .fin 0) (ct : Cot)
    (hl : Live (ct (n + 3))) :
    back env [(n, .square a), (n + 1, .square b), (n + 2, .add n (n + 1)), (n + 3, .sqrt (n + 2))] ct a = some .nan ∧
    back env [(n, .square a), (n + 1, .square b), (n + 2, .add n (n + 1)), (n + 3, .sqrt (n + 2))] ct b = some .nan := by
  obtain ⟨g, hg⟩ := Option.ne_none_iff_exists'.1 hl
  have z0 : XR.fin 0 * XR.fin 0 = .fin 0 := by rw [XR.mul_fin, mul_zero]
  have z1 : XR.fin 0 + XR.fin 0 = .fin 0 := by rw [XR.add_fin, add_zero]
  have hs : XR.sqrt (.fin 0) = .fin 0 := by rw [XR.sqrt_fin le_rfl, Real.sqrt_zero]
  have hq : XR.fin 0.5 / XR.fin 0 = .pinf := XR.div_fin_zero_pos (by norm_num)
  have A : ∀ x, Function.update env n x a = env a := fun x => Function.update_of_ne (by omega) _ _
  have B : ∀ x, Function.update env n x b = env b := fun x => Function.update_of_ne (by omega) _ _
  simp only [back, Op.eval, ha, hb, B, z0]
  rw [Function.update_self, Function.update_of_ne (show n ≠ n + 1 by omega), Function.update_self, z1]
  -- the square root
  obtain ⟨z, c1, hz⟩ : ∃ z, pullStep (Function.update (Function.update (Function.update env n (XR.fin 0)) (n + 1) (XR.fin 0))
      (n + 2) (XR.fin 0)) (n + 3) (.sqrt (n + 2)) ct (n + 2) = some z ∧ Bad z := by
    unfold pullStep
    rw [hg]
    simp only [Op.pull, Op.eval, Function.update_self, hs, hq]
    exact add_bad _ _ (mulInf_cases g)
  generalize pullStep (Function.update (Function.update (Function.update env n (XR.fin 0)) (n + 1) (XR.fin 0))
      (n + 2) (XR.fin 0)) (n + 3) (.sqrt (n + 2)) ct = ct1 at *
  -- the sum
  obtain ⟨⟨z2, c2, hz2⟩, z3, c3, hz3⟩ : (∃ z, pullStep (Function.update (Function.update env n (XR.fin 0)) (n + 1) (XR.fin 0))
      (n + 2) (.add n (n + 1)) ct1 n = some z ∧ Bad z) ∧ ∃ z, pullStep (Function.update (Function.update env n (XR.fin 0)) (n + 1)
        (XR.fin 0)) (n + 2) (.add n (n + 1)) ct1 (n + 1) = some z ∧ Bad z := by
    unfold pullStep
    rw [c1]
    simp only [Op.pull, Cot.addAll, List.foldl]
    refine ⟨?_, add_bad _ _ hz⟩
    rw [add_other _ _ (show n ≠ n + 1 by omega)]
    exact add_bad _ _ hz
  generalize pullStep (Function.update (Function.update env n (XR.fin 0)) (n + 1) (XR.fin 0)) (n + 2) (.add n (n + 1)) ct1 = ct2 at *
  -- the squares
  have q1 : pullStep (Function.update env n (XR.fin 0)) (n + 1) (.square b) ct2 b = some .nan := by
    unfold pullStep
    rw [c3]
    refine addAll_nan _ _ _ (Or.inr ?_)
    simp only [Op.pull, B, hb, bad_mul hz3, List.mem_singleton]
  have q2 : pullStep (Function.update env n (XR.fin 0)) (n + 1) (.square b) ct2 n = some z2 := by
    unfold pullStep
    rw [c3]
    simp only [Op.pull, Cot.addAll, List.foldl]
    rw [add_other _ _ (show n ≠ b by omega), Function.update_of_ne (show n ≠ n + 1 by omega), c2]
  generalize pullStep (Function.update env n (XR.fin 0)) (n + 1) (.square b) ct2 = ct3 at *
  unfold pullStep
  rw [q2]
  refine ⟨addAll_nan _ _ _ (Or.inr ?_), addAll_nan _ _ _ (Or.inl ?_)⟩
  · simp only [Op.pull, ha, bad_mul hz2, List.mem_singleton]
  · rw [Function.update_of_ne (show b ≠ n by omega)]; exact q1

lemma keeps_run (i : ℕ) : ∀ (p : Prog) (env : ℕ → XR), keeps p i = true → run env p i = env i := by
  intro p
  induction p with
  | nil => intro env _; rfl
  | cons x p ih =>
    obtain ⟨d, op⟩ := x
    intro env h
    simp only [keeps, Bool.and_eq_true, bne_iff_ne, ne_eq] at h
    exact (ih _ h.2).trans (Function.update_of_ne h.1 _ _)

/-- what comes before and after the length of the first in-plane spin -/
def c1A : Prog := chipProg.take 6
noncomputable def c1B : Prog := chipProg.drop 10 ++ (jProg ++ (kappaProg ++ (lnProg ++ (alphaProg ++ (thetaProg ++ zetaProg)))))
/-- and of the second -/
def c2A : Prog := chipProg.take 11
noncomputable def c2B : Prog := chipProg.drop 15 ++ (jProg ++ (kappaProg ++ (lnProg ++ (alphaProg ++ (thetaProg ++ zetaProg)))))

lemma single1_nan {env : ℕ → XR} (p5 : env 5 = .fin 0) (p6 : env 6 = .fin 0) {ct : Cot} (hl : Live (ct 41)) :
    back env convertProg ct 5 = some .nan ∧ back env convertProg ct 6 = some .nan := by
  have e : convertProg = c1A ++ ([(17, .square 5), (18, .square 6), (19, .add 17 18), (20, .sqrt 19)] ++ c1B) := rfl
  rw [e, back_append, back_append [(17, .square 5), (18, .square 6), (19, .add 17 18), (20, .sqrt 19)]]
  have L := fun env => back_live (fun i => i == 41) c1B env ct (fun i hi => by rw [beq_iff_eq] at hi; rw [hi]; exact hl) 20
    (by decide +kernel)
  obtain ⟨a, b⟩ := perp_nan (run env c1A) (a := 5) (b := 6) (n := 17) (by norm_num) (by norm_num)
    (by rw [keeps_run 5 _ _ (by decide +kernel)]; exact p5) (by rw [keeps_run 6 _ _ (by decide +kernel)]; exact p6) _
    (L (run (run env c1A) [(17, .square 5), (18, .square 6), (19, .add 17 18), (20, .sqrt 19)]))
  constructor
  · exact back_nan (fun i => i == 5) _ _ _ (fun i hi => by rw [beq_iff_eq] at hi; rw [hi]; exact a) 5 (by decide +kernel)
  · exact back_nan (fun i => i == 6) _ _ _ (fun i hi => by rw [beq_iff_eq] at hi; rw [hi]; exact b) 6 (by decide +kernel)

lemma single2_nan {env : ℕ → XR} (p8 : env 8 = .fin 0) (p9 : env 9 = .fin 0) {ct : Cot} (hl : Live (ct 41)) :
    back env convertProg ct 8 = some .nan ∧ back env convertProg ct 9 = some .nan := by
  have e : convertProg = c2A ++ ([(22, .square 8), (23, .square 9), (24, .add 22 23), (25, .sqrt 24)] ++ c2B) := rfl
  rw [e, back_append, back_append [(22, .square 8), (23, .square 9), (24, .add 22 23), (25, .sqrt 24)]]
  have L := fun env => back_live (fun i => i == 41) c2B env ct (fun i hi => by rw [beq_iff_eq] at hi; rw [hi]; exact hl) 25
    (by decide +kernel)
  obtain ⟨a, b⟩ := perp_nan (run env c2A) (a := 8) (b := 9) (n := 22) (by norm_num) (by norm_num)
    (by rw [keeps_run 8 _ _ (by decide +kernel)]; exact p8) (by rw [keeps_run 9 _ _ (by decide +kernel)]; exact p9) _
    (L (run (run env c2A) [(22, .square 8), (23, .square 9), (24, .add 22 23), (25, .sqrt 24)]))
  constructor
  · exact back_nan (fun i => i == 8) _ _ _ (fun i hi => by rw [beq_iff_eq] at hi; rw [hi]; exact a) 8 (by decide +kernel)
  · exact back_nan (fun i => i == 9) _ _ _ (fun i hi => by rw [beq_iff_eq] at hi; rw [hi]; exact b) 9 (by decide +kernel)

end AD
end Ripple
