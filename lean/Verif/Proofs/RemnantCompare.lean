/-
  The remnant fits of PhenomD and IMRPhenomXAS compared over all physical binaries (interval branch and bound).
-/
import Verif.Proofs.XASPhys
import Verif.Prelude.AffineTac
import Verif.Proofs.Remnant
import Mathlib.Analysis.Calculus.MeanValue
import Mathlib.Analysis.Calculus.Deriv.Inv

namespace Ripple
open XAS PhenomD

/-! ### remnant spin -/

lemma dSpin_hi (e S T : ℝ) (he : 0 ≤ e ∧ e ≤ 0.25) (hS : -1 ≤ S ∧ S ≤ 1) (hT : T = S * (1 - 2 * e)) :
    0 < 0.02 - e * (sK e + S * (sn1 e + S * (sn2 e + S * sn3 e)) / (1 + skk e * S) - spinR e T) := by
  rw [spinR_horner]
  unfold sK sn1 sn2 sn3 skk
  affine_bnb [he, hS] [hT]

lemma dSpin_lo (e S T : ℝ) (he : 0 ≤ e ∧ e ≤ 0.25) (hS : -1 ≤ S ∧ S ≤ 1) (hT : T = S * (1 - 2 * e)) :
    0 < 0.02 + e * (sK e + S * (sn1 e + S * (sn2 e + S * sn3 e)) / (1 + skk e * S) - spinR e T) := by
  rw [spinR_horner]
  unfold sK sn1 sn2 sn3 skk
  affine_bnb [he, hS] [hT]

lemma dSpin0_hi (e : ℝ) (he : 0 ≤ e ∧ e ≤ 0.25) : 0 < 0.0005 - e * (sK e - spinR e 0) := by
  rw [spinR_horner]
  unfold sK
  affine_bnb [he] []

lemma dSpin0_lo (e : ℝ) (he : 0 ≤ e ∧ e ≤ 0.25) : 0 < 0.0005 + e * (sK e - spinR e 0) := by
  rw [spinR_horner]
  unfold sK
  affine_bnb [he] []

/-- contribution of the spin difference `x` -/
lemma uSpin_hi (d x S e : ℝ) (hd : 0 ≤ d ∧ d ≤ 1) (hx : -2 ≤ x ∧ x ≤ 2) (hS : -1 ≤ S ∧ S ≤ 1) (he : e = (1 - d) * (1 + d) / 4) :
    0 < 0.05 - e * (x * d * (e * sD e S) - 0.059808322561702126 * x ^ 2 * e ^ 2) := by
  unfold sD
  affine_bnb [hd, hx, hS] [he]

lemma uSpin_lo (d x S e : ℝ) (hd : 0 ≤ d ∧ d ≤ 1) (hx : -2 ≤ x ∧ x ≤ 2) (hS : -1 ≤ S ∧ S ≤ 1) (he : e = (1 - d) * (1 + d) / 4) :
    0 < 0.05 + e * (x * d * (e * sD e S) - 0.059808322561702126 * x ^ 2 * e ^ 2) := by
  unfold sD
  affine_bnb [hd, hx, hS] [he]

/-! ### radiated energy -/

/-- radiated energy of PhenomD over eta -/
noncomputable def eradD (e S : ℝ) : ℝ :=
  (0.055974469826360077 + e * (0.5809510763115132 + e * (-0.9606726679372312 + e * 3.352411249771192))) *
    (1 + (-0.0030302335878845507 - 2.0066110851351073 * e + 7.7050567802399215 * e ^ 2) * S) /
    (1 + (-0.6714403054720589 - 1.4756929437702908 * e + 7.304676214885011 * e ^ 2) * S)

lemma eradD_eq (e S : ℝ) : EradRational0815_s e S = e * eradD e S := by
  unfold EradRational0815_s eradD
  simp only []
  ring

/-- radiated energy of IMRPhenomXAS over eta for equal spins -/
noncomputable def eradX (e S : ℝ) : ℝ :=
  (0.057190958417936644 + e * (0.5609904135313374 + e * (-0.84667563764404 + e * 3.145145224278187))) *
    (1 + S * ((-0.13084389181783257 - 1.1387311580238488 * e + 5.49074464410971 * e ^ 2) + S * ((-0.17762802148331427 +
      2.176667900182948 * e ^ 2) + S * (-0.6320191645391563 + 4.952698546796005 * e - 10.023747993978121 * e ^ 2)))) /
    (1 + (-0.9919475346968611 + 0.367620218664352 * e + 4.274567337924067 * e ^ 2) * S)

lemma eradG_eq (e S y z : ℝ) : eradG e S y z = eradX e S +
    (y * (-0.09803730445895877 * (1 - 3.2283713377939134 * e) * e - 0.01978238971523653 * (1 - 4.91667749015812 * e) * S)
      + 0.01118530335431078 * z * e ^ 2) := by
  unfold eradG eradX; ring

lemma dErad_hi (e S : ℝ) (he : 0 ≤ e ∧ e ≤ 0.25) (hS : -1 ≤ S ∧ S ≤ 1) : 0 < 0.018 - e * (eradX e S - eradD e S) := by
  unfold eradX eradD
  affine_bnb [he, hS] []

lemma dErad_lo (e S : ℝ) (he : 0 ≤ e ∧ e ≤ 0.25) (hS : -1 ≤ S ∧ S ≤ 1) : 0 < 0.002 + e * (eradX e S - eradD e S) := by
  unfold eradX eradD
  affine_bnb [he, hS] []

lemma dErad0_hi (e : ℝ) (he : 0 ≤ e ∧ e ≤ 0.25) : 0 < 0.00005 - e * (eradX e 0 - eradD e 0) := by
  unfold eradX eradD
  affine_bnb [he] []

lemma dErad0_lo (e : ℝ) (he : 0 ≤ e ∧ e ≤ 0.25) : 0 < 0.00001 + e * (eradX e 0 - eradD e 0) := by
  unfold eradX eradD
  affine_bnb [he] []

lemma uErad_hi (d x S e : ℝ) (hd : 0 ≤ d ∧ d ≤ 1) (hx : -2 ≤ x ∧ x ≤ 2) (hS : -1 ≤ S ∧ S ≤ 1) (he : e = (1 - d) * (1 + d) / 4) :
    0 < 0.005 - e * (x * d * (-0.09803730445895877 * (1 - 3.2283713377939134 * e) * e
      - 0.01978238971523653 * (1 - 4.91667749015812 * e) * S) + 0.01118530335431078 * x ^ 2 * e ^ 2) := by
  affine_bnb [hd, hx, hS] [he]

lemma uErad_lo (d x S e : ℝ) (hd : 0 ≤ d ∧ d ≤ 1) (hx : -2 ≤ x ∧ x ≤ 2) (hS : -1 ≤ S ∧ S ≤ 1) (he : e = (1 - d) * (1 + d) / 4) :
    0 < 0.005 + e * (x * d * (-0.09803730445895877 * (1 - 3.2283713377939134 * e) * e
      - 0.01978238971523653 * (1 - 4.91667749015812 * e) * S) + 0.01118530335431078 * x ^ 2 * e ^ 2) := by
  affine_bnb [hd, hx, hS] [he]

/-! ### slope of the fits at moderate spins -/

namespace XAS

lemma horner_deriv {p : ℝ → ℝ} {p' t : ℝ} (c : ℝ) (h : HasDerivAt p p' t) :
    HasDerivAt (fun t => c + t * p t) (p t + t * p') t := by
  have := ((hasDerivAt_id t).mul h).const_add c
  simpa using this

noncomputable def rN' (t : ℝ) : ℝ :=
  0.0001193864321981834 + t * (2 * 0.0080168994821392469 + t * (3 * 0.060628282076161705 + t * (4 * 0.0073312659026079535 +
    t * (-5 * 0.0228671494377282422 + t * (6 * 0.0068242920535716851 - 7 * 0.0005821983163192694 * t)))))
noncomputable def rD' (t : ℝ) : ℝ :=
  0.0008487803939974 + t * (2 * 0.0618539234976065 + t * (3 * 0.667189445236448 + t * (4 * 0.707000853774965 + t *
    (-5 * 0.5242789290504462 + 6 * 0.0873798215084077 * t))))
noncomputable def dN' (t : ℝ) : ℝ :=
  0.0000075848485402126 + t * (2 * 0.0010881207055446784 + t * (3 * 0.016992325426484585 + t *
    (-4 * 0.0033244393931317066 + t * (-5 * 0.00075527536314880168 + 6 * 0.0001504546201236794 * t))))
noncomputable def dD' (t : ℝ) : ℝ :=
  0.002217146991819682 + t * (2 * 0.145301771662908275 + t * (3 * 1.07661003947761762 + t *
    (-4 * 0.179125315747363075 + t * (-5 * 0.054016316473224798 + 6 * 0.009002719412204133 * t))))

lemma lin_deriv (a b t : ℝ) : HasDerivAt (fun t => a + b * t) b t := by
  simpa using ((hasDerivAt_id t).const_mul b).const_add a
lemma lin_deriv' (a b t : ℝ) : HasDerivAt (fun t => a - b * t) (-b) t := by
  simpa using ((hasDerivAt_id t).const_mul b).const_sub a

lemma rN_deriv (t : ℝ) : HasDerivAt rN (rN' t) t :=
  (horner_deriv _ (horner_deriv _ (horner_deriv _ (horner_deriv _ (horner_deriv _ (horner_deriv _ (lin_deriv' _ _ t))))))).congr_deriv
    (by unfold rN'; ring)
lemma rD_deriv (t : ℝ) : HasDerivAt rD (rD' t) t :=
  (horner_deriv _ (horner_deriv _ (horner_deriv _ (horner_deriv _ (horner_deriv _ (lin_deriv _ _ t)))))).congr_deriv
    (by unfold rD'; ring)
lemma dN_deriv (t : ℝ) : HasDerivAt dN (dN' t) t :=
  (horner_deriv _ (horner_deriv _ (horner_deriv _ (horner_deriv _ (horner_deriv _ (lin_deriv _ _ t)))))).congr_deriv
    (by unfold dN'; ring)
lemma dD_deriv (t : ℝ) : HasDerivAt dD (dD' t) t :=
  (horner_deriv _ (horner_deriv _ (horner_deriv _ (horner_deriv _ (horner_deriv _ (lin_deriv _ _ t)))))).congr_deriv
    (by unfold dD'; ring)

lemma rSlope (t N N' D D' : ℝ) (ht : 0.29 ≤ t ∧ t ≤ 1.01) (h1 : N = rN t) (h2 : N' = rN' t) (h3 : D = rD t) (h4 : D' = rD' t) :
    0 < 0.1 - (N * D' - N' * D) / D ^ 2 := by
  unfold rN at h1; unfold rN' at h2; unfold rD at h3; unfold rD' at h4
  affine_bnb [ht] [h1, h2, h3, h4]
lemma rSlope' (t N N' D D' : ℝ) (ht : 0.29 ≤ t ∧ t ≤ 1.01) (h1 : N = rN t) (h2 : N' = rN' t) (h3 : D = rD t) (h4 : D' = rD' t) :
    0 < 0.1 + (N * D' - N' * D) / D ^ 2 := by
  unfold rN at h1; unfold rN' at h2; unfold rD at h3; unfold rD' at h4
  affine_bnb [ht] [h1, h2, h3, h4]
lemma dSlope (t N N' D D' : ℝ) (ht : 0.29 ≤ t ∧ t ≤ 1.01) (h1 : N = dN t) (h2 : N' = dN' t) (h3 : D = dD t) (h4 : D' = dD' t) :
    0 < 0.02 - (N * D' - N' * D) / D ^ 2 := by
  unfold dN at h1; unfold dN' at h2; unfold dD at h3; unfold dD' at h4
  affine_bnb [ht] [h1, h2, h3, h4]
lemma dSlope' (t N N' D D' : ℝ) (ht : 0.29 ≤ t ∧ t ≤ 1.01) (h1 : N = dN t) (h2 : N' = dN' t) (h3 : D = dD t) (h4 : D' = dD' t) :
    0 < 0.02 + (N * D' - N' * D) / D ^ 2 := by
  unfold dN at h1; unfold dN' at h2; unfold dD at h3; unfold dD' at h4
  affine_bnb [ht] [h1, h2, h3, h4]

lemma quot_lip {N N' D D' : ℝ → ℝ} {C : ℝ} (hN : ∀ t, HasDerivAt N (N' t) t) (hD : ∀ t, HasDerivAt D (D' t) t)
    (hp : ∀ t, 0 ≤ t ∧ t ≤ 2 → 0 < D t)
    (hi : ∀ t, 0.29 ≤ t ∧ t ≤ 1.01 → 0 < C - (N t * D' t - N' t * D t) / D t ^ 2)
    (lo : ∀ t, 0.29 ≤ t ∧ t ≤ 1.01 → 0 < C + (N t * D' t - N' t * D t) / D t ^ 2)
    {a b : ℝ} (a1 : -0.01 ≤ a) (a2 : a ≤ 0.71) (b1 : -0.01 ≤ b) (b2 : b ≤ 0.71) :
    |N (1 - a) / D (1 - a) - N (1 - b) / D (1 - b)| ≤ C * |a - b| := by
  have key := Convex.norm_image_sub_le_of_norm_hasDerivWithin_le (f := fun t => N t / D t)
    (f' := fun t => (N' t * D t - N t * D' t) / D t ^ 2) (C := C) (s := Set.Icc (0.29 : ℝ) 1.01)
    (x := 1 - b) (y := 1 - a)
    (fun t ht => ((hN t).div (hD t) (hp t ⟨by linarith [ht.1], by linarith [ht.2]⟩).ne').hasDerivWithinAt)
    (fun t ht => by
      have u := hi t ht
      have l := lo t ht
      rw [show N t * D' t - N' t * D t = -(N' t * D t - N t * D' t) by ring, neg_div] at u l
      rw [Real.norm_eq_abs, abs_le]
      constructor <;> linarith)
    (convex_Icc _ _) ⟨by linarith, by linarith⟩ ⟨by linarith, by linarith⟩
  rw [Real.norm_eq_abs, Real.norm_eq_abs, show 1 - a - (1 - b) = -(a - b) by ring, abs_neg] at key
  exact key

lemma fRD_lip {a b : ℝ} (a1 : -0.01 ≤ a) (a2 : a ≤ 0.71) (b1 : -0.01 ≤ b) (b2 : b ≤ 0.71) :
    |fRDof a 0 - fRDof b 0| ≤ 0.1 * |a - b| := by
  rw [fRDof_eq, fRDof_eq, sub_zero, div_one, div_one]
  exact quot_lip rN_deriv rD_deriv rD_pos (fun t h => rSlope t _ _ _ _ h rfl rfl rfl rfl)
    (fun t h => rSlope' t _ _ _ _ h rfl rfl rfl rfl) a1 a2 b1 b2
lemma fdamp_lip {a b : ℝ} (a1 : -0.01 ≤ a) (a2 : a ≤ 0.71) (b1 : -0.01 ≤ b) (b2 : b ≤ 0.71) :
    |fdampOf a 0 - fdampOf b 0| ≤ 0.02 * |a - b| := by
  rw [fdampOf_eq, fdampOf_eq, sub_zero, div_one, div_one]
  exact quot_lip dN_deriv dD_deriv dD_pos (fun t h => dSlope t _ _ _ _ h rfl rfl rfl rfl)
    (fun t h => dSlope' t _ _ _ _ h rfl rfl rfl rfl) a1 a2 b1 b2

end XAS

lemma spin0_hi (e : ℝ) (he : 0 ≤ e ∧ e ≤ 0.25) : 0 < 0.7 - e * spinR e 0 := by
  rw [spinR_horner]
  affine_bnb [he] []

lemma spin0_lo (e : ℝ) (he : 0 ≤ e ∧ e ≤ 0.25) : 0 < spinR e 0 := by
  rw [spinR_horner]
  affine_bnb [he] []

end Ripple
