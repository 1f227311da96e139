/-
  Helper lemmas about the characteristic frequencies of IMRPhenomX_utils for physical binaries (positive masses, spin
  magnitudes at most one): bounds by interval branch and bound, checked by the kernel.
-/
import Verif.Prelude.IntervalTac
import Verif.Proofs.Isco
import Verif.Proofs.XASGen
import Verif.Spec.QnmTable
import Mathlib.Analysis.Real.Pi.Bounds

namespace Ripple
namespace XAS
open Real

/-! ### mass ratio and spin combinations -/

/-- symmetric mass ratio as computed by the code -/
noncomputable def etaOf (theta : Theta) : ℝ :=
  theta.m1 * gt * (theta.m2 * gt) / (theta.m1 * gt + theta.m2 * gt) ^ 2

/-- mass difference over total mass as computed by the code -/
noncomputable def dOf (theta : Theta) : ℝ := Real.sqrt (1 - 4 * etaOf theta)

/-- spin parameter of the final-state fits -/
noncomputable def stotOf (theta : Theta) : ℝ :=
  ((0.5 * (1 + dOf theta)) ^ 2 * theta.chi1 + (0.5 * (1 - dOf theta)) ^ 2 * theta.chi2) /
    ((0.5 * (1 + dOf theta)) ^ 2 + (0.5 * (1 - dOf theta)) ^ 2)

/-- spin parameter of the inspiral fits -/
noncomputable def chipnOf (theta : Theta) : ℝ :=
  (0.5 * (1 + dOf theta) * theta.chi1 + 0.5 * (1 - dOf theta) * theta.chi2
    - 38 / 113 * etaOf theta * (theta.chi1 + theta.chi2)) / (1 - 76 * etaOf theta / 113)

lemma etaOf_range {theta : Theta} (h : theta.Physical) : 0 < etaOf theta ∧ etaOf theta ≤ 1 / 4 := by
  have hg := gt_pos
  have h1 : 0 < theta.m1 * gt := mul_pos h.m1_pos hg
  have h2 : 0 < theta.m2 * gt := mul_pos h.m2_pos hg
  unfold etaOf
  generalize theta.m1 * gt = x at *
  generalize theta.m2 * gt = y at *
  constructor
  · positivity
  · rw [div_le_iff₀ (by positivity)]; nlinarith [sq_nonneg (x - y)]

lemma dOf_range {theta : Theta} (h : theta.Physical) :
    0 ≤ dOf theta ∧ dOf theta < 1 ∧ etaOf theta = (1 - dOf theta ^ 2) / 4 := by
  obtain ⟨e0, e4⟩ := etaOf_range h
  have d0 : 0 ≤ dOf theta := Real.sqrt_nonneg _
  have d2 : dOf theta ^ 2 = 1 - 4 * etaOf theta := Real.sq_sqrt (by linarith)
  exact ⟨d0, by nlinarith, by linarith⟩

lemma convex_le {w1 w2 x y : ℝ} (h1 : 0 ≤ w1) (h2 : 0 ≤ w2) (h : 0 < w1 + w2) (hx : |x| ≤ 1) (hy : |y| ≤ 1) :
    -1 ≤ (w1 * x + w2 * y) / (w1 + w2) ∧ (w1 * x + w2 * y) / (w1 + w2) ≤ 1 := by
  obtain ⟨a, b⟩ := abs_le.1 hx
  obtain ⟨c, d⟩ := abs_le.1 hy
  rw [le_div_iff₀ h, div_le_iff₀ h]
  constructor <;> nlinarith

lemma stotOf_range {theta : Theta} (h : theta.Physical) : -1 ≤ stotOf theta ∧ stotOf theta ≤ 1 := by
  obtain ⟨d0, d1, -⟩ := dOf_range h
  exact convex_le (by positivity) (by positivity) (by positivity) h.chi1_le h.chi2_le

lemma chipnOf_range {theta : Theta} (h : theta.Physical) : -1 ≤ chipnOf theta ∧ chipnOf theta ≤ 1 := by
  obtain ⟨d0, d1, hd⟩ := dOf_range h
  obtain ⟨e0, e4⟩ := etaOf_range h
  have e1 : chipnOf theta = ((0.5 * (1 + dOf theta) - 38 / 113 * etaOf theta) * theta.chi1
      + (0.5 * (1 - dOf theta) - 38 / 113 * etaOf theta) * theta.chi2) /
      ((0.5 * (1 + dOf theta) - 38 / 113 * etaOf theta) + (0.5 * (1 - dOf theta) - 38 / 113 * etaOf theta)) := by
    unfold chipnOf
    congr 1 <;> ring
  rw [e1]
  refine convex_le (by nlinarith) (by nlinarith) (by nlinarith) h.chi1_le h.chi2_le

/-! ### final spin -/

noncomputable def sn1 (e : ℝ) : ℝ := -0.8561951310209386 - 0.09939065676370885 * e + 1.668810429851045 * e ^ 2
noncomputable def sn2 (e : ℝ) : ℝ := 0.5881660363307388 - 2.149269067519131 * e + 3.4768263932898678 * e ^ 2
noncomputable def sn3 (e : ℝ) : ℝ := 0.142443244743048 - 0.9598353840147513 * e + 1.9595643107593743 * e ^ 2
noncomputable def skk (e : ℝ) : ℝ := -0.9142232693081653 + 2.3191363426522633 * e - 9.710576749140989 * e ^ 3
noncomputable def sK (e : ℝ) : ℝ :=
  (3.4641016151377544 + 20.0830030082033 * e - 12.333573402277912 * e ^ 2) / (1 + 7.2388440419467335 * e)
/-- coefficient of the spin difference -/
noncomputable def sD (e S : ℝ) : ℝ :=
  0.3223660562764661 * (1 + 9.332575956437443 * e) + 2.3170397514509933 * (1 - 3.2624649875884852 * e) * e * S

/-- final spin = S + eta G -/
noncomputable def spinG (e S y z : ℝ) : ℝ :=
  sK e - 2 * S + S * (sn1 e + S * (sn2 e + S * sn3 e)) / (1 + skk e * S) + y * (e * sD e S)
    - 0.059808322561702126 * z * e ^ 2

lemma finalSpin_eq (e d m1 m2 S dc : ℝ) (hm : m1 ^ 2 + m2 ^ 2 = 1 - 2 * e) :
    finalSpin e d m1 m2 S dc = S + e * spinG e S (dc * d) (dc ^ 2) := by
  unfold finalSpin spinG sK sn1 sn2 sn3 skk sD
  simp only [hm]
  ring

lemma spin_ge_aux (e S y z : ℝ) (he : 0 ≤ e ∧ e ≤ 0.25) (hS : -1 ≤ S ∧ S ≤ 1) (hy : -2 ≤ y ∧ y ≤ 2) (hz : 0 ≤ z ∧ z ≤ 4) :
    0 < spinG e S y z ∨ 0 < 1 + S + e * spinG e S y z := by
  unfold spinG sK sn1 sn2 sn3 skk sD
  interval_bnb [he, hS, hy, hz] []

lemma skk_lo (e : ℝ) (he : 0 ≤ e ∧ e ≤ 0.25) : 0 < 1 + skk e := by
  unfold skk
  interval_bnb [he] []

lemma skk_hi (e : ℝ) (he : 0 ≤ e ∧ e ≤ 0.25) : 0 < 1 - skk e := by
  unfold skk
  interval_bnb [he] []

/-- slope of the spin fit between S and 1 -/
noncomputable def sHF (e S : ℝ) : ℝ :=
  (sn1 e + sn2 e * (1 + S) + sn3 e * (1 + S + S ^ 2) + skk e * S * (sn2 e + sn3 e * (1 + S))) /
    ((1 + skk e) * (1 + skk e * S))

/-- (G(eta, 1) times its denominators, minus its value at eta = 0) over eta -/
noncomputable def sC (e : ℝ) : ℝ :=
  (20.0830030082033 - 12.333573402277912 * e) * (1 + skk e)
    + (3.4641016151377544 - 2) * (2.3191363426522633 - 9.710576749140989 * e ^ 2)
    - 2 * 7.2388440419467335 * (1 + skk e)
    + (1 + 7.2388440419467335 * e) * (-0.09939065676370885 + 1.668810429851045 * e - 2.149269067519131
      + 3.4768263932898678 * e - 0.9598353840147513 + 1.9595643107593743 * e)
    + 7.2388440419467335 * (-0.8561951310209386 + 0.5881660363307388 + 0.142443244743048)

lemma sC_neg (e : ℝ) (he : 0 ≤ e ∧ e ≤ 0.25) : 0 < -sC e := by
  unfold sC skk
  interval_bnb [he] []

lemma spinA_pos (p S e d : ℝ) (hp : 0 ≤ p ∧ p ≤ 0.5) (hS : -1 ≤ S ∧ S ≤ 1) (he : e = p * (1 - p)) (hd : d = 1 - 2 * p) :
    0 < (1 - p) ^ 2 * (1 - 2 * e + e * sHF e S) / ((1 - p) ^ 2 + p ^ 2) + e ^ 2 * d * sD e S := by
  unfold sHF sn1 sn2 sn3 skk sD
  interval_bnb [hp, hS] [he, hd]

lemma spinB_pos (p S e d : ℝ) (hp : 0 ≤ p ∧ p ≤ 0.5) (hS : -1 ≤ S ∧ S ≤ 1) (he : e = p * (1 - p)) (hd : d = 1 - 2 * p) :
    0 < (1 - 2 * e + e * sHF e S) / ((1 - p) ^ 2 + p ^ 2) - (1 - p) ^ 2 * d * sD e S := by
  unfold sHF sn1 sn2 sn3 skk sD
  interval_bnb [hp, hS] [he, hd]

/-- the dimensionless final spin of a binary -/
noncomputable def spinOf (theta : Theta) : ℝ :=
  finalSpin (etaOf theta) (dOf theta) (0.5 * (1 + dOf theta)) (0.5 * (1 - dOf theta)) (stotOf theta)
    (theta.chi1 - theta.chi2)

lemma spinOf_eq {theta : Theta} (h : theta.Physical) : spinOf theta = stotOf theta + etaOf theta *
    spinG (etaOf theta) (stotOf theta) ((theta.chi1 - theta.chi2) * dOf theta) ((theta.chi1 - theta.chi2) ^ 2) := by
  obtain ⟨d0, d1, hd⟩ := dOf_range h
  refine finalSpin_eq _ _ _ _ _ _ ?_
  rw [hd]; ring

lemma dchi_range {theta : Theta} (h : theta.Physical) : -2 ≤ theta.chi1 - theta.chi2 ∧ theta.chi1 - theta.chi2 ≤ 2 := by
  obtain ⟨a, b⟩ := abs_le.1 h.chi1_le
  obtain ⟨c, d⟩ := abs_le.1 h.chi2_le
  constructor <;> linarith

lemma dchid_range {theta : Theta} (h : theta.Physical) :
    -2 ≤ (theta.chi1 - theta.chi2) * dOf theta ∧ (theta.chi1 - theta.chi2) * dOf theta ≤ 2 := by
  obtain ⟨d0, d1, hd⟩ := dOf_range h
  obtain ⟨a, b⟩ := dchi_range h
  constructor <;> nlinarith

lemma dchisq_range {theta : Theta} (h : theta.Physical) :
    0 ≤ (theta.chi1 - theta.chi2) ^ 2 ∧ (theta.chi1 - theta.chi2) ^ 2 ≤ 4 := by
  obtain ⟨a, b⟩ := dchi_range h
  constructor <;> nlinarith

lemma eta_box {theta : Theta} (h : theta.Physical) : 0 ≤ etaOf theta ∧ etaOf theta ≤ 0.25 := by
  obtain ⟨e0, e4⟩ := etaOf_range h
  exact ⟨e0.le, by norm_num at *; linarith⟩

lemma spin_gt {theta : Theta} (h : theta.Physical) : -1 < spinOf theta := by
  rw [spinOf_eq h]
  have e0 := (etaOf_range h).1
  have hs := stotOf_range h
  rcases spin_ge_aux _ _ _ _ (eta_box h) hs (dchid_range h) (dchisq_range h) with hg | hg
  · have := mul_pos e0 hg
    linarith [hs.1]
  · linarith

lemma spin_lt {theta : Theta} (h : theta.Physical) : spinOf theta < 1 := by
  rw [spinOf_eq h]
  obtain ⟨d0, d1, hd⟩ := dOf_range h
  obtain ⟨e0, e4⟩ := etaOf_range h
  have hS := stotOf_range h
  have hebox := eta_box h
  have k1 := skk_lo _ hebox
  have k2 := skk_hi _ hebox
  have hC := sC_neg _ hebox
  obtain ⟨a1, b1⟩ := abs_le.1 h.chi1_le
  obtain ⟨a2, b2⟩ := abs_le.1 h.chi2_le
  have hStot : stotOf theta = ((0.5 * (1 + dOf theta)) ^ 2 * theta.chi1 + (0.5 * (1 - dOf theta)) ^ 2 * theta.chi2) /
    ((0.5 * (1 + dOf theta)) ^ 2 + (0.5 * (1 - dOf theta)) ^ 2) := rfl
  generalize stotOf theta = S at *
  generalize dOf theta = d at *
  generalize etaOf theta = e at *
  generalize theta.chi1 = c1 at *
  generalize theta.chi2 = c2 at *
  -- the mass fraction of the lighter body
  obtain ⟨p, hp⟩ : ∃ p, p = (1 - d) / 2 := ⟨_, rfl⟩
  have hpbox : 0 ≤ p ∧ p ≤ 0.5 := by constructor <;> (norm_num; linarith)
  have hdp : d = 1 - 2 * p := by linarith
  have hep : e = p * (1 - p) := by rw [hd, hdp]; ring
  have hA := spinA_pos p S e d hpbox hS hep hdp
  have hB := spinB_pos p S e d hpbox hS hep hdp
  have hw : 0 < (1 - p) ^ 2 + p ^ 2 := by nlinarith
  have hkS : 0 < 1 + skk e * S := by
    have h1 : 0 < (1 + skk e) * ((1 + S) / 2) + (1 - skk e) * ((1 - S) / 2) := by
      rcases lt_or_ge S 0 with hs | hs
      · have := mul_pos k2 (by linarith : (0:ℝ) < (1 - S) / 2)
        have := mul_nonneg k1.le (by linarith [hS.1] : (0:ℝ) ≤ (1 + S) / 2)
        linarith
      · have := mul_pos k1 (by linarith : (0:ℝ) < (1 + S) / 2)
        have := mul_nonneg k2.le (by linarith [hS.2] : (0:ℝ) ≤ (1 - S) / 2)
        linarith
    linarith
  have hK : 0 < 1 + 7.2388440419467335 * e := by positivity
  -- split of the fit at S = 1
  have hG1 : 0 < -(sK e - 2 + (sn1 e + sn2 e + sn3 e) / (1 + skk e)) := by
    have : -(sK e - 2 + (sn1 e + sn2 e + sn3 e) / (1 + skk e)) =
        (-((3.4641016151377544 - 2) * (1 - 0.9142232693081653) + (-0.8561951310209386 + 0.5881660363307388 + 0.142443244743048))
          + e * -sC e) / ((1 + 7.2388440419467335 * e) * (1 + skk e)) := by
      unfold sK
      have := k1.ne'
      have := hK.ne'
      rw [eq_div_iff (by positivity)]
      unfold sC sn1 sn2 sn3
      field_simp
      unfold skk
      ring
    rw [this]
    refine div_pos ?_ (mul_pos hK k1)
    have := mul_pos e0 hC
    norm_num at this ⊢
    linarith
  have hsplit : S * (sn1 e + S * (sn2 e + S * sn3 e)) / (1 + skk e * S) =
      (sn1 e + sn2 e + sn3 e) / (1 + skk e) - (1 - S) * sHF e S := by
    unfold sHF
    have h1 := k1.ne'
    have h2 := hkS.ne'
    rw [eq_sub_iff_add_eq, mul_div_assoc', div_add_div _ _ h2 (mul_ne_zero h1 h2),
      div_eq_div_iff (mul_ne_zero h2 (mul_ne_zero h1 h2)) h1]
    ring
  have ht : 1 - S = ((1 - p) ^ 2 * (1 - c1) + p ^ 2 * (1 - c2)) / ((1 - p) ^ 2 + p ^ 2) := by
    have e1 : (0.5 * (1 + d)) = 1 - p := by rw [hp]; ring
    have e2 : (0.5 * (1 - d)) = p := by rw [hp]; ring
    rw [hStot, e1, e2]
    field_simp
    ring
  have hp2 : 0 ≤ p ^ 2 := sq_nonneg p
  have hfin : 1 - (S + e * spinG e S ((c1 - c2) * d) ((c1 - c2) ^ 2)) =
      (1 - c1) * ((1 - p) ^ 2 * (1 - 2 * e + e * sHF e S) / ((1 - p) ^ 2 + p ^ 2) + e ^ 2 * d * sD e S)
      + p ^ 2 * (1 - c2) * ((1 - 2 * e + e * sHF e S) / ((1 - p) ^ 2 + p ^ 2) - (1 - p) ^ 2 * d * sD e S)
      + e * -(sK e - 2 + (sn1 e + sn2 e + sn3 e) / (1 + skk e))
      + e * (0.059808322561702126 * (c1 - c2) ^ 2 * e ^ 2) := by
    unfold spinG
    rw [hsplit]
    have e2p : e ^ 2 = p ^ 2 * (1 - p) ^ 2 := by rw [hep]; ring
    have hS1 : S = 1 - ((1 - p) ^ 2 * (1 - c1) + p ^ 2 * (1 - c2)) / ((1 - p) ^ 2 + p ^ 2) := by linarith
    have key : (1 - S) * (1 - 2 * e + e * sHF e S) = (1 - c1) * ((1 - p) ^ 2 * (1 - 2 * e + e * sHF e S) / ((1 - p) ^ 2 + p ^ 2))
        + p ^ 2 * (1 - c2) * ((1 - 2 * e + e * sHF e S) / ((1 - p) ^ 2 + p ^ 2)) := by
      rw [ht]; ring
    linear_combination key - (1 - c2) * d * sD e S * e2p
  have t1 := mul_nonneg (by linarith : (0:ℝ) ≤ 1 - c1) hA.le
  have t2 := mul_nonneg (mul_nonneg hp2 (by linarith : (0:ℝ) ≤ 1 - c2)) hB.le
  have t3 := mul_pos e0 hG1
  have t4 : 0 ≤ e * (0.059808322561702126 * (c1 - c2) ^ 2 * e ^ 2) := by positivity
  linarith


/-! ### radiated energy -/

/-- radiated energy = eta times this -/
noncomputable def eradG (e S y z : ℝ) : ℝ :=
  (0.057190958417936644 + e * (0.5609904135313374 + e * (-0.84667563764404 + e * 3.145145224278187))) *
    (1 + S * ((-0.13084389181783257 - 1.1387311580238488 * e + 5.49074464410971 * e ^ 2) + S * ((-0.17762802148331427 +
      2.176667900182948 * e ^ 2) + S * (-0.6320191645391563 + 4.952698546796005 * e - 10.023747993978121 * e ^ 2)))) /
    (1 + (-0.9919475346968611 + 0.367620218664352 * e + 4.274567337924067 * e ^ 2) * S)
  + y * (-0.09803730445895877 * (1 - 3.2283713377939134 * e) * e - 0.01978238971523653 * (1 - 4.91667749015812 * e) * S)
  + 0.01118530335431078 * z * e ^ 2

lemma eRad_eq (e d S dc : ℝ) : eRad e d S dc = e * eradG e S (dc * d) (dc ^ 2) := by
  unfold eRad eradG
  simp only []
  ring

lemma eradG_pos (e S y z : ℝ) (he : 0 ≤ e ∧ e ≤ 0.25) (hS : -1 ≤ S ∧ S ≤ 1) (hy : -2 ≤ y ∧ y ≤ 2) (hz : 0 ≤ z ∧ z ≤ 4) :
    0 < eradG e S y z := by
  unfold eradG
  interval_bnb [he, hS, hy, hz] []

lemma eradG_lt (e S y z : ℝ) (he : 0 ≤ e ∧ e ≤ 0.25) (hS : -1 ≤ S ∧ S ≤ 1) (hy : -2 ≤ y ∧ y ≤ 2) (hz : 0 ≤ z ∧ z ≤ 4) :
    0 < 0.12 - e * eradG e S y z := by
  unfold eradG
  interval_bnb [he, hS, hy, hz] []


/-! ### ringdown and damping frequencies, as functions of t = 1 - a -/

noncomputable def rN (t : ℝ) : ℝ :=
  9.174731034177e-7 + t * (0.0001193864321981834 + t * (0.0080168994821392469 + t * (0.060628282076161705 + t *
    (0.0073312659026079535 + t * (-0.0228671494377282422 + t * (0.0068242920535716851 - 0.0005821983163192694 * t))))))
noncomputable def rD (t : ℝ) : ℝ :=
  0.0000061046390216 + t * (0.0008487803939974 + t * (0.0618539234976065 + t * (0.667189445236448 + t *
    (0.707000853774965 + t * (-0.5242789290504462 + 0.0873798215084077 * t)))))
noncomputable def dN (t : ℝ) : ℝ :=
  2.144655252988e-8 + t * (0.0000075848485402126 + t * (0.0010881207055446784 + t * (0.016992325426484585 + t *
    (-0.0033244393931317066 + t * (-0.00075527536314880168 + 0.0001504546201236794 * t)))))
noncomputable def dD (t : ℝ) : ℝ :=
  0.000009954676038163 + t * (0.002217146991819682 + t * (0.145301771662908275 + t * (1.07661003947761762 + t *
    (-0.179125315747363075 + t * (-0.054016316473224798 + 0.009002719412204133 * t)))))

lemma fRDof_eq (a E : ℝ) : fRDof a E = rN (1 - a) / rD (1 - a) / (1 - E) := by
  unfold fRDof rN rD
  simp only []
  congr 2 <;> (norm_num; ring)

lemma fdampOf_eq (a E : ℝ) : fdampOf a E = dN (1 - a) / dD (1 - a) / (1 - E) := by
  unfold fdampOf dN dD
  simp only []
  congr 2 <;> (norm_num; ring)

lemma rD_pos (t : ℝ) (ht : 0 ≤ t ∧ t ≤ 2) : 0 < rD t := by
  unfold rD
  interval_bnb [ht] []
lemma dD_pos (t : ℝ) (ht : 0 ≤ t ∧ t ≤ 2) : 0 < dD t := by
  unfold dD
  interval_bnb [ht] []
lemma gR_lo (t : ℝ) (ht : 0 ≤ t ∧ t ≤ 2) : 0 < rN t - 0.045 * rD t := by
  unfold rN rD
  interval_bnb [ht] []
lemma gR_hi (t : ℝ) (ht : 0 ≤ t ∧ t ≤ 2) : 0 < 0.16 * rD t - rN t := by
  unfold rN rD
  interval_bnb [ht] []
lemma gD_lo (t : ℝ) (ht : 0 ≤ t ∧ t ≤ 2) : 0 < dN t - 0.0015 * dD t := by
  unfold dN dD
  interval_bnb [ht] []
lemma gD_hi (t : ℝ) (ht : 0 ≤ t ∧ t ≤ 2) : 0 < 0.0145 * dD t - dN t := by
  unfold dN dD
  interval_bnb [ht] []

/-! ### ISCO -/

lemma isco_le {a u x : ℝ} (hu1 : 1 ≤ u) (ha : a = iscoSpin u) (hx : 1 ≤ x)
    (hQ : 0 < x ^ 4 - 6 * x ^ 2 + 8 * a * x - 3 * a ^ 2) : u ≤ x := by
  by_contra hlt
  push Not at hlt
  have hs := iscoSpin_strictAnti (Set.mem_Ici.2 hx) (Set.mem_Ici.2 hu1) hlt
  rw [← ha] at hs
  -- a below the spin of x: then (4x - 3a)^2 exceeds x^2 (3x^2 - 2)
  unfold iscoSpin at hs
  have hw : 0 ≤ 3 * x ^ 2 - 2 := by nlinarith
  have h1 : x * sqrt (3 * x ^ 2 - 2) < 4 * x - 3 * a := by linarith
  have h0 : 0 ≤ x * sqrt (3 * x ^ 2 - 2) := by positivity
  have h2 := pow_lt_pow_left₀ h1 h0 two_ne_zero
  rw [mul_pow, sq_sqrt hw] at h2
  nlinarith

lemma le_isco {a u x : ℝ} (hu1 : 1 ≤ u) (ha : a = iscoSpin u) (hx : 1 ≤ x)
    (hQ : x ^ 4 - 6 * x ^ 2 + 8 * a * x - 3 * a ^ 2 ≤ 0) (ha1 : a ≤ 1) : x ≤ u := by
  by_contra hlt
  push Not at hlt
  have hs := iscoSpin_strictAnti (Set.mem_Ici.2 hu1) (Set.mem_Ici.2 hx) hlt
  rw [← ha] at hs
  unfold iscoSpin at hs
  have hw : 0 ≤ 3 * x ^ 2 - 2 := by nlinarith
  have h1 : 4 * x - 3 * a < x * sqrt (3 * x ^ 2 - 2) := by linarith
  have h0 : 0 ≤ 4 * x - 3 * a := by linarith
  have h2 := pow_lt_pow_left₀ h1 h0 two_ne_zero
  rw [mul_pow, sq_sqrt hw] at h2
  nlinarith

lemma isco_up_aux (t u a : ℝ) (ht : 0 ≤ t ∧ t ≤ 2) (ha : a = 1 - t) (hu : u = (1.52 + 1.86 * t) / (1 + 0.36 * t)) :
    0 < u ^ 4 - 6 * u ^ 2 + 8 * a * u - 3 * a ^ 2 := by
  interval_bnb [ht] [ha, hu]

lemma isco_lo_aux (t : ℝ) (ht : 0 ≤ t ∧ t ≤ 2) :
    0 < 2 + t * (27 + t * (4.252 + t * (-23.4397 + t * (10.9074 + t * 0.7203)))) := by
  interval_bnb [ht] []

/-- bounds on the square root of the ISCO radius -/
lemma isco_bounds {a u : ℝ} (h1 : -1 ≤ a) (h2 : a ≤ 1) (hu1 : 1 ≤ u) (ha : a = iscoSpin u) :
    (1 + 3 * (1 - a)) / (1 + 0.7 * (1 - a)) ≤ u ∧ u ≤ (1.52 + 1.86 * (1 - a)) / (1 + 0.36 * (1 - a)) := by
  obtain ⟨t, ht⟩ : ∃ t, t = 1 - a := ⟨_, rfl⟩
  have hat : a = 1 - t := by linarith
  have htb : 0 ≤ t ∧ t ≤ 2 := by constructor <;> linarith
  rw [← ht]
  constructor
  · refine le_isco hu1 ha ?_ ?_ h2
    · rw [le_div_iff₀ (by linarith)]; linarith
    · have hp : 0 < 1 + 0.7 * t := by linarith
      have e : ((1 + 3 * t) / (1 + 0.7 * t)) ^ 4 - 6 * ((1 + 3 * t) / (1 + 0.7 * t)) ^ 2 + 8 * a * ((1 + 3 * t) / (1 + 0.7 * t))
          - 3 * a ^ 2 = -(t * (2 + t * (27 + t * (4.252 + t * (-23.4397 + t * (10.9074 + t * 0.7203)))))) / (1 + 0.7 * t) ^ 4 := by
        rw [hat]
        have hne : (1 + 0.7 * t) ≠ 0 := hp.ne'
        rw [eq_div_iff (pow_ne_zero 4 hne)]
        have hm : (1 + 3 * t) / (1 + 0.7 * t) * (1 + 0.7 * t) = 1 + 3 * t := div_mul_cancel₀ _ hne
        generalize (1 + 3 * t) / (1 + 0.7 * t) = x at *
        have e1 : (x ^ 4 - 6 * x ^ 2 + 8 * (1 - t) * x - 3 * (1 - t) ^ 2) * (1 + 0.7 * t) ^ 4 =
          (x * (1 + 0.7 * t)) ^ 4 - 6 * (x * (1 + 0.7 * t)) ^ 2 * (1 + 0.7 * t) ^ 2 +
            8 * (1 - t) * (x * (1 + 0.7 * t)) * (1 + 0.7 * t) ^ 3 - 3 * (1 - t) ^ 2 * (1 + 0.7 * t) ^ 4 := by ring
        rw [e1, hm]
        ring
      rw [e]
      refine div_nonpos_of_nonpos_of_nonneg ?_ (by positivity)
      have := mul_nonneg htb.1 (isco_lo_aux t htb).le
      linarith
  · refine isco_le hu1 ha ?_ (isco_up_aux t _ a htb hat rfl)
    rw [le_div_iff₀ (by linarith)]; linarith

lemma isco_pos {a : ℝ} (h1 : -1 ≤ a) (h2 : a ≤ 1) : 0 < fISCOof a ∧ fISCOof a ≤ 1 / 6 := by
  obtain ⟨u, hr, u1, u3, hau, -⟩ := isco_exists h1 h2
  rw [fISCO_eq hr (by linarith)]
  have h := iscoOmega_strictMono.monotoneOn (Set.mem_Ici.2 le_rfl) (Set.mem_Ici.2 u1) u1
  have e1 : iscoSpin 1 = 1 := by unfold iscoSpin; norm_num
  simp only [e1, ← hau] at h
  have hpi := Real.pi_gt_three
  constructor
  · have : 0 < u ^ 3 + a := by linarith
    positivity
  · rw [div_div, div_le_div_iff₀ (by nlinarith) (by norm_num)]
    nlinarith


/-- an upper bound of the ISCO frequency -/
lemma isco_hi {a : ℝ} (h1 : -1 ≤ a) (h2 : a ≤ 1) :
    fISCOof a ≤ 1 / (((1 + 3 * (1 - a)) / (1 + 0.7 * (1 - a))) ^ 3 + a) / 3.14 := by
  obtain ⟨u, hr, u1, u3, hau, -⟩ := isco_exists h1 h2
  obtain ⟨hlb, -⟩ := isco_bounds h1 h2 u1 hau
  have hl1 : 1 ≤ (1 + 3 * (1 - a)) / (1 + 0.7 * (1 - a)) := by
    rw [le_div_iff₀ (by linarith)]; linarith
  have hl2 : 1 < (1 + 3 * (1 - a)) / (1 + 0.7 * (1 - a)) ∨ a = 1 := by
    rcases h2.lt_or_eq with h | h
    · left
      rw [lt_div_iff₀ (by linarith)]; linarith
    · exact Or.inr h
  rw [fISCO_eq hr (by linarith)]
  have h3 : ((1 + 3 * (1 - a)) / (1 + 0.7 * (1 - a))) ^ 3 ≤ u ^ 3 := pow_le_pow_left₀ (by linarith) hlb 3
  have hp : 0 < ((1 + 3 * (1 - a)) / (1 + 0.7 * (1 - a))) ^ 3 + a := by
    rcases hl2 with h | h
    · have := one_lt_pow₀ h (three_ne_zero)
      linarith
    · have := one_le_pow₀ hl1 (n := 3)
      linarith
  have hpi : 3.14 < π := by linarith [Real.pi_gt_d2]
  rw [div_div, div_div]
  refine one_div_le_one_div_of_le (mul_pos hp (by norm_num)) ?_
  exact mul_le_mul (by linarith) hpi.le (by norm_num) (by linarith)

/-! ### MECO -/

lemma spin_margin_aux (d c1 c2 e St S : ℝ) (hd : 0 ≤ d ∧ d ≤ 1) (h1 : -1 ≤ c1 ∧ c1 ≤ 1) (h2 : -1 ≤ c2 ∧ c2 ≤ 1)
    (he : e = (1 - d ^ 2) / 4)
    (hSt : St = ((0.5 * (1 + d)) ^ 2 * c1 + (0.5 * (1 - d)) ^ 2 * c2) / ((0.5 * (1 + d)) ^ 2 + (0.5 * (1 - d)) ^ 2))
    (hS : S = (0.5 * (1 + d) * c1 + 0.5 * (1 - d) * c2 - 38 / 113 * e * (c1 + c2)) / (1 - 76 * e / 113)) :
    0 < 0.08 + e * (sK e - (76 * S + 75 * (c1 + c2)) / 113 + St * (sn1 e + St * (sn2 e + St * sn3 e)) / (1 + skk e * St)
      + (c1 - c2) * d * (e * sD e St) - 0.059808322561702126 * (c1 - c2) ^ 2 * e ^ 2) := by
  unfold sK sn1 sn2 sn3 skk sD
  interval_bnb [hd, h1, h2] [he, hSt, hS]

lemma meco_hi_aux (d S dc e : ℝ) (hd : 0 ≤ d ∧ d ≤ 1) (hS : -1 ≤ S ∧ S ≤ 1) (hdc : -2 ≤ dc ∧ dc ≤ 2) (he : e = (1 - d ^ 2) / 4) :
    0 < 0.026 / (1 - 0.67 * (S - 0.08)) - fMECOof e d S dc := by
  unfold fMECOof
  simp only []
  interval_bnb [hd, hS, hdc] [he] 20000

lemma meco_lo_aux (d S dc e : ℝ) (hd : 0 ≤ d ∧ d ≤ 1) (hS : -1 ≤ S ∧ S ≤ 1) (hdc : -2 ≤ dc ∧ dc ≤ 2) (he : e = (1 - d ^ 2) / 4) :
    0 < fMECOof e d S dc - 0.01 := by
  unfold fMECOof
  simp only []
  interval_bnb [hd, hS, hdc] [he]

lemma im_aux (t u a : ℝ) (ht : 0 ≤ t ∧ t ≤ 2) (ha : a = 1 - t) (hu : u = (1.52 + 1.86 * t) / (1 + 0.36 * t)) :
    0 < 0.6 * ((rN t / rD t) / 2 + 1 / (u ^ 3 + a) / 3.15) - 0.026 / (1 - 0.67 * a) := by
  unfold rN rD
  interval_bnb [ht] [ha, hu]

lemma pk_aux (t u a : ℝ) (ht : 0 ≤ t ∧ t ≤ 2) (ha : a = 1 - t) (hu : u = (1 + 3 * t) / (1 + 0.7 * t)) :
    0 < rN t / rD t - 1.4 * (dN t / dD t) - (0.75 * 0.026 / (1 - 0.67 * a) + 0.25 * (1 / (u ^ 3 + a) / 3.14)) := by
  unfold rN rD dN dD
  interval_bnb [ht] [ha, hu]


/-! ### ringdown amplitude fits -/

/-- `gamma2` of the shipped table -/
lemma gamma2_eq (theta : Theta) : (ringdown_Amp_fits theta PhenomX_amp_coeff_table).1 =
    (0.8312293675316895 + 7.480371544268765 * etaOf theta - 18.256121237800397 * etaOf theta ^ 2) /
      (1 + 10.915453595496611 * etaOf theta - 30.578409433912874 * etaOf theta ^ 2)
    + stotOf theta * (0.5869408584532747 - 0.1467158405070222 * etaOf theta + 0.25295441250444334 * etaOf theta ^ 2
      + (0.031852563636196894 - 2.8489481072076472 * etaOf theta + 4.6849496672664594 * etaOf theta ^ 2) * stotOf theta) /
      (3.8775263105069953 - 3.41755361841226 * stotOf theta + stotOf theta ^ 2)
    - 0.00548054788508203 * ((theta.chi1 - theta.chi2) * dOf theta) * etaOf theta := by
  change ampCV PhenomX_amp_coeff_table 4 (etaOf theta) (stotOf theta) (theta.chi1 - theta.chi2) = _
  simp [ampCV, Amp_Nospin_CV, Amp_Eqspin_CV, Amp_Uneqspin_CV, PhenomX_amp_coeff_table, PhenomX_amp_coeff_table_rows,
    amp_eqspin_indx, amp_uneqspin_indx]
  rw [show Real.sqrt (1 - 4 * etaOf theta) = dOf theta from rfl]
  ring

/-- `gamma3` of the shipped table -/
lemma gamma3_eq (theta : Theta) : (ringdown_Amp_fits theta PhenomX_amp_coeff_table).2.1 =
    (1.3666000000000007 - 4.091333144596439 * etaOf theta + 2.109081209912545 * etaOf theta ^ 2
      - 4.222259944408823 * etaOf theta ^ 3) / (1 - 2.7440263888207594 * etaOf theta)
    + stotOf theta * (0.07179105336478316 - 0.8752427297525086 * etaOf theta + 2.331724812782498 * etaOf theta ^ 2
      + (-0.05633734476062242 + 0.4168560229353532 * etaOf theta - 0.6330998412809531 * etaOf theta ^ 2) * stotOf theta) := by
  change ampCV PhenomX_amp_coeff_table 5 (etaOf theta) (stotOf theta) (theta.chi1 - theta.chi2) = _
  simp [ampCV, Amp_Nospin_CV, Amp_Eqspin_CV, Amp_Uneqspin_CV, PhenomX_amp_coeff_table, PhenomX_amp_coeff_table_rows,
    amp_eqspin_indx, amp_uneqspin_indx]
  ring

lemma gamma2_aux (e S y : ℝ) (he : 0 ≤ e ∧ e ≤ 0.25) (hS : -1 ≤ S ∧ S ≤ 1) (hy : -2 ≤ y ∧ y ≤ 2) :
    0 < (0.8312293675316895 + 7.480371544268765 * e - 18.256121237800397 * e ^ 2) /
      (1 + 10.915453595496611 * e - 30.578409433912874 * e ^ 2)
    + S * (0.5869408584532747 - 0.1467158405070222 * e + 0.25295441250444334 * e ^ 2
      + (0.031852563636196894 - 2.8489481072076472 * e + 4.6849496672664594 * e ^ 2) * S) /
      (3.8775263105069953 - 3.41755361841226 * S + S ^ 2) - 0.00548054788508203 * y * e - 0.6 := by
  interval_bnb [he, hS, hy] []

lemma gamma3_aux (e S : ℝ) (he : 0 ≤ e ∧ e ≤ 0.25) (hS : -1 ≤ S ∧ S ≤ 1) :
    0 < (1.3666000000000007 - 4.091333144596439 * e + 2.109081209912545 * e ^ 2
      - 4.222259944408823 * e ^ 3) / (1 - 2.7440263888207594 * e)
    + S * (0.07179105336478316 - 0.8752427297525086 * e + 2.331724812782498 * e ^ 2
      + (-0.05633734476062242 + 0.4168560229353532 * e - 0.6330998412809531 * e ^ 2) * S) - 1.2 := by
  interval_bnb [he, hS] []

lemma gamma3_aux' (e S : ℝ) (he : 0 ≤ e ∧ e ≤ 0.25) (hS : -1 ≤ S ∧ S ≤ 1) :
    0 < 1.4 - ((1.3666000000000007 - 4.091333144596439 * e + 2.109081209912545 * e ^ 2
      - 4.222259944408823 * e ^ 3) / (1 - 2.7440263888207594 * e)
    + S * (0.07179105336478316 - 0.8752427297525086 * e + 2.331724812782498 * e ^ 2
      + (-0.05633734476062242 + 0.4168560229353532 * e - 0.6330998412809531 * e ^ 2) * S)) := by
  interval_bnb [he, hS] []

lemma gamma2_lo {theta : Theta} (h : theta.Physical) : 0.6 < (ringdown_Amp_fits theta PhenomX_amp_coeff_table).1 := by
  rw [gamma2_eq]
  linarith [gamma2_aux _ _ _ (eta_box h) (stotOf_range h) (dchid_range h)]

lemma gamma3_range {theta : Theta} (h : theta.Physical) : 1.2 < (ringdown_Amp_fits theta PhenomX_amp_coeff_table).2.1 ∧
    (ringdown_Amp_fits theta PhenomX_amp_coeff_table).2.1 < 1.4 := by
  rw [gamma3_eq]
  have h1 := gamma3_aux _ _ (eta_box h) (stotOf_range h)
  have h2 := gamma3_aux' _ _ (eta_box h) (stotOf_range h)
  constructor <;> linarith

/-- the start of the ringdown amplitude region lies within `gamma3` damping frequencies below the ringdown frequency -/
lemma ampRDMin_range {r w g k : ℝ} (hw : 0 < w) (hg : 0 < g) (hk : 0 < k) (hr : w * k ≤ r) :
    r - w * k ≤ ampRDMin r w g k ∧ ampRDMin r w g k < r := by
  have hwk : 0 < w * k := mul_pos hw hk
  -- the offset is a fraction q of w k
  have key : ∃ q : ℝ, 0 < q ∧ q ≤ 1 ∧ ampRDMin r w g k = |r - w * k * q| := by
    unfold ampRDMin
    split_ifs with hle
    · have hs0 : 0 ≤ 1 - g * g := by nlinarith
      have hs := Real.sq_sqrt hs0
      have hsn := Real.sqrt_nonneg (1 - g * g)
      have hs1 : sqrt (1 - g * g) < 1 := by nlinarith
      refine ⟨(1 - sqrt (1 - g * g)) / g, div_pos (by linarith) hg, ?_, ?_⟩
      · rw [div_le_iff₀ hg]; nlinarith
      · congr 1
        ring
    · refine ⟨1 / g, by positivity, ?_, ?_⟩
      · rw [div_le_iff₀ hg]; linarith
      · congr 1
        ring
  obtain ⟨q, q0, q1, he⟩ := key
  have h1 : w * k * q ≤ w * k := by nlinarith
  have h2 : 0 < w * k * q := by positivity
  rw [he, abs_of_nonneg (by linarith)]
  constructor <;> linarith

/-! ### the characteristic frequencies of a physical binary -/

/-- radiated energy of a binary, as a fraction of the total mass -/
noncomputable def eradOf (theta : Theta) : ℝ :=
  eRad (etaOf theta) (dOf theta) (stotOf theta) (theta.chi1 - theta.chi2)

lemma cutoffs_eq (theta : Theta) : get_cutoff_fMs theta.m1 theta.m2 theta.chi1 theta.chi2 =
    ⟨fRDof (spinOf theta) (eradOf theta), fdampOf (spinOf theta) (eradOf theta),
      fMECOof (etaOf theta) (dOf theta) (chipnOf theta) (theta.chi1 - theta.chi2), fISCOof (spinOf theta)⟩ := rfl

lemma erad_range {theta : Theta} (h : theta.Physical) : 0 < eradOf theta ∧ eradOf theta < 0.12 := by
  unfold eradOf
  rw [eRad_eq]
  have := eradG_lt _ _ _ _ (eta_box h) (stotOf_range h) (dchid_range h) (dchisq_range h)
  exact ⟨mul_pos (etaOf_range h).1 (eradG_pos _ _ _ _ (eta_box h) (stotOf_range h) (dchid_range h) (dchisq_range h)),
    by linarith⟩

lemma spin_margin {theta : Theta} (h : theta.Physical) : chipnOf theta - 0.08 < spinOf theta := by
  rw [spinOf_eq h]
  obtain ⟨d0, d1, hd⟩ := dOf_range h
  obtain ⟨e0, e4⟩ := etaOf_range h
  have key := spin_margin_aux (dOf theta) theta.chi1 theta.chi2 (etaOf theta) (stotOf theta) (chipnOf theta)
    ⟨d0, d1.le⟩ (abs_le.1 h.chi1_le) (abs_le.1 h.chi2_le) hd rfl rfl
  have hS : chipnOf theta * (1 - 76 * etaOf theta / 113) = 0.5 * (1 + dOf theta) * theta.chi1 +
      0.5 * (1 - dOf theta) * theta.chi2 - 38 / 113 * etaOf theta * (theta.chi1 + theta.chi2) := by
    unfold chipnOf
    exact div_mul_cancel₀ _ (by linarith)
  have hSt : stotOf theta * (1 - 2 * etaOf theta) = 0.5 * (1 + dOf theta) * theta.chi1 +
      0.5 * (1 - dOf theta) * theta.chi2 - etaOf theta * (theta.chi1 + theta.chi2) := by
    have e1 : (0.5 * (1 + dOf theta)) ^ 2 + (0.5 * (1 - dOf theta)) ^ 2 = 1 - 2 * etaOf theta := by rw [hd]; ring
    unfold stotOf
    rw [e1, div_mul_cancel₀ _ (by linarith)]
    rw [hd]; ring
  unfold spinG
  generalize stotOf theta * (sn1 _ + _) / _ = X at *
  generalize (etaOf theta * sD _ _) = Y at *
  generalize sK (etaOf theta) = K at *
  generalize stotOf theta = St at *
  generalize chipnOf theta = S at *
  generalize dOf theta = d at *
  generalize etaOf theta = e at *
  nlinarith

lemma meco_lo {theta : Theta} (h : theta.Physical) :
    0.01 < fMECOof (etaOf theta) (dOf theta) (chipnOf theta) (theta.chi1 - theta.chi2) := by
  obtain ⟨d0, d1, hd⟩ := dOf_range h
  linarith [meco_lo_aux _ _ _ _ ⟨d0, d1.le⟩ (chipnOf_range h) (dchi_range h) hd]

/-- an upper bound of the MECO frequency in terms of the final spin -/
lemma meco_hi {theta : Theta} (h : theta.Physical) :
    fMECOof (etaOf theta) (dOf theta) (chipnOf theta) (theta.chi1 - theta.chi2) < 0.026 / (1 - 0.67 * spinOf theta) := by
  obtain ⟨d0, d1, hd⟩ := dOf_range h
  have h1 := meco_hi_aux _ _ _ _ ⟨d0, d1.le⟩ (chipnOf_range h) (dchi_range h) hd
  have h2 := spin_margin h
  have h3 := spin_lt h
  have : 0.026 / (1 - 0.67 * (chipnOf theta - 0.08)) ≤ 0.026 / (1 - 0.67 * spinOf theta) := by
    refine div_le_div_of_nonneg_left (by norm_num) (by linarith) (by linarith)
  linarith

lemma div_one_sub_range {x lo hi E : ℝ} (h0 : 0 < E) (h1 : E < 0.12) (hlo : lo < x) (hhi : x < hi) (hp : 0 < lo) :
    lo < x / (1 - E) ∧ x / (1 - E) < hi / 0.88 ∧ x ≤ x / (1 - E) := by
  have hE : 0 < 1 - E := by linarith
  have hx : 0 < x := hp.trans hlo
  have : x ≤ x / (1 - E) := by rw [le_div_iff₀ hE]; nlinarith
  refine ⟨by linarith, ?_, this⟩
  rw [div_lt_div_iff₀ hE (by norm_num)]
  norm_num at h1 ⊢
  nlinarith

lemma fRD_range {theta : Theta} (h : theta.Physical) : 0.045 < fRDof (spinOf theta) (eradOf theta) ∧
    fRDof (spinOf theta) (eradOf theta) < 0.16 / 0.88 ∧
    rN (1 - spinOf theta) / rD (1 - spinOf theta) ≤ fRDof (spinOf theta) (eradOf theta) := by
  have ht : 0 ≤ 1 - spinOf theta ∧ 1 - spinOf theta ≤ 2 := by
    constructor <;> linarith [spin_lt h, spin_gt h]
  have hD := rD_pos _ ht
  rw [fRDof_eq]
  refine div_one_sub_range (erad_range h).1 (erad_range h).2 ?_ ?_ (by norm_num)
  · rw [lt_div_iff₀ hD]; linarith [gR_lo _ ht]
  · rw [div_lt_iff₀ hD]; linarith [gR_hi _ ht]

lemma fdamp_range {theta : Theta} (h : theta.Physical) : 0.0015 < fdampOf (spinOf theta) (eradOf theta) ∧
    fdampOf (spinOf theta) (eradOf theta) < 0.0145 / 0.88 := by
  have ht : 0 ≤ 1 - spinOf theta ∧ 1 - spinOf theta ≤ 2 := by
    constructor <;> linarith [spin_lt h, spin_gt h]
  have hD := dD_pos _ ht
  rw [fdampOf_eq]
  have := div_one_sub_range (x := dN (1 - spinOf theta) / dD (1 - spinOf theta)) (lo := 0.0015) (hi := 0.0145)
    (erad_range h).1 (erad_range h).2 ?_ ?_ (by norm_num)
  · exact ⟨this.1, this.2.1⟩
  · rw [lt_div_iff₀ hD]; linarith [gD_lo _ ht]
  · rw [div_lt_iff₀ hD]; linarith [gD_hi _ ht]

/-- the MECO frequency lies below the start of the ringdown phase fit -/
lemma meco_lt_im {theta : Theta} (h : theta.Physical) :
    fMECOof (etaOf theta) (dOf theta) (chipnOf theta) (theta.chi1 - theta.chi2) <
      0.6 * (fRDof (spinOf theta) (eradOf theta) / 2 + fISCOof (spinOf theta)) := by
  have a1 := spin_gt h
  have a2 := spin_lt h
  have ht : 0 ≤ 1 - spinOf theta ∧ 1 - spinOf theta ≤ 2 := by constructor <;> linarith
  obtain ⟨u, hr, u1, u3, hau, -⟩ := isco_exists a1.le a2.le
  obtain ⟨-, hub⟩ := isco_bounds a1.le a2.le u1 hau
  have him := im_aux (1 - spinOf theta) _ (spinOf theta) ht (by ring) rfl
  have hR := (fRD_range h).2.2
  have hI : 1 / (((1.52 + 1.86 * (1 - spinOf theta)) / (1 + 0.36 * (1 - spinOf theta))) ^ 3 + spinOf theta) / 3.15 ≤
      fISCOof (spinOf theta) := by
    rw [fISCO_eq hr (by linarith)]
    have h3 : u ^ 3 ≤ ((1.52 + 1.86 * (1 - spinOf theta)) / (1 + 0.36 * (1 - spinOf theta))) ^ 3 :=
      pow_le_pow_left₀ (by linarith) hub 3
    have hp : 0 < u ^ 3 + spinOf theta := by
      have : 1 ≤ u ^ 3 := one_le_pow₀ u1
      linarith
    have hpi : π < 3.15 := by linarith [Real.pi_lt_d2]
    rw [div_div, div_div]
    refine one_div_le_one_div_of_le (mul_pos hp Real.pi_pos) ?_
    exact mul_le_mul (by linarith) hpi.le Real.pi_pos.le (by linarith)
  linarith [meco_hi h]

/-- the end of the inspiral amplitude region lies below the ringdown frequency minus 1.4 damping frequencies -/
lemma amp_order {theta : Theta} (h : theta.Physical) :
    0.75 * fMECOof (etaOf theta) (dOf theta) (chipnOf theta) (theta.chi1 - theta.chi2) + 0.25 * fISCOof (spinOf theta) <
      fRDof (spinOf theta) (eradOf theta) - 1.4 * fdampOf (spinOf theta) (eradOf theta) := by
  have a1 := spin_gt h
  have a2 := spin_lt h
  have ht : 0 ≤ 1 - spinOf theta ∧ 1 - spinOf theta ≤ 2 := by constructor <;> linarith
  have hpk := pk_aux (1 - spinOf theta) _ (spinOf theta) ht (by ring) rfl
  have hE := erad_range h
  have hI := isco_hi a1.le a2.le
  -- the difference fRD - 1.4 fdamp only grows when divided by 1 - Erad
  have hd : rN (1 - spinOf theta) / rD (1 - spinOf theta) - 1.4 * (dN (1 - spinOf theta) / dD (1 - spinOf theta)) ≤
      fRDof (spinOf theta) (eradOf theta) - 1.4 * fdampOf (spinOf theta) (eradOf theta) := by
    rw [fRDof_eq, fdampOf_eq]
    have hp : 0 < 1 - eradOf theta := by linarith
    rw [show ∀ x y z : ℝ, x / z - 1.4 * (y / z) = (x - 1.4 * y) / z from fun x y z => by ring, le_div_iff₀ hp]
    have hm := meco_lo h
    have hm' := meco_hi h
    have hi := (isco_pos a1.le a2.le).1
    have : 0 < rN (1 - spinOf theta) / rD (1 - spinOf theta) - 1.4 * (dN (1 - spinOf theta) / dD (1 - spinOf theta)) := by
      rw [show ∀ x : ℝ, 0.75 * 0.026 / x = 0.75 * (0.026 / x) from fun x => by ring] at hpk
      linarith
    nlinarith
  rw [show ∀ x : ℝ, 0.75 * 0.026 / x = 0.75 * (0.026 / x) from fun x => by ring] at hpk
  linarith [meco_hi h]

lemma rd_aux1 (t u a : ℝ) (ht : 0 ≤ t ∧ t ≤ 0.002) (ha : a = 1 - t) (hu : u = (1 + 3 * t) / (1 + 0.7 * t)) :
    0 < rN t / rD t - 1.25 * (dN t / dD t) - 0.6 * ((rN t / rD t) / 2 + 1 / (u ^ 3 + a) / 3.14) := by
  unfold rN rD dN dD
  interval_bnb [ht] [ha, hu]

lemma rd_aux2 (t u a : ℝ) (ht : 0.002 ≤ t ∧ t ≤ 0.5) (ha : a = 1 - t) (hu : u = (1.1 + 5 * t) / (1 + 2 * t)) :
    0 < rN t / rD t - 1.25 * (dN t / dD t) - 0.6 * ((rN t / rD t) / 2 + 1 / (u ^ 3 + a) / 3.14) := by
  unfold rN rD dN dD
  interval_bnb [ht] [ha, hu]

lemma rd_aux3 (t u a : ℝ) (ht : 0.5 ≤ t ∧ t ≤ 2) (ha : a = 1 - t) (hu : u = (1 + 3 * t) / (1 + 0.7 * t)) :
    0 < rN t / rD t - 1.25 * (dN t / dD t) - 0.6 * ((rN t / rD t) / 2 + 1 / (u ^ 3 + a) / 3.14) := by
  unfold rN rD dN dD
  interval_bnb [ht] [ha, hu]

lemma isco_lo2_aux (t x a : ℝ) (ht : 0.002 ≤ t ∧ t ≤ 0.5) (ha : a = 1 - t) (hx : x = (1.1 + 5 * t) / (1 + 2 * t)) :
    0 < -(x ^ 4 - 6 * x ^ 2 + 8 * a * x - 3 * a ^ 2) := by
  interval_bnb [ht] [ha, hx]

lemma isco_hi_of {a x : ℝ} (h1 : -1 ≤ a) (h2 : a ≤ 1) (hx : 1 ≤ x) (hp : 0 < x ^ 3 + a)
    (hQ : x ^ 4 - 6 * x ^ 2 + 8 * a * x - 3 * a ^ 2 ≤ 0) : fISCOof a ≤ 1 / (x ^ 3 + a) / 3.14 := by
  obtain ⟨u, hr, u1, u3, hau, -⟩ := isco_exists h1 h2
  have hlb := le_isco u1 hau hx hQ h2
  rw [fISCO_eq hr (by linarith)]
  have h3 : x ^ 3 ≤ u ^ 3 := pow_le_pow_left₀ (by linarith) hlb 3
  have hpi : 3.14 < π := by linarith [Real.pi_gt_d2]
  rw [div_div, div_div]
  refine one_div_le_one_div_of_le (mul_pos hp (by norm_num)) ?_
  exact mul_le_mul (by linarith) hpi.le (by norm_num) (by linarith)

lemma rd_isco {a : ℝ} (h1 : -1 ≤ a) (h2 : a ≤ 1) :
    0 < rN (1 - a) / rD (1 - a) * 0.7 - 1.25 * (dN (1 - a) / dD (1 - a)) - 0.6 * fISCOof a := by
  have hI := isco_hi h1 h2
  rcases le_total (1 - a) 0.002 with hA | hA
  · linarith [rd_aux1 (1 - a) _ a ⟨by linarith, hA⟩ (by ring) rfl]
  rcases le_total 0.5 (1 - a) with hB | hB
  · linarith [rd_aux3 (1 - a) _ a ⟨hB, by linarith⟩ (by ring) rfl]
  · have hq := isco_lo2_aux (1 - a) _ a ⟨hA, hB⟩ (by ring) rfl
    have hx : 1 ≤ (1.1 + 5 * (1 - a)) / (1 + 2 * (1 - a)) := by
      rw [le_div_iff₀ (by linarith)]; linarith
    have := isco_hi_of h1 h2 hx (by have := one_le_pow₀ hx (n := 3); linarith) (by linarith)
    linarith [rd_aux2 (1 - a) _ a ⟨hA, hB⟩ (by ring) rfl]

/-- the ringdown fit starts more than 1.25 damping frequencies below the ringdown frequency -/
lemma ringdown_order {theta : Theta} (h : theta.Physical) :
    0.6 * (fRDof (spinOf theta) (eradOf theta) / 2 + fISCOof (spinOf theta)) + 1.25 * fdampOf (spinOf theta) (eradOf theta) <
      fRDof (spinOf theta) (eradOf theta) := by
  have a1 := spin_gt h
  have a2 := spin_lt h
  have hrd := rd_isco a1.le a2.le
  have hE := erad_range h
  have hi := (isco_pos a1.le a2.le).1
  have hd : rN (1 - spinOf theta) / rD (1 - spinOf theta) * 0.7 - 1.25 * (dN (1 - spinOf theta) / dD (1 - spinOf theta)) ≤
      fRDof (spinOf theta) (eradOf theta) * 0.7 - 1.25 * fdampOf (spinOf theta) (eradOf theta) := by
    rw [fRDof_eq, fdampOf_eq]
    have hp : 0 < 1 - eradOf theta := by linarith
    rw [show ∀ x y z : ℝ, x / z * 0.7 - 1.25 * (y / z) = (x * 0.7 - 1.25 * y) / z from fun x y z => by ring, le_div_iff₀ hp]
    have : 0 < rN (1 - spinOf theta) / rD (1 - spinOf theta) * 0.7 - 1.25 * (dN (1 - spinOf theta) / dD (1 - spinOf theta)) := by
      linarith
    nlinarith
  linarith

end XAS
end Ripple
