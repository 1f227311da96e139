/-
  Rounding errors of the interpolation in a noise table.
-/
import Verif.Proofs.RoundedNoise
import Verif.Proofs.RoundedAccuracy

namespace Ripple
namespace Fp

noncomputable section
open Jnp

variable {F : Fmt}

/-- position in a cell of a rounded grid -/
lemma frac_near (hF : F.WF) {x0 x1 x G g : ℝ} (h01 : x0 < x1) (h0 : 0 ≤ x0) (h1 : 1 ≤ x1) (hG1 : 1 ≤ G)
    (hG : x1 ≤ G * (x1 - x0)) (hg : g = 2 * F.u * G) (hg32 : g ≤ 1 / 32) (hx0 : x0 ≤ x) (hx1 : x ≤ x1)
    (hm : 8 * F.minNormal ≤ F.u) :
    |F.rd x0 - x0| ≤ g * (x1 - x0) ∧ |F.rd x1 - x1| ≤ g * (x1 - x0)
    ∧ 7 / 8 * (x1 - x0) ≤ F.rd (F.rd x1 - F.rd x0)
    ∧ FNear F (F.div (.fin (F.rd (x - F.rd x0))) (.fin (F.rd (F.rd x1 - F.rd x0)))) ((x - x0) / (x1 - x0)) (9 * g) := by
  have hu := u_pos (F := F)
  have hmp := minNormal_pos (F := F)
  obtain ⟨d, hd⟩ : ∃ d, d = x1 - x0 := ⟨_, rfl⟩
  rw [← hd] at hG ⊢
  have hd0 : 0 < d := by rw [hd]; linarith
  have hx1d : F.u * x1 ≤ g / 2 * d := by
    have := mul_le_mul_of_nonneg_left hG hu.le
    rw [hg]; nlinarith only [this]
  have hug : F.u ≤ g / 2 := by rw [hg]; nlinarith
  have hg0 : 0 < g := by linarith
  have hm1 : 2 * F.minNormal ≤ g / 2 * d := by
    have : F.u * 1 ≤ F.u * x1 := mul_le_mul_of_nonneg_left h1 hu.le
    linarith
  have e0 : |F.rd x0 - x0| ≤ g * d := by
    have h := rd_any hF x0
    rw [abs_of_nonneg h0] at h
    have : F.u * x0 ≤ F.u * x1 := mul_le_mul_of_nonneg_left h01.le hu.le
    linarith
  have e1 : |F.rd x1 - x1| ≤ g * d := by
    have h := rd_any hF x1
    rw [abs_of_nonneg (zero_le_one.trans h1)] at h
    linarith
  generalize F.rd x0 = a at *
  generalize F.rd x1 = b at *
  have a0 := abs_le.1 e0
  have a1 := abs_le.1 e1
  have hgd : 0 < g * d := by positivity
  have hggd : g * (g * d) ≤ 1 / 32 * (g * d) := mul_le_mul_of_nonneg_right hg32 hgd.le
  have hg32d : g * d ≤ 1 / 32 * d := mul_le_mul_of_nonneg_right hg32 hd0.le
  -- the difference of the nodes
  have hQ : |F.rd (b - a) - d| ≤ 4 * (g * d) := by
    have h := rd_any hF (b - a)
    have h2 : |b - a| ≤ d + 2 * (g * d) := by rw [abs_le]; constructor <;> linarith [a0.1, a0.2, a1.1, a1.2]
    have h3 : F.u * |b - a| ≤ g / 2 * (d + 2 * (g * d)) := mul_le_mul hug h2 (abs_nonneg _) (by linarith)
    have h4 := abs_le.1 (h.trans (add_le_add h3 hm1))
    rw [abs_le]; constructor <;> nlinarith only [h4.1, h4.2, a0.1, a0.2, a1.1, a1.2, hggd, hgd, hd]
  -- the distance from the node
  have hP : |F.rd (x - a) - (x - x0)| ≤ 3 * (g * d) := by
    have h := rd_any hF (x - a)
    have h2 : |x - a| ≤ d + g * d := by rw [abs_le]; constructor <;> linarith [a0.1, a0.2]
    have h3 : F.u * |x - a| ≤ g / 2 * (d + g * d) := mul_le_mul hug h2 (abs_nonneg _) (by linarith)
    have h4 := abs_le.1 (h.trans (add_le_add h3 hm1))
    rw [abs_le]; constructor <;> nlinarith only [h4.1, h4.2, a0.1, a0.2, hggd, hgd]
  generalize F.rd (b - a) = Q at *
  generalize F.rd (x - a) = P at *
  have hQ' := abs_le.1 hQ
  have hQ0 : 7 / 8 * d ≤ Q := by linarith [hQ'.1]
  have hQp : 0 < Q := by linarith
  refine ⟨e0, e1, hQ0, ?_⟩
  have ht0 : 0 ≤ (x - x0) / d := div_nonneg (by linarith) hd0.le
  have ht1 : (x - x0) / d ≤ 1 := (div_le_one hd0).2 (by linarith)
  have htd : (x - x0) / d * d = x - x0 := by field_simp
  generalize (x - x0) / d = t at *
  have hdiv : |P / Q - t| ≤ 8 * g := by
    rw [div_sub' hQp.ne', abs_div, abs_of_pos hQp, div_le_iff₀ hQp]
    have hP' := abs_le.1 hP
    have b1 : |P - Q * t| ≤ 7 * (g * d) := by
      have : |t * (d - Q)| ≤ 4 * (g * d) := by
        rw [abs_mul, abs_of_nonneg ht0, abs_sub_comm]
        exact (mul_le_of_le_one_left (abs_nonneg _) ht1).trans hQ
      have := abs_le.1 this
      rw [abs_le]; constructor <;> nlinarith only [this.1, this.2, hP'.1, hP'.2, htd]
    have : 8 * g * (7 / 8 * d) ≤ 8 * g * Q := mul_le_mul_of_nonneg_left hQ0 (by linarith)
    linarith
  have e : F.div (.fin P) (.fin Q) = F.ofReal (P / Q) := by
    unfold Fmt.div; rw [XR.div_fin _ hQp.ne']; rfl
  rw [e]
  have hgu : F.u * (8 * g) ≤ F.u * (1 / 4) := mul_le_mul_of_nonneg_left (by linarith) hu.le
  refine ofReal_fnear hF hdiv (V := 1) (by rw [abs_of_nonneg ht0]; exact ht1) ?_ (by have := hF.max_ge; linarith)
  linarith

/-- interpolation between two rounded values -/
lemma value_near (hF : F.Roomy) {T Y0 Y1 : XR} {t y0 y1 g H : ℝ} (hT : FNear F T t (9 * g)) (ht0 : 0 ≤ t) (ht1 : t ≤ 1)
    (h0 : FNear F Y0 y0 (4 * F.u * y0)) (h1 : FNear F Y1 y1 (4 * F.u * y1)) (p0 : 0 < y0) (p1 : 0 < y1) (H0 : y0 ≤ H) (H1 : y1 ≤ H)
    (hH : H ≤ 1) (hm : 2 * F.minNormal ≤ F.u * H) (hug : F.u ≤ g / 2) (hg32 : g ≤ 1 / 32) :
    FNear F (F.sub Y1 Y0) (y1 - y0) (11 * F.u * H)
    ∧ FNear F (F.add Y0 (F.mul T (F.sub Y1 Y0))) (y0 + t * (y1 - y0)) (25 * g * H) := by
  have hu := u_pos (F := F)
  have hu10 : F.u ≤ 1 / 1024 := by
    have : (2 : ℝ) ^ (-(F.p : ℤ)) ≤ 2 ^ (-10 : ℤ) := zpow_le (by have := hF.ten; omega)
    unfold Fmt.u; norm_num at this ⊢; exact this
  have hmax : (8 : ℝ) ≤ 2 ^ F.emax := hF.toWF.max_ge
  have hHp : 0 < H := p0.trans_le H0
  obtain ⟨τ, rfl, -, hτ⟩ := hT
  obtain ⟨A, rfl, -, hA⟩ := h0
  obtain ⟨B, rfl, -, hB⟩ := h1
  have u0 : F.u * y0 ≤ F.u * H := mul_le_mul_of_nonneg_left H0 hu.le
  have u1 : F.u * y1 ≤ F.u * H := mul_le_mul_of_nonneg_left H1 hu.le
  have uuH : F.u * (F.u * H) ≤ 1 / 1024 * (F.u * H) := mul_le_mul_of_nonneg_right hu10 (by positivity)
  have uH : F.u * H ≤ g / 2 * H := mul_le_mul_of_nonneg_right hug hHp.le
  have uH' : F.u * H ≤ 1 / 1024 * H := mul_le_mul_of_nonneg_right hu10 hHp.le
  have gH : g * H ≤ 1 / 32 * H := mul_le_mul_of_nonneg_right hg32 hHp.le
  have hA' := abs_le.1 hA
  have hB' := abs_le.1 hB
  have hg0 : 0 < g := by linarith
  have hdy : |y1 - y0| ≤ H := by rw [abs_le]; constructor <;> linarith
  have hs : FNear F (F.sub (.fin B) (.fin A)) (y1 - y0) (11 * F.u * H) := by
    have e : F.sub (.fin B) (.fin A) = F.ofReal (B - A) := by unfold Fmt.sub; rw [XR.sub_fin]; rfl
    rw [e]
    refine ofReal_fnear hF.toWF (e := 8 * (F.u * H)) (V := H) ?_ hdy ?_ (by nlinarith)
    · rw [abs_le]; constructor <;> linarith [hA'.1, hA'.2, hB'.1, hB'.2]
    · nlinarith only [uuH, hm, hHp, hu]
  refine ⟨hs, ?_⟩
  obtain ⟨D, eD, -, hD⟩ := hs
  rw [eD]
  have hτ1 : |τ| ≤ 2 := by
    have := abs_le.1 hτ; rw [abs_le]; constructor <;> linarith [this.1, this.2]
  have hprod : |τ * D - t * (y1 - y0)| ≤ 9 * (g * H) + 22 * (F.u * H) := by
    have e : τ * D - t * (y1 - y0) = τ * (D - (y1 - y0)) + (τ - t) * (y1 - y0) := by ring
    rw [e]
    refine (abs_add_le _ _).trans ?_
    rw [abs_mul, abs_mul]
    have a := mul_le_mul hτ1 hD (abs_nonneg _) (by norm_num)
    have b := mul_le_mul hτ hdy (abs_nonneg _) (by positivity)
    linarith
  have ht : |t * (y1 - y0)| ≤ H := by
    rw [abs_mul, abs_of_nonneg ht0]; exact (mul_le_of_le_one_left (abs_nonneg _) ht1).trans hdy
  have hM : FNear F (F.mul (.fin τ) (.fin D)) (t * (y1 - y0)) (9 * (g * H) + 25 * (F.u * H)) := by
    have e : F.mul (.fin τ) (.fin D) = F.ofReal (τ * D) := rfl
    rw [e]
    refine ofReal_fnear hF.toWF (V := H) hprod ht ?_ ?_
    · have : F.u * (9 * (g * H) + 22 * (F.u * H)) ≤ F.u * (9 * (1 / 32 * H) + 22 * (1 / 1024 * H)) :=
        mul_le_mul_of_nonneg_left (by linarith) hu.le
      nlinarith only [this, hm, hHp, hu]
    · nlinarith only [uH', gH, hH, hHp, hmax]
  obtain ⟨M, eM, -, hM⟩ := hM
  rw [eM]
  have e : F.add (.fin A) (.fin M) = F.ofReal (A + M) := rfl
  rw [e]
  have hv : |y0 + t * (y1 - y0)| ≤ H := by
    rw [abs_le]; constructor <;> nlinarith only [p0, p1, H0, H1, ht0, ht1, hHp]
  refine ofReal_fnear hF.toWF (e := 9 * (g * H) + 29 * (F.u * H)) (V := H) ?_ hv ?_ ?_
  · have := abs_le.1 hM
    rw [abs_le]; constructor <;> linarith [hA'.1, hA'.2, this.1, this.2]
  · have : F.u * (9 * (g * H) + 29 * (F.u * H)) ≤ F.u * (9 * (1 / 32 * H) + 29 * (1 / 1024 * H)) :=
      mul_le_mul_of_nonneg_left (by linarith) hu.le
    nlinarith only [this, hm, hHp, hu, uH]
  · nlinarith only [uH', gH, hH, hHp, hmax]

/-- Interpolation in a rounded table: the cell found may be the next one only if the frequency is the rounded node. -/
lemma interp_near (hF : F.Roomy) {eps x G g : ℝ} {xp : List ℝ} {fp : List XR} {X y : ℕ → ℝ} {m : ℕ}
    (hX : ∀ j, j < xp.length → xp.getD j 0 = F.rd (X j)) (hX0 : ∀ j, j < xp.length → 1 ≤ X j)
    (hinc : ∀ i j, i < j → j < xp.length → X i < X j) (hgap : ∀ j, j + 1 < xp.length → 2 * eps < X (j + 1) - X j)
    (hG1 : 1 ≤ G) (hG : ∀ j, j + 1 < xp.length → X (j + 1) ≤ G * (X (j + 1) - X j)) (hg : g = 2 * F.u * G) (hg32 : g ≤ 1 / 32)
    (hy0 : ∀ j, m ≤ j → j < xp.length → 0 < y j) (hy1 : ∀ j, m ≤ j → j < xp.length → y j ≤ 1)
    (hY : ∀ j, m ≤ j → j < xp.length → FNear F (fp.getD j .nan) (y j) (4 * F.u * y j))
    (hm : 8 * F.minNormal ≤ F.u) (hmy : ∀ j, m ≤ j → j < xp.length → 2 * F.minNormal ≤ F.u * y j)
    (hx : F.rd x = x) {k : ℕ} (hmk : m ≤ k) (hk : k + 1 < xp.length) (hx0 : X k ≤ x) (hx1 : x ≤ X (k + 1)) (l r : XR) :
    FNear F (interp F eps x xp fp l r) (y k + (x - X k) / (X (k + 1) - X k) * (y (k + 1) - y k)) (25 * g * max (y k) (y (k + 1))) := by
  have hp := hF.toWF.p1
  have hu := u_pos (F := F)
  have hug : F.u ≤ g / 2 := by rw [hg]; nlinarith
  have hg0 : 0 < g := by linarith
  have hmono : ∀ i j, i ≤ j → j < xp.length → xp.getD i 0 ≤ xp.getD j 0 := by
    intro i j hij hj
    rw [hX i (by omega), hX j hj]
    refine rd_mono hp (by have := hX0 i (by omega); linarith) ?_
    rcases hij.lt_or_eq with h | h
    · exact (hinc i j h hj).le
    · rw [h]
  have ha : xp.getD k 0 ≤ x := by
    rw [hX k (by omega), ← hx]
    exact rd_mono hp (by have := hX0 k (by omega); linarith) hx0
  have hb : x ≤ xp.getD (k + 1) 0 := by
    rw [hX (k + 1) hk, ← hx]
    exact rd_mono hp (by have := hX0 k (by omega); linarith) hx1
  have hxl : ¬ x < xp.getD 0 0 := not_lt.2 ((hmono 0 k (by omega) (by omega)).trans ha)
  have hxr : ¬ xp.getD (xp.length - 1) 0 < x := not_lt.2 (hb.trans (hmono (k + 1) _ (by omega) (by omega)))
  obtain ⟨f0, f1, f2, f3⟩ := frac_near hF.toWF (hinc k (k + 1) (by omega) hk) (by have := hX0 k (by omega); linarith) (hX0 (k + 1) hk) hG1
    (hG k hk) hg hg32 hx0 hx1 hm
  have hd0 : 0 < X (k + 1) - X k := by have := hinc k (k + 1) (by omega) hk; linarith
  have ht0 : 0 ≤ (x - X k) / (X (k + 1) - X k) := div_nonneg (by linarith) hd0.le
  have ht1 : (x - X k) / (X (k + 1) - X k) ≤ 1 := (div_le_one hd0).2 (by linarith)
  have hH := le_max_left (y k) (y (k + 1))
  have hH' := le_max_right (y k) (y (k + 1))
  have hHm : 2 * F.minNormal ≤ F.u * max (y k) (y (k + 1)) :=
    (hmy k hmk (by omega)).trans (mul_le_mul_of_nonneg_left hH hu.le)
  by_cases hcase : x < xp.getD (k + 1) 0 ∨ k + 2 = xp.length
  · have hi : min (max (searchsortedRight xp x) 1) (xp.length - 1) = k + 1 := by
      have h1 := search_le (xp := xp) (x := x) (K := k) (by omega) (fun i hi => (hmono i k hi (by omega)).trans ha)
      rcases hcase with h | h
      · have h2 := search_ge (xp := xp) (x := x) (L := k + 1) (by omega) (fun i hi hi' => h.trans_le (hmono _ i hi hi'))
        omega
      · omega
    have hne : ¬ |F.rd (F.rd (X (k + 1)) - F.rd (X k))| ≤ eps := by
      have := hgap k hk
      rw [abs_of_nonneg (by linarith)]; linarith
    unfold interp
    simp only [hi, if_neg hxl, if_neg hxr, Nat.add_sub_cancel]
    rw [hX k (by omega), hX (k + 1) hk, if_neg hne]
    exact (value_near hF f3 ht0 ht1 (hY k hmk (by omega)) (hY (k + 1) (by omega) hk) (hy0 k hmk (by omega))
      (hy0 (k + 1) (by omega) hk) hH hH' (max_le (hy1 k hmk (by omega)) (hy1 (k + 1) (by omega) hk)) hHm hug hg32).2
  · push Not at hcase
    obtain ⟨hc1, hc2⟩ := hcase
    have hxe : x = xp.getD (k + 1) 0 := le_antisymm hb hc1
    have hk2 : k + 1 + 1 < xp.length := by omega
    have hX1 := hX0 (k + 1) hk
    have hd1 := hinc (k + 1) (k + 1 + 1) (by omega) hk2
    obtain ⟨-, -, q2, -⟩ := frac_near hF.toWF hd1 (by linarith) (hX0 (k + 1 + 1) hk2) hG1 (hG (k + 1) hk2) hg hg32 le_rfl hd1.le hm
    have hQ : 0 < F.rd (F.rd (X (k + 1 + 1)) - F.rd (X (k + 1))) := by linarith
    have hlt : xp.getD (k + 1) 0 < xp.getD (k + 1 + 1) 0 := by
      refine lt_of_le_of_ne (hmono _ _ (by omega) hk2) fun h => ?_
      rw [hX (k + 1) hk, hX (k + 1 + 1) hk2] at h
      rw [h, sub_self, rd_zero] at hQ
      exact lt_irrefl _ hQ
    have hi : min (max (searchsortedRight xp x) 1) (xp.length - 1) = k + 1 + 1 := by
      have h1 := search_le (xp := xp) (x := x) (K := k + 1) (by omega) (fun i hi => (hmono i (k + 1) hi (by omega)).trans hc1)
      have h2 := search_ge (xp := xp) (x := x) (L := k + 1 + 1) (by omega)
        (fun i hi hi' => (hxe.le.trans_lt hlt).trans_le (hmono _ i hi hi'))
      omega
    obtain ⟨A, eA, hAf, hA⟩ := hY (k + 1) (by omega) hk
    have hval : interp F eps x xp fp l r = fp.getD (k + 1) .nan := by
      have hne : ¬ |F.rd (F.rd (X (k + 1 + 1)) - F.rd (X (k + 1)))| ≤ eps := by
        have := hgap (k + 1) hk2
        rw [abs_of_pos hQ]; linarith
      have hs := (value_near hF f3 ht0 ht1 (hY (k + 1) (by omega) hk) (hY (k + 1 + 1) (by omega) hk2) (hy0 (k + 1) (by omega) hk)
        (hy0 (k + 1 + 1) (by omega) hk2) (hy1 (k + 1) (by omega) hk) (hy1 (k + 1 + 1) (by omega) hk2) le_rfl (by linarith) hug hg32).1
      obtain ⟨D, eD, -, -⟩ := hs
      unfold interp
      simp only [hi, if_neg hxl, if_neg hxr, Nat.add_sub_cancel]
      rw [hX (k + 1 + 1) hk2, ← hxe, sub_self, rd_zero, hxe, hX (k + 1) hk, if_neg hne, eD, eA]
      have e1 : F.div (.fin 0) (.fin (F.rd (F.rd (X (k + 1 + 1)) - F.rd (X (k + 1))))) = .fin 0 := by
        rw [div_fin hQ.ne' (by simp) (by rw [zero_div, rd_zero]; exact two_zpow_pos _), zero_div, rd_zero]
      have e2 : F.mul (.fin 0) (.fin D) = .fin 0 := by
        rw [mul_fin (by simp) (by rw [zero_mul, rd_zero]; exact two_zpow_pos _), zero_mul, rd_zero]
      rw [e1, e2]
      show F.ofReal (A + 0) = _
      have h2 := abs_lt.1 hAf.2
      unfold Fmt.ofReal
      rw [add_zero, hAf.1, if_neg (by linarith), if_neg (by linarith)]
    rw [hval]
    refine ⟨A, eA, hAf, ?_⟩
    have p0 := hy0 k hmk (by omega)
    have p1 := hy0 (k + 1) (by omega) hk
    have hxX : |x - X (k + 1)| ≤ g * (X (k + 1) - X k) := by rw [hxe, hX (k + 1) hk]; exact f1
    have ht : |(x - X k) / (X (k + 1) - X k) - 1| ≤ g := by
      rw [div_sub_one hd0.ne', abs_div, abs_of_pos hd0, div_le_iff₀ hd0]
      rw [show x - X k - (X (k + 1) - X k) = x - X (k + 1) by ring]; exact hxX
    generalize (x - X k) / (X (k + 1) - X k) = t at *
    have e : A - (y k + t * (y (k + 1) - y k)) = (A - y (k + 1)) - (t - 1) * (y (k + 1) - y k) := by ring
    rw [e]
    have hdy : |y (k + 1) - y k| ≤ max (y k) (y (k + 1)) := by rw [abs_le]; constructor <;> linarith
    have h1 := mul_le_mul ht hdy (abs_nonneg _) hg0.le
    have h2 := abs_sub (A - y (k + 1)) ((t - 1) * (y (k + 1) - y k))
    rw [abs_mul] at h2
    have h3 : F.u * y (k + 1) ≤ g / 2 * max (y k) (y (k + 1)) := mul_le_mul hug hH' p1.le (by linarith)
    have h4 : 0 ≤ g * max (y k) (y (k + 1)) := mul_nonneg hg0.le (p0.le.trans hH)
    linarith

/-! ### shipped tables -/

/-- neighbouring numbers differ at most by the factor `R` -/
def ratioOK (R : ℕ) : List ℕ → Bool
  | a :: l => (match l with
      | [] => true
      | b :: _ => Nat.ble b (R * a) && Nat.ble a (R * b)) && ratioOK R l
  | [] => true

/-- each number is at most `G` times its distance from the number before -/
def relGap (G : ℕ) : List ℕ → Bool
  | a :: l => (match l with
      | [] => true
      | b :: _ => Nat.ble (b + G * a) (G * b)) && relGap G l
  | [] => true

lemma ratioOK_spec {R : ℕ} : ∀ {l : List ℕ}, ratioOK R l = true → ∀ k, k + 1 < l.length →
    l.getD (k + 1) 0 ≤ R * l.getD k 0 ∧ l.getD k 0 ≤ R * l.getD (k + 1) 0 := by
  intro l
  induction l with
  | nil => intro _ k hk; simp at hk
  | cons a l ih =>
    intro h k hk
    simp only [ratioOK, Bool.and_eq_true] at h
    cases l with
    | nil => simp at hk
    | cons b l =>
      cases k with
      | zero =>
        simp only [Bool.and_eq_true] at h
        exact ⟨Nat.le_of_ble_eq_true h.1.1, Nat.le_of_ble_eq_true h.1.2⟩
      | succ k =>
        have := ih h.2 k (by simpa using hk)
        simpa using this

lemma relGap_spec {G : ℕ} : ∀ {l : List ℕ}, relGap G l = true → ∀ k, k + 1 < l.length →
    l.getD (k + 1) 0 + G * l.getD k 0 ≤ G * l.getD (k + 1) 0 := by
  intro l
  induction l with
  | nil => intro _ k hk; simp at hk
  | cons a l ih =>
    intro h k hk
    simp only [relGap, Bool.and_eq_true] at h
    cases l with
    | nil => simp at hk
    | cons b l =>
      cases k with
      | zero => exact Nat.le_of_ble_eq_true h.1
      | succ k =>
        have := ih h.2 k (by simpa using hk)
        simpa using this

lemma rd64_eq (b : Bool) {x : ℝ} (h : 2 ^ (-1022 : ℤ) ≤ x) : (binary64 b).rd x = (binary64 false).rd x := by
  have e : ∀ c, (binary64 c).minNormal = 2 ^ (-1022 : ℤ) := fun c => by simp [Fmt.minNormal, binary64]
  rw [rd_normal (wf64 b).p1 (by rw [e]; exact h), rd_normal (wf64 false).p1 (by rw [e]; exact h)]
  rfl

lemma rd64_rel {x : ℝ} (h : 2 ^ (-1022 : ℤ) ≤ x) : |(binary64 false).rd x - x| ≤ 2 ^ (-53 : ℤ) * x := by
  have e : (binary64 false).minNormal = 2 ^ (-1022 : ℤ) := by simp [Fmt.minNormal, binary64]
  have h0 : 0 < x := (two_zpow_pos _).trans_le h
  have h2 := rnd_rel (F := binary64 false) (x := x) (by rw [e, abs_of_pos h0]; exact h)
  rw [rd_normal (wf64 false).p1 (by rw [e]; exact h)]
  rwa [abs_of_pos h0] at h2

/-- a stored number of the table -/
lemma store64 (b : Bool) {y r : ℝ} (h : 2 ^ (-1022 : ℤ) ≤ r) (hr : r ≤ 1) (hy : |(binary64 false).rd r - y| ≤ 4 * 2 ^ (-53 : ℤ) * y) :
    FNear (binary64 b) ((binary64 b).gradual.round (zeroToInf ((binary64 false).round (.fin r)))) y (4 * (binary64 b).u * y) := by
  have hb := rd64_bounds (k := 0) (by norm_num) h (by simpa using hr)
  rw [zpow_zero] at hb
  have hp := two_zpow_pos (-1022)
  have hmax : (1 : ℝ) < 2 ^ (1024 : ℤ) := one_lt_zpow₀ (by norm_num) (by norm_num)
  rw [round_fin (hp.le.trans h) (hb.2.trans_lt hmax), zeroToInf_fin (hp.trans_le hb.1).ne']
  have hg : (binary64 b).gradual = binary64 false := rfl
  have hi := rd_idem (wf64 false).p1 r
  rw [hg, round_fin (hp.le.trans hb.1) (by rw [hi]; exact hb.2.trans_lt hmax), hi]
  refine ⟨_, rfl, ⟨?_, ?_⟩, ?_⟩
  · rw [rd64_eq b hb.1, hi]
  · rw [abs_of_pos (hp.trans_le hb.1)]; exact hb.2.trans_lt hmax
  · have : (binary64 b).u = 2 ^ (-53 : ℤ) := by simp [Fmt.u, binary64]
    rw [this]; exact hy

lemma store64_psd (b : Bool) {v : ℝ} (h : 2 ^ (-240 : ℤ) ≤ v) (hv : v ≤ 1) :
    FNear (binary64 b) ((binary64 b).gradual.round (zeroToInf ((binary64 false).round (.fin v)))) v (4 * (binary64 b).u * v) := by
  have h' : (2 : ℝ) ^ (-1022 : ℤ) ≤ v := (zpow_le (by norm_num)).trans h
  refine store64 b h' hv ((rd64_rel h').trans ?_)
  have : 0 < (2 : ℝ) ^ (-53 : ℤ) * v := mul_pos (two_zpow_pos _) ((two_zpow_pos _).trans_le h)
  linarith

lemma store64_asd (b : Bool) {v : ℝ} (h : 2 ^ (-240 : ℤ) ≤ v) (hv : v ≤ 1) :
    FNear (binary64 b) ((binary64 b).gradual.round (zeroToInf ((binary64 false).mul ((binary64 false).round (.fin v))
      ((binary64 false).round (.fin v))))) (v ^ 2) (4 * (binary64 b).u * v ^ 2) := by
  have hw := wf64 false
  have hp := two_zpow_pos (-240)
  have h' : (2 : ℝ) ^ (-1022 : ℤ) ≤ v := (zpow_le (by norm_num)).trans h
  have hb := rd64_bounds (k := 0) (by norm_num) h' (by simpa using hv)
  rw [zpow_zero] at hb
  have h5 : 2 ^ (-240 : ℤ) ≤ (binary64 false).rd v := by
    have h1 := hw.float_pow (k := -240) (by rw [Fmt.minNormal]; exact zpow_le (by simp [binary64]))
    have h2 := rd_mono (F := binary64 false) hw.p1 hp.le h
    rwa [h1] at h2
  have hmax : (1 : ℝ) < 2 ^ (1024 : ℤ) := one_lt_zpow₀ (by norm_num) (by norm_num)
  rw [round_fin (hp.le.trans h) (hb.2.trans_lt hmax)]
  have hr := rd64_rel h'
  generalize (binary64 false).rd v = w at *
  have hw0 : 0 < w := hp.trans_le h5
  have hv0 : 0 < v := hp.trans_le h
  have e1 : (2 : ℝ) ^ (-1022 : ℤ) ≤ w * w := by
    have := mul_le_mul h5 h5 hp.le hw0.le
    rw [← zpow_add₀ two_ne_zero] at this
    exact (zpow_le (by norm_num)).trans this
  refine store64 b (r := w * w) e1 (by nlinarith) ?_
  have h2 := rd64_rel e1
  have hu : (2 : ℝ) ^ (-53 : ℤ) ≤ 1 / 1024 := by norm_num
  have hu0 := two_zpow_pos (-53)
  generalize (2 : ℝ) ^ (-53 : ℤ) = u at *
  generalize (binary64 false).rd (w * w) = z at *
  have a := abs_le.1 hr
  have c := abs_le.1 h2
  have w1 : w * w ≤ (1 + 5 / 2 * u) * v ^ 2 := by
    have : w ≤ (1 + u) * v := by linarith [a.2]
    have := mul_le_mul this this hw0.le (by positivity)
    have h3 : (1 + u) * (1 + u) ≤ 1 + 5 / 2 * u := by nlinarith
    have h4 := mul_le_mul_of_nonneg_right h3 (sq_nonneg v)
    nlinarith
  have w2 : (1 - 5 / 2 * u) * v ^ 2 ≤ w * w := by
    have : (1 - u) * v ≤ w := by linarith [a.1]
    have := mul_le_mul this this (mul_nonneg (by linarith) hv0.le) hw0.le
    have h3 : 1 - 5 / 2 * u ≤ (1 - u) * (1 - u) := by nlinarith
    have h4 := mul_le_mul_of_nonneg_right h3 (sq_nonneg v)
    nlinarith
  have w3 : u * (w * w) ≤ 5 / 4 * (u * v ^ 2) := by
    have h3 : w * w ≤ 5 / 4 * v ^ 2 := by nlinarith [sq_nonneg v]
    have := mul_le_mul_of_nonneg_left h3 hu0.le
    linarith
  have w4 : 0 < u * v ^ 2 := by positivity
  rw [abs_le]; constructor <;> linarith [c.1, c.2]

/-- The curve of a table in double precision. -/
lemma shipped_accurate (b : Bool) {eps : ℝ} (he : 0 ≤ eps) {Fq V : List ℕ} {p q m d R G : ℕ} (asd : Bool)
    (hlen : Fq.length = m + V.length) (hV : 2 ≤ V.length) (hgap : gapOK d Fq = true) (hed : 2 * eps ≤ (d : ℝ) / 10 ^ p)
    (hq : q ≤ 70) (hB : allLe (10 ^ q) V = true) (hR : ratioOK R V = true) (hG : relGap G Fq = true) (hG1 : 1 ≤ G) (hG2 : G ≤ 2 ^ 47)
    (h0 : 10 ^ p ≤ Fq.getD 0 0) {x : ℝ} (hx : (binary64 b).rd x = x)
    (h1 : (Fq.getD m 0 : ℝ) / 10 ^ p ≤ x) (h2 : x ≤ (Fq.getD (Fq.length - 1) 0 : ℝ) / 10 ^ p) :
    ∃ exact rounded : ℝ, (Ripple._load_noise eps (tableF Fq p) (tableCol m V q) asd).1 x = .fin exact
      ∧ (_load_noise (binary64 b) eps (tableF Fq p) (tableCol m V q) asd).1 x = .fin rounded
      ∧ (binary64 b).IsFloat rounded ∧ 0 < exact
      ∧ |rounded - exact| ≤ 50 * 2 ^ (-53 : ℤ) * G * (if asd then (R : ℝ) ^ 2 else R) * exact := by
  have hF : (binary64 b).Roomy := ⟨wf64 b, by simp [binary64], by simp [binary64]⟩
  have hu : (binary64 b).u = 2 ^ (-53 : ℤ) := by simp [Fmt.u, binary64]
  have hmn : (binary64 b).minNormal = 2 ^ (-1022 : ℤ) := by simp [Fmt.minNormal, binary64]
  have hp10 : (0 : ℝ) < 10 ^ p := by positivity
  have hg : GoodGrid (2 * eps) (tableF Fq p) := tableF_good (by omega) hgap hed
  have hg1 : GoodGrid eps (tableF Fq p) := ⟨hg.1, fun k hk => by have := hg.2 k hk; linarith⟩
  have h2e : 0 ≤ 2 * eps := by linarith
  have hLn := tableF_length Fq p
  have hcl : (tableCol m V q).length = (tableF Fq p).length := by rw [tableCol_length, hLn, hlen]
  have hXi : ∀ i j, i < j → j < Fq.length → (Fq.getD i 0 : ℝ) / 10 ^ p < (Fq.getD j 0 : ℝ) / 10 ^ p := by
    intro i j hij hj
    have := hg.lt h2e hij (by rw [hLn]; exact hj)
    rwa [tableF_getD, tableF_getD] at this
  have hX0 : ∀ j, j < Fq.length → 1 ≤ (Fq.getD j 0 : ℝ) / 10 ^ p := by
    intro j hj
    have h3 : (1 : ℝ) ≤ (Fq.getD 0 0 : ℝ) / 10 ^ p := by rw [le_div_iff₀ hp10, one_mul]; exact_mod_cast h0
    rcases Nat.eq_zero_or_pos j with rfl | hj0
    · exact h3
    · exact h3.trans (hXi 0 j hj0 hj).le
  -- the cell
  obtain ⟨k, hmk, hk, hxa, hxb⟩ : ∃ k, m ≤ k ∧ k + 1 < Fq.length ∧ (Fq.getD k 0 : ℝ) / 10 ^ p ≤ x
      ∧ (x < (Fq.getD (k + 1) 0 : ℝ) / 10 ^ p ∨ k + 2 = Fq.length ∧ x = (Fq.getD (k + 1) 0 : ℝ) / 10 ^ p) := by
    rcases h2.lt_or_eq with h2 | h2
    · have h3 : (tableF Fq p).getD 0 0 ≤ x := by
        rw [tableF_getD]
        rcases Nat.eq_zero_or_pos m with rfl | hm0
        · exact h1
        · exact (hXi 0 m hm0 (by omega)).le.trans h1
      obtain ⟨k, hk, ha, hb⟩ := GoodGrid.exists_cell h3 (Fq.length - 1) (by omega) (by rw [tableF_getD]; exact h2)
      rw [tableF_getD] at ha hb
      refine ⟨k, ?_, by omega, ha, Or.inl hb⟩
      by_contra hc
      have : (Fq.getD (k + 1) 0 : ℝ) / 10 ^ p ≤ (Fq.getD m 0 : ℝ) / 10 ^ p := by
        rcases (show k + 1 ≤ m by omega).lt_or_eq with h | h
        · exact (hXi _ _ h (by omega)).le
        · rw [h]
      linarith
    · obtain ⟨k, hk⟩ : ∃ k, Fq.length = k + 2 := ⟨Fq.length - 2, by omega⟩
      have e : Fq.length - 1 = k + 1 := by omega
      rw [e] at h2
      exact ⟨k, by omega, by omega, by rw [h2]; exact (hXi k (k + 1) (by omega) (by omega)).le, Or.inr ⟨hk.symm, h2⟩⟩
  -- the entries
  have hent : ∀ j, m ≤ j → j < Fq.length → (tableCol m V q).getD j .nan = .fin ((V.getD (j - m) 0 : ℝ) / 10 ^ q) := by
    intro j hj hj'
    have hjV : j - m < V.length := by omega
    unfold tableCol
    rw [List.getD_append_right _ _ _ _ (by simp; omega), List.length_replicate, List.getD_eq_getElem _ _ (by simpa using hjV),
      List.getElem_map, List.getD_eq_getElem _ _ hjV]
  have h10 : (0 : ℝ) < 10 ^ q := by positivity
  have hv : ∀ j, m ≤ j → j < Fq.length → 2 ^ (-240 : ℤ) ≤ (V.getD (j - m) 0 : ℝ) / 10 ^ q ∧ (V.getD (j - m) 0 : ℝ) / 10 ^ q ≤ 1 := by
    intro j hj hj'
    have hjV : j - m < V.length := by omega
    obtain ⟨a1, a2⟩ := allLe_spec hB (V.getD (j - m) 0) (by rw [List.getD_eq_getElem _ _ hjV]; exact List.getElem_mem _)
    have b1 : (1 : ℝ) ≤ V.getD (j - m) 0 := by exact_mod_cast a1
    have b2 : (V.getD (j - m) 0 : ℝ) ≤ 10 ^ q := by exact_mod_cast a2
    refine ⟨?_, (div_le_one h10).2 b2⟩
    rw [le_div_iff₀ h10]
    have : (10 : ℝ) ^ q ≤ 10 ^ 70 := pow_le_pow_right₀ (by norm_num) hq
    calc (2 : ℝ) ^ (-240 : ℤ) * 10 ^ q ≤ 2 ^ (-240 : ℤ) * 10 ^ 70 := mul_le_mul_of_nonneg_left this (two_zpow_pos _).le
      _ ≤ 1 := by norm_num
      _ ≤ _ := b1
  have hrat : ∀ j, m ≤ j → j + 1 < Fq.length →
      (V.getD (j + 1 - m) 0 : ℝ) / 10 ^ q ≤ R * ((V.getD (j - m) 0 : ℝ) / 10 ^ q)
      ∧ (V.getD (j - m) 0 : ℝ) / 10 ^ q ≤ R * ((V.getD (j + 1 - m) 0 : ℝ) / 10 ^ q) := by
    intro j hj hj'
    obtain ⟨a1, a2⟩ := ratioOK_spec hR (j - m) (by omega)
    rw [show j - m + 1 = j + 1 - m by omega] at a1 a2
    rw [← mul_div_assoc, ← mul_div_assoc]
    exact ⟨div_le_div_of_nonneg_right (by exact_mod_cast a1) h10.le, div_le_div_of_nonneg_right (by exact_mod_cast a2) h10.le⟩
  obtain ⟨v, hvdef⟩ : ∃ v : ℕ → ℝ, ∀ j, v j = (V.getD (j - m) 0 : ℝ) / 10 ^ q := ⟨_, fun _ => rfl⟩
  simp only [← hvdef] at hent hv hrat
  have hvp : ∀ j, m ≤ j → j < Fq.length → 0 < v j := fun j a c => (two_zpow_pos _).trans_le (hv j a c).1
  obtain ⟨X, hXdef⟩ : ∃ X : ℕ → ℝ, ∀ j, X j = (Fq.getD j 0 : ℝ) / 10 ^ p := ⟨_, fun _ => rfl⟩
  have hXt : ∀ j, (tableF Fq p).getD j 0 = X j := fun j => by rw [tableF_getD, hXdef]
  simp only [← hXdef] at hXi hX0 hxa hxb
  have hk0 : k < Fq.length := by omega
  -- the exact value
  refine ⟨(if asd then v k ^ 2 else v k) + (x - X k) / (X (k + 1) - X k) *
    ((if asd then v (k + 1) ^ 2 else v (k + 1)) - (if asd then v k ^ 2 else v k)), ?_⟩
  have hd0 : 0 < X (k + 1) - X k := by have := hXi k (k + 1) (by omega) hk; linarith
  have hxb' : x ≤ X (k + 1) := by rcases hxb with h | h; exacts [h.le, h.2.le]
  have hexact : (Ripple._load_noise eps (tableF Fq p) (tableCol m V q) asd).1 x = .fin ((if asd then v k ^ 2 else v k) +
      (x - X k) / (X (k + 1) - X k) * ((if asd then v (k + 1) ^ 2 else v (k + 1)) - (if asd then v k ^ 2 else v k))) := by
    rcases hxb with h | ⟨h, h'⟩
    · have := psd_cell he hg1 (tableCol m V q) asd (k := k) (x := x) (by rw [hLn]; exact hk) hcl (hvp k hmk hk0)
        (hvp (k + 1) (by omega) hk) (hent k hmk hk0) (hent (k + 1) (by omega) hk) (by rw [hXt]; exact hxa) (by rw [hXt]; exact h)
      rw [this, hXt, hXt]
    · have e1 : (tableF Fq p).length - 1 = k + 1 := by omega
      have e2 : (tableF Fq p).length - 2 = k := by omega
      have := psd_last he hg1 (tableCol m V q) asd hcl (hvp k hmk hk0)
        (hvp (k + 1) (by omega) hk) (by rw [e2]; exact hent k hmk hk0) (by rw [e1]; exact hent (k + 1) (by omega) hk)
      rw [e1, hXt, ← h'] at this
      rw [this, h', div_self hd0.ne']
      congr 1; ring
  -- the rounded value
  have hfl : (((tableF Fq p).map (binary64 false).rd).map (binary64 b).gradual.rd).length = Fq.length := by
    simp [tableF_length]
  have hfs : ∀ j, j < Fq.length → (((tableF Fq p).map (binary64 false).rd).map (binary64 b).gradual.rd).getD j 0
      = (binary64 b).rd (X j) := by
    intro j hj
    rw [map_getD _ _ _ (by simp [tableF_length, hj]) 0, map_getD _ _ _ (by rw [tableF_length]; exact hj) 0, hXt]
    have hg' : (binary64 b).gradual = binary64 false := rfl
    rw [hg', rd_idem (wf64 false).p1, rd64_eq b]
    have : (2 : ℝ) ^ (-1022 : ℤ) ≤ 2 ^ (0 : ℤ) := zpow_le (by norm_num)
    rw [zpow_zero] at this
    exact this.trans (hX0 j hj)
  obtain ⟨y, hy⟩ : ∃ y : ℕ → ℝ, ∀ j, y j = if asd then v j ^ 2 else v j := ⟨_, fun _ => rfl⟩
  have hylow : ∀ j, m ≤ j → j < Fq.length → 2 ^ (-480 : ℤ) ≤ y j ∧ y j ≤ 1 := by
    intro j hj hj'
    obtain ⟨a1, a2⟩ := hv j hj hj'
    rw [hy]
    cases asd
    · simp only [Bool.false_eq_true, if_false]
      exact ⟨(zpow_le (by norm_num)).trans a1, a2⟩
    · simp only [if_true]
      have := mul_le_mul a1 a1 (two_zpow_pos _).le (hvp j hj hj').le
      rw [← zpow_add₀ two_ne_zero] at this
      exact ⟨by rw [sq]; exact this, pow_le_one₀ (hvp j hj hj').le a2⟩
  have hyp : ∀ j, m ≤ j → j < Fq.length → 0 < y j := fun j a c => (two_zpow_pos _).trans_le (hylow j a c).1
  have hYn : ∀ j, m ≤ j → j < Fq.length → FNear (binary64 b)
      ((((if asd then ((tableCol m V q).map (binary64 false).round).map fun s => (binary64 false).mul s s
        else (tableCol m V q).map (binary64 false).round).map zeroToInf).map (binary64 b).gradual.round).getD j .nan)
      (y j) (4 * (binary64 b).u * y j) := by
    intro j hj hj'
    have hjc : j < (tableCol m V q).length := by rw [hcl, hLn]; exact hj'
    obtain ⟨a1, a2⟩ := hv j hj hj'
    rw [hy]
    cases asd
    · simp only [Bool.false_eq_true, if_false]
      rw [map_getD _ _ _ (by simpa using hjc) .nan, map_getD _ _ _ (by simpa using hjc) .nan, map_getD _ _ _ hjc .nan, hent j hj hj']
      exact store64_psd b a1 a2
    · simp only [if_true]
      rw [map_getD _ _ _ (by simpa using hjc) .nan, map_getD _ _ _ (by simpa using hjc) .nan,
        map_getD _ _ _ (by simpa using hjc) .nan, map_getD _ _ _ hjc .nan, hent j hj hj']
      exact store64_asd b a1 a2
  have hnear : FNear (binary64 b) ((_load_noise (binary64 b) eps (tableF Fq p) (tableCol m V q) asd).1 x)
      (y k + (x - X k) / (X (k + 1) - X k) * (y (k + 1) - y k)) (25 * (2 * (binary64 b).u * G) * max (y k) (y (k + 1))) := by
    refine interp_near hF (G := G) (m := m) ?_ ?_ ?_ ?_ ?_ ?_ rfl ?_ ?_ ?_ ?_ ?_ ?_ hx hmk ?_ hxa hxb' _ _
    · rw [hfl]; exact hfs
    · rw [hfl]; exact hX0
    · rw [hfl]; exact hXi
    · rw [hfl]; intro j hj
      have := hg.2 j (by rw [hLn]; exact hj)
      rw [hXt, hXt] at this; linarith
    · exact_mod_cast hG1
    · rw [hfl]; intro j hj
      have h3 := relGap_spec hG j hj
      have h4 : (Fq.getD (j + 1) 0 : ℝ) + G * Fq.getD j 0 ≤ G * Fq.getD (j + 1) 0 := by exact_mod_cast h3
      rw [hXdef, hXdef, ← sub_div, ← mul_div_assoc]
      exact div_le_div_of_nonneg_right (by linarith) hp10.le
    · rw [hu]
      have : (G : ℝ) ≤ 2 ^ 47 := by exact_mod_cast hG2
      calc (2 : ℝ) * 2 ^ (-53 : ℤ) * G ≤ 2 * 2 ^ (-53 : ℤ) * 2 ^ 47 := mul_le_mul_of_nonneg_left this (by positivity)
        _ ≤ 1 / 32 := by norm_num
    · rw [hfl]; exact hyp
    · rw [hfl]; exact fun j a c => (hylow j a c).2
    · rw [hfl]; exact hYn
    · rw [hu, hmn]
      have : (8 : ℝ) * 2 ^ (-1022 : ℤ) = 2 ^ (-1019 : ℤ) := by
        rw [show (8 : ℝ) = 2 ^ (3 : ℤ) by norm_num, ← zpow_add₀ two_ne_zero]; norm_num
      rw [this]; exact zpow_le (by norm_num)
    · rw [hfl]; intro j a c
      rw [hu, hmn]
      have h3 : (2 : ℝ) * 2 ^ (-1022 : ℤ) = 2 ^ (-1021 : ℤ) := by
        rw [← zpow_one_add₀ two_ne_zero]; norm_num
      have h4 := mul_le_mul_of_nonneg_left (hylow j a c).1 (two_zpow_pos (-53)).le
      rw [← zpow_add₀ two_ne_zero] at h4
      rw [h3]; exact (zpow_le (by norm_num)).trans h4
    · rw [hfl]; exact hk
  obtain ⟨r, er, hrf, hr⟩ := hnear
  have ht0 : 0 ≤ (x - X k) / (X (k + 1) - X k) := div_nonneg (by linarith) hd0.le
  have ht1 : (x - X k) / (X (k + 1) - X k) ≤ 1 := (div_le_one hd0).2 (by linarith)
  have hRp : (0 : ℝ) ≤ R := Nat.cast_nonneg R
  have hry : y (k + 1) ≤ (if asd then (R : ℝ) ^ 2 else R) * y k ∧ y k ≤ (if asd then (R : ℝ) ^ 2 else R) * y (k + 1) := by
    obtain ⟨r1, r2⟩ := hrat k hmk hk
    have v0 := hvp k hmk hk0
    have v1 := hvp (k + 1) (by omega) hk
    rw [hy, hy]
    cases asd
    · simp only [Bool.false_eq_true, if_false]; exact ⟨r1, r2⟩
    · simp only [if_true]
      rw [← mul_pow, ← mul_pow]
      exact ⟨pow_le_pow_left₀ v1.le r1 2, pow_le_pow_left₀ v0.le r2 2⟩
  rw [← hy k, ← hy (k + 1)] at hexact ⊢
  rw [hu] at hr
  have y0 := hyp k hmk hk0
  have y1 := hyp (k + 1) (by omega) hk
  have hS : (1 : ℝ) ≤ (if asd then (R : ℝ) ^ 2 else R) := by
    by_contra hc
    push Not at hc
    have a := mul_lt_mul_of_pos_right hc y0
    have c := mul_lt_mul_of_pos_right hc y1
    linarith [hry.1, hry.2]
  generalize (if asd then (R : ℝ) ^ 2 else R) = S at *
  generalize (x - X k) / (X (k + 1) - X k) = t at *
  have hmin : max (y k) (y (k + 1)) ≤ S * (y k + t * (y (k + 1) - y k)) := by
    have e : S * (y k + t * (y (k + 1) - y k)) = (1 - t) * (S * y k) + t * (S * y (k + 1)) := by ring
    have h1t : 0 ≤ 1 - t := by linarith
    rw [e]
    refine max_le ?_ ?_
    · have a := mul_le_mul_of_nonneg_left hry.2 ht0
      have c := mul_le_mul_of_nonneg_left (le_mul_of_one_le_left y0.le hS) h1t
      linarith
    · have a := mul_le_mul_of_nonneg_left hry.1 h1t
      have c := mul_le_mul_of_nonneg_left (le_mul_of_one_le_left y1.le hS) ht0
      linarith
  refine ⟨r, hexact, er, hrf, ?_, hr.trans ?_⟩
  · have : 0 < S * (y k + t * (y (k + 1) - y k)) := (y0.trans_le (le_max_left _ _)).trans_le hmin
    exact pos_of_mul_pos_right this (by linarith)
  · have hG0 : (0 : ℝ) ≤ G := Nat.cast_nonneg G
    have := mul_le_mul_of_nonneg_left hmin (show (0 : ℝ) ≤ 25 * (2 * 2 ^ (-53 : ℤ) * G) by positivity)
    refine this.trans (le_of_eq (by ring))

end
end Fp
end Ripple
