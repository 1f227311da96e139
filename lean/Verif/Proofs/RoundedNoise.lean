/-
  Noise tables in rounded arithmetic.
-/
import Verif.Model.RoundedNoise
import Verif.Proofs.Rounded
import Verif.Proofs.Noise

namespace Ripple
namespace Fp

noncomputable section
open Jnp

variable {F : Fmt}

/-- Results up to half the smallest positive number vanish. -/
lemma rd_tiny {x : ℝ} (hp : 1 ≤ F.p) (h : |x| ≤ 2 ^ (F.qmin - 1)) : F.rd x = 0 := by
  rcases eq_or_ne x 0 with rfl | h0
  · exact rd_zero
  have hl : F.lsb x = F.qmin := by
    refine max_eq_right ?_
    have := (log_le_abs h0).trans h
    have := (zpow_le_zpow_iff_right₀ (one_lt_two (α := ℝ))).1 this
    omega
  have hr : F.rnd x = 0 := by
    unfold Fmt.rnd
    rw [hl, rne_small, Int.cast_zero, zero_mul]
    have hz := two_zpow_pos F.qmin
    rw [abs_div, abs_of_pos hz, div_le_iff₀ hz]
    rw [zpow_sub₀ two_ne_zero, zpow_one] at h; linarith
  unfold Fmt.rd; rw [hr]; simp

lemma round_fin {x : ℝ} (h0 : 0 ≤ x) (h : F.rd x < 2 ^ F.emax) : F.round (.fin x) = .fin (F.rd x) := ofReal_fin h0 h

/-- What is stored for a positive tiny number of double precision. -/
lemma store_zero (b : Bool) {y : ℝ} (h0 : 0 < y) (h : y ≤ 2 ^ (-150 : ℤ)) :
    (binary32 b).gradual.round (zeroToInf (.fin y)) = .fin 0 := by
  rw [zeroToInf_fin h0.ne']
  have e : (binary32 b).gradual.rd y = 0 := rd_tiny (by simp [Fmt.gradual, binary32]) (by
    rw [abs_of_pos h0]; exact h)
  rw [round_fin h0.le (by rw [e]; exact two_zpow_pos _), e]

lemma rd64_bounds {v : ℝ} {k : ℤ} (hk : -1022 ≤ k) (hv0 : 2 ^ (-1022 : ℤ) ≤ v) (hv : v ≤ 2 ^ k) :
    2 ^ (-1022 : ℤ) ≤ (binary64 false).rd v ∧ (binary64 false).rd v ≤ 2 ^ k := by
  have hw := wf64 false
  have e : (binary64 false).minNormal = 2 ^ (-1022 : ℤ) := by simp [Fmt.minNormal, binary64]
  constructor
  · have h1 := hw.float_pow (k := -1022) (by rw [e])
    have h2 := rd_mono (F := binary64 false) hw.p1 (two_zpow_pos (-1022)).le hv0
    rwa [h1] at h2
  · have h1 := hw.float_pow (k := k) (by rw [e]; exact zpow_le hk)
    have h2 := rd_mono (F := binary64 false) hw.p1 ((two_zpow_pos (-1022)).le.trans hv0) hv
    rwa [h1] at h2

lemma entry_psd (b : Bool) {v : ℝ} (hv0 : 2 ^ (-1022 : ℤ) ≤ v) (hv : v ≤ 2 ^ (-150 : ℤ)) :
    (binary32 b).gradual.round (zeroToInf ((binary64 false).round (.fin v))) = .fin 0 := by
  have h := rd64_bounds (by norm_num) hv0 hv
  have hp := two_zpow_pos (-1022)
  have hmax : (binary64 false).rd v < 2 ^ (binary64 false).emax :=
    h.2.trans_lt (zpow_lt_zpow_right₀ one_lt_two (by simp [binary64]))
  rw [round_fin (hp.le.trans hv0) hmax]
  exact store_zero b (hp.trans_le h.1) h.2

lemma entry_asd (b : Bool) {v : ℝ} (hv0 : 2 ^ (-240 : ℤ) ≤ v) (hv : v ≤ 2 ^ (-75 : ℤ)) :
    (binary32 b).gradual.round (zeroToInf ((binary64 false).mul ((binary64 false).round (.fin v))
      ((binary64 false).round (.fin v)))) = .fin 0 := by
  have hw := wf64 false
  have hp := two_zpow_pos (-240)
  have h := rd64_bounds (by norm_num) ((zpow_le (by norm_num)).trans hv0) hv
  have h5 : 2 ^ (-240 : ℤ) ≤ (binary64 false).rd v := by
    have h1 := hw.float_pow (k := -240) (by rw [Fmt.minNormal]; exact zpow_le (by simp [binary64]))
    have h2 := rd_mono (F := binary64 false) hw.p1 hp.le hv0
    rwa [h1] at h2
  have hmax : (binary64 false).rd v < 2 ^ (binary64 false).emax :=
    h.2.trans_lt (zpow_lt_zpow_right₀ one_lt_two (by simp [binary64]))
  rw [round_fin (hp.le.trans hv0) hmax]
  generalize (binary64 false).rd v = w at *
  have hw0 : 0 < w := hp.trans_le h5
  have e1 : (2 : ℝ) ^ (-480 : ℤ) ≤ w * w := by
    have := mul_le_mul h5 h5 hp.le hw0.le
    rwa [← zpow_add₀ two_ne_zero] at this
  have e2 : w * w ≤ 2 ^ (-150 : ℤ) := by
    have := mul_le_mul h.2 h.2 hw0.le (two_zpow_pos _).le
    rwa [← zpow_add₀ two_ne_zero] at this
  have h' := rd64_bounds (by norm_num) ((zpow_le (by norm_num)).trans e1) e2
  rw [mul_fin (by positivity) (h'.2.trans_lt (zpow_lt_zpow_right₀ one_lt_two (by simp [binary64])))]
  exact store_zero b ((two_zpow_pos (-1022)).trans_le h'.1) h'.2

/-! ### interpolation between zeros -/

lemma fin_zero_mul {a : ℝ} : F.mul (.fin a) (.fin 0) = .fin 0 := by
  have e : F.rd (a * 0) = 0 := by rw [mul_zero]; exact rd_zero
  rw [mul_fin (by simp) (by rw [e]; exact two_zpow_pos _), e]

lemma zero_sub_zero : F.sub (.fin 0) (.fin 0) = .fin 0 := by
  have e : F.rd (0 - 0) = 0 := by rw [sub_zero]; exact rd_zero
  rw [sub_fin (by simp) (by rw [e]; exact two_zpow_pos _), e]

lemma zero_add_zero : F.add (.fin 0) (.fin 0) = .fin 0 := by
  have e : F.rd (0 + 0) = 0 := by rw [add_zero]; exact rd_zero
  rw [add_fin (by simp) (by rw [e]; exact two_zpow_pos _), e]

lemma search_le {xp : List ℝ} {x : ℝ} {K : ℕ} (hK : K < xp.length) (h : ∀ i, i ≤ K → xp.getD i 0 ≤ x) :
    K + 1 ≤ searchsortedRight xp x := by
  unfold searchsortedRight
  rw [← List.take_append_drop (K + 1) xp, List.countP_append]
  refine le_trans (le_of_eq ?_) (Nat.le_add_right _ _)
  rw [List.countP_eq_length.2, List.length_take, min_eq_left (by omega)]
  intro a ha
  obtain ⟨i, hi, rfl⟩ := List.mem_iff_getElem.1 ha
  rw [List.length_take, min_eq_left (by omega)] at hi
  have := h i (by omega)
  rw [List.getD_eq_getElem _ _ (by omega)] at this
  simpa using this

lemma search_ge {xp : List ℝ} {x : ℝ} {L : ℕ} (hL : L ≤ xp.length) (h : ∀ i, L ≤ i → i < xp.length → x < xp.getD i 0) :
    searchsortedRight xp x ≤ L := by
  unfold searchsortedRight
  rw [← List.take_append_drop L xp, List.countP_append]
  have e2 : List.countP (fun a => decide (a ≤ x)) (xp.drop L) = 0 := by
    rw [List.countP_eq_zero]
    intro a ha
    obtain ⟨i, hi, rfl⟩ := List.mem_iff_getElem.1 ha
    rw [List.length_drop] at hi
    have := h (L + i) (by omega) (by omega)
    rw [List.getD_eq_getElem _ _ (by omega)] at this
    simpa using this
  rw [e2, add_zero]
  refine (List.countP_le_length).trans ?_
  rw [List.length_take]; omega

lemma interp_zero (hF : F.WF) {eps x : ℝ} (he : 0 ≤ eps) {xp : List ℝ} {fp : List XR}
    (hm : ∀ i j, i ≤ j → j < xp.length → xp.getD i 0 ≤ xp.getD j 0) {K L : ℕ} (hKL : K < L) (hL : L < xp.length)
    (hz : ∀ j, K ≤ j → j ≤ L → fp.getD j .nan = .fin 0) (h1 : xp.getD K 0 ≤ x)
    (h2 : x < xp.getD L 0 ∨ L + 1 = xp.length ∧ x ≤ xp.getD L 0) (l r : XR) :
    interp F eps x xp fp l r = .fin 0 := by
  have hp := hF.p1
  have hs1 := search_le (xp := xp) (x := x) (K := K) (by omega) (fun i hi => (hm i K hi (by omega)).trans h1)
  have hxL : x ≤ xp.getD L 0 := by rcases h2 with h | h; exacts [h.le, h.2]
  obtain ⟨i, hi, hKi, hiL, hxi⟩ : ∃ i, min (max (searchsortedRight xp x) 1) (xp.length - 1) = i ∧ K + 1 ≤ i ∧ i ≤ L
      ∧ x ≤ xp.getD i 0 ∧ xp.getD (i - 1) 0 ≤ x := by
    rcases lt_or_ge x (xp.getD L 0) with h | h
    · obtain ⟨k, hk, ha, hb⟩ := GoodGrid.exists_cell (xp := xp) ((hm 0 K (by omega) (by omega)).trans h1) L hL h
      have e := countP_split xp x (k + 1) (by omega) (fun j hj => (hm j k (by omega) (by omega)).trans ha)
        (fun j hj hj' => hb.trans_le (hm (k + 1) j hj hj'))
      refine ⟨k + 1, by rw [e]; omega, by omega, hk, hb.le, by simpa using ha⟩
    · have hl : L + 1 = xp.length := by
        rcases h2 with h' | h'
        · linarith
        · exact h'.1
      have := search_le (xp := xp) (x := x) hL (fun j hj => (hm j L hj hL).trans h)
      exact ⟨L, by omega, by omega, le_rfl, hxL, (hm (L - 1) L (by omega) hL).trans h⟩
  have hx0 : ¬ x < xp.getD 0 0 := not_lt.2 ((hm 0 K (by omega) (by omega)).trans h1)
  have hx1 : ¬ xp.getD (xp.length - 1) 0 < x := not_lt.2 (hxL.trans (hm L _ (by omega) (by omega)))
  unfold interp
  simp only [hi, if_neg hx0, if_neg hx1]
  rw [hz i (by omega) hiL, hz (i - 1) (by omega) (by omega), zero_sub_zero]
  split_ifs with hd
  · rfl
  have hd0 : 0 ≤ F.rd (xp.getD i 0 - xp.getD (i - 1) 0) := rd_nonneg (by linarith [hxi.1, hxi.2])
  have hd1 : 0 < F.rd (xp.getD i 0 - xp.getD (i - 1) 0) := by
    rcases hd0.lt_or_eq with h | h
    · exact h
    · rw [← h, abs_zero] at hd; exact absurd he hd
  have hle : F.rd (x - xp.getD (i - 1) 0) ≤ F.rd (xp.getD i 0 - xp.getD (i - 1) 0) :=
    rd_mono hp (by linarith [hxi.2]) (by linarith [hxi.1])
  have hdel : 0 ≤ F.rd (x - xp.getD (i - 1) 0) := rd_nonneg (by linarith [hxi.2])
  have hq0 := div_nonneg hdel hd1.le
  have hq : F.rd (F.rd (x - xp.getD (i - 1) 0) / F.rd (xp.getD i 0 - xp.getD (i - 1) 0)) ≤ 1 := by
    have h3 := hF.float_pow (k := 0) (by have := hF.min_le; norm_num; linarith)
    rw [zpow_zero] at h3
    rw [← h3]
    exact rd_mono hp hq0 ((div_le_one hd1).2 hle)
  rw [div_fin hd1.ne' hq0 (by have := hF.max_ge; linarith), fin_zero_mul, zero_add_zero]

/-! ### shipped tables -/

/-- all numbers positive and at most `B` -/
def allLe (B : ℕ) : List ℕ → Bool
  | a :: l => Nat.ble 1 a && Nat.ble a B && allLe B l
  | [] => true

lemma allLe_spec {B : ℕ} : ∀ {l : List ℕ}, allLe B l = true → ∀ v ∈ l, 0 < v ∧ v ≤ B := by
  intro l
  induction l with
  | nil => intro _ v hv; cases hv
  | cons a l ih =>
    intro h v hv
    simp only [allLe, Bool.and_eq_true] at h
    rcases List.mem_cons.1 hv with rfl | hv
    · exact ⟨Nat.le_of_ble_eq_true h.1.1, Nat.le_of_ble_eq_true h.1.2⟩
    · exact ih h.2 v hv

lemma map_getD {α β : Type} (f : α → β) (l : List α) (k : ℕ) (hk : k < l.length) (d : α) (e : β) :
    (l.map f).getD k e = f (l.getD k d) := by
  simp [List.getD_eq_getElem?_getD, List.getElem?_eq_getElem hk]

lemma float32_64 (b : Bool) {x : ℝ} (hx : (binary32 b).rd x = x) : (binary64 false).rd x = x := by
  obtain ⟨n, k, h1, h2, h3⟩ := float_form (wf32 b).p1 hx
  have e := rnd_exact (F := binary64 false) n h1 (le_trans (by simp [binary64, binary32]) h2)
    (h3.trans (by simp [binary64, binary32]))
  unfold Fmt.rd; rw [if_neg (by simp [binary64]), e]

lemma rnd_rd {x : ℝ} : F.gradual.rd x = F.rnd x := by
  unfold Fmt.rd; rw [if_neg (by simp [Fmt.gradual])]; rfl

/-- A stretch of a table whose values are too small for single precision: the curve is zero on it. -/
lemma shipped_zero (b : Bool) {eps : ℝ} (he : 0 ≤ eps) {Fq V : List ℕ} {p q m B : ℕ} (asd : Bool)
    (hlen : Fq.length = m + V.length) (hgap : gapOK 0 Fq = true) (hq : q ≤ 70) {K L : ℕ} (hKm : m ≤ K) (hKL : K < L)
    (hL : L < Fq.length) (hB : B * 2 ^ (if asd then 75 else 150) ≤ 10 ^ q)
    (hz : allLe B ((V.drop (K - m)).take (L - K + 1)) = true) {x : ℝ} (hx : (binary32 b).rd x = x)
    (h1 : (Fq.getD K 0 : ℝ) / 10 ^ p ≤ x)
    (h2 : x < (binary32 b).rnd ((binary64 false).rd ((Fq.getD L 0 : ℝ) / 10 ^ p))
      ∨ L + 1 = Fq.length ∧ x ≤ (Fq.getD L 0 : ℝ) / 10 ^ p) :
    (_load_noise (binary32 b) eps (tableF Fq p) (tableCol m V q) asd).1 x = .fin 0 := by
  have w32 := wf32 b
  have w64 := wf64 false
  have hp10 : (0 : ℝ) < 10 ^ p := by positivity
  have hxd := float32_64 b hx
  have hxr := rd_rnd hx
  -- the stored frequencies
  have hfs : ∀ j, j < Fq.length → (((tableF Fq p).map (binary64 false).rd).map (binary32 b).gradual.rd).getD j 0
      = (binary32 b).rnd ((binary64 false).rd ((Fq.getD j 0 : ℝ) / 10 ^ p)) := by
    intro j hj
    rw [map_getD _ _ _ (by simp [tableF_length, hj]) 0, map_getD _ _ _ (by rw [tableF_length]; exact hj) 0, tableF_getD, rnd_rd]
  have hlen' : (((tableF Fq p).map (binary64 false).rd).map (binary32 b).gradual.rd).length = Fq.length := by
    simp [tableF_length]
  have hmono : ∀ u v : ℝ, 0 ≤ u → u ≤ v → (binary32 b).rnd ((binary64 false).rd u) ≤ (binary32 b).rnd ((binary64 false).rd v) :=
    fun u v h0 h => rnd_mono w32.p1 (rd_nonneg h0) (rd_mono w64.p1 h0 h)
  have hg : GoodGrid 0 (tableF Fq p) := tableF_good (by omega) hgap (by simp)
  have hm : ∀ i j, i ≤ j → j < (((tableF Fq p).map (binary64 false).rd).map (binary32 b).gradual.rd).length →
      (((tableF Fq p).map (binary64 false).rd).map (binary32 b).gradual.rd).getD i 0
        ≤ (((tableF Fq p).map (binary64 false).rd).map (binary32 b).gradual.rd).getD j 0 := by
    intro i j hij hj
    rw [hlen'] at hj
    rw [hfs i (by omega), hfs j hj]
    have := hg.le le_rfl hij (by rw [tableF_length]; exact hj)
    rw [tableF_getD, tableF_getD] at this
    exact hmono _ _ (by positivity) this
  have hxx : (binary32 b).rnd ((binary64 false).rd x) = x := by rw [hxd, hxr]
  refine interp_zero w32 he hm (K := K) (L := L) hKL (by rw [hlen']; exact hL) ?_ ?_ ?_ _ _
  · intro j hj hj'
    have hjV : j - m < V.length := by omega
    have hent : (tableCol m V q).getD j .nan = .fin ((V.getD (j - m) 0 : ℝ) / 10 ^ q) := by
      unfold tableCol
      rw [List.getD_append_right _ _ _ _ (by simp; omega), List.length_replicate, List.getD_eq_getElem _ _ (by simpa using hjV),
        List.getElem_map, List.getD_eq_getElem _ _ hjV]
    have hmem : V.getD (j - m) 0 ∈ (V.drop (K - m)).take (L - K + 1) := by
      have hlt : j - K < ((V.drop (K - m)).take (L - K + 1)).length := by
        rw [List.length_take, List.length_drop]; omega
      have := List.getElem_mem hlt
      rw [List.getElem_take, List.getElem_drop] at this
      rw [List.getD_eq_getElem _ _ hjV]
      convert this using 2; omega
    obtain ⟨hv0, hvB⟩ := allLe_spec hz _ hmem
    generalize V.getD (j - m) 0 = v at *
    have hv1 : (1 : ℝ) ≤ v := by exact_mod_cast hv0
    have h10 : (0 : ℝ) < 10 ^ q := by positivity
    have hlow : (2 : ℝ) ^ (-240 : ℤ) ≤ (v : ℝ) / 10 ^ q := by
      rw [le_div_iff₀ h10]
      have : (10 : ℝ) ^ q ≤ 10 ^ 70 := pow_le_pow_right₀ (by norm_num) hq
      calc (2 : ℝ) ^ (-240 : ℤ) * 10 ^ q ≤ 2 ^ (-240 : ℤ) * 10 ^ 70 := mul_le_mul_of_nonneg_left this (two_zpow_pos _).le
        _ ≤ 1 := by norm_num
        _ ≤ v := hv1
    have hjc : j < (tableCol m V q).length := by rw [tableCol_length]; omega
    have hup : ∀ e : ℕ, B * 2 ^ e ≤ 10 ^ q → (v : ℝ) / 10 ^ q ≤ 2 ^ (-(e : ℤ)) := by
      intro e h
      rw [div_le_iff₀ h10, zpow_neg, zpow_natCast, ← div_eq_inv_mul, le_div_iff₀ (by positivity)]
      have : v * 2 ^ e ≤ 10 ^ q := (Nat.mul_le_mul_right _ hvB).trans h
      exact_mod_cast this
    cases asd
    · simp only [Bool.false_eq_true, if_false] at hB ⊢
      rw [map_getD _ _ _ (by simpa using hjc) .nan, map_getD _ _ _ (by simpa using hjc) .nan, map_getD _ _ _ hjc .nan, hent]
      exact entry_psd b ((zpow_le (by norm_num)).trans hlow) (hup 150 hB)
    · simp only [if_true] at hB ⊢
      rw [map_getD _ _ _ (by simpa using hjc) .nan, map_getD _ _ _ (by simpa using hjc) .nan,
        map_getD _ _ _ (by simpa using hjc) .nan, map_getD _ _ _ hjc .nan, hent]
      exact entry_asd b hlow (hup 75 hB)
  · rw [hfs K (by omega), ← hxx]
    exact hmono _ _ (by positivity) h1
  · rw [hlen', hfs L hL]
    refine h2.imp id fun h => ⟨h.1, ?_⟩
    rw [← hxx]
    refine hmono _ _ ?_ h.2
    exact le_trans (by positivity) h1

end
end Fp
end Ripple
