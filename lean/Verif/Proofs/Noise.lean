import Verif.Model.NoiseTables
import Verif.Proofs.Interp
import Mathlib.Tactic.Positivity

namespace Ripple
open Jnp

/-- value of the PSD at row `k` of a finite table -/
noncomputable def psdEntry (asd : Bool) (vals : List ℝ) (k : ℕ) : ℝ :=
  if asd then vals.getD k 0 ^ 2 else vals.getD k 0

lemma psdEntry_pos {asd : Bool} {vals : List ℝ} (hpos : ∀ v ∈ vals, 0 < v) {k : ℕ} (hk : k < vals.length) :
    0 < psdEntry asd vals k := by
  have : 0 < vals.getD k 0 := by
    rw [List.getD_eq_getElem _ _ hk]; exact hpos _ (List.getElem_mem _)
  unfold psdEntry; split_ifs <;> positivity

/-- the processed column: squares if ASD, zeros replaced by inf -/
noncomputable def processed (asd : Bool) (col : List XR) : List XR :=
  (if asd then col.map fun s => s * s else col).map zeroToInf

lemma load_noise_fst (eps : ℝ) (fs : List ℝ) (col : List XR) (asd : Bool) (f : ℝ) :
    (_load_noise eps fs col asd).1 f = interpX eps f fs (processed asd col) .pinf .pinf := rfl

lemma processed_getD (asd : Bool) (col : List XR) {k : ℕ} (hk : k < col.length) :
    (processed asd col).getD k .nan =
      zeroToInf (if asd then col.getD k .nan * col.getD k .nan else col.getD k .nan) := by
  unfold processed
  cases asd
  · simp [List.getD_eq_getElem?_getD, List.getElem?_eq_getElem hk]
  · simp [List.getD_eq_getElem?_getD, List.getElem?_eq_getElem hk]

lemma zeroToInf_fin {r : ℝ} (h : r ≠ 0) : zeroToInf (.fin r) = .fin r := by simp [zeroToInf, h]

lemma processed_fin (asd : Bool) (col : List XR) {k : ℕ} (hk : k < col.length) {v : ℝ} (hv : 0 < v)
    (h : col.getD k .nan = .fin v) :
    (processed asd col).getD k .nan = .fin (if asd then v ^ 2 else v) := by
  rw [processed_getD asd col hk, h]
  cases asd
  · simp [zeroToInf_fin hv.ne']
  · have : v * v ≠ 0 := by positivity
    simp [zeroToInf_fin this, pow_two]

lemma processed_pinf (asd : Bool) (col : List XR) {k : ℕ} (hk : k < col.length)
    (h : col.getD k .nan = .pinf) : (processed asd col).getD k .nan = .pinf := by
  rw [processed_getD asd col hk, h]
  cases asd <;> rfl

lemma psd_cell {eps : ℝ} (he : 0 ≤ eps) {fs : List ℝ} (hg : GoodGrid eps fs) (col : List XR) (asd : Bool)
    {k : ℕ} (hk : k + 1 < fs.length) (hlen : col.length = fs.length) {u v x : ℝ} (hu : 0 < u) (hv : 0 < v)
    (e1 : col.getD k .nan = .fin u) (e2 : col.getD (k + 1) .nan = .fin v)
    (h1 : fs.getD k 0 ≤ x) (h2 : x < fs.getD (k + 1) 0) :
    (_load_noise eps fs col asd).1 x = .fin ((if asd then u ^ 2 else u) +
      (x - fs.getD k 0) / (fs.getD (k + 1) 0 - fs.getD k 0) *
        ((if asd then v ^ 2 else v) - (if asd then u ^ 2 else u))) := by
  rw [load_noise_fst, interpX_cell he hg _ _ _ hk h1 h2, processed_fin asd col (by omega) hu e1,
    processed_fin asd col (by omega) hv e2, XR.sub_fin, XR.mul_fin, XR.add_fin]

lemma psd_last {eps : ℝ} (he : 0 ≤ eps) {fs : List ℝ} (hg : GoodGrid eps fs) (col : List XR) (asd : Bool)
    (hlen : col.length = fs.length) {u v : ℝ} (hu : 0 < u) (hv : 0 < v)
    (e1 : col.getD (fs.length - 2) .nan = .fin u) (e2 : col.getD (fs.length - 1) .nan = .fin v) :
    (_load_noise eps fs col asd).1 (fs.getD (fs.length - 1) 0) = .fin (if asd then v ^ 2 else v) := by
  have := hg.1
  rw [load_noise_fst, interpX_last he hg, processed_fin asd col (by omega) hu e1,
    processed_fin asd col (by omega) hv e2, XR.sub_fin, XR.mul_fin, XR.add_fin]
  congr 1; ring

/-- a cell whose left value is infinite yields NaN on the whole half-open cell -/
lemma psd_cell_inf {eps : ℝ} (he : 0 ≤ eps) {fs : List ℝ} (hg : GoodGrid eps fs) (col : List XR) (asd : Bool)
    {k : ℕ} (hk : k + 1 < fs.length) (hlen : col.length = fs.length) {x : ℝ}
    (e1 : col.getD k .nan = .pinf) (e2 : col.getD (k + 1) .nan = .pinf ∨ ∃ v, 0 < v ∧ col.getD (k + 1) .nan = .fin v)
    (h1 : fs.getD k 0 ≤ x) (h2 : x < fs.getD (k + 1) 0) :
    (_load_noise eps fs col asd).1 x = .nan := by
  rw [load_noise_fst, interpX_cell he hg _ _ _ hk h1 h2, processed_pinf asd col (by omega) e1]
  rcases e2 with e2 | ⟨v, hv, e2⟩
  · rw [processed_pinf asd col (by omega) e2]; simp
  · rw [processed_fin asd col (by omega) hv e2]
    set t := (x - fs.getD k 0) / (fs.getD (k + 1) 0 - fs.getD k 0)
    have ht : 0 ≤ t := div_nonneg (by linarith) (by linarith)
    generalize (if asd then v ^ 2 else v) = w
    have e3 : XR.fin w - XR.pinf = XR.ninf := rfl
    rw [e3]
    have e4 : XR.fin t * XR.ninf = XR.infMul (-t) := rfl
    rw [e4, XR.infMul]
    rcases ht.lt_or_eq with h | h
    · rw [if_neg (by linarith), if_neg (by linarith)]; rfl
    · rw [if_pos (by linarith)]; rfl

/-! kernel-checkable conditions on integer tables -/

def gapOK (d : ℕ) : List ℕ → Bool
  | a :: l => (match l with
      | [] => true
      | b :: _ => Nat.ble (a + d + 1) b) && gapOK d l
  | [] => true

def allPos : List ℕ → Bool
  | a :: l => Nat.ble 1 a && allPos l
  | [] => true

lemma gapOK_spec {d : ℕ} : ∀ {l : List ℕ}, gapOK d l = true → ∀ k, k + 1 < l.length → l.getD k 0 + d < l.getD (k + 1) 0 := by
  intro l
  induction l with
  | nil => intro _ k hk; simp at hk
  | cons a l ih =>
    intro h k hk
    simp only [gapOK, Bool.and_eq_true] at h
    cases l with
    | nil => simp at hk
    | cons b l =>
      cases k with
      | zero => have := Nat.le_of_ble_eq_true h.1; simp; omega
      | succ k =>
        have := ih h.2 k (by simpa using hk)
        simpa using this

lemma allPos_spec : ∀ {l : List ℕ}, allPos l = true → ∀ v ∈ l, 0 < v := by
  intro l
  induction l with
  | nil => intro _ v hv; cases hv
  | cons a l ih =>
    intro h v hv
    simp only [allPos, Bool.and_eq_true] at h
    rcases List.mem_cons.1 hv with rfl | hv
    · exact Nat.le_of_ble_eq_true h.1
    · exact ih h.2 v hv

lemma tableF_getD (l : List ℕ) (p k : ℕ) : (tableF l p).getD k 0 = (l.getD k 0 : ℝ) / 10 ^ p := by
  unfold tableF
  by_cases hk : k < l.length
  · simp [List.getD_eq_getElem?_getD, List.getElem?_eq_getElem hk]
  · simp [List.getD_eq_getElem?_getD, List.getElem?_eq_none (not_lt.1 hk)]

lemma tableF_length (l : List ℕ) (p : ℕ) : (tableF l p).length = l.length := by simp [tableF]

lemma tableF_good {l : List ℕ} {p d : ℕ} (hl : 2 ≤ l.length) (hg : gapOK d l = true) {eps : ℝ}
    (he : eps ≤ (d : ℝ) / 10 ^ p) : GoodGrid eps (tableF l p) := by
  refine ⟨by rwa [tableF_length], fun k hk => ?_⟩
  rw [tableF_length] at hk
  have h := gapOK_spec hg k hk
  rw [tableF_getD, tableF_getD]
  have h' : (l.getD k 0 : ℝ) + d < (l.getD (k + 1) 0 : ℝ) := by exact_mod_cast h
  have hp : (0 : ℝ) < 10 ^ p := by positivity
  calc (l.getD k 0 : ℝ) / 10 ^ p + eps ≤ (l.getD k 0 : ℝ) / 10 ^ p + (d : ℝ) / 10 ^ p := by linarith
    _ = ((l.getD k 0 : ℝ) + d) / 10 ^ p := by ring
    _ < _ := by gcongr

lemma tableCol_length (m : ℕ) (l : List ℕ) (q : ℕ) : (tableCol m l q).length = m + l.length := by simp [tableCol]

lemma tableCol_inf {m : ℕ} (l : List ℕ) (q : ℕ) {k : ℕ} (hk : k < m) : (tableCol m l q).getD k .nan = .pinf := by
  unfold tableCol
  rw [List.getD_append _ _ _ _ (by simpa using hk), List.getD_eq_getElem _ _ (by simpa using hk)]
  simp

lemma tableCol_fin {m : ℕ} {l : List ℕ} (q : ℕ) {k : ℕ} (hk : m ≤ k) (hk' : k < m + l.length) (hp : allPos l = true) :
    ∃ v : ℝ, 0 < v ∧ (tableCol m l q).getD k .nan = .fin v := by
  unfold tableCol
  rw [List.getD_append_right _ _ _ _ (by simpa using hk), List.length_replicate,
    List.getD_eq_getElem _ _ (by simp; omega)]
  refine ⟨_, ?_, List.getElem_map ..⟩
  have : 0 < l[k - m]'(by omega) := allPos_spec hp _ (List.getElem_mem _)
  positivity

/-- a shipped-table PSD is finite and positive from row `m` (first finite row) on, NaN before, inf outside -/
lemma shipped {eps : ℝ} (he : 0 ≤ eps) {F V : List ℕ} {p q m d : ℕ} (asd : Bool) (hed : eps ≤ (d : ℝ) / 10 ^ p)
    (hlen : F.length = m + V.length) (hV : 2 ≤ V.length) (hgap : gapOK d F = true) (hpos : allPos V = true) (f : ℝ) :
    ((f < (F.getD 0 0 : ℝ) / 10 ^ p ∨ (F.getD (F.length - 1) 0 : ℝ) / 10 ^ p < f) →
      (_load_noise eps (tableF F p) (tableCol m V q) asd).1 f = .pinf) ∧
    ((F.getD m 0 : ℝ) / 10 ^ p ≤ f → f ≤ (F.getD (F.length - 1) 0 : ℝ) / 10 ^ p →
      ∃ v : ℝ, 0 < v ∧ (_load_noise eps (tableF F p) (tableCol m V q) asd).1 f = .fin v) ∧
    ((F.getD 0 0 : ℝ) / 10 ^ p ≤ f → f < (F.getD m 0 : ℝ) / 10 ^ p →
      (_load_noise eps (tableF F p) (tableCol m V q) asd).1 f = .nan) := by
  have hg : GoodGrid eps (tableF F p) := tableF_good (by omega) hgap hed
  have hL := tableF_length F p
  have hcl : (tableCol m V q).length = (tableF F p).length := by rw [tableCol_length, hL, hlen]
  simp only [← tableF_getD]
  rw [← hL]
  refine ⟨?_, ?_, ?_⟩
  · rintro (h | h)
    · rw [load_noise_fst]
      refine interpX_left eps _ _ _ h (not_lt.2 (le_trans h.le (hg.le he (Nat.zero_le _) ?_)))
      have := hg.1; omega
    · rw [load_noise_fst]; exact interpX_right eps _ _ _ h
  · intro h1 h2
    rcases h2.lt_or_eq with h2 | h2
    · obtain ⟨k, hk, ha, hb⟩ := GoodGrid.exists_cell (le_trans (hg.le he (Nat.zero_le m) (by omega)) h1)
        ((tableF F p).length - 1) (by have := hg.1; omega) h2
      have hmk : m ≤ k := by
        by_contra hc
        have : (tableF F p).getD (k + 1) 0 ≤ (tableF F p).getD m 0 := hg.le he (by omega) (by omega)
        linarith
      obtain ⟨u, hu, eu⟩ := tableCol_fin (l := V) q hmk (by omega) hpos
      obtain ⟨v, hv, ev⟩ := tableCol_fin (l := V) q (m := m) (k := k + 1) (by omega) (by omega) hpos
      refine ⟨_, ?_, psd_cell he hg _ asd (by omega) hcl hu hv eu ev ha hb⟩
      have hd : 0 < (tableF F p).getD (k + 1) 0 - (tableF F p).getD k 0 := by linarith
      have ht0 : 0 ≤ (f - (tableF F p).getD k 0) / ((tableF F p).getD (k + 1) 0 - (tableF F p).getD k 0) :=
        div_nonneg (by linarith) hd.le
      have ht1 : (f - (tableF F p).getD k 0) / ((tableF F p).getD (k + 1) 0 - (tableF F p).getD k 0) ≤ 1 := by
        rw [div_le_one hd]; linarith
      have hU : 0 < (if asd then u ^ 2 else u) := by split_ifs <;> positivity
      have hVv : 0 < (if asd then v ^ 2 else v) := by split_ifs <;> positivity
      exact lt_of_lt_of_le (lt_min hU hVv) (lin_between ht0 ht1 rfl).1
    · obtain ⟨u, hu, eu⟩ := tableCol_fin (l := V) q (k := (tableF F p).length - 2) (m := m) (by omega) (by omega) hpos
      obtain ⟨v, hv, ev⟩ := tableCol_fin (l := V) q (k := (tableF F p).length - 1) (m := m) (by omega) (by omega) hpos
      refine ⟨_, ?_, by rw [h2]; exact psd_last he hg _ asd hcl hu hv eu ev⟩
      split_ifs <;> positivity
  · intro h1 h2
    obtain ⟨k, hk, ha, hb⟩ := GoodGrid.exists_cell h1 m (by omega) h2
    refine psd_cell_inf he hg _ asd (by omega) hcl (tableCol_inf V q (by omega)) ?_ ha hb
    by_cases hk2 : k + 1 < m
    · left; exact tableCol_inf V q hk2
    · right; exact tableCol_fin (l := V) q (by omega) (by omega) hpos

/-! zero entries -/

lemma processed_zero (asd : Bool) (col : List XR) {k : ℕ} (hk : k < col.length)
    (h : col.getD k .nan = .fin 0) : (processed asd col).getD k .nan = .pinf := by
  rw [processed_getD asd col hk, h]
  cases asd <;> simp [zeroToInf]

lemma XR.infMul_zero : XR.fin 0 * XR.pinf = .nan := by
  show XR.infMul 0 = _; simp [XR.infMul]

lemma XR.infMul_pos {r : ℝ} (h : 0 < r) : XR.fin r * XR.pinf = .pinf := by
  show XR.infMul r = _; simp [XR.infMul, h, h.ne']

lemma XR.fin_mul_ninf (r : ℝ) : XR.pinf + XR.fin r * XR.ninf ≠ .fin 0 := by
  show XR.add _ (XR.infMul (-r)) ≠ _
  unfold XR.infMul
  split_ifs <;> simp [XR.add]

/-- cell with both processed ends positive or infinite: never the finite number 0 -/
lemma cell_ne_zero {a b : XR} {t : ℝ} (ht0 : 0 ≤ t) (ht1 : t ≤ 1)
    (ha : a = .pinf ∨ ∃ u, 0 < u ∧ a = .fin u) (hb : b = .pinf ∨ ∃ u, 0 < u ∧ b = .fin u) :
    a + XR.fin t * (b - a) = .nan ∨ a + XR.fin t * (b - a) = .pinf ∨
      ∃ v, 0 < v ∧ a + XR.fin t * (b - a) = .fin v := by
  rcases ha with rfl | ⟨u, hu, rfl⟩ <;> rcases hb with rfl | ⟨v, hv, rfl⟩
  · left; simp
  · have e : XR.fin v - XR.pinf = .ninf := rfl
    rw [e]
    show XR.add _ (XR.infMul (-t)) = _ ∨ XR.add _ (XR.infMul (-t)) = _ ∨ _
    left
    unfold XR.infMul
    rw [if_neg (by linarith : ¬ 0 < -t)]
    split_ifs <;> rfl
  · have e : XR.pinf - XR.fin u = .pinf := rfl
    rw [e]
    rcases ht0.eq_or_lt with h | h
    · left; rw [← h, XR.infMul_zero]; rfl
    · right; left; rw [XR.infMul_pos h]; rfl
  · right; right
    refine ⟨u + t * (v - u), ?_, by simp⟩
    rcases ht1.eq_or_lt with h | h
    · rw [h]; linarith
    · have h1 : 0 < (1 - t) * u := mul_pos (by linarith) hu
      have h2 : 0 ≤ t * v := mul_nonneg ht0 hv.le
      linarith

lemma processed_pos_or_inf (asd : Bool) (vals : List ℝ) (hv : ∀ v ∈ vals, 0 ≤ v) {k : ℕ} (hk : k < vals.length) :
    (processed asd (vals.map XR.fin)).getD k .nan = .pinf ∨
      ∃ u, 0 < u ∧ (processed asd (vals.map XR.fin)).getD k .nan = .fin u := by
  have hc : (vals.map XR.fin).getD k .nan = .fin (vals[k]) := by
    rw [List.getD_eq_getElem _ _ (by simpa using hk)]; simp
  rcases (hv _ (List.getElem_mem hk)).eq_or_lt with h | h
  · left; exact processed_zero asd _ (by simpa using hk) (by rw [hc, ← h])
  · right
    refine ⟨_, ?_, processed_fin asd _ (by simpa using hk) h hc⟩
    split_ifs <;> positivity

end Ripple
