/-
  Properties C21–C23, C27: noise curves and table interpolation (src/ripplegw/noise.py, jnp.interp).
-/
import Verif.Proofs.Noise
import Verif.Props.Match

namespace Ripple
open Jnp

/-! ### C21 LIGO-I -/

theorem C21_inf_below (f : ℝ) (h : f ≤ 40) : Sn_LIGOI f = .pinf := by
  simp [Sn_LIGOI, not_lt.2 h]

theorem C21_finite_above (f : ℝ) (h : 40 < f) : ∃ v : ℝ, 0 < v ∧ Sn_LIGOI f = .fin v := by
  refine ⟨_, ?_, by rw [Sn_LIGOI, if_pos h]⟩
  have hf : 0 < f := by linarith
  positivity

/-- above 40 Hz the PSD is at least its constant shot-noise floor 9·0.52·1e-46 -/
theorem C21_floor (f : ℝ) (h : 40 < f) : ∃ v : ℝ, Sn_LIGOI f = .fin v ∧ 1e-46 * 9 * 0.52 ≤ v := by
  refine ⟨_, by rw [Sn_LIGOI, if_pos h], ?_⟩
  have hf : 0 < f := by linarith
  have h1 : 0 ≤ (4.49 * (f / 150)) ^ (-56 : ℤ) := by positivity
  have h2 : 0 ≤ 0.16 * (f / 150) ^ (-4.52 : ℝ) := by positivity
  have h3 : 0 ≤ 0.32 * (f / 150) ^ 2 := by positivity
  gcongr
  linarith

/-! ### C22 interpolated PSDs: arbitrary finite positive tables -/

section
variable (eps : ℝ) (fs vals : List ℝ) (asd : Bool)

/-- outside the tabulated range: +inf; the reported range is (first, last) frequency -/
theorem C22_inf_outside (he : 0 ≤ eps) (hg : GoodGrid eps fs) (f : ℝ)
    (h : f < fs.getD 0 0 ∨ fs.getD (fs.length - 1) 0 < f) :
    (_load_noise eps fs (vals.map .fin) asd).1 f = .pinf ∧
    (_load_noise eps fs (vals.map .fin) asd).2 = (fs.getD 0 0, fs.getD (fs.length - 1) 0) := by
  refine ⟨?_, rfl⟩
  rw [load_noise_fst]
  rcases h with h | h
  · refine interpX_left eps _ _ _ h (not_lt.2 (le_trans h.le (hg.le he (Nat.zero_le _) ?_)))
    have := hg.1; omega
  · exact interpX_right eps _ _ _ h

/-- table value `k`, squared if the file holds an amplitude spectral density -/
noncomputable def psdAt (k : ℕ) : ℝ := if asd then vals.getD k 0 ^ 2 else vals.getD k 0

/-- between two nodes: the linear interpolant of the two neighbouring PSD values, which lies between them -/
theorem C22_between (he : 0 ≤ eps) (hg : GoodGrid eps fs) (hlen : vals.length = fs.length)
    (hpos : ∀ v ∈ vals, 0 < v) (k : ℕ) (hk : k + 1 < fs.length) (f : ℝ)
    (h1 : fs.getD k 0 ≤ f) (h2 : f ≤ fs.getD (k + 1) 0) :
    ∃ v : ℝ, (_load_noise eps fs (vals.map .fin) asd).1 f = .fin v ∧
      (v - psdAt vals asd k) * (fs.getD (k + 1) 0 - fs.getD k 0) =
        (f - fs.getD k 0) * (psdAt vals asd (k + 1) - psdAt vals asd k) ∧
      min (psdAt vals asd k) (psdAt vals asd (k + 1)) ≤ v ∧ v ≤ max (psdAt vals asd k) (psdAt vals asd (k + 1)) := by
  have hcl : (vals.map XR.fin).length = fs.length := by simpa using hlen
  have hcol : ∀ j, j < fs.length → (vals.map XR.fin).getD j .nan = .fin (vals.getD j 0) := by
    intro j hj
    rw [List.getD_eq_getElem _ _ (by simpa [hlen] using hj), List.getD_eq_getElem _ _ (by omega)]
    simp
  have hvp : ∀ j, j < fs.length → 0 < vals.getD j 0 := by
    intro j hj
    rw [List.getD_eq_getElem _ _ (by omega)]; exact hpos _ (List.getElem_mem _)
  have hgap := hg.2 k hk
  have hd : 0 < fs.getD (k + 1) 0 - fs.getD k 0 := by linarith
  have lin : ∀ (x : ℝ), fs.getD k 0 ≤ x → x ≤ fs.getD (k + 1) 0 →
      0 ≤ (x - fs.getD k 0) / (fs.getD (k + 1) 0 - fs.getD k 0) ∧
      (x - fs.getD k 0) / (fs.getD (k + 1) 0 - fs.getD k 0) ≤ 1 := fun x ha hb =>
    ⟨div_nonneg (by linarith) hd.le, by rw [div_le_one hd]; linarith⟩
  rcases h2.lt_or_eq with h2 | h2
  · refine ⟨_, psd_cell he hg _ asd hk hcl (hvp k (by omega)) (hvp (k + 1) hk) (hcol k (by omega)) (hcol (k + 1) hk) h1 h2,
      ?_, lin_between (lin f h1 h2.le).1 (lin f h1 h2.le).2 rfl⟩
    simp only [psdAt]
    field_simp
    ring
  · -- right end point of the cell
    have hval : (_load_noise eps fs (vals.map .fin) asd).1 f = .fin (psdAt vals asd (k + 1)) := by
      by_cases hk2 : k + 1 + 1 < fs.length
      · have hgap2 := hg.2 (k + 1) hk2
        rw [psd_cell he hg _ asd hk2 hcl (hvp (k + 1) hk) (hvp (k + 1 + 1) hk2) (hcol (k + 1) hk) (hcol (k + 1 + 1) hk2)
          h2.ge (by linarith), h2, sub_self, zero_div, zero_mul, add_zero]
        rfl
      · have e : k + 1 = fs.length - 1 := by omega
        have e' : k = fs.length - 2 := by omega
        rw [h2, e]
        rw [psd_last he hg _ asd hcl (hvp k (by omega)) (hvp (k + 1) hk)
          (by rw [← e']; exact hcol k (by omega)) (by rw [← e]; exact hcol (k + 1) hk)]
        rw [← e]; rfl
    refine ⟨_, hval, by rw [h2]; ring, min_le_right _ _, le_max_right _ _⟩

/-- every node is reproduced exactly -/
theorem C22_node (he : 0 ≤ eps) (hg : GoodGrid eps fs) (hlen : vals.length = fs.length)
    (hpos : ∀ v ∈ vals, 0 < v) (k : ℕ) (hk : k < fs.length) :
    (_load_noise eps fs (vals.map .fin) asd).1 (fs.getD k 0) = .fin (psdAt vals asd k) := by
  have h2 := hg.1
  by_cases hk' : k + 1 < fs.length
  · have hgap := hg.2 k hk'
    obtain ⟨v, hv, hl, _⟩ := C22_between eps fs vals asd he hg hlen hpos k hk' (fs.getD k 0) le_rfl (by linarith)
    rw [sub_self, zero_mul] at hl
    have hd : fs.getD (k + 1) 0 - fs.getD k 0 ≠ 0 := by linarith
    have : v = psdAt vals asd k := by
      rcases mul_eq_zero.1 hl with h | h
      · linarith
      · exact absurd h hd
    rw [hv, this]
  · obtain ⟨j, rfl⟩ : ∃ j, k = j + 1 := ⟨k - 1, by omega⟩
    have hgap := hg.2 j hk
    obtain ⟨v, hv, hl, _⟩ := C22_between eps fs vals asd he hg hlen hpos j hk (fs.getD (j + 1) 0) (by linarith) le_rfl
    have hd : fs.getD (j + 1) 0 - fs.getD j 0 ≠ 0 := by linarith
    have hl' : (fs.getD (j + 1) 0 - fs.getD j 0) * (v - psdAt vals asd (j + 1)) = 0 := by
      linear_combination hl
    have : v = psdAt vals asd (j + 1) := by
      rcases mul_eq_zero.1 hl' with h | h
      · exact absurd h hd
      · linarith
    rw [hv, this]

/-- on the whole closed range the PSD is finite and positive -/
theorem C22_finite_positive (he : 0 ≤ eps) (hg : GoodGrid eps fs) (hlen : vals.length = fs.length)
    (hpos : ∀ v ∈ vals, 0 < v) (f : ℝ) (h1 : fs.getD 0 0 ≤ f) (h2 : f ≤ fs.getD (fs.length - 1) 0) :
    ∃ v : ℝ, 0 < v ∧ (_load_noise eps fs (vals.map .fin) asd).1 f = .fin v := by
  have hlen2 := hg.1
  have hpp : ∀ j, j < fs.length → 0 < psdAt vals asd j := by
    intro j hj
    have : 0 < vals.getD j 0 := by
      rw [List.getD_eq_getElem _ _ (by omega)]; exact hpos _ (List.getElem_mem _)
    unfold psdAt; split_ifs <;> positivity
  rcases h2.lt_or_eq with h2 | h2
  · obtain ⟨k, hk, ha, hb⟩ := GoodGrid.exists_cell h1 (fs.length - 1) (by omega) h2
    obtain ⟨v, hv, _, hmin, _⟩ := C22_between eps fs vals asd he hg hlen hpos k (by omega) f ha hb.le
    exact ⟨v, lt_of_lt_of_le (lt_min (hpp k (by omega)) (hpp (k + 1) (by omega))) hmin, hv⟩
  · rw [h2]
    exact ⟨_, hpp _ (by omega), C22_node eps fs vals asd he hg hlen hpos _ (by omega)⟩

end

/-- witness: a three-row table -/
example : GoodGrid (1 / 1000) [10, 20, 40] ∧ ([3, 1, 2] : List ℝ).length = [10, 20, 40].length ∧
    ∀ v ∈ ([3, 1, 2] : List ℝ), 0 < v := by
  refine ⟨⟨by simp, ?_⟩, rfl, by simp⟩
  intro k hk
  simp only [List.length_cons, List.length_nil] at hk
  have : k = 0 ∨ k = 1 := by omega
  rcases this with rfl | rfl <;> norm_num

/-! the shipped curves (complete data files) -/

/-- advanced LIGO design curve: finite positive exactly on [5, 5000] Hz, inf outside -/
theorem C22_aLIGO (eps : ℝ) (he : 0 ≤ eps) (he' : eps ≤ 1 / 1000) (f : ℝ) :
    ((5 ≤ f ∧ f ≤ 5000) → ∃ v : ℝ, 0 < v ∧ (Sn_aLIGO eps).1 f = .fin v) ∧
    ((f < 5 ∨ 5000 < f) → (Sn_aLIGO eps).1 f = .pinf) := by
  have h := shipped he (F := NoiseData.ALIGO.freqs) (V := NoiseData.ALIGO.vals) (p := NoiseData.ALIGO.fexp)
    (q := NoiseData.ALIGO.sexp) (m := NoiseData.ALIGO.ninf) (d := 10) true
    (by unfold NoiseData.ALIGO.fexp; norm_num; linarith) (by decide +kernel) (by decide +kernel) (by decide +kernel)
    (by decide +kernel) f
  have e0 : (NoiseData.ALIGO.freqs.getD 0 0 : ℝ) / 10 ^ NoiseData.ALIGO.fexp = 5 := by
    rw [show NoiseData.ALIGO.freqs.getD 0 0 = 50000 by decide +kernel, NoiseData.ALIGO.fexp]; norm_num
  have e1 : (NoiseData.ALIGO.freqs.getD (NoiseData.ALIGO.freqs.length - 1) 0 : ℝ) / 10 ^ NoiseData.ALIGO.fexp = 5000 := by
    rw [show NoiseData.ALIGO.freqs.getD (NoiseData.ALIGO.freqs.length - 1) 0 = 50000000 by decide +kernel,
      NoiseData.ALIGO.fexp]; norm_num
  have em : NoiseData.ALIGO.ninf = 0 := rfl
  rw [em] at h
  rw [e0, e1] at h
  refine ⟨fun hf => ?_, fun hf => ?_⟩
  · exact h.2.1 hf.1 hf.2
  · exact h.1 hf

/-- Cosmic Explorer -/
theorem C22_ce (eps : ℝ) (he : 0 ≤ eps) (he' : eps ≤ 1 / 1000) (f : ℝ) :
    ((5 ≤ f ∧ f ≤ 5000) → ∃ v : ℝ, 0 < v ∧ (Sn_ce eps).1 f = .fin v) ∧
    ((f < 5 ∨ 5000 < f) → (Sn_ce eps).1 f = .pinf) := by
  have h := shipped he (F := NoiseData.CE.freqs) (V := NoiseData.CE.vals) (p := NoiseData.CE.fexp)
    (q := NoiseData.CE.sexp) (m := NoiseData.CE.ninf) (d := 10000) true
    (by unfold NoiseData.CE.fexp; norm_num; linarith) (by decide +kernel) (by decide +kernel) (by decide +kernel)
    (by decide +kernel) f
  have e0 : (NoiseData.CE.freqs.getD 0 0 : ℝ) / 10 ^ NoiseData.CE.fexp = 5 := by
    rw [show NoiseData.CE.freqs.getD 0 0 = 50000000 by decide +kernel, NoiseData.CE.fexp]; norm_num
  have e1 : (NoiseData.CE.freqs.getD (NoiseData.CE.freqs.length - 1) 0 : ℝ) / 10 ^ NoiseData.CE.fexp = 5000 := by
    rw [show NoiseData.CE.freqs.getD (NoiseData.CE.freqs.length - 1) 0 = 50000000000 by decide +kernel,
      NoiseData.CE.fexp]; norm_num
  have em : NoiseData.CE.ninf = 0 := rfl
  rw [em] at h
  rw [e0, e1] at h
  exact ⟨fun hf => h.2.1 hf.1 hf.2, fun hf => h.1 hf⟩

/-- Einstein Telescope -/
theorem C22_et (eps : ℝ) (he : 0 ≤ eps) (he' : eps ≤ 1 / 1000) (f : ℝ) :
    ((1 ≤ f ∧ f ≤ 10000) → ∃ v : ℝ, 0 < v ∧ (Sn_et eps).1 f = .fin v) ∧
    ((f < 1 ∨ 10000 < f) → (Sn_et eps).1 f = .pinf) := by
  have h := shipped he (F := NoiseData.ET.freqs) (V := NoiseData.ET.vals) (p := NoiseData.ET.fexp)
    (q := NoiseData.ET.sexp) (m := NoiseData.ET.ninf) (d := 10000) true
    (by unfold NoiseData.ET.fexp; norm_num; linarith) (by decide +kernel) (by decide +kernel) (by decide +kernel)
    (by decide +kernel) f
  have e0 : (NoiseData.ET.freqs.getD 0 0 : ℝ) / 10 ^ NoiseData.ET.fexp = 1 := by
    rw [show NoiseData.ET.freqs.getD 0 0 = 10000000 by decide +kernel, NoiseData.ET.fexp]; norm_num
  have e1 : (NoiseData.ET.freqs.getD (NoiseData.ET.freqs.length - 1) 0 : ℝ) / 10 ^ NoiseData.ET.fexp = 10000 := by
    rw [show NoiseData.ET.freqs.getD (NoiseData.ET.freqs.length - 1) 0 = 100000000000 by decide +kernel,
      NoiseData.ET.fexp]; norm_num
  have em : NoiseData.ET.ninf = 0 := rfl
  rw [em] at h
  rw [e0, e1] at h
  exact ⟨fun hf => h.2.1 hf.1 hf.2, fun hf => h.1 hf⟩

/-- aLIGO zero-detuning high-power (stored as PSD, not ASD) -/
theorem C22_ZDHP (eps : ℝ) (he : 0 ≤ eps) (he' : eps ≤ 1 / 1000) (f : ℝ) :
    ((19.99999999999999289 ≤ f ∧ f ≤ 2199.999999999997272) →
      ∃ v : ℝ, 0 < v ∧ (Sn_aLIGOZeroDetHighPower eps).1 f = .fin v) ∧
    ((f < 19.99999999999999289 ∨ 2199.999999999997272 < f) → (Sn_aLIGOZeroDetHighPower eps).1 f = .pinf) := by
  have h := shipped he (F := NoiseData.ZDHP.freqs) (V := NoiseData.ZDHP.vals) (p := NoiseData.ZDHP.fexp)
    (q := NoiseData.ZDHP.sexp) (m := NoiseData.ZDHP.ninf) (d := 100000000000000) false
    (by unfold NoiseData.ZDHP.fexp; norm_num; linarith) (by decide +kernel) (by decide +kernel) (by decide +kernel)
    (by decide +kernel) f
  have e0 : (NoiseData.ZDHP.freqs.getD 0 0 : ℝ) / 10 ^ NoiseData.ZDHP.fexp = 19.99999999999999289 := by
    rw [show NoiseData.ZDHP.freqs.getD 0 0 = 1999999999999999289 by decide +kernel, NoiseData.ZDHP.fexp]; norm_num
  have e1 : (NoiseData.ZDHP.freqs.getD (NoiseData.ZDHP.freqs.length - 1) 0 : ℝ) / 10 ^ NoiseData.ZDHP.fexp
      = 2199.999999999997272 := by
    rw [show NoiseData.ZDHP.freqs.getD (NoiseData.ZDHP.freqs.length - 1) 0 = 219999999999999727200 by decide +kernel,
      NoiseData.ZDHP.fexp]; norm_num
  have em : NoiseData.ZDHP.ninf = 0 := rfl
  rw [em] at h
  rw [e0, e1] at h
  exact ⟨fun hf => h.2.1 hf.1 hf.2, fun hf => h.1 hf⟩

/-- O3a Livingston -/
theorem C22_O3a (eps : ℝ) (he : 0 ≤ eps) (he' : eps ≤ 1 / 1000) (f : ℝ) :
    ((10 ≤ f ∧ f ≤ 5000) → ∃ v : ℝ, 0 < v ∧ (Sn_O3a eps).1 f = .fin v) ∧
    ((f < 10 ∨ 5000 < f) → (Sn_O3a eps).1 f = .pinf) := by
  have h := shipped he (F := NoiseData.O3a.freqs) (V := NoiseData.O3a.vals) (p := NoiseData.O3a.fexp)
    (q := NoiseData.O3a.sexp) (m := NoiseData.O3a.ninf) (d := 1) true
    (by unfold NoiseData.O3a.fexp; norm_num; linarith) (by decide +kernel) (by decide +kernel) (by decide +kernel)
    (by decide +kernel) f
  have e0 : (NoiseData.O3a.freqs.getD 0 0 : ℝ) / 10 ^ NoiseData.O3a.fexp = 10 := by
    rw [show NoiseData.O3a.freqs.getD 0 0 = 10000 by decide +kernel, NoiseData.O3a.fexp]; norm_num
  have e1 : (NoiseData.O3a.freqs.getD (NoiseData.O3a.freqs.length - 1) 0 : ℝ) / 10 ^ NoiseData.O3a.fexp = 5000 := by
    rw [show NoiseData.O3a.freqs.getD (NoiseData.O3a.freqs.length - 1) 0 = 5000000 by decide +kernel,
      NoiseData.O3a.fexp]; norm_num
  have em : NoiseData.O3a.ninf = 0 := rfl
  rw [em] at h
  rw [e0, e1] at h
  exact ⟨fun hf => h.2.1 hf.1 hf.2, fun hf => h.1 hf⟩

/-! ### C23 infinite table entries -/

/-- any table: a cell whose left value is infinite (and right value infinite or positive) is NaN throughout,
    although the frequency is inside the advertised range -/
theorem C23_inf_cell_nan (eps : ℝ) (fs : List ℝ) (col : List XR) (asd : Bool) (he : 0 ≤ eps) (hg : GoodGrid eps fs)
    (hlen : col.length = fs.length) (k : ℕ) (hk : k + 1 < fs.length)
    (e1 : col.getD k .nan = .pinf)
    (e2 : col.getD (k + 1) .nan = .pinf ∨ ∃ v, 0 < v ∧ col.getD (k + 1) .nan = .fin v)
    (f : ℝ) (h1 : fs.getD k 0 ≤ f) (h2 : f < fs.getD (k + 1) 0) :
    (_load_noise eps fs col asd).1 f = .nan :=
  psd_cell_inf he hg col asd hk hlen e1 e2 h1 h2

/-- the shipped O2 curve: NaN on [10, 15.0029...) Hz, finite positive on [15.0029..., 1000], inf outside -/
theorem C23_O2 (eps : ℝ) (he : 0 ≤ eps) (he' : eps ≤ 1 / 1000) (f : ℝ) :
    ((10 ≤ f ∧ f < 15.00293322019218323) → (Sn_O2 eps).1 f = .nan) ∧
    ((15.00293322019218323 ≤ f ∧ f ≤ 1000) → ∃ v : ℝ, 0 < v ∧ (Sn_O2 eps).1 f = .fin v) ∧
    ((f < 10 ∨ 1000 < f) → (Sn_O2 eps).1 f = .pinf) ∧
    (Sn_O2 eps).2 = (10, 1000) := by
  have h := shipped he (F := NoiseData.O2.freqs) (V := NoiseData.O2.vals) (p := NoiseData.O2.fexp)
    (q := NoiseData.O2.sexp) (m := NoiseData.O2.ninf) (d := 100000000000000) true
    (by unfold NoiseData.O2.fexp; norm_num; linarith) (by decide +kernel) (by decide +kernel) (by decide +kernel)
    (by decide +kernel) f
  have e0 : (NoiseData.O2.freqs.getD 0 0 : ℝ) / 10 ^ NoiseData.O2.fexp = 10 := by
    rw [show NoiseData.O2.freqs.getD 0 0 = 1000000000000000000 by decide +kernel, NoiseData.O2.fexp]; norm_num
  have e1 : (NoiseData.O2.freqs.getD (NoiseData.O2.freqs.length - 1) 0 : ℝ) / 10 ^ NoiseData.O2.fexp = 1000 := by
    rw [show NoiseData.O2.freqs.getD (NoiseData.O2.freqs.length - 1) 0 = 100000000000000000000 by decide +kernel,
      NoiseData.O2.fexp]; norm_num
  have em : (NoiseData.O2.freqs.getD NoiseData.O2.ninf 0 : ℝ) / 10 ^ NoiseData.O2.fexp = 15.00293322019218323 := by
    rw [show NoiseData.O2.freqs.getD NoiseData.O2.ninf 0 = 1500293322019218323 by decide +kernel, NoiseData.O2.fexp]
    norm_num
  rw [e0, e1, em] at h
  refine ⟨fun hf => h.2.2 hf.1 hf.2, fun hf => h.2.1 hf.1 hf.2, h.1, ?_⟩
  show ((tableF NoiseData.O2.freqs NoiseData.O2.fexp).getD 0 0,
    (tableF NoiseData.O2.freqs NoiseData.O2.fexp).getD ((tableF NoiseData.O2.freqs NoiseData.O2.fexp).length - 1) 0) = _
  rw [tableF_length, tableF_getD, tableF_getD, e0, e1]

/-- consequence: any match or overlap evaluated with the O2 curve on a grid containing a frequency in
    [10, 15.0029...) is NaN, whatever the waveforms -/
theorem C23_O2_match_nan {a n b : ℕ} (eps : ℝ) (he : 0 ≤ eps) (he' : eps ≤ 1 / 1000) (t : ℝ) (fs : Fin n → ℝ)
    (pl : Fin a → ℂ) (ph : Fin b → ℂ) (h1 h2 : Fin n → ℂ) (i : Fin n)
    (hi : 10 ≤ fs i ∧ fs i < 15.00293322019218323) :
    get_phase_maximized_inner_product_arr t fs (fun j => (Sn_O2 eps).1 (fs j)) h1 h2 = .nan ∧
    get_match_arr pl ph (fun j => (Sn_O2 eps).1 (fs j)) h1 h2 = .nan :=
  C19_nan_psd t fs pl ph _ h1 h2 i ((C23_O2 eps he he' (fs i)).1 hi)

/-! ### C90 zero table entries -/

section
variable (eps : ℝ) (fs vals : List ℝ) (asd : Bool)

/-- no table of non-negative values (zeros included), and no frequency, ever yields a PSD of exactly zero or a negative
    or a -inf PSD: the value is positive, +inf or NaN -/
theorem C90_never_zero (he : 0 ≤ eps) (hg : GoodGrid eps fs) (hlen : vals.length = fs.length)
    (hv : ∀ v ∈ vals, 0 ≤ v) (f : ℝ) :
    (_load_noise eps fs (vals.map .fin) asd).1 f = .nan ∨ (_load_noise eps fs (vals.map .fin) asd).1 f = .pinf ∨
      ∃ v : ℝ, 0 < v ∧ (_load_noise eps fs (vals.map .fin) asd).1 f = .fin v := by
  have h2 := hg.1
  rcases lt_or_ge f (fs.getD 0 0) with h0 | h0
  · right; left; exact (C22_inf_outside eps fs vals asd he hg f (Or.inl h0)).1
  rcases lt_trichotomy f (fs.getD (fs.length - 1) 0) with h1 | h1 | h1
  · obtain ⟨k, hk, ha, hb⟩ := GoodGrid.exists_cell h0 (fs.length - 1) (by omega) h1
    have hgap := hg.2 k (by omega)
    have hd : 0 < fs.getD (k + 1) 0 - fs.getD k 0 := by linarith
    rw [load_noise_fst, interpX_cell he hg _ _ _ (by omega) ha hb]
    exact cell_ne_zero (div_nonneg (by linarith) hd.le) ((div_le_one hd).2 (by linarith))
      (processed_pos_or_inf asd vals hv (by omega)) (processed_pos_or_inf asd vals hv (by omega))
  · rw [h1, load_noise_fst, interpX_last he hg]
    exact cell_ne_zero zero_le_one le_rfl
      (processed_pos_or_inf asd vals hv (by omega)) (processed_pos_or_inf asd vals hv (by omega))
  · right; left; exact (C22_inf_outside eps fs vals asd he hg f (Or.inr h1)).1

/-- a zero in the file acts as an infinite value: on the half-open cell to its right the PSD is NaN -/
theorem C90_zero_left (he : 0 ≤ eps) (hg : GoodGrid eps fs) (hlen : vals.length = fs.length)
    (k : ℕ) (hk : k + 1 < fs.length) (h0 : vals.getD k 0 = 0) (h1 : 0 ≤ vals.getD (k + 1) 0)
    (f : ℝ) (ha : fs.getD k 0 ≤ f) (hb : f < fs.getD (k + 1) 0) :
    (_load_noise eps fs (vals.map .fin) asd).1 f = .nan := by
  have hc : ∀ j, j < fs.length → (vals.map XR.fin).getD j .nan = .fin (vals.getD j 0) := by
    intro j hj
    rw [List.getD_eq_getElem _ _ (by simpa [hlen] using hj), List.getD_eq_getElem _ _ (by omega)]
    simp
  have hl : (vals.map XR.fin).length = fs.length := by simpa using hlen
  rw [load_noise_fst, interpX_cell he hg _ _ _ hk ha hb,
    processed_zero asd _ (by omega) (by rw [hc k (by omega), h0])]
  rcases h1.eq_or_lt with h | h
  · rw [processed_zero asd _ (by omega) (by rw [hc (k + 1) hk, ← h])]; simp
  · rw [processed_fin asd _ (by omega) h (hc (k + 1) hk)]
    have hgap := hg.2 k hk
    have hd : 0 < fs.getD (k + 1) 0 - fs.getD k 0 := by linarith
    have ht : 0 ≤ (f - fs.getD k 0) / (fs.getD (k + 1) 0 - fs.getD k 0) := div_nonneg (by linarith) hd.le
    show XR.add .pinf (XR.infMul (-_)) = .nan
    unfold XR.infMul
    rw [if_neg (by linarith : ¬ 0 < -((f - fs.getD k 0) / (fs.getD (k + 1) 0 - fs.getD k 0)))]
    split_ifs <;> rfl

/-- on the cell to its left the PSD is +inf in the interior and NaN at the finite node itself -/
theorem C90_zero_right (he : 0 ≤ eps) (hg : GoodGrid eps fs) (hlen : vals.length = fs.length)
    (k : ℕ) (hk : k + 1 < fs.length) (h0 : 0 < vals.getD k 0) (h1 : vals.getD (k + 1) 0 = 0) :
    (_load_noise eps fs (vals.map .fin) asd).1 (fs.getD k 0) = .nan ∧
    ∀ f, fs.getD k 0 < f → f < fs.getD (k + 1) 0 → (_load_noise eps fs (vals.map .fin) asd).1 f = .pinf := by
  have hc : ∀ j, j < fs.length → (vals.map XR.fin).getD j .nan = .fin (vals.getD j 0) := by
    intro j hj
    rw [List.getD_eq_getElem _ _ (by simpa [hlen] using hj), List.getD_eq_getElem _ _ (by omega)]
    simp
  have hl : (vals.map XR.fin).length = fs.length := by simpa using hlen
  have hgap := hg.2 k hk
  have hd : 0 < fs.getD (k + 1) 0 - fs.getD k 0 := by linarith
  have hv : ∀ u : ℝ, XR.pinf - XR.fin u = .pinf := fun _ => rfl
  have hu : ∀ u : ℝ, XR.fin u + XR.pinf = .pinf := fun _ => rfl
  constructor
  · rw [load_noise_fst, interpX_cell he hg _ _ _ hk le_rfl (by linarith),
      processed_zero asd _ (k := k + 1) (by omega) (by rw [hc _ hk, h1]), processed_fin asd _ (by omega) h0 (hc k (by omega)),
      sub_self, zero_div, hv, XR.infMul_zero, XR.add_nan]
  · intro f ha hb
    rw [load_noise_fst, interpX_cell he hg _ _ _ hk ha.le hb,
      processed_zero asd _ (k := k + 1) (by omega) (by rw [hc _ hk, h1]), processed_fin asd _ (by omega) h0 (hc k (by omega)),
      hv, XR.infMul_pos (div_pos (by linarith) hd), hu]

/-- a three-point table with a zero in the middle meets the hypotheses -/
example : GoodGrid (0 : ℝ) [1, 2, 3] ∧ (∀ v ∈ ([4, 0, 5] : List ℝ), 0 ≤ v) ∧
    0 < ([4, 0, 5] : List ℝ).getD 0 0 ∧ ([4, 0, 5] : List ℝ).getD 1 0 = 0 := by
  refine ⟨⟨by simp, fun k hk => ?_⟩, ?_, by simp, by simp⟩
  · have : k = 0 ∨ k = 1 := by simp at hk; omega
    rcases this with rfl | rfl <;> norm_num
  · intro v h
    simp only [List.mem_cons, List.not_mem_nil, or_false] at h
    rcases h with rfl | rfl | rfl <;> norm_num

end

/-! ### C27 clamped linear interpolation (QNM lookup in get_fRD_fdamp) -/

theorem C27_clamped (eps : ℝ) (he : 0 ≤ eps) (xp fp : List ℝ) (h : GoodGrid eps xp) (x : ℝ) :
    (x ≤ xp.getD 0 0 → interp eps x xp fp = fp.getD 0 0) ∧
    (xp.getD (xp.length - 1) 0 ≤ x → interp eps x xp fp = fp.getD (xp.length - 1) 0) :=
  ⟨interp_left he h fp, interp_right he h fp⟩

theorem C27_node (eps : ℝ) (he : 0 ≤ eps) (xp fp : List ℝ) (h : GoodGrid eps xp) (k : ℕ) (hk : k < xp.length) :
    interp eps (xp.getD k 0) xp fp = fp.getD k 0 := by
  by_cases hk' : k + 1 < xp.length
  · have := h.2 k hk'
    rw [interp_cell he h fp hk' le_rfl (by linarith)]; simp
  · have e : k = xp.length - 1 := by omega
    rw [interp_right he h fp (by rw [e]), ← e]

theorem C27_range (eps : ℝ) (he : 0 ≤ eps) (xp fp : List ℝ) (h : GoodGrid eps xp) (x lo hi : ℝ)
    (hlen : fp.length = xp.length) (hfp : ∀ y ∈ fp, lo ≤ y ∧ y ≤ hi) :
    lo ≤ interp eps x xp fp ∧ interp eps x xp fp ≤ hi := by
  refine interp_mem_range he h x fp fun k hk => ?_
  rw [List.getD_eq_getElem _ _ (by omega)]
  exact hfp _ (List.getElem_mem _)

theorem C27_linear_between (eps : ℝ) (he : 0 ≤ eps) (xp fp : List ℝ) (h : GoodGrid eps xp) (k : ℕ) (x : ℝ)
    (hk : k + 1 < xp.length) (h1 : xp.getD k 0 ≤ x) (h2 : x ≤ xp.getD (k + 1) 0) :
    (interp eps x xp fp - fp.getD k 0) * (xp.getD (k + 1) 0 - xp.getD k 0) =
      (x - xp.getD k 0) * (fp.getD (k + 1) 0 - fp.getD k 0) := by
  have hg := h.2 k hk
  have hd : xp.getD (k + 1) 0 - xp.getD k 0 ≠ 0 := by linarith
  rw [interp_cell he h fp hk h1 h2]; field_simp; ring

theorem C27_continuous (eps : ℝ) (he : 0 ≤ eps) (xp fp : List ℝ) (h : GoodGrid eps xp) :
    Continuous fun x => interp eps x xp fp := interp_continuous he h fp

end Ripple
