/-
  C113: the shipped noise curves in double precision.
-/
import Verif.Proofs.RoundedTable

namespace Ripple
open Fp

noncomputable section

/-- advanced LIGO: positive, and 3e-10 from the exact curve. -/
theorem C113_aLIGO (b : Bool) (eps : ℝ) (he : 0 ≤ eps) (he' : eps ≤ 1 / 2000) (x : ℝ) (hx : (binary64 b).IsFloat x)
    (h1 : 5 ≤ x) (h2 : x ≤ 5000) :
    ∃ exact rounded : ℝ, (Ripple.Sn_aLIGO eps).1 x = .fin exact ∧ (Fp.Sn_aLIGO (binary64 b) eps).1 x = .fin rounded
      ∧ (binary64 b).IsFloat rounded ∧ 0 < exact ∧ 0 < rounded ∧ |rounded - exact| ≤ 3e-10 * exact := by
  obtain ⟨e, r, a1, a2, a3, a4, a5⟩ := shipped_accurate b he (Fq := NoiseData.ALIGO.freqs) (V := NoiseData.ALIGO.vals) (p := NoiseData.ALIGO.fexp)
    (q := NoiseData.ALIGO.sexp) (m := NoiseData.ALIGO.ninf) (d := 10) (R := 9) (G := 451) true (by decide +kernel) (by decide +kernel)
    (by decide +kernel) (by unfold NoiseData.ALIGO.fexp; norm_num; linarith) (by decide) (by decide +kernel) (by decide +kernel)
    (by decide +kernel) (by norm_num) (by norm_num) (by decide +kernel) hx.1
    (by rw [show NoiseData.ALIGO.freqs.getD NoiseData.ALIGO.ninf 0 = 50000 by decide +kernel, NoiseData.ALIGO.fexp]; norm_num at h1 ⊢; linarith)
    (by rw [show NoiseData.ALIGO.freqs.getD (NoiseData.ALIGO.freqs.length - 1) 0 = 50000000 by decide +kernel, NoiseData.ALIGO.fexp]; norm_num at h2 ⊢; linarith)
  have h : |r - e| ≤ 3e-10 * e := a5.trans (mul_le_mul_of_nonneg_right (by norm_num) a4.le)
  exact ⟨e, r, a1, a2, a3, a4, by have := (abs_le.1 h).1; norm_num at this; linarith, h⟩

/-- Cosmic Explorer: positive, and 1e-11 from the exact curve. -/
theorem C113_ce (b : Bool) (eps : ℝ) (he : 0 ≤ eps) (he' : eps ≤ 1 / 2000) (x : ℝ) (hx : (binary64 b).IsFloat x)
    (h1 : 5 ≤ x) (h2 : x ≤ 5000) :
    ∃ exact rounded : ℝ, (Ripple.Sn_ce eps).1 x = .fin exact ∧ (Fp.Sn_ce (binary64 b) eps).1 x = .fin rounded
      ∧ (binary64 b).IsFloat rounded ∧ 0 < exact ∧ 0 < rounded ∧ |rounded - exact| ≤ 1e-11 * exact := by
  obtain ⟨e, r, a1, a2, a3, a4, a5⟩ := shipped_accurate b he (Fq := NoiseData.CE.freqs) (V := NoiseData.CE.vals) (p := NoiseData.CE.fexp)
    (q := NoiseData.CE.sexp) (m := NoiseData.CE.ninf) (d := 10000) (R := 2) (G := 435) true (by decide +kernel) (by decide +kernel)
    (by decide +kernel) (by unfold NoiseData.CE.fexp; norm_num; linarith) (by decide) (by decide +kernel) (by decide +kernel)
    (by decide +kernel) (by norm_num) (by norm_num) (by decide +kernel) hx.1
    (by rw [show NoiseData.CE.freqs.getD NoiseData.CE.ninf 0 = 50000000 by decide +kernel, NoiseData.CE.fexp]; norm_num at h1 ⊢; linarith)
    (by rw [show NoiseData.CE.freqs.getD (NoiseData.CE.freqs.length - 1) 0 = 50000000000 by decide +kernel, NoiseData.CE.fexp]; norm_num at h2 ⊢; linarith)
  have h : |r - e| ≤ 1e-11 * e := a5.trans (mul_le_mul_of_nonneg_right (by norm_num) a4.le)
  exact ⟨e, r, a1, a2, a3, a4, by have := (abs_le.1 h).1; norm_num at this; linarith, h⟩

/-- Einstein Telescope: positive, and 5e-10 from the exact curve. -/
theorem C113_et (b : Bool) (eps : ℝ) (he : 0 ≤ eps) (he' : eps ≤ 1 / 2000) (x : ℝ) (hx : (binary64 b).IsFloat x)
    (h1 : 1 ≤ x) (h2 : x ≤ 10000) :
    ∃ exact rounded : ℝ, (Ripple.Sn_et eps).1 x = .fin exact ∧ (Fp.Sn_et (binary64 b) eps).1 x = .fin rounded
      ∧ (binary64 b).IsFloat rounded ∧ 0 < exact ∧ 0 < rounded ∧ |rounded - exact| ≤ 5e-10 * exact := by
  obtain ⟨e, r, a1, a2, a3, a4, a5⟩ := shipped_accurate b he (Fq := NoiseData.ET.freqs) (V := NoiseData.ET.vals) (p := NoiseData.ET.fexp)
    (q := NoiseData.ET.sexp) (m := NoiseData.ET.ninf) (d := 10000) (R := 16) (G := 327) true (by decide +kernel) (by decide +kernel)
    (by decide +kernel) (by unfold NoiseData.ET.fexp; norm_num; linarith) (by decide) (by decide +kernel) (by decide +kernel)
    (by decide +kernel) (by norm_num) (by norm_num) (by decide +kernel) hx.1
    (by rw [show NoiseData.ET.freqs.getD NoiseData.ET.ninf 0 = 10000000 by decide +kernel, NoiseData.ET.fexp]; norm_num at h1 ⊢; linarith)
    (by rw [show NoiseData.ET.freqs.getD (NoiseData.ET.freqs.length - 1) 0 = 100000000000 by decide +kernel, NoiseData.ET.fexp]; norm_num at h2 ⊢; linarith)
  have h : |r - e| ≤ 5e-10 * e := a5.trans (mul_le_mul_of_nonneg_right (by norm_num) a4.le)
  exact ⟨e, r, a1, a2, a3, a4, by have := (abs_le.1 h).1; norm_num at this; linarith, h⟩

/-- advanced LIGO at zero detuning and high power: positive, and 5e-13 from the exact curve. -/
theorem C113_aLIGOZeroDetHighPower (b : Bool) (eps : ℝ) (he : 0 ≤ eps) (he' : eps ≤ 1 / 2000) (x : ℝ) (hx : (binary64 b).IsFloat x)
    (h1 : 19.99999999999999289 ≤ x) (h2 : x ≤ 2199.999999999997272) :
    ∃ exact rounded : ℝ, (Ripple.Sn_aLIGOZeroDetHighPower eps).1 x = .fin exact ∧ (Fp.Sn_aLIGOZeroDetHighPower (binary64 b) eps).1 x = .fin rounded
      ∧ (binary64 b).IsFloat rounded ∧ 0 < exact ∧ 0 < rounded ∧ |rounded - exact| ≤ 5e-13 * exact := by
  obtain ⟨e, r, a1, a2, a3, a4, a5⟩ := shipped_accurate b he (Fq := NoiseData.ZDHP.freqs) (V := NoiseData.ZDHP.vals) (p := NoiseData.ZDHP.fexp)
    (q := NoiseData.ZDHP.sexp) (m := NoiseData.ZDHP.ninf) (d := 100000000000000) (R := 2) (G := 43) false (by decide +kernel) (by decide +kernel)
    (by decide +kernel) (by unfold NoiseData.ZDHP.fexp; norm_num; linarith) (by decide) (by decide +kernel) (by decide +kernel)
    (by decide +kernel) (by norm_num) (by norm_num) (by decide +kernel) hx.1
    (by rw [show NoiseData.ZDHP.freqs.getD NoiseData.ZDHP.ninf 0 = 1999999999999999289 by decide +kernel, NoiseData.ZDHP.fexp]; norm_num at h1 ⊢; linarith)
    (by rw [show NoiseData.ZDHP.freqs.getD (NoiseData.ZDHP.freqs.length - 1) 0 = 219999999999999727200 by decide +kernel, NoiseData.ZDHP.fexp]; norm_num at h2 ⊢; linarith)
  have h : |r - e| ≤ 5e-13 * e := a5.trans (mul_le_mul_of_nonneg_right (by norm_num) a4.le)
  exact ⟨e, r, a1, a2, a3, a4, by have := (abs_le.1 h).1; norm_num at this; linarith, h⟩

lemma O3a_ratio : ratioOK 14 NoiseData.O3a.vals = true := by decide +kernel
lemma O3a_relGap : relGap 40000 NoiseData.O3a.freqs = true := by decide +kernel
lemma O3a_allLe : allLe (10 ^ NoiseData.O3a.sexp) NoiseData.O3a.vals = true := by decide +kernel
lemma O3a_gap : gapOK 1 NoiseData.O3a.freqs = true := by decide +kernel
lemma O3a_length : NoiseData.O3a.freqs.length = NoiseData.O3a.ninf + NoiseData.O3a.vals.length := by decide +kernel
lemma O3a_two : 2 ≤ NoiseData.O3a.vals.length := by decide +kernel
lemma O3a_first : 10 ^ NoiseData.O3a.fexp ≤ NoiseData.O3a.freqs.getD 0 0 := by decide +kernel

/-- third observing run: positive, and 5e-8 from the exact curve. -/
theorem C113_O3a (b : Bool) (eps : ℝ) (he : 0 ≤ eps) (he' : eps ≤ 1 / 2000) (x : ℝ) (hx : (binary64 b).IsFloat x)
    (h1 : 10 ≤ x) (h2 : x ≤ 5000) :
    ∃ exact rounded : ℝ, (Ripple.Sn_O3a eps).1 x = .fin exact ∧ (Fp.Sn_O3a (binary64 b) eps).1 x = .fin rounded
      ∧ (binary64 b).IsFloat rounded ∧ 0 < exact ∧ 0 < rounded ∧ |rounded - exact| ≤ 5e-8 * exact := by
  obtain ⟨e, r, a1, a2, a3, a4, a5⟩ := shipped_accurate b he (Fq := NoiseData.O3a.freqs) (V := NoiseData.O3a.vals) (p := NoiseData.O3a.fexp)
    (q := NoiseData.O3a.sexp) (m := NoiseData.O3a.ninf) (d := 1) (R := 14) (G := 40000) true O3a_length O3a_two
    O3a_gap (by unfold NoiseData.O3a.fexp; norm_num; linarith) (by decide) O3a_allLe O3a_ratio
    O3a_relGap (by norm_num) (by norm_num) O3a_first hx.1
    (by rw [show NoiseData.O3a.freqs.getD NoiseData.O3a.ninf 0 = 10000 by decide +kernel, NoiseData.O3a.fexp]; norm_num at h1 ⊢; linarith)
    (by rw [show NoiseData.O3a.freqs.getD (NoiseData.O3a.freqs.length - 1) 0 = 5000000 by decide +kernel, NoiseData.O3a.fexp]; norm_num at h2 ⊢; linarith)
  have h : |r - e| ≤ 5e-8 * e := a5.trans (mul_le_mul_of_nonneg_right (by norm_num) a4.le)
  exact ⟨e, r, a1, a2, a3, a4, by have := (abs_le.1 h).1; norm_num at this; linarith, h⟩

/-- second observing run, from the first finite entry on: positive, and 5e-12 from the exact curve. -/
theorem C113_O2 (b : Bool) (eps : ℝ) (he : 0 ≤ eps) (he' : eps ≤ 1 / 2000) (x : ℝ) (hx : (binary64 b).IsFloat x)
    (h1 : 15.00293322019218323 ≤ x) (h2 : x ≤ 1000) :
    ∃ exact rounded : ℝ, (Ripple.Sn_O2 eps).1 x = .fin exact ∧ (Fp.Sn_O2 (binary64 b) eps).1 x = .fin rounded
      ∧ (binary64 b).IsFloat rounded ∧ 0 < exact ∧ 0 < rounded ∧ |rounded - exact| ≤ 5e-12 * exact := by
  obtain ⟨e, r, a1, a2, a3, a4, a5⟩ := shipped_accurate b he (Fq := NoiseData.O2.freqs) (V := NoiseData.O2.vals) (p := NoiseData.O2.fexp)
    (q := NoiseData.O2.sexp) (m := NoiseData.O2.ninf) (d := 100000000000000) (R := 2) (G := 218) true (by decide +kernel) (by decide +kernel)
    (by decide +kernel) (by unfold NoiseData.O2.fexp; norm_num; linarith) (by decide) (by decide +kernel) (by decide +kernel)
    (by decide +kernel) (by norm_num) (by norm_num) (by decide +kernel) hx.1
    (by rw [show NoiseData.O2.freqs.getD NoiseData.O2.ninf 0 = 1500293322019218323 by decide +kernel, NoiseData.O2.fexp]; norm_num at h1 ⊢; linarith)
    (by rw [show NoiseData.O2.freqs.getD (NoiseData.O2.freqs.length - 1) 0 = 100000000000000000000 by decide +kernel, NoiseData.O2.fexp]; norm_num at h2 ⊢; linarith)
  have h : |r - e| ≤ 5e-12 * e := a5.trans (mul_le_mul_of_nonneg_right (by norm_num) a4.le)
  exact ⟨e, r, a1, a2, a3, a4, by have := (abs_le.1 h).1; norm_num at this; linarith, h⟩

/-- any table: infinite below the first and above the last stored frequency -/
theorem C113_outside (F : Fp.Fmt) (eps : ℝ) (fs : List ℝ) (col : List XR) (asd : Bool) (x : ℝ)
    (h : x < (Fp._load_noise F eps fs col asd).2.1 ∨ (Fp._load_noise F eps fs col asd).2.2 < x) :
    (Fp._load_noise F eps fs col asd).1 x = .pinf := by
  unfold Fp._load_noise at *
  simp only [Fp.interp] at *
  rcases h with h | h
  · rw [if_pos h]; exact ite_self _
  · exact if_pos h

/-- the stored range of advanced LIGO: 4 Hz is below it -/
example (b : Bool) (eps : ℝ) : (4 : ℝ) < (Fp.Sn_aLIGO (binary64 b) eps).2.1 := by
  have e : (Fp.Sn_aLIGO (binary64 b) eps).2.1
      = (((tableF NoiseData.ALIGO.freqs NoiseData.ALIGO.fexp).map (binary64 false).rd).map (binary64 b).gradual.rd).getD 0 0 := rfl
  have hl : 0 < NoiseData.ALIGO.freqs.length := by decide +kernel
  rw [e, map_getD _ _ _ (by simp [tableF_length, hl]) 0, map_getD _ _ _ (by rw [tableF_length]; exact hl) 0, tableF_getD,
    show NoiseData.ALIGO.freqs.getD 0 0 = 50000 by decide +kernel, NoiseData.ALIGO.fexp,
    show (((50000 : ℕ) : ℝ) / 10 ^ 4) = 5 by norm_num]
  have h5 : (binary64 false).rd 5 = 5 :=
    rd_exact 5 (k := 0) (by norm_num) (by simp [binary64]) (by simp [binary64]) (by have := (wf64 false).min_le; linarith)
  rw [show (binary64 b).gradual = binary64 false from rfl, h5, h5]; norm_num

/-- 100 Hz is a number of the format in the range of the theorems -/
example (b : Bool) : (binary64 b).IsFloat 100 ∧ (19.99999999999999289 : ℝ) ≤ 100 ∧ (100 : ℝ) ≤ 1000 := by
  refine ⟨⟨?_, ?_⟩, by norm_num, by norm_num⟩
  · exact rd_exact 25 (k := 2) (by norm_num) (by simp [binary64]) (by simp [binary64]) (by have := (wf64 b).min_le; linarith)
  · have : (2 : ℝ) ^ (7 : ℤ) ≤ 2 ^ (binary64 b).emax := zpow_le (by simp [binary64])
    norm_num at this ⊢; linarith

end
end Ripple
