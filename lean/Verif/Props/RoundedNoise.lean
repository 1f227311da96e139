/-
  C110: the shipped noise curves in single precision.
-/
import Verif.Proofs.RoundedNoise

namespace Ripple
open Fp

noncomputable section

/-- advanced LIGO: zero from 18.585 Hz to the end of the table. -/
theorem C110_aLIGO (b : Bool) (eps : ℝ) (he : 0 ≤ eps) (x : ℝ) (hx : (binary32 b).IsFloat x) (h1 : 18.585 ≤ x) (h2 : x ≤ 5000) :
    (Fp.Sn_aLIGO (binary32 b) eps).1 x = .fin 0 := by
  refine shipped_zero b he (Fq := NoiseData.ALIGO.freqs) (V := NoiseData.ALIGO.vals) (p := NoiseData.ALIGO.fexp) (q := NoiseData.ALIGO.sexp)
    (m := NoiseData.ALIGO.ninf) (B := 264697) true (by decide +kernel) (by decide +kernel) (by decide) (K := 570) (L := 2999)
    (by decide) (by norm_num) (by decide +kernel) (by unfold NoiseData.ALIGO.sexp; norm_num) (by decide +kernel) hx.1 ?_ ?_
  · rw [show NoiseData.ALIGO.freqs.getD 570 0 = 185850 by decide +kernel, NoiseData.ALIGO.fexp]; norm_num at h1 ⊢; linarith
  · refine Or.inr ⟨by decide +kernel, ?_⟩
    rw [show NoiseData.ALIGO.freqs.getD 2999 0 = 50000000 by decide +kernel, NoiseData.ALIGO.fexp]; norm_num at h2 ⊢; linarith

/-- Cosmic Explorer: zero from 5.7014985 Hz. -/
theorem C110_ce (b : Bool) (eps : ℝ) (he : 0 ≤ eps) (x : ℝ) (hx : (binary32 b).IsFloat x) (h1 : 5.7014985 ≤ x) (h2 : x ≤ 5000) :
    (Fp.Sn_ce (binary32 b) eps).1 x = .fin 0 := by
  refine shipped_zero b he (Fq := NoiseData.CE.freqs) (V := NoiseData.CE.vals) (p := NoiseData.CE.fexp) (q := NoiseData.CE.sexp)
    (m := NoiseData.CE.ninf) (B := 2646977960) true (by decide +kernel) (by decide +kernel) (by decide) (K := 57) (L := 2999)
    (by decide) (by norm_num) (by decide +kernel) (by unfold NoiseData.CE.sexp; norm_num) (by decide +kernel) hx.1 ?_ ?_
  · rw [show NoiseData.CE.freqs.getD 57 0 = 57014985 by decide +kernel, NoiseData.CE.fexp]; norm_num at h1 ⊢; linarith
  · refine Or.inr ⟨by decide +kernel, ?_⟩
    rw [show NoiseData.CE.freqs.getD 2999 0 = 50000000000 by decide +kernel, NoiseData.CE.fexp]; norm_num at h2 ⊢; linarith

/-- Einstein Telescope: zero from 2.8673838 Hz. -/
theorem C110_et (b : Bool) (eps : ℝ) (he : 0 ≤ eps) (x : ℝ) (hx : (binary32 b).IsFloat x) (h1 : 2.8673838 ≤ x) (h2 : x ≤ 10000) :
    (Fp.Sn_et (binary32 b) eps).1 x = .fin 0 := by
  refine shipped_zero b he (Fq := NoiseData.ET.freqs) (V := NoiseData.ET.vals) (p := NoiseData.ET.fexp) (q := NoiseData.ET.sexp)
    (m := NoiseData.ET.ninf) (B := 2646977960) true (by decide +kernel) (by decide +kernel) (by decide) (K := 343) (L := 2999)
    (by decide) (by norm_num) (by decide +kernel) (by unfold NoiseData.ET.sexp; norm_num) (by decide +kernel) hx.1 ?_ ?_
  · rw [show NoiseData.ET.freqs.getD 343 0 = 28673838 by decide +kernel, NoiseData.ET.fexp]; norm_num at h1 ⊢; linarith
  · refine Or.inr ⟨by decide +kernel, ?_⟩
    rw [show NoiseData.ET.freqs.getD 2999 0 = 100000000000 by decide +kernel, NoiseData.ET.fexp]; norm_num at h2 ⊢; linarith

/-- advanced LIGO at zero detuning and high power: zero at all frequencies of the table. -/
theorem C110_aLIGOZeroDetHighPower (b : Bool) (eps : ℝ) (he : 0 ≤ eps) (x : ℝ) (hx : (binary32 b).IsFloat x) (h1 : 19.99999999999999289 ≤ x) (h2 : x ≤ 2199.999999999997272) :
    (Fp.Sn_aLIGOZeroDetHighPower (binary32 b) eps).1 x = .fin 0 := by
  refine shipped_zero b he (Fq := NoiseData.ZDHP.freqs) (V := NoiseData.ZDHP.vals) (p := NoiseData.ZDHP.fexp) (q := NoiseData.ZDHP.sexp)
    (m := NoiseData.ZDHP.ninf) (B := 70064923216240853546) false (by decide +kernel) (by decide +kernel) (by decide) (K := 0) (L := 199)
    (by decide) (by norm_num) (by decide +kernel) (by unfold NoiseData.ZDHP.sexp; norm_num) (by decide +kernel) hx.1 ?_ ?_
  · rw [show NoiseData.ZDHP.freqs.getD 0 0 = 1999999999999999289 by decide +kernel, NoiseData.ZDHP.fexp]; norm_num at h1 ⊢; linarith
  · refine Or.inr ⟨by decide +kernel, ?_⟩
    rw [show NoiseData.ZDHP.freqs.getD 199 0 = 219999999999999727200 by decide +kernel, NoiseData.ZDHP.fexp]; norm_num at h2 ⊢; linarith

/-- second observing run: zero from 30.233 Hz. -/
theorem C110_O2 (b : Bool) (eps : ℝ) (he : 0 ≤ eps) (x : ℝ) (hx : (binary32 b).IsFloat x) (h1 : 30.23294684405777843 ≤ x) (h2 : x ≤ 1000) :
    (Fp.Sn_O2 (binary32 b) eps).1 x = .fin 0 := by
  refine shipped_zero b he (Fq := NoiseData.O2.freqs) (V := NoiseData.O2.vals) (p := NoiseData.O2.fexp) (q := NoiseData.O2.sexp)
    (m := NoiseData.O2.ninf) (B := 26469779601696885595) true (by decide +kernel) (by decide +kernel) (by decide) (K := 240) (L := 999)
    (by decide) (by norm_num) (by decide +kernel) (by unfold NoiseData.O2.sexp; norm_num) (by decide +kernel) hx.1 ?_ ?_
  · rw [show NoiseData.O2.freqs.getD 240 0 = 3023294684405777843 by decide +kernel, NoiseData.O2.fexp]; norm_num at h1 ⊢; linarith
  · refine Or.inr ⟨by decide +kernel, ?_⟩
    rw [show NoiseData.O2.freqs.getD 999 0 = 100000000000000000000 by decide +kernel, NoiseData.O2.fexp]; norm_num at h2 ⊢; linarith

/-- third observing run: zero from 516.125 to 1012 Hz (and on other stretches). -/
theorem C110_O3a (b : Bool) (eps : ℝ) (he : 0 ≤ eps) (x : ℝ) (hx : (binary32 b).IsFloat x) (h1 : 516.125 ≤ x) (h2 : x ≤ 1012) :
    (Fp.Sn_O3a (binary32 b) eps).1 x = .fin 0 := by
  refine shipped_zero b he (Fq := NoiseData.O3a.freqs) (V := NoiseData.O3a.vals) (p := NoiseData.O3a.fexp) (q := NoiseData.O3a.sexp)
    (m := NoiseData.O3a.ninf) (B := 264697796) true (by decide +kernel) (by decide +kernel) (by decide) (K := 4049) (L := 8018)
    (by decide) (by norm_num) (by decide +kernel) (by unfold NoiseData.O3a.sexp; norm_num) (by decide +kernel) hx.1 ?_ ?_
  · rw [show NoiseData.O3a.freqs.getD 4049 0 = 516125 by decide +kernel, NoiseData.O3a.fexp]; norm_num at h1 ⊢; linarith
  · refine Or.inl ?_
    rw [show NoiseData.O3a.freqs.getD 8018 0 = 1012250 by decide +kernel, NoiseData.O3a.fexp,
      show (((1012250 : ℕ) : ℝ) / 10 ^ 3) = 4049 / 4 by norm_num]
    have e1 : (binary64 false).rd (4049 / 4 : ℝ) = 4049 / 4 :=
      rd_exact 4049 (k := -2) (by norm_num) (by simp [binary64]) (by simp [binary64])
        (by have := (wf64 false).min_le; linarith)
    have e2 : (binary32 b).rnd (4049 / 4 : ℝ) = 4049 / 4 :=
      rnd_exact 4049 (k := -2) (by norm_num) (by simp [binary32]) (by simp [binary32])
    rw [e1, e2]; linarith

/-- 100 Hz is a number of the format in the range of the theorems -/
example (b : Bool) : (binary32 b).IsFloat 100 ∧ (18.585 : ℝ) ≤ 100 ∧ (100 : ℝ) ≤ 1000 := by
  refine ⟨⟨?_, ?_⟩, by norm_num, by norm_num⟩
  · exact rd_exact 25 (k := 2) (by norm_num) (by simp [binary32]) (by simp [binary32]) (by have := (wf32 b).min_le; linarith)
  · rw [show (2 : ℝ) ^ (binary32 b).emax = 2 ^ (128 : ℤ) from rfl]; norm_num

end
end Ripple
