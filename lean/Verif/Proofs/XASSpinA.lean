/-
  Numerical bounds for spinning binaries: minimum energy circular orbit, end of the inspiral, final spin.
  The bisection trees were found by tools/affine.cpp; they are checked by the kernel.
-/
import Verif.Proofs.XASSpinDefs

namespace Ripple
namespace XAS
open Real

lemma sp_mlo (e S b : ℝ) (he : 0.045 ≤ e ∧ e ≤ 0.25) (hS : -1 ≤ S ∧ S ≤ 1)
  (hb : b = (0.0175 + 0.0112 * e) / (1 - S * (0.512 + 0.36 * e))) :
    0 < fMECOof e 0 S 0 - b := by
  unfold fMECOof
  simp only [mul_zero, zero_mul, add_zero]
  affine_bnb [he, hS] [hb]
    "bbbbaaba...ab..ba...bbaaa..a.a..aaa..ab..b..aaba..a..ba.b..a..ababa...ba.b..a..ab..ba...babab..ba...ab..b..baba.
      b..a..bab..ba..a..ab..b..aba..a..ba.b..a..aba.b..a..bab..ba..a..ab..b..aaa..a..aaa..a.b..aab..ba..a..aba.b..a..b
      aba...ba.b..a..ab..ba...aaa..a.b..aab..ba..a..abab..b..a..baba...ba.b..a..ab..ba...aab..ba...aab..ba...aba.b..a.
      .baba...ba.b..a..ab..ba...aba.b..a..aba.b..b..bab..ba..a..a.b..bab..ba.b..a..b..bbb..ab..b.a..bba.a.b..aa..aa..a
      b..b..baa.b..aab..b..ab.a..ba..a.b..aab.ab..b..ba..ab.a..ab..b..baaa..a..aab..b..ab..b..aaab..b..ab..b..baa..a.a
      ..aa.a..aa..a.."

lemma sp_mhi (e S b : ℝ) (he : 0.045 ≤ e ∧ e ≤ 0.25) (hS : -1 ≤ S ∧ S ≤ 1)
  (hb : b = (0.01905 + 0.0124 * e) / (1 - S * (0.512 + 0.36 * e))) :
    0 < b - fMECOof e 0 S 0 := by
  unfold fMECOof
  simp only [mul_zero, zero_mul, add_zero]
  affine_bnb [he, hS] [hb]
    "bbbbaa..bbaa..aa.a..aa.b..aba.b..a..baba..a..bab..ba..a..a.b..ab..ba..a..aa..aa..aa..aba...ba.b..a..aa..aa..aba.
      ..ba.ba...a..aa..aa..aba...ba.ba...a..ab..aba...ba.ba...a..bab..ba.a..a..ba...bbab..b..aba..a..ba..ab..b.a..bbaa
      b..b..ab.a..ab..b.a..aab..b.a..aba..a.b..aba..a.b..ba..ab..b..baab.a..ba..a.b..aabb..b.a..ba.b..ab..b..abab..b..
      ab.a..ba..a..bab.a..ba..a..aba..a.b..ba..ab..b..aaba..a.b..bab..b..ab..ba..a..baaba..a..ab.a..ba..a..aaba..ab..b
      ..bab..b..ab..b..abab..b..ab.a..ba..a..bab..b.a..aba..a..ba..a.b..aaba.b..ab..b..aba..ab..b..bab..b..ab..b..baaa
      b..b..ab.a..ba..a..aaba..a..ba..ab..b..aba.b..ab..b..bab..b..ab..b.a..aaab.a..ba..a..aba..a.b..ba..ab..b..aabab.
      .b..ab..b..bab..b..ab.a..ba..a..abab.a..ba..a..aba..a..ba..a.b..baba..a..ba..a..aba..ab..b..bab..b..ab..b.."

lemma sp_ahi (d x y e St k z a t : ℝ) (hd : 0 ≤ d ∧ d ≤ 0.905) (hx : -1 ≤ x ∧ x ≤ 1) (hy : -1 ≤ y ∧ y ≤ 1)
    (he : e = (1 - d ^ 2) / 4)
    (hSt : St = ((1 + d) ^ 2 * x + (1 - d) ^ 2 * y) / (2 * (1 + d ^ 2)))
    (hk : k = (x - y) * d) (hz : z = (x - y) ^ 2) (ha : a = St + e * spinG e St k z) (ht : t = 1 - a)  :
    0 < t - 0.0025 := by
  unfold spinG sK sn1 sn2 sn3 skk sD at ha
  affine_bnb [hd, hx, hy] [he, hSt, hk, hz, ha, ht]
    "baaac.b..c.b..ab..b..aa..a..aaacb.c..bc..ca..ab..b..cb.a..ba..ac.b..b.c.b..abc.a..cab..b..ab.c.b..b.c.b..ba..ab.
      c.ab..b..b.cb..b.a..aab.ab.cb..b.a..b.b.ac..c..b.b.ab.ac..b.c..b.ab.c..b.c..ab.b.ab.ab.a..b.b.a..b.b.ab.a..b.a..
      b.b.ab.b.ab.a..b.a..b.b.ab.b.a.b..b.b.ab.a..b.a.."

lemma sp_Flo (d x y e S St k z a t u v b : ℝ) (hd : 0 ≤ d ∧ d ≤ 0.905) (hx : -1 ≤ x ∧ x ≤ 1) (hy : -1 ≤ y ∧ y ≤ 1)
    (he : e = (1 - d ^ 2) / 4)
    (hS : S = (0.5 * (1 + d) * x + 0.5 * (1 - d) * y - 38 / 113 * e * (x + y)) / (1 - 76 * e / 113))
    (hSt : St = ((1 + d) ^ 2 * x + (1 - d) ^ 2 * y) / (2 * (1 + d ^ 2)))
    (hk : k = (x - y) * d) (hz : z = (x - y) ^ 2) (ha : a = St + e * spinG e St k z) (ht : t = 1 - a) (hu : u = 0.00405 / (t + 0.022) + 0.0849 / (t + 0.35)) (hv : v = 0.367 + 0.176 * e + S * (0.093 - 0.046 * e + S * (0.045 + 0.024 * S))) (hb : b = (0.0175 + 0.0112 * e) / (1 - S * (0.512 + 0.36 * e)) + (z * (0.00034375176678815234 + 0.000016343732281057392 * e) * e ^ 2 + k * e * (0.08064665214195679 * e ^ 2 + e * (-0.028476219509487793 - 0.005746537021035632 * S) - 0.0011713735642446144 * S))) :
    0 < 2.35612 * b + 0.25 * u - v ^ 3 := by
  unfold spinG sK sn1 sn2 sn3 skk sD at ha
  affine_bnb [hd, hx, hy] [he, hS, hSt, hk, hz, ha, ht, hu, hv, hb]
    "bcbcaaa..a..aa..a..aaa..a..aa..a..caaa..a..aa..a..aaa..a..aa..a..bcaaa..a.b..aa..a..aaa.a..aa..b..aab...a..caaa.
      .a.b..aab...a..aaaa..a..ab..b..aab..b..a..cbcaaa..a..aab..b..ab..b..aaa..a.b..aab..b..ab..b..cabaa..a..caa..a..a
      a..a..bcaa..aa..a..aa..aa..a..caba..a.a..baa..a..caa..a.b..aa..ab..b..aba..a.a..baa..a..caa..ab..b..aa..ab..b..a
      baa..a..caa..a.a..aa..a.a..bcaa..aa..a..aa.a..aa..a.b..caba..a.a..baa..a..caa..ab..b..aa..ab..b..aba..aa..a..baa
      ..a.a..caa..ab..b..aa..ab..b.b..bcaaa.b..ab..b..aab..b..ab..b.a..abaaa..a..a..caa..a..aaa..a..aa..a..baa..a..aaa
      ..a..aa..a..cabcaa..a..aa..a.a..caa..aa..a..aaa..a..aa..a..bcaa.a..aa..a.b..aaa..a..aa..ab..b..caba.a..aa..a..ba
      a..a.a..caa.b..ab..b.b..aa.b..ab..b.b..abaa..a..caa..a..aa..a..baa..a.a..caa.b..ba..a.b..aab..b..ba..a.b..abcaa.
      a..aa..a..aaa..a..aa..ab..b..caaa..a..aab..b..ab..b..aaab..a..ab..b..baa..a..aaa..a..aa..a..bcaaa..a..aa.b..ab..
      b..aaab..b..ab..b..aab..b..ab..b.a..cabaa..a..caa..a..aa..a.b..baa..aa..a..caab..b..ba..a.a..aab..b..ba..ab..a..
      abaa..aa..a..caa..ab..b..aab..b..ab..b..baaa..a..aa..a.b..caab..b..ba..ab..a..aab..b.a..ba.a..ab..a.."

lemma sp_Fhi (d x y e S St k z a t u v b : ℝ) (hd : 0 ≤ d ∧ d ≤ 0.905) (hx : -1 ≤ x ∧ x ≤ 1) (hy : -1 ≤ y ∧ y ≤ 1)
    (he : e = (1 - d ^ 2) / 4)
    (hS : S = (0.5 * (1 + d) * x + 0.5 * (1 - d) * y - 38 / 113 * e * (x + y)) / (1 - 76 * e / 113))
    (hSt : St = ((1 + d) ^ 2 * x + (1 - d) ^ 2 * y) / (2 * (1 + d ^ 2)))
    (hk : k = (x - y) * d) (hz : z = (x - y) ^ 2) (ha : a = St + e * spinG e St k z) (ht : t = 1 - a) (hu : u = 0.00416 / (t + 0.022) + 0.087 / (t + 0.35)) (hv : v = 0.426 + 0.176 * e + S * (0.093 - 0.046 * e + S * (0.045 + 0.024 * S))) (hb : b = (0.01905 + 0.0124 * e) / (1 - S * (0.512 + 0.36 * e)) + (z * (0.00034375176678815234 + 0.000016343732281057392 * e) * e ^ 2 + k * e * (0.08064665214195679 * e ^ 2 + e * (-0.028476219509487793 - 0.005746537021035632 * S) - 0.0011713735642446144 * S))) :
    0 < v ^ 3 - (2.3562 * b + 0.25 * u) := by
  unfold spinG sK sn1 sn2 sn3 skk sD at ha
  affine_bnb [hd, hx, hy] [he, hS, hSt, hk, hz, ha, ht, hu, hv, hb]
    "bcbcaaa..a..aa..a..aaa..a..aa..a..caaa..a..aa..a..aaa..a..aa..a..bcaaa..a..aa..a..aaaa..a..a..aa..a..caaab..b..a
      ..aa..a..aaab.c..b..ab..b..aa..a..cbcaaa.b..ab..b..aab..b..ab..b..aaab..b..ab..b..aab..b..ab..b..cabaa.a..aa..a.
      .caa.a..aa..ab..b..aa.a..aa..ab..b..bcaaa..a..aa...aaa..a..aa...cabaa..a..aaa..a..aa..ab..b..baa..a..caaab..b..a
      b.b..b.b..aab.b.b..b.b.b.a..ab.b.b.a..b.b.b.a..aaab..b..ab..b.b..aab.b..b.b.b..ab.b.b.a..b.b.b.a..abaa..a..aaa..
      a..aa..a.b..baa...caaab..b..ab..b.b..aab.b..b.b.b..ab.b.b.a..b.b.b.a..aaa.b..ab..b..aab.b..b.b.b..ab.b.b.a..b.b.
      b.a..abaac..a..aa..a..caa.a..aa..ab..b..aa.a..aa..ab..b..bcaaa..a..aa...aaa..a..a..cabaa..a..aa.a..aa..a..baa...
      caaa.b..ab..b..aab.b..b.b..ab.b.b..b.b.b.a..aaa..ab..b..aab.b..b.b..ab.b.b..b.b.b.a..aba..aa.a..aa..a..ba..caaa.
      .ab..b..aab..b.b..ab.b.b..b.b.b.a..aaa..ab..b..aab..b.b..ab.b.b..b.b.b.a..bcaaab..b..ab..b..aab..b..ab..b..abaac
      ..c..a..caa..a..aa..a..baa..a..aa..a..cabcaa..a..aa..a..caa.a..aa..ab..b..aa.a..aa..ab..b..bcaaa...a..aa..a..cab
      a..aa..aa..a..ba..caaa..ab..b..aab..b.b..ab.b.b..b.b.b.a..aaa..a.b..aab..b.b..ab.b..b.b.b.a..aba..caa..a.a..aa..
      a.a..ba..caaa..a.b..ba..aa.b..ab..b.b.a..aaa..a.b..ba..aa..ab..b.b..abcaa..a..aaa..a..aa..a..caaa..a..aa..ab..b.
      .aaa..a..ba..aa..a..bcaa..a..aab...a..caba..caa..a.a..aa..a.a..ba..caaa..a.b..ba..aa..ab..b.b..aaa..a.b..ba..aa.
      .ab..b.b..aba..caa..a.a..aa..a.a..ba..caaa..a.b..ba..aa..ab..b.b..aaa..a..ba..aa..ab..b.b.."

end XAS
end Ripple
