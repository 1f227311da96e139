/-
  Numerical bounds for spinning binaries: inspiral amplitude and right half of the connection.
  The bisection trees were found by tools/affine.cpp; they are checked by the kernel.
-/
import Verif.Proofs.XASSpinDefs

namespace Ripple
namespace XAS
open Real

lemma sp_ins (d x y δ w p W0 W1 e S k f0 f1 f2 A3 A4 A5 A6 B C v : ℝ) (hd : 0 ≤ d ∧ d ≤ 0.905) (hx : -1 ≤ x ∧ x ≤ 1) (hy : -1 ≤ y ∧ y ≤ 1)
    (he : e = (1 - d ^ 2) / 4)
    (hS : S = (0.5 * (1 + d) * x + 0.5 * (1 - d) * y - 38 / 113 * e * (x + y)) / (1 - 76 * e / 113))
    (hk : k = (x - y) * d) (hδ : 0 ≤ δ ∧ δ ≤ 0.059) (hw : 0 ≤ w ∧ w ≤ 1) (hp : 3.14159 ≤ p ∧ p ≤ 3.1416) (hW0 : 0.7937 ≤ W0 ∧ W0 ≤ 0.79371) (hW1 : 0.90856 ≤ W1 ∧ W1 ≤ 0.90857) (h0 : f0 = spF0 e S k) (h1 : f1 = spF1 e S k) (h2 : f2 = spF2 e S k)
    (hA3 : A3 = spA3 e d x y) (hA4 : A4 = spA4 e d x y) (hA5 : A5 = spA5 e d x y p) (hA6 : A6 = spA6 e d x y p)
    (hB : B = (f2 - 64 / 27 * f1 * W1 ^ 2) / (1 - W1)) (hC : C = (B - (64 / 27 * f1 * W1 ^ 2 - 8 * f0 * W0 ^ 2) / (W1 - W0)) / (1 - W0))
    (hv : v = w * (0.367 + 0.176 * e + S * (0.093 - 0.046 * e + S * (0.045 + 0.024 * S)) + δ)) :
    0 < 1 + v ^ 2 * ((-969 + 1804 * e) / 672 + v * (A3 + v * (A4 + v * (A5 + v * A6)))) + w ^ 7 * (f2 + (w - 1) * (B + (w - W1) * C)) := by
  unfold spF0 at h0
  unfold spF1 at h1
  unfold spF2 at h2
  unfold spA3 at hA3
  unfold spA4 at hA4
  unfold spA5 at hA5
  unfold spA6 at hA6
  affine_bnb [hd, hx, hy, hδ, hw, hp, hW0, hW1] [he, hS, hk, h0, h1, h2, hA3, hA4, hA5, hA6, hB, hC, hv]
    "baea..aece..e.b..ceb..be.c..e.c..eba..c..bac..e.c..ce..e.a..ee.ba..c..ebac..c..ca..a..bcea..ac..b..ae.c..e.b..ce
      .a..ae.c..e.b..ea..eae.b..e.b..aebac...ac...baec..cb..b..ec..cb..b..ace..e.b..e.c.b..eba..a..bae.ba..a..e.ab..b.
      .ae.ba...e.ba...cbae.ea.e..eac..a..ace..e..ea..a..e.eae..e..aea..ae.b..b.e..ea..ab.e..b.e..aea..eae..e.a..aec.e.
      .ce.a..e.a..eac..e.c..aec..c..eb..b.c..ae.eae.b..e.b..eab.e..b.e.c..abe..e.c..be..ec..c.b..ee..eae.b.a..e.b.a..a
      eb.e.a..be.a..ea..ab..b..eb.ea..a..be.a..ea.b..ab.e..b.e..bae.eae..e..aec.e..ce..e.b..eac..b..ea..ac..b..e.eae..
      e..aeab...ab.e..b.e..ea..ab.e..be..e..cae.eae..e.a..aee..eb..b.c..eb.a..eb.a..b.a..ea..aee.b.a..eba..ae..e..be.a
      ..ae.b..e.b..eeb..b.a..eba..ae..e.b..bae..e.b..aeb..b.e..eb..b.a.e..aee..eae.b.c..e.b.a..aeeb.c..b.c..eb.c..bc..
      c.e..eba..ae..e..be.a..ea.b..ac..e..ea.e..aeeb..b.a..eba..ae.b..e.b..bae..e..aeb..b.e..eb..b.e..eeb..b.a.b..eba.
      .ae.b..e.b..bae..e.b..aeb..b.e..eb.a..ba..ae..e.."

lemma sp_slope (d x y δ p W0 W1 e S k f0 f1 f2 A3 A4 A5 A6 B C v i s : ℝ) (hd : 0 ≤ d ∧ d ≤ 0.905) (hx : -1 ≤ x ∧ x ≤ 1) (hy : -1 ≤ y ∧ y ≤ 1)
    (he : e = (1 - d ^ 2) / 4)
    (hS : S = (0.5 * (1 + d) * x + 0.5 * (1 - d) * y - 38 / 113 * e * (x + y)) / (1 - 76 * e / 113))
    (hk : k = (x - y) * d) (hδ : 0 ≤ δ ∧ δ ≤ 0.059) (hp : 3.14159 ≤ p ∧ p ≤ 3.1416) (hW0 : 0.7937 ≤ W0 ∧ W0 ≤ 0.79371) (hW1 : 0.90856 ≤ W1 ∧ W1 ≤ 0.90857) (h0 : f0 = spF0 e S k) (h1 : f1 = spF1 e S k) (h2 : f2 = spF2 e S k)
    (hA3 : A3 = spA3 e d x y) (hA4 : A4 = spA4 e d x y) (hA5 : A5 = spA5 e d x y p) (hA6 : A6 = spA6 e d x y p)
    (hB : B = (f2 - 64 / 27 * f1 * W1 ^ 2) / (1 - W1)) (hC : C = (B - (64 / 27 * f1 * W1 ^ 2 - 8 * f0 * W0 ^ 2) / (W1 - W0)) / (1 - W0))
    (hv : v = 0.367 + 0.176 * e + S * (0.093 - 0.046 * e + S * (0.045 + 0.024 * S)) + δ) (hi : i = 1 + v ^ 2 * ((-969 + 1804 * e) / 672 + v * (A3 + v * (A4 + v * (A5 + v * A6)))) + f2) (hs : s = v ^ 2 * (2 * ((-969 + 1804 * e) / 672) + v * (3 * A3 + v * (4 * A4 + v * (5 * A5 + v * (6 * A6))))) + 7 * f2 + B + (1 - W1) * C) :
    0 < 3.5 * i - s := by
  unfold spF0 at h0
  unfold spF1 at h1
  unfold spF2 at h2
  unfold spA3 at hA3
  unfold spA4 at hA4
  unfold spA5 at hA5
  unfold spA6 at hA6
  affine_bnb [hd, hx, hy, hδ, hp, hW0, hW1] [he, hS, hk, h0, h1, h2, hA3, hA4, hA5, hA6, hB, hC, hv, hi, hs]
    "baacbca..a..ca..a..bac.b..c.b..ca.b..ab..b..bcac..c..aca..a..ac..b..cac..cb...acb..b..cb..b..abaca..a..ca..a..ac
      b..ba..c..cb..b..baab...a..aba..c..b..cbaaca.b..a.b..acb..b..cb..b..aabc..c..b.a..ab.a..b.a..aacab..b.c..ab.c..b
      .c..acba..a..bc..ca..a..cba..a.b..ba..ac..b..aabca..a..cab..b..ab.c..b.c..bac..c..acb..b.c..cb..b.c..abab..b..ab
      c..ca..a..bc..ca..b..bab..b..abc..ca..b..ba..ab..b..baacba..c..bac..c..ac..c..acb..b.c..bc..c.c..aabc..c.a..ba..
      c.a..ab.a..b.a..caaabc..c.b..bc..cb..b..abc..cb..b.a..bc..cb.a..b.a..abaa..b.a..aba..ac..c..ba..ac..c.b..bab.a..
      a..aba..ab.c..b.a..ba..ab.a..b.a..aabca..ab..b..cab.c..b.c..abc..c.b..bc..c.a..bacb..b..cb..b..acb.a..bc..ca..a.
      .cba..a.b..ba..ac..b..ababa..c..b.a..abca..a..cab..b..ab..b..bac..c..acb..b..cb..b..bab.a..ab..b..abab..b..abc..
      c..b.c..ba..ab.a..b.a.."

lemma sp_right (d x y e St k z a t E R m : ℝ) (hd : 0 ≤ d ∧ d ≤ 0.905) (hx : -1 ≤ x ∧ x ≤ 1) (hy : -1 ≤ y ∧ y ≤ 1)
    (he : e = (1 - d ^ 2) / 4)
    (hSt : St = ((1 + d) ^ 2 * x + (1 - d) ^ 2 * y) / (2 * (1 + d ^ 2)))
    (hk : k = (x - y) * d) (hz : z = (x - y) ^ 2) (ha : a = St + e * spinG e St k z) (ht : t = 1 - a) (hm : m = spMid e St k) (hE : E = e * eradG e St k z) (hR : R = (0.07205 - 0.0146 * t + 0.0078 / (t + 0.1)) / (1 - E)) :
    0 < 16 * spV e St k - 5 * (0.6695 * (1 + (R / 0.09 - 1) / 6)) * R * m := by
  unfold spinG sK sn1 sn2 sn3 skk sD at ha
  unfold spMid at hm
  unfold eradG at hE
  unfold spV
  affine_bnb [hd, hx, hy] [he, hSt, hk, hz, ha, ht, hE, hR, hm]
    "bcbcaa.a..aa.a..aa..aa..a..aa.a..aa.a..aa..aa..a..caa.a..aa..aa..a.a..aa.a..aa..aa..a.a..bcaa.a..aa..aa..aa..a..
      aaa..a..aa.a..aa..aa..a..caa.a..aa..aa..a.a..aaa..a..aa..aa..a.a..cbcaa.a..aa..aa..a.a..aa.a..aa..aa..a.a..caaa.
      .aa..a..baa..aa..a.a..caaa..a.b..aab..b..ab..b.a..aaa..a.b..aab..b..ab..b.a..abaa..a..aa..a.a..baa..aa..a.a..caa
      a..a.b..aab..b..ab..b.a..aaa..a.b..aab..b..ab..b.b..bcaaa..a..aa..aa..a.a..abaa..a..aa..a..aa.b..aa..a.a..cabaa.
      .a..caa..a.a..aa..a.a..baa..aa..a.a..caaa..ab..b..aab..b..ab..b.b..aaa..ab..b..aab..b..ab..b.b..abaa..a..caa..aa
      ..a..aa..aa..a..bcaa..aa..a.a..aa..aa..a.a..caaa..ab..b..aab..b..ab..b.b..aaa.b..ab..b..aab..b..ab.b..b.b.."

lemma sp_mid (d x y e St k : ℝ) (hd : 0 ≤ d ∧ d ≤ 0.905) (hx : -1 ≤ x ∧ x ≤ 1) (hy : -1 ≤ y ∧ y ≤ 1)
    (he : e = (1 - d ^ 2) / 4)
    (hSt : St = ((1 + d) ^ 2 * x + (1 - d) ^ 2 * y) / (2 * (1 + d ^ 2)))
    (hk : k = (x - y) * d) : 0 < spMid e St k := by
  unfold spMid
  affine_bnb [hd, hx, hy] [he, hSt, hk]
    "baa..a.a..cba.a.a..caa..aa..a.a..aa..aa..a.a..ba.a.a..caa..aa..a.a..aa..aa..a.a.."

lemma sp_v (d x y e St k : ℝ) (hd : 0 ≤ d ∧ d ≤ 0.905) (hx : -1 ≤ x ∧ x ≤ 1) (hy : -1 ≤ y ∧ y ≤ 1)
    (he : e = (1 - d ^ 2) / 4)
    (hSt : St = ((1 + d) ^ 2 * x + (1 - d) ^ 2 * y) / (2 * (1 + d ^ 2)))
    (hk : k = (x - y) * d) : 0 < spV e St k := by
  unfold spV
  affine_bnb [hd, hx, hy] [he, hSt, hk]
    "baac..a..aa.b..ab..ba...caa.a..aab..b.b..ab.b..b.b.b..aaa..a.b..aab..b.b..ab.b..b.b.b.."

end XAS
end Ripple
