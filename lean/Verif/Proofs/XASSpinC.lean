/-
  Numerical bounds for spinning binaries: left half of the connection, mass ratio up to about 6.
  The bisection trees were found by tools/affine.cpp; they are checked by the kernel.
-/
import Verif.Proofs.XASSpinDefs

namespace Ripple
namespace XAS
open Real

lemma sp_left1 (d x y δ p W0 W1 e S St k f0 f1 f2 A3 A4 A5 A6 B C v i s z a t E R m : ℝ) (hd : 0 ≤ d ∧ d ≤ 0.5) (hx : -1 ≤ x ∧ x ≤ 1) (hy : -1 ≤ y ∧ y ≤ 1)
    (he : e = (1 - d ^ 2) / 4)
    (hS : S = (0.5 * (1 + d) * x + 0.5 * (1 - d) * y - 38 / 113 * e * (x + y)) / (1 - 76 * e / 113))
    (hSt : St = ((1 + d) ^ 2 * x + (1 - d) ^ 2 * y) / (2 * (1 + d ^ 2)))
    (hk : k = (x - y) * d) (hz : z = (x - y) ^ 2) (ha : a = St + e * spinG e St k z) (ht : t = 1 - a) (hδ : 0 ≤ δ ∧ δ ≤ 0.059) (hp : 3.14159 ≤ p ∧ p ≤ 3.1416) (hW0 : 0.7937 ≤ W0 ∧ W0 ≤ 0.79371) (hW1 : 0.90856 ≤ W1 ∧ W1 ≤ 0.90857) (h0 : f0 = spF0 e S k) (h1 : f1 = spF1 e S k) (h2 : f2 = spF2 e S k)
    (hA3 : A3 = spA3 e d x y) (hA4 : A4 = spA4 e d x y) (hA5 : A5 = spA5 e d x y p) (hA6 : A6 = spA6 e d x y p)
    (hB : B = (f2 - 64 / 27 * f1 * W1 ^ 2) / (1 - W1)) (hC : C = (B - (64 / 27 * f1 * W1 ^ 2 - 8 * f0 * W0 ^ 2) / (W1 - W0)) / (1 - W0))
    (hv : v = 0.367 + 0.176 * e + S * (0.093 - 0.046 * e + S * (0.045 + 0.024 * S)) + δ) (hi : i = 1 + v ^ 2 * ((-969 + 1804 * e) / 672 + v * (A3 + v * (A4 + v * (A5 + v * A6)))) + f2) (hs : s = v ^ 2 * (2 * ((-969 + 1804 * e) / 672) + v * (3 * A3 + v * (4 * A4 + v * (5 * A5 + v * (6 * A6))))) + 7 * f2 + B + (1 - W1) * C) (hm : m = spMid e St k) (hE : E = e * eradG e St k z) (hR : R = (0.07205 - 0.0146 * t + 0.0078 / (t + 0.1)) / (1 - E)) :
    0 < 16 * i ^ 2 - 0.2547 * (1 + v / 0.38) * m * (5 * (v ^ 3 / p) * i + R * (7 / 6 * i - s / 3)) := by
  unfold spF0 at h0
  unfold spF1 at h1
  unfold spF2 at h2
  unfold spA3 at hA3
  unfold spA4 at hA4
  unfold spA5 at hA5
  unfold spA6 at hA6
  unfold spinG sK sn1 sn2 sn3 skk sD at ha
  unfold spMid at hm
  unfold eradG at hE
  affine_bnb [hd, hx, hy, hδ, hp, hW0, hW1] [he, hS, hSt, hk, hz, ha, ht, hE, hR, hm, h0, h1, h2, hA3, hA4, hA5, hA6, hB, hC, hv, hi, hs]
    "bcbacad.bcd..d.a..cd...db..bd.ac..c..cd..d..ad.bcd.a..d.a..c..bd.ad.c..d.c.b..d.ac..d.c..acdb..bad.c.b..d.bc...a
      d.b..d.b..bd.ad.bc...d.bc..c..d.ad.b..d.b..bda..acd.bc..c..d.bad..d..a..cd.bd.a..a..d.bad..d..a..da..cad.b..d.b.
      .ad.b..d.b..acad.bcd...c..bd.c..d.c..abd.c..d..bd.c..d.c..acbd.a.d..d.a..bd.a.d..d.a..bcd.ad..d..d.ad..d..cd.a..
      d.a..baacbd.ca..a..d.c..bad.c..d.c..ad.c..d.c..cbd.acd..d..d.cb..b..d.ac..c..bad.cd..d..d.cd.b..d.b..ad.c..d.c.b
      ..abcda..ad.bc..c..d.bad..d.c..a..ad.db..bac..c..a..d.db..bac..c..a.c..cd.ad.b..d.b..ad.bd.c..d..d.bd.a..d..badc
      ..cd.bad.c..d.c..a..db..bac.d..d.c.b..ac..d..dc..cd.bad.c..d.c..a..db..bad.c.b..d.c.b..ad..d..adc..cd.ba...bd.a.
      .d.a..d.cd.ba...bd.a..d.a..aacbd.c..c..bcd..a..c.a..cbd.a..d.c..bad.c..d.c..ad.c..d.c..abcd.ab..b..ad.b..d.b..cd
      .a..ad.b..d.b..bad.cb..b..d.cb..bd...cd.a..ad.b..d.b..cbacabd.c..d.c..bd.c..d.c..abd..c..bd..c..acbd.a..d.a..bd.
      a..c..bcd.a..d.a..ca.d..ad..d..caabcd...ca..a..bc..ac..c..aba..ac..b..bad..b..ab..b.c..aabc..ca..a..bc..ca..a..b
      aac..b..ab..b..aac..b.c..ab.c..bd..c..bcaabc..c..bc..c..abd.a..bd..c..bd.a..ab..b..aabc.a..c.b..bcd..a..cb..b.a.
      .abad.b..d.b..ab.c..b.d..bad.b..d.b..ab.d..bd..d..caabc..ca..b.a..bc.b..cb..b.a..abcb..b..acb..b..bc..c..bab..b.
      d..abc..c.d..bc..cd..d..aabcb..bc..c..cbc..c..bc.d..cd..d.a..bcb..ba..a..cba..a.d..bad..d..ac..c.d..babc.a..ca..
      a..abd..c..bd..d.c..aacb.d..bd..d.c..bc.d..cd..d.b..abc.d..cd.b..bd..d..bcd..d.b..cd.b..bd..d.."

lemma sp_left2 (d x y δ p W0 W1 e S St k f0 f1 f2 A3 A4 A5 A6 B C v i s z a t E R m : ℝ) (hd : 0.5 ≤ d ∧ d ≤ 0.7) (hx : -1 ≤ x ∧ x ≤ 1) (hy : -1 ≤ y ∧ y ≤ 1)
    (he : e = (1 - d ^ 2) / 4)
    (hS : S = (0.5 * (1 + d) * x + 0.5 * (1 - d) * y - 38 / 113 * e * (x + y)) / (1 - 76 * e / 113))
    (hSt : St = ((1 + d) ^ 2 * x + (1 - d) ^ 2 * y) / (2 * (1 + d ^ 2)))
    (hk : k = (x - y) * d) (hz : z = (x - y) ^ 2) (ha : a = St + e * spinG e St k z) (ht : t = 1 - a) (hδ : 0 ≤ δ ∧ δ ≤ 0.059) (hp : 3.14159 ≤ p ∧ p ≤ 3.1416) (hW0 : 0.7937 ≤ W0 ∧ W0 ≤ 0.79371) (hW1 : 0.90856 ≤ W1 ∧ W1 ≤ 0.90857) (h0 : f0 = spF0 e S k) (h1 : f1 = spF1 e S k) (h2 : f2 = spF2 e S k)
    (hA3 : A3 = spA3 e d x y) (hA4 : A4 = spA4 e d x y) (hA5 : A5 = spA5 e d x y p) (hA6 : A6 = spA6 e d x y p)
    (hB : B = (f2 - 64 / 27 * f1 * W1 ^ 2) / (1 - W1)) (hC : C = (B - (64 / 27 * f1 * W1 ^ 2 - 8 * f0 * W0 ^ 2) / (W1 - W0)) / (1 - W0))
    (hv : v = 0.367 + 0.176 * e + S * (0.093 - 0.046 * e + S * (0.045 + 0.024 * S)) + δ) (hi : i = 1 + v ^ 2 * ((-969 + 1804 * e) / 672 + v * (A3 + v * (A4 + v * (A5 + v * A6)))) + f2) (hs : s = v ^ 2 * (2 * ((-969 + 1804 * e) / 672) + v * (3 * A3 + v * (4 * A4 + v * (5 * A5 + v * (6 * A6))))) + 7 * f2 + B + (1 - W1) * C) (hm : m = spMid e St k) (hE : E = e * eradG e St k z) (hR : R = (0.07205 - 0.0146 * t + 0.0078 / (t + 0.1)) / (1 - E)) :
    0 < 16 * i ^ 2 - 0.2547 * (1 + v / 0.38) * m * (5 * (v ^ 3 / p) * i + R * (7 / 6 * i - s / 3)) := by
  unfold spF0 at h0
  unfold spF1 at h1
  unfold spF2 at h2
  unfold spA3 at hA3
  unfold spA4 at hA4
  unfold spA5 at hA5
  unfold spA6 at hA6
  unfold spinG sK sn1 sn2 sn3 skk sD at ha
  unfold spMid at hm
  unfold eradG at hE
  affine_bnb [hd, hx, hy, hδ, hp, hW0, hW1] [he, hS, hSt, hk, hz, ha, ht, hE, hR, hm, h0, h1, h2, hA3, hA4, hA5, hA6, hB, hC, hv, hi, hs]
    "bbacbda..adc..cbd.c..d..bd.a..d..dc..cbd.a..d..bd.a..d..da..acd.b..d.b..d.cb..b..bda..acd.bd.ac..c..d.a..d.bad.c
      ..d.c..ad..d..dc..cbd.a..d.a..bd.ac..c..a..da..acd.b..d.ba...cd.b..d.ba...bcda..ad.cbd.a..d..bd.a..d.a..d.cbd.a.
      .d.a..bd.a..d.a..da..adc..cbd.a..d.a..bd.ab..b..a..db..bcd.a..d.ad..d..cd.a..a..cda..ad.cb..b..d.bcd..d..c..da..
      adb..bcd..a..c..d.bcd..a..c..acbd.cad..d..ad..d..d.ca..a..bda..acd..b..cd.b..b..da..ac.b..c.b..bcd.ad.cb..b..d.b
      c..c..da..abd.c..c..bd.c..d.c..cd.acd...bd..d..da..abc..c..bd..c..bacbcd.a..d.b..cd.a..bd..d..bcd.b..d.ab..b..cb
      d..d.a..bd.a..ad..d..bcda..ac..b..ad.bc..c..d.bc..c..cad.c.b..d.b.c..abd.c..d.c..bd.c..d.c..cbacab..b..ba..a..ab
      c..c.d..bd.c..cd..d..aacb.d..bd..d.c..cb.d.c..bd..d.b..abcd..d.b..cd.b..d.b..bcd.a..d.b..cd.b..d.b.a..bacba..ad.
      .d..bad..d..ad.c..d.c..abcd..d..cd..d.b..bd.c..cd.b..d.b..aacbd.c..cd..d..bd.c.b..cd.b..bd..d..bcd.c..d.c.b..cd.
      b.c..bd.c..cd..d..abcd.b..d.b.c..cbd..d.c..bd.c..d.c.a..bcd.b..d.bc..c..cbd.c..d.c..bd.c..d.c.a.."

end XAS
end Ripple
