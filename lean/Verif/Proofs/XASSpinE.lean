/-
  Numerical bounds for spinning binaries: left half of the connection, mass ratio from about 6 to 20.
  The bisection trees were found by tools/affine.cpp; they are checked by the kernel.
-/
import Verif.Proofs.XASSpinDefs

namespace Ripple
namespace XAS
open Real

lemma sp_left3 (d x y δ p W0 W1 e S St k f0 f1 f2 A3 A4 A5 A6 B C v i s z a t E R m : ℝ) (hd : 0.7 ≤ d ∧ d ≤ 0.82) (hx : -1 ≤ x ∧ x ≤ 1) (hy : -1 ≤ y ∧ y ≤ 1)
    (he : e = (1 - d ^ 2) / 4)
    (hS : S = (0.5 * (1 + d) * x + 0.5 * (1 - d) * y - 38 / 113 * e * (x + y)) / (1 - 76 * e / 113))
    (hSt : St = ((1 + d) ^ 2 * x + (1 - d) ^ 2 * y) / (2 * (1 + d ^ 2)))
    (hk : k = (x - y) * d) (hz : z = (x - y) ^ 2) (ha : a = St + e * spinG e St k z) (ht : t = 1 - a) (hδ : 0 ≤ δ ∧ δ ≤ 0.059) (hp : 3.14159 ≤ p ∧ p ≤ 3.1416) (hW0 : 0.7937 ≤ W0 ∧ W0 ≤ 0.79371) (hW1 : 0.90856 ≤ W1 ∧ W1 ≤ 0.90857) (h0 : f0 = spF0 e S k) (h1 : f1 = spF1 e S k) (h2 : f2 = spF2 e S k)
    (hA3 : A3 = spA3 e d x y) (hA4 : A4 = spA4 e d x y) (hA5 : A5 = spA5 e d x y p) (hA6 : A6 = spA6 e d x y p)
    (hB : B = (f2 - 64 / 27 * f1 * W1 ^ 2) / (1 - W1)) (hC : C = (B - (64 / 27 * f1 * W1 ^ 2 - 8 * f0 * W0 ^ 2) / (W1 - W0)) / (1 - W0))
    (hv : v = 0.367 + 0.176 * e + S * (0.093 - 0.046 * e + S * (0.045 + 0.024 * S)) + δ) (hi : i = 1 + v ^ 2 * ((-969 + 1804 * e) / 672 + v * (A3 + v * (A4 + v * (A5 + v * A6)))) + f2) (hs : s = v ^ 2 * (2 * ((-969 + 1804 * e) / 672) + v * (3 * A3 + v * (4 * A4 + v * (5 * A5 + v * (6 * A6))))) + 7 * f2 + B + (1 - W1) * C) (hm : m = spMid e St k) (hE : E = e * eradG e St k z) (hR : R = (0.07205 - 0.0146 * t + 0.0078 / (t + 0.1)) / (1 - E)) :
    0 < 16 * i ^ 2 - 0.2547 * (1 + v / 0.38) * m * (5 * (v ^ 3 / p) * i + R * (7 / 6 * i - s / 3)) := by
  unfold spF0 at h0
  unfold spF1 at h1
  unfold spF2 at h2
  unfold spA3 at hA3
  unfold spA4 at hA4
  unfold spA5 at hA5
  unfold spA6 at hA6
  unfold spinG sK sn1 sn2 sn3 skk sD at ha
  unfold spMid at hm
  unfold eradG at hE
  affine_bnb [hd, hx, hy, hδ, hp, hW0, hW1] [he, hS, hSt, hk, hz, ha, ht, hE, hR, hm, h0, h1, h2, hA3, hA4, hA5, hA6, hB, hC, hv, hi, hs]
    "bbabdc..cda..abd.c..d.c..bd.c..d.c..da..abd.cd..a..d.c..bd.cd..a..d.c..dc..cda..abd.c..c..bd.c..d..da..abc..c..b
      d.c..d..bda..adc..cbd.c.d..d.c..bd.ca..a..d.ca..a..dc..cbd.ad..d.c..d.ad..d.c..bd.ad.c..d.c..d.ac..d.c..da..cda.
      .abd.c..d.c..bd.a..d.c..da..abd.c..d.c..bd.a..d.c..abdc..cd.ba..a..bd.a..d.a..dc..cbd.a..d.a..bd.a..a..bdc..cda.
      .abd...bd...ad.b..d.bd...dc..cbd.a..d.a..ba..a..bbacd.bd..c..d.ba..a..dc..cba..a..ba..a..acd.bc..c..db..bc..c.a.
      .cd.ba..a..db..ba..ad..d..abcbd.c..cd.a..d.a..bd.ca..a..cd.a..d.a.b..cbcd.a..d.a.b..cad.b..d.b..bd.a..d.a..bcd.a
      b..b..db..ab..b..cbd.a..d.ac..d..bd.ad..d..da..ac..c..bcbd.ac..c..d.ac..c..bd.ac..c..da..ac.d..c.d..bcad.cb..b..
      d.cb..b..adc..cb..b.d..d.cb..b.d..cadb..cb..b.d..db..bc..cd..d..abd.c.d..dc..cd..d.c..bd.cd..d.a..dc..cd.a..d.a.
      ."

lemma sp_left4 (d x y δ p W0 W1 e S St k f0 f1 f2 A3 A4 A5 A6 B C v i s z a t E R m : ℝ) (hd : 0.82 ≤ d ∧ d ≤ 0.905) (hx : -1 ≤ x ∧ x ≤ 1) (hy : -1 ≤ y ∧ y ≤ 1)
    (he : e = (1 - d ^ 2) / 4)
    (hS : S = (0.5 * (1 + d) * x + 0.5 * (1 - d) * y - 38 / 113 * e * (x + y)) / (1 - 76 * e / 113))
    (hSt : St = ((1 + d) ^ 2 * x + (1 - d) ^ 2 * y) / (2 * (1 + d ^ 2)))
    (hk : k = (x - y) * d) (hz : z = (x - y) ^ 2) (ha : a = St + e * spinG e St k z) (ht : t = 1 - a) (hδ : 0 ≤ δ ∧ δ ≤ 0.059) (hp : 3.14159 ≤ p ∧ p ≤ 3.1416) (hW0 : 0.7937 ≤ W0 ∧ W0 ≤ 0.79371) (hW1 : 0.90856 ≤ W1 ∧ W1 ≤ 0.90857) (h0 : f0 = spF0 e S k) (h1 : f1 = spF1 e S k) (h2 : f2 = spF2 e S k)
    (hA3 : A3 = spA3 e d x y) (hA4 : A4 = spA4 e d x y) (hA5 : A5 = spA5 e d x y p) (hA6 : A6 = spA6 e d x y p)
    (hB : B = (f2 - 64 / 27 * f1 * W1 ^ 2) / (1 - W1)) (hC : C = (B - (64 / 27 * f1 * W1 ^ 2 - 8 * f0 * W0 ^ 2) / (W1 - W0)) / (1 - W0))
    (hv : v = 0.367 + 0.176 * e + S * (0.093 - 0.046 * e + S * (0.045 + 0.024 * S)) + δ) (hi : i = 1 + v ^ 2 * ((-969 + 1804 * e) / 672 + v * (A3 + v * (A4 + v * (A5 + v * A6)))) + f2) (hs : s = v ^ 2 * (2 * ((-969 + 1804 * e) / 672) + v * (3 * A3 + v * (4 * A4 + v * (5 * A5 + v * (6 * A6))))) + 7 * f2 + B + (1 - W1) * C) (hm : m = spMid e St k) (hE : E = e * eradG e St k z) (hR : R = (0.07205 - 0.0146 * t + 0.0078 / (t + 0.1)) / (1 - E)) :
    0 < 16 * i ^ 2 - 0.2547 * (1 + v / 0.38) * m * (5 * (v ^ 3 / p) * i + R * (7 / 6 * i - s / 3)) := by
  unfold spF0 at h0
  unfold spF1 at h1
  unfold spF2 at h2
  unfold spA3 at hA3
  unfold spA4 at hA4
  unfold spA5 at hA5
  unfold spA6 at hA6
  unfold spinG sK sn1 sn2 sn3 skk sD at ha
  unfold spMid at hm
  unfold eradG at hE
  affine_bnb [hd, hx, hy, hδ, hp, hW0, hW1] [he, hS, hSt, hk, hz, ha, ht, hE, hR, hm, h0, h1, h2, hA3, hA4, hA5, hA6, hB, hC, hv, hi, hs]
    "bbadb..bda..acd.bd.c.a..d.c..bd.d.ac..c..d.ad.b..d.b..bd.cd.ac..c..ad.c.b..d.cb..b..d.cad.b..d.b..ad.b..d.b..da.
      .abcd.c..d.c..cd.c..d.c..bcd.ad..d.b..d.ad..d.b..cd.c..d.c..db..bda..abd.cad.cd..d..d.cd.b..d.b..ad.bc..c..d.bcd
      ..d.a..c.d.a..d.cad.bc...d.bc..c..ad.bc...d.bc..c..bda..acd.cd.ba..a..d.ba..a..d.bd.ca..a.d.a..d.ca..a.d..cd.bd.
      ca.d.b..ad.b..d.b.a..d.ac.d..cd.a..d.ba...d.bd.cad.b..d.ba..a..ad.a.d.b..d.ad.b..d.bc..c..d.acd.b..d.b..cd.ba..a
      ..d.ba.d.c..a..dc..cad.bd.ca..a..c..d.bd.ac..cd.b..d.b..d.ca..a..ad.bd.ca..a..c..d.bd.ac.d..cd.b..d.b..d.ca..a..
      da..abd.cad.b..d.b..ad.b..d.b..cd.a.d..d.a..bdc..cad.bc...d.bc..c..ad.bc...d.bc...d.cad.b..d.b..ad..d.b..bad.dc.
      .cba.d..a..ba.d..a..d.da..abcd.a..d..c..bcd.a..d.a..cd...ad.bcd.a..d.a..cd..d..d.bad.c..d.c..ad.c..d.c..bbad.cbd
      ..d..bd..d..d.bad..d..ad..d..adb..cbd..a..bd..a..db..bac..d.c..ac..c..abbcd.a..d.ad..d..cd.ad..d..d.ad.c..d.c..b
      cda..ab.c..bd..d..da..abd..c..bd.c..d.c..cbd.ac..c..da..acd..d..cd..d..bdc..ac.d..cd..d..dc..acd..d.b..cd.b..d.b
      ..bbdc..ca.d..ad..d..dc..cad.b..d.b..ad.b..d.b..bcda..abd..d.c..bd..d.c..da..abd.c..d.c..bd.c..d.c..cadb..bd.c..
      cd.a..d.b..db..bd.c..d.ac..c..bda..ad.c.a..d.ca..a..da..acd.b..d.b..dc..cb.a..ba..a.."

end XAS
end Ripple
