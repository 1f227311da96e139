/-
  Numerical bounds for spinning binaries: slope of the ringdown amplitude.
  The bisection trees were found by tools/affine.cpp; they are checked by the kernel.
-/
import Verif.Proofs.XASSpinDefs

namespace Ripple
namespace XAS
open Real

lemma sp_steep (d x y e St k z a t g h q : ℝ) (hd : 0 ≤ d ∧ d ≤ 0.905) (hx : -1 ≤ x ∧ x ≤ 1) (hy : -1 ≤ y ∧ y ≤ 1)
    (he : e = (1 - d ^ 2) / 4)
    (hSt : St = ((1 + d) ^ 2 * x + (1 - d) ^ 2 * y) / (2 * (1 + d ^ 2)))
    (hk : k = (x - y) * d) (hz : z = (x - y) ^ 2) (ha : a = St + e * spinG e St k z) (ht : t = 1 - a) (hg : g = spG2 e St k) (hh : h = spG3 e St)
    (hq : q = (70.5 + t * (1910 + 1610 * t)) / (1 + t * (187.6 + 658.7 * t))) :
    0 < 1 - g ∨ 0 < 29 / 6 - (q * g / h - 1) * (g ^ 2 - 1) / (g ^ 2 + 1) := by
  unfold spinG sK sn1 sn2 sn3 skk sD at ha
  unfold spG2 at hg
  unfold spG3 at hh
  affine_bnb [hd, hx, hy] [he, hSt, hk, hz, ha, ht, hg, hh, hq]
    "bcbcaba..a..ba..a..aba.a..a.a..ba..a..caba..a.a..ba..aa...aba.a..a.a..ba..aa...bcabca..a.a..ca..a.a..ba..aa...ab
      caa..a..aa..a..caa..a..aa..a..baa...aa...cabca..a.a..ca..a.a..baa...ca..aa...abcaa..a..aa..a..caa..a..aa..a..baa
      ...caa..a..aa..a..cbcabca..a..ca.a..a.a..bcaa..a..aa..a..caa..a..aa..a..aba.a..ca.a..a.a..bcaa..a..aa..a..caa..a
      ..aa..a..cabcaa..a..aa..a..caa..ba..a.a..aa..ba..a.a..bcaa.b..ba..a..aa.b..ba..a..caba.a..caa..a.b..aa..a.b..bca
      a..a..aa..a..caba..aa..a..ba..caab..b..ba..ab..b.b.a..aab..b..ba..ab..b.b.a..aba..aa..a..ba..caab..b..ba..ab.a..
      b.b.a..aab..b..ba..ab.a..b.b.a..aba.a..caa..a.b..aa..a.b..bcaa..a..aa..a..caba..aa..a..ba..caab..b..ba..ab.a..b.
      b.a..aab..b..ba..ab.a..b.b.a..aba..aa..a..ba..caab..b..ba..ab.a..b.b.a..aab..b..ba..ab.a..b.b.a.b..abcaa..a..aa.
      .a..caa.a..ba..ca.a..a.a..aa.a..ba..ca.a..a.a..bcaba..a..ba..a..aba..a..ba..a..caba.a..caa..a.b..aa..a.b..bcaa..
      a..aa..a..caba..aa..a..ba..caab..b..ba..ab.a..b.b.a.b..aab..b..ba..ab.a..b.b.a.b..aba..aa..a..ba..caab..b..ba..a
      b.a..b.b.a.b..aab..b..ba..ab.a..b.b.a.b..aba.a..caa..a.b..aa..ba..a..bcaa..a..aa..a..caba..aa..a..ba..caab..b..b
      a..ab.a..b.b.a.b..aab..b..ba..ab.a..b.b.a.b..aba..aa..a..ba..caab..b..ba..ab.a..b.b.a.b..aab..b..ba..ab.a..b.b.a
      .b..bcabca.a..aa..a..ca.a..aa..a..bcaa..a..aa..a..caa..a..aa..a..abcaa..a..aa..a..caa..a..aa..a..bcaa..a..aa..a.
      .caa..a..aa..a..cabcaa..a..aa..a.a..caa.a..ba..ca.a..a.a..aba..a.a..ba..caa..a..aa..a..bcaba..a..ba..a..aba..a..
      ba..a..caba.a..caa..ba..a..aa..ba..a..bcaa..a..aa..a..caba..aa..a..ba..caab..b..ba..ab.a..b.b.a.b..aab..b..ba..a
      b.a..b.b.a.b.a..aba..aa..a..ba..caab..b..ba..ab.a..b.b.a.b.a..aab..b.b..ba..ab.a..b.b.a.b.a..abca.a..a.a..caa..b
      a..a..aa..ba..a..bcaa..a..aa..a..caba..aa..a..ba..caab..b.b..ba..ab.a..b.b.a.b.a..aab..b.b..ba..ab.a..b.b.a.b.a.
      .aba..caa..a..aa..a..ba..caab..b.b..ba..ab.a..b.b.a.b.a..aab..b.b..ba..ab.a..b.b.a.b.a..abcaa..ba..a..aba..a..ba
      ..a..caba..aa..a..ba.a..caa..a..aa..a..abaa..a..ca.a..a.a..bca..a.a..caa..a..aa..a..bcaba..a..ba..a..aba..a..ba.
      .a.a..cabca.a..aa..a..caa..ba..a..aa..ba..a.a..bcaa..a..aa..a..caba..caa..a..aa..a..ba..caab..b.b..ba..ab.a..b.b
      .a.b.a..aab..b.b..ba..ab.a..b.b.a.b.a..aba..caa..a..aa..a..ba..caab..b.b..ba..ab.a..b.b.a.b.a..aab..b.b..ba..ab.
      a..b.b.a.b.a..abcaa..a..aa..a..cab.a..ba..a.a..aa.b..ba..a.a..bcaa..a..aa..a..caba..caa..a..aa..b.a..ba..caab..b
      .b..ba..ab.a..b.b.a.b.a..aab..b.b..ba..ab.a..b.b.a.b.a..aba..caa..b.a..aa..b.a..ba..caab..b.b..ba..ab.a..b.b.a.b
      .a..aab..b.b..ba..ab.a..b.b.a.b.a.b.."

end XAS
end Ripple
