/-
  Numerical bounds for the sign of the PhenomD amplitude: the fits written as polynomials in `e` (symmetric mass ratio),
  `d` (mass difference over total mass), `x`, `y` (spins), `X` (the spin parameter of the fits), `u` (cube root of frequency)
  and `p` (cube root of π), and branch-and-bound proofs of the inequalities between them up to mass ratio 50.
-/
import Verif.Proofs.RemnantCompare

namespace Ripple
namespace PhenomD
open XAS
/-! ### the fits -/

noncomputable def cA7 (e X : ℝ) : ℝ :=
  (3931.8979897196696 + e * (-17395.758706812805)) + X * ((3132.375545898835 + e * (343965.86092361377 + e * (-1.2162565819981997e6))) + X *
    (((-70698.00600428853) + e * (1.383907177859705e6 + e * (-3.9662761890979446e6))) + X * ((-60017.52423652596) + e * (803515.1181825735 + e * (-2.091710365941658e6)))))

noncomputable def cA8 (e X : ℝ) : ℝ :=
  ((-40105.47653771657) + e * (112253.0169706701)) + X * ((23561.696065836168 + e * ((-3.476180699403351e6) + e * (1.137593670849482e7))) + X *
    ((754313.1127166454 + e * ((-1.308476044625268e7) + e * (3.6444584853928134e7))) + X * (596226.612472288 + e * ((-7.4277901143564405e6) + e * (1.8928977514040343e7)))))

noncomputable def cA9 (e X : ℝ) : ℝ :=
  (83208.35471266537 + e * (-191237.7264145924)) + X * (((-210916.2454782992) + e * (8.71797508352568e6 + e * (-2.6914942420669552e7))) + X *
    (((-1.9889806527362722e6) + e * (3.0888029960154563e7 + e * (-8.390870279256162e7))) + X * ((-1.4535031953446497e6) + e * (1.7063528990822166e7 + e * (-4.2748659731120914e7)))))

noncomputable def cMid (e X : ℝ) : ℝ :=
  (0.8149838730507785 + e * (2.5747553517454658)) + X * ((1.1610198035496786 + e * ((-2.3627771785551537) + e * (6.771038707057573))) + X *
    ((0.7570782938606834 + e * ((-2.7256896890432474) + e * (7.1140380397149965))) + X * (0.1766934149293479 + e * ((-0.7978690983168183) + e * (2.1162391502005153)))))

noncomputable def cG1 (e X : ℝ) : ℝ :=
  (0.006927402739328343 + e * (0.03020474290328911)) + X * ((0.006308024337706171 + e * ((-0.12074130661131138) + e * (0.26271598905781324))) + X *
    ((0.0034151773647198794 + e * ((-0.10779338611188374) + e * (0.27098966966891747))) + X * (0.0007374185938559283 + e * ((-0.02749621038376281) + e * (0.0733150789135702)))))

noncomputable def cG2 (e X : ℝ) : ℝ :=
  (1.010344404799477 + e * (0.0008993122007234548)) + X * ((0.283949116804459 + e * ((-4.049752962958005) + e * (13.207828172665366))) + X *
    ((0.10396278486805426 + e * ((-7.025059158961947) + e * (24.784892370130475))) + X * (0.03093202475605892 + e * ((-2.6924023896851663) + e * (9.609374464684983)))))

noncomputable def cG3 (e X : ℝ) : ℝ :=
  (1.3081615607036106 + e * (-0.005537729694807678)) + X * (((-0.06782917938621007) + e * ((-0.6689834970767117) + e * (3.403147966134083))) + X *
    (((-0.05296577374411866) + e * ((-0.9923793203111362) + e * (4.820681208409587))) + X * ((-0.006134139870393713) + e * ((-0.38429253308696365) + e * (1.7561754421985984)))))

/-- `cA7 + u cA8 + u² cA9`, sorted by powers of `X` and `e` -/
noncomputable def cV (e X u : ℝ) : ℝ :=
  ((3931.8979897196696 + u * ((-40105.47653771657) + u * (83208.35471266537))) + e * (((-17395.758706812805) + u * (112253.0169706701 + u * (-191237.7264145924))))) + X *
    (((3132.375545898835 + u * (23561.696065836168 + u * (-210916.2454782992))) + e * ((343965.86092361377 + u * ((-3.476180699403351e6) + u * (8.71797508352568e6))) + e * (((-1.2162565819981997e6) + u * (1.137593670849482e7 + u * (-2.6914942420669552e7)))))) + X *
    ((((-70698.00600428853) + u * (754313.1127166454 + u * (-1.9889806527362722e6))) + e * ((1.383907177859705e6 + u * ((-1.308476044625268e7) + u * (3.0888029960154563e7))) + e * (((-3.9662761890979446e6) + u * (3.6444584853928134e7 + u * (-8.390870279256162e7)))))) + X *
    (((-60017.52423652596) + u * (596226.612472288 + u * (-1.4535031953446497e6))) + e * ((803515.1181825735 + u * ((-7.4277901143564405e6) + u * (1.7063528990822166e7))) + e * (((-2.091710365941658e6) + u * (1.8928977514040343e7 + u * (-4.2748659731120914e7))))))))

/-- `7 cA7 + 8 u cA8 + 9 u² cA9` -/
noncomputable def cQ (e X u : ℝ) : ℝ :=
  ((7 * 3931.8979897196696 + u * (8 * (-40105.47653771657) + u * (9 * 83208.35471266537))) + e * ((7 * (-17395.758706812805) + u * (8 * 112253.0169706701 + u * (9 * (-191237.7264145924)))))) + X *
    (((7 * 3132.375545898835 + u * (8 * 23561.696065836168 + u * (9 * (-210916.2454782992)))) + e * ((7 * 343965.86092361377 + u * (8 * (-3.476180699403351e6) + u * (9 * 8.71797508352568e6))) + e * ((7 * (-1.2162565819981997e6) + u * (8 * 1.137593670849482e7 + u * (9 * (-2.6914942420669552e7))))))) + X *
    (((7 * (-70698.00600428853) + u * (8 * 754313.1127166454 + u * (9 * (-1.9889806527362722e6)))) + e * ((7 * 1.383907177859705e6 + u * (8 * (-1.308476044625268e7) + u * (9 * 3.0888029960154563e7))) + e * ((7 * (-3.9662761890979446e6) + u * (8 * 3.6444584853928134e7 + u * (9 * (-8.390870279256162e7))))))) + X *
    ((7 * (-60017.52423652596) + u * (8 * 596226.612472288 + u * (9 * (-1.4535031953446497e6)))) + e * ((7 * 803515.1181825735 + u * (8 * (-7.4277901143564405e6) + u * (9 * 1.7063528990822166e7))) + e * ((7 * (-2.091710365941658e6) + u * (8 * 1.8928977514040343e7 + u * (9 * (-4.2748659731120914e7)))))))))


/-! coefficients of the inspiral amplitude -/

noncomputable def cA2 (e p : ℝ) : ℝ := (-969 + 1804 * e) * p ^ 2 / 672
noncomputable def cA3 (e d x y p : ℝ) : ℝ := (x * (81 * (1 + d) - 44 * e) + y * (81 - 81 * d - 44 * e)) * p ^ 3 / 48
noncomputable def cA4 (e d x y p : ℝ) : ℝ :=
  (-27.312085 - 10.287648 * (y ^ 2 * (1 - d) + x ^ 2 * (1 + d)) + e * (24 *
    (-1.975055 + 0.857304 * (x ^ 2 + y ^ 2) - 0.994896 * (x * y)) + 35.371056 * e)) * p ^ 4 / 8.128512
noncomputable def cA5 (e d x y p : ℝ) : ℝ :=
  p ^ 5 * (y * (28.5197 * (1 - d) + e * (4 * (-9.1902 + 0.1579 * d) - 3.5632 * e)) + x * (28.5197 * (1 + d) - e * (4 * (9.1902 + 0.1579 * d) + 3.5632 * e))
    - 4.2840 * (1 - 4 * e) * p ^ 3) / 3.2256
noncomputable def cA6 (e d x y p : ℝ) : ℝ :=
  -(p ^ 6 * (e ^ 2 * ((-336) * (-0.3248849057 + 0.2943675504 * (x ^ 2 + y ^ 2) - 0.3339284256 * (x * y)) - 32.4322727232 * e)
    - 7 * (-17.7520268561 + 10.7414046432 * (y ^ 2 * (1 - d) + x ^ 2 * (1 + d)) + 1.1087290368 * (x * (1 + d) + y * (1 - d)) * p ^ 3) + 12 * e *
    (-54.5384828789 - 17.6491177632 * (x * y) + 20.2603761360 * y ^ 2 + 7.7616 * x ^ 2 * (2.610335 + 0.995766 * d) -
    7.7287373856 * y ^ 2 * d + 0.5841690624 * (x + y) * p ^ 3 + 2.1384760320 * p ^ 6))) / 6.0085960704

/-! ### the inequalities -/

lemma dp_spin (d x y e S a : ℝ) (hd : 0 ≤ d ∧ d ≤ 0.961) (hx : -1 ≤ x ∧ x ≤ 1) (hy : -1 ≤ y ∧ y ≤ 1) 
    (he : e = (1 - d ^ 2) / 4) (hS : S = ((1 + d) ^ 2 * x + (1 - d) ^ 2 * y) / 4) (ha : a = S + e * spinR e S) : 0 < 0.99 - a := by
  rw [spinR_horner] at ha
  affine_bnb [hd, hx, hy] [he, hS, ha]

lemma dp_g2 (e X : ℝ) (he : 0 ≤ e ∧ e ≤ 0.25) (hX : -2 ≤ X ∧ X ≤ 0) : 0 < 1.02 - cG2 e X := by
  unfold cG2
  affine_bnb [he, hX] []

lemma dp_R (t R : ℝ) (ht : 0.01 ≤ t ∧ t ≤ 2) (hR : R = 0.0272 + 0.0512 / (t + 0.7) + 0.00236 / (t + 0.05)) :
    0 < R * (1000 * rD t) - 1000 * rN t := by
  unfold rN rD
  affine_bnb [ht] [hR]

lemma dp_D (t R : ℝ) (ht : 0.01 ≤ t ∧ t ≤ 2) (hR : R = 0.01474 - 0.000447 * t - 0.000706 / (t + 0.06)) :
    0 < 1000 * dN t - R * (1000 * dD t) := by
  unfold dN dD
  affine_bnb [ht] [hR]

/-- the inspiral amplitude is positive -/
lemma dp_ins (d x y u p e X A2 A3 A4 A5 A6 V : ℝ) (hd : 0 ≤ d ∧ d ≤ 0.961) (hx : -1 ≤ x ∧ x ≤ 1) (hy : -1 ≤ y ∧ y ≤ 1) (hu : 0 ≤ u ∧ u ≤ 0.241015)
    (hp : 1.46459 ≤ p ∧ p ≤ 1.4646) (he : e = (1 - d ^ 2) / 4)
    (hX : X = (x + y) / 2 * (1 - 76 * e / 113) + d * ((x - y) / 2) - 1) 
    (h2 : A2 = cA2 e p) (h3 : A3 = cA3 e d x y p) (h4 : A4 = cA4 e d x y p) (h5 : A5 = cA5 e d x y p) (h6 : A6 = cA6 e d x y p)
    (hV : V = 1 + u ^ 2 * (A2 + u * (A3 + u * (A4 + u * (A5 + u * (A6 + u * cV e X u)))))) : 0 < V := by
  unfold cA2 at h2
  unfold cA3 at h3
  unfold cA4 at h4
  unfold cA5 at h5
  unfold cA6 at h6
  unfold cV at hV
  affine_bnb [hd, hx, hy, hu, hp] [he, hX, h2, h3, h4, h5, h6, hV]

lemma dp_c1 (d x y u p e X A2 A3 A4 A5 A6 V : ℝ) (hd : 0 ≤ d ∧ d ≤ 0.961) (hx : -1 ≤ x ∧ x ≤ 1) (hy : -1 ≤ y ∧ y ≤ 1) (hu : 0.241014 ≤ u ∧ u ≤ 0.241015)
    (hp : 1.46459 ≤ p ∧ p ≤ 1.4646) (he : e = (1 - d ^ 2) / 4)
    (hX : X = (x + y) / 2 * (1 - 76 * e / 113) + d * ((x - y) / 2) - 1) 
    (h2 : A2 = cA2 e p) (h3 : A3 = cA3 e d x y p) (h4 : A4 = cA4 e d x y p) (h5 : A5 = cA5 e d x y p) (h6 : A6 = cA6 e d x y p)
    (hV : V = 1 + u ^ 2 * (A2 + u * (A3 + u * (A4 + u * (A5 + u * (A6 + u * cV e X u))))))  :
    0 < 16 * cMid e X - 5 * V := by
  unfold cA2 at h2
  unfold cA3 at h3
  unfold cA4 at h4
  unfold cA5 at h5
  unfold cA6 at h6
  unfold cV at hV
  unfold cMid
  affine_bnb [hd, hx, hy, hu, hp] [he, hX, h2, h3, h4, h5, h6, hV]

lemma dp_c1' (d x y u p e X S St a t E R A2 A3 A4 A5 A6 V Q : ℝ) (hd : 0 ≤ d ∧ d ≤ 0.961) (hx : -1 ≤ x ∧ x ≤ 1) (hy : -1 ≤ y ∧ y ≤ 1) (hu : 0.241014 ≤ u ∧ u ≤ 0.241015)
    (hp : 1.46459 ≤ p ∧ p ≤ 1.4646) (he : e = (1 - d ^ 2) / 4)
    (hX : X = (x + y) / 2 * (1 - 76 * e / 113) + d * ((x - y) / 2) - 1) 
    (hS : S = ((1 + d) ^ 2 * x + (1 - d) ^ 2 * y) / 4) (hSt : St = ((1 + d) ^ 2 * x + (1 - d) ^ 2 * y) / (2 * (1 + d ^ 2)))
    (ha : a = S + e * spinR e S) (ht : t = 1 - a) (hE : E = e * eradD e St) 
    (h2 : A2 = cA2 e p) (h3 : A3 = cA3 e d x y p) (h4 : A4 = cA4 e d x y p) (h5 : A5 = cA5 e d x y p) (h6 : A6 = cA6 e d x y p)
    (hV : V = 1 + u ^ 2 * (A2 + u * (A3 + u * (A4 + u * (A5 + u * (A6 + u * cV e X u)))))) 
    (hQ : Q = u ^ 2 * (2 * A2 + u * (3 * A3 + u * (4 * A4 + u * (5 * A5 + u * (6 * A6 + u * cQ e X u)))))) 
    (hR : R = 0.0272 + 0.0512 / (t + 0.7) + 0.00236 / (t + 0.05)) :
    0 < 16 * cMid e X - 5 * V - Q * (((R + 0.0001) / (1 - E) - 0.014) / 0.042) := by
  rw [spinR_horner] at ha
  unfold cA2 at h2
  unfold cA3 at h3
  unfold cA4 at h4
  unfold cA5 at h5
  unfold cA6 at h6
  unfold cV at hV
  unfold cQ at hQ
  unfold eradD at hE
  unfold cMid
  affine_bnb [hd, hx, hy, hu, hp] [he, hX, hS, hSt, ha, ht, hE, h2, h3, h4, h5, h6, hV, hQ, hR]

lemma dp_c2 (d x y u p e X S St a t E R A2 A3 A4 A5 A6 V Q : ℝ) (hd : 0 ≤ d ∧ d ≤ 0.961) (hx : -1 ≤ x ∧ x ≤ 1) (hy : -1 ≤ y ∧ y ≤ 1) (hu : 0.241014 ≤ u ∧ u ≤ 0.241015)
    (hp : 1.46459 ≤ p ∧ p ≤ 1.4646) (he : e = (1 - d ^ 2) / 4)
    (hX : X = (x + y) / 2 * (1 - 76 * e / 113) + d * ((x - y) / 2) - 1) 
    (hS : S = ((1 + d) ^ 2 * x + (1 - d) ^ 2 * y) / 4) (hSt : St = ((1 + d) ^ 2 * x + (1 - d) ^ 2 * y) / (2 * (1 + d ^ 2)))
    (ha : a = S + e * spinR e S) (ht : t = 1 - a) (hE : E = e * eradD e St) 
    (h2 : A2 = cA2 e p) (h3 : A3 = cA3 e d x y p) (h4 : A4 = cA4 e d x y p) (h5 : A5 = cA5 e d x y p) (h6 : A6 = cA6 e d x y p)
    (hV : V = 1 + u ^ 2 * (A2 + u * (A3 + u * (A4 + u * (A5 + u * (A6 + u * cV e X u)))))) 
    (hQ : Q = u ^ 2 * (2 * A2 + u * (3 * A3 + u * (4 * A4 + u * (5 * A5 + u * (6 * A6 + u * cQ e X u)))))) 
    (hR : R = 0.0272 + 0.0512 / (t + 0.7) + 0.00236 / (t + 0.05)) :
    0 < 6 * V + Q * (((R + 0.0001) / (1 - E) - 0.014) / 0.042) := by
  rw [spinR_horner] at ha
  unfold cA2 at h2
  unfold cA3 at h3
  unfold cA4 at h4
  unfold cA5 at h5
  unfold cA6 at h6
  unfold cV at hV
  unfold cQ at hQ
  unfold eradD at hE
  affine_bnb [hd, hx, hy, hu, hp] [he, hX, hS, hSt, ha, ht, hE, h2, h3, h4, h5, h6, hV, hQ, hR]

lemma dp_c3 (d x y e X S St a t E R : ℝ) (hd : 0 ≤ d ∧ d ≤ 0.961) (hx : -1 ≤ x ∧ x ≤ 1) (hy : -1 ≤ y ∧ y ≤ 1) (he : e = (1 - d ^ 2) / 4)
    (hX : X = (x + y) / 2 * (1 - 76 * e / 113) + d * ((x - y) / 2) - 1) 
    (hS : S = ((1 + d) ^ 2 * x + (1 - d) ^ 2 * y) / 4) (hSt : St = ((1 + d) ^ 2 * x + (1 - d) ^ 2 * y) / (2 * (1 + d ^ 2)))
    (ha : a = S + e * spinR e S) (ht : t = 1 - a) (hE : E = e * eradD e St) (hR : R = 0.01474 - 0.000447 * t - 0.000706 / (t + 0.06)) :
    0 < 16 * cMid e X * cG3 e X * (R - 0.000061) - 8.2 * cG1 e X * (1 - E) := by
  rw [spinR_horner] at ha
  unfold eradD at hE
  unfold cMid cG3 cG1
  affine_bnb [hd, hx, hy] [he, hX, hS, hSt, ha, ht, hE, hR]

end PhenomD
end Ripple
