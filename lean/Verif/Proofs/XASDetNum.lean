/-
  Helper lemmas: the collocation determinant of the ringdown phase fit has one sign (numerical part).
-/
import Verif.Prelude.AffineTac

namespace Ripple
namespace XAS

lemma dt_num
    (d v e0 e1 e2 e3 c1 t s0 x1 s1 x2 s2 x3 s3 h34_1 h34_2 h34_3 h34_4 h234_1 h234_2 h234_3 h234_4 h34_5 h34_6 h34_7 h34_8
    h34_9 h234_5 h234_6 h234_7 h234_8 h234_9 h1234_1 h1234_2 h1234_3 h1234_4 h1234_5 h1234_6 h1234_7 h1234_8 h1234_9 h34_10
    h234_10 S0 h0234_1 h0234_2 h0234_3 h0234_4 h0234_5 h0234_6 h0234_7 h0234_8 h0234_9 S1 h134_1 h134_2 h134_3 h134_4 h134_5
    h134_6 h134_7 h134_8 h134_9 h0134_1 h0134_2 h0134_3 h0134_4 h0134_5 h0134_6 h0134_7 h0134_8 h0134_9 h134_10 S2 h24_1
    h24_2 h24_3 h24_4 h124_1 h124_2 h124_3 h124_4 h24_5 h24_6 h24_7 h24_8 h24_9 h124_5 h124_6 h124_7 h124_8 h124_9 h0124_1
    h0124_2 h0124_3 h0124_4 h0124_5 h0124_6 h0124_7 h0124_8 h0124_9 h24_10 h124_10 S3 h3_1 h3_2 h3_3 h3_4 h23_1 h23_2 h23_3
    h23_4 h123_1 h123_2 h123_3 h123_4 h3_5 h3_6 h3_7 h3_8 h3_9 h23_5 h23_6 h23_7 h23_8 h23_9 h123_5 h123_6 h123_7 h123_8
    h123_9 h0123_1 h0123_2 h0123_3 h0123_4 h0123_5 h0123_6 h0123_7 h0123_8 h0123_9 h3_10 h23_10 h123_10 S4 q01 q02 q12 q03
    q13 q23 q04 q14 q24 q34 b l0 l1 l2 W0 T0 W1 T1 W2 T2 W3 T3 W4 T4 : ℝ)
    (hd : 0 ≤ d ∧ d ≤ 0.7)
    (hv : 0 ≤ v ∧ v ≤ 1)
    (he0 : -0.0001 ≤ e0 ∧ e0 ≤ 0.0001)
    (he1 : -0.0001 ≤ e1 ∧ e1 ≤ 0.0001)
    (he2 : -0.0001 ≤ e2 ∧ e2 ≤ 0.0001)
    (he3 : -0.0001 ≤ e3 ∧ e3 ≤ 0.0001)
    (hc1 : 0.8535533 ≤ c1 ∧ c1 ≤ 0.8535534)
    (k_t : t = v * (0.21 + (0.31 * d)))
    (k_s0 : s0 = ((1.00004 + (d * ((0.20918 * d) - 1.09409))) / (1 + (d * ((0.45666 * d) - 1.42625)))) + e0)
    (k_x1 : x1 = d * c1)
    (k_s1 : s1 = ((1.00004 + (x1 * ((0.20918 * x1) - 1.09409))) / (1 + (x1 * ((0.45666 * x1) - 1.42625)))) + e1)
    (k_x2 : x2 = d * 0.5)
    (k_s2 : s2 = ((1.00004 + (x2 * ((0.20918 * x2) - 1.09409))) / (1 + (x2 * ((0.45666 * x2) - 1.42625)))) + e2)
    (k_x3 : x3 = d * t)
    (k_s3 : s3 = ((1.00004 + (x3 * ((0.20918 * x3) - 1.09409))) / (1 + (x3 * ((0.45666 * x3) - 1.42625)))) + e3)
    (k_h34_1 : h34_1 = 1 + (s3 * 1))
    (k_h34_2 : h34_2 = 1 + (s3 * h34_1))
    (k_h34_3 : h34_3 = 1 + (s3 * h34_2))
    (k_h34_4 : h34_4 = 1 + (s3 * h34_3))
    (k_h234_1 : h234_1 = h34_1 + (s2 * 1))
    (k_h234_2 : h234_2 = h34_2 + (s2 * h234_1))
    (k_h234_3 : h234_3 = h34_3 + (s2 * h234_2))
    (k_h234_4 : h234_4 = h34_4 + (s2 * h234_3))
    (k_h34_5 : h34_5 = 1 + (s3 * h34_4))
    (k_h34_6 : h34_6 = 1 + (s3 * h34_5))
    (k_h34_7 : h34_7 = 1 + (s3 * h34_6))
    (k_h34_8 : h34_8 = 1 + (s3 * h34_7))
    (k_h34_9 : h34_9 = 1 + (s3 * h34_8))
    (k_h234_5 : h234_5 = h34_5 + (s2 * h234_4))
    (k_h234_6 : h234_6 = h34_6 + (s2 * h234_5))
    (k_h234_7 : h234_7 = h34_7 + (s2 * h234_6))
    (k_h234_8 : h234_8 = h34_8 + (s2 * h234_7))
    (k_h234_9 : h234_9 = h34_9 + (s2 * h234_8))
    (k_h1234_1 : h1234_1 = h234_1 + (s1 * 1))
    (k_h1234_2 : h1234_2 = h234_2 + (s1 * h1234_1))
    (k_h1234_3 : h1234_3 = h234_3 + (s1 * h1234_2))
    (k_h1234_4 : h1234_4 = h234_4 + (s1 * h1234_3))
    (k_h1234_5 : h1234_5 = h234_5 + (s1 * h1234_4))
    (k_h1234_6 : h1234_6 = h234_6 + (s1 * h1234_5))
    (k_h1234_7 : h1234_7 = h234_7 + (s1 * h1234_6))
    (k_h1234_8 : h1234_8 = h234_8 + (s1 * h1234_7))
    (k_h1234_9 : h1234_9 = h234_9 + (s1 * h1234_8))
    (k_h34_10 : h34_10 = 1 + (s3 * h34_9))
    (k_h234_10 : h234_10 = h34_10 + (s2 * h234_9))
    (k_S0 : S0 = ((h234_4 * h1234_9) - (h1234_3 * h234_10)) / 1000)
    (k_h0234_1 : h0234_1 = h234_1 + (s0 * 1))
    (k_h0234_2 : h0234_2 = h234_2 + (s0 * h0234_1))
    (k_h0234_3 : h0234_3 = h234_3 + (s0 * h0234_2))
    (k_h0234_4 : h0234_4 = h234_4 + (s0 * h0234_3))
    (k_h0234_5 : h0234_5 = h234_5 + (s0 * h0234_4))
    (k_h0234_6 : h0234_6 = h234_6 + (s0 * h0234_5))
    (k_h0234_7 : h0234_7 = h234_7 + (s0 * h0234_6))
    (k_h0234_8 : h0234_8 = h234_8 + (s0 * h0234_7))
    (k_h0234_9 : h0234_9 = h234_9 + (s0 * h0234_8))
    (k_S1 : S1 = ((h234_4 * h0234_9) - (h0234_3 * h234_10)) / 1000)
    (k_h134_1 : h134_1 = h34_1 + (s1 * 1))
    (k_h134_2 : h134_2 = h34_2 + (s1 * h134_1))
    (k_h134_3 : h134_3 = h34_3 + (s1 * h134_2))
    (k_h134_4 : h134_4 = h34_4 + (s1 * h134_3))
    (k_h134_5 : h134_5 = h34_5 + (s1 * h134_4))
    (k_h134_6 : h134_6 = h34_6 + (s1 * h134_5))
    (k_h134_7 : h134_7 = h34_7 + (s1 * h134_6))
    (k_h134_8 : h134_8 = h34_8 + (s1 * h134_7))
    (k_h134_9 : h134_9 = h34_9 + (s1 * h134_8))
    (k_h0134_1 : h0134_1 = h134_1 + (s0 * 1))
    (k_h0134_2 : h0134_2 = h134_2 + (s0 * h0134_1))
    (k_h0134_3 : h0134_3 = h134_3 + (s0 * h0134_2))
    (k_h0134_4 : h0134_4 = h134_4 + (s0 * h0134_3))
    (k_h0134_5 : h0134_5 = h134_5 + (s0 * h0134_4))
    (k_h0134_6 : h0134_6 = h134_6 + (s0 * h0134_5))
    (k_h0134_7 : h0134_7 = h134_7 + (s0 * h0134_6))
    (k_h0134_8 : h0134_8 = h134_8 + (s0 * h0134_7))
    (k_h0134_9 : h0134_9 = h134_9 + (s0 * h0134_8))
    (k_h134_10 : h134_10 = h34_10 + (s1 * h134_9))
    (k_S2 : S2 = ((h134_4 * h0134_9) - (h0134_3 * h134_10)) / 1000)
    (k_h24_1 : h24_1 = 1 + (s2 * 1))
    (k_h24_2 : h24_2 = 1 + (s2 * h24_1))
    (k_h24_3 : h24_3 = 1 + (s2 * h24_2))
    (k_h24_4 : h24_4 = 1 + (s2 * h24_3))
    (k_h124_1 : h124_1 = h24_1 + (s1 * 1))
    (k_h124_2 : h124_2 = h24_2 + (s1 * h124_1))
    (k_h124_3 : h124_3 = h24_3 + (s1 * h124_2))
    (k_h124_4 : h124_4 = h24_4 + (s1 * h124_3))
    (k_h24_5 : h24_5 = 1 + (s2 * h24_4))
    (k_h24_6 : h24_6 = 1 + (s2 * h24_5))
    (k_h24_7 : h24_7 = 1 + (s2 * h24_6))
    (k_h24_8 : h24_8 = 1 + (s2 * h24_7))
    (k_h24_9 : h24_9 = 1 + (s2 * h24_8))
    (k_h124_5 : h124_5 = h24_5 + (s1 * h124_4))
    (k_h124_6 : h124_6 = h24_6 + (s1 * h124_5))
    (k_h124_7 : h124_7 = h24_7 + (s1 * h124_6))
    (k_h124_8 : h124_8 = h24_8 + (s1 * h124_7))
    (k_h124_9 : h124_9 = h24_9 + (s1 * h124_8))
    (k_h0124_1 : h0124_1 = h124_1 + (s0 * 1))
    (k_h0124_2 : h0124_2 = h124_2 + (s0 * h0124_1))
    (k_h0124_3 : h0124_3 = h124_3 + (s0 * h0124_2))
    (k_h0124_4 : h0124_4 = h124_4 + (s0 * h0124_3))
    (k_h0124_5 : h0124_5 = h124_5 + (s0 * h0124_4))
    (k_h0124_6 : h0124_6 = h124_6 + (s0 * h0124_5))
    (k_h0124_7 : h0124_7 = h124_7 + (s0 * h0124_6))
    (k_h0124_8 : h0124_8 = h124_8 + (s0 * h0124_7))
    (k_h0124_9 : h0124_9 = h124_9 + (s0 * h0124_8))
    (k_h24_10 : h24_10 = 1 + (s2 * h24_9))
    (k_h124_10 : h124_10 = h24_10 + (s1 * h124_9))
    (k_S3 : S3 = ((h124_4 * h0124_9) - (h0124_3 * h124_10)) / 1000)
    (k_h3_1 : h3_1 = s3)
    (k_h3_2 : h3_2 = h3_1 * s3)
    (k_h3_3 : h3_3 = h3_2 * s3)
    (k_h3_4 : h3_4 = h3_3 * s3)
    (k_h23_1 : h23_1 = h3_1 + (s2 * 1))
    (k_h23_2 : h23_2 = h3_2 + (s2 * h23_1))
    (k_h23_3 : h23_3 = h3_3 + (s2 * h23_2))
    (k_h23_4 : h23_4 = h3_4 + (s2 * h23_3))
    (k_h123_1 : h123_1 = h23_1 + (s1 * 1))
    (k_h123_2 : h123_2 = h23_2 + (s1 * h123_1))
    (k_h123_3 : h123_3 = h23_3 + (s1 * h123_2))
    (k_h123_4 : h123_4 = h23_4 + (s1 * h123_3))
    (k_h3_5 : h3_5 = h3_4 * s3)
    (k_h3_6 : h3_6 = h3_5 * s3)
    (k_h3_7 : h3_7 = h3_6 * s3)
    (k_h3_8 : h3_8 = h3_7 * s3)
    (k_h3_9 : h3_9 = h3_8 * s3)
    (k_h23_5 : h23_5 = h3_5 + (s2 * h23_4))
    (k_h23_6 : h23_6 = h3_6 + (s2 * h23_5))
    (k_h23_7 : h23_7 = h3_7 + (s2 * h23_6))
    (k_h23_8 : h23_8 = h3_8 + (s2 * h23_7))
    (k_h23_9 : h23_9 = h3_9 + (s2 * h23_8))
    (k_h123_5 : h123_5 = h23_5 + (s1 * h123_4))
    (k_h123_6 : h123_6 = h23_6 + (s1 * h123_5))
    (k_h123_7 : h123_7 = h23_7 + (s1 * h123_6))
    (k_h123_8 : h123_8 = h23_8 + (s1 * h123_7))
    (k_h123_9 : h123_9 = h23_9 + (s1 * h123_8))
    (k_h0123_1 : h0123_1 = h123_1 + (s0 * 1))
    (k_h0123_2 : h0123_2 = h123_2 + (s0 * h0123_1))
    (k_h0123_3 : h0123_3 = h123_3 + (s0 * h0123_2))
    (k_h0123_4 : h0123_4 = h123_4 + (s0 * h0123_3))
    (k_h0123_5 : h0123_5 = h123_5 + (s0 * h0123_4))
    (k_h0123_6 : h0123_6 = h123_6 + (s0 * h0123_5))
    (k_h0123_7 : h0123_7 = h123_7 + (s0 * h0123_6))
    (k_h0123_8 : h0123_8 = h123_8 + (s0 * h0123_7))
    (k_h0123_9 : h0123_9 = h123_9 + (s0 * h0123_8))
    (k_h3_10 : h3_10 = h3_9 * s3)
    (k_h23_10 : h23_10 = h3_10 + (s2 * h23_9))
    (k_h123_10 : h123_10 = h23_10 + (s1 * h123_9))
    (k_S4 : S4 = ((h123_4 * h0123_9) - (h0123_3 * h123_10)) / 1000)
    (k_q01 : q01 = (s1 ^ 2 + (s1 * s0)) + s0 ^ 2)
    (k_q02 : q02 = (s2 ^ 2 + (s2 * s0)) + s0 ^ 2)
    (k_q12 : q12 = (s2 ^ 2 + (s2 * s1)) + s1 ^ 2)
    (k_q03 : q03 = (s3 ^ 2 + (s3 * s0)) + s0 ^ 2)
    (k_q13 : q13 = (s3 ^ 2 + (s3 * s1)) + s1 ^ 2)
    (k_q23 : q23 = (s3 ^ 2 + (s3 * s2)) + s2 ^ 2)
    (k_q04 : q04 = (1 ^ 2 + (1 * s0)) + s0 ^ 2)
    (k_q14 : q14 = (1 ^ 2 + (1 * s1)) + s1 ^ 2)
    (k_q24 : q24 = (1 ^ 2 + (1 * s2)) + s2 ^ 2)
    (k_q34 : q34 = (1 ^ 2 + (1 * s3)) + s3 ^ 2)
    (k_b : b = 0.5 - t)
    (k_l0 : l0 = t ^ 2 / (t ^ 2 + (1.5625 * (t - 1) ^ 2)))
    (k_l1 : l1 = t ^ 2 / (t ^ 2 + (1.5625 * (t - c1) ^ 2)))
    (k_l2 : l2 = t ^ 2 / (t ^ 2 + (1.5625 * b ^ 2)))
    (k_W0 : W0 = (((1 / (((1 - c1) * 0.5) * (1 - t))) * (t * b)) * l0) * (((q01 * q02) * q03) * q04))
    (k_T0 : T0 = (W0 / s0 ^ 9) * S0)
    (k_W1 : W1 = (((-1 / ((((1 - c1) * (c1 - 0.5)) * c1) * (c1 - t))) * (t * b)) * l1) * (((q01 * q12) * q13) * q14))
    (k_T1 : T1 = (W1 / s1 ^ 9) * S1)
    (k_W2 : W2 = (((1 / ((0.5 * (c1 - 0.5)) * 0.5)) * t) * l2) * (((q02 * q12) * q23) * q24))
    (k_T2 : T2 = (W2 / s2 ^ 9) * S2)
    (k_W3 : W3 = (((-1 / ((1 - t) * (c1 - t))) * 1) * 1) * (((q03 * q13) * q23) * q34))
    (k_T3 : T3 = (W3 / s3 ^ 9) * S3)
    (k_W4 : W4 = (((1 / (c1 * 0.5)) * b) * (1 / 2.5625)) * (((q04 * q14) * q24) * q34))
    (k_T4 : T4 = W4 * S4)
    : 0 < -(T0 + T1 + T2 + T3 + T4) := by
  affine_bnb [hd, hv, he0, he1, he2, he3, hc1]
    [k_t, k_s0, k_x1, k_s1, k_x2, k_s2, k_x3, k_s3, k_h34_1, k_h34_2, k_h34_3, k_h34_4, k_h234_1, k_h234_2, k_h234_3,
     k_h234_4, k_h34_5, k_h34_6, k_h34_7, k_h34_8, k_h34_9, k_h234_5, k_h234_6, k_h234_7, k_h234_8, k_h234_9, k_h1234_1,
     k_h1234_2, k_h1234_3, k_h1234_4, k_h1234_5, k_h1234_6, k_h1234_7, k_h1234_8, k_h1234_9, k_h34_10, k_h234_10, k_S0,
     k_h0234_1, k_h0234_2, k_h0234_3, k_h0234_4, k_h0234_5, k_h0234_6, k_h0234_7, k_h0234_8, k_h0234_9, k_S1, k_h134_1,
     k_h134_2, k_h134_3, k_h134_4, k_h134_5, k_h134_6, k_h134_7, k_h134_8, k_h134_9, k_h0134_1, k_h0134_2, k_h0134_3,
     k_h0134_4, k_h0134_5, k_h0134_6, k_h0134_7, k_h0134_8, k_h0134_9, k_h134_10, k_S2, k_h24_1, k_h24_2, k_h24_3, k_h24_4,
     k_h124_1, k_h124_2, k_h124_3, k_h124_4, k_h24_5, k_h24_6, k_h24_7, k_h24_8, k_h24_9, k_h124_5, k_h124_6, k_h124_7,
     k_h124_8, k_h124_9, k_h0124_1, k_h0124_2, k_h0124_3, k_h0124_4, k_h0124_5, k_h0124_6, k_h0124_7, k_h0124_8, k_h0124_9,
     k_h24_10, k_h124_10, k_S3, k_h3_1, k_h3_2, k_h3_3, k_h3_4, k_h23_1, k_h23_2, k_h23_3, k_h23_4, k_h123_1, k_h123_2,
     k_h123_3, k_h123_4, k_h3_5, k_h3_6, k_h3_7, k_h3_8, k_h3_9, k_h23_5, k_h23_6, k_h23_7, k_h23_8, k_h23_9, k_h123_5,
     k_h123_6, k_h123_7, k_h123_8, k_h123_9, k_h0123_1, k_h0123_2, k_h0123_3, k_h0123_4, k_h0123_5, k_h0123_6, k_h0123_7,
     k_h0123_8, k_h0123_9, k_h3_10, k_h23_10, k_h123_10, k_S4, k_q01, k_q02, k_q12, k_q03, k_q13, k_q23, k_q04, k_q14,
     k_q24, k_q34, k_b, k_l0, k_l1, k_l2, k_W0, k_T0, k_W1, k_T1, k_W2, k_T2, k_W3, k_T3, k_W4, k_T4]
    "baaaa..a..aa..ab..b..baaa..a..aa.a..aa..a..aaa..a..aa.a..aa..a..aaaa.b..ab..b..aba..ab..b..ba..ab..b.a..baaa.b..ab..b..aab.a..b.a..aba..a..ba..a..aaab.a..ba..a..aba..ab..b..ba..ab..b..aaba..ab..b.a..bab..b..ab.a..b.a..abab..b..aba..a..ba..a..bab..b..aba..a.b..ba..ab..b.."

end XAS
end Ripple
