/-
  The splines of the quasi-normal-mode tables.
-/
import Verif.Proofs.Spline
import Verif.Proofs.QNMCert
import Verif.Model.QNMTable
import Verif.Spec.QnmTable
import Mathlib.Tactic.FinCases

namespace Ripple.QNMData
open Scipy

lemma a_length : a.length = 1003 := by decide +kernel
lemma fRD_length : fRD.length = 1003 := by decide +kernel
lemma fdamp_length : fdamp.length = 1003 := by decide +kernel
lemma mRD_length : QNMCert.mRD.length = 1003 := by decide +kernel
lemma mdamp_length : QNMCert.mdamp.length = 1003 := by decide +kernel

lemma a_eq : a = [-1000, -999] ++ ((List.range 999).map fun k : ℕ => 2 * (k : Int) - 998) ++ [999, 1000] := by decide +kernel

/-- spins of the knots in units of 1e-3 -/
def X (i : ℕ) : ℤ := if i = 0 then -1000 else if i = 1 then -999 else if i = 1001 then 999 else if i = 1002 then 1000
  else 2 * (i : ℤ) - 1002

lemma range_getD (n i : ℕ) (hi : i < n) : ((List.range n).map fun k : ℕ => 2 * (k : Int) - 998).getD i 0 = 2 * (i : ℤ) - 998 := by
  rw [List.getD_eq_getElem _ _ (by rw [List.length_map, List.length_range]; exact hi), List.getElem_map, List.getElem_range]

lemma a_getD (i : ℕ) (hi : i < 1003) : a.getD i 0 = X i := by
  rw [a_eq, List.append_assoc]
  rcases Nat.lt_or_ge i 2 with h | h
  · interval_cases i <;> rfl
  rw [List.getD_append_right _ _ _ _ (by simpa using h)]
  simp only [List.length_cons, List.length_nil]
  rcases Nat.lt_or_ge i 1001 with h' | h'
  · rw [List.getD_append _ _ _ _ (by rw [List.length_map, List.length_range]; omega), range_getD _ _ (by omega)]
    unfold X
    rw [if_neg (by omega), if_neg (by omega), if_neg (by omega), if_neg (by omega)]
    push_cast [Nat.cast_sub h]
    ring
  · rw [List.getD_append_right _ _ _ _ (by rw [List.length_map, List.length_range]; omega), List.length_map,
      List.length_range]
    have : i = 1001 ∨ i = 1002 := by omega
    rcases this with rfl | rfl <;> rfl

lemma map_getD (l : List ℤ) (c : ℝ) (i : ℕ) : (l.map fun k : Int => (k : ℝ) / c).getD i 0 = (l.getD i 0 : ℤ) / c := by
  have := List.getD_map (l := l) (d := 0) (n := i) (fun k : ℤ => (k : ℝ) / c)
  rw [← this, Int.cast_zero, zero_div]

lemma knots_length : knots.length = 1003 := by unfold knots; rw [List.length_map, a_length]

lemma knots_getD (i : ℕ) (hi : i < 1003) : knots.getD i 0 = (X i : ℝ) / 1000 := by
  unfold knots
  rw [map_getD, a_getD i hi]

lemma X_diff (i : ℕ) (hi : i < 1002) : (X (i + 1) : ℝ) - X i = H i := by
  unfold X H
  rcases eq_or_ne i 0 with rfl | h0
  · norm_num
  rcases eq_or_ne i 1 with rfl | h1
  · norm_num
  rcases eq_or_ne i 1000 with rfl | h2
  · norm_num
  rcases eq_or_ne i 1001 with rfl | h3
  · norm_num
  · rw [if_neg (by omega), if_neg (by omega), if_neg (by omega), if_neg (by omega), if_neg (by omega), if_neg (by omega),
      if_neg (by omega), if_neg (by omega), if_neg (by omega)]
    push_cast
    ring

lemma H_pos (i : ℕ) : 0 < H i := by unfold H; split_ifs <;> norm_num

lemma dx_knots (i : ℕ) (hi : i < 1002) : dx knots i = H i / 1000 := by
  unfold dx
  rw [knots_getD _ (by omega), knots_getD _ (by omega), ← X_diff i hi]
  ring

lemma gap0 : knots.getD 2 0 - knots.getD 0 0 = 2 / 1000 := by
  rw [knots_getD 2 (by norm_num), knots_getD 0 (by norm_num)]
  norm_num [X]

lemma gap1 : knots.getD 1002 0 - knots.getD 1000 0 = 2 / 1000 := by
  rw [knots_getD 1002 (by norm_num), knots_getD 1000 (by norm_num)]
  norm_num [X]

lemma dx0 : dx knots 0 = 1 / 1000 := by rw [dx_knots 0 (by norm_num)]; norm_num [H]
lemma dx1 : dx knots 1 = 1 / 1000 := by rw [dx_knots 1 (by norm_num)]; norm_num [H]
lemma dx1000 : dx knots 1000 = 1 / 1000 := by rw [dx_knots 1000 (by norm_num)]; norm_num [H]
lemma dx1001 : dx knots 1001 = 1 / 1000 := by rw [dx_knots 1001 (by norm_num)]; norm_num [H]

lemma idx_lt (i : Fin knots.length) : (i : ℕ) < 1003 := lt_of_lt_of_eq i.2 knots_length

lemma matrix_row (w : ℕ → ℝ) (i : Fin knots.length) : (matrix knots).mulVec (fun k => w k) i = row w i / 1000 := by
  have hi := idx_lt i
  rw [mulVec_row]
  generalize (i : ℕ) = k at *
  unfold diag upper lower row
  rw [knots_length, show 1003 - 1 = 1002 from rfl, show 1003 - 3 = 1000 from rfl]
  rcases eq_or_ne k 0 with rfl | h0
  · rw [if_pos rfl, if_pos rfl, if_pos rfl, if_pos (by norm_num), if_neg (by norm_num), gap0, dx1]
    ring
  rcases eq_or_ne k 1002 with rfl | h1
  · rw [if_neg h0, if_neg h0, if_neg h0, if_pos rfl, if_pos rfl, if_pos rfl, if_neg (by norm_num), if_pos (by norm_num), gap1,
      dx1000]
    norm_num
    ring
  · rw [if_neg h0, if_neg h0, if_neg h0, if_neg h1, if_neg h1, if_neg h1, if_pos (by omega), if_pos (by omega),
      dx_knots k (by omega), dx_knots (k - 1) (by omega)]
    ring

lemma matrix_det : (matrix knots).det ≠ 0 := by
  intro h
  obtain ⟨v, hv, h0⟩ := Matrix.exists_mulVec_eq_zero_iff.2 h
  apply hv
  obtain ⟨w, hw⟩ : ∃ w : ℕ → ℝ, v = fun k : Fin knots.length => w k :=
    ⟨fun k => if hk : k < knots.length then v ⟨k, hk⟩ else 0, by funext k; beta_reduce; rw [dif_pos k.2]⟩
  rw [hw] at h0
  have hs := row_stable w 0 (fun i hi => by
    have := congrFun h0 ⟨i, by rw [knots_length]; exact hi⟩
    rw [matrix_row] at this
    simp only [Pi.zero_apply] at this
    rw [show row w i = 0 by linarith, abs_zero])
  rw [hw]
  funext k
  have := hs k (idx_lt k)
  rw [mul_zero] at this
  exact abs_nonpos_iff.1 this

lemma slopes_row (y : List ℝ) (i : ℕ) (hi : i < 1003) : row (slopes knots y) i = 1000 * rhs knots y i := by
  have hdet : IsUnit (matrix knots).det := isUnit_iff_ne_zero.2 matrix_det
  have e : (matrix knots).mulVec (fun k => slopes knots y k) = fun k : Fin knots.length => rhs knots y k := by
    have : (fun k : Fin knots.length => slopes knots y k) = (matrix knots)⁻¹.mulVec fun k => rhs knots y k := by
      funext k
      unfold slopes
      rw [dif_pos k.2]
    rw [this, Matrix.mulVec_mulVec, Matrix.mul_nonsing_inv _ hdet, Matrix.one_mulVec]
  have := congrFun e ⟨i, by rw [knots_length]; exact hi⟩
  rw [matrix_row] at this
  simp only [] at this
  linarith

/-! ### checking a certificate -/

/-- a condition on all triples of neighbouring entries of three lists -/
def triples (p : Int → Int → Int → Int → Int → Int → Int → Int → Int → Bool) : List Int → List Int → List Int → Bool
  | x0 :: x1 :: x2 :: xs, y0 :: y1 :: y2 :: ys, m0 :: m1 :: m2 :: ms =>
    p x0 x1 x2 y0 y1 y2 m0 m1 m2 && triples p (x1 :: x2 :: xs) (y1 :: y2 :: ys) (m1 :: m2 :: ms)
  | _, _, _ => true

lemma triples_sound (p : Int → Int → Int → Int → Int → Int → Int → Int → Int → Bool) (xs : List Int) :
    ∀ ys ms, triples p xs ys ms = true → ys.length = xs.length → ms.length = xs.length → ∀ i, i + 2 < xs.length →
      p (xs.getD i 0) (xs.getD (i + 1) 0) (xs.getD (i + 2) 0) (ys.getD i 0) (ys.getD (i + 1) 0) (ys.getD (i + 2) 0)
        (ms.getD i 0) (ms.getD (i + 1) 0) (ms.getD (i + 2) 0) = true := by
  induction xs with
  | nil => intro ys ms _ _ _ i hi; simp at hi
  | cons x0 xs ih =>
    intro ys ms h hy hm i hi
    match xs, ys, ms, h, hy, hm, ih with
    | [], _, _, _, _, _, _ => simp at hi
    | [x1], _, _, _, _, _, _ => simp at hi
    | x1 :: x2 :: xs, y0 :: y1 :: y2 :: ys, m0 :: m1 :: m2 :: ms, h, hy, hm, ih =>
      simp only [triples, Bool.and_eq_true] at h
      cases i with
      | zero => exact h.1
      | succ i =>
        have := ih (y1 :: y2 :: ys) (m1 :: m2 :: ms) h.2 (by simpa using hy) (by simpa using hm) i (by simp at hi ⊢; omega)
        simpa using this

/-- residual of the inner rows at most 5 -/
def resOK (x0 x1 x2 y0 y1 y2 m0 m1 m2 : Int) : Bool :=
  let h0 := x1 - x0
  let h1 := x2 - x1
  let d := h0 * h1 * (h1 * m0 + 2 * (h0 + h1) * m1 + h0 * m2) - 3 * (h1 * h1 * (y1 - y0) + h0 * h0 * (y2 - y1))
  decide (-(5 * (h0 * h1)) ≤ d) && decide (d ≤ 5 * (h0 * h1))

/-- residual of the two end rows at most 5 -/
def endOK (y m : List Int) : Bool :=
  let d0 := 2 * (m.getD 0 0 + 2 * m.getD 1 0) - (5 * (y.getD 1 0 - y.getD 0 0) + (y.getD 2 0 - y.getD 1 0))
  let d1 := 2 * (2 * m.getD 1001 0 + m.getD 1002 0) -
    ((y.getD 1001 0 - y.getD 1000 0) + 5 * (y.getD 1002 0 - y.getD 1001 0))
  decide (-10 ≤ d0) && decide (d0 ≤ 10) && decide (-10 ≤ d1) && decide (d1 ≤ 10)

lemma resRD : triples resOK a fRD QNMCert.mRD = true := by decide +kernel
lemma resdamp : triples resOK a fdamp QNMCert.mdamp = true := by decide +kernel
lemma endRD : endOK fRD QNMCert.mRD = true := by decide +kernel
lemma enddamp : endOK fdamp QNMCert.mdamp = true := by decide +kernel

lemma rhs0 (y : List ℝ) : rhs knots y 0 = 100000 * (5 * (y.getD 1 0 - y.getD 0 0) + (y.getD 2 0 - y.getD 1 0)) / 200000 := by
  unfold rhs
  rw [if_pos rfl]
  simp only [gap0, Scipy.slope, dx0, dx1]
  ring

lemma rhs1002 (y : List ℝ) : rhs knots y 1002 =
    100000 * ((y.getD 1001 0 - y.getD 1000 0) + 5 * (y.getD 1002 0 - y.getD 1001 0)) / 200000 := by
  unfold rhs
  rw [knots_length, if_neg (by norm_num), if_pos rfl, show 1003 - 1 = 1002 from rfl, show 1003 - 2 = 1001 from rfl,
    show 1003 - 3 = 1000 from rfl]
  simp only [gap1, Scipy.slope, dx1000, dx1001]
  ring

lemma rhs_mid (y : List ℝ) (k : ℕ) (h0 : k ≠ 0) (h1 : k ≠ 1002) (hk : k < 1003) : rhs knots y k =
    3 * (H k * ((y.getD k 0 - y.getD (k - 1) 0) / H (k - 1)) + H (k - 1) * ((y.getD (k + 1) 0 - y.getD k 0) / H k)) := by
  unfold rhs
  rw [knots_length, if_neg h0, if_neg (by omega), dx_knots (k - 1) (by omega), dx_knots k (by omega)]
  unfold Scipy.slope
  rw [dx_knots (k - 1) (by omega), dx_knots k (by omega), show k - 1 + 1 = k by omega]
  ring

/-- the slopes of the spline are within 20 units of a certificate that passes the check -/
lemma slopes_close {ys ms : List Int} (hy : ys.length = 1003) (hm : ms.length = 1003) (h : triples resOK a ys ms = true)
    (he : endOK ys ms = true) (i : ℕ) (hi : i < 1003) :
    |slopes knots (ys.map fun k : Int => (k : ℝ) / 100000000) i * 100000 - (ms.getD i 0 : ℤ)| ≤ 20 := by
  set y := ys.map fun k : ℤ => (k : ℝ) / 100000000 with hyd
  set s := slopes knots y with hs
  have hval : ∀ k, y.getD k 0 = ((ys.getD k 0 : ℤ) : ℝ) / 100000000 := fun k => map_getD ys _ k
  have key : ∀ k, k < 1003 → |row (fun k => s k * 100000 - ((ms.getD k 0 : ℤ) : ℝ)) k| ≤ 5 := by
    intro k hk
    have hrow := slopes_row y k hk
    unfold row at hrow ⊢
    simp only [endOK, Bool.and_eq_true, decide_eq_true_eq] at he
    rcases eq_or_ne k 0 with rfl | h0
    · obtain ⟨⟨⟨e1, e2⟩, -⟩, -⟩ := he
      have e1' := (Int.cast_le (R := ℝ)).2 e1
      have e2' := (Int.cast_le (R := ℝ)).2 e2
      push_cast at e1' e2'
      rw [rhs0, hval, hval, hval, if_pos rfl] at hrow
      rw [if_pos rfl, abs_le]
      constructor <;> linarith
    rcases eq_or_ne k 1002 with rfl | h1
    · obtain ⟨⟨-, e1⟩, e2⟩ := he
      have e1' := (Int.cast_le (R := ℝ)).2 e1
      have e2' := (Int.cast_le (R := ℝ)).2 e2
      push_cast at e1' e2'
      rw [rhs1002, hval, hval, hval, if_neg h0, if_pos rfl] at hrow
      rw [if_neg h0, if_pos rfl, abs_le]
      constructor <;> linarith
    · have e := triples_sound resOK a ys ms h (by rw [hy, a_length]) (by rw [hm, a_length]) (k - 1) (by rw [a_length]; omega)
      rw [show k - 1 + 1 = k by omega, show k - 1 + 2 = k + 1 by omega, a_getD _ (by omega), a_getD _ (by omega),
        a_getD _ (by omega)] at e
      simp only [resOK, Bool.and_eq_true, decide_eq_true_eq] at e
      obtain ⟨e1, e2⟩ := e
      have e1' := (Int.cast_le (R := ℝ)).2 e1
      have e2' := (Int.cast_le (R := ℝ)).2 e2
      push_cast at e1' e2'
      have x1 := X_diff (k - 1) (by omega)
      have x2 := X_diff k (by omega)
      rw [show k - 1 + 1 = k by omega] at x1
      rw [x1, x2] at e1' e2'
      rw [rhs_mid y k h0 h1 hk, hval, hval, hval, if_neg h0, if_neg h1] at hrow
      rw [if_neg h0, if_neg h1]
      have p1 := H_pos (k - 1)
      have p2 := H_pos k
      generalize H (k - 1) = a at *
      generalize H k = b at *
      have hab : 0 < a * b := mul_pos p1 p2
      have hmul : (b * s (k - 1) + 2 * (a + b) * s k + a * s (k + 1)) * 100000 * (a * b) =
          3 * (b * b * (((ys.getD k 0 : ℤ) : ℝ) - ((ys.getD (k - 1) 0 : ℤ) : ℝ)) +
            a * a * (((ys.getD (k + 1) 0 : ℤ) : ℝ) - ((ys.getD k 0 : ℤ) : ℝ))) := by
        rw [hrow]
        field_simp
        ring
      rw [abs_le]
      constructor
      · refine le_of_mul_le_mul_right ?_ hab
        linarith
      · refine le_of_mul_le_mul_right ?_ hab
        linarith
  have := row_stable _ 5 key i hi
  rw [show (4 : ℝ) * 5 = 20 by norm_num] at this
  exact this

/-! ### the pieces -/

/-- increasing cell with slopes at most 8.4 -/
def incOK (x0 x1 y0 y1 m0 m1 : Int) : Bool :=
  decide (20 < m0) && decide (20 < m1) && decide ((x1 - x0) * (m0 + m1 + 40) < 3 * (y1 - y0)) &&
    decide (m0 + 20 ≤ 840000) && decide (m1 + 20 ≤ 840000) &&
    decide (3 * (y1 - y0) ≤ (x1 - x0) * (840000 + m0 + m1 - 40))

/-- cell with values between 0.0002908 and 0.0143: decreasing, or with small slopes -/
def boxOK (x0 x1 y0 y1 m0 m1 : Int) : Bool :=
  decide (29080 ≤ y0) && decide (29080 ≤ y1) && decide (y0 ≤ 1419520) && decide (y1 ≤ 1419520) &&
    ((decide (m0 < -20) && decide (m1 < -20) && decide (3 * (y1 - y0) < (x1 - x0) * (m0 + m1 - 40))) ||
     (decide (1000000 ≤ y0) && decide (1000000 ≤ y1) && decide (-1000 ≤ m0) && decide (m0 ≤ 1000) && decide (-1000 ≤ m1) &&
       decide (m1 ≤ 1000)))

lemma incRD : triples (fun x0 x1 x2 y0 y1 y2 m0 m1 m2 => incOK x0 x1 y0 y1 m0 m1 && incOK x1 x2 y1 y2 m1 m2)
    a fRD QNMCert.mRD = true := by decide +kernel

lemma boxdamp : triples (fun x0 x1 x2 y0 y1 y2 m0 m1 m2 => boxOK x0 x1 y0 y1 m0 m1 && boxOK x1 x2 y1 y2 m1 m2)
    a fdamp QNMCert.mdamp = true := by decide +kernel

lemma pairs_sound (p : Int → Int → Int → Int → Int → Int → Bool) {ys ms : List Int} (hy : ys.length = 1003)
    (hm : ms.length = 1003)
    (h : triples (fun x0 x1 x2 y0 y1 y2 m0 m1 m2 => p x0 x1 y0 y1 m0 m1 && p x1 x2 y1 y2 m1 m2) a ys ms = true)
    (i : ℕ) (hi : i < 1002) :
    p (X i) (X (i + 1)) (ys.getD i 0) (ys.getD (i + 1) 0) (ms.getD i 0) (ms.getD (i + 1) 0) = true := by
  rcases Nat.lt_or_ge i 1001 with h1 | h1
  · have := triples_sound _ a ys ms h (by rw [hy, a_length]) (by rw [hm, a_length]) i (by rw [a_length]; omega)
    rw [a_getD _ (by omega), a_getD _ (by omega), a_getD _ (by omega), Bool.and_eq_true] at this
    exact this.1
  · obtain rfl : i = 1001 := by omega
    have := triples_sound _ a ys ms h (by rw [hy, a_length]) (by rw [hm, a_length]) 1000 (by rw [a_length]; norm_num)
    rw [a_getD _ (by norm_num), a_getD _ (by norm_num), a_getD _ (by norm_num), Bool.and_eq_true] at this
    exact this.2

lemma valRD_getD (k : ℕ) : valRD.getD k 0 = ((fRD.getD k 0 : ℤ) : ℝ) / 100000000 := map_getD fRD _ k
lemma valdamp_getD (k : ℕ) : valdamp.getD k 0 = ((fdamp.getD k 0 : ℤ) : ℝ) / 100000000 := map_getD fdamp _ k

/-- the ringdown spline increases on every cell -/
lemma pieceRD_mono (i : ℕ) (hi : i < 1002) {u v : ℝ} (hu : 0 ≤ u) (huv : u < v) (hv : v ≤ dx knots i) :
    piece knots valRD i u < piece knots valRD i v ∧ piece knots valRD i v - piece knots valRD i u ≤ 8.4 * (v - u) := by
  have c0 := abs_le.1 (slopes_close fRD_length mRD_length resRD endRD i (by omega))
  have c1 := abs_le.1 (slopes_close fRD_length mRD_length resRD endRD (i + 1) (by omega))
  have hp := pairs_sound incOK fRD_length mRD_length incRD i hi
  simp only [incOK, Bool.and_eq_true, decide_eq_true_eq] at hp
  obtain ⟨⟨⟨⟨⟨p1, p2⟩, p3⟩, p4⟩, p5⟩, p6⟩ := hp
  have p1' := (Int.cast_lt (R := ℝ)).2 p1
  have p2' := (Int.cast_lt (R := ℝ)).2 p2
  have p3' := (Int.cast_lt (R := ℝ)).2 p3
  have p4' := (Int.cast_le (R := ℝ)).2 p4
  have p5' := (Int.cast_le (R := ℝ)).2 p5
  have p6' := (Int.cast_le (R := ℝ)).2 p6
  push_cast at p1' p2' p3' p4' p5' p6'
  rw [X_diff i hi] at p3' p6'
  rw [piece_eq, piece_eq]
  rw [dx_knots i hi] at hv ⊢
  have hH := H_pos i
  change -20 ≤ slopes knots valRD i * 100000 - _ ∧ slopes knots valRD i * 100000 - _ ≤ 20 at c0
  change -20 ≤ slopes knots valRD (i + 1) * 100000 - _ ∧ slopes knots valRD (i + 1) * 100000 - _ ≤ 20 at c1
  have e : (valRD.getD (i + 1) 0 - valRD.getD i 0) / (H i / 1000) =
      (((fRD.getD (i + 1) 0 : ℤ) : ℝ) - ((fRD.getD i 0 : ℤ) : ℝ)) / H i / 100000 := by
    rw [valRD_getD, valRD_getD]
    field_simp
    ring
  refine herm_mono (by positivity) ?_ ?_ ?_ ?_ ?_ ?_ hu huv hv
  · linarith
  · linarith
  · rw [e]
    have : ((QNMCert.mRD.getD i 0 : ℤ) : ℝ) + ((QNMCert.mRD.getD (i + 1) 0 : ℤ) : ℝ) + 40 <
        3 * ((((fRD.getD (i + 1) 0 : ℤ) : ℝ) - ((fRD.getD i 0 : ℤ) : ℝ)) / H i) := by
      rw [← mul_div_assoc, lt_div_iff₀ hH]; linarith
    linarith
  · linarith
  · linarith
  · rw [e]
    have : 3 * ((((fRD.getD (i + 1) 0 : ℤ) : ℝ) - ((fRD.getD i 0 : ℤ) : ℝ)) / H i) ≤
        840000 + ((QNMCert.mRD.getD i 0 : ℤ) : ℝ) + ((QNMCert.mRD.getD (i + 1) 0 : ℤ) : ℝ) - 40 := by
      rw [← mul_div_assoc, div_le_iff₀ hH]; linarith
    linarith

/-- values of the damping spline on every cell -/
lemma piecedamp_range (i : ℕ) (hi : i < 1002) {u : ℝ} (hu : 0 ≤ u) (hv : u ≤ dx knots i) :
    0.0002908 ≤ piece knots valdamp i u ∧ piece knots valdamp i u ≤ 0.0143 := by
  have c0 := abs_le.1 (slopes_close fdamp_length mdamp_length resdamp enddamp i (by omega))
  have c1 := abs_le.1 (slopes_close fdamp_length mdamp_length resdamp enddamp (i + 1) (by omega))
  have hp := pairs_sound boxOK fdamp_length mdamp_length boxdamp i hi
  simp only [boxOK, Bool.and_eq_true, Bool.or_eq_true, decide_eq_true_eq] at hp
  obtain ⟨⟨⟨⟨l0, l1⟩, h0⟩, h1⟩, hp⟩ := hp
  have l0' := (Int.cast_le (R := ℝ)).2 l0
  have l1' := (Int.cast_le (R := ℝ)).2 l1
  have h0' := (Int.cast_le (R := ℝ)).2 h0
  have h1' := (Int.cast_le (R := ℝ)).2 h1
  push_cast at l0' l1' h0' h1'
  change -20 ≤ slopes knots valdamp i * 100000 - _ ∧ slopes knots valdamp i * 100000 - _ ≤ 20 at c0
  change -20 ≤ slopes knots valdamp (i + 1) * 100000 - _ ∧ slopes knots valdamp (i + 1) * 100000 - _ ≤ 20 at c1
  have hH := H_pos i
  have hH2 : H i ≤ 2 := by unfold H; split_ifs <;> norm_num
  rw [piece_eq]
  rw [dx_knots i hi] at hv ⊢
  have hh : 0 < H i / 1000 := by positivity
  have y0 := valdamp_getD i
  have y1 := valdamp_getD (i + 1)
  rcases hp with ⟨⟨p1, p2⟩, p3⟩ | ⟨⟨⟨⟨⟨p1, p2⟩, p3⟩, p4⟩, p5⟩, p6⟩
  · have p1' := (Int.cast_lt (R := ℝ)).2 p1
    have p2' := (Int.cast_lt (R := ℝ)).2 p2
    have p3' := (Int.cast_lt (R := ℝ)).2 p3
    push_cast at p1' p2' p3'
    rw [X_diff i hi] at p3'
    set s0 := slopes knots valdamp i
    set s1 := slopes knots valdamp (i + 1)
    have e : (valdamp.getD (i + 1) 0 - valdamp.getD i 0) / (H i / 1000) =
        (((fdamp.getD (i + 1) 0 : ℤ) : ℝ) - ((fdamp.getD i 0 : ℤ) : ℝ)) / H i / 100000 := by
      rw [y0, y1]
      field_simp
      ring
    have h3 : -s0 + -s1 < 3 * ((-valdamp.getD (i + 1) 0 - -valdamp.getD i 0) / (H i / 1000)) := by
      rw [show -valdamp.getD (i + 1) 0 - -valdamp.getD i 0 = -(valdamp.getD (i + 1) 0 - valdamp.getD i 0) by ring, neg_div, e]
      have : 3 * ((((fdamp.getD (i + 1) 0 : ℤ) : ℝ) - ((fdamp.getD i 0 : ℤ) : ℝ)) / H i) <
          ((QNMCert.mdamp.getD i 0 : ℤ) : ℝ) + ((QNMCert.mdamp.getD (i + 1) 0 : ℤ) : ℝ) - 40 := by
        rw [← mul_div_assoc, div_lt_iff₀ hH]; linarith
      linarith
    have mono : ∀ {u v : ℝ}, 0 ≤ u → u < v → v ≤ H i / 1000 →
        herm (H i / 1000) (valdamp.getD i 0) (valdamp.getD (i + 1) 0) s0 s1 v <
        herm (H i / 1000) (valdamp.getD i 0) (valdamp.getD (i + 1) 0) s0 s1 u := by
      intro u v a b c
      have := (herm_mono (L := max (max (-s0) (-s1)) (3 * ((-valdamp.getD (i + 1) 0 - -valdamp.getD i 0) / (H i / 1000))
        - (-s0) - (-s1))) hh (m0 := -s0) (m1 := -s1) (by linarith) (by linarith) h3 (by simp) (by simp)
        (le_max_right _ _) a b c).1
      rw [herm_neg, herm_neg] at this
      linarith
    have z0 := herm_zero (H i / 1000) (valdamp.getD i 0) (valdamp.getD (i + 1) 0) s0 s1
    have z1 := herm_end hh.ne' (valdamp.getD i 0) (valdamp.getD (i + 1) 0) s0 s1
    constructor
    · rcases hv.lt_or_eq with c | c
      · have := mono hu c le_rfl
        rw [z1] at this
        linarith
      · rw [c, z1, y1]; linarith
    · rcases hu.lt_or_eq with c | c
      · have := mono le_rfl c hv
        rw [z0] at this
        linarith
      · rw [← c, z0, y0]; linarith
  · have p1' := (Int.cast_le (R := ℝ)).2 p1
    have p2' := (Int.cast_le (R := ℝ)).2 p2
    have p3' := (Int.cast_le (R := ℝ)).2 p3
    have p4' := (Int.cast_le (R := ℝ)).2 p4
    have p5' := (Int.cast_le (R := ℝ)).2 p5
    have p6' := (Int.cast_le (R := ℝ)).2 p6
    push_cast at p1' p2' p3' p4' p5' p6'
    have a0 : |slopes knots valdamp i| ≤ 0.0102 := by rw [abs_le]; constructor <;> linarith
    have a1 : |slopes knots valdamp (i + 1)| ≤ 0.0102 := by rw [abs_le]; constructor <;> linarith
    have hc := herm_crude hh (y0 := valdamp.getD i 0) (y1 := valdamp.getD (i + 1) 0) (m0 := slopes knots valdamp i)
      (m1 := slopes knots valdamp (i + 1)) (lo := 0.01) (hi := 0.0141952) (by rw [y0]; linarith) (by rw [y1]; linarith)
      (by rw [y0]; linarith) (by rw [y1]; linarith) hu hv
    have hb : H i / 1000 * (|slopes knots valdamp i| + |slopes knots valdamp (i + 1)|) ≤ 2 / 1000 * (0.0102 + 0.0102) :=
      mul_le_mul (by linarith) (by linarith) (add_nonneg (abs_nonneg _) (abs_nonneg _)) (by norm_num)
    constructor <;> linarith

/-! ### the spline -/

lemma good : GoodGrid 0 knots := by
  refine ⟨by rw [knots_length]; norm_num, fun k hk => ?_⟩
  rw [knots_length] at hk
  have h1 := dx_knots k (by omega)
  have h2 := H_pos k
  unfold dx at h1
  have : 0 < H k / 1000 := by positivity
  linarith

/-- the spline on a cell -/
lemma spline_cell (y : List ℝ) (i : ℕ) (hi : i < 1002) {v : ℝ} (h1 : knots.getD i 0 ≤ v) (h2 : v ≤ knots.getD (i + 1) 0) :
    CubicSpline knots y v = piece knots y i (v - knots.getD i 0) := by
  unfold CubicSpline
  have hl := knots_length
  rcases h2.lt_or_eq with h2 | h2
  · rw [good.search le_rfl (by omega) h1 h2, hl, show min (max (i + 1) 1) (1003 - 1) - 1 = i by omega]
  · have hp : 0 < dx knots i := by rw [dx_knots i hi]; have := H_pos i; positivity
    have hd : v - knots.getD i 0 = dx knots i := by rw [h2]; rfl
    rcases Nat.lt_or_ge (i + 1) 1002 with h3 | h3
    · have h4 : knots.getD (i + 1) 0 < knots.getD (i + 1 + 1) 0 := good.lt le_rfl (by omega) (by omega)
      rw [good.search le_rfl (by omega) h2.ge (by rw [h2]; exact h4), hl,
        show min (max (i + 1 + 1) 1) (1003 - 1) - 1 = i + 1 by omega]
      simp only []
      rw [hd, h2, sub_self, piece_eq, piece_eq, herm_zero, herm_end hp.ne']
    · obtain rfl : i = 1001 := by omega
      rw [good.search_last le_rfl (by rw [hl]; exact h2.ge), hl, show min (max 1003 1) (1003 - 1) - 1 = 1001 by norm_num]

/-- the spline passes through the data -/
lemma spline_knot (y : List ℝ) (i : ℕ) (hi : i < 1003) : CubicSpline knots y (knots.getD i 0) = y.getD i 0 := by
  rcases Nat.lt_or_ge i 1002 with h | h
  · rw [spline_cell y i h le_rfl (good.le le_rfl (by omega) (by rw [knots_length]; omega)), sub_self, piece_eq, herm_zero]
  · obtain rfl : i = 1002 := by omega
    rw [spline_cell y 1001 (by norm_num) (good.le le_rfl (by omega) (by rw [knots_length]; omega)) le_rfl, piece_eq,
      show knots.getD (1001 + 1) 0 - knots.getD 1001 0 = dx knots 1001 from rfl, herm_end (by rw [dx1001]; norm_num)]

lemma knot_first : knots.getD 0 0 = -1 := by rw [knots_getD 0 (by norm_num)]; norm_num [X]
lemma knot_last : knots.getD 1002 0 = 1 := by rw [knots_getD 1002 (by norm_num)]; norm_num [X]

lemma cell_exists {v : ℝ} (h1 : -1 ≤ v) (h2 : v < 1) : ∃ i, i < 1002 ∧ knots.getD i 0 ≤ v ∧ v < knots.getD (i + 1) 0 := by
  obtain ⟨k, hk, a, b⟩ := GoodGrid.exists_cell (xp := knots) (x := v) (by rw [knot_first]; exact h1) 1002
    (by rw [knots_length]; norm_num) (by rw [knot_last]; exact h2)
  exact ⟨k, by omega, a, b⟩

lemma cell_exists' {v : ℝ} (h1 : -1 ≤ v) (h2 : v ≤ 1) : ∃ i, i < 1002 ∧ knots.getD i 0 ≤ v ∧ v ≤ knots.getD (i + 1) 0 := by
  rcases h2.lt_or_eq with h | h
  · obtain ⟨i, a, b, c⟩ := cell_exists h1 h
    exact ⟨i, a, b, c.le⟩
  · refine ⟨1001, by norm_num, ?_, ?_⟩
    · rw [h, ← knot_last]; exact good.le le_rfl (by omega) (by rw [knots_length]; omega)
    · rw [h, ← knot_last]

lemma splinedamp_range {v : ℝ} (h1 : -1 ≤ v) (h2 : v ≤ 1) :
    0.0002908 ≤ CubicSpline knots valdamp v ∧ CubicSpline knots valdamp v ≤ 0.0143 := by
  obtain ⟨i, hi, a, b⟩ := cell_exists' h1 h2
  rw [spline_cell _ i hi a b]
  exact piecedamp_range i hi (by linarith) (by unfold dx; linarith)

lemma splineRD_mono {v w : ℝ} (h1 : -1 ≤ v) (hvw : v < w) (h2 : w ≤ 1) :
    CubicSpline knots valRD v < CubicSpline knots valRD w ∧
      CubicSpline knots valRD w - CubicSpline knots valRD v ≤ 8.4 * (w - v) := by
  have cell : ∀ i, i < 1002 → ∀ {v w : ℝ}, knots.getD i 0 ≤ v → v < w → w ≤ knots.getD (i + 1) 0 →
      CubicSpline knots valRD v < CubicSpline knots valRD w ∧
      CubicSpline knots valRD w - CubicSpline knots valRD v ≤ 8.4 * (w - v) := by
    intro i hi v w a b c
    rw [spline_cell _ i hi a (by linarith), spline_cell _ i hi (by linarith) c]
    have := pieceRD_mono i hi (u := v - knots.getD i 0) (v := w - knots.getD i 0) (by linarith) (by linarith)
      (by unfold dx; linarith)
    rwa [show w - knots.getD i 0 - (v - knots.getD i 0) = w - v by ring] at this
  obtain ⟨i, hi, a, b⟩ := cell_exists h1 (lt_of_lt_of_le hvw h2)
  obtain ⟨j, hj, c, d⟩ := cell_exists' (show -1 ≤ w by linarith) h2
  by_cases hw : w ≤ knots.getD (i + 1) 0
  · exact cell i hi a hvw hw
  push Not at hw
  have hij : i + 1 ≤ j := by
    by_contra hlt
    have := good.le le_rfl (show j + 1 ≤ i + 1 by omega) (by rw [knots_length]; omega)
    linarith
  have key : ∀ k, i + 1 ≤ k → k < 1003 → CubicSpline knots valRD v < CubicSpline knots valRD (knots.getD k 0) ∧
      CubicSpline knots valRD (knots.getD k 0) - CubicSpline knots valRD v ≤ 8.4 * (knots.getD k 0 - v) := by
    intro k hk
    induction k, hk using Nat.le_induction with
    | base => intro _; exact cell i hi a b le_rfl
    | succ k hk ih =>
      intro hk'
      have e := ih (by omega)
      have f := cell k (by omega) le_rfl (good.lt le_rfl (show k < k + 1 by omega) (by rw [knots_length]; omega)) le_rfl
      constructor <;> linarith [e.1, e.2, f.1, f.2]
  have e := key j hij (by omega)
  rcases c.lt_or_eq with c | c
  · have f := cell j hj le_rfl c d
    constructor <;> linarith [e.1, e.2, f.1, f.2]
  · rw [← c]; exact e

lemma splineRD_range {v : ℝ} (h1 : -1 ≤ v) (h2 : v ≤ 1) :
    0.0464014 ≤ CubicSpline knots valRD v ∧ CubicSpline knots valRD v ≤ 0.1579619 := by
  have a := spline_knot valRD 0 (by norm_num)
  have b := spline_knot valRD 1002 (by norm_num)
  rw [knot_first, valRD_getD, show fRD.getD 0 0 = 4640140 by decide +kernel] at a
  rw [knot_last, valRD_getD, show fRD.getD 1002 0 = 15796190 by decide +kernel] at b
  norm_num at a b
  constructor
  · rcases h1.lt_or_eq with c | c
    · have := (splineRD_mono le_rfl c h2).1
      rw [a] at this
      linarith
    · rw [← c, a]; norm_num
  · rcases h2.lt_or_eq with c | c
    · have := (splineRD_mono h1 c le_rfl).1
      rw [b] at this
      linarith
    · rw [c, b]; norm_num

/-! ### the resampled tables -/

lemma grid_length : grid.length = 500000 := by unfold grid Jnp.linspace; rw [List.length_map, List.length_range]

lemma grid_getD (k : ℕ) (hk : k < 500000) : grid.getD k 0 = -1 + 2 * (k : ℝ) / 499999 := by
  rw [List.getD_eq_getElem _ _ (by rw [grid_length]; exact hk)]
  unfold grid Jnp.linspace
  rw [List.getElem_map, List.getElem_range]
  norm_num

lemma grid_mem {v : ℝ} (hv : v ∈ grid) : -1 ≤ v ∧ v ≤ 1 := by
  unfold grid Jnp.linspace at hv
  rw [List.mem_map] at hv
  obtain ⟨k, hk, rfl⟩ := hv
  rw [List.mem_range] at hk
  have h1 : (k : ℝ) ≤ 499999 := by exact_mod_cast (by omega : k ≤ 499999)
  have h0 : (0 : ℝ) ≤ k := Nat.cast_nonneg k
  constructor
  · have : 0 ≤ (1 - (-1)) * (k : ℝ) / (((500000 : ℕ) : ℝ) - 1) := by
      apply div_nonneg <;> norm_num
    linarith
  · have : (1 - (-1)) * (k : ℝ) / (((500000 : ℕ) : ℝ) - 1) ≤ 2 := by
      rw [div_le_iff₀ (by norm_num)]; norm_num; linarith
    linarith

lemma grid_good {eps : ℝ} (he : eps < 4e-6) : GoodGrid eps grid := by
  refine ⟨by rw [grid_length]; norm_num, fun k hk => ?_⟩
  rw [grid_length] at hk
  rw [grid_getD k (by omega), grid_getD (k + 1) (by omega)]
  push_cast
  have : (4e-6 : ℝ) < 2 / 499999 := by norm_num
  have e : -1 + 2 * ((k : ℝ) + 1) / 499999 - (-1 + 2 * (k : ℝ) / 499999) = 2 / 499999 := by ring
  linarith

end Ripple.QNMData
