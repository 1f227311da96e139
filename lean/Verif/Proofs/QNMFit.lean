/-
  The rational fits of IMRPhenomXAS for the ringdown and damping frequency against the splines through the published
  quasi-normal-mode data: on each of the 1002 cells the difference is a polynomial over a polynomial, and both are bounded from
  their coefficients in exact integer arithmetic.
-/
import Verif.Proofs.QNM
import Verif.Prelude.Interval
import Verif.Model.PhenomXUtils

namespace Ripple.QNMFit
open Scipy QNMData

/-! ### polynomials with integer coefficients, constant term first -/

noncomputable def ev (t : ℝ) : List Int → ℝ
  | [] => 0
  | c :: p => (c : ℝ) + t * ev t p

noncomputable def forceI {α : Type} (a : Int) (k : Int → α) : α :=
  Int.rec (fun n => IA.forceN n fun m => k (.ofNat m)) (fun n => IA.forceN n fun m => k (.negSucc m)) a

lemma forceI_eq {α : Type} (a : Int) (k : Int → α) : forceI a k = k a := by
  cases a with
  | ofNat n => exact IA.forceN_eq n fun m => k (.ofNat m)
  | negSucc n => exact IA.forceN_eq n fun m => k (.negSucc m)

noncomputable def forceL {α : Type} : List Int → (List Int → α) → α
  | [], k => k []
  | a :: l, k => forceI a fun a => forceL l fun l => k (a :: l)

lemma forceL_eq {α : Type} (l : List Int) (k : List Int → α) : forceL l k = k l := by
  induction l generalizing k with
  | nil => rfl
  | cons a l ih => rw [forceL, forceI_eq, ih]

def padd : List Int → List Int → List Int
  | [], q => q
  | p, [] => p
  | a :: p, b :: q => (a + b) :: padd p q

lemma ev_padd (t : ℝ) : ∀ p q, ev t (padd p q) = ev t p + ev t q
  | [], q => by simp [padd, ev]
  | a :: p, [] => by simp [padd, ev]
  | a :: p, b :: q => by
    simp only [padd, ev, ev_padd t p q]
    push_cast
    ring

def pscale (c : Int) : List Int → List Int
  | [] => []
  | a :: p => (c * a) :: pscale c p

lemma ev_pscale (t : ℝ) (c : Int) : ∀ p, ev t (pscale c p) = c * ev t p
  | [] => by simp [pscale, ev]
  | a :: p => by
    simp only [pscale, ev, ev_pscale t c p]
    push_cast
    ring

def pmul : List Int → List Int → List Int
  | [], _ => []
  | a :: p, q => padd (pscale a q) (0 :: pmul p q)

lemma ev_pmul (t : ℝ) : ∀ p q, ev t (pmul p q) = ev t p * ev t q
  | [], q => by simp [pmul, ev]
  | a :: p, q => by
    simp only [pmul, ev, ev_padd, ev_pscale, ev_pmul t p q]
    push_cast
    ring

/-- `acc + (x + h t) q` -/
noncomputable def lin (x h : Int) : Int → List Int → List Int
  | acc, [] => [acc]
  | acc, q :: qs => forceI (acc + x * q) fun a => forceI (h * q) fun b => a :: lin x h b qs

lemma ev_lin (t : ℝ) (x h : Int) : ∀ acc q, ev t (lin x h acc q) = acc + (x + h * t) * ev t q
  | acc, [] => by simp [lin, ev]
  | acc, q :: qs => by
    simp only [lin, forceI_eq, ev, ev_lin t x h]
    push_cast
    ring

/-- `p (x + h t)` -/
noncomputable def comp (x h : Int) : List Int → List Int
  | [] => []
  | c :: p => forceL (comp x h p) fun q => lin x h c q

lemma ev_comp (t : ℝ) (x h : Int) : ∀ p, ev t (comp x h p) = ev (x + h * t) p
  | [] => by simp [comp, ev]
  | c :: p => by simp only [comp, forceL_eq, ev_lin, ev, ev_comp t x h p]

def sumAbs : List Int → Int
  | [] => 0
  | a :: p => |a| + sumAbs p

lemma ev_abs {t : ℝ} (h0 : 0 ≤ t) (h1 : t ≤ 1) : ∀ p, |ev t p| ≤ sumAbs p
  | [] => by simp [ev, sumAbs]
  | a :: p => by
    have ih := ev_abs h0 h1 p
    simp only [ev, sumAbs]
    push_cast
    refine (abs_add_le _ _).trans (add_le_add le_rfl ?_)
    rw [abs_mul, abs_of_nonneg h0]
    exact (mul_le_of_le_one_left (abs_nonneg _) h1).trans ih

/-- lower bound on `[0,1]` -/
def low : List Int → Int
  | [] => 0
  | a :: p => a - sumAbs p

lemma ev_low {t : ℝ} (h0 : 0 ≤ t) (h1 : t ≤ 1) : ∀ p, (low p : ℝ) ≤ ev t p
  | [] => by simp [ev, low]
  | a :: p => by
    have h := ev_abs h0 h1 p
    have := mul_le_of_le_one_left (abs_nonneg (ev t p)) h1
    have := neg_abs_le (t * ev t p)
    rw [abs_mul, abs_of_nonneg h0] at this
    simp only [ev, low]
    push_cast
    linarith

/-! ### one cell -/

/-- The Hermite piece with data `y` (1e-8) and slopes `m` (1e-5) differs from `N / D` by at most `tol` (1e-8). -/
noncomputable def cellOK (N D : List Int) (tol x0 x1 y0 y1 m0 m1 : Int) : Bool :=
  forceI (x1 - x0) fun h => forceI (h * m0) fun p0 => forceI (h * m1) fun p1 => forceI (y1 - y0) fun d =>
    forceL (comp x0 h D) fun D => forceL (comp x0 h N) fun N =>
      forceL [y0, p0, 3 * d - 2 * p0 - p1, p0 + p1 - 2 * d] fun H =>
        forceL (padd (pmul H D) (pscale (-100000000) N)) fun E =>
          decide (0 < low D) && decide (sumAbs E ≤ tol * low D)

lemma cellOK_sound {N D : List Int} {tol x0 x1 y0 y1 m0 m1 : Int} (h : cellOK N D tol x0 x1 y0 y1 m0 m1 = true) (htol : 0 ≤ tol)
    {t : ℝ} (h0 : 0 ≤ t) (h1 : t ≤ 1) :
    let H : ℝ := ((x1 - x0 : Int) : ℝ)
    let v : ℝ := x0 + H * t
    0 < ev v D ∧
    |(y0 + H * m0 * t + (3 * (y1 - y0) - 2 * (H * m0) - H * m1) * t ^ 2 + (H * m0 + H * m1 - 2 * (y1 - y0)) * t ^ 3) / 100000000
      - ev v N / ev v D| ≤ (tol : ℝ) / 100000000 := by
  intro H v
  simp only [cellOK, forceI_eq, forceL_eq, Bool.and_eq_true, decide_eq_true_eq] at h
  obtain ⟨hD, hE⟩ := h
  have hlow := ev_low h0 h1 (comp x0 (x1 - x0) D)
  have habs := ev_abs h0 h1 (padd (pmul [y0, (x1 - x0) * m0, 3 * (y1 - y0) - 2 * ((x1 - x0) * m0) - (x1 - x0) * m1,
    (x1 - x0) * m0 + (x1 - x0) * m1 - 2 * (y1 - y0)] (comp x0 (x1 - x0) D)) (pscale (-100000000) (comp x0 (x1 - x0) N)))
  rw [ev_padd, ev_pmul, ev_pscale, ev_comp, ev_comp] at habs
  rw [ev_comp] at hlow
  have hv : (x0 : ℝ) + ((x1 - x0 : Int) : ℝ) * t = v := rfl
  rw [hv] at habs hlow
  have hD' := (Int.cast_lt (R := ℝ)).2 hD
  have hE' := (Int.cast_le (R := ℝ)).2 hE
  rw [Int.cast_zero] at hD'
  push_cast at hE'
  have hpos : 0 < ev v D := by linarith
  refine ⟨hpos, ?_⟩
  have ht : (0 : ℝ) ≤ tol := by exact_mod_cast htol
  have hb := habs.trans (hE'.trans (mul_le_mul_of_nonneg_left hlow ht))
  have e : (y0 + H * m0 * t + (3 * (y1 - y0) - 2 * (H * m0) - H * m1) * t ^ 2 + (H * m0 + H * m1 - 2 * (y1 - y0)) * t ^ 3) /
      100000000 - ev v N / ev v D =
      (ev t [y0, (x1 - x0) * m0, 3 * (y1 - y0) - 2 * ((x1 - x0) * m0) - (x1 - x0) * m1,
        (x1 - x0) * m0 + (x1 - x0) * m1 - 2 * (y1 - y0)] * ev v D + ((-100000000 : Int) : ℝ) * ev v N) / (100000000 * ev v D) := by
    simp only [ev, H]
    push_cast
    field_simp
    ring
  rw [e, abs_div, abs_of_pos (show 0 < 100000000 * ev v D by positivity), div_le_div_iff₀ (by positivity) (by norm_num)]
  nlinarith [hb]

/-- a condition on all pairs of neighbouring entries of three lists -/
def cells (p : Int → Int → Int → Int → Int → Int → Bool) : List Int → List Int → List Int → Bool
  | x0 :: x1 :: xs, y0 :: y1 :: ys, m0 :: m1 :: ms => p x0 x1 y0 y1 m0 m1 && cells p (x1 :: xs) (y1 :: ys) (m1 :: ms)
  | _, _, _ => true

lemma cells_sound (p : Int → Int → Int → Int → Int → Int → Bool) (xs : List Int) :
    ∀ ys ms, cells p xs ys ms = true → ys.length = xs.length → ms.length = xs.length → ∀ i, i + 1 < xs.length →
      p (xs.getD i 0) (xs.getD (i + 1) 0) (ys.getD i 0) (ys.getD (i + 1) 0) (ms.getD i 0) (ms.getD (i + 1) 0) = true := by
  induction xs with
  | nil => intro ys ms _ _ _ i hi; simp at hi
  | cons x0 xs ih =>
    intro ys ms h hy hm i hi
    match xs, ys, ms, h, hy, hm, ih with
    | [], _, _, _, _, _, _ => simp at hi
    | x1 :: xs, y0 :: y1 :: ys, m0 :: m1 :: ms, h, hy, hm, ih =>
      simp only [cells, Bool.and_eq_true] at h
      cases i with
      | zero => exact h.1
      | succ i =>
        have := ih (y1 :: ys) (m1 :: ms) h.2 (by simpa using hy) (by simpa using hm) i (by simp at hi ⊢; omega)
        simpa using this

/-- tolerances (1e-8) of the ringdown fit by right end of the cell (1e-3) -/
def tolRD (x : Int) : Int := if x ≤ 950 then 1300 else if x ≤ 990 then 5200 else 800000
/-- tolerances (1e-8) of the damping fit -/
def toldamp (x : Int) : Int := if x ≤ 990 then 2020 else 198000

/-- numerator and denominator of the ringdown fit in `1000 a`, times 1e20 * 1000^7 -/
def NRD : List Int := [5947169566573468000000000000000000000000, -14989771215394762000000000000000000000, 9535606290986028000000000000000000, 2260924869042963000000000000000, -2501704155363241000000000000, -585243824099721100000000, 274890383933679930000, 58219831631926940]
def DRD : List Int := [100000000000000000000000000000000000000000, -285701266199662960000000000000000000000, 237333541397839400000000000000000000, 0, -60369646885115050000000000000, 0, 8737982150840770000000]
def Ndamp : List Int := [1415879229096517700000000000000000000000, -3698939587155456600000000000000000000, 2682252629657536800000000000000000, 84909337505667020000000000000, -484399690702052400000000000, -14745235759327472000000, 15045462012367940000]
def Ddamp : List Int := [100000000000000000000000000000000000000000, -259008427986813760000000000000000000000, 189525762206239670000000000000000000, 0, -31416610693042507000000000000, 0, 900271941220413300000]

lemma cellsRD : cells (fun x0 x1 => cellOK NRD DRD (tolRD x1) x0 x1) a fRD QNMCert.mRD = true := by decide +kernel
lemma cellsdamp : cells (fun x0 x1 => cellOK Ndamp Ddamp (toldamp x1) x0 x1) a fdamp QNMCert.mdamp = true := by decide +kernel

/-! ### the splines -/

lemma cell_fit {ys ms N D : List Int} {tol : Int → Int} (hy : ys.length = 1003) (hm : ms.length = 1003)
    (hr : triples resOK a ys ms = true) (he : endOK ys ms = true)
    (hc : cells (fun x0 x1 => cellOK N D (tol x1) x0 x1) a ys ms = true) (htol : ∀ x, 0 ≤ tol x)
    (i : ℕ) (hi : i < 1002) {v : ℝ} (h1 : knots.getD i 0 ≤ v) (h2 : v ≤ knots.getD (i + 1) 0) :
    0 < ev (1000 * v) D ∧
    |CubicSpline knots (ys.map fun k : Int => (k : ℝ) / 100000000) v - ev (1000 * v) N / ev (1000 * v) D| ≤
      (tol (X (i + 1)) : ℝ) / 100000000 + 1e-7 := by
  have c0 := slopes_close hy hm hr he i (by omega)
  have c1 := slopes_close hy hm hr he (i + 1) (by omega)
  have hp := cells_sound _ a ys ms hc (by rw [hy, a_length]) (by rw [hm, a_length]) i (by rw [a_length]; omega)
  rw [a_getD _ (by omega), a_getD _ (by omega)] at hp
  set y := ys.map fun k : Int => (k : ℝ) / 100000000 with hyd
  have hval : ∀ k, y.getD k 0 = ((ys.getD k 0 : ℤ) : ℝ) / 100000000 := fun k => map_getD ys _ k
  have hH := H_pos i
  have hH2 : H i ≤ 2 := by unfold H; split_ifs <;> norm_num
  have hX : ((X (i + 1) - X i : Int) : ℝ) = H i := by push_cast; exact X_diff i hi
  have k0 := knots_getD i (by omega)
  have k1 := knots_getD (i + 1) (by omega)
  have kd := X_diff i hi
  set t : ℝ := (1000 * v - X i) / H i with ht
  have hv : 1000 * v = X i + H i * t := by rw [ht]; field_simp; ring
  have t0 : 0 ≤ t := div_nonneg (by linarith) hH.le
  have t1 : t ≤ 1 := by rw [ht, div_le_one hH]; linarith
  have hs := cellOK_sound hp (htol _) t0 t1
  simp only [hX] at hs
  rw [← hv] at hs
  refine ⟨hs.1, ?_⟩
  rw [spline_cell y i hi h1 h2, piece_eq, dx_knots i hi, hval, hval]
  generalize slopes knots y i = s0 at *
  generalize slopes knots y (i + 1) = s1 at *
  generalize ((ms.getD i 0 : ℤ) : ℝ) = n0 at *
  generalize ((ms.getD (i + 1) 0 : ℤ) : ℝ) = n1 at *
  generalize ((ys.getD i 0 : ℤ) : ℝ) = y0 at *
  generalize ((ys.getD (i + 1) 0 : ℤ) : ℝ) = y1 at *
  have hu : v - knots.getD i 0 = H i / 1000 * t := by rw [k0]; linarith
  rw [hu]
  have e : herm (H i / 1000) (y0 / 100000000) (y1 / 100000000) s0 s1 (H i / 1000 * t) =
      (y0 + H i * n0 * t + (3 * (y1 - y0) - 2 * (H i * n0) - H i * n1) * t ^ 2 + (H i * n0 + H i * n1 - 2 * (y1 - y0)) * t ^ 3)
        / 100000000 + ((s0 * 100000 - n0) * (t * (1 - t) ^ 2) - (s1 * 100000 - n1) * (t ^ 2 * (1 - t))) * H i / 100000000 := by
    unfold herm
    field_simp
    ring
  rw [e, add_sub_right_comm]
  refine (abs_add_le _ _).trans (add_le_add hs.2 ?_)
  have w0 : 0 ≤ t * (1 - t) ^ 2 := mul_nonneg t0 (sq_nonneg _)
  have w1 : 0 ≤ t ^ 2 * (1 - t) := mul_nonneg (sq_nonneg _) (by linarith)
  have hb : |(s0 * 100000 - n0) * (t * (1 - t) ^ 2) - (s1 * 100000 - n1) * (t ^ 2 * (1 - t))| ≤ 5 := by
    refine (abs_sub _ _).trans ?_
    rw [abs_mul (s0 * 100000 - n0), abs_mul (s1 * 100000 - n1), abs_of_nonneg w0, abs_of_nonneg w1]
    have := mul_le_mul_of_nonneg_right c0 w0
    have := mul_le_mul_of_nonneg_right c1 w1
    nlinarith [sq_nonneg (t - 1 / 2)]
  rw [abs_div, abs_mul, abs_of_pos hH, abs_of_pos (show (0 : ℝ) < 100000000 by norm_num), div_le_iff₀ (by norm_num)]
  have := mul_le_mul hb hH2 hH.le (by norm_num)
  linarith

/-- the tolerance of a cell that contains a spin below a cell boundary -/
lemma cell_below {n : Int} (k : ℕ) (hk : k < 1003) (hn : X k = n) {i : ℕ} (hi : i < 1002) {v : ℝ} (h1 : knots.getD i 0 ≤ v)
    (hv : v < n / 1000) : X (i + 1) ≤ n := by
  rw [knots_getD i (by omega)] at h1
  have hlt : i < k := by
    by_contra hc
    have := good.le le_rfl (show k ≤ i by omega) (by rw [knots_length]; omega)
    rw [knots_getD k hk, knots_getD i (by omega), hn] at this
    linarith
  have := good.le le_rfl (show i + 1 ≤ k by omega) (by rw [knots_length]; exact hk)
  rw [knots_getD k hk, knots_getD (i + 1) (by omega), hn] at this
  have : (X (i + 1) : ℝ) ≤ n := by linarith
  exact_mod_cast this

lemma tolRD_nonneg (x : Int) : 0 ≤ tolRD x := by unfold tolRD; split_ifs <;> norm_num
lemma toldamp_nonneg (x : Int) : 0 ≤ toldamp x := by unfold toldamp; split_ifs <;> norm_num

lemma fRDof_eq (v : ℝ) : XAS.fRDof v 0 = ev (1000 * v) NRD / ev (1000 * v) DRD := by
  have e1 : ev (1000 * v) NRD = 1e41 * (0.05947169566573468 - 0.14989771215394762 * v + 0.09535606290986028 * v ^ 2 +
      0.02260924869042963 * v ^ 3 - 0.02501704155363241 * v ^ 4 - 0.005852438240997211 * v ^ 5 +
      0.0027489038393367993 * v ^ 6 + 0.0005821983163192694 * v ^ 7) := by
    simp only [ev, NRD]; push_cast; ring
  have e2 : ev (1000 * v) DRD = 1e41 * (1 - 2.8570126619966296 * v + 2.373335413978394 * v ^ 2 - 0.6036964688511505 * v ^ 4 +
      0.0873798215084077 * v ^ 6) := by
    simp only [ev, DRD]; push_cast; ring
  rw [e1, e2, mul_div_mul_left _ _ (by norm_num)]
  unfold XAS.fRDof
  rw [sub_zero, div_one]
  ring_nf

lemma fdampOf_eq (v : ℝ) : XAS.fdampOf v 0 = ev (1000 * v) Ndamp / ev (1000 * v) Ddamp := by
  have e1 : ev (1000 * v) Ndamp = 1e41 * (0.014158792290965177 - 0.036989395871554566 * v + 0.026822526296575368 * v ^ 2 +
      0.0008490933750566702 * v ^ 3 - 0.004843996907020524 * v ^ 4 - 0.00014745235759327472 * v ^ 5 +
      0.0001504546201236794 * v ^ 6) := by
    simp only [ev, Ndamp]; push_cast; ring
  have e2 : ev (1000 * v) Ddamp = 1e41 * (1 - 2.5900842798681376 * v + 1.8952576220623967 * v ^ 2 -
      0.31416610693042507 * v ^ 4 + 0.009002719412204133 * v ^ 6) := by
    simp only [ev, Ddamp]; push_cast; ring
  rw [e1, e2, mul_div_mul_left _ _ (by norm_num)]
  unfold XAS.fdampOf
  rw [sub_zero, div_one]
  ring_nf

/-- the ringdown fit of IMRPhenomXAS against the spline through the published data -/
lemma RD_fit {v : ℝ} (h1 : -1 ≤ v) (h2 : v ≤ 1) :
    |CubicSpline knots valRD v - XAS.fRDof v 0| ≤ 0.0081 ∧
    (v < 0.95 → |CubicSpline knots valRD v - XAS.fRDof v 0| ≤ 1.32e-5) ∧
    (v < 0.99 → |CubicSpline knots valRD v - XAS.fRDof v 0| ≤ 5.3e-5) := by
  obtain ⟨i, hi, a, b⟩ := cell_exists' h1 h2
  obtain ⟨-, hf⟩ := cell_fit fRD_length mRD_length resRD endRD cellsRD tolRD_nonneg i hi a b
  change |CubicSpline knots valRD v - _| ≤ _ at hf
  rw [← fRDof_eq] at hf
  refine ⟨hf.trans ?_, fun h => hf.trans ?_, fun h => hf.trans ?_⟩
  · have : tolRD (X (i + 1)) ≤ 800000 := by unfold tolRD; split_ifs <;> norm_num
    have := (Int.cast_le (R := ℝ)).2 this
    push_cast at this
    linarith
  · have hx := cell_below (n := 950) 976 (by norm_num) (by norm_num [X]) hi a (by push_cast; linarith)
    rw [show tolRD (X (i + 1)) = 1300 by unfold tolRD; rw [if_pos hx]]
    norm_num
  · have hx := cell_below (n := 990) 996 (by norm_num) (by norm_num [X]) hi a (by push_cast; linarith)
    have : tolRD (X (i + 1)) ≤ 5200 := by unfold tolRD; split_ifs <;> norm_num
    have := (Int.cast_le (R := ℝ)).2 this
    push_cast at this
    linarith

/-- the damping fit of IMRPhenomXAS against the spline through the published data -/
lemma damp_fit {v : ℝ} (h1 : -1 ≤ v) (h2 : v ≤ 1) :
    |CubicSpline knots valdamp v - XAS.fdampOf v 0| ≤ 0.002 ∧
    (v < 0.99 → |CubicSpline knots valdamp v - XAS.fdampOf v 0| ≤ 2.1e-5) := by
  obtain ⟨i, hi, a, b⟩ := cell_exists' h1 h2
  obtain ⟨-, hf⟩ := cell_fit fdamp_length mdamp_length resdamp enddamp cellsdamp toldamp_nonneg i hi a b
  change |CubicSpline knots valdamp v - _| ≤ _ at hf
  rw [← fdampOf_eq] at hf
  refine ⟨hf.trans ?_, fun h => hf.trans ?_⟩
  · have : toldamp (X (i + 1)) ≤ 198000 := by unfold toldamp; split_ifs <;> norm_num
    have := (Int.cast_le (R := ℝ)).2 this
    push_cast at this
    linarith
  · have hx := cell_below (n := 990) 996 (by norm_num) (by norm_num [X]) hi a (by push_cast; linarith)
    rw [show toldamp (X (i + 1)) = 2020 by unfold toldamp; rw [if_pos hx]]
    norm_num

end Ripple.QNMFit
