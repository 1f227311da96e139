/-
  Properties C30–C36 (PhenomD part): the PhenomD strain generator.
  Throughout `gen_IMRPhenomD q grid params f_ref` with params = [Mc, eta, chi1, chi2, D, tc, phic] and QNM tables `q`.
-/
import Verif.Proofs.PhenomDScale
import Verif.Props.PhenomD
import Verif.Props.Conversions

namespace Ripple
open PhenomD

/-- masses and spins used by the generators that take (Mc, eta, chi1, chi2) -/
noncomputable def thetaOf (Mc eta chi1 chi2 : ℝ) : Theta :=
  ⟨(Mc_eta_to_ms Mc eta).1, (Mc_eta_to_ms Mc eta).2, chi1, chi2⟩

/-- the transition frequencies of a PhenomD waveform -/
noncomputable def tfOf (q : QNM) (theta : Theta) : TransFreqs :=
  get_transition_frequencies q theta (get_coeffs theta 5) (get_coeffs theta 6)

/-- cutoff frequency 0.2/M in Hz -/
noncomputable def fCut (theta : Theta) : ℝ := 0.2 / ((theta.m1 + theta.m2) * gt)

lemma fCut_eq (theta : Theta) : fCut theta = fM_CUT / Ms theta := by rw [fCut, Ms_eq, fM_CUT]

lemma genD_eq (q : QNM) (grid : List ℝ) (Mc eta chi1 chi2 D tc phic : ℝ) (rest : List ℝ) (f_ref : ℝ) :
    gen_IMRPhenomD q grid (Mc :: eta :: chi1 :: chi2 :: D :: tc :: phic :: rest) f_ref =
      grid.map (strainAt (thetaOf Mc eta chi1 chi2) (get_coeffs (thetaOf Mc eta chi1 chi2))
        (tfOf q (thetaOf Mc eta chi1 chi2)) D tc phic f_ref (cutThr grid (fCut (thetaOf Mc eta chi1 chi2)))) := by
  have i0 : Jnp.index (Mc :: eta :: chi1 :: chi2 :: D :: tc :: phic :: rest) 0 = Mc :=
    Jnp.index_nat (i := 0) (by simp)
  have i1 : Jnp.index (Mc :: eta :: chi1 :: chi2 :: D :: tc :: phic :: rest) 1 = eta :=
    Jnp.index_nat (i := 1) (by simp)
  have i2 : Jnp.index (Mc :: eta :: chi1 :: chi2 :: D :: tc :: phic :: rest) 2 = chi1 :=
    Jnp.index_nat (i := 2) (by simp)
  have i3 : Jnp.index (Mc :: eta :: chi1 :: chi2 :: D :: tc :: phic :: rest) 3 = chi2 :=
    Jnp.index_nat (i := 3) (by simp)
  have i4 : Jnp.index (Mc :: eta :: chi1 :: chi2 :: D :: tc :: phic :: rest) 4 = D :=
    Jnp.index_nat (i := 4) (by simp)
  have i5 : Jnp.index (Mc :: eta :: chi1 :: chi2 :: D :: tc :: phic :: rest) 5 = tc :=
    Jnp.index_nat (i := 5) (by simp)
  have i6 : Jnp.index (Mc :: eta :: chi1 :: chi2 :: D :: tc :: phic :: rest) 6 = phic :=
    Jnp.index_nat (i := 6) (by simp)
  unfold gen_IMRPhenomD
  simp only [i0, i1, i2, i3, i4, i5, i6, gen_eq, fCut_eq]
  rfl

section
variable (q : QNM) (Mc eta chi1 chi2 D tc phic f_ref : ℝ)

/-! ### C30 cutoff -/

/-- Last grid point below the cutoff: no sample is cut — each equals the sample of the one-point grid. -/
theorem C30_no_cut (grid : List ℝ) (hne : grid ≠ []) (hl : grid.getD (grid.length - 1) 0 < fCut (thetaOf Mc eta chi1 chi2))
    (j : ℕ) (hj : j < grid.length) (hx : grid.getD j 0 < fCut (thetaOf Mc eta chi1 chi2)) :
    (gen_IMRPhenomD q grid [Mc, eta, chi1, chi2, D, tc, phic] f_ref).getD j 0 =
      (gen_IMRPhenomD q [grid.getD j 0] [Mc, eta, chi1, chi2, D, tc, phic] f_ref).getD 0 0 := by
  rw [genD_eq, genD_eq, map_getElem hj, cutThr_uncut hne hl]
  rw [map_getElem (by simp), cutThr_uncut (by simp) (by simpa using hx)]
  rfl

/-- Grid reaching the cutoff, closest point at position `i ≥ 1`: everything from position `i - 1` on and above the
    last transition frequency is zero. -/
theorem C30_zeroed (grid : List ℝ) (hinc : Increasing grid) (i : ℕ)
    (hl : fCut (thetaOf Mc eta chi1 chi2) ≤ grid.getD (grid.length - 1) 0)
    (hi : IsClosest grid (fCut (thetaOf Mc eta chi1 chi2)) i) (h0 : 0 < i) (j : ℕ) (hj : j < grid.length)
    (hij : i ≤ j + 1) (h3 : (tfOf q (thetaOf Mc eta chi1 chi2)).f3 < grid.getD j 0)
    (h4 : (tfOf q (thetaOf Mc eta chi1 chi2)).f4 < grid.getD j 0) :
    (gen_IMRPhenomD q grid [Mc, eta, chi1, chi2, D, tc, phic] f_ref).getD j 0 = 0 := by
  rw [genD_eq, map_getElem hj, cutThr_pos hi h0 hl]
  have hle : grid.getD (i - 1) 0 ≤ grid.getD j 0 := by
    rcases Nat.lt_or_ge (i - 1) j with h | h
    · exact (hinc _ _ h hj).le
    · have : i - 1 = j := by omega
      rw [this]
  rw [strainAt_above hle, ampAt_cut hle h3 h4]
  simp

/-- ... and everything before position `i - 1` is untouched. -/
theorem C30_kept (grid : List ℝ) (hinc : Increasing grid) (i : ℕ)
    (hl : fCut (thetaOf Mc eta chi1 chi2) ≤ grid.getD (grid.length - 1) 0)
    (hi : IsClosest grid (fCut (thetaOf Mc eta chi1 chi2)) i) (h0 : 0 < i) (j : ℕ) (hij : j < i - 1) :
    (gen_IMRPhenomD q grid [Mc, eta, chi1, chi2, D, tc, phic] f_ref).getD j 0 =
      (gen_IMRPhenomD q [grid.getD j 0] [Mc, eta, chi1, chi2, D, tc, phic] f_ref).getD 0 0 ∧
    grid.getD j 0 < fCut (thetaOf Mc eta chi1 chi2) := by
  set c := fCut (thetaOf Mc eta chi1 chi2) with hc
  have hilt := hi.1
  have hx : grid.getD j 0 < grid.getD (i - 1) 0 := hinc _ _ hij (by omega)
  have h1 : grid.getD (i - 1) 0 < grid.getD i 0 := hinc _ _ (by omega) hilt
  have h2 : grid.getD (i - 1) 0 < c := by
    by_contra hcon
    rw [not_lt] at hcon
    have := hi.2.1 (i - 1) (by omega)
    rw [abs_of_nonneg (by linarith), abs_of_nonneg (by linarith)] at this
    linarith
  refine ⟨?_, hx.trans h2⟩
  rw [genD_eq, genD_eq, map_getElem (by omega), cutThr_pos hi h0 hl]
  rw [map_getElem (by simp), cutThr_uncut (by simp) (by simpa using hx.trans h2)]
  exact strainAt_below_eq hx (hx.trans h2)

/-- All points at or above the cutoff are among the zeroed ones, and position `i - 1` itself is below the cutoff (so one
    or two in-band points are lost). -/
theorem C30_lost_points (grid : List ℝ) (hinc : Increasing grid) (c : ℝ) (i : ℕ) (hi : IsClosest grid c i) (h0 : 0 < i) :
    grid.getD (i - 1) 0 < c ∧ (∀ j, j < grid.length → c ≤ grid.getD j 0 → i ≤ j + 1) ∧
      (∀ j, i < j → j < grid.length → c ≤ grid.getD j 0) := by
  have hilt := hi.1
  have h1 : grid.getD (i - 1) 0 < grid.getD i 0 := hinc _ _ (by omega) hilt
  have h2 : grid.getD (i - 1) 0 < c := by
    by_contra hcon
    rw [not_lt] at hcon
    have := hi.2.1 (i - 1) (by omega)
    rw [abs_of_nonneg (by linarith), abs_of_nonneg (by linarith)] at this
    linarith
  refine ⟨h2, fun j hj hcj => ?_, fun j hij hj => ?_⟩
  · by_contra hcon
    have : grid.getD j 0 < grid.getD (i - 1) 0 := hinc _ _ (by omega) (by omega)
    linarith
  · by_contra hcon
    rw [not_le] at hcon
    have h3 := hinc _ _ hij hj
    have := hi.2.1 j hj
    rw [abs_of_neg (by linarith), abs_of_neg (by linarith)] at this
    linarith

/-- Closest point at position 0 (for instance the whole grid lies above the cutoff): the index −1 wraps round, only the
    last point is cut, and the strain at every other point above the last transition frequency is NOT zero, although the
    frequency may be above the cutoff. -/
theorem C30_wraps (grid : List ℝ) (hinc : Increasing grid)
    (hMc : 0 < Mc) (he : 0 < eta) (he' : eta ≤ 1 / 4) (hD : 0 < D)
    (hg1 : 0 < get_coeffs (thetaOf Mc eta chi1 chi2) 4) (hg3 : 0 < get_coeffs (thetaOf Mc eta chi1 chi2) 6)
    (hd : 0 < (tfOf q (thetaOf Mc eta chi1 chi2)).f_damp)
    (hl : fCut (thetaOf Mc eta chi1 chi2) ≤ grid.getD (grid.length - 1) 0)
    (hi : IsClosest grid (fCut (thetaOf Mc eta chi1 chi2)) 0) (j : ℕ) (hj : j + 1 < grid.length)
    (hpos : 0 < grid.getD j 0)
    (h3 : (tfOf q (thetaOf Mc eta chi1 chi2)).f3 < grid.getD j 0)
    (h4 : (tfOf q (thetaOf Mc eta chi1 chi2)).f4 < grid.getD j 0) :
    (gen_IMRPhenomD q grid [Mc, eta, chi1, chi2, D, tc, phic] f_ref).getD j 0 ≠ 0 ∧
    (gen_IMRPhenomD q grid [Mc, eta, chi1, chi2, D, tc, phic] f_ref).getD (grid.length - 1) 0 = 0 := by
  have hm := C02_masses_ordered Mc eta hMc he he'
  have hlast : grid.getD j 0 < grid.getD (grid.length - 1) 0 := hinc _ _ (by omega) (by omega)
  rw [genD_eq, map_getElem (by omega), map_getElem (by omega), cutThr_wrap hi hl]
  constructor
  · rw [strainAt_below hlast]
    refine mul_ne_zero ?_ (Complex.exp_ne_zero _)
    have := lor_pos_amp (D := D) (coeffs := get_coeffs (thetaOf Mc eta chi1 chi2)) (theta := thetaOf Mc eta chi1 chi2)
      (tf := tfOf q (thetaOf Mc eta chi1 chi2)) (lt_of_lt_of_le hm.1 hm.2.1) hm.1 hd hg1 hg3 hD hlast hpos h3 h4
    exact_mod_cast this.ne'
  · rw [strainAt_above le_rfl, ampAt_cut le_rfl (h3.trans hlast) (h4.trans hlast)]
    simp

/-- A grid lying entirely above the cutoff has its closest point at position 0. -/
theorem C30_wraps_when_above (grid : List ℝ) (hne : grid ≠ []) (hinc : Increasing grid) (c : ℝ)
    (h : ∀ x ∈ grid, c ≤ x) : IsClosest grid c 0 := by
  have hl := List.length_pos_of_ne_nil hne
  refine ⟨hl, fun j hj => ?_, fun j hj => absurd hj (by omega)⟩
  have h0 := h _ (Jnp.getD_mem (i := 0) hl)
  have h1 := h _ (Jnp.getD_mem hj)
  rw [abs_of_nonneg (by linarith), abs_of_nonneg (by linarith)]
  rcases Nat.eq_zero_or_pos j with rfl | hp
  · exact le_rfl
  · have := hinc 0 j hp hj; linarith

/-- Wherever a sample is at or above the cut threshold but not above the transition frequencies (coarse grids), its
    amplitude survives while its phase is lost: the sample is a real number, whatever `tc`, `phic`, `f_ref`. -/
theorem C30_phase_dropped (grid : List ℝ) (hinc : Increasing grid) (i : ℕ)
    (hl : fCut (thetaOf Mc eta chi1 chi2) ≤ grid.getD (grid.length - 1) 0)
    (hi : IsClosest grid (fCut (thetaOf Mc eta chi1 chi2)) i) (h0 : 0 < i) (j : ℕ) (hj : j < grid.length)
    (hij : i ≤ j + 1) :
    ∃ a : ℝ, ∀ tc phic f_ref : ℝ,
      (gen_IMRPhenomD q grid [Mc, eta, chi1, chi2, D, tc, phic] f_ref).getD j 0 = (a : ℂ) := by
  have hle : grid.getD (i - 1) 0 ≤ grid.getD j 0 := by
    rcases Nat.lt_or_ge (i - 1) j with h | h
    · exact (hinc _ _ h hj).le
    · have : i - 1 = j := by omega
      rw [this]
  refine ⟨ampAt (thetaOf Mc eta chi1 chi2) (get_coeffs (thetaOf Mc eta chi1 chi2)) (tfOf q (thetaOf Mc eta chi1 chi2)) D
    (grid.getD (i - 1) 0) (grid.getD j 0), fun tc phic f_ref => ?_⟩
  rw [genD_eq, map_getElem hj, cutThr_pos hi h0 hl, strainAt_above hle]

/-- witness: an increasing grid reaching the cut whose closest point is not the first -/
example : Increasing [20, 30, 40] ∧ IsClosest [20, 30, 40] 31 1 ∧ (31 : ℝ) ≤ [20, 30, 40].getD 2 0 := by
  refine ⟨?_, ⟨by simp, ?_, ?_⟩, by norm_num⟩
  · intro i j hij hj
    simp only [List.length_cons, List.length_nil] at hj
    have : (i = 0 ∧ j = 1) ∨ (i = 0 ∧ j = 2) ∨ (i = 1 ∧ j = 2) := by omega
    rcases this with ⟨rfl, rfl⟩ | ⟨rfl, rfl⟩ | ⟨rfl, rfl⟩ <;> norm_num
  · intro j hj
    simp only [List.length_cons, List.length_nil] at hj
    have : j = 0 ∨ j = 1 ∨ j = 2 := by omega
    rcases this with rfl | rfl | rfl <;> norm_num [abs_of_neg, abs_of_pos]
  · intro j hj
    have : j = 0 := by omega
    subst this
    norm_num [abs_of_neg]

/-! ### C31 distance, time and phase -/

theorem C31_distance (grid : List ℝ) (k : ℝ) (_hk : 0 < k) :
    gen_IMRPhenomD q grid [Mc, eta, chi1, chi2, k * D, tc, phic] f_ref =
      (gen_IMRPhenomD q grid [Mc, eta, chi1, chi2, D, tc, phic] f_ref).map fun h => h / (k : ℂ) := by
  rw [genD_eq, genD_eq, List.map_map]
  refine List.map_congr_left fun x _ => ?_
  simp only [Function.comp, strainAt]
  have : ∀ thr, ampAt (thetaOf Mc eta chi1 chi2) (get_coeffs (thetaOf Mc eta chi1 chi2))
      (tfOf q (thetaOf Mc eta chi1 chi2)) (k * D) thr x =
      ampAt (thetaOf Mc eta chi1 chi2) (get_coeffs (thetaOf Mc eta chi1 chi2))
      (tfOf q (thetaOf Mc eta chi1 chi2)) D thr x / k := by
    intro thr
    unfold ampAt
    have e : k * D * m_per_Mpc / C = D * m_per_Mpc / C * k := by ring
    rw [e, div_mul_eq_div_div]
  rw [this]
  push_cast
  ring

/-- A coalescence-time shift multiplies each sample by exp(-2πi f dt) and a phase shift by exp(2i dphi), provided the
    grid does not reach the cutoff (for grids that do, see the next theorem). -/
theorem C31_time_phase (grid : List ℝ) (hne : grid ≠ [])
    (hl : ∀ x ∈ grid, x < fCut (thetaOf Mc eta chi1 chi2)) (dt dphi : ℝ) (j : ℕ) (hj : j < grid.length) :
    (gen_IMRPhenomD q grid [Mc, eta, chi1, chi2, D, tc + dt, phic + dphi] f_ref).getD j 0 =
      (gen_IMRPhenomD q grid [Mc, eta, chi1, chi2, D, tc, phic] f_ref).getD j 0 *
        Complex.exp (-2 * Real.pi * Complex.I * (grid.getD j 0 : ℝ) * dt) * Complex.exp (2 * Complex.I * dphi) := by
  have hlast := hl _ (Jnp.getD_mem (l := grid) (i := grid.length - 1) (by omega))
  rw [genD_eq, genD_eq, map_getElem hj, map_getElem hj, cutThr_uncut hne hlast, strainAt_below (hl _ (Jnp.getD_mem hj)),
    strainAt_below (hl _ (Jnp.getD_mem hj)), mul_assoc, mul_assoc, ← Complex.exp_add, ← Complex.exp_add]
  congr 2
  unfold psiAt
  simp only [PI]
  push_cast
  ring

/-- The same for grids reaching the cutoff, as long as no sample at or above the cut threshold lies at or below the
    last transition frequencies. -/
theorem C31_time_phase_cut (grid : List ℝ) (hinc : Increasing grid) (i : ℕ)
    (hl : fCut (thetaOf Mc eta chi1 chi2) ≤ grid.getD (grid.length - 1) 0)
    (hi : IsClosest grid (fCut (thetaOf Mc eta chi1 chi2)) i) (h0 : 0 < i)
    (h3 : (tfOf q (thetaOf Mc eta chi1 chi2)).f3 < grid.getD (i - 1) 0)
    (h4 : (tfOf q (thetaOf Mc eta chi1 chi2)).f4 < grid.getD (i - 1) 0)
    (dt dphi : ℝ) (j : ℕ) (hj : j < grid.length) :
    (gen_IMRPhenomD q grid [Mc, eta, chi1, chi2, D, tc + dt, phic + dphi] f_ref).getD j 0 =
      (gen_IMRPhenomD q grid [Mc, eta, chi1, chi2, D, tc, phic] f_ref).getD j 0 *
        Complex.exp (-2 * Real.pi * Complex.I * (grid.getD j 0 : ℝ) * dt) * Complex.exp (2 * Complex.I * dphi) := by
  rcases Nat.lt_or_ge j (i - 1) with h | h
  · have hx : grid.getD j 0 < grid.getD (i - 1) 0 := hinc _ _ h (by have := hi.1; omega)
    rw [genD_eq, genD_eq, map_getElem hj, map_getElem hj, cutThr_pos hi h0 hl, strainAt_below hx,
      strainAt_below hx, mul_assoc, mul_assoc, ← Complex.exp_add, ← Complex.exp_add]
    congr 2
    unfold psiAt
    simp only [PI]
    push_cast
    ring
  · have hle : grid.getD (i - 1) 0 ≤ grid.getD j 0 := by
      rcases Nat.lt_or_ge (i - 1) j with h' | h'
      · exact (hinc _ _ h' hj).le
      · rw [show i - 1 = j by omega]
    rw [C30_zeroed q Mc eta chi1 chi2 D (tc + dt) (phic + dphi) f_ref grid hinc i hl hi h0 j hj (by omega)
      (lt_of_lt_of_le h3 hle) (lt_of_lt_of_le h4 hle),
      C30_zeroed q Mc eta chi1 chi2 D tc phic f_ref grid hinc i hl hi h0 j hj (by omega)
      (lt_of_lt_of_le h3 hle) (lt_of_lt_of_le h4 hle)]
    simp

/-- Modulus is independent of tc, phic and f_ref for every grid. -/
theorem C31_modulus (grid : List ℝ) (tc' phic' f_ref' : ℝ) (j : ℕ) (hj : j < grid.length) :
    ‖(gen_IMRPhenomD q grid [Mc, eta, chi1, chi2, D, tc', phic'] f_ref').getD j 0‖ =
      ‖(gen_IMRPhenomD q grid [Mc, eta, chi1, chi2, D, tc, phic] f_ref).getD j 0‖ := by
  rw [genD_eq, genD_eq, map_getElem hj, map_getElem hj]
  unfold strainAt
  rw [norm_mul, norm_mul]
  congr 1
  have : ∀ p : ℝ, ‖Complex.exp (Complex.I * ((-p : ℝ) : ℂ))‖ = 1 := fun p => by
    rw [mul_comm]; exact Complex.norm_exp_ofReal_mul_I _
  rw [this, this]

/-! ### C32 reference phase -/

theorem C32_reference_phase (grid : List ℝ) (hne : grid ≠ []) (hl : ∀ x ∈ grid, x < fCut (thetaOf Mc eta chi1 chi2))
    (j : ℕ) (hj : j < grid.length) (hf : grid.getD j 0 = f_ref) (_h0 : 0 < f_ref) :
    ∃ a : ℝ, (gen_IMRPhenomD q grid [Mc, eta, chi1, chi2, D, 0, 0] f_ref).getD j 0 = (a : ℂ) ∧
      ∀ f_ref' : ℝ, ‖(gen_IMRPhenomD q grid [Mc, eta, chi1, chi2, D, 0, 0] f_ref').getD j 0‖ = |a| := by
  have hlast := hl _ (Jnp.getD_mem (l := grid) (i := grid.length - 1) (by omega))
  refine ⟨ampAt (thetaOf Mc eta chi1 chi2) (get_coeffs (thetaOf Mc eta chi1 chi2)) (tfOf q (thetaOf Mc eta chi1 chi2)) D
    (fCut (thetaOf Mc eta chi1 chi2)) f_ref, ?_, ?_⟩
  · rw [genD_eq, map_getElem hj, cutThr_uncut hne hlast, strainAt_below (hl _ (Jnp.getD_mem hj)), hf]
    have : psiAt (thetaOf Mc eta chi1 chi2) (get_coeffs (thetaOf Mc eta chi1 chi2)) (tfOf q (thetaOf Mc eta chi1 chi2))
        0 0 f_ref f_ref = 0 := by unfold psiAt; ring
    rw [this]; simp
  · intro f'
    rw [genD_eq, map_getElem hj, cutThr_uncut hne hlast, strainAt_below (hl _ (Jnp.getD_mem hj)), hf, norm_mul, mul_comm
      Complex.I, Complex.norm_exp_ofReal_mul_I]
    simp

/-! ### C33 locality -/

theorem C33_local (g1 g2 : List ℝ) (hn1 : g1 ≠ []) (hn2 : g2 ≠ [])
    (hl1 : g1.getD (g1.length - 1) 0 < fCut (thetaOf Mc eta chi1 chi2))
    (hl2 : g2.getD (g2.length - 1) 0 < fCut (thetaOf Mc eta chi1 chi2))
    (i j : ℕ) (hi : i < g1.length) (hj : j < g2.length) (hx : g1.getD i 0 = g2.getD j 0) :
    (gen_IMRPhenomD q g1 [Mc, eta, chi1, chi2, D, tc, phic] f_ref).getD i 0 =
      (gen_IMRPhenomD q g2 [Mc, eta, chi1, chi2, D, tc, phic] f_ref).getD j 0 := by
  rw [genD_eq, genD_eq, map_getElem hi, map_getElem hj, cutThr_uncut hn1 hl1, cutThr_uncut hn2 hl2, hx]

/-- A grid that reaches the cutoff is not evaluated pointwise: any frequency x between the last transition frequency
    and the cutoff has a non-zero sample on the grid [x] and a zero sample on the grid [x, f_cut]. -/
theorem C33_not_local (x : ℝ) (hx0 : 0 < x) (hMc : 0 < Mc) (he : 0 < eta) (he' : eta ≤ 1 / 4) (hD : 0 < D)
    (hg1 : 0 < get_coeffs (thetaOf Mc eta chi1 chi2) 4) (hg3 : 0 < get_coeffs (thetaOf Mc eta chi1 chi2) 6)
    (hd : 0 < (tfOf q (thetaOf Mc eta chi1 chi2)).f_damp)
    (h3 : (tfOf q (thetaOf Mc eta chi1 chi2)).f3 < x) (h4 : (tfOf q (thetaOf Mc eta chi1 chi2)).f4 < x)
    (hx : x < fCut (thetaOf Mc eta chi1 chi2)) :
    (gen_IMRPhenomD q [x] [Mc, eta, chi1, chi2, D, tc, phic] f_ref).getD 0 0 ≠ 0 ∧
    (gen_IMRPhenomD q [x, fCut (thetaOf Mc eta chi1 chi2)] [Mc, eta, chi1, chi2, D, tc, phic] f_ref).getD 0 0 = 0 := by
  have hm := C02_masses_ordered Mc eta hMc he he'
  set c := fCut (thetaOf Mc eta chi1 chi2) with hc
  constructor
  · rw [genD_eq, map_getElem (by simp), cutThr_uncut (by simp) (by simpa using hx)]
    rw [strainAt_below (by simpa using hx)]
    refine mul_ne_zero ?_ (Complex.exp_ne_zero _)
    have := lor_pos_amp (D := D) (coeffs := get_coeffs (thetaOf Mc eta chi1 chi2)) (theta := thetaOf Mc eta chi1 chi2)
      (tf := tfOf q (thetaOf Mc eta chi1 chi2)) (lt_of_lt_of_le hm.1 hm.2.1) hm.1 hd hg1 hg3 hD hx hx0 h3 h4
    exact_mod_cast this.ne'
  · have hi : IsClosest [x, c] c 1 := by
      refine ⟨by simp, fun j _ => by simp, fun j hj => ?_⟩
      have : j = 0 := by omega
      subst this
      simpa using sub_ne_zero.2 hx.ne
    have hinc : Increasing [x, c] := by
      intro i j hij hj
      simp only [List.length_cons, List.length_nil] at hj
      have : i = 0 ∧ j = 1 := by omega
      obtain ⟨rfl, rfl⟩ := this
      simpa using hx
    exact C30_zeroed q Mc eta chi1 chi2 D tc phic f_ref [x, c] hinc 1 (by simp [← hc]) (by rw [← hc]; exact hi)
      (by omega) 0 (by simp) (by omega) (by simpa using h3) (by simpa using h4)

/-! ### C34 total mass scaling -/

theorem C34_scaling (grid : List ℝ) (k : ℝ) (hk : 0 < k) :
    gen_IMRPhenomD q (grid.map fun x => x / k) [k * Mc, eta, chi1, chi2, D, k * tc, phic] (f_ref / k) =
      (gen_IMRPhenomD q grid [Mc, eta, chi1, chi2, D, tc, phic] f_ref).map fun h => (k : ℂ) ^ 2 * h := by
  have ht : thetaOf (k * Mc) eta chi1 chi2 = scaleMass k (thetaOf Mc eta chi1 chi2) := by
    unfold thetaOf scaleMass; rw [sc_Mc hk]
  have hc : fCut (scaleMass k (thetaOf Mc eta chi1 chi2)) = fCut (thetaOf Mc eta chi1 chi2) / k := by
    rw [fCut_eq, fCut_eq, sc_Ms hk, mul_comm, div_mul_eq_div_div]
  have htf : tfOf q (scaleMass k (thetaOf Mc eta chi1 chi2)) = scaleTF k (tfOf q (thetaOf Mc eta chi1 chi2)) := by
    unfold tfOf; rw [sc_trans hk, sc_coeffs hk]
  rw [genD_eq, genD_eq, List.map_map, List.map_map, ht, hc, htf, cutThr_scale hk, sc_coeffs hk]
  refine List.map_congr_left fun x _ => ?_
  simp only [Function.comp]
  exact sc_strainAt hk _ _ _ _ _ _ _ _ _

/-! ### C35, C36 polarisations of PhenomD -/

/-- hp = h0 (1+cos²ι)/2 and hc = −i h0 cos ι with h0 the strain for the same parameters. -/
theorem C35_D (grid : List ℝ) (iota : ℝ) :
    let h := gen_IMRPhenomD q grid [Mc, eta, chi1, chi2, D, tc, phic] f_ref
    gen_IMRPhenomD_hphc q grid [Mc, eta, chi1, chi2, D, tc, phic, iota] f_ref =
      (h.map fun z => (((1 + Real.cos iota ^ 2) / 2 : ℝ) : ℂ) * z,
       h.map fun z => -(Complex.I * z * (Real.cos iota : ℂ))) := by
  have i7 : Jnp.index [Mc, eta, chi1, chi2, D, tc, phic, iota] 7 = iota :=
    Jnp.index_nat (i := 7) (by simp)
  have hg : gen_IMRPhenomD q grid [Mc, eta, chi1, chi2, D, tc, phic, iota] f_ref =
      gen_IMRPhenomD q grid [Mc, eta, chi1, chi2, D, tc, phic] f_ref := by rw [genD_eq, genD_eq]
  intro h
  unfold gen_IMRPhenomD_hphc
  simp only [i7, hg]
  congr 1
  · refine List.map_congr_left fun z _ => ?_
    push_cast; ring
  · refine List.map_congr_left fun z _ => ?_
    ring

/-- Called with the seven-element parameter vector (inclination forgotten) the function does not fail: it returns the
    polarisations for an inclination equal to phic. -/
theorem C36_D (grid : List ℝ) :
    gen_IMRPhenomD_hphc q grid [Mc, eta, chi1, chi2, D, tc, phic] f_ref =
      gen_IMRPhenomD_hphc q grid [Mc, eta, chi1, chi2, D, tc, phic, phic] f_ref := by
  have i7 : Jnp.index [Mc, eta, chi1, chi2, D, tc, phic] 7 = phic := by
    simp [Jnp.index]
  have i7' : Jnp.index [Mc, eta, chi1, chi2, D, tc, phic, phic] 7 = phic :=
    Jnp.index_nat (i := 7) (by simp)
  unfold gen_IMRPhenomD_hphc
  simp only [i7, i7']
  rw [genD_eq, genD_eq]

end
end Ripple
