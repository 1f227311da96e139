/-
  Helper lemmas about the PhenomD generator: samplewise form.
-/
import Verif.Proofs.PhenomD
import Verif.Proofs.Index
import Verif.Spec.Grid

namespace Ripple
namespace PhenomD

/-- total mass in seconds -/
noncomputable def Ms (theta : Theta) : ℝ := theta.m1 * gt + theta.m2 * gt

lemma Ms_eq (theta : Theta) : (theta.m1 + theta.m2) * gt = Ms theta := by unfold Ms; ring

/-- the grid dependent cut threshold `fcut_true` -/
noncomputable def cutThr (grid : List ℝ) (c : ℝ) : ℝ :=
  if c > Jnp.index grid (-1) then c
  else Jnp.index grid ((Jnp.argmin (grid.map fun x => |x - c|) : ℤ) - 1)

/-- the amplitude at frequency `x` with threshold `thr` -/
noncomputable def ampAt (theta : Theta) (coeffs : Fin 19 → ℝ) (tf : TransFreqs) (D thr x : ℝ) : ℝ :=
  get_Amp0 (x * Ms theta) (theta.m1 * gt * (theta.m2 * gt) / Ms theta ^ 2) * (2 * Real.sqrt (5 / (64 * PI))) *
    (get_inspiral_Amp (x * Ms theta) theta coeffs * Jnp.heaviside (tf.f3 - x) 0.5
      + Jnp.heaviside (x - tf.f3) 0.5 * get_IIa_Amp (x * Ms theta) theta coeffs tf.f3 tf.f4 tf.f_RD tf.f_damp
        * Jnp.heaviside (tf.f4 - x) 0.5
      + Jnp.heaviside (x - tf.f4) 0.5 * get_IIb_Amp (x * Ms theta) theta coeffs tf.f_RD tf.f_damp
        * Jnp.heaviside (thr - x) 0
      + 0 * Jnp.heaviside (x - thr) 1) * Ms theta ^ 2 / (D * m_per_Mpc / C)

/-- the phase at frequency `x`, before the cut -/
noncomputable def psiAt (theta : Theta) (coeffs : Fin 19 → ℝ) (tf : TransFreqs) (tc phic f_ref x : ℝ) : ℝ :=
  Phase x theta coeffs tf
    - (deriv (fun y => get_IIb_raw_phase y theta coeffs tf.f_RD tf.f_damp) (tf.f4 * Ms theta)
        * (x * Ms theta - f_ref * Ms theta) + Phase f_ref theta coeffs tf)
    + (2 * PI * x * tc - 2 * phic)

/-- the strain at frequency `x` with threshold `thr` -/
noncomputable def strainAt (theta : Theta) (coeffs : Fin 19 → ℝ) (tf : TransFreqs) (D tc phic f_ref thr x : ℝ) : ℂ :=
  (ampAt theta coeffs tf D thr x : ℂ) * Complex.exp (Complex.I * (-(psiAt theta coeffs tf tc phic f_ref x
      * Jnp.heaviside (thr - x) 0 + 2 * PI * Jnp.heaviside (x - thr) 1) : ℝ))

lemma Amp_eq (grid : List ℝ) (theta : Theta) (coeffs : Fin 19 → ℝ) (tf : TransFreqs) (D : ℝ) :
    Amp grid theta coeffs tf D = grid.map (ampAt theta coeffs tf D (cutThr grid (fM_CUT / Ms theta))) := rfl

lemma gen_eq (q : QNM) (grid : List ℝ) (theta : Theta) (D tc phic : ℝ) (coeffs : Fin 19 → ℝ) (f_ref : ℝ) :
    _gen_IMRPhenomD q grid theta D tc phic coeffs f_ref =
      grid.map (strainAt theta coeffs (get_transition_frequencies q theta (coeffs 5) (coeffs 6)) D tc phic f_ref
        (cutThr grid (fM_CUT / Ms theta))) := by
  unfold _gen_IMRPhenomD
  simp only [Amp_eq, Ms_eq, List.zipWith_map, List.zipWith_self]
  rfl

lemma ampAt_below {theta : Theta} {coeffs : Fin 19 → ℝ} {tf : TransFreqs} {D thr thr' x : ℝ} (h : x < thr)
    (h' : x < thr') : ampAt theta coeffs tf D thr x = ampAt theta coeffs tf D thr' x := by
  unfold ampAt
  rw [Jnp.heaviside_pos (x := thr - x) (by linarith), Jnp.heaviside_pos (x := thr' - x) (by linarith)]
  ring

lemma ampAt_cut {theta : Theta} {coeffs : Fin 19 → ℝ} {tf : TransFreqs} {D thr x : ℝ} (h : thr ≤ x)
    (h3 : tf.f3 < x) (h4 : tf.f4 < x) : ampAt theta coeffs tf D thr x = 0 := by
  unfold ampAt
  have : Jnp.heaviside (thr - x) 0 = 0 := by
    rcases h.lt_or_eq with h | h
    · exact Jnp.heaviside_neg (by linarith)
    · rw [h, sub_self, Jnp.heaviside_zero]
  rw [this, Jnp.heaviside_neg (x := tf.f3 - x) (by linarith), Jnp.heaviside_neg (x := tf.f4 - x) (by linarith)]
  simp

lemma strainAt_below {theta : Theta} {coeffs : Fin 19 → ℝ} {tf : TransFreqs} {D tc phic f_ref thr x : ℝ} (h : x < thr) :
    strainAt theta coeffs tf D tc phic f_ref thr x =
      (ampAt theta coeffs tf D thr x : ℂ) * Complex.exp (Complex.I * (-(psiAt theta coeffs tf tc phic f_ref x) : ℝ)) := by
  unfold strainAt
  rw [Jnp.heaviside_pos (x := thr - x) (by linarith), Jnp.heaviside_neg (x := x - thr) (by linarith)]
  simp

lemma strainAt_below_eq {theta : Theta} {coeffs : Fin 19 → ℝ} {tf : TransFreqs} {D tc phic f_ref thr thr' x : ℝ}
    (h : x < thr) (h' : x < thr') :
    strainAt theta coeffs tf D tc phic f_ref thr x = strainAt theta coeffs tf D tc phic f_ref thr' x := by
  rw [strainAt_below h, strainAt_below h', ampAt_below h h']

/-- at and above the threshold the phase is dropped -/
lemma strainAt_above {theta : Theta} {coeffs : Fin 19 → ℝ} {tf : TransFreqs} {D tc phic f_ref thr x : ℝ}
    (h : thr ≤ x) : strainAt theta coeffs tf D tc phic f_ref thr x = (ampAt theta coeffs tf D thr x : ℂ) := by
  unfold strainAt
  have h1 : Jnp.heaviside (thr - x) 0 = 0 := by
    rcases h.lt_or_eq with h | h
    · exact Jnp.heaviside_neg (by linarith)
    · rw [h, sub_self, Jnp.heaviside_zero]
  have h2 : Jnp.heaviside (x - thr) 1 = 1 := by
    rcases h.lt_or_eq with h | h
    · exact Jnp.heaviside_pos (by linarith)
    · rw [h, sub_self, Jnp.heaviside_zero]
  rw [h1, h2]
  have : Complex.I * ((-(psiAt theta coeffs tf tc phic f_ref x * 0 + 2 * PI * 1) : ℝ) : ℂ) =
      -(2 * Real.pi * Complex.I) := by
    simp only [PI]; push_cast; ring
  rw [this, Complex.exp_neg, Complex.exp_two_pi_mul_I]
  simp

lemma cutThr_uncut {grid : List ℝ} {c : ℝ} (hne : grid ≠ []) (h : grid.getD (grid.length - 1) 0 < c) :
    cutThr grid c = c := by
  unfold cutThr
  rw [Jnp.index_last hne, if_pos h]

lemma argmin_closest {grid : List ℝ} {c : ℝ} {i : ℕ} (h : IsClosest grid c i) :
    Jnp.argmin (grid.map fun x => |x - c|) = i := by
  obtain ⟨h1, h2, h3⟩ := h
  have e : ∀ j, j < grid.length → (grid.map fun x => |x - c|).getD j 0 = |grid.getD j 0 - c| :=
    fun j hj => Jnp.getD_map_abs grid (fun x => |x - c|) hj
  refine Jnp.argmin_unique (by simpa using h1) ?_ ?_
  · intro j hj
    rw [e i h1, e j (by simpa using hj)]; exact h2 j (by simpa using hj)
  · intro j hj
    rw [e i h1, e j (by omega)]; exact h3 j hj

lemma cutThr_pos {grid : List ℝ} {c : ℝ} {i : ℕ} (h : IsClosest grid c i) (hi : 0 < i)
    (hl : c ≤ grid.getD (grid.length - 1) 0) : cutThr grid c = grid.getD (i - 1) 0 := by
  have hne : grid ≠ [] := by rintro rfl; have := h.1; simp at this
  unfold cutThr
  rw [Jnp.index_last hne, if_neg (not_lt.2 hl), argmin_closest h, Jnp.index_pred h.1 hi]

lemma cutThr_wrap {grid : List ℝ} {c : ℝ} (h : IsClosest grid c 0)
    (hl : c ≤ grid.getD (grid.length - 1) 0) : cutThr grid c = grid.getD (grid.length - 1) 0 := by
  have hne : grid ≠ [] := by rintro rfl; have := h.1; simp at this
  unfold cutThr
  rw [Jnp.index_last hne, if_neg (not_lt.2 hl), argmin_closest h]
  simpa using Jnp.index_last hne

lemma exists_closest {grid : List ℝ} (hne : grid ≠ []) (c : ℝ) : ∃ i, IsClosest grid c i := by
  have hm : (grid.map fun x => |x - c|) ≠ [] := by simpa using hne
  have hlt := Jnp.argmin_lt hm
  rw [List.length_map] at hlt
  obtain ⟨a1, a2⟩ := Jnp.argmin_spec (grid.map fun x => |x - c|)
  have e : ∀ j, j < grid.length → (grid.map fun x => |x - c|).getD j 0 = |grid.getD j 0 - c| :=
    fun j hj => Jnp.getD_map_abs grid (fun x => |x - c|) hj
  refine ⟨_, hlt, fun j hj => ?_, fun j hj => ?_⟩
  · rw [← e _ hlt, ← e j hj]; exact a1 j (by simpa using hj)
  · rw [← e _ hlt, ← e j (by omega)]; exact a2 j hj

lemma map_getElem {g : ℝ → ℂ} {grid : List ℝ} {j : ℕ} (hj : j < grid.length) :
    (grid.map g).getD j 0 = g (grid.getD j 0) := by
  rw [List.getD_eq_getElem _ _ (by simpa using hj), List.getD_eq_getElem _ _ hj]
  simp

lemma lor_pos_amp {theta : Theta} {coeffs : Fin 19 → ℝ} {tf : TransFreqs} {D thr x : ℝ}
    (h1 : 0 < theta.m1) (h2 : 0 < theta.m2) (hd : 0 < tf.f_damp) (hg1 : 0 < coeffs 4) (hg3 : 0 < coeffs 6)
    (hD : 0 < D) (h : x < thr) (h0 : 0 < x)
    (h3 : tf.f3 < x) (h4 : tf.f4 < x) : 0 < ampAt theta coeffs tf D thr x := by
  have hg := gt_pos
  have hk : 0 < Ms theta := by unfold Ms; positivity
  have hm := m_per_Mpc_pos
  have hC := C_pos
  have hp := PI_pos
  unfold ampAt
  rw [Jnp.heaviside_neg (x := tf.f3 - x) (by linarith), Jnp.heaviside_neg (x := tf.f4 - x) (by linarith),
    Jnp.heaviside_pos (x := x - tf.f4) (by linarith), Jnp.heaviside_pos (x := thr - x) (by linarith)]
  have hB : 0 < get_IIb_Amp (x * Ms theta) theta coeffs tf.f_RD tf.f_damp := by
    unfold get_IIb_Amp
    simp only
    have : 0 < tf.f_damp * (theta.m1 * gt + theta.m2 * gt) * coeffs 6 := by positivity
    positivity
  have hA : 0 < get_Amp0 (x * Ms theta) (theta.m1 * gt * (theta.m2 * gt) / Ms theta ^ 2) := by
    unfold get_Amp0
    simp only
    positivity
  have e : get_inspiral_Amp (x * Ms theta) theta coeffs * 0 + Jnp.heaviside (x - tf.f3) 0.5 *
      get_IIa_Amp (x * Ms theta) theta coeffs tf.f3 tf.f4 tf.f_RD tf.f_damp * 0 +
      1 * get_IIb_Amp (x * Ms theta) theta coeffs tf.f_RD tf.f_damp * 1 + 0 * Jnp.heaviside (x - thr) 1 =
      get_IIb_Amp (x * Ms theta) theta coeffs tf.f_RD tf.f_damp := by ring
  rw [e]
  positivity

end PhenomD
end Ripple
