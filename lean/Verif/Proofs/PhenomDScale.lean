/-
  Total-mass scaling of the PhenomD model.
-/
import Verif.Proofs.PhenomDGen
import Verif.Proofs.Conversions

namespace Ripple
namespace PhenomD
set_option linter.unusedSectionVars false

/-- scale both masses -/
def scaleMass (k : ℝ) (theta : Theta) : Theta := ⟨k * theta.m1, k * theta.m2, theta.chi1, theta.chi2⟩

/-- scale all transition frequencies by 1/k -/
noncomputable def scaleTF (k : ℝ) (tf : TransFreqs) : TransFreqs :=
  ⟨tf.f1 / k, tf.f2 / k, tf.f3 / k, tf.f4 / k, tf.f_RD / k, tf.f_damp / k⟩

section
variable {k : ℝ} (hk : 0 < k)
include hk

lemma sc_eta (a b : ℝ) : k * a * gt * (k * b * gt) / (k * a * gt + k * b * gt) ^ 2 =
    a * gt * (b * gt) / (a * gt + b * gt) ^ 2 := by
  have e1 : k * a * gt * (k * b * gt) = k ^ 2 * (a * gt * (b * gt)) := by ring
  have e2 : (k * a * gt + k * b * gt) ^ 2 = k ^ 2 * (a * gt + b * gt) ^ 2 := by ring
  rw [e1, e2, mul_div_mul_left _ _ (pow_ne_zero 2 hk.ne')]

lemma sc_m1 (a b : ℝ) : k * a * gt / (k * a * gt + k * b * gt) = a * gt / (a * gt + b * gt) := by
  have e1 : k * a * gt = k * (a * gt) := by ring
  have e2 : k * a * gt + k * b * gt = k * (a * gt + b * gt) := by ring
  rw [e2, e1, mul_div_mul_left _ _ hk.ne']

lemma sc_m2 (a b : ℝ) : k * b * gt / (k * a * gt + k * b * gt) = b * gt / (a * gt + b * gt) := by
  rw [add_comm, sc_m1 hk, add_comm]

lemma sc_S (a b c d : ℝ) : (c * (k * a * gt) ^ 2 + d * (k * b * gt) ^ 2) / (k * a * gt + k * b * gt) ^ 2 =
    (c * (a * gt) ^ 2 + d * (b * gt) ^ 2) / (a * gt + b * gt) ^ 2 := by
  have e1 : c * (k * a * gt) ^ 2 + d * (k * b * gt) ^ 2 = k ^ 2 * (c * (a * gt) ^ 2 + d * (b * gt) ^ 2) := by ring
  have e2 : (k * a * gt + k * b * gt) ^ 2 = k ^ 2 * (a * gt + b * gt) ^ 2 := by ring
  rw [e1, e2, mul_div_mul_left _ _ (pow_ne_zero 2 hk.ne')]

lemma sc_Ms (theta : Theta) : Ms (scaleMass k theta) = k * Ms theta := by unfold Ms scaleMass; ring

lemma sc_phase_coeffs (theta : Theta) :
    get_inspiral_phase_coeffs (scaleMass k theta) = get_inspiral_phase_coeffs theta := by
  unfold get_inspiral_phase_coeffs scaleMass
  simp only [sc_eta hk, sc_m1 hk, sc_m2 hk]

lemma sc_inspiral_phase (x : ℝ) (theta : Theta) (c : Fin 19 → ℝ) :
    get_inspiral_phase x (scaleMass k theta) c = get_inspiral_phase x theta c := by
  unfold get_inspiral_phase phi_TF2
  rw [sc_phase_coeffs hk]
  simp only [scaleMass, sc_eta hk]

lemma sc_IIa_raw (x : ℝ) (theta : Theta) (c : Fin 19 → ℝ) :
    get_IIa_raw_phase x (scaleMass k theta) c = get_IIa_raw_phase x theta c := by
  unfold get_IIa_raw_phase
  simp only [scaleMass, sc_eta hk]

lemma sc_mul (a b c : ℝ) : a / k * (k * b * gt + k * c * gt) = a * (b * gt + c * gt) := by
  field_simp

lemma sc_IIb_raw (x : ℝ) (theta : Theta) (c : Fin 19 → ℝ) (fr fd : ℝ) :
    get_IIb_raw_phase x (scaleMass k theta) c (fr / k) (fd / k) = get_IIb_raw_phase x theta c fr fd := by
  unfold get_IIb_raw_phase
  simp only [scaleMass, sc_eta hk, sc_mul hk]

lemma sc_Amp_coeffs (theta : Theta) :
    get_inspiral_Amp_coeffs (scaleMass k theta) = get_inspiral_Amp_coeffs theta := by
  unfold get_inspiral_Amp_coeffs scaleMass
  simp only [sc_eta hk]

lemma sc_inspiral_Amp (x : ℝ) (theta : Theta) (c : Fin 19 → ℝ) :
    get_inspiral_Amp x (scaleMass k theta) c = get_inspiral_Amp x theta c := by
  unfold get_inspiral_Amp
  rw [sc_Amp_coeffs hk]

lemma sc_IIb_Amp (x : ℝ) (theta : Theta) (c : Fin 19 → ℝ) (fr fd : ℝ) :
    get_IIb_Amp x (scaleMass k theta) c (fr / k) (fd / k) = get_IIb_Amp x theta c fr fd := by
  unfold get_IIb_Amp
  simp only [scaleMass, sc_mul hk]

lemma sc_IIa_Amp (x : ℝ) (theta : Theta) (c : Fin 19 → ℝ) (f1 f3 fr fd : ℝ) :
    get_IIa_Amp x (scaleMass k theta) c (f1 / k) (f3 / k) (fr / k) (fd / k) =
      get_IIa_Amp x theta c f1 f3 fr fd := by
  unfold get_IIa_Amp
  have e : (f1 / k + f3 / k) / 2 = (f1 + f3) / 2 / k := by ring
  simp only [sc_inspiral_Amp hk, sc_IIb_Amp hk, e]
  simp only [scaleMass, sc_mul hk]

lemma sc_heaviside (a b h : ℝ) : Jnp.heaviside (a / k - b / k) h = Jnp.heaviside (a - b) h := by
  have e : a / k - b / k = (a - b) / k := by ring
  rw [e]
  rcases lt_trichotomy (a - b) 0 with h' | h' | h'
  · rw [Jnp.heaviside_neg h', Jnp.heaviside_neg (div_neg_of_neg_of_pos h' hk)]
  · rw [h', zero_div]
  · rw [Jnp.heaviside_pos h', Jnp.heaviside_pos (div_pos h' hk)]

lemma sc_coeffs (theta : Theta) : get_coeffs (scaleMass k theta) = get_coeffs theta := by
  unfold get_coeffs
  simp only [scaleMass, sc_eta hk]

lemma sc_Phase (x : ℝ) (theta : Theta) (c : Fin 19 → ℝ) (tf : TransFreqs) :
    Phase (x / k) (scaleMass k theta) c (scaleTF k tf) = Phase x theta c tf := by
  unfold Phase
  simp only [scaleTF, sc_inspiral_phase hk, sc_IIa_raw hk, sc_IIb_raw hk, sc_heaviside hk]
  simp only [scaleMass, sc_mul hk]

lemma sc_fRD (q : QNM) (m1 m2 c1 c2 : ℝ) : get_fRD_fdamp q (k * m1) (k * m2) c1 c2 =
    ((get_fRD_fdamp q m1 m2 c1 c2).1 / k, (get_fRD_fdamp q m1 m2 c1 c2).2 / k) := by
  unfold get_fRD_fdamp
  have e : k * m1 * gt + k * m2 * gt = (m1 * gt + m2 * gt) * k := by ring
  simp only [sc_eta hk, sc_S hk]
  simp only [e, div_mul_eq_div_div]

lemma sc_trans (q : QNM) (theta : Theta) (g2 g3 : ℝ) :
    get_transition_frequencies q (scaleMass k theta) g2 g3 = scaleTF k (get_transition_frequencies q theta g2 g3) := by
  have habs : ∀ z : ℝ, |z / k| = |z| / k := fun z => by rw [abs_div, abs_of_pos hk]
  have e : (k * theta.m1 + k * theta.m2) * gt = (theta.m1 + theta.m2) * gt * k := by ring
  unfold get_transition_frequencies scaleTF
  simp only [scaleMass, sc_fRD hk, e, div_mul_eq_div_div]
  ext <;> simp only []
  · ring
  · split_ifs
    · rw [← habs]; congr 1; ring
    · rw [← habs]; congr 1; ring

lemma argmin_scale (l : List ℝ) : Jnp.argmin (l.map fun x => x / k) = Jnp.argmin l := by
  induction l with
  | nil => rfl
  | cons a l ih =>
    cases l with
    | nil => rfl
    | cons b l =>
      simp only [List.map_cons, Jnp.argmin] at ih ⊢
      rw [ih]
      have e : (b / k :: List.map (fun x => x / k) l).getD (Jnp.argmin (b :: l)) 0 =
          (b :: l).getD (Jnp.argmin (b :: l)) 0 / k := by
        have h := Jnp.getD_map_abs (b :: l) (fun x => x / k) (Jnp.argmin_lt (l := b :: l) (by simp))
        simpa only [List.map_cons] using h
      rw [e]
      exact if_congr (div_le_div_iff_of_pos_right hk) rfl rfl

lemma index_scale (l : List ℝ) (i : ℤ) : Jnp.index (l.map fun x => x / k) i = Jnp.index l i / k := by
  unfold Jnp.index
  simp only [List.length_map]
  rw [List.getD_eq_getElem?_getD, List.getD_eq_getElem?_getD, List.getElem?_map]
  cases h : l[(min (max (if i < 0 then i + (l.length : ℤ) else i) 0) ((l.length : ℤ) - 1)).toNat]? with
  | none =>
    show (0 : ℝ) = 0 / k
    rw [zero_div]
  | some v => simp

lemma cutThr_scale (grid : List ℝ) (c : ℝ) : cutThr (grid.map fun x => x / k) (c / k) = cutThr grid c / k := by
  unfold cutThr
  rw [index_scale hk, index_scale hk]
  have e : (grid.map fun x => x / k).map (fun x => |x - c / k|) = (grid.map fun x => |x - c|).map fun x => x / k := by
    rw [List.map_map, List.map_map]
    refine List.map_congr_left fun x _ => ?_
    simp only [Function.comp]
    rw [← sub_div, abs_div, abs_of_pos hk]
  rw [e, argmin_scale hk]
  have : (c / k > Jnp.index grid (-1) / k) ↔ (c > Jnp.index grid (-1)) := div_lt_div_iff_of_pos_right hk
  simp only [this]
  split_ifs <;> rfl

lemma sc_ampAt (theta : Theta) (c : Fin 19 → ℝ) (tf : TransFreqs) (D thr x : ℝ) :
    ampAt (scaleMass k theta) c (scaleTF k tf) D (thr / k) (x / k) = k ^ 2 * ampAt theta c tf D thr x := by
  unfold ampAt
  have e : x / k * (k * Ms theta) = x * Ms theta := by field_simp
  have e2 : (scaleMass k theta).m1 * gt * ((scaleMass k theta).m2 * gt) / (k * Ms theta) ^ 2 =
      theta.m1 * gt * (theta.m2 * gt) / Ms theta ^ 2 := by
    have := sc_eta hk theta.m1 theta.m2
    have e3 : k * Ms theta = k * theta.m1 * gt + k * theta.m2 * gt := by unfold Ms; ring
    rw [e3]; exact this
  rw [sc_Ms hk, e, e2]
  simp only [scaleTF, sc_inspiral_Amp hk, sc_IIa_Amp hk, sc_IIb_Amp hk, sc_heaviside hk]
  ring

lemma sc_psiAt (theta : Theta) (c : Fin 19 → ℝ) (tf : TransFreqs) (tc phic f_ref x : ℝ) :
    psiAt (scaleMass k theta) c (scaleTF k tf) (k * tc) phic (f_ref / k) (x / k) =
      psiAt theta c tf tc phic f_ref x := by
  unfold psiAt
  rw [sc_Phase hk, sc_Phase hk, sc_Ms hk]
  simp only [scaleTF, sc_IIb_raw hk]
  have e : ∀ z : ℝ, z / k * (k * Ms theta) = z * Ms theta := fun z => by field_simp
  rw [e, e, e]
  have : 2 * PI * (x / k) * (k * tc) = 2 * PI * x * tc := by field_simp
  rw [this]

lemma sc_strainAt (theta : Theta) (c : Fin 19 → ℝ) (tf : TransFreqs) (D tc phic f_ref thr x : ℝ) :
    strainAt (scaleMass k theta) c (scaleTF k tf) D (k * tc) phic (f_ref / k) (thr / k) (x / k) =
      (k : ℂ) ^ 2 * strainAt theta c tf D tc phic f_ref thr x := by
  unfold strainAt
  rw [sc_ampAt hk, sc_psiAt hk, sc_heaviside hk, sc_heaviside hk]
  push_cast
  ring

lemma sc_Mc (Mc eta : ℝ) : Mc_eta_to_ms (k * Mc) eta = (k * (Mc_eta_to_ms Mc eta).1, k * (Mc_eta_to_ms Mc eta).2) := by
  unfold Mc_eta_to_ms
  simp only
  have e : k * Mc / eta ^ ((3 : ℝ) / 5) = k * (Mc / eta ^ ((3 : ℝ) / 5)) := by ring
  set M := Mc / eta ^ ((3 : ℝ) / 5)
  have e2 : (k * M) ^ 2 - 4 * (k * M) ^ 2 * eta = k ^ 2 * (M ^ 2 - 4 * M ^ 2 * eta) := by ring
  rw [e, e2, Real.sqrt_mul (by positivity), Real.sqrt_sq hk.le]
  ext <;> simp only [] <;> ring

end
end PhenomD
end Ripple
