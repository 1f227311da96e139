/-
  Helper lemmas about the NRTidalv2 generator: samplewise form, positivity of the fits.
-/
import Verif.Model.NRTidalv2
import Verif.Proofs.PhenomDGen

namespace Ripple
namespace NRTidalv2
open Tidal PhenomD

/-- the black-hole part of the parameters -/
def bbh (t : ThetaT) : Theta := ⟨t.m1, t.m2, t.chi1, t.chi2⟩

/-- frequency variable -/
noncomputable def xAt (t : ThetaT) (f : ℝ) : ℝ := (PI * Ms (bbh t) * f) ^ ((2 : ℝ) / 3)

/-- taper factor -/
noncomputable def taperAt (t : ThetaT) (no_taper : Bool) (f : ℝ) : ℝ :=
  if no_taper then 1 else finPart (get_planck_taper f (_get_merger_frequency t (get_kappa t)))

/-- phase added to the black-hole phase -/
noncomputable def extraPhase (t : ThetaT) (f : ℝ) : ℝ :=
  get_tidal_phase (xAt t f) t (get_kappa t) + get_spin_phase_correction (xAt t f) t

/-- the strain at frequency `f`, with cut threshold `thr` -/
noncomputable def nrStrain (q : QNM) (t : ThetaT) (D tc phic f_ref : ℝ) (no_taper : Bool) (thr f : ℝ) : ℂ :=
  let tf := get_transition_frequencies q (bbh t) (get_coeffs (bbh t) 5) (get_coeffs (bbh t) 6)
  ((taperAt t no_taper f * (ampAt (bbh t) (get_coeffs (bbh t)) tf D thr f
      + get_tidal_amplitude (xAt t f) t (get_kappa t) D) : ℝ) : ℂ) *
    Complex.exp (Complex.I * (-((psiAt (bbh t) (get_coeffs (bbh t)) tf tc phic f_ref f
      * Jnp.heaviside (thr - f) 0 + 2 * PI * Jnp.heaviside (f - thr) 1) + extraPhase t f) : ℝ))

lemma gen_eq (q : QNM) (grid : List ℝ) (t : ThetaT) (D tc phic f_ref : ℝ) (nt : Bool) :
    _gen_IMRPhenomD_NRTidalv2 grid t D
      (Amp grid (bbh t) (get_coeffs (bbh t))
        (get_transition_frequencies q (bbh t) (get_coeffs (bbh t) 5) (get_coeffs (bbh t) 6)) D)
      (grid.map fun f =>
        psiAt (bbh t) (get_coeffs (bbh t))
          (get_transition_frequencies q (bbh t) (get_coeffs (bbh t) 5) (get_coeffs (bbh t) 6)) tc phic f_ref f
          * Jnp.heaviside (cutThr grid (fM_CUT / Ms (bbh t)) - f) 0
          + 2 * PI * Jnp.heaviside (f - cutThr grid (fM_CUT / Ms (bbh t))) 1) nt =
      grid.map (nrStrain q t D tc phic f_ref nt (cutThr grid (fM_CUT / Ms (bbh t)))) := by
  unfold _gen_IMRPhenomD_NRTidalv2
  cases nt <;>
  · simp only [Amp_eq, List.map_map, List.zipWith_map, List.zipWith_self, if_true, Bool.false_eq_true, if_false]
    refine List.map_congr_left fun f _ => ?_
    simp only [nrStrain, Function.comp, taperAt, extraPhase, xAt, if_true, Bool.false_eq_true, if_false, add_assoc]
    rfl

end NRTidalv2
end Ripple
