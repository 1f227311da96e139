/-
  Properties C72 and C73: dispatch of FD_waveform_generator and the conventions of its parameter vectors.
-/
import Verif.Model.FDWaveform
import Verif.Props.Conversions

namespace Ripple
open FD

/-- each registered name calls its generator -/
theorem C72_dispatch (Q : QNM) (fs theta : List ℝ) (f_ref : ℝ) :
    generate_waveform Q "XAS" fs theta f_ref = .ok (XAS.gen_IMRPhenomXAS_hphc fs theta f_ref) ∧
    generate_waveform Q "D" fs theta f_ref = .ok (PhenomD.gen_IMRPhenomD_hphc Q fs theta f_ref) ∧
    generate_waveform Q "D_NRTidalv2" fs theta f_ref =
      .ok (NRTidalv2.gen_IMRPhenomD_NRTidalv2_hphc Q fs theta f_ref true false) ∧
    generate_waveform Q "Pv2" fs theta f_ref = Pv2.gen_IMRPhenomPv2 Q fs theta f_ref := by
  refine ⟨?_, ?_, ?_, ?_⟩ <;> simp [generate_waveform, generators, List.lookup]

/-- every other string raises ValueError, whatever the other arguments -/
theorem C72_unknown (Q : QNM) (name : String) (fs theta : List ℝ) (f_ref : ℝ)
    (h : name ≠ "XAS" ∧ name ≠ "D" ∧ name ≠ "D_NRTidalv2" ∧ name ≠ "Pv2") :
    generate_waveform Q name fs theta f_ref = .error .valueError := by
  obtain ⟨h1, h2, h3, h4⟩ := h
  have e : ∀ s : String, name ≠ s → (name == s) = false := fun s hs => by simpa using hs
  simp [generate_waveform, generators, List.lookup, e _ h1, e _ h2, e _ h3, e _ h4]

example : ("TaylorF2" : String) ≠ "XAS" ∧ "TaylorF2" ≠ "D" ∧ "TaylorF2" ≠ "D_NRTidalv2" ∧ "TaylorF2" ≠ "Pv2" := by decide

/-- the three aligned-spin generators never raise, for parameter vectors of any length -/
theorem C72_total (Q : QNM) (name : String) (fs theta : List ℝ) (f_ref : ℝ)
    (h : name = "XAS" ∨ name = "D" ∨ name = "D_NRTidalv2") :
    ∃ hp hc, generate_waveform Q name fs theta f_ref = .ok (hp, hc) := by
  obtain ⟨h1, h2, h3, -⟩ := C72_dispatch Q fs theta f_ref
  rcases h with rfl | rfl | rfl
  · exact ⟨_, _, h1⟩
  · exact ⟨_, _, h2⟩
  · exact ⟨_, _, h3⟩

/-! ### C73 conventions -/

/-- 'Pv2' needs exactly twelve entries; in particular the eight-entry vectors of 'D' and 'XAS' raise ValueError -/
theorem C73_length (Q : QNM) (fs theta : List ℝ) (f_ref : ℝ) (h : theta.length ≠ 12) :
    generate_waveform Q "Pv2" fs theta f_ref = .error .valueError := by
  rw [(C72_dispatch Q fs theta f_ref).2.2.2]
  unfold Pv2.gen_IMRPhenomPv2
  split
  · simp at h
  · rfl

/-- The first two entries of a 'Pv2' vector are component masses: for m1 ≥ m2 > 0 the result is that of the
    `gen_IMRPhenomPv2_hphc` convention evaluated at the chirp mass and symmetric mass ratio of (m1, m2). -/
theorem C73_component_masses (Q : QNM) (fs : List ℝ) (f_ref m1 m2 s1x s1y s1z s2x s2y s2z D tc phi incl : ℝ)
    (h2 : 0 < m2) (h : m2 ≤ m1) :
    generate_waveform Q "Pv2" fs [m1, m2, s1x, s1y, s1z, s2x, s2y, s2z, D, tc, phi, incl] f_ref =
      Pv2.gen_IMRPhenomPv2_hphc Q fs [(ms_to_Mc_eta m1 m2).1, (ms_to_Mc_eta m1 m2).2, s1x, s1y, s1z, s2x, s2y, s2z, D, tc,
        phi, incl] f_ref := by
  have hr := C01_roundtrip_masses m1 m2 (lt_of_lt_of_le h2 h) h2
  rw [max_eq_left h, min_eq_right h] at hr
  rw [(C72_dispatch Q fs _ f_ref).2.2.2]
  unfold Pv2.gen_IMRPhenomPv2_hphc
  simp [Jnp.index, hr]

/-- The two conventions are never interchangeable: for physical (Mc, eta) the component masses differ from (Mc, eta) in
    the first entry already, the larger component mass exceeding the chirp mass. -/
theorem C73_never_fixed (Mc eta : ℝ) (hM : 0 < Mc) (h0 : 0 < eta) (h4 : eta ≤ 1 / 4) :
    Mc < (Mc_eta_to_ms Mc eta).1 := by
  rw [Mc_eta_to_ms_eq hM h0]
  have hp : 0 < eta ^ ((3 : ℝ) / 5) := Real.rpow_pos_of_pos h0 _
  have hlt : eta ^ ((3 : ℝ) / 5) < 1 / 2 := by
    calc eta ^ ((3 : ℝ) / 5) ≤ (1 / 4) ^ ((3 : ℝ) / 5) := Real.rpow_le_rpow h0.le h4 (by norm_num)
      _ < (1 / 4) ^ ((1 : ℝ) / 2) := Real.rpow_lt_rpow_of_exponent_gt (by norm_num) (by norm_num) (by norm_num)
      _ = 1 / 2 := by
        rw [← Real.sqrt_eq_rpow, show (1 / 4 : ℝ) = (1 / 2) ^ 2 by norm_num, Real.sqrt_sq (by norm_num)]
  have hs : 0 ≤ Real.sqrt (1 - 4 * eta) := Real.sqrt_nonneg _
  have hdiv : 2 * Mc < Mc / eta ^ ((3 : ℝ) / 5) := by
    rw [lt_div_iff₀ hp]; nlinarith
  show Mc < Mc / eta ^ ((3 : ℝ) / 5) * (1 + Real.sqrt (1 - 4 * eta)) / 2
  have : 0 < Mc / eta ^ ((3 : ℝ) / 5) := by positivity
  nlinarith

example : ∃ Mc eta : ℝ, 0 < Mc ∧ 0 < eta ∧ eta ≤ 1 / 4 ∧ eta ≠ 1 / 4 := ⟨30, 0.24, by norm_num⟩

end Ripple
