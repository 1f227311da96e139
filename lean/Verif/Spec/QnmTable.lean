/-
  What the waveform theorems assume about the quasi-normal-mode tables; proved of the shipped tables in Props/QNM.lean
  (`C93_shipped`).
-/
import Verif.Model.PhenomDUtils
import Verif.Proofs.Interp

namespace Ripple

/-- The tables have a usable abscissa grid, equal lengths, and values in slightly enlarged versions of the ranges
    of the shipped data (ringdown 0.0464014..0.1579619, damping 0.0002908..0.0141952;
    src/ripplegw/waveforms/IMRPhenomD_QNMdata.py). -/
structure QNM.Shipped (q : QNM) : Prop where
  eps_nonneg : 0 ≤ q.eps
  good : GoodGrid q.eps q.a
  len_RD : q.fRD.length = q.a.length
  len_damp : q.fdamp.length = q.a.length
  RD_range : ∀ y ∈ q.fRD, 0.046 ≤ y ∧ y ≤ 0.159
  damp_range : ∀ y ∈ q.fdamp, 0.0002 ≤ y ∧ y ≤ 0.0145

/-- witness: the end points of the shipped tables -/
example : (⟨1e-7, [-1, 1], [0.0464014, 0.1579619], [0.0141952, 0.0002908]⟩ : QNM).Shipped where
  eps_nonneg := by norm_num
  good := ⟨by simp, fun k hk => by
    have : k = 0 := by simp at hk; omega
    subst this; norm_num⟩
  len_RD := rfl
  len_damp := rfl
  RD_range := by intro y hy; fin_cases hy <;> norm_num
  damp_range := by intro y hy; fin_cases hy <;> norm_num

/-- masses positive, spin magnitudes at most one -/
structure Theta.Physical (theta : Theta) : Prop where
  m1_pos : 0 < theta.m1
  m2_pos : 0 < theta.m2
  chi1_le : |theta.chi1| ≤ 1
  chi2_le : |theta.chi2| ≤ 1

end Ripple
