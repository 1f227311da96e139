/-
  Programs traced by `jax.grad`, operation by operation.
-/
import Verif.Prelude.Autodiff
import Verif.Model.PhenomXAS

namespace Ripple
namespace AD

noncomputable section

/-- `Mc_eta_to_ms`: inputs 0 (chirp mass) and 1 (symmetric mass ratio), outputs 14 (`m1`) and 13 (`m2`).
    src/ripplegw/__init__.py:22-37. -/
def massProg : Prog :=
  [(2, .powf 1 (3 / 5)), (3, .div 0 2), -- M
   (4, .square 3), (5, .square 3), (6, .const 4), (7, .mul 6 5), (8, .mul 7 1), (9, .sub 4 8), (10, .sqrt 9),
   (11, .sub 3 10), (12, .const 2), (13, .div 11 12), -- m2
   (14, .sub 3 13)]

/-- the binary with the four given numbers -/
def thetaOf (x : Fin 4 → ℝ) : Theta := ⟨x 0, x 1, x 2, x 3⟩

/-- The part of `get_mergerringdown_Amp` that does not involve the frequency: inputs 1 to 4 (`theta`), outputs 26
    (`fMs_AmpRDMin`), 48 (`gammaR`), 51 (`gammaD2`), 53 (`gammaD13`).  Simplified: the computations of the two frequencies
    and of the three fits from `theta` are one operation each.  src/ripplegw/waveforms/IMRPhenomXAS.py:1205-1272. -/
def peakProg : Prog :=
  let fits := fun x => XAS.ringdown_Amp_fits (thetaOf x) XAS.PhenomX_amp_coeff_table
  let cut := fun x : Fin 4 → ℝ => XAS.get_cutoff_fMs (x 0) (x 1) (x 2) (x 3)
  [(5, .prim ![1, 2, 3, 4] fun x => (cut x).fRD), (6, .prim ![1, 2, 3, 4] fun x => (cut x).fdamp),
   (7, .prim ![1, 2, 3, 4] fun x => (fits x).1), (8, .prim ![1, 2, 3, 4] fun x => (fits x).2.1),
   -- the peak, both branches of `jnp.where`
   (10, .mul 7 7), (11, .const 1), (12, .sub 11 10), (13, .sqrt 12), (14, .sub 13 11), (15, .mul 6 8), (16, .mul 15 14),
   (17, .div 16 7), (18, .add 5 17), (19, .abs 18),
   (20, .const (-1)), (21, .mul 6 20), (22, .mul 21 8), (23, .div 22 7), (24, .add 5 23), (25, .abs 24),
   (26, .whereLe 7 1 19 25),
   (9, .prim ![1, 2, 3, 4] fun x => (fits x).2.2),
   -- gamma1
   (27, .mul 6 8), (28, .div 9 27), (29, .mul 26 26), (30, .const 2), (31, .mul 30 26), (32, .mul 31 5), (33, .sub 29 32),
   (34, .mul 5 5), (35, .add 33 34), (36, .mul 6 6), (37, .mul 36 8), (38, .mul 37 8), (39, .add 35 38), (40, .mul 28 39),
   (41, .sub 26 5), (42, .mul 41 7), (43, .mul 6 8), (44, .div 42 43), (45, .exp 44), (46, .mul 40 45),
   -- gammaR, gammaD2, gammaD13
   (47, .mul 6 8), (48, .div 7 47), (49, .mul 8 6), (50, .mul 8 6), (51, .mul 49 50), (52, .mul 6 46), (53, .mul 52 8)]

/-- The rest of `get_mergerringdown_Amp`: input 0 (`fM_s`), output 63 (`Amp_RD`).
    src/ripplegw/waveforms/IMRPhenomXAS.py:1273-1281. -/
def lorentzProg : Prog :=
  [(54, .sub 0 5), (55, .neg 54), (56, .mul 55 48), (57, .exp 56), (58, .mul 57 53), (59, .sub 0 5), (60, .sub 0 5),
   (61, .mul 59 60), (62, .add 61 51), (63, .div 58 62)]

/-- `get_mergerringdown_Amp`, outputs 63 (`Amp_RD`) and 26 (`fMs_AmpRDMin`). src/ripplegw/waveforms/IMRPhenomXAS.py:1205-1281. -/
def ringdownProg : Prog := peakProg ++ lorentzProg

/-- the inputs of a traced function of `n` arguments, in the variables 0 to `n - 1` -/
def args {n : ℕ} (v : Fin n → ℝ) : ℕ → XR := fun i => if h : i < n then .fin (v ⟨i, h⟩) else .fin 0

end
end AD
end Ripple
