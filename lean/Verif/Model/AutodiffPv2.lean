/-
  The program traced by `jax.grad` through `convert_spins`, operation by operation.
-/
import Verif.Prelude.Autodiff
import Verif.Model.PhenomPv2Utils

namespace Ripple
namespace AD

noncomputable section

/-- `ROTATEZ(angle, x, y, z)`: results `n + 4` (x) and `n + 9` (y). src/ripplegw/waveforms/IMRPhenomPv2_utils.py:21-24. -/
def rotZ (n a x y : ℕ) : Prog :=
  [(n, .cos a), (n + 1, .mul x n), (n + 2, .sin a), (n + 3, .mul y (n + 2)), (n + 4, .sub (n + 1) (n + 3)),
   (n + 5, .sin a), (n + 6, .mul x (n + 5)), (n + 7, .cos a), (n + 8, .mul y (n + 7)), (n + 9, .add (n + 6) (n + 8))]

/-- `ROTATEY(angle, x, y, z)`: results `n + 4` (x) and `n + 10` (z). src/ripplegw/waveforms/IMRPhenomPv2_utils.py:27-30. -/
def rotY (n a x z : ℕ) : Prog :=
  [(n, .cos a), (n + 1, .mul x n), (n + 2, .sin a), (n + 3, .mul z (n + 2)), (n + 4, .add (n + 1) (n + 3)),
   (n + 5, .neg x), (n + 6, .sin a), (n + 7, .mul (n + 5) (n + 6)), (n + 8, .cos a), (n + 9, .mul z (n + 8)),
   (n + 10, .add (n + 7) (n + 9))]

/-- `convert_spins`, the effective precession spin.  Inputs 0 `m1`, 1 `m2`, 2 `f_ref`, 3 `phiRef`, 4 `incl`, 5 to 7 the spin of
    the first and 8 to 10 of the second body; output 41 `chip`.  src/ripplegw/waveforms/IMRPhenomPv2_utils.py:58-82. -/
def chipProg : Prog :=
  [(11, .add 0 1), (12, .mul 0 0), (13, .mul 1 1), (14, .mul 0 1), (15, .mul 11 11), (16, .div 14 15), -- eta
   (17, .square 5), (18, .square 6), (19, .add 17 18), (20, .sqrt 19), (21, .mul 12 20), -- S1_perp
   (22, .square 8), (23, .square 9), (24, .add 22 23), (25, .sqrt 24), (26, .mul 13 25), -- S2_perp
   (27, .const 3), (28, .mul 27 1), (29, .const 2), (30, .mul 29 0), (31, .div 28 30), (32, .add 29 31), -- A1
   (33, .mul 27 0), (34, .mul 29 1), (35, .div 33 34), (36, .add 29 35), -- A2
   (37, .mul 32 21), (38, .mul 36 26), (39, .max 37 38), (40, .mul 36 13), (41, .div 39 40)]

/-- `convert_spins`, the direction of the total angular momentum: outputs 91 `thetaJ_sf`, 92 `phiJ_sf`, 93 `phi_aligned`.
    src/ripplegw/waveforms/IMRPhenomPv2_utils.py:84-97. -/
def jProg : Prog :=
  [(42, .const gt), (43, .mul 11 42), (44, .const PI), (45, .mul 44 43), (46, .mul 45 2), (47, .powf 46 (1 / 3)), -- v_ref
   -- L2PNR
   (48, .square 16), (49, .square 47), (50, .square 49), (51, .const 1), (52, .const 1.5), (53, .const 6), (54, .div 16 53),
   (55, .add 52 54), (56, .mul 55 49), (57, .add 51 56), (58, .const 3.375), (59, .const 19), (60, .mul 59 16), (61, .const 8),
   (62, .div 60 61), (63, .sub 58 62), (64, .const 24), (65, .div 48 64), (66, .sub 63 65), (67, .mul 66 50), (68, .add 57 67),
   (69, .mul 16 68), (70, .powf 49 0.5), (71, .div 69 70),
   (72, .mul 11 11), (73, .mul 72 71), -- L0
   (74, .mul 12 5), (75, .mul 13 8), (76, .add 74 75), (77, .mul 12 6), (78, .mul 13 9), (79, .add 77 78),
   (80, .mul 12 7), (81, .add 73 80), (82, .mul 13 10), (83, .add 81 82), -- J0z_sf
   (84, .mul 76 76), (85, .mul 79 79), (86, .add 84 85), (87, .mul 83 83), (88, .add 86 87), (89, .sqrt 88), -- J0
   (90, .div 83 89), (91, .acos 90), (92, .atan2 79 76), (93, .neg 92)]

/-- `convert_spins`, the angle `kappa` (output 128); the line of sight is 98, 102, 103.
    src/ripplegw/waveforms/IMRPhenomPv2_utils.py:101-112. -/
def kappaProg : Prog :=
  [(94, .sin 4), (95, .const (PI / 2)), (96, .sub 95 3), (97, .cos 96), (98, .mul 94 97),
   (99, .sin 4), (100, .sub 95 3), (101, .sin 100), (102, .mul 99 101), (103, .cos 4), (104, .neg 92)] ++
  rotZ 105 104 98 102 ++ [(115, .neg 91)] ++ rotY 116 115 109 103 ++ [(127, .atan2 114 120), (128, .neg 127)]

/-- `convert_spins`, the orbital angular momentum in the J frame (159 and 164).
    src/ripplegw/waveforms/IMRPhenomPv2_utils.py:115-118. -/
def lnProg : Prog :=
  [(129, .const 0), (130, .const 0), (131, .const 1), (132, .neg 92)] ++ rotZ 133 132 129 130 ++ [(143, .neg 91)] ++
  rotY 144 143 137 131 ++ rotZ 155 128 148 142

/-- `convert_spins`, `alpha0` (output 165). src/ripplegw/waveforms/IMRPhenomPv2_utils.py:120. -/
def alphaProg : Prog := [(165, .atan2 164 159)]

/-- `convert_spins`, the line of sight in the J frame (193 and 188) and `thetaJN` (output 199).
    src/ripplegw/waveforms/IMRPhenomPv2_utils.py:123-128. -/
def thetaProg : Prog :=
  [(166, .neg 92)] ++ rotZ 167 166 98 102 ++ [(177, .neg 91)] ++ rotY 178 177 171 103 ++ rotZ 189 128 182 176 ++
  [(199, .acos 188)]

/-- `convert_spins`, `zeta_polariz` (output 257). src/ripplegw/waveforms/IMRPhenomPv2_utils.py:140-164. -/
def zetaProg : Prog :=
  [(200, .cos 4), (201, .neg 200), (202, .sin 3), (203, .mul 201 202), (204, .cos 4), (205, .neg 204), (206, .cos 3),
   (207, .mul 205 206), (208, .sin 4), (209, .neg 92)] ++ rotZ 210 209 203 207 ++ [(220, .neg 91)] ++ rotY 221 220 214 208 ++
  rotZ 232 128 225 219 ++
  [(242, .const 0), (243, .const (-1)), (244, .const 0), (245, .const 0), (246, .neg 193),
   (247, .mul 236 242), (248, .mul 241 243), (249, .add 247 248), (250, .mul 231 244), (251, .add 249 250),
   (252, .mul 236 188), (253, .mul 241 245), (254, .add 252 253), (255, .mul 231 246), (256, .add 254 255),
   (257, .atan2 256 251)]

/-- `convert_spins`; outputs 41 `chip`, 199 `thetaJN`, 165 `alpha0`, 93 `phi_aligned`, 257 `zeta_polariz` (`chi1_l` and
    `chi2_l` are the inputs 7 and 10). src/ripplegw/waveforms/IMRPhenomPv2_utils.py:43-165. -/
def convertProg : Prog := chipProg ++ (jProg ++ (kappaProg ++ (lnProg ++ (alphaProg ++ (thetaProg ++ zetaProg)))))

end
end AD
end Ripple
