# Formal model of ripple (ripplegw) in Lean 4

Properties: `properties.jsonl`. Theorem names per property: `MANIFEST.json`. Mutation log: `seeded/LOG.jsonl`.

## What is modelled, and how

The source in /repo is numerical Python on top of JAX. Each modelled Python function becomes one Lean
definition that mirrors it statement by statement, with a comment citing file and lines.

* **Numbers.** Python/JAX floats are modelled as exact real (ℝ) or complex (ℂ) numbers; every decimal literal is
  the exact rational it denotes. *Rounding, overflow and underflow are not modelled, except in the floating-point layer below.*
  `PI`, `TWO_PI`, `jnp.pi` are all modelled as the real π (TWO_PI = 2π).
* **Exceptional floats.** Where the behaviour in question is about `inf`/`nan` (Mc_eta_to_ms outside its domain,
  the PSD functions, interpolation through infinite nodes, the end points of the Planck taper, division by a zero
  norm) the model uses the type `XR` = finite real | +inf | -inf | nan with IEEE-754 rules for + - * / (the zero
  is +0: all zeros dividing something arise as a difference of equals, a sum of squares or a literal).
* **Floating-point layer** (`Prelude/Fp.lean`, `Model/Rounded*.lean`; C109–C114). The mass and tidal conversions, the
  noise curves, the overlap and the match once more, with every operation rounded: a format is a number of significand bits, a smallest positive number, an overflow threshold and
  a flag for flushing subnormal results to zero; + - * / sqrt are the exact result rounded to nearest, ties to even, then
  flushed, then overflowed to infinity. Trusted here: that each JAX operation is rounded correctly and on its own (no
  contraction of `a*b+c` into one rounding, no flushing of subnormal inputs, no reassociation), that `x**2` is `x*x`, and the
  error bound `eps` of the library's `pow`, a parameter of the theorems. The sign of zero is not modelled.
* **Total functions.** Lean's `x/0 = 0`, `sqrt` of negatives, `rpow` of negatives are never relied on: property
  theorems carry the guard under which the real code is defined (positive masses, f>0, D>0, nonzero denominators),
  and the error branch is covered by `XR` theorems where it is a property.
* **Arrays.** Frequency grids are `List ℝ` for the waveform generators (negative index wraps, out-of-range index
  clamps, as JAX does) and `Fin n → ℂ` for the FFT based match. Broadcasting over a grid is `List.map`.
* **Autodiff.** `jax.grad(g)(x)` is modelled as `deriv g x`: exact derivative.
* **Linear solves.** `jnp.linalg.solve(A,b)` is modelled as a vector `x` with `A x = b` (theorems quantify over any
  such `x`), or as Mathlib's `A⁻¹ b` where uniqueness is needed.
* **Randomness.** A `jax.random.uniform` draw is an arbitrary vector inside [minval,maxval); theorems quantify over
  all draws.
* **FFT.** `jnp.fft.ifft` is the inverse DFT sum with 1/N normalisation.
* **Exceptions** are values of `Except PyErr`.
* **QNM tables.** The waveform functions take the ringdown/damping tables as a parameter of type `QNM` and the waveform
  theorems assume `QNM.Shipped` (usable grid, equal lengths, value ranges). `Model/QNMTable.lean` models the import-time
  construction: the 1003 literal rows of IMRPhenomD_QNMdata.py (`Model/QNMData.lean`, generated by tools/gen_qnm.py as exact
  integers), scipy's `CubicSpline` with the not-a-knot boundary condition (`Prelude/Scipy.lean`: tridiagonal system for the
  slopes, then Hermite pieces) and its sampling on 500000 points. `C93_shipped` discharges the assumption.
* **`jnp.interp`** carries the small guard `eps` of the JAX implementation as a parameter.
* **Sign of zero** is not modelled (`arctan2`, `copysign` of -0).
* **Dictionaries.** The waveform registry of FD_waveform.py is a function from names to generators; an unknown name is an
  exception value.
* **Single precision.** Outside the floating-point layer nothing distinguishes float32 from float64; theorems about interpolation hold for every guard value
  below the grid spacing.

Every function of the package is modelled: `__init__.py` (Conversions, Match), `noise.py` (Noise, NoiseTables with all
shipped tables as data), `constants.py`, `FD_waveform.py`, and in `waveforms/` IMRPhenomD(+utils, QNM data), TaylorF2,
IMRPhenomD_NRTidalv2(+tidal utils), SineGaussian, IMRPhenomPv2(+utils), IMRPhenomXAS(+X utils, all fit tables). Long
polynomial fits were transcribed mechanically (tools/py2lean.py) and not by hand.

Not modelled: jit/vmap tracing, dtype selection, warning texts, print output, performance, progress bars, docs, the test
directory, reading of data files by numpy (the files' contents are passed as tables).

## Layout

* `Verif/Prelude/*` – python/JAX/scipy primitives (XR, heaviside, interp, indexing, argmin, splines) and the interval
  checker described below.
* `Verif/Model/*`   – the model, one file per Python file.
* `Verif/Spec/*`    – independent specifications used in property statements.
* `Verif/Proofs/*`  – helper lemmas.
* `Verif/Props/*`   – the property theorems (with witnesses as `example`).

## Plan per property

Conversions (`__init__.py`)
* C01–C03: `Mc_eta_to_ms`, `ms_to_Mc_eta` over ℝ and over `XR`; rpow algebra for the round trip.
* C04–C07: the four lambda conversions; `field_simp/ring` with δ² = 1−4η, determinant ≠ 0 by factorisation and sign
  analysis on (0,1/4].
* C08, C09: `get_chi_eff`, `get_f_isco`; elementary inequalities.
* C10, C11: samplers as functions of an arbitrary draw; list reasoning.

Match (`__init__.py`)
* C12–C14, C19: finite weighted sums in ℂ; Cauchy–Schwarz with equality case; weights 1/S_n, 0 where S_n = ∞.
* C15–C17: zero padding as an index embedding, IFFT sum, max over all k; bound each |IFFT_k| by Cauchy–Schwarz,
  identify the k-th value with the overlap at del_t = k/(N df).
* C18: higher-order wrapper with Option arguments.
* C20: lengths with float→int truncation.

Noise (`noise.py`)
* C21: XR model of `Sn_LIGOI`. C22, C23, C27: model of `jnp.interp` (searchsorted right, clip) over `XR` tables;
  induction over tables; the actual leading part of the O2 table as data.

PhenomD
* C24: rational identities. C25: calculus on γ-Lorentzian. C26: polynomial bounds over the spin/mass box.
* C28, C29: general gluing lemma for C¹ functions, applied to the heaviside-weighted sums.
* C30, C33: list model with argmin and index wrap. C31, C32, C34, C35, C36: algebra on the generator.

TaylorF2 / NRTidalv2
* C37–C43: algebra on coefficient functions. C44, C45: taper over XR and ℝ, HasDerivAt. C46–C50: generator algebra.

SineGaussian
* C51: Gaussian integrals from Mathlib (Fourier transform of the Gaussian). C52, C53: elementary.

PhenomPv2
* C54–C61: trigonometric identities, list of harmonics, aligned limit by substitution.

PhenomXAS
* C62–C71: gluing lemma again; polynomial identities; coefficient tables as parameters (amp/phase fits) where the
  property does not depend on the numbers. C71: ISCO against the Kerr effective potential.
* C91, C92: ranges of the remnant and ringdown fits and the order of the regions, over all masses and spins, with the interval
  checker.

Generator
* C72, C73: dispatch table.

Later additions
* C74, C96: region order from ranges of the fits, for all physical binaries; consequences for smoothness and cutoff.
* C75, C79, C80: TaylorF2 and NRTidalv2 against independent post-Newtonian expressions (`Spec/PN.lean`, `Spec/Tidal.lean`).
* C81–C88: PhenomPv2 radiation pattern, frames, covariances; `Spec/Vec3.lean`, `Spec/Precession.lean`.
* C89, C90: warnings and zero entries.
* C93: certificate (approximate slopes, `Proofs/QNMCert.lean`) plus diagonal dominance encloses the exact spline slopes;
  `decide +kernel` over all 1002 cells checks monotonicity and range inequalities; the lookup error follows from a Lipschitz
  bound.
* C94, C95: remnant spin ranges with the interval checker, after factoring out the vanishing mass ratio.
* C97: on each of the 1002 cells, spline minus rational fit is a polynomial over a polynomial; both bounded from integer
  coefficients by `decide +kernel` (`Proofs/QNMFit.lean`).
* C98: differences of the fits of the two families, interval checker; the ringdown part through C97 and a slope bound.
* C99: the connection quartic in Hermite form is positive under seven inequalities on its end values and slopes
  (`Proofs/XASPos.lean`, `AmpGood`); those are checked with the interval checker for the shipped fits. With spins the
  inequalities depend on five variables with strong cancellations; `Proofs/XASSpin*.lean` check them with the affine checker.
  `Proofs/XASPole.lean`: where the fitted ringdown peak is negative the quartic changes its sign, so (intermediate value
  theorem) its reciprocal is unbounded in both directions.
* C100: the post-Newtonian amplitude coefficients are checked against an independent expression: the (2,2)-mode amplitude of
  `Spec/Mode22.lean` and the second derivative (`deriv (deriv ·)`) of the phase of `Spec/PN.lean`. The identity is an
  asymptotic one (`=O[𝓝[>] 0]`), so the calibrated terms at f^(7/3) and beyond do not enter. The 3PN terms
  quadratic in the spins are not those of the specification (the published amplitude expansions differ there); the theorems give
  the difference explicitly, in the exchange-symmetric form `Spec.spinSquared`.
* C101: as C99 for PhenomD (`Proofs/DPos.lean`): the quartic in Hermite form, the ringdown end from the closed form of the
  Lorentzian at its peak, the lookup through C97, the fits with the affine checker (`Proofs/DPosNum.lean`).
  `Proofs/DZero.lean`: near remnant spin 1 the damping spline falls to 0.00029, the ringdown peak exceeds 8 times the
  inspiral amplitude and the quartic undershoots; the zero comes from the intermediate value theorem.
* C102: inspiral and intermediate systems are Vandermonde. The ringdown matrix (powers -1/3, -2, -4 and a Lorentzian at five
  frequencies) is scaled to two dimensionless parameters (relative width of the interval, position of fRD in it); the power
  columns are eliminated with divided differences (`Proofs/XASDetAlg.lean`), which turns the determinant into one sum whose sign
  the affine checker settles (`Proofs/XASDetNum.lean`); the parameter range comes from the fits (`Proofs/XASDetPhys.lean`).
* C103: a smooth family of binaries (`XAS.SmoothFam`) makes every fit, transition frequency, collocation solution (Cramer's
  rule, C102) and raw piece smooth in parameters and frequency; the pieces agree in value and slope along the moving joints, and
  a function glued that way is C1 in all variables (`Proofs/Smooth.lean: glue_three`). The alignment of the phase at the peak
  uses the ringdown piece because fRD - fdamp lies in the ringdown region (`Proofs/XASPeak.lean`). The amplitude needs
  gamma2 ≠ 1 (at gamma2 = 1 the two formulas for the peak frequency meet with a square root); `Proofs/XASGamma.lean` gives
  ranges where gamma2 < 1. The theorems are about the exact real function; for gamma2 > 1 reverse-mode differentiation through
  the unselected square root of a negative number would produce NaN in the code, which an exact-real model does not show.
  `Proofs/XASSlope.lean` carries the raw slopes over to `Phase`.
* C104: the same for IMRPhenomD (`Proofs/DSmooth.lean`, `Proofs/DGrad.lean`): the ringdown frequencies are smooth away from the
  nodes of the tables, the amplitude and phase pieces are glued along the moving joints, and the samples below the cutoff
  threshold stay below it for nearby parameters. `Proofs/DGamma.lean` gives ranges where gamma2 < 1. `Proofs/DKink.lean`: the
  tabulated values at spins 0.2, 0.5, 0.8 are not collinear, so the table bends at a node; the remnant spin reaches it.
* C105: the tidal waveforms (`Proofs/TidalSmooth.lean`): away from its end point the Planck taper equals Mathlib's
  `Real.smoothTransition` of 6 - 5 f / f_merger, so it is smooth where it starts and ends; the tidal and spin terms are smooth
  for non-negative deformabilities off 1. At deformability 1 the two quadrupole fits differ by about 1e-16 (C47 bounds value,
  slope and curvature), so the exact-real function is not differentiable there.
* C106: PhenomPv2 in frequency (`Proofs/Pv2Smooth.lean`): the twisted-up waveform is written with the cone angle of C81, which
  is pi/2 - |arctan((L+S)/S_perp)|; the modulus is smooth off its zero and has a kink at a simple zero. The code divides by
  L+S; at the isolated frequency where it vanishes the model (division by zero gives 0) says nothing, and the theorems only
  speak about the frequencies around it. `openingAngle` in `Props/Pv2Freq.lean` is the independent specification.
* C107: reverse-mode differentiation (`Prelude/Autodiff.lean`): `jax.grad` on straight-line programs over floats with inf and
  nan. `Proofs/Autodiff.lean` proves it sound where every step is differentiable. The programs (`Model/Autodiff.lean`) of
  `Mc_eta_to_ms` and of the XAS `get_mergerringdown_Amp` are proved to compute the same values as the direct models. They are
  sequenced by hand from the Python expressions. At a zero of a square root the rule multiplies by 1/0, and the two
  infinities in M^2 - 4 M^2 eta cancel to nan; in `jnp.where` the branch that is not selected gets the cotangent 0, and
  0 * nan is nan.
* C108: the same for `convert_spins` (`Model/AutodiffPv2.lean`, 247 operations). The rule of `arctan2` at the origin is 0/0, so
  the azimuth of the orbital angular momentum in the J frame poisons all arguments for aligned spins; the length of a vanishing
  in-plane spin gives inf * 0. Both also hold in rounded arithmetic: the values involved (0, sqrt(0), arccos(1)) are exact.
* C109: rounding. In floats the computed mass ratio of nearly equal masses can exceed a quarter, and everything downstream is
  nan; `Proofs/Fp.lean` has the lemmas on rounding (monotone, exact on the format, relative error, squares and roots), `Proofs/
  Rounded*.lean` the error analysis of the conversions.
* C110, C111: underflow in single precision, the default of the package. PSD values below 2^-150 and squares of strains below
  2^-75 are zero. Table values are compared with 2^-75 (amplitude spectral densities) by kernel evaluation over the complete
  tables. The order of `jnp.sum` is left open (`IsSum`), the complex library functions enter through the contract `Lib`.
* C112: the counterpart, forward error analysis of overlap and match for any summation tree (`Proofs/RoundedAccuracy.lean`,
  `Proofs/RoundedIntegral.lean`). The contract for the library is `Lib.Accurate`; the error of the phase factors is a hypothesis on
  the frequencies and the time shift used, because the rounded argument 2 pi f t makes it grow with f t.
* C113: error analysis of the interpolation (`Proofs/RoundedTable.lean`). Rounding is monotone, so a double between two exact
  nodes lies between the rounded ones; it leaves the cell only if it equals the rounded upper node, and then the stored value
  is returned. The bounds are 50 u times the largest ratio of neighbouring values and of a frequency to the gap below it.
* C114: the analytic curve (`Model/RoundedLIGOI.lean`). In single precision its constant rounds to 2^-149, 1.56 times its value,
  and the product to an integer multiple of it or, with flushing, to zero.
* C115: the burst (`Props/SineGaussianGrad.lean`) is smooth wherever the two square roots are away from zero; at eccentricity 1
  the square of the cross polarisation has slope different from zero while the cross polarisation vanishes.
* C116: PhenomPv2 in all twelve parameters (`Proofs/Pv2GradTf.lean`: transition frequencies and time alignment;
  `Proofs/Pv2GradFrame.lean`: the frame conversion, where each azimuth enters the waveform only through its exponential, which
  is smooth across the cut of arctan2; `Proofs/Pv2GradTwist.lean`: the twist-up; `Props/Pv2Grad.lean`).  The conditions are
  those under which no square root, maximum, modulus or direction in the code degenerates.
* C117: one of these conditions is not removable (`Proofs/Pv2Jump.lean`, `Props/Pv2Jump.lean`).  Where the aligned remnant spin
  vanishes the remnant spin jumps from minus to plus the in-plane spin.  The frequencies read off the tables have one-sided
  limits; above the ringdown frequency the amplitude at the limit is smaller than at the point; the total power of both
  polarisations is the squared amplitude times a factor continuous in the spin, so neither pair of continuous functions fits.
* C118: the aligned limit (`Proofs/Pv2Limit.lean`, `Props/Pv2Limit.lean`).  As the in-plane spin tends to zero the total angular
  momentum tends to the orbital one, its azimuth has no limit, but the rotation it parametrises turns the spin-weighted
  harmonics and the polarisation angle so that the sum converges; the limit keeps the reference phase, the value does not.
* C119: arrival times (`Spec/Arrival.lean`, `Proofs/Arrival.lean`, `Proofs/ArrivalNum.lean`, `Proofs/ArrivalGen.lean`,
  `Props/Arrival.lean`).  `Arrives h f t` is the group delay of a spectrum.  The slopes of the three phase pieces are written in closed
  form and proved equal to the derivatives the code takes by automatic differentiation.  The comment in the code says the peak of the
  amplitude is put at t = 0; the theorem says by how much it is not.  Numbers for two binaries come from `interval_bnb`, with the
  ringdown frequencies bounded through C97.  `tf.f4` is what the code calls the peak: the maximum of the ringdown factor of the amplitude.
* C120: arrival of the merger for IMRPhenomXAS (`Spec/ArrivalX.lean`, `Proofs/ArrivalXNum.lean` (generated bounds), `Props/ArrivalX.lean`).
* C121: the chirp at low frequency in all generators, through the spin-orbit order (`Spec/Chirp.lean`, `Proofs/Chirp.lean`, `Props/Chirp.lean`).
* C122: low frequencies fix masses, spin-orbit parameter and distance, also across generators (`Props/Identify.lean`, on top of C121 and C100).

## Interval checker

`Prelude/Interval.lean` defines rational interval arithmetic on expression trees and a checker for bisection trees, with a
soundness theorem proved in Lean; `Prelude/IntervalTac.lean` searches a subdivision (untrusted) and asks the kernel to
evaluate the checker by `rfl`. It proves statements about whole boxes of reals, not samples, and adds no axioms.

`Prelude/Affine.lean` is a second checker with affine forms (a centre, one coefficient per box variable and a remainder, fixed
point integers), so that linear dependence between intermediate quantities is kept; its soundness theorem `soundA` is proved
in Lean. `Prelude/AffineTac.lean` reifies the goal and runs the checker in the kernel. Large bisection trees are precomputed by
`tools/affine.cpp` (problem files written by `tools/affine_dump.txt`) and given as strings; they are untrusted data.

## Mutation testing

`tools/mutate.py` applies one edit at a time to a scratch copy of the Lean project, rebuilds and records which theorems fail;
`tools/automut.py` draws random single edits (constants, indices, operators, signs) of the model definitions and runs the same
loop, stopping a build shortly after its first error. `seeded/LOG.jsonl` has one line per attempt. Where a wrong program survived, the theorems were tightened and the line says
which.

## Trusted base

Lean 4.33.0 kernel; Mathlib; axioms `propext`, `Classical.choice`, `Quot.sound` only (checked per theorem with
`#print axioms`). The reading of the Python source into Lean definitions (by hand, cited line by line), and the
semantics of numpy/JAX primitives listed above. For C107 also the reverse-mode rules of the primitives (`Op.pull`) and the
treatment of variables that do not influence the output (symbolic zeros, `Cot`).
