{
 "C05": "The round trip is proved away from the singular mass ratio; at that ratio non-invertibility is proved (C05_singular).",
 "C07": "C07_wrong_if_unordered shows the documented precondition m1 >= m2 is needed.",
 "C10": "C10_can_leave_range exhibits that individual masses may leave the requested prior range after ordering.",
 "C20": "C20_fails_on_shortest_grid covers the error branch.",
 "C22": "General theorems over all finite positive tables, plus one theorem per shipped data file (all rows).",
 "C23": "Sn_O2 yields NaN on [10, 15.0029...) Hz: proved defect, with the consequence for matches.",
 "_partial": [],
 "C35": "D, XAS, TaylorF2 and NRTidalv2 generators.",
 "C36": "PhenomD and XAS.",
 "C47": "The quadrupole parameter is shown >= 1 for every lambda >= 0, not only on [0,1].",
 "C80": "The 7PN coefficients of the two models really differ; both are identified exactly.",
 "C93": "scipy's not-a-knot CubicSpline (tridiagonal slope system, Hermite pieces) is modelled for the actual 1003 rows; the linear system is proved regular and its solution enclosed by a checked certificate (decide +kernel over all rows).",
 "C94": "The lookup tolerance 4e-5 is the Lipschitz bound times the sampling step.",
 "C95": "The bound is proved with a kernel-checked interval subdivision of the whole parameter box.",
 "C107": "The reverse-mode rules of the jax.lax primitives used are modelled (trusted base); in the ringdown program the ringdown and damping frequency and the three fits enter as single primitives with their exact partial derivatives.",
 "C108": "The whole of convert_spins is modelled as a traced program of 247 operations and proved to compute the values of the direct model; nothing in it is collapsed.",
 "C109": "Floating-point model of Prelude/Fp.lean: correct rounding of + - * / sqrt, overflow, flushing or subnormals; no contraction into fused operations, no flushing of inputs, pow by its error bound. The single-precision witness of C109_waveform_nan is one pair of masses; the statement it refutes is the universal one.",
 "C110": "Floating-point layer as for C109; np.loadtxt, the square and the replacement of zeros in double precision, conversion to single precision by numpy (gradual underflow), jnp.interp with every operation rounded. Whole tables are checked in the kernel.",
 "C111": "Floating-point layer as for C109; summation in any order; what is assumed of the modulus, complex division and FFT is in Model/RoundedMatch.lean (structure Lib), with an instance.",
 "C113": "Floating-point layer as for C110. The ratio of neighbouring values and the relative distance of neighbouring frequencies are checked in the kernel for the whole tables.",
 "C112": "Floating-point layer as for C109 and C111; the accuracy asked of the library is in Spec/RoundedMatch.lean, with an instance.",
 "C114": "Floating-point layer as for C110. The two powers are parameters with a stated error (integer_pow and pow of XLA are not fixed); an instance with correctly rounded powers is given. The frequency need not be a floating-point number.",
 "C115": "The grid is shifted by the arrival time in the statement; the code takes the times as given.",
 "C116": "General position is a structure of eleven conditions (GeneralPosition), met by a 30+20 binary with a tilted spin. f_ref is held fixed.",
 "C117": "A defect of the model as coded, proved for the shipped tables. The sign of zero: copysign of +0 is modelled as +1 (the value at the jump itself); the one-sided limit does not depend on it.",
 "C118": "A defect of the model as coded: with the total angular momentum along the orbital one both arguments of two arctan2 are zero, and the reference phase is lost. The sign of floating-point zeros does not matter here: alpha0 would become 0 or 180 degrees and enters doubled. C118_continuous_iff and C118_limit ask for L+S > 0 at the reference frequency; C118_jump proves it for the stated range; for L+S < 0 only C118_discontinuous is proved.",
 "C119": "Arrival is defined as the group delay -Im(h'/h)/(2 pi) of the spectrum (Spec/Arrival.lean; Arrives.delay shows that delaying a spectrum by s seconds adds s). The slopes of the pieces are written out there and proved to be the derivatives of the model's pieces. General statements hold for every table of the shipped shape; the numbers for the shipped table through C97. The three numerical theorems are for all total masses, at two choices of mass ratio and spins.",
 "C120": "The fitted delay is restated in Spec/ArrivalX.lean (peakDelay) and bounded for every physical binary by interval arithmetic on sixteen ranges of the symmetric mass ratio. The arrival needs a non-zero differentiable amplitude, which C99 gives for mass ratios up to 20 with any aligned spins and for every mass ratio without spins.",
 "C121": "Spec/Chirp.lean states the time to coalescence: the quadrupole formula in terms of the chirp mass (Chirps), with the first post-Newtonian correction (ChirpsPN) and with the spin-orbit and tail correction (ChirpsSO, textbook spin-orbit parameter). Chirps.unique, ChirpsPN.unique and ChirpsSO.unique (Props/Identify.lean) show that a spectrum satisfies them for one set of parameters only. The whole phase of each generator is the textbook phase (C40, C68, C75) plus terms smaller by at least four powers of v. For PhenomPv2 the plus polarisation of aligned binaries; precessing binaries are not covered.",
 "C122": "ShiftedLow is the equality at low frequencies up to a time shift and a phase; an example exhibits two different parameter sets that satisfy it. Uses C121 for masses and spins and the series of C100 for the modulus; for NRTidalv2 the tidal amplitude vanishes at low frequency and the taper is one. PhenomPv2 is not covered."
}