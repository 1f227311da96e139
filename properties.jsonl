{"id": "C01", "title": "Chirp-mass / mass-ratio conversion round-trips", "statement": "ms_to_Mc_eta(Mc_eta_to_ms((Mc, eta))) returns exactly (Mc, eta) for every Mc>0 and 0<eta<=1/4, and Mc_eta_to_ms(ms_to_Mc_eta((m1, m2))) returns (max(m1,m2), min(m1,m2)) for all positive masses.", "quantifier": "all real Mc>0, eta in (0,1/4]; all positive m1, m2", "why_tests_cant": "a test samples finitely many masses; the identity is claimed for a continuum including the degenerate boundary eta=1/4", "anchors": ["src/ripplegw/__init__.py:Mc_eta_to_ms", "src/ripplegw/__init__.py:ms_to_Mc_eta"]}
{"id": "C02", "title": "Component masses are positive and ordered", "statement": "Mc_eta_to_ms returns m1 >= m2 > 0 with m1 = m2 exactly when eta = 1/4; for eta > 1/4 both outputs are NaN, for eta < 0 both are NaN, i.e. the conversion yields finite masses exactly on 0 < eta <= 1/4 (given Mc > 0).", "quantifier": "all real Mc>0 and all real eta", "why_tests_cant": "ordering (the waveforms assume object 1 is heavier) and the exact NaN boundary must hold for every input", "anchors": ["src/ripplegw/__init__.py:Mc_eta_to_ms"]}
{"id": "C03", "title": "Symmetric mass ratio range, exchange symmetry, scaling", "statement": "ms_to_Mc_eta gives 0 < eta <= 1/4 with equality iff m1 = m2, is unchanged by exchanging the two masses, and under m -> k m scales the chirp mass by k and leaves eta unchanged.", "quantifier": "all positive m1, m2, k", "why_tests_cant": "continuum of masses; the bound is tight on a measure-zero set", "anchors": ["src/ripplegw/__init__.py:ms_to_Mc_eta"]}
{"id": "C04", "title": "Tidal parameters equal the physical definition", "statement": "For m1 >= m2 > 0, the first output of lambdas_to_lambda_tildes is (16/13) [(m1+12 m2) m1^4 lambda1 + (m2+12 m1) m2^4 lambda2]/(m1+m2)^5, the published definition of the dominant tidal deformability.", "quantifier": "all lambda1, lambda2 and all m1 >= m2 > 0", "why_tests_cant": "polynomial identity over four real parameters with a square root", "anchors": ["src/ripplegw/__init__.py:lambdas_to_lambda_tildes"]}
{"id": "C05", "title": "Tidal parameter conversion round-trips", "statement": "lambda_tildes_to_lambdas inverts lambdas_to_lambda_tildes and vice versa for all positive masses except one exceptional mass ratio (eta = 4823/249158, about 50:1); there the 2x2 system is singular and two different pairs of deformabilities give the same tilde pair, so no inverse exists. In particular the round trip holds for every mass ratio up to 40:1.", "quantifier": "all real lambda1, lambda2 (resp. tilde pairs) and all positive masses", "why_tests_cant": "the repo's own test prints an MSE on 1000 samples and asserts nothing; a singular mass ratio is a single point a sampled test never hits", "anchors": ["src/ripplegw/__init__.py:lambdas_to_lambda_tildes", "src/ripplegw/__init__.py:lambda_tildes_to_lambdas"]}
{"id": "C06", "title": "Mass-ratio variants agree with the mass variants", "statement": "lambdas_to_lambda_tildes_from_q / lambda_tildes_to_lambdas_from_q called with q = m2/m1 or q = m1/m2 give the same results as the four-argument functions called with (m1, m2).", "quantifier": "all positive masses and all tidal parameters", "why_tests_cant": "copy-pasted code: agreement of the copies must hold everywhere", "anchors": ["src/ripplegw/__init__.py:lambdas_to_lambda_tildes_from_q", "src/ripplegw/__init__.py:lambda_tildes_to_lambdas_from_q"]}
{"id": "C07", "title": "Tidal conversions depend on the masses only through eta", "statement": "lambdas_to_lambda_tildes(l1, l2, m1, m2) = lambdas_to_lambda_tildes(l1, l2, m2, m1): the function silently assumes that lambda1 belongs to the heavier body; hence for m1 < m2 and lambda1 != lambda2 the result is NOT the physical lambda-tilde of (m1,lambda1),(m2,lambda2).", "quantifier": "all positive masses m1 != m2 and all lambda1 != lambda2", "why_tests_cant": "a symmetric-looking API hides an ordering precondition; tests with ordered masses never see it", "anchors": ["src/ripplegw/__init__.py:lambdas_to_lambda_tildes"]}
{"id": "C08", "title": "Effective spin is a mass-weighted mean", "statement": "get_chi_eff lies between the two spins (so |chi_eff| <= 1 when both are), equals chi when both spins equal chi, is invariant under exchanging the bodies and under a common rescaling of the masses.", "quantifier": "all positive masses, all spins", "why_tests_cant": "continuum of inputs", "anchors": ["src/ripplegw/__init__.py:get_chi_eff"]}
{"id": "C09", "title": "ISCO frequency law", "statement": "get_f_isco(m) = c^3/(6^(3/2) pi G m): strictly decreasing, get_f_isco(k m) = get_f_isco(m)/k, and the dimensionless ISCO frequency used by IMRPhenomXAS at zero final spin, as well as the TaylorF2 ISCO frequency, are the same number in geometric units.", "quantifier": "all m>0, k>0", "why_tests_cant": "scaling law over all masses and agreement between three independent implementations", "anchors": ["src/ripplegw/__init__.py:get_f_isco", "src/ripplegw/waveforms/TaylorF2.py:_gen_TaylorF2", "src/ripplegw/waveforms/IMRPhenomX_utils.py:get_cutoff_fMs"]}
{"id": "C10", "title": "Ordered mass sampler", "statement": "The function returned by get_m1_m2_sampler yields n rows, each with first entry >= second entry; each row is the underlying uniform draw up to exchange; if both ranges coincide both entries lie in that range; when the ranges differ the first entry can lie outside m1_range.", "quantifier": "all ranges, all n, all keys (all possible uniform draws)", "why_tests_cant": "must hold for every random draw", "anchors": ["src/ripplegw/__init__.py:get_m1_m2_sampler"]}
{"id": "C11", "title": "(M, eta) sampler stays in range", "statement": "The function returned by get_M_eta_sampler yields n rows whose first entries lie in M_range and second entries in eta_range.", "quantifier": "all ranges with min<=max, all n, all draws", "why_tests_cant": "every random draw", "anchors": ["src/ripplegw/__init__.py:get_M_eta_sampler"]}
{"id": "C12", "title": "Phase-maximised inner product lies in [0,1]", "statement": "get_phase_maximized_inner_product_arr returns a value between 0 and 1 for every pair of waveforms with non-zero noise-weighted norm, every positive PSD (infinite bins allowed) and every time shift.", "quantifier": "all lengths n, all complex strain arrays, all positive PSD arrays, all frequency arrays and del_t", "why_tests_cant": "Cauchy-Schwarz over arrays of every size", "anchors": ["src/ripplegw/__init__.py:get_phase_maximized_inner_product_arr"]}
{"id": "C13", "title": "Unit overlap characterises equal waveforms", "statement": "The phase-maximised inner product equals 1 iff h2, multiplied by the time-shift phase, is a complex multiple of h1 on all bins with finite PSD; in particular the overlap of a waveform with itself at del_t=0 is 1.", "quantifier": "all lengths, all arrays", "why_tests_cant": "equality case of an inequality, cannot be sampled", "anchors": ["src/ripplegw/__init__.py:get_phase_maximized_inner_product_arr"]}
{"id": "C14", "title": "Overlap invariances", "statement": "The phase-maximised inner product does not change when either waveform is multiplied by a non-zero complex constant (amplitude or phase of coalescence) or the PSD by a positive constant; exchanging the waveforms is the same as negating del_t; multiplying h2 by exp(2 pi i f t0) is the same as adding t0 to del_t.", "quantifier": "all arrays and constants", "why_tests_cant": "algebraic law over all inputs", "anchors": ["src/ripplegw/__init__.py:get_phase_maximized_inner_product_arr"]}
{"id": "C15", "title": "Match lies in [0,1], and is 1 for identical waveforms", "statement": "get_match_arr returns a value in [0,1] for every pair of strains with non-zero norm; the match of a waveform with (any non-zero complex multiple of) itself is exactly 1, for all pads.", "quantifier": "all lengths, pads, strains, positive PSDs", "why_tests_cant": "sizes and arrays unbounded", "anchors": ["src/ripplegw/__init__.py:get_match_arr"]}
{"id": "C16", "title": "Match is the maximum over a time grid of the overlap", "statement": "For a uniform grid fs = f0 + j df with f0/df integer-spaced, get_match_arr equals the maximum over k=0..N-1 (N = padded length) of get_phase_maximized_inner_product_arr at del_t = k/(N df): the IFFT trick computes what the documentation says.", "quantifier": "all lengths, pads, uniform grids, strains and PSDs", "why_tests_cant": "relates two functions over all inputs including the DFT kernel", "anchors": ["src/ripplegw/__init__.py:get_match_arr", "src/ripplegw/__init__.py:get_phase_maximized_inner_product_arr"]}
{"id": "C17", "title": "Match invariances", "statement": "get_match_arr is symmetric in its two waveforms, invariant under complex rescaling of either and under rescaling of the PSD, depends on the pads only through the total padded length, and is invariant under a time shift of either waveform by a multiple of 1/(N df).", "quantifier": "all lengths, pads, strains, PSDs", "why_tests_cant": "algebraic laws over all arrays", "anchors": ["src/ripplegw/__init__.py:get_match_arr"]}
{"id": "C18", "title": "Default waveform model in get_match / get_phase_maximized_inner_product", "statement": "Passing None for amp2 (Psi2) is the same as passing amp1 (Psi1); with None/None and theta1 = theta2 the match is 1 whenever the waveform has non-zero norm.", "quantifier": "all amplitude/phase/PSD functions, parameters and grids", "why_tests_cant": "higher-order arguments", "anchors": ["src/ripplegw/__init__.py:get_match", "src/ripplegw/__init__.py:get_phase_maximized_inner_product"]}
{"id": "C19", "title": "Infinite PSD bins are ignored, zero norm gives NaN", "statement": "Changing a strain in a bin whose PSD is infinite never changes the overlap or the match; if either waveform has zero noise-weighted norm the result is NaN, otherwise it is finite.", "quantifier": "all arrays", "why_tests_cant": "universally quantified non-interference", "anchors": ["src/ripplegw/__init__.py:get_phase_maximized_inner_product_arr", "src/ripplegw/__init__.py:get_match_arr"]}
{"id": "C20", "title": "Effective pads", "statement": "On a uniform grid fs[j]=(a+j) df with integers a>=0 and last index K=a+n-1>=2, get_eff_pads issues no warning and returns zero arrays of length exactly a = fs[0]/df and K-2 = fs[-1]/df-2, so the padded integrand has length 2K-1; if K<2 the second length is negative and array creation fails.", "quantifier": "all df>0, a, n", "why_tests_cant": "all sizes; off-by-one prone", "anchors": ["src/ripplegw/__init__.py:get_eff_pads"]}
{"id": "C21", "title": "LIGO-I PSD", "statement": "Sn_LIGOI(f) is +inf for every f <= 40 Hz and a finite strictly positive number for every f > 40 Hz.", "quantifier": "all real f", "why_tests_cant": "boundary exactness on a continuum", "anchors": ["src/ripplegw/noise.py:Sn_LIGOI"]}
{"id": "C22", "title": "Interpolated PSDs: range, nodes, bounds", "statement": "A PSD loaded from a table with strictly increasing frequencies and finite positive values is +inf outside [f_min, f_max], equals the (squared, if ASD) table value at every node, and between two nodes lies between the two neighbouring values, hence is finite and positive on the whole range.", "quantifier": "tables of every length, every frequency", "why_tests_cant": "induction over table length and a continuum of f", "anchors": ["src/ripplegw/noise.py:_load_noise"]}
{"id": "C23", "title": "Infinite table entries poison the PSD (Sn_O2 is NaN below 15 Hz)", "statement": "If two adjacent table values are infinite, the interpolated PSD is NaN on the whole half-open interval between them although the frequency is inside f_range; for the shipped O2 table Sn_O2(f) is NaN for every f in [10, 15.00293...).", "quantifier": "all tables with adjacent infinite values; all f in the interval", "why_tests_cant": "requires reasoning with inf-inf over a continuum of frequencies", "anchors": ["src/ripplegw/noise.py:_load_noise", "src/ripplegw/noise.py:Sn_O2", "src/ripplegw/noise_resources/O2_ASD.dat"]}
{"id": "C24", "title": "Amplitude connection polynomial solves its collocation system", "statement": "For distinct f1,f2,f3 the quartic with coefficients get_delta0..get_delta4 takes the values v1, v2, v3 at f1, f2, f3 and has slopes d1 at f1 and d3 at f3; it is the unique quartic doing so.", "quantifier": "all distinct nodes and all data", "why_tests_cant": "rational identities in eight variables with typo-prone formulas", "anchors": ["src/ripplegw/waveforms/IMRPhenomD_utils.py:get_delta0", "src/ripplegw/waveforms/IMRPhenomD_utils.py:get_delta1", "src/ripplegw/waveforms/IMRPhenomD_utils.py:get_delta2", "src/ripplegw/waveforms/IMRPhenomD_utils.py:get_delta3", "src/ripplegw/waveforms/IMRPhenomD_utils.py:get_delta4"]}
{"id": "C25", "title": "The amplitude transition frequency is the ringdown peak", "statement": "When 0<gamma2<1 and the unclamped value is non-negative, the returned f4 is a stationary point of the merger-ringdown amplitude, which strictly increases from its only other stationary point up to f4 and strictly decreases at all frequencies beyond f4; when gamma2>=1 the merger-ringdown amplitude is strictly decreasing for all frequencies and f4=|f_RD - f_damp gamma3/gamma2|.", "quantifier": "all f_RD, f_damp, gamma1..3>0", "why_tests_cant": "calculus claim over a continuum of parameters", "anchors": ["src/ripplegw/waveforms/IMRPhenomD_utils.py:get_transition_frequencies", "src/ripplegw/waveforms/IMRPhenomD.py:get_IIb_Amp"]}
{"id": "C26", "title": "Ringdown frequencies and ordering of transition frequencies", "statement": "For m1>=m2>0 and |chi|<=1: the radiated energy fraction lies in [0,1), ringdown and damping frequencies are positive whenever the QNM tables are, and f1 < f2 (the phase regions do not overlap) whenever the QNM frequency table is >= 0.0464 (its smallest entry).", "quantifier": "all masses, spins, QNM tables", "why_tests_cant": "nonlinear inequality over a 4-parameter box and arbitrary tables", "anchors": ["src/ripplegw/waveforms/IMRPhenomD_utils.py:get_fRD_fdamp", "src/ripplegw/waveforms/IMRPhenomD_utils.py:EradRational0815", "src/ripplegw/waveforms/IMRPhenomD_utils.py:get_transition_frequencies"]}
{"id": "C27", "title": "Clamped linear interpolation (QNM lookup)", "statement": "jnp.interp on a strictly increasing table returns the end values outside the table, the node values at nodes, stays between the smallest and largest table values, and is continuous.", "quantifier": "tables of every length, all query points", "why_tests_cant": "induction over table size", "anchors": ["src/ripplegw/waveforms/IMRPhenomD_utils.py:get_fRD_fdamp"]}
{"id": "C28", "title": "PhenomD phase is continuously differentiable", "statement": "For every positive mass pair, all spins and coefficients and transition frequencies 0<f1<f2, f_damp>0, the function f -> Phase(f) is continuously differentiable on f>0, including at f1 and f2 where the three pieces are glued with half-weights.", "quantifier": "all f>0, masses, spins, coefficient vectors, transition frequencies", "why_tests_cant": "continuity and differentiability are limit statements", "anchors": ["src/ripplegw/waveforms/IMRPhenomD.py:Phase", "src/ripplegw/waveforms/IMRPhenomD.py:get_inspiral_phase", "src/ripplegw/waveforms/IMRPhenomD.py:get_IIa_raw_phase", "src/ripplegw/waveforms/IMRPhenomD.py:get_IIb_raw_phase"]}
{"id": "C29", "title": "PhenomD amplitude is continuously differentiable below the cutoff", "statement": "For transition frequencies 0<f3<f4 below the cutoff the amplitude is continuously differentiable on 0<f<f_cut, including at f3 and f4.", "quantifier": "all parameters as above", "why_tests_cant": "limit statement", "anchors": ["src/ripplegw/waveforms/IMRPhenomD.py:Amp", "src/ripplegw/waveforms/IMRPhenomD.py:get_IIa_Amp", "src/ripplegw/waveforms/IMRPhenomD.py:get_inspiral_Amp", "src/ripplegw/waveforms/IMRPhenomD.py:get_IIb_Amp"]}
{"id": "C30", "title": "PhenomD high-frequency cutoff", "statement": "If the last grid frequency is below 0.2/M the waveform is nowhere cut. Otherwise, on an increasing grid whose closest point to 0.2/M has index i>=1: samples before index i-1 are untouched and samples from index i-1 on that lie above the last amplitude transition frequency are zero, so everything at or above the cutoff is zeroed and one or two points below it are lost; samples from i-1 on that are not above the transition frequency (coarse grids) keep an amplitude but lose their phase. If i=0 (for example when the whole grid lies above 0.2/M) index -1 wraps round and only the last grid point is zeroed, so strain above the cutoff is returned non-zero.", "quantifier": "all increasing grids of every length, all parameters", "why_tests_cant": "index arithmetic over every grid length, negative index wrap", "anchors": ["src/ripplegw/waveforms/IMRPhenomD.py:Amp", "src/ripplegw/waveforms/IMRPhenomD.py:_gen_IMRPhenomD"]}
{"id": "C31", "title": "PhenomD strain: distance, coalescence time and phase", "statement": "gen_IMRPhenomD: multiplying D by k>0 divides the strain by k, and |h| does not depend on tc, phic, f_ref, on every grid; on grids below the cutoff, and on grids reaching it as long as no cut sample lies at or below the last amplitude transition frequency, adding dt to tc multiplies each sample by exp(-2 pi i f dt) and adding dphi to phic multiplies it by exp(+2 i dphi).", "quantifier": "all parameters, grids, shifts", "why_tests_cant": "universally quantified covariance", "anchors": ["src/ripplegw/waveforms/IMRPhenomD.py:gen_IMRPhenomD"]}
{"id": "C32", "title": "PhenomD reference phase", "statement": "With tc=0 and phic=0, the strain at a grid point equal to f_ref (below the cutoff) has zero phase: h(f_ref) equals the amplitude, a real number.", "quantifier": "all parameters, all f_ref on the grid", "why_tests_cant": "phase convention over all inputs", "anchors": ["src/ripplegw/waveforms/IMRPhenomD.py:_gen_IMRPhenomD"]}
{"id": "C33", "title": "PhenomD samples depend only on their own frequency unless the grid reaches the cutoff", "statement": "Two grids whose last points are both below 0.2/M give the same strain at a common frequency; when a grid reaches the cutoff, the value at a frequency can depend on the rest of the grid (a witness exists).", "quantifier": "all grids", "why_tests_cant": "quantifies over all pairs of grids", "anchors": ["src/ripplegw/waveforms/IMRPhenomD.py:_gen_IMRPhenomD", "src/ripplegw/waveforms/IMRPhenomD.py:Amp"]}
{"id": "C34", "title": "PhenomD total-mass scaling", "statement": "Scaling Mc by k, all frequencies and f_ref by 1/k and tc by k multiplies the strain by k^2: vacuum waveforms depend on M only through M f up to an overall factor.", "quantifier": "all parameters and k>0", "why_tests_cant": "scaling law", "anchors": ["src/ripplegw/waveforms/IMRPhenomD.py:gen_IMRPhenomD"]}
{"id": "C35", "title": "Plus and cross polarisations", "statement": "For the D, XAS, NRTidalv2 and TaylorF2 generators, hp = h0 (1+cos^2 iota)/2 and hc = -i h0 cos iota with the same h0; hence |hc| <= |hp|, hc = -i hp face-on, hc = i hp face-off, hc = 0 edge-on.", "quantifier": "all parameters, frequencies and inclinations", "why_tests_cant": "relation between outputs for all inputs", "anchors": ["src/ripplegw/waveforms/IMRPhenomD.py:gen_IMRPhenomD_hphc", "src/ripplegw/waveforms/IMRPhenomXAS.py:gen_IMRPhenomXAS_hphc", "src/ripplegw/waveforms/IMRPhenomD_NRTidalv2.py:gen_IMRPhenomD_NRTidalv2_hphc", "src/ripplegw/waveforms/TaylorF2.py:gen_TaylorF2_hphc"]}
{"id": "C36", "title": "Missing inclination is silently replaced", "statement": "Because out-of-range array indices clamp, gen_IMRPhenomD_hphc and gen_IMRPhenomXAS_hphc called with a 7-element parameter vector (no inclination) return, without error, the waveform with inclination equal to phic.", "quantifier": "all 7-parameter vectors", "why_tests_cant": "silent behaviour for every input of the wrong length", "anchors": ["src/ripplegw/waveforms/IMRPhenomD.py:gen_IMRPhenomD_hphc", "src/ripplegw/waveforms/IMRPhenomXAS.py:gen_IMRPhenomXAS_hphc"]}
{"id": "C37", "title": "TaylorF2 amplitude law", "statement": "|h0| of gen_TaylorF2 equals sqrt(5/24) pi^(-2/3) eta^(1/2) M^2 (units) (M f)^(-7/6) / D: it does not depend on spins, tides, tc, phic or f_ref, and follows the f^(-7/6) power law.", "quantifier": "all f>0 and all parameters with positive masses and distance", "why_tests_cant": "closed form over all inputs", "anchors": ["src/ripplegw/waveforms/TaylorF2.py:_gen_TaylorF2"]}
{"id": "C38", "title": "TaylorF2 covariance and reference phase", "statement": "Adding dt to tc multiplies the strain by exp(-2 pi i f dt), adding dphi to phic by exp(2 i dphi), D by k divides by k; if f_ref != 0, tc=phic=0 then the phase at f=f_ref is pi/4 up to the overall sign; f_ref=0 means no reference subtraction.", "quantifier": "all parameters", "why_tests_cant": "covariance for all inputs", "anchors": ["src/ripplegw/waveforms/TaylorF2.py:_gen_TaylorF2"]}
{"id": "C39", "title": "TaylorF2 exchange symmetry", "statement": "The phasing coefficients are unchanged when the two bodies (mass, spin, tidal deformability) are exchanged.", "quantifier": "all masses, spins, tides", "why_tests_cant": "polynomial identity", "anchors": ["src/ripplegw/waveforms/TaylorF2.py:get_PNPhasing_F2"]}
{"id": "C40", "title": "PhenomD inspiral phase equals TaylorF2 up to 3.5PN", "statement": "At zero tidal deformability the PN coefficients used by the PhenomD inspiral phase are those of TaylorF2, except that the 3PN spin-spin terms are absent in PhenomD; for zero spins the PhenomD Taylor part equals the TaylorF2 phasing minus pi/4.", "quantifier": "all masses, spins, f>0", "why_tests_cant": "two independent transcriptions of the same series must agree as functions", "anchors": ["src/ripplegw/waveforms/IMRPhenomD.py:get_inspiral_phase", "src/ripplegw/waveforms/TaylorF2.py:get_PNPhasing_F2"]}
{"id": "C41", "title": "PhenomD and TaylorF2 agree in leading amplitude", "statement": "The PhenomD prefactor (inspiral correction set to one) and |TaylorF2| agree for all parameters up to the ratio of the two solar-mass-in-metres constants (MRSUN vs C*gt), which is 1 to within 2e-8 (and not to within 1e-8); the two amplitudes have that ratio in the limit of low frequency.", "quantifier": "all masses, distances, frequencies", "why_tests_cant": "two code paths", "anchors": ["src/ripplegw/waveforms/IMRPhenomD.py:Amp", "src/ripplegw/waveforms/IMRPhenomD.py:get_Amp0", "src/ripplegw/waveforms/TaylorF2.py:_gen_TaylorF2", "src/ripplegw/constants.py"]}
{"id": "C42", "title": "Leading tidal phase is -39/2 lambda-tilde", "statement": "The 5PN tidal coefficient of TaylorF2 is -(39/2) lambda_tilde (lambda_tilde from lambdas_to_lambda_tildes), the 6.5PN one is -pi times the 5PN one, tidal terms are linear in (lambda1, lambda2) and vanish for black holes, and the 7.5PN tidal term is absent.", "quantifier": "all m1>=m2>0, lambdas", "why_tests_cant": "identity across modules", "anchors": ["src/ripplegw/waveforms/TaylorF2.py:get_PNPhasing_F2", "src/ripplegw/waveforms/TaylorF2.py:get_10PNTidalCoeff", "src/ripplegw/__init__.py:lambdas_to_lambda_tildes"]}
{"id": "C43", "title": "kappa is 3/16 lambda-tilde and tidal models agree at leading order", "statement": "get_kappa = (3/16) lambda_tilde for m1>=m2, is symmetric under exchange of the bodies, and the leading NRTidalv2 tidal phase equals the leading TaylorF2 tidal phase.", "quantifier": "all masses and tidal parameters", "why_tests_cant": "cross-module identity", "anchors": ["src/ripplegw/waveforms/IMRPhenom_tidal_utils.py:get_kappa", "src/ripplegw/waveforms/IMRPhenomD_NRTidalv2.py:get_tidal_phase", "src/ripplegw/waveforms/TaylorF2.py:get_PNPhasing_F2"]}
{"id": "C44", "title": "Planck taper shape", "statement": "get_planck_taper(x,y) for y>0 is 1 for x<=y, 0 for x>1.2y, strictly between 0 and 1 and strictly decreasing for y<x<1.2y, tends to 1 at y and to 0 at 1.2y, and never NaN; but at x exactly 1.2y it evaluates to 1, not 0 (division by +0).", "quantifier": "all x, all y>0", "why_tests_cant": "limits, and one isolated point on a continuum", "anchors": ["src/ripplegw/waveforms/IMRPhenomD_NRTidalv2.py:get_planck_taper"]}
{"id": "C45", "title": "Planck taper derivative rule", "statement": "The custom derivative get_planck_taper_der(x,y) is the exact partial derivative of get_planck_taper with respect to y at every x other than y and 1.2y (hence gradients of the waveform with respect to parameters through the merger frequency are right), while the derivative rule with respect to x is registered as None (zero) although the true derivative is non-zero inside the taper.", "quantifier": "all y>0 and x not in {y,1.2y}", "why_tests_cant": "derivative of a hand-coded rule over a continuum", "anchors": ["src/ripplegw/waveforms/IMRPhenomD_NRTidalv2.py:get_planck_taper_der", "src/ripplegw/waveforms/IMRPhenomD_NRTidalv2.py:get_planck_taper"]}
{"id": "C46", "title": "Black-hole limit of NRTidalv2", "statement": "With lambda1=lambda2=0, zero spins and no_taper the NRTidalv2 strain equals the PhenomD strain; with the taper it is the taper times it; with non-zero spins it does NOT reduce to PhenomD because the octupole fit gives exp(0.003131) != 1 at lambda=0.", "quantifier": "all parameters and grids", "why_tests_cant": "limit equality of two generators", "anchors": ["src/ripplegw/waveforms/IMRPhenomD_NRTidalv2.py:gen_IMRPhenomD_NRTidalv2", "src/ripplegw/waveforms/IMRPhenomD_NRTidalv2.py:get_spin_phase_correction", "src/ripplegw/waveforms/IMRPhenom_tidal_utils.py:_get_quadparam_octparam_low"]}
{"id": "C47", "title": "Quadrupole fit joins smoothly at lambda=1", "statement": "The two branches of get_quadparam_octparam agree at lambda=1 in value, first and second derivative to within 1e-9, the quadrupole parameter is 1 at lambda=0, and >= 1 for lambda in [0,1].", "quantifier": "all lambda in [0,1], and the junction", "why_tests_cant": "transcendental junction, real-number bounds", "anchors": ["src/ripplegw/waveforms/IMRPhenom_tidal_utils.py:get_quadparam_octparam"]}
{"id": "C48", "title": "Merger frequency", "statement": "_get_merger_frequency is positive, strictly decreasing in kappa >= 0 at fixed masses, and scales as 1/M; for kappa=0 it is 0.3586 sqrt(m2/m1)/(2 pi M).", "quantifier": "all masses and kappa>=0", "why_tests_cant": "monotonicity over a continuum", "anchors": ["src/ripplegw/waveforms/IMRPhenomD_NRTidalv2.py:_get_merger_frequency"]}
{"id": "C49", "title": "use_lambda_tildes is only a change of coordinates", "statement": "gen_IMRPhenomD_NRTidalv2 and gen_TaylorF2 with use_lambda_tildes=True and the tilde pair obtained from (lambda1, lambda2) return the same strain as with use_lambda_tildes=False and (lambda1, lambda2), except at the one singular mass ratio eta = 4823/249158.", "quantifier": "all parameters with 0<eta<=1/4, eta != 4823/249158", "why_tests_cant": "relates two code paths for all inputs", "anchors": ["src/ripplegw/waveforms/IMRPhenomD_NRTidalv2.py:gen_IMRPhenomD_NRTidalv2", "src/ripplegw/waveforms/TaylorF2.py:gen_TaylorF2"]}
{"id": "C50", "title": "NRTidalv2 covariance", "statement": "Distance scaling 1/D, time shift exp(-2 pi i f dt) and phase exp(2 i dphi) hold for the tidal waveform below the cutoff.", "quantifier": "all parameters and grids", "why_tests_cant": "covariance", "anchors": ["src/ripplegw/waveforms/IMRPhenomD_NRTidalv2.py:gen_IMRPhenomD_NRTidalv2"]}
{"id": "C51", "title": "Sine-Gaussian root-sum-square amplitude", "statement": "For quality>0, frequency>0 and 0<=e<=1 the time integral of hplus^2 + hcross^2 equals hrss^2, and the two polarisations carry the fractions a^2 and b^2.", "quantifier": "all parameters", "why_tests_cant": "an improper integral over all times", "anchors": ["src/ripplegw/waveforms/SineGaussian.py:gen_SineGaussian_hphc"]}
{"id": "C52", "title": "Sine-Gaussian ellipse", "statement": "semi_major_minor_from_e returns a,b with a^2+b^2=1, 0<=b<=a, b^2 = a^2 (1-e^2): e=0 is circular, e=1 gives b=0 (hcross identically 0).", "quantifier": "all e in [0,1]", "why_tests_cant": "continuum", "anchors": ["src/ripplegw/waveforms/SineGaussian.py:semi_major_minor_from_e"]}
{"id": "C53", "title": "Sine-Gaussian envelope and symmetries", "statement": "|hplus| and |hcross| are bounded by h0 exp(-(2 pi f t)^2/(2Q^2)), linear in hrss, and phase -> phase+pi flips the sign of both.", "quantifier": "all t and parameters", "why_tests_cant": "continuum", "anchors": ["src/ripplegw/waveforms/SineGaussian.py:gen_SineGaussian_hphc"]}
{"id": "C54", "title": "Frame rotations are rotations", "statement": "ROTATEZ and ROTATEY preserve Euclidean length and dot products, compose additively in the angle and are inverted by the negative angle.", "quantifier": "all angles and vectors", "why_tests_cant": "continuum", "anchors": ["src/ripplegw/waveforms/IMRPhenomPv2_utils.py:ROTATEZ", "src/ripplegw/waveforms/IMRPhenomPv2_utils.py:ROTATEY"]}
{"id": "C55", "title": "Half-angle Wigner coefficients", "statement": "WignerdCoefficients returns non-negative (c,s) with c^2+s^2=1 and c >= s, s=0 iff the in-plane spin vanishes; they are the half-angle cosine and sine of the opening angle arctan(|Sp/(L+SL)|).", "quantifier": "all v>0, SL, eta, Sp with L+SL != 0", "why_tests_cant": "continuum", "anchors": ["src/ripplegw/waveforms/IMRPhenomPv2_utils.py:WignerdCoefficients"]}
{"id": "C56", "title": "Spin-weighted spherical harmonics", "statement": "The five values SpinWeightedY(theta,0,-2,2,m) satisfy sum |Y|^2 = 5/(4 pi) for every theta and Y(theta,m) = Y(pi-theta,-m); any |m|>2 with s=-2,l=2 raises ValueError and any other (s,l) fails.", "quantifier": "all theta, all integers s,l,m", "why_tests_cant": "addition theorem on a continuum; error branch on all integers", "anchors": ["src/ripplegw/waveforms/IMRPhenomPv2_utils.py:SpinWeightedY"]}
{"id": "C57", "title": "Effective precession spin", "statement": "For 0<m1<=m2 (internal convention) and spin magnitudes <= 1 the chip returned by convert_spins lies in [0,1], vanishes iff both in-plane spins vanish, and is unchanged by rotating both spins about the orbital axis.", "quantifier": "all masses and spins", "why_tests_cant": "inequality over eight parameters", "anchors": ["src/ripplegw/waveforms/IMRPhenomPv2_utils.py:convert_spins"]}
{"id": "C58", "title": "Angle between line of sight and total angular momentum", "statement": "The thetaJN returned by convert_spins is the angle between N and J: cos(thetaJN) = N.J/|J| with N the line-of-sight vector and J the total angular momentum; in the J frame the line of sight has zero y component and the polarisation vector X is orthonormal to N, so its P,Q components have unit norm.", "quantifier": "all masses, spins, f_ref, phiRef, incl with J != 0", "why_tests_cant": "composition of three rotations over all angles", "anchors": ["src/ripplegw/waveforms/IMRPhenomPv2_utils.py:convert_spins"]}
{"id": "C59", "title": "Aligned-spin limit of PhenomPv2", "statement": "If the in-plane spins vanish, |hp| and |hc| of gen_IMRPhenomPv2_hphc equal those of gen_IMRPhenomD_hphc with the same chirp mass, mass ratio, spins, distance, inclination and grid, at every positive frequency (including cut ones) and whatever time, phase and reference frequency is given to either; and for an inclined binary with L+S>0 on a grid below the cutoff the complex waveforms agree up to one overall time and phase shift.", "quantifier": "all masses, aligned spins with L+S != 0, inclinations, grids", "why_tests_cant": "equality of two large code paths in a limit", "anchors": ["src/ripplegw/waveforms/IMRPhenomPv2.py:gen_IMRPhenomPv2", "src/ripplegw/waveforms/IMRPhenomPv2.py:PhenomPCoreTwistUp", "src/ripplegw/waveforms/IMRPhenomPv2_utils.py:ComputeNNLOanglecoeffs", "src/ripplegw/waveforms/IMRPhenomPv2_utils.py:FinalSpin_inplane"]}
{"id": "C60", "title": "PhenomPv2 power and distance", "statement": "At every positive frequency with L+S != 0, |hp|^2+|hc|^2 = A^2 (((1+x^2)/2)^2 + x^2) with A the aligned-spin amplitude and x the cosine of the instantaneous inclination (so between A^2/4 and 2A^2): the final rotation and the time-shift factors do not change the power; multiplying the distance by k divides both polarisations by k.", "quantifier": "all masses m1>=m2>0, spins, angles, grids", "why_tests_cant": "algebraic identity through the whole twist-up for all inputs", "anchors": ["src/ripplegw/waveforms/IMRPhenomPv2.py:gen_IMRPhenomPv2"]}
{"id": "C61", "title": "gen_IMRPhenomPv2_hphc is a change of mass coordinates", "statement": "gen_IMRPhenomPv2_hphc([Mc,eta,...]) equals gen_IMRPhenomPv2([m1,m2,...]) with the masses of Mc_eta_to_ms; with eleven parameters it does not fail but uses phiRef as inclination, whereas gen_IMRPhenomPv2 raises ValueError unless it gets exactly twelve.", "quantifier": "all parameter vectors", "why_tests_cant": "wrapper indices and error branch for all lengths", "anchors": ["src/ripplegw/waveforms/IMRPhenomPv2.py:gen_IMRPhenomPv2_hphc", "src/ripplegw/waveforms/IMRPhenomPv2.py:gen_IMRPhenomPv2"]}
{"id": "C62", "title": "XAS phase is continuously differentiable", "statement": "For every solution of the collocation systems, f -> Phase(f) of IMRPhenomXAS is continuously differentiable for 0<fM<0.3 when 0<f1<f2<0.3 (dimensionless).", "quantifier": "all parameters, coefficient tables, frequencies", "why_tests_cant": "limit statement", "anchors": ["src/ripplegw/waveforms/IMRPhenomXAS.py:Phase"]}
{"id": "C63", "title": "XAS amplitude is continuously differentiable", "statement": "The IMRPhenomXAS amplitude is continuously differentiable across both transition frequencies (below fM=0.3) whenever the connection polynomial does not vanish.", "quantifier": "all parameters, tables, frequencies", "why_tests_cant": "limit statement", "anchors": ["src/ripplegw/waveforms/IMRPhenomXAS.py:Amp", "src/ripplegw/waveforms/IMRPhenomXAS.py:get_intermediate_Amp"]}
{"id": "C64", "title": "XAS collocation", "statement": "The inspiral pseudo-PN amplitude terms take the collocation values at the three collocation frequencies; the intermediate connection polynomial interpolates value and slope at both ends; the ringdown amplitude takes the fitted value v1RD at its peak frequency. The slope of the phase takes the fitted values at the Chebyshev collocation frequencies of each of the three regions, so the intermediate phase needs no slope correction.", "quantifier": "all nodes and data", "why_tests_cant": "rational identities in many variables", "anchors": ["src/ripplegw/waveforms/IMRPhenomXAS.py:get_inspiral_Amp", "src/ripplegw/waveforms/IMRPhenomXAS.py:get_intermediate_Amp", "src/ripplegw/waveforms/IMRPhenomXAS.py:get_mergerringdown_Amp"]}
{"id": "C65", "title": "XAS cutoff", "statement": "IMRPhenomXAS strain is exactly zero for every fM > 0.3 and never zeroed by the cutoff below; each sample depends only on its own frequency.", "quantifier": "all parameters, frequencies, grids", "why_tests_cant": "boundary and locality over all grids", "anchors": ["src/ripplegw/waveforms/IMRPhenomXAS.py:Amp", "src/ripplegw/waveforms/IMRPhenomXAS.py:Phase"]}
{"id": "C66", "title": "XAS distance, time and phase conventions differ from PhenomD", "statement": "gen_IMRPhenomXAS: D by k divides by k, adding dt to tc multiplies by exp(+2 pi i f dt) and adding dphi to phic multiplies by exp(-i dphi); so the same change of (tc, phic) acts with the opposite sign, and half the phase, compared to gen_IMRPhenomD.", "quantifier": "all parameters", "why_tests_cant": "cross-model convention for all inputs", "anchors": ["src/ripplegw/waveforms/IMRPhenomXAS.py:gen_IMRPhenomXAS", "src/ripplegw/waveforms/IMRPhenomD.py:gen_IMRPhenomD"]}
{"id": "C67", "title": "XAS reference phase", "statement": "With tc=phic=0 the phase of the IMRPhenomXAS strain at f=f_ref is -3 pi/4.", "quantifier": "all parameters, f_ref", "why_tests_cant": "all inputs", "anchors": ["src/ripplegw/waveforms/IMRPhenomXAS.py:_gen_IMRPhenomXAS"]}
{"id": "C68", "title": "XAS inspiral series agrees with TaylorF2", "statement": "The Taylor coefficients of the IMRPhenomXAS inspiral phase are those of TaylorF2 without tides up to 3PN (including spin-spin terms), and the 3.5PN one differs exactly by the spin-spin tail and cubic-in-spin terms; throughout its inspiral region the XAS phase is minus the textbook TaylorF2 phase up to a constant, those terms, the 4PN spin-orbit tail and four fitted powers of frequency.", "quantifier": "all masses m1>=m2, spins", "why_tests_cant": "independent transcriptions must agree as polynomials", "anchors": ["src/ripplegw/waveforms/IMRPhenomXAS.py:get_inspiral_phase", "src/ripplegw/waveforms/TaylorF2.py:get_PNPhasing_F2"]}
{"id": "C69", "title": "XAS inspiral amplitude series agrees with PhenomD", "statement": "The Taylor amplitude coefficients agree between XAS and D up to 2PN for all spins and up to 3PN for zero spins; at 2.5PN they differ by exactly the horizon-absorption term chi(1+3chi^2)X^3/8 of each body.", "quantifier": "all masses, spins", "why_tests_cant": "two transcriptions", "anchors": ["src/ripplegw/waveforms/IMRPhenomXAS.py:get_inspiral_Amp", "src/ripplegw/waveforms/IMRPhenomD.py:get_inspiral_Amp"]}
{"id": "C70", "title": "XAS total-mass scaling", "statement": "Scaling Mc by k, frequencies and f_ref by 1/k and tc by k multiplies the IMRPhenomXAS strain by k^2.", "quantifier": "all parameters, k>0", "why_tests_cant": "scaling law", "anchors": ["src/ripplegw/waveforms/IMRPhenomXAS.py:gen_IMRPhenomXAS"]}
{"id": "C71", "title": "XAS ISCO radius", "statement": "For final spin |a|<=1 the ISCO radius used by XAS is the unique solution of the Kerr marginal stability equation r^2-6r+8a sqrt(r)-3a^2=0, lies in [1,9], is 6 at a=0, 1 at a=1 and 9 at a=-1, decreases strictly with a; the guard clamp at Z1=3 is inactive; the ISCO frequency is the Kerr orbital frequency over pi, lies in [1/(26 pi),1/(2 pi)] and increases strictly with a.", "quantifier": "all a in [-1,1]", "why_tests_cant": "continuum with nested roots", "anchors": ["src/ripplegw/waveforms/IMRPhenomX_utils.py:get_cutoff_fMs"]}
{"id": "C72", "title": "Generator dispatch", "statement": "FD_waveform_generator.generate_waveform calls exactly the generator registered for 'XAS','D','D_NRTidalv2','Pv2' and raises ValueError for every other string.", "quantifier": "all strings and arguments", "why_tests_cant": "all inputs", "anchors": ["src/ripplegw/FD_waveform.py:FD_waveform_generator"]}
{"id": "C73", "title": "Generators disagree on mass parametrisation", "statement": "generate_waveform('Pv2', fs, [m1,m2,...]) reads component masses: for m1>=m2>0 it equals gen_IMRPhenomPv2_hphc at the chirp mass and symmetric mass ratio of (m1,m2), while 'XAS', 'D' and 'D_NRTidalv2' read (Mc,eta). The conventions are never interchangeable: for every physical (Mc,eta) the larger component mass exceeds Mc. Vectors of any length other than twelve (such as the eight-entry vectors of 'D') raise ValueError for 'Pv2'.", "quantifier": "all parameter vectors", "why_tests_cant": "API convention over all inputs", "anchors": ["src/ripplegw/FD_waveform.py:FD_waveform_generator", "src/ripplegw/waveforms/IMRPhenomPv2.py:gen_IMRPhenomPv2"]}
{"id": "C74", "title": "PhenomD amplitude regions are ordered for every physical binary", "statement": "For all positive masses and spins |chi|<=1, with QNM tables in the range of the shipped ones, 0 < f3 < f4 <= f_RD < 0.2/M, the damping frequency is positive and so are the three fitted ringdown coefficients: the connection polynomial is never degenerate, the ringdown peak lies below the cutoff and the waveform is never negative beyond the peak.", "quantifier": "all masses, spins in [-1,1], all QNM tables in range", "why_tests_cant": "polynomial fits of degree 5 in two variables over a continuum; a degenerate point would give NaN only there", "anchors": ["src/ripplegw/waveforms/IMRPhenomD_utils.py:get_transition_frequencies", "src/ripplegw/waveforms/IMRPhenomD_utils.py:get_coeffs", "src/ripplegw/waveforms/IMRPhenomD_utils.py:get_fRD_fdamp"]}
{"id": "C75", "title": "TaylorF2 strain is the textbook 3.5PN stationary-phase waveform", "statement": "gen_TaylorF2 without reference phase returns, at every f>0, the strain with the Newtonian amplitude and the published 3.5PN phase (point-particle, spin-orbit, spin-spin with quadrupole-monopole terms, 5PN to 7PN tidal terms) written independently from the code, term by term; with zero tidal parameters it is the black-hole series.", "quantifier": "all masses, spins, tidal parameters, distances, times, phases, frequencies", "why_tests_cant": "dozens of rational coefficients in three variables; comparing with a second implementation at sample points cannot exclude a wrong term that is small there", "anchors": ["src/ripplegw/waveforms/TaylorF2.py:get_PNPhasing_F2", "src/ripplegw/waveforms/TaylorF2.py:_gen_TaylorF2", "src/ripplegw/waveforms/TaylorF2.py:gen_TaylorF2"]}
{"id": "C76", "title": "NRTidalv2 output above the cutoff", "statement": "With the taper the NRTidalv2 strain is exactly zero for every f > 1.2 f_merger, and 1.2 f_merger < 0.2/M for m1>=m2, so nothing is emitted above the PhenomD cutoff; with no_taper=True the strain above the cutoff is not zero whenever a tidal parameter is positive: it equals the tidal amplitude alone and no longer follows tc or phic.", "quantifier": "all masses, tidal parameters, frequencies", "why_tests_cant": "an option flag changes behaviour on an unbounded frequency range", "anchors": ["src/ripplegw/waveforms/IMRPhenomD_NRTidalv2.py:_gen_IMRPhenomD_NRTidalv2", "src/ripplegw/waveforms/IMRPhenomD_NRTidalv2.py:get_planck_taper", "src/ripplegw/waveforms/IMRPhenomD_NRTidalv2.py:_get_merger_frequency"]}
{"id": "C77", "title": "Missing inclination in the tidal generators", "statement": "gen_TaylorF2_hphc and gen_IMRPhenomD_NRTidalv2_hphc called with a 9-element vector (no inclination) raise no error: TaylorF2 uses phic as inclination; NRTidalv2 uses phic as inclination and, because the last entry has been stripped, tc as coalescence phase.", "quantifier": "all parameter vectors of length 9", "why_tests_cant": "silent index wrap for all inputs", "anchors": ["src/ripplegw/waveforms/TaylorF2.py:gen_TaylorF2_hphc", "src/ripplegw/waveforms/IMRPhenomD_NRTidalv2.py:gen_IMRPhenomD_NRTidalv2_hphc"]}
{"id": "C78", "title": "Tidal phase has no pole", "statement": "The denominator of the NRTidalv2 tidal phase and amplitude fits is strictly positive at every frequency, so both are continuous at all f>0; the amplitude correction is negative at every frequency, and the phase correction is negative up to v=1 (far above the cutoff) but changes sign beyond (it is positive at v=2).", "quantifier": "all x>=0, all masses and tidal parameters", "why_tests_cant": "a rational function whose denominator dips to 0.2: sampling cannot exclude a root", "anchors": ["src/ripplegw/waveforms/IMRPhenomD_NRTidalv2.py:get_tidal_phase", "src/ripplegw/waveforms/IMRPhenomD_NRTidalv2.py:get_tidal_amplitude"]}
{"id": "C79", "title": "NRTidalv2 spin-induced quadrupole terms agree with TaylorF2", "statement": "The 2PN and 3PN spin-quadrupole corrections that NRTidalv2 adds to the black-hole phase are exactly the difference between the TaylorF2 spin-spin terms for the neutron-star quadrupole and those for a black hole (quadrupole parameter 1).", "quantifier": "all masses, spins, tidal parameters, frequencies", "why_tests_cant": "identity between two independently transcribed series", "anchors": ["src/ripplegw/waveforms/IMRPhenomD_NRTidalv2.py:get_spin_phase_correction", "src/ripplegw/waveforms/TaylorF2.py:get_PNPhasing_F2"]}
{"id": "C80", "title": "Tidal phases of NRTidalv2 and TaylorF2 agree for equal masses through 6.5PN", "statement": "For equal masses and any deformabilities the NRTidalv2 tidal phase reproduces the 5PN, 6PN and 6.5PN tidal terms of TaylorF2; its 7PN term is 28024205/3302208 of the leading one whereas TaylorF2 has 379931975/44579808; the remainder relative to the leading term is below 1e-8 v^2 + 700 v^5 for v <= 1/2.", "quantifier": "all equal masses, deformabilities, 0<v<=1/2", "why_tests_cant": "comparison of a fitted rational function with a series over a continuum, with explicit error", "anchors": ["src/ripplegw/waveforms/IMRPhenomD_NRTidalv2.py:get_tidal_phase", "src/ripplegw/waveforms/TaylorF2.py:get_PNPhasing_F2"]}
{"id": "C81", "title": "PhenomPv2 radiation pattern", "statement": "gen_IMRPhenomPv2 never fails on twelve parameters and returns two lists of the length of the grid; at every positive frequency with L+S != 0 the circular polarisations satisfy |hp - i hc| = A (1-x)^2/2 and |hp + i hc| = A (1+x)^2/2, where A is the aligned-spin amplitude (PhenomD amplitude with the precessing final spin) and x in [-1,1] is the cosine of the angle between the line of sight and the orbital angular momentum at that frequency (spherical triangle of precession cone angle, thetaJN and azimuth).", "quantifier": "all masses m1>=m2>0, spins, angles, grids", "why_tests_cant": "closed form of a 5-term complex sum with frequency dependent angles over all inputs", "anchors": ["src/ripplegw/waveforms/IMRPhenomPv2.py:gen_IMRPhenomPv2", "src/ripplegw/waveforms/IMRPhenomPv2.py:PhenomPCoreTwistUp", "src/ripplegw/waveforms/IMRPhenomPv2_utils.py:SpinWeightedY", "src/ripplegw/waveforms/IMRPhenomPv2_utils.py:WignerdCoefficients"]}
{"id": "C82", "title": "Inclination at the reference frequency", "statement": "If only the heavier body has in-plane spin and L+S>0, the instantaneous inclination of PhenomPv2 at f_ref is the inclination passed by the caller; the waveform sample at f_ref has the moduli of a non-precessing binary at that inclination.", "quantifier": "all masses m1>=m2>0, spins of the heavier body, phases, inclinations", "why_tests_cant": "frame conversion composed with the twist-up over all angles", "anchors": ["src/ripplegw/waveforms/IMRPhenomPv2_utils.py:convert_spins", "src/ripplegw/waveforms/IMRPhenomPv2.py:gen_IMRPhenomPv2"]}
{"id": "C83", "title": "Orbital angular momentum of PhenomPv2 is not the 2PN one", "statement": "L2PNR satisfies the first law dE/dv = omega dL/dv against the 2PN binding energy except for a defect of exactly eta^3 v^5/4: the 2PN eta^2 coefficient has the wrong sign (-1/24 instead of +1/24); the Newtonian limit v L -> eta is exact.", "quantifier": "all v>0, eta", "why_tests_cant": "sign of one small coefficient; invisible at the tolerance of waveform comparisons", "anchors": ["src/ripplegw/waveforms/IMRPhenomPv2_utils.py:L2PNR"]}
{"id": "C84", "title": "Precession angle coefficients", "statement": "The coefficients of ComputeNNLOanglecoeffs: the leading azimuth term obeys the leading-order precession equation dalpha/dv = Omega_prec/(dv/dt) to 1e-16/v^4, the spin-orbit term is -(5 chil/(128 m1))(3 m1 + 4 m2), azimuth and third Euler angle coefficients coincide at first and second order always and at all orders when chip=0, and the azimuth/third-angle differences at third and fourth order are those of d(epsilon) = cos(beta) d(alpha) with tan(beta) = S_perp/(L+S_par), as are the chip^4 and chip^2 chil^2 terms at fifth order.", "quantifier": "all mass fractions m1+m2=1, all spins", "why_tests_cant": "rational functions of the mass ratio", "anchors": ["src/ripplegw/waveforms/IMRPhenomPv2_utils.py:ComputeNNLOanglecoeffs"]}
{"id": "C85", "title": "In-plane axes are a gauge choice in PhenomPv2", "statement": "Rotating both spins about the orbital axis by d and subtracting d from phiRef multiplies both polarisations of gen_IMRPhenomPv2 by exp(-2 i d), when the total in-plane spin does not vanish.", "quantifier": "all masses, spins with non-zero total in-plane spin, angles, grids", "why_tests_cant": "covariance over all inputs; passes through atan2 branch cuts", "anchors": ["src/ripplegw/waveforms/IMRPhenomPv2_utils.py:convert_spins", "src/ripplegw/waveforms/IMRPhenomPv2.py:gen_IMRPhenomPv2"]}
{"id": "C86", "title": "PhenomPv2 ignores the reference phase for aligned spins", "statement": "With vanishing in-plane spins, sin(incl) != 0 and L+S != 0 the output of gen_IMRPhenomPv2_hphc does not depend on phiRef at all (PhenomD multiplies by exp(2 i phic)).", "quantifier": "all masses, aligned spins, inclinations, grids, phases", "why_tests_cant": "degenerate branch on a measure-zero set of inputs", "anchors": ["src/ripplegw/waveforms/IMRPhenomPv2_utils.py:convert_spins", "src/ripplegw/waveforms/IMRPhenomPv2.py:gen_IMRPhenomPv2"]}
{"id": "C87", "title": "Unit of the coalescence time in PhenomPv2", "statement": "Adding tau to tc multiplies both polarisations by exp(-i f M tau) with M the total mass in seconds; tc is thus in units of M/(2 pi) and a shift by tau seconds needs the parameter 2 pi tau/M, unlike PhenomD, NRTidalv2 and TaylorF2 which use seconds.", "quantifier": "all parameters, tau", "why_tests_cant": "convention over all inputs", "anchors": ["src/ripplegw/waveforms/IMRPhenomPv2.py:gen_IMRPhenomPv2"]}
{"id": "C88", "title": "PhenomPv2 total-mass scaling", "statement": "Multiplying both masses by k>0 and dividing grid and f_ref by k multiplies both polarisations by k^2, all other parameters (including tc) unchanged.", "quantifier": "all positive masses and f_ref, spins, grids, k>0", "why_tests_cant": "scaling law through every subroutine", "anchors": ["src/ripplegw/waveforms/IMRPhenomPv2.py:gen_IMRPhenomPv2", "src/ripplegw/waveforms/IMRPhenomPv2_utils.py:convert_spins", "src/ripplegw/waveforms/IMRPhenomPv2_utils.py:phP_get_transition_frequencies"]}
{"id": "C89", "title": "When the frequency grid triggers warnings", "statement": "On a grid of at least two points with positive mean spacing df, get_eff_pads warns that the grid is not evenly spaced exactly when some gap differs from df by more than 1e-8+1e-5 df, and warns that the frequencies are not multiples of df exactly when the first frequency (equivalently the last) is no integer multiple of df.", "quantifier": "all grids with positive mean spacing", "why_tests_cant": "an iff over all real grids; tests use a handful of grids", "anchors": ["src/ripplegw/__init__.py:get_eff_pads"]}
{"id": "C90", "title": "Zero entries of a noise table never give a zero PSD", "statement": "For a table of non-negative values (zeros allowed) the PSD returned by the loaded interpolant is positive, +inf or NaN at every frequency, never zero or negative, so dividing by it cannot produce an infinite weight. A zero entry makes the cell on its right NaN and the interior of the cell on its left +inf, and the PSD at the finite node just left of a zero entry is NaN although its table entry is finite.", "quantifier": "all tables with increasing frequencies and non-negative values, all frequencies", "why_tests_cant": "exceptional float values propagate through interpolation; shipped tables contain no zeros so no test reaches it", "anchors": ["src/ripplegw/noise.py:_load_noise"]}
{"id": "C91", "title": "Remnant and ringdown frequencies of IMRPhenomXAS", "statement": "For every pair of positive masses and spins of magnitude at most 1 the remnant spin used by IMRPhenomXAS lies strictly between -1 and 1, the radiated mass fraction between 0 and 0.12, the ISCO frequency is the one of the Kerr hole with that spin, and the ringdown and damping frequencies in units of the remnant mass lie in (0.045, 0.16) and (0.0015, 0.0145).", "quantifier": "all positive masses, all spins in [-1,1]", "why_tests_cant": "rational fits in two or three variables over a continuum; a fit leaving the Kerr range gives NaN in the ISCO formula", "anchors": ["src/ripplegw/waveforms/IMRPhenomX_utils.py:get_cutoff_fMs"]}
{"id": "C92", "title": "Frequency regions of IMRPhenomXAS are ordered", "statement": "For every physical binary the end of the inspiral phase region is positive and below the start of the ringdown phase region, which is below the cutoff f M = 0.3; the ringdown collocation frequencies increase; the amplitude inspiral region ends below the ringdown region, whose start is below the ringdown frequency, itself below the cutoff; the ringdown decay rate and width are positive.", "quantifier": "all positive masses, all spins in [-1,1]", "why_tests_cant": "order of several fitted functions over a three-dimensional continuum; an inversion would make the step functions overlap", "anchors": ["src/ripplegw/waveforms/IMRPhenomX_utils.py:get_cutoff_fMs", "src/ripplegw/waveforms/IMRPhenomXAS.py:Phase", "src/ripplegw/waveforms/IMRPhenomXAS.py:Amp", "src/ripplegw/waveforms/IMRPhenomXAS.py:get_mergerringdown_raw_phase", "src/ripplegw/waveforms/IMRPhenomXAS.py:get_mergerringdown_Amp"]}
{"id": "C93", "title": "Quasi-normal-mode tables", "statement": "The ringdown and damping tables built at import are the not-a-knot cubic splines (through all 1003 published points, cubic between them, C2, one cubic on the first two and last two cells) sampled at 500000 equally spaced spins; looking up any spin in [-1,1] gives the spline to 4e-5, hence the published value at every published spin; the ringdown lookup increases strictly with spin; ringdown values lie in [0.0464014, 0.1579619] and damping values in [0.0002908, 0.0143] (no overshoot of the spline).", "quantifier": "all spins in [-1,1], all 1003 rows, all interp guards below the grid spacing", "why_tests_cant": "monotonicity and absence of overshoot of an interpolant over a continuum; tests compare waveforms at a few spins", "anchors": ["src/ripplegw/waveforms/IMRPhenomD_QNMdata.py:QNMData_fRD", "src/ripplegw/waveforms/IMRPhenomD_QNMdata.py:QNMData_fdamp", "src/ripplegw/waveforms/IMRPhenomD_utils.py:get_fRD_fdamp"]}
{"id": "C94", "title": "Remnant of an aligned-spin binary in PhenomD", "statement": "For all positive masses and spins in [-1,1] the remnant spin of PhenomD lies strictly between -1 and 1 (so the table lookup is never clamped) and increases strictly with the spin of either body; the ringdown and damping frequencies times the remnant mass (1-Erad) M equal the published quasi-normal-mode values, interpolated, at that spin to 4e-5.", "quantifier": "all positive masses, all spins in [-1,1]", "why_tests_cant": "polynomial fit over a three-dimensional continuum; jnp.interp clamps silently if the fit leaves the Kerr range", "anchors": ["src/ripplegw/waveforms/IMRPhenomD_utils.py:FinalSpin0815_s", "src/ripplegw/waveforms/IMRPhenomD_utils.py:get_fRD_fdamp", "src/ripplegw/waveforms/IMRPhenomD_QNMdata.py:QNMData_a"]}
{"id": "C95", "title": "Remnant of a precessing binary in PhenomPv2", "statement": "For all masses m1>=m2>0 and all spin vectors of length at most 1 the remnant spin used by PhenomPv2 lies strictly between -1 and 1, although the in-plane spin is added in quadrature to a fit; its square is the sum of the squares of the aligned-spin remnant and of chip (m1/M)^2, its sign is that of the aligned-spin remnant; ringdown and damping frequencies are the published ones at that spin to 4e-5.", "quantifier": "all m1>=m2>0, all spin vectors of length <=1", "why_tests_cant": "a sum of squares of a fit and a maximum over a six-dimensional continuum; leaving the Kerr range would be clamped silently", "anchors": ["src/ripplegw/waveforms/IMRPhenomPv2_utils.py:FinalSpin_inplane", "src/ripplegw/waveforms/IMRPhenomPv2_utils.py:phP_get_fRD_fdamp", "src/ripplegw/waveforms/IMRPhenomPv2_utils.py:convert_spins"]}
{"id": "C96", "title": "Frequency regions and cutoff of PhenomPv2", "statement": "For all physical precessing binaries the phase regions (f1<f2<f_RD) and amplitude regions (f3<f4<=f_RD) are ordered and below the cutoff 0.2/M, the underlying phase is C1 and the underlying amplitude is C1 below the cutoff; on an increasing grid with a point below the cutoff closer to it than the first point, both polarisations vanish at every frequency at or above the cutoff, but on a grid lying entirely above the cutoff every sample except the last carries power.", "quantifier": "all m1>=m2>0, spin vectors of length <=1, grids", "why_tests_cant": "order of fitted functions over a continuum; index wrap-around only shows on grids above the cutoff", "anchors": ["src/ripplegw/waveforms/IMRPhenomPv2_utils.py:phP_get_transition_frequencies", "src/ripplegw/waveforms/IMRPhenomPv2.py:gen_IMRPhenomPv2", "src/ripplegw/waveforms/IMRPhenomD.py:Amp"]}
{"id": "C97", "title": "Ringdown fits of IMRPhenomXAS reproduce the quasi-normal-mode tables", "statement": "The two rational fits of IMRPhenomXAS for the ringdown and damping frequency of a Kerr remnant agree with the not-a-knot splines through the 1003 data points shipped with PhenomD: within 1.32e-5 for spins in [-1,0.95), within 5.3e-5 below 0.99 and 0.0081 on all of [-1,1] (ringdown); within 2.1e-5 below 0.99 and 0.002 on all of [-1,1] (damping). A PhenomD table lookup therefore differs from the fit by at most 1e-4 (ringdown) and 6.1e-5 (damping) below spin 0.99.", "quantifier": "all spins in [-1,1]", "why_tests_cant": "two unrelated representations (a table and a rational function) of the same physical quantity compared over a continuum; a wrong digit in either would pass a regression test that was generated with it", "anchors": ["src/ripplegw/waveforms/IMRPhenomX_utils.py:get_cutoff_fMs", "src/ripplegw/waveforms/IMRPhenomD_QNMdata.py:QNMData_fRD", "src/ripplegw/waveforms/IMRPhenomD_QNMdata.py:QNMData_fdamp", "src/ripplegw/waveforms/IMRPhenomD_utils.py:get_fRD_fdamp"]}
{"id": "C98", "title": "PhenomD and IMRPhenomXAS agree on the remnant", "statement": "For the same binary (heavier body first) the remnant spins of the two families differ by at most 0.07 and the radiated mass fractions by at most 0.023; at most 0.02 and 0.018 for equal spins; at most 0.0005 and 0.00005 without spins, where the ringdown frequencies (times total mass) agree to 1.5e-4 and the damping frequencies to 1e-4.", "quantifier": "all m1>=m2>0, all spins in [-1,1]", "why_tests_cant": "agreement of independently calibrated fits over a three-dimensional continuum; a sampled comparison leaves the corners open", "anchors": ["src/ripplegw/waveforms/IMRPhenomX_utils.py:get_cutoff_fMs", "src/ripplegw/waveforms/IMRPhenomD_utils.py:FinalSpin0815_s", "src/ripplegw/waveforms/IMRPhenomD_utils.py:EradRational0815", "src/ripplegw/waveforms/IMRPhenomD_utils.py:get_fRD_fdamp"]}
{"id": "C99", "title": "IMRPhenomXAS amplitude has no zeros or poles", "statement": "For every pair of positive masses without spins, and for every mass ratio up to 20 with any aligned spins in [-1,1], the IMRPhenomXAS amplitude is strictly positive at every frequency up to the cutoff f M = 0.3 (the connection polynomial in the denominator of the intermediate region never vanishes), continuously differentiable below it, and every sample of the generated strain at such a frequency is nonzero. This does not extend to all mass ratios: from mass ratio 10^4 with a primary spin of at most -0.99 the denominator changes its sign and the amplitude takes arbitrarily large values of both signs below the cutoff.", "quantifier": "all masses without spins; all spins in [-1,1] for mass ratios up to 20; the failure for all mass ratios from 10^4 and primary spins in [-1,-0.99]; all frequencies below the cutoff, distances, times and phases", "why_tests_cant": "absence of a zero of a fitted denominator over a continuum of masses, spins and frequencies; a test samples a few binaries on a grid", "anchors": ["src/ripplegw/waveforms/IMRPhenomXAS.py:Amp", "src/ripplegw/waveforms/IMRPhenomXAS.py:get_intermediate_Amp", "src/ripplegw/waveforms/IMRPhenomXAS.py:get_inspiral_Amp", "src/ripplegw/waveforms/IMRPhenomXAS.py:get_mergerringdown_Amp", "src/ripplegw/waveforms/IMRPhenomXAS.py:gen_IMRPhenomXAS"]}
{"id": "C100", "title": "Inspiral amplitudes are those of the (2,2) mode in the stationary-phase approximation", "statement": "As the frequency tends to zero the squared modulus of the IMRPhenomD and IMRPhenomXAS strains over the Newtonian one equals the squared (2,2)-mode amplitude times the ratio of the second derivatives of the 3.5PN and Newtonian stationary-phase phases: without spins up to O(f^(7/3)) (through 3PN) for both families; with any aligned spins up to O(f^2) (through 2.5PN) for IMRPhenomD, and for IMRPhenomXAS once its horizon-absorption flux is divided out; at 3PN the terms linear in the spins agree as well, except that IMRPhenomXAS leaves out the spin-orbit tail of the flux, and the remaining 3PN difference is quadratic in the spins: a polynomial in a body's own mass fraction times its squared spin, the same for both bodies, plus a symmetric cross term, with given rational coefficients. In the test-mass limit the companion's spin drops out of every coefficient, and for equal masses the spins enter symmetrically.", "quantifier": "all chirp masses, symmetric mass ratios in (0,1/4], aligned spins in [-1,1], distances, times and phases", "why_tests_cant": "long rational coefficients typed in from a computer algebra system; a wrong digit passes any regression test generated with the same code", "anchors": ["src/ripplegw/waveforms/IMRPhenomD.py:get_inspiral_Amp", "src/ripplegw/waveforms/IMRPhenomD.py:get_Amp0", "src/ripplegw/waveforms/IMRPhenomXAS.py:get_inspiral_Amp", "src/ripplegw/waveforms/IMRPhenomXAS.py:get_Amp0", "src/ripplegw/waveforms/IMRPhenomD.py:gen_IMRPhenomD", "src/ripplegw/waveforms/IMRPhenomXAS.py:gen_IMRPhenomXAS"]}
{"id": "C101", "title": "PhenomD amplitude has no zeros up to mass ratio 50", "statement": "For every pair of masses with the heavier body first and mass ratio up to 50, and all aligned spins in [-1,1], the PhenomD amplitude is strictly positive at every positive frequency below the cutoff 0.2/M (the collocation quartic between inspiral and ringdown has no zero), so no sample of the strain of gen_IMRPhenomD vanishes below the cutoff; on an increasing grid that reaches the cutoff this holds for all samples except those removed by the cutoff. This does not extend to all mass ratios: from mass ratio 5000 with a primary spin of at least 0.9999 the amplitude is zero at one frequency below the cutoff, where the strain vanishes, and negative at a higher one.", "quantifier": "all masses with 1 <= m1/m2 <= 50, all spins in [-1,1]; the failure for all mass ratios from 5000 and primary spins in [0.9999,1]; all frequencies below the cutoff, distances, times and phases, grids", "why_tests_cant": "absence of a zero of a fitted quartic over a continuum of masses, spins and frequencies; a test samples a few binaries on a grid", "anchors": ["src/ripplegw/waveforms/IMRPhenomD.py:Amp", "src/ripplegw/waveforms/IMRPhenomD.py:get_IIa_Amp", "src/ripplegw/waveforms/IMRPhenomD.py:get_inspiral_Amp", "src/ripplegw/waveforms/IMRPhenomD.py:get_IIb_Amp", "src/ripplegw/waveforms/IMRPhenomD.py:gen_IMRPhenomD"]}
{"id": "C102", "title": "The collocation systems of the IMRPhenomXAS phase are never singular", "statement": "For all positive masses and all aligned spins in [-1,1] each of the three linear systems solved for the phase (inspiral, intermediate, ringdown; the last one mixing three powers of the frequency with a Lorentzian) has exactly one solution whatever the fitted values, so the phase coefficients are determined. Consequently the slope of the phase with respect to f M, times the symmetric mass ratio, takes the three fitted values at the inner collocation frequencies of the intermediate region, and between the ringdown frequency and its two neighbouring collocation frequencies it changes by exactly the two fitted differences.", "quantifier": "all positive masses, all spins in [-1,1], all coefficient tables", "why_tests_cant": "non-vanishing of a determinant over a three-dimensional continuum of fitted frequencies; a singular system returns inf or nan only at isolated parameters", "anchors": ["src/ripplegw/waveforms/IMRPhenomXAS.py:get_mergerringdown_raw_phase", "src/ripplegw/waveforms/IMRPhenomXAS.py:get_intermediate_raw_phase", "src/ripplegw/waveforms/IMRPhenomXAS.py:get_inspiral_phase", "src/ripplegw/waveforms/IMRPhenomXAS.py:Phase"]}
{"id": "C103", "title": "The IMRPhenomXAS waveform has continuous gradients in all parameters", "statement": "The IMRPhenomXAS phase is continuously differentiable in frequency, both masses and both spins together, for all unequal masses and all aligned spins in [-1,1] at every frequency below the cutoff f M = 0.3, although the borders of the frequency regions, the collocation frequencies and the solutions of the linear systems all move with the parameters. The amplitude is so in frequency, masses, spins and distance for mass ratios up to 5 with any spins, up to 20 with aligned spins of at most 0.7, and for all unequal masses at zero spins. Hence every sample of gen_IMRPhenomXAS below the cutoff is continuously differentiable in (Mc, eta, chi1, chi2, D, tc, phic), and both polarisations in these and the inclination, for eta < 1/4. At eta = 1/4 the component masses have no derivative with respect to eta.", "quantifier": "all unequal masses, spins in [-1,1] (amplitude: the stated ranges), distances, times, phases, inclinations, reference frequencies and samples below the cutoff", "why_tests_cant": "gradient-based inference needs gradients without jumps; a jump sits on a moving surface of measure zero that sampled gradients never hit", "anchors": ["src/ripplegw/waveforms/IMRPhenomXAS.py:gen_IMRPhenomXAS", "src/ripplegw/waveforms/IMRPhenomXAS.py:gen_IMRPhenomXAS_hphc", "src/ripplegw/waveforms/IMRPhenomXAS.py:Phase", "src/ripplegw/waveforms/IMRPhenomXAS.py:Amp", "src/ripplegw/waveforms/IMRPhenomX_utils.py:calc_phaseatpeak", "src/ripplegw/__init__.py:Mc_eta_to_ms"]}
{"id": "C104", "title": "The IMRPhenomD waveform has continuous gradients in all parameters away from the table nodes", "statement": "The IMRPhenomD phase is continuously differentiable in frequency, both masses and both spins together, for all unequal masses, all aligned spins in [-1,1] and every positive frequency, and the amplitude in these and the distance below the cutoff 0.2/M, wherever the spin of the remnant is not one of the nodes of the ringdown tables and the fit coefficient gamma2 (above 1 the ringdown amplitude has no peak) is not 1. gamma2 is below 1 for eta >= 0.225 with any spins and for every eta with aligned spins of at most 0.85. Hence every sample of gen_IMRPhenomD that the cutoff leaves alone is continuously differentiable in (Mc, eta, chi1, chi2, D, tc, phic), and both polarisations in these and the inclination, for eta < 1/4. At a node the gradient can jump: for masses 40 and 10 there is a spin at which the ringdown frequency has no derivative with respect to the spin.", "quantifier": "all unequal masses, spins in [-1,1] with gamma2 not 1 and the remnant spin off the nodes, distances, times, phases, inclinations, reference frequencies, increasing grids; all table guards for the jump", "why_tests_cant": "gradient-based inference needs gradients without jumps; a jump sits on a moving surface of measure zero that sampled gradients never hit", "anchors": ["src/ripplegw/waveforms/IMRPhenomD.py:gen_IMRPhenomD", "src/ripplegw/waveforms/IMRPhenomD.py:gen_IMRPhenomD_hphc", "src/ripplegw/waveforms/IMRPhenomD.py:Phase", "src/ripplegw/waveforms/IMRPhenomD.py:Amp", "src/ripplegw/waveforms/IMRPhenomD_utils.py:get_fRD_fdamp", "src/ripplegw/waveforms/IMRPhenomD_utils.py:get_transition_frequencies"]}
{"id": "C105", "title": "The waveforms with tides have continuous gradients in all parameters", "statement": "Every sample of gen_TaylorF2 at a positive frequency is infinitely differentiable in (Mc, eta, chi1, chi2, both tidal parameters, D, tc, phic), and both polarisations in these and the inclination, for eta < 1/4, all aligned spins in [-1,1] and all deformabilities other than 1 (where the quadrupole fit changes formula); with the tilde parametrisation also eta must differ from its singular value. Every sample of gen_IMRPhenomD_NRTidalv2 that the cutoff leaves alone is continuously differentiable in the same parameters, with or without the taper, under the same conditions as IMRPhenomD, for non-negative deformabilities other than 1 and, with the taper, away from the single frequency 1.2 times the merger frequency. In particular the taper itself is infinitely differentiable in frequency and merger frequency, also where it starts; at 1.2 times the merger frequency it jumps.", "quantifier": "all Mc>0, eta in (0,1/4), spins in [-1,1], non-negative deformabilities (any for TaylorF2) other than 1, distances, times, phases, inclinations, reference frequencies, both parametrisations, with and without taper", "why_tests_cant": "gradient-based inference needs gradients without jumps; a jump sits on a moving surface of measure zero that sampled gradients never hit", "anchors": ["src/ripplegw/waveforms/TaylorF2.py:gen_TaylorF2", "src/ripplegw/waveforms/TaylorF2.py:gen_TaylorF2_hphc", "src/ripplegw/waveforms/IMRPhenomD_NRTidalv2.py:gen_IMRPhenomD_NRTidalv2", "src/ripplegw/waveforms/IMRPhenomD_NRTidalv2.py:gen_IMRPhenomD_NRTidalv2_hphc", "src/ripplegw/waveforms/IMRPhenomD_NRTidalv2.py:get_planck_taper", "src/ripplegw/waveforms/IMRPhenom_tidal_utils.py:get_quadparam_octparam"]}
{"id": "C106", "title": "The PhenomPv2 precession cone never opens beyond a right angle", "statement": "For all masses m1>=m2>0 and spin vectors of length at most 1, below the cutoff 0.2/M every sample of gen_IMRPhenomPv2 is the value of a function of its frequency alone, continuously differentiable wherever the orbital angular momentum does not cancel the aligned spins (L+S != 0). While L+S > 0 the cone used is the angle between the orbital and the total angular momentum; once anti-aligned spins dominate (L+S < 0) it is the supplement of that angle, because the sign of L+S is lost. At the frequency where L+S changes sign both polarisations have a kink: no functions differentiable there agree with the samples at neighbouring frequencies (in-plane spin present, line of sight not orthogonal to the total angular momentum, non-zero amplitude). This happens in band: masses 40 and 10 with primary spin (0.4,0,-0.9), seen face-on with f_ref = 20, have the kink between 20 and 55 Hz and the wrong cone from there to at least 100 Hz.", "quantifier": "all masses m1>=m2>0, spin vectors of length <= 1, distances, times, phases, inclinations, reference frequencies, grids below the cutoff; every sign change of L+S", "why_tests_cant": "the kink sits at one isolated frequency, and comparisons of aligned or weakly spinning binaries never reach L+S < 0", "anchors": ["src/ripplegw/waveforms/IMRPhenomPv2_utils.py:WignerdCoefficients", "src/ripplegw/waveforms/IMRPhenomPv2_utils.py:L2PNR", "src/ripplegw/waveforms/IMRPhenomPv2.py:gen_IMRPhenomPv2", "src/ripplegw/waveforms/IMRPhenomPv2.py:PhenomPCoreTwistUp"]}
{"id": "C107", "title": "Where gradients returned by automatic differentiation are right and where they are nan", "statement": "Reverse-mode differentiation (jax.grad) of a traced program returns the derivative at every input where all its steps are differentiable, including the steps of branches of jnp.where that are not selected. For the component masses this gives the right gradients in chirp mass and symmetric mass ratio for every eta in (0,1/4), and for the IMRPhenomXAS ringdown amplitude and peak frequency the right gradients in frequency, masses and spins for unequal masses up to mass ratio 5 (20 with spins up to 0.7). At eta = 1/4 the gradient in the chirp mass and in eta of anything computed from the component masses is nan, although it is differentiable in the chirp mass there (the total mass has the derivative 4^(3/5)). For mass ratios from 10 with a primary spin from 0.95 the gradients of the IMRPhenomXAS ringdown amplitude and peak frequency, and of everything computed from them, in both masses and both spins are nan, because the branch with sqrt(1-gamma2^2) is differentiated although it is not selected; the values, the derivative in frequency and the smoothness of the function are intact there.", "quantifier": "all programs and inputs; all Mc>0, eta in (0,1/4]; all physical binaries in the stated ranges, all frequencies, all cotangents", "why_tests_cant": "values are right where gradients are nan, so tests on waveforms pass; the gradient fails on a corner of the parameter space or on a surface of measure zero that a sampled test does not visit", "anchors": ["src/ripplegw/__init__.py:Mc_eta_to_ms", "src/ripplegw/waveforms/IMRPhenomXAS.py:get_mergerringdown_Amp", "src/ripplegw/waveforms/IMRPhenomXAS.py:Amp"]}
{"id": "C108", "title": "Gradients of PhenomPv2 are nan for aligned spins", "statement": "Let a gradient be taken through the conversion of the spins to the effective precession spin and the four angles that gen_IMRPhenomPv2 starts with. If both bodies have in-plane spin, their contributions to the precession spin differ and no azimuth lies on the cut of arctan2, the gradients of all five values in all eleven arguments (masses, reference frequency and phase, inclination, six spin components) are right. For aligned spins, with the total angular momentum along the orbital one, the gradients of everything computed from the azimuth alpha0 are nan in all eleven arguments, although the five values do not depend on masses, reference frequency and aligned spins there. If only one body has no in-plane spin, the gradients of everything computed from the precession spin in the two in-plane components of that body are nan, although the precession spin is locally independent of them when the other body has in-plane spin.", "quantifier": "all masses, reference frequencies, phases and inclinations; all aligned spins with positive total angular momentum; all cotangents", "why_tests_cant": "waveforms of aligned binaries are right, so comparisons of values pass; the gradient fails on the aligned subspace, which sampled precessing binaries never hit and which is where users start", "anchors": ["src/ripplegw/waveforms/IMRPhenomPv2_utils.py:convert_spins", "src/ripplegw/waveforms/IMRPhenomPv2_utils.py:ROTATEZ", "src/ripplegw/waveforms/IMRPhenomPv2_utils.py:ROTATEY", "src/ripplegw/waveforms/IMRPhenomPv2.py:gen_IMRPhenomPv2"]}
{"id": "C109", "title": "The mass conversions in floating-point arithmetic", "statement": "Every operation rounded to nearest, in any binary format (single and double precision, with or without subnormal numbers) and with any pow of bounded relative error eps: for the chirp mass and mass ratio of two masses in the range of the format (all masses from 2^-40 to 2^40 in single precision), Mc_eta_to_ms returns two finite numbers, not negative, in the right order, within 2 eps + 6 sqrt(u) of the total mass of the right ones (u the unit roundoff), and the error times the relative mass difference is at most 2 eps times that difference plus 13 u. A mass ratio above a quarter, by however little, gives nan for both masses. For all masses in range ms_to_Mc_eta returns a finite chirp mass and mass ratio with relative errors of at most 3 eps + 7 u and 8 u. Equal masses survive the way back: ms_to_Mc_eta gives exactly a quarter and the way back two equal masses, with a relative error of at most 22 eps + 46 u. Masses further apart than 2 sqrt(u) of the total mass survive as well (finite, in the right order, with an error of at most 22 eps + 55 sqrt(u) of the total mass). In both cases lambdas_to_lambda_tildes returns two finite numbers within 2 eps + 13 sqrt(u) of the sum of the deformabilities of the exact ones. In between they need not: for a power of two and the next floating-point number, in every precision, ms_to_Mc_eta returns a mass ratio above a quarter, so that the round trip and lambdas_to_lambda_tildes return nan. The waveform models recompute the mass ratio from the masses in seconds; in single precision the mass difference sqrt(1 - 4 eta) they compute for 31 and 31 + 1/64 solar masses is nan.", "quantifier": "all formats with at least three bits, all pow libraries, all chirp masses and mass ratios of masses in range, all powers of two in range, all deformabilities", "why_tests_cant": "exact arithmetic has no such failure, so tests against formulas in another language agree; the failing pairs are nearly equal masses that a sampled test with a tolerance or double precision does not draw", "anchors": ["src/ripplegw/__init__.py:Mc_eta_to_ms", "src/ripplegw/__init__.py:ms_to_Mc_eta", "src/ripplegw/__init__.py:lambdas_to_lambda_tildes", "src/ripplegw/waveforms/IMRPhenomD_utils.py:get_fRD_fdamp", "src/ripplegw/waveforms/IMRPhenomX_utils.py:get_cutoff_fMs"]}
{"id": "C110", "title": "In single precision the shipped noise curves vanish", "statement": "The noise curves are stored in the precision of JAX, single by default, after zeros in double precision have been replaced by inf. In single precision (every operation rounded to nearest, subnormal numbers kept or flushed) Sn_aLIGO is exactly zero at every floating-point frequency from 18.585 to 5000 Hz, Sn_ce from 5.7015 to 5000 Hz, Sn_et from 2.8674 to 10000 Hz, Sn_aLIGOZeroDetHighPower on its whole range, Sn_O2 from 30.233 to 1000 Hz and Sn_O3a from 516.125 to 1012 Hz, although all tabulated values are positive.", "quantifier": "all floating-point frequencies in the stated ranges, both treatments of subnormal numbers, all guards of jnp.interp", "why_tests_cant": "a test in double precision, or one comparing with an absolute tolerance, sees correct values of order 1e-46", "anchors": ["src/ripplegw/noise.py:_load_noise", "src/ripplegw/noise.py:Sn_aLIGO", "src/ripplegw/noise.py:Sn_ce", "src/ripplegw/noise.py:Sn_et", "src/ripplegw/noise.py:Sn_aLIGOZeroDetHighPower", "src/ripplegw/noise.py:Sn_O2", "src/ripplegw/noise.py:Sn_O3a"]}
{"id": "C111", "title": "In single precision overlap and match are nan for realistic input", "statement": "With every operation rounded, for any order of summation and any libraries for modulus, complex division and Fourier transform that satisfy the stated minimum: if the noise is zero at one sample, get_phase_maximized_inner_product_arr and get_match_arr return nan, for all waveforms. In single precision this is so for the curves aLIGO, CE, ET, aLIGOZeroDetHighPower and O2 as soon as the grid has a frequency between 30.3 and 1000 Hz. Independently of the noise curve, a strain with real and imaginary parts up to 2^-76 (1.3e-23) at all frequencies has squares that round to zero in single precision, and the overlap and match with any other strain are not finite; they are nan if both strains are that small. Where subnormal results are flushed to zero the bound is 2^-65 (2.7e-20).", "quantifier": "all strains, noise curves, grids, time shifts, paddings, orders of summation, libraries; all single-precision strains below the bounds", "why_tests_cant": "in exact or double-precision arithmetic overlap and match are finite and independent of the scale of strain and noise; tests with strains and noise of order one pass", "anchors": ["src/ripplegw/__init__.py:get_phase_maximized_inner_product_arr", "src/ripplegw/__init__.py:get_match_arr", "src/ripplegw/__init__.py:get_phase_maximized_inner_product", "src/ripplegw/__init__.py:get_match", "src/ripplegw/noise.py:_load_noise"]}
{"id": "C112", "title": "Overlap and match are accurate where the numbers are in range", "statement": "With every operation rounded to nearest, any order of summation, and libraries for modulus, complex division, Fourier transform and phase factors of relative error delta: if the noise is positive and finite, no squared strain and no squared signal-to-noise ratio overflows, and numbers below the normal range are negligible against the squared signal-to-noise ratios, then get_phase_maximized_inner_product_arr and get_match_arr (any zero padding) return finite numbers within 200 (delta + n u) of the exact overlap and match (n samples, u the unit roundoff, delta + n u at most 1/1000). In particular the match of a waveform with itself is one and no match exceeds one, up to that error. In double precision the conditions hold for all strains of modulus at most 1, noise from 2^-200 (6e-61) on, and signal-to-noise ratios from 2^-250 on.", "quantifier": "all formats with at least ten bits, all libraries of the stated accuracy, all grids, strains, noise curves in range, time shifts, paddings, orders of summation", "why_tests_cant": "the error depends on the length, the scale and the order of summation, which a parallel reduction does not fix; tests compare a few waveforms with a tolerance", "anchors": ["src/ripplegw/__init__.py:get_phase_maximized_inner_product_arr", "src/ripplegw/__init__.py:get_match_arr"]}
{"id": "C113", "title": "In double precision the shipped noise curves are positive and accurate", "statement": "With jax_enable_x64 (tables read by numpy, squared and stored in double precision, every operation of the interpolation rounded to nearest, subnormal numbers kept or flushed), every double-precision frequency in the range of a shipped table (for Sn_O2 from the first finite entry, 15.0029 Hz, on) gives a finite positive number whose relative distance from the exact piecewise linear curve through the tabulated points is at most 3e-10 for Sn_aLIGO, 1e-11 for Sn_ce, 5e-10 for Sn_et, 5e-13 for Sn_aLIGOZeroDetHighPower, 5e-8 for Sn_O3a and 5e-12 for Sn_O2. This includes frequencies next to a node, where rounding the table can move the frequency into the neighbouring cell. Outside the stored range every table gives inf.", "quantifier": "all double-precision frequencies in the tables, both treatments of subnormal numbers, all guards of jnp.interp up to 1/2000 Hz", "why_tests_cant": "there are about 1e16 frequencies; errors grow where the table is steep or its frequencies are close, which a sampled test need not hit", "anchors": ["src/ripplegw/noise.py:_load_noise", "src/ripplegw/noise.py:Sn_aLIGO", "src/ripplegw/noise.py:Sn_ce", "src/ripplegw/noise.py:Sn_et", "src/ripplegw/noise.py:Sn_aLIGOZeroDetHighPower", "src/ripplegw/noise.py:Sn_O2", "src/ripplegw/noise.py:Sn_O3a"]}
{"id": "C114", "title": "The analytic LIGO-I noise curve in floating-point arithmetic", "statement": "Every operation rounded to nearest, with any powers of relative error eps: at and below 40 Hz Sn_LIGOI is inf. In single precision, the default, its constant 9e-46 is below the normal range. Where subnormal results are flushed to zero the curve is exactly zero at every frequency between 40 Hz and 10 kHz, although the exact curve is at least 4e-46 there, and the overlap and match of all waveforms under this noise are nan as soon as the grid has such a frequency. Where subnormal numbers are kept it is a positive multiple of the smallest number 2^-149, and at every such frequency between 2 and 110 per cent larger than the exact curve. In double precision it is a positive number with a relative error of at most 4 eps + 3e-13.", "quantifier": "all frequencies up to 10 kHz, both treatments of subnormal numbers, all powers of the stated accuracy, all waveforms and grids", "why_tests_cant": "a test in double precision passes; one in single precision with an absolute tolerance sees values of order 1e-45 agreeing with anything", "anchors": ["src/ripplegw/noise.py:Sn_LIGOI", "src/ripplegw/__init__.py:get_phase_maximized_inner_product_arr", "src/ripplegw/__init__.py:get_match_arr"]}
{"id": "C115", "title": "The sine-Gaussian burst has gradients of all orders, except at linear polarisation", "statement": "Every sample of the plus polarisation of gen_SineGaussian_hphc is infinitely differentiable in quality factor, frequency, root-sum-square strain, phase, eccentricity and arrival time together, for all positive quality factors and frequencies and all eccentricities up to and including 1; every sample of the cross polarisation likewise for eccentricities below 1. At eccentricity 1 the cross polarisation vanishes but has no derivative in the eccentricity, not even one-sided, at every sample where the oscillation is not at a node.", "quantifier": "all quality factors and frequencies > 0, strains, phases, arrival times, eccentricities in [-1,1], all time grids", "why_tests_cant": "gradient-based inference needs gradients over the whole prior, whose edge is eccentricity 1; values are right there and only the gradient is infinite", "anchors": ["src/ripplegw/waveforms/SineGaussian.py:gen_SineGaussian_hphc", "src/ripplegw/waveforms/SineGaussian.py:semi_major_minor_from_e"]}
{"id": "C116", "title": "The precessing waveform has gradients in general position", "statement": "Every sample of both polarisations of gen_IMRPhenomPv2 and gen_IMRPhenomPv2_hphc that the frequency cutoff leaves alone is continuously differentiable in all twelve parameters together (masses or chirp mass and mass ratio, both spin vectors, distance, time, reference phase, inclination), for all unequal masses, all spins, all frequencies, wherever the in-plane spins of the two bodies contribute differently to the precession spin, the total angular momentum is not along the orbital one and the line of sight not along the total one, the orbital angular momentum at the sample does not cancel the aligned spins, the remnant has aligned spin and is not at a node of the ringdown tables, and the ringdown fit coefficient gamma2 is not 1. In particular the cuts of the azimuths at 180 degrees leave no trace.", "quantifier": "all masses with m2 < m1, spin vectors of length at most 1, distances > 0, times, phases, inclinations, reference frequencies > 0, increasing grids, in general position", "why_tests_cant": "finite differences at sampled binaries see a smooth function; the four azimuths jump by 360 degrees somewhere on the way and only their combination is smooth", "anchors": ["src/ripplegw/waveforms/IMRPhenomPv2.py:gen_IMRPhenomPv2", "src/ripplegw/waveforms/IMRPhenomPv2.py:gen_IMRPhenomPv2_hphc", "src/ripplegw/waveforms/IMRPhenomPv2_utils.py:convert_spins", "src/ripplegw/waveforms/IMRPhenomPv2_utils.py:ComputeNNLOanglecoeffs", "src/ripplegw/waveforms/IMRPhenomPv2_utils.py:phP_get_transition_frequencies"]}
{"id": "C117", "title": "The precessing waveform jumps where the aligned remnant spin changes sign", "statement": "In phP_get_fRD_fdamp the in-plane spin enters the remnant spin with the sign of the aligned part. For every binary of unequal masses with in-plane spin, at the aligned spin of the heavier body at which the aligned remnant spin is zero, the ringdown frequency has a limit from below that is strictly smaller than its value, so it is not continuous. The jump reaches the waveform: for mass ratio 4 and in-plane spin 0.4 of the heavier body, seen along the orbital angular momentum, there is an aligned spin between -0.9 and -0.7 at which no two continuous functions of that spin agree with the polarisations gen_IMRPhenomPv2 returns, at every sample from 0.09/M up to the cutoff (unless orbital angular momentum and aligned spin cancel there), for every total mass, distance, time, reference phase and reference frequency. In-plane spin makes the condition 'the remnant has aligned spin' for differentiability (C116) necessary.", "quantifier": "all unequal masses, all aligned spins of the lighter body, all precession spins in (0,1]; for the waveform all total masses, distances, times, phases, reference frequencies, increasing grids", "why_tests_cant": "the set of jumps has measure zero in parameter space: a sampled test does not hit it, and finite differences across it just look like a large gradient", "anchors": ["src/ripplegw/waveforms/IMRPhenomPv2_utils.py:FinalSpin_inplane", "src/ripplegw/waveforms/IMRPhenomPv2_utils.py:phP_get_fRD_fdamp", "src/ripplegw/waveforms/IMRPhenomPv2.py:gen_IMRPhenomPv2"]}
{"id": "C118", "title": "The precessing waveform does not tend to its aligned value as the in-plane spin vanishes", "statement": "For spins of both bodies along the orbital angular momentum, let the in-plane spin of the heavier body tend to zero. Every sample of both polarisations of gen_IMRPhenomPv2 below the cutoff then tends, from all directions, to -exp(2 i phi_ref) times the sample returned at exactly zero in-plane spin, if orbital angular momentum plus spin at the reference frequency points along the orbital angular momentum, orbital angular momentum and spin do not cancel at the sample, and the binary is not seen face-on or face-off. Where the aligned sample is not zero the polarisation is therefore continuous there if and only if phi_ref is an odd multiple of 90 degrees. For mass ratios up to 50 and aligned spins in [0,1] the aligned plus polarisation is not zero, nor the cross polarisation except edge-on, so the output jumps for every other reference phase. Without any assumption on tables or mass ratio: of two reference phases that do not differ by a multiple of 180 degrees at least one has a discontinuity.", "quantifier": "all masses with eta < 1/4 (first and last claims as stated), aligned spins, distances, times, reference phases and frequencies, inclinations other than face-on and face-off, increasing grids below the cutoff, all directions of the in-plane spin", "why_tests_cant": "a test compares aligned and precessing output at one reference phase, or only up to an overall phase, which the match maximises over; the limit is not reached by any sample", "anchors": ["src/ripplegw/waveforms/IMRPhenomPv2.py:gen_IMRPhenomPv2", "src/ripplegw/waveforms/IMRPhenomPv2_utils.py:convert_spins", "src/ripplegw/waveforms/IMRPhenomPv2.py:PhenomPOneFrequency"]}
{"id": "C119", "title": "The merger does not arrive at the coalescence time given", "statement": "The time at which a frequency arrives is the group delay of the spectrum. The code of gen_IMRPhenomD shifts the phase 'so that peak amplitude matches t = 0', but by the slope of the unjoined ringdown phase, without the linear term that joins it to the inspiral. Below the cutoff the strain is one function of frequency, and every frequency f from the amplitude peak f4 on arrives at tc + M (s(f M) - s(f4 M) + lag)/(2 pi), where s is the slope of the fitted ringdown phase and lag the sum of the jumps of the slopes at the two joints; the peak itself arrives at tc + M lag/(2 pi). For mass ratio 2 and spins 0.9, -0.9 that is between 38.7 and 39.8 total masses before tc, for every total mass. gen_IMRPhenomPv2_hphc without in-plane spins has no such lag: f arrives at M (tc + s(f M) - s(f_ringdown M))/(2 pi). Hence, with the same coalescence time zero, each of these frequencies arrives with PhenomD 4.6 to 6.8 total masses later than with PhenomPv2 for equal masses without spins, and 31.7 to 33.9 total masses earlier for mass ratio 2 and spins 0.9, -0.9.", "quantifier": "all total masses, mass ratios, aligned spins in [-1,1], distances, times, phases, reference frequencies, inclinations, all frequencies from the amplitude peak to the cutoff, grids below the cutoff", "why_tests_cant": "overlaps and matches are maximised over time, so a comparison with a reference implementation cannot see it; group delay is a limit no sampled test evaluates", "anchors": ["src/ripplegw/waveforms/IMRPhenomD.py:_gen_IMRPhenomD", "src/ripplegw/waveforms/IMRPhenomD.py:Phase", "src/ripplegw/waveforms/IMRPhenomD.py:get_IIb_raw_phase", "src/ripplegw/waveforms/IMRPhenomPv2.py:gen_IMRPhenomPv2", "src/ripplegw/waveforms/IMRPhenomPv2.py:gen_IMRPhenomPv2_hphc"]}
{"id": "C120", "title": "When the merger of IMRPhenomXAS arrives", "statement": "gen_IMRPhenomXAS is one function of frequency, whatever the grid. The frequency one damping width below the ringdown frequency arrives, as group delay, at minus the coalescence time given plus a fitted multiple W of the total mass: the sign of tc is opposite to PhenomD and TaylorF2. W depends only on the mass ratio and the spins, and lies between -2.5 and 55 for every binary with aligned spins; without spins it lies between 4.1 and 11.3 for every mass ratio. So with tc = 0 the merger is within 55 total masses of time zero.", "quantifier": "all total masses, mass ratios up to 20 with any aligned spins in [-1,1], all mass ratios without spins, all distances, times, phases and reference frequencies", "why_tests_cant": "group delay is a limit; the bounds hold over a continuum of mass ratios and spins", "anchors": ["src/ripplegw/waveforms/IMRPhenomXAS.py:_gen_IMRPhenomXAS", "src/ripplegw/waveforms/IMRPhenomXAS.py:gen_IMRPhenomXAS", "src/ripplegw/waveforms/IMRPhenomX_utils.py:calc_phaseatpeak"]}
{"id": "C121", "title": "The inspiral sweeps through low frequencies at the rate general relativity gives", "statement": "In every compact-binary generator (TaylorF2 with any tides, IMRPhenomD, IMRPhenomD_NRTidalv2 with or without its taper, IMRPhenomXAS, and IMRPhenomPv2 without in-plane spins) a low frequency f arrives, as group delay, 5/256 Mc^(-5/3) (pi f)^(-8/3) before coalescence, to leading order as f tends to 0, with Mc the chirp mass given (in seconds): the ratio of the arrival time to minus that time tends to 1. The next two corrections are the post-Newtonian ones: relative to the leading term (743/252 + 11/3 eta) (pi M f)^(2/3), set by the mass ratio, and 8/5 (beta - 4 pi) (pi M f), set by the spin-orbit parameter beta. So all five models chirp upward, with the same sign convention of the Fourier transform, with the same masses and spins at these orders; no fitted coefficient, tidal parameter, time, phase or reference frequency enters.", "quantifier": "all physical masses, spins, distances, times, phases, reference frequencies, tidal parameters (non-negative for NRTidalv2)", "why_tests_cant": "a limit of a derivative of the phase at zero frequency, where every sampled phase is dominated by the leading term only in the limit", "anchors": ["src/ripplegw/waveforms/TaylorF2.py:gen_TaylorF2", "src/ripplegw/waveforms/IMRPhenomD.py:gen_IMRPhenomD", "src/ripplegw/waveforms/IMRPhenomD_NRTidalv2.py:gen_IMRPhenomD_NRTidalv2", "src/ripplegw/waveforms/IMRPhenomXAS.py:gen_IMRPhenomXAS", "src/ripplegw/waveforms/IMRPhenomPv2.py:gen_IMRPhenomPv2_hphc"]}
{"id": "C122", "title": "Low frequencies fix masses, spin-orbit parameter and distance", "statement": "If the strains of two binaries with aligned spins, generated by any two of TaylorF2, IMRPhenomD, IMRPhenomD_NRTidalv2 and IMRPhenomXAS, agree at all sufficiently low frequencies up to a time shift and a constant phase (what a match maximises over), then the chirp masses, the mass ratios and the spin-orbit parameters are equal; if in addition one of the spins is the same, or each binary has equal spins, all spins are the same. Within one generator, and between any two of the last three, the two distances are equal as well; between TaylorF2 and one of the others the distance given to the other is larger by a relative 1e-8 to 2e-8, because the code uses two values of the solar mass in metres. This holds whatever the tidal parameters, times, phases and reference frequencies. The reason: at low frequency the modulus over the Newtonian modulus tends to that ratio of constants in every generator, and the arrival time is the post-Newtonian one through the spin-orbit order.", "quantifier": "all pairs of generators, all pairs of physical parameter sets, all time shifts and phases", "why_tests_cant": "a statement about all pairs of parameter sets; no finite set of comparisons excludes a degeneracy", "anchors": ["src/ripplegw/waveforms/TaylorF2.py:gen_TaylorF2", "src/ripplegw/waveforms/IMRPhenomD.py:gen_IMRPhenomD", "src/ripplegw/waveforms/IMRPhenomD_NRTidalv2.py:gen_IMRPhenomD_NRTidalv2", "src/ripplegw/waveforms/IMRPhenomXAS.py:gen_IMRPhenomXAS"]}
