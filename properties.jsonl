{"id": "C01", "title": "Unknown scenario keys are rejected", "statement": "Scenario(**kwds) succeeds exactly when every key is one of the 27 recognised keys, and then holds exactly the given key/value pairs; otherwise it raises Warning naming the first unrecognised key. copy_with(**kwds) has the same acceptance rule for its keywords.", "quantifier": "every keyword dictionary (any number of keys, any names, any values, any order)", "why_tests_cant": "The set of keyword dictionaries is infinite; a test samples a few misspellings.", "anchors": ["src/pygmm/model.py: Scenario.__init__, Scenario._check_keys, Scenario.copy_with, Scenario.KNOWN_KEYS"]}
{"id": "C02", "title": "copy_with is a pure override", "statement": "For every scenario s and accepted keywords k, s.copy_with(**k) returns a scenario whose value under each key is k's value when k has it and s's value otherwise; s itself and all previously made scenarios are unchanged, and later changes to either scenario are not visible through the other.", "quantifier": "every scenario, every keyword dictionary, every later sequence of updates", "why_tests_cant": "Aliasing bugs depend on the history of updates after the copy; tests only try one.", "anchors": ["src/pygmm/model.py: Scenario.copy_with", "collections.UserDict.copy/update"]}
{"id": "C03", "title": "Attribute and item access agree", "statement": "On a scenario that has only been built, copied and updated through its keys, s.name and s[\"name\"] return the same value for every key present and both raise KeyError (not AttributeError) for every missing key.", "quantifier": "every scenario reachable by construction, copy_with and item assignment, every name", "why_tests_cant": "Needs an invariant over every sequence of scenario operations.", "anchors": ["src/pygmm/model.py: Scenario.__getattr__, Scenario.__init__, Scenario.copy_with"]}
{"id": "C04", "title": "A model sees only its declared parameters", "statement": "The outcome of constructing any model (results, warnings, errors) is the same for two scenarios that agree, under get(), on the names in PARAMS; the scenario kept by the model has exactly the PARAMS names as keys, in that order.", "quantifier": "every model class, every pair of scenarios", "why_tests_cant": "Non-interference is a statement about pairs of inputs for all extra keys.", "anchors": ["src/pygmm/model.py: Model.__init__, Model._check_inputs"]}
{"id": "C05", "title": "Missing required parameters always fail, first one named", "statement": "If a required parameter is missing or None, construction raises ValueError naming a required parameter that is missing, no earlier PARAMS entry being at fault, and no model object results; conversely construction through the generic checks fails only for a missing required parameter or a value that cannot be compared with numeric limits (TypeError).", "quantifier": "every model class (any PARAMS list), every scenario", "why_tests_cant": "All subsets of missing parameters for all models.", "anchors": ["src/pygmm/model.py: Parameter.check, NumericParameter.check, Model._check_inputs"]}
{"id": "C06", "title": "Numeric limits are advisory", "statement": "A number supplied for a numeric parameter is always kept unchanged; checking emits exactly one UserWarning when it lies strictly outside [min, max] (an absent bound never warns), and none otherwise; a NaN passes silently; a missing optional value becomes the default, which is itself checked.", "quantifier": "every numeric parameter declaration, every value", "why_tests_cant": "Real-valued inputs and arbitrary bounds: boundary values on both sides for all of them.", "anchors": ["src/pygmm/model.py: NumericParameter.check"]}
{"id": "C07", "title": "Categorical results are an option or the default", "statement": "The checked value of a categorical parameter is the given value when it equals an option, otherwise the default after exactly two UserWarnings; a required categorical parameter that is given an unknown value therefore silently continues as None instead of raising.", "quantifier": "every categorical declaration, every value", "why_tests_cant": "Unbounded value domain; the required-but-invalid case is the one nobody writes a test for.", "anchors": ["src/pygmm/model.py: CategoricalParameter.check"]}
{"id": "C08", "title": "Constructing models never touches the caller's scenario", "statement": "In any program that builds scenarios, edits them, and constructs any number of models of any classes from them, constructing a model changes no scenario the program holds, and later edits of those scenarios change neither the model's own scenario nor its predictions.", "quantifier": "every finite history of create / set / copy_with / construct operations", "why_tests_cant": "An isolation property over all histories; a test follows one history.", "anchors": ["src/pygmm/model.py: Model.__init__ (fresh Scenario), Model.scenario"]}
{"id": "C09", "title": "Coefficient tables survive every construction history", "statement": "No history of model constructions, array accessor reads and site-term, correlation or covariance calls (including calls that raise), interleaved with the user overwriting arrays that were returned, changes a class-level coefficient table or an array passed in by the caller; every result equals the result of that call alone on the tables as loaded.", "quantifier": "every finite history of calls and overwrites, all scenarios and arguments, whatever the formulas compute", "why_tests_cant": "In-place array updates corrupt state only for particular branches and histories.", "anchors": ["src/pygmm/abrahamson_silva_kamai_2014.py: _calc_f1 (np.array copy)", "src/pygmm/chiou_youngs_2014.py: _calc_ln_resp_ref", "src/pygmm/boore_stewart_seyhan_atkinson_2014.py: _calc_ln_resp"]}
{"id": "C10", "title": "Re-building a model from its own scenario", "statement": "Constructing a model again from m.scenario succeeds with the same checked and completed scenario and hence the same predictions, whenever every required categorical parameter had been given one of its options. If one had not, the kept value is None and the second construction raises ValueError.", "quantifier": "every model class with the inherited _check_inputs, and the five classes that override it (ASK14, BSSA14, CB14, CY14, BA19: missing depths and widths are estimated), every scenario for which the first construction succeeds", "why_tests_cant": "Idempotence over all scenarios; the exception is a state only reachable through an invalid input.", "anchors": ["src/pygmm/model.py: Model.__init__, Parameter.check, CategoricalParameter.check", "src/pygmm/abrahamson_silva_kamai_2014.py: _check_inputs", "src/pygmm/chiou_youngs_2014.py: _check_inputs", "src/pygmm/bayless_abrahamson_2019.py: _check_inputs", "src/pygmm/campbell_bozorgnia_2014.py: _check_inputs"]}
{"id": "C11", "title": "Intensity-measure accessors", "statement": "pga, pgv, pgd and spec_accels return exp of the model's log response at the class's index (times the unit scale), hence are positive whenever defined; they raise NotImplementedError exactly when the class declares no index for that measure; ln_stds raises NotImplementedError exactly when the model has no standard deviation.", "quantifier": "every ground-motion model class (any index declaration incl. negative indices), every log-response vector", "why_tests_cant": "Holds for all response vectors and index declarations.", "anchors": ["src/pygmm/model.py: GroundMotionModel.pga/pgv/pgd/spec_accels/ln_stds/_resp"]}
{"id": "C12", "title": "Period interpolation", "statement": "interp_ln_spec_accels at one of the model's own periods returns exactly the model's value there; between two adjacent model periods it lies between the two neighbouring values; outside the covered range it is NaN; interp_spec_accels is its exponential.", "quantifier": "every strictly increasing positive period grid, every response vector, every requested period", "why_tests_cant": "Continuum of requested periods and all grids.", "anchors": ["src/pygmm/model.py: GroundMotionModel.interp_ln_spec_accels, interp_spec_accels, interp_ln_stds"]}
{"id": "C13", "title": "Period tables are coherent", "statement": "For every shipped ground-motion model the PSA indices address existing rows, the PSA periods are positive and strictly increasing, and the declared PGA/PGV/PGD indices exist: the PGA row carries period 0 and is not a PSA row (except for Idriss2014, CoppersmithBommer2014 and HermkesKuehnRiggelsen2014, where it is the first PSA row, at 0.01 s), the PGV row carries code -1 and the PGD row code -2, and neither is a PSA row.", "quantifier": "every shipped model, every row of its coefficient file", "why_tests_cant": "A finite but large table; tests check reference outputs at a few periods only.", "anchors": ["src/pygmm/data/*.csv", "INDICES_PSA / INDEX_PGA / INDEX_PGV of each model class"]}
{"id": "C14", "title": "Shipped parameter declarations are well formed", "statement": "For every shipped model, PARAMS names are distinct recognised scenario keys, limits are ordered, numeric defaults respect the limits, and every categorical default is an option or absent; hence constructing a model from a scenario made of recognised keys never raises the unknown-key Warning.", "quantifier": "every shipped model and every parameter; every scenario for the consequence", "why_tests_cant": "The consequence quantifies over all scenarios.", "anchors": ["PARAMS of each model class", "src/pygmm/model.py: Scenario.KNOWN_KEYS"]}
{"id": "C15", "title": "CB14 keeps its estimates as attributes, not keys", "statement": "CampbellBozorgnia2014 stores the estimates for missing depth_2_5, depth_tor, width, depth_bor and depth_hyp so that m.scenario.width returns the estimate while m.scenario[\"width\"] still returns None; and a scenario obtained by m.scenario.copy_with(width=w) still reports the old estimate as its .width attribute.", "quantifier": "every CB14 construction that estimates a value, every override w", "why_tests_cant": "A stale-state property over all scenarios and overrides.", "anchors": ["src/pygmm/campbell_bozorgnia_2014.py: _check_inputs (s.width = ...)", "src/pygmm/model.py: Scenario.__getattr__, copy_with"]}
{"id": "C16", "title": "AbrahamsonBhasin2020 cannot be instantiated", "statement": "Every construction of AbrahamsonBhasin2020 raises, for all scenarios and all values of psa, pga, psa_1s including the defaults: NotImplementedError whenever psa is left at its default.", "quantifier": "every scenario and argument combination", "why_tests_cant": "A claim about all argument combinations.", "anchors": ["src/pygmm/abrahamson_bhasin_2020.py: __init__"]}
{"id": "C17", "title": "GA11 requires pga_ref; its ASK14 fallback is dead", "statement": "GulerceAbrahamson2011 raises ValueError for every scenario without pga_ref, so the code that would estimate pga_ref from ASK14 is never executed.", "quantifier": "every scenario", "why_tests_cant": "Unreachability over all inputs.", "anchors": ["src/pygmm/gulerce_abrahamson_2011.py: __init__, PARAMS"]}
{"id": "C18", "title": "CB14 region semantics", "statement": "CB14's predictions depend on region only through: japan; italy; anything else. In particular region='china' gives exactly the same medians and standard deviations as 'global' and 'california', although the data file has separate China anelastic coefficients.", "quantifier": "every scenario, every period", "why_tests_cant": "Ranges over a continuum of real inputs (and every row of the coefficient table); a test evaluates finitely many points.", "anchors": ["src/pygmm/campbell_bozorgnia_2014.py: _calc_ln_resp (s.region == [\"china\"])"]}
{"id": "C19", "title": "BSSA14 region semantics", "statement": "BSSA14's predictions depend on region only through the attenuation group {china, turkey}, {italy, japan}, {everything else incl. new_zealand}; the Japan basin-depth model is never used, so italy and japan give identical results for every scenario, contrary to the documented table.", "quantifier": "every scenario, every period", "why_tests_cant": "Ranges over a continuum of real inputs (and every row of the coefficient table); a test evaluates finitely many points.", "anchors": ["src/pygmm/boore_stewart_seyhan_atkinson_2014.py: _calc_ln_resp, calc_site_term, class docstring"]}
{"id": "C20", "title": "AS16 basin term is region independent", "statement": "AfshariStewart2016 always uses the California/global depth_1_0 model (it passes the mechanism where the region is expected), for every scenario, and its basin term is capped at 200 in the units of depth_1_0.", "quantifier": "every scenario", "why_tests_cant": "Ranges over a continuum of real inputs (and every row of the coefficient table); a test evaluates finitely many points.", "anchors": ["src/pygmm/afshari_stewart_2016.py: __init__, calc_depth_1_0"]}
{"id": "C21", "title": "AB06 reference tables", "statement": "AtkinsonBoore2006 uses the rock coefficients only when v_s30 is given as 0; for every nonzero v_s30 the B/C coefficients and a site term are used. v_s30=None cannot be used to request rock: it raises ValueError.", "quantifier": "every scenario", "why_tests_cant": "Ranges over a continuum of real inputs (and every row of the coefficient table); a test evaluates finitely many points.", "anchors": ["src/pygmm/atkinson_boore_2006.py: _calc_ln_resp, PARAMS"]}
{"id": "C22", "title": "AB06 nonlinear site slope is discontinuous", "statement": "AB06's predictions with a site term jump at v_s30 = 180 and 300 m/s although the published coefficient is continuous, because the '+ b_2' is missing: the one-sided limits differ by exactly b_2*ln(max(980.665*pga_bc, 60)/100), more than 0.07 in log PGA when pga_bc is at most 60 cm/s^2; at 760 m/s the coefficient is continuous.", "quantifier": "every period of the site table, v_s30 in a neighbourhood of the breakpoints", "why_tests_cant": "Ranges over a continuum of real inputs (and every row of the coefficient table); a test evaluates finitely many points.", "anchors": ["src/pygmm/atkinson_boore_2006.py: _calc_log10_site"]}
{"id": "C23", "title": "AKB14 distance metric precedence", "statement": "AkkarSandikkayaBommer2014 uses dist_jb if given, else dist_hyp, else dist_epi, and the outcome does not depend on the distances of lower precedence (apart from limit warnings); with none of them it raises NotImplementedError.", "quantifier": "every scenario, every combination of the three distances", "why_tests_cant": "All combinations of three optional reals.", "anchors": ["src/pygmm/akkar_sandikkaya_bommer_2014.py: __init__"]}
{"id": "C24", "title": "AGA16 adjust_c4 has no effect; unknown event types behave as interface", "statement": "AbrahamsonGregorAddo2016's predictions are independent of adjust_c4; an unrecognised event_type is predicted like interface except that with tectonic_region='backarc' construction raises NotImplementedError.", "quantifier": "every scenario and adjustment", "why_tests_cant": "Ranges over a continuum of real inputs (and every row of the coefficient table); a test evaluates finitely many points.", "anchors": ["src/pygmm/abrahamson_gregor_addo_2016.py"]}
{"id": "C25", "title": "PR24 input validation", "statement": "PinillaRamosEtAl2024 construction raises ValueError exactly for the unsupported event_type/region combinations (Taiwan only with slab), and duration_for_energy raises ValueError exactly outside [0.10, 0.95]; any other energy is rounded to a nearest supported threshold with one warning when it is more than the tolerance away.", "quantifier": "every scenario, every real energy", "why_tests_cant": "Ranges over a continuum of real inputs (and every row of the coefficient table); a test evaluates finitely many points.", "anchors": ["src/pygmm/pinilla_ramos_et_al_2024.py"]}
{"id": "C26", "title": "PR24 duration increases with the energy threshold", "statement": "For every scenario within the recommended limits and every supported region, the median D5-X of PR24 is strictly increasing over the 18 supported thresholds.", "quantifier": "every in-limit scenario, event type, region, pair of thresholds", "why_tests_cant": "Ranges over a continuum of real inputs (and every row of the coefficient table); a test evaluates finitely many points.", "anchors": ["src/pygmm/pinilla_ramos_et_al_2024.py: _get_energy_coefficients, _calc_duration"]}
{"id": "C27", "title": "PR24 sigma bounds bracket the median", "statement": "For every scenario within the recommended limits, PR24's durations are defined and positive and satisfy minus-sigma < median < plus-sigma, both for D5-75 and for every energy in [0.10, 0.95] of duration_for_energy.", "quantifier": "every in-limit scenario, event type and region, every energy", "why_tests_cant": "Ranges over a continuum of real inputs (and every row of the coefficient table); a test evaluates finitely many points.", "anchors": ["src/pygmm/pinilla_ramos_et_al_2024.py: _calc_d575_median, _calc_d575_sigma, _calc_duration"]}
{"id": "C28", "title": "PR23 energy threshold near 0.75", "statement": "PR23's duration_for_energy(e) for e within the 0.75 bin of the conditional table but not numerically equal to 0.75 returns exactly twice the D5-75 median, for every scenario (a_0 = 1 in the table), whereas duration_for_energy(0.75) returns the D5-75 median.", "quantifier": "every scenario, every energy in the bin", "why_tests_cant": "Ranges over a continuum of real inputs (and every row of the coefficient table); a test evaluates finitely many points.", "anchors": ["src/pygmm/pinilla_ramos_et_al_2023.py: _calc_duration"]}
{"id": "C29", "title": "PR23 median duration", "statement": "PR23's D5-75 durations are defined, positive and bracketed (minus-sigma < median < plus-sigma) for in-limit scenarios; the median is strictly increasing with magnitude and with distance and strictly decreasing with v_s30 on all positive velocities, and continuous in each of the three, including at the hinge distances and velocities.", "quantifier": "every scenario with positive v_s30 (band: every in-limit scenario)", "why_tests_cant": "Ranges over a continuum of real inputs (and every row of the coefficient table); a test evaluates finitely many points.", "anchors": ["src/pygmm/pinilla_ramos_et_al_2023.py: _calc_duration"]}
{"id": "C30", "title": "KS06 durations", "statement": "KS06 durations increase with magnitude and distance and decrease with v_s30; they are defined for M >= 5, R >= 0 and v_s30 <= 960, but D5-75v is undefined (log of a negative number) for M <= 5, R <= 0 and v_s30 >= 1000, which includes in-limit scenarios.", "quantifier": "every scenario", "why_tests_cant": "Ranges over a continuum of real inputs (and every row of the coefficient table); a test evaluates finitely many points.", "anchors": ["src/pygmm/kempton_stewart_2006.py"]}
{"id": "C31", "title": "AS96 durations", "statement": "AS96 duration is defined and positive for every mag, distance and site condition, strictly increases with magnitude, is constant within 10 km and increases beyond, soil is never shorter than rock; interp is increasing in the normalised Arias intensity on [0.1, 0.95] and NaN outside.", "quantifier": "every scenario, every nias", "why_tests_cant": "Ranges over a continuum of real inputs (and every row of the coefficient table); a test evaluates finitely many points.", "anchors": ["src/pygmm/abrahamson_silva_1996.py"]}
{"id": "C32", "title": "AS96.interp overwrites the caller's array", "statement": "AbrahamsonSilva1996.interp replaces, in the caller's own numpy array, exactly the entries outside [0.10, 0.95] by NaN and leaves the rest unchanged, while a list or scalar argument is left alone; calling it again with the same array gives the same result.", "quantifier": "every array argument and history of calls", "why_tests_cant": "Aliasing: depends on how the argument is passed and on earlier calls.", "anchors": ["src/pygmm/abrahamson_silva_1996.py: interp, calc_ln_dur_incr"]}
{"id": "C33", "title": "AS16 durations", "statement": "AS16 durations are defined and positive for every scenario with v_s30>0 and dist_rup>=0, strictly increase with distance, and their standard deviation lies between the tabulated extremes and does not increase with magnitude.", "quantifier": "every scenario", "why_tests_cant": "Ranges over a continuum of real inputs (and every row of the coefficient table); a test evaluates finitely many points.", "anchors": ["src/pygmm/afshari_stewart_2016.py"]}
{"id": "C34", "title": "BJ08 correlation", "statement": "baker_jayaram_2008.calc_correls is symmetric in its two periods, equals 1 exactly when they coincide, lies in [0, 1] for all periods from 0.01 to 500 s and is continuous in them there; from a common short period it first decreases with the ratio and then, beyond a ratio of about 73, increases again.", "quantifier": "every pair of periods from 0.01 to 500 s", "why_tests_cant": "Ranges over a continuum of pairs of periods; a test evaluates finitely many points.", "anchors": ["src/pygmm/baker_jayaram_2008.py: calc_correls"]}
{"id": "C35", "title": "Conditional mean spectrum", "statement": "calc_cond_mean_spectrum passes exactly through the conditioning value with zero standard deviation at the conditioning period when that period is in the list, never increases a standard deviation, leaves every median unchanged when the target is the interpolated value, and raises ValueError for empty period lists.", "quantifier": "every spectrum, every conditioning period and value", "why_tests_cant": "Ranges over every spectrum of any length and every conditioning value.", "anchors": ["src/pygmm/baker_jayaram_2008.py: calc_cond_mean_spectrum"]}
{"id": "C36", "title": "Kishida CMSV interpolates its targets", "statement": "calc_cond_mean_spectrum_vector returns, at every conditioned period and in the caller's period order, exactly the conditioning value and zero standard deviation, and raises ValueError whenever the periods are not strictly increasing; it raises LinAlgError exactly when the covariance of the conditioned periods is singular, never increases a standard deviation when that covariance is positive definite, and returns the input when every period is masked.", "quantifier": "every period list, every mask, every number of conditioned periods", "why_tests_cant": "Ranges over spectra of any length, every mask and every conditioning vector.", "anchors": ["src/pygmm/kishida_2017.py"]}
{"id": "C37", "title": "Kishida with one period equals BJ08", "statement": "With a single conditioned period the Kishida spectrum equals calc_cond_mean_spectrum at that period, for medians and standard deviations.", "quantifier": "every spectrum and every choice of the conditioned period", "why_tests_cant": "Ranges over a continuum of real inputs (and every row of the coefficient table); a test evaluates finitely many points.", "anchors": ["src/pygmm/kishida_2017.py", "src/pygmm/baker_jayaram_2008.py"]}
{"id": "C38", "title": "Stafford covariance", "statement": "Stafford2017.cov returns a square matrix whose diagonal is sigma_E^2+sigma_S^2+sigma_A^2 for all positive frequencies, and cor has unit diagonal; both are symmetric whenever the closeness test |f-g| <= 1e-8+1e-5|g| is symmetric on the given frequencies, and in the thin band where it is not, cov is not symmetric.", "quantifier": "every list of positive frequencies, sigmas and magnitude", "why_tests_cant": "Ranges over frequency lists of any length; the asymmetric band is so thin that no test grid hits it.", "anchors": ["src/pygmm/stafford_2017.py: cov, cor"]}
{"id": "C39", "title": "Stafford argument checking", "statement": "Stafford2017.cov raises ValueError exactly when all three sigma lists are given and one has a length different from freqs; if any of the three is None all three are replaced by the model's values, so user-given sigmas are silently ignored.", "quantifier": "every argument combination", "why_tests_cant": "All combinations of optional lists of any length.", "anchors": ["src/pygmm/stafford_2017.py: cov"]}
{"id": "C40", "title": "BA18 correlation matrix", "statement": "BaylessAbrahamson2018.corr is symmetric with unit diagonal for every list of positive frequencies; every off-diagonal entry lies strictly between 0 and 1 (also for two equal frequencies) and, at a fixed lower frequency, strictly decreases with the higher one; cov(std) is corr scaled by the standard deviations, with diagonal std^2, cov(component) the same with the interpolated published (positive) standard deviations; cov with neither std nor component raises NotImplementedError.", "quantifier": "every frequency list and std list", "why_tests_cant": "Ranges over a continuum of real inputs (and every row of the coefficient table); a test evaluates finitely many points.", "anchors": ["src/pygmm/bayless_abrahamson_2018.py"]}
{"id": "C41", "title": "BA19 standard deviation at high frequency", "statement": "BaylessAbrahamson2019.ln_std is NaN for every scenario at every frequency above 24 Hz (the c1a coefficient is missing there), and below it is defined and greater than 0.3; it never decreases with magnitude, and at the 124 of 239 frequencies where no left coefficient is below the right one the magnitude dependence is lost: it equals the large-magnitude value for every magnitude.", "quantifier": "every scenario, every frequency", "why_tests_cant": "Ranges over a continuum of real inputs (and every row of the coefficient table); a test evaluates finitely many points.", "anchors": ["src/pygmm/bayless_abrahamson_2019.py: _calc_ln_std", "src/pygmm/data/bayless_abrahamson_2019.csv"]}
{"id": "C42", "title": "BA19 extrapolation above 24 Hz and nonlinear site response", "statement": "All 301 BA19 amplitudes are defined. Above 24 Hz the log amplitude falls linearly with frequency from its 24 Hz value with slope pi*kappa(v_s30), strictly decreasing, for every scenario. For v_s30 >= 760 the site response is exactly linear (c8 ln of the velocity ratio, flat above 1000 m/s). Below 760 m/s the nonlinear term is strictly negative at every frequency; at the last seven usable frequencies, which the code means to force down, it is one constant strictly larger (less reduction) than at the frequency before.", "quantifier": "every scenario with v_s30 > 0", "why_tests_cant": "Ranges over a continuum of real inputs (and every row of the coefficient table); a test evaluates finitely many points.", "anchors": ["src/pygmm/bayless_abrahamson_2019.py: _calc_ln_eas, _calc_site_response"]}
{"id": "C43", "title": "ASK14 attenuates", "statement": "For mag <= 8.5 and v_s30 >= 180 every one of ASK14's 24 predictions (spectral accelerations, PGA, PGV) strictly decreases as dist_rup grows with everything else fixed, including the nonlinear site response; on the hanging wall too, when dist_x is given, 0 < dip < 90 and the width is positive.", "quantifier": "every scenario with mag <= 8.5, v_s30 >= 180, every region, mechanism and period, every pair of distances", "why_tests_cant": "Ranges over a continuum of real inputs (and every row of the coefficient table); a test evaluates finitely many points.", "anchors": ["src/pygmm/abrahamson_silva_kamai_2014.py"]}
{"id": "C44", "title": "ASK14 is continuous in magnitude and in dist_x", "statement": "Every ASK14 prediction is a continuous function of the magnitude and, on or off the hanging wall, of dist_x: the pieces of its magnitude scaling and hanging-wall tapers meet at every hinge, also through the reference motion of the nonlinear site term.", "quantifier": "every scenario family in mag (or dist_x) with v_s30 > 0, every row", "why_tests_cant": "Ranges over a continuum of real inputs (and every row of the coefficient table); a test evaluates finitely many points.", "anchors": ["src/pygmm/abrahamson_silva_kamai_2014.py: _calc_f1, _calc_f4"]}
{"id": "C45", "title": "ASK14 standard deviation", "statement": "For every scenario with v_s30 > 0 ASK14's standard deviations are defined, satisfy sigma^2 = tau^2 + phi^2, and the total is at least 0.4; for v_s30 >= 180 also 0 < tau <= 0.47, phi <= 0.81 and the total is at most 0.94.", "quantifier": "every scenario and period", "why_tests_cant": "Ranges over a continuum of real inputs (and every row of the coefficient table); a test evaluates finitely many points.", "anchors": ["src/pygmm/abrahamson_silva_kamai_2014.py: _calc_ln_std"]}
{"id": "C46", "title": "Reference passes are never contaminated by the NaN sentinel", "statement": "ASK14, CB14, AGA16 and BSSA14 compute a reference motion by calling the response with a NaN (or None) site motion; the reference value that is used is always defined (the NaN only reaches branches that are discarded), so every median of these models is defined for every scenario in the allowed domain. In AGA16 the NaN does reach three rows of the reference pass (0.05, 0.075 and 0.1 s, whose linear-site threshold exceeds the 1000 m/s reference velocity) but not the PGA row that is used.", "quantifier": "every scenario with positive distances, every period", "why_tests_cant": "Ranges over a continuum of real inputs (and every row of the coefficient table); a test evaluates finitely many points.", "anchors": ["src/pygmm/abrahamson_silva_kamai_2014.py: __init__", "src/pygmm/campbell_bozorgnia_2014.py: __init__", "src/pygmm/abrahamson_gregor_addo_2016.py: _calc_f_site"]}
{"id": "C47", "title": "CY14 attenuates", "statement": "For scenarios not on the hanging wall, with magnitude at most 8.5, v_s30 >= 180 m/s and non-negative directivity parameter, CY14's predictions strictly decrease with dist_rup, in every region and row, including the nonlinear site response.", "quantifier": "every in-limit scenario, region, period", "why_tests_cant": "Ranges over a continuum of real inputs (and every row of the coefficient table); a test evaluates finitely many points.", "anchors": ["src/pygmm/chiou_youngs_2014.py"]}
{"id": "C48", "title": "CY14 site term vanishes at the reference condition", "statement": "For v_s30 >= 1130 m/s and the model-average basin depth the CY14 site term is exactly zero, for every reference motion and region; so the prediction is the reference motion.", "quantifier": "every scenario, period", "why_tests_cant": "Ranges over a continuum of real inputs (and every row of the coefficient table); a test evaluates finitely many points.", "anchors": ["src/pygmm/chiou_youngs_2014.py: calc_site_term"]}
{"id": "C49", "title": "CY14 standard deviation", "statement": "CY14's total standard deviation is defined and positive and equals the root of tau^2+phi^2 reported separately, for every scenario and period; on rock (v_s30 >= 1130) it is the same for all magnitudes below 5, and for all magnitudes above 6.5, at all distances.", "quantifier": "every scenario, period", "why_tests_cant": "Ranges over a continuum of real inputs (and every row of the coefficient table); a test evaluates finitely many points.", "anchors": ["src/pygmm/chiou_youngs_2014.py: _calc_ln_std"]}
{"id": "C50", "title": "CB14 standard deviation", "statement": "CB14's total standard deviation is defined (the square roots never see a negative number: rho lies in [-1,1] and phi >= phi_lnAF in every row) and sigma^2 = tau^2 + phi^2, for every scenario with a regular geometry: dip in (0,180) or width given, top above bottom of rupture or hypocentre given, and non-degenerate hanging-wall distances.", "quantifier": "every scenario with regular geometry, every period", "why_tests_cant": "Ranges over a continuum of real inputs (and every row of the coefficient table); a test evaluates finitely many points.", "anchors": ["src/pygmm/campbell_bozorgnia_2014.py: _calc_ln_std"]}
{"id": "C51", "title": "CB14 site and basin terms at their hinges", "statement": "CB14's site term is continuous at v_s30 = k_1 and its basin term at depth 1 and 3 km for every region except that for Japan the site term jumps at 200 m/s by an explicit amount; magnitude scaling is continuous at 4.5, 5.5, 6.5.", "quantifier": "every scenario with regular geometry, every row, reference motion", "why_tests_cant": "Ranges over a continuum of real inputs (and every row of the coefficient table); a test evaluates finitely many points.", "anchors": ["src/pygmm/campbell_bozorgnia_2014.py: calc_site_term, _calc_ln_resp"]}
{"id": "C52", "title": "BSSA14 continuity, attenuation and standard deviation", "statement": "BSSA14's predictions are defined and continuous in magnitude (also at M_h), in dist_jb and in v_s30 > 0. For magnitudes 3 to 8.5 and distances up to 300 km, PGA strictly decreases with dist_jb in every region for v_s30 >= 150; from 250 m/s on all 107 ordinates do, for every region but china/turkey, and there up to 100 km; at 10 s, M 8 to 8.5, on rock the china/turkey prediction increases with distance from 265 km on. sigma^2 = tau^2 + phi^2 with tau in [0.21, 0.543], phi in [0.4, 0.85], tau a function of magnitude alone, constant below 4.5 and above 5.5.", "quantifier": "every in-limit scenario, period", "why_tests_cant": "Ranges over a continuum of real inputs (and every row of the coefficient table); a test evaluates finitely many points.", "anchors": ["src/pygmm/boore_stewart_seyhan_atkinson_2014.py"]}
{"id": "C53", "title": "I14 attenuates", "statement": "Idriss2014 accelerations strictly decrease with distance and with v_s30, for every magnitude in limits; its standard deviation is positive and non-increasing in magnitude; the jump of the log median when crossing M 6.75 is at most 0.0006 for every distance up to 150 km.", "quantifier": "every in-limit scenario, period", "why_tests_cant": "Ranges over a continuum of real inputs (and every row of the coefficient table); a test evaluates finitely many points.", "anchors": ["src/pygmm/idriss_2014.py"]}
{"id": "C54", "title": "C03 attenuates", "statement": "Campbell2003 accelerations strictly decrease with distance for mag in [5, 8.2] and distances from 1 to 1000 km, continuous at 70 and 130 km; the standard deviation is positive and jumps by at most 0.00101 at M 7.16.", "quantifier": "every in-limit scenario, period", "why_tests_cant": "Ranges over a continuum of real inputs (and every row of the coefficient table); a test evaluates finitely many points.", "anchors": ["src/pygmm/campbell_2003.py"]}
{"id": "C55", "title": "TP05 domain and standard deviation", "statement": "TavakoliPezeshk05's medians are defined exactly when the magnitude is at most 8.5 (above, a complex power) and the distance is above -4.5 km, in particular for all distances >= 0; the standard deviation is continuous at M 7.2 within 0.0066 at all periods except T=0.5 s, where it jumps by more than 0.4.", "quantifier": "every scenario, period", "why_tests_cant": "Ranges over a continuum of real inputs (and every row of the coefficient table); a test evaluates finitely many points.", "anchors": ["src/pygmm/tavakoli_pezeshk_2005.py", "src/pygmm/data/tavakoli_pezeshk_2005.csv"]}
{"id": "C56", "title": "Pea11 standard deviation and distance hinges", "statement": "PezeshkZandiehTavakoli2011's median is continuous in distance, defined for every distance, and its standard deviation exceeds sigma_reg for every magnitude up to 40 and jumps by at most 1e-4 at M 7.", "quantifier": "every scenario, period", "why_tests_cant": "Ranges over a continuum of real inputs (and every row of the coefficient table); a test evaluates finitely many points.", "anchors": ["src/pygmm/pezeshk_zandieh_tavakoli_2011.py"]}
{"id": "C57", "title": "DBC14 outputs are bounded", "statement": "DerrasBardCotton2014's predictions are bounded for every scenario whatsoever (the hidden layer is a tanh): PGV stays in [0.005, 117] cm/s and PGA and PSA in [9e-7, 2.7] g; an unrecognised mechanism raises KeyError, never a default.", "quantifier": "every scenario", "why_tests_cant": "Ranges over a continuum of real inputs (and every row of the coefficient table); a test evaluates finitely many points.", "anchors": ["src/pygmm/derras_bard_cotton_2014.py"]}
{"id": "C58", "title": "HKR14 lazy loading is transparent", "statement": "For every sequence of HermkesKuehnRiggelsen2014 constructions the data file is loaded successfully at most once and every prediction equals the one a fresh interpreter would give; a failed load leaves the next construction to retry; a scenario rejected by the checks never reads the file; after a successful load, replacing the file has no effect. While no load has succeeded, a scenario that passes the checks gets OSError if there is no file, KeyError naming the array if 'events' or 'predictions' is missing, and ValueError if the two differ in length.", "quantifier": "every history of constructions and file replacements, every data file, every nearest-event search rule", "why_tests_cant": "A statement over all histories of a module-global cache.", "anchors": ["src/pygmm/hermkes_kuehn_riggelsen_2014.py: INTERPOLATOR"]}
{"id": "C59", "title": "Depth and width estimators", "statement": "The default estimators (CY14/ASK14/BA19 calc_depth_1_0, CY14/ASK14 calc_depth_tor, CB14 calc_depth_2_5, calc_width, calc_depth_bor, calc_depth_hyp) are defined, non-negative, and monotone in their physical argument: basin depth strictly decreasing in v_s30, rupture depth non-increasing in magnitude, depth_tor <= depth_hyp <= depth_bor. CB14's calc_depth_2_5 from a given depth_1_0 however decreases as depth_1_0 grows, and raises NotImplementedError when both v_s30 and depth_1_0 are missing.", "quantifier": "every v_s30 > 0, magnitude, dip in (0, 90]", "why_tests_cant": "Ranges over a continuum of real inputs (and every row of the coefficient table); a test evaluates finitely many points.", "anchors": ["src/pygmm/chiou_youngs_2014.py", "src/pygmm/abrahamson_silva_kamai_2014.py", "src/pygmm/campbell_bozorgnia_2014.py", "src/pygmm/bayless_abrahamson_2019.py"]}
{"id": "C60", "title": "GA11 outputs", "statement": "GA11's V/H ratio is positive and defined for positive v_s30 and pga_ref, is continuous in the magnitude and in v_s30 > 0 (in particular at c1 and v_lin); but interp_ln_std returns the exponential of the interpolated standard deviation, hence is always greater than 1 at positive periods.", "quantifier": "every scenario, period", "why_tests_cant": "Ranges over a continuum of real inputs (and every row of the coefficient table); a test evaluates finitely many points.", "anchors": ["src/pygmm/gulerce_abrahamson_2011.py"]}
{"id": "C61", "title": "AKB14 attenuates", "statement": "AKB14's accelerations and velocity strictly decrease with the distance metric used for magnitudes up to 8.5, and are continuous at mag = c_1 and v_s30 = 750.", "quantifier": "every in-limit scenario, period, metric", "why_tests_cant": "Ranges over a continuum of real inputs (and every row of the coefficient table); a test evaluates finitely many points.", "anchors": ["src/pygmm/akkar_sandikkaya_bommer_2014.py"]}
{"id": "C62", "title": "AGA16 / CoppersmithBommer attenuation", "statement": "AbrahamsonGregorAddo2016's medians strictly decrease with distance at forearc sites: at rock sites (v_s30 >= 1100) in every row for magnitudes up to 9.5, and PGA for v_s30 >= 150; the medians are continuous in magnitude, and in v_s30 except at 0.05, 0.075 and 0.1 s, where the site term steps up at v_lin > 1000 (CoppersmithBommer2014: at 0.05 and 0.1 s).", "quantifier": "every in-limit scenario, period", "why_tests_cant": "Ranges over a continuum of real inputs (and every row of the coefficient table); a test evaluates finitely many points.", "anchors": ["src/pygmm/abrahamson_gregor_addo_2016.py", "src/pygmm/coppersmith_bommer_2014.py"]}
{"id": "C63", "title": "AS96 interp(0.75) is not the reported duration", "statement": "AbrahamsonSilva1996.interp(0.75) differs from the model's own 5-75% duration: for every scenario it is between 1.008 and 1.009 times as long, because the 0.75 increment is added in the constructor and again in interp.", "quantifier": "all magnitudes, distances and site conditions", "why_tests_cant": "A test at one scenario shows one ratio; the claim is that the same factor appears at every scenario.", "anchors": ["src/pygmm/abrahamson_silva_1996.py: AbrahamsonSilva1996.__init__, AbrahamsonSilva1996.interp, calc_ln_dur_incr"]}
{"id": "C64", "title": "CB14 attenuates on the footwall", "statement": "For scenarios on the footwall side (dist_x < 0) with given rupture geometry and magnitude at most 8.5, CampbellBozorgnia2014's accelerations strictly decrease as dist_rup grows with everything else fixed, including the nonlinear site response: at every period for v_s30 >= 400 m/s, and for PGA for v_s30 >= 150 m/s.", "quantifier": "every magnitude up to 8.5, every pair of distances, every region, mechanism and depth, every v_s30 in the stated range, every row of the coefficient table", "why_tests_cant": "The site response decreases with the reference motion, so monotonicity is a race between two terms that must be won for a continuum of distances, velocities and magnitudes at 23 rows.", "anchors": ["src/pygmm/campbell_bozorgnia_2014.py: CampbellBozorgnia2014._calc_ln_resp"]}
{"id": "C65", "title": "CY14 continuity in magnitude", "statement": "Outside Japan and Italy every ChiouYoungs2014 median is a continuous function of the magnitude, on or off the hanging wall, with given or estimated depths. In Japan and Italy it is not: for dist_rup > 0 and v_s30 >= 180 every median drops strictly just above M 6 and rises strictly back at M 6.9, so a slightly larger earthquake gives a smaller prediction; everywhere else it is continuous there too.", "quantifier": "every scenario family in the magnitude, every row of the coefficient table", "why_tests_cant": "Continuity and one-sided limits are statements about infinitely many magnitudes; every finite grid is compatible with a jump.", "anchors": ["src/pygmm/chiou_youngs_2014.py: ChiouYoungs2014._calc_ln_resp_ref"]}
{"id": "C66", "title": "ASK14 hanging wall needs dist_x", "statement": "ASK14 declares dist_x optional, but constructing it on the hanging wall without dist_x raises TypeError; off the hanging wall dist_x and dist_y0 have no influence whatever on the result.", "quantifier": "every scenario", "why_tests_cant": "The failure and the independence must hold for every combination of the remaining inputs.", "anchors": ["src/pygmm/abrahamson_silva_kamai_2014.py: AbrahamsonSilvaKamai2014.PARAMS, _calc_f4"]}
{"id": "C67", "title": "ASK14 regions and default basin depth", "statement": "ASK14 distinguishes only taiwan, china and japan: all other regions give identical results. Leaving depth_1_0 out gives the same predictions and standard deviations as passing the average depth of calc_depth_1_0 for that v_s30 and region.", "quantifier": "every scenario with v_s30 > 0", "why_tests_cant": "Equalities of functions over a continuum of inputs.", "anchors": ["src/pygmm/abrahamson_silva_kamai_2014.py: _calc_ln_resp, _calc_f10, calc_depth_1_0"]}
{"id": "C68", "title": "ASK14 isolated jump at v_s30 = 1180 m/s", "statement": "Without depth_1_0 every ASK14 prediction is continuous in v_s30 > 0. With depth_1_0 it is continuous except at exactly 1180 m/s, where the basin term is dropped for that single velocity: the limit there differs from the value by a46*ln((depth_1_0+0.01)/(average depth+0.01)), which is nonzero at every period but 0.25 s unless the depth is exactly the average.", "quantifier": "every scenario family in v_s30 > 0, every row", "why_tests_cant": "A discontinuity at a single real number is invisible to any grid that misses it.", "anchors": ["src/pygmm/abrahamson_silva_kamai_2014.py: _calc_f10"]}
{"id": "C69", "title": "BSSA14 basin term", "statement": "In BSSA14 depth_1_0 has no effect on PGV, PGA, ordinates below 0.65 s and all standard deviations; at 0.65 s and above predictions never decrease with depth_1_0, strictly increase up to 0.438 km above the average depth and are constant from 0.65 km above it on; leaving the depth out equals giving the average depth, which is the California estimate in every region.", "quantifier": "every numeric scenario with v_s30 > 0, all pairs of depths, every ordinate", "why_tests_cant": "Ranges over a continuum of real inputs (and every row of the coefficient table); a test evaluates finitely many points.", "anchors": ["src/pygmm/boore_stewart_seyhan_atkinson_2014.py: calc_site_term"]}
{"id": "C70", "title": "BA19 on rock: distance, magnitude, mechanism", "statement": "For v_s30 >= 760 m/s every BA19 amplitude strictly decreases with dist_rup (magnitudes up to 8.5) and strictly increases with magnitude (all magnitudes, all distances); a normal-faulting event is lower by exactly 0.2 and all other mechanisms agree (the latter for every v_s30).", "quantifier": "every scenario with v_s30 >= 760, every frequency", "why_tests_cant": "Ranges over a continuum of real inputs (and every row of the coefficient table); a test evaluates finitely many points.", "anchors": ["src/pygmm/bayless_abrahamson_2019.py: _calc_ln_eas"]}
{"id": "C71", "title": "BA19 basin term", "statement": "Leaving depth_1_0 out equals giving the model's estimate for the velocity; a given depth z changes each amplitude up to 24 Hz by exactly c11(v_s30) ln((min(z,2)+0.01)/(estimate+0.01)) for every source; this effect jumps at 200, 300 and 500 m/s.", "quantifier": "every scenario, every frequency up to 24 Hz", "why_tests_cant": "Ranges over a continuum of real inputs (and every row of the coefficient table); a test evaluates finitely many points.", "anchors": ["src/pygmm/bayless_abrahamson_2019.py: _calc_ln_eas, calc_depth_1_0"]}
{"id": "C72", "title": "PR23 durations for other energies", "statement": "PR23's duration_for_energy raises ValueError exactly outside [0.10, 0.95]; inside it is a step function of the nearest threshold. In the limits the median and plus-sigma durations are defined and plus-sigma exceeds the median; the medians strictly increase with the threshold up to 100 km, but D5-80 is shorter than D5-75 exactly when 0.0003 r + 0.0512 ln(v_s30/2000) > 0.069275; and the D5-10 minus-sigma duration is undefined (nan) for all in-limit magnitudes on sites of 150-155 m/s at up to 0.1 km.", "quantifier": "every in-limit scenario, every real energy", "why_tests_cant": "Ranges over a continuum of real inputs and energies; a test evaluates finitely many points.", "anchors": ["src/pygmm/pinilla_ramos_et_al_2023.py: duration_for_energy, _calc_duration"]}
{"id": "C73", "title": "PR24 D5-75 median is monotone and continuous", "statement": "For every supported event type and region, PR24's D5-75 median strictly increases with magnitude and with distance, strictly decreases with v_s30 (positive velocities), and is continuous in each, including at the slab hinge of magnitude 6 and the 250 km path hinge.", "quantifier": "every scenario with positive v_s30, every supported event type and region", "why_tests_cant": "Ranges over a continuum of real inputs; a test evaluates finitely many points.", "anchors": ["src/pygmm/pinilla_ramos_et_al_2024.py: _calc_d575_median"]}
{"id": "C74", "title": "PR24 helper methods and the legacy function", "statement": "d575_median is the stored duration; d5x_median multiplies it by the tabulated factor for its twelve names and raises ValueError for every other string, and d5x_sigma ignores its argument; in the limits d5x_median('D5-10') is more than four times the median of duration_for_energy(0.10). The legacy duration_model has exactly the results, exceptions and warnings of building the model from the first element of each array and calling duration_for_energy, ignores the other elements, and raises IndexError on empty arrays.", "quantifier": "every scenario, every string, every list of inputs, every energy", "why_tests_cant": "Ranges over all strings, arrays and real inputs.", "anchors": ["src/pygmm/pinilla_ramos_et_al_2024.py: d5x_median, d5x_sigma, d575_median, duration_model"]}
{"id": "C75", "title": "Stafford within-event values are no correlations", "statement": "Stafford2017.within_event_correlation is above 2 for every frequency from 1e-6 to 10 Hz paired with any frequency at least ten times as large, and cor of [f, 100 f] has an off-diagonal entry above 2 for every f from 1e-6 to 1 Hz and every magnitude.", "quantifier": "every such pair of frequencies, every magnitude", "why_tests_cant": "A continuum of pairs; tests compare a few values against the implementation itself.", "anchors": ["src/pygmm/stafford_2017.py: within_event_correlation, compute_gamma_A, cor"]}
{"id": "C76", "title": "Stafford between-event and between-site correlations", "statement": "between_event_correlation is defined, in (0, 1], independent of the order of the frequencies and 1 exactly at equal ones, for smaller frequency up to 1000 Hz and magnitude up to 9; between_site_correlation is defined and in [0, 1] for smaller frequency up to 74 Hz.", "quantifier": "every pair of positive frequencies in the stated range, every magnitude <= 9", "why_tests_cant": "A continuum of pairs of frequencies and magnitudes.", "anchors": ["src/pygmm/stafford_2017.py: between_event_correlation, between_site_correlation"]}
{"id": "C77", "title": "HKR14 predictions are rows of the data file", "statement": "With the data file in place, HermkesKuehnRiggelsen2014 returns for every scenario with mag, v_s30, dist_jb and a mechanism the row of an event nearest to it (depth_hyp defaulting to 15 km, an unknown mechanism counting as none of the three), means at even positions and square roots of the odd ones as standard deviations; at an event of the file it returns that row; without dist_jb it raises ValueError although dist_jb is not required.", "quantifier": "every data file, every scenario, every history", "why_tests_cant": "Ranges over all data files and scenarios; the shipped data file is not even in the repository.", "anchors": ["src/pygmm/hermkes_kuehn_riggelsen_2014.py: HermkesKuehnRiggelsen2014.__init__"]}
{"id": "C78", "title": "The two aliasing exceptions", "statement": "BaylessAbrahamson2019.freqs returns the table column itself: overwriting the returned array changes the frequencies used by every later call on every instance (and no other column). AbrahamsonSilva1996.interp, given an array, leaves in the caller's array what its masking statements made of it; given a list it does not.", "quantifier": "every instance, argument and overwritten content", "why_tests_cant": "Aliasing shows only in histories in which a returned or passed array is reused.", "anchors": ["src/pygmm/bayless_abrahamson_2019.py: freqs", "src/pygmm/abrahamson_silva_1996.py: interp, calc_ln_dur_incr"]}
{"id": "C79", "title": "AB06 attenuates on rock and firm ground, and can amplify with distance on soft soil", "statement": "With the hard-rock site condition or v_s30 of at least 250 m/s, for magnitudes 4 to 8.5, every ordinate AtkinsonBoore2006 reports strictly drops as the rupture distance grows. On soft soil that is false: for M 8, v_s30 up to 180 m/s, between 70 and 140 km the PGD ordinate strictly rises with distance.", "quantifier": "every m in [4,8.5], every pair 0 < R < R', every v_s30 = 0 or >= 250 (and every v_s30 in (0,180] for the counterexample)", "why_tests_cant": "Monotonicity ranges over all pairs of real distances; the failure is confined to one corner of the parameter space.", "anchors": ["src/pygmm/atkinson_boore_2006.py: AtkinsonBoore2006._calc_ln_resp", "src/pygmm/data/atkinson_boore_2006-*.csv"]}
{"id": "C80", "title": "AKB14 grows with magnitude", "statement": "Up to M 8, every ordinate AkkarSandikkayaBommer2014 reports strictly grows with magnitude, with each of the three distance metrics, at every distance, on every site, for every mechanism: nonlinear soil response never reverses it.", "quantifier": "every m < m' <= 8, every real distance, every v_s30 > 0, every mechanism string and metric", "why_tests_cant": "Monotonicity over all real pairs; the near-source margin is a few parts in 10^4 and depends on all 64 x 3 coefficient rows.", "anchors": ["src/pygmm/akkar_sandikkaya_bommer_2014.py: AkkarSandikkayaBommer2014._calc_ln_resp, _calc_ln_site", "src/pygmm/data/akkar-sandikkaya-bommer-2014-*.csv"]}
{"id": "C81", "title": "Idriss 2014 and magnitude, with a dip where the table is exchanged", "statement": "From M 3 to M 8.5 a larger magnitude gives a strictly larger response at each of the 22 periods, if both magnitudes lie on the same side of 6.75 or (within 150 km) differ by at least 0.02. Without the gap it is false: at T = 0.75 s every magnitude in (6.75, 6.7505] gives a strictly smaller response than 6.75, at every distance up to 150 km.", "quantifier": "every m < m' in [3,8.5], distance >= 0, v_s30 > 0, mechanism", "why_tests_cant": "The dip is 0.0005 wide in magnitude; monotonicity ranges over all real pairs.", "anchors": ["src/pygmm/idriss_2014.py: Idriss2014._calc_ln_resp", "src/pygmm/data/idriss_2014-small.csv", "src/pygmm/data/idriss_2014-large.csv"]}
{"id": "C82", "title": "Campbell 2003 and magnitude", "statement": "Up to M 8 every ordinate of Campbell2003 strictly grows with magnitude at every distance. At zero distance the ordinate at 0.15 s strictly decreases from M 8.11 on, inside the advertised range 5.0-8.2.", "quantifier": "every m < m' <= 8 and distance >= 0; every 8.11 <= m < m' for the failure", "why_tests_cant": "Needs the saturation term bounded for all real magnitudes and distances at once.", "anchors": ["src/pygmm/campbell_2003.py: Campbell2003._calc_ln_resp", "src/pygmm/data/campbell_2003.csv"]}
{"id": "C83", "title": "Pezeshk et al. 2011 and magnitude", "statement": "Every ordinate of PezeshkZandiehTavakoli2011 strictly grows with magnitude up to M 6.5 at every distance, and up to M 8 from 13 km on. At zero distance PGA strictly decreases with magnitude from M 6.8 on.", "quantifier": "every pair of magnitudes and every distance in the stated regions", "why_tests_cant": "Monotonicity over all real pairs; near-source oversaturation is confined to a corner of the advertised domain.", "anchors": ["src/pygmm/pezeshk_zandieh_tavakoli_2011.py: _calc_ln_resp", "src/pygmm/data/pezeshk_zandieh_tavakoli_2011.csv"]}
{"id": "C84", "title": "Pezeshk et al. 2011 and distance", "statement": "For magnitudes 5 to 8 every ordinate strictly drops with distance within 69 km and beyond 140 km, and the six ordinates up to 0.05 s drop at every distance; between 70 and 131 km the eight ordinates of 1 s and more strictly rise with distance, for every magnitude.", "quantifier": "every m in [5,8], every pair of distances in the stated regions", "why_tests_cant": "Ranges over all real pairs of distances, across hinges whose position depends on the row.", "anchors": ["src/pygmm/pezeshk_zandieh_tavakoli_2011.py: _calc_ln_resp", "src/pygmm/data/pezeshk_zandieh_tavakoli_2011.csv"]}
{"id": "C85", "title": "Tavakoli & Pezeshk 2005 and distance", "statement": "For magnitudes 5 to 8.5 every ordinate strictly drops with distance from 1 to 70 km and beyond 130 km, and the four shortest periods drop at every distance from 1 km on; between 70 and 130 km the ordinates at 3 s and 4 s strictly rise with distance, for every magnitude.", "quantifier": "every m in [5,8.5], every pair of distances in the stated regions", "why_tests_cant": "Ranges over all real pairs of distances with a magnitude-dependent saturation distance.", "anchors": ["src/pygmm/tavakoli_pezeshk_2005.py: _calc_ln_resp", "src/pygmm/data/tavakoli_pezeshk_2005.csv"]}
{"id": "C86", "title": "Tavakoli & Pezeshk 2005 and magnitude", "statement": "From M 5 every ordinate strictly grows with magnitude: up to M 7 at every distance, and up to M 8.5 beyond 25 km. At zero distance PGA strictly decreases with magnitude from M 7.5 to M 8.5.", "quantifier": "every pair of magnitudes and every distance in the stated regions", "why_tests_cant": "The (8.5-m)^2.5 scaling and the exponential saturation distance must be compared for all real magnitudes.", "anchors": ["src/pygmm/tavakoli_pezeshk_2005.py: _calc_ln_resp", "src/pygmm/data/tavakoli_pezeshk_2005.csv"]}
{"id": "C87", "title": "BSSA14 and magnitude, with a reversal on soft soil", "statement": "BooreStewartSeyhanAtkinson2014: for magnitudes 3 to 8.5, at every distance, mechanism, region and basin depth, PGA strictly grows with magnitude for v_s30 of at least 150 m/s, and all 107 ordinates do for v_s30 of at least 310 m/s; but at dist_jb 0 and v_s30 up to 200 m/s the 0.133 s ordinate strictly decreases with magnitude from 5.8 to 8.5.", "quantifier": "all pairs of magnitudes, all distances, velocities, mechanisms, regions and basin depths", "why_tests_cant": "Monotonicity over a continuum of magnitudes, distances and velocities for every row; a grid of tests cannot exclude a reversal between its points.", "anchors": ["src/pygmm/boore_stewart_seyhan_atkinson_2014.py: BooreStewartSeyhanAtkinson2014._calc_ln_resp, calc_site_term"]}
{"id": "C88", "title": "Scenarios cannot be deep-copied, restored from a pickle, or asked for a missing attribute", "statement": "For every scenario: a missing attribute is a KeyError, so getattr(s, name, default) and hasattr(s, name) raise KeyError(name) instead of answering for any name that is neither a key nor an attribute, and hasattr never answers False; copy.deepcopy(s) and copy.deepcopy(model) always raise KeyError('__deepcopy__'); pickle.loads(pickle.dumps(s)), and of a model, always ends in RecursionError, however high the recursion limit. repr(s) succeeds exactly if both mag and dist_jb are keys and otherwise raises the KeyError of the first missing one; so repr(model.scenario) always works for seven of the shipped classes and always raises KeyError('dist_jb') for the other fifteen.", "quantifier": "all scenarios, attribute names, defaults, recursion limits, shipped model classes and scenarios they were built from", "why_tests_cant": "ranges over all scenario contents and names and over every recursion limit", "anchors": ["src/pygmm/model.py: Scenario.__getattr__, Scenario.__repr__, Model.scenario"]}
{"id": "C89", "title": "What bypasses the key check of Scenario", "statement": "Only the constructor and the arguments of copy_with are checked. update, |=, setdefault and Scenario.fromkeys accept every name, with the usual dict semantics; the operators s | d and d | s always raise TypeError. An unrecognised key that got in survives every later copy_with and has no effect on any shipped model.", "quantifier": "all scenarios, dictionaries, names, values and shipped model classes", "why_tests_cant": "ranges over all dictionaries and histories of operations", "anchors": ["src/pygmm/model.py: Scenario.__init__, Scenario.copy_with, Scenario._check_keys"]}
{"id": "C90", "title": "AGA16 / CoppersmithBommer and magnitude, with a reversal close to large interface events", "statement": "AbrahamsonGregorAddo2016: for magnitudes 3 to 9.5, every event type and region, PGA on every site with v_s30 of at least 150 m/s, and all 23 ordinates on rock (v_s30 of at least 1100 m/s), strictly grow with magnitude as long as the magnitude stays below the hinge 7.8 + adjust_c1 (so up to 7.5 with the default adjustment), at every distance; from 40 km on they do for all magnitudes. With the default adjustment PGA of an interface event at dist_rup up to 5 km strictly decreases with magnitude from 8 to 9.5. CoppersmithBommer2014 grows likewise up to 7.5, and from 40 km on up to 9.5.", "quantifier": "all pairs of magnitudes, all distances, velocities, event types, regions, adjustments and attenuation scales", "why_tests_cant": "Monotonicity over a continuum of magnitudes, distances and velocities for every row.", "anchors": ["src/pygmm/abrahamson_gregor_addo_2016.py: AbrahamsonGregorAddo2016._calc_ln_resp, _calc_f_mag", "src/pygmm/coppersmith_bommer_2014.py: CoppersmithBommer2014._calc_ln_resp"]}
{"id": "C91", "title": "Atkinson & Boore (2006) grows with magnitude beyond 10 km; near-source PGA falls", "statement": "For AtkinsonBoore2006, on hard rock (v_s30 = 0) and on every site with v_s30 >= 250 m/s, each of the 27 ordinates strictly increases with magnitude from 3.5 to 7.5 at every distance of 10 km or more, even though the stress adjustment decreases with magnitude and the nonlinear site term takes part of the growth back. Within 1 km the PGA instead strictly decreases with magnitude from 7.2 on (rock and 760 m/s).", "quantifier": "all magnitude pairs 3.5 <= m < m' <= 7.5, all distances >= 10 km, v_s30 = 0 or >= 250 m/s, all periods; for the reversal all m' > m >= 7.2 and 0 < R <= 1 km", "why_tests_cant": "a strict order over a continuum of magnitude pairs, distances and velocities, through a table-dependent quadratic, a capped power of ten and two interpolations", "anchors": ["src/pygmm/atkinson_boore_2006.py:AtkinsonBoore2006._calc_ln_resp", "src/pygmm/atkinson_boore_2006.py:AtkinsonBoore2006._calc_stress_factor"]}
{"id": "C92", "title": "Campbell & Bozorgnia 2014: a larger earthquake shakes harder, unless the hypocentre is deep", "statement": "Off the hanging wall (dist_x < 0), with the hypocentral depth given and at most 13 km and a dip of at most 90 degrees, raising the magnitude and nothing else strictly raises every one of the 23 ordinates CampbellBozorgnia2014 returns: on rock (v_s30 of 1100 m/s or more) from 1 km on, and on any site of 400 m/s or more from 5 km on although a larger reference motion makes the soil more nonlinear; the peak acceleration also grows on every site of at least 150 m/s from 1 km on. The depth limit is needed: for a hypocentre 20 km deep or deeper, the peak acceleration within 10 km strictly falls as the magnitude goes from 5.5 to 6.5.", "quantifier": "every pair of magnitudes (without bound in the growth statements), every dist_rup, v_s30, dip and hypocentral depth in the stated ranges, every mechanism, region and value of the other inputs, every ordinate", "why_tests_cant": "the slopes depend on distance, depth, dip, mechanism and v_s30 at once and the margin is as small as 0.0003 ln units per magnitude; sampled scenarios cannot rule out a reversal between grid points or the effect of the nonlinear site term", "anchors": ["src/pygmm/campbell_bozorgnia_2014.py:CampbellBozorgnia2014._calc_ln_resp", "src/pygmm/campbell_bozorgnia_2014.py:CampbellBozorgnia2014._calc_site_term", "src/pygmm/data/campbell_bozorgnia_2014.csv"]}
{"id": "C93", "title": "The public site-term functions agree with the models and soften", "statement": "Calling calc_site_term of BSSA14, CB14, ASK14 and CY14 by hand reproduces the model: the spectrum predicted at the model's reference velocity (760, 1100, 1180, 1130 m/s, depth left out) plus the site term of that motion at the wanted velocity and depth, minus the term of the reference condition where it is not zero, equals the spectrum the class predicts for the wanted site, period by period; for ASK14 this holds outside Taiwan and Japan, and for BSSA14 it holds only with the default region because the class never passes its region on. A stronger reference motion never raises the site term in any row, except BSSA14 between 5.5 and 7 s where it strictly raises it on soft soil; on rock it makes no difference. BSSA14 returns NaN at all periods for a NaN reference (documented as 'no site term'); CY14 is documented to take the logarithm of the motion but is undefined for non-positive entries; CY14 and CB14 raise TypeError when the depth is left out with a reference motion.", "quantifier": "all scenarios, all velocities > 0, all depths, all regions, all reference motions (lists of positive numbers or a single PGA), every row", "why_tests_cant": "equality and monotonicity over real-valued reference motions, velocities and depths for every table row; tests compare a few published numbers and never call the site functions on their own", "anchors": ["src/pygmm/boore_stewart_seyhan_atkinson_2014.py: BooreStewartSeyhanAtkinson2014.calc_site_term", "src/pygmm/campbell_bozorgnia_2014.py: CampbellBozorgnia2014.calc_site_term", "src/pygmm/abrahamson_silva_kamai_2014.py: AbrahamsonSilvaKamai2014.calc_site_term", "src/pygmm/chiou_youngs_2014.py: ChiouYoungs2014.calc_site_term"]}
{"id": "C94", "title": "Abrahamson, Silva & Kamai 2014 and magnitude, with near-source reversals", "statement": "Off the hanging wall and with depth_tor given, raising the magnitude and nothing else (up to 8.5) strictly raises every one of the 24 ordinates AbrahamsonSilvaKamai2014 returns, on every site with v_s30 of at least 180 m/s: from magnitude 5 on at every distance, and from any magnitude at distances of 2 km or more. With depth_tor left to the model's own estimate the same holds from 7 km on, but within 3 km PGA and every ordinate up to 0.25 s strictly falls between magnitude 6.75 and 7.2. Within half a kilometre every ordinate strictly falls from magnitude 4 to 4.1.", "quantifier": "every pair of magnitudes up to 8.5, every dist_rup, v_s30 >= 180, basin depth, mechanism, region, aftershock flag and velocity source, every ordinate", "why_tests_cant": "strict monotonicity over a continuum with slopes as small as 0.003 ln units per magnitude, through a nonlinear site term; tests compare single scenarios with published values", "anchors": ["src/pygmm/abrahamson_silva_kamai_2014.py: AbrahamsonSilvaKamai2014._calc_ln_resp, _calc_f1, calc_depth_tor", "src/pygmm/data/abrahamson_silva_kamai_2014.csv"]}
{"id": "C95", "title": "Chiou & Youngs 2014: a larger earthquake shakes harder", "statement": "ChiouYoungs2014, no directivity (dpp_centered left out or 0), v_s30 from 180 m/s, only the magnitude changed and kept at most 8.5: every spectral ordinate, PGA and PGV is strictly larger for the larger magnitude. With depth_tor left out this holds at every dist_rup >= 0, every mechanism and dip, and on the hanging wall (dist_x >= 0, dip 0 to 90); with depth_tor given between 0 and 20 km it holds at every dist_rup of at least that depth, on either wall. In japan and italy, where the attenuation switches at magnitudes 6 and 6.9 (C65), the two magnitudes must lie on the same side of both.", "quantifier": "every pair of scenarios that differ only in magnitude, all 26 rows, mechanisms, regions, depths, distances and site conditions in the stated ranges", "why_tests_cant": "The growth rate comes within 0.009 of zero close to large ruptures and around magnitude 5.1 for normal faulting; whether it ever turns negative depends on every combination of magnitude, distance, depth, period and mechanism, which no sample covers.", "anchors": ["src/pygmm/chiou_youngs_2014.py: ChiouYoungs2014._calc_ln_resp_ref", "src/pygmm/chiou_youngs_2014.py: ChiouYoungs2014.calc_depth_tor", "src/pygmm/data/chiou_youngs_2014.csv"]}
{"id": "C96", "title": "What the hanging-wall flag (or the sign of dist_x) does to the prediction", "statement": "Abrahamson et al. (2014): setting on_hanging_wall for a site with dist_x >= 0 over a rupture dipping between 0 and 90 degrees lowers no ordinate (any site from 180 m/s on, nonlinear site response included) and strictly raises every ordinate up to 3 s, PGA and PGV for magnitudes above 5.5 within the model's tapers. Chiou & Youngs (2014): it lowers nothing and strictly raises everything up to 4 s when the depth of the rupture top (given or estimated) and dist_jb are compatible with dist_rup up to 1 km, and strictly lowers all of those ordinates when they are not. Campbell & Bozorgnia (2014), where the side is the sign of dist_x: no ordinate is lowered on rock, PGA is not lowered from 150 m/s on and strictly raised above the rupture, no ordinate is lowered above the rupture from 400 m/s on; but just beyond the rupture on sites below 457 m/s the 0.5 s ordinate is strictly lowered, because the taper of the reference PGA ends later than that of 0.5 s.", "quantifier": "All scenarios that differ only in the side, with all numbers in the stated ranges, all rows of the coefficient tables, every mechanism, region and optional input", "why_tests_cant": "Sign of a product of tapers over a continuum of geometries, composed with a nonlinear site response that works in the opposite direction", "anchors": ["src/pygmm/abrahamson_silva_kamai_2014.py:_calc_f4", "src/pygmm/chiou_youngs_2014.py:_calc_ln_resp_ref", "src/pygmm/campbell_bozorgnia_2014.py:_calc_ln_resp"]}
{"id": "C97", "title": "Style of faulting", "statement": "Changing only the mechanism of a scenario changes the prediction as the published style-of-faulting terms say. ASK14: reverse and strike slip are not distinguished; normal faulting is strictly lower at every ordinate above magnitude 4 (sites from 180 m/s) and equal up to magnitude 4. CY14: above magnitude 4.5 normal faulting is strictly lower at every ordinate, reverse faulting (depth_tor left out, off the hanging wall) strictly higher; equal up to magnitude 4.5. CB14: with the depth given, reverse and strike slip are not distinguished; normal faulting gives no higher ordinate on rock, strictly lower PGA above magnitude 4.5, and changes nothing at periods of 3 s and more. BSSA14: PGA is ordered normal < unknown < reverse < strike slip, and from 310 m/s every ordinate normal < unknown < strike slip. I14: reverse strictly raises every ordinate below 4 s and leaves the rest and the standard deviations unchanged. AKB14: normal strictly lowers and reverse strictly raises PGA on every site; on rock exactly the first 17 (normal) or 43 (reverse) ordinates move that way, and below 750 m/s the long-period ordinates move the opposite way through the nonlinear site term.", "quantifier": "all magnitudes, distances, site velocities and other inputs in the stated domain; all periods of the models", "why_tests_cant": "the sign has to hold for every magnitude, distance, velocity and period simultaneously, and through the nonlinear site response, where the reference motion also changes", "anchors": ["src/pygmm/abrahamson_silva_kamai_2014.py:AbrahamsonSilvaKamai2014._calc_ln_resp", "src/pygmm/chiou_youngs_2014.py:ChiouYoungs2014._calc_ln_resp_ref", "src/pygmm/campbell_bozorgnia_2014.py:CampbellBozorgnia2014._calc_ln_resp", "src/pygmm/boore_stewart_seyhan_atkinson_2014.py:BooreStewartSeyhanAtkinson2014._calc_ln_resp", "src/pygmm/idriss_2014.py:Idriss2014._calc_ln_resp", "src/pygmm/akkar_sandikkaya_bommer_2014.py:AkkarSandikkayaBommer2014.__init__"]}
{"id": "C98", "title": "Basin depth in CY14, CB14 and ASK14", "statement": "Changing only the given basin depth. CY14 (depth_1_0): in Japan every ordinate strictly rises with depth; elsewhere ordinates up to 0.25 s and PGA do not change and all others strictly rise; beyond the average depth the gain stays below 0.33 (1.464 in Japan). CB14 (depth_2_5): up to 1 km a deeper basin strictly lowers the short-period ordinates (up to 0.1 s, in Japan 0.25 s) and PGA and strictly raises the others; between 1 and 3 km nothing changes; from 3 km on every ordinate strictly rises. ASK14 (depth_1_0): at exactly 1180 m/s nothing changes; otherwise ordinates from 0.3 s and PGV strictly rise, shorter ones and PGA strictly rise below 400 m/s, do not change at 400 m/s and strictly fall above it (0.25 s: unchanged). Standard deviations never change.", "quantifier": "all pairs of depths in the stated ranges, all sources, distances, velocities, regions and mechanisms, all periods", "why_tests_cant": "sign and strictness must hold for all depths and velocities at every period; the sign patterns change between regions, velocities and periods", "anchors": ["src/pygmm/chiou_youngs_2014.py:ChiouYoungs2014.calc_site_term", "src/pygmm/campbell_bozorgnia_2014.py:CampbellBozorgnia2014.calc_site_term", "src/pygmm/abrahamson_silva_kamai_2014.py:AbrahamsonSilvaKamai2014.calc_site_term"]}
{"id": "C99", "title": "AS96 durations in seconds and interp with standard deviations", "statement": "AbrahamsonSilva1996: the duration on soil exceeds that on rock by 0.811 to 0.813 s, every kilometre beyond 10 km adds 0.0635 to 0.0636 s, on rock within 10 km one magnitude unit multiplies the duration by 2.38 to 2.383 and at magnitude 6 it is 2.53 to 2.55 s; std_err is 0.55. interp(nias, stds) returns one row for each number k of standard deviations, each entry being interp(nias) times exp(k sigma) with sigma the table from 0.843 at 0.10 to 0.493 at 0.95, and nan exactly outside [0.10, 0.95]. A number in place of a sequence raises IndexError, after the caller's array has been overwritten with nan outside the range. Rows for k at most 1 strictly increase with the threshold.", "quantifier": "all magnitudes, distances, site conditions, threshold arrays (with nan entries), sequences of standard-deviation numbers", "why_tests_cant": "real-valued inputs and arrays of any length; the side effect on the caller's array must be tracked also on the raising path", "anchors": ["src/pygmm/abrahamson_silva_1996.py:AbrahamsonSilva1996.interp", "src/pygmm/abrahamson_silva_1996.py:AbrahamsonSilva1996.__init__"]}
{"id": "C100", "title": "Afshari & Stewart 2016 against magnitude, velocity, basin depth and mechanism", "statement": "AfshariStewart2016. Magnitude: D5-75 is the same for all magnitudes up to 5.35 and strictly increases above; D5-95 and D20-80 likewise with 5.2; crossing that corner shortens no duration by more than 0.04% and growth up to magnitude 7.15 is at most exp(0.91) per unit - except D20-80 of a reverse fault, which leaps by more than 13.9% at distance 0 when 5.2 is crossed. v_s30: up to 600 m/s a stiffer site strictly shortens all durations; above, they do not change without depth_1_0 and strictly lengthen with it. depth_1_0: durations strictly increase up to 200 and are constant from 200.53 on, but a depth of up to 5 (kilometres, the unit of the scenario) changes them by less than 0.31%. D5-75 is always shorter than D5-95. Mechanism: reverse is shortest and normal longest; strike-slip and unknown lie between, in opposite orders for D5-75 and D5-95; above 5.2 the D20-80 of reverse and strike-slip coincide.", "quantifier": "all magnitudes, distances >= 0, velocities > 0, basin depths (given or not) and mechanisms", "why_tests_cant": "orderings and strictness over continuous ranges; the leap is at one magnitude and one of twelve coefficient pairs", "anchors": ["src/pygmm/afshari_stewart_2016.py:AfshariStewart2016.__init__", "src/pygmm/afshari_stewart_2016.py:AfshariStewart2016.calc_depth_1_0"]}
{"id": "C101", "title": "Kempton & Stewart 2006 in seconds", "statement": "KemptonStewart2006 (magnitude >= 5, dist_rup >= 0, v_s30 <= 960): two scenarios of the same magnitude differ by exactly 0.07, 0.15, 0.10 and 0.15 s per km (D5-75a, D5-95a, D5-75v, D5-95v) and by exactly 0.13, 0.41, 0.22 and 0.62 s per 100 m/s; each further magnitude unit multiplies the gain of the previous one by the square root of 10 for both D5-75, by 2.40-2.41 for D5-95a and 2.02-2.03 for D5-95v; a magnitude 6 event at the fault on a 600 m/s site gives 1.96, 6.17, 2.39 and 8.84 s; up to magnitude 7.6 each D5-75 is shorter than the D5-95 of its kind; the standard errors are 0.57, 0.47, 0.66 and 0.52.", "quantifier": "all magnitudes from 5, distances from 0, velocities up to 960 m/s", "why_tests_cant": "exact additivity and the ratio law hold for all reals; tests sample points", "anchors": ["src/pygmm/kempton_stewart_2006.py:KemptonStewart2006.__init__", "src/pygmm/kempton_stewart_2006.py:KemptonStewart2006._source_dur"]}
{"id": "C102", "title": "A measured v_s30 lowers only the within-event uncertainty", "statement": "Two scenarios that differ only in vs_source ('inferred' against anything else): the medians and tau are identical. AbrahamsonSilvaKamai2014: in Japan nothing changes at all; elsewhere, for v_s30 >= 180 m/s, the measured velocity strictly lowers phi and the total standard deviation at every period and PGA, and for PGV below magnitude 6 (from magnitude 6 on PGV stays). ChiouYoungs2014: phi and the total strictly fall below 5 s, for PGA and for PGV, in every region and for every velocity; at 5, 7.5 and 10 s they are the same.", "quantifier": "all valid scenario pairs differing in vs_source only; all ordinates", "why_tests_cant": "it ranges over all magnitudes, distances, velocities, regions and every ordinate", "anchors": ["src/pygmm/abrahamson_silva_kamai_2014.py:AbrahamsonSilvaKamai2014._calc_ln_std", "src/pygmm/chiou_youngs_2014.py:ChiouYoungs2014._calc_ln_std"]}
{"id": "C103", "title": "How standard deviations move with magnitude, distance and velocity", "statement": "BooreStewartSeyhanAtkinson2014, same velocity and distance, growing magnitude (not both <= 4.5 nor both >= 5.5): tau falls at ordinates 0-23 and 37-106 and rises at 24-36, phi falls at ordinates 0-59 and rises at 60-106, the total falls at ordinates 0-96; from magnitude <= 4.5 to >= 5.5 the total falls everywhere. Same magnitude, larger distance and/or velocity: tau stays, phi and the total never fall, and rise strictly when the distances are separated by some value in 131..190 km, or (ordinates 0-83) the velocities by some value in 225..300 m/s. Rock scenarios otherwise arbitrary: ChiouYoungs2014 (v_s30 >= 1130): tau falls everywhere; outside Japan phi falls or stays and the total falls strictly; in Japan phi rises at ordinates 7 and 15-20 and falls elsewhere. AbrahamsonSilvaKamai2014 (>= 960): outside Japan tau falls (PGV constant) and phi falls at ordinates 0-12, PGA, PGV and rises at 13-21; in Japan phi does not depend on magnitude and rises with distance between 30 and 80 km at ordinates 0-11 and PGA, falls at the others. CampbellBozorgnia2014 (>= 1100): tau falls except at ordinate 6 where it rises, phi falls at 0-11, PGA, PGV and rises at 12-20, the total falls at 0-18, PGA, PGV.", "quantifier": "all valid pairs of scenarios in the stated relation, every ordinate", "why_tests_cant": "the sign statements range over all magnitudes, distances and velocities at every ordinate; tests sample scenarios", "anchors": ["src/pygmm/boore_stewart_seyhan_atkinson_2014.py:BooreStewartSeyhanAtkinson2014._calc_ln_std", "src/pygmm/chiou_youngs_2014.py:ChiouYoungs2014._calc_ln_std", "src/pygmm/abrahamson_silva_kamai_2014.py:AbrahamsonSilvaKamai2014._calc_ln_std", "src/pygmm/campbell_bozorgnia_2014.py:CampbellBozorgnia2014._calc_ln_std"]}
{"id": "C104", "title": "What moves the vertical-to-horizontal ratio of GulerceAbrahamson2011", "statement": "GulerceAbrahamson2011.ratio: (velocity) two scenarios differing in v_s30 only: at and above the saturation velocity of the ordinate (1500 m/s for PGA and up to 0.5 s, 862 for PGV, 1083.5/862.0/764.8/702.1 at 0.75/1/1.5/2 s, 700 beyond) the ratio is the same; below it and above the linearity velocity of the ordinate it grows strictly. (reference) differing in pga_ref only: no change on linear sites and from 3 s on; on softer sites the ratio grows strictly with pga_ref. (mechanism) RS and NS shift ln ratio by fixed per-ordinate constants (PGA -0.105 and 0). (distance) up to magnitude 8.5 the ratio falls with distance for PGA and up to 0.15 s; from magnitude 3 on it rises for PGV and from 0.4 s; from 6.75 also at 0.2-0.3 s. (magnitude) for PGA and up to 0.3 s it grows with magnitude from 3 to 6.75 at every distance and to 8.5 from 50 km. (value) on rock >= 1500 m/s, M 6.75 strike slip at the fault has PGA ratio between 0.881 and 0.882.", "quantifier": "all valid scenarios (pairs), all 24 ordinates", "why_tests_cant": "monotonicity and saturation range over all real inputs", "anchors": ["src/pygmm/gulerce_abrahamson_2011.py:GulerceAbrahamson2011._calc_ln_ratio"]}
{"id": "C105", "title": "DerrasBardCotton2014: distance, depth, magnitude and standard deviation", "statement": "For scenarios whose values lie in the ranges DerrasBardCotton2014 declares, the response falls strictly with dist_jb for PGV, PGA and the ordinates up to index 57; the ordinates of index 55 and above fall strictly with depth_hyp; PGV and the ordinates of index 41 and above grow strictly with mag. The standard deviation of each ordinate is one number for every scenario, a base-ten value between 0.298 and 0.378 (PGV 0.298, PGA 0.309) multiplied by ln 10.", "quantifier": "every pair of in-range scenarios differing in the named input, every known mechanism, every ordinate of the stated index range", "why_tests_cant": "the responses come out of a neural network: monotonicity over a continuous five-dimensional box cannot be seen from finitely many outputs", "anchors": ["src/pygmm/derras_bard_cotton_2014.py: DerrasBardCotton2014.__init__", "src/pygmm/data/derras_bard_cotton_2014.json"]}
{"id": "C106", "title": "One scenario for the whole of pygmm.models", "statement": "Given a scenario that has the twelve inputs some model in pygmm.models requires (mag, dist_rup, dist_jb, dist_x, dip, v_s30, depth_tor, depth_hyp, pga_ref as numbers, v_s30 not zero, mechanism SS/NS/RS, a site_cond and an event_type) and whose optional inputs are absent or numbers, every entry of pygmm.models can be constructed, whatever the values, except Stafford2017, which raises TypeError for every scenario; so a loop over pygmm.models stops exactly at its last entry. Conversely, a scenario from which all the other entries can be constructed has all twelve inputs.", "quantifier": "all scenarios, all values (in or out of the models' ranges), all entries of pygmm.models", "why_tests_cant": "The scenario is arbitrary: out-of-range values, any subset of optional inputs, any strings; a test tries a handful.", "anchors": ["src/pygmm/__init__.py: models", "src/pygmm/model.py: Model.__init__, Model._check_inputs", "src/pygmm/stafford_2017.py: Stafford2017"]}
{"id": "C107", "title": "Coefficients is a faithful, item-wise read-only mapping", "statement": "A model.Coefficients made from any keywords presents exactly these: item access, len, iteration order, in and get agree with the keywords and a missing key raises KeyError, and no history of item assignments, deletions and attribute assignments changes that. A coefficient whose name the class does not use is read by attribute as by item; a missing attribute raises KeyError (so hasattr raises instead of answering False); but after an attribute assignment c.k = w, c.k is w while c[k] is still the original value.", "quantifier": "all keyword sets, all names, all histories of attempted changes", "why_tests_cant": "Histories and key sets are unbounded.", "anchors": ["src/pygmm/model.py: Coefficients"]}
{"id": "C108", "title": "Inputs that do not matter", "statement": "Two scenarios that agree on every key except those listed produce exactly the same medians, standard deviations, tau and phi. ASK14: off the hanging wall dist_jb, dist_x, dist_y0, dip and width do not matter; for a main shock dist_crjb does not; with dist_y0 given dist_jb does not. CY14: off the hanging wall dist_jb and dist_x do not matter; dpp_centered does not matter up to magnitude 5.5 nor from 70 km on. CB14: on the footwall (dist_x < 0) with depth_hyp given, dist_jb, the value of dist_x, depth_tor, depth_bot, depth_bor, width and depth_1_0 do not matter, and from magnitude 5.5 on neither does the dip; depth_1_0 never matters. AGA16: for interface events dist_hyp and depth_hyp do not matter, for intraslab events dist_rup does not.", "quantifier": "every pair of numeric scenarios that agree on the other keys, every value of the listed keys (given or left out where optional)", "why_tests_cant": "Independence of an input is a statement about all its values in all contexts; a test compares two of them.", "anchors": ["src/pygmm/abrahamson_silva_kamai_2014.py: _calc_ln_resp, _calc_f4", "src/pygmm/chiou_youngs_2014.py: _calc_ln_resp_ref", "src/pygmm/campbell_bozorgnia_2014.py: _calc_ln_resp, _check_inputs", "src/pygmm/abrahamson_gregor_addo_2016.py: _calc_ln_resp"]}
{"id": "C109", "title": "Stiff sites: where the velocity stops mattering and where it does not", "statement": "Take two scenarios that agree on every key but v_s30. Without a basin depth in the scenario, two sites above the model's cap give exactly the same object: ASK14 above 1500 m/s, ChiouYoungs2014 above 1130, BSSA14 above 1503.35, AkkarSandikkayaBommer2014 above 1000, AbrahamsonGregorAddo2016 and CoppersmithBommer2014 above 1085.7. Below the cap a stiffer site is never higher: ASK14 from 960 m/s outside Japan and Taiwan (strictly lower up to 0.5 s), BSSA14 from 760 (strictly lower in every row whose cap exceeds the velocity), AKB14 between 750 and 1000 (strictly lower everywhere), each with unchanged standard deviations. CampbellBozorgnia2014 never saturates: with depth_2_5 given, beyond 1100 m/s every ordinate falls by at least 0.138 times the logarithm of the velocity ratio in every region. BaylessAbrahamson2019 above 1000 m/s does not change up to 24 Hz, and in its extrapolated part above 24 Hz a stiffer site is strictly higher.", "quantifier": "all scenarios of the seven classes, all pairs of velocities beyond the thresholds, all rows, all other inputs", "why_tests_cant": "A test compares two velocities for one scenario; the claims hold for an unbounded range of velocities and every combination of the other inputs.", "anchors": ["src/pygmm/abrahamson_silva_kamai_2014.py", "src/pygmm/chiou_youngs_2014.py", "src/pygmm/boore_stewart_seyhan_atkinson_2014.py", "src/pygmm/akkar_sandikkaya_bommer_2014.py", "src/pygmm/abrahamson_gregor_addo_2016.py", "src/pygmm/campbell_bozorgnia_2014.py", "src/pygmm/bayless_abrahamson_2019.py"]}
{"id": "C110", "title": "Depth of the source and dip", "statement": "Two scenarios agreeing on every key but one. depth_tor, off the hanging wall: lowering the top of the rupture within 20 km strictly raises ASK14's PGA, PGV and ordinates up to 4 s and strictly lowers those from 5 s on (beyond 20 km nothing changes); in ChiouYoungs2014 it strictly raises PGA, PGV and the ordinates up to 0.5 s at every magnitude and all 26 ordinates from magnitude 7.5 on, but strictly lowers those from 0.75 s on up to magnitude 4.5. depth_hyp: in CampbellBozorgnia2014 on rock, lowering the hypocentre within 7 to 20 km strictly raises every ordinate from magnitude 6.5 on, and up to magnitude 5.5 raises the short and lowers the ordinates from 0.75 to 7.5 s; it strictly raises PGA on every site from 150 m/s at every magnitude; above 7 km and below 20 km it changes nothing. In AbrahamsonGregorAddo2016 an intraslab hypocentre lowered above 120 km strictly raises PGA (sites from 150 m/s) and on rock every ordinate up to 5 s, and lowers those from 6 s on; beyond 120 km nothing changes. dip: off the hanging wall a steeper fault strictly raises all 26 ordinates of ChiouYoungs2014, and on the footwall below magnitude 5.5 PGA (all ordinates on rock) of CampbellBozorgnia2014.", "quantifier": "all scenarios of the four classes, all pairs of depths and dips in the ranges named, all rows", "why_tests_cant": "The direction must hold for every pair of depths and every combination of the other inputs, through the nonlinear site term.", "anchors": ["src/pygmm/abrahamson_silva_kamai_2014.py:116", "src/pygmm/chiou_youngs_2014.py:96-100", "src/pygmm/campbell_bozorgnia_2014.py:180-186", "src/pygmm/abrahamson_gregor_addo_2016.py"]}
{"id": "C111", "title": "Soft sites: weak motion is amplified, strong motion is deamplified", "statement": "Take two scenarios that differ in v_s30 only (v < v') and the same event at the model's reference velocity; let p be the predicted reference acceleration. If p is small, the softer site has the strictly higher ordinate; if p is large, the strictly lower one. AkkarSandikkayaBommer2014 (v' <= 750): all ordinates rise if p <= 0.865 (v/750)^3.2, PGV and the long periods always, PGA rises if p <= 2.08 (v/750)^3.2 and falls if p >= 2.09 (v'/750)^3.2. CampbellBozorgnia2014 (outside Japan, depth_2_5 given): all if p <= 0.18 (v/1086)^1.18, 2-10 s always, PGA 0.533 / 0.534 (v/865)^1.18. AbrahamsonSilvaKamai2014 (no depth_1_0, outside Japan and Taiwan, v' <= 800, each ordinate's own reference value): 0.48 (v/960)^1.5, periods from 3 s always, short periods fall above 1.05 (v'/330)^1.5, PGA 0.65 / 0.6502 (v/660)^1.5. AbrahamsonGregorAddo2016 and CoppersmithBommer (v' <= 1000) likewise. BooreStewartSeyhanAtkinson2014 (no depth_1_0, v' <= 760): all if p <= 0.087, PGA if p <= 0.138, PGA lower if p >= 0.6 and 143 <= v < v' <= 400. ChiouYoungs2014 (no depth_1_0, v' <= 1130): p <= 0.09, PGA 0.12, PGV 18; outside Japan PGA lower if p >= 0.5 and 143 <= v < v' <= 400.", "quantifier": "every pair of scenarios agreeing on all keys but v_s30, every velocity pair in the stated range, every value of the other parameters, every tabulated ordinate of the stated range", "why_tests_cant": "The crossover depends on a continuum of velocities and on the predicted reference acceleration itself; a test compares a few stored spectra, none of which shows on which side of the crossover every input falls.", "anchors": ["src/pygmm/akkar_sandikkaya_bommer_2014.py: AkkarSandikkayaBommer2014.__init__", "src/pygmm/campbell_bozorgnia_2014.py: calc_site_term, _calc_ln_resp", "src/pygmm/abrahamson_silva_kamai_2014.py: calc_site_term, _calc_ln_resp", "src/pygmm/abrahamson_gregor_addo_2016.py: _calc_f_site", "src/pygmm/boore_stewart_seyhan_atkinson_2014.py: calc_site_term", "src/pygmm/chiou_youngs_2014.py: _calc_ln_resp_site"]}
{"id": "C112", "title": "A model takes one scenario at a time", "statement": "Constructing a model from a mapping that holds only scalars goes through the documented checks. If a numeric parameter that is declared with a lower or upper limit is given a numpy array with two or more entries, or a Python list, no model is ever constructed (ValueError for the array, TypeError for the list, when the other values pass), whatever the other values are. The parameters without limits are exactly 29 (class, parameter) pairs; through them arrays and lists pass unchanged and silently. For the 13 classes without such a parameter, a constructed model has been given scalars or at most one-entry arrays only, so the array handling inside PinillaRamosEtAl2023 and 2024 never runs. A list for a categorical parameter is replaced by the default with two warnings, an array with several entries raises ValueError.", "quantifier": "all shipped classes, all parameters, all mappings from names to scalars, arrays and lists of any length, and any continuation of the constructor after the checks", "why_tests_cant": "the claim is over every array length and content and every combination of the other values; tests try scalars only", "anchors": ["src/pygmm/model.py: Model.__init__, Model._check_inputs, NumericParameter.check, CategoricalParameter.check", "src/pygmm/pinilla_ramos_et_al_2023.py: PinillaRamosEtAl2023._calc_duration"]}
{"id": "C113", "title": "AtkinsonBoore2006 pairs 27 distances with its 27 ordinates", "statement": "AtkinsonBoore2006 declares no limits. Given an array of 27 distances and scalars otherwise it constructs a model without error or warning whose ordinate i is, on hard rock (v_s30 = 0) or on a site of at least 760 m/s, the value that a model constructed with the i-th distance alone has at ordinate i; on softer sites ordinate i takes its reference motion from the i-th distance and its site amplification from the PGA at the third. Distance arrays with any other length than 1 or 27, distance lists, magnitude or site arrays with other than one entry, magnitude lists and non-empty site lists raise; the empty list as v_s30 means hard rock; one-entry arrays act as their entry; on scalars all of this is the scalar model.", "quantifier": "all mappings from names to scalars, arrays and lists of any length and content", "why_tests_cant": "the pairing is over every array of 27 reals and the refusal over every other length", "anchors": ["src/pygmm/atkinson_boore_2006.py: AtkinsonBoore2006.__init__, _calc_ln_resp, _calc_stress_factor, _calc_log10_site"]}
{"id": "C114", "title": "The regions of the NGA-West2 models attenuate differently", "statement": "With everything but the region equal: ChiouYoungs2014 predicts for Italy lower motion at every ordinate than for regions without adjustment exactly when 6 < M < 6.9 (sites of at least 180 m/s, distance > 0) and the same motion otherwise, and for China higher motion; BooreStewartSeyhanAtkinson2014 on sites of 760 m/s and more differs between China or Turkey and California by the China/Turkey anelastic adjustment times (sqrt(Rjb^2+h^2) - 1), a positive amount, and between Italy or Japan and California by the other adjustment, negative below 7 s and positive from 7 s; CampbellBozorgnia2014 gives Italy and California the same motion up to 80 km on every site and beyond 80 km on rock lower motion in Italy by its adjustment per km below 3 s and the same from 3 s; AbrahamsonSilvaKamai2014 on rock gives China higher motion than California by its coefficient per km below 3 s and the same from 3 s, and its regional log-ratios change per km by the coefficient of exactly that region (Taiwan, China, Japan) and not at all for the others.", "quantifier": "all accepted scenarios that differ in region (and, for the last claim, distance) only, every ordinate", "why_tests_cant": "the difference is claimed for all magnitudes, distances, sites and periods, and the thresholds at which it vanishes are exact", "anchors": ["src/pygmm/chiou_youngs_2014.py: _calc_ln_resp_ref", "src/pygmm/boore_stewart_seyhan_atkinson_2014.py: _calc_ln_resp", "src/pygmm/campbell_bozorgnia_2014.py: _calc_ln_resp", "src/pygmm/abrahamson_silva_kamai_2014.py: _calc_ln_resp"]}
{"id": "C115", "title": "The NGA-West2 models are jointly continuous in all numeric inputs", "statement": "For Chiou & Youngs (2014), Abrahamson, Silva & Kamai (2014), Boore, Stewart, Seyhan & Atkinson (2014), Campbell & Bozorgnia (2014) and Idriss (2014), let a family of scenarios move any set of numeric parameters continuously (magnitude, all distances, dip, widths, depths, v_s30, ...) and keep the others, given or missing, as they are. Then every ordinate of the predicted median, and of each standard deviation, is a continuous function of the family wherever it is defined, estimates of missing parameters included. The only exceptions are listed: CY14 at magnitudes 6 and 6.9 in Japan and Italy; ASK14 at v_s30 = 1180 with a given depth_1_0; CB14 at v_s30 = 200 in Japan and, on the hanging wall from magnitude 5.5, at dist_x = 0, dist_rup = 0, a top of rupture at 16.66 km, and for the ordinates 0.01, 0.05, 0.3 and 0.5 s at the end of the horizontal projection of the rupture, and, where the hypocentral depth is estimated, where the bottom of the rupture is at its top; I14 at magnitude 6.75.", "quantifier": "all topological families of scenarios that vary any subset of the numeric parameters, all points of the family, all ordinates, all mechanisms, regions and flags", "why_tests_cant": "continuity in several variables at once is a statement about all nearby points along all paths; a test samples finitely many", "anchors": ["src/pygmm/chiou_youngs_2014.py ChiouYoungs2014", "src/pygmm/abrahamson_silva_kamai_2014.py AbrahamsonSilvaKamai2014", "src/pygmm/boore_stewart_seyhan_atkinson_2014.py BooreStewartSeyhanAtkinson2014", "src/pygmm/campbell_bozorgnia_2014.py CampbellBozorgnia2014", "src/pygmm/idriss_2014.py Idriss2014"]}
{"id": "C116", "title": "The other models are jointly continuous in all numeric inputs", "statement": "For Campbell (2003), Tavakoli & Pezeshk (2005), Pezeshk et al. (2011), Akkar, Sandikkaya & Bommer (2014), Abrahamson, Gregor & Addo (2016) with any adjustments, the Coppersmith & Bommer (2014) variant, Derras, Bard & Cotton (2014), Gulerce & Abrahamson (2011) and Atkinson & Boore (2006), let a family of scenarios move any set of numeric parameters continuously. Then every ordinate of the median (or ratio) and of the standard deviation is a continuous function of the family wherever it is defined. The only exceptions: the standard deviation at magnitude 7.16 (Campbell), 7.2 (Tavakoli & Pezeshk) and 7 (Pezeshk et al.); AGA16 at v_s30 = 1053.5, 1085.7 and 1032.5 for the ordinates 0.05, 0.075 and 0.1 s, and its Coppersmith variant at 1053.5 and 1032.5 for 0.05 and 0.1 s; AB06 at v_s30 = 180 and 300 and where v_s30 starts to differ from 0.", "quantifier": "all topological families of scenarios that vary any subset of the numeric parameters, all points, all ordinates, all mechanisms, event types, regions and adjustments", "why_tests_cant": "continuity in several variables at once is a statement about all nearby points along all paths; a test samples finitely many", "anchors": ["src/pygmm/campbell_2003.py Campbell2003", "src/pygmm/tavakoli_pezeshk_2005.py TavakoliPezeshk05", "src/pygmm/pezeshk_zandieh_tavakoli_2011.py PezeshkZandiehTavakoli2011", "src/pygmm/akkar_sandikkaya_bommer_2014.py AkkarSandikkayaBommer2014", "src/pygmm/abrahamson_gregor_addo_2016.py AbrahamsonGregorAddo2016", "src/pygmm/coppersmith_bommer_2014.py CoppersmithBommer2014", "src/pygmm/derras_bard_cotton_2014.py DerrasBardCotton2014", "src/pygmm/gulerce_abrahamson_2011.py GulerceAbrahamson2011", "src/pygmm/atkinson_boore_2006.py AtkinsonBoore2006"]}
{"id": "C117", "title": "Durations depend continuously on all numeric inputs at once", "statement": "If the numeric parameters of a scenario all move continuously and the other parameters stay as they are, the durations of AbrahamsonSilva1996 and KemptonStewart2006 (and their standard errors), the stored median/plus/minus durations of the two PinillaRamos models and those that duration_for_energy returns for any fixed energy move continuously, wherever they are defined; the durations of AfshariStewart2016 do so except at magnitude 5.35 (D5-75) and 5.2 (D5-95, D20-80), its standard errors everywhere.", "quantifier": "every topological space of scenarios, every choice of moving parameters, every point, every duration measure, every energy", "why_tests_cant": "A test samples scenarios; a gap between two branches of a formula (distance hinges 10/42/44/130/250 km, velocity hinges 200/275/1900/2000 m/s, magnitude hinges 6.0/6.75) shows only in the limit, on any approach path.", "anchors": ["src/pygmm/abrahamson_silva_1996.py", "src/pygmm/kempton_stewart_2006.py", "src/pygmm/afshari_stewart_2016.py", "src/pygmm/pinilla_ramos_et_al_2023.py:_calc_duration,duration_for_energy", "src/pygmm/pinilla_ramos_et_al_2024.py:_calc_duration,duration_for_energy"]}
{"id": "C118", "title": "Within the declared limits every prediction is a finite number", "statement": "If every parameter a class declares has a recommended value (a number within the limits, one of the options, or nothing for an optional one) and distances, depths, dip and width are physical, then construction succeeds and every stored ordinate and standard deviation (or duration) is a finite number, one per tabulated row, and the standard deviations of the spectral models are positive. The exceptions are part of the claim: on the hanging wall AbrahamsonSilvaKamai2014 needs dist_x and dip < 90 and CampbellBozorgnia2014 needs dip < 90, a width and a nonzero R1-R2 denominator; AkkarSandikkayaBommer2014 needs one of its distances, AbrahamsonGregorAddo2016 and CoppersmithBommer2014 the distance of the event type; AtkinsonBoore2006, which declares no limits, a positive distance and a v_s30 that is not negative; KemptonStewart2006 needs v_s30 at most 960 (at magnitude 5, distance 0 and v_s30 1000, all within limits, one duration is undefined); BaylessAbrahamson2019 has deviations below 24 Hz only; PinillaRamosEtAl2024 refuses interface events in Taiwan.", "quantifier": "every scenario whose declared parameters are all within limits", "why_tests_cant": "A test samples points of a box with up to 15 dimensions; a zero denominator or the logarithm of a nonpositive number may sit anywhere in it, at any of the tabulated periods.", "anchors": ["src/pygmm/model.py:NumericParameter.check,CategoricalParameter.check", "src/pygmm/*.py:PARAMS,__init__"]}
{"id": "C119", "title": "What a successful construction reports is determined by the declaration", "statement": "A successful construction reports, for each declared parameter in the declared order: one warning if the number given is below the minimum or above the maximum, two (not an option, using the default) if the value given for a categorical parameter is none of the options, nothing otherwise; then, for BooreStewartSeyhanAtkinson2014, ChiouYoungs2014 and CampbellBozorgnia2014 only, the notice about the magnitude range of the mechanism; and nothing else. Estimates of missing values are made silently. Nothing is reported for the parameters exactly if all values are recommended.", "quantifier": "every scenario, every class (AbrahamsonBhasin2020 cannot be constructed)", "why_tests_cant": "A test checks single warnings for single inputs; absence of any further report, and the order, for all inputs is a universal statement.", "anchors": ["src/pygmm/model.py:NumericParameter.check,CategoricalParameter.check,Model._check_inputs", "src/pygmm/boore_stewart_seyhan_atkinson_2014.py:_check_inputs", "src/pygmm/campbell_bozorgnia_2014.py:_check_inputs", "src/pygmm/chiou_youngs_2014.py:_check_inputs"]}
{"id": "C120", "title": "The interpolated spectrum is jointly continuous in the scenario and the period", "statement": "If the tabulated ordinates of a class depend continuously on a scenario input, then the spectrum interpolated at a requested period (linear in the logarithm of the period) is continuous jointly in that input and in the period, over the whole positive range up to the last tabulated period where interpolation is defined; the same for the interpolated standard deviations; both are numbers there. End to end: for ChiouYoungs2014, perturbing all numeric inputs and the requested period a little changes the interpolated spectral acceleration only a little.", "quantifier": "every continuous family of instances, every period strictly inside the tabulated range", "why_tests_cant": "Continuity is a limit statement over all nearby scenarios and periods.", "anchors": ["src/pygmm/model.py:GroundMotionModel.interp_spec_accels,interp_ln_stds", "src/pygmm/chiou_youngs_2014.py:ChiouYoungs2014"]}
{"id": "C121", "title": "Exactly when a construction succeeds", "statement": "For a scenario whose declared parameters are each missing or of the declared type (number, text or flag), construction returns an object if and only if every required parameter is given and, in addition, for these classes only: AkkarSandikkayaBommer2014: at least one of dist_jb, dist_hyp, dist_epi is given; DerrasBardCotton2014: the mechanism is SS, NS or RS (any other text ends in an error, although only a warning is announced); AbrahamsonSilvaKamai2014: dist_x is given if on_hanging_wall is true; PinillaRamosEtAl2024: event type and region are known ones and not an interface event in Taiwan; CoppersmithBommer2014: dist_rup is given; AbrahamsonGregorAddo2016: an intraslab event has dist_hyp and depth_hyp, any other has dist_rup, and the backarc region is only used with a known event type. CampbellBozorgnia2014 is covered for v_s30 other than 0. Numbers outside the limits never make a construction fail. An arithmetic result that does not exist (nan in numpy) is not counted as a failure.", "quantifier": "every typed scenario, 20 classes", "why_tests_cant": "An if-and-only-if over all combinations of present and missing parameters and all their values.", "anchors": ["src/pygmm/model.py:Model.__init__,Model._check_inputs,Parameter.check", "src/pygmm/*.py:__init__,_check_inputs"]}
{"id": "C122", "title": "No method uses a variable it has not assigned", "statement": "Whichever branches a call takes (mechanism, region, hanging wall, magnitude and distance ranges), every local array that a formula reads, that an in-place update writes to, or that is returned has been assigned before on that path: no UnboundLocalError can occur in the constructors and array methods of the package. A call can fail only because one of its formulas raises, and otherwise returns all its arrays.", "quantifier": "every path through each of the 24 array programs (22 shipped operations, freqs and interp), every meaning of the formulas and conditions, every argument and table content", "why_tests_cant": "The number of paths is exponential in the number of branches and tests take the common ones; the claim holds for all of them and for all values.", "anchors": ["src/pygmm/*.py:__init__,_calc_ln_resp,_calc_ln_std,calc_site_term,cov,corr,interp"]}
{"id": "C123", "title": "What is left far away: which models fade out with distance, which do not", "statement": "With everything but the distance fixed, the predictions of Idriss (2014), Pezeshk et al. (2011), Akkar et al. (2014), Chiou & Youngs (2014) Abrahamson et al. (2014), Campbell & Bozorgnia (2014), Tavakoli & Pezeshk (2005), Atkinson & Boore (2006), Abrahamson et al. (2016) and Coppersmith & Bommer (2014) fall below every level, however low, from some distance on (for AKB14, ASK14, CB14 and TP05 up to magnitude 8.5; for the two subduction models with a positive attenuation scale), on and off the hanging wall and in every region. Campbell (2003) fades out up to magnitude 7.3, but from magnitude 7.4 its 0.03 s ordinate grows beyond every bound. Boore et al. (2014) fades out except in China/Turkey (PGV and periods from 0.65 s grow without bound) and Italy/Japan (periods from 7 s grow without bound). Derras et al. (2014) never fades out: every ordinate stays above 9e-7.", "quantifier": "every level K, every scenario differing from a given one in the distance only, at all distances from some R0 (which depends on K and the fixed inputs) on", "why_tests_cant": "A limit at infinity for all levels and all fixed inputs; a test sees finitely many distances.", "anchors": ["src/pygmm/idriss_2014.py:Idriss2014", "src/pygmm/campbell_2003.py:Campbell2003", "src/pygmm/pezeshk_zandieh_tavakoli_2011.py", "src/pygmm/akkar_sandikkaya_bommer_2014.py", "src/pygmm/chiou_youngs_2014.py", "src/pygmm/abrahamson_silva_kamai_2014.py", "src/pygmm/boore_stewart_seyhan_atkinson_2014.py", "src/pygmm/derras_bard_cotton_2014.py", "src/pygmm/campbell_bozorgnia_2014.py", "src/pygmm/tavakoli_pezeshk_2005.py", "src/pygmm/atkinson_boore_2006.py", "src/pygmm/abrahamson_gregor_addo_2016.py", "src/pygmm/coppersmith_bommer_2014.py"]}
{"id": "C124", "title": "Statement-by-statement array code computes the row formulas", "statement": "The constructors work on whole arrays: they bind coefficient columns without copying, allocate arrays, and update them in place, under masks and in branches. For every operation of the package on arrays (except AbrahamsonSilva1996.interp) sharing never shows: the returned arrays are what the statements say when each variable simply has a value, the tables and the caller's arrays are unchanged. For Campbell (2003), Tavakoli & Pezeshk (2005), Pezeshk et al. (2011), Idriss (2014), Akkar et al. (2014), Chiou & Youngs (2014), Abrahamson et al. (2014), Boore et al. (2014), Campbell & Bozorgnia (2014), Abrahamson, Gregor & Addo (2016) with any adjustments, Coppersmith & Bommer (2014), Atkinson & Boore (2006) and Derras, Bard & Cotton (2014), including the reference pass, the masked in-place updates and the passage of the reference motion to the second pass, executing the statements one after the other over the coefficient table gives, entry by entry, exactly what spec_accels, ln_stds and periods of the instance return for every scenario. The same holds for ratio and ln_std of Gulerce & Abrahamson (2011), for eas, ln_eas and ln_std of Bayless & Abrahamson (2019), for corr and cov of Bayless & Abrahamson (2018), for cov of the correlation model of Stafford (2017) with its nested loop, and for calc_site_term of Abrahamson et al. (2014), Chiou & Youngs (2014), Boore et al. (2014) and Campbell & Bozorgnia (2014).", "quantifier": "every shipped operation and every meaning of its formulas; for the named models every scenario with the required values", "why_tests_cant": "Equality of two programs for all inputs; aliasing errors show only for particular branches.", "anchors": ["src/pygmm/campbell_2003.py:_calc_ln_resp", "src/pygmm/tavakoli_pezeshk_2005.py:_calc_ln_resp", "src/pygmm/pezeshk_zandieh_tavakoli_2011.py", "src/pygmm/idriss_2014.py", "src/pygmm/akkar_sandikkaya_bommer_2014.py:__init__", "src/pygmm/chiou_youngs_2014.py:__init__", "src/pygmm/abrahamson_silva_kamai_2014.py:_calc_ln_resp", "src/pygmm/boore_stewart_seyhan_atkinson_2014.py:_calc_ln_resp", "src/pygmm/campbell_bozorgnia_2014.py:_calc_ln_resp", "src/pygmm/abrahamson_gregor_addo_2016.py:_calc_ln_resp", "src/pygmm/coppersmith_bommer_2014.py:_calc_ln_resp", "src/pygmm/atkinson_boore_2006.py", "src/pygmm/derras_bard_cotton_2014.py:__init__", "src/pygmm/gulerce_abrahamson_2011.py", "src/pygmm/bayless_abrahamson_2019.py:_calc_ln_eas", "src/pygmm/bayless_abrahamson_2018.py:corr", "src/pygmm/bayless_abrahamson_2018.py:cov", "src/pygmm/stafford_2017.py:cov"]}
{"id": "C125", "title": "Constructing HermkesKuehnRiggelsen2014 in several threads at once is safe", "statement": "HermkesKuehnRiggelsen2014 keeps its interpolator in a module-level global without a lock. Let any number of threads construct it at the same time, interrupted between the base class constructor, the test of the global, reading the file, assigning the global and the prediction, in any order, with threads stopped anywhere and the data file replaced any number of times. Then every construction that finished returned or raised exactly what it does alone in a fresh interpreter with one of the files that were there (with one file all the time: with that file); it never fails because another thread is half way through. No thread waits for another: five turns of its own are enough. The threads read the file at most once each (two can both read it); once the global is set only threads that had already found it empty can still read it. An uninterrupted thread does what the sequential constructor does.", "quantifier": "every number of threads, every scenario per thread, every schedule, every point where threads stop, every sequence of data files", "why_tests_cant": "It ranges over all schedules; races show only for particular interleavings.", "anchors": ["src/pygmm/hermkes_kuehn_riggelsen_2014.py:__init__"]}
{"id": "C126", "title": "Array operations run in several threads do not disturb each other", "statement": "Any number of threads execute operations of the package (constructors and array accessors of the ground motion models, calc_site_term, ratio, corr, cov) at the same time, sharing the class-level coefficient tables and possibly passing the same arrays. However they are interleaved, between any two statements and between computing and storing an in-place update, and wherever some of them stop: the tables and the callers' arrays are at every moment what they were; a call that finished returned or raised exactly what it does alone; two schedules give it the same arrays; its arrays are reachable by no other thread; and no thread waits for another. (AbrahamsonSilva1996.interp with an array is the exception: it changes the caller's array.)", "quantifier": "every number of threads, all operations and inputs, every meaning of the formulas, every schedule, every point where threads stop", "why_tests_cant": "It ranges over all schedules and inputs; races show only for particular interleavings.", "anchors": ["src/pygmm/model.py:GroundMotionModel", "src/pygmm/chiou_youngs_2014.py", "src/pygmm/campbell_2003.py", "src/pygmm/abrahamson_silva_1996.py:interp"]}
{"id": "C127", "title": "Correlation and conditional mean spectrum are jointly continuous", "statement": "baker_jayaram_2008.calc_correls is continuous in both periods together from 0.01 s on. If the periods, medians and standard deviations of a spectrum (strictly increasing periods from 0.01 to 500 s, positive standard deviations), the conditioning period (in that range, possibly moving across tabulated periods) and the conditioning value all move continuously, then every entry of the arrays that calc_cond_mean_spectrum returns is a number and moves continuously. The same for kishida_2017.calc_cond_mean_spectrum_vector with any fixed set of conditioned periods: where the covariance of the conditioned periods is not singular it keeps returning for all nearby inputs, and every entry of its arrays moves continuously with periods, medians, standard deviations and conditioning values.", "quantifier": "every length of the spectrum, every parametrisation, every point of it", "why_tests_cant": "Continuity is a statement about all points; branches meet at 0.109 s and 0.2 s and at every tabulated period.", "anchors": ["src/pygmm/baker_jayaram_2008.py:calc_correls", "src/pygmm/baker_jayaram_2008.py:calc_cond_mean_spectrum", "src/pygmm/kishida_2017.py:calc_cond_mean_spectrum_vector"]}
{"id": "C128", "title": "Constructing models while other threads edit the scenario", "statement": "A constructor reads the caller's scenario once per declared parameter. While any number of constructors run in threads, other threads give the shared scenario objects new contents at any moment. A constructor that finished returned or raised exactly what it does for a mapping in which each declared parameter has the value the scenario had at one of the constructor's own turns, in parameter order: at worst a mixture of successive contents (which does happen: magnitude of the old, distance of the new scenario), never anything else. If the declared parameters had the same values at all its turns it gives exactly what the constructor gives for that scenario; edits before, after, or of other keys do not matter. Constructors change no scenario of the callers; a finished model never changes; no constructor waits for another: number of parameters plus one turns of its own suffice.", "quantifier": "every class, every number of threads and scenarios, every schedule of reads and edits, every point where threads stop", "why_tests_cant": "It ranges over all schedules; torn reads show only for particular interleavings.", "anchors": ["src/pygmm/model.py:Model.__init__"]}
{"id": "C129", "title": "The kind argument selects the documented tabulated value", "statement": "For every shipped ground-motion model, interp_ln_spec_accels, interp_spec_accels and interp_ln_stds treat kind as documented: 'linear' is the default; for a period within the tabulated range 'nearest' returns the value of a tabulated period closest on the logarithmic axis (ties: the shorter), 'nearest-up' the same with ties to the longer, 'previous' the value of the longest tabulated period not above the request, 'next' that of the shortest one not below it; at a tabulated period each returns exactly that row's value; outside the range they return nan; any other string than these and the four spline kinds raises NotImplementedError; interp_spec_accels is always the exponential of interp_ln_spec_accels.", "quantifier": "every shipped ground-motion class, every instance with one response per row, every positive requested period, every kind string", "why_tests_cant": "The choice depends on a real-valued requested period against every gap of every period table, with ties at the logarithmic midpoints; a test tries a few periods of one model.", "anchors": ["src/pygmm/model.py:interp_ln_spec_accels", "src/pygmm/model.py:interp_spec_accels", "src/pygmm/model.py:interp_ln_stds"]}
{"id": "C130", "title": "Conditional mean spectra of the shipped models", "statement": "Passing periods, np.log(spec_accels) and ln_stds of any shipped ground-motion model to calc_cond_mean_spectrum works end to end: conditioned at a tabulated period the spectrum takes the target value there with zero standard deviation, and everywhere else the standard deviation is positive and no larger than the model's; conditioned on the model's own median there it returns the median spectrum. At a period between two neighbouring tabulated ones this fails: interp_ln_spec_accels interpolates along log period, calc_cond_mean_spectrum along period, so conditioning on the model's own interpolated median shifts the spectrum up where it rises between the two periods and down where it falls. Outside the tabulated periods, where interp_ln_spec_accels answers nan, calc_cond_mean_spectrum silently measures the target against the median and deviation of the shortest or longest tabulated period.", "quantifier": "every shipped ground-motion class, every instance with finite responses and positive standard deviations, every conditioning period (tabulated or between neighbours) and every target", "why_tests_cant": "Tests call calc_cond_mean_spectrum on one stored spectrum; the claim ranges over all models, scenarios, conditioning periods and targets, and the mismatch between the two interpolations is a strict inequality for all of them.", "anchors": ["src/pygmm/baker_jayaram_2008.py:calc_cond_mean_spectrum", "src/pygmm/model.py:interp_ln_spec_accels", "src/pygmm/model.py:spec_accels", "src/pygmm/model.py:ln_stds", "src/pygmm/model.py:periods"]}
{"id": "C131", "title": "Vector conditional spectrum: superposition and scaling of deviations", "statement": "For calc_cond_mean_spectrum_vector with strictly increasing periods of at least 0.01 s: conditioning on the medians themselves returns the median spectrum at every period; for two sets x, y of targets at the same periods and any factors a, b, the departure from the median spectrum caused by the targets median + a(x - median) + b(y - median) is a times the departure caused by x plus b times that caused by y, while the returned standard deviations do not depend on the target values; and multiplying every input standard deviation by one positive factor k leaves the conditional means alone and multiplies the conditional standard deviations by k. Whether LinAlgError is raised depends neither on the targets nor on k.", "quantifier": "all lists of periods with medians and deviations, all choices of conditioned periods, all target values, all factors a, b and all k > 0", "why_tests_cant": "The laws hold for every matrix size and every set of conditioned periods; a test inverts a handful of fixed matrices.", "anchors": ["src/pygmm/kishida_2017.py:calc_cond_mean_spectrum_vector"]}
{"id": "C132", "title": "From a model to a conditional spectrum with several targets", "statement": "For every shipped ground-motion class and every instance with finite responses and positive standard deviations, passing periods, log of spec_accels and ln_stds to calc_cond_mean_spectrum_vector with any masked array of targets of the same length either returns one entry per spectral period, with finite means, each target taken exactly with standard deviation zero, or raises LinAlgError, and the latter never with fewer than three targets (so never because of two close periods or of the values). Conditioning on the model's own medians at any set of periods returns the median spectrum; with a single target the result agrees entry by entry with calc_cond_mean_spectrum at that period.", "quantifier": "all shipped classes, all instances with finite responses and positive deviations, all masks and target values", "why_tests_cant": "It combines every class's period table with every set of conditioned periods and all target values; a test fixes one model and one pair of targets.", "anchors": ["src/pygmm/kishida_2017.py:calc_cond_mean_spectrum_vector", "src/pygmm/model.py:GroundMotionModel.periods", "src/pygmm/model.py:GroundMotionModel.spec_accels", "src/pygmm/model.py:GroundMotionModel.ln_stds"]}
{"id": "C133", "title": "Conditioning a conditional spectrum again", "statement": "Feeding the result of calc_cond_mean_spectrum back into it: at the period already conditioned upon, whatever the new value (even the same), no entry of the new mean is finite, because the deviation there is zero; at another tabulated period the result is finite everywhere, passes through both targets with standard deviation zero at both periods, and no deviation grows. Feeding the result of calc_cond_mean_spectrum_vector back into it with a target at a period that already had one raises LinAlgError, whatever the other targets.", "quantifier": "all spectra with increasing periods and positive deviations, all pairs of tabulated periods (0.01 to 500 s for the finite case), all target values, all further masks", "why_tests_cant": "It holds for every spectrum and all values, including the case where the repeated target is exactly the value already there.", "anchors": ["src/pygmm/baker_jayaram_2008.py:calc_cond_mean_spectrum", "src/pygmm/kishida_2017.py:calc_cond_mean_spectrum_vector"]}
{"id": "C134", "title": "Constructions when warnings are errors", "statement": "With warnings.simplefilter(\"error\"), for every shipped class and every scenario whose given values have the declared types: construction succeeds exactly if it succeeds without the filter and every declared parameter has a recommended value (a number within the limits, one of the options, or nothing where that is allowed), and then the object is the same. Otherwise the first declared parameter with a given value outside its limits or options decides: construction raises the warning about it (below limit, above limit, not an option), regardless of everything after it in the declaration, even a missing required value. The notices of BSSA14, CB14 and CY14 go through logging and stay harmless. duration_for_energy of a constructed PinillaRamosEtAl2024 raises the warning exactly for the energies in [0.10, 0.95] that np.isclose matches with no threshold of the table, and otherwise does what it does without the filter.", "quantifier": "all shipped classes, all scenarios with values of the declared types, all energies", "why_tests_cant": "The filter interacts with every parameter of every class and the order of the declarations; a test would need every combination of out-of-range values.", "anchors": ["src/pygmm/model.py:NumericParameter.check", "src/pygmm/model.py:CategoricalParameter.check", "src/pygmm/model.py:Model._check_inputs", "src/pygmm/pinilla_ramos_et_al_2024.py:PinillaRamosEtAl2024.duration_for_energy"]}
{"id": "C135", "title": "The vector conditional spectrum is the best linear prediction, and more targets never widen it", "statement": "For every spectrum of ascending periods of at least 0.01 s with positive standard deviations and a positive definite covariance: at every period without a target, calc_cond_mean_spectrum_vector returns the median plus a weighted sum of the departures of the targets from their medians, the square of the returned standard deviation is the variance of the error of that prediction under the covariances lnStd * rho(T1,T2) * lnStd with the correlation of Baker & Jayaram (2008), and no other choice of weights has a smaller error variance. If one set of targets is given at all the periods of another (whatever their values), then at every period the standard deviation with the larger set is at most the one with the smaller. In particular, at every period the standard deviation is at most that of calc_cond_mean_spectrum conditioned on any one of the target periods alone (periods up to 500 s). At a period without a target the standard deviation stays positive, and it equals the unconditional one exactly if the correlation with every target period is zero. calc_cond_mean_spectrum conditioned on a period of the spectrum (periods 0.01 to 500 s) is the best prediction with one weight in the same sense, with no assumption on the covariance.", "quantifier": "all spectra, all sets and values of targets, all weights", "why_tests_cant": "Optimality compares with every vector of weights, and monotonicity with every superset of targets, for spectra of any length.", "anchors": ["src/pygmm/kishida_2017.py:calc_cond_mean_spectrum_vector", "src/pygmm/baker_jayaram_2008.py:calc_cond_mean_spectrum"]}
{"id": "C136", "title": "A target at the value already predicted changes no mean of the vector conditional spectrum", "statement": "For every spectrum of ascending periods of at least 0.01 s with positive standard deviations and a positive definite covariance: let calc_cond_mean_spectrum_vector return means and standard deviations for some targets. Calling it again with the same targets and further targets, at any of the other periods, equal to the means just returned succeeds, leaves every mean at every period unchanged, and raises no standard deviation. In particular, the means of calc_cond_mean_spectrum conditioned on one period are reproduced, at every period, by the vector function when that target and any of those means are given as targets (periods up to 500 s). For every shipped ground motion model with finite response and positive standard deviations the same holds of the conditional spectrum of the model without any assumption on the covariance: the second call either raises LinAlgError (never with fewer than three targets) or returns the same means.", "quantifier": "all spectra, all sets and values of targets, all sets of further periods, all shipped models", "why_tests_cant": "It relates two runs with any number of targets each; the inverse matrices of the two runs have different sizes and are unrelated entry by entry.", "anchors": ["src/pygmm/kishida_2017.py:calc_cond_mean_spectrum_vector", "src/pygmm/baker_jayaram_2008.py:calc_cond_mean_spectrum"]}
