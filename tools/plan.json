{
 "1": "`Scenario.init`, `Scenario.copyWith` | acceptance iff, induction over the key list",
 "2": "`Scenario.copyWith`, `Dict.update` | lookup in the updated association list; independence of later updates through the heap of C08",
 "3": "`Scenario.getAttr/getItem` | invariant `attrs = []` over every sequence of scenario operations without attribute assignment",
 "4": "`ModelClass.new` | congruence: construction factors through `get` on the declared names",
 "5": "`Model.checkInputs` | induction over PARAMS with exceptions as values",
 "6": "`Param.check` | case analysis for arbitrary declaration and value",
 "7": "`Param.check` | case analysis for arbitrary options and value",
 "8": "`Heap` | step function per API call, invariant over all histories",
 "9": "`Arrays`, `Models/ArrayMethods` | every class's array statements as a program that never writes to a table cell; induction over histories",
 "10": "`Model`, `Fill`, all five overridden `_check_inputs` | idempotence of each check and each completion, lifted over PARAMS",
 "11": "`GMM` | accessors over an arbitrary class description and response vector, Python index semantics",
 "12": "`Interp` | `interp1d` as a search over sorted nodes, induction over the node list",
 "13": "`GMMClasses`, `Data` | kernel evaluation over each complete table, lifted to the statement about indices",
 "14": "`Decls` | kernel evaluation over the complete list of declarations; consequences for all scenarios by C01",
 "15": "`Models/CB14` with attributes | unfolding of the five completions",
 "16": "`Models/AB20` | constructor with its default arguments, case analysis",
 "17": "`Models/GA11` | from C05 applied to its PARAMS",
 "18": "`Models/CB14` | equality of computations by cases on the region",
 "19": "`Models/BSSA14` | equality of computations by cases on the region",
 "20": "`Models/Durations` | equality of computations",
 "21": "`Models/AB06` | which table is read, by cases on v_s30",
 "22": "`Models/AB06` | one-sided limits at the slope hinges",
 "23": "`Models/AKB14` | cases on the supplied distances",
 "24": "`Models/AGA16` | equality of computations",
 "25": "`Models/PR24` | cases on event type and region",
 "26": "`Models/PR24` | table facts in the kernel, real analysis",
 "27": "`Models/PR24` | monotonicity of exp",
 "28": "`Models/PR23` | `np.argmin`/`isclose` semantics",
 "29": "`Models/PR23` | real analysis with table facts",
 "30": "`Models/Durations` | monotonicity of the closed formula",
 "31": "`Models/Durations` | monotonicity of the closed formula",
 "32": "`Arrays` | effect of the masking statements on the caller's array",
 "33": "`Models/Durations` | monotonicity, hinge continuity",
 "34": "`Models/BJ08` | real analysis of the piecewise correlation",
 "35": "`Models/BJ08` | real analysis",
 "36": "`Models/Kishida` | Mathlib matrices: invertible conditioning block",
 "37": "`Models/Kishida` | 1x1 block",
 "38": "`Models/Stafford` | entrywise analysis",
 "39": "`Models/Stafford` | case analysis of argument shapes",
 "40": "`Models/BA18` | symmetry, diagonal, interpolated table",
 "41": "`Models/BA19` | missing coefficients in the last rows; magnitude steps",
 "42": "`Models/BA19` | the flattening/smoothing passes as list functions, induction over indices",
 "43": "`Models/ASK14` | derivative-free comparison per term, arbitrary row with checked inequalities",
 "44": "`Models/ASK14` | hinge equations per row in the kernel, continuity of the pieces",
 "45": "`Models/ASK14` | bounds on the variance terms",
 "46": "`Models/{ASK14,CB14,CY14,BSSA14}` | definedness predicate of `F`",
 "47": "`Models/CY14` | as C43",
 "48": "`Models/CY14` | site term unfolding at and above the reference velocity",
 "49": "`Models/CY14` | bounds on the variance terms",
 "50": "`Models/CB14` | bounds on the variance terms, positivity under the root",
 "51": "`Models/CB14` | hinge equations",
 "52": "`Models/BSSA14` | as C43/C44",
 "53": "`Models/I14` | row inequalities in the kernel, monotonicity",
 "54": "`Models/C03` | row inequalities in the kernel, monotonicity of logs, hinge equations",
 "55": "`Models/TP05` | domain of the logarithm, one-sided limits",
 "56": "`Models/Pea11` | hinge equations, one-sided limits",
 "57": "`Models/DBC14` | bound by the l1 norm of the output weights, per period",
 "58": "`Models/HKR14` | state machine of the module global with a load that may fail",
 "59": "`Models/Estimators` | monotonicity and range of the closed formulas",
 "60": "`Models/GA11` | row facts",
 "61": "`Models/AKB14` | row facts, monotonicity",
 "62": "`Models/AGA16` | row facts, monotonicity",
 "63": "`Models/Durations` | exact quotient of the two formulas, certified bounds",
 "64": "`Models/CB14` | Lipschitz bound of the nonlinear site term against the reference motion",
 "65": "`Models/CY14` | continuity of the pieces; one-sided limits at M 6 and 6.9",
 "66": "`Models/ASK14` | `None` comparison raises; independence off the hanging wall",
 "67": "`Models/ASK14` | equality of computations",
 "68": "`Models/ASK14` | limit of the site term at 1180 m/s",
 "69": "`Models/BSSA14` | monotone clipped basin term per row",
 "70": "`Models/BA19` | monotonicity through flattening and smoothing",
 "71": "`Models/BA19` | linearity of the passes in the basin term",
 "72": "`Models/PR23` | exact algebra of the threshold tables",
 "73": "`Models/PR24` | row facts, monotonicity and hinge continuity",
 "74": "`Models/PR24` | cases on names; equality of the legacy function",
 "75": "`Models/Stafford` | certified lower bound of the closed formula",
 "76": "`Models/Stafford` | certified bounds",
 "77": "`Models/HKR14` | `np.argmin` over the event table",
 "78": "`Arrays`, `Models/ArrayMethods` | explicit programs that write through a view",
 "79": "`Models/AB06` (the reference spectrum rewritten as a sum of three distance segments, plus the nonlinear site term) | per-row sign facts by kernel `decide`, logarithmic segments compared by monotonicity; explicit inequality chain for the counterexample",
 "80": "`Models/AKB14` | quadratic/hinge magnitude scaling bounded per row by kernel facts, Lipschitz bound of the nonlinear site term",
 "81": "`Models/I14` | secant slopes bounded per row by kernel `decide`; the jump of the table exchange bounded at both ends of the distance range",
 "82": "`Models/C03`, `Props/C03Mag` | growth of the log effective distance bounded by that of the saturation term; closed form at zero distance",
 "83": "`Models/Pea11`, `Props/Pea11Mono` | log10 bounds through integer powers, secant slopes per row",
 "84": "`Models/Pea11`, `Props/Pea11Mono` | monotone segments; logarithm against linear term between the hinges",
 "85": "`Models/TP05`, `Saturate`, `Props/TP05Mono` | derivative sign within 70 km, convexity (tangent) bound of the saturating distance beyond",
 "86": "`Models/TP05`, `Saturate`, `Props/TP05Mono` | secant bounds of x^(5/2), tangent bound of the saturating distance, bilinear corner checks by kernel `decide`",
 "87": "`BSSA14.cls` (event, path, site and basin terms of all 107 rows) | growth of the unamplified motion minus the largest possible nonlinear loss, as a piecewise polynomial in magnitude whose slope is bounded below by rational arithmetic per row; the reversal from convexity of exp",
 "88": "Python's attribute protocol on a Scenario (`ScenarioObj.lean`): instance dictionary, class attributes, `__getattr__` with a budget of Python frames; `getattr` with default, `hasattr`, `copy.deepcopy`, unpickling, `repr` on top of it | case analysis; induction on the number of frames left for the RecursionError; `decide +kernel` over the 22 declaration lists for which classes declare `dist_jb`",
 "89": "`UserDict`'s `update`, `|=`, `|`, `setdefault`, `fromkeys` on top of `Scenario.init`/`setItem` | induction over the dictionary or list of names; C02, C04 and C14 for the fate of an unrecognised key",
 "90": "`AGA16.cls`, `CoppersmithBommer.cls` | convexity of `m \u21a6 log(d + 10 e^(0.4(m-6)))` bounds the loss by spreading between its value at distance 0 (or 40 km) and the slope of the magnitude term, affine in both magnitudes; per-row rational check at the corners; the reversal on three magnitude intervals glued together",
 "91": "the class of Models/AB06 with both tables, the stress correction and the site term | finite differences: the stress correction's loss bounded from A(m') >= A(m) exp(-0.2 ln10 (m'-m)), the site term's by its largest nonlinear slope times the PGA growth, row inequalities on three magnitude intervals by kernel evaluation over both tables, intervals glued",
 "92": "the CB14 class as a whole (Models/CB14.lean), constructor to outputs | without the hanging-wall term the median before the site term is piecewise linear in magnitude with hinges 4.5, 5.5 and 6.5; its four slopes are bounded by rational facts about the 23 rows (kernel evaluation) with exp/log enclosures for the log distance; the nonlinear site term is bounded by its largest slope in the reference PGA",
 "93": "the four class methods as functions of a list (or one number) of reference motions with numpy broadcasting of equal lengths and of one element (`Models/SiteTerms.lean`), next to the class constructors already modelled | the constructor's own decomposition into base and site term; at the reference velocity the nonlinear part vanishes; monotonicity from the sign of the coefficient (row facts by `decide +kernel`) and monotonicity of log(p+a)-log(p+b)",
 "94": "the ASK14 constructor already modelled | closed form of the source term on four magnitude pieces glued by `StrictMonoOn.union`, derivative bound for the fictitious depth between 4 and 5, rational row facts by `decide +kernel`, logs bounded by `expHi`/`expLo`; the site response preserves order by the slope bound of C43",
 "95": "the class as for C47 | derivative of the magnitude-dependent terms bounded from below by rational arithmetic on a chain of magnitude intervals for every row, for a surface rupture at distance 0 and one at 20 km depth and distance; other depths by convexity, larger distances by monotonicity; the nonlinear site term is strictly monotone from 180 m/s",
 "96": "The existing models of the three classes, from the constructor on | Sign of each factor over the reals (Bernstein coefficients for the quadratic in dist_x), monotone site response; for CB14 a rational certificate per row that the row's hanging-wall term beats the amplified one of the reference PGA",
 "97": "the six models' full response programs, two constructions differing only in `mechanism` | row facts of the tables by kernel evaluation; the nonlinear site term as a function of the reference motion (its slope is bounded by the row's coefficients), Props/Mechanism.lean",
 "98": "the three constructors on two scenarios differing only in the basin depth | the response difference in closed form, sign tables of the coefficients by kernel evaluation, the interpolated ASK14 slope piece by piece (Props/Basin.lean)",
 "99": "`interp` with `stds` over a store of arrays (Models/AS96Stds.lean), with numpy's linear interpolation | slope bounds of the piecewise-linear table against the derivative of the increment; rational bounds for exp and log",
 "100": "the AS16 model of Models/Durations.lean | the source duration as one exponential; rational bounds for log 10, log 1.568 and exp at the twelve corners; slope bounds",
 "101": "the KS06 model of Models/Durations.lean | the source duration as one exponential; rational bounds for exp at the ends of magnitude intervals",
 "102": "ASK14 and CY14 construction and standard deviations | the values of both instances; only s_1/s_2 (ASK14) and sigma_3 (CY14) differ; row facts by kernel evaluation, monotonicity of the root of squares",
 "103": "standard deviation methods of the four NGA-West2 models | closed forms of tau and phi, strict monotonicity of the clipped magnitude, sums of squares of two straight lines, row signs by kernel evaluation",
 "104": "GulerceAbrahamson2011._calc_ln_ratio | closed forms of the site term on both sides of v_lin, interval bounds for the saturation velocity, logarithm monotonicity",
 "105": "the class as modelled for C57 (network weights generated from the JSON file) | the derivative of the network in one input is a sum of weight products times slopes of tanh; the slopes are bounded by rationals on four sub-boxes of the declared range (cosh monotone, rational bounds of exp) and the sign of the sum is evaluated by the kernel for every row",
 "106": "pygmm.models as a list of (name, constructor) built from the model classes already modelled; Stafford2017 without __init__ raises TypeError | per-class construction lemmas, C05 for the converse, induction over the loop",
 "107": "Coefficients with its _data dictionary, the instance dictionary, class attribute names, item and attribute access, histories of operations | induction over histories",
 "108": "Whole constructors of the four classes on pairs of scenarios | congruence lemmas: the listed inputs occur only in terms that are zero (hanging wall, aftershock, directivity, dip) or not read; equality of the full outputs, including the reference motion that feeds the nonlinear site term",
 "109": "the existing models; pairs of scenarios related by AgreeExcept | the velocity enters the formulas through clip/min only above the caps; row facts on the site coefficients by kernel computation",
 "110": "the existing models; pairs of scenarios related by AgreeExcept | signs of the coefficients by kernel computation over the rows, strict monotonicity of the site response in the reference motion",
 "111": "Nothing new is modelled: the site terms of seven models (Models/AKB14, CB14, ASK14, AGA16, CoppersmithBommer, BSSA14, CY14). | Props/Soft: the nonlinear term is a difference of logarithms whose secant slope is bracketed (`Soft.log_bracket`, concavity of log) or a product of an exponential and ln(1 + p/f); the coefficient inequalities are checked for every row by the kernel; the crossover then follows from the sign of linear slope plus bracketed slope.",
 "112": "AVal (scalar, array, list), truth value of comparisons, the three check functions and the loop over PARAMS, followed by an arbitrary continuation | refinement of Param.check on scalars, case analysis on the kind of parameter, induction over the parameter list, enumeration of the declarations by kernel evaluation",
 "113": "the arithmetic of __init__ with numpy broadcasting against the 27 rows and the 26 rows of the stress factor table | equality with AB06.cls on scalars, row-wise comparison of the zipped table with the mapped one",
 "114": "the four NGA-West2 models as they stand; the region enters through CY14 scale, BSSA14 dc3, CB14 fAtn and ASK14 freg | two accepted scenarios agreeing except on the region have the same source, path and site terms, the difference of the outputs is then computed and its sign read off the coefficient table by kernel evaluation over the rows",
 "115": "the five classes with their estimates of missing parameters | continuity of each arithmetic step of the model at points where the result is defined (Cont.lean), branches by showing that the two sides agree where the condition switches",
 "116": "the nine classes as they are modelled for their other properties | as for C115, plus continuity of interpolation between moving values (AB06) and of the neural network layers (DBC14)",
 "117": "The constructors and `duration_for_energy` on a family of scenarios S : X \u2192 Scenario over an arbitrary topological space | continuity of the compositional F arithmetic (Cont.lean) with the branches checked at the hinges; the 0/1 masks of PR23 are compared with nested branches of equal value",
 "118": "Construction of all 19 classes that can be built, with the well-definedness flag of the F arithmetic (division by 0, log of a nonpositive number and nan all clear it) | the `gives` lemma of each class, then the row facts (positive denominators and arguments) discharge the flag; counterexamples at the stated exceptions",
 "119": "The log of the Py monad over construction (warnings.warn and logging.warning; numpy RuntimeWarnings are not modelled) | composition of logs along the checks, fills and formulas; silence of the latter by structure",
 "120": "Gmm.interpAt over ordinates that vary with a parameter of any topological space | continuity of npInterp in abscissa and ordinates on every segment and across nodes, composed with the continuity theorem of the class (C115)",
 "121": "the class constructors of the model with fill and compute steps | necessity from C05 and the failing branch of each constructor, sufficiency from the value theorems of each class",
 "122": "the imperative programs of Models/ArrayMethods with formulas and conditions interpreted arbitrarily | definite-assignment analysis, proved sound by induction over statements, evaluated by the kernel on the programs",
 "123": "the existing class models of the thirteen models | filters at infinity: linear loss beats the logarithm, falling logarithms; sign facts of the coefficient rows by kernel evaluation; nonlinear site terms bounded; the growing ordinates by the same lemmas with the sign reversed",
 "124": "the statements of the constructors as commands (with aliases) and as row formulas per line | a simulation theorem: programs passing a syntactic check compute by value; symbolic execution of the value program entry by entry and comparison with the row model of the class",
 "125": "the constructor as a five-step thread over the shared global and file, a scheduler choosing any thread or a replacement of the file | an invariant over schedules (every interpolator in the global or in a thread's hands was loaded from a file that was there; a thread before the prediction sees a non-empty global), induction on the schedule; counting arguments for the loads",
 "126": "a small-step version of the array programs with shared tables and caller arrays, in-place updates in two steps, any scheduler | an invariant over schedules: what a thread has still to do leads to the result of the uninterrupted call and writes only into its own arrays (syntactic check, monotone in the set of own variables)",
 "127": "calc_correls, calc_cond_mean_spectrum, calc_cond_mean_spectrum_vector and np.interp | gluing of branches, a joint continuity lemma for piecewise linear interpolation in nodes, values and abscissa by induction on the nodes, continuity of matrix inversion at nonsingular matrices",
 "128": "the dict comprehension as one read per step, the rest of the constructor on its own objects, edits as arbitrary new contents | induction on the history from the end: what has been read is what the scenario held at strictly increasing turns of the thread",
 "129": "interp1d's index selection for the step kinds (searchsorted over nodes or midpoints, clipping, nan outside), splines as an uninterpreted function | counting in sorted lists gives the position; closeness from the midpoint inequality; period tables sorted and positive by C13",
 "130": "`Pipeline`: the accessors of a model composed with calc_cond_mean_spectrum | C13 (sorted positive periods within 0.01-500 s) makes every model's arrays a spectrum in the sense of C35; the mismatch from strict concavity of the logarithm",
 "131": "calcCmsv on lists of points of any length, with the covariance matrices as Matrix over the conditioned positions | linearity of M^-1 in the residual vector; (k^2 M)^-1 = k^-2 M^-1 and sqrt(k^2 v) = k sqrt v; det(k^2 M) = k^(2n) det M for the error branch",
 "132": "Pipeline.cmsv: accessors of any class followed by calcCmsv on the zipped points | period tables of all classes lie in the range of the correlation model (kernel computation); 2x2 covariance matrices are positive definite as |rho| < 1 for distinct periods; C131_median and C37_single",
 "133": "two successive calls of calcCms (calcCmsv), the values of the first as input of the second | interpolation at a node returns the node's value; division by the zero deviation is not finite; a zero row makes the determinant vanish",
 "134": "Py.strict: the first warning of the log ends the computation, shown to be the reading in which warn raises (compatible with sequencing) | the logs of C119 consist of the reports of the declaration followed by notices; induction over the declaration for the first warning",
 "135": "calcCmsv of C36 with real matrices, covariances restated separately as Spec.cov | completing the square for a positive definite matrix; for more targets, the optimal weights are moved along the embedding of the conditioned periods",
 "136": "calcCmsv of C36 run twice on one spectrum | the residuals of the larger set are its covariance times the weighted residuals of the smaller one, moved along the embedding of the conditioned periods, so the larger inverse cancels"
}