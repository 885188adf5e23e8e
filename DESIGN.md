# pygmm in Lean 4: design

The object of study is `/repo` (arkottke/pygmm at the pinned commit), read as
text.  `/verif/lean` holds an executable-style model of it in Lean 4 and the
theorems about that model.  Nothing of pygmm, numpy, scipy or Python is run.

## Layers of the model

1. `Verif/Num.lean`: numbers.  pygmm computes in IEEE doubles through numpy.
   The model computes in exact real arithmetic and carries, with each value, the
   proposition that the computation is *defined* (no division by zero, log of a
   non-positive number, square root of a negative number, fractional power of
   a negative number, use of the `nan` sentinel).  An undefined value stands
   for `nan`, `inf`, a complex number or a floating-point exception.
2. `Verif/Py.lean`: the Python values that can sit in a scenario (`None`,
   numbers, `nan`, booleans, strings), Python's `==`, `<` and `in` on them
   (`True == 1`, ordering a string raises `TypeError`), exceptions as values,
   and the log of `warnings.warn` / `logging.warning` events.
3. `Verif/Scenario.lean`, `Verif/Param.lean`, `Verif/Model.lean`,
   `Verif/GMM.lean`: `model.py`: `Scenario` (key/value data plus instance
   attributes that shadow `__getattr__`), `Parameter.check` and its two
   subclasses, `Model.__init__`, the accessors of `GroundMotionModel`, `np.interp` and
   `scipy.interpolate.interp1d` (kinds `linear`, `nearest`, `nearest-up`, `previous`, `next`).
4. `Verif/Data/*.lean`: the coefficient files under `/repo/src/pygmm/data`,
   generated by `tools/gen_data.py` (exact decimal literals, one structure per
   file).  The generator is not trusted blindly: the files are plain decimal
   tables meant to be compared by eye with the csv.
5. `Verif/Models/*.lean`: each ground-motion model, function by function and
   row by row of the coefficient table.  numpy's vectorised formulas become
   functions of one coefficient row; boolean masks (`x[mask] += ...`) become
   `if`s on that row.
6. Helper layers between the model and the properties:
   `Compute` (what construction gives for a scenario: `Gives cls s out`, and the vocabulary
   `F.Drops`, `F.Same`, `F.NotAbove` for comparing two outputs including definedness),
   `Fill` (completion of missing values in overridden `_check_inputs`), `Bounds` (certified
   rational bounds for exp/log/rpow), `Interp` (`interp1d`, `np.interp`), `Argmin`
   (`np.argmin(np.abs(..))`), `Heap` (references to scenarios and models), `Arrays` (an
   array store with views, copies and in-place updates, and programs over it),
   `Models/ArrayMethods` (the array statements of every class as such programs).
7. `Verif/Props/*.lean`: the properties, one theorem name prefix per property id
   (`C01_...`), each with an `example` showing that its hypotheses are met by
   something non-trivial.  Histories (isolation, caches, coefficient tables)
   are folds of a step function over arbitrary operation lists.

## Trusted base

- Lean 4.33.0's kernel, and Mathlib's definitions of ℝ, exp, log, rpow, sqrt, trigonometric functions.
- Axioms: every theorem depends at most on `propext`, `Classical.choice` and
  `Quot.sound`.  No axiom is added, no compiled evaluation is used; table
  facts use `decide +kernel`, i.e. kernel evaluation of a decision procedure
  over the complete table.
- The reading of `/repo` by the author: each definition cites file and lines.
- The meaning assigned to numpy/scipy/Python library calls (`np.clip`,
  `np.select`, `np.interp`, `interp1d`, `np.argmin`, `np.isclose`,
  `collections.UserDict`), stated where they are defined.  C88 and C89 rest on
  `ScenarioObj.lean`'s reading of CPython's `UserDict`, `copy` and `pickle`
  protocols (attribute probing order, reconstruction without `__init__`).

Not modelled: floating-point rounding, overflow and underflow; `nan`
propagation beyond "undefined"; array-valued scenario entries beyond the checks
(C112 has the checks for every class, C113 the arithmetic of AB06; everywhere else scenarios hold
scalars, and the array code paths of PR23/PR24 are read at array length 1, which C112 justifies);
the spline kinds of `interp1d` (the others are C12 and C129); `__repr__` other than `Scenario`'s, documentation, plotting,
packaging, download of the HKR14 data file and its contents (an LFS pointer in
`/repo`), warning filters (except the one that turns all warnings into errors, C134), logging
configuration, threads other than in C125, C126 and C128 (there a step is a
statement, or one half of an in-place update; the switch inside a numpy call is not modelled).

## How theorems over coefficient tables are proved

A theorem about "every period of the model" is split into (a) a statement for
an arbitrary coefficient row that satisfies some explicit rational inequalities
and (b) the fact, established by kernel evaluation over the entire table, that
every row satisfies them.  (a) is ordinary real analysis; (b) is exact rational
arithmetic, cast to ℝ.

## Fidelity of the model: the project's own expected values

`tools/conform.py` copies the definitions of `lean/Verif` (no theorems) into a scratch directory with
the exact reals replaced by doubles, evaluates the resulting *model* on the cases of `/repo/tests/data`
and compares with the expected values stored there, at the tolerances of the project's tests.  Last
run: 859 cases, 12190 values, no failure (PinillaRamosEtAl2023/2024 agree to the last bit; ASK14, BSSA14,
CB14, CY14, I14, AKB14, AGA16, CoppersmithBommer, DBC14, GA11, AS96, BJ08, Kishida, BA19 and the depth and
width estimators are covered; the project stores no values for AB06, C03, TP05, Pea11, KS06, AS16, BA18, HKR14,
Stafford, which rest on reading).  No code of `/repo` is executed.  This is a test of the transcription, no
part of any proof.

## Tests of the theorems against wrong programs

`seeded/LOG.jsonl` records one line per seeded change of the model (made in a scratch copy): the
definition edited, the edit, the claim it makes false, the theorems whose proofs then failed and
the theorems tightened as a result.  A change that leaves all proofs standing and makes no listed
claim false is recorded with `claim` "-".

## Per-property plan

Each entry: what is modelled; how it is proved.

- **C01** Unknown scenario keys are rejected. Modelled: `Scenario.init`, `Scenario.copyWith`. Proof: acceptance iff, induction over the key list.
- **C02** copy_with is a pure override. Modelled: `Scenario.copyWith`, `Dict.update`. Proof: lookup in the updated association list; independence of later updates through the heap of C08.
- **C03** Attribute and item access agree. Modelled: `Scenario.getAttr/getItem`. Proof: invariant `attrs = []` over every sequence of scenario operations without attribute assignment.
- **C04** A model sees only its declared parameters. Modelled: `ModelClass.new`. Proof: congruence: construction factors through `get` on the declared names.
- **C05** Missing required parameters always fail, first one named. Modelled: `Model.checkInputs`. Proof: induction over PARAMS with exceptions as values.
- **C06** Numeric limits are advisory. Modelled: `Param.check`. Proof: case analysis for arbitrary declaration and value.
- **C07** Categorical results are an option or the default. Modelled: `Param.check`. Proof: case analysis for arbitrary options and value.
- **C08** Constructing models never touches the caller's scenario. Modelled: `Heap`. Proof: step function per API call, invariant over all histories.
- **C09** Coefficient tables survive every construction history. Modelled: `Arrays`, `Models/ArrayMethods`. Proof: every class's array statements as a program that never writes to a table cell; induction over histories.
- **C10** Re-building a model from its own scenario. Modelled: `Model`, `Fill`, all five overridden `_check_inputs`. Proof: idempotence of each check and each completion, lifted over PARAMS.
- **C11** Intensity-measure accessors. Modelled: `GMM`. Proof: accessors over an arbitrary class description and response vector, Python index semantics.
- **C12** Period interpolation. Modelled: `Interp`. Proof: `interp1d` as a search over sorted nodes, induction over the node list.
- **C13** Period tables are coherent. Modelled: `GMMClasses`, `Data`. Proof: kernel evaluation over each complete table, lifted to the statement about indices.
- **C14** Shipped parameter declarations are well formed. Modelled: `Decls`. Proof: kernel evaluation over the complete list of declarations; consequences for all scenarios by C01.
- **C15** CB14 keeps its estimates as attributes, not keys. Modelled: `Models/CB14` with attributes. Proof: unfolding of the five completions.
- **C16** AbrahamsonBhasin2020 cannot be instantiated. Modelled: `Models/AB20`. Proof: constructor with its default arguments, case analysis.
- **C17** GA11 requires pga_ref; its ASK14 fallback is dead. Modelled: `Models/GA11`. Proof: from C05 applied to its PARAMS.
- **C18** CB14 region semantics. Modelled: `Models/CB14`. Proof: equality of computations by cases on the region.
- **C19** BSSA14 region semantics. Modelled: `Models/BSSA14`. Proof: equality of computations by cases on the region.
- **C20** AS16 basin term is region independent. Modelled: `Models/Durations`. Proof: equality of computations.
- **C21** AB06 reference tables. Modelled: `Models/AB06`. Proof: which table is read, by cases on v_s30.
- **C22** AB06 nonlinear site slope is discontinuous. Modelled: `Models/AB06`. Proof: one-sided limits at the slope hinges.
- **C23** AKB14 distance metric precedence. Modelled: `Models/AKB14`. Proof: cases on the supplied distances.
- **C24** AGA16 adjust_c4 has no effect; unknown event types behave as interface. Modelled: `Models/AGA16`. Proof: equality of computations.
- **C25** PR24 input validation. Modelled: `Models/PR24`. Proof: cases on event type and region.
- **C26** PR24 duration increases with the energy threshold. Modelled: `Models/PR24`. Proof: table facts in the kernel, real analysis.
- **C27** PR24 sigma bounds bracket the median. Modelled: `Models/PR24`. Proof: monotonicity of exp.
- **C28** PR23 energy threshold near 0.75. Modelled: `Models/PR23`. Proof: `np.argmin`/`isclose` semantics.
- **C29** PR23 median duration. Modelled: `Models/PR23`. Proof: real analysis with table facts.
- **C30** KS06 durations. Modelled: `Models/Durations`. Proof: monotonicity of the closed formula.
- **C31** AS96 durations. Modelled: `Models/Durations`. Proof: monotonicity of the closed formula.
- **C32** AS96.interp overwrites the caller's array. Modelled: `Arrays`. Proof: effect of the masking statements on the caller's array.
- **C33** AS16 durations. Modelled: `Models/Durations`. Proof: monotonicity, hinge continuity.
- **C34** BJ08 correlation. Modelled: `Models/BJ08`. Proof: real analysis of the piecewise correlation.
- **C35** Conditional mean spectrum. Modelled: `Models/BJ08`. Proof: real analysis.
- **C36** Kishida CMSV interpolates its targets. Modelled: `Models/Kishida`. Proof: Mathlib matrices: invertible conditioning block.
- **C37** Kishida with one period equals BJ08. Modelled: `Models/Kishida`. Proof: 1x1 block.
- **C38** Stafford covariance. Modelled: `Models/Stafford`. Proof: entrywise analysis.
- **C39** Stafford argument checking. Modelled: `Models/Stafford`. Proof: case analysis of argument shapes.
- **C40** BA18 correlation matrix. Modelled: `Models/BA18`. Proof: symmetry, diagonal, interpolated table.
- **C41** BA19 standard deviation at high frequency. Modelled: `Models/BA19`. Proof: missing coefficients in the last rows; magnitude steps.
- **C42** BA19 extrapolation above 24 Hz and nonlinear site response. Modelled: `Models/BA19`. Proof: the flattening/smoothing passes as list functions, induction over indices.
- **C43** ASK14 attenuates. Modelled: `Models/ASK14`. Proof: derivative-free comparison per term, arbitrary row with checked inequalities.
- **C44** ASK14 is continuous in magnitude and in dist_x. Modelled: `Models/ASK14`. Proof: hinge equations per row in the kernel, continuity of the pieces.
- **C45** ASK14 standard deviation. Modelled: `Models/ASK14`. Proof: bounds on the variance terms.
- **C46** Reference passes are never contaminated by the NaN sentinel. Modelled: `Models/{ASK14,CB14,CY14,BSSA14}`. Proof: definedness predicate of `F`.
- **C47** CY14 attenuates. Modelled: `Models/CY14`. Proof: as C43.
- **C48** CY14 site term vanishes at the reference condition. Modelled: `Models/CY14`. Proof: site term unfolding at and above the reference velocity.
- **C49** CY14 standard deviation. Modelled: `Models/CY14`. Proof: bounds on the variance terms.
- **C50** CB14 standard deviation. Modelled: `Models/CB14`. Proof: bounds on the variance terms, positivity under the root.
- **C51** CB14 site and basin terms at their hinges. Modelled: `Models/CB14`. Proof: hinge equations.
- **C52** BSSA14 continuity, attenuation and standard deviation. Modelled: `Models/BSSA14`. Proof: as C43/C44.
- **C53** I14 attenuates. Modelled: `Models/I14`. Proof: row inequalities in the kernel, monotonicity.
- **C54** C03 attenuates. Modelled: `Models/C03`. Proof: row inequalities in the kernel, monotonicity of logs, hinge equations.
- **C55** TP05 domain and standard deviation. Modelled: `Models/TP05`. Proof: domain of the logarithm, one-sided limits.
- **C56** Pea11 standard deviation and distance hinges. Modelled: `Models/Pea11`. Proof: hinge equations, one-sided limits.
- **C57** DBC14 outputs are bounded. Modelled: `Models/DBC14`. Proof: bound by the l1 norm of the output weights, per period.
- **C58** HKR14 lazy loading is transparent. Modelled: `Models/HKR14`. Proof: state machine of the module global with a load that may fail.
- **C59** Depth and width estimators. Modelled: `Models/Estimators`. Proof: monotonicity and range of the closed formulas.
- **C60** GA11 outputs. Modelled: `Models/GA11`. Proof: row facts.
- **C61** AKB14 attenuates. Modelled: `Models/AKB14`. Proof: row facts, monotonicity.
- **C62** AGA16 / CoppersmithBommer attenuation. Modelled: `Models/AGA16`. Proof: row facts, monotonicity.
- **C63** AS96 interp(0.75) is not the reported duration. Modelled: `Models/Durations`. Proof: exact quotient of the two formulas, certified bounds.
- **C64** CB14 attenuates on the footwall. Modelled: `Models/CB14`. Proof: Lipschitz bound of the nonlinear site term against the reference motion.
- **C65** CY14 continuity in magnitude. Modelled: `Models/CY14`. Proof: continuity of the pieces; one-sided limits at M 6 and 6.9.
- **C66** ASK14 hanging wall needs dist_x. Modelled: `Models/ASK14`. Proof: `None` comparison raises; independence off the hanging wall.
- **C67** ASK14 regions and default basin depth. Modelled: `Models/ASK14`. Proof: equality of computations.
- **C68** ASK14 isolated jump at v_s30 = 1180 m/s. Modelled: `Models/ASK14`. Proof: limit of the site term at 1180 m/s.
- **C69** BSSA14 basin term. Modelled: `Models/BSSA14`. Proof: monotone clipped basin term per row.
- **C70** BA19 on rock: distance, magnitude, mechanism. Modelled: `Models/BA19`. Proof: monotonicity through flattening and smoothing.
- **C71** BA19 basin term. Modelled: `Models/BA19`. Proof: linearity of the passes in the basin term.
- **C72** PR23 durations for other energies. Modelled: `Models/PR23`. Proof: exact algebra of the threshold tables.
- **C73** PR24 D5-75 median is monotone and continuous. Modelled: `Models/PR24`. Proof: row facts, monotonicity and hinge continuity.
- **C74** PR24 helper methods and the legacy function. Modelled: `Models/PR24`. Proof: cases on names; equality of the legacy function.
- **C75** Stafford within-event values are no correlations. Modelled: `Models/Stafford`. Proof: certified lower bound of the closed formula.
- **C76** Stafford between-event and between-site correlations. Modelled: `Models/Stafford`. Proof: certified bounds.
- **C77** HKR14 predictions are rows of the data file. Modelled: `Models/HKR14`. Proof: `np.argmin` over the event table.
- **C78** The two aliasing exceptions. Modelled: `Arrays`, `Models/ArrayMethods`. Proof: explicit programs that write through a view.
- **C79** AB06 attenuates on rock and firm ground, and can amplify with distance on soft soil. Modelled: `Models/AB06` (the reference spectrum rewritten as a sum of three distance segments, plus the nonlinear site term). Proof: per-row sign facts by kernel `decide`, logarithmic segments compared by monotonicity; explicit inequality chain for the counterexample.
- **C80** AKB14 grows with magnitude. Modelled: `Models/AKB14`. Proof: quadratic/hinge magnitude scaling bounded per row by kernel facts, Lipschitz bound of the nonlinear site term.
- **C81** Idriss 2014 and magnitude, with a dip where the table is exchanged. Modelled: `Models/I14`. Proof: secant slopes bounded per row by kernel `decide`; the jump of the table exchange bounded at both ends of the distance range.
- **C82** Campbell 2003 and magnitude. Modelled: `Models/C03`, `Props/C03Mag`. Proof: growth of the log effective distance bounded by that of the saturation term; closed form at zero distance.
- **C83** Pezeshk et al. 2011 and magnitude. Modelled: `Models/Pea11`, `Props/Pea11Mono`. Proof: log10 bounds through integer powers, secant slopes per row.
- **C84** Pezeshk et al. 2011 and distance. Modelled: `Models/Pea11`, `Props/Pea11Mono`. Proof: monotone segments; logarithm against linear term between the hinges.
- **C85** Tavakoli & Pezeshk 2005 and distance. Modelled: `Models/TP05`, `Saturate`, `Props/TP05Mono`. Proof: derivative sign within 70 km, convexity (tangent) bound of the saturating distance beyond.
- **C86** Tavakoli & Pezeshk 2005 and magnitude. Modelled: `Models/TP05`, `Saturate`, `Props/TP05Mono`. Proof: secant bounds of x^(5/2), tangent bound of the saturating distance, bilinear corner checks by kernel `decide`.
- **C87** BSSA14 and magnitude, with a reversal on soft soil. Modelled: `BSSA14.cls` (event, path, site and basin terms of all 107 rows). Proof: growth of the unamplified motion minus the largest possible nonlinear loss, as a piecewise polynomial in magnitude whose slope is bounded below by rational arithmetic per row; the reversal from convexity of exp.
- **C88** Scenarios cannot be deep-copied, restored from a pickle, or asked for a missing attribute. Modelled: Python's attribute protocol on a Scenario (`ScenarioObj.lean`): instance dictionary, class attributes, `__getattr__` with a budget of Python frames; `getattr` with default, `hasattr`, `copy.deepcopy`, unpickling, `repr` on top of it. Proof: case analysis; induction on the number of frames left for the RecursionError; `decide +kernel` over the 22 declaration lists for which classes declare `dist_jb`.
- **C89** What bypasses the key check of Scenario. Modelled: `UserDict`'s `update`, `|=`, `|`, `setdefault`, `fromkeys` on top of `Scenario.init`/`setItem`. Proof: induction over the dictionary or list of names; C02, C04 and C14 for the fate of an unrecognised key.
- **C90** AGA16 / CoppersmithBommer and magnitude, with a reversal close to large interface events. Modelled: `AGA16.cls`, `CoppersmithBommer.cls`. Proof: convexity of `m ↦ log(d + 10 e^(0.4(m-6)))` bounds the loss by spreading between its value at distance 0 (or 40 km) and the slope of the magnitude term, affine in both magnitudes; per-row rational check at the corners; the reversal on three magnitude intervals glued together.
- **C91** Atkinson & Boore (2006) grows with magnitude beyond 10 km; near-source PGA falls. Modelled: the class of Models/AB06 with both tables, the stress correction and the site term. Proof: finite differences: the stress correction's loss bounded from A(m') >= A(m) exp(-0.2 ln10 (m'-m)), the site term's by its largest nonlinear slope times the PGA growth, row inequalities on three magnitude intervals by kernel evaluation over both tables, intervals glued.
- **C92** Campbell & Bozorgnia 2014: a larger earthquake shakes harder, unless the hypocentre is deep. Modelled: the CB14 class as a whole (Models/CB14.lean), constructor to outputs. Proof: without the hanging-wall term the median before the site term is piecewise linear in magnitude with hinges 4.5, 5.5 and 6.5; its four slopes are bounded by rational facts about the 23 rows (kernel evaluation) with exp/log enclosures for the log distance; the nonlinear site term is bounded by its largest slope in the reference PGA.
- **C93** The public site-term functions agree with the models and soften. Modelled: the four class methods as functions of a list (or one number) of reference motions with numpy broadcasting of equal lengths and of one element (`Models/SiteTerms.lean`), next to the class constructors already modelled. Proof: the constructor's own decomposition into base and site term; at the reference velocity the nonlinear part vanishes; monotonicity from the sign of the coefficient (row facts by `decide +kernel`) and monotonicity of log(p+a)-log(p+b).
- **C94** Abrahamson, Silva & Kamai 2014 and magnitude, with near-source reversals. Modelled: the ASK14 constructor already modelled. Proof: closed form of the source term on four magnitude pieces glued by `StrictMonoOn.union`, derivative bound for the fictitious depth between 4 and 5, rational row facts by `decide +kernel`, logs bounded by `expHi`/`expLo`; the site response preserves order by the slope bound of C43.
- **C95** Chiou & Youngs 2014: a larger earthquake shakes harder. Modelled: the class as for C47. Proof: derivative of the magnitude-dependent terms bounded from below by rational arithmetic on a chain of magnitude intervals for every row, for a surface rupture at distance 0 and one at 20 km depth and distance; other depths by convexity, larger distances by monotonicity; the nonlinear site term is strictly monotone from 180 m/s.
- **C96** What the hanging-wall flag (or the sign of dist_x) does to the prediction. Modelled: The existing models of the three classes, from the constructor on. Proof: Sign of each factor over the reals (Bernstein coefficients for the quadratic in dist_x), monotone site response; for CB14 a rational certificate per row that the row's hanging-wall term beats the amplified one of the reference PGA.
- **C97** Style of faulting. Modelled: the six models' full response programs, two constructions differing only in `mechanism`. Proof: row facts of the tables by kernel evaluation; the nonlinear site term as a function of the reference motion (its slope is bounded by the row's coefficients), Props/Mechanism.lean.
- **C98** Basin depth in CY14, CB14 and ASK14. Modelled: the three constructors on two scenarios differing only in the basin depth. Proof: the response difference in closed form, sign tables of the coefficients by kernel evaluation, the interpolated ASK14 slope piece by piece (Props/Basin.lean).
- **C99** AS96 durations in seconds and interp with standard deviations. Modelled: `interp` with `stds` over a store of arrays (Models/AS96Stds.lean), with numpy's linear interpolation. Proof: slope bounds of the piecewise-linear table against the derivative of the increment; rational bounds for exp and log.
- **C100** Afshari & Stewart 2016 against magnitude, velocity, basin depth and mechanism. Modelled: the AS16 model of Models/Durations.lean. Proof: the source duration as one exponential; rational bounds for log 10, log 1.568 and exp at the twelve corners; slope bounds.
- **C101** Kempton & Stewart 2006 in seconds. Modelled: the KS06 model of Models/Durations.lean. Proof: the source duration as one exponential; rational bounds for exp at the ends of magnitude intervals.
- **C102** A measured v_s30 lowers only the within-event uncertainty. Modelled: ASK14 and CY14 construction and standard deviations. Proof: the values of both instances; only s_1/s_2 (ASK14) and sigma_3 (CY14) differ; row facts by kernel evaluation, monotonicity of the root of squares.
- **C103** How standard deviations move with magnitude, distance and velocity. Modelled: standard deviation methods of the four NGA-West2 models. Proof: closed forms of tau and phi, strict monotonicity of the clipped magnitude, sums of squares of two straight lines, row signs by kernel evaluation.
- **C104** What moves the vertical-to-horizontal ratio of GulerceAbrahamson2011. Modelled: GulerceAbrahamson2011._calc_ln_ratio. Proof: closed forms of the site term on both sides of v_lin, interval bounds for the saturation velocity, logarithm monotonicity.
- **C105** DerrasBardCotton2014: distance, depth, magnitude and standard deviation. Modelled: the class as modelled for C57 (network weights generated from the JSON file). Proof: the derivative of the network in one input is a sum of weight products times slopes of tanh; the slopes are bounded by rationals on four sub-boxes of the declared range (cosh monotone, rational bounds of exp) and the sign of the sum is evaluated by the kernel for every row.
- **C106** One scenario for the whole of pygmm.models. Modelled: pygmm.models as a list of (name, constructor) built from the model classes already modelled; Stafford2017 without __init__ raises TypeError. Proof: per-class construction lemmas, C05 for the converse, induction over the loop.
- **C107** Coefficients is a faithful, item-wise read-only mapping. Modelled: Coefficients with its _data dictionary, the instance dictionary, class attribute names, item and attribute access, histories of operations. Proof: induction over histories.
- **C108** Inputs that do not matter. Modelled: Whole constructors of the four classes on pairs of scenarios. Proof: congruence lemmas: the listed inputs occur only in terms that are zero (hanging wall, aftershock, directivity, dip) or not read; equality of the full outputs, including the reference motion that feeds the nonlinear site term.
- **C109** Stiff sites: where the velocity stops mattering and where it does not. Modelled: the existing models; pairs of scenarios related by AgreeExcept. Proof: the velocity enters the formulas through clip/min only above the caps; row facts on the site coefficients by kernel computation.
- **C110** Depth of the source and dip. Modelled: the existing models; pairs of scenarios related by AgreeExcept. Proof: signs of the coefficients by kernel computation over the rows, strict monotonicity of the site response in the reference motion.
- **C111** Soft sites: weak motion is amplified, strong motion is deamplified. Modelled: Nothing new is modelled: the site terms of seven models (Models/AKB14, CB14, ASK14, AGA16, CoppersmithBommer, BSSA14, CY14).. Proof: Props/Soft: the nonlinear term is a difference of logarithms whose secant slope is bracketed (`Soft.log_bracket`, concavity of log) or a product of an exponential and ln(1 + p/f); the coefficient inequalities are checked for every row by the kernel; the crossover then follows from the sign of linear slope plus bracketed slope..
- **C112** A model takes one scenario at a time. Modelled: AVal (scalar, array, list), truth value of comparisons, the three check functions and the loop over PARAMS, followed by an arbitrary continuation. Proof: refinement of Param.check on scalars, case analysis on the kind of parameter, induction over the parameter list, enumeration of the declarations by kernel evaluation.
- **C113** AtkinsonBoore2006 pairs 27 distances with its 27 ordinates. Modelled: the arithmetic of __init__ with numpy broadcasting against the 27 rows and the 26 rows of the stress factor table. Proof: equality with AB06.cls on scalars, row-wise comparison of the zipped table with the mapped one.
- **C114** The regions of the NGA-West2 models attenuate differently. Modelled: the four NGA-West2 models as they stand; the region enters through CY14 scale, BSSA14 dc3, CB14 fAtn and ASK14 freg. Proof: two accepted scenarios agreeing except on the region have the same source, path and site terms, the difference of the outputs is then computed and its sign read off the coefficient table by kernel evaluation over the rows.
- **C115** The NGA-West2 models are jointly continuous in all numeric inputs. Modelled: the five classes with their estimates of missing parameters. Proof: continuity of each arithmetic step of the model at points where the result is defined (Cont.lean), branches by showing that the two sides agree where the condition switches.
- **C116** The other models are jointly continuous in all numeric inputs. Modelled: the nine classes as they are modelled for their other properties. Proof: as for C115, plus continuity of interpolation between moving values (AB06) and of the neural network layers (DBC14).
- **C117** Durations depend continuously on all numeric inputs at once. Modelled: The constructors and `duration_for_energy` on a family of scenarios S : X → Scenario over an arbitrary topological space. Proof: continuity of the compositional F arithmetic (Cont.lean) with the branches checked at the hinges; the 0/1 masks of PR23 are compared with nested branches of equal value.
- **C118** Within the declared limits every prediction is a finite number. Modelled: Construction of all 19 classes that can be built, with the well-definedness flag of the F arithmetic (division by 0, log of a nonpositive number and nan all clear it). Proof: the `gives` lemma of each class, then the row facts (positive denominators and arguments) discharge the flag; counterexamples at the stated exceptions.
- **C119** What a successful construction reports is determined by the declaration. Modelled: The log of the Py monad over construction (warnings.warn and logging.warning; numpy RuntimeWarnings are not modelled). Proof: composition of logs along the checks, fills and formulas; silence of the latter by structure.
- **C120** The interpolated spectrum is jointly continuous in the scenario and the period. Modelled: Gmm.interpAt over ordinates that vary with a parameter of any topological space. Proof: continuity of npInterp in abscissa and ordinates on every segment and across nodes, composed with the continuity theorem of the class (C115).
- **C121** Exactly when a construction succeeds. Modelled: the class constructors of the model with fill and compute steps. Proof: necessity from C05 and the failing branch of each constructor, sufficiency from the value theorems of each class.
- **C122** No method uses a variable it has not assigned. Modelled: the imperative programs of Models/ArrayMethods with formulas and conditions interpreted arbitrarily. Proof: definite-assignment analysis, proved sound by induction over statements, evaluated by the kernel on the programs.
- **C123** What is left far away: which models fade out with distance, which do not. Modelled: the existing class models of the thirteen models. Proof: filters at infinity: linear loss beats the logarithm, falling logarithms; sign facts of the coefficient rows by kernel evaluation; nonlinear site terms bounded; the growing ordinates by the same lemmas with the sign reversed.
- **C124** Statement-by-statement array code computes the row formulas. Modelled: the statements of the constructors as commands (with aliases) and as row formulas per line. Proof: a simulation theorem: programs passing a syntactic check compute by value; symbolic execution of the value program entry by entry and comparison with the row model of the class.
- **C125** Constructing HermkesKuehnRiggelsen2014 in several threads at once is safe. Modelled: the constructor as a five-step thread over the shared global and file, a scheduler choosing any thread or a replacement of the file. Proof: an invariant over schedules (every interpolator in the global or in a thread's hands was loaded from a file that was there; a thread before the prediction sees a non-empty global), induction on the schedule; counting arguments for the loads.
- **C126** Array operations run in several threads do not disturb each other. Modelled: a small-step version of the array programs with shared tables and caller arrays, in-place updates in two steps, any scheduler. Proof: an invariant over schedules: what a thread has still to do leads to the result of the uninterrupted call and writes only into its own arrays (syntactic check, monotone in the set of own variables).
- **C127** Correlation and conditional mean spectrum are jointly continuous. Modelled: calc_correls, calc_cond_mean_spectrum, calc_cond_mean_spectrum_vector and np.interp. Proof: gluing of branches, a joint continuity lemma for piecewise linear interpolation in nodes, values and abscissa by induction on the nodes, continuity of matrix inversion at nonsingular matrices.
- **C128** Constructing models while other threads edit the scenario. Modelled: the dict comprehension as one read per step, the rest of the constructor on its own objects, edits as arbitrary new contents. Proof: induction on the history from the end: what has been read is what the scenario held at strictly increasing turns of the thread.
- **C129** The kind argument selects the documented tabulated value. Modelled: interp1d's index selection for the step kinds (searchsorted over nodes or midpoints, clipping, nan outside), splines as an uninterpreted function. Proof: counting in sorted lists gives the position; closeness from the midpoint inequality; period tables sorted and positive by C13.
- **C130** Conditional mean spectra of the shipped models. Modelled: `Pipeline`: the accessors of a model composed with calc_cond_mean_spectrum. Proof: C13 (sorted positive periods within 0.01-500 s) makes every model's arrays a spectrum in the sense of C35; the mismatch from strict concavity of the logarithm.
- **C131** Vector conditional spectrum: superposition and scaling of deviations. Modelled: calcCmsv on lists of points of any length, with the covariance matrices as Matrix over the conditioned positions. Proof: linearity of M^-1 in the residual vector; (k^2 M)^-1 = k^-2 M^-1 and sqrt(k^2 v) = k sqrt v; det(k^2 M) = k^(2n) det M for the error branch.
- **C132** From a model to a conditional spectrum with several targets. Modelled: Pipeline.cmsv: accessors of any class followed by calcCmsv on the zipped points. Proof: period tables of all classes lie in the range of the correlation model (kernel computation); 2x2 covariance matrices are positive definite as |rho| < 1 for distinct periods; C131_median and C37_single.
- **C133** Conditioning a conditional spectrum again. Modelled: two successive calls of calcCms (calcCmsv), the values of the first as input of the second. Proof: interpolation at a node returns the node's value; division by the zero deviation is not finite; a zero row makes the determinant vanish.
- **C134** Constructions when warnings are errors. Modelled: Py.strict: the first warning of the log ends the computation, shown to be the reading in which warn raises (compatible with sequencing). Proof: the logs of C119 consist of the reports of the declaration followed by notices; induction over the declaration for the first warning.
- **C135** The vector conditional spectrum is the best linear prediction, and more targets never widen it. Modelled: calcCmsv of C36 with real matrices, covariances restated separately as Spec.cov. Proof: completing the square for a positive definite matrix; for more targets, the optimal weights are moved along the embedding of the conditioned periods.
- **C136** A target at the value already predicted changes no mean of the vector conditional spectrum. Modelled: calcCmsv of C36 run twice on one spectrum. Proof: the residuals of the larger set are its covariance times the weighted residuals of the smaller one, moved along the embedding of the conditioned periods, so the larger inverse cancels.
