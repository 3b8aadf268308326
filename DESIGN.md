# Verification design for UA_model

Everything is done in Lean 4 (4.33.0) with Mathlib, under `lean/Verif`. Properties are listed in
`properties.jsonl` (ids C01...), the theorem names per property in `MANIFEST.json`, the mutation log in
`seeded/LOG.jsonl`.

## 1. Approach

The Python code is modelled function by function ("shallow" embedding): each Lean definition cites the file and lines
it models. Python exceptions are values (`Except PyErr α`); methods that mutate an object before raising return both
the outcome and the state left behind. Division is never Lean's totalised division: `pyDiv`/`pyDivR` return
`ZeroDivisionError` when the divisor is zero, `pySqrt` returns `ValueError` on a negative argument, dictionary look-ups
return `KeyError`.

* Numbers. A Python `float` is modelled by a real number (`ℝ`) and a Python `complex` by `ℂ`, with exact arithmetic.
  Rounding, overflow, NaN, infinities and signed zeros are outside the model, with one exception: C107 treats the map from `t` to `W`,
  where the branch of a root depends on a sign, in rounding arithmetic with signed zeros. Infinite bounds are explicit constructors.
* Numeric core (maps, components, form factors, cross sections): definitions over `ℂ`, proofs by algebra and analysis.
* Parameter objects: a list of `(name, value, is_fixed)` plus the always-fixed tuple, generic in the value type; the
  nine concrete classes are tables (argument order, entry order, flags, bounds, ordered-name lists).
  Reachable states are an inductive predicate over all public operations with arbitrary arguments, so invariants are
  proved by induction over operation sequences.
* Evaluation (`common/utils.py`): model selection by class, reading of data points, the per-point mutation of the
  model's switches. Closures with private copies live in an explicit heap (object identities -> parameter objects), so
  aliasing is visible.
* Tasks and pipelines: a state monad with exceptions over a world (parameter objects by reference, files, output). The optimiser (`scipy.optimize.curve_fit`), `random`, `str(float)`, plotting and the file system
  are parameters (oracles) or explicit state; theorems quantify over all their behaviours.

File layout: `Verif/Py.lean` (Python runtime basics), `Verif/Model/*.lean` (the model), `Verif/Spec/*.lean` (small
independent specifications), `Verif/Lemmas/*.lean` (helper lemmas), `Verif/Props/*.lean` (the property theorems, each
with an `example` that its hypotheses are met by a concrete non-trivial case), `Verif/Conformance/*.lean` (the model against the numbers in
the repository's tests).

## 2. Trusted base

* Lean's kernel, and the three standard axioms `propext`, `Classical.choice`, `Quot.sound` (checked by `#print axioms`;
  no other axiom is used, no `sorry`, no `native_decide`, no `bv_decide`).
* The correspondence between the Lean definitions and the Python text (by citation and reading; nothing was executed).
* The idealisation of floats as reals described above. In C107: that the operations of CPython's `complex` are those written down in
  `Model/FloatMap.lean`, and for the double precision instance that the functions of the C library are correctly rounded.

### Assumed of the libraries
* Where a theorem is about a whole run (C79, C81, C83, C87) it assumes of `scipy.optimize.curve_fit` that the values it proposes and
  returns lie strictly inside the bounds it was given (`Env.FitsInside`), and, where it says that a run completes, that it does not propose
  exactly a `t` of the data. Nothing else is assumed: how often it calls the function, with what values, and whether it gives up
  (`RuntimeError`) is arbitrary. All other theorems about tasks and pipelines hold for every behaviour of the library.
* `random.random()` is in `[0, 1)` and `random.sample` returns a sublist of the size asked for (`Env.Samples`), where a theorem says so.
* Drawing and `mkdir` may raise (`Env`); theorems on whole runs assume they do not.

### Modelled
`ua_model/*` (all models, maps, components), `other_models/*`, `cross_section/*`, `model_parameters/*`,
`common/utils.py`, `task/*`, `pipeline/*`, the functions of `kaon_production/*` and `nucleon_production/*` (undressing, conversion,
deviations, data preparation, reading of the rows of the data files, the report parser), the fit scripts and the scripts with a single fit
with the selection of the best run at the end, what the figures of `plotting/*` show (points, curves, errors). The seven data files these
scripts read and `configuration.ini` are copied line by line into `Model/DataFiles.lean`; `Model/Files.lean` reads them.

### Not modelled
How matplotlib draws, scipy's optimiser, quoting in `csv`, continuation lines and interpolation in `ConfigParser` (in none of the files),
exponents and blanks in `float` (in none of the files), the text of error messages. The numbers of an optimum are `numpy.float64`, whose
division by zero gives `inf` or `nan` with a warning instead of raising. The chi squared of a report is modelled with this difference
(`PyFloat`, `chiSquared`, `Env.numpyAt`). Elsewhere numbers are not tagged. C103 proves what this amounts to, with a copy of
the evaluation code whose numbers carry their kind: nothing for the Unitary & Analytic models, whose divisors are Python numbers in any
case; ETGMR and the two-poles model divide by parameter values, so there `ZeroDivisionError` inside a fit stands for `inf` or `nan`.

### Check of the model against the repository's tests
The tests are not run. Their inputs and expected numbers are read as text and compared with the model inside Lean (`Verif/Conformance/*`):
for every `expected_value` in the tests of `KaonUAModel`, `KaonUAModelB`, `KaonUAModelSimplified`, `NucleonUAModel` and `NucleonUAModelOld`
(52 cases), of the two cross-section classes (19 cases) and of `square_root`, `z_minus_its_reciprocal`, the two maps, the two components
and `VMDModel` (33 cases) it is proved that the model's exact value passes the test's own `cmath.isclose`. The two tests of
`function_cross_section` (20 values, `Conformance/CommonUtils.lean`) are proved from the construction of the parameter object on. 56 of the tests of the four
parameter classes are translated statement by statement (`Conformance/ParameterClasses.lean`, evaluated over ℚ); the three tests of the
fit bounds are left out there, C44 states those tables in full. The two consistency tests (maps inverse to each other; VMD limit) are
instances of C06, C07 and C19, and `test_kaon_production_utils.py` asserts nothing. `Conformance/Ball.lean` is a disc arithmetic
(integer centre and radius in units of `2^-120`) with soundness theorems, evaluated by the kernel. These are checks that the model
says what the code says, so they carry no property id. The numbers in the tests were produced by the code, hence by floating-point
arithmetic; agreement to `1e-9` also shows that rounding plays no role at these points.

## 3. Properties: what is modelled and how it is proved

| id | modelled | method |
|----|----------|--------|
| C01 | `square_root` over ℂ via `Complex.arg` | direct computation with `Complex.exp`; uniqueness from the two square roots |
| C02 | same | identity with Mathlib's principal square root of `-z`, one-sided limits |
| C03 | `validate_branch_point_positions`, constructors | decision logic; expected to be FALSE at `t_in = t_0` (negation proved) |
| C04 | `MapFromTtoW.__call__` with explicit division | case analysis on the two divisors |
| C05 | same | Möbius images: imaginary/real part computations |
| C06, C07 | both maps | algebra of the two Möbius maps and squares |
| C08 | `MapFromWtoT.__call__` | factorisation of `(w-1/w)^2 - (w'-1/w')^2` |
| C09 | `MapFromTtoW.__call__` | `square_root (conj z) = -conj (square_root z)` off the cut |
| C10 | components at `t_in = t_0` | computation; property FALSE (negation proved) |
| C11 | components, `_build_component` | numerator = denominator at `w_n` |
| C12 | `_build_component` (three kaon models share it) | decision logic, uses C04 |
| C13 | components + VMD term | `(t-t_0)(1-w^2)^2 = -4(t_in-t_0)w^2` |
| C14 | component call | four-to-one map + reflection |
| C15 | component call | poles lie on the physical sheet: FALSE (negation proved); holomorphic elsewhere off the cut |
| C16 | component call | C09 + real coefficients |
| C17 | component call | bound from `(t-t_0)(1-w^2)^2 = -4(t_in-t_0)w^2` and a limit at infinity |
| C18-C22 | three kaon models | from the component theorems; C22 also for assigning the charge on a built object |
| C23 | `NucleonUAModel` | Lagrange interpolation identity |
| C24 | cache as explicit state | invariant over call histories |
| C25 | `NucleonUAModel` contributions | products of C17 bounds |
| C26 | `_build_component` vs bounds | kaon: proved; nucleon: FALSE (negation proved) because the model tests `mass^2 - Γ^2/4` |
| C27 | `SingleComponentModel` | as C18 |
| C28, C29 | `other_models` | list induction, algebra |
| C30, C31 | cross sections, the latter with the form-factor object as state | algebra, state reasoning |
| C32-C34 | conversion formulas | algebra; C33 FALSE by the factor sqrt(hc^2) |
| C35-C47 | `ModelParameters` and classes | invariants by induction over operations, tables checked per class |
| C48, C49 | `perturb_model_parameters`, random numbers as arbitrary input | case analysis; C49 FALSE |
| C50-C53 | `common/utils.py` | wiring and state reasoning; C53 FALSE |
| C54 | closures on a heap | invariant over all interleavings |
| C55, C56 | `Task.run`, set-ups, optimiser as oracle | state reasoning |
| C57 | `_update_best_fit` in whole runs | fold over the reports; string comparison: FALSE in general, holds for values with equally many digits before the point |
| C58 | `_prepare_data` | permutation and stable sort lemmas |
| C59 | `_randomly_freeze_parameters`, sampler as oracle | state reasoning |
| C60 | log buffer and report files as state | trace invariant, induction over tasks |
| C61 | undressing formulas | algebra |
| C62 | both nucleon classes | mass terms are proportional to squared masses at zero width; interpolation terms are scale invariant |
| C63 | both nucleon classes | exhaustive case analysis of every division |
| C64 | both nucleon classes | C16 + realness of the mass terms |
| C65 | both nucleon classes | closed form of the four contributions |
| C66 | the iterative pipelines' `run` | as C60, induction over rounds; FALSE for the nucleon cross section pipeline's last messages |
| C67 | kaon models and `SingleComponentModel` | common view of the three kaon classes, induction over the resonance lists |
| C68 | components | none of the factors of the closed form vanishes |
| C69 | both nucleon classes and `VMDModel` | zero-width closed form of each component, partial fractions, sum rules by algebra |
| C70 | mass terms and their cache | products of conjugate pairs are squared moduli; cache grows monotonically |
| C71 | `ResidualOscillationsTask` set-up and run | the set-up is solved step by step into an exact success condition; a residual is characterised by the kinematics and the cross-section formula, not by the code's square roots |
| C72 | `calculate_deviations_from_fit` | the run is solved into one evaluation (C51) and a zip; indices |
| C73 | `make_function_cross_section` of the single component script | induction over the points; C30 for the values |
| C74 | the panels of the three two-panel figures of `plotting/plot_fit.py` (labels, scales and saving left out) | invariant of the index loop: the columns are the filtered lists |
| C75 | `read_data` on the rows `csv.reader` yields | induction over the rows with the accumulator generalised |
| C76 | `report` on the lines of the file, `eval` left open | lemmas on `split`, `join`, `strip`; a dictionary as the list of last values; stable sort |
| C77 | the loops at the end of six scripts | invariant of the fold; stable sort |
| C78 | the two alternative maps of the plotting script | the ratio under the last square root is computed in each region of the plane and compared with the model's map (C01 to C05) |
| C79 | `make_initial_parameters` of the five scripts with resonances as tables of literals, their perturbation, and the functions `f` (`FitScript.f`, `fitNucleonStart`, `fitCSPipelineStart`); for the three kaon cross-section scripts with the class names as if the imports worked | literals against the bounds tables by kernel evaluation; strict version of C48; table of handpicked nucleon bounds (mass² − width²/4 ≥ 0.5476) with C26; schedules by kernel evaluation, then the invariant of C81 |
| C80 | `function_form_factor`, `function_cross_section` and the partial functions of the five kaon classes | C26, C20, C30 and C44 combined; bounds depend on always-fixed values only, so an update inside the bounds stays inside them |
| C81 | `Pipeline.run`, `Pipeline.runIterative` of the kaon pipelines with the tasks of their kind; the fitting library is any procedure that stays strictly inside the bounds it is given and raises only `RuntimeError` by itself, plotting does not fail | Hoare-style rule for computations with state; invariant "values strictly inside the bounds of the fit and the maximal bounds, inelastic thresholds outside `S`", kept by every set-up, evaluation, update, release and choice; induction over the fitting procedure, the tasks and the rounds |
| C82 | `function_form_factor`, `function_cross_section` on nucleon objects | C26, C52, C63 and the bounds tables: no pole on the real line; FALSE: `C82_false` has rational values inside the handpicked bounds whose two rho mass terms coincide, found by inverting the coordinate map at `-1/2 - 3i/4` |
| C83 | `Pipeline.run`, `runIterative`, `runNucleonCSIterative` of the nucleon pipelines and `f` of the nucleon script, assumptions on the fitting library as for C81 | the invariant of C81 with the handpicked bounds (which imply acceptance, C79); the residual task separately (C71 for its data); induction as for C81 |
| C84 | the functions of `plotting/plot_complex.py` and `plot_t_to_w` of `plot_various_coordinate_inverse_maps.py`; a figure is the pair of lists of lines drawn on its two axes, the shuffled palette is an argument | every curve is shown to avoid the singular points for all branch points; then C01, C04–C07, C78 |
| C85 | `function_form_factor`, `function_cross_section` on kaon objects, `_build_component` of both kinds | joint continuity of `W` in the thresholds and the pole (the ratio under the second square root stays in the closed upper half plane, where the code's root is continuous), lifted through components, sums and parameter objects; FALSE at the change of variant: the two formulas differ by a factor whose real part is negative, so `C85_jump` holds at every `t ≠ 0`, and `C85_false` gives objects of every kaon class |
| C86 | the three kaon models and the fitted functions; the content of an object is read off the names of its entries (`ModelParameters.content`), not off the model | the value is a sum over resonances of coupling times a function of the pole, invariant under conjugation of the pole; which resonances a class passes to its model is compared with the name-based content for every class |
| C87 | the two `run_single_fit.py` scripts on the world of C54-C60 (`Model/SingleFit.lean`): literal values, fixing and releasing, the task without a reports directory, the printed values; the columns of the data files are arguments | the invariant of C79-C83 for one task, with the outcome of the fit kept (object unchanged or free values replaced); for the nucleon the masses and widths are fixed, so that acceptance by the model (C26) carries over from the starting values to all proposed ones |
| C88 | `fit_ff_other_models.py` (`Model/OtherFit.lean`) on the world of C54-C60; `Pipeline.createTask` models the constants a form factor pipeline puts into the wrong places for these tasks | no evaluation of the fitted function succeeds on background parameters (C52), so no outcome of the library leads to a finished fit; the residual task fails in its set-up; these facts are carried through the two tasks of the pipeline |
| C89 | the models of C18-C25; limits in epsilon-delta form (`Spec/BoundaryValues.lean`) | both square roots are continuous within the closed upper half plane (C02); at `t_in` the identity of the map bounds the distance of W from i by a multiple of the root of the distance of t from `t_in`; filling in i there makes every component continuous within the upper half plane; the lower side by C21 and C64 |
| C90 | the functions of C48 and C80/C82 | every kaon component falls off like 1/t (C17), summed over the resonances by induction; the nucleon form factors by C25 once one point shows that no mass terms coincide (C63); the cross sections by the formulas of C30 and C31 with the root at most 1 |
| C91 | the script statement by statement; reading the data file and the configuration is replaced by arguments | object from the literals by computation over the finite list and the lemmas of C79; the two copied objects are all fixed, so the functions are those of the object (C67); single points by C20 and C30, lists by C51; data and figure by C58 and C74, the residual task by the run lemma of C71 with its error condition made exact |
| C92 | the main part of the script (`Model/PlotSingle.lean`); reading the files is replaced by arguments, the drawing library takes the real part of a complex value | component by C12, C14, C27 and C68; data by C58, curve by C73, panels by C74 |
| C93 | `KaonArgs.run`, `NucleonClass.run`, `evalAt` (as for C15, C20, C63) | residue of a component in closed form from the identity of the map; sums by induction over the resonances; the nucleon terms are affine in each resonance |
| C94 | `float`, `csv.reader`, `ConfigParser` on the text of the files (`Model/Files.lean`, `Model/DataFiles.lean`), the main parts of the scripts (`Model/Shipped.lean`); simplifications named at the definitions | the files equal the printed tables of numerals by kernel computation; the theorems on arbitrary data (C72, C87, C88, C91, C92) applied to them; the curve of `plot_fit.py` by disc arithmetic |
| C95 | whole runs of the pipelines (as C60, C66) | the rounds and tasks as inductive relations between the parameter lists; induction over rounds and tasks, with the heap invariant that all objects are reachable |
| C96 | whole runs of the pipelines and of the kaon scripts (as C60, C66, C79, C95) | the reports of the rounds (C95) carry the evaluation of the fitted function; the smallest text picks one of them (C57); the evaluation of a list is that of its points (C51), and the order of the points (C58) does not matter for the sum |
| C97 | the main parts of the scripts, with the pool as calls one after the other whose exceptions are raised by get | invariant over the calls: what a completed call leaves (C60, C66, C95, C96) lies in its own directory, and the directories of different numbers are disjoint as sets of paths; completion by C79 for each call |
| C98 | the run of a nucleon pipeline with the exceptions of the evaluation; the library as an arbitrary procedure that asks for values | the run machinery of C83 over the invariant "inside the bounds and in the region", with no exception left |
| C99 | main of the nucleon script with printing, files and directories | the machinery of C97 made generic over the record of a run; C66 for one run, C83, C96 and C98 for one call |
| C100 | `run` of all pipelines with every outcome of the environment | induction over the tasks with all outcomes (`Lemmas/Interrupted.lean`), a frame logic for the parameter objects (`Lemmas/Frame.lean`) |
| C101 | as C100 | the same induction, with the text after each task computed exactly |
| C102 | the functions `f` and the loops of the four scripts with every outcome | C97, C99 and C100 for the single calls, then induction over the calls: what one call leaves is not touched by the others (`Lemmas/MainStopped.lean`) |
| C103 | the evaluation code once more over numbers that carry their kind (`Model/Kinds*.lean`) | simulation: maps, components and mass terms are computed from Python numbers because of `cmath.polar`, `math.sqrt` and `cmath.exp`, so every divisor is a Python number; induction over the data points; the kind is read off the couplings (`Lemmas/Kinds*.lean`) |
| C104 | `function_form_factor`, `function_cross_section` on nucleon objects | continuity of components and mass terms lifted through the four groups, the mass-term quotients and the parameter objects; objects near the limit still build and stay away from the degenerate mass terms; `C104_jump` compares the moduli of the two variants above the inelastic threshold |
| C105 | the three kaon models, `function_form_factor` | identity theorem along segments avoiding the finitely many poles, residues of the components (not zero) compared at each position; for absolute values the squares agree and the value 1 at t = 0 decides the sign |
| C106 | constructors and `__call__` of both nucleon classes | exact criterion for construction, closed form of the value; mass terms and components are invariant under conjugation of the pole, the interpolation terms are symmetric in the eliminated resonances |
| C107 | `square_root` and `MapFromTtoW.__call__` operation by operation over an abstract float arithmetic, complex division as in CPython | signs and monotonicity of each intermediate result from the laws; the laws for 53-digit rounding to nearest even from monotonicity of rounding; adequacy of the exact instance by algebra |
| C108 | the fitted functions down to the form-factor models | form factors are affine in the strengths with the positions kept (FsumL_affine, run_affine); definedness depends on positions only; expansion of the squared modulus |
| C109 | the fitted functions and all models below them, no condition on the values; the bounds tables | homogeneity of square_root and of the map from t to W; components and mass terms are unchanged; congruence through the exception monad; for the bounds, dimension check of the tables |
| C110 | the fitted functions as functions of the free values (C54), the bounds | amplitudes are affine in the free values (C108), so they range over a closed affine space; the sum of squares is continuous and grows beyond all bounds on it, hence attains its minimum |
| C111 | the fitted functions as functions of the free values (C54), the handpicked bounds | the bounds of masses and widths are read off the tables; objects between them are inside the maximal bounds; by C85 and C104 the sum of squares is continuous on a compact box |
| C112 | pipelines, tasks and curve_fit as an arbitrary procedure (C92, C95) | one task: the values are the starting ones after a failed fit and the returned ones after a finished fit, evaluated on the same points; changing flags leaves the function as it is; induction over rounds and tasks; for kaon form factors a library that tries two vectors, and two objects with a coupling changed, told apart by a neutral point (C105) |

## 4. Where the code and the stated property disagree

* **C03** The validator's message demands `t_in > t_0`, the code only rejects `t_in < t_0`. `t_0 = t_in = 1` is accepted
  by both maps (`C03_accepts_equal`). What holds: accepted exactly for `0 <= t_0 <= t_in` (`C03_validation_partial`).
* **C10** With `t_in = t_0` a component with a pole above the threshold is either not buildable or every evaluation
  raises `ZeroDivisionError` (`C10_degenerate_always_raises`, `C10_false`).
* **C15** A component with non-zero width has its pole (and the conjugate one) on the sheet the code itself calls
  physical, so it is not holomorphic there (`C15_false`, `C15_physical_sheet_poles`). It is holomorphic elsewhere off the
  cut (`C15_holomorphic_partial`).
* **C33** `_transform_to_effective_form_factor` does not divide by `hc_squared`, which the cross section contains, so for equal
  moduli `G` it returns `sqrt(hc_squared) * G` (`C33_false`; exact value in `C33_effective_form_factor_partial`). For `G = 0`
  it raises `ZeroDivisionError` (`C33_zero_raises`).
* **C43** `fix_parameters` and `release_parameters` look names up one by one while already writing flags. With an unknown
  name after a known one they raise `KeyError` with the earlier flags changed (`C43_fix_changes_before_raising`,
  `C43_negation`). `C43_failing_partial` says exactly what a failing call leaves behind.
* **C46** `ETGMRModelParameters.get_ordered_values` returns `a` and `m_a` but not `m_d`, so two objects that differ in `m_d`
  give the same list (`C46_negation`). True for the other eight classes (`C46_determined_partial`).
* **C26** `NucleonUAModel._build_component` compares `mass^2 - width^2/4` with the thresholds, the bounds only ask
  `mass > sqrt(t_0)` and `width > 0`. Mass 2, width 4, `t_0 = 1` is inside the bounds and raises `ValueError` (`C26_false`).
  `C26_nucleon_partial` says exactly which points are refused; `C26_kaon` proves the property for the five kaon classes.
* **C49** For an unbounded parameter `_get_perturbed_value` starts from `abs(old_value)`, so a draw of the other sign flips the
  sign: 1 becomes -1.1 with size 0.1 (`C49_false`). `C49_unbounded_partial` gives the change in both cases.
* **C53** `function_cross_section` passes an `ETGMRModel`/`TwoPolesModel` on as the cross-section model and then assigns
  `cross_section_model.form_factor.proton`; these objects have no `form_factor`. `AttributeError` for every non-empty list
  (`C53_always_fails`, `C53_false`).
* **C55** `_update_report` divides by `len(r_squared) - len(opt_parameters)`. With as many points as free parameters a
  successful fit ends in `ZeroDivisionError`, values updated, report not finished, if the values of the fitted function are Python
  numbers: for instance one mass of a kaon model fitted to one point (`C55_false`). If a coupling is free they are NumPy numbers; then the
  report is finished with `inf` or `nan` as its chi squared. `C55_run_partial` gives every outcome.
* **C57** `_update_best_fit` compares `chi_squared` values that are already strings (`str(chi_squared)`), so `"16.0" < "9.0"`
  and a fit with chi squared 16 stays best after one with 9 (`C57_false`, a whole run of two fits). `C57_run_partial` and
  `C57_iterative_partial`: the best fit has the smallest text, hence the smallest value when the texts are ordered like the values,
  which is so for equally many digits before the point (`C57_decimals`).
* **C66** `NucleonCrossSectionIterativePipeline.run` flushes the log before the residual fit and never again, so the three messages
  about the residual fit are printed but do not reach `report.txt` (`C66_nucleonCS_partial`; `C66_false` has a completed run).
* **C82** The nucleon model divides by differences of its mass terms. Below and above an inelastic threshold these are different functions of
  the pole, so that two different resonances can have equal mass terms: `t_in = 100/49`, rho' with mass 29/21 and width 4/21, rho'' with
  mass 464/273 and width 64/273 (massless pions), all inside the handpicked bounds. Every evaluation then raises `ZeroDivisionError`
  (`C82_false`). `C82_form_factors_partial` and `C82_cross_sections_partial` show that there is no further cause.
* **C85** A resonance uses one formula when the square of its mass is below the inelastic threshold and another one from there on. The
  two do not agree at the change: with non-zero width the component jumps at every `t ≠ 0` (`C85_jump`), and so does the form factor
  of suitable objects of every kaon class inside the bounds (`C85_false`). The function given to `curve_fit` is thus not continuous in
  the masses and inelastic thresholds. Away from the change it is (`C85_continuous_partial`).

### Other observations (not stated as properties)

* After the residual task the pipeline's parameter object is left with all parameters fixed (`fix_all_parameters` is called
  on the shared object). The error bars of the residuals use the fitted form factor, not the measured one.
* The effective form factors of the residual task are those of natural units: `hc_squared`, which the background cross sections contain,
  is not divided out (C71 states the relation with `ħc = 1`).
* `_prepare_data` and the residual task raise `ValueError` on empty data (`zip(*[])` cannot be unpacked). Lists of unequal length
  are silently misaligned by `_prepare_data`.
* The iterative pipelines except the nucleon cross section one raise `ValueError` (from `random.sample`) when a round asks for more free
  parameters than there are. With `fix_resonances` and an `ETGMRModelParameters`/`TwoPolesModelParameters` object they raise
  `AttributeError`.
* `TaskFullFitOnlyCharged` fits the charged points only but reports chi squared over all points. As the last task of
  `KaonFormFactorIterativePipeline` it can make the agreement with all points worse (`C112_kaonFF_worse`).
* `raise f'...'` in `common/utils.py`, `_prepare_data` and the residual task raises `TypeError` (strings cannot be raised), which
  is what the model has.
* The prefix `a_` by which couplings are recognised misses the coupling `a` of the background models.
* The tasks of the two background models always fail, see C53.
* Of the two alternative maps in `plotting/plot_various_coordinate_inverse_maps.py`, version 2 is on the wrong sheet everywhere off the
  cut and version 3 fills the upper instead of the left half of the disk (C78). Neither is used by the models.
* Three kaon scripts import names that do not exist (`CrossSectionIterativePipeline`, `CrossSectionPipeline`,
  `TaskFixedResonancesFit`), so they stop with `ImportError`.
* In double precision `MapFromTtoW` raises `ZeroDivisionError` also for some `t` next to `t_in` (`C107_collapse`).
* `random.random()` can return 0; with the perturbation size 1 of `fit_ff_iterative_pipeline.py` the inelastic thresholds then start exactly
  at `t_0` (C79_boundary), the degenerate case of C10.
* The nucleon script asks for 200 initial rounds out of 175 rounds in total.
* `kaon_production/plot_fit.py` passes form factors to the residual task as if they were cross sections.
* `kaon_production/plot_single_component.py` titles its figure `phi`, but mass and width are those it and the other scripts use for omega (C92).
* The loops that pick the best of several runs compare texts too (C77), like C57, and so does the report of `kaon_production/parser.py` (C76).
* Matplotlib's palette has 148 colours, so that `plot_z_minus_its_reciprocal` with more than 74 angles leaves out curves without a
  warning (`C84_drawn`, `C84_reciprocal`).
* In `kaon_production/run_single_fit.py` the calls `set_value('decay_rate_phi_prime', 0.150)` and `release_all_parameters()` have no effect:
  the value is already 0.15 and `fix_resonances` starts by releasing everything. `path_to_reports` is not used in either script.
* `kaon_production/fit_ff_other_models.py` cannot produce a fit (C88): `ETGMRModelTask` and `TwoPolesModelTask` ask for cross sections of models
  that only have form factors, the points of the kaon are read as points of the nucleon, and `KaonFormFactorPipeline._create_task` passes the
  reports directory and two flags where `ETGMRModelTask` and `ResidualOscillationsTask` expect mass, alpha and hc^2.
* `assert_complex_list_close` in `tests/test_kaon_production_utils.py` calls `cmath.isclose` without asserting the result, so those tests
  check nothing about the values.
