{"id": "C01", "title": "square_root is the documented branch", "statement": "square_root(z) squared gives back z, its argument lies in [0, pi) (so the imaginary part is non-negative and the value is never a negative real), and these conditions determine it uniquely.", "quantifier": "every complex number z", "why_tests_cant": "tests sample a handful of points; the branch choice and uniqueness concern every point of the plane, including both sides of the cut", "anchors": ["ua_model/functions.py:square_root"]}
{"id": "C02", "title": "square_root is continuous off the cut and from above on it, and jumps across it", "statement": "square_root is continuous (indeed complex differentiable) at every point off the non-negative real axis, continuous from the closed upper half-plane everywhere, and approaching a positive real from below gives minus the value.", "quantifier": "every complex number, every approach to it", "why_tests_cant": "continuity and one-sided limits are statements about infinitely many points", "anchors": ["ua_model/functions.py:square_root"]}
{"id": "C03", "title": "Branch point validation accepts exactly the documented region", "statement": "Constructing MapFromTtoW or MapFromWtoT raises ValueError unless 0 <= t_0 < t_in, and succeeds when 0 <= t_0 < t_in.", "quantifier": "all pairs of real t_0, t_in", "why_tests_cant": "the docstring's strict inequality t_0 < t_in must hold for all pairs, including the boundary", "anchors": ["ua_model/utils.py:validate_branch_point_positions", "ua_model/MapFromTtoW.py:MapFromTtoW.__init__", "ua_model/MapFromWtoT.py:MapFromWtoT.__init__"]}
{"id": "C04", "title": "MapFromTtoW is defined everywhere except t_in", "statement": "With 0 <= t_0 < t_in, evaluating MapFromTtoW at t raises (ZeroDivisionError) exactly when t = t_in and returns a number for every other complex t.", "quantifier": "all 0 <= t_0 < t_in and all complex t", "why_tests_cant": "absence of exceptions over the whole plane cannot be sampled", "anchors": ["ua_model/MapFromTtoW.py:MapFromTtoW.__call__"]}
{"id": "C05", "title": "MapFromTtoW lands in the left half of the unit disk, half-planes to half-disks", "statement": "W(t) always satisfies |W| <= 1 and Re W <= 0; Im t > 0 gives Im W > 0 and Im t < 0 gives Im W < 0; for non-real t the image is strictly inside the open half-disk.", "quantifier": "all 0 <= t_0 < t_in and all complex t != t_in", "why_tests_cant": "tests check a few points; the documented image is a statement about the whole plane", "anchors": ["ua_model/MapFromTtoW.py:MapFromTtoW.__call__"]}
{"id": "C06", "title": "t -> W -> t round trip", "statement": "MapFromWtoT(MapFromTtoW(t)) returns exactly t for every t other than the two branch points; at t_0 the second step raises ZeroDivisionError and at t_in the first one does.", "quantifier": "all 0 <= t_0 < t_in and all complex t", "why_tests_cant": "tests compare ~ten points; inverse laws are universally quantified", "anchors": ["ua_model/MapFromTtoW.py:MapFromTtoW.__call__", "ua_model/MapFromWtoT.py:MapFromWtoT.__call__"]}
{"id": "C07", "title": "W -> t -> W round trip on the physical half-disk", "statement": "For every w in the open left half of the unit disk MapFromTtoW(MapFromWtoT(w)) returns exactly w.", "quantifier": "all 0 <= t_0 < t_in and all w with Re w < 0 and |w| < 1", "why_tests_cant": "inverse law over an uncountable domain", "anchors": ["ua_model/MapFromTtoW.py:MapFromTtoW.__call__", "ua_model/MapFromWtoT.py:MapFromWtoT.__call__"]}
{"id": "C08", "title": "MapFromWtoT is four-to-one", "statement": "Two points w, w' have the same t exactly when w' is one of w, -w, 1/w, -1/w; and each t other than t_0 is attained.", "quantifier": "all 0 <= t_0 < t_in, all w, w' outside {0, 1, -1}, all t", "why_tests_cant": "exact fibres cannot be established by sampling", "anchors": ["ua_model/MapFromWtoT.py:MapFromWtoT.__call__"]}
{"id": "C09", "title": "Reflection symmetry of the coordinate map", "statement": "W(conj t) = conj W(t) for every t off the cut [t_0, infinity); W is real and in (-1, 0] for real t <= t_0.", "quantifier": "all 0 <= t_0 < t_in and all complex t not in [t_0, infinity)", "why_tests_cant": "holds off a cut only; sampling cannot show the exact domain of validity", "anchors": ["ua_model/MapFromTtoW.py:MapFromTtoW.__call__"]}
{"id": "C10", "title": "Degenerate t_in = t_0 makes every evaluation fail", "statement": "A model component that was successfully built can be evaluated somewhere: no accepted pair (t_0, t_in) yields a component that raises at every point.", "quantifier": "all accepted pairs (t_0, t_in), all resonances", "why_tests_cant": "the offending set is the boundary t_in = t_0, which a fit's lower bound includes but tests do not", "anchors": ["ua_model/utils.py:validate_branch_point_positions", "ua_model/ua_components/UAComponent.py:UAComponent.__call__", "ua_model/KaonUAModel.py:KaonUAModel._build_component"]}
{"id": "C11", "title": "Every resonance component is normalised to 1 at t = 0", "statement": "For every component a model builds (either variant), the component evaluated at W(0) is exactly 1.", "quantifier": "all 0 <= t_0 < t_in, all masses and decay rates for which the component can be built", "why_tests_cant": "normalisation must hold for all parameter values a fit may visit", "anchors": ["ua_model/ua_components/UAComponent.py:UAComponent.__call__", "ua_model/ua_components/UAComponentVariantA.py:UAComponentVariantA", "ua_model/ua_components/UAComponentVariantB.py:UAComponentVariantB", "ua_model/KaonUAModel.py:KaonUAModel._build_component"]}
{"id": "C12", "title": "Component variant and rejection thresholds (kaon models)", "statement": "Building a resonance component with 0 <= t_0 < t_in raises ValueError exactly when mass^2 < t_0 and ZeroDivisionError exactly when the width is zero and mass^2 equals t_0 or t_in; otherwise it succeeds, with the below-t_in form for mass^2 < t_in and the above-t_in form for mass^2 >= t_in. The new nucleon model does the same with mass^2 - width^2/4 in place of mass^2 in the comparisons.", "quantifier": "all real t_0, t_in, mass, decay rate", "why_tests_cant": "decision logic over a continuum including measure-zero boundaries", "anchors": ["ua_model/KaonUAModel.py:KaonUAModel._build_component", "ua_model/KaonUAModelB.py:KaonUAModelB._build_component", "ua_model/KaonUAModelSimplified.py:KaonUAModelSimplified._build_component", "ua_model/NucleonUAModel.py:NucleonUAModel._build_component"]}
{"id": "C13", "title": "Zero-width component equals the VMD pole term", "statement": "With decay rate 0, the component evaluated at W(t) equals mass^2/(mass^2 - t) for every t where both are defined, whichever variant is selected.", "quantifier": "all 0 <= t_0 < t_in, all masses with mass^2 > t_0, mass^2 != t_in, all complex t != t_in, mass^2", "why_tests_cant": "the unit test compares the two models at a few points for one parameter set", "anchors": ["ua_model/ua_components/UAComponentVariantA.py:UAComponentVariantA", "ua_model/ua_components/UAComponentVariantB.py:UAComponentVariantB", "other_models/VMDModel.py:VMDModel._evaluate_meson_contribution"]}
{"id": "C14", "title": "Component poles are exactly the resonance pole and its mirror image", "statement": "A built component evaluated at W(t) raises ZeroDivisionError exactly when t is the resonance pole (mass - i*decay/2)^2 or its complex conjugate (and t is not t_in); it is defined at every other t. In particular with non-zero mass and decay rate it is defined at every real t != t_in.", "quantifier": "all 0 <= t_0 < t_in, all accepted masses and decay rates, all complex t", "why_tests_cant": "requires absence of exceptions at all t", "anchors": ["ua_model/ua_components/UAComponent.py:UAComponent.__call__", "ua_model/ua_components/UAComponentVariantA.py:UAComponentVariantA", "ua_model/ua_components/UAComponentVariantB.py:UAComponentVariantB"]}
{"id": "C15", "title": "The form factor is analytic on the physical sheet off the cut", "statement": "As a function of t on the cut plane (physical sheet, t off [t_0, infinity)), each component of the 'unitary and analytic' model is holomorphic with no poles.", "quantifier": "all accepted resonances with positive width, all t off the cut", "why_tests_cant": "analyticity on a domain is not testable pointwise", "anchors": ["ua_model/KaonUAModel.py:KaonUAModel._build_component", "ua_model/MapFromWtoT.py:MapFromWtoT", "ua_model/MapFromTtoW.py:MapFromTtoW"]}
{"id": "C16", "title": "Component reflection symmetry", "statement": "component(W(conj t)) = conj(component(W(t))) for t off the cut, and the component is real for real 0 <= t <= t_0.", "quantifier": "all accepted components, all t off [t_0, infinity)", "why_tests_cant": "universally quantified symmetry", "anchors": ["ua_model/ua_components/UAComponent.py:UAComponent.__call__"]}
{"id": "C17", "title": "Component falls off like 1/t", "statement": "For every accepted component there are constants C, R with |component(W(t))| <= C/|t| for all |t| >= R.", "quantifier": "all accepted components, all large complex t", "why_tests_cant": "asymptotic statement; no finite sample suffices", "anchors": ["ua_model/ua_components/UAComponent.py:UAComponent._eval_asymptotic_factor"]}
{"id": "C18", "title": "Kaon charge normalisation", "statement": "F(0) = 1 for the charged kaon and F(0) = 0 for the neutral kaon, whatever the couplings, masses, widths and inelastic thresholds.", "quantifier": "all parameter values for which the model can be built; KaonUAModel, KaonUAModelB and KaonUAModelSimplified", "why_tests_cant": "holds for a 30-dimensional continuum of parameters", "anchors": ["ua_model/KaonUAModel.py:KaonUAModel", "ua_model/KaonUAModelB.py:KaonUAModelB", "ua_model/KaonUAModelSimplified.py:KaonUAModelSimplified"]}
{"id": "C19", "title": "Kaon model with zero widths equals the VMD model", "statement": "With all decay rates zero the kaon form factor equals the VMD model with the same couplings (the last isoscalar/isovector couplings being 1/2 minus the others; isovector couplings negated for the neutral kaon).", "quantifier": "all parameters with zero widths, all t with non-negative real part off the thresholds and masses", "why_tests_cant": "unit test compares at sampled points for one parameter set", "anchors": ["ua_model/KaonUAModel.py:KaonUAModel.__call__", "other_models/VMDModel.py:VMDModel.__call__"]}
{"id": "C20", "title": "Form-factor models reject exactly negative real part, and are total on the physical data line", "statement": "Calling a kaon model raises ValueError exactly when Re t < 0; with positive masses and widths it returns a number for every real t >= 0 other than the two t_in values.", "quantifier": "all built models with non-zero masses and widths, all complex t / all real t", "why_tests_cant": "exception freedom over all data points", "anchors": ["ua_model/KaonUAModel.py:KaonUAModel.__call__", "ua_model/KaonUAModelB.py:KaonUAModelB.__call__", "ua_model/KaonUAModelSimplified.py:KaonUAModelSimplified.__call__"]}
{"id": "C21", "title": "Schwarz reflection for the kaon form factors", "statement": "F(conj t) = conj F(t) for t with Re t >= 0 off both cuts; F is real on the real interval from 0 up to the lower threshold.", "quantifier": "all built kaon models (three variants), both charges", "why_tests_cant": "universally quantified symmetry", "anchors": ["ua_model/KaonUAModel.py:KaonUAModel.__call__"]}
{"id": "C22", "title": "Isospin decomposition and variant switch", "statement": "Switching charged_variant on a built kaon model only flips the sign of the isovector part: the mean of the charged and neutral values does not involve the rho parameters and half their difference does not involve the omega/phi parameters.", "quantifier": "all built kaon models and t", "why_tests_cant": "non-interference statement over all parameter values", "anchors": ["ua_model/KaonUAModel.py:KaonUAModel.__call__", "common/utils.py:function_form_factor"]}
{"id": "C23", "title": "Nucleon charge and magnetic-moment normalisation", "statement": "At t = 0 the proton electric form factor is 1, the neutron electric is 0, and the magnetic ones equal the supplied proton and neutron magnetic moments, independently of all couplings.", "quantifier": "all parameters for which the nucleon model evaluates at 0", "why_tests_cant": "relies on an interpolation identity holding for all mass terms", "anchors": ["ua_model/NucleonUAModel.py:NucleonUAModel.__call__"]}
{"id": "C24", "title": "Nucleon mass-term cache is invisible", "statement": "The value a nucleon model returns does not depend on which evaluations and proton/electric switches happened before: after any history it equals the value from a freshly built model with the same parameters and switches.", "quantifier": "all built nucleon models, all finite histories of calls and switches, all t", "why_tests_cant": "quantifies over all call histories", "anchors": ["ua_model/NucleonUAModel.py:NucleonUAModel._get_mass_term", "ua_model/NucleonUAModel.py:NucleonUAModel._build_cache_key"]}
{"id": "C25", "title": "Nucleon form factors: fast fall-off", "statement": "The Dirac contributions fall off at least like 1/t^2 and the Pauli contributions at least like 1/t^3.", "quantifier": "all built nucleon models with distinct mass terms, all large t", "why_tests_cant": "asymptotic statement", "anchors": ["ua_model/NucleonUAModel.py:NucleonUAModel._eval_dirac_isoscalar_contribution", "ua_model/NucleonUAModel.py:NucleonUAModel._eval_pauli_isoscalar_contribution"]}
{"id": "C26", "title": "Parameters inside the maximal bounds are accepted by the model", "statement": "A parameter vector respecting the 'maximal' bounds strictly (t_in > t_0, mass > sqrt(t_0), width > 0) never makes the form-factor model raise ValueError while it is built.", "quantifier": "all parameter vectors strictly inside the bounds (kaon and nucleon)", "why_tests_cant": "the bounds and the model's own checks are in different files; agreement is over a continuum", "anchors": ["model_parameters/NucleonParameters.py:NucleonParameters.get_model_parameters_bounds_maximal", "ua_model/NucleonUAModel.py:NucleonUAModel._build_component", "model_parameters/KaonParameters.py:KaonParameters.get_model_parameters_bounds_maximal", "ua_model/KaonUAModel.py:KaonUAModel._build_component"]}
{"id": "C27", "title": "Single-component model normalisation", "statement": "SingleComponentModel at t = 0 equals its coupling; it raises ValueError exactly when Re t < 0.", "quantifier": "all parameters for which it can be built, all t", "why_tests_cant": "continuum of parameters", "anchors": ["ua_model/SingleComponentModel.py:SingleComponentModel"]}
{"id": "C28", "title": "VMD model is the sum over its mesons, order-independent", "statement": "VMDModel.create(ms)(t) is the sum of c*m^2/(m^2-t), unchanged by reordering, additive under concatenation; it raises on an empty list and ZeroDivisionError exactly when t equals some m^2.", "quantifier": "all finite lists of mesons, all t", "why_tests_cant": "all lists and orders", "anchors": ["other_models/VMDModel.py:VMDModel"]}
{"id": "C29", "title": "ETGMR, two-pole and damped-oscillation models", "statement": "ETGMR and two-pole models equal their amplitude a at s = 0 and raise exactly at their poles or for a zero pole mass; damped oscillations are bounded by |a|exp(-bx).", "quantifier": "all parameters and arguments", "why_tests_cant": "continuum of parameters", "anchors": ["other_models/ETGMRModel.py:ETGMRModel", "other_models/TwoPolesModel.py:TwoPolesModel", "other_models/DampedOscillations.py:DampedOscillations"]}
{"id": "C30", "title": "Scalar-meson cross section is real, non-negative, zero only at threshold or zero form factor", "statement": "For real t at or above 4 m^2 (m != 0) the scalar-meson production cross section is a non-negative real number equal to hc^2*pi*alpha^2/(3t)*beta^3*|F|^2; it vanishes at t = 4 m^2; it raises ZeroDivisionError exactly for t = 0 (given the form factor evaluates).", "quantifier": "all masses, constants, form factors and real t >= 4m^2", "why_tests_cant": "all inputs", "anchors": ["cross_section/ScalarMesonProductionTotalCrossSection.py:ScalarMesonProductionTotalCrossSection.__call__"]}
{"id": "C31", "title": "Nucleon cross section does not depend on the form factor's electric switch", "statement": "Evaluating the nucleon-pair cross section gives the same result whatever the electric switch of the form-factor object was and whatever was evaluated before; it leaves all other attributes unchanged and the switch False (True only if the electric evaluation itself raised). For real t >= 4m^2 the value is real and non-negative; t = 0 raises ZeroDivisionError and 0 < |t| < 4m^2 raises ValueError.", "quantifier": "all form-factor objects and states, all t", "why_tests_cant": "side-effect statement over all states", "anchors": ["cross_section/NucleonPairToElectronPositronTotalCrossSection.py:NucleonPairToElectronPositronTotalCrossSection.__call__"]}
{"id": "C32", "title": "Cross-section to form-factor conversion inverts the cross-section formula", "statement": "Converting a measured kaon cross section to a form-factor modulus and feeding that modulus back into the scalar-meson cross section returns the measured value; the propagated error is the derivative times the original error. A whole table is converted row by row in order, each relative error halved; the conversion of a table stops exactly with the exception of its first bad row.", "quantifier": "all positive cross sections, all real t > 4m^2, all constants, tables of any length", "why_tests_cant": "inverse law over reals", "anchors": ["kaon_production/convert_cs_data_to_ff_data.py", "cross_section/ScalarMesonProductionTotalCrossSection.py"]}
{"id": "C33", "title": "Effective form factor inverts the nucleon cross section", "statement": "If the electric and magnetic moduli are both G, the effective form factor extracted from the nucleon-pair cross section at t > 4m^2 is G.", "quantifier": "all G >= 0, t > 4m^2, constants", "why_tests_cant": "unit conventions across two files; a universally quantified identity", "anchors": ["task/ResidualOscillationsTask.py:ResidualOscillationsTask.transform_to_effective_form_factor", "cross_section/NucleonPairToElectronPositronTotalCrossSection.py"]}
{"id": "C34", "title": "Lab momentum is kinematically correct and monotone", "statement": "The momentum assigned to t satisfies E = t/(2m) - m, E^2 = p^2 + m^2, is strictly increasing in t above threshold, is 0 at threshold and raises ValueError strictly between 0 and threshold.", "quantifier": "all masses m > 0 and real t", "why_tests_cant": "all inputs", "anchors": ["task/ResidualOscillationsTask.py:ResidualOscillationsTask.map_ts_to_laboratory_system_momentum"]}
{"id": "C35", "title": "Parameter names and order never change", "statement": "Whatever sequence of public operations is applied to a parameter object (including failing ones), the sequence of names stays the one it was created with.", "quantifier": "all parameter classes, all finite operation sequences", "why_tests_cant": "all histories", "anchors": ["model_parameters/ModelParameters.py:ModelParameters"]}
{"id": "C36", "title": "Always-fixed parameters can never be free", "statement": "In every state reachable by public operations the parameters a class declares as always fixed (t_0's, etc.) are fixed.", "quantifier": "all parameter classes, all finite operation sequences with arbitrary arguments", "why_tests_cant": "invariant over all histories", "anchors": ["model_parameters/ModelParameters.py:ModelParameters", "model_parameters/KaonParametersB.py:KaonParametersB.__init__", "model_parameters/NucleonParameters.py:NucleonParameters.__init__"]}
{"id": "C37", "title": "Copy is exact", "statement": "In every reachable state copy() succeeds and has the same names, values and fixed flags.", "quantifier": "all parameter classes, all reachable states", "why_tests_cant": "depends on constructor wiring of 30+ arguments in each class for all values", "anchors": ["model_parameters/ModelParameters.py:ModelParameters.copy", "model_parameters/KaonParameters.py:KaonParameters.from_list"]}
{"id": "C38", "title": "Constructor wiring", "statement": "Constructing a parameter object by keyword gives an object in which every named parameter holds exactly the value passed under that name.", "quantifier": "all parameter classes, all values", "why_tests_cant": "30 positional arguments are passed through; a swap of two equal test values would go unnoticed", "anchors": ["model_parameters/KaonParameters.py:KaonParameters.__init__", "model_parameters/NucleonParameters.py:NucleonParameters._setup_data"]}
{"id": "C39", "title": "from_list accepts any order and restores flags", "statement": "from_list applied to any reordering of a full list gives the class's canonical order with the listed values; a parameter ends up fixed exactly if listed as fixed or always fixed; a list missing a name or containing an unknown name raises TypeError.", "quantifier": "all lists", "why_tests_cant": "all permutations of 30+ elements", "anchors": ["model_parameters/KaonParameters.py:KaonParameters.from_list", "model_parameters/NucleonParameters.py:NucleonParameters.from_list"]}
{"id": "C40", "title": "Free-value vector round trip", "statement": "update_free_values(v) succeeds exactly when len(v) is the number of free parameters; afterwards get_free_values() is v, the fixed values and all flags are unchanged; writing back get_free_values() changes nothing; a wrong length raises ValueError and changes nothing.", "quantifier": "all states, all vectors", "why_tests_cant": "all interleavings of free/fixed", "anchors": ["model_parameters/ModelParameters.py:ModelParameters.update_free_values", "model_parameters/ModelParameters.py:ModelParameters.get_free_values"]}
{"id": "C41", "title": "Get/set laws", "statement": "set_value(n, v) changes the value of n only and keeps its flag; reading n afterwards gives v; unknown names raise KeyError and change nothing; __setitem__ replaces the entry or raises KeyError/TypeError/ValueError without changing anything.", "quantifier": "all states, names, values", "why_tests_cant": "all states", "anchors": ["model_parameters/ModelParameters.py:ModelParameters.set_value", "model_parameters/ModelParameters.py:ModelParameters.__setitem__", "model_parameters/ModelParameters.py:ModelParameters.__getitem__"]}
{"id": "C42", "title": "Fix/release affect exactly the named parameters", "statement": "fix_parameters(ns) and release_parameters(ns) on known names set exactly those flags; release_parameters with an always-fixed name raises ValueError and changes nothing; fix_all/release_all fix or release everything (release_all all but the always-fixed); values never change.", "quantifier": "all states and name lists", "why_tests_cant": "all states", "anchors": ["model_parameters/ModelParameters.py:ModelParameters.fix_parameters", "model_parameters/ModelParameters.py:ModelParameters.release_parameters", "model_parameters/ModelParameters.py:ModelParameters.release_all_parameters"]}
{"id": "C43", "title": "A failing fix/release leaves the parameters unchanged", "statement": "If fix_parameters or release_parameters raises, no flag has changed.", "quantifier": "all states and name lists", "why_tests_cant": "failure atomicity over all inputs", "anchors": ["model_parameters/ModelParameters.py:ModelParameters.fix_parameters", "model_parameters/ModelParameters.py:ModelParameters.release_parameters"]}
{"id": "C44", "title": "Bounds line up with the free values", "statement": "In every reachable state get_bounds_for_free_parameters returns (handpicked always; maximal whenever the t_0 values are non-negative) lower and upper lists of the same length as get_free_values(), the i-th pair being the bounds of the i-th free parameter, with lower < upper.", "quantifier": "all parameter classes, all reachable states", "why_tests_cant": "some bound dictionaries omit entries; no KeyError may occur in any reachable free/fixed pattern (2^30)", "anchors": ["model_parameters/KaonParameters.py:KaonParameters.get_bounds_for_free_parameters", "model_parameters/KaonParametersFixedSelected.py:KaonParametersFixedSelected.get_model_parameters_bounds_handpicked"]}
{"id": "C45", "title": "Ordered values round trip", "statement": "from_ordered_values(get_ordered_values(), fixed constants) recreates the same values for every class that offers it, everything released except always-fixed names; wrong length raises AssertionError.", "quantifier": "all states of kaon and nucleon parameter classes", "why_tests_cant": "two 30-element name lists must agree", "anchors": ["model_parameters/KaonParameters.py:KaonParameters.get_ordered_values", "model_parameters/KaonParameters.py:KaonParameters.from_ordered_values", "model_parameters/NucleonParameters.py:NucleonParameters.from_ordered_values"]}
{"id": "C46", "title": "Ordered values determine the model", "statement": "Two parameter objects of the same class with the same always-fixed constants and the same get_ordered_values() have the same values.", "quantifier": "all parameter classes and states", "why_tests_cant": "injectivity over all values", "anchors": ["model_parameters/ETGMRModelParameters.py:ETGMRModelParameters.get_ordered_values", "model_parameters/TwoPolesModelParameters.py:TwoPolesModelParameters.get_ordered_values", "model_parameters/KaonParameters.py:KaonParameters.get_ordered_values"]}
{"id": "C47", "title": "fix_resonances fixes exactly the masses and widths", "statement": "After release_all_parameters() and fix_resonances() a parameter is free exactly when it is neither always fixed nor a mass_/decay_rate_ parameter.", "quantifier": "all states of every class offering it", "why_tests_cant": "hand-written name lists per class", "anchors": ["model_parameters/KaonParameters.py:KaonParameters.fix_resonances", "model_parameters/NucleonParameters.py:NucleonParameters.fix_resonances"]}
{"id": "C48", "title": "Perturbation stays within the bounds and touches only free parameters", "statement": "perturb_model_parameters with perturbation sizes in [0, 1] maps values within their bounds to values within their bounds, leaves fixed parameters and all flags untouched, whatever the random numbers.", "quantifier": "all classes, reachable states, random draws in [-1, 1)", "why_tests_cant": "randomised; must hold for every draw", "anchors": ["common/utils.py:perturb_model_parameters"]}
{"id": "C49", "title": "Perturbation is small", "statement": "A perturbation of relative size s changes an unbounded parameter by at most s times its magnitude.", "quantifier": "all values, random draws, sizes", "why_tests_cant": "randomised", "anchors": ["common/utils.py:perturb_model_parameters"]}
{"id": "C50", "title": "Evaluation wiring: names reach the model", "statement": "function_form_factor on a parameter object evaluates the model built with exactly the object's values under their names, for the class-specific model; kaon data use is_charged, nucleon data use proton/electric.", "quantifier": "all parameter objects and data lists", "why_tests_cant": "keyword wiring over all values", "anchors": ["common/utils.py:_get_ff_model", "common/utils.py:function_form_factor"]}
{"id": "C51", "title": "Evaluation is pointwise and order-preserving", "statement": "The i-th result of function_form_factor / function_cross_section depends only on the i-th data point and the parameters (not on earlier points), results are non-negative and as many as the data points.", "quantifier": "all parameter objects, all data lists", "why_tests_cant": "the model object is mutated from point to point; must be history independent for all lists", "anchors": ["common/utils.py:function_form_factor", "common/utils.py:function_cross_section"]}
{"id": "C52", "title": "Named data points and bare rows are read the same", "statement": "A KaonDatapoint/NucleonDatapoint and the numeric row the fitting library turns it into give the same result.", "quantifier": "all data points with real t", "why_tests_cant": "all data points", "anchors": ["common/utils.py:_read_datapoint_kaon", "common/utils.py:_read_datapoint_nucleon"]}
{"id": "C53", "title": "Background-model cross section works", "statement": "function_cross_section returns a list of values for ETGMR and two-pole parameters, as the tasks built on it need.", "quantifier": "all parameters, all non-empty data", "why_tests_cant": "no test covers these paths; the failure is for every input", "anchors": ["common/utils.py:function_cross_section", "task/ETGMRModelTask.py:ETGMRModelTask._set_up", "task/TwoPolesModelTask.py:TwoPolesModelTask._set_up"]}
{"id": "C54", "title": "Partial functions are pure", "statement": "A function made by make_partial_form_factor/cross_section_for_parameters never changes the caller's parameters, is unaffected by later changes to them, and returns the same result for the same arguments whatever calls (including failing ones) came before.", "quantifier": "all interleavings of calls and caller mutations", "why_tests_cant": "all histories, with aliasing", "anchors": ["common/utils.py:make_partial_form_factor_for_parameters", "common/utils.py:make_partial_cross_section_for_parameters"]}
{"id": "C55", "title": "Task run outcome", "statement": "After a successful fit the parameters' free values are the optimum and fixed values are unchanged, and the report is marked finished and carries the sum of squares, the reduced chi squared (inf or nan for a division of NumPy numbers by zero) and the square roots of the diagonal of the covariance matrix; if the optimiser raises RuntimeError values are unchanged and the report says failed with no chi squared.", "quantifier": "all optimiser outcomes, all states", "why_tests_cant": "the optimiser is an oracle; all outcomes", "anchors": ["task/Task.py:Task.run", "task/Task.py:Task._fit"]}
{"id": "C56", "title": "Task set-up frees what its name says", "statement": "Full fits free everything except always-fixed parameters; fixed-coupling fits additionally fix exactly the a_* couplings; the remaining fits keep the flags; charged-only fits use exactly the charged points in order.", "quantifier": "all parameter states and data", "why_tests_cant": "all states", "anchors": ["task/kaon_cross_section_tasks.py", "task/kaon_form_factor_tasks.py", "task/nucleon_cross_section_tasks.py", "task/nucleon_form_factor_tasks.py"]}
{"id": "C57", "title": "Best fit has the smallest chi squared", "statement": "The pipeline's best fit is the fit with the numerically smallest reported chi squared among all finished tasks.", "quantifier": "all sequences of task outcomes", "why_tests_cant": "depends on the comparison used for all numeric values", "anchors": ["pipeline/Pipeline.py:Pipeline._update_best_fit", "task/Task.py:Task._update_report"]}
{"id": "C58", "title": "Data preparation keeps every triple and sorts by t", "statement": "The prepared data are a permutation of the input triples, sorted by t, ties keeping input order (charged before neutral), with the right flags.", "quantifier": "all input lists of matching lengths, at least one point", "why_tests_cant": "all lists", "anchors": ["pipeline/KaonCrossSectionPipeline.py:KaonCrossSectionPipeline._prepare_data", "pipeline/NucleonCrossSectionPipeline.py:NucleonCrossSectionPipeline._prepare_data", "pipeline/KaonFormFactorPipeline.py:KaonFormFactorPipeline._prepare_data", "nucleon_production/run_single_fit.py:prepare_data", "kaon_production/plot_single_component.py:prepare_data"]}
{"id": "C59", "title": "Random freezing frees exactly the chosen parameters", "statement": "After _randomly_freeze_parameters(k, fix_resonances) exactly k parameters are free, none always fixed, none a resonance parameter when resonances are to be fixed, values unchanged; the sampling error occurs exactly when k exceeds the available names (and never in the nucleon cross-section pipeline).", "quantifier": "all states, all random samples", "why_tests_cant": "randomised", "anchors": ["pipeline/KaonCrossSectionIterativePipeline.py:KaonCrossSectionIterativePipeline._randomly_freeze_parameters", "pipeline/NucleonCrossSectionIterativePipeline.py:NucleonCrossSectionIterativePipeline._randomly_freeze_parameters"]}
{"id": "C60", "title": "Reports never overwrite an existing run and lose nothing", "statement": "Creating a pipeline whose report directory exists raises ValueError and writes nothing; a completed run writes one report per task and report.txt contains every logged message in order.", "quantifier": "all task sequences and outcomes", "why_tests_cant": "all executions", "anchors": ["pipeline/Pipeline.py:Pipeline.run", "pipeline/Pipeline.py:Pipeline._flush_report", "pipeline/Pipeline.py:Pipeline._set_up_reports_directory"]}
{"id": "C61", "title": "Undressing and error propagation", "statement": "undress_cross_section_measurement multiplies the value by (alpha_0/alpha_s)^2, combines errors in quadrature, is the identity on the value when alpha_s = alpha_0, and its error is at least the scaled statistical error.", "quantifier": "all inputs", "why_tests_cant": "all inputs", "anchors": ["kaon_production/undress_measured_cross_section.py:undress_cross_section_measurement"]}
{"id": "C62", "title": "New and old nucleon models agree for zero widths", "statement": "With all nine decay widths zero, NucleonUAModel and NucleonUAModelOld have the same outcome at every t: the same value, or the same exception (also while building).", "quantifier": "all parameter values with t_0 < t_in in each sector and zero widths, all complex t, both switches", "why_tests_cant": "the two classes use different mass terms (maps vs squared masses); their agreement is an algebraic identity over all masses", "anchors": ["ua_model/NucleonUAModel.py:NucleonUAModel._calculate_mass_term", "ua_model/NucleonUAModelOld.py:NucleonUAModelOld"]}
{"id": "C63", "title": "Exact evaluation domain of the nucleon models", "statement": "A built nucleon model raises ValueError exactly when Re t < 0, ZeroDivisionError exactly when (Re t >= 0 and) t is one of the four t_in, a resonance pole or its conjugate, two mass terms whose difference is divided by coincide, or the electric form factor is asked for with zero nucleon mass; everywhere else it returns a value.", "quantifier": "all built models of both classes, all complex t", "why_tests_cant": "iff over all parameters and points", "anchors": ["ua_model/NucleonUAModel.py:NucleonUAModel.__call__", "ua_model/NucleonUAModelOld.py:NucleonUAModelOld.__call__"]}
{"id": "C64", "title": "Nucleon form factors: reflection", "statement": "Away from the cuts the nucleon models commute with complex conjugation (exceptions included); below the lowest threshold their values are real.", "quantifier": "all built models of both classes, all t off the cuts", "why_tests_cant": "continuum of parameters and points; branch choices", "anchors": ["ua_model/NucleonUAModel.py:NucleonUAModel.__call__", "ua_model/NucleonUAModelOld.py:NucleonUAModelOld.__call__"]}
{"id": "C65", "title": "Nucleon isospin decomposition", "statement": "The sum of the proton and neutron values depends only on the isoscalar inputs (thresholds, omega/phi couplings, masses, widths, nucleon mass and the sum of the magnetic moments); the difference only on the isovector inputs; both nucleons can be evaluated at the same points.", "quantifier": "all pairs of parameter sets that agree on the relevant inputs, all t", "why_tests_cant": "non-interference over all parameter values", "anchors": ["ua_model/NucleonUAModel.py:NucleonUAModel.__call__"]}
{"id": "C66", "title": "Iterative pipelines lose nothing", "statement": "A completed run of an iterative pipeline writes one report per task (one per round, then the full fit, then the residual fit where there is one) into its own file, and report.txt contains every printed message in order.", "quantifier": "all lists of rounds, all task outcomes, all random choices", "why_tests_cant": "all executions", "anchors": ["pipeline/KaonCrossSectionIterativePipeline.py:KaonCrossSectionIterativePipeline.run", "pipeline/KaonFormFactorIterativePipeline.py:KaonFormFactorIterativePipeline.run", "pipeline/NucleonFormFactorIterativePipeline.py:NucleonFormFactorIterativePipeline.run", "pipeline/NucleonCrossSectionIterativePipeline.py:NucleonCrossSectionIterativePipeline.run"]}
{"id": "C67", "title": "Kaon models are sums of single-component models", "statement": "A built kaon model has, at every t, the same outcome (value or exception) as adding up the SingleComponentModel of every isoscalar resonance and adding (charged) or subtracting (neutral) those of every isovector resonance, the last coupling of each group being one half minus the others.", "quantifier": "all three kaon classes, all parameters for which they can be built with t_0 < t_in, all complex t, both charges", "why_tests_cant": "all parameters and points; each component is paired with its own coupling, mass and width", "anchors": ["ua_model/KaonUAModel.py:KaonUAModel.__call__", "ua_model/KaonUAModelB.py:KaonUAModelB.__call__", "ua_model/KaonUAModelSimplified.py:KaonUAModelSimplified.__call__", "ua_model/SingleComponentModel.py:SingleComponentModel.__call__"]}
{"id": "C68", "title": "A component has no zeros", "statement": "A resonance component never returns zero.", "quantifier": "all components built by either _build_component with 0 <= t_0 < t_in, all complex t", "why_tests_cant": "absence of a value over a continuum", "anchors": ["ua_model/ua_components/UAComponent.py:UAComponent.__call__"]}
{"id": "C69", "title": "Nucleon models at zero width are constrained VMD models", "statement": "With zero widths, both nucleon classes equal (F1s +- F1v) + k (F2s +- F2v), with k = t/(4M^2) for the electric and 1 for the magnetic form factor, where the four F are VMD models: F1s, F1v keep the free Dirac couplings and have sum of couplings 1/2 and sum of coupling*mass^2 zero; F2s, F2v keep the free Pauli couplings, have the sums (mu_p+mu_n-1)/2 and (mu_p-mu_n-1)/2, and the sums with mass^2 and mass^4 zero.", "quantifier": "all parameters with zero widths and distinct masses of the eliminated resonances, all t where the model returns a value, both switches, both classes", "why_tests_cant": "an identity of long rational expressions over all parameters", "anchors": ["ua_model/NucleonUAModel.py:NucleonUAModel.__call__", "ua_model/NucleonUAModelOld.py:NucleonUAModelOld.__call__"]}
{"id": "C70", "title": "Mass terms of the new nucleon model", "statement": "Every mass term the model uses is a strictly negative real number (so the cache test 'if cached_val' never mistakes a stored value for a missing one), depends only on the thresholds of its own contribution and on its own mass and width, and once a call has returned a value no later call changes the object.", "quantifier": "all built models, all histories of calls and switch changes, all t", "why_tests_cant": "all parameters and histories", "anchors": ["ua_model/NucleonUAModel.py:NucleonUAModel._get_mass_term", "ua_model/NucleonUAModel.py:NucleonUAModel._calculate_mass_term"]}
{"id": "C71", "title": "Residual oscillations task", "statement": "The set-up of the residual task succeeds exactly when the background cross sections can be computed, every point lies above the threshold with positive value and positive background, and some momentum is below 5. Then the data to be fitted are, in order and each with its own error, the points with momentum below 5, moved to the momentum of one particle in the rest frame of the other, with value (effective form factor of the data) - (effective form factor of the background). The background parameters keep their values and become fixed; a new object with free values 100, 2, 5, 0 is fitted to a exp(-b x) cos(c x + d), and a run ends finished with the chi squared at the optimum, or failed, without touching the background values.", "quantifier": "all reachable parameter objects, all lists of points of one kind with real t >= 0, all values and errors, masses > 0, alpha != 0, all fitting procedures", "why_tests_cant": "all data sets and all behaviours of the fitting library", "anchors": ["task/ResidualOscillationsTask.py:ResidualOscillationsTask._set_up", "task/ResidualOscillationsTask.py:ResidualOscillationsTask.map_ts_to_laboratory_system_momentum", "task/ResidualOscillationsTask.py:ResidualOscillationsTask.drop_large_momenta", "task/ResidualOscillationsTask.py:ResidualOscillationsTask.transform_to_effective_form_factor"]}
{"id": "C72", "title": "Deviations from a fit", "statement": "The table of deviations exists exactly when the cross section of every point can be computed and no error used is zero; it is as long as the shortest of the three input lists, and row i holds the i-th t, error and value, the cross section of that point alone, and |value - cross section| / error. Afterwards the parameters have their values and are all fixed; no other object and no file has changed.", "quantifier": "all reachable parameter objects, all lists of t, values and errors of any lengths, all constants", "why_tests_cant": "all list lengths and values; absence of side effects", "anchors": ["kaon_production/calculate_deviations.py:calculate_deviations_from_fit"]}
{"id": "C73", "title": "Single component cross section", "statement": "The flag of a point and its representation do not influence the result. At every positive t at or above the production threshold where the form factor can be evaluated, the result is the textbook scalar cross section of that single component: real, not negative, zero only at the threshold or where the form factor vanishes.", "quantifier": "all parameters, all lists of points", "why_tests_cant": "all lists and real parameters", "anchors": ["kaon_production/plot_single_component.py:make_function_cross_section"]}
{"id": "C74", "title": "Points in the panels of a figure", "statement": "Every point is drawn in exactly one panel, the one of its kind, in the order of the data, with its own value, error and fitted value. The cross section figure always has two panels; the form factor figures have a panel for each kind that occurs and fail without points. Too few values, errors or fitted values raise IndexError.", "quantifier": "all lists of points, values, errors and fitted values; all fitted functions", "why_tests_cant": "all interleavings of the two kinds of points", "anchors": ["plotting/plot_fit.py:plot_cs_fit_neutral_plus_charged", "plotting/plot_fit.py:plot_ff_fit_neutral_plus_charged", "plotting/plot_fit.py:plot_ff_fit_electric_plus_magnetic"]}
{"id": "C75", "title": "Reading data files", "statement": "A file is read exactly when each row has three entries and all are numbers; the result is the three columns in order. Otherwise the exception is that of the first bad row: ValueError for a wrong number of entries, else that of the conversion.", "quantifier": "all lists of rows, all conversions", "why_tests_cant": "all files", "anchors": ["kaon_production/data.py:read_data", "nucleon_production/data.py:read_data"]}
{"id": "C76", "title": "Report of fits", "statement": "The report lists each fit name (the first two colon-separated pieces of a line) once, with the value of its last line, sorted by the values as texts, ties in order of first appearance. It is made exactly when every line can be evaluated and no fit without chi squared stands beside another one (TypeError otherwise); a line with fewer than two colons makes it fail.", "quantifier": "all lists of lines, all evaluation functions", "why_tests_cant": "all files", "anchors": ["kaon_production/parser.py:report"]}
{"id": "C77", "title": "Best of several runs", "statement": "The results collected are the finished ones in order; the best fit is the first run with the smallest chi squared as text and is empty exactly when no run finished; the printed list consists of the first n of the finished runs sorted by that text, ties in order of the runs, beginning with the best fit.", "quantifier": "all lists of results", "why_tests_cant": "all sequences of results", "anchors": ["kaon_production/fit_ff_iterative_pipeline.py", "kaon_production/fit_ff_other_models.py", "kaon_production/fit_cs_iterative_pipeline_withneutralkaons_fixed.py", "kaon_production/fit_cs_iterative_pipeline_withneutralkaons_simplified.py", "kaon_production/fit_cs_pipeline_withneutralkaons_simplified.py", "nucleon_production/fit_cs_iterative_pipeline.py"]}
{"id": "C78", "title": "Alternate inverse maps", "statement": "Both alternative formulas for the map from t to W compared in the plotting script never fail and, except at t_0 (where both give 0), invert the map from W to t. Version 2 equals the model's map only on [t_0, t_in); at every other point except t_in it is minus the reciprocal of the model's value, so off the cut it lies outside the unit disk, on the wrong sheet. Version 3 has values in the upper half of the closed unit disk; it equals the model's map for Im t > 0 and on the real axis below t_in, minus it for Im t < 0, and minus its reciprocal on the real axis above t_in.", "quantifier": "all complex t, all 0 < t_0 < t_in", "why_tests_cant": "the whole complex plane and both sides of every branch cut", "anchors": ["plotting/plot_various_coordinate_inverse_maps.py:t_to_w_version2", "plotting/plot_various_coordinate_inverse_maps.py:t_to_w_version3"]}
{"id": "C79", "title": "The fit scripts start inside the bounds and their runs do not fail", "statement": "In each fit script the keyword arguments of make_initial_parameters are exactly those of the parameter class; for thresholds t_0 in [0, 0.54] the object holds exactly these values, fixed are exactly the declared constants, all values lie strictly inside the bounds the script fits with, and the form factor model accepts them. Perturbing by the script's sizes keeps this for all draws strictly between 0 and 1, whatever was fixed before (the nucleon and the simplified pipeline scripts fix parameters first; these keep their values); a draw of 0 puts t_in on t_0 in the form factor script. With the handpicked bounds the nucleon model accepts every object inside. A whole call of f in the iterative kaon scripts (their whole schedule and the final fit) can only raise ZeroDivisionError, and only if an inelastic threshold met in the fit equals the t of a data point; otherwise it completes and leaves values inside the bounds.", "quantifier": "all scripts with resonances, all draws, all thresholds, all data sets with positive t and nonzero errors, a charged point and more points than parameters, all fitting libraries and samplers staying inside their specification", "why_tests_cant": "all random draws and all fits over hundreds of rounds", "anchors": ["kaon_production/fit_ff_iterative_pipeline.py:make_initial_parameters", "kaon_production/fit_ff_iterative_pipeline.py", "kaon_production/fit_cs_iterative_pipeline_withneutralkaons_fixed.py:make_initial_parameters", "kaon_production/fit_cs_iterative_pipeline_withneutralkaons_fixed.py", "kaon_production/fit_cs_iterative_pipeline_withneutralkaons_simplified.py:make_initial_parameters", "kaon_production/fit_cs_iterative_pipeline_withneutralkaons_simplified.py", "kaon_production/fit_cs_pipeline_withneutralkaons_simplified.py:make_initial_parameters", "nucleon_production/fit_cs_iterative_pipeline.py:make_initial_parameters", "common/utils.py:perturb_model_parameters"]}
{"id": "C80", "title": "The fitted kaon functions are total inside the bounds", "statement": "For every kaon class with all values strictly inside the maximal bounds, evaluating form factors at real t >= 0 returns exactly when no t is one of the two inelastic thresholds held by the object (cross sections: and no t is 0); the only exception is ZeroDivisionError. The same holds for the function handed to the optimiser at all arguments strictly between the bounds handed to it, which keep the object inside the bounds; its own free values are such arguments.", "quantifier": "all reachable objects of the five kaon classes, all subsets of free parameters, all arguments inside the bounds, all lists of points", "why_tests_cant": "all points of the search region of the optimiser", "anchors": ["common/utils.py:function_form_factor", "common/utils.py:function_cross_section", "common/utils.py:make_partial_form_factor_for_parameters", "common/utils.py:make_partial_cross_section_for_parameters", "model_parameters/KaonParameters.py:KaonParameters.get_bounds_for_free_parameters"]}
{"id": "C81", "title": "A whole run of a kaon pipeline does not fail", "statement": "A kaon pipeline (plain or iterative) is run with its own task classes on charged and neutral points with positive t and nonzero errors, with a charged point and more points than parameters, from values strictly inside the bounds in use, and with a fitting library that stays strictly inside the bounds. Then the run can only raise ZeroDivisionError, and only if the fit meets an inelastic threshold equal to the t of a data point; if the library never proposes or returns such a value the run completes, and the final values are again strictly inside the bounds. Iterative runs need 1 <= k <= number of available names in each round.", "quantifier": "all kaon classes and reachable objects, both kinds of bounds, all data, all lists of tasks, all schedules, all fitting libraries and samplers satisfying the stated conditions, any number of rounds", "why_tests_cant": "all interactions of fitting library, random choices and code over runs of any length", "anchors": ["pipeline/Pipeline.py:Pipeline.run", "pipeline/KaonCrossSectionIterativePipeline.py:KaonCrossSectionIterativePipeline.run", "pipeline/KaonFormFactorIterativePipeline.py:KaonFormFactorIterativePipeline.run", "task/Task.py:Task.run"]}
{"id": "C82", "title": "The fitted nucleon functions are total inside the bounds", "statement": "For every nucleon parameter object strictly inside the handpicked bounds, evaluating form factors at real t >= 0 returns exactly when no t is one of the four inelastic thresholds held by the object (cross sections: no t is 0 or below 4 m^2); the only exception is ZeroDivisionError (below 4 m^2: ValueError). [False: two mass terms inside the bounds can coincide, and then no point at all can be evaluated. Proved with this and a nucleon mass of 0 as the only further causes, also for maximal bounds if the model accepts the object.]", "quantifier": "all reachable nucleon objects inside the bounds, all lists of points for both nucleons, electric and magnetic", "why_tests_cant": "all points of the search region of the optimiser", "anchors": ["common/utils.py:function_form_factor", "common/utils.py:function_cross_section", "ua_model/NucleonUAModel.py", "model_parameters/NucleonParameters.py:NucleonParameters.get_bounds_for_free_parameters"]}
{"id": "C83", "title": "A whole run of a nucleon pipeline raises only ZeroDivisionError", "statement": "A nucleon pipeline with the handpicked bounds is run with its own task classes (plain, iterative for form factors, or iterative for cross sections with the final fit of the residual oscillations) from values strictly inside the bounds, on more points than parameters, with nonzero errors, t >= 0 (cross sections: above the threshold; for the residual fit: strictly above, positive cross sections and a point of small momentum), and a fitting library that stays strictly inside the bounds. Then the run can only raise ZeroDivisionError, and if it completes the final values are again strictly inside the bounds. The same holds for a whole call of f in the nucleon fit script, from the perturbed start values to the residual fit.", "quantifier": "all reachable nucleon objects, all data, lists of tasks and schedules, all draws strictly between 0 and 1, all fitting libraries and samplers satisfying the stated conditions, any number of rounds", "why_tests_cant": "all interactions of fitting library, random choices and code over runs of any length", "anchors": ["pipeline/Pipeline.py:Pipeline.run", "pipeline/NucleonFormFactorIterativePipeline.py:NucleonFormFactorIterativePipeline.run", "pipeline/NucleonCrossSectionIterativePipeline.py:NucleonCrossSectionIterativePipeline.run", "nucleon_production/fit_cs_iterative_pipeline.py", "task/ResidualOscillationsTask.py"]}
{"id": "C84", "title": "The figures of the coordinate maps are total and show the maps on the right sheet", "statement": "plot_mapped_curves fails (AssertionError) exactly for lists of different lengths; otherwise the first curves, as many as there are colours, are drawn with their images in pairwise different colours and further curves are silently left out. plot_square_root pairs every point with its root of argument in [0, pi); plot_z_minus_its_reciprocal never fails for any number of angles. plot_w_to_t and plot_t_to_w raise ValueError for wrong branch points; otherwise no curve meets a singular point, every t on the figure of plot_t_to_w has its W in the closed left half disk and is mapped back to t, and every W of plot_w_to_t is mapped back to W (inner curves) or 1/W (outer curves). Equal branch points make plot_t_to_w raise ZeroDivisionError and plot_w_to_t draw a single point. The script comparing the inverse maps draws, for all three versions, a W which is mapped back to t.", "quantifier": "all branch points t_0 and t_in, all numbers of angles, all orders of all palettes with enough colours, all points of all curves", "why_tests_cant": "the branch points are real numbers and the claim is about every point of curves that depend on them", "anchors": ["plotting/plot_complex.py:plot_mapped_curves", "plotting/plot_complex.py:plot_square_root", "plotting/plot_complex.py:plot_z_minus_its_reciprocal", "plotting/plot_complex.py:plot_w_to_t", "plotting/plot_complex.py:plot_t_to_w", "plotting/plot_various_coordinate_inverse_maps.py:plot_t_to_w"]}
{"id": "C85", "title": "The fitted kaon functions depend continuously on the parameters", "statement": "For every kaon parameter object strictly inside the bounds and every family of such objects of the same class whose values tend to its values, the results of function_form_factor and function_cross_section at real t >= 0 (not an inelastic threshold; cross sections: not 0) tend to its results. [False: when the squared mass of a resonance reaches the inelastic threshold the component switches to the other formula and jumps, at every t except 0. Proved whenever no resonance sits exactly at the switch; the jump is proved for both builders at every t.]", "quantifier": "all reachable kaon objects inside the bounds, all families of objects (any filter), all lists of points", "why_tests_cant": "limits, and the measure-zero set of parameters where the formula changes", "anchors": ["common/utils.py:function_form_factor", "common/utils.py:function_cross_section", "ua_model/KaonUAModel.py:KaonUAModel._build_component", "ua_model/NucleonUAModel.py:NucleonUAModel._build_component", "ua_model/ua_components/UAComponentVariantA.py", "ua_model/ua_components/UAComponentVariantB.py"]}
{"id": "C86", "title": "The kaon form factor depends only on which resonances there are, not on how they are written down", "statement": "Two kaon parameter objects inside the bounds, of one class or of two different classes, with the same thresholds and, isospin by isospin, the same resonances (coupling, mass, width) of non-zero coupling under whatever labels give the same results, exceptions included, in function_form_factor and function_cross_section; the derived coupling of the last resonance of each isospin counts like the others. For the models themselves neither the order of the resonances nor the signs of masses and widths matter, at any complex t, including whether construction succeeds. KaonUAModelB and KaonUAModelSimplified are the special cases of KaonUAModel with two couplings zero. With everything else given the form factor is affine in the couplings.", "quantifier": "all pairs of reachable kaon objects inside the bounds, all constructor arguments with thresholds in order, all lists of points with t >= 0, all complex t, both charges", "why_tests_cant": "equality of functions over continuous parameter spaces and across three classes with separate texts", "anchors": ["ua_model/KaonUAModel.py:KaonUAModel", "ua_model/KaonUAModelB.py:KaonUAModelB", "ua_model/KaonUAModelSimplified.py:KaonUAModelSimplified", "common/utils.py:function_form_factor", "common/utils.py:function_cross_section"]}
{"id": "C87", "title": "The scripts that do one fit start inside the bounds, keep what they fix and print what they hold", "statement": "run_single_fit.py of the kaon and of the nucleon: each number of the literal list goes to the parameter meant; before the fit the object is strictly inside the maximal bounds, and exactly the listed parameters are free (kaon: inelastic thresholds, couplings and nine masses and widths; nucleon: inelastic thresholds and couplings). With a fitting library that never leaves the bounds the only exception of the whole script is ZeroDivisionError; the kaon script raises it only if an inelastic threshold may hit a t of the data, and otherwise completes. In the nucleon script no proposed values are rejected by the model, although the maximal bounds alone do not exclude that. What is printed are the values of the object in the order of the literal list, strictly inside the bounds, those not fitted unchanged, and the starting values if the fit failed.", "quantifier": "all data with t > 0 (kaon) or above the threshold (nucleon), non-zero errors and more points than parameters, all pion masses up to 0.24, all constants, all fitting procedures that stay inside the bounds", "why_tests_cant": "the fitting library may propose any values inside the bounds; a run shows one", "anchors": ["kaon_production/run_single_fit.py", "nucleon_production/run_single_fit.py", "task/Task.py:Task.run"]}
{"id": "C88", "title": "The background models cannot be fitted: fit_ff_other_models.py never returns a result", "statement": "The tasks for the ETGMR and the two-poles model ask for cross sections, which these models cannot give. A task that fits cross sections never finishes a fit on their parameters: if run returns at all, the library has given up, the report has status failed and no chi squared. The function f of kaon_production/fit_ff_other_models.py (perturbed starting values, KaonFormFactorPipeline with the model's task and ResidualOscillationsTask) therefore never returns. With data, a known model name and a directory that can be made the exception is IndexError, because the two-entry kaon points are read as nucleon points; if the library evaluates the function at all, no report has been written by then. An unknown model name gives TypeError before anything is done.", "quantifier": "all data, random numbers, names, states of the world, and fitting libraries (for the exact exception: libraries that keep to the number of parameters and raise only RuntimeError themselves)", "why_tests_cant": "one run shows one exception; that no data, seed or library behaviour leads to a result is a statement about all runs", "anchors": ["kaon_production/fit_ff_other_models.py", "task/ETGMRModelTask.py:ETGMRModelTask", "task/TwoPolesModelTask.py:TwoPolesModelTask", "pipeline/KaonFormFactorPipeline.py:KaonFormFactorPipeline._create_task", "common/utils.py:function_cross_section"]}
{"id": "C89", "title": "Values on the real axis are limits from above", "statement": "The form factors of the three kaon and two nucleon models at a real t (where data are) are the limits of the values at nearby points of the upper half plane, and the limits from the lower half plane are the complex conjugates; so the values jump across the axis exactly where they are not real. At an inelastic threshold, where the code raises ZeroDivisionError, the limits from above and from below exist nevertheless and are conjugate, provided no resonance of zero width sits there (W tends to i and to -i).", "quantifier": "all parameters the models accept with t_0 < t_in, both charges / nucleons / electric and magnetic, all real t >= 0, all ways of approaching them", "why_tests_cant": "the claim is a limit: it is about arbitrarily small distances from the axis, and a wrong branch of either square root can agree with the right one on any sample of points", "anchors": ["ua_model/functions.py:square_root", "ua_model/MapFromTtoW.py:MapFromTtoW.__call__", "ua_model/KaonUAModel.py:KaonUAModel.__call__", "ua_model/KaonUAModelB.py:KaonUAModelB.__call__", "ua_model/KaonUAModelSimplified.py:KaonUAModelSimplified.__call__", "ua_model/NucleonUAModel.py:NucleonUAModel.__call__", "ua_model/NucleonUAModelOld.py:NucleonUAModelOld.__call__"]}
{"id": "C90", "title": "Fall-off of the fitted functions at large energies", "statement": "For parameters strictly inside the maximal bounds the fitted functions have the fall-off that quark counting asks for. Kaons: beyond some energy every list of points can be evaluated, the form factors are at most C/t and the cross sections at most C/t^3. Nucleons, provided a single electric point can be evaluated: beyond some energy every list of points can be evaluated for both nucleons, the electric and magnetic form factors are at most C/t^2 and the cross sections at most C/t^5.", "quantifier": "all reachable parameter objects of the kaon classes and the nucleon class inside the bounds, all values of the constants, all lists of real points beyond the energy", "why_tests_cant": "the claim is about all energies without bound; any test stops at a largest energy, and cancellations between resonances that fail only slightly are invisible at data energies", "anchors": ["common/utils.py:function_form_factor", "common/utils.py:function_cross_section", "ua_model/KaonUAModel.py:KaonUAModel.__call__", "ua_model/NucleonUAModel.py:NucleonUAModel.__call__", "cross_section/ScalarMesonProductionTotalCrossSection.py", "cross_section/NucleonPairToElectronPositronTotalCrossSection.py"]}
{"id": "C91", "title": "The script that shows one result draws the values of its own literals and leaves them in place", "statement": "kaon_production/plot_fit.py: its literal list makes a KaonParametersB object that holds exactly those values, is free where declared and lies strictly inside the maximal bounds. For data above the threshold with positive values and away from the two inelastic thresholds, with a fitting library that keeps to the bounds and a plotting library that works, the printed numbers are the form factor f of the charged kaon at t = 8 and the textbook cross section with that f; the figure has one panel with all points in order of t and, as its curve, the form factor at each of them; at the end the object still holds the literals, all fixed. The only exception is ZeroDivisionError, and only if the form factor vanishes at a point. A point at an inelastic threshold raises ZeroDivisionError; an empty data file raises ValueError.", "quantifier": "all data lists, constants, plotting and fitting libraries as described, starting worlds", "why_tests_cant": "the data file, the constants and the library results are inputs; the exceptions occur only for particular points, which no sample of data files meets", "anchors": ["kaon_production/plot_fit.py", "kaon_production/plot_fit.py:prepare_data", "plotting/plot_fit.py:plot_ff_fit_neutral_plus_charged", "task/ResidualOscillationsTask.py", "model_parameters/KaonParametersB.py", "common/utils.py:make_partial_form_factor_for_parameters", "common/utils.py:make_partial_cross_section_for_parameters"]}
{"id": "C92", "title": "The script that shows one resonance draws the textbook cross section of it", "statement": "kaon_production/plot_single_component.py: the resonance of mass 0.78266 and width 0.00868 with the literal thresholds can be built, its form factor F is 1 at 0, is defined at every real t >= 0 except the inelastic threshold, where it raises ZeroDivisionError, and vanishes nowhere. For data at positive t at or above the production threshold and not at the inelastic one the figure has two panels, the charged and the neutral points, each in order of t; the curve in both is the textbook scalar cross section with F, real, not negative and zero only at the production threshold. A point at the inelastic threshold raises ZeroDivisionError, empty data ValueError.", "quantifier": "all data lists, all constants with alpha != 0 and hc_squared > 0", "why_tests_cant": "the data files and the constants are inputs; the exception occurs at a single value of t", "anchors": ["kaon_production/plot_single_component.py", "kaon_production/plot_single_component.py:make_function_cross_section", "kaon_production/plot_single_component.py:prepare_data", "plotting/plot_fit.py:plot_cs_fit_neutral_plus_charged", "ua_model/SingleComponentModel.py"]}
{"id": "C93", "title": "Whole models are analytic off their cuts, with poles of the first order at the resonance positions", "statement": "As a function of t, a kaon model (three classes, both charges) and a nucleon model (two classes, four switch settings) is complex differentiable at every point with Re t >= 0 off the cuts starting at its thresholds t_0, except at the resonance positions and their conjugates. A single component has there a pole of exactly the first order, with conjugate residues. A kaon model has at the position of a resonance that is alone there a residue that is zero exactly when the coupling of that resonance is zero; otherwise the values next to the position are unbounded. A nucleon model, although it multiplies up to three resonances, has at most a first-order pole at a point where no two resonances of the same isospin sit.", "quantifier": "all accepted arguments with t_0 < t_in, all t", "why_tests_cant": "differentiability and the order of a pole are limits; tests sample points", "anchors": ["ua_model/KaonUAModel.py:KaonUAModel", "ua_model/KaonUAModelB.py:KaonUAModelB", "ua_model/KaonUAModelSimplified.py:KaonUAModelSimplified", "ua_model/NucleonUAModel.py:NucleonUAModel", "ua_model/ua_components/UAComponentVariantA.py:UAComponentVariantA", "ua_model/ua_components/UAComponentVariantB.py:UAComponentVariantB"]}
{"id": "C94", "title": "The scripts on the data files and the configuration file shipped with them", "statement": "float gives the number a decimal numeral stands for and refuses other text with ValueError. In any file of sections, assignments, empty lines and comments the configuration reader finds the value of the first assignment to the option in the section, without blanks and comment, and raises an exception if there is none; configuration.ini yields the seven constants the scripts ask for. Each of the seven data files the scripts read can be read: number of rows, every t above the production threshold, every error positive, values positive (neutral files: not negative). The conversion script on charged_new_data2.csv yields charged_ff_2.csv to a relative accuracy of 1e-12. With these files: plot_single_component.py draws both panels with positive curves; calculate_deviations.py completes, with one row of deviations per neutral point; run_single_fit.py of the kaon completes if the optimiser keeps to the bounds and off the data points, the one of the nucleon can only end with ZeroDivisionError; fit_ff_other_models.py never prints a result; plot_fit.py completes, prints the form factor 0.1290835588 (nine decimals) at t = 8 and draws a curve that is positive at all 138 points.", "quantifier": "all configuration files of this shape; all starting states of the files and the heap, all behaviours of the optimiser and the plotting library named in the statement", "why_tests_cant": "the scripts are not covered by tests: they read absolute paths and start hours of fitting", "anchors": ["kaon_production/data.py:read_data", "nucleon_production/data.py:read_data", "configuration.ini", "data/charged_ff_2.csv", "data/charged_new_data2.csv", "data/charged_kaon.csv", "data/neutral_kaon.csv", "data/neutral_kaon_cropped_manually.csv", "data/charged_kaon_cropped_manually.csv", "data/proton_cs_extended.csv", "kaon_production/convert_cs_data_to_ff_data.py", "kaon_production/calculate_deviations.py", "kaon_production/run_single_fit.py", "nucleon_production/run_single_fit.py", "kaon_production/fit_ff_other_models.py", "kaon_production/plot_fit.py", "kaon_production/plot_single_component.py"]}
{"id": "C95", "title": "What the tasks of a pipeline do to its parameters", "statement": "In a completed run of an iterative pipeline every round frees exactly the requested number of parameters (the nucleon cross section pipeline: at most as many as there are), distinct ones that are not always fixed and, in the first rounds with fixed resonances, no masses and widths; it changes no other value; it starts from what the round before has left; its report has the parameters before and after and, when the fit finished, their reduced chi squared and sum of squares at all points, and what is logged as free is what was free. The last fit frees everything that is not always fixed (nucleon cross sections: without masses and widths when there were fewer rounds than those with fixed resonances), the residual fit keeps all values and leaves everything fixed. In a plain pipeline each task starts from what the one before has left, frees what its class says, and afterwards everything is released that is not always fixed. All this happens to the one object the pipeline was given; no other object changes; always-fixed parameters keep their values.", "quantifier": "all pipelines, lists of rounds, starting parameters, outcomes of the fits and random choices, all completed runs", "why_tests_cant": "the parameters change with every random choice and every outcome of the optimiser; the tests run no pipeline", "anchors": ["pipeline/Pipeline.py:Pipeline.run", "pipeline/KaonCrossSectionIterativePipeline.py:KaonCrossSectionIterativePipeline.run", "pipeline/KaonFormFactorIterativePipeline.py:KaonFormFactorIterativePipeline.run", "pipeline/NucleonFormFactorIterativePipeline.py:NucleonFormFactorIterativePipeline.run", "pipeline/NucleonCrossSectionIterativePipeline.py:NucleonCrossSectionIterativePipeline.run", "pipeline/NucleonCrossSectionIterativePipeline.py:NucleonCrossSectionIterativePipeline._randomly_freeze_parameters", "task/Task.py:Task.run"]}
{"id": "C96", "title": "What a pipeline reports is true of the parameters it reports", "statement": "After a completed run the chi squared in each report of a pipeline (the residual fit excepted) is the reduced chi squared, computed anew from the final parameters in the same report, at all points of the pipeline and with the number of free parameters of that fit; the values listed are those parameters in the order of the arguments of the model. The best fit is nothing, when no fit has finished, or has the parameters, the list of values and the chi squared of one of the reports, the first with the smallest text. For the scripts that fit kaon data: what f returns is nothing, or has as chi squared the sum over all charged and neutral points given to f of ((y - g(t))/error)^2 over the number of points minus the number of free parameters, where g is the function with the parameters returned.", "quantifier": "all pipelines, lists of rounds and tasks, starting parameters, data, outcomes of the fits and random choices, all completed runs; all values of the arguments of f", "why_tests_cant": "the reported numbers depend on the outcomes of the optimiser; the tests run no pipeline and no script", "anchors": ["pipeline/Pipeline.py:Pipeline.run", "pipeline/Pipeline.py:Pipeline", "pipeline/KaonCrossSectionIterativePipeline.py:KaonCrossSectionIterativePipeline.run", "pipeline/KaonFormFactorIterativePipeline.py:KaonFormFactorIterativePipeline.run", "pipeline/NucleonFormFactorIterativePipeline.py:NucleonFormFactorIterativePipeline.run", "pipeline/NucleonCrossSectionIterativePipeline.py:NucleonCrossSectionIterativePipeline.run", "task/Task.py:Task.run", "task/Task.py:Task._fit", "kaon_production/fit_ff_iterative_pipeline.py", "kaon_production/fit_cs_iterative_pipeline_withneutralkaons_fixed.py", "kaon_production/fit_cs_iterative_pipeline_withneutralkaons_simplified.py"]}
{"id": "C97", "title": "The scripts with several runs: what all runs together leave behind", "statement": "After a completed main loop of a script that calls f several times on kaon data, one call after the other or in other processes: each call has started from its own draws and has been documented in its own directory base/stem0, base/stem1, ... (report of every task in its own file, all messages in order in report.txt), where it still is at the end; no other file has changed and no other directory has been made. Each result is nothing or is true of the data (C96). The best fit printed is the first result with the smallest text, or the text for nothing; after it come the three results with the smallest texts. The printed lines are exactly the messages of each run, the results and these. The loop completes when the library and the starts avoid the t of the data and the directories can be made; this is applied to the three scripts with their own literals, configuration and data files. When the directories of the runs exist, the script stops with ValueError and has printed and changed nothing.", "quantifier": "all scripts of the kaon kinds, numbers of runs, draws, data, directories and stems without slash, file systems and outcomes of the fits; all completed loops; for the completion all draws in (0,1)", "why_tests_cant": "a loop takes many hours of fits; the tests run no script", "anchors": ["kaon_production/fit_ff_iterative_pipeline.py", "kaon_production/fit_cs_iterative_pipeline_withneutralkaons_fixed.py", "kaon_production/fit_cs_iterative_pipeline_withneutralkaons_simplified.py", "pipeline/Pipeline.py:Pipeline.run", "pipeline/Pipeline.py:Pipeline.__init__", "task/Task.py:Task.run"]}
{"id": "C98", "title": "Nucleon pipelines complete while the library stays where the model can be evaluated", "statement": "C83 allows a nucleon run to end in ZeroDivisionError, which C82 shows does happen. This is the only obstacle: let the starting values lie in a region of values for which the model can be evaluated at all points of the data, and let the fitting library ask for and return only values inside the bounds and in the region. Then Pipeline.run, the iterative run for form factors, the iterative run for cross sections with its residual fit, and a whole call of f in the nucleon script all complete, and the values of the object are again inside the bounds and in the region. For the residual fit the cross sections must be positive in the region. What a call of f in the script returns is then true of its data (part of C96).", "quantifier": "all regions, nucleon pipelines, data, worlds, starting objects inside the bounds and libraries that stay inside; all schedules with at least one parameter per round; for the script all draws in (0,1)", "why_tests_cant": "the region where evaluation divides by zero is thin, so a test fit completes by luck and says nothing of the others; the nucleon script is never run in the tests", "anchors": ["pipeline/Pipeline.py:Pipeline.run", "pipeline/NucleonFormFactorIterativePipeline.py", "pipeline/NucleonCrossSectionIterativePipeline.py", "task/NucleonCrossSectionTask.py", "nucleon_production/fit_cs_iterative_pipeline.py"]}
{"id": "C99", "title": "The nucleon script with several runs: what all runs together leave behind", "statement": "After a completed main loop of the nucleon script: each call has started from its own draws, with the resonances fixed before the perturbation, and is documented in its own directory base/stem0, base/stem1, ..., where it still is at the end: a file for the report of every round, of the full fit and of the residual fit, and report.txt with all messages up to the best fit in order and no room for those about the residual fit (compare C66). Each result is the best of the reports without that of the residual fit, and is nothing or true of the data (C96). No other file has changed and no other directory has been made. The printed lines are exactly the messages of each run, those about the residual fit included, and its result, then the best and the few best results. The loop completes if the starts lie in a region where the cross section can be evaluated and is positive at the data, and the library stays there (C98); if the library only stays inside the bounds, the only exception is ZeroDivisionError. When the directory of the first run exists, the script stops with ValueError and has printed and changed nothing. With the shipped configuration and data these are ten runs of 175 rounds, a full fit with fixed resonances and a residual fit.", "quantifier": "all numbers of runs, draws, constants, data, directories and stems without slash, file systems and outcomes of the fits; all completed loops; for the completion and the exceptions all draws in (0,1) and all libraries that stay inside the bounds (and the region)", "why_tests_cant": "a loop takes many hours of fits; the tests run no script", "anchors": ["nucleon_production/fit_cs_iterative_pipeline.py", "pipeline/NucleonCrossSectionIterativePipeline.py", "pipeline/Pipeline.py"]}
{"id": "C100", "title": "What a run that ends with an exception leaves behind", "statement": "If `run` of a pipeline ends with an exception, then some task number k did not end; the tasks 0..k-1 have been reported exactly as after a complete run (their files report_0.txt..report_{k-1}.txt hold their reports), report.txt has been extended by exactly the messages of these k tasks (and by nothing when k = 0), the messages of these tasks and at most 'Initializing' and 'Running' of task k have been printed, and no other file, no directory and no parameter object other than the pipeline's own has changed. In the iterative nucleon pipeline an exception in the residual task comes after the full fit and the best fit have been written.", "quantifier": "all pipelines, task lists, rounds, parameter objects, exceptions (from the fitting library, plotting, sampling, the model or the constructor of a task) and all initial states", "why_tests_cant": "The exception can come from anywhere (library, model, plotting, sampling) at any task; a test raises one at one place and looks at a few files", "anchors": ["pipeline/Pipeline.py:Pipeline.run", "pipeline/KaonCrossSectionIterativePipeline.py:KaonCrossSectionIterativePipeline.run", "pipeline/KaonFormFactorIterativePipeline.py:KaonFormFactorIterativePipeline.run", "pipeline/NucleonFormFactorIterativePipeline.py:NucleonFormFactorIterativePipeline.run", "pipeline/NucleonCrossSectionIterativePipeline.py:NucleonCrossSectionIterativePipeline.run", "task/Task.py:Task.run"]}
{"id": "C101", "title": "The exact text of report.txt", "statement": "After a completed run report.txt holds what it held before, then the text not yet written by the pipeline object, then the message 'Starting', for every task the three messages (initializing, running, report) in this order with an empty line between the tasks, and the best fit (in a block of its own after `run`, as the last line of the block of the full fit in the iterative pipelines), and nothing else; in the iterative nucleon pipeline nothing about the residual task is in it.", "quantifier": "all pipelines, task lists, rounds and initial states for which the run completes", "why_tests_cant": "The text depends on all tasks and on what was in the file before; a test compares one file", "anchors": ["pipeline/Pipeline.py:Pipeline.run", "pipeline/Pipeline.py:Pipeline._log", "pipeline/KaonCrossSectionIterativePipeline.py:KaonCrossSectionIterativePipeline.run", "pipeline/NucleonCrossSectionIterativePipeline.py:NucleonCrossSectionIterativePipeline.run"]}
{"id": "C102", "title": "The scripts with several runs when a call raises", "statement": "If a script with several runs ends with an exception: with calls one after the other (form factors, nucleons), the calls before the one that raised are complete runs with true results, each documented in its own directory; the call that raised was refused before its directory was made (its start or its data raised, the directory existed or could not be made) and has left nothing, or has left in its own new directory exactly what it had done; no later call was made, nothing else in the file system has changed, and no best fit is printed. With a pool of processes (kaon cross sections), all calls are made, each leaves what it did, and the script raises the exception of the first call that raised, after the results before it have been printed. An existing directory of one call has this effect.", "quantifier": "all numbers of calls, data, draws, constants, file systems, and all outcomes of the fitting library, for the three kaon scripts and the nucleon script", "why_tests_cant": "Which call raises, and where inside of it, depends on draws, library and file system; a test stages one case", "anchors": ["kaon_production/fit_ff_iterative_pipeline.py", "kaon_production/fit_cs_iterative_pipeline_withneutralkaons_fixed.py", "kaon_production/fit_cs_iterative_pipeline_withneutralkaons_simplified.py", "nucleon_production/fit_cs_iterative_pipeline.py", "pipeline/Pipeline.py:Pipeline.__init__"]}
{"id": "C103", "title": "Fitted parameters are NumPy numbers: same exceptions, same values", "statement": "The optimum of a fit consists of NumPy numbers, and dividing by zero raises only when both operands are Python numbers. For the kaon and nucleon classes this makes no difference: function_form_factor and function_cross_section raise the same exception or give the same numbers whichever values of the parameter object are NumPy numbers (the always-fixed nucleon mass excepted), and the numbers they give are all NumPy numbers if a coupling or magnetic moment is one, and all Python numbers otherwise; so, starting from a configuration, exactly if a coupling is free. For ETGMRModel and TwoPolesModel the numbers are the same as long as nothing is divided by zero, and with NumPy parameters a division by zero gives a number that is not finite where Python numbers raise ZeroDivisionError.", "quantifier": "all reachable parameter objects with any mixture of kinds, all lists of data points, all optima, all constants of the cross section", "why_tests_cant": "The kind of every intermediate result, and which divisions can still raise, is a property of all mixtures of fixed and free parameters and of divisors that vanish, which random inputs never hit", "anchors": ["common/utils.py:function_form_factor", "common/utils.py:function_cross_section", "common/utils.py:_get_ff_model", "task/Task.py:Task._fit", "ua_model/functions.py:square_root", "ua_model/MapFromTtoW.py", "ua_model/ua_components/UAComponent.py", "other_models/ETGMRModel.py"]}
{"id": "C104", "title": "The fitted nucleon functions depend continuously on the parameters, away from the thresholds", "statement": "Take a nucleon parameter object inside the bounds, none of whose resonances has its pole exactly above a threshold of its channel (mass^2 - width^2/4 differs from the t_0 and t_in of the Dirac and Pauli part of its isospin), and points t >= 0 at which function_form_factor or function_cross_section gives results. For every family of nucleon objects inside the bounds whose values tend to its values, almost all of them can be evaluated at these points and the results tend to its results. The condition on the poles cannot be dropped: there are objects with the pole of the rho at the inelastic threshold of the Pauli isovector part for which a form factor jumps.", "quantifier": "all reachable nucleon objects inside the bounds with poles off the thresholds, all families of objects (any filter), all lists of points, both fitted functions", "why_tests_cant": "limits over all directions in a space of 37 parameters, and a jump on a set of measure zero", "anchors": ["common/utils.py:function_form_factor", "common/utils.py:function_cross_section", "ua_model/NucleonUAModel.py:NucleonUAModel._build_component", "ua_model/ua_components/UAComponentVariantA.py", "ua_model/ua_components/UAComponentVariantB.py"]}
{"id": "C105", "title": "The kaon resonances can be read off the form factor", "statement": "Two kaon models, of one class or of two, with the same thresholds, whose charged and neutral form factors agree on some interval of real t in [0, t_0], have for either isospin the same sum of couplings at every (positive) mass and width; conversely these sums are all the values depend on. For parameter objects inside the bounds absolute values of the charged form factor suffice: if function_form_factor gives the same results for the charged kaon on some interval below the thresholds, the objects describe the same resonances (the converse of C86), provided no two of the resonances with a coupling in one object, and no isoscalar one of one object and isovector one of the other, agree in mass and width.", "quantifier": "all pairs of kaon argument tuples with proper equal thresholds, all intervals below t_0; all pairs of reachable kaon objects inside the bounds", "why_tests_cant": "a statement about all pairs of parameter sets and uncountably many t; it rests on analytic continuation to the resonance positions", "anchors": ["common/utils.py:function_form_factor", "ua_model/KaonUAModel.py", "ua_model/KaonUAModelB.py", "ua_model/KaonUAModelSimplified.py", "ua_model/ua_components/UAComponentVariantA.py", "ua_model/ua_components/UAComponentVariantB.py"]}
{"id": "C106", "title": "The nucleon form factors depend only on which resonances there are", "statement": "For both nucleon classes, both nucleons and both form factors: changing signs of masses and widths, permuting the labels omega, phi and phi prime together with their Dirac and Pauli couplings, exchanging omega double prime with phi double prime, or rho prime with rho double prime, changes neither whether the model can be constructed nor its value (or exception) at any complex t. At t = 4 m^2 the electric and magnetic form factors of a nucleon coincide. With nucleon mass, thresholds, masses and widths given, the form factors are affine in magnetic moments and couplings, and these do not influence where the model is defined.", "quantifier": "all argument tuples (with proper thresholds, except for the threshold relation), all complex t, both classes", "why_tests_cant": "a symmetry over real parameters and complex arguments; tests evaluate single parameter sets under one labelling", "anchors": ["ua_model/NucleonUAModel.py", "ua_model/NucleonUAModelOld.py"]}
{"id": "C107", "title": "The map from t to W takes the right branches on the real axis in spite of rounding", "statement": "Let every operation of square_root and MapFromTtoW round, in any arithmetic that is monotone, symmetric and exact where a result is an operand, and let a zero imaginary part carry either sign. For real t from t_0 up to t_in the result lies exactly on the imaginary axis between 0 and i; at t_in the call raises ZeroDivisionError; above t_in, and below t_0 as long as the rounding error of the first root is at most sqrt(t_in - t_0), the second root is taken in the closed first quadrant off the real axis and the call succeeds. The only failure elsewhere is that the computed square roots of t - t_0 and t_in - t_0 coincide, which raises ZeroDivisionError, and in double precision this does happen for t different from t_in. Double precision with rounding to nearest and signed zeros is such an arithmetic, apart from overflow and underflow; in exact arithmetic the float program is the modelled map.", "quantifier": "all arithmetics with the stated laws, all branch points t_0 < t_in, all real t, both signs of zero", "why_tests_cant": "the branch taken on the cut depends on the last bit and on the sign of zero; tests compare a few values up to a tolerance", "anchors": ["ua_model/functions.py:square_root", "ua_model/MapFromTtoW.py"]}
{"id": "C108", "title": "The fitted functions are convex in couplings and magnetic moments", "statement": "With masses, widths, thresholds and the nucleon mass of a kaon or nucleon object inside the maximal bounds kept, and couplings and magnetic moments moved along a line: if the fitted function can be evaluated at given points t >= 0 for one object of the line, it can be evaluated for all. Every form factor value is a convex function along the line. Every cross section value is a quadratic function along the whole line with a non-negative leading coefficient that is the same for all objects of the line.", "quantifier": "all reachable objects of the three kaon classes and of the nucleon class inside the bounds, all changes of couplings and magnetic moments, all lists of points, all masses and constants of the cross section", "why_tests_cant": "convexity is a statement about all triples of parameter vectors in up to 17 dimensions; tests evaluate the model at single vectors", "anchors": ["common/utils.py:function_form_factor", "common/utils.py:function_cross_section", "cross_section/ScalarMesonProductionTotalCrossSection.py", "cross_section/NucleonPairToElectronPositronTotalCrossSection.py"]}
{"id": "C109", "title": "The results do not depend on the unit of energy", "statement": "Express every parameter in units of energy k times smaller, for any k > 0: masses and widths times k, thresholds times k^2, couplings and magnetic moments unchanged, and likewise t times k^2 in the data points and the mass of the product particle times k. Then function_form_factor has exactly the same outcome (same numbers or same exception) and function_cross_section the same outcome with the numbers divided by k^2. The single-component model and the vector-meson-dominance model have the same invariance. The maximal bounds of the counterpart are the maximal bounds in the new units (or the same exception); the handpicked bounds of masses and widths are the same numbers whatever the units, so they hold for values in GeV only.", "quantifier": "all reachable objects of all parameter classes (kaon, nucleon, background, oscillation), all k > 0, all lists of data points in any form with complex t, all masses and constants", "why_tests_cant": "a comparison with a dimensionful constant or a missing square shows only for parameters in other units, which no test uses", "anchors": ["common/utils.py:function_form_factor", "common/utils.py:function_cross_section", "ua_model/MapFromTtoW.py", "ua_model/NucleonUAModel.py", "ua_model/KaonUAModel.py", "ua_model/KaonUAModelB.py", "ua_model/KaonUAModelSimplified.py", "ua_model/SingleComponentModel.py", "other_models/VMDModel.py", "other_models/ETGMRModel.py", "other_models/TwoPolesModel.py", "model_parameters/KaonParameters.py:get_model_parameters_bounds_maximal", "model_parameters/NucleonParameters.py:get_model_parameters_bounds_maximal"]}
{"id": "C110", "title": "A fit of the couplings alone has a best solution", "statement": "When the free parameters of a kaon or nucleon object inside the maximal bounds are couplings and the fitted function can be evaluated at the starting values, the function handed to curve_fit can be evaluated for every vector of free values, and for any data with positive errors there is a vector for which the weighted sum of squared deviations is least. Both kinds of bounds of the free parameters are infinite, so they do not exclude it.", "quantifier": "all reachable kaon and nucleon objects inside the maximal bounds with only couplings free (any number, also none), form factors and cross sections with any constants, all lists of points t >= 0, all data and positive errors, all vectors of free values", "why_tests_cant": "an optimiser returns some local minimum or gives up; that a least value exists at all is a statement about infinitely many vectors", "anchors": ["common/utils.py:make_partial_form_factor_for_parameters", "common/utils.py:make_partial_cross_section_for_parameters", "task/Task.py:_fit", "model_parameters/ModelParameters.py:update_free_values", "model_parameters/KaonParameters.py:get_bounds_for_free_parameters"]}
{"id": "C111", "title": "A fit of masses and widths between the handpicked bounds has a best solution when no resonance can change its variant", "statement": "When the free parameters of a kaon or nucleon object inside the maximal bounds are masses and widths and its thresholds t_0 are at most 0.54, the handpicked bounds of the free parameters are finite with the lower ones not above the upper ones. If no choice between these bounds puts a resonance at the change of its variant (for nucleons: its pole exactly above a threshold of its channel, and the function can be evaluated between the bounds), the function handed to curve_fit can be evaluated for every choice between the bounds and for one choice the weighted sum of squared deviations from the data is least.", "quantifier": "all reachable kaon and nucleon objects inside the maximal bounds with only masses and widths free (any number), form factors and cross sections with any constants, all lists of points t >= 0 off the inelastic thresholds, all data and errors, all vectors between the bounds", "why_tests_cant": "an optimiser returns some local minimum or gives up; that a least value exists is a statement about infinitely many vectors, and it rests on continuity (C85, C104), which fails where a resonance changes its variant", "anchors": ["common/utils.py:make_partial_form_factor_for_parameters", "common/utils.py:make_partial_cross_section_for_parameters", "task/Task.py:_fit", "model_parameters/ModelParameters.py:update_free_values", "model_parameters/KaonParameters.py:get_model_parameters_bounds_handpicked", "model_parameters/NucleonParameters.py:get_model_parameters_bounds_handpicked"]}
{"id": "C112", "title": "No completed run ends with a larger weighted sum of squares than it started with, if no single fit does", "statement": "If curve_fit never returns values with a larger weighted sum of squared deviations than its starting values and the fitted function can be evaluated with the parameters a pipeline is given, then after any completed run it can be evaluated with the parameters left behind, and their weighted sum of squares over all points of the pipeline is not larger. This holds for the iterative pipelines for kaon cross sections, nucleon form factors and nucleon cross sections (whose last task, the fit of the residual oscillations, keeps the values), and for plain pipelines whose tasks all fit the same function to all points; for a plain pipeline whose tasks all fit kaon form factors to the charged points only, it holds of the sum over the charged points. The iterative pipeline for kaon form factors is an exception, because its last task fits the charged points only: its rounds do not make the sum over all points larger, and its last task does not make the sum over the charged points larger, but there are a library of this kind, a starting object inside the maximal bounds, data with positive errors and a completed run of that pipeline after which the weighted sum of squares over all points is larger than before. When all its points are charged it does not get worse either. In particular, when the data are exactly the values at the starting parameters and no error is 0, the iterative pipelines for kaon cross sections, nucleon form factors and nucleon cross sections end with parameters that reproduce the data exactly.", "quantifier": "all fitting libraries that are never worse than their start (failing fits included), all pipelines of these kinds, all numbers of rounds and of free parameters, all samples, all starting objects, data and errors; induction over the tasks", "why_tests_cant": "chaining is a property of the state passed between tasks: a run in which a task starts from a stale or copied object, or in which a failed fit leaves changed values, can look fine in any sampled run because an optimiser usually recovers", "anchors": ["pipeline/Pipeline.py:run", "pipeline/KaonCrossSectionIterativePipeline.py:run", "pipeline/KaonFormFactorIterativePipeline.py:run", "pipeline/NucleonFormFactorIterativePipeline.py:run", "pipeline/NucleonCrossSectionIterativePipeline.py:run", "task/Task.py:run", "task/Task.py:_fit", "task/Task.py:_set_up"]}
