import Verif.Model.Pipelines
import Verif.Model.OtherModels
import Verif.Model.CrossSections

/-!
# The functions of the scripts in `/repo/kaon_production`, `/repo/nucleon_production` and `/repo/plotting`
-/

namespace UA

open Complex

/-! ### `kaon_production/calculate_deviations.py` -/

/-- `zip(a, b, c, d)`: as long as the shortest. -/
def zip4 {α β γ δ : Type} (a : List α) (b : List β) (c : List γ) (d : List δ) : List (α × β × γ × δ) := a.zip (b.zip (c.zip d))

/-- `calculate_deviations_from_fit`, `kaon_production/calculate_deviations.py:9-26`, called with the object `parameters` refers to. -/
noncomputable def calculateDeviationsFromFit (parameters : ℕ) (ts cross_section_values errors : List ℝ) (charged_kaons : Bool)
    (kaon_mass alpha hc_squared : ℝ) : PyM World (List (ℝ × ℝ × ℝ × ℝ × ℝ)) := do
  let data := ts.map fun t : ℝ => Datapoint.kaon (t : ℂ) charged_kaons
  mutateParams parameters fun p => (.ok (), p.fixAllParameters)
  let f ← makePartialIn (.crossSection kaon_mass alpha hc_squared) parameters
  let fit ← callPartialIn f data []
  PyM.lift ((zip4 ts errors cross_section_values fit).mapM fun (t, error, cs, fit_val) => do
    let deviation ← pyDivR |cs - fit_val| error
    return (t, error, cs, fit_val, deviation))

/-! ### `kaon_production/plot_single_component.py` -/

/-- The loop at `kaon_production/plot_single_component.py:27-35`. Assigning `charged_variant` to the form factor creates an attribute
that `SingleComponentModel.__call__` does not read; the reads of `datapoint[1]` and `datapoint[0]` may raise. -/
noncomputable def singleComponentLoop (cs : ScalarCS) (ff : ℂ → Except PyErr ℂ) : List Datapoint → Except PyErr (List ℂ)
  | [] => .ok []
  | .kaon t _ :: ts => do
    let y ← cs.call ff t
    let results ← singleComponentLoop cs ff ts
    return y :: results
  | datapoint :: ts => do
    let _ ← datapoint.index 1
    let t ← datapoint.index 0
    let y ← cs.call ff t
    let results ← singleComponentLoop cs ff ts
    return y :: results

/-- `make_function_cross_section(...)(ts)`, `kaon_production/plot_single_component.py:10-36`: making the function and calling it.
The constants pass through a `ConfigParser` as text, which is the identity on floats. -/
noncomputable def singleComponentCrossSection (k_meson_mass alpha hc_squared a mass decay_rate t_0 t_in : ℝ) (ts : List Datapoint) :
    Except PyErr (List ℂ) := do
  let ff_model ← SingleComponentModel.init t_0 t_in a mass decay_rate
  singleComponentLoop (ScalarCS.init k_meson_mass alpha hc_squared) ff_model.call ts

/-! ### `nucleon_production/run_single_fit.py` -/

/-- `prepare_data`, `nucleon_production/run_single_fit.py:19-32`, unpacked into three as at `:59-62`. -/
noncomputable def prepareNucleonSingleFit (ts_proton css_proton errors_proton ts_neutron css_neutron errors_neutron : List ℝ) :
    Except PyErr (List Datapoint × List ℝ × List ℝ) :=
  let ts := ts_proton.map fun t : ℝ => Datapoint.nucleon (t : ℂ) true true
  let cross_sections := css_proton
  let errors := errors_proton
  let ts := ts ++ ts_neutron.map fun t : ℝ => Datapoint.nucleon (t : ℂ) false true
  let cross_sections := cross_sections ++ css_neutron
  let errors := errors ++ errors_neutron
  unzip3 (sortByT (zip3 ts cross_sections errors))

/-! ### `read_data` -/

/-- The loop of `read_data`, `kaon_production/data.py:20-23` and `nucleon_production/data.py:20-23`, over the rows `csv.reader` yields;
`float` is the conversion of a text. A row that has not three entries cannot be unpacked. -/
noncomputable def readDataLoop (float : String → Except PyErr ℝ) :
    List (List String) → List ℝ × List ℝ × List ℝ → Except PyErr (List ℝ × List ℝ × List ℝ)
  | [], acc => .ok acc
  | row :: rows, (xs, ys, errs) =>
    match row with
    | [x, y, err] => do
      let x ← float x
      let y ← float y
      let err ← float err
      readDataLoop float rows (xs ++ [x], ys ++ [y], errs ++ [err])
    | _ => .error .valueError

/-- `read_data`, `kaon_production/data.py:12-25` and `nucleon_production/data.py:12-25`, on the rows of the file. -/
noncomputable def readData (float : String → Except PyErr ℝ) (rows : List (List String)) : Except PyErr (List ℝ × List ℝ × List ℝ) :=
  readDataLoop float rows ([], [], [])

/-! ### `kaon_production/parser.py` -/

/-- `s.split(c)` for a single character. -/
def pySplit (c : Char) : List Char → List (List Char)
  | [] => [[]]
  | a :: s =>
    if a = c then [] :: pySplit c s
    else
      match pySplit c s with
      | [] => [[a]]
      | part :: parts => (a :: part) :: parts

/-- `c.join(parts)` for a single character. -/
def pyJoin (c : Char) : List (List Char) → List Char
  | [] => []
  | [part] => part
  | part :: parts => part ++ c :: pyJoin c parts

/-- `s.strip(' \n')`. -/
def pyStrip (s : List Char) : List Char :=
  let blank : Char → Bool := fun a => a == ' ' || a == '\n'
  ((s.dropWhile blank).reverse.dropWhile blank).reverse

/-- One round of the loop at `kaon_production/parser.py:7-11`. `eval` gives the entry `chi_squared` of the dictionary the text denotes
(a text or `None`); evaluating, or a missing entry (read at `:13`), may raise. Dictionaries keep the position of a key that is
assigned again. -/
def reportLine (eval : String → Except PyErr (Option String)) (results : List (String × Option String)) (line : String) :
    Except PyErr (List (String × Option String)) := do
  let parts := pySplit ':' line.toList
  let name := String.ofList (pyJoin ':' (parts.take 2))
  let data := String.ofList (pyStrip (pyJoin ':' (parts.drop 2)))
  let value ← eval data
  return dictInsert results name value

/-- `sorted(chi_data, key=lambda p: p[1])`, `kaon_production/parser.py:14`. Comparing `None` with anything raises `TypeError`, and a list
of at least two entries is not sorted without comparing every one of them. -/
def sortChi (l : List (String × Option String)) : Except PyErr (List (String × Option String)) :=
  if 2 ≤ l.length ∧ l.any (·.2.isNone) then .error .typeError
  else .ok (l.mergeSort fun a b => decide (a.2.getD "" ≤ b.2.getD ""))

/-- `report`, `kaon_production/parser.py:4-17`, on the lines of the file. An entry without `chi_squared` is reported when the line is
evaluated instead of after the loop, so which of several errors is raised may differ. -/
def parserReport (eval : String → Except PyErr (Option String)) (lines : List String) : Except PyErr (List (String × Option String)) := do
  let results ← lines.foldlM (reportLine eval) []
  sortChi results

/-! ### The best of several runs -/

/-- One round of the loop over the results of the runs: `kaon_production/fit_ff_iterative_pipeline.py:76-79`,
`kaon_production/fit_ff_other_models.py:76-79`, `nucleon_production/fit_cs_iterative_pipeline.py:109-112`; with the disjunction written as
`if ... elif` in `kaon_production/fit_cs_iterative_pipeline_withneutralkaons_fixed.py:97-102`,
`kaon_production/fit_cs_iterative_pipeline_withneutralkaons_simplified.py:88-93` and
`kaon_production/fit_cs_pipeline_withneutralkaons_simplified.py:104-109`. What the pipelines return is a dictionary that is never empty. -/
def bestOfStep (state : List BestFit × BestFit) (result : BestFit) : List BestFit × BestFit :=
  let (final_results, best_fit) := state
  match result.chi_squared with
  | none => (final_results, best_fit)
  | some chi =>
    let final_results := final_results ++ [result]
    match best_fit.chi_squared with
    | none => (final_results, result)
    | some best => if chi < best then (final_results, result) else (final_results, best_fit)

/-- The loop from the initial `best_fit`, whose entries are all `None`, e.g. `kaon_production/fit_ff_iterative_pipeline.py:71-79`. -/
def bestOf (results : List BestFit) : List BestFit × BestFit :=
  results.foldl bestOfStep ([], ⟨none, none, none, none, none, none⟩)

/-- `sorted(final_results, key=lambda fr: fr['chi_squared'])[:n]`, e.g. `kaon_production/fit_ff_iterative_pipeline.py:82`, where only
results with a `chi_squared` have been collected. -/
def bestFew (n : ℕ) (final_results : List BestFit) : List BestFit :=
  (final_results.mergeSort fun a b => decide (a.chi_squared.getD "" ≤ b.chi_squared.getD "")).take n

/-! ### `plotting/plot_fit.py` -/

/-- The four lists drawn in one panel. -/
structure Columns where
  ts : List ℂ
  ys : List ℝ
  errors : List ℝ
  fit : List ℝ

/-- `l[i]`. -/
def pyListIndex {α : Type} (l : List α) (i : ℕ) : Except PyErr α :=
  match l[i]? with
  | some a => .ok a
  | none => .error .indexError

/-- The four `append`s, e.g. `plotting/plot_fit.py:61-64`. -/
def Columns.append (c : Columns) (t : ℂ) (y error fit : ℝ) : Columns :=
  ⟨c.ts ++ [t], c.ys ++ [y], c.errors ++ [error], c.fit ++ [fit]⟩

/-- The loops at `plotting/plot_fit.py:58-69`, `:108-119` (the flag is `is_charged`) and `:200-211` (`electric`) over the indices
`range(len(ts))`; first the columns of the points with the flag set. -/
def splitLoop (flag : Datapoint → Except PyErr Bool) (attrT : Datapoint → Except PyErr ℂ) (ts : List Datapoint) (ys errors fit : List ℝ) :
    List ℕ → Columns × Columns → Except PyErr (Columns × Columns)
  | [], acc => .ok acc
  | i :: is, (yes, no) => do
    let datapoint ← pyListIndex ts i
    let set ← flag datapoint
    let t ← attrT datapoint
    let y ← pyListIndex ys i
    let error ← pyListIndex errors i
    let g ← pyListIndex fit i
    splitLoop flag attrT ts ys errors fit is (if set then (yes.append t y error g, no) else (yes, no.append t y error g))

/-- `datapoint.is_charged`. -/
def Datapoint.attrIsCharged : Datapoint → Except PyErr Bool
  | .kaon _ c => .ok c
  | _ => .error .attributeError

/-- `datapoint.electric`. -/
def Datapoint.attrElectric : Datapoint → Except PyErr Bool
  | .nucleon _ _ e => .ok e
  | _ => .error .attributeError

/-- One panel of a figure. -/
structure Panel where
  title : String
  columns : Columns

/-- `plot_cs_fit_neutral_plus_charged`, `plotting/plot_fit.py:46-93`: the panels from top to bottom. Labels, scales, showing and
saving are not modelled. `f` is the function called at `:48` with the values `pars`. -/
def plotCSNeutralPlusCharged {σ : Type} (ts : List Datapoint) (css errors : List ℝ) (f : List Datapoint → PyM σ (List ℝ)) (title : String) :
    PyM σ (List Panel) := do
  let fit_css ← f ts
  let (charged, neutral) ← PyM.lift
    (splitLoop Datapoint.attrIsCharged Datapoint.attrT ts css errors fit_css (List.range ts.length) (⟨[], [], [], []⟩, ⟨[], [], [], []⟩))
  return [⟨title ++ ": Charged", charged⟩, ⟨title ++ ": Neutral", neutral⟩]

/-- The panels at `plotting/plot_fit.py:121-151` and `:213-243`: as many axes as there are non-empty halves, taken from the end of the
list of axes. `plt.subplots(0, 1)` raises `ValueError`. From top to bottom. -/
def panelsFor (titles : String × String) (columns : Columns × Columns) : Except PyErr (List Panel) :=
  let first := if columns.1.ts.isEmpty then [] else [Panel.mk titles.1 columns.1]
  let second := if columns.2.ts.isEmpty then [] else [Panel.mk titles.2 columns.2]
  if (first ++ second).isEmpty then .error .valueError else .ok (first ++ second).reverse

/-- `plot_ff_fit_neutral_plus_charged`, `plotting/plot_fit.py:96-157`. -/
def plotFFNeutralPlusCharged {σ : Type} (ts : List Datapoint) (ffs errors : List ℝ) (f : List Datapoint → PyM σ (List ℝ)) (title : String) :
    PyM σ (List Panel) := do
  let fit_ffs ← f ts
  let columns ← PyM.lift
    (splitLoop Datapoint.attrIsCharged Datapoint.attrT ts ffs errors fit_ffs (List.range ts.length) (⟨[], [], [], []⟩, ⟨[], [], [], []⟩))
  PyM.lift (panelsFor (title ++ ": Charged", title ++ ": Neutral") columns)

/-- `plot_ff_fit_electric_plus_magnetic`, `plotting/plot_fit.py:188-249`. -/
def plotFFElectricPlusMagnetic {σ : Type} (ts : List Datapoint) (ffs errors : List ℝ) (f : List Datapoint → PyM σ (List ℝ)) (title : String) :
    PyM σ (List Panel) := do
  let fit_ffs ← f ts
  let columns ← PyM.lift
    (splitLoop Datapoint.attrElectric Datapoint.attrT ts ffs errors fit_ffs (List.range ts.length) (⟨[], [], [], []⟩, ⟨[], [], [], []⟩))
  PyM.lift (panelsFor (title ++ ": Electric FF", title ++ ": Magnetic FF") columns)

end UA
