import Verif.Model.Utils

/-!
# The surroundings of tasks and pipelines

Parameter objects by reference, standard output, the file system, and what is not computed by this code: the fitting library, the
random number generator, plotting, and the conversion of values to text.
-/

namespace UA

/-- A computation with state that may raise; what was changed before the exception stays changed. -/
def PyM (σ α : Type) : Type := σ → Except PyErr α × σ

namespace PyM

variable {σ α β : Type}

/-- Sequencing. -/
def bind (x : PyM σ α) (f : α → PyM σ β) : PyM σ β := fun s =>
  match x s with
  | (.ok a, s) => f a s
  | (.error e, s) => (.error e, s)

instance : Monad (PyM σ) where
  pure a := fun s => (.ok a, s)
  bind := PyM.bind

/-- `raise`. -/
def raise (e : PyErr) : PyM σ α := fun s => (.error e, s)

/-- A computation without state. -/
def lift (x : Except PyErr α) : PyM σ α := fun s => (x, s)

/-- Reading the state. -/
def get (f : σ → α) : PyM σ α := fun s => (.ok (f s), s)

/-- Changing the state. -/
def modify (f : σ → σ) : PyM σ Unit := fun s => (.ok (), f s)

end PyM

/-- Directories and files (path to contents). -/
structure FS where
  dirs : String → Bool
  files : String → Option String

/-- The state shared by all objects: the parameter objects (a position is a reference), the lines printed so far, the file
system, and how often the fitting library, the plotting functions and `random.sample` have been called. -/
structure World where
  heap : Heap
  stdout : List String
  fs : FS
  fits : ℕ
  plots : ℕ
  samples : ℕ

/-! ### Parameter objects by reference -/

/-- Reading an object. References are never dangling in Python. -/
def readParams (ref : ℕ) : PyM World (ModelParameters ℝ) := fun w =>
  match w.heap[ref]? with
  | some p => (.ok p, w)
  | none => (.error .exception, w)

/-- Calling a mutating method on an object. -/
def mutateParams (ref : ℕ) (method : ModelParameters ℝ → Mutation ℝ) : PyM World Unit := fun w =>
  match w.heap[ref]? with
  | none => (.error .exception, w)
  | some p => ((method p).1, { w with heap := w.heap.set ref (method p).2 })

/-- A new object. -/
def newParams (p : ModelParameters ℝ) : PyM World ℕ := fun w => (.ok w.heap.length, { w with heap := w.heap ++ [p] })

/-- `make_partial_form_factor_for_parameters` or `make_partial_cross_section_for_parameters` on the object `ref` refers to. -/
def makePartialIn (kind : PartialKind) (ref : ℕ) : PyM World PartialF := fun w =>
  match makePartial kind w.heap ref with
  | .ok (f, heap) => (.ok f, { w with heap := heap })
  | .error e => (.error e, w)

/-- Calling such a function. -/
noncomputable def callPartialIn (f : PartialF) (ts : List Datapoint) (args : List ℝ) : PyM World (List ℝ) := fun w =>
  ((f.call w.heap ts args).1, { w with heap := (f.call w.heap ts args).2 })

/-! ### The fitting library -/

/-- A covariance matrix; `⊤` is `np.inf` (returned when it cannot be estimated). -/
abbrev Cov := List (List (WithTop ℝ))

/-- What `curve_fit` is given (`task/Task.py:57-66`): the points as an array of rows, the values, the starting values, the errors
and the bounds. -/
structure FitProblem where
  xdata : List Datapoint
  ydata : List ℝ
  p0 : List ℝ
  sigma : List ℝ
  bounds : List (WithBot ℝ) × List (WithTop ℝ)

/-- An arbitrary terminating fitting procedure: it evaluates the function for some values of the free parameters, going on with the
result, until it returns optimum and covariance matrix or raises (exception and message). An exception raised by the function
ends the procedure. -/
inductive FitProc
  | done (r : Except (PyErr × String) (List ℝ × Cov))
  | ask (args : List ℝ) (next : List ℝ → FitProc)

/-- Running the procedure on a function. -/
def FitProc.run (f : List ℝ → PyM World (List ℝ)) : FitProc → World → Except (PyErr × String) (List ℝ × Cov) × World
  | .done r, w => (r, w)
  | .ask args next, w =>
    match f args w with
    | (.ok ys, w) => (next ys).run f w
    | (.error e, w) => (.error (e, ""), w)

/-! ### Reports -/

/-- The dictionary `Task.report`, `task/Task.py:33-44`. -/
structure Report where
  name : String
  initial_parameters : List (Parameter ℝ)
  final_parameters : Option (List (Parameter ℝ))
  r2 : Option String
  chi_squared : Option String
  covariance_matrix : Option Cov
  parameter_errors : Option (List (WithTop ℝ))
  status : String
  error_message : Option String
  parameter_list : List ℝ

/-- The dictionary `Pipeline._best_fit`, `pipeline/Pipeline.py:31` and `:80-87`. -/
structure BestFit where
  chi_squared : Option String
  name : Option String
  parameters : Option (List (Parameter ℝ))
  parameters_list : Option (List ℝ)
  covariance_matrix : Option Cov
  parameter_errors : Option (List (WithTop ℝ))

/-! ### What the code does not determine -/

/-- A float with the three values that are not numbers. Only the division of NumPy numbers makes them here: Python's own division by zero
raises an exception. -/
inductive PyFloat
  | finite (x : ℝ)
  | inf
  | negInf
  | nan

instance : Coe ℝ PyFloat := ⟨.finite⟩

/-- The comparison `<` of floats; everything is false for `nan`. -/
def PyFloat.Lt : PyFloat → PyFloat → Prop
  | .finite x, .finite y => x < y
  | .finite _, .inf | .negInf, .finite _ | .negInf, .inf => True
  | _, _ => False

instance : LT PyFloat := ⟨PyFloat.Lt⟩

/-- Addition of NumPy numbers. -/
noncomputable def PyFloat.add : PyFloat → PyFloat → PyFloat
  | .finite x, .finite y => .finite (x + y)
  | .finite _, z => z
  | z, .finite _ => z
  | .inf, .inf => .inf
  | .negInf, .negInf => .negInf
  | _, _ => .nan

/-- Division of a NumPy number by a finite one. Division by zero is a warning, not an exception. -/
noncomputable def PyFloat.divBy (d : ℝ) : PyFloat → PyFloat
  | .finite x => if d ≠ 0 then .finite (x / d) else if x = 0 then .nan else if 0 < x then .inf else .negInf
  | .inf => if d < 0 then .negInf else .inf
  | .negInf => if d < 0 then .inf else .negInf
  | .nan => .nan

/-- Oracles. `curve_fit k`, `plot k` and `sample k` are the `k`-th calls; `numpy k` says whether the values of the fitted function at the
`k`-th optimum are NumPy numbers (the optimum is an array of NumPy numbers, but not every value computed from it is one, see C103); the
other fields are conversions to text. -/
structure Env where
  curve_fit : ℕ → FitProblem → FitProc
  plot : ℕ → Except PyErr Unit
  sample : ℕ → List String → ℕ → List String
  strFloat : PyFloat → String
  strParameters : List (Parameter ℝ) → String
  strNames : List String → String
  strReport : Report → String
  strBestFit : BestFit → String
  mkdirFails : String → Bool
  numpy : ℕ → Bool

/-- `random.sample(names, k=k)`: `ValueError` when `k` is negative or larger than the number of names. -/
def Env.randomSample (env : Env) (names : List String) (k : ℤ) : PyM World (List String) := fun w =>
  if k < 0 ∨ (names.length : ℤ) < k then (.error .valueError, w)
  else (.ok (env.sample w.samples names k.toNat), { w with samples := w.samples + 1 })

/-! ### Files -/

/-- `os.path.join(a, b)` on POSIX. -/
def pathJoin (a b : String) : String :=
  if "/".toList <+: b.toList then b
  else if a = "" ∨ "/".toList <:+ a.toList then a ++ b
  else a ++ "/" ++ b

/-- `os.path.exists`. -/
def FS.exists (fs : FS) (path : String) : Bool := fs.dirs path || (fs.files path).isSome

/-- `os.mkdir` of a path that does not exist; it may fail for reasons outside (missing parent, permissions): `OSError`, here
`PyErr.exception`. -/
def Env.mkdir (env : Env) (path : String) : PyM World Unit := fun w =>
  if env.mkdirFails path then (.error .exception, w)
  else (.ok (), { w with fs := { w.fs with dirs := fun q => q == path || w.fs.dirs q } })

/-- The file system with a file's contents replaced. -/
def FS.put (fs : FS) (path text : String) : FS :=
  { fs with files := fun q => if q = path then some text else fs.files q }

/-- `with open(path, 'a') as f: f.write(text)`. Failing writes (full disk) are not modelled. -/
def appendFile (path text : String) : PyM World Unit := fun w =>
  (.ok (), { w with fs := w.fs.put path ((w.fs.files path).getD "" ++ text) })

/-- `with open(path, 'w') as f: f.write(text)`. -/
def writeFile (path text : String) : PyM World Unit := fun w => (.ok (), { w with fs := w.fs.put path text })

/-- `print(text)`. -/
def pyPrint (text : String) : PyM World Unit := fun w => (.ok (), { w with stdout := w.stdout ++ [text] })

end UA
