import Verif.Py
import Verif.Model.ParameterTables
import Mathlib.Order.WithBot

/-!
# Parameter objects

`/repo/model_parameters/ModelParameters.py` and the methods of the concrete classes, run over the tables of
`Verif/Model/ParameterTables.lean`. The value type `α` is arbitrary where the code does not compute with values.

A method that mutates the object returns its outcome together with the object left behind, also when it raises.
-/

namespace UA

/-- `model_parameters/ModelParameters.py:6`, the named tuple. `is_fixed` is restricted to booleans. -/
structure Parameter (α : Type) where
  name : String
  value : α
  is_fixed : Bool
  deriving DecidableEq

/-- An instance: its class, `_always_fixed` and `_data` (`model_parameters/ModelParameters.py:11-13`). -/
structure ModelParameters (α : Type) where
  cls : ParamClass
  always_fixed : List String
  data : List (Parameter α)

/-- Outcome of a mutating method and the object it leaves behind. -/
abbrev Mutation (α : Type) := Except PyErr Unit × ModelParameters α

variable {α : Type}

/-! ### Calls -/

/-- Reading a variable or dictionary entry; `e` is the exception for a missing one. -/
def readVar (e : PyErr) (env : List (String × α)) (name : String) : Except PyErr α :=
  match env.lookup name with
  | some v => .ok v
  | none => .error e

/-- Python's binding of `f(**kw)` for a function with parameters `argNames` without defaults: `TypeError` for an unexpected
keyword and for a missing argument. `kw` is a dictionary, so its keys are distinct. -/
def bindKwargs (argNames : List String) (kw : List (String × α)) : Except PyErr (List (String × α)) :=
  if kw.any fun p => !argNames.contains p.1 then .error .typeError
  else argNames.mapM fun n => do
    let v ← readVar .typeError kw n
    return (n, v)

/-- Python's binding of `f(*args)`: `TypeError` on a wrong number of arguments. -/
def bindPositional (argNames : List String) (args : List α) : Except PyErr (List (String × α)) :=
  if argNames.length = args.length then .ok (argNames.zip args) else .error .typeError

/-- `_setup_data` of a class: builds the entries from its arguments. -/
def ParamClass.setupData (c : ParamClass) (args : List α) : Except PyErr (List (Parameter α)) := do
  let env ← bindPositional c.table.setupArgs args
  c.table.entries.mapM fun e => do
    let v ← readVar .exception env e.2.1
    return ⟨e.1, v, e.2.2⟩

/-- The body of `__init__` of a class once its arguments are bound, and of `ModelParameters.__init__`
(`model_parameters/ModelParameters.py:11-13`). -/
def ParamClass.initBody (c : ParamClass) (env : List (String × α)) : Except PyErr (ModelParameters α) := do
  let args ← c.table.superArgs.mapM (readVar .exception env)
  let data ← c.setupData args
  return ⟨c, c.table.alwaysFixed, data⟩

/-- `C(**kw)`. -/
def ParamClass.init (c : ParamClass) (kw : List (String × α)) : Except PyErr (ModelParameters α) := do
  let env ← bindKwargs c.table.initArgs kw
  c.initBody env

/-- `C(*args)`. -/
def ParamClass.initPositional (c : ParamClass) (args : List α) : Except PyErr (ModelParameters α) := do
  let env ← bindPositional c.table.initArgs args
  c.initBody env

/-! ### Methods of `ModelParameters` -/

/-- The loop of `_find`, `model_parameters/ModelParameters.py:38-42`, from index `i` on. -/
def findFrom (name : String) : ℕ → List (Parameter α) → Except PyErr (ℕ × Parameter α)
  | _, [] => .error .keyError
  | i, p :: ps => if p.name = name then .ok (i, p) else findFrom name (i + 1) ps

/-- `_find`, `model_parameters/ModelParameters.py:38-42`. -/
def ModelParameters.find (self : ModelParameters α) (name : String) : Except PyErr (ℕ × Parameter α) :=
  findFrom name 0 self.data

/-- `__getitem__`, `model_parameters/ModelParameters.py:44-46`. -/
def ModelParameters.getItem (self : ModelParameters α) (item : String) : Except PyErr (Parameter α) := do
  let r ← self.find item
  return r.2

/-- `self._data[i] = p`. -/
def ModelParameters.setAt (self : ModelParameters α) (i : ℕ) (p : Parameter α) : ModelParameters α :=
  { self with data := self.data.set i p }

/-- What may be assigned by `parameters[key] = x`: a `Parameter` or something else. -/
inductive PyItem (α : Type)
  | parameter (p : Parameter α)
  | other

/-- `__setitem__`, `model_parameters/ModelParameters.py:48-56`. -/
def ModelParameters.setItem (self : ModelParameters α) (key : String) (new_value : PyItem α) : Mutation α :=
  match self.find key with
  | .error e => (.error e, self)
  | .ok (index, parameter) =>
    match new_value with
    | .other => (.error .typeError, self)
    | .parameter new_value =>
      if ¬ parameter.name = new_value.name then (.error .valueError, self)
      else if new_value.name ∈ self.always_fixed ∧ ¬ new_value.is_fixed then (.error .valueError, self)
      else (.ok (), self.setAt index new_value)

/-- `set_value`, `model_parameters/ModelParameters.py:58-61`. -/
def ModelParameters.setValue (self : ModelParameters α) (parameter_name : String) (v : α) : Mutation α :=
  match self.find parameter_name with
  | .error e => (.error e, self)
  | .ok (index, old_par) => (.ok (), self.setAt index ⟨parameter_name, v, old_par.is_fixed⟩)

/-- The loop shared by `fix_parameters` and the second half of `release_parameters`: `_find` and overwrite the flag, name by
name; an unknown name stops the loop, the earlier names having been processed. -/
def ModelParameters.flagLoop (flag : Bool) : List String → ModelParameters α → Mutation α
  | [], self => (.ok (), self)
  | name :: names, self =>
    match self.find name with
    | .error e => (.error e, self)
    | .ok (index, parameter) => ModelParameters.flagLoop flag names (self.setAt index ⟨parameter.name, parameter.value, flag⟩)

/-- `fix_parameters`, `model_parameters/ModelParameters.py:63-66`. -/
def ModelParameters.fixParameters (self : ModelParameters α) (names : List String) : Mutation α :=
  self.flagLoop true names

/-- `release_parameters`, `model_parameters/ModelParameters.py:68-74`. -/
def ModelParameters.releaseParameters (self : ModelParameters α) (names : List String) : Mutation α :=
  if names.any fun n => self.always_fixed.contains n then (.error .valueError, self)
  else self.flagLoop false names

/-- `fix_all_parameters`, `model_parameters/ModelParameters.py:76-78`. The loop overwrites the list it enumerates at the index
just read, i.e. it maps over the list. -/
def ModelParameters.fixAllParameters (self : ModelParameters α) : ModelParameters α :=
  { self with data := self.data.map fun p => ⟨p.name, p.value, true⟩ }

/-- `release_all_parameters`, `model_parameters/ModelParameters.py:80-83`. -/
def ModelParameters.releaseAllParameters (self : ModelParameters α) : ModelParameters α :=
  { self with data := self.data.map fun p => if p.name ∉ self.always_fixed then ⟨p.name, p.value, false⟩ else p }

/-- `get_fixed_values`, `model_parameters/ModelParameters.py:85-86`. -/
def ModelParameters.getFixedValues (self : ModelParameters α) : List α :=
  (self.data.filter (·.is_fixed)).map (·.value)

/-- `get_free_values`, `model_parameters/ModelParameters.py:88-89`. -/
def ModelParameters.getFreeValues (self : ModelParameters α) : List α :=
  (self.data.filter (!·.is_fixed)).map (·.value)

/-- `get_all_values`, `model_parameters/ModelParameters.py:91-92`. -/
def ModelParameters.getAllValues (self : ModelParameters α) : List α := self.data.map (·.value)

/-- `free_parameters` of `update_free_values`: the free entries with their indices. -/
def freeWithIndex (data : List (Parameter α)) : List (Parameter α × ℕ) :=
  data.zipIdx.filter (!·.1.is_fixed)

/-- `update_free_values`, `model_parameters/ModelParameters.py:94-100`. -/
def ModelParameters.updateFreeValues (self : ModelParameters α) (new_values : List α) : Mutation α :=
  let free_parameters := freeWithIndex self.data
  if free_parameters.length ≠ new_values.length then (.error .valueError, self)
  else (.ok (), (free_parameters.zip new_values).foldl
    (fun s q => s.setAt q.1.2 ⟨q.1.1.name, q.2, q.1.1.is_fixed⟩) self)

/-- `to_list`, `model_parameters/ModelParameters.py:32-33`; also what iteration yields (`:102-104`). -/
def ModelParameters.toList (self : ModelParameters α) : List (Parameter α) := self.data

/-! ### Class methods of the concrete classes -/

/-- Insertion into a Python dictionary. -/
def dictInsert (d : List (String × α)) (k : String) (v : α) : List (String × α) :=
  if d.any (·.1 == k) then d.map fun p => if p.1 = k then (k, v) else p else d ++ [(k, v)]

/-- A dictionary comprehension: later pairs overwrite earlier ones. -/
def pyDict (l : List (String × α)) : List (String × α) := l.foldl (fun d p => dictInsert d p.1 p.2) []

/-- `from_list`, e.g. `model_parameters/KaonParameters.py:125-132`; the nine classes have the same text. -/
def ParamClass.fromList (c : ParamClass) (l : List (Parameter α)) : Except PyErr (ModelParameters α) := do
  let kwargs := pyDict (l.map fun par => (par.name, par.value))
  let instance_ ← c.init kwargs
  let parameters_to_fix := (l.filter (·.is_fixed)).map (·.name)
  let instance_ := instance_.releaseAllParameters
  match instance_.fixParameters parameters_to_fix with
  | (.error e, _) => .error e
  | (.ok (), instance_) => return instance_

/-- `copy`, `model_parameters/ModelParameters.py:35-36`. -/
def ModelParameters.copy (self : ModelParameters α) : Except PyErr (ModelParameters α) := self.cls.fromList self.toList

/-- `get_ordered_values`, e.g. `model_parameters/KaonParameters.py:228-297`. -/
def ModelParameters.getOrderedValues (self : ModelParameters α) : Except PyErr (List α) :=
  self.cls.table.orderedNames.mapM fun name => do
    let p ← self.getItem name
    return p.value

/-- `from_ordered_values`, e.g. `model_parameters/KaonParameters.py:299-343`; `constants` are the keyword arguments after
`list_of_values`. Classes without the method: `AttributeError`. -/
def ParamClass.fromOrderedValues (c : ParamClass) (list_of_values : List α) (constants : List (String × α)) :
    Except PyErr (ModelParameters α) :=
  match c.table.fromOrdered with
  | none => .error .attributeError
  | some t => do
    let env ← bindKwargs t.constantArgs constants
    if list_of_values.length ≠ t.names.length then .error .assertionError
    else
      let pars := (t.names.zip list_of_values).map fun p => (⟨p.1, p.2, false⟩ : Parameter α)
      let extras ← t.extras.mapM fun e => do
        let v ← readVar .exception env e.2.1
        return (⟨e.1, v, e.2.2⟩ : Parameter α)
      c.fromList (pars ++ extras)

/-- `fix_resonances`, e.g. `model_parameters/KaonParameters.py:345-352`. Classes without the method: `AttributeError`. -/
def ModelParameters.fixResonances (self : ModelParameters α) : Mutation α :=
  match self.cls.table.fixResonances with
  | none => (.error .attributeError, self)
  | some names => self.fixParameters names

/-! ### Bounds (real values) -/

/-- The local variables of `get_model_parameters_bounds_maximal`, evaluated in order. -/
noncomputable def evalLocals (self : ModelParameters ℝ) : List (String × LocalExpr) → List (String × ℝ) → Except PyErr (List (String × ℝ))
  | [], env => .ok env
  | (x, .sqrtValue n) :: rest, env => do
    let p ← self.getItem n
    let v ← pySqrt p.value
    evalLocals self rest ((x, v) :: env)
  | (x, .maxOf a b) :: rest, env => do
    let u ← readVar .exception env a
    let v ← readVar .exception env b
    evalLocals self rest ((x, max u v) :: env)

/-- One lower bound; `⊥` is `-np.inf`. -/
noncomputable def evalLower (self : ModelParameters ℝ) (env : List (String × ℝ)) : LowerExpr → Except PyErr (WithBot ℝ)
  | .negInf => .ok ⊥
  | .const q => .ok ((q : ℝ) : WithBot ℝ)
  | .value n => do
    let p ← self.getItem n
    return (p.value : WithBot ℝ)
  | .loc x => do
    let v ← readVar .exception env x
    return (v : WithBot ℝ)

/-- One upper bound; `⊤` is `np.inf`. -/
noncomputable def evalUpper : UpperExpr → WithTop ℝ
  | .posInf => ⊤
  | .const q => ((q : ℝ) : WithTop ℝ)

/-- A bounds dictionary: name, lower, upper. -/
abbrev BoundsDict := List (String × (WithBot ℝ × WithTop ℝ))

/-- The dictionary display of a bounds method. -/
noncomputable def evalBounds (self : ModelParameters ℝ) (env : List (String × ℝ)) (t : List (String × LowerExpr × UpperExpr)) :
    Except PyErr BoundsDict :=
  t.mapM fun e => do
    let l ← evalLower self env e.2.1
    return (e.1, (l, evalUpper e.2.2))

/-- `get_model_parameters_bounds_handpicked`, e.g. `model_parameters/KaonParameters.py:148-184`. -/
noncomputable def ModelParameters.boundsHandpicked (self : ModelParameters ℝ) : Except PyErr BoundsDict :=
  evalBounds self [] self.cls.table.handpicked

/-- `get_model_parameters_bounds_maximal`, e.g. `model_parameters/KaonParameters.py:186-226`. -/
noncomputable def ModelParameters.boundsMaximal (self : ModelParameters ℝ) : Except PyErr BoundsDict := do
  let env ← evalLocals self self.cls.table.maximalLocals []
  evalBounds self env self.cls.table.maximal

/-- The dictionary selected by the `handpicked` argument. -/
noncomputable def ModelParameters.bounds (self : ModelParameters ℝ) (handpicked : Bool) : Except PyErr BoundsDict :=
  if handpicked then self.boundsHandpicked else self.boundsMaximal

/-- The loop of `get_bounds_for_free_parameters`, `model_parameters/KaonParameters.py:139-146`. -/
noncomputable def boundsLoop (full_bounds : BoundsDict) : List (Parameter ℝ) → Except PyErr (List (WithBot ℝ) × List (WithTop ℝ))
  | [] => .ok ([], [])
  | p :: ps =>
    if p.is_fixed then boundsLoop full_bounds ps
    else do
      let b ← readVar .keyError full_bounds p.name
      let rest ← boundsLoop full_bounds ps
      return (b.1 :: rest.1, b.2 :: rest.2)

/-- `get_bounds_for_free_parameters`, e.g. `model_parameters/KaonParameters.py:134-146`; same text in all nine classes. -/
noncomputable def ModelParameters.getBoundsForFreeParameters (self : ModelParameters ℝ) (handpicked : Bool) :
    Except PyErr (List (WithBot ℝ) × List (WithTop ℝ)) := do
  let full_bounds ← self.bounds handpicked
  boundsLoop full_bounds self.data

end UA
