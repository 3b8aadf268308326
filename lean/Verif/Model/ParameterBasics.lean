import Mathlib.Data.Rat.Defs
import Mathlib.Data.Rat.Cast.Defs

/-!
# Types for the parameter tables
-/

namespace UA

/-- A lower bound as written in a bounds dictionary: `-np.inf`, a literal, `self[n].value`, or a local variable. -/
inductive LowerExpr
  | negInf
  | const (q : ℚ)
  | value (name : String)
  | loc (name : String)
  deriving DecidableEq

/-- An upper bound as written in a bounds dictionary: `np.inf` or a literal. -/
inductive UpperExpr
  | posInf
  | const (q : ℚ)
  deriving DecidableEq

/-- The right-hand sides of the local assignments at the start of `get_model_parameters_bounds_maximal`:
`math.sqrt(self[n].value)` and `max(a, b)`. -/
inductive LocalExpr
  | sqrtValue (name : String)
  | maxOf (a b : String)
  deriving DecidableEq

/-- What `from_ordered_values` of a class contains: its further arguments, its name list and the fixed entries it appends
(name, argument the value comes from, flag). -/
structure OrderedTable where
  constantArgs : List String
  names : List String
  extras : List (String × String × Bool)

/-- The class-specific content of a parameter class. `entries` are `(name, variable holding the value, is_fixed)`. -/
structure ClassTable where
  initArgs : List String
  superArgs : List String
  setupArgs : List String
  alwaysFixed : List String
  entries : List (String × String × Bool)
  handpicked : List (String × LowerExpr × UpperExpr)
  maximalLocals : List (String × LocalExpr)
  maximal : List (String × LowerExpr × UpperExpr)
  orderedNames : List String
  fromOrdered : Option OrderedTable
  fixResonances : Option (List String)

end UA
