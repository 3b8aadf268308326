import Verif.Model.Scripts

/-!
# Reading the data files and the configuration file of `/repo`

The files themselves are in `Verif.Model.DataFiles`.
-/

namespace UA

/-! ### `float` of a text -/

/-- The value of a digit. -/
def digitValue (c : Char) : Option ℕ := if '0' ≤ c ∧ c ≤ '9' then some (c.toNat - 48) else none

/-- The number a sequence of digits stands for, continuing `n`. -/
def readDigits : List Char → ℕ → Option ℕ
  | [], n => some n
  | c :: s, n => match digitValue c with
    | some d => readDigits s (10 * n + d)
    | none => none

/-- Python's `float` on the text of an unsigned decimal numeral: digits, or digits with one point among, before or after them. -/
def floatUnsigned (s : List Char) : Option ℚ :=
  match pySplit '.' s with
  | [a] => if a = [] then none else (readDigits a 0).map fun n : ℕ => (n : ℚ)
  | [a, b] => if a = [] ∧ b = [] then none else (readDigits (a ++ b) 0).map fun n : ℕ => (n : ℚ) / 10 ^ b.length
  | _ => none

/-- Python's `float` on a text as it is called in `kaon_production/data.py:21-23`, `nucleon_production/data.py:21-23` and by
`config.getfloat`: an optional sign and a decimal numeral, `ValueError` otherwise. Simplified: the number is not rounded to the next
double (see DESIGN.md, floats are reals), and exponents, underscores, surrounding spaces, `inf` and `nan`, which `float` also accepts,
are not; none of the files contains any. -/
def floatText (s : List Char) : Except PyErr ℚ :=
  let value := match s with
    | '-' :: s => (floatUnsigned s).map fun x => -x
    | '+' :: s => floatUnsigned s
    | s => floatUnsigned s
  match value with
  | some x => .ok x
  | none => .error .valueError

/-- `float` as the data readers call it. -/
noncomputable def floatOfText (s : String) : Except PyErr ℝ :=
  match floatText s.toList with
  | .ok x => .ok (x : ℝ)
  | .error e => .error e

/-! ### `csv.reader` -/

/-- The row `csv.reader(f, delimiter=' ')` yields for a line, `kaon_production/data.py:19` and `nucleon_production/data.py:19`. A line is
given without its line end. Simplified: the quotation mark, which is in none of the files, is an ordinary character. -/
def csvRow (line : String) : List String :=
  if line.toList = [] then [] else (pySplit ' ' line.toList).map String.ofList

/-- `read_data`, `kaon_production/data.py:12-25` and `nucleon_production/data.py:12-25`, on the lines of the file. -/
noncomputable def readDataFile (lines : List String) : Except PyErr (List ℝ × List ℝ × List ℝ) :=
  readData floatOfText (lines.map csvRow)

/-! ### `ConfigParser` -/

/-- White space, as `str.strip` sees it in the file. -/
def isBlank (c : Char) : Bool := c == ' ' || c == '\t' || c == '\r'

/-- `s.strip()`. -/
def stripBlanks (s : List Char) : List Char := ((s.dropWhile isBlank).reverse.dropWhile isBlank).reverse

/-- What `ConfigParser(inline_comment_prefixes='#')` leaves of a line: the text before the first `#` that begins the line or follows a
blank. The flag tells whether a `#` at this place begins a comment. -/
def dropComment : Bool → List Char → List Char
  | _, [] => []
  | start, c :: s => if c = '#' ∧ start = true then [] else c :: dropComment (isBlank c) s

/-- The part before and the part after the first `=`. -/
def splitAssignment : List Char → Option (List Char × List Char)
  | [] => none
  | c :: s => if c = '=' then some ([], s) else (splitAssignment s).map fun x => (c :: x.1, x.2)

/-- `config.get(section, option)` after `config.read`, on the lines of the file: the value of the first line `option=value` that stands
below `[section]`. Simplified to files like `configuration.ini`: sections, assignments with `=`, comments and empty lines; no section or
option occurs twice in a section (the parser would raise), no line continues another one, names are in lower case. An absent section
or option raises a `configparser.Error`, here `exception`. -/
def configGet (wanted option : List Char) : Option (List Char) → List (List Char) → Except PyErr (List Char)
  | _, [] => .error .exception
  | section_, line :: lines =>
    match stripBlanks (dropComment true line) with
    | [] => configGet wanted option section_ lines
    | '[' :: rest => configGet wanted option (some (rest.takeWhile (· ≠ ']'))) lines
    | text =>
      match splitAssignment text with
      | none => .error .exception
      | some (name, value) =>
        if section_ = some wanted ∧ stripBlanks name = option then .ok (stripBlanks value) else configGet wanted option section_ lines

/-- `config.getfloat('constants', option)`, e.g. `kaon_production/fit_ff_iterative_pipeline.py:43`. -/
noncomputable def configFloat (lines : List String) (option : String) : Except PyErr ℝ := do
  let text ← configGet "constants".toList option.toList none (lines.map String.toList)
  let value ← floatText text
  return (value : ℝ)

end UA
