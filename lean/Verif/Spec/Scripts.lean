import Verif.Model.Scripts

/-!
# Notions in which the properties of the scripts are stated
-/

namespace UA

/-- The columns of points with value, error and fit, in this order. -/
def columnsOf {β : Type} (tOf : β → ℂ) (l : List (β × ℝ × ℝ × ℝ)) : Columns :=
  ⟨l.map (fun x => tOf x.1), l.map (·.2.1), l.map (·.2.2.1), l.map (·.2.2.2)⟩

/-- `inner` is `s` without the blanks and newlines at both ends. -/
def IsStripped (s inner : List Char) : Prop :=
  ∃ u v, s = u ++ inner ++ v ∧ (∀ a ∈ u, a = ' ' ∨ a = '\n') ∧ (∀ a ∈ v, a = ' ' ∨ a = '\n') ∧
    (∀ a, inner.head? = some a → a ≠ ' ' ∧ a ≠ '\n') ∧ (∀ a, inner.getLast? = some a → a ≠ ' ' ∧ a ≠ '\n')

/-- A line of the file `report` reads: two pieces without colons make the name, the rest is the data. -/
def IsReportLine (line name data : String) : Prop :=
  ∃ a b rest : List Char, ':' ∉ a ∧ ':' ∉ b ∧ line.toList = a ++ ':' :: (b ++ ':' :: rest) ∧ name.toList = a ++ ':' :: b ∧
    IsStripped rest data.toList

/-- The entry of a name is the value of its last line; `l` are the names and values of the lines. -/
def LastValue (l : List (String × Option String)) (name : String) (value : Option String) : Prop :=
  ∃ before after, l = before ++ (name, value) :: after ∧ ∀ r ∈ after, r.1 ≠ name

end UA
