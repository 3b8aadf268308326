import Verif.Model.Files

/-!
# Vocabulary for configuration files
-/

namespace UA

/-- What a line of a configuration file says. -/
inductive ConfigItem where
  | header (name : List Char)
  | assign (name value : List Char)
  | nothing

/-- A line that says this: blanks around the equals sign, blanks at the end, and a comment after a blank. -/
structure ConfigLine where
  item : ConfigItem
  left : List Char
  right : List Char
  trailing : List Char
  comment : Option (List Char)

def ConfigLine.text (line : ConfigLine) : List Char :=
  (match line.item with
    | .header name => '[' :: name ++ [']']
    | .assign name value => name ++ line.left ++ '=' :: line.right ++ value
    | .nothing => []) ++ line.trailing ++
  match line.comment with
  | none => []
  | some c => ' ' :: '#' :: c

/-- A word: neither blank, `#` nor `=`, not empty. -/
def IsConfigWord (s : List Char) : Prop := s ≠ [] ∧ ∀ c ∈ s, isBlank c = false ∧ c ≠ '#' ∧ c ≠ '='

/-- Names are words that do not look like a header, values are texts without `#` that neither begin nor end with a blank. -/
structure ConfigLine.Proper (line : ConfigLine) : Prop where
  left : ∀ c ∈ line.left, isBlank c = true
  right : ∀ c ∈ line.right, isBlank c = true
  trailing : ∀ c ∈ line.trailing, isBlank c = true
  header : ∀ name, line.item = .header name → ∀ c ∈ name, c ≠ ']' ∧ c ≠ '#'
  name : ∀ name value, line.item = .assign name value → IsConfigWord name ∧ name.head? ≠ some '['
  value : ∀ name value, line.item = .assign name value → (∀ c ∈ value, c ≠ '#') ∧ (∀ c ∈ value.head?, isBlank c = false) ∧
    ∀ c ∈ value.getLast?, isBlank c = false

/-- The section one is in after some lines, if one was in `start` before: that of the last header. -/
def sectionAfter (start : Option (List Char)) (lines : List ConfigLine) : Option (List Char) :=
  lines.foldl (fun s line => match line.item with | .header name => some name | _ => s) start

/-- Line `i` assigns `value` to the option, in the section. -/
def ConfigAssigns (lines : List ConfigLine) (wanted option : List Char) (i : ℕ) (value : List Char) : Prop :=
  (lines[i]?).map ConfigLine.item = some (.assign option value) ∧ sectionAfter none (lines.take i) = some wanted

end UA
