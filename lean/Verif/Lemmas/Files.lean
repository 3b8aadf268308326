import Verif.Model.Files
import Verif.Model.DataFiles
import Verif.Lemmas.Scripts
import Mathlib.Tactic.IntervalCases

/-!
# Lemmas on the data files
-/

namespace UA

/-- The character of a digit. -/
def digitChar (d : ℕ) : Char := Char.ofNat (48 + d)

/-- The last `k` digits of `n`, in front of `rest`. -/
def lastDigits : ℕ → ℕ → List Char → List Char
  | 0, _, rest => rest
  | k + 1, n, rest => lastDigits k (n / 10) (digitChar (n % 10) :: rest)

/-- A decimal numeral: the number of digits before and after the point, and all digits read as one number. -/
structure Numeral where
  before : ℕ
  after : ℕ
  digits : ℕ

/-- The text of a numeral. -/
def Numeral.text (x : Numeral) (rest : List Char) : List Char :=
  lastDigits x.before (x.digits / 10 ^ x.after) ('.' :: lastDigits x.after x.digits rest)

/-- The number it stands for. -/
def Numeral.value (x : Numeral) : ℚ := (x.digits : ℚ) / 10 ^ x.after

/-- Three numerals in a line. -/
def rowText (r : Numeral × Numeral × Numeral) : String :=
  String.ofList (r.1.text (' ' :: r.2.1.text (' ' :: r.2.2.text [])))

/-- The digits before the point give the whole integral part. -/
def Numeral.Good (x : Numeral) : Bool := decide (0 < x.before) && decide (x.digits < 10 ^ (x.before + x.after))

theorem lastDigits_append (k n : ℕ) (rest : List Char) : lastDigits k n rest = lastDigits k n [] ++ rest := by
  induction k generalizing n rest with
  | zero => rfl
  | succ k ih =>
    unfold lastDigits
    rw [ih (n / 10) (digitChar (n % 10) :: rest), ih (n / 10) [digitChar (n % 10)], List.append_assoc]
    rfl

theorem digitValue_digitChar {d : ℕ} (h : d < 10) : digitValue (digitChar d) = some d := by
  interval_cases d <;> decide +kernel

theorem lastDigits_digit {k n : ℕ} {c : Char} (h : c ∈ lastDigits k n []) : (digitValue c).isSome = true := by
  induction k generalizing n with
  | zero => exact absurd h List.not_mem_nil
  | succ k ih =>
    unfold lastDigits at h
    rw [lastDigits_append] at h
    rcases List.mem_append.mp h with h | h
    · exact ih h
    · obtain rfl := List.mem_singleton.mp h
      rw [digitValue_digitChar (Nat.mod_lt _ (by norm_num))]
      rfl

theorem readDigits_append (a b : List Char) (m : ℕ) : readDigits (a ++ b) m = (readDigits a m).bind (readDigits b) := by
  induction a generalizing m with
  | nil => rfl
  | cons c a ih =>
    rw [List.cons_append]
    show (match digitValue c with
      | some d => readDigits (a ++ b) (10 * m + d)
      | none => none) = Option.bind (match digitValue c with
      | some d => readDigits a (10 * m + d)
      | none => none) (readDigits b)
    rcases digitValue c with _ | d
    · rfl
    · exact ih _

theorem readDigits_lastDigits (k n m : ℕ) : readDigits (lastDigits k n []) m = some (m * 10 ^ k + n % 10 ^ k) := by
  induction k generalizing n with
  | zero => simp [lastDigits, readDigits, Nat.mod_one]
  | succ k ih =>
    have h : lastDigits (k + 1) n [] = lastDigits k (n / 10) [] ++ [digitChar (n % 10)] := by
      show lastDigits k (n / 10) [digitChar (n % 10)] = _
      rw [lastDigits_append]
    rw [h, readDigits_append, ih, Option.bind_some]
    show (match digitValue (digitChar (n % 10)) with
      | some d => readDigits [] (10 * (m * 10 ^ k + n / 10 % 10 ^ k) + d)
      | none => none) = _
    rw [digitValue_digitChar (Nat.mod_lt _ (by norm_num))]
    show some _ = some _
    rw [show n % 10 ^ (k + 1) = n % 10 + 10 * (n / 10 % 10 ^ k) by rw [pow_succ, Nat.mul_comm, Nat.mod_mul], pow_succ]
    congr 1
    ring

theorem pySplit_none {c : Char} {s : List Char} (h : c ∉ s) : pySplit c s = [s] := by
  induction s with
  | nil => rfl
  | cons a s ih =>
    unfold pySplit
    rw [if_neg (fun e : a = c => h (e ▸ List.mem_cons_self)), ih fun hm => h (List.mem_cons_of_mem _ hm)]

theorem text_eq (x : Numeral) (rest : List Char) :
    x.text rest = lastDigits x.before (x.digits / 10 ^ x.after) [] ++ '.' :: (lastDigits x.after x.digits [] ++ rest) := by
  unfold Numeral.text
  rw [lastDigits_append, lastDigits_append x.after]

theorem text_append (x : Numeral) (rest : List Char) : x.text rest = x.text [] ++ rest := by
  rw [text_eq, text_eq x []]
  simp

theorem not_mem_lastDigits {c : Char} (h : digitValue c = none) (k n : ℕ) : c ∉ lastDigits k n [] := fun hc => by
  have := lastDigits_digit hc
  rw [h] at this
  cases this

theorem blank_not_mem_text (x : Numeral) : ' ' ∉ x.text [] := by
  rw [text_eq]
  have h : digitValue ' ' = none := by decide +kernel
  have := not_mem_lastDigits h x.before (x.digits / 10 ^ x.after)
  have := not_mem_lastDigits h x.after x.digits
  simp_all

theorem lastDigits_ne_nil {k : ℕ} (h : 0 < k) (n : ℕ) : lastDigits k n [] ≠ [] := by
  obtain ⟨k, rfl⟩ := Nat.exists_eq_succ_of_ne_zero h.ne'
  show lastDigits k (n / 10) [digitChar (n % 10)] ≠ []
  rw [lastDigits_append]
  simp

theorem floatUnsigned_text {x : Numeral} (h : x.Good = true) : floatUnsigned (x.text []) = some x.value := by
  obtain ⟨h1, h2⟩ := Bool.and_eq_true_iff.mp h
  have hdot : digitValue '.' = none := by decide +kernel
  unfold floatUnsigned
  rw [text_eq, pySplit_append _ _ _ (not_mem_lastDigits hdot _ _), List.append_nil, pySplit_none (not_mem_lastDigits hdot _ _)]
  dsimp only
  rw [if_neg (fun e => lastDigits_ne_nil (of_decide_eq_true h1) _ e.1), readDigits_append, readDigits_lastDigits, Option.bind_some,
    readDigits_lastDigits, Nat.zero_mul, Nat.zero_add, Option.map_some]
  have hlen : ∀ k n, (lastDigits k n []).length = k := by
    intro k
    induction k with
    | zero => intro n; rfl
    | succ k ih =>
      intro n
      show (lastDigits k (n / 10) [digitChar (n % 10)]).length = _
      rw [lastDigits_append, List.length_append, ih]
      rfl
  rw [hlen, Nat.mod_eq_of_lt (a := x.digits / 10 ^ x.after)
    (Nat.div_lt_of_lt_mul (by rw [← pow_add, Nat.add_comm]; exact of_decide_eq_true h2)), Nat.div_add_mod']
  rfl

theorem floatText_text {x : Numeral} (h : x.Good = true) : floatText (x.text []) = .ok x.value := by
  have hu := floatUnsigned_text h
  obtain ⟨c, s, hs⟩ : ∃ c s, x.text [] = c :: s := by
    rcases hx : x.text [] with _ | ⟨c, s⟩
    · rw [hx] at hu; cases hu
    · exact ⟨c, s, rfl⟩
  have hc : (digitValue c).isSome = true := by
    obtain ⟨h1, -⟩ := Bool.and_eq_true_iff.mp h
    rcases hx : lastDigits x.before (x.digits / 10 ^ x.after) [] with _ | ⟨d, r⟩
    · exact absurd hx (lastDigits_ne_nil (of_decide_eq_true h1) _)
    · rw [text_eq, hx, List.cons_append] at hs
      injection hs with hs _
      rw [← hs]
      exact lastDigits_digit (by rw [hx]; exact List.mem_cons_self)
  rw [hs] at hu ⊢
  unfold floatText
  split
  · exact absurd hc (by rename_i e; injection e with e; rw [e]; decide +kernel)
  · exact absurd hc (by rename_i e; injection e with e; rw [e]; decide +kernel)
  · rw [hu]

/-- The three numbers of a row. -/
noncomputable def rowValues (r : Numeral × Numeral × Numeral) : ℝ × ℝ × ℝ := ((r.1.value : ℝ), (r.2.1.value : ℝ), (r.2.2.value : ℝ))

theorem csvRow_rowText (r : Numeral × Numeral × Numeral) :
    csvRow (rowText r) = [String.ofList (r.1.text []), String.ofList (r.2.1.text []), String.ofList (r.2.2.text [])] := by
  unfold csvRow rowText
  rw [String.toList_ofList, text_append, text_append r.2.1, if_neg (by
    rw [text_eq]; simp), pySplit_append _ _ _ (blank_not_mem_text _), pySplit_append _ _ _ (blank_not_mem_text _), pySplit_none (blank_not_mem_text _)]
  rfl

/-- Reading a file whose lines are such rows. -/
theorem readDataFile_rows {table : List (Numeral × Numeral × Numeral)} (h : ∀ r ∈ table, r.1.Good = true ∧ r.2.1.Good = true ∧ r.2.2.Good = true) :
    readDataFile (table.map rowText) =
      .ok ((table.map rowValues).map (·.1), (table.map rowValues).map (·.2.1), (table.map rowValues).map (·.2.2)) := by
  unfold readDataFile readData
  rw [readDataLoop_ok]
  refine ⟨table.map rowValues, ?_, by simp⟩
  rw [List.map_map, List.forall₂_map_left_iff, List.forall₂_map_right_iff]
  refine List.forall₂_same.mpr fun r hr => ⟨_, _, _, csvRow_rowText r, ?_, ?_, ?_⟩ <;> unfold floatOfText <;>
    rw [String.toList_ofList, floatText_text (by first | exact (h r hr).1 | exact (h r hr).2.1 | exact (h r hr).2.2)] <;> rfl

end UA
