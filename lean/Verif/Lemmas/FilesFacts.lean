import Verif.Spec.Files
import Verif.Lemmas.FilesTables
import Mathlib.Tactic.NormNum

/-!
# Facts about the data files
-/

namespace UA

theorem fileHolds_unique {lines : List String} {data data' : List (ℝ × ℝ × ℝ)} (h : FileHolds lines data) (h' : FileHolds lines data') :
    data = data' := by
  unfold FileHolds at h h'
  rw [h] at h'
  injection h' with h'
  injection h' with h1 h'
  injection h' with h2 h3
  have hlen : data.length = data'.length := by simpa using congrArg List.length h1
  refine List.ext_getElem hlen fun i hi hi' => ?_
  have e1 := congrArg (fun l => l[i]?) h1
  have e2 := congrArg (fun l => l[i]?) h2
  have e3 := congrArg (fun l => l[i]?) h3
  simp only [List.getElem?_map, List.getElem?_eq_getElem hi, List.getElem?_eq_getElem hi', Option.map_some, Option.some.injEq] at e1 e2 e3
  exact Prod.ext e1 (Prod.ext e2 e3)

/-- The test that a table is well formed, has `n` rows and all rows satisfy `P`. -/
def tableTest (table : List (Numeral × Numeral × Numeral)) (n : ℕ) (P : ℚ → ℚ → ℚ → Bool) : Bool :=
  table.length == n && table.all fun r => r.1.Good && r.2.1.Good && r.2.2.Good && P r.1.value r.2.1.value r.2.2.value

theorem file_data {lines : List String} {table : List (Numeral × Numeral × Numeral)} (ht : lines = table.map rowText) {n : ℕ} {P : ℚ → ℚ → ℚ → Bool}
    (h : tableTest table n P = true) : FileHolds lines (table.map rowValues) ∧ (table.map rowValues).length = n ∧
      ∀ d ∈ table.map rowValues, ∃ x y e : ℚ, d = ((x : ℝ), (y : ℝ), (e : ℝ)) ∧ P x y e = true := by
  obtain ⟨h1, h2⟩ := Bool.and_eq_true_iff.mp h
  have h3 := List.all_eq_true.mp h2
  refine ⟨?_, ?_, ?_⟩
  · rw [ht]
    refine readDataFile_rows fun r hr => ?_
    obtain ⟨h4, -⟩ := Bool.and_eq_true_iff.mp (h3 r hr)
    obtain ⟨h4, h5⟩ := Bool.and_eq_true_iff.mp h4
    obtain ⟨h4, h6⟩ := Bool.and_eq_true_iff.mp h4
    exact ⟨h4, h6, h5⟩
  · rw [List.length_map]
    exact beq_iff_eq.mp h1
  · intro d hd
    obtain ⟨r, hr, rfl⟩ := List.mem_map.mp hd
    exact ⟨_, _, _, rfl, (Bool.and_eq_true_iff.mp (h3 r hr)).2⟩

/-- The numbers at which one of the scripts cannot evaluate its starting model. -/
def startThresholds : List ℚ :=
  [4.104732671275326, 6.945876504806479, 3.2291595069331067, 0.5835126419012053, 1.0555688365879876, 1.0365569328792128, 1.6795999919783429, 1]

/-- What holds of the rows of the kaon files. -/
def kaonTest (zero : Bool) (x y e : ℚ) : Bool :=
  decide (4 * 0.493677 ^ 2 < x) && (decide (0 < y) || (zero && decide (y = 0))) && decide (0 < e) && startThresholds.all fun t => decide (x ≠ t)

set_option maxRecDepth 20000 in
theorem chargedFF2_test : tableTest chargedFF2Table 138 (kaonTest false) = true := by decide +kernel
set_option maxRecDepth 20000 in
theorem chargedKaon_test : tableTest chargedKaonTable 257 (kaonTest false) = true := by decide +kernel
set_option maxRecDepth 20000 in
theorem chargedKaonCropped_test : tableTest chargedKaonCroppedTable 251 (kaonTest false) = true := by decide +kernel
set_option maxRecDepth 20000 in
theorem chargedNewData2_test : tableTest chargedNewData2Table 138 (kaonTest false) = true := by decide +kernel
set_option maxRecDepth 20000 in
theorem neutralKaon_test : tableTest neutralKaonTable 141 (kaonTest true) = true := by decide +kernel
set_option maxRecDepth 20000 in
theorem neutralKaonCropped_test : tableTest neutralKaonCroppedTable 138 (kaonTest true) = true := by decide +kernel
set_option maxRecDepth 20000 in
theorem protonCSExtended_test : tableTest protonCSExtendedTable 141 (fun x y e => decide (4 * 0.938272 ^ 2 < x ∧ 0 < y ∧ 0 < e)) = true := by decide +kernel

end UA
