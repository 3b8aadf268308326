import Verif.Lemmas.FilesFacts
import Verif.Props.CrossSections
import Verif.Lemmas.PlotFit
import Mathlib.Analysis.Real.Pi.Bounds
import Mathlib.Data.Nat.Digits.Lemmas

/-!
# Lemmas on the scripts with the shipped files
-/

namespace UA

/-! ### The conversion -/

/-- A row of `charged_new_data2.csv` and one of `charged_ff_2.csv` agree, in terms of rational numbers. -/
def convertTest (r s : Numeral × Numeral × Numeral) : Bool :=
  let t := r.1.value
  let cs := r.2.1.value
  let err := r.2.2.value
  let y := s.2.1.value
  let e := s.2.2.value
  let k : ℚ := 389379.3721 * 0.0072973525693 ^ 2 / 3 / t
  let v := 1 - 4 * 0.493677 ^ 2 / t
  decide (s.1.value = t ∧ 0 < y ∧ 0 ≤ e ∧ cs ^ 2 ≤ (k * 3.14159265358979323846) ^ 2 * v ^ 3 * (y * (1 + 3e-13)) ^ 4 ∧
    (k * 3.14159265358979323847) ^ 2 * v ^ 3 * (y * (1 - 3e-13)) ^ 4 ≤ cs ^ 2 ∧ |err * y / (2 * cs) - e| ≤ 3e-13 * e)

/-- Two tables agree row by row. -/
def convertTests : List (Numeral × Numeral × Numeral) → List (Numeral × Numeral × Numeral) → Bool
  | [], [] => true
  | r :: l, s :: l' => convertTest r s && convertTests l l'
  | _, _ => false

set_option maxRecDepth 20000 in
theorem convert_tests : convertTests chargedNewData2Table chargedFF2Table = true := by decide +kernel

set_option maxHeartbeats 800000 in
theorem convertPoint_close {α hc2 m t cs err y e ε : ℝ} (hα : α ≠ 0) (hh : 0 < hc2) (ht : 0 < t) (h4 : 4 * m ^ 2 < t) (hcs : 0 < cs) (herr : 0 ≤ err)
    (hy : 0 < y) (he0 : 0 ≤ e) (hε : 0 < ε) (hε1 : ε ≤ 1)
    (h1 : cs ^ 2 ≤ (hc2 * α ^ 2 / 3 / t * 3.14159265358979323846) ^ 2 * (1 - 4 * m ^ 2 / t) ^ 3 * (y * (1 + ε)) ^ 4)
    (h2 : (hc2 * α ^ 2 / 3 / t * 3.14159265358979323847) ^ 2 * (1 - 4 * m ^ 2 / t) ^ 3 * (y * (1 - ε)) ^ 4 ≤ cs ^ 2)
    (h3 : |err * y / (2 * cs) - e| ≤ ε * e) :
    ∃ ff new, convertPoint α hc2 m t cs err = .ok (t, ff, new) ∧ |ff - y| ≤ ε * y ∧ |new - e| ≤ 3 * ε * e := by
  have hr : 0 < 1 - 4 * m ^ 2 / t := by rw [sub_pos, div_lt_one ht]; exact h4
  have hπ1 := Real.pi_gt_d20
  have hπ2 := Real.pi_lt_d20
  have hk : 0 < hc2 * α ^ 2 / 3 / t := by positivity
  obtain ⟨c, hc, hcp⟩ : ∃ c, c = hc2 * Real.pi * α ^ 2 / 3 / t * (1 - 4 * m ^ 2 / t) ^ (3 / 2 : ℝ) ∧ 0 < c := by
    refine ⟨_, rfl, ?_⟩
    have := Real.pi_pos
    have := Real.rpow_pos_of_pos hr (3 / 2)
    positivity
  have hcoef : coefficientFunction α hc2 m t = .ok (.float c) := by
    unfold coefficientFunction
    simp only [pyDivR_ok ht.ne', except_ok_bind]
    rw [if_neg (not_lt.mpr hr.le), hc]; rfl
  have hq : 0 < cs / c := by positivity
  have hs : 0 < Real.sqrt (cs / c) := Real.sqrt_pos.mpr hq
  have hconv : convertPoint α hc2 m t cs err = .ok (t, Real.sqrt (cs / c), err / (2 * c * Real.sqrt (cs / c))) := by
    unfold convertPoint
    rw [hcoef, except_ok_bind]
    simp only
    rw [pyDivR_ok hcp.ne', except_ok_bind, pySqrt_ok hq.le, except_ok_bind, pyDivR_ok (by positivity), except_ok_bind]; rfl
  have hc2' : c ^ 2 = (hc2 * α ^ 2 / 3 / t * Real.pi) ^ 2 * (1 - 4 * m ^ 2 / t) ^ 3 := by
    have : ((1 - 4 * m ^ 2 / t) ^ (3 / 2 : ℝ)) ^ 2 = (1 - 4 * m ^ 2 / t) ^ 3 := by
      rw [← Real.rpow_natCast, ← Real.rpow_mul hr.le]
      norm_num
    rw [hc, mul_pow, this]
    ring
  have hv3 : 0 < (1 - 4 * m ^ 2 / t) ^ 3 := by positivity
  have hup : cs ≤ c * (y * (1 + ε)) ^ 2 := by
    refine le_of_sq_le_sq ?_ (by positivity)
    calc cs ^ 2 ≤ _ := h1
      _ ≤ (hc2 * α ^ 2 / 3 / t * Real.pi) ^ 2 * (1 - 4 * m ^ 2 / t) ^ 3 * (y * (1 + ε)) ^ 4 := by gcongr
      _ = (c * (y * (1 + ε)) ^ 2) ^ 2 := by rw [mul_pow c, hc2']; ring
  have hlow : c * (y * (1 - ε)) ^ 2 ≤ cs := by
    refine le_of_sq_le_sq ?_ hcs.le
    have hε' : 0 ≤ 1 - ε := by linarith
    calc (c * (y * (1 - ε)) ^ 2) ^ 2 = (hc2 * α ^ 2 / 3 / t * Real.pi) ^ 2 * (1 - 4 * m ^ 2 / t) ^ 3 * (y * (1 - ε)) ^ 4 := by rw [mul_pow c, hc2']; ring
      _ ≤ (hc2 * α ^ 2 / 3 / t * 3.14159265358979323847) ^ 2 * (1 - 4 * m ^ 2 / t) ^ 3 * (y * (1 - ε)) ^ 4 := by
        have := Real.pi_pos
        gcongr
      _ ≤ cs ^ 2 := h2
  have hff : |Real.sqrt (cs / c) - y| ≤ ε * y := by
    have a1 : Real.sqrt (cs / c) ≤ y * (1 + ε) := Real.sqrt_le_iff.mpr ⟨by positivity, by rw [div_le_iff₀ hcp]; linarith⟩
    have a2 : y * (1 - ε) ≤ Real.sqrt (cs / c) := Real.le_sqrt_of_sq_le (by rw [le_div_iff₀ hcp]; linarith)
    rw [abs_le]
    constructor <;> linarith
  refine ⟨_, _, hconv, hff, ?_⟩
  have hnew : err / (2 * c * Real.sqrt (cs / c)) = Real.sqrt (cs / c) * (err / (2 * cs)) := by
    have hsq : Real.sqrt (cs / c) * Real.sqrt (cs / c) = cs / c := Real.mul_self_sqrt hq.le
    have : c * (Real.sqrt (cs / c) * Real.sqrt (cs / c)) = cs := by rw [hsq]; field_simp
    rw [div_eq_iff (by positivity)]
    have hcs' : cs ≠ 0 := hcs.ne'
    field_simp
    nlinarith [this]
  rw [hnew]
  have hpos : 0 ≤ err / (2 * cs) := by positivity
  have b1 : err * y / (2 * cs) ≤ (1 + ε) * e := by
    have := (abs_le.mp h3).2
    linarith
  calc |Real.sqrt (cs / c) * (err / (2 * cs)) - e| = |(Real.sqrt (cs / c) - y) * (err / (2 * cs)) + (err * y / (2 * cs) - e)| := by
        congr 1; ring
    _ ≤ |Real.sqrt (cs / c) - y| * (err / (2 * cs)) + |err * y / (2 * cs) - e| := by
        refine (abs_add_le _ _).trans ?_
        rw [abs_mul, abs_of_nonneg hpos]
    _ ≤ ε * y * (err / (2 * cs)) + ε * e := by gcongr
    _ = ε * (err * y / (2 * cs)) + ε * e := by ring
    _ ≤ ε * ((1 + ε) * e) + ε * e := by gcongr
    _ ≤ 3 * ε * e := by nlinarith [mul_nonneg hε.le he0]

/-! ### The configuration -/

theorem configFloat_of {lines : List String} {option : String} {text : List Char} {q : ℚ}
    (h1 : configGet "constants".toList option.toList none (lines.map String.toList) = .ok text) (h2 : floatText text = .ok q) :
    configFloat lines option = .ok (q : ℝ) := by
  unfold configFloat
  rw [h1, except_ok_bind, h2, except_ok_bind]
  rfl

theorem config_alpha : configFloat configurationIni "alpha" = .ok (0.0072973525693 : ℝ) := by
  rw [configFloat_of (text := "0.0072973525693".toList) (q := 0.0072973525693) rfl (by decide +kernel)]
  norm_num

theorem config_hc_squared : configFloat configurationIni "hc_squared" = .ok (389379.3721 : ℝ) := by
  rw [configFloat_of (text := "389379.3721".toList) (q := 389379.3721) rfl (by decide +kernel)]
  norm_num

theorem config_charged_pion_mass : configFloat configurationIni "charged_pion_mass" = .ok (0.13957039 : ℝ) := by
  rw [configFloat_of (text := "0.13957039".toList) (q := 0.13957039) rfl (by decide +kernel)]
  norm_num

theorem config_charged_kaon_mass : configFloat configurationIni "charged_kaon_mass" = .ok (0.493677 : ℝ) := by
  rw [configFloat_of (text := "0.493677".toList) (q := 0.493677) rfl (by decide +kernel)]
  norm_num

theorem config_proton_mass : configFloat configurationIni "proton_mass" = .ok (0.938272 : ℝ) := by
  rw [configFloat_of (text := "0.938272".toList) (q := 0.938272) rfl (by decide +kernel)]
  norm_num

theorem config_proton_magnetic_moment : configFloat configurationIni "proton_magnetic_moment" = .ok (2.792847351 : ℝ) := by
  rw [configFloat_of (text := "2.792847351".toList) (q := 2.792847351) rfl (by decide +kernel)]
  norm_num

theorem config_neutron_magnetic_moment : configFloat configurationIni "neutron_magnetic_moment" = .ok (-1.91304273 : ℝ) := by
  rw [configFloat_of (text := "-1.91304273".toList) (q := -1.91304273) rfl (by decide +kernel)]
  norm_num

theorem kaonConfiguration_shipped : kaonConfiguration configurationIni = .ok (0.13957039, ⟨0.493677, 0.0072973525693, 389379.3721⟩) := by
  unfold kaonConfiguration
  simp only [config_charged_pion_mass, config_charged_kaon_mass, config_alpha, config_hc_squared, except_ok_bind]
  rfl

theorem nucleonConfiguration_shipped :
    nucleonConfiguration configurationIni = .ok (0.13957039, 0.938272, 2.792847351, -1.91304273, 0.0072973525693, 389379.3721) := by
  unfold nucleonConfiguration
  simp only [config_charged_pion_mass, config_proton_mass, config_proton_magnetic_moment, config_neutron_magnetic_moment, config_alpha,
    config_hc_squared, except_ok_bind]
  rfl

/-! ### Numerals -/

theorem readDigits_map {ds : List ℕ} (h : ∀ d ∈ ds, d < 10) (m : ℕ) :
    readDigits (ds.map digitChar) m = some (m * 10 ^ ds.length + Nat.ofDigits 10 ds.reverse) := by
  induction ds generalizing m with
  | nil => simp [readDigits]
  | cons d ds ih =>
    rw [List.map_cons]
    show (match digitValue (digitChar d) with
      | some d => readDigits (ds.map digitChar) (10 * m + d)
      | none => none) = _
    rw [digitValue_digitChar (h d List.mem_cons_self)]
    dsimp only
    rw [ih fun e he => h e (List.mem_cons_of_mem _ he), List.reverse_cons, Nat.ofDigits_append, Nat.ofDigits_singleton, List.length_reverse,
      List.length_cons, pow_succ]
    congr 1
    ring

theorem dot_not_mem {ds : List ℕ} (h : ∀ d ∈ ds, d < 10) : '.' ∉ ds.map digitChar := by
  intro hm
  obtain ⟨d, hd, he⟩ := List.mem_map.mp hm
  have := digitValue_digitChar (h d hd)
  rw [he, show digitValue '.' = none by decide +kernel] at this
  cases this

theorem floatUnsigned_point {a b : List ℕ} (ha : ∀ d ∈ a, d < 10) (hb : ∀ d ∈ b, d < 10) (hne : a ≠ [] ∨ b ≠ []) :
    floatUnsigned (a.map digitChar ++ '.' :: b.map digitChar) = some ((Nat.ofDigits 10 (a ++ b).reverse : ℕ) / 10 ^ b.length : ℚ) := by
  unfold floatUnsigned
  rw [pySplit_append _ _ _ (dot_not_mem ha), pySplit_none (dot_not_mem hb)]
  dsimp only
  rw [if_neg (by rintro ⟨h1, h2⟩; rcases hne with h | h <;> simp_all), ← List.map_append,
    readDigits_map (fun d hd => (List.mem_append.mp hd).elim (ha d) (hb d)), Option.map_some, List.length_map, Nat.zero_mul, Nat.zero_add]

theorem floatUnsigned_whole {a : List ℕ} (ha : ∀ d ∈ a, d < 10) (hne : a ≠ []) :
    floatUnsigned (a.map digitChar) = some ((Nat.ofDigits 10 a.reverse : ℕ) : ℚ) := by
  unfold floatUnsigned
  rw [pySplit_none (dot_not_mem ha)]
  dsimp only
  rw [if_neg (by simpa using hne), readDigits_map ha, Option.map_some, Nat.zero_mul, Nat.zero_add]

theorem floatText_unsigned {s : List Char} {x : ℚ} (h : floatUnsigned s = some x) (h1 : s.head? ≠ some '-') (h2 : s.head? ≠ some '+') :
    floatText s = .ok x := by
  unfold floatText
  split
  · exact absurd rfl h1
  · exact absurd rfl h2
  · rw [h]

theorem readDigits_some {s : List Char} {m n : ℕ} (h : readDigits s m = some n) : ∀ c ∈ s, (digitValue c).isSome = true := by
  induction s generalizing m with
  | nil => simp
  | cons c s ih =>
    have h' : (match digitValue c with
      | some d => readDigits s (10 * m + d)
      | none => none) = some n := h
    intro c' hc'
    rcases hd : digitValue c with _ | d
    · rw [hd] at h'; cases h'
    · rw [hd] at h'
      rcases List.mem_cons.mp hc' with rfl | hc'
      · rw [hd]; rfl
      · exact ih h' c' hc'

theorem pySplit_mem {sep : Char} {s : List Char} {c : Char} (hc : c ∈ s) : c = sep ∨ ∃ part ∈ pySplit sep s, c ∈ part := by
  induction s with
  | nil => cases hc
  | cons a s ih =>
    unfold pySplit
    split
    · rename_i ha
      rcases List.mem_cons.mp hc with rfl | hc
      · exact .inl ha
      · rcases ih hc with h | ⟨part, hp, h⟩
        · exact .inl h
        · exact .inr ⟨part, List.mem_cons_of_mem _ hp, h⟩
    · rcases hs : pySplit sep s with _ | ⟨part, parts⟩
      · rcases List.mem_cons.mp hc with rfl | hc
        · exact .inr ⟨_, List.mem_cons_self, List.mem_cons_self⟩
        · rcases ih hc with h | ⟨part, hp, h⟩
          · exact .inl h
          · rw [hs] at hp; cases hp
      · rcases List.mem_cons.mp hc with rfl | hc
        · exact .inr ⟨_, List.mem_cons_self, List.mem_cons_self⟩
        · rcases ih hc with h | ⟨part', hp, h⟩
          · exact .inl h
          · rw [hs] at hp
            rcases List.mem_cons.mp hp with rfl | hp
            · exact .inr ⟨_, List.mem_cons_self, List.mem_cons_of_mem _ h⟩
            · exact .inr ⟨part', List.mem_cons_of_mem _ hp, h⟩

theorem floatUnsigned_some {s : List Char} {x : ℚ} (h : floatUnsigned s = some x) : ∀ c ∈ s, c = '.' ∨ (digitValue c).isSome = true := by
  intro c hc
  rcases pySplit_mem (sep := '.') hc with h' | ⟨part, hp, hc'⟩
  · exact .inl h'
  right
  unfold floatUnsigned at h
  split at h
  · rename_i a ha
    rw [ha] at hp
    obtain rfl := List.mem_singleton.mp hp
    split at h
    · cases h
    · obtain ⟨n, hn, -⟩ := Option.map_eq_some_iff.mp h
      exact readDigits_some hn c hc'
  · rename_i a b ha
    rw [ha] at hp
    split at h
    · cases h
    · obtain ⟨n, hn, -⟩ := Option.map_eq_some_iff.mp h
      refine readDigits_some hn c ?_
      rcases List.mem_cons.mp hp with rfl | hp
      · exact List.mem_append_left _ hc'
      · obtain rfl := List.mem_singleton.mp hp
        exact List.mem_append_right _ hc'
  · cases h

theorem floatText_ok_chars {s : List Char} {x : ℚ} (h : floatText s = .ok x) :
    ∀ c ∈ s, c = '.' ∨ c = '-' ∨ c = '+' ∨ (digitValue c).isSome = true := by
  intro c hc
  have key : ∀ s' : List Char, ∀ y, floatUnsigned s' = some y → c ∈ s' → c = '.' ∨ c = '-' ∨ c = '+' ∨ (digitValue c).isSome = true := by
    intro s' y hy hc'
    rcases floatUnsigned_some hy c hc' with h' | h'
    · exact .inl h'
    · exact .inr (.inr (.inr h'))
  unfold floatText at h
  dsimp only at h
  split at h
  · rename_i y hy
    split at hy
    · rcases List.mem_cons.mp hc with rfl | hc
      · exact .inr (.inl rfl)
      · obtain ⟨z, hz, -⟩ := Option.map_eq_some_iff.mp hy
        exact key _ z hz hc
    · rcases List.mem_cons.mp hc with rfl | hc
      · exact .inr (.inr (.inl rfl))
      · exact key _ y hy hc
    · exact key _ y hy hc
  · cases h

theorem floatText_error {s : List Char} {e : PyErr} (h : floatText s = .error e) : e = .valueError := by
  unfold floatText at h
  dsimp only at h
  split at h
  · cases h
  · injection h with h; exact h.symm

theorem floatText_minus (s : List Char) {x : ℚ} (h : floatUnsigned s = some x) : floatText ('-' :: s) = .ok (-x) := by
  show (match (floatUnsigned s).map fun x => -x with | some x => Except.ok x | none => Except.error PyErr.valueError) = _
  rw [h]; rfl

/-! ### Points of either charge -/

theorem kaon_point_values' {p : ModelParameters ℝ} {x : KaonArgs} (hx : KaonInside p x) (c : Bool) {t m a h : ℝ} (ht : 0 < t) (h4 : 4 * m ^ 2 ≤ t)
    (hn : ¬ ∃ q ∈ p.toList, "t_in_".toList <+: q.name.toList ∧ t = q.value) :
    ∃ f, 0 ≤ f ∧ functionFormFactor [.kaon t c] p = .ok [f] ∧ functionCrossSection [.kaon t c] m a h p = .ok [|scalarSigma m a h t f|] := by
  obtain ⟨y, hy⟩ := (hx.run_ok c ht.le).mpr hn
  refine ⟨‖y‖, norm_nonneg y, ?_, ?_⟩
  · rw [hx.wiring.ff, hx.check, except_ok_bind, mapM_singleton']
    show (do let r ← (do let F ← x.run c t; return ‖F‖); return [r]) = _
    rw [hy]; rfl
  · rw [hx.wiring.cs, hx.check, except_ok_bind, mapM_singleton']
    show (do let r ← (do let F ← (ScalarCS.init m a h).call (x.run c) t; return ‖F‖); return [r]) = _
    rw [ScalarCS.call_real hy ht h4]
    show Except.ok [‖_‖] = _
    rw [Complex.norm_real, Real.norm_eq_abs]
    congr 3
    unfold scalarSigma
    ring_nf

theorem deviations_fit : LiteralsFit .kaonFixedRhoOmega deviationsLiterals := by
  constructor <;> decide +kernel

theorem deviations_lists : deviationsLiterals.map (fun q => (q.1, q.2.1)) = deviationsValues := by decide +kernel

theorem deviations_tin_names : ∀ n ∈ ParamClass.kaonFixedRhoOmega.table.initArgs, "t_in_".toList <+: n.toList →
    n = "t_in_isoscalar" ∨ n = "t_in_isovector" := by
  decide +kernel

/-! ### The rows of the files -/

/-- What the scripts need of a row of a kaon file. -/
structure KaonRow (d : ℝ × ℝ × ℝ) : Prop where
  above : 4 * (0.493677 : ℝ) ^ 2 < d.1
  value : 0 ≤ d.2.1
  error : 0 < d.2.2
  n1 : d.1 ≠ 4.104732671275326
  n2 : d.1 ≠ 6.945876504806479
  n3 : d.1 ≠ 3.2291595069331067
  n4 : d.1 ≠ 0.5835126419012053
  n5 : d.1 ≠ 1.0555688365879876
  n6 : d.1 ≠ 1.0365569328792128
  n7 : d.1 ≠ 1.6795999919783429
  n8 : d.1 ≠ 1

theorem KaonRow.pos {d : ℝ × ℝ × ℝ} (h : KaonRow d) : 0 < d.1 := lt_trans (by norm_num) h.above

theorem kaonRow_of {zero : Bool} {x y e : ℚ} (h : kaonTest zero x y e = true) : KaonRow ((x : ℝ), (y : ℝ), (e : ℝ)) := by
  unfold kaonTest at h
  obtain ⟨h, h4⟩ := Bool.and_eq_true_iff.mp h
  obtain ⟨h, h3⟩ := Bool.and_eq_true_iff.mp h
  obtain ⟨h1, h2⟩ := Bool.and_eq_true_iff.mp h
  have h4 := List.all_eq_true.mp h4
  have ne : ∀ (q : ℚ) (r : ℝ), q ∈ startThresholds → (q : ℝ) = r → (x : ℝ) ≠ r := by
    intro q r hq hr
    rw [← hr]
    exact_mod_cast of_decide_eq_true (h4 q hq)
  refine ⟨?_, ?_, (Rat.cast_pos (K := ℝ)).mpr (of_decide_eq_true h3), ne 4.104732671275326 _ (by simp [startThresholds]) (by norm_num),
    ne 6.945876504806479 _ (by simp [startThresholds]) (by norm_num), ne 3.2291595069331067 _ (by simp [startThresholds]) (by norm_num),
    ne 0.5835126419012053 _ (by simp [startThresholds]) (by norm_num), ne 1.0555688365879876 _ (by simp [startThresholds]) (by norm_num),
    ne 1.0365569328792128 _ (by simp [startThresholds]) (by norm_num), ne 1.6795999919783429 _ (by simp [startThresholds]) (by norm_num),
    ne 1 _ (by simp [startThresholds]) (by norm_num)⟩
  · have := of_decide_eq_true h1
    have h5 : ((4 * 0.493677 ^ 2 : ℚ) : ℝ) < (x : ℝ) := by exact_mod_cast this
    refine lt_of_eq_of_lt ?_ h5
    norm_num
  · show (0 : ℝ) ≤ (y : ℝ)
    rcases Bool.or_eq_true_iff.mp h2 with h2 | h2
    · have := of_decide_eq_true h2
      exact_mod_cast this.le
    · rw [of_decide_eq_true (Bool.and_eq_true_iff.mp h2).2]; norm_num

theorem kaonRow_pos {x y e : ℚ} (h : kaonTest false x y e = true) : (0 : ℝ) < y := by
  unfold kaonTest at h
  obtain ⟨h, -⟩ := Bool.and_eq_true_iff.mp h
  obtain ⟨h, -⟩ := Bool.and_eq_true_iff.mp h
  have h2 := (Bool.and_eq_true_iff.mp h).2
  rw [Bool.false_and, Bool.or_false] at h2
  exact_mod_cast of_decide_eq_true h2

theorem kaon_file {lines : List String} {table : List (Numeral × Numeral × Numeral)} (ht : lines = table.map rowText) {n : ℕ} {zero : Bool}
    (h : tableTest table n (kaonTest zero) = true) : ∃ data, FileHolds lines data ∧ data.length = n ∧
      (∀ d ∈ data, KaonRow d) ∧ (zero = false → ∀ d ∈ data, 0 < d.2.1) := by
  obtain ⟨h1, h2, h3⟩ := file_data ht h
  refine ⟨_, h1, h2, fun d hd => ?_, fun hz d hd => ?_⟩
  · obtain ⟨x, y, e, rfl, hP⟩ := h3 d hd
    exact kaonRow_of hP
  · obtain ⟨x, y, e, rfl, hP⟩ := h3 d hd
    rw [hz] at hP
    exact kaonRow_pos hP

/-- The kaon files, with the number of rows and whether a value may be zero. -/
def kaonFiles : List (List String × ℕ × Bool) := [(chargedFF2, 138, false), (chargedKaon, 257, false), (chargedKaonCropped, 251, false),
  (chargedNewData2, 138, false), (neutralKaon, 141, true), (neutralKaonCropped, 138, true)]

theorem kaonFiles_data : ∀ f ∈ kaonFiles, ∃ data, FileHolds f.1 data ∧ data.length = f.2.1 ∧
    (∀ d ∈ data, KaonRow d) ∧ (f.2.2 = false → ∀ d ∈ data, 0 < d.2.1) := by
  intro f hf
  simp only [kaonFiles, List.mem_cons, List.not_mem_nil, or_false] at hf
  rcases hf with rfl | rfl | rfl | rfl | rfl | rfl
  · exact kaon_file chargedFF2_table chargedFF2_test
  · exact kaon_file chargedKaon_table chargedKaon_test
  · exact kaon_file chargedKaonCropped_table chargedKaonCropped_test
  · exact kaon_file chargedNewData2_table chargedNewData2_test
  · exact kaon_file neutralKaon_table neutralKaon_test
  · exact kaon_file neutralKaonCropped_table neutralKaonCropped_test

theorem protonFile_data : ∃ data, FileHolds protonCSExtended data ∧ data.length = 141 ∧
    ∀ d ∈ data, 4 * (0.938272 : ℝ) ^ 2 < d.1 ∧ 0 < d.2.1 ∧ 0 < d.2.2 := by
  obtain ⟨h1, h2, h3⟩ := file_data protonCSExtended_table protonCSExtended_test
  refine ⟨_, h1, h2, fun d hd => ?_⟩
  obtain ⟨x, y, e, rfl, hP⟩ := h3 d hd
  obtain ⟨h4, h5, h6⟩ := of_decide_eq_true hP
  have h7 : ((4 * 0.938272 ^ 2 : ℚ) : ℝ) < (x : ℝ) := by exact_mod_cast h4
  refine ⟨lt_of_eq_of_lt ?_ h7, (Rat.cast_pos (K := ℝ)).mpr h5, (Rat.cast_pos (K := ℝ)).mpr h6⟩
  norm_num

/-! ### The conversion of the table -/

theorem convert_row {r s : Numeral × Numeral × Numeral} (h : convertTest r s = true) (hr : KaonRow (rowValues r)) (hp : 0 < (rowValues r).2.1) :
    ∃ ff new, convertPoint 0.0072973525693 389379.3721 0.493677 (rowValues r).1 (rowValues r).2.1 (rowValues r).2.2 = .ok ((rowValues r).1, ff, new) ∧
      (rowValues s).1 = (rowValues r).1 ∧ |ff - (rowValues s).2.1| ≤ 1e-12 * (rowValues s).2.1 ∧
      |new - (rowValues s).2.2| ≤ 1e-12 * (rowValues s).2.2 := by
  unfold convertTest at h
  obtain ⟨h0, h1, h2, h3, h4, h5⟩ := of_decide_eq_true h
  have hy : (0 : ℝ) < (s.2.1.value : ℝ) := by exact_mod_cast h1
  have he : (0 : ℝ) ≤ (s.2.2.value : ℝ) := by exact_mod_cast h2
  have h3' := (Rat.cast_le (K := ℝ)).mpr h3
  have h4' := (Rat.cast_le (K := ℝ)).mpr h4
  have h5' := (Rat.cast_le (K := ℝ)).mpr h5
  push_cast at h3' h4' h5'
  obtain ⟨ff, new, hc, hff, hnew⟩ := convertPoint_close (α := 0.0072973525693) (hc2 := 389379.3721) (m := 0.493677) (t := (r.1.value : ℝ))
    (cs := (r.2.1.value : ℝ)) (err := (r.2.2.value : ℝ)) (y := (s.2.1.value : ℝ)) (e := (s.2.2.value : ℝ)) (ε := 3e-13) (by norm_num) (by norm_num) hr.pos
    hr.above hp hr.error.le hy he (by norm_num) (by norm_num) (by convert h3' using 2) (by convert h4' using 2)
    (by convert h5' using 2)
  refine ⟨ff, new, hc, ?_, hff.trans ?_, hnew.trans ?_⟩
  · show (s.1.value : ℝ) = (r.1.value : ℝ)
    rw [h0]
  · exact mul_le_mul_of_nonneg_right (by norm_num) hy.le
  · exact mul_le_mul_of_nonneg_right (by norm_num) he

theorem convert_rows {l l' : List (Numeral × Numeral × Numeral)} (h : convertTests l l' = true) (hl : ∀ d ∈ l.map rowValues, KaonRow d ∧ 0 < d.2.1) :
    ∃ out, convertAll 0.0072973525693 389379.3721 0.493677 ((l.map rowValues).map (·.1)) ((l.map rowValues).map (·.2.1)) ((l.map rowValues).map (·.2.2)) =
        .ok out ∧
      List.Forall₂ (fun new row => new.1 = row.1 ∧ |new.2.1 - row.2.1| ≤ 1e-12 * row.2.1 ∧ |new.2.2 - row.2.2| ≤ 1e-12 * row.2.2) out
        (l'.map rowValues) := by
  unfold convertAll
  induction l generalizing l' with
  | nil =>
    cases l' with
    | nil => exact ⟨[], rfl, .nil⟩
    | cons s l' => cases h
  | cons r l ih =>
    cases l' with
    | nil => cases h
    | cons s l' =>
      obtain ⟨h1, h2⟩ := Bool.and_eq_true_iff.mp h
      obtain ⟨out, ho, hf⟩ := ih h2 fun d hd => hl d (List.mem_cons_of_mem _ hd)
      obtain ⟨hr, hp⟩ := hl _ List.mem_cons_self
      obtain ⟨ff, new, hc, c1, c2, c3⟩ := convert_row h1 hr hp
      refine ⟨((rowValues r).1, ff, new) :: out, ?_, .cons ⟨c1.symm, c2, c3⟩ hf⟩
      simp only [List.map_cons, List.zip_cons_cons, List.mapM_cons]
      rw [hc, except_ok_bind, ho]; rfl

/-! ### For the scripts -/

theorem PyM.lift_bind {σ α β : Type} {r : Except PyErr α} {a : α} (h : r = .ok a) {f : α → PyM σ β} {s : σ} : (PyM.lift r >>= f) s = f a s :=
  PyM.bind_ok (by rw [h]; rfl)

theorem kaon_rows {f : List String × ℕ × Bool} (hf : f ∈ kaonFiles) {data : List (ℝ × ℝ × ℝ)} (h : FileHolds f.1 data) :
    data.length = f.2.1 ∧ (∀ d ∈ data, KaonRow d) ∧ (f.2.2 = false → ∀ d ∈ data, 0 < d.2.1) := by
  obtain ⟨data', h', h1⟩ := kaonFiles_data f hf
  rw [fileHolds_unique h h']
  exact h1

/-- The inelastic thresholds of the parameters of `calculate_deviations.py`. -/
theorem deviations_tin {p : ModelParameters ℝ} (hr : Reachable p) (hc : p.cls = .kaonFixedRhoOmega)
    (hh : p.HoldsExactly (deviationsValues.map fun q => (q.1, (q.2 : ℝ)))) (t : ℝ) :
    (∃ q ∈ p.toList, "t_in_".toList <+: q.name.toList ∧ t = q.value) ↔ t = 1.0365569328792128 ∨ t = 1.6795999919783429 := by
  have hw := reachable_wellFormed hr
  obtain ⟨x, hx⟩ := hw.exists_values
  have e1 := (hw.holds_iff hx).mp (hh.1 ("t_in_isoscalar", ((1.0365569328792128 : ℚ) : ℝ))
    (List.mem_map.mpr ⟨("t_in_isoscalar", 1.0365569328792128), by decide +kernel, rfl⟩))
  have e2 := (hw.holds_iff hx).mp (hh.1 ("t_in_isovector", ((1.6795999919783429 : ℚ) : ℝ))
    (List.mem_map.mpr ⟨("t_in_isovector", 1.6795999919783429), by decide +kernel, rfl⟩))
  have c1 : x "t_in_isoscalar" = 1.0365569328792128 := e1.2.symm.trans (by norm_num)
  have c2 : x "t_in_isovector" = 1.6795999919783429 := e2.2.symm.trans (by norm_num)
  constructor
  · rintro ⟨q, hq, hn, rfl⟩
    have hqn : q.name ∈ ParamClass.kaonFixedRhoOmega.table.initArgs := by rw [← hc, ← hw.names]; exact List.mem_map_of_mem hq
    rw [hx q hq]
    rcases deviations_tin_names _ hqn hn with h | h <;> rw [h]
    · exact Or.inl c1
    · exact Or.inr c2
  · rintro (rfl | rfl)
    · obtain ⟨q, hq, hn⟩ : ∃ q ∈ p.data, q.name = "t_in_isoscalar" := by
        have := e1.1; rw [← hw.names] at this; exact List.mem_map.mp this
      exact ⟨q, hq, by rw [hn]; decide, by rw [hx q hq, hn, c1]⟩
    · obtain ⟨q, hq, hn⟩ : ∃ q ∈ p.data, q.name = "t_in_isovector" := by
        have := e2.1; rw [← hw.names] at this; exact List.mem_map.mp this
      exact ⟨q, hq, by rw [hn]; decide, by rw [hx q hq, hn, c2]⟩

theorem scalarSigma_nonneg {m α hc2 t f : ℝ} (hh : 0 ≤ hc2) (ht : 0 < t) : 0 ≤ scalarSigma m α hc2 t f := by
  unfold scalarSigma
  have := Real.pi_pos
  have := Real.sqrt_nonneg (1 - 4 * m ^ 2 / t)
  positivity

/-- Enough points of `charged_ff_2.csv` have a small momentum. -/
theorem chargedFF2_small {data : List (ℝ × ℝ × ℝ)} (h : FileHolds chargedFF2 data) :
    5 ≤ (data.filter fun d => decide (momentumOf 0.493677 d.1 < 5)).length := by
  rw [fileHolds_unique h (file_data chargedFF2_table chargedFF2_test).1]
  have h5 : 5 ≤ (chargedFF2Table.filter fun r => decide (0.97514 < r.1.value ∧ r.1.value < 5)).length := by decide +kernel
  refine h5.trans ?_
  rw [← List.countP_eq_length_filter, ← List.countP_eq_length_filter, List.countP_map]
  refine List.countP_mono_left fun r _ hr => ?_
  obtain ⟨h1, h2⟩ := of_decide_eq_true hr
  refine decide_eq_true ?_
  have h1' : ((0.97514 : ℚ) : ℝ) < (r.1.value : ℝ) := by exact_mod_cast h1
  have h2' : (r.1.value : ℝ) < 5 := by exact_mod_cast h2
  norm_num at h1'
  show momentumOf 0.493677 (r.1.value : ℝ) < 5
  unfold momentumOf
  rw [div_lt_iff₀ (by norm_num), Real.sqrt_lt' (by norm_num)]
  nlinarith

end UA
