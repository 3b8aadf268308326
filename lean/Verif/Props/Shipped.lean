import Verif.Lemmas.ShippedEval
import Verif.Lemmas.Config
import Verif.Lemmas.RunsWitness
import Verif.Props.PlotSingle
import Verif.Props.PlotFit
import Verif.Props.SingleFit
import Verif.Props.OtherFit

/-!
# Property C94: the scripts on the files shipped with them
-/

namespace UA

/-! ### `float` -/

/-- **C94** `float` of digits with a point among them, with and without a minus sign, is the number these digits stand for. -/
theorem C94_float {before after : List ℕ} (hb : ∀ d ∈ before, d < 10) (ha : ∀ d ∈ after, d < 10) (hne : before ≠ []) :
    let text := before.map (fun d => Char.ofNat (48 + d)) ++ '.' :: after.map fun d => Char.ofNat (48 + d)
    let value : ℚ := (Nat.ofDigits 10 (before ++ after).reverse : ℕ) / 10 ^ after.length
    floatText text = .ok value ∧ floatText ('-' :: text) = .ok (-value) := by
  have hu := floatUnsigned_point hb ha (.inl hne)
  obtain ⟨d, before, rfl⟩ := List.exists_cons_of_ne_nil hne
  have hd := digitValue_digitChar (hb d List.mem_cons_self)
  refine ⟨floatText_unsigned hu ?_ ?_, floatText_minus _ hu⟩ <;>
  · intro h
    have h : some (digitChar d) = _ := h
    injection h with h
    rw [h] at hd
    exact absurd hd (by rw [show digitValue _ = none by decide +kernel]; simp)

example : floatText "12.75".toList = .ok 12.75 ∧ floatText "-0.5".toList = .ok (-0.5) := by
  have h1 := (C94_float (before := [1, 2]) (after := [7, 5]) (by decide) (by decide) (by decide)).1
  have h2 := (C94_float (before := [0]) (after := [5]) (by decide) (by decide) (by decide)).2
  exact ⟨h1.trans (by decide +kernel), h2.trans (by decide +kernel)⟩

/-- **C94** a text that contains one of `, ; : # =` (a column separated in another way, a comment or an assignment) is refused with `ValueError`, and
`float` raises no other exception. -/
theorem C94_float_refused (s : List Char) :
    (∀ c ∈ s, c ∈ [',', ';', ':', '#', '='] → floatText s = .error .valueError) ∧ ∀ e, floatText s = .error e → e = .valueError := by
  refine ⟨fun c hc h1 => ?_, fun e => floatText_error⟩
  rcases h : floatText s with e | x
  · rw [floatText_error h]
  · have h2 : c ≠ '.' ∧ c ≠ '-' ∧ c ≠ '+' ∧ digitValue c = none :=
      (by decide +kernel : ∀ c ∈ [',', ';', ':', '#', '='], c ≠ '.' ∧ c ≠ '-' ∧ c ≠ '+' ∧ digitValue c = none) c h1
    rcases floatText_ok_chars h c hc with h' | h' | h' | h'
    · exact absurd h' h2.1
    · exact absurd h' h2.2.1
    · exact absurd h' h2.2.2.1
    · rw [h2.2.2.2] at h'
      cases h'

example : floatText "0.5;".toList = .error .valueError ∧ floatText "1.2.3".toList = .error .valueError :=
  ⟨(C94_float_refused _).1 ';' (by decide) (by decide), by decide +kernel⟩

/-! ### The files -/

/-- **C94** the constants of `configuration.ini`, with their comments stripped. -/
theorem C94_configuration :
    configFloat configurationIni "alpha" = .ok 0.0072973525693 ∧ configFloat configurationIni "hc_squared" = .ok 389379.3721 ∧
    configFloat configurationIni "charged_pion_mass" = .ok 0.13957039 ∧ configFloat configurationIni "charged_kaon_mass" = .ok 0.493677 ∧
    configFloat configurationIni "proton_mass" = .ok 0.938272 ∧ configFloat configurationIni "proton_magnetic_moment" = .ok 2.792847351 ∧
    configFloat configurationIni "neutron_magnetic_moment" = .ok (-1.91304273) :=
  ⟨config_alpha, config_hc_squared, config_charged_pion_mass, config_charged_kaon_mass, config_proton_mass, config_proton_magnetic_moment,
    config_neutron_magnetic_moment⟩

/-- A constant of another section is not found. -/
example : configGet "constants".toList "phi_mass".toList none (configurationIni.map String.toList) = .error .exception := rfl

/-- **C94** in any file of sections, assignments, empty lines and comments, the value found is that of the first assignment to the option in the
section, without the blanks around it and without the comment; if there is none an exception is raised. -/
theorem C94_configuration_any {lines : List ConfigLine} (h : ∀ l ∈ lines, l.Proper) (wanted option : List Char) :
    (∀ value, configGet wanted option none (lines.map ConfigLine.text) = .ok value ↔
      ∃ i, ConfigAssigns lines wanted option i value ∧ ∀ j < i, ∀ v, ¬ ConfigAssigns lines wanted option j v) ∧
    (∀ e, configGet wanted option none (lines.map ConfigLine.text) = .error e ↔ e = .exception ∧ ∀ i v, ¬ ConfigAssigns lines wanted option i v) := by
  rcases configGet_spec wanted option lines h none with ⟨i, value, h1, h2, h3, h4⟩ | ⟨h1, h2⟩
  · rw [h1]
    refine ⟨fun v => ⟨fun hv => ?_, fun ⟨j, hj, hmin⟩ => ?_⟩, fun e => ⟨fun he => (by cases he), fun he => absurd ⟨h2, h3⟩ (he.2 i value)⟩⟩
    · injection hv with hv
      exact ⟨i, ⟨by rw [← hv]; exact h2, h3⟩, h4⟩
    · have hij : i = j := le_antisymm (not_lt.mp fun hlt => h4 j hlt v hj) (not_lt.mp fun hlt => hmin i hlt value ⟨h2, h3⟩)
      have := h2.symm.trans ((congrArg (fun k => (lines[k]?).map ConfigLine.item) hij).trans hj.1)
      injection this with this
      injection this with _ this
      rw [this]
  · rw [h1]
    refine ⟨fun v => ⟨fun hv => (by cases hv), fun ⟨j, hj, _⟩ => absurd hj (h2 j v)⟩, fun e => ⟨fun he => ?_, fun he => ?_⟩⟩
    · injection he with he
      exact ⟨he.symm, h2⟩
    · rw [he.1]

/-- Two sections with the same option, blanks around the equals sign and a comment: the second section's value is found. -/
example : configGet "b".toList "mass".toList none ["[a]".toList, "mass = 1".toList, "".toList, "[b]".toList, "mass =  2 # GeV".toList, "mass=3".toList] =
    .ok "2".toList := by
  refine (C94_configuration_any (lines := [⟨.header ['a'], [], [], [], none⟩, ⟨.assign "mass".toList ['1'], [' '], [' '], [], none⟩, ⟨.nothing, [], [], [], none⟩,
    ⟨.header ['b'], [], [], [], none⟩, ⟨.assign "mass".toList ['2'], [' '], [' ', ' '], [], some " GeV".toList⟩, ⟨.assign "mass".toList ['3'], [], [], [], none⟩])
    ?_ "b".toList "mass".toList).1 ['2'] |>.mpr ⟨4, ⟨rfl, rfl⟩, ?_⟩
  · have hword : IsConfigWord "mass".toList := ⟨by decide, by decide⟩
    intro l hl
    fin_cases hl
    · exact ConfigLine.proper_header _ (by decide) (by decide)
    · exact ConfigLine.proper_assign _ (by decide) (by decide) (by decide) hword (by decide) (by decide)
    · exact ConfigLine.proper_nothing _ (by decide)
    · exact ConfigLine.proper_header _ (by decide) (by decide)
    · exact ConfigLine.proper_assign _ (by decide) (by decide) (by decide) hword (by decide) (by decide)
    · exact ConfigLine.proper_assign _ (by decide) (by decide) (by decide) hword (by decide) (by decide)
  · rintro j hj v ⟨h1, h2⟩
    match j, hj with
    | 0, _ => cases h1
    | 1, _ => exact absurd h2 (by decide)
    | 2, _ => cases h1
    | 3, _ => cases h1

/-- **C94** every kaon file can be read; the number of its rows; all `t` are above the production threshold, all errors positive and all values
positive (in the two neutral files: not negative). -/
theorem C94_kaon_data : ∀ f ∈ [(chargedFF2, 138, false), (chargedKaon, 257, false), (chargedKaonCropped, 251, false), (chargedNewData2, 138, false),
    (neutralKaon, 141, true), (neutralKaonCropped, 138, true)], ∃ data, FileHolds f.1 data ∧ data.length = f.2.1 ∧
      ∀ d ∈ data, 4 * (0.493677 : ℝ) ^ 2 < d.1 ∧ 0 < d.2.2 ∧ 0 ≤ d.2.1 ∧ (f.2.2 = false → 0 < d.2.1) := by
  intro f hf
  obtain ⟨data, h1, h2, h3, h4⟩ := kaonFiles_data f hf
  exact ⟨data, h1, h2, fun d hd => ⟨(h3 d hd).above, (h3 d hd).error, (h3 d hd).value, fun h => h4 h d hd⟩⟩

/-- **C94** the nucleon file can be read; all points are above the threshold, all values and errors positive. -/
theorem C94_proton_data : ∃ data, FileHolds protonCSExtended data ∧ data.length = 141 ∧
    ∀ d ∈ data, 4 * (0.938272 : ℝ) ^ 2 < d.1 ∧ 0 < d.2.1 ∧ 0 < d.2.2 := protonFile_data

/-- The first row of `charged_ff_2.csv`. -/
example : ∃ data, FileHolds chargedFF2 data ∧ data[0]? = some ((0.97515625 : ℝ), (17.341021514577047 : ℝ), (13.30942375865632 : ℝ)) :=
  ⟨_, (file_data chargedFF2_table chargedFF2_test).1, by
    show some (rowValues (⟨1, 8, 97515625⟩, ⟨2, 15, 17341021514577047⟩, ⟨2, 14, 1330942375865632⟩)) = _
    unfold rowValues Numeral.value
    norm_num⟩

/-! ### The conversion -/

/-- **C94** `convert_cs_data_to_ff_data.py` on `charged_new_data2.csv` completes, and `charged_ff_2.csv` is its output: the same `t`, and form
factors and errors equal to a relative accuracy of `10⁻¹²`. -/
theorem C94_conversion : ∃ rows data, convertMain configurationIni chargedNewData2 = .ok rows ∧ FileHolds chargedFF2 data ∧ data.length = 138 ∧
    List.Forall₂ (fun new row => new.1 = row.1 ∧ |new.2.1 - row.2.1| ≤ 1e-12 * row.2.1 ∧ |new.2.2 - row.2.2| ≤ 1e-12 * row.2.2) rows data := by
  obtain ⟨h1, -, h3⟩ := file_data chargedNewData2_table chargedNewData2_test
  obtain ⟨k1, k2, -⟩ := file_data chargedFF2_table chargedFF2_test
  obtain ⟨out, ho, hf⟩ := convert_rows convert_tests fun d hd => by
    obtain ⟨x, y, e, rfl, hP⟩ := h3 d hd
    exact ⟨kaonRow_of hP, kaonRow_pos hP⟩
  refine ⟨out, _, ?_, k1, k2, hf⟩
  unfold convertMain
  rw [config_alpha, except_ok_bind, config_hc_squared, except_ok_bind, config_charged_kaon_mass, except_ok_bind, h1, except_ok_bind]
  exact ho

/-! ### The scripts -/

/-- **C94** `plot_single_component.py` with the shipped files draws both panels, all points in order of `t`, the curve being the textbook cross
section with the form factor of the resonance, positive everywhere. -/
theorem C94_single_component {model : SingleComponentModel}
    (hm : SingleComponentModel.init 0.17531904388276887 1.0555688365879876 1 0.78266 0.00868 = .ok model) {charged neutral : List (ℝ × ℝ × ℝ)}
    (hch : FileHolds chargedKaon charged) (hne : FileHolds neutralKaon neutral) (w : World) :
    ∃ (F : ℝ → ℂ) (upper lower : List (ℝ × ℝ × ℝ)),
      (∀ d ∈ charged ++ neutral, model.call d.1 = .ok (F d.1)) ∧
      upper.Perm charged ∧ upper.Pairwise (fun a b => a.1 ≤ b.1) ∧ lower.Perm neutral ∧ lower.Pairwise (fun a b => a.1 ≤ b.1) ∧
      plotSingleMain configurationIni chargedKaon neutralKaon w =
        (.ok [⟨"phi: Charged", ⟨upper.map (fun d => (d.1 : ℂ)), upper.map (·.2.1), upper.map (·.2.2),
            upper.map fun d => scalarSigma 0.493677 0.0072973525693 389379.3721 d.1 ‖F d.1‖⟩⟩,
          ⟨"phi: Neutral", ⟨lower.map (fun d => (d.1 : ℂ)), lower.map (·.2.1), lower.map (·.2.2),
            lower.map fun d => scalarSigma 0.493677 0.0072973525693 389379.3721 d.1 ‖F d.1‖⟩⟩], w) ∧
      ∀ d ∈ charged ++ neutral, 0 < scalarSigma 0.493677 0.0072973525693 389379.3721 d.1 ‖F d.1‖ := by
  have hc := kaon_rows (f := (chargedKaon, 257, false)) (by simp [kaonFiles]) hch
  have hn := kaon_rows (f := (neutralKaon, 141, true)) (by simp [kaonFiles]) hne
  have hall : ∀ d ∈ charged ++ neutral, KaonRow d := fun d hd => (List.mem_append.mp hd).elim (hc.2.1 d) (hn.2.1 d)
  obtain ⟨F, upper, lower, h1, h2, h3, h4, h5, h6, h7⟩ := C92_figure 0.493677 0.0072973525693 389379.3721 (by norm_num) (by norm_num)
    (charged := charged) (neutral := neutral) (.inl (fun h => by rw [h] at hc; cases hc.1))
    (fun d hd => ⟨(hall d hd).pos, (hall d hd).above.le, (hall d hd).n5⟩) hm w
  refine ⟨F, upper, lower, h1, h2, h3, h4, h5, ?_, fun d hd => ?_⟩
  · unfold plotSingleMain
    rw [PyM.lift_bind kaonConfiguration_shipped]
    dsimp only
    rw [PyM.lift_bind hch]
    dsimp only
    rw [PyM.lift_bind hne]
    exact h6
  · exact lt_of_le_of_ne (h7 d hd).1 fun h => (hall d hd).above.ne' ((h7 d hd).2.mp h.symm)

example : ∃ model charged neutral, SingleComponentModel.init 0.17531904388276887 1.0555688365879876 1 0.78266 0.00868 = .ok model ∧
    FileHolds chargedKaon charged ∧ FileHolds neutralKaon neutral := by
  obtain ⟨model, -, hm, -⟩ := C92_component
  obtain ⟨charged, hc, -⟩ := kaonFiles_data (chargedKaon, 257, false) (by simp [kaonFiles])
  obtain ⟨neutral, hn, -⟩ := kaonFiles_data (neutralKaon, 141, true) (by simp [kaonFiles])
  exact ⟨model, charged, neutral, hm, hc, hn⟩

/-- **C94** `calculate_deviations.py` with the shipped files completes: the parameters can be made, and the table has one row for each of the neutral
points, in the order of the file: `t`, error, value, the textbook cross section with the form factor of the model, and the deviation in units of the
error. -/
theorem C94_deviations {neutral : List (ℝ × ℝ × ℝ)} (hne : FileHolds neutralKaonCropped neutral) (w : World) :
    ∃ (p : ModelParameters ℝ) (f : ℝ → ℝ) (w' : World), makeDeviationsParameters = .ok p ∧
      p.HoldsExactly (deviationsValues.map fun q => (q.1, (q.2 : ℝ))) ∧
      (∀ d ∈ neutral, 0 ≤ f d.1 ∧ functionFormFactor [.kaon (d.1 : ℝ) false] p = .ok [f d.1]) ∧
      deviationsMain configurationIni chargedKaonCropped neutralKaonCropped w =
        (.ok (neutral.map fun d => (d.1, d.2.2, d.2.1, scalarSigma 0.493677 0.0072973525693 389379.3721 d.1 (f d.1),
          |d.2.1 - scalarSigma 0.493677 0.0072973525693 389379.3721 d.1 (f d.1)| / d.2.2)), w') := by
  obtain ⟨charged, hch, -⟩ := kaonFiles_data (chargedKaonCropped, 251, false) (by simp [kaonFiles])
  have hn := (kaon_rows (f := (neutralKaonCropped, 138, true)) (by simp [kaonFiles]) hne).2.1
  obtain ⟨p, hp, hr, hc, hi, hh, -⟩ := deviations_fit.make (c := .kaonFixedRhoOmega) trivial
  replace hh : p.HoldsExactly (deviationsValues.map fun q => (q.1, (q.2 : ℝ))) := by rw [← deviations_lists, List.map_map]; exact hh
  obtain ⟨x, hx⟩ := kaon_inside hr (by rw [hc]; trivial) hi
  have hpt : ∀ t : ℝ, ∃ f : ℝ, 0 < t → 4 * (0.493677 : ℝ) ^ 2 ≤ t → t ≠ 1.0365569328792128 → t ≠ 1.6795999919783429 →
      0 ≤ f ∧ functionFormFactor [.kaon t false] p = .ok [f] ∧
      functionCrossSection [.kaon t false] 0.493677 0.0072973525693 389379.3721 p = .ok [scalarSigma 0.493677 0.0072973525693 389379.3721 t f] := by
    intro t
    by_cases h : 0 < t ∧ 4 * (0.493677 : ℝ) ^ 2 ≤ t ∧ t ≠ 1.0365569328792128 ∧ t ≠ 1.6795999919783429
    · obtain ⟨f, h1, h2, h3⟩ := kaon_point_values' hx false (t := t) (m := 0.493677) (a := 0.0072973525693) (h := 389379.3721) h.1 h.2.1
        (by rw [deviations_tin hr hc hh]; exact fun h' => h'.elim h.2.2.1 h.2.2.2)
      rw [abs_of_nonneg (scalarSigma_nonneg (by norm_num) h.1)] at h3
      exact ⟨f, fun _ _ _ _ => ⟨h1, h2, h3⟩⟩
    · exact ⟨0, fun h1 h2 h3 h4 => absurd ⟨h1, h2, h3, h4⟩ h⟩
  choose f hf using hpt
  have hf' := fun d hd => hf d.1 (hn d hd).pos (hn d hd).above.le (hn d hd).n6 (hn d hd).n7
  have hlast : (w.heap ++ [p])[w.heap.length]? = some p := by simp
  have ht := (C72_table (w := { w with heap := w.heap ++ [p] }) hlast hr (neutral.map (·.1)) (neutral.map (·.2.1)) (neutral.map (·.2.2)) false
    0.493677 0.0072973525693 389379.3721
    (neutral.map fun d => (d.1, d.2.2, d.2.1, scalarSigma 0.493677 0.0072973525693 389379.3721 d.1 (f d.1),
          |d.2.1 - scalarSigma 0.493677 0.0072973525693 389379.3721 d.1 (f d.1)| / d.2.2))).mpr
    ⟨neutral.map fun d => scalarSigma 0.493677 0.0072973525693 389379.3721 d.1 (f d.1), by
        rw [hx.wiring.cs, hx.check, except_ok_bind]; rfl, by
        rw [List.forall₂_map_left_iff, List.forall₂_map_right_iff]
        exact List.forall₂_same.mpr fun d hd => (hf' d hd).2.2, by simp, fun i hi => by
        have hi' : i < neutral.length := by simpa using hi
        refine ⟨(neutral[i]).1, (neutral[i]).2.2, (neutral[i]).2.1, scalarSigma 0.493677 0.0072973525693 389379.3721 (neutral[i]).1 (f (neutral[i]).1),
          by simp [hi'], by simp [hi'], by simp [hi'], by simp [hi'], (hn _ (List.getElem_mem hi')).error.ne', by simp [hi']⟩⟩
  refine ⟨p, f, (calculateDeviationsFromFit w.heap.length (neutral.map (·.1)) (neutral.map (·.2.1)) (neutral.map (·.2.2)) false
    0.493677 0.0072973525693 389379.3721 { w with heap := w.heap ++ [p] }).2, hp, hh, fun d hd => ⟨(hf' d hd).1, (hf' d hd).2.1⟩, ?_⟩
  unfold deviationsMain
  rw [PyM.lift_bind kaonConfiguration_shipped]
  dsimp only
  rw [PyM.lift_bind hch, PyM.lift_bind hne]
  dsimp only
  rw [PyM.lift_bind (show makeDeviationsParameters = .ok p from hp), PyM.bind_ok (newParams_run p w)]
  exact Prod.ext ht rfl

example : ∃ neutral, FileHolds neutralKaonCropped neutral ∧ neutral.length = 138 := by
  obtain ⟨neutral, h, hl, -⟩ := kaonFiles_data (neutralKaonCropped, 138, true) (by simp [kaonFiles])
  exact ⟨neutral, h, hl⟩

/-- **C94** `run_single_fit.py` of the kaon completes with the shipped files if the fitting library keeps to the bounds and uses no `t` of the data as a
value. -/
theorem C94_kaon_single_fit {charged neutral : List (ℝ × ℝ × ℝ)} (hch : FileHolds chargedNewData2 charged) (hne : FileHolds neutralKaon neutral)
    {env : Env} (hfit : env.FitsInside {t | ∃ d ∈ charged ++ neutral, t = d.1}) (w : World) :
    ∃ out w', kaonSingleFitMain env configurationIni chargedNewData2 neutralKaon w = (.ok out, w') := by
  have hc := kaon_rows (f := (chargedNewData2, 138, false)) (by simp [kaonFiles]) hch
  have hn := kaon_rows (f := (neutralKaon, 141, true)) (by simp [kaonFiles]) hne
  have hall : ∀ d ∈ charged ++ neutral, KaonRow d := fun d hd => (List.mem_append.mp hd).elim (hc.2.1 d) (hn.2.1 d)
  unfold kaonSingleFitMain
  rw [PyM.lift_bind kaonConfiguration_shipped]
  dsimp only
  rw [PyM.lift_bind hch]
  dsimp only
  rw [PyM.lift_bind hne]
  exact C87_kaon_completes (pion_mass := 0.13957039) (by norm_num) _ (fun h => by rw [h] at hc; cases hc.1)
    (fun d hd => ⟨(hall d hd).pos, (hall d hd).error.ne', (hall d hd).n1, (hall d hd).n2⟩)
    (by rw [List.length_append, hc.1, hn.1]; norm_num) hfit w

example : ∃ charged neutral, FileHolds chargedNewData2 charged ∧ FileHolds neutralKaon neutral ∧
    (idleEnv {t | ∃ d ∈ charged ++ neutral, t = d.1}).FitsInside {t | ∃ d ∈ charged ++ neutral, t = d.1} := by
  obtain ⟨charged, hc, -⟩ := kaonFiles_data (chargedNewData2, 138, false) (by simp [kaonFiles])
  obtain ⟨neutral, hn, -⟩ := kaonFiles_data (neutralKaon, 141, true) (by simp [kaonFiles])
  exact ⟨charged, neutral, hc, hn, idleEnv_fits _⟩

/-- **C94** `run_single_fit.py` of the nucleon with the shipped files: the fitting library keeping to the bounds, there is no exception but
`ZeroDivisionError`. -/
theorem C94_nucleon_single_fit {env : Env} (hfit : env.FitsInside ∅) (w : World) :
    ∀ e w', nucleonSingleFitMain env configurationIni protonCSExtended w = (.error e, w') → e = .zeroDivisionError := by
  obtain ⟨data, hd, hl, hrow⟩ := protonFile_data
  unfold nucleonSingleFitMain
  rw [PyM.lift_bind nucleonConfiguration_shipped]
  dsimp only
  rw [PyM.lift_bind hd]
  exact (C87_nucleon_run (pion_mass := 0.13957039) (by norm_num) _ _
    (fun d hd => ⟨lt_trans (by norm_num) (hrow d hd).1, (hrow d hd).1.le, (hrow d hd).2.2.ne'⟩) (by rw [hl]; norm_num) hfit w).1

example : (idleEnv ∅).FitsInside ∅ := idleEnv_fits _

/-- **C94** `fit_ff_other_models.py` with the shipped files never prints a result. If the directory of the reports can be made and the library keeps to
the number of parameters, it stops with `IndexError`; if the library evaluates the function at all, no report has been written. -/
theorem C94_other_models (env : Env) (random : ℕ → ℕ → ℝ) (w : World) :
    (∀ out w', fitOtherModelsMain env random chargedFF2 w ≠ (.ok out, w')) ∧
    (env.FitsSized → w.fs.exists "/home/lukas/reports/ff/etgmr__1_0" = false → env.mkdirFails "/home/lukas/reports/ff/etgmr__1_0" = false →
      ∃ w', fitOtherModelsMain env random chargedFF2 w = (.error .indexError, w') ∧ (env.Evaluates → w'.fs.files = w.fs.files)) := by
  obtain ⟨data, hd, hl, -⟩ := kaonFiles_data (chargedFF2, 138, false) (by simp [kaonFiles])
  have hmain : fitOtherModelsMain env random chargedFF2 w = bestOfRuns env (fun i name => fitOtherModels env (random i) (data.map (·.1)) (data.map (·.2.1))
      (data.map (·.2.2)) "/home/lukas/reports/ff" name "etgmr") "_1_" 1 3 w := by
    unfold fitOtherModelsMain
    rw [PyM.lift_bind hd]
  rw [hmain]
  constructor
  · intro out w' h
    unfold bestOfRuns at h
    obtain ⟨results, w₁, h, -⟩ := PyM.bind_eq_ok.mp h
    obtain ⟨r, w₂, h, -⟩ := PyM.bind_eq_ok.mp h
    exact C88_never env (random 0) data _ _ _ _ _ _ h
  · intro h1 h2 h3
    have hn : pathJoin "/home/lukas/reports/ff" ("etgmr" ++ "_" ++ ("_1_" ++ toString 0)) = "/home/lukas/reports/ff/etgmr__1_0" := by decide +kernel
    obtain ⟨w', h, h'⟩ := C88_exception h1 (random 0) (data := data) (fun h => by rw [h] at hl; cases hl) (path_to_reports := "/home/lukas/reports/ff")
      (name := "_1_" ++ toString 0) (model := "etgmr") (.inl (by decide +kernel)) (w := w) (by rw [hn]; exact h2) (by rw [hn]; exact h3)
    refine ⟨w', ?_, h'⟩
    unfold bestOfRuns
    exact PyM.bind_error (PyM.bind_error h)

example : (idleEnv ∅).FitsSized ∧ (idleEnv ∅).Evaluates ∧ (startWorld []).fs.exists "/home/lukas/reports/ff/etgmr__1_0" = false ∧
    (idleEnv ∅).mkdirFails "/home/lukas/reports/ff/etgmr__1_0" = false := by
  have h : ∀ k problem, (idleEnv ∅).curve_fit k problem = .ask problem.p0 fun _ => .done (.ok (problem.p0, [])) := fun k problem =>
    if_pos fun _ _ h => h
  refine ⟨fun k problem _ => ?_, fun k problem => ⟨_, _, h k problem⟩, rfl, rfl⟩
  rw [h]
  exact ⟨rfl, fun _ => rfl⟩

/-- **C94** `plot_fit.py` with the shipped files completes, the fitting library keeping to the bounds and the plotting library working. The printed
form factor at `t = 8` is `0.1290835588` to nine decimals; the figure has all 138 points in order of `t`, with the form factor at each of them as
the curve, which is positive everywhere. -/
theorem C94_plot_fit {env : Env} {S : Set ℝ} (henv : env.FitsInside S) (hplot : ∀ i, env.plot i = .ok ()) {p : ModelParameters ℝ}
    (hp : makePlotFitParameters = .ok p) {data : List (ℝ × ℝ × ℝ)} (hdata : FileHolds chargedFF2 data) (w : World) :
    ∃ (f : ℝ) (out : List (ℝ × ℝ × ℝ)) (curve : List ℝ) (task : Task) (w' : World),
      plotFitMain env configurationIni chargedFF2 w = (.ok ([f], [scalarSigma 0.493677 0.0072973525693 389379.3721 8 f],
        [⟨"plot_fit: Charged", ⟨out.map (fun q => (q.1 : ℂ)), out.map (·.2.1), out.map (·.2.2), curve⟩⟩], task), w') ∧
      |f - 0.1290835588| ≤ 1e-9 ∧ out.Perm data ∧ out.Pairwise (fun a b => a.1 ≤ b.1) ∧
      List.Forall₂ (fun d y => functionFormFactor [.kaon (d.1 : ℝ) true] p = .ok [y] ∧ 0 < y) out curve := by
  obtain ⟨-, hrow, hpos⟩ := kaon_rows (f := (chargedFF2, 138, false)) (by simp [kaonFiles]) hdata
  obtain ⟨p', hp', hr, hc, hi, hh, -⟩ := plotFit_object
  obtain rfl : p = p' := Except.ok.inj (hp.symm.trans hp')
  have hx := kaon_inside_wired hr (by rw [hc]; trivial) hi (plotFit_wiring hr hc hh)
  have hval : ∀ d ∈ data, ∀ y, functionFormFactor [.kaon (d.1 : ℝ) true] p = .ok [y] → 0 < y := by
    intro d hd y hy
    have hrows := plotFit_nonzero_rows plotFit_tests (fun d hd => by
      obtain ⟨-, -, h3⟩ := file_data chargedFF2_table chargedFF2_test
      obtain ⟨a, b, c, rfl, hP⟩ := h3 d hd
      exact (kaonRow_of hP).pos)
    rw [← fileHolds_unique hdata (file_data chargedFF2_table chargedFF2_test).1] at hrows
    obtain ⟨z, hz, hz0⟩ := hrows d hd
    rw [hx.wiring.ff, hx.check, except_ok_bind, mapM_singleton'] at hy
    have h' : (do let r ← (do let F ← plotFitArgs.run true (d.1 : ℝ); return ‖F‖); return [r]) = Except.ok [y] := hy
    rw [hz] at h'
    have h2 : Except.ok (ε := PyErr) [‖z‖] = .ok [y] := h'
    injection h2 with h2
    injection h2 with h2
    rw [← h2]
    exact norm_pos_iff.mpr hz0
  have hsmall := chargedFF2_small hdata
  have hk := C91_run (S := S) (env := env) ⟨0.493677, 0.0072973525693, 389379.3721⟩ (by norm_num) (by norm_num) (by norm_num) (by norm_num)
    (data := data) (fun d hd => ⟨(hrow d hd).above, hpos rfl d hd, (hrow d hd).error.ne', (hrow d hd).n3, (hrow d hd).n4⟩)
    (by
      obtain ⟨d, hd⟩ := List.exists_mem_of_length_pos (lt_of_lt_of_le (by norm_num) hsmall)
      obtain ⟨h1, h2⟩ := List.mem_filter.mp hd
      exact ⟨d, h1, of_decide_eq_true h2⟩) henv hplot hp w
  have hmain : plotFitMain env configurationIni chargedFF2 w = runPlotFit env ⟨0.493677, 0.0072973525693, 389379.3721⟩ (data.map (·.1))
      (data.map (·.2.1)) (data.map (·.2.2)) w := by
    unfold plotFitMain
    rw [PyM.lift_bind kaonConfiguration_shipped]
    dsimp only
    rw [PyM.lift_bind hdata]
  rw [hmain]
  obtain ⟨⟨printed_f, printed_g, panels, task⟩, w', hrun⟩ := PyM.completes_of fun e w' h => by
    obtain ⟨d, hd, h0⟩ := (hk.1 e w' h).2
    exact absurd (hval d hd 0 h0) (lt_irrefl _)
  obtain ⟨f, out, ys, p'', e1, hf8, hf0, e2, hperm, hsort, e3, hcurve, -⟩ := hk.2 _ _ _ _ _ hrun
  refine ⟨f, out, ys, task, w', ?_, ?_, hperm, hsort, ?_⟩
  · rw [hrun, e1, e2, e3, abs_of_nonneg (scalarSigma_nonneg (by norm_num) (by norm_num))]
  · obtain ⟨y, hy, hclose⟩ := plotFit_at_eight
    rw [hx.wiring.ff, hx.check, except_ok_bind, mapM_singleton'] at hf8
    have h' : (do let r ← (do let F ← plotFitArgs.run true 8; return ‖F‖); return [r]) = Except.ok [f] := hf8
    rw [hy] at h'
    have h2 : Except.ok (ε := PyErr) [‖y‖] = .ok [f] := h'
    injection h2 with h2
    injection h2 with h2
    rw [← h2]
    exact norm_of_close hclose
  · rw [List.forall₂_iff_get] at hcurve ⊢
    refine ⟨hcurve.1, fun i h1 h2 => ⟨hcurve.2 i h1 h2, hval _ (hperm.mem_iff.mp (List.get_mem _ _)) _ (hcurve.2 i h1 h2)⟩⟩

example : ∃ p data, makePlotFitParameters = .ok p ∧ FileHolds chargedFF2 data ∧ (idleEnv ∅).FitsInside ∅ ∧ ∀ i, (idleEnv ∅).plot i = .ok () := by
  obtain ⟨p, hp, -⟩ := C91_object
  obtain ⟨data, hd, -⟩ := kaonFiles_data (chargedFF2, 138, false) (by simp [kaonFiles])
  exact ⟨p, data, hp, hd, idleEnv_fits _, fun _ => rfl⟩

end UA
