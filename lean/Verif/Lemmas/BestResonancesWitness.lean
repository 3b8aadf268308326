import Verif.Lemmas.BestResonances
import Verif.Lemmas.ContinuityNucleonWitness

/-! Objects of which some masses and widths are free. -/

namespace UA

/-- Everything but the named parameters fixed. -/
theorem fix_except {p : ModelParameters ℝ} (h : Reachable p) (P : String → Bool) :
    ∃ p', p.fixParameters (p.names.filter fun n => !P n) = (.ok (), p') ∧ Reachable p' ∧ p'.cls = p.cls ∧
      p'.data = p.data.map fun q => ⟨q.name, q.value, q.is_fixed || !P q.name⟩ := by
  obtain ⟨p', h1, h2, h3⟩ := C42_fix h (ns := p.names.filter fun n => !P n) fun n hn => (List.mem_filter.mp hn).1
  refine ⟨p', h1, ?_, h2, ?_⟩
  · have := h.step (.fixParameters (p.names.filter fun n => !P n))
    change Reachable (p.fixParameters _).2 at this
    rwa [h1] at this
  · refine Eq.trans (show p'.data = _ from h3) (List.map_congr_left fun q hq => ?_)
    have : decide (q.name ∈ p.names.filter fun n => !P n) = !P q.name := by
      have hq' : q.name ∈ p.names := List.mem_map_of_mem hq
      by_cases hP : P q.name <;> simp [hP, hq']
    rw [this]

theorem fix_except_values {p p' : ModelParameters ℝ} {P : String → Bool} (hd : p'.data = p.data.map fun q => ⟨q.name, q.value, q.is_fixed || !P q.name⟩)
    {v : String → ℝ} (hv : ∀ q ∈ p.data, q.value = v q.name) : ∀ q ∈ p'.data, q.value = v q.name := by
  intro q hq
  rw [hd] at hq
  obtain ⟨r, hr, rfl⟩ := List.mem_map.mp hq
  exact hv r hr

theorem fix_except_free {p p' : ModelParameters ℝ} {P : String → Bool} (hd : p'.data = p.data.map fun q => ⟨q.name, q.value, q.is_fixed || !P q.name⟩) :
    ∀ q ∈ p'.data, q.is_fixed = false → P q.name = true := by
  intro q hq hf
  rw [hd] at hq
  obtain ⟨r, hr, rfl⟩ := List.mem_map.mp hq
  simpa using (Bool.or_eq_false_iff.mp hf).2

/-! ### Kaons: thresholds 1/10 and 10, masses 2, all masses and widths free -/

/-- Values with inelastic thresholds above the squares of all masses. -/
noncomputable def highValue (n : String) : ℝ :=
  if "t_0_".toList <+: n.toList then 1 / 10 else if "t_in_".toList <+: n.toList then 10 else if "mass_".toList <+: n.toList then 2 else 1

theorem high_t0 {n : String} (h : "t_0_".toList <+: n.toList) : highValue n = 1 / 10 := if_pos h

theorem high_tin {n : String} {s : List Char} (h : n.toList = "t_in_".toList ++ s) : highValue n = 10 := by
  unfold highValue
  rw [if_neg, if_pos ⟨s, h.symm⟩]
  rintro ⟨s', hs'⟩
  rw [h] at hs'
  have := congrArg (fun l => l[2]?) hs'
  simp at this

theorem high_mass {n : String} (h : "mass_".toList <+: n.toList) : highValue n = 2 := by
  unfold highValue
  rw [if_neg fun h' => not_prefix h' h (x := 't') (y := 'm') (by decide) (by decide) (by decide),
    if_neg fun h' => not_prefix h' h (x := 't') (y := 'm') (by decide) (by decide) (by decide), if_pos h]

theorem high_decay {n : String} (h : "decay_rate_".toList <+: n.toList) : highValue n = 1 := by
  unfold highValue
  rw [if_neg fun h' => not_prefix h' h (x := 't') (y := 'd') (by decide) (by decide) (by decide),
    if_neg fun h' => not_prefix h' h (x := 't') (y := 'd') (by decide) (by decide) (by decide),
    if_neg fun h' => not_prefix h' h (x := 'm') (y := 'd') (by decide) (by decide) (by decide)]

theorem high_inside {c : ParamClass} (hc : IsResonanceClass c) : InsideValues c highValue := by
  refine ⟨fun n _ hn => by rw [high_t0 hn]; norm_num, fun n _ hn => ?_, fun n _ hn => by rw [high_decay hn]; norm_num, fun n _ m s hn hm => ?_⟩
  · rw [high_mass hn]
    exact (massThreshold_lt hc (fun n _ ht => by rw [high_t0 ht]; norm_num) n).trans (by norm_num)
  · rw [high_t0 ⟨s, hm.symm⟩, high_tin hn]; norm_num

/-- Masses and widths. -/
def isResonanceName (n : String) : Bool := "mass_".toList.isPrefixOf n.toList || "decay_rate_".toList.isPrefixOf n.toList

theorem kaon_upper (c : ParamClass) (hc : IsKaonClass c) : ∀ n ∈ c.table.initArgs, (writtenBounds c n).2 ≤ 3 := by
  revert hc; cases c <;> decide +kernel

theorem kaon_high_case : ∃ p : ModelParameters ℝ, Reachable p ∧ IsKaonClass p.cls ∧ p.InsideMaximal ∧ p.OnlyResonancesFree ∧
    (∀ q ∈ p.toList, "t_0_".toList <+: q.name.toList → q.value ≤ 0.54) ∧ (∃ q ∈ p.toList, q.is_fixed = false) ∧
    (∀ q ∈ p.toList, "t_in_".toList <+: q.name.toList → q.value = 10) ∧
    ∃ b, p.getBoundsForFreeParameters true = .ok b ∧ ∀ xs, Between b xs → (p.updateFreeValues xs).2.OffSwitch := by
  obtain ⟨p, -, hr, hcls, hd⟩ := fix_except (valueObject_reachable .kaon highValue) isResonanceName
  have hv := fix_except_values hd (valueObject_values .kaon highValue)
  have hcls : p.cls = .kaon := hcls
  have hc : IsKaonClass p.cls := by rw [hcls]; trivial
  have hres := kaon_is_resonance hc
  have hfree : p.OnlyResonancesFree := fun q hq hf => by
    have := fix_except_free hd q hq hf
    simpa [isResonanceName, List.isPrefixOf_iff_prefix] using this
  refine ⟨p, hr, hc, insideMaximal_of_values hr hres hv (high_inside hres), hfree, fun q hq ht => ?_, ?_, fun q hq ht => ?_,
    _, resonance_bounds hr hres hfree, fun xs hx => ?_⟩
  · rw [hv q hq, high_t0 ht]; norm_num
  · refine ⟨⟨"mass_rho", highValue "mass_rho", false⟩, ?_, rfl⟩
    show _ ∈ p.data
    rw [hd]
    exact List.mem_map.mpr ⟨⟨"mass_rho", highValue "mass_rho", false⟩, List.mem_map.mpr ⟨("mass_rho", "mass_rho", false), by decide +kernel, rfl⟩, by
      simp [isResonanceName]⟩
  · obtain ⟨s, hs⟩ := ht
    rw [hv q hq, high_tin hs.symm]
  · have hx' := (between_iff (fun q : Parameter ℝ => (resonanceBounds p.cls q.name).1) (fun q => (resonanceBounds p.cls q.name).2) _ xs).mp hx
    have hlen : xs.length = p.getFreeValues.length := by rw [free_length, ← hx'.length_eq]
    have huv := update_values hr hlen
    have hw := reachable_wellFormed (update_reachable hr xs)
    have hmem : ∀ q ∈ (p.updateFreeValues xs).2.data, q.name ∈ p.cls.table.initArgs := fun q hq => by
      have : q.name ∈ (p.updateFreeValues xs).2.names := List.mem_map_of_mem hq
      rw [hw.names, update_data hlen] at this
      exact this
    intro m hm q hq hmn hqn he
    have hq10 : q.value = 10 := by
      rw [huv q hq]
      rcases resonance_values hr hfree hx' (hmem q hq) with ⟨r, h1, -, h2, h3⟩ | ⟨-, h2 | h2, -⟩
      · rw [h3, hv r h1, h2, hqn]
        split_ifs
        · exact high_tin (s := "isoscalar".toList) (by decide)
        · exact high_tin (s := "isovector".toList) (by decide)
      all_goals
        exfalso
        rw [hqn] at h2
        revert h2
        split_ifs <;> decide
    have hmv : 0 < m.value ∧ m.value ≤ 3 := by
      rw [huv m hm]
      rcases resonance_values hr hfree hx' (hmem m hm) with ⟨r, h1, -, h2, h3⟩ | ⟨⟨h1, -⟩, h2, h3, h4⟩
      · rw [h3, hv r h1, h2, high_mass hmn]; norm_num
      · refine ⟨lt_of_lt_of_le ?_ h3, h4.trans ?_⟩
        · have := (resonance_table p.cls hres _ (hmem m hm) h1 h2).2.2.1 hmn
          have h5 : (0 : ℚ) < (writtenBounds p.cls m.name).1 := lt_of_lt_of_le (by norm_num) this
          show (0 : ℝ) < ((writtenBounds p.cls m.name).1 : ℝ)
          exact_mod_cast h5
        · have := kaon_upper p.cls hc _ (hmem m hm)
          show ((writtenBounds p.cls m.name).2 : ℝ) ≤ 3
          exact_mod_cast this
    rw [hq10] at he
    nlinarith [hmv.1, hmv.2]

/-! ### Nucleons: the mass of the rho free -/

theorem rho_bounds : resonanceBounds .nucleon "mass_rho" = (((writtenBounds .nucleon "mass_rho").1 : ℝ), ((writtenBounds .nucleon "mass_rho").2 : ℝ)) := rfl

theorem rho_written : 1 / 2 < (writtenBounds .nucleon "mass_rho").1 ∧ (writtenBounds .nucleon "mass_rho").2 < 3 := by decide +kernel

theorem nucleonCase_rho {T m m' : ℝ} {n : String} (hn : n ≠ "mass_rho") : nucleonCase T m n = nucleonCase T m' n := by
  unfold nucleonCase
  simp only [List.lookup]
  have hb : (n == "mass_rho") = false := by simpa using hn
  simp only [hb]

theorem nucleon_rho_case : ∃ p : ModelParameters ℝ, Reachable p ∧ p.cls = .nucleon ∧ p.InsideMaximal ∧ p.OnlyResonancesFree ∧
    (∀ q ∈ p.toList, "t_0_".toList <+: q.name.toList → q.value ≤ 0.54) ∧ (∃ q ∈ p.toList, q.is_fixed = false) ∧
    ∃ b, p.getBoundsForFreeParameters true = .ok b ∧
      (∀ xs, Between b xs → ∃ x : NucleonArgs, (p.updateFreeValues xs).2.HoldsExactly x.byName ∧ x.OffThresholds) ∧
      ∀ xs, Between b xs → ∃ rs, partialSpec (.crossSection 1 2 3) p ([((5 : ℝ), true, true)].map fun d => .nucleon d.1 d.2.1 d.2.2) xs = .ok rs := by
  obtain ⟨p, -, hr, hcls, hd⟩ := fix_except (nucleonCase_reachable 10 2) (fun n => n == "mass_rho")
  have hv := fix_except_values (P := fun n => n == "mass_rho") hd (nucleonCase_values 10 2)
  have hc : p.cls = .nucleon := hcls
  have hres : IsResonanceClass p.cls := by rw [hc]; trivial
  have hfree' : ∀ q ∈ p.data, q.is_fixed = false → q.name = "mass_rho" := fun q hq hf => by
    simpa using fix_except_free (P := fun n => n == "mass_rho") hd q hq hf
  have hfree : p.OnlyResonancesFree := fun q hq hf => by
    rw [hfree' q hq hf]
    exact .inl (by decide)
  have hin : p.InsideMaximal := insideMaximal_of_values hr hres hv (by
    rw [hc]
    exact inside_values (nucleonCase_reachable 10 2) trivial (nucleonCase_values 10 2) (nucleonCase_inside (by norm_num) (by norm_num)))
  have key : ∀ xs, Between ((p.data.filter (!·.is_fixed)).map (fun q => ((resonanceBounds p.cls q.name).1 : WithBot ℝ)),
      (p.data.filter (!·.is_fixed)).map (fun q => ((resonanceBounds p.cls q.name).2 : WithTop ℝ))) xs →
      xs.length = p.getFreeValues.length ∧ ∃ m : ℝ, 1 / 2 < m ∧ m < 3 ∧ ∀ q ∈ (p.updateFreeValues xs).2.data, q.value = nucleonCase 10 m q.name := by
    intro xs hx
    have hx' := (between_iff (fun q : Parameter ℝ => (resonanceBounds p.cls q.name).1) (fun q => (resonanceBounds p.cls q.name).2) _ xs).mp hx
    have hlen : xs.length = p.getFreeValues.length := by rw [free_length, ← hx'.length_eq]
    have hw := reachable_wellFormed (update_reachable hr xs)
    have hmem : ∀ q ∈ (p.updateFreeValues xs).2.data, q.name ∈ p.cls.table.initArgs := fun q hq => by
      have : q.name ∈ (p.updateFreeValues xs).2.names := List.mem_map_of_mem hq
      rw [hw.names, update_data hlen] at this
      exact this
    have hrho : 1 / 2 < freeAt p xs "mass_rho" ∧ freeAt p xs "mass_rho" < 3 := by
      rcases resonance_values hr hfree hx' (n := "mass_rho") (by rw [hc]; decide +kernel) with ⟨r, h1, -, h2, h3⟩ | ⟨-, -, h3, h4⟩
      · rw [h3, hv r h1, h2]
        exact show (1 / 2 : ℝ) < 2 ∧ (2 : ℝ) < 3 by norm_num
      · rw [hc, rho_bounds] at h3 h4
        obtain ⟨w1, w2⟩ := rho_written
        have w1' : ((1 / 2 : ℚ) : ℝ) < ((writtenBounds .nucleon "mass_rho").1 : ℝ) := by exact_mod_cast w1
        have w2' : ((writtenBounds .nucleon "mass_rho").2 : ℝ) < 3 := by exact_mod_cast w2
        push_cast at w1'
        exact ⟨w1'.trans_le h3, lt_of_le_of_lt h4 w2'⟩
    refine ⟨hlen, _, hrho.1, hrho.2, fun q hq => ?_⟩
    rw [update_values hr hlen q hq]
    by_cases hn : q.name = "mass_rho"
    · rw [hn]; rfl
    · rcases resonance_values hr hfree hx' (hmem q hq) with ⟨r, h1, -, h2, h3⟩ | ⟨⟨-, r, h1, h2, h3⟩, -⟩
      · rw [h3, hv r h1, h2]
        exact nucleonCase_rho hn
      · exact absurd (h3.symm.trans (hfree' r h1 h2)) hn
  refine ⟨p, hr, hc, hin, hfree, fun q hq ht => ?_, ?_, _, resonance_bounds hr hres hfree, fun xs hx => ?_, fun xs hx => ?_⟩
  · rw [hv q hq]
    have hqn : q.name ∈ ParamClass.nucleon.table.initArgs := by
      rw [← hc, ← (reachable_wellFormed hr).names]
      exact List.mem_map_of_mem hq
    rcases nucleon_t0_names _ hqn ht with e | e | e | e <;> rw [e] <;> exact show (0 : ℝ) ≤ 0.54 by norm_num
  · refine ⟨⟨"mass_rho", nucleonCase 10 2 "mass_rho", false⟩, ?_, rfl⟩
    show _ ∈ p.data
    rw [hd]
    exact List.mem_map.mpr ⟨⟨"mass_rho", nucleonCase 10 2 "mass_rho", false⟩, List.mem_map.mpr ⟨("mass_rho", "mass_rho", false), by decide +kernel, rfl⟩, by simp⟩
  · obtain ⟨hlen, m, h1, h2, hm⟩ := key xs hx
    exact ⟨_, (nucleon_wiring (reachable_wellFormed (update_reachable hr xs)) hm (by rw [update_data hlen]; exact hc)).holds, nucleonCase_off_mass h1 h2⟩
  · obtain ⟨hlen, m, h1, h2, hm⟩ := key xs hx
    have hcs := (nucleonCase_args (T := 10) (m := m) (by norm_num) h1.le).eval_eq (.crossSection 1 2 3) (points := [(5, true, true)]) (by simp) (by
      intro d hd
      simp only [List.mem_cons, List.not_mem_nil, or_false] at hd
      subst hd
      exact ⟨nucleonCase_good (by norm_num) h1.le _ (by norm_num) (by norm_num), by norm_num, by norm_num⟩)
    have hcx : (p.updateFreeValues xs).2.cls = .nucleon := by rw [update_data hlen]; exact hc
    have hent : ∀ n ∈ (nucleonCaseObject 10 m).names, (p.updateFreeValues xs).2.entry n = (nucleonCaseObject 10 m).entry n := by
      intro n hn
      rw [(reachable_wellFormed (nucleonCase_reachable 10 m)).names] at hn
      rw [entry_eq (reachable_wellFormed (update_reachable hr xs)) hm (by rw [hcx]; exact hn),
        entry_eq (reachable_wellFormed (nucleonCase_reachable 10 m)) (nucleonCase_values 10 m) hn]
    have := ((nucleon_line_values (nucleonCase_reachable 10 m) rfl (nucleonCase_inside (by norm_num) (by linarith)) (nucleonCase_reachable 10 m)
      ⟨rfl, fun _ _ _ => rfl⟩ (.crossSection 1 2 3) (by simp) hcs (nucleonCase_values 10 m) (nucleonCase_values 10 m)).2 1 _ (update_reachable hr xs)
      ⟨⟨hcx, fun n hn _ => hent n hn⟩, fun n hn _ => by rw [hent n hn]; ring⟩).2.1
    exact ⟨_, (partialSpec_ok hlen).trans this⟩

end UA
