import Verif.Lemmas.SingleFitRun
import Verif.Lemmas.RunsWitness
import Verif.Lemmas.FitScriptsWitness

/-!
# Property C87: the scripts that do one fit
-/

namespace UA

/-- **C87** the kaon script before the fit: each number of the literal list goes to the parameter meant, the object is strictly inside the
maximal bounds, and exactly the nineteen parameters listed are free. -/
theorem C87_kaon_start {pion_mass : ℝ} (hp : 0 ≤ pion_mass ∧ pion_mass ≤ 0.24) (w : World) :
    ∃ p, (do
        let p ← PyM.lift (makeKaonSingleFitParameters pion_mass)
        let parameters ← newParams p
        prepareKaonSingleFit parameters
        return parameters : PyM World ℕ) w = (.ok w.heap.length, { w with heap := w.heap ++ [p] }) ∧
      Reachable p ∧ p.cls = .kaon ∧ p.InsideFor false ∧
      p.HoldsExactly ([("t_0_isoscalar", (3 * pion_mass) ^ 2), ("t_0_isovector", (2 * pion_mass) ^ 2)] ++
        kaonSingleFitStart.map fun q => (q.1, (q.2 : ℝ))) ∧
      ∀ q ∈ p.toList, q.is_fixed = false ↔ q.name ∈ kaonSingleFitFitted := by
  obtain ⟨p₀, p, h0, h1, h2, h3, h4⟩ := kaonSingleFit_start hp
  obtain ⟨k1, k2, k3, -⟩ := (goodObject_iff (c := .kaon) trivial).mp h2
  refine ⟨p, ?_, k1, k2, k3, h3, fun q hq => ?_⟩
  · rw [h0, PyM.bind_ok (PyM.lift_run _ _), PyM.bind_ok (newParams_run p₀ w), PyM.bind_ok (h1 { w with heap := w.heap ++ [p₀] } w.heap rfl)]
    rfl
  · rw [h4 q hq, decide_eq_false_iff_not, not_not]

seal runKaonSingleFit in
/-- **C87** the whole kaon script, the fitting library never leaving the bounds: the only exception is `ZeroDivisionError`, and then the library
may use some `t` of the data as an inelastic threshold. If it completes, what is printed are the thirty values of the object in
the order of the literal list: those not fitted are as at the start, all are strictly inside the bounds; if the fit failed they are
the starting values. -/
theorem C87_kaon_run {env : Env} {S : Set ℝ} {pion_mass : ℝ} (hp : 0 ≤ pion_mass ∧ pion_mass ≤ 0.24) (constants : Constants)
    {charged neutral : List (ℝ × ℝ × ℝ)} (hch : charged ≠ []) (hpos : ∀ d ∈ charged ++ neutral, 0 < d.1 ∧ d.2.2 ≠ 0)
    (hlen : 32 < (charged ++ neutral).length) (hS1 : (4.104732671275326 : ℝ) ∉ S) (hS2 : (6.945876504806479 : ℝ) ∉ S)
    (hfit : env.FitsInside S) (w : World) :
    let call := runKaonSingleFit env pion_mass constants (charged.map (·.1)) (charged.map (·.2.1)) (charged.map (·.2.2)) (neutral.map (·.1))
      (neutral.map (·.2.1)) (neutral.map (·.2.2)) w
    (∀ e w', call = (.error e, w') → e = .zeroDivisionError ∧ ∃ d ∈ charged ++ neutral, d.1 ∉ S) ∧
    (∀ values report w', call = (.ok (values, report), w') → ∃ p', w'.heap[w.heap.length]? = some p' ∧ Reachable p' ∧ p'.cls = .kaon ∧
      p'.InsideFor false ∧ Prints kaonSingleFitStart kaonSingleFitFitted p' values ∧ p'.Holds "t_0_isoscalar" ((3 * pion_mass) ^ 2) ∧
      p'.Holds "t_0_isovector" ((2 * pion_mass) ^ 2) ∧
      ((report.status = "failed" ∧ values = kaonSingleFitStart.map fun q => (q.2 : ℝ)) ∨ report.status = "finished")) := by
  obtain ⟨he, hok⟩ := (kaonSingleFit_sat hp constants hch hpos hlen hS1 hS2 hfit w).split
  intro call
  constructor
  · exact he
  · intro values report w' h
    obtain ⟨p', h1, h2, h3, h4, h5⟩ := hok _ _ h
    obtain ⟨k1, k2, k3, -⟩ := (goodObject_iff (c := .kaon) trivial).mp h2
    exact ⟨p', h1, k1, k2, k3, h3, h4 _ List.mem_cons_self, h4 _ (List.mem_cons_of_mem _ List.mem_cons_self), h5⟩

seal runKaonSingleFit in
/-- **C87** if no `t` of the data is one of the two starting inelastic thresholds, and the library uses none as a value, the kaon script
completes. -/
theorem C87_kaon_completes {env : Env} {pion_mass : ℝ} (hp : 0 ≤ pion_mass ∧ pion_mass ≤ 0.24) (constants : Constants)
    {charged neutral : List (ℝ × ℝ × ℝ)} (hch : charged ≠ [])
    (hpos : ∀ d ∈ charged ++ neutral, 0 < d.1 ∧ d.2.2 ≠ 0 ∧ d.1 ≠ 4.104732671275326 ∧ d.1 ≠ 6.945876504806479)
    (hlen : 32 < (charged ++ neutral).length) (hfit : env.FitsInside {t | ∃ d ∈ charged ++ neutral, t = d.1}) (w : World) :
    ∃ out w', runKaonSingleFit env pion_mass constants (charged.map (·.1)) (charged.map (·.2.1)) (charged.map (·.2.2)) (neutral.map (·.1))
      (neutral.map (·.2.1)) (neutral.map (·.2.2)) w = (.ok out, w') := by
  have hS : ∀ v : ℝ, (∀ d ∈ charged ++ neutral, d.1 ≠ v) → v ∉ {t | ∃ d ∈ charged ++ neutral, t = d.1} := by
    rintro v hv ⟨d, hd, h⟩
    exact hv d hd h.symm
  refine PyM.completes_of fun e w' h => ?_
  obtain ⟨-, d, hd, hd'⟩ := (kaonSingleFit_sat hp constants hch (fun d hd => ⟨(hpos d hd).1, (hpos d hd).2.1⟩) hlen
    (hS _ fun d hd => (hpos d hd).2.2.1) (hS _ fun d hd => (hpos d hd).2.2.2) hfit w).split.1 e w' h
  exact hd' ⟨d, hd, rfl⟩

/-- **C87** the nucleon script before the fit: the numbers go to the parameters meant, the object is strictly inside the maximal bounds, the
model can be built from it, and exactly the inelastic thresholds and the coupling constants are free. -/
theorem C87_nucleon_start {pion_mass : ℝ} (hp : 0 ≤ pion_mass ∧ pion_mass ≤ 0.24) (proton_mass μp μn : ℝ) :
    ∃ p₀ p m, makeNucleonSingleFitParameters pion_mass proton_mass μp μn = .ok p₀ ∧ p₀.fixResonances = (.ok (), p) ∧
      Reachable p ∧ p.cls = .nucleon ∧ p.InsideFor false ∧ getFFModel p = .ok m ∧
      p.HoldsExactly ([("nucleon_mass", proton_mass), ("magnetic_moment_proton", μp), ("magnetic_moment_neutron", μn),
        ("t_0_dirac_isoscalar", (3 * pion_mass) ^ 2), ("t_0_dirac_isovector", (2 * pion_mass) ^ 2),
        ("t_0_pauli_isoscalar", (3 * pion_mass) ^ 2), ("t_0_pauli_isovector", (2 * pion_mass) ^ 2)] ++
        nucleonSingleFitStart.map fun q => (q.1, (q.2 : ℝ))) ∧
      ∀ q ∈ p.toList, q.is_fixed = false ↔ q.name ∈ nucleonSingleFitFitted := by
  obtain ⟨p₀, p, h0, h1, h2, h3, h4⟩ := nucleonSingleFit_start hp proton_mass μp μn
  obtain ⟨k1, k2, k3, -⟩ := (goodObject_iff (c := .nucleon) trivial).mp h2
  obtain ⟨m, hm⟩ := nucleonSingleFit_accepted hp h2 h3
  refine ⟨p₀, p, m, h0, h1, k1, k2, k3, hm, h3, fun q hq => ?_⟩
  rw [h4 q hq, decide_eq_false_iff_not, not_not]

seal runNucleonSingleFit in
/-- **C87** the whole nucleon script for data above the threshold, the fitting library never leaving the maximal bounds: the only exception is
`ZeroDivisionError` (in particular, no proposed values are rejected by the model, although the bounds do not exclude that in general);
if it completes, what is printed are the thirty values of the object in the order of the literal list, masses and widths as at the
start. -/
theorem C87_nucleon_run {env : Env} {pion_mass : ℝ} (hp : 0 ≤ pion_mass ∧ pion_mass ≤ 0.24) {proton_mass alpha hc_squared : ℝ} (μp μn : ℝ)
    {data : List (ℝ × ℝ × ℝ)} (hdata : ∀ d ∈ data, 0 < d.1 ∧ 4 * proton_mass ^ 2 ≤ d.1 ∧ d.2.2 ≠ 0) (hlen : 37 < data.length)
    (hfit : env.FitsInside ∅) (w : World) :
    let call := runNucleonSingleFit env pion_mass proton_mass μp μn alpha hc_squared (data.map (·.1)) (data.map (·.2.1)) (data.map (·.2.2)) w
    (∀ e w', call = (.error e, w') → e = .zeroDivisionError) ∧
    (∀ values report w', call = (.ok (values, report), w') → ∃ p', w'.heap[w.heap.length]? = some p' ∧ Reachable p' ∧ p'.cls = .nucleon ∧
      p'.InsideFor false ∧ Prints nucleonSingleFitStart nucleonSingleFitFitted p' values ∧
      p'.Holds "nucleon_mass" proton_mass ∧ p'.Holds "magnetic_moment_proton" μp ∧ p'.Holds "magnetic_moment_neutron" μn ∧
      ((report.status = "failed" ∧ values = nucleonSingleFitStart.map fun q => (q.2 : ℝ)) ∨ report.status = "finished")) := by
  obtain ⟨he, hok⟩ := (nucleonSingleFit_sat (alpha := alpha) (hc_squared := hc_squared) hp μp μn hdata hlen hfit w).split
  intro call
  constructor
  · exact he
  · intro values report w' h
    obtain ⟨p', h1, h2, h3, h4, h5⟩ := hok _ _ h
    obtain ⟨k1, k2, k3, -⟩ := (goodObject_iff (c := .nucleon) trivial).mp h2
    exact ⟨p', h1, k1, k2, k3, h3, h4 ("nucleon_mass", proton_mass) (by simp [nucleonScriptConstants]),
      h4 ("magnetic_moment_proton", μp) (by simp [nucleonScriptConstants]), h4 ("magnetic_moment_neutron", μn) (by simp [nucleonScriptConstants]), h5⟩

/-! ### Runs meeting the hypotheses -/

/-- The kaon script completes on fifty charged and ten neutral points from `t = 10` on, with a library that returns its starting values. -/
example : ∃ out w', runKaonSingleFit (idleEnv {t | ∃ d ∈ fiftyCharged ++ tenNeutral, t = d.1}) 0.13957 ⟨1, 1, 1⟩ (fiftyCharged.map (·.1))
      (fiftyCharged.map (·.2.1)) (fiftyCharged.map (·.2.2)) (tenNeutral.map (·.1)) (tenNeutral.map (·.2.1)) (tenNeutral.map (·.2.2))
      (startWorld []) = (.ok out, w') :=
  C87_kaon_completes (by norm_num) ⟨1, 1, 1⟩ (by simp [fiftyCharged, List.range_succ])
    (fun d hd => by
      obtain ⟨h1, h2⟩ := sixty_from_ten d hd
      refine ⟨by linarith, h2, ?_, ?_⟩
      · intro h; rw [h] at h1; norm_num at h1
      · intro h; rw [h] at h1; norm_num at h1)
    (by simp [fiftyCharged, tenNeutral]) (idleEnv_fits _) _

/-- The nucleon script on forty points above the threshold. -/
example : ∀ e w', runNucleonSingleFit (idleEnv ∅) 0.13957 0.938 2.79 (-1.91) 1 1 (fortyPoints.map (·.1)) (fortyPoints.map (·.2.1))
    (fortyPoints.map (·.2.2)) (startWorld []) = (.error e, w') → e = .zeroDivisionError :=
  (C87_nucleon_run (by norm_num) _ _ (fun d hd => by
    obtain ⟨h1, -, h3⟩ := fortyPoints_spec.1 d hd
    have : (0 : ℝ) < 4 * 0.938 ^ 2 := by norm_num
    exact ⟨by linarith, h1.le, h3⟩) fortyPoints_spec.2.2 (idleEnv_fits _) _).1

end UA
