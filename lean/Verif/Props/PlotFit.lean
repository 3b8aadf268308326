import Verif.Lemmas.PlotFit
import Verif.Lemmas.RunsWitness
import Verif.Props.BoundaryValues

/-!
# Property C91: the script that shows one result
-/

namespace UA

open Complex

/-- **C91** the parameters: the literal list makes an object; it holds the values meant and nothing else, those declared free are free, and it lies
strictly inside the maximal bounds. -/
theorem C91_object : ∃ p, makePlotFitParameters = .ok p ∧ Reachable p ∧ p.cls = .kaonB ∧ p.InsideMaximal ∧
    p.HoldsExactly (plotFitValues.map fun q => (q.1, (q.2 : ℝ))) ∧ ∀ q ∈ p.toList, q.is_fixed = false ↔ q.name ∈ plotFitFree :=
  plotFit_object

/-- **C91** without data: `ValueError` before anything is made. -/
theorem C91_empty (env : Env) (k : Constants) (w : World) : runPlotFit env k [] [] [] w = (.error .valueError, w) := by
  unfold runPlotFit
  rw [C58_empty.1]
  exact PyM.bind_error rfl

seal runPlotFit in
/-- **C91** the whole script, for data above the threshold with positive values and not at the two inelastic thresholds, the fitting library keeping to
the bounds and the plotting library working. `p` is the object made. The only exception is `ZeroDivisionError`, and it occurs only if the form factor
vanishes at one of the points. Otherwise: the printed values are the form factor `f` of the charged
kaon at `t = 8` and the cross section there by the textbook formula; the figure has one panel with all points in order of `t` and the form factor at each
of them as the curve; at the end the object still holds the literal values, all fixed. -/
theorem C91_run {env : Env} {S : Set ℝ} (k : Constants) (hm : 0 < k.mass) (h8 : 4 * k.mass ^ 2 ≤ 8) (hα : k.alpha ≠ 0) (hh2 : k.hc_squared ≠ 0)
    {data : List (ℝ × ℝ × ℝ)} (hdata : ∀ d ∈ data, 4 * k.mass ^ 2 < d.1 ∧ 0 < d.2.1 ∧ d.2.2 ≠ 0 ∧ d.1 ≠ 3.2291595069331067 ∧ d.1 ≠ 0.5835126419012053)
    (hsmall : ∃ d ∈ data, momentumOf k.mass d.1 < 5) (henv : env.FitsInside S) (hplot : ∀ i, env.plot i = .ok ())
    {p : ModelParameters ℝ} (hp : makePlotFitParameters = .ok p) (w : World) :
    let call := runPlotFit env k (data.map (·.1)) (data.map (·.2.1)) (data.map (·.2.2)) w
    (∀ e w', call = (.error e, w') → e = .zeroDivisionError ∧ ∃ d ∈ data, functionFormFactor [.kaon (d.1 : ℝ) true] p = .ok [0]) ∧
    (∀ printed_f printed_g panels task w', call = (.ok (printed_f, printed_g, panels, task), w') →
      ∃ (f : ℝ) (out : List (ℝ × ℝ × ℝ)) (ys : List ℝ) (p' : ModelParameters ℝ),
        printed_f = [f] ∧ functionFormFactor [.kaon 8 true] p = .ok [f] ∧ 0 ≤ f ∧
        printed_g = [|scalarSigma k.mass k.alpha k.hc_squared 8 f|] ∧
        out.Perm data ∧ out.Pairwise (fun a b => a.1 ≤ b.1) ∧
        panels = [⟨"plot_fit: Charged", ⟨out.map (fun q => (q.1 : ℂ)), out.map (·.2.1), out.map (·.2.2), ys⟩⟩] ∧
        List.Forall₂ (fun d y => functionFormFactor [.kaon (d.1 : ℝ) true] p = .ok [y]) out ys ∧
        w'.heap[w.heap.length]? = some p' ∧ p'.HoldsExactly (plotFitValues.map fun q => (q.1, (q.2 : ℝ))) ∧ ∀ q ∈ p'.toList, q.is_fixed = true) := by
  obtain ⟨p₀, h0, hr, hc, hi, hh, -⟩ := plotFit_object
  obtain rfl : p₀ = p := by rw [hp] at h0; injection h0 with h0; exact h0.symm
  obtain ⟨he, hok⟩ := (plotFit_sat k hm h8 hα hh2 hdata hsmall henv hplot h0 hr hc hi hh w).split
  refine ⟨he, fun printed_f printed_g panels task w' h => ?_⟩
  obtain ⟨f, out, ys, h1, h2, h3, h4, h5, h6, h7, h8⟩ := hok _ _ h
  have hl : p₀.fixAllParameters.toList = p₀.toList.map fun q => (⟨q.name, q.value, true⟩ : Parameter ℝ) := rfl
  refine ⟨f, out, ys, _, h1, h3, ((C51_pointwise hr .formFactor).2 h3).2 f (by simp), h2, h4, h5, h6, h7, h8,
    holdsExactly_flags hr (.step .fixAll hr) rfl (f := fun _ => true) hl hh, fun q hq => ?_⟩
  rw [hl] at hq
  obtain ⟨q, -, rfl⟩ := List.mem_map.mp hq
  rfl

seal runPlotFit in
/-- **C91** so it completes unless the form factor vanishes at a point. -/
theorem C91_completes {env : Env} {S : Set ℝ} (k : Constants) (hm : 0 < k.mass) (h8 : 4 * k.mass ^ 2 ≤ 8) (hα : k.alpha ≠ 0) (hh2 : k.hc_squared ≠ 0)
    {data : List (ℝ × ℝ × ℝ)} (hdata : ∀ d ∈ data, 4 * k.mass ^ 2 < d.1 ∧ 0 < d.2.1 ∧ d.2.2 ≠ 0 ∧ d.1 ≠ 3.2291595069331067 ∧ d.1 ≠ 0.5835126419012053)
    (hsmall : ∃ d ∈ data, momentumOf k.mass d.1 < 5) (henv : env.FitsInside S) (hplot : ∀ i, env.plot i = .ok ())
    {p : ModelParameters ℝ} (hp : makePlotFitParameters = .ok p)
    (hz : ∀ d ∈ data, functionFormFactor [.kaon (d.1 : ℝ) true] p ≠ .ok [0]) (w : World) :
    ∃ r w', runPlotFit env k (data.map (·.1)) (data.map (·.2.1)) (data.map (·.2.2)) w = (.ok r, w') := by
  refine PyM.completes_of fun e w' h => ?_
  obtain ⟨d, hd, h⟩ := ((C91_run k hm h8 hα hh2 hdata hsmall henv hplot hp w).1 e w' h).2
  exact hz d hd h

seal runPlotFit in
/-- **C91** a point at an inelastic threshold: `ZeroDivisionError`. -/
theorem C91_threshold {env : Env} (k : Constants) (h8 : 4 * k.mass ^ 2 ≤ 8) {data : List (ℝ × ℝ × ℝ)} (hdata : ∀ d ∈ data, 0 ≤ d.1)
    (hbad : ∃ d ∈ data, d.1 = 3.2291595069331067 ∨ d.1 = 0.5835126419012053) (w : World) :
    ∃ w', runPlotFit env k (data.map (·.1)) (data.map (·.2.1)) (data.map (·.2.2)) w = (.error .zeroDivisionError, w') := by
  obtain ⟨p, h0, hr, hc, hi, hh, -⟩ := plotFit_object
  exact plotFit_threshold env k h8 hdata hbad h0 hr hc hi hh w

/-- Two points, the second one at the isoscalar threshold. -/
example (env : Env) (w : World) : ∃ w', runPlotFit env ⟨0.493677, 1 / 137, 0.389379⟩ [1.5, 3.2291595069331067] [2, 3] [0.1, 0.2] w = (.error .zeroDivisionError, w') :=
  C91_threshold (data := [(1.5, 2, 0.1), (3.2291595069331067, 3, 0.2)]) _ (by norm_num) (fun d hd => by fin_cases hd <;> norm_num)
    ⟨_, List.mem_cons_of_mem _ List.mem_cons_self, Or.inl rfl⟩ w

/-! ### A run meeting the hypotheses -/

seal runPlotFit in
/-- The form factor is close to 1 near `t = 0`, so with a light particle there is a point for which the script completes. -/
example (k : Constants) (hα : k.alpha ≠ 0) (hh2 : k.hc_squared ≠ 0) : ∃ m t : ℝ, 0 < m ∧ 4 * m ^ 2 < t ∧
    ∃ r w', runPlotFit (idleEnv ∅) ⟨m, k.alpha, k.hc_squared⟩ [t] [1] [1] (startWorld []) = (.ok r, w') := by
  obtain ⟨p, h0, hr, hc, hi, hh, -⟩ := plotFit_object
  obtain ⟨x, hx⟩ := kaon_inside hr (by rw [hc]; trivial) hi
  have hone := (C18_kaon_normalisation x hx.proper).1 (hx.builds true)
  obtain ⟨δ, hδ, hlim⟩ := (C89_kaon x true hx.proper (hx.builds true) (s := 0) (by simpa using hone)).1 (1 / 2) (by norm_num)
  set m : ℝ := min δ 1 / 16 with hmdef
  have hmin : 0 < min δ 1 := lt_min hδ one_pos
  have hm : 0 < m := by positivity
  have hm1 : m ≤ 1 / 16 := by rw [hmdef]; linarith [min_le_right δ 1]
  have hmδ : m ≤ δ / 16 := by rw [hmdef]; linarith [min_le_left δ 1]
  have ht0 : 0 < 8 * m ^ 2 := by positivity
  have htδ : 8 * m ^ 2 < δ := by nlinarith
  refine ⟨m, 8 * m ^ 2, hm, by nlinarith, ?_⟩
  have hsmall : momentumOf m (8 * m ^ 2) < 5 := by
    unfold momentumOf
    rw [div_lt_iff₀ (by positivity), Real.sqrt_lt' (by positivity)]
    have h1 : m ^ 2 ≤ 1 := by nlinarith
    nlinarith [mul_nonneg (sq_nonneg m) (sub_nonneg.mpr h1)]
  have := C91_completes (env := idleEnv ∅) (S := ∅) ⟨m, k.alpha, k.hc_squared⟩ hm (by show 4 * m ^ 2 ≤ 8; nlinarith) hα hh2
    (data := [(8 * m ^ 2, 1, 1)]) (fun d hd => by
      obtain rfl := List.mem_singleton.mp hd
      refine ⟨by show 4 * m ^ 2 < 8 * m ^ 2; nlinarith, one_pos, one_ne_zero, ?_, ?_⟩
      · show 8 * m ^ 2 ≠ _; intro h; nlinarith
      · show 8 * m ^ 2 ≠ _; intro h; nlinarith)
    ⟨_, List.mem_singleton_self _, hsmall⟩ (idleEnv_fits _) (fun _ => rfl) h0 (fun d hd h => by
      obtain rfl := List.mem_singleton.mp hd
      obtain ⟨u, hu, hu'⟩ := hlim ((8 * m ^ 2 : ℝ) : ℂ) (by rw [ofReal_re]; exact ht0.le) (by rw [ofReal_im]) (by exact_mod_cast ht0.ne')
        (by rw [ofReal_zero, sub_zero, norm_real, Real.norm_of_nonneg ht0.le]; exact htδ)
      rw [hx.wiring.ff, hx.check, except_ok_bind, mapM_singleton'] at h
      have h' : (do let r ← (do let F ← x.run true ((8 * m ^ 2 : ℝ) : ℂ); return ‖F‖); return [r]) = Except.ok [(0 : ℝ)] := h
      rw [hu] at h'
      have h2 : Except.ok (ε := PyErr) [‖u‖] = .ok [0] := h'
      injection h2 with h2
      injection h2 with h2
      rw [norm_eq_zero.mp h2] at hu'
      norm_num at hu') (startWorld [])
  exact this

end UA
