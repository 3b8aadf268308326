import Verif.Lemmas.RoundsRun
import Verif.Lemmas.FitScriptsRun

/-!
# Helper lemmas: the best fit and the data
-/

namespace UA

theorem Report.Tells.outcome {r : Report} {fit : FitData} {before : List (Parameter ℝ)} {after : ModelParameters ℝ} (h : r.Tells fit before after) :
    ∃ x, r.Outcome fit after.cls x := by
  rcases h.2 with ⟨h1, h2, h3, -⟩ | ⟨chi, h1⟩
  · exact ⟨none, h1, h2, h3⟩
  · exact ⟨some chi, after, rfl, h1⟩

theorem Rounds.outcomes {kind : PipelineKind} {fit : FitData} {nr : ℤ} {i : ℕ} {ks : List ℤ} {p p' : ModelParameters ℝ} {rs : List (List String × Report)}
    (h : Rounds kind fit nr i ks p rs p') : ∃ chis, List.Forall₂ (fun (r : Report) x => r.Outcome fit p.cls x) (rs.map Prod.snd) chis := by
  induction h with
  | nil => exact ⟨[], .nil⟩
  | cons h _ ih =>
    obtain ⟨x, hx⟩ := h.report.outcome
    obtain ⟨xs, hxs⟩ := ih
    rw [h.cls] at hx hxs
    exact ⟨x :: xs, .cons hx hxs⟩

/-- The chi squareds of plain tasks. -/
theorem PlainTasks.outcomes {fit : TaskClass → FitData} {cs : List TaskClass} {p p' : ModelParameters ℝ} {rs : List (ModelParameters ℝ × Report)}
    (h : PlainTasks fit cs p rs p') : ∃ chis : List (Option PyFloat), rs.length = cs.length ∧ chis.length = cs.length ∧
      ∀ (k : ℕ) c (r : Report) x, cs[k]? = some c → (rs.map Prod.snd)[k]? = some r → chis[k]? = some x → r.Outcome (fit c) p.cls x := by
  induction h with
  | nil => exact ⟨[], rfl, rfl, fun k c r x h => by simp at h⟩
  | cons h _ ih =>
    obtain ⟨hc, fitted, hf, -, ht, -⟩ := h
    obtain ⟨x, hx⟩ := ht.outcome
    obtain ⟨xs, h1, h2, hxs⟩ := ih
    rw [hf] at hx
    rw [hc] at hxs
    refine ⟨x :: xs, by simp [h1], by simp [h2], fun k c r y k1 k2 k3 => ?_⟩
    cases k with
    | zero =>
      simp only [List.getElem?_cons_zero, List.map_cons, Option.some.injEq] at k1 k2 k3
      subst k1 k2 k3
      exact hx
    | succ k =>
      simp only [List.getElem?_cons_succ, List.map_cons] at k1 k2 k3
      exact hxs k c r y k1 k2 k3

theorem Report.Outcome.says {r : Report} {env : Env} {fit : FitData} (hfit : fit.write = env.strFloat) {c : ParamClass} {x : Option PyFloat}
    (h : r.Outcome fit c x) : r.Says env x := by
  cases x with
  | none => exact ⟨h.1, h.2.2⟩
  | some x => obtain ⟨p, -, h⟩ := h; exact ⟨h.status, by rw [h.chi_squared, hfit]⟩

/-- The best of the reports is true. -/
theorem best_correct {env : Env} {pipeline : String} {fit : FitData} (hdata : fit.ys.length = fit.ts.length)
    {c : ParamClass} {reports : List Report} {chis : List (Option PyFloat)} {b : BestFit}
    (h : List.Forall₂ (fun (r : Report) x => r.Outcome fit c x) reports chis) (hb : BestByText env pipeline reports chis b) : b.Correct fit c := by
  rcases hb with ⟨-, hb⟩ | ⟨k, r, x, h1, h2, h3, -⟩
  · exact .inl hb
  · have ho : r.Outcome fit c (some x) := by
      have := (List.forall₂_iff_get.mp h).2 k (List.getElem?_eq_some_iff.mp h1).1 (List.getElem?_eq_some_iff.mp h2).1
      rw [List.get_eq_getElem, List.get_eq_getElem, (List.getElem?_eq_some_iff.mp h1).2, (List.getElem?_eq_some_iff.mp h2).2] at this
      exact this
    obtain ⟨p, hc, hr⟩ := ho
    obtain ⟨fs, f1, f2, -⟩ := hr.values hdata
    refine .inr ⟨p, r.parameter_list, fs, hr.reachable, hc, ?_, hr.ordered, ?_, f1, ?_⟩
    · rw [h3]; exact hr.final
    · rw [h3]; rfl
    · rw [h3, ← f2]; exact hr.chi_squared

theorem zip_points (g : Datapoint → ℝ) (l : List (Datapoint × ℝ × ℝ)) :
    (l.map (·.2.1)).zip ((l.map fun q => g q.1).zip (l.map (·.2.2))) = l.map fun q => (q.2.1, g q.1, q.2.2) := by
  induction l with
  | nil => rfl
  | cons a l ih => simp only [List.map_cons, List.zip_cons_cons, ih]

/-- The reported number does not depend on the order of the points. -/
theorem reportedChiSquared_perm (g : Datapoint → ℝ) {out points : List (Datapoint × ℝ × ℝ)} (h : out.Perm points) (k : ℕ) :
    reportedChiSquared (out.map (·.2.1)) (out.map fun q => g q.1) (out.map (·.2.2)) k =
      reportedChiSquared (points.map (·.2.1)) (points.map fun q => g q.1) (points.map (·.2.2)) k := by
  unfold reportedChiSquared reducedChiSquared
  simp only [zip_points, (h.map fun q => (q.2.1, g q.1, q.2.2)).mem_iff, List.length_map, h.length_eq, List.map_map]
  rw [(h.map _).sum_eq]

/-- From the lists of a pipeline to the points. -/
theorem BestFit.Correct.points {b : BestFit} {fit : FitData} {c : ParamClass} (h : b.Correct fit c) {out points : List (Datapoint × ℝ × ℝ)}
    (hts : fit.ts = out.map (·.1)) (hys : fit.ys = out.map (·.2.1)) (herr : fit.errors = out.map (·.2.2)) (hperm : out.Perm points) :
    b.TrueOf fit.write fit.f c points := by
  rcases h with h | ⟨p, l, fs, h1, h2, h3, h4, h5, h6, h7⟩
  · exact .inl h
  · have hpt := ((C51_pointwise h1 fit.f).1.mp h6).2
    rw [hts, List.forall₂_map_left_iff] at hpt
    classical
    obtain ⟨g, hg⟩ : ∃ g : Datapoint → ℝ, ∀ d r, fit.f.eval [d] p = .ok [r] → r = g d := by
      refine ⟨fun d => match fit.f.eval [d] p with | .ok (r :: _) => r | _ => 0, fun d r h => ?_⟩
      dsimp only
      rw [h]
    have hfs : fs = out.map fun q => g q.1 := by
      rw [hts] at h6
      clear h6 h7 hperm hts hys herr
      induction hpt with
      | nil => rfl
      | cons h _ ih => rw [List.map_cons, ← ih, hg _ _ h]
    have hall : ∀ q ∈ out, fit.f.eval [q.1] p = .ok [g q.1] := by
      clear h6 h7 hperm hts hys herr hfs
      induction hpt with
      | nil => simp
      | cons h _ ih =>
        intro q hq
        rcases List.mem_cons.mp hq with rfl | hq
        · rw [h, hg _ _ h]
        · exact ih q hq
    refine .inr ⟨p, l, g, h1, h2, h3, h4, h5, fun q hq => hall q (hperm.mem_iff.mpr hq), ?_⟩
    rw [h7, hys, herr, hfs, reportedChiSquared_perm g hperm]

theorem init_class {c : ParamClass} {kw : List (String × ℝ)} {p : ModelParameters ℝ} (h : c.init kw = .ok p) : p.cls = c := by
  obtain ⟨f, rfl, -⟩ := paramInit_inv h
  rfl

theorem mutateParams_inv {ref : ℕ} {f : ModelParameters ℝ → Mutation ℝ} {w w' : World} {u : Unit} (h : mutateParams ref f w = (.ok u, w'))
    {p : ModelParameters ℝ} (hp : w.heap[ref]? = some p) (hg : w.Good) (hr : Reachable (f p).2) :
    w'.Good ∧ w'.heap[ref]? = some (f p).2 := by
  rw [mutateParams_run hp] at h
  injection h with _ h
  rw [← h]
  refine ⟨hg.set ref hr, ?_⟩
  obtain ⟨hlt, -⟩ := List.getElem?_eq_some_iff.mp hp
  simp [hlt]

theorem newParams_inv {p : ModelParameters ℝ} {w w' : World} {ref : ℕ} (h : newParams p w = (.ok ref, w')) (hg : w.Good) (hr : Reachable p) :
    w'.Good ∧ w'.heap[ref]? = some p := by
  rw [newParams_run] at h
  injection h with h1 h
  injection h1 with h1
  rw [← h, ← h1]
  exact ⟨hg.append hr, by simp⟩

theorem pipelineInit_inv {env : Env} {kind : PipelineKind} {name : String} {parameters : ℕ} {tasks : List TaskClass} {ts : List Datapoint}
    {ys errors : List ℝ} {reports_dir : String} {plot handpicked : Bool} {constants : Constants} {w w' : World} {s : Pipeline}
    (h : Pipeline.init env kind name parameters tasks ts ys errors reports_dir plot handpicked constants w = (.ok s, w')) :
    w'.heap = w.heap ∧ s = ⟨kind, name, parameters, tasks, ts, ys, errors, pathJoin reports_dir name, plot, handpicked, constants,
      "Report " ++ name ++ ":\n", .nothing⟩ := by
  unfold Pipeline.init at h
  obtain ⟨u, w₁, h1, h2⟩ := PyM.bind_eq_ok.mp h
  rw [PyM.pure_run] at h2
  injection h2 with h2 h3
  injection h2 with h2
  refine ⟨?_, h2.symm⟩
  unfold setUpReportsDirectory at h1
  rw [PyM.bind_ok (PyM.get_run _ _)] at h1
  split_ifs at h1 with hd
  · cases h1
  · unfold Env.mkdir at h1
    split_ifs at h1 with hm
    · cases h1
    injection h1 with _ h1
    rw [← h3, ← h1]

theorem nucleonStart_inv {random : ℕ → ℝ} {pion_mass proton_mass proton_magnetic_moment neutron_magnetic_moment : ℝ} {w w' : World} {ref : ℕ}
    (h : fitNucleonStart random pion_mass proton_mass proton_magnetic_moment neutron_magnetic_moment w = (.ok ref, w')) (hg : w.Good) :
    ∃ p : ModelParameters ℝ, w'.Good ∧ w'.heap[ref]? = some p ∧ p.cls = .nucleon := by
  unfold fitNucleonStart at h
  obtain ⟨p, w₁, h1, hA⟩ := PyM.bind_eq_ok.mp h
  rw [PyM.lift_run] at h1
  injection h1 with hp hw
  subst hw
  have hr : Reachable p := .init hp
  have hcls := init_class hp
  obtain ⟨r, w₂, h2, hB⟩ := PyM.bind_eq_ok.mp hA
  obtain ⟨g2, p2⟩ := newParams_inv h2 hg hr
  obtain ⟨u, w₃, h3, hC⟩ := PyM.bind_eq_ok.mp hB
  have hr' : Reachable p.fixResonances.2 := .step .fixResonances hr
  obtain ⟨g3, p3⟩ := mutateParams_inv h3 p2 g2 hr'
  obtain ⟨u', w₄, h4, hD⟩ := PyM.bind_eq_ok.mp hC
  have ho := C48_only_free hr' fitNucleonCSIterative.use_handpicked_bounds fitNucleonCSIterative.perturbation_size
    (some fitNucleonCSIterative.perturbation_size_resonances) random
  obtain ⟨g4, p4⟩ := mutateParams_inv h4 p3 g3 ho.1
  rw [PyM.pure_run] at hD
  injection hD with h5 h6
  injection h5 with h5
  subst h5 h6
  exact ⟨_, g4, p4, (ho.2.1.trans (run_cls p (reachable_wellFormed hr) .fixResonances)).trans hcls⟩

end UA
