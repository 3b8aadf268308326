import Verif.Lemmas.RoundsRun
import Verif.Lemmas.PipelinesWitness
import Verif.Lemmas.PipelinesSample
import Verif.Lemmas.ResidualWitness

/-!
# Property C95: what the tasks of a pipeline do to its parameters
-/

namespace UA

/-- **C95** a completed run of an iterative pipeline (all but the one for nucleon cross sections). Every round frees exactly the requested number of
parameters, distinct ones that are not always fixed and, in the first rounds, no masses and widths; it changes no other value; it starts
with what the round before has left; its report has the parameters before and after, and its free parameters are logged. The last task
frees everything that is not always fixed. All this happens to the one object the pipeline was given; no other object changes. -/
theorem C95_iterative {env : Env} (hs : env.Samples) {self self' : Pipeline} (hkind : self.kind ≠ .nucleonCS) {its : Iterations} {w w' : World}
    (hreach : ∀ p ∈ w.heap, Reachable p) (h : self.runIterative env its w = (.ok self', w')) :
    ∃ p rs pₙ last p', w.heap[self.parameters]? = some p ∧
      Rounds self.kind (self.fitData env (self.kind.fitted self.constants)) its.nr_initial_rounds_with_fixed_resonances 0 its.free_params_numbers p rs pₙ ∧
      FittedFrom (fun x => ¬ DeclaredFixed p.cls x) pₙ.toList p'.toList ∧ last.Tells (self.fitData env (self.kind.fitted self.constants)) pₙ.toList p' ∧
      w'.heap[self.parameters]? = some p' ∧ p'.cls = p.cls ∧ self'.parameters = self.parameters ∧
      (∀ i < w.heap.length, i ≠ self.parameters → w'.heap[i]? = w.heap[i]?) ∧
      (∃ chis, self.Reported env w' (numberedNames (iterativeClassNames self.kind its.free_params_numbers)) (rs.map Prod.snd ++ [last]) chis) ∧
      ∃ messages, w'.stdout = w.stdout ++ (messages ++
          ["Initializing Task#" ++ toString its.free_params_numbers.length ++ ". Full fit.", "Running " ++ last.name,
            last.name ++ " report: " ++ env.strReport last, "Best fit: " ++ env.strBestFit self'.best_fit]).map (printedLine self.name) ∧
        messages = ("Starting. Initial parameters: " ++ env.strParameters p.toList) ::
          taskMessages env ". Free parameters: " 0 (rs.map fun q => (env.strNames q.1, q.2)) := by
  obtain ⟨p, rs, pₙ, last, p', h1, h2, h3, h4, h5, h6, h7, h8, h9, h10, h11, -⟩ := runIterative_parameters hs hkind hreach h
  exact ⟨p, rs, pₙ, last, p', h1, h2, h7, h8, h4, h5.trans h3, h6, h9, (reported_of_traced h11 h10).1, _, h11.printed, rfl⟩

/-- An iterative run of any number of rounds as in `C95_iterative`. -/
example (g : ℝ → ℝ) (str : PyFloat → String) (n : ℕ) (a : ℝ) : (polesEnv g str).Samples ∧ (polesPipeline []).kind ≠ .nucleonCS ∧
    (∀ p ∈ (startWorld [poles a]).heap, Reachable p) ∧
    ∃ self' w', (polesPipeline []).runIterative (polesEnv g str) ⟨List.replicate n 3, 0⟩ (startWorld [poles a]) = (.ok self', w') :=
  ⟨fun _ names k hk => ⟨names.take k, List.take_sublist _ _, by simpa using hk, .refl _⟩, by decide, startWorld_good a, poles_runIterative g str n a⟩

/-- **C95** a completed run of the iterative nucleon cross section pipeline: the rounds as before, with no more free parameters than there
are; then a fit of everything not always fixed, without the masses and widths when there were fewer rounds than the number of rounds
with fixed resonances; then the residual fit, which has its own four parameters, keeps all values of the others and leaves them fixed. -/
theorem C95_nucleonCS {env : Env} (hs : env.Samples) {self self' : Pipeline} (hkind : self.kind = .nucleonCS) {its : Iterations} {w w' : World}
    (hreach : ∀ p ∈ w.heap, Reachable p) (h : self.runNucleonCSIterative env its w = (.ok self', w')) :
    ∃ p rs pₙ full, ∃ pf : ModelParameters ℝ, ∃ residual p', w.heap[self.parameters]? = some p ∧
      Rounds .nucleonCS (self.fitData env (.crossSection self.constants.mass self.constants.alpha self.constants.hc_squared)) its.nr_initial_rounds_with_fixed_resonances 0 its.free_params_numbers p rs pₙ ∧
      FittedFrom (fun x => ¬ DeclaredFixed p.cls x ∧
        ¬ ((its.free_params_numbers.length : ℤ) < its.nr_initial_rounds_with_fixed_resonances ∧ IsResonanceName x)) pₙ.toList pf.toList ∧
      full.Tells (self.fitData env (.crossSection self.constants.mass self.constants.alpha self.constants.hc_squared)) (pₙ.toList.map fun q => ⟨q.name, q.value, decide (DeclaredFixed p.cls q.name ∨
        ((its.free_params_numbers.length : ℤ) < its.nr_initial_rounds_with_fixed_resonances ∧ IsResonanceName q.name))⟩) pf ∧
      residual.initial_parameters = pf.toList ∧
      ((residual.status = "failed" ∧ residual.final_parameters = none) ∨ (residual.status = "finished" ∧ ∃ a b c d,
        residual.final_parameters = some [⟨"a", a, false⟩, ⟨"b", b, false⟩, ⟨"c", c, false⟩, ⟨"d", d, false⟩])) ∧
      w'.heap[self.parameters]? = some p' ∧ p'.cls = p.cls ∧ p'.toList = pf.toList.map (fun q => ⟨q.name, q.value, true⟩) ∧
      self'.parameters = self.parameters ∧ (∀ i < w.heap.length, i ≠ self.parameters → w'.heap[i]? = w.heap[i]?) ∧
      (∃ chis, self.Reported env w' (nucleonTaskNames its) (rs.map Prod.snd ++ [full, residual]) chis) ∧
      w'.stdout = w.stdout ++ ((("Starting. Initial parameters: " ++ env.strParameters p.toList) ::
        (taskMessages env ". Free parameters: " 0 (rs.map fun q => (env.strNames q.1, q.2)) ++
          ["Initializing Task#" ++ toString its.free_params_numbers.length ++ ". " ++ fullFitName its ++ ".",
          "Running " ++ full.name, full.name ++ " report: " ++ env.strReport full, "Best fit: " ++ env.strBestFit self'.best_fit])) ++
        ["Initializing Task#" ++ toString (its.free_params_numbers.length + 1) ++ ". Residuals.", "Running " ++ residual.name,
          residual.name ++ " report: " ++ env.strReport residual]).map (printedLine self.name) := by
  obtain ⟨p, rs, pₙ, full, pf, residual, p', h1, h2, h3, h4, h5, h6, h7, h8, h9, h10, h11, h12, h13, h14, h15, -⟩ := runNucleonCS_parameters hs hreach h
  rw [hkind] at h2
  exact ⟨p, rs, pₙ, full, pf, residual, p', h1, h2, h6, h7, h8, h9, h10, h5, h11, h12, h13, (reported_of_traced h15 h14).1, h15.printed⟩

/-- The run of `C66_nucleonCS_partial` as one of `C95_nucleonCS`. -/
example : failEnv.Samples ∧ quietPipeline.kind = .nucleonCS ∧ (∀ p ∈ (startWorld [quiet]).heap, Reachable p) ∧
    ∃ self' w', quietPipeline.runNucleonCSIterative failEnv ⟨[], 0⟩ (startWorld [quiet]) = (.ok self', w') :=
  ⟨constEnv_samples _ _, rfl, quietWorld_good, quiet_run 0⟩

/-- **C95** a completed run of a plain pipeline without residual fits: each task starts with what the one before has left (this is what is
logged), frees what its class says and changes no other value; after it everything is released that is not always fixed. -/
theorem C95_run {env : Env} {self self' : Pipeline} (hres : .residual ∉ self.tasks) {w w' : World} (hreach : ∀ p ∈ w.heap, Reachable p)
    (h : self.run env w = (.ok self', w')) :
    ∃ p rs p', w.heap[self.parameters]? = some p ∧ PlainTasks (fun c => self.fitData env (c.fitted self.constants)) self.tasks p rs p' ∧ w'.heap[self.parameters]? = some p' ∧
      self'.parameters = self.parameters ∧ (∀ i < w.heap.length, i ≠ self.parameters → w'.heap[i]? = w.heap[i]?) ∧
      (∃ chis, self.Reported env w' (numberedNames (self.tasks.map TaskClass.className)) (rs.map Prod.snd) chis) ∧
      w'.stdout = w.stdout ++ (("Starting. Initial parameters: " ++ env.strParameters p.toList) ::
        (taskMessages env ". Parameters: " 0 (rs.map fun q => (env.strParameters q.1.toList, q.2)) ++
          ["Best fit: " ++ env.strBestFit self'.best_fit])).map (printedLine self.name) := by
  obtain ⟨p, rs, p', h1, h2, h3, h4, h5, h6, h7, -⟩ := run_plain_parameters hres hreach h
  exact ⟨p, rs, p', h1, h2, h3, h4, h5, (reported_of_traced h7 h6).1, h7.printed⟩

/-- Any number of full fits as in `C95_run`. -/
example (g : ℝ → ℝ) (str : PyFloat → String) (n : ℕ) (a : ℝ) : .residual ∉ (polesPipeline (List.replicate n .nucleonFFFull)).tasks ∧
    (∀ p ∈ (startWorld [poles a]).heap, Reachable p) ∧
    ∃ self' w', (polesPipeline (List.replicate n .nucleonFFFull)).run (polesEnv g str) (startWorld [poles a]) = (.ok self', w') := by
  obtain ⟨self', w', -, h, -⟩ := poles_run g str n a
  exact ⟨fun hm => (by cases List.eq_of_mem_replicate hm), startWorld_good a, self', w', h⟩

/-- **C95** in all these runs the object keeps its names, and the parameters that are always fixed keep their values. -/
theorem C95_constants {env : Env} (hs : env.Samples) {self self' : Pipeline} {its : Iterations} {w w' : World} {p : ModelParameters ℝ}
    (hreach : ∀ p ∈ w.heap, Reachable p) (hp : w.heap[self.parameters]? = some p)
    (h : (.residual ∉ self.tasks ∧ self.run env w = (.ok self', w')) ∨ (self.kind ≠ .nucleonCS ∧ self.runIterative env its w = (.ok self', w')) ∨
      (self.kind = .nucleonCS ∧ self.runNucleonCSIterative env its w = (.ok self', w'))) :
    ∃ p', w'.heap[self.parameters]? = some p' ∧ p'.cls = p.cls ∧ Kept (DeclaredFixed p.cls) p.toList p'.toList := by
  rcases h with ⟨hk, h⟩ | ⟨hk, h⟩ | ⟨hk, h⟩
  · obtain ⟨p₀, rs, p', h1, h2, h3, -⟩ := C95_run hk hreach h
    obtain rfl := Option.some.inj (h1.symm.trans hp)
    exact ⟨p', h3, h2.kept (C36_always_fixed (hreach _ (List.mem_of_getElem? hp)))⟩
  · obtain ⟨p₀, rs, pₙ, last, p', h1, h2, h3, -, h4, h5, -⟩ := C95_iterative hs hk hreach h
    obtain rfl := Option.some.inj (h1.symm.trans hp)
    exact ⟨p', h4, h5, (h2.kept fun x hx => .inl hx).trans (h3.kept fun x hx hn => hn hx)⟩
  · obtain ⟨p₀, rs, pₙ, full, pf, residual, p', h1, h2, h3, -, -, -, h4, h5, h6, -⟩ := C95_nucleonCS hs hk hreach h
    obtain rfl := Option.some.inj (h1.symm.trans hp)
    refine ⟨p', h4, h5, ((h2.kept fun x hx => .inl hx).trans (h3.kept fun x hx hn => hn.1 hx)).trans ?_⟩
    rw [h6]
    exact kept_map fun _ => true

/-- The run of `C95_nucleonCS` as one of `C95_constants`; five parameters are always fixed. -/
example : (startWorld [quiet]).heap[quietPipeline.parameters]? = some quiet ∧ DeclaredFixed quiet.cls "t_0_isoscalar" ∧
    DeclaredFixed quiet.cls "magnetic_moment_neutron" ∧ quietPipeline.kind = .nucleonCS ∧
    ∃ self' w', quietPipeline.runNucleonCSIterative failEnv ⟨[], 0⟩ (startWorld [quiet]) = (.ok self', w') :=
  ⟨rfl, by decide +kernel, by decide +kernel, rfl, quiet_run 0⟩

/-- **C95** when the nucleon cross section pipeline has fewer rounds than the number of rounds with fixed resonances, the masses and widths
keep their values too. -/
theorem C95_resonances {env : Env} (hs : env.Samples) {self self' : Pipeline} (hkind : self.kind = .nucleonCS) {its : Iterations} {w w' : World}
    {p : ModelParameters ℝ} (hreach : ∀ p ∈ w.heap, Reachable p) (hp : w.heap[self.parameters]? = some p)
    (hfew : (its.free_params_numbers.length : ℤ) < its.nr_initial_rounds_with_fixed_resonances)
    (h : self.runNucleonCSIterative env its w = (.ok self', w')) :
    ∃ p', w'.heap[self.parameters]? = some p' ∧ Kept (fun x => DeclaredFixed p.cls x ∨ IsResonanceName x) p.toList p'.toList := by
  obtain ⟨p₀, rs, pₙ, full, pf, residual, p', h1, h2, h3, -, -, -, h4, h5, h6, -⟩ := C95_nucleonCS hs hkind hreach h
  obtain rfl := Option.some.inj (h1.symm.trans hp)
  refine ⟨p', h4, ((h2.kept fun x hx => hx.imp_right fun hr => ⟨?_, hr⟩).trans (h3.kept fun x hx hn => ?_)).trans ?_⟩
  · exact hx.elim hn.1 fun hr => hn.2 ⟨hfew, hr⟩
  · rw [h6]
    exact kept_map fun _ => true
  · push_cast; omega

/-- A run without rounds, of which three should have had fixed resonances; the mass of the rho prime is one of the parameters meant. -/
example : quietPipeline.kind = .nucleonCS ∧ (startWorld [quiet]).heap[quietPipeline.parameters]? = some quiet ∧
    ((([] : List ℤ).length : ℕ) : ℤ) < 3 ∧ IsResonanceName "mass_rho_prime" ∧
    ∃ self' w', quietPipeline.runNucleonCSIterative failEnv ⟨[], 3⟩ (startWorld [quiet]) = (.ok self', w') :=
  ⟨rfl, rfl, by decide, .inl (by decide +kernel), quiet_run 3⟩

end UA
