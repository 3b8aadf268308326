import Verif.Lemmas.NoWorse

/-!
# Helper lemmas: fits of charged points that do not get worse on them
-/

namespace UA

/-- The fit of the charged points among these. -/
def chargedFit (write : PyFloat → String) (l : List ((ℂ × Bool) × ℝ × ℝ)) : FitData :=
  ⟨write, .formFactor, (l.filter fun q => q.1.2).map (fun q => .kaon q.1.1 q.1.2), (l.filter fun q => q.1.2).map (·.2.1),
    (l.filter fun q => q.1.2).map (·.2.2)⟩

theorem taskInit_charged {cls : TaskClass} (h1 : cls ≠ .residual) (h2 : cls.IsOnlyCharged) {name : String} {ref : ℕ} {write : PyFloat → String}
    {l : List ((ℂ × Bool) × ℝ × ℝ)} (hne : ∃ q ∈ l, q.1.2 = true) {constants : Constants} {dir : Option String} {plot handpicked : Bool} {w w₁ : World} {t : Task}
    (h : Task.init cls name ref (l.map fun q => .kaon q.1.1 q.1.2) (l.map (·.2.1)) (l.map (·.2.2)) constants dir plot handpicked w = (.ok t, w₁)) :
    FitsPoints t (chargedFit write l) := by
  unfold Task.init at h
  obtain ⟨q, w₂, -, h⟩ := PyM.bind_eq_ok.mp h
  rw [PyM.pure_run] at h
  injection h with h _
  injection h with h
  subst h
  refine ⟨h1, fun f => ?_, fun d hd => ?_⟩
  · rw [if_pos h2, onlyCharged_eq (l := l) ⟨rfl, rfl, rfl⟩, if_neg]
    · rfl
    · obtain ⟨q, hq, hc⟩ := hne
      exact List.ne_nil_of_mem (List.mem_filter.mpr ⟨hq, hc⟩)
  · obtain ⟨q, hq, rfl⟩ := List.mem_map.mp hd
    exact List.mem_map.mpr ⟨q, (List.mem_filter.mp hq).1, rfl⟩

/-- A completed run of the iterative pipeline for kaon form factors: the rounds, and the last task. -/
theorem runKaonFF_noWorse {env : Env} (hs : env.Samples) (hn : env.NeverWorse) {self self' : Pipeline} (hkind : self.kind = .kaonFF)
    {l : List ((ℂ × Bool) × ℝ × ℝ)} (hne : ∃ q ∈ l, q.1.2 = true) (hts : self.ts = l.map fun q => .kaon q.1.1 q.1.2) (hys : self.ys = l.map (·.2.1))
    (hes : self.errors = l.map (·.2.2)) {its : Iterations} {w w' : World} {p : ModelParameters ℝ} (hg : w.Good) (hp : w.heap[self.parameters]? = some p)
    (h : self.runIterative env its w = (.ok self', w')) :
    ∃ p₁ p', Reachable p₁ ∧ w'.heap[self.parameters]? = some p' ∧ (self.fitData env .formFactor).NoWorse p p₁ ∧ (chargedFit env.strFloat l).NoWorse p₁ p' ∧
      (its.free_params_numbers = [] → p₁ = p) := by
  unfold Pipeline.runIterative at h
  rw [PyM.bind_ok (readParams_run hp)] at h
  obtain ⟨s₁, w₁, h1, hA⟩ := PyM.bind_eq_ok.mp h
  obtain ⟨-, rfl, e1⟩ := Traced.log h1
  obtain ⟨s₂, w₂, h2, hB⟩ := PyM.bind_eq_ok.mp hA
  obtain ⟨rs, pₙ, d2, -, a2, a3, -⟩ := runRounds_parameters hs _ _ 0 (p := p) (by unfold World.Good; rw [e1]; exact hg) (by rw [e1]; exact hp) h2
  obtain ⟨pₘ, b1, b2⟩ := runRounds_noWorse hs hn _ _ 0 (p := p) (by unfold World.Good; rw [e1]; exact hg) (by rw [e1]; exact hp) h2
  obtain rfl := Option.some.inj (b1.symm.trans a2)
  obtain ⟨s₃, w₃, h3, hC⟩ := PyM.bind_eq_ok.mp hB
  obtain ⟨-, rfl, e3⟩ := Traced.log h3
  obtain ⟨⟨t', s₄⟩, w₄, hit, hD⟩ := PyM.bind_eq_ok.mp hC
  have a3' : s₂.parameters = self.parameters := a3
  have a2' : w₂.heap[self.parameters]? = some pₘ := a2
  have hk : s₂.kind = .kaonFF := d2.traced.kind.trans hkind
  have hcfg : s₂.config = self.config := d2.traced.config
  have hts2 : s₂.ts = l.map fun q => .kaon q.1.1 q.1.2 := (congrArg Pipeline.ts hcfg :).trans hts
  have hys2 : s₂.ys = l.map (·.2.1) := (congrArg Pipeline.ys hcfg :).trans hys
  have hes2 : s₂.errors = l.map (·.2.2) := (congrArg Pipeline.errors hcfg :).trans hes
  have hp3 : w₃.heap[s₂.parameters]? = some pₘ := by rw [e3, a3']; exact a2'
  dsimp only at hit
  rw [hk] at hit
  obtain ⟨p', r1, r2⟩ := taskFrom_noWorse (fit := chargedFit env.strFloat l) hn (p := pₘ) (by exact hp3) (d2.live.1.read a2') (fun t _ h => by
    obtain ⟨i1, i2, i3, -, -, -, -, -, -, i10⟩ := taskInit_parameters (by exact hp3) h
    refine ⟨i1, i2, ?_, fun q _ ts => ?_⟩
    · unfold Pipeline.newTask at h
      dsimp only at h
      rw [hts2, hys2, hes2] at h
      exact taskInit_charged (cls := .kaonFFFullOnlyCharged) (by decide) (by decide +kernel) hne h
    · rw [i3, i10]
      rfl) hit
  dsimp only at hD
  obtain ⟨s₅, w₅, h5, hE⟩ := PyM.bind_eq_ok.mp hD
  obtain ⟨-, rfl, e5⟩ := Traced.log h5
  obtain ⟨s₆, w₆, h6, hF⟩ := PyM.bind_eq_ok.mp hE
  obtain ⟨-, rfl, e6, -⟩ := Traced.flush h6
  obtain ⟨u7, w₇, h7, hG⟩ := PyM.bind_eq_ok.mp hF
  obtain ⟨-, e7, -⟩ := Traced.save h7
  rw [PyM.pure_run] at hG
  injection hG with _ hw
  subst hw
  have r1 : w₄.heap[s₂.parameters]? = some p' := r1
  rw [a3'] at r1
  refine ⟨pₘ, p', d2.live.1.read a2', by rw [e7, e6, e5]; exact r1, ?_, r2, fun hnil => ?_⟩
  · rw [show self.kind.fitted self.constants = .formFactor by rw [hkind]; rfl] at b2
    exact b2
  · rw [hnil] at h2
    injection h2 with _ hw
    rw [← hw, e1] at a2'
    exact Option.some.inj (a2'.symm.trans hp)

end UA
