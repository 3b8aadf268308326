import Verif.Lemmas.Content

/-!
# Property C86: the kaon form factor depends only on which resonances there are, not on how they are written down
-/

namespace UA

open Complex ComplexConjugate

/-- **C86** the fitted functions of two kaon objects inside the bounds, of one class or of two different ones, are the same function
(exceptions included) if the objects have the same thresholds and, isospin by isospin, the same resonances with non-zero coupling
under whatever labels. -/
theorem C86_same_content {p p' : ModelParameters ℝ} (h : Reachable p) (hc : IsKaonClass p.cls) (hi : p.InsideMaximal) (h' : Reachable p')
    (hc' : IsKaonClass p'.cls) (hi' : p'.InsideMaximal) (hs : p.SameContent p') {points : List (ℝ × Bool)} (h0 : ∀ d ∈ points, 0 ≤ d.1) :
    functionFormFactor (points.map fun d => .kaon d.1 d.2) p' = functionFormFactor (points.map fun d => .kaon d.1 d.2) p ∧
    ∀ m α hc2, functionCrossSection (points.map fun d => .kaon d.1 d.2) m α hc2 p' =
      functionCrossSection (points.map fun d => .kaon d.1 d.2) m α hc2 p :=
  ⟨eval_same h hc hi h' hc' hi' hs .formFactor h0, fun m α hc2 => eval_same h hc hi h' hc' hi' hs (.crossSection m α hc2) h0⟩

/-- A `KaonParametersB` object and a `KaonParameters` object with the same content. -/
example : (jumpObject .kaon 3).SameContent (jumpObject .kaonB 3) ∧ Reachable (jumpObject .kaon 3) ∧ (jumpObject .kaon 3).InsideMaximal ∧
    Reachable (jumpObject .kaonB 3) ∧ (jumpObject .kaonB 3).InsideMaximal :=
  ⟨jump_same (c := .kaon) (c' := .kaonB) trivial trivial 3, jump_reachable _ _, jump_inside (c := .kaon) trivial (by norm_num),
    jump_reachable _ _, jump_inside (c := .kaonB) trivial (by norm_num)⟩

/-- **C86** the models themselves: constructor arguments with the same thresholds and, apart from order and from the signs of masses
and widths, the same resonances give models that can both be constructed or both not, and that then agree at every complex `t`,
exceptions included. -/
theorem C86_order_and_signs {x x' : KaonArgs} (hp : x.Proper) (ht : x.SameThresholds x')
    (hS : (x.resS.map Res.unsigned).Perm (x'.resS.map Res.unsigned)) (hV : (x.resV.map Res.unsigned).Perm (x'.resV.map Res.unsigned))
    (charged : Bool) : (x'.Builds charged ↔ x.Builds charged) ∧ (x.Builds charged → ∀ t, x'.run charged t = x.run charged t) := by
  obtain ⟨e1, e2, e3, e4⟩ := ht
  have hp' : x'.Proper := by unfold KaonArgs.Proper; rw [← e1, ← e2, ← e3, ← e4]; exact hp
  exact ⟨⟨fun h => (run_same hp' ⟨e1.symm, e2.symm, e3.symm, e4.symm⟩ hS.symm hV.symm h).1, fun h => (run_same hp ⟨e1, e2, e3, e4⟩ hS hV h).1⟩,
    fun h => (run_same hp ⟨e1, e2, e3, e4⟩ hS hV h).2⟩

/-- `exampleB` with the second and the last isoscalar resonance exchanged (so that the derived coupling changes place) and the
signs of some masses and widths changed. -/
noncomputable def exampleBReordered : KaonArgs :=
  .b ⟨1, 2, 1, 3, 1, -19 / 2, 3, 4, 5, 6, 2, 1, -6, 1, 4, 1, 5, -1, 3, 1, 2, 1, -3, -1, 4, 1⟩

example : exampleB.SameThresholds exampleBReordered ∧ (exampleB.resS.map Res.unsigned).Perm (exampleBReordered.resS.map Res.unsigned) ∧
    (exampleB.resV.map Res.unsigned).Perm (exampleBReordered.resV.map Res.unsigned) := by
  refine ⟨⟨rfl, rfl, rfl, rfl⟩, ?_, ?_⟩
  · simp only [exampleB, exampleBReordered, KaonArgs.resS, KaonUAModelB.Args.resS, List.map, Res.unsigned]
    norm_num
    have key : ∀ a b c d : Res, [a, b, c, d].Perm [d, b, c, a] := fun a b c d =>
      (List.perm_append_comm (l₁ := [a, b, c]) (l₂ := [d])).trans (.cons d (List.perm_append_comm (l₁ := [a]) (l₂ := [b, c])))
    exact key _ _ _ _
  · simp only [exampleB, exampleBReordered, KaonArgs.resV, KaonUAModelB.Args.resV, List.map, Res.unsigned]
    norm_num

/-- **C86** resonances with coupling zero do not influence the value either: whenever both models return, the values are equal.
(A resonance with coupling zero can still make the construction or the evaluation fail.) -/
theorem C86_zero_couplings {x x' : KaonArgs} (hp : x.Proper) (ht : x.SameThresholds x') (hS : SameResonances x.resS x'.resS)
    (hV : SameResonances x.resV x'.resV) {charged : Bool} {t y y' : ℂ} (hy : x.run charged t = .ok y) (hy' : x'.run charged t = .ok y') :
    y' = y := by
  obtain ⟨e1, e2, e3, e4⟩ := ht
  have hp' : x'.Proper := by unfold KaonArgs.Proper; rw [← e1, ← e2, ← e3, ← e4]; exact hp
  rw [run_value hp hy, run_value hp' hy', ← e1, ← e2, ← e3, ← e4, FsumL_same hS, FsumL_same hV]

/-- **C86** every `KaonUAModelB` is a `KaonUAModel` with the coupling of the omega prime zero and the coupling that used to be derived
given to the rho double prime, whatever mass and width the two additional resonances have. -/
theorem C86_b_in_full (x : KaonUAModelB.Args) (mass_omega_prime decay_rate_omega_prime mass_rho_triple_prime decay_rate_rho_triple_prime : ℝ)
    (hp : (KaonArgs.b x).Proper) {charged : Bool} {t y y' : ℂ} (hy : (KaonArgs.b x).run charged t = .ok y)
    (hy' : (KaonArgs.full {
      t_0_isoscalar := x.t_0_isoscalar, t_0_isovector := x.t_0_isovector, t_in_isoscalar := x.t_in_isoscalar, t_in_isovector := x.t_in_isovector,
      a_omega := x.a_omega, mass_omega := x.mass_omega, decay_rate_omega := x.decay_rate_omega,
      a_omega_prime := 0, mass_omega_prime := mass_omega_prime, decay_rate_omega_prime := decay_rate_omega_prime,
      a_omega_double_prime := x.a_omega_double_prime, mass_omega_double_prime := x.mass_omega_double_prime,
      decay_rate_omega_double_prime := x.decay_rate_omega_double_prime,
      a_phi := x.a_phi, mass_phi := x.mass_phi, decay_rate_phi := x.decay_rate_phi,
      a_phi_prime := x.a_phi_prime, mass_phi_prime := x.mass_phi_prime, decay_rate_phi_prime := x.decay_rate_phi_prime,
      mass_phi_double_prime := x.mass_phi_double_prime, decay_rate_phi_double_prime := x.decay_rate_phi_double_prime,
      a_rho := x.a_rho, mass_rho := x.mass_rho, decay_rate_rho := x.decay_rate_rho,
      a_rho_prime := x.a_rho_prime, mass_rho_prime := x.mass_rho_prime, decay_rate_rho_prime := x.decay_rate_rho_prime,
      a_rho_double_prime := 1 / 2 - (x.a_rho + x.a_rho_prime), mass_rho_double_prime := x.mass_rho_double_prime,
      decay_rate_rho_double_prime := x.decay_rate_rho_double_prime,
      mass_rho_triple_prime := mass_rho_triple_prime, decay_rate_rho_triple_prime := decay_rate_rho_triple_prime }).run charged t = .ok y') :
    y' = y := by
  refine C86_zero_couplings hp ?_ ?_ ?_ hy hy'
  · exact ⟨rfl, rfl, rfl, rfl⟩
  · simp only [KaonArgs.resS, KaonUAModel.Args.resS, KaonUAModelB.Args.resS, add_zero]
    exact .cons _ (.zero rfl (.refl _))
  · simp only [KaonArgs.resV, KaonUAModel.Args.resV, KaonUAModelB.Args.resV]
    exact .cons _ (.cons _ (.cons _ (.zero (by ring) (.refl _))))

/-- `exampleB` as a `KaonUAModel`. -/
noncomputable def exampleBFull : KaonArgs :=
  .full ⟨1, 2, 1, 3, 1, 0, 2, 3, 4, 5, 6, 1 / 2 - (5 + 6), 2, 1, 7, 1, 3, 1, 4, 1, 5, 1, 6, 1, 2, 1, 3, 1, 4, 1, 5, 1⟩

example : exampleB.Proper ∧ exampleB.run true 0 = .ok 1 ∧ exampleBFull.run true 0 = .ok 1 := by
  have hp : exampleB.Proper := by constructor <;> norm_num [exampleB, KaonArgs.t0S, KaonArgs.tinS, KaonArgs.t0V, KaonArgs.tinV]
  have hp' : exampleBFull.Proper := by constructor <;> norm_num [exampleBFull, KaonArgs.t0S, KaonArgs.tinS, KaonArgs.t0V, KaonArgs.tinV]
  refine ⟨hp, (C18_kaon_normalisation _ hp).1 (builds_of_pos ?_ ?_ hp ?_ ?_), (C18_kaon_normalisation _ hp').1 (builds_of_pos ?_ ?_ hp' ?_ ?_)⟩ <;>
    simp [exampleB, exampleBFull, KaonArgs.t0S, KaonArgs.tinS, KaonArgs.t0V, KaonArgs.tinV, KaonArgs.resS, KaonArgs.resV,
      KaonUAModel.Args.resS, KaonUAModel.Args.resV, KaonUAModelB.Args.resS, KaonUAModelB.Args.resV] <;> norm_num

/-- **C86** likewise every `KaonUAModelSimplified` is a `KaonUAModel` with the couplings of omega and rho zero. -/
theorem C86_simplified_in_full (x : KaonUAModelSimplified.Args) (mass_omega decay_rate_omega mass_rho decay_rate_rho : ℝ)
    (hp : (KaonArgs.simplified x).Proper) {charged : Bool} {t y y' : ℂ} (hy : (KaonArgs.simplified x).run charged t = .ok y)
    (hy' : (KaonArgs.full {
      t_0_isoscalar := x.t_0_isoscalar, t_0_isovector := x.t_0_isovector, t_in_isoscalar := x.t_in_isoscalar, t_in_isovector := x.t_in_isovector,
      a_omega := 0, mass_omega := mass_omega, decay_rate_omega := decay_rate_omega,
      a_omega_prime := x.a_omega_prime, mass_omega_prime := x.mass_omega_prime, decay_rate_omega_prime := x.decay_rate_omega_prime,
      a_omega_double_prime := x.a_omega_double_prime, mass_omega_double_prime := x.mass_omega_double_prime,
      decay_rate_omega_double_prime := x.decay_rate_omega_double_prime,
      a_phi := x.a_phi, mass_phi := x.mass_phi, decay_rate_phi := x.decay_rate_phi,
      a_phi_prime := x.a_phi_prime, mass_phi_prime := x.mass_phi_prime, decay_rate_phi_prime := x.decay_rate_phi_prime,
      mass_phi_double_prime := x.mass_phi_double_prime, decay_rate_phi_double_prime := x.decay_rate_phi_double_prime,
      a_rho := 0, mass_rho := mass_rho, decay_rate_rho := decay_rate_rho,
      a_rho_prime := x.a_rho_prime, mass_rho_prime := x.mass_rho_prime, decay_rate_rho_prime := x.decay_rate_rho_prime,
      a_rho_double_prime := x.a_rho_double_prime, mass_rho_double_prime := x.mass_rho_double_prime,
      decay_rate_rho_double_prime := x.decay_rate_rho_double_prime,
      mass_rho_triple_prime := x.mass_rho_triple_prime, decay_rate_rho_triple_prime := x.decay_rate_rho_triple_prime }).run charged t = .ok y') :
    y' = y := by
  refine C86_zero_couplings hp ?_ ?_ ?_ hy hy'
  · exact ⟨rfl, rfl, rfl, rfl⟩
  · simp only [KaonArgs.resS, KaonUAModel.Args.resS, KaonUAModelSimplified.Args.resS, zero_add]
    exact .zero rfl (.refl _)
  · simp only [KaonArgs.resV, KaonUAModel.Args.resV, KaonUAModelSimplified.Args.resV, zero_add]
    exact .zero rfl (.refl _)

/-- `exampleSimplified` as a `KaonUAModel`. -/
noncomputable def exampleSimplifiedFull : KaonArgs :=
  .full ⟨1, 2, 1, 3, 0, 1, 2, 3, 4, 0, 5, 6, 7, 1, 2, 1, 3, 1, 4, 1, 5, 1, 6, 1, 5, 1, 2, 1, 3, 1, 4, 1⟩

example : exampleSimplified.Proper ∧ exampleSimplified.run true 0 = .ok 1 ∧ exampleSimplifiedFull.run true 0 = .ok 1 := by
  have hp : exampleSimplified.Proper := by constructor <;> norm_num [exampleSimplified, KaonArgs.t0S, KaonArgs.tinS, KaonArgs.t0V, KaonArgs.tinV]
  have hp' : exampleSimplifiedFull.Proper := by constructor <;> norm_num [exampleSimplifiedFull, KaonArgs.t0S, KaonArgs.tinS, KaonArgs.t0V, KaonArgs.tinV]
  refine ⟨hp, (C18_kaon_normalisation _ hp).1 (builds_of_pos ?_ ?_ hp ?_ ?_), (C18_kaon_normalisation _ hp').1 (builds_of_pos ?_ ?_ hp' ?_ ?_)⟩ <;>
    simp [exampleSimplified, exampleSimplifiedFull, KaonArgs.t0S, KaonArgs.tinS, KaonArgs.t0V, KaonArgs.tinV, KaonArgs.resS, KaonArgs.resV,
      KaonUAModel.Args.resS, KaonUAModel.Args.resV, KaonUAModelSimplified.Args.resS, KaonUAModelSimplified.Args.resV] <;> norm_num

/-- **C86** with thresholds, masses and widths given, the form factor is an affine function of the couplings. -/
theorem C86_affine {x₀ x₁ x : KaonArgs} (hp : x₀.Proper) (h₁ : x₀.SameThresholds x₁) (h : x₀.SameThresholds x) (s : ℝ)
    (hm₁ : x₀.resS.map (fun r => (r.mass, r.decay)) = x₁.resS.map (fun r => (r.mass, r.decay)))
    (hm₂ : x₀.resV.map (fun r => (r.mass, r.decay)) = x₁.resV.map (fun r => (r.mass, r.decay)))
    (hS : x.resS = List.zipWith (fun r r' => ⟨(1 - s) * r.a + s * r'.a, r.mass, r.decay⟩) x₀.resS x₁.resS)
    (hV : x.resV = List.zipWith (fun r r' => ⟨(1 - s) * r.a + s * r'.a, r.mass, r.decay⟩) x₀.resV x₁.resV)
    {charged : Bool} {t y₀ y₁ y : ℂ} (hy₀ : x₀.run charged t = .ok y₀) (hy₁ : x₁.run charged t = .ok y₁) (hy : x.run charged t = .ok y) :
    y = (1 - s) * y₀ + s * y₁ := by
  obtain ⟨e1, e2, e3, e4⟩ := h₁
  obtain ⟨f1, f2, f3, f4⟩ := h
  have hp₁ : x₁.Proper := by unfold KaonArgs.Proper; rw [← e1, ← e2, ← e3, ← e4]; exact hp
  have hp' : x.Proper := by unfold KaonArgs.Proper; rw [← f1, ← f2, ← f3, ← f4]; exact hp
  rw [run_value hp hy₀, run_value hp₁ hy₁, run_value hp' hy, ← e1, ← e2, ← e3, ← e4, ← f1, ← f2, ← f3, ← f4, hS, hV,
    FsumL_affine s t hm₁, FsumL_affine s t hm₂]
  ring

/-- Three records on a line: the coupling of the omega double prime is 2, 4 and 3. -/
example : let x₀ : KaonArgs := exampleB
    let x₁ : KaonArgs := .b ⟨1, 2, 1, 3, 1, 4, 3, 4, 5, 6, 2, 1, 3, 1, 4, 1, 5, 1, 6, 1, 2, 1, 3, 1, 4, 1⟩
    let x : KaonArgs := .b ⟨1, 2, 1, 3, 1, 3, 3, 4, 5, 6, 2, 1, 3, 1, 4, 1, 5, 1, 6, 1, 2, 1, 3, 1, 4, 1⟩
    x.resS = List.zipWith (fun r r' => ⟨(1 - 1 / 2) * r.a + 1 / 2 * r'.a, r.mass, r.decay⟩) x₀.resS x₁.resS ∧
      x.resV = List.zipWith (fun r r' => ⟨(1 - 1 / 2) * r.a + 1 / 2 * r'.a, r.mass, r.decay⟩) x₀.resV x₁.resV := by
  simp only [exampleB, KaonArgs.resS, KaonArgs.resV, KaonUAModelB.Args.resS, KaonUAModelB.Args.resV, List.zipWith]
  norm_num

end UA
