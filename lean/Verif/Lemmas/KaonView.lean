import Verif.Spec.Kaon
import Verif.Lemmas.Components

/-! A common view of the three kaon models: couplings, masses and widths as lists. -/

namespace UA

open Complex ComplexConjugate

/-- Evaluate `Σ aᵢ cᵢ(w)`. -/
noncomputable def evalTerms : List (ℝ × UAComponent) → ℂ → Except PyErr ℂ
  | [], _ => .ok 0
  | (a, c) :: l, w => do
    let x ← c.call w
    let y ← evalTerms l w
    return a * x + y

/-- Build all components of a list of resonances, in order. -/
noncomputable def buildTerms (t_0 t_in : ℝ) : List Res → Except PyErr (List (ℝ × UAComponent))
  | [] => .ok []
  | r :: l => do
    let c ← buildComponent t_0 t_in r.mass r.decay
    let cs ← buildTerms t_0 t_in l
    return (r.a, c) :: cs

/-- What the three kaon models have in common. -/
structure KView where
  charged : Bool
  mapS : MapFromTtoW
  mapV : MapFromTtoW
  termsS : List (ℝ × UAComponent)
  termsV : List (ℝ × UAComponent)

noncomputable def KView.evalS (k : KView) (t : ℂ) : Except PyErr ℂ := do
  let w ← k.mapS.call t
  evalTerms k.termsS w

noncomputable def KView.evalV (k : KView) (t : ℂ) : Except PyErr ℂ := do
  let w ← k.mapV.call t
  evalTerms k.termsV w

noncomputable def KView.call (k : KView) (t : ℂ) : Except PyErr ℂ := do
  if t.re < 0 then throw .valueError
  let s ← k.evalS t
  let v ← k.evalV t
  if k.charged then return s + v else return s - v

theorem except_cases_aux {α : Type} (x : Except PyErr α) : (∃ e, x = .error e) ∨ (∃ a, x = .ok a) := by
  cases x
  · exact Or.inl ⟨_, rfl⟩
  · exact Or.inr ⟨_, rfl⟩

noncomputable def KaonUAModel.view (m : KaonUAModel) : KView :=
  ⟨m.charged_variant, m.t_to_W_isoscalar, m.t_to_W_isovector,
   [(m.a_omega, m.component_omega), (m.a_omega_prime, m.component_omega_prime), (m.a_omega_double_prime, m.component_omega_double_prime), (m.a_phi, m.component_phi), (m.a_phi_prime, m.component_phi_prime), (m.a_phi_double_prime, m.component_phi_double_prime)],
   [(m.a_rho, m.component_rho), (m.a_rho_prime, m.component_rho_prime), (m.a_rho_double_prime, m.component_rho_double_prime), (m.a_rho_triple_prime, m.component_rho_triple_prime)]⟩

theorem KaonUAModel.evalIsoscalar_view (m : KaonUAModel) (t : ℂ) : m.evalIsoscalarContribution t = m.view.evalS t := by
  simp only [KaonUAModel.evalIsoscalarContribution, KView.evalS, KaonUAModel.view, evalTerms]
  rcases m.t_to_W_isoscalar.call t with e | w
  · rfl
  simp only [except_ok_bind]
  rcases m.component_omega.call w with e | omega
  · rfl
  simp only [except_ok_bind]
  rcases m.component_omega_prime.call w with e | omega_prime
  · rfl
  simp only [except_ok_bind]
  rcases m.component_omega_double_prime.call w with e | omega_double_prime
  · rfl
  simp only [except_ok_bind]
  rcases m.component_phi.call w with e | phi
  · rfl
  simp only [except_ok_bind]
  rcases m.component_phi_prime.call w with e | phi_prime
  · rfl
  simp only [except_ok_bind]
  rcases m.component_phi_double_prime.call w with e | phi_double_prime
  · rfl
  simp only [except_ok_bind]
  simp only [except_pure, except_ok_bind]
  congr 1
  ring

theorem KaonUAModel.evalIsovector_view (m : KaonUAModel) (t : ℂ) : m.evalIsovectorContribution t = m.view.evalV t := by
  simp only [KaonUAModel.evalIsovectorContribution, KView.evalV, KaonUAModel.view, evalTerms]
  rcases m.t_to_W_isovector.call t with e | w
  · rfl
  simp only [except_ok_bind]
  rcases m.component_rho.call w with e | rho
  · rfl
  simp only [except_ok_bind]
  rcases m.component_rho_prime.call w with e | rho_prime
  · rfl
  simp only [except_ok_bind]
  rcases m.component_rho_double_prime.call w with e | rho_double_prime
  · rfl
  simp only [except_ok_bind]
  rcases m.component_rho_triple_prime.call w with e | rho_triple_prime
  · rfl
  simp only [except_ok_bind]
  simp only [except_pure, except_ok_bind]
  congr 1
  ring

theorem KaonUAModel.call_view (m : KaonUAModel) (t : ℂ) : m.call t = m.view.call t := by
  simp only [KaonUAModel.call, KView.call, KaonUAModel.evalIsoscalar_view, KaonUAModel.evalIsovector_view]
  rfl

theorem KaonUAModel.init_view (ch : Bool) (x : KaonUAModel.Args) :
    (do let m ← KaonUAModel.init ch x; return m.view) = (do
      let mapS ← MapFromTtoW.init x.t_0_isoscalar x.t_in_isoscalar
      let mapV ← MapFromTtoW.init x.t_0_isovector x.t_in_isovector
      let termsS ← buildTerms x.t_0_isoscalar x.t_in_isoscalar x.resS
      let termsV ← buildTerms x.t_0_isovector x.t_in_isovector x.resV
      return (⟨ch, mapS, mapV, termsS, termsV⟩ : KView)) := by
  simp only [KaonUAModel.init, KaonUAModel.Args.resS, KaonUAModel.Args.resV, buildTerms]
  rcases MapFromTtoW.init x.t_0_isoscalar x.t_in_isoscalar with e | mS
  · rfl
  simp only [except_ok_bind]
  rcases MapFromTtoW.init x.t_0_isovector x.t_in_isovector with e | mV
  · rfl
  simp only [except_ok_bind]
  rcases buildComponent x.t_0_isoscalar x.t_in_isoscalar x.mass_omega x.decay_rate_omega with e | omega
  · rfl
  simp only [except_ok_bind]
  rcases buildComponent x.t_0_isoscalar x.t_in_isoscalar x.mass_omega_prime x.decay_rate_omega_prime with e | omega_prime
  · rfl
  simp only [except_ok_bind]
  rcases buildComponent x.t_0_isoscalar x.t_in_isoscalar x.mass_omega_double_prime x.decay_rate_omega_double_prime with e | omega_double_prime
  · rfl
  simp only [except_ok_bind]
  rcases buildComponent x.t_0_isoscalar x.t_in_isoscalar x.mass_phi x.decay_rate_phi with e | phi
  · rfl
  simp only [except_ok_bind]
  rcases buildComponent x.t_0_isoscalar x.t_in_isoscalar x.mass_phi_prime x.decay_rate_phi_prime with e | phi_prime
  · rfl
  simp only [except_ok_bind]
  rcases buildComponent x.t_0_isoscalar x.t_in_isoscalar x.mass_phi_double_prime x.decay_rate_phi_double_prime with e | phi_double_prime
  · rfl
  simp only [except_ok_bind]
  rcases buildComponent x.t_0_isovector x.t_in_isovector x.mass_rho x.decay_rate_rho with e | rho
  · rfl
  simp only [except_ok_bind]
  rcases buildComponent x.t_0_isovector x.t_in_isovector x.mass_rho_prime x.decay_rate_rho_prime with e | rho_prime
  · rfl
  simp only [except_ok_bind]
  rcases buildComponent x.t_0_isovector x.t_in_isovector x.mass_rho_double_prime x.decay_rate_rho_double_prime with e | rho_double_prime
  · rfl
  simp only [except_ok_bind]
  rcases buildComponent x.t_0_isovector x.t_in_isovector x.mass_rho_triple_prime x.decay_rate_rho_triple_prime with e | rho_triple_prime
  · rfl
  simp only [except_ok_bind]
  simp only [except_pure, except_ok_bind, KaonUAModel.view]
  congr 4
  all_goals (try (norm_num; ring))

noncomputable def KaonUAModelB.view (m : KaonUAModelB) : KView :=
  ⟨m.charged_variant, m.t_to_W_isoscalar, m.t_to_W_isovector,
   [(m.a_omega, m.component_omega), (m.a_omega_double_prime, m.component_omega_double_prime), (m.a_phi, m.component_phi), (m.a_phi_prime, m.component_phi_prime), (m.a_phi_double_prime, m.component_phi_double_prime)],
   [(m.a_rho, m.component_rho), (m.a_rho_prime, m.component_rho_prime), (m.a_rho_double_prime, m.component_rho_double_prime)]⟩

theorem KaonUAModelB.evalIsoscalar_view (m : KaonUAModelB) (t : ℂ) : m.evalIsoscalarContribution t = m.view.evalS t := by
  simp only [KaonUAModelB.evalIsoscalarContribution, KView.evalS, KaonUAModelB.view, evalTerms]
  rcases m.t_to_W_isoscalar.call t with e | w
  · rfl
  simp only [except_ok_bind]
  rcases m.component_omega.call w with e | omega
  · rfl
  simp only [except_ok_bind]
  rcases m.component_omega_double_prime.call w with e | omega_double_prime
  · rfl
  simp only [except_ok_bind]
  rcases m.component_phi.call w with e | phi
  · rfl
  simp only [except_ok_bind]
  rcases m.component_phi_prime.call w with e | phi_prime
  · rfl
  simp only [except_ok_bind]
  rcases m.component_phi_double_prime.call w with e | phi_double_prime
  · rfl
  simp only [except_ok_bind]
  simp only [except_pure, except_ok_bind]
  congr 1
  ring

theorem KaonUAModelB.evalIsovector_view (m : KaonUAModelB) (t : ℂ) : m.evalIsovectorContribution t = m.view.evalV t := by
  simp only [KaonUAModelB.evalIsovectorContribution, KView.evalV, KaonUAModelB.view, evalTerms]
  rcases m.t_to_W_isovector.call t with e | w
  · rfl
  simp only [except_ok_bind]
  rcases m.component_rho.call w with e | rho
  · rfl
  simp only [except_ok_bind]
  rcases m.component_rho_prime.call w with e | rho_prime
  · rfl
  simp only [except_ok_bind]
  rcases m.component_rho_double_prime.call w with e | rho_double_prime
  · rfl
  simp only [except_ok_bind]
  simp only [except_pure, except_ok_bind]
  congr 1
  ring

theorem KaonUAModelB.call_view (m : KaonUAModelB) (t : ℂ) : m.call t = m.view.call t := by
  simp only [KaonUAModelB.call, KView.call, KaonUAModelB.evalIsoscalar_view, KaonUAModelB.evalIsovector_view]
  rfl

theorem KaonUAModelB.init_view (ch : Bool) (x : KaonUAModelB.Args) :
    (do let m ← KaonUAModelB.init ch x; return m.view) = (do
      let mapS ← MapFromTtoW.init x.t_0_isoscalar x.t_in_isoscalar
      let mapV ← MapFromTtoW.init x.t_0_isovector x.t_in_isovector
      let termsS ← buildTerms x.t_0_isoscalar x.t_in_isoscalar x.resS
      let termsV ← buildTerms x.t_0_isovector x.t_in_isovector x.resV
      return (⟨ch, mapS, mapV, termsS, termsV⟩ : KView)) := by
  simp only [KaonUAModelB.init, KaonUAModelB.Args.resS, KaonUAModelB.Args.resV, buildTerms]
  rcases MapFromTtoW.init x.t_0_isoscalar x.t_in_isoscalar with e | mS
  · rfl
  simp only [except_ok_bind]
  rcases MapFromTtoW.init x.t_0_isovector x.t_in_isovector with e | mV
  · rfl
  simp only [except_ok_bind]
  rcases buildComponent x.t_0_isoscalar x.t_in_isoscalar x.mass_omega x.decay_rate_omega with e | omega
  · rfl
  simp only [except_ok_bind]
  rcases buildComponent x.t_0_isoscalar x.t_in_isoscalar x.mass_omega_double_prime x.decay_rate_omega_double_prime with e | omega_double_prime
  · rfl
  simp only [except_ok_bind]
  rcases buildComponent x.t_0_isoscalar x.t_in_isoscalar x.mass_phi x.decay_rate_phi with e | phi
  · rfl
  simp only [except_ok_bind]
  rcases buildComponent x.t_0_isoscalar x.t_in_isoscalar x.mass_phi_prime x.decay_rate_phi_prime with e | phi_prime
  · rfl
  simp only [except_ok_bind]
  rcases buildComponent x.t_0_isoscalar x.t_in_isoscalar x.mass_phi_double_prime x.decay_rate_phi_double_prime with e | phi_double_prime
  · rfl
  simp only [except_ok_bind]
  rcases buildComponent x.t_0_isovector x.t_in_isovector x.mass_rho x.decay_rate_rho with e | rho
  · rfl
  simp only [except_ok_bind]
  rcases buildComponent x.t_0_isovector x.t_in_isovector x.mass_rho_prime x.decay_rate_rho_prime with e | rho_prime
  · rfl
  simp only [except_ok_bind]
  rcases buildComponent x.t_0_isovector x.t_in_isovector x.mass_rho_double_prime x.decay_rate_rho_double_prime with e | rho_double_prime
  · rfl
  simp only [except_ok_bind]
  simp only [except_pure, except_ok_bind, KaonUAModelB.view]
  congr 4
  all_goals (try (norm_num; ring))

noncomputable def KaonUAModelSimplified.view (m : KaonUAModelSimplified) : KView :=
  ⟨m.charged_variant, m.t_to_W_isoscalar, m.t_to_W_isovector,
   [(m.a_omega_prime, m.component_omega_prime), (m.a_omega_double_prime, m.component_omega_double_prime), (m.a_phi, m.component_phi), (m.a_phi_prime, m.component_phi_prime), (m.a_phi_double_prime, m.component_phi_double_prime)],
   [(m.a_rho_prime, m.component_rho_prime), (m.a_rho_double_prime, m.component_rho_double_prime), (m.a_rho_triple_prime, m.component_rho_triple_prime)]⟩

theorem KaonUAModelSimplified.evalIsoscalar_view (m : KaonUAModelSimplified) (t : ℂ) : m.evalIsoscalarContribution t = m.view.evalS t := by
  simp only [KaonUAModelSimplified.evalIsoscalarContribution, KView.evalS, KaonUAModelSimplified.view, evalTerms]
  rcases m.t_to_W_isoscalar.call t with e | w
  · rfl
  simp only [except_ok_bind]
  rcases m.component_omega_prime.call w with e | omega_prime
  · rfl
  simp only [except_ok_bind]
  rcases m.component_omega_double_prime.call w with e | omega_double_prime
  · rfl
  simp only [except_ok_bind]
  rcases m.component_phi.call w with e | phi
  · rfl
  simp only [except_ok_bind]
  rcases m.component_phi_prime.call w with e | phi_prime
  · rfl
  simp only [except_ok_bind]
  rcases m.component_phi_double_prime.call w with e | phi_double_prime
  · rfl
  simp only [except_ok_bind]
  simp only [except_pure, except_ok_bind]
  congr 1
  ring

theorem KaonUAModelSimplified.evalIsovector_view (m : KaonUAModelSimplified) (t : ℂ) : m.evalIsovectorContribution t = m.view.evalV t := by
  simp only [KaonUAModelSimplified.evalIsovectorContribution, KView.evalV, KaonUAModelSimplified.view, evalTerms]
  rcases m.t_to_W_isovector.call t with e | w
  · rfl
  simp only [except_ok_bind]
  rcases m.component_rho_prime.call w with e | rho_prime
  · rfl
  simp only [except_ok_bind]
  rcases m.component_rho_double_prime.call w with e | rho_double_prime
  · rfl
  simp only [except_ok_bind]
  rcases m.component_rho_triple_prime.call w with e | rho_triple_prime
  · rfl
  simp only [except_ok_bind]
  simp only [except_pure, except_ok_bind]
  congr 1
  ring

theorem KaonUAModelSimplified.call_view (m : KaonUAModelSimplified) (t : ℂ) : m.call t = m.view.call t := by
  simp only [KaonUAModelSimplified.call, KView.call, KaonUAModelSimplified.evalIsoscalar_view, KaonUAModelSimplified.evalIsovector_view]
  rfl

theorem KaonUAModelSimplified.init_view (ch : Bool) (x : KaonUAModelSimplified.Args) :
    (do let m ← KaonUAModelSimplified.init ch x; return m.view) = (do
      let mapS ← MapFromTtoW.init x.t_0_isoscalar x.t_in_isoscalar
      let mapV ← MapFromTtoW.init x.t_0_isovector x.t_in_isovector
      let termsS ← buildTerms x.t_0_isoscalar x.t_in_isoscalar x.resS
      let termsV ← buildTerms x.t_0_isovector x.t_in_isovector x.resV
      return (⟨ch, mapS, mapV, termsS, termsV⟩ : KView)) := by
  simp only [KaonUAModelSimplified.init, KaonUAModelSimplified.Args.resS, KaonUAModelSimplified.Args.resV, buildTerms]
  rcases MapFromTtoW.init x.t_0_isoscalar x.t_in_isoscalar with e | mS
  · rfl
  simp only [except_ok_bind]
  rcases MapFromTtoW.init x.t_0_isovector x.t_in_isovector with e | mV
  · rfl
  simp only [except_ok_bind]
  rcases buildComponent x.t_0_isoscalar x.t_in_isoscalar x.mass_omega_prime x.decay_rate_omega_prime with e | omega_prime
  · rfl
  simp only [except_ok_bind]
  rcases buildComponent x.t_0_isoscalar x.t_in_isoscalar x.mass_omega_double_prime x.decay_rate_omega_double_prime with e | omega_double_prime
  · rfl
  simp only [except_ok_bind]
  rcases buildComponent x.t_0_isoscalar x.t_in_isoscalar x.mass_phi x.decay_rate_phi with e | phi
  · rfl
  simp only [except_ok_bind]
  rcases buildComponent x.t_0_isoscalar x.t_in_isoscalar x.mass_phi_prime x.decay_rate_phi_prime with e | phi_prime
  · rfl
  simp only [except_ok_bind]
  rcases buildComponent x.t_0_isoscalar x.t_in_isoscalar x.mass_phi_double_prime x.decay_rate_phi_double_prime with e | phi_double_prime
  · rfl
  simp only [except_ok_bind]
  rcases buildComponent x.t_0_isovector x.t_in_isovector x.mass_rho_prime x.decay_rate_rho_prime with e | rho_prime
  · rfl
  simp only [except_ok_bind]
  rcases buildComponent x.t_0_isovector x.t_in_isovector x.mass_rho_double_prime x.decay_rate_rho_double_prime with e | rho_double_prime
  · rfl
  simp only [except_ok_bind]
  rcases buildComponent x.t_0_isovector x.t_in_isovector x.mass_rho_triple_prime x.decay_rate_rho_triple_prime with e | rho_triple_prime
  · rfl
  simp only [except_ok_bind]
  simp only [except_pure, except_ok_bind, KaonUAModelSimplified.view]
  congr 4
  all_goals (try (norm_num; ring))

end UA
