import Verif.Lemmas.NucleonContent

/-!
# Property C106: the nucleon form factors depend only on which resonances there are, not on how they are written down
-/

namespace UA

open Complex ComplexConjugate

/-- **C106** for both classes, both nucleons and both form factors: arguments that differ in the signs of masses and widths, in which
label the omega, phi and phi prime resonance have (with their couplings), or in which of the two resonances without a coupling of
their own is called which (isoscalar: double primes; isovector: rho prime, rho double prime) give models that can both be constructed
or both not, and that then agree at every complex `t`, exceptions included. -/
theorem C106_labels_and_signs (k : NucleonClass) (proton electric : Bool) {x x' : NucleonArgs} (h : x.Rewritten x') (hp : x.Proper) :
    (k.Builds proton electric x' ↔ k.Builds proton electric x) ∧
    (k.Builds proton electric x → ∀ t, k.run proton electric x' t = k.run proton electric x t) :=
  (rewritten_same k proton electric h).2 hp

/-- `exampleNucleon` with the omega and phi prime resonance exchanged, the double primes exchanged, the rho prime and double prime
exchanged, and the signs of two masses and one width changed. -/
noncomputable def exampleNucleonRewritten : NucleonArgs := { exampleNucleon with
  a_dirac_omega := 4, a_dirac_phi_prime := 1, a_pauli_omega := 8, a_pauli_phi_prime := 6
  mass_omega := 6, decay_rate_omega := -1, mass_phi_prime := -2, decay_rate_phi_prime := 1
  mass_omega_double_prime := 7, mass_phi_double_prime := 4, mass_rho_prime := -4, mass_rho_double_prime := 3 }

example : exampleNucleon.Rewritten exampleNucleonRewritten ∧ exampleNucleon.Proper ∧ NucleonClass.new.Builds true true exampleNucleon := by
  refine ⟨?_, exampleNucleon_proper, exampleNucleon_builds _ _ _⟩
  refine .trans (.omega_phi _) (.trans (.phi_phi_prime _) (.trans (.omega_phi _) (.trans (.double_primes _) (.trans (.rho_primes _) (.signs ?_)))))
  norm_num [exampleNucleon, exampleNucleonRewritten, NucleonArgs.unsigned, abs_of_nonneg]

/-- **C106** at the threshold `t = 4 m²` of the nucleon pair the electric and the magnetic form factor of a nucleon are the same: same
value or same exception, whatever the arguments. -/
theorem C106_threshold (k : NucleonClass) (proton : Bool) {x : NucleonArgs} (h : x.nucleon_mass ≠ 0) :
    k.run proton true x (4 * (x.nucleon_mass : ℂ) ^ 2) = k.run proton false x (4 * (x.nucleon_mass : ℂ) ^ 2) :=
  run_threshold k proton h

example : exampleNucleon.nucleon_mass ≠ 0 := by norm_num [exampleNucleon]

/-- **C106** with nucleon mass, thresholds, masses and widths given, the form factors are affine functions of the magnetic moments and
couplings; whether a model can be constructed and evaluated at `t` does not depend on moments and couplings at all. -/
theorem C106_affine (k : NucleonClass) (proton electric : Bool) {x₀ x₁ x : NucleonArgs} (hp : x₀.Proper) (s : ℝ)
    (h₁ : x₁.positions = x₀.positions) (h : x.positions = x₀.positions)
    (hs : x.strengths = List.zipWith (fun a b => (1 - s) * a + s * b) x₀.strengths x₁.strengths) :
    (k.Builds proton electric x ↔ k.Builds proton electric x₀) ∧ ∀ t,
      ((∃ y, k.run proton electric x t = .ok y) ↔ ∃ y, k.run proton electric x₀ t = .ok y) ∧
      ∀ y₀ y₁, k.run proton electric x₀ t = .ok y₀ → k.run proton electric x₁ t = .ok y₁ →
        k.run proton electric x t = .ok ((1 - s) * y₀ + s * y₁) := by
  obtain ⟨hb, hd⟩ := run_defined (k := k) (pr := proton) (el := electric) hp h
  refine ⟨hb, fun t => ⟨hd t, fun y₀ y₁ h0 h1 => ?_⟩⟩
  obtain ⟨y, hy⟩ := (hd t).mpr ⟨y₀, h0⟩
  rw [hy, run_affine hp s h₁ h hs h0 h1 hy]

/-- `exampleNucleon`, the same with all moments and couplings zero, and the point half-way between. -/
noncomputable def exampleNucleonAt (s : ℝ) : NucleonArgs := { exampleNucleon with
  magnetic_moment_proton := (1 - s) * 3, magnetic_moment_neutron := (1 - s) * -2
  a_dirac_omega := 1 - s, a_dirac_omega_prime := (1 - s) * 2, a_dirac_phi := (1 - s) * 3, a_dirac_phi_prime := (1 - s) * 4
  a_dirac_rho := (1 - s) * 5, a_pauli_omega := (1 - s) * 6, a_pauli_phi := (1 - s) * 7, a_pauli_phi_prime := (1 - s) * 8 }

example : (exampleNucleonAt 1).positions = exampleNucleon.positions ∧ (exampleNucleonAt (1 / 2)).positions = exampleNucleon.positions ∧
    (exampleNucleonAt (1 / 2)).strengths =
      List.zipWith (fun a b => (1 - (1 / 2 : ℝ)) * a + 1 / 2 * b) exampleNucleon.strengths (exampleNucleonAt 1).strengths ∧
    ∃ y₀, NucleonClass.new.run true true exampleNucleon 0 = .ok y₀ := by
  refine ⟨rfl, rfl, ?_, exampleNucleon_evaluates _ _ _⟩
  norm_num [NucleonArgs.strengths, exampleNucleonAt, exampleNucleon]

end UA
