import Verif.Model.Nucleon
import Verif.Lemmas.Components

/-! Helper lemmas about the nucleon models: closed forms, errors, the cache. -/

namespace UA

open Complex ComplexConjugate

/-! ### Only `ZeroDivisionError` -/

/-- The computation raises nothing but `ZeroDivisionError`. -/
def OnlyZ {α : Type} (x : Except PyErr α) : Prop := ∀ e, x = .error e → e = .zeroDivisionError

theorem OnlyZ.ok {α : Type} (a : α) : OnlyZ (.ok a : Except PyErr α) := by intro e h; cases h
theorem OnlyZ.pure {α : Type} (a : α) : OnlyZ (Pure.pure a : Except PyErr α) := by intro e h; cases h
theorem OnlyZ.zde {α : Type} : OnlyZ (.error .zeroDivisionError : Except PyErr α) := by intro e h; cases h; rfl
theorem OnlyZ.pyDiv (a b : ℂ) : OnlyZ (UA.pyDiv a b) := by
  intro e h; unfold UA.pyDiv at h; split_ifs at h; cases h; rfl
theorem OnlyZ.bind {α β : Type} {x : Except PyErr α} {f : α → Except PyErr β} (hx : OnlyZ x) (hf : ∀ a, OnlyZ (f a)) :
    OnlyZ (x >>= f) := by
  intro e h
  cases x with
  | error e' => rw [except_error_bind] at h; injection h with h; subst h; exact hx _ rfl
  | ok a => exact hf a e h

theorem OnlyZ.eq_zde {α : Type} {x : Except PyErr α} (h : OnlyZ x) (hn : ∀ y, x ≠ .ok y) : x = .error .zeroDivisionError := by
  cases x with
  | error e => rw [h e rfl]
  | ok a => exact absurd rfl (hn a)

/-! ### Closed forms of the four contributions -/

def Six.Calls (K : Six UAComponent) (w : ℂ) (F : Six ℂ) : Prop :=
  K.omega.call w = .ok F.omega ∧
  K.omega_prime.call w = .ok F.omega_prime ∧
  K.omega_double_prime.call w = .ok F.omega_double_prime ∧
  K.phi.call w = .ok F.phi ∧
  K.phi_prime.call w = .ok F.phi_prime ∧
  K.phi_double_prime.call w = .ok F.phi_double_prime
def Three.Calls (K : Three UAComponent) (w : ℂ) (F : Three ℂ) : Prop :=
  K.rho.call w = .ok F.rho ∧
  K.rho_prime.call w = .ok F.rho_prime ∧
  K.rho_double_prime.call w = .ok F.rho_double_prime
def Six.CallsZ (K : Six UAComponent) (w : ℂ) : Prop :=
  OnlyZ (K.omega.call w) ∧
  OnlyZ (K.omega_prime.call w) ∧
  OnlyZ (K.omega_double_prime.call w) ∧
  OnlyZ (K.phi.call w) ∧
  OnlyZ (K.phi_prime.call w) ∧
  OnlyZ (K.phi_double_prime.call w)
def Three.CallsZ (K : Three UAComponent) (w : ℂ) : Prop :=
  OnlyZ (K.rho.call w) ∧
  OnlyZ (K.rho_prime.call w) ∧
  OnlyZ (K.rho_double_prime.call w)

/-- A two-product interpolation term (Dirac). -/
noncomputable def dTerm (O P R cO cP cR : ℂ) : ℂ :=
  P * R * (cP - cR) / (cP - cO) + O * R * (cO - cR) / (cO - cP) - O * P
/-- A three-product interpolation term (Pauli). -/
noncomputable def pTerm (O P Q R cO cP cQ cR : ℂ) : ℂ :=
  P * Q * R * ((cP - cR) / (cP - cO)) * ((cQ - cR) / (cQ - cO)) + O * Q * R * ((cO - cR) / (cO - cP)) * ((cQ - cR) / (cQ - cP)) +
    O * P * R * ((cO - cR) / (cO - cQ)) * ((cP - cR) / (cP - cQ)) - O * P * Q

noncomputable def dsVal (x : NucleonArgs) (F c : Six ℂ) : ℂ :=
  1 / 2 * F.omega_double_prime * F.phi_double_prime +
  x.a_dirac_omega_prime * dTerm F.omega_double_prime F.phi_double_prime F.omega_prime c.omega_double_prime c.phi_double_prime c.omega_prime +
  x.a_dirac_phi_prime * dTerm F.omega_double_prime F.phi_double_prime F.phi_prime c.omega_double_prime c.phi_double_prime c.phi_prime +
  x.a_dirac_omega * dTerm F.omega_double_prime F.phi_double_prime F.omega c.omega_double_prime c.phi_double_prime c.omega +
  x.a_dirac_phi * dTerm F.omega_double_prime F.phi_double_prime F.phi c.omega_double_prime c.phi_double_prime c.phi
noncomputable def dvVal (x : NucleonArgs) (F c : Three ℂ) : ℂ :=
  1 / 2 * F.rho_prime * F.rho_double_prime +
  x.a_dirac_rho * dTerm F.rho_double_prime F.rho_prime F.rho c.rho_double_prime c.rho_prime c.rho
noncomputable def psVal (x : NucleonArgs) (F c : Six ℂ) : ℂ :=
  1 / 2 * (x.magnetic_moment_proton + x.magnetic_moment_neutron - 1) * F.omega_double_prime * F.phi_double_prime * F.omega_prime +
  x.a_pauli_phi_prime * pTerm F.omega_double_prime F.phi_double_prime F.omega_prime F.phi_prime c.omega_double_prime c.phi_double_prime c.omega_prime c.phi_prime +
  x.a_pauli_omega * pTerm F.omega_double_prime F.phi_double_prime F.omega_prime F.omega c.omega_double_prime c.phi_double_prime c.omega_prime c.omega +
  x.a_pauli_phi * pTerm F.omega_double_prime F.phi_double_prime F.omega_prime F.phi c.omega_double_prime c.phi_double_prime c.omega_prime c.phi
noncomputable def pvVal (x : NucleonArgs) (F : Three ℂ) : ℂ :=
  1 / 2 * (x.magnetic_moment_proton - x.magnetic_moment_neutron - 1) * F.rho * F.rho_prime * F.rho_double_prime

/-- The mass terms the Dirac isoscalar part divides by differ. -/
def DSok (c : Six ℂ) : Prop := c.phi_double_prime ≠ c.omega_double_prime
def DVok (c : Three ℂ) : Prop := c.rho_prime ≠ c.rho_double_prime
def PSok (c : Six ℂ) : Prop :=
  c.phi_double_prime ≠ c.omega_double_prime ∧ c.omega_prime ≠ c.omega_double_prime ∧ c.omega_prime ≠ c.phi_double_prime

theorem dsExpr_ok {x : NucleonArgs} {K : Six UAComponent} {c F : Six ℂ} {w : ℂ} (h : K.Calls w F) (hc : DSok c) :
    diracIsoscalarExpr x K c w = .ok (dsVal x F c) := by
  obtain ⟨h1, h2, h3, h4, h5, h6⟩ := h
  have n1 := sub_ne_zero.mpr hc
  have n2 := sub_ne_zero.mpr (Ne.symm hc)
  unfold diracIsoscalarExpr
  simp only [h1, h2, h3, h4, h5, h6, except_ok_bind, except_pure, pyDiv_ok n1, pyDiv_ok n2]
  simp only [dsVal, dTerm]
  congr 1
  ring

theorem dvExpr_ok {x : NucleonArgs} {K : Three UAComponent} {c F : Three ℂ} {w : ℂ} (h : K.Calls w F) (hc : DVok c) :
    diracIsovectorExpr x K c w = .ok (dvVal x F c) := by
  obtain ⟨h1, h2, h3⟩ := h
  have n1 := sub_ne_zero.mpr hc
  have n2 := sub_ne_zero.mpr (Ne.symm hc)
  unfold diracIsovectorExpr
  simp only [h1, h2, h3, except_ok_bind, except_pure, pyDiv_ok n1, pyDiv_ok n2]
  simp only [dvVal, dTerm]
  congr 1
  ring

theorem psExpr_ok {x : NucleonArgs} {K : Six UAComponent} {c F : Six ℂ} {w : ℂ} (h : K.Calls w F) (hc : PSok c) :
    pauliIsoscalarExpr x K c w = .ok (psVal x F c) := by
  obtain ⟨h1, h2, h3, h4, h5, h6⟩ := h
  obtain ⟨q1, q2, q3⟩ := hc
  have n1 := sub_ne_zero.mpr q1
  have n2 := sub_ne_zero.mpr (Ne.symm q1)
  have n3 := sub_ne_zero.mpr q2
  have n4 := sub_ne_zero.mpr (Ne.symm q2)
  have n5 := sub_ne_zero.mpr q3
  have n6 := sub_ne_zero.mpr (Ne.symm q3)
  unfold pauliIsoscalarExpr
  simp only [h1, h2, h3, h4, h5, h6, except_ok_bind, except_pure, pyDiv_ok n1, pyDiv_ok n2, pyDiv_ok n3, pyDiv_ok n4,
    pyDiv_ok n5, pyDiv_ok n6]
  simp only [psVal, pTerm]
  congr 1
  ring

theorem pvExpr_ok {x : NucleonArgs} {K : Three UAComponent} {F : Three ℂ} {w : ℂ} (h : K.Calls w F) :
    pauliIsovectorExpr x K w = .ok (pvVal x F) := by
  obtain ⟨h1, h2, h3⟩ := h
  unfold pauliIsovectorExpr
  simp only [h1, h2, h3, except_ok_bind, except_pure]
  simp only [pvVal]
  congr 1
  ring

/-- Inversion of one bind. -/
theorem bindE {α β : Type} {x : Except PyErr α} {f : α → Except PyErr β} {y : β} {G : Prop} (h : (x >>= f) = .ok y)
    (k : ∀ a, x = .ok a → f a = .ok y → G) : G := by
  obtain ⟨a, h1, h2⟩ := except_bind_eq_ok.mp h
  exact k a h1 h2

theorem dsExpr_inv {x : NucleonArgs} {K : Six UAComponent} {c : Six ℂ} {w y : ℂ}
    (h : diracIsoscalarExpr x K c w = .ok y) : (∃ F, K.Calls w F) ∧ DSok c := by
  unfold diracIsoscalarExpr at h
  refine bindE h fun f0 e0 h => ?_
  refine bindE h fun f1 e1 h => ?_
  refine bindE h fun f2 _ h => ?_
  refine bindE h fun f3 e3 h => ?_
  refine bindE h fun d4 n4 h => ?_
  refine bindE h fun f5 _ h => ?_
  refine bindE h fun f6 _ h => ?_
  refine bindE h fun d7 n7 h => ?_
  refine bindE h fun f8 _ h => ?_
  refine bindE h fun f9 _ h => ?_
  refine bindE h fun f10 _ h => ?_
  refine bindE h fun f11 e11 h => ?_
  refine bindE h fun d12 n12 h => ?_
  refine bindE h fun f13 _ h => ?_
  refine bindE h fun f14 _ h => ?_
  refine bindE h fun d15 n15 h => ?_
  refine bindE h fun f16 _ h => ?_
  refine bindE h fun f17 _ h => ?_
  refine bindE h fun f18 _ h => ?_
  refine bindE h fun f19 e19 h => ?_
  refine bindE h fun d20 n20 h => ?_
  refine bindE h fun f21 _ h => ?_
  refine bindE h fun f22 _ h => ?_
  refine bindE h fun d23 n23 h => ?_
  refine bindE h fun f24 _ h => ?_
  refine bindE h fun f25 _ h => ?_
  refine bindE h fun f26 _ h => ?_
  refine bindE h fun f27 e27 h => ?_
  refine bindE h fun d28 n28 h => ?_
  refine bindE h fun f29 _ h => ?_
  refine bindE h fun f30 _ h => ?_
  refine bindE h fun d31 n31 h => ?_
  refine bindE h fun f32 _ h => ?_
  refine bindE h fun f33 _ h => ?_
  exact ⟨⟨⟨f19, f3, f0, f27, f11, f1⟩, e19, e3, e0, e27, e11, e1⟩, sub_ne_zero.mp (pyDiv_eq_ok_iff.mp n4).1⟩

theorem dvExpr_inv {x : NucleonArgs} {K : Three UAComponent} {c : Three ℂ} {w y : ℂ}
    (h : diracIsovectorExpr x K c w = .ok y) : (∃ F, K.Calls w F) ∧ DVok c := by
  unfold diracIsovectorExpr at h
  refine bindE h fun f0 e0 h => ?_
  refine bindE h fun f1 e1 h => ?_
  refine bindE h fun f2 e2 h => ?_
  refine bindE h fun f3 _ h => ?_
  refine bindE h fun d4 n4 h => ?_
  refine bindE h fun f5 _ h => ?_
  refine bindE h fun f6 _ h => ?_
  refine bindE h fun d7 n7 h => ?_
  refine bindE h fun f8 _ h => ?_
  refine bindE h fun f9 _ h => ?_
  exact ⟨⟨⟨f2, f0, f1⟩, e2, e0, e1⟩, sub_ne_zero.mp (pyDiv_eq_ok_iff.mp n4).1⟩

theorem psExpr_inv {x : NucleonArgs} {K : Six UAComponent} {c : Six ℂ} {w y : ℂ}
    (h : pauliIsoscalarExpr x K c w = .ok y) : (∃ F, K.Calls w F) ∧ PSok c := by
  unfold pauliIsoscalarExpr at h
  refine bindE h fun f0 e0 h => ?_
  refine bindE h fun f1 e1 h => ?_
  refine bindE h fun f2 e2 h => ?_
  refine bindE h fun f3 _ h => ?_
  refine bindE h fun f4 e4 h => ?_
  refine bindE h fun f5 _ h => ?_
  refine bindE h fun d6 n6 h => ?_
  refine bindE h fun d7 n7 h => ?_
  refine bindE h fun f8 _ h => ?_
  refine bindE h fun f9 _ h => ?_
  refine bindE h fun f10 _ h => ?_
  refine bindE h fun d11 n11 h => ?_
  refine bindE h fun d12 n12 h => ?_
  refine bindE h fun f13 _ h => ?_
  refine bindE h fun f14 _ h => ?_
  refine bindE h fun f15 _ h => ?_
  refine bindE h fun d16 n16 h => ?_
  refine bindE h fun d17 n17 h => ?_
  refine bindE h fun f18 _ h => ?_
  refine bindE h fun f19 _ h => ?_
  refine bindE h fun f20 _ h => ?_
  refine bindE h fun f21 _ h => ?_
  refine bindE h fun f22 _ h => ?_
  refine bindE h fun f23 e23 h => ?_
  refine bindE h fun d24 n24 h => ?_
  refine bindE h fun d25 n25 h => ?_
  refine bindE h fun f26 _ h => ?_
  refine bindE h fun f27 _ h => ?_
  refine bindE h fun f28 _ h => ?_
  refine bindE h fun d29 n29 h => ?_
  refine bindE h fun d30 n30 h => ?_
  refine bindE h fun f31 _ h => ?_
  refine bindE h fun f32 _ h => ?_
  refine bindE h fun f33 _ h => ?_
  refine bindE h fun d34 n34 h => ?_
  refine bindE h fun d35 n35 h => ?_
  refine bindE h fun f36 _ h => ?_
  refine bindE h fun f37 _ h => ?_
  refine bindE h fun f38 _ h => ?_
  refine bindE h fun f39 _ h => ?_
  refine bindE h fun f40 _ h => ?_
  refine bindE h fun f41 e41 h => ?_
  refine bindE h fun d42 n42 h => ?_
  refine bindE h fun d43 n43 h => ?_
  refine bindE h fun f44 _ h => ?_
  refine bindE h fun f45 _ h => ?_
  refine bindE h fun f46 _ h => ?_
  refine bindE h fun d47 n47 h => ?_
  refine bindE h fun d48 n48 h => ?_
  refine bindE h fun f49 _ h => ?_
  refine bindE h fun f50 _ h => ?_
  refine bindE h fun f51 _ h => ?_
  refine bindE h fun d52 n52 h => ?_
  refine bindE h fun d53 n53 h => ?_
  refine bindE h fun f54 _ h => ?_
  refine bindE h fun f55 _ h => ?_
  refine bindE h fun f56 _ h => ?_
  exact ⟨⟨⟨f23, f2, f0, f41, f4, f1⟩, e23, e2, e0, e41, e4, e1⟩, sub_ne_zero.mp (pyDiv_eq_ok_iff.mp n6).1, sub_ne_zero.mp (pyDiv_eq_ok_iff.mp n7).1, sub_ne_zero.mp (pyDiv_eq_ok_iff.mp n12).1⟩

theorem pvExpr_inv {x : NucleonArgs} {K : Three UAComponent} {w y : ℂ}
    (h : pauliIsovectorExpr x K w = .ok y) : ∃ F, K.Calls w F := by
  unfold pauliIsovectorExpr at h
  refine bindE h fun f0 e0 h => ?_
  refine bindE h fun f1 e1 h => ?_
  refine bindE h fun f2 e2 h => ?_
  exact ⟨⟨f0, f1, f2⟩, e0, e1, e2⟩

theorem dsExpr_onlyZ {x : NucleonArgs} {K : Six UAComponent} {c : Six ℂ} {w : ℂ} (h : K.CallsZ w) :
    OnlyZ (diracIsoscalarExpr x K c w) := by
  obtain ⟨h1, h2, h3, h4, h5, h6⟩ := h
  unfold diracIsoscalarExpr
  repeat (first
    | exact OnlyZ.pure _
    | refine OnlyZ.bind (by with_reducible first | exact OnlyZ.pyDiv _ _ | exact h1 | exact h2 | exact h3 | exact h4 | exact h5 | exact h6) fun _ => ?_)

theorem dvExpr_onlyZ {x : NucleonArgs} {K : Three UAComponent} {c : Three ℂ} {w : ℂ} (h : K.CallsZ w) :
    OnlyZ (diracIsovectorExpr x K c w) := by
  obtain ⟨h1, h2, h3⟩ := h
  unfold diracIsovectorExpr
  repeat (first
    | exact OnlyZ.pure _
    | refine OnlyZ.bind (by with_reducible first | exact OnlyZ.pyDiv _ _ | exact h1 | exact h2 | exact h3) fun _ => ?_)

theorem psExpr_onlyZ {x : NucleonArgs} {K : Six UAComponent} {c : Six ℂ} {w : ℂ} (h : K.CallsZ w) :
    OnlyZ (pauliIsoscalarExpr x K c w) := by
  obtain ⟨h1, h2, h3, h4, h5, h6⟩ := h
  unfold pauliIsoscalarExpr
  repeat (first
    | exact OnlyZ.pure _
    | refine OnlyZ.bind (by with_reducible first | exact OnlyZ.pyDiv _ _ | exact h1 | exact h2 | exact h3 | exact h4 | exact h5 | exact h6) fun _ => ?_)

theorem pvExpr_onlyZ {x : NucleonArgs} {K : Three UAComponent} {w : ℂ} (h : K.CallsZ w) :
    OnlyZ (pauliIsovectorExpr x K w) := by
  obtain ⟨h1, h2, h3⟩ := h
  unfold pauliIsovectorExpr
  repeat (first
    | exact OnlyZ.pure _
    | refine OnlyZ.bind (by with_reducible first | exact OnlyZ.pyDiv _ _ | exact h1 | exact h2 | exact h3) fun _ => ?_)

end UA
