import Verif.Spec.NucleonVMD
import Verif.Lemmas.NucleonRun
import Verif.Lemmas.OtherModels

/-! Helper lemmas: the nucleon models with zero widths as sums of poles. -/

namespace UA

open Complex ComplexConjugate

/-! ### Partial fractions -/

theorem dTerm_poles {o p r t : ℂ} (ho : o - t ≠ 0) (hp : p - t ≠ 0) (hr : r - t ≠ 0) (h : p - o ≠ 0) :
    dTerm (o / (o - t)) (p / (p - t)) (r / (r - t)) o p r =
      r / (r - t) + (r - p) / (p - o) * (o / (o - t)) + (o - r) / (p - o) * (p / (p - t)) := by
  have h' : o - p ≠ 0 := by rw [← neg_sub]; exact neg_ne_zero.mpr h
  have e : o - p = -(p - o) := by ring
  unfold dTerm
  rw [e]
  field_simp
  ring

theorem prod_poles {o p t : ℂ} (ho : o - t ≠ 0) (hp : p - t ≠ 0) (h : p - o ≠ 0) :
    o / (o - t) * (p / (p - t)) = p / (p - o) * (o / (o - t)) - o / (p - o) * (p / (p - t)) := by
  field_simp
  ring

theorem prod3_poles {o p q t : ℂ} (ho : o - t ≠ 0) (hp : p - t ≠ 0) (hq : q - t ≠ 0) (h1 : p - o ≠ 0) (h2 : q - o ≠ 0) (h3 : q - p ≠ 0) :
    o / (o - t) * (p / (p - t)) * (q / (q - t)) =
      p * q / ((p - o) * (q - o)) * (o / (o - t)) - o * q / ((p - o) * (q - p)) * (p / (p - t)) +
        o * p / ((q - o) * (q - p)) * (q / (q - t)) := by
  field_simp
  ring

theorem prod3_poles' (n : ℂ) {o p q t : ℂ} (ho : o - t ≠ 0) (hp : p - t ≠ 0) (hq : q - t ≠ 0) (h1 : p - o ≠ 0) (h2 : q - o ≠ 0) (h3 : q - p ≠ 0) :
    n * (o / (o - t)) * (p / (p - t)) * (q / (q - t)) =
      n * (p * q / ((p - o) * (q - o)) * (o / (o - t)) - o * q / ((p - o) * (q - p)) * (p / (p - t)) +
        o * p / ((q - o) * (q - p)) * (q / (q - t))) := by
  rw [← prod3_poles ho hp hq h1 h2 h3]; ring

theorem pTerm_poles {o p q r t : ℂ} (ho : o - t ≠ 0) (hp : p - t ≠ 0) (hq : q - t ≠ 0) (hr : r - t ≠ 0) (h1 : p - o ≠ 0) (h2 : q - o ≠ 0)
    (h3 : q - p ≠ 0) :
    pTerm (o / (o - t)) (p / (p - t)) (q / (q - t)) (r / (r - t)) o p q r =
      r / (r - t) - (r - p) * (r - q) / ((p - o) * (q - o)) * (o / (o - t)) + (r - o) * (r - q) / ((p - o) * (q - p)) * (p / (p - t)) -
        (r - o) * (r - p) / ((q - o) * (q - p)) * (q / (q - t)) := by
  have e1 : o - p = -(p - o) := by ring
  have e2 : o - q = -(q - o) := by ring
  have e3 : p - q = -(q - p) := by ring
  unfold pTerm
  rw [e1, e2, e3]
  field_simp
  ring

/-! ### The couplings -/

section
variable (x : NucleonArgs)

/-- The eliminated couplings, Dirac isoscalar. -/
noncomputable def NucleonArgs.bDS1 : ℝ :=
  (1 / 2 * x.mass_phi_double_prime ^ 2 + x.a_dirac_omega * (x.mass_omega ^ 2 - x.mass_phi_double_prime ^ 2) +
    x.a_dirac_omega_prime * (x.mass_omega_prime ^ 2 - x.mass_phi_double_prime ^ 2) + x.a_dirac_phi * (x.mass_phi ^ 2 - x.mass_phi_double_prime ^ 2) +
    x.a_dirac_phi_prime * (x.mass_phi_prime ^ 2 - x.mass_phi_double_prime ^ 2)) / (x.mass_phi_double_prime ^ 2 - x.mass_omega_double_prime ^ 2)
noncomputable def NucleonArgs.bDS2 : ℝ :=
  (-(1 / 2) * x.mass_omega_double_prime ^ 2 + x.a_dirac_omega * (x.mass_omega_double_prime ^ 2 - x.mass_omega ^ 2) +
    x.a_dirac_omega_prime * (x.mass_omega_double_prime ^ 2 - x.mass_omega_prime ^ 2) + x.a_dirac_phi * (x.mass_omega_double_prime ^ 2 - x.mass_phi ^ 2) +
    x.a_dirac_phi_prime * (x.mass_omega_double_prime ^ 2 - x.mass_phi_prime ^ 2)) / (x.mass_phi_double_prime ^ 2 - x.mass_omega_double_prime ^ 2)

/-- Dirac isovector. -/
noncomputable def NucleonArgs.bDV1 : ℝ :=
  (-(1 / 2) * x.mass_rho_double_prime ^ 2 + x.a_dirac_rho * (x.mass_rho_double_prime ^ 2 - x.mass_rho ^ 2)) /
    (x.mass_rho_prime ^ 2 - x.mass_rho_double_prime ^ 2)
noncomputable def NucleonArgs.bDV2 : ℝ :=
  (1 / 2 * x.mass_rho_prime ^ 2 + x.a_dirac_rho * (x.mass_rho ^ 2 - x.mass_rho_prime ^ 2)) /
    (x.mass_rho_prime ^ 2 - x.mass_rho_double_prime ^ 2)

/-- The isoscalar and isovector anomalous moments. -/
noncomputable def NucleonArgs.normPS : ℝ := (x.magnetic_moment_proton + x.magnetic_moment_neutron - 1) / 2
noncomputable def NucleonArgs.normPV : ℝ := (x.magnetic_moment_proton - x.magnetic_moment_neutron - 1) / 2

/-- Pauli isoscalar: `ω''`, `φ''`, `ω'`. -/
noncomputable def NucleonArgs.bPS1 : ℝ :=
  (x.normPS * (x.mass_phi_double_prime ^ 2 * x.mass_omega_prime ^ 2) -
    x.a_pauli_omega * ((x.mass_omega ^ 2 - x.mass_phi_double_prime ^ 2) * (x.mass_omega ^ 2 - x.mass_omega_prime ^ 2)) -
    x.a_pauli_phi * ((x.mass_phi ^ 2 - x.mass_phi_double_prime ^ 2) * (x.mass_phi ^ 2 - x.mass_omega_prime ^ 2)) -
    x.a_pauli_phi_prime * ((x.mass_phi_prime ^ 2 - x.mass_phi_double_prime ^ 2) * (x.mass_phi_prime ^ 2 - x.mass_omega_prime ^ 2))) /
    ((x.mass_phi_double_prime ^ 2 - x.mass_omega_double_prime ^ 2) * (x.mass_omega_prime ^ 2 - x.mass_omega_double_prime ^ 2))
noncomputable def NucleonArgs.bPS2 : ℝ :=
  (-x.normPS * (x.mass_omega_double_prime ^ 2 * x.mass_omega_prime ^ 2) +
    x.a_pauli_omega * ((x.mass_omega ^ 2 - x.mass_omega_double_prime ^ 2) * (x.mass_omega ^ 2 - x.mass_omega_prime ^ 2)) +
    x.a_pauli_phi * ((x.mass_phi ^ 2 - x.mass_omega_double_prime ^ 2) * (x.mass_phi ^ 2 - x.mass_omega_prime ^ 2)) +
    x.a_pauli_phi_prime * ((x.mass_phi_prime ^ 2 - x.mass_omega_double_prime ^ 2) * (x.mass_phi_prime ^ 2 - x.mass_omega_prime ^ 2))) /
    ((x.mass_phi_double_prime ^ 2 - x.mass_omega_double_prime ^ 2) * (x.mass_omega_prime ^ 2 - x.mass_phi_double_prime ^ 2))
noncomputable def NucleonArgs.bPS3 : ℝ :=
  (x.normPS * (x.mass_omega_double_prime ^ 2 * x.mass_phi_double_prime ^ 2) -
    x.a_pauli_omega * ((x.mass_omega ^ 2 - x.mass_omega_double_prime ^ 2) * (x.mass_omega ^ 2 - x.mass_phi_double_prime ^ 2)) -
    x.a_pauli_phi * ((x.mass_phi ^ 2 - x.mass_omega_double_prime ^ 2) * (x.mass_phi ^ 2 - x.mass_phi_double_prime ^ 2)) -
    x.a_pauli_phi_prime * ((x.mass_phi_prime ^ 2 - x.mass_omega_double_prime ^ 2) * (x.mass_phi_prime ^ 2 - x.mass_phi_double_prime ^ 2))) /
    ((x.mass_omega_prime ^ 2 - x.mass_omega_double_prime ^ 2) * (x.mass_omega_prime ^ 2 - x.mass_phi_double_prime ^ 2))

/-- Pauli isovector. -/
noncomputable def NucleonArgs.bPV1 : ℝ :=
  x.normPV * (x.mass_rho_prime ^ 2 * x.mass_rho_double_prime ^ 2) /
    ((x.mass_rho_prime ^ 2 - x.mass_rho ^ 2) * (x.mass_rho_double_prime ^ 2 - x.mass_rho ^ 2))
noncomputable def NucleonArgs.bPV2 : ℝ :=
  -x.normPV * (x.mass_rho ^ 2 * x.mass_rho_double_prime ^ 2) /
    ((x.mass_rho_prime ^ 2 - x.mass_rho ^ 2) * (x.mass_rho_double_prime ^ 2 - x.mass_rho_prime ^ 2))
noncomputable def NucleonArgs.bPV3 : ℝ :=
  x.normPV * (x.mass_rho ^ 2 * x.mass_rho_prime ^ 2) /
    ((x.mass_rho_double_prime ^ 2 - x.mass_rho ^ 2) * (x.mass_rho_double_prime ^ 2 - x.mass_rho_prime ^ 2))

noncomputable def NucleonArgs.vmdDS : List VectorMeson :=
  x.isoscalarMesons x.a_dirac_omega x.a_dirac_omega_prime x.bDS1 x.a_dirac_phi x.a_dirac_phi_prime x.bDS2
noncomputable def NucleonArgs.vmdDV : List VectorMeson := x.isovectorMesons x.a_dirac_rho x.bDV1 x.bDV2
noncomputable def NucleonArgs.vmdPS : List VectorMeson :=
  x.isoscalarMesons x.a_pauli_omega x.bPS3 x.bPS1 x.a_pauli_phi x.a_pauli_phi_prime x.bPS2
noncomputable def NucleonArgs.vmdPV : List VectorMeson := x.isovectorMesons x.bPV1 x.bPV2 x.bPV3
end

/-! ### Sum rules -/

theorem SumRules.mk1 {l : List VectorMeson} {norm : ℝ} (h0 : (l.map fun v => v.coefficient).sum = norm)
    (h1 : (l.map fun v => v.coefficient * v.mass ^ 2).sum = 0) : SumRules l norm 1 := by
  refine ⟨h0, fun j hj hj' => ?_⟩
  obtain rfl : j = 1 := by omega
  exact h1

theorem SumRules.mk2 {l : List VectorMeson} {norm : ℝ} (h0 : (l.map fun v => v.coefficient).sum = norm)
    (h1 : (l.map fun v => v.coefficient * v.mass ^ 2).sum = 0) (h2 : (l.map fun v => v.coefficient * v.mass ^ 4).sum = 0) :
    SumRules l norm 2 := by
  refine ⟨h0, fun j hj hj' => ?_⟩
  obtain rfl | rfl : j = 1 ∨ j = 2 := by omega
  · exact h1
  · exact h2

section
variable {x : NucleonArgs} (h : x.DistinctMasses)
include h

theorem vmdDS_rules : SumRules x.vmdDS (1 / 2) 1 := by
  have h1 := sub_ne_zero.mpr h.omega_double_prime.symm
  apply SumRules.mk1 <;>
    simp only [NucleonArgs.vmdDS, NucleonArgs.isoscalarMesons, List.map_cons, List.map_nil, List.sum_cons, List.sum_nil, NucleonArgs.bDS1, NucleonArgs.bDS2] <;>
    field_simp <;> ring

theorem vmdDV_rules : SumRules x.vmdDV (1 / 2) 1 := by
  have h1 := sub_ne_zero.mpr h.rho_prime
  apply SumRules.mk1 <;>
    simp only [NucleonArgs.vmdDV, NucleonArgs.isovectorMesons, List.map_cons, List.map_nil, List.sum_cons, List.sum_nil, NucleonArgs.bDV1, NucleonArgs.bDV2] <;>
    field_simp <;> ring

theorem vmdPS_rules : SumRules x.vmdPS x.normPS 2 := by
  have h1 := sub_ne_zero.mpr h.omega_double_prime.symm
  have h2 := sub_ne_zero.mpr h.omega_prime
  have h3 := sub_ne_zero.mpr h.phi_double_prime
  apply SumRules.mk2 <;>
    simp only [NucleonArgs.vmdPS, NucleonArgs.isoscalarMesons, List.map_cons, List.map_nil, List.sum_cons, List.sum_nil,
      NucleonArgs.bPS1, NucleonArgs.bPS2, NucleonArgs.bPS3] <;>
    field_simp <;> ring

theorem vmdPV_rules : SumRules x.vmdPV x.normPV 2 := by
  have h1 := sub_ne_zero.mpr h.rho.symm
  have h2 := sub_ne_zero.mpr h.rho_prime.symm
  have h3 := sub_ne_zero.mpr h.rho_double_prime.symm
  apply SumRules.mk2 <;>
    simp only [NucleonArgs.vmdPV, NucleonArgs.isovectorMesons, List.map_cons, List.map_nil, List.sum_cons, List.sum_nil,
      NucleonArgs.bPV1, NucleonArgs.bPV2, NucleonArgs.bPV3] <;>
    field_simp <;> ring
end

/-! ### The values -/

/-- The six pole terms. -/
noncomputable def NucleonArgs.polesS (x : NucleonArgs) (t : ℂ) : Six ℂ := x.squaresS.map fun p => p / (p - t)
noncomputable def NucleonArgs.polesV (x : NucleonArgs) (t : ℂ) : Three ℂ := x.squaresV.map fun p => p / (p - t)

section
variable {x : NucleonArgs} (h : x.DistinctMasses) {t : ℂ} (ht : ∀ r ∈ x.resonances, (r.1 : ℂ) ^ 2 - t ≠ 0)
include h ht

theorem ds_vmd : dsVal x (x.polesS t) x.squaresS = (x.vmdDS.map (vmdTerm t)).sum := by
  simp only [NucleonArgs.resonances, List.forall_mem_cons] at ht
  obtain ⟨h1, h2, h3, h4, h5, h6, -⟩ := ht
  have hd : (x.mass_phi_double_prime : ℂ) ^ 2 - (x.mass_omega_double_prime : ℂ) ^ 2 ≠ 0 := by
    exact_mod_cast sub_ne_zero.mpr h.omega_double_prime.symm
  simp only [dsVal, NucleonArgs.polesS, NucleonArgs.squaresS, Six.map]
  rw [dTerm_poles h3 h6 h2 hd, dTerm_poles h3 h6 h5 hd, dTerm_poles h3 h6 h1 hd, dTerm_poles h3 h6 h4 hd, mul_assoc, prod_poles h3 h6 hd]
  simp only [NucleonArgs.vmdDS, NucleonArgs.isoscalarMesons, List.map_cons, List.map_nil, List.sum_cons, List.sum_nil, vmdTerm,
    NucleonArgs.bDS1, NucleonArgs.bDS2]
  push_cast
  simp only [mul_div_assoc]
  generalize (x.mass_omega : ℂ) ^ 2 / ((x.mass_omega : ℂ) ^ 2 - t) = k1
  generalize (x.mass_omega_prime : ℂ) ^ 2 / ((x.mass_omega_prime : ℂ) ^ 2 - t) = k2
  generalize (x.mass_omega_double_prime : ℂ) ^ 2 / ((x.mass_omega_double_prime : ℂ) ^ 2 - t) = k3
  generalize (x.mass_phi : ℂ) ^ 2 / ((x.mass_phi : ℂ) ^ 2 - t) = k4
  generalize (x.mass_phi_prime : ℂ) ^ 2 / ((x.mass_phi_prime : ℂ) ^ 2 - t) = k5
  generalize (x.mass_phi_double_prime : ℂ) ^ 2 / ((x.mass_phi_double_prime : ℂ) ^ 2 - t) = k6
  field_simp
  ring

theorem dv_vmd : dvVal x (x.polesV t) x.squaresV = (x.vmdDV.map (vmdTerm t)).sum := by
  simp only [NucleonArgs.resonances, List.forall_mem_cons] at ht
  obtain ⟨-, -, -, -, -, -, h1, h2, h3, -⟩ := ht
  have hd : (x.mass_rho_prime : ℂ) ^ 2 - (x.mass_rho_double_prime : ℂ) ^ 2 ≠ 0 := by
    exact_mod_cast sub_ne_zero.mpr h.rho_prime
  simp only [dvVal, NucleonArgs.polesV, NucleonArgs.squaresV, Three.map]
  rw [dTerm_poles h3 h2 h1 hd, mul_assoc, mul_comm (_ / _) (_ / _), prod_poles h3 h2 hd]
  simp only [NucleonArgs.vmdDV, NucleonArgs.isovectorMesons, List.map_cons, List.map_nil, List.sum_cons, List.sum_nil, vmdTerm,
    NucleonArgs.bDV1, NucleonArgs.bDV2]
  push_cast
  simp only [mul_div_assoc]
  generalize (x.mass_rho : ℂ) ^ 2 / ((x.mass_rho : ℂ) ^ 2 - t) = k1
  generalize (x.mass_rho_prime : ℂ) ^ 2 / ((x.mass_rho_prime : ℂ) ^ 2 - t) = k2
  generalize (x.mass_rho_double_prime : ℂ) ^ 2 / ((x.mass_rho_double_prime : ℂ) ^ 2 - t) = k3
  field_simp
  ring

theorem ps_vmd : psVal x (x.polesS t) x.squaresS = (x.vmdPS.map (vmdTerm t)).sum := by
  simp only [NucleonArgs.resonances, List.forall_mem_cons] at ht
  obtain ⟨h1, h2, h3, h4, h5, h6, -⟩ := ht
  have d1 : (x.mass_phi_double_prime : ℂ) ^ 2 - (x.mass_omega_double_prime : ℂ) ^ 2 ≠ 0 := by
    exact_mod_cast sub_ne_zero.mpr h.omega_double_prime.symm
  have d2 : (x.mass_omega_prime : ℂ) ^ 2 - (x.mass_omega_double_prime : ℂ) ^ 2 ≠ 0 := by
    exact_mod_cast sub_ne_zero.mpr h.omega_prime
  have d3 : (x.mass_omega_prime : ℂ) ^ 2 - (x.mass_phi_double_prime : ℂ) ^ 2 ≠ 0 := by
    exact_mod_cast sub_ne_zero.mpr h.phi_double_prime
  simp only [psVal, NucleonArgs.polesS, NucleonArgs.squaresS, Six.map]
  rw [pTerm_poles h3 h6 h2 h5 d1 d2 d3, pTerm_poles h3 h6 h2 h1 d1 d2 d3, pTerm_poles h3 h6 h2 h4 d1 d2 d3]
  rw [prod3_poles' _ h3 h6 h2 d1 d2 d3]
  simp only [NucleonArgs.vmdPS, NucleonArgs.isoscalarMesons, List.map_cons, List.map_nil, List.sum_cons, List.sum_nil, vmdTerm,
    NucleonArgs.bPS1, NucleonArgs.bPS2, NucleonArgs.bPS3, NucleonArgs.normPS]
  push_cast
  simp only [mul_div_assoc _ ((_ : ℂ) ^ 2) ((_ : ℂ) ^ 2 - t)]
  generalize (x.mass_omega : ℂ) ^ 2 / ((x.mass_omega : ℂ) ^ 2 - t) = k1
  generalize (x.mass_omega_prime : ℂ) ^ 2 / ((x.mass_omega_prime : ℂ) ^ 2 - t) = k2
  generalize (x.mass_omega_double_prime : ℂ) ^ 2 / ((x.mass_omega_double_prime : ℂ) ^ 2 - t) = k3
  generalize (x.mass_phi : ℂ) ^ 2 / ((x.mass_phi : ℂ) ^ 2 - t) = k4
  generalize (x.mass_phi_prime : ℂ) ^ 2 / ((x.mass_phi_prime : ℂ) ^ 2 - t) = k5
  generalize (x.mass_phi_double_prime : ℂ) ^ 2 / ((x.mass_phi_double_prime : ℂ) ^ 2 - t) = k6
  field_simp
  ring

theorem pv_vmd : pvVal x (x.polesV t) = (x.vmdPV.map (vmdTerm t)).sum := by
  simp only [NucleonArgs.resonances, List.forall_mem_cons] at ht
  obtain ⟨-, -, -, -, -, -, h1, h2, h3, -⟩ := ht
  have d1 : (x.mass_rho_prime : ℂ) ^ 2 - (x.mass_rho : ℂ) ^ 2 ≠ 0 := by exact_mod_cast sub_ne_zero.mpr h.rho.symm
  have d2 : (x.mass_rho_double_prime : ℂ) ^ 2 - (x.mass_rho : ℂ) ^ 2 ≠ 0 := by exact_mod_cast sub_ne_zero.mpr h.rho_double_prime.symm
  have d3 : (x.mass_rho_double_prime : ℂ) ^ 2 - (x.mass_rho_prime : ℂ) ^ 2 ≠ 0 := by exact_mod_cast sub_ne_zero.mpr h.rho_prime.symm
  simp only [pvVal, NucleonArgs.polesV, NucleonArgs.squaresV, Three.map]
  rw [prod3_poles' _ h1 h2 h3 d1 d2 d3]
  simp only [NucleonArgs.vmdPV, NucleonArgs.isovectorMesons, List.map_cons, List.map_nil, List.sum_cons, List.sum_nil, vmdTerm,
    NucleonArgs.bPV1, NucleonArgs.bPV2, NucleonArgs.bPV3, NucleonArgs.normPV]
  push_cast
  simp only [mul_div_assoc _ ((_ : ℂ) ^ 2) ((_ : ℂ) ^ 2 - t)]
  generalize (x.mass_rho : ℂ) ^ 2 / ((x.mass_rho : ℂ) ^ 2 - t) = k1
  generalize (x.mass_rho_prime : ℂ) ^ 2 / ((x.mass_rho_prime : ℂ) ^ 2 - t) = k2
  generalize (x.mass_rho_double_prime : ℂ) ^ 2 / ((x.mass_rho_double_prime : ℂ) ^ 2 - t) = k3
  field_simp
  ring
end

/-! ### Components with zero width -/

theorem build_zero_facts {t_0 t_in m g : ℝ} (h0 : 0 ≤ t_0) (h : t_0 < t_in) (hg : g = 0) {c : UAComponent}
    (hc : buildComponent t_0 t_in m g = .ok c) {t : ℂ} (ht : t ≠ t_in) (htm : (m : ℂ) ^ 2 - t ≠ 0) :
    Fval (if NucleonClass.old.thr m g < t_in then .A else .B) t_0 t_in (tMesonPole m g) t = (m : ℂ) ^ 2 / ((m : ℂ) ^ 2 - t) := by
  obtain ⟨B, hm⟩ := buildComponent_built h0 h hc
  have hpole : tMesonPole m g = ((m ^ 2 : ℝ) : ℂ) := by rw [hg, tMesonPole_zero_width]
  have B0 := B.hp0
  have Bin := B.hpin
  rw [hpole] at B0 Bin
  rw [hpole, show NucleonClass.old.thr m g = m ^ 2 from rfl, Fval_zero_width h0 h (lt_of_le_of_ne hm fun h' => B0 (by rw [← h'])) (fun h' => Bin (by rw [h'])) ht
    (fun h' => htm (by rw [h']; push_cast; ring))]
  push_cast
  rfl

theorem SixF_zero_width {x : NucleonArgs} (hz : x.ZeroWidth) {t_0 t_in : ℝ} (h0 : 0 ≤ t_0) (h : t_0 < t_in) {K : Six UAComponent}
    (hK : initIsoscalarComponents buildComponent x t_0 t_in = .ok K) {t : ℂ} (ht : t ≠ t_in)
    (htm : ∀ r ∈ x.resonances, (r.1 : ℂ) ^ 2 - t ≠ 0) :
    Six.F t_0 t_in (x.thrS NucleonClass.old.thr t_in) x.poleS t = x.polesS t := by
  simp only [NucleonArgs.ZeroWidth, NucleonArgs.resonances, List.forall_mem_cons] at hz htm
  obtain ⟨z1, z2, z3, z4, z5, z6, -⟩ := hz
  obtain ⟨h1, h2, h3, h4, h5, h6, -⟩ := htm
  unfold initIsoscalarComponents at hK
  refine bindE hK fun k1 e1 hK => ?_
  refine bindE hK fun k2 e2 hK => ?_
  refine bindE hK fun k3 e3 hK => ?_
  refine bindE hK fun k4 e4 hK => ?_
  refine bindE hK fun k5 e5 hK => ?_
  refine bindE hK fun k6 e6 hK => ?_
  simp only [Six.F, Six.map₂, NucleonArgs.thrS, NucleonArgs.poleS, NucleonArgs.polesS, Six.map, NucleonArgs.squaresS]
  rw [build_zero_facts h0 h z1 e1 ht h1, build_zero_facts h0 h z2 e2 ht h2, build_zero_facts h0 h z3 e3 ht h3,
    build_zero_facts h0 h z4 e4 ht h4, build_zero_facts h0 h z5 e5 ht h5, build_zero_facts h0 h z6 e6 ht h6]

theorem ThreeF_zero_width {x : NucleonArgs} (hz : x.ZeroWidth) {t_0 t_in : ℝ} (h0 : 0 ≤ t_0) (h : t_0 < t_in) {K : Three UAComponent}
    (hK : initIsovectorComponents buildComponent x t_0 t_in = .ok K) {t : ℂ} (ht : t ≠ t_in)
    (htm : ∀ r ∈ x.resonances, (r.1 : ℂ) ^ 2 - t ≠ 0) :
    Three.F t_0 t_in (x.thrT NucleonClass.old.thr t_in) x.poleT t = x.polesV t := by
  simp only [NucleonArgs.ZeroWidth, NucleonArgs.resonances, List.forall_mem_cons] at hz htm
  obtain ⟨-, -, -, -, -, -, z1, z2, z3, -⟩ := hz
  obtain ⟨-, -, -, -, -, -, h1, h2, h3, -⟩ := htm
  unfold initIsovectorComponents at hK
  refine bindE hK fun k1 e1 hK => ?_
  refine bindE hK fun k2 e2 hK => ?_
  refine bindE hK fun k3 e3 hK => ?_
  simp only [Three.F, Three.map₂, NucleonArgs.thrT, NucleonArgs.poleT, NucleonArgs.polesV, Three.map, NucleonArgs.squaresV]
  rw [build_zero_facts h0 h z1 e1 ht h1, build_zero_facts h0 h z2 e2 ht h2, build_zero_facts h0 h z3 e3 ht h3]

theorem init_inv' {build : ℝ → ℝ → ℝ → ℝ → Except PyErr UAComponent} {proton electric : Bool} {x : NucleonArgs} {m : NucleonBase}
    (h : NucleonBase.init build proton electric x = .ok m) :
    ∃ c, initIsovectorComponents build x x.t_0_pauli_isovector x.t_in_pauli_isovector = .ok c := by
  unfold NucleonBase.init at h
  refine bindE h fun m1 e1 h => ?_
  refine bindE h fun m2 e2 h => ?_
  refine bindE h fun m3 e3 h => ?_
  refine bindE h fun m4 e4 h => ?_
  refine bindE h fun k1 f1 h => ?_
  refine bindE h fun k2 f2 h => ?_
  refine bindE h fun k3 f3 h => ?_
  refine bindE h fun k4 f4 h => ?_
  exact ⟨_, f4⟩

/-- The old model with zero widths is made of pole terms. -/
theorem old_run_poles {x : NucleonArgs} (hx : x.Proper) (hz : x.ZeroWidth) {proton electric : Bool} {t y : ℂ}
    (h : NucleonClass.old.run proton electric x t = .ok y) :
    (∀ r ∈ x.resonances, (r.1 : ℂ) ^ 2 - t ≠ 0) ∧
    y = nVal x proton electric t (dsVal x (x.polesS t) x.squaresS) (dvVal x (x.polesV t) x.squaresV)
      (psVal x (x.polesS t) x.squaresS) (pvVal x (x.polesV t)) := by
  have hb := NucleonClass.builds_of_run h
  have hv := NucleonClass.run_value hx h
  obtain ⟨m, b, h'⟩ := NucleonClass.run_built hx hb
  have hre := evalC_re (by rw [← h']; exact h)
  have hns := (b.evalC_iff hre).mp ⟨y, by rw [← h']; exact h⟩
  rw [← NucleonClass.old.singular_iff hx hb] at hns
  unfold NucleonClass.Singular at hns
  push Not at hns
  obtain ⟨⟨t1, t2, t3, t4⟩, hp, -⟩ := hns
  have htm : ∀ r ∈ x.resonances, (r.1 : ℂ) ^ 2 - t ≠ 0 := by
    intro r hr h0
    refine (hp r hr).1 ?_
    rw [polePosition, hz r hr]
    rw [← sub_eq_zero.mp h0, ← ofReal_pow]
    apply Complex.ext <;> simp [← Complex.ofReal_pow]
  refine ⟨htm, ?_⟩
  obtain ⟨m', hm'⟩ := hb
  obtain ⟨⟨K1, i1⟩, ⟨K2, i2⟩, K3, i3⟩ := init_inv hm'
  obtain ⟨K4, i4⟩ := init_inv' hm'
  rw [hv]
  unfold dsAt dvAt psAt pvAt
  rw [SixF_zero_width hz b.ds.omega.h0 hx.1 i1 t1 htm, ThreeF_zero_width hz b.dv.rho.h0 hx.2.1 i2 t2 htm,
    SixF_zero_width hz b.ps.omega.h0 hx.2.2.1 i3 t3 htm, ThreeF_zero_width hz b.pv.rho.h0 hx.2.2.2 i4 t4 htm]
  rfl

end UA
