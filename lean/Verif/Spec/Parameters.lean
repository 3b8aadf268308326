import Verif.Model.Parameters

/-!
# Vocabulary for the parameter properties
-/

namespace UA

variable {α : Type}

/-- The public mutating operations of a parameter object, with arbitrary arguments. -/
inductive ParamOp (α : Type)
  | setItem (key : String) (x : PyItem α)
  | setValue (name : String) (v : α)
  | fixParameters (names : List String)
  | releaseParameters (names : List String)
  | fixAll
  | releaseAll
  | updateFreeValues (vs : List α)
  | fixResonances

/-- Running an operation: outcome and object left behind. -/
def ParamOp.run : ParamOp α → ModelParameters α → Mutation α
  | .setItem k x, p => p.setItem k x
  | .setValue n v, p => p.setValue n v
  | .fixParameters ns, p => p.fixParameters ns
  | .releaseParameters ns, p => p.releaseParameters ns
  | .fixAll, p => (.ok (), p.fixAllParameters)
  | .releaseAll, p => (.ok (), p.releaseAllParameters)
  | .updateFreeValues vs, p => p.updateFreeValues vs
  | .fixResonances, p => p.fixResonances

/-- The object after a sequence of operations, each of which may have failed (the caller caught the exception). -/
def runOps (p : ModelParameters α) (ops : List (ParamOp α)) : ModelParameters α := ops.foldl (fun p op => (op.run p).2) p

/-- The objects a program can hold: created by a constructor call (keyword or positional), `from_list`, `from_ordered_values`
or `copy`, then changed by any operations, failing ones included. -/
inductive Reachable : ModelParameters α → Prop
  | init {c : ParamClass} {kw : List (String × α)} {p} : c.init kw = .ok p → Reachable p
  | initPositional {c : ParamClass} {args : List α} {p} : c.initPositional args = .ok p → Reachable p
  | fromList {c : ParamClass} {l : List (Parameter α)} {p} : c.fromList l = .ok p → Reachable p
  | fromOrderedValues {c : ParamClass} {l : List α} {k} {p} : c.fromOrderedValues l k = .ok p → Reachable p
  | copy {p q : ModelParameters α} : Reachable p → p.copy = .ok q → Reachable q
  | step {p : ModelParameters α} (op : ParamOp α) : Reachable p → Reachable (op.run p).2

/-- The sequence of names (as seen by iterating). -/
def ModelParameters.names (p : ModelParameters α) : List String := p.toList.map (·.name)

/-- The sequence of flags. -/
def ModelParameters.flags (p : ModelParameters α) : List Bool := p.toList.map (·.is_fixed)

/-- The free parameters, in order. -/
def ModelParameters.freeNames (p : ModelParameters α) : List String := (p.toList.filter (!·.is_fixed)).map (·.name)

/-- The names that start with `mass_` or `decay_rate_`: the resonance masses and widths. -/
def IsResonanceName (n : String) : Prop := "mass_".toList <+: n.toList ∨ "decay_rate_".toList <+: n.toList

instance (n : String) : Decidable (IsResonanceName n) := by unfold IsResonanceName; infer_instance

/-- The resonances whose mass and width a class declares constant. -/
def declaredResonances : ParamClass → List String
  | .kaonB => ["omega", "omega_double_prime", "rho", "rho_prime", "rho_double_prime"]
  | .kaonFixedRhoOmega => ["omega", "rho"]
  | .kaonFixedSelected => ["omega", "rho"]
  | _ => []

/-- The parameters a class declares always fixed: every threshold `t_0_*`; mass and width of the resonances above; two further
masses in `KaonParametersFixedSelected`; the mass and the magnetic moments in `NucleonParameters`. -/
def DeclaredFixed (c : ParamClass) (n : String) : Prop :=
  "t_0_".toList <+: n.toList ∨
    (∃ r ∈ declaredResonances c, n.toList = "mass_".toList ++ r.toList ∨ n.toList = "decay_rate_".toList ++ r.toList) ∨
    (c = .kaonFixedSelected ∧ (n = "mass_omega_prime" ∨ n = "mass_omega_double_prime")) ∨
    (c = .nucleon ∧ (n = "nucleon_mass" ∨ n = "magnetic_moment_proton" ∨ n = "magnetic_moment_neutron"))

instance (c : ParamClass) (n : String) : Decidable (DeclaredFixed c n) := by unfold DeclaredFixed; infer_instance

/-- The kaon and nucleon classes: the ones with resonances. -/
def IsResonanceClass : ParamClass → Prop
  | .etgmr | .twoPoles | .oscillations => False
  | _ => True

instance : DecidablePred IsResonanceClass := fun c => by cases c <;> unfold IsResonanceClass <;> infer_instance

/-- The physical constants a class needs next to its ordered values. -/
def constantNames : ParamClass → List String
  | .nucleon => ["nucleon_mass", "magnetic_moment_proton", "magnetic_moment_neutron", "t_0_dirac_isoscalar",
      "t_0_dirac_isovector", "t_0_pauli_isoscalar", "t_0_pauli_isovector"]
  | .etgmr | .twoPoles | .oscillations => []
  | _ => ["t_0_isoscalar", "t_0_isovector"]

/-- `p` holds the value `v` under the name `n`. -/
def ModelParameters.Holds (p : ModelParameters α) (n : String) (v : α) : Prop := ∃ flag, p.getItem n = .ok ⟨n, v, flag⟩

/-- The resonances of the isoscalar channel are the omegas and phis. -/
def IsIsoscalarName (n : String) : Prop := "omega".toList <:+: n.toList ∨ "phi".toList <:+: n.toList

instance (n : String) : Decidable (IsIsoscalarName n) := by unfold IsIsoscalarName; infer_instance

/-- The lowest mass the channel of a resonance allows, `x` being the values: the square root of the channel's threshold; for the
nucleon the larger of the Dirac and Pauli ones. -/
noncomputable def massThreshold (c : ParamClass) (x : String → ℝ) (n : String) : ℝ :=
  if c = .nucleon then
    if IsIsoscalarName n then max (Real.sqrt (x "t_0_dirac_isoscalar")) (Real.sqrt (x "t_0_pauli_isoscalar"))
    else max (Real.sqrt (x "t_0_dirac_isovector")) (Real.sqrt (x "t_0_pauli_isovector"))
  else if IsIsoscalarName n then Real.sqrt (x "t_0_isoscalar") else Real.sqrt (x "t_0_isovector")

/-- Strict order between a lower and an upper bound (`⊥`/`⊤` infinite). -/
def BoundLt (l : WithBot ℝ) (u : WithTop ℝ) : Prop := ∀ a b : ℝ, l = a → u = b → a < b

/-- A value lies within bounds. -/
def Within (l : WithBot ℝ) (x : ℝ) (u : WithTop ℝ) : Prop := l ≤ (x : WithBot ℝ) ∧ (x : WithTop ℝ) ≤ u

end UA
