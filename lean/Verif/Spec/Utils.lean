import Verif.Model.Utils
import Verif.Spec.Parameters
import Verif.Spec.Nucleon
import Verif.Props.Kaon

/-!
# Vocabulary for the properties of `common/utils.py`
-/

namespace UA

open Complex

/-- The arguments of `KaonUAModel` with their names. -/
def KaonUAModel.Args.byName (x : KaonUAModel.Args) : List (String × ℝ) :=
  [("t_0_isoscalar", x.t_0_isoscalar),
   ("t_in_isoscalar", x.t_in_isoscalar),
   ("t_0_isovector", x.t_0_isovector),
   ("t_in_isovector", x.t_in_isovector),
   ("a_omega", x.a_omega),
   ("a_omega_prime", x.a_omega_prime),
   ("a_omega_double_prime", x.a_omega_double_prime),
   ("a_phi", x.a_phi),
   ("a_phi_prime", x.a_phi_prime),
   ("a_rho", x.a_rho),
   ("a_rho_prime", x.a_rho_prime),
   ("a_rho_double_prime", x.a_rho_double_prime),
   ("mass_omega", x.mass_omega),
   ("decay_rate_omega", x.decay_rate_omega),
   ("mass_omega_prime", x.mass_omega_prime),
   ("decay_rate_omega_prime", x.decay_rate_omega_prime),
   ("mass_omega_double_prime", x.mass_omega_double_prime),
   ("decay_rate_omega_double_prime", x.decay_rate_omega_double_prime),
   ("mass_phi", x.mass_phi),
   ("decay_rate_phi", x.decay_rate_phi),
   ("mass_phi_prime", x.mass_phi_prime),
   ("decay_rate_phi_prime", x.decay_rate_phi_prime),
   ("mass_phi_double_prime", x.mass_phi_double_prime),
   ("decay_rate_phi_double_prime", x.decay_rate_phi_double_prime),
   ("mass_rho", x.mass_rho),
   ("decay_rate_rho", x.decay_rate_rho),
   ("mass_rho_prime", x.mass_rho_prime),
   ("decay_rate_rho_prime", x.decay_rate_rho_prime),
   ("mass_rho_double_prime", x.mass_rho_double_prime),
   ("decay_rate_rho_double_prime", x.decay_rate_rho_double_prime),
   ("mass_rho_triple_prime", x.mass_rho_triple_prime),
   ("decay_rate_rho_triple_prime", x.decay_rate_rho_triple_prime)]

/-- The arguments of `KaonUAModelB` with their names. -/
def KaonUAModelB.Args.byName (x : KaonUAModelB.Args) : List (String × ℝ) :=
  [("t_0_isoscalar", x.t_0_isoscalar),
   ("t_in_isoscalar", x.t_in_isoscalar),
   ("t_0_isovector", x.t_0_isovector),
   ("t_in_isovector", x.t_in_isovector),
   ("a_omega", x.a_omega),
   ("a_omega_double_prime", x.a_omega_double_prime),
   ("a_phi", x.a_phi),
   ("a_phi_prime", x.a_phi_prime),
   ("a_rho", x.a_rho),
   ("a_rho_prime", x.a_rho_prime),
   ("mass_omega", x.mass_omega),
   ("decay_rate_omega", x.decay_rate_omega),
   ("mass_omega_double_prime", x.mass_omega_double_prime),
   ("decay_rate_omega_double_prime", x.decay_rate_omega_double_prime),
   ("mass_phi", x.mass_phi),
   ("decay_rate_phi", x.decay_rate_phi),
   ("mass_phi_prime", x.mass_phi_prime),
   ("decay_rate_phi_prime", x.decay_rate_phi_prime),
   ("mass_phi_double_prime", x.mass_phi_double_prime),
   ("decay_rate_phi_double_prime", x.decay_rate_phi_double_prime),
   ("mass_rho", x.mass_rho),
   ("decay_rate_rho", x.decay_rate_rho),
   ("mass_rho_prime", x.mass_rho_prime),
   ("decay_rate_rho_prime", x.decay_rate_rho_prime),
   ("mass_rho_double_prime", x.mass_rho_double_prime),
   ("decay_rate_rho_double_prime", x.decay_rate_rho_double_prime)]

/-- The arguments of `KaonUAModelSimplified` with their names. -/
def KaonUAModelSimplified.Args.byName (x : KaonUAModelSimplified.Args) : List (String × ℝ) :=
  [("t_0_isoscalar", x.t_0_isoscalar),
   ("t_in_isoscalar", x.t_in_isoscalar),
   ("t_0_isovector", x.t_0_isovector),
   ("t_in_isovector", x.t_in_isovector),
   ("a_omega_prime", x.a_omega_prime),
   ("a_omega_double_prime", x.a_omega_double_prime),
   ("a_phi", x.a_phi),
   ("a_phi_prime", x.a_phi_prime),
   ("a_rho_prime", x.a_rho_prime),
   ("a_rho_double_prime", x.a_rho_double_prime),
   ("mass_omega_prime", x.mass_omega_prime),
   ("decay_rate_omega_prime", x.decay_rate_omega_prime),
   ("mass_omega_double_prime", x.mass_omega_double_prime),
   ("decay_rate_omega_double_prime", x.decay_rate_omega_double_prime),
   ("mass_phi", x.mass_phi),
   ("decay_rate_phi", x.decay_rate_phi),
   ("mass_phi_prime", x.mass_phi_prime),
   ("decay_rate_phi_prime", x.decay_rate_phi_prime),
   ("mass_phi_double_prime", x.mass_phi_double_prime),
   ("decay_rate_phi_double_prime", x.decay_rate_phi_double_prime),
   ("mass_rho_prime", x.mass_rho_prime),
   ("decay_rate_rho_prime", x.decay_rate_rho_prime),
   ("mass_rho_double_prime", x.mass_rho_double_prime),
   ("decay_rate_rho_double_prime", x.decay_rate_rho_double_prime),
   ("mass_rho_triple_prime", x.mass_rho_triple_prime),
   ("decay_rate_rho_triple_prime", x.decay_rate_rho_triple_prime)]

/-- The arguments of `NucleonUAModel` with their names. -/
def NucleonArgs.byName (x : NucleonArgs) : List (String × ℝ) :=
  [("nucleon_mass", x.nucleon_mass),
   ("magnetic_moment_proton", x.magnetic_moment_proton),
   ("magnetic_moment_neutron", x.magnetic_moment_neutron),
   ("t_0_dirac_isoscalar", x.t_0_dirac_isoscalar),
   ("t_in_dirac_isoscalar", x.t_in_dirac_isoscalar),
   ("t_0_dirac_isovector", x.t_0_dirac_isovector),
   ("t_in_dirac_isovector", x.t_in_dirac_isovector),
   ("t_0_pauli_isoscalar", x.t_0_pauli_isoscalar),
   ("t_in_pauli_isoscalar", x.t_in_pauli_isoscalar),
   ("t_0_pauli_isovector", x.t_0_pauli_isovector),
   ("t_in_pauli_isovector", x.t_in_pauli_isovector),
   ("a_dirac_omega", x.a_dirac_omega),
   ("a_dirac_omega_prime", x.a_dirac_omega_prime),
   ("a_dirac_phi", x.a_dirac_phi),
   ("a_dirac_phi_prime", x.a_dirac_phi_prime),
   ("a_dirac_rho", x.a_dirac_rho),
   ("a_pauli_omega", x.a_pauli_omega),
   ("a_pauli_phi", x.a_pauli_phi),
   ("a_pauli_phi_prime", x.a_pauli_phi_prime),
   ("mass_omega", x.mass_omega),
   ("decay_rate_omega", x.decay_rate_omega),
   ("mass_omega_prime", x.mass_omega_prime),
   ("decay_rate_omega_prime", x.decay_rate_omega_prime),
   ("mass_omega_double_prime", x.mass_omega_double_prime),
   ("decay_rate_omega_double_prime", x.decay_rate_omega_double_prime),
   ("mass_phi", x.mass_phi),
   ("decay_rate_phi", x.decay_rate_phi),
   ("mass_phi_prime", x.mass_phi_prime),
   ("decay_rate_phi_prime", x.decay_rate_phi_prime),
   ("mass_phi_double_prime", x.mass_phi_double_prime),
   ("decay_rate_phi_double_prime", x.decay_rate_phi_double_prime),
   ("mass_rho", x.mass_rho),
   ("decay_rate_rho", x.decay_rate_rho),
   ("mass_rho_prime", x.mass_rho_prime),
   ("decay_rate_rho_prime", x.decay_rate_rho_prime),
   ("mass_rho_double_prime", x.mass_rho_double_prime),
   ("decay_rate_rho_double_prime", x.decay_rate_rho_double_prime)]

/-- The arguments of the three kaon models with their names. -/
def KaonArgs.byName : KaonArgs → List (String × ℝ)
  | .full x => x.byName
  | .b x => x.byName
  | .simplified x => x.byName

/-- The model a kaon parameter class is meant for. -/
def KaonArgs.For (x : KaonArgs) (c : ParamClass) : Prop :=
  match x with
  | .full _ => c = .kaon ∨ c = .kaonFixedRhoOmega ∨ c = .kaonFixedSelected
  | .b _ => c = .kaonB
  | .simplified _ => c = .kaonSimplified

/-- Outcome of building the kaon model (charged variant), its value dropped. -/
noncomputable def KaonArgs.check (x : KaonArgs) : Except PyErr Unit :=
  match x with
  | .full x => do let _ ← KaonUAModel.init true x; return ()
  | .b x => do let _ ← KaonUAModelB.init true x; return ()
  | .simplified x => do let _ ← KaonUAModelSimplified.init true x; return ()

/-- Outcome of building the nucleon model, its value dropped. -/
noncomputable def NucleonArgs.check (x : NucleonArgs) : Except PyErr Unit := do
  let _ ← NucleonUAModel.init true true x
  return ()

/-- A list of named arguments is exactly what a parameter object holds. -/
def ModelParameters.HoldsExactly (p : ModelParameters ℝ) (args : List (String × ℝ)) : Prop :=
  (∀ e ∈ args, p.Holds e.1 e.2) ∧ ∀ n ∈ p.names, n ∈ args.map (·.1)

/-- The kaon classes. -/
def IsKaonClass : ParamClass → Prop
  | .kaon | .kaonB | .kaonSimplified | .kaonFixedRhoOmega | .kaonFixedSelected => True
  | _ => False

instance : DecidablePred IsKaonClass := fun c => by cases c <;> unfold IsKaonClass <;> infer_instance

/-- The values lie strictly inside the "maximal" bounds. The dictionary leaves out some of the always-fixed masses and widths of
`KaonParametersFixedRhoOmega` and `KaonParametersFixedSelected`; for these the bounds of the other classes are asked for: mass
above the square root of the channel's threshold, positive width. -/
def ModelParameters.InsideMaximal (p : ModelParameters ℝ) : Prop :=
  ∃ dict, p.bounds false = .ok dict ∧ ∀ q ∈ p.toList,
    (∀ b, dict.lookup q.name = some b → b.1 < (q.value : WithBot ℝ) ∧ (q.value : WithTop ℝ) < b.2) ∧
    (dict.lookup q.name = none →
      ("mass_".toList <+: q.name.toList → ∀ x : String → ℝ, (∀ r ∈ p.toList, r.value = x r.name) → massThreshold p.cls x q.name < q.value) ∧
      ("decay_rate_".toList <+: q.name.toList → 0 < q.value))

/-- A program using parameter objects and partial functions: all objects in existence, the references its variables hold, and
the functions it has made. The variable captured by a function is not one of the program's. -/
structure Program where
  heap : Heap
  refs : List ℕ
  functions : List PartialF

/-- One step of such a program. -/
inductive ProgramStep
  | new (c : ParamClass) (kw : List (String × ℝ))
  | copy (ref : ℕ)
  | mutate (ref : ℕ) (op : ParamOp ℝ)
  | make (kind : PartialKind) (ref : ℕ)
  | call (k : ℕ) (ts : List Datapoint) (args : List ℝ)

/-- The program after a step; a step that raises leaves behind what it had changed. Steps naming a reference or a function the
program does not have do nothing. -/
noncomputable def ProgramStep.run (w : Program) : ProgramStep → Program
  | .new c kw =>
    match c.init kw with
    | .error _ => w
    | .ok p => { w with heap := w.heap ++ [p], refs := w.heap.length :: w.refs }
  | .copy ref =>
    if ref ∈ w.refs then
      match w.heap[ref]? with
      | none => w
      | some p =>
        match p.copy with
        | .error _ => w
        | .ok q => { w with heap := w.heap ++ [q], refs := w.heap.length :: w.refs }
    else w
  | .mutate ref op =>
    if ref ∈ w.refs then
      match w.heap[ref]? with
      | none => w
      | some p => { w with heap := w.heap.set ref (op.run p).2 }
    else w
  | .make kind ref =>
    if ref ∈ w.refs then
      match makePartial kind w.heap ref with
      | .error _ => w
      | .ok (f, heap) => { w with heap := heap, functions := w.functions ++ [f] }
    else w
  | .call k ts args =>
    match w.functions[k]? with
    | none => w
    | some f => { w with heap := (f.call w.heap ts args).2 }

/-- The program at its start. -/
def Program.start : Program := ⟨[], [], []⟩

/-- The program after a sequence of steps. -/
noncomputable def Program.runs (w : Program) (steps : List ProgramStep) : Program := steps.foldl ProgramStep.run w

/-- What a function made from parameters `p` should return for `(ts, *args)`: evaluate with the free values replaced. -/
noncomputable def partialSpec (kind : PartialKind) (p : ModelParameters ℝ) (ts : List Datapoint) (args : List ℝ) : Except PyErr (List ℝ) :=
  match p.updateFreeValues args with
  | (.error e, _) => .error e
  | (.ok (), p') => kind.eval ts p'

end UA
