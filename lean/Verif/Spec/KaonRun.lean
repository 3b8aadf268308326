import Verif.Spec.Kaon
import Verif.Model.OtherModels

/-!
# The three kaon classes together
-/

namespace UA

open Complex

/-- Constructor arguments of any of the three kaon classes. -/
inductive KaonArgs
  | full (x : KaonUAModel.Args)
  | b (x : KaonUAModelB.Args)
  | simplified (x : KaonUAModelSimplified.Args)

/-- Build the model of the right class and call it. -/
noncomputable def KaonArgs.run (x : KaonArgs) (charged : Bool) (t : ℂ) : Except PyErr ℂ :=
  match x with
  | .full x => do let m ← KaonUAModel.init charged x; m.call t
  | .b x => do let m ← KaonUAModelB.init charged x; m.call t
  | .simplified x => do let m ← KaonUAModelSimplified.init charged x; m.call t

/-- The model of the right class can be constructed. -/
def KaonArgs.Builds (x : KaonArgs) (charged : Bool) : Prop :=
  match x with
  | .full x => ∃ m, KaonUAModel.init charged x = .ok m
  | .b x => ∃ m, KaonUAModelB.init charged x = .ok m
  | .simplified x => ∃ m, KaonUAModelSimplified.init charged x = .ok m

def KaonArgs.t0S : KaonArgs → ℝ
  | .full x => x.t_0_isoscalar
  | .b x => x.t_0_isoscalar
  | .simplified x => x.t_0_isoscalar

def KaonArgs.tinS : KaonArgs → ℝ
  | .full x => x.t_in_isoscalar
  | .b x => x.t_in_isoscalar
  | .simplified x => x.t_in_isoscalar

def KaonArgs.t0V : KaonArgs → ℝ
  | .full x => x.t_0_isovector
  | .b x => x.t_0_isovector
  | .simplified x => x.t_0_isovector

def KaonArgs.tinV : KaonArgs → ℝ
  | .full x => x.t_in_isovector
  | .b x => x.t_in_isovector
  | .simplified x => x.t_in_isovector

/-- Isoscalar resonances (specification lists in `Verif/Spec/Kaon.lean`). -/
noncomputable def KaonArgs.resS : KaonArgs → List Res
  | .full x => x.resS
  | .b x => x.resS
  | .simplified x => x.resS

/-- Isovector resonances. -/
noncomputable def KaonArgs.resV : KaonArgs → List Res
  | .full x => x.resV
  | .b x => x.resV
  | .simplified x => x.resV

/-- The thresholds are in the documented strict order. -/
def KaonArgs.Proper (x : KaonArgs) : Prop := x.t0S < x.tinS ∧ x.t0V < x.tinV

/-- All widths are zero. -/
def KaonArgs.ZeroWidth (x : KaonArgs) : Prop := ∀ r ∈ x.resS ++ x.resV, r.decay = 0

/-- The mesons of the VMD model the kaon model should reduce to. -/
noncomputable def vmdMesons (x : KaonArgs) (charged : Bool) : List VectorMeson :=
  x.resS.map (fun r => ⟨r.a, r.mass⟩) ++ x.resV.map (fun r => ⟨if charged then r.a else -r.a, r.mass⟩)

end UA
