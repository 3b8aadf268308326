import Verif.Lemmas.Utils
import Verif.Lemmas.ParametersInv

/-!
# Helper lemmas: every evaluation is a check followed by a pointwise map
-/

namespace UA

open Complex

theorem mapM_map {α β γ : Type} (f : α → β) (g : β → Except PyErr γ) (l : List α) : (l.map f).mapM g = l.mapM fun x => g (f x) := by
  induction l with
  | nil => rfl
  | cons a l ih => rw [List.map_cons, List.mapM_cons, List.mapM_cons, ih]

theorem mapM_append' {α β : Type} (g : α → Except PyErr β) (l l' : List α) :
    (l ++ l').mapM g = (do let r ← l.mapM g; let s ← l'.mapM g; return r ++ s) := by
  rw [List.mapM_append]

theorem mapM_singleton' {α β : Type} (g : α → Except PyErr β) (a : α) : [a].mapM g = (do let r ← g a; return [r]) := by
  rw [List.mapM_cons]
  rcases g a with e | r <;> rfl

theorem readDatapointKaon_toRow (d : Datapoint) : readDatapointKaon d.toRow = readDatapointKaon d := by
  cases d with
  | kaon t c =>
    cases c <;> simp [Datapoint.toRow, readDatapointKaon, Datapoint.index, except_ok_bind, pyBool] <;> rfl
  | nucleon t p e => rfl
  | row xs => rfl

theorem readDatapointNucleon_toRow (d : Datapoint) : readDatapointNucleon d.toRow = readDatapointNucleon d := by
  cases d with
  | kaon t c => rfl
  | nucleon t p e =>
    cases p <;> cases e <;> simp [Datapoint.toRow, readDatapointNucleon, Datapoint.index, except_ok_bind, pyBool] <;> rfl
  | row xs => rfl

/-- A check that does not look at the data, then a function applied to each point that does not see the type of the point. -/
structure Pointwise (F : List Datapoint → Except PyErr (List ℝ)) (pre : Except PyErr Unit) (g : Datapoint → Except PyErr ℝ) : Prop where
  eq : ∀ ts, F ts = (do pre; ts.mapM g)
  nonneg : ∀ d r, g d = .ok r → 0 ≤ r
  row : ∀ d, g d.toRow = g d

theorem kaonPoint_nonneg {G : Bool → ℂ → Except PyErr ℂ} {d : Datapoint} {r : ℝ} (h : kaonPoint G d = .ok r) : 0 ≤ r := by
  unfold kaonPoint at h
  obtain ⟨_, -, h⟩ := except_bind_eq_ok.mp h
  obtain ⟨F, -, h⟩ := except_bind_eq_ok.mp h
  injection h with h
  rw [← h]; exact norm_nonneg F

theorem nucleonPoint_nonneg {G : Bool → Bool → ℂ → Except PyErr ℂ} {d : Datapoint} {r : ℝ} (h : nucleonPoint G d = .ok r) : 0 ≤ r := by
  unfold nucleonPoint at h
  obtain ⟨_, -, h⟩ := except_bind_eq_ok.mp h
  obtain ⟨F, -, h⟩ := except_bind_eq_ok.mp h
  injection h with h
  rw [← h]; exact norm_nonneg F

theorem kaonPoint_row (G : Bool → ℂ → Except PyErr ℂ) (d : Datapoint) : kaonPoint G d.toRow = kaonPoint G d := by
  unfold kaonPoint; rw [readDatapointKaon_toRow]

theorem nucleonPoint_row (G : Bool → Bool → ℂ → Except PyErr ℂ) (d : Datapoint) : nucleonPoint G d.toRow = nucleonPoint G d := by
  unfold nucleonPoint; rw [readDatapointNucleon_toRow]

/-- What the loop of `function_cross_section` does with one point when the model is a background model. -/
noncomputable def noFormFactorPoint (d : Datapoint) : Except PyErr ℝ := do
  let _ ← readDatapointNucleon d
  .error .attributeError

theorem noFormFactorLoop_eq (ts : List Datapoint) : noFormFactorLoop ts = ts.mapM noFormFactorPoint := by
  cases ts with
  | nil => rfl
  | cons d ts =>
    rw [List.mapM_cons]
    simp only [noFormFactorLoop, noFormFactorPoint]
    rcases readDatapointNucleon d with e | x <;> rfl

theorem noFormFactorPoint_err (d : Datapoint) (r : ℝ) : noFormFactorPoint d ≠ .ok r := by
  unfold noFormFactorPoint
  rcases readDatapointNucleon d with e | x <;> simp [bind, Except.bind]

theorem noFormFactor_pointwise {F : List Datapoint → Except PyErr (List ℝ)} (h : ∀ ts, F ts = noFormFactorLoop ts) :
    Pointwise F (.ok ()) noFormFactorPoint := by
  refine ⟨fun ts => ?_, fun d r hd => (noFormFactorPoint_err d r hd).elim, fun d => ?_⟩
  · rw [h, noFormFactorLoop_eq]; rfl
  · unfold noFormFactorPoint; rw [readDatapointNucleon_toRow]

theorem eval_pointwise {p : ModelParameters ℝ} (h : p.WellFormed) (kind : PartialKind) : ∃ pre g, Pointwise (kind.eval · p) pre g := by
  obtain ⟨v, hv⟩ := h.exists_values
  by_cases hk : IsKaonClass p.cls
  · obtain ⟨x, hx⟩ := kaon_wiring h hv hk
    cases kind with
    | formFactor => exact ⟨_, _, hx.ff, fun _ _ => kaonPoint_nonneg, kaonPoint_row _⟩
    | crossSection m a h => exact ⟨_, _, fun ts => hx.cs ts m a h, fun _ _ => kaonPoint_nonneg, kaonPoint_row _⟩
  cases hc : p.cls with
  | nucleon =>
    have hx := nucleon_wiring h hv hc
    cases kind with
    | formFactor => exact ⟨_, _, hx.ff, fun _ _ => nucleonPoint_nonneg, nucleonPoint_row _⟩
    | crossSection m a h => exact ⟨_, _, fun ts => hx.cs ts m a h, fun _ _ => nucleonPoint_nonneg, nucleonPoint_row _⟩
  | etgmr =>
    obtain ⟨-, h1, h2⟩ := etgmr_wiring h hv hc
    cases kind with
    | formFactor => exact ⟨.ok (), _, h1, fun _ _ => nucleonPoint_nonneg, nucleonPoint_row _⟩
    | crossSection m a h => exact ⟨_, _, noFormFactor_pointwise fun ts => h2 ts m a h⟩
  | twoPoles =>
    obtain ⟨-, h1, h2⟩ := twoPoles_wiring h hv hc
    cases kind with
    | formFactor => exact ⟨.ok (), _, h1, fun _ _ => nucleonPoint_nonneg, nucleonPoint_row _⟩
    | crossSection m a h => exact ⟨_, _, noFormFactor_pointwise fun ts => h2 ts m a h⟩
  | oscillations =>
    cases kind with
    | formFactor => exact ⟨.error .typeError, fun _ => .ok 0, fun ts => (oscillations_wiring hc ts).1, fun _ r h => by injection h with h; rw [← h], fun _ => rfl⟩
    | crossSection m a h =>
      exact ⟨.error .typeError, fun _ => .ok 0, fun ts => (oscillations_wiring hc ts).2 m a h, fun _ r h => by injection h with h; rw [← h], fun _ => rfl⟩
  | _ => rw [hc] at hk; exact (hk trivial).elim

end UA
