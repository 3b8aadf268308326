import Verif.Model.KindsUtils
import Verif.Lemmas.UtilsArgs

/-!
# Helper lemmas: numbers that carry their kind
-/

namespace UA.Kinded

open Complex ComplexConjugate

variable {α β γ δ : Type}

/-- The outcome with the value transformed. -/
def lift (f : α → β) : Except PyErr α → Except Stop β
  | .error e => .error (.raised e)
  | .ok a => .ok (f a)

theorem lift_bind {x' : Except Stop β} {f : α → β} {x : Except PyErr α} {g : β → Except Stop γ} {h : δ → γ} {k : α → Except PyErr δ}
    (hx : x' = lift f x) (hg : ∀ a, x = .ok a → g (f a) = lift h (k a)) : (x' >>= g) = lift h (x >>= k) := by
  subst hx
  cases x with
  | error e => rfl
  | ok a => exact hg a rfl

theorem raises_eq (x : Except PyErr α) : raises x = lift id x := by cases x <;> rfl

@[simp] theorem py_val (a : α) : (py a).val = a := rfl
@[simp] theorem py_np (a : α) : (py a).np = false := rfl

section
variable (a b : ℂ)
theorem py_add : py a + py b = py (a + b) := rfl
theorem py_sub : py a - py b = py (a - b) := rfl
theorem py_mul : py a * py b = py (a * b) := rfl
theorem py_neg : -py a = py (-a) := rfl
theorem py_pow (n : ℕ) : py a ^ n = py (a ^ n) := rfl
theorem py_conj : (py a).conj = py (conj a) := rfl
theorem py_abs : (py a).abs = py ‖a‖ := rfl
theorem py_one : (1 : Num ℂ) = py 1 := rfl
theorem py_zero : (0 : Num ℂ) = py 0 := rfl
theorem py_two : (2 : Num ℂ) = py 2 := rfl
theorem py_four : (4 : Num ℂ) = py 4 := rfl
theorem py_half : (0.5 : Num ℂ) = py 0.5 := rfl
end

theorem py_coe (a : ℝ) : ((py a : Num ℝ) : Num ℂ) = py (a : ℂ) := rfl
theorem py_powR (a : ℝ) (n : ℕ) : py a ^ n = py (a ^ n) := rfl

theorem add_np (a b : Num ℂ) : (a + b).np = (a.np || b.np) := rfl
theorem sub_np (a b : Num ℂ) : (a - b).np = (a.np || b.np) := rfl
theorem mul_np (a b : Num ℂ) : (a * b).np = (a.np || b.np) := rfl
theorem pow_np (a : Num ℂ) (n : ℕ) : (a ^ n).np = a.np := rfl
theorem coe_np (a : Num ℝ) : (a : Num ℂ).np = a.np := rfl

theorem div_py (a b : ℂ) : pyDiv (py a) (py b) = lift py (UA.pyDiv a b) := by
  unfold pyDiv UA.pyDiv
  by_cases h : b = 0 <;> simp [h, lift, py]

theorem sqrt_lift (x : Num ℝ) : pySqrt x = lift py (UA.pySqrt x.val) := by
  unfold pySqrt UA.pySqrt
  by_cases h : x.val < 0 <;> simp [h, lift]

theorem squareRoot_py (z : Num ℂ) : squareRoot z = py (UA.squareRoot z.val) := by
  unfold squareRoot UA.squareRoot
  simp only [py_val]
  by_cases h : z.val.arg < 0
  · simp only [h, if_true]; rfl
  · simp only [h, if_false]; rfl

theorem map_init (t_0 t_in : Num ℝ) :
    MapFromTtoW.init t_0 t_in = lift (fun m => ⟨t_0, t_in, py m.a⟩) (UA.MapFromTtoW.init t_0.val t_in.val) := by
  unfold MapFromTtoW.init UA.MapFromTtoW.init validateBranchPointPositions UA.validateBranchPointPositions
  by_cases h0 : t_0.val < 0
  · simp only [h0, if_true]; rfl
  · by_cases h1 : t_in.val < t_0.val
    · simp only [h0, h1, if_true, if_false]; rfl
    · simp only [h0, h1, if_false]
      exact lift_bind (f := id) rfl fun _ _ => lift_bind (sqrt_lift _) fun a _ => rfl

theorem map_init_fields {t_0 t_in : ℝ} {m : UA.MapFromTtoW} (h : UA.MapFromTtoW.init t_0 t_in = .ok m) : m.t_0 = t_0 ∧ m.t_in = t_in := by
  unfold UA.MapFromTtoW.init at h
  obtain ⟨_, _, h⟩ := except_bind_eq_ok.mp h
  obtain ⟨a, _, h⟩ := except_bind_eq_ok.mp h
  injection h with h
  subst h
  exact ⟨rfl, rfl⟩

/-- A map with the kinds of its thresholds. -/
def mapOf (k₀ k₁ : Bool) (m : UA.MapFromTtoW) : MapFromTtoW := ⟨⟨m.t_0, k₀⟩, ⟨m.t_in, k₁⟩, py m.a⟩

theorem map_init' (t_0 t_in : Num ℝ) : MapFromTtoW.init t_0 t_in = lift (mapOf t_0.np t_in.np) (UA.MapFromTtoW.init t_0.val t_in.val) := by
  rw [map_init]
  cases h : UA.MapFromTtoW.init t_0.val t_in.val with
  | error e => rfl
  | ok m =>
    obtain ⟨h0, h1⟩ := map_init_fields h
    simp only [lift, mapOf, h0, h1]

theorem map_call (k₀ k₁ : Bool) (m : UA.MapFromTtoW) (t : Num ℂ) : (mapOf k₀ k₁ m).call t = lift py (m.call t.val) := by
  unfold MapFromTtoW.call UA.MapFromTtoW.call
  simp only [squareRoot_py, mapOf, py_add, py_neg, py_sub, py_one, py_mul, py_val]
  exact lift_bind (div_py _ _) fun a _ => by simp only [squareRoot_py, py_val, py_sub, py_mul, py_add, div_py]

/-- A component computed with Python numbers. -/
def componentOf (c : UA.UAComponent) : UAComponent :=
  ⟨c.variant, py c.w_n, py c.w_meson, py c.asymptotic_factor_denominator, py c.resonant_factor_numerator⟩

theorem component_init (v : Variant) (w_n w_meson : ℂ) :
    UAComponent.init v (py w_n) (py w_meson) = lift componentOf (UA.UAComponent.init v w_n w_meson) := by
  unfold UAComponent.init UA.UAComponent.init
  refine lift_bind (f := py) ?_ fun num _ => rfl
  cases v with
  | B => rfl
  | A =>
    unfold evalResonantFactorNumerator UA.evalResonantFactorNumerator variantANumerator UA.variantANumerator
    exact lift_bind (div_py _ _) fun r _ => lift_bind (f := py) (div_py _ _) fun rc _ => rfl

theorem component_call (c : UA.UAComponent) (w : ℂ) : (componentOf c).call (py w) = lift py (c.call w) := by
  unfold UAComponent.call UA.UAComponent.call
  refine lift_bind (div_py _ _) fun f _ => lift_bind (f := py) ?_ fun g _ => rfl
  unfold UAComponent.evalResonantFactor UA.UAComponent.evalResonantFactor
  have hv : (componentOf c).variant = c.variant := rfl
  rw [hv]
  cases c.variant with
  | B => exact div_py _ _
  | A => exact lift_bind (div_py _ _) fun r _ => lift_bind (f := py) (div_py _ _) fun rc _ => div_py _ _

theorem pole_val (mass decay_rate : Num ℝ) : (tMesonPole mass decay_rate).val = UA.tMesonPole mass.val decay_rate.val := rfl

theorem build (t_0 t_in mass decay_rate : Num ℝ) :
    buildComponent t_0 t_in mass decay_rate = lift componentOf (UA.buildComponent t_0.val t_in.val mass.val decay_rate.val) := by
  unfold buildComponent UA.buildComponent
  refine lift_bind (map_init' _ _) fun m _ => lift_bind (map_call _ _ m 0) fun w_n _ => lift_bind (map_call _ _ m _) fun w_meson _ => ?_
  have hm : (mass ^ 2).val = mass.val ^ 2 := rfl
  simp only [hm]
  split_ifs
  · rfl
  · exact component_init _ _ _
  · exact component_init _ _ _

theorem nucleonBuild (t_0 t_in mass decay_rate : Num ℝ) :
    nucleonBuildComponent t_0 t_in mass decay_rate = lift componentOf (UA.nucleonBuildComponent t_0.val t_in.val mass.val decay_rate.val) := by
  unfold nucleonBuildComponent UA.nucleonBuildComponent
  refine lift_bind (map_init' _ _) fun m _ => lift_bind (map_call _ _ m 0) fun w_n _ => lift_bind (map_call _ _ m _) fun w_meson _ => ?_
  simp only [pole_val]
  by_cases h0 : (UA.tMesonPole mass.val decay_rate.val).re < t_0.val
  · simp only [h0, if_true]; rfl
  · by_cases h1 : (UA.tMesonPole mass.val decay_rate.val).re < t_in.val
    · simp only [h0, h1, if_true, if_false]; exact component_init _ _ _
    · simp only [h0, h1, if_false]; exact component_init _ _ _

end UA.Kinded
