import Verif.Lemmas.Units
import Verif.Lemmas.UtilsPerturb

/-! Bounds and change of units. -/

namespace UA

variable {k : ℝ}

theorem dimension_t0 {n : String} (h : "t_0_".toList <+: n.toList) : dimension n = 2 := by
  unfold dimension
  rw [if_pos]
  exact List.IsPrefix.trans (by decide) h

theorem lookup_scale (k : ℝ) (a : String) : ∀ env : List (String × ℝ),
    ((env.map fun e => (e.1, k * e.2)).lookup a).getD 0 = k * (env.lookup a).getD 0
  | [] => by simp
  | (x, y) :: env => by
    rw [List.map_cons, List.lookup_cons, List.lookup_cons]
    by_cases h : a == x
    · simp only [h, Option.getD_some]
    · simp only [h]
      exact lookup_scale k a env

theorem localsV_scale (hk : 0 < k) (v : String → ℝ) : ∀ (ls : List (String × LocalExpr)) (env : List (String × ℝ)),
    (∀ n ∈ sqrtNames ls, dimension n = 2) →
      localsV (scaleValues k v) ls (env.map fun e => (e.1, k * e.2)) = (localsV v ls env).map fun e => (e.1, k * e.2)
  | [], env, _ => rfl
  | (x, .sqrtValue n) :: rest, env, h => by
    unfold localsV
    rw [scaleValues_two (h n (by simp [sqrtNames])), Real.sqrt_mul (by positivity), Real.sqrt_sq hk.le]
    exact localsV_scale hk v rest ((x, Real.sqrt (v n)) :: env) fun m hm => h m (by
      simp only [sqrtNames, List.filterMap_cons]; exact List.mem_cons_of_mem _ hm)
  | (x, .maxOf a b) :: rest, env, h => by
    unfold localsV
    rw [lookup_scale, lookup_scale, ← mul_max_of_nonneg _ _ hk.le]
    exact localsV_scale hk v rest ((x, max ((env.lookup a).getD 0) ((env.lookup b).getD 0)) :: env) fun m hm => h m (by
      simpa only [sqrtNames, List.filterMap_cons] using hm)

/-- No entry of a maximal table contains a constant other than zero, and every entry has the dimension of its name. -/
def lowerDim (n : String) : LowerExpr → Prop
  | .negInf => True
  | .const q => q = 0
  | .value m => dimension m = dimension n
  | .loc _ => dimension n = 1

instance (n : String) : DecidablePred (lowerDim n) := fun e => by cases e <;> unfold lowerDim <;> infer_instance

theorem maximal_dim (c : ParamClass) : ∀ e ∈ c.table.maximal, e.2.2 = .posInf ∧ lowerDim e.1 e.2.1 := by
  cases c <;> decide +kernel

theorem boundsV_scale (hk : 0 < k) (c : ParamClass) (v : String → ℝ) : boundsV c (scaleValues k v) false = inUnitsBounds k (boundsV c v false) := by
  have hl := localsV_scale hk v c.table.maximalLocals [] (fun n hn => dimension_t0 ((boundsGood c false).roots n hn).1)
  rw [List.map_nil] at hl
  unfold boundsV inUnitsBounds
  rw [List.map_map]
  refine List.map_congr_left fun e he => ?_
  obtain ⟨hu, hd⟩ := maximal_dim c e he
  simp only [Function.comp, hu]
  refine Prod.ext rfl (Prod.ext ?_ rfl)
  show lowerV (scaleValues k v) (localsV (scaleValues k v) c.table.maximalLocals []) e.2.1 = _
  rw [hl]
  obtain ⟨n, l, u⟩ := e
  cases l with
  | negInf => rfl
  | const q =>
    have : q = 0 := hd
    subst this
    simp [lowerV]
  | value m =>
    have : dimension m = dimension n := hd
    simp [lowerV, scaleValues, this]
  | loc x =>
    have : dimension n = 1 := hd
    simp only [lowerV, lookup_scale, this, pow_one]
    rfl

theorem bounds_inUnits (hk : 0 < k) {p p' : ModelParameters ℝ} (hp : Reachable p) (hp' : Reachable p') (h : p.InUnits k p') :
    p'.bounds false = (p.bounds false).map (inUnitsBounds k) := by
  have hw := reachable_wellFormed hp
  have hw' := reachable_wellFormed hp'
  obtain ⟨v, hv⟩ := hw.exists_values
  have hv' := values_inUnits hw hw' hv h
  by_cases h0 : ∃ n ∈ p.cls.table.initArgs, "t_0_".toList <+: n.toList ∧ v n < 0
  · have e : p.bounds false = .error .valueError := by
      show p.boundsMaximal = _
      unfold ModelParameters.boundsMaximal
      rw [evalLocals_negative hw hv h0]; rfl
    have e' : p'.bounds false = .error .valueError := by
      show p'.boundsMaximal = _
      unfold ModelParameters.boundsMaximal
      rw [evalLocals_negative hw' hv' (by
        obtain ⟨n, hn, ht, hneg⟩ := h0
        refine ⟨n, by rw [h.1]; exact hn, ht, ?_⟩
        rw [scaleValues_two (dimension_t0 ht)]
        exact mul_neg_of_pos_of_neg (by positivity) hneg)]; rfl
    rw [e, e']; rfl
  · push Not at h0
    rw [bounds_eq hw hv false fun _ => h0, bounds_eq hw' hv' false, h.1, boundsV_scale hk]
    · rfl
    · intro _ n hn ht
      rw [scaleValues_two (dimension_t0 ht)]
      exact mul_nonneg (by positivity) (h0 n (by rw [← h.1]; exact hn) ht)

/-- The handpicked entries of masses and widths are constants. -/
def constEntry (e : String × LowerExpr × UpperExpr) : Prop :=
  ("mass_".toList <+: e.1.toList ∨ "decay_rate_".toList <+: e.1.toList) → match e.2.1 with
    | .const _ => True
    | _ => False

instance : DecidablePred constEntry := fun e => by
  unfold constEntry
  obtain ⟨n, l, u⟩ := e
  cases l <;> infer_instance

theorem handpicked_const (c : ParamClass) : ∀ e ∈ c.table.handpicked, constEntry e := by
  cases c <;> decide +kernel

theorem handpicked_inUnits {p p' : ModelParameters ℝ} (hp : Reachable p) (hp' : Reachable p') (h : p'.cls = p.cls) :
    ∃ dict dict', p.bounds true = .ok dict ∧ p'.bounds true = .ok dict' ∧
      ∀ e ∈ dict, "mass_".toList <+: e.1.toList ∨ "decay_rate_".toList <+: e.1.toList → e ∈ dict' := by
  have hw := reachable_wellFormed hp
  have hw' := reachable_wellFormed hp'
  obtain ⟨v, hv⟩ := hw.exists_values
  obtain ⟨v', hv'⟩ := hw'.exists_values
  refine ⟨_, _, bounds_eq hw hv true (fun h => by cases h), bounds_eq hw' hv' true (fun h => by cases h), ?_⟩
  intro e he hn
  obtain ⟨t, ht, rfl⟩ := List.mem_map.mp he
  rw [h]
  refine List.mem_map.mpr ⟨t, ht, ?_⟩
  have hc := handpicked_const p.cls t ht hn
  obtain ⟨n, l, u⟩ := t
  cases l with
  | const q => rfl
  | negInf => exact hc.elim
  | value m => exact hc.elim
  | loc x => exact hc.elim

theorem valueObject_inUnits (k : ℝ) (c : ParamClass) (v : String → ℝ) : (valueObject c v).InUnits k (valueObject c (scaleValues k v)) := by
  refine ⟨rfl, fun n hn => ?_⟩
  rw [(reachable_wellFormed (valueObject_reachable c v)).names] at hn
  rw [valueObject_entry (c := c) hn, valueObject_entry (c := c) hn]
  rfl

end UA
