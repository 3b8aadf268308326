import Verif.Lemmas.KindsUtils
import Verif.Lemmas.UtilsBounds

/-!
# Helper lemmas: the kinds of the values after a fit, and concrete objects
-/

namespace UA.Kinded

open Complex

/-- One parameter without the kind of its value. -/
def plainParameter (q : Parameter (Num ℝ)) : Parameter ℝ := ⟨q.name, q.value.val, q.is_fixed⟩

theorem plain_assignFree (l : List (Parameter (Num ℝ))) (xs : List ℝ) :
    (assignFree l (xs.map fun x => ⟨x, true⟩)).map plainParameter = assignFree (l.map plainParameter) xs := by
  induction l generalizing xs with
  | nil => rfl
  | cons q l ih =>
    cases h : q.is_fixed with
    | true =>
      simp only [assignFree, List.map_cons, h, if_true, ih]
      rw [if_pos (show (plainParameter q).is_fixed = true from h)]
    | false =>
      cases xs with
      | nil => simp [assignFree, h, plainParameter]
      | cons x xs => simp [assignFree, h, plainParameter, ih xs]

theorem plain_update (p : ModelParameters (Num ℝ)) (xs : List ℝ) :
    plain (p.updateFreeValues (xs.map fun x => ⟨x, true⟩)).2 = ((plain p).updateFreeValues xs).2 := by
  rw [updateFreeValues_eq, updateFreeValues_eq]
  have hl : (plain p).getFreeValues.length = p.getFreeValues.length := by
    unfold ModelParameters.getFreeValues
    show ((List.filter _ (p.data.map plainParameter)).map _).length = _
    rw [List.filter_map]
    simp only [List.length_map]
    rfl
  rw [hl, List.length_map]
  by_cases h : p.getFreeValues.length = xs.length
  · rw [if_pos h, if_pos h]
    show (⟨p.cls, p.always_fixed, (assignFree p.data _).map plainParameter⟩ : ModelParameters ℝ) = ⟨p.cls, p.always_fixed, _⟩
    rw [plain_assignFree]
    rfl
  · rw [if_neg h, if_neg h]

theorem assignFree_kind (l : List (Parameter (Num ℝ))) (hl : ∀ q ∈ l, q.value.np = false) (xs : List ℝ)
    (h : (l.filter (!·.is_fixed)).length = xs.length) :
    (assignFree l (xs.map fun x => ⟨x, true⟩)).any (fun q => decide (IsCoupling q.name) && q.value.np) =
      (l.filter (!·.is_fixed)).any fun q => decide (IsCoupling q.name) := by
  induction l generalizing xs with
  | nil => rfl
  | cons q l ih =>
    have hl' : ∀ q ∈ l, q.value.np = false := fun r hr => hl r (List.mem_cons_of_mem _ hr)
    cases hq : q.is_fixed with
    | true =>
      simp only [assignFree, hq, if_true, List.any_cons, hl q List.mem_cons_self, Bool.and_false, Bool.false_or, List.filter_cons,
        Bool.not_true, Bool.false_eq_true, if_false] at h ⊢
      exact ih hl' xs h
    | false =>
      cases xs with
      | nil => simp [hq] at h
      | cons x xs =>
        simp only [List.filter_cons, hq, Bool.not_false, if_true, List.length_cons, Nat.add_right_cancel_iff] at h
        simp only [assignFree, hq, List.map_cons, List.any_cons, List.filter_cons, Bool.not_false, if_true, Bool.and_true,
          Bool.false_eq_true, if_false]
        rw [ih hl' xs h]

theorem update_kind {p : ModelParameters (Num ℝ)} (hp : ∀ q ∈ p.toList, q.value.np = false) {xs : List ℝ}
    (h : p.freeNames.length = xs.length) :
    numpyCoupling (p.updateFreeValues (xs.map fun x => ⟨x, true⟩)).2 = decide (∃ n ∈ p.freeNames, IsCoupling n) := by
  have h' : (p.data.filter (!·.is_fixed)).length = xs.length := by
    rw [← h]; exact (List.length_map _).symm
  rw [updateFreeValues_eq, if_pos (by unfold ModelParameters.getFreeValues; rw [List.length_map, List.length_map]; exact h')]
  refine (assignFree_kind p.data hp xs h').trans ?_
  refine Bool.eq_iff_iff.mpr ?_
  simp only [List.any_eq_true, decide_eq_true_eq, ModelParameters.freeNames, List.mem_map, exists_exists_and_eq_and]
  rfl

theorem update_fixed {p : ModelParameters (Num ℝ)} {xs : List (Num ℝ)} {q : Parameter (Num ℝ)}
    (hq : q ∈ (p.updateFreeValues xs).2.data) (hf : q.is_fixed = true) : q ∈ p.data := by
  rw [updateFreeValues_eq] at hq
  split_ifs at hq
  · have key : ∀ (l : List (Parameter (Num ℝ))) (xs : List (Num ℝ)), q ∈ assignFree l xs → q ∈ l := by
      intro l
      induction l with
      | nil => intro xs h; exact h
      | cons r l ih =>
        intro xs h
        unfold assignFree at h
        split_ifs at h with hr
        · rcases List.mem_cons.mp h with h | h
          · exact h ▸ List.mem_cons_self
          · exact List.mem_cons_of_mem _ (ih _ h)
        · cases xs with
          | nil => exact h
          | cons x xs =>
            rcases List.mem_cons.mp h with h | h
            · rw [h] at hf; exact absurd hf hr
            · exact List.mem_cons_of_mem _ (ih _ h)
    exact key _ _ hq
  · exact hq

/-- An object of any class with the values of `typical`, of given kinds. -/
noncomputable def mixed (c : ParamClass) (kind : String → Bool) : ModelParameters (Num ℝ) :=
  ⟨c, c.table.alwaysFixed, freshData c fun n => ⟨typicalValue 1 n, kind n⟩⟩

theorem mixed_reachable (c : ParamClass) (kind : String → Bool) : Reachable (mixed c kind) :=
  .init (init_eq c (kw := c.table.initArgs.map fun n => (n, ⟨typicalValue 1 n, kind n⟩)) (fun _ hn => lookup_map_self hn) fun p hp => by
    obtain ⟨n, hn, rfl⟩ := List.mem_map.mp hp
    exact hn)

theorem mixed_plain (c : ParamClass) (kind : String → Bool) : plain (mixed c kind) = typical c 1 := by
  unfold plain mixed typical freshData
  simp only [List.map_map]
  rfl

theorem mixed_kind (c : ParamClass) (kind : String → Bool) :
    numpyCoupling (mixed c kind) = c.table.entries.any fun e => decide (IsCoupling e.1) && kind e.1 := by
  unfold numpyCoupling mixed freshData ModelParameters.toList
  simp only [List.any_map]
  rfl

/-- A `TwoPolesModel` object with one mass equal to zero, all values NumPy numbers. -/
noncomputable def zeroMass : ModelParameters (Num ℝ) :=
  ⟨.twoPoles, ParamClass.twoPoles.table.alwaysFixed, freshData .twoPoles fun n => ⟨if n = "m_1" then 0 else 1, true⟩⟩

theorem zeroMass_reachable : Reachable zeroMass :=
  .init (init_eq .twoPoles (kw := ParamClass.twoPoles.table.initArgs.map fun n => (n, ⟨if n = "m_1" then 0 else 1, true⟩))
    (fun _ hn => lookup_map_self hn) fun p hp => by
    obtain ⟨n, hn, rfl⟩ := List.mem_map.mp hp
    exact hn)

theorem zeroMass_values : ∀ q ∈ zeroMass.data, q.value = (fun n => (⟨if n = "m_1" then 0 else 1, true⟩ : Num ℝ)) q.name := by
  intro q hq
  obtain ⟨n, -, rfl⟩ := List.mem_map.mp hq
  rfl

theorem zeroMass_eval (t : ℂ) (b c : Bool) : UA.functionFormFactor [.nucleon t b c] (plain zeroMass) = .error .zeroDivisionError := by
  unfold UA.functionFormFactor
  rw [(getFF_twoPoles (v := fun n => ⟨if n = "m_1" then 0 else 1, true⟩) (reachable_wellFormed zeroMass_reachable) zeroMass_values rfl).2]
  simp [UA.nucleonLoop, readDatapointNucleon, UA.TwoPolesModel.init, UA.TwoPolesModel.call, UA.pyDiv]

theorem noFormFactorLoop_of (ts : List Datapoint) : noFormFactorLoop ts = outcome false (UA.noFormFactorLoop ts) := by
  cases ts with
  | nil => rfl
  | cons d ts =>
    unfold noFormFactorLoop UA.noFormFactorLoop
    simp only
    cases readDatapointNucleon d <;> rfl

/-- An object free in one mass only, with Python values. -/
noncomputable def oneMassPy : ModelParameters (Num ℝ) :=
  ((ParamOp.releaseParameters ["mass_phi_prime"]).run (ParamOp.fixAll.run (mixed .kaonB fun _ => false)).2).2

theorem oneMassPy_data : oneMassPy.data = (mixed .kaonB fun _ => false).data.map fun q =>
    ⟨q.name, q.value, decide (q.name ≠ "mass_phi_prime")⟩ := rfl

end UA.Kinded
