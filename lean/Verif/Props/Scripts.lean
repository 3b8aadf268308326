import Verif.Lemmas.Scripts
import Verif.Lemmas.PipelinesData
import Verif.Lemmas.TasksWitness
import Verif.Props.EndToEnd
import Verif.Props.OtherModels

/-!
# Properties C72 to C77: the functions of the scripts
-/

namespace UA

open Complex

/-! ### C72 -/

/-- **C72** the table of deviations exists exactly when the cross section of every point can be computed from the given parameters
(with the flags they had) and no error within the table is zero. It is as long as the shortest of the three lists, and row `i`
consists of the `i`-th `t`, error and value, the cross section of that point alone and the deviation in units of the error. -/
theorem C72_table {w : World} {ref : ℕ} {p : ModelParameters ℝ} (h : w.heap[ref]? = some p) (hp : Reachable p)
    (ts css errors : List ℝ) (charged : Bool) (m α hc2 : ℝ) (rows : List (ℝ × ℝ × ℝ × ℝ × ℝ)) :
    (calculateDeviationsFromFit ref ts css errors charged m α hc2 w).1 = .ok rows ↔
      ∃ σ : List ℝ, functionCrossSection [] m α hc2 p = .ok [] ∧
        List.Forall₂ (fun (t : ℝ) s => functionCrossSection [.kaon t charged] m α hc2 p = .ok [s]) ts σ ∧
        rows.length = min ts.length (min errors.length css.length) ∧
        ∀ i < rows.length, ∃ t error cs s, ts[i]? = some t ∧ errors[i]? = some error ∧ css[i]? = some cs ∧ σ[i]? = some s ∧ error ≠ 0 ∧
          rows[i]? = some (t, error, cs, s, |cs - s| / error) := by
  rw [deviations_run h hp]
  dsimp only
  rw [except_bind_eq_ok]
  have h51 := fun σ => (C51_pointwise hp (.crossSection m α hc2) (ts := ts.map fun t : ℝ => Datapoint.kaon (t : ℂ) charged) (rs := σ)).1
  simp only [PartialKind.eval, List.forall₂_map_left_iff] at h51
  refine exists_congr fun σ => ?_
  rw [h51 σ, and_assoc]
  refine and_congr_right fun _ => and_congr_right fun hσ => ?_
  have hlen := hσ.length_eq
  rw [mapM_map_of (C := fun x => x.2.1 ≠ 0) (fun x _ b => deviationRow_ok x b)]
  constructor
  · rintro ⟨h1, rfl⟩
    have hl : (zip4 ts errors css σ).length = min ts.length (min errors.length css.length) := by rw [zip4_length]; omega
    refine ⟨by rw [List.length_map, hl], ?_⟩
    intro i hi
    rw [List.length_map] at hi
    obtain ⟨x, hx⟩ : ∃ x, (zip4 ts errors css σ)[i]? = some x := ⟨_, List.getElem?_eq_getElem hi⟩
    obtain ⟨a1, a2, a3, a4⟩ := (zip4_getElem? _ _ _ _ _ _).mp hx
    exact ⟨_, _, _, _, a1, a2, a3, a4, h1 x (List.mem_of_getElem? hx), by rw [List.getElem?_map, hx]; rfl⟩
  · rintro ⟨h1, h2⟩
    have hl : rows.length = (zip4 ts errors css σ).length := by rw [h1, zip4_length]; omega
    constructor
    · intro x hx
      obtain ⟨i, hi⟩ := List.mem_iff_getElem?.mp hx
      obtain ⟨a1, a2, a3, a4⟩ := (zip4_getElem? _ _ _ _ _ _).mp hi
      obtain ⟨t, e, c, s, b1, b2, b3, b4, b5, b6⟩ := h2 i (by rw [hl]; exact (List.getElem?_eq_some_iff.mp hi).1)
      rw [a2] at b2
      injection b2 with b2
      rw [b2]; exact b5
    · apply List.ext_getElem?
      intro i
      by_cases hi : i < rows.length
      · obtain ⟨t, e, c, s, b1, b2, b3, b4, b5, b6⟩ := h2 i hi
        have : (zip4 ts errors css σ)[i]? = some (t, e, c, s) := (zip4_getElem? _ _ _ _ _ _).mpr ⟨b1, b2, b3, b4⟩
        rw [b6, List.getElem?_map, this]
        rfl
      · rw [List.getElem?_eq_none (by omega), List.getElem?_eq_none (by rw [List.length_map]; omega)]

/-- **C72** if all cross sections can be computed, the only exception is `ZeroDivisionError`, and then some error in the table is zero. -/
theorem C72_errors {w : World} {ref : ℕ} {p : ModelParameters ℝ} (h : w.heap[ref]? = some p) (hp : Reachable p)
    (ts css errors : List ℝ) (charged : Bool) (m α hc2 : ℝ) {e : PyErr}
    (he : (calculateDeviationsFromFit ref ts css errors charged m α hc2 w).1 = .error e) :
    functionCrossSection (ts.map fun t : ℝ => .kaon t charged) m α hc2 p = .error e ∨
      (e = .zeroDivisionError ∧ ∃ i < ts.length, i < css.length ∧ errors[i]? = some 0) := by
  rw [deviations_run h hp] at he
  dsimp only at he
  rcases hb : functionCrossSection (ts.map fun t : ℝ => .kaon t charged) m α hc2 p with e' | σ
  · rw [hb] at he
    injection he with he
    subst he
    exact .inl rfl
  · rw [hb, except_ok_bind] at he
    obtain ⟨x, hx, hxe⟩ := mapM_eq_error he
    obtain ⟨i, hi⟩ := List.mem_iff_getElem?.mp hx
    obtain ⟨a1, a2, a3, a4⟩ := (zip4_getElem? _ _ _ _ _ _).mp hi
    obtain ⟨h1, h2⟩ := deviationRow_error hxe
    rw [h1] at a2
    exact .inr ⟨h2, i, (List.getElem?_eq_some_iff.mp a1).1, (List.getElem?_eq_some_iff.mp a3).1, a2⟩

/-- **C72** whatever the result, afterwards the object has its values and all its parameters are fixed; no other object and no file
has changed. -/
theorem C72_state {w : World} {ref : ℕ} {p : ModelParameters ℝ} (h : w.heap[ref]? = some p) (hp : Reachable p)
    (ts css errors : List ℝ) (charged : Bool) (m α hc2 : ℝ) :
    let w₁ := (calculateDeviationsFromFit ref ts css errors charged m α hc2 w).2
    (∃ q, w₁.heap[ref]? = some q ∧ q.cls = p.cls ∧ q.toList = p.toList.map fun r => ⟨r.name, r.value, true⟩) ∧
    (∀ i, i ≠ ref → i < w.heap.length → w₁.heap[i]? = w.heap[i]?) ∧ w₁.fs = w.fs ∧ w₁.stdout = w.stdout := by
  rw [deviations_run h hp]
  have hl := heap_set_append h
  refine ⟨⟨p.fixAllParameters, ?_, rfl, rfl⟩, ?_, rfl, rfl⟩
  · show (w.heap.set ref p.fixAllParameters ++ [p.fixAllParameters])[ref]? = _
    rw [List.getElem?_append_left (by simpa using hl), List.getElem?_set_self hl]
  · intro i hi hil
    show (w.heap.set ref p.fixAllParameters ++ [p.fixAllParameters])[i]? = _
    rw [List.getElem?_append_left (by simpa using hil), List.getElem?_set_ne hi.symm]

/-- Non-trivial instance: a charged kaon model with masses 2, widths 1, thresholds 1 and 2, and two points; the table has two rows. -/
example : ∃ rows, (calculateDeviationsFromFit 0 [1, 3] [5, 6] [1, 2] true 1 1 1 (startWorld [typical .kaonB 1])).1 = .ok rows ∧ rows.length = 2 := by
  have hr := typical_reachable .kaonB 1
  have hi := typical_insideMaximal .kaonB trivial one_pos
  have hv := typical_values .kaonB 1
  have htin : ∀ q ∈ (typical .kaonB 1).toList, "t_in_".toList <+: q.name.toList → q.value = 2 := by
    intro q hq hn
    rw [hv q hq]
    unfold typicalValue
    rw [if_neg, if_pos hn]
    exact fun h0 => absurd ((List.prefix_of_prefix_length_le h0 hn (by decide))) (by decide)
  obtain ⟨σ, hσ⟩ := (C80_cross_sections hr trivial hi (points := [(1, true), (3, true)]) (by intro d hd; fin_cases hd <;> norm_num) 1 1 1).1.mpr (by
    intro d hd
    fin_cases hd <;> refine ⟨by norm_num, ?_⟩ <;> rintro ⟨q, hq, hn, he⟩ <;> rw [htin q hq hn] at he <;> norm_num at he)
  have h51 := (C51_pointwise hr (.crossSection 1 1 1)).1.mp hσ
  simp only [List.map_cons, List.map_nil] at h51
  obtain ⟨hnil, hF⟩ := h51
  cases hF with | cons h1 hF => cases hF with | cons h2 hF => cases hF with | nil =>
  rename_i s₁ s₂
  refine ⟨[(1, 1, 5, s₁, |5 - s₁| / 1), (3, 2, 6, s₂, |6 - s₂| / 2)],
    (C72_table (w := startWorld [typical .kaonB 1]) rfl hr [1, 3] [5, 6] [1, 2] true 1 1 1 _).mpr
      ⟨[s₁, s₂], hnil, .cons h1 (.cons h2 .nil), rfl, ?_⟩, rfl⟩
  intro i hi
  match i, hi with
  | 0, _ => exact ⟨1, 1, 5, s₁, rfl, rfl, rfl, rfl, one_ne_zero, rfl⟩
  | 1, _ => exact ⟨3, 2, 6, s₂, rfl, rfl, rfl, rfl, two_ne_zero, rfl⟩

/-! ### C73 -/

/-- **C73** the flag of a point does not matter, nor does it matter whether a point is a named tuple or a row. -/
theorem C73_flag_irrelevant (m α hc2 a mass decay t_0 t_in : ℝ) (l : List (ℂ × Bool × Bool)) :
    singleComponentCrossSection m α hc2 a mass decay t_0 t_in (l.map fun x => .kaon x.1 x.2.1) =
      singleComponentCrossSection m α hc2 a mass decay t_0 t_in (l.map fun x => .kaon x.1 x.2.2) ∧
    singleComponentCrossSection m α hc2 a mass decay t_0 t_in (l.map fun x => .kaon x.1 x.2.1) =
      singleComponentCrossSection m α hc2 a mass decay t_0 t_in (l.map fun x => .row [x.1, if x.2.2 then 1 else 0]) := by
  have e1 := fun cs ff => singleComponentLoop_kaon cs ff (l.map fun x => (x.1, x.2.1))
  have e2 := fun cs ff => singleComponentLoop_kaon cs ff (l.map fun x => (x.1, x.2.2))
  have e3 := fun cs ff => singleComponentLoop_row cs ff (l.map fun x => (x.1, x.2.2))
  simp only [List.map_map, Function.comp_def] at e1 e2 e3
  unfold singleComponentCrossSection
  simp only [e1, e2, e3, and_self]

/-- **C73** at real positive `t` at or above the production threshold where the form factor can be evaluated, every result is the textbook cross
section with the form factor of the single component: real, not negative, zero only at the production threshold or where the form
factor vanishes. -/
theorem C73_value (m α hc2 a mass decay t_0 t_in : ℝ) (hh : 0 < hc2) (hα : α ≠ 0) (model : SingleComponentModel)
    (hm : SingleComponentModel.init t_0 t_in a mass decay = .ok model) (l : List (ℝ × Bool)) (F : ℝ → ℂ)
    (hl : ∀ x ∈ l, 0 < x.1 ∧ 4 * m ^ 2 ≤ x.1 ∧ model.call x.1 = .ok (F x.1)) :
    ∃ ys : List ℝ, singleComponentCrossSection m α hc2 a mass decay t_0 t_in (l.map fun x => .kaon x.1 x.2) = .ok (ys.map fun y : ℝ => (y : ℂ)) ∧
      List.Forall₂ (fun x y => y = scalarSigma m α hc2 x.1 ‖F x.1‖ ∧ 0 ≤ y ∧ (y = 0 ↔ x.1 = 4 * m ^ 2 ∨ F x.1 = 0)) l ys := by
  refine ⟨l.map fun x => scalarSigma m α hc2 x.1 ‖F x.1‖, ?_, ?_⟩
  · have e1 := fun cs ff => singleComponentLoop_kaon cs ff (l.map fun x => ((x.1 : ℂ), x.2))
    simp only [List.map_map, Function.comp_def] at e1
    unfold singleComponentCrossSection
    rw [hm, except_ok_bind, e1]
    rw [mapM_eq_ok, List.forall₂_map_left_iff, List.map_map, List.forall₂_map_right_iff, List.forall₂_same]
    intro x hx
    obtain ⟨h1, h2, h3⟩ := hl x hx
    exact C30_scalar_cross_section m α hc2 _ x.1 (F x.1) h3 h1 h2
  · rw [List.forall₂_map_right_iff, List.forall₂_same]
    intro x hx
    obtain ⟨h1, h2, h3⟩ := hl x hx
    have h4 := C30_scalar_cross_section m α hc2 _ x.1 (F x.1) h3 h1 h2
    obtain ⟨-, b, c⟩ := C30_sign m α hc2 hh hα _ x.1 (F x.1) _ h3 h1 h2 h4
    exact ⟨rfl, by simpa using b, by rw [← c]; norm_cast⟩

/-- Non-trivial instance: mass 3/2, width 1/10, thresholds 1 and 2, production threshold 1, evaluated on it and above. -/
example : ∃ model, ∃ F : ℝ → ℂ, SingleComponentModel.init 1 2 7 (3/2) (1/10) = .ok model ∧
    ∀ x ∈ [((1 : ℝ), true), (3, false)], 0 < x.1 ∧ 4 * (1/2 : ℝ) ^ 2 ≤ x.1 ∧ model.call x.1 = .ok (F x.1) := by
  obtain ⟨c, h, _⟩ := (C12_thresholds 1 2 (3/2) (1/10) (by norm_num) (by norm_num)).2.2.2.mpr ⟨by norm_num, by norm_num⟩
  have h1 := TtoW_init_ok (t_0 := 1) (t_in := 2) (by norm_num) (by norm_num)
  have hm : ∃ m, SingleComponentModel.init 1 2 7 (3/2) (1/10) = .ok m ∧ m.component = c :=
    ⟨_, by unfold SingleComponentModel.init; rw [h1, except_ok_bind, h, except_ok_bind]; rfl, rfl⟩
  obtain ⟨m, hm, rfl⟩ := hm
  have key : ∀ t : ℝ, 0 ≤ t → t ≠ 2 → ∃ y, m.call t = .ok y := by
    intro t ht ht2
    obtain ⟨y, hy⟩ := C14_real_defined .massSquared 1 2 (3/2) (1/10) (by norm_num) (by norm_num) _ h (by norm_num) (by norm_num) t ht2
    exact ⟨7 * y, by rw [(C27_single_domain 1 2 7 (3/2) (1/10) (by norm_num) m hm t).2 (by simpa using ht), hy]; push_cast; rfl⟩
  obtain ⟨y₁, hy₁⟩ := key 1 (by norm_num) (by norm_num)
  obtain ⟨y₃, hy₃⟩ := key 3 (by norm_num) (by norm_num)
  refine ⟨m, fun t => if t = 1 then y₁ else y₃, hm, ?_⟩
  intro x hx
  fin_cases hx
  · exact ⟨by norm_num, by norm_num, by dsimp only; rw [if_pos rfl]; exact hy₁⟩
  · exact ⟨by norm_num, by norm_num, by dsimp only; rw [if_neg (by norm_num)]; exact hy₃⟩

/-! ### C74 -/

/-- **C74** (cross sections) the figure has two panels, the upper one with the charged, the lower one with the neutral points: every
point in exactly one of them, in the order of the data, with its own value, error and fit. Further numbers in the lists are
ignored. -/
theorem C74_cross_sections {σ : Type} (l : List ((ℂ × Bool) × ℝ × ℝ × ℝ)) (css errors fit : List ℝ) (f : List Datapoint → PyM σ (List ℝ)) (s s' : σ)
    (title : String) (hf : f (l.map fun x => .kaon x.1.1 x.1.2) s = (.ok fit, s'))
    (h1 : l.map (·.2.1) <+: css) (h2 : l.map (·.2.2.1) <+: errors) (h3 : l.map (·.2.2.2) <+: fit) :
    plotCSNeutralPlusCharged (l.map fun x => .kaon x.1.1 x.1.2) css errors f title s =
      (.ok [⟨title ++ ": Charged", columnsOf (fun b => b.1) (l.filter fun x => x.1.2)⟩,
        ⟨title ++ ": Neutral", columnsOf (fun b => b.1) (l.filter fun x => !x.1.2)⟩], s') := by
  unfold plotCSNeutralPlusCharged
  rw [PyM.bind_ok hf, splitLoop_all (point := fun b : ℂ × Bool => .kaon b.1 b.2) (tOf := fun b => b.1) (flagOf := fun b => b.2)
    (fun _ => rfl) (fun _ => rfl) l h1 h2 h3]
  rfl

/-- **C74** (form factors) only the kinds that occur have a panel; with both, the charged (electric) points are in the lower one.
Without points there is no figure. -/
theorem C74_form_factors {σ : Type} (l : List ((ℂ × Bool) × ℝ × ℝ × ℝ)) (ffs errors fit : List ℝ) (f : List Datapoint → PyM σ (List ℝ)) (s s' : σ)
    (title : String) (hf : f (l.map fun x => .kaon x.1.1 x.1.2) s = (.ok fit, s'))
    (h1 : l.map (·.2.1) <+: ffs) (h2 : l.map (·.2.2.1) <+: errors) (h3 : l.map (·.2.2.2) <+: fit) :
    let charged := l.filter fun x => x.1.2
    let neutral := l.filter fun x => !x.1.2
    let run := plotFFNeutralPlusCharged (l.map fun x => .kaon x.1.1 x.1.2) ffs errors f title s
    let panelC : Panel := ⟨title ++ ": Charged", columnsOf (fun b => b.1) charged⟩
    let panelN : Panel := ⟨title ++ ": Neutral", columnsOf (fun b => b.1) neutral⟩
    (l = [] → run = (.error .valueError, s')) ∧
    (charged ≠ [] → neutral = [] → run = (.ok [panelC], s')) ∧
    (charged = [] → neutral ≠ [] → run = (.ok [panelN], s')) ∧
    (charged ≠ [] → neutral ≠ [] → run = (.ok [panelN, panelC], s')) := by
  intro charged neutral run panelC panelN
  have hrun : run = (panelsFor (title ++ ": Charged", title ++ ": Neutral") (panelC.columns, panelN.columns), s') := by
    show plotFFNeutralPlusCharged _ _ _ _ _ _ = _
    unfold plotFFNeutralPlusCharged
    rw [PyM.bind_ok hf, splitLoop_all (point := fun b : ℂ × Bool => .kaon b.1 b.2) (tOf := fun b => b.1) (flagOf := fun b => b.2)
      (fun _ => rfl) (fun _ => rfl) l h1 h2 h3]
    rfl
  have hc : panelC.columns.ts.isEmpty = charged.isEmpty := List.isEmpty_map ..
  have hn : panelN.columns.ts.isEmpty = neutral.isEmpty := List.isEmpty_map ..
  rw [hrun]
  unfold panelsFor
  dsimp only
  rw [hc, hn]
  refine ⟨?_, ?_, ?_, ?_⟩
  · intro h
    have e1 : charged = [] := by show l.filter _ = _; rw [h]; rfl
    have e2 : neutral = [] := by show l.filter _ = _; rw [h]; rfl
    rw [e1, e2]; rfl
  · intro e1 e2
    rw [e2, List.isEmpty_eq_false_iff.mpr e1]; rfl
  · intro e1 e2
    rw [e1, List.isEmpty_eq_false_iff.mpr e2]; rfl
  · intro e1 e2
    rw [List.isEmpty_eq_false_iff.mpr e1, List.isEmpty_eq_false_iff.mpr e2]; rfl

/-- **C74** (nucleons) the same with electric and magnetic points, whatever the particle. -/
theorem C74_electric_magnetic {σ : Type} (l : List ((ℂ × Bool × Bool) × ℝ × ℝ × ℝ)) (ffs errors fit : List ℝ) (f : List Datapoint → PyM σ (List ℝ))
    (s s' : σ) (title : String) (hf : f (l.map fun x => .nucleon x.1.1 x.1.2.1 x.1.2.2) s = (.ok fit, s'))
    (h1 : l.map (·.2.1) <+: ffs) (h2 : l.map (·.2.2.1) <+: errors) (h3 : l.map (·.2.2.2) <+: fit) :
    let electric := l.filter fun x => x.1.2.2
    let magnetic := l.filter fun x => !x.1.2.2
    let run := plotFFElectricPlusMagnetic (l.map fun x => .nucleon x.1.1 x.1.2.1 x.1.2.2) ffs errors f title s
    let panelE : Panel := ⟨title ++ ": Electric FF", columnsOf (fun b => b.1) electric⟩
    let panelM : Panel := ⟨title ++ ": Magnetic FF", columnsOf (fun b => b.1) magnetic⟩
    (l = [] → run = (.error .valueError, s')) ∧
    (electric ≠ [] → magnetic = [] → run = (.ok [panelE], s')) ∧
    (electric = [] → magnetic ≠ [] → run = (.ok [panelM], s')) ∧
    (electric ≠ [] → magnetic ≠ [] → run = (.ok [panelM, panelE], s')) := by
  intro electric magnetic run panelE panelM
  have hrun : run = (panelsFor (title ++ ": Electric FF", title ++ ": Magnetic FF") (panelE.columns, panelM.columns), s') := by
    show plotFFElectricPlusMagnetic _ _ _ _ _ _ = _
    unfold plotFFElectricPlusMagnetic
    rw [PyM.bind_ok hf, splitLoop_all (point := fun b : ℂ × Bool × Bool => .nucleon b.1 b.2.1 b.2.2) (tOf := fun b => b.1)
      (flagOf := fun b => b.2.2) (fun _ => rfl) (fun _ => rfl) l h1 h2 h3]
    rfl
  have hc : panelE.columns.ts.isEmpty = electric.isEmpty := List.isEmpty_map ..
  have hn : panelM.columns.ts.isEmpty = magnetic.isEmpty := List.isEmpty_map ..
  rw [hrun]
  unfold panelsFor
  dsimp only
  rw [hc, hn]
  refine ⟨?_, ?_, ?_, ?_⟩
  · intro h
    have e1 : electric = [] := by show l.filter _ = _; rw [h]; rfl
    have e2 : magnetic = [] := by show l.filter _ = _; rw [h]; rfl
    rw [e1, e2]; rfl
  · intro e1 e2
    rw [e2, List.isEmpty_eq_false_iff.mpr e1]; rfl
  · intro e1 e2
    rw [e1, List.isEmpty_eq_false_iff.mpr e2]; rfl
  · intro e1 e2
    rw [List.isEmpty_eq_false_iff.mpr e1, List.isEmpty_eq_false_iff.mpr e2]; rfl

/-- **C74** too few values, errors or fitted values for the points: `IndexError` in all three functions. -/
theorem C74_short {σ : Type} (f : List Datapoint → PyM σ (List ℝ)) (s s' : σ) (title : String) (ys errors fit : List ℝ) :
    (∀ bs : List (ℂ × Bool), f (bs.map fun b => .kaon b.1 b.2) s = (.ok fit, s') →
      ys.length < bs.length ∨ errors.length < bs.length ∨ fit.length < bs.length →
      plotCSNeutralPlusCharged (bs.map fun b => .kaon b.1 b.2) ys errors f title s = (.error .indexError, s') ∧
      plotFFNeutralPlusCharged (bs.map fun b => .kaon b.1 b.2) ys errors f title s = (.error .indexError, s')) ∧
    (∀ bs : List (ℂ × Bool × Bool), f (bs.map fun b => .nucleon b.1 b.2.1 b.2.2) s = (.ok fit, s') →
      ys.length < bs.length ∨ errors.length < bs.length ∨ fit.length < bs.length →
      plotFFElectricPlusMagnetic (bs.map fun b => .nucleon b.1 b.2.1 b.2.2) ys errors f title s = (.error .indexError, s')) := by
  constructor
  · intro bs hf hs
    have := splitLoop_short (point := fun b : ℂ × Bool => .kaon b.1 b.2) (tOf := fun b => b.1) (flagOf := fun b => b.2)
      (flag := Datapoint.attrIsCharged) (fun _ => rfl) (fun _ => rfl) (bs := bs) (ys := ys) (errors := errors) (fit := fit)
      (List.range (bs.map fun b => Datapoint.kaon b.1 b.2).length) (fun i hi => by simpa using hi)
      (by
        simp only [List.length_map, List.mem_range]
        rcases hs with hs | hs | hs
        · exact ⟨_, hs, .inl le_rfl⟩
        · exact ⟨_, hs, .inr (.inl le_rfl)⟩
        · exact ⟨_, hs, .inr (.inr le_rfl)⟩)
      (⟨[], [], [], []⟩, ⟨[], [], [], []⟩)
    constructor
    · unfold plotCSNeutralPlusCharged
      rw [PyM.bind_ok hf, this]; rfl
    · unfold plotFFNeutralPlusCharged
      rw [PyM.bind_ok hf, this]; rfl
  · intro bs hf hs
    have := splitLoop_short (point := fun b : ℂ × Bool × Bool => .nucleon b.1 b.2.1 b.2.2) (tOf := fun b => b.1) (flagOf := fun b => b.2.2)
      (flag := Datapoint.attrElectric) (fun _ => rfl) (fun _ => rfl) (bs := bs) (ys := ys) (errors := errors) (fit := fit)
      (List.range (bs.map fun b => Datapoint.nucleon b.1 b.2.1 b.2.2).length) (fun i hi => by simpa using hi)
      (by
        simp only [List.length_map, List.mem_range]
        rcases hs with hs | hs | hs
        · exact ⟨_, hs, .inl le_rfl⟩
        · exact ⟨_, hs, .inr (.inl le_rfl)⟩
        · exact ⟨_, hs, .inr (.inr le_rfl)⟩)
      (⟨[], [], [], []⟩, ⟨[], [], [], []⟩)
    unfold plotFFElectricPlusMagnetic
    rw [PyM.bind_ok hf, this]; rfl

/-- Non-trivial instance: three kaon points, two charged ones around a neutral one; the neutral panel is above the charged one. -/
example : plotFFNeutralPlusCharged (σ := Unit) [.kaon 1 true, .kaon 2 false, .kaon 3 true] [10, 20, 30] [1, 2, 3] (fun _ s => (.ok [11, 21, 31], s))
    "Fit" () = (.ok [⟨"Fit: Neutral", ⟨[2], [20], [2], [21]⟩⟩, ⟨"Fit: Charged", ⟨[1, 3], [10, 30], [1, 3], [11, 31]⟩⟩], ()) := by
  have := (C74_form_factors (σ := Unit) [((1, true), 10, 1, 11), ((2, false), 20, 2, 21), ((3, true), 30, 3, 31)] [10, 20, 30] [1, 2, 3] [11, 21, 31]
    (fun _ s => (.ok [11, 21, 31], s)) () () "Fit" rfl (List.prefix_refl _) (List.prefix_refl _) (List.prefix_refl _)).2.2.2
    (by simp) (by simp)
  simpa [columnsOf] using this

/-- And the points of a nucleon, with a list of values that is too short. -/
example : plotFFElectricPlusMagnetic (σ := Unit) [.nucleon 1 true true, .nucleon 2 true false] [10] [1, 2] (fun _ s => (.ok [11, 21], s)) "Fit" () =
    (.error .indexError, ()) :=
  (C74_short (fun _ s => (.ok [11, 21], s)) () () "Fit" [10] [1, 2] [11, 21]).2 [(1, true, true), (2, true, false)] rfl (Or.inl (by simp))

/-! ### C75 -/

/-- **C75** a file is read exactly when every row has three entries and all are numbers; the three lists are the columns, in the order
of the rows. -/
theorem C75_read (float : String → Except PyErr ℝ) (rows : List (List String)) (xs ys errs : List ℝ) :
    readData float rows = .ok (xs, ys, errs) ↔ ∃ l : List (ℝ × ℝ × ℝ),
      List.Forall₂ (fun row x => ∃ a b c, row = [a, b, c] ∧ float a = .ok x.1 ∧ float b = .ok x.2.1 ∧ float c = .ok x.2.2) rows l ∧
      xs = l.map (·.1) ∧ ys = l.map (·.2.1) ∧ errs = l.map (·.2.2) := by
  unfold readData
  rw [readDataLoop_ok]
  simp only [List.nil_append, Prod.mk.injEq]

/-- **C75** otherwise the exception is that of the first bad row: `ValueError` if it has not three entries, else that of a conversion. -/
theorem C75_errors (float : String → Except PyErr ℝ) (rows : List (List String)) (e : PyErr) (h : readData float rows = .error e) :
    ∃ before row after, rows = before ++ row :: after ∧ (∃ r, readData float before = .ok r) ∧
      (row.length ≠ 3 ∧ e = .valueError ∨ row.length = 3 ∧ ∃ a ∈ row, float a = .error e) :=
  readDataLoop_error float rows _ e h

/-- Non-trivial instance: two rows; a third one with two entries is refused. -/
example : (∀ float : String → Except PyErr ℝ, float "1" = .ok 1 → float "2" = .ok 2 → float "3" = .ok 3 →
    readData float [["1", "2", "3"], ["2", "3", "1"]] = .ok ([1, 2], [2, 3], [3, 1])) := by
  intro float h1 h2 h3
  exact (C75_read _ _ _ _ _).mpr ⟨[(1, 2, 3), (2, 3, 1)], .cons ⟨_, _, _, rfl, h1, h2, h3⟩ (.cons ⟨_, _, _, rfl, h2, h3, h1⟩ .nil), rfl, rfl, rfl⟩

/-! ### C76 -/

/-- **C76** for lines of the expected form (`l` are the lines with their names and data): if the report is made, every line could be
evaluated, and with `values` the names and evaluated values of the lines, the report has each name once with the value of its last
line, and nothing else; it is sorted by the values as texts, equal values in the order in which the names first appear. -/
theorem C76_report (eval : String → Except PyErr (Option String)) (l : List (String × String × String))
    (hl : ∀ x ∈ l, IsReportLine x.1 x.2.1 x.2.2) (out : List (String × Option String))
    (h : parserReport eval (l.map (·.1)) = .ok out) :
    ∃ values : List (String × Option String), List.Forall₂ (fun x v => v.1 = x.2.1 ∧ eval x.2.2 = .ok v.2) l values ∧
      (out.map (·.1)).Nodup ∧ (∀ name value, (name, value) ∈ out ↔ LastValue values name value) ∧
      out.Pairwise fun a b => ∃ x y, a.2 = some x ∧ b.2 = some y ∧
        (x < y ∨ x = y ∧ (l.map (·.2.1)).idxOf a.1 < (l.map (·.2.1)).idxOf b.1) := by
  unfold parserReport at h
  have hfold := report_fold eval l (fun x hx d => reportLine_of (hl x hx) d) []
  rw [show pyDict ([] : List (String × Option String)) = [] from rfl] at hfold
  rw [hfold] at h
  obtain ⟨D, hD, h⟩ := except_bind_eq_ok.mp h
  obtain ⟨values, hv, hD⟩ := except_bind_eq_ok.mp hD
  injection hD with hD
  rw [List.nil_append] at hD
  have hvf : List.Forall₂ (fun (x : String × String × String) (v : String × Option String) => v.1 = x.2.1 ∧ eval x.2.2 = .ok v.2) l values := by
    refine (mapM_eq_ok.mp hv).imp ?_
    intro x v hx
    obtain ⟨value, h1, h2⟩ := except_bind_eq_ok.mp hx
    injection h2 with h2
    subst h2
    exact ⟨rfl, h1⟩
  have hnames : l.map (·.2.1) = values.map Prod.fst := by
    have : List.Forall₂ (· = ·) (l.map (·.2.1)) (values.map Prod.fst) := by
      rw [List.forall₂_map_left_iff, List.forall₂_map_right_iff]
      exact hvf.imp fun _ _ h => h.1.symm
    exact List.forall₂_eq_eq_eq ▸ this
  obtain ⟨-, hkeys⟩ := keys_pyDict values
  rw [← hnames, hD] at hkeys
  unfold sortChi at h
  split at h
  · cases h
  next hno =>
  injection h with h
  obtain ⟨s1, s2, s3⟩ := mergeSort_key (fun a : String × Option String => a.2.getD "") D
  rw [h] at s1 s2 s3
  refine ⟨values, hvf, ?_, ?_, ?_⟩
  · refine (s1.map Prod.fst).nodup_iff.mpr ?_
    rw [List.Nodup, List.pairwise_map]
    refine hkeys.imp fun {a b} hab he => ?_
    rw [he] at hab
    exact lt_irrefl _ hab
  · intro name value
    rw [s1.mem_iff, ← hD, mem_pyDict]
    rfl
  · have hp := pairwise_of_stable (R := fun a b => (l.map (·.2.1)).idxOf a.1 < (l.map (·.2.1)).idxOf b.1) s2
      (fun t => by rw [s3]; exact hkeys.sublist List.filter_sublist)
    have hsome : 2 ≤ out.length → ∀ a ∈ out, ∃ x, a.2 = some x := by
      intro h2 a ha
      by_contra hnone
      apply hno
      refine ⟨by rw [← s1.length_eq]; exact h2, ?_⟩
      rw [List.any_eq_true]
      refine ⟨a, s1.mem_iff.mp ha, ?_⟩
      rw [Option.isNone_iff_eq_none]
      by_contra hx
      exact hnone (Option.ne_none_iff_exists'.mp hx)
    have hlen : ∀ a b, [a, b].Sublist out → 2 ≤ out.length := fun a b hs => hs.length_le
    rw [List.pairwise_iff_forall_sublist] at hp ⊢
    intro a b hab
    obtain ⟨x, hx⟩ := hsome (hlen a b hab) a (hab.subset (by simp))
    obtain ⟨y, hy⟩ := hsome (hlen a b hab) b (hab.subset (by simp))
    have := hp hab
    rw [hx, hy] at this
    exact ⟨x, y, hx, hy, this⟩

/-- **C76** it is made exactly when every line can be evaluated and no fit without `chi_squared` (`None`) is left beside another one; in
the latter case `TypeError`. A line with fewer than two colons has no data, so if the empty text cannot be evaluated (Python's
`SyntaxError`) the report fails. -/
theorem C76_made (eval : String → Except PyErr (Option String)) (l : List (String × String × String))
    (hl : ∀ x ∈ l, IsReportLine x.1 x.2.1 x.2.2) :
    (∀ values : List (String × Option String), List.Forall₂ (fun x v => v.1 = x.2.1 ∧ eval x.2.2 = .ok v.2) l values →
      ((∃ out, parserReport eval (l.map (·.1)) = .ok out) ↔
        ¬ ∃ n n', n ≠ n' ∧ LastValue values n none ∧ ∃ v, LastValue values n' v) ∧
      ((∃ n n', n ≠ n' ∧ LastValue values n none ∧ ∃ v, LastValue values n' v) → parserReport eval (l.map (·.1)) = .error .typeError)) ∧
    (∀ x ∈ l, ∀ e, eval x.2.2 = .error e → ∃ e', parserReport eval (l.map (·.1)) = .error e') ∧
    (∀ lines : List String, ∀ e, eval "" = .error e → (∃ line ∈ lines, line.toList.count ':' < 2) → ∃ e', parserReport eval lines = .error e') := by
  have hfold := report_fold eval l (fun x hx d => reportLine_of (hl x hx) d) []
  rw [show pyDict ([] : List (String × Option String)) = [] from rfl] at hfold
  refine ⟨?_, ?_, ?_⟩
  · intro values hv
    have hm : l.mapM (fun x => do let value ← eval x.2.2; return (x.2.1, value)) = .ok values := by
      rw [mapM_eq_ok]
      refine hv.imp ?_
      rintro x ⟨n, v⟩ ⟨h1, h2⟩
      rw [h2]
      dsimp only at h1
      rw [h1]; rfl
    have hrun : parserReport eval (l.map (·.1)) = sortChi (pyDict values) := by
      unfold parserReport
      rw [hfold, hm]
      rfl
    have hcond : (2 ≤ (pyDict values).length ∧ (pyDict values).any (·.2.isNone) = true) ↔
        ∃ n n', n ≠ n' ∧ LastValue values n none ∧ ∃ v, LastValue values n' v := by
      obtain ⟨-, hkeys⟩ := keys_pyDict values
      constructor
      · rintro ⟨h2, hn⟩
        obtain ⟨⟨n, v⟩, hq, hqn⟩ := List.any_eq_true.mp hn
        have hv' : v = none := Option.isNone_iff_eq_none.mp hqn
        subst hv'
        obtain ⟨before, after, hD⟩ := List.append_of_mem hq
        obtain ⟨⟨n', v'⟩, hr, hne⟩ : ∃ r ∈ pyDict values, r.1 ≠ n := by
          rcases before with _ | ⟨r, before⟩
          · rcases after with _ | ⟨r, after⟩
            · rw [hD] at h2; simp at h2
            · refine ⟨r, by rw [hD]; simp, fun he => ?_⟩
              rw [hD, List.nil_append, List.pairwise_cons] at hkeys
              have := hkeys.1 r (by simp)
              rw [he] at this
              exact lt_irrefl _ this
          · refine ⟨r, by rw [hD]; simp, fun he => ?_⟩
            rw [hD, List.cons_append, List.pairwise_cons] at hkeys
            have := hkeys.1 (n, none) (by simp)
            rw [he] at this
            exact lt_irrefl _ this
        exact ⟨n, n', fun h => hne h.symm, (mem_pyDict _ _).mp hq, v', (mem_pyDict _ _).mp hr⟩
      · rintro ⟨n, n', hne, hn, v, hv⟩
        have m1 := (mem_pyDict values (n, none)).mpr hn
        have m2 := (mem_pyDict values (n', v)).mpr hv
        refine ⟨?_, List.any_eq_true.mpr ⟨_, m1, rfl⟩⟩
        by_contra hlt
        have : (pyDict values).length = 1 := by
          have := List.length_pos_of_mem m1
          omega
        obtain ⟨q, hq⟩ := List.length_eq_one_iff.mp this
        rw [hq, List.mem_singleton] at m1 m2
        rw [← m1] at m2
        injection m2 with m2
        exact hne m2.symm
    rw [hrun, ← hcond]
    unfold sortChi
    constructor
    · split
      · next h => exact ⟨(fun ⟨_, h'⟩ => by cases h'), fun h' => absurd h h'⟩
      · next h => exact ⟨fun _ => h, fun _ => ⟨_, rfl⟩⟩
    · intro h
      rw [if_pos h]
  · intro x hx e he
    rcases hr : parserReport eval (l.map (·.1)) with e' | out
    · exact ⟨e', hr⟩
    · exfalso
      obtain ⟨values, hv, -⟩ := C76_report eval l hl out hr
      obtain ⟨v, -, hv2⟩ : ∃ v ∈ values, eval x.2.2 = .ok v.2 := by
        clear hr hl hfold
        induction hv with
        | nil => cases hx
        | @cons a b _ _ hab _ ih =>
          rcases List.mem_cons.mp hx with rfl | hx
          · exact ⟨b, by simp, hab.2⟩
          · obtain ⟨v, h1, h2⟩ := ih hx
            exact ⟨v, by simp [h1], h2⟩
      rw [he] at hv2
      cases hv2
  · rintro lines e he ⟨line, hline, hc⟩
    obtain ⟨before, after, rfl⟩ := List.append_of_mem hline
    unfold parserReport
    rw [List.foldlM_append]
    rcases before.foldlM (reportLine eval) [] with e' | d
    · exact ⟨e', rfl⟩
    · rw [except_ok_bind, List.foldlM_cons, reportLine_short hc he]
      exact ⟨e, rfl⟩

/-- Non-trivial instance: three lines, two of the same fit, whose last value counts; and `10` comes before `9`, as texts. -/
example : ∃ out, parserReport (fun s => .ok (some s)) ["a:b: 7 \n", "c:d: 9\n", "a:b:10\n"] = .ok out ∧ ("a:b", some "10") ∈ out ∧ ("c:d", some "9") ∈ out ∧
    ("a:b", some "7") ∉ out := by
  let l : List (String × String × String) := [("a:b: 7 \n", "a:b", "7"), ("c:d: 9\n", "c:d", "9"), ("a:b:10\n", "a:b", "10")]
  have hl : ∀ x ∈ l, IsReportLine x.1 x.2.1 x.2.2 := by
    intro x hx
    have hx' : x ∈ [("a:b: 7 \n", "a:b", "7"), ("c:d: 9\n", "c:d", "9"), ("a:b:10\n", "a:b", "10")] := hx
    simp only [List.mem_cons, List.not_mem_nil, or_false] at hx'
    rcases hx' with rfl | rfl | rfl
    · exact ⟨['a'], ['b'], " 7 \n".toList, by decide, by decide, by decide, by decide, [' '], [' ', '\n'], by decide, by decide, by decide, by simp, by simp⟩
    · exact ⟨['c'], ['d'], " 9\n".toList, by decide, by decide, by decide, by decide, [' '], ['\n'], by decide, by decide, by decide, by simp, by simp⟩
    · exact ⟨['a'], ['b'], "10\n".toList, by decide, by decide, by decide, by decide, [], ['\n'], by decide, by decide, by decide, by simp, by simp⟩
  let values : List (String × Option String) := [("a:b", some "7"), ("c:d", some "9"), ("a:b", some "10")]
  have hv : List.Forall₂ (fun x v => v.1 = x.2.1 ∧ (Except.ok (some x.2.2) : Except PyErr (Option String)) = .ok v.2) l values :=
    .cons ⟨rfl, rfl⟩ (.cons ⟨rfl, rfl⟩ (.cons ⟨rfl, rfl⟩ .nil))
  have hmade := ((C76_made (fun s => .ok (some s)) l hl).1 values hv).1.mpr (by
    rintro ⟨n, n', -, ⟨before, after, he, -⟩, -⟩
    have : (n, none) ∈ values := by rw [he]; simp
    simp [values] at this)
  obtain ⟨out, hout⟩ := hmade
  obtain ⟨values', hv', -, hmem, -⟩ := C76_report (fun s => .ok (some s)) l hl out hout
  have heq : values' = values := by
    simp only [l] at hv'
    cases hv' with | cons a1 hv' => cases hv' with | cons a2 hv' => cases hv' with | cons a3 hv' => cases hv' with | nil =>
    rename_i v1 v2 v3
    obtain ⟨n1, x1⟩ := v1
    obtain ⟨n2, x2⟩ := v2
    obtain ⟨n3, x3⟩ := v3
    obtain ⟨rfl, b1⟩ := a1
    obtain ⟨rfl, b2⟩ := a2
    obtain ⟨rfl, b3⟩ := a3
    injection b1 with b1
    injection b2 with b2
    injection b3 with b3
    subst b1 b2 b3
    rfl
  rw [heq] at hmem
  refine ⟨out, hout, (hmem _ _).mpr ⟨[("a:b", some "7"), ("c:d", some "9")], [], rfl, by simp⟩,
    (hmem _ _).mpr ⟨[("a:b", some "7")], [("a:b", some "10")], rfl, by simp⟩, fun hin => ?_⟩
  obtain ⟨before, after, he, hn⟩ := (hmem _ _).mp hin
  match before, he with
  | [], he =>
    have : after = [("c:d", some "9"), ("a:b", some "10")] := by simpa [values] using he.symm
    subst this
    exact hn ("a:b", some "10") (by simp) rfl
  | [_], he => simp [values] at he
  | [_, _], he => simp [values] at he
  | _ :: _ :: _ :: before, he => simp [values] at he

/-! ### C77 -/

/-- **C77** the collected results are the finished ones, in the order of the runs. -/
theorem C77_collected (results : List BestFit) : (bestOf results).1 = results.filter (·.chi_squared.isSome) :=
  (bestOf_invariant results).1

/-- **C77** the best fit has no chi squared exactly when no run finished. Otherwise it is the first run with the smallest chi squared,
compared as texts. -/
theorem C77_best (results : List BestFit) :
    ((bestOf results).2.chi_squared = none ↔ ∀ r ∈ results, r.chi_squared = none) ∧
    ∀ c, (bestOf results).2.chi_squared = some c → ∃ before after, results = before ++ (bestOf results).2 :: after ∧
      (∀ r ∈ before, ∀ c', r.chi_squared = some c' → c < c') ∧ (∀ r ∈ after, ∀ c', r.chi_squared = some c' → c ≤ c') := by
  obtain ⟨-, h2, h3⟩ := bestOf_invariant results
  refine ⟨⟨h2, fun h => ?_⟩, h3⟩
  by_contra hn
  obtain ⟨c, hc⟩ := Option.ne_none_iff_exists'.mp hn
  obtain ⟨before, after, hr, -⟩ := h3 c hc
  have hmem : (bestOf results).2 ∈ before ++ (bestOf results).2 :: after := by simp
  rw [← hr] at hmem
  rw [h _ hmem] at hc
  cases hc

/-- **C77** the printed list: the first `n` (or all, if fewer) of the finished runs sorted by the text of chi squared, equal texts in the
order of the runs; it begins with the best fit. -/
theorem C77_printed (results : List BestFit) (n : ℕ) :
    ∃ rest, (bestFew n (bestOf results).1 ++ rest).Perm (results.filter (·.chi_squared.isSome)) ∧
      (bestFew n (bestOf results).1 ++ rest).Pairwise (fun a b => ∃ x y, a.chi_squared = some x ∧ b.chi_squared = some y ∧ x ≤ y) ∧
      (∀ c, (bestFew n (bestOf results).1 ++ rest).filter (fun r => r.chi_squared = some c) = results.filter (fun r => r.chi_squared = some c)) ∧
      (bestFew n (bestOf results).1).length = min n (results.filter (·.chi_squared.isSome)).length ∧
      (0 < n → (∃ r ∈ results, r.chi_squared.isSome) → (bestFew n (bestOf results).1).head? = some (bestOf results).2) := by
  obtain ⟨h1, h2⟩ := C77_best results
  rw [C77_collected]
  unfold bestFew
  obtain ⟨s1, s2, s3⟩ := mergeSort_key (fun r : BestFit => r.chi_squared.getD "") (results.filter (·.chi_squared.isSome))
  generalize hS : ((results.filter (·.chi_squared.isSome)).mergeSort fun a b => decide (a.chi_squared.getD "" ≤ b.chi_squared.getD "")) = S at *
  have hsome : ∀ r ∈ S, ∃ x, r.chi_squared = some x := by
    intro r hr
    have := List.mem_filter.mp (s1.mem_iff.mp hr)
    exact Option.isSome_iff_exists.mp this.2
  have hfilter : ∀ c, S.filter (fun r => r.chi_squared = some c) = results.filter (fun r => r.chi_squared = some c) := by
    intro c
    have := s3 c
    have e1 : S.filter (fun r => decide (r.chi_squared.getD "" = c)) = S.filter (fun r => r.chi_squared = some c) := by
      apply List.filter_congr
      intro r hr
      obtain ⟨x, hx⟩ := hsome r hr
      rw [hx]; simp
    have e2 : (results.filter (·.chi_squared.isSome)).filter (fun r => decide (r.chi_squared.getD "" = c)) =
        results.filter (fun r => r.chi_squared = some c) := by
      rw [List.filter_filter]
      apply List.filter_congr
      intro r _
      rcases r.chi_squared with _ | x <;> simp
    rw [← e1, this, e2]
  refine ⟨S.drop n, ?_⟩
  rw [List.take_append_drop]
  refine ⟨s1, ?_, hfilter, ?_, ?_⟩
  · refine s2.imp_of_mem ?_
    intro a b ha hb hab
    obtain ⟨x, hx⟩ := hsome a ha
    obtain ⟨y, hy⟩ := hsome b hb
    rw [hx, hy] at hab
    exact ⟨x, y, hx, hy, hab⟩
  · rw [List.length_take, s1.length_eq]
  · rintro hn ⟨r, hr, hrs⟩
    obtain ⟨c, hc⟩ : ∃ c, (bestOf results).2.chi_squared = some c := by
      rw [← Option.ne_none_iff_exists']
      intro h
      rw [h1.mp h r hr] at hrs
      cases hrs
    obtain ⟨before, after, hres, hb, ha⟩ := h2 c hc
    have hmem : (bestOf results).2 ∈ results := by
      have : (bestOf results).2 ∈ before ++ (bestOf results).2 :: after := by simp
      rwa [← hres] at this
    -- the first element of the sorted list has the smallest text
    obtain ⟨x, S', hSx⟩ : ∃ x S', S = x :: S' := by
      apply List.exists_cons_of_ne_nil
      intro h
      have : (bestOf results).2 ∈ S := s1.mem_iff.mpr (List.mem_filter.mpr ⟨hmem, by rw [hc]; rfl⟩)
      rw [h] at this
      cases this
    obtain ⟨cx, hcx⟩ := hsome x (by rw [hSx]; simp)
    have hle : cx ≤ c := by
      have hin : (bestOf results).2 ∈ x :: S' := by rw [← hSx]; exact s1.mem_iff.mpr (List.mem_filter.mpr ⟨hmem, by rw [hc]; rfl⟩)
      rcases List.mem_cons.mp hin with h | h
      · rw [h, hcx] at hc; injection hc with hc; exact hc.le
      · rw [hSx, List.pairwise_cons] at s2
        have := s2.1 _ h
        rw [hcx, hc] at this
        exact this
    have hge : c ≤ cx := by
      have hxr : x ∈ results := (List.mem_filter.mp (s1.mem_iff.mp (by rw [hSx]; simp : x ∈ S))).1
      rw [hres] at hxr
      rcases List.mem_append.mp hxr with h | h
      · exact (hb x h cx hcx).le
      · rcases List.mem_cons.mp h with h | h
        · rw [h, hc] at hcx; injection hcx with hcx; exact hcx.le
        · exact ha x h cx hcx
    have he : cx = c := le_antisymm hle hge
    subst he
    have hf := hfilter cx
    rw [hSx, List.filter_cons_of_pos (by simpa using hcx)] at hf
    have hbf : before.filter (fun r => decide (r.chi_squared = some cx)) = [] := by
      rw [List.filter_eq_nil_iff]
      intro r hr h
      exact lt_irrefl _ (hb r hr cx (by simpa using h))
    generalize (bestOf results).2 = best at *
    rw [hres, List.filter_append, hbf, List.nil_append, List.filter_cons_of_pos (by simpa using hc)] at hf
    injection hf with hf
    rw [hSx, hf]
    obtain ⟨n, rfl⟩ := Nat.exists_eq_succ_of_ne_zero hn.ne'
    rfl

/-- Three runs of which the second did not finish: the third is the best, and `9.5` comes after `10.5`, since texts are compared. -/
example : (bestOf [⟨some "9.5", none, none, none, none, none⟩, ⟨none, none, none, none, none, none⟩, ⟨some "10.5", none, none, none, none, none⟩]).2 =
    ⟨some "10.5", none, none, none, none, none⟩ := by
  have h : ("10.5" : String) < "9.5" := by decide +kernel
  simp [bestOf, bestOfStep, h]

/-! ### C58 for the script fitting nucleon cross sections -/

/-- **C58** (`run_single_fit`) the same for proton and neutron points, all with the flag `electric`. -/
theorem C58_single_fit (proton neutron : List (ℝ × ℝ × ℝ)) (h : proton ≠ [] ∨ neutron ≠ []) :
    ∃ out : List ((ℝ × Bool) × ℝ × ℝ),
      prepareNucleonSingleFit (proton.map (·.1)) (proton.map (·.2.1)) (proton.map (·.2.2)) (neutron.map (·.1)) (neutron.map (·.2.1))
          (neutron.map (·.2.2)) =
        .ok (out.map (fun q => .nucleon q.1.1 q.1.2 true), out.map (·.2.1), out.map (·.2.2)) ∧
      out.Perm (proton.map (fun q => ((q.1, true), q.2)) ++ neutron.map (fun q => ((q.1, false), q.2))) ∧
      out.Pairwise (fun a b => a.1.1 ≤ b.1.1) ∧
      ∀ t, out.filter (fun q => decide (q.1.1 = t)) =
        (proton.filter (fun q => decide (q.1 = t))).map (fun q => ((q.1, true), q.2)) ++
          (neutron.filter (fun q => decide (q.1 = t))).map (fun q => ((q.1, false), q.2)) := by
  obtain ⟨-, hne⟩ := prepare_tagged (fun b : ℝ × Bool => .nucleon b.1 b.2 true) (fun b => b.1) (fun _ _ _ => rfl)
    (proton.map (fun q => ((q.1, true), q.2)) ++ neutron.map (fun q => ((q.1, false), q.2)))
  obtain ⟨out, h1, h2, h3, h4⟩ := hne (by
    simp only [ne_eq, List.append_eq_nil_iff, List.map_eq_nil_iff, not_and_or]
    exact h)
  refine ⟨out, ?_, h2, h3, fun t => ?_⟩
  · rw [← h1]
    unfold prepareNucleonSingleFit
    simp only [List.map_append, List.map_map]
    rfl
  · rw [h4, List.filter_append, List.filter_map, List.filter_map]
    rfl

/-- A proton point and a neutron point with a smaller `t`. -/
example : ∃ out : List ((ℝ × Bool) × ℝ × ℝ), prepareNucleonSingleFit [5] [1] [2] [4] [3] [6] =
    .ok (out.map (fun q => .nucleon q.1.1 q.1.2 true), out.map (·.2.1), out.map (·.2.2)) ∧ out.length = 2 := by
  obtain ⟨out, h1, h2, -⟩ := C58_single_fit [(5, 1, 2)] [(4, 3, 6)] (Or.inl (by simp))
  exact ⟨out, h1, h2.length_eq⟩

end UA
