import Verif.Spec.Runs
import Verif.Lemmas.EndToEnd

/-!
# Helper lemmas: values that stay inside the bounds during a run
-/

namespace UA

/-- The values `x` of an object of class `c` lie inside the bounds of the fit, and the inelastic thresholds outside `S`. -/
structure GoodValues (c : ParamClass) (h : Bool) (S : Set ℝ) (x : String → ℝ) : Prop where
  inside : InsideValues c x
  bounds : ∀ n ∈ c.table.initArgs, n ∉ c.table.alwaysFixed → ∀ b, (boundsV c x h).lookup n = some b →
    b.1 < (x n : WithBot ℝ) ∧ (x n : WithTop ℝ) < b.2
  avoid : ∀ n ∈ c.table.initArgs, "t_in_".toList <+: n.toList → x n ∉ S
  small : h = true → ∀ n ∈ c.table.initArgs, "t_0_".toList <+: n.toList → x n ≤ 0.54

/-- An object of class `c` with good values. -/
def GoodObject (c : ParamClass) (h : Bool) (S : Set ℝ) (p : ModelParameters ℝ) : Prop :=
  Reachable p ∧ p.cls = c ∧ ∃ x : String → ℝ, (∀ q ∈ p.data, q.value = x q.name) ∧ GoodValues c h S x

theorem goodObject_iff {c : ParamClass} (hc : IsResonanceClass c) {h : Bool} {S : Set ℝ} {p : ModelParameters ℝ} :
    GoodObject c h S p ↔ Reachable p ∧ p.cls = c ∧ p.InsideFor h ∧ p.Avoids S := by
  constructor
  · rintro ⟨hr, rfl, x, hx, hg⟩
    have hw := reachable_wellFormed hr
    have hmem : ∀ q ∈ p.toList, q.name ∈ p.cls.table.initArgs := fun q hq => by rw [← hw.names]; exact List.mem_map_of_mem hq
    refine ⟨hr, rfl, ⟨insideMaximal_of_values hr hc hx hg.inside, ⟨_, bounds_eq hw hx h fun _ => hg.inside.t0, fun q hq hf b hb => ?_⟩,
      fun hh q hq ht => ?_⟩, fun q hq ht => ?_⟩
    · rw [hx q hq]
      exact hg.bounds _ (hmem q hq) (fun ha => hf ((declaredFixed_iff _ _ (hmem q hq)).mpr ha)) b hb
    · rw [hx q hq]; exact hg.small hh _ (hmem q hq) ht
    · rw [hx q hq]; exact hg.avoid _ (hmem q hq) ht
  · rintro ⟨hr, rfl, ⟨hi, ⟨dict, hd, hin⟩, hs⟩, ha⟩
    have hw := reachable_wellFormed hr
    obtain ⟨x, hx⟩ := hw.exists_values
    have entry : ∀ n ∈ p.cls.table.initArgs, ∃ q ∈ p.toList, q.name = n ∧ q.value = x n := by
      intro n hn
      rw [← hw.names] at hn
      obtain ⟨q, hq, rfl⟩ := List.mem_map.mp hn
      exact ⟨q, hq, rfl, hx q hq⟩
    obtain ⟨rfl, -⟩ := bounds_inv hw hx hd
    refine ⟨hr, rfl, x, hx, inside_values hr hc hx hi, ?_, ?_, ?_⟩
    · intro n hn hf b hb
      obtain ⟨q, hq, rfl, hv⟩ := entry n hn
      rw [← hv]
      exact hin q hq (fun hd => hf ((declaredFixed_iff _ _ hn).mp hd)) b hb
    · intro n hn ht
      obtain ⟨q, hq, rfl, hv⟩ := entry n hn
      rw [← hv]; exact ha q hq ht
    · intro hh n hn ht
      obtain ⟨q, hq, rfl, hv⟩ := entry n hn
      rw [← hv]; exact hs hh q hq ht

/-- Changing flags only. -/
theorem GoodObject.flags {c : ParamClass} {h : Bool} {S : Set ℝ} {p p' : ModelParameters ℝ} (hg : GoodObject c h S p) (hr : Reachable p')
    (hc : p'.cls = p.cls) {f : Parameter ℝ → Bool} (hl : p'.toList = p.toList.map fun q => ⟨q.name, q.value, f q⟩) : GoodObject c h S p' := by
  obtain ⟨-, rfl, x, hx, hg⟩ := hg
  refine ⟨hr, hc, x, fun q hq => ?_, hg⟩
  have hq' : q ∈ p'.toList := hq
  rw [hl] at hq'
  obtain ⟨r, hr, rfl⟩ := List.mem_map.mp hq'
  exact hx r hr

/-- The entries of the handpicked tables: masses from 0.74 on, positive widths, inelastic thresholds above the corresponding `t_0`. -/
def handpickedEntry (c : ParamClass) (e : String × LowerExpr × UpperExpr) : Prop :=
  match e.2.1 with
  | .const q => ("mass_".toList <+: e.1.toList → (0.74 : ℚ) ≤ q) ∧ ("decay_rate_".toList <+: e.1.toList → 0 ≤ q) ∧ ¬ "t_in_".toList <+: e.1.toList
  | .value m => ¬ "mass_".toList <+: e.1.toList ∧ ¬ "decay_rate_".toList <+: e.1.toList ∧
      ("t_in_".toList <+: e.1.toList → m.toList = "t_0_".toList ++ e.1.toList.drop 5)
  | _ => ¬ "mass_".toList <+: e.1.toList ∧ ¬ "decay_rate_".toList <+: e.1.toList ∧ ¬ "t_in_".toList <+: e.1.toList

instance (c : ParamClass) : DecidablePred (handpickedEntry c) := fun e => by
  unfold handpickedEntry; split <;> infer_instance

theorem handpicked_entries (c : ParamClass) (h : IsResonanceClass c) : ∀ e ∈ c.table.handpicked, handpickedEntry c e := by
  revert h; cases c <;> decide +kernel

theorem massThreshold_names {c : ParamClass} (hc : IsResonanceClass c) :
    if c = .nucleon then ∀ n ∈ ["t_0_dirac_isoscalar", "t_0_pauli_isoscalar", "t_0_dirac_isovector", "t_0_pauli_isovector"], n ∈ c.table.initArgs
    else ∀ n ∈ ["t_0_isoscalar", "t_0_isovector"], n ∈ c.table.initArgs := by
  revert hc; cases c <;> decide +kernel

/-- A mass from 0.74 on lies above small thresholds. -/
theorem massThreshold_small {c : ParamClass} (hc : IsResonanceClass c) {x : String → ℝ}
    (h : ∀ n ∈ c.table.initArgs, "t_0_".toList <+: n.toList → x n ≤ 0.54) (n : String) : massThreshold c x n ≤ 0.74 := by
  have key : ∀ m ∈ c.table.initArgs, "t_0_".toList <+: m.toList → Real.sqrt (x m) ≤ 0.74 := by
    intro m hm ht
    rw [Real.sqrt_le_left (by norm_num)]
    exact (h m hm ht).trans (by norm_num)
  have hn := massThreshold_names hc
  unfold massThreshold
  by_cases hcn : c = .nucleon
  · rw [if_pos hcn] at hn ⊢
    split_ifs
    · exact max_le (key _ (hn _ (by simp)) (by decide)) (key _ (hn _ (by simp)) (by decide))
    · exact max_le (key _ (hn _ (by simp)) (by decide)) (key _ (hn _ (by simp)) (by decide))
  · rw [if_neg hcn] at hn ⊢
    split_ifs
    · exact key _ (hn _ (by simp)) (by decide)
    · exact key _ (hn _ (by simp)) (by decide)

theorem massThreshold_congr {c : ParamClass} (hc : IsResonanceClass c) {x y : String → ℝ}
    (h : ∀ n ∈ c.table.initArgs, "t_0_".toList <+: n.toList → x n = y n) (n : String) : massThreshold c x n = massThreshold c y n := by
  have hn := massThreshold_names hc
  unfold massThreshold
  by_cases hcn : c = .nucleon
  · rw [if_pos hcn] at hn
    rw [if_pos hcn, if_pos hcn, h _ (hn "t_0_dirac_isoscalar" (by simp)) (by decide), h _ (hn "t_0_pauli_isoscalar" (by simp)) (by decide),
      h _ (hn "t_0_dirac_isovector" (by simp)) (by decide), h _ (hn "t_0_pauli_isovector" (by simp)) (by decide)]
  · rw [if_neg hcn] at hn
    rw [if_neg hcn, if_neg hcn, h _ (hn "t_0_isoscalar" (by simp)) (by decide), h _ (hn "t_0_isovector" (by simp)) (by decide)]

theorem not_prefix {a b l : List Char} {x y : Char} (ha : a <+: l) (hb : b <+: l) (hx : a.head? = some x) (hy : b.head? = some y)
    (hne : x ≠ y) : False := by
  have h1 := prefix_head ha hx
  rw [prefix_head hb hy] at h1
  exact hne (by injection h1 with h1; exact h1.symm)

/-- What the lower bounds of a fit are at least. -/
theorem bounds_give {c : ParamClass} (hc : IsResonanceClass c) {x : String → ℝ} {h : Bool}
    (hs : h = true → ∀ n ∈ c.table.initArgs, "t_0_".toList <+: n.toList → x n ≤ 0.54) {n : String} {b : WithBot ℝ × WithTop ℝ}
    (hb : (boundsV c x h).lookup n = some b) :
    ("mass_".toList <+: n.toList → (massThreshold c x n : WithBot ℝ) ≤ b.1) ∧ ("decay_rate_".toList <+: n.toList → ((0 : ℝ) : WithBot ℝ) ≤ b.1) ∧
    ∀ m s, n.toList = "t_in_".toList ++ s → m.toList = "t_0_".toList ++ s → (x m : WithBot ℝ) ≤ b.1 := by
  obtain ⟨e, he, heq⟩ := List.mem_map.mp (lookup_mem hb)
  injection heq with e1 e2
  subst e1
  have pin : ∀ {s}, e.1.toList = "t_in_".toList ++ s → "t_in_".toList <+: e.1.toList := fun h => ⟨_, h.symm⟩
  cases h with
  | false =>
    obtain ⟨-, hl⟩ := maximal_entries c hc e he
    rw [← e2]
    rcases hl with ⟨h1, h2⟩ | ⟨h1, h2⟩ | ⟨h1, h2⟩ | ⟨m, hm, h1, h2, h3⟩
    · refine ⟨fun _ => ?_, fun h' => (not_prefix h1 h' (x := 'm') (y := 'd') (by decide) (by decide) (by decide)).elim,
        fun m s h' => (not_prefix h1 (pin h') (x := 'm') (y := 't') (by decide) (by decide) (by decide)).elim⟩
      simp only [h2]
      exact le_of_eq (congrArg _ (locals_threshold c hc x e.1).symm)
    · refine ⟨fun h' => (not_prefix h1 h' (x := 'd') (y := 'm') (by decide) (by decide) (by decide)).elim, fun _ => ?_,
        fun m s h' => (not_prefix h1 (pin h') (x := 'd') (y := 't') (by decide) (by decide) (by decide)).elim⟩
      simp only [h2, lowerV, Rat.cast_zero]; exact le_rfl
    · exact ⟨fun h' => (not_prefix h1 h' (x := 'a') (y := 'm') (by decide) (by decide) (by decide)).elim,
        fun h' => (not_prefix h1 h' (x := 'a') (y := 'd') (by decide) (by decide) (by decide)).elim,
        fun m s h' => (not_prefix h1 (pin h') (x := 'a') (y := 't') (by decide) (by decide) (by decide)).elim⟩
    · refine ⟨fun h' => (not_prefix (pin h1) h' (x := 't') (y := 'm') (by decide) (by decide) (by decide)).elim,
        fun h' => (not_prefix (pin h1) h' (x := 't') (y := 'd') (by decide) (by decide) (by decide)).elim, fun m' s h1' h2' => ?_⟩
      have : m' = m := String.toList_injective (by
        rw [h2', h2]
        exact congrArg _ (List.append_cancel_left (h1'.symm.trans h1)))
      simp only [h3, lowerV, this]; exact le_rfl
  | true =>
    have hl := handpicked_entries c hc e he
    unfold handpickedEntry at hl
    rw [← e2]
    rcases e with ⟨n, lo, up⟩
    simp only at hl ⊢ pin
    cases lo with
    | const q =>
      refine ⟨fun h' => ?_, fun h' => ?_, fun m s h' => (hl.2.2 (pin h')).elim⟩
      · refine WithBot.coe_le_coe.mpr ((massThreshold_small hc (hs rfl) n).trans ?_)
        have := hl.1 h'
        have h2 : ((0.74 : ℚ) : ℝ) ≤ (q : ℝ) := by exact_mod_cast this
        refine le_trans (le_of_eq ?_) h2
        norm_num
      · exact WithBot.coe_le_coe.mpr (by exact_mod_cast hl.2.1 h')
    | value m =>
      refine ⟨fun h' => (hl.1 h').elim, fun h' => (hl.2.1 h').elim, fun m' s h1 h2 => ?_⟩
      have : m' = m := String.toList_injective (by rw [h2, hl.2.2 (pin h1), h1]; rfl)
      rw [this]; exact le_rfl
    | negInf => exact ⟨fun h' => (hl.1 h').elim, fun h' => (hl.2.1 h').elim, fun m s h' => (hl.2.2 (pin h')).elim⟩
    | loc l => exact ⟨fun h' => (hl.1 h').elim, fun h' => (hl.2.1 h').elim, fun m s h' => (hl.2.2 (pin h')).elim⟩

theorem tin_t0 (c : ParamClass) : ∀ n ∈ c.table.initArgs, "t_in_".toList <+: n.toList →
    ∃ m ∈ c.table.initArgs, m.toList = "t_0_".toList ++ n.toList.drop 5 := by
  cases c <;> decide +kernel

/-- Other values for the parameters that may be released. -/
theorem GoodValues.update {c : ParamClass} (hc : IsResonanceClass c) {h : Bool} {S : Set ℝ} {x y : String → ℝ} (hg : GoodValues c h S x)
    (hxy : ∀ n ∈ c.table.alwaysFixed, x n = y n)
    (hb : ∀ n ∈ c.table.initArgs, n ∉ c.table.alwaysFixed → ∀ b, (boundsV c x h).lookup n = some b → b.1 < (y n : WithBot ℝ) ∧ (y n : WithTop ℝ) < b.2)
    (ha : ∀ n ∈ c.table.initArgs, "t_in_".toList <+: n.toList → y n ∉ S) : GoodValues c h S y := by
  have ht : ∀ n ∈ c.table.initArgs, "t_0_".toList <+: n.toList → x n = y n := fun n hn ht => hxy n (thresholds_always _ n hn ht)
  have hbv : boundsV c x h = boundsV c y h := boundsV_congr h hxy
  have key : ∀ n ∈ c.table.initArgs, n ∉ c.table.alwaysFixed → ∃ b, (boundsV c x h).lookup n = some b ∧ b.1 < (y n : WithBot ℝ) := by
    intro n hn hf
    obtain ⟨b, hb', -⟩ := boundsV_lookup (v := x) (hp := h) hn hf
    exact ⟨b, hb', (hb n hn hf b hb').1⟩
  refine ⟨⟨fun n hn h0 => by rw [← ht n hn h0]; exact hg.inside.t0 n hn h0, fun n hn hm => ?_, fun n hn hm => ?_, fun n hn m s h1 h2 => ?_⟩,
    fun n hn hf b hb' => hb n hn hf b (by rw [hbv]; exact hb'), ha, fun hh n hn h0 => by rw [← ht n hn h0]; exact hg.small hh n hn h0⟩
  · rw [← massThreshold_congr hc ht]
    by_cases hf : n ∈ c.table.alwaysFixed
    · rw [← hxy n hf]; exact hg.inside.mass n hn hm
    · obtain ⟨b, hb', hlt⟩ := key n hn hf
      exact WithBot.coe_lt_coe.mp (((bounds_give hc hg.small hb').1 hm).trans_lt hlt)
  · by_cases hf : n ∈ c.table.alwaysFixed
    · rw [← hxy n hf]; exact hg.inside.decay n hn hm
    · obtain ⟨b, hb', hlt⟩ := key n hn hf
      exact WithBot.coe_lt_coe.mp (((bounds_give hc hg.small hb').2.1 hm).trans_lt hlt)
  · have hf := tin_not_fixed c n hn ⟨s, h1.symm⟩
    obtain ⟨b, hb', hlt⟩ := key n hn hf
    have hm : m ∈ c.table.initArgs := by
      obtain ⟨m', hm', he⟩ := tin_t0 c n hn ⟨s, h1.symm⟩
      have : m = m' := String.toList_injective (by rw [h2, he, h1]; rfl)
      rw [this]; exact hm'
    rw [← ht m hm ⟨s, h2.symm⟩]
    exact WithBot.coe_lt_coe.mp (((bounds_give hc hg.small hb').2.2 m s h1 h2).trans_lt hlt)

/-- The bounds of the fit can be computed, and the object's own free values lie strictly inside. -/
theorem GoodObject.start {c : ParamClass} {h : Bool} {S : Set ℝ} {p : ModelParameters ℝ} (hg : GoodObject c h S p) :
    ∃ lo up, p.getBoundsForFreeParameters h = .ok (lo, up) ∧ StrictlyInside (lo, up) p.getFreeValues := by
  obtain ⟨hr, rfl, v, hv, hg⟩ := hg
  have hw := reachable_wellFormed hr
  obtain ⟨dict, lo, up, hd, hb, hl1, hl2, hF⟩ := C44_bounds hr h fun _ q hq ht => by
    rw [hv q hq]; exact hg.inside.t0 _ (by rw [← hw.names]; exact List.mem_map_of_mem hq) ht
  obtain ⟨rfl, -⟩ := bounds_inv hw hv hd
  refine ⟨lo, up, hb, ?_⟩
  have hsub : ∀ q ∈ p.toList.filter (!·.is_fixed), q ∈ p.toList ∧ q.is_fixed = false := fun q hq => by
    simpa using List.mem_filter.mp hq
  have hF' : List.Forall₂ (fun n b => (boundsV p.cls v h).lookup n = some b ∧ BoundLt b.1 b.2) ((p.toList.filter (!·.is_fixed)).map (·.name)) (lo.zip up) := hF
  show List.Forall₂ _ _ ((p.toList.filter (!·.is_fixed)).map (·.value))
  show List.Forall₂ _ (lo.zip up) _
  generalize p.toList.filter (!·.is_fixed) = l at hF' hsub
  generalize lo.zip up = bs at hF'
  clear hF hl1 hl2 hb
  induction l generalizing bs with
  | nil => cases hF'; exact .nil
  | cons q l ih =>
    cases hF' with
    | cons h1 h2 =>
      refine .cons ?_ (ih (fun r hr => hsub r (List.mem_cons_of_mem _ hr)) _ h2)
      obtain ⟨hq, hf⟩ := hsub q List.mem_cons_self
      dsimp only
      rw [hv q hq]
      exact hg.bounds _ (by rw [← hw.names]; exact List.mem_map_of_mem hq)
        (fun ha => by rw [hw.fixed q hq (by rw [hw.always]; exact ha)] at hf; cases hf) _ h1.1

/-- Setting the free values to arguments strictly inside the bounds of the fit. -/
theorem GoodObject.update {c : ParamClass} (hc : IsResonanceClass c) {h : Bool} {S : Set ℝ} {p : ModelParameters ℝ} (hg : GoodObject c h S p)
    {b : List (WithBot ℝ) × List (WithTop ℝ)} (hb : p.getBoundsForFreeParameters h = .ok b) {args : List ℝ} (ha : StrictlyInside b args)
    (hS : ∀ a ∈ args, a ∉ S) :
    ∃ p', p.updateFreeValues args = (.ok (), p') ∧ GoodObject c h S p' ∧ p'.getFreeValues = args ∧ p'.flags = p.flags ∧ p'.names = p.names := by
  obtain ⟨hr, rfl, v, hv, hg⟩ := hg
  have hw := reachable_wellFormed hr
  obtain ⟨lo, up⟩ := b
  obtain ⟨dict, lo', up', hd, hb', hl1, hl2, hF⟩ := C44_bounds hr h fun _ q hq ht => by
    rw [hv q hq]; exact hg.inside.t0 _ (by rw [← hw.names]; exact List.mem_map_of_mem hq) ht
  rw [hb] at hb'
  injection hb' with hb'
  injection hb' with e1 e2
  subst e1 e2
  obtain ⟨rfl, -⟩ := bounds_inv hw hv hd
  have hlen : args.length = p.getFreeValues.length := by
    have := List.Forall₂.length_eq ha
    rw [← this, List.length_zip, hl1, hl2, min_self]
  obtain ⟨p', hu, hfv, -, hnm, hfl, hcls, hforall⟩ := C40_update p args hlen
  have hr' : Reachable p' := by
    have := Reachable.step (.updateFreeValues args) hr
    simp only [ParamOp.run, hu] at this
    exact this
  have hw' := reachable_wellFormed hr'
  obtain ⟨y, hy⟩ := hw'.exists_values
  -- the free entries of the new object
  have hnames : p'.freeNames = p.freeNames := by
    unfold ModelParameters.freeNames
    clear hfv hu hF
    revert hforall
    generalize p'.toList = l'
    generalize p.toList = l
    intro hforall
    induction hforall with
    | nil => rfl
    | cons h1 _ ih =>
      simp only [List.filter_cons, h1.2.1]
      split_ifs
      · simp only [List.map_cons, h1.1, ih]
      · exact ih
  rw [← hnames] at hF
  have hfree : ∀ q ∈ p'.toList, q.is_fixed = false → q.value ∈ args ∧ ∀ b, (boundsV p.cls v h).lookup q.name = some b →
      b.1 < (q.value : WithBot ℝ) ∧ (q.value : WithTop ℝ) < b.2 := by
    intro q hq hf
    have hq' : q ∈ p'.toList.filter (!·.is_fixed) := List.mem_filter.mpr ⟨hq, by simp [hf]⟩
    refine ⟨by rw [← hfv]; exact List.mem_map_of_mem hq', fun b hb => ?_⟩
    obtain ⟨i, hi', rfl⟩ := List.getElem_of_mem hq'
    have l1 : (lo.zip up).length = (p'.toList.filter (!·.is_fixed)).length := by
      rw [← hF.length_eq]; simp [ModelParameters.freeNames]
    have la : (lo.zip up).length = args.length := List.Forall₂.length_eq ha
    have k1 := (List.forall₂_iff_get.mp hF).2 i (by simpa [ModelParameters.freeNames] using hi') (by rw [l1]; exact hi')
    have k2 := (List.forall₂_iff_get.mp ha).2 i (by rw [l1]; exact hi') (by rw [← la, l1]; exact hi')
    have e1 : p'.freeNames.get ⟨i, by simpa [ModelParameters.freeNames] using hi'⟩ = (p'.toList.filter (!·.is_fixed))[i].name := by
      simp [ModelParameters.freeNames]
    have e2 : args.get ⟨i, by rw [← la, l1]; exact hi'⟩ = (p'.toList.filter (!·.is_fixed))[i].value := by
      subst hfv
      simp [ModelParameters.getFreeValues, ModelParameters.toList]
    rw [e1] at k1
    rw [e2] at k2
    have := k1.1.symm.trans hb
    injection this with this
    rw [← this]
    exact k2
  have entry : ∀ n ∈ p.cls.table.initArgs, ∃ q ∈ p'.toList, q.name = n ∧ q.value = y n ∧ (q.is_fixed = true → y n = v n) := by
    intro n hn
    rw [← hcls, ← hw'.names] at hn
    obtain ⟨q, hq, rfl⟩ := List.mem_map.mp hn
    refine ⟨q, hq, rfl, hy q hq, fun hf => ?_⟩
    obtain ⟨r, hr, h1, h2, h3⟩ := forall₂_mem_right hforall q hq
    have := h3 (by rw [← h2]; exact hf)
    subst this
    rw [← hy _ hq, hv _ hr]
  have always : ∀ c : ParamClass, ∀ n ∈ c.table.alwaysFixed, n ∈ c.table.initArgs := by intro c; cases c <;> decide +kernel
  refine ⟨p', hu, ⟨hr', hcls, y, hy, hg.update hc (fun n hn => ?_) (fun n hn hf b hb => ?_) (fun n hn ht => ?_)⟩, hfv, hfl, hnm⟩
  · obtain ⟨q, hq, rfl, -, h2⟩ := entry n (always _ _ hn)
    exact (h2 (hw'.fixed q hq (by rw [hw'.always, hcls]; exact hn))).symm
  · obtain ⟨q, hq, rfl, h1, h2⟩ := entry n hn
    cases hq' : q.is_fixed with
    | true => rw [h2 hq']; exact hg.bounds _ hn hf b hb
    | false => rw [← h1]; exact (hfree q hq hq').2 b hb
  · obtain ⟨q, hq, rfl, h1, h2⟩ := entry n hn
    cases hq' : q.is_fixed with
    | true => rw [h2 hq']; exact hg.avoid _ hn ht
    | false => rw [← h1]; exact hS _ (hfree q hq hq').1

end UA
