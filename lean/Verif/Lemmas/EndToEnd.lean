import Verif.Props.Utils
import Verif.Props.CrossSections

/-!
# Helper lemmas: evaluation inside the bounds never fails except on finitely many points
-/

namespace UA

open Complex

theorem mapM_exists_ok {β γ : Type} {f : β → Except PyErr γ} {l : List β} : (∃ r, l.mapM f = .ok r) ↔ ∀ a ∈ l, ∃ b, f a = .ok b := by
  induction l with
  | nil => simp only [List.mapM_nil, List.not_mem_nil, false_implies, implies_true, iff_true]; exact ⟨[], rfl⟩
  | cons a l ih =>
    simp only [List.mem_cons, forall_eq_or_imp, ← ih, List.mapM_cons]
    constructor
    · rintro ⟨r, hr⟩
      obtain ⟨b, hb, hr⟩ := except_bind_eq_ok.mp hr
      obtain ⟨bs, hbs, -⟩ := except_bind_eq_ok.mp hr
      exact ⟨⟨b, hb⟩, bs, hbs⟩
    · rintro ⟨⟨b, hb⟩, bs, hbs⟩
      exact ⟨b :: bs, by rw [hb, except_ok_bind, hbs]; rfl⟩

theorem kaon_tin_names {c : ParamClass} (hc : IsKaonClass c) : ∀ n ∈ c.table.initArgs, "t_in_".toList <+: n.toList →
    n = "t_in_isoscalar" ∨ n = "t_in_isovector" := by
  cases c <;> first | exact hc.elim | decide +kernel

/-- What is known about a kaon model whose values lie strictly inside the maximal bounds. -/
structure KaonInside (p : ModelParameters ℝ) (x : KaonArgs) : Prop where
  wiring : KaonWiring p x
  proper : x.Proper
  builds : ∀ ch, x.Builds ch
  check : x.check = .ok ()
  res : ∀ r ∈ x.resS ++ x.resV, r.mass ≠ 0 ∧ r.decay ≠ 0
  tin : ∀ t : ℝ, (t = x.tinS ∨ t = x.tinV) ↔ ∃ q ∈ p.toList, "t_in_".toList <+: q.name.toList ∧ t = q.value

theorem kaon_inside_wired {p : ModelParameters ℝ} (h : Reachable p) (hc : IsKaonClass p.cls) (hi : p.InsideMaximal) {x : KaonArgs}
    (hx : KaonWiring p x) : KaonInside p x := by
  have hw := reachable_wellFormed h
  obtain ⟨v, hv⟩ := hw.exists_values
  have hr : IsResonanceClass p.cls := by
    revert hc; cases p.cls <;> simp [IsKaonClass, IsResonanceClass]
  have hin := inside_values h hr hv hi
  have hb : ∀ ch, x.Builds ch := kaon_inside_builds hw hv hin hc hx
  have hval : ∀ {n : String} {y : ℝ}, (n, y) ∈ x.byName → n ∈ p.cls.table.initArgs ∧ y = v n := fun hm => (hw.holds_iff hv).mp (hx.holds.1 _ hm)
  obtain ⟨a1, a2, a3, a4⟩ := x.threshold_names
  obtain ⟨r1, r2⟩ := x.res_names
  have pos : ∀ {n : String} {m : ℝ}, (n, m) ∈ x.byName → "mass_".toList <+: n.toList → m ≠ 0 := by
    intro n m hm hn
    have := hin.mass n (hval hm).1 hn
    rw [← (hval hm).2] at this
    refine (lt_of_le_of_lt ?_ this).ne'
    unfold massThreshold
    split_ifs <;> simp [Real.sqrt_nonneg]
  have pos' : ∀ {n : String} {m : ℝ}, (n, m) ∈ x.byName → "decay_rate_".toList <+: n.toList → m ≠ 0 := by
    intro n m hm hn
    have := hin.decay n (hval hm).1 hn
    rw [← (hval hm).2] at this
    exact this.ne'
  refine ⟨hx, ⟨?_, ?_⟩, hb, ?_, ?_, ?_⟩
  · rw [(hval a1).2, (hval a2).2]; exact hin.tin _ (hval a2).1 _ "isoscalar".toList (by decide) (by decide)
  · rw [(hval a3).2, (hval a4).2]; exact hin.tin _ (hval a4).1 _ "isovector".toList (by decide) (by decide)
  · have hbt := hb true
    cases x with
    | full x => obtain ⟨m, hm⟩ := hbt; show (do let _ ← KaonUAModel.init true x; return ()) = _; rw [hm]; rfl
    | b x => obtain ⟨m, hm⟩ := hbt; show (do let _ ← KaonUAModelB.init true x; return ()) = _; rw [hm]; rfl
    | simplified x => obtain ⟨m, hm⟩ := hbt; show (do let _ ← KaonUAModelSimplified.init true x; return ()) = _; rw [hm]; rfl
  · intro r hr
    rcases List.mem_append.mp hr with hr | hr
    · obtain ⟨n, d, h1, h2, h3, -, h5⟩ := r1 r hr
      exact ⟨pos h1 h3, pos' h2 h5⟩
    · obtain ⟨n, d, h1, h2, h3, -, h5⟩ := r2 r hr
      exact ⟨pos h1 h3, pos' h2 h5⟩
  · intro t
    rw [(hval a2).2, (hval a4).2]
    have entry : ∀ n ∈ p.cls.table.initArgs, ∃ q ∈ p.toList, q.name = n ∧ q.value = v n := by
      intro n hn
      rw [← hw.names] at hn
      obtain ⟨q, hq, rfl⟩ := List.mem_map.mp hn
      exact ⟨q, hq, rfl, hv q hq⟩
    constructor
    · rintro (rfl | rfl)
      · obtain ⟨q, hq, hn, hqv⟩ := entry _ (hval a2).1
        exact ⟨q, hq, by rw [hn]; decide, hqv.symm⟩
      · obtain ⟨q, hq, hn, hqv⟩ := entry _ (hval a4).1
        exact ⟨q, hq, by rw [hn]; decide, hqv.symm⟩
    · rintro ⟨q, hq, hn, rfl⟩
      have hmem : q.name ∈ p.cls.table.initArgs := by rw [← hw.names]; exact List.mem_map_of_mem hq
      rcases kaon_tin_names hc _ hmem hn with h' | h' <;> rw [hv q hq, h'] <;> simp

theorem kaon_inside {p : ModelParameters ℝ} (h : Reachable p) (hc : IsKaonClass p.cls) (hi : p.InsideMaximal) : ∃ x, KaonInside p x := by
  have hw := reachable_wellFormed h
  obtain ⟨v, hv⟩ := hw.exists_values
  exact ⟨_, kaon_inside_wired h hc hi (kaon_wiring_values hw hv hc)⟩

theorem KaonInside.run_ok {p : ModelParameters ℝ} {x : KaonArgs} (hx : KaonInside p x) (ch : Bool) {t : ℝ} (ht : 0 ≤ t) :
    (∃ y, x.run ch t = .ok y) ↔ ¬ ∃ q ∈ p.toList, "t_in_".toList <+: q.name.toList ∧ t = q.value := by
  rw [← hx.tin]
  constructor
  · rw [(C20_domain x ch hx.proper (hx.builds ch) t).2.2]
    rintro ⟨-, h⟩ (h' | h')
    · exact h (Or.inl (by rw [h']))
    · exact h (Or.inr (Or.inl (by rw [h'])))
  · intro h
    rw [not_or] at h
    exact C20_total_on_data x ch hx.proper (hx.builds ch) hx.res t ht h.1 h.2

theorem KaonInside.run_error {p : ModelParameters ℝ} {x : KaonArgs} (hx : KaonInside p x) (ch : Bool) {t : ℝ} (ht : 0 ≤ t) {e : PyErr}
    (he : x.run ch t = .error e) : e = .zeroDivisionError := by
  obtain ⟨-, h2, h3⟩ := C20_domain x ch hx.proper (hx.builds ch) (t : ℂ)
  by_contra hne
  have hn : ¬ ∃ y, x.run ch t = .ok y := by rw [he]; rintro ⟨y, hy⟩; cases hy
  rw [h3] at hn
  have h0 : 0 ≤ ((t : ℝ) : ℂ).re := by simpa using ht
  have := h2.mpr ⟨h0, by by_contra hh; exact hn ⟨h0, hh⟩⟩
  rw [he] at this
  injection this with this
  exact hne this

/-- Changing free values to others strictly inside the bounds. -/
theorem insideMaximal_update {p p' : ModelParameters ℝ} (h : Reachable p) (h' : Reachable p') (hc : p'.cls = p.cls) (hi : p.InsideMaximal)
    {dict : BoundsDict} (hd : p.bounds false = .ok dict)
    (hF : List.Forall₂ (fun q q' : Parameter ℝ => q'.name = q.name ∧ q'.is_fixed = q.is_fixed ∧ (q.is_fixed = true → q' = q)) p.toList p'.toList)
    (hfree : ∀ q ∈ p'.toList, q.is_fixed = false → ∀ b, dict.lookup q.name = some b → b.1 < (q.value : WithBot ℝ) ∧ (q.value : WithTop ℝ) < b.2) :
    p'.InsideMaximal := by
  have hw := reachable_wellFormed h
  have hw' := reachable_wellFormed h'
  obtain ⟨dict', hd', hin⟩ := hi
  rw [hd] at hd'
  injection hd' with hd'
  subst hd'
  refine ⟨dict, bounds_same hw hw' hc hd (hF.imp fun _ _ h => h.2.2), fun q' hq' => ?_⟩
  obtain ⟨q, hq, h1, h2, h3⟩ := forall₂_mem_right hF q' hq'
  obtain ⟨v, hv⟩ := hw.exists_values
  obtain ⟨hdict, -⟩ := bounds_inv hw hv hd
  have hmem : q.name ∈ p.cls.table.initArgs := by rw [← hw.names]; exact List.mem_map_of_mem hq
  cases hf : q.is_fixed with
  | false =>
    rw [hf] at h2
    refine ⟨hfree q' hq' h2, fun hnone => ?_⟩
    obtain ⟨b, hb, -⟩ := boundsV_lookup (c := p.cls) (v := v) (hp := false) (n := q.name) hmem
      (fun ha => by rw [hw.fixed q hq (by rw [hw.always]; exact ha)] at hf; cases hf)
    rw [h1, hdict, hb] at hnone
    cases hnone
  | true =>
    obtain rfl := h3 hf
    refine ⟨(hin _ hq).1, fun hnone => ⟨fun hm x hx => ?_, ((hin _ hq).2 hnone).2⟩⟩
    have hm0 := ((hin _ hq).2 hnone).1 hm v hv
    refine lt_of_eq_of_lt ?_ hm0
    -- the thresholds are the same
    have heq : ∀ n ∈ p.cls.table.initArgs, "t_0_".toList <+: n.toList → x n = v n := by
      intro n hn ht
      have ha := thresholds_always _ n hn ht
      rw [← hw.names] at hn
      obtain ⟨r, hr, rfl⟩ := List.mem_map.mp hn
      obtain ⟨i, hi, rfl⟩ := List.getElem_of_mem hr
      have hi' : i < p'.data.length := hF.length_eq ▸ hi
      have := ((List.forall₂_iff_get.mp hF).2 i hi hi').2.2 (hw.fixed _ hr (by rw [hw.always]; exact ha))
      rw [List.get_eq_getElem, List.get_eq_getElem] at this
      have e1 := hv _ hr
      have e2 := hx _ (List.getElem_mem hi')
      have this' : p'.data[i] = p.data[i] := this
      have e2' : p'.data[i].value = x p'.data[i].name := e2
      rw [this'] at e2'
      exact e2'.symm.trans e1
    have names : ∀ c : ParamClass, ∀ n ∈ c.table.initArgs, "mass_".toList <+: n.toList →
        (c = .nucleon → "t_0_dirac_isoscalar" ∈ c.table.initArgs ∧ "t_0_pauli_isoscalar" ∈ c.table.initArgs ∧
          "t_0_dirac_isovector" ∈ c.table.initArgs ∧ "t_0_pauli_isovector" ∈ c.table.initArgs) ∧
        (c ≠ .nucleon → "t_0_isoscalar" ∈ c.table.initArgs ∧ "t_0_isovector" ∈ c.table.initArgs) := by
      intro c; cases c <;> decide +kernel
    obtain ⟨n1, n2⟩ := names _ _ hmem hm
    unfold massThreshold
    rw [hc]
    by_cases hn : p.cls = .nucleon
    · obtain ⟨m1, m2, m3, m4⟩ := n1 hn
      rw [if_pos hn, if_pos hn, heq _ m1 (by decide), heq _ m2 (by decide), heq _ m3 (by decide), heq _ m4 (by decide)]
    · obtain ⟨m1, m2⟩ := n2 hn
      rw [if_neg hn, if_neg hn, heq _ m1 (by decide), heq _ m2 (by decide)]

/-- Values for the free parameters strictly inside the bounds of the fit. -/
theorem insideMaximal_free {p : ModelParameters ℝ} (h : Reachable p) (hi : p.InsideMaximal) {lo : List (WithBot ℝ)} {up : List (WithTop ℝ)}
    (hb : p.getBoundsForFreeParameters false = .ok (lo, up)) {args : List ℝ}
    (ha : List.Forall₂ (fun b (a : ℝ) => b.1 < (a : WithBot ℝ) ∧ (a : WithTop ℝ) < b.2) (lo.zip up) args) :
    ∃ p', p.updateFreeValues args = (.ok (), p') ∧ Reachable p' ∧ p'.cls = p.cls ∧ p'.InsideMaximal ∧ p'.getFreeValues = args ∧
      List.Forall₂ (fun q q' : Parameter ℝ => q'.name = q.name ∧ q'.is_fixed = q.is_fixed ∧ (q.is_fixed = true → q' = q)) p.toList p'.toList := by
  have hw := reachable_wellFormed h
  obtain ⟨v, hv⟩ := hw.exists_values
  obtain ⟨dict, hd, -⟩ := id hi
  obtain ⟨-, h0⟩ := bounds_inv hw hv hd
  obtain ⟨dict', lo', up', hd', hb', hl1, hl2, hF⟩ := C44_bounds h false fun _ q hq ht => by
    rw [hv q hq]; exact h0 rfl _ (by rw [← hw.names]; exact List.mem_map_of_mem hq) ht
  rw [hb] at hb'
  injection hb' with hb'
  injection hb' with e1 e2
  subst e1 e2
  rw [hd] at hd'
  injection hd' with hd'
  subst hd'
  have hlen : args.length = p.getFreeValues.length := by
    rw [← ha.length_eq, List.length_zip, hl1, hl2, min_self]
  obtain ⟨p', hu, hfv, -, hnm, hfl, hcls, hforall⟩ := C40_update p args hlen
  have hr' : Reachable p' := by
    have := Reachable.step (.updateFreeValues args) h
    simp only [ParamOp.run, hu] at this
    exact this
  refine ⟨p', hu, hr', hcls, insideMaximal_update h hr' hcls hi hd hforall ?_, hfv, hforall⟩
  have hnames : p'.freeNames = p.freeNames := by
    unfold ModelParameters.freeNames
    clear hfv hu hF
    revert hforall
    generalize p'.toList = l'
    generalize p.toList = l
    intro hforall
    induction hforall with
    | nil => rfl
    | cons h1 _ ih =>
      simp only [List.filter_cons, h1.2.1]
      split_ifs
      · simp only [List.map_cons, h1.1, ih]
      · exact ih
  rw [← hnames] at hF
  intro q hq hf b hb
  have hq' : q ∈ p'.toList.filter (!·.is_fixed) := List.mem_filter.mpr ⟨hq, by simp [hf]⟩
  obtain ⟨i, hi', rfl⟩ := List.getElem_of_mem hq'
  have l1 : (lo.zip up).length = (p'.toList.filter (!·.is_fixed)).length := by
    rw [← hF.length_eq]; simp [ModelParameters.freeNames]
  have k1 := (List.forall₂_iff_get.mp hF).2 i (by simpa [ModelParameters.freeNames] using hi') (by rw [l1]; exact hi')
  have k2 := (List.forall₂_iff_get.mp ha).2 i (by rw [l1]; exact hi') (by rw [← ha.length_eq, l1]; exact hi')
  have e1 : p'.freeNames.get ⟨i, by simpa [ModelParameters.freeNames] using hi'⟩ = (p'.toList.filter (!·.is_fixed))[i].name := by
    simp [ModelParameters.freeNames]
  have e2 : args.get ⟨i, by rw [← ha.length_eq, l1]; exact hi'⟩ = (p'.toList.filter (!·.is_fixed))[i].value := by
    subst hfv
    simp [ModelParameters.getFreeValues, ModelParameters.toList]
  rw [e1] at k1
  rw [e2] at k2
  have := k1.1.symm.trans hb
  injection this with this
  rw [← this]
  exact k2

end UA
