import Verif.Spec.BestResonances
import Verif.Lemmas.BestCouplings
import Verif.Lemmas.RunsInside
import Verif.Lemmas.ContinuityRun
import Verif.Lemmas.ContinuityNucleon
import Mathlib.Topology.Order.Compact
import Mathlib.Topology.Algebra.Order.LiminfLimsup
import Mathlib.Topology.MetricSpace.Pseudo.Pi

/-! The best values of free masses and widths between finite bounds. -/

namespace UA

open Filter Topology

theorem getD_close {ε : ℝ} (hε : 0 < ε) : ∀ {xs ys : List ℝ}, List.Forall₂ (fun y' y => |y' - y| < ε) xs ys → ∀ j, |xs.getD j 0 - ys.getD j 0| < ε
  | [], [], _, j => by simpa using hε
  | _ :: _, _ :: _, .cons h _, 0 => by simpa using h
  | _ :: _, _ :: _, .cons _ h, j + 1 => by simpa using getD_close hε h j

/-- The results of a call that returns. -/
def returned : Except PyErr (List ℝ) → List ℝ
  | .ok r => r
  | .error _ => []

theorem squares_tendsto {ι : Type*} {l : Filter ι} {f : ι → Except PyErr (List ℝ)} {r : Except PyErr (List ℝ)} (h : ResultsTendTo f l r)
    (ys es : List ℝ) : Tendsto (fun i => weightedSquares ys es (returned (f i))) l (𝓝 (weightedSquares ys es (returned r))) := by
  obtain ⟨rs, rfl, h⟩ := h
  have hlen : ∀ᶠ i in l, (returned (f i)).length = rs.length := by
    filter_upwards [h 1 one_pos] with i hi
    obtain ⟨ys', e, hF⟩ := hi
    rw [e]; exact hF.length_eq
  have hco : ∀ j, Tendsto (fun i => (returned (f i)).getD j 0) l (𝓝 (rs.getD j 0)) := by
    intro j
    rw [Metric.tendsto_nhds]
    intro ε hε
    filter_upwards [h ε hε] with i hi
    obtain ⟨ys', e, hF⟩ := hi
    rw [e, Real.dist_eq]
    exact getD_close hε hF j
  have hsum : Tendsto (fun i => ∑ j ∈ Finset.range rs.length, ((ys.getD j 0 - (returned (f i)).getD j 0) / es.getD j 1) ^ 2) l
      (𝓝 (weightedSquares ys es rs)) := by
    unfold weightedSquares
    exact tendsto_finsetSum _ fun j _ => ((tendsto_const_nhds.sub (hco j)).div_const _).pow 2
  refine hsum.congr' ?_
  filter_upwards [hlen] with i hi
  unfold weightedSquares
  rw [hi]

/-- A function on a closed box whose results change continuously has a best argument. -/
theorem box_best {n : ℕ} {lo hi : Fin n → ℝ} (hle : lo ≤ hi) (G : (Fin n → ℝ) → Except PyErr (List ℝ))
    (hG : ∀ x : Set.Icc lo hi, ResultsTendTo (fun i : Set.Icc lo hi => G i) (𝓝 x) (G x)) (ys es : List ℝ) :
    ∃ x ∈ Set.Icc lo hi, ∃ fs, G x = .ok fs ∧ ∀ z ∈ Set.Icc lo hi, ∃ gs, G z = .ok gs ∧ weightedSquares ys es fs ≤ weightedSquares ys es gs := by
  let S : (Fin n → ℝ) → ℝ := fun x => weightedSquares ys es (returned (G x))
  have hcont : ContinuousOn S (Set.Icc lo hi) := by
    rw [continuousOn_iff_continuous_restrict]
    exact continuous_iff_continuousAt.mpr fun x => squares_tendsto (hG x) ys es
  obtain ⟨x, hx, hmin⟩ := isCompact_Icc.exists_isMinOn ⟨lo, le_refl lo, hle⟩ hcont
  have hok : ∀ z ∈ Set.Icc lo hi, ∃ fs, G z = .ok fs := by
    intro z hz
    obtain ⟨rs, h, -⟩ := hG ⟨z, hz⟩
    exact ⟨rs, h⟩
  obtain ⟨fs, hfs⟩ := hok x hx
  refine ⟨x, hx, fs, hfs, fun z hz => ?_⟩
  obtain ⟨gs, hgs⟩ := hok z hz
  refine ⟨gs, hgs, ?_⟩
  have h : S x ≤ S z := isMinOn_iff.mp hmin z hz
  simp only [S] at h
  rw [hfs, hgs] at h
  exact h

/-- The same for lists of arguments. -/
theorem list_box_best {β : Type*} (L : List β) (f g : β → ℝ) (hle : ∀ q ∈ L, f q ≤ g q) (G : List ℝ → Except PyErr (List ℝ))
    (hG : ∀ {ι : Type} (l : Filter ι) (X : ι → List ℝ) (x : List ℝ), (∀ i, List.Forall₂ (fun q y => f q ≤ y ∧ y ≤ g q) L (X i)) →
      List.Forall₂ (fun q y => f q ≤ y ∧ y ≤ g q) L x → (∀ ε > 0, ∀ᶠ i in l, List.Forall₂ (fun a b => |a - b| < ε) (X i) x) →
      ResultsTendTo (fun i => G (X i)) l (G x)) (ys es : List ℝ) :
    ∃ xs, List.Forall₂ (fun q y => f q ≤ y ∧ y ≤ g q) L xs ∧ ∃ fs, G xs = .ok fs ∧
      ∀ zs, List.Forall₂ (fun q y => f q ≤ y ∧ y ≤ g q) L zs → ∃ gs, G zs = .ok gs ∧ weightedSquares ys es fs ≤ weightedSquares ys es gs := by
  let lo : Fin L.length → ℝ := fun i => f L[i]
  let hi : Fin L.length → ℝ := fun i => g L[i]
  have hbox : ∀ x ∈ Set.Icc lo hi, List.Forall₂ (fun q y => f q ≤ y ∧ y ≤ g q) L (List.ofFn x) := by
    intro x hx
    rw [List.forall₂_iff_get]
    refine ⟨by simp, fun i h1 h2 => ?_⟩
    have := hx.1 ⟨i, h1⟩
    have h' := hx.2 ⟨i, h1⟩
    simp only [List.get_eq_getElem, List.getElem_ofFn]
    exact ⟨this, h'⟩
  obtain ⟨x, hx, fs, hfs, hbest⟩ := box_best (lo := lo) (hi := hi) (fun i => hle _ (List.getElem_mem i.2)) (fun x => G (List.ofFn x)) (fun x => by
    refine hG (𝓝 x) (fun i : Set.Icc lo hi => List.ofFn i.1) (List.ofFn x.1) (fun i => hbox _ i.2) (hbox _ x.2) fun ε hε => ?_
    filter_upwards [Metric.ball_mem_nhds x hε] with i hi
    rw [List.forall₂_iff_get]
    refine ⟨by simp, fun j h1 h2 => ?_⟩
    simp only [List.get_eq_getElem, List.getElem_ofFn]
    have h3 : dist (i.1 ⟨j, by simpa using h1⟩) (x.1 ⟨j, by simpa using h1⟩) ≤ dist i.1 x.1 := dist_le_pi_dist _ _ _
    rw [Real.dist_eq] at h3
    exact h3.trans_lt hi) ys es
  refine ⟨List.ofFn x, hbox x hx, fs, hfs, fun zs hz => ?_⟩
  have hl := hz.length_eq
  have hz' := (List.forall₂_iff_get.mp hz).2
  have e : List.ofFn (fun i : Fin L.length => zs[(i : ℕ)]'(hl ▸ i.2)) = zs := by
    refine List.ext_getElem (by simp [hl]) fun i h1 h2 => ?_
    simp
  obtain ⟨gs, hgs, hle⟩ := hbest (fun i => zs[(i : ℕ)]'(hl ▸ i.2)) ⟨fun i => (hz' i i.2 (hl ▸ i.2)).1, fun i => (hz' i i.2 (hl ▸ i.2)).2⟩
  rw [e] at hgs
  exact ⟨gs, hgs, hle⟩

/-! ### Assigned values -/

theorem assign_close {ε : ℝ} (hε : 0 < ε) : ∀ (l : List (Parameter ℝ)) {xs ys : List ℝ}, List.Forall₂ (fun x y => |x - y| < ε) xs ys →
    List.Forall₂ (fun (q' q : Parameter ℝ) => q'.name = q.name ∧ |q'.value - q.value| < ε) (assignFree l xs) (assignFree l ys)
  | [], _, _, _ => .nil
  | q :: l, xs, ys, h => by
    unfold assignFree
    by_cases hq : q.is_fixed
    · rw [if_pos hq, if_pos hq]
      exact .cons ⟨rfl, by simpa using hε⟩ (assign_close hε l h)
    · rw [if_neg hq, if_neg hq]
      cases h with
      | nil => exact .cons ⟨rfl, by simpa using hε⟩ (List.forall₂_same.mpr fun _ _ => ⟨rfl, by simpa using hε⟩)
      | cons h1 h2 => exact .cons ⟨rfl, h1⟩ (assign_close hε l h2)

theorem assign_between (B : String → ℝ × ℝ) : ∀ (l : List (Parameter ℝ)) {xs : List ℝ},
    List.Forall₂ (fun (q : Parameter ℝ) x => (B q.name).1 ≤ x ∧ x ≤ (B q.name).2) (l.filter (!·.is_fixed)) xs →
    ∀ q' ∈ assignFree l xs, (q' ∈ l ∧ q'.is_fixed = true) ∨
      (∃ q ∈ l, q.is_fixed = false ∧ q.name = q'.name) ∧ (B q'.name).1 ≤ q'.value ∧ q'.value ≤ (B q'.name).2
  | [], _, _, q', h => by simp [assignFree] at h
  | q :: l, xs, h, q', hq' => by
    unfold assignFree at hq'
    by_cases hq : q.is_fixed
    · rw [if_pos hq] at hq'
      simp only [List.filter_cons, hq, Bool.not_true, Bool.false_eq_true, if_false] at h
      rcases List.mem_cons.mp hq' with rfl | hm
      · exact .inl ⟨by simp, hq⟩
      · rcases assign_between B l h q' hm with ⟨h1, h2⟩ | ⟨⟨r, h1, h2⟩, h3⟩
        · exact .inl ⟨List.mem_cons_of_mem _ h1, h2⟩
        · exact .inr ⟨⟨r, List.mem_cons_of_mem _ h1, h2⟩, h3⟩
    · rw [if_neg hq] at hq'
      simp only [Bool.not_eq_true] at hq
      simp only [List.filter_cons, hq, Bool.not_false, if_true] at h
      cases h with
      | cons h1 h2 =>
        rcases List.mem_cons.mp hq' with rfl | hm
        · exact .inr ⟨⟨q, by simp, hq, rfl⟩, h1⟩
        · rcases assign_between B l h2 q' hm with ⟨h1, h2⟩ | ⟨⟨r, h1, h2⟩, h3⟩
          · exact .inl ⟨List.mem_cons_of_mem _ h1, h2⟩
          · exact .inr ⟨⟨r, List.mem_cons_of_mem _ h1, h2⟩, h3⟩

/-! ### The handpicked bounds of masses and widths -/

/-- The numbers written in the handpicked table. -/
def writtenBounds (c : ParamClass) (n : String) : ℚ × ℚ :=
  match c.table.handpicked.lookup n with
  | some (.const l, .const u) => (l, u)
  | _ => (0, 0)

theorem resonance_table (c : ParamClass) (hc : IsResonanceClass c) : ∀ n ∈ c.table.initArgs, n ∉ c.table.alwaysFixed →
    ("mass_".toList <+: n.toList ∨ "decay_rate_".toList <+: n.toList) →
    (c.table.handpicked.lookup n = some (.const (writtenBounds c n).1, .const (writtenBounds c n).2)) ∧ (writtenBounds c n).1 ≤ (writtenBounds c n).2 ∧
    ("mass_".toList <+: n.toList → 0.74 ≤ (writtenBounds c n).1) ∧ ("decay_rate_".toList <+: n.toList → 0 < (writtenBounds c n).1) := by
  revert hc; cases c <;> decide +kernel

theorem kaon_is_resonance {c : ParamClass} (h : IsKaonClass c) : IsResonanceClass c := by
  cases c <;> first | trivial | exact h.elim

section
variable {p : ModelParameters ℝ}

/-- The numbers written in the handpicked table, as real numbers. -/
noncomputable def resonanceBounds (c : ParamClass) (n : String) : ℝ × ℝ := (((writtenBounds c n).1 : ℝ), ((writtenBounds c n).2 : ℝ))

theorem free_not_always (h : Reachable p) {q : Parameter ℝ} (hq : q ∈ p.data) (hf : q.is_fixed = false) :
    q.name ∈ p.cls.table.initArgs ∧ q.name ∉ p.cls.table.alwaysFixed := by
  have hw := reachable_wellFormed h
  refine ⟨by rw [← hw.names]; exact List.mem_map_of_mem hq, fun ha => ?_⟩
  rw [hw.fixed q hq (by rw [hw.always]; exact ha)] at hf
  cases hf

theorem resonance_bounds (h : Reachable p) (hc : IsResonanceClass p.cls) (hf : p.OnlyResonancesFree) :
    p.getBoundsForFreeParameters true =
      .ok ((p.data.filter (!·.is_fixed)).map (fun q => ((resonanceBounds p.cls q.name).1 : WithBot ℝ)),
        (p.data.filter (!·.is_fixed)).map (fun q => ((resonanceBounds p.cls q.name).2 : WithTop ℝ))) := by
  have hw := reachable_wellFormed h
  obtain ⟨v, hv⟩ := hw.exists_values
  have hb := bounds_eq hw hv true nofun
  have hl := boundsLoop_eq (dict := boundsV p.cls v true) (data := p.data)
    (B := fun n => (((resonanceBounds p.cls n).1 : WithBot ℝ), ((resonanceBounds p.cls n).2 : WithTop ℝ))) (fun q hq hfr => by
      obtain ⟨h1, h2⟩ := free_not_always h hq hfr
      unfold boundsV
      rw [lookup_map_snd fun e : LowerExpr × UpperExpr => (lowerV v (localsV v (boundsLocals p.cls true) []) e.1, evalUpper e.2)]
      show Option.map _ (p.cls.table.handpicked.lookup q.name) = _
      rw [(resonance_table p.cls hc q.name h1 h2 (hf q hq hfr)).1]
      rfl)
  unfold ModelParameters.getBoundsForFreeParameters
  rw [hb, except_ok_bind, hl]

theorem resonance_finite (hp : Reachable p) (hc : IsResonanceClass p.cls) (hf : p.OnlyResonancesFree) :
    ∃ lo up : List ℝ, p.getBoundsForFreeParameters true = .ok (lo.map (↑), up.map (↑)) ∧ List.Forall₂ (· ≤ ·) lo up ∧
      lo.length = p.getFreeValues.length := by
  refine ⟨(p.data.filter (!·.is_fixed)).map (fun q => (resonanceBounds p.cls q.name).1),
    (p.data.filter (!·.is_fixed)).map (fun q => (resonanceBounds p.cls q.name).2), ?_, ?_, by simp [free_length]⟩
  · rw [resonance_bounds hp hc hf, List.map_map, List.map_map]
    rfl
  · rw [List.forall₂_map_left_iff, List.forall₂_map_right_iff, List.forall₂_same]
    intro q hq
    obtain ⟨h1, h2⟩ := List.mem_filter.mp hq
    have h2 : q.is_fixed = false := by simpa using h2
    have := (resonance_table p.cls hc q.name (free_not_always hp h1 h2).1 (free_not_always hp h1 h2).2 (hf q h1 h2)).2.1
    show ((writtenBounds p.cls q.name).1 : ℝ) ≤ ((writtenBounds p.cls q.name).2 : ℝ)
    exact_mod_cast this

theorem between_iff {β : Type*} (f g : β → ℝ) : ∀ (l : List β) (xs : List ℝ),
    Between (l.map fun q => (f q : WithBot ℝ), l.map fun q => (g q : WithTop ℝ)) xs ↔ List.Forall₂ (fun q x => f q ≤ x ∧ x ≤ g q) l xs
  | [], xs => by simp [Between]
  | q :: l, xs => by
    have ih := between_iff f g l
    unfold Between at ih ⊢
    cases xs with
    | nil => simp
    | cons x xs => simp [ih]

theorem assign_names (l : List (Parameter ℝ)) (xs : List ℝ) : (assignFree l xs).map (·.name) = l.map (·.name) := by
  have key : ∀ {l l' : List (Parameter ℝ)}, List.Forall₂ (fun q q' : Parameter ℝ => q'.name = q.name ∧ q'.is_fixed = q.is_fixed ∧
      (q.is_fixed = true → q' = q)) l l' → l'.map (·.name) = l.map (·.name) := by
    intro l l' h
    induction h with
    | nil => rfl
    | cons h _ ih => rw [List.map_cons, List.map_cons, ih, h.1]
  exact key (assignFree_forall₂ l xs)

/-- Each value of the object with new free values is an old one of a fixed parameter or a mass or a width between its bounds. -/
theorem resonance_values (h : Reachable p) (hf : p.OnlyResonancesFree) {xs : List ℝ}
    (hx : List.Forall₂ (fun (q : Parameter ℝ) x => (resonanceBounds p.cls q.name).1 ≤ x ∧ x ≤ (resonanceBounds p.cls q.name).2)
      (p.data.filter (!·.is_fixed)) xs) {n : String} (hn : n ∈ p.cls.table.initArgs) :
    (∃ q ∈ p.data, q.is_fixed = true ∧ q.name = n ∧ freeAt p xs n = q.value) ∨
    (n ∉ p.cls.table.alwaysFixed ∧ ∃ q ∈ p.data, q.is_fixed = false ∧ q.name = n) ∧ ("mass_".toList <+: n.toList ∨ "decay_rate_".toList <+: n.toList) ∧
      (resonanceBounds p.cls n).1 ≤ freeAt p xs n ∧ freeAt p xs n ≤ (resonanceBounds p.cls n).2 := by
  have hlen : xs.length = p.getFreeValues.length := by rw [free_length, ← hx.length_eq]
  have hv := update_values h hlen
  rw [update_data hlen] at hv
  have hn' : n ∈ (assignFree p.data xs).map (·.name) := by
    rw [assign_names]
    rw [← (reachable_wellFormed h).names] at hn
    exact hn
  obtain ⟨q', hq', rfl⟩ := List.mem_map.mp hn'
  rw [← hv q' hq']
  rcases assign_between (resonanceBounds p.cls) p.data hx q' hq' with ⟨h1, h2⟩ | ⟨⟨q, h1, h2, h3⟩, h4⟩
  · exact .inl ⟨q', h1, h2, rfl, rfl⟩
  · rw [← h3]
    rw [← h3] at h4
    exact .inr ⟨⟨(free_not_always h h1 h2).2, q, h1, h2, rfl⟩, hf q h1 h2, h4⟩

theorem massThreshold_lt {c : ParamClass} (hc : IsResonanceClass c) {x : String → ℝ}
    (h : ∀ n ∈ c.table.initArgs, "t_0_".toList <+: n.toList → x n ≤ 0.54) (n : String) : massThreshold c x n < 0.74 := by
  have key : ∀ m ∈ c.table.initArgs, "t_0_".toList <+: m.toList → Real.sqrt (x m) < 0.74 := by
    intro m hm ht
    rw [Real.sqrt_lt' (by norm_num)]
    exact (h m hm ht).trans_lt (by norm_num)
  have hn := massThreshold_names hc
  unfold massThreshold
  by_cases hcn : c = .nucleon
  · rw [if_pos hcn] at hn ⊢
    split_ifs
    · exact max_lt (key _ (hn _ (by simp)) (by decide)) (key _ (hn _ (by simp)) (by decide))
    · exact max_lt (key _ (hn _ (by simp)) (by decide)) (key _ (hn _ (by simp)) (by decide))
  · rw [if_neg hcn] at hn ⊢
    split_ifs
    · exact key _ (hn _ (by simp)) (by decide)
    · exact key _ (hn _ (by simp)) (by decide)

theorem resonance_inside (h : Reachable p) (hc : IsResonanceClass p.cls) (hi : p.InsideMaximal) (hf : p.OnlyResonancesFree)
    (hs : ∀ q ∈ p.toList, "t_0_".toList <+: q.name.toList → q.value ≤ 0.54) {xs : List ℝ}
    (hx : List.Forall₂ (fun (q : Parameter ℝ) x => (resonanceBounds p.cls q.name).1 ≤ x ∧ x ≤ (resonanceBounds p.cls q.name).2)
      (p.data.filter (!·.is_fixed)) xs) :
    (p.updateFreeValues xs).2.InsideMaximal ∧
      ∀ n ∈ p.cls.table.initArgs, "t_".toList <+: n.toList → ∃ q ∈ p.data, q.name = n ∧ freeAt p xs n = q.value := by
  have hlen : xs.length = p.getFreeValues.length := by rw [free_length, ← hx.length_eq]
  have hw := reachable_wellFormed h
  obtain ⟨v, hv⟩ := hw.exists_values
  have iv := inside_values h hc hv hi
  have hval := fun {n} (hn : n ∈ p.cls.table.initArgs) => resonance_values h hf hx hn
  have hthr : ∀ n ∈ p.cls.table.initArgs, "t_".toList <+: n.toList → ∃ q ∈ p.data, q.name = n ∧ freeAt p xs n = q.value := by
    intro n hn ht
    rcases hval hn with ⟨q, h1, -, h2, h3⟩ | ⟨-, h2 | h2, -⟩
    · exact ⟨q, h1, h2, h3⟩
    · exact (not_prefix ht h2 (x := 't') (y := 'm') (by decide) (by decide) (by decide)).elim
    · exact (not_prefix ht h2 (x := 't') (y := 'd') (by decide) (by decide) (by decide)).elim
  have hthr' : ∀ n ∈ p.cls.table.initArgs, "t_".toList <+: n.toList → freeAt p xs n = v n := by
    intro n hn ht
    obtain ⟨q, h1, h2, h3⟩ := hthr n hn ht
    rw [h3, hv q h1, h2]
  have p0 : ∀ {n : String}, "t_0_".toList <+: n.toList → "t_".toList <+: n.toList := fun h => (by decide : "t_".toList <+: "t_0_".toList).trans h
  have pin : ∀ {n : String}, "t_in_".toList <+: n.toList → "t_".toList <+: n.toList := fun h => (by decide : "t_".toList <+: "t_in_".toList).trans h
  have small : ∀ n ∈ p.cls.table.initArgs, "t_0_".toList <+: n.toList → freeAt p xs n ≤ 0.54 := by
    intro n hn ht
    obtain ⟨q, h1, h2, h3⟩ := hthr n hn (p0 ht)
    rw [h3]
    exact hs q h1 (by rw [h2]; exact ht)
  have hcls : (p.updateFreeValues xs).2.cls = p.cls := by rw [update_data hlen]
  refine ⟨insideMaximal_of_values (update_reachable h xs) (by rw [hcls]; exact hc) (update_values h hlen) ?_, hthr⟩
  rw [hcls]
  refine ⟨fun n hn ht => by rw [hthr' n hn (p0 ht)]; exact iv.t0 n hn ht, fun n hn hm => ?_, fun n hn hm => ?_, fun n hn m s h1 h2 => ?_⟩
  · rcases hval hn with ⟨q, h1, -, h2, h3⟩ | ⟨⟨h1, -⟩, h2, h3, -⟩
    · rw [h3, hv q h1, h2, massThreshold_congr hc (y := v) fun n hn ht => hthr' n hn (p0 ht)]
      exact iv.mass n hn hm
    · refine (massThreshold_lt hc small n).trans_le (le_trans ?_ h3)
      have := (resonance_table p.cls hc n hn h1 h2).2.2.1 hm
      have h4 : ((0.74 : ℚ) : ℝ) ≤ ((writtenBounds p.cls n).1 : ℝ) := by exact_mod_cast this
      exact le_trans (le_of_eq (by norm_num)) h4
  · rcases hval hn with ⟨q, h1, -, h2, h3⟩ | ⟨⟨h1, -⟩, h2, h3, -⟩
    · rw [h3, hv q h1, h2]
      exact iv.decay n hn hm
    · refine lt_of_lt_of_le ?_ h3
      have := (resonance_table p.cls hc n hn h1 h2).2.2.2 hm
      show (0 : ℝ) < ((writtenBounds p.cls n).1 : ℝ)
      exact_mod_cast this
  · have hm : m ∈ p.cls.table.initArgs := by
      obtain ⟨m', hm', he⟩ := tin_t0 p.cls n hn ⟨s, h1.symm⟩
      have : m = m' := String.toList_injective (by rw [h2, he, h1]; rfl)
      rw [this]; exact hm'
    rw [hthr' n hn (pin ⟨s, h1.symm⟩), hthr' m hm (p0 ⟨s, h2.symm⟩)]
    exact iv.tin n hn m s h1 h2

theorem update_tends (hr : Reachable p) {ι : Type} {l : Filter ι} {X : ι → List ℝ} {x : List ℝ} (hX : ∀ i, (X i).length = p.getFreeValues.length)
    (hx : x.length = p.getFreeValues.length) (ht : ∀ ε > 0, ∀ᶠ i in l, List.Forall₂ (fun a b => |a - b| < ε) (X i) x) :
    ValuesTendTo (fun i => (p.updateFreeValues (X i)).2) l (p.updateFreeValues x).2 := by
  intro q hq ε hε
  filter_upwards [ht ε hε] with i hi
  rw [update_data hx] at hq
  rw [update_data (hX i)]
  have key : ∀ {l l' : List (Parameter ℝ)}, List.Forall₂ (fun (q' q : Parameter ℝ) => q'.name = q.name ∧ |q'.value - q.value| < ε) l l' →
      ∀ q ∈ l', ∃ q' ∈ l, q'.name = q.name ∧ |q'.value - q.value| < ε := by
    intro l l' h
    induction h with
    | nil => simp
    | cons h _ ih =>
      intro q hq
      rcases List.mem_cons.mp hq with rfl | hm
      · exact ⟨_, List.mem_cons_self, h⟩
      · obtain ⟨q', h1, h2⟩ := ih q hm
        exact ⟨q', List.mem_cons_of_mem _ h1, h2⟩
  exact key (assign_close hε p.data hi) q hq

/-- A best choice between the handpicked bounds, when the results change continuously. -/
theorem resonance_best (hp : Reachable p) (hc : IsResonanceClass p.cls) (hi : p.InsideMaximal) (hf : p.OnlyResonancesFree)
    (hs : ∀ q ∈ p.toList, "t_0_".toList <+: q.name.toList → q.value ≤ 0.54) {b : List (WithBot ℝ) × List (WithTop ℝ)}
    (hb : p.getBoundsForFreeParameters true = .ok b) (kind : PartialKind) (ts : List Datapoint)
    (hG : ∀ {ι : Type} (l : Filter ι) (P : ι → ModelParameters ℝ) (x : List ℝ), Between b x →
      (∀ i, Reachable (P i) ∧ (P i).cls = p.cls ∧ (P i).InsideMaximal) → Reachable (p.updateFreeValues x).2 → (p.updateFreeValues x).2.cls = p.cls →
      (p.updateFreeValues x).2.InsideMaximal →
      (∀ q ∈ (p.updateFreeValues x).2.toList, "t_".toList <+: q.name.toList → ∃ q' ∈ p.toList, q'.name = q.name ∧ q.value = q'.value) →
      ValuesTendTo P l (p.updateFreeValues x).2 →
      ResultsTendTo (fun i => kind.eval ts (P i)) l (kind.eval ts (p.updateFreeValues x).2)) (ys es : List ℝ) :
    ∃ xs, Between b xs ∧ ∃ fs, partialSpec kind p ts xs = .ok fs ∧
      ∀ zs, Between b zs → ∃ gs, partialSpec kind p ts zs = .ok gs ∧ weightedSquares ys es fs ≤ weightedSquares ys es gs := by
  rw [resonance_bounds hp hc hf] at hb
  injection hb with hb
  subst hb
  have hiff := between_iff (fun q : Parameter ℝ => (resonanceBounds p.cls q.name).1) (fun q => (resonanceBounds p.cls q.name).2) (p.data.filter (!·.is_fixed))
  have hlen : ∀ {xs : List ℝ}, List.Forall₂ (fun (q : Parameter ℝ) x => (resonanceBounds p.cls q.name).1 ≤ x ∧ x ≤ (resonanceBounds p.cls q.name).2)
      (p.data.filter (!·.is_fixed)) xs → xs.length = p.getFreeValues.length := fun hx => by rw [free_length, ← hx.length_eq]
  have hcls : ∀ {xs : List ℝ}, xs.length = p.getFreeValues.length → (p.updateFreeValues xs).2.cls = p.cls := fun hx => by rw [update_data hx]
  obtain ⟨xs, hx, fs, hfs, hbest⟩ := list_box_best (p.data.filter (!·.is_fixed)) (fun q : Parameter ℝ => (resonanceBounds p.cls q.name).1)
    (fun q => (resonanceBounds p.cls q.name).2) (fun q hq => by
      obtain ⟨h1, h2⟩ := List.mem_filter.mp hq
      have h2 : q.is_fixed = false := by simpa using h2
      have := (resonance_table p.cls hc q.name (free_not_always hp h1 h2).1 (free_not_always hp h1 h2).2 (hf q h1 h2)).2.1
      show ((writtenBounds p.cls q.name).1 : ℝ) ≤ ((writtenBounds p.cls q.name).2 : ℝ)
      exact_mod_cast this)
    (fun xs => kind.eval ts (p.updateFreeValues xs).2) (fun l X x hX hx ht => by
      obtain ⟨hin, hthr⟩ := resonance_inside hp hc hi hf hs hx
      have hw := reachable_wellFormed (update_reachable hp x)
      refine hG l (fun i => (p.updateFreeValues (X i)).2) x ((hiff x).mpr hx) (fun i => ⟨update_reachable hp _, hcls (hlen (hX i)),
        (resonance_inside hp hc hi hf hs (hX i)).1⟩) (update_reachable hp x) (hcls (hlen hx)) hin (fun q hq hn => ?_)
        (update_tends hp (fun i => hlen (hX i)) (hlen hx) ht)
      have hqn : q.name ∈ p.cls.table.initArgs := by
        rw [← hcls (hlen hx), ← hw.names]
        exact List.mem_map_of_mem hq
      obtain ⟨q', h1, h2, h3⟩ := hthr q.name hqn hn
      exact ⟨q', h1, h2, (update_values hp (hlen hx) q hq).trans h3⟩) ys es
  refine ⟨xs, (hiff xs).mpr hx, fs, (partialSpec_ok (hlen hx)).trans hfs, fun zs hz => ?_⟩
  have hz' := (hiff zs).mp hz
  obtain ⟨gs, hgs, hle⟩ := hbest zs hz'
  exact ⟨gs, (partialSpec_ok (hlen hz')).trans hgs, hle⟩

end

end UA
