import Verif.Spec.BestCouplings
import Verif.Lemmas.LeastSquares
import Verif.Lemmas.Strengths
import Verif.Props.Parameters

/-! The best values of the free couplings. -/

namespace UA

/-- The value under a name. -/
noncomputable def entryOf (l : List (Parameter ℝ)) (n : String) : ℝ := ((l.find? (·.name == n)).map (·.value)).getD 0

theorem entryOf_cons (q : Parameter ℝ) (l : List (Parameter ℝ)) (n : String) : entryOf (q :: l) n = if q.name = n then q.value else entryOf l n := by
  unfold entryOf
  rw [List.find?_cons]
  by_cases h : q.name = n
  · simp [h]
  · have : (q.name == n) = false := by simpa using h
    simp only [this, if_neg h]

theorem assign_other {n : String} (hn : ¬ IsStrengthName n) : ∀ (l : List (Parameter ℝ)) (xs : List ℝ),
    (∀ q ∈ l, q.is_fixed = false → IsStrengthName q.name) → entryOf (assignFree l xs) n = entryOf l n
  | [], _, _ => rfl
  | q :: l, xs, hf => by
    have ih := fun xs => assign_other hn l xs fun r hr => hf r (List.mem_cons_of_mem _ hr)
    unfold assignFree
    by_cases hq : q.is_fixed
    · rw [if_pos hq, entryOf_cons, entryOf_cons, ih]
    · rw [if_neg hq]
      have hne : q.name ≠ n := fun h => hn (h ▸ hf q (by simp) (by simpa using hq))
      cases xs with
      | nil => rfl
      | cons x xs => simp only [entryOf_cons, if_neg hne, ih]

/-- A point on the line through two vectors. -/
noncomputable def lineThrough (s : ℝ) (xs ys : List ℝ) : List ℝ := List.zipWith (fun a b => (1 - s) * a + s * b) xs ys

theorem assign_line (s : ℝ) (n : String) : ∀ (l : List (Parameter ℝ)) (xs ys : List ℝ), (l.filter (!·.is_fixed)).length = xs.length →
    (l.filter (!·.is_fixed)).length = ys.length → (∀ q ∈ l, q.is_fixed = false → IsStrengthName q.name) →
    entryOf (assignFree l (lineThrough s xs ys)) n = mix s (entryOf (assignFree l xs)) (entryOf (assignFree l ys)) n
  | [], xs, ys, _, _, _ => by
    simp only [assignFree, mix]
    split_ifs <;> simp [entryOf]
  | q :: l, xs, ys, hx, hy, hf => by
    have hf' : ∀ r ∈ l, r.is_fixed = false → IsStrengthName r.name := fun r hr => hf r (List.mem_cons_of_mem _ hr)
    by_cases hq : q.is_fixed
    · simp only [List.filter_cons, hq, Bool.not_true, Bool.false_eq_true, if_false] at hx hy
      have ih := assign_line s n l xs ys hx hy hf'
      simp only [assignFree, hq, if_true, mix, entryOf_cons] at ih ⊢
      by_cases hn : q.name = n
      · simp only [if_pos hn]
        split_ifs <;> ring
      · simp only [if_neg hn]
        exact ih
    · simp only [Bool.not_eq_true] at hq
      cases xs with
      | nil => simp [hq] at hx
      | cons x xs =>
        cases ys with
        | nil => simp [hq] at hy
        | cons y ys =>
          simp only [List.filter_cons, hq, Bool.not_false, if_true, List.length_cons, Nat.add_right_cancel_iff] at hx hy
          have ih := assign_line s n l xs ys hx hy hf'
          have hl : lineThrough s (x :: xs) (y :: ys) = ((1 - s) * x + s * y) :: lineThrough s xs ys := rfl
          rw [hl]
          simp only [assignFree, hq, Bool.false_eq_true, if_false, mix, entryOf_cons] at ih ⊢
          by_cases hn : q.name = n
          · have := hf q (by simp) hq
            rw [hn] at this
            simp only [if_pos hn, if_pos this]
          · simp only [if_neg hn]
            exact ih

section
variable {p : ModelParameters ℝ}

/-- The values with the free ones replaced. -/
noncomputable def freeAt (p : ModelParameters ℝ) (xs : List ℝ) : String → ℝ := entryOf (assignFree p.data xs)

theorem OnlyCouplingsFree.strength (h : p.OnlyCouplingsFree) : ∀ q ∈ p.data, q.is_fixed = false → IsStrengthName q.name :=
  fun q hq hf => Or.inl (h q hq hf)

theorem update_data {xs : List ℝ} (hx : xs.length = p.getFreeValues.length) : (p.updateFreeValues xs).2 = { p with data := assignFree p.data xs } := by
  rw [updateFreeValues_eq, if_pos hx.symm]

theorem update_reachable (hp : Reachable p) (xs : List ℝ) : Reachable (p.updateFreeValues xs).2 := hp.step (.updateFreeValues xs)

theorem free_length : p.getFreeValues.length = (p.data.filter (!·.is_fixed)).length := by simp [ModelParameters.getFreeValues]

theorem update_values (hp : Reachable p) {xs : List ℝ} (hx : xs.length = p.getFreeValues.length) :
    ∀ q ∈ (p.updateFreeValues xs).2.data, q.value = freeAt p xs q.name := by
  have hw := reachable_wellFormed (update_reachable hp xs)
  obtain ⟨v, hv⟩ := hw.exists_values
  intro q hq
  rw [hv q hq, ← entry_eq hw hv (by rw [← hw.names]; exact List.mem_map_of_mem hq), update_data hx]
  rfl

theorem update_same (hf : p.OnlyCouplingsFree) {xs ys : List ℝ} (hx : xs.length = p.getFreeValues.length)
    (hy : ys.length = p.getFreeValues.length) : (p.updateFreeValues xs).2.SamePositions (p.updateFreeValues ys).2 := by
  rw [update_data hx, update_data hy]
  exact ⟨rfl, fun n _ hs => (assign_other hs _ ys (OnlyCouplingsFree.strength hf)).trans (assign_other hs _ xs (OnlyCouplingsFree.strength hf)).symm⟩

theorem freeAt_line (hf : p.OnlyCouplingsFree) {xs ys : List ℝ} (hx : xs.length = p.getFreeValues.length)
    (hy : ys.length = p.getFreeValues.length) (s : ℝ) : freeAt p (lineThrough s xs ys) = mix s (freeAt p xs) (freeAt p ys) :=
  funext fun n => assign_line s n p.data xs ys (by rw [← free_length, hx]) (by rw [← free_length, hy]) (OnlyCouplingsFree.strength hf)

theorem freeAt_end (hf : p.OnlyCouplingsFree) (xs ys : List ℝ) : mix 1 (freeAt p xs) (freeAt p ys) = freeAt p ys := by
  funext n
  unfold mix
  split_ifs with hn
  · ring
  · exact (assign_other hn _ xs (OnlyCouplingsFree.strength hf)).trans (assign_other hn _ ys (OnlyCouplingsFree.strength hf)).symm

theorem update_self : (p.updateFreeValues p.getFreeValues).2 = p := by
  rw [update_data rfl]
  unfold ModelParameters.getFreeValues
  rw [assignFree_self]

theorem lineThrough_length {s : ℝ} {xs ys : List ℝ} {n : ℕ} (hx : xs.length = n) (hy : ys.length = n) : (lineThrough s xs ys).length = n := by
  simp [lineThrough, hx, hy]

end

/-- Fitted values with amplitudes that are affine in the free values: a best choice exists. -/
theorem best_of_amplitudes {D : Type*} (points : List D) {n : ℕ} (A : List ℝ → D → ℂ × ℂ)
    (hA : ∀ xs ys : List ℝ, xs.length = n → ys.length = n → ∀ s : ℝ, ∀ d ∈ points, A (lineThrough s xs ys) d = (1 - s) • A xs d + s • A ys d)
    (square : Bool) {ys es : List ℝ} (hl : es.length = points.length) (he : ∀ e ∈ es, 0 < e) {value : List ℝ → D → ℝ}
    (hv : ∀ xs : List ℝ, xs.length = n → ∀ d ∈ points,
      value xs d = if square then ‖(A xs d).1‖ ^ 2 + ‖(A xs d).2‖ ^ 2 else ‖(A xs d).1‖ + ‖(A xs d).2‖) :
    ∃ xs : List ℝ, xs.length = n ∧ ∀ zs : List ℝ, zs.length = n →
      weightedSquares ys es (points.map (value xs)) ≤ weightedSquares ys es (points.map (value zs)) := by
  let h : Fin points.length → ℂ × ℂ → ℝ := fun _ z => if square then ‖z.1‖ ^ 2 + ‖z.2‖ ^ 2 else ‖z.1‖ + ‖z.2‖
  have hc : ∀ i, Continuous (h i) := by
    intro i
    show Continuous fun z : ℂ × ℂ => if square then ‖z.1‖ ^ 2 + ‖z.2‖ ^ 2 else ‖z.1‖ + ‖z.2‖
    cases square
    · exact continuous_fst.norm.add continuous_snd.norm
    · exact (continuous_fst.norm.pow 2).add (continuous_snd.norm.pow 2)
  have hb : ∀ i z, ‖z‖ ≤ 1 + h i z := by
    intro i z
    rw [Prod.norm_def]
    have h1 := norm_nonneg z.1
    have h2 := norm_nonneg z.2
    cases square
    · show _ ≤ 1 + (‖z.1‖ + ‖z.2‖)
      exact max_le (by linarith) (by linarith)
    · show _ ≤ 1 + (‖z.1‖ ^ 2 + ‖z.2‖ ^ 2)
      exact max_le (by nlinarith [sq_nonneg (‖z.1‖ - 1), sq_nonneg ‖z.2‖]) (by nlinarith [sq_nonneg (‖z.2‖ - 1), sq_nonneg ‖z.1‖])
  have he' : ∀ i : Fin points.length, 0 < es.getD i 1 := fun i => by
    have hi : (i : ℕ) < es.length := by rw [hl]; exact i.2
    rw [List.getD_eq_getElem?_getD, List.getElem?_eq_getElem hi]
    exact he _ (List.getElem_mem hi)
  haveI : Nonempty {xs : List ℝ // xs.length = n} := ⟨⟨List.replicate n 0, by simp⟩⟩
  obtain ⟨q, hq⟩ := exists_best (Q := {xs : List ℝ // xs.length = n}) (fun xs i => A xs.1 points[i]) (fun q q' s => by
    refine ⟨⟨lineThrough s q.1 q'.1, lineThrough_length q.2 q'.2⟩, funext fun i => ?_⟩
    exact hA q.1 q'.1 q.2 q'.2 s _ (List.getElem_mem i.2)) h hc hb (fun i => ys.getD i 0) (fun i => es.getD i 1) he'
  have key : ∀ xs : List ℝ, xs.length = n →
      weightedSquares ys es (points.map (value xs)) = ∑ i : Fin points.length, ((ys.getD i 0 - h i (A xs points[i])) / es.getD i 1) ^ 2 := by
    intro xs hx
    unfold weightedSquares
    rw [List.length_map, Finset.sum_range]
    refine Finset.sum_congr rfl fun i _ => ?_
    rw [getD_map_zero, List.getElem?_eq_getElem i.2]
    simp only [Option.map_some, Option.getD_some]
    rw [hv xs hx _ (List.getElem_mem i.2)]
    rfl
  refine ⟨q.1, q.2, fun zs hz => ?_⟩
  rw [key _ q.2, key zs hz]
  exact hq ⟨zs, hz⟩

/-- Everything a fit with free couplings evaluates, kaons. -/
theorem kaon_free {p : ModelParameters ℝ} (hp : Reachable p) (hc : IsKaonClass p.cls) (hi : p.InsideMaximal) (hf : p.OnlyCouplingsFree)
    (kind : PartialKind) {points : List (ℝ × Bool)} (h0 : ∀ d ∈ points, 0 ≤ d.1) {rs : List ℝ}
    (hr : kind.eval (points.map fun d => .kaon d.1 d.2) p = .ok rs) {xs : List ℝ} (hx : xs.length = p.getFreeValues.length) :
    kind.eval (points.map fun d => .kaon d.1 d.2) (p.updateFreeValues xs).2 =
      .ok (points.map fun d => pointValue kind d.1 ((KaonArgs.ofValues p.cls (freeAt p xs)).formula d.2 d.1)) := by
  have hs := update_same hf rfl hx
  have hv := update_values hp (xs := p.getFreeValues) rfl
  rw [update_self] at hs hv
  have := (kaon_line_values hp hc hi (update_reachable hp xs) hs kind h0 hr hv (update_values hp hx) 1 _ (update_reachable hp xs) (onLine_end hs)).2
  rwa [freeAt_end hf] at this

theorem kaon_best {p : ModelParameters ℝ} (hp : Reachable p) (hc : IsKaonClass p.cls) (hi : p.InsideMaximal) (hf : p.OnlyCouplingsFree)
    (kind : PartialKind) {points : List (ℝ × Bool)} (h0 : ∀ d ∈ points, 0 ≤ d.1) {rs : List ℝ}
    (hr : kind.eval (points.map fun d => .kaon d.1 d.2) p = .ok rs) {ys es : List ℝ} (hl : es.length = points.length) (he : ∀ e ∈ es, 0 < e) :
    ∃ xs : List ℝ, xs.length = p.getFreeValues.length ∧ ∃ fs, kind.eval (points.map fun d => .kaon d.1 d.2) (p.updateFreeValues xs).2 = .ok fs ∧
      ∀ zs : List ℝ, zs.length = p.getFreeValues.length →
        ∃ gs, kind.eval (points.map fun d => .kaon d.1 d.2) (p.updateFreeValues zs).2 = .ok gs ∧ weightedSquares ys es fs ≤ weightedSquares ys es gs := by
  have aff : ∀ xs ys : List ℝ, xs.length = p.getFreeValues.length → ys.length = p.getFreeValues.length → ∀ (s : ℝ) (d : ℝ × Bool),
      (KaonArgs.ofValues p.cls (freeAt p (lineThrough s xs ys))).formula d.2 d.1 = (1 - (s : ℂ)) * (KaonArgs.ofValues p.cls (freeAt p xs)).formula d.2 d.1 +
        s * (KaonArgs.ofValues p.cls (freeAt p ys)).formula d.2 d.1 := by
    intro xs ys hx hy s d
    rw [freeAt_line hf hx hy, kaon_formula_mix, freeAt_end hf]
  have weight : ∃ (W : ℝ × Bool → ℝ) (square : Bool), (∀ d, 0 ≤ W d) ∧
      ∀ d F, pointValue kind d.1 F = if square then ‖((√(W d) : ℝ) : ℂ) * F‖ ^ 2 + ‖(0 : ℂ)‖ ^ 2 else ‖((√(W d) : ℝ) : ℂ) * F‖ + ‖(0 : ℂ)‖ := by
    cases kind with
    | formFactor => exact ⟨fun _ => 1, false, fun _ => zero_le_one, fun d F => by simp [pointValue]⟩
    | crossSection m a h =>
      refine ⟨fun d => ‖((ScalarCS.init m a h).precalculated_coefficient_1 : ℂ) / d.1 *
        (1 - ((ScalarCS.init m a h).four_mass_squared : ℂ) / d.1) ^ (3 / 2 : ℂ)‖, true, fun d => norm_nonneg _, fun d F => ?_⟩
      simp only [pointValue, if_true]
      rw [norm_mul, norm_mul ((√_ : ℝ) : ℂ), Complex.norm_real, mul_pow, Real.norm_of_nonneg (Real.sqrt_nonneg _), Real.sq_sqrt (norm_nonneg _), norm_pow,
        Complex.norm_real, norm_norm]
      simp
  obtain ⟨W, square, -, hW⟩ := weight
  obtain ⟨xs, hx, hbest⟩ := best_of_amplitudes points (n := p.getFreeValues.length)
    (fun xs d => (((√(W d) : ℝ) : ℂ) * (KaonArgs.ofValues p.cls (freeAt p xs)).formula d.2 d.1, 0)) (fun xs ys hx hy s d _ => by
      rw [aff xs ys hx hy s d]
      refine Prod.ext ?_ (by simp)
      simp only [Prod.fst_add, Prod.smul_fst, Complex.real_smul]
      push_cast
      ring) square (ys := ys) hl he
    (value := fun xs d => pointValue kind d.1 ((KaonArgs.ofValues p.cls (freeAt p xs)).formula d.2 d.1)) (fun xs _ d _ => hW d _)
  exact ⟨xs, hx, _, kaon_free hp hc hi hf kind h0 hr hx, fun zs hz => ⟨_, kaon_free hp hc hi hf kind h0 hr hz, hbest zs hz⟩⟩

/-- Everything a fit with free couplings evaluates, nucleons. -/
theorem nucleon_free {p : ModelParameters ℝ} (hp : Reachable p) (hc : p.cls = .nucleon) (hi : p.InsideMaximal) (hf : p.OnlyCouplingsFree)
    (kind : PartialKind) {points : List (ℝ × Bool × Bool)} (h0 : ∀ d ∈ points, 0 ≤ d.1) {rs : List ℝ}
    (hr : kind.eval (points.map fun d => .nucleon d.1 d.2.1 d.2.2) p = .ok rs) {xs : List ℝ} (hx : xs.length = p.getFreeValues.length) :
    (∀ d ∈ points, kind ≠ .formFactor → 0 < d.1) ∧ (p.updateFreeValues xs).2.InsideMaximal ∧
    kind.eval (points.map fun d => .nucleon d.1 d.2.1 d.2.2) (p.updateFreeValues xs).2 =
      .ok (points.map (nucleonValue (.ofValues (freeAt p xs)) kind)) := by
  have hs := update_same hf rfl hx
  have hv := update_values hp (xs := p.getFreeValues) rfl
  rw [update_self] at hs hv
  obtain ⟨h1, h2⟩ := nucleon_line_values hp hc hi (update_reachable hp xs) hs kind h0 hr hv (update_values hp hx)
  obtain ⟨h3, h4, -⟩ := h2 1 _ (update_reachable hp xs) (onLine_end hs)
  rw [freeAt_end hf] at h4
  exact ⟨h1, h3, h4⟩

theorem nucleon_best {p : ModelParameters ℝ} (hp : Reachable p) (hc : p.cls = .nucleon) (hi : p.InsideMaximal) (hf : p.OnlyCouplingsFree)
    (kind : PartialKind) {points : List (ℝ × Bool × Bool)} (h0 : ∀ d ∈ points, 0 ≤ d.1) {rs : List ℝ}
    (hr : kind.eval (points.map fun d => .nucleon d.1 d.2.1 d.2.2) p = .ok rs) {ys es : List ℝ} (hl : es.length = points.length)
    (he : ∀ e ∈ es, 0 < e) :
    ∃ xs : List ℝ, xs.length = p.getFreeValues.length ∧
      ∃ fs, kind.eval (points.map fun d => .nucleon d.1 d.2.1 d.2.2) (p.updateFreeValues xs).2 = .ok fs ∧
        ∀ zs : List ℝ, zs.length = p.getFreeValues.length →
          ∃ gs, kind.eval (points.map fun d => .nucleon d.1 d.2.1 d.2.2) (p.updateFreeValues zs).2 = .ok gs ∧
            weightedSquares ys es fs ≤ weightedSquares ys es gs := by
  have aff : ∀ xs ys : List ℝ, xs.length = p.getFreeValues.length → ys.length = p.getFreeValues.length → ∀ (s : ℝ), ∀ d ∈ points, ∀ el,
      (kind ≠ .formFactor ∨ el = d.2.2) →
      (NucleonArgs.ofValues (freeAt p (lineThrough s xs ys))).formula d.2.1 el d.1 = (1 - (s : ℂ)) * (NucleonArgs.ofValues (freeAt p xs)).formula d.2.1 el d.1 +
        s * (NucleonArgs.ofValues (freeAt p ys)).formula d.2.1 el d.1 := by
    intro xs ys hx hy s d hd el hel
    obtain ⟨-, hix, hex⟩ := nucleon_free hp hc hi hf kind h0 hr hx
    have hcx : (p.updateFreeValues xs).2.cls = .nucleon := by rw [update_data hx]; exact hc
    have hs := update_same hf hx hy
    obtain ⟨q, hq, hql⟩ := line_exists (update_reachable hp xs) (update_reachable hp ys) hs s
    have := ((nucleon_line_values (update_reachable hp xs) hcx hix (update_reachable hp ys) hs kind h0 hex (update_values hp hx)
      (update_values hp hy)).2 s q hq hql).2.2 d hd el hel
    rwa [freeAt_end hf, ← freeAt_line hf hx hy] at this
  have hpos := (nucleon_free hp hc hi hf kind h0 hr (xs := p.getFreeValues) rfl).1
  have best : ∃ xs : List ℝ, xs.length = p.getFreeValues.length ∧ ∀ zs : List ℝ, zs.length = p.getFreeValues.length →
      weightedSquares ys es (points.map (nucleonValue (.ofValues (freeAt p xs)) kind)) ≤
        weightedSquares ys es (points.map (nucleonValue (.ofValues (freeAt p zs)) kind)) := by
    cases kind with
    | formFactor =>
      refine best_of_amplitudes points (fun xs d => ((NucleonArgs.ofValues (freeAt p xs)).formula d.2.1 d.2.2 d.1, 0)) (fun xs ys hx hy s d hd => ?_)
        false hl he (value := fun xs => nucleonValue (.ofValues (freeAt p xs)) .formFactor) (fun xs _ d _ => by simp [nucleonValue])
      rw [aff xs ys hx hy s d hd _ (.inr rfl)]
      refine Prod.ext ?_ (by simp)
      simp [Complex.real_smul]
    | crossSection m a h =>
      have hk : PartialKind.crossSection m a h ≠ .formFactor := nofun
      refine best_of_amplitudes points (fun xs d => (((√(nucleonWeights m a h d.1).1 : ℝ) : ℂ) * (NucleonArgs.ofValues (freeAt p xs)).formula d.2.1 false d.1,
          ((√(nucleonWeights m a h d.1).2 : ℝ) : ℂ) * (NucleonArgs.ofValues (freeAt p xs)).formula d.2.1 true d.1)) (fun xs ys hx hy s d hd => ?_)
        true hl he (value := fun xs => nucleonValue (.ofValues (freeAt p xs)) (.crossSection m a h)) (fun xs _ d hd => ?_)
      · rw [aff xs ys hx hy s d hd _ (.inl hk), aff xs ys hx hy s d hd _ (.inl hk)]
        refine Prod.ext ?_ ?_ <;>
        · simp only [Prod.fst_add, Prod.snd_add, Prod.smul_fst, Prod.smul_snd, Complex.real_smul]
          push_cast
          ring
      · have h0' := hpos d hd hk
        have w1 : 0 ≤ (nucleonWeights m a h d.1).1 := by unfold nucleonWeights; positivity
        have w2 : 0 ≤ (nucleonWeights m a h d.1).2 := by unfold nucleonWeights; positivity
        simp only [if_true]
        rw [nucleonValue_cs _ _ _ _ h0', norm_mul ((√_ : ℝ) : ℂ), norm_mul ((√_ : ℝ) : ℂ), mul_pow, mul_pow, Complex.norm_real, Complex.norm_real,
          Real.norm_of_nonneg (Real.sqrt_nonneg _), Real.norm_of_nonneg (Real.sqrt_nonneg _), Real.sq_sqrt w1, Real.sq_sqrt w2]
  obtain ⟨xs, hx, hbest⟩ := best
  exact ⟨xs, hx, _, (nucleon_free hp hc hi hf kind h0 hr hx).2.2, fun zs hz => ⟨_, (nucleon_free hp hc hi hf kind h0 hr hz).2.2, hbest zs hz⟩⟩

/-! ### Bounds of couplings -/

theorem coupling_bounds (c : ParamClass) (hp : Bool) : ∀ n ∈ c.table.initArgs, "a_".toList <+: n.toList →
    (boundsTable c hp).lookup n = some (.negInf, .posInf) := by
  cases c <;> cases hp <;> decide +kernel

theorem lookup_map_snd {α β : Type*} (f : α → β) (n : String) : ∀ l : List (String × α), (l.map fun e => (e.1, f e.2)).lookup n = (l.lookup n).map f
  | [] => rfl
  | (x, y) :: l => by
    rw [List.map_cons, List.lookup_cons, List.lookup_cons]
    by_cases h : n == x
    · simp only [h, Option.map_some]
    · simp only [h]
      exact lookup_map_snd f n l

theorem free_unbounded {p : ModelParameters ℝ} (h : Reachable p) (hf : p.OnlyCouplingsFree) (handpicked : Bool)
    (h0 : handpicked = false → ∀ q ∈ p.toList, "t_0_".toList <+: q.name.toList → 0 ≤ q.value) :
    p.getBoundsForFreeParameters handpicked = .ok (List.replicate p.getFreeValues.length ⊥, List.replicate p.getFreeValues.length ⊤) := by
  have hw := reachable_wellFormed h
  obtain ⟨v, hv⟩ := hw.exists_values
  have hb := bounds_eq hw hv handpicked (fun hh n hn ht => by
    rw [← hw.names] at hn
    obtain ⟨q, hq, rfl⟩ := List.mem_map.mp hn
    rw [← hv q hq]; exact h0 hh q hq ht)
  have hl := boundsLoop_eq (dict := boundsV p.cls v handpicked) (data := p.data) (B := fun _ => (⊥, ⊤)) (fun q hq hfr => by
    unfold boundsV
    rw [lookup_map_snd fun e : LowerExpr × UpperExpr => (lowerV v (localsV v (boundsLocals p.cls handpicked) []) e.1, evalUpper e.2),
      coupling_bounds p.cls handpicked q.name (by rw [← hw.names]; exact List.mem_map_of_mem hq) (hf q hq hfr)]
    rfl)
  unfold ModelParameters.getBoundsForFreeParameters
  rw [hb, except_ok_bind, hl]
  simp [ModelParameters.getFreeValues, List.map_const']

/-! ### Fixing everything else -/

theorem fix_others {p : ModelParameters ℝ} (h : Reachable p) :
    ∃ ns p', p.fixParameters ns = (.ok (), p') ∧ p'.OnlyCouplingsFree ∧ Reachable p' ∧ p.OnLine p 1 p' ∧
      ∀ q ∈ p.toList, q.is_fixed = false → "a_".toList <+: q.name.toList → q ∈ p'.toList := by
  obtain ⟨p', h1, h2, h3⟩ := C42_fix h (ns := p.names.filter fun n => !("a_".toList.isPrefixOf n.toList)) fun n hn => (List.mem_filter.mp hn).1
  have hr : Reachable p' := by
    have := h.step (.fixParameters (p.names.filter fun n => !("a_".toList.isPrefixOf n.toList)))
    change Reachable (p.fixParameters _).2 at this
    rwa [h1] at this
  have he : ∀ n, p'.entry n = p.entry n := by
    intro n
    unfold ModelParameters.entry
    rw [h3, List.find?_map, Option.map_map]
    rfl
  refine ⟨_, p', h1, fun q hq hf => ?_, hr, ⟨⟨h2, fun n _ _ => he n⟩, fun n _ _ => by rw [he]; ring⟩, fun q hq hf ha => ?_⟩
  · rw [h3] at hq
    obtain ⟨r, hr, rfl⟩ := List.mem_map.mp hq
    simp only [Bool.or_eq_false_iff, decide_eq_false_iff_not] at hf
    by_contra hn
    refine hf.2 (List.mem_filter.mpr ⟨List.mem_map_of_mem hr, ?_⟩)
    rw [← List.isPrefixOf_iff_prefix, Bool.not_eq_true] at hn
    show (!("a_".toList.isPrefixOf r.name.toList)) = true
    rw [hn]; rfl
  · rw [h3]
    refine List.mem_map.mpr ⟨q, hq, ?_⟩
    have : q.name ∉ p.names.filter fun n => !("a_".toList.isPrefixOf n.toList) := by
      intro hm
      have := (List.mem_filter.mp hm).2
      rw [List.isPrefixOf_iff_prefix.mpr ha] at this
      exact absurd this (by decide)
    rw [decide_eq_false this, Bool.or_false]

theorem partialSpec_ok {kind : PartialKind} {p : ModelParameters ℝ} {ts : List Datapoint} {xs : List ℝ} (hx : xs.length = p.getFreeValues.length) :
    partialSpec kind p ts xs = kind.eval ts (p.updateFreeValues xs).2 := by
  unfold partialSpec
  rw [updateFreeValues_eq, if_pos hx.symm]

theorem partialSpec_length {kind : PartialKind} {p : ModelParameters ℝ} {ts : List Datapoint} {xs fs : List ℝ}
    (h : partialSpec kind p ts xs = .ok fs) : xs.length = p.getFreeValues.length := by
  by_contra hne
  unfold partialSpec at h
  rw [updateFreeValues_eq, if_neg (Ne.symm hne)] at h
  cases h

end UA
