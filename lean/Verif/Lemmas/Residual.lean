import Verif.Spec.Residual
import Verif.Lemmas.TasksResult
import Verif.Lemmas.ResidualWitness
import Verif.Lemmas.CrossSections
import Verif.Props.CrossSections
import Verif.Props.Tasks

/-!
# Helper lemmas: the residual task
-/

namespace UA

open Complex

/-! ### One point -/

/-- The effective form factor. -/
noncomputable def effFF (m α σ t : ℝ) : ℝ :=
  Real.sqrt (3 * t * σ / (2 * Real.pi * α ^ 2 * Real.sqrt (1 - 4 * m ^ 2 / t) * (2 + 4 * m ^ 2 / t)))

theorem effFF_pos {m α σ t : ℝ} (hm : m ≠ 0) (hα : α ≠ 0) (ht : 4 * m ^ 2 < t) (hσ : 0 < σ) : 0 < effFF m α σ t := by
  have hm2 : 0 < 4 * m ^ 2 := by positivity
  have ht0 : 0 < t := lt_trans hm2 ht
  have hb := Real.sqrt_pos.mpr (show 0 < 1 - 4 * m ^ 2 / t by rw [sub_pos, div_lt_one ht0]; exact ht)
  have hpi := Real.pi_pos
  unfold effFF
  apply Real.sqrt_pos.mpr
  positivity

theorem effFF_spec {k : Constants} {σ t : ℝ} (hm : k.mass ≠ 0) (hα : k.alpha ≠ 0) (ht : 4 * k.mass ^ 2 < t) (hσ : 0 < σ) :
    EffectiveFF k t σ (effFF k.mass k.alpha σ t) := by
  refine ⟨ht, effFF_pos hm hα ht hσ, ?_⟩
  have hm2 : 0 < 4 * k.mass ^ 2 := by positivity
  have ht0 : 0 < t := lt_trans hm2 ht
  have hb := Real.sqrt_pos.mpr (show 0 < 1 - 4 * k.mass ^ 2 / t by rw [sub_pos, div_lt_one ht0]; exact ht)
  have hpi := Real.pi_pos
  unfold nucleonSigma effFF
  rw [Real.sq_sqrt (by positivity)]
  have h2 : 2 + 4 * k.mass ^ 2 / t ≠ 0 := by positivity
  have h3 : t + 2 * k.mass ^ 2 ≠ 0 := by positivity
  generalize Real.sqrt (1 - 4 * k.mass ^ 2 / t) = β at *
  field_simp
  ring

theorem transform_iff {m α cs err t : ℝ} (hm : m ≠ 0) (hα : α ≠ 0) (ht : 0 ≤ t) {r : ℝ × ℝ} :
    transformToEffectiveFormFactor m α cs err t = .ok r ↔
      4 * m ^ 2 < t ∧ 0 < cs ∧ r = (effFF m α cs t, err * effFF m α cs t / (2 * cs)) := by
  have hm2 : 0 < 4 * m ^ 2 := by positivity
  have hpi := Real.pi_pos
  unfold transformToEffectiveFormFactor
  rw [pyDivR_ok hm2.ne', except_ok_bind]
  rcases ht.eq_or_lt with rfl | ht0
  · rw [zero_div, pyDivR_zero]
    simp only [except_error_bind]
    constructor
    · intro h; cases h
    · rintro ⟨h, -⟩; exact absurd h (not_lt.mpr hm2.le)
  have htau : t / (4 * m ^ 2) ≠ 0 := by positivity
  rw [pyDivR_ok htau, one_div_div, except_ok_bind]
  rcases lt_trichotomy t (4 * m ^ 2) with hlt | heq | hgt
  · rw [pySqrt_neg (by rw [sub_neg, lt_div_iff₀ ht0]; linarith)]
    constructor
    · intro h; cases h
    · rintro ⟨h, -⟩; linarith
  · have : 1 - 4 * m ^ 2 / t = 0 := by rw [← heq, div_self ht0.ne', sub_self]
    rw [this, pySqrt_ok le_rfl, Real.sqrt_zero]
    simp only [except_ok_bind, mul_zero, zero_mul, pyDivR_zero, except_error_bind]
    constructor
    · intro h; cases h
    · rintro ⟨h, -⟩; linarith
  · have hr : 0 < 1 - 4 * m ^ 2 / t := by rw [sub_pos, div_lt_one ht0]; exact hgt
    have hb := Real.sqrt_pos.mpr hr
    rw [pySqrt_ok hr.le]
    simp only [except_ok_bind]
    have hden : 2 * Real.pi * α ^ 2 * Real.sqrt (1 - 4 * m ^ 2 / t) * (2 + 4 * m ^ 2 / t) ≠ 0 := by positivity
    have hdenp : 0 < 2 * Real.pi * α ^ 2 * Real.sqrt (1 - 4 * m ^ 2 / t) * (2 + 4 * m ^ 2 / t) := by positivity
    rw [pyDivR_ok hden, except_ok_bind, pyDivR_ok hden, except_ok_bind]
    rcases lt_trichotomy cs 0 with hc | rfl | hc
    · rw [pySqrt_neg (div_neg_of_neg_of_pos (by nlinarith) hdenp)]
      constructor
      · intro h; cases h
      · rintro ⟨-, h, -⟩; linarith
    · rw [mul_zero, zero_div, pySqrt_ok le_rfl, Real.sqrt_zero, except_ok_bind, pyDivR_zero]
      constructor
      · intro h; cases h
      · rintro ⟨-, h, -⟩; exact absurd h (lt_irrefl _)
    · have hg := effFF_pos hm hα hgt hc
      have hsq : effFF m α cs t ^ 2 = 3 * t * cs / (2 * Real.pi * α ^ 2 * Real.sqrt (1 - 4 * m ^ 2 / t) * (2 + 4 * m ^ 2 / t)) := by
        unfold effFF; rw [Real.sq_sqrt (by positivity)]
      rw [pySqrt_ok (by positivity), except_ok_bind]
      change (do let e ← pyDivR _ (effFF m α cs t); pure (effFF m α cs t, e)) = _ ↔ _
      rw [pyDivR_ok hg.ne', except_ok_bind]
      have he : 0.5 * (3 * t * err / (2 * Real.pi * α ^ 2 * Real.sqrt (1 - 4 * m ^ 2 / t) * (2 + 4 * m ^ 2 / t))) / effFF m α cs t =
          err * effFF m α cs t / (2 * cs) := by
        rw [div_eq_div_iff hg.ne' (by positivity)]
        rw [show err * effFF m α cs t * effFF m α cs t = err * effFF m α cs t ^ 2 by ring, hsq]
        ring
      rw [he]
      constructor
      · intro h; injection h with h; exact ⟨hgt, hc, h.symm⟩
      · rintro ⟨-, -, rfl⟩; rfl

theorem effFF_unique {k : Constants} {σ t g : ℝ} (hm : k.mass ≠ 0) (hα : k.alpha ≠ 0) (h : EffectiveFF k t σ g) :
    0 < σ ∧ g = effFF k.mass k.alpha σ t := by
  obtain ⟨ht, hg, hs⟩ := h
  have hm2 : 0 < 4 * k.mass ^ 2 := by positivity
  have ht0 : 0 < t := lt_trans hm2 ht
  have hb := Real.sqrt_pos.mpr (show 0 < 1 - 4 * k.mass ^ 2 / t by rw [sub_pos, div_lt_one ht0]; exact ht)
  have hpi := Real.pi_pos
  have hσ : 0 < σ := by
    rw [← hs]
    unfold nucleonSigma
    positivity
  refine ⟨hσ, ?_⟩
  unfold effFF
  rw [← hs]
  symm
  rw [Real.sqrt_eq_iff_mul_self_eq_of_pos hg]
  unfold nucleonSigma
  have h2 : 2 + 4 * k.mass ^ 2 / t ≠ 0 := by positivity
  have h3 : t + 2 * k.mass ^ 2 ≠ 0 := by positivity
  generalize Real.sqrt (1 - 4 * k.mass ^ 2 / t) = β at *
  field_simp
  ring

theorem momentumOf_spec {m t : ℝ} (hm : 0 < m) (ht : 4 * m ^ 2 < t) :
    0 ≤ momentumOf m t ∧ (t / (2 * m) - m) ^ 2 = momentumOf m t ^ 2 + m ^ 2 := by
  have ht0 : 0 < t := lt_trans (by positivity) ht
  refine ⟨by unfold momentumOf; positivity, ?_⟩
  unfold momentumOf
  rw [div_pow, Real.sq_sqrt (mul_nonneg ht0.le (by linarith))]
  field_simp
  ring

theorem momentumOf_unique {m t k : ℝ} (hm : 0 < m) (ht : 4 * m ^ 2 < t) (hk : 0 ≤ k) (h : (t / (2 * m) - m) ^ 2 = k ^ 2 + m ^ 2) :
    k = momentumOf m t := by
  obtain ⟨h1, h2⟩ := momentumOf_spec hm ht
  have : k ^ 2 = momentumOf m t ^ 2 := by linarith
  exact (pow_left_inj₀ hk h1 two_ne_zero).mp this

theorem labMomentum_ok {m t : ℝ} (hm : 0 < m) (ht : 4 * m ^ 2 < t) : labMomentum m t = .ok (momentumOf m t) := by
  have ht0 : 0 < t := lt_trans (by positivity) ht
  unfold labMomentum
  rw [pySqrt_ok (mul_nonneg ht0.le (by linarith)), except_ok_bind, pyDivR_ok (by positivity)]
  rfl

/-- Whether the residual exists. -/
def ResOk (k : Constants) (x : (Datapoint × ℝ × ℝ) × ℝ) : Prop :=
  4 * k.mass ^ 2 < x.1.1.place ∧ 0 < x.1.2.1 ∧ 0 < x.2

/-- The residual. -/
noncomputable def resVal (k : Constants) (x : (Datapoint × ℝ × ℝ) × ℝ) : Datapoint × ℝ × ℝ :=
  (x.1.1.moved (momentumOf k.mass x.1.1.place),
    effFF k.mass k.alpha x.1.2.1 x.1.1.place - effFF k.mass k.alpha x.2 x.1.1.place,
    x.1.2.2 * effFF k.mass k.alpha x.2 x.1.1.place / (2 * x.2))

theorem Datapoint.At.place {d : Datapoint} {t : ℝ} (h : d.At t) : d.place = t := by
  cases d <;> simp_all [Datapoint.At, Datapoint.place]

theorem isResidual_iff {k : Constants} (hm : 0 < k.mass) (hα : k.alpha ≠ 0) {x : Datapoint × ℝ × ℝ} {t : ℝ} (hx : x.1.At t) {b : ℝ}
    {q : Datapoint × ℝ × ℝ} : IsResidual k x b q ↔ ResOk k (x, b) ∧ q = resVal k (x, b) := by
  unfold ResOk resVal
  rw [hx.place]
  constructor
  · rintro ⟨t', p, g, g₀, h1, h2, h3, h4, h5, rfl⟩
    have : t' = t := by rw [← h1.place, hx.place]
    subst this
    obtain ⟨a1, a2⟩ := effFF_unique hm.ne' hα h4
    obtain ⟨b1, b2⟩ := effFF_unique hm.ne' hα h5
    refine ⟨⟨h4.1, a1, b1⟩, ?_⟩
    rw [← a2, ← b2, ← momentumOf_unique hm h4.1 h2 h3]
  · rintro ⟨⟨h1, h2, h3⟩, rfl⟩
    obtain ⟨m1, m2⟩ := momentumOf_spec hm h1
    exact ⟨t, _, _, _, hx, m1, m2, effFF_spec hm.ne' hα h1 h2, effFF_spec hm.ne' hα h1 h3, rfl⟩

/-! ### Lists -/

theorem mapM_map_of {β γ : Type} {f : β → Except PyErr γ} {C : β → Prop} {g : β → γ} {l : List β} {r : List γ}
    (h : ∀ a ∈ l, ∀ b, f a = .ok b ↔ C a ∧ b = g a) : l.mapM f = .ok r ↔ (∀ a ∈ l, C a) ∧ r = l.map g := by
  rw [mapM_eq_ok]
  induction l generalizing r with
  | nil => simp
  | cons a l ih =>
    have h' := fun {r} => ih (r := r) (fun a ha => h a (List.mem_cons_of_mem _ ha))
    rw [List.forall₂_cons_left_iff]
    constructor
    · rintro ⟨b, r', h1, h2, rfl⟩
      obtain ⟨c1, rfl⟩ := (h a (by simp) b).mp h1
      obtain ⟨c2, rfl⟩ := h'.mp h2
      exact ⟨by simpa using ⟨c1, c2⟩, rfl⟩
    · rintro ⟨c, rfl⟩
      exact ⟨_, _, (h a (by simp) _).mpr ⟨c a (by simp), rfl⟩, h'.mpr ⟨fun a ha => c a (by simp [ha]), rfl⟩, rfl⟩

theorem OneKind.at {ts : List Datapoint} (h : OneKind ts) {d : Datapoint} (hd : d ∈ ts) : 0 ≤ d.place ∧ d.At d.place := by
  rcases h with ⟨l, h, rfl⟩ | ⟨l, h, rfl⟩ <;>
  · obtain ⟨q, hq, rfl⟩ := List.mem_map.mp hd
    exact ⟨h q hq, rfl⟩

theorem attr_float {d : Datapoint} (h : d.At d.place) {β : Type} (f : ℝ → Except PyErr β) :
    (do let z ← d.attrT; let t ← pyFloat z; f t) = f d.place := by
  cases d with
  | kaon z c =>
    have : z = ((z.re : ℝ) : ℂ) := h
    show (do let t ← pyFloat z; f t) = f z.re
    rw [this, pyFloat_ofReal]; rfl
  | nucleon z a b =>
    have : z = ((z.re : ℝ) : ℂ) := h
    show (do let t ← pyFloat z; f t) = f z.re
    rw [this, pyFloat_ofReal]; rfl
  | row xs => exact h.elim

theorem transformAll_iff {k : Constants} (hm : 0 < k.mass) (hα : k.alpha ≠ 0) {β : Type} (L : List β) (cs err : β → ℝ) (d : β → Datapoint)
    (h : ∀ x ∈ L, 0 ≤ (d x).place ∧ (d x).At (d x).place) {r : List (ℝ × ℝ)} :
    transformAll k (L.map cs) (L.map err) (L.map d) = .ok r ↔ (∀ x ∈ L, 4 * k.mass ^ 2 < (d x).place ∧ 0 < cs x) ∧
      r = L.map fun x => (effFF k.mass k.alpha (cs x) (d x).place, err x * effFF k.mass k.alpha (cs x) (d x).place / (2 * cs x)) := by
  unfold transformAll
  rw [zip3_map, mapM_map]
  apply mapM_map_of
  intro x hx b
  dsimp only
  rw [attr_float (h x hx).2, transform_iff hm.ne' hα (h x hx).1, and_assoc]

theorem mapToMomenta_ok {m : ℝ} (hm : 0 < m) {ts : List Datapoint} (h : OneKind ts) (ht : ∀ d ∈ ts, 4 * m ^ 2 < d.place) :
    mapToMomenta m ts = .ok (ts.map fun d => d.moved (momentumOf m d.place)) := by
  rcases h with ⟨l, h, rfl⟩ | ⟨l, h, rfl⟩
  · rcases l with _ | ⟨a, l⟩
    · rfl
    · show List.mapM _ ((a :: l).map _) = _
      rw [mapM_map, List.map_map]
      apply mapM_ok_of
      intro q hq
      dsimp only
      have : 4 * m ^ 2 < q.1 := ht _ (List.mem_map_of_mem hq)
      unfold laboratoryMomentum
      rw [pyFloat_ofReal, except_ok_bind, labMomentum_ok hm this]
      rfl
  · rcases l with _ | ⟨a, l⟩
    · rfl
    · show List.mapM _ ((a :: l).map _) = _
      rw [mapM_map, List.map_map]
      apply mapM_ok_of
      intro q hq
      dsimp only
      have : 4 * m ^ 2 < q.1 := ht _ (List.mem_map_of_mem hq)
      unfold laboratoryMomentum
      rw [pyFloat_ofReal, except_ok_bind, labMomentum_ok hm this]
      rfl

theorem smallMomenta_ok (thr : ℝ) (l : List (Datapoint × ℝ × ℝ)) (h : ∀ q ∈ l, q.1.At q.1.place) :
    smallMomenta thr l = .ok (l.filter fun q => decide (q.1.place < thr)) := by
  induction l with
  | nil => rfl
  | cons q l ih =>
    unfold smallMomenta
    rw [attr_float (h q (by simp)), ih fun q hq => h q (by simp [hq]), except_ok_bind, List.filter_cons]
    by_cases hq : q.1.place < thr <;> simp [hq] <;> rfl

theorem Datapoint.At.moved {d : Datapoint} {t : ℝ} (h : d.At t) (x : ℝ) : (d.moved x).At x ∧ (d.moved x).place = x := by
  cases d with
  | kaon z c => exact ⟨rfl, rfl⟩
  | nucleon z a b => exact ⟨rfl, rfl⟩
  | row xs => exact h.elim

/-! ### Flags do not matter for the evaluation -/

theorem findFrom_fix (name : String) (l : List (Parameter ℝ)) (i : ℕ) :
    findFrom name i (l.map fun p => (⟨p.name, p.value, true⟩ : Parameter ℝ)) =
      (findFrom name i l).map fun r => (r.1, ⟨r.2.name, r.2.value, true⟩) := by
  induction l generalizing i with
  | nil => rfl
  | cons p l ih =>
    simp only [List.map_cons, findFrom]
    split_ifs
    · rfl
    · exact ih _

theorem getItem_fixAll (p : ModelParameters ℝ) (n : String) :
    p.fixAllParameters.getItem n = (p.getItem n).map fun q => ⟨q.name, q.value, true⟩ := by
  unfold ModelParameters.getItem ModelParameters.find
  show (do let r ← findFrom n 0 (p.data.map fun p : Parameter ℝ => (⟨p.name, p.value, true⟩ : Parameter ℝ)); pure r.2) = _
  rw [findFrom_fix]
  rcases findFrom n 0 p.data with e | r <;> rfl

theorem asKwargs_fixAll (p : ModelParameters ℝ) : p.fixAllParameters.asKwargs = p.asKwargs := by
  unfold ModelParameters.asKwargs ModelParameters.toList
  show pyDict (List.map (fun p : Parameter ℝ => (p.name, p.value)) (List.map (fun p : Parameter ℝ => (⟨p.name, p.value, true⟩ : Parameter ℝ)) p.data)) = _
  rw [List.map_map]
  rfl

theorem getFFModel_fixAll (p : ModelParameters ℝ) : getFFModel p.fixAllParameters = getFFModel p := by
  unfold getFFModel
  rw [asKwargs_fixAll]
  have hc : p.fixAllParameters.cls = p.cls := rfl
  rw [hc]
  cases p.cls with
  | etgmr =>
    dsimp only
    rw [getItem_fixAll, getItem_fixAll, getItem_fixAll]
    rcases p.getItem "a" with e | a
    · rfl
    · rcases p.getItem "m_a" with e | b
      · rfl
      · rcases p.getItem "m_d" with e | c <;> rfl
  | twoPoles =>
    dsimp only
    rw [getItem_fixAll, getItem_fixAll, getItem_fixAll]
    rcases p.getItem "a" with e | a
    · rfl
    · rcases p.getItem "m_1" with e | b
      · rfl
      · rcases p.getItem "m_2" with e | c <;> rfl
  | _ => rfl

theorem functionCrossSection_fixAll (p : ModelParameters ℝ) (ts : List Datapoint) (m a h : ℝ) :
    functionCrossSection ts m a h p.fixAllParameters = functionCrossSection ts m a h p := by
  unfold functionCrossSection; rw [getFFModel_fixAll]

theorem functionFormFactor_fixAll (p : ModelParameters ℝ) (ts : List Datapoint) :
    functionFormFactor ts p.fixAllParameters = functionFormFactor ts p := by
  unfold functionFormFactor; rw [getFFModel_fixAll]

theorem fixAll_update (p : ModelParameters ℝ) : p.fixAllParameters.updateFreeValues [] = (.ok (), p.fixAllParameters) := by
  unfold ModelParameters.updateFreeValues
  have : freeWithIndex p.fixAllParameters.data = [] := by
    unfold freeWithIndex
    rw [List.filter_eq_nil_iff]
    intro q hq
    have := List.mem_zipIdx' hq
    have h2 : q.1 ∈ p.fixAllParameters.data := by rw [this.2]; exact List.getElem_mem _
    obtain ⟨r, -, hr⟩ := List.mem_map.mp h2
    rw [← hr]; simp
  rw [this]
  rfl

/-! ### The set-up -/

/-- The parameters of the oscillations at the start. -/
noncomputable def startOscillations : ModelParameters ℝ :=
  ⟨.oscillations, [], [⟨"a", 100, false⟩, ⟨"b", 2, false⟩, ⟨"c", 5, false⟩, ⟨"d", 0, false⟩]⟩

/-- The points kept. -/
noncomputable def keptResiduals (k : Constants) (L : List ((Datapoint × ℝ × ℝ) × ℝ)) : List (Datapoint × ℝ × ℝ) :=
  (L.map (resVal k)).filter fun q => decide (q.1.place < 5)

/-- The task after its set-up. -/
noncomputable def residualTask (self : Task) (kept : List (Datapoint × ℝ × ℝ)) (ref : ℕ) : Task :=
  { self with
    ts := kept.map (·.1), ys := kept.map (·.2.1), errors := kept.map (·.2.2)
    ts_fit := kept.map (·.1), ys_fit := kept.map (·.2.1), errors_fit := kept.map (·.2.2)
    parameters := ref
    partial_f := some (.oscillations ref) }

/-- The world after the set-up. -/
noncomputable def residualWorld (self : Task) (p : ModelParameters ℝ) (w : World) : World :=
  { w with heap := w.heap.set self.parameters p.fixAllParameters ++ [p.fixAllParameters] ++ [startOscillations] }

theorem setUpResidual_iff {self : Task} {w : World} {p : ModelParameters ℝ} {l : List (Datapoint × ℝ × ℝ)} (hc : self.cls = .residual)
    (h : w.heap[self.parameters]? = some p) (hp : Reachable p) (hm : 0 < self.constants.mass) (hα : self.constants.alpha ≠ 0)
    (hd : self.Data l) (ho : OneKind (l.map (·.1))) {task : Task} {w₁ : World} :
    self.setUp w = (.ok task, w₁) ↔ ∃ bs, functionCrossSection self.ts self.constants.mass self.constants.alpha self.constants.hc_squared p = .ok bs ∧
      (∀ x ∈ l.zip bs, ResOk self.constants x) ∧ keptResiduals self.constants (l.zip bs) ≠ [] ∧
      task = residualTask self (keptResiduals self.constants (l.zip bs)) (w.heap.length + 1) ∧ w₁ = residualWorld self p w := by
  have hfix : Reachable p.fixAllParameters := .step .fixAll hp
  have hl := heap_set_append h
  have hset : self.setUp = self.setUpResidual := by unfold Task.setUp; rw [hc]
  rw [hset]
  unfold Task.setUpResidual
  rw [PyM.bind_ok (mutateParams_run h _)]
  have hp1 : (w.heap.set self.parameters p.fixAllParameters)[self.parameters]? = some p.fixAllParameters := List.getElem?_set_self hl
  rw [PyM.bind_ok (makePartialIn_run (w := { w with heap := w.heap.set self.parameters p.fixAllParameters }) hp1 hfix _)]
  rw [PyM.bind_run, callPartialIn_run (q := p.fixAllParameters) (by exact List.getElem?_concat_length)]
  have hps : partialSpec self.csKind p.fixAllParameters self.ts [] =
      functionCrossSection self.ts self.constants.mass self.constants.alpha self.constants.hc_squared p := by
    unfold partialSpec
    rw [fixAll_update]
    exact functionCrossSection_fixAll p _ _ _ _
  rw [hps, fixAll_update]
  rcases hb : functionCrossSection self.ts self.constants.mass self.constants.alpha self.constants.hc_squared p with e | bs
  · dsimp only
    constructor
    · intro h; injection h with h; cases h
    · rintro ⟨bs, h, -⟩; cases h
  dsimp only
  have hlen : bs.length = l.length := by
    have := ((C51_pointwise hp (.crossSection self.constants.mass self.constants.alpha self.constants.hc_squared)).2 hb).1
    rw [this, hd.1, List.length_map]
  have z1 : (l.zip bs).map Prod.fst = l := List.map_fst_zip (by omega)
  have z2 : (l.zip bs).map Prod.snd = bs := List.map_snd_zip (by omega)
  have e1 : self.ts = (l.zip bs).map (·.1.1) := by rw [hd.1, ← z1, List.map_map]; simp only [z1]; rfl
  have e2 : self.ys = (l.zip bs).map (·.1.2.1) := by rw [hd.2.1, ← z1, List.map_map]; simp only [z1]; rfl
  have e3 : self.errors = (l.zip bs).map (·.1.2.2) := by rw [hd.2.2, ← z1, List.map_map]; simp only [z1]; rfl
  have ho' : OneKind self.ts := by rw [hd.1]; exact ho
  have hat : ∀ x ∈ l.zip bs, 0 ≤ x.1.1.place ∧ x.1.1.At x.1.1.place := by
    intro x hx
    apply ho'.at
    rw [e1]
    exact List.mem_map_of_mem (f := fun x : (Datapoint × ℝ × ℝ) × ℝ => x.1.1) hx
  have hex : (∃ bs', (Except.ok bs : Except PyErr (List ℝ)) = .ok bs' ∧
      (∀ x ∈ l.zip bs', ResOk self.constants x) ∧ keptResiduals self.constants (l.zip bs') ≠ [] ∧
      task = residualTask self (keptResiduals self.constants (l.zip bs')) (w.heap.length + 1) ∧ w₁ = residualWorld self p w) ↔
      ((∀ x ∈ l.zip bs, ResOk self.constants x) ∧ keptResiduals self.constants (l.zip bs) ≠ [] ∧
      task = residualTask self (keptResiduals self.constants (l.zip bs)) (w.heap.length + 1) ∧ w₁ = residualWorld self p w) := by
    constructor
    · rintro ⟨bs', hbs, h⟩; injection hbs with hbs; subst hbs; exact h
    · intro h; exact ⟨bs, rfl, h⟩
  rw [hex]
  clear hex
  generalize l.zip bs = L at *
  have t1 := fun {r} => transformAll_iff hm hα L (fun x => x.2) (fun x => x.1.2.2) (fun x => x.1.1) hat (r := r)
  have t2 := fun {r} => transformAll_iff hm hα L (fun x => x.1.2.1) (fun x => x.1.2.2) (fun x => x.1.1) hat (r := r)
  have z2' : L.map (fun x => x.2) = bs := z2
  rw [z2', ← e3, ← e1] at t1
  rw [← e2, ← e3, ← e1] at t2
  by_cases hne : L = []
  · constructor
    · intro hr
      have : transformAll self.constants bs self.errors self.ts = .ok [] := by rw [t1, hne]; simp
      rw [this, except_ok_bind] at hr
      rw [PyM.bind_error (e := .valueError) (by rfl)] at hr
      injection hr with hr; cases hr
    · rintro ⟨-, hk, -⟩
      rw [hne] at hk
      exact absurd rfl hk
  by_cases hC1 : ∀ x ∈ L, 4 * self.constants.mass ^ 2 < x.1.1.place ∧ 0 < x.2
  swap
  · constructor
    · intro hr
      obtain ⟨a, s, hr, -⟩ := PyM.bind_eq_ok.mp hr
      rw [PyM.lift_run] at hr
      injection hr with hr _
      obtain ⟨r, hr, -⟩ := except_bind_eq_ok.mp hr
      exact absurd (t1.mp hr).1 hC1
    · rintro ⟨hk, -⟩
      exact absurd (fun x hx => ⟨(hk x hx).1, (hk x hx).2.2⟩) hC1
  rw [t1.mpr ⟨hC1, rfl⟩, except_ok_bind]
  have u1 : ∀ {α β γ : Type} (f : α → β × γ) {l : List α}, l ≠ [] → unzip2 (l.map f) = .ok (l.map fun x => (f x).1, l.map fun x => (f x).2) := by
    intro α β γ f l hl
    unfold unzip2
    rw [if_neg (by simpa using hl), List.map_map, List.map_map]
    rfl
  rw [u1 _ hne, PyM.bind_ok (PyM.lift_run _ _)]
  dsimp only
  by_cases hC2 : ∀ x ∈ L, 4 * self.constants.mass ^ 2 < x.1.1.place ∧ 0 < x.1.2.1
  swap
  · constructor
    · intro hr
      obtain ⟨a, s, hr, -⟩ := PyM.bind_eq_ok.mp hr
      rw [PyM.lift_run] at hr
      injection hr with hr _
      obtain ⟨r, hr, -⟩ := except_bind_eq_ok.mp hr
      exact absurd (t2.mp hr).1 hC2
    · rintro ⟨hk, -⟩
      exact absurd (fun x hx => ⟨(hk x hx).1, (hk x hx).2.1⟩) hC2
  rw [t2.mpr ⟨hC2, rfl⟩, except_ok_bind, u1 _ hne, PyM.bind_ok (PyM.lift_run _ _)]
  dsimp only
  have hres : ∀ x ∈ L, ResOk self.constants x := fun x hx => ⟨(hC1 x hx).1, (hC2 x hx).2, (hC1 x hx).2⟩
  have hthr : ∀ d ∈ self.ts, 4 * self.constants.mass ^ 2 < d.place := by
    intro d hd
    rw [e1] at hd
    obtain ⟨x, hx, rfl⟩ := List.mem_map.mp hd
    exact (hC1 x hx).1
  rw [mapToMomenta_ok hm ho' hthr, PyM.bind_ok (PyM.lift_run _ _)]
  have hzip : List.zipWith (fun y b => y - b)
      (L.map fun x => effFF self.constants.mass self.constants.alpha x.1.2.1 x.1.1.place)
      (L.map fun x => effFF self.constants.mass self.constants.alpha x.2 x.1.1.place) =
      L.map fun x => (resVal self.constants x).2.1 := by
    rw [List.zipWith_map, List.zipWith_self]
    rfl
  rw [hzip]
  have hmv : self.ts.map (fun d => d.moved (momentumOf self.constants.mass d.place)) = L.map fun x => (resVal self.constants x).1 := by
    rw [e1, List.map_map]; rfl
  rw [hmv]
  have herr : (L.map fun x => x.1.2.2 * effFF self.constants.mass self.constants.alpha x.2 x.1.1.place / (2 * x.2)) =
      L.map fun x => (resVal self.constants x).2.2 := rfl
  rw [herr, zip3_map]
  have hsm := smallMomenta_ok 5 (L.map (resVal self.constants)) (by
    intro q hq
    obtain ⟨x, hx, rfl⟩ := List.mem_map.mp hq
    have := (hat x hx).2.moved (momentumOf self.constants.mass x.1.1.place)
    show (x.1.1.moved _).At (x.1.1.moved _).place
    rw [this.2]; exact this.1)
  have hL : (L.map fun x => ((resVal self.constants x).1, (resVal self.constants x).2.1, (resVal self.constants x).2.2)) =
      L.map (resVal self.constants) := rfl
  rw [hL, hsm, except_ok_bind]
  change ((do let x ← PyM.lift (unzip3 (keptResiduals self.constants L)); _ : PyM World Task) _ = _) ↔ _
  by_cases hk : keptResiduals self.constants L = []
  · rw [hk]
    constructor
    · intro hr
      rw [PyM.bind_error (e := .valueError) (by rfl)] at hr
      injection hr with hr; cases hr
    · rintro ⟨-, hk, -⟩; exact absurd rfl hk
  have hu3 : unzip3 (keptResiduals self.constants L) = .ok ((keptResiduals self.constants L).map (·.1),
      (keptResiduals self.constants L).map (·.2.1), (keptResiduals self.constants L).map (·.2.2)) := by
    unfold unzip3; rw [if_neg (by simpa using hk)]
  rw [hu3, PyM.bind_ok (PyM.lift_run _ _)]
  dsimp only
  have h0 : ParamClass.oscillations.init [("a", (100 : ℝ)), ("b", 2), ("c", 5), ("d", 0)] = .ok startOscillations := rfl
  rw [h0, PyM.bind_ok (PyM.lift_run _ _), PyM.bind_ok (newParams_run _ _)]
  have hlast : (w.heap.set self.parameters p.fixAllParameters ++ [p.fixAllParameters]).length = w.heap.length + 1 := by simp
  have hset2 : (w.heap.set self.parameters p.fixAllParameters ++ [p.fixAllParameters]).set
      (w.heap.set self.parameters p.fixAllParameters).length p.fixAllParameters =
      w.heap.set self.parameters p.fixAllParameters ++ [p.fixAllParameters] := set_self List.getElem?_concat_length
  constructor
  · intro hr
    injection hr with h1 h2
    injection h1 with h1
    refine ⟨hres, hk, ?_, ?_⟩
    · rw [← h1]
      simp only [hset2, hlast]
      rfl
    · rw [← h2]
      simp only [hset2]
      rfl
  · rintro ⟨-, -, rfl, rfl⟩
    apply Prod.ext
    · simp only [hset2, hlast]
      rfl
    · simp only [hset2]
      rfl

/-! ### The fitted function -/

theorem oscillationsPartial_points {o : ModelParameters ℝ}
    (ho : o.toList = [⟨"a", 100, false⟩, ⟨"b", 2, false⟩, ⟨"c", 5, false⟩, ⟨"d", 0, false⟩]) (points : List (Datapoint × ℝ)) (a b c d : ℝ)
    (hpt : ∀ q ∈ points, q.1.At q.2 ∨ ∃ d : Datapoint, d.At q.2 ∧ q.1 = d.toRow) :
    oscillationsPartial o (points.map (·.1)) [a, b, c, d] = .ok (points.map fun q => a * Real.exp (-(b * q.2)) * Real.cos (c * q.2 + d)) := by
  unfold oscillationsPartial
  rw [ho]
  have h1 : ParamClass.oscillations.fromList [⟨"a", (100 : ℝ), false⟩, ⟨"b", 2, false⟩, ⟨"c", 5, false⟩, ⟨"d", 0, false⟩] =
      .ok startOscillations := rfl
  rw [h1, except_ok_bind]
  have h2 : startOscillations.updateFreeValues [a, b, c, d] =
      (.ok (), ⟨.oscillations, [], [⟨"a", a, false⟩, ⟨"b", b, false⟩, ⟨"c", c, false⟩, ⟨"d", d, false⟩]⟩) := rfl
  rw [h2]
  show List.mapM _ _ = _
  rw [mapM_map]
  apply mapM_ok_of
  intro q hq
  have hz : ∀ z : ℂ, z = q.2 → (do let x ← pyFloat z; (pure ((⟨a, b, c, d⟩ : DampedOscillations).call x) : Except PyErr ℝ)) =
      .ok (a * Real.exp (-(b * q.2)) * Real.cos (c * q.2 + d)) := by
    rintro z rfl
    rw [pyFloat_ofReal, except_ok_bind]
    unfold DampedOscillations.call
    rw [show -1 * b * q.2 = -(b * q.2) by ring]
    rfl
  have hq' := hpt q hq
  obtain ⟨e, x⟩ := q
  rcases hq' with h | ⟨e', h, he⟩
  · cases e with
    | kaon z c => exact hz z h
    | nucleon z a b => exact hz z h
    | row xs => exact h.elim
  · dsimp only at he
    subst he
    cases e' with
    | kaon z c => exact hz z h
    | nucleon z a b => exact hz z h
    | row xs => exact h.elim

theorem oscillationsPartial_damped (points : List (Datapoint × ℝ)) (hpt : ∀ q ∈ points, q.1.At q.2 ∨ ∃ d : Datapoint, d.At q.2 ∧ q.1 = d.toRow) :
    oscillationsPartial startOscillations (points.map (·.1)) = dampedValues (points.map (·.2)) := by
  funext args
  have hwrong : args.length ≠ 4 → oscillationsPartial startOscillations (points.map (·.1)) args = .error .valueError := by
    intro hl
    unfold oscillationsPartial
    have h1 : ParamClass.oscillations.fromList startOscillations.toList = .ok startOscillations := rfl
    rw [h1, except_ok_bind, C40_wrong_length startOscillations args hl]
  match args with
  | [] => exact hwrong (by decide)
  | [_] => exact hwrong (by simp)
  | [_, _] => exact hwrong (by simp)
  | [_, _, _] => exact hwrong (by simp)
  | [a, b, c, d] =>
    rw [oscillationsPartial_points rfl points a b c d hpt]
    show _ = Except.ok ((points.map Prod.snd).map _)
    rw [List.map_map]
    rfl
  | _ :: _ :: _ :: _ :: _ :: _ => exact hwrong (by simp)

theorem startOscillations_bounds (handpicked : Bool) : startOscillations.getBoundsForFreeParameters handpicked =
    .ok (if handpicked then [⊥, ((0 : ℝ) : WithBot ℝ), ((0 : ℝ) : WithBot ℝ), ⊥] else [⊥, ⊥, ⊥, ⊥], [⊤, ⊤, ⊤, ⊤]) := by
  cases handpicked
  · rfl
  · have : ((0.0 : ℚ) : ℝ) = 0 := by norm_num
    rw [if_pos rfl, ← this]
    rfl

end UA
