import Verif.Lemmas.Continuity
import Verif.Lemmas.EndToEnd

/-! The fitted kaon functions as functions of the parameters. -/

namespace UA

open Complex ComplexConjugate Filter Topology

variable {ι : Type*} {l : Filter ι}

theorem resS_cont (c : ParamClass) : ContList fun v => (KaonArgs.ofValues c v).resS := by
  cases c <;>
    simp only [KaonArgs.ofValues, KaonArgs.resS, KaonUAModel.Args.resS, KaonUAModelB.Args.resS, KaonUAModelSimplified.Args.resS,
      KaonUAModel.Args.ofValues, KaonUAModelB.Args.ofValues, KaonUAModelSimplified.Args.ofValues] <;>
    repeat' first
      | exact ContList.nil
      | refine ContList.cons ?_ ?_ ?_ ?_
      | fun_prop

theorem resV_cont (c : ParamClass) : ContList fun v => (KaonArgs.ofValues c v).resV := by
  cases c <;>
    simp only [KaonArgs.ofValues, KaonArgs.resV, KaonUAModel.Args.resV, KaonUAModelB.Args.resV, KaonUAModelSimplified.Args.resV,
      KaonUAModel.Args.ofValues, KaonUAModelB.Args.ofValues, KaonUAModelSimplified.Args.ofValues] <;>
    repeat' first
      | exact ContList.nil
      | refine ContList.cons ?_ ?_ ?_ ?_
      | fun_prop

theorem thresholds_ofValues (c : ParamClass) (v : String → ℝ) : (KaonArgs.ofValues c v).t0S = v "t_0_isoscalar" ∧
    (KaonArgs.ofValues c v).tinS = v "t_in_isoscalar" ∧ (KaonArgs.ofValues c v).t0V = v "t_0_isovector" ∧
    (KaonArgs.ofValues c v).tinV = v "t_in_isovector" := by
  cases c <;> exact ⟨rfl, rfl, rfl, rfl⟩

/-- The value of the form factor. -/
noncomputable def KaonArgs.formula (x : KaonArgs) (ch : Bool) (t : ℝ) : ℂ :=
  FsumL x.t0S x.tinS x.resS t + (if ch then 1 else -1) * FsumL x.t0V x.tinV x.resV t

theorem KaonInside.run_eq {p : ModelParameters ℝ} {x : KaonArgs} (hx : KaonInside p x) (ch : Bool) {t : ℝ} (ht : 0 ≤ t)
    (h : ¬ ∃ q ∈ p.toList, "t_in_".toList <+: q.name.toList ∧ t = q.value) : x.run ch t = .ok (x.formula ch t) := by
  rw [← hx.tin, not_or] at h
  obtain ⟨k, hk, hrun⟩ := KaonArgs.get_view (hx.builds ch)
  rw [hrun]
  refine hk.call_ok hx.proper.1 hx.proper.2 (by simpa using ht) ?_
  have hp : ∀ r ∈ x.resS ++ x.resV, r.pole.im ≠ 0 := fun r hr => by
    rw [Res.pole, tMesonPole_eq]
    simp [polePosition, (hx.res r hr).1, (hx.res r hr).2]
  rintro (h' | h' | ⟨r, hr, h' | h'⟩)
  · exact h.1 (by exact_mod_cast h')
  · exact h.2 (by exact_mod_cast h')
  · exact hp r hr (by rw [← h']; simp)
  · apply hp r hr
    have := congrArg Complex.im h'
    simpa using this.symm

theorem formula_tendsto (c : ParamClass) {v : ι → String → ℝ} {V : String → ℝ} (hv : Tendsto v l (𝓝 V)) {X : KaonArgs} (hX : X = .ofValues c V)
    (h0S : 0 ≤ X.t0S) (h0V : 0 ≤ X.t0V) (hp : X.Proper)
    (hS : ∀ r ∈ X.resS, r.mass ≠ 0 ∧ r.decay ≠ 0 ∧ r.mass ^ 2 ≠ X.tinS)
    (hV : ∀ r ∈ X.resV, r.mass ≠ 0 ∧ r.decay ≠ 0 ∧ r.mass ^ 2 ≠ X.tinV) (ch : Bool) {t : ℝ} (h1 : t ≠ X.tinS) (h2 : t ≠ X.tinV) :
    Tendsto (fun i => (KaonArgs.ofValues c (v i)).formula ch t) l (𝓝 (X.formula ch t)) := by
  subst hX
  have hn : ∀ n, Tendsto (fun i => v i n) l (𝓝 (V n)) := fun n => (continuous_apply n).continuousAt.tendsto.comp hv
  obtain ⟨e1, e2, e3, e4⟩ := thresholds_ofValues c V
  have a1 : Tendsto (fun i => (KaonArgs.ofValues c (v i)).t0S) l (𝓝 (KaonArgs.ofValues c V).t0S) := by
    rw [e1]; exact (hn _).congr fun i => (thresholds_ofValues c (v i)).1.symm
  have a2 : Tendsto (fun i => (KaonArgs.ofValues c (v i)).tinS) l (𝓝 (KaonArgs.ofValues c V).tinS) := by
    rw [e2]; exact (hn _).congr fun i => (thresholds_ofValues c (v i)).2.1.symm
  have a3 : Tendsto (fun i => (KaonArgs.ofValues c (v i)).t0V) l (𝓝 (KaonArgs.ofValues c V).t0V) := by
    rw [e3]; exact (hn _).congr fun i => (thresholds_ofValues c (v i)).2.2.1.symm
  have a4 : Tendsto (fun i => (KaonArgs.ofValues c (v i)).tinV) l (𝓝 (KaonArgs.ofValues c V).tinV) := by
    rw [e4]; exact (hn _).congr fun i => (thresholds_ofValues c (v i)).2.2.2.symm
  exact (FsumL_tendsto (resS_cont c) hv h0S hp.1 a1 a2 hS h1).add
    (tendsto_const_nhds.mul (FsumL_tendsto (resV_cont c) hv h0V hp.2 a3 a4 hV h2))

/-! ### The fitted functions point by point -/

/-- What the two functions make of a form factor value. -/
noncomputable def pointValue : PartialKind → ℝ → ℂ → ℝ
  | .formFactor, _, F => ‖F‖
  | .crossSection m a h, t, F => ‖((ScalarCS.init m a h).precalculated_coefficient_1 : ℂ) / t *
      (1 - ((ScalarCS.init m a h).four_mass_squared : ℂ) / t) ^ (3 / 2 : ℂ) * (‖F‖ : ℂ) ^ 2‖

theorem pointValue_continuous (kind : PartialKind) (t : ℝ) : Continuous (pointValue kind t) := by
  cases kind
  · exact continuous_norm
  · unfold pointValue
    exact (continuous_const.mul ((Complex.continuous_ofReal.comp continuous_norm).pow 2)).norm

theorem KaonInside.eval_eq {p : ModelParameters ℝ} {x : KaonArgs} (hx : KaonInside p x) (kind : PartialKind) {points : List (ℝ × Bool)}
    (h0 : ∀ d ∈ points, 0 ≤ d.1) (hcs : kind ≠ .formFactor → ∀ d ∈ points, d.1 ≠ 0)
    (h : ∀ d ∈ points, ¬ ∃ q ∈ p.toList, "t_in_".toList <+: q.name.toList ∧ d.1 = q.value) :
    kind.eval (points.map fun d => .kaon d.1 d.2) p = .ok (points.map fun d => pointValue kind d.1 (x.formula d.2 d.1)) := by
  cases kind with
  | formFactor =>
    show functionFormFactor _ p = _
    rw [hx.wiring.ff, hx.check, except_ok_bind, mapM_map]
    refine mapM_ok_of fun d hd => ?_
    show (do let F ← x.run d.2 d.1; return ‖F‖) = _
    rw [hx.run_eq d.2 (h0 d hd) (h d hd)]
    rfl
  | crossSection m a hc2 =>
    show functionCrossSection _ m a hc2 p = _
    rw [hx.wiring.cs, hx.check, except_ok_bind, mapM_map]
    refine mapM_ok_of fun d hd => ?_
    show (do let σ ← (ScalarCS.init m a hc2).call (x.run d.2) d.1; return ‖σ‖) = _
    have hz : (d.1 : ℂ) ≠ 0 := by exact_mod_cast hcs (by simp) d hd
    unfold ScalarCS.call
    rw [hx.run_eq d.2 (h0 d hd) (h d hd), except_ok_bind, pyDiv_ok hz, except_ok_bind, pyDiv_ok hz]
    rfl

theorem results_tend {f : ι → ℝ × Bool → ℝ} {y : ℝ × Bool → ℝ} {points : List (ℝ × Bool)}
    (h : ∀ d ∈ points, Tendsto (fun i => f i d) l (𝓝 (y d))) {F : ι → Except PyErr (List ℝ)} {r : Except PyErr (List ℝ)}
    (hF : ∀ᶠ i in l, F i = .ok (points.map (f i))) (hr : r = .ok (points.map y)) : ResultsTendTo F l r := by
  refine ⟨_, hr, fun ε hε => ?_⟩
  have key : ∀ᶠ i in l, List.Forall₂ (fun y' y => |y' - y| < ε) (points.map (f i)) (points.map y) := by
    clear hF hr
    induction points with
    | nil => exact Eventually.of_forall fun i => by simp
    | cons d ps ih =>
      have h1 := Metric.tendsto_nhds.mp (h d (by simp)) ε hε
      filter_upwards [h1, ih fun d' hd' => h d' (List.mem_cons_of_mem _ hd')] with i hi hi'
      exact List.Forall₂.cons (by simpa [Real.dist_eq] using hi) hi'
  filter_upwards [hF, key] with i hi hk
  exact ⟨_, hi, hk⟩

/-- Name by name. -/
theorem values_tend {P : ι → ModelParameters ℝ} {p : ModelParameters ℝ} (hw : p.WellFormed) (hP : ∀ i, (P i).WellFormed ∧ (P i).cls = p.cls)
    (h : ValuesTendTo P l p) : ∃ (v : ι → String → ℝ) (V : String → ℝ), (∀ q ∈ p.data, q.value = V q.name) ∧
      (∀ i, ∀ q ∈ (P i).data, q.value = v i q.name) ∧ Tendsto v l (𝓝 V) := by
  classical
  have hex : ∀ {p : ModelParameters ℝ}, p.WellFormed → ∃ v : String → ℝ, (∀ q ∈ p.data, q.value = v q.name) ∧
      ∀ n, n ∉ p.cls.table.initArgs → v n = 0 := by
    intro p hw
    obtain ⟨v, hv⟩ := hw.exists_values
    refine ⟨fun n => if n ∈ p.cls.table.initArgs then v n else 0, fun q hq => ?_, fun n hn => if_neg hn⟩
    show _ = if _ then _ else _
    rw [if_pos (by rw [← hw.names]; exact List.mem_map_of_mem hq)]
    exact hv q hq
  obtain ⟨V, hV, hV0⟩ := hex hw
  choose v hv hv0 using fun i => hex (hP i).1
  refine ⟨v, V, hV, hv, tendsto_pi_nhds.mpr fun n => ?_⟩
  by_cases hn : n ∈ p.cls.table.initArgs
  · rw [← hw.names] at hn
    obtain ⟨q, hq, rfl⟩ := List.mem_map.mp hn
    refine Metric.tendsto_nhds.mpr fun ε hε => ?_
    filter_upwards [h q hq ε hε] with i hi
    obtain ⟨q', hq', hname, hclose⟩ := hi
    rw [Real.dist_eq, ← hV q hq, ← hname, ← hv i q' hq']
    exact hclose
  · rw [hV0 n hn]
    refine tendsto_const_nhds.congr fun i => ?_
    rw [hv0 i n (by rw [(hP i).2]; exact hn)]

theorem eval_tends {p : ModelParameters ℝ} (h : Reachable p) (hc : IsKaonClass p.cls) (hi : p.InsideMaximal) (hoff : p.OffSwitch)
    {P : ι → ModelParameters ℝ} (hP : ∀ i, Reachable (P i) ∧ (P i).cls = p.cls ∧ (P i).InsideMaximal) (ht : ValuesTendTo P l p)
    (kind : PartialKind) {points : List (ℝ × Bool)} (h0 : ∀ d ∈ points, 0 ≤ d.1) (hcs : kind ≠ .formFactor → ∀ d ∈ points, d.1 ≠ 0)
    (hpt : ∀ d ∈ points, ¬ ∃ q ∈ p.toList, "t_in_".toList <+: q.name.toList ∧ d.1 = q.value) :
    ResultsTendTo (fun i => kind.eval (points.map fun d => .kaon d.1 d.2) (P i)) l (kind.eval (points.map fun d => .kaon d.1 d.2) p) := by
  have hw := reachable_wellFormed h
  obtain ⟨v, V, hV, hv, htend⟩ := values_tend hw (fun i => ⟨reachable_wellFormed (hP i).1, (hP i).2.1⟩) ht
  have hcP : ∀ i, IsKaonClass (P i).cls := fun i => by rw [(hP i).2.1]; exact hc
  have hx := kaon_inside_wired h hc hi (kaon_wiring_values hw hV hc)
  have hxi : ∀ i, KaonInside (P i) (.ofValues p.cls (v i)) := fun i => by
    have := kaon_inside_wired (hP i).1 (hcP i) (hP i).2.2 (kaon_wiring_values (reachable_wellFormed (hP i).1) (hv i) (hcP i))
    rwa [(hP i).2.1] at this
  set X := KaonArgs.ofValues p.cls V with hX
  have hval : ∀ {n : String} {y : ℝ}, (n, y) ∈ X.byName → ∃ q ∈ p.data, q.name = n ∧ q.value = y := fun hm => by
    obtain ⟨m1, m2⟩ := (hw.holds_iff hV).mp (hx.wiring.holds.1 _ hm)
    rw [← hw.names] at m1
    obtain ⟨q, hq, hqn⟩ := List.mem_map.mp m1
    exact ⟨q, hq, hqn, by rw [hV q hq, hqn]; exact m2.symm⟩
  obtain ⟨a1, a2, a3, a4⟩ := X.threshold_names
  obtain ⟨r1, r2⟩ := X.res_names
  have hb := hx.builds true
  obtain ⟨k, hk, -⟩ := KaonArgs.get_view hb
  have hS : ∀ r ∈ X.resS, r.mass ≠ 0 ∧ r.decay ≠ 0 ∧ r.mass ^ 2 ≠ X.tinS := by
    intro r hr
    obtain ⟨n, d, h1, h2, h3, h4, h5⟩ := r1 r hr
    obtain ⟨q, hq, hqn, hqv⟩ := hval h1
    obtain ⟨q', hq', hqn', hqv'⟩ := hval a2
    refine ⟨(hx.res r (by simp [hr])).1, (hx.res r (by simp [hr])).2, ?_⟩
    rw [← hqv, ← hqv']
    exact hoff q hq q' hq' (by rw [hqn]; exact h3) (by rw [hqn, if_pos h4, hqn'])
  have hVr : ∀ r ∈ X.resV, r.mass ≠ 0 ∧ r.decay ≠ 0 ∧ r.mass ^ 2 ≠ X.tinV := by
    intro r hr
    obtain ⟨n, d, h1, h2, h3, h4, h5⟩ := r2 r hr
    obtain ⟨q, hq, hqn, hqv⟩ := hval h1
    obtain ⟨q', hq', hqn', hqv'⟩ := hval a4
    refine ⟨(hx.res r (by simp [hr])).1, (hx.res r (by simp [hr])).2, ?_⟩
    rw [← hqv, ← hqv']
    exact hoff q hq q' hq' (by rw [hqn]; exact h3) (by rw [hqn, if_neg h4, hqn'])
  have hne : ∀ d ∈ points, d.1 ≠ X.tinS ∧ d.1 ≠ X.tinV := fun d hd => by
    have := hpt d hd
    rw [← hx.tin, not_or] at this
    exact this
  have hlim : ∀ d ∈ points, Tendsto (fun i => pointValue kind d.1 ((KaonArgs.ofValues p.cls (v i)).formula d.2 d.1)) l
      (𝓝 (pointValue kind d.1 (X.formula d.2 d.1))) := fun d hd =>
    ((pointValue_continuous kind d.1).tendsto _).comp
      (formula_tendsto p.cls htend hX hk.h0S hk.h0V hx.proper hS hVr d.2 (hne d hd).1 (hne d hd).2)
  refine results_tend hlim ?_ (hx.eval_eq kind h0 hcs hpt)
  -- the thresholds of the nearby objects stay away from the points
  have hn : ∀ n, Tendsto (fun i => v i n) l (𝓝 (V n)) := fun n => (continuous_apply n).continuousAt.tendsto.comp htend
  have hev : ∀ᶠ i in l, ∀ d ∈ points, d.1 ≠ v i "t_in_isoscalar" ∧ d.1 ≠ v i "t_in_isovector" := by
    obtain ⟨-, e2, -, e4⟩ := thresholds_ofValues p.cls V
    rw [← hX] at e2 e4
    rw [e2, e4] at hne
    clear_value X
    clear hlim hpt hcs h0
    induction points with
    | nil => exact Eventually.of_forall fun i => by simp
    | cons d ps ih =>
      obtain ⟨n1, n2⟩ := hne d (by simp)
      filter_upwards [(hn "t_in_isoscalar").eventually_ne n1.symm, (hn "t_in_isovector").eventually_ne n2.symm,
        ih fun d' hd' => hne d' (List.mem_cons_of_mem _ hd')] with i h1 h2 h3
      exact List.forall_mem_cons.mpr ⟨⟨h1.symm, h2.symm⟩, h3⟩
  filter_upwards [hev] with i hi'
  refine (hxi i).eval_eq kind h0 hcs fun d hd => ?_
  rw [← (hxi i).tin, (thresholds_ofValues p.cls (v i)).2.1, (thresholds_ofValues p.cls (v i)).2.2.2, not_or]
  exact hi' d hd

end UA
