import Verif.Lemmas.Utils
import Verif.Lemmas.UtilsPerturb
import Verif.Props.Parameters

/-!
# Helper lemmas: models built from values inside the maximal bounds
-/

namespace UA

theorem prefix_head {p l : List Char} {c : Char} (h : p <+: l) (hp : p.head? = some c) : l.head? = some c := by
  obtain ⟨s, rfl⟩ := h
  rw [List.head?_append, hp]; rfl

/-- What the strict bounds say about the values. -/
structure InsideValues (c : ParamClass) (x : String → ℝ) : Prop where
  t0 : ∀ n ∈ c.table.initArgs, "t_0_".toList <+: n.toList → 0 ≤ x n
  mass : ∀ n ∈ c.table.initArgs, "mass_".toList <+: n.toList → massThreshold c x n < x n
  decay : ∀ n ∈ c.table.initArgs, "decay_rate_".toList <+: n.toList → 0 < x n
  tin : ∀ n ∈ c.table.initArgs, ∀ m s, n.toList = "t_in_".toList ++ s → m.toList = "t_0_".toList ++ s → x m < x n

theorem tin_not_fixed (c : ParamClass) : ∀ n ∈ c.table.initArgs, "t_in_".toList <+: n.toList → n ∉ c.table.alwaysFixed := by
  cases c <;> decide +kernel

theorem inside_values {p : ModelParameters ℝ} (h : Reachable p) (hc : IsResonanceClass p.cls) {x : String → ℝ}
    (hx : ∀ q ∈ p.data, q.value = x q.name) (hi : p.InsideMaximal) : InsideValues p.cls x := by
  have hw := reachable_wellFormed h
  obtain ⟨dict, hd, hin⟩ := hi
  obtain ⟨hdict, h0⟩ := bounds_inv hw hx hd
  have h0 := h0 rfl
  obtain ⟨dict', hd', hval⟩ := C44_maximal_values h hc hx (fun q hq ht => by
    rw [hx q hq]; exact h0 _ (by rw [← hw.names]; exact List.mem_map_of_mem hq) ht)
  rw [hd] at hd'
  injection hd' with hd'
  subst hd'
  have entry : ∀ n ∈ p.cls.table.initArgs, ∃ q ∈ p.data, q.name = n ∧ q.value = x n := by
    intro n hn
    rw [← hw.names] at hn
    obtain ⟨q, hq, rfl⟩ := List.mem_map.mp hn
    exact ⟨q, hq, rfl, hx q hq⟩
  have hmem : ∀ {n : String} {b}, dict.lookup n = some b → (n, b) ∈ dict := by
    intro n b hl
    obtain ⟨l₁, l₂, hl', -⟩ := List.lookup_eq_some_iff.mp hl
    rw [hl']; simp
  refine ⟨h0, ?_, ?_, ?_⟩
  · intro n hn hm
    obtain ⟨q, hq, rfl, hv⟩ := entry n hn
    obtain ⟨hsome, hnone⟩ := hin q hq
    cases hl : dict.lookup q.name with
    | none => rw [← hv]; exact (hnone hl).1 hm x hx
    | some b =>
      have hlt := (hsome b hl).1
      have hm' := prefix_head hm (c := 'm') (by decide)
      obtain ⟨-, ⟨-, h2⟩ | ⟨h1, -⟩ | ⟨h1, -⟩ | ⟨m, -, s, h1, -⟩⟩ := hval _ (hmem hl)
      · simp only at h2
        rw [h2, hv] at hlt
        exact WithBot.coe_lt_coe.mp hlt
      · have := prefix_head h1 (c := 'd') (by decide)
        rw [hm'] at this; exact absurd this (by decide)
      · have := prefix_head h1 (c := 'a') (by decide)
        rw [hm'] at this; exact absurd this (by decide)
      · have := prefix_head (l := q.name.toList) ⟨s, h1.symm⟩ (c := 't') (by decide)
        rw [hm'] at this; exact absurd this (by decide)
  · intro n hn hm
    obtain ⟨q, hq, rfl, hv⟩ := entry n hn
    obtain ⟨hsome, hnone⟩ := hin q hq
    cases hl : dict.lookup q.name with
    | none => rw [← hv]; exact (hnone hl).2 hm
    | some b =>
      have hlt := (hsome b hl).1
      have hm' := prefix_head hm (c := 'd') (by decide)
      obtain ⟨-, ⟨h1, -⟩ | ⟨-, h2⟩ | ⟨h1, -⟩ | ⟨m, -, s, h1, -⟩⟩ := hval _ (hmem hl)
      · have := prefix_head h1 (c := 'm') (by decide)
        rw [hm'] at this; exact absurd this (by decide)
      · simp only at h2
        rw [h2, hv] at hlt
        exact WithBot.coe_lt_coe.mp hlt
      · have := prefix_head h1 (c := 'a') (by decide)
        rw [hm'] at this; exact absurd this (by decide)
      · have := prefix_head (l := q.name.toList) ⟨s, h1.symm⟩ (c := 't') (by decide)
        rw [hm'] at this; exact absurd this (by decide)
  · intro n hn m s hns hms
    obtain ⟨q, hq, rfl, hv⟩ := entry n hn
    obtain ⟨hsome, -⟩ := hin q hq
    obtain ⟨b, hb, -⟩ := boundsV_lookup (v := x) (hp := false) hn (tin_not_fixed _ _ hn ⟨s, hns.symm⟩)
    rw [← hdict] at hb
    have hlt := (hsome b hb).1
    have hm' := prefix_head (l := q.name.toList) ⟨s, hns.symm⟩ (c := 't') (by decide)
    obtain ⟨-, ⟨h1, -⟩ | ⟨h1, -⟩ | ⟨h1, -⟩ | ⟨m', -, s', h1, h2, h3⟩⟩ := hval _ (hmem hb)
    · have := prefix_head h1 (c := 'm') (by decide)
      rw [hm'] at this; exact absurd this (by decide)
    · have := prefix_head h1 (c := 'd') (by decide)
      rw [hm'] at this; exact absurd this (by decide)
    · have := prefix_head h1 (c := 'a') (by decide)
      rw [hm'] at this; exact absurd this (by decide)
    · have hs : s = s' := List.append_cancel_left (hns.symm.trans h1)
      have hmm : m = m' := String.toList_inj.mp (by rw [hms, h2, hs])
      simp only at h3
      rw [h3, ← hmm, hv] at hlt
      exact WithBot.coe_lt_coe.mp hlt

/-- The names under which the masses and widths of the resonances of a kaon model are passed. -/
theorem KaonArgs.res_names (x : KaonArgs) :
    (∀ r ∈ x.resS, ∃ n d, (n, r.mass) ∈ x.byName ∧ (d, r.decay) ∈ x.byName ∧ "mass_".toList <+: n.toList ∧ IsIsoscalarName n ∧
      "decay_rate_".toList <+: d.toList) ∧
    ∀ r ∈ x.resV, ∃ n d, (n, r.mass) ∈ x.byName ∧ (d, r.decay) ∈ x.byName ∧ "mass_".toList <+: n.toList ∧ ¬ IsIsoscalarName n ∧
      "decay_rate_".toList <+: d.toList := by
  cases x with
  | full x =>
    constructor <;> intro r hr <;>
      simp only [KaonArgs.resS, KaonArgs.resV, KaonUAModel.Args.resS, KaonUAModel.Args.resV, List.mem_cons, List.not_mem_nil, or_false] at hr
    · rcases hr with rfl | rfl | rfl | rfl | rfl | rfl
      · exact ⟨"mass_omega", "decay_rate_omega", by simp [KaonArgs.byName, KaonUAModel.Args.byName], by simp [KaonArgs.byName, KaonUAModel.Args.byName], by decide, by decide, by decide⟩
      · exact ⟨"mass_omega_prime", "decay_rate_omega_prime", by simp [KaonArgs.byName, KaonUAModel.Args.byName], by simp [KaonArgs.byName, KaonUAModel.Args.byName], by decide, by decide, by decide⟩
      · exact ⟨"mass_omega_double_prime", "decay_rate_omega_double_prime", by simp [KaonArgs.byName, KaonUAModel.Args.byName], by simp [KaonArgs.byName, KaonUAModel.Args.byName], by decide, by decide, by decide⟩
      · exact ⟨"mass_phi", "decay_rate_phi", by simp [KaonArgs.byName, KaonUAModel.Args.byName], by simp [KaonArgs.byName, KaonUAModel.Args.byName], by decide, by decide, by decide⟩
      · exact ⟨"mass_phi_prime", "decay_rate_phi_prime", by simp [KaonArgs.byName, KaonUAModel.Args.byName], by simp [KaonArgs.byName, KaonUAModel.Args.byName], by decide, by decide, by decide⟩
      · exact ⟨"mass_phi_double_prime", "decay_rate_phi_double_prime", by simp [KaonArgs.byName, KaonUAModel.Args.byName], by simp [KaonArgs.byName, KaonUAModel.Args.byName], by decide, by decide, by decide⟩
    · rcases hr with rfl | rfl | rfl | rfl
      · exact ⟨"mass_rho", "decay_rate_rho", by simp [KaonArgs.byName, KaonUAModel.Args.byName], by simp [KaonArgs.byName, KaonUAModel.Args.byName], by decide, by decide, by decide⟩
      · exact ⟨"mass_rho_prime", "decay_rate_rho_prime", by simp [KaonArgs.byName, KaonUAModel.Args.byName], by simp [KaonArgs.byName, KaonUAModel.Args.byName], by decide, by decide, by decide⟩
      · exact ⟨"mass_rho_double_prime", "decay_rate_rho_double_prime", by simp [KaonArgs.byName, KaonUAModel.Args.byName], by simp [KaonArgs.byName, KaonUAModel.Args.byName], by decide, by decide, by decide⟩
      · exact ⟨"mass_rho_triple_prime", "decay_rate_rho_triple_prime", by simp [KaonArgs.byName, KaonUAModel.Args.byName], by simp [KaonArgs.byName, KaonUAModel.Args.byName], by decide, by decide, by decide⟩
  | b x =>
    constructor <;> intro r hr <;>
      simp only [KaonArgs.resS, KaonArgs.resV, KaonUAModelB.Args.resS, KaonUAModelB.Args.resV, List.mem_cons, List.not_mem_nil, or_false] at hr
    · rcases hr with rfl | rfl | rfl | rfl | rfl
      · exact ⟨"mass_omega", "decay_rate_omega", by simp [KaonArgs.byName, KaonUAModelB.Args.byName], by simp [KaonArgs.byName, KaonUAModelB.Args.byName], by decide, by decide, by decide⟩
      · exact ⟨"mass_omega_double_prime", "decay_rate_omega_double_prime", by simp [KaonArgs.byName, KaonUAModelB.Args.byName], by simp [KaonArgs.byName, KaonUAModelB.Args.byName], by decide, by decide, by decide⟩
      · exact ⟨"mass_phi", "decay_rate_phi", by simp [KaonArgs.byName, KaonUAModelB.Args.byName], by simp [KaonArgs.byName, KaonUAModelB.Args.byName], by decide, by decide, by decide⟩
      · exact ⟨"mass_phi_prime", "decay_rate_phi_prime", by simp [KaonArgs.byName, KaonUAModelB.Args.byName], by simp [KaonArgs.byName, KaonUAModelB.Args.byName], by decide, by decide, by decide⟩
      · exact ⟨"mass_phi_double_prime", "decay_rate_phi_double_prime", by simp [KaonArgs.byName, KaonUAModelB.Args.byName], by simp [KaonArgs.byName, KaonUAModelB.Args.byName], by decide, by decide, by decide⟩
    · rcases hr with rfl | rfl | rfl
      · exact ⟨"mass_rho", "decay_rate_rho", by simp [KaonArgs.byName, KaonUAModelB.Args.byName], by simp [KaonArgs.byName, KaonUAModelB.Args.byName], by decide, by decide, by decide⟩
      · exact ⟨"mass_rho_prime", "decay_rate_rho_prime", by simp [KaonArgs.byName, KaonUAModelB.Args.byName], by simp [KaonArgs.byName, KaonUAModelB.Args.byName], by decide, by decide, by decide⟩
      · exact ⟨"mass_rho_double_prime", "decay_rate_rho_double_prime", by simp [KaonArgs.byName, KaonUAModelB.Args.byName], by simp [KaonArgs.byName, KaonUAModelB.Args.byName], by decide, by decide, by decide⟩
  | simplified x =>
    constructor <;> intro r hr <;>
      simp only [KaonArgs.resS, KaonArgs.resV, KaonUAModelSimplified.Args.resS, KaonUAModelSimplified.Args.resV, List.mem_cons, List.not_mem_nil, or_false] at hr
    · rcases hr with rfl | rfl | rfl | rfl | rfl
      · exact ⟨"mass_omega_prime", "decay_rate_omega_prime", by simp [KaonArgs.byName, KaonUAModelSimplified.Args.byName], by simp [KaonArgs.byName, KaonUAModelSimplified.Args.byName], by decide, by decide, by decide⟩
      · exact ⟨"mass_omega_double_prime", "decay_rate_omega_double_prime", by simp [KaonArgs.byName, KaonUAModelSimplified.Args.byName], by simp [KaonArgs.byName, KaonUAModelSimplified.Args.byName], by decide, by decide, by decide⟩
      · exact ⟨"mass_phi", "decay_rate_phi", by simp [KaonArgs.byName, KaonUAModelSimplified.Args.byName], by simp [KaonArgs.byName, KaonUAModelSimplified.Args.byName], by decide, by decide, by decide⟩
      · exact ⟨"mass_phi_prime", "decay_rate_phi_prime", by simp [KaonArgs.byName, KaonUAModelSimplified.Args.byName], by simp [KaonArgs.byName, KaonUAModelSimplified.Args.byName], by decide, by decide, by decide⟩
      · exact ⟨"mass_phi_double_prime", "decay_rate_phi_double_prime", by simp [KaonArgs.byName, KaonUAModelSimplified.Args.byName], by simp [KaonArgs.byName, KaonUAModelSimplified.Args.byName], by decide, by decide, by decide⟩
    · rcases hr with rfl | rfl | rfl
      · exact ⟨"mass_rho_prime", "decay_rate_rho_prime", by simp [KaonArgs.byName, KaonUAModelSimplified.Args.byName], by simp [KaonArgs.byName, KaonUAModelSimplified.Args.byName], by decide, by decide, by decide⟩
      · exact ⟨"mass_rho_double_prime", "decay_rate_rho_double_prime", by simp [KaonArgs.byName, KaonUAModelSimplified.Args.byName], by simp [KaonArgs.byName, KaonUAModelSimplified.Args.byName], by decide, by decide, by decide⟩
      · exact ⟨"mass_rho_triple_prime", "decay_rate_rho_triple_prime", by simp [KaonArgs.byName, KaonUAModelSimplified.Args.byName], by simp [KaonArgs.byName, KaonUAModelSimplified.Args.byName], by decide, by decide, by decide⟩

theorem KaonArgs.threshold_names (x : KaonArgs) : ("t_0_isoscalar", x.t0S) ∈ x.byName ∧ ("t_in_isoscalar", x.tinS) ∈ x.byName ∧
    ("t_0_isovector", x.t0V) ∈ x.byName ∧ ("t_in_isovector", x.tinV) ∈ x.byName := by
  cases x <;> refine ⟨?_, ?_, ?_, ?_⟩ <;>
    simp [KaonArgs.byName, KaonUAModel.Args.byName, KaonUAModelB.Args.byName, KaonUAModelSimplified.Args.byName, KaonArgs.t0S, KaonArgs.t0V, KaonArgs.tinS, KaonArgs.tinV]

theorem sq_gt_of_sqrt_lt {a m : ℝ} (h : Real.sqrt a < m) : a < m ^ 2 := by
  have := (Real.sqrt_lt' (lt_of_le_of_lt (Real.sqrt_nonneg a) h)).mp h
  exact this

theorem kaon_inside_builds {p : ModelParameters ℝ} (hw : p.WellFormed) {v : String → ℝ} (hv : ∀ q ∈ p.data, q.value = v q.name)
    (hi : InsideValues p.cls v) (hc : IsKaonClass p.cls) {x : KaonArgs} (hx : KaonWiring p x) (ch : Bool) : x.Builds ch := by
  have hval : ∀ {n : String} {y : ℝ}, (n, y) ∈ x.byName → n ∈ p.cls.table.initArgs ∧ y = v n := fun hm => (hw.holds_iff hv).mp (hx.holds.1 _ hm)
  obtain ⟨a1, a2, a3, a4⟩ := x.threshold_names
  obtain ⟨r1, r2⟩ := x.res_names
  have hcn : p.cls ≠ .nucleon := by intro h; rw [h] at hc; exact hc
  have tS : 0 ≤ x.t0S := by rw [(hval a1).2]; exact hi.t0 _ (hval a1).1 (by decide)
  have tV : 0 ≤ x.t0V := by rw [(hval a3).2]; exact hi.t0 _ (hval a3).1 (by decide)
  refine builds_of_pos tS tV ⟨?_, ?_⟩ ?_ ?_
  · rw [(hval a1).2, (hval a2).2]; exact hi.tin _ (hval a2).1 _ "isoscalar".toList (by decide) (by decide)
  · rw [(hval a3).2, (hval a4).2]; exact hi.tin _ (hval a4).1 _ "isovector".toList (by decide) (by decide)
  · intro r hr
    obtain ⟨n, d, h1, h2, h3, h4, h5⟩ := r1 r hr
    have hm := hi.mass n (hval h1).1 h3
    unfold massThreshold at hm
    rw [if_neg hcn, if_pos h4, ← (hval a1).2, ← (hval h1).2] at hm
    have hd := hi.decay d (hval h2).1 h5
    rw [← (hval h2).2] at hd
    exact ⟨sq_gt_of_sqrt_lt hm, Or.inl hd.ne'⟩
  · intro r hr
    obtain ⟨n, d, h1, h2, h3, h4, h5⟩ := r2 r hr
    have hm := hi.mass n (hval h1).1 h3
    unfold massThreshold at hm
    rw [if_neg hcn, if_neg h4, ← (hval a3).2, ← (hval h1).2] at hm
    have hd := hi.decay d (hval h2).1 h5
    rw [← (hval h2).2] at hd
    exact ⟨sq_gt_of_sqrt_lt hm, Or.inl hd.ne'⟩

/-- The outcome is a value if `P` holds and `ValueError` otherwise. -/
def OkOrV {α : Type} (P : Prop) (r : Except PyErr α) : Prop := (P → ∃ a, r = .ok a) ∧ (¬ P → r = .error .valueError)

theorem OkOrV.pure {α : Type} (a : α) : OkOrV True (.ok a : Except PyErr α) := ⟨fun _ => ⟨a, rfl⟩, fun h => (h trivial).elim⟩

theorem OkOrV.bind {α β : Type} {P Q : Prop} {r : Except PyErr α} {f : α → Except PyErr β} (h : OkOrV P r) (h' : ∀ a, r = .ok a → OkOrV Q (f a)) :
    OkOrV (P ∧ Q) (r >>= f) := by
  by_cases hP : P
  · obtain ⟨a, ha⟩ := h.1 hP
    have := h' a ha
    rw [ha, except_ok_bind]
    exact ⟨fun hq => this.1 hq.2, fun hq => this.2 fun hq' => hq ⟨hP, hq'⟩⟩
  · refine ⟨fun hp => (hP hp.1).elim, fun _ => ?_⟩
    rw [h.2 hP]; rfl

theorem OkOrV.congr {α : Type} {P Q : Prop} {r : Except PyErr α} (h : OkOrV P r) (hpq : P ↔ Q) : OkOrV Q r := by
  rwa [← propext hpq]

theorem nucleonBuild_outcome {t_0 t_in m g : ℝ} (h0 : 0 ≤ t_0) (h : t_0 < t_in) (hg : 0 < g) :
    OkOrV (t_0 ≤ m ^ 2 - g ^ 2 / 4) (nucleonBuildComponent t_0 t_in m g) := by
  have ht := C12_thresholds_nucleon t_0 t_in m g h0 h
  refine ⟨fun hr => ?_, fun hr => ht.1.mpr (not_le.mp hr)⟩
  by_cases hlt : m ^ 2 - g ^ 2 / 4 < t_in
  · obtain ⟨c, hc, _⟩ := ht.2.2.1.mpr ⟨hr, hlt, fun h' => hg.ne' h'.1⟩
    exact ⟨c, hc⟩
  · obtain ⟨c, hc, _⟩ := ht.2.2.2.mpr ⟨not_lt.mp hlt, fun h' => hg.ne' h'.1⟩
    exact ⟨c, hc⟩

/-- The isoscalar resonances of the nucleon models: name, mass, width. -/
def NucleonArgs.isoscalars (x : NucleonArgs) : List (String × ℝ × ℝ) :=
  [("omega", x.mass_omega, x.decay_rate_omega), ("omega_prime", x.mass_omega_prime, x.decay_rate_omega_prime),
   ("omega_double_prime", x.mass_omega_double_prime, x.decay_rate_omega_double_prime), ("phi", x.mass_phi, x.decay_rate_phi),
   ("phi_prime", x.mass_phi_prime, x.decay_rate_phi_prime), ("phi_double_prime", x.mass_phi_double_prime, x.decay_rate_phi_double_prime)]

/-- The isovector resonances of the nucleon models. -/
def NucleonArgs.isovectors (x : NucleonArgs) : List (String × ℝ × ℝ) :=
  [("rho", x.mass_rho, x.decay_rate_rho), ("rho_prime", x.mass_rho_prime, x.decay_rate_rho_prime),
   ("rho_double_prime", x.mass_rho_double_prime, x.decay_rate_rho_double_prime)]

theorem initIsoscalar_outcome {x : NucleonArgs} {t_0 t_in : ℝ} (h0 : 0 ≤ t_0) (h : t_0 < t_in) (hg : ∀ r ∈ x.isoscalars, 0 < r.2.2) :
    OkOrV (∀ r ∈ x.isoscalars, t_0 ≤ r.2.1 ^ 2 - r.2.2 ^ 2 / 4) (initIsoscalarComponents nucleonBuildComponent x t_0 t_in) := by
  simp only [NucleonArgs.isoscalars, List.forall_mem_cons, List.not_mem_nil, false_imp_iff, implies_true, and_true] at hg ⊢
  obtain ⟨h1, h2, h3, h4, h5, h6⟩ := hg
  unfold initIsoscalarComponents
  refine (((nucleonBuild_outcome h0 h h1).bind fun _ _ => (nucleonBuild_outcome h0 h h2).bind fun _ _ => (nucleonBuild_outcome h0 h h3).bind fun _ _ =>
    (nucleonBuild_outcome h0 h h4).bind fun _ _ => (nucleonBuild_outcome h0 h h5).bind fun _ _ => (nucleonBuild_outcome h0 h h6).bind fun _ _ =>
    OkOrV.pure _)).congr (by simp)

theorem initIsovector_outcome {x : NucleonArgs} {t_0 t_in : ℝ} (h0 : 0 ≤ t_0) (h : t_0 < t_in) (hg : ∀ r ∈ x.isovectors, 0 < r.2.2) :
    OkOrV (∀ r ∈ x.isovectors, t_0 ≤ r.2.1 ^ 2 - r.2.2 ^ 2 / 4) (initIsovectorComponents nucleonBuildComponent x t_0 t_in) := by
  simp only [NucleonArgs.isovectors, List.forall_mem_cons, List.not_mem_nil, false_imp_iff, implies_true, and_true] at hg ⊢
  obtain ⟨h1, h2, h3⟩ := hg
  unfold initIsovectorComponents
  refine (((nucleonBuild_outcome h0 h h1).bind fun _ _ => (nucleonBuild_outcome h0 h h2).bind fun _ _ => (nucleonBuild_outcome h0 h h3).bind fun _ _ =>
    OkOrV.pure _)).congr (by simp)

theorem nucleon_check_outcome {x : NucleonArgs} (h1 : 0 ≤ x.t_0_dirac_isoscalar) (h2 : 0 ≤ x.t_0_dirac_isovector)
    (h3 : 0 ≤ x.t_0_pauli_isoscalar) (h4 : 0 ≤ x.t_0_pauli_isovector) (hx : x.Proper) (hs : ∀ r ∈ x.isoscalars, 0 < r.2.2)
    (hv : ∀ r ∈ x.isovectors, 0 < r.2.2) :
    OkOrV ((∀ r ∈ x.isoscalars, max x.t_0_dirac_isoscalar x.t_0_pauli_isoscalar ≤ r.2.1 ^ 2 - r.2.2 ^ 2 / 4) ∧
      ∀ r ∈ x.isovectors, max x.t_0_dirac_isovector x.t_0_pauli_isovector ≤ r.2.1 ^ 2 - r.2.2 ^ 2 / 4) x.check := by
  obtain ⟨x1, x2, x3, x4⟩ := hx
  have hb := (initIsoscalar_outcome h1 x1 hs).bind (f := fun diracS => do
      let diracV ← initIsovectorComponents nucleonBuildComponent x x.t_0_dirac_isovector x.t_in_dirac_isovector
      let pauliS ← initIsoscalarComponents nucleonBuildComponent x x.t_0_pauli_isoscalar x.t_in_pauli_isoscalar
      let pauliV ← initIsovectorComponents nucleonBuildComponent x x.t_0_pauli_isovector x.t_in_pauli_isovector
      return ()) fun _ _ => (initIsovector_outcome h2 x2 hv).bind fun _ _ => (initIsoscalar_outcome h3 x3 hs).bind fun _ _ =>
      (initIsovector_outcome h4 x4 hv).bind fun _ _ => OkOrV.pure _
  have he : x.check = (do
      let diracS ← initIsoscalarComponents nucleonBuildComponent x x.t_0_dirac_isoscalar x.t_in_dirac_isoscalar
      let diracV ← initIsovectorComponents nucleonBuildComponent x x.t_0_dirac_isovector x.t_in_dirac_isovector
      let pauliS ← initIsoscalarComponents nucleonBuildComponent x x.t_0_pauli_isoscalar x.t_in_pauli_isoscalar
      let pauliV ← initIsovectorComponents nucleonBuildComponent x x.t_0_pauli_isovector x.t_in_pauli_isovector
      return ()) := by
    unfold NucleonArgs.check NucleonUAModel.init NucleonBase.init
    rw [TtoW_init_ok h1 x1.le, TtoW_init_ok h2 x2.le, TtoW_init_ok h3 x3.le, TtoW_init_ok h4 x4.le]
    simp only [except_ok_bind]
    rcases initIsoscalarComponents nucleonBuildComponent x x.t_0_dirac_isoscalar x.t_in_dirac_isoscalar with e | _
    · rfl
    · simp only [except_ok_bind]
      rcases initIsovectorComponents nucleonBuildComponent x x.t_0_dirac_isovector x.t_in_dirac_isovector with e | _
      · rfl
      · simp only [except_ok_bind]
        rcases initIsoscalarComponents nucleonBuildComponent x x.t_0_pauli_isoscalar x.t_in_pauli_isoscalar with e | _
        · rfl
        · simp only [except_ok_bind]
          rcases initIsovectorComponents nucleonBuildComponent x x.t_0_pauli_isovector x.t_in_pauli_isovector with e | _ <;> rfl
  rw [he]
  refine hb.congr ⟨?_, ?_⟩
  · rintro ⟨a, b, c, d, -⟩
    exact ⟨fun r hr => max_le (a r hr) (c r hr), fun r hr => max_le (b r hr) (d r hr)⟩
  · rintro ⟨a, b⟩
    exact ⟨fun r hr => (le_max_left _ _).trans (a r hr), fun r hr => (le_max_left _ _).trans (b r hr),
      fun r hr => (le_max_right _ _).trans (a r hr), fun r hr => (le_max_right _ _).trans (b r hr), trivial⟩

/-- Values inside the bounds, by the form of their names. -/
noncomputable def typicalValue (width : ℝ) (n : String) : ℝ :=
  if "t_0_".toList <+: n.toList then 1 else if "t_in_".toList <+: n.toList then 2 else if "mass_".toList <+: n.toList then 2
  else if "decay_rate_".toList <+: n.toList then width else 3

/-- An object of any class with these values. -/
noncomputable def typical (c : ParamClass) (width : ℝ) : ModelParameters ℝ := ⟨c, c.table.alwaysFixed, freshData c (typicalValue width)⟩

theorem typical_reachable (c : ParamClass) (width : ℝ) : Reachable (typical c width) :=
  .init (init_eq c (kw := c.table.initArgs.map fun n => (n, typicalValue width n)) (fun _ hn => lookup_map_self hn) fun p hp => by
    obtain ⟨n, hn, rfl⟩ := List.mem_map.mp hp
    exact hn)

theorem typical_values (c : ParamClass) (width : ℝ) : ∀ q ∈ (typical c width).data, q.value = typicalValue width q.name := by
  intro q hq
  obtain ⟨n, -, rfl⟩ := List.mem_map.mp hq
  rfl

theorem insideMaximal_of_values {p : ModelParameters ℝ} (h : Reachable p) (hc : IsResonanceClass p.cls) {x : String → ℝ}
    (hx : ∀ q ∈ p.data, q.value = x q.name) (hi : InsideValues p.cls x) : p.InsideMaximal := by
  have hw := reachable_wellFormed h
  have hmem : ∀ q ∈ p.data, q.name ∈ p.cls.table.initArgs := fun q hq => by rw [← hw.names]; exact List.mem_map_of_mem hq
  obtain ⟨dict, hd, hval⟩ := C44_maximal_values h hc hx (fun q hq ht => by rw [hx q hq]; exact hi.t0 _ (hmem q hq) ht)
  refine ⟨dict, hd, fun q hq => ⟨fun b hb => ?_, fun _ => ⟨fun hm y hy => ?_, fun hm => ?_⟩⟩⟩
  · have hb' : (q.name, b) ∈ dict := by
      obtain ⟨l₁, l₂, hl', -⟩ := List.lookup_eq_some_iff.mp hb
      rw [hl']; simp
    obtain ⟨hu, hl⟩ := hval _ hb'
    simp only at hu hl
    refine ⟨?_, by rw [hu]; exact WithTop.coe_lt_top _⟩
    rw [hx q hq]
    rcases hl with ⟨h1, h2⟩ | ⟨h1, h2⟩ | ⟨h1, h2⟩ | ⟨m, -, s, h1, h2, h3⟩
    · rw [h2]; exact WithBot.coe_lt_coe.mpr (hi.mass _ (hmem q hq) h1)
    · rw [h2]; exact WithBot.coe_lt_coe.mpr (hi.decay _ (hmem q hq) h1)
    · rw [h2]; exact WithBot.bot_lt_coe _
    · rw [h3]; exact WithBot.coe_lt_coe.mpr (hi.tin _ (hmem q hq) m s h1 h2)
  · have hxy : ∀ n ∈ p.cls.table.initArgs, x n = y n := by
      intro n hn
      rw [← hw.names] at hn
      obtain ⟨r, hr, rfl⟩ := List.mem_map.mp hn
      rw [← hx r hr, hy r hr]
    have : massThreshold p.cls y q.name = massThreshold p.cls x q.name := by
      have tn : ∀ c : ParamClass, IsResonanceClass c →
          if c = .nucleon then (∀ n ∈ ["t_0_dirac_isoscalar", "t_0_pauli_isoscalar", "t_0_dirac_isovector", "t_0_pauli_isovector"], n ∈ c.table.initArgs)
          else ∀ n ∈ ["t_0_isoscalar", "t_0_isovector"], n ∈ c.table.initArgs := by
        intro c; cases c <;> decide +kernel
      have := tn _ hc
      unfold massThreshold
      by_cases hn : p.cls = .nucleon
      · rw [if_pos hn] at this
        rw [if_pos hn, if_pos hn, hxy _ (this "t_0_dirac_isoscalar" (by simp)), hxy _ (this "t_0_pauli_isoscalar" (by simp)),
          hxy _ (this "t_0_dirac_isovector" (by simp)), hxy _ (this "t_0_pauli_isovector" (by simp))]
      · rw [if_neg hn] at this
        rw [if_neg hn, if_neg hn, hxy _ (this "t_0_isoscalar" (by simp)), hxy _ (this "t_0_isovector" (by simp))]
    rw [this, hx q hq]
    exact hi.mass _ (hmem q hq) hm
  · rw [hx q hq]; exact hi.decay _ (hmem q hq) hm

theorem typical_inside (c : ParamClass) {width : ℝ} (h : 0 < width) : InsideValues c (typicalValue width) := by
  have hne : ∀ {p p' l : List Char} {a b : Char}, p <+: l → p.head? = some a → p'.head? = some b → a ≠ b → ¬ p' <+: l := by
    intro p p' l a b h1 h2 h3 h4 h5
    have := prefix_head h1 h2
    rw [prefix_head h5 h3] at this
    exact h4 (Option.some.inj this).symm
  have hmass : ∀ n : String, "mass_".toList <+: n.toList → typicalValue width n = 2 := by
    intro n hn
    unfold typicalValue
    rw [if_neg (hne hn (a := 'm') (b := 't') (by decide) (by decide) (by decide)),
      if_neg (hne hn (a := 'm') (b := 't') (by decide) (by decide) (by decide)), if_pos hn]
  have ht0 : ∀ n : String, "t_0_".toList <+: n.toList → typicalValue width n = 1 := by
    intro n hn
    unfold typicalValue
    rw [if_pos hn]
  refine ⟨fun n _ hn => by rw [ht0 n hn]; exact zero_le_one, fun n _ hn => ?_, fun n _ hn => ?_, fun n _ m s hn hm => ?_⟩
  · rw [hmass n hn]
    unfold massThreshold
    rw [ht0 _ (by decide), ht0 _ (by decide), ht0 _ (by decide), ht0 _ (by decide), ht0 _ (by decide), ht0 _ (by decide)]
    simp
  · unfold typicalValue
    rwa [if_neg (hne hn (a := 'd') (b := 't') (by decide) (by decide) (by decide)),
      if_neg (hne hn (a := 'd') (b := 't') (by decide) (by decide) (by decide)),
      if_neg (hne hn (a := 'd') (b := 'm') (by decide) (by decide) (by decide)), if_pos hn]
  · rw [ht0 m ⟨s, hm.symm⟩]
    unfold typicalValue
    rw [if_neg, if_pos ⟨s, hn.symm⟩]
    · norm_num
    · rintro ⟨s', hs'⟩
      rw [hn] at hs'
      have := congrArg (fun l => l[2]?) hs'
      simp at this

theorem max_sqrt_sq {a b : ℝ} (ha : 0 ≤ a) : (max (Real.sqrt a) (Real.sqrt b)) ^ 2 = max a b := by
  have hm : Monotone Real.sqrt := fun _ _ h => Real.sqrt_le_sqrt h
  rw [← hm.map_max, Real.sq_sqrt (le_max_of_le_left ha)]

/-- The names of the nucleon resonances. -/
theorem nucleon_mass_names : ∀ n ∈ ParamClass.nucleon.table.initArgs, "mass_".toList <+: n.toList →
    n ∈ (["omega", "omega_prime", "omega_double_prime", "phi", "phi_prime", "phi_double_prime"] ++ ["rho", "rho_prime", "rho_double_prime"]).map
      ("mass_" ++ ·) := by decide +kernel

/-- Whether the nucleon model is built from values inside the bounds. -/
theorem nucleon_inside_outcome {p : ModelParameters ℝ} (hw : p.WellFormed) (hc : p.cls = .nucleon) {v : String → ℝ}
    (hv : ∀ q ∈ p.data, q.value = v q.name) (hi : InsideValues p.cls v) :
    OkOrV (∀ s m d, p.Holds ("mass_" ++ s) m → p.Holds ("decay_rate_" ++ s) d → massThreshold p.cls v ("mass_" ++ s) ^ 2 ≤ m ^ 2 - d ^ 2 / 4)
      (do let _ ← getFFModel p; return ()) := by
  have hwir := nucleon_wiring hw hv hc
  rw [hwir.build]
  have mem : ∀ n ∈ NucleonUAModel.argNames, n ∈ p.cls.table.initArgs := by rw [hc]; decide +kernel
  have t : ∀ n ∈ NucleonUAModel.argNames, "t_0_".toList <+: n.toList → 0 ≤ v n := fun n hn ht => hi.t0 n (mem n hn) ht
  have g : ∀ n ∈ NucleonUAModel.argNames, "decay_rate_".toList <+: n.toList → 0 < v n := fun n hn ht => hi.decay n (mem n hn) ht
  have a1 := t "t_0_dirac_isoscalar" (by decide) (by decide)
  have a2 := t "t_0_dirac_isovector" (by decide) (by decide)
  have a3 := t "t_0_pauli_isoscalar" (by decide) (by decide)
  have a4 := t "t_0_pauli_isovector" (by decide) (by decide)
  refine (nucleon_check_outcome (x := .ofValues v) a1 a2 a3 a4 ⟨?_, ?_, ?_, ?_⟩ ?_ ?_).congr ⟨?_, ?_⟩
  · exact hi.tin "t_in_dirac_isoscalar" (mem _ (by decide)) "t_0_dirac_isoscalar" "dirac_isoscalar".toList (by decide) (by decide)
  · exact hi.tin "t_in_dirac_isovector" (mem _ (by decide)) "t_0_dirac_isovector" "dirac_isovector".toList (by decide) (by decide)
  · exact hi.tin "t_in_pauli_isoscalar" (mem _ (by decide)) "t_0_pauli_isoscalar" "pauli_isoscalar".toList (by decide) (by decide)
  · exact hi.tin "t_in_pauli_isovector" (mem _ (by decide)) "t_0_pauli_isovector" "pauli_isovector".toList (by decide) (by decide)
  · simp only [NucleonArgs.isoscalars, List.forall_mem_cons, List.not_mem_nil, false_imp_iff, implies_true, and_true]
    exact ⟨g "decay_rate_omega" (by decide) (by decide), g "decay_rate_omega_prime" (by decide) (by decide),
      g "decay_rate_omega_double_prime" (by decide) (by decide), g "decay_rate_phi" (by decide) (by decide),
      g "decay_rate_phi_prime" (by decide) (by decide), g "decay_rate_phi_double_prime" (by decide) (by decide)⟩
  · simp only [NucleonArgs.isovectors, List.forall_mem_cons, List.not_mem_nil, false_imp_iff, implies_true, and_true]
    exact ⟨g "decay_rate_rho" (by decide) (by decide), g "decay_rate_rho_prime" (by decide) (by decide),
      g "decay_rate_rho_double_prime" (by decide) (by decide)⟩
  · rintro ⟨hS, hV⟩ s m d hm hd
    obtain ⟨hm1, rfl⟩ := (hw.holds_iff hv).mp hm
    obtain ⟨-, rfl⟩ := (hw.holds_iff hv).mp hd
    rw [hc] at hm1 ⊢
    have := nucleon_mass_names _ hm1 ⟨s.toList, by rw [String.toList_append]⟩
    obtain ⟨s', hs', he⟩ := List.mem_map.mp this
    obtain rfl : s' = s := by
      have := congrArg String.toList he
      rw [String.toList_append, String.toList_append] at this
      exact String.toList_inj.mp (List.append_cancel_left this)
    rw [List.mem_append] at hs'
    unfold massThreshold
    rw [if_pos rfl]
    rcases hs' with hs' | hs'
    · have hiso : IsIsoscalarName ("mass_" ++ s') := by
        have : ∀ s ∈ ["omega", "omega_prime", "omega_double_prime", "phi", "phi_prime", "phi_double_prime"], IsIsoscalarName ("mass_" ++ s) := by
          decide +kernel
        exact this _ hs'
      rw [if_pos hiso, max_sqrt_sq a1]
      simp only [NucleonArgs.isoscalars, List.forall_mem_cons, List.not_mem_nil, false_imp_iff, implies_true, and_true] at hS
      obtain ⟨h1, h2, h3, h4, h5, h6⟩ := hS
      simp only [List.mem_cons, List.not_mem_nil, or_false] at hs'
      rcases hs' with rfl | rfl | rfl | rfl | rfl | rfl
      · exact h1
      · exact h2
      · exact h3
      · exact h4
      · exact h5
      · exact h6
    · have hiso : ¬ IsIsoscalarName ("mass_" ++ s') := by
        have : ∀ s ∈ ["rho", "rho_prime", "rho_double_prime"], ¬ IsIsoscalarName ("mass_" ++ s) := by
          decide +kernel
        exact this _ hs'
      rw [if_neg hiso, max_sqrt_sq a2]
      simp only [NucleonArgs.isovectors, List.forall_mem_cons, List.not_mem_nil, false_imp_iff, implies_true, and_true] at hV
      obtain ⟨h1, h2, h3⟩ := hV
      simp only [List.mem_cons, List.not_mem_nil, or_false] at hs'
      rcases hs' with rfl | rfl | rfl
      · exact h1
      · exact h2
      · exact h3
  · intro h
    have key : ∀ s : String, "mass_" ++ s ∈ NucleonUAModel.argNames → "decay_rate_" ++ s ∈ NucleonUAModel.argNames →
        massThreshold .nucleon v ("mass_" ++ s) ^ 2 ≤ v ("mass_" ++ s) ^ 2 - v ("decay_rate_" ++ s) ^ 2 / 4 := fun s h1 h2 => by
      have := h s _ _ ((hw.holds_iff hv).mpr ⟨mem _ h1, rfl⟩) ((hw.holds_iff hv).mpr ⟨mem _ h2, rfl⟩)
      rwa [hc] at this
    have keyS : ∀ s : String, IsIsoscalarName ("mass_" ++ s) → "mass_" ++ s ∈ NucleonUAModel.argNames → "decay_rate_" ++ s ∈ NucleonUAModel.argNames →
        max (v "t_0_dirac_isoscalar") (v "t_0_pauli_isoscalar") ≤ v ("mass_" ++ s) ^ 2 - v ("decay_rate_" ++ s) ^ 2 / 4 := fun s hs h1 h2 => by
      have := key s h1 h2
      unfold massThreshold at this
      rwa [if_pos rfl, if_pos hs, max_sqrt_sq a1] at this
    have keyV : ∀ s : String, ¬ IsIsoscalarName ("mass_" ++ s) → "mass_" ++ s ∈ NucleonUAModel.argNames → "decay_rate_" ++ s ∈ NucleonUAModel.argNames →
        max (v "t_0_dirac_isovector") (v "t_0_pauli_isovector") ≤ v ("mass_" ++ s) ^ 2 - v ("decay_rate_" ++ s) ^ 2 / 4 := fun s hs h1 h2 => by
      have := key s h1 h2
      unfold massThreshold at this
      rwa [if_pos rfl, if_neg hs, max_sqrt_sq a2] at this
    simp only [NucleonArgs.isoscalars, NucleonArgs.isovectors, List.forall_mem_cons, List.not_mem_nil, false_imp_iff, implies_true, and_true]
    exact ⟨⟨keyS "omega" (by decide) (by decide) (by decide), keyS "omega_prime" (by decide) (by decide) (by decide),
      keyS "omega_double_prime" (by decide) (by decide) (by decide), keyS "phi" (by decide) (by decide) (by decide),
      keyS "phi_prime" (by decide) (by decide) (by decide), keyS "phi_double_prime" (by decide) (by decide) (by decide)⟩,
      keyV "rho" (by decide) (by decide) (by decide), keyV "rho_prime" (by decide) (by decide) (by decide),
      keyV "rho_double_prime" (by decide) (by decide) (by decide)⟩

end UA
