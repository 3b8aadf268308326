import Verif.Model.FitScripts
import Verif.Lemmas.RunsInside

/-!
# Helper lemmas: the starting values of the fit scripts
-/

namespace UA

/-! ### Perturbation keeps values strictly inside -/

theorem perturbedValue_strict {l : WithBot ℝ} {u : WithTop ℝ} {x r s : ℝ} (hl : l < (x : WithBot ℝ)) (hu : (x : WithTop ℝ) < u)
    (hs : 0 ≤ s) (hr : s * |r| < 1) : l < (perturbedValue l x u r s : WithBot ℝ) ∧ (perturbedValue l x u r s : WithTop ℝ) < u := by
  unfold perturbedValue
  rcases lt_trichotomy r 0 with h0 | h0 | h0
  · rw [if_pos h0]
    rw [abs_of_neg h0] at hr
    induction l with
    | bot =>
      refine ⟨WithBot.bot_lt_coe _, lt_of_le_of_lt (WithTop.coe_le_coe.mpr ?_) hu⟩
      have h1 : -|x| ≤ x := neg_abs_le x
      have h2 : 0 ≤ |x| * (s * |r|) := by positivity
      nlinarith
    | coe l =>
      have hl' : l < x := by exact_mod_cast hl
      have h1 : 0 ≤ s * (x - l) := mul_nonneg hs (by linarith)
      refine ⟨WithBot.coe_lt_coe.mpr ?_, lt_of_le_of_lt (WithTop.coe_le_coe.mpr ?_) hu⟩
      · nlinarith
      · nlinarith
  · rw [if_neg (by rw [h0]; exact lt_irrefl 0), if_neg (by rw [h0]; exact lt_irrefl 0)]
    exact ⟨hl, hu⟩
  · rw [if_neg (not_lt.mpr h0.le), if_pos h0]
    rw [abs_of_pos h0] at hr
    induction u with
    | top =>
      refine ⟨lt_of_lt_of_le hl (WithBot.coe_le_coe.mpr ?_), WithTop.coe_lt_top _⟩
      have h1 : x ≤ |x| := le_abs_self x
      have h2 : 0 ≤ |x| * (s * |r|) := by positivity
      nlinarith
    | coe u =>
      have hu' : x < u := by exact_mod_cast hu
      have h1 : 0 ≤ s * (u - x) := mul_nonneg hs (by linarith)
      refine ⟨lt_of_lt_of_le hl (WithBot.coe_le_coe.mpr ?_), WithTop.coe_lt_coe.mpr ?_⟩
      · nlinarith
      · nlinarith

theorem size_strict {s sr r : ℝ} (n : String) (hs : 0 ≤ s ∧ s ≤ 1) (hsr : 0 ≤ sr ∧ sr ≤ 1) (hr : 0 < r ∧ r < 1) :
    0 ≤ perturbationSize s sr n ∧ perturbationSize s sr n * |2 * (r - 0.5)| < 1 := by
  have h1 : |2 * (r - 0.5)| < 1 := abs_lt.mpr ⟨by linarith, by linarith⟩
  have h0 := abs_nonneg (2 * (r - 0.5))
  unfold perturbationSize
  split_ifs
  · exact ⟨hsr.1, by nlinarith⟩
  · exact ⟨hs.1, by nlinarith⟩

theorem GoodObject.perturb {c : ParamClass} (hc : IsResonanceClass c) {h : Bool} {p : ModelParameters ℝ} (hg : GoodObject c h ∅ p) {s sr : ℝ}
    (hs : 0 ≤ s ∧ s ≤ 1) (hsr : 0 ≤ sr ∧ sr ≤ 1) {random : ℕ → ℝ} (hr : ∀ k, 0 < random k ∧ random k < 1) :
    ∃ p', perturbModelParameters p s (some sr) h random = (.ok (), p') ∧ GoodObject c h ∅ p' ∧ p'.flags = p.flags ∧ p'.names = p.names := by
  obtain ⟨hreach, rfl, v, hv, hg⟩ := hg
  have hw := reachable_wellFormed hreach
  have hd := bounds_eq hw hv h fun _ => hg.inside.t0
  obtain ⟨B, hB, heq⟩ := perturb_eq hw hd s (some sr) random
  have hf := perturbedData_forall₂ B (perturbationSize s sr) random p.data 0
  have hreach' := perturb_reachable hreach s (some sr) h random
  rw [heq] at hreach'
  have hw' := reachable_wellFormed hreach'
  obtain ⟨y, hy⟩ := hw'.exists_values
  have always : ∀ c : ParamClass, ∀ n ∈ c.table.alwaysFixed, n ∈ c.table.initArgs := by intro c; cases c <;> decide +kernel
  have entry : ∀ n ∈ p.cls.table.initArgs, ∃ q ∈ p.data, ∃ q', q.name = n ∧ q'.name = n ∧ q.value = v n ∧ q'.value = y n ∧
      PerturbedEntry B (perturbationSize s sr) random q q' := by
    intro n hn
    have hn' := hn
    rw [← hw'.names] at hn'
    obtain ⟨q', hq', rfl⟩ := List.mem_map.mp hn'
    obtain ⟨q, hq, he⟩ := forall₂_mem_right hf q' hq'
    have hname : q.name = q'.name := by
      rcases he with ⟨-, rfl⟩ | ⟨-, k, rfl⟩ <;> rfl
    exact ⟨q, hq, q', hname, rfl, by rw [← hname]; exact hv q hq, hy q' hq', he⟩
  refine ⟨_, heq, ⟨hreach', rfl, y, hy, hg.update hc (fun n hn => ?_) (fun n hn hfix b hb => ?_) (fun n _ _ => Set.notMem_empty _)⟩, ?_, ?_⟩
  · obtain ⟨q, hq, q', rfl, -, h1, h2, ⟨-, rfl⟩ | ⟨h3, -⟩⟩ := entry n (always _ _ hn)
    · exact h1.symm.trans h2
    · rw [hw.fixed q hq (by rw [hw.always]; exact hn)] at h3; cases h3
  · obtain ⟨q, hq, q', rfl, -, h1, h2, ⟨-, rfl⟩ | ⟨h3, k, rfl⟩⟩ := entry n hn
    · rw [← h2, h1]; exact hg.bounds _ hn hfix b hb
    · have hb' := hB q hq h3
      rw [hb] at hb'
      injection hb' with hb'
      rw [← h2]
      have hin := hg.bounds _ hn hfix b hb
      rw [← h1] at hin
      rw [← hb']
      obtain ⟨k1, k2⟩ := size_strict q.name hs hsr (hr k)
      exact perturbedValue_strict hin.1 hin.2 k1 k2
  · show (perturbedData B (perturbationSize s sr) random 0 p.data).map (·.is_fixed) = p.data.map (·.is_fixed)
    revert hf
    generalize perturbedData B (perturbationSize s sr) random 0 p.data = l'
    generalize p.data = l
    intro hf
    clear * - hf
    induction hf with
    | nil => rfl
    | cons h1 _ ih =>
      simp only [List.map_cons, ih]
      rcases h1 with ⟨-, rfl⟩ | ⟨h1, k, rfl⟩
      · rfl
      · rw [h1]
  · show (perturbedData B (perturbationSize s sr) random 0 p.data).map (·.name) = p.data.map (·.name)
    revert hf
    generalize perturbedData B (perturbationSize s sr) random 0 p.data = l'
    generalize p.data = l
    intro hf
    clear * - hf
    induction hf with
    | nil => rfl
    | cons h1 _ ih =>
      simp only [List.map_cons, ih]
      rcases h1 with ⟨-, rfl⟩ | ⟨h1, k, rfl⟩ <;> rfl

/-! ### The literals -/

/-- A literal lies strictly inside an entry of a bounds table, the thresholds being below 1. -/
def insideEntry (e : String × LowerExpr × UpperExpr) (q : ℚ) : Prop :=
  (match e.2.1 with
    | .const l => l < q
    | .negInf => True
    | .value m => "t_0_".toList <+: m.toList ∧ 1 ≤ q
    | .loc _ => False) ∧
  (match e.2.2 with
    | .const u => q < u
    | .posInf => True)

instance (e : String × LowerExpr × UpperExpr) (q : ℚ) : Decidable (insideEntry e q) := by
  unfold insideEntry
  refine @instDecidableAnd _ _ ?_ ?_
  · split <;> infer_instance
  · split <;> infer_instance

/-- The keyword arguments of a script fit its class and lie inside its bounds. -/
structure FitScript.Fits (script : FitScript) (K : List String) : Prop where
  cover : ∀ n ∈ script.cls.table.initArgs, n ∈ K ∨ n ∈ script.literals.map (·.1)
  known : ∀ n ∈ K ++ script.literals.map (·.1), n ∈ script.cls.table.initArgs
  consts : ∀ n ∈ K, ¬ "mass_".toList <+: n.toList ∧ ¬ "decay_rate_".toList <+: n.toList ∧ n ∈ script.cls.table.alwaysFixed
  noT0 : ∀ q ∈ script.literals, ¬ "t_0_".toList <+: q.1.toList
  mass : ∀ q ∈ script.literals, "mass_".toList <+: q.1.toList → 0.75 ≤ q.2
  decay : ∀ q ∈ script.literals, "decay_rate_".toList <+: q.1.toList → 0 < q.2
  tin : ∀ q ∈ script.literals, "t_in_".toList <+: q.1.toList → 1 ≤ q.2
  handpicked : script.use_handpicked_bounds = true → ∀ q ∈ script.literals, ∀ e ∈ script.cls.table.handpicked, e.1 = q.1 → insideEntry e q.2

theorem FitScript.Fits.make {script : FitScript} (hc : IsResonanceClass script.cls) {consts : List (String × ℝ)}
    (hf : script.Fits (consts.map (·.1))) (h0 : ∀ q ∈ consts, "t_0_".toList <+: q.1.toList → 0 ≤ q.2 ∧ q.2 ≤ 0.54) :
    ∃ x : String → ℝ, script.makeInitialParameters consts = .ok ⟨script.cls, script.cls.table.alwaysFixed, freshData script.cls x⟩ ∧
      (∀ n ∈ script.cls.table.initArgs, (consts ++ script.literals.map fun q => (q.1, (q.2 : ℝ))).lookup n = some (x n)) ∧
      GoodObject script.cls script.use_handpicked_bounds ∅ ⟨script.cls, script.cls.table.alwaysFixed, freshData script.cls x⟩ := by
  set kw := consts ++ script.literals.map fun q => (q.1, (q.2 : ℝ)) with hkw
  set x : String → ℝ := fun n => (kw.lookup n).getD 0 with hx
  have hmem : ∀ n ∈ script.cls.table.initArgs, kw.lookup n = some (x n) := by
    intro n hn
    have : ∃ v, (n, v) ∈ kw := by
      rcases hf.cover n hn with h | h
      · obtain ⟨q, hq, rfl⟩ := List.mem_map.mp h
        exact ⟨q.2, List.mem_append_left _ hq⟩
      · obtain ⟨q, hq, rfl⟩ := List.mem_map.mp h
        exact ⟨q.2, List.mem_append_right _ (List.mem_map_of_mem (f := fun q : String × ℚ => (q.1, (q.2 : ℝ))) hq)⟩
    obtain ⟨v, hv⟩ := this
    rcases hl : kw.lookup n with _ | w
    · exfalso
      rw [List.lookup_eq_none_iff] at hl
      simpa using hl _ hv
    · simp [hx, hl]
  have hkeys : ∀ q ∈ kw, q.1 ∈ script.cls.table.initArgs := by
    intro q hq
    refine hf.known _ ?_
    rcases List.mem_append.mp hq with h | h
    · exact List.mem_append_left _ (List.mem_map_of_mem h)
    · obtain ⟨r, hr, rfl⟩ := List.mem_map.mp h
      exact List.mem_append_right _ (List.mem_map_of_mem (f := fun q : String × ℚ => q.1) hr)
  have hmake : script.makeInitialParameters consts = .ok ⟨script.cls, script.cls.table.alwaysFixed, freshData script.cls x⟩ :=
    init_eq script.cls hmem hkeys
  -- where a value comes from
  have origin : ∀ n ∈ script.cls.table.initArgs, (n, x n) ∈ consts ∨ ∃ q, (n, q) ∈ script.literals ∧ x n = (q : ℝ) := by
    intro n hn
    rcases List.mem_append.mp (lookup_mem (hmem n hn)) with h | h
    · exact Or.inl h
    · obtain ⟨⟨m, q⟩, hr, he⟩ := List.mem_map.mp h
      injection he with e1 e2
      dsimp only at e1 e2
      subst e1
      exact Or.inr ⟨q, hr, e2.symm⟩
  have t0 : ∀ n ∈ script.cls.table.initArgs, "t_0_".toList <+: n.toList → 0 ≤ x n ∧ x n ≤ 0.54 := by
    intro n hn ht
    rcases origin n hn with h | ⟨q, h, -⟩
    · exact h0 _ h ht
    · exact absurd ht (hf.noT0 _ h)
  have constK : ∀ {n v}, (n, v) ∈ consts → n ∈ consts.map (·.1) := fun h => List.mem_map_of_mem (f := (·.1)) h
  have tin1 : ∀ n ∈ script.cls.table.initArgs, "t_in_".toList <+: n.toList → 1 ≤ x n := by
    intro n hn ht
    rcases origin n hn with h | ⟨q, h, he⟩
    · exact absurd (hf.consts _ (constK h)).2.2 (tin_not_fixed _ n hn ht)
    · rw [he]; exact_mod_cast hf.tin _ h ht
  have hin : InsideValues script.cls x := by
    refine ⟨fun n hn ht => (t0 n hn ht).1, fun n hn hm => ?_, fun n hn hm => ?_, fun n hn m s h1 h2 => ?_⟩
    · refine (massThreshold_small hc (fun m hm ht => (t0 m hm ht).2) n).trans_lt ?_
      rcases origin n hn with h | ⟨q, h, he⟩
      · exact absurd hm (hf.consts _ (constK h)).1
      · have := hf.mass _ h hm
        have h3 : ((0.75 : ℚ) : ℝ) ≤ (q : ℝ) := by exact_mod_cast this
        rw [he]
        refine lt_of_lt_of_le ?_ h3
        norm_num
    · rcases origin n hn with h | ⟨q, h, he⟩
      · exact absurd hm (hf.consts _ (constK h)).2.1
      · rw [he]; exact_mod_cast hf.decay _ h hm
    · have hm : m ∈ script.cls.table.initArgs := by
        obtain ⟨m', hm', he⟩ := tin_t0 _ n hn ⟨s, h1.symm⟩
        have : m = m' := String.toList_injective (by rw [h2, he, h1]; rfl)
        rw [this]; exact hm'
      have k1 := (t0 m hm ⟨s, h2.symm⟩).2
      have k2 := tin1 n hn ⟨s, h1.symm⟩
      exact lt_of_le_of_lt k1 (lt_of_lt_of_le (by norm_num) k2)
  have hreach : Reachable (⟨script.cls, script.cls.table.alwaysFixed, freshData script.cls x⟩ : ModelParameters ℝ) := .init hmake
  have hvals : ∀ q ∈ (⟨script.cls, script.cls.table.alwaysFixed, freshData script.cls x⟩ : ModelParameters ℝ).data, q.value = x q.name := by
    intro q hq
    obtain ⟨e, -, rfl⟩ := List.mem_map.mp hq
    rfl
  refine ⟨x, hmake, hmem, hreach, rfl, x, hvals, hin, ?_, fun _ _ _ => Set.notMem_empty _, fun _ n hn ht => (t0 n hn ht).2⟩
  cases hh : script.use_handpicked_bounds with
  | false =>
    have hi := insideMaximal_of_values hreach hc hvals hin
    obtain ⟨dict, hd, hin'⟩ := hi
    have hd' : (⟨script.cls, script.cls.table.alwaysFixed, freshData script.cls x⟩ : ModelParameters ℝ).bounds false = .ok dict := hd
    obtain ⟨rfl, -⟩ := bounds_inv (reachable_wellFormed hreach) hvals hd'
    intro n hn _ b hb
    have hn' : n ∈ (freshData script.cls x).map (·.name) := by rw [freshData_names]; exact hn
    obtain ⟨q, hq, rfl⟩ := List.mem_map.mp hn'
    rw [← hvals q hq]
    exact (hin' q hq).1 b hb
  | true =>
    intro n hn hfix b hb
    obtain ⟨e, he, heq⟩ := List.mem_map.mp (lookup_mem hb)
    injection heq with e1 e2
    rcases origin n hn with h | ⟨q, h, hq⟩
    · exact absurd (hf.consts _ (constK h)).2.2 hfix
    · have hi := hf.handpicked hh _ h e he e1
      have hk : ∀ m, e.2.1 = .value m → m ∈ script.cls.table.initArgs := by
        have hsub : ∀ c : ParamClass, ∀ n ∈ c.table.alwaysFixed, n ∈ c.table.initArgs := by intro c; cases c <;> decide +kernel
        exact fun m hm => hsub _ _ ((bounds_refs script.cls true).2 e he m hm)
      rw [← e2, hq]
      obtain ⟨e₁, lo, up⟩ := e
      unfold insideEntry at hi
      dsimp only at hi hk ⊢
      constructor
      · cases lo with
        | const l => exact WithBot.coe_lt_coe.mpr (by exact_mod_cast hi.1)
        | negInf => exact WithBot.bot_lt_coe _
        | value m =>
          refine WithBot.coe_lt_coe.mpr (lt_of_le_of_lt (t0 m (hk m rfl) hi.1.1).2 ?_)
          have : (1 : ℝ) ≤ (q : ℝ) := by exact_mod_cast hi.1.2
          exact lt_of_lt_of_le (by norm_num) this
        | loc l => exact hi.1.elim
      · cases up with
        | const u => exact WithTop.coe_lt_coe.mpr (by exact_mod_cast hi.2)
        | posInf => exact WithTop.coe_lt_top _

/-! ### The scripts -/

def kaonThresholds : List String := ["t_0_isoscalar", "t_0_isovector"]

def nucleonConstants : List String :=
  ["nucleon_mass", "magnetic_moment_proton", "magnetic_moment_neutron", "t_0_dirac_isoscalar", "t_0_dirac_isovector", "t_0_pauli_isoscalar",
   "t_0_pauli_isovector"]

theorem fitFFIterative_fits : fitFFIterative.Fits kaonThresholds := by
  constructor <;> decide +kernel

theorem fitCSIterativeFixed_fits : fitCSIterativeFixed.Fits kaonThresholds := by
  constructor <;> decide +kernel

theorem fitCSIterativeSimplified_fits : fitCSIterativeSimplified.Fits kaonThresholds := by
  constructor <;> decide +kernel

theorem fitCSPipelineSimplified_fits : fitCSPipelineSimplified.Fits kaonThresholds := by
  constructor <;> decide +kernel

theorem fitNucleonCSIterative_fits : fitNucleonCSIterative.Fits nucleonConstants := by
  constructor <;> decide +kernel

end UA
