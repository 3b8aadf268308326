import Verif.Lemmas.NucleonContent
import Verif.Props.Nucleon
import Verif.Props.Kaon
import Verif.Lemmas.Decomposition
import Verif.Spec.Utils

/-!
# Properties C67 - C70: the models in terms of their resonances
-/

namespace UA

open Complex ComplexConjugate

/-! ### C67 -/

/-- **C67** a kaon model is the sum of the single-component models of its isoscalar resonances plus (charged) or minus
(neutral) the sum of those of its isovector resonances - value or exception. -/
theorem C67_kaon_is_sum_of_single_components (x : KaonArgs) (charged : Bool) (hx : x.Proper) (hb : x.Builds charged) (t : ℂ) :
    x.run charged t = do
      let s ← x.resS.mapM fun r => runSingle x.t0S x.tinS r.a r.mass r.decay t
      let v ← x.resV.mapM fun r => runSingle x.t0V x.tinV r.a r.mass r.decay t
      return s.sum + (if charged then 1 else -1) * v.sum := by
  obtain ⟨k, b, h⟩ := KaonArgs.get_view hb
  rw [h]
  show _ = (do
    let s ← singles x.t0S x.tinS x.resS t
    let v ← singles x.t0V x.tinV x.resV t
    return s.sum + (if charged then 1 else -1) * v.sum)
  by_cases hre : t.re < 0
  · rw [KView.call_neg _ hre, singles_neg b.h0S hx.1 x.resS_ne b.hS hre]
    rfl
  rw [not_lt] at hre
  by_cases hp : Singular x.tinS x.tinV x.resS x.resV t
  · rw [b.call_zeroDiv hx.1 hx.2 hre hp]
    by_cases hS : t = x.tinS ∨ ∃ r ∈ x.resS, t = r.pole ∨ t = conj r.pole
    · rw [singles_error b.h0S hx.1 x.resS_ne b.hS hre hS]
      rfl
    · have hV : t = x.tinV ∨ ∃ r ∈ x.resV, t = r.pole ∨ t = conj r.pole := by
        rcases hp with h' | h' | ⟨r, hr, h'⟩
        · exact absurd (Or.inl h') hS
        · exact Or.inl h'
        · rcases List.mem_append.mp hr with hr | hr
          · exact absurd (Or.inr ⟨r, hr, h'⟩) hS
          · exact Or.inr ⟨r, hr, h'⟩
      push Not at hS
      obtain ⟨l, hl, _⟩ := singles_ok b.h0S hx.1 b.hS hre hS.1 hS.2
      rw [hl, except_ok_bind, singles_error b.h0V hx.2 x.resV_ne b.hV hre hV]
      rfl
  · obtain ⟨h1, h2, h3, h4⟩ := not_singular hp
    rw [b.call_ok hx.1 hx.2 hre hp]
    obtain ⟨l, hl, sl⟩ := singles_ok b.h0S hx.1 b.hS hre h1 h3
    obtain ⟨l', hl', sl'⟩ := singles_ok b.h0V hx.2 b.hV hre h2 h4
    rw [hl, except_ok_bind, hl', except_ok_bind, sl, sl']
    rfl

example : exampleFull.Builds false ∧ exampleFull.Proper := by
  have hp : exampleFull.Proper := by constructor <;> norm_num [exampleFull, KaonArgs.t0S, KaonArgs.tinS, KaonArgs.t0V, KaonArgs.tinV]
  refine ⟨builds_of_pos ?_ ?_ hp ?_ ?_, hp⟩ <;>
    simp [exampleFull, KaonArgs.t0S, KaonArgs.tinS, KaonArgs.t0V, KaonArgs.tinV, KaonArgs.resS, KaonArgs.resV,
      KaonUAModel.Args.resS, KaonUAModel.Args.resV] <;> norm_num

/-! ### C68 -/

/-- **C68** a component of either builder never takes the value zero. -/
theorem C68_component_never_zero (b : Builder) (t_0 t_in mass decay : ℝ) (h0 : 0 ≤ t_0) (h : t_0 < t_in)
    (c : UAComponent) (hb : b.build t_0 t_in mass decay = .ok c) (t y : ℂ) (hy : evalAt t_0 t_in c t = .ok y) : y ≠ 0 := by
  obtain ⟨v, B⟩ := Builder.built h0 h hb
  by_cases ht : t = t_in
  · rw [ht, evalAt_tin h0 h] at hy; cases hy
  rw [evalAt_eq h0 h ht] at hy
  by_cases hp : t = polePosition mass decay ∨ t = conj (polePosition mass decay)
  · rw [B.call_error ht hp] at hy; cases hy
  · push Not at hp
    rw [B.call_ok ht hp.1 hp.2] at hy
    injection hy with hy
    rw [← hy]
    exact B.Fval_ne ht hp.1 hp.2

example : ∃ c y, Builder.massSquared.build 1 2 (3/2) (1/10) = .ok c ∧ evalAt 1 2 c 5 = .ok y ∧ y ≠ 0 := by
  obtain ⟨c, hc, _⟩ := (C12_thresholds 1 2 (3/2) (1/10) (by norm_num) (by norm_num)).2.2.2.mpr ⟨by norm_num, by norm_num⟩
  obtain ⟨y, hy⟩ := C14_real_defined .massSquared 1 2 (3/2) (1/10) (by norm_num) (by norm_num) c hc (by norm_num) (by norm_num) 5 (by norm_num)
  rw [ofReal_ofNat] at hy
  exact ⟨c, y, hc, hy, C68_component_never_zero .massSquared 1 2 (3/2) (1/10) (by norm_num) (by norm_num) c hc 5 y hy⟩

/-! ### C69 -/

/-- **C69** at zero width both nucleon classes are combinations of four vector-meson-dominance models: the Dirac ones keep
the free couplings and have the remaining two fixed by normalisation and one sum rule, the Pauli ones have the remaining
three fixed by normalisation and two sum rules. -/
theorem C69_nucleon_zero_width_is_vmd (k : NucleonClass) (x : NucleonArgs) (hx : x.Proper) (hz : x.ZeroWidth) (hd : x.DistinctMasses) :
    ∃ d_omega_double_prime d_phi_double_prime d_rho_prime d_rho_double_prime
      p_omega_prime p_omega_double_prime p_phi_double_prime p_rho p_rho_prime p_rho_double_prime : ℝ,
      let F1s := x.isoscalarMesons x.a_dirac_omega x.a_dirac_omega_prime d_omega_double_prime x.a_dirac_phi x.a_dirac_phi_prime d_phi_double_prime
      let F1v := x.isovectorMesons x.a_dirac_rho d_rho_prime d_rho_double_prime
      let F2s := x.isoscalarMesons x.a_pauli_omega p_omega_prime p_omega_double_prime x.a_pauli_phi x.a_pauli_phi_prime p_phi_double_prime
      let F2v := x.isovectorMesons p_rho p_rho_prime p_rho_double_prime
      SumRules F1s (1 / 2) 1 ∧ SumRules F1v (1 / 2) 1 ∧
      SumRules F2s ((x.magnetic_moment_proton + x.magnetic_moment_neutron - 1) / 2) 2 ∧
      SumRules F2v ((x.magnetic_moment_proton - x.magnetic_moment_neutron - 1) / 2) 2 ∧
      ∀ proton electric t y, k.run proton electric x t = .ok y →
        ∃ f1s f1v f2s f2v,
          (VMDModel.create F1s).call t = .ok f1s ∧ (VMDModel.create F1v).call t = .ok f1v ∧
          (VMDModel.create F2s).call t = .ok f2s ∧ (VMDModel.create F2v).call t = .ok f2v ∧
          y = (if proton then f1s + f1v else f1s - f1v) +
            (if electric then t / (4 * (x.nucleon_mass : ℂ) ^ 2) else 1) * (if proton then f2s + f2v else f2s - f2v) := by
  refine ⟨x.bDS1, x.bDS2, x.bDV1, x.bDV2, x.bPS3, x.bPS1, x.bPS2, x.bPV1, x.bPV2, x.bPV3, vmdDS_rules hd, vmdDV_rules hd,
    vmdPS_rules hd, vmdPV_rules hd, ?_⟩
  intro proton electric t y hy
  have hold : NucleonClass.old.run proton electric x t = .ok y := by
    cases k with
    | old => exact hy
    | new => rw [← C62_zero_width_classes_agree proton electric x hx hz]; exact hy
  obtain ⟨ht, hval⟩ := old_run_poles hx hz hold
  rw [ds_vmd hd ht, dv_vmd hd ht, ps_vmd hd ht, pv_vmd hd ht] at hval
  have hS : ∀ a b c d e f : ℝ, ∀ v ∈ x.isoscalarMesons a b c d e f, t ≠ (v.mass : ℂ) ^ 2 := by
    intro a b c d e f v hv h
    simp only [NucleonArgs.resonances, List.forall_mem_cons] at ht
    simp only [NucleonArgs.isoscalarMesons, List.mem_cons, List.not_mem_nil, or_false] at hv
    rcases hv with rfl | rfl | rfl | rfl | rfl | rfl <;> simp_all
  have hV : ∀ a b c : ℝ, ∀ v ∈ x.isovectorMesons a b c, t ≠ (v.mass : ℂ) ^ 2 := by
    intro a b c v hv h
    simp only [NucleonArgs.resonances, List.forall_mem_cons] at ht
    simp only [NucleonArgs.isovectorMesons, List.mem_cons, List.not_mem_nil, or_false] at hv
    rcases hv with rfl | rfl | rfl <;> simp_all
  refine ⟨_, _, _, _, vmd_call_ok (List.cons_ne_nil _ _) (hS _ _ _ _ _ _), vmd_call_ok (List.cons_ne_nil _ _) (hV _ _ _),
    vmd_call_ok (List.cons_ne_nil _ _) (hS _ _ _ _ _ _), vmd_call_ok (List.cons_ne_nil _ _) (hV _ _ _), ?_⟩
  rw [hval, nVal]
  cases proton <;> simp only [Bool.false_eq_true, if_false, if_true, one_mul, neg_mul, ← sub_eq_add_neg] <;> rfl

/-- The hypotheses of C69 can be met, also the one about the value. -/
example (proton electric : Bool) : exampleNarrow.Proper ∧ exampleNarrow.ZeroWidth ∧ exampleNarrow.DistinctMasses ∧
    ∃ y, NucleonClass.old.run proton electric exampleNarrow 0 = .ok y :=
  ⟨exampleNarrow_proper, exampleNarrow_zeroWidth, exampleNarrow_distinct, exampleNarrow_evaluates proton electric⟩

/-! ### C70 -/

/-- **C70** every mass term used by the new nucleon model is a strictly negative real number. -/
theorem C70_mass_terms_negative (proton electric : Bool) (x : NucleonArgs) (hx : x.Proper) (m : NucleonUAModel)
    (h : NucleonUAModel.init proton electric x = .ok m) (scalar dirac : Bool) (r : String)
    (hr : r ∈ if scalar then namesS else namesV) :
    ∃ v, m.calculateMassTerm scalar dirac r = .ok v ∧ v.im = 0 ∧ v.re < 0 := by
  have ht := (new_init_built hx h).1.terms
  have : ∃ v, m.calculateMassTerm scalar dirac r = .ok v ∧ ∃ q : ℝ, 0 < q ∧ v = ((-q : ℝ) : ℂ) := by
    cases scalar with
    | true => exact ht.1 dirac r (by simpa using hr)
    | false => exact ht.2 dirac r (by simpa using hr)
  obtain ⟨v, hv, q, hq, rfl⟩ := this
  exact ⟨_, hv, by simp, by simpa using hq⟩

/-- The isovector Pauli mass term of the rho prime of the example. -/
example : ∃ m v, NucleonUAModel.init true true exampleNucleon = .ok m ∧ m.calculateMassTerm false false "rho_prime" = .ok v ∧ v.re < 0 := by
  obtain ⟨y, hy⟩ := exampleNucleon_evaluates .new true true
  obtain ⟨m, hm, -⟩ := except_bind_eq_ok.mp hy
  obtain ⟨v, hv, -, h⟩ := C70_mass_terms_negative true true exampleNucleon exampleNucleon_proper m hm false false "rho_prime" (by decide)
  exact ⟨m, v, hm, hv, h⟩

/-- **C70** a mass term depends only on the thresholds of its own contribution and on its own resonance. -/
theorem C70_mass_term_own_thresholds (proton electric proton' electric' : Bool) (x x' : NucleonArgs) (m m' : NucleonUAModel)
    (h : NucleonUAModel.init proton electric x = .ok m) (h' : NucleonUAModel.init proton' electric' x' = .ok m')
    (scalar dirac : Bool) (r : String) (hr : r ∈ namesS ++ namesV) (hthr : x.thresholds scalar dirac = x'.thresholds scalar dirac)
    (hm : x.byName.lookup ("mass_" ++ r) = x'.byName.lookup ("mass_" ++ r))
    (hg : x.byName.lookup ("decay_rate_" ++ r) = x'.byName.lookup ("decay_rate_" ++ r)) :
    m.calculateMassTerm scalar dirac r = m'.calculateMassTerm scalar dirac r := by
  replace hm : x.massOf r = x'.massOf r := by
    obtain ⟨⟨v, h1, h2⟩, -⟩ := massOf_byName hr x
    obtain ⟨⟨v', h1', h2'⟩, -⟩ := massOf_byName hr x'
    rw [h1, h1', Option.some.injEq] at hm
    rw [h2, h2', hm]
  replace hg : x.decayRateOf r = x'.decayRateOf r := by
    obtain ⟨-, v, h1, h2⟩ := massOf_byName hr x
    obtain ⟨-, v', h1', h2'⟩ := massOf_byName hr x'
    rw [h1, h1', Option.some.injEq] at hg
    rw [h2, h2', hg]
  unfold NucleonUAModel.init at h h'
  refine bindE h fun b e h => ?_
  refine bindE h' fun b' e' h' => ?_
  injection h with h
  injection h' with h'
  subst h h'
  obtain ⟨a, s⟩ := init_maps e
  obtain ⟨a', s'⟩ := init_maps e'
  unfold NucleonBase.calculateMassTerm
  simp only
  rw [s, s', a, a', hthr, hm, hg]

/-- The example and the same with another Pauli coupling and another nucleon mass. -/
example : ∃ m m', NucleonUAModel.init true true exampleNucleon = .ok m ∧
    NucleonUAModel.init false false { exampleNucleon with a_pauli_omega := 100, nucleon_mass := 7 } = .ok m' ∧
    m.calculateMassTerm true false "omega" = m'.calculateMassTerm true false "omega" := by
  obtain ⟨y, hy⟩ := exampleNucleon_evaluates .new true true
  obtain ⟨m, hm, -⟩ := except_bind_eq_ok.mp hy
  have key : ∀ (x : NucleonArgs) (a M : ℝ), x.Proper → NucleonClass.new.Builds true true x →
      NucleonClass.new.Builds false false { x with a_pauli_omega := a, nucleon_mass := M } := fun x a M hx hb =>
    (NucleonClass.builds_iff (k := .new) (x := { x with a_pauli_omega := a, nucleon_mass := M }) hx).mpr
      ((NucleonClass.builds_iff (k := .new) hx).mp hb)
  obtain ⟨m', hm'⟩ := key exampleNucleon 100 7 exampleNucleon_proper ⟨m, hm⟩
  exact ⟨m, m', hm, hm', C70_mass_term_own_thresholds _ _ _ _ _ _ m m' hm hm' true false "omega" (by decide) rfl rfl rfl⟩

/-- **C70** after a call that returned a value, no further call changes the model object. -/
theorem C70_cache_settles (proton electric : Bool) (x : NucleonArgs) (hx : x.Proper) (m₀ : NucleonUAModel)
    (h : NucleonUAModel.init proton electric x = .ok m₀) (hist : List NucleonOp) (t y : ℂ)
    (hy : ((hist.foldl NucleonOp.apply m₀).call t).1 = .ok y) (t' : ℂ) :
    (((hist.foldl NucleonOp.apply m₀).call t).2.call t').2 = ((hist.foldl NucleonOp.apply m₀).call t).2 := by
  have hb := (new_init_built hx h).1
  obtain ⟨base, hbase, hm₀⟩ := except_bind_eq_ok.mp h
  injection hm₀ with hm₀
  obtain ⟨h1, p, e, h2⟩ := nucleon_history (base := base) hist m₀ (by rw [← hm₀]; exact cacheInv_empty _)
    ⟨base.proton, base.electric, by rw [← hm₀]⟩
  have ht : Terms (hist.foldl NucleonOp.apply m₀).toNucleonBase (· ≠ 0) := by
    have hb' := hb.terms
    rw [← hm₀] at hb'
    have key : ∀ s d r, (hist.foldl NucleonOp.apply m₀).calculateMassTerm s d r = base.calculateMassTerm s d r := by
      intro s d r
      rw [h2]; rfl
    constructor
    · intro d r hr
      obtain ⟨v, hv, q, hq, rfl⟩ := hb'.1 d r hr
      exact ⟨_, by rw [key]; exact hv, by simpa using hq.ne'⟩
    · intro d r hr
      obtain ⟨v, hv, q, hq, rfl⟩ := hb'.2 d r hr
      exact ⟨_, by rw [key]; exact hv, by simpa using hq.ne'⟩
  exact Warm.call (m := ((hist.foldl NucleonOp.apply m₀).call t).2) (warm_of_call h1 ht hy) t'

/-- A model that can be built, called with success and then called again. -/
example : ∃ m y, NucleonUAModel.init true true exampleNucleon = .ok m ∧ ((([] : List NucleonOp).foldl NucleonOp.apply m).call 0).1 = .ok y := by
  obtain ⟨y, hy⟩ := exampleNucleon_evaluates .new true true
  obtain ⟨m, hm, hy⟩ := except_bind_eq_ok.mp hy
  exact ⟨m, y, hm, hy⟩

end UA
