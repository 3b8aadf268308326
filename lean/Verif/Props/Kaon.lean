import Verif.Props.OtherModels
import Verif.Lemmas.KaonRun

/-!
# Properties C18 - C22: the three kaon models

`KaonArgs` ranges over the three classes, so each theorem speaks about all of them.
-/

namespace UA

open Complex ComplexConjugate Spec

/-- **C18** charge normalisation of all three kaon models. -/
theorem C18_kaon_normalisation (x : KaonArgs) (hp : x.Proper) :
    (x.Builds true → x.run true 0 = .ok 1) ∧ (x.Builds false → x.run false 0 = .ok 0) := by
  have key : ∀ ch, x.Builds ch → x.run ch 0 = .ok (1 / 2 + (if ch then 1 else -1) * (1 / 2)) := by
    intro ch hb
    obtain ⟨k, b, hk⟩ := KaonArgs.get_view hb
    rw [hk, b.call_ok hp.1 hp.2 (le_refl _) (b.zero_not_singular hp.1 hp.2), FsumL_zero b.h0S hp.1 b.hS,
      FsumL_zero b.h0V hp.2 b.hV, x.sumS, x.sumV]
    push_cast
    rfl
  refine ⟨fun h => ?_, fun h => ?_⟩
  · rw [key _ h]; norm_num
  · rw [key _ h]; norm_num

example : exampleFull.run true 0 = .ok 1 := (C18_kaon_normalisation _ exampleFull_builds.2).1 exampleFull_builds.1
example : exampleSimplified.run false 0 = .ok 0 := (C18_kaon_normalisation _ exampleSimplified_builds.2).2 exampleSimplified_builds.1

/-- **C19** with all widths zero the kaon model is the VMD model with the same masses and couplings. -/
theorem C19_zero_width_is_vmd (x : KaonArgs) (charged : Bool) (hp : x.Proper) (hb : x.Builds charged)
    (hz : x.ZeroWidth) (t : ℂ) (hre : 0 ≤ t.re) (hS : t ≠ x.tinS) (hV : t ≠ x.tinV) :
    x.run charged t = (VMDModel.create (vmdMesons x charged)).call t := by
  obtain ⟨k, b, hk⟩ := KaonArgs.get_view hb
  rw [hk]
  have hpole : ∀ r ∈ x.resS ++ x.resV, r.pole = (r.mass : ℂ) ^ 2 := by
    intro r hr
    rw [Res.pole, hz r hr, tMesonPole_zero_width]; push_cast; rfl
  by_cases hsing : ∃ r ∈ x.resS ++ x.resV, t = (r.mass : ℂ) ^ 2
  · rw [b.call_zeroDiv hp.1 hp.2 hre, vmd_call_error]
    · obtain ⟨r, hr, h'⟩ := hsing
      rcases List.mem_append.mp hr with hr | hr
      · exact ⟨⟨r.a, r.mass⟩, by simp only [vmdMesons, List.mem_append, List.mem_map]; exact Or.inl ⟨r, hr, rfl⟩, h'⟩
      · exact ⟨⟨if charged then r.a else -r.a, r.mass⟩,
          by simp only [vmdMesons, List.mem_append, List.mem_map]; exact Or.inr ⟨r, hr, rfl⟩, h'⟩
    · obtain ⟨r, hr, h'⟩ := hsing
      exact Or.inr (Or.inr ⟨r, hr, Or.inl (by rw [hpole r hr, h'])⟩)
  · push Not at hsing
    have hns : ¬ Singular x.tinS x.tinV x.resS x.resV t := by
      rintro (h' | h' | ⟨r, hr, h' | h'⟩)
      · exact hS h'
      · exact hV h'
      · rw [hpole r hr] at h'; exact hsing r hr h'
      · rw [hpole r hr, ← ofReal_pow, conj_ofReal, ofReal_pow] at h'; exact hsing r hr h'
    have hne : vmdMesons x charged ≠ [] := by
      have : x.resS ≠ [] := by
        cases x <;> simp [KaonArgs.resS, KaonUAModel.Args.resS, KaonUAModelB.Args.resS,
          KaonUAModelSimplified.Args.resS]
      simp [vmdMesons, this]
    rw [b.call_ok hp.1 hp.2 hre hns, vmd_call_ok hne]
    · rw [FsumL_zero_width b.h0S hp.1 b.hS (fun r hr => hz r (by simp [hr])) hS (fun r hr => hsing r (by simp [hr])),
        FsumL_zero_width b.h0V hp.2 b.hV (fun r hr => hz r (by simp [hr])) hV (fun r hr => hsing r (by simp [hr]))]
      congr 1
      simp only [vmdMesons, List.map_append, List.sum_append, List.map_map]
      congr 1
      rw [← List.sum_map_mul_left]
      congr 1
      apply List.map_congr_left
      intro r _
      cases charged <;> simp [vmdTerm]
      ring
    · intro v hv
      simp only [vmdMesons, List.mem_append, List.mem_map] at hv
      rcases hv with ⟨r, hr, rfl⟩ | ⟨r, hr, rfl⟩
      · exact hsing r (by simp [hr])
      · exact hsing r (by simp [hr])

example : exampleZeroWidth.run true I = (VMDModel.create (vmdMesons exampleZeroWidth true)).call I := by
  refine C19_zero_width_is_vmd _ true exampleZeroWidth_builds.2.1 exampleZeroWidth_builds.1 exampleZeroWidth_builds.2.2 I (by simp) ?_ ?_ <;>
  · intro h
    have := congrArg Complex.im h
    simp at this

/-- **C20** exactly when and how a kaon form factor fails to evaluate: `ValueError` iff `Re t < 0`; otherwise
`ZeroDivisionError` iff `t` is an inelastic threshold or a resonance position or its mirror image; otherwise a number. -/
theorem C20_domain (x : KaonArgs) (charged : Bool) (hp : x.Proper) (hb : x.Builds charged) (t : ℂ) :
    (x.run charged t = .error .valueError ↔ t.re < 0) ∧
    (x.run charged t = .error .zeroDivisionError ↔ 0 ≤ t.re ∧ (t = x.tinS ∨ t = x.tinV ∨
      ∃ r ∈ x.resS ++ x.resV, t = polePosition r.mass r.decay ∨ t = conj (polePosition r.mass r.decay))) ∧
    ((∃ y, x.run charged t = .ok y) ↔ 0 ≤ t.re ∧ ¬ (t = x.tinS ∨ t = x.tinV ∨
      ∃ r ∈ x.resS ++ x.resV, t = polePosition r.mass r.decay ∨ t = conj (polePosition r.mass r.decay))) := by
  obtain ⟨k, b, hk⟩ := KaonArgs.get_view hb
  rw [hk]
  have hpp : ∀ r : Res, r.pole = polePosition r.mass r.decay := fun r => tMesonPole_eq _ _
  simp only [← hpp]
  rw [show (t = x.tinS ∨ t = x.tinV ∨ ∃ r ∈ x.resS ++ x.resV, t = r.pole ∨ t = conj r.pole) ↔
    Singular x.tinS x.tinV x.resS x.resV t from Iff.rfl]
  by_cases hre : t.re < 0
  · rw [k.call_neg hre]
    simp [hre]
  · have hre' := not_lt.mp hre
    by_cases hs : Singular x.tinS x.tinV x.resS x.resV t
    · rw [b.call_zeroDiv hp.1 hp.2 hre' hs]; simp [hre', hs]
    · rw [b.call_ok hp.1 hp.2 hre' hs]; simp [hre', hs]

example : exampleFull.run true (-1) = .error .valueError :=
  (C20_domain _ true exampleFull_builds.2 exampleFull_builds.1 (-1)).1.mpr (by simp)

/-- **C20** totality on the physical data line. -/
theorem C20_total_on_data (x : KaonArgs) (charged : Bool) (hp : x.Proper) (hb : x.Builds charged)
    (hm : ∀ r ∈ x.resS ++ x.resV, r.mass ≠ 0 ∧ r.decay ≠ 0) (s : ℝ) (hs : 0 ≤ s) (h1 : s ≠ x.tinS) (h2 : s ≠ x.tinV) :
    ∃ y, x.run charged s = .ok y := by
  rw [(C20_domain x charged hp hb s).2.2]
  refine ⟨by simpa using hs, ?_⟩
  rintro (h | h | ⟨r, hr, h | h⟩)
  · exact h1 (by exact_mod_cast h)
  · exact h2 (by exact_mod_cast h)
  · have := congrArg Complex.im h
    simp [polePosition, (hm r hr).1, (hm r hr).2] at this
  · have := congrArg Complex.im h
    simp [polePosition, (hm r hr).1, (hm r hr).2] at this

example : ∀ r ∈ exampleFull.resS ++ exampleFull.resV, r.mass ≠ 0 ∧ r.decay ≠ 0 := by
  simp [exampleFull, KaonArgs.resS, KaonArgs.resV, KaonUAModel.Args.resS, KaonUAModel.Args.resV]

/-- **C21** Schwarz reflection off both cuts, errors included. -/
theorem C21_schwarz (x : KaonArgs) (charged : Bool) (hp : x.Proper) (hb : x.Builds charged) (t : ℂ)
    (hS : t ∉ HalfLine x.t0S) (hV : t ∉ HalfLine x.t0V) :
    x.run charged (conj t) = (do let y ← x.run charged t; return conj y) := by
  obtain ⟨k, b, hk⟩ := KaonArgs.get_view hb
  rw [hk, hk]
  by_cases hre : t.re < 0
  · rw [k.call_neg hre, k.call_neg (by simpa using hre)]; rfl
  · have hre' := not_lt.mp hre
    have hsc : Singular x.tinS x.tinV x.resS x.resV (conj t) ↔ Singular x.tinS x.tinV x.resS x.resV t := by
      have hcr : ∀ (u : ℂ) (y : ℝ), conj u = y ↔ u = y := by
        intro u y
        constructor
        · intro h; have := congrArg conj h; simpa using this
        · rintro rfl; simp
      have hcc : ∀ u v : ℂ, conj u = v ↔ u = conj v := by
        intro u v
        constructor
        · intro h; rw [← h, conj_conj]
        · rintro rfl; simp
      have hci : ∀ u v : ℂ, conj u = conj v ↔ u = v := by
        intro u v; rw [hcc, conj_conj]
      simp only [Singular, hcr, hcc, conj_conj]
      constructor
      · rintro (h | h | ⟨r, hr, h | h⟩)
        · exact Or.inl h
        · exact Or.inr (Or.inl h)
        · exact Or.inr (Or.inr ⟨r, hr, Or.inr h⟩)
        · exact Or.inr (Or.inr ⟨r, hr, Or.inl h⟩)
      · rintro (h | h | ⟨r, hr, h | h⟩)
        · exact Or.inl h
        · exact Or.inr (Or.inl h)
        · exact Or.inr (Or.inr ⟨r, hr, Or.inr h⟩)
        · exact Or.inr (Or.inr ⟨r, hr, Or.inl h⟩)
    by_cases hs : Singular x.tinS x.tinV x.resS x.resV t
    · rw [b.call_zeroDiv hp.1 hp.2 hre' hs, b.call_zeroDiv hp.1 hp.2 (by simpa using hre') (hsc.mpr hs)]; rfl
    · rw [b.call_ok hp.1 hp.2 hre' hs, b.call_ok hp.1 hp.2 (by simpa using hre') (fun h => hs (hsc.mp h))]
      rw [FsumL_conj b.h0S hp.1 _ hS, FsumL_conj b.h0V hp.2 _ hV]
      simp only [except_ok_bind, except_pure, map_add, map_mul]
      cases charged <;> simp

example : exampleFull.run true (conj (2 + I)) = (do let y ← exampleFull.run true (2 + I); return conj y) :=
  C21_schwarz _ true exampleFull_builds.2 exampleFull_builds.1 _ (by simp [HalfLine]) (by simp [HalfLine])

/-- **C21** real values on the real axis up to the lower threshold. -/
theorem C21_real (x : KaonArgs) (charged : Bool) (hp : x.Proper) (hb : x.Builds charged) (s : ℝ)
    (hS : s ≤ x.t0S) (hV : s ≤ x.t0V) (y : ℂ) (hy : x.run charged s = .ok y) : y.im = 0 := by
  obtain ⟨k, b, hk⟩ := KaonArgs.get_view hb
  rw [hk] at hy
  by_cases hre : (s : ℂ).re < 0
  · rw [k.call_neg hre] at hy; cases hy
  · have hre' := not_lt.mp hre
    by_cases hs : Singular x.tinS x.tinV x.resS x.resV s
    · rw [b.call_zeroDiv hp.1 hp.2 hre' hs] at hy; cases hy
    · rw [b.call_ok hp.1 hp.2 hre' hs] at hy
      injection hy with hy
      apply Complex.conj_eq_iff_im.mp
      rw [← hy]
      simp only [map_add, map_mul, FsumL_real b.h0S hp.1 _ hS, FsumL_real b.h0V hp.2 _ hV]
      cases charged <;> simp

example : ∃ y, exampleFull.run true ((0 : ℝ) : ℂ) = .ok y ∧ y.im = 0 := by
  have h := (C18_kaon_normalisation _ exampleFull_builds.2).1 exampleFull_builds.1
  rw [← ofReal_zero] at h
  refine ⟨1, h, C21_real _ true exampleFull_builds.2 exampleFull_builds.1 0 ?_ ?_ 1 h⟩ <;> norm_num [exampleFull, KaonArgs.t0S, KaonArgs.t0V]

/-- **C22** isospin decomposition: the mean of the two charges depends only on the isoscalar inputs, and half the
difference only on the isovector inputs.  (`x` and `x'` may even be of different classes.) -/
theorem C22_isospin (x x' : KaonArgs) (hp : x.Proper) (hp' : x'.Proper) (t yc yn yc' yn' : ℂ)
    (hc : x.run true t = .ok yc) (hn : x.run false t = .ok yn)
    (hc' : x'.run true t = .ok yc') (hn' : x'.run false t = .ok yn') :
    (x.t0S = x'.t0S → x.tinS = x'.tinS → x.resS = x'.resS → (yc + yn) / 2 = (yc' + yn') / 2) ∧
    (x.t0V = x'.t0V → x.tinV = x'.tinV → x.resV = x'.resV → (yc - yn) / 2 = (yc' - yn') / 2) := by
  have key : ∀ (x : KaonArgs), x.Proper → ∀ (ch : Bool) (y : ℂ), x.run ch t = .ok y →
      y = FsumL x.t0S x.tinS x.resS t + (if ch then 1 else -1) * FsumL x.t0V x.tinV x.resV t := by
    intro x hp ch y hy
    rw [x.run_view] at hy
    rw [except_bind_eq_ok] at hy
    obtain ⟨k, hk, hy⟩ := hy
    have b := viewInit_built hk
    by_cases hre : t.re < 0
    · rw [k.call_neg hre] at hy; cases hy
    · have hre' := not_lt.mp hre
      by_cases hs : Singular x.tinS x.tinV x.resS x.resV t
      · rw [b.call_zeroDiv hp.1 hp.2 hre' hs] at hy; cases hy
      · rw [b.call_ok hp.1 hp.2 hre' hs] at hy
        injection hy with hy
        exact hy.symm
  have e1 := key x hp true yc hc
  have e2 := key x hp false yn hn
  have e3 := key x' hp' true yc' hc'
  have e4 := key x' hp' false yn' hn'
  constructor
  · intro a1 a2 a3
    rw [e1, e2, e3, e4, a1, a2, a3]; simp; ring
  · intro a1 a2 a3
    rw [e1, e2, e3, e4, a1, a2, a3]; simp

example : ∃ yc yn, exampleFull.run true 0 = .ok yc ∧ exampleFull.run false 0 = .ok yn :=
  ⟨1, 0, (C18_kaon_normalisation _ exampleFull_builds.2).1 exampleFull_builds.1,
    (C18_kaon_normalisation _ exampleFull_builds.2).2 (exampleFull.builds_charge true false exampleFull_builds.1)⟩

/-- **C22** the charge switch does not affect where the model is defined. -/
theorem C22_switch_domain (x : KaonArgs) (hp : x.Proper) (hb : x.Builds true) (t : ℂ) :
    (∃ y, x.run true t = .ok y) ↔ ∃ y, x.run false t = .ok y := by
  rw [(C20_domain x true hp hb t).2.2, (C20_domain x false hp (x.builds_charge true false hb) t).2.2]

example : (∃ y, exampleFull.run true 5 = .ok y) ↔ ∃ y, exampleFull.run false 5 = .ok y :=
  C22_switch_domain _ exampleFull_builds.2 exampleFull_builds.1 5

/-- **C22** assigning `charged_variant` on an object already built gives, at every `t`, the outcome of an object built with that charge. -/
theorem C22_switch_built (charged charged' : Bool) (t : ℂ) :
    (∀ x m, KaonUAModel.init charged x = .ok m →
      ({ m with charged_variant := charged' } : KaonUAModel).call t = (KaonArgs.full x).run charged' t) ∧
    (∀ x m, KaonUAModelB.init charged x = .ok m →
      ({ m with charged_variant := charged' } : KaonUAModelB).call t = (KaonArgs.b x).run charged' t) ∧
    (∀ x m, KaonUAModelSimplified.init charged x = .ok m →
      ({ m with charged_variant := charged' } : KaonUAModelSimplified).call t = (KaonArgs.simplified x).run charged' t) := by
  refine ⟨fun x m h => ?_, fun x m h => ?_, fun x m h => ?_⟩
  · show _ = (do let m ← KaonUAModel.init charged' x; m.call t)
    rw [KaonUAModel.init_switch h, except_ok_bind]
  · show _ = (do let m ← KaonUAModelB.init charged' x; m.call t)
    rw [KaonUAModelB.init_switch h, except_ok_bind]
  · show _ = (do let m ← KaonUAModelSimplified.init charged' x; m.call t)
    rw [KaonUAModelSimplified.init_switch h, except_ok_bind]

example (x : KaonUAModel.Args) (hx : exampleFull = .full x) : ∃ m, KaonUAModel.init true x = .ok m := by
  have h := exampleFull_builds.1
  rw [hx] at h
  exact h

end UA
