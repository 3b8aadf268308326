import Verif.Lemmas.BoundaryValues
import Verif.Props.Kaon
import Verif.Props.Nucleon

/-!
# Property C89: the values on the real axis are limits from above
-/

namespace UA

open Complex ComplexConjugate Filter Topology Spec

/-- **C89** the coordinate map at the inelastic threshold: the code raises, but from above the values tend to `i` and from below to
`-i`. -/
theorem C89_map_threshold (t_0 t_in : ℝ) (h0 : 0 ≤ t_0) (h : t_0 < t_in) :
    runTtoW t_0 t_in t_in = .error .zeroDivisionError ∧ LimitFromAbove (runTtoW t_0 t_in) t_in I ∧ LimitFromBelow (runTtoW t_0 t_in) t_in (-I) := by
  have ha : LimitFromAbove (runTtoW t_0 t_in) t_in I := by
    have := limitFromAbove_of (f := runTtoW t_0 t_in) (Wext_continuousWithinAt h (t_in : ℂ)) (L := [(t_in : ℂ)])
      fun t _ ht => by rw [runTtoW_ok h0 h (by simpa using ht), Wext_ne (by simpa using ht)]
    rwa [show Wext t_0 t_in t_in = I from if_pos rfl] at this
  refine ⟨runTtoW_tin h0 h.le, ha, ?_⟩
  have := ha.reflect fun t ht u hu => by
    rw [C09_reflection t_0 t_in h0 h t (fun hc => ht hc.1), hu]; rfl
  rwa [conj_I] at this

example : (0 : ℝ) ≤ 1 ∧ (1 : ℝ) < 2 := by norm_num

/-- **C89** kaon models: a value on the real axis is the limit of the values from above; the limit from below is its conjugate. -/
theorem C89_kaon (x : KaonArgs) (charged : Bool) (hp : x.Proper) (hb : x.Builds charged) {s : ℝ} {y : ℂ} (hy : x.run charged s = .ok y) :
    LimitFromAbove (x.run charged) s y ∧ LimitFromBelow (x.run charged) s (conj y) := by
  have hd := (C20_domain x charged hp hb s).2.2.mp ⟨y, hy⟩
  obtain ⟨y', ha, hu⟩ := kaon_above x charged hp hb (s := s) fun r hr h => hd.2 (Or.inr (Or.inr ⟨r, hr, Or.inl h⟩))
  rw [hu y hy]
  exact ⟨ha, ha.reflect fun t ht u hu => by
    rw [C21_schwarz x charged hp hb t (fun hc => ht hc.1) (fun hc => ht hc.1), hu]; rfl⟩

example : ∃ y, exampleFull.run true ((0 : ℝ) : ℂ) = .ok y ∧ exampleFull.Proper ∧ exampleFull.Builds true := by
  have hp : exampleFull.Proper := by constructor <;> norm_num [exampleFull, KaonArgs.t0S, KaonArgs.tinS, KaonArgs.t0V, KaonArgs.tinV]
  have hb : exampleFull.Builds true := by
    refine builds_of_pos ?_ ?_ hp ?_ ?_ <;>
      simp [exampleFull, KaonArgs.t0S, KaonArgs.tinS, KaonArgs.t0V, KaonArgs.tinV, KaonArgs.resS, KaonArgs.resV,
        KaonUAModel.Args.resS, KaonUAModel.Args.resV] <;> norm_num
  exact ⟨1, by simpa using (C18_kaon_normalisation exampleFull hp).1 hb, hp, hb⟩

/-- **C89** kaon models at an inelastic threshold: the code raises, but the limits from above and below exist and are conjugate. -/
theorem C89_kaon_threshold (x : KaonArgs) (charged : Bool) (hp : x.Proper) (hb : x.Builds charged) {s : ℝ} (hs : s = x.tinS ∨ s = x.tinV)
    (hr : ∀ r ∈ x.resS ++ x.resV, (s : ℂ) ≠ polePosition r.mass r.decay) :
    x.run charged s = .error .zeroDivisionError ∧ ∃ y, LimitFromAbove (x.run charged) s y ∧ LimitFromBelow (x.run charged) s (conj y) := by
  obtain ⟨y, ha, -⟩ := kaon_above x charged hp hb hr
  obtain ⟨k, b, -⟩ := KaonArgs.get_view hb
  refine ⟨(C20_domain x charged hp hb s).2.1.mpr ⟨?_, ?_⟩, y, ha, ha.reflect fun t ht u hu => by
    rw [C21_schwarz x charged hp hb t (fun hc => ht hc.1) (fun hc => ht hc.1), hu]; rfl⟩
  · have h1 := b.h0S.trans hp.1.le
    have h2 := b.h0V.trans hp.2.le
    rcases hs with h | h <;> rw [h] <;> simpa
  · rcases hs with h | h
    · exact Or.inl (by rw [h])
    · exact Or.inr (Or.inl (by rw [h]))

/-- A resonance with a width is not on the axis. -/
example (r : Res) (h : r.mass ≠ 0 ∧ r.decay ≠ 0) (s : ℝ) : (s : ℂ) ≠ polePosition r.mass r.decay := fun h' => by
  have := congrArg Complex.im h'
  simp [polePosition, h.1, h.2] at this

/-- **C89** kaon models: the values jump across the axis exactly where they are not real. -/
theorem C89_kaon_jump (x : KaonArgs) (charged : Bool) (hp : x.Proper) (hb : x.Builds charged) {s : ℝ} {y : ℂ} (hy : x.run charged s = .ok y) :
    LimitFromBelow (x.run charged) s y ↔ y.im = 0 := by
  have hs : 0 ≤ s := by simpa using ((C20_domain x charged hp hb s).2.2.mp ⟨y, hy⟩).1
  have hl := (C89_kaon x charged hp hb hy).2
  constructor
  · intro h
    exact conj_eq_iff_im.mp (hl.unique hs h)
  · intro h
    rwa [conj_eq_iff_im.mpr h] at hl

/-- **C89** nucleon models (both classes): the same. -/
theorem C89_nucleon (k : NucleonClass) (proton electric : Bool) (x : NucleonArgs) (hx : x.Proper) {s : ℝ} {y : ℂ}
    (hy : k.run proton electric x s = .ok y) :
    LimitFromAbove (k.run proton electric x) s y ∧ LimitFromBelow (k.run proton electric x) s (conj y) ∧
    (LimitFromBelow (k.run proton electric x) s y ↔ y.im = 0) := by
  have hb := NucleonClass.builds_of_run hy
  have hd := (C63_nucleon_domain k proton electric x hx hb s).2.2.mp ⟨y, hy⟩
  obtain ⟨y', ha, hu⟩ := nucleon_above k proton electric x hx hy (s := s) fun r hr h => hd.2 (Or.inr (Or.inl ⟨r, hr, Or.inl h⟩))
  have e := hu y hy
  subst e
  have hl : LimitFromBelow (k.run proton electric x) s (conj y) := ha.reflect fun t ht u hu => by
    rw [C64_nucleon_schwarz k proton electric x hx hb t (Or.inl ht), hu]; rfl
  refine ⟨ha, hl, fun h => ?_, fun h => ?_⟩
  · exact conj_eq_iff_im.mp (hl.unique (by simpa using hd.1) h)
  · rwa [conj_eq_iff_im.mpr h] at hl

example (k : NucleonClass) : ∃ y, k.run true true exampleNucleon ((0 : ℝ) : ℂ) = .ok y ∧ exampleNucleon.Proper := by
  obtain ⟨y, hy⟩ := exampleNucleon_evaluates k true true
  exact ⟨y, by simpa using hy, exampleNucleon_proper⟩

/-- **C89** nucleon models at an inelastic threshold: provided the model can be evaluated somewhere, the limits from above and below
exist and are conjugate, though the code raises. -/
theorem C89_nucleon_threshold (k : NucleonClass) (proton electric : Bool) (x : NucleonArgs) (hx : x.Proper) {t' u' : ℂ}
    (hev : k.run proton electric x t' = .ok u') {s : ℝ}
    (hs : s = x.t_in_dirac_isoscalar ∨ s = x.t_in_dirac_isovector ∨ s = x.t_in_pauli_isoscalar ∨ s = x.t_in_pauli_isovector)
    (hr : ∀ r ∈ x.resonances, (s : ℂ) ≠ polePosition r.1 r.2) :
    k.run proton electric x s = .error .zeroDivisionError ∧
    ∃ y, LimitFromAbove (k.run proton electric x) s y ∧ LimitFromBelow (k.run proton electric x) s (conj y) := by
  have hb := NucleonClass.builds_of_run hev
  obtain ⟨y, ha, -⟩ := nucleon_above k proton electric x hx hev hr
  obtain ⟨m, b, -⟩ := NucleonClass.run_built hx hb
  have h0 : 0 ≤ s := by
    rcases hs with h | h | h | h <;> rw [h]
    · exact b.ds.omega.h0.trans b.lt.1.le
    · exact b.dv.rho.h0.trans b.lt.2.1.le
    · exact b.ps.omega.h0.trans b.lt.2.2.1.le
    · exact b.pv.rho.h0.trans b.lt.2.2.2.le
  refine ⟨(C63_nucleon_domain k proton electric x hx hb s).2.1.mpr ⟨by simpa using h0, Or.inl ?_⟩, y, ha, ha.reflect fun t ht u hu => by
    rw [C64_nucleon_schwarz k proton electric x hx hb t (Or.inl ht), hu]; rfl⟩
  rcases hs with h | h | h | h <;> rw [h]
  · exact Or.inl rfl
  · exact Or.inr (Or.inl rfl)
  · exact Or.inr (Or.inr (Or.inl rfl))
  · exact Or.inr (Or.inr (Or.inr rfl))

example : ∀ r ∈ exampleNucleon.resonances,
    ((exampleNucleon.t_in_dirac_isoscalar : ℝ) : ℂ) ≠ polePosition r.1 r.2 := by
  intro r hr h
  have h1 := congrArg Complex.re h
  simp only [NucleonArgs.resonances, exampleNucleon, List.mem_cons, List.not_mem_nil, or_false] at hr h1
  rcases hr with rfl | rfl | rfl | rfl | rfl | rfl | rfl | rfl | rfl <;> norm_num [polePosition] at h1

end UA
