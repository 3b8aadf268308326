import Verif.Lemmas.Analytic

/-! Analyticity and residues of the nucleon models. -/

namespace UA

open Complex ComplexConjugate Filter Topology

/-- At most a pole of the first order at `q`. -/
def AtMost1 (q : ℂ) (f : ℂ → ℂ) : Prop := ∃ R, Tendsto (fun t => (t - q) * f t) (𝓝[≠] q) (𝓝 R)

theorem AtMost1.of_continuous {q : ℂ} {f : ℂ → ℂ} (h : ContinuousAt f q) : AtMost1 q f := ⟨0, residue_zero h⟩

theorem AtMost1.affine {q : ℂ} {f a b g : ℂ → ℂ} (hf : AtMost1 q f) (ha : ContinuousAt a q) (hb : ContinuousAt b q)
    (hg : ∀ t, g t = f t * (a t - b t) + b t) : AtMost1 q g := by
  obtain ⟨R, hR⟩ := hf
  have h1 : Tendsto (fun t => a t - b t) (𝓝[≠] q) (𝓝 (a q - b q)) := ((ha.sub hb).tendsto).mono_left nhdsWithin_le_nhds
  have := (hR.mul h1).add (residue_zero hb)
  refine ⟨_, this.congr fun t => ?_⟩
  rw [hg]; ring

theorem AtMost1.add {q : ℂ} {f g : ℂ → ℂ} (hf : AtMost1 q f) (hg : AtMost1 q g) : AtMost1 q fun t => f t + g t := by
  obtain ⟨R, hR⟩ := hf
  obtain ⟨R', hR'⟩ := hg
  exact ⟨_, (hR.add hR').congr fun t => by ring⟩

theorem AtMost1.mul {q : ℂ} {f a : ℂ → ℂ} (hf : AtMost1 q f) (ha : ContinuousAt a q) : AtMost1 q fun t => a t * f t := by
  obtain ⟨R, hR⟩ := hf
  have h1 : Tendsto a (𝓝[≠] q) (𝓝 (a q)) := ha.tendsto.mono_left nhdsWithin_le_nhds
  exact ⟨_, (h1.mul hR).congr fun t => by ring⟩

/-- All of six functions are continuous at `q`, except possibly one with a pole of the first order. -/
def OneOf6 (q : ℂ) (f1 f2 f3 f4 f5 f6 : ℂ → ℂ) : Prop :=
  (AtMost1 q f1 ∧ ContinuousAt f2 q ∧ ContinuousAt f3 q ∧ ContinuousAt f4 q ∧ ContinuousAt f5 q ∧ ContinuousAt f6 q) ∨
  (ContinuousAt f1 q ∧ AtMost1 q f2 ∧ ContinuousAt f3 q ∧ ContinuousAt f4 q ∧ ContinuousAt f5 q ∧ ContinuousAt f6 q) ∨
  (ContinuousAt f1 q ∧ ContinuousAt f2 q ∧ AtMost1 q f3 ∧ ContinuousAt f4 q ∧ ContinuousAt f5 q ∧ ContinuousAt f6 q) ∨
  (ContinuousAt f1 q ∧ ContinuousAt f2 q ∧ ContinuousAt f3 q ∧ AtMost1 q f4 ∧ ContinuousAt f5 q ∧ ContinuousAt f6 q) ∨
  (ContinuousAt f1 q ∧ ContinuousAt f2 q ∧ ContinuousAt f3 q ∧ ContinuousAt f4 q ∧ AtMost1 q f5 ∧ ContinuousAt f6 q) ∨
  (ContinuousAt f1 q ∧ ContinuousAt f2 q ∧ ContinuousAt f3 q ∧ ContinuousAt f4 q ∧ ContinuousAt f5 q ∧ AtMost1 q f6)

def OneOf3 (q : ℂ) (f1 f2 f3 : ℂ → ℂ) : Prop :=
  (AtMost1 q f1 ∧ ContinuousAt f2 q ∧ ContinuousAt f3 q) ∨
  (ContinuousAt f1 q ∧ AtMost1 q f2 ∧ ContinuousAt f3 q) ∨
  (ContinuousAt f1 q ∧ ContinuousAt f2 q ∧ AtMost1 q f3)

theorem dsVal_atMost1 (x : NucleonArgs) (c : Six ℂ) {q : ℂ} {f1 f2 f3 f4 f5 f6 : ℂ → ℂ} (h : OneOf6 q f1 f2 f3 f4 f5 f6) : AtMost1 q fun t => dsVal x ⟨f1 t, f2 t, f3 t, f4 t, f5 t, f6 t⟩ c := by
  rcases h with ⟨h1, h2, h3, h4, h5, h6⟩ | ⟨h1, h2, h3, h4, h5, h6⟩ | ⟨h1, h2, h3, h4, h5, h6⟩ | ⟨h1, h2, h3, h4, h5, h6⟩ | ⟨h1, h2, h3, h4, h5, h6⟩ | ⟨h1, h2, h3, h4, h5, h6⟩
  · refine h1.affine (a := fun t => dsVal x ⟨1, f2 t, f3 t, f4 t, f5 t, f6 t⟩ c) (b := fun t => dsVal x ⟨0, f2 t, f3 t, f4 t, f5 t, f6 t⟩ c) ?_ ?_ ?_
    · exact (continuousWithinAt_univ _ _).mp (dsVal_continuousWithinAt x c (continuousWithinAt_const (b := (1 : ℂ))) (continuousWithinAt_univ _ _ |>.mpr h2) (continuousWithinAt_univ _ _ |>.mpr h3) (continuousWithinAt_univ _ _ |>.mpr h4) (continuousWithinAt_univ _ _ |>.mpr h5) (continuousWithinAt_univ _ _ |>.mpr h6))
    · exact (continuousWithinAt_univ _ _).mp (dsVal_continuousWithinAt x c (continuousWithinAt_const (b := (0 : ℂ))) (continuousWithinAt_univ _ _ |>.mpr h2) (continuousWithinAt_univ _ _ |>.mpr h3) (continuousWithinAt_univ _ _ |>.mpr h4) (continuousWithinAt_univ _ _ |>.mpr h5) (continuousWithinAt_univ _ _ |>.mpr h6))
    · intro t; simp only [dsVal, dTerm]; ring
  · refine h2.affine (a := fun t => dsVal x ⟨f1 t, 1, f3 t, f4 t, f5 t, f6 t⟩ c) (b := fun t => dsVal x ⟨f1 t, 0, f3 t, f4 t, f5 t, f6 t⟩ c) ?_ ?_ ?_
    · exact (continuousWithinAt_univ _ _).mp (dsVal_continuousWithinAt x c (continuousWithinAt_univ _ _ |>.mpr h1) (continuousWithinAt_const (b := (1 : ℂ))) (continuousWithinAt_univ _ _ |>.mpr h3) (continuousWithinAt_univ _ _ |>.mpr h4) (continuousWithinAt_univ _ _ |>.mpr h5) (continuousWithinAt_univ _ _ |>.mpr h6))
    · exact (continuousWithinAt_univ _ _).mp (dsVal_continuousWithinAt x c (continuousWithinAt_univ _ _ |>.mpr h1) (continuousWithinAt_const (b := (0 : ℂ))) (continuousWithinAt_univ _ _ |>.mpr h3) (continuousWithinAt_univ _ _ |>.mpr h4) (continuousWithinAt_univ _ _ |>.mpr h5) (continuousWithinAt_univ _ _ |>.mpr h6))
    · intro t; simp only [dsVal, dTerm]; ring
  · refine h3.affine (a := fun t => dsVal x ⟨f1 t, f2 t, 1, f4 t, f5 t, f6 t⟩ c) (b := fun t => dsVal x ⟨f1 t, f2 t, 0, f4 t, f5 t, f6 t⟩ c) ?_ ?_ ?_
    · exact (continuousWithinAt_univ _ _).mp (dsVal_continuousWithinAt x c (continuousWithinAt_univ _ _ |>.mpr h1) (continuousWithinAt_univ _ _ |>.mpr h2) (continuousWithinAt_const (b := (1 : ℂ))) (continuousWithinAt_univ _ _ |>.mpr h4) (continuousWithinAt_univ _ _ |>.mpr h5) (continuousWithinAt_univ _ _ |>.mpr h6))
    · exact (continuousWithinAt_univ _ _).mp (dsVal_continuousWithinAt x c (continuousWithinAt_univ _ _ |>.mpr h1) (continuousWithinAt_univ _ _ |>.mpr h2) (continuousWithinAt_const (b := (0 : ℂ))) (continuousWithinAt_univ _ _ |>.mpr h4) (continuousWithinAt_univ _ _ |>.mpr h5) (continuousWithinAt_univ _ _ |>.mpr h6))
    · intro t; simp only [dsVal, dTerm]; ring
  · refine h4.affine (a := fun t => dsVal x ⟨f1 t, f2 t, f3 t, 1, f5 t, f6 t⟩ c) (b := fun t => dsVal x ⟨f1 t, f2 t, f3 t, 0, f5 t, f6 t⟩ c) ?_ ?_ ?_
    · exact (continuousWithinAt_univ _ _).mp (dsVal_continuousWithinAt x c (continuousWithinAt_univ _ _ |>.mpr h1) (continuousWithinAt_univ _ _ |>.mpr h2) (continuousWithinAt_univ _ _ |>.mpr h3) (continuousWithinAt_const (b := (1 : ℂ))) (continuousWithinAt_univ _ _ |>.mpr h5) (continuousWithinAt_univ _ _ |>.mpr h6))
    · exact (continuousWithinAt_univ _ _).mp (dsVal_continuousWithinAt x c (continuousWithinAt_univ _ _ |>.mpr h1) (continuousWithinAt_univ _ _ |>.mpr h2) (continuousWithinAt_univ _ _ |>.mpr h3) (continuousWithinAt_const (b := (0 : ℂ))) (continuousWithinAt_univ _ _ |>.mpr h5) (continuousWithinAt_univ _ _ |>.mpr h6))
    · intro t; simp only [dsVal, dTerm]; ring
  · refine h5.affine (a := fun t => dsVal x ⟨f1 t, f2 t, f3 t, f4 t, 1, f6 t⟩ c) (b := fun t => dsVal x ⟨f1 t, f2 t, f3 t, f4 t, 0, f6 t⟩ c) ?_ ?_ ?_
    · exact (continuousWithinAt_univ _ _).mp (dsVal_continuousWithinAt x c (continuousWithinAt_univ _ _ |>.mpr h1) (continuousWithinAt_univ _ _ |>.mpr h2) (continuousWithinAt_univ _ _ |>.mpr h3) (continuousWithinAt_univ _ _ |>.mpr h4) (continuousWithinAt_const (b := (1 : ℂ))) (continuousWithinAt_univ _ _ |>.mpr h6))
    · exact (continuousWithinAt_univ _ _).mp (dsVal_continuousWithinAt x c (continuousWithinAt_univ _ _ |>.mpr h1) (continuousWithinAt_univ _ _ |>.mpr h2) (continuousWithinAt_univ _ _ |>.mpr h3) (continuousWithinAt_univ _ _ |>.mpr h4) (continuousWithinAt_const (b := (0 : ℂ))) (continuousWithinAt_univ _ _ |>.mpr h6))
    · intro t; simp only [dsVal, dTerm]; ring
  · refine h6.affine (a := fun t => dsVal x ⟨f1 t, f2 t, f3 t, f4 t, f5 t, 1⟩ c) (b := fun t => dsVal x ⟨f1 t, f2 t, f3 t, f4 t, f5 t, 0⟩ c) ?_ ?_ ?_
    · exact (continuousWithinAt_univ _ _).mp (dsVal_continuousWithinAt x c (continuousWithinAt_univ _ _ |>.mpr h1) (continuousWithinAt_univ _ _ |>.mpr h2) (continuousWithinAt_univ _ _ |>.mpr h3) (continuousWithinAt_univ _ _ |>.mpr h4) (continuousWithinAt_univ _ _ |>.mpr h5) (continuousWithinAt_const (b := (1 : ℂ))))
    · exact (continuousWithinAt_univ _ _).mp (dsVal_continuousWithinAt x c (continuousWithinAt_univ _ _ |>.mpr h1) (continuousWithinAt_univ _ _ |>.mpr h2) (continuousWithinAt_univ _ _ |>.mpr h3) (continuousWithinAt_univ _ _ |>.mpr h4) (continuousWithinAt_univ _ _ |>.mpr h5) (continuousWithinAt_const (b := (0 : ℂ))))
    · intro t; simp only [dsVal, dTerm]; ring

theorem psVal_atMost1 (x : NucleonArgs) (c : Six ℂ) {q : ℂ} {f1 f2 f3 f4 f5 f6 : ℂ → ℂ} (h : OneOf6 q f1 f2 f3 f4 f5 f6) : AtMost1 q fun t => psVal x ⟨f1 t, f2 t, f3 t, f4 t, f5 t, f6 t⟩ c := by
  rcases h with ⟨h1, h2, h3, h4, h5, h6⟩ | ⟨h1, h2, h3, h4, h5, h6⟩ | ⟨h1, h2, h3, h4, h5, h6⟩ | ⟨h1, h2, h3, h4, h5, h6⟩ | ⟨h1, h2, h3, h4, h5, h6⟩ | ⟨h1, h2, h3, h4, h5, h6⟩
  · refine h1.affine (a := fun t => psVal x ⟨1, f2 t, f3 t, f4 t, f5 t, f6 t⟩ c) (b := fun t => psVal x ⟨0, f2 t, f3 t, f4 t, f5 t, f6 t⟩ c) ?_ ?_ ?_
    · exact (continuousWithinAt_univ _ _).mp (psVal_continuousWithinAt x c (continuousWithinAt_const (b := (1 : ℂ))) (continuousWithinAt_univ _ _ |>.mpr h2) (continuousWithinAt_univ _ _ |>.mpr h3) (continuousWithinAt_univ _ _ |>.mpr h4) (continuousWithinAt_univ _ _ |>.mpr h5) (continuousWithinAt_univ _ _ |>.mpr h6))
    · exact (continuousWithinAt_univ _ _).mp (psVal_continuousWithinAt x c (continuousWithinAt_const (b := (0 : ℂ))) (continuousWithinAt_univ _ _ |>.mpr h2) (continuousWithinAt_univ _ _ |>.mpr h3) (continuousWithinAt_univ _ _ |>.mpr h4) (continuousWithinAt_univ _ _ |>.mpr h5) (continuousWithinAt_univ _ _ |>.mpr h6))
    · intro t; simp only [psVal, pTerm]; ring
  · refine h2.affine (a := fun t => psVal x ⟨f1 t, 1, f3 t, f4 t, f5 t, f6 t⟩ c) (b := fun t => psVal x ⟨f1 t, 0, f3 t, f4 t, f5 t, f6 t⟩ c) ?_ ?_ ?_
    · exact (continuousWithinAt_univ _ _).mp (psVal_continuousWithinAt x c (continuousWithinAt_univ _ _ |>.mpr h1) (continuousWithinAt_const (b := (1 : ℂ))) (continuousWithinAt_univ _ _ |>.mpr h3) (continuousWithinAt_univ _ _ |>.mpr h4) (continuousWithinAt_univ _ _ |>.mpr h5) (continuousWithinAt_univ _ _ |>.mpr h6))
    · exact (continuousWithinAt_univ _ _).mp (psVal_continuousWithinAt x c (continuousWithinAt_univ _ _ |>.mpr h1) (continuousWithinAt_const (b := (0 : ℂ))) (continuousWithinAt_univ _ _ |>.mpr h3) (continuousWithinAt_univ _ _ |>.mpr h4) (continuousWithinAt_univ _ _ |>.mpr h5) (continuousWithinAt_univ _ _ |>.mpr h6))
    · intro t; simp only [psVal, pTerm]; ring
  · refine h3.affine (a := fun t => psVal x ⟨f1 t, f2 t, 1, f4 t, f5 t, f6 t⟩ c) (b := fun t => psVal x ⟨f1 t, f2 t, 0, f4 t, f5 t, f6 t⟩ c) ?_ ?_ ?_
    · exact (continuousWithinAt_univ _ _).mp (psVal_continuousWithinAt x c (continuousWithinAt_univ _ _ |>.mpr h1) (continuousWithinAt_univ _ _ |>.mpr h2) (continuousWithinAt_const (b := (1 : ℂ))) (continuousWithinAt_univ _ _ |>.mpr h4) (continuousWithinAt_univ _ _ |>.mpr h5) (continuousWithinAt_univ _ _ |>.mpr h6))
    · exact (continuousWithinAt_univ _ _).mp (psVal_continuousWithinAt x c (continuousWithinAt_univ _ _ |>.mpr h1) (continuousWithinAt_univ _ _ |>.mpr h2) (continuousWithinAt_const (b := (0 : ℂ))) (continuousWithinAt_univ _ _ |>.mpr h4) (continuousWithinAt_univ _ _ |>.mpr h5) (continuousWithinAt_univ _ _ |>.mpr h6))
    · intro t; simp only [psVal, pTerm]; ring
  · refine h4.affine (a := fun t => psVal x ⟨f1 t, f2 t, f3 t, 1, f5 t, f6 t⟩ c) (b := fun t => psVal x ⟨f1 t, f2 t, f3 t, 0, f5 t, f6 t⟩ c) ?_ ?_ ?_
    · exact (continuousWithinAt_univ _ _).mp (psVal_continuousWithinAt x c (continuousWithinAt_univ _ _ |>.mpr h1) (continuousWithinAt_univ _ _ |>.mpr h2) (continuousWithinAt_univ _ _ |>.mpr h3) (continuousWithinAt_const (b := (1 : ℂ))) (continuousWithinAt_univ _ _ |>.mpr h5) (continuousWithinAt_univ _ _ |>.mpr h6))
    · exact (continuousWithinAt_univ _ _).mp (psVal_continuousWithinAt x c (continuousWithinAt_univ _ _ |>.mpr h1) (continuousWithinAt_univ _ _ |>.mpr h2) (continuousWithinAt_univ _ _ |>.mpr h3) (continuousWithinAt_const (b := (0 : ℂ))) (continuousWithinAt_univ _ _ |>.mpr h5) (continuousWithinAt_univ _ _ |>.mpr h6))
    · intro t; simp only [psVal, pTerm]; ring
  · refine h5.affine (a := fun t => psVal x ⟨f1 t, f2 t, f3 t, f4 t, 1, f6 t⟩ c) (b := fun t => psVal x ⟨f1 t, f2 t, f3 t, f4 t, 0, f6 t⟩ c) ?_ ?_ ?_
    · exact (continuousWithinAt_univ _ _).mp (psVal_continuousWithinAt x c (continuousWithinAt_univ _ _ |>.mpr h1) (continuousWithinAt_univ _ _ |>.mpr h2) (continuousWithinAt_univ _ _ |>.mpr h3) (continuousWithinAt_univ _ _ |>.mpr h4) (continuousWithinAt_const (b := (1 : ℂ))) (continuousWithinAt_univ _ _ |>.mpr h6))
    · exact (continuousWithinAt_univ _ _).mp (psVal_continuousWithinAt x c (continuousWithinAt_univ _ _ |>.mpr h1) (continuousWithinAt_univ _ _ |>.mpr h2) (continuousWithinAt_univ _ _ |>.mpr h3) (continuousWithinAt_univ _ _ |>.mpr h4) (continuousWithinAt_const (b := (0 : ℂ))) (continuousWithinAt_univ _ _ |>.mpr h6))
    · intro t; simp only [psVal, pTerm]; ring
  · refine h6.affine (a := fun t => psVal x ⟨f1 t, f2 t, f3 t, f4 t, f5 t, 1⟩ c) (b := fun t => psVal x ⟨f1 t, f2 t, f3 t, f4 t, f5 t, 0⟩ c) ?_ ?_ ?_
    · exact (continuousWithinAt_univ _ _).mp (psVal_continuousWithinAt x c (continuousWithinAt_univ _ _ |>.mpr h1) (continuousWithinAt_univ _ _ |>.mpr h2) (continuousWithinAt_univ _ _ |>.mpr h3) (continuousWithinAt_univ _ _ |>.mpr h4) (continuousWithinAt_univ _ _ |>.mpr h5) (continuousWithinAt_const (b := (1 : ℂ))))
    · exact (continuousWithinAt_univ _ _).mp (psVal_continuousWithinAt x c (continuousWithinAt_univ _ _ |>.mpr h1) (continuousWithinAt_univ _ _ |>.mpr h2) (continuousWithinAt_univ _ _ |>.mpr h3) (continuousWithinAt_univ _ _ |>.mpr h4) (continuousWithinAt_univ _ _ |>.mpr h5) (continuousWithinAt_const (b := (0 : ℂ))))
    · intro t; simp only [psVal, pTerm]; ring

theorem dvVal_atMost1 (x : NucleonArgs) (c : Three ℂ) {q : ℂ} {f1 f2 f3 : ℂ → ℂ} (h : OneOf3 q f1 f2 f3) : AtMost1 q fun t => dvVal x ⟨f1 t, f2 t, f3 t⟩ c := by
  rcases h with ⟨h1, h2, h3⟩ | ⟨h1, h2, h3⟩ | ⟨h1, h2, h3⟩
  · refine h1.affine (a := fun t => dvVal x ⟨1, f2 t, f3 t⟩ c) (b := fun t => dvVal x ⟨0, f2 t, f3 t⟩ c) ?_ ?_ ?_
    · exact (continuousWithinAt_univ _ _).mp (dvVal_continuousWithinAt x c (continuousWithinAt_const (b := (1 : ℂ))) (continuousWithinAt_univ _ _ |>.mpr h2) (continuousWithinAt_univ _ _ |>.mpr h3))
    · exact (continuousWithinAt_univ _ _).mp (dvVal_continuousWithinAt x c (continuousWithinAt_const (b := (0 : ℂ))) (continuousWithinAt_univ _ _ |>.mpr h2) (continuousWithinAt_univ _ _ |>.mpr h3))
    · intro t; simp only [dvVal, dTerm]; ring
  · refine h2.affine (a := fun t => dvVal x ⟨f1 t, 1, f3 t⟩ c) (b := fun t => dvVal x ⟨f1 t, 0, f3 t⟩ c) ?_ ?_ ?_
    · exact (continuousWithinAt_univ _ _).mp (dvVal_continuousWithinAt x c (continuousWithinAt_univ _ _ |>.mpr h1) (continuousWithinAt_const (b := (1 : ℂ))) (continuousWithinAt_univ _ _ |>.mpr h3))
    · exact (continuousWithinAt_univ _ _).mp (dvVal_continuousWithinAt x c (continuousWithinAt_univ _ _ |>.mpr h1) (continuousWithinAt_const (b := (0 : ℂ))) (continuousWithinAt_univ _ _ |>.mpr h3))
    · intro t; simp only [dvVal, dTerm]; ring
  · refine h3.affine (a := fun t => dvVal x ⟨f1 t, f2 t, 1⟩ c) (b := fun t => dvVal x ⟨f1 t, f2 t, 0⟩ c) ?_ ?_ ?_
    · exact (continuousWithinAt_univ _ _).mp (dvVal_continuousWithinAt x c (continuousWithinAt_univ _ _ |>.mpr h1) (continuousWithinAt_univ _ _ |>.mpr h2) (continuousWithinAt_const (b := (1 : ℂ))))
    · exact (continuousWithinAt_univ _ _).mp (dvVal_continuousWithinAt x c (continuousWithinAt_univ _ _ |>.mpr h1) (continuousWithinAt_univ _ _ |>.mpr h2) (continuousWithinAt_const (b := (0 : ℂ))))
    · intro t; simp only [dvVal, dTerm]; ring

theorem pvVal_atMost1 (x : NucleonArgs) {q : ℂ} {f1 f2 f3 : ℂ → ℂ} (h : OneOf3 q f1 f2 f3) : AtMost1 q fun t => pvVal x ⟨f1 t, f2 t, f3 t⟩ := by
  rcases h with ⟨h1, h2, h3⟩ | ⟨h1, h2, h3⟩ | ⟨h1, h2, h3⟩
  · refine h1.affine (a := fun t => pvVal x ⟨1, f2 t, f3 t⟩) (b := fun t => pvVal x ⟨0, f2 t, f3 t⟩) ?_ ?_ ?_
    · exact (continuousWithinAt_univ _ _).mp (pvVal_continuousWithinAt x (continuousWithinAt_const (b := (1 : ℂ))) (continuousWithinAt_univ _ _ |>.mpr h2) (continuousWithinAt_univ _ _ |>.mpr h3))
    · exact (continuousWithinAt_univ _ _).mp (pvVal_continuousWithinAt x (continuousWithinAt_const (b := (0 : ℂ))) (continuousWithinAt_univ _ _ |>.mpr h2) (continuousWithinAt_univ _ _ |>.mpr h3))
    · intro t; simp only [pvVal]; ring
  · refine h2.affine (a := fun t => pvVal x ⟨f1 t, 1, f3 t⟩) (b := fun t => pvVal x ⟨f1 t, 0, f3 t⟩) ?_ ?_ ?_
    · exact (continuousWithinAt_univ _ _).mp (pvVal_continuousWithinAt x (continuousWithinAt_univ _ _ |>.mpr h1) (continuousWithinAt_const (b := (1 : ℂ))) (continuousWithinAt_univ _ _ |>.mpr h3))
    · exact (continuousWithinAt_univ _ _).mp (pvVal_continuousWithinAt x (continuousWithinAt_univ _ _ |>.mpr h1) (continuousWithinAt_const (b := (0 : ℂ))) (continuousWithinAt_univ _ _ |>.mpr h3))
    · intro t; simp only [pvVal]; ring
  · refine h3.affine (a := fun t => pvVal x ⟨f1 t, f2 t, 1⟩) (b := fun t => pvVal x ⟨f1 t, f2 t, 0⟩) ?_ ?_ ?_
    · exact (continuousWithinAt_univ _ _).mp (pvVal_continuousWithinAt x (continuousWithinAt_univ _ _ |>.mpr h1) (continuousWithinAt_univ _ _ |>.mpr h2) (continuousWithinAt_const (b := (1 : ℂ))))
    · exact (continuousWithinAt_univ _ _).mp (pvVal_continuousWithinAt x (continuousWithinAt_univ _ _ |>.mpr h1) (continuousWithinAt_univ _ _ |>.mpr h2) (continuousWithinAt_const (b := (0 : ℂ))))
    · intro t; simp only [pvVal]; ring

/-- A resonance position is at `q`. -/
def Hits (q p : ℂ) : Prop := q = p ∨ q = conj p

section
variable {t_0 t_in : ℝ} {q p : ℂ} {v : Variant} {c : UAComponent}

theorem Fval_continuous_at (B : Built t_0 t_in p v c) (him : q.im ≠ 0) (h : ¬ Hits q p) : ContinuousAt (fun t => Fval v t_0 t_in p t) q :=
  (Fval_differentiableAt B.hlt B.hp0 B.hpin (fun h' => him h'.1) (fun h' => h (Or.inl h')) fun h' => h (Or.inr h')).continuousAt

theorem Fval_atMost1 (B : Built t_0 t_in p v c) (him : q.im ≠ 0) : AtMost1 q fun t => Fval v t_0 t_in p t := by
  by_cases h : Hits q p
  · rcases h with rfl | rfl
    · obtain ⟨R, -, hR⟩ := Fval_residue B him
      exact ⟨R, hR⟩
    · obtain ⟨R, -, hR⟩ := Fval_residue_conj B (by simpa using him)
      exact ⟨R, hR⟩
  · exact .of_continuous (Fval_continuous_at B him h)

end

theorem SixBuilt.oneOf {t_0 t_in : ℝ} {P : Six ℂ} {V : Six Variant} {K : Six UAComponent} (b : SixBuilt t_0 t_in P V K) {q : ℂ} (him : q.im ≠ 0)
    (hpw : P.toList.Pairwise fun p p' => ¬ (Hits q p ∧ Hits q p')) :
    OneOf6 q (fun t => (Six.F t_0 t_in V P t).omega) (fun t => (Six.F t_0 t_in V P t).omega_prime) (fun t => (Six.F t_0 t_in V P t).omega_double_prime)
      (fun t => (Six.F t_0 t_in V P t).phi) (fun t => (Six.F t_0 t_in V P t).phi_prime) (fun t => (Six.F t_0 t_in V P t).phi_double_prime) := by
  simp only [Six.toList, List.pairwise_cons, List.mem_cons, List.not_mem_nil, or_false, forall_eq_or_imp, forall_eq, List.Pairwise.nil, and_true, IsEmpty.forall_iff, implies_true] at hpw
  obtain ⟨⟨p12, p13, p14, p15, p16⟩, ⟨p23, p24, p25, p26⟩, ⟨p34, p35, p36⟩, ⟨p45, p46⟩, p56⟩ := hpw
  by_cases k1 : Hits q P.omega
  · exact Or.inl ⟨Fval_atMost1 b.omega him, Fval_continuous_at b.omega_prime him (fun h => p12 ⟨k1, h⟩), Fval_continuous_at b.omega_double_prime him (fun h => p13 ⟨k1, h⟩), Fval_continuous_at b.phi him (fun h => p14 ⟨k1, h⟩), Fval_continuous_at b.phi_prime him (fun h => p15 ⟨k1, h⟩), Fval_continuous_at b.phi_double_prime him (fun h => p16 ⟨k1, h⟩)⟩
  by_cases k2 : Hits q P.omega_prime
  · exact Or.inr (Or.inl ⟨Fval_continuous_at b.omega him (fun h => p12 ⟨h, k2⟩), Fval_atMost1 b.omega_prime him, Fval_continuous_at b.omega_double_prime him (fun h => p23 ⟨k2, h⟩), Fval_continuous_at b.phi him (fun h => p24 ⟨k2, h⟩), Fval_continuous_at b.phi_prime him (fun h => p25 ⟨k2, h⟩), Fval_continuous_at b.phi_double_prime him (fun h => p26 ⟨k2, h⟩)⟩)
  by_cases k3 : Hits q P.omega_double_prime
  · exact Or.inr (Or.inr (Or.inl ⟨Fval_continuous_at b.omega him (fun h => p13 ⟨h, k3⟩), Fval_continuous_at b.omega_prime him (fun h => p23 ⟨h, k3⟩), Fval_atMost1 b.omega_double_prime him, Fval_continuous_at b.phi him (fun h => p34 ⟨k3, h⟩), Fval_continuous_at b.phi_prime him (fun h => p35 ⟨k3, h⟩), Fval_continuous_at b.phi_double_prime him (fun h => p36 ⟨k3, h⟩)⟩))
  by_cases k4 : Hits q P.phi
  · exact Or.inr (Or.inr (Or.inr (Or.inl ⟨Fval_continuous_at b.omega him (fun h => p14 ⟨h, k4⟩), Fval_continuous_at b.omega_prime him (fun h => p24 ⟨h, k4⟩), Fval_continuous_at b.omega_double_prime him (fun h => p34 ⟨h, k4⟩), Fval_atMost1 b.phi him, Fval_continuous_at b.phi_prime him (fun h => p45 ⟨k4, h⟩), Fval_continuous_at b.phi_double_prime him (fun h => p46 ⟨k4, h⟩)⟩)))
  by_cases k5 : Hits q P.phi_prime
  · exact Or.inr (Or.inr (Or.inr (Or.inr (Or.inl ⟨Fval_continuous_at b.omega him (fun h => p15 ⟨h, k5⟩), Fval_continuous_at b.omega_prime him (fun h => p25 ⟨h, k5⟩), Fval_continuous_at b.omega_double_prime him (fun h => p35 ⟨h, k5⟩), Fval_continuous_at b.phi him (fun h => p45 ⟨h, k5⟩), Fval_atMost1 b.phi_prime him, Fval_continuous_at b.phi_double_prime him (fun h => p56 ⟨k5, h⟩)⟩))))
  by_cases k6 : Hits q P.phi_double_prime
  · exact Or.inr (Or.inr (Or.inr (Or.inr (Or.inr (⟨Fval_continuous_at b.omega him (fun h => p16 ⟨h, k6⟩), Fval_continuous_at b.omega_prime him (fun h => p26 ⟨h, k6⟩), Fval_continuous_at b.omega_double_prime him (fun h => p36 ⟨h, k6⟩), Fval_continuous_at b.phi him (fun h => p46 ⟨h, k6⟩), Fval_continuous_at b.phi_prime him (fun h => p56 ⟨h, k6⟩), Fval_atMost1 b.phi_double_prime him⟩)))))
  exact Or.inl ⟨Fval_atMost1 b.omega him, Fval_continuous_at b.omega_prime him k2, Fval_continuous_at b.omega_double_prime him k3, Fval_continuous_at b.phi him k4, Fval_continuous_at b.phi_prime him k5, Fval_continuous_at b.phi_double_prime him k6⟩

theorem ThreeBuilt.oneOf {t_0 t_in : ℝ} {P : Three ℂ} {V : Three Variant} {K : Three UAComponent} (b : ThreeBuilt t_0 t_in P V K) {q : ℂ} (him : q.im ≠ 0)
    (hpw : P.toList.Pairwise fun p p' => ¬ (Hits q p ∧ Hits q p')) :
    OneOf3 q (fun t => (Three.F t_0 t_in V P t).rho) (fun t => (Three.F t_0 t_in V P t).rho_prime) (fun t => (Three.F t_0 t_in V P t).rho_double_prime) := by
  simp only [Three.toList, List.pairwise_cons, List.mem_cons, List.not_mem_nil, or_false, forall_eq_or_imp, forall_eq, List.Pairwise.nil, and_true, IsEmpty.forall_iff, implies_true] at hpw
  obtain ⟨⟨p12, p13⟩, p23⟩ := hpw
  by_cases k1 : Hits q P.rho
  · exact Or.inl ⟨Fval_atMost1 b.rho him, Fval_continuous_at b.rho_prime him (fun h => p12 ⟨k1, h⟩), Fval_continuous_at b.rho_double_prime him (fun h => p13 ⟨k1, h⟩)⟩
  by_cases k2 : Hits q P.rho_prime
  · exact Or.inr (Or.inl ⟨Fval_continuous_at b.rho him (fun h => p12 ⟨h, k2⟩), Fval_atMost1 b.rho_prime him, Fval_continuous_at b.rho_double_prime him (fun h => p23 ⟨k2, h⟩)⟩)
  by_cases k3 : Hits q P.rho_double_prime
  · exact Or.inr (Or.inr (⟨Fval_continuous_at b.rho him (fun h => p13 ⟨h, k3⟩), Fval_continuous_at b.rho_prime him (fun h => p23 ⟨h, k3⟩), Fval_atMost1 b.rho_double_prime him⟩))
  exact Or.inl ⟨Fval_atMost1 b.rho him, Fval_continuous_at b.rho_prime him k2, Fval_continuous_at b.rho_double_prime him k3⟩

/-- The values of the nucleon model. -/
noncomputable def nValAt (thr : ℝ → ℝ → ℝ) (proton electric : Bool) (x : NucleonArgs) (cDS : Six ℂ) (cDV : Three ℂ) (cPS : Six ℂ) (t : ℂ) : ℂ :=
  nVal x proton electric t (dsAt thr x cDS t) (dvAt thr x cDV t) (psAt thr x cPS t) (pvAt thr x t)

theorem NBuilt.atMost1 {thr : ℝ → ℝ → ℝ} {proton electric : Bool} {x : NucleonArgs} {m : NucleonBase} (b : NBuilt thr proton electric x m)
    (cDS : Six ℂ) (cDV : Three ℂ) (cPS : Six ℂ) {q : ℂ} (him : q.im ≠ 0)
    (hS : x.poleS.toList.Pairwise fun p p' => ¬ (Hits q p ∧ Hits q p')) (hT : x.poleT.toList.Pairwise fun p p' => ¬ (Hits q p ∧ Hits q p')) :
    AtMost1 q (nValAt thr proton electric x cDS cDV cPS) := by
  have e1 : AtMost1 q (dsAt thr x cDS) := dsVal_atMost1 x cDS (b.ds.oneOf him hS)
  have e2 : AtMost1 q (dvAt thr x cDV) := dvVal_atMost1 x cDV (b.dv.oneOf him hT)
  have e3 : AtMost1 q (psAt thr x cPS) := psVal_atMost1 x cPS (b.ps.oneOf him hS)
  have e4 : AtMost1 q (pvAt thr x) := pvVal_atMost1 x (b.pv.oneOf him hT)
  unfold nValAt
  have hk : ContinuousAt (fun t : ℂ => if electric then t / (4 * (x.nucleon_mass : ℂ) ^ 2) else 1) q := by
    cases electric <;> simp only [if_true, if_false, Bool.false_eq_true, div_eq_mul_inv] <;> fun_prop
  have hs : ContinuousAt (fun _ : ℂ => (if proton then 1 else -1 : ℂ)) q := continuousAt_const
  exact (e1.add (e2.mul hs)).add ((e3.add (e4.mul hs)).mul hk)

theorem dsVal_differentiableAt (x : NucleonArgs) (c : Six ℂ) {f1 f2 f3 f4 f5 f6 : ℂ → ℂ} {t : ℂ} (h1 : DifferentiableAt ℂ f1 t) (h2 : DifferentiableAt ℂ f2 t) (h3 : DifferentiableAt ℂ f3 t) (h4 : DifferentiableAt ℂ f4 t) (h5 : DifferentiableAt ℂ f5 t) (h6 : DifferentiableAt ℂ f6 t) :
    DifferentiableAt ℂ (fun t => dsVal x ⟨f1 t, f2 t, f3 t, f4 t, f5 t, f6 t⟩ c) t := by
  simp only [dsVal, dTerm, div_eq_mul_inv]; fun_prop

theorem psVal_differentiableAt (x : NucleonArgs) (c : Six ℂ) {f1 f2 f3 f4 f5 f6 : ℂ → ℂ} {t : ℂ} (h1 : DifferentiableAt ℂ f1 t) (h2 : DifferentiableAt ℂ f2 t) (h3 : DifferentiableAt ℂ f3 t) (h4 : DifferentiableAt ℂ f4 t) (h5 : DifferentiableAt ℂ f5 t) (h6 : DifferentiableAt ℂ f6 t) :
    DifferentiableAt ℂ (fun t => psVal x ⟨f1 t, f2 t, f3 t, f4 t, f5 t, f6 t⟩ c) t := by
  simp only [psVal, pTerm, div_eq_mul_inv]; fun_prop

theorem dvVal_differentiableAt (x : NucleonArgs) (c : Three ℂ) {f1 f2 f3 : ℂ → ℂ} {t : ℂ} (h1 : DifferentiableAt ℂ f1 t) (h2 : DifferentiableAt ℂ f2 t) (h3 : DifferentiableAt ℂ f3 t) :
    DifferentiableAt ℂ (fun t => dvVal x ⟨f1 t, f2 t, f3 t⟩ c) t := by
  simp only [dvVal, dTerm, div_eq_mul_inv]; fun_prop

theorem pvVal_differentiableAt (x : NucleonArgs) {f1 f2 f3 : ℂ → ℂ} {t : ℂ} (h1 : DifferentiableAt ℂ f1 t) (h2 : DifferentiableAt ℂ f2 t) (h3 : DifferentiableAt ℂ f3 t) :
    DifferentiableAt ℂ (fun t => pvVal x ⟨f1 t, f2 t, f3 t⟩) t := by
  simp only [pvVal]; fun_prop

theorem NBuilt.differentiableAt {thr : ℝ → ℝ → ℝ} {proton electric : Bool} {x : NucleonArgs} {m : NucleonBase} (b : NBuilt thr proton electric x m)
    (cDS : Six ℂ) (cDV : Three ℂ) (cPS : Six ℂ) {t : ℂ}
    (h1 : ¬ (t.im = 0 ∧ x.t_0_dirac_isoscalar ≤ t.re)) (h2 : ¬ (t.im = 0 ∧ x.t_0_dirac_isovector ≤ t.re))
    (h3 : ¬ (t.im = 0 ∧ x.t_0_pauli_isoscalar ≤ t.re)) (h4 : ¬ (t.im = 0 ∧ x.t_0_pauli_isovector ≤ t.re))
    (hp : ∀ p ∈ x.poleS.toList ++ x.poleT.toList, t ≠ p ∧ t ≠ conj p) :
    DifferentiableAt ℂ (nValAt thr proton electric x cDS cDV cPS) t := by
  have k : ∀ {t_0 t_in : ℝ} {p : ℂ} {v : Variant} {c : UAComponent}, Built t_0 t_in p v c → p ∈ x.poleS.toList ++ x.poleT.toList →
      ¬ (t.im = 0 ∧ t_0 ≤ t.re) → DifferentiableAt ℂ (fun t => Fval v t_0 t_in p t) t :=
    fun B h h' => Fval_differentiableAt B.hlt B.hp0 B.hpin h' (hp _ h).1 (hp _ h).2
  have e1 : DifferentiableAt ℂ (dsAt thr x cDS) t := dsVal_differentiableAt x cDS (k b.ds.omega (by simp [NucleonArgs.poleS, NucleonArgs.poleT, Six.toList, Three.toList]) h1) (k b.ds.omega_prime (by simp [NucleonArgs.poleS, NucleonArgs.poleT, Six.toList, Three.toList]) h1) (k b.ds.omega_double_prime (by simp [NucleonArgs.poleS, NucleonArgs.poleT, Six.toList, Three.toList]) h1) (k b.ds.phi (by simp [NucleonArgs.poleS, NucleonArgs.poleT, Six.toList, Three.toList]) h1) (k b.ds.phi_prime (by simp [NucleonArgs.poleS, NucleonArgs.poleT, Six.toList, Three.toList]) h1) (k b.ds.phi_double_prime (by simp [NucleonArgs.poleS, NucleonArgs.poleT, Six.toList, Three.toList]) h1)
  have e2 : DifferentiableAt ℂ (dvAt thr x cDV) t := dvVal_differentiableAt x cDV (k b.dv.rho (by simp [NucleonArgs.poleS, NucleonArgs.poleT, Six.toList, Three.toList]) h2) (k b.dv.rho_prime (by simp [NucleonArgs.poleS, NucleonArgs.poleT, Six.toList, Three.toList]) h2) (k b.dv.rho_double_prime (by simp [NucleonArgs.poleS, NucleonArgs.poleT, Six.toList, Three.toList]) h2)
  have e3 : DifferentiableAt ℂ (psAt thr x cPS) t := psVal_differentiableAt x cPS (k b.ps.omega (by simp [NucleonArgs.poleS, NucleonArgs.poleT, Six.toList, Three.toList]) h3) (k b.ps.omega_prime (by simp [NucleonArgs.poleS, NucleonArgs.poleT, Six.toList, Three.toList]) h3) (k b.ps.omega_double_prime (by simp [NucleonArgs.poleS, NucleonArgs.poleT, Six.toList, Three.toList]) h3) (k b.ps.phi (by simp [NucleonArgs.poleS, NucleonArgs.poleT, Six.toList, Three.toList]) h3) (k b.ps.phi_prime (by simp [NucleonArgs.poleS, NucleonArgs.poleT, Six.toList, Three.toList]) h3) (k b.ps.phi_double_prime (by simp [NucleonArgs.poleS, NucleonArgs.poleT, Six.toList, Three.toList]) h3)
  have e4 : DifferentiableAt ℂ (pvAt thr x) t := pvVal_differentiableAt x (k b.pv.rho (by simp [NucleonArgs.poleS, NucleonArgs.poleT, Six.toList, Three.toList]) h4) (k b.pv.rho_prime (by simp [NucleonArgs.poleS, NucleonArgs.poleT, Six.toList, Three.toList]) h4) (k b.pv.rho_double_prime (by simp [NucleonArgs.poleS, NucleonArgs.poleT, Six.toList, Three.toList]) h4)
  unfold nValAt
  cases electric <;> simp only [nVal, if_true, if_false, Bool.false_eq_true, div_eq_mul_inv] <;> fun_prop

end UA
