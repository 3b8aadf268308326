import Verif.Model.PlotComplex
import Mathlib.Data.List.Forall2

/-!
# Vocabulary for figures with two axes
-/

namespace UA

open Complex

/-- The points of a drawn line as complex numbers. -/
def Line.points (l : Line) : List ℂ := List.zipWith Complex.mk l.x l.y

/-- The lines on the left are the given curves in order. Each has a line of its own colour on the right, with as many points, each in
relation `R` to the point on the left. -/
structure TwoAxes.Shows (fig : TwoAxes) (curves : List (List ℂ)) (R : ℂ → ℂ → Prop) : Prop where
  domain : fig.ax1.map Line.points = curves
  image : List.Forall₂ (fun l m => l.color = m.color ∧ List.Forall₂ R l.points m.points) fig.ax1 fig.ax2
  distinct : (fig.ax1.map Line.color).Nodup

/-- Real parts in a range of the real axis. -/
def OnAxis (P : ℝ → Prop) (c : List ℂ) : Prop := ∀ t ∈ c, ∃ x : ℝ, t = x ∧ P x

/-- No point is real. -/
def OffAxis (c : List ℂ) : Prop := ∀ t ∈ c, t.im ≠ 0

end UA
