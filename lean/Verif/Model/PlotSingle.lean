import Verif.Model.Scripts

/-!
# The script that shows the cross section of one resonance

`/repo/kaon_production/plot_single_component.py`, main part.
-/

namespace UA

/-- The script `kaon_production/plot_single_component.py:56-78`. The arguments are the constants read from the configuration file
(`:62-64`) and the columns of the two data files (`:66-67`); the thresholds computed at `:59-61` are not used. The result is the figure
of `:78`. `f` of `:72-76` returns complex numbers, of which the plotting library draws the real part; making the function and calling it
are taken together, since nothing happens in between. -/
noncomputable def plotSingleComponent {σ : Type} (kaon_mass alpha hc_squared : ℝ)
    (charged_ts charged_cross_sections_values charged_errors neutral_ts neutral_cross_sections_values neutral_errors : List ℝ) :
    PyM σ (List Panel) := do
  let (ts, css, errs) ← PyM.lift (prepareKaonData charged_ts charged_cross_sections_values charged_errors
    neutral_ts neutral_cross_sections_values neutral_errors)
  let f := fun ts => PyM.lift do
    let ys ← singleComponentCrossSection kaon_mass alpha hc_squared 1 0.78266 0.00868 0.17531904388276887 1.0555688365879876 ts
    return ys.map Complex.re
  plotCSNeutralPlusCharged ts css errs f "phi"

end UA
