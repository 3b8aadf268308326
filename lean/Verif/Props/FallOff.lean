import Verif.Lemmas.FallOff
import Verif.Props.RunsNucleon

/-!
# Property C90: the fitted functions at large energies
-/

namespace UA

open Complex

/-- **C90** a kaon model that can be built falls off at least like `1/|t|` in the right half of the plane, and has a value there. -/
theorem C90_kaon_model (x : KaonArgs) (ch : Bool) (hp : x.Proper) (hb : x.Builds ch) :
    ∃ C R : ℝ, 0 < C ∧ 0 < R ∧ ∀ t : ℂ, R ≤ ‖t‖ → 0 ≤ t.re → ∃ y, x.run ch t = .ok y ∧ ‖y‖ ≤ C / ‖t‖ :=
  kaon_fall_off x ch hp hb

/-- **C90** form factors of a kaon class with all values strictly inside the maximal bounds: beyond some energy every list of points can
be evaluated, for both kinds of kaon, and the values are at most `C/t`. -/
theorem C90_kaon_form_factors {p : ModelParameters ℝ} (h : Reachable p) (hc : IsKaonClass p.cls) (hi : p.InsideMaximal) :
    ∃ C R : ℝ, 0 < C ∧ 0 < R ∧ ∀ points : List (ℝ × Bool), (∀ d ∈ points, R ≤ d.1) →
      ∃ ys, functionFormFactor (points.map fun d => .kaon d.1 d.2) p = .ok ys ∧ List.Forall₂ (fun d y => 0 ≤ y ∧ y ≤ C / d.1) points ys := by
  obtain ⟨x, hx⟩ := kaon_inside h hc hi
  obtain ⟨C, R, hC, hR, H⟩ := kaon_fall_off x true hx.proper (hx.builds true)
  obtain ⟨C', R', hC', hR', H'⟩ := kaon_fall_off x false hx.proper (hx.builds false)
  refine ⟨max C C', max R R', lt_max_of_lt_left hC, lt_max_of_lt_left hR, fun points hpts => ?_⟩
  rw [hx.wiring.ff, hx.check, except_ok_bind, mapM_map]
  refine mapM_forall₂ fun d hd => ?_
  have h1 := (le_max_left R R').trans (hpts d hd)
  have h2 := (le_max_right R R').trans (hpts d hd)
  have ht : 0 < d.1 := hR.trans_le h1
  have hn : ‖(d.1 : ℂ)‖ = d.1 := by rw [norm_real, Real.norm_of_nonneg ht.le]
  have key : ∃ y, x.run d.2 d.1 = .ok y ∧ ‖y‖ ≤ max C C' / d.1 := by
    rcases d with ⟨t, _ | _⟩
    · obtain ⟨y, hy, hyb⟩ := H' t (by rw [hn]; exact h2) (by simpa using ht.le)
      rw [hn] at hyb
      exact ⟨y, hy, hyb.trans (by gcongr; exact le_max_right _ _)⟩
    · obtain ⟨y, hy, hyb⟩ := H t (by rw [hn]; exact h1) (by simpa using ht.le)
      rw [hn] at hyb
      exact ⟨y, hy, hyb.trans (by gcongr; exact le_max_left _ _)⟩
  obtain ⟨y, hy, hyb⟩ := key
  exact ⟨‖y‖, by show (do let F ← x.run d.2 d.1; return ‖F‖) = _; rw [hy]; rfl, norm_nonneg y, hyb⟩

/-- **C90** the cross sections of a kaon class are then at most `C/t³`. -/
theorem C90_kaon_cross_sections {p : ModelParameters ℝ} (h : Reachable p) (hc : IsKaonClass p.cls) (hi : p.InsideMaximal) (m α hc2 : ℝ) :
    ∃ C R : ℝ, 0 ≤ C ∧ 0 < R ∧ ∀ points : List (ℝ × Bool), (∀ d ∈ points, R ≤ d.1) →
      ∃ ys, functionCrossSection (points.map fun d => .kaon d.1 d.2) m α hc2 p = .ok ys ∧
        List.Forall₂ (fun d y => 0 ≤ y ∧ y ≤ C / d.1 ^ 3) points ys := by
  obtain ⟨x, hx⟩ := kaon_inside h hc hi
  obtain ⟨C, R, hC, hR, H⟩ := C90_kaon_form_factors h hc hi
  have hpi := Real.pi_pos
  refine ⟨|hc2| * Real.pi * α ^ 2 / 3 * C ^ 2, max R (4 * m ^ 2), by positivity, lt_max_of_lt_left hR, fun points hpts => ?_⟩
  rw [hx.wiring.cs, hx.check, except_ok_bind, mapM_map]
  refine mapM_forall₂ fun d hd => ?_
  have h1 := (le_max_left R (4 * m ^ 2)).trans (hpts d hd)
  have h2 := (le_max_right R (4 * m ^ 2)).trans (hpts d hd)
  have ht : 0 < d.1 := hR.trans_le h1
  obtain ⟨ys, hys, hF⟩ := H [d] (by simpa using h1)
  rw [hx.wiring.ff, hx.check, except_ok_bind, mapM_map, mapM_singleton'] at hys
  obtain ⟨y, hy, hys⟩ := except_bind_eq_ok.mp hys
  injection hys with hys
  subst hys
  have hy' : (do let F ← x.run d.2 d.1; return ‖F‖) = Except.ok y := hy
  obtain ⟨F, hF', hyF⟩ := except_bind_eq_ok.mp hy'
  injection hyF with hyF
  cases hF with
  | cons hb _ =>
    subst hyF
    refine ⟨_, by
      show (do let σ ← (ScalarCS.init m α hc2).call (x.run d.2) d.1; return ‖σ‖) = _
      rw [ScalarCS.call_real hF' ht h2]; rfl, norm_nonneg _, ?_⟩
    rw [norm_real, Real.norm_eq_abs]
    exact scalar_bound ht hb.1 hb.2

/-- **C90** form factors of the nucleon class with all values strictly inside the maximal bounds, once a single electric point could be
evaluated: beyond some energy every list of points can be evaluated, for both nucleons, electric and magnetic, and the values are at
most `C/t²`. -/
theorem C90_nucleon_form_factors {p : ModelParameters ℝ} (h : Reachable p) (hc : p.cls = .nucleon) (hi : p.InsideMaximal) {s : ℝ} {proton : Bool}
    {z : List ℝ} (hz : functionFormFactor [.nucleon s proton true] p = .ok z) :
    ∃ C R : ℝ, 0 < C ∧ 0 < R ∧ ∀ points : List (ℝ × Bool × Bool), (∀ d ∈ points, R ≤ d.1) →
      ∃ ys, functionFormFactor (points.map fun d => .nucleon d.1 d.2.1 d.2.2) p = .ok ys ∧
        List.Forall₂ (fun d y => 0 ≤ y ∧ y ≤ C / d.1 ^ 2) points ys := by
  obtain ⟨x, hx, C, R, hC, hR, H⟩ := nucleon_object_fall_off h hc hi hz
  refine ⟨C, R, hC, hR, fun points hpts => ?_⟩
  rw [hx.wiring.ff, hx.check, except_ok_bind, mapM_map]
  refine mapM_forall₂ fun d hd => ?_
  obtain ⟨y, hy, hyb⟩ := H d.2.1 d.2.2 d.1 (hpts d hd)
  exact ⟨‖y‖, by show (do let F ← NucleonClass.new.run d.2.1 d.2.2 x d.1; return ‖F‖) = _; rw [hy]; rfl, norm_nonneg y, hyb⟩

/-- **C90** the cross sections of the nucleon class are then at most `C/t⁵`. -/
theorem C90_nucleon_cross_sections {p : ModelParameters ℝ} (h : Reachable p) (hc : p.cls = .nucleon) (hi : p.InsideMaximal) {s : ℝ} {proton : Bool}
    {z : List ℝ} (hz : functionFormFactor [.nucleon s proton true] p = .ok z) (m α hc2 : ℝ) :
    ∃ C R : ℝ, 0 ≤ C ∧ 0 < R ∧ ∀ points : List (ℝ × Bool × Bool), (∀ d ∈ points, R ≤ d.1) →
      ∃ ys, functionCrossSection (points.map fun d => .nucleon d.1 d.2.1 d.2.2) m α hc2 p = .ok ys ∧
        List.Forall₂ (fun d y => 0 ≤ y ∧ y ≤ C / d.1 ^ 5) points ys := by
  obtain ⟨x, hx, C, R, hC, hR, H⟩ := nucleon_object_fall_off h hc hi hz
  have hpi := Real.pi_pos
  refine ⟨|hc2| * (2 * Real.pi * α ^ 2) * C ^ 2, max R (4 * m ^ 2), by positivity, lt_max_of_lt_left hR, fun points hpts => ?_⟩
  rw [hx.wiring.cs, hx.check, except_ok_bind, mapM_map]
  refine mapM_forall₂ fun d hd => ?_
  have h1 := (le_max_left R (4 * m ^ 2)).trans (hpts d hd)
  have h2 := (le_max_right R (4 * m ^ 2)).trans (hpts d hd)
  obtain ⟨GE, he, heb⟩ := H d.2.1 true d.1 h1
  obtain ⟨GM, hm, hmb⟩ := H d.2.1 false d.1 h1
  have ht : 0 < d.1 := hR.trans_le h1
  refine ⟨_, by
    show (do
      let σ ← (do
        let GE ← NucleonClass.new.run d.2.1 true x d.1
        let GM ← NucleonClass.new.run d.2.1 false x d.1
        (NucleonCS.init m α hc2).formula d.1 ‖GE‖ ‖GM‖)
      return ‖σ‖) = _
    rw [he, hm, except_ok_bind, except_ok_bind, NucleonCS.formula_real ht h2]; rfl, norm_nonneg _, ?_⟩
  rw [norm_real, Real.norm_eq_abs]
  exact nucleon_bound ht h2 (norm_nonneg _) (norm_nonneg _) heb hmb

/-- The premises of the kaon theorems can be met. -/
example : ∃ C R : ℝ, 0 < C ∧ 0 < R ∧ ∀ points : List (ℝ × Bool), (∀ d ∈ points, R ≤ d.1) →
    ∃ ys, functionFormFactor (points.map fun d => .kaon d.1 d.2) (typical .kaonB 1) = .ok ys ∧
      List.Forall₂ (fun d y => 0 ≤ y ∧ y ≤ C / d.1) points ys :=
  C90_kaon_form_factors (typical_reachable .kaonB 1) trivial (typical_insideMaximal .kaonB trivial one_pos)

/-- The premises of the nucleon theorems can be met. -/
example : ∃ p, Reachable p ∧ p.cls = .nucleon ∧ p.InsideMaximal ∧ ∃ z, functionFormFactor [.nucleon (0 : ℝ) true true] p = .ok z := by
  obtain ⟨p, hg, htin, x, hx, hmass, hdeg⟩ := separate_object
  obtain ⟨hr, hcls, hin, -⟩ := (goodObject_iff (c := .nucleon) trivial).mp hg
  refine ⟨p, hr, hcls, hin.1, ?_⟩
  refine (C82_form_factors_partial hr hcls hin.1 hg.nucleon hx.wiring.holds (points := [(0, true, true)]) ?_).1.mpr ?_
  · intro d hd; fin_cases hd; norm_num
  · intro d hd
    fin_cases hd
    refine ⟨?_, hdeg, fun _ => by rw [hmass]; norm_num⟩
    rintro ⟨q, hq, hn, he⟩
    rw [htin q hq hn] at he
    norm_num at he

end UA
