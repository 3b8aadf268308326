import Verif.Lemmas.PlotComplex
import Verif.Props.Maps
import Verif.Props.AlternateMaps

/-!
# Property C84: the figures of the coordinate maps
-/

namespace UA

open Complex Spec

/-- **C84** drawing: the assertion fails exactly for lists of different lengths. Otherwise as many curves are drawn as there are
colours, the first ones, each with its image and in a colour of its own; any further curves are silently left out. -/
theorem C84_drawn (colors : List String) (hd : colors.Nodup) (domain_title range_title : String) (curves mapped : List (List ℂ)) :
    (curves.length ≠ mapped.length → plotMappedCurves colors domain_title range_title curves mapped = .error .assertionError) ∧
    (curves.length = mapped.length → ∃ fig, plotMappedCurves colors domain_title range_title curves mapped = .ok fig ∧
      fig.ax1.map Line.points = curves.take colors.length ∧ fig.ax2.map Line.points = mapped.take colors.length ∧
      fig.ax1.map Line.color = fig.ax2.map Line.color ∧ (fig.ax1.map Line.color).Nodup) := by
  refine ⟨fun h => ?_, fun h => ?_⟩
  · unfold plotMappedCurves
    rw [if_pos h]
  · unfold plotMappedCurves
    rw [if_neg (not_not.mpr h)]
    dsimp only
    rw [plotCurvesLoop_eq]
    refine ⟨_, rfl, ?_, ?_, ?_, ?_⟩
    · exact drawn_first h
    · exact drawn_second h
    · simp only [List.nil_append, List.map_map]; rfl
    · exact drawn_colors hd

/-- **C84** `plot_square_root` draws all six curves, each point with its square root of argument in `[0, π)`. -/
theorem C84_square_root (colors : List String) (hd : colors.Nodup) (hc : 6 ≤ colors.length) :
    ∃ fig curves, plotSquareRoot colors = .ok fig ∧ fig.Shows curves IsBranchRoot ∧ curves.length = 6 ∧
      (∀ c ∈ curves, c.length = 99 ∧ ∀ z ∈ c, z ≠ 0) := by
  obtain ⟨fig, h1, h2, -, -⟩ := shows_of hd "z" "sqrt(z)" (f := fun z => .ok (squareRoot z)) (R := IsBranchRoot) (curves := squareRootCurves)
    fun c _ z _ => ⟨_, rfl, (C01_square_root_branch z _).mpr rfl⟩
  have hl : squareRootCurves.length = 6 := by simp [squareRootCurves, pyRange_length]
  rw [List.take_of_length_le (by rw [hl]; exact hc)] at h2
  refine ⟨fig, squareRootCurves, h1, h2, hl, fun c hcm => ?_⟩
  unfold squareRootCurves at hcm
  rcases List.mem_append.mp hcm with hcm | hcm
  · obtain ⟨b, hb, rfl⟩ := List.mem_map.mp hcm
    obtain ⟨k, -, rfl⟩ := List.mem_map.mp hb
    refine ⟨by simp [pyRange_length], fun z hz => ?_⟩
    obtain ⟨n, hn, rfl⟩ := List.mem_map.mp hz
    have := (mem_pyRange.mp hn).1
    have : (n : ℂ) ≠ 0 := by exact_mod_cast (by omega : n ≠ 0)
    exact div_ne_zero (mul_ne_zero (Complex.exp_ne_zero _) this) (by norm_num)
  · obtain ⟨r, hr, rfl⟩ := List.mem_map.mp hcm
    refine ⟨by simp [pyRange_length], fun z hz => ?_⟩
    obtain ⟨n, hn, rfl⟩ := List.mem_map.mp hz
    refine mul_ne_zero ?_ (Complex.exp_ne_zero _)
    have hr : r = 0.1 ∨ r = 1 ∨ r = 5 := by simpa using hr
    rcases hr with rfl | rfl | rfl <;> norm_num

/-- **C84** `plot_z_minus_its_reciprocal` never fails, whatever the number of angles. Of its curves, half inside and half outside the
unit disk, the first ones are drawn, as many as there are colours. -/
theorem C84_reciprocal (colors : List String) (hd : colors.Nodup) (number_of_angles : ℤ) :
    ∃ (fig : TwoAxes) (inside outside : List (List ℂ)), plotZMinusItsReciprocal colors number_of_angles = .ok fig ∧
      fig.Shows ((inside ++ outside).take colors.length) (fun z u => z ≠ 0 ∧ u = z - 1 / z) ∧
      inside.length = number_of_angles.toNat ∧ outside.length = number_of_angles.toNat ∧
      (∀ c ∈ inside, c.length = 89 ∧ ∀ z ∈ c, 0 < ‖z‖ ∧ ‖z‖ < 1) ∧ (∀ c ∈ outside, c.length = 99 ∧ ∀ z ∈ c, 1 < ‖z‖) := by
  obtain ⟨inside, outside, he, h1, h2, h3, h4⟩ := reciprocalCurves_split number_of_angles
  have hne : ∀ c ∈ inside ++ outside, ∀ z ∈ c, z ≠ 0 := by
    intro c hc z hz
    rcases List.mem_append.mp hc with hc | hc
    · exact norm_pos_iff.mp ((h3 c hc).2 z hz).1
    · exact norm_pos_iff.mp (by linarith [(h4 c hc).2 z hz])
  obtain ⟨fig, hf, hs, -, -⟩ := shows_of hd "z" "z - 1/z" (f := zMinusItsReciprocal) (R := fun z u => z ≠ 0 ∧ u = z - 1 / z)
    (curves := inside ++ outside) fun c hc z hz => by
      refine ⟨z - 1 / z, ?_, hne c hc z hz, rfl⟩
      unfold zMinusItsReciprocal
      rw [pyDiv_ok (hne c hc z hz)]; rfl
  refine ⟨fig, inside, outside, ?_, hs, h1, h2, h3, h4⟩
  unfold plotZMinusItsReciprocal
  rw [he]
  exact hf

/-- **C84** `plot_w_to_t` refuses wrong branch points with `ValueError` and otherwise draws all six curves, none of which meets a
singular point of the map. For `t_0 < t_in` the map from `t` to `W` takes every drawn value back to the point on an inner curve, and to
the reciprocal of the point on an outer curve; for `t_0 = t_in` every image is `t_0`. -/
theorem C84_w_to_t (colors : List String) (hd : colors.Nodup) (hc : 6 ≤ colors.length) (t_0 t_in : ℝ) :
    (¬ (0 ≤ t_0 ∧ t_0 ≤ t_in) → plotWToT colors t_0 t_in = .error .valueError) ∧
    (0 ≤ t_0 → t_0 ≤ t_in → ∃ (fig : TwoAxes) (inside outside : List (List ℂ)), plotWToT colors t_0 t_in = .ok fig ∧ inside.length = 3 ∧ outside.length = 3 ∧
      (∀ c ∈ inside, c.length = 890 ∧ ∀ w ∈ c, w ∈ LeftHalfDisk) ∧ (∀ c ∈ outside, c.length = 990 ∧ ∀ w ∈ c, 1 < ‖w‖ ∧ w.re < 0) ∧
      fig.Shows (inside ++ outside) fun w t => runWtoT t_0 t_in w = .ok t ∧
        (t_0 < t_in → (w ∈ LeftHalfDisk → runTtoW t_0 t_in t = .ok w) ∧ (1 < ‖w‖ → runTtoW t_0 t_in t = .ok (1 / w))) ∧
        (t_0 = t_in → t = t_0)) := by
  refine ⟨fun h => ?_, fun h0 h => ?_⟩
  · have h' : t_0 < 0 ∨ t_in < t_0 := by
      by_contra hc; push Not at hc; exact h hc
    unfold plotWToT
    rw [WtoT_init_error h']
    rfl
  · obtain ⟨inside, outside, he, h1, h2, h3, h4⟩ := wCurves_split
    have hgood : ∀ c ∈ inside ++ outside, ∀ w ∈ c, w ≠ 0 ∧ 1 - w ^ 2 ≠ 0 ∧ (w ∈ LeftHalfDisk ∨ 1 < ‖w‖ ∧ w.re < 0) := by
      intro c hc w hw
      rcases List.mem_append.mp hc with hc | hc
      · have := (h3 c hc).2 w hw
        exact ⟨(leftHalfDisk_ne this).1, (leftHalfDisk_ne this).2, Or.inl this⟩
      · have := (h4 c hc).2 w hw
        refine ⟨norm_pos_iff.mp (by linarith), fun h' => ?_, Or.inr this⟩
        have h'' : w ^ 2 = 1 := by linear_combination -h'
        have : ‖w‖ ^ 2 = 1 := by rw [← norm_pow, h'', norm_one]
        nlinarith
    have hrun : ∀ w, runWtoT t_0 t_in w = (mkWtoT t_0 t_in).call w := fun w => by
      unfold runWtoT
      rw [WtoT_init_ok h0 h]; rfl
    obtain ⟨fig, hf, hs, -, -⟩ := shows_of hd "W-plane" "t-plane" (f := (mkWtoT t_0 t_in).call)
      (R := fun w t => runWtoT t_0 t_in w = .ok t ∧
        (t_0 < t_in → (w ∈ LeftHalfDisk → runTtoW t_0 t_in t = .ok w) ∧ (1 < ‖w‖ → runTtoW t_0 t_in t = .ok (1 / w))) ∧
        (t_0 = t_in → t = t_0)) (curves := inside ++ outside) fun c hc w hw => by
      obtain ⟨hw0, hw1, hpos⟩ := hgood c hc w hw
      refine ⟨_, WtoT_call_ok hw0 hw1, by rw [hrun]; exact WtoT_call_ok hw0 hw1, fun hlt => ⟨fun hl => ?_, fun hl => ?_⟩, ?_⟩
      · have := C07_roundtrip_W t_0 t_in h0 hlt w hl
        rw [hrun, WtoT_call_ok hw0 hw1, except_ok_bind] at this
        exact this
      · have hre : w.re < 0 := by
          rcases hpos with hp | hp
          · exact absurd hp.1 (by linarith)
          · exact hp.2
        have hinv := leftHalfDisk_inv hl hre
        have := C07_roundtrip_W t_0 t_in h0 hlt (1 / w) hinv
        obtain ⟨hi0, hi1⟩ := leftHalfDisk_ne hinv
        rw [hrun, WtoT_call_ok hi0 hi1, except_ok_bind] at this
        rw [← this, Tval_reciprocal hw0]
      · rintro rfl
        simp [Tval]
    have hl : (inside ++ outside).length = 6 := by rw [List.length_append, h1, h2]
    rw [List.take_of_length_le (by rw [hl]; exact hc)] at hs
    refine ⟨fig, inside, outside, ?_, h1, h2, h3, h4, hs⟩
    unfold plotWToT
    rw [WtoT_init_ok h0 h, except_ok_bind, he]
    exact hf

/-- **C84** `plot_t_to_w` refuses wrong branch points with `ValueError` and equal ones with `ZeroDivisionError`; otherwise it draws all
eight curves: on the real axis below `t_0`, between `t_0` and `t_in` and above `t_in`, and five curves off the real axis. Every drawn
`W` lies in the closed left half of the unit disk and is mapped back to its `t`. -/
theorem C84_t_to_w (colors : List String) (hd : colors.Nodup) (hc : 8 ≤ colors.length) (t_0 t_in : ℝ) :
    (¬ (0 ≤ t_0 ∧ t_0 ≤ t_in) → plotTToW colors t_0 t_in = .error .valueError) ∧
    (0 ≤ t_0 → t_0 = t_in → plotTToW colors t_0 t_in = .error .zeroDivisionError) ∧
    (0 ≤ t_0 → t_0 < t_in → ∃ (fig : TwoAxes) (below between above : List ℂ) (others : List (List ℂ)), plotTToW colors t_0 t_in = .ok fig ∧
      fig.Shows (below :: between :: above :: others) (fun t w => runTtoW t_0 t_in t = .ok w ∧ runWtoT t_0 t_in w = .ok t ∧
        ‖w‖ ≤ 1 ∧ w.re ≤ 0) ∧
      OnAxis (· < t_0) below ∧ OnAxis (fun x => t_0 < x ∧ x < t_in) between ∧ OnAxis (t_in < ·) above ∧
      (∀ c ∈ others, OffAxis c) ∧ [below, between, above].map List.length = [999, 99, 999] ∧
      others.map List.length = [999, 999, 1999, 999, 999]) := by
  refine ⟨fun h => ?_, fun h0 h => ?_, fun h0 h => ?_⟩
  · have h' : t_0 < 0 ∨ t_in < t_0 := by
      by_contra hc; push Not at hc; exact h hc
    unfold plotTToW
    rw [TtoW_init_error h']
    rfl
  · unfold plotTToW
    rw [TtoW_init_ok h0 h.le, except_ok_bind]
    rcases hm : mapCurves (mkTtoW t_0 t_in).call (tCurves t_0 t_in) with e | mapped
    · obtain ⟨c, -, hce⟩ := mapM_eq_error hm
      obtain ⟨z, -, hz⟩ := mapM_eq_error hce
      rw [TtoW_call_error hz]; rfl
    · have hmem : (t_in : ℂ) ∈ (pyRange 1 100).map fun n : ℤ => ((t_in : ℂ) - t_0) * n * 0.01 + t_0 :=
        List.mem_map.mpr ⟨1, mem_pyRange.mpr (by omega), by rw [h]; ring⟩
      obtain ⟨m, hm1⟩ := forall₂_exists (mapM_eq_ok.mp hm) (List.mem_cons_of_mem _ List.mem_cons_self)
      obtain ⟨w, hw⟩ := forall₂_exists (mapM_eq_ok.mp hm1) hmem
      rw [TtoW_call_tin h.le] at hw
      cases hw
  · have hR : ∀ t : ℂ, t ≠ t_0 → t ≠ t_in → ∃ w, (mkTtoW t_0 t_in).call t = .ok w ∧ runTtoW t_0 t_in t = .ok w ∧
        runWtoT t_0 t_in w = .ok t ∧ ‖w‖ ≤ 1 ∧ w.re ≤ 0 := by
      intro t ht0 ht
      have hr := C06_roundtrip_t t_0 t_in h0 h t
      obtain ⟨w, hw⟩ := (C04_TtoW_defined t_0 t_in h0 h t).2 ht
      have hrt := hr.1 ht0 ht
      rw [hw, except_ok_bind] at hrt
      obtain ⟨hn, hre, -⟩ := C05_image t_0 t_in h0 h t w hw
      refine ⟨w, ?_, hw, hrt, hn, hre⟩
      unfold runTtoW at hw
      rw [TtoW_init_ok h0 h.le] at hw
      exact hw
    obtain ⟨fig, hf, hs, -, -⟩ := shows_of hd "t-plane" "W-plane" (f := (mkTtoW t_0 t_in).call)
      (R := fun t w => runTtoW t_0 t_in t = .ok w ∧ runWtoT t_0 t_in w = .ok t ∧ ‖w‖ ≤ 1 ∧ w.re ≤ 0) (curves := tCurves t_0 t_in)
      fun c hc t ht => hR t (tCurves_avoid h hc ht).1 (tCurves_avoid h hc ht).2
    rw [List.take_of_length_le (by exact hc)] at hs
    refine ⟨fig, _, _, _, _, ?_, hs, curve_below t_0, curve_between h, curve_above t_in, ?_, ?_, ?_⟩
    · unfold plotTToW
      rw [TtoW_init_ok h0 h.le, except_ok_bind]
      exact hf
    · exact List.forall_mem_cons.mpr ⟨curve_54, List.forall_mem_cons.mpr ⟨curve_54', List.forall_mem_cons.mpr ⟨curve_20,
        List.forall_mem_cons.mpr ⟨curve_diagonal, List.forall_mem_cons.mpr ⟨curve_17, fun c hc => by cases hc⟩⟩⟩⟩⟩
    · simp [pyRange_length]
    · simp [pyRange_length]

/-- **C84** the script comparing inverse maps draws all five curves with each of the three versions, and every drawn `W` is mapped back
to its `t`. -/
theorem C84_versions (colors : List String) (hd : colors.Nodup) (hc : 5 ≤ colors.length) (T_0 T_IN : ℝ) (h0 : 0 < T_0) (h : T_0 < T_IN)
    (f : ℂ → Except PyErr ℂ) (hf : f = runTtoW T_0 T_IN ∨ f = tToWVersion2 T_0 T_IN ∨ f = tToWVersion3 T_0 T_IN) :
    ∃ (fig : TwoAxes) (below between above : List ℂ) (others : List (List ℂ)), plotVariousTToW colors T_0 T_IN f = .ok fig ∧
      fig.Shows (below :: between :: above :: others) (fun t w => f t = .ok w ∧ runWtoT T_0 T_IN w = .ok t) ∧
      OnAxis (· < T_0) below ∧ OnAxis (fun x => T_0 < x ∧ x < T_IN) between ∧ OnAxis (T_IN < ·) above ∧
      (∀ c ∈ others, OffAxis c) ∧ [below, between, above].map List.length = [999, 99, 999] ∧ others.map List.length = [1999, 999] := by
  have hR : ∀ t : ℂ, t ≠ T_0 → t ≠ T_IN → ∃ w, f t = .ok w ∧ f t = .ok w ∧ runWtoT T_0 T_IN w = .ok t := by
    intro t ht0 ht
    rcases hf with rfl | rfl | rfl
    · obtain ⟨w, hw⟩ := (C04_TtoW_defined T_0 T_IN h0.le h t).2 ht
      have hr := (C06_roundtrip_t T_0 T_IN h0.le h t).1 ht0 ht
      rw [hw, except_ok_bind] at hr
      exact ⟨w, hw, hw, hr⟩
    · obtain ⟨w, hw, -, -, hr, -⟩ := C78_version2 T_0 T_IN h0 h t
      exact ⟨w, hw, hw, hr ht0⟩
    · obtain ⟨w, hw, -, -, -, -, hr, -⟩ := C78_version3 T_0 T_IN h0 h t
      exact ⟨w, hw, hw, hr ht0⟩
  obtain ⟨fig, hfig, hs, -, -⟩ := shows_of hd "t-plane" "W-plane" (f := f)
    (R := fun t w => f t = .ok w ∧ runWtoT T_0 T_IN w = .ok t) (curves := variousCurves T_0 T_IN)
    fun c hc t ht => hR t (variousCurves_avoid h hc ht).1 (variousCurves_avoid h hc ht).2
  rw [List.take_of_length_le (by exact hc)] at hs
  refine ⟨fig, _, _, _, _, hfig, hs, curve_below T_0, curve_between h, curve_above T_IN, ?_, ?_, ?_⟩
  · exact List.forall_mem_cons.mpr ⟨curve_20, List.forall_mem_cons.mpr ⟨curve_diagonal, fun c hc => by cases hc⟩⟩
  · simp [pyRange_length]
  · simp [pyRange_length]

/-- The values of the scripts, and a list of eight colours. -/
example : (0 : ℝ) ≤ 1 ∧ (1 : ℝ) < 2 ∧ ["a", "b", "c", "d", "e", "f", "g", "h"].Nodup ∧ 8 ≤ ["a", "b", "c", "d", "e", "f", "g", "h"].length := by
  refine ⟨by norm_num, by norm_num, by decide, by decide⟩

/-- Two colours: of the four curves for two angles two are drawn. -/
example : ∃ fig, plotZMinusItsReciprocal ["a", "b"] 2 = .ok fig ∧ fig.ax1.length = 2 := by
  obtain ⟨fig, i, o, h, hs, h1, h2, -, -⟩ := C84_reciprocal ["a", "b"] (by decide) 2
  refine ⟨fig, h, ?_⟩
  have := congrArg List.length hs.domain
  rw [List.length_map, List.length_take, List.length_append, h1, h2] at this
  exact this

end UA
