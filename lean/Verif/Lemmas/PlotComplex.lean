import Verif.Spec.PlotComplex
import Verif.Spec.MapsRun
import Verif.Lemmas.MapsRun
import Verif.Lemmas.Parameters
import Mathlib.Tactic.IntervalCases

/-!
# Helper lemmas for the figures
-/

namespace UA

open Complex Spec

theorem mem_pyRange {a b n : ℤ} : n ∈ pyRange a b ↔ a ≤ n ∧ n < b := by
  unfold pyRange
  rw [List.mem_map]
  constructor
  · rintro ⟨k, hk, rfl⟩
    rw [List.mem_range] at hk
    omega
  · rintro ⟨h1, h2⟩
    exact ⟨(n - a).toNat, by rw [List.mem_range]; omega, by omega⟩

/-- The line drawn for a curve. -/
def lineOf (curve : List ℂ) (color : String) : Line := ⟨curve.map fun z => z.re, curve.map fun z => z.im, color⟩

theorem lineOf_points (curve : List ℂ) (color : String) : (lineOf curve color).points = curve := by
  unfold Line.points lineOf
  induction curve with
  | nil => rfl
  | cons z curve ih =>
    simp only [List.map_cons, List.zipWith_cons_cons]
    rw [show List.zipWith Complex.mk (curve.map fun z => z.re) (curve.map fun z => z.im) = curve from ih]

theorem plotCurvesLoop_eq (l : List (List ℂ × List ℂ × String)) (a b : List Line) :
    plotCurvesLoop l (a, b) = (a ++ l.map (fun q => lineOf q.1 q.2.2), b ++ l.map (fun q => lineOf q.2.1 q.2.2)) := by
  induction l generalizing a b with
  | nil => simp [plotCurvesLoop]
  | cons q l ih =>
    obtain ⟨c, m, k⟩ := q
    unfold plotCurvesLoop
    rw [ih]
    simp [plotCurve, lineOf]

theorem mapCurves_ok {f : ℂ → Except PyErr ℂ} {R : ℂ → ℂ → Prop} {curves : List (List ℂ)}
    (h : ∀ c ∈ curves, ∀ z ∈ c, ∃ w, f z = .ok w ∧ R z w) :
    ∃ mapped, mapCurves f curves = .ok mapped ∧ List.Forall₂ (List.Forall₂ R) curves mapped := by
  unfold mapCurves
  have key : ∀ c : List ℂ, (∀ z ∈ c, ∃ w, f z = .ok w ∧ R z w) → ∃ m, c.mapM f = .ok m ∧ List.Forall₂ R c m := by
    intro c
    induction c with
    | nil => exact fun _ => ⟨[], rfl, .nil⟩
    | cons z c ih =>
      intro hc
      obtain ⟨w, hw, hr⟩ := hc z List.mem_cons_self
      obtain ⟨m, hm, hm'⟩ := ih fun z' hz' => hc z' (List.mem_cons_of_mem _ hz')
      refine ⟨w :: m, ?_, .cons hr hm'⟩
      rw [List.mapM_cons, hw, except_ok_bind, hm]; rfl
  induction curves with
  | nil => exact ⟨[], rfl, .nil⟩
  | cons c curves ih =>
    obtain ⟨m, hm, hm'⟩ := key c (h c List.mem_cons_self)
    obtain ⟨ms, hms, hms'⟩ := ih fun c' hc' => h c' (List.mem_cons_of_mem _ hc')
    refine ⟨m :: ms, ?_, .cons hm' hms'⟩
    rw [List.mapM_cons, hm, except_ok_bind, hms]; rfl

/-- What `plot_mapped_curves` draws. -/
theorem plotMappedCurves_shows {colors : List String} (hd : colors.Nodup) (d r : String) {R : ℂ → ℂ → Prop} {curves mapped : List (List ℂ)}
    (h : List.Forall₂ (List.Forall₂ R) curves mapped) :
    ∃ fig, plotMappedCurves colors d r curves mapped = .ok fig ∧ fig.Shows (curves.take colors.length) R ∧
      fig.domain_title = d ∧ fig.range_title = r := by
  unfold plotMappedCurves
  rw [if_neg (not_not.mpr h.length_eq)]
  dsimp only
  rw [plotCurvesLoop_eq]
  refine ⟨_, rfl, ⟨?_, ?_, ?_⟩, rfl, rfl⟩
  · simp only [List.nil_append, List.map_map]
    have : (fun q : List ℂ × List ℂ × String => Line.points (lineOf q.1 q.2.2)) = fun q => q.1 := funext fun q => lineOf_points _ _
    rw [show (Line.points ∘ fun q : List ℂ × List ℂ × String => lineOf q.1 q.2.2) = fun q => q.1 from this]
    clear this hd
    induction h generalizing colors with
    | nil => simp
    | cons h1 h2 ih =>
      cases colors with
      | nil => simp
      | cons k colors =>
        simp only [List.length_cons, List.take_succ_cons, List.zip_cons_cons, List.map_cons]
        rw [ih]
  · simp only [List.nil_append]
    clear hd
    induction h generalizing colors with
    | nil => exact .nil
    | cons h1 h2 ih =>
      cases colors with
      | nil => simp
      | cons k colors =>
        simp only [List.length_cons, List.take_succ_cons, List.zip_cons_cons, List.map_cons]
        refine .cons ⟨rfl, ?_⟩ ih
        rw [lineOf_points, lineOf_points]
        exact h1
  · simp only [List.nil_append, List.map_map]
    have : (Line.color ∘ fun q : List ℂ × List ℂ × String => lineOf q.1 q.2.2) = fun q => q.2.2 := rfl
    rw [this]
    refine List.Nodup.sublist ?_ hd
    clear hd this
    induction h generalizing colors with
    | nil => simp
    | cons h1 h2 ih =>
      cases colors with
      | nil => simp
      | cons k colors =>
        simp only [List.length_cons, List.take_succ_cons, List.zip_cons_cons, List.map_cons]
        exact ih.cons_cons _

/-- Mapping and drawing. -/
theorem shows_of {colors : List String} (hd : colors.Nodup) (d r : String) {f : ℂ → Except PyErr ℂ} {R : ℂ → ℂ → Prop} {curves : List (List ℂ)}
    (h : ∀ c ∈ curves, ∀ z ∈ c, ∃ w, f z = .ok w ∧ R z w) :
    ∃ fig, (do let mapped ← mapCurves f curves; plotMappedCurves colors d r curves mapped) = .ok fig ∧
      fig.Shows (curves.take colors.length) R ∧ fig.domain_title = d ∧ fig.range_title = r := by
  obtain ⟨mapped, hm, hm'⟩ := mapCurves_ok h
  rw [hm, except_ok_bind]
  exact plotMappedCurves_shows hd d r hm'

/-! ### The curves -/

theorem curve_below (t_0 : ℝ) : OnAxis (· < t_0) ((pyRange 1 1000).map fun n : ℤ => (n : ℂ) * -0.1 + t_0) := by
  intro t ht
  obtain ⟨n, hn, rfl⟩ := List.mem_map.mp ht
  obtain ⟨h1, -⟩ := mem_pyRange.mp hn
  have : (1 : ℝ) ≤ n := by exact_mod_cast h1
  exact ⟨n * -0.1 + t_0, by push_cast; ring, by linarith⟩

theorem curve_between {t_0 t_in : ℝ} (h : t_0 < t_in) :
    OnAxis (fun x => t_0 < x ∧ x < t_in) ((pyRange 1 100).map fun n : ℤ => ((t_in : ℂ) - t_0) * n * 0.01 + t_0) := by
  intro t ht
  obtain ⟨n, hn, rfl⟩ := List.mem_map.mp ht
  obtain ⟨h1, h2⟩ := mem_pyRange.mp hn
  have h1 : (1 : ℝ) ≤ n := by exact_mod_cast h1
  have h2 : (n : ℝ) ≤ 99 := by exact_mod_cast (by omega : n ≤ 99)
  refine ⟨(t_in - t_0) * n * 0.01 + t_0, by push_cast; ring, ?_, ?_⟩ <;> nlinarith

theorem curve_above (t_in : ℝ) : OnAxis (t_in < ·) ((pyRange 1 1000).map fun n : ℤ => (n : ℂ) * 0.1 + t_in) := by
  intro t ht
  obtain ⟨n, hn, rfl⟩ := List.mem_map.mp ht
  obtain ⟨h1, -⟩ := mem_pyRange.mp hn
  have : (1 : ℝ) ≤ n := by exact_mod_cast h1
  exact ⟨n * 0.1 + t_in, by push_cast; ring, by linarith⟩

theorem curve_54 : OffAxis ((pyRange 1 1000).map fun n : ℤ => (n : ℂ) * -0.1 + 54 * I) := by
  intro t ht
  obtain ⟨n, hn, rfl⟩ := List.mem_map.mp ht
  norm_num

theorem curve_54' : OffAxis ((pyRange 1 1000).map fun n : ℤ => (n : ℂ) * 0.1 + 54 * I) := by
  intro t ht
  obtain ⟨n, hn, rfl⟩ := List.mem_map.mp ht
  norm_num

theorem curve_20 : OffAxis (((pyRange (-1000) 0).map fun n : ℤ => (n : ℂ) * 0.1 - 20 * I) ++ (pyRange 1 1000).map fun n : ℤ => (n : ℂ) * 0.1 - 20 * I) := by
  intro t ht
  rcases List.mem_append.mp ht with ht | ht <;> obtain ⟨n, hn, rfl⟩ := List.mem_map.mp ht <;> norm_num

theorem curve_diagonal : OffAxis ((pyRange 1 1000).map fun n : ℤ => (n : ℂ) * (0.1 + 0.1 * I)) := by
  intro t ht
  obtain ⟨n, hn, rfl⟩ := List.mem_map.mp ht
  obtain ⟨h1, -⟩ := mem_pyRange.mp hn
  have : (n : ℝ) ≠ 0 := by exact_mod_cast (by omega : n ≠ 0)
  norm_num [this]

theorem curve_17 : OffAxis ((pyRange 1 1000).map fun n : ℤ => (n : ℂ) * (0.1 * I) + 17) := by
  intro t ht
  obtain ⟨n, hn, rfl⟩ := List.mem_map.mp ht
  obtain ⟨h1, -⟩ := mem_pyRange.mp hn
  have : (n : ℝ) ≠ 0 := by exact_mod_cast (by omega : n ≠ 0)
  norm_num [this]

theorem pyRange_length (a b : ℤ) : (pyRange a b).length = (b - a).toNat := by simp [pyRange]

theorem norm_exp_I (x : ℂ) (h : x.im = 0) : ‖Complex.exp (I * x)‖ = 1 := by
  rw [Complex.norm_exp]; simp [h]

/-- The three directions of `plot_w_to_t` point to the left. -/
theorem wBases : ∀ b ∈ [Complex.exp (I * Real.pi * 2 / 3), Complex.exp (I * Real.pi * 5 / 6), Complex.exp (I * Real.pi * 8 / 7)],
    ‖b‖ = 1 ∧ b.re < 0 := by
  have key : ∀ x : ℝ, Real.pi / 2 < x → x < Real.pi + Real.pi / 2 → ∀ z : ℂ, z = I * x → ‖Complex.exp z‖ = 1 ∧ (Complex.exp z).re < 0 := by
    rintro x h1 h2 z rfl
    refine ⟨norm_exp_I _ (by simp), ?_⟩
    rw [mul_comm, Complex.exp_mul_I]
    rw [← Complex.ofReal_cos, ← Complex.ofReal_sin]
    simp only [add_re, ofReal_re, mul_re, ofReal_im, I_re, I_im, mul_zero, zero_mul, sub_zero, add_zero]
    exact Real.cos_neg_of_pi_div_two_lt_of_lt h1 h2
  have hp := Real.pi_pos
  intro b hb
  simp only [List.mem_cons, List.not_mem_nil, or_false] at hb
  rcases hb with rfl | rfl | rfl
  · exact key (Real.pi * 2 / 3) (by linarith) (by linarith) _ (by push_cast; ring)
  · exact key (Real.pi * 5 / 6) (by linarith) (by linarith) _ (by push_cast; ring)
  · exact key (Real.pi * 8 / 7) (by linarith) (by linarith) _ (by push_cast; ring)

theorem norm_base_mul {b : ℂ} (hb : ‖b‖ = 1) {x : ℝ} (hx : 0 < x) : ‖b * x‖ = x := by
  rw [norm_mul, hb, one_mul, Complex.norm_real, Real.norm_of_nonneg hx.le]

/-- Points of the inner curves of `plot_w_to_t`. -/
theorem wInside {b : ℂ} (hb : ‖b‖ = 1 ∧ b.re < 0) {n : ℤ} (hn : n ∈ pyRange 100 990) : b * (n : ℂ) / 1000 ∈ LeftHalfDisk := by
  obtain ⟨h1, h2⟩ := mem_pyRange.mp hn
  have h1 : (100 : ℝ) ≤ n := by exact_mod_cast h1
  have h2 : (n : ℝ) < 990 := by exact_mod_cast h2
  have e : b * (n : ℂ) / 1000 = b * ((n / 1000 : ℝ) : ℂ) := by push_cast; ring
  rw [e]
  constructor
  · rw [norm_base_mul hb.1 (by linarith)]; linarith
  · rw [re_mul_ofReal]; exact mul_neg_of_neg_of_pos hb.2 (by linarith)

/-- Points of the outer curves. -/
theorem wOutside {b : ℂ} (hb : ‖b‖ = 1 ∧ b.re < 0) {n : ℤ} (hn : n ∈ pyRange 10 1000) :
    1 < ‖b * ((n : ℂ) + 100) / 100‖ ∧ (b * ((n : ℂ) + 100) / 100).re < 0 := by
  obtain ⟨h1, h2⟩ := mem_pyRange.mp hn
  have h1 : (10 : ℝ) ≤ n := by exact_mod_cast h1
  have e : b * ((n : ℂ) + 100) / 100 = b * (((n + 100) / 100 : ℝ) : ℂ) := by push_cast; ring
  rw [e]
  constructor
  · rw [norm_base_mul hb.1 (by linarith)]; linarith
  · rw [re_mul_ofReal]; exact mul_neg_of_neg_of_pos hb.2 (by linarith)

/-- The reciprocal of a number in the left half plane outside the unit disk. -/
theorem leftHalfDisk_inv {w : ℂ} (h1 : 1 < ‖w‖) (h2 : w.re < 0) : 1 / w ∈ LeftHalfDisk := by
  constructor
  · rw [norm_div, norm_one, div_lt_one (by linarith)]; exact h1
  · rw [one_div, inv_re]; exact div_neg_of_neg_of_pos h2 (normSq_pos.mpr (by rintro rfl; simp at h2))

theorem zip_first {curves mapped : List (List ℂ)} {colors : List String} (h : curves.length = mapped.length) :
    (curves.zip (mapped.zip (colors.take curves.length))).map (fun q => (q.1, q.2.1)) = (curves.zip mapped).take colors.length := by
  induction curves generalizing mapped colors with
  | nil => simp
  | cons c curves ih =>
    cases mapped with
    | nil => cases h
    | cons m mapped =>
      cases colors with
      | nil => simp
      | cons k colors =>
        simp only [List.length_cons, List.take_succ_cons, List.zip_cons_cons, List.map_cons]
        rw [ih (by simpa using h)]

theorem map_fst_zip_take {α β : Type} {l : List α} {m : List β} (h : l.length = m.length) (n : ℕ) :
    ((l.zip m).take n).map Prod.fst = l.take n ∧ ((l.zip m).take n).map Prod.snd = m.take n := by
  rw [List.map_take, List.map_take, List.map_fst_zip h.le, List.map_snd_zip h.ge]
  exact ⟨rfl, rfl⟩

theorem drawn_first {curves mapped : List (List ℂ)} {colors : List String} (h : curves.length = mapped.length) :
    ([] ++ (curves.zip (mapped.zip (colors.take curves.length))).map fun q : List ℂ × List ℂ × String => lineOf q.1 q.2.2).map Line.points = curves.take colors.length := by
  rw [List.nil_append, List.map_map, ← (map_fst_zip_take h colors.length).1, ← zip_first h, List.map_map]
  exact List.map_congr_left fun q _ => lineOf_points _ _

theorem drawn_second {curves mapped : List (List ℂ)} {colors : List String} (h : curves.length = mapped.length) :
    ([] ++ (curves.zip (mapped.zip (colors.take curves.length))).map fun q : List ℂ × List ℂ × String => lineOf q.2.1 q.2.2).map Line.points = mapped.take colors.length := by
  rw [List.nil_append, List.map_map, ← (map_fst_zip_take h colors.length).2, ← zip_first h, List.map_map]
  exact List.map_congr_left fun q _ => lineOf_points _ _

theorem drawn_colors {curves mapped : List (List ℂ)} {colors : List String} (hd : colors.Nodup) :
    (([] ++ (curves.zip (mapped.zip (colors.take curves.length))).map fun q : List ℂ × List ℂ × String => lineOf q.1 q.2.2).map Line.color).Nodup := by
  rw [List.nil_append, List.map_map]
  refine List.Nodup.sublist ?_ hd
  show ((curves.zip (mapped.zip (colors.take curves.length))).map fun q => q.2.2).Sublist colors
  induction curves generalizing mapped colors with
  | nil => simp
  | cons c curves ih =>
    cases mapped with
    | nil => simp
    | cons m mapped =>
      cases colors with
      | nil => simp
      | cons k colors =>
        simp only [List.length_cons, List.take_succ_cons, List.zip_cons_cons, List.map_cons]
        exact (ih (List.nodup_cons.mp hd).2).cons_cons _

theorem wCurves_split : ∃ inside outside, wCurves = inside ++ outside ∧ inside.length = 3 ∧ outside.length = 3 ∧
    (∀ c ∈ inside, c.length = 890 ∧ ∀ w ∈ c, w ∈ LeftHalfDisk) ∧ (∀ c ∈ outside, c.length = 990 ∧ ∀ w ∈ c, 1 < ‖w‖ ∧ w.re < 0) := by
  refine ⟨_, _, rfl, by simp, by simp, ?_, ?_⟩
  · intro c hc
    obtain ⟨b, hb, rfl⟩ := List.mem_map.mp hc
    refine ⟨by simp [pyRange_length], fun w hw => ?_⟩
    obtain ⟨n, hn, rfl⟩ := List.mem_map.mp hw
    exact wInside (wBases b hb) hn
  · intro c hc
    obtain ⟨b, hb, rfl⟩ := List.mem_map.mp hc
    refine ⟨by simp [pyRange_length], fun w hw => ?_⟩
    obtain ⟨n, hn, rfl⟩ := List.mem_map.mp hw
    exact wOutside (wBases b hb) hn

theorem reciprocalCurves_split (m : ℤ) : ∃ inside outside, reciprocalCurves m = inside ++ outside ∧ inside.length = m.toNat ∧
    outside.length = m.toNat ∧ (∀ c ∈ inside, c.length = 89 ∧ ∀ z ∈ c, 0 < ‖z‖ ∧ ‖z‖ < 1) ∧
    (∀ c ∈ outside, c.length = 99 ∧ ∀ z ∈ c, 1 < ‖z‖) := by
  have hb : ∀ b ∈ (pyRange 0 m).map fun k : ℤ => Complex.exp (2 * I * Real.pi * k / m), ‖b‖ = 1 := by
    intro b hb
    obtain ⟨k, -, rfl⟩ := List.mem_map.mp hb
    rw [show 2 * I * Real.pi * k / m = I * ((2 * Real.pi * k / m : ℝ) : ℂ) by push_cast; ring]
    exact norm_exp_I _ (by simp)
  refine ⟨_, _, rfl, by simp [pyRange_length], by simp [pyRange_length], ?_, ?_⟩
  · intro c hc
    obtain ⟨b, hb', rfl⟩ := List.mem_map.mp hc
    refine ⟨by simp [pyRange_length], fun w hw => ?_⟩
    obtain ⟨n, hn, rfl⟩ := List.mem_map.mp hw
    obtain ⟨h1, h2⟩ := mem_pyRange.mp hn
    have h1 : (10 : ℝ) ≤ n := by exact_mod_cast h1
    have h2 : (n : ℝ) < 99 := by exact_mod_cast h2
    rw [show b * (n : ℂ) / 100 = b * ((n / 100 : ℝ) : ℂ) by push_cast; ring, norm_base_mul (hb b hb') (by linarith)]
    constructor <;> linarith
  · intro c hc
    obtain ⟨b, hb', rfl⟩ := List.mem_map.mp hc
    refine ⟨by simp [pyRange_length], fun w hw => ?_⟩
    obtain ⟨n, hn, rfl⟩ := List.mem_map.mp hw
    obtain ⟨h1, h2⟩ := mem_pyRange.mp hn
    have h1 : (1 : ℝ) ≤ n := by exact_mod_cast h1
    rw [show b * ((n : ℂ) + 10) / 10 = b * (((n + 10) / 10 : ℝ) : ℂ) by push_cast; ring, norm_base_mul (hb b hb') (by linarith)]
    linarith

theorem ne_of_offAxis {t : ℂ} (h : t.im ≠ 0) (x : ℝ) : t ≠ x := by rintro rfl; simp at h

theorem avoid_of_curves {t_0 t_in : ℝ} (h : t_0 < t_in) {c : List ℂ}
    (hc : OnAxis (· < t_0) c ∨ OnAxis (fun x => t_0 < x ∧ x < t_in) c ∨ OnAxis (t_in < ·) c ∨ OffAxis c) {t : ℂ} (ht : t ∈ c) :
    t ≠ t_0 ∧ t ≠ t_in := by
  rcases hc with hc | hc | hc | hc
  · obtain ⟨x, rfl, hx⟩ := hc t ht
    exact ⟨fun h' => hx.ne (by exact_mod_cast h'), fun h' => (hx.trans h).ne (by exact_mod_cast h')⟩
  · obtain ⟨x, rfl, hx⟩ := hc t ht
    exact ⟨fun h' => hx.1.ne' (by exact_mod_cast h'), fun h' => hx.2.ne (by exact_mod_cast h')⟩
  · obtain ⟨x, rfl, hx⟩ := hc t ht
    exact ⟨fun h' => (h.trans hx).ne' (by exact_mod_cast h'), fun h' => hx.ne' (by exact_mod_cast h')⟩
  · exact ⟨ne_of_offAxis (hc t ht) _, ne_of_offAxis (hc t ht) _⟩

theorem tCurves_avoid {t_0 t_in : ℝ} (h : t_0 < t_in) {c : List ℂ} (hc : c ∈ tCurves t_0 t_in) {t : ℂ} (ht : t ∈ c) :
    t ≠ t_0 ∧ t ≠ t_in := by
  refine avoid_of_curves h ?_ ht
  revert c
  suffices hall : ∀ c ∈ tCurves t_0 t_in, OnAxis (· < t_0) c ∨ OnAxis (fun x => t_0 < x ∧ x < t_in) c ∨ OnAxis (t_in < ·) c ∨ OffAxis c from
    fun c hc _ => hall c hc
  unfold tCurves
  refine List.forall_mem_cons.mpr ⟨.inl (curve_below t_0), List.forall_mem_cons.mpr ⟨.inr (.inl (curve_between h)),
    List.forall_mem_cons.mpr ⟨.inr (.inr (.inl (curve_above t_in))), List.forall_mem_cons.mpr ⟨.inr (.inr (.inr curve_54)),
    List.forall_mem_cons.mpr ⟨.inr (.inr (.inr curve_54')), List.forall_mem_cons.mpr ⟨.inr (.inr (.inr curve_20)),
    List.forall_mem_cons.mpr ⟨.inr (.inr (.inr curve_diagonal)), List.forall_mem_cons.mpr ⟨.inr (.inr (.inr curve_17)), ?_⟩⟩⟩⟩⟩⟩⟩⟩
  exact fun c hc => by cases hc

theorem variousCurves_avoid {t_0 t_in : ℝ} (h : t_0 < t_in) {c : List ℂ} (hc : c ∈ variousCurves t_0 t_in) {t : ℂ} (ht : t ∈ c) :
    t ≠ t_0 ∧ t ≠ t_in := by
  refine avoid_of_curves h ?_ ht
  revert c
  suffices hall : ∀ c ∈ variousCurves t_0 t_in, OnAxis (· < t_0) c ∨ OnAxis (fun x => t_0 < x ∧ x < t_in) c ∨ OnAxis (t_in < ·) c ∨
      OffAxis c from fun c hc _ => hall c hc
  unfold variousCurves
  refine List.forall_mem_cons.mpr ⟨.inl (curve_below t_0), List.forall_mem_cons.mpr ⟨.inr (.inl (curve_between h)),
    List.forall_mem_cons.mpr ⟨.inr (.inr (.inl (curve_above t_in))), List.forall_mem_cons.mpr ⟨.inr (.inr (.inr curve_20)),
    List.forall_mem_cons.mpr ⟨.inr (.inr (.inr curve_diagonal)), ?_⟩⟩⟩⟩⟩
  exact fun c hc => by cases hc

/-- The map from `t` raises nothing but `ZeroDivisionError`. -/
theorem TtoW_call_error {m : MapFromTtoW} {t : ℂ} {e : PyErr} (h : m.call t = .error e) : e = .zeroDivisionError := by
  have hdiv : ∀ {a b : ℂ} {e : PyErr}, pyDiv a b = .error e → e = .zeroDivisionError := by
    intro a b e h
    unfold pyDiv at h
    split_ifs at h
    injection h with h
    exact h.symm
  unfold MapFromTtoW.call at h
  dsimp only at h
  rcases hq : pyDiv (squareRoot (t - m.t_0) + m.a) (-squareRoot (t - m.t_0) + m.a) with e' | q
  · rw [hq] at h
    injection h with h
    rw [← h]; exact hdiv hq
  · rw [hq, except_ok_bind] at h
    exact hdiv h

theorem forall₂_exists {α β : Type} {R : α → β → Prop} {l : List α} {m : List β} (h : List.Forall₂ R l m) {a : α} (ha : a ∈ l) :
    ∃ b, R a b := by
  induction h with
  | nil => cases ha
  | cons h1 _ ih =>
    rcases List.mem_cons.mp ha with rfl | ha
    · exact ⟨_, h1⟩
    · exact ih ha

theorem Tval_reciprocal {t_0 t_in : ℝ} {w : ℂ} (hw : w ≠ 0) : Tval t_0 t_in (1 / w) = Tval t_0 t_in w := by
  unfold Tval
  congr 2
  field_simp
  ring

end UA
