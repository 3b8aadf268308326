import Verif.Spec.KaonRun
import Verif.Lemmas.KaonEval
import Verif.Lemmas.OtherModels
import Verif.Props.Components

/-!
Building and calling a kaon model of any class, and objects that can be built.
-/

namespace UA

open Complex ComplexConjugate Spec

/-- A witness that the hypotheses of the theorems below can be met: a buildable argument record of each class. -/
noncomputable def exampleFull : KaonArgs :=
  .full ⟨1, 2, 1, 3, 1, 2, 3, 4, 5, 6, 7, 8, 2, 1, 3, 1, 4, 1, 5, 1, 6, 1, 7, 1, 2, 1, 3, 1, 4, 1, 5, 1⟩

noncomputable def exampleB : KaonArgs :=
  .b ⟨1, 2, 1, 3, 1, 2, 3, 4, 5, 6, 2, 1, 3, 1, 4, 1, 5, 1, 6, 1, 2, 1, 3, 1, 4, 1⟩

noncomputable def exampleSimplified : KaonArgs :=
  .simplified ⟨1, 2, 1, 3, 1, 2, 3, 4, 5, 6, 2, 1, 3, 1, 4, 1, 5, 1, 6, 1, 2, 1, 3, 1, 4, 1⟩

/-- The same with zero widths. -/
noncomputable def exampleZeroWidth : KaonArgs :=
  .b ⟨1, 2, 1, 3, 1, 2, 3, 4, 5, 6, 2, 0, 3, 0, 4, 0, 5, 0, 6, 0, 2, 0, 3, 0, 4, 0⟩

theorem KaonArgs.run_view (x : KaonArgs) (ch : Bool) (t : ℂ) :
    x.run ch t = (do let k ← viewInit ch x.t0S x.tinS x.t0V x.tinV x.resS x.resV; k.call t) := by
  cases x with
  | full x =>
    have h := KaonUAModel.init_view ch x
    show (do let m ← KaonUAModel.init ch x; m.call t) = _
    unfold viewInit
    simp only [KaonArgs.t0S, KaonArgs.tinS, KaonArgs.t0V, KaonArgs.tinV, KaonArgs.resS, KaonArgs.resV]
    rw [← h]
    rcases KaonUAModel.init ch x with e | m
    · rfl
    · simp only [except_ok_bind, except_pure]; exact m.call_view t
  | b x =>
    have h := KaonUAModelB.init_view ch x
    show (do let m ← KaonUAModelB.init ch x; m.call t) = _
    unfold viewInit
    simp only [KaonArgs.t0S, KaonArgs.tinS, KaonArgs.t0V, KaonArgs.tinV, KaonArgs.resS, KaonArgs.resV]
    rw [← h]
    rcases KaonUAModelB.init ch x with e | m
    · rfl
    · simp only [except_ok_bind, except_pure]; exact m.call_view t
  | simplified x =>
    have h := KaonUAModelSimplified.init_view ch x
    show (do let m ← KaonUAModelSimplified.init ch x; m.call t) = _
    unfold viewInit
    simp only [KaonArgs.t0S, KaonArgs.tinS, KaonArgs.t0V, KaonArgs.tinV, KaonArgs.resS, KaonArgs.resV]
    rw [← h]
    rcases KaonUAModelSimplified.init ch x with e | m
    · rfl
    · simp only [except_ok_bind, except_pure]; exact m.call_view t

theorem KaonArgs.builds_iff (x : KaonArgs) (ch : Bool) :
    x.Builds ch ↔ ∃ k, viewInit ch x.t0S x.tinS x.t0V x.tinV x.resS x.resV = .ok k := by
  cases x with
  | full x =>
    have h := KaonUAModel.init_view ch x
    show (∃ m, KaonUAModel.init ch x = .ok m) ↔ _
    unfold viewInit
    simp only [KaonArgs.t0S, KaonArgs.tinS, KaonArgs.t0V, KaonArgs.tinV, KaonArgs.resS, KaonArgs.resV]
    rw [← h]
    rcases KaonUAModel.init ch x with e | m <;> simp
  | b x =>
    have h := KaonUAModelB.init_view ch x
    show (∃ m, KaonUAModelB.init ch x = .ok m) ↔ _
    unfold viewInit
    simp only [KaonArgs.t0S, KaonArgs.tinS, KaonArgs.t0V, KaonArgs.tinV, KaonArgs.resS, KaonArgs.resV]
    rw [← h]
    rcases KaonUAModelB.init ch x with e | m <;> simp
  | simplified x =>
    have h := KaonUAModelSimplified.init_view ch x
    show (∃ m, KaonUAModelSimplified.init ch x = .ok m) ↔ _
    unfold viewInit
    simp only [KaonArgs.t0S, KaonArgs.tinS, KaonArgs.t0V, KaonArgs.tinV, KaonArgs.resS, KaonArgs.resV]
    rw [← h]
    rcases KaonUAModelSimplified.init ch x with e | m <;> simp

theorem KaonArgs.get_view {x : KaonArgs} {ch : Bool} (h : x.Builds ch) :
    ∃ k, KBuilt k ch x.t0S x.tinS x.t0V x.tinV x.resS x.resV ∧ ∀ t, x.run ch t = k.call t := by
  obtain ⟨k, hk⟩ := (x.builds_iff ch).mp h
  refine ⟨k, viewInit_built hk, fun t => ?_⟩
  rw [x.run_view, hk, except_ok_bind]

theorem KaonArgs.sumS (x : KaonArgs) : (x.resS.map Res.a).sum = 1 / 2 := by
  cases x <;>
    simp [KaonArgs.resS, KaonUAModel.Args.resS, KaonUAModelB.Args.resS, KaonUAModelSimplified.Args.resS] <;> ring

theorem KaonArgs.sumV (x : KaonArgs) : (x.resV.map Res.a).sum = 1 / 2 := by
  cases x <;>
    simp [KaonArgs.resV, KaonUAModel.Args.resV, KaonUAModelB.Args.resV, KaonUAModelSimplified.Args.resV] <;> ring

/-- Construction does not look at the charge switch. -/
theorem KaonArgs.builds_charge (x : KaonArgs) (ch ch' : Bool) (h : x.Builds ch) : x.Builds ch' := by
  obtain ⟨k, hk⟩ := (x.builds_iff ch).mp h
  have b := viewInit_built hk
  refine (x.builds_iff ch').mpr ⟨⟨ch', k.mapS, k.mapV, k.termsS, k.termsV⟩, ?_⟩
  unfold viewInit
  rw [TtoW_init_ok b.h0S b.leS, TtoW_init_ok b.h0V b.leV, b.hS, b.hV, b.hmapS, b.hmapV]
  rfl

theorem builds_of_pos {x : KaonArgs} {ch : Bool} (h0S : 0 ≤ x.t0S) (h0V : 0 ≤ x.t0V) (hp : x.Proper)
    (hS : ∀ r ∈ x.resS, x.t0S < r.mass ^ 2 ∧ (r.decay ≠ 0 ∨ r.mass ^ 2 ≠ x.tinS))
    (hV : ∀ r ∈ x.resV, x.t0V < r.mass ^ 2 ∧ (r.decay ≠ 0 ∨ r.mass ^ 2 ≠ x.tinV)) : x.Builds ch := by
  have key : ∀ (t_0 t_in : ℝ), 0 ≤ t_0 → t_0 < t_in → ∀ r : Res,
      (t_0 < r.mass ^ 2 ∧ (r.decay ≠ 0 ∨ r.mass ^ 2 ≠ t_in)) → ∃ c, buildComponent t_0 t_in r.mass r.decay = .ok c := by
    intro t_0 t_in h0 h r hr
    have ht := C12_thresholds t_0 t_in r.mass r.decay h0 h
    by_cases hlt : r.mass ^ 2 < t_in
    · obtain ⟨c, hc, _⟩ := ht.2.2.1.mpr ⟨hr.1.le, hlt, fun h' => hr.1.ne' h'.2⟩
      exact ⟨c, hc⟩
    · obtain ⟨c, hc, _⟩ := ht.2.2.2.mpr ⟨not_lt.mp hlt, fun h' => by
        rcases hr.2 with h2 | h2
        · exact h2 h'.1
        · exact h2 h'.2⟩
      exact ⟨c, hc⟩
  obtain ⟨tS, htS⟩ := buildTerms_ok (t_0 := x.t0S) (t_in := x.tinS) (rs := x.resS)
    (fun r hr => key _ _ h0S hp.1 r (hS r hr))
  obtain ⟨tV, htV⟩ := buildTerms_ok (t_0 := x.t0V) (t_in := x.tinV) (rs := x.resV)
    (fun r hr => key _ _ h0V hp.2 r (hV r hr))
  refine (x.builds_iff ch).mpr ⟨⟨ch, mkTtoW x.t0S x.tinS, mkTtoW x.t0V x.tinV, tS, tV⟩, ?_⟩
  unfold viewInit
  rw [TtoW_init_ok h0S hp.1.le, TtoW_init_ok h0V hp.2.le, htS, htV]
  rfl

theorem FsumL_zero_width {t_0 t_in : ℝ} (h0 : 0 ≤ t_0) (h : t_0 < t_in) {rs : List Res} {ts : List (ℝ × UAComponent)}
    (hb : buildTerms t_0 t_in rs = .ok ts) (hz : ∀ r ∈ rs, r.decay = 0) {t : ℂ} (ht : t ≠ t_in)
    (htm : ∀ r ∈ rs, t ≠ (r.mass : ℂ) ^ 2) :
    FsumL t_0 t_in rs t = (rs.map (fun r => vmdTerm t ⟨r.a, r.mass⟩)).sum := by
  induction rs generalizing ts with
  | nil => simp [FsumL]
  | cons r rs ih =>
    obtain ⟨c, cs, h1, h2, rfl⟩ := buildTerms_cons hb
    have hd : r.decay = 0 := hz r (by simp)
    obtain ⟨B, hm⟩ := buildComponent_built h0 h h1
    have hpole : r.pole = ((r.mass ^ 2 : ℝ) : ℂ) := by rw [Res.pole, hd, tMesonPole_zero_width]
    have B0 : ((r.mass ^ 2 : ℝ) : ℂ) ≠ t_0 := by have := B.hp0; rwa [hd, tMesonPole_zero_width] at this
    have Bin : ((r.mass ^ 2 : ℝ) : ℂ) ≠ t_in := by have := B.hpin; rwa [hd, tMesonPole_zero_width] at this
    have hm' : t_0 < r.mass ^ 2 := lt_of_le_of_ne hm (fun h' => B0 (by rw [← h']))
    have hin' : r.mass ^ 2 ≠ t_in := fun h' => Bin (by rw [h'])
    have htm' : t ≠ ((r.mass ^ 2 : ℝ) : ℂ) := by push_cast; exact htm r (by simp)
    have e := ih h2 (fun r hr => hz r (by simp [hr])) (fun r hr => htm r (by simp [hr]))
    simp only [FsumL, List.map_cons, List.sum_cons] at e ⊢
    rw [e]
    congr 1
    rw [Res.var, hpole, Fval_zero_width h0 h hm' hin' ht htm', vmdTerm]
    push_cast
    rw [mul_div_assoc]

theorem exampleFull_builds : exampleFull.Builds true ∧ exampleFull.Proper := by
  have hp : exampleFull.Proper := by constructor <;> norm_num [exampleFull, KaonArgs.t0S, KaonArgs.tinS, KaonArgs.t0V, KaonArgs.tinV]
  refine ⟨builds_of_pos ?_ ?_ hp ?_ ?_, hp⟩ <;>
    simp [exampleFull, KaonArgs.t0S, KaonArgs.tinS, KaonArgs.t0V, KaonArgs.tinV, KaonArgs.resS, KaonArgs.resV,
      KaonUAModel.Args.resS, KaonUAModel.Args.resV] <;> norm_num

theorem exampleSimplified_builds : exampleSimplified.Builds false ∧ exampleSimplified.Proper := by
  have hp : exampleSimplified.Proper := by
    constructor <;> norm_num [exampleSimplified, KaonArgs.t0S, KaonArgs.tinS, KaonArgs.t0V, KaonArgs.tinV]
  refine ⟨builds_of_pos ?_ ?_ hp ?_ ?_, hp⟩ <;>
    simp [exampleSimplified, KaonArgs.t0S, KaonArgs.tinS, KaonArgs.t0V, KaonArgs.tinV, KaonArgs.resS, KaonArgs.resV,
      KaonUAModelSimplified.Args.resS, KaonUAModelSimplified.Args.resV] <;> norm_num

theorem exampleZeroWidth_builds : exampleZeroWidth.Builds true ∧ exampleZeroWidth.Proper ∧ exampleZeroWidth.ZeroWidth := by
  have hp : exampleZeroWidth.Proper := by
    constructor <;> norm_num [exampleZeroWidth, KaonArgs.t0S, KaonArgs.tinS, KaonArgs.t0V, KaonArgs.tinV]
  refine ⟨builds_of_pos ?_ ?_ hp ?_ ?_, hp, ?_⟩ <;>
    simp [exampleZeroWidth, KaonArgs.t0S, KaonArgs.tinS, KaonArgs.t0V, KaonArgs.tinV, KaonArgs.resS, KaonArgs.resV,
      KaonUAModelB.Args.resS, KaonUAModelB.Args.resV, KaonArgs.ZeroWidth] <;> norm_num

/-- `init` with the other switch is the same object with the switch set. -/
theorem KaonUAModel.init_switch {x : KaonUAModel.Args} {m : KaonUAModel} {b : Bool} (h : KaonUAModel.init b x = .ok m) (c : Bool) :
    KaonUAModel.init c x = .ok { m with charged_variant := c } := by
  unfold KaonUAModel.init at h ⊢
  simp only [except_bind_eq_ok] at h
  obtain ⟨_, h1, _, h2, _, h3, _, h4, _, h5, _, h6, _, h7, _, h8, _, h9, _, h10, _, h11, _, h12, h⟩ := h
  injection h with h
  subst h
  simp only [h1, h2, h3, h4, h5, h6, h7, h8, h9, h10, h11, h12, except_ok_bind]
  rfl

theorem KaonUAModelB.init_switch {x : KaonUAModelB.Args} {m : KaonUAModelB} {b : Bool} (h : KaonUAModelB.init b x = .ok m) (c : Bool) :
    KaonUAModelB.init c x = .ok { m with charged_variant := c } := by
  unfold KaonUAModelB.init at h ⊢
  simp only [except_bind_eq_ok] at h
  obtain ⟨_, h1, _, h2, _, h3, _, h4, _, h5, _, h6, _, h7, _, h8, _, h9, _, h10, h⟩ := h
  injection h with h
  subst h
  simp only [h1, h2, h3, h4, h5, h6, h7, h8, h9, h10, except_ok_bind]
  rfl

theorem KaonUAModelSimplified.init_switch {x : KaonUAModelSimplified.Args} {m : KaonUAModelSimplified} {b : Bool}
    (h : KaonUAModelSimplified.init b x = .ok m) (c : Bool) :
    KaonUAModelSimplified.init c x = .ok { m with charged_variant := c } := by
  unfold KaonUAModelSimplified.init at h ⊢
  simp only [except_bind_eq_ok] at h
  obtain ⟨_, h1, _, h2, _, h3, _, h4, _, h5, _, h6, _, h7, _, h8, _, h9, _, h10, h⟩ := h
  injection h with h
  subst h
  simp only [h1, h2, h3, h4, h5, h6, h7, h8, h9, h10, except_ok_bind]
  rfl

end UA
