import Verif.Conformance.EvalNucleon
import Verif.Lemmas.SquareRootCont
import Verif.Lemmas.Utils
import Mathlib.Analysis.Real.Pi.Bounds

/-!
# Numerical evaluation of the cross sections
-/

namespace UA
namespace Ball

open Complex ComplexConjugate

/-- Enclosure of `π`. -/
def piB : Ball := ⟨314159265358979323846 * S / 10 ^ 20, 0, S / 10 ^ 20 + 2, true, true⟩

theorem mem_pi : Mem (Real.pi : ℂ) piB := by
  intro _
  refine ⟨?_, fun _ => by simp⟩
  have h1 := Real.pi_gt_d20
  have h2 := Real.pi_lt_d20
  have e1 : (piB.re : ℝ) = 4175892906503776358823362798604852770 := by norm_num [piB, S]
  have e2 : (piB.rad : ℝ) = 13292279957849160 := by norm_num [piB, S]
  have e3 : (Real.pi : ℂ) * S - piB.c = ((Real.pi * S - piB.re : ℝ) : ℂ) := by
    apply Complex.ext <;> simp [Ball.c, gi, piB]
  rw [e3, Complex.norm_real, Real.norm_eq_abs, e1, e2, abs_le]
  have e4 : (S : ℝ) = 1329227995784915872903807060280344576 := by norm_num [S]
  rw [e4]
  constructor <;> nlinarith

/-- The squared absolute value. -/
def nsq (a : Ball) : Ball := ⟨(a * a.conjB).re, (a * a.conjB).im, (a * a.conjB).rad, true, (a * a.conjB).ok⟩

theorem Mem.nsq {x : ℂ} {a : Ball} (h : Mem x a) : Mem ((‖x‖ : ℂ) ^ 2) a.nsq := by
  intro hok
  have := (h.mul h.conj) hok
  have e : x * conj x = (‖x‖ : ℂ) ^ 2 := Complex.mul_conj' x
  rw [e] at this
  refine ⟨this.1, fun _ => ?_⟩
  rw [← Complex.ofReal_pow, Complex.ofReal_im]

theorem Mem.rsqrt {x : ℝ} {a : Ball} (h : Mem (x : ℂ) a) (hx : 0 ≤ x) (u : ℤ) : Mem (Real.sqrt x : ℂ) (a.sqrt u 0) := by
  have := h.sqrt u 0
  rw [squareRoot_ofReal hx] at this
  exact this

theorem Mem.norm {x : ℂ} {a : Ball} (h : Mem x a) (u : ℤ) : Mem (‖x‖ : ℂ) (a.nsq.sqrt u 0) := by
  have := h.nsq
  rw [← Complex.ofReal_pow] at this
  have := this.rsqrt (sq_nonneg _) u
  rwa [Real.sqrt_sq (norm_nonneg x)] at this

theorem le_norm {a x y : ℝ} (ha : 0 ≤ a) (h : a ^ 2 ≤ x ^ 2 + y ^ 2) : a ≤ ‖(⟨x, y⟩ : ℂ)‖ := by
  rw [Complex.norm_def, Complex.normSq_mk]
  exact Real.le_sqrt_of_sq_le (by nlinarith)

/-! ### `ScalarMesonProductionTotalCrossSection` -/

theorem cpow_three_halves {z : ℂ} : z ^ (3 / 2 : ℂ) = z * z ^ (1 / 2 : ℂ) := by
  by_cases h : z = 0
  · subst h; rw [zero_mul, Complex.zero_cpow (by norm_num)]
  · rw [show (3 / 2 : ℂ) = 1 + 1 / 2 by norm_num, Complex.cpow_add _ _ h, Complex.cpow_one]

theorem cpow_half_lower {z : ℂ} (h : z.im < 0) : z ^ (1 / 2 : ℂ) = -squareRoot z := by
  have h1 : 0 ≤ (conj z).im := by rw [Complex.conj_im]; linarith
  have h2 := squareRoot_eq_cpow_upper h1
  have harg : z.arg ≠ Real.pi := fun e => by
    have := (Complex.arg_eq_pi_iff.mp e).2
    linarith
  have h3 : conj (z ^ (1 / 2 : ℂ)) = squareRoot (conj z) := by
    rw [h2, Complex.conj_cpow _ _ harg, show conj (1 / 2 : ℂ) = 1 / 2 by
      rw [map_div₀, map_one]; congr 1; exact Complex.conj_ofNat 2]
  have h4 : squareRoot (conj z) = -conj (squareRoot z) := by
    apply squareRoot_conj
    exact fun hh => by linarith [hh.1]
  have h5 := congrArg conj (h3.trans h4)
  simpa using h5

/-- The factor `(1 - 4 m² / t) ** (3/2)`; `lower`: the point lies below the real axis. -/
def phaseB (M T : Ball) (lower : Bool) (u v : ℤ) : Ball :=
  let z := one - (two + two) * (M * M) / T
  z * (if lower then -(z.sqrt u v) else z.sqrt u v)

theorem phase_im (m : ℝ) (t : ℂ) : (1 - (4 * m ^ 2 : ℝ) / t : ℂ).im = 4 * m ^ 2 / normSq t * t.im := by
  rw [Complex.sub_im, Complex.one_im, zero_sub, Complex.div_im, Complex.ofReal_re, Complex.ofReal_im]
  ring

theorem mem_phase {m : ℝ} {t : ℂ} {M T : Ball} (hm : Mem m M) (ht : Mem t T) (hm0 : m ≠ 0) (ht0 : t ≠ 0) (lower : Bool)
    (h : if lower then t.im < 0 else 0 ≤ t.im) (u v : ℤ) :
    Mem ((1 - ((4 * m ^ 2 : ℝ) : ℂ) / t) ^ (3 / 2 : ℂ)) (phaseB M T lower u v) := by
  set z := (1 - ((4 * m ^ 2 : ℝ) : ℂ) / t) with hz
  have hmem : Mem z (one - (two + two) * (M * M) / T) := by
    have := mem_one.sub (((mem_two.add mem_two).mul (hm.mul hm)).div ht)
    have e : (1 : ℂ) - (2 + 2) * ((m : ℂ) * m) / t = z := by rw [hz]; push_cast; ring
    rwa [e] at this
  have hpos : 0 < 4 * m ^ 2 / normSq t := by
    have := Complex.normSq_pos.mpr ht0
    positivity
  rw [cpow_three_halves]
  refine hmem.mul ?_
  cases lower
  · have : 0 ≤ z.im := by rw [hz, phase_im]; exact mul_nonneg hpos.le (by simpa using h)
    rw [← squareRoot_eq_cpow_upper this]
    exact hmem.sqrt u v
  · have : z.im < 0 := by rw [hz, phase_im]; exact mul_neg_of_pos_of_neg hpos (by simpa using h)
    rw [cpow_half_lower this]
    exact (hmem.sqrt u v).neg

def scalarB (M AL HC F T : Ball) (lower : Bool) (u v : ℤ) : Ball :=
  HC * piB * (AL * AL) / (one + two) / T * phaseB M T lower u v * F.nsq

theorem scalar_close {m al hc : ℝ} {ff : ℂ → Except PyErr ℂ} {t y e : ℂ} {M AL HC F T E : Ball} (hm : Mem m M) (hal : Mem al AL)
    (hhc : Mem hc HC) (hy : ff t = .ok y) (hF : Mem y F) (ht : Mem t T) (he : Mem e E) (hm0 : m ≠ 0) (lower : Bool)
    (hl : if lower then t.im < 0 else 0 ≤ t.im) (u v : ℤ) (h : (T.away && closeB (scalarB M AL HC F T lower u v) E) = true) :
    ∃ y, (ScalarCS.init m al hc).call ff t = .ok y ∧ IsClose y e 1e-15 := by
  rw [Bool.and_eq_true] at h
  have ht0 := ht.of_away h.1
  refine ⟨((hc * Real.pi * al ^ 2 / 3 : ℝ) : ℂ) / t * (1 - ((4 * m ^ 2 : ℝ) : ℂ) / t) ^ (3 / 2 : ℂ) * (‖y‖ : ℂ) ^ 2, ?_,
    Mem.close ?_ he h.2 _⟩
  · unfold ScalarCS.call
    rw [hy]
    simp only [except_ok_bind, ScalarCS.init, pyDiv_ok ht0]
    rfl
  · have h1 := ((((hhc.mul mem_pi).mul (hal.mul hal)).div (mem_one.add mem_two)).div ht).mul (mem_phase hm ht hm0 ht0 lower hl u v)
    have e1 : (hc : ℂ) * Real.pi * ((al : ℂ) * al) / (1 + 2) = ((hc * Real.pi * al ^ 2 / 3 : ℝ) : ℂ) := by push_cast; ring
    rw [e1] at h1
    exact h1.mul hF.nsq

/-! ### `NucleonPairToElectronPositronTotalCrossSection` -/

def nucCSB (M AL HC GE GM T : Ball) (u v : ℤ) : Ball :=
  let r := (two + two) * (M * M) / T.nsq.sqrt u 0
  HC * (two + two) * piB * (AL * AL) / (one + two) * (one - r).sqrt v 0 / T * (GM.nsq + (two + two) * (M * M) * GE.nsq / (two * T))

theorem formula_value {m al hc : ℝ} {t GE GM : ℂ} {M AL HC E0 M0 T : Ball} (hm : Mem m M) (hal : Mem al AL) (hhc : Mem hc HC)
    (hE : Mem GE E0) (hM : Mem GM M0) (ht : Mem t T) (hbeta : 4 * m ^ 2 ≤ ‖t‖) (hT : T.away = true) (u v : ℤ) :
    ∃ y, (NucleonCS.init m al hc).formula t ‖GE‖ ‖GM‖ = .ok y ∧ Mem y (nucCSB M AL HC E0 M0 T u v) := by
  have ht0 := ht.of_away hT
  have hn : ‖t‖ ≠ 0 := norm_ne_zero_iff.mpr ht0
  have hnp : 0 < ‖t‖ := norm_pos_iff.mpr ht0
  have hb : 0 ≤ 1 - 4 * m ^ 2 / ‖t‖ := by rw [sub_nonneg, div_le_one hnp]; exact hbeta
  refine ⟨((hc * 4 * Real.pi * al ^ 2 / 3 * Real.sqrt (1 - 4 * m ^ 2 / ‖t‖) : ℝ) : ℂ) / t *
    ((‖GM‖ : ℂ) ^ 2 + ((4 * m ^ 2 * ‖GE‖ ^ 2 : ℝ) : ℂ) / (2 * t)), ?_, ?_⟩
  · unfold NucleonCS.formula
    simp only [NucleonCS.init, pyDivR_ok hn, except_ok_bind, pySqrt, if_neg (not_lt.mpr hb), pyDiv_ok ht0,
      pyDiv_ok (mul_ne_zero two_ne_zero ht0)]
    rfl
  · have f4 : Mem ((4 * m ^ 2 : ℝ) : ℂ) ((two + two) * (M * M)) := by
      have := (mem_two.add mem_two).mul (hm.mul hm)
      have e : ((2 : ℂ) + 2) * ((m : ℂ) * m) = ((4 * m ^ 2 : ℝ) : ℂ) := by push_cast; ring
      rwa [e] at this
    have r1 := mem_one.sub (f4.div (ht.norm u))
    have e1 : (1 : ℂ) - ((4 * m ^ 2 : ℝ) : ℂ) / (‖t‖ : ℂ) = ((1 - 4 * m ^ 2 / ‖t‖ : ℝ) : ℂ) := by push_cast; ring
    rw [e1] at r1
    have r2 := r1.rsqrt hb v
    have c1 := ((((hhc.mul (mem_two.add mem_two)).mul mem_pi).mul (hal.mul hal)).div (mem_one.add mem_two)).mul r2
    have e2 : (hc : ℂ) * (2 + 2) * Real.pi * ((al : ℂ) * al) / (1 + 2) * (Real.sqrt (1 - 4 * m ^ 2 / ‖t‖) : ℂ) =
        ((hc * 4 * Real.pi * al ^ 2 / 3 * Real.sqrt (1 - 4 * m ^ 2 / ‖t‖) : ℝ) : ℂ) := by push_cast; ring
    rw [e2] at c1
    have d1 := (f4.mul hE.nsq).div (mem_two.mul ht)
    have e3 : ((4 * m ^ 2 : ℝ) : ℂ) * (‖GE‖ : ℂ) ^ 2 = ((4 * m ^ 2 * ‖GE‖ ^ 2 : ℝ) : ℂ) := by push_cast; ring
    rw [e3] at d1
    exact (c1.div ht).mul (hM.nsq.add d1)

/-- The form-factor object `lambda t: t` of the test; assigning an attribute to it changes nothing. -/
def identityFF : FormFactorObject Unit where
  setElectric _ s := s
  call s t := (.ok t, s)

theorem nucCS_identity {m al hc : ℝ} {t e : ℂ} {M AL HC T E : Ball} (hm : Mem m M) (hal : Mem al AL) (hhc : Mem hc HC)
    (ht : Mem t T) (he : Mem e E) (hbeta : 4 * m ^ 2 ≤ ‖t‖) (u v : ℤ) (h : (T.away && closeB (nucCSB M AL HC T T T u v) E) = true) :
    ∃ y, ((NucleonCS.init m al hc).call identityFF () t).1 = .ok y ∧ IsClose y e 1e-15 := by
  rw [Bool.and_eq_true] at h
  obtain ⟨y, hy, hY⟩ := formula_value hm hal hhc ht ht ht hbeta h.1 u v
  refine ⟨y, ?_, hY.close he h.2 _⟩
  rw [NucleonCS.call_fst]
  exact hy

theorem nucCS_close {x : NucleonArgs} {d : NData} (o : NOK .new x d) (hx : x.Proper) (hb : ∀ electric, NucleonClass.new.Builds true electric x)
    {mdl : NucleonUAModel} {electric : Bool} (hmdl : NucleonUAModel.init true electric x = .ok mdl)
    {m al hc : ℝ} {t e : ℂ} {M AL HC GE GM T E : Ball} (hm : Mem m M) (hal : Mem al AL) (hhc : Mem hc HC)
    (ht : Mem t T) (he : Mem e E) (hre : 0 ≤ t.re) (hbeta : 4 * m ^ 2 ≤ ‖t‖) (c : Cert4) (u v : ℤ)
    (hE : (nucB d true true T c).within GE = true) (hM : (nucB d true false T c).within GM = true)
    (h : (nucRegular d T && T.away && closeB (nucCSB M AL HC GE GM T u v) E) = true) :
    ∃ y, ((NucleonCS.init m al hc).call nucleonFF mdl t).1 = .ok y ∧ IsClose y e 1e-15 := by
  simp only [Bool.and_eq_true] at h
  obtain ⟨⟨h1, h2⟩, h3⟩ := h
  obtain ⟨ge, r1, m1⟩ := nuc_value o hx (hb true) hre ht c h1
  obtain ⟨gm, r2, m2⟩ := nuc_value o hx (hb false) hre ht c h1
  obtain ⟨y, hy, hY⟩ := formula_value hm hal hhc (m1.within hE) (m2.within hM) ht hbeta h2 u v
  refine ⟨y, ?_, hY.close he h3 _⟩
  rw [(NucleonFrom.fresh hmdl).cs]
  have hp : mdl.proton = true := by
    obtain ⟨b, _⟩ := new_init_built hx hmdl
    exact b.hp
  rw [hp, r1, except_ok_bind, r2, except_ok_bind]
  exact hy

end Ball
end UA
