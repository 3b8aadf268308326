import Verif.Lemmas.KaonView
import Verif.Lemmas.ComponentsAnalytic

/-! Evaluating lists of resonance terms. -/

namespace UA

open Complex ComplexConjugate

/-- The pole of a resonance. -/
noncomputable def Res.pole (r : Res) : ℂ := tMesonPole r.mass r.decay

/-- The variant used for a resonance. -/
noncomputable def Res.var (t_in : ℝ) (r : Res) : Variant := if r.mass ^ 2 < t_in then .A else .B

/-- `Σ aᵢ Fᵢ(t)`. -/
noncomputable def FsumL (t_0 t_in : ℝ) (rs : List Res) (t : ℂ) : ℂ :=
  (rs.map (fun r => (r.a : ℂ) * Fval (r.var t_in) t_0 t_in r.pole t)).sum

theorem except_bind_error_iff {α β : Type} {x : Except PyErr α} {f : α → Except PyErr β} {e : PyErr} :
    (x >>= f) = .error e ↔ x = .error e ∨ ∃ a, x = .ok a ∧ f a = .error e := by
  cases x <;> simp

theorem buildTerms_cons {t_0 t_in : ℝ} {r : Res} {rs : List Res} {ts : List (ℝ × UAComponent)}
    (h : buildTerms t_0 t_in (r :: rs) = .ok ts) :
    ∃ c cs, buildComponent t_0 t_in r.mass r.decay = .ok c ∧ buildTerms t_0 t_in rs = .ok cs ∧ ts = (r.a, c) :: cs := by
  simp only [buildTerms] at h
  rcases h1 : buildComponent t_0 t_in r.mass r.decay with e | c
  · rw [h1] at h; cases h
  · rw [h1, except_ok_bind] at h
    rcases h2 : buildTerms t_0 t_in rs with e | cs
    · rw [h2] at h; cases h
    · rw [h2, except_ok_bind, except_pure] at h
      injection h with h
      exact ⟨c, cs, rfl, rfl, h.symm⟩

theorem buildTerms_mem {t_0 t_in : ℝ} {rs : List Res} {ts : List (ℝ × UAComponent)}
    (h : buildTerms t_0 t_in rs = .ok ts) : ∀ r ∈ rs, ∃ c, buildComponent t_0 t_in r.mass r.decay = .ok c := by
  induction rs generalizing ts with
  | nil => simp
  | cons r rs ih =>
    obtain ⟨c, cs, h1, h2, _⟩ := buildTerms_cons h
    intro r' hr'
    rcases List.mem_cons.mp hr' with rfl | h'
    · exact ⟨c, h1⟩
    · exact ih h2 r' h'

theorem buildTerms_ok {t_0 t_in : ℝ} {rs : List Res}
    (h : ∀ r ∈ rs, ∃ c, buildComponent t_0 t_in r.mass r.decay = .ok c) : ∃ ts, buildTerms t_0 t_in rs = .ok ts := by
  induction rs with
  | nil => exact ⟨_, rfl⟩
  | cons r rs ih =>
    obtain ⟨c, hc⟩ := h r (by simp)
    obtain ⟨ts, hts⟩ := ih (fun r hr => h r (by simp [hr]))
    exact ⟨(r.a, c) :: ts, by simp [buildTerms, hc, hts]⟩

theorem evalTerms_ok {t_0 t_in : ℝ} (h0 : 0 ≤ t_0) (h : t_0 < t_in) {rs : List Res} {ts : List (ℝ × UAComponent)}
    (hb : buildTerms t_0 t_in rs = .ok ts) {t : ℂ} (ht : t ≠ t_in)
    (hp : ∀ r ∈ rs, t ≠ r.pole ∧ t ≠ conj r.pole) :
    evalTerms ts (Wval t_0 t_in t) = .ok (FsumL t_0 t_in rs t) := by
  induction rs generalizing ts with
  | nil =>
    simp only [buildTerms] at hb
    injection hb with hb
    subst hb
    simp [evalTerms, FsumL]
  | cons r rs ih =>
    obtain ⟨c, cs, h1, h2, rfl⟩ := buildTerms_cons hb
    have B := (buildComponent_built h0 h h1).1
    have hr := hp r (by simp)
    simp only [evalTerms]
    rw [B.call_ok ht hr.1 hr.2, ih h2 (fun r' hr' => hp r' (by simp [hr']))]
    simp only [except_ok_bind, except_pure, FsumL, List.map_cons, List.sum_cons]
    rfl

theorem evalTerms_error {t_0 t_in : ℝ} (h0 : 0 ≤ t_0) (h : t_0 < t_in) {rs : List Res} {ts : List (ℝ × UAComponent)}
    (hb : buildTerms t_0 t_in rs = .ok ts) {t : ℂ} (ht : t ≠ t_in)
    (hp : ∃ r ∈ rs, t = r.pole ∨ t = conj r.pole) :
    evalTerms ts (Wval t_0 t_in t) = .error .zeroDivisionError := by
  induction rs generalizing ts with
  | nil => simp at hp
  | cons r rs ih =>
    obtain ⟨c, cs, h1, h2, rfl⟩ := buildTerms_cons hb
    have B := (buildComponent_built h0 h h1).1
    simp only [evalTerms]
    by_cases hr : t = r.pole ∨ t = conj r.pole
    · rw [B.call_error ht hr]; rfl
    · have hr' := not_or.mp hr
      have hex : ∃ r ∈ rs, t = r.pole ∨ t = conj r.pole := by
        obtain ⟨r', hm, h'⟩ := hp
        rcases List.mem_cons.mp hm with rfl | hm
        · exact absurd h' hr
        · exact ⟨r', hm, h'⟩
      rw [B.call_ok ht hr'.1 hr'.2, ih h2 hex]
      rfl

theorem FsumL_zero {t_0 t_in : ℝ} (h0 : 0 ≤ t_0) (h : t_0 < t_in) {rs : List Res} {ts : List (ℝ × UAComponent)}
    (hb : buildTerms t_0 t_in rs = .ok ts) : FsumL t_0 t_in rs 0 = ((rs.map Res.a).sum : ℝ) := by
  induction rs generalizing ts with
  | nil => simp [FsumL]
  | cons r rs ih =>
    obtain ⟨c, cs, h1, h2, rfl⟩ := buildTerms_cons hb
    have B := (buildComponent_built h0 h h1).1
    have e := ih h2
    simp only [FsumL, List.map_cons, List.sum_cons] at e ⊢
    rw [e, show Fval (r.var t_in) t_0 t_in r.pole 0 = 1 from B.Fval_zero]
    push_cast; ring

theorem FsumL_conj {t_0 t_in : ℝ} (h0 : 0 ≤ t_0) (h : t_0 < t_in) (rs : List Res) {t : ℂ}
    (ht : ¬ (t.im = 0 ∧ t_0 ≤ t.re)) : FsumL t_0 t_in rs (conj t) = conj (FsumL t_0 t_in rs t) := by
  induction rs with
  | nil => simp [FsumL]
  | cons r rs ih =>
    simp only [FsumL, List.map_cons, List.sum_cons, map_add, map_mul, conj_ofReal] at ih ⊢
    rw [ih, Fval_conj h0 h ht]

theorem FsumL_real {t_0 t_in x : ℝ} (h0 : 0 ≤ t_0) (h : t_0 < t_in) (rs : List Res) (hx : x ≤ t_0) :
    conj (FsumL t_0 t_in rs x) = FsumL t_0 t_in rs x := by
  induction rs with
  | nil => simp [FsumL]
  | cons r rs ih =>
    simp only [FsumL, List.map_cons, List.sum_cons, map_add, map_mul, conj_ofReal] at ih ⊢
    rw [ih, Fval_real h0 h hx]

theorem pole_ne_zero {t_0 t_in : ℝ} (h0 : 0 ≤ t_0) (h : t_0 < t_in) {rs : List Res} {ts : List (ℝ × UAComponent)}
    (hb : buildTerms t_0 t_in rs = .ok ts) : ∀ r ∈ rs, (0 : ℂ) ≠ r.pole ∧ (0 : ℂ) ≠ conj r.pole := by
  intro r hr
  obtain ⟨c, hc⟩ := buildTerms_mem hb r hr
  have B := (buildComponent_built h0 h hc).1
  refine ⟨Ne.symm B.hpz, fun h' => B.hpz ?_⟩
  have : conj r.pole = 0 := h'.symm
  simpa [Res.pole] using this

/-- A successfully built view. -/
structure KBuilt (k : KView) (ch : Bool) (t0S tinS t0V tinV : ℝ) (rS rV : List Res) : Prop where
  hch : k.charged = ch
  h0S : 0 ≤ t0S
  h0V : 0 ≤ t0V
  leS : t0S ≤ tinS
  leV : t0V ≤ tinV
  hmapS : k.mapS = mkTtoW t0S tinS
  hmapV : k.mapV = mkTtoW t0V tinV
  hS : buildTerms t0S tinS rS = .ok k.termsS
  hV : buildTerms t0V tinV rV = .ok k.termsV

noncomputable def viewInit (ch : Bool) (t0S tinS t0V tinV : ℝ) (rS rV : List Res) : Except PyErr KView := do
  let mapS ← MapFromTtoW.init t0S tinS
  let mapV ← MapFromTtoW.init t0V tinV
  let termsS ← buildTerms t0S tinS rS
  let termsV ← buildTerms t0V tinV rV
  return (⟨ch, mapS, mapV, termsS, termsV⟩ : KView)

theorem viewInit_built {ch : Bool} {t0S tinS t0V tinV : ℝ} {rS rV : List Res} {k : KView}
    (h : viewInit ch t0S tinS t0V tinV rS rV = .ok k) : KBuilt k ch t0S tinS t0V tinV rS rV := by
  unfold viewInit at h
  rw [except_bind_eq_ok] at h
  obtain ⟨mS, hmS, h⟩ := h
  rw [except_bind_eq_ok] at h
  obtain ⟨mV, hmV, h⟩ := h
  rw [except_bind_eq_ok] at h
  obtain ⟨tS, htS, h⟩ := h
  rw [except_bind_eq_ok] at h
  obtain ⟨tV, htV, h⟩ := h
  rw [except_pure] at h
  injection h with h
  obtain ⟨a1, a2, a3⟩ := TtoW_init_eq_ok hmS
  obtain ⟨b1, b2, b3⟩ := TtoW_init_eq_ok hmV
  subst h
  exact ⟨rfl, a1, b1, a2, b2, a3, b3, htS, htV⟩

section
variable {k : KView} {ch : Bool} {t0S tinS t0V tinV : ℝ} {rS rV : List Res}

theorem KBuilt.evalS_ok (b : KBuilt k ch t0S tinS t0V tinV rS rV) (hS : t0S < tinS) {t : ℂ} (ht : t ≠ tinS)
    (hp : ∀ r ∈ rS, t ≠ r.pole ∧ t ≠ conj r.pole) : k.evalS t = .ok (FsumL t0S tinS rS t) := by
  rw [KView.evalS, b.hmapS, TtoW_call_ok hS ht, except_ok_bind, evalTerms_ok b.h0S hS b.hS ht hp]

theorem KBuilt.evalV_ok (b : KBuilt k ch t0S tinS t0V tinV rS rV) (hV : t0V < tinV) {t : ℂ} (ht : t ≠ tinV)
    (hp : ∀ r ∈ rV, t ≠ r.pole ∧ t ≠ conj r.pole) : k.evalV t = .ok (FsumL t0V tinV rV t) := by
  rw [KView.evalV, b.hmapV, TtoW_call_ok hV ht, except_ok_bind, evalTerms_ok b.h0V hV b.hV ht hp]

theorem KBuilt.evalS_error (b : KBuilt k ch t0S tinS t0V tinV rS rV) (hS : t0S < tinS) {t : ℂ}
    (hp : t = tinS ∨ ∃ r ∈ rS, t = r.pole ∨ t = conj r.pole) : k.evalS t = .error .zeroDivisionError := by
  rw [KView.evalS, b.hmapS]
  by_cases ht : t = tinS
  · rw [ht, TtoW_call_tin b.leS]; rfl
  · rw [TtoW_call_ok hS ht, except_ok_bind, evalTerms_error b.h0S hS b.hS ht (hp.resolve_left ht)]

theorem KBuilt.evalV_error (b : KBuilt k ch t0S tinS t0V tinV rS rV) (hV : t0V < tinV) {t : ℂ}
    (hp : t = tinV ∨ ∃ r ∈ rV, t = r.pole ∨ t = conj r.pole) : k.evalV t = .error .zeroDivisionError := by
  rw [KView.evalV, b.hmapV]
  by_cases ht : t = tinV
  · rw [ht, TtoW_call_tin b.leV]; rfl
  · rw [TtoW_call_ok hV ht, except_ok_bind, evalTerms_error b.h0V hV b.hV ht (hp.resolve_left ht)]

/-- Points where the form factor has no value. -/
def Singular (tinS tinV : ℝ) (rS rV : List Res) (t : ℂ) : Prop :=
  t = tinS ∨ t = tinV ∨ ∃ r ∈ rS ++ rV, t = r.pole ∨ t = conj r.pole

theorem not_singular {t : ℂ} (h : ¬ Singular tinS tinV rS rV t) :
    t ≠ tinS ∧ t ≠ tinV ∧ (∀ r ∈ rS, t ≠ r.pole ∧ t ≠ conj r.pole) ∧ (∀ r ∈ rV, t ≠ r.pole ∧ t ≠ conj r.pole) := by
  unfold Singular at h
  push Not at h
  exact ⟨h.1, h.2.1, fun r hr => h.2.2 r (by simp [hr]), fun r hr => h.2.2 r (by simp [hr])⟩

theorem KBuilt.call_ok (b : KBuilt k ch t0S tinS t0V tinV rS rV) (hS : t0S < tinS) (hV : t0V < tinV) {t : ℂ}
    (hre : 0 ≤ t.re) (hp : ¬ Singular tinS tinV rS rV t) :
    k.call t = .ok (FsumL t0S tinS rS t + (if ch then 1 else -1) * FsumL t0V tinV rV t) := by
  obtain ⟨h1, h2, h3, h4⟩ := not_singular hp
  simp only [KView.call, not_lt.mpr hre, if_false, b.evalS_ok hS h1 h3, b.evalV_ok hV h2 h4, b.hch]
  cases ch <;> simp [sub_eq_add_neg]

theorem KBuilt.call_zeroDiv (b : KBuilt k ch t0S tinS t0V tinV rS rV) (hS : t0S < tinS) (hV : t0V < tinV) {t : ℂ}
    (hre : 0 ≤ t.re) (hp : Singular tinS tinV rS rV t) : k.call t = .error .zeroDivisionError := by
  simp only [KView.call, not_lt.mpr hre, if_false]
  by_cases h1 : t = tinS ∨ ∃ r ∈ rS, t = r.pole ∨ t = conj r.pole
  · rw [b.evalS_error hS h1]; rfl
  · have h2 : t = tinV ∨ ∃ r ∈ rV, t = r.pole ∨ t = conj r.pole := by
      rcases hp with h' | h' | ⟨r, hr, h'⟩
      · exact absurd (Or.inl h') h1
      · exact Or.inl h'
      · rcases List.mem_append.mp hr with hr | hr
        · exact absurd (Or.inr ⟨r, hr, h'⟩) h1
        · exact Or.inr ⟨r, hr, h'⟩
    push Not at h1
    rw [b.evalS_ok hS h1.1 h1.2, b.evalV_error hV h2]
    rfl

theorem KView.call_neg (k : KView) {t : ℂ} (h : t.re < 0) : k.call t = .error .valueError := by
  simp only [KView.call, h, if_true]; rfl

theorem KBuilt.zero_not_singular (b : KBuilt k ch t0S tinS t0V tinV rS rV) (hS : t0S < tinS) (hV : t0V < tinV) :
    ¬ Singular tinS tinV rS rV 0 := by
  rintro (h | h | ⟨r, hr, h⟩)
  · exact zero_ne_tin b.h0S hS h
  · exact zero_ne_tin b.h0V hV h
  · rcases List.mem_append.mp hr with hr | hr
    · have := pole_ne_zero b.h0S hS b.hS r hr; tauto
    · have := pole_ne_zero b.h0V hV b.hV r hr; tauto

end

end UA
