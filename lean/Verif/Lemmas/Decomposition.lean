import Verif.Spec.Utils
import Verif.Lemmas.KaonRun
import Verif.Lemmas.ComponentsRun
import Verif.Lemmas.NucleonVMD
import Verif.Spec.OtherModels

/-! Helper lemmas about how the models decompose into their resonances. -/

namespace UA

open Complex ComplexConjugate

/-! ### Single-component models -/

theorem runSingle_neg {t_0 t_in a m g : ℝ} (h0 : 0 ≤ t_0) (h : t_0 < t_in) {c : UAComponent}
    (hc : buildComponent t_0 t_in m g = .ok c) {t : ℂ} (ht : t.re < 0) : runSingle t_0 t_in a m g t = .error .valueError := by
  unfold runSingle SingleComponentModel.init
  rw [TtoW_init_ok h0 h.le, hc]
  simp only [except_ok_bind, except_pure, SingleComponentModel.call, ht, if_true]
  rfl

theorem runSingle_ok {t_0 t_in : ℝ} {r : Res} (h0 : 0 ≤ t_0) (h : t_0 < t_in) {c : UAComponent}
    (hc : buildComponent t_0 t_in r.mass r.decay = .ok c) {t : ℂ} (hre : 0 ≤ t.re) (ht : t ≠ t_in)
    (h1 : t ≠ r.pole) (h2 : t ≠ conj r.pole) :
    runSingle t_0 t_in r.a r.mass r.decay t = .ok (r.a * Fval (r.var t_in) t_0 t_in r.pole t) := by
  have B := (buildComponent_built h0 h hc).1
  unfold runSingle SingleComponentModel.init
  rw [TtoW_init_ok h0 h.le, hc]
  simp only [except_ok_bind, except_pure, SingleComponentModel.call, not_lt.mpr hre, if_false]
  rw [TtoW_call_ok h ht, except_ok_bind, B.call_ok ht h1 h2]
  rfl

theorem runSingle_error {t_0 t_in : ℝ} {r : Res} (h0 : 0 ≤ t_0) (h : t_0 < t_in) {c : UAComponent}
    (hc : buildComponent t_0 t_in r.mass r.decay = .ok c) {t : ℂ} (hre : 0 ≤ t.re)
    (hp : t = t_in ∨ t = r.pole ∨ t = conj r.pole) :
    runSingle t_0 t_in r.a r.mass r.decay t = .error .zeroDivisionError := by
  have B := (buildComponent_built h0 h hc).1
  unfold runSingle SingleComponentModel.init
  rw [TtoW_init_ok h0 h.le, hc]
  simp only [except_ok_bind, except_pure, SingleComponentModel.call, not_lt.mpr hre, if_false]
  by_cases ht : t = t_in
  · rw [ht, TtoW_call_tin h.le]; rfl
  · rw [TtoW_call_ok h ht, except_ok_bind, B.call_error ht (hp.resolve_left ht)]; rfl

/-- The single-component models of a list of resonances. -/
noncomputable def singles (t_0 t_in : ℝ) (rs : List Res) (t : ℂ) : Except PyErr (List ℂ) :=
  rs.mapM fun r => runSingle t_0 t_in r.a r.mass r.decay t

section
variable {t_0 t_in : ℝ} (h0 : 0 ≤ t_0) (h : t_0 < t_in) {t : ℂ}
include h0 h

theorem singles_neg {rs : List Res} (hne : rs ≠ []) {ts : List (ℝ × UAComponent)} (hb : buildTerms t_0 t_in rs = .ok ts)
    (ht : t.re < 0) : singles t_0 t_in rs t = .error .valueError := by
  obtain _ | ⟨r, rs⟩ := rs
  · exact absurd rfl hne
  obtain ⟨c, cs, h1, _, _⟩ := buildTerms_cons hb
  unfold singles
  rw [List.mapM_cons, runSingle_neg h0 h h1 ht]
  rfl

theorem singles_ok {rs : List Res} {ts : List (ℝ × UAComponent)} (hb : buildTerms t_0 t_in rs = .ok ts) (hre : 0 ≤ t.re)
    (ht : t ≠ t_in) (hp : ∀ r ∈ rs, t ≠ r.pole ∧ t ≠ conj r.pole) :
    ∃ l, singles t_0 t_in rs t = .ok l ∧ l.sum = FsumL t_0 t_in rs t := by
  induction rs generalizing ts with
  | nil => exact ⟨[], rfl, by simp [FsumL]⟩
  | cons r rs ih =>
    obtain ⟨c, cs, h1, h2, _⟩ := buildTerms_cons hb
    obtain ⟨l, hl, hs⟩ := ih h2 fun r hr => hp r (by simp [hr])
    unfold singles at hl ⊢
    refine ⟨r.a * Fval (r.var t_in) t_0 t_in r.pole t :: l, ?_, ?_⟩
    · rw [List.mapM_cons, runSingle_ok h0 h h1 hre ht (hp r (by simp)).1 (hp r (by simp)).2, except_ok_bind, hl]
      rfl
    · rw [List.sum_cons, hs]; simp [FsumL]

theorem singles_error {rs : List Res} (hne : rs ≠ []) {ts : List (ℝ × UAComponent)} (hb : buildTerms t_0 t_in rs = .ok ts)
    (hre : 0 ≤ t.re) (hp : t = t_in ∨ ∃ r ∈ rs, t = r.pole ∨ t = conj r.pole) :
    singles t_0 t_in rs t = .error .zeroDivisionError := by
  induction rs generalizing ts with
  | nil => exact absurd rfl hne
  | cons r rs ih =>
    obtain ⟨c, cs, h1, h2, _⟩ := buildTerms_cons hb
    unfold singles at ih ⊢
    rw [List.mapM_cons]
    by_cases hr : t = t_in ∨ t = r.pole ∨ t = conj r.pole
    · rw [runSingle_error h0 h h1 hre hr]; rfl
    push Not at hr
    obtain ⟨r', hr', hp'⟩ := hp.resolve_left hr.1
    have hin : r' ∈ rs := by
      rcases List.mem_cons.mp hr' with rfl | h'
      · exact absurd hp' (by simp [hr.2.1, hr.2.2])
      · exact h'
    rw [runSingle_ok h0 h h1 hre hr.1 hr.2.1 hr.2.2, except_ok_bind,
      ih (List.ne_nil_of_mem hin) h2 (Or.inr ⟨r', hin, hp'⟩)]
    rfl
end

theorem KaonArgs.resS_ne (x : KaonArgs) : x.resS ≠ [] := by cases x <;> exact List.cons_ne_nil _ _
theorem KaonArgs.resV_ne (x : KaonArgs) : x.resV ≠ [] := by cases x <;> exact List.cons_ne_nil _ _

/-! ### Components never vanish -/

theorem Built.Fval_ne {t_0 t_in : ℝ} {p : ℂ} {v : Variant} {c : UAComponent} (b : Built t_0 t_in p v c)
    {t : ℂ} (ht : t ≠ t_in) (h1 : t ≠ p) (h2 : t ≠ conj p) : Fval v t_0 t_in p t ≠ 0 := by
  have hq : quart v (Wval t_0 t_in p) (Wval t_0 t_in t) ≠ 0 := fun h => by
    rcases (quart_eq_zero b.hlt b.hp0 b.hpin ht v).mp h with h | h
    · exact h1 h
    · exact h2 h
  unfold Fval
  exact mul_ne_zero (div_ne_zero (pow_ne_zero 2 (Wval_sq_ne_one b.hlt ht)) (pow_ne_zero 2 b.wn_ne)) (div_ne_zero b.quart_wn_ne hq)

theorem evalAt_tin {t_0 t_in : ℝ} (h0 : 0 ≤ t_0) (h : t_0 < t_in) (c : UAComponent) : evalAt t_0 t_in c t_in = .error .zeroDivisionError := by
  unfold evalAt runTtoW
  rw [TtoW_init_ok h0 h.le, except_ok_bind, TtoW_call_tin h.le]
  rfl

/-! ### Mass terms of the new nucleon model -/

/-- The value of a mass term, written with absolute values only. -/
theorem massTerm_eq {v : Variant} {t_0 t_in : ℝ} (h0 : 0 ≤ t_0) (h : t_0 < t_in) (p : ℂ) :
    ∃ q : ℝ, 0 ≤ q ∧ massTerm v t_0 t_in p = ((-q : ℝ) : ℂ) := by
  have hn := Wval_real_below h h0
  rw [ofReal_zero] at hn
  set w := Wval t_0 t_in 0
  set wm := Wval t_0 t_in p
  have key : ∀ z : ℂ, (w - z) * (w - conj z) = ((‖w - z‖ ^ 2 : ℝ) : ℂ) := by
    intro z
    rw [ofReal_pow, ← Complex.mul_conj' (w - z), map_sub, hn]
  have key2 : ∀ z : ℂ, (w + z) * (w + conj z) = ((‖w + z‖ ^ 2 : ℝ) : ℂ) := by
    intro z
    rw [ofReal_pow, ← Complex.mul_conj' (w + z), map_add, hn]
  cases v with
  | A =>
    refine ⟨‖w - wm‖ ^ 2 * ‖w - 1 / wm‖ ^ 2 / ‖wm - 1 / wm‖ ^ 2, by positivity, ?_⟩
    have : (w - wm) * (w - conj wm) * (w - 1 / wm) * (w - 1 / conj wm) = ((‖w - wm‖ ^ 2 * ‖w - 1 / wm‖ ^ 2 : ℝ) : ℂ) := by
      rw [ofReal_mul, ← key, ← key, map_div₀, map_one]; ring
    show (_ : ℂ) / -((‖wm - 1 / wm‖ ^ 2 : ℝ) : ℂ) = _
    rw [show quart .A wm w = _ from this, div_neg]; push_cast; rfl
  | B =>
    refine ⟨‖w - wm‖ ^ 2 * ‖w + wm‖ ^ 2 / ‖wm - 1 / wm‖ ^ 2, by positivity, ?_⟩
    have : (w - wm) * (w - conj wm) * (w + wm) * (w + conj wm) = ((‖w - wm‖ ^ 2 * ‖w + wm‖ ^ 2 : ℝ) : ℂ) := by
      rw [ofReal_mul, ← key, ← key2]; ring
    show (_ : ℂ) / -((‖wm - 1 / wm‖ ^ 2 : ℝ) : ℂ) = _
    rw [show quart .B wm w = _ from this, div_neg]; push_cast; rfl

theorem Built.massTerm_ne {t_0 t_in : ℝ} {p : ℂ} {v : Variant} {c : UAComponent} (b : Built t_0 t_in p v c) :
    massTerm v t_0 t_in p ≠ 0 :=
  div_ne_zero b.quart_wn_ne (massTerm_den_ne b.wm_ne (Wval_sq_ne_one b.hlt b.hpin))

theorem Built.massTerm_neg {t_0 t_in : ℝ} {p : ℂ} {v : Variant} {c : UAComponent} (b : Built t_0 t_in p v c) :
    ∃ q : ℝ, 0 < q ∧ massTerm v t_0 t_in p = ((-q : ℝ) : ℂ) := by
  obtain ⟨q, hq, h⟩ := massTerm_eq (v := v) b.h0 b.hlt p
  refine ⟨q, lt_of_le_of_ne hq fun h' => b.massTerm_ne ?_, h⟩
  rw [h, ← h']; simp

/-! ### The cache of mass terms -/

theorem CacheM.bind_ok {α β : Type} {x : CacheM α} {f : α → CacheM β} {c c' : MassTermCache} {b : β}
    (h : x.bind f c = (.ok b, c')) : ∃ a c₁, x c = (.ok a, c₁) ∧ f a c₁ = (.ok b, c') := by
  unfold CacheM.bind at h
  rcases hx : x c with ⟨r, c₁⟩
  rw [hx] at h
  cases r with
  | error e => cases h
  | ok a => exact ⟨a, c₁, rfl, h⟩

/-- Entries that are not zero are never changed. -/
def CacheM.Keeps {α : Type} (x : CacheM α) : Prop := ∀ c k v, c k = some v → v ≠ 0 → (x c).2 k = some v

theorem CacheM.Keeps.lift {α : Type} (y : Except PyErr α) : (CacheM.lift y).Keeps := fun _ _ _ h _ => h

theorem CacheM.Keeps.bind {α β : Type} {x : CacheM α} {f : α → CacheM β} (hx : x.Keeps) (hf : ∀ a, (f a).Keeps) : (x.bind f).Keeps := by
  intro c k v h h0
  unfold CacheM.bind
  rcases hxc : x c with ⟨r, c'⟩
  have h1 := hx c k v h h0
  rw [hxc] at h1
  cases r with
  | error e => exact h1
  | ok a => exact hf a c' k v h1 h0

theorem getMassTerm_hit {m : NucleonBase} {s d : Bool} {r : String} {c : MassTermCache} {v : ℂ}
    (h : c (buildCacheKey s d r) = some v) (h0 : v ≠ 0) : m.getMassTerm s d r c = (.ok v, c) := by
  unfold NucleonBase.getMassTerm
  simp only [h, h0, if_false]

theorem getMassTerm_cases (m : NucleonBase) (s d : Bool) (r : String) (c : MassTermCache) :
    (∃ v, c (buildCacheKey s d r) = some v ∧ v ≠ 0 ∧ m.getMassTerm s d r c = (.ok v, c)) ∨
    ((∀ v, c (buildCacheKey s d r) = some v → v = 0) ∧
      ((∃ e, m.getMassTerm s d r c = (.error e, c)) ∨
        ∃ v, m.getMassTerm s d r c = (.ok v, fun k => if k = buildCacheKey s d r then some v else c k))) := by
  by_cases h : ∃ v, c (buildCacheKey s d r) = some v ∧ v ≠ 0
  · obtain ⟨v, h1, h2⟩ := h
    exact Or.inl ⟨v, h1, h2, getMassTerm_hit h1 h2⟩
  · push Not at h
    refine Or.inr ⟨h, ?_⟩
    unfold NucleonBase.getMassTerm
    simp only
    rcases hk : c (buildCacheKey s d r) with _ | v
    · simp only
      rcases m.calculateMassTerm s d r with e | v'
      · exact Or.inl ⟨e, rfl⟩
      · exact Or.inr ⟨v', rfl⟩
    · have := h v hk
      subst this
      simp only [if_true]
      rcases m.calculateMassTerm s d r with e | v'
      · exact Or.inl ⟨e, rfl⟩
      · exact Or.inr ⟨v', rfl⟩

theorem CacheM.Keeps.getMassTerm (m : NucleonBase) (s d : Bool) (r : String) : (m.getMassTerm s d r).Keeps := by
  intro c k v h h0
  rcases getMassTerm_cases m s d r c with ⟨v', _, _, h'⟩ | ⟨hz, ⟨e, h'⟩ | ⟨v', h'⟩⟩
  · rw [h']; exact h
  · rw [h']; exact h
  · rw [h']
    simp only
    split_ifs with hk
    · rw [hk] at h; exact absurd (hz v h) h0
    · exact h

theorem getMassTerm_stored {m : NucleonBase} {s d : Bool} {r : String} {c c' : MassTermCache} {v : ℂ}
    (h : m.getMassTerm s d r c = (.ok v, c')) : c' (buildCacheKey s d r) = some v := by
  rcases getMassTerm_cases m s d r c with ⟨v', h1, _, h'⟩ | ⟨hz, ⟨e, h'⟩ | ⟨v', h'⟩⟩
  · rw [h] at h'; injection h' with h2 h3; injection h2 with h2; rw [h3, h1, h2]
  · rw [h] at h'; injection h' with h2 h3; cases h2
  · rw [h] at h'; injection h' with h2 h3; injection h2 with h2; rw [h3, h2]; simp

/-- The mass terms needed by a call are all in the cache. -/
def Warm (c : MassTermCache) : Prop :=
  (∀ d, ∀ r ∈ namesS, ∃ v, c (buildCacheKey true d r) = some v ∧ v ≠ 0) ∧
  (∀ r ∈ namesV, ∃ v, c (buildCacheKey false true r) = some v ∧ v ≠ 0)

/-- A computation that leaves this cache alone. -/
def Quiet {α : Type} (c : MassTermCache) (x : CacheM α) : Prop := (x c).2 = c

theorem Quiet.lift {α : Type} (c : MassTermCache) (y : Except PyErr α) : Quiet c (CacheM.lift y) := rfl

theorem Quiet.bind {α β : Type} {c : MassTermCache} {x : CacheM α} {f : α → CacheM β} (hx : Quiet c x) (hf : ∀ a, Quiet c (f a)) :
    Quiet c (x.bind f) := by
  unfold Quiet CacheM.bind at *
  rcases hxc : x c with ⟨r, c'⟩
  rw [hxc] at hx
  simp only at hx
  subst hx
  cases r with
  | error e => rfl
  | ok a => exact hf a

theorem Quiet.get {c : MassTermCache} {m : NucleonBase} {s d : Bool} {r : String}
    (h : ∃ v, c (buildCacheKey s d r) = some v ∧ v ≠ 0) : Quiet c (m.getMassTerm s d r) := by
  obtain ⟨v, h1, h2⟩ := h
  unfold Quiet
  rw [getMassTerm_hit h1 h2]

theorem Warm.getS {c : MassTermCache} (h : Warm c) (m : NucleonBase) (d : Bool) : Quiet c (m.getMassTermsS d) := by
  have h' := h.1 d
  refine Quiet.bind (Quiet.get (h' _ (by decide))) fun _ => Quiet.bind (Quiet.get (h' _ (by decide))) fun _ =>
    Quiet.bind (Quiet.get (h' _ (by decide))) fun _ => Quiet.bind (Quiet.get (h' _ (by decide))) fun _ =>
    Quiet.bind (Quiet.get (h' _ (by decide))) fun _ => Quiet.bind (Quiet.get (h' _ (by decide))) fun _ => Quiet.lift _ _

theorem Warm.getV {c : MassTermCache} (h : Warm c) (m : NucleonBase) : Quiet c m.getMassTermsV := by
  refine Quiet.bind (Quiet.get (h.2 _ (by decide))) fun _ => Quiet.bind (Quiet.get (h.2 _ (by decide))) fun _ =>
    Quiet.bind (Quiet.get (h.2 _ (by decide))) fun _ => Quiet.lift _ _

theorem Warm.call {m : NucleonUAModel} (h : Warm m.mass_terms_cache) (t : ℂ) : (m.call t).2 = m := by
  unfold NucleonUAModel.call
  simp only
  have : Quiet m.mass_terms_cache (if t.re < 0 then CacheM.lift (throw .valueError)
    else
      (NucleonUAModel.evalDiracIsoscalar m.toNucleonBase t).bind fun ds =>
      (NucleonUAModel.evalDiracIsovector m.toNucleonBase t).bind fun dv =>
      (NucleonUAModel.evalPauliIsoscalar m.toNucleonBase t).bind fun ps =>
      (NucleonUAModel.evalPauliIsovector m.toNucleonBase t).bind fun pv =>
      CacheM.lift (m.combine t ds dv ps pv)) := by
    split_ifs
    · exact Quiet.lift _ _
    · exact Quiet.bind (Quiet.bind (Quiet.lift _ _) fun _ => Quiet.bind (h.getS _ _) fun _ => Quiet.lift _ _) fun _ =>
        Quiet.bind (Quiet.bind (Quiet.lift _ _) fun _ => Quiet.bind (h.getV _) fun _ => Quiet.lift _ _) fun _ =>
        Quiet.bind (Quiet.bind (Quiet.lift _ _) fun _ => Quiet.bind (h.getS _ _) fun _ => Quiet.lift _ _) fun _ =>
        Quiet.bind (Quiet.bind (Quiet.lift _ _) fun _ => Quiet.lift _ _) fun _ => Quiet.lift _ _
  unfold Quiet at this
  rw [this]

/-- All the needed mass terms of the model are non-zero. -/
def Terms (m : NucleonBase) (P : ℂ → Prop) : Prop :=
  (∀ d, ∀ r ∈ namesS, ∃ v, m.calculateMassTerm true d r = .ok v ∧ P v) ∧
  (∀ d, ∀ r ∈ namesV, ∃ v, m.calculateMassTerm false d r = .ok v ∧ P v)

theorem CacheM.Keeps.getS (m : NucleonBase) (d : Bool) : (m.getMassTermsS d).Keeps :=
  .bind (.getMassTerm _ _ _ _) fun _ => .bind (.getMassTerm _ _ _ _) fun _ => .bind (.getMassTerm _ _ _ _) fun _ =>
  .bind (.getMassTerm _ _ _ _) fun _ => .bind (.getMassTerm _ _ _ _) fun _ => .bind (.getMassTerm _ _ _ _) fun _ => .lift _
theorem CacheM.Keeps.getV (m : NucleonBase) : m.getMassTermsV.Keeps :=
  .bind (.getMassTerm _ _ _ _) fun _ => .bind (.getMassTerm _ _ _ _) fun _ => .bind (.getMassTerm _ _ _ _) fun _ => .lift _

/-- One look-up that succeeds. -/
theorem get_step {m : NucleonBase} {s d : Bool} {r : String} {c c' : MassTermCache} {v : ℂ} (hc : CacheInv m c)
    (ht : ∃ v, m.calculateMassTerm s d r = .ok v ∧ v ≠ 0) (h : m.getMassTerm s d r c = (.ok v, c')) :
    CacheInv m c' ∧ c' (buildCacheKey s d r) = some v ∧ v ≠ 0 ∧ ∀ k v, c k = some v → v ≠ 0 → c' k = some v := by
  obtain ⟨s1, s2⟩ := Sim.getMassTerm m s d r c hc
  obtain ⟨v', h1, h2⟩ := ht
  rw [h] at s1 s2
  simp only at s1 s2
  rw [h1] at s1
  injection s1 with s1
  subst s1
  refine ⟨s2, getMassTerm_stored h, h2, fun k w hk hw => ?_⟩
  have := CacheM.Keeps.getMassTerm m s d r c k w hk hw
  rwa [h] at this

theorem getS_stored {m : NucleonBase} {d : Bool} {c c' : MassTermCache} {x : Six ℂ} (hc : CacheInv m c)
    (ht : ∀ r ∈ namesS, ∃ v, m.calculateMassTerm true d r = .ok v ∧ v ≠ 0) (h : m.getMassTermsS d c = (.ok x, c')) :
    CacheInv m c' ∧ ∀ r ∈ namesS, ∃ v, c' (buildCacheKey true d r) = some v ∧ v ≠ 0 := by
  obtain ⟨v1, c1, e1, h⟩ := CacheM.bind_ok h
  obtain ⟨v2, c2, e2, h⟩ := CacheM.bind_ok h
  obtain ⟨v3, c3, e3, h⟩ := CacheM.bind_ok h
  obtain ⟨v4, c4, e4, h⟩ := CacheM.bind_ok h
  obtain ⟨v5, c5, e5, h⟩ := CacheM.bind_ok h
  obtain ⟨v6, c6, e6, h⟩ := CacheM.bind_ok h
  obtain ⟨i1, s1, n1, k1⟩ := get_step hc (ht _ (by decide)) e1
  obtain ⟨i2, s2, n2, k2⟩ := get_step i1 (ht _ (by decide)) e2
  obtain ⟨i3, s3, n3, k3⟩ := get_step i2 (ht _ (by decide)) e3
  obtain ⟨i4, s4, n4, k4⟩ := get_step i3 (ht _ (by decide)) e4
  obtain ⟨i5, s5, n5, k5⟩ := get_step i4 (ht _ (by decide)) e5
  obtain ⟨i6, s6, n6, k6⟩ := get_step i5 (ht _ (by decide)) e6
  injection h with _ h
  subst h
  refine ⟨i6, ?_⟩
  simp only [namesS, List.forall_mem_cons, List.not_mem_nil, false_imp_iff, implies_true, and_true]
  exact ⟨⟨v1, k6 _ _ (k5 _ _ (k4 _ _ (k3 _ _ (k2 _ _ s1 n1) n1) n1) n1) n1, n1⟩,
    ⟨v2, k6 _ _ (k5 _ _ (k4 _ _ (k3 _ _ s2 n2) n2) n2) n2, n2⟩, ⟨v3, k6 _ _ (k5 _ _ (k4 _ _ s3 n3) n3) n3, n3⟩,
    ⟨v4, k6 _ _ (k5 _ _ s4 n4) n4, n4⟩, ⟨v5, k6 _ _ s5 n5, n5⟩, ⟨v6, s6, n6⟩⟩

theorem getV_stored {m : NucleonBase} {c c' : MassTermCache} {x : Three ℂ} (hc : CacheInv m c)
    (ht : ∀ r ∈ namesV, ∃ v, m.calculateMassTerm false true r = .ok v ∧ v ≠ 0) (h : m.getMassTermsV c = (.ok x, c')) :
    CacheInv m c' ∧ ∀ r ∈ namesV, ∃ v, c' (buildCacheKey false true r) = some v ∧ v ≠ 0 := by
  obtain ⟨v1, c1, e1, h⟩ := CacheM.bind_ok h
  obtain ⟨v2, c2, e2, h⟩ := CacheM.bind_ok h
  obtain ⟨v3, c3, e3, h⟩ := CacheM.bind_ok h
  obtain ⟨i1, s1, n1, k1⟩ := get_step hc (ht _ (by decide)) e1
  obtain ⟨i2, s2, n2, k2⟩ := get_step i1 (ht _ (by decide)) e2
  obtain ⟨i3, s3, n3, k3⟩ := get_step i2 (ht _ (by decide)) e3
  injection h with _ h
  subst h
  refine ⟨i3, ?_⟩
  simp only [namesV, List.forall_mem_cons, List.not_mem_nil, false_imp_iff, implies_true, and_true]
  exact ⟨⟨v1, k3 _ _ (k2 _ _ s1 n1) n1, n1⟩, ⟨v2, k3 _ _ s2 n2, n2⟩, ⟨v3, s3, n3⟩⟩

/-- A successful call fills the cache. -/
theorem warm_of_call {m : NucleonUAModel} (hc : CacheInv m.toNucleonBase m.mass_terms_cache) (ht : Terms m.toNucleonBase (· ≠ 0))
    {t y : ℂ} (h : (m.call t).1 = .ok y) : Warm (m.call t).2.mass_terms_cache := by
  unfold NucleonUAModel.call at h ⊢
  simp only at h ⊢
  split_ifs at h ⊢ with hneg
  · cases h
  obtain ⟨c', h'⟩ : ∃ c', ((NucleonUAModel.evalDiracIsoscalar m.toNucleonBase t).bind fun ds =>
      (NucleonUAModel.evalDiracIsovector m.toNucleonBase t).bind fun dv =>
      (NucleonUAModel.evalPauliIsoscalar m.toNucleonBase t).bind fun ps =>
      (NucleonUAModel.evalPauliIsovector m.toNucleonBase t).bind fun pv =>
      CacheM.lift (m.combine t ds dv ps pv)) m.mass_terms_cache = (.ok y, c') := ⟨_, Prod.ext h rfl⟩
  rw [h']
  obtain ⟨ds, c1, e1, h'⟩ := CacheM.bind_ok h'
  obtain ⟨dv, c2, e2, h'⟩ := CacheM.bind_ok h'
  obtain ⟨ps, c3, e3, h'⟩ := CacheM.bind_ok h'
  obtain ⟨pv, c4, e4, h'⟩ := CacheM.bind_ok h'
  injection h' with _ h'
  subst h'
  obtain ⟨_, _, l4, e4⟩ := CacheM.bind_ok e4
  injection l4 with _ l4
  injection e4 with _ e4
  subst l4 e4
  obtain ⟨_, _, l3, e3⟩ := CacheM.bind_ok e3
  injection l3 with _ l3
  subst l3
  obtain ⟨_, _, g3, e3⟩ := CacheM.bind_ok e3
  injection e3 with _ e3
  subst e3
  obtain ⟨_, _, l2, e2⟩ := CacheM.bind_ok e2
  injection l2 with _ l2
  subst l2
  obtain ⟨_, _, g2, e2⟩ := CacheM.bind_ok e2
  injection e2 with _ e2
  subst e2
  obtain ⟨_, _, l1, e1⟩ := CacheM.bind_ok e1
  injection l1 with _ l1
  subst l1
  obtain ⟨_, _, g1, e1⟩ := CacheM.bind_ok e1
  injection e1 with _ e1
  subst e1
  obtain ⟨i1, s1⟩ := getS_stored hc (ht.1 _) g1
  obtain ⟨i2, s2⟩ := getV_stored i1 (ht.2 _) g2
  obtain ⟨i3, s3⟩ := getS_stored i2 (ht.1 _) g3
  have kV := CacheM.Keeps.getV m.toNucleonBase
  have kS := CacheM.Keeps.getS m.toNucleonBase false
  constructor
  · intro d r hr
    cases d with
    | false => exact s3 r hr
    | true =>
      obtain ⟨v, hv, n⟩ := s1 r hr
      have a := kV _ _ _ hv n
      rw [g2] at a
      have b := kS _ _ _ a n
      rw [g3] at b
      exact ⟨v, b, n⟩
  · intro r hr
    obtain ⟨v, hv, n⟩ := s2 r hr
    have b := kS _ _ _ hv n
    rw [g3] at b
    exact ⟨v, b, n⟩

theorem NBuilt.terms {proton electric : Bool} {x : NucleonArgs} {m : NucleonBase}
    (b : NBuilt (fun m g => (tMesonPole m g).re) proton electric x m) : Terms m fun v => ∃ q : ℝ, 0 < q ∧ v = ((-q : ℝ) : ℂ) := by
  have e := b.args
  constructor
  · intro d
    simp only [namesS, List.forall_mem_cons, List.not_mem_nil, false_imp_iff, implies_true, and_true]
    cases d with
    | true =>
      refine ⟨⟨_, ?_, b.ds.omega.massTerm_neg⟩, ⟨_, ?_, b.ds.omega_prime.massTerm_neg⟩, ⟨_, ?_, b.ds.omega_double_prime.massTerm_neg⟩,
        ⟨_, ?_, b.ds.phi.massTerm_neg⟩, ⟨_, ?_, b.ds.phi_prime.massTerm_neg⟩, ⟨_, ?_, b.ds.phi_double_prime.massTerm_neg⟩⟩ <;>
      (unfold NucleonBase.calculateMassTerm; rw [b.mapDS, b.args])
      · exact calc_of_built b.ds.omega
      · exact calc_of_built b.ds.omega_prime
      · exact calc_of_built b.ds.omega_double_prime
      · exact calc_of_built b.ds.phi
      · exact calc_of_built b.ds.phi_prime
      · exact calc_of_built b.ds.phi_double_prime
    | false =>
      refine ⟨⟨_, ?_, b.ps.omega.massTerm_neg⟩, ⟨_, ?_, b.ps.omega_prime.massTerm_neg⟩, ⟨_, ?_, b.ps.omega_double_prime.massTerm_neg⟩,
        ⟨_, ?_, b.ps.phi.massTerm_neg⟩, ⟨_, ?_, b.ps.phi_prime.massTerm_neg⟩, ⟨_, ?_, b.ps.phi_double_prime.massTerm_neg⟩⟩ <;>
      (unfold NucleonBase.calculateMassTerm; rw [b.mapPS, b.args])
      · exact calc_of_built b.ps.omega
      · exact calc_of_built b.ps.omega_prime
      · exact calc_of_built b.ps.omega_double_prime
      · exact calc_of_built b.ps.phi
      · exact calc_of_built b.ps.phi_prime
      · exact calc_of_built b.ps.phi_double_prime
  · intro d
    simp only [namesV, List.forall_mem_cons, List.not_mem_nil, false_imp_iff, implies_true, and_true]
    cases d with
    | true =>
      refine ⟨⟨_, ?_, b.dv.rho.massTerm_neg⟩, ⟨_, ?_, b.dv.rho_prime.massTerm_neg⟩, ⟨_, ?_, b.dv.rho_double_prime.massTerm_neg⟩⟩ <;>
      (unfold NucleonBase.calculateMassTerm; rw [b.mapDV, b.args])
      · exact calc_of_built b.dv.rho
      · exact calc_of_built b.dv.rho_prime
      · exact calc_of_built b.dv.rho_double_prime
    | false =>
      refine ⟨⟨_, ?_, b.pv.rho.massTerm_neg⟩, ⟨_, ?_, b.pv.rho_prime.massTerm_neg⟩, ⟨_, ?_, b.pv.rho_double_prime.massTerm_neg⟩⟩ <;>
      (unfold NucleonBase.calculateMassTerm; rw [b.mapPV, b.args])
      · exact calc_of_built b.pv.rho
      · exact calc_of_built b.pv.rho_prime
      · exact calc_of_built b.pv.rho_double_prime

theorem init_maps {build : ℝ → ℝ → ℝ → ℝ → Except PyErr UAComponent} {proton electric : Bool} {x : NucleonArgs} {m : NucleonBase}
    (h : NucleonBase.init build proton electric x = .ok m) :
    m.toNucleonArgs = x ∧ ∀ s d, (if s && d then m.t_to_W_dirac_isoscalar else if s && !d then m.t_to_W_pauli_isoscalar
      else if !s && d then m.t_to_W_dirac_isovector else m.t_to_W_pauli_isovector) =
        mkTtoW (x.thresholds s d).1 (x.thresholds s d).2 := by
  unfold NucleonBase.init at h
  refine bindE h fun m1 e1 h => ?_
  refine bindE h fun m2 e2 h => ?_
  refine bindE h fun m3 e3 h => ?_
  refine bindE h fun m4 e4 h => ?_
  refine bindE h fun k1 f1 h => ?_
  refine bindE h fun k2 f2 h => ?_
  refine bindE h fun k3 f3 h => ?_
  refine bindE h fun k4 f4 h => ?_
  injection h with h
  subst h
  refine ⟨rfl, fun s d => ?_⟩
  cases s <;> cases d
  · exact (TtoW_init_eq_ok e4).2.2
  · exact (TtoW_init_eq_ok e2).2.2
  · exact (TtoW_init_eq_ok e3).2.2
  · exact (TtoW_init_eq_ok e1).2.2

/-! ### A zero-width example -/

noncomputable def exampleNarrow : NucleonArgs :=
  { exampleNucleon with decay_rate_omega := 0, decay_rate_phi := 0, decay_rate_phi_prime := 0, decay_rate_rho := 0 }

theorem exampleNarrow_proper : exampleNarrow.Proper := exampleNucleon_proper

theorem exampleNarrow_zeroWidth : exampleNarrow.ZeroWidth := by
  simp [NucleonArgs.ZeroWidth, NucleonArgs.resonances, exampleNarrow, exampleNucleon]

theorem exampleNarrow_distinct : exampleNarrow.DistinctMasses := by
  constructor <;> norm_num [exampleNarrow, exampleNucleon]

theorem exampleNarrow_evaluates (proton electric : Bool) : ∃ y, NucleonClass.old.run proton electric exampleNarrow 0 = .ok y := by
  have hb : NucleonClass.old.Builds proton electric exampleNarrow := by
    show ∃ m, NucleonBase.init Builder.massSquared.build proton electric exampleNarrow = .ok m
    apply NucleonBase.init_ok _ _ _ _ exampleNarrow_proper
    · apply initSix_ok <;> apply ex_build <;> norm_num [exampleNucleon, exampleNarrow]
    · apply initThree_ok <;> apply ex_build <;> norm_num [exampleNucleon, exampleNarrow]
    · apply initSix_ok <;> apply ex_build <;> norm_num [exampleNucleon, exampleNarrow]
    · apply initThree_ok <;> apply ex_build <;> norm_num [exampleNucleon, exampleNarrow]
    all_goals norm_num [exampleNucleon, exampleNarrow]
  obtain ⟨m, b, h⟩ := NucleonClass.run_built exampleNarrow_proper hb
  rw [h, b.evalC_ok (le_refl _)]
  · exact ⟨_, rfl⟩
  · rintro (hs | ⟨p, hp, hs⟩ | hs | hs)
    · norm_num [exampleNucleon, exampleNarrow] at hs
    · have hz : p = 0 := by
        rcases hs with hs | hs
        · exact hs.symm
        · rw [eq_comm, map_eq_zero] at hs; exact hs
      subst hz
      have : ∀ m g : ℝ, m ≠ 0 → (0 : ℂ) ≠ tMesonPole m g := by
        intro m g hm h
        have := (tMesonPole_eq_real (m := m) (g := g) (le_refl 0)).mp (by simpa using h.symm)
        exact hm (by simpa using this.2)
      simp only [NucleonArgs.poleS, NucleonArgs.poleT, Six.toList, Three.toList, List.mem_append, List.mem_cons,
        List.not_mem_nil, or_false] at hp
      rcases hp with (hp | hp | hp | hp | hp | hp) | (hp | hp | hp) <;> revert hp <;> apply this <;> norm_num [exampleNucleon, exampleNarrow]
    · exact hs (exampleNucleon_terms .old)
    · norm_num [exampleNucleon, exampleNarrow] at hs

/-- The attribute reads by name. -/
theorem massOf_byName {r : String} (hr : r ∈ namesS ++ namesV) (x : NucleonArgs) :
    (∃ v, x.byName.lookup ("mass_" ++ r) = some v ∧ x.massOf r = .ok v) ∧ ∃ v, x.byName.lookup ("decay_rate_" ++ r) = some v ∧ x.decayRateOf r = .ok v := by
  simp only [namesS, namesV, List.cons_append, List.nil_append, List.mem_cons, List.not_mem_nil, or_false] at hr
  rcases hr with rfl | rfl | rfl | rfl | rfl | rfl | rfl | rfl | rfl <;> exact ⟨⟨_, rfl, rfl⟩, ⟨_, rfl, rfl⟩⟩

end UA
