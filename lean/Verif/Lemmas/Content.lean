import Verif.Spec.Content
import Verif.Lemmas.ValueObject
import Verif.Lemmas.ContinuityWitness
import Verif.Props.EndToEnd

/-! Helper lemmas: what a kaon form factor depends on. -/

namespace UA

open Complex ComplexConjugate

/-! ### One resonance -/

theorem quart_conj_pole (v : Variant) (wm w : ℂ) : quart v (conj wm) w = quart v wm w := by
  cases v <;> simp only [quart, conj_conj] <;> ring

theorem Fval_conj_pole (v : Variant) {t_0 t_in : ℝ} (h : t_0 < t_in) (p t : ℂ) : Fval v t_0 t_in (conj p) t = Fval v t_0 t_in p t := by
  by_cases hp : p.im = 0
  · rw [Complex.conj_eq_iff_im.mpr hp]
  · unfold Fval
    rw [Wval_conj h fun h' => hp h'.1, quart_conj_pole, quart_conj_pole]

theorem pole_unsigned (r : Res) : r.pole = r.unsigned.pole ∨ r.pole = conj r.unsigned.pole := by
  have key : ∀ m g : ℝ, tMesonPole m g = polePosition m g := tMesonPole_eq
  have hc : ∀ m g : ℝ, conj (polePosition m g) = ⟨m ^ 2 - g ^ 2 / 4, m * g⟩ := fun m g => by
    apply Complex.ext <;> simp [polePosition]
  simp only [Res.pole, Res.unsigned, key, hc]
  unfold polePosition
  rcases abs_choice r.mass with h1 | h1 <;> rcases abs_choice r.decay with h2 | h2 <;> rw [h1, h2] <;> simp

theorem Fval_unsigned {t_0 t_in : ℝ} (h : t_0 < t_in) (r : Res) (t : ℂ) :
    Fval (r.var t_in) t_0 t_in r.pole t = Fval (r.unsigned.var t_in) t_0 t_in r.unsigned.pole t := by
  have hv : r.unsigned.var t_in = r.var t_in := by unfold Res.var Res.unsigned; rw [sq_abs]
  rw [hv]
  rcases pole_unsigned r with e | e <;> rw [e]
  exact Fval_conj_pole _ h _ _

theorem pole_unsigned_iff (r : Res) (t : ℂ) : (t = r.pole ∨ t = conj r.pole) ↔ (t = r.unsigned.pole ∨ t = conj r.unsigned.pole) := by
  rcases pole_unsigned r with e | e <;> rw [e]
  rw [conj_conj, or_comm]

theorem buildComponent_exists {t_0 t_in m g : ℝ} (h0 : 0 ≤ t_0) (h : t_0 < t_in) : (∃ c, buildComponent t_0 t_in m g = .ok c) ↔
    t_0 ≤ m ^ 2 ∧ ¬ (g = 0 ∧ (m ^ 2 = t_0 ∨ m ^ 2 = t_in)) := by
  have ht := C12_thresholds t_0 t_in m g h0 h
  constructor
  · rintro ⟨c, hc⟩
    refine ⟨not_lt.mp fun h' => ?_, fun h' => ?_⟩
    · rw [ht.1.mpr h'] at hc; cases hc
    · rw [ht.2.1.mpr h'] at hc; cases hc
  · rintro ⟨h1, h2⟩
    by_cases hlt : m ^ 2 < t_in
    · obtain ⟨c, hc, -⟩ := ht.2.2.1.mpr ⟨h1, hlt, fun h' => h2 ⟨h'.1, Or.inl h'.2⟩⟩
      exact ⟨c, hc⟩
    · obtain ⟨c, hc, -⟩ := ht.2.2.2.mpr ⟨not_lt.mp hlt, fun h' => h2 ⟨h'.1, Or.inr h'.2⟩⟩
      exact ⟨c, hc⟩

theorem buildComponent_unsigned {t_0 t_in : ℝ} (h0 : 0 ≤ t_0) (h : t_0 < t_in) (r : Res) :
    (∃ c, buildComponent t_0 t_in r.mass r.decay = .ok c) ↔ ∃ c, buildComponent t_0 t_in r.unsigned.mass r.unsigned.decay = .ok c := by
  rw [buildComponent_exists h0 h, buildComponent_exists h0 h]
  simp [Res.unsigned]

/-! ### Sums over resonances -/

theorem FsumL_unsigned {t_0 t_in : ℝ} (h : t_0 < t_in) (rs : List Res) (t : ℂ) :
    FsumL t_0 t_in rs t = FsumL t_0 t_in (rs.map Res.unsigned) t := by
  unfold FsumL
  rw [List.map_map]
  congr 1
  refine List.map_congr_left fun r _ => ?_
  rw [Fval_unsigned h]
  rfl

theorem FsumL_perm {t_0 t_in : ℝ} {rs rs' : List Res} (h : rs.Perm rs') (t : ℂ) : FsumL t_0 t_in rs t = FsumL t_0 t_in rs' t :=
  (h.map _).sum_eq

theorem FsumL_filter (t_0 t_in : ℝ) (rs : List Res) (t : ℂ) : FsumL t_0 t_in (rs.filter fun r => r.a ≠ 0) t = FsumL t_0 t_in rs t := by
  induction rs with
  | nil => rfl
  | cons r rs ih =>
    unfold FsumL at ih ⊢
    by_cases hr : r.a = 0
    · rw [List.filter_cons_of_neg (by simpa using hr), ih]
      simp [hr]
    · rw [List.filter_cons_of_pos (by simpa using hr), List.map_cons, List.map_cons, List.sum_cons, List.sum_cons, ih]

theorem FsumL_same {t_0 t_in : ℝ} {rs rs' : List Res} (h : SameResonances rs rs') (t : ℂ) : FsumL t_0 t_in rs t = FsumL t_0 t_in rs' t := by
  rw [← FsumL_filter, ← FsumL_filter t_0 t_in rs']
  exact FsumL_perm h t

theorem SameResonances.refl (l : List Res) : SameResonances l l := List.Perm.refl _

theorem SameResonances.cons (r : Res) {l l' : List Res} (h : SameResonances l l') : SameResonances (r :: l) (r :: l') := by
  unfold SameResonances at h ⊢
  by_cases hr : r.a = 0
  · rw [List.filter_cons_of_neg (by simpa using hr), List.filter_cons_of_neg (by simpa using hr)]; exact h
  · rw [List.filter_cons_of_pos (by simpa using hr), List.filter_cons_of_pos (by simpa using hr)]; exact h.cons r

theorem SameResonances.zero {r : Res} (hr : r.a = 0) {l l' : List Res} (h : SameResonances l l') : SameResonances l (r :: l') := by
  unfold SameResonances at h ⊢
  rw [List.filter_cons_of_neg (by simpa using hr)]; exact h

theorem FsumL_affine {t_0 t_in : ℝ} (s : ℝ) (t : ℂ) : ∀ {l l' : List Res}, l.map (fun r => (r.mass, r.decay)) = l'.map (fun r => (r.mass, r.decay)) →
    FsumL t_0 t_in (List.zipWith (fun r r' => ⟨(1 - s) * r.a + s * r'.a, r.mass, r.decay⟩) l l') t =
      (1 - s) * FsumL t_0 t_in l t + s * FsumL t_0 t_in l' t
  | [], [], _ => by simp [FsumL]
  | r :: l, r' :: l', h => by
    simp only [List.map_cons, List.cons.injEq, Prod.mk.injEq] at h
    have ih := FsumL_affine (t_0 := t_0) (t_in := t_in) s t h.2
    have e1 : r'.pole = r.pole := by unfold Res.pole; rw [h.1.1, h.1.2]
    have e2 : r'.var t_in = r.var t_in := by unfold Res.var; rw [h.1.1]
    unfold FsumL at ih ⊢
    rw [List.zipWith_cons_cons, List.map_cons, List.sum_cons, ih, List.map_cons, List.map_cons, List.sum_cons, List.sum_cons, e1, e2]
    simp only [Res.pole, Res.var]
    push_cast
    ring
  | [], _ :: _, h => by simp at h
  | _ :: _, [], h => by simp at h

/-! ### Runs -/

/-- The value of a run that returns. -/
theorem run_value {x : KaonArgs} (hp : x.Proper) {ch : Bool} {t y : ℂ} (hy : x.run ch t = .ok y) :
    y = FsumL x.t0S x.tinS x.resS t + (if ch then 1 else -1) * FsumL x.t0V x.tinV x.resV t := by
  rw [x.run_view, except_bind_eq_ok] at hy
  obtain ⟨k, hk, hy⟩ := hy
  have b := viewInit_built hk
  by_cases hre : t.re < 0
  · rw [k.call_neg hre] at hy; cases hy
  · have hre' := not_lt.mp hre
    by_cases hs : Singular x.tinS x.tinV x.resS x.resV t
    · rw [b.call_zeroDiv hp.1 hp.2 hre' hs] at hy; cases hy
    · rw [b.call_ok hp.1 hp.2 hre' hs] at hy
      injection hy with hy
      exact hy.symm

theorem buildTerms_same {t_0 t_in : ℝ} (h0 : 0 ≤ t_0) (h : t_0 < t_in) {rs rs' : List Res} (hp : (rs.map Res.unsigned).Perm (rs'.map Res.unsigned))
    (hb : ∃ ts, buildTerms t_0 t_in rs = .ok ts) : ∃ ts, buildTerms t_0 t_in rs' = .ok ts := by
  obtain ⟨ts, hb⟩ := hb
  have hm := buildTerms_mem hb
  refine buildTerms_ok fun r hr => ?_
  rw [buildComponent_unsigned h0 h]
  have : r.unsigned ∈ rs.map Res.unsigned := hp.mem_iff.mpr (List.mem_map_of_mem hr)
  obtain ⟨r', hr', he⟩ := List.mem_map.mp this
  rw [← he, ← buildComponent_unsigned h0 h]
  exact hm r' hr'

theorem singular_same {tinS tinV : ℝ} {rS rV rS' rV' : List Res} (hS : (rS.map Res.unsigned).Perm (rS'.map Res.unsigned))
    (hV : (rV.map Res.unsigned).Perm (rV'.map Res.unsigned)) (t : ℂ) : Singular tinS tinV rS rV t ↔ Singular tinS tinV rS' rV' t := by
  have key : ∀ l : List Res, (∃ r ∈ l, t = r.pole ∨ t = conj r.pole) ↔ ∃ r ∈ l.map Res.unsigned, t = r.pole ∨ t = conj r.pole := fun l => by
    constructor
    · rintro ⟨r, hr, h⟩
      exact ⟨_, List.mem_map_of_mem hr, (pole_unsigned_iff r t).mp h⟩
    · rintro ⟨r, hr, h⟩
      obtain ⟨r', hr', rfl⟩ := List.mem_map.mp hr
      exact ⟨r', hr', (pole_unsigned_iff r' t).mpr h⟩
  unfold Singular
  rw [key, key (rS' ++ rV'), List.map_append, List.map_append]
  have hm := fun r : Res => (hS.append hV).mem_iff (a := r)
  constructor
  · rintro (h | h | ⟨r, hr, h⟩)
    · exact Or.inl h
    · exact Or.inr (Or.inl h)
    · exact Or.inr (Or.inr ⟨r, (hm r).mp hr, h⟩)
  · rintro (h | h | ⟨r, hr, h⟩)
    · exact Or.inl h
    · exact Or.inr (Or.inl h)
    · exact Or.inr (Or.inr ⟨r, (hm r).mpr hr, h⟩)

theorem run_same {x x' : KaonArgs} (hp : x.Proper) (ht : x.SameThresholds x') (hS : (x.resS.map Res.unsigned).Perm (x'.resS.map Res.unsigned))
    (hV : (x.resV.map Res.unsigned).Perm (x'.resV.map Res.unsigned)) {ch : Bool} (hb : x.Builds ch) :
    x'.Builds ch ∧ ∀ t, x'.run ch t = x.run ch t := by
  obtain ⟨e1, e2, e3, e4⟩ := ht
  have hp' : x'.Proper := by unfold KaonArgs.Proper; rw [← e1, ← e2, ← e3, ← e4]; exact hp
  obtain ⟨k, b, hrun⟩ := KaonArgs.get_view hb
  obtain ⟨tS, htS⟩ := buildTerms_same b.h0S hp.1 hS ⟨_, b.hS⟩
  obtain ⟨tV, htV⟩ := buildTerms_same b.h0V hp.2 hV ⟨_, b.hV⟩
  have hb' : x'.Builds ch := by
    refine (x'.builds_iff ch).mpr ⟨⟨ch, mkTtoW x.t0S x.tinS, mkTtoW x.t0V x.tinV, tS, tV⟩, ?_⟩
    unfold viewInit
    rw [← e1, ← e2, ← e3, ← e4, TtoW_init_ok b.h0S hp.1.le, TtoW_init_ok b.h0V hp.2.le, htS, htV]
    rfl
  refine ⟨hb', fun t => ?_⟩
  obtain ⟨k', b', hrun'⟩ := KaonArgs.get_view hb'
  rw [hrun, hrun']
  have hs := singular_same (tinS := x.tinS) (tinV := x.tinV) hS hV t
  by_cases hre : t.re < 0
  · rw [k.call_neg hre, k'.call_neg hre]
  · have hre' := not_lt.mp hre
    by_cases h : Singular x.tinS x.tinV x.resS x.resV t
    · rw [b.call_zeroDiv hp.1 hp.2 hre' h, b'.call_zeroDiv hp'.1 hp'.2 hre' (by rw [← e2, ← e4]; exact hs.mp h)]
    · rw [b.call_ok hp.1 hp.2 hre' h, b'.call_ok hp'.1 hp'.2 hre' (by rw [← e2, ← e4]; exact fun h' => h (hs.mpr h'))]
      rw [← e1, ← e2, ← e3, ← e4, FsumL_unsigned hp.1 x.resS, FsumL_unsigned hp.1 x'.resS, FsumL_unsigned hp.2 x.resV,
        FsumL_unsigned hp.2 x'.resV, FsumL_perm hS, FsumL_perm hV]

/-! ### The content of an object -/

/-- The names beginning with `start` that belong to the isospin. -/
def namesWith (c : ParamClass) (iso : Bool) (start : String) : List String :=
  c.table.initArgs.filter fun n => start.toList.isPrefixOf n.toList && decide (IsIsoscalarName n) == iso

/-- Where coupling, mass and width of the resonances of a class are stored; a derived coupling is given by the other couplings. -/
def contentNames (c : ParamClass) (iso : Bool) : List ((String ⊕ List String) × String × String) :=
  ((namesWith c iso "mass_").map fun n => String.ofList (n.toList.drop 5)).map fun r =>
    (if "a_" ++ r ∈ c.table.initArgs then .inl ("a_" ++ r) else .inr (namesWith c iso "a_"), "mass_" ++ r, "decay_rate_" ++ r)

/-- The coupling. -/
noncomputable def couplingValue (v : String → ℝ) : String ⊕ List String → ℝ
  | .inl n => v n
  | .inr l => 1 / 2 - (l.map v).sum

/-- The entries a coupling is computed from. -/
def couplingRefs : String ⊕ List String → List String
  | .inl n => [n]
  | .inr l => l

theorem couplingValue_congr {v v' : String → ℝ} {q : String ⊕ List String} (h : ∀ n ∈ couplingRefs q, v n = v' n) :
    couplingValue v q = couplingValue v' q := by
  rcases q with n | l
  · exact h n (by simp [couplingRefs])
  · show 1 / 2 - (l.map v).sum = 1 / 2 - (l.map v').sum
    rw [show l.map v = l.map v' from List.map_congr_left h]

theorem content_names {p : ModelParameters ℝ} (hw : p.WellFormed) (iso : Bool) :
    p.content iso = (contentNames p.cls iso).map fun q => ⟨couplingValue p.entry q.1, p.entry q.2.1, p.entry q.2.2⟩ := by
  unfold ModelParameters.content contentNames ModelParameters.couplingOf ModelParameters.labels ModelParameters.isospinNames namesWith
  rw [hw.names, List.map_map, List.map_map, List.map_map]
  refine List.map_congr_left fun r _ => ?_
  dsimp only [Function.comp]
  split_ifs <;> rfl

theorem contentNames_mem (c : ParamClass) (hc : IsKaonClass c) (iso : Bool) : ∀ q ∈ contentNames c iso,
    (∀ n ∈ couplingRefs q.1, n ∈ c.table.initArgs) ∧ q.2.1 ∈ c.table.initArgs ∧ q.2.2 ∈ c.table.initArgs := by
  cases c <;> first | exact hc.elim | (cases iso <;> decide +kernel)

theorem content_values {p : ModelParameters ℝ} {v : String → ℝ} (hw : p.WellFormed) (hv : ∀ q ∈ p.data, q.value = v q.name)
    (hc : IsKaonClass p.cls) (iso : Bool) :
    p.content iso = (contentNames p.cls iso).map fun q => ⟨couplingValue v q.1, v q.2.1, v q.2.2⟩ := by
  rw [content_names hw]
  refine List.map_congr_left fun q hq => ?_
  obtain ⟨h1, h2, h3⟩ := contentNames_mem p.cls hc iso q hq
  rw [entry_eq hw hv h2, entry_eq hw hv h3, couplingValue_congr fun n hn => entry_eq hw hv (h1 n hn)]

theorem contentNames_full {c : ParamClass} (h : c = .kaon ∨ c = .kaonFixedRhoOmega ∨ c = .kaonFixedSelected) :
    contentNames c true = [(.inl "a_omega", "mass_omega", "decay_rate_omega"), (.inl "a_omega_prime", "mass_omega_prime", "decay_rate_omega_prime"),
      (.inl "a_omega_double_prime", "mass_omega_double_prime", "decay_rate_omega_double_prime"), (.inl "a_phi", "mass_phi", "decay_rate_phi"),
      (.inl "a_phi_prime", "mass_phi_prime", "decay_rate_phi_prime"),
      (.inr ["a_omega", "a_omega_prime", "a_omega_double_prime", "a_phi", "a_phi_prime"], "mass_phi_double_prime", "decay_rate_phi_double_prime")] ∧
    contentNames c false = [(.inl "a_rho", "mass_rho", "decay_rate_rho"), (.inl "a_rho_prime", "mass_rho_prime", "decay_rate_rho_prime"),
      (.inl "a_rho_double_prime", "mass_rho_double_prime", "decay_rate_rho_double_prime"),
      (.inr ["a_rho", "a_rho_prime", "a_rho_double_prime"], "mass_rho_triple_prime", "decay_rate_rho_triple_prime")] := by
  rcases h with rfl | rfl | rfl <;> decide +kernel

theorem contentNames_b :
    contentNames .kaonB true = [(.inl "a_omega", "mass_omega", "decay_rate_omega"),
      (.inl "a_omega_double_prime", "mass_omega_double_prime", "decay_rate_omega_double_prime"), (.inl "a_phi", "mass_phi", "decay_rate_phi"),
      (.inl "a_phi_prime", "mass_phi_prime", "decay_rate_phi_prime"),
      (.inr ["a_omega", "a_omega_double_prime", "a_phi", "a_phi_prime"], "mass_phi_double_prime", "decay_rate_phi_double_prime")] ∧
    contentNames .kaonB false = [(.inl "a_rho", "mass_rho", "decay_rate_rho"), (.inl "a_rho_prime", "mass_rho_prime", "decay_rate_rho_prime"),
      (.inr ["a_rho", "a_rho_prime"], "mass_rho_double_prime", "decay_rate_rho_double_prime")] := by
  decide +kernel

theorem contentNames_simplified :
    contentNames .kaonSimplified true = [(.inl "a_omega_prime", "mass_omega_prime", "decay_rate_omega_prime"),
      (.inl "a_omega_double_prime", "mass_omega_double_prime", "decay_rate_omega_double_prime"), (.inl "a_phi", "mass_phi", "decay_rate_phi"),
      (.inl "a_phi_prime", "mass_phi_prime", "decay_rate_phi_prime"),
      (.inr ["a_omega_prime", "a_omega_double_prime", "a_phi", "a_phi_prime"], "mass_phi_double_prime", "decay_rate_phi_double_prime")] ∧
    contentNames .kaonSimplified false = [(.inl "a_rho_prime", "mass_rho_prime", "decay_rate_rho_prime"),
      (.inl "a_rho_double_prime", "mass_rho_double_prime", "decay_rate_rho_double_prime"),
      (.inr ["a_rho_prime", "a_rho_double_prime"], "mass_rho_triple_prime", "decay_rate_rho_triple_prime")] := by
  decide +kernel

/-- The model is made of the resonances of the object. -/
theorem content_eq {p : ModelParameters ℝ} {v : String → ℝ} (hw : p.WellFormed) (hv : ∀ q ∈ p.data, q.value = v q.name) (hc : IsKaonClass p.cls) :
    p.content true = (KaonArgs.ofValues p.cls v).resS ∧ p.content false = (KaonArgs.ofValues p.cls v).resV := by
  have full : (p.cls = .kaon ∨ p.cls = .kaonFixedRhoOmega ∨ p.cls = .kaonFixedSelected) →
      p.content true = (KaonUAModel.Args.ofValues v).resS ∧ p.content false = (KaonUAModel.Args.ofValues v).resV := fun h => by
    obtain ⟨e1, e2⟩ := contentNames_full h
    rw [content_values hw hv hc, content_values hw hv hc, e1, e2]
    simp only [List.map, couplingValue, List.sum_cons, List.sum_nil, add_zero, ← add_assoc]
    exact ⟨rfl, rfl⟩
  rcases hcls : p.cls with _ | _ | _ | _ | _ | _ | _ | _ | _
  · exact full (Or.inl hcls)
  · rw [content_values hw hv hc, content_values hw hv hc, hcls, contentNames_b.1, contentNames_b.2]
    simp only [List.map, couplingValue, List.sum_cons, List.sum_nil, add_zero, ← add_assoc]
    exact ⟨rfl, rfl⟩
  · rw [content_values hw hv hc, content_values hw hv hc, hcls, contentNames_simplified.1, contentNames_simplified.2]
    simp only [List.map, couplingValue, List.sum_cons, List.sum_nil, add_zero, ← add_assoc]
    exact ⟨rfl, rfl⟩
  · exact full (Or.inr (Or.inl hcls))
  · exact full (Or.inr (Or.inr hcls))
  all_goals rw [hcls] at hc; exact hc.elim

theorem thresholds_entry {p : ModelParameters ℝ} (hw : p.WellFormed) {v : String → ℝ} (hv : ∀ q ∈ p.data, q.value = v q.name)
    (hc : IsKaonClass p.cls) : ∀ n ∈ thresholdNames, p.entry n = v n := by
  have key : ∀ c, IsKaonClass c → ∀ n ∈ thresholdNames, n ∈ c.table.initArgs := by
    intro c hc; cases c <;> first | exact hc.elim | decide +kernel
  exact fun n hn => entry_eq hw hv (key _ hc n hn)

/-- Whether the fitted functions return, and how they fail. -/
theorem eval_domain {p : ModelParameters ℝ} (h : Reachable p) (hc : IsKaonClass p.cls) (hi : p.InsideMaximal) (kind : PartialKind)
    {points : List (ℝ × Bool)} (h0 : ∀ d ∈ points, 0 ≤ d.1) :
    ((∃ rs, kind.eval (points.map fun d => .kaon d.1 d.2) p = .ok rs) ↔ ∀ d ∈ points, (kind ≠ .formFactor → d.1 ≠ 0) ∧
      ¬ ∃ q ∈ p.toList, "t_in_".toList <+: q.name.toList ∧ d.1 = q.value) ∧
    ∀ e, kind.eval (points.map fun d => .kaon d.1 d.2) p = .error e → e = .zeroDivisionError := by
  cases kind with
  | formFactor =>
    obtain ⟨k1, k2⟩ := C80_form_factors h hc hi h0
    exact ⟨k1.trans (forall₂_congr fun d _ => (and_iff_right fun hh => absurd rfl hh).symm), k2⟩
  | crossSection m a hc2 =>
    obtain ⟨k1, k2⟩ := C80_cross_sections h hc hi h0 m a hc2
    exact ⟨k1.trans (forall₂_congr fun d _ => and_congr_left' ⟨fun hh _ => hh, fun hh => hh (fun hh => by cases hh)⟩), k2⟩

theorem eval_same_args {p p' : ModelParameters ℝ} (h : Reachable p) (hc : IsKaonClass p.cls) (hi : p.InsideMaximal) (h' : Reachable p')
    (hc' : IsKaonClass p'.cls) (hi' : p'.InsideMaximal) {x x' : KaonArgs} (hx : KaonInside p x) (hx' : KaonInside p' x')
    (ht : x.SameThresholds x') (hS : SameResonances x.resS x'.resS) (hV : SameResonances x.resV x'.resV) (kind : PartialKind)
    {points : List (ℝ × Bool)} (h0 : ∀ d ∈ points, 0 ≤ d.1) :
    kind.eval (points.map fun d => .kaon d.1 d.2) p' = kind.eval (points.map fun d => .kaon d.1 d.2) p := by
  obtain ⟨e1, e2, e3, e4⟩ := ht
  have htin : ∀ t : ℝ, (∃ q ∈ p.toList, "t_in_".toList <+: q.name.toList ∧ t = q.value) ↔
      ∃ q ∈ p'.toList, "t_in_".toList <+: q.name.toList ∧ t = q.value := fun t => by
    rw [← hx.tin, ← hx'.tin, e2, e4]
  obtain ⟨k1, k2⟩ := eval_domain h hc hi kind h0
  obtain ⟨k1', k2'⟩ := eval_domain h' hc' hi' kind h0
  by_cases hok : ∀ d ∈ points, (kind ≠ .formFactor → d.1 ≠ 0) ∧ ¬ ∃ q ∈ p.toList, "t_in_".toList <+: q.name.toList ∧ d.1 = q.value
  · have r := hx.eval_eq kind h0 (fun hk d hd => (hok d hd).1 hk) fun d hd => (hok d hd).2
    have r' := hx'.eval_eq kind h0 (fun hk d hd => (hok d hd).1 hk) fun d hd hh => (hok d hd).2 ((htin d.1).mpr hh)
    have hf : ∀ d : ℝ × Bool, x'.formula d.2 d.1 = x.formula d.2 d.1 := fun d => by
      unfold KaonArgs.formula
      rw [e1, e2, e3, e4, FsumL_same hS, FsumL_same hV]
    rw [r, r']
    simp only [hf]
  · have hok' : ¬ ∀ d ∈ points, (kind ≠ .formFactor → d.1 ≠ 0) ∧ ¬ ∃ q ∈ p'.toList, "t_in_".toList <+: q.name.toList ∧ d.1 = q.value :=
      fun hh => hok fun d hd => ⟨(hh d hd).1, fun h1 => (hh d hd).2 ((htin d.1).mp h1)⟩
    rw [← k1] at hok
    rw [← k1'] at hok'
    rcases he : kind.eval (points.map fun d => .kaon d.1 d.2) p with e | rs
    · rcases he' : kind.eval (points.map fun d => .kaon d.1 d.2) p' with e' | rs
      · rw [he, he', k2 e he, k2' e' he']
      · exact absurd ⟨_, he'⟩ hok'
    · exact absurd ⟨_, he⟩ hok

theorem eval_same {p p' : ModelParameters ℝ} (h : Reachable p) (hc : IsKaonClass p.cls) (hi : p.InsideMaximal) (h' : Reachable p')
    (hc' : IsKaonClass p'.cls) (hi' : p'.InsideMaximal) (hs : p.SameContent p') (kind : PartialKind) {points : List (ℝ × Bool)}
    (h0 : ∀ d ∈ points, 0 ≤ d.1) :
    kind.eval (points.map fun d => .kaon d.1 d.2) p' = kind.eval (points.map fun d => .kaon d.1 d.2) p := by
  have hw := reachable_wellFormed h
  have hw' := reachable_wellFormed h'
  obtain ⟨v, hv⟩ := hw.exists_values
  obtain ⟨v', hv'⟩ := hw'.exists_values
  obtain ⟨c1, c2⟩ := content_eq hw hv hc
  obtain ⟨c1', c2'⟩ := content_eq hw' hv' hc'
  have hS := hs.2 true
  have hV := hs.2 false
  rw [c1, c1'] at hS
  rw [c2, c2'] at hV
  have ht : ∀ n ∈ thresholdNames, v n = v' n := fun n hn => by
    rw [← thresholds_entry hw hv hc n hn, ← thresholds_entry hw' hv' hc' n hn]; exact hs.1 n hn
  obtain ⟨a1, a2, a3, a4⟩ := thresholds_ofValues p.cls v
  obtain ⟨b1, b2, b3, b4⟩ := thresholds_ofValues p'.cls v'
  exact eval_same_args h hc hi h' hc' hi' (kaon_inside_wired h hc hi (kaon_wiring_values hw hv hc))
    (kaon_inside_wired h' hc' hi' (kaon_wiring_values hw' hv' hc'))
    ⟨a1.trans ((ht "t_0_isoscalar" (by decide)).trans b1.symm), a2.trans ((ht "t_in_isoscalar" (by decide)).trans b2.symm),
      a3.trans ((ht "t_0_isovector" (by decide)).trans b3.symm), a4.trans ((ht "t_in_isovector" (by decide)).trans b4.symm)⟩ hS hV kind h0

/-! ### Objects with the same content -/

theorem jump_active (m : ℝ) {c : ParamClass} (hc : IsKaonClass c) :
    ((jumpObject c m).content true).filter (fun r => r.a ≠ 0) =
      [⟨1 / 2, jumpValue m "mass_phi_double_prime", jumpValue m "decay_rate_phi_double_prime"⟩] ∧
    ((jumpObject c m).content false).filter (fun r => r.a ≠ 0) =
      [⟨1 / 2, jumpValue m "mass_rho_prime", jumpValue m "decay_rate_rho_prime"⟩] := by
  have zero : ∀ n ∈ ["a_omega", "a_omega_prime", "a_omega_double_prime", "a_phi", "a_phi_prime", "a_rho", "a_rho_double_prime"], jumpValue m n = 0 := by
    intro n hn
    simp only [List.mem_cons, List.not_mem_nil, or_false] at hn
    rcases hn with rfl | rfl | rfl | rfl | rfl | rfl | rfl <;> simp [jumpValue]
  have half : jumpValue m "a_rho_prime" = 1 / 2 := by simp [jumpValue]
  simp only [List.forall_mem_cons, List.not_mem_nil, false_imp_iff, implies_true, and_true] at zero
  obtain ⟨z1, z2, z3, z4, z5, z6, z7⟩ := zero
  obtain ⟨e1, e2⟩ := content_eq (reachable_wellFormed (jump_reachable c m)) (jump_values c m) hc
  rw [e1, e2]
  show List.filter _ (KaonArgs.ofValues c (jumpValue m)).resS = _ ∧ List.filter _ (KaonArgs.ofValues c (jumpValue m)).resV = _
  cases c <;> first | exact hc.elim | skip
  all_goals
    simp only [KaonArgs.ofValues, KaonArgs.resS, KaonArgs.resV,
      KaonUAModel.Args.resS, KaonUAModel.Args.resV, KaonUAModelB.Args.resS, KaonUAModelB.Args.resV, KaonUAModelSimplified.Args.resS,
      KaonUAModelSimplified.Args.resV, KaonUAModel.Args.ofValues, KaonUAModelB.Args.ofValues, KaonUAModelSimplified.Args.ofValues,
      z1, z2, z3, z4, z5, z6, z7, half]
    constructor <;> norm_num [List.filter_cons]

theorem jump_same {c c' : ParamClass} (hc : IsKaonClass c) (hc' : IsKaonClass c') (m : ℝ) : (jumpObject c m).SameContent (jumpObject c' m) := by
  refine ⟨fun n hn => ?_, fun iso => ?_⟩
  · rw [thresholds_entry (reachable_wellFormed (jump_reachable c m)) (jump_values c m) hc n hn,
      thresholds_entry (reachable_wellFormed (jump_reachable c' m)) (jump_values c' m) hc' n hn]
  · unfold SameResonances
    cases iso
    · rw [(jump_active m hc).2, (jump_active m hc').2]
    · rw [(jump_active m hc).1, (jump_active m hc').1]

end UA
