import Verif.Lemmas.PipelinesRun
import Mathlib.Data.String.Basic
import Mathlib.Algebra.Order.Ring.Pow

/-!
# Helper lemmas: the best fit
-/

namespace UA

theorem improves_iff (c : String) (b : Option String) : improves c b = true ↔ ∀ best, b = some best → best = "" ∨ c < best := by
  cases b with
  | none => simp [improves]
  | some best => simp [improves]

/-- The best fit so far is the one of a report whose text is not larger than any before, or there was none. -/
def BestSoFar (pipeline : String) (rs : List Report) (b : BestFit) : Prop :=
  ((∀ r ∈ rs, r.chi_squared = none) ∧ b = .nothing) ∨
    ∃ r ∈ rs, ∃ c, r.chi_squared = some c ∧ b = r.asBestFit pipeline ∧ ∀ r' ∈ rs, ∀ c', r'.chi_squared = some c' → c ≤ c'

theorem foldl_best (pipeline : String) (rs : List Report) (hne : ∀ r ∈ rs, r.chi_squared ≠ some "") :
    BestSoFar pipeline rs (rs.foldl (bestStep pipeline) .nothing) := by
  induction rs using List.reverseRecOn with
  | nil => exact .inl ⟨(fun r h => by cases h), rfl⟩
  | append_singleton rs r ih =>
    have ih := ih fun r hr => hne r (List.mem_append_left _ hr)
    have hr := hne r (List.mem_append_right _ (List.mem_singleton_self r))
    rw [List.foldl_append, List.foldl_cons, List.foldl_nil]
    generalize rs.foldl (bestStep pipeline) .nothing = b at ih ⊢
    unfold bestStep
    rcases hc : r.chi_squared with _ | c
    · rcases ih with ⟨h1, h2⟩ | ⟨r₀, h0, c₀, h1, h2, h3⟩
      · refine .inl ⟨fun r' hr' => ?_, h2⟩
        rcases List.mem_append.mp hr' with hr' | hr'
        · exact h1 r' hr'
        · rw [List.mem_singleton.mp hr']; exact hc
      · refine .inr ⟨r₀, List.mem_append_left _ h0, c₀, h1, h2, fun r' hr' c' hc' => ?_⟩
        rcases List.mem_append.mp hr' with hr' | hr'
        · exact h3 r' hr' c' hc'
        · rw [List.mem_singleton.mp hr', hc] at hc'; cases hc'
    · dsimp only
      have hcne : c ≠ "" := fun h => hr (by rw [hc, h])
      rw [if_neg hcne]
      rcases ih with ⟨h1, h2⟩ | ⟨r₀, h0, c₀, h1, h2, h3⟩
      · rw [if_pos ((improves_iff _ _).mpr (by rw [h2]; intro best h; cases h))]
        refine .inr ⟨r, List.mem_append_right _ (List.mem_singleton_self r), c, hc, rfl, fun r' hr' c' hc' => ?_⟩
        rcases List.mem_append.mp hr' with hr' | hr'
        · rw [h1 r' hr'] at hc'; cases hc'
        · rw [List.mem_singleton.mp hr', hc] at hc'; injection hc' with hc'; exact le_of_eq hc'
      · have hb : b.chi_squared = some c₀ := by rw [h2]; exact h1
        have hc0 : c₀ ≠ "" := fun h => hne r₀ (List.mem_append_left _ h0) (by rw [h1, h])
        by_cases hi : improves c b.chi_squared = true
        · rw [if_pos hi]
          have hlt : c < c₀ := ((improves_iff _ _).mp hi c₀ hb).resolve_left hc0
          refine .inr ⟨r, List.mem_append_right _ (List.mem_singleton_self r), c, hc, rfl, fun r' hr' c' hc' => ?_⟩
          rcases List.mem_append.mp hr' with hr' | hr'
          · exact hlt.le.trans (h3 r' hr' c' hc')
          · rw [List.mem_singleton.mp hr', hc] at hc'; injection hc' with hc'; exact le_of_eq hc'
        · rw [if_neg hi]
          have hle : c₀ ≤ c := by
            by_contra hlt
            refine hi ((improves_iff _ _).mpr fun best h => .inr ?_)
            rw [hb] at h; injection h with h
            rw [← h]; exact not_le.mp hlt
          refine .inr ⟨r₀, List.mem_append_left _ h0, c₀, h1, h2, fun r' hr' c' hc' => ?_⟩
          rcases List.mem_append.mp hr' with hr' | hr'
          · exact h3 r' hr' c' hc'
          · rw [List.mem_singleton.mp hr', hc] at hc'; injection hc' with hc'; rw [← hc']; exact hle

/-! ### Decimals as texts -/

theorem digitChar_lt {a b : ℕ} (ha : a < 10) (hb : b < 10) : Nat.digitChar a < Nat.digitChar b ↔ a < b := by
  have : ∀ a b : Fin 10, (Nat.digitChar a < Nat.digitChar b ↔ a < b) := by decide
  exact this ⟨a, ha⟩ ⟨b, hb⟩

theorem decimalValue_frac : ∀ {fp : List ℕ}, (∀ d ∈ fp, d < 10) → 0 ≤ decimalValue [] fp ∧ decimalValue [] fp ≤ 1
  | [], _ => by unfold decimalValue; norm_num
  | d :: fp, h => by
    obtain ⟨h1, h2⟩ := decimalValue_frac (fp := fp) fun x hx => h x (List.mem_cons_of_mem _ hx)
    have hd : (d : ℝ) ≤ 9 := by exact_mod_cast Nat.le_of_lt_succ (h d List.mem_cons_self)
    have hd0 : (0 : ℝ) ≤ d := Nat.cast_nonneg d
    unfold decimalValue
    constructor <;> linarith

theorem decimalValue_bounds : ∀ {ip fp : List ℕ}, (∀ d ∈ ip, d < 10) → (∀ d ∈ fp, d < 10) →
    0 ≤ decimalValue ip fp ∧ decimalValue ip fp ≤ 10 ^ ip.length
  | [], fp, _, hf => by simpa using decimalValue_frac hf
  | d :: ip, fp, h, hf => by
    obtain ⟨h1, h2⟩ := decimalValue_bounds (ip := ip) (fun x hx => h x (List.mem_cons_of_mem _ hx)) hf
    have hd : (d : ℝ) ≤ 9 := by exact_mod_cast Nat.le_of_lt_succ (h d List.mem_cons_self)
    have hd0 : (0 : ℝ) ≤ d := Nat.cast_nonneg d
    have hp : (0 : ℝ) < 10 ^ ip.length := by positivity
    unfold decimalValue
    rw [List.length_cons, pow_succ]
    constructor <;> nlinarith

theorem frac_mono : ∀ {fp fp' : List ℕ}, (∀ d ∈ fp, d < 10) → (∀ d ∈ fp', d < 10) → ¬ fp'.map Nat.digitChar < fp.map Nat.digitChar →
    decimalValue [] fp ≤ decimalValue [] fp'
  | [], fp', _, h', _ => by
    rw [show decimalValue [] [] = 0 by unfold decimalValue; rfl]
    exact (decimalValue_frac h').1
  | d :: fp, [], _, _, hlt => absurd (List.nil_lt_cons _ _) hlt
  | d :: fp, d' :: fp', h, h', hlt => by
    have hf := fun x hx => h x (List.mem_cons_of_mem _ hx)
    have hf' := fun x hx => h' x (List.mem_cons_of_mem _ hx)
    have hd := h d List.mem_cons_self
    have hd' := h' d' List.mem_cons_self
    rw [List.map_cons, List.map_cons, List.cons_lt_cons_iff, not_or, digitChar_lt hd' hd, not_lt] at hlt
    obtain ⟨b1, b2⟩ := decimalValue_frac hf
    obtain ⟨b1', b2'⟩ := decimalValue_frac hf'
    unfold decimalValue
    rcases Nat.lt_or_eq_of_le hlt.1 with hlt' | rfl
    · have : (d : ℝ) + 1 ≤ d' := by exact_mod_cast hlt'
      linarith
    · have := frac_mono hf hf' fun hl => hlt.2 ⟨rfl, hl⟩
      linarith

theorem decimal_mono : ∀ {ip ip' fp fp' : List ℕ}, (∀ d ∈ ip, d < 10) → (∀ d ∈ ip', d < 10) → (∀ d ∈ fp, d < 10) → (∀ d ∈ fp', d < 10) →
    ip.length = ip'.length →
    ¬ ip'.map Nat.digitChar ++ '.' :: fp'.map Nat.digitChar < ip.map Nat.digitChar ++ '.' :: fp.map Nat.digitChar →
    decimalValue ip fp ≤ decimalValue ip' fp'
  | [], [], fp, fp', _, _, hf, hf', _, hlt => by
    rw [List.map_nil, List.nil_append, List.nil_append, List.cons_lt_cons_iff, not_or] at hlt
    exact frac_mono hf hf' fun hl => hlt.2 ⟨rfl, hl⟩
  | d :: ip, d' :: ip', fp, fp', h, h', hf, hf', hlen, hlt => by
    have hi := fun x hx => h x (List.mem_cons_of_mem _ hx)
    have hi' := fun x hx => h' x (List.mem_cons_of_mem _ hx)
    have hd := h d List.mem_cons_self
    have hd' := h' d' List.mem_cons_self
    have hlen' : ip.length = ip'.length := by simpa using hlen
    rw [List.map_cons, List.map_cons, List.cons_append, List.cons_append, List.cons_lt_cons_iff, not_or, digitChar_lt hd' hd, not_lt] at hlt
    obtain ⟨b1, b2⟩ := decimalValue_bounds hi hf
    obtain ⟨b1', b2'⟩ := decimalValue_bounds hi' hf'
    have hp : (0 : ℝ) < 10 ^ ip.length := by positivity
    unfold decimalValue
    rw [hlen'] at b2 hp ⊢
    rcases Nat.lt_or_eq_of_le hlt.1 with hlt' | rfl
    · have : (d : ℝ) + 1 ≤ d' := by exact_mod_cast hlt'
      nlinarith
    · have := decimal_mono hi hi' hf hf' hlen' fun hl => hlt.2 ⟨rfl, hl⟩
      linarith

/-! ### Reports in files -/

theorem pyName_eq (c : TaskClass) : c.pyName = c.className := by cases c <;> rfl

theorem taskNames_zip (l : List TaskClass) : ∀ i, taskNames i l = (l.zipIdx i).map fun q => "Task#" ++ toString q.2 ++ ":" ++ q.1.className := by
  induction l with
  | nil => intro i; rfl
  | cons c l ih => intro i; rw [List.zipIdx_cons, List.map_cons, ← ih, ← pyName_eq]; rfl

theorem taskNames_eq (l : List TaskClass) : taskNames 0 l = numberedNames (l.map TaskClass.className) := by
  unfold numberedNames
  rw [taskNames_zip, List.zipIdx_map, List.map_map]
  rfl

theorem taskNames_rounds (kind : PipelineKind) (ks : List ℤ) :
    taskNames 0 (ks.map fun _ => kind.fixAccording) = numberedNames (ks.map fun _ => "TaskFixAccordingToParametersFit") := by
  rw [taskNames_eq, List.map_map]
  congr 1
  refine List.map_congr_left fun _ _ => ?_
  cases kind <;> rfl

theorem numberedNames_append (a b : List String) :
    numberedNames (a ++ b) = numberedNames a ++ (b.zipIdx a.length).map fun q => "Task#" ++ toString q.2 ++ ":" ++ q.1 := by
  unfold numberedNames
  rw [List.zipIdx_append, List.map_append, zero_add]

theorem taskNames_iterative {kind : PipelineKind} (hk : kind ≠ .nucleonCS) (ks : List ℤ) :
    taskNames 0 (ks.map fun _ => kind.fixAccording) ++ ["Task#" ++ toString ks.length ++ ":" ++ kind.fullFit.pyName] =
      numberedNames (iterativeClassNames kind ks) := by
  unfold iterativeClassNames
  rw [taskNames_rounds, numberedNames_append, List.length_map]
  congr 1
  cases kind <;> first | rfl | exact absurd rfl hk

theorem taskNames_nucleon (kind : PipelineKind) (its : Iterations) :
    taskNames 0 (its.free_params_numbers.map fun _ => kind.fixAccording) ++
      ["Task#" ++ toString its.free_params_numbers.length ++ ":" ++ fullFitName its,
        "Task#" ++ toString (its.free_params_numbers.length + 1) ++ ":" ++ TaskClass.residual.pyName] = nucleonTaskNames its := by
  unfold nucleonTaskNames
  rw [taskNames_rounds, numberedNames_append, List.length_map]
  rfl

theorem made_names {env : Env} {rs : List Report} {names : List String} (h : List.Forall₂ (fun r n => r.Made env n) rs names) :
    rs.map (·.name) = names := by
  induction h with
  | nil => rfl
  | cons h _ ih => rw [List.map_cons, ih, h.1]

theorem made_says {env : Env} {rs : List Report} {names : List String} (h : List.Forall₂ (fun r n => r.Made env n) rs names) :
    ∃ chis, List.Forall₂ (fun (r : Report) x => r.Says env x) rs chis := by
  induction h with
  | nil => exact ⟨[], .nil⟩
  | cons h _ ih =>
    obtain ⟨x, hx⟩ := h.2
    obtain ⟨xs, hxs⟩ := ih
    exact ⟨x :: xs, .cons hx hxs⟩

/-- From a trace to files. -/
theorem reported_of_traced {self self' : Pipeline} {env : Env} {w w' : World} {ms : List String} {n : ℕ} {rs : List Report} {names : List String}
    (ht : Traced self w self' w' ms n (savedFiles self env 0 rs)) (hm : List.Forall₂ (fun r n => r.Made env n) rs names) :
    (∃ chis, self.Reported env w' names rs chis) ∧
      ∀ q, q ≠ self.reportFile → (∀ k, k < rs.length → q ≠ self.taskFile k) → w'.fs.files q = w.fs.files q := by
  obtain ⟨chis, hc⟩ := made_says hm
  refine ⟨⟨chis, made_names hm, fun k r hk => ?_, hc⟩, fun q h1 h2 => ?_⟩
  · rw [ht.files (self.taskFile k) (taskFile_ne_reportFile self _)]
    have := savedFiles_mem self env rs (i := 0) hk
    rw [zero_add] at this
    exact foldl_put_mem _ (savedFiles_nodup self env rs 0) this
  · rw [ht.files q h1]
    refine foldl_put_other _ fun hq => ?_
    obtain ⟨k, -, h3, h4⟩ := savedFiles_names self env rs hq
    exact h2 k (by omega) h4

theorem forall₂_snd {env : Env} {rs : List (String × Report)} {names : List String}
    (h : List.Forall₂ (fun (q : String × Report) n => q.2.Made env n) rs names) : List.Forall₂ (fun r n => r.Made env n) (rs.map Prod.snd) names := by
  induction h with
  | nil => exact .nil
  | cons h _ ih => exact .cons h ih

/-- From the texts to the values. -/
theorem best_of_texts {env : Env} {pipeline : String} {rs : List Report} {chis : List (Option PyFloat)}
    (h : List.Forall₂ (fun (r : Report) x => r.Says env x) rs chis) {b : BestFit} (hb : BestSoFar pipeline rs b) :
    BestByText env pipeline rs chis b := by
  have hget : ∀ {r : Report}, r ∈ rs → ∃ (k : ℕ) (x : Option PyFloat), rs[k]? = some r ∧ chis[k]? = some x ∧ r.Says env x := by
    intro r hr
    clear hb
    induction h with
    | nil => cases hr
    | cons h _ ih =>
      rcases List.mem_cons.mp hr with rfl | hr
      · exact ⟨0, _, rfl, rfl, h⟩
      · obtain ⟨k, x, h1, h2, h3⟩ := ih hr
        exact ⟨k + 1, x, h1, h2, h3⟩
  have hget' : ∀ {x : Option PyFloat}, x ∈ chis → ∃ r ∈ rs, r.Says env x := by
    intro x hx
    clear hget hb
    induction h with
    | nil => cases hx
    | cons h _ ih =>
      rcases List.mem_cons.mp hx with rfl | hx
      · exact ⟨_, List.mem_cons_self, h⟩
      · obtain ⟨r, h1, h2⟩ := ih hx
        exact ⟨r, List.mem_cons_of_mem _ h1, h2⟩
  rcases hb with ⟨h1, h2⟩ | ⟨r, hr, c, h1, h2, h3⟩
  · refine .inl ⟨fun x hx => ?_, h2⟩
    obtain ⟨r, hr, hs⟩ := hget' hx
    cases x with
    | none => rfl
    | some x => have := hs.2; rw [h1 r hr] at this; cases this
  · obtain ⟨k, x, k1, k2, k3⟩ := hget hr
    cases x with
    | none => have := k3.2; rw [h1] at this; cases this
    | some x =>
      have hx : c = env.strFloat x := by have := k3.2; rw [h1] at this; exact Option.some.inj this
      refine .inr ⟨k, r, x, k1, k2, h2, fun y hy => ?_⟩
      obtain ⟨r', hr', hs'⟩ := hget' hy
      rw [← hx]
      exact h3 r' hr' _ hs'.2

theorem best_by_value {env : Env} {pipeline : String} {rs : List Report} {chis : List (Option PyFloat)} {b : BestFit}
    (h : BestByText env pipeline rs chis b) (hm : ∀ y z, some y ∈ chis → some z ∈ chis → y < z → env.strFloat y < env.strFloat z) :
    BestByValue pipeline rs chis b := by
  rcases h with h | ⟨k, r, x, h1, h2, h3, h4⟩
  · exact .inl h
  · exact .inr ⟨k, r, x, h1, h2, h3, fun y hy hlt => absurd (hm y x hy (List.mem_of_getElem? h2) hlt) (not_lt.mpr (h4 y hy))⟩

theorem says_nonempty {env : Env} (hstr : ∀ x, env.strFloat x ≠ "") {rs : List Report} {chis : List (Option PyFloat)}
    (h : List.Forall₂ (fun (r : Report) x => r.Says env x) rs chis) : ∀ r ∈ rs, r.chi_squared ≠ some "" := by
  induction h with
  | nil => intro r hr; cases hr
  | cons h _ ih =>
    rename_i r x rs xs _
    intro r' hr'
    rcases List.mem_cons.mp hr' with rfl | hr'
    · cases x with
      | none => rw [h.2]; exact fun hh => by cases hh
      | some x => rw [h.2]; exact fun hh => hstr x (Option.some.inj hh)
    · exact ih r' hr'

end UA
