import Verif.Lemmas.ParametersInv

/-!
# Table facts: always-fixed names, ordered values, bounds
-/

namespace UA

variable {α : Type}

theorem declaredFixed_iff (c : ParamClass) : ∀ n ∈ c.table.initArgs, DeclaredFixed c n ↔ n ∈ c.table.alwaysFixed := by
  cases c <;> decide +kernel

/-- The value function of a well-formed object. -/
theorem ModelParameters.WellFormed.exists_values {p : ModelParameters α} (h : p.WellFormed) :
    ∃ v : String → α, ∀ q ∈ p.data, q.value = v q.name := by
  have hne : p.data ≠ [] := by
    intro h0
    have := h.names
    rw [names_of_data, h0] at this
    exact initArgs_ne_nil p.cls this.symm
  obtain ⟨q₀, hq₀⟩ := List.exists_mem_of_ne_nil _ hne
  classical
  refine ⟨fun n => if hn : ∃ q ∈ p.data, q.name = n then hn.choose.value else q₀.value, fun q hq => ?_⟩
  have hn : ∃ r ∈ p.data, r.name = q.name := ⟨q, hq, rfl⟩
  simp only [dif_pos hn]
  obtain ⟨h1, h2⟩ := hn.choose_spec
  rw [List.inj_on_of_nodup_map h.nodup h1 hq h2]

theorem ModelParameters.WellFormed.getItem {p : ModelParameters α} (h : p.WellFormed) {v : String → α} (hv : ∀ q ∈ p.data, q.value = v q.name)
    {n : String} (hn : n ∈ p.cls.table.initArgs) : ∃ flag, p.getItem n = .ok ⟨n, v n, flag⟩ ∧ (⟨n, v n, flag⟩ : Parameter α) ∈ p.data := by
  rw [← h.names] at hn
  obtain ⟨q, hq, rfl⟩ := List.mem_map.mp hn
  refine ⟨q.is_fixed, ?_, ?_⟩
  · rw [getItem_mem h.nodup hq, ← hv q hq]
  · rw [← hv q hq]; exact hq

theorem ModelParameters.WellFormed.holds_iff {p : ModelParameters α} (h : p.WellFormed) {v : String → α} (hv : ∀ q ∈ p.data, q.value = v q.name)
    {n : String} {x : α} : p.Holds n x ↔ n ∈ p.cls.table.initArgs ∧ x = v n := by
  constructor
  · rintro ⟨flag, hf⟩
    obtain ⟨hm, -⟩ := (getItem_eq_ok h.nodup).mp hf
    exact ⟨by rw [← h.names]; exact List.mem_map_of_mem hm, hv _ hm⟩
  · rintro ⟨hn, rfl⟩
    obtain ⟨flag, hf, -⟩ := h.getItem hv hn
    exact ⟨flag, hf⟩

theorem ModelParameters.WellFormed.allValues {p : ModelParameters α} (h : p.WellFormed) {v : String → α} (hv : ∀ q ∈ p.data, q.value = v q.name) :
    p.getAllValues = p.cls.table.initArgs.map v := by
  rw [← h.names, names_of_data, List.map_map]
  exact List.map_congr_left hv

/-! ### Ordered values -/

theorem orderedNames_sub (c : ParamClass) : ∀ n ∈ c.table.orderedNames, n ∈ c.table.initArgs := by cases c <;> decide +kernel

theorem ModelParameters.WellFormed.orderedValues {p : ModelParameters α} (h : p.WellFormed) {v : String → α} (hv : ∀ q ∈ p.data, q.value = v q.name) :
    p.getOrderedValues = .ok (p.cls.table.orderedNames.map v) := by
  unfold ModelParameters.getOrderedValues
  refine mapM_ok_of fun n hn => ?_
  obtain ⟨flag, hf, -⟩ := h.getItem hv (orderedNames_sub _ n hn)
  rw [hf]; rfl

/-- What the table of `from_ordered_values` of a class satisfies. -/
structure OrderedTable.Good (c : ParamClass) (t : OrderedTable) : Prop where
  names : t.names = c.table.orderedNames
  constants : t.constantArgs = constantNames c
  sub : ∀ n ∈ constantNames c, n ∈ c.table.initArgs
  extras : t.extras = (constantNames c).map fun n => (n, n, true)
  cover : ∀ n ∈ c.table.initArgs, n ∈ c.table.orderedNames ∨ n ∈ constantNames c
  disjoint : ∀ n ∈ c.table.orderedNames, n ∉ constantNames c
  nodup : (c.table.orderedNames).Nodup
  length : c.table.orderedNames.length + (constantNames c).length = c.table.initArgs.length
  fixed : ∀ n ∈ constantNames c, n ∈ c.table.alwaysFixed

theorem fromOrdered_good (c : ParamClass) (h : IsResonanceClass c) : ∃ t, c.table.fromOrdered = some t ∧ t.Good c := by
  cases c
  case kaon => exact ⟨_, rfl, by constructor <;> decide +kernel⟩
  case kaonB => exact ⟨_, rfl, by constructor <;> decide +kernel⟩
  case kaonSimplified => exact ⟨_, rfl, by constructor <;> decide +kernel⟩
  case kaonFixedRhoOmega => exact ⟨_, rfl, by constructor <;> decide +kernel⟩
  case kaonFixedSelected => exact ⟨_, rfl, by constructor <;> decide +kernel⟩
  case nucleon => exact ⟨_, rfl, by constructor <;> decide +kernel⟩
  all_goals exact h.elim

theorem fromOrdered_none (c : ParamClass) (h : ¬ IsResonanceClass c) : c.table.fromOrdered = none := by
  cases c
  case etgmr => rfl
  case twoPoles => rfl
  case oscillations => rfl
  all_goals exact absurd trivial h

theorem lookup_perm_eq {l : List (String × α)} {names : List String} {v : String → α} (hp : (l.map (·.1)).Perm names) (hn : names.Nodup)
    (hv : ∀ q ∈ l, q.2 = v q.1) {n : String} (h : n ∈ names) : l.lookup n = some (v n) := by
  obtain ⟨q, hq, rfl⟩ := List.mem_map.mp (hp.mem_iff.mpr h)
  exact lookup_of_mem (by rw [← hv q hq]; exact hq) (hp.nodup_iff.mpr hn)

theorem constantNames_nodup (c : ParamClass) : (constantNames c).Nodup := by cases c <;> decide +kernel

/-- The list `from_ordered_values` hands to `from_list`. -/
def orderedList (c : ParamClass) (v : String → α) : List (Parameter α) :=
  (c.table.orderedNames.map fun n => ⟨n, v n, false⟩) ++ ((constantNames c).map fun n => ⟨n, v n, true⟩)

theorem lastValue_of_nodup {l : List (Parameter α)} {q : Parameter α} (hn : (l.map (·.name)).Nodup) (hq : q ∈ l) :
    lastValue l q.name = some q.value := by
  unfold lastValue
  refine lookup_of_mem ?_ ?_
  · rw [List.mem_reverse]; exact List.mem_map.mpr ⟨q, hq, rfl⟩
  · rw [List.map_reverse, List.nodup_reverse, List.map_map]; exact hn

theorem fromOrderedValues_eq {c : ParamClass} (hc : IsResonanceClass c) {kw : List (String × α)} {v : String → α}
    (hp : (kw.map (·.1)).Perm (constantNames c)) (hv : ∀ q ∈ kw, q.2 = v q.1) :
    c.fromOrderedValues (c.table.orderedNames.map v) kw = .ok ⟨c, c.table.alwaysFixed,
      c.table.initArgs.map fun n => ⟨n, v n, decide (n ∈ c.table.alwaysFixed)⟩⟩ := by
  obtain ⟨t, ht, g⟩ := fromOrdered_good c hc
  unfold ParamClass.fromOrderedValues
  rw [ht]
  simp only
  rw [g.constants, bindKwargs_ok (f := v) (fun n hn => lookup_perm_eq hp (constantNames_nodup c) hv hn)
    (fun q hq => hp.mem_iff.mp (List.mem_map_of_mem hq)), except_ok_bind, g.names, if_neg (by simp)]
  rw [g.extras, mapM_ok_of (g := fun e : String × String × Bool => (⟨e.1, v e.2.1, e.2.2⟩ : Parameter α)), except_ok_bind]
  · have hl : ((c.table.orderedNames.zip (c.table.orderedNames.map v)).map fun p => (⟨p.1, p.2, false⟩ : Parameter α)) ++
        ((constantNames c).map fun n => (n, n, true)).map (fun e : String × String × Bool => (⟨e.1, v e.2.1, e.2.2⟩ : Parameter α)) =
        orderedList c v := by
      unfold orderedList
      rw [zip_map_self, List.map_map, List.map_map]; rfl
    rw [hl]
    have hnm : (orderedList c v).map (·.name) = c.table.orderedNames ++ constantNames c := by
      unfold orderedList
      rw [List.map_append, List.map_map, List.map_map]
      exact congrArg₂ _ (List.map_id _) (List.map_id _)
    have hnd : ((orderedList c v).map (·.name)).Nodup := by
      rw [hnm]
      refine List.nodup_append.mpr ⟨g.nodup, constantNames_nodup c, fun a ha b hb => ?_⟩
      rintro rfl
      exact g.disjoint _ ha hb
    have hval : ∀ q ∈ orderedList c v, q.value = v q.name := by
      intro q hq
      rcases List.mem_append.mp hq with h | h <;> obtain ⟨n, -, rfl⟩ := List.mem_map.mp h <;> rfl
    rw [fromList_eq c (f := v)]
    · congr 2
      unfold listedData
      refine List.map_congr_left fun n hn => ?_
      congr 1
      refine decide_eq_decide.mpr ⟨fun h => ?_, Or.inl⟩
      rcases h with h | ⟨q, hq, hf, rfl⟩
      · exact h
      · rcases List.mem_append.mp hq with h | h
        · obtain ⟨m, -, rfl⟩ := List.mem_map.mp h; cases hf
        · obtain ⟨m, hm, rfl⟩ := List.mem_map.mp h; exact g.fixed m hm
    · intro n hn
      have : n ∈ (orderedList c v).map (·.name) := by
        rw [hnm]; exact List.mem_append.mpr (g.cover n hn)
      obtain ⟨q, hq, rfl⟩ := List.mem_map.mp this
      rw [lastValue_of_nodup hnd hq, hval q hq]
    · intro q hq
      have : q.name ∈ (orderedList c v).map (·.name) := List.mem_map_of_mem hq
      rw [hnm] at this
      rcases List.mem_append.mp this with h | h
      · exact orderedNames_sub c _ h
      · exact g.sub _ h
  · intro e he
    obtain ⟨n, hn, rfl⟩ := List.mem_map.mp he
    rw [readVar_eq_ok.mpr (lookup_map_self hn)]; rfl

theorem fromOrderedValues_length {c : ParamClass} (hc : IsResonanceClass c) {kw : List (String × α)} {l : List α}
    (hp : (kw.map (·.1)).Perm (constantNames c)) (hl : l.length + (constantNames c).length ≠ c.table.initArgs.length) :
    c.fromOrderedValues l kw = .error .assertionError := by
  obtain ⟨t, ht, g⟩ := fromOrdered_good c hc
  have hne : kw ≠ [] := by
    rintro rfl
    have : constantNames c = [] := List.nil_perm.mp hp
    revert this hc
    cases c <;> simp [constantNames, IsResonanceClass]
  obtain ⟨q₀, hq₀⟩ := List.exists_mem_of_ne_nil _ hne
  have hnd : (kw.map (·.1)).Nodup := hp.nodup_iff.mpr (constantNames_nodup c)
  have hv : ∀ q ∈ kw, q.2 = (kw.lookup q.1).getD q₀.2 := fun q hq => by
    rw [lookup_of_mem (v := q.2) hq hnd]; rfl
  unfold ParamClass.fromOrderedValues
  rw [ht]
  simp only
  rw [g.constants, bindKwargs_ok (f := fun n => (kw.lookup n).getD q₀.2)
    (fun n hn => lookup_perm_eq (v := fun n => (kw.lookup n).getD q₀.2) hp (constantNames_nodup c) hv hn)
    (fun q hq => hp.mem_iff.mp (List.mem_map_of_mem hq)), except_ok_bind, g.names, if_pos]
  have := g.length
  omega

/-! ### Resonances -/

theorem fixResonances_good (c : ParamClass) (h : IsResonanceClass c) : ∃ ns, c.table.fixResonances = some ns ∧
    (∀ n ∈ ns, n ∈ c.table.initArgs) ∧ ∀ n ∈ c.table.initArgs, n ∈ ns ↔ IsResonanceName n := by
  cases c
  case kaon => exact ⟨_, rfl, by decide +kernel, by decide +kernel⟩
  case kaonB => exact ⟨_, rfl, by decide +kernel, by decide +kernel⟩
  case kaonSimplified => exact ⟨_, rfl, by decide +kernel, by decide +kernel⟩
  case kaonFixedRhoOmega => exact ⟨_, rfl, by decide +kernel, by decide +kernel⟩
  case kaonFixedSelected => exact ⟨_, rfl, by decide +kernel, by decide +kernel⟩
  case nucleon => exact ⟨_, rfl, by decide +kernel, by decide +kernel⟩
  all_goals exact h.elim

theorem fixResonances_none (c : ParamClass) (h : ¬ IsResonanceClass c) : c.table.fixResonances = none := by
  cases c
  case etgmr => rfl
  case twoPoles => rfl
  case oscillations => rfl
  all_goals exact absurd trivial h

/-! ### Bounds -/

/-- Values of the local variables, given the parameter values. -/
noncomputable def localsV (v : String → ℝ) : List (String × LocalExpr) → List (String × ℝ) → List (String × ℝ)
  | [], env => env
  | (x, .sqrtValue n) :: rest, env => localsV v rest ((x, Real.sqrt (v n)) :: env)
  | (x, .maxOf a b) :: rest, env => localsV v rest ((x, max ((env.lookup a).getD 0) ((env.lookup b).getD 0)) :: env)

/-- The local assignments only use parameters in `names` and earlier local variables. -/
def localsOk (names : List String) : List (String × LocalExpr) → List String → Bool
  | [], _ => true
  | (x, .sqrtValue n) :: rest, defined => names.contains n && localsOk names rest (x :: defined)
  | (x, .maxOf a b) :: rest, defined => defined.contains a && defined.contains b && localsOk names rest (x :: defined)

/-- The parameters under a square root. -/
def sqrtNames (ls : List (String × LocalExpr)) : List String :=
  ls.filterMap fun e => match e.2 with
    | .sqrtValue n => some n
    | .maxOf _ _ => none

theorem lookup_getD_of_mem {env : List (String × ℝ)} {a : String} (h : a ∈ env.map (·.1)) : env.lookup a = some ((env.lookup a).getD 0) := by
  obtain ⟨x, hx⟩ := lookup_isSome_of_mem h
  rw [hx]; rfl

theorem evalLocals_eq {p : ModelParameters ℝ} (h : p.WellFormed) {v : String → ℝ} (hv : ∀ q ∈ p.data, q.value = v q.name) :
    ∀ (ls : List (String × LocalExpr)) (env : List (String × ℝ)), localsOk p.cls.table.initArgs ls (env.map (·.1)) = true →
      (∀ n ∈ sqrtNames ls, 0 ≤ v n) → evalLocals p ls env = .ok (localsV v ls env)
  | [], env, _, _ => rfl
  | (x, .sqrtValue n) :: rest, env, hok, hs => by
    unfold localsOk at hok
    rw [Bool.and_eq_true] at hok
    obtain ⟨flag, hf, -⟩ := h.getItem hv (n := n) (by simpa using hok.1)
    unfold evalLocals localsV
    rw [hf, except_ok_bind]
    simp only
    rw [pySqrt_ok (hs n (by simp [sqrtNames])), except_ok_bind]
    exact evalLocals_eq h hv rest _ hok.2 fun m hm => hs m (by simp only [sqrtNames, List.filterMap_cons]; exact List.mem_cons_of_mem _ hm)
  | (x, .maxOf a b) :: rest, env, hok, hs => by
    unfold localsOk at hok
    rw [Bool.and_eq_true, Bool.and_eq_true] at hok
    unfold evalLocals localsV
    rw [readVar_eq_ok.mpr (lookup_getD_of_mem (by simpa using hok.1.1)), except_ok_bind,
      readVar_eq_ok.mpr (lookup_getD_of_mem (by simpa using hok.1.2)), except_ok_bind]
    exact evalLocals_eq h hv rest _ hok.2 fun m hm => hs m (by simpa only [sqrtNames, List.filterMap_cons] using hm)

/-- A lower bound given values and locals. -/
noncomputable def lowerV (v : String → ℝ) (env : List (String × ℝ)) : LowerExpr → WithBot ℝ
  | .negInf => ⊥
  | .const q => ((q : ℝ) : WithBot ℝ)
  | .value n => (v n : WithBot ℝ)
  | .loc x => (((env.lookup x).getD 0 : ℝ) : WithBot ℝ)

/-- A bounds entry only uses known parameters and defined local variables. -/
def lowerOk (names locals : List String) : LowerExpr → Bool
  | .negInf => true
  | .const _ => true
  | .value n => names.contains n
  | .loc x => locals.contains x

theorem evalBounds_eq {p : ModelParameters ℝ} (h : p.WellFormed) {v : String → ℝ} (hv : ∀ q ∈ p.data, q.value = v q.name)
    {env : List (String × ℝ)} {t : List (String × LowerExpr × UpperExpr)}
    (hok : ∀ e ∈ t, lowerOk p.cls.table.initArgs (env.map (·.1)) e.2.1 = true) :
    evalBounds p env t = .ok (t.map fun e => (e.1, (lowerV v env e.2.1, evalUpper e.2.2))) := by
  unfold evalBounds
  refine mapM_ok_of fun e he => ?_
  have hok := hok e he
  have : evalLower p env e.2.1 = .ok (lowerV v env e.2.1) := by
    revert hok
    cases e.2.1 with
    | negInf => intro _; rfl
    | const q => intro _; rfl
    | value n =>
      intro hok
      obtain ⟨flag, hf, -⟩ := h.getItem hv (n := n) (by simpa [lowerOk] using hok)
      show (_ >>= _) = _
      rw [hf]; rfl
    | loc x =>
      intro hok
      show (_ >>= _) = _
      rw [readVar_eq_ok.mpr (lookup_getD_of_mem (by simpa [lowerOk] using hok))]; rfl
  rw [this]; rfl

theorem localsV_keys (v : String → ℝ) : ∀ (ls : List (String × LocalExpr)) (env : List (String × ℝ)),
    (localsV v ls env).map (·.1) = (ls.map (·.1)).reverse ++ env.map (·.1)
  | [], env => by simp [localsV]
  | (x, .sqrtValue n) :: rest, env => by unfold localsV; rw [localsV_keys v rest]; simp
  | (x, .maxOf a b) :: rest, env => by unfold localsV; rw [localsV_keys v rest]; simp

/-- The written order of the two bounds. -/
def exprLt : LowerExpr → UpperExpr → Bool
  | .negInf, _ => true
  | _, .posInf => true
  | .const a, .const b => decide (a < b)
  | _, _ => false

theorem exprLt_boundLt {l : LowerExpr} {u : UpperExpr} (h : exprLt l u = true) (v : String → ℝ) (env : List (String × ℝ)) :
    BoundLt (lowerV v env l) (evalUpper u) := by
  intro a b ha hb
  cases u with
  | posInf => cases hb
  | const q =>
    cases l with
    | negInf => cases ha
    | const r =>
      simp only [exprLt, decide_eq_true_eq] at h
      have ha' : ((r : ℝ)) = a := WithBot.coe_injective ha
      have hb' : ((q : ℝ)) = b := WithTop.coe_injective hb
      rw [← ha', ← hb']; exact_mod_cast h
    | value n => cases h
    | loc x => cases h

/-- What a bounds table satisfies. -/
structure BoundsGood (c : ParamClass) (locals : List (String × LocalExpr)) (t : List (String × LowerExpr × UpperExpr)) : Prop where
  locals_ok : localsOk c.table.initArgs locals [] = true
  roots : ∀ n ∈ sqrtNames locals, "t_0_".toList <+: n.toList ∧ n ∈ c.table.initArgs
  refs : ∀ e ∈ t, lowerOk c.table.initArgs (locals.map (·.1)).reverse e.2.1 = true
  lt : ∀ e ∈ t, exprLt e.2.1 e.2.2 = true
  nodup : (t.map (·.1)).Nodup
  cover : ∀ n ∈ c.table.initArgs, n ∈ c.table.alwaysFixed ∨ n ∈ t.map (·.1)

theorem handpicked_good (c : ParamClass) : BoundsGood c [] c.table.handpicked := by
  cases c <;> constructor <;> decide +kernel

theorem maximal_good (c : ParamClass) : BoundsGood c c.table.maximalLocals c.table.maximal := by
  cases c <;> constructor <;> decide +kernel

/-- The table and locals behind `bounds`. -/
def boundsTable (c : ParamClass) : Bool → List (String × LowerExpr × UpperExpr)
  | true => c.table.handpicked
  | false => c.table.maximal

def boundsLocals (c : ParamClass) : Bool → List (String × LocalExpr)
  | true => []
  | false => c.table.maximalLocals

theorem boundsGood (c : ParamClass) (hp : Bool) : BoundsGood c (boundsLocals c hp) (boundsTable c hp) := by
  cases hp
  · exact maximal_good c
  · exact handpicked_good c

/-- The bounds dictionary given the values. -/
noncomputable def boundsV (c : ParamClass) (v : String → ℝ) (hp : Bool) : BoundsDict :=
  (boundsTable c hp).map fun e => (e.1, (lowerV v (localsV v (boundsLocals c hp) []) e.2.1, evalUpper e.2.2))

theorem bounds_eq {p : ModelParameters ℝ} (h : p.WellFormed) {v : String → ℝ} (hv : ∀ q ∈ p.data, q.value = v q.name) (hp : Bool)
    (h0 : hp = false → ∀ n ∈ p.cls.table.initArgs, "t_0_".toList <+: n.toList → 0 ≤ v n) : p.bounds hp = .ok (boundsV p.cls v hp) := by
  have g := boundsGood p.cls hp
  cases hp
  · show p.boundsMaximal = _
    unfold ModelParameters.boundsMaximal
    rw [evalLocals_eq h hv p.cls.table.maximalLocals [] g.locals_ok (fun n hn => h0 rfl n (g.roots n hn).2 (g.roots n hn).1), except_ok_bind,
      evalBounds_eq h hv]
    · rfl
    · intro e he
      rw [localsV_keys, List.map_nil, List.append_nil]
      exact g.refs e he
  · show p.boundsHandpicked = _
    unfold ModelParameters.boundsHandpicked
    rw [evalBounds_eq h hv]
    · rfl
    · intro e he; exact g.refs e he

theorem boundsV_lookup {c : ParamClass} {v : String → ℝ} {hp : Bool} {n : String} (hn : n ∈ c.table.initArgs) (hf : n ∉ c.table.alwaysFixed) :
    ∃ b, (boundsV c v hp).lookup n = some b ∧ BoundLt b.1 b.2 := by
  have g := boundsGood c hp
  obtain ⟨e, he, rfl⟩ := List.mem_map.mp ((g.cover n hn).resolve_left hf)
  refine ⟨_, lookup_of_mem (List.mem_map_of_mem he) ?_, exprLt_boundLt (g.lt e he) _ _⟩
  unfold boundsV
  rw [List.map_map]; exact g.nodup

theorem boundsLoop_eq {dict : BoundsDict} {B : String → WithBot ℝ × WithTop ℝ} :
    ∀ {data : List (Parameter ℝ)}, (∀ q ∈ data, q.is_fixed = false → dict.lookup q.name = some (B q.name)) →
    boundsLoop dict data = .ok ((data.filter (!·.is_fixed)).map (fun q => (B q.name).1), (data.filter (!·.is_fixed)).map (fun q => (B q.name).2))
  | [], _ => rfl
  | q :: data, h => by
    have ih := boundsLoop_eq (dict := dict) (B := B) (data := data) fun r hr => h r (by simp [hr])
    unfold boundsLoop
    by_cases hq : q.is_fixed = true
    · rw [if_pos hq, ih]; simp [hq]
    · rw [if_neg hq, readVar_eq_ok.mpr (h q (by simp) (by simpa using hq)), except_ok_bind, ih, except_ok_bind]
      simp [hq]

/-! ### The written maximal bounds -/

/-- One entry of a maximal bounds table, read off its name. -/
def maximalEntry (c : ParamClass) (e : String × LowerExpr × UpperExpr) : Prop :=
  e.2.2 = .posInf ∧
    (("mass_".toList <+: e.1.toList ∧
        e.2.1 = .loc (if IsIsoscalarName e.1 then "lower_mass_bound_isoscalar" else "lower_mass_bound_isovector")) ∨
      ("decay_rate_".toList <+: e.1.toList ∧ e.2.1 = .const 0) ∨
      ("a_".toList <+: e.1.toList ∧ e.2.1 = .negInf) ∨
      ∃ m ∈ c.table.initArgs, e.1.toList = "t_in_".toList ++ m.toList.drop 4 ∧ m.toList = "t_0_".toList ++ m.toList.drop 4 ∧
        e.2.1 = .value m)

instance (c : ParamClass) : DecidablePred (maximalEntry c) := fun e => by unfold maximalEntry; infer_instance

theorem maximal_entries (c : ParamClass) (h : IsResonanceClass c) : ∀ e ∈ c.table.maximal, maximalEntry c e := by
  cases c
  case etgmr => exact h.elim
  case twoPoles => exact h.elim
  case oscillations => exact h.elim
  all_goals decide +kernel

theorem locals_threshold (c : ParamClass) (h : IsResonanceClass c) (v : String → ℝ) (n : String) :
    (((localsV v c.table.maximalLocals []).lookup
      (if IsIsoscalarName n then "lower_mass_bound_isoscalar" else "lower_mass_bound_isovector")).getD 0) = massThreshold c v n := by
  cases c
  case etgmr => exact h.elim
  case twoPoles => exact h.elim
  case oscillations => exact h.elim
  all_goals
    unfold massThreshold
    by_cases hi : IsIsoscalarName n
    · simp only [if_pos hi]; rfl
    · simp only [if_neg hi]; rfl

theorem ordered_cover (c : ParamClass) (h : c ≠ .etgmr) : ∀ n ∈ c.table.initArgs, n ∈ c.table.orderedNames ∨ n ∈ constantNames c := by
  cases c
  case etgmr => exact absurd rfl h
  all_goals decide +kernel

theorem zip_values {names : List String} (hn : names.Nodup) {l : List α} (hl : l.length = names.length) (d : String → α) :
    names.map (fun n => ((names.zip l).lookup n).getD (d n)) = l := by
  induction names generalizing l with
  | nil => simpa [eq_comm] using hl
  | cons a names ih =>
    obtain ⟨hna, hn⟩ := List.nodup_cons.mp hn
    cases l with
    | nil => cases hl
    | cons x l =>
      rw [List.map_cons, List.zip_cons_cons]
      congr 1
      · simp
      · refine Eq.trans (List.map_congr_left fun n hmem => ?_) (ih hn (by simpa using hl))
        have : (n == a) = false := by
          rw [beq_eq_false_iff_ne]; rintro rfl; exact hna hmem
        rw [List.lookup_cons, this]

theorem fromOrderedValues_inv {c : ParamClass} (hc : IsResonanceClass c) {l : List α} {kw : List (String × α)} {p : ModelParameters α}
    (hk : (kw.map (·.1)).Perm (constantNames c)) (h : c.fromOrderedValues l kw = .ok p) :
    ∃ v : String → α, l = c.table.orderedNames.map v ∧ ∀ q ∈ kw, q.2 = v q.1 := by
  obtain ⟨t, ht, g⟩ := fromOrdered_good c hc
  have hl : l.length = c.table.orderedNames.length := by
    by_contra hne
    rw [fromOrderedValues_length hc hk (by have := g.length; omega)] at h
    cases h
  have hne : kw ≠ [] := by
    rintro rfl
    have : constantNames c = [] := List.nil_perm.mp hk
    revert this hc
    cases c <;> simp [constantNames, IsResonanceClass]
  obtain ⟨q₀, hq₀⟩ := List.exists_mem_of_ne_nil _ hne
  have hnd : (kw.map (·.1)).Nodup := hk.nodup_iff.mpr (constantNames_nodup c)
  refine ⟨fun n => ((c.table.orderedNames.zip l).lookup n).getD ((kw.lookup n).getD q₀.2), ?_, fun q hq => ?_⟩
  · exact (zip_values g.nodup hl _).symm
  · have hno : q.1 ∉ c.table.orderedNames := fun hm => g.disjoint _ hm (hk.mem_iff.mp (List.mem_map_of_mem hq))
    have : (c.table.orderedNames.zip l).lookup q.1 = none := by
      rcases hx : (c.table.orderedNames.zip l).lookup q.1 with _ | x
      · rfl
      · exact absurd (List.of_mem_zip (lookup_mem hx)).1 hno
    simp only [this, Option.getD_none]
    rw [lookup_of_mem (v := q.2) hq hnd]; rfl

theorem evalLocals_sqrt {p : ModelParameters ℝ} (h : p.WellFormed) {v : String → ℝ} (hv : ∀ q ∈ p.data, q.value = v q.name) :
    ∀ (ls : List (String × LocalExpr)) (env : List (String × ℝ)), localsOk p.cls.table.initArgs ls (env.map (·.1)) = true →
      (∃ n ∈ sqrtNames ls, v n < 0) → evalLocals p ls env = .error .valueError
  | [], env, _, hs => by simp [sqrtNames] at hs
  | (x, .sqrtValue n) :: rest, env, hok, hs => by
    unfold localsOk at hok
    rw [Bool.and_eq_true] at hok
    obtain ⟨flag, hf, -⟩ := h.getItem hv (n := n) (by simpa using hok.1)
    unfold evalLocals
    rw [hf, except_ok_bind]
    simp only
    by_cases hn : v n < 0
    · rw [pySqrt_neg hn]; rfl
    · rw [pySqrt_ok (not_lt.mp hn), except_ok_bind]
      refine evalLocals_sqrt h hv rest _ hok.2 ?_
      obtain ⟨m, hm, hneg⟩ := hs
      simp only [sqrtNames, List.filterMap_cons] at hm
      rcases List.mem_cons.mp hm with rfl | hm
      · exact absurd hneg hn
      · exact ⟨m, hm, hneg⟩
  | (x, .maxOf a b) :: rest, env, hok, hs => by
    unfold localsOk at hok
    rw [Bool.and_eq_true, Bool.and_eq_true] at hok
    unfold evalLocals
    rw [readVar_eq_ok.mpr (lookup_getD_of_mem (by simpa using hok.1.1)), except_ok_bind,
      readVar_eq_ok.mpr (lookup_getD_of_mem (by simpa using hok.1.2)), except_ok_bind]
    refine evalLocals_sqrt h hv rest _ hok.2 ?_
    obtain ⟨m, hm, hneg⟩ := hs
    exact ⟨m, by simpa only [sqrtNames, List.filterMap_cons] using hm, hneg⟩

theorem sqrtNames_cover (c : ParamClass) : ∀ n ∈ c.table.initArgs, "t_0_".toList <+: n.toList → n ∈ sqrtNames c.table.maximalLocals := by
  cases c <;> decide +kernel

theorem evalLocals_negative {p : ModelParameters ℝ} (h : p.WellFormed) {v : String → ℝ} (hv : ∀ q ∈ p.data, q.value = v q.name)
    (h0 : ∃ n ∈ p.cls.table.initArgs, "t_0_".toList <+: n.toList ∧ v n < 0) :
    evalLocals p p.cls.table.maximalLocals [] = .error .valueError := by
  obtain ⟨n, hn, ht, hneg⟩ := h0
  exact evalLocals_sqrt h hv _ [] (maximal_good p.cls).locals_ok ⟨n, sqrtNames_cover _ n hn ht, hneg⟩

/-! ### Examples used by the property files -/

/-- The object of a class whose constructor arguments are all `x`. -/
def uniform (c : ParamClass) (x : α) : ModelParameters α := ⟨c, c.table.alwaysFixed, freshData c fun _ => x⟩

theorem uniform_init (c : ParamClass) (x : α) : c.init (c.table.initArgs.map fun n => (n, x)) = .ok (uniform c x) := by
  refine init_eq c (f := fun _ => x) (fun n hn => lookup_map_self hn) fun q hq => ?_
  obtain ⟨n, hn, rfl⟩ := List.mem_map.mp hq
  exact hn

theorem uniform_reachable (c : ParamClass) (x : α) : Reachable (uniform c x) := .init (uniform_init c x)

end UA
