import Verif.Lemmas.ParametersTables

/-!
# Properties C35 - C47: parameter objects
-/

namespace UA

variable {α : Type}

/-! ### C35 -/

/-- **C35** any operations, failing ones included, keep the sequence of names. -/
theorem C35_names_stable {p : ModelParameters α} (h : Reachable p) (ops : List (ParamOp α)) : (runOps p ops).names = p.names := by
  obtain ⟨h1, h2⟩ := runOps_wellFormed (reachable_wellFormed h) ops
  rw [h1.names, h2, (reachable_wellFormed h).names]

example : (runOps (uniform .oscillations (1 : ℕ)) [.fixParameters ["a", "nonsense"], .releaseAll, .updateFreeValues [1, 2]]).names =
    ["a", "b", "c", "d"] := by
  rw [C35_names_stable (uniform_reachable _ _)]; rfl

/-- **C35** and the names are distinct, the same for all objects of a class however they were made. -/
theorem C35_names_canonical {p q : ModelParameters α} (hp : Reachable p) (hq : Reachable q) (hc : p.cls = q.cls) :
    p.names = q.names ∧ p.names.Nodup := by
  have h1 := reachable_wellFormed hp
  have h2 := reachable_wellFormed hq
  exact ⟨by rw [h1.names, h2.names, hc], h1.nodup⟩

example : (uniform .kaon (1 : ℕ)).names = ((uniform .kaon (2 : ℕ)).fixParameters ["a_phi", "nonsense"]).2.names :=
  (C35_names_canonical (uniform_reachable _ _) (.step (.fixParameters ["a_phi", "nonsense"]) (uniform_reachable _ _)) (by decide +kernel)).1

/-! ### C36 -/

/-- **C36** the parameters declared always fixed are fixed in every reachable state. -/
theorem C36_always_fixed {p : ModelParameters α} (h : Reachable p) : ∀ q ∈ p.toList, DeclaredFixed p.cls q.name → q.is_fixed = true := by
  intro q hq hd
  have hw := reachable_wellFormed h
  have hn : q.name ∈ p.cls.table.initArgs := by rw [← hw.names]; exact List.mem_map_of_mem hq
  exact hw.fixed q hq (by rw [hw.always]; exact (declaredFixed_iff _ _ hn).mp hd)

example : ∀ q ∈ (uniform .kaonB (0 : ℕ)).releaseAllParameters.toList, DeclaredFixed .kaonB q.name → q.is_fixed = true :=
  C36_always_fixed (.step .releaseAll (uniform_reachable _ _))

/-- **C36** asking for the release of such a parameter is refused, by `release_parameters` and by `__setitem__`. -/
theorem C36_refused {p : ModelParameters α} (h : Reachable p) {n : String} (hn : n ∈ p.names) (hd : DeclaredFixed p.cls n) :
    (∀ ns, n ∈ ns → p.releaseParameters ns = (.error .valueError, p)) ∧
    ∀ v, p.setItem n (.parameter ⟨n, v, false⟩) = (.error .valueError, p) := by
  have hw := reachable_wellFormed h
  have ha : n ∈ p.always_fixed := by
    rw [hw.always]; exact (declaredFixed_iff _ _ (by rw [← hw.names]; exact hn)).mp hd
  refine ⟨fun ns hns => ?_, fun v => ?_⟩
  · unfold ModelParameters.releaseParameters
    rw [if_pos (List.any_eq_true.mpr ⟨n, hns, by simpa using ha⟩)]
  · rw [setItem_eq hw.nodup, if_pos hn]
    simp [ha]

/-- Every class with resonances has such parameters. -/
example : ∀ n ∈ ["t_0_isoscalar", "t_0_isovector", "mass_omega", "decay_rate_rho_prime"], n ∈ (uniform .kaonB (0 : ℕ)).names ∧
    DeclaredFixed .kaonB n := by decide +kernel

/-! ### C37 -/

/-- **C37** in every reachable state `copy()` succeeds and gives an equal object. -/
theorem C37_copy {p : ModelParameters α} (h : Reachable p) : p.copy = .ok p := by
  have hw := reachable_wellFormed h
  obtain ⟨v, hv⟩ := hw.exists_values
  have hnd : (p.data.map (·.name)).Nodup := hw.nodup
  have hc : p.copy = .ok ⟨p.cls, p.cls.table.alwaysFixed, listedData p.cls p.data v⟩ := by
    refine fromList_eq p.cls ?_ ?_
    · intro n hn
      rw [← hw.names] at hn
      obtain ⟨q, hq, rfl⟩ := List.mem_map.mp hn
      rw [← hv q hq]; exact lastValue_of_nodup hnd hq
    · intro q hq
      rw [← hw.names]; exact List.mem_map_of_mem hq
  rw [hc]
  have hl := listed_wellFormed p.cls p.data v
  congr 1
  have hdata : listedData p.cls p.data v = p.data := by
    unfold listedData
    rw [← hw.names, names_of_data, List.map_map]
    refine (List.map_congr_left fun q hq => ?_).trans (List.map_id _)
    simp only [Function.comp, id]
    have hflag : decide (q.name ∈ p.cls.table.alwaysFixed ∨ ∃ r ∈ p.data, r.is_fixed = true ∧ r.name = q.name) = q.is_fixed := by
      by_cases hf : q.is_fixed = true
      · rw [hf]; exact decide_eq_true (Or.inr ⟨q, hq, hf, rfl⟩)
      · rw [Bool.eq_false_iff.mpr hf]
        refine decide_eq_false ?_
        rintro (ha | ⟨r, hr, hrf, hrn⟩)
        · exact hf (hw.fixed q hq (by rw [hw.always]; exact ha))
        · exact hf (by rw [← List.inj_on_of_nodup_map hnd hr hq hrn]; exact hrf)
    rw [hflag, ← hv q hq]
  rw [hdata, ← hw.always]

example : (uniform .nucleon (0 : ℕ)).copy = .ok (uniform .nucleon 0) := C37_copy (uniform_reachable _ _)

/-! ### C38 -/

/-- **C38** construction by keyword, arguments in any order: every name holds the value passed under it, and nothing else is there. -/
theorem C38_constructor {c : ParamClass} {kw : List (String × α)} (hk : (kw.map (·.1)).Perm c.table.initArgs) :
    ∃ p, c.init kw = .ok p ∧ p.cls = c ∧ p.names = c.table.initArgs ∧ (∀ n v, p.Holds n v ↔ (n, v) ∈ kw) ∧
      ∀ q ∈ p.toList, q.is_fixed = true ↔ DeclaredFixed c q.name := by
  have g := table_good c
  have hnd : (kw.map (·.1)).Nodup := hk.nodup_iff.mpr g.nodup
  have hne : kw ≠ [] := by
    rintro rfl
    exact initArgs_ne_nil c (List.nil_perm.mp hk)
  obtain ⟨q₀, hq₀⟩ := List.exists_mem_of_ne_nil _ hne
  have hf : ∀ n ∈ c.table.initArgs, kw.lookup n = some ((kw.lookup n).getD q₀.2) := by
    intro n hn
    obtain ⟨x, hx⟩ := lookup_isSome_of_mem (hk.mem_iff.mpr hn)
    rw [hx]; rfl
  have hw := fresh_wellFormed c fun n => (kw.lookup n).getD q₀.2
  refine ⟨_, init_eq c hf fun q hq => hk.mem_iff.mp (List.mem_map_of_mem hq), rfl, hw.names, fun n v => ?_, ?_⟩
  · rw [hw.holds_iff (v := fun n => (kw.lookup n).getD q₀.2)]
    · constructor
      · rintro ⟨hn, rfl⟩
        exact lookup_mem (hf n hn)
      · intro hm
        refine ⟨hk.mem_iff.mp (List.mem_map_of_mem (f := (·.1)) hm), ?_⟩
        rw [lookup_of_mem hm hnd]; rfl
    · intro q hq
      obtain ⟨e, he, rfl⟩ := List.mem_map.mp hq
      rfl
  · intro q hq
    obtain ⟨e, he, rfl⟩ := List.mem_map.mp hq
    have hn : e.1 ∈ c.table.initArgs := by rw [← g.names]; exact List.mem_map_of_mem he
    rw [declaredFixed_iff c _ hn]
    exact g.flags e he

/-- Keywords out of order. -/
example : ([("d", 4), ("b", 2), ("a", 1), ("c", (3 : ℕ))].map (·.1)).Perm ParamClass.oscillations.table.initArgs := by decide +kernel

/-- **C38** a missing or an unexpected keyword raises `TypeError`. -/
theorem C38_wrong_keywords {c : ParamClass} {kw : List (String × α)} (hd : (kw.map (·.1)).Nodup)
    (hk : ¬ (kw.map (·.1)).Perm c.table.initArgs) : c.init kw = .error .typeError := by
  rcases h : c.init kw with e | p
  · rw [init_error h]
  · obtain ⟨f, -, h1, h2⟩ := paramInit_inv h
    refine absurd ((List.perm_ext_iff_of_nodup hd (table_good c).nodup).mpr fun n => ⟨fun hn => ?_, fun hn => ?_⟩) hk
    · obtain ⟨q, hq, rfl⟩ := List.mem_map.mp hn; exact h2 q hq
    · exact List.mem_map_of_mem (f := (·.1)) (lookup_mem (h1 n hn))

example : ParamClass.oscillations.init [("d", 4), ("b", 2), ("a", 1), ("e", (3 : ℕ))] = .error .typeError :=
  C38_wrong_keywords (by decide +kernel) (by decide +kernel)

/-- **C38** construction by position is construction by keyword with the names in signature order. -/
theorem C38_positional {c : ParamClass} {args : List α} {p : ModelParameters α} (h : c.initPositional args = .ok p) :
    c.init (c.table.initArgs.zip args) = .ok p := by
  obtain ⟨f, rfl, rfl⟩ := initPositional_inv h
  rw [zip_map_self]
  refine init_eq c (fun n hn => lookup_map_self hn) fun q hq => ?_
  obtain ⟨n, hn, rfl⟩ := List.mem_map.mp hq
  exact hn

example : ∃ p, ParamClass.oscillations.initPositional [1, 2, 3, (4 : ℕ)] = .ok p := ⟨_, rfl⟩

/-! ### C39 -/

/-- **C39** a full list in any order. -/
theorem C39_from_list {c : ParamClass} {l : List (Parameter α)} (hl : (l.map (·.name)).Perm c.table.initArgs) :
    ∃ p, c.fromList l = .ok p ∧ p.cls = c ∧ p.names = c.table.initArgs ∧
      ∀ q ∈ l, ∃ flag, p.getItem q.name = .ok ⟨q.name, q.value, flag⟩ ∧ (flag = true ↔ q.is_fixed = true ∨ DeclaredFixed c q.name) := by
  have hnd : (l.map (·.name)).Nodup := hl.nodup_iff.mpr (table_good c).nodup
  have hne : l ≠ [] := by
    rintro rfl
    exact initArgs_ne_nil c (List.nil_perm.mp hl)
  obtain ⟨q₀, hq₀⟩ := List.exists_mem_of_ne_nil _ hne
  have hmem : ∀ q ∈ l, q.name ∈ c.table.initArgs := fun q hq => hl.mem_iff.mp (List.mem_map_of_mem hq)
  have hval : ∀ n ∈ c.table.initArgs, lastValue l n = some ((lastValue l n).getD q₀.value) := by
    intro n hn
    obtain ⟨q, hq, rfl⟩ := List.mem_map.mp (hl.mem_iff.mpr hn)
    rw [lastValue_of_nodup hnd hq]; rfl
  have hw := listed_wellFormed c l fun n => (lastValue l n).getD q₀.value
  refine ⟨_, fromList_eq c hval hmem, rfl, listedData_names c l _, fun q hq => ?_⟩
  refine ⟨decide (q.name ∈ c.table.alwaysFixed ∨ ∃ r ∈ l, r.is_fixed = true ∧ r.name = q.name), ?_, ?_⟩
  · refine (getItem_eq_ok hw.nodup).mpr ⟨?_, rfl⟩
    refine List.mem_map.mpr ⟨q.name, hmem q hq, ?_⟩
    simp only [lastValue_of_nodup hnd hq, Option.getD_some]
  · rw [decide_eq_true_iff, declaredFixed_iff c _ (hmem q hq), or_comm]
    refine or_congr ⟨?_, fun h => ⟨q, hq, h, rfl⟩⟩ Iff.rfl
    rintro ⟨r, hr, hf, hn⟩
    rw [← List.inj_on_of_nodup_map hnd hr hq hn]; exact hf

example : (([⟨"c", 3, true⟩, ⟨"a", 1, false⟩, ⟨"d", 4, false⟩, ⟨"b", 2, true⟩] : List (Parameter ℕ)).map (·.name)).Perm
    ParamClass.oscillations.table.initArgs := by decide +kernel

/-- **C39** reordering the list makes no difference. -/
theorem C39_order_irrelevant {c : ParamClass} {l l' : List (Parameter α)} (hl : (l.map (·.name)).Perm c.table.initArgs) (hp : l'.Perm l) :
    c.fromList l' = c.fromList l := by
  obtain ⟨p, hp1, hpc, hpn, hpi⟩ := C39_from_list hl
  obtain ⟨q, hq1, hqc, hqn, hqi⟩ := C39_from_list (l := l') ((hp.map _).trans hl)
  rw [hp1, hq1]
  congr 1
  refine ext_of_getItem (fromList_wellFormed hq1) (fromList_wellFormed hp1) (by rw [hpc, hqc]) fun n hn => ?_
  rw [hqn] at hn
  obtain ⟨r, hr, rfl⟩ := List.mem_map.mp (hl.mem_iff.mpr hn)
  obtain ⟨f1, h1, h1'⟩ := hpi r hr
  obtain ⟨f2, h2, h2'⟩ := hqi r (hp.mem_iff.mpr hr)
  rw [h1, h2, Bool.eq_iff_iff.mpr (h1'.trans h2'.symm)]

example : ParamClass.oscillations.fromList ([⟨"c", 3, true⟩, ⟨"a", 1, false⟩, ⟨"d", 4, false⟩, ⟨"b", 2, true⟩] : List (Parameter ℕ)) =
    ParamClass.oscillations.fromList [⟨"a", 1, false⟩, ⟨"c", 3, true⟩, ⟨"d", 4, false⟩, ⟨"b", 2, true⟩] :=
  C39_order_irrelevant (by decide +kernel) (.swap _ _ _)

/-- **C39** a list missing a name or containing an unknown one raises `TypeError`. -/
theorem C39_wrong_names {c : ParamClass} {l : List (Parameter α)}
    (h : (∃ n ∈ c.table.initArgs, n ∉ l.map (·.name)) ∨ ∃ q ∈ l, q.name ∉ c.table.initArgs) : c.fromList l = .error .typeError := by
  rcases hl : c.fromList l with e | p
  · rw [fromList_error hl]
  · obtain ⟨f, -, h1, h2⟩ := fromList_inv hl
    rcases h with ⟨n, hn, hm⟩ | ⟨q, hq, hm⟩
    · refine absurd ?_ hm
      have := lookup_mem (h1 n hn)
      rw [List.mem_reverse] at this
      obtain ⟨q, hq, e⟩ := List.mem_map.mp this
      have e : q.name = n := congrArg Prod.fst e
      rw [← e]; exact List.mem_map_of_mem hq
    · exact absurd (h2 q hq) hm

example : ParamClass.oscillations.fromList [⟨"a", 1, false⟩, ⟨"b", (2 : ℕ), false⟩] = .error .typeError :=
  C39_wrong_names (Or.inl ⟨"c", by decide +kernel, by decide +kernel⟩)

/-- **C39** lists with repeated names are accepted: the last value counts, a parameter is fixed if any of its entries is. -/
theorem C39_repeated {c : ParamClass} {l : List (Parameter α)} (h1 : ∀ n ∈ c.table.initArgs, n ∈ l.map (·.name))
    (h2 : ∀ q ∈ l, q.name ∈ c.table.initArgs) :
    ∃ p, c.fromList l = .ok p ∧ p.names = c.table.initArgs ∧
      ∀ pre q post, l = pre ++ q :: post → (∀ r ∈ post, r.name ≠ q.name) →
        ∃ flag, p.getItem q.name = .ok ⟨q.name, q.value, flag⟩ ∧
          (flag = true ↔ (∃ r ∈ l, r.name = q.name ∧ r.is_fixed = true) ∨ DeclaredFixed c q.name) := by
  have hne : l ≠ [] := by
    rintro rfl
    obtain ⟨n, hn⟩ := List.exists_mem_of_ne_nil _ (initArgs_ne_nil c)
    simpa using h1 n hn
  obtain ⟨q₀, hq₀⟩ := List.exists_mem_of_ne_nil _ hne
  have hval : ∀ n ∈ c.table.initArgs, lastValue l n = some ((lastValue l n).getD q₀.value) := by
    intro n hn
    have : n ∈ (l.map fun q => (q.name, q.value)).reverse.map (·.1) := by
      rw [List.map_reverse, List.mem_reverse, List.map_map]; exact h1 n hn
    obtain ⟨x, hx⟩ := lookup_isSome_of_mem this
    unfold lastValue
    rw [hx]; rfl
  have hw := listed_wellFormed c l fun n => (lastValue l n).getD q₀.value
  refine ⟨_, fromList_eq c hval h2, listedData_names c l _, fun pre q post hl hpost => ?_⟩
  have hq : q ∈ l := by rw [hl]; simp
  have hlast : lastValue l q.name = some q.value := by
    unfold lastValue
    rw [hl, List.map_append, List.map_cons, List.reverse_append, List.reverse_cons, lookup_append, lookup_append]
    have hnone : ((post.map fun q => (q.name, q.value)).reverse).lookup q.name = none := by
      rcases hx : ((post.map fun q => (q.name, q.value)).reverse).lookup q.name with _ | x
      · exact hx
      · have := lookup_mem hx
        rw [List.mem_reverse] at this
        obtain ⟨r, hr, e⟩ := List.mem_map.mp this
        exact absurd (congrArg Prod.fst e) (hpost r hr)
    rw [hnone]; simp
  refine ⟨decide (q.name ∈ c.table.alwaysFixed ∨ ∃ r ∈ l, r.is_fixed = true ∧ r.name = q.name), ?_, ?_⟩
  · refine (getItem_eq_ok hw.nodup).mpr ⟨?_, rfl⟩
    refine List.mem_map.mpr ⟨q.name, h2 q hq, ?_⟩
    simp only [hlast, Option.getD_some]
  · rw [decide_eq_true_iff, declaredFixed_iff c _ (h2 q hq), or_comm]
    refine or_congr ⟨?_, ?_⟩ Iff.rfl
    · rintro ⟨r, hr, a, b⟩; exact ⟨r, hr, b, a⟩
    · rintro ⟨r, hr, a, b⟩; exact ⟨r, hr, b, a⟩

/-- `a` twice. -/
example : let l : List (Parameter ℕ) := [⟨"a", 1, true⟩, ⟨"b", 2, false⟩, ⟨"c", 3, false⟩, ⟨"a", 5, false⟩, ⟨"d", 4, false⟩]
    (∀ n ∈ ParamClass.oscillations.table.initArgs, n ∈ l.map (·.name)) ∧ ∀ q ∈ l, q.name ∈ ParamClass.oscillations.table.initArgs := by
  decide +kernel

/-! ### C40 -/

/-- **C40** the right number of values: they become the free values, and nothing else changes. -/
theorem C40_update (p : ModelParameters α) (vs : List α) (h : vs.length = p.getFreeValues.length) :
    ∃ p', p.updateFreeValues vs = (.ok (), p') ∧ p'.getFreeValues = vs ∧ p'.getFixedValues = p.getFixedValues ∧
      p'.names = p.names ∧ p'.flags = p.flags ∧ p'.cls = p.cls ∧
      List.Forall₂ (fun q q' => q'.name = q.name ∧ q'.is_fixed = q.is_fixed ∧ (q.is_fixed = true → q' = q)) p.toList p'.toList := by
  refine ⟨{ p with data := assignFree p.data vs }, by rw [updateFreeValues_eq, if_pos h.symm], ?_, ?_, ?_, ?_, rfl, assignFree_forall₂ _ _⟩
  · refine assignFree_values p.data vs ?_
    rw [h]; simp [ModelParameters.getFreeValues]
  all_goals
    have hF := assignFree_forall₂ p.data vs
    revert hF
  · show _ → ((assignFree p.data vs).filter (·.is_fixed)).map (·.value) = (p.data.filter (·.is_fixed)).map (·.value)
    generalize assignFree p.data vs = d
    generalize p.data = d₀
    intro hF
    induction hF with
    | nil => rfl
    | @cons a b _ _ h1 _ ih =>
      by_cases ha : a.is_fixed = true
      · rw [h1.2.2 ha, List.filter_cons_of_pos (by exact ha), List.filter_cons_of_pos (by exact ha), List.map_cons, List.map_cons, ih]
      · rw [List.filter_cons_of_neg (by simpa [h1.2.1] using ha), List.filter_cons_of_neg (by simpa using ha), ih]
  · show _ → (assignFree p.data vs).map (·.name) = p.data.map (·.name)
    generalize assignFree p.data vs = d
    generalize p.data = d₀
    intro hF
    induction hF with
    | nil => rfl
    | cons h1 _ ih => rw [List.map_cons, List.map_cons, ih, h1.1]
  · show _ → (assignFree p.data vs).map (·.is_fixed) = p.data.map (·.is_fixed)
    generalize assignFree p.data vs = d
    generalize p.data = d₀
    intro hF
    induction hF with
    | nil => rfl
    | cons h1 _ ih => rw [List.map_cons, List.map_cons, ih, h1.2.1]

example : ∃ p', (uniform .oscillations (0 : ℕ)).updateFreeValues [1, 2, 3, 4] = (.ok (), p') ∧ p'.getFreeValues = [1, 2, 3, 4] := by
  obtain ⟨p', h, h', -⟩ := C40_update (uniform .oscillations (0 : ℕ)) [1, 2, 3, 4] rfl
  exact ⟨p', h, h'⟩

/-- **C40** writing back the free values changes nothing. -/
theorem C40_write_back (p : ModelParameters α) : p.updateFreeValues p.getFreeValues = (.ok (), p) := by
  rw [updateFreeValues_eq, if_pos rfl]
  unfold ModelParameters.getFreeValues
  rw [assignFree_self]

example : ((uniform .oscillations (0 : ℕ)).fixParameters ["b"]).2.getFreeValues.length = 3 := rfl

/-- **C40** a wrong number of values raises `ValueError` and changes nothing. -/
theorem C40_wrong_length (p : ModelParameters α) (vs : List α) (h : vs.length ≠ p.getFreeValues.length) :
    p.updateFreeValues vs = (.error .valueError, p) := by
  rw [updateFreeValues_eq, if_neg h.symm]

example : (uniform .oscillations (0 : ℕ)).updateFreeValues [1, 2, 3] = (.error .valueError, uniform .oscillations 0) :=
  C40_wrong_length _ _ (by decide +kernel)

/-! ### C41 -/

/-- **C41** `set_value` on a known name. -/
theorem C41_set_value {p : ModelParameters α} (h : Reachable p) {n : String} (hn : n ∈ p.names) (v : α) :
    ∃ p' old, p.setValue n v = (.ok (), p') ∧ p.getItem n = .ok old ∧ p'.getItem n = .ok ⟨n, v, old.is_fixed⟩ ∧
      (∀ m, m ≠ n → p'.getItem m = p.getItem m) ∧ p'.names = p.names ∧ p'.flags = p.flags := by
  have hw := reachable_wellFormed h
  have hw' : (p.mapName n fun q => ⟨q.name, v, q.is_fixed⟩).WellFormed := mapName_wellFormed hw (fun _ _ _ => rfl) (fun _ _ _ _ hf => hf)
  obtain ⟨old, hold, holdn⟩ := List.mem_map.mp hn
  have holdn : old.name = n := holdn
  refine ⟨_, old, setValue_eq v hn hw.nodup, (getItem_eq_ok hw.nodup).mpr ⟨hold, holdn⟩, ?_, ?_, ?_, ?_⟩
  · refine (getItem_eq_ok hw'.nodup).mpr ⟨List.mem_map.mpr ⟨old, hold, ?_⟩, rfl⟩
    rw [if_pos holdn]
    simp only [holdn]
  · intro m hm
    have hnames : (p.mapName n fun q => ⟨q.name, v, q.is_fixed⟩).names = p.names := by rw [hw'.names, hw.names]; rfl
    by_cases hmn : m ∈ p.names
    · obtain ⟨r, hr, hrn⟩ := List.mem_map.mp hmn
      have hrn : r.name = m := hrn
      rw [(getItem_eq_ok hw.nodup).mpr ⟨hr, hrn⟩]
      refine (getItem_eq_ok hw'.nodup).mpr ⟨List.mem_map.mpr ⟨r, hr, ?_⟩, hrn⟩
      rw [if_neg (by rw [hrn]; exact hm)]
    · rw [getItem_not_mem hmn, getItem_not_mem (by rw [hnames]; exact hmn)]
  · rw [hw'.names, hw.names]; rfl
  · show (p.data.map _).map _ = p.data.map _
    rw [List.map_map]
    refine List.map_congr_left fun q _ => ?_
    simp only [Function.comp]; split_ifs <;> rfl

example : ∃ p' old, (uniform .kaon (0 : ℕ)).setValue "mass_omega" 7 = (.ok (), p') ∧ p'.getItem "mass_omega" = .ok ⟨"mass_omega", 7, old⟩ := by
  obtain ⟨p', old, h, -, h', -⟩ := C41_set_value (uniform_reachable .kaon (0 : ℕ)) (n := "mass_omega") (by decide +kernel) 7
  exact ⟨p', _, h, h'⟩

/-- **C41** unknown names raise `KeyError` and change nothing, for reading, `set_value` and `__setitem__` alike. -/
theorem C41_unknown (p : ModelParameters α) {n : String} (hn : n ∉ p.names) (v : α) (x : PyItem α) :
    p.getItem n = .error .keyError ∧ p.setValue n v = (.error .keyError, p) ∧ p.setItem n x = (.error .keyError, p) := by
  refine ⟨getItem_not_mem hn, setValue_unknown v hn, ?_⟩
  unfold ModelParameters.setItem
  rw [find_not_mem hn]

example : (uniform .kaon (0 : ℕ)).setValue "nonsense" 7 = (.error .keyError, uniform .kaon 0) :=
  (C41_unknown (uniform .kaon (0 : ℕ)) (n := "nonsense") (by decide +kernel) 7 .other).2.1

/-- **C41** `__setitem__` with an acceptable parameter replaces the entry and no other. -/
theorem C41_set_item {p : ModelParameters α} (h : Reachable p) {n : String} (hn : n ∈ p.names) (v : α) (flag : Bool)
    (hok : DeclaredFixed p.cls n → flag = true) :
    ∃ p', p.setItem n (.parameter ⟨n, v, flag⟩) = (.ok (), p') ∧ p'.getItem n = .ok ⟨n, v, flag⟩ ∧
      (∀ m, m ≠ n → p'.getItem m = p.getItem m) ∧ p'.names = p.names := by
  have hw := reachable_wellFormed h
  have hdf : n ∈ p.always_fixed → DeclaredFixed p.cls n := fun ha =>
    (declaredFixed_iff _ _ (by rw [← hw.names]; exact hn)).mpr (by rw [← hw.always]; exact ha)
  have hw' : (p.mapName n fun _ => ⟨n, v, flag⟩).WellFormed :=
    mapName_wellFormed hw (fun _ _ e => e.symm) (fun q _ e ha _ => hok (hdf (by rw [← e]; exact ha)))
  obtain ⟨old, hold, holdn⟩ := List.mem_map.mp hn
  have holdn : old.name = n := holdn
  refine ⟨p.mapName n fun _ => ⟨n, v, flag⟩, ?_, ?_, ?_, ?_⟩
  · rw [setItem_eq hw.nodup, if_pos hn]
    simp only
    rw [if_neg (by simp), if_neg]
    rintro ⟨ha, hf⟩
    rw [hok (hdf ha)] at hf; cases hf
  · refine (getItem_eq_ok hw'.nodup).mpr ⟨List.mem_map.mpr ⟨old, hold, ?_⟩, rfl⟩
    rw [if_pos holdn]
  · intro m hm
    have hnames : (p.mapName n fun _ => ⟨n, v, flag⟩).names = p.names := by rw [hw'.names, hw.names]; rfl
    by_cases hmn : m ∈ p.names
    · obtain ⟨r, hr, hrn⟩ := List.mem_map.mp hmn
      have hrn : r.name = m := hrn
      rw [(getItem_eq_ok hw.nodup).mpr ⟨hr, hrn⟩]
      refine (getItem_eq_ok hw'.nodup).mpr ⟨List.mem_map.mpr ⟨r, hr, ?_⟩, hrn⟩
      rw [if_neg (by rw [hrn]; exact hm)]
    · rw [getItem_not_mem hmn, getItem_not_mem (by rw [hnames]; exact hmn)]
  · rw [hw'.names, hw.names]; rfl

example : "mass_omega" ∈ (uniform .kaon (0 : ℕ)).names ∧ (DeclaredFixed .kaon "mass_omega" → false = true) := by decide +kernel

/-- **C41** the other cases of `__setitem__`: not a `Parameter`, another name, releasing an always-fixed one. -/
theorem C41_set_item_refused {p : ModelParameters α} (h : Reachable p) {n : String} (hn : n ∈ p.names) :
    p.setItem n .other = (.error .typeError, p) ∧
    (∀ q : Parameter α, q.name ≠ n → p.setItem n (.parameter q) = (.error .valueError, p)) ∧
    (DeclaredFixed p.cls n → ∀ v, p.setItem n (.parameter ⟨n, v, false⟩) = (.error .valueError, p)) := by
  refine ⟨?_, fun q hq => ?_, fun hd v => (C36_refused h hn hd).2 v⟩
  · rw [setItem_eq (reachable_wellFormed h).nodup, if_pos hn]
  · rw [setItem_eq (reachable_wellFormed h).nodup, if_pos hn]
    simp only
    rw [if_pos hq]

example : "mass_omega" ∈ (uniform .kaon (0 : ℕ)).names ∧ ¬ DeclaredFixed .kaon "mass_omega" ∧ "nonsense" ∉ (uniform .kaon (0 : ℕ)).names := by
  decide +kernel

/-! ### C42 -/

/-- **C42** `fix_parameters` on known names. -/
theorem C42_fix {p : ModelParameters α} (h : Reachable p) {ns : List String} (hn : ∀ n ∈ ns, n ∈ p.names) :
    ∃ p', p.fixParameters ns = (.ok (), p') ∧ p'.cls = p.cls ∧
      p'.toList = p.toList.map fun q => ⟨q.name, q.value, q.is_fixed || decide (q.name ∈ ns)⟩ := by
  refine ⟨_, fixParameters_known (reachable_wellFormed h).nodup hn, rfl, List.map_congr_left fun q _ => ?_⟩
  by_cases hq : q.name ∈ ns
  · rw [if_pos hq]; simp [hq]
  · rw [if_neg hq]; simp [hq]

example : ∀ n ∈ ["mass_rho", "t_0_isoscalar"], n ∈ (uniform .kaon (0 : ℕ)).names := by decide +kernel

/-- **C42** `release_parameters` on known names, none of them always fixed. -/
theorem C42_release {p : ModelParameters α} (h : Reachable p) {ns : List String} (hn : ∀ n ∈ ns, n ∈ p.names)
    (hd : ∀ n ∈ ns, ¬ DeclaredFixed p.cls n) :
    ∃ p', p.releaseParameters ns = (.ok (), p') ∧ p'.cls = p.cls ∧
      p'.toList = p.toList.map fun q => ⟨q.name, q.value, q.is_fixed && !decide (q.name ∈ ns)⟩ := by
  have hw := reachable_wellFormed h
  have ha : ∀ n ∈ ns, n ∉ p.always_fixed := fun n hns ha =>
    hd n hns ((declaredFixed_iff _ _ (by rw [← hw.names]; exact hn n hns)).mpr (by rw [← hw.always]; exact ha))
  refine ⟨{ p with data := overwriteFlags false ns p.data }, ?_, rfl, List.map_congr_left fun q _ => ?_⟩
  · unfold ModelParameters.releaseParameters
    rw [if_neg, flagLoop_eq false ns p hw.nodup, if_pos hn, takeWhile_known (by simpa using hn)]
    intro hany
    obtain ⟨n, hns, hc⟩ := List.any_eq_true.mp hany
    exact ha n hns (by simpa using hc)
  · by_cases hq : q.name ∈ ns
    · rw [if_pos hq]; simp [hq]
    · rw [if_neg hq]; simp [hq]

example : ∀ n ∈ ["mass_rho", "a_phi"], n ∈ (uniform .kaon (0 : ℕ)).names ∧ ¬ DeclaredFixed .kaon n := by decide +kernel

/-- **C42** releasing a list containing an always-fixed name raises `ValueError` and changes nothing. -/
theorem C42_release_refused {p : ModelParameters α} (h : Reachable p) {ns : List String} {n : String} (hn : n ∈ p.names) (hns : n ∈ ns)
    (hd : DeclaredFixed p.cls n) : p.releaseParameters ns = (.error .valueError, p) := (C36_refused h hn hd).1 ns hns

example : (uniform .kaon (0 : ℕ)).releaseParameters ["a_phi", "t_0_isoscalar"] = (.error .valueError, uniform .kaon 0) :=
  C42_release_refused (uniform_reachable _ _) (n := "t_0_isoscalar") (by decide +kernel) (by decide +kernel) (by decide +kernel)

/-- **C42** `fix_all_parameters` and `release_all_parameters`. -/
theorem C42_all {p : ModelParameters α} (h : Reachable p) :
    p.fixAllParameters.toList = p.toList.map (fun q => ⟨q.name, q.value, true⟩) ∧
    p.releaseAllParameters.toList = p.toList.map fun q => ⟨q.name, q.value, decide (DeclaredFixed p.cls q.name)⟩ := by
  have hw := reachable_wellFormed h
  refine ⟨rfl, List.map_congr_left fun q hq => ?_⟩
  have hn : q.name ∈ p.cls.table.initArgs := by rw [← hw.names]; exact List.mem_map_of_mem hq
  by_cases hd : DeclaredFixed p.cls q.name
  · have ha : q.name ∈ p.always_fixed := by rw [hw.always]; exact (declaredFixed_iff _ _ hn).mp hd
    rw [if_neg (not_not.mpr ha), decide_eq_true hd, ← hw.fixed q hq ha]
  · have ha : q.name ∉ p.always_fixed := by rw [hw.always]; exact fun ha => hd ((declaredFixed_iff _ _ hn).mpr ha)
    rw [if_pos ha, decide_eq_false hd]

example : (uniform .oscillations (0 : ℕ)).fixAllParameters.toList = [⟨"a", 0, true⟩, ⟨"b", 0, true⟩, ⟨"c", 0, true⟩, ⟨"d", 0, true⟩] :=
  (C42_all (uniform_reachable _ _)).1

/-- **C42** no fix/release operation, successful or not, touches a value. -/
theorem C42_values_kept {p : ModelParameters α} (h : Reachable p) (ns : List String) :
    (p.fixParameters ns).2.getAllValues = p.getAllValues ∧ (p.releaseParameters ns).2.getAllValues = p.getAllValues ∧
    p.fixAllParameters.getAllValues = p.getAllValues ∧ p.releaseAllParameters.getAllValues = p.getAllValues := by
  have hn := (reachable_wellFormed h).nodup
  have hov : ∀ flag ms, (overwriteFlags flag ms p.data).map (·.value) = p.data.map (·.value) := by
    intro flag ms
    unfold overwriteFlags
    rw [List.map_map]
    refine List.map_congr_left fun q _ => ?_
    simp only [Function.comp]; split_ifs <;> rfl
  refine ⟨?_, ?_, ?_, ?_⟩
  · unfold ModelParameters.fixParameters
    rw [flagLoop_eq _ _ _ hn]; exact hov _ _
  · unfold ModelParameters.releaseParameters
    split_ifs
    · rfl
    · rw [flagLoop_eq _ _ _ hn]; exact hov _ _
  · show (p.data.map _).map _ = _
    rw [List.map_map]; rfl
  · show (p.data.map _).map _ = p.data.map _
    rw [List.map_map]
    refine List.map_congr_left fun q _ => ?_
    simp only [Function.comp]; split_ifs <;> rfl

example : ∀ n ∈ ["mass_rho", "a_phi"], n ∈ (uniform .kaon (0 : ℕ)).names ∧ ¬ DeclaredFixed .kaon n := by decide +kernel

/-! ### C43 -/

/-- **C43** is false of the code: with a free known name in front of an unknown one `fix_parameters` raises `KeyError` having
already fixed the first. -/
theorem C43_fix_changes_before_raising {p : ModelParameters α} (h : Reachable p) {n m : String} (hn : n ∈ p.freeNames) (hm : m ∉ p.names) :
    (p.fixParameters [n, m]).1 = .error .keyError ∧ (p.fixParameters [n, m]).2.flags ≠ p.flags := by
  have hw := reachable_wellFormed h
  obtain ⟨q, hq, hqn⟩ := List.mem_map.mp hn
  have hqn : q.name = n := hqn
  obtain ⟨hq, hqf⟩ := List.mem_filter.mp hq
  have hnn : n ∈ p.names := by rw [← hqn]; exact List.mem_map_of_mem hq
  unfold ModelParameters.fixParameters
  rw [flagLoop_eq _ _ _ hw.nodup]
  refine ⟨?_, ?_⟩
  · rw [if_neg (fun hall => hm (hall m (by simp)))]
  · intro he
    have he : (overwriteFlags true ([n, m].takeWhile (· ∈ p.names)) p.data).map (·.is_fixed) = p.data.map (·.is_fixed) := he
    unfold overwriteFlags at he
    rw [List.map_map] at he
    have := List.map_inj_left.mp he q hq
    rw [List.takeWhile_cons_of_pos (by simpa using hnn), List.takeWhile_cons_of_neg (by simpa using hm)] at this
    simp only [Function.comp, hqn, List.mem_cons, true_or, if_true] at this
    rw [← this] at hqf
    simp at hqf

example : "a_omega" ∈ (uniform .kaon (0 : ℕ)).freeNames ∧ "a_omicron" ∉ (uniform .kaon (0 : ℕ)).names := by decide +kernel

/-- **C43** false, concretely. -/
theorem C43_negation : ∃ p : ModelParameters ℕ, Reachable p ∧ ∃ ns, (p.fixParameters ns).1 ≠ .ok () ∧ (p.fixParameters ns).2.flags ≠ p.flags ∧
    ∃ p' : ModelParameters ℕ, Reachable p' ∧ ∃ ms, (p'.releaseParameters ms).1 ≠ .ok () ∧ (p'.releaseParameters ms).2.flags ≠ p'.flags := by
  refine ⟨uniform .kaon 0, uniform_reachable _ _, ["a_omega", "a_omicron"], by decide +kernel, by decide +kernel,
    (uniform .kaon 0).fixAllParameters, .step .fixAll (uniform_reachable _ _), ["a_omega", "a_omicron"], by decide +kernel, by decide +kernel⟩

/-- **C43** what does hold. The full claim would be `(p.fixParameters ns).1 ≠ .ok () → (p.fixParameters ns).2 = p` and the same for
`release_parameters`; it fails as shown above. True: the two raise exactly for unknown (or, releasing, always-fixed) names; a failing
release naming an always-fixed parameter, and any failing call whose first name is unknown, change nothing; otherwise exactly the
names before the first unknown one have been changed. -/
theorem C43_failing_partial {p : ModelParameters α} (h : Reachable p) (ns : List String) :
    ((p.fixParameters ns).1 ≠ .ok () ↔ ∃ n ∈ ns, n ∉ p.names) ∧
    (∀ pre m post, ns = pre ++ m :: post → (∀ n ∈ pre, n ∈ p.names) → m ∉ p.names →
      (p.fixParameters ns).1 = .error .keyError ∧
      (p.fixParameters ns).2.toList = p.toList.map (fun q => ⟨q.name, q.value, q.is_fixed || decide (q.name ∈ pre)⟩) ∧
      ((∀ n ∈ ns, n ∉ p.always_fixed) → (p.releaseParameters ns).1 = .error .keyError ∧
        (p.releaseParameters ns).2.toList = p.toList.map fun q => ⟨q.name, q.value, q.is_fixed && !decide (q.name ∈ pre)⟩)) ∧
    ((∃ n ∈ ns, n ∈ p.always_fixed) → p.releaseParameters ns = (.error .valueError, p)) := by
  have hw := reachable_wellFormed h
  refine ⟨?_, ?_, ?_⟩
  · unfold ModelParameters.fixParameters
    rw [flagLoop_eq _ _ _ hw.nodup]
    by_cases hall : ∀ n ∈ ns, n ∈ p.names
    · simp only [if_pos hall, ne_eq, not_true_eq_false, false_iff]
      rintro ⟨n, hn, hm⟩; exact hm (hall n hn)
    · simp only [if_neg hall]
      push Not at hall
      simpa using hall
  · intro pre m post hns hpre hm
    have htw : ns.takeWhile (· ∈ p.names) = pre := by
      rw [hns, List.takeWhile_append_of_pos (by simpa using hpre), List.takeWhile_cons_of_neg (by simpa using hm), List.append_nil]
    have hbad : ¬ ∀ n ∈ ns, n ∈ p.names := fun hall => hm (hall m (by rw [hns]; simp))
    refine ⟨?_, ?_, fun hna => ?_⟩
    · unfold ModelParameters.fixParameters
      rw [flagLoop_eq _ _ _ hw.nodup, if_neg hbad]
    · unfold ModelParameters.fixParameters
      rw [flagLoop_eq _ _ _ hw.nodup, htw]
      refine List.map_congr_left fun q _ => ?_
      by_cases hq : q.name ∈ pre
      · rw [if_pos hq]; simp [hq]
      · rw [if_neg hq]; simp [hq]
    · have hcond : ¬ (ns.any fun n => p.always_fixed.contains n) = true := by
        intro hany
        obtain ⟨n, hn, hc⟩ := List.any_eq_true.mp hany
        exact hna n hn (by simpa using hc)
      unfold ModelParameters.releaseParameters
      rw [if_neg hcond, flagLoop_eq _ _ _ hw.nodup, if_neg hbad, htw]
      refine ⟨rfl, List.map_congr_left fun q _ => ?_⟩
      by_cases hq : q.name ∈ pre
      · rw [if_pos hq]; simp [hq]
      · rw [if_neg hq]; simp [hq]
  · rintro ⟨n, hn, ha⟩
    unfold ModelParameters.releaseParameters
    rw [if_pos (List.any_eq_true.mpr ⟨n, hn, by simpa using ha⟩)]

example : "a_omega" ∈ (uniform .kaon (0 : ℕ)).freeNames ∧ "a_omicron" ∉ (uniform .kaon (0 : ℕ)).names := by decide +kernel

/-! ### C44 -/

/-- **C44** bounds line up with the free values. -/
theorem C44_bounds {p : ModelParameters ℝ} (h : Reachable p) (handpicked : Bool)
    (h0 : handpicked = false → ∀ q ∈ p.toList, "t_0_".toList <+: q.name.toList → 0 ≤ q.value) :
    ∃ dict lo up, p.bounds handpicked = .ok dict ∧ p.getBoundsForFreeParameters handpicked = .ok (lo, up) ∧
      lo.length = p.getFreeValues.length ∧ up.length = p.getFreeValues.length ∧
      List.Forall₂ (fun n b => dict.lookup n = some b ∧ BoundLt b.1 b.2) p.freeNames (lo.zip up) := by
  have hw := reachable_wellFormed h
  obtain ⟨v, hv⟩ := hw.exists_values
  have hb := bounds_eq hw hv handpicked (fun hh n hn ht => by
    rw [← hw.names] at hn
    obtain ⟨q, hq, rfl⟩ := List.mem_map.mp hn
    rw [← hv q hq]; exact h0 hh q hq ht)
  have hfree : ∀ q ∈ p.data, q.is_fixed = false → ∃ b, (boundsV p.cls v handpicked).lookup q.name = some b ∧ BoundLt b.1 b.2 := by
    intro q hq hf
    refine boundsV_lookup (by rw [← hw.names]; exact List.mem_map_of_mem hq) fun ha => ?_
    rw [hw.fixed q hq (by rw [hw.always]; exact ha)] at hf; cases hf
  have hl := boundsLoop_eq (dict := boundsV p.cls v handpicked) (data := p.data)
    (B := fun n => ((boundsV p.cls v handpicked).lookup n).getD (⊥, ⊤)) (fun q hq hf => by
      obtain ⟨b, hb, -⟩ := hfree q hq hf
      rw [hb]; rfl)
  refine ⟨_, (p.data.filter (!·.is_fixed)).map (fun q => (((boundsV p.cls v handpicked).lookup q.name).getD (⊥, ⊤)).1),
    (p.data.filter (!·.is_fixed)).map (fun q => (((boundsV p.cls v handpicked).lookup q.name).getD (⊥, ⊤)).2), hb, ?_, ?_, ?_, ?_⟩
  · unfold ModelParameters.getBoundsForFreeParameters
    rw [hb, except_ok_bind, hl]
  · simp [ModelParameters.getFreeValues]
  · simp [ModelParameters.getFreeValues]
  · unfold ModelParameters.freeNames ModelParameters.toList
    have : ∀ q ∈ p.data.filter (!·.is_fixed), ∃ b, (boundsV p.cls v handpicked).lookup q.name = some b ∧ BoundLt b.1 b.2 := by
      intro q hq
      obtain ⟨hq, hf⟩ := List.mem_filter.mp hq
      exact hfree q hq (by simpa using hf)
    revert this
    generalize p.data.filter (!·.is_fixed) = d
    intro hd
    induction d with
    | nil => exact .nil
    | cons q d ih =>
      refine .cons ?_ (ih fun r hr => hd r (by simp [hr]))
      obtain ⟨b, hb, hlt⟩ := hd q (by simp)
      simp only [hb, Option.getD_some]
      exact ⟨trivial, hlt⟩

/-- The hypotheses hold for a kaon object with all values 1; its bounds are then the two lists of 30 entries. -/
example : ∃ lo up, (uniform .kaon (1 : ℝ)).getBoundsForFreeParameters false = .ok (lo, up) ∧ lo.length = 30 := by
  obtain ⟨_, lo, up, -, h, hl, -⟩ := C44_bounds (uniform_reachable .kaon (1 : ℝ)) false (fun _ q hq _ => by
    obtain ⟨e, -, rfl⟩ := List.mem_map.mp hq
    exact zero_le_one)
  exact ⟨lo, up, h, hl⟩

/-- **C44** the maximal bounds of the kaon and nucleon classes: thresholds for `t_in_*`, the channel's lowest mass for masses, zero for
widths, none for couplings, no upper bounds. -/
theorem C44_maximal_values {p : ModelParameters ℝ} (h : Reachable p) (hc : IsResonanceClass p.cls) {x : String → ℝ}
    (hx : ∀ q ∈ p.toList, q.value = x q.name) (h0 : ∀ q ∈ p.toList, "t_0_".toList <+: q.name.toList → 0 ≤ q.value) :
    ∃ dict, p.bounds false = .ok dict ∧ ∀ e ∈ dict, e.2.2 = ⊤ ∧
      (("mass_".toList <+: e.1.toList ∧ e.2.1 = (massThreshold p.cls x e.1 : ℝ)) ∨
        ("decay_rate_".toList <+: e.1.toList ∧ e.2.1 = (0 : ℝ)) ∨
        ("a_".toList <+: e.1.toList ∧ e.2.1 = ⊥) ∨
        ∃ m ∈ p.names, ∃ s, e.1.toList = "t_in_".toList ++ s ∧ m.toList = "t_0_".toList ++ s ∧ e.2.1 = (x m : ℝ)) := by
  have hw := reachable_wellFormed h
  refine ⟨_, bounds_eq hw hx false (fun _ n hn ht => ?_), fun e he => ?_⟩
  · rw [← hw.names] at hn
    obtain ⟨q, hq, rfl⟩ := List.mem_map.mp hn
    rw [← hx q hq]; exact h0 q hq ht
  · obtain ⟨t, ht, rfl⟩ := List.mem_map.mp he
    obtain ⟨hu, hl⟩ := maximal_entries p.cls hc t ht
    refine ⟨by simp only [hu]; rfl, ?_⟩
    rcases hl with ⟨h1, h2⟩ | ⟨h1, h2⟩ | ⟨h1, h2⟩ | ⟨m, hm, h1, h2, h3⟩
    · refine Or.inl ⟨h1, ?_⟩
      simp only [h2]
      exact congrArg _ (locals_threshold p.cls hc x t.1)
    · refine Or.inr (Or.inl ⟨h1, ?_⟩)
      simp only [h2, lowerV, Rat.cast_zero]
    · exact Or.inr (Or.inr (Or.inl ⟨h1, by simp only [h2]; rfl⟩))
    · refine Or.inr (Or.inr (Or.inr ⟨m, by rw [hw.names]; exact hm, _, h1, h2, ?_⟩))
      simp only [h3]; rfl

example : IsResonanceClass (uniform .kaon (1 : ℝ)).cls ∧ ∀ q ∈ (uniform .kaon (1 : ℝ)).toList, q.value = 1 := by
  refine ⟨by decide +kernel, fun q hq => ?_⟩
  obtain ⟨e, -, rfl⟩ := List.mem_map.mp hq
  rfl

/-- **C44** with a negative threshold the maximal bounds raise `ValueError`, and so does asking for the bounds of the free ones. -/
theorem C44_negative_threshold {p : ModelParameters ℝ} (h : Reachable p)
    (h0 : ∃ q ∈ p.toList, "t_0_".toList <+: q.name.toList ∧ q.value < 0) :
    p.getBoundsForFreeParameters false = .error .valueError := by
  have hw := reachable_wellFormed h
  obtain ⟨v, hv⟩ := hw.exists_values
  obtain ⟨q, hq, ht, hneg⟩ := h0
  have hn : q.name ∈ p.cls.table.initArgs := by rw [← hw.names]; exact List.mem_map_of_mem hq
  rw [hv q hq] at hneg
  have : p.boundsMaximal = .error .valueError := by
    unfold ModelParameters.boundsMaximal
    rw [evalLocals_negative hw hv ⟨q.name, hn, ht, hneg⟩]; rfl
  unfold ModelParameters.getBoundsForFreeParameters
  rw [show p.bounds false = p.boundsMaximal from rfl, this]; rfl

example : (uniform .kaon (-1 : ℝ)).getBoundsForFreeParameters false = .error .valueError := by
  refine C44_negative_threshold (uniform_reachable _ _) ?_
  obtain ⟨q, hq, hn⟩ := List.mem_map.mp (show "t_0_isoscalar" ∈ (uniform .kaon (-1 : ℝ)).names by decide +kernel)
  refine ⟨q, hq, by rw [show q.name = "t_0_isoscalar" from hn]; decide +kernel, ?_⟩
  obtain ⟨e, -, rfl⟩ := List.mem_map.mp hq
  norm_num

/-! ### C45 -/

/-- **C45** `from_ordered_values(get_ordered_values(), constants)` recreates the values, everything released but the always-fixed. -/
theorem C45_round_trip {p : ModelParameters α} (h : Reachable p) (hc : IsResonanceClass p.cls) {kw : List (String × α)}
    (hk : (kw.map (·.1)).Perm (constantNames p.cls)) (hv : ∀ q ∈ kw, p.Holds q.1 q.2) :
    ∃ l q, p.getOrderedValues = .ok l ∧ p.cls.fromOrderedValues l kw = .ok q ∧ q.cls = p.cls ∧
      q.toList = p.toList.map fun r => ⟨r.name, r.value, decide (DeclaredFixed p.cls r.name)⟩ := by
  have hw := reachable_wellFormed h
  obtain ⟨v, hx⟩ := hw.exists_values
  refine ⟨_, _, hw.orderedValues hx, fromOrderedValues_eq hc hk (fun q hq => ((hw.holds_iff hx).mp (hv q hq)).2), rfl, ?_⟩
  show p.cls.table.initArgs.map _ = _
  rw [← hw.names, names_of_data, List.map_map]
  refine List.map_congr_left fun r hr => ?_
  have hn : r.name ∈ p.cls.table.initArgs := by rw [← hw.names]; exact List.mem_map_of_mem hr
  simp only [Function.comp, hx r hr]
  congr 1
  exact decide_eq_decide.mpr (declaredFixed_iff _ _ hn).symm

example : ([("t_0_isovector", 1), ("t_0_isoscalar", (1 : ℕ))].map (·.1)).Perm (constantNames .kaonSimplified) ∧
    ∀ q ∈ [("t_0_isovector", 1), ("t_0_isoscalar", (1 : ℕ))], (uniform .kaonSimplified 1).Holds q.1 q.2 := by
  refine ⟨by decide +kernel, fun q hq => ⟨true, ?_⟩⟩
  simp only [List.mem_cons, List.not_mem_nil, or_false] at hq
  rcases hq with rfl | rfl <;> decide +kernel

/-- **C45** a list of the wrong length raises `AssertionError`; classes without the method raise `AttributeError`. -/
theorem C45_errors (c : ParamClass) (l : List α) (kw : List (String × α)) :
    (IsResonanceClass c → (kw.map (·.1)).Perm (constantNames c) → l.length + (constantNames c).length ≠ c.table.initArgs.length →
      c.fromOrderedValues l kw = .error .assertionError) ∧
    (¬ IsResonanceClass c → c.fromOrderedValues l kw = .error .attributeError) := by
  refine ⟨fun hc hk hl => fromOrderedValues_length hc hk hl, fun hc => ?_⟩
  unfold ParamClass.fromOrderedValues
  rw [fromOrdered_none c hc]

example : ParamClass.kaonSimplified.fromOrderedValues [1, (2 : ℕ)] [("t_0_isovector", 1), ("t_0_isoscalar", 1)] = .error .assertionError :=
  (C45_errors _ _ _).1 (by decide +kernel) (by decide +kernel) (by decide +kernel)

/-- **C45** the other direction: the ordered values of an object made from ordered values are those given. -/
theorem C45_recovers_list {c : ParamClass} (hc : IsResonanceClass c) {l : List α} {kw : List (String × α)} {p : ModelParameters α}
    (hk : (kw.map (·.1)).Perm (constantNames c)) (h : c.fromOrderedValues l kw = .ok p) :
    p.getOrderedValues = .ok l ∧ ∀ q ∈ kw, p.Holds q.1 q.2 := by
  obtain ⟨v, hl, hv⟩ := fromOrderedValues_inv hc hk h
  subst hl
  rw [fromOrderedValues_eq hc hk hv] at h
  injection h with h
  subst h
  have hw : (⟨c, c.table.alwaysFixed, c.table.initArgs.map fun n => ⟨n, v n, decide (n ∈ c.table.alwaysFixed)⟩⟩ : ModelParameters α).WellFormed :=
    ⟨rfl, (List.map_map ..).trans (List.map_id _), fun q hq ha => by
      obtain ⟨n, -, rfl⟩ := List.mem_map.mp hq
      exact decide_eq_true ha⟩
  have hx : ∀ q ∈ (⟨c, c.table.alwaysFixed, c.table.initArgs.map fun n => ⟨n, v n, decide (n ∈ c.table.alwaysFixed)⟩⟩ :
      ModelParameters α).data, q.value = v q.name := by
    intro q hq
    obtain ⟨n, -, rfl⟩ := List.mem_map.mp hq
    rfl
  refine ⟨hw.orderedValues hx, fun q hq => (hw.holds_iff hx).mpr ⟨?_, hv q hq⟩⟩
  obtain ⟨t, -, g⟩ := fromOrdered_good c hc
  exact g.sub _ (hk.mem_iff.mp (List.mem_map_of_mem hq))

example : ∃ p, ParamClass.kaonSimplified.fromOrderedValues (List.replicate 24 (1 : ℕ)) [("t_0_isovector", 1), ("t_0_isoscalar", 1)] = .ok p := ⟨_, rfl⟩

/-! ### C46 -/

/-- **C46** is false for `ETGMRModelParameters`: its ordered values leave out `m_d`. -/
theorem C46_negation : ∃ p q : ModelParameters ℕ, Reachable p ∧ Reachable q ∧ p.cls = q.cls ∧ p.getOrderedValues = q.getOrderedValues ∧
    (∀ n v, DeclaredFixed p.cls n → (p.Holds n v ↔ q.Holds n v)) ∧ p.getAllValues ≠ q.getAllValues := by
  refine ⟨uniform .etgmr 1, ((uniform .etgmr 1).setValue "m_d" 2).2, uniform_reachable _ _, .step (.setValue "m_d" 2) (uniform_reachable _ _),
    by decide +kernel, by decide +kernel, fun n v hd => ?_, by decide +kernel⟩
  have hno : n ∉ ParamClass.etgmr.table.initArgs := fun hn => by
    have := (declaredFixed_iff .etgmr n hn).mp hd
    cases this
  have h1 : (uniform ParamClass.etgmr 1).names = ParamClass.etgmr.table.initArgs := by decide +kernel
  have h2 : ((uniform ParamClass.etgmr 1).setValue "m_d" 2).2.names = ParamClass.etgmr.table.initArgs := by decide +kernel
  constructor
  · rintro ⟨f, hf⟩
    rw [getItem_not_mem (by rw [h1]; exact hno)] at hf; cases hf
  · rintro ⟨f, hf⟩
    rw [getItem_not_mem (by rw [h2]; exact hno)] at hf; cases hf

/-- **C46** for every other class (missing from the full claim: `ParamClass.etgmr`): the ordered values together with the class's
constants determine all values. -/
theorem C46_determined_partial {p q : ModelParameters α} (hp : Reachable p) (hq : Reachable q) (hc : p.cls = q.cls) (hne : p.cls ≠ .etgmr)
    (ho : p.getOrderedValues = q.getOrderedValues) (hk : ∀ n ∈ constantNames p.cls, ∀ v, p.Holds n v → q.Holds n v) :
    p.getAllValues = q.getAllValues := by
  have hwp := reachable_wellFormed hp
  have hwq := reachable_wellFormed hq
  obtain ⟨v, hv⟩ := hwp.exists_values
  obtain ⟨w, hw⟩ := hwq.exists_values
  rw [hwp.orderedValues hv, hwq.orderedValues hw, ← hc] at ho
  injection ho with ho
  rw [hwp.allValues hv, hwq.allValues hw, ← hc]
  refine List.map_congr_left fun n hn => ?_
  rcases ordered_cover p.cls hne n hn with h | h
  · exact List.map_inj_left.mp ho n h
  · exact ((hwq.holds_iff hw).mp (hk n h (v n) ((hwp.holds_iff hv).mpr ⟨hn, rfl⟩))).2

example : (uniform .twoPoles (1 : ℕ)).getOrderedValues = .ok [1, 1, 1] := rfl

/-! ### C47 -/

/-- **C47** after `release_all_parameters()` and `fix_resonances()`. -/
theorem C47_fix_resonances {p : ModelParameters α} (h : Reachable p) (hc : IsResonanceClass p.cls) :
    ∃ p', p.releaseAllParameters.fixResonances = (.ok (), p') ∧ p'.cls = p.cls ∧
      p'.toList = p.toList.map fun q => ⟨q.name, q.value, decide (DeclaredFixed p.cls q.name ∨ IsResonanceName q.name)⟩ := by
  have hr : Reachable p.releaseAllParameters := .step .releaseAll h
  have hw := reachable_wellFormed h
  have hwr := reachable_wellFormed hr
  obtain ⟨ns, hns, hsub, hiff⟩ := fixResonances_good p.cls hc
  obtain ⟨p', hp', hcls, hlist⟩ := C42_fix hr (ns := ns) (fun n hn => by rw [hwr.names]; exact hsub n hn)
  refine ⟨p', ?_, hcls, ?_⟩
  · unfold ModelParameters.fixResonances
    rw [show p.releaseAllParameters.cls = p.cls from rfl, hns]; exact hp'
  · rw [hlist, (C42_all h).2, List.map_map]
    refine List.map_congr_left fun q hq => ?_
    have hn : q.name ∈ p.cls.table.initArgs := by rw [← hw.names]; exact List.mem_map_of_mem hq
    simp only [Function.comp]
    congr 1
    rw [Bool.eq_iff_iff]
    simp [hiff q.name hn]

example : IsResonanceClass (uniform .nucleon (0 : ℕ)).cls ∧ IsResonanceName "decay_rate_rho_double_prime" ∧ ¬ IsResonanceName "a_dirac_rho" ∧
    ¬ IsResonanceName "magnetic_moment_proton" := by decide +kernel

/-- **C47** in any state `fix_resonances()` only adds the masses and widths to the fixed ones. -/
theorem C47_fix_resonances_any {p : ModelParameters α} (h : Reachable p) (hc : IsResonanceClass p.cls) :
    ∃ p', p.fixResonances = (.ok (), p') ∧ p'.cls = p.cls ∧
      p'.toList = p.toList.map fun q => ⟨q.name, q.value, q.is_fixed || decide (IsResonanceName q.name)⟩ := by
  have hw := reachable_wellFormed h
  obtain ⟨ns, hns, hsub, hiff⟩ := fixResonances_good p.cls hc
  obtain ⟨p', hp', hcls, hlist⟩ := C42_fix h (ns := ns) (fun n hn => by rw [hw.names]; exact hsub n hn)
  refine ⟨p', ?_, hcls, ?_⟩
  · unfold ModelParameters.fixResonances
    rw [hns]; exact hp'
  · rw [hlist]
    refine List.map_congr_left fun q hq => ?_
    have hn : q.name ∈ p.cls.table.initArgs := by rw [← hw.names]; exact List.mem_map_of_mem hq
    congr 2
    exact decide_eq_decide.mpr (hiff q.name hn)

example : ∃ p', (uniform .kaonB (0 : ℕ)).fixResonances = (.ok (), p') := by
  obtain ⟨p', h, -⟩ := C47_fix_resonances_any (uniform_reachable .kaonB (0 : ℕ)) (by decide +kernel)
  exact ⟨p', h⟩

/-- **C47** the classes without resonances do not offer the method. -/
theorem C47_not_offered {p : ModelParameters α} (hc : ¬ IsResonanceClass p.cls) : p.fixResonances = (.error .attributeError, p) := by
  unfold ModelParameters.fixResonances
  rw [fixResonances_none _ hc]

example : (uniform .oscillations (0 : ℕ)).fixResonances = (.error .attributeError, uniform .oscillations 0) := C47_not_offered (by decide +kernel)

end UA
