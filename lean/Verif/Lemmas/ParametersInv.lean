import Verif.Lemmas.Parameters

/-!
# Invariants of reachable parameter objects
-/

namespace UA

variable {α : Type}

/-- What every reachable object satisfies. -/
structure ModelParameters.WellFormed (p : ModelParameters α) : Prop where
  always : p.always_fixed = p.cls.table.alwaysFixed
  names : p.names = p.cls.table.initArgs
  fixed : ∀ q ∈ p.data, q.name ∈ p.always_fixed → q.is_fixed = true

theorem ModelParameters.WellFormed.nodup {p : ModelParameters α} (h : p.WellFormed) : p.names.Nodup := by
  rw [h.names]; exact (table_good p.cls).nodup

theorem fresh_wellFormed (c : ParamClass) (f : String → α) :
    (⟨c, c.table.alwaysFixed, freshData c f⟩ : ModelParameters α).WellFormed where
  always := rfl
  names := freshData_names c f
  fixed := by
    intro q hq ha
    obtain ⟨e, he, rfl⟩ := List.mem_map.mp hq
    exact ((table_good c).flags e he).mpr ha

/-! ### Dictionaries -/

theorem lookup_map_replace (d : List (String × α)) (k : String) (v : α) (n : String) :
    (d.map fun p => if p.1 = k then (k, v) else p).lookup n =
      if n = k then (if d.any (·.1 == k) then some v else none) else d.lookup n := by
  induction d with
  | nil => simp
  | cons a d ih =>
    obtain ⟨x, y⟩ := a
    simp only [List.map_cons, List.any_cons]
    by_cases hxk : x = k
    · subst hxk
      simp only [if_true]
      rw [List.lookup_cons, List.lookup_cons]
      by_cases hn : n = x
      · subst hn; simp
      · have : (n == x) = false := by simpa using hn
        rw [this, ih]; simp [hn]
    · simp only [if_neg hxk]
      rw [List.lookup_cons, List.lookup_cons]
      by_cases hn : n = x
      · subst hn; simp [hxk]
      · have : (n == x) = false := by simpa using hn
        have h2 : (x == k) = false := by simpa using hxk
        simp only [this, ih, List.any_cons, h2, Bool.false_or]

theorem lookup_none_of_any {d : List (String × α)} {k : String} (h : d.any (·.1 == k) = false) : d.lookup k = none := by
  induction d with
  | nil => rfl
  | cons a d ih =>
    simp only [List.any_cons, Bool.or_eq_false_iff] at h
    rw [List.lookup_cons]
    have : (k == a.1) = false := by
      have := h.1
      simp only [beq_eq_false_iff_ne] at this ⊢
      exact fun e => this e.symm
    rw [this]; exact ih h.2

theorem lookup_append (d e : List (String × α)) (n : String) : (d ++ e).lookup n = (d.lookup n).or (e.lookup n) := by
  induction d with
  | nil => simp
  | cons a d ih =>
    rw [List.cons_append, List.lookup_cons, List.lookup_cons]
    cases n == a.1 <;> simp [ih]

theorem dictInsert_lookup (d : List (String × α)) (k : String) (v : α) (n : String) :
    (dictInsert d k v).lookup n = if n = k then some v else d.lookup n := by
  unfold dictInsert
  split_ifs with h hn hn
  · rw [lookup_map_replace, if_pos hn, if_pos h]
  · rw [lookup_map_replace, if_neg hn]
  · subst hn
    rw [lookup_append, lookup_none_of_any (Bool.eq_false_iff.mpr h)]; simp
  · rw [lookup_append]
    have : (n == k) = false := by simpa using hn
    rw [List.lookup_cons, this]; simp

theorem pyDict_lookup (l : List (String × α)) (n : String) : (pyDict l).lookup n = l.reverse.lookup n := by
  unfold pyDict
  have : ∀ d : List (String × α), (l.foldl (fun d p => dictInsert d p.1 p.2) d).lookup n = (l.reverse.lookup n).or (d.lookup n) := by
    induction l with
    | nil => simp
    | cons a l ih =>
      intro d
      rw [List.foldl_cons, ih, dictInsert_lookup, List.reverse_cons, lookup_append]
      rw [List.lookup_cons]
      by_cases h : n = a.1
      · subst h; cases l.reverse.lookup a.1 <;> simp
      · have h2 : (n == a.1) = false := by simpa using h
        rw [h2]; cases l.reverse.lookup n <;> simp [h]
  rw [this]; simp

theorem dictInsert_keys {d : List (String × α)} {k : String} {v : α} {q : String × α} (h : q ∈ dictInsert d k v) :
    q.1 = k ∨ ∃ r ∈ d, r.1 = q.1 := by
  unfold dictInsert at h
  split_ifs at h
  · obtain ⟨r, hr, hq⟩ := List.mem_map.mp h
    split_ifs at hq with hk
    · left; rw [← hq]
    · right; exact ⟨r, hr, by rw [hq]⟩
  · rcases List.mem_append.mp h with h | h
    · right; exact ⟨q, h, rfl⟩
    · left; simp at h; rw [h]

theorem pyDict_keys {l : List (String × α)} {q : String × α} (h : q ∈ pyDict l) : ∃ r ∈ l, r.1 = q.1 := by
  unfold pyDict at h
  have : ∀ d : List (String × α), q ∈ l.foldl (fun d p => dictInsert d p.1 p.2) d → (∃ r ∈ l, r.1 = q.1) ∨ ∃ r ∈ d, r.1 = q.1 := by
    clear h
    induction l with
    | nil => intro d h; right; exact ⟨q, h, rfl⟩
    | cons a l ih =>
      intro d h
      rcases ih _ h with ⟨r, hr, e⟩ | ⟨r, hr, e⟩
      · left; exact ⟨r, by simp [hr], e⟩
      · rcases dictInsert_keys hr with e' | ⟨s, hs, e'⟩
        · left; exact ⟨a, by simp, by rw [← e, e']⟩
        · right; exact ⟨s, hs, by rw [e', e]⟩
  rcases this [] h with h | ⟨r, hr, -⟩
  · exact h
  · cases hr

theorem lookup_mem {l : List (String × α)} {n : String} {v : α} (h : l.lookup n = some v) : (n, v) ∈ l := by
  induction l with
  | nil => cases h
  | cons a l ih =>
    rw [List.lookup_cons] at h
    by_cases hn : n = a.1
    · have : (n == a.1) = true := by simpa using hn
      rw [this] at h
      simp only [Option.some.injEq] at h
      rw [List.mem_cons]; left; exact Prod.ext hn h.symm
    · have : (n == a.1) = false := by simpa using hn
      rw [this] at h
      exact List.mem_cons_of_mem _ (ih h)

theorem lookup_of_mem {l : List (String × α)} {n : String} {v : α} (h : (n, v) ∈ l) (hn : (l.map (·.1)).Nodup) :
    l.lookup n = some v := by
  induction l with
  | nil => cases h
  | cons a l ih =>
    rw [List.map_cons, List.nodup_cons] at hn
    rw [List.lookup_cons]
    rcases List.mem_cons.mp h with rfl | h
    · simp
    · have : (n == a.1) = false := by
        simp only [beq_eq_false_iff_ne]
        rintro rfl
        exact hn.1 (List.mem_map.mpr ⟨(a.1, v), h, rfl⟩)
      rw [this]; exact ih h hn.2

theorem lookup_isSome_of_mem {l : List (String × α)} {n : String} (h : n ∈ l.map (·.1)) : ∃ v, l.lookup n = some v := by
  induction l with
  | nil => cases h
  | cons a l ih =>
    rw [List.lookup_cons]
    by_cases hn : n = a.1
    · subst hn; exact ⟨a.2, by simp⟩
    · have h2 : (n == a.1) = false := by simpa using hn
      rw [h2]
      refine ih ?_
      rcases List.mem_cons.mp h with h | h
      · exact absurd h hn
      · exact h

/-! ### `from_list` -/

/-- The last value listed under a name. -/
def lastValue (l : List (Parameter α)) (n : String) : Option α := (l.map fun q => (q.name, q.value)).reverse.lookup n

/-- The data `from_list` produces. -/
def listedData (c : ParamClass) (l : List (Parameter α)) (f : String → α) : List (Parameter α) :=
  c.table.initArgs.map fun n => ⟨n, f n, decide (n ∈ c.table.alwaysFixed ∨ ∃ q ∈ l, q.is_fixed = true ∧ q.name = n)⟩

theorem fromList_after_init (c : ParamClass) (l : List (Parameter α)) (f : String → α) (hl : ∀ q ∈ l, q.name ∈ c.table.initArgs) :
    ((⟨c, c.table.alwaysFixed, freshData c f⟩ : ModelParameters α).releaseAllParameters).fixParameters
      ((l.filter (·.is_fixed)).map (·.name)) = (.ok (), ⟨c, c.table.alwaysFixed, listedData c l f⟩) := by
  have g := table_good c
  have hd : (⟨c, c.table.alwaysFixed, freshData c f⟩ : ModelParameters α).releaseAllParameters =
      ⟨c, c.table.alwaysFixed, c.table.initArgs.map fun n => ⟨n, f n, decide (n ∈ c.table.alwaysFixed)⟩⟩ := by
    unfold ModelParameters.releaseAllParameters freshData
    simp only
    congr 1
    rw [List.map_map, ← g.names, List.map_map]
    refine List.map_congr_left fun e he => ?_
    simp only [Function.comp]
    by_cases h : e.1 ∈ c.table.alwaysFixed
    · simp [h, (g.flags e he).mpr h]
    · simp [h]
  have hnames : (⟨c, c.table.alwaysFixed, c.table.initArgs.map fun n => ⟨n, f n, decide (n ∈ c.table.alwaysFixed)⟩⟩ : ModelParameters α).names
      = c.table.initArgs := by
    unfold ModelParameters.names ModelParameters.toList
    simp only [List.map_map]
    exact List.map_id _
  rw [hd, fixParameters_known (by rw [hnames]; exact g.nodup)]
  · refine Prod.ext rfl ?_
    simp only
    congr 1
    unfold overwriteFlags listedData
    rw [List.map_map]
    refine List.map_congr_left fun n hn => ?_
    simp only [Function.comp]
    have hiff : n ∈ (l.filter (·.is_fixed)).map (·.name) ↔ ∃ q ∈ l, q.is_fixed = true ∧ q.name = n := by
      simp [and_assoc]
    by_cases h : ∃ q ∈ l, q.is_fixed = true ∧ q.name = n
    · rw [if_pos (hiff.mpr h)]; simp [h]
    · rw [if_neg (fun hh => h (hiff.mp hh))]; simp [h]
  · intro n hn
    rw [hnames]
    obtain ⟨q, hq, rfl⟩ := List.mem_map.mp hn
    exact hl q (List.mem_filter.mp hq).1

theorem fromList_eq (c : ParamClass) {l : List (Parameter α)} {f : String → α} (h : ∀ n ∈ c.table.initArgs, lastValue l n = some (f n))
    (hl : ∀ q ∈ l, q.name ∈ c.table.initArgs) : c.fromList l = .ok ⟨c, c.table.alwaysFixed, listedData c l f⟩ := by
  unfold ParamClass.fromList
  dsimp only
  rw [init_eq c (f := f), except_ok_bind]
  · rw [fromList_after_init c l f hl]; rfl
  · intro n hn; rw [pyDict_lookup]; exact h n hn
  · intro p hp
    obtain ⟨r, hr, e⟩ := pyDict_keys hp
    obtain ⟨q, hq, rfl⟩ := List.mem_map.mp hr
    rw [← e]; exact hl q hq

theorem pyDict_has_key {l : List (String × α)} {q : String × α} (h : q ∈ l) : ∃ r ∈ pyDict l, r.1 = q.1 := by
  have : ∃ v, (pyDict l).lookup q.1 = some v := by
    rw [pyDict_lookup]
    exact lookup_isSome_of_mem (by simpa using ⟨q.2, h⟩)
  obtain ⟨v, hv⟩ := this
  exact ⟨_, lookup_mem hv, rfl⟩

theorem fromList_inv {c : ParamClass} {l : List (Parameter α)} {p : ModelParameters α} (h : c.fromList l = .ok p) :
    ∃ f : String → α, p = ⟨c, c.table.alwaysFixed, listedData c l f⟩ ∧ (∀ n ∈ c.table.initArgs, lastValue l n = some (f n)) ∧
      ∀ q ∈ l, q.name ∈ c.table.initArgs := by
  have h0 := h
  unfold ParamClass.fromList at h
  rw [except_bind_eq_ok] at h
  obtain ⟨p₀, hp₀, -⟩ := h
  obtain ⟨f, -, hf, hk⟩ := paramInit_inv hp₀
  have hl : ∀ q ∈ l, q.name ∈ c.table.initArgs := by
    intro q hq
    obtain ⟨r, hr, e⟩ := pyDict_has_key (l := l.map fun par => (par.name, par.value)) (List.mem_map_of_mem hq)
    have := hk r hr
    rw [e] at this; exact this
  have hv : ∀ n ∈ c.table.initArgs, lastValue l n = some (f n) := by
    intro n hn
    have := hf n hn
    rw [pyDict_lookup] at this; exact this
  rw [fromList_eq c hv hl] at h0
  injection h0 with h0
  exact ⟨f, h0.symm, hv, hl⟩

theorem fromList_error {c : ParamClass} {l : List (Parameter α)} {e : PyErr} (h : c.fromList l = .error e) : e = .typeError := by
  unfold ParamClass.fromList at h
  dsimp only at h
  rcases hi : c.init (pyDict (l.map fun par => (par.name, par.value))) with e' | p₀
  · rw [hi] at h; injection h with h; subst h; exact init_error hi
  · obtain ⟨f, hp, hf, hk⟩ := paramInit_inv hi
    have hl : ∀ q ∈ l, q.name ∈ c.table.initArgs := by
      intro q hq
      obtain ⟨r, hr, e⟩ := pyDict_has_key (l := l.map fun par => (par.name, par.value)) (List.mem_map_of_mem hq)
      have := hk r hr
      rw [e] at this; exact this
    rw [hi, except_ok_bind] at h
    rw [hp, fromList_after_init c l f hl] at h
    cases h

theorem listedData_names (c : ParamClass) (l : List (Parameter α)) (f : String → α) :
    (listedData c l f).map (·.name) = c.table.initArgs := by
  unfold listedData; rw [List.map_map]; exact List.map_id _

theorem listed_wellFormed (c : ParamClass) (l : List (Parameter α)) (f : String → α) :
    (⟨c, c.table.alwaysFixed, listedData c l f⟩ : ModelParameters α).WellFormed where
  always := rfl
  names := listedData_names c l f
  fixed := by
    intro q hq ha
    obtain ⟨n, hn, rfl⟩ := List.mem_map.mp hq
    simp only at ha ⊢
    simp [ha]

/-! ### Preservation -/

theorem mapName_wellFormed {p : ModelParameters α} (h : p.WellFormed) {n : String} {g : Parameter α → Parameter α}
    (hg : ∀ q ∈ p.data, q.name = n → (g q).name = q.name)
    (hf : ∀ q ∈ p.data, q.name = n → q.name ∈ p.always_fixed → q.is_fixed = true → (g q).is_fixed = true) :
    (p.mapName n g).WellFormed where
  always := h.always
  names := by
    rw [show (p.mapName n g).cls = p.cls from rfl, ← h.names]
    unfold ModelParameters.mapName ModelParameters.names ModelParameters.toList
    simp only [List.map_map]
    refine List.map_congr_left fun q hq => ?_
    simp only [Function.comp]
    split_ifs with hn
    · exact hg q hq hn
    · rfl
  fixed := by
    intro q hq ha
    obtain ⟨r, hr, rfl⟩ := List.mem_map.mp hq
    split_ifs at ha ⊢ with hn
    · rw [hg r hr hn] at ha
      exact hf r hr hn ha (h.fixed r hr ha)
    · exact h.fixed r hr ha

theorem overwrite_wellFormed {p : ModelParameters α} (h : p.WellFormed) (flag : Bool) {ns : List String}
    (hf : flag = true ∨ ∀ n ∈ ns, n ∉ p.always_fixed) : ({ p with data := overwriteFlags flag ns p.data } : ModelParameters α).WellFormed where
  always := h.always
  names := by
    show (overwriteFlags flag ns p.data).map (·.name) = _
    rw [overwriteFlags_names]; exact h.names
  fixed := by
    intro q hq ha
    obtain ⟨r, hr, rfl⟩ := List.mem_map.mp hq
    split_ifs at ha ⊢ with hn
    · rcases hf with hf | hf
      · exact hf
      · exact absurd ha (hf _ hn)
    · exact h.fixed r hr ha

theorem takeWhile_subset {β : Type} {q : β → Bool} {l : List β} {x : β} (h : x ∈ l.takeWhile q) : x ∈ l :=
  (List.takeWhile_sublist q).subset h

theorem flagLoop_wellFormed {p : ModelParameters α} (h : p.WellFormed) (flag : Bool) {ns : List String}
    (hf : flag = true ∨ ∀ n ∈ ns, n ∉ p.always_fixed) : (ModelParameters.flagLoop flag ns p).2.WellFormed := by
  rw [flagLoop_eq flag ns p h.nodup]
  refine overwrite_wellFormed h flag ?_
  rcases hf with hf | hf
  · exact Or.inl hf
  · exact Or.inr fun n hn => hf n (takeWhile_subset hn)

theorem setItem_eq {p : ModelParameters α} (hn : p.names.Nodup) {k : String} {x : PyItem α} :
    p.setItem k x = if k ∈ p.names then
      match x with
      | .other => (.error .typeError, p)
      | .parameter q =>
        if q.name ≠ k then (.error .valueError, p)
        else if q.name ∈ p.always_fixed ∧ q.is_fixed = false then (.error .valueError, p)
        else (.ok (), p.mapName k fun _ => q)
      else (.error .keyError, p) := by
  by_cases h : k ∈ p.names
  · rw [if_pos h]
    obtain ⟨i, r, hr, hrm, hrn⟩ := find_mem h
    unfold ModelParameters.setItem
    rw [hr]
    cases x with
    | other => rfl
    | parameter q =>
      simp only
      rw [setAt_find hr hn (fun _ => q), hrn]
      by_cases h1 : k = q.name
      · rw [if_neg (not_not.mpr h1), if_neg (not_not.mpr h1.symm)]
        congr 1
        simp
      · rw [if_pos h1, if_pos (fun e => h1 e.symm)]
  · rw [if_neg h]
    unfold ModelParameters.setItem
    rw [find_not_mem h]

theorem run_wellFormed {p : ModelParameters α} (h : p.WellFormed) (op : ParamOp α) : (op.run p).2.WellFormed := by
  cases op with
  | setItem k x =>
    show (p.setItem k x).2.WellFormed
    rw [setItem_eq h.nodup]
    split_ifs with hk
    · cases x with
      | other => exact h
      | parameter q =>
        simp only
        split_ifs with h1 h2
        · exact h
        · exact h
        · refine mapName_wellFormed h (fun r _ hr => ?_) (fun r _ hr ha hfix => ?_)
          · rw [hr]; exact not_not.mp h1
          · by_contra hq
            exact h2 ⟨by rw [not_not.mp h1, ← hr]; exact ha, by simpa using hq⟩
    · exact h
  | setValue n v =>
    show (p.setValue n v).2.WellFormed
    by_cases hn : n ∈ p.names
    · rw [setValue_eq v hn h.nodup]
      exact mapName_wellFormed h (fun _ _ _ => rfl) (fun _ _ _ _ hf => hf)
    · rw [setValue_unknown v hn]; exact h
  | fixParameters ns => exact flagLoop_wellFormed h true (Or.inl rfl)
  | releaseParameters ns =>
    show (p.releaseParameters ns).2.WellFormed
    unfold ModelParameters.releaseParameters
    split_ifs with ha
    · exact h
    · refine flagLoop_wellFormed h false (Or.inr fun n hn hna => ha ?_)
      exact List.any_eq_true.mpr ⟨n, hn, by simpa using hna⟩
  | fixAll =>
    refine ⟨h.always, ?_, ?_⟩
    · show (p.data.map _).map _ = _
      rw [List.map_map]; exact h.names
    · intro q hq _
      obtain ⟨r, hr, rfl⟩ := List.mem_map.mp hq
      rfl
  | releaseAll =>
    refine ⟨h.always, ?_, ?_⟩
    · show (p.data.map _).map _ = _
      rw [List.map_map]
      refine Eq.trans (List.map_congr_left fun q _ => ?_) h.names
      simp only [Function.comp]; split_ifs <;> rfl
    · intro q hq ha
      obtain ⟨r, hr, rfl⟩ := List.mem_map.mp hq
      split_ifs at ha ⊢ with hn
      · exact h.fixed r hr hn
      · exact absurd ha hn
  | updateFreeValues vs =>
    show (p.updateFreeValues vs).2.WellFormed
    rw [updateFreeValues_eq]
    split_ifs with hl
    · have hF := assignFree_forall₂ p.data vs
      refine ⟨h.always, ?_, ?_⟩
      · show (assignFree p.data vs).map (·.name) = _
        refine Eq.trans ?_ h.names
        show _ = p.data.map (·.name)
        revert hF
        generalize assignFree p.data vs = d
        generalize p.data = d₀
        intro hF
        induction hF with
        | nil => rfl
        | cons h1 _ ih => simp [h1.1, ih]
      · simp only
        have hfx := h.fixed
        revert hF hfx
        generalize assignFree p.data vs = d
        generalize p.data = d₀
        generalize p.always_fixed = af
        intro hF hfx
        induction hF with
        | nil => simp
        | cons h1 _ ih =>
          intro q hq ha
          rcases List.mem_cons.mp hq with rfl | hq
          · rw [h1.2.1]; exact hfx _ (by simp) (by rw [← h1.1]; exact ha)
          · exact ih (fun r hr => hfx r (by simp [hr])) q hq ha
    · exact h
  | fixResonances =>
    show p.fixResonances.2.WellFormed
    unfold ModelParameters.fixResonances
    cases p.cls.table.fixResonances with
    | none => exact h
    | some ns => exact flagLoop_wellFormed h true (Or.inl rfl)

theorem fromOrdered_fromList {c : ParamClass} {l : List α} {k : List (String × α)} {p : ModelParameters α}
    (h : c.fromOrderedValues l k = .ok p) : ∃ l', c.fromList l' = .ok p := by
  unfold ParamClass.fromOrderedValues at h
  cases ht : c.table.fromOrdered with
  | none => rw [ht] at h; cases h
  | some t =>
    rw [ht] at h
    simp only at h
    rw [except_bind_eq_ok] at h
    obtain ⟨env, -, h⟩ := h
    split_ifs at h with hl
    rw [except_bind_eq_ok] at h
    obtain ⟨ex, -, h⟩ := h
    exact ⟨_, h⟩

theorem fromList_wellFormed {c : ParamClass} {l : List (Parameter α)} {p : ModelParameters α} (h : c.fromList l = .ok p) : p.WellFormed := by
  obtain ⟨f, rfl, -⟩ := fromList_inv h
  exact listed_wellFormed c l f

theorem reachable_wellFormed {p : ModelParameters α} (h : Reachable p) : p.WellFormed := by
  induction h with
  | init h => obtain ⟨f, rfl, -⟩ := paramInit_inv h; exact fresh_wellFormed _ f
  | initPositional h => obtain ⟨f, rfl, -⟩ := initPositional_inv h; exact fresh_wellFormed _ f
  | fromList h => exact fromList_wellFormed h
  | fromOrderedValues h => obtain ⟨l', h'⟩ := fromOrdered_fromList h; exact fromList_wellFormed h'
  | copy _ h _ => exact fromList_wellFormed h
  | step op _ ih => exact run_wellFormed ih op

theorem run_cls (p : ModelParameters α) (h : p.WellFormed) (op : ParamOp α) : (op.run p).2.cls = p.cls := by
  cases op with
  | setItem k x =>
    show (p.setItem k x).2.cls = _
    rw [setItem_eq h.nodup]
    split_ifs
    · cases x with
      | other => rfl
      | parameter q => simp only; split_ifs <;> rfl
    · rfl
  | setValue n v =>
    show (p.setValue n v).2.cls = _
    by_cases hn : n ∈ p.names
    · rw [setValue_eq v hn h.nodup]; rfl
    · rw [setValue_unknown v hn]
  | fixParameters ns => show (ModelParameters.flagLoop true ns p).2.cls = _; rw [flagLoop_eq _ _ _ h.nodup]
  | releaseParameters ns =>
    show (p.releaseParameters ns).2.cls = _
    unfold ModelParameters.releaseParameters
    split_ifs
    · rfl
    · rw [flagLoop_eq _ _ _ h.nodup]
  | fixAll => rfl
  | releaseAll => rfl
  | updateFreeValues vs =>
    show (p.updateFreeValues vs).2.cls = _
    rw [updateFreeValues_eq]; split_ifs <;> rfl
  | fixResonances =>
    show p.fixResonances.2.cls = _
    unfold ModelParameters.fixResonances
    cases p.cls.table.fixResonances with
    | none => rfl
    | some ns => show (ModelParameters.flagLoop true ns p).2.cls = _; rw [flagLoop_eq _ _ _ h.nodup]

theorem runOps_wellFormed {p : ModelParameters α} (h : p.WellFormed) (ops : List (ParamOp α)) :
    (runOps p ops).WellFormed ∧ (runOps p ops).cls = p.cls := by
  unfold runOps
  induction ops generalizing p with
  | nil => exact ⟨h, rfl⟩
  | cons op ops ih =>
    obtain ⟨h1, h2⟩ := ih (run_wellFormed h op)
    exact ⟨h1, by rw [List.foldl_cons, h2, run_cls p h op]⟩

/-- Two well-formed objects of a class are equal as soon as they read the same. -/
theorem ext_of_getItem {p q : ModelParameters α} (hp : p.WellFormed) (hq : q.WellFormed) (hc : p.cls = q.cls)
    (h : ∀ n ∈ p.names, p.getItem n = q.getItem n) : p = q := by
  have hnames : p.names = q.names := by rw [hp.names, hq.names, hc]
  have key : ∀ n ∈ p.names, ∃ r, r ∈ p.data ∧ r ∈ q.data ∧ r.name = n := by
    intro n hn
    obtain ⟨r, hr, hrn⟩ := List.mem_map.mp hn
    have h1 := getItem_mem hp.nodup hr
    have hn' : r.name = n := hrn
    rw [hn'] at h1
    have h2 := h n hn
    rw [h1] at h2
    exact ⟨r, hr, ((getItem_eq_ok hq.nodup).mp h2.symm).1, hrn⟩
  have hdata : p.data = q.data := by
    have hpn := hp.nodup
    have hqn := hq.nodup
    have hnm : p.data.map (·.name) = q.data.map (·.name) := hnames
    change (p.data.map (·.name)).Nodup at hpn
    change (q.data.map (·.name)).Nodup at hqn
    change ∀ n ∈ p.data.map (·.name), _ at key
    refine List.ext_getElem (by simpa using congrArg List.length hnm) fun i hi hj => ?_
    have hin : (p.data[i]).name = (q.data[i]).name := by
      have := congrArg (fun l : List String => l[i]?) hnm
      simpa [hi, hj] using this
    obtain ⟨r, hr1, hr2, hrn⟩ := key (p.data[i]).name (List.mem_map_of_mem (List.getElem_mem hi))
    have e1 : r = p.data[i] := List.inj_on_of_nodup_map hpn hr1 (List.getElem_mem hi) hrn
    have e2 : r = q.data[i] := List.inj_on_of_nodup_map hqn hr2 (List.getElem_mem hj) (by rw [hrn, hin])
    rw [← e1, ← e2]
  have haf : p.always_fixed = q.always_fixed := by rw [hp.always, hq.always, hc]
  cases p; cases q
  simp only at hc hdata haf
  subst hc hdata haf
  rfl

end UA
