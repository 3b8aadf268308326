import Verif.Spec.Parameters
import Mathlib.Data.List.Basic
import Mathlib.Data.List.Nodup
import Mathlib.Data.List.Forall2
import Mathlib.Data.List.Perm.Basic

/-!
# Helper lemmas about parameter objects
-/

namespace UA

variable {α : Type}

/-! ### `mapM` in `Except` -/

theorem mapM_eq_ok {β γ : Type} {f : β → Except PyErr γ} {l : List β} {r : List γ} :
    l.mapM f = .ok r ↔ List.Forall₂ (fun a b => f a = .ok b) l r := by
  induction l generalizing r with
  | nil => simp [List.mapM_nil, eq_comm]
  | cons a l ih =>
    rw [List.mapM_cons, except_bind_eq_ok]
    constructor
    · rintro ⟨b, hb, h⟩
      rw [except_bind_eq_ok] at h
      obtain ⟨bs, hbs, h⟩ := h
      injection h with h; subst h
      exact List.Forall₂.cons hb (ih.mp hbs)
    · intro h
      cases h with
      | cons hb hbs => exact ⟨_, hb, by rw [ih.mpr hbs]; rfl⟩

theorem mapM_ok_of {β γ : Type} {f : β → Except PyErr γ} {g : β → γ} {l : List β} (h : ∀ a ∈ l, f a = .ok (g a)) :
    l.mapM f = .ok (l.map g) := by
  induction l with
  | nil => rfl
  | cons a l ih =>
    rw [List.mapM_cons, h a (by simp), except_ok_bind, ih fun b hb => h b (by simp [hb])]; rfl

theorem mapM_eq_error {β γ : Type} {f : β → Except PyErr γ} {l : List β} {e : PyErr} (h : l.mapM f = .error e) :
    ∃ a ∈ l, f a = .error e := by
  induction l with
  | nil => cases h
  | cons a l ih =>
    rw [List.mapM_cons] at h
    rcases ha : f a with e' | b
    · rw [ha, except_error_bind] at h; injection h with h; subst h; exact ⟨a, by simp, ha⟩
    · rw [ha, except_ok_bind] at h
      rcases hl : l.mapM f with e' | bs
      · rw [hl, except_error_bind] at h; injection h with h; subst h
        obtain ⟨c, hc, hfc⟩ := ih hl
        exact ⟨c, by simp [hc], hfc⟩
      · rw [hl] at h; cases h

/-! ### The tables -/

/-- Everything about the tables that the generic code relies on; true of all nine classes by inspection of the whole table. -/
structure ClassTable.Good (t : ClassTable) : Prop where
  super : t.superArgs = t.initArgs
  setup : t.setupArgs = t.initArgs
  names : t.entries.map (·.1) = t.initArgs
  vars : ∀ e ∈ t.entries, e.2.1 = e.1
  nodup : t.initArgs.Nodup
  flags : ∀ e ∈ t.entries, e.2.2 = true ↔ e.1 ∈ t.alwaysFixed
  always : ∀ n ∈ t.alwaysFixed, n ∈ t.initArgs

theorem table_good (c : ParamClass) : c.table.Good := by
  cases c <;> constructor <;> decide +kernel

theorem initArgs_ne_nil (c : ParamClass) : c.table.initArgs ≠ [] := by cases c <;> decide +kernel

/-! ### Binding arguments -/

theorem readVar_eq_ok {e : PyErr} {env : List (String × α)} {n : String} {v : α} :
    readVar e env n = .ok v ↔ env.lookup n = some v := by
  unfold readVar; cases env.lookup n <;> simp

theorem lookup_map_self {l : List String} {f : String → α} {n : String} (h : n ∈ l) :
    (l.map fun n => (n, f n)).lookup n = some (f n) := by
  induction l with
  | nil => cases h
  | cons a l ih =>
    simp only [List.map_cons, List.lookup_cons]
    by_cases hna : n = a
    · subst hna; simp
    · have : (n == a) = false := by simpa using hna
      rw [this]; simp only
      exact ih (by simpa [hna] using h)

theorem zip_map_self {l : List String} {f : String → α} : l.zip (l.map f) = l.map fun n => (n, f n) := by
  induction l with
  | nil => rfl
  | cons a l ih => simp [ih]

theorem bindKwargs_ok {args : List String} {kw : List (String × α)} {f : String → α}
    (h : ∀ n ∈ args, kw.lookup n = some (f n)) (h' : ∀ p ∈ kw, p.1 ∈ args) :
    bindKwargs args kw = .ok (args.map fun n => (n, f n)) := by
  unfold bindKwargs
  rw [if_neg]
  · refine mapM_ok_of fun n hn => ?_
    rw [readVar_eq_ok.mpr (h n hn)]; rfl
  · simp only [List.any_eq_true, Bool.not_eq_true', not_exists, not_and]
    rintro p hp
    simp [h' p hp]

theorem bindKwargs_inv {args : List String} {kw env : List (String × α)} (h : bindKwargs args kw = .ok env) :
    (∀ p ∈ kw, p.1 ∈ args) ∧ List.Forall₂ (fun n p => p.1 = n ∧ kw.lookup n = some p.2) args env := by
  unfold bindKwargs at h
  split_ifs at h with hc
  refine ⟨fun p hp => ?_, ?_⟩
  · by_contra hn
    exact hc (List.any_eq_true.mpr ⟨p, hp, by simpa using hn⟩)
  · refine (mapM_eq_ok.mp h).imp fun n p hnp => ?_
    rw [except_bind_eq_ok] at hnp
    obtain ⟨v, hv, hp⟩ := hnp
    injection hp with hp; subst hp
    exact ⟨rfl, readVar_eq_ok.mp hv⟩

theorem bindKwargs_error {args : List String} {kw : List (String × α)} {e : PyErr} (h : bindKwargs args kw = .error e) :
    e = .typeError := by
  unfold bindKwargs at h
  split_ifs at h
  · injection h with h; exact h.symm
  · obtain ⟨n, -, hn⟩ := mapM_eq_error h
    unfold readVar at hn
    cases hl : kw.lookup n with
    | none => rw [hl] at hn; injection hn with hn; exact hn.symm
    | some v => rw [hl] at hn; cases hn

theorem env_of_forall₂ {args : List String} {env : List (String × α)}
    (h : List.Forall₂ (fun n p => p.1 = n) args env) (hne : args ≠ []) (hnd : args.Nodup) :
    ∃ f : String → α, env = args.map (fun n => (n, f n)) := by
  have : Nonempty α := by
    cases h with
    | nil => exact absurd rfl hne
    | @cons _ b => exact ⟨b.2⟩
  obtain ⟨d⟩ := this
  clear hne
  induction h with
  | nil => exact ⟨fun _ => d, rfl⟩
  | @cons n p args env hp hrest ih =>
    rw [List.nodup_cons] at hnd
    obtain ⟨f, hf⟩ := ih hnd.2
    refine ⟨fun m => if m = n then p.2 else f m, ?_⟩
    simp only [List.map_cons, if_true]
    rw [hf]
    congr 1
    · exact Prod.ext hp rfl
    · refine List.map_congr_left fun m hm => ?_
      rw [if_neg]
      rintro rfl
      exact hnd.1 hm

/-- The data of a freshly built object, as a function of the values. -/
def freshData (c : ParamClass) (f : String → α) : List (Parameter α) :=
  c.table.entries.map fun e => ⟨e.1, f e.1, e.2.2⟩

theorem initBody_eq (c : ParamClass) (f : String → α) :
    c.initBody (c.table.initArgs.map fun n => (n, f n)) = .ok ⟨c, c.table.alwaysFixed, freshData c f⟩ := by
  have g := table_good c
  unfold ParamClass.initBody ParamClass.setupData
  rw [g.super, mapM_ok_of (g := f) (fun n hn => readVar_eq_ok.mpr (lookup_map_self hn)), except_ok_bind]
  unfold bindPositional
  rw [g.setup, if_pos (by simp), except_ok_bind, zip_map_self]
  rw [mapM_ok_of (g := fun e => (⟨e.1, f e.1, e.2.2⟩ : Parameter α))]
  · rfl
  · intro e he
    have hin : e.1 ∈ c.table.initArgs := by rw [← g.names]; exact List.mem_map_of_mem he
    rw [g.vars e he, readVar_eq_ok.mpr (lookup_map_self hin)]; rfl

theorem init_eq (c : ParamClass) {kw : List (String × α)} {f : String → α}
    (h : ∀ n ∈ c.table.initArgs, kw.lookup n = some (f n)) (h' : ∀ p ∈ kw, p.1 ∈ c.table.initArgs) :
    c.init kw = .ok ⟨c, c.table.alwaysFixed, freshData c f⟩ := by
  unfold ParamClass.init
  rw [bindKwargs_ok h h', except_ok_bind, initBody_eq]

theorem paramInit_inv {c : ParamClass} {kw : List (String × α)} {p : ModelParameters α} (h : c.init kw = .ok p) :
    ∃ f : String → α, p = ⟨c, c.table.alwaysFixed, freshData c f⟩ ∧ (∀ n ∈ c.table.initArgs, kw.lookup n = some (f n)) ∧
      ∀ q ∈ kw, q.1 ∈ c.table.initArgs := by
  unfold ParamClass.init at h
  rw [except_bind_eq_ok] at h
  obtain ⟨env, henv, h⟩ := h
  obtain ⟨h1, h2⟩ := bindKwargs_inv henv
  obtain ⟨f, hf⟩ := env_of_forall₂ (h2.imp fun _ _ h => h.1) (initArgs_ne_nil c) (table_good c).nodup
  subst hf
  rw [initBody_eq] at h
  injection h with h
  refine ⟨f, h.symm, fun n hn => ?_, h1⟩
  clear h henv h1
  revert h2
  rw [List.forall₂_map_right_iff]
  intro h2
  have := List.forall₂_same.mp h2
  exact (this n hn).2

theorem init_error {c : ParamClass} {kw : List (String × α)} {e : PyErr} (h : c.init kw = .error e) : e = .typeError := by
  unfold ParamClass.init at h
  rcases hb : bindKwargs c.table.initArgs kw with e' | env
  · rw [hb] at h; injection h with h; subst h; exact bindKwargs_error hb
  · obtain ⟨h1, h2⟩ := bindKwargs_inv hb
    obtain ⟨f, hf⟩ := env_of_forall₂ (h2.imp fun _ _ h => h.1) (initArgs_ne_nil c) (table_good c).nodup
    subst hf
    rw [hb, except_ok_bind, initBody_eq] at h; cases h

theorem initPositional_inv {c : ParamClass} {args : List α} {p : ModelParameters α} (h : c.initPositional args = .ok p) :
    ∃ f : String → α, p = ⟨c, c.table.alwaysFixed, freshData c f⟩ ∧ args = c.table.initArgs.map f := by
  unfold ParamClass.initPositional bindPositional at h
  split_ifs at h with hl
  · rw [except_ok_bind] at h
    have hz : List.Forall₂ (fun (n : String) (q : String × α) => q.1 = n) c.table.initArgs (c.table.initArgs.zip args) := by
      clear h
      revert hl
      generalize c.table.initArgs = l
      intro hl
      induction l generalizing args with
      | nil => cases args with
        | nil => exact .nil
        | cons _ _ => cases hl
      | cons n l ih => cases args with
        | nil => cases hl
        | cons a args => exact .cons rfl (ih (by simpa using hl))
    obtain ⟨f, hf⟩ := env_of_forall₂ hz (initArgs_ne_nil c) (table_good c).nodup
    rw [hf, initBody_eq] at h
    injection h with h
    refine ⟨f, h.symm, ?_⟩
    have := congrArg (List.map Prod.snd) hf
    rw [List.map_snd_zip (by omega)] at this
    rw [this, List.map_map]; rfl
  · cases h

theorem freshData_names (c : ParamClass) (f : String → α) : (freshData c f).map (·.name) = c.table.initArgs := by
  rw [← (table_good c).names]
  unfold freshData
  rw [List.map_map]; rfl

/-! ### Finding and replacing -/

theorem findFrom_ok {n : String} {i j : ℕ} {l : List (Parameter α)} {p : Parameter α} (h : findFrom n i l = .ok (j, p)) :
    ∃ pre post, l = pre ++ p :: post ∧ j = i + pre.length ∧ p.name = n ∧ ∀ q ∈ pre, q.name ≠ n := by
  induction l generalizing i with
  | nil => cases h
  | cons a l ih =>
    unfold findFrom at h
    split_ifs at h with hn
    · injection h with h
      obtain ⟨rfl, rfl⟩ := Prod.mk.inj h
      exact ⟨[], l, rfl, rfl, hn, by simp⟩
    · obtain ⟨pre, post, hl, hj, hp, hq⟩ := ih h
      refine ⟨a :: pre, post, by rw [hl]; rfl, by simp [hj]; omega, hp, ?_⟩
      intro q hq'
      rcases List.mem_cons.mp hq' with rfl | hq'
      · exact hn
      · exact hq q hq'

theorem findFrom_mem {n : String} {i : ℕ} {l : List (Parameter α)} (h : n ∈ l.map (·.name)) : ∃ r, findFrom n i l = .ok r := by
  induction l generalizing i with
  | nil => cases h
  | cons a l ih =>
    unfold findFrom
    split_ifs with hn
    · exact ⟨_, rfl⟩
    · refine ih ?_
      rcases List.mem_cons.mp h with h | h
      · exact absurd h.symm hn
      · exact h

theorem findFrom_not_mem {n : String} {i : ℕ} {l : List (Parameter α)} (h : n ∉ l.map (·.name)) :
    findFrom n i l = .error .keyError := by
  induction l generalizing i with
  | nil => rfl
  | cons a l ih =>
    simp only [List.map_cons, List.mem_cons, not_or] at h
    unfold findFrom
    rw [if_neg (fun e => h.1 e.symm)]
    exact ih h.2

theorem find_not_mem {p : ModelParameters α} {n : String} (h : n ∉ p.names) : p.find n = .error .keyError := findFrom_not_mem h

theorem find_mem {p : ModelParameters α} {n : String} (h : n ∈ p.names) :
    ∃ i q, p.find n = .ok (i, q) ∧ q ∈ p.data ∧ q.name = n := by
  obtain ⟨⟨i, q⟩, hr⟩ := findFrom_mem (i := 0) h
  obtain ⟨pre, post, hl, -, hq, -⟩ := findFrom_ok hr
  exact ⟨i, q, hr, by show q ∈ p.toList; rw [hl]; simp, hq⟩

/-- Replacement of the entries with a given name. -/
def ModelParameters.mapName (p : ModelParameters α) (n : String) (g : Parameter α → Parameter α) : ModelParameters α :=
  { p with data := p.data.map fun q => if q.name = n then g q else q }

theorem setAt_find {p : ModelParameters α} {n : String} {i : ℕ} {q : Parameter α} (h : p.find n = .ok (i, q)) (hn : p.names.Nodup)
    (g : Parameter α → Parameter α) : p.setAt i (g q) = p.mapName n g := by
  obtain ⟨pre, post, hl, hi, hq, hpre⟩ := findFrom_ok h
  unfold ModelParameters.setAt ModelParameters.mapName
  congr 1
  have hi' : i = pre.length := by omega
  have hnd : (pre.map (·.name) ++ q.name :: post.map (·.name)).Nodup := by
    have : p.names = pre.map (·.name) ++ q.name :: post.map (·.name) := by
      unfold ModelParameters.names ModelParameters.toList; rw [hl]; simp
    rw [← this]; exact hn
  have hpost : ∀ r ∈ post, r.name ≠ n := by
    intro r hr e
    have h2 := (List.nodup_append.mp hnd).2.1
    rw [List.nodup_cons] at h2
    exact h2.1 (by rw [hq, ← e]; exact List.mem_map_of_mem hr)
  rw [hl, hi', List.set_append_right _ _ (le_refl _), Nat.sub_self, List.set_cons_zero, List.map_append, List.map_cons, if_pos hq]
  congr 1
  · symm
    conv_rhs => rw [← List.map_id pre]
    exact List.map_congr_left fun r hr => by rw [if_neg (hpre r hr)]; rfl
  · congr 1
    symm
    conv_rhs => rw [← List.map_id post]
    exact List.map_congr_left fun r hr => by rw [if_neg (hpost r hr)]; rfl

theorem getItem_not_mem {p : ModelParameters α} {n : String} (h : n ∉ p.names) : p.getItem n = .error .keyError := by
  unfold ModelParameters.getItem; rw [find_not_mem h]; rfl

/-- With distinct names, reading gives the entry of that name. -/
theorem getItem_mem {p : ModelParameters α} {q : Parameter α} (hn : p.names.Nodup) (h : q ∈ p.data) : p.getItem q.name = .ok q := by
  obtain ⟨i, r, hr, hrm, hrn⟩ := find_mem (p := p) (n := q.name) (List.mem_map_of_mem h)
  have : r = q := List.inj_on_of_nodup_map hn hrm h hrn
  unfold ModelParameters.getItem
  rw [hr, this]; rfl

theorem getItem_eq_ok {p : ModelParameters α} {n : String} {q : Parameter α} (hn : p.names.Nodup) :
    p.getItem n = .ok q ↔ q ∈ p.data ∧ q.name = n := by
  constructor
  · intro h
    by_cases hm : n ∈ p.names
    · obtain ⟨i, r, hr, hrm, hrn⟩ := find_mem hm
      unfold ModelParameters.getItem at h
      rw [hr] at h; injection h with h; subst h; exact ⟨hrm, hrn⟩
    · rw [getItem_not_mem hm] at h; cases h
  · rintro ⟨h, rfl⟩; exact getItem_mem hn h

/-! ### Characterising the operations -/

theorem setValue_eq {p : ModelParameters α} {n : String} (v : α) (h : n ∈ p.names) (hn : p.names.Nodup) :
    p.setValue n v = (.ok (), p.mapName n fun q => ⟨q.name, v, q.is_fixed⟩) := by
  obtain ⟨i, q, hq, hqm, hqn⟩ := find_mem h
  unfold ModelParameters.setValue
  rw [hq]; simp only
  rw [← setAt_find hq hn, hqn]

theorem setValue_unknown {p : ModelParameters α} {n : String} (v : α) (h : n ∉ p.names) : p.setValue n v = (.error .keyError, p) := by
  unfold ModelParameters.setValue; rw [find_not_mem h]

theorem names_of_data {p : ModelParameters α} : p.names = p.data.map (·.name) := rfl

/-- Data with the flags of the names in `ns` overwritten. -/
def overwriteFlags (flag : Bool) (ns : List String) (data : List (Parameter α)) : List (Parameter α) :=
  data.map fun q => if q.name ∈ ns then ⟨q.name, q.value, flag⟩ else q

theorem overwriteFlags_names (flag : Bool) (ns : List String) (data : List (Parameter α)) :
    (overwriteFlags flag ns data).map (·.name) = data.map (·.name) := by
  unfold overwriteFlags
  rw [List.map_map]
  refine List.map_congr_left fun q _ => ?_
  simp only [Function.comp]; split_ifs <;> rfl

/-- Complete description of the flag loop. -/
theorem flagLoop_eq (flag : Bool) (ns : List String) (p : ModelParameters α) (hn : p.names.Nodup) :
    ModelParameters.flagLoop flag ns p =
      (if ∀ n ∈ ns, n ∈ p.names then .ok () else .error .keyError,
        { p with data := overwriteFlags flag (ns.takeWhile (· ∈ p.names)) p.data }) := by
  induction ns generalizing p with
  | nil => simp [ModelParameters.flagLoop, overwriteFlags]
  | cons n ns ih =>
    unfold ModelParameters.flagLoop
    by_cases h : n ∈ p.names
    · obtain ⟨i, q, hq, hqm, hqn⟩ := find_mem h
      rw [hq]; simp only
      rw [setAt_find hq hn (fun q => ⟨q.name, q.value, flag⟩)]
      have hnames : (p.mapName n fun q => ⟨q.name, q.value, flag⟩).names = p.names := by
        unfold ModelParameters.mapName ModelParameters.names ModelParameters.toList
        rw [List.map_map]
        refine List.map_congr_left fun r _ => ?_
        simp only [Function.comp]; split_ifs <;> rfl
      rw [ih _ (by rw [hnames]; exact hn), hnames]
      rw [List.takeWhile_cons_of_pos (by simpa using h)]
      refine Prod.ext ?_ ?_
      · simp [h]
      · unfold ModelParameters.mapName overwriteFlags
        simp only
        congr 1
        rw [List.map_map]
        refine List.map_congr_left fun r _ => ?_
        simp only [Function.comp]
        by_cases hr : r.name = n
        · have h1 : r.name ∈ n :: List.takeWhile (fun x => decide (x ∈ p.names)) ns := by simp [hr]
          rw [if_pos hr, if_pos h1]
          simp only
          split_ifs <;> rfl
        · rw [if_neg hr]
          have h2 : (r.name ∈ n :: List.takeWhile (fun x => decide (x ∈ p.names)) ns) ↔
              r.name ∈ List.takeWhile (fun x => decide (x ∈ p.names)) ns := by simp [hr]
          by_cases h3 : r.name ∈ List.takeWhile (fun x => decide (x ∈ p.names)) ns
          · rw [if_pos h3, if_pos (h2.mpr h3)]
          · rw [if_neg h3, if_neg (fun h => h3 (h2.mp h))]
    · rw [find_not_mem h]; simp only
      rw [List.takeWhile_cons_of_neg (by simpa using h)]
      refine Prod.ext ?_ ?_
      · simp [h]
      · simp [overwriteFlags]

theorem takeWhile_known {β : Type} {q : β → Bool} {l : List β} (h : ∀ x ∈ l, q x = true) : l.takeWhile q = l := by
  induction l with
  | nil => rfl
  | cons a l ih =>
    rw [List.takeWhile_cons_of_pos (h a (by simp)), ih fun x hx => h x (by simp [hx])]

theorem fixParameters_known {p : ModelParameters α} {ns : List String} (hn : p.names.Nodup) (h : ∀ n ∈ ns, n ∈ p.names) :
    p.fixParameters ns = (.ok (), { p with data := overwriteFlags true ns p.data }) := by
  unfold ModelParameters.fixParameters
  rw [flagLoop_eq true ns p hn, if_pos h, takeWhile_known (by simpa using h)]

/-! ### Free values -/

/-- Writing a list of values into the free entries, in order. -/
def assignFree : List (Parameter α) → List α → List (Parameter α)
  | [], _ => []
  | p :: ps, vs =>
    if p.is_fixed then p :: assignFree ps vs
    else match vs with
      | [] => p :: ps
      | v :: vs => ⟨p.name, v, p.is_fixed⟩ :: assignFree ps vs

theorem freeWithIndex_length (data : List (Parameter α)) : (freeWithIndex data).length = (data.filter (!·.is_fixed)).length := by
  unfold freeWithIndex
  have : ∀ k, ((data.zipIdx k).filter (fun q => !q.1.is_fixed)).length = (data.filter (!·.is_fixed)).length := by
    induction data with
    | nil => simp
    | cons p ps ih =>
      intro k
      rw [List.zipIdx_cons]
      by_cases h : p.is_fixed <;> simp [h, ih]
  exact this 0

theorem update_loop (c : ParamClass) (af : List String) (l pre : List (Parameter α)) (vs : List α)
    (h : (l.filter (!·.is_fixed)).length = vs.length) :
    (((l.zipIdx pre.length).filter (fun q => !q.1.is_fixed)).zip vs).foldl
      (fun (s : ModelParameters α) q => s.setAt q.1.2 ⟨q.1.1.name, q.2, q.1.1.is_fixed⟩) ⟨c, af, pre ++ l⟩ =
    ⟨c, af, pre ++ assignFree l vs⟩ := by
  induction l generalizing pre vs with
  | nil => simp [assignFree]
  | cons p ps ih =>
    rw [List.zipIdx_cons]
    by_cases hp : p.is_fixed
    · simp only [List.filter_cons, hp, Bool.not_true, Bool.false_eq_true, if_false] at h ⊢
      have := ih (pre ++ [p]) vs h
      simp only [List.length_append, List.length_singleton, List.append_assoc, List.singleton_append] at this
      rw [this]
      simp [assignFree, hp]
    · simp only [Bool.not_eq_true] at hp
      cases vs with
      | nil => simp [hp] at h
      | cons v vs =>
        simp only [List.filter_cons, hp, Bool.not_false, if_true, List.length_cons, Nat.add_right_cancel_iff] at h
        simp only [List.filter_cons, hp, Bool.not_false, if_true, List.zip_cons_cons, List.foldl_cons]
        have hs : (⟨c, af, pre ++ p :: ps⟩ : ModelParameters α).setAt pre.length ⟨p.name, v, false⟩ =
            ⟨c, af, (pre ++ [⟨p.name, v, false⟩]) ++ ps⟩ := by
          unfold ModelParameters.setAt
          simp
        rw [hs]
        have := ih (pre ++ [⟨p.name, v, false⟩]) vs h
        simp only [List.length_append, List.length_singleton] at this
        rw [this]
        simp [assignFree, hp]

theorem updateFreeValues_eq (p : ModelParameters α) (vs : List α) :
    p.updateFreeValues vs = if p.getFreeValues.length = vs.length then (.ok (), { p with data := assignFree p.data vs })
      else (.error .valueError, p) := by
  unfold ModelParameters.updateFreeValues ModelParameters.getFreeValues
  simp only [List.length_map]
  rw [freeWithIndex_length]
  by_cases h : (p.data.filter (!·.is_fixed)).length = vs.length
  · rw [if_neg (not_not.mpr h), if_pos h]
    refine Prod.ext rfl ?_
    exact update_loop p.cls p.always_fixed p.data [] vs h
  · rw [if_pos h, if_neg h]

theorem assignFree_forall₂ (l : List (Parameter α)) (vs : List α) :
    List.Forall₂ (fun q q' => q'.name = q.name ∧ q'.is_fixed = q.is_fixed ∧ (q.is_fixed = true → q' = q)) l (assignFree l vs) := by
  induction l generalizing vs with
  | nil => exact .nil
  | cons p ps ih =>
    unfold assignFree
    split_ifs with hp
    · exact .cons ⟨rfl, rfl, fun _ => rfl⟩ (ih vs)
    · cases vs with
      | nil => exact .cons ⟨rfl, rfl, fun _ => rfl⟩ (List.forall₂_same.mpr fun _ _ => ⟨rfl, rfl, fun _ => rfl⟩)
      | cons v vs => exact .cons ⟨rfl, rfl, fun h => absurd h hp⟩ (ih vs)

theorem assignFree_values (l : List (Parameter α)) (vs : List α) (h : (l.filter (!·.is_fixed)).length = vs.length) :
    ((assignFree l vs).filter (!·.is_fixed)).map (·.value) = vs := by
  induction l generalizing vs with
  | nil => simpa [assignFree, eq_comm] using h
  | cons p ps ih =>
    unfold assignFree
    split_ifs with hp
    · simp only [List.filter_cons, hp, Bool.not_true, Bool.false_eq_true, if_false] at h ⊢
      exact ih vs h
    · simp only [Bool.not_eq_true] at hp
      cases vs with
      | nil => simp [hp] at h
      | cons v vs =>
        simp only [List.filter_cons, hp, Bool.not_false, if_true, List.length_cons, Nat.add_right_cancel_iff] at h
        simp only [List.filter_cons, hp, Bool.not_false, if_true, List.map_cons, ih vs h]

theorem assignFree_self (l : List (Parameter α)) : assignFree l ((l.filter (!·.is_fixed)).map (·.value)) = l := by
  induction l with
  | nil => rfl
  | cons p ps ih =>
    unfold assignFree
    split_ifs with hp
    · simp only [List.filter_cons, hp, Bool.not_true, Bool.false_eq_true, if_false]
      rw [ih]
    · simp only [Bool.not_eq_true] at hp
      simp only [List.filter_cons, hp, Bool.not_false, if_true, List.map_cons, ih]
      rw [← hp]

end UA
