import Verif.Spec.Scripts
import Verif.Lemmas.Residual
import Verif.Props.Utils
import Verif.Props.CrossSections
import Verif.Props.OtherModels

/-!
# Lemmas about the functions of the scripts
-/

namespace UA

open Complex

/-! ### `calculate_deviations_from_fit` -/

/-- One row of the result. -/
noncomputable def deviationRow (x : ℝ × ℝ × ℝ × ℝ) : Except PyErr (ℝ × ℝ × ℝ × ℝ × ℝ) := do
  let deviation ← pyDivR |x.2.2.1 - x.2.2.2| x.2.1
  return (x.1, x.2.1, x.2.2.1, x.2.2.2, deviation)

theorem deviationRow_ok (x : ℝ × ℝ × ℝ × ℝ) (b : ℝ × ℝ × ℝ × ℝ × ℝ) : deviationRow x = .ok b ↔
    x.2.1 ≠ 0 ∧ b = (x.1, x.2.1, x.2.2.1, x.2.2.2, |x.2.2.1 - x.2.2.2| / x.2.1) := by
  unfold deviationRow pyDivR
  by_cases h : x.2.1 = 0
  · rw [if_pos h]
    exact ⟨(fun h => by cases h), fun h' => absurd h h'.1⟩
  · rw [if_neg h, except_ok_bind]
    constructor
    · intro h'; injection h' with h'; exact ⟨h, h'.symm⟩
    · rintro ⟨-, rfl⟩; rfl

theorem deviationRow_error {x : ℝ × ℝ × ℝ × ℝ} {e : PyErr} (h : deviationRow x = .error e) : x.2.1 = 0 ∧ e = .zeroDivisionError := by
  unfold deviationRow pyDivR at h
  by_cases h0 : x.2.1 = 0
  · rw [if_pos h0] at h
    injection h with h
    exact ⟨h0, h.symm⟩
  · rw [if_neg h0, except_ok_bind] at h
    cases h

theorem deviations_run {w : World} {ref : ℕ} {p : ModelParameters ℝ} (h : w.heap[ref]? = some p) (hp : Reachable p)
    (ts css errors : List ℝ) (charged : Bool) (m α hc2 : ℝ) :
    calculateDeviationsFromFit ref ts css errors charged m α hc2 w =
      ((do
        let fit ← functionCrossSection (ts.map fun t : ℝ => Datapoint.kaon (t : ℂ) charged) m α hc2 p
        (zip4 ts errors css fit).mapM deviationRow),
        { w with heap := w.heap.set ref p.fixAllParameters ++ [p.fixAllParameters] }) := by
  have hfix : Reachable p.fixAllParameters := .step .fixAll hp
  have hl := heap_set_append h
  unfold calculateDeviationsFromFit
  dsimp only
  rw [PyM.bind_ok (mutateParams_run h _)]
  have hp1 : (w.heap.set ref p.fixAllParameters)[ref]? = some p.fixAllParameters := List.getElem?_set_self hl
  rw [PyM.bind_ok (makePartialIn_run (w := { w with heap := w.heap.set ref p.fixAllParameters }) hp1 hfix _)]
  rw [PyM.bind_run, callPartialIn_run (q := p.fixAllParameters) (by exact List.getElem?_concat_length)]
  have hps : partialSpec (.crossSection m α hc2) p.fixAllParameters (ts.map fun t : ℝ => Datapoint.kaon (t : ℂ) charged) [] =
      functionCrossSection (ts.map fun t : ℝ => Datapoint.kaon (t : ℂ) charged) m α hc2 p := by
    unfold partialSpec
    rw [fixAll_update]
    exact functionCrossSection_fixAll p _ _ _ _
  rw [hps, fixAll_update]
  have hset : (w.heap.set ref p.fixAllParameters ++ [p.fixAllParameters]).set (w.heap.set ref p.fixAllParameters).length p.fixAllParameters =
      w.heap.set ref p.fixAllParameters ++ [p.fixAllParameters] := by
    apply List.ext_getElem?
    intro i
    rw [List.getElem?_set]
    split
    · next hi => subst hi; simp
    · rfl
  rcases hb : functionCrossSection (ts.map fun t : ℝ => Datapoint.kaon (t : ℂ) charged) m α hc2 p with e | fit
  · dsimp only
    rw [hset]
    rfl
  · dsimp only
    rw [hset, PyM.lift_run]
    rfl

theorem zip4_getElem? {α β γ δ : Type} (a : List α) (b : List β) (c : List γ) (d : List δ) (i : ℕ) (x : α × β × γ × δ) :
    (zip4 a b c d)[i]? = some x ↔ a[i]? = some x.1 ∧ b[i]? = some x.2.1 ∧ c[i]? = some x.2.2.1 ∧ d[i]? = some x.2.2.2 := by
  unfold zip4
  rw [List.getElem?_zip_eq_some, List.getElem?_zip_eq_some, List.getElem?_zip_eq_some]

theorem zip4_length {α β γ δ : Type} (a : List α) (b : List β) (c : List γ) (d : List δ) :
    (zip4 a b c d).length = min a.length (min b.length (min c.length d.length)) := by
  unfold zip4
  simp only [List.length_zip]

/-! ### `make_function_cross_section` -/

theorem singleComponentLoop_kaon (cs : ScalarCS) (ff : ℂ → Except PyErr ℂ) (l : List (ℂ × Bool)) :
    singleComponentLoop cs ff (l.map fun x => .kaon x.1 x.2) = (l.map Prod.fst).mapM (cs.call ff) := by
  induction l with
  | nil => rfl
  | cons x l ih =>
    simp only [List.map_cons, List.mapM_cons]
    rw [singleComponentLoop, ih]

theorem singleComponentLoop_row (cs : ScalarCS) (ff : ℂ → Except PyErr ℂ) (l : List (ℂ × Bool)) :
    singleComponentLoop cs ff (l.map fun x => .row [x.1, if x.2 then 1 else 0]) = (l.map Prod.fst).mapM (cs.call ff) := by
  induction l with
  | nil => rfl
  | cons x l ih =>
    simp only [List.map_cons, List.mapM_cons]
    rw [singleComponentLoop, ih]
    · rfl
    · intro t c h; cases h

/-! ### `read_data` -/

theorem readDataLoop_ok (float : String → Except PyErr ℝ) (rows : List (List String)) (acc r : List ℝ × List ℝ × List ℝ) :
    readDataLoop float rows acc = .ok r ↔ ∃ l : List (ℝ × ℝ × ℝ),
      List.Forall₂ (fun row x => ∃ a b c, row = [a, b, c] ∧ float a = .ok x.1 ∧ float b = .ok x.2.1 ∧ float c = .ok x.2.2) rows l ∧
      r = (acc.1 ++ l.map (·.1), acc.2.1 ++ l.map (·.2.1), acc.2.2 ++ l.map (·.2.2)) := by
  induction rows generalizing acc with
  | nil =>
    unfold readDataLoop
    constructor
    · intro h; injection h with h; subst h; exact ⟨[], .nil, by simp⟩
    · rintro ⟨l, h, rfl⟩
      cases h
      simp
  | cons row rows ih =>
    obtain ⟨xs, ys, errs⟩ := acc
    unfold readDataLoop
    split
    · next x y err =>
      constructor
      · intro h
        obtain ⟨a, ha, h⟩ := except_bind_eq_ok.mp h
        obtain ⟨b, hb, h⟩ := except_bind_eq_ok.mp h
        obtain ⟨c, hc, h⟩ := except_bind_eq_ok.mp h
        obtain ⟨l, hl, rfl⟩ := (ih _).mp h
        exact ⟨(a, b, c) :: l, .cons ⟨x, y, err, rfl, ha, hb, hc⟩ hl, by simp⟩
      · rintro ⟨l, hl, rfl⟩
        rcases hl with _ | ⟨⟨a, b, c, h, ha, hb, hc⟩, hl⟩
        next z l =>
        injection h with h1 h; injection h with h2 h; injection h with h3 h
        subst h1 h2 h3
        rw [ha, except_ok_bind, hb, except_ok_bind, hc, except_ok_bind, ih]
        exact ⟨l, hl, by simp⟩
    · next hrow =>
      constructor
      · intro h; cases h
      · rintro ⟨l, hl, rfl⟩
        rcases hl with _ | ⟨⟨a, b, c, h, -⟩, hl⟩
        exact absurd h (hrow a b c)

theorem readDataLoop_error (float : String → Except PyErr ℝ) (rows : List (List String)) (acc : List ℝ × List ℝ × List ℝ) (e : PyErr)
    (h : readDataLoop float rows acc = .error e) : ∃ before row after, rows = before ++ row :: after ∧
      (∃ r, readDataLoop float before ([], [], []) = .ok r) ∧
      (row.length ≠ 3 ∧ e = .valueError ∨ row.length = 3 ∧ ∃ a ∈ row, float a = .error e) := by
  induction rows generalizing acc with
  | nil => cases h
  | cons row rows ih =>
    obtain ⟨xs, ys, errs⟩ := acc
    have hstart : ∃ r, readDataLoop float [] ([], [], []) = .ok r := ⟨_, rfl⟩
    unfold readDataLoop at h
    split at h
    · next x y err =>
      rcases ha : float x with e' | a
      · rw [ha] at h; injection h with h; subst h
        exact ⟨[], _, rows, rfl, hstart, .inr ⟨rfl, x, by simp, ha⟩⟩
      rw [ha, except_ok_bind] at h
      rcases hb : float y with e' | b
      · rw [hb] at h; injection h with h; subst h
        exact ⟨[], _, rows, rfl, hstart, .inr ⟨rfl, y, by simp, hb⟩⟩
      rw [hb, except_ok_bind] at h
      rcases hc : float err with e' | c
      · rw [hc] at h; injection h with h; subst h
        exact ⟨[], _, rows, rfl, hstart, .inr ⟨rfl, err, by simp, hc⟩⟩
      rw [hc, except_ok_bind] at h
      obtain ⟨before, row, after, rfl, ⟨r, hr⟩, h3⟩ := ih _ h
      refine ⟨[x, y, err] :: before, row, after, rfl, ?_, h3⟩
      obtain ⟨l, hl, -⟩ := (readDataLoop_ok _ _ _ _).mp hr
      exact ⟨_, (readDataLoop_ok _ _ _ _).mpr ⟨(a, b, c) :: l, .cons ⟨x, y, err, rfl, ha, hb, hc⟩ hl, rfl⟩⟩
    · next hrow =>
      injection h with h
      refine ⟨[], row, rows, rfl, hstart, .inl ⟨?_, h.symm⟩⟩
      intro hlen
      obtain ⟨a, b, c, rfl⟩ := List.length_eq_three.mp hlen
      exact hrow a b c rfl

/-! ### The best of several runs -/

/-- What the loop has found after the results `results`. -/
theorem bestOf_invariant (results : List BestFit) :
    (bestOf results).1 = results.filter (·.chi_squared.isSome) ∧
    ((bestOf results).2.chi_squared = none → ∀ r ∈ results, r.chi_squared = none) ∧
    (∀ c, (bestOf results).2.chi_squared = some c → ∃ before after, results = before ++ (bestOf results).2 :: after ∧
      (∀ r ∈ before, ∀ c', r.chi_squared = some c' → c < c') ∧ (∀ r ∈ after, ∀ c', r.chi_squared = some c' → c ≤ c')) := by
  induction results using List.reverseRecOn with
  | nil => exact ⟨rfl, fun _ r hr => absurd hr (by simp), fun c h => by cases h⟩
  | append_singleton l x ih =>
    have hstep : bestOf (l ++ [x]) = bestOfStep (bestOf l) x := by unfold bestOf; rw [List.foldl_append]; rfl
    rw [hstep]
    rcases hb : bestOf l with ⟨fr, best⟩
    rw [hb] at ih
    dsimp only at ih
    obtain ⟨i1, i2, i3⟩ := ih
    unfold bestOfStep
    dsimp only
    split
    · next hx =>
      refine ⟨by simp [i1, hx], ?_, ?_⟩
      · intro h r hr
        rcases List.mem_append.mp hr with hr | hr
        · exact i2 h r hr
        · rw [List.mem_singleton.mp hr]; exact hx
      · intro c h
        obtain ⟨before, after, rfl, h1, h2⟩ := i3 c h
        refine ⟨before, after ++ [x], by simp, h1, ?_⟩
        intro r hr c' hc'
        rcases List.mem_append.mp hr with hr | hr
        · exact h2 r hr c' hc'
        · rw [List.mem_singleton.mp hr, hx] at hc'; cases hc'
    · next chi hx =>
      split
      · next hn =>
        refine ⟨by simp [i1, hx], (fun h => by rw [hx] at h; cases h), ?_⟩
        intro c h
        refine ⟨l, [], by simp, ?_, by simp⟩
        intro r hr c' hc'
        rw [i2 hn r hr] at hc'
        cases hc'
      · next best' hs =>
        obtain ⟨before, after, hl, h1, h2⟩ := i3 _ hs
        split
        · next hlt =>
          refine ⟨by simp [i1, hx], (fun h => by rw [hx] at h; cases h), ?_⟩
          intro c h
          dsimp only at h
          rw [hx] at h
          injection h with h
          subst h
          refine ⟨l, [], by simp, ?_, by simp⟩
          intro r hr c' hc'
          rw [hl] at hr
          rcases List.mem_append.mp hr with hr | hr
          · exact lt_trans hlt (h1 r hr c' hc')
          · rcases List.mem_cons.mp hr with rfl | hr
            · rw [hs] at hc'; injection hc' with hc'; subst hc'; exact hlt
            · exact lt_of_lt_of_le hlt (h2 r hr c' hc')
        · next hge =>
          refine ⟨by simp [i1, hx], (fun h => by dsimp only at h; rw [hs] at h; cases h), ?_⟩
          intro c h
          dsimp only at h
          rw [hs] at h
          injection h with h
          subst h
          refine ⟨before, after ++ [x], by simp [hl], h1, ?_⟩
          intro r hr c' hc'
          rcases List.mem_append.mp hr with hr | hr
          · exact h2 r hr c' hc'
          · rw [List.mem_singleton.mp hr, hx] at hc'
            injection hc' with hc'
            subst hc'
            exact not_lt.mp hge

/-! ### The panels of the figures -/

/-- Columns joined end to end. -/
def Columns.join (a b : Columns) : Columns := ⟨a.ts ++ b.ts, a.ys ++ b.ys, a.errors ++ b.errors, a.fit ++ b.fit⟩

theorem Columns.join_nil (a : Columns) : a.join ⟨[], [], [], []⟩ = a := by
  unfold Columns.join; simp

theorem Columns.nil_join (a : Columns) : (⟨[], [], [], []⟩ : Columns).join a = a := rfl

theorem Columns.append_join {β : Type} (tOf : β → ℂ) (a : Columns) (x : β × ℝ × ℝ × ℝ) (l : List (β × ℝ × ℝ × ℝ)) :
    (a.append (tOf x.1) x.2.1 x.2.2.1 x.2.2.2).join (columnsOf tOf l) = a.join (columnsOf tOf (x :: l)) := by
  unfold Columns.append Columns.join columnsOf; simp

theorem pyListIndex_some {α : Type} {l : List α} {i : ℕ} {a : α} (h : l[i]? = some a) : pyListIndex l i = .ok a := by
  unfold pyListIndex; rw [h]

theorem splitLoop_run {β : Type} {point : β → Datapoint} {tOf : β → ℂ} {flagOf : β → Bool} {flag : Datapoint → Except PyErr Bool}
    (hf : ∀ b, flag (point b) = .ok (flagOf b)) (ht : ∀ b, (point b).attrT = .ok (tOf b)) {ts : List Datapoint} {ys errors fit : List ℝ}
    (suf : List (β × ℝ × ℝ × ℝ)) (k : ℕ)
    (h : ∀ i x, suf[i]? = some x → ts[k + i]? = some (point x.1) ∧ ys[k + i]? = some x.2.1 ∧ errors[k + i]? = some x.2.2.1 ∧
      fit[k + i]? = some x.2.2.2) (acc : Columns × Columns) :
    splitLoop flag Datapoint.attrT ts ys errors fit (List.range' k suf.length) acc =
      .ok (acc.1.join (columnsOf tOf (suf.filter fun x => flagOf x.1)), acc.2.join (columnsOf tOf (suf.filter fun x => !flagOf x.1))) := by
  induction suf generalizing k acc with
  | nil =>
    obtain ⟨a, b⟩ := acc
    show Except.ok _ = _
    simp only [List.filter_nil]
    rw [show columnsOf tOf [] = ⟨[], [], [], []⟩ from rfl, Columns.join_nil, Columns.join_nil]
  | cons x suf ih =>
    obtain ⟨a, b⟩ := acc
    obtain ⟨h1, h2, h3, h4⟩ := h 0 x rfl
    rw [Nat.add_zero] at h1 h2 h3 h4
    rw [List.length_cons, List.range'_succ, splitLoop, pyListIndex_some h1, except_ok_bind, hf, except_ok_bind, ht, except_ok_bind,
      pyListIndex_some h2, except_ok_bind, pyListIndex_some h3, except_ok_bind, pyListIndex_some h4, except_ok_bind,
      ih (k + 1) (fun i y hy => by
        have := h (i + 1) y hy
        rwa [show k + (i + 1) = k + 1 + i from by omega] at this)]
    cases hx : flagOf x.1 with
    | true =>
      rw [List.filter_cons_of_pos (by simpa using hx), List.filter_cons_of_neg (by simpa using hx)]
      rw [← Columns.append_join]
      rfl
    | false =>
      rw [List.filter_cons_of_neg (by simpa using hx), List.filter_cons_of_pos (by simpa using hx)]
      rw [← Columns.append_join]
      rfl

theorem getElem?_of_prefix {α : Type} {l m : List α} (h : l <+: m) {i : ℕ} {a : α} (ha : l[i]? = some a) : m[i]? = some a := by
  obtain ⟨r, rfl⟩ := h
  rw [List.getElem?_append_left (List.getElem?_eq_some_iff.mp ha).1, ha]

/-- The whole loop over the points of `l`; the lists of numbers may be longer. -/
theorem splitLoop_all {β : Type} {point : β → Datapoint} {tOf : β → ℂ} {flagOf : β → Bool} {flag : Datapoint → Except PyErr Bool}
    (hf : ∀ b, flag (point b) = .ok (flagOf b)) (ht : ∀ b, (point b).attrT = .ok (tOf b)) {ys errors fit : List ℝ}
    (l : List (β × ℝ × ℝ × ℝ)) (h1 : l.map (·.2.1) <+: ys) (h2 : l.map (·.2.2.1) <+: errors) (h3 : l.map (·.2.2.2) <+: fit) :
    splitLoop flag Datapoint.attrT (l.map fun x => point x.1) ys errors fit (List.range (l.map fun x => point x.1).length)
      (⟨[], [], [], []⟩, ⟨[], [], [], []⟩) =
      .ok (columnsOf tOf (l.filter fun x => flagOf x.1), columnsOf tOf (l.filter fun x => !flagOf x.1)) := by
  rw [List.length_map, List.range_eq_range', splitLoop_run hf ht l 0]
  · rfl
  · intro i x hx
    rw [Nat.zero_add]
    exact ⟨by rw [List.getElem?_map, hx]; rfl, getElem?_of_prefix h1 (by rw [List.getElem?_map, hx]; rfl),
      getElem?_of_prefix h2 (by rw [List.getElem?_map, hx]; rfl), getElem?_of_prefix h3 (by rw [List.getElem?_map, hx]; rfl)⟩

/-- With points of the right kind the loop can only fail because a list is too short, and then it does. -/
theorem splitLoop_short {β : Type} {point : β → Datapoint} {tOf : β → ℂ} {flagOf : β → Bool} {flag : Datapoint → Except PyErr Bool}
    (hf : ∀ b, flag (point b) = .ok (flagOf b)) (ht : ∀ b, (point b).attrT = .ok (tOf b)) {bs : List β} {ys errors fit : List ℝ}
    (is : List ℕ) (hi : ∀ i ∈ is, i < bs.length) (hs : ∃ i ∈ is, ys.length ≤ i ∨ errors.length ≤ i ∨ fit.length ≤ i) (acc : Columns × Columns) :
    splitLoop flag Datapoint.attrT (bs.map point) ys errors fit is acc = .error .indexError := by
  induction is generalizing acc with
  | nil => obtain ⟨i, hi, -⟩ := hs; cases hi
  | cons i is ih =>
    obtain ⟨a, b⟩ := acc
    have hib := hi i (by simp)
    have h1 : (bs.map point)[i]? = some (point bs[i]) := by rw [List.getElem?_map, List.getElem?_eq_getElem hib]; rfl
    rw [splitLoop, pyListIndex_some h1, except_ok_bind, hf, except_ok_bind, ht, except_ok_bind]
    unfold pyListIndex
    rcases h2 : ys[i]? with _ | y
    · rfl
    rw [except_ok_bind]
    rcases h3 : errors[i]? with _ | er
    · rfl
    rw [except_ok_bind]
    rcases h4 : fit[i]? with _ | g
    · rfl
    rw [except_ok_bind]
    refine ih (fun j hj => hi j (by simp [hj])) ?_ _
    obtain ⟨j, hj, hjs⟩ := hs
    rcases List.mem_cons.mp hj with rfl | hj
    · have := (List.getElem?_eq_some_iff.mp h2).1
      have := (List.getElem?_eq_some_iff.mp h3).1
      have := (List.getElem?_eq_some_iff.mp h4).1
      omega
    · exact ⟨j, hj, hjs⟩

/-! ### `report` of the parser -/

theorem pySplit_ne_nil (c : Char) (s : List Char) : pySplit c s ≠ [] := by
  cases s with
  | nil => simp [pySplit]
  | cons a s =>
    unfold pySplit
    split
    · simp
    · split <;> simp

/-- Splitting at the first separator. -/
theorem pySplit_append (c : Char) (u v : List Char) (hu : c ∉ u) : pySplit c (u ++ c :: v) = u :: pySplit c v := by
  induction u with
  | nil => simp [pySplit]
  | cons a u ih =>
    have ha : a ≠ c := fun h => hu (by simp [h])
    rw [List.cons_append, pySplit, if_neg ha, ih (fun h => hu (by simp [h]))]

theorem pyJoin_split (c : Char) (s : List Char) : pyJoin c (pySplit c s) = s := by
  induction s with
  | nil => rfl
  | cons a s ih =>
    unfold pySplit
    split
    · next h =>
      subst h
      obtain ⟨x, l, hl⟩ := List.exists_cons_of_ne_nil (pySplit_ne_nil a s)
      rw [hl] at ih ⊢
      unfold pyJoin
      rw [ih]; rfl
    · next h =>
      obtain ⟨x, l, hl⟩ := List.exists_cons_of_ne_nil (pySplit_ne_nil c s)
      rw [hl] at ih ⊢
      dsimp only
      cases l with
      | nil => unfold pyJoin at ih ⊢; rw [ih]
      | cons y l => unfold pyJoin at ih ⊢; rw [← ih]; rfl

theorem pyStrip_spec (s : List Char) : ∃ u v, s = u ++ pyStrip s ++ v ∧ (∀ a ∈ u, a = ' ' ∨ a = '\n') ∧ (∀ a ∈ v, a = ' ' ∨ a = '\n') ∧
    (∀ a, (pyStrip s).head? = some a → a ≠ ' ' ∧ a ≠ '\n') ∧ (∀ a, (pyStrip s).getLast? = some a → a ≠ ' ' ∧ a ≠ '\n') := by
  let blank : Char → Bool := fun a => a == ' ' || a == '\n'
  have hbl : ∀ a, blank a = true ↔ a = ' ' ∨ a = '\n' := by intro a; simp [blank]
  have hnb : ∀ a, blank a = false ↔ a ≠ ' ' ∧ a ≠ '\n' := by intro a; simp [blank]
  have hs : pyStrip s = ((s.dropWhile blank).reverse.dropWhile blank).reverse := rfl
  have htw : ∀ l : List Char, ∀ a ∈ l.takeWhile blank, a = ' ' ∨ a = '\n' := by
    intro l a ha
    exact (hbl a).mp (List.all_eq_true.mp List.all_takeWhile a ha)
  have hdw : ∀ l : List Char, ∀ a, (l.dropWhile blank).head? = some a → a ≠ ' ' ∧ a ≠ '\n' := by
    intro l a ha
    have := List.head?_dropWhile_not blank l
    rw [ha] at this
    exact (hnb a).mp (by simpa using this)
  have hsplit : s.dropWhile blank = pyStrip s ++ ((s.dropWhile blank).reverse.takeWhile blank).reverse := by
    rw [hs, ← List.reverse_append, List.takeWhile_append_dropWhile, List.reverse_reverse]
  refine ⟨s.takeWhile blank, ((s.dropWhile blank).reverse.takeWhile blank).reverse, ?_, htw s, ?_, ?_, ?_⟩
  · rw [List.append_assoc, ← hsplit, List.takeWhile_append_dropWhile]
  · intro a ha
    exact htw _ a (List.mem_reverse.mp ha)
  · intro a ha
    apply hdw s a
    rw [hsplit, List.head?_append, ha]
    rfl
  · intro a ha
    rw [hs, List.getLast?_reverse] at ha
    exact hdw _ a ha

theorem dropWhile_front {p : Char → Bool} {u d : List Char} (hu : ∀ a ∈ u, p a = true) (hd : ∀ a, d.head? = some a → p a = false) :
    (u ++ d).dropWhile p = d := by
  rw [List.dropWhile_append_of_pos hu]
  cases d with
  | nil => rfl
  | cons x d => rw [List.dropWhile_cons_of_neg]; rw [hd x rfl]; simp

theorem pyStrip_eq {s u d v : List Char} (h : s = u ++ d ++ v) (hu : ∀ a ∈ u, a = ' ' ∨ a = '\n') (hv : ∀ a ∈ v, a = ' ' ∨ a = '\n')
    (hh : ∀ a, d.head? = some a → a ≠ ' ' ∧ a ≠ '\n') (ht : ∀ a, d.getLast? = some a → a ≠ ' ' ∧ a ≠ '\n') : pyStrip s = d := by
  let blank : Char → Bool := fun a => a == ' ' || a == '\n'
  have hbl : ∀ a, a = ' ' ∨ a = '\n' → blank a = true := by intro a; simp [blank]
  have hnb : ∀ a, a ≠ ' ' ∧ a ≠ '\n' → blank a = false := by intro a; simp [blank]
  have hs : pyStrip s = ((s.dropWhile blank).reverse.dropWhile blank).reverse := rfl
  rw [hs]
  cases d with
  | nil =>
    have : s.dropWhile blank = [] := by
      have hd := dropWhile_front (p := blank) (u := s) (d := []) ?_ (by simp)
      · rwa [List.append_nil] at hd
      intro a ha
      rw [h] at ha
      simp only [List.append_nil, List.mem_append] at ha
      exact hbl a (ha.elim (hu a) (hv a))
    rw [this]; rfl
  | cons x d =>
    rw [h, List.append_assoc, dropWhile_front (fun a ha => hbl a (hu a ha)), List.reverse_append,
      dropWhile_front, List.reverse_reverse]
    · intro a ha; exact hbl a (hv a (List.mem_reverse.mp ha))
    · intro a ha; exact hnb a (ht a (by rwa [List.head?_reverse] at ha))
    · intro a ha; exact hnb a (hh a ha)

theorem mem_dictInsert {α : Type} (d : List (String × α)) (k : String) (v : α) (q : String × α) :
    q ∈ dictInsert d k v ↔ q.1 = k ∧ q.2 = v ∨ q.1 ≠ k ∧ q ∈ d := by
  obtain ⟨n, x⟩ := q
  unfold dictInsert
  split
  · next h =>
    simp only [List.any_eq_true, beq_iff_eq] at h
    obtain ⟨r, hr, hrk⟩ := h
    rw [List.mem_map]
    constructor
    · rintro ⟨r, hr, h⟩
      split at h
      · injection h with h1 h2; exact .inl ⟨h1.symm, h2.symm⟩
      · next hne => subst h; exact .inr ⟨hne, hr⟩
    · rintro (⟨h1, h2⟩ | ⟨h1, h2⟩)
      · dsimp only at h1 h2; subst h1 h2; exact ⟨r, hr, if_pos hrk⟩
      · exact ⟨_, h2, if_neg h1⟩
  · next h =>
    simp only [List.any_eq_true, beq_iff_eq, not_exists, not_and] at h
    rw [List.mem_append, List.mem_singleton]
    constructor
    · rintro (h1 | h1)
      · exact .inr ⟨h _ h1, h1⟩
      · injection h1 with h1 h2; exact .inl ⟨h1, h2⟩
    · rintro (⟨h1, h2⟩ | ⟨h1, h2⟩)
      · right; dsimp only at h1 h2; rw [h1, h2]
      · exact .inl h2

theorem keys_dictInsert {α : Type} (d : List (String × α)) (k : String) (v : α) :
    (dictInsert d k v).map Prod.fst = if k ∈ d.map Prod.fst then d.map Prod.fst else d.map Prod.fst ++ [k] := by
  unfold dictInsert
  have : d.any (fun x => x.1 == k) = true ↔ k ∈ d.map Prod.fst := by
    simp
  by_cases h : k ∈ d.map Prod.fst
  · rw [if_pos (this.mpr h), if_pos h, List.map_map]
    apply List.map_congr_left
    intro q _
    simp only [Function.comp]
    split
    · next e => exact e.symm
    · rfl
  · rw [if_neg (fun h' => h (this.mp h')), if_neg h, List.map_append]; rfl

theorem pyDict_append {α : Type} (l : List (String × α)) (x : String × α) : pyDict (l ++ [x]) = dictInsert (pyDict l) x.1 x.2 := by
  unfold pyDict; rw [List.foldl_append]; rfl

/-- The entries of a dictionary: for each key the last value. -/
theorem mem_pyDict {α : Type} (l : List (String × α)) (q : String × α) :
    q ∈ pyDict l ↔ ∃ before after, l = before ++ q :: after ∧ ∀ r ∈ after, r.1 ≠ q.1 := by
  induction l using List.reverseRecOn with
  | nil => simp [pyDict]
  | append_singleton l x ih =>
    rw [pyDict_append, mem_dictInsert, ih]
    constructor
    · rintro (⟨h1, h2⟩ | ⟨h1, before, after, rfl, h3⟩)
      · exact ⟨l, [], by rw [show x = q from Prod.ext h1.symm h2.symm], by simp⟩
      · refine ⟨before, after ++ [x], by simp, ?_⟩
        intro r hr
        rcases List.mem_append.mp hr with hr | hr
        · exact h3 r hr
        · rw [List.mem_singleton.mp hr]; exact fun h => h1 h.symm
    · rintro ⟨before, after, h, h3⟩
      rcases List.eq_nil_or_concat after with rfl | ⟨after, y, rfl⟩
      · obtain ⟨-, h⟩ := List.append_inj' h rfl
        injection h with h
        subst h
        exact .inl ⟨rfl, rfl⟩
      · rw [List.concat_eq_append] at h h3
        rw [← List.cons_append, ← List.append_assoc] at h
        obtain ⟨rfl, hxy⟩ := List.append_inj' h rfl
        injection hxy with hxy
        subst hxy
        exact .inr ⟨fun h' => h3 x (by simp) h'.symm, before, after, rfl, fun r hr => h3 r (by simp [hr])⟩

/-- The keys of a dictionary are in the order of their first appearance. -/
theorem keys_pyDict {α : Type} (l : List (String × α)) :
    (∀ n, n ∈ (pyDict l).map Prod.fst ↔ n ∈ l.map Prod.fst) ∧
    (pyDict l).Pairwise fun a b => (l.map Prod.fst).idxOf a.1 < (l.map Prod.fst).idxOf b.1 := by
  rw [← List.pairwise_map (f := Prod.fst) (R := fun a b => (l.map Prod.fst).idxOf a < (l.map Prod.fst).idxOf b)]
  induction l using List.reverseRecOn with
  | nil => exact ⟨by simp [pyDict], List.Pairwise.nil⟩
  | append_singleton l x ih =>
    obtain ⟨i1, i2⟩ := ih
    rw [pyDict_append, keys_dictInsert]
    have hidx : ∀ n ∈ (pyDict l).map Prod.fst, ((l ++ [x]).map Prod.fst).idxOf n = (l.map Prod.fst).idxOf n := by
      intro n hn
      rw [List.map_append, List.idxOf_append_of_mem ((i1 n).mp hn)]
    have i2' : ((pyDict l).map Prod.fst).Pairwise fun a b => ((l ++ [x]).map Prod.fst).idxOf a < ((l ++ [x]).map Prod.fst).idxOf b := by
      refine i2.imp_of_mem ?_
      intro a b ha hb hab
      rwa [hidx a ha, hidx b hb]
    split
    · next h =>
      refine ⟨?_, i2'⟩
      intro n
      rw [i1, List.map_append, List.mem_append]
      constructor
      · exact .inl
      · rintro (h' | h')
        · exact h'
        · rw [List.mem_singleton.mp h']; exact (i1 _).mp h
    · next h =>
      refine ⟨?_, ?_⟩
      · intro n
        rw [List.mem_append, i1, List.map_append, List.mem_append]
        rfl
      · rw [List.pairwise_append]
        refine ⟨i2', List.pairwise_singleton _ _, ?_⟩
        intro a ha b hb
        rw [List.mem_singleton.mp hb, hidx a ha, List.map_append, List.idxOf_append_of_notMem (fun h' => h ((i1 _).mpr h'))]
        have := List.idxOf_lt_length_iff.mpr ((i1 a).mp ha)
        omega

/-- A stable sort orders by the key first, and by the original order second. -/
theorem pairwise_of_stable {β κ : Type} [LinearOrder κ] [DecidableEq κ] {key : β → κ} {R : β → β → Prop} {l : List β}
    (h1 : l.Pairwise fun a b => key a ≤ key b) (h2 : ∀ t, (l.filter fun a => decide (key a = t)).Pairwise R) :
    l.Pairwise fun a b => key a < key b ∨ key a = key b ∧ R a b := by
  rw [List.pairwise_iff_forall_sublist] at h1 ⊢
  intro a b hab
  rcases (h1 hab).lt_or_eq with h | h
  · exact .inl h
  · right
    refine ⟨h, ?_⟩
    have hs := hab.filter fun x => decide (key x = key b)
    rw [List.filter_cons_of_pos (by simpa using h), List.filter_cons_of_pos (by simp), List.filter_nil] at hs
    exact List.pairwise_iff_forall_sublist.mp (h2 (key b)) hs

/-- The loop over the lines. -/
theorem report_fold (eval : String → Except PyErr (Option String)) (l : List (String × String × String))
    (h : ∀ x ∈ l, ∀ d, reportLine eval d x.1 = (do let value ← eval x.2.2; return dictInsert d x.2.1 value)) (vs : List (String × Option String)) :
    (l.map (·.1)).foldlM (reportLine eval) (pyDict vs) =
      (do let ws ← l.mapM (fun x => do let value ← eval x.2.2; return (x.2.1, value)); return pyDict (vs ++ ws)) := by
  induction l generalizing vs with
  | nil => simp [List.mapM_nil]
  | cons x l ih =>
    rw [List.map_cons, List.foldlM_cons, h x (by simp), List.mapM_cons]
    rcases hx : eval x.2.2 with e | v
    · rfl
    · simp only [except_ok_bind]
      show (l.map (·.1)).foldlM (reportLine eval) (dictInsert (pyDict vs) x.2.1 v) = _
      rw [← pyDict_append vs (x.2.1, v), ih (fun y hy => h y (by simp [hy]))]
      simp only [bind_assoc, pure_bind, List.append_assoc, List.singleton_append]

theorem reportLine_of {eval : String → Except PyErr (Option String)} {line name data : String} (h : IsReportLine line name data)
    (d : List (String × Option String)) :
    reportLine eval d line = (do let value ← eval data; return dictInsert d name value) := by
  obtain ⟨a, b, rest, ha, hb, hl, hn, u, v, h1, h2, h3, h4, h5⟩ := h
  have hs : pySplit ':' line.toList = a :: b :: pySplit ':' rest := by
    rw [hl, pySplit_append _ _ _ ha, pySplit_append _ _ _ hb]
  unfold reportLine
  rw [hs]
  simp only [List.take_succ_cons, List.take_zero, List.drop_succ_cons, List.drop_zero]
  rw [pyJoin_split, pyStrip_eq h1 h2 h3 h4 h5]
  have : pyJoin ':' [a, b] = name.toList := by rw [hn]; rfl
  rw [this, String.ofList_toList, String.ofList_toList]

/-- A line with fewer than two colons has no data. -/
theorem pySplit_length (c : Char) (s : List Char) : (pySplit c s).length = s.count c + 1 := by
  induction s with
  | nil => rfl
  | cons a s ih =>
    unfold pySplit
    split
    · next h => rw [List.length_cons, ih, h, List.count_cons_self]
    · next h =>
      obtain ⟨x, l, hl⟩ := List.exists_cons_of_ne_nil (pySplit_ne_nil c s)
      rw [List.count_cons_of_ne h, ← ih, hl]
      rfl

theorem reportLine_short {eval : String → Except PyErr (Option String)} {line : String} (h : line.toList.count ':' < 2) {e : PyErr}
    (he : eval "" = .error e) (d : List (String × Option String)) : reportLine eval d line = .error e := by
  have hd : (pySplit ':' line.toList).drop 2 = [] := by
    rw [List.drop_eq_nil_iff, pySplit_length]; omega
  unfold reportLine
  dsimp only
  rw [hd, show String.ofList (pyStrip (pyJoin ':' [])) = "" from rfl, he]
  rfl

end UA
