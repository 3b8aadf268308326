import Verif.Spec.Utils
import Verif.Props.Parameters

/-!
# Helper lemmas: partial functions
-/

namespace UA

/-- Same names and flags, and the same values where fixed. -/
def SameButFree (l l' : List (Parameter ℝ)) : Prop :=
  List.Forall₂ (fun q q' => q'.name = q.name ∧ q'.is_fixed = q.is_fixed ∧ (q.is_fixed = true → q' = q)) l l'

theorem SameButFree.refl (l : List (Parameter ℝ)) : SameButFree l l := by
  induction l with
  | nil => exact .nil
  | cons q l ih => exact .cons ⟨rfl, rfl, fun _ => rfl⟩ ih

theorem SameButFree.trans {l l' l'' : List (Parameter ℝ)} (h : SameButFree l l') (h' : SameButFree l' l'') : SameButFree l l'' := by
  induction h generalizing l'' with
  | nil => cases h'; exact .nil
  | cons h1 _ ih =>
    cases h' with
    | cons h2 ht =>
      refine .cons ⟨h2.1.trans h1.1, h2.2.1.trans h1.2.1, fun hf => ?_⟩ (ih ht)
      rw [h2.2.2 (by rw [h1.2.1]; exact hf), h1.2.2 hf]

theorem SameButFree.assign {l l' : List (Parameter ℝ)} (h : SameButFree l l') : ∀ vs : List ℝ,
    (l.filter (!·.is_fixed)).length = vs.length → assignFree l' vs = assignFree l vs := by
  induction h with
  | nil => intros; rfl
  | @cons q q' l l' h1 _ ih =>
    intro vs hl
    unfold assignFree
    rw [h1.2.1]
    by_cases hq : q.is_fixed = true
    · rw [if_pos hq, if_pos hq, h1.2.2 hq, ih vs (by simpa [hq] using hl)]
    · rw [if_neg hq, if_neg hq]
      simp only [Bool.not_eq_true] at hq
      cases vs with
      | nil => simp [hq] at hl
      | cons v vs =>
        simp only
        rw [h1.1, ih vs (by simpa [hq] using hl)]

theorem SameButFree.length {l l' : List (Parameter ℝ)} (h : SameButFree l l') :
    (l'.filter (!·.is_fixed)).length = (l.filter (!·.is_fixed)).length := by
  induction h with
  | nil => rfl
  | @cons q q' l l' h1 _ ih =>
    by_cases hq : q.is_fixed = true
    · simp [hq, h1.2.1, ih]
    · simp [hq, h1.2.1, ih]

/-- `q` is `p` with other free values. -/
def OtherFree (p q : ModelParameters ℝ) : Prop := ∃ d, q = { p with data := d } ∧ SameButFree p.data d

theorem OtherFree.update {p q : ModelParameters ℝ} (h : OtherFree p q) (args : List ℝ) :
    OtherFree p (q.updateFreeValues args).2 ∧ ((p.getFreeValues.length = args.length ∧ q.updateFreeValues args = p.updateFreeValues args) ∨
      (q.updateFreeValues args).1 = .error .valueError ∧ (p.updateFreeValues args).1 = .error .valueError) := by
  obtain ⟨d, rfl, hd⟩ := h
  have hlen : ({ p with data := d } : ModelParameters ℝ).getFreeValues.length = p.getFreeValues.length := by
    simp only [ModelParameters.getFreeValues, List.length_map]
    exact hd.length
  rw [updateFreeValues_eq, updateFreeValues_eq, hlen]
  by_cases h : p.getFreeValues.length = args.length
  · rw [if_pos h, if_pos h]
    refine ⟨⟨_, rfl, hd.trans (assignFree_forall₂ d args)⟩, Or.inl ⟨h, ?_⟩⟩
    simp only
    rw [hd.assign args (by simpa [ModelParameters.getFreeValues] using h)]
  · rw [if_neg h, if_neg h]
    exact ⟨⟨d, rfl, hd⟩, Or.inr ⟨rfl, rfl⟩⟩

theorem OtherFree.partialSpec {p q : ModelParameters ℝ} (h : OtherFree p q) (kind : PartialKind) (ts : List Datapoint) (args : List ℝ) :
    partialSpec kind q ts args = partialSpec kind p ts args := by
  unfold UA.partialSpec
  rcases (h.update args).2 with ⟨-, h⟩ | ⟨h1, h2⟩
  · rw [h]
  · rcases hq : q.updateFreeValues args with ⟨r, s⟩
    rcases hp : p.updateFreeValues args with ⟨r', s'⟩
    rw [hq] at h1; rw [hp] at h2
    simp only at h1 h2
    rw [h1, h2]

theorem PartialF.call_eq {f : PartialF} {heap : Heap} {p : ModelParameters ℝ} (h : heap[f.parameters]? = some p) (ts : List Datapoint)
    (args : List ℝ) : f.call heap ts args = (partialSpec f.kind p ts args, heap.set f.parameters (p.updateFreeValues args).2) := by
  unfold PartialF.call UA.partialSpec
  rw [h]
  simp only
  rcases p.updateFreeValues args with ⟨r, q⟩
  rcases r with e | u <;> rfl

/-- The invariant of a program: all references are valid, the captured ones are private and distinct. -/
structure Program.Inv (w : Program) : Prop where
  objects : ∀ p ∈ w.heap, Reachable p
  refs : ∀ r ∈ w.refs, r < w.heap.length
  captured : ∀ f ∈ w.functions, f.parameters < w.heap.length ∧ f.parameters ∉ w.refs
  distinct : (w.functions.map (·.parameters)).Nodup

theorem Program.start_inv : Program.start.Inv where
  objects := by intro p hp; cases hp
  refs := by intro p hp; cases hp
  captured := by intro p hp; cases hp
  distinct := List.nodup_nil

theorem mem_of_getElem? {β : Type} {l : List β} {i : ℕ} {x : β} (h : l[i]? = some x) : x ∈ l := List.mem_of_getElem? h

theorem Program.Inv.extend {w : Program} (h : w.Inv) {p : ModelParameters ℝ} (hp : Reachable p) :
    ({ w with heap := w.heap ++ [p], refs := w.heap.length :: w.refs } : Program).Inv where
  objects := by
    intro q hq
    rcases List.mem_append.mp hq with hq | hq
    · exact h.objects q hq
    · rw [List.mem_singleton.mp hq]; exact hp
  refs := by
    intro r hr
    simp only [List.length_append, List.length_singleton]
    rcases List.mem_cons.mp hr with rfl | hr
    · omega
    · have := h.refs r hr; omega
  captured := by
    intro f hf
    obtain ⟨h1, h2⟩ := h.captured f hf
    simp only [List.length_append, List.length_singleton, List.mem_cons, not_or]
    exact ⟨by omega, by omega, h2⟩
  distinct := h.distinct

theorem Program.Inv.setObj {w : Program} (h : w.Inv) {p : ModelParameters ℝ} (hp : Reachable p) (r : ℕ) :
    ({ w with heap := w.heap.set r p } : Program).Inv where
  objects := by
    intro q hq
    rcases List.mem_or_eq_of_mem_set hq with hq | rfl
    · exact h.objects q hq
    · exact hp
  refs := by intro r hr; simpa using h.refs r hr
  captured := by intro f hf; simpa using h.captured f hf
  distinct := h.distinct

theorem makePartial_eq {heap : Heap} {ref : ℕ} {p : ModelParameters ℝ} (h : heap[ref]? = some p) (hp : Reachable p) (kind : PartialKind) :
    makePartial kind heap ref = .ok (⟨kind, heap.length⟩, heap ++ [p]) := by
  unfold makePartial
  rw [h]
  simp only
  rw [C37_copy hp]
  rfl

theorem Program.Inv.step {w : Program} (h : w.Inv) (s : ProgramStep) : (s.run w).Inv := by
  cases s with
  | new c kw =>
    simp only [ProgramStep.run]
    rcases hi : c.init kw with e | p
    · exact h
    · exact h.extend (.init hi)
  | copy ref =>
    simp only [ProgramStep.run]
    by_cases hr : ref ∈ w.refs
    · rw [if_pos hr]
      rcases hg : w.heap[ref]? with _ | p
      · exact h
      · simp only
        have hp := h.objects p (mem_of_getElem? hg)
        rw [C37_copy hp]
        exact h.extend hp
    · rw [if_neg hr]; exact h
  | mutate ref op =>
    simp only [ProgramStep.run]
    by_cases hr : ref ∈ w.refs
    · rw [if_pos hr]
      rcases hg : w.heap[ref]? with _ | p
      · exact h
      · exact h.setObj (.step op (h.objects p (mem_of_getElem? hg))) ref
    · rw [if_neg hr]; exact h
  | make kind ref =>
    simp only [ProgramStep.run]
    by_cases hr : ref ∈ w.refs
    · rw [if_pos hr]
      obtain ⟨p₀, hg⟩ : ∃ p₀, w.heap[ref]? = some p₀ := ⟨_, List.getElem?_eq_getElem (h.refs ref hr)⟩
      have hp := h.objects _ (mem_of_getElem? hg)
      rw [makePartial_eq hg hp]
      refine ⟨?_, ?_, ?_, ?_⟩
      · intro q hq
        rcases List.mem_append.mp hq with hq | hq
        · exact h.objects q hq
        · rw [List.mem_singleton.mp hq]; exact hp
      · intro r hr
        have := h.refs r hr
        simp only [List.length_append, List.length_singleton]; omega
      · intro f hf
        simp only [List.length_append, List.length_singleton]
        rcases List.mem_append.mp hf with hf | hf
        · obtain ⟨h1, h2⟩ := h.captured f hf
          exact ⟨by omega, h2⟩
        · rw [List.mem_singleton.mp hf]
          exact ⟨by simp, fun hm => absurd (h.refs _ hm) (lt_irrefl _)⟩
      · simp only [List.map_append, List.map_cons, List.map_nil]
        rw [List.nodup_append]
        refine ⟨h.distinct, by simp, ?_⟩
        intro a ha b hb
        obtain ⟨f, hf, rfl⟩ := List.mem_map.mp ha
        have := (h.captured f hf).1
        simp only [List.mem_singleton] at hb
        omega
    · rw [if_neg hr]; exact h
  | call k ts args =>
    simp only [ProgramStep.run]
    rcases hg : w.functions[k]? with _ | f
    · exact h
    · simp only
      have hc := (h.captured f (mem_of_getElem? hg)).1
      have hq : w.heap[f.parameters]? = some w.heap[f.parameters] := List.getElem?_eq_getElem _
      rw [PartialF.call_eq hq]
      exact h.setObj (.step (.updateFreeValues args) (h.objects _ (mem_of_getElem? hq))) _

theorem Program.Inv.runs {w : Program} (h : w.Inv) (steps : List ProgramStep) : (w.runs steps).Inv := by
  unfold Program.runs
  induction steps generalizing w with
  | nil => exact h
  | cons s steps ih => exact ih (h.step s)

/-- Function number `k` is still there, and its captured object is `p` up to free values. -/
def Program.Keeps (w : Program) (k : ℕ) (kind : PartialKind) (p : ModelParameters ℝ) : Prop :=
  ∃ f q, w.functions[k]? = some f ∧ f.kind = kind ∧ w.heap[f.parameters]? = some q ∧ OtherFree p q

theorem getElem?_append_some {β : Type} {l l' : List β} {i : ℕ} {x : β} (h : l[i]? = some x) : (l ++ l')[i]? = some x := by
  have hi : i < l.length := by
    by_contra hn
    rw [List.getElem?_eq_none (not_lt.mp hn)] at h; cases h
  rw [List.getElem?_append_left hi]; exact h

theorem Program.Keeps.step {w : Program} {k : ℕ} {kind : PartialKind} {p : ModelParameters ℝ} (h : w.Keeps k kind p) (hi : w.Inv)
    (s : ProgramStep) : (s.run w).Keeps k kind p := by
  obtain ⟨f, q, hf, hk, hq, ho⟩ := h
  have hcap := hi.captured f (mem_of_getElem? hf)
  cases s with
  | new c kw =>
    simp only [ProgramStep.run]
    rcases c.init kw with e | p
    · exact ⟨f, q, hf, hk, hq, ho⟩
    · exact ⟨f, q, hf, hk, getElem?_append_some hq, ho⟩
  | copy ref =>
    simp only [ProgramStep.run]
    by_cases hr : ref ∈ w.refs
    · rw [if_pos hr]
      rcases hg : w.heap[ref]? with _ | p'
      · exact ⟨f, q, hf, hk, hq, ho⟩
      · simp only
        rw [C37_copy (hi.objects p' (mem_of_getElem? hg))]
        exact ⟨f, q, hf, hk, getElem?_append_some hq, ho⟩
    · rw [if_neg hr]; exact ⟨f, q, hf, hk, hq, ho⟩
  | mutate ref op =>
    simp only [ProgramStep.run]
    by_cases hr : ref ∈ w.refs
    · rw [if_pos hr]
      rcases hg : w.heap[ref]? with _ | p'
      · exact ⟨f, q, hf, hk, hq, ho⟩
      · refine ⟨f, q, hf, hk, ?_, ho⟩
        simp only
        rw [List.getElem?_set_ne (fun he : ref = f.parameters => hcap.2 (he ▸ hr))]
        exact hq
    · rw [if_neg hr]; exact ⟨f, q, hf, hk, hq, ho⟩
  | make kind' ref =>
    simp only [ProgramStep.run]
    by_cases hr : ref ∈ w.refs
    · rw [if_pos hr]
      obtain ⟨p₀, hg⟩ : ∃ p₀, w.heap[ref]? = some p₀ := ⟨_, List.getElem?_eq_getElem (hi.refs ref hr)⟩
      rw [makePartial_eq hg (hi.objects _ (mem_of_getElem? hg))]
      exact ⟨f, q, getElem?_append_some hf, hk, getElem?_append_some hq, ho⟩
    · rw [if_neg hr]; exact ⟨f, q, hf, hk, hq, ho⟩
  | call j ts args =>
    simp only [ProgramStep.run]
    rcases hg : w.functions[j]? with _ | g
    · exact ⟨f, q, hf, hk, hq, ho⟩
    · simp only
      have hc := (hi.captured g (mem_of_getElem? hg)).1
      have hgq : w.heap[g.parameters]? = some w.heap[g.parameters] := List.getElem?_eq_getElem _
      rw [PartialF.call_eq hgq]
      by_cases he : g.parameters = f.parameters
      · have : w.heap[g.parameters] = q := by
          have h1 : w.heap[g.parameters]? = some q := by rw [he]; exact hq
          rw [hgq] at h1; injection h1
        refine ⟨f, _, hf, hk, ?_, (ho.update args).1⟩
        simp only
        rw [this, he, List.getElem?_set_self hcap.1]
      · refine ⟨f, q, hf, hk, ?_, ho⟩
        simp only
        rw [List.getElem?_set_ne he]
        exact hq

theorem Program.Keeps.runs {w : Program} {k : ℕ} {kind : PartialKind} {p : ModelParameters ℝ} (h : w.Keeps k kind p) (hi : w.Inv)
    (steps : List ProgramStep) : (w.runs steps).Keeps k kind p := by
  unfold Program.runs
  induction steps generalizing w with
  | nil => exact h
  | cons s steps ih => exact ih (h.step hi s) (hi.step s)

end UA
