import Verif.Spec.Config
import Mathlib.Data.List.DropRight

/-!
# Helper lemmas: reading configuration files
-/

namespace UA

theorem dropComment_append {s : List Char} (hs : ∀ c ∈ s, c ≠ '#') : ∀ (b : Bool) (r : List Char), ∃ b', dropComment b (s ++ r) = s ++ dropComment b' r ∧
    (s ≠ [] ∨ b' = b) := by
  induction s with
  | nil => exact fun b r => ⟨b, rfl, Or.inr rfl⟩
  | cons c s ih =>
    intro b r
    obtain ⟨b', h, -⟩ := ih (fun c hc => hs c (List.mem_cons_of_mem _ hc)) (isBlank c) r
    refine ⟨b', ?_, Or.inl (List.cons_ne_nil _ _)⟩
    rw [List.cons_append, dropComment, if_neg fun h => hs c (by simp) h.1, h, List.cons_append]

theorem dropWhile_blank_append {s r : List Char} (hs : ∀ c ∈ s, isBlank c = true) : (s ++ r).dropWhile isBlank = r.dropWhile isBlank := by
  induction s with
  | nil => rfl
  | cons c s ih =>
    rw [List.cons_append, List.dropWhile_cons_of_pos (hs c (by simp))]
    exact ih fun c hc => hs c (List.mem_cons_of_mem _ hc)

theorem dropWhile_head {s : List Char} (hs : ∀ c ∈ s.head?, isBlank c = false) : s.dropWhile isBlank = s := by
  cases s with
  | nil => rfl
  | cons c s => rw [List.dropWhile_cons_of_neg (by rw [hs c rfl]; decide)]

/-- Blanks on both sides of a text that neither begins nor ends with one. -/
theorem stripBlanks_around {l s r : List Char} (hl : ∀ c ∈ l, isBlank c = true) (hr : ∀ c ∈ r, isBlank c = true) (h1 : ∀ c ∈ s.head?, isBlank c = false)
    (h2 : ∀ c ∈ s.getLast?, isBlank c = false) : stripBlanks (l ++ s ++ r) = s := by
  unfold stripBlanks
  rw [List.append_assoc, dropWhile_blank_append hl]
  cases s with
  | nil =>
    rw [List.nil_append]
    have : r.dropWhile isBlank = [] := by
      have := dropWhile_blank_append (r := []) hr
      rwa [List.append_nil] at this
    rw [this]; rfl
  | cons c s =>
    rw [dropWhile_head (s := (c :: s) ++ r) (fun d hd => h1 d hd), List.reverse_append, dropWhile_blank_append (fun c hc => hr c (List.mem_reverse.mp hc)),
      dropWhile_head (fun d hd => h2 d (by rw [← List.head?_reverse]; exact hd)), List.reverse_reverse]

theorem splitAssignment_append {s : List Char} (hs : ∀ c ∈ s, c ≠ '=') (r : List Char) : splitAssignment (s ++ '=' :: r) = some (s, r) := by
  induction s with
  | nil => rw [List.nil_append, splitAssignment, if_pos rfl]
  | cons c s ih =>
    rw [List.cons_append, splitAssignment, if_neg (hs c (by simp)), ih fun c hc => hs c (List.mem_cons_of_mem _ hc)]
    rfl

/-- The part of a line that is not blanks and comment. -/
def ConfigLine.core (line : ConfigLine) : List Char :=
  match line.item with
  | .header name => '[' :: name ++ [']']
  | .assign name value => name ++ line.left ++ '=' :: line.right ++ value
  | .nothing => []

theorem blank_ne {c : Char} (h : isBlank c = true) : c ≠ '#' ∧ c ≠ '=' := by
  constructor <;> rintro rfl <;> exact absurd h (by decide)

theorem ConfigLine.Proper.hash {line : ConfigLine} (h : line.Proper) : ∀ c ∈ line.core, c ≠ '#' := by
  unfold ConfigLine.core
  rcases hi : line.item with name | ⟨name, value⟩ | _
  · intro c hc
    rcases List.mem_append.mp hc with hc | hc
    · rcases List.mem_cons.mp hc with rfl | hc
      · decide
      · exact (h.header name hi c hc).2
    · rw [List.mem_singleton.mp hc]; decide
  · intro c hc
    rcases List.mem_append.mp hc with hc | hc
    · rcases List.mem_append.mp hc with hc | hc
      · rcases List.mem_append.mp hc with hc | hc
        · exact ((h.name name value hi).1.2 c hc).2.1
        · exact (blank_ne (h.left c hc)).1
      · rcases List.mem_cons.mp hc with rfl | hc
        · decide
        · exact (blank_ne (h.right c hc)).1
    · exact (h.value name value hi).1 c hc
  · intro c hc
    exact absurd hc List.not_mem_nil


/-- What is left of the text of a line. -/
theorem ConfigLine.Proper.stripped {line : ConfigLine} (h : line.Proper) : stripBlanks (dropComment true line.text) = stripBlanks (line.core ++ line.trailing) := by
  have hno : ∀ c ∈ line.core ++ line.trailing, c ≠ '#' := fun c hc =>
    (List.mem_append.mp hc).elim (h.hash c) fun hc => (blank_ne (h.trailing c hc)).1
  have htext : line.text = (line.core ++ line.trailing) ++ match line.comment with | none => [] | some c => ' ' :: '#' :: c := rfl
  rw [htext]
  obtain ⟨b, hb, -⟩ := dropComment_append hno true (match line.comment with | none => [] | some c => ' ' :: '#' :: c)
  rw [hb]
  rcases line.comment with _ | c
  · rw [dropComment, List.append_nil]
  · dsimp only
    rw [dropComment, if_neg (by rintro ⟨h, -⟩; exact absurd h (by decide)), dropComment, if_pos ⟨rfl, by decide⟩]
    unfold stripBlanks
    generalize line.core ++ line.trailing = s
    -- one more blank at the end
    by_cases hs : ∀ c ∈ s, isBlank c = true
    · rw [dropWhile_blank_append hs]
      have := dropWhile_blank_append (r := []) hs
      rw [List.append_nil] at this
      rw [this]; rfl
    · have hd : (s ++ [' ']).dropWhile isBlank = s.dropWhile isBlank ++ [' '] := by
        rw [List.dropWhile_append, if_neg]
        intro he
        rw [List.isEmpty_iff, List.dropWhile_eq_nil_iff] at he
        exact hs he
      rw [hd, List.reverse_append]
      rfl

theorem getLast?_append_right {s r : List Char} (hr : r ≠ []) : (s ++ r).getLast? = r.getLast? := by
  rw [List.getLast?_append_of_ne_nil _ hr]

/-- Reading one line. -/
theorem configGet_line {line : ConfigLine} (h : line.Proper) (wanted option : List Char) (start : Option (List Char)) (lines : List (List Char)) :
    configGet wanted option start (line.text :: lines) =
      match line.item with
      | .header name => configGet wanted option (some name) lines
      | .assign name value => if start = some wanted ∧ name = option then .ok value else configGet wanted option start lines
      | .nothing => configGet wanted option start lines := by
  rw [configGet, h.stripped]
  have htr := h.trailing
  rcases hi : line.item with name | ⟨name, value⟩ | _
  · have hcore : line.core = '[' :: name ++ [']'] := by unfold ConfigLine.core; rw [hi]
    have hst : stripBlanks (line.core ++ line.trailing) = '[' :: (name ++ [']']) := by
      rw [hcore]
      have := stripBlanks_around (l := []) (s := '[' :: name ++ [']']) (by simp) htr (by intro c hc; injection hc with hc; subst hc; decide)
        (by intro c hc; rw [getLast?_append_right (by simp)] at hc; injection hc with hc; subst hc; decide)
      exact this
    rw [hst]
    show configGet wanted option (some ((name ++ [']']).takeWhile fun c => decide (c ≠ ']'))) lines = configGet wanted option (some name) lines
    have hn := fun c hc => (h.header name hi c hc).1
    rw [List.takeWhile_append_of_pos (by intro c hc; exact decide_eq_true (hn c hc))]
    simp
  · obtain ⟨⟨hne, hword⟩, hhead⟩ := h.name name value hi
    obtain ⟨hv0, hv1, hv2⟩ := h.value name value hi
    have hcore : line.core = name ++ line.left ++ '=' :: line.right ++ value := by unfold ConfigLine.core; rw [hi]
    obtain ⟨r, hst, hr⟩ : ∃ r, stripBlanks (line.core ++ line.trailing) = (name ++ line.left) ++ '=' :: r ∧ stripBlanks r = value := by
      have hh : ∀ s, ∀ c ∈ ((name ++ line.left) ++ s).head?, isBlank c = false := by
        intro s c hc
        cases name with
        | nil => exact absurd rfl hne
        | cons d name => injection hc with hc; subst hc; exact (hword d (by simp)).1
      by_cases hv : value = []
      · refine ⟨[], ?_, by rw [hv]; rfl⟩
        have := stripBlanks_around (l := []) (s := name ++ line.left ++ ['=']) (r := line.right ++ line.trailing) (by simp)
          (fun c hc => (List.mem_append.mp hc).elim (h.right c) (htr c)) (hh _) (by
            intro c hc; rw [getLast?_append_right (by simp)] at hc; injection hc with hc; subst hc; decide)
        rw [← this, hcore, hv]
        simp
      · refine ⟨line.right ++ value, ?_, ?_⟩
        · have := stripBlanks_around (l := []) (s := name ++ line.left ++ '=' :: (line.right ++ value)) (r := line.trailing) (by simp) htr (hh _) (by
            intro c hc
            rw [getLast?_append_right (by simp), ← List.cons_append, getLast?_append_right hv] at hc
            exact hv2 c hc)
          rw [← this, hcore]
          simp
        · have := stripBlanks_around (l := line.right) (s := value) (r := []) h.right (by simp) hv1 hv2
          rw [List.append_nil] at this
          exact this
    rw [hst]
    have hsplit := splitAssignment_append (s := name ++ line.left) (fun c hc => (List.mem_append.mp hc).elim (fun hc => (hword c hc).2.2)
      fun hc => (blank_ne (h.left c hc)).2) r
    have hname : stripBlanks (name ++ line.left) = name := by
      have := stripBlanks_around (l := []) (s := name) (r := line.left) (by simp) h.left (fun c hc => (hword c (List.mem_of_mem_head? hc)).1)
        fun c hc => (hword c (List.mem_of_mem_getLast? hc)).1
      exact this
    cases hnm : name with
    | nil => exact absurd hnm hne
    | cons d name' =>
      have hd : d ≠ '[' := by rintro rfl; rw [hnm] at hhead; exact hhead rfl
      rw [hnm] at hsplit hname
      rw [List.cons_append, List.cons_append] at hsplit ⊢
      rw [List.cons_append] at hname
      split
      · rename_i he; cases he
      · rename_i he; injection he with he _; exact absurd he hd
      · rw [hsplit]
        dsimp only
        rw [hname, hr]
  · have hcore : line.core = [] := by unfold ConfigLine.core; rw [hi]
    have hst : stripBlanks (line.core ++ line.trailing) = [] := by
      rw [hcore]
      have := stripBlanks_around (l := []) (s := []) (r := line.trailing) (by simp) htr (by simp) (by simp)
      exact this
    rw [hst]

/-- What reading the lines comes to. -/
def ConfigOutcome (wanted option : List Char) (start : Option (List Char)) (lines : List ConfigLine) : Prop :=
  (∃ i value, configGet wanted option start (lines.map ConfigLine.text) = .ok value ∧ (lines[i]?).map ConfigLine.item = some (.assign option value) ∧
    sectionAfter start (lines.take i) = some wanted ∧
    ∀ j < i, ∀ v, ¬ ((lines[j]?).map ConfigLine.item = some (.assign option v) ∧ sectionAfter start (lines.take j) = some wanted)) ∨
  (configGet wanted option start (lines.map ConfigLine.text) = .error .exception ∧
    ∀ j v, ¬ ((lines[j]?).map ConfigLine.item = some (.assign option v) ∧ sectionAfter start (lines.take j) = some wanted))

/-- Reading all lines. -/
theorem configGet_spec (wanted option : List Char) (lines : List ConfigLine) : (∀ l ∈ lines, l.Proper) → ∀ start : Option (List Char),
    ConfigOutcome wanted option start lines := by
  induction lines with
  | nil => exact fun _ start => Or.inr ⟨rfl, fun j v h => by simp at h⟩
  | cons line lines ih =>
    intro h start
    have hl := h line (by simp)
    -- the lines after this one
    have step : ∀ s, sectionAfter start [line] = s → (∀ v, line.item = .assign option v → start ≠ some wanted) →
        configGet wanted option start (line.text :: lines.map ConfigLine.text) = configGet wanted option s (lines.map ConfigLine.text) →
        ConfigOutcome wanted option start (line :: lines) :=
      fun s hs hno he => by
        have hsec : ∀ i, sectionAfter start ((line :: lines).take (i + 1)) = sectionAfter s (lines.take i) := by
          intro i; rw [← hs]; rfl
        have h0 : ∀ v, ¬ (((line :: lines)[0]?).map ConfigLine.item = some (.assign option v) ∧ sectionAfter start ((line :: lines).take 0) = some wanted) := by
          rintro v ⟨h1, h2⟩
          injection h1 with h1
          exact hno v h1 h2
        rcases ih (fun l hm => h l (List.mem_cons_of_mem _ hm)) s with ⟨i, value, h1, h2, h3, h4⟩ | ⟨h1, h2⟩
        · refine Or.inl ⟨i + 1, value, he.trans h1, h2, (hsec i).trans h3, fun j hj v => ?_⟩
          cases j with
          | zero => exact h0 v
          | succ j => rw [hsec]; exact h4 j (by omega) v
        · refine Or.inr ⟨he.trans h1, fun j v => ?_⟩
          cases j with
          | zero => exact h0 v
          | succ j => rw [hsec]; exact h2 j v
    have hline := configGet_line hl wanted option start (lines.map ConfigLine.text)
    rcases hi : line.item with name | ⟨name, value⟩ | _
    · rw [hi] at hline
      exact step (some name) (by unfold sectionAfter; rw [List.foldl_cons, hi]; rfl) (fun v hv => by rw [hi] at hv; cases hv) hline
    · rw [hi] at hline
      dsimp only at hline
      by_cases hc : start = some wanted ∧ name = option
      · rw [if_pos hc] at hline
        refine Or.inl ⟨0, value, hline, ?_, hc.1, fun j hj => absurd hj (Nat.not_lt_zero _)⟩
        rw [← hc.2, ← hi]; rfl
      · rw [if_neg hc] at hline
        exact step start (by unfold sectionAfter; rw [List.foldl_cons, hi]; rfl) (fun v hv hs => hc ⟨hs, by
          rw [hi] at hv; injection hv⟩) hline
    · rw [hi] at hline
      exact step start (by unfold sectionAfter; rw [List.foldl_cons, hi]; rfl) (fun v hv => by rw [hi] at hv; cases hv) hline

/-! ### Lines of the shape required -/

theorem ConfigLine.proper_header {name trailing : List Char} (c : Option (List Char)) (h : ∀ c ∈ name, c ≠ ']' ∧ c ≠ '#')
    (ht : ∀ c ∈ trailing, isBlank c = true) : (⟨.header name, [], [], trailing, c⟩ : ConfigLine).Proper where
  left := fun _ h => absurd h List.not_mem_nil
  right := fun _ h => absurd h List.not_mem_nil
  trailing := ht
  header := fun n hn => by injection hn with hn; subst hn; exact h
  name := fun n v h => by cases h
  value := fun n v h => by cases h

theorem ConfigLine.proper_nothing {trailing : List Char} (c : Option (List Char)) (ht : ∀ c ∈ trailing, isBlank c = true) :
    (⟨.nothing, [], [], trailing, c⟩ : ConfigLine).Proper where
  left := fun _ h => absurd h List.not_mem_nil
  right := fun _ h => absurd h List.not_mem_nil
  trailing := ht
  header := fun n hn => by cases hn
  name := fun n v h => by cases h
  value := fun n v h => by cases h

theorem ConfigLine.proper_assign {name value left right trailing : List Char} (c : Option (List Char)) (hl : ∀ c ∈ left, isBlank c = true)
    (hr : ∀ c ∈ right, isBlank c = true) (ht : ∀ c ∈ trailing, isBlank c = true) (hn : IsConfigWord name) (hh : name.head? ≠ some '[')
    (hv : (∀ c ∈ value, c ≠ '#') ∧ (∀ c ∈ value.head?, isBlank c = false) ∧ ∀ c ∈ value.getLast?, isBlank c = false) :
    (⟨.assign name value, left, right, trailing, c⟩ : ConfigLine).Proper where
  left := hl
  right := hr
  trailing := ht
  header := fun n hn => by cases hn
  name := fun n v h => by injection h with h; subst h; exact ⟨hn, hh⟩
  value := fun n v h => by injection h with _ h; subst h; exact hv

end UA
