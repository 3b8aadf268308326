import Verif.Spec.Pipelines
import Verif.Lemmas.PipelinesTrace

/-!
# Helper lemmas: texts, file names and the effects of logging
-/

namespace UA

/-! ### Texts -/

theorem containsInOrder_append_right : ∀ {ms : List String} {s t : String}, ContainsInOrder ms s → ContainsInOrder ms (s ++ t)
  | [], _, _, _ => trivial
  | m :: ms, s, t, ⟨b, a, h, h'⟩ => ⟨b, a ++ t, by rw [h]; simp only [String.append_assoc], containsInOrder_append_right h'⟩

theorem containsInOrder_append_left : ∀ {ms : List String} {s t : String}, ContainsInOrder ms t → ContainsInOrder ms (s ++ t)
  | [], _, _, _ => trivial
  | m :: ms, s, t, ⟨b, a, h, h'⟩ => ⟨s ++ b, a, by rw [h]; simp only [String.append_assoc], h'⟩

theorem containsInOrder_append : ∀ {ms ms' : List String} {s t : String}, ContainsInOrder ms s → ContainsInOrder ms' t →
    ContainsInOrder (ms ++ ms') (s ++ t)
  | [], _, _, _, _, h => containsInOrder_append_left h
  | m :: ms, ms', s, t, ⟨b, a, h, h'⟩, h2 => ⟨b, a ++ t, by rw [h]; simp only [String.append_assoc], containsInOrder_append h' h2⟩

/-- Length of the lines. -/
def linesLength (ms : List String) : ℕ := (ms.map fun m => m.length + 1).sum

theorem linesLength_append (ms ms' : List String) : linesLength (ms ++ ms') = linesLength ms + linesLength ms' := by
  simp [linesLength]

theorem containsInOrder_length : ∀ {ms : List String} {s : String}, ContainsInOrder ms s → linesLength ms ≤ s.length
  | [], _, _ => Nat.zero_le _
  | m :: ms, s, ⟨b, a, h, h'⟩ => by
    have := containsInOrder_length h'
    rw [h]
    simp only [String.length_append]
    have e : linesLength (m :: ms) = (m.length + 1) + linesLength ms := by simp [linesLength]
    have e2 : ("\n" : String).length = 1 := by decide
    omega

/-! ### File names -/

theorem pathJoin_inj {a b b' : String} (hb : ¬ "/".toList <+: b.toList) (hb' : ¬ "/".toList <+: b'.toList) (h : pathJoin a b = pathJoin a b') :
    b = b' := by
  unfold pathJoin at h
  rw [if_neg hb, if_neg hb'] at h
  split_ifs at h
  · exact String.append_right_inj a |>.mp h
  · exact String.append_right_inj _ |>.mp h

theorem toDigits_inj : ∀ n m : ℕ, Nat.toDigits 10 n = Nat.toDigits 10 m → n = m := by
  have hd : ∀ a b : ℕ, a < 10 → b < 10 → Nat.digitChar a = Nat.digitChar b → a = b := by
    intro a b ha hb
    have : ∀ a b : Fin 10, Nat.digitChar a = Nat.digitChar b → a = b := by decide
    exact fun h => congrArg Fin.val (this ⟨a, ha⟩ ⟨b, hb⟩ h)
  have hlen : ∀ n, (Nat.toDigits 10 n) ≠ [] := by
    intro n
    rcases Nat.lt_or_ge n 10 with h | h
    · rw [Nat.toDigits_of_lt_base h]; simp
    · rw [Nat.toDigits_of_base_le (by norm_num) h]; simp
  intro n
  induction n using Nat.strong_induction_on with
  | _ n ih =>
    intro m h
    rcases Nat.lt_or_ge n 10 with hn | hn <;> rcases Nat.lt_or_ge m 10 with hm | hm
    · rw [Nat.toDigits_of_lt_base hn, Nat.toDigits_of_lt_base hm] at h
      exact hd n m hn hm (List.singleton_injective h)
    · rw [Nat.toDigits_of_lt_base hn, Nat.toDigits_of_base_le (by norm_num) hm] at h
      have h1 : (Nat.toDigits 10 (m / 10)) = [] := (List.append_inj' (s₁ := []) h rfl).1.symm
      exact absurd h1 (hlen _)
    · rw [Nat.toDigits_of_base_le (by norm_num) hn, Nat.toDigits_of_lt_base hm] at h
      have h1 : (Nat.toDigits 10 (n / 10)) = [] := (List.append_inj' (s₂ := []) h rfl).1
      exact absurd h1 (hlen _)
    · rw [Nat.toDigits_of_base_le (by norm_num) hn, Nat.toDigits_of_base_le (by norm_num) hm] at h
      obtain ⟨h1, h2⟩ := List.append_inj' h rfl
      have e1 := ih (n / 10) (by omega) _ h1
      have e2 := hd (n % 10) (m % 10) (Nat.mod_lt _ (by norm_num)) (Nat.mod_lt _ (by norm_num)) (List.singleton_injective h2)
      omega

theorem toString_nat_inj {n m : ℕ} (h : toString n = toString m) : n = m := by
  have h' : (Nat.repr n).toList = (Nat.repr m).toList := congrArg String.toList h
  rw [Nat.toList_repr, Nat.toList_repr] at h'
  exact toDigits_inj n m h'

theorem taskName_start (s : String) : ¬ "/".toList <+: ("report_" ++ s ++ ".txt").toList := by
  rintro ⟨t, h⟩
  simp only [String.toList_append] at h
  have h1 := congrArg List.head? h
  rw [List.append_assoc, show "report_".toList = 'r' :: "eport_".toList from by decide, show "/".toList = ['/'] from by decide] at h1
  simp at h1

theorem taskFile_inj (self : Pipeline) {i j : ℕ} (h : self.taskFile i = self.taskFile j) : i = j := by
  have := pathJoin_inj (taskName_start _) (taskName_start _) h
  exact toString_nat_inj (String.append_right_inj "report_" |>.mp (String.append_left_inj ".txt" |>.mp this))

theorem taskFile_ne_reportFile (self : Pipeline) (s : String) : pathJoin self.reports_dir ("report_" ++ s ++ ".txt") ≠ self.reportFile := by
  intro h
  have h1 := pathJoin_inj (taskName_start _) (by decide) h
  have h2 := congrArg (fun s : String => s.toList[6]?) h1
  simp only [String.toList_append] at h2
  rw [List.append_assoc, List.getElem?_append_left (by decide)] at h2
  revert h2
  decide

/-! ### Traces -/

/-- What a pipeline has put into its report so far, in the file or still in memory. -/
def Pipeline.text (self : Pipeline) (w : World) : String := (w.fs.files self.reportFile).getD "" ++ self.report

/-- The attributes of a pipeline that never change. -/
def Pipeline.config (self : Pipeline) : Pipeline := { self with parameters := 0, report := "", best_fit := ⟨none, none, none, none, none, none⟩ }

/-- Between two states the pipeline logged `ms`, flushed `n` times and saved these files. -/
structure Traced (a : Pipeline) (w : World) (b : Pipeline) (w' : World) (ms : List String) (n : ℕ) (saved : List (String × String)) :
    Prop where
  config : b.config = a.config
  kind : b.kind = a.kind
  name : b.name = a.name
  dir : b.reports_dir = a.reports_dir
  printed : w'.stdout = w.stdout ++ ms.map (printedLine a.name)
  logged : ∃ rest, b.text w' = a.text w ++ rest ∧ ContainsInOrder ms rest ∧ rest.length = linesLength ms + n
  dirs : w'.fs.dirs = w.fs.dirs
  files : ∀ q, q ≠ a.reportFile → w'.fs.files q = (saved.foldl (fun fs s => fs.put s.1 s.2) w.fs).files q

theorem foldl_put_congr (saved : List (String × String)) : ∀ {fs fs' : FS} {q : String}, fs.files q = fs'.files q →
    (saved.foldl (fun fs s => fs.put s.1 s.2) fs).files q = (saved.foldl (fun fs s => fs.put s.1 s.2) fs').files q := by
  induction saved with
  | nil => intro fs fs' q h; exact h
  | cons s saved ih =>
    intro fs fs' q h
    refine ih ?_
    show (if q = s.1 then _ else _) = (if q = s.1 then _ else _)
    rw [h]

theorem foldl_put_other (saved : List (String × String)) : ∀ {fs : FS} {q : String}, q ∉ saved.map Prod.fst →
    (saved.foldl (fun fs s => fs.put s.1 s.2) fs).files q = fs.files q := by
  induction saved with
  | nil => intro fs q _; rfl
  | cons s saved ih =>
    intro fs q h
    rw [List.map_cons, List.mem_cons, not_or] at h
    rw [List.foldl_cons, ih h.2]
    exact if_neg h.1

theorem foldl_put_mem (saved : List (String × String)) : ∀ {fs : FS} {s : String × String}, (saved.map Prod.fst).Nodup → s ∈ saved →
    (saved.foldl (fun fs s => fs.put s.1 s.2) fs).files s.1 = some s.2 := by
  induction saved with
  | nil => intro fs s _ h; cases h
  | cons s' saved ih =>
    intro fs s hn h
    rw [List.map_cons, List.nodup_cons] at hn
    rw [List.foldl_cons]
    rcases List.mem_cons.mp h with rfl | h
    · rw [foldl_put_other saved hn.1]
      exact if_pos rfl
    · exact ih hn.2 h

theorem Traced.reportFile {self self' : Pipeline} {w w' : World} {ms : List String} {n : ℕ} {saved : List (String × String)}
    (h : Traced self w self' w' ms n saved) : self'.reportFile = self.reportFile := by
  unfold Pipeline.reportFile; rw [h.dir]

theorem Traced.taskFile {self self' : Pipeline} {w w' : World} {ms : List String} {n : ℕ} {saved : List (String × String)}
    (h : Traced self w self' w' ms n saved) (i : ℕ) : self'.taskFile i = self.taskFile i := by
  unfold Pipeline.taskFile; rw [h.dir]

theorem Traced.trans {a b c : Pipeline} {u v w : World} {ms ms' : List String} {n n' : ℕ} {saved saved' : List (String × String)}
    (h : Traced a u b v ms n saved) (h' : Traced b v c w ms' n' saved') : Traced a u c w (ms ++ ms') (n + n') (saved ++ saved') := by
  obtain ⟨r, e1, e2, e3⟩ := h.logged
  obtain ⟨r', e1', e2', e3'⟩ := h'.logged
  refine ⟨h'.config.trans h.config, h'.kind.trans h.kind, h'.name.trans h.name, h'.dir.trans h.dir, ?_, ⟨r ++ r', ?_, containsInOrder_append e2 e2', ?_⟩, h'.dirs.trans h.dirs, ?_⟩
  · rw [h'.printed, h.printed, h.name, List.map_append, List.append_assoc]
  · rw [e1', e1, String.append_assoc]
  · rw [String.length_append, e3, e3', linesLength_append]; omega
  · intro q hq
    rw [h'.files q (by rw [h.reportFile]; exact hq), List.foldl_append]
    exact foldl_put_congr _ (h.files q hq)

/-- Steps that write and print nothing, and change nothing of the pipeline but its parameters and best fit. -/
theorem Traced.same {a b : Pipeline} {w w' : World} (h : SameOutside w w') (h1 : b.kind = a.kind) (h2 : b.name = a.name)
    (h3 : b.reports_dir = a.reports_dir) (h4 : b.report = a.report) (h5 : b.config = a.config := by rfl) : Traced a w b w' [] 0 [] := by
  refine ⟨h5, h1, h2, h3, by rw [h.2]; simp, ⟨"", ?_, trivial, rfl⟩, by rw [h.1], fun q _ => by rw [h.1]; rfl⟩
  unfold Pipeline.text Pipeline.reportFile
  rw [h.1, h3, h4, String.append_empty]

theorem Traced.log {self self' : Pipeline} {msg : String} {w w' : World} (h : self.log msg w = (.ok self', w')) :
    Traced self w self' w' [msg] 0 [] ∧ self' = { self with report := self.report ++ (msg ++ "\n") } ∧ w'.heap = w.heap := by
  have h' : ((Except.ok { self with report := self.report ++ (msg ++ "\n") } : Except PyErr Pipeline),
      { w with stdout := w.stdout ++ ["Pipeline " ++ self.name ++ ": " ++ msg ++ "\n"] }) = (.ok self', w') := h
  injection h' with h1 h2
  injection h1 with h1
  subst h1 h2
  refine ⟨⟨rfl, rfl, rfl, rfl, rfl, ⟨msg ++ "\n", ?_, ⟨"", "", ?_, trivial⟩, ?_⟩, rfl, fun q _ => rfl⟩, rfl, rfl⟩
  · exact (String.append_assoc (s₁ := (w.fs.files self.reportFile).getD "") (s₂ := self.report)).symm
  · rw [String.empty_append, String.append_empty]
  · rw [String.length_append]; simp [linesLength]; rfl

theorem Traced.flush {self self' : Pipeline} {w w' : World} (h : self.flushReport w = (.ok self', w')) :
    Traced self w self' w' [] 1 [] ∧ self' = { self with report := "\n" } ∧ w'.heap = w.heap ∧
      w'.fs.files self.reportFile = some (self.text w) := by
  have h' : ((Except.ok { self with report := "\n" } : Except PyErr Pipeline),
      { w with fs := w.fs.put self.reportFile ((w.fs.files self.reportFile).getD "" ++ self.report) }) = (.ok self', w') := h
  injection h' with h1 h2
  injection h1 with h1
  subst h1 h2
  have hf : (w.fs.put self.reportFile ((w.fs.files self.reportFile).getD "" ++ self.report)).files self.reportFile = some (self.text w) := if_pos rfl
  refine ⟨⟨rfl, rfl, rfl, rfl, by simp, ⟨"\n", ?_, trivial, rfl⟩, rfl, fun q hq => if_neg hq⟩, rfl, rfl, hf⟩
  show ((w.fs.put self.reportFile _).files self.reportFile).getD "" ++ "\n" = _
  rw [hf]; rfl

theorem Traced.save {self : Pipeline} {env : Env} {i : ℕ} {r : Report} {w w' : World} {u : Unit}
    (h : self.saveReport env (toString i) r w = (.ok u, w')) :
    Traced self w self w' [] 0 [(self.taskFile i, env.strReport r)] ∧ w'.heap = w.heap ∧
      w'.fs.files self.reportFile = w.fs.files self.reportFile := by
  have h' : ((Except.ok () : Except PyErr Unit), { w with fs := w.fs.put (self.taskFile i) (env.strReport r) }) = (.ok u, w') := h
  injection h' with h1 h2
  subst h2
  have hf : (w.fs.put (self.taskFile i) (env.strReport r)).files self.reportFile = w.fs.files self.reportFile :=
    if_neg fun h => taskFile_ne_reportFile self _ h.symm
  refine ⟨⟨rfl, rfl, rfl, rfl, by simp, ⟨"", ?_, trivial, rfl⟩, rfl, fun q hq => rfl⟩, rfl, hf⟩
  unfold Pipeline.text
  rw [String.append_empty]
  exact congrArg (fun s : Option String => s.getD "" ++ self.report) hf

end UA
