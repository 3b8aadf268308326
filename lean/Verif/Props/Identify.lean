import Verif.Lemmas.Identify
import Verif.Props.Content

/-!
# C105: the resonances can be read off the form factor
-/

namespace UA

open Complex ComplexConjugate

/-- **C105** two kaon models (of one class or of two, with the same thresholds) whose charged and neutral form factors agree on some
interval of real `t` below the thresholds have, for either isospin, the same coupling at every mass and width. -/
theorem C105_couplings {x x' : KaonArgs} (hp : x.Proper) (ht : x.SameThresholds x') (hb : ∀ charged, x.Builds charged)
    (hb' : ∀ charged, x'.Builds charged) {a b : ℝ} (ha : 0 ≤ a) (hab : a < b) (hS : b ≤ x.t0S) (hV : b ≤ x.t0V)
    (he : ∀ charged, ∀ t : ℝ, a < t → t < b → ∀ u u', x.run charged t = .ok u → x'.run charged t = .ok u' → u = u') {mass width : ℝ}
    (hm : 0 < mass) (hw : 0 < width) :
    couplingAt x.resS mass width = couplingAt x'.resS mass width ∧ couplingAt x.resV mass width = couplingAt x'.resV mass width := by
  have hp' : x'.Proper := by
    obtain ⟨e1, e2, e3, e4⟩ := ht
    unfold KaonArgs.Proper; rw [← e1, ← e2, ← e3, ← e4]; exact hp
  exact couplings_agree hp ht hb hb' (fun ch t h1 h2 =>
    planes_agree hp hp' ht (hb ch) (hb' ch) ha hab hS hV (he ch) (fun h => h1 h.1) h2) hm hw

/-- `exampleB` and the same with two resonances exchanged and other signs, on the interval from zero to the thresholds. -/
example : exampleB.Proper ∧ exampleB.SameThresholds exampleBReordered ∧ (∀ charged, exampleB.Builds charged) ∧
    (∀ charged, exampleBReordered.Builds charged) ∧ (0 : ℝ) < 1 ∧ 1 ≤ exampleB.t0S ∧ 1 ≤ exampleB.t0V ∧
    ∀ charged, ∀ t : ℝ, 0 < t → t < 1 → ∀ u u', exampleB.run charged t = .ok u → exampleBReordered.run charged t = .ok u' → u = u' := by
  have facts : exampleB.SameThresholds exampleBReordered ∧ (exampleB.resS.map Res.unsigned).Perm (exampleBReordered.resS.map Res.unsigned) ∧
      (exampleB.resV.map Res.unsigned).Perm (exampleBReordered.resV.map Res.unsigned) := by
    refine ⟨⟨rfl, rfl, rfl, rfl⟩, ?_, ?_⟩
    · simp only [exampleB, exampleBReordered, KaonArgs.resS, KaonUAModelB.Args.resS, List.map, Res.unsigned]
      norm_num
      have key : ∀ a b c d : Res, [a, b, c, d].Perm [d, b, c, a] := fun a b c d =>
        (List.perm_append_comm (l₁ := [a, b, c]) (l₂ := [d])).trans (.cons d (List.perm_append_comm (l₁ := [a]) (l₂ := [b, c])))
      exact key _ _ _ _
    · simp only [exampleB, exampleBReordered, KaonArgs.resV, KaonUAModelB.Args.resV, List.map, Res.unsigned]
      norm_num
  obtain ⟨h1, h2, h3⟩ := facts
  have hb : ∀ charged, exampleB.Builds charged := fun ch => exampleB.builds_charge true ch exampleB_builds.1
  have key := C86_order_and_signs exampleB_builds.2 h1 h2 h3
  refine ⟨exampleB_builds.2, h1, hb, fun ch => (key ch).1.mpr (hb ch), one_pos, le_rfl, le_rfl, fun ch t _ _ u u' hu hu' => ?_⟩
  rw [(key ch).2 (hb ch), hu] at hu'
  injection hu'

/-- **C105** conversely the couplings at the different masses and widths are all the form factors depend on. -/
theorem C105_values {x x' : KaonArgs} (hp : x.Proper) (ht : x.SameThresholds x')
    (hr : ∀ r ∈ x.resS ++ x.resV ++ (x'.resS ++ x'.resV), r.mass ≠ 0 ∧ r.decay ≠ 0)
    (he : ∀ mass width : ℝ, 0 < mass → 0 < width →
      couplingAt x.resS mass width = couplingAt x'.resS mass width ∧ couplingAt x.resV mass width = couplingAt x'.resV mass width)
    {charged : Bool} {t u u' : ℂ} (hu : x.run charged t = .ok u) (hu' : x'.run charged t = .ok u') : u = u' := by
  obtain ⟨e1, e2, e3, e4⟩ := ht
  have hp' : x'.Proper := by unfold KaonArgs.Proper; rw [← e1, ← e2, ← e3, ← e4]; exact hp
  rw [run_value hp hu, run_value hp' hu', ← e1, ← e2, ← e3, ← e4,
    FsumL_of_couplings hp.1 t _ le_rfl (l := x.resS) (l' := x'.resS) ?_ fun M G h1 h2 => (he M G h1 h2).1,
    FsumL_of_couplings hp.2 t _ le_rfl (l := x.resV) (l' := x'.resV) ?_ fun M G h1 h2 => (he M G h1 h2).2]
  · intro r hr'
    refine hr r ?_
    simp only [List.mem_append] at hr' ⊢
    tauto
  · intro r hr'
    refine hr r ?_
    simp only [List.mem_append] at hr' ⊢
    tauto

/-- Two omega resonances of the same mass and width, the couplings distributed differently. -/
example : (KaonArgs.b ⟨1, 2, 1, 3, 1, 2, 3, 4, 5, 6, 2, 1, 2, 1, 4, 1, 5, 1, 6, 1, 2, 1, 3, 1, 4, 1⟩).SameThresholds
      (.b ⟨1, 2, 1, 3, 5, -2, 3, 4, 5, 6, 2, 1, 2, 1, 4, 1, 5, 1, 6, 1, 2, 1, 3, 1, 4, 1⟩) ∧
    ∀ mass width : ℝ, couplingAt (KaonArgs.b ⟨1, 2, 1, 3, 1, 2, 3, 4, 5, 6, 2, 1, 2, 1, 4, 1, 5, 1, 6, 1, 2, 1, 3, 1, 4, 1⟩).resS mass width =
      couplingAt (KaonArgs.b ⟨1, 2, 1, 3, 5, -2, 3, 4, 5, 6, 2, 1, 2, 1, 4, 1, 5, 1, 6, 1, 2, 1, 3, 1, 4, 1⟩).resS mass width := by
  refine ⟨⟨rfl, rfl, rfl, rfl⟩, fun mass width => ?_⟩
  simp only [KaonArgs.resS, KaonUAModelB.Args.resS, couplingAt, List.map, List.sum_cons, List.sum_nil]
  norm_num
  split_ifs <;> norm_num

/-- **C105** what a fit sees: if two parameter objects inside the bounds, of any of the kaon classes and with the same thresholds, give
the same absolute values of the charged kaon form factor on some interval of `t` below the thresholds, they describe the same
resonances, provided that no two of the resonances (with a coupling) of one object, and no isoscalar one of one and isovector one of the
other, agree in mass and width. -/
theorem C105_objects {p p' : ModelParameters ℝ} (h : Reachable p) (hc : IsKaonClass p.cls) (hi : p.InsideMaximal) (h' : Reachable p')
    (hc' : IsKaonClass p'.cls) (hi' : p'.InsideMaximal) (ht : ∀ n ∈ thresholdNames, p.entry n = p'.entry n) {a b : ℝ} (ha : 0 ≤ a) (hab : a < b)
    (hS : b ≤ p.entry "t_0_isoscalar") (hV : b ≤ p.entry "t_0_isovector")
    (hn : ((p.active true ++ p.active false).map fun r => (r.mass, r.decay)).Nodup)
    (hn' : ((p'.active true ++ p'.active false).map fun r => (r.mass, r.decay)).Nodup)
    (hx : ∀ isoscalar, ∀ r ∈ p.active isoscalar, ∀ r' ∈ p'.active (!isoscalar), (r.mass, r.decay) ≠ (r'.mass, r'.decay))
    (he : ∀ t : ℝ, a < t → t < b → functionFormFactor [.kaon t true] p = functionFormFactor [.kaon t true] p') : p.SameContent p' := by
  obtain ⟨x, kx, px, cS, cV, a1, a2, a3, a4⟩ := kaon_content_args h hc hi
  obtain ⟨x', kx', px', cS', cV', b1, b2, b3, b4⟩ := kaon_content_args h' hc' hi'
  have hth : x.SameThresholds x' := ⟨by rw [← a1, ← b1]; exact ht _ (by decide), by rw [← a2, ← b2]; exact ht _ (by decide),
    by rw [← a3, ← b3]; exact ht _ (by decide), by rw [← a4, ← b4]; exact ht _ (by decide)⟩
  rw [a1] at hS
  rw [a3] at hV
  have hplane : ∀ t : ℂ, t.im ≠ 0 → t ∉ x.special ++ x'.special → x.plane true t = x'.plane true t := fun t h1 h2 => by
    refine planes_agree_norm kx.proper kx'.proper hth (kx.builds true) (kx'.builds true) ha hab hS hV ?_ (fun h => h1 h.1) h2
    intro s s1 s2 u u' hu hu'
    obtain ⟨w, w1, w2⟩ := functionFormFactor_one kx (ha.trans s1.le) (s2.trans_le hS) (s2.trans_le hV) true
    obtain ⟨w', w1', w2'⟩ := functionFormFactor_one kx' (ha.trans s1.le) (by rw [← hth.1]; exact s2.trans_le hS)
      (by rw [← hth.2.2.1]; exact s2.trans_le hV) true
    have := he s s1 s2
    rw [w2, w2'] at this
    rw [w1] at hu
    rw [w1'] at hu'
    injection hu with hu
    injection hu' with hu'
    rw [← hu, ← hu']
    simpa using this
  unfold ModelParameters.active at hn hn' hx
  rw [cS, cV] at hn
  rw [cS', cV'] at hn'
  have hxS := hx true
  have hxV := hx false
  simp only [Bool.not_true, Bool.not_false] at hxS hxV
  rw [cS, cV'] at hxS
  rw [cV, cS'] at hxV
  rw [List.map_append, List.nodup_append] at hn hn'
  obtain ⟨n1, n2, n3⟩ := hn
  obtain ⟨n1', n2', n3'⟩ := hn'
  -- a position of a resonance of one isospin is not one of the other
  have free : ∀ {l lo l' lo' : List Res}, (∀ r ∈ l ++ l' ++ (lo ++ lo'), 0 < r.mass ∧ 0 < r.decay) →
      (∀ r ∈ l.filter (fun r => r.a ≠ 0), ∀ r' ∈ lo.filter (fun r => r.a ≠ 0), (r.mass, r.decay) ≠ (r'.mass, r'.decay)) →
      (∀ r ∈ l.filter (fun r => r.a ≠ 0), ∀ r' ∈ lo'.filter (fun r => r.a ≠ 0), (r.mass, r.decay) ≠ (r'.mass, r'.decay)) →
      (∀ r ∈ l'.filter (fun r => r.a ≠ 0), ∀ r' ∈ lo.filter (fun r => r.a ≠ 0), (r.mass, r.decay) ≠ (r'.mass, r'.decay)) →
      (∀ r ∈ l'.filter (fun r => r.a ≠ 0), ∀ r' ∈ lo'.filter (fun r => r.a ≠ 0), (r.mass, r.decay) ≠ (r'.mass, r'.decay)) →
      ∀ M G : ℝ, ((∀ r ∈ lo ++ lo', r.a ≠ 0 → ¬ (|r.mass| = M ∧ |r.decay| = G)) → couplingAt l M G = couplingAt l' M G) →
        couplingAt (l.filter fun r => r.a ≠ 0) M G = couplingAt (l'.filter fun r => r.a ≠ 0) M G := by
    intro l lo l' lo' hpos k1 k2 k3 k4 M G hcase
    by_cases hlo : ∀ r ∈ lo ++ lo', r.a ≠ 0 → ¬ (|r.mass| = M ∧ |r.decay| = G)
    · rw [couplingAt_filter, couplingAt_filter]; exact hcase hlo
    · push Not at hlo
      obtain ⟨r, hr, ha, hM, hG⟩ := hlo
      have hp := hpos r (by simp only [List.mem_append] at hr ⊢; tauto)
      rw [abs_of_pos hp.1] at hM
      rw [abs_of_pos hp.2] at hG
      have none : ∀ (l₀ : List Res), (∀ r ∈ l₀, 0 < r.mass ∧ 0 < r.decay) → (∀ s ∈ l₀, (s.mass, s.decay) ≠ (r.mass, r.decay)) →
          couplingAt l₀ M G = 0 := fun l₀ hl₀ hne => couplingAt_none fun s hs hm => hne s hs (by
        rw [abs_of_pos (hl₀ s hs).1, abs_of_pos (hl₀ s hs).2] at hm
        rw [hm.1, hm.2, hM, hG])
      have pl : ∀ s ∈ l.filter (fun r => r.a ≠ 0), 0 < s.mass ∧ 0 < s.decay := fun s hs =>
        hpos s (by have := (List.mem_filter.mp hs).1; simp only [List.mem_append]; tauto)
      have pl' : ∀ s ∈ l'.filter (fun r => r.a ≠ 0), 0 < s.mass ∧ 0 < s.decay := fun s hs =>
        hpos s (by have := (List.mem_filter.mp hs).1; simp only [List.mem_append]; tauto)
      rcases List.mem_append.mp hr with hr | hr
      · have hmem : r ∈ lo.filter (fun r => r.a ≠ 0) := List.mem_filter.mpr ⟨hr, by simpa using ha⟩
        rw [none _ pl fun s hs => k1 s hs r hmem, none _ pl' fun s hs => k3 s hs r hmem]
      · have hmem : r ∈ lo'.filter (fun r => r.a ≠ 0) := List.mem_filter.mpr ⟨hr, by simpa using ha⟩
        rw [none _ pl fun s hs => k2 s hs r hmem, none _ pl' fun s hs => k4 s hs r hmem]
  have d : ∀ {A B : List Res}, (∀ u ∈ A.map (fun r : Res => (r.mass, r.decay)), ∀ v ∈ B.map (fun r : Res => (r.mass, r.decay)), u ≠ v) →
      ∀ r ∈ A, ∀ r' ∈ B, (r.mass, r.decay) ≠ (r'.mass, r'.decay) := fun hh r hr r' hr' =>
    hh _ (List.mem_map.mpr ⟨r, hr, rfl⟩) _ (List.mem_map.mpr ⟨r', hr', rfl⟩)
  have allpos : ∀ r ∈ x.resS ++ x.resV ++ (x'.resS ++ x'.resV), 0 < r.mass ∧ 0 < r.decay := fun r hr => by
    rcases List.mem_append.mp hr with hr | hr
    · exact px r hr
    · exact px' r hr
  have one := fun {M G : ℝ} (hM : 0 < M) (hG : 0 < G) => couplings_agree_one kx.proper hth (kx.builds true) (kx'.builds true) hplane hM hG
  have nz : ∀ l : List Res, ∀ r ∈ l.filter (fun r => r.a ≠ 0), r.a ≠ 0 := fun l r hr => by simpa using (List.mem_filter.mp hr).2
  have pz : ∀ l : List Res, (∀ r ∈ l, r ∈ x.resS ++ x.resV ++ (x'.resS ++ x'.resV)) → ∀ r ∈ l.filter (fun r => r.a ≠ 0), 0 < r.mass ∧ 0 < r.decay :=
    fun l hl r hr => allpos r (hl r (List.mem_filter.mp hr).1)
  refine ⟨ht, fun iso => ?_⟩
  cases iso
  · rw [cV, cV']
    refine perm_of_couplings (pz _ fun r hr => by simp [hr]) (pz _ fun r hr => by simp [hr]) n2 n2' (nz _) (nz _) fun M G hM hG => ?_
    refine free (lo := x.resS) (lo' := x'.resS) (fun r hr => allpos r (by simp only [List.mem_append] at hr ⊢; tauto)) ?_ hxV ?_ ?_ M G (one hM hG).2
    · exact fun r hr r' hr' => (d n3 r' hr' r hr).symm
    · exact fun r hr r' hr' => (hxS r' hr' r hr).symm
    · exact fun r hr r' hr' => (d n3' r' hr' r hr).symm
  · rw [cS, cS']
    refine perm_of_couplings (pz _ fun r hr => by simp [hr]) (pz _ fun r hr => by simp [hr]) n1 n1' (nz _) (nz _) fun M G hM hG => ?_
    refine free (lo := x.resV) (lo' := x'.resV) (fun r hr => allpos r (by simp only [List.mem_append] at hr ⊢; tauto)) (d n3) hxS ?_ (d n3') M G (one hM hG).1
    exact fun r hr r' hr' => (hxV r' hr' r hr).symm

/-- Two objects of different classes with resonances of different masses. -/
example : ((jumpObject .kaon 3).active true ++ (jumpObject .kaon 3).active false).map (fun r => (r.mass, r.decay)) = [(2, 1), (3, 1)] ∧
    ((jumpObject .kaonB 3).active true ++ (jumpObject .kaonB 3).active false).map (fun r => (r.mass, r.decay)) = [(2, 1), (3, 1)] ∧
    (∀ t : ℝ, 0 < t → t < 1 → functionFormFactor [.kaon t true] (jumpObject .kaon 3) = functionFormFactor [.kaon t true] (jumpObject .kaonB 3)) := by
  have key : ∀ c, IsKaonClass c → ((jumpObject c 3).active true ++ (jumpObject c 3).active false).map (fun r => (r.mass, r.decay)) = [(2, 1), (3, 1)] := by
    intro c hc
    unfold ModelParameters.active
    rw [(jump_active 3 hc).1, (jump_active 3 hc).2]
    simp only [jumpValue, typicalValue]
    simp
  refine ⟨key _ trivial, key _ trivial, fun t h1 _ => ?_⟩
  exact (C86_same_content (jump_reachable .kaon 3) trivial (jump_inside (c := .kaon) trivial (by norm_num)) (jump_reachable .kaonB 3) trivial
    (jump_inside (c := .kaonB) trivial (by norm_num)) (jump_same (c := .kaon) (c' := .kaonB) trivial trivial 3) (points := [(t, true)])
    (by simpa using h1.le)).1.symm

end UA
