import Verif.Meta.SoundEffects

/-!
# Meta-theory: soundness of sections, domains and problems
-/

namespace Pddl

theorem nonEmpty_snd {F : List Char → Prop} {kw : List Char} {p : P α} {R : α → List Char → Prop}
    (h : Snd Any Gap p R) (hR : NonE R) :
    Snd F Gap (prefixExpr kw (spaceSeparatedList1 p)) (NonEmptyW kw Gap R) :=
  (Snd.prefixExpr (Snd.list1 h hR).anyF fun _ => id).mono (fun _ => id) (fun _ => id) (by
    rintro xs t ⟨g1, u, g2, rfl, h1, h2, h3⟩
    exact .mk h1 h2 h3)

theorem parseRequireKey_snd : Snd Any Nil parseRequireKey KeyW := fun s k r hs _ => by
  obtain ⟨v, h1, h2⟩ := mapExpect_inv hs
  have hv := alt_tags_mem _ _ _ _ h1
  obtain ⟨g, t, h3, rfl, h4⟩ : ∃ g t, s = g ++ (t ++ r) ∧ Nil g ∧ t = v := by
    clear h2 hv hs
    revert h1
    generalize requireTags = ts
    induction ts with
    | nil => intro h1; cases h1
    | cons t ts ih =>
      intro h1
      rcases alt_inv h1 with h1 | ⟨_, h1⟩
      · obtain ⟨rfl, h1⟩ := tag_inv h1
        exact ⟨[], v, h1, rfl, rfl⟩
      · exact ih h1
  subst h4
  refine ⟨[], t, h3, rfl, ?_⟩
  have key : ∀ t ∈ requireTags, ∀ k, Requirement.tryFrom t = some k → t = k.spell := by
    intro t ht k
    simp only [requireTags, List.mem_cons, List.not_mem_nil, or_false] at ht
    rcases ht with rfl | rfl | rfl | rfl | rfl | rfl | rfl | rfl | rfl | rfl | rfl | rfl | rfl |
      rfl | rfl | rfl | rfl | rfl | rfl | rfl | rfl <;> (intro h; cases k <;> revert h <;> decide)
  exact key t hv k h2

theorem keyW_nonE : NonE KeyW := by
  rintro k t rfl
  cases k <;> decide

theorem parseRequireDef_snd : Snd Any Gap parseRequireDef (RequirementsW .loose) :=
  nonEmpty_snd parseRequireKey_snd.gap keyW_nonE

theorem typedNames_snd {kw : List Char} : Snd Any Gap (prefixExpr kw (typedList parseName))
    (TypedNamesW .loose kw) :=
  (Snd.prefix_sec (typed_snd (d := Ty.object) parseName_snd nameW_nonE)).mono (fun _ => id)
    (fun _ => id) (by
      rintro xs t ⟨u, rfl, h⟩
      exact .mk h)

theorem skeletonW_nonE {m : Mode} : NonE (SkeletonW m) := fun _ _ h => by
  cases h
  exact (solid_paren _).ne

theorem parsePredicatesDef_snd : Snd Any Gap parsePredicatesDef (PredicatesW .loose) :=
  nonEmpty_snd parseAtomicFormulaSkeleton_snd skeletonW_nonE

theorem literalW_nonE {m : Mode} : NonE (LiteralW m) := fun _ _ h => by
  cases h with
  | pos h => exact (h.form fun _ _ h => h.1.bal).ne
  | neg => exact (solid_paren _).ne

theorem parseTimelessDef_snd : Snd Any Gap parseTimelessDef (TimelessW .loose) :=
  nonEmpty_snd literal_snd literalW_nonE

theorem parseFunctionsDef_snd : Snd Any Gap parseFunctionsDef (FunctionsW .loose) :=
  (Snd.prefix_sec (typed_snd (d := Ty.number) parseAtomicFormulaSkeleton_snd skeletonW_nonE)).mono
    (fun _ => id) (fun _ => id) (by
      rintro xs t ⟨u, rfl, h⟩
      exact .mk h)

theorem parseInitEl_snd : Snd Any Gap parseInitEl (InitElW .loose) :=
  .alt_cons (.map literal_snd fun _ _ h => .literal h)
    (.alt_cons (Snd.kw2 parseNumber_snd.gap (.arg literal_snd) (fun _ => id)
      fun h1 h2 h3 h4 h5 => .at h1 h2 h3 h4 h5)
    (.alt_cons (Snd.kw2 parseBasicFunctionTerm_snd (.arg parseNumber_snd.gap) (fun _ => id)
      fun h1 h2 h3 h4 h5 => .isValue h1 h2 h3 h4 h5)
    (.alt_cons (Snd.kw2 parseBasicFunctionTerm_snd (.arg parseName_snd) (fun _ => id)
      fun h1 h2 h3 h4 h5 => .isObject h1 h2 h3 h4 h5 fun h => nomatch h) .alt_nil)))

theorem initElW_nonE {m : Mode} : NonE (InitElW m) := fun _ _ h => by
  cases h with
  | literal h => exact literalW_nonE _ _ h
  | _ => exact (solid_paren _).ne

theorem parseProblemInitDef_snd : Snd Any Gap parseProblemInitDef (InitW .loose) :=
  (Snd.prefix_sec (Snd.list0 parseInitEl_snd initElW_nonE)).mono (fun _ => id) (fun _ => id) (by
    rintro xs t ⟨u, rfl, h⟩
    exact .mk h)

theorem u64Loop_inv : ∀ (s : List Char) (v n : Nat) (r : List Char), v < 2 ^ 64 →
    u64Loop v s = .ok n r →
    ∃ t, s = t ++ r ∧ (∀ c ∈ t, isDigit c = true) ∧
      n = t.foldl (fun v c => v * 10 + digitVal c) v ∧ n < 2 ^ 64 := by
  intro s
  induction s with
  | nil =>
    intro v n r hv h
    cases h
    exact ⟨[], rfl, by simp, rfl, hv⟩
  | cons c s ih =>
    intro v n r hv h
    rw [u64Loop] at h
    split at h
    · rename_i hc
      dsimp only at h
      split at h
      · rename_i hlt
        obtain ⟨t, rfl, h1, h2, h3⟩ := ih _ _ _ hlt h
        exact ⟨c :: t, rfl, by simpa [hc] using h1, h2, h3⟩
      · cases h
    · cases h
      exact ⟨[], rfl, by simp, rfl, hv⟩

theorem u64_snd : Snd Any Nil u64 U64W := fun s n r hs _ => by
  cases s with
  | nil => cases hs
  | cons c s =>
    rw [u64] at hs
    split at hs
    · rename_i hc
      obtain ⟨t, h1, h2, h3, h4⟩ := u64Loop_inv _ _ _ _ (by decide) hs
      refine ⟨[], t, h1, rfl, ?_, h2, h3, h4⟩
      rintro rfl
      -- the first digit is consumed
      have hlen : ∀ (s : List Char) (v n : Nat) (r : List Char), u64Loop v s = .ok n r →
          r.length ≤ s.length := by
        intro s
        induction s with
        | nil => intro v n r h; cases h; simp
        | cons d s ih =>
          intro v n r h
          rw [u64Loop] at h
          split at h
          · dsimp only at h
            split at h
            · have := ih _ _ _ h
              simp only [List.length_cons]
              omega
            · cases h
          · cases h; simp
      rw [u64Loop, if_pos hc] at hs
      dsimp only at hs
      split at hs
      · have := hlen _ _ _ _ hs
        rw [List.nil_append] at h1
        subst h1
        simp only [List.length_cons] at this
        omega
      · cases hs
    · cases hs

theorem OptW.lead {R : α → List Char → Prop} {o : Option α} {t g : List Char} (hg : Gap g)
    (h : OptW Gap R o t) : OptW Gap R o (g ++ t) ∨ (o = none ∧ t = []) := by
  cases h with
  | absent => exact .inr ⟨rfl, rfl⟩
  | present hg' h =>
    rw [← List.append_assoc]
    exact .inl (.present (hg.append hg') h)

theorem parseProblemLengthSpec_snd : Snd Any Gap parseProblemLengthSpec (LengthW .loose) := by
  refine .map (Snd.prefixExpr (Snd.pair (Snd.opt (wrap_snd u64_snd.gap))
    (Snd.opt (Snd.ms0 (wrap_snd u64_snd.gap) fun _ => id)).anyF) Nil.gap) ?_
  rintro ⟨a, b⟩ t ⟨g1, _, g2, rfl, h1, ⟨u1, _, u2, rfl, ha, rfl, hb⟩, h2⟩
  dsimp only at ha hb ⊢
  rcases ha.lead h1 with ha' | ⟨rfl, rfl⟩
  · have := LengthW.mk (m := .loose) ha' hb h2
    simpa using this
  · rcases hb.lead h1 with hb' | ⟨rfl, rfl⟩
    · have := LengthW.mk (m := .loose) .absent hb' h2
      simpa using this
    · have := LengthW.mk (m := .loose) .absent .absent (h1.append h2)
      simpa using this

theorem metricW_nonE {m : Mode} : NonE (MetricW m) := fun _ _ h => by
  cases h with
  | number h => exact numW_nonE _ _ h
  | totalTime => decide
  | bare h => exact nameW_nonE _ _ h
  | _ => exact (solid_paren _).ne

theorem parseMetricFExp_snd : Snd Any Gap parseMetricFExp (MetricW .loose) := by
  refine .fix fun self h => .alt_cons (.map parseNumber_snd.gap fun _ _ h => .number h)
    (.operators h (fun _ _ h => h.solid) .multiOp ?_
      (fun h0 h1 ha h2 hb => .binaryOp h0 h1 ha h2 hb Gap.nil)
      (fun h0 h1 ha h2 hb hw => .multiOp h0 h1 ha h2 hb Gap.nil hw)
    (.alt_cons (.map (Snd.parens (minus_snd h.anyF) fun _ => id) ?_)
    (.alt_cons (.map Snd.tag.gap ?_)
    (.alt_cons (Snd.kw1 parsePrefName_snd fun h1 h2 h3 => .isViolated h1 h2 h3)
    (.alt_cons (.map (Snd.parens_sec parseName_snd names_sec.sec_ws) ?_)
    (.alt_cons (.map parseName_snd fun _ _ h => .bare h fun h => nomatch h) .alt_nil))))))
  · intro s e r hs
    obtain ⟨x, h1, he⟩ := mapExpect_inv hs
    refine ⟨x, h1, ?_⟩
    unfold MetricFExp.newMultiOp at he
    split at he <;> cases he
    rfl
  · rintro e t ⟨g, u, rfl, hg, g1, t1, rfl, hg1, h1⟩
    have := MetricW.negative (m := .loose) hg hg1 h1 Gap.nil
    simpa using this
  · rintro _ _ ⟨rfl, rfl⟩
    exact .totalTime
  · rintro ⟨f, ts⟩ t ⟨g, t1, u, rfl, hg, h1, h2⟩
    exact .function hg h1 h2 fun h => nomatch h

theorem parseProblemMetricSpec_snd : Snd Any Gap parseProblemMetricSpec (MetricSpecW .loose) := by
  refine Snd.kw2 parseOptimization_snd (.arg parseMetricFExp_snd) Nil.gap ?_
  rintro g1 o _ g2 b t2 g3 h1 rfl h3 h4 h5
  exact .mk h1 h3 h4 h5

/-! ## Domain and problem -/

theorem domainParts_snd : Snd NE Gap domainParts (fun x t => ∀ g1 g2, Gap g1 → Gap g2 →
    DomainW .loose (domainOf x) (paren (c!"define" ++ (g1 ++ (t ++ g2))))) := by
  have hs {α} {p : P α} {R : α → List Char → Prop} (h : Snd Any Gap p R) :
      Snd Any Nil (opt (preceded multispace1 p)) (OptW Sep R) := Snd.opt (Snd.ms1 h fun _ => id)
  refine (Snd.pair (wrap_snd parseName_snd) (Snd.pair (hs (nonEmpty_snd parseName_snd nameW_nonE))
    (Snd.pair (hs parseRequireDef_snd) (Snd.pair (hs typedNames_snd) (Snd.pair (hs typedNames_snd)
    (Snd.pair (hs parsePredicatesDef_snd) (Snd.pair (hs parseFunctionsDef_snd)
    (Snd.pair (hs parseDomainConstraintsDef_snd)
      (hs (Snd.list1 parseStructureDef_snd structureW_nonE)).anyF)))))))).mono
      (fun _ => id) (fun _ => id) ?_
  rintro ⟨name, ext, req, ty, con, pre, fn, cstr, st⟩ t ⟨tn, _, _, rfl, h1, rfl,
    u1, _, _, rfl, h2, rfl, u2, _, _, rfl, h3, rfl, u3, _, _, rfl, h4, rfl, u4, _, _, rfl, h5, rfl,
    u5, _, _, rfl, h6, rfl, u6, _, _, rfl, h7, rfl, u7, _, u8, rfl, h8, rfl, h9⟩ g1 g2 hg1 hg2
  have := DomainW.mk (m := .loose) hg1 h1 h2 h3 h4 h5 h6 h7 h8 h9 hg2
  simpa [domainOf, Domain.builder, Domain.withExtends, Domain.withRequirements, Domain.withTypes,
    Domain.withConstants, Domain.withPredicates, Domain.withFunctions, Domain.withConstraints] using this

theorem problemParts_snd : Snd NE Gap problemParts (fun x t => ∀ g1 g2, Gap g1 → Gap g2 →
    ProblemW .loose (problemOf x) (paren (c!"define" ++ (g1 ++ (t ++ g2))))) := by
  have hs {α} {p : P α} {R : α → List Char → Prop} (h : Snd Any Gap p R) :
      Snd Any Nil (opt (preceded multispace1 p)) (OptW Sep R) := Snd.opt (Snd.ms1 h fun _ => id)
  refine (Snd.pair (wrap_snd parseName_snd) (Snd.pair (Snd.ms1 (wrap_snd parseName_snd) fun _ => id)
    (Snd.pair (hs parseRequireDef_snd) (Snd.pair (hs typedNames_snd)
    (Snd.pair (Snd.ms1 parseProblemInitDef_snd fun _ => id)
    (Snd.pair (Snd.ms1 parseProblemGoalDef_snd fun _ => id)
    (Snd.pair (hs parseProblemConstraintsDef_snd) (Snd.pair (hs parseProblemMetricSpec_snd)
      (hs parseProblemLengthSpec_snd).anyF)))))))).mono (fun _ => id) (fun _ => id) ?_
  rintro ⟨name, domain, req, obj, init, goal, cstr, met, len⟩ t ⟨tn, g2, _, rfl, h1, hg2,
    td, _, _, rfl, h2, rfl, u1, _, _, rfl, h3, rfl, u2, g3, _, rfl, h4, hg3, ti, g4, _, rfl, h5, hg4,
    tg, _, _, rfl, h6, rfl, u3, _, _, rfl, h7, rfl, u4, _, u5, rfl, h8, rfl, h9⟩ g1 g5 hg1 hg5
  have := ProblemW.mk (m := .loose) hg1 h1 hg2 h2 h3 h4 hg3 h5 hg4 h6 h7 h8 h9 hg5
  simpa [problemOf] using this

theorem ws2_inv {p : P α} {s a r} (h : ws2 p s = .ok a r) :
    ∃ y, p (skip s) = .ok a y ∧ r = skip y := by
  unfold ws2 delimited at h
  obtain ⟨_, r1, h1, h2⟩ := preceded_ok h
  obtain ⟨_, y, h3, h4⟩ := terminated_ok h2
  have hx : ∀ s, preceded multispace0 ignoreEolComment s = .ok () (skip s) := by
    intro s
    simp only [preceded, multispace0, takeWhile0, Res.bind, eol_eq, skip]
  rw [hx] at h1 h4
  cases h1
  cases h4
  exact ⟨y, h3, rfl⟩

theorem ws2_define {p : P α} {f : α → β} {R : β → List Char → Prop}
    (h : Snd NE Gap p (fun x t => ∀ g1 g2, Gap g1 → Gap g2 →
      R (f x) (paren (c!"define" ++ (g1 ++ (t ++ g2))))))
    {s : List Char} {d : β} {r : List Char}
    (hs : map f (ws2 (prefixExpr c!"define" p)) s = .ok d r) :
    ∃ g t g', s = g ++ (t ++ (g' ++ r)) ∧ Gap g ∧ R d t ∧ GapEnd g' ∧ (r ≠ [] → Gap g') := by
  obtain ⟨x, h1, rfl⟩ := map_ok hs
  obtain ⟨y, h2, rfl⟩ := ws2_inv h1
  rw [prefixExpr_skip] at h2
  obtain ⟨g, t, rfl, hg, g1, u, g2, rfl, h3, h4, h5⟩ :=
    Snd.prefixExpr (F := Any) h (fun _ => id) _ _ _ h2 trivial
  obtain ⟨g', h6, h7, h8⟩ := skip_spec y
  exact ⟨g, _, g', by rw [← h6], hg, h4 g1 g2 h3 h5, h7, h8⟩

theorem parseDomain_snd {s : List Char} {d : Domain} {r : List Char}
    (hs : parseDomain s = .ok d r) :
    ∃ g t g', s = g ++ (t ++ (g' ++ r)) ∧ Gap g ∧ DomainW .loose d t ∧ GapEnd g' ∧
      (r ≠ [] → Gap g') := ws2_define domainParts_snd hs

theorem parseProblem_snd {s : List Char} {d : Problem} {r : List Char}
    (hs : parseProblem s = .ok d r) :
    ∃ g t g', s = g ++ (t ++ (g' ++ r)) ∧ Gap g ∧ ProblemW .loose d t ∧ GapEnd g' ∧
      (r ≠ [] → Gap g') := ws2_define problemParts_snd hs

end Pddl
