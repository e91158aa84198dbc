import Verif.Spec.Malformed
import Verif.Meta.Sound
import Verif.Meta.Typed

/-!
# Meta-theory: unrecoverable failures come from malformed types only
-/

namespace Pddl

/-- A success leaves a suffix, a failure means that some `-` is not followed by a type. -/
def FoR (s : List Char) : Res α → Prop
  | .ok _ r => ∃ c, s = c ++ r
  | .fail => DashNoType s
  | _ => True

/-- `FoR` for all inputs. -/
def Fo (p : P α) : Prop := ∀ s, FoR s (p s)

theorem DashNoType.prepend {s : List Char} (c : List Char) : DashNoType s → DashNoType (c ++ s) :=
  fun ⟨u, v, h, h'⟩ => ⟨c ++ u, v, by simp [h], h'⟩

theorem FoR.prepend {s : List Char} {x : Res α} (c : List Char) (h : FoR s x) : FoR (c ++ s) x := by
  cases x with
  | ok a r => obtain ⟨d, rfl⟩ := h; exact ⟨c ++ d, by simp⟩
  | fail => exact DashNoType.prepend c h
  | _ => trivial

theorem FoR.bind {s : List Char} {x : Res α} {f : α → List Char → Res β} (h : FoR s x)
    (hf : ∀ a r, FoR r (f a r)) : FoR s (x.bind f) := by
  cases x with
  | ok a r => obtain ⟨c, rfl⟩ := h; exact (hf a r).prepend c
  | fail => exact h
  | _ => trivial

namespace Fo

theorem refl {s : List Char} {a : α} : FoR s (.ok a s) := ⟨[], rfl⟩

theorem map {f : α → β} {p : P α} (h : Fo p) : Fo (map f p) := fun s => (h s).bind fun _ _ => refl
theorem mapExpect {f : α → Option β} {p : P α} (h : Fo p) : Fo (mapExpect f p) := fun s =>
  (h s).bind fun a _ => by
    cases f a with
    | none => trivial
    | some b => exact refl
theorem value {b : β} {p : P α} (h : Fo p) : Fo (value b p) := h.map
theorem pair {p : P α} {q : P β} (h : Fo p) (h' : Fo q) : Fo (pair p q) := fun s =>
  (h s).bind fun _ r => (h' r).bind fun _ _ => refl
theorem preceded {p : P α} {q : P β} (h : Fo p) (h' : Fo q) : Fo (preceded p q) := fun s =>
  (h s).bind fun _ r => h' r
theorem terminated {p : P α} {q : P β} (h : Fo p) (h' : Fo q) : Fo (terminated p q) := fun s =>
  (h s).bind fun _ r => (h' r).bind fun _ _ => refl
theorem delimited {p : P α} {q : P β} {r : P γ} (h : Fo p) (h' : Fo q) (h'' : Fo r) :
    Fo (delimited p q r) := preceded h (terminated h' h'')
theorem alt_nil : Fo (alt ([] : List (P α))) := fun s => trivial
theorem alt_cons {p : P α} {ps : List (P α)} (h : Fo p) (h' : Fo (alt ps)) : Fo (alt (p :: ps)) :=
  fun s => by
    have h1 := h s
    rw [alt]
    dsimp only
    cases hp : p s with
    | err => exact h' s
    | _ => rw [hp] at h1; exact h1
theorem alt_one {p : P α} (h : Fo p) : Fo (alt [p]) := alt_cons h alt_nil
theorem opt {p : P α} (h : Fo p) : Fo (opt p) := fun s => by
  have h1 := h s
  unfold Pddl.opt
  cases hp : p s with
  | err => exact refl
  | _ => rw [hp] at h1; exact h1
theorem recognize {p : P α} (h : Fo p) : Fo (recognize p) := fun s => (h s).bind fun _ _ => refl
theorem many0 {p : P α} (h : Fo p) : Fo (many0 p) := by
  have key : ∀ n, Fo (many0Loop p n) := by
    intro n
    induction n with
    | zero => intro s; trivial
    | succ n ih =>
      intro s
      have h1 := h s
      rw [many0Loop]
      dsimp only
      cases hp : p s with
      | err => exact refl
      | ok a r =>
        rw [hp] at h1
        obtain ⟨c, rfl⟩ := h1
        dsimp only
        split
        · trivial
        · exact ((ih r).bind fun _ _ => refl).prepend c
      | _ => rw [hp] at h1; exact h1
  exact fun s => key _ s
theorem many01 {p : P α} (h : Fo p) : Fo (many01 p) := fun s => by
  have h1 := h s
  unfold Pddl.many01
  cases hp : p s with
  | err => exact refl
  | ok a r =>
    rw [hp] at h1
    dsimp only
    split
    · trivial
    · exact h1
  | _ => rw [hp] at h1; exact h1
theorem sepLoop {sep : P β} {p : P α} (hs : Fo sep) (h : Fo p) (n : Nat) : Fo (sepLoop sep p n) := by
  induction n with
  | zero => intro s; trivial
  | succ n ih =>
    intro s
    have h1 := hs s
    rw [Pddl.sepLoop]
    dsimp only
    cases hp : sep s with
    | err => exact refl
    | ok a r =>
      rw [hp] at h1
      obtain ⟨c, rfl⟩ := h1
      dsimp only
      split
      · trivial
      · have h2 := h r
        cases hp' : p r with
        | err => exact refl
        | ok b r' =>
          rw [hp'] at h2
          obtain ⟨c', rfl⟩ := h2
          exact (((ih r').bind fun _ _ => refl).prepend c').prepend c
        | _ => rw [hp'] at h2; exact h2.prepend c
    | _ => rw [hp] at h1; exact h1
theorem sepList0 {sep : P β} {p : P α} (hs : Fo sep) (h : Fo p) : Fo (sepList0 sep p) := fun s => by
  have h1 := h s
  rw [Pddl.sepList0]
  cases hp : p s with
  | err => exact refl
  | ok a r =>
    rw [hp] at h1
    obtain ⟨c, rfl⟩ := h1
    exact ((sepLoop hs h _ r).bind fun _ _ => refl).prepend c
  | _ => rw [hp] at h1; exact h1
theorem sepList1 {sep : P β} {p : P α} (hs : Fo sep) (h : Fo p) : Fo (sepList1 sep p) := fun s =>
  (h s).bind fun _ r => (sepLoop hs h _ r).bind fun _ _ => refl
theorem ofGood {p : P α} (h : ∀ L, Good k L p p) (hf : ∀ s, p s ≠ .fail) : Fo p := fun s => by
  have h1 := (h (s.length + 1) s (by omega)).2
  have h2 := hf s
  cases hp : p s with
  | ok a r => rw [hp] at h1; obtain ⟨c, hc, _⟩ := h1; exact ⟨c, hc⟩
  | fail => exact absurd hp h2
  | _ => trivial
theorem tag {t : List Char} : Fo (tag t) := fun s => by
  unfold Pddl.tag
  cases h : stripPrefix t s with
  | none => trivial
  | some r => exact ⟨t, Good.stripPrefix_eq h⟩
theorem char {c : Char} : Fo (char c) := fun s => by
  cases s with
  | nil => trivial
  | cons d r =>
    unfold Pddl.char
    dsimp only
    split
    · exact ⟨[d], rfl⟩
    · trivial
theorem takeWhile0 {f : Char → Bool} : Fo (takeWhile0 f) := fun s =>
  ⟨s.takeWhile f, (List.takeWhile_append_dropWhile).symm⟩
theorem takeWhile1 {f : Char → Bool} : Fo (takeWhile1 f) := fun s => by
  unfold Pddl.takeWhile1
  split
  · trivial
  · exact ⟨s.takeWhile f, (List.takeWhile_append_dropWhile).symm⟩
theorem multispace0 : Fo multispace0 := takeWhile0
theorem multispace1 : Fo multispace1 := takeWhile1
theorem alpha1 : Fo alpha1 := takeWhile1
theorem digit1 : Fo digit1 := takeWhile1
theorem isNot {cs : List Char} : Fo (isNot cs) := takeWhile1
theorem u64Loop (v : Nat) : Fo (u64Loop v) := fun s => by
  induction s generalizing v with
  | nil => exact refl
  | cons c s ih =>
    rw [Pddl.u64Loop]
    split
    · dsimp only
      split
      · exact (ih _).prepend [c]
      · trivial
    · exact refl
theorem u64 : Fo u64 := fun s => by
  cases s with
  | nil => trivial
  | cons c s =>
    rw [Pddl.u64]
    split
    · exact u64Loop 0 _
    · trivial
theorem ifOk {p : P α} {f : α → β} {k : P β} (h : Fo p) (h' : Fo k) : Fo (ifOk p f k) := fun s => by
  have h1 := h s
  unfold Pddl.ifOk
  cases hp : p s with
  | err | fail => exact h' s
  | _ => rw [hp] at h1; exact h1
theorem fix {body : P α → P α} (h : ∀ p, Fo p → Fo (body p)) : Fo (fix body) := by
  have key : ∀ n, Fo (fixF body n) := by
    intro n
    induction n with
    | zero => intro s; trivial
    | succ n ih => exact h _ ih
  exact fun s => key _ s
end Fo

theorem ignoreEolComment_fo : Fo ignoreEolComment := .fix fun _ h => by
  unfold ignoreEolCommentBody
  comb
  exact h

namespace Fo
theorem ws {p : P α} (h : Fo p) : Fo (ws p) := preceded (preceded multispace0 ignoreEolComment_fo) h
theorem ws2 {p : P α} (h : Fo p) : Fo (ws2 p) :=
  delimited (preceded multispace0 ignoreEolComment_fo) h (preceded multispace0 ignoreEolComment_fo)
theorem prefixExpr {kw : List Char} {p : P α} (h : Fo p) : Fo (prefixExpr kw p) :=
  delimited (preceded (ws tag) tag) (ws h) (ws tag)
theorem spaceSeparatedList0 {p : P α} (h : Fo p) : Fo (spaceSeparatedList0 p) :=
  ws (sepList0 multispace1 (preceded ignoreEolComment_fo h))
theorem spaceSeparatedList1 {p : P α} (h : Fo p) : Fo (spaceSeparatedList1 p) :=
  ws (sepList1 multispace1 (preceded ignoreEolComment_fo h))
theorem parens {p : P α} (h : Fo p) : Fo (parens p) :=
  preceded ignoreEolComment_fo (delimited char (ws h) char)
theorem emptyOr {p : P α} (h : Fo p) : Fo (emptyOr p) := alt_cons (.map tag) (alt_one (.map h))
end Fo

theorem parseAnyChar_fo : Fo parseAnyChar := by unfold parseAnyChar; comb
theorem parseName_fo : Fo parseName := by unfold parseName; comb
theorem parsePredicate_fo : Fo parsePredicate := parseName_fo
theorem parseFunctionSymbol_fo : Fo parseFunctionSymbol := parseName_fo
theorem parseActionSymbol_fo : Fo parseActionSymbol := parseName_fo
theorem parseDaSymbol_fo : Fo parseDaSymbol := parseName_fo
theorem parsePrefName_fo : Fo parsePrefName := parseName_fo
theorem parseVariable_fo : Fo parseVariable := by unfold parseVariable; comb
theorem parseDecimal_fo : Fo parseDecimal := by unfold parseDecimal; comb
theorem parseNumber_fo : Fo parseNumber := by unfold parseNumber; comb
theorem parsePrimitiveType_fo : Fo parsePrimitiveType := by
  unfold parsePrimitiveType parseObject; comb

/-- The only place where an unrecoverable failure arises. -/
theorem Fo.explicitlyTyped {p : P α} (h : Fo p) : Fo (explicitlyTyped p) := by
  refine .map (.pair (.spaceSeparatedList1 h) fun s => ?_)
  have h1 := (Fo.ws (Fo.char (c := '-'))) s
  rw [Pddl.preceded]
  cases hp : Pddl.ws (Pddl.char '-') s with
  | ok a r =>
    have hs : ∃ c, s = c ++ '-' :: r := by
      rw [ws_eq] at hp
      have hr := char_inv hp
      have h2 : FoR s (Pddl.ws (fun s => Res.ok () s) s) := Fo.ws (fun _ => Fo.refl) s
      rw [ws_eq, hr] at h2
      exact h2
    obtain ⟨c, rfl⟩ := hs
    dsimp only [Res.bind]
    have hg : FoR r (parseType r) ∨ parseType r = .fail := by
      have := (parseType_good (L := r.length + 1) r (by omega)).2
      cases hq : parseType r with
      | ok a r' => rw [hq] at this; obtain ⟨c, hc, _⟩ := this; exact .inl ⟨c, hc⟩
      | fail => exact .inr rfl
      | _ => exact .inl trivial
    rcases hg with hg | hg
    · have := (hg.prepend ['-']).prepend c
      exact this
    · rw [hg]
      refine ⟨c, r, rfl, ?_⟩
      rintro g ty t r' hsep ht hr' rfl
      rw [← List.append_assoc, ht.acc hsep r' hr'] at hg
      cases hg
  | _ => rw [hp] at h1; exact h1

theorem Fo.typedList {p : P α} (h : Fo p) : Fo (typedList p) := by
  unfold Pddl.typedList; comb <;> exact h
theorem Fo.functionTypedList {p : P α} (h : Fo p) : Fo (functionTypedList p) := by
  unfold Pddl.functionTypedList; comb <;> exact h

macro "fo" : tactic => `(tactic| (comb <;> assumption))

theorem Fo.functionTermOf {p : P Term} (h : Fo p) : Fo (functionTermOf p) := by
  unfold Pddl.functionTermOf; fo
theorem parseTerm_fo : Fo parseTerm := .fix fun _ h =>
  .ifOk parseVariable_fo (.ifOk parseName_fo (.ifOk (.functionTermOf h) fun _ => trivial))
theorem parseFunctionTerm_fo : Fo parseFunctionTerm := .functionTermOf parseTerm_fo
theorem Fo.atomicFormula {p : P α} (h : Fo p) : Fo (atomicFormula p) := by
  unfold Pddl.atomicFormula; fo
theorem Fo.literal {p : P α} (h : Fo p) : Fo (literal p) := by unfold Pddl.literal; fo
theorem parseAtomicFormulaSkeleton_fo : Fo parseAtomicFormulaSkeleton := by
  unfold parseAtomicFormulaSkeleton; comb
theorem parseAtomicFunctionSkeleton_fo : Fo parseAtomicFunctionSkeleton := by
  unfold parseAtomicFunctionSkeleton; comb
theorem parseBasicFunctionTerm_fo : Fo parseBasicFunctionTerm := by unfold parseBasicFunctionTerm; comb
theorem parseFHead_fo : Fo parseFHead := by unfold parseFHead; comb
theorem parseMultiOp_fo : Fo parseMultiOp := by unfold parseMultiOp; comb
theorem parseBinaryOp_fo : Fo parseBinaryOp := by unfold parseBinaryOp; comb
theorem parseBinaryComp_fo : Fo parseBinaryComp := by unfold parseBinaryComp; comb
theorem parseAssignOp_fo : Fo parseAssignOp := by unfold parseAssignOp; comb
theorem parseAssignOpT_fo : Fo parseAssignOpT := by unfold parseAssignOpT; comb
theorem parseDOp_fo : Fo parseDOp := by unfold parseDOp; comb
theorem parseOptimization_fo : Fo parseOptimization := by unfold parseOptimization; comb
theorem parseTimeSpecifier_fo : Fo parseTimeSpecifier := by unfold parseTimeSpecifier; comb
theorem parseInterval_fo : Fo parseInterval := by unfold parseInterval; comb
theorem parseFExp_fo : Fo parseFExp := .fix fun _ h => by unfold fExpBody; fo
theorem parseFComp_fo : Fo parseFComp := by unfold parseFComp; comb
theorem parseVarList_fo : Fo parseVarList := by unfold parseVarList; comb
theorem parseGd_fo : Fo parseGd := .fix fun _ h => by unfold gdBody; fo
theorem parsePrefGd_fo : Fo parsePrefGd := by unfold parsePrefGd; comb
theorem parsePreGd_fo : Fo parsePreGd := .fix fun _ h => by unfold preGdBody; fo
theorem parseProblemGoalDef_fo : Fo parseProblemGoalDef := by unfold parseProblemGoalDef; comb
theorem Fo.con2Of {p : P ConGD} (h : Fo p) : Fo (con2Of p) := by unfold Pddl.con2Of; fo
theorem parseConGd_fo : Fo parseConGd := .fix fun _ h => by unfold conGdBody; fo
theorem parseCon2Gd_fo : Fo parseCon2Gd := .con2Of parseConGd_fo
theorem parsePrefConGd_fo : Fo parsePrefConGd := .fix fun _ h => by unfold prefConGdBody; fo
theorem parseDomainConstraintsDef_fo : Fo parseDomainConstraintsDef := by
  unfold parseDomainConstraintsDef; comb
theorem parseProblemConstraintsDef_fo : Fo parseProblemConstraintsDef := by
  unfold parseProblemConstraintsDef; comb
theorem parsePEffect_fo : Fo parsePEffect := by unfold parsePEffect; comb
theorem parseCondEffect_fo : Fo parseCondEffect := by unfold parseCondEffect; comb
theorem Fo.effectOf {p : P CEffect} (h : Fo p) : Fo (effectOf p) := by unfold Pddl.effectOf; fo
theorem Fo.forallCEffectOf {p : P CEffect} (h : Fo p) : Fo (forallCEffectOf p) := by
  unfold Pddl.forallCEffectOf; fo
theorem parseWhenCEffect_fo : Fo parseWhenCEffect := by unfold parseWhenCEffect; comb
theorem parseCEffect_fo : Fo parseCEffect := .fix fun _ h => by unfold cEffectBody; fo
theorem parseForallCEffect_fo : Fo parseForallCEffect := .forallCEffectOf parseCEffect_fo
theorem parseEffect_fo : Fo parseEffect := .effectOf parseCEffect_fo
theorem parseParameters_fo : Fo parseParameters := by unfold parseParameters; comb
theorem parseActionDef_fo : Fo parseActionDef := by unfold parseActionDef; comb
theorem parseDerivedPredicate_fo : Fo parseDerivedPredicate := by unfold parseDerivedPredicate; comb
theorem parseTimedGd_fo : Fo parseTimedGd := by unfold parseTimedGd; comb
theorem parsePrefTimedGd_fo : Fo parsePrefTimedGd := by unfold parsePrefTimedGd; comb
theorem parseDaGd_fo : Fo parseDaGd := .fix fun _ h => by unfold daGdBody; fo
theorem parseFExpDa_fo : Fo parseFExpDa := .fix fun _ h => by unfold fExpDaBody; fo
theorem parseFAssignDa_fo : Fo parseFAssignDa := by unfold parseFAssignDa; comb
theorem parseFExpT_fo : Fo parseFExpT := by unfold parseFExpT; comb
theorem parseTimedEffect_fo : Fo parseTimedEffect := by unfold parseTimedEffect; comb
theorem parseDaEffect_fo : Fo parseDaEffect := .fix fun _ h => by unfold daEffectBody; fo
theorem parseDValue_fo : Fo parseDValue := by unfold parseDValue; comb
theorem parseSimpleDuration_fo : Fo parseSimpleDuration := .fix fun _ h => by
  unfold simpleDurationBody; fo
theorem parseDurationConstraint_fo : Fo parseDurationConstraint := by
  unfold parseDurationConstraint; comb
theorem parseDaDef_fo : Fo parseDaDef := by unfold parseDaDef; comb
theorem parseStructureDef_fo : Fo parseStructureDef := by unfold parseStructureDef; comb
theorem parseRequireKey_fo : Fo parseRequireKey := by
  unfold parseRequireKey requireTags
  simp only [List.map_cons, List.map_nil]
  comb
theorem parseRequireDef_fo : Fo parseRequireDef := by unfold parseRequireDef; comb
theorem parseTypesDef_fo : Fo parseTypesDef := by unfold parseTypesDef; comb
theorem parseConstantsDef_fo : Fo parseConstantsDef := by unfold parseConstantsDef; comb
theorem parseProblemObjectsDeclaration_fo : Fo parseProblemObjectsDeclaration := by
  unfold parseProblemObjectsDeclaration; comb
theorem parsePredicatesDef_fo : Fo parsePredicatesDef := by unfold parsePredicatesDef; comb
theorem parseFunctionsDef_fo : Fo parseFunctionsDef := by unfold parseFunctionsDef; comb
theorem parseTimelessDef_fo : Fo parseTimelessDef := by unfold parseTimelessDef; comb
theorem parseInitEl_fo : Fo parseInitEl := by unfold parseInitEl; comb
theorem parseProblemInitDef_fo : Fo parseProblemInitDef := by unfold parseProblemInitDef; comb
theorem parseProblemLengthSpec_fo : Fo parseProblemLengthSpec := by unfold parseProblemLengthSpec; comb
theorem parseMetricFExp_fo : Fo parseMetricFExp := .fix fun _ h => by unfold metricFExpBody; fo
theorem parseProblemMetricSpec_fo : Fo parseProblemMetricSpec := by unfold parseProblemMetricSpec; comb
theorem domainParts_fo : Fo domainParts := by unfold domainParts; comb
theorem parseDomain_fo : Fo parseDomain := by unfold parseDomain; comb
theorem problemParts_fo : Fo problemParts := by unfold problemParts; comb
theorem parseProblem_fo : Fo parseProblem := by unfold parseProblem; comb

end Pddl
