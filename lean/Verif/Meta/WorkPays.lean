import Verif.Meta.WorkRun
import Verif.Meta.Sound
import Verif.Meta.Chain

/-!
# Meta-theory: a character read is a step counted

Whatever a parser consumes is paid for: a success takes at least as many steps as there are
characters before the rest.
-/

namespace Pddl

/-- A success takes a step for every character consumed. -/
def Pays (p : K.P α) : Prop := ∀ s a r, p.run s = .ok a r → s.length ≤ r.length + p.cost s

theorem takeWhile_dropWhile_length (f : Char → Bool) :
    ∀ s : List Char, s.length = (s.dropWhile f).length + (s.takeWhile f).length
  | [] => rfl
  | c :: s => by
    by_cases h : f c = true
    · simp only [List.dropWhile_cons_of_pos h, List.takeWhile_cons_of_pos h, List.length_cons]
      have := takeWhile_dropWhile_length f s
      omega
    · simp [List.dropWhile_cons_of_neg h, List.takeWhile_cons_of_neg h]

theorem many0Loop_pays {p : K.P α} (h : Pays p) (n : Nat) :
    ∀ s as r, many0Loop p.run n s = .ok as r → s.length ≤ r.length + K.many0Cost p n s := by
  induction n with
  | zero => intro s as r hs; cases hs
  | succ n ih =>
    intro s as r hs
    rw [many0Loop] at hs
    dsimp only at hs
    split at hs
    · cases hs; omega
    · rename_i a r1 h1
      split at hs
      · cases hs
      · rename_i hne
        cases h2 : many0Loop p.run n r1 with
        | ok bs r2 =>
          rw [h2] at hs
          simp only [Res.bind, Res.ok.injEq] at hs
          have e1 := h _ _ _ h1
          have e2 := ih _ _ _ h2
          rw [K.many0Cost, h1]
          simp only [Res.after]
          rw [if_neg hne, ← hs.2]
          omega
        | _ => rw [h2] at hs; cases hs
    · cases hs
    · cases hs
    · cases hs

theorem sepLoop_pays {q : K.P β} {p : K.P α} (hq : Pays q) (h : Pays p) (n : Nat) :
    ∀ s as r, sepLoop q.run p.run n s = .ok as r → s.length ≤ r.length + K.sepCost q p n s := by
  induction n with
  | zero => intro s as r hs; cases hs
  | succ n ih =>
    intro s as r hs
    rw [sepLoop] at hs
    dsimp only at hs
    split at hs
    · cases hs; omega
    · rename_i v r1 h1
      split at hs
      · cases hs
      · rename_i hne
        split at hs
        · cases hs; omega
        · rename_i a r2 h2
          cases h3 : sepLoop q.run p.run n r2 with
          | ok bs r3 =>
            rw [h3] at hs
            simp only [Res.bind, Res.ok.injEq] at hs
            have e1 := hq _ _ _ h1
            have e2 := h _ _ _ h2
            have e3 := ih _ _ _ h3
            rw [K.sepCost, h1]
            simp only [Res.after]
            rw [if_neg hne, h2]
            simp only [Res.after]
            rw [← hs.2]
            omega
          | _ => rw [h3] at hs; cases hs
        · cases hs
        · cases hs
        · cases hs
    · cases hs
    · cases hs
    · cases hs

theorem u64Loop_pays : ∀ (s : List Char) (v n : Nat) (r : List Char), u64Loop v s = .ok n r →
    s.length ≤ r.length + (s.takeWhile isDigit).length
  | [], v, n, r, h => by simp
  | c :: s, v, n, r, h => by
    rw [u64Loop] at h
    split at h
    · rename_i hc
      dsimp only at h
      split at h
      · have := u64Loop_pays s _ _ _ h
        simp only [List.takeWhile_cons_of_pos hc, List.length_cons]
        omega
      · cases h
    · cases h; omega

namespace Pays

theorem map {f : α → β} {p : K.P α} (h : Pays p) : Pays (K.map f p) := fun s b r hs => by
  obtain ⟨a, h1, _⟩ := map_ok hs
  exact h s a r h1

theorem mapExpect {f : α → Option β} {p : K.P α} (h : Pays p) : Pays (K.mapExpect f p) :=
  fun s b r hs => by
  obtain ⟨a, h1, _⟩ := mapExpect_inv hs
  exact h s a r h1

theorem value {b : β} {p : K.P α} (h : Pays p) : Pays (K.value b p) := fun s b r hs => by
  obtain ⟨a, h1, _⟩ := map_ok hs
  exact h s a r h1

theorem pair {p : K.P α} {q : K.P β} (h : Pays p) (h' : Pays q) : Pays (K.pair p q) :=
  fun s b r hs => by
  obtain ⟨_, h1, h2⟩ := pair_ok hs
  have e1 := h _ _ _ h1
  have e2 := h' _ _ _ h2
  simp only [K.pair, h1, Res.after]
  omega

theorem preceded {p : K.P α} {q : K.P β} (h : Pays p) (h' : Pays q) : Pays (K.preceded p q) :=
  fun s b r hs => by
  obtain ⟨_, _, h1, h2⟩ := preceded_ok hs
  have e1 := h _ _ _ h1
  have e2 := h' _ _ _ h2
  simp only [K.preceded, h1, Res.after]
  omega

theorem terminated {p : K.P α} {q : K.P β} (h : Pays p) (h' : Pays q) :
    Pays (K.terminated p q) := fun s b r hs => by
  obtain ⟨_, _, h1, h2⟩ := terminated_ok hs
  have e1 := h _ _ _ h1
  have e2 := h' _ _ _ h2
  simp only [K.terminated, h1, Res.after]
  omega

theorem delimited {p : K.P α} {q : K.P β} {t : K.P γ} (h : Pays p) (h' : Pays q) (h'' : Pays t) :
    Pays (K.delimited p q t) := preceded h (terminated h' h'')

theorem alt_nil : Pays (K.alt ([] : List (K.P α))) := fun _ _ _ hs => by cases hs

theorem alt_cons {p : K.P α} {ps : List (K.P α)} (h : Pays p) (h' : Pays (K.alt ps)) :
    Pays (K.alt (p :: ps)) := fun s a r hs => by
  rcases alt_inv hs with h1 | h1
  · have e1 := h _ _ _ h1
    simp only [K.alt, K.altCost]
    omega
  · have e1 := h' _ _ _ h1.2
    simp only [K.alt, K.altCost] at e1 ⊢
    rw [h1.1]
    simp only [Res.onErr]
    omega

theorem alt_one {p : K.P α} (h : Pays p) : Pays (K.alt [p]) := alt_cons h alt_nil

theorem alt_tags : ∀ ks : List (List Char), (∀ k ∈ ks, Pays (K.tag k)) →
    Pays (K.alt (ks.map K.tag))
  | [], _ => alt_nil
  | k :: ks, h => alt_cons (h k (by simp)) (alt_tags ks fun x hx => h x (by simp [hx]))

theorem opt {p : K.P α} (h : Pays p) : Pays (K.opt p) := fun s o r hs => by
  rcases opt_inv hs with ⟨a, h1, _⟩ | ⟨_, _, rfl⟩
  · exact h _ _ _ h1
  · omega

theorem recognize {p : K.P α} (h : Pays p) : Pays (K.recognize p) := fun s v r hs => by
  have hs : Pddl.recognize p.run s = .ok v r := hs
  unfold Pddl.recognize at hs
  cases hp : p.run s with
  | ok a r1 => rw [hp] at hs; cases hs; exact h _ _ _ hp
  | _ => rw [hp] at hs; cases hs

theorem many0 {p : K.P α} (h : Pays p) : Pays (K.many0 p) := fun s v r hs =>
  many0Loop_pays h _ _ _ _ hs

theorem many01 {p : K.P α} (h : Pays p) : Pays (K.many01 p) := fun s v r hs => by
  have hs : Pddl.many01 p.run s = .ok v r := hs
  unfold Pddl.many01 at hs
  cases hp : p.run s with
  | ok a r1 =>
    rw [hp] at hs
    dsimp only at hs
    split at hs
    · cases hs
    · cases hs; exact h _ _ _ hp
  | err => rw [hp] at hs; cases hs; omega
  | _ => rw [hp] at hs; cases hs

theorem sepList1 {q : K.P β} {p : K.P α} (hq : Pays q) (h : Pays p) : Pays (K.sepList1 q p) :=
  fun s v r hs => by
  have hs : Pddl.sepList1 q.run p.run s = .ok v r := hs
  unfold Pddl.sepList1 at hs
  cases hp : p.run s with
  | ok a r1 =>
    rw [hp] at hs
    dsimp only [Res.bind] at hs
    cases h2 : sepLoop q.run p.run (r1.length + 1) r1 with
    | ok bs r2 =>
      rw [h2] at hs
      simp only [Res.ok.injEq] at hs
      have e1 := h _ _ _ hp
      have e2 := sepLoop_pays hq h _ _ _ _ h2
      simp only [K.sepList1, hp, Res.after]
      rw [← hs.2]
      omega
    | _ => rw [h2] at hs; cases hs
  | _ => rw [hp] at hs; cases hs

theorem sepList0 {q : K.P β} {p : K.P α} (hq : Pays q) (h : Pays p) : Pays (K.sepList0 q p) :=
  fun s v r hs => by
  have hs : Pddl.sepList0 q.run p.run s = .ok v r := hs
  unfold Pddl.sepList0 at hs
  cases hp : p.run s with
  | ok a r1 =>
    rw [hp] at hs
    dsimp only [Res.bind] at hs
    cases h2 : sepLoop q.run p.run (r1.length + 1) r1 with
    | ok bs r2 =>
      rw [h2] at hs
      simp only [Res.ok.injEq] at hs
      have e1 := h _ _ _ hp
      have e2 := sepLoop_pays hq h _ _ _ _ h2
      simp only [K.sepList0, hp, Res.after]
      rw [← hs.2]
      omega
    | _ => rw [h2] at hs; cases hs
  | err => rw [hp] at hs; cases hs; omega
  | _ => rw [hp] at hs; cases hs

theorem tag {t : List Char} : Pays (K.tag t) := fun s v r hs => by
  obtain ⟨_, rfl⟩ := tag_inv hs
  simp only [K.tag, List.length_append]
  omega

theorem char {c : Char} : Pays (K.char c) := fun s v r hs => by
  have := char_inv hs
  subst this
  simp only [K.char, List.length_cons]
  omega

theorem takeWhile0 {f : Char → Bool} : Pays (K.takeWhile0 f) := fun s v r hs => by
  have hs : Pddl.takeWhile0 f s = .ok v r := hs
  unfold Pddl.takeWhile0 at hs
  cases hs
  simp only [K.takeWhile0]
  have := takeWhile_dropWhile_length f s
  omega

theorem takeWhile1 {f : Char → Bool} : Pays (K.takeWhile1 f) := fun s v r hs => by
  have hs : Pddl.takeWhile1 f s = .ok v r := hs
  unfold Pddl.takeWhile1 at hs
  simp only [K.takeWhile1]
  have := takeWhile_dropWhile_length f s
  split at hs
  · cases hs
  · cases hs; omega

theorem multispace0 : Pays K.multispace0 := takeWhile0
theorem multispace1 : Pays K.multispace1 := takeWhile1
theorem alpha1 : Pays K.alpha1 := takeWhile1
theorem digit1 : Pays K.digit1 := takeWhile1
theorem isNot {cs : List Char} : Pays (K.isNot cs) := takeWhile1

theorem u64 : Pays K.u64 := fun s n r hs => by
  have hs : Pddl.u64 s = .ok n r := hs
  cases s with
  | nil => cases hs
  | cons c s =>
    rw [Pddl.u64] at hs
    by_cases hc : isDigit c = true
    · rw [if_pos hc] at hs
      have := u64Loop_pays _ _ _ _ hs
      simp only [K.u64]
      omega
    · rw [if_neg hc] at hs; cases hs

theorem ifOk {p : K.P α} {f : α → β} {k : K.P β} (h : Pays p) (h' : Pays k) :
    Pays (K.ifOk p f k) := fun s b r hs => by
  have hs : (match p.run s with
    | .ok a r => .ok (f a) r | .err => k.run s | .fail => k.run s | .panic => .panic
    | .oof => .oof) = Res.ok b r := hs
  simp only [K.ifOk]
  cases hp : p.run s with
  | ok a r1 => rw [hp] at hs; cases hs; have := h _ _ _ hp; omega
  | err => rw [hp] at hs; have := h' _ _ _ hs; simp only [Res.onError]; omega
  | fail => rw [hp] at hs; have := h' _ _ _ hs; simp only [Res.onError]; omega
  | _ => rw [hp] at hs; cases hs

theorem failure : Pays (K.failure : K.P α) := fun _ _ _ hs => by cases hs
theorem error : Pays (K.error : K.P α) := fun _ _ _ hs => by cases hs

theorem fixF {body : K.P α → K.P α} (h : ∀ p, Pays p → Pays (body p)) :
    ∀ n, Pays (K.fixF body n)
  | 0 => fun _ _ _ hs => by cases hs
  | n + 1 => fun s a r hs => by
    have := h _ (fixF h n) s a r hs
    simp only [K.fixF]
    omega

theorem fix {body : K.P α → K.P α} (h : ∀ p, Pays p → Pays (body p)) : Pays (K.fix body) :=
  fun s a r hs => fixF h (s.length + 1) s a r hs

end Pays

macro "pays" : tactic => `(tactic| (comb <;> first | assumption | skip))

theorem ignoreEolCommentBody_pays (p : K.P Unit) (h : Pays p) :
    Pays (K.ignoreEolCommentBody p) := by
  unfold K.ignoreEolCommentBody; pays

theorem ignoreEolComment_pays : Pays K.ignoreEolComment := .fix ignoreEolCommentBody_pays

theorem ws_pays {p : K.P α} (h : Pays p) : Pays (K.ws p) := by
  unfold K.ws; pays

theorem ws2_pays {p : K.P α} (h : Pays p) : Pays (K.ws2 p) := by
  unfold K.ws2; pays

theorem prefixExpr_pays {name : List Char} {p : K.P α} (h : Pays p) : Pays (K.prefixExpr name p) := by
  unfold K.prefixExpr; pays

theorem spaceSeparatedList0_pays {p : K.P α} (h : Pays p) : Pays (K.spaceSeparatedList0 p) := by
  unfold K.spaceSeparatedList0; pays

theorem spaceSeparatedList1_pays {p : K.P α} (h : Pays p) : Pays (K.spaceSeparatedList1 p) := by
  unfold K.spaceSeparatedList1; pays

theorem parens_pays {p : K.P α} (h : Pays p) : Pays (K.parens p) := by
  unfold K.parens; pays

theorem emptyOr_pays {p : K.P α} (h : Pays p) : Pays (K.emptyOr p) := by
  unfold K.emptyOr; pays

theorem parseAnyChar_pays : Pays K.parseAnyChar := by
  unfold K.parseAnyChar; pays

theorem parseName_pays : Pays K.parseName := by
  unfold K.parseName; pays

theorem parseVariable_pays : Pays K.parseVariable := by
  unfold K.parseVariable; pays

theorem parsePredicate_pays : Pays K.parsePredicate := by
  unfold K.parsePredicate; pays

theorem parseFunctionSymbol_pays : Pays K.parseFunctionSymbol := by
  unfold K.parseFunctionSymbol; pays

theorem parseActionSymbol_pays : Pays K.parseActionSymbol := by
  unfold K.parseActionSymbol; pays

theorem parseDaSymbol_pays : Pays K.parseDaSymbol := by
  unfold K.parseDaSymbol; pays

theorem parsePrefName_pays : Pays K.parsePrefName := by
  unfold K.parsePrefName; pays

theorem parseDecimal_pays : Pays K.parseDecimal := by
  unfold K.parseDecimal; pays

theorem parseNumber_pays : Pays K.parseNumber := by
  unfold K.parseNumber; pays

theorem parseObject_pays : Pays K.parseObject := by
  unfold K.parseObject; pays

theorem parsePrimitiveType_pays : Pays K.parsePrimitiveType := by
  unfold K.parsePrimitiveType; pays

theorem parseEitherType_pays : Pays K.parseEitherType := by
  unfold K.parseEitherType; pays

theorem parseType_pays : Pays K.parseType := by
  unfold K.parseType; pays

theorem parseFunctionType_pays : Pays K.parseFunctionType := by
  unfold K.parseFunctionType; pays

theorem explicitlyTyped_pays {inner : K.P α} (h : Pays inner) : Pays (K.explicitlyTyped inner) := by
  unfold K.explicitlyTyped; pays

theorem typedList_pays {inner : K.P α} (h : Pays inner) : Pays (K.typedList inner) := by
  unfold K.typedList; pays

theorem functionTypedList_pays {inner : K.P α} (h : Pays inner) : Pays (K.functionTypedList inner) := by
  unfold K.functionTypedList; pays

theorem functionTermOf_pays {self : K.P Term} (h : Pays self) : Pays (K.functionTermOf self) := by
  unfold K.functionTermOf; pays

theorem termBody_pays (self : K.P Term) (h : Pays self) : Pays (K.termBody self) := by
  unfold K.termBody; pays

theorem parseTerm_pays : Pays K.parseTerm := .fix termBody_pays

theorem parseFunctionTerm_pays : Pays K.parseFunctionTerm := by
  unfold K.parseFunctionTerm; pays

theorem atomicFormula_pays {inner : K.P α} (h : Pays inner) : Pays (K.atomicFormula inner) := by
  unfold K.atomicFormula; pays

theorem literal_pays {inner : K.P α} (h : Pays inner) : Pays (K.literal inner) := by
  unfold K.literal; pays

theorem parseAtomicFormulaSkeleton_pays : Pays K.parseAtomicFormulaSkeleton := by
  unfold K.parseAtomicFormulaSkeleton; pays

theorem parseAtomicFunctionSkeleton_pays : Pays K.parseAtomicFunctionSkeleton := by
  unfold K.parseAtomicFunctionSkeleton; pays

theorem parseBasicFunctionTerm_pays : Pays K.parseBasicFunctionTerm := by
  unfold K.parseBasicFunctionTerm; pays

theorem parseFHead_pays : Pays K.parseFHead := by
  unfold K.parseFHead; pays

theorem parseMultiOp_pays : Pays K.parseMultiOp := by
  unfold K.parseMultiOp; pays

theorem parseBinaryOp_pays : Pays K.parseBinaryOp := by
  unfold K.parseBinaryOp; pays

theorem parseBinaryComp_pays : Pays K.parseBinaryComp := by
  unfold K.parseBinaryComp; pays

theorem parseAssignOp_pays : Pays K.parseAssignOp := by
  unfold K.parseAssignOp; pays

theorem parseAssignOpT_pays : Pays K.parseAssignOpT := by
  unfold K.parseAssignOpT; pays

theorem parseDOp_pays : Pays K.parseDOp := by
  unfold K.parseDOp; pays

theorem parseOptimization_pays : Pays K.parseOptimization := by
  unfold K.parseOptimization; pays

theorem parseTimeSpecifier_pays : Pays K.parseTimeSpecifier := by
  unfold K.parseTimeSpecifier; pays

theorem parseInterval_pays : Pays K.parseInterval := by
  unfold K.parseInterval; pays

theorem fExpBody_pays (self : K.P FExp) (h : Pays self) : Pays (K.fExpBody self) := by
  unfold K.fExpBody; pays

theorem parseFExp_pays : Pays K.parseFExp := .fix fExpBody_pays

theorem parseFComp_pays : Pays K.parseFComp := by
  unfold K.parseFComp; pays

theorem parseVarList_pays : Pays K.parseVarList := by
  unfold K.parseVarList; pays

theorem gdBody_pays (self : K.P GD) (h : Pays self) : Pays (K.gdBody self) := by
  unfold K.gdBody; pays

theorem parseGd_pays : Pays K.parseGd := .fix gdBody_pays

theorem parsePrefGd_pays : Pays K.parsePrefGd := by
  unfold K.parsePrefGd; pays

theorem preGdBody_pays (self : K.P (List PreGD)) (h : Pays self) : Pays (K.preGdBody self) := by
  unfold K.preGdBody; pays

theorem parsePreGd_pays : Pays K.parsePreGd := .fix preGdBody_pays

theorem parseProblemGoalDef_pays : Pays K.parseProblemGoalDef := by
  unfold K.parseProblemGoalDef; pays

theorem con2Of_pays {self : K.P ConGD} (h : Pays self) : Pays (K.con2Of self) := by
  unfold K.con2Of; pays

theorem conGdBody_pays (self : K.P ConGD) (h : Pays self) : Pays (K.conGdBody self) := by
  unfold K.conGdBody; pays

theorem parseConGd_pays : Pays K.parseConGd := .fix conGdBody_pays

theorem parseCon2Gd_pays : Pays K.parseCon2Gd := by
  unfold K.parseCon2Gd; pays

theorem prefConGdBody_pays (self : K.P (List PrefConGD)) (h : Pays self) : Pays (K.prefConGdBody self) := by
  unfold K.prefConGdBody; pays

theorem parsePrefConGd_pays : Pays K.parsePrefConGd := .fix prefConGdBody_pays

theorem parseDomainConstraintsDef_pays : Pays K.parseDomainConstraintsDef := by
  unfold K.parseDomainConstraintsDef; pays

theorem parseProblemConstraintsDef_pays : Pays K.parseProblemConstraintsDef := by
  unfold K.parseProblemConstraintsDef; pays

theorem parsePEffect_pays : Pays K.parsePEffect := by
  unfold K.parsePEffect; pays

theorem parseCondEffect_pays : Pays K.parseCondEffect := by
  unfold K.parseCondEffect; pays

theorem effectOf_pays {self : K.P CEffect} (h : Pays self) : Pays (K.effectOf self) := by
  unfold K.effectOf; pays

theorem forallCEffectOf_pays {self : K.P CEffect} (h : Pays self) : Pays (K.forallCEffectOf self) := by
  unfold K.forallCEffectOf; pays

theorem parseWhenCEffect_pays : Pays K.parseWhenCEffect := by
  unfold K.parseWhenCEffect; pays

theorem cEffectBody_pays (self : K.P CEffect) (h : Pays self) : Pays (K.cEffectBody self) := by
  unfold K.cEffectBody; pays

theorem parseCEffect_pays : Pays K.parseCEffect := .fix cEffectBody_pays

theorem parseEffect_pays : Pays K.parseEffect := by
  unfold K.parseEffect; pays

theorem parseForallCEffect_pays : Pays K.parseForallCEffect := by
  unfold K.parseForallCEffect; pays

theorem parseParameters_pays : Pays K.parseParameters := by
  unfold K.parseParameters; pays

theorem parseActionDef_pays : Pays K.parseActionDef := by
  unfold K.parseActionDef; pays

theorem parseDerivedPredicate_pays : Pays K.parseDerivedPredicate := by
  unfold K.parseDerivedPredicate; pays

theorem parseTimedGd_pays : Pays K.parseTimedGd := by
  unfold K.parseTimedGd; pays

theorem parsePrefTimedGd_pays : Pays K.parsePrefTimedGd := by
  unfold K.parsePrefTimedGd; pays

theorem daGdBody_pays (self : K.P DaGD) (h : Pays self) : Pays (K.daGdBody self) := by
  unfold K.daGdBody; pays

theorem parseDaGd_pays : Pays K.parseDaGd := .fix daGdBody_pays

theorem fExpDaBody_pays (self : K.P FExpDa) (h : Pays self) : Pays (K.fExpDaBody self) := by
  unfold K.fExpDaBody; pays

theorem parseFExpDa_pays : Pays K.parseFExpDa := .fix fExpDaBody_pays

theorem parseFAssignDa_pays : Pays K.parseFAssignDa := by
  unfold K.parseFAssignDa; pays

theorem parseFExpT_pays : Pays K.parseFExpT := by
  unfold K.parseFExpT; pays

theorem parseTimedEffect_pays : Pays K.parseTimedEffect := by
  unfold K.parseTimedEffect; pays

theorem daEffectBody_pays (self : K.P DaEffect) (h : Pays self) : Pays (K.daEffectBody self) := by
  unfold K.daEffectBody; pays

theorem parseDaEffect_pays : Pays K.parseDaEffect := .fix daEffectBody_pays

theorem parseDValue_pays : Pays K.parseDValue := by
  unfold K.parseDValue; pays

theorem simpleDurationBody_pays (self : K.P SimpleDuration) (h : Pays self) : Pays (K.simpleDurationBody self) := by
  unfold K.simpleDurationBody; pays

theorem parseSimpleDuration_pays : Pays K.parseSimpleDuration := .fix simpleDurationBody_pays

theorem parseDurationConstraint_pays : Pays K.parseDurationConstraint := by
  unfold K.parseDurationConstraint; pays

theorem parseDaDef_pays : Pays K.parseDaDef := by
  unfold K.parseDaDef; pays

theorem parseStructureDef_pays : Pays K.parseStructureDef := by
  unfold K.parseStructureDef; pays

theorem parseRequireKey_pays : Pays K.parseRequireKey := .mapExpect (.alt_tags _ fun _ _ => .tag)

theorem parseRequireDef_pays : Pays K.parseRequireDef := by
  unfold K.parseRequireDef; pays

theorem parseTypesDef_pays : Pays K.parseTypesDef := by
  unfold K.parseTypesDef; pays

theorem parseConstantsDef_pays : Pays K.parseConstantsDef := by
  unfold K.parseConstantsDef; pays

theorem parseProblemObjectsDeclaration_pays : Pays K.parseProblemObjectsDeclaration := by
  unfold K.parseProblemObjectsDeclaration; pays

theorem parsePredicatesDef_pays : Pays K.parsePredicatesDef := by
  unfold K.parsePredicatesDef; pays

theorem parseFunctionsDef_pays : Pays K.parseFunctionsDef := by
  unfold K.parseFunctionsDef; pays

theorem parseTimelessDef_pays : Pays K.parseTimelessDef := by
  unfold K.parseTimelessDef; pays

theorem parseInitEl_pays : Pays K.parseInitEl := by
  unfold K.parseInitEl; pays

theorem parseProblemInitDef_pays : Pays K.parseProblemInitDef := by
  unfold K.parseProblemInitDef; pays

theorem parseProblemLengthSpec_pays : Pays K.parseProblemLengthSpec := by
  unfold K.parseProblemLengthSpec; pays

theorem metricFExpBody_pays (self : K.P MetricFExp) (h : Pays self) : Pays (K.metricFExpBody self) := by
  unfold K.metricFExpBody; pays

theorem parseMetricFExp_pays : Pays K.parseMetricFExp := .fix metricFExpBody_pays

theorem parseProblemMetricSpec_pays : Pays K.parseProblemMetricSpec := by
  unfold K.parseProblemMetricSpec; pays

theorem domainParts_pays : Pays K.domainParts := by
  unfold K.domainParts; pays

theorem parseDomain_pays : Pays K.parseDomain := by
  unfold K.parseDomain; pays

theorem problemParts_pays : Pays K.problemParts := by
  unfold K.problemParts; pays

theorem parseProblem_pays : Pays K.parseProblem := by
  unfold K.parseProblem; pays

end Pddl
