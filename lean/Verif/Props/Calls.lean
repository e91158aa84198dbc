import Verif.Meta.NamesCount
import Verif.Props.EnteredAll
import Verif.Props.Resources

/-!
# C122: how often names are looked up

Every call of `Name::new` takes the lock of the table, except for `object` and `number`
(`name.rs:53-59`). Here the calls are counted: there are no more
of them than steps (C60), and nested operations can make as many as the steps.
-/

namespace Pddl

/-! ## Not more than steps -/

theorem Parsable.entering_fewer (k : Parsable) : Fewer k.entering k.work := by
  cases k
  case actionDefinition => exact parseActionDef_fewer
  case actionSymbol => exact parseActionSymbol_fewer
  case assignOp => exact parseAssignOp_fewer
  case assignOpT => exact parseAssignOpT_fewer
  case atomicFormulaSkeleton => exact parseAtomicFormulaSkeleton_fewer
  case atomicFunctionSkeleton => exact parseAtomicFunctionSkeleton_fewer
  case basicFunctionTerm => exact parseBasicFunctionTerm_fewer
  case binaryComp => exact parseBinaryComp_fewer
  case binaryOp => exact parseBinaryOp_fewer
  case cEffect => exact parseCEffect_fewer
  case forallCEffect => exact parseForallCEffect_fewer
  case whenCEffect => exact parseWhenCEffect_fewer
  case conGD => exact parseConGd_fewer
  case con2GD => exact parseCon2Gd_fewer
  case conditionalEffect => exact parseCondEffect_fewer
  case constants => exact parseConstantsDef_fewer
  case dOp => exact parseDOp_fewer
  case durationValue => exact parseDValue_fewer
  case durativeActionDefinition => exact parseDaDef_fewer
  case durativeActionEffect => exact parseDaEffect_fewer
  case durativeActionGoalDefinition => exact parseDaGd_fewer
  case durativeActionSymbol => exact parseDaSymbol_fewer
  case derivedPredicate => exact parseDerivedPredicate_fewer
  case domain => exact parseDomain_fewer
  case domainConstraintsDef => exact parseDomainConstraintsDef_fewer
  case durationConstraint => exact parseDurationConstraint_fewer
  case effects => exact parseEffect_fewer
  case fAssignDa => exact parseFAssignDa_fewer
  case fComp => exact parseFComp_fewer
  case fExp => exact parseFExp_fewer
  case fExpDa => exact parseFExpDa_fewer
  case fExpT => exact parseFExpT_fewer
  case fHead => exact parseFHead_fewer
  case functionSymbol => exact parseFunctionSymbol_fewer
  case functionTerm => exact parseFunctionTerm_fewer
  case functionType => exact parseFunctionType_fewer
  case functions => exact parseFunctionsDef_fewer
  case goalDefinition => exact parseGd_fewer
  case goalDef => exact parseProblemGoalDef_fewer
  case initElements => exact parseProblemInitDef_fewer
  case initElement => exact parseInitEl_fewer
  case interval => exact parseInterval_fewer
  case lengthSpec => exact parseProblemLengthSpec_fewer
  case metricFExp => exact parseMetricFExp_fewer
  case metricSpec => exact parseProblemMetricSpec_fewer
  case multiOp => exact parseMultiOp_fewer
  case name => exact parseName_fewer
  case number => exact parseNumber_fewer
  case objects => exact parseProblemObjectsDeclaration_fewer
  case optimization => exact parseOptimization_fewer
  case pEffect => exact parsePEffect_fewer
  case preconditionGoalDefinitions => exact parsePreGd_fewer
  case predicate => exact parsePredicate_fewer
  case predicateDefinitions => exact parsePredicatesDef_fewer
  case prefConGDs => exact parsePrefConGd_fewer
  case preferenceGD => exact parsePrefGd_fewer
  case preferenceName => exact parsePrefName_fewer
  case prefTimedGD => exact parsePrefTimedGd_fewer
  case primitiveType => exact parsePrimitiveType_fewer
  case problem => exact parseProblem_fewer
  case problemConstraintsDef => exact parseProblemConstraintsDef_fewer
  case requirements => exact parseRequireDef_fewer
  case requirement => exact parseRequireKey_fewer
  case simpleDurationConstraint => exact parseSimpleDuration_fewer
  case structureDef => exact parseStructureDef_fewer
  case term => exact parseTerm_fewer
  case timeSpecifier => exact parseTimeSpecifier_fewer
  case timedEffect => exact parseTimedEffect_fewer
  case timedGD => exact parseTimedGd_fewer
  case timeless => exact parseTimelessDef_fewer
  case type_ => exact parseType_fewer
  case types => exact parseTypesDef_fewer
  case variable_ => exact parseVariable_fewer

/-- C122: whatever is read, there are at most as many calls of `Name::new` as steps. -/
theorem C122_steps (k : Parsable) (s : List Char) : (k.entering.made s).length ≤ k.work.cost s :=
  k.entering_fewer.2 s

/-- C122, with the nesting of operations in the bound. A polynomial alone is not enough: see
`C122_exponential`. -/
theorem C122_partial (k : Parsable) :
    ∃ C, ∀ s : List Char, (k.entering.made s).length ≤ C * (2 ^ opDepth s * (s.length + 1) ^ 7) := by
  obtain ⟨C, h⟩ := C60_every_partial k
  exact ⟨C, fun s => Nat.le_trans (C122_steps k s) (h s)⟩

/-- C122: where operations are nested at most `d` deep, the number of calls is polynomial. -/
theorem C122_shallow_partial (k : Parsable) (d : Nat) :
    ∃ C, ∀ s : List Char, opDepth s ≤ d → (k.entering.made s).length ≤ C * (s.length + 1) ^ 7 := by
  obtain ⟨C, h⟩ := C60_every_shallow_partial k d
  exact ⟨C, fun s hs => Nat.le_trans (C122_steps k s) (h s hs)⟩

/-! ## Texts with many calls -/

/-- `x`, `(+ x 1 1)`, `(+ (+ x 1 1) 1 1)`, … -/
def opX : Nat → List Char
  | 0 => ['x']
  | n + 1 => c!"(+ " ++ (opX n ++ c!" 1 1)")

/-- The value of `opX n`. -/
def opXV : Nat → MetricFExp
  | 0 => .function (Name.new c!"x") []
  | n + 1 => .multiOp .add (opXV n) [.number num1, .number num1]

theorem opX_length (n : Nat) : (opX n).length = 1 + 8 * n := by
  induction n with
  | zero => rfl
  | succ n ih => simp [opX, ih]; omega

theorem opX_solid (n : Nat) : Solid (opX n) := by
  cases n with
  | zero => exact ⟨_, _, rfl, by decide, by decide⟩
  | succ n => exact ⟨_, _, rfl, by decide, by decide⟩

theorem metric_x {r : List Char} (h : ∀ c r', r = c :: r' → isWordChar c = false) (m : Nat) :
    fixF metricFExpBody (m + 1) ('x' :: r) = .ok (.function (Name.new c!"x") []) r := by
  rw [fixF, metricFExpBody]
  rw [alt_miss (map_err (by rfl)), alt_miss (map_err (by rfl)), alt_miss (by rfl),
    alt_miss (map_err (by rfl)), alt_miss (map_err (by rfl)), alt_miss (map_err (by rfl)),
    alt_miss (map_err (by rfl))]
  exact alt_hit (map_run (show parseFunctionSymbol ('x' :: r) = _ from
    parseName_word (t := c!"x") ⟨'x', [], rfl, by decide, by decide⟩ h))

/-- `opX n` is read, given enough depth, whatever follows. -/
theorem opX_run (n m : Nat) {r : List Char} (hr : ∀ c r', r = c :: r' → isWordChar c = false) :
    fixF metricFExpBody (n + m + 1) (opX n ++ r) = .ok (opXV n) r := by
  induction n generalizing m r with
  | zero => exact metric_x hr (0 + m)
  | succ n ih =>
    have e : n + 1 + m + 1 = (n + m + 1) + 1 := by omega
    have h := op3_step (r := r) (opX_solid n) (ih m (fun c r' h => by cases h; decide))
      (metric_num1 (Stop.sp (g := [' ']) sp_one _) _)
      (metric_num1 (.close _) _)
    rw [e, fixF, metricFExpBody]
    have t : opX (n + 1) ++ r = c!"(+ " ++ (opX n ++ (c!" 1 1)" ++ r)) := by simp [opX]
    rw [t, alt_miss (map_err (by rfl)), alt_miss (map_err h.1),
      alt_hit (r := r) (a := opXV (n + 1)) (by rw [mapExpect, h.2]; rfl)]

namespace N

/-- How many names a call makes. -/
abbrev P.count (p : P α) (s : List Char) : Nat := (p.made s).length

theorem eol_ok (s : List Char) : ignoreEolComment.run s = .ok () (skipC s) := by
  rw [ignoreEolComment_run, eol_eq]

theorem preceded_low {p : P α} {q : P β} {s r : List Char} {a : α} (h : p.run s = .ok a r) :
    q.count r ≤ (preceded p q).count s := by
  simp only [P.count, preceded, h, Res.thenMade, List.length_append]; omega

theorem terminated_low {p : P α} {q : P β} {s : List Char} : p.count s ≤ (terminated p q).count s := by
  simp only [P.count, terminated, List.length_append]; omega

theorem pair_low {p : P α} {q : P β} {s r : List Char} {a : α} (h : p.run s = .ok a r) :
    q.count r ≤ (pair p q).count s := preceded_low h

theorem pair_low_left {p : P α} {q : P β} {s : List Char} : p.count s ≤ (pair p q).count s := terminated_low

theorem ws_low {p : P α} (s : List Char) : p.count (skip s) ≤ (ws p).count s :=
  preceded_low (layoutN_run s)

theorem parens_low {p : P α} (x : List Char) : p.count (skip x) ≤ (parens p).count ('(' :: x) := by
  have h : skipC ('(' :: x) = '(' :: x := skipC_of_ne (by decide) x
  refine Nat.le_trans ?_ (preceded_low (eol_ok _))
  rw [h]
  exact Nat.le_trans (ws_low x) (Nat.le_trans terminated_low (preceded_low (p := char '(') (by rfl)))

theorem alt2_low {p q t : P α} {ps : List (P α)} {s : List Char} (h0 : p.run s = .err)
    (h1 : q.run s = .err) : q.count s + t.count s ≤ (alt (p :: q :: t :: ps)).count s := by
  simp only [P.count, alt, altMade, h0, h1, Res.elseMade, List.length_append]
  omega

/-- Reading `opX n` makes a name `2 ^ n` times. -/
theorem opX_count (n m : Nat) {r : List Char} (hr : ∀ c r', r = c :: r' → isWordChar c = false) :
    2 ^ n ≤ (fixF metricFExpBody (n + m + 1)).count (opX n ++ r) := by
  induction n generalizing m r with
  | zero =>
    have hk : Keeps (fixF metricFExpBody (0 + m + 1)) := .fixF (fun _ h => by
      unfold N.metricFExpBody
      keep) _
    have h1 := hk ('x' :: r) _ r (by
      rw [fixF_run metricFExpBody_run]
      exact metric_x hr (0 + m))
    exact List.length_pos_of_mem (h1 (.name (Name.new c!"x")) (by simp [Parts.parts, MetricFExp.nodes, Name.nodes]))
  | succ n ih =>
    have e : n + 1 + m + 1 = (n + m + 1) + 1 := by omega
    have hsp : ∀ c r', c!" 1 1)" ++ r = c :: r' → isWordChar c = false := fun c r' h => by cases h; decide
    have h := op3_step (r := r) (opX_solid n) (opX_run n m hsp)
      (metric_num1 (Stop.sp (g := [' ']) sp_one _) _)
      (metric_num1 (.close _) _)
    have t : opX (n + 1) ++ r = c!"(+ " ++ (opX n ++ (c!" 1 1)" ++ r)) := by simp [opX]
    have hi := ih m (r := c!" 1 1)" ++ r) hsp
    have hrun := fixF_run metricFExpBody_run (n + m + 1)
    have k1 : skip (c!"+ " ++ (opX n ++ (c!" 1 1)" ++ r))) = (c!"+ " ++ (opX n ++ (c!" 1 1)" ++ r))) :=
      Solid.skip (.cons (by decide) (by decide) _)
    obtain ⟨x, k2⟩ := ms1_sp (g := [' ']) sp_one ((opX_solid n).append (c!" 1 1)" ++ r))
    rw [e, fixF]
    show _ ≤ (metricFExpBody _).count _
    rw [metricFExpBody, t]
    refine Nat.le_trans ?_ (alt2_low ?_ ?_)
    · rw [Nat.pow_succ, Nat.mul_two]
      refine Nat.add_le_add (Nat.le_trans hi ?_) (Nat.le_trans hi ?_)
      · refine Nat.le_trans ?_ (parens_low _)
        refine Nat.le_trans ?_ (Nat.le_of_eq (congrArg _ k1.symm))
        exact Nat.le_trans (Nat.le_trans (preceded_low k2) pair_low_left)
          (pair_low (a := .add) (by rw [parseBinaryOp_run]; rfl))
      · refine Nat.le_trans ?_ (parens_low _)
        refine Nat.le_trans ?_ (Nat.le_of_eq (congrArg _ k1.symm))
        exact Nat.le_trans (Nat.le_trans (preceded_low k2) pair_low_left)
          (pair_low (a := .add) (by rw [parseMultiOp_run]; rfl))
    · rw [N.map_run, parseNumber_run]; rfl
    · rw [N.map_run, parens_run, N.pair_run, N.pair_run, N.preceded_run, hrun, parseBinaryOp_run,
        multispace1_run]
      exact map_err h.1

end N

/-- C122: an accepted text of `8 n + 1` characters for which `Name::new` is called `2 ^ n` times or more. -/
theorem C122_exponential (n : Nat) : ∃ s v, s.length = 8 * n + 1 ∧
    Parsable.metricFExp.parse s = .ok v [] ∧ 2 ^ n ≤ (Parsable.metricFExp.entering.made s).length := by
  have e : (opX n).length + 1 = n + (1 + 7 * n) + 1 := by rw [opX_length]; omega
  refine ⟨opX n, opXV n, by rw [opX_length]; omega, ?_, ?_⟩
  · show fixF metricFExpBody ((opX n).length + 1) (opX n) = _
    rw [e]
    have := opX_run n (1 + 7 * n) (r := []) fun _ _ h => nomatch h
    rw [List.append_nil] at this
    exact this
  · show _ ≤ ((N.fixF N.metricFExpBody ((opX n).length + 1)).made (opX n)).length
    rw [e]
    simpa using N.opX_count n (1 + 7 * n) (r := []) fun _ _ h => nomatch h

example : opX 2 = c!"(+ (+ x 1 1) 1 1)" := rfl

/-- The calls for `x`, `(+ x 1 1)` and so on; all of them are for the same name. -/
example : (List.range 4).map (fun n => (Parsable.metricFExp.entering.made (opX n)).length) = [1, 2, 4, 8] ∧
    Parsable.metricFExp.entering.made (opX 2) = [c!"x", c!"x", c!"x", c!"x"] := by decide +kernel

/-- C122 is false with a polynomial in the length of the text alone. -/
theorem C122_false (C k : Nat) : ∃ s v, Parsable.metricFExp.parse s = .ok v [] ∧
    C * (s.length + 1) ^ k < (Parsable.metricFExp.entering.made s).length := by
  obtain ⟨n, hn⟩ := pow_outgrows C k 2 8
  obtain ⟨s, v, hl, hv, hc⟩ := C122_exponential n
  refine ⟨s, v, hv, Nat.lt_of_lt_of_le ?_ hc⟩
  have : s.length + 1 = 2 + 8 * n := by omega
  rw [this]
  exact hn

end Pddl
