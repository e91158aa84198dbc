import Verif.Meta.GoodAll

/-!
# C01–C03: termination, suffix and progress, panics
-/

namespace Pddl

/-- A parser together with its result type. -/
abbrev AnyParser := (α : Type) × P α

/-- All non-generic parse functions of `/repo/src/parsers` that return a syntactic element (the
`Parser` implementations and the free functions). The generic ones (`typed_list`, `atomic_formula`,
`literal`, ...) and the layout helpers are treated separately below. -/
def publicParsers : List AnyParser := [
  ⟨_, parseName⟩, ⟨_, parseVariable⟩, ⟨_, parsePredicate⟩, ⟨_, parseFunctionSymbol⟩,
  ⟨_, parseActionSymbol⟩, ⟨_, parseDaSymbol⟩, ⟨_, parsePrefName⟩, ⟨_, parseNumber⟩,
  ⟨_, parsePrimitiveType⟩, ⟨_, parseType⟩, ⟨_, parseFunctionType⟩, ⟨_, parseTerm⟩,
  ⟨_, parseFunctionTerm⟩, ⟨_, atomicFormula parseTerm⟩, ⟨_, atomicFormula parseName⟩,
  ⟨_, literal parseTerm⟩, ⟨_, literal parseName⟩, ⟨_, parseAtomicFormulaSkeleton⟩,
  ⟨_, parseAtomicFunctionSkeleton⟩, ⟨_, parseBasicFunctionTerm⟩, ⟨_, parseFHead⟩,
  ⟨_, parseMultiOp⟩, ⟨_, parseBinaryOp⟩, ⟨_, parseBinaryComp⟩, ⟨_, parseAssignOp⟩,
  ⟨_, parseAssignOpT⟩, ⟨_, parseDOp⟩, ⟨_, parseOptimization⟩, ⟨_, parseTimeSpecifier⟩,
  ⟨_, parseInterval⟩, ⟨_, parseFExp⟩, ⟨_, parseFComp⟩, ⟨_, parseGd⟩, ⟨_, parsePrefGd⟩,
  ⟨_, parsePreGd⟩, ⟨_, parseProblemGoalDef⟩, ⟨_, parseConGd⟩, ⟨_, parseCon2Gd⟩,
  ⟨_, parsePrefConGd⟩, ⟨_, parseDomainConstraintsDef⟩, ⟨_, parseProblemConstraintsDef⟩,
  ⟨_, parsePEffect⟩, ⟨_, parseCondEffect⟩, ⟨_, parseCEffect⟩, ⟨_, parseForallCEffect⟩,
  ⟨_, parseWhenCEffect⟩, ⟨_, parseEffect⟩, ⟨_, parseActionDef⟩, ⟨_, parseDerivedPredicate⟩,
  ⟨_, parseTimedGd⟩, ⟨_, parsePrefTimedGd⟩, ⟨_, parseDaGd⟩, ⟨_, parseFExpDa⟩,
  ⟨_, parseFAssignDa⟩, ⟨_, parseFExpT⟩, ⟨_, parseTimedEffect⟩, ⟨_, parseDaEffect⟩,
  ⟨_, parseDValue⟩, ⟨_, parseSimpleDuration⟩, ⟨_, parseDurationConstraint⟩, ⟨_, parseDaDef⟩,
  ⟨_, parseStructureDef⟩, ⟨_, parseRequireKey⟩, ⟨_, parseRequireDef⟩, ⟨_, parseTypesDef⟩,
  ⟨_, parseConstantsDef⟩, ⟨_, parseProblemObjectsDeclaration⟩, ⟨_, parsePredicatesDef⟩,
  ⟨_, parseFunctionsDef⟩, ⟨_, parseTimelessDef⟩, ⟨_, parseInitEl⟩, ⟨_, parseProblemInitDef⟩,
  ⟨_, parseProblemLengthSpec⟩, ⟨_, parseMetricFExp⟩, ⟨_, parseProblemMetricSpec⟩,
  ⟨_, parseDomain⟩, ⟨_, parseProblem⟩]

/-- Every parser of the list is `Good`. -/
theorem publicParsers_good : ∀ p ∈ publicParsers, ∀ L, Good 1 L p.2 p.2 := by
  intro p hp L
  simp only [publicParsers, List.mem_cons, List.not_mem_nil, or_false] at hp
  repeat' (rcases hp with hp | hp)
  all_goals dsimp only
  all_goals first
    | exact (Good.atomicFormula parseTerm_good).mono (by decide)
    | exact (Good.atomicFormula parseName_good).mono (by decide)
    | exact (Good.literal parseTerm_good).mono (by decide)
    | exact (Good.literal parseName_good).mono (by decide)
    | (refine Good.mono (by comb_step) ?_; decide)

/-! ## C01 -/

/-- Every public parser returns one of the outcomes of the Rust code (success, error, failure,
panic) on every text; the depth budget is never used up. -/
theorem C01_terminates : ∀ p ∈ publicParsers, ∀ s, p.2 s ≠ .oof := by
  intro p hp s h
  have := (publicParsers_good p hp (s.length + 1) s (by omega)).2
  rw [h] at this
  exact this

/-- A recursive parser as the Rust code runs it: with `n` nested calls allowed. All recursive
parsers of the crate, as the function from the depth budget to the parser, and the parser itself. -/
def recursiveParsers : List ((α : Type) × (P α → P α) × P α) := [
  ⟨_, termBody, parseTerm⟩, ⟨_, fExpBody, parseFExp⟩, ⟨_, gdBody, parseGd⟩,
  ⟨_, preGdBody, parsePreGd⟩, ⟨_, conGdBody, parseConGd⟩, ⟨_, prefConGdBody, parsePrefConGd⟩,
  ⟨_, cEffectBody, parseCEffect⟩, ⟨_, daGdBody, parseDaGd⟩, ⟨_, fExpDaBody, parseFExpDa⟩,
  ⟨_, daEffectBody, parseDaEffect⟩, ⟨_, simpleDurationBody, parseSimpleDuration⟩,
  ⟨_, metricFExpBody, parseMetricFExp⟩, ⟨_, ignoreEolCommentBody, ignoreEolComment⟩]

/-- Each recursive parser satisfies the recursion equation of the Rust function, without any
budget. -/
theorem C01_recursion_equation : ∀ x ∈ recursiveParsers, x.2.2 = x.2.1 x.2.2 := by
  intro x hx
  simp only [recursiveParsers, List.mem_cons, List.not_mem_nil, or_false] at hx
  repeat' (rcases hx with hx | hx)
  all_goals dsimp only
  · exact Good.fix_eq termBody_good
  · exact Good.fix_eq fExpBody_good
  · exact Good.fix_eq gdBody_good
  · exact Good.fix_eq preGdBody_good
  · exact Good.fix_eq conGdBody_good
  · exact Good.fix_eq prefConGdBody_good
  · exact Good.fix_eq cEffectBody_good
  · exact Good.fix_eq daGdBody_good
  · exact Good.fix_eq fExpDaBody_good
  · exact Good.fix_eq daEffectBody_good
  · exact Good.fix_eq simpleDurationBody_good
  · exact Good.fix_eq metricFExpBody_good
  · exact Good.fix_eq ignoreEolCommentBody_good

/-- Run with any depth budget above the number of characters, a recursive parser gives the same
outcome, and that outcome is not exhaustion: the calls nest no deeper than the text is long. -/
theorem C01_depth : ∀ x ∈ recursiveParsers, ∀ s n, s.length < n →
    fixF x.2.1 n s = x.2.2 s ∧ x.2.2 s ≠ .oof := by
  have key : ∀ {α : Type} {k : Nat} {body : P α → P α}
      (_ : ∀ L p q, Good k L p q → Good k (L + 1) (body p) (body q)) (s n), s.length < n →
      fixF body n s = fix body s ∧ fix body s ≠ .oof := by
    intro α k body h s n hn
    have h1 := Good.fixF_fix h n s hn
    refine ⟨h1.1, fun h2 => ?_⟩
    have h3 := h1.2
    rw [h1.1, h2] at h3
    exact h3
  intro x hx
  simp only [recursiveParsers, List.mem_cons, List.not_mem_nil, or_false] at hx
  repeat' (rcases hx with hx | hx)
  all_goals dsimp only
  · exact key termBody_good
  · exact key fExpBody_good
  · exact key gdBody_good
  · exact key preGdBody_good
  · exact key conGdBody_good
  · exact key prefConGdBody_good
  · exact key cEffectBody_good
  · exact key daGdBody_good
  · exact key fExpDaBody_good
  · exact key daEffectBody_good
  · exact key simpleDurationBody_good
  · exact key metricFExpBody_good
  · exact key ignoreEolCommentBody_good

/-- The list is not empty and a parser in it does return a value. -/
example : parseGd c!"(and (p ?x) (not (q)))rest" =
    .ok (.and [.atomic (.predicate (.str c!"p") [.var (.str c!"x")]),
      .not (.atomic (.predicate (.str c!"q") []))]) c!"rest" := by rfl

/-- The budget matters: with too little, a nested text is not parsed. -/
example : fixF gdBody 2 c!"(not (not (p)))" = .oof := by rfl

/-! ## C02 -/

/-- A success leaves a suffix of the input, and consumes at least one character. -/
theorem C02_suffix_progress : ∀ p ∈ publicParsers, ∀ s a r, p.2 s = .ok a r →
    ∃ c, s = c ++ r ∧ c ≠ [] := by
  intro p hp s a r h
  have := (publicParsers_good p hp (s.length + 1) s (by omega)).2
  rw [h] at this
  obtain ⟨c, hc, hk⟩ := this
  exact ⟨c, hc, List.length_pos_iff.mp hk⟩

/-- The same for the generic typed-list parsers: suffix for any element parser that leaves a
suffix. -/
theorem C02_typed_list_suffix {α : Type} (p : P α) (hp : ∀ L, Good 0 L p p) (s a r) :
    (typedList p s = .ok a r → ∃ c, s = c ++ r) ∧
    (functionTypedList p s = .ok a r → ∃ c, s = c ++ r) := by
  constructor
  · intro h
    have := (Good.typedList (hp (s.length + 1)) s (by omega)).2
    rw [h] at this
    obtain ⟨c, hc, _⟩ := this
    exact ⟨c, hc⟩
  · intro h
    have := (Good.functionTypedList (hp (s.length + 1)) s (by omega)).2
    rw [h] at this
    obtain ⟨c, hc, _⟩ := this
    exact ⟨c, hc⟩

/-- A possibly empty list may consume nothing. -/
example : typedList parseName c!")x" = .ok [] c!")x" := by rfl
example : parseVariable c!"?x)" = .ok (.str c!"x") c!")" := by rfl

/-! ## C03 -/

/-- No run of 39 consecutive decimal digits occurs in the text. -/
def NoLongDigitRun (s : List Char) : Prop :=
  ∀ a ds b, s = a ++ ds ++ b → (∀ c ∈ ds, '0' ≤ c ∧ c ≤ '9') → ds.length < 39

theorem isDigit_iff (c : Char) : isDigit c = true ↔ '0' ≤ c ∧ c ≤ '9' := by
  simp only [isDigit, Bool.and_eq_true, decide_eq_true_eq, Char.le_def, UInt32.le_iff_toNat_le]
  rfl

theorem calm_of_noLongDigitRun {s : List Char} (h : NoLongDigitRun s) : Calm s := by
  intro a ds b hs hd
  have h1 := h a ds b hs fun c hc => (isDigit_iff c).mp (hd c hc)
  have h2 := decVal_lt hd
  have h3 : (10 : Nat) ^ ds.length ≤ 10 ^ 38 := Nat.pow_le_pow_right (by decide) (by omega)
  have h4 : (10 : Nat) ^ 38 < overflowBound := by decide +kernel
  exact Nat.lt_of_lt_of_le h2 (Nat.le_trans h3 (Nat.le_of_lt h4))

/-- A text in which every digit run denotes an integer that rounds to a finite `f32` never makes a
parser panic. -/
theorem C03_no_panic_calm : ∀ p ∈ publicParsers, ∀ s, Calm s → p.2 s ≠ .panic := by
  intro p hp s hc h
  have := (publicParsers_good p hp (s.length + 1) s (by omega)).2
  rw [h] at this
  exact this hc

/-- Parsing never panics on a text without a run of 39 or more digits. -/
theorem C03_no_panic : ∀ p ∈ publicParsers, ∀ s, NoLongDigitRun s → p.2 s ≠ .panic :=
  fun p hp s hs => C03_no_panic_calm p hp s (calm_of_noLongDigitRun hs)

/-- Exact threshold for one literal: `digits` or `digits.digits` followed by anything that does not
continue it panics exactly when its integer part is `(2^25-1)*2^103` or more. (The fractional part
is less than one and the threshold is an integer, so this is the same as the value reaching the
threshold.) -/
theorem C03_literal_threshold (ds fs r : List Char) (hne : ds ≠ [])
    (hd : ∀ c ∈ ds, isDec c = true) (hf : ∀ c ∈ fs, isDec c = true)
    (hr : ∀ c r', r = c :: r' → isDec c = false ∧ c ≠ '.') :
    (parseNumber (ds ++ r) = .panic ↔ (2 ^ 25 - 1) * 2 ^ 103 ≤ decVal ds) ∧
    (fs ≠ [] → (parseNumber (ds ++ '.' :: fs ++ r) = .panic ↔
      (2 ^ 25 - 1) * 2 ^ 103 ≤ decVal ds)) := by
  have hb : (2 ^ 25 - 1) * 2 ^ 103 = overflowBound := rfl
  have hres : ∀ t r', numRes (Number.new (floatOf t)) r' = .panic ↔ ¬ (floatOf t).isFinite = true := by
    intro t r'
    by_cases hfin : (floatOf t).isFinite = true
    · have : Number.new (floatOf t) = some ⟨floatOf t⟩ := by rw [Number.new, if_pos hfin]
      rw [this]; simp [numRes, hfin]
    · have : Number.new (floatOf t) = none := by rw [Number.new, if_neg hfin]
      rw [this]; simp [numRes, hfin]
  rw [hb]
  have hd : ∀ c ∈ ds, isDigit c = true := hd
  have hf : ∀ c ∈ fs, isDigit c = true := hf
  constructor
  · have hs := takeWhile_digits hd (fun c r' h => (hr c r' h).1)
    have hf0 : fracSplit r = none := by
      cases r with
      | nil => rfl
      | cons c r' => simp [fracSplit, (hr c r' rfl).2]
    have : numSplit (ds ++ r) = some (ds, r) := by
      simp only [numSplit, hs.1, hs.2, hne, if_false, hf0]
    rw [parseNumber_eq, this]
    dsimp only
    rw [hres, finite_int hd, Nat.not_lt]
  · intro hfne
    have hs := takeWhile_digits (r := '.' :: fs ++ r) hd (by
      intro c r' h; simp at h; rw [← h.1]; decide)
    have hs2 := takeWhile_digits hf (fun c r' h => (hr c r' h).1)
    have hf0 : fracSplit ('.' :: fs ++ r) = some ('.' :: fs, r) := by
      simp [fracSplit, hs2.1, hs2.2, hfne]
    have : numSplit (ds ++ '.' :: fs ++ r) = some (ds ++ '.' :: fs, r) := by
      rw [List.append_assoc]
      simp only [numSplit, hs.1, hs.2, hne, if_false, hf0]
    rw [parseNumber_eq, this]
    dsimp only
    rw [hres, finite_frac hd hf, Nat.not_lt]

/-- The bound is sharp: 39 digits can panic. -/
theorem C03_panics : parseNumber (List.replicate 39 '9') = .panic := by
  have := (C03_literal_threshold (List.replicate 39 '9') [] [] (by decide) (by decide) (by simp)
    (by simp)).1
  rw [List.append_nil] at this
  exact this.mpr (by decide +kernel)

example : parseNumber c!"12.50)" = .ok ⟨⟨0x41480000⟩⟩ c!")" := by decide +kernel
example : NoLongDigitRun c!"(= (f) 12)" := by
  intro a ds b h _
  have := congrArg List.length h
  simp at this
  omega

end Pddl
