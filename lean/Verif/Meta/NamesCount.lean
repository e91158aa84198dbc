import Verif.Meta.NamesAll
import Verif.Work.Parsers

/-!
# Meta-theory: names and steps

For every parser: the number of texts that a call makes into names is at most the number of steps
that `Verif/Work/` counts for it.
-/

namespace Pddl

/-- The two parsers have the same outcomes, and there are no more names than steps. -/
def Fewer (p : N.P α) (q : K.P α) : Prop := p.run = q.run ∧ ∀ s, (p.made s).length ≤ q.cost s

namespace Fewer

theorem next {p : P α} {f : List Char → List (List Char)} {g : List Char → Nat}
    (h : ∀ s, (f s).length ≤ g s) (s : List Char) : ((p s).thenMade f).length ≤ (p s).after g := by
  cases p s with
  | ok a r => exact h r
  | _ => exact Nat.le_refl _

theorem both {l l' : List (List Char)} {m n : Nat} (h : l.length ≤ m) (h' : l'.length ≤ n) :
    (l ++ l').length ≤ m + n := by
  rw [List.length_append]
  exact Nat.add_le_add h h'

theorem map {f : α → β} {p : N.P α} {q : K.P α} (h : Fewer p q) : Fewer (N.map f p) (K.map f q) :=
  ⟨congrArg (Pddl.map f) h.1, h.2⟩
theorem mapExpect {f : α → Option β} {p : N.P α} {q : K.P α} (h : Fewer p q) :
    Fewer (N.mapExpect f p) (K.mapExpect f q) := ⟨congrArg (Pddl.mapExpect f) h.1, h.2⟩
theorem value {b : β} {p : N.P α} {q : K.P α} (h : Fewer p q) : Fewer (N.value b p) (K.value b q) :=
  ⟨congrArg (Pddl.value b) h.1, h.2⟩
theorem opt {p : N.P α} {q : K.P α} (h : Fewer p q) : Fewer (N.opt p) (K.opt q) :=
  ⟨congrArg Pddl.opt h.1, h.2⟩
theorem recognize {p : N.P α} {q : K.P α} (h : Fewer p q) : Fewer (N.recognize p) (K.recognize q) :=
  ⟨congrArg Pddl.recognize h.1, h.2⟩
theorem many01 {p : N.P α} {q : K.P α} (h : Fewer p q) : Fewer (N.many01 p) (K.many01 q) :=
  ⟨congrArg Pddl.many01 h.1, h.2⟩
theorem pair {p : N.P α} {q : K.P α} {p' : N.P β} {q' : K.P β} (h : Fewer p q) (h' : Fewer p' q') :
    Fewer (N.pair p p') (K.pair q q') := by
  refine ⟨?_, fun s => both (h.2 s) ?_⟩
  · show Pddl.pair _ _ = Pddl.pair _ _
    rw [h.1, h'.1]
  · rw [h.1]
    exact next h'.2 s
theorem preceded {p : N.P α} {q : K.P α} {p' : N.P β} {q' : K.P β} (h : Fewer p q) (h' : Fewer p' q') :
    Fewer (N.preceded p p') (K.preceded q q') := by
  refine ⟨?_, fun s => both (h.2 s) ?_⟩
  · show Pddl.preceded _ _ = Pddl.preceded _ _
    rw [h.1, h'.1]
  · rw [h.1]
    exact next h'.2 s
theorem terminated {p : N.P α} {q : K.P α} {p' : N.P β} {q' : K.P β} (h : Fewer p q) (h' : Fewer p' q') :
    Fewer (N.terminated p p') (K.terminated q q') := by
  refine ⟨?_, fun s => both (h.2 s) ?_⟩
  · show Pddl.terminated _ _ = Pddl.terminated _ _
    rw [h.1, h'.1]
  · rw [h.1]
    exact next h'.2 s
theorem delimited {p : N.P α} {q : K.P α} {p' : N.P β} {q' : K.P β} {p'' : N.P γ} {q'' : K.P γ}
    (h : Fewer p q) (h' : Fewer p' q') (h'' : Fewer p'' q'') :
    Fewer (N.delimited p p' p'') (K.delimited q q' q'') := preceded h (terminated h' h'')
theorem alt_nil : Fewer (N.alt ([] : List (N.P α))) (K.alt []) := ⟨rfl, fun _ => Nat.le_refl _⟩
theorem alt_cons {p : N.P α} {q : K.P α} {ps : List (N.P α)} {qs : List (K.P α)} (h : Fewer p q)
    (h' : Fewer (N.alt ps) (K.alt qs)) : Fewer (N.alt (p :: ps)) (K.alt (q :: qs)) := by
  constructor
  · funext s
    have h1 : Pddl.alt (ps.map N.P.run) s = Pddl.alt (qs.map K.P.run) s := congrFun h'.1 s
    show Pddl.alt (p.run :: ps.map N.P.run) s = Pddl.alt (q.run :: qs.map K.P.run) s
    rw [h.1]
    simp only [Pddl.alt]
    rw [h1]
  · intro s
    refine both (h.2 s) ?_
    rw [h.1]
    cases q.run s with
    | err => exact h'.2 s
    | _ => exact Nat.le_refl _
theorem alt_one {p : N.P α} {q : K.P α} (h : Fewer p q) : Fewer (N.alt [p]) (K.alt [q]) :=
  alt_cons h alt_nil
theorem tag {t : List Char} : Fewer (N.tag t) (K.tag t) := ⟨rfl, fun _ => Nat.zero_le _⟩
theorem alt_tags : ∀ ks : List (List Char), Fewer (N.alt (ks.map N.tag)) (K.alt (ks.map K.tag))
  | [] => alt_nil
  | _ :: ks => alt_cons tag (alt_tags ks)
theorem many0 {p : N.P α} {q : K.P α} (h : Fewer p q) : Fewer (N.many0 p) (K.many0 q) := by
  refine ⟨congrArg Pddl.many0 h.1, fun s => ?_⟩
  show (N.many0Made p (s.length + 1) s).length ≤ K.many0Cost q (s.length + 1) s
  generalize s.length + 1 = n
  induction n generalizing s with
  | zero => exact Nat.le_refl _
  | succ n ih =>
    refine both (h.2 s) ?_
    rw [h.1]
    refine next (fun r => ?_) s
    split
    · exact Nat.le_refl _
    · exact ih r
theorem sepLoop {p : N.P α} {q : K.P α} {p' : N.P β} {q' : K.P β} (h : Fewer p q) (h' : Fewer p' q')
    (n : Nat) : ∀ s, (N.sepMade p p' n s).length ≤ K.sepCost q q' n s := by
  induction n with
  | zero => exact fun _ => Nat.le_refl _
  | succ n ih =>
    intro s
    refine both (h.2 s) ?_
    rw [h.1]
    refine next (fun r => ?_) s
    split
    · exact Nat.le_refl _
    · refine both (h'.2 r) ?_
      rw [h'.1]
      exact next ih r
theorem sepList0 {p : N.P α} {q : K.P α} {p' : N.P β} {q' : K.P β} (h : Fewer p q) (h' : Fewer p' q') :
    Fewer (N.sepList0 p p') (K.sepList0 q q') := by
  refine ⟨?_, fun s => both (h'.2 s) ?_⟩
  · show Pddl.sepList0 _ _ = Pddl.sepList0 _ _
    rw [h.1, h'.1]
  · rw [h'.1]
    exact next (fun r => sepLoop h h' _ r) s
theorem sepList1 {p : N.P α} {q : K.P α} {p' : N.P β} {q' : K.P β} (h : Fewer p q) (h' : Fewer p' q') :
    Fewer (N.sepList1 p p') (K.sepList1 q q') := by
  refine ⟨?_, fun s => both (h'.2 s) ?_⟩
  · show Pddl.sepList1 _ _ = Pddl.sepList1 _ _
    rw [h.1, h'.1]
  · rw [h'.1]
    exact next (fun r => sepLoop h h' _ r) s
theorem char {c : Char} : Fewer (N.char c) (K.char c) := ⟨rfl, fun _ => Nat.zero_le _⟩
theorem multispace0 : Fewer N.multispace0 K.multispace0 := ⟨rfl, fun _ => Nat.zero_le _⟩
theorem multispace1 : Fewer N.multispace1 K.multispace1 := ⟨rfl, fun _ => Nat.zero_le _⟩
theorem alpha1 : Fewer N.alpha1 K.alpha1 := ⟨rfl, fun _ => Nat.zero_le _⟩
theorem digit1 : Fewer N.digit1 K.digit1 := ⟨rfl, fun _ => Nat.zero_le _⟩
theorem isNot {cs : List Char} : Fewer (N.isNot cs) (K.isNot cs) := ⟨rfl, fun _ => Nat.zero_le _⟩
theorem u64 : Fewer N.u64 K.u64 := ⟨rfl, fun _ => Nat.zero_le _⟩
theorem ifOk {p : N.P α} {q : K.P α} {f : α → β} {k : N.P β} {k' : K.P β} (h : Fewer p q)
    (h' : Fewer k k') : Fewer (N.ifOk p f k) (K.ifOk q f k') := by
  refine ⟨?_, fun s => both (h.2 s) ?_⟩
  · show Pddl.ifOk _ _ _ = Pddl.ifOk _ _ _
    rw [h.1, h'.1]
  · rw [h.1]
    cases q.run s with
    | err | fail => exact h'.2 s
    | _ => exact Nat.le_refl _
theorem failure : Fewer (N.failure : N.P α) K.failure := ⟨rfl, fun _ => Nat.zero_le _⟩
theorem error : Fewer (N.error : N.P α) K.error := ⟨rfl, fun _ => Nat.zero_le _⟩

theorem fixF {b : N.P α → N.P α} {c : K.P α → K.P α} (h : ∀ p q, Fewer p q → Fewer (b p) (c q)) :
    ∀ n, Fewer (N.fixF b n) (K.fixF c n)
  | 0 => ⟨rfl, fun _ => Nat.le_refl _⟩
  | n + 1 => ⟨(h _ _ (fixF h n)).1, fun s =>
    Nat.le_trans ((h _ _ (fixF h n)).2 s) (Nat.le_add_left _ 1)⟩
theorem fix {b : N.P α → N.P α} {c : K.P α → K.P α} (h : ∀ p q, Fewer p q → Fewer (b p) (c q)) :
    Fewer (N.fix b) (K.fix c) :=
  ⟨funext fun s => congrFun (fixF h (s.length + 1)).1 s, fun s => (fixF h (s.length + 1)).2 s⟩

/-- A name is made by a call that takes at least a step and makes no names itself. -/
theorem new {p : N.P (List Char)} {q : K.P (List Char)} (h : Fewer p q) (hn : ∀ s, p.made s = [])
    (hq : ∀ s, 1 ≤ q.cost s) : Fewer (N.new p) (K.map Name.new q) := by
  refine ⟨congrArg (Pddl.map Name.new) h.1, fun s => ?_⟩
  show (p.made s ++ _).length ≤ q.cost s
  rw [hn s, List.nil_append]
  refine Nat.le_trans ?_ (hq s)
  cases p.run s <;> simp

end Fewer

theorem ignoreEolComment_fewer : Fewer N.ignoreEolComment K.ignoreEolComment := .fix fun _ _ h => by
  unfold N.ignoreEolCommentBody K.ignoreEolCommentBody
  made

namespace Fewer
theorem ws {p : N.P α} {q : K.P α} (h : Fewer p q) : Fewer (N.ws p) (K.ws q) :=
  preceded (preceded multispace0 ignoreEolComment_fewer) h
theorem ws2 {p : N.P α} {q : K.P α} (h : Fewer p q) : Fewer (N.ws2 p) (K.ws2 q) :=
  delimited (preceded multispace0 ignoreEolComment_fewer) h
    (preceded multispace0 ignoreEolComment_fewer)
theorem prefixExpr {kw : List Char} {p : N.P α} {q : K.P α} (h : Fewer p q) :
    Fewer (N.prefixExpr kw p) (K.prefixExpr kw q) :=
  delimited (preceded (ws tag) tag) (ws h) (ws tag)
theorem spaceSeparatedList0 {p : N.P α} {q : K.P α} (h : Fewer p q) :
    Fewer (N.spaceSeparatedList0 p) (K.spaceSeparatedList0 q) :=
  ws (sepList0 multispace1 (preceded ignoreEolComment_fewer h))
theorem spaceSeparatedList1 {p : N.P α} {q : K.P α} (h : Fewer p q) :
    Fewer (N.spaceSeparatedList1 p) (K.spaceSeparatedList1 q) :=
  ws (sepList1 multispace1 (preceded ignoreEolComment_fewer h))
theorem parens {p : N.P α} {q : K.P α} (h : Fewer p q) : Fewer (N.parens p) (K.parens q) :=
  preceded ignoreEolComment_fewer (delimited char (ws h) char)
theorem emptyOr {p : N.P α} {q : K.P α} (h : Fewer p q) : Fewer (N.emptyOr p) (K.emptyOr q) :=
  alt_cons (.map tag) (alt_one (.map h))
end Fewer

theorem parseAnyChar_fewer : Fewer N.parseAnyChar K.parseAnyChar := by
  unfold N.parseAnyChar K.parseAnyChar
  made

theorem parseObject_fewer : Fewer N.parseObject K.parseObject :=
  .new .tag (fun _ => rfl) fun _ => Nat.le_add_right 1 _

/-- The parser makes no names. -/
def Silent (p : N.P α) : Prop := ∀ s, p.made s = []

namespace Silent
theorem next {x : Res α} {f : List Char → List (List Char)} (h : ∀ r, f r = []) : x.thenMade f = [] := by
  cases x with
  | ok a r => exact h r
  | _ => rfl
theorem value {b : β} {p : N.P α} (h : Silent p) : Silent (N.value b p) := h
theorem opt {p : N.P α} (h : Silent p) : Silent (N.opt p) := h
theorem recognize {p : N.P α} (h : Silent p) : Silent (N.recognize p) := h
theorem pair {p : N.P α} {q : N.P β} (h : Silent p) (h' : Silent q) : Silent (N.pair p q) := fun s => by
  show p.made s ++ _ = []
  rw [h s, next h']
  rfl
theorem preceded {p : N.P α} {q : N.P β} (h : Silent p) (h' : Silent q) : Silent (N.preceded p q) :=
  pair h h'
theorem terminated {p : N.P α} {q : N.P β} (h : Silent p) (h' : Silent q) : Silent (N.terminated p q) :=
  pair h h'
theorem alt_nil : Silent (N.alt ([] : List (N.P α))) := fun _ => rfl
theorem alt_cons {p : N.P α} {ps : List (N.P α)} (h : Silent p) (h' : Silent (N.alt ps)) :
    Silent (N.alt (p :: ps)) := fun s => by
  show p.made s ++ (p.run s).elseMade (N.altMade ps s) = []
  rw [h s, show N.altMade ps s = [] from h' s]
  cases p.run s <;> rfl
theorem alt_one {p : N.P α} (h : Silent p) : Silent (N.alt [p]) := alt_cons h alt_nil
theorem many0 {p : N.P α} (h : Silent p) : Silent (N.many0 p) := fun s => by
  show N.many0Made p (s.length + 1) s = []
  generalize s.length + 1 = n
  induction n generalizing s with
  | zero => rfl
  | succ n ih =>
    show p.made s ++ _ = []
    rw [h s, next fun r => ?_]
    · rfl
    · split
      · rfl
      · exact ih r
theorem tag {t : List Char} : Silent (N.tag t) := fun _ => rfl
theorem char {c : Char} : Silent (N.char c) := fun _ => rfl
theorem multispace0 : Silent N.multispace0 := fun _ => rfl
theorem alpha1 : Silent N.alpha1 := fun _ => rfl
theorem digit1 : Silent N.digit1 := fun _ => rfl
theorem isNot {cs : List Char} : Silent (N.isNot cs) := fun _ => rfl
theorem fixF {b : N.P α → N.P α} (h : ∀ p, Silent p → Silent (b p)) : ∀ n, Silent (N.fixF b n)
  | 0 => fun _ => rfl
  | n + 1 => h _ (fixF h n)
theorem fix {b : N.P α → N.P α} (h : ∀ p, Silent p → Silent (b p)) : Silent (N.fix b) :=
  fun s => fixF h (s.length + 1) s
end Silent

theorem ignoreEolComment_silent : Silent N.ignoreEolComment := .fix fun _ h => by
  unfold N.ignoreEolCommentBody
  made

theorem parseAnyChar_silent : Silent N.parseAnyChar := by
  unfold N.parseAnyChar
  made

theorem parseName_fewer : Fewer N.parseName K.parseName := by
  refine .new (by made) ?_ fun s => ?_
  · have h : Silent (N.ws (N.recognize (N.pair N.alpha1 (N.many0 N.parseAnyChar)))) := by
      unfold N.ws
      made
    exact h
  · show 1 ≤ ((1 + _) + _) + _
    omega

theorem parseVariable_fewer : Fewer N.parseVariable K.parseVariable := by
  unfold N.parseVariable K.parseVariable
  made

theorem parsePredicate_fewer : Fewer N.parsePredicate K.parsePredicate := by
  unfold N.parsePredicate K.parsePredicate
  made

theorem parseFunctionSymbol_fewer : Fewer N.parseFunctionSymbol K.parseFunctionSymbol := by
  unfold N.parseFunctionSymbol K.parseFunctionSymbol
  made

theorem parseActionSymbol_fewer : Fewer N.parseActionSymbol K.parseActionSymbol := by
  unfold N.parseActionSymbol K.parseActionSymbol
  made

theorem parseDaSymbol_fewer : Fewer N.parseDaSymbol K.parseDaSymbol := by
  unfold N.parseDaSymbol K.parseDaSymbol
  made

theorem parsePrefName_fewer : Fewer N.parsePrefName K.parsePrefName := by
  unfold N.parsePrefName K.parsePrefName
  made

theorem parseDecimal_fewer : Fewer N.parseDecimal K.parseDecimal := by
  unfold N.parseDecimal K.parseDecimal
  made

theorem parseNumber_fewer : Fewer N.parseNumber K.parseNumber := by
  unfold N.parseNumber K.parseNumber
  made

theorem parsePrimitiveType_fewer : Fewer N.parsePrimitiveType K.parsePrimitiveType := by
  unfold N.parsePrimitiveType K.parsePrimitiveType
  made

theorem parseEitherType_fewer : Fewer N.parseEitherType K.parseEitherType := by
  unfold N.parseEitherType K.parseEitherType
  made

theorem parseType_fewer : Fewer N.parseType K.parseType := by
  unfold N.parseType K.parseType
  made

theorem Fewer.explicitlyTyped {p : N.P α} {q : K.P α} (h : Fewer p q) : Fewer (N.explicitlyTyped p) (K.explicitlyTyped q) := by
  unfold N.explicitlyTyped K.explicitlyTyped
  made

theorem Fewer.typedList {p : N.P α} {q : K.P α} (h : Fewer p q) : Fewer (N.typedList p) (K.typedList q) := by
  unfold N.typedList K.typedList
  made

theorem Fewer.functionTypedList {p : N.P α} {q : K.P α} (h : Fewer p q) : Fewer (N.functionTypedList p) (K.functionTypedList q) := by
  unfold N.functionTypedList K.functionTypedList
  made

theorem parseFunctionType_fewer : Fewer N.parseFunctionType K.parseFunctionType := by
  unfold N.parseFunctionType K.parseFunctionType
  made

theorem Fewer.functionTermOf {p : N.P Term} {q : K.P Term} (h : Fewer p q) : Fewer (N.functionTermOf p) (K.functionTermOf q) := by
  unfold N.functionTermOf K.functionTermOf
  made

theorem parseTerm_fewer : Fewer N.parseTerm K.parseTerm := .fix fun _ _ h => by
  unfold N.termBody K.termBody
  made

theorem parseFunctionTerm_fewer : Fewer N.parseFunctionTerm K.parseFunctionTerm := by
  unfold N.parseFunctionTerm K.parseFunctionTerm
  made

theorem Fewer.atomicFormula {p : N.P α} {q : K.P α} (h : Fewer p q) : Fewer (N.atomicFormula p) (K.atomicFormula q) := by
  unfold N.atomicFormula K.atomicFormula
  made

theorem Fewer.literal {p : N.P α} {q : K.P α} (h : Fewer p q) : Fewer (N.literal p) (K.literal q) := by
  unfold N.literal K.literal
  made

theorem parseAtomicFormulaSkeleton_fewer : Fewer N.parseAtomicFormulaSkeleton K.parseAtomicFormulaSkeleton := by
  unfold N.parseAtomicFormulaSkeleton K.parseAtomicFormulaSkeleton
  made

theorem parseAtomicFunctionSkeleton_fewer : Fewer N.parseAtomicFunctionSkeleton K.parseAtomicFunctionSkeleton := by
  unfold N.parseAtomicFunctionSkeleton K.parseAtomicFunctionSkeleton
  made

theorem parseBasicFunctionTerm_fewer : Fewer N.parseBasicFunctionTerm K.parseBasicFunctionTerm := by
  unfold N.parseBasicFunctionTerm K.parseBasicFunctionTerm
  made

theorem parseFHead_fewer : Fewer N.parseFHead K.parseFHead := by
  unfold N.parseFHead K.parseFHead
  made

theorem parseMultiOp_fewer : Fewer N.parseMultiOp K.parseMultiOp := by
  unfold N.parseMultiOp K.parseMultiOp
  made

theorem parseBinaryOp_fewer : Fewer N.parseBinaryOp K.parseBinaryOp := by
  unfold N.parseBinaryOp K.parseBinaryOp
  made

theorem parseBinaryComp_fewer : Fewer N.parseBinaryComp K.parseBinaryComp := by
  unfold N.parseBinaryComp K.parseBinaryComp
  made

theorem parseAssignOp_fewer : Fewer N.parseAssignOp K.parseAssignOp := by
  unfold N.parseAssignOp K.parseAssignOp
  made

theorem parseAssignOpT_fewer : Fewer N.parseAssignOpT K.parseAssignOpT := by
  unfold N.parseAssignOpT K.parseAssignOpT
  made

theorem parseDOp_fewer : Fewer N.parseDOp K.parseDOp := by
  unfold N.parseDOp K.parseDOp
  made

theorem parseOptimization_fewer : Fewer N.parseOptimization K.parseOptimization := by
  unfold N.parseOptimization K.parseOptimization
  made

theorem parseTimeSpecifier_fewer : Fewer N.parseTimeSpecifier K.parseTimeSpecifier := by
  unfold N.parseTimeSpecifier K.parseTimeSpecifier
  made

theorem parseInterval_fewer : Fewer N.parseInterval K.parseInterval := by
  unfold N.parseInterval K.parseInterval
  made

theorem parseFExp_fewer : Fewer N.parseFExp K.parseFExp := .fix fun _ _ h => by
  unfold N.fExpBody K.fExpBody
  made

theorem parseFComp_fewer : Fewer N.parseFComp K.parseFComp := by
  unfold N.parseFComp K.parseFComp
  made

theorem parseVarList_fewer : Fewer N.parseVarList K.parseVarList := by
  unfold N.parseVarList K.parseVarList
  made

theorem parseGd_fewer : Fewer N.parseGd K.parseGd := .fix fun _ _ h => by
  unfold N.gdBody K.gdBody
  made

theorem parsePrefGd_fewer : Fewer N.parsePrefGd K.parsePrefGd := by
  unfold N.parsePrefGd K.parsePrefGd
  made

theorem parsePreGd_fewer : Fewer N.parsePreGd K.parsePreGd := .fix fun _ _ h => by
  unfold N.preGdBody K.preGdBody
  made

theorem parseProblemGoalDef_fewer : Fewer N.parseProblemGoalDef K.parseProblemGoalDef := by
  unfold N.parseProblemGoalDef K.parseProblemGoalDef
  made

theorem Fewer.con2Of {p : N.P ConGD} {q : K.P ConGD} (h : Fewer p q) : Fewer (N.con2Of p) (K.con2Of q) := by
  unfold N.con2Of K.con2Of
  made

theorem parseConGd_fewer : Fewer N.parseConGd K.parseConGd := .fix fun _ _ h => by
  unfold N.conGdBody K.conGdBody
  made

theorem parseCon2Gd_fewer : Fewer N.parseCon2Gd K.parseCon2Gd := by
  unfold N.parseCon2Gd K.parseCon2Gd
  made

theorem parsePrefConGd_fewer : Fewer N.parsePrefConGd K.parsePrefConGd := .fix fun _ _ h => by
  unfold N.prefConGdBody K.prefConGdBody
  made

theorem parseDomainConstraintsDef_fewer : Fewer N.parseDomainConstraintsDef K.parseDomainConstraintsDef := by
  unfold N.parseDomainConstraintsDef K.parseDomainConstraintsDef
  made

theorem parseProblemConstraintsDef_fewer : Fewer N.parseProblemConstraintsDef K.parseProblemConstraintsDef := by
  unfold N.parseProblemConstraintsDef K.parseProblemConstraintsDef
  made

theorem parsePEffect_fewer : Fewer N.parsePEffect K.parsePEffect := by
  unfold N.parsePEffect K.parsePEffect
  made

theorem parseCondEffect_fewer : Fewer N.parseCondEffect K.parseCondEffect := by
  unfold N.parseCondEffect K.parseCondEffect
  made

theorem Fewer.effectOf {p : N.P CEffect} {q : K.P CEffect} (h : Fewer p q) : Fewer (N.effectOf p) (K.effectOf q) := by
  unfold N.effectOf K.effectOf
  made

theorem Fewer.forallCEffectOf {p : N.P CEffect} {q : K.P CEffect} (h : Fewer p q) : Fewer (N.forallCEffectOf p) (K.forallCEffectOf q) := by
  unfold N.forallCEffectOf K.forallCEffectOf
  made

theorem parseWhenCEffect_fewer : Fewer N.parseWhenCEffect K.parseWhenCEffect := by
  unfold N.parseWhenCEffect K.parseWhenCEffect
  made

theorem parseCEffect_fewer : Fewer N.parseCEffect K.parseCEffect := .fix fun _ _ h => by
  unfold N.cEffectBody K.cEffectBody
  made

theorem parseEffect_fewer : Fewer N.parseEffect K.parseEffect := by
  unfold N.parseEffect K.parseEffect
  made

theorem parseForallCEffect_fewer : Fewer N.parseForallCEffect K.parseForallCEffect := by
  unfold N.parseForallCEffect K.parseForallCEffect
  made

theorem parseParameters_fewer : Fewer N.parseParameters K.parseParameters := by
  unfold N.parseParameters K.parseParameters
  made

theorem parseActionDef_fewer : Fewer N.parseActionDef K.parseActionDef := by
  unfold N.parseActionDef K.parseActionDef
  made

theorem parseDerivedPredicate_fewer : Fewer N.parseDerivedPredicate K.parseDerivedPredicate := by
  unfold N.parseDerivedPredicate K.parseDerivedPredicate
  made

theorem parseTimedGd_fewer : Fewer N.parseTimedGd K.parseTimedGd := by
  unfold N.parseTimedGd K.parseTimedGd
  made

theorem parsePrefTimedGd_fewer : Fewer N.parsePrefTimedGd K.parsePrefTimedGd := by
  unfold N.parsePrefTimedGd K.parsePrefTimedGd
  made

theorem parseDaGd_fewer : Fewer N.parseDaGd K.parseDaGd := .fix fun _ _ h => by
  unfold N.daGdBody K.daGdBody
  made

theorem parseFExpDa_fewer : Fewer N.parseFExpDa K.parseFExpDa := .fix fun _ _ h => by
  unfold N.fExpDaBody K.fExpDaBody
  made

theorem parseFAssignDa_fewer : Fewer N.parseFAssignDa K.parseFAssignDa := by
  unfold N.parseFAssignDa K.parseFAssignDa
  made

theorem parseFExpT_fewer : Fewer N.parseFExpT K.parseFExpT := by
  unfold N.parseFExpT K.parseFExpT
  made

theorem parseTimedEffect_fewer : Fewer N.parseTimedEffect K.parseTimedEffect := by
  unfold N.parseTimedEffect K.parseTimedEffect
  made

theorem parseDaEffect_fewer : Fewer N.parseDaEffect K.parseDaEffect := .fix fun _ _ h => by
  unfold N.daEffectBody K.daEffectBody
  made

theorem parseDValue_fewer : Fewer N.parseDValue K.parseDValue := by
  unfold N.parseDValue K.parseDValue
  made

theorem parseSimpleDuration_fewer : Fewer N.parseSimpleDuration K.parseSimpleDuration := .fix fun _ _ h => by
  unfold N.simpleDurationBody K.simpleDurationBody
  made

theorem parseDurationConstraint_fewer : Fewer N.parseDurationConstraint K.parseDurationConstraint := by
  unfold N.parseDurationConstraint K.parseDurationConstraint
  made

theorem parseDaDef_fewer : Fewer N.parseDaDef K.parseDaDef := by
  unfold N.parseDaDef K.parseDaDef
  made

theorem parseStructureDef_fewer : Fewer N.parseStructureDef K.parseStructureDef := by
  unfold N.parseStructureDef K.parseStructureDef
  made

theorem parseRequireKey_fewer : Fewer N.parseRequireKey K.parseRequireKey := .mapExpect (.alt_tags requireTags)

theorem parseRequireDef_fewer : Fewer N.parseRequireDef K.parseRequireDef := by
  unfold N.parseRequireDef K.parseRequireDef
  made

theorem parseTypesDef_fewer : Fewer N.parseTypesDef K.parseTypesDef := by
  unfold N.parseTypesDef K.parseTypesDef
  made

theorem parseConstantsDef_fewer : Fewer N.parseConstantsDef K.parseConstantsDef := by
  unfold N.parseConstantsDef K.parseConstantsDef
  made

theorem parseProblemObjectsDeclaration_fewer : Fewer N.parseProblemObjectsDeclaration K.parseProblemObjectsDeclaration := by
  unfold N.parseProblemObjectsDeclaration K.parseProblemObjectsDeclaration
  made

theorem parsePredicatesDef_fewer : Fewer N.parsePredicatesDef K.parsePredicatesDef := by
  unfold N.parsePredicatesDef K.parsePredicatesDef
  made

theorem parseFunctionsDef_fewer : Fewer N.parseFunctionsDef K.parseFunctionsDef := by
  unfold N.parseFunctionsDef K.parseFunctionsDef
  made

theorem parseTimelessDef_fewer : Fewer N.parseTimelessDef K.parseTimelessDef := by
  unfold N.parseTimelessDef K.parseTimelessDef
  made

theorem parseInitEl_fewer : Fewer N.parseInitEl K.parseInitEl := by
  unfold N.parseInitEl K.parseInitEl
  made

theorem parseProblemInitDef_fewer : Fewer N.parseProblemInitDef K.parseProblemInitDef := by
  unfold N.parseProblemInitDef K.parseProblemInitDef
  made

theorem parseProblemLengthSpec_fewer : Fewer N.parseProblemLengthSpec K.parseProblemLengthSpec := by
  unfold N.parseProblemLengthSpec K.parseProblemLengthSpec
  made

theorem parseMetricFExp_fewer : Fewer N.parseMetricFExp K.parseMetricFExp := .fix fun _ _ h => by
  unfold N.metricFExpBody K.metricFExpBody
  made

theorem parseProblemMetricSpec_fewer : Fewer N.parseProblemMetricSpec K.parseProblemMetricSpec := by
  unfold N.parseProblemMetricSpec K.parseProblemMetricSpec
  made

theorem domainParts_fewer : Fewer N.domainParts K.domainParts := by
  unfold N.domainParts K.domainParts
  made

theorem parseDomain_fewer : Fewer N.parseDomain K.parseDomain := by
  unfold N.parseDomain K.parseDomain
  made

theorem problemParts_fewer : Fewer N.problemParts K.problemParts := by
  unfold N.problemParts K.problemParts
  made

theorem parseProblem_fewer : Fewer N.parseProblem K.parseProblem := by
  unfold N.parseProblem K.parseProblem
  made

end Pddl
