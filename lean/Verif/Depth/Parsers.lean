import Verif.Depth.Nom
import Verif.Parsers

/-!
# The parsers of `/repo/src/parsers` with the depth of recursion below them

The same definitions as in `Verif/Parsers.lean`, over the combinators of `Verif/Depth/Nom.lean`.
`Verif/Meta/DepthRun.lean` proves that their outcomes are those of `Verif/Parsers.lean`.
-/

namespace Pddl.D
open Pddl

/-- Recursion with a depth budget. -/
def fixF (body : P α → P α) : Nat → P α
  | 0 => ⟨fun _ => .oof, fun _ => 0⟩
  | n + 1 => ⟨(body (fixF body n)).run, fun s => 1 + (body (fixF body n)).depth s⟩

/-- A recursive parser, see `Pddl.fix`. A call is one level above its body. -/
def fix (body : P α → P α) : P α :=
  ⟨fun s => (fixF body (s.length + 1)).run s, fun s => (fixF body (s.length + 1)).depth s⟩

/-! ## Layout, `/repo/src/parsers/comments.rs` and `/repo/src/parsers/utilities.rs` -/

/-- Body of `ignore_eol_comment`, `/repo/src/parsers/comments.rs:34-42`. -/
def ignoreEolCommentBody (self : P Unit) : P Unit :=
  value () (opt (terminated (pair (char ';') (isNot ['\r', '\n'])) (pair multispace0 (opt self))))

/-- `ignore_eol_comment`, `/repo/src/parsers/comments.rs:34-42`. -/
def ignoreEolComment : P Unit := fix ignoreEolCommentBody

/-- `ws`, `/repo/src/parsers/utilities.rs:23-28`. -/
def ws (p : P α) : P α := preceded (preceded multispace0 ignoreEolComment) p

/-- `ws2`, `/repo/src/parsers/utilities.rs:34-43`. -/
def ws2 (p : P α) : P α :=
  delimited (preceded multispace0 ignoreEolComment) p (preceded multispace0 ignoreEolComment)

/-- `prefix_expr`, `/repo/src/parsers/utilities.rs:12-17`. -/
def prefixExpr (name : List Char) (p : P α) : P α :=
  delimited (preceded (ws (tag c!"(")) (tag name)) (ws p) (ws (tag c!")"))

/-- `space_separated_list0`, `/repo/src/parsers/utilities.rs:48-56`. -/
def spaceSeparatedList0 (p : P α) : P (List α) :=
  ws (sepList0 multispace1 (preceded ignoreEolComment p))

/-- `space_separated_list1`, `/repo/src/parsers/utilities.rs:60-68`. -/
def spaceSeparatedList1 (p : P α) : P (List α) :=
  ws (sepList1 multispace1 (preceded ignoreEolComment p))

/-- `parens`, `/repo/src/parsers/utilities.rs:72-80`. -/
def parens (p : P α) : P α :=
  preceded ignoreEolComment (delimited (char '(') (ws p) (char ')'))

/-- `empty_or`, `/repo/src/parsers/empty_or.rs:23-33`. -/
def emptyOr (p : P α) : P (Option α) :=
  alt [map (fun _ => none) (tag c!"()"), map some p]

/-! ## Names, numbers, types -/

/-- `parse_any_char`, `/repo/src/parsers/name.rs:36-38`. -/
def parseAnyChar : P (List Char) := recognize (alt [alpha1, digit1, tag c!"-", tag c!"_"])

/-- `parse_name`, `/repo/src/parsers/name.rs:28-33`. -/
def parseName : P Name := map Name.new (ws (recognize (pair alpha1 (many0 parseAnyChar))))

/-- `parse_variable`, `/repo/src/parsers/variable.rs:24-26`. -/
def parseVariable : P Name := preceded (tag c!"?") parseName

/-- `parse_predicate`, `/repo/src/parsers/predicate.rs:23-25`. -/
def parsePredicate : P Name := parseName

/-- `parse_function_symbol`, `/repo/src/parsers/function_symbol.rs:23-25`. -/
def parseFunctionSymbol : P Name := parseName

/-- `parse_action_symbol`, `/repo/src/parsers/action_symbol.rs:24-26`. -/
def parseActionSymbol : P Name := parseName

/-- `parse_da_symbol`, `/repo/src/parsers/da_symbol.rs:14-16`. -/
def parseDaSymbol : P Name := parseName

/-- `parse_pref_name`, `/repo/src/parsers/pref_name.rs:13-15`. -/
def parsePrefName : P Name := parseName

/-- `parse_decimal`, `/repo/src/parsers/number.rs:34-36`. -/
def parseDecimal : P (List Char) := recognize (pair (char '.') digit1)

/-- `parse_number`, `/repo/src/parsers/number.rs:27-31`. -/
def parseNumber : P Number :=
  mapExpect (fun t => Number.new (floatOf t)) (recognize (pair digit1 (many01 parseDecimal)))

/-- `parse_object`, `/repo/src/parsers/primitive_type.rs:24-26`. -/
def parseObject : P Name := map Name.new (tag c!"object")

/-- `parse_primitive_type`, `/repo/src/parsers/primitive_type.rs:20-22`. -/
def parsePrimitiveType : P Name := alt [parseObject, parseName]

/-- `parse_either_type`, `/repo/src/parsers/type.rs:33-35`. -/
def parseEitherType : P (List Name) :=
  prefixExpr c!"either" (spaceSeparatedList1 parsePrimitiveType)

/-- Rust's `if let Ok((rest, x)) = p(input) { return Ok((rest, f(x))); }` followed by `k`:
both kinds of error fall through. -/
def ifOk (p : P α) (f : α → β) (k : P β) : P β :=
  ⟨Pddl.ifOk p.run f k.run, fun s => max (p.depth s) ((p.run s).onError (k.depth s))⟩

/-- `Err(nom::Err::Failure(..))`. -/
def failure : P α := ⟨fun _ => .fail, fun _ => 0⟩

/-- `Err(nom::Err::Error(..))`. -/
def error : P α := ⟨fun _ => .err, fun _ => 0⟩

/-- `parse_type`, `/repo/src/parsers/type.rs:18-30`. -/
def parseType : P Ty :=
  ifOk parsePrimitiveType Ty.exactly (ifOk parseEitherType Ty.eitherOf failure)

/-- `parse_function_type`, `/repo/src/parsers/function_type.rs:17-19`. -/
def parseFunctionType : P Ty := parseType

/-- `explicitly_typed` in `/repo/src/parsers/typed_list.rs:57-67`. -/
def explicitlyTyped (inner : P α) : P (TypedList α) :=
  map (fun x : List α × Ty => x.1.map fun o => Typed.mk o x.2)
    (pair (spaceSeparatedList1 inner) (preceded (ws (char '-')) parseType))

/-- `typed_list`, `/repo/src/parsers/typed_list.rs:48-80`. `Typed::new_object` uses `Type::OBJECT`. -/
def typedList (inner : P α) : P (TypedList α) :=
  map (fun x : TypedList α × TypedList α => x.1 ++ x.2)
    (pair (map List.flatten (many0 (explicitlyTyped inner)))
      (spaceSeparatedList0 (map (fun o => Typed.mk o Ty.object) inner)))

/-- `function_typed_list`, `/repo/src/parsers/function_typed_list.rs:33-70`.
`FunctionTyped::new_number` uses `FunctionType::NUMBER`. -/
def functionTypedList (inner : P α) : P (TypedList α) :=
  map (fun x : TypedList α × TypedList α => x.1 ++ x.2)
    (pair (map List.flatten (many0 (explicitlyTyped inner)))
      (spaceSeparatedList0 (map (fun o => Typed.mk o Ty.number) inner)))

/-! ## Terms and atoms -/

/-- `parse_function_term` with the recursive call to `parse_term` as a parameter,
`/repo/src/parsers/function_term.rs:31-40`. -/
def functionTermOf (self : P Term) : P FunctionTerm :=
  map (fun x : Name × List Term => FunctionTerm.mk x.1 x.2)
    (delimited (tag c!"(") (pair parseFunctionSymbol (spaceSeparatedList0 self)) (tag c!")"))

/-- Body of `parse_term`, `/repo/src/parsers/term.rs:18-34`. -/
def termBody (self : P Term) : P Term :=
  ifOk parseVariable Term.var
    (ifOk parseName Term.name
      (ifOk (functionTermOf self) (fun ft => Term.fn ft.symbol ft.terms) error))

/-- `parse_term`, `/repo/src/parsers/term.rs:18-34`. -/
def parseTerm : P Term := fix termBody

/-- `parse_function_term`, `/repo/src/parsers/function_term.rs:31-40`. -/
def parseFunctionTerm : P FunctionTerm := functionTermOf parseTerm

/-- `atomic_formula`, `/repo/src/parsers/atomic_formula.rs:26-47`. -/
def atomicFormula (inner : P α) : P (AtomicFormula α) :=
  alt [
    map (fun x : α × α => AtomicFormula.equality x.1 x.2)
      (delimited (ws (tag c!"(=")) (pair (ws inner) (ws inner)) (ws (char ')'))),
    map (fun x : Name × List α => AtomicFormula.predicate x.1 x.2)
      (parens (pair parsePredicate (ws (spaceSeparatedList0 inner))))]

/-- `literal`, `/repo/src/parsers/literal.rs:38-48`. -/
def literal (inner : P α) : P (Literal α) :=
  alt [
    map Literal.neg (prefixExpr c!"not" (atomicFormula inner)),
    map Literal.pos (atomicFormula inner)]

/-- `parse_atomic_formula_skeleton`, `/repo/src/parsers/atomic_formula_skeleton.rs:25-32`. -/
def parseAtomicFormulaSkeleton : P Skeleton :=
  map (fun x : Name × TypedList Name => Skeleton.mk x.1 x.2)
    (parens (pair parsePredicate (ws (typedList parseVariable))))

/-- `parse_atomic_function_skeleton`, `/repo/src/parsers/atomic_function_skeleton.rs:24-34`. -/
def parseAtomicFunctionSkeleton : P Skeleton :=
  map (fun x : Name × TypedList Name => Skeleton.mk x.1 x.2)
    (parens (pair parseFunctionSymbol (ws (typedList parseVariable))))

/-- `parse_basic_function_term`, `/repo/src/parsers/basic_function_term.rs:29-41`. -/
def parseBasicFunctionTerm : P BasicFunctionTerm :=
  alt [
    map (fun s => BasicFunctionTerm.mk s []) parseFunctionSymbol,
    map (fun x : Name × List Name => BasicFunctionTerm.mk x.1 x.2)
      (parens (pair parseFunctionSymbol (ws (spaceSeparatedList0 parseName))))]

/-- `parse_f_head`, `/repo/src/parsers/f_head.rs:32-44`. -/
def parseFHead : P FHead :=
  alt [
    map FHead.simple parseFunctionSymbol,
    map FHead.simple (parens parseFunctionSymbol),
    map (fun x : Name × List Term => FHead.withTerms x.1 x.2)
      (parens (pair parseFunctionSymbol (preceded multispace1 (spaceSeparatedList0 parseTerm))))]

/-! ## Operators -/

/-- `parse_multi_op`, `/repo/src/parsers/multi_op.rs:19-24`. -/
def parseMultiOp : P MultiOp := mapExpect MultiOp.tryFrom (alt [tag c!"*", tag c!"+"])

/-- `parse_binary_op`, `/repo/src/parsers/binary_op.rs:21-31`. -/
def parseBinaryOp : P BinaryOp :=
  mapExpect BinaryOp.tryFrom (alt [tag c!"*", tag c!"+", tag c!"-", tag c!"/"])

/-- `parse_binary_comp`, `/repo/src/parsers/binary_comp.rs:22-33`. -/
def parseBinaryComp : P BinaryComp :=
  mapExpect BinaryComp.tryFrom
    (alt [tag c!">=", tag c!"<=", tag c!"=", tag c!">", tag c!"<"])

/-- `parse_assign_op`, `/repo/src/parsers/assign_op.rs:20-32`. -/
def parseAssignOp : P AssignOp :=
  mapExpect AssignOp.tryFrom
    (alt [tag c!"change", tag c!"assign", tag c!"scale-up", tag c!"scale-down", tag c!"increase",
      tag c!"decrease"])

/-- `parse_assign_op_t`, `/repo/src/parsers/assign_op_t.rs:20-25`. -/
def parseAssignOpT : P AssignOpT :=
  mapExpect AssignOpT.tryFrom (alt [tag c!"increase", tag c!"decrease"])

/-- `parse_d_op`, `/repo/src/parsers/d_op.rs:20-30`. -/
def parseDOp : P DOp := mapExpect DOp.tryFrom (alt [tag c!"<=", tag c!">=", tag c!"="])

/-- `parse_optimization`, `/repo/src/parsers/optimization.rs:18-23`. -/
def parseOptimization : P Optimization :=
  mapExpect Optimization.tryFrom (alt [tag c!"minimize", tag c!"maximize"])

/-- `parse_time_specifier`, `/repo/src/parsers/time_specifier.rs:20-24`. -/
def parseTimeSpecifier : P TimeSpecifier :=
  mapExpect TimeSpecifier.tryFrom (alt [tag c!"start", tag c!"end"])

/-- `parse_interval`, `/repo/src/parsers/interval.rs:18-22`. -/
def parseInterval : P Interval := mapExpect Interval.tryFrom (tag c!"all")

/-! ## Numeric expressions and comparisons -/

/-- Body of `parse_f_exp`, `/repo/src/parsers/f_exp.rs:48-82`. -/
def fExpBody (self : P FExp) : P FExp :=
  alt [
    map FExp.number parseNumber,
    map (fun x : BinaryOp × FExp × FExp => FExp.binaryOp x.1 x.2.1 x.2.2)
      (parens (pair parseBinaryOp (pair (preceded multispace1 self) (preceded multispace1 self)))),
    map (fun x : MultiOp × FExp × List FExp => FExp.multiOp x.1 x.2.1 x.2.2)
      (parens (pair parseMultiOp
        (pair (preceded multispace1 self) (preceded multispace1 (spaceSeparatedList1 self))))),
    map FExp.negative (parens (preceded (pair (char '-') multispace0) self)),
    map FExp.function parseFHead]

/-- `parse_f_exp`, `/repo/src/parsers/f_exp.rs:48-82`. -/
def parseFExp : P FExp := fix fExpBody

/-- `parse_f_comp`, `/repo/src/parsers/f_comp.rs:33-42`. -/
def parseFComp : P FComp :=
  map (fun x : BinaryComp × FExp × FExp => FComp.mk x.1 x.2.1 x.2.2)
    (parens (pair parseBinaryComp
      (pair (preceded multispace1 parseFExp) (preceded multispace1 parseFExp))))

/-! ## Goals -/

/-- The variable list of the quantified forms, `parens(typed_list(parse_variable))`. -/
def parseVarList : P (TypedList Name) := parens (typedList parseVariable)

/-- Body of `parse_gd`, `/repo/src/parsers/gd.rs:135-192`. -/
def gdBody (self : P GD) : P GD :=
  alt [
    map GD.and (prefixExpr c!"and" (spaceSeparatedList0 self)),
    map GD.or (prefixExpr c!"or" (spaceSeparatedList0 self)),
    map GD.not (prefixExpr c!"not" self),
    map (fun x : GD × GD => GD.imply x.1 x.2)
      (prefixExpr c!"imply" (pair self (preceded multispace1 self))),
    map (fun x : TypedList Name × GD => GD.exist x.1 x.2)
      (prefixExpr c!"exists" (pair parseVarList (preceded multispace1 self))),
    map (fun x : TypedList Name × GD => GD.forall_ x.1 x.2)
      (prefixExpr c!"forall" (pair parseVarList (preceded multispace1 self))),
    map GD.atomic (atomicFormula parseTerm),
    map GD.literal (literal parseTerm),
    map GD.fComp parseFComp]

/-- `parse_gd`, `/repo/src/parsers/gd.rs:135-192`. -/
def parseGd : P GD := fix gdBody

/-- `parse_pref_gd`, `/repo/src/parsers/pref_gd.rs:60-77`. -/
def parsePrefGd : P PrefGD :=
  alt [
    map (fun x : Option Name × GD => PrefGD.preference x.1 x.2)
      (prefixExpr c!"preference" (pair (opt parsePrefName) (preceded multispace1 parseGd))),
    map (PrefGD.preference none) (prefixExpr c!"preference" parseGd),
    map PrefGD.goal parseGd]

/-- Body of `parse_pre_gd`, `/repo/src/parsers/pre_gd.rs:70-96`. -/
def preGdBody (self : P (List PreGD)) : P (List PreGD) :=
  alt [
    map (fun x : TypedList Name × List PreGD => [PreGD.forall_ x.1 x.2])
      (prefixExpr c!"forall" (pair parseVarList (preceded multispace1 self))),
    map List.flatten (prefixExpr c!"and" (spaceSeparatedList0 self)),
    map (fun x => [PreGD.preference x]) parsePrefGd]

/-- `parse_pre_gd`, `/repo/src/parsers/pre_gd.rs:70-96`. -/
def parsePreGd : P (List PreGD) := fix preGdBody

/-- `parse_problem_goal_def`, `/repo/src/parsers/goal_def.rs:29-31`. -/
def parseProblemGoalDef : P (List PreGD) := prefixExpr c!":goal" parsePreGd

/-! ## Trajectory constraints -/

/-- `parse_con2_gd` with the call to `parse_con_gd` as a parameter,
`/repo/src/parsers/con_gd.rs:260-266`. -/
def con2Of (self : P ConGD) : P Con2GD :=
  alt [map Con2GD.goal parseGd, map Con2GD.nested self]

/-- Body of `parse_con_gd`, `/repo/src/parsers/con_gd.rs:160-258`. -/
def conGdBody (self : P ConGD) : P ConGD :=
  alt [
    map ConGD.and (prefixExpr c!"and" (spaceSeparatedList0 self)),
    map (fun x : TypedList Name × ConGD => ConGD.forall_ x.1 x.2)
      (prefixExpr c!"forall" (pair parseVarList (preceded multispace1 self))),
    map ConGD.atEnd (prefixExpr c!"at end" parseGd),
    map ConGD.always (prefixExpr c!"always" (con2Of self)),
    map ConGD.sometime (prefixExpr c!"sometime" (con2Of self)),
    map (fun x : Number × Con2GD => ConGD.within x.1 x.2)
      (prefixExpr c!"within" (pair parseNumber (preceded multispace1 (con2Of self)))),
    map ConGD.atMostOnce (prefixExpr c!"at-most-once" (con2Of self)),
    map (fun x : Con2GD × Con2GD => ConGD.sometimeAfter x.1 x.2)
      (prefixExpr c!"sometime-after" (pair (con2Of self) (preceded multispace1 (con2Of self)))),
    map (fun x : Con2GD × Con2GD => ConGD.sometimeBefore x.1 x.2)
      (prefixExpr c!"sometime-before" (pair (con2Of self) (preceded multispace1 (con2Of self)))),
    map (fun x : Number × Con2GD × Con2GD => ConGD.alwaysWithin x.1 x.2.1 x.2.2)
      (prefixExpr c!"always-within" (pair parseNumber
        (pair (preceded multispace1 (con2Of self)) (preceded multispace1 (con2Of self))))),
    map (fun x : Number × Number × Con2GD => ConGD.holdDuring x.1 x.2.1 x.2.2)
      (prefixExpr c!"hold-during" (pair parseNumber
        (pair (preceded multispace1 parseNumber) (preceded multispace1 (con2Of self))))),
    map (fun x : Number × Con2GD => ConGD.holdAfter x.1 x.2)
      (prefixExpr c!"hold-after" (pair parseNumber (preceded multispace1 (con2Of self))))]

/-- `parse_con_gd`, `/repo/src/parsers/con_gd.rs:160-258`. -/
def parseConGd : P ConGD := fix conGdBody

/-- `parse_con2_gd`, `/repo/src/parsers/con_gd.rs:260-266`. -/
def parseCon2Gd : P Con2GD := con2Of parseConGd

/-- Body of `parse_pref_con_gd`, `/repo/src/parsers/pref_con_gd.rs:83-118`. -/
def prefConGdBody (self : P (List PrefConGD)) : P (List PrefConGD) :=
  alt [
    map List.flatten (prefixExpr c!"and" (spaceSeparatedList0 self)),
    map (fun x : TypedList Name × List PrefConGD => [PrefConGD.forall_ x.1 x.2])
      (prefixExpr c!"forall" (pair parseVarList (preceded multispace1 self))),
    map (fun x : Name × ConGD => [PrefConGD.preference (some x.1) x.2])
      (prefixExpr c!"preference" (pair parsePrefName (preceded multispace1 parseConGd))),
    map (fun g => [PrefConGD.preference none g]) (prefixExpr c!"preference" parseConGd),
    map (fun g => [PrefConGD.goal g]) parseConGd]

/-- `parse_pref_con_gd`, `/repo/src/parsers/pref_con_gd.rs:83-118`. -/
def parsePrefConGd : P (List PrefConGD) := fix prefConGdBody

/-- `parse_domain_constraints_def`, `/repo/src/parsers/domain_constraints_def.rs:21-28`. -/
def parseDomainConstraintsDef : P ConGD := prefixExpr c!":constraints" parseConGd

/-- `parse_problem_constraints_def`, `/repo/src/parsers/problem_constraints_def.rs:21-29`. -/
def parseProblemConstraintsDef : P (List PrefConGD) := prefixExpr c!":constraints" parsePrefConGd

/-! ## Effects -/

/-- `parse_p_effect`, `/repo/src/parsers/p_effect.rs:69-102`. -/
def parsePEffect : P PEffect :=
  alt [
    map PEffect.notAtomic (prefixExpr c!"not" (atomicFormula parseTerm)),
    map (fun f => PEffect.assignObject f none)
      (prefixExpr c!"assign"
        (terminated parseFunctionTerm (pair multispace1 (tag c!"undefined")))),
    map (fun x : FunctionTerm × Term => PEffect.assignObject x.1 (some x.2))
      (prefixExpr c!"assign" (pair parseFunctionTerm (preceded multispace1 parseTerm))),
    map (fun x : AssignOp × FHead × FExp => PEffect.assignNumeric x.1 x.2.1 x.2.2)
      (parens (pair parseAssignOp
        (pair (preceded multispace1 parseFHead) (preceded multispace1 parseFExp)))),
    map PEffect.atomic (atomicFormula parseTerm)]

/-- `parse_cond_effect`, `/repo/src/parsers/cond_effect.rs:44-52`. -/
def parseCondEffect : P CondEffect :=
  alt [
    map CondEffect.all (prefixExpr c!"and" (spaceSeparatedList0 parsePEffect)),
    map CondEffect.single parsePEffect]

/-- `parse_effect` with the call to `parse_c_effect` as a parameter,
`/repo/src/parsers/effects.rs:49-57`. -/
def effectOf (self : P CEffect) : P (List CEffect) :=
  alt [
    prefixExpr c!"and" (spaceSeparatedList0 self),
    map (fun e => [e]) self]

/-- `parse_forall_c_effect` with the call to `parse_c_effect` inside `parse_effect` as a parameter,
`/repo/src/parsers/c_effect.rs:127-138`. -/
def forallCEffectOf (self : P CEffect) : P (TypedList Name × List CEffect) :=
  prefixExpr c!"forall" (pair parseVarList (preceded multispace1 (effectOf self)))

/-- `parse_when_c_effect`, `/repo/src/parsers/c_effect.rs:185-193`. -/
def parseWhenCEffect : P (GD × CondEffect) :=
  prefixExpr c!"when" (pair parseGd (preceded multispace1 parseCondEffect))

/-- Body of `parse_c_effect`, `/repo/src/parsers/c_effect.rs:95-101`. -/
def cEffectBody (self : P CEffect) : P CEffect :=
  alt [
    map (fun x : TypedList Name × List CEffect => CEffect.forall_ x.1 x.2) (forallCEffectOf self),
    map (fun x : GD × CondEffect => CEffect.when x.1 x.2) parseWhenCEffect,
    map CEffect.effect parsePEffect]

/-- `parse_c_effect`, `/repo/src/parsers/c_effect.rs:95-101`. -/
def parseCEffect : P CEffect := fix cEffectBody

/-- `parse_effect`, `/repo/src/parsers/effects.rs:49-57`. -/
def parseEffect : P (List CEffect) := effectOf parseCEffect

/-- `parse_forall_c_effect`, `/repo/src/parsers/c_effect.rs:127-138`. -/
def parseForallCEffect : P (TypedList Name × List CEffect) := forallCEffectOf parseCEffect

/-! ## Actions -/

/-- The `:parameters` part, `/repo/src/parsers/action_def.rs:65-68` and
`/repo/src/parsers/da_def.rs:56-59`. -/
def parseParameters : P (TypedList Name) :=
  preceded (tag c!":parameters") (preceded multispace1 parseVarList)

/-- `parse_action_def`, `/repo/src/parsers/action_def.rs:55-86`. `Option::flatten`, then
`From<Option<PreconditionGoalDefinitions>>` (`/repo/src/types/pre_gd.rs:103-110`). -/
def parseActionDef : P ActionDef :=
  map (fun x : Name × TypedList Name × Option (Option (List PreGD)) ×
        Option (Option (List CEffect)) =>
      ActionDef.mk x.1 x.2.1 (x.2.2.1.join.getD []) x.2.2.2.join)
    (prefixExpr c!":action"
      (pair parseActionSymbol (pair (preceded multispace1 parseParameters)
        (ws (pair
          (opt (ws (preceded (tag c!":precondition") (preceded multispace1 (emptyOr parsePreGd)))))
          (opt (ws (preceded (tag c!":effect") (preceded multispace1 (emptyOr parseEffect))))))))))

/-- `parse_derived_predicate`, `/repo/src/parsers/derived_predicate.rs:28-41`. -/
def parseDerivedPredicate : P DerivedPredicate :=
  map (fun x : Skeleton × GD => DerivedPredicate.mk x.1 x.2)
    (prefixExpr c!":derived" (pair parseAtomicFormulaSkeleton (preceded multispace1 parseGd)))

/-! ## Durative actions -/

/-- `parse_timed_gd`, `/repo/src/parsers/timed_gd.rs:41-59`. -/
def parseTimedGd : P TimedGD :=
  alt [
    map (fun x : TimeSpecifier × GD => TimedGD.at x.1 x.2)
      (prefixExpr c!"at" (pair parseTimeSpecifier (preceded multispace1 parseGd))),
    map (fun x : Interval × GD => TimedGD.over x.1 x.2)
      (prefixExpr c!"over" (pair parseInterval (preceded multispace1 parseGd)))]

/-- `parse_pref_timed_gd`, `/repo/src/parsers/pref_timed_gd.rs:63-79`. -/
def parsePrefTimedGd : P PrefTimedGD :=
  alt [
    map (fun x : Option Name × TimedGD => PrefTimedGD.preference x.1 x.2)
      (prefixExpr c!"preference" (pair (opt (terminated parsePrefName multispace1)) parseTimedGd)),
    map PrefTimedGD.required parseTimedGd]

/-- Body of `parse_da_gd`, `/repo/src/parsers/da_gd.rs:87-109`. -/
def daGdBody (self : P DaGD) : P DaGD :=
  alt [
    map (fun x : TypedList Name × DaGD => DaGD.forall_ x.1 x.2)
      (prefixExpr c!"forall" (pair parseVarList (preceded multispace1 self))),
    map DaGD.and (prefixExpr c!"and" (spaceSeparatedList0 self)),
    map DaGD.timed parsePrefTimedGd]

/-- `parse_da_gd`, `/repo/src/parsers/da_gd.rs:87-109`. -/
def parseDaGd : P DaGD := fix daGdBody

/-- Body of `parse_f_exp_da`, `/repo/src/parsers/f_exp_da.rs:39-69`. -/
def fExpDaBody (self : P FExpDa) : P FExpDa :=
  alt [
    map (fun _ => FExpDa.duration) (tag c!"?duration"),
    map (fun x : BinaryOp × FExpDa × FExpDa => FExpDa.binaryOp x.1 x.2.1 x.2.2)
      (parens (pair parseBinaryOp (pair (preceded multispace1 self) (preceded multispace1 self)))),
    map (fun x : MultiOp × FExpDa × List FExpDa => FExpDa.multiOp x.1 x.2.1 x.2.2)
      (parens (pair parseMultiOp
        (pair (preceded multispace1 self) (preceded multispace1 (spaceSeparatedList1 self))))),
    map FExpDa.negative (parens (preceded (pair (char '-') multispace0) self)),
    map FExpDa.fExp parseFExp]

/-- `parse_f_exp_da`, `/repo/src/parsers/f_exp_da.rs:39-69`. -/
def parseFExpDa : P FExpDa := fix fExpDaBody

/-- `parse_f_assign_da`, `/repo/src/parsers/f_assign_da.rs:17-26`. -/
def parseFAssignDa : P FAssignDa :=
  map (fun x : AssignOp × FHead × FExpDa => FAssignDa.mk x.1 x.2.1 x.2.2)
    (parens (pair parseAssignOp
      (pair (preceded multispace1 parseFHead) (preceded multispace1 parseFExpDa))))

/-- `parse_f_exp_t`, `/repo/src/parsers/f_exp_t.rs:43-57`. -/
def parseFExpT : P FExpT :=
  alt [
    map FExpT.scaled (prefixExpr c!"*"
      (alt [
        preceded (pair (tag c!"#t") multispace1) parseFExp,
        terminated parseFExp (pair multispace1 (tag c!"#t"))])),
    map (fun _ => FExpT.now) (tag c!"#t")]

/-- `parse_timed_effect`, `/repo/src/parsers/timed_effect.rs:54-89`. -/
def parseTimedEffect : P TimedEffect :=
  alt [
    map (fun x : TimeSpecifier × FAssignDa => TimedEffect.numericFluent x.1 x.2)
      (prefixExpr c!"at" (pair parseTimeSpecifier (preceded multispace1 parseFAssignDa))),
    map (fun x : TimeSpecifier × CondEffect => TimedEffect.conditional x.1 x.2)
      (prefixExpr c!"at" (pair parseTimeSpecifier (preceded multispace1 parseCondEffect))),
    map (fun x : AssignOpT × FHead × FExpT => TimedEffect.continuous x.1 x.2.1 x.2.2)
      (parens (pair parseAssignOpT
        (pair (preceded multispace1 parseFHead) (preceded multispace1 parseFExpT))))]

/-- Body of `parse_da_effect`, `/repo/src/parsers/da_effect.rs:79-109`. -/
def daEffectBody (self : P DaEffect) : P DaEffect :=
  alt [
    map DaEffect.all (prefixExpr c!"and" (spaceSeparatedList0 self)),
    map (fun x : TypedList Name × DaEffect => DaEffect.forall_ x.1 x.2)
      (prefixExpr c!"forall" (pair parseVarList (preceded multispace1 self))),
    map (fun x : DaGD × TimedEffect => DaEffect.when x.1 x.2)
      (prefixExpr c!"when" (pair parseDaGd (preceded multispace1 parseTimedEffect))),
    map DaEffect.timed parseTimedEffect]

/-- `parse_da_effect`, `/repo/src/parsers/da_effect.rs:79-109`. -/
def parseDaEffect : P DaEffect := fix daEffectBody

/-- `parse_d_value`, `/repo/src/parsers/d_value.rs:26-33`. -/
def parseDValue : P DurationValue :=
  alt [map DurationValue.number parseNumber, map DurationValue.fExp parseFExp]

/-- Body of `parse_simple_duration_constraint`,
`/repo/src/parsers/simple_duration_constraint.rs:38-64`. -/
def simpleDurationBody (self : P SimpleDuration) : P SimpleDuration :=
  alt [
    map (fun x : DOp × DurationValue => SimpleDuration.op x.1 x.2)
      (parens (pair parseDOp
        (preceded (pair multispace1 (pair (tag c!"?duration") multispace1)) parseDValue))),
    map (fun x : TimeSpecifier × SimpleDuration => SimpleDuration.at x.1 x.2)
      (prefixExpr c!"at" (pair parseTimeSpecifier (preceded multispace1 self)))]

/-- `parse_simple_duration_constraint`, `/repo/src/parsers/simple_duration_constraint.rs:38-64`. -/
def parseSimpleDuration : P SimpleDuration := fix simpleDurationBody

/-- `parse_duration_constraint`, `/repo/src/parsers/duration_constraint.rs:60-78`. -/
def parseDurationConstraint : P (Option DurationConstraint) :=
  alt [
    map (fun _ => none) (tag c!"()"),
    map (fun c => some (DurationConstraint.single c)) parseSimpleDuration,
    mapExpect (fun cs => (DurationConstraint.newAll cs).map some)
      (prefixExpr c!"and" (spaceSeparatedList1 parseSimpleDuration))]

/-- `parse_da_def`, `/repo/src/parsers/da_def.rs:55-92`. -/
def parseDaDef : P DaDef :=
  map (fun x : Name × TypedList Name × Option DurationConstraint × Option DaGD × Option DaEffect =>
      DaDef.mk x.1 x.2.1 x.2.2.1 x.2.2.2.1 x.2.2.2.2)
    (prefixExpr c!":durative-action"
      (pair parseDaSymbol (pair (preceded multispace1 parseParameters)
        (pair
          (preceded multispace1
            (preceded (tag c!":duration") (preceded multispace1 parseDurationConstraint)))
          (pair
            (preceded multispace1
              (preceded (tag c!":condition") (preceded multispace1 (emptyOr parseDaGd))))
            (preceded multispace1
              (preceded (tag c!":effect") (preceded multispace1 (emptyOr parseDaEffect)))))))))

/-- `parse_structure_def`, `/repo/src/parsers/structure_def.rs:52-59`. -/
def parseStructureDef : P StructureDef :=
  alt [
    map StructureDef.derived parseDerivedPredicate,
    map StructureDef.action parseActionDef,
    map StructureDef.durative parseDaDef]

/-! ## Sections of domains and problems -/

/-- `parse_require_key`, `/repo/src/parsers/requirements.rs:58-85`. -/
def parseRequireKey : P Requirement := mapExpect Requirement.tryFrom (alt (requireTags.map tag))

/-- `parse_require_def`, `/repo/src/parsers/requirements.rs:21-26`. -/
def parseRequireDef : P (List Requirement) :=
  prefixExpr c!":requirements" (spaceSeparatedList1 parseRequireKey)

/-- `parse_types_def`, `/repo/src/parsers/types_def.rs:23-27`. -/
def parseTypesDef : P (TypedList Name) := prefixExpr c!":types" (typedList parseName)

/-- `parse_constants_def`, `/repo/src/parsers/constants_def.rs:23-27`. -/
def parseConstantsDef : P (TypedList Name) := prefixExpr c!":constants" (typedList parseName)

/-- `parse_problem_objects_declaration`, `/repo/src/parsers/objects_def.rs:22-29`. -/
def parseProblemObjectsDeclaration : P (TypedList Name) :=
  prefixExpr c!":objects" (typedList parseName)

/-- `parse_predicates_def`, `/repo/src/parsers/predicates_def.rs:38-48`. -/
def parsePredicatesDef : P (List Skeleton) :=
  prefixExpr c!":predicates" (spaceSeparatedList1 parseAtomicFormulaSkeleton)

/-- `parse_functions_def`, `/repo/src/parsers/functions_def.rs:30-38`. -/
def parseFunctionsDef : P (TypedList Skeleton) :=
  prefixExpr c!":functions" (functionTypedList parseAtomicFunctionSkeleton)

/-- `parse_timeless_def`, `/repo/src/parsers/timeless_def.rs:37-42`. -/
def parseTimelessDef : P (List (Literal Name)) :=
  prefixExpr c!":timeless" (spaceSeparatedList1 (literal parseName))

/-- `parse_init_el`, `/repo/src/parsers/init_el.rs:56-90`. -/
def parseInitEl : P InitElement :=
  alt [
    map InitElement.literal (literal parseName),
    map (fun x : Number × Literal Name => InitElement.at x.1 x.2)
      (prefixExpr c!"at" (pair parseNumber (preceded multispace1 (literal parseName)))),
    map (fun x : BasicFunctionTerm × Number => InitElement.isValue x.1 x.2)
      (prefixExpr c!"=" (pair parseBasicFunctionTerm (preceded multispace1 parseNumber))),
    map (fun x : BasicFunctionTerm × Name => InitElement.isObject x.1 x.2)
      (prefixExpr c!"=" (pair parseBasicFunctionTerm (preceded multispace1 parseName)))]

/-- `parse_problem_init_def`, `/repo/src/parsers/init_def.rs:37-42`. -/
def parseProblemInitDef : P (List InitElement) :=
  prefixExpr c!":init" (spaceSeparatedList0 parseInitEl)

/-- `parse_problem_length_spec`, `/repo/src/parsers/length_spec.rs:21-32`. -/
def parseProblemLengthSpec : P LengthSpec :=
  map (fun x : Option Nat × Option Nat => LengthSpec.mk x.1 x.2)
    (prefixExpr c!":length"
      (pair (opt (prefixExpr c!":serial" u64))
        (opt (preceded multispace0 (prefixExpr c!":parallel" u64)))))

/-- Body of `parse_metric_f_exp`, `/repo/src/parsers/metric_f_exp.rs:78-136`. -/
def metricFExpBody (self : P MetricFExp) : P MetricFExp :=
  alt [
    map MetricFExp.number parseNumber,
    map (fun x : BinaryOp × MetricFExp × MetricFExp => MetricFExp.binaryOp x.1 x.2.1 x.2.2)
      (parens (pair parseBinaryOp (pair (preceded multispace1 self) (preceded multispace1 self)))),
    mapExpect (fun x : MultiOp × MetricFExp × List MetricFExp =>
        MetricFExp.newMultiOp x.1 x.2.1 x.2.2)
      (parens (pair parseMultiOp
        (pair (preceded multispace1 self) (preceded multispace1 (spaceSeparatedList1 self))))),
    map MetricFExp.negative (parens (preceded (pair (char '-') multispace0) self)),
    map (fun _ => MetricFExp.totalTime) (tag c!"total-time"),
    map MetricFExp.isViolated (prefixExpr c!"is-violated" parsePrefName),
    map (fun x : Name × List Name => MetricFExp.function x.1 x.2)
      (parens (pair parseFunctionSymbol (ws (spaceSeparatedList0 parseName)))),
    map (fun f => MetricFExp.function f []) parseFunctionSymbol]

/-- `parse_metric_f_exp`, `/repo/src/parsers/metric_f_exp.rs:78-136`. -/
def parseMetricFExp : P MetricFExp := fix metricFExpBody

/-- `parse_problem_metric_spec`, `/repo/src/parsers/metric_spec.rs:23-35`. -/
def parseProblemMetricSpec : P MetricSpec :=
  map (fun x : Optimization × MetricFExp => MetricSpec.mk x.1 x.2)
    (prefixExpr c!":metric" (pair parseOptimization (preceded multispace1 parseMetricFExp)))

/-! ## Domain and problem -/

/-- The tuple parser of `/repo/src/parsers/domain.rs:66-88`. -/
def domainParts : P DomainParts :=
  pair (prefixExpr c!"domain" parseName)
    (pair (opt (preceded multispace1 (prefixExpr c!":extends" (spaceSeparatedList1 parseName))))
    (pair (opt (preceded multispace1 parseRequireDef))
    (pair (opt (preceded multispace1 parseTypesDef))
    (pair (opt (preceded multispace1 parseConstantsDef))
    (pair (opt (preceded multispace1 parsePredicatesDef))
    (pair (opt (preceded multispace1 parseFunctionsDef))
    (pair (opt (preceded multispace1 parseDomainConstraintsDef))
      (opt (preceded multispace1 (spaceSeparatedList1 parseStructureDef))))))))))

/-- `parse_domain`, `/repo/src/parsers/domain.rs:62-111`. -/
def parseDomain : P Domain := map domainOf (ws2 (prefixExpr c!"define" domainParts))

/-- The tuple parser of `/repo/src/parsers/problem.rs:43-56`. -/
def problemParts : P ProblemParts :=
  pair (prefixExpr c!"problem" parseName)
    (pair (preceded multispace1 (prefixExpr c!":domain" parseName))
    (pair (opt (preceded multispace1 parseRequireDef))
    (pair (opt (preceded multispace1 parseProblemObjectsDeclaration))
    (pair (preceded multispace1 parseProblemInitDef)
    (pair (preceded multispace1 parseProblemGoalDef)
    (pair (opt (preceded multispace1 parseProblemConstraintsDef))
    (pair (opt (preceded multispace1 parseProblemMetricSpec))
      (opt (preceded multispace1 parseProblemLengthSpec)))))))))

/-- `parse_problem`, `/repo/src/parsers/problem.rs:39-72`. -/
def parseProblem : P Problem := map problemOf (ws2 (prefixExpr c!"define" problemParts))

end Pddl.D
