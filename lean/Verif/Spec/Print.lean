import Verif.Spec.Grammar

/-!
# Specification: a printer

One canonical spelling for every value, and the Boolean condition `wf` under which the value can be
written in PDDL at all. `wf` collects three kinds of conditions.
* Lexical: names are words, numbers are finite and not negative, lists that PDDL wants non-empty are.
* The value is the one the crate chooses where PDDL offers several (`Mode.req` in
  `Verif/Spec/Grammar.lean`), for instance a sum of two operands is a `BinaryOp`, not a `MultiOp`.
* The value is not one the crate cannot read back (C11, C21, C45 and C47 say which and why).

`Verif/Meta/Print.lean` proves that the printed text of a well-formed value is one of its
spellings. The printer does not exist in the crate; it makes the round-trip properties concrete.
-/

namespace Pddl

/-- `x1 x2 .. xn` with a space before each. -/
def spaced : List (List Char) → List Char
  | [] => []
  | x :: xs => ' ' :: (x ++ spaced xs)

/-- `x1 x2 .. xn` with a space between. -/
def joined : List (List Char) → List Char
  | [] => []
  | x :: xs => x ++ spaced xs

/-- `(kw x1 .. xn)` -/
def form (kw : List Char) (xs : List (List Char)) : List Char := paren (kw ++ spaced xs)

/-! ## Names and numbers -/

/-- `Bool` version of `IsWord`. -/
def isWordB : List Char → Bool
  | [] => false
  | c :: cs => isLetter c && cs.all isWordChar

def Name.print (n : Name) : List Char := n.text
def Name.wf (n : Name) : Bool := isWordB n.text && decide (n = wordName n.text)

/-- The digit character of `d < 10`. -/
def digitChar (d : Nat) : Char := Char.ofNat (d + 48)

/-- The last `k` decimal digits of `n`. -/
def lastDigits : Nat → Nat → List Char
  | 0, _ => []
  | k + 1, n => lastDigits k (n / 10) ++ [digitChar (n % 10)]

/-- The decimal numeral of `n`, given a bound for the number of digits. -/
def numeralF : Nat → Nat → List Char
  | 0, n => [digitChar (n % 10)]
  | k + 1, n => if n < 10 then [digitChar n] else numeralF k (n / 10) ++ [digitChar (n % 10)]

/-- The decimal numeral of `n`. -/
def numeral (n : Nat) : List Char := numeralF n n

/-- The exact decimal expansion of a finite, non-negative number: `bitsUnits` counts units of
`2^-149`, and `1 / 2^149 = 5^149 / 10^149`. -/
def Number.print (n : Number) : List Char :=
  let s := bitsUnits n.val.bits
  if s % 2 ^ 149 = 0 then numeral (s / 2 ^ 149)
  else numeral (s / 2 ^ 149) ++ '.' :: lastDigits 149 (s % 2 ^ 149 * 5 ^ 149)

def Number.wf (n : Number) : Bool := n.val.bits.extractLsb' 23 8 != 255 && !n.val.bits.msb

/-! ## Types and typed lists -/

/-- Not a word that merely begins with `object`. -/
def notObjectPrefix (t : List Char) : Bool := t == c!"object" || !(c!"object").isPrefixOf t

def Ty.print : Ty → List Char
  | .exactly n => n.print
  | .eitherOf ns => form c!"either" (ns.map Name.print)

def Ty.wf : Ty → Bool
  | .exactly n => n.wf
  | .eitherOf ns => !ns.isEmpty && ns.all fun n => n.wf && notObjectPrefix n.text

def Typed.print (pr : α → List Char) (x : Typed α) : List Char :=
  pr x.value ++ ' ' :: '-' :: ' ' :: x.ty.print

def Typed.wf (w : α → Bool) (x : Typed α) : Bool := w x.value && x.ty.wf

def printVar (v : Name) : List Char := '?' :: v.print

/-- `(?x - t ?y - u)` -/
def printVars (vs : TypedList Name) : List Char := paren (joined (vs.map (Typed.print printVar)))
def wfVars (vs : TypedList Name) : Bool := vs.all (Typed.wf Name.wf)

/-! ## Terms and atoms -/

mutual
def Term.print : Term → List Char
  | .name n => n.print
  | .var v => printVar v
  | .fn f ts => paren (f.print ++ Term.prints ts)
/-- The arguments, each after a space. -/
def Term.prints : List Term → List Char
  | [] => []
  | t :: ts => ' ' :: (t.print ++ Term.prints ts)
end

mutual
def Term.wf : Term → Bool
  | .name n => n.wf
  | .var v => v.wf
  | .fn f ts => f.wf && Term.wfs ts
def Term.wfs : List Term → Bool
  | [] => true
  | t :: ts => t.wf && Term.wfs ts
end

def FunctionTerm.print (f : FunctionTerm) : List Char := paren (f.symbol.print ++ Term.prints f.terms)
def FunctionTerm.wf (f : FunctionTerm) : Bool := f.symbol.wf && Term.wfs f.terms

def AtomicFormula.print (pr : α → List Char) : AtomicFormula α → List Char
  | .equality a b => form c!"=" [pr a, pr b]
  | .predicate p vs => form p.print (vs.map pr)

def AtomicFormula.wf (w : α → Bool) : AtomicFormula α → Bool
  | .equality a b => w a && w b
  | .predicate p vs => p.wf && vs.all w

/-- The predicate is none of the given words. -/
def AtomicFormula.headOk (ws : List (List Char)) : AtomicFormula α → Bool
  | .equality _ _ => true
  | .predicate p _ => !ws.contains p.text

def Literal.print (pr : α → List Char) : Literal α → List Char
  | .neg a => form c!"not" [a.print pr]
  | .pos a => a.print pr

/-- A positive literal is not `(not ..)` with a predicate `not`: with names as terms that cannot be
confused, so there is no further condition. -/
def Literal.wf (w : α → Bool) : Literal α → Bool
  | .neg a => a.wf w
  | .pos a => a.wf w

def Skeleton.print (s : Skeleton) : List Char :=
  form s.symbol.print (s.variables.map (Typed.print printVar))
def Skeleton.wf (s : Skeleton) : Bool := s.symbol.wf && wfVars s.variables

def BasicFunctionTerm.print (f : BasicFunctionTerm) : List Char :=
  form f.symbol.print (f.names.map Name.print)
def BasicFunctionTerm.wf (f : BasicFunctionTerm) : Bool := f.symbol.wf && f.names.all Name.wf

def FHead.print : FHead → List Char
  | .simple f => paren f.print
  | .withTerms f ts => paren (f.print ++ Term.prints ts)
/-- A fluent without arguments is `FHead.simple`. -/
def FHead.wf : FHead → Bool
  | .simple f => f.wf
  | .withTerms f ts => f.wf && !ts.isEmpty && Term.wfs ts

/-! ## Numeric expressions -/

mutual
def FExp.print : FExp → List Char
  | .number n => n.print
  | .function h => h.print
  | .negative e => form c!"-" [e.print]
  | .binaryOp op a b => form op.spell [a.print, b.print]
  | .multiOp op a bs => paren (op.spell ++ ' ' :: (a.print ++ FExp.prints bs))
def FExp.prints : List FExp → List Char
  | [] => []
  | e :: es => ' ' :: (e.print ++ FExp.prints es)
end

mutual
def FExp.wf : FExp → Bool
  | .number n => n.wf
  | .function h => h.wf
  | .negative e => e.wf
  | .binaryOp _ a b => a.wf && b.wf
  | .multiOp _ a bs => a.wf && decide (2 ≤ bs.length) && FExp.wfs bs
def FExp.wfs : List FExp → Bool
  | [] => true
  | e :: es => e.wf && FExp.wfs es
end

def FExp.isFunctionB : FExp → Bool
  | .function _ => true
  | _ => false
def FExp.isNumberB : FExp → Bool
  | .number _ => true
  | _ => false

mutual
def FExpDa.print : FExpDa → List Char
  | .assign _ _ _ => []
  | .duration => c!"?duration"
  | .fExp e => e.print
  | .negative e => form c!"-" [e.print]
  | .binaryOp op a b => form op.spell [a.print, b.print]
  | .multiOp op a bs => paren (op.spell ++ ' ' :: (a.print ++ FExpDa.prints bs))
def FExpDa.prints : List FExpDa → List Char
  | [] => []
  | e :: es => ' ' :: (e.print ++ FExpDa.prints es)
end

mutual
/-- `FExpDa.assign` has no syntax; operators belong to this level, not to an `FExp` inside. -/
def FExpDa.wf : FExpDa → Bool
  | .assign _ _ _ => false
  | .duration => true
  | .fExp e => (e.isFunctionB || e.isNumberB) && e.wf
  | .negative e => e.wf
  | .binaryOp _ a b => a.wf && b.wf
  | .multiOp _ a bs => a.wf && decide (2 ≤ bs.length) && FExpDa.wfs bs
def FExpDa.wfs : List FExpDa → Bool
  | [] => true
  | e :: es => e.wf && FExpDa.wfs es
end

def FExpT.print : FExpT → List Char
  | .now => c!"#t"
  | .scaled e => form c!"*" [c!"#t", e.print]
def FExpT.wf : FExpT → Bool
  | .now => true
  | .scaled e => e.wf

def FComp.print (c : FComp) : List Char := form c.comp.spell [c.first.print, c.second.print]
def FComp.wf (c : FComp) : Bool := c.first.wf && c.second.wf

/-! ## Goals -/

mutual
def GD.print : GD → List Char
  | .atomic a => a.print Term.print
  | .literal _ => []
  | .and gs => paren (c!"and" ++ GD.prints gs)
  | .or gs => paren (c!"or" ++ GD.prints gs)
  | .not g => form c!"not" [g.print]
  | .imply a b => form c!"imply" [a.print, b.print]
  | .exist vs g => form c!"exists" [printVars vs, g.print]
  | .forall_ vs g => form c!"forall" [printVars vs, g.print]
  | .fComp c => c.print
def GD.prints : List GD → List Char
  | [] => []
  | g :: gs => ' ' :: (g.print ++ GD.prints gs)
end

mutual
/-- `GD.literal` is never read (C32); an equation between two fluents is an atom. -/
def GD.wf : GD → Bool
  | .atomic a => a.wf Term.wf && a.headOk goalWords
  | .literal _ => false
  | .and gs => GD.wfs gs
  | .or gs => GD.wfs gs
  | .not g => g.wf
  | .imply a b => a.wf && b.wf
  | .exist vs g => wfVars vs && g.wf
  | .forall_ vs g => wfVars vs && g.wf
  | .fComp c => c.wf && !(decide (c.comp = .eq) && c.first.isFunctionB && c.second.isFunctionB)
def GD.wfs : List GD → Bool
  | [] => true
  | g :: gs => g.wf && GD.wfs gs
end

/-- An optional name before another argument. -/
def optName : Option Name → List (List Char)
  | none => []
  | some n => [n.print]
def wfOptName : Option Name → Bool
  | none => true
  | some n => n.wf

def PrefGD.print : PrefGD → List Char
  | .goal g => g.print
  | .preference n g => form c!"preference" (optName n ++ [g.print])

/-- `Bool` version of `GD.notPreference`. -/
def GD.notPreferenceB : GD → Bool
  | .atomic (.predicate p _) => !(c!"preference").isPrefixOf p.text
  | _ => true

def PrefGD.wf : PrefGD → Bool
  | .goal g => g.wf && g.notPreferenceB
  | .preference n g => wfOptName n && g.wf

/-- `Bool` version of `PrefGD.notPre`. -/
def PrefGD.notPreB : PrefGD → Bool
  | .goal (.and _) => false
  | .goal (.forall_ _ _) => false
  | _ => true

mutual
def PreGD.print : PreGD → List Char
  | .preference p => p.print
  | .forall_ vs gs => form c!"forall" [printVars vs, paren (c!"and" ++ PreGD.prints gs)]
def PreGD.prints : List PreGD → List Char
  | [] => []
  | g :: gs => ' ' :: (g.print ++ PreGD.prints gs)
end

mutual
def PreGD.wf : PreGD → Bool
  | .preference p => p.wf && p.notPreB
  | .forall_ vs gs => wfVars vs && PreGD.wfs gs
def PreGD.wfs : List PreGD → Bool
  | [] => true
  | g :: gs => g.wf && PreGD.wfs gs
end

/-- A precondition: the conjunction of its parts. -/
def printPre (gs : List PreGD) : List Char := paren (c!"and" ++ PreGD.prints gs)

/-! ## Trajectory constraints -/

mutual
def ConGD.print : ConGD → List Char
  | .and gs => paren (c!"and" ++ ConGD.prints gs)
  | .forall_ vs g => form c!"forall" [printVars vs, g.print]
  | .atEnd g => form c!"at end" [g.print]
  | .always g => form c!"always" [g.print]
  | .sometime g => form c!"sometime" [g.print]
  | .within n g => form c!"within" [n.print, g.print]
  | .atMostOnce g => form c!"at-most-once" [g.print]
  | .sometimeAfter a b => form c!"sometime-after" [a.print, b.print]
  | .sometimeBefore a b => form c!"sometime-before" [a.print, b.print]
  | .alwaysWithin n a b => form c!"always-within" [n.print, a.print, b.print]
  | .holdDuring n m g => form c!"hold-during" [n.print, m.print, g.print]
  | .holdAfter n g => form c!"hold-after" [n.print, g.print]
def Con2GD.print : Con2GD → List Char
  | .goal g => g.print
  | .nested g => g.print
def ConGD.prints : List ConGD → List Char
  | [] => []
  | g :: gs => ' ' :: (g.print ++ ConGD.prints gs)
end

/-- `Bool` version of `ConGD.isTimed`. -/
def ConGD.isTimedB : ConGD → Bool
  | .within _ _ => true
  | .alwaysWithin _ _ _ => true
  | .holdDuring _ _ _ => true
  | .holdAfter _ _ => true
  | _ => false

mutual
def ConGD.wf : ConGD → Bool
  | .and gs => ConGD.wfs gs
  | .forall_ vs g => wfVars vs && g.wf
  | .atEnd g => g.wf
  | .always g => g.wf
  | .sometime g => g.wf
  | .within n g => n.wf && g.wf
  | .atMostOnce g => g.wf
  | .sometimeAfter a b => a.wf && b.wf
  | .sometimeBefore a b => a.wf && b.wf
  | .alwaysWithin n a b => n.wf && a.wf && b.wf
  | .holdDuring n m g => n.wf && m.wf && g.wf
  | .holdAfter n g => n.wf && g.wf
/-- A nested constraint carries a number; the others are read as goals (C21). -/
def Con2GD.wf : Con2GD → Bool
  | .goal g => g.wf
  | .nested g => g.isTimedB && g.wf
def ConGD.wfs : List ConGD → Bool
  | [] => true
  | g :: gs => g.wf && ConGD.wfs gs
end

/-- `Bool` version of `ConGD.notPre`. -/
def ConGD.notPreB : ConGD → Bool
  | .and _ => false
  | .forall_ _ _ => false
  | _ => true

mutual
def PrefConGD.print : PrefConGD → List Char
  | .goal g => g.print
  | .forall_ vs gs => form c!"forall" [printVars vs, paren (c!"and" ++ PrefConGD.prints gs)]
  | .preference n g => form c!"preference" (optName n ++ [g.print])
def PrefConGD.prints : List PrefConGD → List Char
  | [] => []
  | g :: gs => ' ' :: (g.print ++ PrefConGD.prints gs)
end

mutual
def PrefConGD.wf : PrefConGD → Bool
  | .goal g => g.wf && g.notPreB
  | .forall_ vs gs => wfVars vs && PrefConGD.wfs gs
  | .preference n g => wfOptName n && g.wf
def PrefConGD.wfs : List PrefConGD → Bool
  | [] => true
  | g :: gs => g.wf && PrefConGD.wfs gs
end

/-- Problem constraints: the conjunction of the parts. -/
def printPrefCon (gs : List PrefConGD) : List Char := paren (c!"and" ++ PrefConGD.prints gs)

/-! ## Effects -/

/-- The assignment of a fluent to a fluent is read as an assignment of objects; the old spelling
`change` says that the numeric update is meant. -/
def assignWord : AssignOp → Bool → List Char
  | .assign, false => c!"assign"
  | .assign, true => c!"change"
  | .scaleUp, _ => c!"scale-up"
  | .scaleDown, _ => c!"scale-down"
  | .increase, _ => c!"increase"
  | .decrease, _ => c!"decrease"

def PEffect.print : PEffect → List Char
  | .atomic a => a.print Term.print
  | .notAtomic a => form c!"not" [a.print Term.print]
  | .assignNumeric op h e => form (assignWord op e.isFunctionB) [h.print, e.print]
  | .assignObject f none => form c!"assign" [f.print, c!"undefined"]
  | .assignObject f (some o) => form c!"assign" [f.print, o.print]

def PEffect.wf : PEffect → Bool
  | .atomic a => a.wf Term.wf && a.headOk effectWords
  | .notAtomic a => a.wf Term.wf
  | .assignNumeric _ h e => h.wf && e.wf
  | .assignObject f none => f.wf
  | .assignObject f (some o) => f.wf && o.wf && !(o.print == c!"undefined")

def CondEffect.print : CondEffect → List Char
  | .single p => p.print
  | .all ps => form c!"and" (ps.map PEffect.print)
def CondEffect.wf : CondEffect → Bool
  | .single p => p.wf
  | .all ps => ps.all PEffect.wf

mutual
def CEffect.print : CEffect → List Char
  | .effect p => p.print
  | .forall_ vs es => form c!"forall" [printVars vs, paren (c!"and" ++ CEffect.prints es)]
  | .when c e => form c!"when" [c.print, e.print]
def CEffect.prints : List CEffect → List Char
  | [] => []
  | e :: es => ' ' :: (e.print ++ CEffect.prints es)
end

mutual
def CEffect.wf : CEffect → Bool
  | .effect p => p.wf
  | .forall_ vs es => wfVars vs && CEffect.wfs es
  | .when c e => c.wf && e.wf
def CEffect.wfs : List CEffect → Bool
  | [] => true
  | e :: es => e.wf && CEffect.wfs es
end

/-- Effects: the conjunction of the parts. -/
def printEffects (es : List CEffect) : List Char := paren (c!"and" ++ CEffect.prints es)

/-! ## Actions -/

/-- An optional section of an action. -/
def printSlot (kw : List Char) (pr : α → List Char) : Option α → List Char
  | none => []
  | some v => ' ' :: (kw ++ ' ' :: pr v)

def ActionDef.print (a : ActionDef) : List Char :=
  paren (c!":action" ++ ' ' :: (a.symbol.print ++ ' ' :: (c!":parameters" ++ ' ' :: (printVars a.parameters ++
    (printSlot c!":precondition" printPre (some a.precondition) ++
      printSlot c!":effect" printEffects a.effect)))))

def ActionDef.wf (a : ActionDef) : Bool :=
  a.symbol.wf && wfVars a.parameters && PreGD.wfs a.precondition &&
    (match a.effect with
      | none => true
      | some es => CEffect.wfs es)

def DerivedPredicate.print (d : DerivedPredicate) : List Char :=
  form c!":derived" [d.predicate.print, d.goal.print]
def DerivedPredicate.wf (d : DerivedPredicate) : Bool := d.predicate.wf && d.goal.wf

/-! ## Durative actions -/

def TimedGD.print : TimedGD → List Char
  | .at t g => form c!"at" [t.spell, g.print]
  | .over i g => form c!"over" [i.spell, g.print]
def TimedGD.wf : TimedGD → Bool
  | .at _ g => g.wf
  | .over _ g => g.wf

def PrefTimedGD.print : PrefTimedGD → List Char
  | .required g => g.print
  | .preference n g => form c!"preference" (optName n ++ [g.print])
def PrefTimedGD.wf : PrefTimedGD → Bool
  | .required g => g.wf
  | .preference n g => wfOptName n && g.wf

mutual
def DaGD.print : DaGD → List Char
  | .timed g => g.print
  | .and gs => paren (c!"and" ++ DaGD.prints gs)
  | .forall_ vs g => form c!"forall" [printVars vs, g.print]
def DaGD.prints : List DaGD → List Char
  | [] => []
  | g :: gs => ' ' :: (g.print ++ DaGD.prints gs)
end

mutual
def DaGD.wf : DaGD → Bool
  | .timed g => g.wf
  | .and gs => DaGD.wfs gs
  | .forall_ vs g => wfVars vs && g.wf
def DaGD.wfs : List DaGD → Bool
  | [] => true
  | g :: gs => g.wf && DaGD.wfs gs
end

def FAssignDa.print (a : FAssignDa) : List Char := form (assignWord a.op false) [a.head.print, a.exp.print]
def FAssignDa.wf (a : FAssignDa) : Bool := a.head.wf && a.exp.wf

/-- `Bool` version of `CondEffect.notAssignment`. -/
def CondEffect.notAssignmentB : CondEffect → Bool
  | .single (.assignNumeric _ _ _) => false
  | .single (.assignObject _ _) => false
  | _ => true

def TimedEffect.print : TimedEffect → List Char
  | .conditional t e => form c!"at" [t.spell, e.print]
  | .numericFluent t e => form c!"at" [t.spell, e.print]
  | .continuous op h e => form op.spell [h.print, e.print]
/-- A single timed assignment is a numeric fluent update. -/
def TimedEffect.wf : TimedEffect → Bool
  | .conditional _ e => e.wf && e.notAssignmentB
  | .numericFluent _ e => e.wf
  | .continuous _ h e => h.wf && e.wf

mutual
def DaEffect.print : DaEffect → List Char
  | .timed e => e.print
  | .all es => paren (c!"and" ++ DaEffect.prints es)
  | .forall_ vs e => form c!"forall" [printVars vs, e.print]
  | .when g e => form c!"when" [g.print, e.print]
def DaEffect.prints : List DaEffect → List Char
  | [] => []
  | e :: es => ' ' :: (e.print ++ DaEffect.prints es)
end

mutual
def DaEffect.wf : DaEffect → Bool
  | .timed e => e.wf
  | .all es => DaEffect.wfs es
  | .forall_ vs e => wfVars vs && e.wf
  | .when g e => g.wf && e.wf
def DaEffect.wfs : List DaEffect → Bool
  | [] => true
  | e :: es => e.wf && DaEffect.wfs es
end

def DurationValue.print : DurationValue → List Char
  | .number n => n.print
  | .fExp e => e.print
def DurationValue.wf : DurationValue → Bool
  | .number n => n.wf
  | .fExp e => e.wf && !e.isNumberB

def SimpleDuration.print : SimpleDuration → List Char
  | .op o v => form o.spell [c!"?duration", v.print]
  | .at t c => form c!"at" [t.spell, c.print]
def SimpleDuration.wf : SimpleDuration → Bool
  | .op _ v => v.wf
  | .at _ c => c.wf

def DurationConstraint.print : DurationConstraint → List Char
  | .single c => c.print
  | .all cs => form c!"and" (cs.map SimpleDuration.print)
def DurationConstraint.wf : DurationConstraint → Bool
  | .single c => c.wf
  | .all cs => !cs.isEmpty && cs.all SimpleDuration.wf

/-- A value or `()`. -/
def printOrEmpty (pr : α → List Char) : Option α → List Char
  | none => c!"()"
  | some v => pr v
def wfOpt (w : α → Bool) : Option α → Bool
  | none => true
  | some v => w v

def DaDef.print (a : DaDef) : List Char :=
  form c!":durative-action" [a.symbol.print, c!":parameters", printVars a.parameters,
    c!":duration", printOrEmpty DurationConstraint.print a.duration,
    c!":condition", printOrEmpty DaGD.print a.condition,
    c!":effect", printOrEmpty DaEffect.print a.effect]

def DaDef.wf (a : DaDef) : Bool :=
  a.symbol.wf && wfVars a.parameters && wfOpt DurationConstraint.wf a.duration &&
    wfOpt DaGD.wf a.condition && wfOpt DaEffect.wf a.effect

def StructureDef.print : StructureDef → List Char
  | .action a => a.print
  | .durative a => a.print
  | .derived d => d.print
def StructureDef.wf : StructureDef → Bool
  | .action a => a.wf
  | .durative a => a.wf
  | .derived d => d.wf

/-! ## Sections -/

def InitElement.print : InitElement → List Char
  | .literal l => l.print Name.print
  | .at n l => form c!"at" [n.print, l.print Name.print]
  | .isValue f n => form c!"=" [f.print, n.print]
  | .isObject f o => form c!"=" [f.print, o.print]

def InitElement.wf : InitElement → Bool
  | .literal l => l.wf Name.wf
  | .at n l => n.wf && l.wf Name.wf
  | .isValue f n => f.wf && n.wf
  | .isObject f o => f.wf && o.wf

/-- An optional part, after the separator `sep`. -/
def printOpt (sep : Char) (pr : α → List Char) : Option α → List Char
  | none => []
  | some v => sep :: pr v

def LengthSpec.print (l : LengthSpec) : List Char :=
  paren (c!":length" ++ (printOpt ' ' (fun n => form c!":serial" [numeral n]) l.serial ++
    printOpt ' ' (fun n => form c!":parallel" [numeral n]) l.parallel))

def LengthSpec.wf (l : LengthSpec) : Bool :=
  wfOpt (fun n => decide (n < 2 ^ 64)) l.serial && wfOpt (fun n => decide (n < 2 ^ 64)) l.parallel

mutual
def MetricFExp.print : MetricFExp → List Char
  | .number n => n.print
  | .negative e => form c!"-" [e.print]
  | .binaryOp op a b => form op.spell [a.print, b.print]
  | .multiOp op a bs => paren (op.spell ++ ' ' :: (a.print ++ MetricFExp.prints bs))
  | .totalTime => c!"total-time"
  | .isViolated n => form c!"is-violated" [n.print]
  | .function f ns => form f.print (ns.map Name.print)
def MetricFExp.prints : List MetricFExp → List Char
  | [] => []
  | e :: es => ' ' :: (e.print ++ MetricFExp.prints es)
end

mutual
def MetricFExp.wf : MetricFExp → Bool
  | .number n => n.wf
  | .negative e => e.wf
  | .binaryOp _ a b => a.wf && b.wf
  | .multiOp _ a bs => a.wf && decide (2 ≤ bs.length) && MetricFExp.wfs bs
  | .totalTime => true
  | .isViolated n => n.wf
  | .function f ns => f.wf && !(c!"is-violated").isPrefixOf f.text && ns.all Name.wf
def MetricFExp.wfs : List MetricFExp → Bool
  | [] => true
  | e :: es => e.wf && MetricFExp.wfs es
end

def MetricSpec.print (m : MetricSpec) : List Char :=
  form c!":metric" [m.optimization.spell, m.exp.print]
def MetricSpec.wf (m : MetricSpec) : Bool := m.exp.wf

/-! ## Domain and problem -/

/-- A section that is left out when the list is empty. -/
def printList (kw : List Char) (pr : α → List Char) : List α → List Char
  | [] => []
  | xs => '\n' :: form kw (xs.map pr)

def printStructure : List StructureDef → List Char
  | [] => []
  | ss => '\n' :: joined (ss.map StructureDef.print)

def Domain.print (d : Domain) : List Char :=
  paren (c!"define" ++ ' ' :: (form c!"domain" [d.name.print] ++
    (printList c!":extends" Name.print d.extends_ ++
    (printList c!":requirements" Requirement.spell d.requirements ++
    (printList c!":types" (Typed.print Name.print) d.types ++
    (printList c!":constants" (Typed.print Name.print) d.constants ++
    (printList c!":predicates" Skeleton.print d.predicates ++
    (printList c!":functions" (Typed.print Skeleton.print) d.functions ++
    (('\n' :: form c!":constraints" [d.constraints.print]) ++
    printStructure d.structure_)))))))))

/-- The domain parser has no `:timeless` section. -/
def Domain.wf (d : Domain) : Bool :=
  d.name.wf && d.extends_.all Name.wf && d.types.all (Typed.wf Name.wf) &&
    d.constants.all (Typed.wf Name.wf) && d.predicates.all Skeleton.wf &&
    d.functions.all (Typed.wf Skeleton.wf) && d.constraints.wf && d.timeless.isEmpty &&
    d.structure_.all StructureDef.wf

def Problem.print (p : Problem) : List Char :=
  paren (c!"define" ++ ' ' :: (form c!"problem" [p.name.print] ++ '\n' :: (form c!":domain" [p.domain.print] ++
    (printList c!":requirements" Requirement.spell p.requires ++
    (printList c!":objects" (Typed.print Name.print) p.objects ++
    '\n' :: (form c!":init" (p.init.map InitElement.print) ++
    '\n' :: (form c!":goal" [printPre p.goal] ++
    (('\n' :: form c!":constraints" [printPrefCon p.constraints]) ++
    (printOpt '\n' MetricSpec.print p.metricSpec ++ printOpt '\n' LengthSpec.print p.lengthSpec)))))))))

def Problem.wf (p : Problem) : Bool :=
  p.name.wf && p.domain.wf && p.objects.all (Typed.wf Name.wf) && p.init.all InitElement.wf &&
    PreGD.wfs p.goal && PrefConGD.wfs p.constraints && wfOpt MetricSpec.wf p.metricSpec &&
    wfOpt LengthSpec.wf p.lengthSpec

end Pddl
