import Verif.Spec.Grammar

/-!
# Specification: renaming

`X.mapNames φ v` is the value `v` with every name `n` in it replaced by `φ n`.  `Renames ρ s s'` says that
the text `s'` is the text `s` with every word `w` replaced by `ρ w` and with layout exchanged.  Keywords with a
colon, numbers and symbols stay as they are.
-/

namespace Pddl

/-! ## Values -/

def Ty.mapNames (φ : Name → Name) : Ty → Ty
  | .exactly n => .exactly (φ n)
  | .eitherOf ns => .eitherOf (ns.map φ)

def Typed.mapNames (φ : Name → Name) (f : α → α) (x : Typed α) : Typed α := ⟨f x.value, x.ty.mapNames φ⟩

/-- Typed names or variables. -/
def varsMapNames (φ : Name → Name) (xs : TypedList Name) : TypedList Name := xs.map (Typed.mapNames φ φ)

mutual
def Term.mapNames (φ : Name → Name) : Term → Term
  | .name n => .name (φ n)
  | .var v => .var (φ v)
  | .fn f ts => .fn (φ f) (Term.mapNamesL φ ts)
def Term.mapNamesL (φ : Name → Name) : List Term → List Term
  | [] => []
  | t :: ts => t.mapNames φ :: Term.mapNamesL φ ts
end

def FunctionTerm.mapNames (φ : Name → Name) (f : FunctionTerm) : FunctionTerm :=
  ⟨φ f.symbol, f.terms.map (Term.mapNames φ)⟩

def AtomicFormula.mapNames (φ : Name → Name) (f : α → α) : AtomicFormula α → AtomicFormula α
  | .equality a b => .equality (f a) (f b)
  | .predicate p vs => .predicate (φ p) (vs.map f)

def Literal.mapNames (φ : Name → Name) (f : α → α) : Literal α → Literal α
  | .pos a => .pos (a.mapNames φ f)
  | .neg a => .neg (a.mapNames φ f)

def Skeleton.mapNames (φ : Name → Name) (s : Skeleton) : Skeleton := ⟨φ s.symbol, varsMapNames φ s.variables⟩

def BasicFunctionTerm.mapNames (φ : Name → Name) (f : BasicFunctionTerm) : BasicFunctionTerm :=
  ⟨φ f.symbol, f.names.map φ⟩

def FHead.mapNames (φ : Name → Name) : FHead → FHead
  | .simple f => .simple (φ f)
  | .withTerms f ts => .withTerms (φ f) (ts.map (Term.mapNames φ))

mutual
def FExp.mapNames (φ : Name → Name) : FExp → FExp
  | .number n => .number n
  | .function h => .function (h.mapNames φ)
  | .negative e => .negative (e.mapNames φ)
  | .binaryOp op a b => .binaryOp op (a.mapNames φ) (b.mapNames φ)
  | .multiOp op a bs => .multiOp op (a.mapNames φ) (FExp.mapNamesL φ bs)
def FExp.mapNamesL (φ : Name → Name) : List FExp → List FExp
  | [] => []
  | e :: es => e.mapNames φ :: FExp.mapNamesL φ es
end

mutual
def FExpDa.mapNames (φ : Name → Name) : FExpDa → FExpDa
  | .assign op h e => .assign op (h.mapNames φ) (e.mapNames φ)
  | .binaryOp op a b => .binaryOp op (a.mapNames φ) (b.mapNames φ)
  | .multiOp op a bs => .multiOp op (a.mapNames φ) (FExpDa.mapNamesL φ bs)
  | .negative e => .negative (e.mapNames φ)
  | .duration => .duration
  | .fExp e => .fExp (e.mapNames φ)
def FExpDa.mapNamesL (φ : Name → Name) : List FExpDa → List FExpDa
  | [] => []
  | e :: es => e.mapNames φ :: FExpDa.mapNamesL φ es
end

def FExpT.mapNames (φ : Name → Name) : FExpT → FExpT
  | .now => .now
  | .scaled e => .scaled (e.mapNames φ)

def FComp.mapNames (φ : Name → Name) (c : FComp) : FComp := ⟨c.comp, c.first.mapNames φ, c.second.mapNames φ⟩

def FAssignDa.mapNames (φ : Name → Name) (a : FAssignDa) : FAssignDa := ⟨a.op, a.head.mapNames φ, a.exp.mapNames φ⟩

mutual
def MetricFExp.mapNames (φ : Name → Name) : MetricFExp → MetricFExp
  | .binaryOp op a b => .binaryOp op (a.mapNames φ) (b.mapNames φ)
  | .multiOp op a bs => .multiOp op (a.mapNames φ) (MetricFExp.mapNamesL φ bs)
  | .negative e => .negative (e.mapNames φ)
  | .number n => .number n
  | .function f ns => .function (φ f) (ns.map φ)
  | .totalTime => .totalTime
  | .isViolated p => .isViolated (φ p)
def MetricFExp.mapNamesL (φ : Name → Name) : List MetricFExp → List MetricFExp
  | [] => []
  | e :: es => e.mapNames φ :: MetricFExp.mapNamesL φ es
end

mutual
def GD.mapNames (φ : Name → Name) : GD → GD
  | .atomic a => .atomic (a.mapNames φ (Term.mapNames φ))
  | .literal l => .literal (l.mapNames φ (Term.mapNames φ))
  | .and gs => .and (GD.mapNamesL φ gs)
  | .or gs => .or (GD.mapNamesL φ gs)
  | .not g => .not (g.mapNames φ)
  | .imply a b => .imply (a.mapNames φ) (b.mapNames φ)
  | .exist vs g => .exist (varsMapNames φ vs) (g.mapNames φ)
  | .forall_ vs g => .forall_ (varsMapNames φ vs) (g.mapNames φ)
  | .fComp c => .fComp (c.mapNames φ)
def GD.mapNamesL (φ : Name → Name) : List GD → List GD
  | [] => []
  | g :: gs => g.mapNames φ :: GD.mapNamesL φ gs
end

def PrefGD.mapNames (φ : Name → Name) : PrefGD → PrefGD
  | .goal g => .goal (g.mapNames φ)
  | .preference n g => .preference (n.map φ) (g.mapNames φ)

mutual
def PreGD.mapNames (φ : Name → Name) : PreGD → PreGD
  | .preference p => .preference (p.mapNames φ)
  | .forall_ vs gs => .forall_ (varsMapNames φ vs) (PreGD.mapNamesL φ gs)
def PreGD.mapNamesL (φ : Name → Name) : List PreGD → List PreGD
  | [] => []
  | g :: gs => g.mapNames φ :: PreGD.mapNamesL φ gs
end

mutual
def ConGD.mapNames (φ : Name → Name) : ConGD → ConGD
  | .and gs => .and (ConGD.mapNamesL φ gs)
  | .forall_ vs g => .forall_ (varsMapNames φ vs) (g.mapNames φ)
  | .atEnd g => .atEnd (g.mapNames φ)
  | .always g => .always (g.mapNames φ)
  | .sometime g => .sometime (g.mapNames φ)
  | .within n g => .within n (g.mapNames φ)
  | .atMostOnce g => .atMostOnce (g.mapNames φ)
  | .sometimeAfter a b => .sometimeAfter (a.mapNames φ) (b.mapNames φ)
  | .sometimeBefore a b => .sometimeBefore (a.mapNames φ) (b.mapNames φ)
  | .alwaysWithin n a b => .alwaysWithin n (a.mapNames φ) (b.mapNames φ)
  | .holdDuring n m g => .holdDuring n m (g.mapNames φ)
  | .holdAfter n g => .holdAfter n (g.mapNames φ)
def Con2GD.mapNames (φ : Name → Name) : Con2GD → Con2GD
  | .goal g => .goal (g.mapNames φ)
  | .nested g => .nested (g.mapNames φ)
def ConGD.mapNamesL (φ : Name → Name) : List ConGD → List ConGD
  | [] => []
  | g :: gs => g.mapNames φ :: ConGD.mapNamesL φ gs
end

mutual
def PrefConGD.mapNames (φ : Name → Name) : PrefConGD → PrefConGD
  | .goal g => .goal (g.mapNames φ)
  | .forall_ vs gs => .forall_ (varsMapNames φ vs) (PrefConGD.mapNamesL φ gs)
  | .preference n g => .preference (n.map φ) (g.mapNames φ)
def PrefConGD.mapNamesL (φ : Name → Name) : List PrefConGD → List PrefConGD
  | [] => []
  | g :: gs => g.mapNames φ :: PrefConGD.mapNamesL φ gs
end

def PEffect.mapNames (φ : Name → Name) : PEffect → PEffect
  | .atomic a => .atomic (a.mapNames φ (Term.mapNames φ))
  | .notAtomic a => .notAtomic (a.mapNames φ (Term.mapNames φ))
  | .assignNumeric op h e => .assignNumeric op (h.mapNames φ) (e.mapNames φ)
  | .assignObject f t => .assignObject (f.mapNames φ) (t.map (Term.mapNames φ))

def CondEffect.mapNames (φ : Name → Name) : CondEffect → CondEffect
  | .single p => .single (p.mapNames φ)
  | .all ps => .all (ps.map (PEffect.mapNames φ))

mutual
def CEffect.mapNames (φ : Name → Name) : CEffect → CEffect
  | .effect p => .effect (p.mapNames φ)
  | .forall_ vs es => .forall_ (varsMapNames φ vs) (CEffect.mapNamesL φ es)
  | .when c e => .when (c.mapNames φ) (e.mapNames φ)
def CEffect.mapNamesL (φ : Name → Name) : List CEffect → List CEffect
  | [] => []
  | e :: es => e.mapNames φ :: CEffect.mapNamesL φ es
end

def ActionDef.mapNames (φ : Name → Name) (a : ActionDef) : ActionDef :=
  ⟨φ a.symbol, varsMapNames φ a.parameters, a.precondition.map (PreGD.mapNames φ),
    a.effect.map (List.map (CEffect.mapNames φ))⟩

def DerivedPredicate.mapNames (φ : Name → Name) (d : DerivedPredicate) : DerivedPredicate :=
  ⟨d.predicate.mapNames φ, d.goal.mapNames φ⟩

def TimedGD.mapNames (φ : Name → Name) : TimedGD → TimedGD
  | .at t g => .at t (g.mapNames φ)
  | .over i g => .over i (g.mapNames φ)

def PrefTimedGD.mapNames (φ : Name → Name) : PrefTimedGD → PrefTimedGD
  | .required g => .required (g.mapNames φ)
  | .preference n g => .preference (n.map φ) (g.mapNames φ)

mutual
def DaGD.mapNames (φ : Name → Name) : DaGD → DaGD
  | .timed g => .timed (g.mapNames φ)
  | .and gs => .and (DaGD.mapNamesL φ gs)
  | .forall_ vs g => .forall_ (varsMapNames φ vs) (g.mapNames φ)
def DaGD.mapNamesL (φ : Name → Name) : List DaGD → List DaGD
  | [] => []
  | g :: gs => g.mapNames φ :: DaGD.mapNamesL φ gs
end

def TimedEffect.mapNames (φ : Name → Name) : TimedEffect → TimedEffect
  | .conditional t e => .conditional t (e.mapNames φ)
  | .numericFluent t e => .numericFluent t (e.mapNames φ)
  | .continuous op h e => .continuous op (h.mapNames φ) (e.mapNames φ)

mutual
def DaEffect.mapNames (φ : Name → Name) : DaEffect → DaEffect
  | .timed e => .timed (e.mapNames φ)
  | .all es => .all (DaEffect.mapNamesL φ es)
  | .forall_ vs e => .forall_ (varsMapNames φ vs) (e.mapNames φ)
  | .when g e => .when (g.mapNames φ) (e.mapNames φ)
def DaEffect.mapNamesL (φ : Name → Name) : List DaEffect → List DaEffect
  | [] => []
  | e :: es => e.mapNames φ :: DaEffect.mapNamesL φ es
end

def DurationValue.mapNames (φ : Name → Name) : DurationValue → DurationValue
  | .number n => .number n
  | .fExp e => .fExp (e.mapNames φ)

def SimpleDuration.mapNames (φ : Name → Name) : SimpleDuration → SimpleDuration
  | .op o v => .op o (v.mapNames φ)
  | .at t c => .at t (c.mapNames φ)

def DurationConstraint.mapNames (φ : Name → Name) : DurationConstraint → DurationConstraint
  | .single c => .single (c.mapNames φ)
  | .all cs => .all (cs.map (SimpleDuration.mapNames φ))

def DaDef.mapNames (φ : Name → Name) (a : DaDef) : DaDef :=
  ⟨φ a.symbol, varsMapNames φ a.parameters, a.duration.map (DurationConstraint.mapNames φ),
    a.condition.map (DaGD.mapNames φ), a.effect.map (DaEffect.mapNames φ)⟩

def StructureDef.mapNames (φ : Name → Name) : StructureDef → StructureDef
  | .action a => .action (a.mapNames φ)
  | .durative a => .durative (a.mapNames φ)
  | .derived d => .derived (d.mapNames φ)

def InitElement.mapNames (φ : Name → Name) : InitElement → InitElement
  | .literal l => .literal (l.mapNames φ φ)
  | .at t l => .at t (l.mapNames φ φ)
  | .isValue f v => .isValue (f.mapNames φ) v
  | .isObject f o => .isObject (f.mapNames φ) (φ o)

def MetricSpec.mapNames (φ : Name → Name) (m : MetricSpec) : MetricSpec := ⟨m.optimization, m.exp.mapNames φ⟩

def Domain.mapNames (φ : Name → Name) (d : Domain) : Domain where
  name := φ d.name
  extends_ := d.extends_.map φ
  requirements := d.requirements
  types := varsMapNames φ d.types
  constants := varsMapNames φ d.constants
  predicates := d.predicates.map (Skeleton.mapNames φ)
  functions := d.functions.map (Typed.mapNames φ (Skeleton.mapNames φ))
  constraints := d.constraints.mapNames φ
  timeless := d.timeless.map (Literal.mapNames φ φ)
  structure_ := d.structure_.map (StructureDef.mapNames φ)

def Problem.mapNames (φ : Name → Name) (p : Problem) : Problem where
  name := φ p.name
  domain := φ p.domain
  requires := p.requires
  objects := varsMapNames φ p.objects
  init := p.init.map (InitElement.mapNames φ)
  goal := p.goal.map (PreGD.mapNames φ)
  constraints := p.constraints.map (PrefConGD.mapNames φ)
  metricSpec := p.metricSpec.map (MetricSpec.mapNames φ)
  lengthSpec := p.lengthSpec

/-! ## Texts -/

/-- The words that mean something to PDDL. -/
def reserved : List (List Char) := [
  c!"define", c!"domain", c!"problem", c!"object", c!"number", c!"either", c!"and", c!"or", c!"not", c!"imply",
  c!"exists", c!"forall", c!"when", c!"preference", c!"assign", c!"change", c!"scale-up", c!"scale-down",
  c!"increase", c!"decrease", c!"undefined", c!"at", c!"over", c!"all", c!"start", c!"end", c!"duration",
  c!"always", c!"sometime", c!"within", c!"at-most-once", c!"sometime-after", c!"sometime-before",
  c!"always-within", c!"hold-during", c!"hold-after", c!"minimize", c!"maximize", c!"total-time", c!"is-violated"]

/-- What stands behind a colon or `#` in keywords of PDDL. -/
def sigiled : Char → List (List Char)
  | ':' => [
    c!"extends", c!"requirements", c!"types", c!"constants", c!"predicates", c!"functions", c!"constraints",
    c!"timeless", c!"derived", c!"action", c!"durative-action", c!"parameters", c!"precondition", c!"effect",
    c!"duration", c!"condition", c!"domain", c!"objects", c!"init", c!"goal", c!"metric", c!"length", c!"serial",
    c!"parallel",
    c!"strips", c!"typing", c!"negative-preconditions", c!"disjunctive-preconditions", c!"equality",
    c!"existential-preconditions", c!"universal-preconditions", c!"quantified-preconditions",
    c!"conditional-effects", c!"fluents", c!"numeric-fluents", c!"object-fluents", c!"adl", c!"durative-actions",
    c!"duration-inequalities", c!"continuous-effects", c!"derived-predicates", c!"timed-initial-literals",
    c!"preferences", c!"action-costs"]
  | '#' => [c!"t"]
  | _ => []

/-- No word of PDDL is a prefix of `w`. -/
def Unreserved (w : List Char) : Prop := ∀ k ∈ reserved, ¬ k <+: w

/-- Behind every one of the keywords `ks` that begins the word `w`, nothing is renamed. -/
def TailKept (ρ : List Char → List Char) (ks : List (List Char)) (w : List Char) : Prop :=
  ∀ k ∈ ks, ∀ u, w = k ++ u → ∀ x, x <:+ u → ρ x = x

/-- `w` can be renamed to `ρ w`: neither begins with a word of PDDL, or `w` is kept. -/
def CanRename (ρ : List Char → List Char) (w : List Char) : Prop :=
  IsWord (ρ w) ∧ Unreserved w ∧ Unreserved (ρ w) ∨ ρ w = w ∧ TailKept ρ reserved w

/-- `at end` is written with one blank in `s` if and only if it is in `s'`.  Here `w` is the word before `s`. -/
def SameAtEnd (w s s' : List Char) : Prop := c!"at" <:+ w → (c!" end" <+: s ↔ c!" end" <+: s')

/-- `s'` is `s` with every word `w` replaced by `ρ w`, every run of blanks by another one and the text of every
comment by another one. -/
inductive Renames (ρ : List Char → List Char) : List Char → List Char → Prop
  | nil : Renames ρ [] []
  /-- Digits, parentheses, operators, question marks and so on. -/
  | char {c s s'} : isLetter c = false → isBlank c = false → c ≠ ';' → c ≠ ':' → c ≠ '#' → Renames ρ s s' →
      Renames ρ (c :: s) (c :: s')
  /-- A run of blanks and line breaks. -/
  | blanks {g g' s s'} : g ≠ [] → (∀ d ∈ g, isBlank d = true) → g' ≠ [] → (∀ d ∈ g', isBlank d = true) →
      (∀ d r, s = d :: r → isBlank d = false) → Renames ρ s s' → Renames ρ (g ++ s) (g' ++ s')
  | word {w s s'} : IsWord w → CanRename ρ w → (∀ d r, s = d :: r → isWordChar d = false) → SameAtEnd w s s' →
      Renames ρ s s' → Renames ρ (w ++ s) (ρ w ++ s')
  /-- `:action`, `#t` and so on. -/
  | sigil {c w s s'} : c = ':' ∨ c = '#' → (∀ d ∈ w, isWordChar d = true) → TailKept ρ (sigiled c) w →
      (∀ d r, s = d :: r → isWordChar d = false) → SameAtEnd w s s' →
      Renames ρ s s' → Renames ρ (c :: (w ++ s)) (c :: (w ++ s'))
  /-- A comment up to the end of the line. -/
  | comment {b b' s s'} : (∀ d ∈ b, isNewline d = false) → (∀ d ∈ b', isNewline d = false) → (b = [] ↔ b' = []) →
      (∀ d r, s = d :: r → isNewline d = true) → (∀ d r, s' = d :: r → isNewline d = true) →
      Renames ρ s s' → Renames ρ (';' :: (b ++ s)) (';' :: (b' ++ s'))

/-! ## Layout -/

/-- What matters about a text where layout does not. -/
inductive Mark
  /-- Any other character. -/
  | char (c : Char)
  /-- A run of blanks and line breaks. -/
  | gap
  /-- A word, and whether it ends in `at` and is followed by exactly one blank and `end`. -/
  | word (w : List Char) (atEnd : Bool)
  /-- A colon or `#` and what stands directly behind it. -/
  | sigil (c : Char) (w : List Char) (atEnd : Bool)
  /-- A semicolon and the rest of the line, and whether that is empty. -/
  | comment (empty : Bool)
  deriving DecidableEq

/-- `w` ends in `at` and is followed by exactly one blank and `end`. -/
def isAtEnd (w s : List Char) : Bool := decide (c!"at" <:+ w ∧ c!" end" <+: s)

/-- The marks of `s`, with `n` bounding their number. -/
def shapeF : Nat → List Char → List Mark
  | 0, _ => []
  | _ + 1, [] => []
  | n + 1, c :: s =>
    if isLetter c then
      .word (c :: s.takeWhile isWordChar) (isAtEnd (c :: s.takeWhile isWordChar) (s.dropWhile isWordChar)) ::
        shapeF n (s.dropWhile isWordChar)
    else if c = ';' then
      .comment (s.takeWhile fun d => !isNewline d).isEmpty :: shapeF n (s.dropWhile fun d => !isNewline d)
    else if c = ':' ∨ c = '#' then
      .sigil c (s.takeWhile isWordChar) (isAtEnd (s.takeWhile isWordChar) (s.dropWhile isWordChar)) ::
        shapeF n (s.dropWhile isWordChar)
    else if isBlank c then .gap :: shapeF n (s.dropWhile isBlank)
    else .char c :: shapeF n s

/-- A text without its layout: two texts have the same shape if they differ only in how long runs of blanks are and
what comments say. -/
def shape (s : List Char) : List Mark := shapeF s.length s

/-! ## Renaming as a function -/

/-- What a text consists of as far as renaming is concerned. -/
inductive Piece
  /-- Any other character. -/
  | char (c : Char)
  /-- A letter and the letters, digits, hyphens and underscores behind it. -/
  | word (w : List Char)
  /-- A colon or `#` and what stands directly behind it. -/
  | sigil (c : Char) (w : List Char)
  /-- A semicolon and the rest of the line. -/
  | comment (b : List Char)
  deriving DecidableEq

/-- The pieces of `s`, with `n` bounding their number. -/
def piecesF : Nat → List Char → List Piece
  | 0, _ => []
  | _ + 1, [] => []
  | n + 1, c :: s =>
    if isLetter c then .word (c :: s.takeWhile isWordChar) :: piecesF n (s.dropWhile isWordChar)
    else if c = ';' then
      .comment (s.takeWhile fun d => !isNewline d) :: piecesF n (s.dropWhile fun d => !isNewline d)
    else if c = ':' ∨ c = '#' then .sigil c (s.takeWhile isWordChar) :: piecesF n (s.dropWhile isWordChar)
    else .char c :: piecesF n s

/-- The pieces of a text. -/
def pieces (s : List Char) : List Piece := piecesF s.length s

/-- A piece with its word renamed. -/
def Piece.renamed (ρ : List Char → List Char) : Piece → List Char
  | .char c => [c]
  | .word w => ρ w
  | .sigil c w => c :: w
  | .comment b => ';' :: b

/-- The text with every word `w` replaced by `ρ w`. -/
def renameText (ρ : List Char → List Char) (s : List Char) : List Char := (pieces s).flatMap (Piece.renamed ρ)

/-- `a` becomes `b`, every other word stays. -/
def renameOne (a b : List Char) (w : List Char) : List Char := if w = a then b else w

/-- The word `a` is not the end of a longer word of the piece. -/
def Piece.Whole (a : List Char) : Piece → Prop
  | .word w => a <:+ w → w = a
  | .sigil _ w => ¬ a <:+ w
  | _ => True

instance (a : List Char) : (t : Piece) → Decidable (t.Whole a)
  | .word w => inferInstanceAs (Decidable (a <:+ w → w = a))
  | .sigil _ w => inferInstanceAs (Decidable (¬ a <:+ w))
  | .char _ => .isTrue trivial
  | .comment _ => .isTrue trivial

instance (w : List Char) : Decidable (Unreserved w) := inferInstanceAs (Decidable (∀ k ∈ reserved, ¬ k <+: w))

/-- The name with the renamed text. -/
def Name.rename (ρ : List Char → List Char) (n : Name) : Name :=
  if ρ n.text = n.text then n else wordName (ρ n.text)

end Pddl
