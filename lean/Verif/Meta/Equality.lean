import Verif.Equality
import Verif.Props.Number

/-!
# `==` compares everything
-/

namespace Pddl

theorem listSame_iff {f : α → α → Bool} (h : ∀ a b, f a b = true ↔ a = b) :
    ∀ as bs, listSame f as bs = true ↔ as = bs
  | [], [] => by simp [listSame]
  | [], _ :: _ => by simp [listSame]
  | _ :: _, [] => by simp [listSame]
  | a :: as, b :: bs => by simp [listSame, h, listSame_iff h as bs]

theorem optSame_iff {f : α → α → Bool} (h : ∀ a b, f a b = true ↔ a = b) :
    ∀ a b, optSame f a b = true ↔ a = b
  | none, none => by simp [optSame]
  | none, some _ => by simp [optSame]
  | some _, none => by simp [optSame]
  | some a, some b => by simp [optSame, h]

theorem Name.same_iff : ∀ a b : Name, a.same b = true ↔ a = b
  | .str a, .str b => by simp [Name.same]
  | .str a, .static b => by simp [Name.same]
  | .static a, .str b => by simp [Name.same]
  | .static a, .static b => by simp [Name.same]

theorem Number.same_iff (a b : Number) : a.same b = true ↔ a = b := C37_eq_is_identity a b

theorem Ty.same_iff : ∀ a b : Ty, a.same b = true ↔ a = b
  | .exactly a0, .exactly b0 => by simp [Ty.same, Name.same_iff a0 b0, and_assoc]
  | .exactly _, .eitherOf _ => by simp [Ty.same]
  | .eitherOf a0, .eitherOf b0 => by simp [Ty.same, (listSame_iff Name.same_iff) a0 b0, and_assoc]
  | .eitherOf _, .exactly _ => by simp [Ty.same]

theorem Typed.same_iff {α : Type} {f : α → α → Bool} (h : ∀ a b, f a b = true ↔ a = b) : ∀ a b : Typed α, Typed.same f a b = true ↔ a = b
  | ⟨a0, a1⟩, ⟨b0, b1⟩ => by simp [Typed.same, h a0 b0, Ty.same_iff a1 b1, and_assoc]

mutual
theorem Term.same_iff : ∀ a b : Term, a.same b = true ↔ a = b
  | .name a0, .name b0 => by simp [Term.same, Name.same_iff a0 b0, and_assoc]
  | .name _, .var _ => by simp [Term.same]
  | .name _, .fn _ _ => by simp [Term.same]
  | .var a0, .var b0 => by simp [Term.same, Name.same_iff a0 b0, and_assoc]
  | .var _, .name _ => by simp [Term.same]
  | .var _, .fn _ _ => by simp [Term.same]
  | .fn a0 a1, .fn b0 b1 => by simp [Term.same, Name.same_iff a0 b0, Term.sameL_iff a1 b1, and_assoc]
  | .fn _ _, .name _ => by simp [Term.same]
  | .fn _ _, .var _ => by simp [Term.same]
theorem Term.sameL_iff : ∀ as bs : List Term, Term.sameL as bs = true ↔ as = bs
  | [], [] => by simp [Term.sameL]
  | [], _ :: _ => by simp [Term.sameL]
  | _ :: _, [] => by simp [Term.sameL]
  | a :: as, b :: bs => by simp [Term.sameL, Term.same_iff a b, Term.sameL_iff as bs]
end

theorem FunctionTerm.same_iff : ∀ a b : FunctionTerm, a.same b = true ↔ a = b
  | ⟨a0, a1⟩, ⟨b0, b1⟩ => by simp [FunctionTerm.same, Name.same_iff a0 b0, (listSame_iff Term.same_iff) a1 b1, and_assoc]

theorem AtomicFormula.same_iff {α : Type} {f : α → α → Bool} (h : ∀ a b, f a b = true ↔ a = b) : ∀ a b : AtomicFormula α, AtomicFormula.same f a b = true ↔ a = b
  | .equality a0 a1, .equality b0 b1 => by simp [AtomicFormula.same, h a0 b0, h a1 b1, and_assoc]
  | .equality _ _, .predicate _ _ => by simp [AtomicFormula.same]
  | .predicate a0 a1, .predicate b0 b1 => by simp [AtomicFormula.same, Name.same_iff a0 b0, (listSame_iff h) a1 b1, and_assoc]
  | .predicate _ _, .equality _ _ => by simp [AtomicFormula.same]

theorem Literal.same_iff {α : Type} {f : α → α → Bool} (h : ∀ a b, f a b = true ↔ a = b) : ∀ a b : Literal α, Literal.same f a b = true ↔ a = b
  | .pos a0, .pos b0 => by simp [Literal.same, (AtomicFormula.same_iff h) a0 b0, and_assoc]
  | .pos _, .neg _ => by simp [Literal.same]
  | .neg a0, .neg b0 => by simp [Literal.same, (AtomicFormula.same_iff h) a0 b0, and_assoc]
  | .neg _, .pos _ => by simp [Literal.same]

theorem Skeleton.same_iff : ∀ a b : Skeleton, a.same b = true ↔ a = b
  | ⟨a0, a1⟩, ⟨b0, b1⟩ => by simp [Skeleton.same, Name.same_iff a0 b0, (listSame_iff (Typed.same_iff Name.same_iff)) a1 b1, and_assoc]

theorem BasicFunctionTerm.same_iff : ∀ a b : BasicFunctionTerm, a.same b = true ↔ a = b
  | ⟨a0, a1⟩, ⟨b0, b1⟩ => by simp [BasicFunctionTerm.same, Name.same_iff a0 b0, (listSame_iff Name.same_iff) a1 b1, and_assoc]

theorem FHead.same_iff : ∀ a b : FHead, a.same b = true ↔ a = b
  | .simple a0, .simple b0 => by simp [FHead.same, Name.same_iff a0 b0, and_assoc]
  | .simple _, .withTerms _ _ => by simp [FHead.same]
  | .withTerms a0 a1, .withTerms b0 b1 => by simp [FHead.same, Name.same_iff a0 b0, (listSame_iff Term.same_iff) a1 b1, and_assoc]
  | .withTerms _ _, .simple _ => by simp [FHead.same]

theorem BinaryOp.same_iff (a b : BinaryOp) : a.same b = true ↔ a = b := beq_iff_eq

theorem MultiOp.same_iff (a b : MultiOp) : a.same b = true ↔ a = b := beq_iff_eq

theorem BinaryComp.same_iff (a b : BinaryComp) : a.same b = true ↔ a = b := beq_iff_eq

theorem AssignOp.same_iff (a b : AssignOp) : a.same b = true ↔ a = b := beq_iff_eq

theorem AssignOpT.same_iff (a b : AssignOpT) : a.same b = true ↔ a = b := beq_iff_eq

theorem DOp.same_iff (a b : DOp) : a.same b = true ↔ a = b := beq_iff_eq

theorem Optimization.same_iff (a b : Optimization) : a.same b = true ↔ a = b := beq_iff_eq

theorem TimeSpecifier.same_iff (a b : TimeSpecifier) : a.same b = true ↔ a = b := beq_iff_eq

theorem Interval.same_iff (a b : Interval) : a.same b = true ↔ a = b := beq_iff_eq

theorem Requirement.same_iff (a b : Requirement) : a.same b = true ↔ a = b := beq_iff_eq

mutual
theorem FExp.same_iff : ∀ a b : FExp, a.same b = true ↔ a = b
  | .number a0, .number b0 => by simp [FExp.same, Number.same_iff a0 b0, and_assoc]
  | .number _, .function _ => by simp [FExp.same]
  | .number _, .negative _ => by simp [FExp.same]
  | .number _, .binaryOp _ _ _ => by simp [FExp.same]
  | .number _, .multiOp _ _ _ => by simp [FExp.same]
  | .function a0, .function b0 => by simp [FExp.same, FHead.same_iff a0 b0, and_assoc]
  | .function _, .number _ => by simp [FExp.same]
  | .function _, .negative _ => by simp [FExp.same]
  | .function _, .binaryOp _ _ _ => by simp [FExp.same]
  | .function _, .multiOp _ _ _ => by simp [FExp.same]
  | .negative a0, .negative b0 => by simp [FExp.same, FExp.same_iff a0 b0, and_assoc]
  | .negative _, .number _ => by simp [FExp.same]
  | .negative _, .function _ => by simp [FExp.same]
  | .negative _, .binaryOp _ _ _ => by simp [FExp.same]
  | .negative _, .multiOp _ _ _ => by simp [FExp.same]
  | .binaryOp a0 a1 a2, .binaryOp b0 b1 b2 => by simp [FExp.same, BinaryOp.same_iff a0 b0, FExp.same_iff a1 b1, FExp.same_iff a2 b2, and_assoc]
  | .binaryOp _ _ _, .number _ => by simp [FExp.same]
  | .binaryOp _ _ _, .function _ => by simp [FExp.same]
  | .binaryOp _ _ _, .negative _ => by simp [FExp.same]
  | .binaryOp _ _ _, .multiOp _ _ _ => by simp [FExp.same]
  | .multiOp a0 a1 a2, .multiOp b0 b1 b2 => by simp [FExp.same, MultiOp.same_iff a0 b0, FExp.same_iff a1 b1, FExp.sameL_iff a2 b2, and_assoc]
  | .multiOp _ _ _, .number _ => by simp [FExp.same]
  | .multiOp _ _ _, .function _ => by simp [FExp.same]
  | .multiOp _ _ _, .negative _ => by simp [FExp.same]
  | .multiOp _ _ _, .binaryOp _ _ _ => by simp [FExp.same]
theorem FExp.sameL_iff : ∀ as bs : List FExp, FExp.sameL as bs = true ↔ as = bs
  | [], [] => by simp [FExp.sameL]
  | [], _ :: _ => by simp [FExp.sameL]
  | _ :: _, [] => by simp [FExp.sameL]
  | a :: as, b :: bs => by simp [FExp.sameL, FExp.same_iff a b, FExp.sameL_iff as bs]
end

mutual
theorem FExpDa.same_iff : ∀ a b : FExpDa, a.same b = true ↔ a = b
  | .assign a0 a1 a2, .assign b0 b1 b2 => by simp [FExpDa.same, AssignOp.same_iff a0 b0, FHead.same_iff a1 b1, FExpDa.same_iff a2 b2, and_assoc]
  | .assign _ _ _, .binaryOp _ _ _ => by simp [FExpDa.same]
  | .assign _ _ _, .multiOp _ _ _ => by simp [FExpDa.same]
  | .assign _ _ _, .negative _ => by simp [FExpDa.same]
  | .assign _ _ _, .duration => by simp [FExpDa.same]
  | .assign _ _ _, .fExp _ => by simp [FExpDa.same]
  | .binaryOp a0 a1 a2, .binaryOp b0 b1 b2 => by simp [FExpDa.same, BinaryOp.same_iff a0 b0, FExpDa.same_iff a1 b1, FExpDa.same_iff a2 b2, and_assoc]
  | .binaryOp _ _ _, .assign _ _ _ => by simp [FExpDa.same]
  | .binaryOp _ _ _, .multiOp _ _ _ => by simp [FExpDa.same]
  | .binaryOp _ _ _, .negative _ => by simp [FExpDa.same]
  | .binaryOp _ _ _, .duration => by simp [FExpDa.same]
  | .binaryOp _ _ _, .fExp _ => by simp [FExpDa.same]
  | .multiOp a0 a1 a2, .multiOp b0 b1 b2 => by simp [FExpDa.same, MultiOp.same_iff a0 b0, FExpDa.same_iff a1 b1, FExpDa.sameL_iff a2 b2, and_assoc]
  | .multiOp _ _ _, .assign _ _ _ => by simp [FExpDa.same]
  | .multiOp _ _ _, .binaryOp _ _ _ => by simp [FExpDa.same]
  | .multiOp _ _ _, .negative _ => by simp [FExpDa.same]
  | .multiOp _ _ _, .duration => by simp [FExpDa.same]
  | .multiOp _ _ _, .fExp _ => by simp [FExpDa.same]
  | .negative a0, .negative b0 => by simp [FExpDa.same, FExpDa.same_iff a0 b0, and_assoc]
  | .negative _, .assign _ _ _ => by simp [FExpDa.same]
  | .negative _, .binaryOp _ _ _ => by simp [FExpDa.same]
  | .negative _, .multiOp _ _ _ => by simp [FExpDa.same]
  | .negative _, .duration => by simp [FExpDa.same]
  | .negative _, .fExp _ => by simp [FExpDa.same]
  | .duration, .duration => by simp [FExpDa.same, and_assoc]
  | .duration, .assign _ _ _ => by simp [FExpDa.same]
  | .duration, .binaryOp _ _ _ => by simp [FExpDa.same]
  | .duration, .multiOp _ _ _ => by simp [FExpDa.same]
  | .duration, .negative _ => by simp [FExpDa.same]
  | .duration, .fExp _ => by simp [FExpDa.same]
  | .fExp a0, .fExp b0 => by simp [FExpDa.same, FExp.same_iff a0 b0, and_assoc]
  | .fExp _, .assign _ _ _ => by simp [FExpDa.same]
  | .fExp _, .binaryOp _ _ _ => by simp [FExpDa.same]
  | .fExp _, .multiOp _ _ _ => by simp [FExpDa.same]
  | .fExp _, .negative _ => by simp [FExpDa.same]
  | .fExp _, .duration => by simp [FExpDa.same]
theorem FExpDa.sameL_iff : ∀ as bs : List FExpDa, FExpDa.sameL as bs = true ↔ as = bs
  | [], [] => by simp [FExpDa.sameL]
  | [], _ :: _ => by simp [FExpDa.sameL]
  | _ :: _, [] => by simp [FExpDa.sameL]
  | a :: as, b :: bs => by simp [FExpDa.sameL, FExpDa.same_iff a b, FExpDa.sameL_iff as bs]
end

theorem FExpT.same_iff : ∀ a b : FExpT, a.same b = true ↔ a = b
  | .now, .now => by simp [FExpT.same, and_assoc]
  | .now, .scaled _ => by simp [FExpT.same]
  | .scaled a0, .scaled b0 => by simp [FExpT.same, FExp.same_iff a0 b0, and_assoc]
  | .scaled _, .now => by simp [FExpT.same]

theorem FComp.same_iff : ∀ a b : FComp, a.same b = true ↔ a = b
  | ⟨a0, a1, a2⟩, ⟨b0, b1, b2⟩ => by simp [FComp.same, BinaryComp.same_iff a0 b0, FExp.same_iff a1 b1, FExp.same_iff a2 b2, and_assoc]

theorem FAssignDa.same_iff : ∀ a b : FAssignDa, a.same b = true ↔ a = b
  | ⟨a0, a1, a2⟩, ⟨b0, b1, b2⟩ => by simp [FAssignDa.same, AssignOp.same_iff a0 b0, FHead.same_iff a1 b1, FExpDa.same_iff a2 b2, and_assoc]

mutual
theorem MetricFExp.same_iff : ∀ a b : MetricFExp, a.same b = true ↔ a = b
  | .binaryOp a0 a1 a2, .binaryOp b0 b1 b2 => by simp [MetricFExp.same, BinaryOp.same_iff a0 b0, MetricFExp.same_iff a1 b1, MetricFExp.same_iff a2 b2, and_assoc]
  | .binaryOp _ _ _, .multiOp _ _ _ => by simp [MetricFExp.same]
  | .binaryOp _ _ _, .negative _ => by simp [MetricFExp.same]
  | .binaryOp _ _ _, .number _ => by simp [MetricFExp.same]
  | .binaryOp _ _ _, .function _ _ => by simp [MetricFExp.same]
  | .binaryOp _ _ _, .totalTime => by simp [MetricFExp.same]
  | .binaryOp _ _ _, .isViolated _ => by simp [MetricFExp.same]
  | .multiOp a0 a1 a2, .multiOp b0 b1 b2 => by simp [MetricFExp.same, MultiOp.same_iff a0 b0, MetricFExp.same_iff a1 b1, MetricFExp.sameL_iff a2 b2, and_assoc]
  | .multiOp _ _ _, .binaryOp _ _ _ => by simp [MetricFExp.same]
  | .multiOp _ _ _, .negative _ => by simp [MetricFExp.same]
  | .multiOp _ _ _, .number _ => by simp [MetricFExp.same]
  | .multiOp _ _ _, .function _ _ => by simp [MetricFExp.same]
  | .multiOp _ _ _, .totalTime => by simp [MetricFExp.same]
  | .multiOp _ _ _, .isViolated _ => by simp [MetricFExp.same]
  | .negative a0, .negative b0 => by simp [MetricFExp.same, MetricFExp.same_iff a0 b0, and_assoc]
  | .negative _, .binaryOp _ _ _ => by simp [MetricFExp.same]
  | .negative _, .multiOp _ _ _ => by simp [MetricFExp.same]
  | .negative _, .number _ => by simp [MetricFExp.same]
  | .negative _, .function _ _ => by simp [MetricFExp.same]
  | .negative _, .totalTime => by simp [MetricFExp.same]
  | .negative _, .isViolated _ => by simp [MetricFExp.same]
  | .number a0, .number b0 => by simp [MetricFExp.same, Number.same_iff a0 b0, and_assoc]
  | .number _, .binaryOp _ _ _ => by simp [MetricFExp.same]
  | .number _, .multiOp _ _ _ => by simp [MetricFExp.same]
  | .number _, .negative _ => by simp [MetricFExp.same]
  | .number _, .function _ _ => by simp [MetricFExp.same]
  | .number _, .totalTime => by simp [MetricFExp.same]
  | .number _, .isViolated _ => by simp [MetricFExp.same]
  | .function a0 a1, .function b0 b1 => by simp [MetricFExp.same, Name.same_iff a0 b0, (listSame_iff Name.same_iff) a1 b1, and_assoc]
  | .function _ _, .binaryOp _ _ _ => by simp [MetricFExp.same]
  | .function _ _, .multiOp _ _ _ => by simp [MetricFExp.same]
  | .function _ _, .negative _ => by simp [MetricFExp.same]
  | .function _ _, .number _ => by simp [MetricFExp.same]
  | .function _ _, .totalTime => by simp [MetricFExp.same]
  | .function _ _, .isViolated _ => by simp [MetricFExp.same]
  | .totalTime, .totalTime => by simp [MetricFExp.same, and_assoc]
  | .totalTime, .binaryOp _ _ _ => by simp [MetricFExp.same]
  | .totalTime, .multiOp _ _ _ => by simp [MetricFExp.same]
  | .totalTime, .negative _ => by simp [MetricFExp.same]
  | .totalTime, .number _ => by simp [MetricFExp.same]
  | .totalTime, .function _ _ => by simp [MetricFExp.same]
  | .totalTime, .isViolated _ => by simp [MetricFExp.same]
  | .isViolated a0, .isViolated b0 => by simp [MetricFExp.same, Name.same_iff a0 b0, and_assoc]
  | .isViolated _, .binaryOp _ _ _ => by simp [MetricFExp.same]
  | .isViolated _, .multiOp _ _ _ => by simp [MetricFExp.same]
  | .isViolated _, .negative _ => by simp [MetricFExp.same]
  | .isViolated _, .number _ => by simp [MetricFExp.same]
  | .isViolated _, .function _ _ => by simp [MetricFExp.same]
  | .isViolated _, .totalTime => by simp [MetricFExp.same]
theorem MetricFExp.sameL_iff : ∀ as bs : List MetricFExp, MetricFExp.sameL as bs = true ↔ as = bs
  | [], [] => by simp [MetricFExp.sameL]
  | [], _ :: _ => by simp [MetricFExp.sameL]
  | _ :: _, [] => by simp [MetricFExp.sameL]
  | a :: as, b :: bs => by simp [MetricFExp.sameL, MetricFExp.same_iff a b, MetricFExp.sameL_iff as bs]
end

mutual
theorem GD.same_iff : ∀ a b : GD, a.same b = true ↔ a = b
  | .atomic a0, .atomic b0 => by simp [GD.same, (AtomicFormula.same_iff Term.same_iff) a0 b0, and_assoc]
  | .atomic _, .literal _ => by simp [GD.same]
  | .atomic _, .and _ => by simp [GD.same]
  | .atomic _, .or _ => by simp [GD.same]
  | .atomic _, .not _ => by simp [GD.same]
  | .atomic _, .imply _ _ => by simp [GD.same]
  | .atomic _, .exist _ _ => by simp [GD.same]
  | .atomic _, .forall_ _ _ => by simp [GD.same]
  | .atomic _, .fComp _ => by simp [GD.same]
  | .literal a0, .literal b0 => by simp [GD.same, (Literal.same_iff Term.same_iff) a0 b0, and_assoc]
  | .literal _, .atomic _ => by simp [GD.same]
  | .literal _, .and _ => by simp [GD.same]
  | .literal _, .or _ => by simp [GD.same]
  | .literal _, .not _ => by simp [GD.same]
  | .literal _, .imply _ _ => by simp [GD.same]
  | .literal _, .exist _ _ => by simp [GD.same]
  | .literal _, .forall_ _ _ => by simp [GD.same]
  | .literal _, .fComp _ => by simp [GD.same]
  | .and a0, .and b0 => by simp [GD.same, GD.sameL_iff a0 b0, and_assoc]
  | .and _, .atomic _ => by simp [GD.same]
  | .and _, .literal _ => by simp [GD.same]
  | .and _, .or _ => by simp [GD.same]
  | .and _, .not _ => by simp [GD.same]
  | .and _, .imply _ _ => by simp [GD.same]
  | .and _, .exist _ _ => by simp [GD.same]
  | .and _, .forall_ _ _ => by simp [GD.same]
  | .and _, .fComp _ => by simp [GD.same]
  | .or a0, .or b0 => by simp [GD.same, GD.sameL_iff a0 b0, and_assoc]
  | .or _, .atomic _ => by simp [GD.same]
  | .or _, .literal _ => by simp [GD.same]
  | .or _, .and _ => by simp [GD.same]
  | .or _, .not _ => by simp [GD.same]
  | .or _, .imply _ _ => by simp [GD.same]
  | .or _, .exist _ _ => by simp [GD.same]
  | .or _, .forall_ _ _ => by simp [GD.same]
  | .or _, .fComp _ => by simp [GD.same]
  | .not a0, .not b0 => by simp [GD.same, GD.same_iff a0 b0, and_assoc]
  | .not _, .atomic _ => by simp [GD.same]
  | .not _, .literal _ => by simp [GD.same]
  | .not _, .and _ => by simp [GD.same]
  | .not _, .or _ => by simp [GD.same]
  | .not _, .imply _ _ => by simp [GD.same]
  | .not _, .exist _ _ => by simp [GD.same]
  | .not _, .forall_ _ _ => by simp [GD.same]
  | .not _, .fComp _ => by simp [GD.same]
  | .imply a0 a1, .imply b0 b1 => by simp [GD.same, GD.same_iff a0 b0, GD.same_iff a1 b1, and_assoc]
  | .imply _ _, .atomic _ => by simp [GD.same]
  | .imply _ _, .literal _ => by simp [GD.same]
  | .imply _ _, .and _ => by simp [GD.same]
  | .imply _ _, .or _ => by simp [GD.same]
  | .imply _ _, .not _ => by simp [GD.same]
  | .imply _ _, .exist _ _ => by simp [GD.same]
  | .imply _ _, .forall_ _ _ => by simp [GD.same]
  | .imply _ _, .fComp _ => by simp [GD.same]
  | .exist a0 a1, .exist b0 b1 => by simp [GD.same, (listSame_iff (Typed.same_iff Name.same_iff)) a0 b0, GD.same_iff a1 b1, and_assoc]
  | .exist _ _, .atomic _ => by simp [GD.same]
  | .exist _ _, .literal _ => by simp [GD.same]
  | .exist _ _, .and _ => by simp [GD.same]
  | .exist _ _, .or _ => by simp [GD.same]
  | .exist _ _, .not _ => by simp [GD.same]
  | .exist _ _, .imply _ _ => by simp [GD.same]
  | .exist _ _, .forall_ _ _ => by simp [GD.same]
  | .exist _ _, .fComp _ => by simp [GD.same]
  | .forall_ a0 a1, .forall_ b0 b1 => by simp [GD.same, (listSame_iff (Typed.same_iff Name.same_iff)) a0 b0, GD.same_iff a1 b1, and_assoc]
  | .forall_ _ _, .atomic _ => by simp [GD.same]
  | .forall_ _ _, .literal _ => by simp [GD.same]
  | .forall_ _ _, .and _ => by simp [GD.same]
  | .forall_ _ _, .or _ => by simp [GD.same]
  | .forall_ _ _, .not _ => by simp [GD.same]
  | .forall_ _ _, .imply _ _ => by simp [GD.same]
  | .forall_ _ _, .exist _ _ => by simp [GD.same]
  | .forall_ _ _, .fComp _ => by simp [GD.same]
  | .fComp a0, .fComp b0 => by simp [GD.same, FComp.same_iff a0 b0, and_assoc]
  | .fComp _, .atomic _ => by simp [GD.same]
  | .fComp _, .literal _ => by simp [GD.same]
  | .fComp _, .and _ => by simp [GD.same]
  | .fComp _, .or _ => by simp [GD.same]
  | .fComp _, .not _ => by simp [GD.same]
  | .fComp _, .imply _ _ => by simp [GD.same]
  | .fComp _, .exist _ _ => by simp [GD.same]
  | .fComp _, .forall_ _ _ => by simp [GD.same]
theorem GD.sameL_iff : ∀ as bs : List GD, GD.sameL as bs = true ↔ as = bs
  | [], [] => by simp [GD.sameL]
  | [], _ :: _ => by simp [GD.sameL]
  | _ :: _, [] => by simp [GD.sameL]
  | a :: as, b :: bs => by simp [GD.sameL, GD.same_iff a b, GD.sameL_iff as bs]
end

theorem PrefGD.same_iff : ∀ a b : PrefGD, a.same b = true ↔ a = b
  | .goal a0, .goal b0 => by simp [PrefGD.same, GD.same_iff a0 b0, and_assoc]
  | .goal _, .preference _ _ => by simp [PrefGD.same]
  | .preference a0 a1, .preference b0 b1 => by simp [PrefGD.same, (optSame_iff Name.same_iff) a0 b0, GD.same_iff a1 b1, and_assoc]
  | .preference _ _, .goal _ => by simp [PrefGD.same]

mutual
theorem PreGD.same_iff : ∀ a b : PreGD, a.same b = true ↔ a = b
  | .preference a0, .preference b0 => by simp [PreGD.same, PrefGD.same_iff a0 b0, and_assoc]
  | .preference _, .forall_ _ _ => by simp [PreGD.same]
  | .forall_ a0 a1, .forall_ b0 b1 => by simp [PreGD.same, (listSame_iff (Typed.same_iff Name.same_iff)) a0 b0, PreGD.sameL_iff a1 b1, and_assoc]
  | .forall_ _ _, .preference _ => by simp [PreGD.same]
theorem PreGD.sameL_iff : ∀ as bs : List PreGD, PreGD.sameL as bs = true ↔ as = bs
  | [], [] => by simp [PreGD.sameL]
  | [], _ :: _ => by simp [PreGD.sameL]
  | _ :: _, [] => by simp [PreGD.sameL]
  | a :: as, b :: bs => by simp [PreGD.sameL, PreGD.same_iff a b, PreGD.sameL_iff as bs]
end

mutual
theorem ConGD.same_iff : ∀ a b : ConGD, a.same b = true ↔ a = b
  | .and a0, .and b0 => by simp [ConGD.same, ConGD.sameL_iff a0 b0, and_assoc]
  | .and _, .forall_ _ _ => by simp [ConGD.same]
  | .and _, .atEnd _ => by simp [ConGD.same]
  | .and _, .always _ => by simp [ConGD.same]
  | .and _, .sometime _ => by simp [ConGD.same]
  | .and _, .within _ _ => by simp [ConGD.same]
  | .and _, .atMostOnce _ => by simp [ConGD.same]
  | .and _, .sometimeAfter _ _ => by simp [ConGD.same]
  | .and _, .sometimeBefore _ _ => by simp [ConGD.same]
  | .and _, .alwaysWithin _ _ _ => by simp [ConGD.same]
  | .and _, .holdDuring _ _ _ => by simp [ConGD.same]
  | .and _, .holdAfter _ _ => by simp [ConGD.same]
  | .forall_ a0 a1, .forall_ b0 b1 => by simp [ConGD.same, (listSame_iff (Typed.same_iff Name.same_iff)) a0 b0, ConGD.same_iff a1 b1, and_assoc]
  | .forall_ _ _, .and _ => by simp [ConGD.same]
  | .forall_ _ _, .atEnd _ => by simp [ConGD.same]
  | .forall_ _ _, .always _ => by simp [ConGD.same]
  | .forall_ _ _, .sometime _ => by simp [ConGD.same]
  | .forall_ _ _, .within _ _ => by simp [ConGD.same]
  | .forall_ _ _, .atMostOnce _ => by simp [ConGD.same]
  | .forall_ _ _, .sometimeAfter _ _ => by simp [ConGD.same]
  | .forall_ _ _, .sometimeBefore _ _ => by simp [ConGD.same]
  | .forall_ _ _, .alwaysWithin _ _ _ => by simp [ConGD.same]
  | .forall_ _ _, .holdDuring _ _ _ => by simp [ConGD.same]
  | .forall_ _ _, .holdAfter _ _ => by simp [ConGD.same]
  | .atEnd a0, .atEnd b0 => by simp [ConGD.same, GD.same_iff a0 b0, and_assoc]
  | .atEnd _, .and _ => by simp [ConGD.same]
  | .atEnd _, .forall_ _ _ => by simp [ConGD.same]
  | .atEnd _, .always _ => by simp [ConGD.same]
  | .atEnd _, .sometime _ => by simp [ConGD.same]
  | .atEnd _, .within _ _ => by simp [ConGD.same]
  | .atEnd _, .atMostOnce _ => by simp [ConGD.same]
  | .atEnd _, .sometimeAfter _ _ => by simp [ConGD.same]
  | .atEnd _, .sometimeBefore _ _ => by simp [ConGD.same]
  | .atEnd _, .alwaysWithin _ _ _ => by simp [ConGD.same]
  | .atEnd _, .holdDuring _ _ _ => by simp [ConGD.same]
  | .atEnd _, .holdAfter _ _ => by simp [ConGD.same]
  | .always a0, .always b0 => by simp [ConGD.same, Con2GD.same_iff a0 b0, and_assoc]
  | .always _, .and _ => by simp [ConGD.same]
  | .always _, .forall_ _ _ => by simp [ConGD.same]
  | .always _, .atEnd _ => by simp [ConGD.same]
  | .always _, .sometime _ => by simp [ConGD.same]
  | .always _, .within _ _ => by simp [ConGD.same]
  | .always _, .atMostOnce _ => by simp [ConGD.same]
  | .always _, .sometimeAfter _ _ => by simp [ConGD.same]
  | .always _, .sometimeBefore _ _ => by simp [ConGD.same]
  | .always _, .alwaysWithin _ _ _ => by simp [ConGD.same]
  | .always _, .holdDuring _ _ _ => by simp [ConGD.same]
  | .always _, .holdAfter _ _ => by simp [ConGD.same]
  | .sometime a0, .sometime b0 => by simp [ConGD.same, Con2GD.same_iff a0 b0, and_assoc]
  | .sometime _, .and _ => by simp [ConGD.same]
  | .sometime _, .forall_ _ _ => by simp [ConGD.same]
  | .sometime _, .atEnd _ => by simp [ConGD.same]
  | .sometime _, .always _ => by simp [ConGD.same]
  | .sometime _, .within _ _ => by simp [ConGD.same]
  | .sometime _, .atMostOnce _ => by simp [ConGD.same]
  | .sometime _, .sometimeAfter _ _ => by simp [ConGD.same]
  | .sometime _, .sometimeBefore _ _ => by simp [ConGD.same]
  | .sometime _, .alwaysWithin _ _ _ => by simp [ConGD.same]
  | .sometime _, .holdDuring _ _ _ => by simp [ConGD.same]
  | .sometime _, .holdAfter _ _ => by simp [ConGD.same]
  | .within a0 a1, .within b0 b1 => by simp [ConGD.same, Number.same_iff a0 b0, Con2GD.same_iff a1 b1, and_assoc]
  | .within _ _, .and _ => by simp [ConGD.same]
  | .within _ _, .forall_ _ _ => by simp [ConGD.same]
  | .within _ _, .atEnd _ => by simp [ConGD.same]
  | .within _ _, .always _ => by simp [ConGD.same]
  | .within _ _, .sometime _ => by simp [ConGD.same]
  | .within _ _, .atMostOnce _ => by simp [ConGD.same]
  | .within _ _, .sometimeAfter _ _ => by simp [ConGD.same]
  | .within _ _, .sometimeBefore _ _ => by simp [ConGD.same]
  | .within _ _, .alwaysWithin _ _ _ => by simp [ConGD.same]
  | .within _ _, .holdDuring _ _ _ => by simp [ConGD.same]
  | .within _ _, .holdAfter _ _ => by simp [ConGD.same]
  | .atMostOnce a0, .atMostOnce b0 => by simp [ConGD.same, Con2GD.same_iff a0 b0, and_assoc]
  | .atMostOnce _, .and _ => by simp [ConGD.same]
  | .atMostOnce _, .forall_ _ _ => by simp [ConGD.same]
  | .atMostOnce _, .atEnd _ => by simp [ConGD.same]
  | .atMostOnce _, .always _ => by simp [ConGD.same]
  | .atMostOnce _, .sometime _ => by simp [ConGD.same]
  | .atMostOnce _, .within _ _ => by simp [ConGD.same]
  | .atMostOnce _, .sometimeAfter _ _ => by simp [ConGD.same]
  | .atMostOnce _, .sometimeBefore _ _ => by simp [ConGD.same]
  | .atMostOnce _, .alwaysWithin _ _ _ => by simp [ConGD.same]
  | .atMostOnce _, .holdDuring _ _ _ => by simp [ConGD.same]
  | .atMostOnce _, .holdAfter _ _ => by simp [ConGD.same]
  | .sometimeAfter a0 a1, .sometimeAfter b0 b1 => by simp [ConGD.same, Con2GD.same_iff a0 b0, Con2GD.same_iff a1 b1, and_assoc]
  | .sometimeAfter _ _, .and _ => by simp [ConGD.same]
  | .sometimeAfter _ _, .forall_ _ _ => by simp [ConGD.same]
  | .sometimeAfter _ _, .atEnd _ => by simp [ConGD.same]
  | .sometimeAfter _ _, .always _ => by simp [ConGD.same]
  | .sometimeAfter _ _, .sometime _ => by simp [ConGD.same]
  | .sometimeAfter _ _, .within _ _ => by simp [ConGD.same]
  | .sometimeAfter _ _, .atMostOnce _ => by simp [ConGD.same]
  | .sometimeAfter _ _, .sometimeBefore _ _ => by simp [ConGD.same]
  | .sometimeAfter _ _, .alwaysWithin _ _ _ => by simp [ConGD.same]
  | .sometimeAfter _ _, .holdDuring _ _ _ => by simp [ConGD.same]
  | .sometimeAfter _ _, .holdAfter _ _ => by simp [ConGD.same]
  | .sometimeBefore a0 a1, .sometimeBefore b0 b1 => by simp [ConGD.same, Con2GD.same_iff a0 b0, Con2GD.same_iff a1 b1, and_assoc]
  | .sometimeBefore _ _, .and _ => by simp [ConGD.same]
  | .sometimeBefore _ _, .forall_ _ _ => by simp [ConGD.same]
  | .sometimeBefore _ _, .atEnd _ => by simp [ConGD.same]
  | .sometimeBefore _ _, .always _ => by simp [ConGD.same]
  | .sometimeBefore _ _, .sometime _ => by simp [ConGD.same]
  | .sometimeBefore _ _, .within _ _ => by simp [ConGD.same]
  | .sometimeBefore _ _, .atMostOnce _ => by simp [ConGD.same]
  | .sometimeBefore _ _, .sometimeAfter _ _ => by simp [ConGD.same]
  | .sometimeBefore _ _, .alwaysWithin _ _ _ => by simp [ConGD.same]
  | .sometimeBefore _ _, .holdDuring _ _ _ => by simp [ConGD.same]
  | .sometimeBefore _ _, .holdAfter _ _ => by simp [ConGD.same]
  | .alwaysWithin a0 a1 a2, .alwaysWithin b0 b1 b2 => by simp [ConGD.same, Number.same_iff a0 b0, Con2GD.same_iff a1 b1, Con2GD.same_iff a2 b2, and_assoc]
  | .alwaysWithin _ _ _, .and _ => by simp [ConGD.same]
  | .alwaysWithin _ _ _, .forall_ _ _ => by simp [ConGD.same]
  | .alwaysWithin _ _ _, .atEnd _ => by simp [ConGD.same]
  | .alwaysWithin _ _ _, .always _ => by simp [ConGD.same]
  | .alwaysWithin _ _ _, .sometime _ => by simp [ConGD.same]
  | .alwaysWithin _ _ _, .within _ _ => by simp [ConGD.same]
  | .alwaysWithin _ _ _, .atMostOnce _ => by simp [ConGD.same]
  | .alwaysWithin _ _ _, .sometimeAfter _ _ => by simp [ConGD.same]
  | .alwaysWithin _ _ _, .sometimeBefore _ _ => by simp [ConGD.same]
  | .alwaysWithin _ _ _, .holdDuring _ _ _ => by simp [ConGD.same]
  | .alwaysWithin _ _ _, .holdAfter _ _ => by simp [ConGD.same]
  | .holdDuring a0 a1 a2, .holdDuring b0 b1 b2 => by simp [ConGD.same, Number.same_iff a0 b0, Number.same_iff a1 b1, Con2GD.same_iff a2 b2, and_assoc]
  | .holdDuring _ _ _, .and _ => by simp [ConGD.same]
  | .holdDuring _ _ _, .forall_ _ _ => by simp [ConGD.same]
  | .holdDuring _ _ _, .atEnd _ => by simp [ConGD.same]
  | .holdDuring _ _ _, .always _ => by simp [ConGD.same]
  | .holdDuring _ _ _, .sometime _ => by simp [ConGD.same]
  | .holdDuring _ _ _, .within _ _ => by simp [ConGD.same]
  | .holdDuring _ _ _, .atMostOnce _ => by simp [ConGD.same]
  | .holdDuring _ _ _, .sometimeAfter _ _ => by simp [ConGD.same]
  | .holdDuring _ _ _, .sometimeBefore _ _ => by simp [ConGD.same]
  | .holdDuring _ _ _, .alwaysWithin _ _ _ => by simp [ConGD.same]
  | .holdDuring _ _ _, .holdAfter _ _ => by simp [ConGD.same]
  | .holdAfter a0 a1, .holdAfter b0 b1 => by simp [ConGD.same, Number.same_iff a0 b0, Con2GD.same_iff a1 b1, and_assoc]
  | .holdAfter _ _, .and _ => by simp [ConGD.same]
  | .holdAfter _ _, .forall_ _ _ => by simp [ConGD.same]
  | .holdAfter _ _, .atEnd _ => by simp [ConGD.same]
  | .holdAfter _ _, .always _ => by simp [ConGD.same]
  | .holdAfter _ _, .sometime _ => by simp [ConGD.same]
  | .holdAfter _ _, .within _ _ => by simp [ConGD.same]
  | .holdAfter _ _, .atMostOnce _ => by simp [ConGD.same]
  | .holdAfter _ _, .sometimeAfter _ _ => by simp [ConGD.same]
  | .holdAfter _ _, .sometimeBefore _ _ => by simp [ConGD.same]
  | .holdAfter _ _, .alwaysWithin _ _ _ => by simp [ConGD.same]
  | .holdAfter _ _, .holdDuring _ _ _ => by simp [ConGD.same]
theorem Con2GD.same_iff : ∀ a b : Con2GD, a.same b = true ↔ a = b
  | .goal a0, .goal b0 => by simp [Con2GD.same, GD.same_iff a0 b0, and_assoc]
  | .goal _, .nested _ => by simp [Con2GD.same]
  | .nested a0, .nested b0 => by simp [Con2GD.same, ConGD.same_iff a0 b0, and_assoc]
  | .nested _, .goal _ => by simp [Con2GD.same]
theorem ConGD.sameL_iff : ∀ as bs : List ConGD, ConGD.sameL as bs = true ↔ as = bs
  | [], [] => by simp [ConGD.sameL]
  | [], _ :: _ => by simp [ConGD.sameL]
  | _ :: _, [] => by simp [ConGD.sameL]
  | a :: as, b :: bs => by simp [ConGD.sameL, ConGD.same_iff a b, ConGD.sameL_iff as bs]
end

mutual
theorem PrefConGD.same_iff : ∀ a b : PrefConGD, a.same b = true ↔ a = b
  | .goal a0, .goal b0 => by simp [PrefConGD.same, ConGD.same_iff a0 b0, and_assoc]
  | .goal _, .forall_ _ _ => by simp [PrefConGD.same]
  | .goal _, .preference _ _ => by simp [PrefConGD.same]
  | .forall_ a0 a1, .forall_ b0 b1 => by simp [PrefConGD.same, (listSame_iff (Typed.same_iff Name.same_iff)) a0 b0, PrefConGD.sameL_iff a1 b1, and_assoc]
  | .forall_ _ _, .goal _ => by simp [PrefConGD.same]
  | .forall_ _ _, .preference _ _ => by simp [PrefConGD.same]
  | .preference a0 a1, .preference b0 b1 => by simp [PrefConGD.same, (optSame_iff Name.same_iff) a0 b0, ConGD.same_iff a1 b1, and_assoc]
  | .preference _ _, .goal _ => by simp [PrefConGD.same]
  | .preference _ _, .forall_ _ _ => by simp [PrefConGD.same]
theorem PrefConGD.sameL_iff : ∀ as bs : List PrefConGD, PrefConGD.sameL as bs = true ↔ as = bs
  | [], [] => by simp [PrefConGD.sameL]
  | [], _ :: _ => by simp [PrefConGD.sameL]
  | _ :: _, [] => by simp [PrefConGD.sameL]
  | a :: as, b :: bs => by simp [PrefConGD.sameL, PrefConGD.same_iff a b, PrefConGD.sameL_iff as bs]
end

theorem PEffect.same_iff : ∀ a b : PEffect, a.same b = true ↔ a = b
  | .atomic a0, .atomic b0 => by simp [PEffect.same, (AtomicFormula.same_iff Term.same_iff) a0 b0, and_assoc]
  | .atomic _, .notAtomic _ => by simp [PEffect.same]
  | .atomic _, .assignNumeric _ _ _ => by simp [PEffect.same]
  | .atomic _, .assignObject _ _ => by simp [PEffect.same]
  | .notAtomic a0, .notAtomic b0 => by simp [PEffect.same, (AtomicFormula.same_iff Term.same_iff) a0 b0, and_assoc]
  | .notAtomic _, .atomic _ => by simp [PEffect.same]
  | .notAtomic _, .assignNumeric _ _ _ => by simp [PEffect.same]
  | .notAtomic _, .assignObject _ _ => by simp [PEffect.same]
  | .assignNumeric a0 a1 a2, .assignNumeric b0 b1 b2 => by simp [PEffect.same, AssignOp.same_iff a0 b0, FHead.same_iff a1 b1, FExp.same_iff a2 b2, and_assoc]
  | .assignNumeric _ _ _, .atomic _ => by simp [PEffect.same]
  | .assignNumeric _ _ _, .notAtomic _ => by simp [PEffect.same]
  | .assignNumeric _ _ _, .assignObject _ _ => by simp [PEffect.same]
  | .assignObject a0 a1, .assignObject b0 b1 => by simp [PEffect.same, FunctionTerm.same_iff a0 b0, (optSame_iff Term.same_iff) a1 b1, and_assoc]
  | .assignObject _ _, .atomic _ => by simp [PEffect.same]
  | .assignObject _ _, .notAtomic _ => by simp [PEffect.same]
  | .assignObject _ _, .assignNumeric _ _ _ => by simp [PEffect.same]

theorem CondEffect.same_iff : ∀ a b : CondEffect, a.same b = true ↔ a = b
  | .single a0, .single b0 => by simp [CondEffect.same, PEffect.same_iff a0 b0, and_assoc]
  | .single _, .all _ => by simp [CondEffect.same]
  | .all a0, .all b0 => by simp [CondEffect.same, (listSame_iff PEffect.same_iff) a0 b0, and_assoc]
  | .all _, .single _ => by simp [CondEffect.same]

mutual
theorem CEffect.same_iff : ∀ a b : CEffect, a.same b = true ↔ a = b
  | .effect a0, .effect b0 => by simp [CEffect.same, PEffect.same_iff a0 b0, and_assoc]
  | .effect _, .forall_ _ _ => by simp [CEffect.same]
  | .effect _, .when _ _ => by simp [CEffect.same]
  | .forall_ a0 a1, .forall_ b0 b1 => by simp [CEffect.same, (listSame_iff (Typed.same_iff Name.same_iff)) a0 b0, CEffect.sameL_iff a1 b1, and_assoc]
  | .forall_ _ _, .effect _ => by simp [CEffect.same]
  | .forall_ _ _, .when _ _ => by simp [CEffect.same]
  | .when a0 a1, .when b0 b1 => by simp [CEffect.same, GD.same_iff a0 b0, CondEffect.same_iff a1 b1, and_assoc]
  | .when _ _, .effect _ => by simp [CEffect.same]
  | .when _ _, .forall_ _ _ => by simp [CEffect.same]
theorem CEffect.sameL_iff : ∀ as bs : List CEffect, CEffect.sameL as bs = true ↔ as = bs
  | [], [] => by simp [CEffect.sameL]
  | [], _ :: _ => by simp [CEffect.sameL]
  | _ :: _, [] => by simp [CEffect.sameL]
  | a :: as, b :: bs => by simp [CEffect.sameL, CEffect.same_iff a b, CEffect.sameL_iff as bs]
end

theorem ActionDef.same_iff : ∀ a b : ActionDef, a.same b = true ↔ a = b
  | ⟨a0, a1, a2, a3⟩, ⟨b0, b1, b2, b3⟩ => by simp [ActionDef.same, Name.same_iff a0 b0, (listSame_iff (Typed.same_iff Name.same_iff)) a1 b1, (listSame_iff PreGD.same_iff) a2 b2, (optSame_iff (listSame_iff CEffect.same_iff)) a3 b3, and_assoc]

theorem DerivedPredicate.same_iff : ∀ a b : DerivedPredicate, a.same b = true ↔ a = b
  | ⟨a0, a1⟩, ⟨b0, b1⟩ => by simp [DerivedPredicate.same, Skeleton.same_iff a0 b0, GD.same_iff a1 b1, and_assoc]

theorem TimedGD.same_iff : ∀ a b : TimedGD, a.same b = true ↔ a = b
  | .at a0 a1, .at b0 b1 => by simp [TimedGD.same, TimeSpecifier.same_iff a0 b0, GD.same_iff a1 b1, and_assoc]
  | .at _ _, .over _ _ => by simp [TimedGD.same]
  | .over a0 a1, .over b0 b1 => by simp [TimedGD.same, Interval.same_iff a0 b0, GD.same_iff a1 b1, and_assoc]
  | .over _ _, .at _ _ => by simp [TimedGD.same]

theorem PrefTimedGD.same_iff : ∀ a b : PrefTimedGD, a.same b = true ↔ a = b
  | .required a0, .required b0 => by simp [PrefTimedGD.same, TimedGD.same_iff a0 b0, and_assoc]
  | .required _, .preference _ _ => by simp [PrefTimedGD.same]
  | .preference a0 a1, .preference b0 b1 => by simp [PrefTimedGD.same, (optSame_iff Name.same_iff) a0 b0, TimedGD.same_iff a1 b1, and_assoc]
  | .preference _ _, .required _ => by simp [PrefTimedGD.same]

mutual
theorem DaGD.same_iff : ∀ a b : DaGD, a.same b = true ↔ a = b
  | .timed a0, .timed b0 => by simp [DaGD.same, PrefTimedGD.same_iff a0 b0, and_assoc]
  | .timed _, .and _ => by simp [DaGD.same]
  | .timed _, .forall_ _ _ => by simp [DaGD.same]
  | .and a0, .and b0 => by simp [DaGD.same, DaGD.sameL_iff a0 b0, and_assoc]
  | .and _, .timed _ => by simp [DaGD.same]
  | .and _, .forall_ _ _ => by simp [DaGD.same]
  | .forall_ a0 a1, .forall_ b0 b1 => by simp [DaGD.same, (listSame_iff (Typed.same_iff Name.same_iff)) a0 b0, DaGD.same_iff a1 b1, and_assoc]
  | .forall_ _ _, .timed _ => by simp [DaGD.same]
  | .forall_ _ _, .and _ => by simp [DaGD.same]
theorem DaGD.sameL_iff : ∀ as bs : List DaGD, DaGD.sameL as bs = true ↔ as = bs
  | [], [] => by simp [DaGD.sameL]
  | [], _ :: _ => by simp [DaGD.sameL]
  | _ :: _, [] => by simp [DaGD.sameL]
  | a :: as, b :: bs => by simp [DaGD.sameL, DaGD.same_iff a b, DaGD.sameL_iff as bs]
end

theorem TimedEffect.same_iff : ∀ a b : TimedEffect, a.same b = true ↔ a = b
  | .conditional a0 a1, .conditional b0 b1 => by simp [TimedEffect.same, TimeSpecifier.same_iff a0 b0, CondEffect.same_iff a1 b1, and_assoc]
  | .conditional _ _, .numericFluent _ _ => by simp [TimedEffect.same]
  | .conditional _ _, .continuous _ _ _ => by simp [TimedEffect.same]
  | .numericFluent a0 a1, .numericFluent b0 b1 => by simp [TimedEffect.same, TimeSpecifier.same_iff a0 b0, FAssignDa.same_iff a1 b1, and_assoc]
  | .numericFluent _ _, .conditional _ _ => by simp [TimedEffect.same]
  | .numericFluent _ _, .continuous _ _ _ => by simp [TimedEffect.same]
  | .continuous a0 a1 a2, .continuous b0 b1 b2 => by simp [TimedEffect.same, AssignOpT.same_iff a0 b0, FHead.same_iff a1 b1, FExpT.same_iff a2 b2, and_assoc]
  | .continuous _ _ _, .conditional _ _ => by simp [TimedEffect.same]
  | .continuous _ _ _, .numericFluent _ _ => by simp [TimedEffect.same]

mutual
theorem DaEffect.same_iff : ∀ a b : DaEffect, a.same b = true ↔ a = b
  | .timed a0, .timed b0 => by simp [DaEffect.same, TimedEffect.same_iff a0 b0, and_assoc]
  | .timed _, .all _ => by simp [DaEffect.same]
  | .timed _, .forall_ _ _ => by simp [DaEffect.same]
  | .timed _, .when _ _ => by simp [DaEffect.same]
  | .all a0, .all b0 => by simp [DaEffect.same, DaEffect.sameL_iff a0 b0, and_assoc]
  | .all _, .timed _ => by simp [DaEffect.same]
  | .all _, .forall_ _ _ => by simp [DaEffect.same]
  | .all _, .when _ _ => by simp [DaEffect.same]
  | .forall_ a0 a1, .forall_ b0 b1 => by simp [DaEffect.same, (listSame_iff (Typed.same_iff Name.same_iff)) a0 b0, DaEffect.same_iff a1 b1, and_assoc]
  | .forall_ _ _, .timed _ => by simp [DaEffect.same]
  | .forall_ _ _, .all _ => by simp [DaEffect.same]
  | .forall_ _ _, .when _ _ => by simp [DaEffect.same]
  | .when a0 a1, .when b0 b1 => by simp [DaEffect.same, DaGD.same_iff a0 b0, TimedEffect.same_iff a1 b1, and_assoc]
  | .when _ _, .timed _ => by simp [DaEffect.same]
  | .when _ _, .all _ => by simp [DaEffect.same]
  | .when _ _, .forall_ _ _ => by simp [DaEffect.same]
theorem DaEffect.sameL_iff : ∀ as bs : List DaEffect, DaEffect.sameL as bs = true ↔ as = bs
  | [], [] => by simp [DaEffect.sameL]
  | [], _ :: _ => by simp [DaEffect.sameL]
  | _ :: _, [] => by simp [DaEffect.sameL]
  | a :: as, b :: bs => by simp [DaEffect.sameL, DaEffect.same_iff a b, DaEffect.sameL_iff as bs]
end

theorem DurationValue.same_iff : ∀ a b : DurationValue, a.same b = true ↔ a = b
  | .number a0, .number b0 => by simp [DurationValue.same, Number.same_iff a0 b0, and_assoc]
  | .number _, .fExp _ => by simp [DurationValue.same]
  | .fExp a0, .fExp b0 => by simp [DurationValue.same, FExp.same_iff a0 b0, and_assoc]
  | .fExp _, .number _ => by simp [DurationValue.same]

mutual
theorem SimpleDuration.same_iff : ∀ a b : SimpleDuration, a.same b = true ↔ a = b
  | .op a0 a1, .op b0 b1 => by simp [SimpleDuration.same, DOp.same_iff a0 b0, DurationValue.same_iff a1 b1, and_assoc]
  | .op _ _, .at _ _ => by simp [SimpleDuration.same]
  | .at a0 a1, .at b0 b1 => by simp [SimpleDuration.same, TimeSpecifier.same_iff a0 b0, SimpleDuration.same_iff a1 b1, and_assoc]
  | .at _ _, .op _ _ => by simp [SimpleDuration.same]
end

theorem DurationConstraint.same_iff : ∀ a b : DurationConstraint, a.same b = true ↔ a = b
  | .single a0, .single b0 => by simp [DurationConstraint.same, SimpleDuration.same_iff a0 b0, and_assoc]
  | .single _, .all _ => by simp [DurationConstraint.same]
  | .all a0, .all b0 => by simp [DurationConstraint.same, (listSame_iff SimpleDuration.same_iff) a0 b0, and_assoc]
  | .all _, .single _ => by simp [DurationConstraint.same]

theorem DaDef.same_iff : ∀ a b : DaDef, a.same b = true ↔ a = b
  | ⟨a0, a1, a2, a3, a4⟩, ⟨b0, b1, b2, b3, b4⟩ => by simp [DaDef.same, Name.same_iff a0 b0, (listSame_iff (Typed.same_iff Name.same_iff)) a1 b1, (optSame_iff DurationConstraint.same_iff) a2 b2, (optSame_iff DaGD.same_iff) a3 b3, (optSame_iff DaEffect.same_iff) a4 b4, and_assoc]

theorem StructureDef.same_iff : ∀ a b : StructureDef, a.same b = true ↔ a = b
  | .action a0, .action b0 => by simp [StructureDef.same, ActionDef.same_iff a0 b0, and_assoc]
  | .action _, .durative _ => by simp [StructureDef.same]
  | .action _, .derived _ => by simp [StructureDef.same]
  | .durative a0, .durative b0 => by simp [StructureDef.same, DaDef.same_iff a0 b0, and_assoc]
  | .durative _, .action _ => by simp [StructureDef.same]
  | .durative _, .derived _ => by simp [StructureDef.same]
  | .derived a0, .derived b0 => by simp [StructureDef.same, DerivedPredicate.same_iff a0 b0, and_assoc]
  | .derived _, .action _ => by simp [StructureDef.same]
  | .derived _, .durative _ => by simp [StructureDef.same]

theorem InitElement.same_iff : ∀ a b : InitElement, a.same b = true ↔ a = b
  | .literal a0, .literal b0 => by simp [InitElement.same, (Literal.same_iff Name.same_iff) a0 b0, and_assoc]
  | .literal _, .at _ _ => by simp [InitElement.same]
  | .literal _, .isValue _ _ => by simp [InitElement.same]
  | .literal _, .isObject _ _ => by simp [InitElement.same]
  | .at a0 a1, .at b0 b1 => by simp [InitElement.same, Number.same_iff a0 b0, (Literal.same_iff Name.same_iff) a1 b1, and_assoc]
  | .at _ _, .literal _ => by simp [InitElement.same]
  | .at _ _, .isValue _ _ => by simp [InitElement.same]
  | .at _ _, .isObject _ _ => by simp [InitElement.same]
  | .isValue a0 a1, .isValue b0 b1 => by simp [InitElement.same, BasicFunctionTerm.same_iff a0 b0, Number.same_iff a1 b1, and_assoc]
  | .isValue _ _, .literal _ => by simp [InitElement.same]
  | .isValue _ _, .at _ _ => by simp [InitElement.same]
  | .isValue _ _, .isObject _ _ => by simp [InitElement.same]
  | .isObject a0 a1, .isObject b0 b1 => by simp [InitElement.same, BasicFunctionTerm.same_iff a0 b0, Name.same_iff a1 b1, and_assoc]
  | .isObject _ _, .literal _ => by simp [InitElement.same]
  | .isObject _ _, .at _ _ => by simp [InitElement.same]
  | .isObject _ _, .isValue _ _ => by simp [InitElement.same]

theorem MetricSpec.same_iff : ∀ a b : MetricSpec, a.same b = true ↔ a = b
  | ⟨a0, a1⟩, ⟨b0, b1⟩ => by simp [MetricSpec.same, Optimization.same_iff a0 b0, MetricFExp.same_iff a1 b1, and_assoc]

theorem LengthSpec.same_iff : ∀ a b : LengthSpec, a.same b = true ↔ a = b
  | ⟨a0, a1⟩, ⟨b0, b1⟩ => by simp [LengthSpec.same, (optSame_iff (fun _ _ => beq_iff_eq)) a0 b0, (optSame_iff (fun _ _ => beq_iff_eq)) a1 b1, and_assoc]

theorem Domain.same_iff : ∀ a b : Domain, a.same b = true ↔ a = b
  | ⟨a0, a1, a2, a3, a4, a5, a6, a7, a8, a9⟩, ⟨b0, b1, b2, b3, b4, b5, b6, b7, b8, b9⟩ => by simp [Domain.same, Name.same_iff a0 b0, (listSame_iff Name.same_iff) a1 b1, (listSame_iff Requirement.same_iff) a2 b2, (listSame_iff (Typed.same_iff Name.same_iff)) a3 b3, (listSame_iff (Typed.same_iff Name.same_iff)) a4 b4, (listSame_iff Skeleton.same_iff) a5 b5, (listSame_iff (Typed.same_iff Skeleton.same_iff)) a6 b6, ConGD.same_iff a7 b7, (listSame_iff (Literal.same_iff Name.same_iff)) a8 b8, (listSame_iff StructureDef.same_iff) a9 b9, and_assoc]

theorem Problem.same_iff : ∀ a b : Problem, a.same b = true ↔ a = b
  | ⟨a0, a1, a2, a3, a4, a5, a6, a7, a8⟩, ⟨b0, b1, b2, b3, b4, b5, b6, b7, b8⟩ => by simp [Problem.same, Name.same_iff a0 b0, Name.same_iff a1 b1, (listSame_iff Requirement.same_iff) a2 b2, (listSame_iff (Typed.same_iff Name.same_iff)) a3 b3, (listSame_iff InitElement.same_iff) a4 b4, (listSame_iff PreGD.same_iff) a5 b5, (listSame_iff PrefConGD.same_iff) a6 b6, (optSame_iff MetricSpec.same_iff) a7 b7, (optSame_iff LengthSpec.same_iff) a8 b8, and_assoc]

theorem Parsable.same_iff : (k : Parsable) → ∀ a b : k.Item, k.same a b = true ↔ a = b
  | .actionDefinition => ActionDef.same_iff
  | .actionSymbol => Name.same_iff
  | .assignOp => AssignOp.same_iff
  | .assignOpT => AssignOpT.same_iff
  | .atomicFormulaSkeleton => Skeleton.same_iff
  | .atomicFunctionSkeleton => Skeleton.same_iff
  | .basicFunctionTerm => BasicFunctionTerm.same_iff
  | .binaryComp => BinaryComp.same_iff
  | .binaryOp => BinaryOp.same_iff
  | .cEffect => CEffect.same_iff
  | .forallCEffect => fun a b => (Bool.and_eq_true_iff.trans (and_congr ((listSame_iff (Typed.same_iff Name.same_iff)) _ _) ((listSame_iff CEffect.same_iff) _ _))).trans Prod.ext_iff.symm
  | .whenCEffect => fun a b => (Bool.and_eq_true_iff.trans (and_congr (GD.same_iff _ _) (CondEffect.same_iff _ _))).trans Prod.ext_iff.symm
  | .conGD => ConGD.same_iff
  | .con2GD => Con2GD.same_iff
  | .conditionalEffect => CondEffect.same_iff
  | .constants => (listSame_iff (Typed.same_iff Name.same_iff))
  | .dOp => DOp.same_iff
  | .durationValue => DurationValue.same_iff
  | .durativeActionDefinition => DaDef.same_iff
  | .durativeActionEffect => DaEffect.same_iff
  | .durativeActionGoalDefinition => DaGD.same_iff
  | .durativeActionSymbol => Name.same_iff
  | .derivedPredicate => DerivedPredicate.same_iff
  | .domain => Domain.same_iff
  | .domainConstraintsDef => ConGD.same_iff
  | .durationConstraint => (optSame_iff DurationConstraint.same_iff)
  | .effects => (listSame_iff CEffect.same_iff)
  | .fAssignDa => FAssignDa.same_iff
  | .fComp => FComp.same_iff
  | .fExp => FExp.same_iff
  | .fExpDa => FExpDa.same_iff
  | .fExpT => FExpT.same_iff
  | .fHead => FHead.same_iff
  | .functionSymbol => Name.same_iff
  | .functionTerm => FunctionTerm.same_iff
  | .functionType => Ty.same_iff
  | .functions => (listSame_iff (Typed.same_iff Skeleton.same_iff))
  | .goalDefinition => GD.same_iff
  | .goalDef => (listSame_iff PreGD.same_iff)
  | .initElements => (listSame_iff InitElement.same_iff)
  | .initElement => InitElement.same_iff
  | .interval => Interval.same_iff
  | .lengthSpec => LengthSpec.same_iff
  | .metricFExp => MetricFExp.same_iff
  | .metricSpec => MetricSpec.same_iff
  | .multiOp => MultiOp.same_iff
  | .name => Name.same_iff
  | .number => Number.same_iff
  | .objects => (listSame_iff (Typed.same_iff Name.same_iff))
  | .optimization => Optimization.same_iff
  | .pEffect => PEffect.same_iff
  | .preconditionGoalDefinitions => (listSame_iff PreGD.same_iff)
  | .predicate => Name.same_iff
  | .predicateDefinitions => (listSame_iff Skeleton.same_iff)
  | .prefConGDs => (listSame_iff PrefConGD.same_iff)
  | .preferenceGD => PrefGD.same_iff
  | .preferenceName => Name.same_iff
  | .prefTimedGD => PrefTimedGD.same_iff
  | .primitiveType => Name.same_iff
  | .problem => Problem.same_iff
  | .problemConstraintsDef => (listSame_iff PrefConGD.same_iff)
  | .requirements => (listSame_iff Requirement.same_iff)
  | .requirement => Requirement.same_iff
  | .simpleDurationConstraint => SimpleDuration.same_iff
  | .structureDef => StructureDef.same_iff
  | .term => Term.same_iff
  | .timeSpecifier => TimeSpecifier.same_iff
  | .timedEffect => TimedEffect.same_iff
  | .timedGD => TimedGD.same_iff
  | .timeless => (listSame_iff (Literal.same_iff Name.same_iff))
  | .type_ => Ty.same_iff
  | .types => (listSame_iff (Typed.same_iff Name.same_iff))
  | .variable_ => Name.same_iff

end Pddl
