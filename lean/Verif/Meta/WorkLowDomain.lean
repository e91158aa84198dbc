import Verif.Meta.WorkLow
import Verif.Meta.WorkAlike

/-!
# Meta-theory: domains that take many steps

The same operations as in `WorkLow.lean`, in a comparison in the condition of a derived predicate.
-/

namespace Pddl

/-- The value of `op3 n` as a numeric expression. -/
def op3E : Nat → FExp
  | 0 => .number num1
  | n + 1 => .multiOp .add (op3E n) [.number num1, .number num1]

theorem op3E_w (n : Nat) : FExpW .strict (op3E n) (op3 n) := by
  induction n with
  | zero => exact .number num1_written
  | succ n ih =>
    have hi : Items (FExpW .strict) [.number num1, .number num1] (['1'] ++ ([' '] ++ ['1'])) :=
      .cons (.number num1_written) sp_one.sep (.one (.number num1_written))
    have := FExpW.multiOp (m := .strict) (g0 := []) (op := .add) (g1 := [' ']) (g2 := [' ']) (g3 := []) .nil sp_one ih
      sp_one.sep hi rfl (Nat.le_refl 2)
    simpa [op3, op3E, paren, MultiOp.spell] using this

namespace K

theorem alt_low {p : P α} {ps qs : List (P α)} {s : List Char} (h : ∀ q ∈ ps, q.run s = .err) :
    p.cost s ≤ (alt (ps ++ p :: qs)).cost s := by
  show _ ≤ altCost _ s
  induction ps with
  | nil => exact Nat.le_add_right _ _
  | cons q ps ih =>
    show _ ≤ q.cost s + (q.run s).onErr (altCost (ps ++ p :: qs) s)
    rw [h q (by simp)]
    exact Nat.le_trans (ih fun q hq => h q (by simp [hq])) (Nat.le_add_left _ _)

end K

theorem op3E_step {self : P FExp} {t r : List Char} {v : FExp} (ht : Solid t)
    (h : self (t ++ (c!" 1 1)" ++ r)) = .ok v (c!" 1 1)" ++ r))
    (h1 : self (c!"1 1)" ++ r) = .ok (.number num1) (c!" 1)" ++ r)) :
    parens (pair parseBinaryOp (pair (preceded multispace1 self) (preceded multispace1 self)))
        (c!"(+ " ++ (t ++ (c!" 1 1)" ++ r))) = .err := by
  have hs : Solid (t ++ (c!" 1 1)" ++ r)) := ht.append _
  have e1 : preceded multispace1 self (c!" " ++ (t ++ (c!" 1 1)" ++ r))) = .ok v (c!" 1 1)" ++ r) := by
    rw [pms1_sp (sp_one) hs, h]
  have e3 : preceded multispace1 self (c!" 1 1)" ++ r) = .ok (.number num1) (c!" 1)" ++ r) := by
    rw [← h1]; rfl
  have k1 : skip (c!"+ " ++ (t ++ (c!" 1 1)" ++ r))) = (c!"+ " ++ (t ++ (c!" 1 1)" ++ r))) :=
    Solid.skip (.cons (by decide) (by decide) _)
  refine parens_tail (v := (.add, v, .number num1)) (y := c!" 1)" ++ r) ?_ (by simp)
  exact Eq.trans (congrArg _ k1) (pair_run (p := parseBinaryOp) (by rfl) (pair_run e1 e3))

namespace K

/-- Reading `op3 n` as a numeric expression takes `2 ^ n` steps. -/
theorem op3E_cost (n : Nat) {r : List Char} (hr : Stop r) : 2 ^ n ≤ parseFExp.cost (op3 n ++ r) := by
  induction n generalizing r with
  | zero =>
    rw [parseFExp, Alike.fix_cost fExpBody_alike]
    simp
  | succ n ih =>
    have hrd := (op3E_w n).elem.1 (c!" 1 1)" ++ r) (Stop.sp (g := [' ']) sp_one _)
    have h1 : Pddl.parseFExp (c!"1 1)" ++ r) = .ok (.number num1) (c!" 1)" ++ r) :=
      (FExpW.number (m := .strict) num1_written).elem.1 _ (Stop.sp (g := [' ']) sp_one _)
    have h := op3E_step (r := r) (op3_solid n) hrd h1
    have t : op3 (n + 1) ++ r = c!"(+ " ++ (op3 n ++ (c!" 1 1)" ++ r)) := by simp [op3]
    have hi := ih (r := c!" 1 1)" ++ r) (Stop.sp (g := [' ']) sp_one _)
    have k1 : skip (c!"+ " ++ (op3 n ++ (c!" 1 1)" ++ r))) = (c!"+ " ++ (op3 n ++ (c!" 1 1)" ++ r))) :=
      Solid.skip (.cons (by decide) (by decide) _)
    obtain ⟨x, k2⟩ := ms1_sp (g := [' ']) sp_one ((op3_solid n).append (c!" 1 1)" ++ r))
    rw [parseFExp, Alike.fix_cost fExpBody_alike, fExpBody, t]
    refine Nat.le_trans ?_ (Nat.le_trans (alt2_low ?_ ?_) (Nat.le_add_left _ 1))
    · rw [Nat.pow_succ, Nat.mul_two]
      refine Nat.add_le_add (Nat.le_trans hi ?_) (Nat.le_trans hi ?_)
      · refine Nat.le_trans ?_ (parens_low _)
        refine Nat.le_trans ?_ (Nat.le_of_eq (congrArg _ k1.symm))
        exact Nat.le_trans (Nat.le_trans (preceded_low k2) pair_low_left)
          (pair_low (a := .add) (by rw [parseBinaryOp_run]; rfl))
      · refine Nat.le_trans ?_ (parens_low _)
        refine Nat.le_trans ?_ (Nat.le_of_eq (congrArg _ k1.symm))
        exact Nat.le_trans (Nat.le_trans (preceded_low k2) pair_low_left)
          (pair_low (a := .add) (by rw [parseMultiOp_run]; rfl))
    · rw [K.map_run, parseNumber_run]; rfl
    · rw [K.map_run, parens_run, K.pair_run, K.pair_run, K.preceded_run, show (fix fExpBody).run = _ from parseFExp_run,
        parseBinaryOp_run,
        multispace1_run]
      exact map_err h

end K

/-- A domain whose derived predicate has a comparison with `op3 n`. -/
def domain3 (n : Nat) : List Char :=
  c!"(define (domain d) (:derived (p) (> " ++ (op3 n ++ c!" 1)))")

/-- What `domain3 n` means. -/
def domain3V (n : Nat) : Domain :=
  domainOf (.new c!"d", none, none, none, none, none, none, none,
    some [.derived ⟨⟨.new c!"p", []⟩, .fComp ⟨.gt, op3E n, .number num1⟩⟩])

theorem domain3_length (n : Nat) : (domain3 n).length = 42 + 8 * n := by
  simp [domain3, op3_length]; omega

theorem domain3_w (n : Nat) : DomainW .strict (domain3V n) (domain3 n) := by
  have hn {w : List Char} (h : IsWord w) : NameW (.new w) w := .of_word h
  have h1 : FCompW .strict ⟨.gt, op3E n, .number num1⟩ (paren ([] ++ (c!">" ++ ([' '] ++ (op3 n ++ ([' '] ++ (['1'] ++ []))))))) :=
    .mk (op := .gt) .nil sp_one (op3E_w n) sp_one (.number num1_written) rfl
  have h2 : SkeletonW .strict ⟨.new c!"p", []⟩ (paren ([] ++ (c!"p" ++ []))) :=
    .mk .nil (hn ⟨_, _, rfl, by decide, by simp⟩) (.nil .nil)
  have h3 := DerivedW.mk (m := .strict) (g1 := [' ']) (g2 := [' ']) (g3 := []) sp_one.sep.gap h2 sp_one.sep
    (.fComp h1 (by nofun)) .nil
  have h4 : WrapW c!"domain" Mode.strict.word NameW (.new c!"d") (paren (c!"domain" ++ ([' '] ++ (c!"d" ++ [])))) :=
    .mk sp_one.sep (hn ⟨_, _, rfl, by decide, by simp⟩) .nil
  have := DomainW.mk (m := .strict) (g1 := [' ']) (g2 := []) sp_one.sep.gap h4 .absent .absent .absent .absent .absent
    .absent .absent (.present sp_one.sep (.one (.derived h3))) .nil
  simpa [paren, domain3, domain3V, domainOf, Domain.builder, Domain.withExtends, Domain.withRequirements,
    Domain.withTypes, Domain.withConstants, Domain.withPredicates, Domain.withFunctions,
    Domain.withConstraints] using this

theorem domain3_run (n : Nat) : parseDomain (domain3 n) = .ok (domain3V n) [] := by
  have := (domain3_w n).acc (g := []) .nil []
  simpa [show skip [] = [] from rfl] using this

namespace K

theorem domain3_cost (n : Nat) : 2 ^ n ≤ parseDomain.cost (domain3 n) := by
  refine Nat.le_trans (op3E_cost n (r := c!" 1)))") (Stop.sp (g := [' ']) sp_one _)) ?_
  refine Nat.le_trans ?_ (ws2_low _)
  have e : skip (domain3 n) = '(' :: (c!"define" ++ (c!" (domain d) (:derived (p) (> " ++ (op3 n ++ c!" 1)))"))) :=
    Solid.skip (.cons (by decide) (by decide) _)
  refine Nat.le_trans ?_ (Nat.le_of_eq (congrArg _ e.symm))
  refine Nat.le_trans ?_ (prefixExpr_low _ _)
  have e : skip (c!" (domain d) (:derived (p) (> " ++ (op3 n ++ c!" 1)))")) = (c!"(domain d) (:derived (p) (> " ++ (op3 n ++ c!" 1)))")) :=
    (skip_space (by decide) _).trans (Solid.skip (.cons (by decide) (by decide) _))
  refine Nat.le_trans ?_ (Nat.le_of_eq (congrArg _ e.symm))
  have hn : Pddl.prefixExpr c!"domain" Pddl.parseName (c!"(domain d) (:derived (p) (> " ++ (op3 n ++ c!" 1)))")) =
      .ok (.new c!"d") (c!" (:derived (p) (> " ++ (op3 n ++ c!" 1)))")) := by
    have h := (NameW.of_word (t := c!"d") ⟨_, _, rfl, by decide, by simp⟩).acc (c!") (:derived (p) (> " ++ (op3 n ++ c!" 1)))")) (.close _)
    refine Pddl.prefixExpr_run (kw := c!"domain") (x := (c!" d) (:derived (p) (> " ++ (op3 n ++ c!" 1)))"))) (y := (c!") (:derived (p) (> " ++ (op3 n ++ c!" 1)))"))) ?_ ?_
    · exact h
    · rfl
  have hsk : SkeletonW .strict ⟨.new c!"p", []⟩ (paren ([] ++ (c!"p" ++ []))) :=
    .mk .nil (.of_word ⟨_, _, rfl, by decide, by simp⟩) (.nil .nil)
  unfold domainParts
  refine Nat.le_trans ?_ (pair_low (by rw [K.prefixExpr_run, parseName_run]; exact hn))
  refine Nat.le_trans ?_ (pair_low (a := none) (by rw [K.opt_run, K.preceded_run, K.prefixExpr_run, spaceSeparatedList1_run, parseName_run]; rfl))
  refine Nat.le_trans ?_ (pair_low (a := none) (by rw [K.opt_run, K.preceded_run, parseRequireDef_run]; rfl))
  refine Nat.le_trans ?_ (pair_low (a := none) (by rw [K.opt_run, K.preceded_run, parseTypesDef_run]; rfl))
  refine Nat.le_trans ?_ (pair_low (a := none) (by rw [K.opt_run, K.preceded_run, parseConstantsDef_run]; rfl))
  refine Nat.le_trans ?_ (pair_low (a := none) (by rw [K.opt_run, K.preceded_run, parsePredicatesDef_run]; rfl))
  refine Nat.le_trans ?_ (pair_low (a := none) (by rw [K.opt_run, K.preceded_run, parseFunctionsDef_run]; rfl))
  refine Nat.le_trans ?_ (pair_low (a := none) (by rw [K.opt_run, K.preceded_run, parseDomainConstraintsDef_run]; rfl))
  refine Nat.le_trans ?_ (preceded_low (a := [' ']) (r := (c!"(:derived (p) (> " ++ (op3 n ++ c!" 1)))"))) rfl)
  refine Nat.le_trans ?_ (ws_low _)
  refine Nat.le_trans ?_ (Nat.le_of_eq (congrArg _ (Solid.skip (.cons (by decide) (by decide) _)).symm))
  refine Nat.le_trans ?_ (Nat.le_add_right _ _)
  refine Nat.le_trans ?_ (preceded_low (eol_ok _))
  refine Nat.le_trans ?_ (Nat.le_of_eq (congrArg _ (Solid.skipC (.cons (by decide) (by decide) _)).symm))
  refine Nat.le_trans ?_ (alt_low (ps := []) (by simp))
  refine Nat.le_trans ?_ (prefixExpr_low c!":derived" (c!" (p) (> " ++ (op3 n ++ c!" 1)))")))
  refine Nat.le_trans ?_ (Nat.le_of_eq (congrArg _ ((skip_space (by decide) _).trans
    (Solid.skip (.cons (by decide) (by decide) _))).symm))
  refine Nat.le_trans ?_ (pair_low (a := ⟨.new c!"p", []⟩) (r := c!" (> " ++ (op3 n ++ c!" 1)))"))
    (by rw [parseAtomicFormulaSkeleton_run]; exact hsk.elem.1 _ (Stop.sp (g := [' ']) sp_one _)))
  refine Nat.le_trans ?_ (preceded_low (a := [' ']) (r := (c!"(> " ++ (op3 n ++ c!" 1)))"))) rfl)
  rw [parseGd, Alike.fix_cost gdBody_alike, gdBody]
  refine Nat.le_trans (Nat.le_trans ?_ (alt_low (p := map GD.fComp parseFComp) (qs := []) (ps := [_, _, _, _, _, _, _, _]) ?_)) (Nat.le_add_left _ 1)
  · refine Nat.le_trans ?_ (parens_low _)
    refine Nat.le_trans ?_ (Nat.le_of_eq (congrArg _ (Solid.skip (.cons (by decide) (by decide) _)).symm))
    refine Nat.le_trans ?_ (pair_low (a := .gt) (r := c!" " ++ (op3 n ++ c!" 1)))")) (by rw [parseBinaryComp_run]; rfl))
    obtain ⟨x, k2⟩ := ms1_sp (g := [' ']) sp_one ((op3_solid n).append (c!" 1)))"))
    exact Nat.le_trans (preceded_low k2) pair_low_left
  · intro q hq
    simp only [List.mem_cons, List.not_mem_nil, or_false] at hq
    rcases hq with rfl | rfl | rfl | rfl | rfl | rfl | rfl | rfl
    all_goals simp only [K.map_run, K.prefixExpr_run, K.atomicFormula_run, K.literal_run]; rfl

end K

end Pddl
