import Verif.Props.CallsProblem
import Verif.Meta.WorkLowDomain

/-!
# C122 for whole domains

The number of calls of `Name::new` grows exponentially for accepted domain texts, too: the condition of
a derived predicate compares the expression of `Verif/Props/Calls.lean`.
-/

namespace Pddl

/-- The value of `opX n` as a numeric expression. -/
def opXE : Nat → FExp
  | 0 => .function (.simple (.new c!"x"))
  | n + 1 => .multiOp .add (opXE n) [.number num1, .number num1]

theorem opXE_w (n : Nat) : FExpW .strict (opXE n) (opX n) := by
  induction n with
  | zero => exact .function (.bare (.of_word ⟨'x', [], rfl, by decide, by simp⟩))
  | succ n ih =>
    have hi : Items (FExpW .strict) [.number num1, .number num1] (['1'] ++ ([' '] ++ ['1'])) :=
      .cons (.number num1_written) sp_one.sep (.one (.number num1_written))
    have := FExpW.multiOp (m := .strict) (g0 := []) (op := .add) (g1 := [' ']) (g2 := [' ']) (g3 := []) .nil sp_one ih
      sp_one.sep hi rfl (Nat.le_refl 2)
    simpa [opX, opXE, paren, MultiOp.spell] using this

theorem opXE_step {self : P FExp} {t r : List Char} {v : FExp} (ht : Solid t)
    (h : self (t ++ (c!" 1 1)" ++ r)) = .ok v (c!" 1 1)" ++ r))
    (h1 : self (c!"1 1)" ++ r) = .ok (.number num1) (c!" 1)" ++ r))
    (h2 : self (c!"1)" ++ r) = .ok (.number num1) (c!")" ++ r)) :
    parens (pair parseBinaryOp (pair (preceded multispace1 self) (preceded multispace1 self)))
        (c!"(+ " ++ (t ++ (c!" 1 1)" ++ r))) = .err ∧
    parens (pair parseMultiOp
        (pair (preceded multispace1 self) (preceded multispace1 (spaceSeparatedList1 self))))
        (c!"(+ " ++ (t ++ (c!" 1 1)" ++ r))) = .ok (.add, v, [.number num1, .number num1]) r := by
  have hs : Solid (t ++ (c!" 1 1)" ++ r)) := ht.append _
  have e1 : preceded multispace1 self (c!" " ++ (t ++ (c!" 1 1)" ++ r))) = .ok v (c!" 1 1)" ++ r) := by
    rw [pms1_sp (sp_one) hs, h]
  have e2 : ∀ p : P (List FExp), preceded multispace1 p (c!" 1 1)" ++ r) = p (c!"1 1)" ++ r) :=
    fun p => by rfl
  have e3 : preceded multispace1 self (c!" 1 1)" ++ r) = .ok (.number num1) (c!" 1)" ++ r) := by
    rw [← h1]; rfl
  have k1 : skip (c!"+ " ++ (t ++ (c!" 1 1)" ++ r))) = (c!"+ " ++ (t ++ (c!" 1 1)" ++ r))) :=
    Solid.skip (.cons (by decide) (by decide) _)
  constructor
  · refine parens_tail (v := (.add, v, .number num1)) (y := c!" 1)" ++ r) ?_ (by simp)
    refine Eq.trans (congrArg _ k1) (pair_run (p := parseBinaryOp) (by rfl) (pair_run e1 e3))
  · refine parens_run ?_
    refine Eq.trans (congrArg _ k1) (pair_run (p := parseMultiOp) (by rfl) (pair_run e1 ?_))
    have k2 : skip (c!"1 1)" ++ r) = c!"1 1)" ++ r := Solid.skip (.cons (by decide) (by decide) _)
    have k3 : skipC (c!"1 1)" ++ r) = c!"1 1)" ++ r := Solid.skipC (.cons (by decide) (by decide) _)
    have k4 : skip (' ' :: '1' :: ')' :: r) = c!"1)" ++ r := by
      rw [skip_space (by decide), Solid.skip (.cons (by decide) (by decide) _)]; rfl
    rw [e2, spaceSeparatedList1, ws_eq, k2, sepList1, eolp_eq, k3, h1]
    simp only [Res.bind, List.cons_append, List.nil_append, List.length_cons]
    rw [sepLoop_step (by decide), k4, h2]
    rfl

theorem fExp_num1 {r : List Char} (h : Stop r) (m : Nat) :
    fixF fExpBody (m + 1) ('1' :: r) = .ok (.number num1) r := by
  rw [fixF, fExpBody]
  exact alt_hit (map_run (num1_run h))

theorem fExp_x {r : List Char} (h : ∀ c r', r = c :: r' → isWordChar c = false) (m : Nat) :
    fixF fExpBody (m + 1) ('x' :: r) = .ok (.function (.simple (.new c!"x"))) r := by
  rw [fixF, fExpBody]
  rw [alt_miss (map_err (by rfl)), alt_miss (map_err (by rfl)), alt_miss (map_err (by rfl)),
    alt_miss (map_err (by rfl))]
  refine alt_hit (map_run ?_)
  exact alt_hit (map_run (show parseFunctionSymbol ('x' :: r) = _ from
    parseName_word (t := c!"x") ⟨'x', [], rfl, by decide, by decide⟩ h))

/-- `opX n` is read as a numeric expression, given enough depth, whatever follows. -/
theorem opXE_run (n m : Nat) {r : List Char} (hr : ∀ c r', r = c :: r' → isWordChar c = false) :
    fixF fExpBody (n + m + 1) (opX n ++ r) = .ok (opXE n) r := by
  induction n generalizing m r with
  | zero => exact fExp_x hr (0 + m)
  | succ n ih =>
    have e : n + 1 + m + 1 = (n + m + 1) + 1 := by omega
    have h := opXE_step (r := r) (opX_solid n) (ih m (fun c r' h => by cases h; decide))
      (fExp_num1 (Stop.sp (g := [' ']) sp_one _) _)
      (fExp_num1 (.close _) _)
    rw [e, fixF, fExpBody]
    have t : opX (n + 1) ++ r = c!"(+ " ++ (opX n ++ (c!" 1 1)" ++ r)) := by simp [opX]
    rw [t, alt_miss (map_err (by rfl)), alt_miss (map_err h.1),
      alt_hit (r := r) (a := opXE (n + 1)) (by rw [map, h.2]; rfl)]

namespace N

theorem alt_low {p : P α} {ps qs : List (P α)} {s : List Char} (h : ∀ q ∈ ps, q.run s = .err) :
    p.count s ≤ (alt (ps ++ p :: qs)).count s := by
  show _ ≤ (altMade _ s).length
  induction ps with
  | nil => simp [altMade]
  | cons q ps ih =>
    show _ ≤ (q.made s ++ (q.run s).elseMade (altMade (ps ++ p :: qs) s)).length
    rw [h q (by simp), List.length_append]
    exact Nat.le_trans (ih fun q hq => h q (by simp [hq])) (Nat.le_add_left _ _)

theorem fix_count (body : P α → P α) (s : List Char) :
    (fix body).count s = (body (fixF body s.length)).count s := rfl

theorem sepList1_low {sep : P β} {p : P α} (s : List Char) : p.count s ≤ (sepList1 sep p).count s := by
  simp only [P.count, sepList1, List.length_append]; omega

/-- Reading `opX n` as a numeric expression makes a name `2 ^ n` times. -/
theorem opXE_count (n m : Nat) {r : List Char} (hr : ∀ c r', r = c :: r' → isWordChar c = false) :
    2 ^ n ≤ (fixF fExpBody (n + m + 1)).count (opX n ++ r) := by
  induction n generalizing m r with
  | zero =>
    have hk : Keeps (fixF fExpBody (0 + m + 1)) := .fixF (fun _ h => by
      unfold N.fExpBody
      keep) _
    have h1 := hk ('x' :: r) _ r (by
      rw [fixF_run fExpBody_run]
      exact fExp_x hr (0 + m))
    exact List.length_pos_of_mem (h1 (.name (Name.new c!"x")) (by simp [Parts.parts, FExp.nodes, FHead.nodes, Name.nodes]))
  | succ n ih =>
    have e : n + 1 + m + 1 = (n + m + 1) + 1 := by omega
    have hsp : ∀ c r', c!" 1 1)" ++ r = c :: r' → isWordChar c = false := fun c r' h => by cases h; decide
    have h := opXE_step (r := r) (opX_solid n) (opXE_run n m hsp)
      (fExp_num1 (Stop.sp (g := [' ']) sp_one _) _)
      (fExp_num1 (.close _) _)
    have t : opX (n + 1) ++ r = c!"(+ " ++ (opX n ++ (c!" 1 1)" ++ r)) := by simp [opX]
    have hi := ih m (r := c!" 1 1)" ++ r) hsp
    have hrun := fixF_run fExpBody_run (n + m + 1)
    have k1 : skip (c!"+ " ++ (opX n ++ (c!" 1 1)" ++ r))) = (c!"+ " ++ (opX n ++ (c!" 1 1)" ++ r))) :=
      Solid.skip (.cons (by decide) (by decide) _)
    obtain ⟨x, k2⟩ := ms1_sp (g := [' ']) sp_one ((opX_solid n).append (c!" 1 1)" ++ r))
    rw [e, fixF]
    show _ ≤ (fExpBody _).count _
    rw [fExpBody, t]
    refine Nat.le_trans ?_ (alt2_low ?_ ?_)
    · rw [Nat.pow_succ, Nat.mul_two]
      refine Nat.add_le_add (Nat.le_trans hi ?_) (Nat.le_trans hi ?_)
      · refine Nat.le_trans ?_ (parens_low _)
        refine Nat.le_trans ?_ (Nat.le_of_eq (congrArg _ k1.symm))
        exact Nat.le_trans (Nat.le_trans (preceded_low k2) pair_low_left)
          (pair_low (a := .add) (by rw [parseBinaryOp_run]; rfl))
      · refine Nat.le_trans ?_ (parens_low _)
        refine Nat.le_trans ?_ (Nat.le_of_eq (congrArg _ k1.symm))
        exact Nat.le_trans (Nat.le_trans (preceded_low k2) pair_low_left)
          (pair_low (a := .add) (by rw [parseMultiOp_run]; rfl))
    · rw [N.map_run, parseNumber_run]; rfl
    · rw [N.map_run, parens_run, N.pair_run, N.pair_run, N.preceded_run, hrun, parseBinaryOp_run,
        multispace1_run]
      exact map_err h.1

theorem opXE_low (n : Nat) : 2 ^ n ≤ parseFExp.count (opX n ++ c!" 1)))") := by
  show _ ≤ (fixF fExpBody ((opX n ++ c!" 1)))").length + 1)).count _
  have e : (opX n ++ c!" 1)))").length + 1 = n + (1 + 7 * n + 5) + 1 := by
    rw [List.length_append, opX_length]; simp; omega
  rw [e]
  exact opXE_count n _ (fun c r' h => by cases h; decide)

end N

/-- A domain whose derived predicate has a comparison with `opX n`. -/
def domainOpX (n : Nat) : List Char :=
  c!"(define (domain d) (:derived (p) (> " ++ (opX n ++ c!" 1)))")

/-- What `domainOpX n` means. -/
def domainOpXV (n : Nat) : Domain :=
  domainOf (.new c!"d", none, none, none, none, none, none, none,
    some [.derived ⟨⟨.new c!"p", []⟩, .fComp ⟨.gt, opXE n, .number num1⟩⟩])

theorem domainOpX_length (n : Nat) : (domainOpX n).length = 42 + 8 * n := by
  simp [domainOpX, opX_length]; omega

theorem domainOpX_w (n : Nat) : DomainW .strict (domainOpXV n) (domainOpX n) := by
  have hn {w : List Char} (h : IsWord w) : NameW (.new w) w := .of_word h
  have h1 : FCompW .strict ⟨.gt, opXE n, .number num1⟩ (paren ([] ++ (c!">" ++ ([' '] ++ (opX n ++ ([' '] ++ (['1'] ++ []))))))) :=
    .mk (op := .gt) .nil sp_one (opXE_w n) sp_one (.number num1_written) rfl
  have h2 : SkeletonW .strict ⟨.new c!"p", []⟩ (paren ([] ++ (c!"p" ++ []))) :=
    .mk .nil (hn ⟨_, _, rfl, by decide, by simp⟩) (.nil .nil)
  have h3 := DerivedW.mk (m := .strict) (g1 := [' ']) (g2 := [' ']) (g3 := []) sp_one.sep.gap h2 sp_one.sep
    (.fComp h1 (by nofun)) .nil
  have h4 : WrapW c!"domain" Mode.strict.word NameW (.new c!"d") (paren (c!"domain" ++ ([' '] ++ (c!"d" ++ [])))) :=
    .mk sp_one.sep (hn ⟨_, _, rfl, by decide, by simp⟩) .nil
  have := DomainW.mk (m := .strict) (g1 := [' ']) (g2 := []) sp_one.sep.gap h4 .absent .absent .absent .absent .absent
    .absent .absent (.present sp_one.sep (.one (.derived h3))) .nil
  simpa [paren, domainOpX, domainOpXV, domainOf, Domain.builder, Domain.withExtends, Domain.withRequirements,
    Domain.withTypes, Domain.withConstants, Domain.withPredicates, Domain.withFunctions,
    Domain.withConstraints] using this

theorem domainOpX_run (n : Nat) : parseDomain (domainOpX n) = .ok (domainOpXV n) [] := by
  have := (domainOpX_w n).acc (g := []) .nil []
  simpa [show skip [] = [] from rfl] using this

namespace N

theorem domainOpX_count (n : Nat) : 2 ^ n ≤ parseDomain.count (domainOpX n) := by
  refine Nat.le_trans (opXE_low n) ?_
  refine Nat.le_trans ?_ (ws2_low _)
  have e : skip (domainOpX n) = '(' :: (c!"define" ++ (c!" (domain d) (:derived (p) (> " ++ (opX n ++ c!" 1)))"))) :=
    Solid.skip (.cons (by decide) (by decide) _)
  refine Nat.le_trans ?_ (Nat.le_of_eq (congrArg _ e.symm))
  refine Nat.le_trans ?_ (prefixExpr_low _ _)
  have e : skip (c!" (domain d) (:derived (p) (> " ++ (opX n ++ c!" 1)))")) = (c!"(domain d) (:derived (p) (> " ++ (opX n ++ c!" 1)))")) :=
    (skip_space (by decide) _).trans (Solid.skip (.cons (by decide) (by decide) _))
  refine Nat.le_trans ?_ (Nat.le_of_eq (congrArg _ e.symm))
  have hn : Pddl.prefixExpr c!"domain" Pddl.parseName (c!"(domain d) (:derived (p) (> " ++ (opX n ++ c!" 1)))")) =
      .ok (.new c!"d") (c!" (:derived (p) (> " ++ (opX n ++ c!" 1)))")) := by
    have h := (NameW.of_word (t := c!"d") ⟨_, _, rfl, by decide, by simp⟩).acc (c!") (:derived (p) (> " ++ (opX n ++ c!" 1)))")) (.close _)
    refine Pddl.prefixExpr_run (kw := c!"domain") (x := (c!" d) (:derived (p) (> " ++ (opX n ++ c!" 1)))"))) (y := (c!") (:derived (p) (> " ++ (opX n ++ c!" 1)))"))) ?_ ?_
    · exact h
    · rfl
  have hsk : SkeletonW .strict ⟨.new c!"p", []⟩ (paren ([] ++ (c!"p" ++ []))) :=
    .mk .nil (.of_word ⟨_, _, rfl, by decide, by simp⟩) (.nil .nil)
  unfold domainParts
  refine Nat.le_trans ?_ (pair_low (by rw [N.prefixExpr_run, parseName_run]; exact hn))
  refine Nat.le_trans ?_ (pair_low (a := none) (by rw [N.opt_run, N.preceded_run, N.prefixExpr_run, spaceSeparatedList1_run, parseName_run]; rfl))
  refine Nat.le_trans ?_ (pair_low (a := none) (by rw [N.opt_run, N.preceded_run, parseRequireDef_run]; rfl))
  refine Nat.le_trans ?_ (pair_low (a := none) (by rw [N.opt_run, N.preceded_run, parseTypesDef_run]; rfl))
  refine Nat.le_trans ?_ (pair_low (a := none) (by rw [N.opt_run, N.preceded_run, parseConstantsDef_run]; rfl))
  refine Nat.le_trans ?_ (pair_low (a := none) (by rw [N.opt_run, N.preceded_run, parsePredicatesDef_run]; rfl))
  refine Nat.le_trans ?_ (pair_low (a := none) (by rw [N.opt_run, N.preceded_run, parseFunctionsDef_run]; rfl))
  refine Nat.le_trans ?_ (pair_low (a := none) (by rw [N.opt_run, N.preceded_run, parseDomainConstraintsDef_run]; rfl))
  refine Nat.le_trans ?_ (preceded_low (a := [' ']) (r := (c!"(:derived (p) (> " ++ (opX n ++ c!" 1)))"))) rfl)
  refine Nat.le_trans ?_ (ws_low _)
  refine Nat.le_trans ?_ (Nat.le_of_eq (congrArg _ (Solid.skip (.cons (by decide) (by decide) _)).symm))
  refine Nat.le_trans ?_ (sepList1_low _)
  refine Nat.le_trans ?_ (preceded_low (eol_ok _))
  refine Nat.le_trans ?_ (Nat.le_of_eq (congrArg _ (Solid.skipC (.cons (by decide) (by decide) _)).symm))
  refine Nat.le_trans ?_ (alt_low (ps := []) (by simp))
  refine Nat.le_trans ?_ (prefixExpr_low c!":derived" (c!" (p) (> " ++ (opX n ++ c!" 1)))")))
  refine Nat.le_trans ?_ (Nat.le_of_eq (congrArg _ ((skip_space (by decide) _).trans
    (Solid.skip (.cons (by decide) (by decide) _))).symm))
  refine Nat.le_trans ?_ (pair_low (a := ⟨.new c!"p", []⟩) (r := c!" (> " ++ (opX n ++ c!" 1)))"))
    (by rw [parseAtomicFormulaSkeleton_run]; exact hsk.elem.1 _ (Stop.sp (g := [' ']) sp_one _)))
  refine Nat.le_trans ?_ (preceded_low (a := [' ']) (r := (c!"(> " ++ (opX n ++ c!" 1)))"))) rfl)
  rw [parseGd, fix_count, gdBody]
  refine Nat.le_trans ?_ (alt_low (p := map GD.fComp parseFComp) (qs := []) (ps := [_, _, _, _, _, _, _, _]) ?_)
  · refine Nat.le_trans ?_ (parens_low _)
    refine Nat.le_trans ?_ (Nat.le_of_eq (congrArg _ (Solid.skip (.cons (by decide) (by decide) _)).symm))
    refine Nat.le_trans ?_ (pair_low (a := .gt) (r := c!" " ++ (opX n ++ c!" 1)))")) (by rw [parseBinaryComp_run]; rfl))
    obtain ⟨x, k2⟩ := ms1_sp (g := [' ']) sp_one ((opX_solid n).append (c!" 1)))"))
    exact Nat.le_trans (preceded_low k2) pair_low_left
  · intro q hq
    simp only [List.mem_cons, List.not_mem_nil, or_false] at hq
    rcases hq with rfl | rfl | rfl | rfl | rfl | rfl | rfl | rfl
    all_goals simp only [N.map_run, N.prefixExpr_run, N.atomicFormula_run, N.literal_run]; rfl

end N

/-- C122: an accepted domain of `8 n + 42` characters for which `Name::new` is called `2 ^ n` times or
more. -/
theorem C122_exponential_domain (n : Nat) : ∃ s v, s.length = 42 + 8 * n ∧ parseDomain s = .ok v [] ∧
    2 ^ n ≤ (Parsable.domain.entering.made s).length :=
  ⟨domainOpX n, domainOpXV n, domainOpX_length n, domainOpX_run n, N.domainOpX_count n⟩

example : domainOpX 1 = c!"(define (domain d) (:derived (p) (> (+ x 1 1) 1)))" := rfl

example : Parsable.domain.entering.made (domainOpX 1) = [c!"d", c!"p", c!"x", c!"x"] := by decide +kernel

/-- C122 is false for domains with a polynomial in the length of the text alone. -/
theorem C122_false_domain (C k : Nat) : ∃ s v, parseDomain s = .ok v [] ∧
    C * (s.length + 1) ^ k < (Parsable.domain.entering.made s).length := by
  obtain ⟨n, hn⟩ := pow_outgrows C k 43 8
  obtain ⟨s, v, hl, hv, hc⟩ := C122_exponential_domain n
  refine ⟨s, v, hv, Nat.lt_of_lt_of_le ?_ hc⟩
  have : s.length + 1 = 43 + 8 * n := by omega
  rw [this]
  exact hn

end Pddl
