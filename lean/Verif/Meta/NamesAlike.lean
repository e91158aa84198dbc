import Verif.Meta.NamesRun
import Verif.Meta.GoodAll
import Verif.Meta.Sound
import Verif.Meta.Chain

/-!
# Meta-theory: the names that are made do not depend on the depth budget

As for the steps (`Verif/Meta/WorkAlike.lean`): a call of a recursive parser makes the names that its
body makes, in which the recursive calls are those of the parser itself.
-/

namespace Pddl

/-- On inputs shorter than `L` the same outcomes and the same names; a success consumes at least `k`
characters. -/
def AlikeN (k L : Nat) (p q : N.P α) : Prop := ∀ s, s.length < L →
  p.run s = q.run s ∧ p.made s = q.made s ∧ ∀ a r, p.run s = .ok a r → r.length + k ≤ s.length

/-- A parser whose outcomes are those of a parser that consumes at least `k` characters. -/
theorem AlikeN.of {p : N.P α} {q : P α} (e : p.run = q) (h : Good k L q q) : AlikeN k L p p :=
  fun s hs => ⟨rfl, rfl, fun a r ho => by
    have h2 := (h s hs).2
    rw [← e, ho] at h2
    obtain ⟨c, hc, hk⟩ := h2
    have : s.length = c.length + r.length := by simp [hc]
    omega⟩

namespace AlikeN

theorem mono {p q : N.P α} (h : AlikeN k L p q) (hk : k' ≤ k) : AlikeN k' L p q :=
  fun s hs => ⟨(h s hs).1, (h s hs).2.1, fun a r ho => by
    have := (h s hs).2.2 a r ho
    omega⟩

theorem weaken {p q : N.P α} (h : AlikeN k L p q) (hL : L' ≤ L) : AlikeN k L' p q :=
  fun s hs => h s (by omega)

theorem map (f : α → β) {p q : N.P α} (h : AlikeN k L p q) :
    AlikeN k L (N.map f p) (N.map f q) := fun s hs => by
  obtain ⟨h1, h2, h3⟩ := h s hs
  refine ⟨?_, h2, fun b r ho => ?_⟩
  · simp only [N.map, Pddl.map, h1]
  · obtain ⟨a, h4, _⟩ := map_ok ho
    exact h3 a r h4

theorem value (b : β) {p q : N.P α} (h : AlikeN k L p q) :
    AlikeN k L (N.value b p) (N.value b q) := map (fun _ => b) h

theorem mapExpect (f : α → Option β) {p q : N.P α} (h : AlikeN k L p q) :
    AlikeN k L (N.mapExpect f p) (N.mapExpect f q) := fun s hs => by
  obtain ⟨h1, h2, h3⟩ := h s hs
  refine ⟨?_, h2, fun b r ho => ?_⟩
  · simp only [N.mapExpect, Pddl.mapExpect, h1]
  · obtain ⟨a, h4, _⟩ := mapExpect_inv ho
    exact h3 a r h4

theorem pair {p p' : N.P α} {q q' : N.P β} (h : AlikeN k1 L p p') (h' : AlikeN k2 (L - k1) q q') :
    AlikeN (k1 + k2) L (N.pair p q) (N.pair p' q') := fun s hs => by
  obtain ⟨h1, h2, h3⟩ := h s hs
  refine ⟨?_, ?_, fun b r ho => ?_⟩
  · simp only [N.pair, Pddl.pair, ← h1]
    cases hp : p.run s with
    | ok a r => simp only [Res.bind, (h' r (by have := h3 a r hp; omega)).1]
    | _ => rfl
  · simp only [N.pair, ← h1, ← h2]
    cases hp : p.run s with
    | ok a r => simp only [Res.thenMade, (h' r (by have := h3 a r hp; omega)).2.1]
    | _ => rfl
  · obtain ⟨r1, h4, h5⟩ := pair_ok ho
    have h6 := h3 _ _ h4
    have h7 := (h' r1 (by omega)).2.2 _ _ h5
    omega

theorem preceded {p p' : N.P α} {q q' : N.P β} (h : AlikeN k1 L p p')
    (h' : AlikeN k2 (L - k1) q q') : AlikeN (k1 + k2) L (N.preceded p q) (N.preceded p' q') :=
  fun s hs => by
  obtain ⟨h1, h2, h3⟩ := h s hs
  refine ⟨?_, ?_, fun b r ho => ?_⟩
  · simp only [N.preceded, Pddl.preceded, ← h1]
    cases hp : p.run s with
    | ok a r => simp only [Res.bind, (h' r (by have := h3 a r hp; omega)).1]
    | _ => rfl
  · simp only [N.preceded, ← h1, ← h2]
    cases hp : p.run s with
    | ok a r => simp only [Res.thenMade, (h' r (by have := h3 a r hp; omega)).2.1]
    | _ => rfl
  · obtain ⟨_, r1, h4, h5⟩ := preceded_ok ho
    have h6 := h3 _ _ h4
    have h7 := (h' r1 (by omega)).2.2 _ _ h5
    omega

theorem terminated {p p' : N.P α} {q q' : N.P β} (h : AlikeN k1 L p p')
    (h' : AlikeN k2 (L - k1) q q') : AlikeN (k1 + k2) L (N.terminated p q) (N.terminated p' q') :=
  fun s hs => by
  obtain ⟨h1, h2, h3⟩ := h s hs
  refine ⟨?_, ?_, fun b r ho => ?_⟩
  · simp only [N.terminated, Pddl.terminated, ← h1]
    cases hp : p.run s with
    | ok a r => simp only [Res.bind, (h' r (by have := h3 a r hp; omega)).1]
    | _ => rfl
  · simp only [N.terminated, ← h1, ← h2]
    cases hp : p.run s with
    | ok a r => simp only [Res.thenMade, (h' r (by have := h3 a r hp; omega)).2.1]
    | _ => rfl
  · obtain ⟨_, r1, h4, h5⟩ := terminated_ok ho
    have h6 := h3 _ _ h4
    have h7 := (h' r1 (by omega)).2.2 _ _ h5
    omega

theorem delimited {p p' : N.P α} {q q' : N.P β} {t t' : N.P γ} (h1 : AlikeN k1 L p p')
    (h2 : AlikeN k2 (L - k1) q q') (h3 : AlikeN k3 (L - k1 - k2) t t') :
    AlikeN (k1 + (k2 + k3)) L (N.delimited p q t) (N.delimited p' q' t') :=
  preceded h1 (terminated h2 h3)

theorem alt_cons {p q : N.P α} {ps qs : List (N.P α)} (h : AlikeN k1 L p q)
    (h' : AlikeN k2 L (N.alt ps) (N.alt qs)) :
    AlikeN (min k1 k2) L (N.alt (p :: ps)) (N.alt (q :: qs)) := fun s hs => by
  obtain ⟨h1, h2, h3⟩ := h s hs
  obtain ⟨h4, h5, h6⟩ := h' s hs
  refine ⟨?_, ?_, fun b r ho => ?_⟩
  · simp only [N.alt, List.map_cons, Pddl.alt, ← h1] at h4 ⊢
    rw [h4]
  · simp only [N.alt, N.altMade, ← h1, ← h2] at h5 ⊢
    rw [h5]
  · rcases alt_inv ho with h7 | h7
    · have := h3 _ _ h7; omega
    · have := h6 _ _ h7.2; omega

theorem alt_one {p q : N.P α} (h : AlikeN k L p q) : AlikeN k L (N.alt [p]) (N.alt [q]) :=
  (alt_cons h (k2 := k) fun _ _ => ⟨rfl, rfl, fun _ _ ho => by cases ho⟩).mono (by omega)

theorem opt {p q : N.P α} (h : AlikeN k L p q) : AlikeN 0 L (N.opt p) (N.opt q) := fun s hs => by
  obtain ⟨h1, h2, h3⟩ := h s hs
  refine ⟨?_, h2, fun b r ho => ?_⟩
  · simp only [N.opt, Pddl.opt, h1]
  · rcases opt_inv ho with ⟨a, h4, _⟩ | ⟨_, _, rfl⟩
    · have := h3 _ _ h4; omega
    · omega

theorem many0Loop {p q : N.P α} (h : AlikeN k L p q) : ∀ n s, s.length < L →
    Pddl.many0Loop p.run n s = Pddl.many0Loop q.run n s ∧ N.many0Made p n s = N.many0Made q n s ∧
      ∀ as r, Pddl.many0Loop p.run n s = .ok as r → r.length ≤ s.length
  | 0, s, _ => ⟨rfl, rfl, fun _ _ ho => by cases ho⟩
  | n + 1, s, hs => by
    obtain ⟨h1, h2, h3⟩ := h s hs
    simp only [Pddl.many0Loop, N.many0Made, ← h1, ← h2]
    cases hp : p.run s with
    | ok a r =>
      have h4 := h3 a r hp
      obtain ⟨h5, h6, h7⟩ := many0Loop h n r (by omega)
      simp only [Res.thenMade, h5, h6, true_and]
      intro as r' ho
      split at ho
      · cases ho
      · rw [← h5] at ho
        cases hm : Pddl.many0Loop p.run n r with
        | ok bs r2 =>
          rw [hm] at ho
          simp only [Res.bind, Res.ok.injEq] at ho
          have := h7 _ _ hm
          rw [← ho.2]; omega
        | _ => rw [hm] at ho; cases ho
    | err => exact ⟨rfl, rfl, fun _ _ ho => by cases ho; exact Nat.le_refl _⟩
    | _ => exact ⟨rfl, rfl, fun _ _ ho => by cases ho⟩

theorem many0 {p q : N.P α} (h : AlikeN k L p q) : AlikeN 0 L (N.many0 p) (N.many0 q) :=
  fun s hs => many0Loop h (s.length + 1) s hs

theorem sepLoop {e e' : N.P β} {p q : N.P α} (he : AlikeN k1 L e e') (h : AlikeN k2 (L - k1) p q) :
    ∀ n s, s.length < L →
    Pddl.sepLoop e.run p.run n s = Pddl.sepLoop e'.run q.run n s ∧
      N.sepMade e p n s = N.sepMade e' q n s ∧
      ∀ as r, Pddl.sepLoop e.run p.run n s = .ok as r → r.length ≤ s.length
  | 0, s, _ => ⟨rfl, rfl, fun _ _ ho => by cases ho⟩
  | n + 1, s, hs => by
    obtain ⟨h1, h2, h3⟩ := he s hs
    simp only [Pddl.sepLoop, N.sepMade, ← h1, ← h2]
    cases hp : e.run s with
    | ok a r =>
      have h4 := h3 a r hp
      obtain ⟨g1, g2, g3⟩ := h r (by omega)
      simp only [Res.thenMade, ← g1, ← g2]
      cases hq : p.run r with
      | ok b r' =>
        have g4 := g3 _ _ hq
        obtain ⟨h5, h6, h7⟩ := sepLoop he h n r' (by omega)
        simp only [h5, h6, true_and]
        intro as r2 ho
        split at ho
        · cases ho
        · rw [← h5] at ho
          cases hm : Pddl.sepLoop e.run p.run n r' with
          | ok bs r2 =>
            rw [hm] at ho
            simp only [Res.bind, Res.ok.injEq] at ho
            have := h7 _ _ hm
            rw [← ho.2]; omega
          | _ => rw [hm] at ho; cases ho
      | err =>
        refine ⟨rfl, rfl, fun _ _ ho => ?_⟩
        split at ho
        · cases ho
        · cases ho; exact Nat.le_refl _
      | _ =>
        refine ⟨rfl, rfl, fun _ _ ho => ?_⟩
        split at ho <;> cases ho
    | err => exact ⟨rfl, rfl, fun _ _ ho => by cases ho; exact Nat.le_refl _⟩
    | _ => exact ⟨rfl, rfl, fun _ _ ho => by cases ho⟩

theorem sepList1 {e e' : N.P β} {p q : N.P α} (h : AlikeN k2 L p q) (he : AlikeN k1 (L - k2) e e') :
    AlikeN k2 L (N.sepList1 e p) (N.sepList1 e' q) := fun s hs => by
  obtain ⟨h1, h2, h3⟩ := h s hs
  simp only [N.sepList1, Pddl.sepList1, ← h1, ← h2]
  cases hp : p.run s with
  | ok a r =>
    have h4 := h3 _ _ hp
    obtain ⟨h5, h6, h7⟩ := sepLoop he (h.weaken (L' := L - k2 - k1) (by omega)) (r.length + 1) r
      (by omega)
    simp only [Res.bind, Res.thenMade, h5, h6, true_and]
    intro as r2 ho
    rw [← h5] at ho
    cases hm : Pddl.sepLoop e.run p.run (r.length + 1) r with
    | ok bs r2 =>
      rw [hm] at ho
      simp only [Res.ok.injEq] at ho
      have := h7 _ _ hm
      rw [← ho.2]; omega
    | _ => rw [hm] at ho; cases ho
  | _ => exact ⟨rfl, rfl, fun _ _ ho => by cases ho⟩

theorem sepList0 {e e' : N.P β} {p q : N.P α} (h : AlikeN k2 L p q) (he : AlikeN k1 (L - k2) e e') :
    AlikeN 0 L (N.sepList0 e p) (N.sepList0 e' q) := fun s hs => by
  have h0 := (sepList1 h he).mono (Nat.zero_le _) s hs
  obtain ⟨h1, h2, h3⟩ := h s hs
  simp only [N.sepList1, Pddl.sepList1, N.sepList0, Pddl.sepList0, ← h1, ← h2] at h0 ⊢
  cases hp : p.run s with
  | err => exact ⟨rfl, rfl, fun _ _ ho => by cases ho; exact Nat.le_refl _⟩
  | _ => rw [hp] at h0; exact h0

theorem ifOk {p p' : N.P α} (f : α → β) {q q' : N.P β} (h : AlikeN k1 L p p')
    (h' : AlikeN k2 L q q') : AlikeN (min k1 k2) L (N.ifOk p f q) (N.ifOk p' f q') := fun s hs => by
  obtain ⟨h1, h2, h3⟩ := h s hs
  obtain ⟨h4, h5, h6⟩ := h' s hs
  refine ⟨?_, ?_, fun b r ho => ?_⟩
  · simp only [N.ifOk, Pddl.ifOk, ← h1, h4]
  · simp only [N.ifOk, ← h1, ← h2, h5]
  · rcases ifOk_inv ho with ⟨a, h7, _⟩ | h7
    · have := h3 _ _ h7; omega
    · have := h6 _ _ h7; omega

theorem failure : AlikeN k L (N.failure : N.P α) N.failure :=
  fun _ _ => ⟨rfl, rfl, fun _ _ ho => by cases ho⟩

theorem error : AlikeN k L (N.error : N.P α) N.error :=
  fun _ _ => ⟨rfl, rfl, fun _ _ ho => by cases ho⟩

theorem tag (t : List Char) : AlikeN t.length L (N.tag t) (N.tag t) := .of rfl (Good.tag t)
theorem char (c : Char) : AlikeN 1 L (N.char c) (N.char c) := .of rfl (Good.char c)
theorem multispace0 : AlikeN 0 L N.multispace0 N.multispace0 := .of rfl Good.multispace0
theorem multispace1 : AlikeN 1 L N.multispace1 N.multispace1 := .of rfl Good.multispace1
theorem isNot (cs : List Char) : AlikeN 1 L (N.isNot cs) (N.isNot cs) := .of rfl (Good.isNot cs)

/-- The budget does not matter. -/
theorem fixF {body : N.P α → N.P α}
    (h : ∀ L p q, AlikeN k L p q → AlikeN k (L + 1) (body p) (body q)) :
    ∀ n m, n ≤ m → AlikeN k n (N.fixF body n) (N.fixF body m) := by
  intro n
  induction n with
  | zero => intro m _ s hs; omega
  | succ n ih =>
    intro m hm
    obtain ⟨m, rfl⟩ : ∃ m', m = m' + 1 := ⟨m - 1, by omega⟩
    intro s hs
    obtain ⟨h1, h2, h3⟩ := h n _ _ (ih m (by omega)) s hs
    exact ⟨h1, by simp only [N.fixF, h2], h3⟩

theorem fixF_fix {body : N.P α → N.P α}
    (h : ∀ L p q, AlikeN k L p q → AlikeN k (L + 1) (body p) (body q)) (n : Nat) :
    AlikeN k n (N.fixF body n) (N.fix body) := by
  intro s hs
  obtain ⟨h1, h2, h3⟩ := fixF h (s.length + 1) n (by omega) s (by omega)
  exact ⟨h1.symm, h2.symm, h1 ▸ h3⟩

/-- The recursion equation. -/
theorem fix_made {body : N.P α → N.P α}
    (h : ∀ L p q, AlikeN k L p q → AlikeN k (L + 1) (body p) (body q)) (s : List Char) :
    (N.fix body).made s = (body (N.fix body)).made s := by
  have := (h s.length _ _ (fixF_fix h s.length) s (by omega)).2.1
  simp only [N.fix, N.fixF] at this ⊢
  rw [this]

theorem ignoreEolComment : AlikeN 0 L N.ignoreEolComment N.ignoreEolComment :=
  .of N.ignoreEolComment_run ignoreEolComment_good

theorem ws {p q : N.P α} (h : AlikeN k L p q) : AlikeN (0 + 0 + k) L (N.ws p) (N.ws q) :=
  preceded (preceded multispace0 ignoreEolComment) (h.weaken (by omega))

theorem prefixExpr (t : List Char) {p q : N.P α} (h : AlikeN k (L - (1 + t.length)) p q) :
    AlikeN (2 + t.length + k) L (N.prefixExpr t p) (N.prefixExpr t q) := by
  have h1 : AlikeN (1 + t.length) L (N.preceded (N.ws (N.tag c!"(")) (N.tag t))
      (N.preceded (N.ws (N.tag c!"(")) (N.tag t)) :=
    (preceded (ws (tag _)) (tag _)).mono (by simp)
  refine (delimited h1 (ws h) (ws (tag _))).mono ?_
  simp; omega

theorem parens {p q : N.P α} (h : AlikeN k (L - 1) p q) :
    AlikeN (2 + k) L (N.parens p) (N.parens q) := by
  refine (preceded ignoreEolComment (delimited (char '(') (ws (h.weaken ?_)) (char ')'))).mono ?_
  · omega
  · omega

theorem spaceSeparatedList0 {p q : N.P α} (h : AlikeN k L p q) :
    AlikeN 0 L (N.spaceSeparatedList0 p) (N.spaceSeparatedList0 q) :=
  (ws (sepList0 (preceded ignoreEolComment (h.weaken (by omega))) multispace1)).mono (by omega)

theorem spaceSeparatedList1 {p q : N.P α} (h : AlikeN k L p q) :
    AlikeN k L (N.spaceSeparatedList1 p) (N.spaceSeparatedList1 q) :=
  (ws (sepList1 (preceded ignoreEolComment (h.weaken (by omega))) multispace1)).mono (by omega)

end AlikeN

section
open Lean Elab Tactic Meta

/-- The tactic of `Verif/Meta/Tactic.lean` for these parsers. -/
elab "combN_step" : tactic => withMainContext do
  let t ← instantiateMVars (← getMainTarget)
  let .const (.str `Pddl pred) _ := t.getAppFn | throwError "combN: not a predicate"
  for a in t.getAppArgs do
    let ty ← instantiateMVars (← inferType a)
    if ty.isAppOf `Pddl.N.P then
      if let .const (.str _ f) _ := a.getAppFn then
        let ns := Lean.Name.mkStr `Pddl pred
        for c in [ns.str f, ns.str (f ++ "_one"), ns.str (f ++ "_cons"),
            Lean.Name.mkStr `Pddl (f ++ "_" ++ pred.decapitalize)] do
          if (← getEnv).contains c then
            let saved ← saveState
            try
              let g ← getMainGoal
              let e ← mkConstWithFreshMVarLevels c
              let gs ← withReducible (g.apply e)
              replaceMainGoal gs
              return
            catch _ => saved.restore
      throwError "combN: no lemma for {a}"
  throwError "combN: no parser in goal"

macro "combN" : tactic => `(tactic| repeat' combN_step)

end

macro "alikeN_rec" h:term : tactic =>
  `(tactic| (combN <;> exact AlikeN.weaken $h (by simp <;> omega)))

theorem parseName_alikeN : AlikeN 1 L N.parseName N.parseName := .of N.parseName_run parseName_good
theorem parseVariable_alikeN : AlikeN 2 L N.parseVariable N.parseVariable := .of N.parseVariable_run parseVariable_good
theorem parseFunctionSymbol_alikeN : AlikeN 1 L N.parseFunctionSymbol N.parseFunctionSymbol := .of N.parseFunctionSymbol_run parseFunctionSymbol_good
theorem parsePrefName_alikeN : AlikeN 1 L N.parsePrefName N.parsePrefName := .of N.parsePrefName_run parsePrefName_good
theorem parseTerm_alikeN : AlikeN 1 L N.parseTerm N.parseTerm := .of N.parseTerm_run parseTerm_good
theorem parseFHead_alikeN : AlikeN 1 L N.parseFHead N.parseFHead := .of N.parseFHead_run parseFHead_good
theorem parseMultiOp_alikeN : AlikeN 1 L N.parseMultiOp N.parseMultiOp := .of N.parseMultiOp_run parseMultiOp_good
theorem parseBinaryOp_alikeN : AlikeN 1 L N.parseBinaryOp N.parseBinaryOp := .of N.parseBinaryOp_run parseBinaryOp_good
theorem parseDOp_alikeN : AlikeN 1 L N.parseDOp N.parseDOp := .of N.parseDOp_run parseDOp_good
theorem parseTimeSpecifier_alikeN : AlikeN 1 L N.parseTimeSpecifier N.parseTimeSpecifier := .of N.parseTimeSpecifier_run parseTimeSpecifier_good
theorem parseFExp_alikeN : AlikeN 1 L N.parseFExp N.parseFExp := .of N.parseFExp_run parseFExp_good
theorem parseFComp_alikeN : AlikeN 3 L N.parseFComp N.parseFComp := .of N.parseFComp_run parseFComp_good
theorem parseVarList_alikeN : AlikeN 2 L N.parseVarList N.parseVarList := .of N.parseVarList_run parseVarList_good
theorem parseGd_alikeN : AlikeN 1 L N.parseGd N.parseGd := .of N.parseGd_run parseGd_good
theorem parsePrefGd_alikeN : AlikeN 1 L N.parsePrefGd N.parsePrefGd := .of N.parsePrefGd_run parsePrefGd_good
theorem parseConGd_alikeN : AlikeN 1 L N.parseConGd N.parseConGd := .of N.parseConGd_run parseConGd_good
theorem parsePEffect_alikeN : AlikeN 1 L N.parsePEffect N.parsePEffect := .of N.parsePEffect_run parsePEffect_good
theorem parseWhenCEffect_alikeN : AlikeN 1 L N.parseWhenCEffect N.parseWhenCEffect := .of N.parseWhenCEffect_run parseWhenCEffect_good
theorem parsePrefTimedGd_alikeN : AlikeN 1 L N.parsePrefTimedGd N.parsePrefTimedGd := .of N.parsePrefTimedGd_run parsePrefTimedGd_good
theorem parseDaGd_alikeN : AlikeN 1 L N.parseDaGd N.parseDaGd := .of N.parseDaGd_run parseDaGd_good
theorem parseTimedEffect_alikeN : AlikeN 1 L N.parseTimedEffect N.parseTimedEffect := .of N.parseTimedEffect_run parseTimedEffect_good
theorem parseDValue_alikeN : AlikeN 1 L N.parseDValue N.parseDValue := .of N.parseDValue_run parseDValue_good
theorem parseNumber_alikeN : AlikeN 1 L N.parseNumber N.parseNumber := .of N.parseNumber_run .parseNumber

theorem AlikeN.atomicFormula : AlikeN 3 L (N.atomicFormula N.parseTerm) (N.atomicFormula N.parseTerm) :=
  .of (by rw [N.atomicFormula_run, N.parseTerm_run]) (Good.atomicFormula parseTerm_good)

theorem AlikeN.literal : AlikeN 3 L (N.literal N.parseTerm) (N.literal N.parseTerm) :=
  .of (by rw [N.literal_run, N.parseTerm_run]) (Good.literal parseTerm_good)

theorem functionTermOf_alikeN {p q : N.P Term} (h : AlikeN k (L - 1) p q) :
    AlikeN 3 L (N.functionTermOf p) (N.functionTermOf q) := by
  refine AlikeN.mono (by unfold N.functionTermOf; combN; exact h.weaken (by simp)) ?_
  simp

theorem con2Of_alikeN {p q : N.P ConGD} (h : AlikeN 1 L p q) :
    AlikeN 1 L (N.con2Of p) (N.con2Of q) := by
  refine AlikeN.mono (by unfold N.con2Of; combN; exact h) ?_
  decide

theorem effectOf_alikeN {p q : N.P CEffect} (h : AlikeN 1 L p q) :
    AlikeN 1 L (N.effectOf p) (N.effectOf q) := by
  refine AlikeN.mono (by unfold N.effectOf; alikeN_rec h) ?_
  decide

theorem forallCEffectOf_alikeN {p q : N.P CEffect} (h : AlikeN 1 (L - 1) p q) :
    AlikeN 1 L (N.forallCEffectOf p) (N.forallCEffectOf q) := by
  refine AlikeN.mono (by unfold N.forallCEffectOf; alikeN_rec h) ?_
  decide

theorem ignoreEolCommentBody_alikeN (L) (p q : N.P Unit) (h : AlikeN 0 L p q) :
    AlikeN 0 (L + 1) (N.ignoreEolCommentBody p) (N.ignoreEolCommentBody q) := by
  unfold N.ignoreEolCommentBody
  combN
  exact h.weaken (by omega)

theorem termBody_alikeN (L) (p q : N.P Term) (h : AlikeN 1 L p q) :
    AlikeN 1 (L + 1) (N.termBody p) (N.termBody q) := by
  unfold N.termBody
  refine AlikeN.mono (AlikeN.ifOk _ (by combN) (AlikeN.ifOk _ (by combN)
    (AlikeN.ifOk _ (functionTermOf_alikeN (h.weaken (by omega))) (AlikeN.error (k := 1))))) ?_
  decide

theorem fExpBody_alikeN (L) (p q : N.P FExp) (h : AlikeN 1 L p q) :
    AlikeN 1 (L + 1) (N.fExpBody p) (N.fExpBody q) := by
  refine AlikeN.mono (by unfold N.fExpBody; alikeN_rec h) ?_
  decide

theorem gdBody_alikeN (L) (p q : N.P GD) (h : AlikeN 1 L p q) :
    AlikeN 1 (L + 1) (N.gdBody p) (N.gdBody q) := by
  refine AlikeN.mono (by unfold N.gdBody; alikeN_rec h) ?_
  decide

theorem preGdBody_alikeN (L) (p q : N.P (List PreGD)) (h : AlikeN 1 L p q) :
    AlikeN 1 (L + 1) (N.preGdBody p) (N.preGdBody q) := by
  refine AlikeN.mono (by unfold N.preGdBody; alikeN_rec h) ?_
  decide

theorem conGdBody_alikeN (L) (p q : N.P ConGD) (h : AlikeN 1 L p q) :
    AlikeN 1 (L + 1) (N.conGdBody p) (N.conGdBody q) := by
  refine AlikeN.mono (by unfold N.conGdBody; alikeN_rec h) ?_
  decide

theorem prefConGdBody_alikeN (L) (p q : N.P (List PrefConGD)) (h : AlikeN 1 L p q) :
    AlikeN 1 (L + 1) (N.prefConGdBody p) (N.prefConGdBody q) := by
  refine AlikeN.mono (by unfold N.prefConGdBody; alikeN_rec h) ?_
  decide

theorem cEffectBody_alikeN (L) (p q : N.P CEffect) (h : AlikeN 1 L p q) :
    AlikeN 1 (L + 1) (N.cEffectBody p) (N.cEffectBody q) := by
  refine AlikeN.mono (by unfold N.cEffectBody; alikeN_rec h) ?_
  decide

theorem daGdBody_alikeN (L) (p q : N.P DaGD) (h : AlikeN 1 L p q) :
    AlikeN 1 (L + 1) (N.daGdBody p) (N.daGdBody q) := by
  refine AlikeN.mono (by unfold N.daGdBody; alikeN_rec h) ?_
  decide

theorem fExpDaBody_alikeN (L) (p q : N.P FExpDa) (h : AlikeN 1 L p q) :
    AlikeN 1 (L + 1) (N.fExpDaBody p) (N.fExpDaBody q) := by
  refine AlikeN.mono (by unfold N.fExpDaBody; alikeN_rec h) ?_
  decide

theorem daEffectBody_alikeN (L) (p q : N.P DaEffect) (h : AlikeN 1 L p q) :
    AlikeN 1 (L + 1) (N.daEffectBody p) (N.daEffectBody q) := by
  refine AlikeN.mono (by unfold N.daEffectBody; alikeN_rec h) ?_
  decide

theorem simpleDurationBody_alikeN (L) (p q : N.P SimpleDuration) (h : AlikeN 1 L p q) :
    AlikeN 1 (L + 1) (N.simpleDurationBody p) (N.simpleDurationBody q) := by
  refine AlikeN.mono (by unfold N.simpleDurationBody; alikeN_rec h) ?_
  decide

theorem metricFExpBody_alikeN (L) (p q : N.P MetricFExp) (h : AlikeN 1 L p q) :
    AlikeN 1 (L + 1) (N.metricFExpBody p) (N.metricFExpBody q) := by
  refine AlikeN.mono (by unfold N.metricFExpBody; alikeN_rec h) ?_
  decide

end Pddl
