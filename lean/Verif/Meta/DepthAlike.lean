import Verif.Meta.DepthRun
import Verif.Meta.GoodAll
import Verif.Meta.Sound
import Verif.Meta.Chain

/-!
# Meta-theory: the depth do not depend on the depth budget

The model bounds the depth of recursion by a budget (`Pddl.fixF`). The outcomes do not depend on it
(`Verif/Meta/Good.lean`), and neither do the depth: a call of a recursive parser takes one step more
than its body, in which the recursive calls are those of the parser itself.
-/

namespace Pddl

/-- On inputs shorter than `L` the same outcomes and the same depth; a success consumes at least `k`
characters. -/
def AlikeD (k L : Nat) (p q : D.P α) : Prop := ∀ s, s.length < L →
  p.run s = q.run s ∧ p.depth s = q.depth s ∧ ∀ a r, p.run s = .ok a r → r.length + k ≤ s.length

/-- A parser whose outcomes are those of a parser that consumes at least `k` characters. -/
theorem AlikeD.of {p : D.P α} {q : P α} (e : p.run = q) (h : Good k L q q) : AlikeD k L p p :=
  fun s hs => ⟨rfl, rfl, fun a r ho => by
    have h2 := (h s hs).2
    rw [← e, ho] at h2
    obtain ⟨c, hc, hk⟩ := h2
    have : s.length = c.length + r.length := by simp [hc]
    omega⟩

namespace AlikeD

theorem mono {p q : D.P α} (h : AlikeD k L p q) (hk : k' ≤ k) : AlikeD k' L p q :=
  fun s hs => ⟨(h s hs).1, (h s hs).2.1, fun a r ho => by
    have := (h s hs).2.2 a r ho
    omega⟩

theorem weaken {p q : D.P α} (h : AlikeD k L p q) (hL : L' ≤ L) : AlikeD k L' p q :=
  fun s hs => h s (by omega)

theorem map (f : α → β) {p q : D.P α} (h : AlikeD k L p q) :
    AlikeD k L (D.map f p) (D.map f q) := fun s hs => by
  obtain ⟨h1, h2, h3⟩ := h s hs
  refine ⟨?_, h2, fun b r ho => ?_⟩
  · simp only [D.map, Pddl.map, h1]
  · obtain ⟨a, h4, _⟩ := map_ok ho
    exact h3 a r h4

theorem value (b : β) {p q : D.P α} (h : AlikeD k L p q) :
    AlikeD k L (D.value b p) (D.value b q) := map (fun _ => b) h

theorem mapExpect (f : α → Option β) {p q : D.P α} (h : AlikeD k L p q) :
    AlikeD k L (D.mapExpect f p) (D.mapExpect f q) := fun s hs => by
  obtain ⟨h1, h2, h3⟩ := h s hs
  refine ⟨?_, h2, fun b r ho => ?_⟩
  · simp only [D.mapExpect, Pddl.mapExpect, h1]
  · obtain ⟨a, h4, _⟩ := mapExpect_inv ho
    exact h3 a r h4

theorem pair {p p' : D.P α} {q q' : D.P β} (h : AlikeD k1 L p p') (h' : AlikeD k2 (L - k1) q q') :
    AlikeD (k1 + k2) L (D.pair p q) (D.pair p' q') := fun s hs => by
  obtain ⟨h1, h2, h3⟩ := h s hs
  refine ⟨?_, ?_, fun b r ho => ?_⟩
  · simp only [D.pair, Pddl.pair, ← h1]
    cases hp : p.run s with
    | ok a r => simp only [Res.bind, (h' r (by have := h3 a r hp; omega)).1]
    | _ => rfl
  · simp only [D.pair, ← h1, ← h2]
    cases hp : p.run s with
    | ok a r => simp only [Res.after, (h' r (by have := h3 a r hp; omega)).2.1]
    | _ => rfl
  · obtain ⟨r1, h4, h5⟩ := pair_ok ho
    have h6 := h3 _ _ h4
    have h7 := (h' r1 (by omega)).2.2 _ _ h5
    omega

theorem preceded {p p' : D.P α} {q q' : D.P β} (h : AlikeD k1 L p p')
    (h' : AlikeD k2 (L - k1) q q') : AlikeD (k1 + k2) L (D.preceded p q) (D.preceded p' q') :=
  fun s hs => by
  obtain ⟨h1, h2, h3⟩ := h s hs
  refine ⟨?_, ?_, fun b r ho => ?_⟩
  · simp only [D.preceded, Pddl.preceded, ← h1]
    cases hp : p.run s with
    | ok a r => simp only [Res.bind, (h' r (by have := h3 a r hp; omega)).1]
    | _ => rfl
  · simp only [D.preceded, ← h1, ← h2]
    cases hp : p.run s with
    | ok a r => simp only [Res.after, (h' r (by have := h3 a r hp; omega)).2.1]
    | _ => rfl
  · obtain ⟨_, r1, h4, h5⟩ := preceded_ok ho
    have h6 := h3 _ _ h4
    have h7 := (h' r1 (by omega)).2.2 _ _ h5
    omega

theorem terminated {p p' : D.P α} {q q' : D.P β} (h : AlikeD k1 L p p')
    (h' : AlikeD k2 (L - k1) q q') : AlikeD (k1 + k2) L (D.terminated p q) (D.terminated p' q') :=
  fun s hs => by
  obtain ⟨h1, h2, h3⟩ := h s hs
  refine ⟨?_, ?_, fun b r ho => ?_⟩
  · simp only [D.terminated, Pddl.terminated, ← h1]
    cases hp : p.run s with
    | ok a r => simp only [Res.bind, (h' r (by have := h3 a r hp; omega)).1]
    | _ => rfl
  · simp only [D.terminated, ← h1, ← h2]
    cases hp : p.run s with
    | ok a r => simp only [Res.after, (h' r (by have := h3 a r hp; omega)).2.1]
    | _ => rfl
  · obtain ⟨_, r1, h4, h5⟩ := terminated_ok ho
    have h6 := h3 _ _ h4
    have h7 := (h' r1 (by omega)).2.2 _ _ h5
    omega

theorem delimited {p p' : D.P α} {q q' : D.P β} {t t' : D.P γ} (h1 : AlikeD k1 L p p')
    (h2 : AlikeD k2 (L - k1) q q') (h3 : AlikeD k3 (L - k1 - k2) t t') :
    AlikeD (k1 + (k2 + k3)) L (D.delimited p q t) (D.delimited p' q' t') :=
  preceded h1 (terminated h2 h3)

theorem alt_cons {p q : D.P α} {ps qs : List (D.P α)} (h : AlikeD k1 L p q)
    (h' : AlikeD k2 L (D.alt ps) (D.alt qs)) :
    AlikeD (min k1 k2) L (D.alt (p :: ps)) (D.alt (q :: qs)) := fun s hs => by
  obtain ⟨h1, h2, h3⟩ := h s hs
  obtain ⟨h4, h5, h6⟩ := h' s hs
  refine ⟨?_, ?_, fun b r ho => ?_⟩
  · simp only [D.alt, List.map_cons, Pddl.alt, ← h1] at h4 ⊢
    rw [h4]
  · simp only [D.alt, D.altDepth, ← h1, ← h2] at h5 ⊢
    rw [h5]
  · rcases alt_inv ho with h7 | h7
    · have := h3 _ _ h7; omega
    · have := h6 _ _ h7.2; omega

theorem alt_one {p q : D.P α} (h : AlikeD k L p q) : AlikeD k L (D.alt [p]) (D.alt [q]) :=
  (alt_cons h (k2 := k) fun _ _ => ⟨rfl, rfl, fun _ _ ho => by cases ho⟩).mono (by omega)

theorem opt {p q : D.P α} (h : AlikeD k L p q) : AlikeD 0 L (D.opt p) (D.opt q) := fun s hs => by
  obtain ⟨h1, h2, h3⟩ := h s hs
  refine ⟨?_, h2, fun b r ho => ?_⟩
  · simp only [D.opt, Pddl.opt, h1]
  · rcases opt_inv ho with ⟨a, h4, _⟩ | ⟨_, _, rfl⟩
    · have := h3 _ _ h4; omega
    · omega

theorem many0Loop {p q : D.P α} (h : AlikeD k L p q) : ∀ n s, s.length < L →
    Pddl.many0Loop p.run n s = Pddl.many0Loop q.run n s ∧ D.many0Depth p n s = D.many0Depth q n s ∧
      ∀ as r, Pddl.many0Loop p.run n s = .ok as r → r.length ≤ s.length
  | 0, s, _ => ⟨rfl, rfl, fun _ _ ho => by cases ho⟩
  | n + 1, s, hs => by
    obtain ⟨h1, h2, h3⟩ := h s hs
    simp only [Pddl.many0Loop, D.many0Depth, ← h1, ← h2]
    cases hp : p.run s with
    | ok a r =>
      have h4 := h3 a r hp
      obtain ⟨h5, h6, h7⟩ := many0Loop h n r (by omega)
      simp only [Res.after, h5, h6, true_and]
      intro as r' ho
      split at ho
      · cases ho
      · rw [← h5] at ho
        cases hm : Pddl.many0Loop p.run n r with
        | ok bs r2 =>
          rw [hm] at ho
          simp only [Res.bind, Res.ok.injEq] at ho
          have := h7 _ _ hm
          rw [← ho.2]; omega
        | _ => rw [hm] at ho; cases ho
    | err => exact ⟨rfl, rfl, fun _ _ ho => by cases ho; exact Nat.le_refl _⟩
    | _ => exact ⟨rfl, rfl, fun _ _ ho => by cases ho⟩

theorem many0 {p q : D.P α} (h : AlikeD k L p q) : AlikeD 0 L (D.many0 p) (D.many0 q) :=
  fun s hs => many0Loop h (s.length + 1) s hs

theorem sepLoop {e e' : D.P β} {p q : D.P α} (he : AlikeD k1 L e e') (h : AlikeD k2 (L - k1) p q) :
    ∀ n s, s.length < L →
    Pddl.sepLoop e.run p.run n s = Pddl.sepLoop e'.run q.run n s ∧
      D.sepDepth e p n s = D.sepDepth e' q n s ∧
      ∀ as r, Pddl.sepLoop e.run p.run n s = .ok as r → r.length ≤ s.length
  | 0, s, _ => ⟨rfl, rfl, fun _ _ ho => by cases ho⟩
  | n + 1, s, hs => by
    obtain ⟨h1, h2, h3⟩ := he s hs
    simp only [Pddl.sepLoop, D.sepDepth, ← h1, ← h2]
    cases hp : e.run s with
    | ok a r =>
      have h4 := h3 a r hp
      obtain ⟨g1, g2, g3⟩ := h r (by omega)
      simp only [Res.after, ← g1, ← g2]
      cases hq : p.run r with
      | ok b r' =>
        have g4 := g3 _ _ hq
        obtain ⟨h5, h6, h7⟩ := sepLoop he h n r' (by omega)
        simp only [h5, h6, true_and]
        intro as r2 ho
        split at ho
        · cases ho
        · rw [← h5] at ho
          cases hm : Pddl.sepLoop e.run p.run n r' with
          | ok bs r2 =>
            rw [hm] at ho
            simp only [Res.bind, Res.ok.injEq] at ho
            have := h7 _ _ hm
            rw [← ho.2]; omega
          | _ => rw [hm] at ho; cases ho
      | err =>
        refine ⟨rfl, rfl, fun _ _ ho => ?_⟩
        split at ho
        · cases ho
        · cases ho; exact Nat.le_refl _
      | _ =>
        refine ⟨rfl, rfl, fun _ _ ho => ?_⟩
        split at ho <;> cases ho
    | err => exact ⟨rfl, rfl, fun _ _ ho => by cases ho; exact Nat.le_refl _⟩
    | _ => exact ⟨rfl, rfl, fun _ _ ho => by cases ho⟩

theorem sepList1 {e e' : D.P β} {p q : D.P α} (h : AlikeD k2 L p q) (he : AlikeD k1 (L - k2) e e') :
    AlikeD k2 L (D.sepList1 e p) (D.sepList1 e' q) := fun s hs => by
  obtain ⟨h1, h2, h3⟩ := h s hs
  simp only [D.sepList1, Pddl.sepList1, ← h1, ← h2]
  cases hp : p.run s with
  | ok a r =>
    have h4 := h3 _ _ hp
    obtain ⟨h5, h6, h7⟩ := sepLoop he (h.weaken (L' := L - k2 - k1) (by omega)) (r.length + 1) r
      (by omega)
    simp only [Res.bind, Res.after, h5, h6, true_and]
    intro as r2 ho
    rw [← h5] at ho
    cases hm : Pddl.sepLoop e.run p.run (r.length + 1) r with
    | ok bs r2 =>
      rw [hm] at ho
      simp only [Res.ok.injEq] at ho
      have := h7 _ _ hm
      rw [← ho.2]; omega
    | _ => rw [hm] at ho; cases ho
  | _ => exact ⟨rfl, rfl, fun _ _ ho => by cases ho⟩

theorem sepList0 {e e' : D.P β} {p q : D.P α} (h : AlikeD k2 L p q) (he : AlikeD k1 (L - k2) e e') :
    AlikeD 0 L (D.sepList0 e p) (D.sepList0 e' q) := fun s hs => by
  have h0 := (sepList1 h he).mono (Nat.zero_le _) s hs
  obtain ⟨h1, h2, h3⟩ := h s hs
  simp only [D.sepList1, Pddl.sepList1, D.sepList0, Pddl.sepList0, ← h1, ← h2] at h0 ⊢
  cases hp : p.run s with
  | err => exact ⟨rfl, rfl, fun _ _ ho => by cases ho; exact Nat.le_refl _⟩
  | _ => rw [hp] at h0; exact h0

theorem ifOk {p p' : D.P α} (f : α → β) {q q' : D.P β} (h : AlikeD k1 L p p')
    (h' : AlikeD k2 L q q') : AlikeD (min k1 k2) L (D.ifOk p f q) (D.ifOk p' f q') := fun s hs => by
  obtain ⟨h1, h2, h3⟩ := h s hs
  obtain ⟨h4, h5, h6⟩ := h' s hs
  refine ⟨?_, ?_, fun b r ho => ?_⟩
  · simp only [D.ifOk, Pddl.ifOk, ← h1, h4]
  · simp only [D.ifOk, ← h1, ← h2, h5]
  · rcases ifOk_inv ho with ⟨a, h7, _⟩ | h7
    · have := h3 _ _ h7; omega
    · have := h6 _ _ h7; omega

theorem failure : AlikeD k L (D.failure : D.P α) D.failure :=
  fun _ _ => ⟨rfl, rfl, fun _ _ ho => by cases ho⟩

theorem error : AlikeD k L (D.error : D.P α) D.error :=
  fun _ _ => ⟨rfl, rfl, fun _ _ ho => by cases ho⟩

theorem tag (t : List Char) : AlikeD t.length L (D.tag t) (D.tag t) := .of rfl (Good.tag t)
theorem char (c : Char) : AlikeD 1 L (D.char c) (D.char c) := .of rfl (Good.char c)
theorem multispace0 : AlikeD 0 L D.multispace0 D.multispace0 := .of rfl Good.multispace0
theorem multispace1 : AlikeD 1 L D.multispace1 D.multispace1 := .of rfl Good.multispace1
theorem isNot (cs : List Char) : AlikeD 1 L (D.isNot cs) (D.isNot cs) := .of rfl (Good.isNot cs)

/-- The budget does not matter. -/
theorem fixF {body : D.P α → D.P α}
    (h : ∀ L p q, AlikeD k L p q → AlikeD k (L + 1) (body p) (body q)) :
    ∀ n m, n ≤ m → AlikeD k n (D.fixF body n) (D.fixF body m) := by
  intro n
  induction n with
  | zero => intro m _ s hs; omega
  | succ n ih =>
    intro m hm
    obtain ⟨m, rfl⟩ : ∃ m', m = m' + 1 := ⟨m - 1, by omega⟩
    intro s hs
    obtain ⟨h1, h2, h3⟩ := h n _ _ (ih m (by omega)) s hs
    exact ⟨h1, by simp only [D.fixF, h2], h3⟩

theorem fixF_fix {body : D.P α → D.P α}
    (h : ∀ L p q, AlikeD k L p q → AlikeD k (L + 1) (body p) (body q)) (n : Nat) :
    AlikeD k n (D.fixF body n) (D.fix body) := by
  intro s hs
  obtain ⟨h1, h2, h3⟩ := fixF h (s.length + 1) n (by omega) s (by omega)
  exact ⟨h1.symm, h2.symm, h1 ▸ h3⟩

/-- The recursion equation. -/
theorem fix_depth {body : D.P α → D.P α}
    (h : ∀ L p q, AlikeD k L p q → AlikeD k (L + 1) (body p) (body q)) (s : List Char) :
    (D.fix body).depth s = 1 + (body (D.fix body)).depth s := by
  have := (h s.length _ _ (fixF_fix h s.length) s (by omega)).2.1
  simp only [D.fix, D.fixF] at this ⊢
  rw [this]

theorem ignoreEolComment : AlikeD 0 L D.ignoreEolComment D.ignoreEolComment :=
  .of D.ignoreEolComment_run ignoreEolComment_good

theorem ws {p q : D.P α} (h : AlikeD k L p q) : AlikeD (0 + 0 + k) L (D.ws p) (D.ws q) :=
  preceded (preceded multispace0 ignoreEolComment) (h.weaken (by omega))

theorem prefixExpr (t : List Char) {p q : D.P α} (h : AlikeD k (L - (1 + t.length)) p q) :
    AlikeD (2 + t.length + k) L (D.prefixExpr t p) (D.prefixExpr t q) := by
  have h1 : AlikeD (1 + t.length) L (D.preceded (D.ws (D.tag c!"(")) (D.tag t))
      (D.preceded (D.ws (D.tag c!"(")) (D.tag t)) :=
    (preceded (ws (tag _)) (tag _)).mono (by simp)
  refine (delimited h1 (ws h) (ws (tag _))).mono ?_
  simp; omega

theorem parens {p q : D.P α} (h : AlikeD k (L - 1) p q) :
    AlikeD (2 + k) L (D.parens p) (D.parens q) := by
  refine (preceded ignoreEolComment (delimited (char '(') (ws (h.weaken ?_)) (char ')'))).mono ?_
  · omega
  · omega

theorem spaceSeparatedList0 {p q : D.P α} (h : AlikeD k L p q) :
    AlikeD 0 L (D.spaceSeparatedList0 p) (D.spaceSeparatedList0 q) :=
  (ws (sepList0 (preceded ignoreEolComment (h.weaken (by omega))) multispace1)).mono (by omega)

theorem spaceSeparatedList1 {p q : D.P α} (h : AlikeD k L p q) :
    AlikeD k L (D.spaceSeparatedList1 p) (D.spaceSeparatedList1 q) :=
  (ws (sepList1 (preceded ignoreEolComment (h.weaken (by omega))) multispace1)).mono (by omega)

end AlikeD

macro "alike_depth" h:term : tactic =>
  `(tactic| (comb <;> exact AlikeD.weaken $h (by simp <;> omega)))

theorem parseName_alikeD : AlikeD 1 L D.parseName D.parseName := .of D.parseName_run parseName_good
theorem parseVariable_alikeD : AlikeD 2 L D.parseVariable D.parseVariable := .of D.parseVariable_run parseVariable_good
theorem parseFunctionSymbol_alikeD : AlikeD 1 L D.parseFunctionSymbol D.parseFunctionSymbol := .of D.parseFunctionSymbol_run parseFunctionSymbol_good
theorem parsePrefName_alikeD : AlikeD 1 L D.parsePrefName D.parsePrefName := .of D.parsePrefName_run parsePrefName_good
theorem parseTerm_alikeD : AlikeD 1 L D.parseTerm D.parseTerm := .of D.parseTerm_run parseTerm_good
theorem parseFHead_alikeD : AlikeD 1 L D.parseFHead D.parseFHead := .of D.parseFHead_run parseFHead_good
theorem parseMultiOp_alikeD : AlikeD 1 L D.parseMultiOp D.parseMultiOp := .of D.parseMultiOp_run parseMultiOp_good
theorem parseBinaryOp_alikeD : AlikeD 1 L D.parseBinaryOp D.parseBinaryOp := .of D.parseBinaryOp_run parseBinaryOp_good
theorem parseDOp_alikeD : AlikeD 1 L D.parseDOp D.parseDOp := .of D.parseDOp_run parseDOp_good
theorem parseTimeSpecifier_alikeD : AlikeD 1 L D.parseTimeSpecifier D.parseTimeSpecifier := .of D.parseTimeSpecifier_run parseTimeSpecifier_good
theorem parseFExp_alikeD : AlikeD 1 L D.parseFExp D.parseFExp := .of D.parseFExp_run parseFExp_good
theorem parseFComp_alikeD : AlikeD 3 L D.parseFComp D.parseFComp := .of D.parseFComp_run parseFComp_good
theorem parseVarList_alikeD : AlikeD 2 L D.parseVarList D.parseVarList := .of D.parseVarList_run parseVarList_good
theorem parseGd_alikeD : AlikeD 1 L D.parseGd D.parseGd := .of D.parseGd_run parseGd_good
theorem parsePrefGd_alikeD : AlikeD 1 L D.parsePrefGd D.parsePrefGd := .of D.parsePrefGd_run parsePrefGd_good
theorem parseConGd_alikeD : AlikeD 1 L D.parseConGd D.parseConGd := .of D.parseConGd_run parseConGd_good
theorem parsePEffect_alikeD : AlikeD 1 L D.parsePEffect D.parsePEffect := .of D.parsePEffect_run parsePEffect_good
theorem parseWhenCEffect_alikeD : AlikeD 1 L D.parseWhenCEffect D.parseWhenCEffect := .of D.parseWhenCEffect_run parseWhenCEffect_good
theorem parsePrefTimedGd_alikeD : AlikeD 1 L D.parsePrefTimedGd D.parsePrefTimedGd := .of D.parsePrefTimedGd_run parsePrefTimedGd_good
theorem parseDaGd_alikeD : AlikeD 1 L D.parseDaGd D.parseDaGd := .of D.parseDaGd_run parseDaGd_good
theorem parseTimedEffect_alikeD : AlikeD 1 L D.parseTimedEffect D.parseTimedEffect := .of D.parseTimedEffect_run parseTimedEffect_good
theorem parseDValue_alikeD : AlikeD 1 L D.parseDValue D.parseDValue := .of D.parseDValue_run parseDValue_good
theorem parseNumber_alikeD : AlikeD 1 L D.parseNumber D.parseNumber := .of D.parseNumber_run .parseNumber

theorem AlikeD.atomicFormula : AlikeD 3 L (D.atomicFormula D.parseTerm) (D.atomicFormula D.parseTerm) :=
  .of (by rw [D.atomicFormula_run, D.parseTerm_run]) (Good.atomicFormula parseTerm_good)

theorem AlikeD.literal : AlikeD 3 L (D.literal D.parseTerm) (D.literal D.parseTerm) :=
  .of (by rw [D.literal_run, D.parseTerm_run]) (Good.literal parseTerm_good)

theorem functionTermOf_alikeD {p q : D.P Term} (h : AlikeD k (L - 1) p q) :
    AlikeD 3 L (D.functionTermOf p) (D.functionTermOf q) := by
  refine AlikeD.mono (by unfold D.functionTermOf; comb; exact h.weaken (by simp)) ?_
  simp

theorem con2Of_alikeD {p q : D.P ConGD} (h : AlikeD 1 L p q) :
    AlikeD 1 L (D.con2Of p) (D.con2Of q) := by
  refine AlikeD.mono (by unfold D.con2Of; comb; exact h) ?_
  decide

theorem effectOf_alikeD {p q : D.P CEffect} (h : AlikeD 1 L p q) :
    AlikeD 1 L (D.effectOf p) (D.effectOf q) := by
  refine AlikeD.mono (by unfold D.effectOf; alike_depth h) ?_
  decide

theorem forallCEffectOf_alikeD {p q : D.P CEffect} (h : AlikeD 1 (L - 1) p q) :
    AlikeD 1 L (D.forallCEffectOf p) (D.forallCEffectOf q) := by
  refine AlikeD.mono (by unfold D.forallCEffectOf; alike_depth h) ?_
  decide

theorem ignoreEolCommentBody_alikeD (L) (p q : D.P Unit) (h : AlikeD 0 L p q) :
    AlikeD 0 (L + 1) (D.ignoreEolCommentBody p) (D.ignoreEolCommentBody q) := by
  unfold D.ignoreEolCommentBody
  comb
  exact h.weaken (by omega)

theorem termBody_alikeD (L) (p q : D.P Term) (h : AlikeD 1 L p q) :
    AlikeD 1 (L + 1) (D.termBody p) (D.termBody q) := by
  unfold D.termBody
  refine AlikeD.mono (AlikeD.ifOk _ (by comb) (AlikeD.ifOk _ (by comb)
    (AlikeD.ifOk _ (functionTermOf_alikeD (h.weaken (by omega))) (AlikeD.error (k := 1))))) ?_
  decide

theorem fExpBody_alikeD (L) (p q : D.P FExp) (h : AlikeD 1 L p q) :
    AlikeD 1 (L + 1) (D.fExpBody p) (D.fExpBody q) := by
  refine AlikeD.mono (by unfold D.fExpBody; alike_depth h) ?_
  decide

theorem gdBody_alikeD (L) (p q : D.P GD) (h : AlikeD 1 L p q) :
    AlikeD 1 (L + 1) (D.gdBody p) (D.gdBody q) := by
  refine AlikeD.mono (by unfold D.gdBody; alike_depth h) ?_
  decide

theorem preGdBody_alikeD (L) (p q : D.P (List PreGD)) (h : AlikeD 1 L p q) :
    AlikeD 1 (L + 1) (D.preGdBody p) (D.preGdBody q) := by
  refine AlikeD.mono (by unfold D.preGdBody; alike_depth h) ?_
  decide

theorem conGdBody_alikeD (L) (p q : D.P ConGD) (h : AlikeD 1 L p q) :
    AlikeD 1 (L + 1) (D.conGdBody p) (D.conGdBody q) := by
  refine AlikeD.mono (by unfold D.conGdBody; alike_depth h) ?_
  decide

theorem prefConGdBody_alikeD (L) (p q : D.P (List PrefConGD)) (h : AlikeD 1 L p q) :
    AlikeD 1 (L + 1) (D.prefConGdBody p) (D.prefConGdBody q) := by
  refine AlikeD.mono (by unfold D.prefConGdBody; alike_depth h) ?_
  decide

theorem cEffectBody_alikeD (L) (p q : D.P CEffect) (h : AlikeD 1 L p q) :
    AlikeD 1 (L + 1) (D.cEffectBody p) (D.cEffectBody q) := by
  refine AlikeD.mono (by unfold D.cEffectBody; alike_depth h) ?_
  decide

theorem daGdBody_alikeD (L) (p q : D.P DaGD) (h : AlikeD 1 L p q) :
    AlikeD 1 (L + 1) (D.daGdBody p) (D.daGdBody q) := by
  refine AlikeD.mono (by unfold D.daGdBody; alike_depth h) ?_
  decide

theorem fExpDaBody_alikeD (L) (p q : D.P FExpDa) (h : AlikeD 1 L p q) :
    AlikeD 1 (L + 1) (D.fExpDaBody p) (D.fExpDaBody q) := by
  refine AlikeD.mono (by unfold D.fExpDaBody; alike_depth h) ?_
  decide

theorem daEffectBody_alikeD (L) (p q : D.P DaEffect) (h : AlikeD 1 L p q) :
    AlikeD 1 (L + 1) (D.daEffectBody p) (D.daEffectBody q) := by
  refine AlikeD.mono (by unfold D.daEffectBody; alike_depth h) ?_
  decide

theorem simpleDurationBody_alikeD (L) (p q : D.P SimpleDuration) (h : AlikeD 1 L p q) :
    AlikeD 1 (L + 1) (D.simpleDurationBody p) (D.simpleDurationBody q) := by
  refine AlikeD.mono (by unfold D.simpleDurationBody; alike_depth h) ?_
  decide

theorem metricFExpBody_alikeD (L) (p q : D.P MetricFExp) (h : AlikeD 1 L p q) :
    AlikeD 1 (L + 1) (D.metricFExpBody p) (D.metricFExpBody q) := by
  refine AlikeD.mono (by unfold D.metricFExpBody; alike_depth h) ?_
  decide

end Pddl
