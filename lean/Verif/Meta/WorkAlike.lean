import Verif.Meta.WorkRun
import Verif.Meta.GoodAll
import Verif.Meta.Sound
import Verif.Meta.Chain

/-!
# Meta-theory: the steps do not depend on the depth budget

The model bounds the depth of recursion by a budget (`Pddl.fixF`). The outcomes do not depend on it
(`Verif/Meta/Good.lean`), and neither do the steps: a call of a recursive parser takes one step more
than its body, in which the recursive calls are those of the parser itself.
-/

namespace Pddl

/-- On inputs shorter than `L` the same outcomes and the same steps; a success consumes at least `k`
characters. -/
def Alike (k L : Nat) (p q : K.P α) : Prop := ∀ s, s.length < L →
  p.run s = q.run s ∧ p.cost s = q.cost s ∧ ∀ a r, p.run s = .ok a r → r.length + k ≤ s.length

/-- A parser whose outcomes are those of a parser that consumes at least `k` characters. -/
theorem Alike.of {p : K.P α} {q : P α} (e : p.run = q) (h : Good k L q q) : Alike k L p p :=
  fun s hs => ⟨rfl, rfl, fun a r ho => by
    have h2 := (h s hs).2
    rw [← e, ho] at h2
    obtain ⟨c, hc, hk⟩ := h2
    have : s.length = c.length + r.length := by simp [hc]
    omega⟩

namespace Alike

theorem mono {p q : K.P α} (h : Alike k L p q) (hk : k' ≤ k) : Alike k' L p q :=
  fun s hs => ⟨(h s hs).1, (h s hs).2.1, fun a r ho => by
    have := (h s hs).2.2 a r ho
    omega⟩

theorem weaken {p q : K.P α} (h : Alike k L p q) (hL : L' ≤ L) : Alike k L' p q :=
  fun s hs => h s (by omega)

theorem map (f : α → β) {p q : K.P α} (h : Alike k L p q) :
    Alike k L (K.map f p) (K.map f q) := fun s hs => by
  obtain ⟨h1, h2, h3⟩ := h s hs
  refine ⟨?_, h2, fun b r ho => ?_⟩
  · simp only [K.map, Pddl.map, h1]
  · obtain ⟨a, h4, _⟩ := map_ok ho
    exact h3 a r h4

theorem value (b : β) {p q : K.P α} (h : Alike k L p q) :
    Alike k L (K.value b p) (K.value b q) := map (fun _ => b) h

theorem mapExpect (f : α → Option β) {p q : K.P α} (h : Alike k L p q) :
    Alike k L (K.mapExpect f p) (K.mapExpect f q) := fun s hs => by
  obtain ⟨h1, h2, h3⟩ := h s hs
  refine ⟨?_, h2, fun b r ho => ?_⟩
  · simp only [K.mapExpect, Pddl.mapExpect, h1]
  · obtain ⟨a, h4, _⟩ := mapExpect_inv ho
    exact h3 a r h4

theorem pair {p p' : K.P α} {q q' : K.P β} (h : Alike k1 L p p') (h' : Alike k2 (L - k1) q q') :
    Alike (k1 + k2) L (K.pair p q) (K.pair p' q') := fun s hs => by
  obtain ⟨h1, h2, h3⟩ := h s hs
  refine ⟨?_, ?_, fun b r ho => ?_⟩
  · simp only [K.pair, Pddl.pair, ← h1]
    cases hp : p.run s with
    | ok a r => simp only [Res.bind, (h' r (by have := h3 a r hp; omega)).1]
    | _ => rfl
  · simp only [K.pair, ← h1, ← h2]
    cases hp : p.run s with
    | ok a r => simp only [Res.after, (h' r (by have := h3 a r hp; omega)).2.1]
    | _ => rfl
  · obtain ⟨r1, h4, h5⟩ := pair_ok ho
    have h6 := h3 _ _ h4
    have h7 := (h' r1 (by omega)).2.2 _ _ h5
    omega

theorem preceded {p p' : K.P α} {q q' : K.P β} (h : Alike k1 L p p')
    (h' : Alike k2 (L - k1) q q') : Alike (k1 + k2) L (K.preceded p q) (K.preceded p' q') :=
  fun s hs => by
  obtain ⟨h1, h2, h3⟩ := h s hs
  refine ⟨?_, ?_, fun b r ho => ?_⟩
  · simp only [K.preceded, Pddl.preceded, ← h1]
    cases hp : p.run s with
    | ok a r => simp only [Res.bind, (h' r (by have := h3 a r hp; omega)).1]
    | _ => rfl
  · simp only [K.preceded, ← h1, ← h2]
    cases hp : p.run s with
    | ok a r => simp only [Res.after, (h' r (by have := h3 a r hp; omega)).2.1]
    | _ => rfl
  · obtain ⟨_, r1, h4, h5⟩ := preceded_ok ho
    have h6 := h3 _ _ h4
    have h7 := (h' r1 (by omega)).2.2 _ _ h5
    omega

theorem terminated {p p' : K.P α} {q q' : K.P β} (h : Alike k1 L p p')
    (h' : Alike k2 (L - k1) q q') : Alike (k1 + k2) L (K.terminated p q) (K.terminated p' q') :=
  fun s hs => by
  obtain ⟨h1, h2, h3⟩ := h s hs
  refine ⟨?_, ?_, fun b r ho => ?_⟩
  · simp only [K.terminated, Pddl.terminated, ← h1]
    cases hp : p.run s with
    | ok a r => simp only [Res.bind, (h' r (by have := h3 a r hp; omega)).1]
    | _ => rfl
  · simp only [K.terminated, ← h1, ← h2]
    cases hp : p.run s with
    | ok a r => simp only [Res.after, (h' r (by have := h3 a r hp; omega)).2.1]
    | _ => rfl
  · obtain ⟨_, r1, h4, h5⟩ := terminated_ok ho
    have h6 := h3 _ _ h4
    have h7 := (h' r1 (by omega)).2.2 _ _ h5
    omega

theorem delimited {p p' : K.P α} {q q' : K.P β} {t t' : K.P γ} (h1 : Alike k1 L p p')
    (h2 : Alike k2 (L - k1) q q') (h3 : Alike k3 (L - k1 - k2) t t') :
    Alike (k1 + (k2 + k3)) L (K.delimited p q t) (K.delimited p' q' t') :=
  preceded h1 (terminated h2 h3)

theorem alt_cons {p q : K.P α} {ps qs : List (K.P α)} (h : Alike k1 L p q)
    (h' : Alike k2 L (K.alt ps) (K.alt qs)) :
    Alike (min k1 k2) L (K.alt (p :: ps)) (K.alt (q :: qs)) := fun s hs => by
  obtain ⟨h1, h2, h3⟩ := h s hs
  obtain ⟨h4, h5, h6⟩ := h' s hs
  refine ⟨?_, ?_, fun b r ho => ?_⟩
  · simp only [K.alt, List.map_cons, Pddl.alt, ← h1] at h4 ⊢
    rw [h4]
  · simp only [K.alt, K.altCost, ← h1, ← h2] at h5 ⊢
    rw [h5]
  · rcases alt_inv ho with h7 | h7
    · have := h3 _ _ h7; omega
    · have := h6 _ _ h7.2; omega

theorem alt_one {p q : K.P α} (h : Alike k L p q) : Alike k L (K.alt [p]) (K.alt [q]) :=
  (alt_cons h (k2 := k) fun _ _ => ⟨rfl, rfl, fun _ _ ho => by cases ho⟩).mono (by omega)

theorem opt {p q : K.P α} (h : Alike k L p q) : Alike 0 L (K.opt p) (K.opt q) := fun s hs => by
  obtain ⟨h1, h2, h3⟩ := h s hs
  refine ⟨?_, h2, fun b r ho => ?_⟩
  · simp only [K.opt, Pddl.opt, h1]
  · rcases opt_inv ho with ⟨a, h4, _⟩ | ⟨_, _, rfl⟩
    · have := h3 _ _ h4; omega
    · omega

theorem many0Loop {p q : K.P α} (h : Alike k L p q) : ∀ n s, s.length < L →
    Pddl.many0Loop p.run n s = Pddl.many0Loop q.run n s ∧ K.many0Cost p n s = K.many0Cost q n s ∧
      ∀ as r, Pddl.many0Loop p.run n s = .ok as r → r.length ≤ s.length
  | 0, s, _ => ⟨rfl, rfl, fun _ _ ho => by cases ho⟩
  | n + 1, s, hs => by
    obtain ⟨h1, h2, h3⟩ := h s hs
    simp only [Pddl.many0Loop, K.many0Cost, ← h1, ← h2]
    cases hp : p.run s with
    | ok a r =>
      have h4 := h3 a r hp
      obtain ⟨h5, h6, h7⟩ := many0Loop h n r (by omega)
      simp only [Res.after, h5, h6, true_and]
      intro as r' ho
      split at ho
      · cases ho
      · rw [← h5] at ho
        cases hm : Pddl.many0Loop p.run n r with
        | ok bs r2 =>
          rw [hm] at ho
          simp only [Res.bind, Res.ok.injEq] at ho
          have := h7 _ _ hm
          rw [← ho.2]; omega
        | _ => rw [hm] at ho; cases ho
    | err => exact ⟨rfl, rfl, fun _ _ ho => by cases ho; exact Nat.le_refl _⟩
    | _ => exact ⟨rfl, rfl, fun _ _ ho => by cases ho⟩

theorem many0 {p q : K.P α} (h : Alike k L p q) : Alike 0 L (K.many0 p) (K.many0 q) :=
  fun s hs => many0Loop h (s.length + 1) s hs

theorem sepLoop {e e' : K.P β} {p q : K.P α} (he : Alike k1 L e e') (h : Alike k2 (L - k1) p q) :
    ∀ n s, s.length < L →
    Pddl.sepLoop e.run p.run n s = Pddl.sepLoop e'.run q.run n s ∧
      K.sepCost e p n s = K.sepCost e' q n s ∧
      ∀ as r, Pddl.sepLoop e.run p.run n s = .ok as r → r.length ≤ s.length
  | 0, s, _ => ⟨rfl, rfl, fun _ _ ho => by cases ho⟩
  | n + 1, s, hs => by
    obtain ⟨h1, h2, h3⟩ := he s hs
    simp only [Pddl.sepLoop, K.sepCost, ← h1, ← h2]
    cases hp : e.run s with
    | ok a r =>
      have h4 := h3 a r hp
      obtain ⟨g1, g2, g3⟩ := h r (by omega)
      simp only [Res.after, ← g1, ← g2]
      cases hq : p.run r with
      | ok b r' =>
        have g4 := g3 _ _ hq
        obtain ⟨h5, h6, h7⟩ := sepLoop he h n r' (by omega)
        simp only [h5, h6, true_and]
        intro as r2 ho
        split at ho
        · cases ho
        · rw [← h5] at ho
          cases hm : Pddl.sepLoop e.run p.run n r' with
          | ok bs r2 =>
            rw [hm] at ho
            simp only [Res.bind, Res.ok.injEq] at ho
            have := h7 _ _ hm
            rw [← ho.2]; omega
          | _ => rw [hm] at ho; cases ho
      | err =>
        refine ⟨rfl, rfl, fun _ _ ho => ?_⟩
        split at ho
        · cases ho
        · cases ho; exact Nat.le_refl _
      | _ =>
        refine ⟨rfl, rfl, fun _ _ ho => ?_⟩
        split at ho <;> cases ho
    | err => exact ⟨rfl, rfl, fun _ _ ho => by cases ho; exact Nat.le_refl _⟩
    | _ => exact ⟨rfl, rfl, fun _ _ ho => by cases ho⟩

theorem sepList1 {e e' : K.P β} {p q : K.P α} (h : Alike k2 L p q) (he : Alike k1 (L - k2) e e') :
    Alike k2 L (K.sepList1 e p) (K.sepList1 e' q) := fun s hs => by
  obtain ⟨h1, h2, h3⟩ := h s hs
  simp only [K.sepList1, Pddl.sepList1, ← h1, ← h2]
  cases hp : p.run s with
  | ok a r =>
    have h4 := h3 _ _ hp
    obtain ⟨h5, h6, h7⟩ := sepLoop he (h.weaken (L' := L - k2 - k1) (by omega)) (r.length + 1) r
      (by omega)
    simp only [Res.bind, Res.after, h5, h6, true_and]
    intro as r2 ho
    rw [← h5] at ho
    cases hm : Pddl.sepLoop e.run p.run (r.length + 1) r with
    | ok bs r2 =>
      rw [hm] at ho
      simp only [Res.ok.injEq] at ho
      have := h7 _ _ hm
      rw [← ho.2]; omega
    | _ => rw [hm] at ho; cases ho
  | _ => exact ⟨rfl, rfl, fun _ _ ho => by cases ho⟩

theorem sepList0 {e e' : K.P β} {p q : K.P α} (h : Alike k2 L p q) (he : Alike k1 (L - k2) e e') :
    Alike 0 L (K.sepList0 e p) (K.sepList0 e' q) := fun s hs => by
  have h0 := (sepList1 h he).mono (Nat.zero_le _) s hs
  obtain ⟨h1, h2, h3⟩ := h s hs
  simp only [K.sepList1, Pddl.sepList1, K.sepList0, Pddl.sepList0, ← h1, ← h2] at h0 ⊢
  cases hp : p.run s with
  | err => exact ⟨rfl, rfl, fun _ _ ho => by cases ho; exact Nat.le_refl _⟩
  | _ => rw [hp] at h0; exact h0

theorem ifOk {p p' : K.P α} (f : α → β) {q q' : K.P β} (h : Alike k1 L p p')
    (h' : Alike k2 L q q') : Alike (min k1 k2) L (K.ifOk p f q) (K.ifOk p' f q') := fun s hs => by
  obtain ⟨h1, h2, h3⟩ := h s hs
  obtain ⟨h4, h5, h6⟩ := h' s hs
  refine ⟨?_, ?_, fun b r ho => ?_⟩
  · simp only [K.ifOk, Pddl.ifOk, ← h1, h4]
  · simp only [K.ifOk, ← h1, ← h2, h5]
  · rcases ifOk_inv ho with ⟨a, h7, _⟩ | h7
    · have := h3 _ _ h7; omega
    · have := h6 _ _ h7; omega

theorem failure : Alike k L (K.failure : K.P α) K.failure :=
  fun _ _ => ⟨rfl, rfl, fun _ _ ho => by cases ho⟩

theorem error : Alike k L (K.error : K.P α) K.error :=
  fun _ _ => ⟨rfl, rfl, fun _ _ ho => by cases ho⟩

theorem tag (t : List Char) : Alike t.length L (K.tag t) (K.tag t) := .of rfl (Good.tag t)
theorem char (c : Char) : Alike 1 L (K.char c) (K.char c) := .of rfl (Good.char c)
theorem multispace0 : Alike 0 L K.multispace0 K.multispace0 := .of rfl Good.multispace0
theorem multispace1 : Alike 1 L K.multispace1 K.multispace1 := .of rfl Good.multispace1
theorem isNot (cs : List Char) : Alike 1 L (K.isNot cs) (K.isNot cs) := .of rfl (Good.isNot cs)

/-- The budget does not matter. -/
theorem fixF {body : K.P α → K.P α}
    (h : ∀ L p q, Alike k L p q → Alike k (L + 1) (body p) (body q)) :
    ∀ n m, n ≤ m → Alike k n (K.fixF body n) (K.fixF body m) := by
  intro n
  induction n with
  | zero => intro m _ s hs; omega
  | succ n ih =>
    intro m hm
    obtain ⟨m, rfl⟩ : ∃ m', m = m' + 1 := ⟨m - 1, by omega⟩
    intro s hs
    obtain ⟨h1, h2, h3⟩ := h n _ _ (ih m (by omega)) s hs
    exact ⟨h1, by simp only [K.fixF, h2], h3⟩

theorem fixF_fix {body : K.P α → K.P α}
    (h : ∀ L p q, Alike k L p q → Alike k (L + 1) (body p) (body q)) (n : Nat) :
    Alike k n (K.fixF body n) (K.fix body) := by
  intro s hs
  obtain ⟨h1, h2, h3⟩ := fixF h (s.length + 1) n (by omega) s (by omega)
  exact ⟨h1.symm, h2.symm, h1 ▸ h3⟩

/-- The recursion equation. -/
theorem fix_cost {body : K.P α → K.P α}
    (h : ∀ L p q, Alike k L p q → Alike k (L + 1) (body p) (body q)) (s : List Char) :
    (K.fix body).cost s = 1 + (body (K.fix body)).cost s := by
  have := (h s.length _ _ (fixF_fix h s.length) s (by omega)).2.1
  simp only [K.fix, K.fixF] at this ⊢
  rw [this]

theorem ignoreEolComment : Alike 0 L K.ignoreEolComment K.ignoreEolComment :=
  .of K.ignoreEolComment_run ignoreEolComment_good

theorem ws {p q : K.P α} (h : Alike k L p q) : Alike (0 + 0 + k) L (K.ws p) (K.ws q) :=
  preceded (preceded multispace0 ignoreEolComment) (h.weaken (by omega))

theorem prefixExpr (t : List Char) {p q : K.P α} (h : Alike k (L - (1 + t.length)) p q) :
    Alike (2 + t.length + k) L (K.prefixExpr t p) (K.prefixExpr t q) := by
  have h1 : Alike (1 + t.length) L (K.preceded (K.ws (K.tag c!"(")) (K.tag t))
      (K.preceded (K.ws (K.tag c!"(")) (K.tag t)) :=
    (preceded (ws (tag _)) (tag _)).mono (by simp)
  refine (delimited h1 (ws h) (ws (tag _))).mono ?_
  simp; omega

theorem parens {p q : K.P α} (h : Alike k (L - 1) p q) :
    Alike (2 + k) L (K.parens p) (K.parens q) := by
  refine (preceded ignoreEolComment (delimited (char '(') (ws (h.weaken ?_)) (char ')'))).mono ?_
  · omega
  · omega

theorem spaceSeparatedList0 {p q : K.P α} (h : Alike k L p q) :
    Alike 0 L (K.spaceSeparatedList0 p) (K.spaceSeparatedList0 q) :=
  (ws (sepList0 (preceded ignoreEolComment (h.weaken (by omega))) multispace1)).mono (by omega)

theorem spaceSeparatedList1 {p q : K.P α} (h : Alike k L p q) :
    Alike k L (K.spaceSeparatedList1 p) (K.spaceSeparatedList1 q) :=
  (ws (sepList1 (preceded ignoreEolComment (h.weaken (by omega))) multispace1)).mono (by omega)

end Alike

macro "alike_rec" h:term : tactic =>
  `(tactic| (comb <;> exact Alike.weaken $h (by simp <;> omega)))

theorem parseName_alike : Alike 1 L K.parseName K.parseName := .of K.parseName_run parseName_good
theorem parseVariable_alike : Alike 2 L K.parseVariable K.parseVariable := .of K.parseVariable_run parseVariable_good
theorem parseFunctionSymbol_alike : Alike 1 L K.parseFunctionSymbol K.parseFunctionSymbol := .of K.parseFunctionSymbol_run parseFunctionSymbol_good
theorem parsePrefName_alike : Alike 1 L K.parsePrefName K.parsePrefName := .of K.parsePrefName_run parsePrefName_good
theorem parseTerm_alike : Alike 1 L K.parseTerm K.parseTerm := .of K.parseTerm_run parseTerm_good
theorem parseFHead_alike : Alike 1 L K.parseFHead K.parseFHead := .of K.parseFHead_run parseFHead_good
theorem parseMultiOp_alike : Alike 1 L K.parseMultiOp K.parseMultiOp := .of K.parseMultiOp_run parseMultiOp_good
theorem parseBinaryOp_alike : Alike 1 L K.parseBinaryOp K.parseBinaryOp := .of K.parseBinaryOp_run parseBinaryOp_good
theorem parseDOp_alike : Alike 1 L K.parseDOp K.parseDOp := .of K.parseDOp_run parseDOp_good
theorem parseTimeSpecifier_alike : Alike 1 L K.parseTimeSpecifier K.parseTimeSpecifier := .of K.parseTimeSpecifier_run parseTimeSpecifier_good
theorem parseFExp_alike : Alike 1 L K.parseFExp K.parseFExp := .of K.parseFExp_run parseFExp_good
theorem parseFComp_alike : Alike 3 L K.parseFComp K.parseFComp := .of K.parseFComp_run parseFComp_good
theorem parseVarList_alike : Alike 2 L K.parseVarList K.parseVarList := .of K.parseVarList_run parseVarList_good
theorem parseGd_alike : Alike 1 L K.parseGd K.parseGd := .of K.parseGd_run parseGd_good
theorem parsePrefGd_alike : Alike 1 L K.parsePrefGd K.parsePrefGd := .of K.parsePrefGd_run parsePrefGd_good
theorem parseConGd_alike : Alike 1 L K.parseConGd K.parseConGd := .of K.parseConGd_run parseConGd_good
theorem parsePEffect_alike : Alike 1 L K.parsePEffect K.parsePEffect := .of K.parsePEffect_run parsePEffect_good
theorem parseWhenCEffect_alike : Alike 1 L K.parseWhenCEffect K.parseWhenCEffect := .of K.parseWhenCEffect_run parseWhenCEffect_good
theorem parsePrefTimedGd_alike : Alike 1 L K.parsePrefTimedGd K.parsePrefTimedGd := .of K.parsePrefTimedGd_run parsePrefTimedGd_good
theorem parseDaGd_alike : Alike 1 L K.parseDaGd K.parseDaGd := .of K.parseDaGd_run parseDaGd_good
theorem parseTimedEffect_alike : Alike 1 L K.parseTimedEffect K.parseTimedEffect := .of K.parseTimedEffect_run parseTimedEffect_good
theorem parseDValue_alike : Alike 1 L K.parseDValue K.parseDValue := .of K.parseDValue_run parseDValue_good
theorem parseNumber_alike : Alike 1 L K.parseNumber K.parseNumber := .of K.parseNumber_run .parseNumber

theorem Alike.atomicFormula : Alike 3 L (K.atomicFormula K.parseTerm) (K.atomicFormula K.parseTerm) :=
  .of (by rw [K.atomicFormula_run, K.parseTerm_run]) (Good.atomicFormula parseTerm_good)

theorem Alike.literal : Alike 3 L (K.literal K.parseTerm) (K.literal K.parseTerm) :=
  .of (by rw [K.literal_run, K.parseTerm_run]) (Good.literal parseTerm_good)

theorem functionTermOf_alike {p q : K.P Term} (h : Alike k (L - 1) p q) :
    Alike 3 L (K.functionTermOf p) (K.functionTermOf q) := by
  refine Alike.mono (by unfold K.functionTermOf; comb; exact h.weaken (by simp)) ?_
  simp

theorem con2Of_alike {p q : K.P ConGD} (h : Alike 1 L p q) :
    Alike 1 L (K.con2Of p) (K.con2Of q) := by
  refine Alike.mono (by unfold K.con2Of; comb; exact h) ?_
  decide

theorem effectOf_alike {p q : K.P CEffect} (h : Alike 1 L p q) :
    Alike 1 L (K.effectOf p) (K.effectOf q) := by
  refine Alike.mono (by unfold K.effectOf; alike_rec h) ?_
  decide

theorem forallCEffectOf_alike {p q : K.P CEffect} (h : Alike 1 (L - 1) p q) :
    Alike 1 L (K.forallCEffectOf p) (K.forallCEffectOf q) := by
  refine Alike.mono (by unfold K.forallCEffectOf; alike_rec h) ?_
  decide

theorem ignoreEolCommentBody_alike (L) (p q : K.P Unit) (h : Alike 0 L p q) :
    Alike 0 (L + 1) (K.ignoreEolCommentBody p) (K.ignoreEolCommentBody q) := by
  unfold K.ignoreEolCommentBody
  comb
  exact h.weaken (by omega)

theorem termBody_alike (L) (p q : K.P Term) (h : Alike 1 L p q) :
    Alike 1 (L + 1) (K.termBody p) (K.termBody q) := by
  unfold K.termBody
  refine Alike.mono (Alike.ifOk _ (by comb) (Alike.ifOk _ (by comb)
    (Alike.ifOk _ (functionTermOf_alike (h.weaken (by omega))) (Alike.error (k := 1))))) ?_
  decide

theorem fExpBody_alike (L) (p q : K.P FExp) (h : Alike 1 L p q) :
    Alike 1 (L + 1) (K.fExpBody p) (K.fExpBody q) := by
  refine Alike.mono (by unfold K.fExpBody; alike_rec h) ?_
  decide

theorem gdBody_alike (L) (p q : K.P GD) (h : Alike 1 L p q) :
    Alike 1 (L + 1) (K.gdBody p) (K.gdBody q) := by
  refine Alike.mono (by unfold K.gdBody; alike_rec h) ?_
  decide

theorem preGdBody_alike (L) (p q : K.P (List PreGD)) (h : Alike 1 L p q) :
    Alike 1 (L + 1) (K.preGdBody p) (K.preGdBody q) := by
  refine Alike.mono (by unfold K.preGdBody; alike_rec h) ?_
  decide

theorem conGdBody_alike (L) (p q : K.P ConGD) (h : Alike 1 L p q) :
    Alike 1 (L + 1) (K.conGdBody p) (K.conGdBody q) := by
  refine Alike.mono (by unfold K.conGdBody; alike_rec h) ?_
  decide

theorem prefConGdBody_alike (L) (p q : K.P (List PrefConGD)) (h : Alike 1 L p q) :
    Alike 1 (L + 1) (K.prefConGdBody p) (K.prefConGdBody q) := by
  refine Alike.mono (by unfold K.prefConGdBody; alike_rec h) ?_
  decide

theorem cEffectBody_alike (L) (p q : K.P CEffect) (h : Alike 1 L p q) :
    Alike 1 (L + 1) (K.cEffectBody p) (K.cEffectBody q) := by
  refine Alike.mono (by unfold K.cEffectBody; alike_rec h) ?_
  decide

theorem daGdBody_alike (L) (p q : K.P DaGD) (h : Alike 1 L p q) :
    Alike 1 (L + 1) (K.daGdBody p) (K.daGdBody q) := by
  refine Alike.mono (by unfold K.daGdBody; alike_rec h) ?_
  decide

theorem fExpDaBody_alike (L) (p q : K.P FExpDa) (h : Alike 1 L p q) :
    Alike 1 (L + 1) (K.fExpDaBody p) (K.fExpDaBody q) := by
  refine Alike.mono (by unfold K.fExpDaBody; alike_rec h) ?_
  decide

theorem daEffectBody_alike (L) (p q : K.P DaEffect) (h : Alike 1 L p q) :
    Alike 1 (L + 1) (K.daEffectBody p) (K.daEffectBody q) := by
  refine Alike.mono (by unfold K.daEffectBody; alike_rec h) ?_
  decide

theorem simpleDurationBody_alike (L) (p q : K.P SimpleDuration) (h : Alike 1 L p q) :
    Alike 1 (L + 1) (K.simpleDurationBody p) (K.simpleDurationBody q) := by
  refine Alike.mono (by unfold K.simpleDurationBody; alike_rec h) ?_
  decide

theorem metricFExpBody_alike (L) (p q : K.P MetricFExp) (h : Alike 1 L p q) :
    Alike 1 (L + 1) (K.metricFExpBody p) (K.metricFExpBody q) := by
  refine Alike.mono (by unfold K.metricFExpBody; alike_rec h) ?_
  decide

end Pddl
