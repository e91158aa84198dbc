import Verif.Meta.Sound
import Verif.Meta.NamesRun
import Verif.Spec.Made

/-!
# Meta-theory: which names are made
-/

namespace Pddl

/-- A success leaves a suffix. -/
def SufR (s : List Char) : Res α → Prop
  | .ok _ r => ∃ c, s = c ++ r
  | .fail => True
  | _ => True

/-- `SufR` for all inputs. -/
def Suf (p : P α) : Prop := ∀ s, SufR s (p s)

theorem SufR.prepend {s : List Char} {x : Res α} (c : List Char) (h : SufR s x) : SufR (c ++ s) x := by
  cases x with
  | ok a r => obtain ⟨d, rfl⟩ := h; exact ⟨c ++ d, by simp⟩
  | fail => trivial
  | _ => trivial

theorem SufR.bind {s : List Char} {x : Res α} {f : α → List Char → Res β} (h : SufR s x)
    (hf : ∀ a r, SufR r (f a r)) : SufR s (x.bind f) := by
  cases x with
  | ok a r => obtain ⟨c, rfl⟩ := h; exact (hf a r).prepend c
  | fail => exact h
  | _ => trivial

namespace Suf

theorem refl {s : List Char} {a : α} : SufR s (.ok a s) := ⟨[], rfl⟩

theorem map {f : α → β} {p : P α} (h : Suf p) : Suf (map f p) := fun s => (h s).bind fun _ _ => refl
theorem mapExpect {f : α → Option β} {p : P α} (h : Suf p) : Suf (mapExpect f p) := fun s =>
  (h s).bind fun a _ => by
    cases f a with
    | none => trivial
    | some b => exact refl
theorem value {b : β} {p : P α} (h : Suf p) : Suf (value b p) := h.map
theorem pair {p : P α} {q : P β} (h : Suf p) (h' : Suf q) : Suf (pair p q) := fun s =>
  (h s).bind fun _ r => (h' r).bind fun _ _ => refl
theorem preceded {p : P α} {q : P β} (h : Suf p) (h' : Suf q) : Suf (preceded p q) := fun s =>
  (h s).bind fun _ r => h' r
theorem terminated {p : P α} {q : P β} (h : Suf p) (h' : Suf q) : Suf (terminated p q) := fun s =>
  (h s).bind fun _ r => (h' r).bind fun _ _ => refl
theorem delimited {p : P α} {q : P β} {r : P γ} (h : Suf p) (h' : Suf q) (h'' : Suf r) :
    Suf (delimited p q r) := preceded h (terminated h' h'')
theorem alt_nil : Suf (alt ([] : List (P α))) := fun s => trivial
theorem alt_cons {p : P α} {ps : List (P α)} (h : Suf p) (h' : Suf (alt ps)) : Suf (alt (p :: ps)) :=
  fun s => by
    have h1 := h s
    rw [alt]
    dsimp only
    cases hp : p s with
    | err => exact h' s
    | _ => rw [hp] at h1; exact h1
theorem alt_one {p : P α} (h : Suf p) : Suf (alt [p]) := alt_cons h alt_nil
theorem opt {p : P α} (h : Suf p) : Suf (opt p) := fun s => by
  have h1 := h s
  unfold Pddl.opt
  cases hp : p s with
  | err => exact refl
  | _ => rw [hp] at h1; exact h1
theorem recognize {p : P α} (h : Suf p) : Suf (recognize p) := fun s => (h s).bind fun _ _ => refl
theorem many0 {p : P α} (h : Suf p) : Suf (many0 p) := by
  have key : ∀ n, Suf (many0Loop p n) := by
    intro n
    induction n with
    | zero => intro s; trivial
    | succ n ih =>
      intro s
      have h1 := h s
      rw [many0Loop]
      dsimp only
      cases hp : p s with
      | err => exact refl
      | ok a r =>
        rw [hp] at h1
        obtain ⟨c, rfl⟩ := h1
        dsimp only
        split
        · trivial
        · exact ((ih r).bind fun _ _ => refl).prepend c
      | _ => rw [hp] at h1; exact h1
  exact fun s => key _ s
theorem many01 {p : P α} (h : Suf p) : Suf (many01 p) := fun s => by
  have h1 := h s
  unfold Pddl.many01
  cases hp : p s with
  | err => exact refl
  | ok a r =>
    rw [hp] at h1
    dsimp only
    split
    · trivial
    · exact h1
  | _ => rw [hp] at h1; exact h1
theorem sepLoop {sep : P β} {p : P α} (hs : Suf sep) (h : Suf p) (n : Nat) : Suf (sepLoop sep p n) := by
  induction n with
  | zero => intro s; trivial
  | succ n ih =>
    intro s
    have h1 := hs s
    rw [Pddl.sepLoop]
    dsimp only
    cases hp : sep s with
    | err => exact refl
    | ok a r =>
      rw [hp] at h1
      obtain ⟨c, rfl⟩ := h1
      dsimp only
      split
      · trivial
      · have h2 := h r
        cases hp' : p r with
        | err => exact refl
        | ok b r' =>
          rw [hp'] at h2
          obtain ⟨c', rfl⟩ := h2
          exact (((ih r').bind fun _ _ => refl).prepend c').prepend c
        | _ => rw [hp'] at h2; exact h2.prepend c
    | _ => rw [hp] at h1; exact h1
theorem sepList0 {sep : P β} {p : P α} (hs : Suf sep) (h : Suf p) : Suf (sepList0 sep p) := fun s => by
  have h1 := h s
  rw [Pddl.sepList0]
  cases hp : p s with
  | err => exact refl
  | ok a r =>
    rw [hp] at h1
    obtain ⟨c, rfl⟩ := h1
    exact ((sepLoop hs h _ r).bind fun _ _ => refl).prepend c
  | _ => rw [hp] at h1; exact h1
theorem sepList1 {sep : P β} {p : P α} (hs : Suf sep) (h : Suf p) : Suf (sepList1 sep p) := fun s =>
  (h s).bind fun _ r => (sepLoop hs h _ r).bind fun _ _ => refl
theorem tag {t : List Char} : Suf (tag t) := fun s => by
  unfold Pddl.tag
  cases h : stripPrefix t s with
  | none => trivial
  | some r => exact ⟨t, Good.stripPrefix_eq h⟩
theorem char {c : Char} : Suf (char c) := fun s => by
  cases s with
  | nil => trivial
  | cons d r =>
    unfold Pddl.char
    dsimp only
    split
    · exact ⟨[d], rfl⟩
    · trivial
theorem takeWhile0 {f : Char → Bool} : Suf (takeWhile0 f) := fun s =>
  ⟨s.takeWhile f, (List.takeWhile_append_dropWhile).symm⟩
theorem takeWhile1 {f : Char → Bool} : Suf (takeWhile1 f) := fun s => by
  unfold Pddl.takeWhile1
  split
  · trivial
  · exact ⟨s.takeWhile f, (List.takeWhile_append_dropWhile).symm⟩
theorem multispace0 : Suf multispace0 := takeWhile0
theorem multispace1 : Suf multispace1 := takeWhile1
theorem alpha1 : Suf alpha1 := takeWhile1
theorem digit1 : Suf digit1 := takeWhile1
theorem isNot {cs : List Char} : Suf (isNot cs) := takeWhile1
theorem u64Loop (v : Nat) : Suf (u64Loop v) := fun s => by
  induction s generalizing v with
  | nil => exact refl
  | cons c s ih =>
    rw [Pddl.u64Loop]
    split
    · dsimp only
      split
      · exact (ih _).prepend [c]
      · trivial
    · exact refl
theorem u64 : Suf u64 := fun s => by
  cases s with
  | nil => trivial
  | cons c s =>
    rw [Pddl.u64]
    split
    · exact u64Loop 0 _
    · trivial
theorem ifOk {p : P α} {f : α → β} {k : P β} (h : Suf p) (h' : Suf k) : Suf (ifOk p f k) := fun s => by
  have h1 := h s
  unfold Pddl.ifOk
  cases hp : p s with
  | err | fail => exact h' s
  | _ => rw [hp] at h1; exact h1
theorem fix {body : P α → P α} (h : ∀ p, Suf p → Suf (body p)) : Suf (fix body) := by
  have key : ∀ n, Suf (fixF body n) := by
    intro n
    induction n with
    | zero => intro s; trivial
    | succ n ih => exact h _ ih
  exact fun s => key _ s
end Suf

namespace Suf
theorem failure : Suf (fun _ => .fail : P α) := fun _ => trivial
theorem error : Suf (fun _ => .err : P α) := fun _ => trivial
end Suf

/-- A success leaves a suffix, and the texts made into names are words of the input. -/
def Makes (p : N.P α) : Prop := Suf p.run ∧ ∀ s, ∀ t ∈ p.made s, TakenFrom t s

theorem TakenFrom.prepend {t s : List Char} (c : List Char) (h : TakenFrom t s) : TakenFrom t (c ++ s) := by
  obtain ⟨hw, x, y, rfl, hy⟩ := h
  exact ⟨hw, c ++ x, y, by simp, hy⟩

namespace Makes

theorem mem_thenMade {x : Res α} {f : List Char → List (List Char)} {t : List Char}
    (h : t ∈ x.thenMade f) : ∃ a r, x = .ok a r ∧ t ∈ f r := by
  cases x with
  | ok a r => exact ⟨a, r, rfl, h⟩
  | _ => cases h

theorem mem_elseMade {x : Res α} {l : List (List Char)} {t : List Char}
    (h : t ∈ x.elseMade l) : t ∈ l := by
  cases x with
  | err => exact h
  | _ => cases h

theorem mem_errorMade {x : Res α} {l : List (List Char)} {t : List Char}
    (h : t ∈ x.errorMade l) : t ∈ l := by
  cases x with
  | err | fail => exact h
  | _ => cases h

/-- A call after a success. -/
theorem next {p : P α} {f : List Char → List (List Char)} (h : Suf p)
    (hf : ∀ s, ∀ t ∈ f s, TakenFrom t s) (s : List Char) : ∀ t ∈ (p s).thenMade f, TakenFrom t s := by
  intro t ht
  obtain ⟨a, r, hp, hm⟩ := mem_thenMade ht
  have h1 := h s
  rw [hp] at h1
  obtain ⟨c, rfl⟩ := h1
  exact (hf r t hm).prepend c

theorem both {l l' : List (List Char)} {s : List Char} (h : ∀ t ∈ l, TakenFrom t s)
    (h' : ∀ t ∈ l', TakenFrom t s) : ∀ t ∈ l ++ l', TakenFrom t s := fun t ht =>
  (List.mem_append.1 ht).elim (h t) (h' t)

theorem none (s : List Char) : ∀ t ∈ ([] : List (List Char)), TakenFrom t s := fun _ h => nomatch h

theorem map {f : α → β} {p : N.P α} (h : Makes p) : Makes (N.map f p) := ⟨h.1.map, h.2⟩
theorem mapExpect {f : α → Option β} {p : N.P α} (h : Makes p) : Makes (N.mapExpect f p) :=
  ⟨h.1.mapExpect, h.2⟩
theorem value {b : β} {p : N.P α} (h : Makes p) : Makes (N.value b p) := ⟨h.1.value, h.2⟩
theorem pair {p : N.P α} {q : N.P β} (h : Makes p) (h' : Makes q) : Makes (N.pair p q) :=
  ⟨h.1.pair h'.1, fun s => both (h.2 s) (next h.1 h'.2 s)⟩
theorem preceded {p : N.P α} {q : N.P β} (h : Makes p) (h' : Makes q) : Makes (N.preceded p q) :=
  ⟨h.1.preceded h'.1, fun s => both (h.2 s) (next h.1 h'.2 s)⟩
theorem terminated {p : N.P α} {q : N.P β} (h : Makes p) (h' : Makes q) : Makes (N.terminated p q) :=
  ⟨h.1.terminated h'.1, fun s => both (h.2 s) (next h.1 h'.2 s)⟩
theorem delimited {p : N.P α} {q : N.P β} {r : N.P γ} (h : Makes p) (h' : Makes q) (h'' : Makes r) :
    Makes (N.delimited p q r) := preceded h (terminated h' h'')
theorem alt_nil : Makes (N.alt ([] : List (N.P α))) := ⟨Suf.alt_nil, none⟩
theorem alt_cons {p : N.P α} {ps : List (N.P α)} (h : Makes p) (h' : Makes (N.alt ps)) :
    Makes (N.alt (p :: ps)) :=
  ⟨Suf.alt_cons h.1 h'.1, fun s => both (h.2 s) fun t ht => h'.2 s t (mem_elseMade ht)⟩
theorem alt_one {p : N.P α} (h : Makes p) : Makes (N.alt [p]) := alt_cons h alt_nil
theorem alt_tags : ∀ ks : List (List Char), Makes (N.alt (ks.map N.tag))
  | [] => alt_nil
  | _ :: ks => alt_cons ⟨Suf.tag, none⟩ (alt_tags ks)
theorem opt {p : N.P α} (h : Makes p) : Makes (N.opt p) := ⟨h.1.opt, h.2⟩
theorem recognize {p : N.P α} (h : Makes p) : Makes (N.recognize p) := ⟨h.1.recognize, h.2⟩
theorem many01 {p : N.P α} (h : Makes p) : Makes (N.many01 p) := ⟨h.1.many01, h.2⟩
theorem many0 {p : N.P α} (h : Makes p) : Makes (N.many0 p) := by
  refine ⟨h.1.many0, fun s => ?_⟩
  show ∀ t ∈ N.many0Made p (s.length + 1) s, TakenFrom t s
  generalize s.length + 1 = n
  induction n generalizing s with
  | zero => exact none s
  | succ n ih =>
    refine both (h.2 s) fun t ht => ?_
    obtain ⟨a, r, hp, hm⟩ := mem_thenMade ht
    split at hm
    · cases hm
    · have h1 := h.1 s
      rw [hp] at h1
      obtain ⟨c, rfl⟩ := h1
      exact (ih r t hm).prepend c
theorem sepLoop {q : N.P β} {p : N.P α} (hq : Makes q) (h : Makes p) (n : Nat) :
    ∀ s, ∀ t ∈ N.sepMade q p n s, TakenFrom t s := by
  induction n with
  | zero => exact none
  | succ n ih =>
    intro s
    refine both (hq.2 s) fun t ht => ?_
    obtain ⟨a, r, hp, hm⟩ := mem_thenMade ht
    split at hm
    · cases hm
    · have h1 := hq.1 s
      rw [hp] at h1
      obtain ⟨c, rfl⟩ := h1
      exact (both (h.2 r) (next h.1 ih r) t hm).prepend c
theorem sepList0 {q : N.P β} {p : N.P α} (hq : Makes q) (h : Makes p) : Makes (N.sepList0 q p) :=
  ⟨.sepList0 hq.1 h.1, fun s => both (h.2 s) (next h.1 (fun r => sepLoop hq h (r.length + 1) r) s)⟩
theorem sepList1 {q : N.P β} {p : N.P α} (hq : Makes q) (h : Makes p) : Makes (N.sepList1 q p) :=
  ⟨.sepList1 hq.1 h.1, fun s => both (h.2 s) (next h.1 (fun r => sepLoop hq h (r.length + 1) r) s)⟩
theorem tag {t : List Char} : Makes (N.tag t) := ⟨Suf.tag, none⟩
theorem char {c : Char} : Makes (N.char c) := ⟨Suf.char, none⟩
theorem multispace0 : Makes N.multispace0 := ⟨Suf.multispace0, none⟩
theorem multispace1 : Makes N.multispace1 := ⟨Suf.multispace1, none⟩
theorem alpha1 : Makes N.alpha1 := ⟨Suf.alpha1, none⟩
theorem digit1 : Makes N.digit1 := ⟨Suf.digit1, none⟩
theorem isNot {cs : List Char} : Makes (N.isNot cs) := ⟨Suf.isNot, none⟩
theorem u64 : Makes N.u64 := ⟨Suf.u64, none⟩
theorem ifOk {p : N.P α} {f : α → β} {k : N.P β} (h : Makes p) (h' : Makes k) : Makes (N.ifOk p f k) :=
  ⟨h.1.ifOk h'.1, fun s => both (h.2 s) fun t ht => h'.2 s t (mem_errorMade ht)⟩
theorem failure : Makes (N.failure : N.P α) := ⟨Suf.failure, none⟩
theorem error : Makes (N.error : N.P α) := ⟨Suf.error, none⟩

theorem fixF {body : N.P α → N.P α} (h : ∀ p, Makes p → Makes (body p)) : ∀ n, Makes (N.fixF body n)
  | 0 => ⟨fun _ => trivial, none⟩
  | n + 1 => h _ (fixF h n)
theorem fix {body : N.P α → N.P α} (h : ∀ p, Makes p → Makes (body p)) : Makes (N.fix body) :=
  ⟨fun s => (fixF h (s.length + 1)).1 s, fun s => (fixF h (s.length + 1)).2 s⟩

end Makes

open Lean Elab Tactic Meta in
/-- `comb_step` (see `Verif/Meta/Tactic.lean`) for parsers with names. -/
elab "made_step" : tactic => withMainContext do
  let t ← instantiateMVars (← getMainTarget)
  let .const (.str `Pddl pred) _ := t.getAppFn | throwError "made: not a predicate"
  for a in t.getAppArgs do
    let ty ← instantiateMVars (← inferType a)
    if ty.isAppOf `Pddl.N.P then
      if let .const (.str _ f) _ := a.getAppFn then
        let ns := Lean.Name.mkStr `Pddl pred
        for c in [ns.str f, ns.str (f ++ "_one"), ns.str (f ++ "_cons"),
            Lean.Name.mkStr `Pddl (f ++ "_" ++ pred.decapitalize)] do
          if (← getEnv).contains c then
            let saved ← saveState
            try
              let g ← getMainGoal
              let e ← mkConstWithFreshMVarLevels c
              let gs ← withReducible (g.apply e)
              replaceMainGoal gs
              return
            catch _ => saved.restore
      throwError "made: no lemma for {a}"
  throwError "made: no parser in goal"

/-- `comb` for parsers with names. -/
macro "made" : tactic => `(tactic| (repeat' made_step) <;> assumption)

theorem ignoreEolComment_makes : Makes N.ignoreEolComment := .fix fun _ h => by
  unfold N.ignoreEolCommentBody
  made

namespace Makes
theorem ws {p : N.P α} (h : Makes p) : Makes (N.ws p) :=
  preceded (preceded multispace0 ignoreEolComment_makes) h
theorem ws2 {p : N.P α} (h : Makes p) : Makes (N.ws2 p) :=
  delimited (preceded multispace0 ignoreEolComment_makes) h
    (preceded multispace0 ignoreEolComment_makes)
theorem prefixExpr {kw : List Char} {p : N.P α} (h : Makes p) : Makes (N.prefixExpr kw p) :=
  delimited (preceded (ws tag) tag) (ws h) (ws tag)
theorem spaceSeparatedList0 {p : N.P α} (h : Makes p) : Makes (N.spaceSeparatedList0 p) :=
  ws (sepList0 multispace1 (preceded ignoreEolComment_makes h))
theorem spaceSeparatedList1 {p : N.P α} (h : Makes p) : Makes (N.spaceSeparatedList1 p) :=
  ws (sepList1 multispace1 (preceded ignoreEolComment_makes h))
theorem parens {p : N.P α} (h : Makes p) : Makes (N.parens p) :=
  preceded ignoreEolComment_makes (delimited char (ws h) char)
theorem emptyOr {p : N.P α} (h : Makes p) : Makes (N.emptyOr p) := alt_cons (.map tag) (alt_one (.map h))
end Makes

/-! ## The two places where names are made -/

theorem parseAnyChar_makes : Makes N.parseAnyChar := by
  unfold N.parseAnyChar
  made

theorem parseName_makes : Makes N.parseName := by
  have hp : Makes (N.ws (N.recognize (N.pair N.alpha1 (N.many0 N.parseAnyChar)))) := by made
  refine ⟨hp.1.map, fun s => Makes.both (hp.2 s) fun t ht => ?_⟩
  cases hr : (N.ws (N.recognize (N.pair N.alpha1 (N.many0 N.parseAnyChar)))).run s with
  | ok u r =>
    rw [hr] at ht
    cases List.mem_singleton.1 ht
    have he : Pddl.parseName s = .ok (Name.new t) r := by
      rw [← N.parseName_run]
      show Pddl.map Name.new _ s = _
      unfold Pddl.map
      rw [hr]
      rfl
    rw [parseName_eq] at he
    obtain ⟨g, hg, _⟩ := skip_spec s
    cases hs : skip s with
    | nil => rw [hs] at he; cases he
    | cons c v =>
      rw [hs] at he hg
      unfold wordRes at he
      dsimp only at he
      split at he
      · rename_i hc
        injection he with he1 he2
        have he1 := congrArg Name.text he1
        rw [Name.text_new, Name.text_new] at he1
        subst he1
        refine ⟨⟨c, _, rfl, hc, fun d hd => all_takeWhile _ _ _ hd⟩, g, v.dropWhile isWordChar, ?_,
          .inr fun d w hd => ?_⟩
        · rw [hg]
          simp
        · have := List.head?_dropWhile_not isWordChar v
          rw [hd] at this
          simpa using this
      · cases he
  | _ => rw [hr] at ht; cases ht

theorem parseObject_makes : Makes N.parseObject := by
  refine ⟨Suf.tag.map, fun s => Makes.both (Makes.none s) fun t ht => ?_⟩
  cases hr : (N.tag c!"object").run s with
  | ok u r =>
    rw [hr] at ht
    cases List.mem_singleton.1 ht
    obtain ⟨h1, h2⟩ := tag_inv hr
    subst h1
    exact ⟨⟨'o', c!"bject", rfl, by decide, by decide⟩, [], r, by simpa using h2, .inl rfl⟩
  | _ => rw [hr] at ht; cases ht

end Pddl
