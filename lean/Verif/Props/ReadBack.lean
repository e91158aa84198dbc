import Verif.Meta.Print
import Verif.Meta.Top
import Verif.Props.Ops
import Verif.Props.Intern

/-!
# Properties: what is written is read back (C04, C09, C10, C13-C20, C22-C25, C34, C40)

For each category two theorems. The first is about every spelling: `XW .strict v t`
(`Verif/Spec/Grammar.lean`) says that the text `t`, with whatever layout it has, is a
spelling of `v`; then parsing `t` followed by any text `r` returns `v` and leaves exactly `r`. If the
construct is not parenthesised, `r` must not continue the last word (`Stop r`).
The second (`_printed`) is about every value: a value that can be written at all (`wf`) is read
back from its canonical text (`print`, `Verif/Spec/Print.lean`).

Both are proved by induction on the length of the text in `Verif/Meta/`.
-/

namespace Pddl

/-! ## Values for the examples -/

namespace Ex
def nm (s : List Char) : Name := .new s
def num (m e : Nat) : Number := ⟨.ofDecimal m e⟩
def atom (p : List Char) (ts : List Term) : AtomicFormula Term := .predicate (nm p) ts
def x : Term := .var (nm c!"x")
/-- `?x - t` -/
def vars : TypedList Name := [⟨nm c!"x", .exactly (nm c!"t")⟩]
/-- `(f a ?x (g))` -/
def term : Term := .fn (nm c!"f") [.name (nm c!"a"), x, .fn (nm c!"g") []]
/-- `(+ 1 (- (f ?x)) (* 2 (g)))` -/
def fexp : FExp :=
  .multiOp .add (.number (num 1 0))
    [.negative (.function (.withTerms (nm c!"f") [x])),
     .binaryOp .mul (.number (num 2 0)) (.function (.simple (nm c!"g")))]
def goal : GD :=
  .and [.atomic (atom c!"p" [x, term]), .not (.or []),
    .forall_ vars (.imply (.atomic (.equality x term)) (.fComp ⟨.ge, fexp, .number (num 3 0)⟩))]
def pre : List PreGD :=
  [.preference (.preference (some (nm c!"w")) goal), .forall_ vars [.preference (.goal (.not goal))],
    .preference (.preference none (.or []))]
def con : ConGD :=
  .and [.always (.goal goal), .alwaysWithin (num 5 0) (.goal (.or [])) (.nested (.holdAfter (num 2 0) (.goal goal))),
    .forall_ vars (.atEnd (.or []))]
def prefCon : List PrefConGD :=
  [.preference (some (nm c!"w")) con, .forall_ vars [.goal (.sometime (.goal (.or [])))]]
def effects : List CEffect :=
  [.effect (.atomic (atom c!"p" [x])), .forall_ vars [.effect (.notAtomic (atom c!"q" []))],
    .when goal (.all [.assignNumeric .increase (.simple (nm c!"g")) fexp]),
    .effect (.assignObject ⟨nm c!"h", [x]⟩ none), .effect (.assignObject ⟨nm c!"h", [x]⟩ (some term))]
def action : ActionDef := ⟨nm c!"move", vars, pre, some effects⟩
def derived : DerivedPredicate := ⟨⟨nm c!"d", vars⟩, goal⟩
def daCond : DaGD :=
  .and [.timed (.required (.at .start goal)), .forall_ vars (.timed (.preference (some (nm c!"w")) (.over .all (.or []))))]
def daEffect : DaEffect :=
  .all [.timed (.conditional .end_ (.single (.atomic (atom c!"p" [x])))),
    .when daCond (.numericFluent .start ⟨.assign, .simple (nm c!"g"), .binaryOp .sub .duration (.fExp (.number (num 1 0)))⟩),
    .forall_ vars (.timed (.continuous .increase (.simple (nm c!"g")) (.scaled fexp)))]
def duration : DurationConstraint :=
  .all [.op .ge (.number (num 1 0)), .at .end_ (.op .le (.fExp (.function (.simple (nm c!"g")))))]
def durative : DaDef := ⟨nm c!"fly", vars, some duration, some daCond, some daEffect⟩
def init : List InitElement :=
  [.literal (.pos (.predicate (nm c!"p") [nm c!"a"])), .at (num 5 0) (.neg (.predicate (nm c!"q") [])),
    .isValue ⟨nm c!"g", []⟩ (num 7 0), .isObject ⟨nm c!"h", [nm c!"a"]⟩ (nm c!"b")]
def metric : MetricFExp :=
  .multiOp .add .totalTime [.binaryOp .mul (.number (num 2 0)) (.isViolated (nm c!"w")), .negative (.function (nm c!"g") [])]
def functions : TypedList Skeleton := [⟨⟨nm c!"g", []⟩, .exactly (nm c!"number")⟩, ⟨⟨nm c!"h", vars⟩, .exactly (nm c!"t")⟩]
def domain : Domain where
  name := nm c!"dom"
  extends_ := []
  requirements := [.adl, .typing]
  types := [⟨nm c!"t", .exactly (nm c!"object")⟩]
  constants := []
  predicates := [⟨nm c!"p", vars⟩]
  functions := functions
  constraints := con
  timeless := []
  structure_ := [.action action, .durative durative, .derived derived]
def problem : Problem where
  name := nm c!"prob"
  domain := nm c!"dom"
  requires := []
  objects := [⟨nm c!"a", .exactly (nm c!"t")⟩, ⟨nm c!"b", .eitherOf [nm c!"t", nm c!"u"]⟩]
  init := init
  goal := pre
  constraints := prefCon
  metricSpec := some ⟨.minimize, metric⟩
  lengthSpec := some ⟨some 18446744073709551615, none⟩
end Ex

theorem stop_nil : Stop [] := by intro c r h; cases h

/-! ## C04: names -/

/-- `Name::parse` accepts exactly a gap followed by a word, returns the name made from exactly the
characters of the word, and stops right after it; the word is as long as possible. -/
theorem C04_name_iff (s : List Char) (n : Name) (r : List Char) :
    parseName s = .ok n r ↔
      ∃ g t, s = g ++ (t ++ r) ∧ Gap g ∧ IsWord t ∧ n = wordName t ∧
        ∀ c r', r = c :: r' → isWordChar c = false := by
  constructor
  · intro h
    rw [parseName_eq] at h
    obtain ⟨g, h1, _, h2⟩ := skip_spec s
    obtain ⟨t, h3, h4, h5, h6⟩ := wordRes_ok h
    refine ⟨g, t, by rw [← h3]; exact h1, h2 ?_, h4, h5.trans (wordName_eq t).symm, h6⟩
    rw [h3]
    obtain ⟨c, cs, rfl, _⟩ := h4
    simp
  · rintro ⟨g, t, rfl, hg, ht, rfl, hr⟩
    rw [wordName_eq, parseName_eq, hg.skip_solid (ht.solid.append r), wordRes_word ht hr]

theorem name_text (u : List Char) : (Name.new u).text = u := by
  unfold Name.new
  cases h : Name.mapToStatic u with
  | none => rfl
  | some v => exact mapToStatic_some h

/-- The name carries the characters that were read, case preserved. -/
theorem C04_name_text {s : List Char} {n : Name} {r : List Char} (h : parseName s = .ok n r) :
    ∃ g, s = g ++ (n.text ++ r) ∧ Gap g ∧ IsWord n.text := by
  obtain ⟨g, t, h1, h2, h3, rfl, _⟩ := (C04_name_iff s n r).mp h
  have : (wordName t).text = t := by rw [wordName_eq]; exact name_text t
  exact ⟨g, by rw [this]; exact h1, h2, by rw [this]; exact h3⟩

/-- Nothing but success and the recoverable error is possible. -/
theorem C04_name_or_err (s : List Char) : (∃ n r, parseName s = .ok n r) ∨ parseName s = .err := by
  rw [parseName_eq]
  cases skip s with
  | nil => exact .inr rfl
  | cons c s =>
    rw [wordRes]
    split
    · exact .inl ⟨_, _, rfl⟩
    · exact .inr rfl

example : parseName c!"  ; it is\n\tpick-Up_2 rest" = .ok (.new c!"pick-Up_2") c!" rest" := by decide +kernel
example : Gap c!"  ; it is\n\t" :=
  .space rfl (.space rfl (.comment (b := ' ') (body := c!"it is") rfl (by decide) rfl (.space rfl .nil)))

/-! ## C09, C10: typed lists -/

/-- Groups `x1 .. xk - t`, and a last group without type (`[]`: there is none). -/
structure Groups (α : Type) where
  groups : List (List α × Ty)
  untyped : List α

/-- The flat list: every element with the type of its own group. -/
def Groups.flat (d : Ty) (gs : Groups α) : TypedList α :=
  gs.groups.flatMap (fun g => g.1.map fun x => ⟨x, g.2⟩) ++ gs.untyped.map fun x => ⟨x, d⟩

/-- How groups are written; at least one element. -/
inductive GroupsW (R : α → List Char → Prop) : Groups α → List Char → Prop
  | untyped {xs t} : Items R xs t → GroupsW R ⟨[], xs⟩ t
  | typed {xs t g1 g2 ty u} : Items R xs t → Sep g1 → Sep g2 → TypeW .strict ty u →
      GroupsW R ⟨[(xs, ty)], []⟩ (t ++ (g1 ++ (c!"-" ++ (g2 ++ u))))
  | cons {xs t g1 g2 ty u g3 gs ys v} : Items R xs t → Sep g1 → Sep g2 → TypeW .strict ty u →
      Sep g3 → GroupsW R ⟨gs, ys⟩ v →
      GroupsW R ⟨(xs, ty) :: gs, ys⟩ (t ++ (g1 ++ (c!"-" ++ (g2 ++ (u ++ (g3 ++ v))))))

theorem GroupsW.typedW {R : α → List Char → Prop} {d : Ty} {gs : Groups α} {t : List Char}
    (h : GroupsW R gs t) : TypedW .strict R d (gs.flat d) t := by
  induction h with
  | untyped h => exact .tail h
  | typed h h1 h2 hu =>
    simpa [Groups.flat] using TypedW.last (m := .strict) h h1 h2 hu
  | cons h h1 h2 hu h3 _ ih =>
    have := TypedW.more (m := .strict) h h1 h2 hu h3 ih
    simpa [Groups.flat, List.append_assoc] using this

/-- A section of typed names: `(:types ..)`, `(:constants ..)`, `(:objects ..)`. -/
theorem C09_typed_names {gs : Groups Name} {kw g g' t : List Char} (hg : Sep g) (h : GroupsW NameW gs t)
    (hg' : Gap g') (r : List Char) :
    prefixExpr kw (typedList parseName) (paren (kw ++ (g ++ (t ++ g'))) ++ r) =
      .ok (gs.flat objectTy) r :=
  TypedNamesW.acc (.mk (.cons hg h.typedW hg')) r trivial

theorem C09_types {gs : Groups Name} {g g' t : List Char} (hg : Sep g) (h : GroupsW NameW gs t)
    (hg' : Gap g') (r : List Char) :
    parseTypesDef (paren (c!":types" ++ (g ++ (t ++ g'))) ++ r) = .ok (gs.flat objectTy) r :=
  C09_typed_names hg h hg' r

theorem C09_constants {gs : Groups Name} {g g' t : List Char} (hg : Sep g) (h : GroupsW NameW gs t)
    (hg' : Gap g') (r : List Char) :
    parseConstantsDef (paren (c!":constants" ++ (g ++ (t ++ g'))) ++ r) = .ok (gs.flat objectTy) r :=
  C09_typed_names hg h hg' r

theorem C09_objects {gs : Groups Name} {g g' t : List Char} (hg : Sep g) (h : GroupsW NameW gs t)
    (hg' : Gap g') (r : List Char) :
    parseProblemObjectsDeclaration (paren (c!":objects" ++ (g ++ (t ++ g'))) ++ r) =
      .ok (gs.flat objectTy) r :=
  C09_typed_names hg h hg' r

/-- The parameter list of actions and quantifiers. -/
theorem C09_variables {gs : Groups Name} {g t : List Char} (hg : Gap g)
    (h : GroupsW (VarW .strict) gs t) (r : List Char) :
    parseVarList (paren (g ++ t) ++ r) = .ok (gs.flat objectTy) r := by
  have := VarsW.acc (vs := gs.flat objectTy) ⟨g ++ (t ++ []), rfl, .cons hg h.typedW rfl⟩ r trivial
  rwa [List.append_nil] at this

/-- The parameters of a predicate declaration. -/
theorem C09_skeleton {gs : Groups Name} {g g1 p tp t : List Char} (hg : Gap g)
    (hp : NameW (.new p) tp) (hg1 : Sep g1) (h : GroupsW (VarW .strict) gs t) (r : List Char) :
    parseAtomicFormulaSkeleton (paren (g ++ (tp ++ (g1 ++ t))) ++ r) =
      .ok ⟨.new p, gs.flat objectTy⟩ r := by
  have := SkeletonW.acc (.mk hg hp (.cons hg1 h.typedW rfl)) r trivial
  rwa [List.append_nil] at this

/-- `(:functions ..)`: the default type is `number`. -/
theorem C10_functions {gs : Groups Skeleton} {g g' t : List Char} (hg : Gap g)
    (h : GroupsW (SkeletonW .strict) gs t) (hg' : Gap g') (r : List Char) :
    parseFunctionsDef (paren (c!":functions" ++ (g ++ (t ++ g'))) ++ r) = .ok (gs.flat numberTy) r :=
  FunctionsW.acc (.mk (.cons hg h.typedW hg')) r trivial

/-- Any spelling of a functions section, empty ones included. -/
theorem C10_functions_all {fs : TypedList Skeleton} {t : List Char} (h : FunctionsW .strict fs t)
    (r : List Char) : parseFunctionsDef (t ++ r) = .ok fs r := h.full.1 r trivial

/-- Position by position: the i-th element of the list is the i-th element written, with the type of
its group. -/
theorem C09_flat_values (d : Ty) (gs : Groups α) :
    (gs.flat d).map Typed.value = gs.groups.flatMap Prod.fst ++ gs.untyped := by
  simp only [Groups.flat, List.map_append, List.map_map, List.map_flatMap]
  congr 1
  · congr 1
    funext g
    simp [Function.comp_def]
  · simp [Function.comp_def]

theorem C09_flat_length (d : Ty) (gs : Groups α) :
    (gs.flat d).length = (gs.groups.map fun g => g.1.length).sum + gs.untyped.length := by
  simp [Groups.flat, List.length_flatMap]

/-- `a ?b`-style example: two groups and an untyped tail, with a comment. -/
example : GroupsW NameW
    ⟨[([.new c!"a", .new c!"b"], .exactly (.new c!"t")), ([.new c!"c"], .eitherOf [.new c!"t", .new c!"u"])],
      [.new c!"d"]⟩
    c!"a b ; two\n- t\n c - (either t u) d" := by
  have w : ∀ c, isAlpha c = true → NameW (.new [c]) [c] := fun c hc =>
    .of_word ⟨c, [], rfl, hc, by simp⟩
  exact .cons (t := c!"a b") (g1 := c!" ; two\n") (g2 := c!" ") (g3 := c!"\n ")
    (.cons (g := c!" ") (w _ rfl) sep_blank (.one (w _ rfl)))
    (.mk rfl (.comment (b := ' ') (body := c!"two") rfl (by decide) rfl .nil)) sep_blank
    (.exactly (w 't' rfl)) (.mk rfl (.space rfl .nil))
    (.cons (t := c!"c") (g1 := c!" ") (g2 := c!" ") (u := c!"(either t u)") (g3 := c!" ")
      (.one (w _ rfl)) sep_blank sep_blank
      (Ty.print_w (ty := .eitherOf [.new c!"t", .new c!"u"]) (by decide)) sep_blank (.untyped (.one (w _ rfl))))

/-! ## C13: terms -/

theorem C13_terms {t : Term} {s : List Char} (h : TermW .strict t s) {r : List Char} (hr : Stop r) :
    parseTerm (s ++ r) = .ok t r := h.acc r hr

theorem C13_terms_printed {t : Term} (h : t.wf = true) {r : List Char} (hr : Stop r) :
    parseTerm (t.print ++ r) = .ok t r := C13_terms (Term.print_w t h) hr

theorem C13_atoms {a : AtomicFormula Term} {s : List Char} (h : AtomW .strict (TermW .strict) a s)
    (r : List Char) : atomicFormula parseTerm (s ++ r) = .ok a r :=
  AtomW.acc_term h r trivial

theorem C13_atoms_printed {a : AtomicFormula Term} (h : a.wf Term.wf = true) (r : List Char) :
    atomicFormula parseTerm (a.print Term.print ++ r) = .ok a r := C13_atoms (atomT_w h) r

example : Ex.term.wf = true ∧ Ex.term.print = c!"(f a ?x (g))" := by decide +kernel

/-! ## C14: numeric expressions -/

theorem C14_f_exp {e : FExp} {s : List Char} (h : FExpW .strict e s) {r : List Char} (hr : Stop r) :
    parseFExp (s ++ r) = .ok e r := h.acc r hr

theorem C14_f_exp_printed {e : FExp} (h : e.wf = true) {r : List Char} (hr : Stop r) :
    parseFExp (e.print ++ r) = .ok e r := C14_f_exp (FExp.print_w e h) hr

theorem C14_f_exp_da {e : FExpDa} {s : List Char} (h : FExpDaW .strict e s) {r : List Char}
    (hr : Stop r) : parseFExpDa (s ++ r) = .ok e r := h.acc r hr

theorem C14_f_exp_da_printed {e : FExpDa} (h : e.wf = true) {r : List Char} (hr : Stop r) :
    parseFExpDa (e.print ++ r) = .ok e r := C14_f_exp_da (FExpDa.print_w e h) hr

theorem C14_f_exp_t {e : FExpT} {s : List Char} (h : FExpTW .strict e s) (r : List Char) :
    parseFExpT (s ++ r) = .ok e r := h.acc r trivial

theorem C14_f_comp {c : FComp} {s : List Char} (h : FCompW .strict c s) (r : List Char) :
    parseFComp (s ++ r) = .ok c r := h.acc r trivial

theorem C14_f_comp_printed {c : FComp} (h : c.wf = true) (r : List Char) :
    parseFComp (c.print ++ r) = .ok c r := C14_f_comp (FComp.print_w h) r

/-- The four shapes named in the property are told apart for all operands. -/
theorem C14_shapes {a b c : FExp} (ha : a.wf = true) (hb : b.wf = true) (hc : c.wf = true)
    {r : List Char} (hr : Stop r) :
    parseFExp (form c!"-" [a.print] ++ r) = .ok (.negative a) r ∧
    parseFExp (form c!"-" [a.print, b.print] ++ r) = .ok (.binaryOp .sub a b) r ∧
    parseFExp (form c!"+" [a.print, b.print] ++ r) = .ok (.binaryOp .add a b) r ∧
    parseFExp (form c!"+" [a.print, b.print, c.print] ++ r) = .ok (.multiOp .add a [b, c]) r :=
  ⟨C14_f_exp_printed (e := .negative a) ha hr,
   C14_f_exp_printed (e := .binaryOp .sub a b) (by simp [FExp.wf, ha, hb]) hr,
   C14_f_exp_printed (e := .binaryOp .add a b) (by simp [FExp.wf, ha, hb]) hr,
   C14_f_exp_printed (e := .multiOp .add a [b, c]) (by simp [FExp.wf, FExp.wfs, ha, hb, hc]) hr⟩

example : Ex.fexp.wf = true ∧ Ex.fexp.print = c!"(+ 1 (- (f ?x)) (* 2 (g)))" := by decide +kernel
example : (FExp.number (Ex.num 15 1)).wf = true := by decide +kernel
example : (FExpDa.binaryOp .mul .duration (.fExp (.number (Ex.num 2 0)))).wf = true := by decide +kernel
example : FExpTW .strict (.scaled Ex.fexp) c!"(* #t (+ 1 (- (f ?x)) (* 2 (g))))" := by
  have e : (FExpT.scaled Ex.fexp).print = c!"(* #t (+ 1 (- (f ?x)) (* 2 (g))))" := by decide +kernel
  exact e ▸ FExpT.print_w (by decide +kernel)

/-! ## C15, C16: goals and preconditions -/

theorem C15_goals {g : GD} {s : List Char} (h : GDW .strict g s) (r : List Char) :
    parseGd (s ++ r) = .ok g r := h.acc r trivial

theorem C15_goals_printed {g : GD} (h : g.wf = true) (r : List Char) :
    parseGd (g.print ++ r) = .ok g r := C15_goals (GD.print_w g h) r

example : Ex.goal.wf = true ∧ Ex.goal.print =
    c!"(and (p ?x (f a ?x (g))) (not (or)) (forall (?x - t) (imply (= ?x (f a ?x (g))) (>= (+ 1 (- (f ?x)) (* 2 (g))) 3))))" := by
  decide +kernel

theorem C16_preferences {p : PrefGD} {s : List Char} (h : PrefGDW .strict p s) (r : List Char) :
    parsePrefGd (s ++ r) = .ok p r := h.acc r trivial

/-- Nested conjunctions are flattened: the constructor `PreGDW.and` writes the concatenation of the
conjuncts of its parts as `(and part..)`. -/
theorem C16_preconditions {gs : List PreGD} {s : List Char} (h : PreGDW .strict gs s) (r : List Char) :
    parsePreGd (s ++ r) = .ok gs r := h.acc r trivial

theorem C16_preconditions_printed {gs : List PreGD} (h : PreGD.wfs gs = true) (r : List Char) :
    parsePreGd (printPre gs ++ r) = .ok gs r := C16_preconditions (printPre_w h) r

/-- A conjunction of preconditions, each written in any way, is the concatenation of them. -/
theorem C16_and_flattens {parts : List (List PreGD)} {u : List Char}
    (h : Sec Gap Gap (Items (PreGDW .strict)) parts u) (r : List Char) :
    parsePreGd (paren (c!"and" ++ u) ++ r) = .ok parts.flatten r := C16_preconditions (.and h) r

theorem C16_problem_goal {gs : List PreGD} {s : List Char}
    (h : WrapW c!":goal" Gap (PreGDW .strict) gs s) (r : List Char) :
    parseProblemGoalDef (s ++ r) = .ok gs r := (h.full (fun _ h => h) fun _ _ h => h.elem).1 r trivial

example : PreGD.wfs Ex.pre = true := by decide +kernel
/-- `(and (and (p) (q)) (and) (r))` is the list of three conjuncts. -/
example : PreGDW .strict (List.map (fun p => .preference (.goal (.atomic (Ex.atom p [])))) [c!"p", c!"q", c!"r"])
    c!"(and (and (p) (q)) (and) (r))" := by
  have a : ∀ p, (PreGD.preference (.goal (.atomic (Ex.atom p [])))).wf = true →
      PreGDW .strict [PreGD.preference (.goal (.atomic (Ex.atom p [])))]
        (PreGD.preference (.goal (.atomic (Ex.atom p [])))).print := fun p h => PreGD.print_w _ h
  exact .and (gss := [[_, _], [], [_]]) (u := c!" (and (p) (q)) (and) (r)") (.cons (g := c!" ") (g' := [])
    (t := c!"(and (p) (q)) (and) (r)") gap_blank
    (.cons (t := c!"(and (p) (q))") (g := c!" ")
      (.and (gss := [[_], [_]]) (u := c!" (p) (q)") (.cons (g := c!" ") (g' := []) (t := c!"(p) (q)") gap_blank
        (.cons (t := c!"(p)") (g := c!" ") (a c!"p" (by decide)) sep_blank (.one (a c!"q" (by decide)))) .nil)) sep_blank
      (.cons (t := c!"(and)") (g := c!" ") (.and (gss := []) (.nil .nil)) sep_blank (.one (a c!"r" (by decide))))) .nil)

/-! ## C17, C18: effects and actions -/

theorem C17_p_effects {e : PEffect} {s : List Char} (h : PEffectW .strict e s) (r : List Char) :
    parsePEffect (s ++ r) = .ok e r := h.acc r trivial

theorem C17_cond_effects {e : CondEffect} {s : List Char} (h : CondEffectW .strict e s) (r : List Char) :
    parseCondEffect (s ++ r) = .ok e r := h.acc r trivial

theorem C17_effects {es : List CEffect} {s : List Char} (h : EffectW (CEffectW .strict) es s)
    (r : List Char) : parseEffect (s ++ r) = .ok es r := h.full.1 r trivial

theorem C17_effects_printed {es : List CEffect} (h : CEffect.wfs es = true) (r : List Char) :
    parseEffect (printEffects es ++ r) = .ok es r := C17_effects (printEffects_w h) r

example : CEffect.wfs Ex.effects = true := by decide +kernel

theorem C18_actions {a : ActionDef} {s : List Char} (h : ActionW .strict a s) (r : List Char) :
    parseActionDef (s ++ r) = .ok a r := h.acc r trivial

theorem C18_actions_printed {a : ActionDef} (h : a.wf = true) (r : List Char) :
    parseActionDef (a.print ++ r) = .ok a r := C18_actions (ActionDef.print_w h) r

theorem C18_derived {d : DerivedPredicate} {s : List Char} (h : DerivedW .strict d s) (r : List Char) :
    parseDerivedPredicate (s ++ r) = .ok d r := h.acc r trivial

theorem C18_derived_printed {d : DerivedPredicate} (h : d.wf = true) (r : List Char) :
    parseDerivedPredicate (d.print ++ r) = .ok d r := C18_derived (DerivedPredicate.print_w h) r

/-- Omitted sections and `()`: for every symbol and parameters, all four combinations give an action
without precondition and effect. -/
theorem C18_empty_sections {n : Name} {vs : TypedList Name} (hn : n.wf = true) (hv : wfVars vs = true)
    (r : List Char) (p q : Bool) :
    parseActionDef (paren (c!":action " ++ (n.print ++ (c!" :parameters " ++ (printVars vs ++
      ((if p then c!" :precondition ()" else []) ++ (if q then c!" :effect ()" else [])))))) ++ r) =
      .ok ⟨n, vs, [], none⟩ r := by
  have hp : ∃ o : Option (Option (List PreGD)), SlotW c!":precondition" (PreGDW .strict) o
      (if p then c!" :precondition ()" else []) ∧ o.join.getD [] = [] := by
    cases p
    · exact ⟨none, .absent, rfl⟩
    · exact ⟨some none, .present (g := c!" ") (u := c!" ()") gap_blank (.empty (g := c!" ") sp_blank), rfl⟩
  have hq : ∃ o : Option (Option (List CEffect)), SlotW c!":effect" (EffectW (CEffectW .strict)) o
      (if q then c!" :effect ()" else []) ∧ o.join = none := by
    cases q
    · exact ⟨none, .absent, rfl⟩
    · exact ⟨some none, .present (g := c!" ") (u := c!" ()") gap_blank (.empty (g := c!" ") sp_blank), rfl⟩
  obtain ⟨o, h1, h2⟩ := hp
  obtain ⟨o', h3, h4⟩ := hq
  have := C18_actions (ActionW.mk (m := .strict) (g1 := [' ']) (g2 := [' ']) (g3 := [' ']) (g4 := []) sep_blank
    (Name.print_w hn) sp_blank sep_blank (printVars_w hv) h1 h3 .nil) r
  rw [h2, h4, List.append_nil] at this
  exact this

example : Ex.action.wf = true ∧ Ex.derived.wf = true := by decide +kernel
example : parseActionDef c!"(:action a :parameters () :effect ())" = .ok ⟨.new c!"a", [], [], none⟩ [] :=
  C18_empty_sections (n := .new c!"a") (vs := []) (by decide) (by decide) [] false true

/-! ## C19: durative actions -/

theorem C19_durative {a : DaDef} {s : List Char} (h : DaDefW .strict a s) (r : List Char) :
    parseDaDef (s ++ r) = .ok a r := h.acc r trivial

theorem C19_durative_printed {a : DaDef} (h : a.wf = true) (r : List Char) :
    parseDaDef (a.print ++ r) = .ok a r := C19_durative (DaDef.print_w h) r

theorem C19_conditions {g : DaGD} {s : List Char} (h : DaGDW .strict g s) (r : List Char) :
    parseDaGd (s ++ r) = .ok g r := h.full.1 r trivial

theorem C19_effects {e : DaEffect} {s : List Char} (h : DaEffectW .strict e s) (r : List Char) :
    parseDaEffect (s ++ r) = .ok e r := h.full.1 r trivial

theorem C19_timed_effects {e : TimedEffect} {s : List Char} (h : TimedEffectW .strict e s) (r : List Char) :
    parseTimedEffect (s ++ r) = .ok e r := h.acc r trivial

theorem C19_durations {c : SimpleDuration} {s : List Char} (h : SimpleDurationW .strict c s)
    (r : List Char) : parseSimpleDuration (s ++ r) = .ok c r := h.acc r trivial

theorem C19_structures {d : StructureDef} {s : List Char} (h : StructureW .strict d s) (r : List Char) :
    parseStructureDef (s ++ r) = .ok d r := h.acc r trivial

example : Ex.durative.wf = true := by decide +kernel
example : Ex.durative.wf = true ∧ (⟨Ex.nm c!"wait", [], none, none, none⟩ : DaDef).print =
    c!"(:durative-action wait :parameters () :duration () :condition () :effect ())" := by decide +kernel

/-! ## C20: trajectory constraints -/

theorem C20_constraints {c : ConGD} {s : List Char} (h : ConGDW .strict c s) (r : List Char) :
    parseConGd (s ++ r) = .ok c r := h.acc r trivial

theorem C20_constraints_printed {c : ConGD} (h : c.wf = true) (r : List Char) :
    parseConGd (c.print ++ r) = .ok c r := C20_constraints (ConGD.print_w c h) r

theorem C20_pref_constraints {cs : List PrefConGD} {s : List Char} (h : PrefConGDW .strict cs s)
    (r : List Char) : parsePrefConGd (s ++ r) = .ok cs r := h.acc r trivial

theorem C20_pref_constraints_printed {cs : List PrefConGD} (h : PrefConGD.wfs cs = true)
    (r : List Char) : parsePrefConGd (printPrefCon cs ++ r) = .ok cs r :=
  C20_pref_constraints (printPrefCon_w h) r

/-- All operators over arbitrary goals. -/
theorem C20_operators {a b : GD} {n k : Number} (ha : a.wf = true) (hb : b.wf = true)
    (hn : n.wf = true) (hk : k.wf = true) :
    ∀ c ∈ [ConGD.atEnd a, .always (.goal a), .sometime (.goal a), .within n (.goal a), .atMostOnce (.goal a),
        .sometimeAfter (.goal a) (.goal b), .sometimeBefore (.goal a) (.goal b),
        .alwaysWithin n (.goal a) (.goal b), .holdDuring n k (.goal a), .holdAfter n (.goal a)],
      ∀ r, parseConGd (c.print ++ r) = .ok c r := by
  intro c hc r
  refine C20_constraints_printed ?_ r
  simp only [List.mem_cons, List.not_mem_nil, or_false] at hc
  rcases hc with rfl | rfl | rfl | rfl | rfl | rfl | rfl | rfl | rfl | rfl <;>
    simp [ConGD.wf, Con2GD.wf, ha, hb, hn, hk]

example : Ex.con.wf = true ∧ PrefConGD.wfs Ex.prefCon = true := by decide +kernel

/-! ## C22, C23, C40: initial state, metric, length -/

theorem C22_init {es : List InitElement} {s : List Char} (h : InitW .strict es s) (r : List Char) :
    parseProblemInitDef (s ++ r) = .ok es r := h.full.1 r trivial

theorem C22_init_printed {es : List InitElement} (h : es.all InitElement.wf = true) (r : List Char) :
    parseProblemInitDef (form c!":init" (es.map InitElement.print) ++ r) = .ok es r :=
  C22_init (.mk (sec_spaced gap_blank .nil fun e he =>
    InitElement.print_w (List.all_eq_true.mp h e he))) r

example : Ex.init.all InitElement.wf = true ∧ form c!":init" (Ex.init.map InitElement.print) =
    c!"(:init (p a) (at 5 (not (q))) (= (g) 7) (= (h a) b))" := by decide +kernel

theorem C23_metric {m : MetricSpec} {s : List Char} (h : MetricSpecW .strict m s) (r : List Char) :
    parseProblemMetricSpec (s ++ r) = .ok m r := h.full.1 r trivial

theorem C23_metric_printed {m : MetricSpec} (h : m.wf = true) (r : List Char) :
    parseProblemMetricSpec (m.print ++ r) = .ok m r := C23_metric (MetricSpec.print_w h) r

theorem C23_metric_exp {e : MetricFExp} {s : List Char} (h : MetricW .strict e s) {r : List Char}
    (hr : Stop r) : parseMetricFExp (s ++ r) = .ok e r := h.elem.1 r hr

example : (⟨.minimize, Ex.metric⟩ : MetricSpec).wf = true ∧ (⟨.minimize, Ex.metric⟩ : MetricSpec).print =
    c!"(:metric minimize (+ total-time (* 2 (is-violated w)) (- (g))))" := by decide +kernel

theorem C40_length {l : LengthSpec} {s : List Char} (h : LengthW .strict l s) (r : List Char) :
    parseProblemLengthSpec (s ++ r) = .ok l r := h.full.1 r trivial

theorem C40_length_printed {l : LengthSpec} (h : l.wf = true) (r : List Char) :
    parseProblemLengthSpec (l.print ++ r) = .ok l r := C40_length (LengthSpec.print_w h) r

/-- Both parts exact up to `2^64 - 1`. -/
theorem C40_exact {n k : Nat} (hn : n < 2 ^ 64) (hk : k < 2 ^ 64) (r : List Char) :
    parseProblemLengthSpec (form c!":length" [form c!":serial" [numeral n], form c!":parallel" [numeral k]] ++ r) =
        .ok ⟨some n, some k⟩ r ∧
      parseProblemLengthSpec (form c!":length" [form c!":serial" [numeral n]] ++ r) = .ok ⟨some n, none⟩ r ∧
      parseProblemLengthSpec (form c!":length" [form c!":parallel" [numeral k]] ++ r) = .ok ⟨none, some k⟩ r := by
  have e : ∀ l : LengthSpec, ∀ t, l.wf = true → l.print = t → parseProblemLengthSpec (t ++ r) = .ok l r :=
    fun l t h e => e ▸ C40_length_printed h r
  refine ⟨e _ _ (by simp [LengthSpec.wf, wfOpt, hn, hk]) ?_, e _ _ (by simp [LengthSpec.wf, wfOpt, hn]) ?_,
    e _ _ (by simp [LengthSpec.wf, wfOpt, hk]) ?_⟩ <;>
    simp [LengthSpec.print, printOpt, form, spaced]

theorem u64Loop_over {t r : List Char} : ∀ v : Nat, v < 2 ^ 64 → (∀ c ∈ t, isDigit c = true) →
    2 ^ 64 ≤ t.foldl (fun v c => v * 10 + digitVal c) v → u64Loop v (t ++ r) = .err := by
  induction t with
  | nil => intro v hv _ h; exact absurd h (by simpa using hv)
  | cons c t ih =>
    intro v _ hd h
    rw [List.cons_append, u64Loop, if_pos (hd c (by simp))]
    dsimp only
    split
    · exact ih _ (by assumption) (fun c hc => hd c (by simp [hc])) h
    · rfl

/-- A numeral that does not fit into 64 bits, of any length, is an error. -/
theorem C40_u64_overflow {t r : List Char} (hd : ∀ c ∈ t, isDec c = true) (h : 2 ^ 64 ≤ decVal t) :
    u64 (t ++ r) = .err := by
  cases t with
  | nil => exact absurd h (by decide)
  | cons c t =>
    rw [List.cons_append, u64, if_pos (show isDigit c = true from hd c (by simp))]
    exact u64Loop_over (t := c :: t) 0 (by decide) hd h

/-- So the section is rejected if the serial or the parallel length does not fit. -/
theorem C40_overflow_rejected {t g1 g2 x : List Char} (hg1 : Gap g1) (hg2 : Gap g2)
    (hd : ∀ c ∈ t, isDec c = true) (h : 2 ^ 64 ≤ decVal t) :
    parseProblemLengthSpec ('(' :: (c!":length" ++ (g1 ++ ('(' :: (c!":serial" ++ (g2 ++ (t ++ x))))))) = .err ∧
      parseProblemLengthSpec ('(' :: (c!":length" ++ (g1 ++ ('(' :: (c!":parallel" ++ (g2 ++ (t ++ x))))))) = .err := by
  have hs : Solid t := by
    cases t with
    | nil => exact absurd h (by decide)
    | cons c t => have := isDigit_solid (hd c (by simp)); exact .cons this.1 this.2 _
  have key : ∀ kw, prefixExpr kw u64 ('(' :: (kw ++ (g2 ++ (t ++ x)))) = .err := by
    intro kw
    exact prefixExpr_body_err (by rw [hg2.skip_solid (hs.append x)]; exact C40_u64_overflow hd h)
  have close : ∀ y : List Char, ∀ o : Option Nat × Option Nat,
      pair (opt (prefixExpr c!":serial" u64)) (opt (preceded multispace0 (prefixExpr c!":parallel" u64)))
        ('(' :: y) = .ok o ('(' :: y) →
      parseProblemLengthSpec ('(' :: (c!":length" ++ (g1 ++ '(' :: y))) = .err := by
    intro y o ho
    refine map_err (prefixExpr_tail (v := o) (y := '(' :: y) ?_ ?_)
    · rw [hg1.skip_solid (solid_open y)]; exact ho
    · intro z hz
      rw [(solid_open y).skip] at hz
      cases hz
  constructor
  · refine close _ (none, none) (pair_run (opt_err (key _)) (opt_err ?_))
    rw [ms0_prefix]
    exact prefixExpr_kw (stripPrefix_differ (by decide) _)
  · refine close _ (none, none) (pair_run (opt_err ?_) (opt_err ?_))
    · exact prefixExpr_kw (stripPrefix_differ (by decide) _)
    · rw [ms0_prefix]; exact key _

example : (⟨some 18446744073709551615, some 0⟩ : LengthSpec).wf = true := by decide
example : 2 ^ 64 ≤ decVal c!"18446744073709551616" := by decide

/-! ## C24, C25: domains and problems -/

/-- Any spelling of a domain, with any layout before it, is read back; the layout after it is
consumed (`skip r` is the rest without its leading layout) and any other following text is left. -/
theorem C24_domains {d : Domain} {s : List Char} (h : DomainW .strict d s) {g : List Char} (hg : Gap g)
    (r : List Char) : parseDomain (g ++ (s ++ r)) = .ok d (skip r) := h.acc hg r

theorem C24_domains_printed {d : Domain} (h : d.wf = true) (r : List Char) :
    parseDomain (d.print ++ r) = .ok d (skip r) := C24_domains (Domain.print_w h) .nil r

/-- `Domain::from_str` on a file with layout around the domain. -/
theorem C24_from_str {d : Domain} {s : List Char} (h : DomainW .strict d s) {g : List Char} (hg : Gap g)
    (r : List Char) : fromStr parseDomain (g ++ (s ++ r)) = some d := by
  rw [fromStr, C24_domains h hg r]

example : Ex.domain.wf = true := by decide +kernel
example : (Domain.mk (.new c!"dom") [.new c!"base"] [] [] [] [] [] (.and []) [] []).print =
    c!"(define (domain dom)\n(:extends base)\n(:constraints (and)))" := by decide +kernel

theorem C25_problems {p : Problem} {s : List Char} (h : ProblemW .strict p s) {g : List Char} (hg : Gap g)
    (r : List Char) : parseProblem (g ++ (s ++ r)) = .ok p (skip r) := h.acc hg r

theorem C25_problems_printed {p : Problem} (h : p.wf = true) (r : List Char) :
    parseProblem (p.print ++ r) = .ok p (skip r) := C25_problems (Problem.print_w h) .nil r

theorem C25_from_str {p : Problem} {s : List Char} (h : ProblemW .strict p s) {g : List Char} (hg : Gap g)
    (r : List Char) : fromStr parseProblem (g ++ (s ++ r)) = some p := by
  rw [fromStr, C25_problems h hg r]

example : Ex.problem.wf = true := by decide +kernel

/-! ## C34: requirements -/

/-- A `:requirements` section returns exactly the written keys, in order, with repetitions. -/
theorem C34_section {ks : List Requirement} {s : List Char} (h : RequirementsW .strict ks s)
    (r : List Char) : parseRequireDef (s ++ r) = .ok ks r := h.full.1 r trivial

theorem C34_section_printed {ks : List Requirement} (h : ks ≠ []) (r : List Char) :
    parseRequireDef (form c!":requirements" (ks.map Requirement.spell) ++ r) = .ok ks r := by
  cases ks with
  | nil => exact absurd rfl h
  | cons k ks =>
    have := C34_section (NonEmptyW.mk (g1 := [' ']) (g2 := []) sep_blank
      (items_joined (R := KeyW) (pr := Requirement.spell) (as := k :: ks) (by simp) fun _ _ => rfl) .nil) r
    rw [List.append_nil] at this
    exact this

example : form c!":requirements" ([.strips, .adl, .strips].map Requirement.spell) =
    c!"(:requirements :strips :adl :strips)" := by decide

end Pddl
