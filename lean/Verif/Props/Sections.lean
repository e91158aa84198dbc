import Verif.Spec.Sections
import Verif.Props.Accept
import Verif.Props.Layout

/-!
# Properties: sections are never dropped (C44)

`Forms fs u` (`Verif/Spec/Sections.lean`): the forms written in the text `u`, in order; a text has at
most one such list (`Forms.unique`). `DomainFrom d fs` says that the list of forms is exactly a name,
then at most one form for each section in the fixed order, then any number of structures, and that
each of these forms, read alone, is the corresponding field of `d`.
-/

namespace Pddl

/-! ## Lists of forms -/

theorem Forms.gap {g u : List Char} {fs : List (List Char)} (hg : Gap g) (h : Forms fs u) :
    Forms fs (g ++ u) := by
  cases h with
  | nil h => exact .nil (hg.append h)
  | cons h h1 h2 => rw [← List.append_assoc]; exact .cons (hg.append h) h1 h2

theorem Forms.append {u w : List Char} {fs gs : List (List Char)} (h : Forms fs u)
    (h' : Forms gs w) : Forms (fs ++ gs) (u ++ w) := by
  induction h with
  | nil h => exact h'.gap h
  | cons h1 h2 _ ih =>
    rw [List.append_assoc, List.append_assoc]
    exact .cons h1 h2 ih

theorem Forms.one {t : List Char} (h : Form t) : Forms [t] t := by
  obtain ⟨u, rfl, hu⟩ := h
  have := Forms.cons Gap.nil hu (Forms.nil Gap.nil)
  simpa using this

theorem Forms.bal {u : List Char} {fs : List (List Char)} (h : Forms fs u) : Bal u := by
  induction h with
  | nil h => exact h.bal
  | cons h1 h2 _ ih => exact h1.bal.append (h2.paren.append ih)

theorem Gap.no_paren {g g' u w : List Char} (hg : Gap g) (hg' : Gap g')
    (he : g = g' ++ (paren u ++ w)) : False := by
  have h1 : Pddl.skip (g ++ []) = [] := Gap.skip hg []
  have h2 := hg'.skip_solid (((solid_paren u).append w).append [])
  rw [he, List.append_assoc, h2] at h1
  exact absurd h1 (by simp [paren])

/-- The forms written in a text are determined by the text. -/
theorem Forms.unique {u : List Char} {fs fs' : List (List Char)} (h : Forms fs u)
    (h' : Forms fs' u) : fs = fs' := by
  induction h generalizing fs' with
  | @nil g hg =>
    generalize he : g = x at h'
    cases h' with
    | nil => rfl
    | cons h1 h2 h3 => exact (hg.no_paren h1 he).elim
  | @cons g u fs w hg hu hw ih =>
    generalize he : g ++ (paren u ++ w) = x at h'
    cases h' with
    | nil h1 => exact (h1.no_paren hg he.symm).elim
    | @cons g' u' fs' w' hg' hu' hw' =>
      obtain ⟨h1, rfl⟩ := Form.unique hg hg' (.mk hu) (.mk hu') he
      rw [ih hw', h1]

/-! ## What the parsers of the sections read -/

/-- The text is one form and the parser reads the value from it alone. -/
structure Reads (p : P α) (v : α) (t : List Char) : Prop where
  form : Form t
  run : p t = .ok v []

theorem Snd.readsForm {p : P α} {R : α → List Char → Prop} (h : Snd Any Gap p R)
    (ht : TailBlind p) (hb : LeadBlind p) (hf : ∀ v t, R v t → Form t) :
    Snd Any Gap p (Reads p) := fun s v r hs _ => by
  obtain ⟨g, t, rfl, hg, h3⟩ := h s v r hs trivial
  refine ⟨g, t, rfl, hg, hf v t h3, ?_⟩
  rw [hb _ _ hg] at hs
  have := ht t r v hs []
  simpa using this

/-- A section may be absent, then the field has its default value; a form read alone gives the
field. -/
def Slot (p : P α) (o : Option (List Char)) (dflt v : α) : Prop :=
  match o with
  | none => v = dflt
  | some t => p t = .ok v []

theorem OptW.slot {p : P α} {v : Option α} {u : List Char} (dflt : α)
    (h : OptW Sep (Reads p) v u) :
    ∃ o : Option (List Char), Forms o.toList u ∧ Slot p o dflt (v.getD dflt) := by
  cases h with
  | absent => exact ⟨none, .nil .nil, rfl⟩
  | present hg h => exact ⟨some _, (Forms.one h.form).gap hg.gap, h.run⟩

/-- As `Slot`, for a field that is itself optional. -/
def SlotOpt (p : P α) (o : Option (List Char)) (v : Option α) : Prop :=
  match o with
  | none => v = none
  | some t => ∃ x, p t = .ok x [] ∧ v = some x

theorem OptW.slotOpt {p : P α} {v : Option α} {u : List Char} (h : OptW Sep (Reads p) v u) :
    ∃ o : Option (List Char), Forms o.toList u ∧ SlotOpt p o v := by
  cases h with
  | absent => exact ⟨none, .nil .nil, rfl⟩
  | present hg h => exact ⟨some _, (Forms.one h.form).gap hg.gap, _, h.run, rfl⟩

/-- The forms, each read alone, are the values. -/
inductive AllRead (p : P α) : List (List Char) → List α → Prop
  | nil : AllRead p [] []
  | cons {t v ts vs} : p t = .ok v [] → AllRead p ts vs → AllRead p (t :: ts) (v :: vs)

theorem Items.forms {p : P α} {vs : List α} {u : List Char} (h : Items (Reads p) vs u) :
    ∃ fs, Forms fs u ∧ AllRead p fs vs := by
  induction h with
  | one h => exact ⟨_, .one h.form, .cons h.run .nil⟩
  | cons h hg _ ih =>
    obtain ⟨fs, h1, h2⟩ := ih
    exact ⟨_ :: fs, (Forms.one h.form).append (h1.gap hg.gap), .cons h.run h2⟩

theorem OptW.structures {p : P α} {v : Option (List α)} {u : List Char}
    (h : OptW Sep (Items (Reads p)) v u) :
    ∃ fs, Forms fs u ∧ AllRead p fs (v.getD []) := by
  cases h with
  | absent => exact ⟨[], .nil .nil, .nil⟩
  | present hg h =>
    obtain ⟨fs, h1, h2⟩ := h.forms
    exact ⟨fs, h1.gap hg.gap, h2⟩

/-! ## C44: domains -/

/-- The forms are exactly the name, the sections in their order, and the structures of the domain. -/
def DomainFrom (d : Domain) (fs : List (List Char)) : Prop :=
  ∃ (n : List Char) (ext req ty con pre fn cstr : Option (List Char)) (st : List (List Char)),
    fs = n :: (ext.toList ++ (req.toList ++ (ty.toList ++ (con.toList ++ (pre.toList ++
      (fn.toList ++ (cstr.toList ++ st))))))) ∧
    prefixExpr c!"domain" parseName n = .ok d.name [] ∧
    Slot (prefixExpr c!":extends" (spaceSeparatedList1 parseName)) ext [] d.extends_ ∧
    Slot parseRequireDef req [] d.requirements ∧
    Slot parseTypesDef ty [] d.types ∧
    Slot parseConstantsDef con [] d.constants ∧
    Slot parsePredicatesDef pre [] d.predicates ∧
    Slot parseFunctionsDef fn [] d.functions ∧
    Slot parseDomainConstraintsDef cstr (.and []) d.constraints ∧
    AllRead parseStructureDef st d.structure_

theorem wrapName_tail {kw : List Char} (hk : plainText kw = true) :
    TailBlind (prefixExpr kw parseName) :=
  (wrap_snd parseName_snd).tail (fun _ _ h => h.form hk (fun _ h => h) fun _ _ h => h.1.bal) (by loc)

theorem wrapName_reads {kw : List Char} (hk : plainText kw = true) :
    Snd Any Gap (prefixExpr kw parseName) (Reads (prefixExpr kw parseName)) :=
  (wrap_snd parseName_snd).readsForm (wrapName_tail hk) .prefixExpr
    fun _ _ h => h.form hk (fun _ h => h) fun _ _ h => h.1.bal

theorem extends_form {v t} (h : NonEmptyW c!":extends" Gap NameW v t) : Form t :=
  NonEmptyW.form h (by decide) (fun _ h => h) fun _ _ h => h.1.bal

theorem domainParts_forms : Snd NE Gap domainParts (fun x t => ∀ g1 g2, Gap g1 → Gap g2 →
    ∃ u fs, paren (c!"define" ++ (g1 ++ (t ++ g2))) = paren (c!"define" ++ u) ∧ Forms fs u ∧
      DomainFrom (domainOf x) fs) := by
  have hs {α} {p : P α} {R : α → List Char → Prop} (h : Snd Any Gap p R) :
      Snd Any Nil (opt (preceded multispace1 p)) (OptW Sep R) := Snd.opt (Snd.ms1 h fun _ => id)
  have hext := nonEmpty_snd (F := Any) (kw := c!":extends") parseName_snd nameW_nonE
  refine (Snd.pair (wrapName_reads (by decide))
    (Snd.pair (hs (hext.readsForm (hext.tail (fun _ _ h => extends_form h) (by loc)) .prefixExpr
      fun _ _ h => extends_form h))
    (Snd.pair (hs (parseRequireDef_snd.readsForm C28_requirements C29_requirements
      fun _ _ h => h.form))
    (Snd.pair (hs (typedNames_snd.readsForm C28_types_section C29_types
      fun _ _ h => TypedNamesW.form h (by decide)))
    (Snd.pair (hs (typedNames_snd.readsForm C28_constants_section C29_constants
      fun _ _ h => TypedNamesW.form h (by decide)))
    (Snd.pair (hs (parsePredicatesDef_snd.readsForm C28_predicates_section C29_predicates
      fun _ _ h => NonEmptyW.form h (by decide) (fun _ h => h) fun _ _ h => h.bal))
    (Snd.pair (hs (parseFunctionsDef_snd.readsForm C28_functions_section C29_functions
      fun _ _ h => h.form))
    (Snd.pair (hs (parseDomainConstraintsDef_snd.readsForm C28_constraints_section
      C29_domain_constraints
      fun _ _ h => h.form (by decide) (fun _ h => h) fun _ _ h => h.form.bal))
      (hs (Snd.list1 (parseStructureDef_snd.readsForm C28_structures C29_structures
        fun _ _ h => h.form) fun _ _ h => h.form.ne)).anyF)))))))).mono
      (fun _ => id) (fun _ => id) ?_
  rintro ⟨name, ext, req, ty, con, pre, fn, cstr, st⟩ t ⟨tn, _, _, rfl, h1, rfl,
    u1, _, _, rfl, h2, rfl, u2, _, _, rfl, h3, rfl, u3, _, _, rfl, h4, rfl, u4, _, _, rfl, h5, rfl,
    u5, _, _, rfl, h6, rfl, u6, _, _, rfl, h7, rfl, u7, _, u8, rfl, h8, rfl, h9⟩ g1 g2 hg1 hg2
  obtain ⟨o2, f2, s2⟩ := h2.slot []
  obtain ⟨o3, f3, s3⟩ := h3.slot []
  obtain ⟨o4, f4, s4⟩ := h4.slot []
  obtain ⟨o5, f5, s5⟩ := h5.slot []
  obtain ⟨o6, f6, s6⟩ := h6.slot []
  obtain ⟨o7, f7, s7⟩ := h7.slot []
  obtain ⟨o8, f8, s8⟩ := h8.slot (.and [])
  obtain ⟨o9, f9, s9⟩ := h9.structures
  refine ⟨_, _, rfl, ?_, tn, o2, o3, o4, o5, o6, o7, o8, o9, rfl, h1.run, s2, s3, s4, s5, s6, s7,
    s8, s9⟩
  have := ((Forms.one h1.form).append (f2.append (f3.append (f4.append (f5.append (f6.append
    (f7.append (f8.append (f9.append (.nil hg2))))))))))
  simpa using this.gap hg1

theorem define_form {p : P α} {F : α → List (List Char) → Prop} {parse : P α}
    (hp : ∀ {s d r}, parse s = .ok d r →
      ∃ g t g', s = g ++ (t ++ (g' ++ r)) ∧ Gap g ∧
        (∃ u fs, t = paren (c!"define" ++ u) ∧ Forms fs u ∧ F d fs) ∧ GapEnd g' ∧
        (r ≠ [] → Gap g'))
    {g u r r' : List Char} {fs : List (List Char)} {d : α} (hg : Gap g) (hf : Forms fs u)
    (h : parse (g ++ (paren (c!"define" ++ u) ++ r)) = .ok d r') : F d fs := by
  obtain ⟨g', t, g2, he, hg', ⟨u', fs', rfl, hf', hF⟩, _⟩ := hp h
  obtain ⟨h2, _⟩ := Form.unique hg hg'
    (.mk ((Bal.of_kw (by decide)).append hf.bal)) (.mk ((Bal.of_kw (by decide)).append hf'.bal)) he
  have h3 : u = u' := by simpa [paren] using h2
  subst h3
  rw [hf.unique hf']
  exact hF

/-- An accepted domain is `(define ...)` around forms that are exactly its sections. -/
theorem C44_domain_shape {s : List Char} {d : Domain} {r : List Char}
    (h : parseDomain s = .ok d r) :
    ∃ g t g', s = g ++ (t ++ (g' ++ r)) ∧ Gap g ∧
      (∃ u fs, t = paren (c!"define" ++ u) ∧ Forms fs u ∧ DomainFrom d fs) ∧ GapEnd g' ∧
      (r ≠ [] → Gap g') :=
  ws2_define (R := fun d t => ∃ u fs, t = paren (c!"define" ++ u) ∧ Forms fs u ∧ DomainFrom d fs)
    domainParts_forms h

/-- Whatever forms were written in the domain, each of them is in the result. -/
theorem C44_domain {g u r r' : List Char} {fs : List (List Char)} {d : Domain} (hg : Gap g)
    (hf : Forms fs u) (h : parseDomain (g ++ (paren (c!"define" ++ u) ++ r)) = .ok d r') :
    DomainFrom d fs :=
  define_form (p := parseDomain) C44_domain_shape hg hf h

/-! ## C44: problems -/

/-- The forms are exactly the name, the domain's name and the sections of the problem in their
order. -/
def ProblemFrom (p : Problem) (fs : List (List Char)) : Prop :=
  ∃ (n dom init goal : List Char) (req obj cstr met len : Option (List Char)),
    fs = n :: dom :: (req.toList ++ (obj.toList ++ (init :: goal :: (cstr.toList ++
      (met.toList ++ len.toList))))) ∧
    prefixExpr c!"problem" parseName n = .ok p.name [] ∧
    prefixExpr c!":domain" parseName dom = .ok p.domain [] ∧
    Slot parseRequireDef req [] p.requires ∧
    Slot parseProblemObjectsDeclaration obj [] p.objects ∧
    parseProblemInitDef init = .ok p.init [] ∧
    parseProblemGoalDef goal = .ok p.goal [] ∧
    Slot parseProblemConstraintsDef cstr [] p.constraints ∧
    SlotOpt parseProblemMetricSpec met p.metricSpec ∧
    SlotOpt parseProblemLengthSpec len p.lengthSpec

theorem problemParts_forms : Snd NE Gap problemParts (fun x t => ∀ g1 g2, Gap g1 → Gap g2 →
    ∃ u fs, paren (c!"define" ++ (g1 ++ (t ++ g2))) = paren (c!"define" ++ u) ∧ Forms fs u ∧
      ProblemFrom (problemOf x) fs) := by
  have hs {α} {p : P α} {R : α → List Char → Prop} (h : Snd Any Gap p R) :
      Snd Any Nil (opt (preceded multispace1 p)) (OptW Sep R) := Snd.opt (Snd.ms1 h fun _ => id)
  refine (Snd.pair (wrapName_reads (by decide))
    (Snd.pair (Snd.ms1 (wrapName_reads (by decide)) fun _ => id)
    (Snd.pair (hs (parseRequireDef_snd.readsForm C28_requirements C29_requirements
      fun _ _ h => h.form))
    (Snd.pair (hs (typedNames_snd.readsForm C28_objects_section C29_objects
      fun _ _ h => TypedNamesW.form h (by decide)))
    (Snd.pair (Snd.ms1 (parseProblemInitDef_snd.readsForm C28_init_section C29_init
      fun _ _ h => h.form) fun _ => id)
    (Snd.pair (Snd.ms1 (parseProblemGoalDef_snd.readsForm C28_goal_section C29_goal_section
      fun _ _ h => h.form (by decide) (fun _ h => h) fun _ _ h => h.form.bal) fun _ => id)
    (Snd.pair (hs (parseProblemConstraintsDef_snd.readsForm C28_problem_constraints_section
      C29_problem_constraints
      fun _ _ h => h.form (by decide) (fun _ h => h) fun _ _ h => h.form.bal))
    (Snd.pair (hs (parseProblemMetricSpec_snd.readsForm C28_metric_section C29_metric
      fun _ _ h => h.form))
      (hs (parseProblemLengthSpec_snd.readsForm C28_length_section C29_length
        fun _ _ h => h.form)).anyF)))))))).mono (fun _ => id) (fun _ => id) ?_
  rintro ⟨name, domain, req, obj, init, goal, cstr, met, len⟩ t ⟨tn, g2, _, rfl, h1, hg2,
    td, _, _, rfl, h2, rfl, u1, _, _, rfl, h3, rfl, u2, g3, _, rfl, h4, hg3, ti, g4, _, rfl, h5, hg4,
    tg, _, _, rfl, h6, rfl, u3, _, _, rfl, h7, rfl, u4, _, u5, rfl, h8, rfl, h9⟩ g1 g5 hg1 hg5
  obtain ⟨o3, f3, s3⟩ := h3.slot []
  obtain ⟨o4, f4, s4⟩ := h4.slot []
  obtain ⟨o7, f7, s7⟩ := h7.slot []
  obtain ⟨o8, f8, s8⟩ := h8.slotOpt
  obtain ⟨o9, f9, s9⟩ := h9.slotOpt
  refine ⟨_, _, rfl, ?_, tn, td, ti, tg, o3, o4, o7, o8, o9, rfl, h1.run, h2.run, s3, s4, h5.run,
    h6.run, s7, s8, s9⟩
  have := ((Forms.one h1.form).append (((Forms.one h2.form).gap hg2.gap).append (f3.append
    (f4.append (((Forms.one h5.form).gap hg3.gap).append (((Forms.one h6.form).gap hg4.gap).append
    (f7.append (f8.append (f9.append (.nil hg5))))))))))
  simpa using this.gap hg1

/-- An accepted problem is `(define ...)` around forms that are exactly its sections. -/
theorem C44_problem_shape {s : List Char} {d : Problem} {r : List Char}
    (h : parseProblem s = .ok d r) :
    ∃ g t g', s = g ++ (t ++ (g' ++ r)) ∧ Gap g ∧
      (∃ u fs, t = paren (c!"define" ++ u) ∧ Forms fs u ∧ ProblemFrom d fs) ∧ GapEnd g' ∧
      (r ≠ [] → Gap g') :=
  ws2_define (R := fun d t => ∃ u fs, t = paren (c!"define" ++ u) ∧ Forms fs u ∧ ProblemFrom d fs)
    problemParts_forms h

theorem C44_problem {g u r r' : List Char} {fs : List (List Char)} {d : Problem} (hg : Gap g)
    (hf : Forms fs u) (h : parseProblem (g ++ (paren (c!"define" ++ u) ++ r)) = .ok d r') :
    ProblemFrom d fs :=
  define_form (p := parseProblem) C44_problem_shape hg hf h

/-! ## Which keyword a form that was read starts with -/

theorem Forms.mem {u f : List Char} {fs : List (List Char)} (h : Forms fs u) (hf : f ∈ fs) :
    ∃ w, f = paren w := by
  induction h with
  | nil => cases hf
  | cons _ _ _ ih =>
    cases hf with
    | head => exact ⟨_, rfl⟩
    | tail _ hf => exact ih hf

theorem prefix_starts {kw w : List Char} {q : P α} {v r} (h : prefixExpr kw q (paren w) = .ok v r) :
    ∃ x, paren w = '(' :: (kw ++ x) := by
  obtain ⟨g, x, y, h1, hg, _⟩ := prefixExpr_inv h
  cases hg with
  | nil => exact ⟨x, h1⟩
  | space h2 => injection h1 with h1; subst h1; exact absurd h2 (by decide)
  | comment => injection h1 with h1; exact absurd h1 (by decide)

theorem map_prefix_starts {kw w : List Char} {f : α → β} {q : P α} {v r}
    (h : map f (prefixExpr kw q) (paren w) = .ok v r) : ∃ x, paren w = '(' :: (kw ++ x) := by
  obtain ⟨_, h1, _⟩ := map_ok h
  exact prefix_starts h1

theorem structure_starts {w : List Char} {v r} (h : parseStructureDef (paren w) = .ok v r) :
    ∃ kw x, (kw = c!":action" ∨ kw = c!":durative-action" ∨ kw = c!":derived") ∧
      paren w = '(' :: (kw ++ x) := by
  unfold parseStructureDef at h
  rcases alt_inv h with h | ⟨_, h⟩
  · obtain ⟨_, h, _⟩ := map_ok h
    obtain ⟨x, h⟩ := map_prefix_starts h
    exact ⟨_, x, .inr (.inr rfl), h⟩
  rcases alt_inv h with h | ⟨_, h⟩
  · obtain ⟨_, h, _⟩ := map_ok h
    obtain ⟨x, h⟩ := map_prefix_starts h
    exact ⟨_, x, .inl rfl, h⟩
  rcases alt_inv h with h | ⟨_, h⟩
  · obtain ⟨_, h, _⟩ := map_ok h
    obtain ⟨x, h⟩ := map_prefix_starts h
    exact ⟨_, x, .inr (.inl rfl), h⟩
  exact absurd h (by simp [alt])

theorem structure_rank {w : List Char} {v r} (h : parseStructureDef (paren w) = .ok v r) :
    domainRank (paren w) = some 8 := by
  obtain ⟨kw, x, hk, h⟩ := structure_starts h
  rw [h]
  rcases hk with rfl | rfl | rfl <;> rfl

theorem AllRead.mem {p : P α} {fs : List (List Char)} {vs : List α} (h : AllRead p fs vs) {f}
    (hf : f ∈ fs) : ∃ v ∈ vs, p f = .ok v [] := by
  induction h with
  | nil => cases hf
  | cons h _ ih =>
    cases hf with
    | head => exact ⟨_, .head _, h⟩
    | tail _ hf =>
      obtain ⟨v, h1, h2⟩ := ih hf
      exact ⟨v, .tail _ h1, h2⟩

theorem AllRead.length {p : P α} {fs : List (List Char)} {vs : List α} (h : AllRead p fs vs) :
    fs.length = vs.length := by
  induction h with
  | nil => rfl
  | cons _ _ ih => simp [ih]

theorem Slot.mem {p : P α} {o : Option (List Char)} {d v : α} (h : Slot p o d v) {f}
    (hf : f ∈ o.toList) : p f = .ok v [] := by
  cases o with
  | none => cases hf
  | some t => simp only [Option.toList, List.mem_singleton] at hf; subst hf; exact h

theorem SlotOpt.mem {p : P α} {o : Option (List Char)} {v : Option α} (h : SlotOpt p o v) {f}
    (hf : f ∈ o.toList) : ∃ x, p f = .ok x [] ∧ v = some x := by
  cases o with
  | none => cases hf
  | some t => simp only [Option.toList, List.mem_singleton] at hf; subst hf; exact h

/-! ## C44: order, repetition, unknown sections -/

/-- The ranks of an optional section. -/
theorem rank_slot {rank : List Char → Option Nat} {o : Option (List Char)} {i : Nat}
    (h : ∀ f ∈ o.toList, rank f = some i) :
    ∃ ks : List Nat, ks.Sublist [i] ∧ o.toList.map rank = ks.map some := by
  cases o with
  | none => exact ⟨[], List.nil_sublist _, rfl⟩
  | some t => exact ⟨[i], List.Sublist.refl _, by simp [h t (by simp)]⟩

theorem rank_many {rank : List Char → Option Nat} {fs : List (List Char)} {i : Nat}
    (h : ∀ f ∈ fs, rank f = some i) : fs.map rank = (List.replicate fs.length i).map some := by
  induction fs with
  | nil => rfl
  | cons f fs ih =>
    simp only [List.map_cons, List.length_cons, List.replicate_succ]
    rw [h f (by simp), ih fun f hf => h f (by simp [hf])]

/-- The forms of an accepted domain: the name first, every section at most once and in the fixed
order, then as many structures as the result has; nothing else. -/
theorem C44_domain_order {g u r r' : List Char} {fs : List (List Char)} {d : Domain} (hg : Gap g)
    (hf : Forms fs u) (h : parseDomain (g ++ (paren (c!"define" ++ u) ++ r)) = .ok d r') :
    ∃ ks : List Nat, ks.Sublist [1, 2, 3, 4, 5, 6, 7] ∧
      fs.map domainRank = (0 :: (ks ++ List.replicate d.structure_.length 8)).map some := by
  obtain ⟨n, o1, o2, o3, o4, o5, o6, o7, st, rfl, hn, h1, h2, h3, h4, h5, h6, h7, h8⟩ :=
    C44_domain hg hf h
  have hm {f} := hf.mem (f := f)
  simp only [List.mem_cons, List.mem_append] at hm
  have key {α} {p : P α} {o : Option (List Char)} {dv v : α} {i : Nat} (hs : Slot p o dv v)
      (hmem : ∀ f ∈ o.toList, ∃ w, f = paren w)
      (hr : ∀ w, p (paren w) = .ok v [] → domainRank (paren w) = some i) :
      ∃ ks : List Nat, ks.Sublist [i] ∧ o.toList.map domainRank = ks.map some :=
    rank_slot fun f hf => by
      obtain ⟨w, rfl⟩ := hmem f hf
      exact hr w (hs.mem hf)
  obtain ⟨k1, l1, e1⟩ := key (i := 1) h1 (fun f hf => hm (by simp [hf]))
    fun w h => by obtain ⟨x, h⟩ := prefix_starts h; rw [h]; rfl
  obtain ⟨k2, l2, e2⟩ := key (i := 2) h2 (fun f hf => hm (by simp [hf]))
    fun w h => by obtain ⟨x, h⟩ := prefix_starts h; rw [h]; rfl
  obtain ⟨k3, l3, e3⟩ := key (i := 3) h3 (fun f hf => hm (by simp [hf]))
    fun w h => by obtain ⟨x, h⟩ := prefix_starts h; rw [h]; rfl
  obtain ⟨k4, l4, e4⟩ := key (i := 4) h4 (fun f hf => hm (by simp [hf]))
    fun w h => by obtain ⟨x, h⟩ := prefix_starts h; rw [h]; rfl
  obtain ⟨k5, l5, e5⟩ := key (i := 5) h5 (fun f hf => hm (by simp [hf]))
    fun w h => by obtain ⟨x, h⟩ := prefix_starts h; rw [h]; rfl
  obtain ⟨k6, l6, e6⟩ := key (i := 6) h6 (fun f hf => hm (by simp [hf]))
    fun w h => by obtain ⟨x, h⟩ := prefix_starts h; rw [h]; rfl
  obtain ⟨k7, l7, e7⟩ := key (i := 7) h7 (fun f hf => hm (by simp [hf]))
    fun w h => by obtain ⟨x, h⟩ := prefix_starts h; rw [h]; rfl
  have e8 := rank_many (rank := domainRank) (i := 8) (fs := st) fun f hf => by
    obtain ⟨w, rfl⟩ := hm (f := f) (by simp [hf])
    obtain ⟨v, _, hv⟩ := h8.mem hf
    exact structure_rank hv
  have e0 : domainRank n = some 0 := by
    obtain ⟨w, rfl⟩ := hm (f := n) (by simp)
    obtain ⟨x, h⟩ := prefix_starts hn
    rw [h]
    rfl
  refine ⟨k1 ++ (k2 ++ (k3 ++ (k4 ++ (k5 ++ (k6 ++ k7))))), ?_, ?_⟩
  · exact l1.append (l2.append (l3.append (l4.append (l5.append (l6.append l7)))))
  · simp only [List.map_cons, List.map_append, e0, e1, e2, e3, e4, e5, e6, e7, e8, h8.length,
      List.append_assoc]

/-- The forms of an accepted problem. -/
theorem C44_problem_order {g u r r' : List Char} {fs : List (List Char)} {p : Problem} (hg : Gap g)
    (hf : Forms fs u) (h : parseProblem (g ++ (paren (c!"define" ++ u) ++ r)) = .ok p r') :
    ∃ ks ls : List Nat, ks.Sublist [2, 3] ∧ ls.Sublist [6, 7, 8] ∧
      fs.map problemRank = (0 :: 1 :: (ks ++ 4 :: 5 :: ls)).map some := by
  obtain ⟨n, dom, init, goal, o2, o3, o6, o7, o8, rfl, hn, hd, h2, h3, h4, h5, h6, h7, h8⟩ :=
    C44_problem hg hf h
  have hm {f} := hf.mem (f := f)
  simp only [List.mem_cons, List.mem_append] at hm
  have key {α} {p : P α} {o : Option (List Char)} {i : Nat}
      (hs : ∀ f ∈ o.toList, ∃ v : α, p f = .ok v [])
      (hmem : ∀ f ∈ o.toList, ∃ w, f = paren w)
      (hr : ∀ w v, p (paren w) = .ok v [] → problemRank (paren w) = some i) :
      ∃ ks : List Nat, ks.Sublist [i] ∧ o.toList.map problemRank = ks.map some :=
    rank_slot fun f hf => by
      obtain ⟨w, rfl⟩ := hmem f hf
      obtain ⟨v, hv⟩ := hs _ hf
      exact hr w v hv
  obtain ⟨k2, l2, e2⟩ := key (i := 2) (fun f hf => ⟨_, h2.mem hf⟩) (fun f hf => hm (by simp [hf]))
    fun w v h => by obtain ⟨x, h⟩ := prefix_starts h; rw [h]; rfl
  obtain ⟨k3, l3, e3⟩ := key (i := 3) (fun f hf => ⟨_, h3.mem hf⟩) (fun f hf => hm (by simp [hf]))
    fun w v h => by obtain ⟨x, h⟩ := prefix_starts h; rw [h]; rfl
  obtain ⟨k6, l6, e6⟩ := key (i := 6) (fun f hf => ⟨_, h6.mem hf⟩) (fun f hf => hm (by simp [hf]))
    fun w v h => by obtain ⟨x, h⟩ := prefix_starts h; rw [h]; rfl
  obtain ⟨k7, l7, e7⟩ := key (i := 7)
    (fun f hf => let ⟨x, h, _⟩ := h7.mem hf; ⟨x, h⟩) (fun f hf => hm (by simp [hf]))
    fun w v h => by obtain ⟨x, h⟩ := map_prefix_starts h; rw [h]; rfl
  obtain ⟨k8, l8, e8⟩ := key (i := 8)
    (fun f hf => let ⟨x, h, _⟩ := h8.mem hf; ⟨x, h⟩) (fun f hf => hm (by simp [hf]))
    fun w v h => by obtain ⟨x, h⟩ := map_prefix_starts h; rw [h]; rfl
  have key1 {f} {α} {p : P α} {v : α} {i : Nat} (hp : p f = .ok v []) (hw : ∃ w, f = paren w)
      (hr : ∀ w v, p (paren w) = .ok v [] → problemRank (paren w) = some i) :
      problemRank f = some i := by
    obtain ⟨w, rfl⟩ := hw
    exact hr w v hp
  have e0 := key1 (i := 0) hn (hm (by simp))
    fun w v h => by obtain ⟨x, h⟩ := prefix_starts h; rw [h]; rfl
  have e1 := key1 (i := 1) hd (hm (by simp))
    fun w v h => by obtain ⟨x, h⟩ := prefix_starts h; rw [h]; rfl
  have e4 := key1 (i := 4) h4 (hm (by simp))
    fun w v h => by obtain ⟨x, h⟩ := prefix_starts h; rw [h]; rfl
  have e5 := key1 (i := 5) h5 (hm (by simp))
    fun w v h => by obtain ⟨x, h⟩ := prefix_starts h; rw [h]; rfl
  refine ⟨k2 ++ k3, k6 ++ (k7 ++ k8), l2.append l3, l6.append (l7.append l8), ?_⟩
  simp only [List.map_cons, List.map_append, e0, e1, e2, e3, e4, e5, e6, e7, e8, List.append_assoc]

theorem ranks_mem {rank : List Char → Option Nat} {fs : List (List Char)} {L : List Nat}
    (h : fs.map rank = L.map some) {f} (hf : f ∈ fs) : ∃ i, rank f = some i := by
  have : rank f ∈ fs.map rank := List.mem_map_of_mem hf
  rw [h, List.mem_map] at this
  obtain ⟨i, _, h⟩ := this
  exact ⟨i, h.symm⟩

theorem ranks_pair {rank : List Char → Option Nat} {R : Nat → Nat → Prop} {a b c : List (List Char)}
    {f f' : List Char} {L : List Nat} {i j : Nat}
    (h : (a ++ f :: (b ++ f' :: c)).map rank = L.map some) (hL : L.Pairwise R)
    (hi : rank f = some i) (hj : rank f' = some j) : R i j := by
  have h1 : (L.map some).Pairwise fun x y => ∀ i j, x = some i → y = some j → R i j :=
    List.pairwise_map.mpr (hL.imp fun h i j h1 h2 => by cases h1; cases h2; exact h)
  rw [← h, List.map_append, List.map_cons, List.map_append, List.map_cons] at h1
  have h2 := (List.pairwise_append.mp h1).2.1
  exact (List.pairwise_cons.mp h2).1 (rank f') (by simp) i j hi hj

/-- In a domain: in the order of the sections, each at most once; structures may be repeated. -/
def DomainBefore (i j : Nat) : Prop := i < j ∨ (i = 8 ∧ j = 8)

theorem domain_ranks_sorted {ks : List Nat} {n : Nat} (h : ks.Sublist [1, 2, 3, 4, 5, 6, 7]) :
    (0 :: (ks ++ List.replicate n 8)).Pairwise DomainBefore := by
  have hb : ∀ k ∈ ks, 1 ≤ k ∧ k ≤ 7 := fun k hk => by
    have := h.subset hk
    simp only [List.mem_cons, List.not_mem_nil, or_false] at this
    omega
  refine List.pairwise_cons.mpr ⟨fun j hj => .inl ?_, List.pairwise_append.mpr ⟨?_, ?_, ?_⟩⟩
  · rcases List.mem_append.mp hj with hj | hj
    · exact (hb j hj).1
    · rw [(List.mem_replicate.mp hj).2]; decide
  · have : [1, 2, 3, 4, 5, 6, 7].Pairwise (· < ·) := by decide
    exact (List.Pairwise.sublist h this).imp fun h => .inl h
  · exact List.pairwise_replicate.mpr (.inr (.inr ⟨rfl, rfl⟩))
  · intro i hi j hj
    rw [(List.mem_replicate.mp hj).2]
    exact .inl (by have := hb i hi; omega)

theorem problem_ranks_sorted {ks ls : List Nat} (h : ks.Sublist [2, 3]) (h' : ls.Sublist [6, 7, 8]) :
    (0 :: 1 :: (ks ++ 4 :: 5 :: ls)).Pairwise (· < ·) := by
  have : (0 :: 1 :: (ks ++ 4 :: 5 :: ls)).Sublist [0, 1, 2, 3, 4, 5, 6, 7, 8] :=
    ((h.append ((h'.cons₂ 5).cons₂ 4)).cons₂ 1).cons₂ 0
  exact List.Pairwise.sublist this (by decide)

/-- A form that is no section of a domain makes the parse fail: it is not skipped. -/
theorem C44_domain_unknown {g u r : List Char} {fs : List (List Char)} {f : List Char} (hg : Gap g)
    (hf : Forms fs u) (hm : f ∈ fs) (hk : domainRank f = none) (d : Domain) (r' : List Char) :
    parseDomain (g ++ (paren (c!"define" ++ u) ++ r)) ≠ .ok d r' := fun h => by
  obtain ⟨ks, _, he⟩ := C44_domain_order hg hf h
  obtain ⟨i, hi⟩ := ranks_mem he hm
  rw [hk] at hi
  cases hi

/-- In particular `:timeless`, which the type `Domain` has a field for. -/
theorem C44_domain_timeless {g u r w : List Char} {fs : List (List Char)} (hg : Gap g)
    (hf : Forms fs u) (hm : '(' :: (c!":timeless" ++ w) ∈ fs) (d : Domain) (r' : List Char) :
    parseDomain (g ++ (paren (c!"define" ++ u) ++ r)) ≠ .ok d r' :=
  C44_domain_unknown hg hf hm rfl d r'

/-- A section that stands before an earlier section of the fixed order, or before another one of the
same kind, makes the parse fail. -/
theorem C44_domain_misplaced {g u r : List Char} {a b c : List (List Char)} {f f' : List Char}
    {i j : Nat} (hg : Gap g) (hf : Forms (a ++ f :: (b ++ f' :: c)) u)
    (hi : domainRank f = some i) (hj : domainRank f' = some j) (hij : ¬ DomainBefore i j)
    (d : Domain) (r' : List Char) :
    parseDomain (g ++ (paren (c!"define" ++ u) ++ r)) ≠ .ok d r' := fun h => by
  obtain ⟨ks, hks, he⟩ := C44_domain_order hg hf h
  exact hij (ranks_pair he (domain_ranks_sorted hks) hi hj)

theorem C44_problem_unknown {g u r : List Char} {fs : List (List Char)} {f : List Char} (hg : Gap g)
    (hf : Forms fs u) (hm : f ∈ fs) (hk : problemRank f = none) (p : Problem) (r' : List Char) :
    parseProblem (g ++ (paren (c!"define" ++ u) ++ r)) ≠ .ok p r' := fun h => by
  obtain ⟨ks, ls, _, _, he⟩ := C44_problem_order hg hf h
  obtain ⟨i, hi⟩ := ranks_mem he hm
  rw [hk] at hi
  cases hi

theorem C44_problem_misplaced {g u r : List Char} {a b c : List (List Char)} {f f' : List Char}
    {i j : Nat} (hg : Gap g) (hf : Forms (a ++ f :: (b ++ f' :: c)) u)
    (hi : problemRank f = some i) (hj : problemRank f' = some j) (hij : j ≤ i)
    (p : Problem) (r' : List Char) :
    parseProblem (g ++ (paren (c!"define" ++ u) ++ r)) ≠ .ok p r' := fun h => by
  obtain ⟨ks, ls, h1, h2, he⟩ := C44_problem_order hg hf h
  have := ranks_pair he (problem_ranks_sorted h1 h2) hi hj
  omega

/-! ## C44: each section is present -/

/-- Whatever is written under a section's keyword is the field of the result. -/
theorem C44_domain_present {g u r r' : List Char} {fs : List (List Char)} {d : Domain}
    {f : List Char} (hg : Gap g) (hf : Forms fs u) (hm : f ∈ fs)
    (h : parseDomain (g ++ (paren (c!"define" ++ u) ++ r)) = .ok d r') :
    (domainRank f = some 0 → prefixExpr c!"domain" parseName f = .ok d.name []) ∧
    (domainRank f = some 1 →
      prefixExpr c!":extends" (spaceSeparatedList1 parseName) f = .ok d.extends_ []) ∧
    (domainRank f = some 2 → parseRequireDef f = .ok d.requirements []) ∧
    (domainRank f = some 3 → parseTypesDef f = .ok d.types []) ∧
    (domainRank f = some 4 → parseConstantsDef f = .ok d.constants []) ∧
    (domainRank f = some 5 → parsePredicatesDef f = .ok d.predicates []) ∧
    (domainRank f = some 6 → parseFunctionsDef f = .ok d.functions []) ∧
    (domainRank f = some 7 → parseDomainConstraintsDef f = .ok d.constraints []) ∧
    (domainRank f = some 8 → ∃ x ∈ d.structure_, parseStructureDef f = .ok x []) := by
  obtain ⟨n, o1, o2, o3, o4, o5, o6, o7, st, rfl, hn, h1, h2, h3, h4, h5, h6, h7, h8⟩ :=
    C44_domain hg hf h
  obtain ⟨w, rfl⟩ := hf.mem hm
  simp only [List.mem_cons, List.mem_append] at hm
  have done {α} {p : P α} {v : α} {i : Nat} (hp : p (paren w) = .ok v [])
      (hr : p (paren w) = .ok v [] → domainRank (paren w) = some i) :
      domainRank (paren w) = some i := hr hp
  rcases hm with rfl | hm | hm | hm | hm | hm | hm | hm | hm
  · have := done hn fun h => by obtain ⟨x, h⟩ := prefix_starts h; rw [h]; rfl
    simp [this, hn]
  · have hx := h1.mem hm
    have := done hx fun h => by obtain ⟨x, h⟩ := prefix_starts h; rw [h]; rfl
    simp [this, hx]
  · have hx := h2.mem hm
    have := done hx fun h => by obtain ⟨x, h⟩ := prefix_starts h; rw [h]; rfl
    simp [this, hx]
  · have hx := h3.mem hm
    have := done hx fun h => by obtain ⟨x, h⟩ := prefix_starts h; rw [h]; rfl
    simp [this, hx]
  · have hx := h4.mem hm
    have := done hx fun h => by obtain ⟨x, h⟩ := prefix_starts h; rw [h]; rfl
    simp [this, hx]
  · have hx := h5.mem hm
    have := done hx fun h => by obtain ⟨x, h⟩ := prefix_starts h; rw [h]; rfl
    simp [this, hx]
  · have hx := h6.mem hm
    have := done hx fun h => by obtain ⟨x, h⟩ := prefix_starts h; rw [h]; rfl
    simp [this, hx]
  · have hx := h7.mem hm
    have := done hx fun h => by obtain ⟨x, h⟩ := prefix_starts h; rw [h]; rfl
    simp [this, hx]
  · obtain ⟨v, hv, hx⟩ := h8.mem hm
    have := structure_rank hx
    simp [this, hx, hv]

theorem C44_problem_present {g u r r' : List Char} {fs : List (List Char)} {d : Problem}
    {f : List Char} (hg : Gap g) (hf : Forms fs u) (hm : f ∈ fs)
    (h : parseProblem (g ++ (paren (c!"define" ++ u) ++ r)) = .ok d r') :
    (problemRank f = some 0 → prefixExpr c!"problem" parseName f = .ok d.name []) ∧
    (problemRank f = some 1 → prefixExpr c!":domain" parseName f = .ok d.domain []) ∧
    (problemRank f = some 2 → parseRequireDef f = .ok d.requires []) ∧
    (problemRank f = some 3 → parseProblemObjectsDeclaration f = .ok d.objects []) ∧
    (problemRank f = some 4 → parseProblemInitDef f = .ok d.init []) ∧
    (problemRank f = some 5 → parseProblemGoalDef f = .ok d.goal []) ∧
    (problemRank f = some 6 → parseProblemConstraintsDef f = .ok d.constraints []) ∧
    (problemRank f = some 7 → ∃ x, d.metricSpec = some x ∧ parseProblemMetricSpec f = .ok x []) ∧
    (problemRank f = some 8 → ∃ x, d.lengthSpec = some x ∧ parseProblemLengthSpec f = .ok x []) := by
  obtain ⟨n, dom, init, goal, o2, o3, o6, o7, o8, rfl, hn, hd, h2, h3, h4, h5, h6, h7, h8⟩ :=
    C44_problem hg hf h
  obtain ⟨w, rfl⟩ := hf.mem hm
  simp only [List.mem_cons, List.mem_append] at hm
  have done {α} {p : P α} {v : α} {i : Nat} (hp : p (paren w) = .ok v [])
      (hr : p (paren w) = .ok v [] → problemRank (paren w) = some i) :
      problemRank (paren w) = some i := hr hp
  rcases hm with rfl | rfl | hm | hm | rfl | rfl | hm | hm | hm
  · have := done hn fun h => by obtain ⟨x, h⟩ := prefix_starts h; rw [h]; rfl
    simp [this, hn]
  · have := done hd fun h => by obtain ⟨x, h⟩ := prefix_starts h; rw [h]; rfl
    simp [this, hd]
  · have hx := h2.mem hm
    have := done hx fun h => by obtain ⟨x, h⟩ := prefix_starts h; rw [h]; rfl
    simp [this, hx]
  · have hx := h3.mem hm
    have := done hx fun h => by obtain ⟨x, h⟩ := prefix_starts h; rw [h]; rfl
    simp [this, hx]
  · have := done h4 fun h => by obtain ⟨x, h⟩ := prefix_starts h; rw [h]; rfl
    simp [this, h4]
  · have := done h5 fun h => by obtain ⟨x, h⟩ := prefix_starts h; rw [h]; rfl
    simp [this, h5]
  · have hx := h6.mem hm
    have := done hx fun h => by obtain ⟨x, h⟩ := prefix_starts h; rw [h]; rfl
    simp [this, hx]
  · obtain ⟨v, hx, hv⟩ := h7.mem hm
    have := done hx fun h => by obtain ⟨x, h⟩ := map_prefix_starts h; rw [h]; rfl
    simp [this, hx, hv]
  · obtain ⟨v, hx, hv⟩ := h8.mem hm
    have := done hx fun h => by obtain ⟨x, h⟩ := map_prefix_starts h; rw [h]; rfl
    simp [this, hx, hv]

/-! ## Concrete cases -/

/-- Three sections in order are accepted, and the list of forms is what one expects. -/
example : Forms [c!"(domain d)", c!"(:types a)", c!"(:predicates (p))"]
    c!" (domain d) (:types a) (:predicates (p))" := by
  have h1 : Form c!"(domain d)" := ⟨c!"domain d", rfl, .of_kw (by decide)⟩
  have h2 : Form c!"(:types a)" := ⟨c!":types a", rfl, .of_kw (by decide)⟩
  have h3 : Form c!"(:predicates (p))" := ⟨c!":predicates (p)", rfl,
    (Bal.of_kw (u := c!":predicates ") (by decide)).append
      (Bal.paren (.of_kw (u := c!"p") (by decide)))⟩
  have sp : Gap c!" " := .space (by decide) .nil
  exact ((Forms.one h1).gap sp).append (((Forms.one h2).gap sp).append ((Forms.one h3).gap sp))
example : ∃ d, parseDomain c!"(define (domain d) (:types a) (:predicates (p)))" = .ok d [] :=
  ⟨_, rfl⟩
/-- The same sections in the other order, a repeated and an unknown section. -/
example : ¬ ∃ d r, parseDomain c!"(define (domain d) (:predicates (p)) (:types a))" = .ok d r :=
  fun ⟨_, _, h⟩ => nomatch h
example : domainRank c!"(:predicates (p))" = some 5 ∧ domainRank c!"(:types a)" = some 3 ∧
    domainRank c!"(:typing a)" = none ∧ domainRank c!"(:timeless (p))" = none := by decide

end Pddl
