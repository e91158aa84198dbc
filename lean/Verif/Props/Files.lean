import Verif.Props.ReadBack
import Verif.Props.Accept
import Verif.Props.Sections

/-!
# C66, C67: several definitions in one text; keywords in capitals
-/

namespace Pddl

/-! ## C66: reading one definition after another -/

/-- A definition in a file. -/
inductive Definition
  | dom (d : Domain)
  | prob (p : Problem)

/-- The definitions a program gets that calls the parsers again and again on what they left over,
until only layout is left. -/
inductive ReadsAll : List Definition → List Char → Prop
  | nil {s} : GapEnd s → ReadsAll [] s
  | dom {s d r xs} : parseDomain s = .ok d r → ReadsAll xs r → ReadsAll (.dom d :: xs) s
  | prob {s p r xs} : parseProblem s = .ok p r → ReadsAll xs r → ReadsAll (.prob p :: xs) s

/-- A file that is well written: layout, definitions with layout between them. -/
inductive FileW : List Definition → List Char → Prop
  | nil {g} : GapEnd g → FileW [] g
  | dom {g d t xs u} : Gap g → DomainW .strict d t → FileW xs u → FileW (.dom d :: xs) (g ++ (t ++ u))
  | prob {g p t xs u} : Gap g → ProblemW .strict p t → FileW xs u →
      FileW (.prob p :: xs) (g ++ (t ++ u))

/-- Layout at the end of a text that is followed by a line end is layout. -/
theorem GapEnd.line {g : List Char} (h : GapEnd g) {n : Char} (hn : isNewline n = true) :
    Gap (g ++ [n]) := by
  have hb : isBlank n = true := isNewline_isSpace hn
  cases h with
  | gap h => exact h.append (.space hb .nil)
  | @comment g b body h h1 h2 =>
    have := h.append (Gap.comment h1 h2 hn .nil)
    simpa using this

theorem skip_gapEnd {g : List Char} (h : GapEnd g) : skip g = [] := by
  cases h with
  | gap h => simpa [skip_nil] using h.skip []
  | @comment g b body h h1 h2 =>
    rw [h.skip, skip_semicolon]
    have := skip_comment_end (r := []) h1 h2 (by simp)
    rw [List.append_nil] at this
    exact this

theorem GapEnd.of_skip {s : List Char} (h : skip s = []) : GapEnd s := by
  obtain ⟨g, h1, h2, _⟩ := skip_spec s
  rw [h, List.append_nil] at h1
  exact h1 ▸ h2

/-- Layout before a line end may be taken away first. -/
theorem skip_line (y : List Char) {n : Char} (hn : isNewline n = true) (t : List Char) :
    skip (skip y ++ n :: t) = skip (y ++ n :: t) := by
  obtain ⟨g, h1, h2, h3⟩ := skip_spec y
  by_cases h : skip y = []
  · rw [h, List.append_nil] at h1
    rw [h]
    have := (h2.line hn).skip t
    rw [← h1, List.append_assoc] at this
    simp only [List.cons_append, List.nil_append] at this ⊢
    rw [this, skip_space (isNewline_isSpace hn)]
  · have := (h3 h).skip (skip y ++ n :: t)
    rw [← List.append_assoc, ← h1] at this
    exact this.symm

theorem ws2_eq {α : Type} (p : P α) (s : List Char) :
    ws2 p s = (p (skip s)).bind fun a y => .ok a (skip y) := by
  have hx : ∀ s, preceded multispace0 ignoreEolComment s = .ok () (skip s) := by
    intro s
    simp only [preceded, multispace0, takeWhile0, Res.bind, eol_eq, skip]
  unfold ws2 delimited
  rw [preceded, hx]
  simp only [Res.bind, terminated]
  cases p (skip s) with
  | ok a r => simp only; rw [hx]
  | _ => rfl

/-- Layout in front of a definition does not matter. -/
theorem parseDomain_skip (s : List Char) : parseDomain (skip s) = parseDomain s := by
  unfold parseDomain map
  rw [ws2_eq, ws2_eq, skip_skip]

theorem parseProblem_skip (s : List Char) : parseProblem (skip s) = parseProblem s := by
  unfold parseProblem map
  rw [ws2_eq, ws2_eq, skip_skip]

theorem ReadsAll.skip_iff {xs : List Definition} {s : List Char} :
    ReadsAll xs (skip s) ↔ ReadsAll xs s := by
  constructor
  · intro h
    cases h with
    | nil h => exact .nil (.of_skip (by rw [← skip_skip]; exact skip_gapEnd h))
    | dom h h' => exact .dom (by rwa [parseDomain_skip] at h) h'
    | prob h h' => exact .prob (by rwa [parseProblem_skip] at h) h'
  · intro h
    cases h with
    | nil h => exact .nil (by rw [skip_gapEnd h]; exact .gap .nil)
    | dom h h' => exact .dom (by rwa [parseDomain_skip]) h'
    | prob h h' => exact .prob (by rwa [parseProblem_skip]) h'

/-- What is left over is what follows the definition, without the layout. -/
def FileTail {α : Type} (p : P α) : Prop :=
  ∀ s v r, p s = .ok v r → ∃ x y, s = x ++ y ∧ r = skip y ∧ ∀ y', p (x ++ y') = .ok v (skip y')

theorem file_rest {α β : Type} {p : P α} {f : α → β} {R : β → List Char → Prop}
    (h : Snd NE Gap p (fun x t => ∀ g1 g2, Gap g1 → Gap g2 →
      R (f x) (paren (c!"define" ++ (g1 ++ (t ++ g2)))))) (hl : Tl p) (hf : ∀ v t, R v t → Form t) :
    FileTail (map f (ws2 (prefixExpr c!"define" p))) := by
  intro s d r hs
  obtain ⟨x, h1, rfl⟩ := map_ok hs
  obtain ⟨y, h2, rfl⟩ := ws2_inv h1
  rw [prefixExpr_skip] at h2
  obtain ⟨g, t, rfl, hg, g1, u, g2, rfl, h3, h4, h5⟩ :=
    Snd.prefixExpr (F := Any) h (fun _ => id) _ _ _ h2 trivial
  have hform := hf _ _ (h4 g1 g2 h3 h5)
  refine ⟨g ++ _, y, (List.append_assoc ..).symm, rfl, fun y' => ?_⟩
  obtain ⟨u', e, hu'⟩ := hform
  rw [e] at h2 ⊢
  have h6 := (Loc.prefixExpr (kw := c!"define") hl).ok hg hu' h2 y'
  rw [← prefixExpr_skip, hg.skip_solid ((solid_paren _).append y')] at h6
  rw [List.append_assoc]
  exact map_run (ws2_run hg (solid_paren _) h6)

theorem parseDomain_rest : FileTail parseDomain :=
  file_rest domainParts_snd domainParts_tl fun _ _ h => h.form
theorem parseProblem_rest : FileTail parseProblem :=
  file_rest problemParts_snd problemParts_tl fun _ _ h => h.form

theorem FileTail.line {α : Type} {p : P α} (h : FileTail p) {s v r} (hs : p s = .ok v r) {n : Char}
    (hn : isNewline n = true) (t : List Char) :
    p (s ++ n :: t) = .ok v (skip (r ++ n :: t)) := by
  obtain ⟨x, y, rfl, rfl, h1⟩ := h _ _ _ hs
  rw [List.append_assoc, h1, skip_line y hn]

/-- C66: the definitions of a well written file are read one after another. -/
theorem C66_files {xs : List Definition} {s : List Char} (h : FileW xs s) : ReadsAll xs s := by
  induction h with
  | nil h => exact .nil h
  | dom hg hd _ ih => exact .dom (C24_domains hd hg _) (ReadsAll.skip_iff.mpr ih)
  | prob hg hp _ ih => exact .prob (C25_problems hp hg _) (ReadsAll.skip_iff.mpr ih)

/-- C66: two texts joined with a line end between them give the definitions of the first and then
those of the second. The texts need not be well written, only accepted. -/
theorem C66_concat {xs ys : List Definition} {s t : List Char} (hs : ReadsAll xs s)
    (ht : ReadsAll ys t) : ReadsAll (xs ++ ys) (s ++ '\n' :: t) := by
  induction hs with
  | nil h =>
    rw [← ReadsAll.skip_iff] at ht ⊢
    have := (h.line (n := '\n') rfl).skip t
    rw [List.append_assoc] at this
    simp only [List.cons_append, List.nil_append] at this ⊢
    rwa [this]
  | dom h _ ih =>
    exact .dom (parseDomain_rest.line h rfl t) (ReadsAll.skip_iff.mpr ih)
  | prob h _ ih =>
    exact .prob (parseProblem_rest.line h rfl t) (ReadsAll.skip_iff.mpr ih)

theorem define_inv {α β : Type} {p : P α} {f : α → β} {s : List Char} {v : β} {r : List Char}
    (h : map f (ws2 (prefixExpr c!"define" p)) s = .ok v r) :
    ∃ x a y, skip s = '(' :: (c!"define" ++ x) ∧ p (skip x) = .ok a y := by
  obtain ⟨a, h1, _⟩ := map_ok h
  obtain ⟨_, h2, _⟩ := ws2_inv h1
  obtain ⟨g, x, y, h3, hg, h4, _⟩ := prefixExpr_inv h2
  refine ⟨x, a, y, ?_, h4⟩
  rw [← skip_skip, h3, hg.skip_solid (solid_open _)]

theorem ws2_miss {α : Type} {p : P α} {s : List Char} (h : p (skip s) = .err) : ws2 p s = .err := by
  rw [ws2_eq, h]; rfl

theorem define_err {α β : Type} {p : P α} {f : α → β} {s x : List Char}
    (hs : skip s = '(' :: (c!"define" ++ x)) (h : p (skip x) = .err) :
    map f (ws2 (prefixExpr c!"define" p)) s = .err := by
  refine map_err (ws2_miss ?_)
  rw [hs, prefixExpr_open, stripPrefix_append]
  simp [h, Res.bind]

/-- A domain is introduced by `(define (domain`. -/
theorem parseDomain_head {s : List Char} {d : Domain} {r : List Char} (h : parseDomain s = .ok d r) :
    ∃ x y, skip s = '(' :: (c!"define" ++ x) ∧ skip x = '(' :: (c!"domain" ++ y) := by
  obtain ⟨x, a, y, h1, h2⟩ := define_inv h
  obtain ⟨_, h3, _⟩ := pair_ok h2
  obtain ⟨g, x', _, h4, hg, _⟩ := prefixExpr_inv h3
  exact ⟨x, x', h1, by rw [← skip_skip, h4, hg.skip_solid (solid_open _)]⟩

theorem parseProblem_head {s : List Char} {d : Problem} {r : List Char}
    (h : parseProblem s = .ok d r) :
    ∃ x y, skip s = '(' :: (c!"define" ++ x) ∧ skip x = '(' :: (c!"problem" ++ y) := by
  obtain ⟨x, a, y, h1, h2⟩ := define_inv h
  obtain ⟨_, h3, _⟩ := pair_ok h2
  obtain ⟨g, x', _, h4, hg, _⟩ := prefixExpr_inv h3
  exact ⟨x, x', h1, by rw [← skip_skip, h4, hg.skip_solid (solid_open _)]⟩

/-- C66: a text that is accepted as a domain is refused as a problem, without a failure that would
keep `alt` from trying the other parser, -/
theorem C66_not_problem {s : List Char} {d : Domain} {r : List Char} (h : parseDomain s = .ok d r) :
    parseProblem s = .err := by
  obtain ⟨x, y, h1, h2⟩ := parseDomain_head h
  refine define_err h1 (pair_err ?_)
  rw [h2]
  exact prefixExpr_kw (stripPrefix_head (by decide))

/-- and the other way round. -/
theorem C66_not_domain {s : List Char} {p : Problem} {r : List Char} (h : parseProblem s = .ok p r) :
    parseDomain s = .err := by
  obtain ⟨x, y, h1, h2⟩ := parseProblem_head h
  refine define_err h1 (pair_err ?_)
  rw [h2]
  exact prefixExpr_kw (stripPrefix_head (by decide))

theorem not_ok_of_gapEnd {s : List Char} (h : GapEnd s) :
    (∀ d r, parseDomain s ≠ .ok d r) ∧ (∀ p r, parseProblem s ≠ .ok p r) := by
  constructor
  · intro d r hd
    obtain ⟨_, _, h1, _⟩ := parseDomain_head hd
    rw [skip_gapEnd h] at h1; cases h1
  · intro d r hd
    obtain ⟨_, _, h1, _⟩ := parseProblem_head hd
    rw [skip_gapEnd h] at h1; cases h1

/-- C66: a text contains one sequence of definitions; it does not matter in which order a program
tries the two parsers. -/
theorem C66_unique {xs ys : List Definition} {s : List Char} (h : ReadsAll xs s)
    (h' : ReadsAll ys s) : xs = ys := by
  induction h generalizing ys with
  | nil h =>
    cases h' with
    | nil _ => rfl
    | dom h1 _ => exact absurd h1 ((not_ok_of_gapEnd h).1 _ _)
    | prob h1 _ => exact absurd h1 ((not_ok_of_gapEnd h).2 _ _)
  | dom h _ ih =>
    cases h' with
    | nil h1 => exact absurd h ((not_ok_of_gapEnd h1).1 _ _)
    | dom h1 h2 =>
      rw [h] at h1
      cases h1
      rw [ih h2]
    | prob h1 _ => rw [C66_not_problem h] at h1; cases h1
  | prob h _ ih =>
    cases h' with
    | nil h1 => exact absurd h ((not_ok_of_gapEnd h1).2 _ _)
    | dom h1 _ => rw [C66_not_domain h] at h1; cases h1
    | prob h1 h2 =>
      rw [h] at h1
      cases h1
      rw [ih h2]

/-- C66: the line end between the texts is needed: after a comment at the end of the first text the
second one, if it is written in one line, disappears without an error. -/
theorem C66_line_end {d : Domain} {s : List Char} (h : DomainW .strict d s) {b : Char}
    {body t : List Char} (hb : isNewline b = false) (h1 : ∀ c ∈ body, isNewline c = false)
    (h2 : ∀ c ∈ t, isNewline c = false) :
    ReadsAll [.dom d] ((s ++ ';' :: b :: body) ++ t) := by
  have := C24_domains h .nil (';' :: b :: body ++ t)
  simp only [List.nil_append] at this
  rw [List.append_assoc]
  refine .dom this ?_
  rw [ReadsAll.skip_iff]
  refine .nil (.comment .nil hb fun c hc => ?_)
  rcases List.mem_append.mp hc with hc | hc
  · exact h1 c hc
  · exact h2 c hc

/-- C66: `from_str` looks at the first definition only and does not report the others. -/
theorem C66_from_str {xs : List Definition} {s : List Char} :
    (∀ d, ReadsAll (.dom d :: xs) s → fromStr parseDomain s = some d) ∧
    (∀ p, ReadsAll (.prob p :: xs) s → fromStr parseProblem s = some p) := by
  constructor
  · intro d h
    cases h with
    | dom h _ => rw [fromStr, h]
  · intro d h
    cases h with
    | prob h _ => rw [fromStr, h]

/-- A file with a domain, a comment and a problem. -/
example : FileW [.dom Ex.domain, .prob Ex.problem]
    (c!"; both\n" ++ (Ex.domain.print ++ (c!"\n" ++ (Ex.problem.print ++ c!" ; end")))) :=
  .dom (.comment (b := ' ') (body := c!"both") (n := '\n') (by decide) (by decide) (by decide) .nil)
    (Domain.print_w (by decide +kernel))
    (.prob (.space (by decide) .nil) (Problem.print_w (by decide +kernel))
      (.nil (.comment (g := c!" ") (b := ' ') (body := c!"end") (.space (by decide) .nil) (by decide)
        (by decide))))

/-- Two accepted texts, the first with a comment at its end. -/
example : (∃ d, ReadsAll [.dom d] c!"(define (domain d)) ;x") ∧
    (∃ p, ReadsAll [.prob p] c!"(define (problem p) (:domain d) (:init) (:goal (g)))") ∧
    ∃ d, ReadsAll [.dom d] (c!"(define (domain d)) ;x" ++
      c!"(define (problem p) (:domain d) (:init) (:goal (g)))") :=
  ⟨⟨_, .dom rfl (.nil (.gap .nil))⟩, ⟨_, .prob rfl (.nil (.gap .nil))⟩, ⟨_, .dom rfl (.nil (.gap .nil))⟩⟩

/-! ## C67: the case of keywords -/

/-- The word is the keyword, written with some letters in capitals. -/
def Recased (kw w : List Char) : Prop := w.map Char.toLower = kw ∧ w ≠ kw

/-- No keyword in small letters stands where another one was written in capitals, except one that is
shorter. -/
theorem Recased.prefix {kw w : List Char} (h : Recased kw w) {k x : List Char}
    (hk : k.map Char.toLower = k) (hp : k <+: w ++ x) : k <+: kw ∧ k ≠ kw := by
  have h1 : k <+: w := by
    rcases List.prefix_or_prefix_of_prefix hp (List.prefix_append w x) with h1 | ⟨y, rfl⟩
    · exact h1
    · exfalso
      rw [List.map_append] at hk
      exact h.2 (by rw [← h.1, (List.append_inj hk (by simp)).1])
  refine ⟨?_, ?_⟩
  · obtain ⟨y, rfl⟩ := h1
    exact ⟨y.map Char.toLower, by rw [← h.1, List.map_append, hk]⟩
  · rintro rfl
    obtain ⟨y, rfl⟩ := h1
    have := h.1
    rw [List.map_append, hk] at this
    have hy : y.map Char.toLower = [] := List.append_right_eq_self.mp this
    rw [List.map_eq_nil_iff] at hy
    exact h.2 (by rw [hy, List.append_nil])

theorem Recased.strip {kw w : List Char} (h : Recased kw w) (hk : kw.map Char.toLower = kw)
    (x : List Char) : stripPrefix kw (w ++ x) = none := by
  cases hs : stripPrefix kw (w ++ x) with
  | none => rfl
  | some y => exact absurd rfl (h.prefix hk ⟨y, (Good.stripPrefix_eq hs).symm⟩).2

/-- C67: neither parser accepts a text that begins with `define` in another case. -/
theorem C67_define {g w : List Char} (hg : Gap g) (hw : Recased c!"define" w) (x : List Char) :
    parseDomain (g ++ '(' :: (w ++ x)) = .err ∧ parseProblem (g ++ '(' :: (w ++ x)) = .err := by
  have key {α β} (f : α → β) (p : P α) :
      map f (ws2 (prefixExpr c!"define" p)) (g ++ '(' :: (w ++ x)) = .err := by
    refine map_err (ws2_miss ?_)
    rw [hg.skip_solid (solid_open _)]
    exact prefixExpr_kw (hw.strip (by decide) x)
  exact ⟨key _ _, key _ _⟩

/-- The keywords of the sections of a domain. -/
def domainWords : List (List Char) :=
  [c!"domain", c!":extends", c!":requirements", c!":types", c!":constants", c!":predicates",
    c!":functions", c!":constraints", c!":action", c!":durative-action", c!":derived"]

/-- The keywords of the sections of a problem. -/
def problemWords : List (List Char) :=
  [c!"problem", c!":domain", c!":requirements", c!":objects", c!":init", c!":goal", c!":constraints",
    c!":metric", c!":length"]

theorem Recased.startsWith {ks : List (List Char)} (hl : ∀ k ∈ ks, k.map Char.toLower = k)
    (hd : ∀ k ∈ ks, ∀ k' ∈ ks, k <+: k' → k = k') {kw w : List Char} (hkw : kw ∈ ks)
    (h : Recased kw w) (x : List Char) {k : List Char} (hk : k ∈ ks) :
    startsWith k ('(' :: (w ++ x)) = false := by
  cases hs : Pddl.startsWith k ('(' :: (w ++ x)) with
  | false => rfl
  | true =>
    exfalso
    have h1 := List.isPrefixOf_iff_prefix.mp hs
    have h2 : k <+: w ++ x := (List.cons_prefix_cons.mp h1).2
    obtain ⟨h3, h4⟩ := h.prefix (hl k hk) h2
    exact h4 (hd k hk kw hkw h3)

/-- C67: a domain with a section whose keyword is written in another case is not accepted, whatever
the section contains and wherever it stands. -/
theorem C67_domain_sections {g u r : List Char} {fs : List (List Char)} (hg : Gap g)
    (hf : Forms fs u) {kw w x : List Char} (hk : kw ∈ domainWords) (hw : Recased kw w)
    (hm : '(' :: (w ++ x) ∈ fs) (d : Domain) (r' : List Char) :
    parseDomain (g ++ (paren (c!"define" ++ u) ++ r)) ≠ .ok d r' := by
  refine C44_domain_unknown hg hf hm ?_ d r'
  have key {k} := Recased.startsWith (ks := domainWords) (by decide) (by decide) hk hw x (k := k)
  unfold domainRank
  rw [key (by decide), key (by decide), key (by decide), key (by decide), key (by decide),
    key (by decide), key (by decide), key (by decide), key (by decide), key (by decide),
    key (by decide)]
  rfl

theorem C67_problem_sections {g u r : List Char} {fs : List (List Char)} (hg : Gap g)
    (hf : Forms fs u) {kw w x : List Char} (hk : kw ∈ problemWords) (hw : Recased kw w)
    (hm : '(' :: (w ++ x) ∈ fs) (p : Problem) (r' : List Char) :
    parseProblem (g ++ (paren (c!"define" ++ u) ++ r)) ≠ .ok p r' := by
  refine C44_problem_unknown hg hf hm ?_ p r'
  have key {k} := Recased.startsWith (ks := problemWords) (by decide) (by decide) hk hw x (k := k)
  unfold problemRank
  rw [key (by decide), key (by decide), key (by decide), key (by decide), key (by decide),
    key (by decide), key (by decide), key (by decide), key (by decide)]
  rfl

/-- The atom of a goal that is written like this function term. -/
def FunctionTerm.atom (f : FunctionTerm) : AtomicFormula Term := .predicate f.symbol f.terms

/-- The same text as a term. -/
def FunctionTerm.term (f : FunctionTerm) : Term := .fn f.symbol f.terms

theorem FnTermW.atom {m : Mode} {f : FunctionTerm} {t : List Char} (h : FnTermW m f t) :
    AtomW m (TermW m) f.atom t := by
  cases h with
  | mk h1 h2 h3 => exact .predicate h1 h2 h3

theorem FnTermW.term {m : Mode} {f : FunctionTerm} {t : List Char} (h : FnTermW m f t) :
    TermW m f.term t := by
  cases h with
  | mk h1 h2 h3 => exact .fn h1 h2 h3

theorem Items.image {α β : Type} {R : α → List Char → Prop} {S : β → List Char → Prop} {f : α → β}
    {as : List α} {u : List Char} (h : Items R as u) (hf : ∀ a ∈ as, ∀ t, R a t → S (f a) t) :
    Items S (as.map f) u := by
  induction h with
  | one h => exact .one (hf _ (by simp) _ h)
  | cons h hg _ ih =>
    exact .cons (hf _ (by simp) _ h) hg (ih fun a ha => hf a (by simp [ha]))

theorem Recased.not_mem {ks : List (List Char)} (hl : ∀ k ∈ ks, k.map Char.toLower = k)
    {kw w : List Char} (h : Recased kw w) : w ∉ ks := fun hw => h.2 (by rw [← h.1, hl w hw])

/-- C67: a conjunction, disjunction or negation of atoms with its keyword in capitals is accepted
and silently becomes something else: an atom with a predicate of that name, whose arguments are the
atoms, read as terms. -/
theorem C67_goals {fs : List FunctionTerm} {g u : List Char} (hg : Sep g)
    (hu : Items (FnTermW .strict) fs u) {kw w : List Char} (_ : kw ∈ goalWords)
    (hw : Recased kw w) (hword : IsWord w) (r : List Char) :
    parseGd (paren (w ++ (g ++ u)) ++ r) =
      .ok (.atomic (.predicate (wordName w) (fs.map FunctionTerm.term))) r := by
  have h1 : Sec Mode.strict.word Mode.strict.tight (Items (TermW .strict))
      (fs.map FunctionTerm.term) (g ++ (u ++ [])) := .cons hg (hu.image fun _ _ _ h => h.term) rfl
  rw [List.append_nil] at h1
  refine C15_goals (.atomic (.predicate (g := []) .nil ⟨hword, rfl⟩ h1) fun _ => ?_) r
  show (wordName w).text ∉ goalWords
  rw [wordName_eq, Name.text_new]
  exact hw.not_mem (by decide)

/-- C67: with the keyword in small letters the same text is the conjunction of the atoms. -/
theorem C67_goals_lower {fs : List FunctionTerm} {g u : List Char} (hg : Gap g)
    (hu : Items (FnTermW .strict) fs u) (hn : ∀ f ∈ fs, f.symbol.text ∉ goalWords) (r : List Char) :
    parseGd (paren (c!"and" ++ (g ++ u)) ++ r) =
      .ok (.and (fs.map fun f => .atomic f.atom)) r := by
  have h1 : Sec Gap Gap (Items (GDW .strict)) (fs.map fun f => GD.atomic f.atom) (g ++ (u ++ [])) :=
    .cons hg (hu.image fun f hf _ h => .atomic h.atom fun _ => hn f hf) .nil
  rw [List.append_nil] at h1
  exact C15_goals (.and h1) r

/-- C67: the same for effects: `(NOT (p))` does not delete the fact `(p)` but adds a fact. -/
theorem C67_effects {fs : List FunctionTerm} {g u : List Char} (hg : Sep g)
    (hu : Items (FnTermW .strict) fs u) {kw w : List Char} (_ : kw ∈ effectWords)
    (hw : Recased kw w) (hword : IsWord w) (r : List Char) :
    parseEffect (paren (w ++ (g ++ u)) ++ r) =
      .ok [.effect (.atomic (.predicate (wordName w) (fs.map FunctionTerm.term)))] r := by
  have h1 : Sec Mode.strict.word Mode.strict.tight (Items (TermW .strict))
      (fs.map FunctionTerm.term) (g ++ (u ++ [])) := .cons hg (hu.image fun _ _ _ h => h.term) rfl
  rw [List.append_nil] at h1
  refine C17_effects (.single (.effect (.atomic (.predicate (g := []) .nil ⟨hword, rfl⟩ h1)
    fun _ => ?_))) r
  show (wordName w).text ∉ effectWords
  rw [wordName_eq, Name.text_new]
  exact hw.not_mem (by decide)

/-- C67: names that differ only in the case of a letter are read as different names. -/
theorem C67_names {w w' r r' : List Char} (h : IsWord w) (h' : IsWord w') (hr : Stop r)
    (hr' : Stop r') (hne : w ≠ w') :
    ∃ n n', parseName (w ++ r) = .ok n r ∧ parseName (w' ++ r') = .ok n' r' ∧ n ≠ n' := by
  refine ⟨Name.new w, Name.new w', parseName_word h hr.word, parseName_word h' hr'.word, fun he => ?_⟩
  have := congrArg Name.text he
  rw [Name.text_new, Name.text_new] at this
  exact hne this

/-- C67: the claim is false. -/
theorem C67_false : ¬ ∀ s s' : List Char, s.map Char.toLower = s'.map Char.toLower →
    ((∃ d r, parseDomain s = .ok d r) ↔ ∃ d r, parseDomain s' = .ok d r) := by
  intro h
  obtain ⟨d, r, hd⟩ := (h c!"(define (domain d))" c!"(DEFINE (domain d))" (by decide)).mp ⟨_, _, rfl⟩
  cases hd

theorem toLower_toNat (c : Char) : c.toLower.toNat =
    if 65 ≤ c.toNat ∧ c.toNat ≤ 90 then c.toNat + 32 else c.toNat := by
  have e1 : c.val ≥ 'A'.val ↔ 65 ≤ c.toNat := by
    rw [ge_iff_le, UInt32.le_iff_toNat_le]; rfl
  have e2 : c.val ≤ 'Z'.val ↔ c.toNat ≤ 90 := by
    rw [UInt32.le_iff_toNat_le]; rfl
  unfold Char.toLower
  split
  · rename_i h
    have h' := And.intro (e1.mp h.1) (e2.mp h.2)
    rw [if_pos h']
    show (c.val + ('a'.val - 'A'.val)).toNat = c.val.toNat + 32
    rw [UInt32.toNat_add]
    have : ('a'.val - 'A'.val).toNat = 32 := by decide
    rw [this]
    have : c.val.toNat ≤ 90 := h'.2
    omega
  · rename_i h
    rw [if_neg fun h' => h ⟨e1.mpr h'.1, e2.mpr h'.2⟩]

theorem isLetter_toLower (c : Char) : isLetter c.toLower = isLetter c := by
  rw [Bool.eq_iff_iff]
  simp only [isLetter, toLower_toNat, Bool.or_eq_true, Bool.and_eq_true, decide_eq_true_eq]
  split <;> omega

theorem isWordChar_toLower (c : Char) : isWordChar c.toLower = isWordChar c := by
  by_cases h : 65 ≤ c.toNat ∧ c.toNat ≤ 90
  · have h1 : isLetter c = true := by simp [isLetter, h]
    simp [isWordChar, isLetter_toLower, h1]
  · have : c.toLower = c := by
      apply Char.toNat_inj.mp
      rw [toLower_toNat, if_neg h]
    rw [this]

theorem IsWord.lower {w : List Char} : IsWord (w.map Char.toLower) ↔ IsWord w := by
  constructor
  · rintro ⟨c, cs, h, h1, h2⟩
    cases w with
    | nil => cases h
    | cons d ds =>
      cases h
      refine ⟨d, ds, rfl, by rwa [isLetter_toLower] at h1, fun e he => ?_⟩
      rw [← isWordChar_toLower]
      exact h2 _ (List.mem_map_of_mem he)
  · rintro ⟨c, cs, rfl, h1, h2⟩
    refine ⟨c.toLower, cs.map Char.toLower, rfl, by rwa [isLetter_toLower], fun e he => ?_⟩
    obtain ⟨d, hd, rfl⟩ := List.mem_map.mp he
    rw [isWordChar_toLower]
    exact h2 d hd

/-- C67: what does hold: the names, the only words a user chooses, may be written in any case. -/
theorem C67_names_partial {w w' : List Char} (h : IsWord w)
    (he : w'.map Char.toLower = w.map Char.toLower) {r : List Char} (hr : Stop r) :
    parseName (w' ++ r) = .ok (Name.new w') r :=
  parseName_word (IsWord.lower.mp (he ▸ IsWord.lower.mpr h)) hr.word

example : Recased c!"and" c!"AND" ∧ Recased c!"not" c!"Not" ∧ Recased c!":types" c!":Types" ∧
    Recased c!"define" c!"DEFINE" := by unfold Recased; decide

/-- `(AND (p) (q a))` and `(and (p) (q a))` as goals. -/
example : parseGd c!"(AND (p) (q a))" = .ok (.atomic (.predicate (.str c!"AND")
      [.fn (.str c!"p") [], .fn (.str c!"q") [.name (.str c!"a")]])) [] ∧
    parseGd c!"(and (p) (q a))" = .ok (.and [.atomic (.predicate (.str c!"p") []),
      .atomic (.predicate (.str c!"q") [.name (.str c!"a")])]) [] := ⟨rfl, rfl⟩

/-- An action whose delete effect is written in capitals adds a fact instead. -/
example : parseEffect c!"(NOT (p))" =
    .ok [.effect (.atomic (.predicate (.str c!"NOT") [.fn (.str c!"p") []]))] [] := rfl

end Pddl
