import Verif.Meta.NamesKeepAll
import Verif.Props.Intern

/-!
# C121: what reading leaves in the table of names

`Name::new` puts the text of a name into a table that lives as long as the process and never
shrinks. The parsers call it while they read, also in alternatives that they give up and in texts
that they reject. `N.parseDomain.made s` lists the texts for which it is called while `s` is read
(`Verif/Names/`).
-/

namespace Pddl

/-- A call of one of the two readers. -/
inductive Reading where
  | domain (s : List Char)
  | problem (s : List Char)

/-- The text that is read. -/
def Reading.text : Reading → List Char
  | .domain s => s
  | .problem s => s

/-- The texts for which `Name::new` is called. -/
def Reading.made : Reading → List (List Char)
  | .domain s => N.parseDomain.made s
  | .problem s => N.parseProblem.made s

/-- C121: the parsers that list the names have the outcomes of the parsers. -/
theorem C121_same : N.parseDomain.run = parseDomain ∧ N.parseProblem.run = parseProblem :=
  ⟨N.parseDomain_run, N.parseProblem_run⟩

/-! ## Names come from the text -/

/-- C121: while a domain is read, only words of the text become names, whatever the outcome. -/
theorem C121_domain (s t : List Char) (h : t ∈ N.parseDomain.made s) : TakenFrom t s :=
  parseDomain_makes.2 s t h

/-- C121: while a problem is read, only words of the text become names, whatever the outcome. -/
theorem C121_problem (s t : List Char) (h : t ∈ N.parseProblem.made s) : TakenFrom t s :=
  parseProblem_makes.2 s t h

/-- A text that is not accepted, and the names that have been made when it is rejected. -/
example : parseDomain c!"(define (domain d) (:predicates (p ?x)" = .err ∧
    N.parseDomain.made c!"(define (domain d) (:predicates (p ?x)" =
      [c!"d", c!"p", c!"x", c!"x"] :=
  ⟨rfl, by decide +kernel⟩

example : TakenFrom c!"p" c!"(define (domain d) (:predicates (p ?x)" :=
  C121_domain _ _ (by decide +kernel)

example : N.parseProblem.made c!"(define (problem p) (:domain d) (:init (at 5 (q a)" =
    [c!"p", c!"d", c!"at", c!"q", c!"a"] := by decide +kernel

/-! ## The names of a value are among them -/

/-- C121: the names in an accepted domain have been made while it was read. -/
theorem C121_domain_names {s r : List Char} {d : Domain} (h : parseDomain s = .ok d r) :
    AllFrom (N.parseDomain.made s) d.nodes :=
  parseDomain_keeps s d r (by rw [N.parseDomain_run]; exact h)

/-- C121: the names in an accepted problem have been made while it was read. -/
theorem C121_problem_names {s r : List Char} {p : Problem} (h : parseProblem s = .ok p r) :
    AllFrom (N.parseProblem.made s) p.nodes :=
  parseProblem_keeps s p r (by rw [N.parseProblem_run]; exact h)

/-- The texts of the names in a list of nodes. -/
def nameTexts (ns : List Node) : List (List Char) := ns.filterMap fun
  | .name n => some n.text
  | _ => none

theorem mem_nameTexts {ns : List Node} {n : Name} (h : Node.name n ∈ ns) : n.text ∈ nameTexts ns :=
  List.mem_filterMap.2 ⟨_, h, rfl⟩

/-- A domain with two names. -/
def twoNames : List Char := c!"(define (domain d) (:constants c))"

example : ∃ d, parseDomain twoNames = .ok d [] ∧ nameTexts d.nodes = [c!"d", c!"c"] ∧
    N.parseDomain.made twoNames = [c!"d", c!"c", c!"c"] := ⟨_, rfl, rfl, by decide +kernel⟩

/-- C121: but other words of an accepted text become names as well, here a keyword: `at` is read as
a predicate first. -/
theorem C121_keyword : ∃ s p, parseProblem s = .ok p [] ∧ c!"at" ∈ N.parseProblem.made s ∧
    ∀ n, Node.name n ∈ p.nodes → n.text ≠ c!"at" := by
  refine ⟨c!"(define (problem p) (:domain d) (:init (at 5 (q))) (:goal (q)))", _, rfl, ?_, ?_⟩
  · decide +kernel
  · intro n hn he
    have hm := mem_nameTexts hn
    rw [he] at hm
    exact absurd hm (show c!"at" ∉ [c!"p", c!"d", c!"q", c!"q"] by decide)

theorem Reading.taken (r : Reading) : ∀ t ∈ r.made, TakenFrom t r.text := match r with
  | .domain s => C121_domain s
  | .problem s => C121_problem s

/-! ## The table -/

/-- The longest run of word characters from every place of a text. -/
def wordsAt : List Char → List (List Char)
  | [] => []
  | c :: s => (c :: s).takeWhile isWordChar :: wordsAt s

theorem wordsAt_length : ∀ s, (wordsAt s).length = s.length
  | [] => rfl
  | _ :: s => congrArg (· + 1) (wordsAt_length s)

theorem IsWord.chars {t : List Char} (h : IsWord t) : ∀ c ∈ t, isWordChar c = true := by
  obtain ⟨c, cs, rfl, hc, hcs⟩ := h
  intro d hd
  rcases List.mem_cons.1 hd with rfl | hd
  · exact isAlpha_word hc
  · exact hcs d hd

theorem mem_wordsAt {t y : List Char} (h : IsWord t) (hy : ∀ c r, y = c :: r → isWordChar c = false) :
    ∀ x, t ∈ wordsAt (x ++ t ++ y)
  | [] => by
    have hd := (dropWhile_prefix (r := y) h.chars).2
    have hn : y.takeWhile isWordChar = [] := by
      cases y with
      | nil => rfl
      | cons c r => simp [hy c r rfl]
    rw [hn, List.append_nil] at hd
    obtain ⟨c, cs, rfl, _⟩ := h
    show _ ∈ _ :: _
    refine List.mem_cons.2 (.inl ?_)
    exact hd.symm
  | _ :: x => List.mem_cons_of_mem _ (mem_wordsAt h hy x)

theorem length_le_of_subset {l m : List (List Char)} (hl : l.Nodup) (h : ∀ x ∈ l, x ∈ m) :
    l.length ≤ m.length := by
  induction l generalizing m with
  | nil => exact Nat.zero_le _
  | cons a l ih =>
    have hn := List.nodup_cons.1 hl
    have ha : a ∈ m := h a (by simp)
    have := ih (m := m.erase a) hn.2 fun x hx =>
      (List.mem_erase_of_ne fun e : x = a => hn.1 (e ▸ hx)).2 (h x (List.mem_cons_of_mem _ hx))
    rw [List.length_erase_of_mem ha] at this
    have := List.length_pos_of_mem ha
    simp only [List.length_cons]
    omega

/-- C121: a process reads any texts one after the other, accepted or not. Afterwards the table holds
only words of these texts, each of them once, and no more entries than there are characters in the
texts. -/
theorem C121_table {search : Searcher} (hs : search.Correct) (rs : List Reading) :
    ∃ xs st, runCalls search Interner.init (rs.flatMap Reading.made) = some (xs, st) ∧
      (st.table.map Arc.text).Nodup ∧
      (∀ w ∈ st.table.map Arc.text, IsWord w ∧ ∃ r ∈ rs, w <:+: r.text) ∧
      st.table.length ≤ (rs.map fun r => r.text.length).sum := by
  obtain ⟨xs, st, he, _⟩ := runCalls_spec hs (rs.flatMap Reading.made) Inv.init
  obtain ⟨h1, _, h2⟩ := C06_table hs _ _ _ he
  have h3 : ∀ w ∈ st.table.map Arc.text, ¬ WellKnown w ∧ ∃ r ∈ rs, TakenFrom w r.text := fun w hw => by
    obtain ⟨h4, h5⟩ := (h2 w).1 hw
    obtain ⟨r, hr, h6⟩ := List.mem_flatMap.1 h4
    exact ⟨h5, r, hr, r.taken w h6⟩
  refine ⟨xs, st, he, h1, fun w hw => ?_, ?_⟩
  · obtain ⟨_, r, hr, hw, x, y, e, _⟩ := h3 w hw
    exact ⟨hw, r, hr, x, y, e.symm⟩
  · have h4 := length_le_of_subset (m := rs.flatMap fun r => wordsAt r.text) h1 fun w hw => by
      obtain ⟨hk, r, hr, ht, x, y, e, hy⟩ := h3 w hw
      refine List.mem_flatMap.2 ⟨r, hr, ?_⟩
      rcases hy with rfl | hy
      · exact absurd (.inl rfl) hk
      · rw [e]
        exact mem_wordsAt ht hy x
    rw [List.length_map, List.length_flatMap] at h4
    simpa only [wordsAt_length] using h4

/-- Two texts, both rejected, and the names that have been made. -/
example : [Reading.domain c!"(define (domain d", .problem c!"(define (problem p"].flatMap
    Reading.made = [c!"d", c!"p"] := by decide +kernel

/-! ## Rejected texts leave names behind -/

theorem mem_new {p : N.P (List Char)} {s t r : List Char} (h : p.run s = .ok t r) :
    t ∈ (N.new p).made s := by
  refine List.mem_append.2 (.inr ?_)
  rw [h]
  exact List.mem_singleton.2 rfl

theorem mem_preceded {p : N.P α} {q : N.P β} {s r t : List Char} {a : α} (h : p.run s = .ok a r)
    (ht : t ∈ q.made r) : t ∈ (N.preceded p q).made s := by
  refine List.mem_append.2 (.inr ?_)
  rw [h]
  exact ht

theorem layoutN_run (s : List Char) :
    (N.preceded N.multispace0 N.ignoreEolComment).run s = .ok () (skip s) := by
  show Pddl.preceded Pddl.multispace0 N.ignoreEolComment.run s = _
  rw [N.ignoreEolComment_run]
  simp only [Pddl.preceded, Pddl.multispace0, takeWhile0, Res.bind, eol_eq, skip]

theorem mem_ws {p : N.P α} {s t : List Char} (ht : t ∈ p.made (skip s)) : t ∈ (N.ws p).made s :=
  mem_preceded (layoutN_run s) ht

theorem mem_terminated {p : N.P α} {q : N.P β} {s t : List Char} (ht : t ∈ p.made s) :
    t ∈ (N.terminated p q).made s := List.mem_append.2 (.inl ht)

theorem mem_prefixExpr {kw : List Char} {p : N.P α} {x t : List Char} (ht : t ∈ p.made (skip x)) :
    t ∈ (N.prefixExpr kw p).made ('(' :: (kw ++ x)) := by
  refine mem_preceded (a := kw) (r := x) ?_ (mem_terminated (mem_ws ht))
  rw [N.preceded_run, N.ws_run]
  refine (preceded_run (a := c!"(") (r := kw ++ x) ?_).trans (tag_ok kw x)
  rw [ws_eq, (Solid.cons (by decide) (by decide) _).skip]
  exact tag_ok c!"(" (kw ++ x)

/-- The text that is made into a name by `parse_name`. -/
theorem mem_parseName {s r : List Char} {n : Name} (h : parseName s = .ok n r) :
    n.text ∈ N.parseName.made s := by
  rw [← N.parseName_run] at h
  have h : Pddl.map Name.new _ s = _ := h
  obtain ⟨t, h1, rfl⟩ := map_ok h
  rw [Name.text_new]
  exact mem_new h1

/-- C121: every word can be left in the table by a text that is rejected. -/
theorem C121_rejected {w : List Char} (h : IsWord w) :
    parseDomain (c!"(define (domain " ++ w) = .err ∧
    w ∈ N.parseDomain.made (c!"(define (domain " ++ w) := by
  have hn : parseName w = .ok (Name.new w) [] := by
    simpa using parseName_word (r := []) h fun _ _ h => nomatch h
  have hk : skip (' ' :: w) = w := by rw [skip_space (by decide), h.solid.skip]
  have ho : ∀ x, skip ('(' :: x) = '(' :: x := fun x =>
    (Solid.cons (by decide) (by decide) x).skip
  have hi : skip (' ' :: '(' :: (c!"domain" ++ (' ' :: w))) = '(' :: (c!"domain" ++ (' ' :: w)) := by
    rw [skip_space (by decide), ho]
  constructor
  · show map domainOf (ws2 (prefixExpr c!"define" domainParts))
      ('(' :: (c!"define" ++ (' ' :: '(' :: (c!"domain" ++ (' ' :: w))))) = .err
    refine map_err ?_
    show ws _ _ = _
    rw [ws_eq, ho]
    refine terminated_err (prefixExpr_body_err ?_)
    rw [hi]
    refine pair_err (prefixExpr_tail (v := Name.new w) (y := []) ?_ ?_)
    · rw [hk]
      exact hn
    · rw [skip_nil]
      exact fun _ h => nomatch h
  · show w ∈ (N.ws2 (N.prefixExpr c!"define" N.domainParts)).made
      ('(' :: (c!"define" ++ (' ' :: '(' :: (c!"domain" ++ (' ' :: w)))))
    refine mem_preceded (layoutN_run _) (mem_terminated ?_)
    rw [ho]
    refine mem_prefixExpr ?_
    rw [hi]
    refine List.mem_append.2 (.inl (mem_prefixExpr ?_))
    rw [hk]
    have := mem_parseName hn
    rw [Name.text_new] at this
    exact this

example : parseDomain c!"(define (domain oops" = .err ∧
    c!"oops" ∈ N.parseDomain.made c!"(define (domain oops" :=
  C121_rejected (w := c!"oops") ⟨'o', c!"ops", rfl, by decide, by decide⟩

/-- C121: so a process that has accepted nothing can have any words at all in its table. -/
theorem C121_rejected_table {search : Searcher} (hs : search.Correct) (ws : List (List Char))
    (h : ∀ w ∈ ws, IsWord w ∧ ¬ WellKnown w) :
    ∃ rs : List Reading, (∀ r ∈ rs, parseDomain r.text = .err) ∧
      ∃ xs st, runCalls search Interner.init (rs.flatMap Reading.made) = some (xs, st) ∧
        ∀ w ∈ ws, w ∈ st.table.map Arc.text := by
  refine ⟨ws.map fun w => .domain (c!"(define (domain " ++ w), fun r hr => ?_, ?_⟩
  · obtain ⟨w, hw, rfl⟩ := List.mem_map.1 hr
    exact (C121_rejected (h w hw).1).1
  · obtain ⟨xs, st, he, _⟩ := C121_table hs (ws.map fun w => .domain (c!"(define (domain " ++ w))
    refine ⟨xs, st, he, fun w hw => ((C06_table hs _ _ _ he).2.2 w).2 ⟨?_, (h w hw).2⟩⟩
    exact List.mem_flatMap.2 ⟨_, List.mem_map.2 ⟨w, hw, rfl⟩, (C121_rejected (h w hw).1).2⟩

example : ∀ w ∈ [c!"a", c!"b"], IsWord w ∧ ¬ WellKnown w := by
  intro w hw
  rcases List.mem_cons.1 hw with rfl | hw
  · exact ⟨⟨'a', [], rfl, by decide, by decide⟩, by unfold WellKnown; decide⟩
  · cases List.mem_singleton.1 hw
    exact ⟨⟨'b', [], rfl, by decide, by decide⟩, by unfold WellKnown; decide⟩

end Pddl
