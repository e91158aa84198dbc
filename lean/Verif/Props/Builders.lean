import Verif.Builders
import Verif.Types
import Verif.Props.Sections
import Verif.Props.ReadBack
import Verif.Meta.SoundTop

/-!
# C70, C71: building a domain or a problem and looking at it; sections that are not read
-/

namespace Pddl

/-! ## C70 -/

/-- The accessor for what a call sets. -/
def DomainSlot.view : DomainSlot → Option DomainView
  | .extends_ => some .extends_
  | .requirements => some .requirements
  | .types => some .types
  | .constants => some .constants
  | .predicates => some .predicates
  | .functions => some .functions
  | .constraints => some .constraints
  | .timeless => none

/-- The accessor for what a call sets. -/
def ProblemSlot.view : ProblemSlot → ProblemView
  | .requirements => .requirements
  | .objects => .objects
  | .constraints => .constraints
  | .metricSpec => .metricSpec
  | .lengthSpec => .lengthSpec

/-- Slot `s` of domain `d` holds `x`, seen from outside. -/
def DomainShows (d : Domain) : DomainCall → Prop
  | ⟨.extends_, x⟩ => d.view .extends_ = x
  | ⟨.requirements, x⟩ => d.view .requirements = x
  | ⟨.types, x⟩ => d.view .types = x
  | ⟨.constants, x⟩ => d.view .constants = x
  | ⟨.predicates, x⟩ => d.view .predicates = x
  | ⟨.functions, x⟩ => d.view .functions = x
  | ⟨.constraints, x⟩ => d.view .constraints = x
  /- There is no accessor: this is the private field. -/
  | ⟨.timeless, x⟩ => d.timeless = x

/-- The same for problems. -/
def ProblemShows (p : Problem) : ProblemCall → Prop
  | ⟨.requirements, x⟩ => p.view .requirements = x
  | ⟨.objects, x⟩ => p.view .objects = x
  | ⟨.constraints, x⟩ => p.view .constraints = x
  | ⟨.metricSpec, x⟩ => p.view .metricSpec = some x
  | ⟨.lengthSpec, x⟩ => p.view .lengthSpec = some x

theorem domain_frame_one (d : Domain) (c : DomainCall) {v : DomainView} (h : c.1.view ≠ some v) :
    (d.withCall c).view v = d.view v := by
  obtain ⟨s, x⟩ := c
  cases s <;> cases v <;> first | rfl | exact absurd rfl h

theorem domain_timeless_one (d : Domain) (c : DomainCall) (h : c.1 ≠ .timeless) :
    (d.withCall c).timeless = d.timeless := by
  obtain ⟨s, x⟩ := c
  cases s <;> first | rfl | exact absurd rfl h

/-- What no call of the sequence sets is as it was: in particular the name and the structure
definitions given to `Domain::builder` stay. -/
theorem C70_domain_frame (d : Domain) (cs : List DomainCall) (v : DomainView)
    (h : ∀ c ∈ cs, c.1.view ≠ some v) : (d.withCalls cs).view v = d.view v := by
  induction cs generalizing d with
  | nil => rfl
  | cons c cs ih =>
    exact (ih (d.withCall c) fun c' hc => h c' (.tail _ hc)).trans (domain_frame_one d c (h c (.head _)))

example (d : Domain) (cs : List DomainCall) : (d.withCalls cs).view .name = d.view .name ∧
    (d.withCalls cs).view .structure_ = d.view .structure_ := by
  constructor <;>
  · refine C70_domain_frame d cs _ fun c _ => ?_
    obtain ⟨s, x⟩ := c
    cases s <;> nofun

/-- After any sequence of calls a domain shows the argument of the last call for each slot, whatever
came before it and whatever was set elsewhere after it. -/
theorem C70_domain_last (d : Domain) (before after : List DomainCall) (c : DomainCall)
    (h : ∀ c' ∈ after, c'.1 ≠ c.1) : DomainShows (d.withCalls (before ++ c :: after)) c := by
  rw [Domain.withCalls, List.foldl_append, List.foldl_cons]
  generalize before.foldl Domain.withCall d = e
  have : DomainShows (e.withCall c) c := by
    obtain ⟨s, x⟩ := c
    cases s <;> rfl
  generalize e.withCall c = e at this
  induction after generalizing e with
  | nil => exact this
  | cons c' cs ih =>
    refine ih (fun c'' hc => h c'' (.tail _ hc)) _ ?_
    have hne := h c' (.head _)
    obtain ⟨s, x⟩ := c
    obtain ⟨s', x'⟩ := c'
    cases s <;> cases s' <;> first | exact absurd rfl hne | exact this

/-- What `Domain::builder` leaves empty is empty. -/
theorem C70_domain_default (name : Name) (sd : List StructureDef) (cs : List DomainCall) :
    let d := (Domain.builder name sd).withCalls cs
    d.view .name = name ∧ d.view .structure_ = sd ∧
      ((∀ c ∈ cs, c.1 ≠ .extends_) → d.view .extends_ = []) ∧
      ((∀ c ∈ cs, c.1 ≠ .requirements) → d.view .requirements = []) ∧
      ((∀ c ∈ cs, c.1 ≠ .types) → d.view .types = []) ∧
      ((∀ c ∈ cs, c.1 ≠ .constants) → d.view .constants = []) ∧
      ((∀ c ∈ cs, c.1 ≠ .predicates) → d.view .predicates = []) ∧
      ((∀ c ∈ cs, c.1 ≠ .functions) → d.view .functions = []) ∧
      ((∀ c ∈ cs, c.1 ≠ .constraints) → (d.view .constraints).isEmpty = true) := by
  have key (s : DomainSlot) (v : DomainView) (hv : s.view = some v) (h : ∀ c ∈ cs, c.1 ≠ s) :
      ((Domain.builder name sd).withCalls cs).view v = (Domain.builder name sd).view v := by
    refine C70_domain_frame _ cs v fun c hc h' => h c hc ?_
    rw [← h'] at hv
    generalize c.1 = s' at hv
    cases s <;> cases s' <;> first | rfl | (cases hv) | (cases h')
  have key0 (v : DomainView) (hv : ∀ s : DomainSlot, s.view ≠ some v) :
      ((Domain.builder name sd).withCalls cs).view v = (Domain.builder name sd).view v :=
    C70_domain_frame _ cs v fun c _ => hv c.1
  refine ⟨key0 .name (by intro s; cases s <;> nofun), key0 .structure_ (by intro s; cases s <;> nofun),
    key .extends_ _ rfl, key .requirements _ rfl, key .types _ rfl, key .constants _ rfl,
    key .predicates _ rfl, key .functions _ rfl, fun h => ?_⟩
  rw [key .constraints .constraints rfl h]
  rfl

example : ∀ c ∈ ([⟨.types, []⟩, ⟨.functions, []⟩] : List DomainCall), c.1 ≠ .extends_ := by decide

theorem domain_comm (d : Domain) (c c' : DomainCall) (h : c.1 ≠ c'.1) :
    (d.withCall c).withCall c' = (d.withCall c').withCall c := by
  obtain ⟨s, x⟩ := c
  obtain ⟨s', x'⟩ := c'
  cases s <;> cases s' <;> first | exact absurd rfl h | rfl

/-- The order of the calls does not matter if no slot is set twice. -/
theorem C70_domain_order (d : Domain) {cs cs' : List DomainCall} (hp : cs.Perm cs')
    (hn : (cs.map (·.1)).Nodup) : d.withCalls cs = d.withCalls cs' := by
  induction hp generalizing d with
  | nil => rfl
  | cons c _ ih => exact ih _ (List.nodup_cons.mp hn).2
  | swap c c' l =>
    rw [List.map_cons, List.map_cons, List.nodup_cons] at hn
    rw [Domain.withCalls, Domain.withCalls, List.foldl_cons, List.foldl_cons, List.foldl_cons,
      List.foldl_cons, domain_comm d c' c fun h => hn.1 (by rw [h]; exact .head _)]
  | trans h1 _ ih1 ih2 => exact (ih1 d hn).trans (ih2 d ((h1.map _).nodup_iff.mp hn))

example : ([⟨.types, []⟩, ⟨.functions, []⟩] : List DomainCall).Perm [⟨.functions, []⟩, ⟨.types, []⟩] ∧
    (([⟨.types, []⟩, ⟨.functions, []⟩] : List DomainCall).map (·.1)).Nodup :=
  ⟨.swap _ _ _, by decide⟩

/-- Every domain can be built. -/
theorem C70_domain_every (d : Domain) :
    ∃ cs : List DomainCall, (Domain.builder (d.view .name) (d.view .structure_)).withCalls cs = d := by
  obtain ⟨n, a1, a2, a3, a4, a5, a6, a7, a8, sd⟩ := d
  exact ⟨[⟨.extends_, a1⟩, ⟨.requirements, a2⟩, ⟨.types, a3⟩, ⟨.constants, a4⟩, ⟨.predicates, a5⟩,
    ⟨.functions, a6⟩, ⟨.constraints, a7⟩, ⟨.timeless, a8⟩], rfl⟩

/-- `AsRef` shows what the accessor shows. -/
theorem C70_as_ref (d : Domain) (v : DomainView) (x : v.Result) (h : d.asRef v = some x) :
    x = d.view v := by
  cases v <;> first | (cases h; done) | exact (Option.some.inj h).symm

example (d : Domain) : d.asRef .types = some d.types := rfl

/-- Two domains that show the same are equal, if their timeless predicates are. -/
theorem C70_domain_views_partial (d e : Domain) (h : ∀ v, d.view v = e.view v)
    (ht : d.timeless = e.timeless) : d = e := by
  cases d; cases e
  have h1 := h .name; have h2 := h .extends_; have h3 := h .requirements; have h4 := h .types
  have h5 := h .constants; have h6 := h .predicates; have h7 := h .functions
  have h8 := h .constraints; have h9 := h .structure_
  simp only [Domain.view] at h1 h2 h3 h4 h5 h6 h7 h8 h9 ht
  subst h1 h2 h3 h4 h5 h6 h7 h8 h9 ht
  rfl

/-- Without that they need not be: nothing shows the timeless predicates. -/
theorem C70_false_domain_views : ¬ ∀ d e : Domain, (∀ v, d.view v = e.view v) → d = e := by
  intro h
  have := h (Domain.builder (.new c!"d") [])
    ((Domain.builder (.new c!"d") []).withTimeless [.pos (.predicate (.new c!"p") [])])
    (by intro v; cases v <;> rfl)
  have := congrArg Domain.timeless this
  cases this

/-- Two problems that show the same are equal. -/
theorem C70_problem_views (p q : Problem) (h : ∀ v, p.view v = q.view v) : p = q := by
  cases p; cases q
  have h1 := h .name; have h2 := h .domain; have h3 := h .requirements; have h4 := h .objects
  have h5 := h .init; have h6 := h .goals; have h7 := h .constraints
  have h8 := h .metricSpec; have h9 := h .lengthSpec
  simp only [Problem.view] at h1 h2 h3 h4 h5 h6 h7 h8 h9
  subst h1 h2 h3 h4 h5 h6 h7 h8 h9
  rfl

theorem problem_frame_one (p : Problem) (c : ProblemCall) {v : ProblemView} (h : c.1.view ≠ v) :
    (p.withCall c).view v = p.view v := by
  obtain ⟨s, x⟩ := c
  cases s <;> cases v <;> first | rfl | exact absurd rfl h

/-- What no call sets is as it was. -/
theorem C70_problem_frame (p : Problem) (cs : List ProblemCall) (v : ProblemView)
    (h : ∀ c ∈ cs, c.1.view ≠ v) : (p.withCalls cs).view v = p.view v := by
  induction cs generalizing p with
  | nil => rfl
  | cons c cs ih =>
    exact (ih (p.withCall c) fun c' hc => h c' (.tail _ hc)).trans (problem_frame_one p c (h c (.head _)))

example (p : Problem) (cs : List ProblemCall) : (p.withCalls cs).view .goals = p.view .goals :=
  C70_problem_frame p cs _ fun c _ => by obtain ⟨s, x⟩ := c; cases s <;> nofun

/-- The last call for each slot shows. -/
theorem C70_problem_last (p : Problem) (before after : List ProblemCall) (c : ProblemCall)
    (h : ∀ c' ∈ after, c'.1 ≠ c.1) : ProblemShows (p.withCalls (before ++ c :: after)) c := by
  rw [Problem.withCalls, List.foldl_append, List.foldl_cons]
  generalize before.foldl Problem.withCall p = e
  have : ProblemShows (e.withCall c) c := by
    obtain ⟨s, x⟩ := c
    cases s <;> rfl
  generalize e.withCall c = e at this
  induction after generalizing e with
  | nil => exact this
  | cons c' cs ih =>
    refine ih (fun c'' hc => h c'' (.tail _ hc)) _ ?_
    have hne := h c' (.head _)
    obtain ⟨s, x⟩ := c
    obtain ⟨s', x'⟩ := c'
    cases s <;> cases s' <;> first | exact absurd rfl hne | exact this

/-- What `Problem::builder` is given and what it leaves empty. -/
theorem C70_problem_default (name domain : Name) (init : List InitElement) (goal : List PreGD)
    (cs : List ProblemCall) :
    let p := (Problem.builder name domain init goal).withCalls cs
    p.view .name = name ∧ p.view .domain = domain ∧ p.view .init = init ∧ p.view .goals = goal ∧
      ((∀ c ∈ cs, c.1 ≠ .requirements) → p.view .requirements = []) ∧
      ((∀ c ∈ cs, c.1 ≠ .objects) → p.view .objects = []) ∧
      ((∀ c ∈ cs, c.1 ≠ .constraints) → p.view .constraints = []) ∧
      ((∀ c ∈ cs, c.1 ≠ .metricSpec) → p.view .metricSpec = none) ∧
      ((∀ c ∈ cs, c.1 ≠ .lengthSpec) → p.view .lengthSpec = none) := by
  have key (s : ProblemSlot) (h : ∀ c ∈ cs, c.1 ≠ s) :
      ((Problem.builder name domain init goal).withCalls cs).view s.view =
        (Problem.builder name domain init goal).view s.view := by
    refine C70_problem_frame _ cs _ fun c hc h' => h c hc ?_
    generalize c.1 = s' at h'
    cases s <;> cases s' <;> first | rfl | (cases h')
  have key0 (v : ProblemView) (hv : ∀ s : ProblemSlot, s.view ≠ v) :
      ((Problem.builder name domain init goal).withCalls cs).view v =
        (Problem.builder name domain init goal).view v :=
    C70_problem_frame _ cs v fun c _ => hv c.1
  exact ⟨key0 .name (by intro s; cases s <;> nofun), key0 .domain (by intro s; cases s <;> nofun),
    key0 .init (by intro s; cases s <;> nofun), key0 .goals (by intro s; cases s <;> nofun),
    key .requirements, key .objects, key .constraints, key .metricSpec, key .lengthSpec⟩

theorem problem_comm (p : Problem) (c c' : ProblemCall) (h : c.1 ≠ c'.1) :
    (p.withCall c).withCall c' = (p.withCall c').withCall c := by
  obtain ⟨s, x⟩ := c
  obtain ⟨s', x'⟩ := c'
  cases s <;> cases s' <;> first | exact absurd rfl h | rfl

/-- The order of the calls does not matter if no slot is set twice. -/
theorem C70_problem_order (p : Problem) {cs cs' : List ProblemCall} (hp : cs.Perm cs')
    (hn : (cs.map (·.1)).Nodup) : p.withCalls cs = p.withCalls cs' := by
  induction hp generalizing p with
  | nil => rfl
  | cons c _ ih => exact ih _ (List.nodup_cons.mp hn).2
  | swap c c' l =>
    rw [List.map_cons, List.map_cons, List.nodup_cons] at hn
    rw [Problem.withCalls, Problem.withCalls, List.foldl_cons, List.foldl_cons, List.foldl_cons,
      List.foldl_cons, problem_comm p c' c fun h => hn.1 (by rw [h]; exact .head _)]
  | trans h1 _ ih1 ih2 => exact (ih1 p hn).trans (ih2 p ((h1.map _).nodup_iff.mp hn))

example : ([⟨.lengthSpec, ⟨some 1, none⟩⟩, ⟨.objects, []⟩] : List ProblemCall).Perm
      [⟨.objects, []⟩, ⟨.lengthSpec, ⟨some 1, none⟩⟩] ∧
    (([⟨.lengthSpec, ⟨some 1, none⟩⟩, ⟨.objects, []⟩] : List ProblemCall).map (·.1)).Nodup :=
  ⟨.swap _ _ _, by decide⟩

/-- `Problem::new` is the builder with all calls, and a problem built without a metric cannot be told
apart from one made by `Problem::new` with none. -/
theorem C70_problem_every (p : Problem) : (∃ cs : List ProblemCall,
    (Problem.builder (p.view .name) (p.view .domain) (p.view .init) (p.view .goals)).withCalls cs = p) ∧
    p = .new (p.view .name) (p.view .domain) (p.view .requirements) (p.view .objects) (p.view .init)
      (p.view .goals) (p.view .constraints) (p.view .metricSpec) (p.view .lengthSpec) := by
  refine ⟨⟨[⟨.requirements, p.requires⟩, ⟨.objects, p.objects⟩, ⟨.constraints, p.constraints⟩] ++
    (p.metricSpec.toList.map fun m => ⟨.metricSpec, m⟩) ++
    (p.lengthSpec.toList.map fun l => ⟨.lengthSpec, l⟩), ?_⟩, rfl⟩
  obtain ⟨_, _, _, _, _, _, _, m, l⟩ := p
  cases m <;> cases l <;> rfl

/-! ## C71 -/

/-- Whatever is read, the timeless predicates of the domain are empty. -/
theorem C71_false_timeless {s : List Char} {d : Domain} {r : List Char}
    (h : parseDomain s = .ok d r) : d.timeless = [] := by
  obtain ⟨g, t, g', _, _, h, _⟩ := parseDomain_snd h
  cases h
  rfl

/-- A domain with a `:timeless` section is rejected, wherever the section stands. -/
theorem C71_false_timeless_section {g u r x : List Char} {fs : List (List Char)} (hg : Gap g)
    (hf : Forms fs u) (hm : '(' :: (c!":timeless" ++ x) ∈ fs) (d : Domain) (r' : List Char) :
    parseDomain (g ++ (paren (c!"define" ++ u) ++ r)) ≠ .ok d r' :=
  C44_domain_unknown hg hf hm rfl d r'

/-- Yet the crate has a parser for the section, and a field for what it reads. -/
example : (parseTimelessDef c!"(:timeless (p a))" matches .ok [.pos (.predicate _ [_])] []) = true := by
  decide +kernel
example : Forms [c!"(domain d)", c!"(:timeless (p a))"] c!" (domain d) (:timeless (p a))" := by
  have h1 : Form c!"(domain d)" := ⟨c!"domain d", rfl, .of_kw (by decide)⟩
  have h2 : Form c!"(:timeless (p a))" := ⟨c!":timeless (p a)", rfl,
    (Bal.of_kw (u := c!":timeless ") (by decide)).append
      (Bal.paren (.of_kw (u := c!"p a") (by decide)))⟩
  obtain ⟨u1, e1, b1⟩ := h1
  obtain ⟨u2, e2, b2⟩ := h2
  rw [e1, e2]
  have := Forms.cons (g := c!" ") (.space rfl .nil) b1
    (Forms.cons (g := c!" ") (.space rfl .nil) b2 (.nil .nil))
  rw [← e1, ← e2] at this ⊢
  exact this

/-- What holds: every domain that can be written and has no timeless predicates is read. -/
theorem C71_read_partial {d : Domain} (h : d.wf = true) (r : List Char) :
    parseDomain (d.print ++ r) = .ok d (skip r) ∧ d.timeless = [] := by
  have h1 := (Domain.print_w h).acc .nil r
  exact ⟨h1, C71_false_timeless h1⟩

example : Ex.domain.wf = true := by decide +kernel

end Pddl
