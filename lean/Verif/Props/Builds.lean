import Verif.Release
import Verif.Props.Intern
import Verif.Props.Number

/-!
# C63–C65: builds without debug assertions, builds without interning, other callers of `Name::new`
-/

namespace Pddl

/-! ## C63: debug assertions never matter to a parser -/

/-- A mapping that may panic is a plain one if the panicking values never come out. -/
theorem mapExpect_eq_map {α β : Type} {f : α → Option β} {g : α → β} {p : P α}
    (h : ∀ s a r, p s = .ok a r → f a = some (g a)) : mapExpect f p = map g p := by
  funext s
  unfold mapExpect map
  cases hp : p s with
  | ok a r => simp [Res.bind, h s a r hp]
  | _ => rfl

theorem list1_cons {α : Type} {p : P α} {s as r} (h : spaceSeparatedList1 p s = .ok as r) :
    ∃ a bs, as = a :: bs := by
  unfold spaceSeparatedList1 ws preceded sepList1 at h
  generalize multispace0 s = x at h
  cases x <;> simp only [Res.bind] at h <;> try cases h
  generalize ignoreEolComment _ = x at h
  cases x <;> simp only [Res.bind] at h <;> try cases h
  generalize ignoreEolComment _ = x at h
  cases x <;> simp only [Res.bind] at h <;> try cases h
  generalize p _ = x at h
  cases x <;> simp only at h <;> try cases h
  generalize sepLoop _ _ _ _ = x at h
  cases x <;> simp only at h <;> try cases h
  exact ⟨_, _, rfl⟩

theorem parens_val {α : Type} {p : P α} {s a r} (h : parens p s = .ok a r) : ∃ s' r', p s' = .ok a r' := by
  unfold parens delimited ws preceded terminated at h
  generalize ignoreEolComment s = x at h
  cases x <;> simp only [Res.bind] at h <;> try cases h
  generalize char '(' _ = x at h
  cases x <;> simp only at h <;> try cases h
  generalize multispace0 _ = x at h
  cases x <;> simp only at h <;> try cases h
  generalize ignoreEolComment _ = x at h
  cases x <;> simp only at h <;> try cases h
  rename_i r'
  cases hp : p r' <;> rw [hp] at h <;> simp only at h <;> try cases h
  generalize char ')' _ = x at h
  cases x <;> simp only at h <;> cases h
  exact ⟨_, _, hp⟩

theorem prefixExpr_val {α : Type} {n : List Char} {p : P α} {s a r} (h : prefixExpr n p s = .ok a r) :
    ∃ s' r', p s' = .ok a r' := by
  unfold prefixExpr delimited ws preceded terminated at h
  generalize multispace0 s = x at h
  cases x <;> simp only [Res.bind] at h <;> try cases h
  generalize ignoreEolComment _ = x at h
  cases x <;> simp only at h <;> try cases h
  generalize tag _ _ = x at h
  cases x <;> simp only at h <;> try cases h
  generalize tag _ _ = x at h
  cases x <;> simp only at h <;> try cases h
  generalize multispace0 _ = x at h
  cases x <;> simp only at h <;> try cases h
  generalize ignoreEolComment _ = x at h
  cases x <;> simp only at h <;> try cases h
  rename_i r'
  cases hp : p r' <;> rw [hp] at h <;> simp only at h <;> try cases h
  generalize multispace0 _ = x at h
  cases x <;> simp only at h <;> try cases h
  generalize ignoreEolComment _ = x at h
  cases x <;> simp only at h <;> try cases h
  generalize tag _ _ = x at h
  cases x <;> simp only at h <;> cases h
  exact ⟨_, _, hp⟩

/-- C63: reading a duration constraint does not depend on debug assertions. -/
theorem C63_durations (s : List Char) :
    Release.parseDurationConstraint s = parseDurationConstraint s := by
  unfold Release.parseDurationConstraint parseDurationConstraint
  rw [mapExpect_eq_map (g := fun cs => some (Release.newAll cs))]
  intro s cs r h
  obtain ⟨_, _, h⟩ := prefixExpr_val h
  obtain ⟨a, bs, rfl⟩ := list1_cons h
  rfl

theorem release_metricFExpBody (p : P MetricFExp) : Release.metricFExpBody p = metricFExpBody p := by
  unfold Release.metricFExpBody metricFExpBody
  rw [mapExpect_eq_map (f := fun x : MultiOp × MetricFExp × List MetricFExp =>
    MetricFExp.newMultiOp x.1 x.2.1 x.2.2) (g := fun x => Release.newMultiOp x.1 x.2.1 x.2.2)]
  rintro s ⟨op, a, bs⟩ r h
  obtain ⟨_, _, h⟩ := parens_val h
  unfold pair preceded at h
  generalize parseMultiOp _ = x at h
  cases x <;> simp only [Res.bind] at h <;> try cases h
  generalize multispace1 _ = x at h
  cases x <;> simp only at h <;> try cases h
  generalize p _ = x at h
  cases x <;> simp only at h <;> try cases h
  generalize multispace1 _ = x at h
  cases x <;> simp only at h <;> try cases h
  rename_i r'
  cases hl : spaceSeparatedList1 p r' <;> rw [hl] at h <;> simp only at h <;> cases h
  obtain ⟨b, bs', rfl⟩ := list1_cons hl
  rfl

/-- C63: reading a metric expression does not depend on debug assertions. -/
theorem C63_metric_exp (s : List Char) : Release.parseMetricFExp s = parseMetricFExp s := by
  have : Release.metricFExpBody = metricFExpBody := funext release_metricFExpBody
  unfold Release.parseMetricFExp parseMetricFExp
  rw [this]

/-- C63: with and without debug assertions every text gives the same domain, the same error and the
same panic. -/
theorem C63_domains (s : List Char) : Release.parseDomain s = parseDomain s := by
  have : Release.parseDurationConstraint = parseDurationConstraint := funext C63_durations
  unfold Release.parseDomain Release.domainParts Release.parseStructureDef Release.parseDaDef
  rw [this]
  rfl

/-- C63: the same for problems. -/
theorem C63_problems (s : List Char) : Release.parseProblem s = parseProblem s := by
  have : Release.parseMetricFExp = parseMetricFExp := funext C63_metric_exp
  unfold Release.parseProblem Release.problemParts Release.parseProblemMetricSpec
  rw [this]
  rfl

/-- C63: the assertions in comparing and hashing numbers hold for every number that can be made. -/
theorem C63_numbers (a b : Number) (ha : FiniteBits a.val.bits) (hb : FiniteBits b.val.bits) :
    Number.cmpDebug a b = Number.cmp a b ∧ Number.hashWordDebug a = some a.hashWord := by
  rw [← isFinite_iff] at ha hb
  simp [Number.cmpDebug, Number.hashWordDebug, ha, hb]

/-- Both parsers that differ do read their construct. -/
example : Release.parseDurationConstraint c!"(and (<= ?duration 5) (>= ?duration 1)) x" =
    parseDurationConstraint c!"(and (<= ?duration 5) (>= ?duration 1)) x" ∧
    ∃ c, parseDurationConstraint c!"(and (<= ?duration 5) (>= ?duration 1)) x" =
      .ok (some (.all c)) c!" x" := ⟨C63_durations _, _, rfl⟩

/-- The builds do differ for a program that calls the constructors itself with no operands. -/
example : DurationConstraint.newAll [] = none ∧ Release.newAll [] = .all [] ∧
    MetricFExp.newMultiOp .mul .totalTime [] = none ∧
    Release.newMultiOp .mul .totalTime [] = .multiOp .mul .totalTime [] :=
  ⟨rfl, rfl, rfl, rfl⟩

/-! ## C64: interning cannot be observed through a name -/

/-- Everything a program can see of one name. -/
structure SameName (x : NameRef) (n : Name) : Prop where
  text : x.text = n.text
  len : x.len = n.len
  empty : x.isEmpty = n.isEmpty
  hash : x.hashInput = n.hashInput
  eqStr : ∀ u, x.eqStr u = n.eqStr u

theorem plainName_of {s : List Char} : (WellKnown s → plainName s = .static s) ∧
    (¬ WellKnown s → plainName s = .str s) := by
  unfold plainName
  cases hm : Name.mapToStatic s with
  | some t =>
    obtain rfl := mapToStatic_some hm
    refine ⟨fun _ => rfl, fun hn => ?_⟩
    rw [mapToStatic_none.mpr hn] at hm; cases hm
  | none => exact ⟨fun h => absurd h (mapToStatic_none.mp hm), fun _ => rfl⟩

theorem ResultIn.sameName {st s x} (h : ResultIn st s x) : SameName x (plainName s) := by
  rcases h with ⟨hw, rfl⟩ | ⟨hn, a, _, rfl, rfl⟩
  · rw [plainName_of.1 hw]
    exact ⟨rfl, rfl, rfl, rfl, fun u => rfl⟩
  · rw [plainName_of.2 hn]
    exact ⟨rfl, rfl, rfl, rfl, fun u => rfl⟩

theorem ResultIn.eq {st s x t y} (hi : Inv st) (h : ResultIn st s x) (h' : ResultIn st t y) :
    x.eq y = (plainName s).eq (plainName t) := by
  rcases h with ⟨hw, rfl⟩ | ⟨hn, a, ha, rfl, rfl⟩ <;> rcases h' with ⟨hw', rfl⟩ | ⟨hn', b, hb, rfl, rfl⟩
  · rw [plainName_of.1 hw, plainName_of.1 hw']; rfl
  · rw [plainName_of.1 hw, plainName_of.2 hn']; rfl
  · rw [plainName_of.2 hn, plainName_of.1 hw']; rfl
  · rw [plainName_of.2 hn, plainName_of.2 hn']
    show (a.id == b.id || a.text == b.text) = (a.text == b.text)
    by_cases hid : a.id = b.id
    · rw [hi.id_inj ha hb hid]; simp
    · simp [hid]

/-- C64: after any history of calls, every name made with interning looks like the one made from the
same text without interning, and two of them compare like the two without. -/
theorem C64_histories {search : Searcher} (hs : search.Correct) (ss : List (List Char)) :
    ∃ xs st, runCalls search Interner.init ss = some (xs, st) ∧ xs.length = ss.length ∧
      ∀ (i j : Nat) (s t : List Char) (x y : NameRef), ss[i]? = some s → ss[j]? = some t →
        xs[i]? = some x → xs[j]? = some y →
        SameName x (plainName s) ∧ x.eq y = (plainName s).eq (plainName t) := by
  obtain ⟨xs, st, he, hi, hl, hr, _⟩ := runCalls_spec hs ss Inv.init
  refine ⟨xs, st, he, hl, fun i j s t x y h1 h2 h3 h4 => ⟨(hr i s x h1 h3).sameName, ?_⟩⟩
  exact (hr i s x h1 h3).eq hi (hr j t y h2 h4)

/-- C64: the same for names made by any number of threads, however they are scheduled. -/
theorem C64_threads {ι : Type} [DecidableEq ι] {search : Searcher} (hs : search.Correct)
    (calls : ι → List (List Char)) {σ : Sys ι} (h : Steps search (Sys.init calls) σ)
    (i j : ι) (s t : List Char) (x y : NameRef) (hx : (s, x) ∈ (σ.threads i).done)
    (hy : (t, y) ∈ (σ.threads j).done) :
    SameName x (plainName s) ∧ x.eq y = (plainName s).eq (plainName t) := by
  have hinv := SysInv.steps hs (SysInv.init calls) h
  exact ⟨(hinv.done i s x hx).sameName, (hinv.done i s x hx).eq hinv.inv (hinv.done j t y hy)⟩

/-- C64: the parsers make names with `Name::new` only; the value they return is the name without
interning. So every other theorem about parsed values holds for both builds. -/
theorem C64_parsers (s : List Char) : Name.new s = plainName s := by
  unfold Name.new plainName
  cases Name.mapToStatic s <;> rfl

example : (runCalls binarySearchBy Interner.init [c!"b", c!"object", c!"b", c!"a"]).map Prod.fst =
    some [.str ⟨0, c!"b"⟩, .static c!"object", .str ⟨0, c!"b"⟩, .str ⟨1, c!"a"⟩] ∧
    (plainName c!"b").eq (plainName c!"b") = true ∧ (plainName c!"b").eq (plainName c!"a") = false ∧
    (plainName c!"b").eq (plainName c!"object") = false := by decide +kernel

/-! ## C65: other callers' conversions -/

/-- What a search procedure does on any slice, sorted or not. -/
def Searcher.Safe (search : Searcher) : Prop :=
  ∀ f l, match search f l with
    | .found i => ∃ x, l[i]? = some x ∧ f x = .eq
    | .missing i => i ≤ l.length
    | .oob => False

theorem binarySearchLoop_safe {α : Type} (f : α → Ordering) (l : List α) (left right : Nat)
    (hle : left ≤ right) (hr : right ≤ l.length) : match binarySearchLoop f l left right with
    | .found i => ∃ x, l[i]? = some x ∧ f x = .eq
    | .missing i => i ≤ l.length
    | .oob => False := by
  unfold binarySearchLoop
  by_cases h : left < right
  · simp only [h, dite_true]
    generalize hmid : left + (right - left) / 2 = mid
    have h1 : mid < right := by omega
    have h2 : left ≤ mid := by omega
    have hlen : mid < l.length := by omega
    have hx : l[mid]? = some l[mid] := List.getElem?_eq_getElem hlen
    rw [hx]
    dsimp only
    cases hf : f l[mid] with
    | eq => exact ⟨_, hx, hf⟩
    | lt => exact binarySearchLoop_safe f l (mid + 1) right (by omega) hr
    | gt => exact binarySearchLoop_safe f l left mid (by omega) (by omega)
  · simp only [h, dite_false]
    omega
termination_by right - left

/-- The search of the standard library is safe on unsorted slices, too. -/
theorem binarySearchBy_safe : Searcher.Safe binarySearchBy := fun f l =>
  binarySearchLoop_safe f l 0 l.length (by omega) (by omega)

theorem get_insertIdx {α : Type} (a : α) (l : List α) (i : Nat) (h : i ≤ l.length) :
    (l.insertIdx i a)[i]? = some a := by
  rw [insertIdx_eq _ _ _ h, List.getElem?_append_right (by rw [List.length_take]; omega)]
  simp [List.length_take, Nat.min_eq_left h]

/-- What one call does, on any table. -/
theorem internArg_spec {search : Searcher} (hs : search.Safe) (sh : Shared) (x : Arg) :
    (sh.poisoned = true ∧ internArg search sh x = (none, sh)) ∨
    (sh.poisoned = false ∧ x.own = none ∧ (internArg search sh x).1 = none ∧
      (internArg search sh x).2.poisoned = true) ∨
    (sh.poisoned = false ∧ (internArg search sh x).2.poisoned = false ∧
      ∃ a, (internArg search sh x).1 = some a ∧ (a.text = x.ref ∨ x.own = some a.text)) := by
  unfold internArg
  cases hp : sh.poisoned with
  | true => exact .inl ⟨rfl, rfl⟩
  | false =>
    right
    have hok := hs (fun a => strCmp x.ref a.text) sh.st.table
    simp only [Bool.false_eq_true, if_false, true_and]
    cases hr : search (fun a => strCmp x.ref a.text) sh.st.table with
    | oob => rw [hr] at hok; exact hok.elim
    | found i =>
      rw [hr] at hok
      obtain ⟨a, ha, he⟩ := hok
      simp only [ha]
      exact .inr ⟨hp, a, rfl, .inl ((strCmp_eq_iff _ _).mp he).symm⟩
    | missing i =>
      rw [hr] at hok
      dsimp only at hok ⊢
      cases ho : x.own with
      | none => exact .inl ⟨rfl, rfl, rfl⟩
      | some o =>
        simp only [hok, if_true, get_insertIdx _ _ _ hok]
        exact .inr ⟨trivial, _, rfl, .inr rfl⟩

theorem newArg_spec {search : Searcher} (hs : search.Safe) (sh : Shared) (x : Arg) :
    (WellKnown x.ref ∧ newArg search sh x = (some (.static x.ref), sh)) ∨
    (¬ WellKnown x.ref ∧ ((sh.poisoned = true ∧ newArg search sh x = (none, sh)) ∨
      (sh.poisoned = false ∧ x.own = none ∧ (newArg search sh x).1 = none ∧
        (newArg search sh x).2.poisoned = true) ∨
      (sh.poisoned = false ∧ (newArg search sh x).2.poisoned = false ∧
        ∃ a, (newArg search sh x).1 = some (.str a) ∧ (a.text = x.ref ∨ x.own = some a.text)))) := by
  unfold newArg
  cases hm : Name.mapToStatic x.ref with
  | some t =>
    have := mapToStatic_some hm
    subst this
    refine .inl ⟨Classical.byContradiction fun hn => ?_, rfl⟩
    rw [mapToStatic_none.mpr hn] at hm; cases hm
  | none =>
    refine .inr ⟨mapToStatic_none.mp hm, ?_⟩
    dsimp only
    rcases internArg_spec hs sh x with ⟨h1, h2⟩ | ⟨h1, h2, h3, h4⟩ | ⟨h1, h2, a, h3, h4⟩
    · exact .inl ⟨h1, by rw [h2]; rfl⟩
    · exact .inr (.inl ⟨h1, h2, by rw [h3]; rfl, h4⟩)
    · exact .inr (.inr ⟨h1, h2, a, by rw [h3]; rfl, h4⟩)

theorem runArgs_length {search : Searcher} (xs : List Arg) (sh : Shared) :
    (runArgs search sh xs).1.length = xs.length := by
  induction xs generalizing sh with
  | nil => rfl
  | cons x xs ih => simp [runArgs, ih]

/-- The state before call `i`. -/
def before (search : Searcher) : Shared → List Arg → Nat → Shared
  | sh, x :: xs, i + 1 => before search (newArg search sh x).2 xs i
  | sh, _, _ => sh

theorem runArgs_get {search : Searcher} :
    ∀ (xs : List Arg) (sh : Shared) (i : Nat) (x : Arg), xs[i]? = some x →
      (runArgs search sh xs).1[i]? = some (newArg search (before search sh xs i) x).1
  | [], _, _, _, h => by simp at h
  | y :: ys, sh, 0, x, h => by
    simp only [List.getElem?_cons_zero, Option.some.injEq] at h
    subst h
    rfl
  | y :: ys, sh, i + 1, x, h => by
    simp only [List.getElem?_cons_succ] at h
    simp only [runArgs, before, List.getElem?_cons_succ]
    exact runArgs_get ys _ i x h

theorem before_succ {search : Searcher} :
    ∀ (xs : List Arg) (sh : Shared) (i : Nat) (x : Arg), xs[i]? = some x →
      before search sh xs (i + 1) = (newArg search (before search sh xs i) x).2
  | [], _, _, _, h => by simp at h
  | y :: ys, sh, 0, x, h => by
    simp only [List.getElem?_cons_zero, Option.some.injEq] at h
    subst h
    cases ys <;> rfl
  | y :: ys, sh, i + 1, x, h => by
    simp only [List.getElem?_cons_succ] at h
    simp only [before]
    exact before_succ ys _ i x h

/-- A mutex poisoned before a call was poisoned by the conversion of an earlier call. -/
theorem poisoned_by {search : Searcher} (hs : search.Safe) (xs : List Arg) :
    ∀ i, i ≤ xs.length → (before search Shared.init xs i).poisoned = true →
      ∃ j x, j < i ∧ xs[j]? = some x ∧ x.own = none ∧ ¬ WellKnown x.ref
  | 0, _, h => by cases xs <;> cases h
  | i + 1, hi, h => by
    have hx : xs[i]? = some xs[i] := List.getElem?_eq_getElem (by omega)
    rw [before_succ xs _ i _ hx] at h
    rcases newArg_spec hs (before search Shared.init xs i) xs[i] with
      ⟨_, he⟩ | ⟨hw, ⟨hp, _⟩ | ⟨_, ho, _⟩ | ⟨_, hp, _⟩⟩
    · rw [he] at h
      obtain ⟨j, x, hj, h⟩ := poisoned_by hs xs i (by omega) h
      exact ⟨j, x, by omega, h⟩
    · obtain ⟨j, x, hj, h⟩ := poisoned_by hs xs i (by omega) hp
      exact ⟨j, x, by omega, h⟩
    · exact ⟨i, _, by omega, hx, ho, hw⟩
    · rw [hp] at h; cases h

theorem poisoned_stays {search : Searcher} (hs : search.Safe) (xs : List Arg) (i : Nat)
    (h : (before search Shared.init xs i).poisoned = true) (d : Nat) (hd : i + d ≤ xs.length) :
    (before search Shared.init xs (i + d)).poisoned = true := by
  induction d with
  | zero => exact h
  | succ d ih =>
    have hx : xs[i + d]? = some xs[i + d] := List.getElem?_eq_getElem (by omega)
    rw [← Nat.add_assoc, before_succ xs _ _ _ hx]
    have hp := ih (by omega)
    rcases newArg_spec hs (before search Shared.init xs (i + d)) xs[i + d] with
      ⟨_, he⟩ | ⟨_, ⟨_, he⟩ | ⟨h, _⟩ | ⟨h, _⟩⟩
    · rw [he]; exact hp
    · rw [he]; exact hp
    · rw [hp] at h; cases h
    · rw [hp] at h; cases h

/-- C65: whatever other callers passed before, between and after, a name made from an ordinary string
has the text of that string, if the call returns. -/
theorem C65_text_partial {search : Searcher} (hs : search.Safe) (xs : List Arg) (i : Nat)
    (s : List Char) (n : NameRef) (hx : xs[i]? = some (Arg.text s))
    (hn : (runArgs search Shared.init xs).1[i]? = some (some n)) : n.text = s := by
  rw [runArgs_get xs _ i _ hx, Option.some.injEq] at hn
  rcases newArg_spec hs (before search Shared.init xs i) (Arg.text s) with
    ⟨_, he⟩ | ⟨_, ⟨_, he⟩ | ⟨_, ho, _⟩ | ⟨_, _, a, he, ht⟩⟩
  · rw [he] at hn; cases hn; rfl
  · rw [he] at hn; cases hn
  · cases ho
  · rw [he] at hn
    cases hn
    rcases ht with ht | ht
    · exact ht
    · exact (Option.some.inj ht).symm

/-- C65: as long as no conversion panics, no call does, even if conversions contradict each other and
the table is out of order. -/
theorem C65_no_panic_partial {search : Searcher} (hs : search.Safe) (xs : List Arg)
    (h : ∀ x ∈ xs, x.own ≠ none) (i : Nat) (hi : i < xs.length) :
    ∃ n, (runArgs search Shared.init xs).1[i]? = some (some n) := by
  have hx : xs[i]? = some xs[i] := List.getElem?_eq_getElem hi
  rw [runArgs_get xs _ i _ hx]
  rcases newArg_spec hs (before search Shared.init xs i) xs[i] with
    ⟨_, he⟩ | ⟨_, ⟨hp, _⟩ | ⟨_, ho, _⟩ | ⟨_, _, a, he, _⟩⟩
  · exact ⟨_, by rw [he]⟩
  · obtain ⟨j, x, _, hj, ho, _⟩ := poisoned_by hs xs i (by omega) hp
    exact absurd ho (h x (List.mem_of_getElem? hj))
  · exact absurd ho (h _ (List.getElem_mem hi))
  · exact ⟨_, by rw [he]⟩

/-- C65: a call panics only if its own conversion or that of an earlier call panicked. -/
theorem C65_blame_partial {search : Searcher} (hs : search.Safe) (xs : List Arg) (i : Nat)
    (h : (runArgs search Shared.init xs).1[i]? = some none) :
    ∃ j x, j ≤ i ∧ xs[j]? = some x ∧ x.own = none ∧ ¬ WellKnown x.ref := by
  have hi : i < xs.length := by
    rw [← runArgs_length (search := search) xs Shared.init]
    exact (List.getElem?_eq_some_iff.mp h).1
  have hx : xs[i]? = some xs[i] := List.getElem?_eq_getElem hi
  rw [runArgs_get xs _ i _ hx, Option.some.injEq] at h
  rcases newArg_spec hs (before search Shared.init xs i) xs[i] with
    ⟨_, he⟩ | ⟨hw, ⟨hp, _⟩ | ⟨_, ho, _⟩ | ⟨_, _, a, he, _⟩⟩
  · rw [he] at h; cases h
  · obtain ⟨j, x, hj, h⟩ := poisoned_by hs xs i (by omega) hp
    exact ⟨j, x, by omega, h⟩
  · exact ⟨i, _, Nat.le_refl _, hx, ho, hw⟩
  · rw [he] at h; cases h

/-- C65: a call with a well known text never panics. -/
theorem C65_well_known_partial {search : Searcher} (hs : search.Safe) (xs : List Arg) (i : Nat)
    (x : Arg) (hx : xs[i]? = some x) (hw : x.ref = c!"object" ∨ x.ref = c!"number") :
    (runArgs search Shared.init xs).1[i]? = some (some (.static x.ref)) := by
  rw [runArgs_get xs _ i _ hx]
  rcases newArg_spec hs (before search Shared.init xs i) x with ⟨_, he⟩ | ⟨h, _⟩
  · rw [he]
  · exact absurd hw h

/-- C65 is false: one panic in a conversion makes every later call panic, for every text except the
two well known ones. -/
theorem C65_poison {search : Searcher} (hs : search.Safe) (xs : List Arg) (i j : Nat) (x : Arg)
    (hij : i < j) (h : (runArgs search Shared.init xs).1[i]? = some none) (hx : xs[j]? = some x)
    (hw : x.ref ≠ c!"object" ∧ x.ref ≠ c!"number") :
    (runArgs search Shared.init xs).1[j]? = some none := by
  have hi : i < xs.length := by
    rw [← runArgs_length (search := search) xs Shared.init]
    exact (List.getElem?_eq_some_iff.mp h).1
  have hjl : j < xs.length := (List.getElem?_eq_some_iff.mp hx).1
  have hxi : xs[i]? = some xs[i] := List.getElem?_eq_getElem hi
  rw [runArgs_get xs _ i _ hxi, Option.some.injEq] at h
  have hp : (before search Shared.init xs (i + 1)).poisoned = true := by
    rw [before_succ xs _ i _ hxi]
    rcases newArg_spec hs (before search Shared.init xs i) xs[i] with
      ⟨_, he⟩ | ⟨_, ⟨hp, he⟩ | ⟨_, _, _, hp⟩ | ⟨_, _, a, he, _⟩⟩
    · rw [he] at h; cases h
    · rw [he]; exact hp
    · exact hp
    · rw [he] at h; cases h
  have hpj := poisoned_stays hs xs (i + 1) hp (j - (i + 1)) (by omega)
  rw [show i + 1 + (j - (i + 1)) = j by omega] at hpj
  rw [runArgs_get xs _ j _ hx]
  rcases newArg_spec hs (before search Shared.init xs j) x with
    ⟨hk, _⟩ | ⟨_, ⟨_, he⟩ | ⟨h, _⟩ | ⟨h, _⟩⟩
  · exact (hk.elim hw.1 hw.2).elim
  · rw [he]
  · rw [hpj] at h; cases h
  · rw [hpj] at h; cases h

/-- The second call panics in its conversion; the third and the fifth have ordinary arguments. -/
example : (runArgs binarySearchBy Shared.init
      [.text c!"a", ⟨c!"b", none⟩, .text c!"a", .text c!"number", .text c!"c"]).1 =
    [some (.str ⟨0, c!"a"⟩), none, none, some (.static c!"number"), none] := by decide +kernel

/-- A conversion that would panic is not called if the text is known. -/
example : (runArgs binarySearchBy Shared.init [.text c!"a", ⟨c!"a", none⟩, .text c!"b"]).1 =
    [some (.str ⟨0, c!"a"⟩), some (.str ⟨0, c!"a"⟩), some (.str ⟨1, c!"b"⟩)] := by decide +kernel

/-- C65 is false: an ordinary string can be turned down because of another caller. -/
theorem C65_false_panic : ∃ xs : List Arg, ∃ (i : Nat) (s : List Char), xs[i]? = some (Arg.text s) ∧
    (runArgs binarySearchBy Shared.init xs).1[i]? = some none :=
  ⟨[⟨c!"b", none⟩, .text c!"a"], 1, c!"a", rfl, by decide +kernel⟩

/-- C65 is false: after one conversion that contradicts `as_ref`, the same ordinary string is stored
twice, so equal names no longer share their allocation. -/
theorem C65_false : ∃ xs : List Arg, ∃ (i j : Nat) (s : List Char) (x y : NameRef),
    xs[i]? = some (Arg.text s) ∧ xs[j]? = some (Arg.text s) ∧
    (runArgs binarySearchBy Shared.init xs).1[i]? = some (some x) ∧
    (runArgs binarySearchBy Shared.init xs).1[j]? = some (some y) ∧ ¬ WellKnown s ∧ ¬ SameAlloc x y := by
  refine ⟨[.text c!"m", .text c!"a", ⟨c!"k", some c!"A"⟩, .text c!"a"], 1, 3, c!"a",
    .str ⟨1, c!"a"⟩, .str ⟨3, c!"a"⟩, rfl, rfl, by decide +kernel, by decide +kernel, ?_, ?_⟩
  · rintro (h | h) <;> cases h
  · rintro ⟨a, b, h1, h2, h3⟩
    cases h1; cases h2; cases h3

/-- C65: with ordinary strings only, the calls are the ones of C05-C07, and none panics. -/
theorem C65_ordinary {search : Searcher} (hs : search.Correct) (ss : List (List Char)) :
    ∃ ns st, runCalls search Interner.init ss = some (ns, st) ∧
      runArgs search Shared.init (ss.map Arg.text) = (ns.map some, ⟨st, false⟩) := by
  have key : ∀ (ss : List (List Char)) (st : Interner), Inv st →
      ∃ ns st', runCalls search st ss = some (ns, st') ∧
        runArgs search ⟨st, false⟩ (ss.map Arg.text) = (ns.map some, ⟨st', false⟩) := by
    intro ss
    induction ss with
    | nil => intro st _; exact ⟨[], st, rfl, rfl⟩
    | cons s ss ih =>
      intro st hi
      obtain ⟨n, st1, h1, hi1, _⟩ := newName_spec hs hi s
      obtain ⟨ns, st2, h2, h3⟩ := ih st1 hi1
      refine ⟨n :: ns, st2, by simp [runCalls, h1, h2], ?_⟩
      have hcall : newArg search ⟨st, false⟩ (Arg.text s) = (some n, ⟨st1, false⟩) := by
        unfold newName at h1
        unfold newArg
        show (match Name.mapToStatic s with
          | some t => _
          | none => _) = _
        cases hm : Name.mapToStatic s with
        | some t => rw [hm] at h1; cases h1; rfl
        | none =>
          rw [hm] at h1
          dsimp only at h1 ⊢
          obtain ⟨⟨a, st'⟩, h4, h5⟩ := Option.map_eq_some_iff.mp h1
          cases h5
          unfold internString at h4
          unfold internArg Arg.text
          simp only [Bool.false_eq_true, if_false]
          cases hr : search (fun a => strCmp s a.text) st.table with
          | oob => rw [hr] at h4; cases h4
          | found i =>
            rw [hr] at h4
            obtain ⟨b, h6, h7⟩ := Option.map_eq_some_iff.mp h4
            cases h7
            simp [h6]
          | missing i =>
            rw [hr] at h4
            dsimp only at h4 ⊢
            by_cases hle : i ≤ st.table.length
            · rw [if_pos hle] at h4
              obtain ⟨b, h6, h7⟩ := Option.map_eq_some_iff.mp h4
              cases h7
              simp [hle, h6]
            · rw [if_neg hle] at h4; cases h4
      simp only [List.map_cons, runArgs, hcall, h3]
  exact key ss Interner.init Inv.init

end Pddl
