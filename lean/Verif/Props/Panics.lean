import Verif.Props.Builds
import Verif.Props.Api
import Verif.Props.Hashing

/-!
# C65 and C69: exactly when

`C65_panic_iff` says exactly which calls of `Name::new` panic if the conversions of the callers agree
with each other or panic, `C65_shared_partial` that the others share allocations. `C69_call_iff` says exactly when `T::from_str` is what the trait has.
-/

namespace Pddl

/-- The two conversions of the argument give the same text, or the second one panics. -/
def Arg.Honest (x : Arg) : Prop := x.own = none ∨ x.own = some x.ref

theorem newArg_well_known {search : Searcher} {x : Arg} (hw : WellKnown x.ref) (sh : Shared) :
    newArg search sh x = (some (.static x.ref), sh) := by
  unfold newArg
  cases hm : Name.mapToStatic x.ref with
  | some t => rw [mapToStatic_some hm]
  | none => exact absurd hw (mapToStatic_none.mp hm)

theorem newArg_poisoned {search : Searcher} {x : Arg} (hw : ¬ WellKnown x.ref) {sh : Shared}
    (hp : sh.poisoned = true) : newArg search sh x = (none, sh) := by
  unfold newArg internArg
  rw [mapToStatic_none.mpr hw, if_pos hp]
  rfl

/-- What a call does to a table in order. -/
theorem newArg_honest {search : Searcher} (hs : search.Correct) {st : Interner} (hi : Inv st) {x : Arg}
    (hw : ¬ WellKnown x.ref) (hh : x.Honest) :
    (∃ a ∈ st.table, a.text = x.ref ∧ newArg search ⟨st, false⟩ x = (some (.str a), ⟨st, false⟩)) ∨
    ((∀ a ∈ st.table, a.text ≠ x.ref) ∧
      ((x.own = none ∧ newArg search ⟨st, false⟩ x = (none, ⟨st, true⟩)) ∨
       (x.own = some x.ref ∧ ∃ a st', newArg search ⟨st, false⟩ x = (some (.str a), ⟨st', false⟩) ∧ Inv st' ∧
          a.text = x.ref ∧ ∀ b, b ∈ st'.table ↔ b = a ∨ b ∈ st.table))) := by
  have hok := hs _ _ (hi.partitioned x.ref)
  unfold newArg internArg
  rw [mapToStatic_none.mpr hw]
  simp only [Bool.false_eq_true, if_false]
  cases hr : search (fun a => strCmp x.ref a.text) st.table with
  | oob => rw [hr] at hok; exact hok.elim
  | found i =>
    rw [hr] at hok
    obtain ⟨a, ha, he⟩ := hok
    exact .inl ⟨a, List.mem_of_getElem? ha, ((strCmp_eq_iff _ _).mp he).symm, by simp [ha]⟩
  | missing i =>
    rw [hr] at hok
    obtain ⟨h1, h2, h3⟩ := hi.insert hok
    refine .inr ⟨fun a ha he => ?_, ?_⟩
    · obtain ⟨j, hj⟩ := List.getElem?_of_mem ha
      have heq : strCmp x.ref a.text = .eq := (strCmp_eq_iff _ _).mpr he.symm
      have := hok.2 j a hj
      rcases Nat.lt_or_ge j i with h | h
      · have := this.1 h; simp only [heq] at this; cases this
      · have := this.2 h; simp only [heq] at this; cases this
    · rcases hh with ho | ho
      · exact .inl ⟨ho, by simp [ho]⟩
      · exact .inr ⟨ho, ⟨st.next, x.ref⟩, _, by simp [ho, hok.1, h2], h1, rfl, h3⟩

theorem runArgs_poisoned {search : Searcher} : ∀ (xs : List Arg) {sh : Shared}, sh.poisoned = true → ∀ i : Nat,
    (runArgs search sh xs).1[i]? = some none ↔ ∃ x : Arg, xs[i]? = some x ∧ ¬ WellKnown x.ref
  | [], _, _, i => by simp [runArgs]
  | x :: xs, sh, hp, i => by
    have hsh : (newArg search sh x).2 = sh := by
      by_cases hw : WellKnown x.ref
      · rw [newArg_well_known hw]
      · rw [newArg_poisoned hw hp]
    cases i with
    | zero =>
      simp only [runArgs, List.getElem?_cons_zero, Option.some.injEq]
      by_cases hw : WellKnown x.ref
      · rw [newArg_well_known hw]
        exact ⟨fun h => (by cases h), fun ⟨_, e, h⟩ => absurd (e ▸ hw) h⟩
      · rw [newArg_poisoned hw hp]
        exact ⟨fun _ => ⟨_, rfl, hw⟩, fun _ => rfl⟩
    | succ i =>
      simp only [runArgs, List.getElem?_cons_succ, hsh]
      exact runArgs_poisoned xs hp i

/-- The call at `j` is the first for its text, its conversion panics, and the text is not well known. -/
def FirstBad (xs : List Arg) (j : Nat) : Prop :=
  ∃ y, xs[j]? = some y ∧ y.own = none ∧ y.ref ≠ c!"object" ∧ y.ref ≠ c!"number" ∧
    ∀ (k : Nat) (z : Arg), k < j → xs[k]? = some z → z.ref ≠ y.ref

theorem wellKnown_not {t : List Char} : ¬ WellKnown t ↔ t ≠ c!"object" ∧ t ≠ c!"number" := by
  unfold WellKnown
  exact not_or

theorem panic_key {search : Searcher} (hs : search.Correct) : ∀ (xs : List Arg), (∀ x ∈ xs, x.Honest) →
    ∀ {st : Interner}, Inv st → ∀ i : Nat, (runArgs search ⟨st, false⟩ xs).1[i]? = some none ↔
      ∃ x, xs[i]? = some x ∧ ¬ WellKnown x.ref ∧ ∃ j ≤ i, ∃ y, xs[j]? = some y ∧ y.own = none ∧ ¬ WellKnown y.ref ∧
        (∀ a ∈ st.table, a.text ≠ y.ref) ∧ ∀ (k : Nat) (z : Arg), k < j → xs[k]? = some z → z.ref ≠ y.ref
  | [], _, _, _, i => by simp [runArgs]
  | x :: xs, hh, st, hi, i => by
    have hx := hh x (List.mem_cons_self ..)
    have ih := @panic_key search hs xs fun y hy => hh y (List.mem_cons_of_mem _ hy)
    -- a call that does not panic
    have step : ∀ {n : NameRef} {st' : Interner}, newArg search ⟨st, false⟩ x = (some n, ⟨st', false⟩) → Inv st' →
        (∀ t, ¬ WellKnown t → ((∀ a ∈ st'.table, a.text ≠ t) ↔ (∀ a ∈ st.table, a.text ≠ t) ∧ x.ref ≠ t)) →
        (¬ WellKnown x.ref → (∀ a ∈ st.table, a.text ≠ x.ref) → x.own ≠ none) →
        ((runArgs search ⟨st, false⟩ (x :: xs)).1[i]? = some none ↔
          ∃ z, (x :: xs)[i]? = some z ∧ ¬ WellKnown z.ref ∧ ∃ j ≤ i, ∃ y, (x :: xs)[j]? = some y ∧ y.own = none ∧
            ¬ WellKnown y.ref ∧ (∀ a ∈ st.table, a.text ≠ y.ref) ∧
            ∀ (k : Nat) (z : Arg), k < j → (x :: xs)[k]? = some z → z.ref ≠ y.ref) := by
      intro n st' e hi' ht ho
      cases i with
      | zero =>
        simp only [runArgs, e, List.getElem?_cons_zero, Option.some.injEq]
        refine ⟨fun h => (by cases h), ?_⟩
        rintro ⟨z, rfl, hw, j, hj, y, hy, h1, h2, h3, h4⟩
        obtain rfl : j = 0 := by omega
        cases hy
        exact absurd h1 (ho h2 h3)
      | succ i =>
        simp only [runArgs, e, List.getElem?_cons_succ]
        rw [ih hi' i]
        constructor
        · rintro ⟨z, hz, hw, j, hj, y, hy, h1, h2, h3, h4⟩
          obtain ⟨h5, h6⟩ := (ht _ h2).1 h3
          refine ⟨z, hz, hw, j + 1, by omega, y, by simpa using hy, h1, h2, h5, ?_⟩
          intro k z hk hz
          cases k with
          | zero => cases hz; exact h6
          | succ k => exact h4 k z (by omega) (by simpa using hz)
        · rintro ⟨z, hz, hw, j, hj, y, hy, h1, h2, h3, h4⟩
          cases j with
          | zero => cases hy; exact absurd h1 (ho h2 h3)
          | succ j =>
            refine ⟨z, hz, hw, j, by omega, y, by simpa using hy, h1, h2, (ht _ h2).2 ⟨h3, ?_⟩, ?_⟩
            · exact h4 0 x (by omega) rfl
            · intro k z hk hz
              exact h4 (k + 1) z (by omega) (by simpa using hz)
    by_cases hw : WellKnown x.ref
    · refine step (newArg_well_known hw _) hi (fun t hn => ?_) (fun h => absurd hw h)
      exact ⟨fun h => ⟨h, fun e => hn (e ▸ hw)⟩, fun h => h.1⟩
    · rcases newArg_honest hs hi hw hx with ⟨a, ha, he, h1⟩ | ⟨hn, ⟨ho, h1⟩ | ⟨ho, a, st', h1, hi', he, hb⟩⟩
      · exact step h1 hi (fun t _ => ⟨fun h => ⟨h, fun e => h a ha (he.trans e)⟩, fun h => h.1⟩)
          (fun _ h => absurd he (h a ha))
      · -- the call panics
        have hr : ∀ j : Nat, (runArgs search ⟨st, false⟩ (x :: xs)).1[j]? = some none ↔
            ∃ z : Arg, (x :: xs)[j]? = some z ∧ ¬ WellKnown z.ref := by
          intro j
          cases j with
          | zero =>
            simp only [runArgs, h1, List.getElem?_cons_zero, Option.some.injEq]
            exact ⟨fun _ => ⟨x, rfl, hw⟩, fun _ => trivial⟩
          | succ j =>
            simp only [runArgs, h1, List.getElem?_cons_succ]
            exact runArgs_poisoned xs rfl j
        rw [hr]
        constructor
        · rintro ⟨z, hz, hwz⟩
          exact ⟨z, hz, hwz, 0, by omega, x, rfl, ho, hw, hn, fun k _ hk => by omega⟩
        · rintro ⟨z, hz, hwz, _⟩
          exact ⟨z, hz, hwz⟩
      · refine step h1 hi' (fun t _ => ?_) (fun _ _ => by rw [ho]; simp)
        constructor
        · intro h
          exact ⟨fun b hb' => h b ((hb b).2 (.inr hb')), fun e => h a ((hb a).2 (.inl rfl)) (he.trans e)⟩
        · rintro ⟨h2, h3⟩ b hb'
          rcases (hb b).1 hb' with rfl | hb'
          · rw [he]; exact h3
          · exact h2 b hb'

/-- **C65**: exactly which calls panic, if conversions agree or panic: those with a text that is not well
known, at or after a call that is the first for its text and whose conversion panics. -/
theorem C65_panic_iff {search : Searcher} (hs : search.Correct) (xs : List Arg) (hh : ∀ x ∈ xs, x.Honest) (i : Nat) :
    (runArgs search Shared.init xs).1[i]? = some none ↔
      ∃ x, xs[i]? = some x ∧ x.ref ≠ c!"object" ∧ x.ref ≠ c!"number" ∧ ∃ j ≤ i, FirstBad xs j := by
  rw [show Shared.init = ⟨Interner.init, false⟩ from rfl, panic_key hs xs hh Inv.init i]
  simp only [wellKnown_not, FirstBad]
  constructor
  · rintro ⟨x, hx, ⟨h1, h2⟩, j, hj, y, hy, ho, ⟨h3, h4⟩, _, h5⟩
    exact ⟨x, hx, h1, h2, j, hj, y, hy, ho, h3, h4, h5⟩
  · rintro ⟨x, hx, h1, h2, j, hj, y, hy, ho, h3, h4, h5⟩
    exact ⟨x, hx, ⟨h1, h2⟩, j, hj, y, hy, ho, ⟨h3, h4⟩, fun a ha => by simp [Interner.init] at ha, h5⟩

/-- The second call panics and with it the third, but not the fourth. -/
example : FirstBad [.text c!"a", ⟨c!"b", none⟩, .text c!"a", .text c!"object"] 1 ∧
    ∀ x ∈ [Arg.text c!"a", ⟨c!"b", none⟩, .text c!"a", .text c!"object"], x.Honest := by
  refine ⟨⟨_, rfl, rfl, by decide, by decide, fun k z hk hz => ?_⟩, ?_⟩
  · obtain rfl : k = 0 := by omega
    cases hz; decide
  · intro x hx
    simp only [List.mem_cons, List.not_mem_nil, or_false] at hx
    rcases hx with rfl | rfl | rfl | rfl
    · exact .inr rfl
    · exact .inl rfl
    · exact .inr rfl
    · exact .inr rfl

/-- A panicking conversion of a text already in the table is never called. -/
example : (runArgs binarySearchBy Shared.init [.text c!"a", ⟨c!"a", none⟩]).1 =
    [some (.str ⟨0, c!"a"⟩), some (.str ⟨0, c!"a"⟩)] := by decide +kernel

theorem honest_key {search : Searcher} (hs : search.Correct) : ∀ (xs : List Arg), (∀ x ∈ xs, x.Honest) →
    ∀ {sh : Shared}, Inv sh.st → Inv (runArgs search sh xs).2.st ∧
      (∀ b ∈ sh.st.table, b ∈ (runArgs search sh xs).2.st.table) ∧
      ∀ (i : Nat) (x : Arg) (n : NameRef), xs[i]? = some x → (runArgs search sh xs).1[i]? = some (some n) →
        ResultIn (runArgs search sh xs).2.st x.ref n
  | [], _, _, hi => ⟨hi, fun _ h => h, fun _ _ _ h => by simp at h⟩
  | x :: xs, hh, sh, hi => by
    have hx := hh x (List.mem_cons_self ..)
    have h1 : Inv (newArg search sh x).2.st ∧ (∀ b ∈ sh.st.table, b ∈ (newArg search sh x).2.st.table) ∧
        ∀ n, (newArg search sh x).1 = some n → ResultIn (newArg search sh x).2.st x.ref n := by
      by_cases hw : WellKnown x.ref
      · rw [newArg_well_known hw]
        exact ⟨hi, fun _ h => h, fun n h => by cases h; exact .inl ⟨hw, rfl⟩⟩
      · cases hp : sh.poisoned with
        | true =>
          rw [newArg_poisoned hw hp]
          exact ⟨hi, fun _ h => h, fun n h => by cases h⟩
        | false =>
          obtain ⟨st, p⟩ := sh
          dsimp only at hp hi
          subst hp
          rcases newArg_honest hs hi hw hx with ⟨a, ha, he, h1⟩ | ⟨hn, ⟨ho, h1⟩ | ⟨ho, a, st', h1, hi', he, hb⟩⟩
          · rw [h1]
            exact ⟨hi, fun _ h => h, fun n h => by cases h; exact .inr ⟨hw, a, ha, rfl, he⟩⟩
          · rw [h1]
            exact ⟨hi, fun _ h => h, fun n h => by cases h⟩
          · rw [h1]
            exact ⟨hi', fun b h => (hb b).2 (.inr h), fun n h => by
              cases h; exact .inr ⟨hw, a, (hb a).2 (.inl rfl), rfl, he⟩⟩
    obtain ⟨k1, k2, k3⟩ := honest_key hs xs (fun y hy => hh y (List.mem_cons_of_mem _ hy)) h1.1
    refine ⟨k1, fun b hb => k2 b (h1.2.1 b hb), fun i y n hy hn => ?_⟩
    cases i with
    | zero =>
      cases hy
      exact (h1.2.2 n (Option.some.inj hn)).mono k2
    | succ i => exact k3 i y n hy hn

/-- **C65**: if conversions agree or panic, the names of one text that is not well known share one
allocation, whatever happens between the two calls. -/
theorem C65_shared_partial {search : Searcher} (hs : search.Correct) (xs : List Arg) (hh : ∀ x ∈ xs, x.Honest)
    (i j : Nat) (x y : Arg) (n m : NameRef) (hx : xs[i]? = some x) (hy : xs[j]? = some y) (he : x.ref = y.ref)
    (hw : x.ref ≠ c!"object" ∧ x.ref ≠ c!"number") (hn : (runArgs search Shared.init xs).1[i]? = some (some n))
    (hm : (runArgs search Shared.init xs).1[j]? = some (some m)) : SameAlloc n m ∧ n.text = x.ref ∧ m.text = x.ref := by
  obtain ⟨hi, _, hr⟩ := honest_key hs xs hh (sh := Shared.init) Inv.init
  have hw := wellKnown_not.mpr hw
  rcases hr i x n hx hn with ⟨h, _⟩ | ⟨_, a, ha, rfl, h1⟩
  · exact absurd h hw
  rcases hr j y m hy hm with ⟨h, _⟩ | ⟨_, b, hb, rfl, h2⟩
  · exact absurd (he ▸ h) hw
  have : a = b := hi.text_inj ha hb (h1.trans (he.trans h2.symm))
  subst this
  exact ⟨⟨a, a, rfl, rfl, rfl⟩, h1, h1⟩

/-- A panicking conversion that is not called does no harm. -/
example : (runArgs binarySearchBy Shared.init [.text c!"a", ⟨c!"a", none⟩, .text c!"b"]).1 =
    [some (.str ⟨0, c!"a"⟩), some (.str ⟨0, c!"a"⟩), some (.str ⟨1, c!"b"⟩)] := by decide +kernel

/-! ## The call `T::from_str` -/

theorem own_word {t : List Char} (h : ∃ g u x, t = g ++ (u ++ x) ∧ Gap g ∧ NameW (Name.new t) u) : IsWord t := by
  obtain ⟨g, u, x, rfl, _, hu, e⟩ := h
  have hv := congrArg Name.text e
  rw [wordName_eq, Name.text_new, Name.text_new] at hv
  have := congrArg List.length hv
  simp only [List.length_append] at this
  obtain rfl : g = [] := List.length_eq_zero_iff.mp (by omega)
  obtain rfl : x = [] := List.length_eq_zero_iff.mp (by omega)
  simpa using hu

/-- **C69**: exactly when `T::from_str` returns what the trait's function returns: for the six types with
a function of their own, on single words, and never for variables. -/
theorem C69_call_iff (k : Parsable) (t : List Char) :
    k.call t = k.fromStr t ↔ k.ownFromStr = none ∨ (k ≠ .variable_ ∧ IsWord t) := by
  refine ⟨fun h => ?_, C69_call_partial k t⟩
  cases k
  case variable_ =>
    exact absurd rfl (C69_false_call_variable t (Name.new t) h.symm)
  case actionSymbol => exact .inr ⟨nofun, own_word (C69_from_str_only .actionSymbol t _ _ h.symm).2⟩
  case durativeActionSymbol => exact .inr ⟨nofun, own_word (C69_from_str_only .durativeActionSymbol t _ _ h.symm).2⟩
  case functionSymbol => exact .inr ⟨nofun, own_word (C69_from_str_only .functionSymbol t _ _ h.symm).2⟩
  case predicate => exact .inr ⟨nofun, own_word (C69_from_str_only .predicate t _ _ h.symm).2⟩
  case preferenceName => exact .inr ⟨nofun, own_word (C69_from_str_only .preferenceName t _ _ h.symm).2⟩
  all_goals exact .inl rfl

example : Parsable.predicate.call c!"on-table" = Parsable.predicate.fromStr c!"on-table" ∧
    Parsable.predicate.call c!" on-table" ≠ Parsable.predicate.fromStr c!" on-table" := by
  constructor
  · exact (C69_call_iff _ _).2 (.inr ⟨nofun, isWord_of _ _ (by decide) (by decide)⟩)
  · intro h
    rcases (C69_call_iff _ _).1 h with h | ⟨_, c, cs, e, hc, _⟩
    · cases h
    · rw [← (List.cons.inj e).1] at hc; revert hc; decide

/-! ## The texts of assignment operators -/

/-- **C72**: an assignment operator equals a text exactly if the text is read as it, but for the text
`change`, which is read as an assignment and not equal to it. -/
theorem C72_assign_text_iff (o : AssignOp) (s : List Char) :
    (o.eqStr s = true ↔ AssignOp.tryFrom s = some o) ↔ ¬ (o = .assign ∧ s = c!"change") := by
  constructor
  · rintro h ⟨rfl, rfl⟩
    have := h.2 C72_false_assign_text.1
    rw [C72_false_assign_text.2] at this
    cases this
  · intro h
    refine ⟨(C72_assign_text_partial o s).2, fun e => (C72_assign_text_partial o s).1.2 ?_⟩
    unfold AssignOp.tryFrom at e
    repeat' split at e
    all_goals first
      | (cases e; done)
      | (cases e; assumption)
      | (cases e; exact absurd ⟨rfl, by assumption⟩ h)

example : AssignOp.eqStr .increase c!"increase" = true ∧ AssignOp.tryFrom c!"increase" = some .increase := by decide

end Pddl
