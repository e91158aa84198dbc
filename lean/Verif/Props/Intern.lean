import Verif.Intern

/-!
# C05–C08: interning and equality of names
-/

namespace Pddl

/-! ## `strCmp` is a total order -/

theorem charEq {a b : Char} (h : a.toNat = b.toNat) : a = b := by
  apply Char.ext
  apply UInt32.toNat.inj
  exact h

theorem strCmp_eq_iff : ∀ s t, strCmp s t = .eq ↔ s = t
  | [], [] => by simp [strCmp]
  | [], _ :: _ => by simp [strCmp]
  | _ :: _, [] => by simp [strCmp]
  | a :: s, b :: t => by
    simp only [strCmp, List.cons.injEq]
    by_cases h1 : a.toNat < b.toNat
    · simp only [h1, if_true, reduceCtorEq, false_iff]
      rintro ⟨rfl, _⟩; omega
    · by_cases h2 : b.toNat < a.toNat
      · simp only [h1, h2, if_false, if_true, reduceCtorEq, false_iff]
        rintro ⟨rfl, _⟩; omega
      · simp only [h1, h2, if_false, strCmp_eq_iff s t]
        have : a = b := charEq (by omega)
        simp [this]

theorem strCmp_swap : ∀ s t, strCmp s t = .lt ↔ strCmp t s = .gt
  | [], [] => by simp [strCmp]
  | [], _ :: _ => by simp [strCmp]
  | _ :: _, [] => by simp [strCmp]
  | a :: s, b :: t => by
    simp only [strCmp]
    by_cases h1 : a.toNat < b.toNat
    · have : ¬ b.toNat < a.toNat := by omega
      simp [h1, this]
    · by_cases h2 : b.toNat < a.toNat
      · simp [h1, h2]
      · simp [h1, h2, strCmp_swap s t]

theorem strCmp_trans : ∀ s t u, strCmp s t = .lt → strCmp t u = .lt → strCmp s u = .lt
  | [], [], _ => by simp [strCmp]
  | [], _ :: _, [] => by simp [strCmp]
  | [], _ :: _, _ :: _ => by simp [strCmp]
  | _ :: _, [], _ => by simp [strCmp]
  | _ :: _, _ :: _, [] => by simp [strCmp]
  | a :: s, b :: t, c :: u => by
    simp only [strCmp]
    intro h1 h2
    have ih := strCmp_trans s t u
    split at h1
    · split at h2
      · rw [if_pos (by omega)]
      · split at h2
        · cases h2
        · rw [if_pos (by omega)]
    · split at h1
      · cases h1
      · split at h2
        · rw [if_pos (by omega)]
        · split at h2
          · cases h2
          · rw [if_neg (by omega), if_neg (by omega)]
            exact ih h1 h2

/-! ## The contract of the search -/

/-- The slice is partitioned: elements left of the target, then equal ones, then those right of it.
This is the documented precondition of `binary_search_by`. -/
def Partitioned {α : Type} (f : α → Ordering) (l : List α) : Prop :=
  ∀ (i j : Nat) (x y : α), i < j → l[i]? = some x → l[j]? = some y →
    (f y = .lt → f x = .lt) ∧ (f x = .gt → f y = .gt)

/-- The documented result of `binary_search_by` on a partitioned slice. -/
def SearchOk {α : Type} (f : α → Ordering) (l : List α) : Search → Prop
  | .found i => ∃ x, l[i]? = some x ∧ f x = .eq
  | .missing i => i ≤ l.length ∧
      ∀ (j : Nat) (x : α), l[j]? = some x → (j < i → f x = .lt) ∧ (i ≤ j → f x = .gt)
  | .oob => False

/-- A search procedure meeting the contract. -/
def Searcher.Correct (search : Searcher) : Prop :=
  ∀ f l, Partitioned f l → SearchOk f l (search f l)

theorem binarySearchLoop_ok {α : Type} (f : α → Ordering) (l : List α) (hp : Partitioned f l)
    (left right : Nat) (hle : left ≤ right) (hr : right ≤ l.length)
    (h1 : ∀ (j : Nat) (x : α), l[j]? = some x → j < left → f x = .lt)
    (h2 : ∀ (j : Nat) (x : α), l[j]? = some x → right ≤ j → f x = .gt) :
    SearchOk f l (binarySearchLoop f l left right) := by
  unfold binarySearchLoop
  by_cases h : left < right
  · simp only [h, dite_true]
    have hm1 : left + (right - left) / 2 < right := by omega
    have hm2 : left ≤ left + (right - left) / 2 := by omega
    generalize hmid : left + (right - left) / 2 = mid at hm1 hm2 ⊢
    have hlen : mid < l.length := by omega
    rw [List.getElem?_eq_getElem hlen]
    have hx : l[mid]? = some l[mid] := List.getElem?_eq_getElem hlen
    dsimp only
    cases hf : f l[mid] with
    | eq => exact ⟨_, hx, hf⟩
    | lt =>
      refine binarySearchLoop_ok f l hp (mid + 1) right (by omega) hr ?_ h2
      intro j x hj hlt
      by_cases hjm : j = mid
      · subst hjm
        rw [hx] at hj; cases hj; exact hf
      · exact (hp j mid x _ (by omega) hj hx).1 hf
    | gt =>
      refine binarySearchLoop_ok f l hp left mid (by omega) (by omega) h1 ?_
      intro j x hj hge
      by_cases hjm : j = mid
      · subst hjm
        rw [hx] at hj; cases hj; exact hf
      · exact (hp mid j _ x (by omega) hx hj).2 hf
  · simp only [h, dite_false]
    refine ⟨by omega, fun j x hj => ⟨h1 j x hj, fun hge => h2 j x hj (by omega)⟩⟩
termination_by right - left

/-- The loop of the standard library meets its contract; in particular it never reads out of
bounds. -/
theorem binarySearchBy_correct : Searcher.Correct binarySearchBy := by
  intro f l hp
  refine binarySearchLoop_ok f l hp 0 l.length (by omega) (by omega) (fun j x _ h => by omega) ?_
  intro j x hj hge
  rw [List.getElem?_eq_none hge] at hj
  cases hj

/-! ## Table invariant -/

/-- Strictly descending texts (the comparator at `/repo/src/types/name.rs:96` is reversed), distinct
allocations, all older than `next`. -/
structure Inv (st : Interner) : Prop where
  desc : st.table.Pairwise fun a b => strCmp b.text a.text = .lt
  fresh : ∀ a ∈ st.table, a.id < st.next
  ids : st.table.Pairwise fun a b => a.id ≠ b.id

theorem Inv.init : Inv Interner.init := ⟨.nil, by simp [Interner.init], .nil⟩

theorem pairwise_mem_eq {α β : Type} {R : α → α → Prop} (g : α → β)
    (hR : ∀ a b, R a b → g a ≠ g b) {l : List α} (h : l.Pairwise R) {a b : α} (ha : a ∈ l)
    (hb : b ∈ l) (hg : g a = g b) : a = b := by
  induction h with
  | nil => cases ha
  | cons hx _ ih =>
    rcases List.mem_cons.mp ha with rfl | ha' <;> rcases List.mem_cons.mp hb with rfl | hb'
    · rfl
    · exact absurd hg (hR _ _ (hx _ hb'))
    · exact absurd hg.symm (hR _ _ (hx _ ha'))
    · exact ih ha' hb'

theorem Inv.text_inj {st : Interner} (h : Inv st) {a b : Arc} (ha : a ∈ st.table)
    (hb : b ∈ st.table) (he : a.text = b.text) : a = b := by
  refine pairwise_mem_eq Arc.text ?_ h.desc ha hb he
  intro a b hab he
  rw [he, (strCmp_eq_iff _ _).mpr rfl] at hab
  cases hab

theorem Inv.id_inj {st : Interner} (h : Inv st) {a b : Arc} (ha : a ∈ st.table)
    (hb : b ∈ st.table) (he : a.id = b.id) : a = b :=
  pairwise_mem_eq Arc.id (fun _ _ h => h) h.ids ha hb he

theorem Inv.partitioned {st : Interner} (h : Inv st) (s : List Char) :
    Partitioned (fun a : Arc => strCmp s a.text) st.table := by
  intro i j x y hij hx hy
  have hxy : strCmp y.text x.text = .lt := by
    obtain ⟨hi, rfl⟩ := List.getElem?_eq_some_iff.mp hx
    obtain ⟨hj, rfl⟩ := List.getElem?_eq_some_iff.mp hy
    exact List.pairwise_iff_getElem.mp h.desc i j hi hj hij
  constructor
  · intro hlt
    exact strCmp_trans _ _ _ hlt hxy
  · intro hgt
    exact (strCmp_swap _ _).mp (strCmp_trans _ _ _ hxy ((strCmp_swap _ _).mpr hgt))

theorem insertIdx_eq {α : Type} (a : α) :
    ∀ (l : List α) (i : Nat), i ≤ l.length → l.insertIdx i a = l.take i ++ a :: l.drop i
  | _, 0, _ => by simp
  | x :: l, i + 1, h => by
    simp only [List.insertIdx_succ_cons, List.take_succ_cons, List.drop_succ_cons, List.cons_append]
    rw [insertIdx_eq a l i (by simpa using h)]

/-- Inserting at the position of a failed search keeps the invariant. -/
theorem Inv.insert {st : Interner} (h : Inv st) {s : List Char} {i : Nat}
    (hok : SearchOk (fun a : Arc => strCmp s a.text) st.table (.missing i)) :
    Inv ⟨st.table.insertIdx i ⟨st.next, s⟩, st.next + 1⟩ ∧
    (st.table.insertIdx i ⟨st.next, s⟩)[i]? = some ⟨st.next, s⟩ ∧
    (∀ b, b ∈ st.table.insertIdx i ⟨st.next, s⟩ ↔ b = ⟨st.next, s⟩ ∨ b ∈ st.table) := by
  obtain ⟨hi, hall⟩ := hok
  rw [insertIdx_eq _ _ _ hi]
  have htake : ∀ a ∈ st.table.take i, strCmp s a.text = .lt := by
    intro a ha
    obtain ⟨j, hj, rfl⟩ := List.mem_iff_getElem.mp ha
    rw [List.length_take] at hj
    refine (hall j _ ?_).1 (by omega)
    rw [List.getElem_take, List.getElem?_eq_getElem]
  have hdrop : ∀ a ∈ st.table.drop i, strCmp s a.text = .gt := by
    intro a ha
    obtain ⟨j, hj, rfl⟩ := List.mem_iff_getElem.mp ha
    rw [List.length_drop] at hj
    refine (hall (i + j) _ ?_).2 (by omega)
    rw [List.getElem_drop, List.getElem?_eq_getElem]
  have hsplit : st.table.take i ++ st.table.drop i = st.table := List.take_append_drop _ _
  refine ⟨⟨?_, ?_, ?_⟩, ?_, ?_⟩
  · have hd := h.desc
    rw [← hsplit, List.pairwise_append] at hd
    rw [List.pairwise_append]
    refine ⟨hd.1, List.pairwise_cons.mpr ⟨?_, hd.2.1⟩, ?_⟩
    · intro b hb
      exact (strCmp_swap _ _).mpr (hdrop b hb)
    · intro a ha b hb
      rcases List.mem_cons.mp hb with rfl | hb
      · exact htake a ha
      · exact hd.2.2 a ha b hb
  · intro a ha
    simp only [List.mem_append, List.mem_cons] at ha
    rcases ha with ha | rfl | ha
    · exact Nat.lt_succ_of_lt (h.fresh a (List.mem_of_mem_take ha))
    · exact Nat.lt_succ_self _
    · exact Nat.lt_succ_of_lt (h.fresh a (List.mem_of_mem_drop ha))
  · have hd := h.ids
    rw [← hsplit, List.pairwise_append] at hd
    rw [List.pairwise_append]
    refine ⟨hd.1, List.pairwise_cons.mpr ⟨?_, hd.2.1⟩, ?_⟩
    · intro b hb
      have := h.fresh b (List.mem_of_mem_drop hb)
      show st.next ≠ b.id
      omega
    · intro a ha b hb
      rcases List.mem_cons.mp hb with rfl | hb
      · have := h.fresh a (List.mem_of_mem_take ha)
        show a.id ≠ st.next
        omega
      · exact hd.2.2 a ha b hb
  · rw [List.getElem?_append_right (by rw [List.length_take]; omega)]
    simp [List.length_take, Nat.min_eq_left hi]
  · intro b
    rw [List.mem_append, List.mem_cons]
    conv => rhs; rw [← hsplit, List.mem_append]
    constructor
    · rintro (h | h | h) <;> simp [h]
    · rintro (h | h | h) <;> simp [h]

/-- What one `Name::new_string_interned` call does. -/
theorem internString_spec {search : Searcher} (hs : search.Correct) {st : Interner} (h : Inv st)
    (s : List Char) :
    ∃ a st', internString search st s = some (a, st') ∧ Inv st' ∧ a.text = s ∧
      ∀ b, b ∈ st'.table ↔ b = a ∨ b ∈ st.table := by
  have hok := hs _ _ (h.partitioned s)
  unfold internString
  cases hr : search (fun a => strCmp s a.text) st.table with
  | oob => rw [hr] at hok; exact hok.elim
  | found i =>
    rw [hr] at hok
    obtain ⟨x, hx, he⟩ := hok
    refine ⟨x, st, by simp [hx], h, ((strCmp_eq_iff _ _).mp he).symm, fun b => ?_⟩
    constructor
    · exact Or.inr
    · rintro (rfl | hb)
      · exact List.mem_of_getElem? hx
      · exact hb
  | missing i =>
    rw [hr] at hok
    obtain ⟨hinv, hget, hmem⟩ := h.insert hok
    refine ⟨⟨st.next, s⟩, _, ?_, hinv, rfl, hmem⟩
    simp only [hok.1, if_true, hget, Option.map_some]

/-! ## C05, C06: sequential histories -/

/-- `Arc::ptr_eq`: both names are shared strings with the same allocation. -/
def SameAlloc (x y : NameRef) : Prop := ∃ a b, x = .str a ∧ y = .str b ∧ a.id = b.id

/-- The texts kept as `'static` strings. -/
def WellKnown (s : List Char) : Prop := s = c!"object" ∨ s = c!"number"

theorem mapToStatic_none {s} : Name.mapToStatic s = none ↔ ¬ WellKnown s := by
  unfold Name.mapToStatic WellKnown
  by_cases h1 : s = c!"object"
  · simp [h1]
  · by_cases h2 : s = c!"number"
    · simp [h2]
    · rw [if_neg h1, if_neg h2]; simp [h1, h2]

theorem mapToStatic_some {s t} (h : Name.mapToStatic s = some t) : t = s := by
  unfold Name.mapToStatic at h
  split at h
  · cases h; exact (‹s = _›).symm
  · split at h
    · cases h; exact (‹s = _›).symm
    · cases h

/-- The result `x` of a call with text `s`, seen from a later table. -/
def ResultIn (st : Interner) (s : List Char) (x : NameRef) : Prop :=
  (WellKnown s ∧ x = .static s) ∨ (¬ WellKnown s ∧ ∃ a ∈ st.table, x = .str a ∧ a.text = s)

theorem ResultIn.mono {st st' : Interner} (h : ∀ b ∈ st.table, b ∈ st'.table) {s x}
    (hx : ResultIn st s x) : ResultIn st' s x := by
  rcases hx with hx | ⟨hn, a, ha, hx⟩
  · exact .inl hx
  · exact .inr ⟨hn, a, h a ha, hx⟩

theorem ResultIn.text {st s x} (hx : ResultIn st s x) : x.text = s := by
  rcases hx with ⟨_, rfl⟩ | ⟨_, a, _, rfl, ha⟩
  · rfl
  · exact ha

theorem ResultIn.same {st s x s' x'} (hi : Inv st) (hx : ResultIn st s x) (hx' : ResultIn st s' x')
    (hs : ¬ WellKnown s) (hs' : ¬ WellKnown s') : SameAlloc x x' ↔ s = s' := by
  rcases hx with ⟨h, _⟩ | ⟨_, a, ha, rfl, rfl⟩
  · exact absurd h hs
  rcases hx' with ⟨h, _⟩ | ⟨_, b, hb, rfl, rfl⟩
  · exact absurd h hs'
  constructor
  · rintro ⟨a', b', h1, h2, h3⟩
    cases h1; cases h2
    rw [hi.id_inj ha hb h3]
  · intro h
    exact ⟨a, b, rfl, rfl, by rw [hi.text_inj ha hb h]⟩

theorem newName_spec {search : Searcher} (hs : search.Correct) {st : Interner} (h : Inv st)
    (s : List Char) :
    ∃ x st', newName search st s = some (x, st') ∧ Inv st' ∧ ResultIn st' s x ∧
      (∀ b ∈ st.table, b ∈ st'.table) ∧
      ∀ b ∈ st'.table, b ∈ st.table ∨ (b.text = s ∧ ¬ WellKnown s) := by
  unfold newName
  cases hm : Name.mapToStatic s with
  | some t =>
    have := mapToStatic_some hm
    subst this
    have hw : WellKnown t := by
      refine Classical.byContradiction fun hn => ?_
      rw [mapToStatic_none.mpr hn] at hm; cases hm
    exact ⟨_, _, rfl, h, .inl ⟨hw, rfl⟩, fun _ h => h, fun _ h => .inl h⟩
  | none =>
    obtain ⟨a, st', he, hinv, ht, hmem⟩ := internString_spec hs h s
    refine ⟨.str a, st', by simp [he], hinv,
      .inr ⟨mapToStatic_none.mp hm, a, (hmem a).mpr (.inl rfl), rfl, ht⟩,
      fun b hb => (hmem b).mpr (.inr hb), fun b hb => ?_⟩
    rcases (hmem b).mp hb with rfl | hb
    · exact .inr ⟨ht, mapToStatic_none.mp hm⟩
    · exact .inl hb

theorem runCalls_spec {search : Searcher} (hs : search.Correct) :
    ∀ (ss : List (List Char)) {st : Interner}, Inv st →
    ∃ xs st', runCalls search st ss = some (xs, st') ∧ Inv st' ∧ xs.length = ss.length ∧
      (∀ (i : Nat) (s : List Char) (x : NameRef), ss[i]? = some s → xs[i]? = some x → ResultIn st' s x) ∧
      (∀ b ∈ st.table, b ∈ st'.table) ∧
      ∀ b ∈ st'.table, b ∈ st.table ∨ (b.text ∈ ss ∧ ¬ WellKnown b.text)
  | [], st, h => ⟨[], st, rfl, h, rfl, by simp, fun _ h => h, fun _ h => .inl h⟩
  | s :: ss, st, h => by
    obtain ⟨x, st1, he1, hi1, hr1, hm1, hn1⟩ := newName_spec hs h s
    obtain ⟨xs, st2, he2, hi2, hl2, hr2, hm2, hn2⟩ := runCalls_spec hs ss hi1
    refine ⟨x :: xs, st2, by simp [runCalls, he1, he2], hi2, by simp [hl2], ?_,
      fun b hb => hm2 b (hm1 b hb), ?_⟩
    · intro i s' x' h1 h2
      cases i with
      | zero =>
        simp only [List.getElem?_cons_zero, Option.some.injEq] at h1 h2
        subst h1 h2
        exact hr1.mono hm2
      | succ i => exact hr2 i s' x' (by simpa using h1) (by simpa using h2)
    · intro b hb
      rcases hn2 b hb with hb | ⟨hb, hw⟩
      · rcases hn1 b hb with hb | ⟨hb, hw⟩
        · exact .inl hb
        · exact .inr ⟨by simp [hb], hb ▸ hw⟩
      · exact .inr ⟨by simp [hb], hw⟩

/-- C05: no history of `Name::new` calls panics, and each call returns a name with its own text. -/
theorem C05_text_preserved {search : Searcher} (hs : search.Correct) (ss : List (List Char)) :
    ∃ xs st, runCalls search Interner.init ss = some (xs, st) ∧ xs.map NameRef.text = ss := by
  obtain ⟨xs, st, he, _, hl, hr, _⟩ := runCalls_spec hs ss Inv.init
  refine ⟨xs, st, he, ?_⟩
  apply List.ext_getElem (by simp [hl])
  intro i h1 h2
  rw [List.getElem_map]
  have hi : i < xs.length := by simpa using h1
  exact (hr i ss[i] xs[i] (List.getElem?_eq_getElem h2) (List.getElem?_eq_getElem hi)).text

/-- C05 for the code as written, with the standard library's search. -/
theorem C05_text_preserved_std (ss : List (List Char)) :
    ∃ xs st, runCalls binarySearchBy Interner.init ss = some (xs, st) ∧ xs.map NameRef.text = ss :=
  C05_text_preserved binarySearchBy_correct ss

/-- C06: two calls of a history share an allocation exactly when their texts agree, whatever other
calls happened before, between and after them. -/
theorem C06_canonical {search : Searcher} (hs : search.Correct) (ss : List (List Char)) (xs st)
    (he : runCalls search Interner.init ss = some (xs, st)) (i j : Nat) (s t x y)
    (hi : ss[i]? = some s) (hj : ss[j]? = some t) (hx : xs[i]? = some x) (hy : xs[j]? = some y)
    (hws : ¬ WellKnown s) (hwt : ¬ WellKnown t) : SameAlloc x y ↔ s = t := by
  obtain ⟨xs', st', he', hinv, _, hr, _⟩ := runCalls_spec hs ss Inv.init
  rw [he] at he'
  cases he'
  exact (hr i s x hi hx).same hinv (hr j t y hj hy) hws hwt

/-- C06: after any history the table holds every interned text exactly once, and nothing else. -/
theorem C06_table {search : Searcher} (hs : search.Correct) (ss : List (List Char)) (xs st)
    (he : runCalls search Interner.init ss = some (xs, st)) :
    (st.table.map Arc.text).Nodup ∧ (st.table.map Arc.id).Nodup ∧
    ∀ s, s ∈ st.table.map Arc.text ↔ s ∈ ss ∧ ¬ WellKnown s := by
  obtain ⟨xs', st', he', hinv, hl, hr, _, hn⟩ := runCalls_spec hs ss Inv.init
  rw [he] at he'
  cases he'
  refine ⟨?_, ?_, fun s => ?_⟩
  · rw [List.nodup_iff_pairwise_ne, List.pairwise_map]
    refine hinv.desc.imp ?_
    intro a b hab he
    rw [he, (strCmp_eq_iff _ _).mpr rfl] at hab
    cases hab
  · rw [List.nodup_iff_pairwise_ne, List.pairwise_map]
    exact hinv.ids
  · constructor
    · intro h
      obtain ⟨a, ha, rfl⟩ := List.mem_map.mp h
      rcases hn a ha with h | h
      · cases h
      · exact h
    · rintro ⟨h, hw⟩
      obtain ⟨i, hi, rfl⟩ := List.mem_iff_getElem.mp h
      rcases hr i ss[i] xs[i] (List.getElem?_eq_getElem hi)
        (List.getElem?_eq_getElem (by omega)) with ⟨h, _⟩ | ⟨_, a, ha, _, ht⟩
      · exact absurd h hw
      · rw [← ht]; exact List.mem_map_of_mem ha

/-- C06: an allocation handed out stays the one for its text: extending a history does not change
the earlier results. -/
theorem C06_stable {search : Searcher} (hs : search.Correct) (ss ts : List (List Char)) (xs st)
    (he : runCalls search Interner.init ss = some (xs, st)) :
    ∃ ys st', runCalls search Interner.init (ss ++ ts) = some (xs ++ ys, st') ∧
      ∀ a ∈ st.table, a ∈ st'.table := by
  have happ : ∀ (ss : List (List Char)) (s0 : Interner) xs st, runCalls search s0 ss = some (xs, st) →
      runCalls search s0 (ss ++ ts) = (runCalls search st ts).map fun y => (xs ++ y.1, y.2) := by
    intro ss
    induction ss with
    | nil =>
      intro s0 xs st h
      cases h
      cases h : runCalls search s0 ts <;> simp [h]
    | cons s ss ih =>
      intro s0 xs st h
      simp only [runCalls, List.cons_append] at h ⊢
      cases h1 : newName search s0 s with
      | none => simp [h1] at h
      | some p =>
        obtain ⟨n, s1⟩ := p
        simp only [h1, Option.bind_eq_bind, Option.bind_some] at h ⊢
        cases h2 : runCalls search s1 ss with
        | none => simp [h2] at h
        | some q =>
          obtain ⟨ns, s2⟩ := q
          simp only [h2, Option.bind_some, Option.some.injEq, Prod.mk.injEq] at h
          rw [ih s1 ns s2 h2, ← h.1, ← h.2]
          cases runCalls search s2 ts <;> simp
  obtain ⟨xs', st1, he', hinv, _⟩ := runCalls_spec hs ss Inv.init
  rw [he] at he'
  cases he'
  obtain ⟨ys, st2, he2, _, _, _, hm, _⟩ := runCalls_spec hs ts hinv
  exact ⟨ys, st2, by rw [happ ss _ _ _ he, he2]; rfl, hm⟩

example : (runCalls binarySearchBy Interner.init [c!"b", c!"a", c!"object", c!"b", c!"c", c!"a"]).map
    (fun x => x.1) =
    some [.str ⟨0, c!"b"⟩, .str ⟨1, c!"a"⟩, .static c!"object", .str ⟨0, c!"b"⟩, .str ⟨2, c!"c"⟩,
      .str ⟨1, c!"a"⟩] := by decide +kernel

/-! ## C07: threads -/

section threads
variable {ι : Type} [DecidableEq ι] {search : Searcher}

/-- Invariant of all reachable states. -/
structure SysInv (search : Searcher) (calls : ι → List (List Char)) (σ : Sys ι) : Prop where
  inv : Inv σ.st
  /-- A thread inside a call holds the mutex. -/
  holds : ∀ i, (σ.threads i).phase ≠ .idle → σ.lock = some i
  busy : ∀ i, σ.lock = some i → (σ.threads i).phase ≠ .idle
  /-- Only calls with a text that is not well known get past `map_to_static`. -/
  call : ∀ i, (σ.threads i).phase ≠ .idle → ∃ s ss, (σ.threads i).todo = s :: ss ∧ ¬ WellKnown s
  searched : ∀ i r, (σ.threads i).phase = .searched r → ∀ s ss, (σ.threads i).todo = s :: ss →
    SearchOk (fun a : Arc => strCmp s a.text) σ.st.table r
  ready : ∀ i k, (σ.threads i).phase = .ready k → ∀ s ss, (σ.threads i).todo = s :: ss →
    ∃ a, σ.st.table[k]? = some a ∧ a.text = s
  done : ∀ i s x, (s, x) ∈ (σ.threads i).done → ResultIn σ.st s x
  split : ∀ i, ((σ.threads i).done.map Prod.fst).reverse ++ (σ.threads i).todo = calls i
  table : ∀ a ∈ σ.st.table, ¬ WellKnown a.text ∧ ∃ i, a.text ∈ calls i

omit [DecidableEq ι] in
theorem SysInv.init (calls : ι → List (List Char)) : SysInv search calls (Sys.init calls) where
  inv := Inv.init
  holds i h := absurd rfl h
  busy i h := by cases h
  call i h := absurd rfl h
  searched i r h := by cases h
  ready i k h := by cases h
  done i s x h := by cases h
  split i := rfl
  table a h := by cases h

theorem Sys.set_same (σ : Sys ι) (i : ι) (t : Thread) : σ.set i t i = t := by simp [Sys.set]
theorem Sys.set_other (σ : Sys ι) {i j : ι} (t : Thread) (h : j ≠ i) :
    σ.set i t j = σ.threads j := by simp [Sys.set, h]

omit [DecidableEq ι] in
/-- A thread other than the lock holder is idle. -/
theorem SysInv.other_idle {calls : ι → List (List Char)} {σ : Sys ι} (h : SysInv search calls σ)
    {i j : ι} (hi : (σ.threads i).phase ≠ .idle) (hj : j ≠ i) : (σ.threads j).phase = .idle := by
  refine Classical.byContradiction fun hn => hj ?_
  have h1 := h.holds i hi
  have h2 := h.holds j hn
  rw [h1] at h2
  exact (Option.some.inj h2).symm

theorem SysInv.step (hs : search.Correct) {calls : ι → List (List Char)} {σ σ' : Sys ι}
    (h : SysInv search calls σ) (hstep : Step search σ σ') : SysInv search calls σ' := by
  cases hstep with
  | @static i s ss t d hi hm =>
    have hts := mapToStatic_some hm
    have hw : WellKnown s := by
      refine Classical.byContradiction fun hn => ?_
      rw [mapToStatic_none.mpr hn] at hm; cases hm
    refine ⟨h.inv, ?_, ?_, ?_, ?_, ?_, ?_, ?_, h.table⟩ <;> intro j <;> dsimp only <;> by_cases hj : j = i
    · subst hj; rw [Sys.set_same]; exact fun h => absurd rfl h
    · rw [Sys.set_other _ _ hj]; exact h.holds j
    · subst hj; intro hl; exact absurd (by rw [hi]) (h.busy j hl)
    · rw [Sys.set_other _ _ hj]; exact h.busy j
    · subst hj; rw [Sys.set_same]; exact fun h => absurd rfl h
    · rw [Sys.set_other _ _ hj]; exact h.call j
    · subst hj; rw [Sys.set_same]; intro r h; cases h
    · rw [Sys.set_other _ _ hj]; exact h.searched j
    · subst hj; rw [Sys.set_same]; intro k h; cases h
    · rw [Sys.set_other _ _ hj]; exact h.ready j
    · subst hj; rw [Sys.set_same]
      intro s' x hx
      rcases List.mem_cons.mp hx with hx | hx
      · cases hx; exact .inl ⟨hw, by rw [hts]⟩
      · exact h.done j s' x (by rw [hi]; exact hx)
    · rw [Sys.set_other _ _ hj]; exact h.done j
    · subst hj; rw [Sys.set_same, ← h.split j, hi]; simp
    · rw [Sys.set_other _ _ hj]; exact h.split j
  | @acquire i s ss d hi hm hl =>
    refine ⟨h.inv, ?_, ?_, ?_, ?_, ?_, ?_, ?_, h.table⟩ <;> intro j <;> dsimp only <;> by_cases hj : j = i
    · subst hj; intro _; rfl
    · rw [Sys.set_other _ _ hj]; intro hp; have := h.holds j hp; rw [hl] at this; cases this
    · subst hj; rw [Sys.set_same]; intro _ h; cases h
    · intro hs; exact absurd (Option.some.inj hs).symm hj
    · subst hj; rw [Sys.set_same]; intro _; exact ⟨s, ss, rfl, mapToStatic_none.mp hm⟩
    · rw [Sys.set_other _ _ hj]; exact h.call j
    · subst hj; rw [Sys.set_same]; intro r h; cases h
    · rw [Sys.set_other _ _ hj]; exact h.searched j
    · subst hj; rw [Sys.set_same]; intro k h; cases h
    · rw [Sys.set_other _ _ hj]; exact h.ready j
    · subst hj; rw [Sys.set_same]
      intro s' x hx
      exact h.done j s' x (by rw [hi]; exact hx)
    · rw [Sys.set_other _ _ hj]; exact h.done j
    · subst hj; rw [Sys.set_same, ← h.split j, hi]
    · rw [Sys.set_other _ _ hj]; exact h.split j
  | @search i s ss d hi =>
    have hne : (σ.threads i).phase ≠ .idle := by rw [hi]; intro h; cases h
    refine ⟨h.inv, ?_, ?_, ?_, ?_, ?_, ?_, ?_, h.table⟩ <;> intro j <;> dsimp only <;> by_cases hj : j = i
    · subst hj; intro _; exact h.holds j hne
    · rw [Sys.set_other _ _ hj]; exact h.holds j
    · subst hj; rw [Sys.set_same]; intro _ h; cases h
    · rw [Sys.set_other _ _ hj]; exact h.busy j
    · subst hj; rw [Sys.set_same]; intro _
      obtain ⟨s', ss', ht, hw⟩ := h.call j hne
      rw [hi] at ht; cases ht
      exact ⟨s, ss, rfl, hw⟩
    · rw [Sys.set_other _ _ hj]; exact h.call j
    · subst hj; rw [Sys.set_same]; intro r hr s' ss' ht
      cases hr; cases ht
      exact hs _ _ (h.inv.partitioned s)
    · rw [Sys.set_other _ _ hj]; exact h.searched j
    · subst hj; rw [Sys.set_same]; intro k h; cases h
    · rw [Sys.set_other _ _ hj]; exact h.ready j
    · subst hj; rw [Sys.set_same]
      intro s' x hx
      exact h.done j s' x (by rw [hi]; exact hx)
    · rw [Sys.set_other _ _ hj]; exact h.done j
    · subst hj; rw [Sys.set_same, ← h.split j, hi]
    · rw [Sys.set_other _ _ hj]; exact h.split j
  | @hit i s ss d k hi =>
    have hne : (σ.threads i).phase ≠ .idle := by rw [hi]; intro h; cases h
    refine ⟨h.inv, ?_, ?_, ?_, ?_, ?_, ?_, ?_, h.table⟩ <;> intro j <;> dsimp only <;> by_cases hj : j = i
    · subst hj; intro _; exact h.holds j hne
    · rw [Sys.set_other _ _ hj]; exact h.holds j
    · subst hj; rw [Sys.set_same]; intro _ h; cases h
    · rw [Sys.set_other _ _ hj]; exact h.busy j
    · subst hj; rw [Sys.set_same]; intro _
      obtain ⟨s', ss', ht, hw⟩ := h.call j hne
      rw [hi] at ht; cases ht
      exact ⟨s, ss, rfl, hw⟩
    · rw [Sys.set_other _ _ hj]; exact h.call j
    · subst hj; rw [Sys.set_same]; intro r h; cases h
    · rw [Sys.set_other _ _ hj]; exact h.searched j
    · subst hj; rw [Sys.set_same]; intro k' hk s' ss' ht
      cases hk; cases ht
      obtain ⟨a, ha, he⟩ := h.searched j _ (by rw [hi]) s ss (by rw [hi])
      exact ⟨a, ha, ((strCmp_eq_iff _ _).mp he).symm⟩
    · rw [Sys.set_other _ _ hj]; exact h.ready j
    · subst hj; rw [Sys.set_same]
      intro s' x hx
      exact h.done j s' x (by rw [hi]; exact hx)
    · rw [Sys.set_other _ _ hj]; exact h.done j
    · subst hj; rw [Sys.set_same, ← h.split j, hi]
    · rw [Sys.set_other _ _ hj]; exact h.split j
  | @insert i s ss d k hi hk =>
    have hne : (σ.threads i).phase ≠ .idle := by rw [hi]; intro h; cases h
    have hok := h.searched i _ (by rw [hi]) s ss (by rw [hi])
    obtain ⟨hinv, hget, hmem⟩ := h.inv.insert hok
    obtain ⟨s', ss', ht, hw⟩ := h.call i hne
    rw [hi] at ht; cases ht
    have htab : ∀ a ∈ σ.st.table.insertIdx k ⟨σ.st.next, s⟩,
        ¬ WellKnown a.text ∧ ∃ i, a.text ∈ calls i := by
      intro a ha
      rcases (hmem a).mp ha with rfl | ha
      · exact ⟨hw, i, by rw [← h.split i, hi]; simp⟩
      · exact h.table a ha
    refine ⟨hinv, ?_, ?_, ?_, ?_, ?_, ?_, ?_, htab⟩ <;> intro j <;> dsimp only <;> by_cases hj : j = i
    · subst hj; intro _; exact h.holds j hne
    · rw [Sys.set_other _ _ hj]; exact h.holds j
    · subst hj; rw [Sys.set_same]; intro _ h; cases h
    · rw [Sys.set_other _ _ hj]; exact h.busy j
    · subst hj; rw [Sys.set_same]; intro _; exact ⟨s, ss, rfl, hw⟩
    · rw [Sys.set_other _ _ hj]; exact h.call j
    · subst hj; rw [Sys.set_same]; intro r h; cases h
    · rw [Sys.set_other _ _ hj]; intro r hr; rw [h.other_idle hne hj] at hr; cases hr
    · subst hj; rw [Sys.set_same]; intro k' hk' s' ss' ht
      cases hk'; cases ht
      exact ⟨_, hget, rfl⟩
    · rw [Sys.set_other _ _ hj]; intro r hr; rw [h.other_idle hne hj] at hr; cases hr
    · subst hj; rw [Sys.set_same]
      intro s' x hx
      exact (h.done j s' x (by rw [hi]; exact hx)).mono fun b hb => (hmem b).mpr (.inr hb)
    · rw [Sys.set_other _ _ hj]
      intro s' x hx
      exact (h.done j s' x hx).mono fun b hb => (hmem b).mpr (.inr hb)
    · subst hj; rw [Sys.set_same, ← h.split j, hi]
    · rw [Sys.set_other _ _ hj]; exact h.split j
  | @finish i s ss d k a hi ha =>
    have hne : (σ.threads i).phase ≠ .idle := by rw [hi]; intro h; cases h
    obtain ⟨s', ss', ht, hw⟩ := h.call i hne
    rw [hi] at ht; cases ht
    refine ⟨h.inv, ?_, ?_, ?_, ?_, ?_, ?_, ?_, h.table⟩ <;> intro j <;> dsimp only <;> by_cases hj : j = i
    · subst hj; rw [Sys.set_same]; exact fun h => absurd rfl h
    · rw [Sys.set_other _ _ hj]; intro hp; exact absurd (h.other_idle hne hj) hp
    · subst hj; intro h; cases h
    · intro h; cases h
    · subst hj; rw [Sys.set_same]; exact fun h => absurd rfl h
    · rw [Sys.set_other _ _ hj]; exact h.call j
    · subst hj; rw [Sys.set_same]; intro r h; cases h
    · rw [Sys.set_other _ _ hj]; exact h.searched j
    · subst hj; rw [Sys.set_same]; intro k h; cases h
    · rw [Sys.set_other _ _ hj]; exact h.ready j
    · subst hj; rw [Sys.set_same]
      intro s' x hx
      rcases List.mem_cons.mp hx with hx | hx
      · cases hx
        obtain ⟨a', ha', hta⟩ := h.ready j k (by rw [hi]) s ss (by rw [hi])
        rw [ha] at ha'; cases ha'
        exact .inr ⟨hw, a, List.mem_of_getElem? ha, rfl, hta⟩
      · exact h.done j s' x (by rw [hi]; exact hx)
    · rw [Sys.set_other _ _ hj]; exact h.done j
    · subst hj; rw [Sys.set_same, ← h.split j, hi]; simp
    · rw [Sys.set_other _ _ hj]; exact h.split j

theorem SysInv.steps (hs : search.Correct) {calls : ι → List (List Char)} {σ σ' : Sys ι}
    (h : SysInv search calls σ) (hsteps : Steps search σ σ') : SysInv search calls σ' := by
  induction hsteps with
  | refl => exact h
  | tail _ hstep ih => exact ih.step hs hstep

/-- C07: in every state reachable under any interleaving, every finished call of any thread obtained
a name with its own text. -/
theorem C07_text_preserved (hs : search.Correct) (calls : ι → List (List Char)) (σ : Sys ι)
    (h : Steps search (Sys.init calls) σ) (i s x) (hx : (s, x) ∈ (σ.threads i).done) :
    x.text = s :=
  (((SysInv.init calls).steps hs h).done i s x hx).text

/-- C07: any two finished calls of any threads share an allocation exactly when their texts are
equal. -/
theorem C07_canonical (hs : search.Correct) (calls : ι → List (List Char)) (σ : Sys ι)
    (h : Steps search (Sys.init calls) σ) (i j s t x y) (hx : (s, x) ∈ (σ.threads i).done)
    (hy : (t, y) ∈ (σ.threads j).done) (hws : ¬ WellKnown s) (hwt : ¬ WellKnown t) :
    SameAlloc x y ↔ s = t := by
  have hi := (SysInv.init calls).steps hs h
  exact (hi.done i s x hx).same hi.inv (hi.done j t y hy) hws hwt

/-- C07: as long as some call is unfinished, some thread can step: no deadlock, and no step
panics on an index. -/
theorem C07_progress (hs : search.Correct) (calls : ι → List (List Char)) (σ : Sys ι)
    (h : Steps search (Sys.init calls) σ) (i) (hi : (σ.threads i).todo ≠ []) :
    ∃ σ', Step search σ σ' := by
  have hinv := (SysInv.init (search := search) calls).steps hs h
  cases hl : σ.lock with
  | none =>
    have hidle : (σ.threads i).phase = .idle := by
      refine Classical.byContradiction fun hn => ?_
      have := hinv.holds i hn
      rw [hl] at this; cases this
    obtain ⟨s, ss, hss⟩ := List.exists_cons_of_ne_nil hi
    have ht : σ.threads i = ⟨s :: ss, .idle, (σ.threads i).done⟩ := by
      rw [← hss, ← hidle]
    cases hm : Name.mapToStatic s with
    | some t => exact ⟨_, .static ht hm⟩
    | none => exact ⟨_, .acquire ht hm hl⟩
  | some j =>
    have hj := hinv.busy j hl
    obtain ⟨s, ss, hss, hw⟩ := hinv.call j hj
    have ht : σ.threads j = ⟨s :: ss, (σ.threads j).phase, (σ.threads j).done⟩ := by rw [← hss]
    cases hp : (σ.threads j).phase with
    | idle => exact absurd hp hj
    | locked => rw [hp] at ht; exact ⟨_, .search ht⟩
    | searched r =>
      have hok := hinv.searched j r hp s ss hss
      rw [hp] at ht
      cases r with
      | found k => exact ⟨_, .hit ht⟩
      | missing k => exact ⟨_, .insert ht hok.1⟩
      | oob => exact hok.elim
    | ready k =>
      obtain ⟨a, ha, _⟩ := hinv.ready j k hp s ss hss
      rw [hp] at ht
      exact ⟨_, .finish ht ha⟩

/-- C07: when all calls are finished, every thread has a result for each of its calls, in order, and
the interned texts are exactly the texts asked for, whatever the interleaving was. -/
theorem C07_final (hs : search.Correct) (calls : ι → List (List Char)) (σ : Sys ι)
    (h : Steps search (Sys.init calls) σ) (hfin : ∀ i, (σ.threads i).todo = []) :
    (∀ i, ((σ.threads i).done.map Prod.fst).reverse = calls i) ∧
    (σ.st.table.map Arc.text).Nodup ∧
    ∀ s, s ∈ σ.st.table.map Arc.text ↔ ¬ WellKnown s ∧ ∃ i, s ∈ calls i := by
  have hinv := (SysInv.init (search := search) calls).steps hs h
  have hsplit : ∀ i, ((σ.threads i).done.map Prod.fst).reverse = calls i := by
    intro i
    have := hinv.split i
    rwa [hfin i, List.append_nil] at this
  refine ⟨hsplit, ?_, fun s => ⟨?_, ?_⟩⟩
  · rw [List.nodup_iff_pairwise_ne, List.pairwise_map]
    refine hinv.inv.desc.imp ?_
    intro a b hab he
    rw [he, (strCmp_eq_iff _ _).mpr rfl] at hab
    cases hab
  · intro hs
    obtain ⟨a, ha, rfl⟩ := List.mem_map.mp hs
    exact hinv.table a ha
  · rintro ⟨hw, i, hi⟩
    rw [← hsplit i, List.mem_reverse] at hi
    obtain ⟨⟨s', x⟩, hx, rfl⟩ := List.mem_map.mp hi
    rcases hinv.done i s' x hx with ⟨h, _⟩ | ⟨_, a, ha, _, ht⟩
    · exact absurd h hw
    · rw [← ht]; exact List.mem_map_of_mem ha

/-- C07: two complete executions of the same calls end with the same set of interned texts. -/
theorem C07_schedule_independent (hs : search.Correct) (calls : ι → List (List Char))
    (σ σ' : Sys ι) (h : Steps search (Sys.init calls) σ) (h' : Steps search (Sys.init calls) σ')
    (hfin : ∀ i, (σ.threads i).todo = []) (hfin' : ∀ i, (σ'.threads i).todo = []) (s) :
    s ∈ σ.st.table.map Arc.text ↔ s ∈ σ'.st.table.map Arc.text := by
  rw [(C07_final hs calls σ h hfin).2.2, (C07_final hs calls σ' h' hfin').2.2]

end threads

/-- Two threads both interning `"a"`: the first step is possible, and the second thread is then kept
out by the mutex. -/
example : ∃ σ : Sys Bool, Step binarySearchBy (Sys.init fun _ => [c!"a"]) σ ∧ σ.lock = some true :=
  ⟨_, .acquire (i := true) (s := c!"a") (ss := []) (d := []) rfl rfl rfl, rfl⟩

/-! ## C08 -/

/-- Names made by `Name::new` (hence by the parser) are equal exactly when their texts are. Missing
for C08: names made by `Name::new_static` or `Name::default`. -/
theorem C08_new_partial (s t : List Char) : Name.new s = Name.new t ↔ (Name.new s).text = (Name.new t).text := by
  have htext : ∀ u, (Name.new u).text = u := by
    intro u
    unfold Name.new
    cases h : Name.mapToStatic u with
    | none => rfl
    | some v => exact mapToStatic_some h
  constructor
  · intro h; rw [h]
  · intro h; rw [htext, htext] at h; rw [h]

/-- The same for names in a running process, where the text lives in an allocation: results of
`Name::new` calls at any two points of a history compare equal exactly when their texts agree. -/
theorem C08_history_partial {search : Searcher} (hs : search.Correct) (ss : List (List Char)) (xs st)
    (he : runCalls search Interner.init ss = some (xs, st)) (x y) (hx : x ∈ xs) (hy : y ∈ xs) :
    x.toName = y.toName ↔ x.text = y.text := by
  obtain ⟨xs', st', he', hinv, hl, hr, _⟩ := runCalls_spec hs ss Inv.init
  rw [he] at he'
  cases he'
  have key : ∀ z ∈ xs, z.toName = Name.new z.text := by
    intro z hz
    obtain ⟨i, hi, rfl⟩ := List.mem_iff_getElem.mp hz
    have h := hr i ss[i] xs[i] (List.getElem?_eq_getElem (by omega)) (List.getElem?_eq_getElem hi)
    rcases h with ⟨hw, hx⟩ | ⟨hw, a, _, hx, ht⟩
    · rw [hx]
      rcases hw with hw | hw <;> rw [hw] <;> rfl
    · rw [hx]
      show Name.str a.text = Name.new a.text
      unfold Name.new
      rw [mapToStatic_none.mpr (ht ▸ hw)]
  rw [key x hx, key y hy, C08_new_partial]
  have htext : ∀ u, (Name.new u).text = u := by
    intro u
    unfold Name.new
    cases h : Name.mapToStatic u with
    | none => rfl
    | some v => exact mapToStatic_some h
  rw [htext, htext]

/-- C08 is false: for every text other than `object` and `number` the name made by
`Name::new_static` differs from the one made by `Name::new`, though their texts agree. -/
theorem C08_false (s : List Char) (h : ¬ WellKnown s) :
    Name.newStatic s ≠ Name.new s ∧ (Name.newStatic s).text = (Name.new s).text := by
  unfold Name.new
  rw [mapToStatic_none.mpr h]
  exact ⟨by simp [Name.newStatic], rfl⟩

/-- In particular `Name::default() != Name::new("")`. -/
theorem C08_default_false : Name.default ≠ Name.new [] ∧ Name.default.text = (Name.new []).text :=
  C08_false [] (by simp [WellKnown])

/-- Comparison with a string is by text, however the name was made. -/
theorem C08_eq_str (n : Name) (s : List Char) : n.eqStr s = true ↔ n.text = s := by
  simp [Name.eqStr]

example : ¬ WellKnown c!"truck" := by simp [WellKnown]
example : Name.new c!"object" = Name.newStatic c!"object" := by rfl

end Pddl
