import Verif.Props.FilesX
import Verif.Props.ApiX

/-!
# C93: a local edit of a file changes only what was edited

An editor that replaces, removes or adds one action, one fact or one section somewhere in a file relies on the
rest of the file being read as before. Both texts are arbitrary; the file may have any layout.
-/

namespace Pddl

/-! ## Rows of elements -/

/-- Elements with layout before each and after the last. `lead` is what has to stand before the first one;
before the others there is a blank. -/
inductive Row (R : α → List Char → Prop) : (List Char → Prop) → List α → List Char → Prop
  | nil {lead g} : Gap g → Row R lead [] g
  | cons {lead : List Char → Prop} {g a t xs w} : lead g → R a t → Row R Sep xs w →
      Row R lead (a :: xs) (g ++ (t ++ w))

/-- Layout that may be prolonged. -/
structure IsLead (lead : List Char → Prop) : Prop where
  gap : ∀ g, lead g → Gap g
  add : ∀ g g', lead g → Gap g' → lead (g ++ g')
  sep : ∀ g, Sep g → lead g

theorem isLead_sep : IsLead Sep := ⟨fun _ => Sep.gap, fun _ _ => Sep.append, fun _ h => h⟩
theorem isLead_gap : IsLead Gap := ⟨fun _ h => h, fun _ _ => Gap.append, fun _ => Sep.gap⟩

namespace Row
variable {R : α → List Char → Prop} {lead : List Char → Prop}

theorem of_items {xs : List α} {u : List Char} (h : Items R xs u) : ∀ {lead : List Char → Prop} {g g' : List Char},
    lead g → Gap g' → Row R lead xs (g ++ (u ++ g')) := by
  induction h with
  | one h => exact fun hg hg' => .cons hg h (.nil hg')
  | cons h hs _ ih =>
    intro lead g g' hg hg'
    have := Row.cons hg h (ih hs hg')
    simpa only [List.append_assoc] using this

theorem to_items {xs : List α} {w : List Char} (h : Row R lead xs w) (hne : xs ≠ []) :
    ∃ g u g', w = g ++ (u ++ g') ∧ lead g ∧ Items R xs u ∧ Gap g' := by
  induction h with
  | nil => exact absurd rfl hne
  | @cons lead g a t xs w hg ha hr ih =>
    cases xs with
    | nil => cases hr with | nil hw => exact ⟨g, t, w, rfl, hg, .one ha, hw⟩
    | cons b xs =>
      obtain ⟨g1, u, g', rfl, h1, h2, h3⟩ := ih (by simp)
      exact ⟨g, t ++ (g1 ++ u), g', by simp only [List.append_assoc], hg, .cons ha h1 h2, h3⟩

theorem gap_of_nil {w : List Char} (h : Row R lead [] w) : Gap w := by cases h with | nil h => exact h

/-- Layout before a row. -/
theorem before {xs : List α} {w g : List Char} (H : IsLead lead) (h : Row R Sep xs w) (hg : lead g) :
    Row R lead xs (g ++ w) := by
  cases h with
  | nil h => exact .nil ((H.gap _ hg).append h)
  | cons h1 h2 h3 =>
    rw [← List.append_assoc]
    exact .cons (H.add _ _ hg h1.gap) h2 h3

theorem space {xs : List α} {w : List Char} (H : IsLead lead) (h : Row R lead xs w) : Row R Sep xs (' ' :: w) := by
  cases h with
  | nil h => exact .nil (.space rfl h)
  | @cons _ g a t xs w h1 h2 h3 => exact .cons (g := ' ' :: g) (.mk rfl (H.gap _ h1)) h2 h3

/-- One element of a row: where it stands, and what happens when it is replaced or removed. -/
theorem nth {xs : List α} {w : List Char} (h : Row R lead xs w) : IsLead lead → ∀ (i : Nat) (hi : i < xs.length),
    ∃ x a y, w = x ++ (a ++ y) ∧ R xs[i] a ∧
      (∀ g t v, Gap g → R v t → Row R lead (xs.set i v) (x ++ ((g ++ t) ++ y))) ∧
      Row R lead (xs.eraseIdx i) (x ++ y) := by
  induction h with
  | nil => exact fun _ i hi => absurd hi (by simp)
  | @cons lead g a t xs w hg ha hr ih =>
    intro H i hi
    cases i with
    | zero =>
      refine ⟨g, t, w, rfl, ha, fun g' t' v hg' hv => ?_, hr.before H hg⟩
      have := Row.cons (H.add _ _ hg hg') hv hr
      simpa only [List.append_assoc, List.set_cons_zero, List.set_cons_succ, List.eraseIdx_cons_succ,
          List.insertIdx_succ_cons] using this
    | succ i =>
      obtain ⟨x, b, y, rfl, h1, h2, h3⟩ := ih isLead_sep i (by simpa using hi)
      refine ⟨g ++ (t ++ x), b, y, by simp only [List.append_assoc], h1, fun g' t' v hg' hv => ?_, ?_⟩
      · have := Row.cons hg ha (h2 g' t' v hg' hv)
        simpa only [List.append_assoc, List.set_cons_zero, List.set_cons_succ, List.eraseIdx_cons_succ,
          List.insertIdx_succ_cons] using this
      · have := Row.cons hg ha h3
        simpa only [List.append_assoc, List.set_cons_zero, List.set_cons_succ, List.eraseIdx_cons_succ,
          List.insertIdx_succ_cons] using this

/-- A place in a row: what happens when an element is added there. -/
theorem gapAt {xs : List α} {w : List Char} (h : Row R lead xs w) : IsLead lead → ∀ (i : Nat), i ≤ xs.length →
    ∃ x y, w = x ++ y ∧
      ∀ g t v, Gap g → R v t → Row R lead (xs.insertIdx i v) (x ++ (' ' :: ((g ++ t) ++ (' ' :: y)))) := by
  have zero : ∀ {lead : List Char → Prop} {xs : List α} {w : List Char}, Row R lead xs w → IsLead lead →
      ∃ x y, w = x ++ y ∧
        ∀ g t v, Gap g → R v t → Row R lead (v :: xs) (x ++ (' ' :: ((g ++ t) ++ (' ' :: y)))) := by
    intro lead xs w h H
    refine ⟨[], w, rfl, fun g t v hg hv => ?_⟩
    have := Row.cons (H.sep _ (.mk (c := ' ') rfl hg)) hv (h.space H)
    simpa only [List.append_assoc, List.nil_append, List.cons_append] using this
  induction h with
  | nil hg =>
    intro H i hi
    obtain rfl : i = 0 := by simpa using hi
    exact zero (.nil hg) H
  | @cons lead g a t xs w hg ha hr ih =>
    intro H i hi
    cases i with
    | zero => exact zero (.cons hg ha hr) H
    | succ i =>
      obtain ⟨x, y, rfl, h1⟩ := ih isLead_sep i (by simpa using hi)
      refine ⟨g ++ (t ++ x), y, by simp only [List.append_assoc], fun g' t' v hg' hv => ?_⟩
      have := Row.cons hg ha (h1 g' t' v hg' hv)
      simpa only [List.append_assoc, List.set_cons_zero, List.set_cons_succ, List.eraseIdx_cons_succ,
          List.insertIdx_succ_cons] using this

end Row

/-! ## What an edit does -/

/-- In every text that `p` reads, each element of the list `get` has its place, and `q` reads it there. Putting
another text that `q` reads in its place changes that element and nothing else; taking it out, if at least
`min` elements remain, removes that element and nothing else; and a text that `q` reads can be added, between
blanks, before any element and after the last. What is left unread stays the same. -/
structure EditList (p : P F) (q : P α) (get : F → List α) (set : F → List α → F) (min : Nat) : Prop where
  edit : ∀ (s : List Char) (f : F) (r : List Char), p s = .ok f r → ∀ (i : Nat) (hi : i < (get f).length),
    ∃ x a y, s = x ++ (a ++ y) ∧ q a = .ok (get f)[i] [] ∧
      (∀ b v, q b = .ok v [] → p (x ++ (b ++ y)) = .ok (set f ((get f).set i v)) r) ∧
      (min < (get f).length → p (x ++ y) = .ok (set f ((get f).eraseIdx i)) r)
  add : ∀ (s : List Char) (f : F) (r : List Char), p s = .ok f r → min ≤ (get f).length →
    ∀ (i : Nat), i ≤ (get f).length → ∃ x y, s = x ++ y ∧
      ∀ b v, q b = .ok v [] → p (x ++ (' ' :: (b ++ (' ' :: y)))) = .ok (set f ((get f).insertIdx i v)) r

/-- In every text that `p` reads, the section has its place: either `q` reads there what `get` shows, or nothing
stands there and `get` shows the default. Putting there another section that `q` reads, behind a blank, sets
what it says and nothing else; taking the section out sets the default and nothing else. -/
structure EditSection (p : P F) (q : P α) (inj : α → β) (get : F → β) (set : F → β → F) (dflt : β) : Prop where
  edit : ∀ (s : List Char) (f : F) (r : List Char), p s = .ok f r → ∃ x u y, s = x ++ (u ++ y) ∧
    (u = [] ∧ get f = dflt ∨ ∃ v, q u = .ok v [] ∧ get f = inj v) ∧
    (∀ b v, q b = .ok v [] → p (x ++ (' ' :: (b ++ y))) = .ok (set f (inj v)) r) ∧
    p (x ++ y) = .ok (set f dflt) r

/-- The same for a section that must be there. -/
structure EditNeeded (p : P F) (q : P α) (get : F → α) (set : F → α → F) : Prop where
  edit : ∀ (s : List Char) (f : F) (r : List Char), p s = .ok f r → ∃ x u y, s = x ++ (u ++ y) ∧
    q u = .ok (get f) [] ∧ ∀ b v, q b = .ok v [] → p (x ++ (b ++ y)) = .ok (set f v) r

/-! ## From texts to readings -/

/-- The texts of an element, up to leading layout. -/
structure Reader (q : P α) (R : α → List Char → Prop) : Prop where
  inv : ∀ b v, q b = .ok v [] → ∃ g t, b = g ++ t ∧ Gap g ∧ R v t
  run : ∀ v t, R v t → q t = .ok v []

theorem Section.reader {q : P α} {kw : List Char} {R : α → List Char → Prop} (H : Section q kw R) : Reader q R where
  inv b v h := by
    obtain ⟨g, t, e, hg, h⟩ := (H.iff _ _ _).mp h
    exact ⟨g, t, by rw [e, List.append_nil], hg, h⟩
  run v t h := (H.iff _ _ _).mpr ⟨[], t, by simp, .nil, h⟩

theorem name_reader : Reader parseName NameW where
  inv b v h := by
    obtain ⟨g, t, e, hg, h, _⟩ := (parseName_exact.iff _ _ _).mp h
    exact ⟨g, t, by rw [e, List.append_nil], hg, h⟩
  run v t h := (parseName_exact.iff _ _ _).mpr ⟨[], t, by simp, .nil, h, fun _ _ e => nomatch e⟩

theorem key_reader : Reader parseRequireKey KeyW where
  inv b v h := by
    obtain ⟨g, t, e, rfl, h⟩ := parseRequireKey_snd _ _ _ h trivial
    exact ⟨[], t, by rw [e, List.append_nil], .nil, h⟩
  run v t h := by
    have := h.elem.1 [] (.nil)
    rwa [List.append_nil] at this

theorem skeleton_reader : Reader parseAtomicFormulaSkeleton SkeletonX where
  inv b v h := by
    obtain ⟨g, t, e, hg, h⟩ := (C78_skeletons _ _ _).1.mp h
    exact ⟨g, t, by rw [e, List.append_nil], hg.1, h⟩
  run v t h := (C78_skeletons _ _ _).1.mpr ⟨[], t, by simp, ⟨.nil, fun _ _ e => nomatch e⟩, h⟩

theorem structure_reader : Reader parseStructureDef StructureX where
  inv b v h := by
    obtain ⟨g, t, e, hg, h⟩ := (C84_structures _ _ _).mp h
    exact ⟨g, t, by rw [e, List.append_nil], hg, h⟩
  run v t h := (C84_structures _ _ _).mpr ⟨[], t, by simp, .nil, h⟩

theorem init_reader : Reader parseInitEl (InitX []) where
  inv b v h := by
    obtain ⟨g, t, e, h⟩ := (C77_initial_elements _ _ _).mp h
    exact ⟨g, t, by rw [e, List.append_nil], h.gap, h.drop⟩
  run v t h := (C77_initial_elements _ _ _).mpr ⟨[], t, by simp, h⟩

/-- The row of elements `get` stands somewhere in the text, and may be exchanged for any other row. -/
def HasRow (X : F → List Char → Prop) (R : α → List Char → Prop) (lead : List Char → Prop) (get : F → List α)
    (set : F → List α → F) (min : Nat) : Prop :=
  ∀ f t, X f t → min ≤ (get f).length → ∃ x w y, t = x ++ (w ++ y) ∧ Row R lead (get f) w ∧
    ∀ xs w', min ≤ xs.length → Row R lead xs w' → X (set f xs) (x ++ (w' ++ y))

/-- The text of a file: layout, one of the described texts, and a rest that is not read. -/
def FileTexts (p : P F) (X : F → List Char → Prop) : Prop :=
  ∀ s f r, p s = .ok f r ↔ ∃ g t y, s = g ++ (t ++ y) ∧ Gap g ∧ X f t ∧ r = skip y

theorem HasRow.editList {p : P F} {X : F → List Char → Prop} {q : P α} {R : α → List Char → Prop}
    {lead : List Char → Prop} {get : F → List α} {set : F → List α → F} {min : Nat} (hp : FileTexts p X)
    (hq : Reader q R) (hl : IsLead lead) (h : HasRow X R lead get set min) (hmin : min ≤ 1) :
    EditList p q get set min where
  edit s f r hs i hi := by
    obtain ⟨g, t, z, rfl, hg, hx, rfl⟩ := (hp _ _ _).mp hs
    obtain ⟨x, w, y, rfl, hr, hX⟩ := h f t hx (by omega)
    obtain ⟨x', a, y', rfl, h1, h2, h3⟩ := hr.nth hl i hi
    refine ⟨g ++ (x ++ x'), a, y' ++ (y ++ z), by simp only [List.append_assoc], hq.run _ _ h1, fun b v hb => ?_,
      fun hm => ?_⟩
    · obtain ⟨g', t', rfl, hg', hv⟩ := hq.inv _ _ hb
      refine (hp _ _ _).mpr ⟨g, _, z, ?_, hg, hX _ _ (by rw [List.length_set]; omega) (h2 g' t' v hg' hv), rfl⟩
      simp only [List.append_assoc]
    · refine (hp _ _ _).mpr ⟨g, _, z, ?_, hg, hX _ _ (by rw [List.length_eraseIdx]; split <;> omega) h3, rfl⟩
      simp only [List.append_assoc]
  add s f r hs hm i hi := by
    obtain ⟨g, t, z, rfl, hg, hx, rfl⟩ := (hp _ _ _).mp hs
    obtain ⟨x, w, y, rfl, hr, hX⟩ := h f t hx hm
    obtain ⟨x', y', rfl, h1⟩ := hr.gapAt hl i hi
    refine ⟨g ++ (x ++ x'), y' ++ (y ++ z), by simp only [List.append_assoc], fun b v hb => ?_⟩
    obtain ⟨g', t', rfl, hg', hv⟩ := hq.inv _ _ hb
    refine (hp _ _ _).mpr ⟨g, _, z, ?_, hg, hX _ _ ?_ (h1 g' t' v hg' hv), rfl⟩
    · simp only [List.append_assoc, List.cons_append]
    · rw [List.length_insertIdx_of_le_length hi]; omega

/-- The section stands somewhere in the text, and may be exchanged for any other or left out. -/
def HasSection (X : F → List Char → Prop) (R : α → List Char → Prop) (inj : α → β) (get : F → β)
    (set : F → β → F) (dflt : β) : Prop :=
  ∀ f t, X f t → ∃ (x : List Char) (o : Option α) (u y : List Char), t = x ++ (u ++ y) ∧ OptW Sep R o u ∧ get f = (o.map inj).getD dflt ∧
    ∀ (o' : Option α) u', OptW Sep R o' u' → X (set f ((o'.map inj).getD dflt)) (x ++ (u' ++ y))

theorem HasSection.editSection {p : P F} {X : F → List Char → Prop} {q : P α} {kw : List Char}
    {R : α → List Char → Prop} {inj : α → β} {get : F → β} {set : F → β → F} {dflt : β} (hp : FileTexts p X)
    (hq : Section q kw R) (h : HasSection X R inj get set dflt) : EditSection p q inj get set dflt where
  edit s f r hs := by
    obtain ⟨g, t, z, rfl, hg, hx, rfl⟩ := (hp _ _ _).mp hs
    obtain ⟨x, o, u, y, rfl, ho, he, hX⟩ := h f t hx
    refine ⟨g ++ x, u, y ++ z, by simp only [List.append_assoc], ?_, fun b v hb => ?_, ?_⟩
    · cases ho with
      | absent => exact .inl ⟨rfl, he⟩
      | present h1 h2 => exact .inr ⟨_, (hq.iff _ _ _).mpr ⟨_, _, by rw [List.append_nil], h1.gap, h2⟩, he⟩
    · obtain ⟨g', t', rfl, hg', hv⟩ := hq.reader.inv _ _ hb
      refine (hp _ _ _).mpr ⟨g, _, z, ?_, hg, hX (some v) _ (.present (.mk (c := ' ') rfl hg') hv), rfl⟩
      simp only [List.append_assoc, List.cons_append]
    · refine (hp _ _ _).mpr ⟨g, _, z, ?_, hg, hX none _ .absent, rfl⟩
      simp only [List.append_assoc, List.nil_append]

/-- The section must be there. -/
def HasNeeded (X : F → List Char → Prop) (R : α → List Char → Prop) (get : F → α) (set : F → α → F) : Prop :=
  ∀ f t, X f t → ∃ x g u y, t = x ++ (g ++ (u ++ y)) ∧ Gap g ∧ R (get f) u ∧
    ∀ g' v u', Gap g' → R v u' → X (set f v) (x ++ ((g ++ g') ++ (u' ++ y)))

theorem HasNeeded.editNeeded {p : P F} {X : F → List Char → Prop} {q : P α}
    {R : α → List Char → Prop} {get : F → α} {set : F → α → F} (hp : FileTexts p X)
    (hq : Reader q R) (h : HasNeeded X R get set) : EditNeeded p q get set where
  edit s f r hs := by
    obtain ⟨g, t, z, rfl, hg, hx, rfl⟩ := (hp _ _ _).mp hs
    obtain ⟨x, g1, u, y, rfl, hg1, hu, hX⟩ := h f t hx
    refine ⟨g ++ (x ++ g1), u, y ++ z, by simp only [List.append_assoc], hq.run _ _ hu, fun b v hb => ?_⟩
    obtain ⟨g', t', rfl, hg', hv⟩ := hq.inv _ _ hb
    refine (hp _ _ _).mpr ⟨g, _, z, ?_, hg, hX g' v t' hg' hv, rfl⟩
    simp only [List.append_assoc]

theorem HasSection.hasRow {X : F → List Char → Prop} {R : α → List Char → Prop} {kw : List Char}
    {get : F → List α} {set : F → List α → F} (h : HasSection X (SomeX kw R) id get set []) :
    HasRow X R Gap get set 1 := by
  intro f t hx hl
  obtain ⟨x, o, u, y, rfl, ho, he, hX⟩ := h f t hx
  cases ho with
  | absent => rw [he] at hl; exact absurd hl (by simp)
  | @present g v t hg hv =>
    cases hv with
    | @mk g1 xs t g2 h1 h2 h3 =>
      refine ⟨x ++ (g ++ ('(' :: kw)), g1 ++ (t ++ g2), ')' :: y, ?_, ?_, fun xs' w' hm hr => ?_⟩
      · simp only [paren, List.append_assoc, List.cons_append, List.nil_append]
      · rw [he]
        exact .of_items h2 h1 h3
      · obtain ⟨g1', u', g2', rfl, k1, k2, k3⟩ := hr.to_items (by rintro rfl; simp at hm)
        have := hX (some xs') _ (.present hg (.mk k1 k2 k3))
        simpa only [paren, List.append_assoc, List.cons_append, List.nil_append, Option.map_some, Option.map_none,
          Option.getD_some, Option.getD_none, id] using this

theorem HasNeeded.hasRow {X : F → List Char → Prop} {get : F → List InitElement} {set : F → List InitElement → F}
    (h : HasNeeded X InitSectionX get set) : HasRow X (InitX []) Gap get set 0 := by
  intro f t hx _
  obtain ⟨x, g, u, y, rfl, hg, hu, hX⟩ := h f t hx
  have back : ∀ xs w', Row (InitX []) Gap xs w' → X (set f xs) (x ++ (g ++ ('(' :: (c!":init" ++ (w' ++ (')' :: y)))))) := by
    intro xs w' hr
    by_cases e : xs = []
    · subst e
      have := hX [] [] _ .nil (.nil hr.gap_of_nil)
      simpa only [paren, List.append_assoc, List.cons_append, List.nil_append, Option.map_some, Option.map_none,
          Option.getD_some, Option.getD_none, id] using this
    · obtain ⟨g1', u', g2', rfl, k1, k2, k3⟩ := hr.to_items e
      have := hX [] xs _ .nil (.cons k1 k2 k3)
      simpa only [paren, List.append_assoc, List.cons_append, List.nil_append, Option.map_some, Option.map_none,
          Option.getD_some, Option.getD_none, id] using this
  generalize get f = xs at hu
  cases hu with
  | @nil g1 h1 =>
    refine ⟨x ++ (g ++ ('(' :: c!":init")), g1, ')' :: y, ?_, .nil h1, fun xs' w' _ hr => ?_⟩
    · simp only [paren, List.append_assoc, List.cons_append, List.nil_append]
    · simpa only [List.append_assoc, List.cons_append] using back xs' w' hr
  | @cons g1 es t g2 h1 h2 h3 =>
    refine ⟨x ++ (g ++ ('(' :: c!":init")), g1 ++ (t ++ g2), ')' :: y, ?_, .of_items h2 h1 h3, fun xs' w' _ hr => ?_⟩
    · simp only [paren, List.append_assoc, List.cons_append, List.nil_append]
    · simpa only [List.append_assoc, List.cons_append] using back xs' w' hr

/-! ## Domains -/

theorem domain_structures : HasRow DomainX StructureX Sep Domain.structure_ (fun d xs => { d with structure_ := xs }) 0 := by
  intro f t h _
  cases h with
  | @mk g1 name tn ext u1 req u2 ty u3 con u4 pre u5 fn u6 cstr u7 st u8 g2 hg1 hn h1 h2 h3 h4 h5 h6
      h7 h8 hg2 =>
    refine ⟨'(' :: (c!"define" ++ (g1 ++ (tn ++ (u1 ++ (u2 ++ (u3 ++ (u4 ++ (u5 ++ (u6 ++ u7))))))))), u8 ++ g2,
      [')'], ?_, ?_, fun xs w' _ hr => ?_⟩
    · simp only [paren, List.append_assoc, List.cons_append, List.nil_append]
    · cases h8 with
      | absent => exact .nil hg2
      | present k1 k2 => rw [List.append_assoc]; exact .of_items k2 k1 hg2
    · by_cases e : xs = []
      · subst e
        have := DomainX.mk hg1 hn h1 h2 h3 h4 h5 h6 h7 .absent hr.gap_of_nil
        simpa only [paren, List.append_assoc, List.cons_append, List.nil_append, Option.map_some, Option.map_none,
          Option.getD_some, Option.getD_none, id] using this
      · obtain ⟨g1', u', g2', rfl, k1, k2, k3⟩ := hr.to_items e
        have := DomainX.mk hg1 hn h1 h2 h3 h4 h5 h6 h7 (.present k1 k2) k3
        simpa only [paren, List.append_assoc, List.cons_append, List.nil_append, Option.map_some, Option.map_none,
          Option.getD_some, Option.getD_none, id] using this

theorem domain_extends : HasSection DomainX (SomeX c!":extends" NameW) id Domain.extends_
    (fun d v => { d with extends_ := v }) [] := by
  intro f t h
  cases h with
  | @mk g1 name tn ext u1 req u2 ty u3 con u4 pre u5 fn u6 cstr u7 st u8 g2 hg1 hn h1 h2 h3 h4 h5 h6
      h7 h8 hg2 =>
    refine ⟨'(' :: (c!"define" ++ (g1 ++ (tn))), ext, u1, u2 ++ (u3 ++ (u4 ++ (u5 ++ (u6 ++ (u7 ++ (u8 ++ (g2 ++ ([')'])))))))),
      ?_, h1, by cases ext <;> rfl, fun o' u' h' => ?_⟩
    · simp only [paren, List.append_assoc, List.cons_append, List.nil_append]
    · have := DomainX.mk hg1 hn h' h2 h3 h4 h5 h6 h7 h8 hg2
      cases o' <;> simpa only [paren, List.append_assoc, List.cons_append, List.nil_append, Option.map_some, Option.map_none,
          Option.getD_some, Option.getD_none, id] using this

theorem domain_requirements : HasSection DomainX (SomeX c!":requirements" KeyW) id Domain.requirements
    (fun d v => { d with requirements := v }) [] := by
  intro f t h
  cases h with
  | @mk g1 name tn ext u1 req u2 ty u3 con u4 pre u5 fn u6 cstr u7 st u8 g2 hg1 hn h1 h2 h3 h4 h5 h6
      h7 h8 hg2 =>
    refine ⟨'(' :: (c!"define" ++ (g1 ++ (tn ++ (u1)))), req, u2, u3 ++ (u4 ++ (u5 ++ (u6 ++ (u7 ++ (u8 ++ (g2 ++ ([')']))))))),
      ?_, h2, by cases req <;> rfl, fun o' u' h' => ?_⟩
    · simp only [paren, List.append_assoc, List.cons_append, List.nil_append]
    · have := DomainX.mk hg1 hn h1 h' h3 h4 h5 h6 h7 h8 hg2
      cases o' <;> simpa only [paren, List.append_assoc, List.cons_append, List.nil_append, Option.map_some, Option.map_none,
          Option.getD_some, Option.getD_none, id] using this

theorem domain_types : HasSection DomainX (NamesX c!":types") id Domain.types
    (fun d v => { d with types := v }) [] := by
  intro f t h
  cases h with
  | @mk g1 name tn ext u1 req u2 ty u3 con u4 pre u5 fn u6 cstr u7 st u8 g2 hg1 hn h1 h2 h3 h4 h5 h6
      h7 h8 hg2 =>
    refine ⟨'(' :: (c!"define" ++ (g1 ++ (tn ++ (u1 ++ (u2))))), ty, u3, u4 ++ (u5 ++ (u6 ++ (u7 ++ (u8 ++ (g2 ++ ([')'])))))),
      ?_, h3, by cases ty <;> rfl, fun o' u' h' => ?_⟩
    · simp only [paren, List.append_assoc, List.cons_append, List.nil_append]
    · have := DomainX.mk hg1 hn h1 h2 h' h4 h5 h6 h7 h8 hg2
      cases o' <;> simpa only [paren, List.append_assoc, List.cons_append, List.nil_append, Option.map_some, Option.map_none,
          Option.getD_some, Option.getD_none, id] using this

theorem domain_constants : HasSection DomainX (NamesX c!":constants") id Domain.constants
    (fun d v => { d with constants := v }) [] := by
  intro f t h
  cases h with
  | @mk g1 name tn ext u1 req u2 ty u3 con u4 pre u5 fn u6 cstr u7 st u8 g2 hg1 hn h1 h2 h3 h4 h5 h6
      h7 h8 hg2 =>
    refine ⟨'(' :: (c!"define" ++ (g1 ++ (tn ++ (u1 ++ (u2 ++ (u3)))))), con, u4, u5 ++ (u6 ++ (u7 ++ (u8 ++ (g2 ++ ([')']))))),
      ?_, h4, by cases con <;> rfl, fun o' u' h' => ?_⟩
    · simp only [paren, List.append_assoc, List.cons_append, List.nil_append]
    · have := DomainX.mk hg1 hn h1 h2 h3 h' h5 h6 h7 h8 hg2
      cases o' <;> simpa only [paren, List.append_assoc, List.cons_append, List.nil_append, Option.map_some, Option.map_none,
          Option.getD_some, Option.getD_none, id] using this

theorem domain_predicates : HasSection DomainX (SomeX c!":predicates" SkeletonX) id Domain.predicates
    (fun d v => { d with predicates := v }) [] := by
  intro f t h
  cases h with
  | @mk g1 name tn ext u1 req u2 ty u3 con u4 pre u5 fn u6 cstr u7 st u8 g2 hg1 hn h1 h2 h3 h4 h5 h6
      h7 h8 hg2 =>
    refine ⟨'(' :: (c!"define" ++ (g1 ++ (tn ++ (u1 ++ (u2 ++ (u3 ++ (u4))))))), pre, u5, u6 ++ (u7 ++ (u8 ++ (g2 ++ ([')'])))),
      ?_, h5, by cases pre <;> rfl, fun o' u' h' => ?_⟩
    · simp only [paren, List.append_assoc, List.cons_append, List.nil_append]
    · have := DomainX.mk hg1 hn h1 h2 h3 h4 h' h6 h7 h8 hg2
      cases o' <;> simpa only [paren, List.append_assoc, List.cons_append, List.nil_append, Option.map_some, Option.map_none,
          Option.getD_some, Option.getD_none, id] using this

theorem domain_functions : HasSection DomainX FunctionsX id Domain.functions
    (fun d v => { d with functions := v }) [] := by
  intro f t h
  cases h with
  | @mk g1 name tn ext u1 req u2 ty u3 con u4 pre u5 fn u6 cstr u7 st u8 g2 hg1 hn h1 h2 h3 h4 h5 h6
      h7 h8 hg2 =>
    refine ⟨'(' :: (c!"define" ++ (g1 ++ (tn ++ (u1 ++ (u2 ++ (u3 ++ (u4 ++ (u5)))))))), fn, u6, u7 ++ (u8 ++ (g2 ++ ([')']))),
      ?_, h6, by cases fn <;> rfl, fun o' u' h' => ?_⟩
    · simp only [paren, List.append_assoc, List.cons_append, List.nil_append]
    · have := DomainX.mk hg1 hn h1 h2 h3 h4 h5 h' h7 h8 hg2
      cases o' <;> simpa only [paren, List.append_assoc, List.cons_append, List.nil_append, Option.map_some, Option.map_none,
          Option.getD_some, Option.getD_none, id] using this

theorem domain_constraints : HasSection DomainX (Wrapped c!":constraints" ConX) id Domain.constraints
    (fun d v => { d with constraints := v }) (.and []) := by
  intro f t h
  cases h with
  | @mk g1 name tn ext u1 req u2 ty u3 con u4 pre u5 fn u6 cstr u7 st u8 g2 hg1 hn h1 h2 h3 h4 h5 h6
      h7 h8 hg2 =>
    refine ⟨'(' :: (c!"define" ++ (g1 ++ (tn ++ (u1 ++ (u2 ++ (u3 ++ (u4 ++ (u5 ++ (u6))))))))), cstr, u7, u8 ++ (g2 ++ ([')'])),
      ?_, h7, by cases cstr <;> rfl, fun o' u' h' => ?_⟩
    · simp only [paren, List.append_assoc, List.cons_append, List.nil_append]
    · have := DomainX.mk hg1 hn h1 h2 h3 h4 h5 h6 h' h8 hg2
      cases o' <;> simpa only [paren, List.append_assoc, List.cons_append, List.nil_append, Option.map_some, Option.map_none,
          Option.getD_some, Option.getD_none, id] using this

/-! ## Problems -/

theorem problem_requirements : HasSection ProblemX (SomeX c!":requirements" KeyW) id Problem.requires
    (fun d v => { d with requires := v }) [] := by
  intro f t h
  cases h with
  | @mk g1 name tn g2 domain td req u1 obj u2 g3 init ti g4 goal tg cstr u3 met u4 len u5 g5
      hg1 hn hg2 hd h1 h2 hg3 hi hg4 hgoal h3 h4 h5 hg5 =>
    refine ⟨'(' :: (c!"define" ++ (g1 ++ (tn ++ (g2 ++ (td))))), req, u1, u2 ++ (g3 ++ (ti ++ (g4 ++ (tg ++ (u3 ++ (u4 ++ (u5 ++ (g5 ++ ([')']))))))))),
      ?_, h1, by cases req <;> rfl, fun o' u' h' => ?_⟩
    · simp only [paren, List.append_assoc, List.cons_append, List.nil_append]
    · have := ProblemX.mk hg1 hn hg2 hd h' h2 hg3 hi hg4 hgoal h3 h4 h5 hg5
      cases o' <;> simpa only [paren, List.append_assoc, List.cons_append, List.nil_append, Option.map_some, Option.map_none,
          Option.getD_some, Option.getD_none, id] using this

theorem problem_objects : HasSection ProblemX (NamesX c!":objects") id Problem.objects
    (fun d v => { d with objects := v }) [] := by
  intro f t h
  cases h with
  | @mk g1 name tn g2 domain td req u1 obj u2 g3 init ti g4 goal tg cstr u3 met u4 len u5 g5
      hg1 hn hg2 hd h1 h2 hg3 hi hg4 hgoal h3 h4 h5 hg5 =>
    refine ⟨'(' :: (c!"define" ++ (g1 ++ (tn ++ (g2 ++ (td ++ (u1)))))), obj, u2, g3 ++ (ti ++ (g4 ++ (tg ++ (u3 ++ (u4 ++ (u5 ++ (g5 ++ ([')'])))))))),
      ?_, h2, by cases obj <;> rfl, fun o' u' h' => ?_⟩
    · simp only [paren, List.append_assoc, List.cons_append, List.nil_append]
    · have := ProblemX.mk hg1 hn hg2 hd h1 h' hg3 hi hg4 hgoal h3 h4 h5 hg5
      cases o' <;> simpa only [paren, List.append_assoc, List.cons_append, List.nil_append, Option.map_some, Option.map_none,
          Option.getD_some, Option.getD_none, id] using this

theorem problem_constraints : HasSection ProblemX (Wrapped c!":constraints" PrefConX) id Problem.constraints
    (fun d v => { d with constraints := v }) [] := by
  intro f t h
  cases h with
  | @mk g1 name tn g2 domain td req u1 obj u2 g3 init ti g4 goal tg cstr u3 met u4 len u5 g5
      hg1 hn hg2 hd h1 h2 hg3 hi hg4 hgoal h3 h4 h5 hg5 =>
    refine ⟨'(' :: (c!"define" ++ (g1 ++ (tn ++ (g2 ++ (td ++ (u1 ++ (u2 ++ (g3 ++ (ti ++ (g4 ++ (tg))))))))))), cstr, u3, u4 ++ (u5 ++ (g5 ++ ([')']))),
      ?_, h3, by cases cstr <;> rfl, fun o' u' h' => ?_⟩
    · simp only [paren, List.append_assoc, List.cons_append, List.nil_append]
    · have := ProblemX.mk hg1 hn hg2 hd h1 h2 hg3 hi hg4 hgoal h' h4 h5 hg5
      cases o' <;> simpa only [paren, List.append_assoc, List.cons_append, List.nil_append, Option.map_some, Option.map_none,
          Option.getD_some, Option.getD_none, id] using this

theorem problem_metric : HasSection ProblemX MetricSpecX some Problem.metricSpec
    (fun d v => { d with metricSpec := v }) none := by
  intro f t h
  cases h with
  | @mk g1 name tn g2 domain td req u1 obj u2 g3 init ti g4 goal tg cstr u3 met u4 len u5 g5
      hg1 hn hg2 hd h1 h2 hg3 hi hg4 hgoal h3 h4 h5 hg5 =>
    refine ⟨'(' :: (c!"define" ++ (g1 ++ (tn ++ (g2 ++ (td ++ (u1 ++ (u2 ++ (g3 ++ (ti ++ (g4 ++ (tg ++ (u3)))))))))))), met, u4, u5 ++ (g5 ++ ([')'])),
      ?_, h4, by cases met <;> rfl, fun o' u' h' => ?_⟩
    · simp only [paren, List.append_assoc, List.cons_append, List.nil_append]
    · have := ProblemX.mk hg1 hn hg2 hd h1 h2 hg3 hi hg4 hgoal h3 h' h5 hg5
      cases o' <;> simpa only [paren, List.append_assoc, List.cons_append, List.nil_append, Option.map_some, Option.map_none,
          Option.getD_some, Option.getD_none, id] using this

theorem problem_length : HasSection ProblemX LengthX some Problem.lengthSpec
    (fun d v => { d with lengthSpec := v }) none := by
  intro f t h
  cases h with
  | @mk g1 name tn g2 domain td req u1 obj u2 g3 init ti g4 goal tg cstr u3 met u4 len u5 g5
      hg1 hn hg2 hd h1 h2 hg3 hi hg4 hgoal h3 h4 h5 hg5 =>
    refine ⟨'(' :: (c!"define" ++ (g1 ++ (tn ++ (g2 ++ (td ++ (u1 ++ (u2 ++ (g3 ++ (ti ++ (g4 ++ (tg ++ (u3 ++ (u4))))))))))))), len, u5, g5 ++ ([')']),
      ?_, h5, by cases len <;> rfl, fun o' u' h' => ?_⟩
    · simp only [paren, List.append_assoc, List.cons_append, List.nil_append]
    · have := ProblemX.mk hg1 hn hg2 hd h1 h2 hg3 hi hg4 hgoal h3 h4 h' hg5
      cases o' <;> simpa only [paren, List.append_assoc, List.cons_append, List.nil_append, Option.map_some, Option.map_none,
          Option.getD_some, Option.getD_none, id] using this

theorem problem_init : HasNeeded ProblemX InitSectionX Problem.init
    (fun d v => { d with init := v }) := by
  intro f t h
  cases h with
  | @mk g1 name tn g2 domain td req u1 obj u2 g3 init ti g4 goal tg cstr u3 met u4 len u5 g5
      hg1 hn hg2 hd h1 h2 hg3 hi hg4 hgoal h3 h4 h5 hg5 =>
    refine ⟨'(' :: (c!"define" ++ (g1 ++ (tn ++ (g2 ++ (td ++ (u1 ++ (u2))))))), g3, ti, g4 ++ (tg ++ (u3 ++ (u4 ++ (u5 ++ (g5 ++ ([')'])))))),
      ?_, hg3.gap, hi, fun g' v u' hg' hv => ?_⟩
    · simp only [paren, List.append_assoc, List.cons_append, List.nil_append]
    · have := ProblemX.mk hg1 hn hg2 hd h1 h2 (hg3.append hg') hv hg4 hgoal h3 h4 h5 hg5
      simpa only [paren, List.append_assoc, List.cons_append, List.nil_append, Option.map_some, Option.map_none,
          Option.getD_some, Option.getD_none, id] using this

theorem problem_goal : HasNeeded ProblemX (Wrapped c!":goal" (PreX [])) Problem.goal
    (fun d v => { d with goal := v }) := by
  intro f t h
  cases h with
  | @mk g1 name tn g2 domain td req u1 obj u2 g3 init ti g4 goal tg cstr u3 met u4 len u5 g5
      hg1 hn hg2 hd h1 h2 hg3 hi hg4 hgoal h3 h4 h5 hg5 =>
    refine ⟨'(' :: (c!"define" ++ (g1 ++ (tn ++ (g2 ++ (td ++ (u1 ++ (u2 ++ (g3 ++ (ti))))))))), g4, tg, u3 ++ (u4 ++ (u5 ++ (g5 ++ ([')'])))),
      ?_, hg4.gap, hgoal, fun g' v u' hg' hv => ?_⟩
    · simp only [paren, List.append_assoc, List.cons_append, List.nil_append]
    · have := ProblemX.mk hg1 hn hg2 hd h1 h2 hg3 hi (hg4.append hg') hv h3 h4 h5 hg5
      simpa only [paren, List.append_assoc, List.cons_append, List.nil_append, Option.map_some, Option.map_none,
          Option.getD_some, Option.getD_none, id] using this


/-! ## The claims -/

/-- C93: replacing, removing or adding one action, durative action or derived predicate of a domain changes only
that. -/
theorem C93_structures : EditList parseDomain parseStructureDef Domain.structure_
    (fun d xs => { d with structure_ := xs }) 0 :=
  domain_structures.editList C85_domains structure_reader isLead_sep (by decide)

/-- C93: the same for one declared predicate; at least one has to remain. -/
theorem C93_predicates : EditList parseDomain parseAtomicFormulaSkeleton Domain.predicates
    (fun d xs => { d with predicates := xs }) 1 :=
  domain_predicates.hasRow.editList C85_domains skeleton_reader isLead_gap (by decide)

/-- C93: the same for one requirement of a domain or of a problem. -/
theorem C93_requirements :
    EditList parseDomain parseRequireKey Domain.requirements (fun d xs => { d with requirements := xs }) 1 ∧
    EditList parseProblem parseRequireKey Problem.requires (fun d xs => { d with requires := xs }) 1 :=
  ⟨domain_requirements.hasRow.editList C85_domains key_reader isLead_gap (by decide),
    problem_requirements.hasRow.editList C85_problems key_reader isLead_gap (by decide)⟩

/-- C93: the same for one extended domain. -/
theorem C93_extends : EditList parseDomain parseName Domain.extends_ (fun d xs => { d with extends_ := xs }) 1 :=
  domain_extends.hasRow.editList C85_domains name_reader isLead_gap (by decide)

/-- C93: the same for one fact of an initial state; none has to remain. -/
theorem C93_facts : EditList parseProblem parseInitEl Problem.init (fun d xs => { d with init := xs }) 0 :=
  problem_init.hasRow.editList C85_problems init_reader isLead_gap (by decide)

/-- C93: replacing, removing or adding a whole section of a domain changes only what that section says. -/
theorem C93_domain_sections :
    EditSection parseDomain (prefixExpr c!":extends" (spaceSeparatedList1 parseName)) id Domain.extends_
      (fun d v => { d with extends_ := v }) [] ∧
    EditSection parseDomain parseRequireDef id Domain.requirements (fun d v => { d with requirements := v }) [] ∧
    EditSection parseDomain parseTypesDef id Domain.types (fun d v => { d with types := v }) [] ∧
    EditSection parseDomain parseConstantsDef id Domain.constants (fun d v => { d with constants := v }) [] ∧
    EditSection parseDomain parsePredicatesDef id Domain.predicates (fun d v => { d with predicates := v }) [] ∧
    EditSection parseDomain parseFunctionsDef id Domain.functions (fun d v => { d with functions := v }) [] ∧
    EditSection parseDomain parseDomainConstraintsDef id Domain.constraints (fun d v => { d with constraints := v })
      (.and []) :=
  ⟨domain_extends.editSection C85_domains extends_section,
    domain_requirements.editSection C85_domains requirements_section,
    domain_types.editSection C85_domains types_section,
    domain_constants.editSection C85_domains constants_section,
    domain_predicates.editSection C85_domains predicates_section,
    domain_functions.editSection C85_domains functions_section,
    domain_constraints.editSection C85_domains constraints_section⟩

/-- C93: the same for the sections of a problem. The initial state and the goal can be replaced but not left out. -/
theorem C93_problem_sections :
    EditSection parseProblem parseRequireDef id Problem.requires (fun d v => { d with requires := v }) [] ∧
    EditSection parseProblem parseProblemObjectsDeclaration id Problem.objects (fun d v => { d with objects := v }) [] ∧
    EditNeeded parseProblem parseProblemInitDef Problem.init (fun d v => { d with init := v }) ∧
    EditNeeded parseProblem parseProblemGoalDef Problem.goal (fun d v => { d with goal := v }) ∧
    EditSection parseProblem parseProblemConstraintsDef id Problem.constraints
      (fun d v => { d with constraints := v }) [] ∧
    EditSection parseProblem parseProblemMetricSpec some Problem.metricSpec (fun d v => { d with metricSpec := v })
      none ∧
    EditSection parseProblem parseProblemLengthSpec some Problem.lengthSpec (fun d v => { d with lengthSpec := v })
      none :=
  ⟨problem_requirements.editSection C85_problems requirements_section,
    problem_objects.editSection C85_problems objects_section,
    problem_init.editNeeded C85_problems init_section.reader,
    problem_goal.editNeeded C85_problems goal_section.reader,
    problem_constraints.editSection C85_problems prefConstraints_section,
    problem_metric.editSection C85_problems metric_section,
    problem_length.editSection C85_problems length_section⟩

/-- A domain with two actions: the second can be replaced by a derived predicate with layout of its own. -/
example : ∃ d, parseDomain c!"(define (domain d) (:action a :parameters ())\n(:action b :parameters ());c\n) x" = .ok d c!"x" ∧
    1 < d.structure_.length ∧ ∃ x y, ∀ b v, parseStructureDef b = .ok v [] →
      parseDomain (x ++ (b ++ y)) = .ok { d with structure_ := d.structure_.set 1 v } c!"x" := by
  refine ⟨_, rfl, by decide, ?_⟩
  obtain ⟨x, a, y, _, _, h, _⟩ := C93_structures.edit
    c!"(define (domain d) (:action a :parameters ())\n(:action b :parameters ());c\n) x" _ _ rfl 1 (by decide)
  exact ⟨x, y, h⟩

example : ∃ v, parseStructureDef c!" ;derived\n(:derived (p) (q))" = .ok v [] := ⟨_, rfl⟩

/-- Where nothing stands, a metric can be added, and it can be taken out again. -/
example : ∃ f, parseProblem c!"(define (problem p) (:domain d) (:init) (:goal (g)))" = .ok f [] ∧ f.metricSpec = none ∧
    parseProblem c!"(define (problem p) (:domain d) (:init) (:goal (g)) (:metric minimize total-time))" =
      .ok { f with metricSpec := some ⟨.minimize, .totalTime⟩ } [] := by
  refine ⟨_, rfl, rfl, ?_⟩
  rfl

/-- The blank in front of an added section is needed. -/
example : ∃ f, parseDomain c!"(define (domain d) (:types a))" = .ok f [] ∧
    (∃ v, parseConstantsDef c!"(:constants b)" = .ok v []) ∧
    parseDomain c!"(define (domain d) (:types a)(:constants b))" = .err := ⟨_, rfl, ⟨_, rfl⟩, rfl⟩

end Pddl
