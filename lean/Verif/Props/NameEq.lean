import Verif.Props.Intern

/-!
# C08: exactly when two names are equal

The claim of C08 is false of the code (`C08_false`). Here is what holds instead: for every two ways
of making names, whether the names are equal.
-/

namespace Pddl

/-- The ways a caller has of making a name: `Name::new` and the conversions that call it,
`Name::new_static` and `Name::default()`, `/repo/src/types/name.rs:53-84,137-147,208-212`. -/
inductive NameCall where
  | new (s : List Char)
  | newStatic (s : List Char)
  | default

namespace NameCall

/-- The name a call returns. -/
def name : NameCall → Name
  | new s => Name.new s
  | newStatic s => Name.newStatic s
  | default => Name.default

/-- The text the caller handed over. -/
def given : NameCall → List Char
  | new s => s
  | newStatic s => s
  | default => []

/-- The caller handed over a text of its own, other than the two words the library has itself. -/
def Owned : NameCall → Prop
  | new s => s ≠ c!"object" ∧ s ≠ c!"number"
  | newStatic _ => False
  | default => False

end NameCall

/-- **C08**: exactly when two names are equal, for all pairs of calls that make them. -/
theorem C08_iff (a b : NameCall) :
    a.name = b.name ↔ a.given = b.given ∧ (a.Owned ↔ b.Owned) := by
  have hn : ∀ s, Name.new s = (if s = c!"object" ∨ s = c!"number" then .static s else .str s) := by
    intro s
    unfold Name.new Name.mapToStatic
    by_cases h : s = c!"object"
    · subst h; rfl
    · by_cases h2 : s = c!"number"
      · subst h2; rfl
      · simp [h, h2]
  have ho : ∀ s : List Char, (s ≠ c!"object" ∧ s ≠ c!"number") ↔ ¬ (s = c!"object" ∨ s = c!"number") :=
    fun s => not_or.symm
  cases a <;> cases b <;>
    simp only [NameCall.name, NameCall.given, NameCall.Owned, hn, ho, Name.newStatic, Name.default]
  · rename_i s t
    by_cases h : s = c!"object" ∨ s = c!"number" <;> by_cases h2 : t = c!"object" ∨ t = c!"number"
    · simp [h, h2]
    · simp only [h, h2, if_true, if_false]; simp
    · simp only [h, h2, if_true, if_false]; simp
    · simp [h, h2]
  · rename_i s t
    by_cases h : s = c!"object" ∨ s = c!"number"
    · simp only [h, if_true]; simp
    · simp only [h, if_false]; simp
  · rename_i s
    by_cases h : s = c!"object" ∨ s = c!"number"
    · simp only [h, if_true]; simp
    · simp only [h, if_false]; simp
  · rename_i s t
    by_cases h : t = c!"object" ∨ t = c!"number"
    · simp only [h, if_true]; simp
    · simp only [h, if_false]; simp
  · simp
  · simp
  · rename_i t
    by_cases h : t = c!"object" ∨ t = c!"number"
    · simp only [h, if_true]; simp
    · simp only [h, if_false]; simp
  · simp
  · simp

/-- The text of a name is what was handed over, whichever way it was made. -/
theorem C08_text (a : NameCall) : a.name.text = a.given := by
  cases a with
  | new s =>
    simp only [NameCall.name, NameCall.given, Name.new, Name.mapToStatic]
    by_cases h : s = c!"object"
    · subst h; rfl
    · by_cases h2 : s = c!"number"
      · subst h2; rfl
      · simp [h, h2, Name.text]
  | newStatic s => rfl
  | default => rfl

/-- **C08**: a name made by `Name::new` equals one made by `Name::new_static` only for the two words
the library has itself. -/
theorem C08_mixed (s t : List Char) :
    Name.new s = Name.newStatic t ↔ s = t ∧ (s = c!"object" ∨ s = c!"number") := by
  have h := C08_iff (.new s) (.newStatic t)
  simp only [NameCall.name, NameCall.given, NameCall.Owned, iff_false] at h
  rw [h]
  constructor
  · rintro ⟨e, h⟩
    exact ⟨e, by by_cases h1 : s = c!"object" <;> simp_all⟩
  · rintro ⟨e, h⟩
    exact ⟨e, fun h2 => h.elim h2.1 h2.2⟩

example : (NameCall.new c!"object").name = (NameCall.newStatic c!"object").name :=
  (C08_iff _ _).2 ⟨rfl, by simp [NameCall.Owned]⟩

example : (NameCall.new c!"truck").name ≠ (NameCall.newStatic c!"truck").name := fun h =>
  (((C08_iff _ _).1 h).2.1 (by simp [NameCall.Owned])).elim

example : (NameCall.new []).name ≠ NameCall.default.name := fun h =>
  (((C08_iff _ _).1 h).2.1 (by simp [NameCall.Owned])).elim

end Pddl
