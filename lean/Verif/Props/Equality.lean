import Verif.Meta.Equality
import Verif.Props.ApiX
import Verif.Props.Relayout

/-!
# C89: `==` compares everything
-/

namespace Pddl

/-- Two values of any type that can be parsed are `==` exactly if they are the same. -/
theorem C89_every_type (k : Parsable) (v w : k.Item) : k.same v w = true ↔ v = w := k.same_iff v w

/-- `==` is an equivalence, as `Eq` asks for. -/
theorem C89_equivalence (k : Parsable) : (∀ v, k.same v v = true) ∧ (∀ v w, k.same v w = k.same w v) ∧
    ∀ u v w, k.same u v = true → k.same v w = true → k.same u w = true := by
  refine ⟨fun v => (k.same_iff v v).mpr rfl, fun v w => ?_, fun u v w h h' => ?_⟩
  · rw [Bool.eq_iff_iff, k.same_iff, k.same_iff]; exact eq_comm
  · rw [k.same_iff] at *; exact h.trans h'

/-- Domains and problems. -/
theorem C89_domain (d e : Domain) : d.same e = true ↔ d = e := d.same_iff e
theorem C89_problem (p q : Problem) : p.same q = true ↔ p = q := p.same_iff q

/-- What was read from two texts is `==` exactly if the first text also is a text of the second value. -/
theorem C89_texts (k : Parsable) {g t r : List Char} {v w : k.Item} (h : k.Reads g v t r) :
    k.same v w = true ↔ k.Reads g w t r := by
  rw [k.same_iff]
  exact ⟨fun e => e ▸ h, fun h' => (C86_unique k h h' rfl).1⟩

/-- Texts of the same shape are read as values that are `==`. -/
theorem C89_layout (k : Parsable) {s s' : List Char} (h : shape s = shape s') {v : k.Item}
    (hv : k.fromStr s = .ok v []) : ∃ w, k.fromStr s' = .ok w [] ∧ k.same v w = true :=
  ⟨v, C88_from_str h k ▸ hv, (k.same_iff v v).mpr rfl⟩

/-- A name made without `Name::new` is not `==` to the name that was read, though both show the same text. -/
theorem C89_static_name :
    parseName c!"truck" = .ok (.new c!"truck") [] ∧ Name.same (.newStatic c!"truck") (.new c!"truck") = false := ⟨rfl, rfl⟩

/-- Zero and minus zero are not `==`. -/
theorem C89_zero : Number.same ⟨⟨0⟩⟩ ⟨⟨0x80000000⟩⟩ = false := by decide +kernel

/-! ## Examples -/

example : GD.same (.and [.not (.atomic (.predicate (.new c!"p") [.var (.new c!"x")]))])
    (.and [.not (.atomic (.predicate (.new c!"p") [.var (.new c!"x")]))]) = true := rfl

example : GD.same (.and [.not (.atomic (.predicate (.new c!"p") [.var (.new c!"x")]))])
    (.and [.not (.atomic (.predicate (.new c!"p") [.name (.new c!"x")]))]) = false := rfl

set_option maxRecDepth 8000 in
example : ∃ v w, Parsable.domain.fromStr renameSample = .ok v [] ∧ Parsable.domain.fromStr relaidSample = .ok w [] ∧
    Parsable.domain.same v w = true := by
  refine ⟨_, _, rfl, rfl, rfl⟩

end Pddl
