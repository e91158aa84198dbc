import Verif.Props.Conversions
import Verif.Props.ConstraintsX

/-!
# C74, continued: more values built by hand
-/

namespace Pddl

/-- `Con2GD::from` of a goal is read from exactly the texts of the goal; of a constraint, from exactly the
texts of the constraint that are not texts of a goal as well (C21). -/
theorem C74_nested_constraints {g : GD} {c : ConGD} {t : List Char} :
    (ReadsAs parseCon2Gd (Con2GD.ofGoal g) t ↔ ReadsAs parseGd g t) ∧
    (ReadsAs parseCon2Gd (Con2GD.ofCon c) t ↔ ReadsAs parseConGd c t ∧ ∀ v, ¬ ReadsAs parseGd v t) := by
  refine ⟨con2_goal.trans (gdx_reads ..).symm, con2_nested.trans (and_congr_right fun _ => ?_)⟩
  exact forall_congr' fun v => not_congr (gdx_reads ..).symm

/-- `ConGD::default()` is what is read from `(and)`. -/
theorem C74_default_constraint {t : List Char} :
    ReadsAs parseConGd ConGD.default t ↔ Listed c!"and" (ReadsAs parseConGd) [] t :=
  (C74_constraints (vs := []) (vars := []) (c := ConGD.default) (g := .and []) (a := .goal (.and []))
    (b := .goal (.and [])) (n := Number.default) (m := Number.default)).1

/-- `x.to_typed_either([..])` is what is read from `x - (either ..)`. -/
theorem C74_typed_either {xs ts : List Name} {kw g g' t : List Char} (hg : Sep g)
    (h : GroupsW NameW ⟨[(xs, .eitherOf ts)], []⟩ t) (hg' : Gap g') (r : List Char) :
    prefixExpr kw (typedList parseName) (paren (kw ++ (g ++ (t ++ g'))) ++ r) =
      .ok (xs.map fun x => Typed.toTypedEither x ts) r := by
  rw [C74_typed_names hg h hg' r]
  simp
  exact fun _ _ => rfl

/-! ## Examples -/

example : ReadsAs parseCon2Gd (Con2GD.ofGoal (.and [])) c!"(and)" := ⟨solid_open _, rfl⟩
example : ReadsAs parseCon2Gd
    (Con2GD.ofCon (.always (.goal (.atomic (.equality (.name (.new c!"a")) (.name (.new c!"b")))))))
    c!"(always (= a b))" := ⟨solid_open _, rfl⟩
example : ReadsAs parseConGd ConGD.default c!"(and )" := ⟨solid_open _, rfl⟩
example : prefixExpr c!":objects" (typedList parseName) c!"(:objects x y - (either a b))" =
    .ok [.toTypedEither (.new c!"x") [.new c!"a", .new c!"b"], .toTypedEither (.new c!"y") [.new c!"a", .new c!"b"]] [] := rfl

end Pddl
