import Verif.Props.Image
import Verif.Props.Builders

/-!
# C70 and C71: the part of a domain that nobody fills or shows

Both claims fail because of the timeless predicates only.
-/

namespace Pddl

/-- **C71**: timeless predicates are the only part of a domain that the parser cannot fill: a domain is
the meaning of some text exactly if it has none and the domain without them is. -/
theorem C71_iff (d : Domain) : (∃ s, fromStr parseDomain s = some d) ↔
    d.timeless = [] ∧ ∃ s, fromStr parseDomain s = some { d with timeless := [] } := by
  rw [C99_domains, C99_domains]
  constructor
  · intro h
    have ht : d.timeless = [] := by
      simp only [Domain.made, Bool.and_eq_true, List.isEmpty_iff] at h
      exact h.1.2
    refine ⟨ht, ?_⟩
    rw [← ht]
    exact h
  · rintro ⟨ht, h⟩
    rw [← ht] at h
    exact h

example : (∃ s, fromStr parseDomain s = some Ex.domain) ∧ Ex.domain.timeless = [] :=
  ⟨(C99_domains _).mpr (by decide +kernel), rfl⟩

/-- **C70**: two domains that show the same in every accessor differ in their timeless predicates at
most. -/
theorem C70_domain_views_iff (d e : Domain) :
    (∀ v, d.view v = e.view v) ↔ { d with timeless := [] } = { e with timeless := [] } := by
  constructor
  · intro h
    refine C70_domain_views_partial _ _ (fun v => ?_) rfl
    have := h v
    cases v <;> exact this
  · intro h v
    have : ({ d with timeless := [] } : Domain).view v = ({ e with timeless := [] } : Domain).view v := by rw [h]
    cases v <;> exact this

example : ∃ d e : Domain, (∀ v, d.view v = e.view v) ∧ d ≠ e := by
  refine ⟨{ Ex.domain with timeless := [] }, { Ex.domain with timeless := [.pos (.predicate (Name.new c!"p") [])] },
    (C70_domain_views_iff _ _).2 rfl, fun h => ?_⟩
  have := congrArg (fun d : Domain => d.timeless.length) h
  cases this

end Pddl
