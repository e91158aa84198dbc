import Verif.Props.Number
import Verif.Props.Types

/-!
# C37, C43: exactly where the claims fail
-/

namespace Pddl

/-- **C37**: the comparisons of two finite numbers agree exactly if the numbers are not the two
different zeros. -/
theorem C37_iff (a b : Number) (ha : FiniteBits a.val.bits) (hb : FiniteBits b.val.bits) :
    (Number.partialCmp a b = Number.cmp a b ∧
      (Number.eq a b = true ↔ Number.cmp a b = some .eq)) ↔
    ¬ (bitsValue a.val.bits = 0 ∧ bitsValue b.val.bits = 0 ∧ a.val.bits ≠ b.val.bits) := by
  constructor
  · rintro ⟨_, h⟩ ⟨h1, h2, h3⟩
    have hc := C37_cmp_follows_value a b ha hb
    rw [h1, h2] at hc
    have := (C37_eq_is_identity a b).1 (h.2 (by rw [hc]; rfl))
    exact h3 (by rw [this])
  · intro h
    by_cases hz : bothZero a b
    · have e : a = b := by
        obtain ⟨⟨x⟩⟩ := a
        obtain ⟨⟨y⟩⟩ := b
        have : x = y := Classical.byContradiction fun hne => h ⟨hz.1, hz.2, hne⟩
        rw [this]
      subst e
      have hc := C37_cmp_follows_value a a ha ha
      have hcc : compare (bitsValue a.val.bits) (bitsValue a.val.bits) = .eq := by
        rw [hz.1]; rfl
      rw [hcc] at hc
      refine ⟨?_, by simp [hc, (C37_eq_is_identity a a).2 rfl]⟩
      rw [hc]
      simp [Number.partialCmp, F32.totalCmp]
    · exact C37_agree_partial a b ha hb hz

example : FiniteBits (0x80000000 : BitVec 32) ∧ bitsValue 0x80000000 = 0 ∧ bitsValue 0 = 0 := by
  unfold FiniteBits; decide

/-- **C43**: `is_empty` of a constraint with preferences differs from "mentions no state" exactly for
quantifications over a non-empty list in which nothing mentions the state. -/
theorem C43_iff (g : PrefConGD) :
    (g.isEmpty = true ↔ ¬ g.Mentions) ↔
      ¬ ∃ vs gs, g = .forall_ vs gs ∧ gs ≠ [] ∧ ∀ x ∈ gs, ¬ x.Mentions := by
  constructor
  · rintro h ⟨vs, gs, rfl, hne, hall⟩
    have := h.2 (fun hm => by cases hm with | forall_ hx hm => exact hall _ hx hm)
    simp only [PrefConGD.isEmpty, List.isEmpty_iff] at this
    exact hne this
  · intro h
    refine ⟨(C43_preference_constraint_partial g).1, fun hm => ?_⟩
    cases g with
    | goal g => exact (C43_preference_constraint_partial _).2 (fun _ _ e => nomatch e) hm
    | preference n g => exact (C43_preference_constraint_partial _).2 (fun _ _ e => nomatch e) hm
    | forall_ vs gs =>
      simp only [PrefConGD.isEmpty, List.isEmpty_iff]
      refine Classical.byContradiction fun hne => h ⟨vs, gs, rfl, hne, fun x hx hx2 => ?_⟩
      exact hm (.forall_ hx hx2)

example : ∃ vs gs, PrefConGD.forall_ [] [.goal (.and [])] = .forall_ vs gs ∧ gs ≠ [] ∧
    ∀ x ∈ gs, ¬ PrefConGD.Mentions x :=
  ⟨_, _, rfl, by simp, fun x hx hm => by
    cases List.mem_singleton.1 hx
    exact (C43_preference_constraint_partial _).1 (by rfl) hm⟩

end Pddl
