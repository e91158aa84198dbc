import Verif.Meta.GoodAll

/-!
# C34–C36 and C41: requirement keys and operators
-/

namespace Pddl

/-! ## C41 -/

/-- Text and parser of one operator enum: `str` prints, `tryFrom` converts, `p` parses.
`ok op r`: the operator may be followed by `r`. -/
structure OpSpec (α : Type) where
  str : α → List Char
  tryFrom : List Char → Option α
  p : P α
  ok : α → List Char → Prop

/-- What C41 asks of one operator enum: converting to text and back is the identity, distinct
operators have distinct texts, the parser reads each operator back in front of any admissible text,
and whatever it reads is spelled by one of the operator's texts at the start of the input. -/
structure OpSpec.Lawful {α : Type} (S : OpSpec α) (alias : α → List (List Char)) : Prop where
  roundtrip : ∀ op, S.tryFrom (S.str op) = some op
  injective : ∀ a b, S.str a = S.str b → a = b
  complete : ∀ op r, S.ok op r → S.p (S.str op ++ r) = .ok op r
  sound : ∀ s op r, S.p s = .ok op r → ∃ t, s = t ++ r ∧ (t = S.str op ∨ t ∈ alias op)

/-- Soundness of the operator parsers from a check of the finite table of tags. -/
theorem ops_sound (f : List Char → Option β) (ts : List (List Char)) (str : β → List Char)
    (alias : β → List (List Char)) (ht : ∀ t ∈ ts, ∀ b, f t = some b → t = str b ∨ t ∈ alias b)
    (s : List Char) (b : β) (r) (h : mapExpect f (alt (ts.map tag)) s = .ok b r) :
    ∃ t, s = t ++ r ∧ (t = str b ∨ t ∈ alias b) := by
  unfold mapExpect at h
  cases ha : alt (ts.map tag) s with
  | ok t r' =>
    rw [ha] at h
    simp only [Res.bind] at h
    have hmem := alt_tags_mem ts s t r' ha
    have hs : s = t ++ r' := by
      clear hmem h ht
      induction ts with
      | nil => simp [alt] at ha
      | cons u us ih =>
        simp only [List.map_cons, alt, tag] at ha
        cases hp : stripPrefix u s with
        | none => rw [hp] at ha; exact ih ha
        | some x =>
          rw [hp] at ha
          simp only [Res.ok.injEq] at ha
          rw [← ha.1, ← ha.2]
          exact Good.stripPrefix_eq hp
    cases hf : f t with
    | none => rw [hf] at h; exact absurd h (by simp)
    | some b' =>
      rw [hf] at h
      simp only [Res.ok.injEq] at h
      rw [← h.2]
      exact ⟨t, hs, h.1 ▸ ht t hmem b' hf⟩
  | _ => rw [ha] at h; exact absurd h (by simp [Res.bind])

/-- Table check used with `ops_sound`. -/
macro "op_table" : tactic =>
  `(tactic| (
    intro t ht b hb
    simp only [List.mem_cons, List.not_mem_nil, or_false] at ht
    repeat' (rcases ht with ht | ht)
    all_goals cases b
    all_goals first
      | exact absurd hb (by decide)
      | exact Or.inl rfl
      | (right; decide)))

def binaryOpSpec : OpSpec BinaryOp := ⟨BinaryOp.str, BinaryOp.tryFrom, parseBinaryOp, fun _ _ => True⟩
def multiOpSpec : OpSpec MultiOp := ⟨MultiOp.str, MultiOp.tryFrom, parseMultiOp, fun _ _ => True⟩
/-- A one-character comparison must not be followed by `=`, which would make it the two-character
one. -/
def binaryCompSpec : OpSpec BinaryComp :=
  ⟨BinaryComp.str, BinaryComp.tryFrom, parseBinaryComp,
    fun op r => op = .gt ∨ op = .lt → ∀ r', r ≠ '=' :: r'⟩
def assignOpSpec : OpSpec AssignOp := ⟨AssignOp.str, AssignOp.tryFrom, parseAssignOp, fun _ _ => True⟩
def assignOpTSpec : OpSpec AssignOpT :=
  ⟨AssignOpT.str, AssignOpT.tryFrom, parseAssignOpT, fun _ _ => True⟩
def dOpSpec : OpSpec DOp := ⟨DOp.str, DOp.tryFrom, parseDOp, fun _ _ => True⟩
def optimizationSpec : OpSpec Optimization :=
  ⟨Optimization.str, Optimization.tryFrom, parseOptimization, fun _ _ => True⟩
def timeSpecifierSpec : OpSpec TimeSpecifier :=
  ⟨TimeSpecifier.str, TimeSpecifier.tryFrom, parseTimeSpecifier, fun _ _ => True⟩
def intervalSpec : OpSpec Interval := ⟨Interval.str, Interval.tryFrom, parseInterval, fun _ _ => True⟩
def requirementSpec : OpSpec Requirement :=
  ⟨Requirement.str, Requirement.tryFrom, parseRequireKey, fun _ _ => True⟩

/-- No alternative texts. -/
def noAlias {α : Type} (_ : α) : List (List Char) := []
/-- `change` is the deprecated spelling of `assign`. -/
def assignAlias : AssignOp → List (List Char)
  | .assign => [c!"change"]
  | _ => []

theorem C41_binaryOp : binaryOpSpec.Lawful noAlias where
  roundtrip op := by cases op <;> rfl
  injective a b := by cases a <;> cases b <;> decide
  complete op r _ := by cases op <;> rfl
  sound s op r h := ops_sound BinaryOp.tryFrom [c!"*", c!"+", c!"-", c!"/"] BinaryOp.str noAlias
    (by op_table) s op r h

theorem C41_multiOp : multiOpSpec.Lawful noAlias where
  roundtrip op := by cases op <;> rfl
  injective a b := by cases a <;> cases b <;> decide
  complete op r _ := by cases op <;> rfl
  sound s op r h := ops_sound MultiOp.tryFrom [c!"*", c!"+"] MultiOp.str noAlias
    (by
      intro t ht b hb
      simp only [List.mem_cons, List.not_mem_nil, or_false] at ht
      rcases ht with ht | ht <;> subst ht <;>
        (cases b <;> first | exact absurd hb (by decide) | exact Or.inl rfl)) s op r h

theorem C41_binaryComp : binaryCompSpec.Lawful noAlias where
  roundtrip op := by cases op <;> rfl
  injective a b := by cases a <;> cases b <;> decide
  complete op r h := by
    cases op with
    | gt =>
      have h := h (Or.inl rfl)
      cases r with
      | nil => rfl
      | cons c r =>
        have hc : ¬ '=' = c := by rintro rfl; exact h r rfl
        show parseBinaryComp ('>' :: c :: r) = _
        simp [parseBinaryComp, mapExpect, alt, tag, stripPrefix, hc, Res.bind, BinaryComp.tryFrom]
    | lt =>
      have h := h (Or.inr rfl)
      cases r with
      | nil => rfl
      | cons c r =>
        have hc : ¬ '=' = c := by rintro rfl; exact h r rfl
        show parseBinaryComp ('<' :: c :: r) = _
        simp [parseBinaryComp, mapExpect, alt, tag, stripPrefix, hc, Res.bind, BinaryComp.tryFrom]
    | _ => rfl
  sound s op r h := ops_sound BinaryComp.tryFrom [c!">=", c!"<=", c!"=", c!">", c!"<"]
    BinaryComp.str noAlias (by op_table) s op r h

theorem C41_assignOp : assignOpSpec.Lawful assignAlias where
  roundtrip op := by cases op <;> rfl
  injective a b := by cases a <;> cases b <;> decide
  complete op r _ := by cases op <;> rfl
  sound s op r h := ops_sound AssignOp.tryFrom [c!"change", c!"assign", c!"scale-up",
    c!"scale-down", c!"increase", c!"decrease"] AssignOp.str assignAlias (by op_table) s op r h

theorem C41_assignOpT : assignOpTSpec.Lawful noAlias where
  roundtrip op := by cases op <;> rfl
  injective a b := by cases a <;> cases b <;> decide
  complete op r _ := by cases op <;> rfl
  sound s op r h := ops_sound AssignOpT.tryFrom [c!"increase", c!"decrease"] AssignOpT.str noAlias
    (by
      intro t ht b hb
      simp only [List.mem_cons, List.not_mem_nil, or_false] at ht
      rcases ht with ht | ht <;> subst ht <;>
        (cases b <;> first | exact absurd hb (by decide) | exact Or.inl rfl)) s op r h

theorem C41_dOp : dOpSpec.Lawful noAlias where
  roundtrip op := by cases op <;> rfl
  injective a b := by cases a <;> cases b <;> decide
  complete op r _ := by cases op <;> rfl
  sound s op r h := ops_sound DOp.tryFrom [c!"<=", c!">=", c!"="] DOp.str noAlias
    (by
      intro t ht b hb
      simp only [List.mem_cons, List.not_mem_nil, or_false] at ht
      rcases ht with ht | ht | ht <;> subst ht <;>
        (cases b <;> first | exact absurd hb (by decide) | exact Or.inl rfl)) s op r h

theorem C41_optimization : optimizationSpec.Lawful noAlias where
  roundtrip op := by cases op <;> rfl
  injective a b := by cases a <;> cases b <;> decide
  complete op r _ := by cases op <;> rfl
  sound s op r h := ops_sound Optimization.tryFrom [c!"minimize", c!"maximize"] Optimization.str
    noAlias
    (by
      intro t ht b hb
      simp only [List.mem_cons, List.not_mem_nil, or_false] at ht
      rcases ht with ht | ht <;> subst ht <;>
        (cases b <;> first | exact absurd hb (by decide) | exact Or.inl rfl)) s op r h

theorem C41_timeSpecifier : timeSpecifierSpec.Lawful noAlias where
  roundtrip op := by cases op <;> rfl
  injective a b := by cases a <;> cases b <;> decide
  complete op r _ := by cases op <;> rfl
  sound s op r h := ops_sound TimeSpecifier.tryFrom [c!"start", c!"end"] TimeSpecifier.str noAlias
    (by
      intro t ht b hb
      simp only [List.mem_cons, List.not_mem_nil, or_false] at ht
      rcases ht with ht | ht <;> subst ht <;>
        (cases b <;> first | exact absurd hb (by decide) | exact Or.inl rfl)) s op r h

theorem C41_interval : intervalSpec.Lawful noAlias where
  roundtrip op := by cases op <;> rfl
  injective a b := by cases a <;> cases b <;> decide
  complete op r _ := by cases op <;> rfl
  sound s op r h := by
    have h' : mapExpect Interval.tryFrom (alt ([c!"all"].map tag)) s = .ok op r := by
      have : alt ([c!"all"].map tag) s = tag c!"all" s := by
        simp only [List.map_cons, List.map_nil, alt]
        cases tag c!"all" s <;> rfl
      rw [mapExpect, this]; exact h
    exact ops_sound Interval.tryFrom [c!"all"] Interval.str noAlias
      (by
        intro t ht b hb
        simp only [List.mem_cons, List.not_mem_nil, or_false] at ht
        subst ht; cases b; exact Or.inl rfl) s op r h'

/-- Longest match: `>=` and `<=` are never read as `>` and `<`, whatever follows. -/
theorem C41_longest_match (r : List Char) :
    parseBinaryComp ('>' :: '=' :: r) = .ok .ge r ∧ parseBinaryComp ('<' :: '=' :: r) = .ok .le r ∧
    parseDOp ('>' :: '=' :: r) = .ok .ge r ∧ parseDOp ('<' :: '=' :: r) = .ok .le r :=
  ⟨rfl, rfl, rfl, rfl⟩

/-- Conversions between n-ary and binary operators keep the text. -/
theorem C41_multi_binary (m : MultiOp) :
    (BinaryOp.ofMulti m).str = m.str ∧ (BinaryOp.ofMulti m).toMulti = some m ∧
    ∀ b : BinaryOp, b.toMulti = some m → b = BinaryOp.ofMulti m := by
  refine ⟨by cases m <;> rfl, by cases m <;> rfl, fun b => by cases m <;> cases b <;> decide⟩

example : binaryCompSpec.ok .gt c!" (f) 1)" := by
  intro _ r' h; simp at h
example : parseAssignOp c!"change (f)" = .ok .assign c!" (f)" := by rfl

/-! ## C34 -/

/-- Every requirement key is read back in front of any text; distinct requirements have distinct
keys; what is read is the key. -/
theorem C34_keys : requirementSpec.Lawful noAlias where
  roundtrip op := by cases op <;> rfl
  injective a b := by cases a <;> cases b <;> decide
  complete op r _ := by cases op <;> rfl
  sound s op r h := ops_sound Requirement.tryFrom requireTags Requirement.str noAlias
    (by
      intro t ht b hb
      left
      have inv : ∀ u ∈ requireTags, ∀ b, Requirement.tryFrom u = some b → u = b.str := by
        intro u hu
        simp only [requireTags, List.mem_cons, List.not_mem_nil, or_false] at hu
        repeat' (rcases hu with hu | hu)
        all_goals intro b hb
        all_goals cases b
        all_goals first
          | rfl
          | exact absurd hb (by decide)
      exact inv t ht b hb) s op r h

/-- No key is a prefix of another, so the order in which the parser tries them is immaterial. -/
theorem C34_prefix_free (a b : Requirement) (h : a.str <+: b.str) : a = b := by
  revert h
  cases a <;> cases b <;> decide

/-- Any reordering of the alternatives reads the same. -/
theorem C34_order_immaterial (ts : List (List Char)) (h : ts.Perm requireTags) (s : List Char) :
    mapExpect Requirement.tryFrom (alt (ts.map tag)) s = parseRequireKey s := by
  have hmem : ∀ (us : List (List Char)), (∀ t ∈ us, t ∈ requireTags) → ∀ t ∈ us, ∀ x,
      stripPrefix t s = some x → alt (us.map tag) s = .ok t x := by
    intro us
    induction us with
    | nil => intro _ t ht; cases ht
    | cons u us ih =>
      intro hsub t ht x hx
      simp only [List.map_cons, alt, tag]
      cases hu : stripPrefix u s with
      | some y =>
        have e1 := Good.stripPrefix_eq hx
        have e2 := Good.stripPrefix_eq hu
        have key : ∀ a ∈ requireTags, ∀ b ∈ requireTags, a <+: b → a = b := by decide
        have hut : u = t := by
          rcases Nat.le_total u.length t.length with hl | hl
          · exact key u (hsub u (by simp)) t (hsub t ht)
              (List.prefix_of_prefix_length_le ⟨y, e2.symm⟩ ⟨x, e1.symm⟩ hl)
          · exact (key t (hsub t ht) u (hsub u (by simp))
              (List.prefix_of_prefix_length_le ⟨x, e1.symm⟩ ⟨y, e2.symm⟩ hl)).symm
        subst hut
        rw [hx] at hu
        cases hu
        rfl
      | none =>
        rcases List.mem_cons.mp ht with rfl | ht
        · rw [hx] at hu; cases hu
        · exact ih (fun t ht => hsub t (List.mem_cons_of_mem _ ht)) t ht x hx
  have hnone : ∀ (us : List (List Char)), (∀ t ∈ us, stripPrefix t s = none) →
      alt (us.map tag) s = .err := by
    intro us
    induction us with
    | nil => intro _; rfl
    | cons u us ih =>
      intro hall
      simp only [List.map_cons, alt, tag, hall u (by simp)]
      exact ih fun t ht => hall t (List.mem_cons_of_mem _ ht)
  have heq : alt (ts.map tag) s = alt (requireTags.map tag) s := by
    by_cases hex : ∃ t ∈ requireTags, ∃ x, stripPrefix t s = some x
    · obtain ⟨t, ht, x, hx⟩ := hex
      rw [hmem ts (fun t ht => h.mem_iff.mp ht) t (h.mem_iff.mpr ht) x hx,
        hmem requireTags (fun _ h => h) t ht x hx]
    · have hall : ∀ t ∈ requireTags, stripPrefix t s = none := by
        intro t ht
        cases hx : stripPrefix t s with
        | none => rfl
        | some x => exact absurd ⟨t, ht, x, hx⟩ hex
      rw [hnone ts fun t ht => hall t (h.mem_iff.mp ht), hnone requireTags hall]
  unfold parseRequireKey mapExpect
  rw [heq]

example : parseRequireKey c!":fluents)" = .ok .fluents c!")" := by rfl
example : parseRequireKey c!":strip" = .err := by rfl

/-! ## C35 -/

namespace Requirement

/-- The shorthand requirements. -/
def IsShorthand (r : Requirement) : Prop :=
  r = adl ∨ r = quantifiedPreconditions ∨ r = fluents

/-- What a requirement stands for, as a table independent of `expand`: the basic requirements
implied by each requirement, according to the PDDL 3.1 definition of the shorthands. -/
inductive Implies : Requirement → Requirement → Prop
  | self (r) : ¬ IsShorthand r → Implies r r
  | quantE : Implies quantifiedPreconditions existentialPreconditions
  | quantU : Implies quantifiedPreconditions universalPreconditions
  | fluentsN : Implies fluents numericFluents
  | fluentsO : Implies fluents objectFluents
  | adlStrips : Implies adl strips
  | adlTyping : Implies adl typing
  | adlNeg : Implies adl negativePreconditions
  | adlDisj : Implies adl disjunctivePreconditions
  | adlEq : Implies adl equality
  | adlQuantE : Implies adl existentialPreconditions
  | adlQuantU : Implies adl universalPreconditions
  | adlCond : Implies adl conditionalEffects

theorem implies_iff (a b : Requirement) : Implies a b ↔ b ∈ expand a := by
  constructor
  · intro h
    cases h with
    | self _ h =>
      cases a <;> first
        | (simp [expand]; done)
        | exact absurd (by simp [IsShorthand]) h
    | _ => simp [expand]
  · intro h
    cases a <;> simp only [expand, List.mem_cons, List.not_mem_nil, or_false] at h <;>
      first
        | (subst h; exact Implies.self _ (by simp [IsShorthand]))
        | (rcases h with h | h <;> subst h <;> constructor)
        | (rcases h with h | h | h | h | h | h | h | h <;> subst h <;> constructor)

end Requirement

open Requirement

/-- Membership in the effective requirements: implied by some listed requirement, or `:strips` if
none is listed. -/
theorem C35_effective_iff (rs : List Requirement) (b : Requirement) :
    b ∈ toEffective rs ↔ (∃ a ∈ rs, Implies a b) ∨ (rs = [] ∧ b = strips) := by
  have hne : ∀ r : Requirement, expand r ≠ [] := by intro r; cases r <;> simp [expand]
  unfold toEffective
  by_cases h : rs = []
  · subst h; simp
  · have : (rs.flatMap expand).isEmpty = false := by
      obtain ⟨a, rest, rfl⟩ := List.exists_cons_of_ne_nil h
      simp [List.flatMap_cons, hne a]
    simp only [this, h, false_and, or_false]
    simp only [Bool.false_eq_true, if_false, List.mem_flatMap, implies_iff]

/-- The effective requirements are never empty. -/
theorem C35_nonempty (rs : List Requirement) : ∃ b, b ∈ toEffective rs := by
  have hne : ∀ r : Requirement, ∃ b, Implies r b := by
    intro r
    cases r <;> first
      | exact ⟨_, .quantE⟩
      | exact ⟨_, .fluentsN⟩
      | exact ⟨_, .adlEq⟩
      | exact ⟨_, .self _ (by simp [IsShorthand])⟩
  cases rs with
  | nil => exact ⟨strips, (C35_effective_iff _ _).mpr (Or.inr ⟨rfl, rfl⟩)⟩
  | cons a rs =>
    obtain ⟨b, hb⟩ := hne a
    exact ⟨b, (C35_effective_iff _ _).mpr (Or.inl ⟨a, by simp, hb⟩)⟩

/-- They contain no shorthand. -/
theorem C35_no_shorthand (rs : List Requirement) (b) (h : b ∈ toEffective rs) : ¬ IsShorthand b := by
  rcases (C35_effective_iff rs b).mp h with ⟨a, _, h⟩ | ⟨_, rfl⟩
  · cases h <;> first
      | assumption
      | simp [IsShorthand]
  · simp [IsShorthand]

/-- They contain every listed requirement that is not a shorthand. -/
theorem C35_contains_listed (rs : List Requirement) (a) (h : a ∈ rs) (hs : ¬ IsShorthand a) :
    a ∈ toEffective rs :=
  (C35_effective_iff _ _).mpr (Or.inl ⟨a, h, .self a hs⟩)

/-- Order and repetition do not matter. -/
theorem C35_order_repetition (rs rs' : List Requirement) (h : ∀ a, a ∈ rs ↔ a ∈ rs') (b) :
    b ∈ toEffective rs ↔ b ∈ toEffective rs' := by
  rw [C35_effective_iff, C35_effective_iff]
  have : rs = [] ↔ rs' = [] := by
    rw [List.eq_nil_iff_forall_not_mem, List.eq_nil_iff_forall_not_mem]
    simp [h]
  simp [h, this]

/-- Monotone on non-empty lists. -/
theorem C35_monotone (rs rs' : List Requirement) (hne : rs ≠ []) (h : ∀ a ∈ rs, a ∈ rs') (b)
    (hb : b ∈ toEffective rs) : b ∈ toEffective rs' := by
  rcases (C35_effective_iff _ _).mp hb with ⟨a, ha, hi⟩ | ⟨h0, _⟩
  · exact (C35_effective_iff _ _).mpr (Or.inl ⟨a, h a ha, hi⟩)
  · exact absurd h0 hne

/-- Applying it to its own result changes nothing. -/
theorem C35_idempotent (rs : List Requirement) (b) :
    b ∈ toEffective (toEffective rs) ↔ b ∈ toEffective rs := by
  rw [C35_effective_iff]
  constructor
  · rintro (⟨a, ha, hi⟩ | ⟨h, _⟩)
    · have := C35_no_shorthand rs a ha
      cases hi with
      | self => exact ha
      | _ => exact absurd (by simp [IsShorthand]) this
    · obtain ⟨c, hc⟩ := C35_nonempty rs
      rw [h] at hc; cases hc
  · intro h
    exact Or.inl ⟨b, h, .self b (C35_no_shorthand rs b h)⟩

example : (toEffective [adl, fluents]).length = 10 := by rfl
/-- Monotonicity needs a non-empty list: the implicit `:strips` disappears. -/
example : strips ∈ toEffective [] ∧ strips ∉ toEffective [typing] := by decide

/-! ## C36 -/

/-- `b` is `a` or everything `b` stands for is implied by `a`. -/
def Covers (a b : Requirement) : Prop := b = a ∨ ∀ x, Implies b x → Implies a x

/-- C36 fails for `:adl`: `contains` claims `:continuous-effects`, which `:adl` does not imply, and
denies `:conditional-effects`, `:existential-preconditions` and `:universal-preconditions`, which it
expands to. -/
theorem C36_false :
    (contains adl continuousEffects = true ∧ ¬ Covers adl continuousEffects) ∧
    (contains adl conditionalEffects = false ∧ Covers adl conditionalEffects ∧
      conditionalEffects ∈ expand adl) ∧
    (contains adl existentialPreconditions = false ∧ existentialPreconditions ∈ expand adl) ∧
    (contains adl universalPreconditions = false ∧ universalPreconditions ∈ expand adl) := by
  refine ⟨⟨by decide, ?_⟩, ⟨by decide, ?_, by decide⟩, ⟨by decide, by decide⟩, by decide, by decide⟩
  · rintro (h | h)
    · cases h
    · have := h continuousEffects (.self _ (by simp [IsShorthand]))
      cases this
  · right
    intro x hx
    rw [implies_iff] at *
    simp [expand] at *
    simp [hx]

/-- For every other requirement `contains` and `expand` agree. Missing for C36: `:adl`. -/
theorem C36_contains_expand_partial (a b : Requirement) (ha : a ≠ adl) :
    contains a b = true ↔ Covers a b := by
  unfold Covers
  simp only [implies_iff]
  cases a <;> first
    | exact absurd rfl ha
    | (cases b <;> simp [contains, expand])

/-- Exactly the pairs on which the two disagree. -/
theorem C36_disagreements (a b : Requirement) :
    ¬ (contains a b = true ↔ Covers a b) ↔
      a = adl ∧ (b = continuousEffects ∨ b = conditionalEffects ∨ b = existentialPreconditions ∨
        b = universalPreconditions) := by
  unfold Covers
  simp only [implies_iff]
  cases a <;> cases b <;> simp [contains, expand]

example : contains fluents numericFluents = true := by decide

end Pddl
