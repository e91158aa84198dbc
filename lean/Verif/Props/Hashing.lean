import Verif.Hashing
import Verif.Meta.Atoms
import Verif.Props.Ops
import Mathlib.Tactic.Tauto

/-!
# C72: names and requirements can be kept in sets and found again

A set of the standard library relies on a contract: equal elements hash equally, and if elements
can be borrowed as another type, then `==`, `Hash` and `Ord` of the borrowed values agree with
those of the elements. For names, and for requirements looked up as requirements, the contract
holds. `Requirement` can be borrowed as a `str`, and there it does not.
-/

namespace Pddl

/-! ## What a hash set does with any elements -/

section
variable {α : Type} [DecidableEq α] (loc : List HashCall → Nat) (hash : α → List HashCall)

/-- Every element is in its bucket. -/
private def Placed (set : HashSet α) : Prop := ∀ b, ∀ x ∈ set b, b = loc (hash x)

private theorem placed_insert {set : HashSet α} (h : Placed loc hash set) (x : α) :
    Placed loc hash (HashSet.insert loc hash set x) ∧
    ∀ y, (∃ b, y ∈ HashSet.insert loc hash set x b) ↔ (y = x ∨ ∃ b, y ∈ set b) := by
  unfold HashSet.insert
  split
  · rename_i hc
    refine ⟨h, fun y => ⟨.inr, fun hy => hy.elim (fun e => ?_) id⟩⟩
    unfold HashSet.contains at hc
    rw [List.any_eq_true] at hc
    obtain ⟨k, hk, he⟩ := hc
    exact ⟨_, by rw [e, ← of_decide_eq_true he]; exact hk⟩
  · refine ⟨fun b y hy => ?_, fun y => ⟨?_, ?_⟩⟩
    · by_cases hb : b = loc (hash x)
      · simp only [hb, if_true, List.mem_cons] at hy
        rcases hy with rfl | hy
        · exact hb
        · exact hb.trans (h _ y hy)
      · simp only [hb, if_false] at hy
        exact h b y hy
    · rintro ⟨b, hy⟩
      by_cases hb : b = loc (hash x)
      · simp only [hb, if_true, List.mem_cons] at hy
        exact hy.imp id (fun hy => ⟨_, hy⟩)
      · simp only [hb, if_false] at hy
        exact .inr ⟨b, hy⟩
    · rintro (rfl | ⟨b, hy⟩)
      · exact ⟨loc (hash y), by simp⟩
      · refine ⟨b, ?_⟩
        by_cases hb : b = loc (hash x)
        · simp only [hb, if_true]
          rw [hb] at hy
          exact List.mem_cons_of_mem _ hy
        · simp only [hb, if_false]
          exact hy

private theorem placed_foldl (xs : List α) : ∀ {set : HashSet α}, Placed loc hash set →
    Placed loc hash (xs.foldl (HashSet.insert loc hash) set) ∧
    ∀ y, (∃ b, y ∈ xs.foldl (HashSet.insert loc hash) set b) ↔ (y ∈ xs ∨ ∃ b, y ∈ set b) := by
  induction xs with
  | nil => intro set h; exact ⟨h, fun y => by simp⟩
  | cons x xs ih =>
    intro set h
    obtain ⟨hp, he⟩ := placed_insert loc hash h x
    obtain ⟨hp', he'⟩ := ih hp
    refine ⟨hp', fun y => (he' y).trans ?_⟩
    rw [he y, List.mem_cons]
    tauto

private theorem placed_ofList (xs : List α) :
    Placed loc hash (HashSet.ofList loc hash xs) ∧
    ∀ y, (∃ b, y ∈ HashSet.ofList loc hash xs b) ↔ y ∈ xs := by
  obtain ⟨hp, he⟩ := placed_foldl loc hash xs (set := HashSet.empty) (fun b x hx => by cases hx)
  exact ⟨hp, fun y => (he y).trans
    ⟨fun h => h.elim id (fun ⟨b, hb⟩ => by cases hb), .inl⟩⟩

private theorem contains_placed {set : HashSet α} (h : Placed loc hash set) (q : α) :
    HashSet.contains loc hash id set q = true ↔ ∃ b, q ∈ set b := by
  unfold HashSet.contains
  rw [List.any_eq_true]
  constructor
  · rintro ⟨k, hk, he⟩
    rw [← of_decide_eq_true he]
    exact ⟨_, hk⟩
  · rintro ⟨b, hb⟩
    exact ⟨q, by rw [← h b q hb]; exact hb, decide_eq_true rfl⟩

private theorem contains_borrowed {β : Type} [DecidableEq β] (hb : β → List HashCall)
    (borrow : α → β) {set : HashSet α} (h : Placed loc hash set) (q : β) :
    HashSet.contains loc hb borrow set q = true ↔
      ∃ x, (∃ b, x ∈ set b) ∧ borrow x = q ∧ loc (hash x) = loc (hb q) := by
  unfold HashSet.contains
  rw [List.any_eq_true]
  constructor
  · rintro ⟨k, hk, he⟩
    exact ⟨k, ⟨_, hk⟩, of_decide_eq_true he, (h _ k hk).symm⟩
  · rintro ⟨x, ⟨b, hx⟩, he, hl⟩
    refine ⟨x, ?_, decide_eq_true he⟩
    rw [← hl, ← h b x hx]
    exact hx
end

/-! ## Sets of requirements -/

/-- A hash set of requirements, whatever the hasher, contains the requirements that were put in. -/
theorem C72_requirement_set (loc : List HashCall → Nat) (rs : List Requirement) (q : Requirement) :
    HashSet.contains loc Requirement.hash id (HashSet.ofList loc Requirement.hash rs) q = true ↔
      q ∈ rs :=
  (contains_placed loc _ (placed_ofList loc _ rs).1 q).trans ((placed_ofList loc _ rs).2 q)

example : HashSet.contains (fun c => c.length) Requirement.hash id
    (HashSet.ofList (fun c => c.length) Requirement.hash [.adl, .strips, .adl]) .strips = true :=
  (C72_requirement_set _ _ _).2 (by decide)

/-- The set returned by `to_effective`, whatever the hasher, contains what the requirements expand
to, or `:strips` if there are none. -/
theorem C72_effective_set (loc : List HashCall → Nat) (rs : List Requirement) (q : Requirement) :
    HashSet.contains loc Requirement.hash id (Requirement.toEffectiveSet loc rs) q = true ↔
      (∃ r ∈ rs, q ∈ r.expand) ∨ (rs = [] ∧ q = .strips) := by
  have hne : ∀ r : Requirement, r.expand ≠ [] := by intro r; cases r <;> simp [Requirement.expand]
  unfold Requirement.toEffectiveSet
  obtain ⟨hp, he⟩ := placed_ofList loc Requirement.hash (rs.flatMap Requirement.expand)
  dsimp only
  split
  · rename_i h0
    rw [List.isEmpty_iff] at h0
    have hrs : rs = [] := by
      cases rs with
      | nil => rfl
      | cons r rs =>
        rw [List.flatMap_cons, List.append_eq_nil_iff] at h0
        exact absurd h0.1 (hne r)
    obtain ⟨hp', he'⟩ := placed_insert loc Requirement.hash hp .strips
    rw [contains_placed loc _ hp', he', he, h0, hrs]
    simp
  · rename_i h0
    rw [contains_placed loc _ hp, he, List.mem_flatMap]
    refine ⟨.inl, fun h => h.elim id ?_⟩
    rintro ⟨rfl, -⟩
    exact absurd rfl h0

example : HashSet.contains (fun _ => 7) Requirement.hash id
    (Requirement.toEffectiveSet (fun _ => 7) [.fluents]) .numericFluents = true :=
  (C72_effective_set _ _ _).2 (.inl ⟨.fluents, by decide, by decide⟩)

/-- Exactly when a requirement in a hash set is found by its text, which `Borrow<str>` allows: if
the hasher happens to put both into the same bucket. -/
theorem C72_text_lookup_partial (loc : List HashCall → Nat) (rs : List Requirement)
    (r : Requirement) :
    HashSet.contains loc hashText Requirement.borrow (HashSet.ofList loc Requirement.hash rs) r.str
      = true ↔ r ∈ rs ∧ loc r.hash = loc (hashText r.str) := by
  obtain ⟨hp, he⟩ := placed_ofList loc Requirement.hash rs
  rw [contains_borrowed loc _ _ _ hp]
  constructor
  · rintro ⟨x, hx, hb, hl⟩
    have : x = r := by
      exact C34_keys.injective x r hb
    subst this
    exact ⟨(he _).1 hx, hl⟩
  · rintro ⟨hm, hl⟩
    exact ⟨r, (he _).2 hm, rfl, hl⟩

/-- A requirement in a hash set is, in general, not found by its text: a requirement hashes to the
number of its variant and a text to its characters, so for every requirement there is a hasher,
and every hasher will do that tells the two apart, with which the text is not found in any set. -/
theorem C72_false_text_lookup (r : Requirement) :
    r.hash ≠ hashText r.str ∧
    (∀ loc : List HashCall → Nat, loc r.hash ≠ loc (hashText r.str) → ∀ rs : List Requirement,
      HashSet.contains loc hashText Requirement.borrow (HashSet.ofList loc Requirement.hash rs)
        r.str = false) ∧
    ∃ loc : List HashCall → Nat, ∀ rs : List Requirement,
      HashSet.contains loc hashText Requirement.borrow (HashSet.ofList loc Requirement.hash rs)
        r.str = false := by
  have h2 : ∀ loc : List HashCall → Nat, loc r.hash ≠ loc (hashText r.str) →
      ∀ rs : List Requirement, HashSet.contains loc hashText Requirement.borrow
        (HashSet.ofList loc Requirement.hash rs) r.str = false := by
    intro loc hl rs
    rw [Bool.eq_false_iff]
    exact fun h => hl ((C72_text_lookup_partial loc rs r).1 h).2
  have h1 : r.hash ≠ hashText r.str := by
    unfold Requirement.hash hashText
    intro h
    injection h with h
    cases h
  refine ⟨h1, h2, fun c => if c = r.hash then 0 else 1, h2 _ ?_⟩
  simp [Ne.symm h1]

example : HashSet.contains (fun c => match c with | .isize _ :: _ => 0 | _ => 1) hashText
    Requirement.borrow (Requirement.toEffectiveSet
      (fun c => match c with | .isize _ :: _ => 0 | _ => 1) [.strips]) c!":strips" = false := by
  decide +kernel

/-! ## Ordered sets of requirements -/

private theorem cmp_trichotomy (a b : Requirement) :
    (a.cmp b = .lt ↔ a.discr < b.discr) ∧ (a.cmp b = .eq ↔ a = b) ∧
    (a.cmp b = .gt ↔ b.discr < a.discr) := by
  refine ⟨Nat.compare_eq_lt, ?_, Nat.compare_eq_gt⟩
  unfold Requirement.cmp
  rw [Nat.compare_eq_eq]
  constructor
  · cases a <;> cases b <;> first | exact fun _ => rfl | (intro h; cases h)
  · rintro rfl; rfl

/-- The order of requirements is a total order that agrees with `==`. -/
theorem C72_order (a b c : Requirement) :
    (a.cmp b = .eq ↔ a = b) ∧ (a.cmp b = .lt ↔ b.cmp a = .gt) ∧
    (a.cmp b = .lt → b.cmp c = .lt → a.cmp c = .lt) := by
  refine ⟨(cmp_trichotomy a b).2.1, ?_, ?_⟩
  · rw [(cmp_trichotomy a b).1, (cmp_trichotomy b a).2.2]
  · rw [(cmp_trichotomy a b).1, (cmp_trichotomy b c).1, (cmp_trichotomy a c).1]
    exact Nat.lt_trans

private theorem btree_insert_mem (x y : Requirement) (s : BTreeSet Requirement) :
    y ∈ BTreeSet.insert Requirement.cmp x s ↔ y = x ∨ y ∈ s := by
  induction s with
  | nil => simp [BTreeSet.insert]
  | cons k ks ih =>
    unfold BTreeSet.insert
    split
    · rw [List.mem_cons, ih, List.mem_cons]; tauto
    · rename_i h
      rw [(cmp_trichotomy x k).2.1] at h
      subst h
      simp
    · simp

private theorem btree_insert_sorted (x : Requirement) (s : BTreeSet Requirement)
    (h : s.Pairwise (fun a b => a.discr < b.discr)) :
    (BTreeSet.insert Requirement.cmp x s).Pairwise (fun a b => a.discr < b.discr) := by
  induction s with
  | nil => simp [BTreeSet.insert]
  | cons k ks ih =>
    rw [List.pairwise_cons] at h
    unfold BTreeSet.insert
    split
    · rename_i hc
      rw [(cmp_trichotomy x k).2.2] at hc
      rw [List.pairwise_cons]
      refine ⟨fun y hy => ?_, ih h.2⟩
      rw [btree_insert_mem] at hy
      rcases hy with rfl | hy
      · exact hc
      · exact h.1 y hy
    · exact List.pairwise_cons.2 h
    · rename_i hc
      rw [(cmp_trichotomy x k).1] at hc
      rw [List.pairwise_cons]
      refine ⟨fun y hy => ?_, List.pairwise_cons.2 h⟩
      rw [List.mem_cons] at hy
      rcases hy with rfl | hy
      · exact hc
      · exact Nat.lt_trans hc (h.1 y hy)

private theorem btree_ofList (xs : List Requirement) : ∀ s : BTreeSet Requirement,
    s.Pairwise (fun a b => a.discr < b.discr) →
    (xs.foldl (fun s x => BTreeSet.insert Requirement.cmp x s) s).Pairwise
      (fun a b => a.discr < b.discr) ∧
    ∀ y, y ∈ xs.foldl (fun s x => BTreeSet.insert Requirement.cmp x s) s ↔ y ∈ xs ∨ y ∈ s := by
  induction xs with
  | nil => intro s h; exact ⟨h, fun y => by simp⟩
  | cons x xs ih =>
    intro s h
    obtain ⟨hs, hm⟩ := ih _ (btree_insert_sorted x s h)
    refine ⟨hs, fun y => (hm y).trans ?_⟩
    rw [btree_insert_mem, List.mem_cons]
    tauto

private theorem btree_contains (q : Requirement) (s : BTreeSet Requirement)
    (h : s.Pairwise (fun a b => a.discr < b.discr)) :
    BTreeSet.contains Requirement.cmp id q s = true ↔ q ∈ s := by
  induction s with
  | nil => simp [BTreeSet.contains]
  | cons k ks ih =>
    rw [List.pairwise_cons] at h
    unfold BTreeSet.contains
    dsimp only [id]
    split
    · rename_i hc
      rw [(cmp_trichotomy q k).2.2] at hc
      rw [ih h.2, List.mem_cons]
      refine ⟨.inr, fun hq => hq.elim (fun e => ?_) id⟩
      subst e; exact absurd hc (Nat.lt_irrefl _)
    · rename_i hc
      rw [(cmp_trichotomy q k).2.1] at hc
      simp [hc]
    · rename_i hc
      rw [(cmp_trichotomy q k).1] at hc
      refine iff_of_false (by simp) (fun hq => ?_)
      rcases List.mem_cons.1 hq with rfl | hq
      · exact absurd hc (Nat.lt_irrefl _)
      · exact absurd (Nat.lt_trans hc (h.1 q hq)) (Nat.lt_irrefl _)

/-- An ordered set of requirements contains the requirements that were put in, in the order of
their declaration and each once. -/
theorem C72_requirement_tree (rs : List Requirement) :
    (BTreeSet.ofList Requirement.cmp rs).Pairwise (fun a b => a.cmp b = .lt) ∧
    ∀ q, (q ∈ BTreeSet.ofList Requirement.cmp rs ↔ q ∈ rs) ∧
      (BTreeSet.contains Requirement.cmp id q (BTreeSet.ofList Requirement.cmp rs) = true ↔
        q ∈ rs) := by
  obtain ⟨hs, hm⟩ := btree_ofList rs [] List.Pairwise.nil
  refine ⟨hs.imp (fun h => (cmp_trichotomy _ _).1.2 h), fun q => ?_⟩
  have : q ∈ BTreeSet.ofList Requirement.cmp rs ↔ q ∈ rs := (hm q).trans (by simp)
  exact ⟨this, (btree_contains q _ hs).trans this⟩

example : BTreeSet.ofList Requirement.cmp [.negativePreconditions, .typing, .typing] =
    [.typing, .negativePreconditions] := by decide

/-- The order of two requirements need not be the order of their texts, and then the text of the
later one is not found in the ordered set of the two, though `Borrow<str>` allows to look it up. -/
theorem C72_false_text_order :
    (∃ a b : Requirement, a.cmp b = .lt ∧ textCmp a.str b.str = .gt) ∧
    ∀ a b : Requirement, a.cmp b = .lt → textCmp b.str a.str = .lt →
      b ∈ BTreeSet.ofList Requirement.cmp [a, b] ∧
      BTreeSet.contains textCmp Requirement.borrow b.str (BTreeSet.ofList Requirement.cmp [a, b])
        = false := by
  refine ⟨⟨.typing, .negativePreconditions, by decide +kernel, by decide +kernel⟩, ?_⟩
  intro a b hab ht
  refine ⟨((C72_requirement_tree [a, b]).2 b).1.2 (by simp), ?_⟩
  have hba : b.cmp a = .gt := (C72_order a b a).2.1.1 hab
  have : BTreeSet.ofList Requirement.cmp [a, b] = [a, b] := by
    simp [BTreeSet.ofList, BTreeSet.insert, hba]
  rw [this]
  unfold BTreeSet.contains Requirement.borrow
  rw [ht]

example : Requirement.cmp .typing .negativePreconditions = .lt ∧
    textCmp (Requirement.str .negativePreconditions) (Requirement.str .typing) = .lt := by
  decide +kernel

/-! ## Comparison with text -/

private theorem hit_or_next {α : Type} {c : Prop} [Decidable c] {a b : α} {o : Option α}
    (h : (if c then some a else o) = some b) : (c ∧ a = b) ∨ o = some b := by
  by_cases hc : c
  · rw [if_pos hc] at h
    exact .inl ⟨hc, Option.some.inj h⟩
  · rw [if_neg hc] at h
    exact .inr h

/-- A requirement equals a text exactly if the text is read as that requirement, and prints as the
text it equals. -/
theorem C72_requirement_text (r : Requirement) (s : List Char) :
    (r.eqStr s = true ↔ Requirement.tryFrom s = some r) ∧ r.eqStr r.display = true := by
  unfold Requirement.eqStr Requirement.display Requirement.borrow
  refine ⟨?_, by simp⟩
  rw [beq_iff_eq]
  constructor
  · rintro rfl
    cases r <;> decide +kernel
  · intro h
    unfold Requirement.tryFrom at h
    iterate 21 rcases hit_or_next h with ⟨rfl, rfl⟩ | h; · rfl
    cases h

/-- An assignment operator equals the text it prints as, and no other; such a text is read as the
operator. -/
theorem C72_assign_text_partial (o : AssignOp) (s : List Char) :
    (o.eqStr s = true ↔ s = o.str) ∧ (o.eqStr s = true → AssignOp.tryFrom s = some o) := by
  unfold AssignOp.eqStr AssignOp.borrow
  rw [beq_iff_eq]
  refine ⟨Iff.rfl, ?_⟩
  rintro rfl
  cases o <;> decide +kernel

/-- The text `change` is read as an operator that does not equal it. -/
theorem C72_false_assign_text :
    AssignOp.tryFrom c!"change" = some .assign ∧ AssignOp.eqStr .assign c!"change" = false := by
  decide +kernel

example : AssignOp.eqStr .scaleUp c!"scale-up" = true := by decide

/-! ## Conversion from text (C41, C34) -/

/-- The conversions from text accept exactly the texts of the operators. -/
theorem C41_try_from (s : List Char) :
    (∀ o, BinaryOp.tryFrom s = some o ↔ s = o.str) ∧
    (∀ o, MultiOp.tryFrom s = some o ↔ s = o.str) ∧
    (∀ o, BinaryComp.tryFrom s = some o ↔ s = o.str) ∧
    (∀ o, AssignOp.tryFrom s = some o ↔ s = o.str ∨ (o = .assign ∧ s = c!"change")) ∧
    (∀ o, AssignOpT.tryFrom s = some o ↔ s = o.str) ∧
    (∀ o, DOp.tryFrom s = some o ↔ s = o.str) ∧
    (∀ o, Optimization.tryFrom s = some o ↔ s = o.str) ∧
    (∀ o, TimeSpecifier.tryFrom s = some o ↔ s = o.str) ∧
    (∀ o, Interval.tryFrom s = some o ↔ s = o.str) := by
  refine ⟨?_, ?_, ?_, ?_, ?_, ?_, ?_, ?_, ?_⟩ <;> intro o <;> constructor
  all_goals first
    | (rintro (rfl | ⟨rfl, rfl⟩)
       · cases o <;> decide +kernel
       · decide +kernel)
    | (rintro rfl; cases o <;> decide +kernel)
    | (intro h
       first
       | unfold BinaryOp.tryFrom at h
       | unfold MultiOp.tryFrom at h
       | unfold BinaryComp.tryFrom at h
       | unfold AssignOp.tryFrom at h
       | unfold AssignOpT.tryFrom at h
       | unfold DOp.tryFrom at h
       | unfold Optimization.tryFrom at h
       | unfold TimeSpecifier.tryFrom at h
       | unfold Interval.tryFrom at h
       repeat
         rcases hit_or_next h with ⟨rfl, rfl⟩ | h
         · first | rfl | exact .inl rfl | exact .inr ⟨rfl, rfl⟩
       cases h)

example : DOp.tryFrom c!">=" = some .ge := ((C41_try_from c!">=").2.2.2.2.2.1 .ge).2 rfl
example : BinaryOp.tryFrom c!"**" = none := by decide +kernel

/-! ## Sets of names -/

/-- A hash set of names, whatever the hasher, contains the names that were put in. -/
theorem C72_name_set (loc : List HashCall → Nat) (ns : List Name) (q : Name) :
    HashSet.contains loc Name.hash id (HashSet.ofList loc Name.hash ns) q = true ↔ q ∈ ns :=
  (contains_placed loc _ (placed_ofList loc _ ns).1 q).trans ((placed_ofList loc _ ns).2 q)

/-- Among names made from text, as all names that are read are, a name is found in a hash set by
making a name from the same text. -/
theorem C72_name_set_text (loc : List HashCall → Nat) (ts : List (List Char)) (t : List Char) :
    HashSet.contains loc Name.hash id (HashSet.ofList loc Name.hash (ts.map Name.new)) (Name.new t)
      = true ↔ t ∈ ts := by
  rw [C72_name_set, List.mem_map]
  constructor
  · rintro ⟨u, hu, he⟩
    have := congrArg Name.text he
    rw [Name.text_new, Name.text_new] at this
    exact this ▸ hu
  · exact fun h => ⟨t, h, rfl⟩

example : HashSet.contains (fun c => c.length) Name.hash id
    (HashSet.ofList (fun c => c.length) Name.hash ([c!"a", c!"object"].map Name.new))
    (Name.new c!"object") = true :=
  (C72_name_set_text _ _ _).2 (by decide)

/-- The input to the hasher tells names apart exactly as `==` does, and the same for requirements: a
good hasher keeps different names in different places. -/
theorem C72_hash_input (a b : Name) (r q : Requirement) :
    (a.hash = b.hash ↔ a = b) ∧ (r.hash = q.hash ↔ r = q) := by
  refine ⟨⟨fun h => ?_, fun h => h ▸ rfl⟩, ⟨fun h => ?_, fun h => h ▸ rfl⟩⟩
  · cases a <;> cases b <;> simp_all [Name.hash, hashText]
  · simp only [Requirement.hash, List.cons.injEq, HashCall.isize.injEq, and_true] at h
    cases r <;> cases q <;> first | rfl | exact absurd h (by decide)

example : Name.hash (.static c!"object") ≠ Name.hash (.str c!"object") :=
  fun h => nomatch ((C72_hash_input _ _ .strips .strips).1.mp h)

end Pddl
