import Verif.Meta.NamesAll
import Verif.Spec.Nodes

/-!
# Meta-theory: the names in a value have been made

For every parser that a domain or a problem uses: each name in the value of a successful call is
among the texts for which the call has called `Name::new`.
-/

namespace Pddl

theorem AllFrom.nil {l : List (List Char)} : AllFrom l [] := fun _ h => nomatch h

theorem AllFrom.cons {l : List (List Char)} {n : Node} {ns : List Node} :
    AllFrom l (n :: ns) ↔ n.From l ∧ AllFrom l ns := by
  unfold AllFrom
  exact List.forall_mem_cons

theorem AllFrom.append {l : List (List Char)} {ns ms : List Node} :
    AllFrom l (ns ++ ms) ↔ AllFrom l ns ∧ AllFrom l ms := by
  unfold AllFrom
  exact List.forall_mem_append

theorem AllFrom.flatMap {l : List (List Char)} {f : α → List Node} {xs : List α} :
    AllFrom l (xs.flatMap f) ↔ ∀ x ∈ xs, AllFrom l (f x) := by
  unfold AllFrom
  simp only [List.mem_flatMap]
  exact ⟨fun h x hx n hn => h n ⟨x, hx, hn⟩, fun h n ⟨x, hx, hn⟩ => h x hx n hn⟩

theorem AllFrom.names {l : List (List Char)} {xs : List Name} :
    AllFrom l (xs.map Node.name) ↔ ∀ x ∈ xs, x.text ∈ l := by
  unfold AllFrom
  simp only [List.forall_mem_map]
  rfl

theorem Node.From.mono {l l' : List (List Char)} (hl : ∀ t ∈ l, t ∈ l') : ∀ {n : Node}, n.From l → n.From l'
  | .name _, h => hl _ h
  | .ty (.exactly _), h => h.imp_left (hl _)
  | .ty (.eitherOf _), _ => trivial
  | .num _, _ | .fexp _, _ | .fexpDa _, _ | .metric _, _ | .goal _, _ | .duration _, _ => trivial

theorem AllFrom.left {l l' : List (List Char)} {ns : List Node} (h : AllFrom l ns) : AllFrom (l ++ l') ns :=
  fun n hn => (h n hn).mono fun _ => List.mem_append_left l'

theorem AllFrom.right {l l' : List (List Char)} {ns : List Node} (h : AllFrom l' ns) : AllFrom (l ++ l') ns :=
  fun n hn => (h n hn).mono fun _ => List.mem_append_right l

theorem Term.nodesL_flat : ∀ l : List Term, Term.nodesL l = l.flatMap Term.nodes
  | [] => rfl
  | x :: l => by rw [Term.nodesL, List.flatMap_cons, Term.nodesL_flat l]
theorem FExp.nodesL_flat : ∀ l : List FExp, FExp.nodesL l = l.flatMap FExp.nodes
  | [] => rfl
  | x :: l => by rw [FExp.nodesL, List.flatMap_cons, FExp.nodesL_flat l]
theorem FExpDa.nodesL_flat : ∀ l : List FExpDa, FExpDa.nodesL l = l.flatMap FExpDa.nodes
  | [] => rfl
  | x :: l => by rw [FExpDa.nodesL, List.flatMap_cons, FExpDa.nodesL_flat l]
theorem MetricFExp.nodesL_flat : ∀ l : List MetricFExp, MetricFExp.nodesL l = l.flatMap MetricFExp.nodes
  | [] => rfl
  | x :: l => by rw [MetricFExp.nodesL, List.flatMap_cons, MetricFExp.nodesL_flat l]
theorem GD.nodesL_flat : ∀ l : List GD, GD.nodesL l = l.flatMap GD.nodes
  | [] => rfl
  | x :: l => by rw [GD.nodesL, List.flatMap_cons, GD.nodesL_flat l]
theorem PreGD.nodesL_flat : ∀ l : List PreGD, PreGD.nodesL l = l.flatMap PreGD.nodes
  | [] => rfl
  | x :: l => by rw [PreGD.nodesL, List.flatMap_cons, PreGD.nodesL_flat l]
theorem ConGD.nodesL_flat : ∀ l : List ConGD, ConGD.nodesL l = l.flatMap ConGD.nodes
  | [] => rfl
  | x :: l => by rw [ConGD.nodesL, List.flatMap_cons, ConGD.nodesL_flat l]
theorem PrefConGD.nodesL_flat : ∀ l : List PrefConGD, PrefConGD.nodesL l = l.flatMap PrefConGD.nodes
  | [] => rfl
  | x :: l => by rw [PrefConGD.nodesL, List.flatMap_cons, PrefConGD.nodesL_flat l]
theorem CEffect.nodesL_flat : ∀ l : List CEffect, CEffect.nodesL l = l.flatMap CEffect.nodes
  | [] => rfl
  | x :: l => by rw [CEffect.nodesL, List.flatMap_cons, CEffect.nodesL_flat l]
theorem DaGD.nodesL_flat : ∀ l : List DaGD, DaGD.nodesL l = l.flatMap DaGD.nodes
  | [] => rfl
  | x :: l => by rw [DaGD.nodesL, List.flatMap_cons, DaGD.nodesL_flat l]
theorem DaEffect.nodesL_flat : ∀ l : List DaEffect, DaEffect.nodesL l = l.flatMap DaEffect.nodes
  | [] => rfl
  | x :: l => by rw [DaEffect.nodesL, List.flatMap_cons, DaEffect.nodesL_flat l]

/-- The nodes of a value. -/
class Parts (α : Type) where
  parts : α → List Node

open Parts

instance : Parts Ty := ⟨Ty.nodes⟩
instance : Parts Name := ⟨Name.nodes⟩
instance : Parts Term := ⟨Term.nodes⟩
instance : Parts FunctionTerm := ⟨FunctionTerm.nodes⟩
instance : Parts Skeleton := ⟨Skeleton.nodes⟩
instance : Parts BasicFunctionTerm := ⟨BasicFunctionTerm.nodes⟩
instance : Parts FHead := ⟨FHead.nodes⟩
instance : Parts FExp := ⟨FExp.nodes⟩
instance : Parts FExpDa := ⟨FExpDa.nodes⟩
instance : Parts FExpT := ⟨FExpT.nodes⟩
instance : Parts FComp := ⟨FComp.nodes⟩
instance : Parts FAssignDa := ⟨FAssignDa.nodes⟩
instance : Parts MetricFExp := ⟨MetricFExp.nodes⟩
instance : Parts GD := ⟨GD.nodes⟩
instance : Parts PrefGD := ⟨PrefGD.nodes⟩
instance : Parts PreGD := ⟨PreGD.nodes⟩
instance : Parts ConGD := ⟨ConGD.nodes⟩
instance : Parts Con2GD := ⟨Con2GD.nodes⟩
instance : Parts PrefConGD := ⟨PrefConGD.nodes⟩
instance : Parts PEffect := ⟨PEffect.nodes⟩
instance : Parts CondEffect := ⟨CondEffect.nodes⟩
instance : Parts CEffect := ⟨CEffect.nodes⟩
instance : Parts ActionDef := ⟨ActionDef.nodes⟩
instance : Parts DerivedPredicate := ⟨DerivedPredicate.nodes⟩
instance : Parts TimedGD := ⟨TimedGD.nodes⟩
instance : Parts PrefTimedGD := ⟨PrefTimedGD.nodes⟩
instance : Parts DaGD := ⟨DaGD.nodes⟩
instance : Parts TimedEffect := ⟨TimedEffect.nodes⟩
instance : Parts DaEffect := ⟨DaEffect.nodes⟩
instance : Parts DurationValue := ⟨DurationValue.nodes⟩
instance : Parts SimpleDuration := ⟨SimpleDuration.nodes⟩
instance : Parts DurationConstraint := ⟨DurationConstraint.nodes⟩
instance : Parts DaDef := ⟨DaDef.nodes⟩
instance : Parts StructureDef := ⟨StructureDef.nodes⟩
instance : Parts InitElement := ⟨InitElement.nodes⟩
instance : Parts MetricSpec := ⟨MetricSpec.nodes⟩
instance : Parts Domain := ⟨Domain.nodes⟩
instance : Parts Problem := ⟨Problem.nodes⟩
instance : Parts Unit := ⟨fun _ => []⟩
instance : Parts Char := ⟨fun _ => []⟩
instance : Parts Nat := ⟨fun _ => []⟩
instance : Parts Number := ⟨fun _ => []⟩
instance : Parts BinaryOp := ⟨fun _ => []⟩
instance : Parts MultiOp := ⟨fun _ => []⟩
instance : Parts BinaryComp := ⟨fun _ => []⟩
instance : Parts AssignOp := ⟨fun _ => []⟩
instance : Parts AssignOpT := ⟨fun _ => []⟩
instance : Parts DOp := ⟨fun _ => []⟩
instance : Parts Optimization := ⟨fun _ => []⟩
instance : Parts TimeSpecifier := ⟨fun _ => []⟩
instance : Parts Interval := ⟨fun _ => []⟩
instance : Parts Requirement := ⟨fun _ => []⟩
instance : Parts LengthSpec := ⟨fun _ => []⟩
instance [Parts α] [Parts β] : Parts (α × β) := ⟨fun x => parts x.1 ++ parts x.2⟩
instance [Parts α] : Parts (List α) := ⟨fun x => x.flatMap parts⟩
instance [Parts α] : Parts (Option α) := ⟨fun x => x.toList.flatMap parts⟩
instance [Parts α] : Parts (Typed α) := ⟨fun x => parts x.value ++ x.ty.nodes⟩
instance [Parts α] : Parts (AtomicFormula α) := ⟨AtomicFormula.nodes parts⟩
instance [Parts α] : Parts (Literal α) := ⟨Literal.nodes parts⟩

/-- The names in the value of a success have been made. -/
def Keeps [Parts α] (p : N.P α) : Prop := ∀ s a r, p.run s = .ok a r → AllFrom (p.made s) (parts a)

/-- A function that adds no names to those of its argument. -/
def NoNew [Parts α] [Parts β] (f : α → β) : Prop := ∀ l a, AllFrom l (parts a) → AllFrom l (parts (f a))

section
variable [Parts α] [Parts β] [Parts γ]

namespace Keeps

theorem map {f : α → β} {p : N.P α} (hf : NoNew f) (h : Keeps p) : Keeps (N.map f p) := by
  intro s b r hb
  obtain ⟨a, ha, rfl⟩ := map_ok hb
  exact hf _ _ (h s a r ha)

theorem mapExpect {f : α → Option β} {p : N.P α} (hf : NoNew f) (h : Keeps p) :
    Keeps (N.mapExpect f p) := by
  intro s b r hb
  have hb : Pddl.mapExpect f p.run s = .ok b r := hb
  unfold Pddl.mapExpect at hb
  cases hp : p.run s with
  | ok a r' =>
    rw [hp] at hb
    simp only [Res.bind] at hb
    cases hfa : f a with
    | none => rw [hfa] at hb; cases hb
    | some b' =>
      rw [hfa] at hb
      cases hb
      have := hf _ _ (h s a _ hp)
      rw [hfa] at this
      exact AllFrom.flatMap.1 this b (by simp)
  | _ => rw [hp] at hb; cases hb

theorem value {b : β} {p : N.P α} (hb : parts b = []) : Keeps (N.value b p) := by
  intro s b' r h
  have h : Pddl.map (fun _ => b) p.run s = .ok b' r := h
  obtain ⟨a, ha, rfl⟩ := map_ok h
  rw [hb]
  exact .nil

theorem thenMade {p : P α'} {s r : List Char} {a : α'} (h : p s = .ok a r)
    (f : List Char → List (List Char)) : (p s).thenMade f = f r := by rw [h]; rfl

theorem pair {p : N.P α} {q : N.P β} (h : Keeps p) (h' : Keeps q) : Keeps (N.pair p q) := by
  intro s x r hx
  obtain ⟨r1, h1, h2⟩ := pair_ok hx
  show AllFrom (p.made s ++ (p.run s).thenMade q.made) (parts x.1 ++ parts x.2)
  rw [thenMade h1, AllFrom.append]
  exact ⟨(h _ _ _ h1).left, (h' _ _ _ h2).right⟩

theorem preceded {p : N.P α'} {q : N.P β} (h' : Keeps q) : Keeps (N.preceded p q) := by
  intro s x r hx
  obtain ⟨a, r1, h1, h2⟩ := preceded_ok hx
  show AllFrom (p.made s ++ (p.run s).thenMade q.made) (parts x)
  rw [thenMade h1]
  exact (h' _ _ _ h2).right

theorem terminated {p : N.P α} {q : N.P β'} (h : Keeps p) : Keeps (N.terminated p q) := by
  intro s x r hx
  obtain ⟨r1, b, h1, h2⟩ := terminated_ok hx
  exact (h _ _ _ h1).left

theorem delimited {p : N.P α'} {q : N.P β} {r : N.P γ'} (h : Keeps q) : Keeps (N.delimited p q r) :=
  preceded (terminated h)

theorem alt_nil : Keeps (N.alt ([] : List (N.P α))) := fun _ _ _ h => nomatch h

theorem alt_cons {p : N.P α} {ps : List (N.P α)} (h : Keeps p) (h' : Keeps (N.alt ps)) :
    Keeps (N.alt (p :: ps)) := by
  intro s a r ha
  rcases alt_inv (show Pddl.alt (p.run :: ps.map N.P.run) s = .ok a r from ha) with h1 | ⟨h1, h2⟩
  · exact (h _ _ _ h1).left
  · show AllFrom (p.made s ++ (p.run s).elseMade (N.altMade ps s)) (parts a)
    rw [h1]
    exact (h' _ _ _ h2).right

theorem alt_one {p : N.P α} (h : Keeps p) : Keeps (N.alt [p]) := alt_cons h alt_nil

theorem opt {p : N.P α} (h : Keeps p) : Keeps (N.opt p) := by
  intro s a r ha
  have ha : Pddl.opt p.run s = .ok a r := ha
  unfold Pddl.opt at ha
  cases hp : p.run s with
  | ok b r' =>
    rw [hp] at ha
    cases ha
    exact AllFrom.flatMap.2 fun x hx => by
      simp only [Option.toList_some, List.mem_singleton] at hx
      subst hx
      exact h _ _ _ hp
  | err => rw [hp] at ha; cases ha; exact .nil
  | _ => rw [hp] at ha; cases ha

theorem ofList {l : List (List Char)} {as : List α} : AllFrom l (parts as) ↔ ∀ a ∈ as, AllFrom l (parts a) :=
  AllFrom.flatMap

theorem many0 {p : N.P α} (h : Keeps p) : Keeps (N.many0 p) := by
  have key : ∀ n s as r, many0Loop p.run n s = .ok as r → AllFrom (N.many0Made p n s) (parts as) := by
    intro n
    induction n with
    | zero => intro s as r ha; cases ha
    | succ n ih =>
      intro s as r ha
      rw [many0Loop] at ha
      dsimp only at ha
      cases hp : p.run s with
      | ok a r1 =>
        rw [hp] at ha
        dsimp only at ha
        split at ha
        · cases ha
        · rename_i hne
          cases hl : many0Loop p.run n r1 with
          | ok bs r2 =>
            rw [hl] at ha
            cases ha
            show AllFrom (p.made s ++ (p.run s).thenMade _) (parts (a :: bs))
            rw [thenMade hp, if_neg hne, ofList, List.forall_mem_cons]
            exact ⟨(h _ _ _ hp).left, ofList.1 (ih _ _ _ hl).right⟩
          | _ => rw [hl] at ha; cases ha
      | err => rw [hp] at ha; cases ha; exact .nil
      | _ => rw [hp] at ha; cases ha
  exact fun s as r ha => key _ _ _ _ ha

theorem sepLoop {q : N.P β'} {p : N.P α} (h : Keeps p) (n : Nat) :
    ∀ s as r, Pddl.sepLoop q.run p.run n s = .ok as r → AllFrom (N.sepMade q p n s) (parts as) := by
  induction n with
  | zero => intro s as r ha; cases ha
  | succ n ih =>
    intro s as r ha
    rw [Pddl.sepLoop] at ha
    dsimp only at ha
    cases hq : q.run s with
    | ok b r1 =>
      rw [hq] at ha
      dsimp only at ha
      split at ha
      · cases ha
      · rename_i hne
        show AllFrom (q.made s ++ (q.run s).thenMade _) (parts as)
        rw [thenMade hq, if_neg hne]
        cases hp : p.run r1 with
        | ok a r2 =>
          rw [hp] at ha
          dsimp only at ha
          cases hl : Pddl.sepLoop q.run p.run n r2 with
          | ok bs r3 =>
            rw [hl] at ha
            cases ha
            rw [Res.thenMade, ofList, List.forall_mem_cons]
            exact ⟨(h _ _ _ hp).left.right, ofList.1 (ih _ _ _ hl).right.right⟩
          | _ => rw [hl] at ha; cases ha
        | err => rw [hp] at ha; cases ha; exact .nil
        | _ => rw [hp] at ha; cases ha
    | err => rw [hq] at ha; cases ha; exact .nil
    | _ => rw [hq] at ha; cases ha

theorem sepList1 {q : N.P β'} {p : N.P α} (h : Keeps p) : Keeps (N.sepList1 q p) := by
  intro s as r ha
  have ha : Pddl.sepList1 q.run p.run s = .ok as r := ha
  unfold Pddl.sepList1 at ha
  show AllFrom (p.made s ++ (p.run s).thenMade _) (parts as)
  cases hp : p.run s with
  | ok a r1 =>
    rw [hp] at ha
    simp only [Res.bind] at ha
    cases hl : Pddl.sepLoop q.run p.run (r1.length + 1) r1 with
    | ok bs r2 =>
      rw [hl] at ha
      cases ha
      rw [Res.thenMade, ofList, List.forall_mem_cons]
      exact ⟨(h _ _ _ hp).left, ofList.1 (sepLoop h _ _ _ _ hl).right⟩
    | _ => rw [hl] at ha; cases ha
  | _ => rw [hp] at ha; cases ha

theorem sepList0 {q : N.P β'} {p : N.P α} (h : Keeps p) : Keeps (N.sepList0 q p) := by
  intro s as r ha
  have ha : Pddl.sepList0 q.run p.run s = .ok as r := ha
  unfold Pddl.sepList0 at ha
  show AllFrom (p.made s ++ (p.run s).thenMade _) (parts as)
  cases hp : p.run s with
  | ok a r1 =>
    rw [hp] at ha
    simp only [Res.bind] at ha
    cases hl : Pddl.sepLoop q.run p.run (r1.length + 1) r1 with
    | ok bs r2 =>
      rw [hl] at ha
      cases ha
      rw [Res.thenMade, ofList, List.forall_mem_cons]
      exact ⟨(h _ _ _ hp).left, ofList.1 (sepLoop h _ _ _ _ hl).right⟩
    | _ => rw [hl] at ha; cases ha
  | err => rw [hp] at ha; cases ha; exact .nil
  | _ => rw [hp] at ha; cases ha

/-- Values without names. -/
theorem quiet {p : N.P α} (h : ∀ a : α, parts a = []) : Keeps p := fun s a r _ => by
  rw [h]
  exact .nil

theorem quietList : ∀ l : List Char, parts l = []
  | [] => rfl
  | _ :: l => quietList l

theorem tag {t : List Char} : Keeps (N.tag t) := quiet quietList
theorem char {c : Char} : Keeps (N.char c) := quiet fun _ => rfl
theorem multispace0 : Keeps N.multispace0 := quiet quietList
theorem multispace1 : Keeps N.multispace1 := quiet quietList
theorem u64 : Keeps N.u64 := quiet fun _ => rfl

theorem ifOk {p : N.P α} {f : α → β} {k : N.P β} (hf : NoNew f) (h : Keeps p) (h' : Keeps k) :
    Keeps (N.ifOk p f k) := by
  intro s a r ha
  have ha : Pddl.ifOk p.run f k.run s = .ok a r := ha
  unfold Pddl.ifOk at ha
  show AllFrom (p.made s ++ (p.run s).errorMade (k.made s)) (parts a)
  cases hp : p.run s with
  | ok b r' =>
    rw [hp] at ha
    cases ha
    exact (hf _ _ (h _ _ _ hp)).left
  | err | fail =>
    rw [hp] at ha
    exact (h' _ _ _ ha).right
  | _ => rw [hp] at ha; cases ha

theorem failure : Keeps (N.failure : N.P α) := fun _ _ _ h => nomatch h
theorem error : Keeps (N.error : N.P α) := fun _ _ _ h => nomatch h

theorem fixF {body : N.P α → N.P α} (h : ∀ p, Keeps p → Keeps (body p)) : ∀ n, Keeps (N.fixF body n)
  | 0 => fun _ _ _ h => nomatch h
  | n + 1 => h _ (fixF h n)
theorem fix {body : N.P α → N.P α} (h : ∀ p, Keeps p → Keeps (body p)) : Keeps (N.fix body) :=
  fun s => fixF h (s.length + 1) s

theorem new {p : N.P (List Char)} : Keeps (N.new p) := by
  intro s n r hn
  have hn : Pddl.map Name.new p.run s = .ok n r := hn
  obtain ⟨t, h1, rfl⟩ := map_ok hn
  show AllFrom (p.made s ++ match p.run s with
    | .ok t _ => [t]
    | _ => []) [.name (Name.new t)]
  rw [h1]
  refine AllFrom.right (AllFrom.cons.2 ⟨?_, .nil⟩)
  show (Name.new t).text ∈ [t]
  rw [Name.text_new]
  exact List.mem_singleton.2 rfl

theorem ws {p : N.P α} (h : Keeps p) : Keeps (N.ws p) := preceded h
theorem ws2 {p : N.P α} (h : Keeps p) : Keeps (N.ws2 p) := delimited h
theorem prefixExpr {kw : List Char} {p : N.P α} (h : Keeps p) : Keeps (N.prefixExpr kw p) :=
  delimited (ws h)
theorem spaceSeparatedList0 {p : N.P α} (h : Keeps p) : Keeps (N.spaceSeparatedList0 p) :=
  ws (sepList0 (preceded h))
theorem spaceSeparatedList1 {p : N.P α} (h : Keeps p) : Keeps (N.spaceSeparatedList1 p) :=
  ws (sepList1 (preceded h))
theorem parens {p : N.P α} (h : Keeps p) : Keeps (N.parens p) := preceded (delimited (ws h))
theorem emptyOr {p : N.P α} (h : Keeps p) : Keeps (N.emptyOr p) :=
  alt_cons (.map (fun _ _ _ => .nil) tag) (alt_one (.map (fun _ _ h => by
    exact AllFrom.flatMap.2 fun x hx => by
      simp only [Option.toList_some, List.mem_singleton] at hx
      subst hx
      exact h) h))

end Keeps
end

end Pddl
