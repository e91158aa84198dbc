import Verif.Props.Arithmetic
import Verif.Props.Timed
import Verif.Props.Fluents
import Verif.Props.DurativeX

/-!
# C106: numeric expressions are the same in durative actions

The crate has two readers for numeric expressions, one for actions and one for durative actions, where `?duration` is
possible as well. Here it is shown that they agree on all texts without it.
-/

namespace Pddl

mutual
/-- `?duration` is somewhere in the expression. -/
def FExpDa.timely : FExpDa → Bool
  | .assign _ _ a => FExpDa.timely a
  | .binaryOp _ a b => FExpDa.timely a || FExpDa.timely b
  | .multiOp _ a bs => FExpDa.timely a || FExpDa.anyTimely bs
  | .negative a => FExpDa.timely a
  | .duration => true
  | .fExp _ => false
/-- In one of the expressions. -/
def FExpDa.anyTimely : List FExpDa → Bool
  | [] => false
  | a :: as => FExpDa.timely a || FExpDa.anyTimely as
end

theorem FExpX.lift {g : List Char} {e : FExp} {t : List Char} (h : FExpX g e t) : FExpDaX g e.lift t := by
  suffices H : ∀ (n : Nat) g e t, t.length ≤ n → FExpX g e t → FExpDaX g e.lift t from H _ g e t (Nat.le_refl _) h
  intro n
  induction n with
  | zero =>
    intro g e t hn h
    obtain ⟨c, r, rfl, _⟩ := ArithX.solid fExp_arithRun h
    simp at hn
  | succ n ih =>
    intro g e t hn h
    cases h with
    | leaf h =>
      cases h with
      | number h => rw [FExp.lift]; exact .leaf (.fExp (.number h))
      | function hg h => rw [FExp.lift]; exact .leaf (.fExp (.function hg h))
    | binary h0 hg hb1 hg1 h1 hb2 hg2 h2 =>
      rw [FExp.lift]
      simp only [paren, List.length_append, List.length_cons] at hn
      exact .binary h0 hg hb1 hg1 (ih _ _ _ (by omega) h1) hb2 hg2 (ih _ _ _ (by omega) h2)
    | multi h0 hg hb1 hg1 h1 hb2 hg2 h2 h3 =>
      rw [FExp.lift, FExp.lifts_eq]
      simp only [paren, List.length_append, List.length_cons] at hn
      refine .multi h0 hg hb1 hg1 (ih _ _ _ (by omega) h1) hb2 hg2
        ((Items.mono h2 fun a t h hl => (⟨h, hl⟩ : FExpX [] a t ∧ t.length ≤ _)).mapTo
          fun a t h => ih [] a t (by have := h.2; omega) h.1)
        (h3.imp (by simp) fun ⟨h4, c, u, e, hc⟩ => ⟨h4, c, u, e, by simp [durTight, hc]⟩)
    | negative h0 hg hb hg1 h1 =>
      rw [FExp.lift]
      simp only [paren, List.length_append, List.length_cons] at hn
      exact .negative h0 hg hb hg1 (ih _ _ _ (by omega) h1)

theorem FExpDaX.unlift {g : List Char} {v : FExpDa} {t : List Char} (h : FExpDaX g v t) (hv : v.timely = false) :
    ∃ e : FExp, v = e.lift ∧ FExpX g e t := by
  suffices H : ∀ (n : Nat) g v t, t.length ≤ n → FExpDaX g v t → v.timely = false →
      ∃ e : FExp, v = e.lift ∧ FExpX g e t from H _ g v t (Nat.le_refl _) h hv
  intro n
  induction n with
  | zero =>
    intro g e t hn h
    obtain ⟨c, r, rfl, _⟩ := ArithX.solid fExpDa_arithRun h
    simp at hn
  | succ n ih =>
    intro g v t hn h hv
    cases h with
    | leaf h =>
      cases h with
      | duration => cases hv
      | fExp h =>
        cases h with
        | number h => exact ⟨.number _, by rw [FExp.lift], .leaf (.number h)⟩
        | function hg h => exact ⟨.function _, by rw [FExp.lift], .leaf (.function hg h)⟩
    | binary h0 hg hb1 hg1 h1 hb2 hg2 h2 =>
      simp only [paren, List.length_append, List.length_cons] at hn
      simp only [FExpDa.timely, Bool.or_eq_false_iff] at hv
      obtain ⟨a, rfl, ha⟩ := ih _ _ _ (by omega) h1 hv.1
      obtain ⟨b, rfl, hb⟩ := ih _ _ _ (by omega) h2 hv.2
      exact ⟨.binaryOp _ a b, by rw [FExp.lift], .binary h0 hg hb1 hg1 ha hb2 hg2 hb⟩
    | @multi _ _ _ _ _ _ _ u _ _ es h0 hg hb1 hg1 h1 hb2 hg2 h2 h3 =>
      simp only [paren, List.length_append, List.length_cons] at hn
      simp only [FExpDa.timely, Bool.or_eq_false_iff] at hv
      obtain ⟨a, rfl, ha⟩ := ih _ _ _ (by omega) h1 hv.1
      have key : ∀ {es u}, Items (FExpDaX []) es u → u.length ≤ n → FExpDa.anyTimely es = false →
          ∃ as : List FExp, es = as.map FExp.lift ∧ Items (FExpX []) as u := by
        intro es u h
        induction h with
        | one h =>
          intro hl hv
          simp only [FExpDa.anyTimely, Bool.or_false] at hv
          obtain ⟨a, rfl, ha⟩ := ih _ _ _ hl h hv
          exact ⟨[a], rfl, .one ha⟩
        | cons h hg _ ihs =>
          intro hl hv
          simp only [List.length_append] at hl
          simp only [FExpDa.anyTimely, Bool.or_eq_false_iff] at hv
          obtain ⟨a, rfl, ha⟩ := ih _ _ _ (by omega) h hv.1
          obtain ⟨as, rfl, has⟩ := ihs (by omega) hv.2
          exact ⟨a :: as, rfl, .cons ha hg has⟩
      obtain ⟨as, rfl, has⟩ := key h2 (by omega) hv.2
      refine ⟨.multiOp _ a as, by rw [FExp.lift, FExp.lifts_eq], .multi h0 hg hb1 hg1 ha hb2 hg2 has ?_⟩
      refine h3.imp (by simp) fun ⟨h4, c, u', e, hc⟩ => ⟨h4, c, u', e, ?_⟩
      have : ∃ x y b, FExpX [] b x ∧ u = x ++ y := by
        cases has with
        | @one b _ h => exact ⟨u, [], b, h, by simp⟩
        | @cons b t g bs w h => exact ⟨t, _, b, h, rfl⟩
      obtain ⟨x, y, b, hx, e'⟩ := this
      obtain ⟨d, z, rfl, hd⟩ := hx.front
      rw [e'] at e
      cases e
      rcases hd with rfl | hd | hd
      · cases hc
      · exact hd
      · rcases Bool.or_eq_true _ _ ▸ hc with h | h
        · exact h
        · rw [eq_of_beq h] at hd; cases hd
    | negative h0 hg hb hg1 h1 =>
      simp only [paren, List.length_append, List.length_cons] at hn
      obtain ⟨a, rfl, ha⟩ := ih _ _ _ (by omega) h1 (by simpa [FExpDa.timely] using hv)
      exact ⟨.negative a, by rw [FExp.lift], .negative h0 hg hb hg1 ha⟩

theorem FExpDa.anyTimely_false {es : List FExpDa} : FExpDa.anyTimely es = false ↔ ∀ e ∈ es, e.timely = false := by
  induction es with
  | nil => simp [FExpDa.anyTimely]
  | cons e es ih => simp [FExpDa.anyTimely, ih]

mutual
theorem FExp.lift_timely : ∀ e : FExp, e.lift.timely = false
  | .number _ => rfl
  | .function _ => rfl
  | .negative e => by rw [FExp.lift, FExpDa.timely]; exact FExp.lift_timely e
  | .binaryOp _ a b => by rw [FExp.lift, FExpDa.timely, FExp.lift_timely a, FExp.lift_timely b]; rfl
  | .multiOp _ a bs => by rw [FExp.lift, FExpDa.timely, FExp.lift_timely a, FExp.lifts_timely bs]; rfl
theorem FExp.lifts_timely : ∀ es : List FExp, FExpDa.anyTimely (FExp.lifts es) = false
  | [] => rfl
  | e :: es => by rw [FExp.lifts, FExpDa.anyTimely, FExp.lift_timely e, FExp.lifts_timely es]; rfl
end

mutual
theorem FExp.lift_denote (M : Interp) (e : M.Env) (d : M.Num) : ∀ a : FExp, a.lift.denote M e d = a.denote M e
  | .number _ => rfl
  | .function _ => rfl
  | .negative a => by rw [FExp.lift, FExpDa.denote, FExp.denote, FExp.lift_denote M e d a]
  | .binaryOp _ a b => by
    rw [FExp.lift, FExpDa.denote, FExp.denote, FExp.lift_denote M e d a, FExp.lift_denote M e d b]
  | .multiOp _ a bs => by
    rw [FExp.lift, FExpDa.denote, FExp.denote, FExp.lift_denote M e d a, FExp.lifts_denote M e d bs]
theorem FExp.lifts_denote (M : Interp) (e : M.Env) (d : M.Num) :
    ∀ as : List FExp, FExpDa.denotes M e d (FExp.lifts as) = FExp.denotes M e as
  | [] => rfl
  | a :: as => by
    rw [FExp.lifts, FExpDa.denotes, FExp.denotes, FExp.lift_denote M e d a, FExp.lifts_denote M e d as]
end

/-- C106. What is read as a numeric expression is read in a durative action as the same expression, and
nothing else is that does not mention `?duration`. -/
theorem C106_expressions (v : FExpDa) (t : List Char) :
    (ReadsAs parseFExpDa v t ∧ v.timely = false) ↔ ∃ e : FExp, v = e.lift ∧ ReadsAs parseFExp e t := by
  constructor
  · rintro ⟨h, hv⟩
    obtain ⟨e, rfl, he⟩ := FExpDaX.unlift (fExpDa_arith.texts h) hv
    exact ⟨e, rfl, h.1, by simpa using fExp_arith.run he (r := []) (fExp_arith.ends_stop stop_nil)⟩
  · rintro ⟨e, rfl, h⟩
    exact ⟨⟨h.1, by simpa using fExpDa_arith.run (FExpX.lift (fExp_arith.texts h)) (r := []) (fExpDa_arith.ends_stop stop_nil)⟩,
      e.lift_timely⟩

/-- C106. It has the same value, however long the action takes. -/
theorem C106_value {e : FExp} {v : FExpDa} {t : List Char} (h : ReadsAs parseFExp e t) (hv : ReadsAs parseFExpDa v t)
    (M : Interp) (f : M.Env) (d : M.Num) : v.denote M f d = e.denote M f := by
  rw [hv.det ((C106_expressions _ t).mpr ⟨e, rfl, h⟩).1, FExp.lift_denote]

/-- C106. What does not mention `?duration` does not depend on how long the action takes. -/
theorem C106_duration {v : FExpDa} {t : List Char} (hv : ReadsAs parseFExpDa v t) (h : v.timely = false)
    (M : Interp) (f : M.Env) (d d' : M.Num) : v.denote M f d = v.denote M f d' := by
  obtain ⟨e, rfl, -⟩ := (C106_expressions v t).mp ⟨hv, h⟩
  rw [FExp.lift_denote, FExp.lift_denote]

/-- C106. An assignment of a number in an action is the same assignment at a time of a durative action. -/
theorem C106_assignments {op : AssignOp} {h : FHead} {e : FExp} {t : List Char}
    (ht : ReadsAs parsePEffect (.assignNumeric op h e) t) : ReadsAs parseFAssignDa ⟨op, h, e.lift⟩ t := by
  cases pEffect_texts.reads.mp ht with
  | numeric _ hn _ _ =>
    refine assignDa_texts.reads.mpr ⟨gapC_nil, ?_⟩
    cases hn with
    | mk h1 h2 h3 h4 h5 h6 h7 h8 => exact .mk h1 h2 h3 h4 h5 h6 h7 (FExpX.lift h8)

/-- `(* 2 x ;c⏎(f a))` in both, and an expression that depends on the duration. -/
example : (∃ e v, ReadsAs parseFExp e c!"(* 2 x ;c\n(f a))" ∧ ReadsAs parseFExpDa v c!"(* 2 x ;c\n(f a))" ∧
      v = e.lift ∧ v.timely = false) ∧
    (∃ v, ReadsAs parseFExpDa v c!"(+ ?duration (f a))" ∧ v.timely = true ∧
      v.denote exWhole (fun _ => (0 : Nat)) (5 : Int) ≠ v.denote exWhole (fun _ => (0 : Nat)) (6 : Int)) ∧
    ∃ op h e, ReadsAs parsePEffect (.assignNumeric op h e) c!"(increase (f) (- x))" :=
  ⟨⟨_, _, ⟨solid_open _, rfl⟩, ⟨solid_open _, rfl⟩, rfl, rfl⟩,
    ⟨_, ⟨solid_open _, rfl⟩, rfl, (by decide : (7 : Int) ≠ 8)⟩, _, _, _, solid_open _, rfl⟩

end Pddl
