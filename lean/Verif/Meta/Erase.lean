import Verif.Meta.Tactic
import Verif.Trace.Parsers

/-!
# Forgetting the error payloads

`Erases p' p`: the parser `p'` with payloads has the same outcome as `p` on every text, up to the
payloads.
-/

namespace Pddl

/-- The outcome without the payload. -/
def E.Res.erase : E.Res α → Pddl.Res α
  | .ok a r => .ok a r
  | .err _ => .err
  | .fail _ => .fail
  | .panic => .panic
  | .oof => .oof

theorem E.Res.erase_ok (a : α) (r : List Char) : (E.Res.ok a r).erase = .ok a r := rfl

def Erases (p' : E.P α) (p : P α) : Prop := ∀ s, (p' s).erase = p s

theorem E.Res.erase_bind {x' : E.Res α} {x : Pddl.Res α} {f' : α → List Char → E.Res β}
    {f : α → List Char → Pddl.Res β} (hx : x'.erase = x) (hf : ∀ a r, (f' a r).erase = f a r) :
    (x'.bind f').erase = x.bind f := by
  subst hx
  cases x' <;> first | exact hf _ _ | rfl

namespace Erases

theorem map {f : α → β} {p' : E.P α} {p : P α} (h : Erases p' p) :
    Erases (E.map f p') (Pddl.map f p) := fun s => E.Res.erase_bind (h s) fun _ _ => rfl

theorem mapExpect {f : α → Option β} {p' : E.P α} {p : P α} (h : Erases p' p) :
    Erases (E.mapExpect f p') (Pddl.mapExpect f p) := fun s =>
  E.Res.erase_bind (h s) fun a r => by cases f a <;> rfl

theorem value {b : β} {p' : E.P α} {p : P α} (h : Erases p' p) :
    Erases (E.value b p') (Pddl.value b p) := h.map

theorem pair {p' : E.P α} {p : P α} {q' : E.P β} {q : P β} (h : Erases p' p) (k : Erases q' q) :
    Erases (E.pair p' q') (Pddl.pair p q) := fun s =>
  E.Res.erase_bind (h s) fun _ r => E.Res.erase_bind (k r) fun _ _ => rfl

theorem preceded {p' : E.P α} {p : P α} {q' : E.P β} {q : P β} (h : Erases p' p)
    (k : Erases q' q) : Erases (E.preceded p' q') (Pddl.preceded p q) := fun s =>
  E.Res.erase_bind (h s) fun _ r => k r

theorem terminated {p' : E.P α} {p : P α} {q' : E.P β} {q : P β} (h : Erases p' p)
    (k : Erases q' q) : Erases (E.terminated p' q') (Pddl.terminated p q) := fun s =>
  E.Res.erase_bind (h s) fun _ r => E.Res.erase_bind (k r) fun _ _ => rfl

theorem delimited {p' : E.P α} {p : P α} {q' : E.P β} {q : P β} {t' : E.P γ} {t : P γ}
    (h : Erases p' p) (k : Erases q' q) (l : Erases t' t) :
    Erases (E.delimited p' q' t') (Pddl.delimited p q t) := h.preceded (k.terminated l)

theorem altLoop : ∀ (ps : List (E.P α)) (e : E.Trace) (s : List Char),
    (E.altLoop ps e s).erase = (E.alt ps s).erase
  | [], _, _ => rfl
  | p :: ps, e, s => by
    have h1 := altLoop ps
    simp only [E.altLoop, E.alt]
    cases p s with
    | err e' => exact (h1 _ s).trans (h1 _ s).symm
    | _ => rfl

theorem alt : Erases (E.alt ([] : List (E.P α))) (Pddl.alt []) := fun _ => rfl

theorem alt_cons {p' : E.P α} {p : P α} {ps' : List (E.P α)} {ps : List (P α)}
    (h : Erases p' p) (k : Erases (E.alt ps') (Pddl.alt ps)) :
    Erases (E.alt (p' :: ps')) (Pddl.alt (p :: ps)) := fun s => by
  have := h s
  have h2 := k s
  simp only [E.alt, Pddl.alt, ← this]
  cases p' s with
  | err e' => exact (altLoop ps' _ s).trans h2
  | _ => rfl

theorem opt {p' : E.P α} {p : P α} (h : Erases p' p) : Erases (E.opt p') (Pddl.opt p) :=
  fun s => by
    simp only [E.opt, Pddl.opt, ← h s]
    cases p' s <;> rfl

theorem recognize {p' : E.P α} {p : P α} (h : Erases p' p) :
    Erases (E.recognize p') (Pddl.recognize p) := fun s => E.Res.erase_bind (h s) fun _ _ => rfl

theorem many0Loop {p' : E.P α} {p : P α} (h : Erases p' p) : ∀ n s,
    (E.many0Loop p' n s).erase = Pddl.many0Loop p n s
  | 0, _ => rfl
  | n + 1, s => by
    have ih := many0Loop h n
    simp only [E.many0Loop, Pddl.many0Loop, ← h s]
    cases p' s with
    | ok a r =>
      by_cases hl : r.length = s.length
      · simp [E.Res.erase, hl]
      · simp only [E.Res.erase_ok, hl, if_false]
        exact E.Res.erase_bind (ih r) fun _ _ => rfl
    | _ => rfl

theorem many0 {p' : E.P α} {p : P α} (h : Erases p' p) : Erases (E.many0 p') (Pddl.many0 p) :=
  fun s => many0Loop h _ s

theorem many01 {p' : E.P α} {p : P α} (h : Erases p' p) : Erases (E.many01 p') (Pddl.many01 p) :=
  fun s => by
    simp only [E.many01, Pddl.many01, ← h s]
    cases p' s with
    | ok a r => by_cases hl : r.length = s.length <;> simp [E.Res.erase, hl]
    | _ => rfl

theorem sepLoop {q' : E.P β} {q : P β} {p' : E.P α} {p : P α} (k : Erases q' q) (h : Erases p' p) :
    ∀ n s, (E.sepLoop q' p' n s).erase = Pddl.sepLoop q p n s
  | 0, _ => rfl
  | n + 1, s => by
    have ih := sepLoop k h n
    simp only [E.sepLoop, Pddl.sepLoop, ← k s]
    cases q' s with
    | ok b r =>
      by_cases hl : r.length = s.length
      · simp [E.Res.erase, hl]
      · simp only [E.Res.erase_ok, hl, if_false, ← h r]
        cases p' r with
        | ok a r' => exact E.Res.erase_bind (ih r') fun _ _ => rfl
        | _ => rfl
    | _ => rfl

theorem sepList0 {q' : E.P β} {q : P β} {p' : E.P α} {p : P α} (k : Erases q' q)
    (h : Erases p' p) : Erases (E.sepList0 q' p') (Pddl.sepList0 q p) := fun s => by
  simp only [E.sepList0, Pddl.sepList0, ← h s]
  cases p' s with
  | ok a r => exact E.Res.erase_bind (sepLoop k h _ r) fun _ _ => rfl
  | _ => rfl

theorem sepList1 {q' : E.P β} {q : P β} {p' : E.P α} {p : P α} (k : Erases q' q)
    (h : Erases p' p) : Erases (E.sepList1 q' p') (Pddl.sepList1 q p) := fun s =>
  E.Res.erase_bind (h s) fun _ r => E.Res.erase_bind (sepLoop k h _ r) fun _ _ => rfl

theorem tag {t : List Char} : Erases (E.tag t) (Pddl.tag t) := fun s => by
  simp only [E.tag, Pddl.tag]
  cases stripPrefix t s <;> rfl

theorem char {c : Char} : Erases (E.char c) (Pddl.char c)
  | [] => rfl
  | d :: s => by
    simp only [E.char, Pddl.char]
    split <;> rfl

theorem takeWhile0 {f : Char → Bool} : Erases (E.takeWhile0 f) (Pddl.takeWhile0 f) := fun _ => rfl

theorem takeWhile1 {k : E.Kind} {f : Char → Bool} :
    Erases (E.takeWhile1 k f) (Pddl.takeWhile1 f) := fun s => by
  simp only [E.takeWhile1, Pddl.takeWhile1]
  split <;> rfl

theorem multispace0 : Erases E.multispace0 Pddl.multispace0 := takeWhile0
theorem multispace1 : Erases E.multispace1 Pddl.multispace1 := takeWhile1
theorem alpha1 : Erases E.alpha1 Pddl.alpha1 := takeWhile1
theorem digit1 : Erases E.digit1 Pddl.digit1 := takeWhile1
theorem isNot {cs : List Char} : Erases (E.isNot cs) (Pddl.isNot cs) := takeWhile1

theorem u64Loop (i : List Char) : ∀ s v, (E.u64Loop i v s).erase = Pddl.u64Loop v s
  | [], _ => rfl
  | c :: s, v => by
    have ih := u64Loop i s
    simp only [E.u64Loop, Pddl.u64Loop]
    split
    · split
      · exact ih _
      · rfl
    · rfl

theorem u64 : Erases E.u64 Pddl.u64
  | [] => rfl
  | c :: s => by
    simp only [E.u64, Pddl.u64]
    split
    · exact u64Loop _ _ _
    · rfl

theorem ifOk {p' : E.P α} {p : P α} {f : α → β} {k' : E.P β} {k : P β} (h : Erases p' p)
    (hk : Erases k' k) : Erases (E.ifOk p' f k') (Pddl.ifOk p f k) := fun s => by
  simp only [E.ifOk, Pddl.ifOk, ← h s]
  cases p' s <;> first | exact hk s | rfl

theorem fixF {b' : E.P α → E.P α} {b : P α → P α}
    (h : ∀ p' p, Erases p' p → Erases (b' p') (b p)) : ∀ n, Erases (E.fixF b' n) (Pddl.fixF b n)
  | 0 => fun _ => rfl
  | n + 1 => h _ _ (fixF h n)

theorem fix {b' : E.P α → E.P α} {b : P α → P α}
    (h : ∀ p' p, Erases p' p → Erases (b' p') (b p)) : Erases (E.fix b') (Pddl.fix b) :=
  fun s => fixF h _ s

end Erases
end Pddl
