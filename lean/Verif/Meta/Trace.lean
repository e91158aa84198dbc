import Verif.Meta.Tactic
import Verif.Trace.Parsers

/-!
# Error payloads: positions and order

`Traced p`: what `p` leaves, and every position it reports, is a suffix of the input; an error has
entries, and they are ordered from the inside to the outside.

`TypeDash p`: an unrecoverable error of `p` consists of one entry, right behind a `-`, where no type can
be read.
-/

namespace Pddl

/-- The entries of an error raised on the text `s`. -/
structure Nested (s : List Char) (e : E.Trace) : Prop where
  ne : e ≠ []
  inside : ∀ x ∈ e, x.rest <:+ s
  order : e.Pairwise fun x y => x.rest <:+ y.rest

theorem Nested.raise {s r : List Char} {k : E.Kind} (h : r <:+ s) : Nested s (.raise r k) :=
  ⟨by simp [E.Trace.raise], by simpa [E.Trace.raise] using h, by simp [E.Trace.raise]⟩

theorem Nested.append {s : List Char} {k : E.Kind} {e : E.Trace} (h : Nested s e) :
    Nested s (e.append s k) := by
  refine ⟨by simp [E.Trace.append], fun x hx => ?_, ?_⟩
  · simp only [E.Trace.append, List.mem_append, List.mem_singleton] at hx
    rcases hx with hx | rfl
    · exact h.inside x hx
    · exact List.suffix_refl _
  · rw [E.Trace.append, List.pairwise_append]
    refine ⟨h.order, by simp, fun x hx y hy => ?_⟩
    simp only [List.mem_singleton] at hy
    subst hy
    exact h.inside x hx

theorem Nested.or {s : List Char} {e f : E.Trace} (h : Nested s e) (k : Nested s f) :
    Nested s (e.or f) := by
  unfold E.Trace.or
  split
  · split
    · exact k
    · exact h
  · exact h

theorem Nested.mono {s r : List Char} {e : E.Trace} (h : Nested r e) (k : r <:+ s) : Nested s e :=
  ⟨h.ne, fun x hx => (h.inside x hx).trans k, h.order⟩

/-- See `Traced`. -/
def TrOut (s : List Char) : E.Res α → Prop
  | .ok _ r => r <:+ s
  | .err e => Nested s e
  | .fail e => Nested s e
  | .panic => True
  | .oof => True

def Traced (p : E.P α) : Prop := ∀ s, TrOut s (p s)

/-- The same for the remaining alternatives of an `alt`. -/
def TrLoop (p : E.Trace → E.P α) : Prop := ∀ s e, Nested s e → TrOut s (p e s)

theorem TrOut.mono {s r : List Char} {x : E.Res α} (h : TrOut r x) (k : r <:+ s) : TrOut s x := by
  cases x with
  | ok _ _ => exact List.IsSuffix.trans h k
  | err _ => exact Nested.mono h k
  | fail _ => exact Nested.mono h k
  | _ => trivial

theorem TrOut.bind {s : List Char} {x : E.Res α} {f : α → List Char → E.Res β} (h : TrOut s x)
    (k : ∀ a r, TrOut r (f a r)) : TrOut s (x.bind f) := by
  cases x with
  | ok a r => exact (k a r).mono h
  | err _ => exact h
  | fail _ => exact h
  | _ => trivial

namespace Traced

theorem map {f : α → β} {p : E.P α} (h : Traced p) : Traced (E.map f p) := fun s =>
  (h s).bind fun _ r => List.suffix_refl r

theorem mapExpect {f : α → Option β} {p : E.P α} (h : Traced p) : Traced (E.mapExpect f p) :=
  fun s => (h s).bind fun a r => by
    cases f a
    · trivial
    · exact List.suffix_refl r

theorem value {b : β} {p : E.P α} (h : Traced p) : Traced (E.value b p) := h.map

theorem pair {p : E.P α} {q : E.P β} (h : Traced p) (k : Traced q) : Traced (E.pair p q) := fun s =>
  (h s).bind fun _ r => (k r).bind fun _ r' => List.suffix_refl r'

theorem preceded {p : E.P α} {q : E.P β} (h : Traced p) (k : Traced q) :
    Traced (E.preceded p q) := fun s => (h s).bind fun _ r => k r

theorem terminated {p : E.P α} {q : E.P β} (h : Traced p) (k : Traced q) :
    Traced (E.terminated p q) := fun s =>
  (h s).bind fun _ r => (k r).bind fun _ r' => List.suffix_refl r'

theorem delimited {p : E.P α} {q : E.P β} {t : E.P γ} (h : Traced p) (k : Traced q)
    (l : Traced t) : Traced (E.delimited p q t) := h.preceded (k.terminated l)

theorem alt : Traced (E.alt ([] : List (E.P α))) := fun s => Nested.raise (List.suffix_refl s)

theorem alt_cons {p : E.P α} {ps : List (E.P α)} (h : Traced p) (k : TrLoop (E.altLoop ps)) :
    Traced (E.alt (p :: ps)) := fun s => by
  have := h s
  simp only [E.alt]
  cases hp : p s <;> rw [hp] at this
  case err e => exact k s e this
  all_goals exact this

theorem _root_.Pddl.TrLoop.altLoop : TrLoop (E.altLoop ([] : List (E.P α))) :=
  fun _ _ h => h.append

theorem _root_.Pddl.TrLoop.altLoop_cons {p : E.P α} {ps : List (E.P α)} (h : Traced p)
    (k : TrLoop (E.altLoop ps)) : TrLoop (E.altLoop (p :: ps)) := fun s e he => by
  have := h s
  simp only [E.altLoop]
  cases hp : p s <;> rw [hp] at this
  case err e' => exact k s _ (he.or this)
  all_goals exact this

theorem opt {p : E.P α} (h : Traced p) : Traced (E.opt p) := fun s => by
  have := h s
  simp only [E.opt]
  cases hp : p s <;> rw [hp] at this
  case err e => exact List.suffix_refl s
  all_goals exact this

theorem recognize {p : E.P α} (h : Traced p) : Traced (E.recognize p) := fun s =>
  (h s).bind fun _ r => List.suffix_refl r

theorem many0Loop {p : E.P α} (h : Traced p) : ∀ n, Traced (E.many0Loop p n)
  | 0 => fun _ => trivial
  | n + 1 => fun s => by
    have ih := many0Loop h n
    have := h s
    simp only [E.many0Loop]
    cases hp : p s <;> rw [hp] at this
    case ok a r =>
      dsimp only
      split
      · exact Nested.raise (List.suffix_refl s)
      · exact TrOut.mono (TrOut.bind (f := fun as r' => .ok (a :: as) r') (ih r)
          fun _ r' => List.suffix_refl r') this
    case err e => exact List.suffix_refl s
    all_goals exact this

theorem many0 {p : E.P α} (h : Traced p) : Traced (E.many0 p) := fun s => many0Loop h _ s

theorem many01 {p : E.P α} (h : Traced p) : Traced (E.many01 p) := fun s => by
  have := h s
  simp only [E.many01]
  cases hp : p s <;> rw [hp] at this
  case ok a r =>
    dsimp only
    split
    · exact Nested.raise (List.suffix_refl s)
    · exact this
  case err e => exact List.suffix_refl s
  all_goals exact this

theorem sepLoop {q : E.P β} {p : E.P α} (k : Traced q) (h : Traced p) :
    ∀ n, Traced (E.sepLoop q p n)
  | 0 => fun _ => trivial
  | n + 1 => fun s => by
    have ih := sepLoop k h n
    have := k s
    simp only [E.sepLoop]
    cases hq : q s <;> rw [hq] at this
    case ok b r =>
      have h2 := h r
      dsimp only
      split
      · exact Nested.raise this
      · cases hp : p r <;> rw [hp] at h2
        case ok a r' =>
          exact TrOut.mono (TrOut.bind (f := fun as r'' => .ok (a :: as) r'') (ih r')
            fun _ r'' => List.suffix_refl r'') (List.IsSuffix.trans h2 this)
        case err e => exact List.suffix_refl s
        all_goals exact TrOut.mono h2 this
    case err e => exact List.suffix_refl s
    all_goals exact this

theorem sepList1 {q : E.P β} {p : E.P α} (k : Traced q) (h : Traced p) :
    Traced (E.sepList1 q p) := fun s =>
  (h s).bind fun _ r => (sepLoop k h _ r).bind fun _ r' => List.suffix_refl r'

theorem sepList0 {q : E.P β} {p : E.P α} (k : Traced q) (h : Traced p) :
    Traced (E.sepList0 q p) := fun s => by
  have h2 := h s
  have h1 := sepList1 k h s
  simp only [E.sepList0]
  simp only [E.sepList1] at h1
  cases hp : p s <;> rw [hp] at h1 h2
  case ok a r => exact h1
  case err e => exact List.suffix_refl s
  all_goals exact h2

theorem _root_.Pddl.stripPrefix_suffix : ∀ {t s r : List Char}, stripPrefix t s = some r → r <:+ s
  | [], s, r, h => by
    simp only [stripPrefix, Option.some.injEq] at h
    exact h ▸ List.suffix_refl _
  | _ :: _, [], r, h => by simp [stripPrefix] at h
  | c :: t, d :: s, r, h => by
    simp only [stripPrefix] at h
    split at h
    · exact (stripPrefix_suffix h).trans (List.suffix_cons d s)
    · simp at h

theorem tag {t : List Char} : Traced (E.tag t) := fun s => by
  simp only [E.tag]
  split
  · rename_i r h; exact stripPrefix_suffix h
  · exact Nested.raise (List.suffix_refl s)

theorem char {c : Char} : Traced (E.char c)
  | [] => Nested.raise (List.suffix_refl _)
  | d :: s => by
    simp only [E.char]
    split
    · exact List.suffix_cons d s
    · exact Nested.raise (List.suffix_refl _)

theorem takeWhile0 {f : Char → Bool} : Traced (E.takeWhile0 f) := fun _ =>
  List.dropWhile_suffix f

theorem takeWhile1 {k : E.Kind} {f : Char → Bool} : Traced (E.takeWhile1 k f) := fun s => by
  simp only [E.takeWhile1]
  split
  · exact Nested.raise (List.suffix_refl s)
  · exact List.dropWhile_suffix f

theorem multispace0 : Traced E.multispace0 := takeWhile0
theorem multispace1 : Traced E.multispace1 := takeWhile1
theorem alpha1 : Traced E.alpha1 := takeWhile1
theorem digit1 : Traced E.digit1 := takeWhile1
theorem isNot {cs : List Char} : Traced (E.isNot cs) := takeWhile1

theorem u64Loop (i : List Char) : ∀ s v, s <:+ i → TrOut i (E.u64Loop i v s)
  | [], _, h => h
  | c :: s, v, h => by
    have ih := u64Loop i s
    simp only [E.u64Loop]
    split
    · split
      · exact ih _ ((List.suffix_cons c s).trans h)
      · exact Nested.raise (List.suffix_refl i)
    · exact h

theorem u64 : Traced E.u64
  | [] => Nested.raise (List.suffix_refl _)
  | c :: s => by
    simp only [E.u64]
    split
    · exact u64Loop _ _ _ (List.suffix_refl _)
    · exact Nested.raise (List.suffix_refl _)

theorem ifOk {p : E.P α} {f : α → β} {k : E.P β} (h : Traced p) (hk : Traced k) :
    Traced (E.ifOk p f k) := fun s => by
  have := h s
  simp only [E.ifOk]
  cases hp : p s <;> rw [hp] at this
  case ok a r => exact this
  case panic => trivial
  case oof => trivial
  all_goals exact hk s

theorem fixF {b : E.P α → E.P α} (h : ∀ p, Traced p → Traced (b p)) : ∀ n, Traced (E.fixF b n)
  | 0 => fun _ => trivial
  | n + 1 => h _ (fixF h n)

theorem fix {b : E.P α → E.P α} (h : ∀ p, Traced p → Traced (b p)) : Traced (E.fix b) :=
  fun s => fixF h _ s

end Traced

/-! ## Where an unrecoverable error points -/

/-- See `TypeDash`. -/
def BadType (s : List Char) (e : E.Trace) : Prop :=
  ∃ pre post, s = pre ++ '-' :: post ∧ e = [⟨post, .alt⟩] ∧ E.parseType post = .fail e

def TypeDash (p : E.P α) : Prop := ∀ s e, p s = .fail e → BadType s e

theorem BadType.mono {s r : List Char} {e : E.Trace} (h : BadType r e) (k : r <:+ s) :
    BadType s e := by
  obtain ⟨c, rfl⟩ := k
  obtain ⟨pre, post, rfl, h⟩ := h
  exact ⟨c ++ pre, post, by simp, h⟩

namespace TypeDash

theorem of_bind {x : E.Res α} {f : α → List Char → E.Res β} (hx : ∀ e, x = .fail e → BadType s e)
    (t : TrOut s x) (hf : ∀ a r e, f a r = .fail e → BadType r e) :
    ∀ e, x.bind f = .fail e → BadType s e := by
  intro e he
  cases x with
  | ok a r => exact (hf a r e he).mono t
  | fail e' => exact hx e (by simpa [E.Res.bind] using he)
  | _ => simp [E.Res.bind] at he

theorem map {f : α → β} {p : E.P α} (h : TypeDash p) : TypeDash (E.map f p) := fun s e he => by
  simp only [E.map] at he
  cases hp : p s with
  | fail e' => rw [hp] at he; exact h s e (by simpa [E.Res.bind, hp] using he)
  | _ => rw [hp] at he; simp [E.Res.bind] at he

theorem mapExpect {f : α → Option β} {p : E.P α} (h : TypeDash p) : TypeDash (E.mapExpect f p) :=
  fun s e he => by
    simp only [E.mapExpect] at he
    cases hp : p s with
    | fail e' => rw [hp] at he; exact h s e (by simpa [E.Res.bind, hp] using he)
    | ok a r => rw [hp] at he; cases hf : f a <;> simp [E.Res.bind, hf] at he
    | _ => rw [hp] at he; simp [E.Res.bind] at he

theorem value {b : β} {p : E.P α} (h : TypeDash p) : TypeDash (E.value b p) := h.map

theorem pair {p : E.P α} {q : E.P β} (h : TypeDash p) (t : Traced p) (k : TypeDash q) :
    TypeDash (E.pair p q) := fun s =>
  of_bind (h s) (t s) fun a r e he => map (f := fun b => (a, b)) k r e he

theorem preceded {p : E.P α} {q : E.P β} (h : TypeDash p) (t : Traced p) (k : TypeDash q) :
    TypeDash (E.preceded p q) := fun s => of_bind (h s) (t s) fun _ r e he => k r e he

theorem terminated {p : E.P α} {q : E.P β} (h : TypeDash p) (t : Traced p) (k : TypeDash q) :
    TypeDash (E.terminated p q) := fun s =>
  of_bind (h s) (t s) fun a r e he => map (f := fun _ => a) k r e he

theorem delimited {p : E.P α} {q : E.P β} {t : E.P γ} (h : TypeDash p) (tp : Traced p) (k : TypeDash q)
    (tq : Traced q) (l : TypeDash t) : TypeDash (E.delimited p q t) := h.preceded tp (k.terminated tq l)

theorem altLoop_any : ∀ (ps : List (E.P α)) (e e' f : E.Trace) (s : List Char),
    E.altLoop ps e s = .fail f → E.altLoop ps e' s = .fail f
  | [], _, _, _, _, h => by simp [E.altLoop] at h
  | p :: ps, e, e', f, s, h => by
    simp only [E.altLoop] at h ⊢
    cases hp : p s with
    | err g => rw [hp] at h; exact altLoop_any ps _ _ f s h
    | fail g => rw [hp] at h; exact h
    | _ => rw [hp] at h; simp at h

theorem altLoop (ps : List (E.P α)) (e f : E.Trace) (s : List Char)
    (h : E.altLoop ps e s = .fail f) : E.alt ps s = .fail f := by
  cases ps with
  | nil => simp [E.altLoop] at h
  | cons p ps =>
    simp only [E.altLoop] at h
    simp only [E.alt]
    cases hp : p s with
    | err g => rw [hp] at h; exact altLoop_any ps _ _ f s h
    | fail g => rw [hp] at h; exact h
    | _ => rw [hp] at h; simp at h

theorem alt : TypeDash (E.alt ([] : List (E.P α))) := fun s e h => by simp [E.alt] at h

theorem alt_cons {p : E.P α} {ps : List (E.P α)} (h : TypeDash p) (k : TypeDash (E.alt ps)) :
    TypeDash (E.alt (p :: ps)) := fun s e he => by
  simp only [E.alt] at he
  cases hp : p s with
  | err e' => rw [hp] at he; exact k s e (altLoop ps _ e s he)
  | fail e' => rw [hp] at he; exact h s e (hp.trans he)
  | _ => rw [hp] at he; simp at he

theorem opt {p : E.P α} (h : TypeDash p) : TypeDash (E.opt p) := fun s e he => by
  simp only [E.opt] at he
  cases hp : p s with
  | fail e' => rw [hp] at he; exact h s e (hp.trans (by simpa using he))
  | _ => rw [hp] at he; simp at he

theorem recognize {p : E.P α} (h : TypeDash p) : TypeDash (E.recognize p) := fun s e he => by
  simp only [E.recognize] at he
  cases hp : p s with
  | fail e' => rw [hp] at he; exact h s e (by simpa [E.Res.bind, hp] using he)
  | _ => rw [hp] at he; simp [E.Res.bind] at he

theorem many0Loop {p : E.P α} (h : TypeDash p) (t : Traced p) : ∀ n, TypeDash (E.many0Loop p n)
  | 0 => fun s e he => by simp [E.many0Loop] at he
  | n + 1 => fun s e he => by
    have ih := many0Loop h t n
    have ts := t s
    simp only [E.many0Loop] at he
    cases hp : p s with
    | ok a r =>
      rw [hp] at he ts
      dsimp only at he
      split at he
      · simp at he
      · exact (map (f := fun as => a :: as) ih r e he).mono ts
    | fail e' => rw [hp] at he; exact h s e (hp.trans (by simpa using he))
    | _ => rw [hp] at he; simp at he

theorem many0 {p : E.P α} (h : TypeDash p) (t : Traced p) : TypeDash (E.many0 p) :=
  fun s => many0Loop h t _ s

theorem many01 {p : E.P α} (h : TypeDash p) : TypeDash (E.many01 p) := fun s e he => by
  simp only [E.many01] at he
  cases hp : p s with
  | ok a r => rw [hp] at he; dsimp only at he; split at he <;> simp at he
  | fail e' => rw [hp] at he; exact h s e (hp.trans (by simpa using he))
  | _ => rw [hp] at he; simp at he

theorem sepLoop {q : E.P β} {p : E.P α} (k : TypeDash q) (tq : Traced q) (h : TypeDash p) (tp : Traced p) :
    ∀ n, TypeDash (E.sepLoop q p n)
  | 0 => fun s e he => by simp [E.sepLoop] at he
  | n + 1 => fun s e he => by
    have ih := sepLoop k tq h tp n
    have ts := tq s
    simp only [E.sepLoop] at he
    cases hq : q s with
    | ok b r =>
      rw [hq] at he ts
      have tr := tp r
      dsimp only at he
      split at he
      · simp at he
      · cases hp : p r with
        | ok a r' =>
          rw [hp] at he tr
          exact ((map (f := fun as => a :: as) ih r' e he).mono tr).mono ts
        | fail e' => rw [hp] at he; exact (h r e (hp.trans (by simpa using he))).mono ts
        | _ => rw [hp] at he; simp at he
    | fail e' => rw [hq] at he; exact k s e (hq.trans (by simpa using he))
    | _ => rw [hq] at he; simp at he

theorem sepList1 {q : E.P β} {p : E.P α} (k : TypeDash q) (tq : Traced q) (h : TypeDash p) (tp : Traced p) :
    TypeDash (E.sepList1 q p) := fun s =>
  of_bind (h s) (tp s) fun a r e he =>
    map (f := fun as => a :: as) (fun s => sepLoop k tq h tp _ s) r e he

theorem sepList0 {q : E.P β} {p : E.P α} (k : TypeDash q) (tq : Traced q) (h : TypeDash p) (tp : Traced p) :
    TypeDash (E.sepList0 q p) := fun s e he => by
  refine sepList1 k tq h tp s e ?_
  simp only [E.sepList0] at he
  simp only [E.sepList1]
  cases hp : p s with
  | err e' => rw [hp] at he; simp at he
  | _ => rw [hp] at he; exact he

theorem of_never {p : E.P α} (h : ∀ s e, p s ≠ .fail e) : TypeDash p := fun s e he => (h s e he).elim

theorem tag {t : List Char} : TypeDash (E.tag t) := of_never fun s e => by
  simp only [E.tag]; split <;> simp

theorem char {c : Char} : TypeDash (E.char c) := of_never fun s e => by
  simp only [E.char]; split
  · split <;> simp
  · simp

theorem takeWhile0 {f : Char → Bool} : TypeDash (E.takeWhile0 f) := of_never fun s e => by
  simp [E.takeWhile0]

theorem takeWhile1 {k : E.Kind} {f : Char → Bool} : TypeDash (E.takeWhile1 k f) :=
  of_never fun s e => by simp only [E.takeWhile1]; split <;> simp

theorem multispace0 : TypeDash E.multispace0 := takeWhile0
theorem multispace1 : TypeDash E.multispace1 := takeWhile1
theorem alpha1 : TypeDash E.alpha1 := takeWhile1
theorem digit1 : TypeDash E.digit1 := takeWhile1
theorem isNot {cs : List Char} : TypeDash (E.isNot cs) := takeWhile1

theorem u64Loop (i : List Char) : ∀ s v e, E.u64Loop i v s ≠ .fail e
  | [], _, _ => by simp [E.u64Loop]
  | c :: s, v, e => by
    have ih := u64Loop i s
    simp only [E.u64Loop]
    split
    · split
      · exact ih _ _
      · simp
    · simp

theorem u64 : TypeDash E.u64 := of_never fun s e => by
  cases s with
  | nil => simp [E.u64]
  | cons c s =>
    simp only [E.u64]
    split
    · exact u64Loop _ _ _ _
    · simp

theorem ifOk {p : E.P α} {f : α → β} {k : E.P β} (hk : TypeDash k) : TypeDash (E.ifOk p f k) :=
  fun s e he => by
    simp only [E.ifOk] at he
    cases hp : p s <;> rw [hp] at he
    case ok => simp at he
    case panic => simp at he
    case oof => simp at he
    all_goals exact hk s e he

theorem fixF {b : E.P α → E.P α} (t : ∀ p, Traced p → Traced (b p))
    (h : ∀ p, TypeDash p → Traced p → TypeDash (b p)) : ∀ n, TypeDash (E.fixF b n)
  | 0 => fun s e he => by simp [E.fixF] at he
  | n + 1 => h _ (fixF t h n) (Traced.fixF t n)

theorem fix {b : E.P α → E.P α} (t : ∀ p, Traced p → Traced (b p))
    (h : ∀ p, TypeDash p → Traced p → TypeDash (b p)) : TypeDash (E.fix b) := fun s => fixF t h _ s

end TypeDash
end Pddl
