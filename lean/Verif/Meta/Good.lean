import Verif.Parsers
import Verif.Spec.Literal

/-!
# Meta-theory 1: termination, progress, panics

`Good k L p q`: on every input shorter than `L`, `p` and `q` have the same outcome, the depth
budget is not used up, a success leaves a suffix of the input and consumes at least `k`
characters, and a panic implies that the input contains an unrepresentable number.
It is stated for a pair of parsers so that the two sides can differ in their depth budget.
-/

namespace Pddl

theorem Calm.suffix {c r : List Char} (h : Calm (c ++ r)) : Calm r := by
  intro a ds b hr hd
  exact h (c ++ a) ds b (by simp [hr]) hd

/-- Condition on one outcome, see `Good`. -/
def OutP (k : Nat) (s : List Char) : Res α → Prop
  | .ok _ r => ∃ c, s = c ++ r ∧ k ≤ c.length
  | .oof => False
  | .panic => ¬ Calm s
  | .err => True
  | .fail => True

/-- Condition on a pair of outcomes, see `Good`. -/
def Out (k : Nat) (s : List Char) (x y : Res α) : Prop := x = y ∧ OutP k s x

theorem OutP.prepend {s c r : List Char} {x : Res α} (h : OutP k r x) (hs : s = c ++ r) :
    OutP (c.length + k) s x := by
  cases x with
  | ok a r' =>
    obtain ⟨c', hc', hk⟩ := h
    exact ⟨c ++ c', by simp [hs, hc'], by simp; omega⟩
  | panic => exact fun hc => h (Calm.suffix (hs ▸ hc))
  | oof => exact h
  | err => trivial
  | fail => trivial

theorem OutP.mono {s : List Char} {x : Res α} (h : OutP k s x) (hk : k' ≤ k) : OutP k' s x := by
  cases x with
  | ok a r => obtain ⟨c, hc, h⟩ := h; exact ⟨c, hc, by omega⟩
  | _ => exact h

/-- See the file header. -/
def Good (k L : Nat) (p q : P α) : Prop := ∀ s, s.length < L → Out k s (p s) (q s)

theorem Out.bind {s : List Char} {x y : Res α} {f g : α → List Char → Res β} {k k' : Nat}
    (h : Out k s x y)
    (hf : ∀ a c r, s = c ++ r → k ≤ c.length → Out k' r (f a r) (g a r)) :
    Out (k + k') s (x.bind f) (y.bind g) := by
  obtain ⟨rfl, h⟩ := h
  cases x with
  | ok a r =>
    obtain ⟨c, hc, hk⟩ := h
    have h2 := hf a c r hc hk
    exact ⟨h2.1, (h2.2.prepend hc).mono (by omega)⟩
  | _ => exact ⟨rfl, h⟩

theorem Out.ret {s : List Char} (a : α) : Out 0 s (Res.ok a s) (Res.ok a s) :=
  ⟨rfl, [], rfl, Nat.zero_le _⟩

theorem Out.mono {s : List Char} {x y : Res α} {k k' : Nat} (h : Out k s x y) (hk : k' ≤ k) :
    Out k' s x y := ⟨h.1, h.2.mono hk⟩

namespace Good

theorem mono {p q : P α} (h : Good k L p q) (hk : k' ≤ k) : Good k' L p q :=
  fun s hs => (h s hs).mono hk

theorem weaken {p q : P α} (h : Good k L p q) (hL : L' ≤ L) : Good k L' p q :=
  fun s hs => h s (by omega)

theorem map (f : α → β) {p q : P α} (h : Good k L p q) : Good k L (map f p) (map f q) := by
  intro s hs
  have := (h s hs).bind (k' := 0) (f := fun a r => .ok (f a) r) (g := fun a r => .ok (f a) r)
    (fun a c r _ _ => ⟨rfl, [], rfl, Nat.zero_le _⟩)
  exact this

theorem value (b : β) {p q : P α} (h : Good k L p q) : Good k L (value b p) (value b q) :=
  h.map _

theorem mapExpect (f : α → Option β) {p q : P α} (h : Good k L p q)
    (hf : ∀ s a r, p s = .ok a r → (f a).isSome) :
    Good k L (mapExpect f p) (mapExpect f q) := by
  intro s hs
  have h1 := h s hs
  unfold Pddl.mapExpect
  refine ⟨by rw [h1.1], ?_⟩
  have h2 := h1.2
  cases hp : p s with
  | ok a r =>
    rw [hp] at h2
    have := hf s a r hp
    simp only [Res.bind]
    cases hfa : f a with
    | none => simp [hfa] at this
    | some b => exact h2
  | oof => rw [hp] at h2; exact h2
  | panic => rw [hp] at h2; exact h2
  | _ => trivial

theorem pair {p p' : P α} {q q' : P β} (h1 : Good k1 L p p') (h2 : Good k2 (L - k1) q q') :
    Good (k1 + k2) L (pair p q) (pair p' q') := by
  intro s hs
  refine (h1 s hs).bind fun a c r hc hk => ?_
  have hr : r.length < L - k1 := by
    have := congrArg List.length hc
    simp at this; omega
  have := (h2 r hr).bind (k' := 0) (f := fun b r' => .ok (a, b) r')
    (g := fun b r' => .ok (a, b) r') (fun b c r _ _ => ⟨rfl, [], rfl, Nat.zero_le _⟩)
  exact this

theorem preceded {p p' : P α} {q q' : P β} (h1 : Good k1 L p p') (h2 : Good k2 (L - k1) q q') :
    Good (k1 + k2) L (preceded p q) (preceded p' q') := by
  intro s hs
  refine (h1 s hs).bind fun a c r hc hk => ?_
  have hr : r.length < L - k1 := by
    have := congrArg List.length hc
    simp at this; omega
  exact h2 r hr

theorem terminated {p p' : P α} {q q' : P β} (h1 : Good k1 L p p') (h2 : Good k2 (L - k1) q q') :
    Good (k1 + k2) L (terminated p q) (terminated p' q') := by
  intro s hs
  refine (h1 s hs).bind fun a c r hc hk => ?_
  have hr : r.length < L - k1 := by
    have := congrArg List.length hc
    simp at this; omega
  have := (h2 r hr).bind (k' := 0) (f := fun b r' => .ok a r')
    (g := fun b r' => .ok a r') (fun b c r _ _ => ⟨rfl, [], rfl, Nat.zero_le _⟩)
  exact this

theorem delimited {p p' : P α} {q q' : P β} {t t' : P γ} (h1 : Good k1 L p p')
    (h2 : Good k2 (L - k1) q q') (h3 : Good k3 (L - k1 - k2) t t') :
    Good (k1 + (k2 + k3)) L (delimited p q t) (delimited p' q' t') :=
  preceded h1 (terminated h2 h3)

theorem alt_one {p q : P α} (h : Good k L p q) : Good k L (alt [p]) (alt [q]) := by
  intro s hs
  have := h s hs
  simp only [alt]
  refine ⟨by rw [this.1], ?_⟩
  have h2 := this.2
  cases hp : p s <;> rw [hp] at h2 <;> exact h2

theorem alt_cons {p q : P α} {ps qs : List (P α)} (h : Good k1 L p q)
    (hs : Good k2 L (alt ps) (alt qs)) : Good (min k1 k2) L (alt (p :: ps)) (alt (q :: qs)) := by
  intro s hsl
  have h1 := (h s hsl).mono (Nat.min_le_left k1 k2)
  have h2 := (hs s hsl).mono (Nat.min_le_right k1 k2)
  simp only [alt]
  cases hp : p s with
  | err =>
    have : q s = .err := by rw [← h1.1, hp]
    rw [this]; exact h2
  | _ =>
    rw [hp] at h1
    rw [← h1.1]
    exact ⟨rfl, h1.2⟩

theorem opt {p q : P α} (h : Good k L p q) : Good 0 L (opt p) (opt q) := by
  intro s hs
  have h1 := (h s hs).mono (Nat.zero_le k)
  simp only [Pddl.opt]
  refine ⟨by rw [h1.1], ?_⟩
  have h2 := h1.2
  cases hp : p s with
  | err => exact ⟨[], rfl, Nat.zero_le _⟩
  | _ => rw [hp] at h2; exact h2

theorem recognize {p q : P α} (h : Good k L p q) : Good k L (recognize p) (recognize q) := by
  intro s hs
  have := (h s hs).bind (k' := 0) (f := fun _ r => .ok (s.take (s.length - r.length)) r)
    (g := fun _ r => .ok (s.take (s.length - r.length)) r)
    (fun a c r _ _ => ⟨rfl, [], rfl, Nat.zero_le _⟩)
  exact this

theorem ifOk {p p' : P α} (f : α → β) {q q' : P β} (h : Good k1 L p p') (h2 : Good k2 L q q') :
    Good (min k1 k2) L (ifOk p f q) (ifOk p' f q') := by
  intro s hsl
  have h1 := (h s hsl).mono (Nat.min_le_left k1 k2)
  have h2 := (h2 s hsl).mono (Nat.min_le_right k1 k2)
  simp only [Pddl.ifOk]
  rw [← h1.1]
  have h3 := h1.2
  cases hp : p s with
  | err => exact h2
  | fail => exact h2
  | ok a r => rw [hp] at h3; exact ⟨rfl, h3⟩
  | oof => rw [hp] at h3; exact ⟨rfl, h3⟩
  | panic => rw [hp] at h3; exact ⟨rfl, h3⟩

theorem err : Good k L (fun _ => (Res.err : Res α)) (fun _ => .err) := fun _ _ => ⟨rfl, trivial⟩

theorem fail : Good k L (fun _ => (Res.fail : Res α)) (fun _ => .fail) := fun _ _ => ⟨rfl, trivial⟩

theorem many0Loop {p q : P α} (h : Good k L p q) :
    ∀ n s, s.length < n → s.length < L → Out 0 s (many0Loop p n s) (many0Loop q n s) := by
  intro n
  induction n with
  | zero => intro s hs; omega
  | succ n ih =>
    intro s hs hL
    have h1 := h s hL
    simp only [Pddl.many0Loop]
    rw [← h1.1]
    have h2 := h1.2
    cases hp : p s with
    | err => exact .ret _
    | ok a r =>
      rw [hp] at h2
      obtain ⟨c, hc, hk⟩ := h2
      have hl : s.length = c.length + r.length := by simp [hc]
      dsimp only
      by_cases hr : r.length = s.length
      · rw [if_pos hr, if_pos hr]; exact ⟨rfl, trivial⟩
      · rw [if_neg hr, if_neg hr]
        have h3 := (ih r (by omega) (by omega)).bind (k' := 0)
          (f := fun as r' => .ok (a :: as) r') (g := fun as r' => .ok (a :: as) r')
          (fun b c r _ _ => .ret _)
        exact ⟨h3.1, (h3.2.prepend hc).mono (Nat.zero_le _)⟩
    | fail => exact ⟨rfl, trivial⟩
    | oof => rw [hp] at h2; exact ⟨rfl, h2⟩
    | panic => rw [hp] at h2; exact ⟨rfl, h2⟩

theorem many0 {p q : P α} (h : Good k L p q) : Good 0 L (many0 p) (many0 q) :=
  fun s hs => many0Loop h (s.length + 1) s (by omega) hs

theorem many01 {p q : P α} (h : Good k L p q) : Good 0 L (many01 p) (many01 q) := by
  intro s hs
  have h1 := (h s hs).mono (Nat.zero_le k)
  simp only [Pddl.many01]
  rw [← h1.1]
  have h2 := h1.2
  cases hp : p s with
  | err => exact ⟨rfl, [], rfl, Nat.zero_le _⟩
  | ok a r =>
    rw [hp] at h2
    by_cases hr : r.length = s.length
    · simp only [hr, if_true]; exact ⟨rfl, trivial⟩
    · simp only [hr, if_false]; exact ⟨rfl, h2⟩
  | fail => exact ⟨rfl, trivial⟩
  | oof => rw [hp] at h2; exact ⟨rfl, h2⟩
  | panic => rw [hp] at h2; exact ⟨rfl, h2⟩

theorem sepLoop {sep sep' : P β} {p q : P α} (hsep : Good k1 L sep sep')
    (h : Good k2 (L - k1) p q) :
    ∀ n s, s.length < n → s.length < L → Out 0 s (sepLoop sep p n s) (sepLoop sep' q n s) := by
  intro n
  induction n with
  | zero => intro s hs; omega
  | succ n ih =>
    intro s hs hL
    have h1 := hsep s hL
    simp only [Pddl.sepLoop]
    rw [← h1.1]
    have h2 := h1.2
    cases hp : sep s with
    | err => exact .ret _
    | ok b r =>
      rw [hp] at h2
      obtain ⟨c, hc, hk⟩ := h2
      have hl : s.length = c.length + r.length := by simp [hc]
      dsimp only
      by_cases hr : r.length = s.length
      · rw [if_pos hr, if_pos hr]; exact ⟨rfl, trivial⟩
      · rw [if_neg hr, if_neg hr]
        have h3 := h r (by omega)
        rw [← h3.1]
        have h4 := h3.2
        cases hpr : p r with
        | err => exact .ret _
        | ok a r' =>
          rw [hpr] at h4
          obtain ⟨c', hc', hk'⟩ := h4
          have hl' : r.length = c'.length + r'.length := by simp [hc']
          have h7 := (ih r' (by omega) (by omega)).bind (k' := 0)
              (f := fun as r' => .ok (a :: as) r') (g := fun as r' => .ok (a :: as) r')
              (fun b c r _ _ => .ret _)
          exact ⟨h7.1, ((h7.2.prepend hc').prepend hc).mono (Nat.zero_le _)⟩
        | fail => exact ⟨rfl, trivial⟩
        | oof => rw [hpr] at h4; exact ⟨rfl, h4⟩
        | panic =>
          rw [hpr] at h4
          exact ⟨rfl, (OutP.prepend (x := (Res.panic : Res α)) (k := 0) h4 hc)⟩
    | fail => exact ⟨rfl, trivial⟩
    | oof => rw [hp] at h2; exact ⟨rfl, h2⟩
    | panic => rw [hp] at h2; exact ⟨rfl, h2⟩

theorem sepList1 {sep sep' : P β} {p q : P α} (h : Good k2 L p q) (hsep : Good k1 (L - k2) sep sep') :
    Good k2 L (sepList1 sep p) (sepList1 sep' q) := by
  intro s hs
  refine (h s hs).bind (k' := 0) fun a c r hc hk => ?_
  have hl : s.length = c.length + r.length := by simp [hc]
  have h6 := sepLoop hsep (h.weaken (by omega)) (r.length + 1) r (by omega) (by omega)
  exact h6.bind (k' := 0) (f := fun as r' => .ok (a :: as) r')
              (g := fun as r' => .ok (a :: as) r')
              (fun b c r _ _ => ⟨rfl, [], rfl, Nat.zero_le _⟩)

theorem sepList0 {sep sep' : P β} {p q : P α} (h : Good k2 L p q) (hsep : Good k1 (L - k2) sep sep') :
    Good 0 L (sepList0 sep p) (sepList0 sep' q) := by
  intro s hs
  have h1 := (sepList1 h hsep s hs).mono (Nat.zero_le _)
  have h2 := h s hs
  have e : ∀ (sep : P β) (p : P α), Pddl.sepList0 sep p s =
      match p s with | .err => .ok [] s | _ => Pddl.sepList1 sep p s := by
    intro sep p
    simp only [Pddl.sepList0, Pddl.sepList1]
    cases p s <;> rfl
  rw [e, e, ← h2.1]
  cases hp : p s with
  | err => exact ⟨rfl, [], rfl, Nat.zero_le _⟩
  | _ => exact h1

theorem stripPrefix_eq : ∀ {t s r : List Char}, stripPrefix t s = some r → s = t ++ r
  | [], s, r, h => by simpa [stripPrefix] using h
  | c :: t, [], r, h => by simp [stripPrefix] at h
  | c :: t, d :: s, r, h => by
    simp only [stripPrefix] at h
    split at h
    · rename_i hcd
      subst hcd
      rw [stripPrefix_eq h]; rfl
    · cases h

theorem tag (t : List Char) : Good t.length L (tag t) (tag t) := by
  intro s _
  refine ⟨rfl, ?_⟩
  simp only [Pddl.tag]
  cases h : stripPrefix t s with
  | none => trivial
  | some r => exact ⟨t, stripPrefix_eq h, Nat.le_refl _⟩

theorem char (c : Char) : Good 1 L (char c) (char c) := by
  intro s _
  refine ⟨rfl, ?_⟩
  cases s with
  | nil => trivial
  | cons d r =>
    simp only [Pddl.char]
    by_cases h : d = c
    · simp only [h, if_true]; exact ⟨[c], rfl, Nat.le_refl _⟩
    · simp only [h, if_false]; trivial

theorem takeWhile0 (f : Char → Bool) : Good 0 L (takeWhile0 f) (takeWhile0 f) := by
  intro s _
  exact ⟨rfl, s.takeWhile f, (List.takeWhile_append_dropWhile).symm, Nat.zero_le _⟩

theorem takeWhile1 (f : Char → Bool) : Good 1 L (takeWhile1 f) (takeWhile1 f) := by
  intro s _
  refine ⟨rfl, ?_⟩
  simp only [Pddl.takeWhile1]
  by_cases h : s.takeWhile f = []
  · simp only [h, if_true]; trivial
  · simp only [h, if_false]
    exact ⟨s.takeWhile f, (List.takeWhile_append_dropWhile).symm, List.length_pos_iff.mpr h⟩

theorem multispace0 : Good 0 L multispace0 multispace0 := takeWhile0 _
theorem multispace1 : Good 1 L multispace1 multispace1 := takeWhile1 _
theorem alpha1 : Good 1 L alpha1 alpha1 := takeWhile1 _
theorem digit1 : Good 1 L digit1 digit1 := takeWhile1 _
theorem isNot (cs) : Good 1 L (isNot cs) (isNot cs) := takeWhile1 _

theorem u64Loop (s : List Char) : ∀ v, Out 0 s (u64Loop v s) (u64Loop v s) := by
  induction s with
  | nil => intro v; exact ⟨rfl, [], rfl, Nat.zero_le _⟩
  | cons c s ih =>
    intro v
    refine ⟨rfl, ?_⟩
    unfold Pddl.u64Loop
    by_cases h : isDigit c
    · simp only [h, if_true]
      by_cases h2 : v * 10 + digitVal c < 2 ^ 64
      · simp only [h2, if_true]
        exact ((ih (v * 10 + digitVal c)).2.prepend (c := [c]) rfl).mono (Nat.zero_le _)
      · simp only [h2, if_false]; trivial
    · simp only [h]
      exact ⟨[], rfl, Nat.zero_le _⟩

theorem u64 : Good 0 L u64 u64 := by
  intro s _
  refine ⟨rfl, ?_⟩
  cases s with
  | nil => trivial
  | cons c s =>
    simp only [Pddl.u64]
    by_cases h : isDigit c
    · simp only [h, if_true]
      exact (u64Loop (c :: s) 0).2
    · simp only [h]; exact trivial

/-- The depth budget `length + 1` suffices, and `fix` is a fixed point. -/
theorem fixF {body : P α → P α}
    (h : ∀ L p q, Good k L p q → Good k (L + 1) (body p) (body q)) :
    ∀ n m, n ≤ m → Good k n (fixF body n) (fixF body m) := by
  intro n
  induction n with
  | zero => intro m _ s hs; omega
  | succ n ih =>
    intro m hm
    obtain ⟨m, rfl⟩ : ∃ m', m = m' + 1 := ⟨m - 1, by omega⟩
    exact h n _ _ (ih m (by omega))

theorem fixF_fix {body : P α → P α}
    (h : ∀ L p q, Good k L p q → Good k (L + 1) (body p) (body q)) (n : Nat) :
    Good k n (Pddl.fixF body n) (fix body) := by
  intro s hs
  have h1 := fixF h (s.length + 1) n (by omega) s (by omega)
  refine ⟨h1.1.symm, ?_⟩
  rw [← h1.1]; exact h1.2

theorem fix {body : P α → P α}
    (h : ∀ L p q, Good k L p q → Good k (L + 1) (body p) (body q)) :
    Good k L (fix body) (fix body) := by
  intro s _
  have h1 := fixF h (s.length + 1) (s.length + 1) (Nat.le_refl _) s (by omega)
  exact h1

theorem fix_eq {body : P α → P α}
    (h : ∀ L p q, Good k L p q → Good k (L + 1) (body p) (body q)) :
    Pddl.fix body = body (Pddl.fix body) := by
  funext s
  exact (h s.length _ _ (fixF_fix h s.length) s (by omega)).1

end Good
end Pddl
