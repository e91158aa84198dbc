import Verif.Meta.WorkPos
import Verif.Meta.WorkRun
import Verif.Meta.Sound
import Verif.Meta.Chain

/-!
# Meta-theory: parsers stay on their level of nesting
-/

namespace Pddl

/-- A success leaves a later position in the same form. -/
def Eats (p : K.P α) : Prop := ∀ s a r, p.run s = .ok a r → Lvl s r

/-- A success on a form consumes at least this form. -/
def Whole (p : K.P α) : Prop :=
  ∀ s t a r, Opens s t → p.run s = .ok a r → vis r + ext s t + 1 ≤ vis s

theorem plainText_mem {u : List Char} (h : plainText u = true) : ∀ c ∈ u, c ≠ '(' ∧ c ≠ ')' ∧ c ≠ ';' :=
  fun c hc => by
  simp only [plainText, List.all_eq_true, Bool.and_eq_true, bne_iff_ne] at h
  exact ⟨(h c hc).1.1, (h c hc).1.2, (h c hc).2⟩

theorem takeWhile1_rest {f : Char → Bool} {s v r : List Char} (h : takeWhile1 f s = .ok v r) :
    r = s.dropWhile f := by
  unfold takeWhile1 at h
  split at h
  · cases h
  · cases h; rfl

theorem isAlpha_plain {c : Char} (h : isAlpha c = true) : c ≠ '(' ∧ c ≠ ')' ∧ c ≠ ';' :=
  isWordChar_plain (isAlpha_word h)

theorem isDigit_plain {c : Char} (h : isDigit c = true) : c ≠ '(' ∧ c ≠ ')' ∧ c ≠ ';' :=
  isWordChar_plain (isDigit_word h)

theorem many0Loop_level {p : P α} (h : ∀ s a r, p s = .ok a r → Lvl s r) (n : Nat) :
    ∀ s as r, many0Loop p n s = .ok as r → Lvl s r := by
  induction n with
  | zero => intro s as r hs; cases hs
  | succ n ih =>
    intro s as r hs
    rw [many0Loop] at hs
    dsimp only at hs
    split at hs
    · cases hs; exact .refl _
    · rename_i a r1 h1
      split at hs
      · cases hs
      · cases h2 : many0Loop p n r1 with
        | ok bs r2 =>
          rw [h2] at hs
          simp only [Res.bind, Res.ok.injEq] at hs
          exact hs.2 ▸ (h _ _ _ h1).trans (ih _ _ _ h2)
        | _ => rw [h2] at hs; cases hs
    · cases hs
    · cases hs
    · cases hs

theorem sepLoop_level {q : P β} {p : P α} (hq : ∀ s a r, q s = .ok a r → Lvl s r)
    (h : ∀ s a r, p s = .ok a r → Lvl s r) (n : Nat) :
    ∀ s as r, sepLoop q p n s = .ok as r → Lvl s r := by
  induction n with
  | zero => intro s as r hs; cases hs
  | succ n ih =>
    intro s as r hs
    rw [sepLoop] at hs
    dsimp only at hs
    split at hs
    · cases hs; exact .refl _
    · rename_i v r1 h1
      split at hs
      · cases hs
      · split at hs
        · cases hs; exact .refl _
        · rename_i a r2 h2
          cases h3 : sepLoop q p n r2 with
          | ok bs r3 =>
            rw [h3] at hs
            simp only [Res.bind, Res.ok.injEq] at hs
            exact hs.2 ▸ (hq _ _ _ h1).trans ((h _ _ _ h2).trans (ih _ _ _ h3))
          | _ => rw [h3] at hs; cases hs
        · cases hs
        · cases hs
        · cases hs
    · cases hs
    · cases hs
    · cases hs

theorem u64Loop_level : ∀ (s : List Char) (v n : Nat) (r : List Char), u64Loop v s = .ok n r → Lvl s r
  | [], v, n, r, h => by cases h; exact .refl _
  | c :: s, v, n, r, h => by
    rw [u64Loop] at h
    split at h
    · rename_i hc
      dsimp only at h
      split at h
      · exact (Lvl.plain (isDigit_plain hc) s).trans (u64Loop_level s _ _ _ h)
      · cases h
    · cases h; exact .refl _

namespace Eats

theorem map {f : α → β} {p : K.P α} (h : Eats p) : Eats (K.map f p) := fun s b r hs => by
  obtain ⟨a, h1, _⟩ := map_ok hs
  exact h s a r h1

theorem mapExpect {f : α → Option β} {p : K.P α} (h : Eats p) : Eats (K.mapExpect f p) :=
  fun s b r hs => by
  obtain ⟨a, h1, _⟩ := mapExpect_inv hs
  exact h s a r h1

theorem value {b : β} {p : K.P α} (h : Eats p) : Eats (K.value b p) := fun s b r hs => by
  obtain ⟨a, h1, _⟩ := map_ok hs
  exact h s a r h1

theorem pair {p : K.P α} {q : K.P β} (h : Eats p) (h' : Eats q) : Eats (K.pair p q) :=
  fun s b r hs => by
  obtain ⟨_, h1, h2⟩ := pair_ok hs
  exact (h _ _ _ h1).trans (h' _ _ _ h2)

theorem preceded {p : K.P α} {q : K.P β} (h : Eats p) (h' : Eats q) : Eats (K.preceded p q) :=
  fun s b r hs => by
  obtain ⟨_, _, h1, h2⟩ := preceded_ok hs
  exact (h _ _ _ h1).trans (h' _ _ _ h2)

theorem terminated {p : K.P α} {q : K.P β} (h : Eats p) (h' : Eats q) : Eats (K.terminated p q) :=
  fun s b r hs => by
  obtain ⟨_, _, h1, h2⟩ := terminated_ok hs
  exact (h _ _ _ h1).trans (h' _ _ _ h2)

theorem alt_nil : Eats (K.alt ([] : List (K.P α))) := fun _ _ _ hs => by cases hs

theorem alt_cons {p : K.P α} {ps : List (K.P α)} (h : Eats p) (h' : Eats (K.alt ps)) :
    Eats (K.alt (p :: ps)) := fun s a r hs => by
  rcases alt_inv hs with h1 | h1
  · exact h _ _ _ h1
  · exact h' _ _ _ h1.2

theorem alt_one {p : K.P α} (h : Eats p) : Eats (K.alt [p]) := alt_cons h alt_nil

theorem opt {p : K.P α} (h : Eats p) : Eats (K.opt p) := fun s o r hs => by
  rcases opt_inv hs with ⟨a, h1, _⟩ | ⟨_, _, rfl⟩
  · exact h _ _ _ h1
  · exact .refl _

theorem recognize {p : K.P α} (h : Eats p) : Eats (K.recognize p) := fun s v r hs => by
  have hs : Pddl.recognize p.run s = .ok v r := hs
  unfold Pddl.recognize at hs
  cases hp : p.run s with
  | ok a r1 => rw [hp] at hs; cases hs; exact h _ _ _ hp
  | _ => rw [hp] at hs; cases hs

theorem many0 {p : K.P α} (h : Eats p) : Eats (K.many0 p) := fun s v r hs =>
  many0Loop_level h _ _ _ _ hs

theorem many01 {p : K.P α} (h : Eats p) : Eats (K.many01 p) := fun s v r hs => by
  have hs : Pddl.many01 p.run s = .ok v r := hs
  unfold Pddl.many01 at hs
  cases hp : p.run s with
  | ok a r1 =>
    rw [hp] at hs
    dsimp only at hs
    split at hs
    · cases hs
    · cases hs; exact h _ _ _ hp
  | err => rw [hp] at hs; cases hs; exact .refl _
  | _ => rw [hp] at hs; cases hs

theorem sepList1 {q : K.P β} {p : K.P α} (hq : Eats q) (h : Eats p) : Eats (K.sepList1 q p) :=
  fun s v r hs => by
  have hs : Pddl.sepList1 q.run p.run s = .ok v r := hs
  unfold Pddl.sepList1 at hs
  cases hp : p.run s with
  | ok a r1 =>
    rw [hp] at hs
    dsimp only [Res.bind] at hs
    cases h2 : sepLoop q.run p.run (r1.length + 1) r1 with
    | ok bs r2 =>
      rw [h2] at hs
      simp only [Res.ok.injEq] at hs
      exact hs.2 ▸ (h _ _ _ hp).trans (sepLoop_level hq h _ _ _ _ h2)
    | _ => rw [h2] at hs; cases hs
  | _ => rw [hp] at hs; cases hs

theorem sepList0 {q : K.P β} {p : K.P α} (hq : Eats q) (h : Eats p) : Eats (K.sepList0 q p) :=
  fun s v r hs => by
  have hs : Pddl.sepList0 q.run p.run s = .ok v r := hs
  unfold Pddl.sepList0 at hs
  cases hp : p.run s with
  | ok a r1 =>
    rw [hp] at hs
    dsimp only [Res.bind] at hs
    cases h2 : sepLoop q.run p.run (r1.length + 1) r1 with
    | ok bs r2 =>
      rw [h2] at hs
      simp only [Res.ok.injEq] at hs
      exact hs.2 ▸ (h _ _ _ hp).trans (sepLoop_level hq h _ _ _ _ h2)
    | _ => rw [h2] at hs; cases hs
  | err => rw [hp] at hs; cases hs; exact .refl _
  | _ => rw [hp] at hs; cases hs

theorem tag {t : List Char} (h : plainText t = true) : Eats (K.tag t) := fun s v r hs => by
  obtain ⟨_, rfl⟩ := tag_inv hs
  exact .append (plainText_mem h) r

theorem char {c : Char} (h : plainText [c] = true) : Eats (K.char c) := fun s v r hs => by
  have := char_inv hs
  subst this
  exact .plain (plainText_mem h c (by simp)) r

theorem multispace0 : Eats K.multispace0 := fun s v r hs => by
  have hs : Pddl.multispace0 s = .ok v r := hs
  unfold Pddl.multispace0 takeWhile0 at hs
  cases hs
  exact .dropWhile (fun _ => isSpace_plain) s

theorem multispace1 : Eats K.multispace1 := fun s v r hs =>
  takeWhile1_rest hs ▸ .dropWhile (fun _ => isSpace_plain) s

theorem alpha1 : Eats K.alpha1 := fun s v r hs =>
  takeWhile1_rest hs ▸ .dropWhile (fun _ => isAlpha_plain) s

theorem digit1 : Eats K.digit1 := fun s v r hs =>
  takeWhile1_rest hs ▸ .dropWhile (fun _ => isDigit_plain) s

theorem u64 : Eats K.u64 := fun s n r hs => by
  have hs : Pddl.u64 s = .ok n r := hs
  cases s with
  | nil => cases hs
  | cons c s =>
    rw [Pddl.u64] at hs
    by_cases hc : isDigit c = true
    · rw [if_pos hc] at hs; exact u64Loop_level _ _ _ _ hs
    · rw [if_neg hc] at hs; cases hs

theorem ifOk {p : K.P α} {f : α → β} {k : K.P β} (h : Eats p) (h' : Eats k) :
    Eats (K.ifOk p f k) := fun s b r hs => by
  rcases ifOk_inv hs with ⟨a, h1, _⟩ | h1
  · exact h _ _ _ h1
  · exact h' _ _ _ h1

theorem failure : Eats (K.failure : K.P α) := fun _ _ _ hs => by cases hs
theorem error : Eats (K.error : K.P α) := fun _ _ _ hs => by cases hs

theorem fixF {body : K.P α → K.P α} (h : ∀ p, Eats p → Eats (body p)) : ∀ n, Eats (K.fixF body n)
  | 0 => fun _ _ _ hs => by cases hs
  | n + 1 => h _ (fixF h n)

theorem fix {body : K.P α → K.P α} (h : ∀ p, Eats p → Eats (body p)) : Eats (K.fix body) :=
  fun s a r hs => fixF h (s.length + 1) s a r hs

theorem ignoreEolComment : Eats K.ignoreEolComment := fun s a r hs => by
  rw [K.ignoreEolComment_run, eol_eq] at hs
  cases hs
  exact .skipC s

theorem ws {p : K.P α} (h : Eats p) : Eats (K.ws p) :=
  preceded (preceded multispace0 ignoreEolComment) h

theorem ws2 {p : K.P α} (h : Eats p) : Eats (K.ws2 p) :=
  preceded (preceded multispace0 ignoreEolComment)
    (terminated h (preceded multispace0 ignoreEolComment))

theorem spaceSeparatedList0 {p : K.P α} (h : Eats p) : Eats (K.spaceSeparatedList0 p) :=
  ws (sepList0 multispace1 (preceded ignoreEolComment h))

theorem spaceSeparatedList1 {p : K.P α} (h : Eats p) : Eats (K.spaceSeparatedList1 p) :=
  ws (sepList1 multispace1 (preceded ignoreEolComment h))

end Eats

/-- What a form leaves. -/
theorem prefixExpr_after {k : List Char} {p : K.P α} (hk : plainText k = true) (h : Eats p) {s a r}
    (hs : (K.prefixExpr k p).run s = .ok a r) :
    ∃ t, Opens s t ∧ Lvl s r ∧ vis r + ext s t + 1 ≤ vis s := by
  have hs : Pddl.prefixExpr k p.run s = .ok a r := by rw [← K.prefixExpr_run]; exact hs
  unfold Pddl.prefixExpr delimited at hs
  obtain ⟨_, r1, h1, h2⟩ := preceded_ok hs
  obtain ⟨_, y, h3, h4⟩ := terminated_ok h2
  obtain ⟨_, r2, h5, h6⟩ := preceded_ok h1
  rw [ws_eq] at h3 h4 h5
  obtain ⟨_, h5⟩ := tag_inv h5
  obtain ⟨_, h6⟩ := tag_inv h6
  obtain ⟨_, h4⟩ := tag_inv h4
  have ho : Opens s r2 := h5
  have hl : Lvl r2 (skip y) := by
    rw [h6]
    exact (Lvl.append (plainText_mem hk) r1).trans
      ((Lvl.skip r1).trans ((h _ _ _ h3).trans (Lvl.skip y)))
  exact ⟨r2, ho, ho.after hl h4⟩

theorem parens_after {p : K.P α} (h : Eats p) {s a r} (hs : (K.parens p).run s = .ok a r) :
    ∃ t, Opens s t ∧ Lvl s r ∧ vis r + ext s t + 1 ≤ vis s := by
  have hs : Pddl.parens p.run s = .ok a r := by rw [← K.parens_run]; exact hs
  unfold Pddl.parens delimited at hs
  rw [eolp_eq] at hs
  obtain ⟨_, r1, h1, h2⟩ := preceded_ok hs
  obtain ⟨_, y, h3, h4⟩ := terminated_ok h2
  rw [ws_eq] at h3
  have h1 := char_inv h1
  have h4 := char_inv h4
  have ho : Opens s r1 := by
    rw [Opens, ← skip_skipC, h1]
    exact skip_of_head (by intro c r h; cases h; rfl) |>.trans (skipC_of_ne (by decide) _)
  exact ⟨r1, ho, ho.after ((Lvl.skip r1).trans (h _ _ _ h3)) h4⟩

/-- Every success is on a form and consumes at least this form. -/
def Formal (p : K.P α) : Prop :=
  ∀ s a r, p.run s = .ok a r → ∃ t, Opens s t ∧ Lvl s r ∧ vis r + ext s t + 1 ≤ vis s

theorem Formal.eats {p : K.P α} (h : Formal p) : Eats p := fun s a r hs => by
  obtain ⟨_, _, h1, _⟩ := h s a r hs
  exact h1

theorem Formal.whole {p : K.P α} (h : Formal p) : Whole p := fun s t a r ho hs => by
  obtain ⟨t', h1, _, h2⟩ := h s a r hs
  rw [ho.unique h1]
  exact h2

theorem Formal.prefixExpr {k : List Char} {p : K.P α} (hk : plainText k = true) (h : Eats p) :
    Formal (K.prefixExpr k p) := fun _ _ _ hs => prefixExpr_after hk h hs

theorem Formal.parens {p : K.P α} (h : Eats p) : Formal (K.parens p) :=
  fun _ _ _ hs => parens_after h hs

theorem Eats.prefixExpr {k : List Char} {p : K.P α} (hk : plainText k = true) (h : Eats p) :
    Eats (K.prefixExpr k p) := (Formal.prefixExpr hk h).eats

theorem Eats.parens {p : K.P α} (h : Eats p) : Eats (K.parens p) := (Formal.parens h).eats

theorem open_opens (t : List Char) : Opens ('(' :: t) t :=
  skip_of_head (by intro c r h; cases h; rfl) |>.trans (skipC_of_ne (by decide) _)

/-- `( p )` without layout before the parentheses. -/
theorem Formal.bare {p : K.P α} (h : Eats p) :
    Formal (K.delimited (K.tag c!"(") p (K.tag c!")")) := fun s a r hs => by
  obtain ⟨_, r1, h1, h2⟩ := preceded_ok hs
  obtain ⟨_, y, h3, h4⟩ := terminated_ok h2
  obtain ⟨_, h1⟩ := tag_inv h1
  obtain ⟨_, h4⟩ := tag_inv h4
  subst h1
  exact ⟨r1, open_opens r1, (open_opens r1).after (h _ _ _ h3) h4⟩

/-- The form of equalities. -/
theorem Formal.equality {p : K.P α} (h : Eats p) :
    Formal (K.delimited (K.ws (K.tag c!"(=")) p (K.ws (K.char ')'))) := fun s a r hs => by
  obtain ⟨_, r1, h1, h2⟩ := preceded_ok hs
  obtain ⟨_, y, h3, h4⟩ := terminated_ok h2
  rw [K.ws_run, ws_eq] at h1 h4
  obtain ⟨_, h1⟩ := tag_inv h1
  have h4 := char_inv h4
  have ho : Opens s ('=' :: r1) := h1
  exact ⟨_, ho, ho.after ((Lvl.plain (by decide) r1).trans ((h _ _ _ h3).trans (Lvl.skip y))) h4⟩

/-- The empty form. -/
theorem Formal.unit : Formal (K.tag c!"()") := fun s a r hs => by
  obtain ⟨_, h1⟩ := tag_inv hs
  subst h1
  exact ⟨_, open_opens _, (open_opens (')' :: r)).after (.refl _) rfl⟩

namespace Formal

theorem map {f : α → β} {p : K.P α} (h : Formal p) : Formal (K.map f p) := fun s b r hs => by
  obtain ⟨a, h1, _⟩ := map_ok hs
  exact h s a r h1

end Formal

theorem Eats.emptyOr {p : K.P α} (h : Eats p) : Eats (K.emptyOr p) :=
  .alt_cons (.map Formal.unit.eats) (.alt_one h.map)

namespace Whole

theorem map {f : α → β} {p : K.P α} (h : Whole p) : Whole (K.map f p) := fun s t b r ho hs => by
  obtain ⟨a, h1, _⟩ := map_ok hs
  exact h s t a r ho h1

theorem mapExpect {f : α → Option β} {p : K.P α} (h : Whole p) : Whole (K.mapExpect f p) :=
  fun s t b r ho hs => by
  obtain ⟨a, h1, _⟩ := mapExpect_inv hs
  exact h s t a r ho h1

theorem alt_nil : Whole (K.alt ([] : List (K.P α))) := fun _ _ _ _ _ hs => by cases hs

theorem alt_cons {p : K.P α} {ps : List (K.P α)} (h : Whole p) (h' : Whole (K.alt ps)) :
    Whole (K.alt (p :: ps)) := fun s t a r ho hs => by
  rcases alt_inv hs with h1 | h1
  · exact h _ _ _ _ ho h1
  · exact h' _ _ _ _ ho h1.2

theorem alt_one {p : K.P α} (h : Whole p) : Whole (K.alt [p]) := alt_cons h alt_nil

theorem ifOk {p : K.P α} {f : α → β} {k : K.P β} (h : Whole p) (h' : Whole k) :
    Whole (K.ifOk p f k) := fun s t b r ho hs => by
  rcases ifOk_inv hs with ⟨a, h1, _⟩ | h1
  · exact h _ _ _ _ ho h1
  · exact h' _ _ _ _ ho h1

theorem failure : Whole (K.failure : K.P α) := fun _ _ _ _ _ hs => by cases hs
theorem error : Whole (K.error : K.P α) := fun _ _ _ _ _ hs => by cases hs

/-- Parsers that do not accept an opening parenthesis. -/
theorem of_not {p : K.P α} (h : ∀ s t a r, Opens s t → p.run s ≠ .ok a r) : Whole p :=
  fun s t a r ho hs => absurd hs (h s t a r ho)

theorem prefixExpr {k : List Char} {p : K.P α} (hk : plainText k = true) (h : Eats p) :
    Whole (K.prefixExpr k p) := (Formal.prefixExpr hk h).whole

theorem parens {p : K.P α} (h : Eats p) : Whole (K.parens p) := (Formal.parens h).whole

end Whole

end Pddl
