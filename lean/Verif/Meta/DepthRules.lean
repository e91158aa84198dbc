import Verif.Meta.DepthRun
import Verif.Meta.WorkEats

/-!
# Meta-theory: how deep the recursion of a parser goes
-/

namespace Pddl

/-- The parser with the depth as a count. -/
def D.P.k (p : D.P α) : K.P α := ⟨p.run, p.depth⟩

/-- On texts with fewer than `L` nested parentheses and at most `M` comments in a row, the recursion
of `p` is at most `m` deep; a success stays on the same level of nesting. -/
def Deep (M L m : Nat) (p : D.P α) : Prop :=
  Eats p.k ∧ ∀ s, nest s < L → longestComments s ≤ M → p.depth s ≤ m

namespace Deep

theorem mono {p : D.P α} (h : Deep M L m p) (hL : L' ≤ L) (hm : m ≤ m') : Deep M L' m' p :=
  ⟨h.1, fun s hs hc => Nat.le_trans (h.2 s (by omega) hc) hm⟩

theorem map {f : α → β} {p : D.P α} (h : Deep M L m p) : Deep M L m (D.map f p) :=
  ⟨Eats.map (p := p.k) h.1, h.2⟩

theorem mapExpect {f : α → Option β} {p : D.P α} (h : Deep M L m p) :
    Deep M L m (D.mapExpect f p) := ⟨Eats.mapExpect (p := p.k) h.1, h.2⟩

theorem value {b : β} {p : D.P α} (h : Deep M L m p) : Deep M L m (D.value b p) :=
  ⟨Eats.value (p := p.k) h.1, h.2⟩

/-- A call after a success. -/
theorem next {p : D.P α} {f : List Char → Nat} (h : Eats p.k)
    (hf : ∀ s, nest s < L → longestComments s ≤ M → f s ≤ m) {s : List Char} (hs : nest s < L)
    (hc : longestComments s ≤ M) : (p.run s).after f ≤ m := by
  cases hp : p.run s with
  | ok a r =>
    have hl : Lvl s r := h s a r hp
    exact hf r (Nat.lt_of_le_of_lt hl.nest hs) (Nat.le_trans hl.coms hc)
  | _ => exact Nat.zero_le m

theorem pair {p : D.P α} {q : D.P β} (h : Deep M L m p) (h' : Deep M L m q) :
    Deep M L m (D.pair p q) :=
  ⟨Eats.pair (p := p.k) (q := q.k) h.1 h'.1, fun s hs hc =>
    Nat.max_le.2 ⟨h.2 s hs hc, next h.1 h'.2 hs hc⟩⟩

theorem preceded {p : D.P α} {q : D.P β} (h : Deep M L m p) (h' : Deep M L m q) :
    Deep M L m (D.preceded p q) :=
  ⟨Eats.preceded (p := p.k) (q := q.k) h.1 h'.1, fun s hs hc =>
    Nat.max_le.2 ⟨h.2 s hs hc, next h.1 h'.2 hs hc⟩⟩

theorem terminated {p : D.P α} {q : D.P β} (h : Deep M L m p) (h' : Deep M L m q) :
    Deep M L m (D.terminated p q) :=
  ⟨Eats.terminated (p := p.k) (q := q.k) h.1 h'.1, fun s hs hc =>
    Nat.max_le.2 ⟨h.2 s hs hc, next h.1 h'.2 hs hc⟩⟩

theorem alt_nil : Deep M L m (D.alt ([] : List (D.P α))) :=
  ⟨Eats.alt_nil, fun _ _ _ => Nat.zero_le m⟩

theorem alt_cons {p : D.P α} {ps : List (D.P α)} (h : Deep M L m p) (h' : Deep M L m (D.alt ps)) :
    Deep M L m (D.alt (p :: ps)) := by
  refine ⟨fun s a r hs => ?_, fun s hs hc => Nat.max_le.2 ⟨h.2 s hs hc, ?_⟩⟩
  · rcases alt_inv (show Pddl.alt (p.run :: ps.map D.P.run) s = .ok a r from hs) with h1 | h1
    · exact h.1 _ _ _ h1
    · exact h'.1 _ _ _ h1.2
  · cases hp : p.run s with
    | err => exact h'.2 s hs hc
    | _ => exact Nat.zero_le m

theorem alt_one {p : D.P α} (h : Deep M L m p) : Deep M L m (D.alt [p]) := alt_cons h alt_nil

theorem opt {p : D.P α} (h : Deep M L m p) : Deep M L m (D.opt p) :=
  ⟨Eats.opt (p := p.k) h.1, h.2⟩

theorem recognize {p : D.P α} (h : Deep M L m p) : Deep M L m (D.recognize p) :=
  ⟨Eats.recognize (p := p.k) h.1, h.2⟩

theorem many0 {p : D.P α} (h : Deep M L m p) : Deep M L m (D.many0 p) := by
  refine ⟨Eats.many0 (p := p.k) h.1, fun s hs hc => ?_⟩
  show D.many0Depth p (s.length + 1) s ≤ m
  generalize s.length + 1 = n
  induction n generalizing s with
  | zero => exact Nat.zero_le m
  | succ n ih =>
    refine Nat.max_le.2 ⟨h.2 s hs hc, ?_⟩
    cases hp : p.run s with
    | ok a r =>
      have hl : Lvl s r := h.1 s a r hp
      simp only [Res.after]
      split
      · exact Nat.zero_le m
      · exact ih r (Nat.lt_of_le_of_lt hl.nest hs) (Nat.le_trans hl.coms hc)
    | _ => exact Nat.zero_le m

theorem many01 {p : D.P α} (h : Deep M L m p) : Deep M L m (D.many01 p) :=
  ⟨Eats.many01 (p := p.k) h.1, h.2⟩

theorem sepLoop {q : D.P β} {p : D.P α} (hq : Deep M L m q) (h : Deep M L m p) (n : Nat) :
    ∀ s, nest s < L → longestComments s ≤ M → D.sepDepth q p n s ≤ m := by
  induction n with
  | zero => exact fun _ _ _ => Nat.zero_le m
  | succ n ih =>
    intro s hs hc
    refine Nat.max_le.2 ⟨hq.2 s hs hc, ?_⟩
    cases hp : q.run s with
    | ok a r =>
      have hl : Lvl s r := hq.1 s a r hp
      have hs' := Nat.lt_of_le_of_lt hl.nest hs
      have hc' := Nat.le_trans hl.coms hc
      simp only [Res.after]
      split
      · exact Nat.zero_le m
      · exact Nat.max_le.2 ⟨h.2 r hs' hc', next h.1 ih hs' hc'⟩
    | _ => exact Nat.zero_le m

theorem sepList0 {q : D.P β} {p : D.P α} (hq : Deep M L m q) (h : Deep M L m p) :
    Deep M L m (D.sepList0 q p) :=
  ⟨Eats.sepList0 (q := q.k) (p := p.k) hq.1 h.1, fun s hs hc =>
    Nat.max_le.2 ⟨h.2 s hs hc, next h.1 (fun r => sepLoop hq h (r.length + 1) r) hs hc⟩⟩

theorem sepList1 {q : D.P β} {p : D.P α} (hq : Deep M L m q) (h : Deep M L m p) :
    Deep M L m (D.sepList1 q p) :=
  ⟨Eats.sepList1 (q := q.k) (p := p.k) hq.1 h.1, fun s hs hc =>
    Nat.max_le.2 ⟨h.2 s hs hc, next h.1 (fun r => sepLoop hq h (r.length + 1) r) hs hc⟩⟩

theorem tag {t : List Char} (h : plainText t = true) : Deep M L m (D.tag t) :=
  ⟨Eats.tag h, fun _ _ _ => Nat.zero_le m⟩

theorem char {c : Char} (h : plainText [c] = true) : Deep M L m (D.char c) :=
  ⟨Eats.char h, fun _ _ _ => Nat.zero_le m⟩

theorem multispace0 : Deep M L m D.multispace0 := ⟨Eats.multispace0, fun _ _ _ => Nat.zero_le m⟩
theorem multispace1 : Deep M L m D.multispace1 := ⟨Eats.multispace1, fun _ _ _ => Nat.zero_le m⟩
theorem alpha1 : Deep M L m D.alpha1 := ⟨Eats.alpha1, fun _ _ _ => Nat.zero_le m⟩
theorem digit1 : Deep M L m D.digit1 := ⟨Eats.digit1, fun _ _ _ => Nat.zero_le m⟩
theorem u64 : Deep M L m D.u64 := ⟨Eats.u64, fun _ _ _ => Nat.zero_le m⟩

theorem ifOk {p : D.P α} {f : α → β} {k : D.P β} (h : Deep M L m p) (h' : Deep M L m k) :
    Deep M L m (D.ifOk p f k) := by
  refine ⟨Eats.ifOk (p := p.k) (k := k.k) h.1 h'.1, fun s hs hc =>
    Nat.max_le.2 ⟨h.2 s hs hc, ?_⟩⟩
  cases hp : p.run s with
  | err => exact h'.2 s hs hc
  | fail => exact h'.2 s hs hc
  | _ => exact Nat.zero_le m

theorem failure : Deep M L m (D.failure : D.P α) := ⟨Eats.failure, fun _ _ _ => Nat.zero_le m⟩
theorem error : Deep M L m (D.error : D.P α) := ⟨Eats.error, fun _ _ _ => Nat.zero_le m⟩

/-- Recursive calls on a deeper level of nesting. -/
theorem fixF {body : D.P α → D.P α} {c : Nat}
    (h : ∀ L p, Deep M L (L + c + 1) p → Deep M (L + 1) (L + c + 1) (body p)) :
    ∀ n L, Deep M L (L + c + 1) (D.fixF body n)
  | 0, L => ⟨fun _ _ _ hs => (nomatch hs), fun _ _ _ => Nat.zero_le _⟩
  | n + 1, 0 => ⟨(h 0 _ (fixF h n 0)).1, fun s hs _ => by omega⟩
  | n + 1, L + 1 => by
    have h1 := h L _ (fixF h n L)
    refine ⟨h1.1, fun s hs hc => ?_⟩
    have := h1.2 s hs hc
    simp only [D.fixF]
    omega

theorem fix {body : D.P α → D.P α} {c : Nat}
    (h : ∀ L p, Deep M L (L + c + 1) p → Deep M (L + 1) (L + c + 1) (body p)) (L : Nat) :
    Deep M L (L + c + 1) (D.fix body) :=
  ⟨fun s => (fixF h (s.length + 1) L).1 s, fun s => (fixF h (s.length + 1) L).2 s⟩

end Deep

/-! ## Layout -/

theorem commentRun_space {c : Char} (h : isSpace c = true) (s : List Char) :
    commentRun (c :: s) = commentRun s := by
  have h : isBlank c = true := h
  rw [commentRun, if_pos h]

theorem commentRun_dropWhile : ∀ s : List Char, commentRun (s.dropWhile isSpace) = commentRun s
  | [] => rfl
  | c :: s => by
    by_cases h : isSpace c = true
    · rw [List.dropWhile_cons_of_pos h, commentRun_space h, commentRun_dropWhile s]
    · rw [List.dropWhile_cons_of_neg h]

theorem commentRun_comment (s : List Char) :
    commentRun (';' :: s) = 1 + commentRun (s.dropWhile fun c => !isNewline c) := by
  rw [commentRun, if_neg (by decide), if_pos rfl]

theorem commentRun_le : ∀ s : List Char, commentRun s ≤ longestComments s
  | [] => by simp [commentRun, longestComments]
  | c :: s => Nat.le_max_left _ _

theorem fixF_comment_depth : ∀ n s,
    (D.fixF D.ignoreEolCommentBody n).depth s ≤ 1 + commentRun s
  | 0, s => Nat.zero_le _
  | n + 1, s => by
    have ih := fixF_comment_depth n
    simp only [D.fixF, D.ignoreEolCommentBody, D.value, D.opt, D.terminated, D.pair, D.char,
      D.isNot, D.multispace0]
    refine Nat.add_le_add_left ?_ 1
    cases s with
    | nil => exact Nat.zero_le _
    | cons c s =>
      by_cases hc : c = ';'
      · subst hc
        have h1 : Pddl.char ';' (';' :: s) = .ok ';' s := by simp [Pddl.char]
        by_cases ht : s.takeWhile (fun c => !isNewline c) = []
        · have h2 : Pddl.pair (Pddl.char ';') (Pddl.isNot ['\r', '\n']) (';' :: s) = .err := by
            simp only [Pddl.pair, h1, Res.bind, Pddl.isNot, isNot_newline, Pddl.takeWhile1, ht,
              if_true]
          rw [h1, h2]
          exact Nat.zero_le _
        · have h2 : Pddl.pair (Pddl.char ';') (Pddl.isNot ['\r', '\n']) (';' :: s) =
              .ok (';', s.takeWhile (fun c => !isNewline c))
                (s.dropWhile (fun c => !isNewline c)) := by
            simp only [Pddl.pair, h1, Res.bind, Pddl.isNot, isNot_newline, Pddl.takeWhile1, ht,
              if_false]
          rw [h1, h2, commentRun_comment]
          simp only [Res.after, Pddl.multispace0, Pddl.takeWhile0]
          have := ih ((s.dropWhile (fun c => !isNewline c)).dropWhile isSpace)
          rw [commentRun_dropWhile] at this
          omega
      · have h1 : Pddl.char ';' (c :: s) = .err := by simp [Pddl.char, hc]
        have h2 : Pddl.pair (Pddl.char ';') (Pddl.isNot ['\r', '\n']) (c :: s) = .err := by
          simp only [Pddl.pair, h1, Res.bind]
        rw [h1, h2]
        exact Nat.zero_le _

theorem comment_depth (s : List Char) : D.ignoreEolComment.depth s ≤ 1 + commentRun s :=
  fixF_comment_depth (s.length + 1) s

theorem D.ignoreEolComment_ok (s : List Char) : D.ignoreEolComment.run s = .ok () (skipC s) := by
  rw [D.ignoreEolComment_run, eol_eq]

namespace Deep

theorem ignoreEolComment (hm : 1 + M ≤ m) : Deep M L m D.ignoreEolComment := by
  refine ⟨fun s a r hs => ?_, fun s _ hc => ?_⟩
  · have hs : D.ignoreEolComment.run s = .ok a r := hs
    rw [D.ignoreEolComment_ok] at hs
    cases hs
    exact .skipC s
  · have := comment_depth s
    have := commentRun_le s
    omega

theorem layout (hm : 1 + M ≤ m) : Deep M L m (D.preceded D.multispace0 D.ignoreEolComment) :=
  preceded multispace0 (ignoreEolComment hm)

theorem ws {p : D.P α} (hm : 1 + M ≤ m) (h : Deep M L m p) : Deep M L m (D.ws p) :=
  preceded (layout hm) h

theorem ws2 {p : D.P α} (hm : 1 + M ≤ m) (h : Deep M L m p) : Deep M L m (D.ws2 p) :=
  preceded (layout hm) (terminated h (layout hm))

theorem spaceSeparatedList0 {p : D.P α} (hm : 1 + M ≤ m) (h : Deep M L m p) :
    Deep M L m (D.spaceSeparatedList0 p) :=
  ws hm (sepList0 multispace1 (preceded (ignoreEolComment hm) h))

theorem spaceSeparatedList1 {p : D.P α} (hm : 1 + M ≤ m) (h : Deep M L m p) :
    Deep M L m (D.spaceSeparatedList1 p) :=
  ws hm (sepList1 multispace1 (preceded (ignoreEolComment hm) h))

/-- Layout and a tag. -/
theorem ws_tag_depth {t s : List Char} (hm : 1 + M ≤ m) (hc : longestComments s ≤ M) :
    (D.ws (D.tag t)).depth s ≤ m := by
  refine Nat.max_le.2 ⟨(layout (L := nest s + 1) hm).2 s (by omega) hc, ?_⟩
  cases (D.preceded D.multispace0 D.ignoreEolComment).run s <;> exact Nat.zero_le m

theorem ws_char_depth {c : Char} {s : List Char} (hm : 1 + M ≤ m) (hc : longestComments s ≤ M) :
    (D.ws (D.char c)).depth s ≤ m := by
  refine Nat.max_le.2 ⟨(layout (L := nest s + 1) hm).2 s (by omega) hc, ?_⟩
  cases (D.preceded D.multispace0 D.ignoreEolComment).run s <;> exact Nat.zero_le m

/-- The inside of a form is on a deeper level. -/
theorem prefixExpr {k : List Char} {p : D.P α} (hk : plainText k = true) (hm : 1 + M ≤ m)
    (h : Deep M (L - 1) m p) : Deep M L m (D.prefixExpr k p) := by
  have hw : Deep M (L - 1) m (D.ws p) := ws hm h
  refine ⟨?_, fun s hs hc => ?_⟩
  · have := Eats.prefixExpr (p := p.k) hk h.1
    intro s a r hr
    refine this s a r ?_
    rw [K.prefixExpr_run]
    have hr : (D.prefixExpr k p).run s = .ok a r := hr
    rw [D.prefixExpr_run] at hr
    exact hr
  · refine Nat.max_le.2 ⟨Nat.max_le.2 ⟨ws_tag_depth hm hc, ?_⟩, ?_⟩
    · cases (D.ws (D.tag c!"(")).run s <;> exact Nat.zero_le m
    · cases h1 : (D.preceded (D.ws (D.tag c!"(")) (D.tag k)).run s with
      | ok a r1 =>
        obtain ⟨_, r2, h5, h6⟩ := preceded_ok h1
        rw [D.ws_run, ws_eq] at h5
        obtain ⟨_, h5⟩ := tag_inv h5
        obtain ⟨_, h6⟩ := tag_inv h6
        have ho : Opens s r2 := h5
        have hl : Lvl r2 r1 := by rw [h6]; exact Lvl.append (plainText_mem hk) r1
        have hn : nest r1 < L - 1 := by have := ho.nest; have := hl.nest; omega
        have hc1 : longestComments r1 ≤ M := by have := ho.coms; have := hl.coms; omega
        refine Nat.max_le.2 ⟨hw.2 r1 hn hc1, ?_⟩
        exact next hw.1 (fun y _ hy => ws_tag_depth hm hy) hn hc1
      | _ => exact Nat.zero_le m

theorem parens {p : D.P α} (hm : 1 + M ≤ m) (h : Deep M (L - 1) m p) :
    Deep M L m (D.parens p) := by
  have hw : Deep M (L - 1) m (D.ws p) := ws hm h
  refine ⟨?_, fun s hs hc => ?_⟩
  · have := Eats.parens (p := p.k) h.1
    intro s a r hr
    refine this s a r ?_
    rw [K.parens_run]
    have hr : (D.parens p).run s = .ok a r := hr
    rw [D.parens_run] at hr
    exact hr
  · refine Nat.max_le.2 ⟨(ignoreEolComment hm).2 s hs hc, ?_⟩
    rw [D.ignoreEolComment_ok]
    refine Nat.max_le.2 ⟨Nat.zero_le m, ?_⟩
    cases h1 : (D.char '(').run (skipC s) with
    | ok a r1 =>
      have h1 : skipC s = '(' :: r1 := char_inv h1
      have hl := Lvl.skipC s
      rw [h1] at hl
      have hn : nest r1 < L - 1 := by have := hl.nest; rw [nest_open] at this; omega
      have hc1 : longestComments r1 ≤ M :=
        Nat.le_trans (longestComments_suffix (List.suffix_cons _ r1)) (Nat.le_trans hl.coms hc)
      refine Nat.max_le.2 ⟨hw.2 r1 hn hc1, ?_⟩
      exact next (m := m) hw.1 (fun y _ _ => Nat.zero_le m) hn hc1
    | _ => exact Nat.zero_le m

/-- `( p )` without layout before the parentheses. -/
theorem bare {p : D.P α} (h : Deep M (L - 1) m p) :
    Deep M L m (D.delimited (D.tag c!"(") p (D.tag c!")")) := by
  refine ⟨(Formal.bare (p := p.k) h.1).eats, fun s hs hc => ?_⟩
  refine Nat.max_le.2 ⟨Nat.zero_le m, ?_⟩
  cases h1 : (D.tag c!"(").run s with
  | ok a r1 =>
    obtain ⟨_, h1⟩ := tag_inv h1
    have h1 : s = '(' :: r1 := h1
    subst h1
    rw [nest_open] at hs
    have hn : nest r1 < L - 1 := by omega
    have hc1 : longestComments r1 ≤ M :=
      Nat.le_trans (longestComments_suffix (List.suffix_cons _ r1)) hc
    refine Nat.max_le.2 ⟨h.2 r1 hn hc1, ?_⟩
    exact next (m := m) h.1 (fun y _ _ => Nat.zero_le m) hn hc1
  | _ => exact Nat.zero_le m

/-- The form of equalities. -/
theorem equality {p : D.P α} (hm : 1 + M ≤ m) (h : Deep M (L - 1) m p) :
    Deep M L m (D.delimited (D.ws (D.tag c!"(=")) p (D.ws (D.char ')'))) := by
  refine ⟨?_, fun s hs hc => ?_⟩
  · have := (Formal.equality (p := p.k) h.1).eats
    intro s a r hr
    refine this s a r ?_
    have hr : (D.delimited (D.ws (D.tag c!"(=")) p (D.ws (D.char ')'))).run s = .ok a r := hr
    simp only [D.delimited, D.preceded, D.terminated, D.ws_run] at hr
    simp only [K.delimited, K.preceded, K.terminated, K.ws_run]
    exact hr
  · refine Nat.max_le.2 ⟨ws_tag_depth hm hc, ?_⟩
    cases h1 : (D.ws (D.tag c!"(=")).run s with
    | ok a r1 =>
      rw [D.ws_run, ws_eq] at h1
      obtain ⟨_, h1⟩ := tag_inv h1
      have ho : Opens s ('=' :: r1) := h1
      have hl : Lvl ('=' :: r1) r1 := Lvl.plain (by decide) r1
      have hn : nest r1 < L - 1 := by have := ho.nest; have := hl.nest; omega
      have hc1 : longestComments r1 ≤ M := by have := ho.coms; have := hl.coms; omega
      refine Nat.max_le.2 ⟨h.2 r1 hn hc1, ?_⟩
      exact next h.1 (fun y _ hy => ws_char_depth hm hy) hn hc1
    | _ => exact Nat.zero_le m

/-- The empty form. -/
theorem unit : Deep M L m (D.tag c!"()") := ⟨Formal.unit.eats, fun _ _ _ => Nat.zero_le m⟩

theorem emptyOr {p : D.P α} (h : Deep M L m p) : Deep M L m (D.emptyOr p) :=
  alt_cons (map unit) (alt_one (map h))

theorem alt_tags : ∀ ks : List (List Char), (∀ k ∈ ks, plainText k = true) →
    Deep M L m (D.alt (ks.map D.tag))
  | [], _ => alt_nil
  | k :: ks, h => alt_cons (tag (h k (by simp))) (alt_tags ks fun x hx => h x (by simp [hx]))

end Deep
end Pddl
