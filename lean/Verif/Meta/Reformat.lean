import Verif.Spec.Grammar
import Verif.Spec.Reformat
import Verif.Meta.Sections

/-!
# Reformatting keeps the spelled value

`reformat` as a transducer (`canon`), and what it does to layout, words and forms.
-/

namespace Pddl

/-- Where the transducer is: after `(` or at the beginning, inside a word, after a complete token. -/
inductive RSt | start | word | sep
  deriving DecidableEq

/-- The state after layout. -/
def RSt.blank : RSt → RSt
  | .start => .start
  | _ => .sep

/-- Output before a parenthesis or word that begins in the state. -/
def RSt.pre : RSt → List Char
  | .start => []
  | _ => [' ']

/-- The transducer; the flag says whether it is inside a comment. -/
def canon : Bool → RSt → List Char → List Char
  | _, _, [] => []
  | true, p, c :: r => canon (!isNewline c) p r
  | false, p, c :: r =>
    if isBlank c then canon false p.blank r
    else if c = ';' then canon true p.blank r
    else if c = '(' then p.pre ++ c :: canon false .start r
    else if c = ')' then c :: canon false .sep r
    else if p = .word then c :: canon false .word r
    else p.pre ++ c :: canon false .word r

/-- Characters of tokens other than parentheses. -/
def isPlain (c : Char) : Bool := !isBlank c && c != ';' && c != '(' && c != ')'

theorem isPlain_iff {c : Char} :
    isPlain c = true ↔ isBlank c = false ∧ c ≠ ';' ∧ c ≠ '(' ∧ c ≠ ')' := by
  simp [isPlain, and_assoc]

theorem canon_tokens (x : List Char) :
    (canon false .start x = writeTokens true (tokensFrom false [] x)) ∧
    (canon false .sep x = writeTokens false (tokensFrom false [] x)) ∧
    (∀ b w, w ≠ [] → (∀ c ∈ w, isPlain c = true) →
      (if b = true then w else ' ' :: w) ++ canon false .word x = writeTokens b (tokensFrom false w x)) ∧
    (canon true .start x = writeTokens true (tokensFrom true [] x)) ∧
    (canon true .sep x = writeTokens false (tokensFrom true [] x)) := by
  have hp : ∀ w : List Char, w ≠ [] → (∀ c ∈ w, isPlain c = true) → w ≠ ['('] ∧ w ≠ [')'] := by
    intro w _ h
    constructor <;> rintro rfl <;> exact absurd (h _ (List.mem_singleton.2 rfl)) (by decide)
  induction x with
  | nil =>
    refine ⟨by simp [canon, tokensFrom, flushWord, writeTokens], by simp [canon, tokensFrom, flushWord, writeTokens], ?_, by simp [canon, tokensFrom, flushWord, writeTokens], by simp [canon, tokensFrom, flushWord, writeTokens]⟩
    intro b w h1 h2
    simp [canon, tokensFrom, flushWord, writeTokens, h1, (hp w h1 h2).2]
  | cons c r ih =>
    obtain ⟨i1, i2, i3, i4, i5⟩ := ih
    by_cases hb : isBlank c = true
    · refine ⟨?_, ?_, ?_, ?_, ?_⟩
      · simp [canon, tokensFrom, hb, RSt.blank, flushWord, i1]
      · simp [canon, tokensFrom, hb, RSt.blank, flushWord, i2]
      · intro b w h1 h2
        simp [canon, tokensFrom, hb, RSt.blank, flushWord, h1, writeTokens, hp w h1 h2, i2]
      · cases h : isNewline c <;> simp [canon, tokensFrom, h, i1, i4]
      · cases h : isNewline c <;> simp [canon, tokensFrom, h, i2, i5]
    · have hb' : isBlank c = false := by simpa using hb
      by_cases hs : c = ';'
      · subst hs
        refine ⟨?_, ?_, ?_, ?_, ?_⟩
        · simp [canon, tokensFrom, hb', RSt.blank, flushWord, i4]
        · simp [canon, tokensFrom, hb', RSt.blank, flushWord, i5]
        · intro b w h1 h2
          simp [canon, tokensFrom, hb', RSt.blank, flushWord, h1, writeTokens, hp w h1 h2, i5]
        · simp [canon, tokensFrom, isNewline, i4]
        · simp [canon, tokensFrom, isNewline, i5]
      · by_cases ho : c = '('
        · subst ho
          refine ⟨?_, ?_, ?_, ?_, ?_⟩
          · simp [canon, tokensFrom, hb', RSt.pre, flushWord, writeTokens, i1]
          · simp [canon, tokensFrom, hb', RSt.pre, flushWord, writeTokens, i1]
          · intro b w h1 h2
            simp [canon, tokensFrom, hb', RSt.pre, flushWord, h1, writeTokens, hp w h1 h2, i1]
          · simp [canon, tokensFrom, isNewline, i4]
          · simp [canon, tokensFrom, isNewline, i5]
        · by_cases hc : c = ')'
          · subst hc
            refine ⟨?_, ?_, ?_, ?_, ?_⟩
            · simp [canon, tokensFrom, hb', flushWord, writeTokens, i2]
            · simp [canon, tokensFrom, hb', flushWord, writeTokens, i2]
            · intro b w h1 h2
              simp [canon, tokensFrom, hb', flushWord, h1, writeTokens, hp w h1 h2, i2]
            · simp [canon, tokensFrom, isNewline, i4]
            · simp [canon, tokensFrom, isNewline, i5]
          · have hpl : isPlain c = true := isPlain_iff.2 ⟨hb', hs, ho, hc⟩
            refine ⟨?_, ?_, ?_, ?_, ?_⟩
            · have := i3 true [c] (by simp) (by simpa using hpl)
              simp [canon, tokensFrom, hb', hs, ho, hc, RSt.pre, ← this]
            · have := i3 false [c] (by simp) (by simpa using hpl)
              simp [canon, tokensFrom, hb', hs, ho, hc, RSt.pre, ← this]
            · intro b w h1 h2
              have := i3 b (w ++ [c]) (by simp) (by
                intro d hd
                rcases List.mem_append.1 hd with hd | hd
                · exact h2 d hd
                · simpa using List.mem_singleton.1 hd ▸ hpl)
              simp only [canon, tokensFrom, hb', hs, ho, hc, ← this]
              cases b <;> simp [hb', hs, ho, hc, ← this]
            · cases h : isNewline c <;> simp [canon, tokensFrom, h, i1, i4]
            · cases h : isNewline c <;> simp [canon, tokensFrom, h, i2, i5]

theorem reformat_eq (x : List Char) : reformat x = canon false .start x := (canon_tokens x).1.symm

/-- The transducer turns `t` into `u`, whatever follows. -/
def Run (p : RSt) (t u : List Char) (q : RSt) : Prop :=
  ∀ x, canon false p (t ++ x) = u ++ canon false q x

theorem Run.nil (p : RSt) : Run p [] [] p := fun _ => rfl

theorem Run.append {p q r : RSt} {t u s v : List Char} (h : Run p t u q) (h' : Run q s v r) :
    Run p (t ++ s) (u ++ v) r := by
  intro x
  rw [List.append_assoc, h, h', List.append_assoc]

theorem RSt.blank_blank (p : RSt) : p.blank.blank = p.blank := by cases p <;> rfl
theorem RSt.blank_ne {p : RSt} (h : p ≠ .start) : p.blank = .sep := by cases p <;> simp_all [RSt.blank]
theorem RSt.pre_ne {p : RSt} (h : p ≠ .start) : p.pre = [' '] := by cases p <;> simp_all [RSt.pre]

theorem canon_comment {body : List Char} (h : ∀ c ∈ body, isNewline c = false) (p : RSt)
    (x : List Char) : canon true p (body ++ x) = canon true p x := by
  induction body with
  | nil => rfl
  | cons c r ih =>
    rw [List.cons_append, canon, h c (by simp)]
    exact ih fun c hc => h c (by simp [hc])

/-- Layout produces no output. It ends a word. -/
theorem Gap.run {g : List Char} (h : Gap g) (p : RSt) : Run p g [] (if g = [] then p else p.blank) := by
  induction h generalizing p with
  | nil => exact .nil p
  | @space c g hc _ ih =>
    intro x
    rw [List.cons_append, canon, if_pos hc, ih p.blank x]
    by_cases hg : g = [] <;> simp [hg, RSt.blank_blank]
  | @comment b body n g hb hbody hn _ ih =>
    intro x
    simp only [List.cons_append, List.append_assoc]
    rw [canon, if_neg (by decide), if_pos rfl, canon, hb]
    show canon true p.blank _ = _
    rw [canon_comment hbody, canon, hn]
    show canon false p.blank _ = _
    rw [ih p.blank x]
    by_cases hg : g = [] <;> simp [hg, RSt.blank_blank]

theorem Sep.run {g : List Char} (h : Sep g) {p : RSt} (hp : p ≠ .start) : Run p g [] .sep := by
  have := h.gap.run p
  have hne : g ≠ [] := by cases h; simp
  rwa [if_neg hne, RSt.blank_ne hp] at this

/-- Characters inside a word. -/
theorem run_plain {t : List Char} (h : ∀ c ∈ t, isPlain c = true) : Run .word t t .word := by
  induction t with
  | nil => exact .nil _
  | cons c r ih =>
    intro x
    obtain ⟨h1, h2, h3, h4⟩ := isPlain_iff.1 (h c (by simp))
    simp [canon, h1, h2, h3, h4, ih (fun c hc => h c (by simp [hc])) x]

/-- The text `t` of a value becomes `u`: preceded by a space, unless it comes first in a form or
continues a word. With `k`, it does not continue a word. -/
def Vis (k : Bool) (t u : List Char) : Prop :=
  t.head? = u.head? ∧ ∃ q, q ≠ .start ∧ Run .start t u q ∧ Run .sep t (' ' :: u) q ∧
    ∃ w, (w = [' '] ∨ (w = [] ∧ k = false)) ∧ Run .word t (w ++ u) q

/-- Text in a form after its head: the output does not depend on what comes before. -/
def Mid (t u : List Char) : Prop := ∀ p, p ≠ .start → ∃ q, q ≠ .start ∧ Run p t u q

/-- Text after `(`. -/
def Body (t u : List Char) : Prop := ∃ q, Run .start t u q

/-- A token that is not a parenthesis. -/
def Plain (t : List Char) : Prop := t ≠ [] ∧ ∀ c ∈ t, isPlain c = true

theorem Plain.run {t : List Char} (h : Plain t) {p : RSt} (hp : p ≠ .word) :
    Run p t (p.pre ++ t) .word := by
  obtain ⟨hne, h⟩ := h
  cases t with
  | nil => exact absurd rfl hne
  | cons c r =>
    intro x
    obtain ⟨h1, h2, h3, h4⟩ := isPlain_iff.1 (h c (List.mem_cons_self ..))
    have hr := run_plain (fun d hd => h d (List.mem_cons_of_mem c hd)) x
    simp [canon, h1, h2, h3, h4, hp, hr]

theorem Vis.weak {k : Bool} {t u : List Char} (h : Vis k t u) : Vis false t u := by
  obtain ⟨h0, q, h1, h2, h3, w, h4, h5⟩ := h
  exact ⟨h0, q, h1, h2, h3, w, h4.imp_right fun h => ⟨h.1, rfl⟩, h5⟩

theorem Vis.paren {b b' : List Char} (h : Body b b') (k : Bool := true) :
    Vis k (paren b) (paren b') := by
  obtain ⟨q, h⟩ := h
  refine ⟨rfl, .sep, by decide, ?_, ?_, [' '], .inl rfl, ?_⟩
  all_goals
    intro x
    simp only [Pddl.paren, List.cons_append, List.append_assoc]
    rw [canon, if_neg (by decide), if_neg (by decide), if_pos rfl, h]
    simp [RSt.pre, canon, isBlank]

theorem Vis.plain {t : List Char} (h : Plain t) : Vis false t t :=
  ⟨rfl, .word, by decide, h.run (by decide), h.run (by decide), [], .inr ⟨rfl, rfl⟩, run_plain h.2⟩

theorem Mid.nil : Mid [] [] := fun p hp => ⟨p, hp, .nil p⟩

theorem Mid.gap {g : List Char} (h : Gap g) : Mid g [] := fun p hp =>
  ⟨_, by split; exact hp; rw [RSt.blank_ne hp]; decide, h.run p⟩

theorem Mid.append {t u s v : List Char} (h : Mid t u) (h' : Mid s v) : Mid (t ++ s) (u ++ v) := by
  intro p hp
  obtain ⟨q, hq, r⟩ := h p hp
  obtain ⟨q', hq', r'⟩ := h' q hq
  exact ⟨q', hq', r.append r'⟩

theorem Vis.head {k : Bool} {t u : List Char} (h : Vis k t u) : t ≠ [] := by
  rintro rfl
  obtain ⟨_, q, _, _, h, _⟩ := h
  have := congrArg List.length (h [])
  simp [canon] at this

theorem Vis.append {k : Bool} {t u s v : List Char} (h : Vis k t u) (h' : Mid s v) :
    Vis k (t ++ s) (u ++ v) := by
  have hne := h.head
  obtain ⟨h0, q, h1, h2, h3, w, h4, h5⟩ := h
  obtain ⟨q', hq', r⟩ := h' q h1
  refine ⟨?_, q', hq', h2.append r, h3.append r, w, h4, by rw [← List.append_assoc]; exact h5.append r⟩
  cases t with
  | nil => exact absurd rfl hne
  | cons c t =>
    cases u with
    | nil => simp at h0
    | cons d u => simpa using h0

theorem Mid.sep1 {k : Bool} {g t u : List Char} (h : Sep g) (ht : Vis k t u) :
    Mid (g ++ t) ([' '] ++ u) := by
  intro p hp
  obtain ⟨_, q, h1, _, h3, _⟩ := ht
  exact ⟨q, h1, (h.run hp).append h3⟩

theorem Mid.gap1 {g t u : List Char} (h : Gap g) (ht : Vis true t u) :
    Mid (g ++ t) ([' '] ++ u) := by
  intro p hp
  obtain ⟨_, q, h1, _, h3, w, h4, h5⟩ := ht
  obtain rfl : w = [' '] := h4.resolve_right (by simp)
  refine ⟨q, h1, (h.run p).append ?_⟩
  split
  · cases p with
    | start => exact absurd rfl hp
    | word => exact h5
    | sep => exact h3
  · rw [RSt.blank_ne hp]; exact h3

theorem Mid.sep {k : Bool} {g t u r r' : List Char} (h : Sep g) (ht : Vis k t u) (hr : Mid r r') :
    Mid (g ++ (t ++ r)) ([' '] ++ (u ++ r')) := by
  exact .sep1 h (ht.append hr)

theorem Mid.sp {k : Bool} {g t u r r' : List Char} (h : Sp g) (ht : Vis k t u) (hr : Mid r r') :
    Mid (g ++ (t ++ r)) ([' '] ++ (u ++ r')) := .sep h.sep ht hr

theorem Mid.gapV {g t u r r' : List Char} (h : Gap g) (ht : Vis true t u) (hr : Mid r r') :
    Mid (g ++ (t ++ r)) ([' '] ++ (u ++ r')) := .gap1 h (ht.append hr)

theorem Body.gap {g b b' : List Char} (h : Gap g) (hb : Body b b') : Body (g ++ b) ([] ++ b') := by
  obtain ⟨q, hb⟩ := hb
  refine ⟨q, (h.run .start).append ?_⟩
  split <;> exact hb

theorem Body.layout {g : List Char} (h : Gap g) : Body g [] := ⟨_, h.run .start⟩

theorem Body.vis {k : Bool} {t u r r' : List Char} (h : Vis k t u) (hr : Mid r r') :
    Body (t ++ r) (u ++ r') := by
  obtain ⟨_, q, h1, h2, _⟩ := h
  obtain ⟨q', _, hr⟩ := hr q h1
  exact ⟨q', h2.append hr⟩

theorem Body.kw {t r r' : List Char} (h : Plain t) (hr : Mid r r') : Body (t ++ r) (t ++ r') :=
  .vis (.plain h) hr

/-- A head that may be continued by the first operand. -/
theorem Body.glue {t g s u r r' : List Char} (h : Plain t) (hg : Gap g) (hs : Vis false s u)
    (hr : Mid r r') : ∃ g', (g' = [] ∨ g' = [' ']) ∧ Body (t ++ (g ++ (s ++ r))) (t ++ (g' ++ (u ++ r'))) := by
  obtain ⟨_, q, h1, h2, h3, w, h4, h5⟩ := hs
  obtain ⟨q', _, hr⟩ := hr q h1
  have hw : Run .start t t .word := h.run (by decide)
  by_cases hne : g = []
  · subst hne
    refine ⟨w, h4.elim .inr fun h => .inl h.1, q', hw.append ?_⟩
    have := h5.append hr
    rwa [List.append_assoc] at this
  · have := hg.run .word
    rw [if_neg hne] at this
    exact ⟨[' '], .inr rfl, q', hw.append (this.append (h3.append hr))⟩

theorem Sep.space : Sep [' '] := .mk rfl .nil
theorem Gap.blank1 : Gap [' '] := .space rfl .nil
theorem Sp.space : Sp [' '] := ⟨by simp, by simp [Sp0, isBlank]⟩

theorem isPlain_of_word {c : Char} (h : isWordChar c = true) : isPlain c = true := by
  rw [isPlain_iff]
  refine ⟨?_, ?_, ?_, ?_⟩
  · cases hb : isBlank c with
    | false => rfl
    | true =>
      simp only [isBlank, Bool.or_eq_true, beq_iff_eq] at hb
      rcases hb with ((rfl | rfl) | rfl) | rfl <;> exact absurd h (by decide)
  all_goals rintro rfl; exact absurd h (by decide)

theorem IsWord.plain {t : List Char} (h : IsWord t) : Plain t := by
  obtain ⟨c, cs, rfl, h1, h2⟩ := h
  refine ⟨by simp, fun d hd => isPlain_of_word ?_⟩
  rcases List.mem_cons.1 hd with rfl | hd
  · simp [isWordChar, h1]
  · exact h2 d hd

theorem NameW.vis {n : Name} {t : List Char} (h : NameW n t) : Vis false t t := .plain h.1.plain

theorem isDec.plain {c : Char} (h : isDec c = true) : isPlain c = true :=
  isPlain_of_word (by simp [isWordChar, h])

theorem NumW.vis {n : Number} {t : List Char} (h : NumW n t) : Vis false t t := by
  obtain ⟨l, rfl, _⟩ := h
  refine .plain ⟨?_, ?_⟩
  · unfold Literal10.text
    split
    · exact l.int_ne
    · simp
  · intro c hc
    unfold Literal10.text at hc
    split at hc
    · exact isDec.plain (l.int_digits c hc)
    · simp only [List.mem_append, List.mem_cons] at hc
      rcases hc with hc | rfl | hc
      · exact isDec.plain (l.int_digits c hc)
      · rfl
      · exact isDec.plain (l.frac_digits c hc)

/-- `v` is written as `t`, and as what `reformat` makes of `t`. -/
def Tidy (k : Bool) (R : α → List Char → Prop) (v : α) (t : List Char) : Prop :=
  ∃ u, R v u ∧ Vis k t u

theorem Tidy.weak {k : Bool} {R : α → List Char → Prop} {v : α} {t : List Char} (h : Tidy k R v t) :
    Tidy false R v t := let ⟨u, h1, h2⟩ := h; ⟨u, h1, h2.weak⟩

theorem Tidy.map {k : Bool} {R : α → List Char → Prop} {S : β → List Char → Prop} {v : α} {w : β}
    {t : List Char} (h : Tidy k R v t) (f : ∀ u, R v u → S w u) : Tidy k S w t :=
  let ⟨u, h1, h2⟩ := h; ⟨u, f u h1, h2⟩

theorem Tidy.reformat {k : Bool} {R : α → List Char → Prop} {v : α} {t : List Char}
    (h : Tidy k R v t) : R v (reformat t) := by
  obtain ⟨u, h1, _, q, _, h2, _⟩ := h
  have := h2 []
  rw [List.append_nil, canon, List.append_nil] at this
  rw [reformat_eq, this]
  exact h1

theorem Items.tidy {k : Bool} {R : α → List Char → Prop} {as u} (h : Items R as u)
    (hR : ∀ a t, R a t → t.length ≤ u.length → Tidy k R a t) : Tidy k (Items R) as u := by
  induction h with
  | one h => exact (hR _ _ h (Nat.le_refl _)).map fun _ => .one
  | cons h hg _ ih =>
    obtain ⟨u1, r1, v1⟩ := hR _ _ h (by simp)
    obtain ⟨u2, r2, v2⟩ := ih fun a t ht hl => hR a t ht (by simp only [List.length_append]; omega)
    exact ⟨_, .cons r1 .space r2, v1.append (.sep1 hg v2)⟩

theorem Sec.tidy_sep {B : List α → List Char → Prop} {trail : List Char → Prop} {xs u}
    (h : Sec Sep trail B xs u) (ht : ∀ g, trail g → Gap g) (h0 : trail [])
    (hB : ∀ t, B xs t → t.length ≤ u.length → Tidy false B xs t) :
    ∃ u', Sec Sep trail B xs u' ∧ Mid u u' := by
  cases h with
  | nil h => exact ⟨[], .nil .nil, .gap h⟩
  | cons h1 h2 h3 =>
    obtain ⟨t', r, v⟩ := hB _ h2 (by simp only [List.length_append]; omega)
    exact ⟨_, .cons .space r h0, .sep h1 v (.gap (ht _ h3))⟩

theorem Sec.tidy_gap {B : List α → List Char → Prop} {trail : List Char → Prop} {xs u}
    (h : Sec Gap trail B xs u) (ht : ∀ g, trail g → Gap g) (h0 : trail [])
    (hB : ∀ t, B xs t → t.length ≤ u.length → Tidy true B xs t) :
    ∃ u', Sec Gap trail B xs u' ∧ Mid u u' := by
  cases h with
  | nil h => exact ⟨[], .nil .nil, .gap h⟩
  | cons h1 h2 h3 =>
    obtain ⟨t', r, v⟩ := hB _ h2 (by simp only [List.length_append]; omega)
    exact ⟨_, .cons .blank1 r h0, .gapV h1 v (.gap (ht _ h3))⟩

theorem Sec.tidy_open {B : List α → List Char → Prop} {trail : List Char → Prop} {xs u}
    (h : Sec Gap trail B xs u) (ht : ∀ g, trail g → Gap g) (h0 : trail [])
    (hB : ∀ t, B xs t → t.length ≤ u.length → Tidy false B xs t) :
    ∃ u', Sec Gap trail B xs u' ∧ Body u u' := by
  cases h with
  | nil h => exact ⟨[], .nil .nil, .layout h⟩
  | cons h1 h2 h3 =>
    obtain ⟨t', r, v⟩ := hB _ h2 (by simp only [List.length_append]; omega)
    exact ⟨_, .cons .nil r h0, .gap h1 (.vis v (.gap (ht _ h3)))⟩

theorem tight_gap {g : List Char} (h : Mode.strict.tight g) : Gap g := Mode.tight.gap h

end Pddl
