import Verif.Span
import Verif.Spec.Column
import Verif.Props.Errors
import Verif.Props.ApiX
import Verif.Props.Equality

/-!
# C96, C97: where a span lies, and what the helpers for results say
-/

namespace Pddl

/-! ## Bytes of a text -/

theorem utf8_nil : utf8 [] = [] := rfl
theorem utf8_cons (c : Char) (s : List Char) : utf8 (c :: s) = String.utf8EncodeChar c ++ utf8 s := rfl
theorem utf8_append (a b : List Char) : utf8 (a ++ b) = utf8 a ++ utf8 b := by
  simp [utf8, List.flatMap_append]

theorem utf8_length (s : List Char) : (utf8 s).length = byteLength s := by
  induction s with
  | nil => rfl
  | cons c s ih => rw [utf8_cons, List.length_append, ih, String.length_utf8EncodeChar, byteLength]

private theorem toNat_ofNat {n : Nat} (h : n < 256) : (UInt8.ofNat n).toNat = n := by
  rw [UInt8.toNat_ofNat']; omega

private theorem ne_ten {n : Nat} (h : n < 256) (h' : n ≠ 10) : UInt8.ofNat n ≠ 10 := by
  intro e
  have := congrArg UInt8.toNat e
  rw [toNat_ofNat h] at this
  exact h' this

/-- Only a line feed has a byte 10, and it has nothing else. -/
theorem encode_lf (c : Char) : (c = '\n' ∧ String.utf8EncodeChar c = [10]) ∨
    (c ≠ '\n' ∧ (10 : UInt8) ∉ String.utf8EncodeChar c) := by
  by_cases hc : c = '\n'
  · subst hc; exact .inl ⟨rfl, by decide⟩
  · refine .inr ⟨hc, ?_⟩
    have hv : c.val.toNat ≠ 10 := by
      intro e
      exact hc (Char.ext (UInt32.toNat_inj.mp e))
    unfold String.utf8EncodeChar
    simp only
    split
    · simp only [List.mem_singleton]
      exact fun e => ne_ten (by omega) hv e.symm
    split
    · simp only [List.mem_cons, List.not_mem_nil, or_false, not_or]
      exact ⟨fun e => ne_ten (by omega) (by omega) e.symm, fun e => ne_ten (by omega) (by omega) e.symm⟩
    split
    · simp only [List.mem_cons, List.not_mem_nil, or_false, not_or]
      exact ⟨fun e => ne_ten (by omega) (by omega) e.symm, fun e => ne_ten (by omega) (by omega) e.symm,
        fun e => ne_ten (by omega) (by omega) e.symm⟩
    · simp only [List.mem_cons, List.not_mem_nil, or_false, not_or]
      exact ⟨fun e => ne_ten (by omega) (by omega) e.symm, fun e => ne_ten (by omega) (by omega) e.symm,
        fun e => ne_ten (by omega) (by omega) e.symm, fun e => ne_ten (by omega) (by omega) e.symm⟩

/-- A character has one byte that does not continue a character. -/
theorem encode_chars (c : Char) : Span.numChars (String.utf8EncodeChar c) = 1 := by
  unfold String.utf8EncodeChar
  simp only
  generalize c.val.toNat = v
  have hb : ∀ n, n < 256 → ((UInt8.ofNat n).toNat / 64 != 2) = (n / 64 != 2) := by
    intro n hn; rw [toNat_ofNat hn]
  have pos : ∀ n, n < 256 → n / 64 ≠ 2 → ((UInt8.ofNat n).toNat / 64 != 2) = true := by
    intro n hn h; rw [hb n hn]; simpa using h
  have neg : ∀ n, n < 256 → n / 64 = 2 → ((UInt8.ofNat n).toNat / 64 != 2) = false := by
    intro n hn h; rw [hb n hn]; simpa using h
  split
  · simp only [Span.numChars, List.countP_cons, List.countP_nil]
    rw [pos v (by omega) (by omega)]; rfl
  split
  · simp only [Span.numChars, List.countP_cons, List.countP_nil]
    rw [pos (v / 64 % 32 + 192) (by omega) (by omega), neg (v % 64 + 128) (by omega) (by omega)]; rfl
  split
  · simp only [Span.numChars, List.countP_cons, List.countP_nil]
    rw [pos (v / 4096 % 16 + 224) (by omega) (by omega), neg (v / 64 % 64 + 128) (by omega) (by omega),
      neg (v % 64 + 128) (by omega) (by omega)]; rfl
  · simp only [Span.numChars, List.countP_cons, List.countP_nil]
    rw [pos (v / 262144 % 8 + 240) (by omega) (by omega), neg (v / 4096 % 64 + 128) (by omega) (by omega),
      neg (v / 64 % 64 + 128) (by omega) (by omega), neg (v % 64 + 128) (by omega) (by omega)]; rfl

theorem numChars_utf8 (s : List Char) : Span.numChars (utf8 s) = s.length := by
  induction s with
  | nil => rfl
  | cons c s ih =>
    have := encode_chars c
    unfold Span.numChars at *
    rw [utf8_cons, List.countP_append, ih, this, List.length_cons, Nat.add_comm]

theorem count_utf8 (s : List Char) : (utf8 s).count 10 = lineFeeds s := by
  induction s with
  | nil => rfl
  | cons c s ih =>
    rw [utf8_cons, List.count_append, ih, lineFeeds]
    rcases encode_lf c with ⟨rfl, h⟩ | ⟨hc, h⟩
    · rw [h]; rfl
    · rw [List.count_eq_zero.mpr h, if_neg hc]

theorem lf_mem_utf8 (s : List Char) : (10 : UInt8) ∈ utf8 s ↔ '\n' ∈ s := by
  induction s with
  | nil => simp [utf8]
  | cons c s ih =>
    rw [utf8_cons, List.mem_append, ih, List.mem_cons]
    rcases encode_lf c with ⟨rfl, h⟩ | ⟨hc, h⟩
    · rw [h]; simp
    · simp [h, Ne.symm hc]

/-! ## C96 -/

/-- The span lies in the text `s`, and its numbers are right. -/
def Span.In (x : Span) (s : List Char) : Prop := IsAt s x.fragment x.offset x.line

theorem slice_eq (x : Span) (n : Nat) : x.slice n =
    ⟨x.offset + byteLength (x.fragment.take n), x.line + lineFeeds (x.fragment.take n), x.fragment.drop n⟩ := by
  unfold Span.slice
  simp only [utf8_length, count_utf8]
  split
  · rename_i h
    rw [h]
    have : lineFeeds (x.fragment.take n) = 0 := by
      cases hf : x.fragment.take n with
      | nil => rfl
      | cons c t =>
        rw [hf, byteLength] at h
        have := c.utf8Size_pos
        omega
    rw [this]; rfl
  · rfl

theorem Span.In.slice {x : Span} {s : List Char} (h : x.In s) (n : Nat) : (x.slice n).In s := by
  obtain ⟨u, h1, h2, h3⟩ := h
  rw [slice_eq]
  refine ⟨u ++ x.fragment.take n, ?_, ?_, ?_⟩
  · simp only [List.append_assoc, List.take_append_drop, h1]
  · simp only [byteLength_append, h2]
  · simp only [lineFeeds_append, h3]; omega

/-- Cutting pieces off the front of a text, however large and however many, gives the span with the offset
and the line of the place that was reached. Only the place counts. -/
theorem C96_steps (s : List Char) (ns : List Nat) :
    (ns.foldl Span.slice (.new s)).In s ∧ (ns.foldl Span.slice (.new s)).fragment = s.drop ns.sum ∧
      ns.foldl Span.slice (.new s) = (Span.new s).slice ns.sum := by
  have main : ∀ (ns : List Nat) (x : Span), ns.foldl Span.slice x = x.slice ns.sum := by
    intro ns
    induction ns with
    | nil => intro x; rw [slice_eq]; simp [byteLength, lineFeeds]
    | cons n ns ih =>
      intro x
      rw [List.foldl_cons, ih, slice_eq, slice_eq, slice_eq]
      simp only [List.sum_cons, List.drop_drop, Span.mk.injEq, and_true]
      have : x.fragment.take (n + ns.sum) = x.fragment.take n ++ (x.fragment.drop n).take ns.sum := List.take_add ..
      rw [this, byteLength_append, lineFeeds_append]
      constructor <;> omega
  rw [main]
  exact ⟨Span.In.slice ⟨[], rfl, rfl, rfl⟩ _, by rw [slice_eq]; rfl, rfl⟩

theorem slice_fragment {x : Span} {u r : List Char} (e : x.fragment = u ++ r) :
    (x.slice (x.fragment.length - r.length)).fragment = r := by
  rw [slice_eq]
  simp [e]

theorem traced_suffix {x} (hx : x ∈ tracedParsers) {s : List Char} {a : x.1} {r : List Char}
    (h : x.2.1 s = .ok a r) : ∃ u, s = u ++ r := by
  have h1 := C56_same_outcome x hx s
  rw [h] at h1
  have hm : (⟨x.1, x.2.2⟩ : AnyParser) ∈ publicParsers := by
    rw [← C56_all_parsers]; exact List.mem_map_of_mem hx
  obtain ⟨u, hu, _⟩ := C02_suffix_progress _ hm s a r h1
  exact ⟨u, hu⟩

/-- Whatever is parsed from a span that lies in a text: what remains, and every position of an error, is
the place that the parser reached, with the offset and the line that this place has in the whole text. -/
theorem C96_parse : ∀ x ∈ tracedParsers, ∀ s (sp : Span), sp.In s → match located x.2.1 sp with
    | .ok a r => r.In s ∧ x.2.1 sp.fragment = .ok a r.fragment
    | .err e => (∀ y ∈ e, y.1.In s) ∧ x.2.1 sp.fragment = .err (e.map fun y => ⟨y.1.fragment, y.2⟩)
    | .fail e => (∀ y ∈ e, y.1.In s) ∧ x.2.1 sp.fragment = .fail (e.map fun y => ⟨y.1.fragment, y.2⟩)
    | .panic => x.2.1 sp.fragment = .panic
    | .oof => False := by
  intro x hx s sp h
  have hmap : ∀ e, ErrorOf x.2.1 sp.fragment e →
      (∀ y ∈ e.map fun y => (sp.slice (sp.fragment.length - y.rest.length), y.kind), y.1.In s) ∧
      e = (e.map fun y => (sp.slice (sp.fragment.length - y.rest.length), y.kind)).map
        fun y => ⟨y.1.fragment, y.2⟩ := by
    intro e he
    constructor
    · intro y hy
      obtain ⟨z, _, rfl⟩ := List.mem_map.mp hy
      exact h.slice _
    · rw [List.map_map]
      refine (List.map_id e).symm.trans (List.map_congr_left fun y hy => ?_)
      obtain ⟨u, hu⟩ := (C56_inside x hx _ _ he).2 y hy
      simp only [Function.comp, slice_fragment hu, id]
  unfold located
  cases hp : x.2.1 sp.fragment with
  | ok a r =>
    obtain ⟨u, hu⟩ := traced_suffix hx hp
    exact ⟨h.slice _, by simp only [slice_fragment hu]⟩
  | err e => exact ⟨(hmap e (.inl hp)).1, congrArg _ (hmap e (.inl hp)).2⟩
  | fail e => exact ⟨(hmap e (.inr hp)).1, congrArg _ (hmap e (.inr hp)).2⟩
  | panic => rfl
  | oof =>
    have := C56_same_outcome x hx sp.fragment
    rw [hp] at this
    exact this

/-- The spans that a program gets from a text by reading things from it one after another, each from what
the one before has left. -/
inductive Span.Reached (s : List Char) : Span → Prop
  | start : Reached s (.new s)
  | next {x} {sp r : Span} {a : x.1} : Reached s sp → x ∈ tracedParsers → located x.2.1 sp = .ok a r →
      Reached s r

/-- However many things were read before, the numbers of what remains, and those of the next error, count
from the beginning of the text. -/
theorem C96_reads {s : List Char} {sp : Span} (h : sp.Reached s) : sp.In s ∧ ∀ x ∈ tracedParsers, ∀ e,
    (located x.2.1 sp = .err e ∨ located x.2.1 sp = .fail e) → ∀ y ∈ e, y.1.In s := by
  have hin : sp.In s := by
    induction h with
    | start => exact ⟨[], rfl, rfl, rfl⟩
    | next _ hx h ih =>
      have := C96_parse _ hx s _ ih
      rw [h] at this
      exact this.1
  refine ⟨hin, fun x hx e he => ?_⟩
  have := C96_parse x hx s sp hin
  rcases he with he | he <;> rw [he] at this <;> exact this.1

/-! ### Columns -/

theorem line_split (u : List Char) : ∃ b l, u = b ++ l ∧ (b = [] ∨ ∃ b', b = b' ++ ['\n']) ∧ '\n' ∉ l := by
  induction u with
  | nil => exact ⟨[], [], rfl, .inl rfl, by simp⟩
  | cons c u ih =>
    obtain ⟨b, l, rfl, hb, hl⟩ := ih
    rcases hb with rfl | ⟨b', rfl⟩
    · by_cases hc : c = '\n'
      · exact ⟨[c], l, rfl, .inr ⟨[], by rw [hc]; rfl⟩, hl⟩
      · exact ⟨[], c :: l, rfl, .inl rfl, by simp [hl, Ne.symm hc]⟩
    · exact ⟨c :: (b' ++ ['\n']), l, rfl, .inr ⟨c :: b', rfl⟩, hl⟩

theorem memrchr_none {l : List UInt8} (h : (10 : UInt8) ∉ l) : Span.memrchr 10 l = none := by
  unfold Span.memrchr
  rw [List.findIdx?_eq_none_iff.mpr]
  · rfl
  · intro x hx
    simp only [beq_eq_false_iff_ne]
    rintro rfl
    exact h (List.mem_reverse.mp hx)

theorem memrchr_some {a l : List UInt8} (h : (10 : UInt8) ∉ l) :
    Span.memrchr 10 (a ++ (10 :: l)) = some a.length := by
  unfold Span.memrchr
  have : (a ++ 10 :: l).reverse = l.reverse ++ 10 :: a.reverse := by simp
  rw [this, List.findIdx?_append, List.findIdx?_eq_none_iff.mpr]
  · simp [List.findIdx?_cons]
  · intro x hx
    simp only [beq_eq_false_iff_ne]
    rintro rfl
    exact h (List.mem_reverse.mp hx)

/-- The columns of a span that lies in a text count what lies in front of it in its line, in bytes or in
characters. It does not matter what lies in memory in front of the text. -/
theorem C96_columns {s : List Char} {x : Span} (h : x.In s) (u : List Char) (hu : s = u ++ x.fragment)
    (m : List UInt8) : ∃ l, LineBefore s x.fragment l ∧ x.getColumn (m ++ utf8 u) = byteLength l + 1 ∧
      x.getUtf8Column (m ++ utf8 u) = l.length + 1 := by
  obtain ⟨u', h1, h2, -⟩ := h
  have hu' : u' = u := List.append_cancel_right (h1.symm.trans hu)
  subst hu'
  obtain ⟨b, l, rfl, hb, hl⟩ := line_split u'
  refine ⟨l, ⟨b, by rw [hu, List.append_assoc], hb, hl⟩, ?_⟩
  have hd : (m ++ utf8 (b ++ l)).drop ((m ++ utf8 (b ++ l)).length - x.offset) = utf8 (b ++ l) := by
    rw [h2, ← utf8_length, List.length_append, Nat.add_sub_cancel, List.drop_left]
  have hl' : (10 : UInt8) ∉ utf8 l := fun h => hl ((lf_mem_utf8 l).mp h)
  unfold Span.getUtf8Column Span.getColumn Span.columnsAndBytesBefore
  simp only [hd]
  rcases hb with rfl | ⟨b', rfl⟩
  · rw [List.nil_append, memrchr_none hl']
    simp only
    rw [List.nil_append] at h2
    rw [show x.offset - (x.offset + 1 - 1) = 0 by omega, List.drop_zero, numChars_utf8, h2]
    exact ⟨rfl, rfl⟩
  · have e : utf8 (b' ++ ['\n'] ++ l) = utf8 b' ++ (10 :: utf8 l) := by
      rw [List.append_assoc, utf8_append]; rfl
    have ho : x.offset = (utf8 b').length + 1 + (utf8 l).length := by
      rw [h2, ← utf8_length, e, List.length_append, List.length_cons]; omega
    rw [e, memrchr_some hl']
    simp only
    rw [show x.offset - (x.offset - (utf8 b').length - 1) = (utf8 b').length + 1 by omega,
      show utf8 b' ++ (10 :: utf8 l) = (utf8 b' ++ [10]) ++ utf8 l by simp,
      List.drop_left' (by simp), numChars_utf8]
    refine ⟨?_, rfl⟩
    rw [← utf8_length]; omega

theorem byteLength_zero {l : List Char} (h : byteLength l = 0) : l = [] := by
  cases l with
  | nil => rfl
  | cons c l => have := c.utf8Size_pos; rw [byteLength] at h; omega

theorem lineFeeds_zero {l : List Char} (h : '\n' ∉ l) : lineFeeds l = 0 := by
  induction l with
  | nil => rfl
  | cons c l ih =>
    rw [List.mem_cons, not_or] at h
    rw [lineFeeds, ih h.2, if_neg (Ne.symm h.1)]

/-- Two places of a text with the same byte offset are the same place. -/
theorem C96_offset {s r r' : List Char} {o n n' : Nat} (h : IsAt s r o n) (h' : IsAt s r' o n') : r = r' := by
  obtain ⟨u, e, ho, -⟩ := h
  obtain ⟨u', e', ho', -⟩ := h'
  rcases List.append_eq_append_iff.mp (e.symm.trans e') with ⟨d, h1, h2⟩ | ⟨d, h1, h2⟩
  · have : byteLength d = 0 := by rw [h1, byteLength_append] at ho'; omega
    rw [h2, byteLength_zero this]; rfl
  · have : byteLength d = 0 := by rw [h1, byteLength_append] at ho; omega
    rw [h2, byteLength_zero this]; rfl

/-- Two places of a text with the same line and the same column, counted in bytes or in characters, are the
same place. -/
theorem C96_line_and_column {s r r' l l' : List Char} {o o' n : Nat} (h : IsAt s r o n) (h' : IsAt s r' o' n)
    (hl : LineBefore s r l) (hl' : LineBefore s r' l')
    (hc : l.length = l'.length ∨ byteLength l = byteLength l') : r = r' := by
  have key : ∀ {r r' l l' b b' : List Char}, b ++ (l ++ r) = b' ++ (l' ++ r') →
      lineFeeds b = lineFeeds b' → (b' = [] ∨ ∃ c, b' = c ++ ['\n']) → ∀ d, b' = b ++ d → d = [] := by
    intro r r' l l' b b' _ hf hb' d hd
    rcases hb' with rfl | ⟨c, rfl⟩
    · exact (List.append_eq_nil_iff.mp hd.symm).2
    · rcases List.eq_nil_or_concat d with rfl | ⟨d', x, rfl⟩
      · rfl
      · exfalso
        have hd' : c ++ ['\n'] = (b ++ d') ++ [x] := by rw [hd]; simp
        have hx := (List.append_inj' hd' rfl).2
        rw [hd] at hf
        cases hx
        simp only [List.concat_eq_append, lineFeeds_append, lineFeeds, if_true] at hf
        omega
  have hline : ∀ {r l : List Char} {o : Nat} (b : List Char), IsAt s r o n → s = b ++ (l ++ r) → '\n' ∉ l →
      n = 1 + lineFeeds b := by
    intro r l o b ⟨u, e, _, hn⟩ e' hl
    have : u = b ++ l := List.append_cancel_right (e.symm.trans (e'.trans (List.append_assoc ..).symm))
    rw [hn, this, lineFeeds_append, lineFeeds_zero hl]; rfl
  obtain ⟨b, e, hb, hn⟩ := hl
  obtain ⟨b', e', hb', hn'⟩ := hl'
  have hf : lineFeeds b = lineFeeds b' := by
    have h1 := hline b h e hn
    have h2 := hline b' h' e' hn'
    omega
  have ebb : b = b' := by
    rcases List.append_eq_append_iff.mp (e.symm.trans e') with ⟨d, h1, _⟩ | ⟨d, h1, _⟩
    · rw [key (e.symm.trans e') hf hb' d h1, List.append_nil] at h1; exact h1.symm
    · rw [key (e'.symm.trans e) hf.symm hb d h1, List.append_nil] at h1; exact h1
  subst ebb
  have e2 := List.append_cancel_left (e.symm.trans e')
  rcases hc with hc | hc
  · exact (List.append_inj e2 hc).2
  · rcases List.append_eq_append_iff.mp e2 with ⟨d, h1, h2⟩ | ⟨d, h1, h2⟩
    · have : byteLength d = 0 := by rw [h1, byteLength_append] at hc; omega
      rw [h2, byteLength_zero this]; rfl
    · have : byteLength d = 0 := by rw [h1, byteLength_append] at hc; omega
      rw [h2, byteLength_zero this]; rfl

/-- Every place of a text has a line and a column. -/
theorem C96_everywhere (u r : List Char) : ∃ o n l, IsAt (u ++ r) r o n ∧ LineBefore (u ++ r) r l := by
  obtain ⟨b, l, rfl, hb, hl⟩ := line_split u
  exact ⟨_, _, l, ⟨_, rfl, rfl, rfl⟩, b, List.append_assoc .., hb, hl⟩

/-! ## C97 -/

/-- `is_value` says whether the text begins with a text of the value. -/
theorem C97_is_value (k : Parsable) (s : List Char) (v : k.Item) :
    k.isValue (k.parse s) v = true ↔ ∃ g t r, s = g ++ (t ++ r) ∧ k.Reads g v t r := by
  rw [← C86_from_str]
  unfold Parsable.isValue Parsable.fromStr
  cases k.parse s <;> simp [k.same_iff]

/-- At most one value is the value of a text. -/
theorem C97_one_value (k : Parsable) (s : List Char) (v w : k.Item) (hv : k.isValue (k.parse s) v = true)
    (hw : k.isValue (k.parse s) w = true) : v = w := by
  unfold Parsable.isValue at hv hw
  cases hp : k.parse s <;> rw [hp] at hv hw <;> simp [k.same_iff] at hv hw
  exact hv.symm.trans hw

/-- `unwrap_value` gives the value for which `is_value` holds, and panics exactly if there is none. -/
theorem C97_unwrap (k : Parsable) (s : List Char) (v : k.Item) :
    (unwrapValue (k.parse s) = some v ↔ k.isValue (k.parse s) v = true) ∧
    (unwrapValue (k.parse s) = none ↔ ∀ w, k.isValue (k.parse s) w = false) := by
  unfold Parsable.isValue unwrapValue
  cases hp : k.parse s with
  | ok a r =>
    refine ⟨by simp [k.same_iff], ?_⟩
    simp only [reduceCtorEq, false_iff]
    intro h
    have := h a
    rw [(k.same_iff a a).mpr rfl] at this
    cases this
  | _ => simp

/-! ## Examples -/

-- ä, then a line feed, then two letters: the second letter has offset 4, line 2 and column 2.
example : [1, 1, 1].foldl Span.slice (.new c!"ä\nab") = ⟨4, 2, c!"b"⟩ := by decide
example : (Span.mk 4 2 c!"b").In c!"ä\nab" := ⟨c!"ä\na", rfl, rfl, rfl⟩
example : (Span.mk 4 2 c!"b").getColumn (utf8 c!"ä\na") = 2 := by decide
-- in the first line bytes and characters differ
example : (Span.mk 2 1 c!"b").getColumn (utf8 c!"ä") = 3 ∧ (Span.mk 2 1 c!"b").getUtf8Column (utf8 c!"ä") = 2 := by
  decide
example : LineBefore c!"ä\nab" c!"b" c!"a" := ⟨c!"ä\n", rfl, .inr ⟨c!"ä", rfl⟩, by decide⟩
-- a name is read, and then another one from what is left; the error of the third reading lies in line 3
example : located E.parseName (.new c!"ab\ncd\n?") = .ok (.new c!"ab") ⟨2, 1, c!"\ncd\n?"⟩ := rfl
example : located E.parseName ⟨2, 1, c!"\ncd\n?"⟩ = .ok (.new c!"cd") ⟨5, 2, c!"\n?"⟩ := rfl
example : located E.parseName ⟨5, 2, c!"\n?"⟩ = .err [(⟨6, 3, c!"?"⟩, .alpha)] := rfl
example : Parsable.isValue .name (Parsable.parse .name c!"truck )") (.new c!"truck") = true := rfl
example : Parsable.isValue .name (Parsable.parse .name c!"truck )") (.new c!"truc") = false := rfl
example : unwrapValue (Parsable.parse .name c!"(") = none := rfl

end Pddl
