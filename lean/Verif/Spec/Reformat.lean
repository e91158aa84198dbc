import Verif.Spec.Layout

/-!
# Specification: tokens and reformatting

The tokens of a text, written without reference to the parsers: the parentheses, and the runs of
other characters between parentheses and layout. `reformat` writes the tokens of a text with as
little layout as possible: no comments, one space between two tokens, none after `(` and before `)`.
-/

namespace Pddl

/-- The pending word as a list of tokens. -/
def flushWord (w : List Char) : List (List Char) := if w = [] then [] else [w]

/-- The tokens of a text, when `w` is the part of a word already read; the flag says whether the
text begins inside a comment. -/
def tokensFrom : Bool → List Char → List Char → List (List Char)
  | _, w, [] => flushWord w
  | true, _, c :: r => tokensFrom (!isNewline c) [] r
  | false, w, c :: r =>
    if isBlank c then flushWord w ++ tokensFrom false [] r
    else if c = ';' then flushWord w ++ tokensFrom true [] r
    else if c = '(' ∨ c = ')' then flushWord w ++ [c] :: tokensFrom false [] r
    else tokensFrom false (w ++ [c]) r

/-- The tokens of a text. -/
def tokens (t : List Char) : List (List Char) := tokensFrom false [] t

/-- Writes tokens; the flag says that no space is written before the next one. -/
def writeTokens : Bool → List (List Char) → List Char
  | _, [] => []
  | tight, t :: ts =>
    (if tight = true ∨ t = c!")" then t else ' ' :: t) ++ writeTokens (decide (t = c!"(")) ts

/-- The text with its layout replaced: a single space between tokens, nothing after `(` and
before `)`. -/
def reformat (t : List Char) : List Char := writeTokens true (tokens t)

end Pddl
