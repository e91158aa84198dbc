import Verif.Meta.NamesAlike

/-!
# C121, C122: the model of recursion does not show in the names

The recursive parsers of the model stop at a depth that depends on the length of the text. The names
they list are those of the recursive functions of the code all the same.
-/

namespace Pddl

/-- C121: a call of each of the recursive parsers makes the names, in this order, that its body makes
with calls of the parser itself inside. -/
theorem C121_recursion (s : List Char) :
    N.ignoreEolComment.made s = (N.ignoreEolCommentBody N.ignoreEolComment).made s ∧
    N.parseTerm.made s = (N.termBody N.parseTerm).made s ∧
    N.parseFExp.made s = (N.fExpBody N.parseFExp).made s ∧
    N.parseGd.made s = (N.gdBody N.parseGd).made s ∧
    N.parsePreGd.made s = (N.preGdBody N.parsePreGd).made s ∧
    N.parseConGd.made s = (N.conGdBody N.parseConGd).made s ∧
    N.parsePrefConGd.made s = (N.prefConGdBody N.parsePrefConGd).made s ∧
    N.parseCEffect.made s = (N.cEffectBody N.parseCEffect).made s ∧
    N.parseDaGd.made s = (N.daGdBody N.parseDaGd).made s ∧
    N.parseFExpDa.made s = (N.fExpDaBody N.parseFExpDa).made s ∧
    N.parseDaEffect.made s = (N.daEffectBody N.parseDaEffect).made s ∧
    N.parseSimpleDuration.made s = (N.simpleDurationBody N.parseSimpleDuration).made s ∧
    N.parseMetricFExp.made s = (N.metricFExpBody N.parseMetricFExp).made s :=
  ⟨AlikeN.fix_made ignoreEolCommentBody_alikeN s, AlikeN.fix_made termBody_alikeN s,
    AlikeN.fix_made fExpBody_alikeN s, AlikeN.fix_made gdBody_alikeN s, AlikeN.fix_made preGdBody_alikeN s,
    AlikeN.fix_made conGdBody_alikeN s, AlikeN.fix_made prefConGdBody_alikeN s,
    AlikeN.fix_made cEffectBody_alikeN s, AlikeN.fix_made daGdBody_alikeN s,
    AlikeN.fix_made fExpDaBody_alikeN s, AlikeN.fix_made daEffectBody_alikeN s,
    AlikeN.fix_made simpleDurationBody_alikeN s, AlikeN.fix_made metricFExpBody_alikeN s⟩

/-- The names of nested terms, in an accepted text and in one whose end is missing. -/
example : N.parseTerm.made c!"(f (g ?x) a)" = [c!"f", c!"g", c!"x", c!"a"] ∧
    N.parseTerm.made c!"(f (g ?x) a" = [c!"f", c!"g", c!"x", c!"a"] := by decide +kernel

end Pddl
