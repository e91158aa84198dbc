import Lean
import Verif.Nom

/-!
# A syntax-directed tactic for predicates on parsers

`comb` proves goals `F … p …`, where `F` is a predicate on parsers and `p` a parser expression, by
repeatedly applying the lemma named after the head symbol of `p`: for `p = f …` this is
`Pddl.F.f`, `Pddl.F.f_one`, `Pddl.F.f_cons` or `Pddl.f_F` (with `F` in lower case), whichever exists
and applies.  This is proof automation only; every proof it finds is checked by the kernel.
-/

namespace Pddl
open Lean Elab Tactic Meta

elab "comb_step" : tactic => withMainContext do
  let t ← instantiateMVars (← getMainTarget)
  let .const (.str `Pddl pred) _ := t.getAppFn | throwError "comb: not a predicate"
  for a in t.getAppArgs do
    let ty ← instantiateMVars (← inferType a)
    if ty.isAppOf `Pddl.P || ty.isAppOf `Pddl.E.P || ty.isAppOf `Pddl.K.P ||
        ty.isAppOf `Pddl.D.P || ty.isForall then
      if let .const (.str _ f) _ := a.getAppFn then
        let ns := Name.mkStr `Pddl pred
        for c in [ns.str f, ns.str (f ++ "_one"), ns.str (f ++ "_cons"),
            Name.mkStr `Pddl (f ++ "_" ++ pred.decapitalize)] do
          if (← getEnv).contains c then
            let saved ← saveState
            try
              let g ← getMainGoal
              let e ← mkConstWithFreshMVarLevels c
              let gs ← withReducible (g.apply e)
              replaceMainGoal gs
              return
            catch _ => saved.restore
      throwError "comb: no lemma for {a}"
  throwError "comb: no parser in goal"

macro "comb" : tactic => `(tactic| repeat' comb_step)

end Pddl
