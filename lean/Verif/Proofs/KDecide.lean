/-
  `kdecide`: close a decidable goal by evaluation in the kernel, like `decide +kernel`, but also
  when the context mentions variables the evaluation does not need (here: the unspecified libm
  functions).  The proof term is `of_decide_eq_true (Eq.refl true)`; the kernel checks it.
-/
import Lean.Elab.Tactic.Basic
import Lean.Meta.Tactic.Assert

open Lean Meta Elab Tactic in
elab "kdecide" : tactic => do
  let g ← getMainGoal
  g.withContext do
    let p ← instantiateMVars (← g.getType)
    let inst ← synthInstance (mkApp (mkConst ``Decidable) p)
    let inst ← instantiateMVars inst
    g.assign (mkApp3 (mkConst ``of_decide_eq_true) p inst
      (mkApp2 (mkConst ``Eq.refl [1]) (mkConst ``Bool) (mkConst ``Bool.true)))
    replaceMainGoal []
