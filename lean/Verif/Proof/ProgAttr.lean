import Lean.Elab.Tactic

/-! Lookup of structural lemmas by naming convention. -/

open Lean Elab Tactic Meta

/-- `head_lemma pre` closes or refines a goal `R .. (f ..)` with the lemma `Verif.pre_f`, where the last argument of the
goal that is an application of a constant `Verif.f` determines `f`. -/
elab "head_lemma" pre:ident : tactic => withMainContext do
  let tgt ← instantiateMVars (← getMainTarget)
  let tgt := tgt.consumeMData
  let mut done := false
  for arg in tgt.getAppArgs.reverse do
    if done then break
    if let .const (.str ns nm) _ := arg.getAppFn then
      let cand := Name.str ns (pre.getId.eraseMacroScopes.toString ++ "_" ++ nm)
      if (← getEnv).contains cand then
        evalTactic (← `(tactic| with_reducible apply $(mkIdent cand)))
        done := true
  unless done do throwError "no lemma"
