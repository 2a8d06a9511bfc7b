import Verif.Model.Selection

/-!
# `SoftSelection.draw` with its second argument (`selection_probability/generic_selectors.py`)

`selDraw` has the draw with the default `use_log=True`, the only one the package itself asks for.
-/

set_option autoImplicit false

namespace Popsynth

variable {F G : Type} [LE F] [DecidableLE F] [OfNat F 0] [OfNat F 1]

/-- `stats.bernoulli.rvs(probs, size=len(values)).astype(bool)`, generic_selectors.py:334-336. -/
def softMask (env : SelEnv F G) (probs : List F) : Py (SelSt F G) Unit := do
  if probs.all env.validProb then
    let s ← get
    let (m, g) := bernMany env probs s.rng
    setMask m
    modify fun s => { s with rng := g }
  else raise .value

/-- `SoftSelection.draw(size, use_log)`, generic_selectors.py:306-336.  Without logarithm the boundary is
read before the values are used. -/
def softDraw (env : SelEnv F G) (useLog : Bool) : Py (SelSt F G) Unit := do
  let s ← get
  let v ← liftE (chosenValues s.sel.data)
  let k ← selParam declStrength "strength"
  if useLog then
    let vs ← liftE (needArray v)
    let b ← selParam declBoundary "boundary"
    softMask env (vs.map (env.softLog k b))
  else
    let b ← selParam declBoundary "boundary"
    let vs ← liftE (needArray v)
    softMask env (vs.map (env.softLin k b))

end Popsynth
