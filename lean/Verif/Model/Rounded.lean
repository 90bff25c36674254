import Verif.Model.Planck

/-!
# The radiance code in inexact arithmetic

`Model/Planck.lean` computes with real numbers.  Here the same functions are written over an
arbitrary arithmetic `F`: every `+`, `-`, `*`, `/`, `np.exp`, `np.log` of the Python and every
decimal literal that is not a binary fraction goes through `F`, in the order in which Python
evaluates the expressions.  `Arith.exact` is the real arithmetic, and with it the functions below
are those of `Model/Planck.lean` (`Lemmas/Rounded.lean`).

Not represented: overflow, underflow and non-finite values.  Negation is exact in IEEE arithmetic
and is not passed through `F`; the literals `1.0`, `0.0`, `1e9` and `125.0` are exact doubles.
-/

namespace Verif.Model

open Verif.Py Real

/-- The operations of one floating-point implementation, on the real values of its operands. -/
structure Arith where
  add : ℝ → ℝ → ℝ
  sub : ℝ → ℝ → ℝ
  mul : ℝ → ℝ → ℝ
  div : ℝ → ℝ → ℝ
  exp : ℝ → ℝ
  log : ℝ → ℝ
  /-- the value stored for a decimal literal -/
  lit : ℝ → ℝ

/-- Real arithmetic. -/
noncomputable def Arith.exact : Arith :=
  ⟨(· + ·), (· - ·), (· * ·), (· / ·), Real.exp, Real.log, id⟩

/-- Every operation returns its exact result up to a relative error `u`.  (IEEE double precision:
`2⁻⁵³` for the four operations and literals; `np.exp` and `np.log` are accurate to one unit in the
last place, `2⁻⁵²`.) -/
structure Arith.Accurate (F : Arith) (u : ℝ) : Prop where
  add : ∀ a b, |F.add a b - (a + b)| ≤ u * |a + b|
  sub : ∀ a b, |F.sub a b - (a - b)| ≤ u * |a - b|
  mul : ∀ a b, |F.mul a b - a * b| ≤ u * |a * b|
  div : ∀ a b, b ≠ 0 → |F.div a b - a / b| ≤ u * |a / b|
  exp : ∀ a, |F.exp a - Real.exp a| ≤ u * Real.exp a
  log : ∀ a, 0 < a → |F.log a - Real.log a| ≤ u * |Real.log a|
  lit : ∀ a, |F.lit a - a| ≤ u * |a|

namespace Arith

/-- `tk2b_mod`, utils.py:531. -/
def tk2b (F : Arith) (hvk t : ℝ) : ℝ := F.div 1 (F.sub (F.exp (F.div hvk t)) 1)

open Classical in
/-- `RTEquation.bright`, rt_equation.py:98-103.  `none`: logarithm of a non-positive number or
division by zero. -/
noncomputable def bright (F : Arith) (hvk boft : ℝ) : Option ℝ :=
  if boft ≠ 0 then
    let a := F.add 1 (F.div 1 boft)
    if a ≤ 0 then none
    else if F.log a = 0 then none
    else some (F.div hvk (F.log a))
  else some 0

/-- `hvk`, rt_equation.py:397-401. -/
noncomputable def hvkOf (F : Arith) (frq : ℝ) : ℝ :=
  F.div (F.mul (F.mul frq 1e9) (F.lit cPlanck)) (F.lit cBoltzmann)

/-- `boftlay` and `batmlay`, rt_equation.py:421-424 and :445-448: `near`/`far` are the radiances of
the layer's boundary nearer to and farther from the observer, `before` the opacity in front of
the layer. -/
def batmlay (F : Arith) (near far tau before : ℝ) : ℝ :=
  let boftlay := F.div (F.add near (F.mul far (F.exp (-tau)))) (F.add 1 (F.exp (-tau)))
  F.mul (F.mul boftlay (F.exp (-before))) (F.sub 1 (F.exp (-tau)))

/-- Loop body of the ground branch, rt_equation.py:443-449. -/
def groundBody (F : Arith) (hvk : ℝ) (t taulay : ℕ → ℝ) (i : ℕ) (a : PlanckArrays) :
    PlanckArrays :=
  let boft := Function.update a.boft i (F.tk2b hvk (t i))
  let batm := F.batmlay (boft (i - 1)) (boft i) (taulay i) (a.tauprof (i - 1))
  ⟨Function.update a.tauprof i (F.add (a.tauprof (i - 1)) (taulay i)),
    Function.update a.boftatm i (F.add (a.boftatm (i - 1)) batm), boft⟩

/-- The loop of the ground branch, rt_equation.py:441-449. -/
def groundArrays (F : Arith) (hvk : ℝ) (nl : ℕ) (t taulay : ℕ → ℝ) : PlanckArrays :=
  forRange 1 nl (F.groundBody hvk t taulay)
    { PlanckArrays.zeros with boft := Function.update (fun _ => 0) 0 (F.tk2b hvk (t 0)) }

/-- Loop body of the satellite branch, rt_equation.py:419-425. -/
def satBody (F : Arith) (hvk : ℝ) (t taulay : ℕ → ℝ) (i : ℕ) (a : PlanckArrays) :
    PlanckArrays :=
  let boft := Function.update a.boft i (F.tk2b hvk (t i))
  let batm := F.batmlay (boft (i + 1)) (boft i) (taulay (i + 1)) (a.tauprof (i + 1))
  ⟨Function.update a.tauprof i (F.add (a.tauprof (i + 1)) (taulay (i + 1))),
    Function.update a.boftatm i (F.add (a.boftatm (i + 1)) batm), boft⟩

/-- The loop of the satellite branch, rt_equation.py:417-425. -/
def satArrays (F : Arith) (hvk : ℝ) (nl : ℕ) (t taulay : ℕ → ℝ) : PlanckArrays :=
  forDown (nl - 1) (F.satBody hvk t taulay)
    { PlanckArrays.zeros with boft := Function.update (fun _ => 0) (nl - 1) (F.tk2b hvk (t (nl - 1))) }

open Classical in
/-- `boftotl` and `hvk` as returned by `RTEquation.planck`, rt_equation.py:396-463. -/
noncomputable def planck (F : Arith) (fromSat : Bool) (emissivity frq : ℝ) (nl : ℕ)
    (t taulay : ℕ → ℝ) : Option (ℝ × ℝ) :=
  if nl = 0 then none else
  let hvk := F.hvkOf frq
  if fromSat then
    let a := F.satArrays hvk nl t taulay
    if a.tauprof 0 < 125 then
      let boftbg := F.add (F.mul emissivity (F.tk2b hvk (t 0))) (F.mul (F.sub 1 emissivity) 0)
      some (F.add (F.mul boftbg (F.exp (-a.tauprof 0))) (a.boftatm 0), hvk)
    else some (a.boftatm 0, hvk)
  else
    let a := F.groundArrays hvk nl t taulay
    if a.tauprof (nl - 1) < 125 then
      let boftbg := F.tk2b hvk (F.lit cTcosmicbkg)
      some (F.add (F.mul boftbg (F.exp (-a.tauprof (nl - 1)))) (a.boftatm (nl - 1)), hvk)
    else some (a.boftatm (nl - 1), hvk)

/-- The brightness temperature stored by `execute`, tb_spectrum.py:373-380:
`RTEquation.bright(hvk, boftotl)` of what `planck` returned. -/
noncomputable def tbtotal (F : Arith) (fromSat : Bool) (emissivity frq : ℝ) (nl : ℕ)
    (t taulay : ℕ → ℝ) : Option ℝ :=
  (F.planck fromSat emissivity frq nl t taulay).bind fun o => F.bright o.2 o.1

end Arith

end Verif.Model
