import Mathlib.Data.Real.Basic
import Verif.Py.Err

/-!
# Physical constants

Mirrors the table in `pyrtlib/utils.py:100-112` (`constants`).  Each definition is the first
component of the corresponding dictionary entry.
-/

namespace Verif.Model

/-- `constants('avogadro')[0]`, utils.py:101 -/
noncomputable def cAvogadro : ℝ := 6.022140857e+23
/-- `constants('boltzmann')[0]`, utils.py:102 -/
noncomputable def cBoltzmann : ℝ := 1.3806579999999998e-23
/-- `constants('EarthRadius')[0]` (km), utils.py:103 -/
noncomputable def cEarthRadius : ℝ := 6370.949
/-- `constants('gravity')[0]`, utils.py:104 -/
noncomputable def cGravity : ℝ := 9.80665
/-- `constants('light')[0]`, utils.py:105 -/
noncomputable def cLight : ℝ := 299792458.0
/-- `constants('planck')[0]`, utils.py:107 -/
noncomputable def cPlanck : ℝ := 6.626075499999999e-34
/-- `constants('Rdry')[0]`, utils.py:108 -/
noncomputable def cRdry : ℝ := 287.04
/-- `constants('Rwatvap')[0]`, utils.py:109 -/
noncomputable def cRwatvap : ℝ := 461.52
/-- `constants('Tcosmicbkg')[0]`, utils.py:110 -/
noncomputable def cTcosmicbkg : ℝ := 2.728
/-- `constants('R')[0]`, utils.py:111 -/
noncomputable def cR : ℝ := 8.31446261815324

/-- `constants('Np2dB')[0]`, utils.py:106 -/
noncomputable def cNp2dB : ℝ := 4.342944819032518

/-- `constants_dict`, utils.py:100-112: name, value and unit, in the order of the source. -/
noncomputable def constantsDict : List (String × ℝ × String) :=
  [("avogadro", cAvogadro, "[mol-1]"),
   ("boltzmann", cBoltzmann, "[J K-1]"),
   ("EarthRadius", cEarthRadius, "[km]"),
   ("gravity", cGravity, "[m s-2]"),
   ("light", cLight, "[m s-1]"),
   ("Np2dB", cNp2dB, "[dB/Np]"),
   ("planck", cPlanck, "[J Hz-1]"),
   ("Rdry", cRdry, "[J kg-1 K-1]"),
   ("Rwatvap", cRwatvap, "[J kg-1 K-1]"),
   ("Tcosmicbkg", cTcosmicbkg, "[K]"),
   ("R", cR, "[J mol-1 K-1]")]

/-- What `constants` returns: the list of names, or a value with its unit. -/
inductive ConstResult where
  | names (l : List String)
  | entry (value : ℝ) (unit : String)

/-- `constants_dict[name]` with the `KeyError` turned into a `ValueError`, utils.py:117-122. -/
def entryOf (e : Option (ℝ × String)) : Except Py.PyErr ConstResult :=
  match e with
  | some (v, u) => .ok (.entry v u)
  | none => .error .valueError

/-- `constants(name)`, utils.py:51-124; `not name` is true for `None` and for the empty string. -/
noncomputable def constants (name : Option String) : Except Py.PyErr ConstResult :=
  match name with
  | none => .ok (.names (constantsDict.map Prod.fst))
  | some s =>
    if s = "" then .ok (.names (constantsDict.map Prod.fst))
    else entryOf (constantsDict.lookup s)

end Verif.Model
