/-!
# Python exceptions as values
-/

namespace Verif.Py

/-- The exceptions the modelled code can raise. -/
inductive PyErr where
  | indexError
  | valueError
  | typeError
  | attributeError
  | keyError
  | unboundLocalError
  | nameError
  | systemExit
  | other
  /-- not an exception: a value that is not finite (the real program carries on with `nan` or `inf`) -/
  | notFinite
  deriving DecidableEq, Repr

end Verif.Py
