namespace Geotecha.IO

/-- Python exceptions of the input/output code. -/
inductive Exn
  | syntaxError | attributeError | valueError | typeError | indexError | keyError | osError | user (n : Nat)
  deriving DecidableEq, Repr

end Geotecha.IO
