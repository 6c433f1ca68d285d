/-!
# Exceptions

Python exceptions are values of `Err`.  The four PYroMat classes are
`/repo/src/pyromat/utility.py:33-58`; the others are the Python built-in exceptions that the
modelled code can raise.
-/

namespace PyroMat

/-- Exceptions raised by the modelled code.  `param`, `file`, `data`, `analysis` are
`PMParamError`, `PMFileError`, `PMDataError`, `PMAnalysisError`
(`/repo/src/pyromat/utility.py:39-58`); the rest are Python built-ins. -/
inductive Err where
  | param | file | data | analysis
  | key | attribute | name | type | value | index | unboundLocal | zeroDivision | exception
  deriving DecidableEq, Repr

end PyroMat
