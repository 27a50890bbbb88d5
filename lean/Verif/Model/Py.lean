/-
Python-level conventions shared by the whole model.

Python exceptions are values of `PyErr`; a python computation that may raise is a
term of `Py α = Except PyErr α`.
-/

namespace AMAT

/-- The exception classes that the modelled parts of `/repo/AMAT` can raise
(explicitly, e.g. planet.py:225, or implicitly through a missing attribute, an unbound
local variable, an empty array, or `None` used as a number). -/
inductive PyErr where
  | valueError
  | attributeError
  | typeError
  | indexError
  | unboundLocalError
  | zeroDivisionError
  deriving DecidableEq, Repr

/-- A python computation that may raise. -/
abbrev Py (α : Type) := Except PyErr α

/-- Reading an attribute that may never have been assigned: `none` models
"attribute does not exist on the object", which python reports as `AttributeError`. -/
def getAttr {α : Type} (a : Option α) : Py α :=
  match a with
  | some x => .ok x
  | none => .error .attributeError

/-- Using a python value that may be `None` where a number is needed: `TypeError`. -/
def needNumber {α : Type} (a : Option α) : Py α :=
  match a with
  | some x => .ok x
  | none => .error .typeError

end AMAT
