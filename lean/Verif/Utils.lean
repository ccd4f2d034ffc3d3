/-
`utils/datetime.py`.
-/
import Verif.Core

namespace SW.Utils

/-- What an attribute of a `dict` object is: a bound method, or (for objects that have computed
variables as attributes, which a `dict` has not) an array. -/
inductive PyAttr (F : Type) where
  | method (name : String)
  | array (a : Arr F)

/-- the public attributes of a Python `dict` -/
def dictMethods : List String :=
  ["clear", "copy", "fromkeys", "get", "items", "keys", "pop", "popitem", "setdefault", "update",
   "values"]

/-- `d.name` where `d` is the `dict` returned by `evaluate` (`_core.py:191-203`). The keys of a `dict`
are not attributes of it; the names with two underscores are not modelled. -/
def dictAttr {F : Type} (_d : Eval F) (name : String) : Except PyErr (PyAttr F) :=
  if name ∈ dictMethods then .ok (.method name) else .error .attributeError

variable {F : Type} [Scalar F] {β : Type}

/-- Common text of `true_solar_time` (`utils/datetime.py:7-22`) and `universal_time_coordinated`
(`utils/datetime.py:25-40`): `evaluate(times, 0., 0.).eot` with the default arguments of `evaluate`
(`_core.py:42-43`), then `rest`, the lines after it (`utils/datetime.py:13-22`, `31-40`), which is left
arbitrary: the theorem holds whatever they do. -/
def withEot (rest : Times → Coord F → Arr F → Except PyErr β) (times : Times) (longitude : Coord F) :
    Except PyErr β :=
  match evaluate (F := F) times (.scalar 0.0) (.scalar 0.0) "psa" 1 .pyTrue "numexpr" with
  | .error e => .error e
  | .ok d =>
    match dictAttr d "eot" with
    | .error e => .error e
    | .ok (.method _) => .error .attributeError  -- `.shape` of a method
    | .ok (.array eot) => rest times longitude eot

/-- `true_solar_time`, `utils/datetime.py:7-22` -/
def trueSolarTime (rest : Times → Coord F → Arr F → Except PyErr β) (timesUtc : Times)
    (longitude : Coord F) : Except PyErr β := withEot rest timesUtc longitude

/-- `universal_time_coordinated`, `utils/datetime.py:25-40` -/
def universalTimeCoordinated (rest : Times → Coord F → Arr F → Except PyErr β) (timesTst : Times)
    (longitude : Coord F) : Except PyErr β := withEot rest timesTst longitude

end SW.Utils
