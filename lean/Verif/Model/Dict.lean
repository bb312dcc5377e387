import Verif.Model.Py

/-
Python `dict` as an insertion ordered association list (runtime primitive, not repository code).
-/

namespace PT
variable {κ β : Type} [DecidableEq κ]

/-- `key in d` -/
def dictHas (d : List (κ × β)) (key : κ) : Bool := d.any fun e => decide (e.1 = key)

/-- `d.get(key)` -/
def dictGet (d : List (κ × β)) (key : κ) : Option β := (d.find? fun e => decide (e.1 = key)).map Prod.snd

/-- `d[key] = value`: a new key goes to the end, an existing one keeps its place. -/
def dictSet (d : List (κ × β)) (key : κ) (value : β) : List (κ × β) :=
  if dictHas d key then d.map fun e => if e.1 = key then (key, value) else e
  else d ++ [(key, value)]

/-- `del d[key]` for a key that is present. -/
def dictDel (d : List (κ × β)) (key : κ) : List (κ × β) := d.filter fun e => decide (e.1 ≠ key)

end PT
