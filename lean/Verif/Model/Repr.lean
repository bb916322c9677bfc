import Verif.Model.Access

/-!
# Representations and pickles of objects
-/
namespace Xlrd

/-- sheet.py 2245-2253 `ctype_text` -/
def ctypeText (t : Nat) : R PyStr :=
  if t = XL_CELL_EMPTY then .ok "empty".toList
  else if t = XL_CELL_TEXT then .ok "text".toList
  else if t = XL_CELL_NUMBER then .ok "number".toList
  else if t = XL_CELL_DATE then .ok "xldate".toList
  else if t = XL_CELL_BOOLEAN then .ok "bool".toList
  else if t = XL_CELL_ERROR then .ok "error".toList
  else if t = XL_CELL_BLANK then .ok "blank".toList
  else .error .key

/-- sheet.py 2329-2333 `Cell.__repr__`; `rv` is Python's `repr` of values. -/
def cellRepr (rv : Val → PyStr) (c : PCell) : R PyStr := do
  match c.xf with
  | none => do
    let t ← ctypeText c.ty
    pure (t ++ ':' :: rv c.v)
  | some x => do
    let t ← ctypeText c.ty
    pure (t ++ ':' :: rv c.v ++ " (XF:".toList ++ intDec x ++ ")".toList)

/-- sheet.py 2402-2462: the attributes of a `Rowinfo` object, with values of any type (`None` included). -/
structure RowAttrs (α : Type) where
  height : α
  hasDefaultHeight : α
  outlineLevel : α
  outlineGroupStartsEnds : α
  hidden : α
  heightMismatch : α
  hasDefaultXfIndex : α
  xfIndex : α
  additionalSpaceAbove : α
  additionalSpaceBelow : α

/-- sheet.py 2464-2476 `Rowinfo.__getstate__` -/
def rowGetstate {α : Type} (r : RowAttrs α) : List α :=
  [r.height, r.hasDefaultHeight, r.outlineLevel, r.outlineGroupStartsEnds, r.hidden, r.heightMismatch, r.hasDefaultXfIndex, r.xfIndex, r.additionalSpaceAbove,
    r.additionalSpaceBelow]

/-- sheet.py 2478-2490 `Rowinfo.__setstate__`: a tuple of another length cannot be unpacked, and the object keeps its attributes. -/
def rowSetstate {α : Type} (_ : RowAttrs α) (state : List α) : R (RowAttrs α) :=
  match state with
  | [a, b, c, d, e, f, g, h, i, j] => .ok ⟨a, b, c, d, e, f, g, h, i, j⟩
  | _ => .error .value

end Xlrd
