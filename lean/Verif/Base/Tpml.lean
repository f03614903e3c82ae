import Verif.Base.Types
import Verif.Errors.Impl

/-
Model of the helpers of TPM list types, `impl_tpml!`:
base/src/lib.rs:1528-1572, instantiated for nine list types (1573-1581).
A list of element type `t` and capacity `n` is a value of type `tpml t n`:
the field `count` and the backing array.
-/

namespace Verif.Base
open Verif Verif.Errors

/-- `default`: base/src/lib.rs:1532-1539. -/
def tpmlDefault (t : Ty) (n : Nat) : Val :=
  .struct [.int 0, .arr (List.replicate n t.default)]

/-- `new`: base/src/lib.rs:1542-1551.  `elements.len() as u32` truncates;
`x.list[..elements.len()].copy_from_slice(elements)` panics if the slice is
longer than the array. -/
def tpmlNew (t : Ty) (n : Nat) (elements : List Val) : Res TpmRcError Val :=
  if elements.length > n then .err .Size
  else
    let count := elements.length % 2 ^ 32
    let list := List.replicate n t.default
    if elements.length ≤ list.length then
      .ok (.struct [.int count, .arr (elements ++ list.drop elements.length)])
    else .panic

/-- `count`: base/src/lib.rs:1563-1565. -/
def tpmlCount : Val → Nat
  | .struct [.int count, .arr _] => count
  | _ => 0

/-- `add`: base/src/lib.rs:1553-1561.  Returns the outcome and the list
afterwards.  `self.list[self.count()] = ..` panics out of range; `count += 1`
panics on overflow of the `u32`. -/
def tpmlAdd (v element : Val) : Res TpmRcError Unit × Val :=
  match v with
  | .struct [.int count, .arr list] =>
    if count ≥ list.length then (.err .Size, v)
    else if count < list.length then
      let list := list.set count element
      if count + 1 < 2 ^ 32 then (.ok (), .struct [.int (count + 1), .arr list])
      else (.panic, .struct [.int count, .arr list])
    else (.panic, v)
  | _ => (.panic, v)  -- not a list value

/-- The accessor, e.g. `pcr_selections()`: base/src/lib.rs:1567-1569; slicing
beyond the array panics. -/
def tpmlElems (n : Nat) : Val → Res TpmRcError (List Val)
  | .struct [.int count, .arr list] =>
    if min count n ≤ list.length then .ok (list.take (min count n)) else .panic
  | _ => .panic  -- not a list value

end Verif.Base
