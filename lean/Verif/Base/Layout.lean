import Verif.Codec.Ty

/-
In-memory layout of the modelled types: `core::mem::size_of` for `repr(C)`
structures, `repr(C, uN)` enums, primitive types, arrays and `repr(transparent)`
wrappers (the Rust reference, chapter "Type layout").  The alignment of an
`n`-byte integer depends on the target and is a parameter `al`.
-/

namespace Verif

/-- The next multiple of `a` (no change for `a = 0`). -/
def roundUp (off a : Nat) : Nat := off + (a - off % a) % a

mutual
/-- Size and alignment of a type. -/
def layout (al : Nat → Nat) : Ty → Nat × Nat
  | .prim n => (n, al n)
  | .unit => (0, 1)
  | .bytes m => (m, 1)
  | .tpm2b cap => (roundUp (2 + cap) (al 2), al 2)
  | .struct fs =>
    let l := layoutFields al fs 0 1
    (roundUp l.1 l.2, l.2)
  | .enum w vs =>
    let u := layoutVariants al vs
    let a := max (al w) u.2
    (roundUp (roundUp w u.2 + roundUp u.1 u.2) a, a)
  | .split pre w mid vs =>
    let p := layoutFields al pre 0 1
    let m := layoutFields al mid p.1 p.2
    let u := layoutVariants al vs
    let ea := max (al w) u.2
    let es := roundUp (roundUp w u.2 + roundUp u.1 u.2) ea
    let a := max m.2 ea
    (roundUp (roundUp m.1 ea + es) a, a)
/-- End offset and alignment after placing the fields from offset `off`. -/
def layoutFields (al : Nat → Nat) : Fields → Nat → Nat → Nat × Nat
  | .nil, off, a => (off, a)
  | .plain t r, off, a =>
    let l := layout al t
    layoutFields al r (roundUp off l.2 + l.1) (max a l.2)
  | .fixedArr t n r, off, a =>
    let l := layout al t
    layoutFields al r (roundUp off l.2 + n * l.1) (max a l.2)
  | .lenArr _ t n r, off, a =>
    let l := layout al t
    layoutFields al r (roundUp off l.2 + n * l.1) (max a l.2)
/-- Size (before padding) and alignment of the union of the variants. -/
def layoutVariants (al : Nat → Nat) : Variants → Nat × Nat
  | .nil => (0, 1)
  | .cons _ fs rest =>
    let l := layoutFields al fs 0 1
    let u := layoutVariants al rest
    (max (roundUp l.1 l.2) u.1, max l.2 u.2)
end

/-- `size_of::<T>()` for target alignments `al`. -/
def sizeOfTy (al : Nat → Nat) (t : Ty) : Nat := (layout al t).1

/-- Alignments on the 64-bit targets (x86_64, aarch64): every integer is
aligned to its size. -/
def al64 (n : Nat) : Nat := n

end Verif
