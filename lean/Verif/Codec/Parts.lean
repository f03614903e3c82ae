import Verif.Codec.Spec

/-
Specification of what writing a value into a buffer of any size does, stated
without offsets or buffers: a value is a sequence of parts, of which as many
are written as fit.
-/

namespace Verif

/-- What a value is made of, in the order of its encoding. -/
inductive Part where
  /-- an integer or an array of bytes: written as a whole -/
  | item (b : Bytes)
  /-- the contents of a sized buffer: the capacity of its type, the value of
  its size field and the whole array -/
  | contents (cap size : Nat) (array : Bytes)
  /-- an array element that does not exist -/
  | missing

/-- The bytes of a part on the wire. -/
def Part.bytes : Part → Bytes
  | .item b => b
  | .contents _ size array => array.take size
  | .missing => []

mutual
/-- The parts of a value.  The last case cannot arise for values of the type. -/
def parts : Ty → Val → List Part
  | .prim n, .int x => [.item (digits256 n x)]
  | .unit, .unit => []
  | .bytes _, .bytes b => [.item b]
  | .tpm2b cap, .tpm2b size b => [.item (digits256 2 size), .contents cap size b]
  | .struct fs, .struct vs => partsFields fs [] vs
  | .enum w vs, .enum sel fvs => .item (digits256 w sel) :: partsVariant vs sel fvs
  | .split pre w mid vs, .split pvs mvs sel fvs =>
      partsFields pre [] pvs ++ (.item (digits256 w sel) ::
        (partsFields mid [] mvs ++ partsVariant vs sel fvs))
  | _, _ => [.missing]
/-- The parts of the fields one after the other.  A counted array contributes
as many elements as its length field says, whether there are so many or not. -/
def partsFields : Fields → List Nat → List Val → List Part
  | .nil, _, [] => []
  | .plain t r, env, v :: vs => parts t v ++ partsFields r (env ++ [asUsize v]) vs
  | .fixedArr t n r, env, .arr es :: vs =>
      ((es.take n).map fun e => parts t e).flatten ++
        (if n ≤ es.length then [] else [.missing]) ++ partsFields r (env ++ [0]) vs
  | .lenArr k t _ r, env, .arr es :: vs =>
      ((es.take (env.getD k 0)).map fun e => parts t e).flatten ++
        (if env.getD k 0 ≤ es.length then [] else [.missing]) ++ partsFields r (env ++ [0]) vs
  | _, _, _ => [.missing]
/-- The parts of the data of the selected variant. -/
def partsVariant : Variants → Nat → List Val → List Part
  | .nil, _, _ => [.missing]
  | .cons s fs rest, sel, fvs => if sel = s then partsFields fs [] fvs else partsVariant rest sel fvs
end

/-- What becomes of a part when `space` bytes are left: `ok` if it is written. -/
def Part.fate (space : Nat) : Part → Res MErr Unit
  | .item b => if b.length ≤ space then .ok () else .err .unexpectedEndOfBuffer
  | .contents cap size array =>
      if size ≤ array.length ∧ size ≤ space then .ok ()
      else if cap < size ∧ space < size then .err .unexpectedEndOfBuffer
      else .panic
  | .missing => .panic

/-- Writing parts into `space` bytes: the first part that is not written
decides.  Result and bytes written. -/
def writeParts : List Part → Nat → Res MErr Nat × Bytes
  | [], _ => (.ok 0, [])
  | p :: ps, space =>
    match p.fate space with
    | .ok () =>
      let r := writeParts ps (space - p.bytes.length)
      (r.1.map (p.bytes.length + ·), p.bytes ++ r.2)
    | .err e => (.err e, [])
    | .panic => (.panic, [])

/-- The part can be written, given enough space. -/
def Part.Sound : Part → Prop
  | .item _ => True
  | .contents cap size array => array.length = cap ∧ size ≤ cap
  | .missing => False

/-- A part that, with `space` bytes left, crashes the caller: an element that
does not exist; the contents of a sized buffer if the size is within the
capacity but not within the space, or the other way round. -/
def Part.Breaks (space : Nat) : Part → Prop
  | .item _ => False
  | .contents cap size _ => size ≤ cap ∧ space < size ∨ cap < size ∧ size ≤ space
  | .missing => True

/-- A part that, with `space` bytes left, is refused with an error. -/
def Part.Refused (space : Nat) : Part → Prop
  | .item b => space < b.length
  | .contents cap size _ => cap < size ∧ space < size
  | .missing => False

/-- The encoded length of parts. -/
abbrev partsLen (ps : List Part) : Nat := (ps.flatMap Part.bytes).length

/-- After sound parts that fit `space` bytes, a part follows for which `P`
holds with the space that is left. -/
def StopsAt (P : Nat → Part → Prop) (ps : List Part) (space : Nat) : Prop :=
  ∃ pre p post, ps = pre ++ p :: post ∧ (∀ q ∈ pre, q.Sound) ∧ partsLen pre ≤ space ∧
    P (space - partsLen pre) p

end Verif
