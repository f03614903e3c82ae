import Verif.Codec.Ty

/-
Model of the code: `try_unmarshal` / `try_marshal` of the primitive types and
the code generated by `#[derive(Marshalable)]`, `#[derive(Tpm2bStruct)]`.
-/

namespace Verif

/-! ### Unmarshalling -/

/-- A function taking `buffer: &mut UnmarshalBuf` and returning `Result<α>`
(marshalable/src/lib.rs:32, 70-72).  The second component is what is left in
the buffer afterwards, also when the call fails. -/
def UM (α : Type) : Type := Bytes → Res MErr α × Bytes

namespace UM

/-- `Ok(a)`. -/
def pure {α : Type} (a : α) : UM α := fun b => (.ok a, b)

/-- Sequencing with `?`: the first error or panic is returned, with the buffer
as it was left at that point. -/
def bind {α β : Type} (m : UM α) (f : α → UM β) : UM β := fun b =>
  match m b with
  | (.ok a, b') => f a b'
  | (.err e, b') => (.err e, b')
  | (.panic, b') => (.panic, b')

/-- `return Err(e)`. -/
def fail {α : Type} (e : MErr) : UM α := fun b => (.err e, b)

/-- a panic -/
def panic {α : Type} : UM α := fun b => (.panic, b)

instance : Monad UM where
  pure := UM.pure
  bind := UM.bind

end UM

/-- `UnmarshalBuf::get`: marshalable/src/lib.rs:78-86. -/
def bufGet (len : Nat) : UM (Option Bytes) := fun b =>
  if len > b.length then (.ok none, b) else (.ok (some (b.take len)), b.drop len)

/-- `<[u8; M]>::try_unmarshal`: marshalable/src/lib.rs:132-140. -/
def unmarshalBytes (m : Nat) : UM Bytes := do
  match ← bufGet m with
  | some mine =>
    -- `x.copy_from_slice(mine)` with `x : [u8; M]`
    if mine.length = m then pure mine else UM.panic
  | none => UM.fail .unexpectedEndOfBuffer

/-- `uN::try_unmarshal`: marshalable/src/lib.rs:102-105. -/
def unmarshalPrim (n : Nat) : UM Nat := do
  let x ← unmarshalBytes n
  pure (fromBE x)

/-- `try_unmarshal` of a `tpm2b_simple` structure:
marshalable-derive/src/lib.rs:255-275. -/
def unmarshalTpm2b (cap : Nat) : UM Val := do
  let gotSize ← unmarshalPrim 2
  match ← bufGet gotSize with
  | none => UM.fail .unexpectedEndOfBuffer
  | some sized =>
    if sized.length > cap then UM.fail .unexpectedEndOfBuffer
    else
      -- `dest.field[..got_size.into()].copy_from_slice(..)`
      match copyPrefix (List.replicate cap 0) gotSize sized with
      | some field => pure (.tpm2b gotSize field)
      | none => UM.panic

/-- The loop `for i in name.iter_mut().take(n) { *i = T::try_unmarshal(buffer)?; }`:
marshalable-derive/src/lib.rs:613-615, 622-624.  Returns the overwritten
elements. -/
def unmarshalLoop (u : UM Val) : Nat → UM (List Val)
  | 0 => pure []
  | n + 1 => do
    let v ← u
    let vs ← unmarshalLoop u n
    pure (v :: vs)

mutual
/-- `T::try_unmarshal`. Derived structures: marshalable-derive/src/lib.rs:147-150,
187-189; enums: 686-693; `split`: base/src/lib.rs:791-801, 1195-1203, 1262-1269. -/
def unmarshal : Ty → UM Val
  | .prim n => do
    let x ← unmarshalPrim n
    pure (.int x)
  | .unit => pure .unit
  | .bytes m => do
    let b ← unmarshalBytes m
    pure (.bytes b)
  | .tpm2b cap => unmarshalTpm2b cap
  | .struct fs => do
    let vs ← unmarshalFields fs []
    pure (.struct vs)
  | .enum w vs => do
    let sel ← unmarshalPrim w
    let fvs ← unmarshalVariant vs sel
    pure (.enum sel fvs)
  | .split pre w mid vs => do
    let pvs ← unmarshalFields pre []
    let sel ← unmarshalPrim w
    let mvs ← unmarshalFields mid []
    let fvs ← unmarshalVariant vs sel
    pure (.split pvs mvs sel fvs)
/-- Field by field: marshalable-derive/src/lib.rs:597-634 (named), 654-663
(unnamed).  `env` holds the local variables bound for the preceding fields. -/
def unmarshalFields : Fields → List Nat → UM (List Val)
  | .nil, _ => pure []
  | .plain t r, env => do
    let v ← unmarshal t
    let vs ← unmarshalFields r (env ++ [asUsize v])
    pure (v :: vs)
  | .fixedArr t n r, env => do
    let es ← unmarshalLoop (unmarshal t) n
    let vs ← unmarshalFields r (env ++ [0])
    pure (.arr (es ++ (List.replicate n t.default).drop n) :: vs)
  | .lenArr k t n r, env => do
    let len := env.getD k 0
    if len > n then UM.fail .arrayLengthExceeded
    else
      let es ← unmarshalLoop (unmarshal t) len
      let vs ← unmarshalFields r (env ++ [0])
      pure (.arr (es ++ (List.replicate n t.default).drop len) :: vs)
/-- `try_unmarshal_variant`: marshalable-derive/src/lib.rs:695-727. -/
def unmarshalVariant : Variants → Nat → UM (List Val)
  | .nil, _ => UM.fail .unknownSelector
  | .cons s fs rest, sel =>
    if sel = s then unmarshalFields fs [] else unmarshalVariant rest sel
end

/-! ### Marshalling -/

/-- A function taking `buffer: &mut [u8]` and returning `Result<usize>`
(marshalable/src/lib.rs:35).  The second component is the buffer afterwards,
also when the call fails. -/
abbrev MOut : Type := Res MErr Nat × Bytes

/-- `<[u8; M]>::try_marshal`: marshalable/src/lib.rs:142-149. -/
def marshalBytes (b buf : Bytes) : MOut :=
  if buf.length ≥ b.length then
    match copyPrefix buf b.length b with
    | some buf' => (.ok b.length, buf')
    | none => (.panic, buf)
  else (.err .unexpectedEndOfBuffer, buf)

/-- `uN::try_marshal`: marshalable/src/lib.rs:107-109. -/
def marshalPrim (n x : Nat) (buf : Bytes) : MOut := marshalBytes (toBE n x) buf

/-- `written += f(&mut buffer[written..])?;` — the pattern of every generated
marshalling statement, e.g. marshalable-derive/src/lib.rs:431, 475-476. -/
def mstep (f : Bytes → MOut) (written : Nat) (buf : Bytes) : MOut :=
  if written ≤ buf.length then
    match f (buf.drop written) with
    | (.ok n, sub) => (.ok (written + n), buf.take written ++ sub)
    | (.err e, sub) => (.err e, buf.take written ++ sub)
    | (.panic, sub) => (.panic, buf.take written ++ sub)
  else (.panic, buf)

/-- Continue with the next statement unless the previous one failed. -/
def mthen (r : MOut) (k : Nat → Bytes → MOut) : MOut :=
  match r with
  | (.ok w, buf) => k w buf
  | (.err e, buf) => (.err e, buf)
  | (.panic, buf) => (.panic, buf)

/-- `try_marshal` of a `tpm2b_simple` structure:
marshalable-derive/src/lib.rs:277-286. -/
def marshalTpm2b (cap size : Nat) (field buf : Bytes) : MOut :=
  mthen (marshalPrim 2 size buf) fun used buf =>
    if used ≤ buf.length then  -- `split_at_mut(used)`
      let rest := buf.drop used
      if size > max cap rest.length then (.err .unexpectedEndOfBuffer, buf)
      else
        match sliceTo field size with  -- `&self.field[..buffer_marsh]`
        | none => (.panic, buf)
        | some src =>
          match copyPrefix rest size src with  -- `rest[..buffer_marsh].copy_from_slice`
          | none => (.panic, buf)
          | some rest' => (.ok (used + size), buf.take used ++ rest')
    else (.panic, buf)

/-- `for i in 0..n { written += self.name[i].try_marshal(&mut buffer[written..])?; }`:
marshalable-derive/src/lib.rs:414-418, 421-425.  Indexing beyond the array
panics. -/
def marshalLoop (f : Val → Bytes → MOut) : Nat → List Val → Nat → Bytes → MOut
  | 0, _, written, buf => (.ok written, buf)
  | _ + 1, [], _, buf => (.panic, buf)
  | n + 1, v :: vs, written, buf =>
    mthen (mstep (f v) written buf) fun w buf => marshalLoop f n vs w buf

mutual
/-- `try_marshal`. Derived structures: marshalable-derive/src/lib.rs:191-195;
enums: 473-478; `split`: base/src/lib.rs:775-789, 1182-1194, 1250-1260.
The last case cannot arise for values of the type. -/
def marshal : Ty → Val → Bytes → MOut
  | .prim n, .int x, buf => marshalPrim n x buf
  | .unit, .unit, buf => (.ok 0, buf)
  | .bytes _, .bytes b, buf => marshalBytes b buf
  | .tpm2b cap, .tpm2b size b, buf => marshalTpm2b cap size b buf
  | .struct fs, .struct vs, buf => marshalFields fs [] vs 0 buf
  | .enum w vs, .enum sel fvs, buf =>
    mthen (mstep (marshalPrim w sel) 0 buf) fun written buf =>
      mstep (fun b => marshalVariant vs sel fvs b) written buf
  | .split pre w mid vs, .split pvs mvs sel fvs, buf =>
    mthen (marshalFields pre [] pvs 0 buf) fun written buf =>
      mthen (mstep (marshalPrim w sel) written buf) fun written buf =>
        mthen (marshalFields mid [] mvs written buf) fun written buf =>
          mstep (fun b => marshalVariant vs sel fvs b) written buf
  | _, _, buf => (.panic, buf)
/-- Field by field, `written` bytes having been written already:
marshalable-derive/src/lib.rs:405-434 (named), 458-468 (unnamed).  `env` holds
the values `self.f` of the preceding fields. -/
def marshalFields : Fields → List Nat → List Val → Nat → Bytes → MOut
  | .nil, _, [], written, buf => (.ok written, buf)
  | .plain t r, env, v :: vs, written, buf =>
    mthen (mstep (fun b => marshal t v b) written buf) fun w buf =>
      marshalFields r (env ++ [asUsize v]) vs w buf
  | .fixedArr t n r, env, .arr es :: vs, written, buf =>
    mthen (marshalLoop (fun v b => marshal t v b) n es written buf) fun w buf =>
      marshalFields r (env ++ [0]) vs w buf
  | .lenArr k t _ r, env, .arr es :: vs, written, buf =>
    mthen (marshalLoop (fun v b => marshal t v b) (env.getD k 0) es written buf) fun w buf =>
      marshalFields r (env ++ [0]) vs w buf
  | _, _, _, _, buf => (.panic, buf)
/-- `try_marshal_variant`: marshalable-derive/src/lib.rs:490-521; a fresh
`written = 0` (384-388). -/
def marshalVariant : Variants → Nat → List Val → Bytes → MOut
  | .nil, _, _, buf => (.panic, buf)
  | .cons s fs rest, sel, fvs, buf =>
    if sel = s then marshalFields fs [] fvs 0 buf else marshalVariant rest sel fvs buf
end

/-! ### Sized buffers -/

/-- `Tpm2bSimple::from_bytes`: marshalable-derive/src/lib.rs:225-237. -/
def tpm2bFromBytes (cap : Nat) (b : Bytes) : Res MErr Val :=
  if b.length > min 65535 cap then .err .arrayLengthExceeded
  else
    match copyPrefix (List.replicate cap 0) b.length b with
    | some field => .ok (.tpm2b (b.length % 65536) field)  -- `as u16`
    | none => .panic

/-- `get_buffer` / `as_ref`: marshalable-derive/src/lib.rs:221-223, 248-252. -/
def tpm2bGetBuffer : Val → Res MErr Bytes
  | .tpm2b size field =>
    match sliceTo field size with
    | some b => .ok b
    | none => .panic
  | _ => .panic

/-- `Tpm2bStruct::from_struct`: marshalable-derive/src/lib.rs:95-99; the outer
type has capacity `cap`. -/
def tpm2bFromStruct (cap : Nat) (t : Ty) (v : Val) : Res MErr Val :=
  match marshal t v (List.replicate cap 0) with
  | (.ok n, field) => .ok (.tpm2b (n % 65536) field)  -- `as u16`
  | (.err e, _) => .err e
  | (.panic, _) => .panic

/-- `Tpm2bStruct::to_struct`: marshalable-derive/src/lib.rs:101-104. -/
def tpm2bToStruct (t : Ty) (outer : Val) : Res MErr Val :=
  (tpm2bGetBuffer outer).bind fun b => (unmarshal t b).1

end Verif
