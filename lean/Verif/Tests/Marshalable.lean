import Verif.Derive.Sem

/-!
The unit tests of the repository, transcribed: what they check holds of the model.  This says
nothing about all inputs; it is a check of the model against the expectations written down
by the authors of the code.  Each theorem has the name of its test and cites it; a test that
goes through several steps is the conjunction of its assertions.

This file: marshalable/src/tests.rs.
-/

namespace Verif.Tests
open Verif Verif.Derive

/-! ### Integers -/

/-- The macro `impl_test_scalar`: marshalable/src/tests.rs:8-40. -/
def Scalar (n : Nat) (i : UInt8) (v : Nat) : Prop :=
  (∃ e, (unmarshal (.prim n) (List.replicate (n - 1) i)).1 = .err e) ∧
  (unmarshal (.prim n) (List.replicate n i)).1 = .ok (.int v) ∧
  (unmarshal (.prim n) (List.replicate (n + 4) i)).1 = .ok (.int v) ∧
  (∃ e, (marshal (.prim n) (.int v) (List.replicate (n - 1) i)).1 = .err e) ∧
  marshal (.prim n) (.int v) (List.replicate n 0) = (.ok n, List.replicate n i) ∧
  ∃ tail, marshal (.prim n) (.int v) (List.replicate (n + 4) 0) = (.ok n, List.replicate n i ++ tail)

/-- marshalable/src/tests.rs:42-45 -/
theorem test_try_unmarshal_u8 : Scalar 1 0xFF 0xFF :=
  ⟨⟨_, rfl⟩, rfl, rfl, ⟨_, rfl⟩, rfl, _, rfl⟩

/-- marshalable/src/tests.rs:47-50 -/
theorem test_try_unmarshal_i8 : Scalar 1 0x7F 0x7F :=
  ⟨⟨_, rfl⟩, rfl, rfl, ⟨_, rfl⟩, rfl, _, rfl⟩

/-- marshalable/src/tests.rs:52-55 -/
theorem test_try_unmarshal_u16 : Scalar 2 0xFF 0xFFFF :=
  ⟨⟨_, rfl⟩, rfl, rfl, ⟨_, rfl⟩, rfl, _, rfl⟩

/-- marshalable/src/tests.rs:57-60 -/
theorem test_try_unmarshal_i16 : Scalar 2 0x7F 0x7F7F :=
  ⟨⟨_, rfl⟩, rfl, rfl, ⟨_, rfl⟩, rfl, _, rfl⟩

/-- marshalable/src/tests.rs:62-65 -/
theorem test_try_unmarshal_u32 : Scalar 4 0xFF 0xFFFFFFFF :=
  ⟨⟨_, rfl⟩, rfl, rfl, ⟨_, rfl⟩, rfl, _, rfl⟩

/-- marshalable/src/tests.rs:67-70 -/
theorem test_try_unmarshal_i32 : Scalar 4 0x7F 0x7F7F7F7F :=
  ⟨⟨_, rfl⟩, rfl, rfl, ⟨_, rfl⟩, rfl, _, rfl⟩

/-- marshalable/src/tests.rs:72-75 -/
theorem test_try_unmarshal_u64 : Scalar 8 0xFF 0xFFFFFFFFFFFFFFFF :=
  ⟨⟨_, rfl⟩, rfl, rfl, ⟨_, rfl⟩, rfl, _, rfl⟩

/-- marshalable/src/tests.rs:77-80 -/
theorem test_try_unmarshal_i64 : Scalar 8 0x7F 0x7F7F7F7F7F7F7F7F :=
  ⟨⟨_, rfl⟩, rfl, rfl, ⟨_, rfl⟩, rfl, _, rfl⟩

/-! ### Derived structures -/

/-- A type given by its name. -/
def named (i : Ident) : TypeE := .path (.ident i)

/-- `struct BasicFields`: marshalable/src/tests.rs:82-87. -/
def basicFields : Input := ⟨"BasicFields", [], .struct (.named
  [⟨"x", named "u32", []⟩, ⟨"y", named "u16", []⟩, ⟨"z", named "u8", []⟩])⟩

/-- `struct NestedFields`: marshalable/src/tests.rs:89-94. -/
def nestedFields : Input := ⟨"NestedFields", [], .struct (.named
  [⟨"one", named "BasicFields", []⟩, ⟨"two", named "u32", []⟩, ⟨"three", named "BasicFields", []⟩])⟩

/-- `struct HasArray`: marshalable/src/tests.rs:147-153. -/
def hasArray : Input := ⟨"HasArray", [], .struct (.named
  [⟨"count", named "u8", []⟩, ⟨"other", named "u32", []⟩,
   ⟨"array", .array (named "u8") (.lit 128),
    [⟨.ident "marshalable", some [.path (.ident "length"), .eq, .path (.ident "count")]⟩]⟩])⟩

/-- `struct Nameless`: marshalable/src/tests.rs:182-183. -/
def nameless : Input := ⟨"Nameless", [], .struct (.unnamed [named "u32", named "u16"])⟩

/-- `struct HasPlainArrayField`: marshalable/src/tests.rs:195-199. -/
def hasPlainArrayField : Input := ⟨"HasPlainArrayField", [], .struct (.named
  [⟨"a", named "u32", []⟩, ⟨"b", .array (named "u8") (.lit 10), []⟩])⟩

/-- `struct HasUnitField`: marshalable/src/tests.rs:214-219. -/
def hasUnitField : Input := ⟨"HasUnitField", [], .struct (.named
  [⟨"a", named "u8", []⟩, ⟨"b", .other, []⟩, ⟨"c", named "u32", []⟩])⟩

/-- `enum EnumWithVariantData`: marshalable/src/tests.rs:234-240. -/
def enumWithVariantData : Input := ⟨"EnumWithVariantData", [], .enum
  [⟨"A", .unnamed [named "u8"], some (.lit 1)⟩, ⟨"B", .unnamed [named "u8"], some (.lit 2)⟩,
   ⟨"C", .unnamed [named "u64"], some (.lit 3)⟩]⟩

/-- The types the declarations mention; `()` is the only one that is not a path or an array. -/
def ctx : Ctx where
  ty
    | .path p =>
      match p.getIdent with
      | some "u8" => some (.prim 1)
      | some "u16" => some (.prim 2)
      | some "u32" => some (.prim 4)
      | some "u64" => some (.prim 8)
      | some "BasicFields" => some (.struct (.plain (.prim 4) (.plain (.prim 2) (.plain (.prim 1) .nil))))
      | _ => none
    | .other => some .unit
    | _ => none
  size
    | .lit n => some n
    | _ => none
  sel
    | .lit n => some n
    | _ => none

/-- The implementation the derive macro gives a declaration. -/
def compiled (w : Nat) (input : Input) : Option Codec :=
  match deriveMarshalable input with
  | .ok items => implOf ctx w input items
  | _ => none

/-- The variant implementation it gives an enum. -/
def compiledVariant (input : Input) : Option VariantCodec :=
  match deriveMarshalable input, input.data with
  | .ok [.variant _ arms conds, _], .enum vs => elabVariant ctx vs arms conds
  | _, _ => none

/-- A `BasicFields`. -/
def basic (x y z : Nat) : Val := .struct [.int x, .int y, .int z]

/-- The value of `test_derive_nested` and `test_derive_bounds`. -/
def nested : Val := .struct [basic 10 32 4, .int 88, basic 11 33 5]

/-- marshalable/src/tests.rs:95-105 -/
theorem test_derive_basic : ∃ c buf, compiled 0 basicFields = some c ∧
    c.marshal (basic 10 32 4) (List.replicate 8 0) = (.ok 7, buf) ∧
    (c.unmarshal buf).1 = .ok (basic 10 32 4) ∧
    (marshal (.bytes 8) (.bytes (List.replicate 8 0xF)) buf).1.isOk = true ∧
    (marshal (.bytes 8) (.bytes (List.replicate 8 0xF)) buf).2 = List.replicate 8 0xF :=
  ⟨_, _, rfl, rfl, rfl, rfl, rfl⟩

/-- marshalable/src/tests.rs:107-122 -/
theorem test_derive_nested : ∃ c n buf, compiled 0 nestedFields = some c ∧
    c.marshal nested (List.replicate 20 0) = (.ok n, buf) ∧
    (c.unmarshal buf).1 = .ok nested ∧
    (marshal (.bytes 20) (.bytes (List.replicate 20 0xF)) buf).1.isOk = true ∧
    (marshal (.bytes 20) (.bytes (List.replicate 20 0xF)) buf).2 = List.replicate 20 0xF :=
  ⟨_, _, _, rfl, rfl, rfl, rfl, rfl⟩

/-- marshalable/src/tests.rs:124-145; the buffer of twenty bytes ends with two bytes that are not
part of the encoding, the rest of the large one is zero as well. -/
theorem test_derive_bounds : ∃ c n m buf huge, compiled 0 nestedFields = some c ∧
    c.marshal nested (List.replicate 20 0) = (.ok n, buf) ∧
    (∃ e, (c.marshal nested (List.replicate 3 0)).1 = .err e) ∧
    c.marshal nested (List.replicate 64 0) = (.ok m, huge) ∧
    huge.take buf.length = buf ∧
    (c.unmarshal huge).1 = .ok nested :=
  ⟨_, _, _, _, _, rfl, rfl, ⟨_, rfl⟩, rfl, rfl, rfl⟩

set_option maxRecDepth 4000 in
/-- marshalable/src/tests.rs:155-180 -/
theorem test_derive_custom_len : ∃ c buf array, compiled 0 hasArray = some c ∧
    c.marshal (.struct [.int 10, .int 0, .arr (List.replicate 128 (.int 9))]) (List.replicate 256 0) =
      (.ok (10 + 4 + 1), buf) ∧
    (c.unmarshal buf).1 = .ok (.struct [.int 10, .int 0, .arr array]) ∧
    array.take 10 = List.replicate 10 (.int 9) ∧
    array ≠ List.replicate 128 (.int 9) := by
  refine ⟨_, [10, 0, 0, 0, 0] ++ List.replicate 10 9 ++ List.replicate 241 0,
    List.replicate 10 (.int 9) ++ List.replicate 118 (.int 0), rfl, rfl, rfl, rfl, ?_⟩
  intro h
  cases congrArg (·[10]?) h

/-- marshalable/src/tests.rs:185-193 -/
theorem test_derive_nameless_fields : ∃ c n buf, compiled 0 nameless = some c ∧
    c.marshal (.struct [.int 7777777, .int 61]) (List.replicate 6 0) = (.ok n, buf) ∧
    (c.unmarshal buf).1 = .ok (.struct [.int 7777777, .int 61]) :=
  ⟨_, _, _, rfl, rfl, rfl⟩

/-- The value of `test_derive_array_field`. -/
def plainArray : Val := .struct [.int 0x10101010,
  .arr [.int 3, .int 4, .int 3, .int 4, .int 3, .int 4, .int 3, .int 4, .int 3, .int 4]]

/-- marshalable/src/tests.rs:201-212 -/
theorem test_derive_array_field : ∃ c n buf, compiled 0 hasPlainArrayField = some c ∧
    c.marshal plainArray (List.replicate 16 0) = (.ok n, buf) ∧
    (c.unmarshal buf).1 = .ok plainArray :=
  ⟨_, _, _, rfl, rfl, rfl⟩

/-- marshalable/src/tests.rs:221-232 -/
theorem test_derive_unit_struct : ∃ c n buf, compiled 0 hasUnitField = some c ∧
    c.marshal (.struct [.int 4, .unit, .int 0x12122121]) (List.replicate (1 + 4) 0) = (.ok n, buf) ∧
    (c.unmarshal buf).1 = .ok (.struct [.int 4, .unit, .int 0x12122121]) :=
  ⟨_, _, _, rfl, rfl, rfl⟩

/-- marshalable/src/tests.rs:242-256 -/
theorem test_derive_enum : ∃ c, compiledVariant enumWithVariantData = some c ∧
    c.marshal 2 [.int 0x42] (List.replicate 1 0) = (.ok 1, [0x42]) ∧
    (c.unmarshal 2 [0x42]).1 = .ok (.enum 2 [.int 0x42]) :=
  ⟨_, rfl, rfl, rfl⟩

end Verif.Tests
