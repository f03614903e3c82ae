import Verif.Codec.Spec

/-
The notation of the TPM 2.0 Library Specification, Part 2: Structures (TCG), and
what it means for bytes to be a structure defined there.  Nothing here refers to
the code or to the type universe of the model; only `Bytes`, `digits256` (the
big-endian digits of a number) and `positional` (the number they stand for) are
shared.

Part 2 defines structures by tables.  A row of a table is a member with its
type, an array `name[count]{:max}` whose number of elements is the value of the
earlier member `count`, or a union `[selector]name` whose type depends on the
value of the earlier member `selector`.

Left out: the ranges of interface types (`TPMI_...`), which restrict the values
of an integer; here they are integers of their size.
-/

namespace Verif.Tcg
open Verif

mutual
/-- A type of Part 2. -/
inductive Shape where
  /-- `UINT8`, `UINT16`, `UINT32`, `UINT64`, and the constants, attributes and
  interface types based on them -/
  | uint (bytes : Nat)
  /-- `BYTE[n]` with a constant number of bytes -/
  | octets (n : Nat)
  /-- `TPM2B_...`: `UINT16 size; BYTE buffer[size]{:max}` -/
  | buffer (max : Nat)
  /-- `TPM2B_...`: `UINT16 size; T contents` with `size` the size of the contents -/
  | sized (contents : Shape)
  /-- a table -/
  | table (rows : Rows)
/-- The rows of a table. -/
inductive Rows where
  | nil
  /-- a member -/
  | row (name : String) (type : Shape) (rest : Rows)
  /-- `name[count]{:max}` -/
  | array (name : String) (type : Shape) (count : String) (max : Nat) (rest : Rows)
  /-- `[selector]name` -/
  | union (name selector : String) (cases : Cases) (rest : Rows)
/-- The rows of a union: selector and type. -/
inductive Cases where
  | nil
  | case (selector : Nat) (type : Shape) (rest : Cases)
end

mutual
/-- The bytes are a structure of this type. -/
def Valid : Shape → Bytes → Prop
  | .uint n, b => b.length = n
  | .octets n, b => b.length = n
  | .buffer max, b => ∃ c, b = digits256 2 c.length ++ c ∧ c.length < 65536 ∧ c.length ≤ max
  | .sized t, b => ∃ c, b = digits256 2 c.length ++ c ∧ c.length < 65536 ∧ Valid t c
  | .table rows, b => ValidRows rows [] b
/-- The bytes are the members of these rows; `env` holds the values of the
earlier members. -/
def ValidRows : Rows → List (String × Nat) → Bytes → Prop
  | .nil, _, b => b = []
  | .row x t r, env, b =>
    ∃ c d, b = c ++ d ∧ Valid t c ∧ ValidRows r ((x, positional c) :: env) d
  | .array _ t count max r, env, b =>
    ∃ n, env.lookup count = some n ∧ n ≤ max ∧
      ∃ (es : List Bytes) (d : Bytes), b = es.flatten ++ d ∧ es.length = n ∧
        (∀ e ∈ es, Valid t e) ∧ ValidRows r env d
  | .union _ sel cs r, env, b =>
    ∃ s, env.lookup sel = some s ∧ ∃ c d, b = c ++ d ∧ ValidCase cs s c ∧ ValidRows r env d
/-- The bytes are of the type this union has for selector `s`. -/
def ValidCase : Cases → Nat → Bytes → Prop
  | .nil, _, _ => False
  | .case s t r, sel, b => if sel = s then Valid t b else ValidCase r sel b
end

end Verif.Tcg
