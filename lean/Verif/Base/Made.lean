import Verif.Codec.Spec
import Verif.Codec.Impl
import Verif.Base.Tpml

/-
The values a program can get from the crates' functions, and values without
anything in the unused parts of their buffers.  Specification for C82.
-/

namespace Verif.Base
open Verif Verif.Errors

/-! ### Unused parts -/

mutual
/-- Nothing is left in the unused parts: bytes of sized buffers beyond the size
are zero, and slots of counted arrays beyond the count have the default value. -/
def Clean : Ty → Val → Prop
  | .tpm2b _, .tpm2b size b => ∀ x ∈ b.drop size, x = 0
  | .struct fs, .struct vs => CleanFields fs [] vs
  | .enum _ vs, .enum sel fvs => CleanVariant vs sel fvs
  | .split pre _ mid vs, .split pvs mvs sel fvs =>
      CleanFields pre [] pvs ∧ CleanFields mid [] mvs ∧ CleanVariant vs sel fvs
  | _, _ => True
/-- The same for field lists. -/
def CleanFields : Fields → List Nat → List Val → Prop
  | .plain t r, env, v :: vs => Clean t v ∧ CleanFields r (env ++ [asUsize v]) vs
  | .fixedArr t _ r, env, .arr es :: vs => (∀ e ∈ es, Clean t e) ∧ CleanFields r (env ++ [0]) vs
  | .lenArr k t _ r, env, .arr es :: vs =>
      (∀ e ∈ es.take (env.getD k 0), Clean t e) ∧ (∀ e ∈ es.drop (env.getD k 0), e = t.default) ∧
      CleanFields r (env ++ [0]) vs
  | _, _, _ => True
/-- The same for variant data. -/
def CleanVariant : Variants → Nat → List Val → Prop
  | .nil, _, _ => True
  | .cons s fs rest, sel, fvs => if sel = s then CleanFields fs [] fvs else CleanVariant rest sel fvs
end

/-! ### Types with a default value -/

mutual
/-- Every enum has a variant, and the selector of the first one fits. -/
def declares : Ty → Bool
  | .struct fs => declaresFields fs
  | .enum w vs => declaresVariants w vs
  | .split pre w mid vs => declaresFields pre && declaresFields mid && declaresVariants w vs
  | _ => true
/-- The same for field lists. -/
def declaresFields : Fields → Bool
  | .nil => true
  | .plain t r => declares t && declaresFields r
  | .fixedArr t _ r => declares t && declaresFields r
  | .lenArr _ t _ r => declares t && declaresFields r
/-- The same for the first variant. -/
def declaresVariants : Nat → Variants → Bool
  | _, .nil => false
  | w, .cons s fs _ => decide (s < 256 ^ w) && declaresFields fs
end

/-! ### Values made by the crates' functions -/

mutual
/-- The values a program gets from literals of integers, arrays and structures, and
from the functions of the crates.  A literal of a structure with a counted array
is one whose unused slots have the default value. -/
inductive Made : Ty → Val → Prop
  | int (n x : Nat) (h : x < 256 ^ n) : Made (.prim n) (.int x)
  | unit : Made .unit .unit
  | bytes (m : Nat) (b : Bytes) (h : b.length = m) : Made (.bytes m) (.bytes b)
  | struct (fs : Fields) (vs : List Val) (h : MadeFields fs [] vs) : Made (.struct fs) (.struct vs)
  | enum (w : Nat) (vs : Variants) (sel : Nat) (fs : Fields) (fvs : List Val)
      (hs : sel < 256 ^ w) (hf : vs.find sel = some fs) (h : MadeFields fs [] fvs) :
      Made (.enum w vs) (.enum sel fvs)
  | split (pre : Fields) (w : Nat) (mid : Fields) (vs : Variants) (pvs mvs : List Val) (sel : Nat)
      (fs : Fields) (fvs : List Val) (hp : MadeFields pre [] pvs) (hm : MadeFields mid [] mvs)
      (hs : sel < 256 ^ w) (hf : vs.find sel = some fs) (h : MadeFields fs [] fvs) :
      Made (.split pre w mid vs) (.split pvs mvs sel fvs)
  | default (t : Ty) (h : declares t = true) : Made t t.default
  | decoded (t : Ty) (b r : Bytes) (v : Val) (h : unmarshal t b = (.ok v, r)) : Made t v
  | fromBytes (cap : Nat) (b : Bytes) (v : Val) (h : tpm2bFromBytes cap b = .ok v) :
      Made (.tpm2b cap) v
  | fromStruct (cap : Nat) (t : Ty) (v w : Val) (hc : cap < 65536) (hv : HasTy t v)
      (h : tpm2bFromStruct cap t v = .ok w) : Made (.tpm2b cap) w
  | toStruct (t : Ty) (o v : Val) (h : tpm2bToStruct t o = .ok v) : Made t v
  | listNew (t : Ty) (n : Nat) (es : List Val) (v : Val) (hn : n < 2 ^ 32)
      (he : ∀ e ∈ es, Made t e) (h : tpmlNew t n es = .ok v) : Made (tpml t n) v
  | listAdd (t : Ty) (n : Nat) (v e w : Val) (hv : Made (tpml t n) v) (he : Made t e)
      (h : tpmlAdd v e = (.ok (), w)) : Made (tpml t n) w
/-- The fields of a literal. -/
inductive MadeFields : Fields → List Nat → List Val → Prop
  | nil (env : List Nat) : MadeFields .nil env []
  | plain (t : Ty) (r : Fields) (env : List Nat) (v : Val) (vs : List Val) (hv : Made t v)
      (h : MadeFields r (env ++ [asUsize v]) vs) : MadeFields (.plain t r) env (v :: vs)
  | fixedArr (t : Ty) (n : Nat) (r : Fields) (env : List Nat) (es vs : List Val)
      (hn : es.length = n) (he : ∀ e ∈ es, Made t e) (h : MadeFields r (env ++ [0]) vs) :
      MadeFields (.fixedArr t n r) env (.arr es :: vs)
  | lenArr (k : Nat) (t : Ty) (n : Nat) (r : Fields) (env : List Nat) (es vs : List Val)
      (hk : env.getD k 0 = es.length) (hn : es.length ≤ n) (he : ∀ e ∈ es, Made t e)
      (h : MadeFields r (env ++ [0]) vs) :
      MadeFields (.lenArr k t n r) env
        (.arr (es ++ List.replicate (n - es.length) t.default) :: vs)
end

end Verif.Base
