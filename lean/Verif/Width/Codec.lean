import Verif.Codec.Typed
import Verif.Codec.MarshalAny

/-
The codec on a machine with a `usize` of a given width.  Verif/Codec/Impl.lean computes
with unbounded numbers; here casts to `usize` truncate and sums may overflow.
-/

namespace Verif

/-- A target: the width of `usize`, and whether arithmetic overflow panics (as in debug
builds) or wraps around. -/
structure Machine where
  bits : Nat
  checked : Bool

namespace Machine

/-- `x as usize` (core language): the low-order bits. -/
def cast (m : Machine) (x : Nat) : Nat := x % 2 ^ m.bits

/-- `a + b` in `usize` (core language); `none` is a panic. -/
def add (m : Machine) (a b : Nat) : Option Nat :=
  if a + b < 2 ^ m.bits then some (a + b)
  else if m.checked then none
  else some ((a + b) % 2 ^ m.bits)

end Machine

/-! ### Unmarshalling -/

/-- `try_unmarshal` of a `tpm2b_simple` structure, with `got_size as usize`:
marshalable-derive/src/lib.rs:255-275. -/
def unmarshalTpm2bOn (m : Machine) (cap : Nat) : UM Val := do
  let gotSize ← unmarshalPrim 2
  match ← bufGet (m.cast gotSize) with
  | none => UM.fail .unexpectedEndOfBuffer
  | some sized =>
    if sized.length > cap then UM.fail .unexpectedEndOfBuffer
    else
      -- `got_size.into()` is lossless
      match copyPrefix (List.replicate cap 0) gotSize sized with
      | some field => pure (.tpm2b gotSize field)
      | none => UM.panic

mutual
/-- `T::try_unmarshal`: marshalable-derive/src/lib.rs:147-150, 187-189, 686-693;
base/src/lib.rs:791-801, 1195-1203, 1262-1269. -/
def unmarshalOn (m : Machine) : Ty → UM Val
  | .prim n => do
    let x ← unmarshalPrim n
    pure (.int x)
  | .unit => pure .unit
  | .bytes k => do
    let b ← unmarshalBytes k
    pure (.bytes b)
  | .tpm2b cap => unmarshalTpm2bOn m cap
  | .struct fs => do
    let vs ← unmarshalFieldsOn m fs []
    pure (.struct vs)
  | .enum w vs => do
    let sel ← unmarshalPrim w
    let fvs ← unmarshalVariantOn m vs sel
    pure (.enum sel fvs)
  | .split pre w mid vs => do
    let pvs ← unmarshalFieldsOn m pre []
    let sel ← unmarshalPrim w
    let mvs ← unmarshalFieldsOn m mid []
    let fvs ← unmarshalVariantOn m vs sel
    pure (.split pvs mvs sel fvs)
/-- Field by field, the length fields cast to `usize`:
marshalable-derive/src/lib.rs:597-634, 654-663. -/
def unmarshalFieldsOn (m : Machine) : Fields → List Nat → UM (List Val)
  | .nil, _ => pure []
  | .plain t r, env => do
    let v ← unmarshalOn m t
    let vs ← unmarshalFieldsOn m r (env ++ [asUsize v])
    pure (v :: vs)
  | .fixedArr t n r, env => do
    let es ← unmarshalLoop (unmarshalOn m t) n
    let vs ← unmarshalFieldsOn m r (env ++ [0])
    pure (.arr (es ++ (List.replicate n t.default).drop n) :: vs)
  | .lenArr k t n r, env => do
    let len := m.cast (env.getD k 0)
    if len > n then UM.fail .arrayLengthExceeded
    else
      let es ← unmarshalLoop (unmarshalOn m t) len
      let vs ← unmarshalFieldsOn m r (env ++ [0])
      pure (.arr (es ++ (List.replicate n t.default).drop len) :: vs)
/-- `try_unmarshal_variant`: marshalable-derive/src/lib.rs:695-727. -/
def unmarshalVariantOn (m : Machine) : Variants → Nat → UM (List Val)
  | .nil, _ => UM.fail .unknownSelector
  | .cons s fs rest, sel =>
    if sel = s then unmarshalFieldsOn m fs [] else unmarshalVariantOn m rest sel
end

/-! ### Marshalling -/

/-- `written += f(&mut buffer[written..])?;`: marshalable-derive/src/lib.rs:431, 475-476. -/
def mstepOn (m : Machine) (f : Bytes → MOut) (written : Nat) (buf : Bytes) : MOut :=
  if written ≤ buf.length then
    match f (buf.drop written) with
    | (.ok n, sub) =>
      match m.add written n with
      | some w => (.ok w, buf.take written ++ sub)
      | none => (.panic, buf.take written ++ sub)
    | (.err e, sub) => (.err e, buf.take written ++ sub)
    | (.panic, sub) => (.panic, buf.take written ++ sub)
  else (.panic, buf)

/-- `try_marshal` of a `tpm2b_simple` structure, with `self.get_size() as usize` and
`used + buffer_marsh`: marshalable-derive/src/lib.rs:277-286. -/
def marshalTpm2bOn (m : Machine) (cap size : Nat) (field buf : Bytes) : MOut :=
  mthen (marshalPrim 2 size buf) fun used buf =>
    if used ≤ buf.length then
      let rest := buf.drop used
      let bufferMarsh := m.cast size
      if bufferMarsh > max cap rest.length then (.err .unexpectedEndOfBuffer, buf)
      else
        match sliceTo field bufferMarsh with
        | none => (.panic, buf)
        | some src =>
          match copyPrefix rest bufferMarsh src with
          | none => (.panic, buf)
          | some rest' =>
            match m.add used bufferMarsh with
            | some w => (.ok w, buf.take used ++ rest')
            | none => (.panic, buf.take used ++ rest')
    else (.panic, buf)

/-- The loop over an array: marshalable-derive/src/lib.rs:414-418, 421-425. -/
def marshalLoopOn (m : Machine) (f : Val → Bytes → MOut) : Nat → List Val → Nat → Bytes → MOut
  | 0, _, written, buf => (.ok written, buf)
  | _ + 1, [], _, buf => (.panic, buf)
  | n + 1, v :: vs, written, buf =>
    mthen (mstepOn m (f v) written buf) fun w buf => marshalLoopOn m f n vs w buf

mutual
/-- `try_marshal`: marshalable-derive/src/lib.rs:191-195, 473-478;
base/src/lib.rs:775-789, 1182-1194, 1250-1260. -/
def marshalOn (m : Machine) : Ty → Val → Bytes → MOut
  | .prim n, .int x, buf => marshalPrim n x buf
  | .unit, .unit, buf => (.ok 0, buf)
  | .bytes _, .bytes b, buf => marshalBytes b buf
  | .tpm2b cap, .tpm2b size b, buf => marshalTpm2bOn m cap size b buf
  | .struct fs, .struct vs, buf => marshalFieldsOn m fs [] vs 0 buf
  | .enum w vs, .enum sel fvs, buf =>
    mthen (mstepOn m (marshalPrim w sel) 0 buf) fun written buf =>
      mstepOn m (fun b => marshalVariantOn m vs sel fvs b) written buf
  | .split pre w mid vs, .split pvs mvs sel fvs, buf =>
    mthen (marshalFieldsOn m pre [] pvs 0 buf) fun written buf =>
      mthen (mstepOn m (marshalPrim w sel) written buf) fun written buf =>
        mthen (marshalFieldsOn m mid [] mvs written buf) fun written buf =>
          mstepOn m (fun b => marshalVariantOn m vs sel fvs b) written buf
  | _, _, buf => (.panic, buf)
/-- Field by field: marshalable-derive/src/lib.rs:405-434, 458-468. -/
def marshalFieldsOn (m : Machine) : Fields → List Nat → List Val → Nat → Bytes → MOut
  | .nil, _, [], written, buf => (.ok written, buf)
  | .plain t r, env, v :: vs, written, buf =>
    mthen (mstepOn m (fun b => marshalOn m t v b) written buf) fun w buf =>
      marshalFieldsOn m r (env ++ [asUsize v]) vs w buf
  | .fixedArr t n r, env, .arr es :: vs, written, buf =>
    mthen (marshalLoopOn m (fun v b => marshalOn m t v b) n es written buf) fun w buf =>
      marshalFieldsOn m r (env ++ [0]) vs w buf
  | .lenArr k t _ r, env, .arr es :: vs, written, buf =>
    mthen (marshalLoopOn m (fun v b => marshalOn m t v b) (m.cast (env.getD k 0)) es written buf)
      fun w buf => marshalFieldsOn m r (env ++ [0]) vs w buf
  | _, _, _, _, buf => (.panic, buf)
/-- `try_marshal_variant`: marshalable-derive/src/lib.rs:490-521. -/
def marshalVariantOn (m : Machine) : Variants → Nat → List Val → Bytes → MOut
  | .nil, _, _, buf => (.panic, buf)
  | .cons s fs rest, sel, fvs, buf =>
    if sel = s then marshalFieldsOn m fs [] fvs 0 buf else marshalVariantOn m rest sel fvs buf
end

/-! ### Specification: the types for which this makes no difference -/

/-- The number of bytes of an integer type (marshalable/src/lib.rs:113-120); other types
give no lengths. -/
def Ty.countBytes : Ty → Nat
  | .prim n => n
  | _ => 0

mutual
/-- All lengths of arrays are given by fields of at most `c` bytes. -/
def Ty.countsIn (c : Nat) : Ty → Bool
  | .struct fs => fs.countsIn c []
  | .enum _ vs => vs.countsIn c
  | .split pre _ mid vs => pre.countsIn c [] && mid.countsIn c [] && vs.countsIn c
  | _ => true
/-- The same for fields, after fields of the given numbers of bytes. -/
def Fields.countsIn (c : Nat) : Fields → List Nat → Bool
  | .nil, _ => true
  | .plain t r, ws => t.countsIn c && r.countsIn c (ws ++ [t.countBytes])
  | .fixedArr t _ r, ws => t.countsIn c && r.countsIn c (ws ++ [0])
  | .lenArr k t _ r, ws => decide (ws.getD k 0 ≤ c) && t.countsIn c && r.countsIn c (ws ++ [0])
/-- The same for variants. -/
def Variants.countsIn (c : Nat) : Variants → Bool
  | .nil => true
  | .cons _ fs r => fs.countsIn c [] && r.countsIn c
end

/-! ### Proof -/

/-- The values of the preceding fields fit their numbers of bytes. -/
def EnvIn (ws env : List Nat) : Prop :=
  ws.length = env.length ∧ ∀ k, env.getD k 0 < 256 ^ ws.getD k 0

theorem EnvIn.nil : EnvIn [] [] := ⟨rfl, fun _ => by simp⟩

theorem EnvIn.snoc {ws env : List Nat} (h : EnvIn ws env) {n x : Nat} (hx : x < 256 ^ n) :
    EnvIn (ws ++ [n]) (env ++ [x]) := by
  obtain ⟨h1, h2⟩ := h
  refine ⟨by simp [h1], fun k => ?_⟩
  simp only [List.getD_eq_getElem?_getD, List.getElem?_append] at h2 ⊢
  have := h2 k
  by_cases hk : k < env.length
  · rw [if_pos hk, if_pos (by omega)]
    exact this
  · rw [if_neg hk, if_neg (by omega), h1]
    by_cases h0 : k - env.length = 0
    · rw [h0]; simpa using hx
    · obtain ⟨j, hj⟩ : ∃ j, k - env.length = j + 1 := ⟨k - env.length - 1, by omega⟩
      rw [hj]; simp

theorem asUsize_lt {t : Ty} {v : Val} (h : HasTy t v) : asUsize v < 256 ^ t.countBytes := by
  cases t <;> cases v <;> simp_all [HasTy, asUsize, Ty.countBytes]

theorem asUsize_lt_wf {t : Ty} {v : Val} (h : WF t v) : asUsize v < 256 ^ t.countBytes := by
  cases t <;> cases v <;> simp_all [WF, asUsize, Ty.countBytes]

variable {m : Machine} {c : Nat}

theorem pow_le_bits {n : Nat} (hn : n ≤ c) (hc : 8 * c ≤ m.bits) : 256 ^ n ≤ 2 ^ m.bits := by
  rw [show (256 : Nat) = 2 ^ 8 from rfl, ← Nat.pow_mul]
  exact Nat.pow_le_pow_right (by decide) (by omega)

theorem cast_of_lt {x n : Nat} (hx : x < 256 ^ n) (hn : n ≤ c) (hc : 8 * c ≤ m.bits) :
    m.cast x = x :=
  Nat.mod_eq_of_lt (Nat.lt_of_lt_of_le hx (pow_le_bits hn hc))

theorem cast_u16 {x : Nat} (hx : x < 65536) (hb : 16 ≤ m.bits) : m.cast x = x :=
  cast_of_lt (c := 2) (n := 2) hx (by decide) hb

theorem unmarshalPrim_lt {n x : Nat} {b r : Bytes} (h : unmarshalPrim n b = (.ok x, r)) :
    x < 256 ^ n := by
  have := ((goodTy (.prim n)).sound b (.int x) r (by
    simp only [unmarshal, UM.bind_eq, h, UM.pure_eq])).1
  simpa [WF] using this

theorem bind_congr' {α β : Type} {u : UM α} {f g : α → UM β} (b : Bytes)
    (h : ∀ a r, u b = (.ok a, r) → f a r = g a r) : (u >>= f) b = (u >>= g) b := by
  simp only [UM.bind_eq]
  rcases hu : u b with ⟨a | _ | _, r⟩
  · exact h a r hu
  · rfl
  · rfl

theorem unmarshalTpm2bOn_eq (hb : 16 ≤ m.bits) (cap : Nat) :
    unmarshalTpm2bOn m cap = unmarshalTpm2b cap := by
  funext b
  unfold unmarshalTpm2bOn unmarshalTpm2b
  apply bind_congr'
  intro x r h
  rw [cast_u16 (by simpa using unmarshalPrim_lt h) hb]
  rfl

mutual
theorem unmarshalOn_eq (hb : 16 ≤ m.bits) (hc : 8 * c ≤ m.bits) : ∀ t : Ty, t.countsIn c = true →
    unmarshalOn m t = unmarshal t
  | .prim n, _ => by simp only [unmarshalOn, unmarshal]
  | .unit, _ => by simp only [unmarshalOn, unmarshal]
  | .bytes n, _ => by simp only [unmarshalOn, unmarshal]
  | .tpm2b cap, _ => by simp only [unmarshalOn, unmarshal, unmarshalTpm2bOn_eq hb]
  | .struct fs, h => by
    simp only [unmarshalOn, unmarshal]
    rw [unmarshalFieldsOn_eq hb hc fs [] [] (by simpa [Ty.countsIn] using h) .nil]
  | .enum w vs, h => by
    simp only [unmarshalOn, unmarshal]
    rw [funext (unmarshalVariantOn_eq hb hc vs (by simpa [Ty.countsIn] using h))]
  | .split pre w mid vs, h => by
    simp only [Ty.countsIn, Bool.and_eq_true] at h
    simp only [unmarshalOn, unmarshal]
    rw [unmarshalFieldsOn_eq hb hc pre [] [] h.1.1 .nil,
      unmarshalFieldsOn_eq hb hc mid [] [] h.1.2 .nil, funext (unmarshalVariantOn_eq hb hc vs h.2)]
theorem unmarshalFieldsOn_eq (hb : 16 ≤ m.bits) (hc : 8 * c ≤ m.bits) : ∀ (fs : Fields)
    (ws env : List Nat), fs.countsIn c ws = true → EnvIn ws env →
    unmarshalFieldsOn m fs env = unmarshalFields fs env
  | .nil, ws, env, _, _ => by simp only [unmarshalFieldsOn, unmarshalFields]
  | .plain t r, ws, env, h, he => by
    simp only [Fields.countsIn, Bool.and_eq_true] at h
    funext b
    simp only [unmarshalFieldsOn, unmarshalFields, unmarshalOn_eq hb hc t h.1]
    apply bind_congr'
    intro v rest hv
    rw [unmarshalFieldsOn_eq hb hc r _ _ h.2 (he.snoc (asUsize_lt_wf ((goodTy t).sound _ _ _ hv).1))]
  | .fixedArr t n r, ws, env, h, he => by
    simp only [Fields.countsIn, Bool.and_eq_true] at h
    simp only [unmarshalFieldsOn, unmarshalFields, unmarshalOn_eq hb hc t h.1,
      unmarshalFieldsOn_eq hb hc r _ _ h.2 (he.snoc (n := 0) (x := 0) (by simp))]
  | .lenArr k t n r, ws, env, h, he => by
    simp only [Fields.countsIn, Bool.and_eq_true, decide_eq_true_eq] at h
    simp only [unmarshalFieldsOn, unmarshalFields, unmarshalOn_eq hb hc t h.1.2,
      unmarshalFieldsOn_eq hb hc r _ _ h.2 (he.snoc (n := 0) (x := 0) (by simp)),
      cast_of_lt (he.2 k) h.1.1 hc]
theorem unmarshalVariantOn_eq (hb : 16 ≤ m.bits) (hc : 8 * c ≤ m.bits) : ∀ vs : Variants,
    vs.countsIn c = true → ∀ sel, unmarshalVariantOn m vs sel = unmarshalVariant vs sel
  | .nil, _, sel => by simp only [unmarshalVariantOn, unmarshalVariant]
  | .cons s fs r, h, sel => by
    simp only [Variants.countsIn, Bool.and_eq_true] at h
    simp only [unmarshalVariantOn, unmarshalVariant, unmarshalFieldsOn_eq hb hc fs [] [] h.1 .nil,
      unmarshalVariantOn_eq hb hc r h.2]
end

/-- The two functions are the same on buffers of this machine, and report no more bytes
than there are. -/
def Agrees (m : Machine) (fM f : Bytes → MOut) : Prop :=
  ∀ b : Bytes, b.length < 2 ^ m.bits →
    fM b = f b ∧ (f b).2.length = b.length ∧ ∀ n, (f b).1 = .ok n → n ≤ b.length

/-- The same with a number of bytes already written. -/
def AgreesAt (m : Machine) (fM f : Nat → Bytes → MOut) : Prop :=
  ∀ (w : Nat) (b : Bytes), b.length < 2 ^ m.bits → w ≤ b.length →
    fM w b = f w b ∧ (f w b).2.length = b.length ∧ ∀ n, (f w b).1 = .ok n → n ≤ b.length

theorem Agrees.step {fM f : Bytes → MOut} (h : Agrees m fM f) :
    AgreesAt m (mstepOn m fM) (mstep f) := by
  intro w b hb hw
  obtain ⟨h1, h2, h3⟩ := h (b.drop w) (by simp; omega)
  unfold mstepOn mstep
  rw [if_pos hw, if_pos hw, h1]
  rcases hf : f (b.drop w) with ⟨n | e | _, sub⟩ <;> rw [hf] at h2 h3
  · have hn := h3 n rfl
    simp only [List.length_drop] at h2 hn
    have ha : m.add w n = some (w + n) := if_pos (by omega)
    simp only [ha, List.length_append, List.length_take, true_and]
    refine ⟨by omega, fun k hk => ?_⟩
    injection hk with hk
    omega
  · simp only [List.length_drop] at h2
    simp; omega
  · simp only [List.length_drop] at h2
    simp; omega

theorem AgreesAt.then {fM f kM k : Nat → Bytes → MOut} (h : AgreesAt m fM f)
    (hk : AgreesAt m kM k) :
    AgreesAt m (fun w b => mthen (fM w b) kM) (fun w b => mthen (f w b) k) := by
  intro w b hb hw
  obtain ⟨h1, h2, h3⟩ := h w b hb hw
  simp only [h1]
  rcases hf : f w b with ⟨n | e | _, sub⟩ <;> rw [hf] at h2 h3
  · simp only [mthen]
    have h2 : sub.length = b.length := h2
    have hn := h3 n rfl
    have := hk n sub (by omega) (by omega)
    rw [h2] at this
    exact this
  · exact ⟨rfl, h2, fun n hn => by simp [mthen] at hn⟩
  · exact ⟨rfl, h2, fun n hn => by simp [mthen] at hn⟩

theorem AgreesAt.start {fM f : Nat → Bytes → MOut} (h : AgreesAt m fM f) :
    Agrees m (fM 0) (f 0) := fun b hb => h 0 b hb (by omega)

theorem AgreesAt.done : AgreesAt m (fun w b => (.ok w, b)) (fun w b => (.ok w, b)) := by
  intro w b hb hw
  refine ⟨rfl, rfl, fun n hn => ?_⟩
  injection hn with hn
  omega

theorem agrees_panic : Agrees m (fun b => (.panic, b)) (fun b => (.panic, b)) :=
  fun b _ => ⟨rfl, rfl, fun n hn => by simp at hn⟩

theorem agreesAt_panic : AgreesAt m (fun _ b => (.panic, b)) (fun _ b => (.panic, b)) :=
  fun _ b _ _ => ⟨rfl, rfl, fun n hn => by simp at hn⟩

theorem agrees_bytes (x : Bytes) : Agrees m (marshalBytes x) (marshalBytes x) := by
  intro b _
  refine ⟨rfl, marshalBytes_len _ _, fun n hn => ?_⟩
  unfold marshalBytes at hn
  split at hn
  · rename_i h
    simp only [copyPrefix, h, and_self, if_true] at hn
    injection hn with hn
    omega
  · simp at hn

theorem agrees_tpm2b (hm : 16 ≤ m.bits) (cap : Nat) {size : Nat} (hs : size < 65536) (x : Bytes) :
    Agrees m (marshalTpm2bOn m cap size x) (marshalTpm2b cap size x) := by
  intro b hb
  refine ⟨?_, marshalTpm2b_len _ _ _ _, ?_⟩
  · unfold marshalTpm2bOn marshalTpm2b
    rw [cast_u16 hs hm]
    have hp := agrees_bytes (m := m) (toBE 2 size) b hb
    unfold marshalPrim
    rcases hf : marshalBytes (toBE 2 size) b with ⟨n | e | _, sub⟩ <;> rw [hf] at hp
    · simp only [mthen]
      have h2 : sub.length = b.length := hp.2.1
      split
      · split
        · rfl
        · rcases sliceTo x size with _ | src
          · rfl
          · simp only
            rcases hcp : copyPrefix (sub.drop n) size src with _ | rest'
            · rfl
            · simp only
              have : m.add n size = some (n + size) := by
                refine if_pos ?_
                unfold copyPrefix at hcp
                split at hcp
                · rename_i hc
                  simp only [List.length_drop] at hc
                  have := hp.2.2 n rfl
                  omega
                · cases hcp
              rw [this]
      · rfl
    · rfl
    · rfl
  · intro n hn
    unfold marshalTpm2b at hn
    obtain ⟨w, b', h1, h2⟩ := mthen_ok hn
    have hl : b'.length = b.length := by
      have := marshalBytes_len (toBE 2 size) b
      unfold marshalPrim at h1
      rw [h1] at this
      exact this
    split at h2
    · dsimp only at h2
      by_cases hg : size > max cap (b'.drop w).length
      · rw [if_pos hg] at h2
        simp at h2
      · rw [if_neg hg] at h2
        rcases hsl : sliceTo x size with _ | src <;> rw [hsl] at h2
        · simp at h2
        · simp only at h2
          rcases hcp : copyPrefix (b'.drop w) size src with _ | rest' <;> rw [hcp] at h2
          · simp at h2
          · simp only at h2
            injection h2 with h2
            unfold copyPrefix at hcp
            split at hcp
            · rename_i hc
              simp only [List.length_drop] at hc
              omega
            · cases hcp
    · simp at h2

theorem agrees_loop {fM f : Val → Bytes → MOut} :
    ∀ (n : Nat) (es : List Val), (∀ e ∈ es, Agrees m (fM e) (f e)) →
      AgreesAt m (marshalLoopOn m fM n es) (marshalLoop f n es)
  | 0, es, _ => by
    have h1 : marshalLoopOn m fM 0 es = fun w b => (.ok w, b) := by
      funext w b; cases es <;> rfl
    have h2 : marshalLoop f 0 es = fun w b => (.ok w, b) := by
      funext w b; cases es <;> rfl
    rw [h1, h2]
    exact .done
  | n + 1, [], _ => agreesAt_panic
  | n + 1, e :: es, h =>
    (h e (by simp)).step.then (agrees_loop n es fun x hx => h x (by simp [hx]))

mutual
theorem marshalOn_agrees (hb : 16 ≤ m.bits) (hc : 8 * c ≤ m.bits) : ∀ (t : Ty) (v : Val),
    t.countsIn c = true → HasTy t v → Agrees m (marshalOn m t v) (marshal t v)
  | .prim n, v, _, hv => by
    cases v <;> simp only [HasTy] at hv
    exact agrees_bytes _
  | .unit, v, _, hv => by
    cases v <;> simp only [HasTy] at hv
    exact fun b _ => ⟨rfl, rfl, fun n hn => by simp only [marshal] at hn; injection hn with hn; omega⟩
  | .bytes n, v, _, hv => by
    cases v <;> simp only [HasTy] at hv
    exact agrees_bytes _
  | .tpm2b cap, v, _, hv => by
    cases v <;> simp only [HasTy] at hv
    exact agrees_tpm2b hb cap hv.1 _
  | .struct fs, v, h, hv => by
    cases v <;> simp only [HasTy] at hv
    exact (marshalFieldsOn_agrees hb hc fs [] [] _ (by simpa [Ty.countsIn] using h) .nil hv).start
  | .enum w vs, v, h, hv => by
    cases v <;> simp only [HasTy] at hv
    exact ((agrees_bytes _).step.then (marshalVariantOn_agrees hb hc vs _ _
      (by simpa [Ty.countsIn] using h) hv.2).step).start
  | .split pre w mid vs, v, h, hv => by
    cases v <;> simp only [HasTy] at hv
    simp only [Ty.countsIn, Bool.and_eq_true] at h
    exact ((marshalFieldsOn_agrees hb hc pre [] [] _ h.1.1 .nil hv.1).then
      ((agrees_bytes _).step.then
        ((marshalFieldsOn_agrees hb hc mid [] [] _ h.1.2 .nil hv.2.1).then
          (marshalVariantOn_agrees hb hc vs _ _ h.2 hv.2.2.2).step))).start
theorem marshalFieldsOn_agrees (hb : 16 ≤ m.bits) (hc : 8 * c ≤ m.bits) : ∀ (fs : Fields)
    (ws env : List Nat) (vs : List Val), fs.countsIn c ws = true → EnvIn ws env →
    HasTyFields fs vs → AgreesAt m (marshalFieldsOn m fs env vs) (marshalFields fs env vs)
  | .nil, ws, env, vs, _, _, hv => by
    cases vs <;> simp only [HasTyFields] at hv
    exact .done
  | .plain t r, ws, env, vs, h, he, hv => by
    cases vs <;> simp only [HasTyFields] at hv
    simp only [Fields.countsIn, Bool.and_eq_true] at h
    exact (marshalOn_agrees hb hc t _ h.1 hv.1).step.then
      (marshalFieldsOn_agrees hb hc r _ _ _ h.2 (he.snoc (asUsize_lt hv.1)) hv.2)
  | .fixedArr t n r, ws, env, vs, h, he, hv => by
    rcases vs with _ | ⟨v, vs⟩
    · simp [HasTyFields] at hv
    cases v <;> simp only [HasTyFields] at hv
    simp only [Fields.countsIn, Bool.and_eq_true] at h
    exact (agrees_loop _ _ fun e he => marshalOn_agrees hb hc t e h.1 (hv.2.1 e he)).then
      (marshalFieldsOn_agrees hb hc r _ _ _ h.2 (he.snoc (n := 0) (x := 0) (by simp)) hv.2.2)
  | .lenArr k t n r, ws, env, vs, h, he, hv => by
    rcases vs with _ | ⟨v, vs⟩
    · simp [HasTyFields] at hv
    cases v <;> simp only [HasTyFields] at hv
    simp only [Fields.countsIn, Bool.and_eq_true, decide_eq_true_eq] at h
    have hk := cast_of_lt (he.2 k) h.1.1 hc
    have hl := (agrees_loop (m.cast (env.getD k 0)) _ fun e he =>
      marshalOn_agrees hb hc t e h.1.2 (hv.2.1 e he)).then
      (marshalFieldsOn_agrees hb hc r _ _ _ h.2 (he.snoc (n := 0) (x := 0) (by simp)) hv.2.2)
    intro w b h1 h2
    have := hl w b h1 h2
    simp only [marshalFieldsOn, marshalFields]
    rw [hk] at this ⊢
    exact this
theorem marshalVariantOn_agrees (hb : 16 ≤ m.bits) (hc : 8 * c ≤ m.bits) : ∀ (vs : Variants)
    (sel : Nat) (fvs : List Val), vs.countsIn c = true → HasTyVariant vs sel fvs →
    Agrees m (marshalVariantOn m vs sel fvs) (marshalVariant vs sel fvs)
  | .nil, sel, fvs, _, hv => by simp only [HasTyVariant] at hv
  | .cons s fs r, sel, fvs, h, hv => by
    simp only [Variants.countsIn, Bool.and_eq_true] at h
    simp only [HasTyVariant] at hv
    intro b hbl
    simp only [marshalVariantOn, marshalVariant]
    split <;> rename_i hs
    · rw [if_pos hs] at hv
      exact (marshalFieldsOn_agrees hb hc fs [] [] _ h.1 .nil hv).start b hbl
    · rw [if_neg hs] at hv
      exact marshalVariantOn_agrees hb hc r sel _ h.2 hv b hbl
end

end Verif
