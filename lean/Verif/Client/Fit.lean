import Verif.Client.Lemmas
import Verif.Codec.PartsLemmas

/-! Helper lemmas: building a command writes its parts until one does not fit. -/

namespace Verif.Client
open Verif Verif.Base Verif.Errors

/-- Specification: the parts of a command.  The size of the authorization area
is filled in last, but the place for it is taken without looking (as if it were
the contents of a sized buffer): with fewer than four bytes left that crashes. -/
def commandParts (c : Command) (ss : List Session) : List Part :=
  let auths := ss.flatMap fun s => parts TpmsAuthCommand s.authCommand
  let body := parts c.handlesTy c.handles ++
    (if ss.isEmpty then [] else .contents 4 4 (digits256 4 (partsLen auths)) :: auths) ++
    parts c.paramTy c.param
  .item (digits256 2 (if ss.isEmpty then 0x8001 else 0x8002)) ::
  .item (digits256 4 (10 + partsLen body)) :: .item (digits256 4 c.code) :: body

/-- `f` has the result of writing the parts. -/
def Fills (f : Bytes → TOut) (ps : List Part) : Prop := ∀ buf,
  (f buf).1 = (writeParts ps buf.length).1.mapErr merrToTss ∧ (f buf).2.length = buf.length

/-- `g`, from offset `wr ≥ m` on, has the result of writing the parts. -/
def FillsAt (m : Nat) (g : Nat → Bytes → TOut) (ps : List Part) : Prop :=
  ∀ wr buf, m ≤ wr → wr ≤ buf.length →
    (g wr buf).1 = ((writeParts ps (buf.length - wr)).1.map (wr + ·)).mapErr merrToTss ∧
    (g wr buf).2.length = buf.length

theorem fills_marshal (t : Ty) (v : Val) : Fills (fun b => toTss (marshal t v b)) (parts t v) := by
  intro buf
  have hl := (writeParts_len (parts t v) buf.length).1
  simp only [toTss, runs t v buf, List.length_append, List.length_drop]
  exact ⟨trivial, by omega⟩

theorem Fills.step {f : Bytes → TOut} {ps : List Part} (h : Fills f ps) (m : Nat) :
    FillsAt m (tstep f) ps := by
  intro wr buf _ hw
  unfold tstep
  rw [if_pos hw]
  have hb := h (buf.drop wr)
  rw [List.length_drop] at hb
  obtain ⟨h1, h2⟩ := hb
  rcases hf : f (buf.drop wr) with ⟨n | e | _, sub⟩ <;> rw [hf] at h1 h2 <;>
    simp only at h1 h2 ⊢ <;>
    refine ⟨?_, by rw [List.length_append, List.length_take, h2]; omega⟩ <;>
    rcases hr : (writeParts ps (buf.length - wr)).1 with n' | e' | _ <;> rw [hr] at h1 <;>
    simp only [Res.mapErr, Res.map] at h1 ⊢ <;> cases h1 <;> rfl

theorem FillsAt.then {m : Nat} {g k : Nat → Bytes → TOut} {ps qs : List Part}
    (hg : FillsAt m g ps) (hk : FillsAt m k qs) :
    FillsAt m (fun w b => tthen (g w b) k) (ps ++ qs) := by
  intro wr buf hm hw
  have hl := writeParts_len ps (buf.length - wr)
  obtain ⟨h1, h2⟩ := hg wr buf hm hw
  dsimp only
  rw [writeParts_append]
  rcases hr : writeParts ps (buf.length - wr) with ⟨n | e | _, w⟩
  · rw [hr] at h1 hl
    obtain ⟨h3, h4⟩ := hl
    have h4 : n = w.length := h4 n rfl
    rcases hgg : g wr buf with ⟨n' | e' | _, sub⟩ <;> rw [hgg] at h1 h2 <;>
      simp only [Res.map, Res.mapErr] at h1 h2 h3 <;> cases h1
    simp only [tthen, Res.more]
    obtain ⟨h5, h6⟩ := hk (wr + n) sub (by omega) (by omega)
    rw [h2] at h5 h6
    refine ⟨?_, h6⟩
    rw [h5, Nat.sub_sub, Res.map_add]
  · rw [hr] at h1
    rcases hgg : g wr buf with ⟨n' | e' | _, sub⟩ <;> rw [hgg] at h1 h2 <;>
      simp only [Res.map, Res.mapErr] at h1 h2 <;> cases h1
    exact ⟨rfl, h2⟩
  · rw [hr] at h1
    rcases hgg : g wr buf with ⟨n' | e' | _, sub⟩ <;> rw [hgg] at h1 h2 <;>
      simp only [Res.map, Res.mapErr] at h1 h2 <;> cases h1
    exact ⟨rfl, h2⟩

theorem fills_authSize : FillsAt 4 marshalAuthSize [] := by
  intro wr buf hm hw
  have hb := runsPrim 4 ((wr - 4) % 2 ^ 32) buf
  have hlen := digits256_length 4 ((wr - 4) % 2 ^ 32)
  have hwp : writeParts [.item (digits256 4 ((wr - 4) % 2 ^ 32))] buf.length =
      (.ok 4, digits256 4 ((wr - 4) % 2 ^ 32)) := by
    rw [writeParts_sound _ _ (by simp [Part.Sound]) (by simp [Part.bytes, hlen]; omega)]
    simp [Part.bytes, hlen]
  rw [hwp] at hb
  unfold marshalAuthSize
  dsimp only
  rw [hb]
  simp only [toTss, Res.mapErr, tthen, writeParts, Res.map]
  refine ⟨rfl, ?_⟩
  rw [List.length_append, List.length_drop, hlen]
  omega

theorem fills_gap {g : Nat → Bytes → TOut} {ps : List Part} {size : Bytes} (hs : size.length = 4)
    (hg : FillsAt 4 g ps)
    (h0 : ∀ buf : Bytes, buf.length < 4 → (g 4 buf).1 = .panic ∧ (g 4 buf).2.length = buf.length) :
    Fills (g 4) (.contents 4 4 size :: ps) := by
  intro buf
  by_cases hb : 4 ≤ buf.length
  · obtain ⟨h1, h2⟩ := hg 4 buf (Nat.le_refl _) hb
    refine ⟨?_, h2⟩
    have hf : Part.fate buf.length (.contents 4 4 size) = .ok () := if_pos ⟨by omega, hb⟩
    have hlen : (size.take 4).length = 4 := by rw [List.length_take]; omega
    rw [h1, writeParts, hf]
    simp only [Part.bytes, hlen]
  · obtain ⟨h1, h2⟩ := h0 buf (by omega)
    refine ⟨?_, h2⟩
    have hf : Part.fate buf.length (.contents 4 4 size) = .panic := by
      simp only [Part.fate]
      rw [if_neg (by omega), if_neg (by omega)]
    rw [h1, writeParts, hf]
    rfl

theorem writeAuth_low (s : Session) (k : Nat → Bytes → TOut) (buf : Bytes) (h : buf.length < 4) :
    (tthen (writeAuth s 4 buf) k).1 = .panic ∧
      (tthen (writeAuth s 4 buf) k).2.length = buf.length := by
  unfold writeAuth tstep
  rw [if_neg (by omega)]
  exact ⟨rfl, rfl⟩

theorem fills_sessions (a : Area) : Fills (writeCommandSessions a)
    (if a.active.isEmpty then [] else
      .contents 4 4 (digits256 4 (partsLen (a.active.flatMap fun s =>
        parts TpmsAuthCommand s.authCommand))) ::
        a.active.flatMap fun s => parts TpmsAuthCommand s.authCommand) := by
  have hw : ∀ s : Session, FillsAt 4 (writeAuth s) (parts TpmsAuthCommand s.authCommand) :=
    fun s => (fills_marshal TpmsAuthCommand s.authCommand).step 4
  rcases a with ⟨_ | s1, s2, s3⟩
  · intro buf
    simp [writeCommandSessions, Area.isEmpty, Area.active, writeParts, Res.mapErr]
  · have key : ∀ (k : Nat → Bytes → TOut) (ps : List Part) (size : Nat),
        FillsAt 4 k ps → Fills (fun b => tthen (writeAuth s1 4 b) k)
          (.contents 4 4 (digits256 4 size) :: (parts TpmsAuthCommand s1.authCommand ++ ps)) :=
      fun k ps size hk => fills_gap (g := fun o b => tthen (writeAuth s1 o b) k)
        (digits256_length ..) ((hw s1).then hk) (fun buf hb => writeAuth_low s1 _ buf hb)
    rcases s2 with _ | s2
    · exact key _ _ _ fills_authSize
    · rcases s3 with _ | s3
      · exact key _ _ _ ((hw s2).then fills_authSize)
      · exact key _ _ _ ((hw s2).then ((hw s3).then fills_authSize))

theorem parts_header (empty : Bool) (code size : Nat) :
    parts CmdHeader (cmdHeader empty code size) =
      [.item (digits256 2 (if empty then 0x8001 else 0x8002)), .item (digits256 4 size),
       .item (digits256 4 code)] := by
  cases empty <;> rfl

/-- A header takes ten bytes. -/
theorem writeParts_header (x y z : Nat) (ps : List Part) (space : Nat) (h : 10 ≤ space) :
    writeParts (.item (digits256 2 x) :: .item (digits256 4 y) :: .item (digits256 4 z) :: ps) space =
      ((writeParts ps (space - 10)).1.map (10 + ·),
        digits256 2 x ++ (digits256 4 y ++ (digits256 4 z ++ (writeParts ps (space - 10)).2))) := by
  have e : ∀ (n w x : Nat), n ≤ w → Part.fate w (.item (digits256 n x)) = .ok () :=
    fun n w x h => if_pos (by rw [digits256_length]; exact h)
  simp only [writeParts, e 2 space x (by omega), Part.bytes, digits256_length,
    e 4 (space - 2) y (by omega), Nat.sub_sub, e 4 (space - (2 + 4)) z (by omega), Res.map_add]

theorem buildCommand_result (c : Command) (a : Area) :
    (buildCommand c a).1 =
      (writeParts (commandParts c a.active) 4096).1.mapErr merrToTss := by
  have hbody : FillsAt 10 (fun w b =>
      tthen (tstep (fun b => toTss (marshal c.handlesTy c.handles b)) w b) fun w b =>
      tthen (tstep (writeCommandSessions a) w b) fun w b =>
      tthen (tstep (fun b => toTss (marshal c.paramTy c.param b)) w b) fun w b =>
      tthen (toTss (marshal CmdHeader (cmdHeader a.isEmpty c.code (w % 2 ^ 32)) b))
        fun _ b => (.ok w, b)) (parts c.handlesTy c.handles ++
        ((if a.active.isEmpty then [] else
          .contents 4 4 (digits256 4 (partsLen (a.active.flatMap fun s =>
            parts TpmsAuthCommand s.authCommand))) ::
          a.active.flatMap fun s => parts TpmsAuthCommand s.authCommand) ++
        (parts c.paramTy c.param ++ []))) := by
    refine ((fills_marshal c.handlesTy c.handles).step 10).then (((fills_sessions a).step 10).then
      (((fills_marshal c.paramTy c.param).step 10).then ?_))
    intro w b hm hw
    obtain ⟨h1, h2⟩ := fills_marshal CmdHeader (cmdHeader a.isEmpty c.code (w % 2 ^ 32)) b
    dsimp only at h1 h2
    rw [parts_header, writeParts_header _ _ _ _ _ (by omega)] at h1
    simp only [writeParts, Res.map, Res.mapErr] at h1 ⊢
    rcases hr : toTss (marshal CmdHeader (cmdHeader a.isEmpty c.code (w % 2 ^ 32)) b) with
      ⟨n | e | _, sub⟩ <;> rw [hr] at h1 h2 <;> simp only at h1 h2 <;> cases h1
    exact ⟨rfl, h2⟩
  unfold buildCommand
  dsimp only
  obtain ⟨h1, h2⟩ := fills_marshal CmdHeader (cmdHeader a.isEmpty c.code 0)
    (List.replicate cmdBufferSize 0)
  have hl : (List.replicate cmdBufferSize (0 : UInt8)).length = 4096 := List.length_replicate ..
  rw [hl] at h1 h2
  dsimp only at h1 h2
  rw [parts_header, writeParts_header _ _ _ _ _ (by omega)] at h1
  simp only [writeParts, Res.map, Res.mapErr] at h1
  rcases hr : toTss (marshal CmdHeader (cmdHeader a.isEmpty c.code 0)
    (List.replicate cmdBufferSize 0)) with ⟨n | e | _, sub⟩ <;> rw [hr] at h1 h2 <;>
    simp only at h1 h2 <;> cases h1
  have := (hbody 10 sub (Nat.le_refl _) (by omega)).1
  simp only [tthen] at this ⊢
  rw [this, h2, commandParts]
  rw [writeParts_header _ _ _ _ _ (by omega)]
  simp only [List.append_assoc, List.append_nil]

end Verif.Client
