import Verif.Client.Fit
import Verif.Client.Props
import Verif.Codec.PartsProps

/-! When the client refuses a command and when it crashes instead (C39). -/

namespace Verif.Client
open Verif Verif.Base Verif.Errors

/-- The arguments are of their types; size and length fields hold anything. -/
structure CmdTyped (c : Command) (a : Area) : Prop where
  code : c.code < 2 ^ 32
  handles : HasTy c.handlesTy c.handles
  param : HasTy c.paramTy c.param
  auths : ∀ s ∈ a.active, HasTy TpmsAuthCommand s.authCommand

theorem commandParts_typed {c : Command} {a : Area} (h : CmdTyped c a) :
    ∀ p ∈ commandParts c a.active, p.Typed := by
  intro p hp
  simp only [commandParts, List.mem_cons, List.mem_append] at hp
  rcases hp with rfl | rfl | rfl | (hp | hp) | hp
  · trivial
  · trivial
  · trivial
  · exact (parts_sound _ _ h.handles).1 p hp
  · split at hp
    · cases hp
    · rcases List.mem_cons.mp hp with rfl | hp
      · exact ⟨digits256_length .., by decide⟩
      · obtain ⟨s, hs, hp⟩ := List.mem_flatMap.mp hp
        exact (parts_sound _ _ (h.auths s hs)).1 p hp
  · exact (parts_sound _ _ h.param).1 p hp

theorem commandParts_wf {c : Command} {a : Area} (h : CmdTyped c a)
    (hs : ∀ p ∈ commandParts c a.active, p.Sound) : CmdWF c a := by
  simp only [commandParts, List.mem_cons, List.mem_append] at hs
  refine ⟨h.code, (parts_sound _ _ h.handles).2 fun p hp => hs p (.inr (.inr (.inr (.inl (.inl hp))))),
    (parts_sound _ _ h.param).2 fun p hp => hs p (.inr (.inr (.inr (.inr hp)))), fun s hm => ?_⟩
  refine (parts_sound _ _ (h.auths s hm)).2 fun p hp => hs p (.inr (.inr (.inr (.inl (.inr ?_)))))
  have hne : a.active.isEmpty = false := by
    cases ha : a.active with
    | nil => rw [ha] at hm; cases hm
    | cons _ _ => rfl
  rw [hne]
  exact List.mem_cons_of_mem _ (List.mem_flatMap.mpr ⟨s, hm, hp⟩)

theorem auths_bytes : ∀ (ss : List Session), (∀ s ∈ ss, WF TpmsAuthCommand s.authCommand) →
    (ss.flatMap fun s => parts TpmsAuthCommand s.authCommand).flatMap Part.bytes =
      wires TpmsAuthCommand (ss.map (·.authCommand))
  | [], _ => rfl
  | s :: ss, h => by
    simp only [List.flatMap_cons, List.flatMap_append, wires, List.map_cons, List.flatten_cons]
    rw [(parts_wf _ _ (h s (List.mem_cons_self ..))).1,
      auths_bytes ss fun s' h' => h s' (List.mem_cons_of_mem _ h')]
    rfl

/-- The parts of a well-formed command are sound, and together they are the
command of the specification. -/
theorem commandParts_bytes {c : Command} {a : Area} (h : CmdWF c a) :
    (∀ p ∈ commandParts c a.active, p.Sound) ∧
    (commandParts c a.active).flatMap Part.bytes = commandBytes c a.active := by
  have h1 := parts_wf _ _ h.handles
  have h2 := parts_wf _ _ h.param
  have h3 := auths_bytes a.active h.auths
  constructor
  · intro p hp
    simp only [commandParts, List.mem_cons, List.mem_append] at hp
    rcases hp with rfl | rfl | rfl | (hp | hp) | hp
    · trivial
    · trivial
    · trivial
    · exact h1.2 p hp
    · split at hp
      · cases hp
      · rcases List.mem_cons.mp hp with rfl | hp
        · exact ⟨digits256_length .., Nat.le_refl _⟩
        · obtain ⟨s, hs, hp⟩ := List.mem_flatMap.mp hp
          exact (parts_wf _ _ (h.auths s hs)).2 p hp
    · exact h2.2 p hp
  · have harea : (if a.active.isEmpty then [] else
        Part.contents 4 4 (digits256 4 (partsLen (a.active.flatMap fun s =>
          parts TpmsAuthCommand s.authCommand))) ::
        a.active.flatMap fun s => parts TpmsAuthCommand s.authCommand).flatMap Part.bytes =
        authArea a.active := by
      unfold authArea
      split
      · rfl
      · rw [List.flatMap_cons, Part.bytes, partsLen, h3,
          List.take_of_length_le (by rw [digits256_length]; exact Nat.le_refl _)]
    simp only [commandParts, List.flatMap_cons, List.flatMap_append, Part.bytes, partsLen, harea,
      h1.1, h2.1, commandBytes, commandBody, List.append_assoc]

/-! ### C39, exactly -/

/-- **C39 (exactly).** Whether the arguments are well-formed or not and whether
the command fits or not: if, after sound parts of the command that fit the 4096
bytes, a part breaks (see C84; also the place of the authorization size, with
fewer than four bytes left), the client panics; if a part is refused, it returns
the memory error (TPM_RC_MEMORY); in both cases without using the connection.
Otherwise the command is well-formed and is handed to the connection.  Missing
for the full claim: an error in place of the panic. -/
theorem C39_exact_partial {σ ε : Type} (tr : Transport σ ε) (c : Command) (a : Area) (s : σ)
    (h : CmdTyped c a) :
    (StopsAt Part.Breaks (commandParts c a.active) 4096 →
      runCommandWithHandles tr c a s = ⟨.panic, s⟩) ∧
    (StopsAt Part.Refused (commandParts c a.active) 4096 →
      runCommandWithHandles tr c a s = ⟨.err (.tss ⟨0x904⟩), s⟩) ∧
    (CmdWF c a → (commandBytes c a.active).length ≤ 4096 →
      (runCommandWithHandles tr c a s).state =
        (tr.transact s (commandBytes c a.active) (List.replicate 4096 0)).2.2 ∧
      ∀ e, (tr.transact s (commandBytes c a.active) (List.replicate 4096 0)).1 = .failed e →
        (runCommandWithHandles tr c a s).result = .err (.conn e)) ∧
    (StopsAt Part.Breaks (commandParts c a.active) 4096 ∨
      StopsAt Part.Refused (commandParts c a.active) 4096 ∨
      CmdWF c a ∧ (commandBytes c a.active).length ≤ 4096) := by
  have ht := commandParts_typed h
  have hres := buildCommand_result c a
  refine ⟨fun hb => ?_, fun hr => ?_, fun hw hf => ?_, ?_⟩
  · rw [writeParts_breaks ht hb] at hres
    unfold runCommandWithHandles
    rcases hc : buildCommand c a with ⟨n | e | _, buf⟩ <;> rw [hc] at hres <;>
      simp only [Res.mapErr] at hres <;> cases hres
  · rw [writeParts_refused ht hr] at hres
    unfold runCommandWithHandles
    rcases hc : buildCommand c a with ⟨n | e | _, buf⟩ <;> rw [hc] at hres <;>
      simp only [Res.mapErr] at hres <;> cases hres
    rfl
  · rw [run_eq tr c a s hw hf]
    rcases tr.transact s (commandBytes c a.active) (List.replicate 4096 0) with ⟨n | e, b, s'⟩
    · exact ⟨rfl, fun e he => by cases he⟩
    · exact ⟨rfl, fun e he => by cases he; rfl⟩
  · rcases writeParts_ends _ 4096 ht with ⟨h1, h2, -⟩ | ⟨h1, -⟩ | ⟨h1, -⟩
    · have hw := commandParts_wf h h1
      rw [partsLen, (commandParts_bytes hw).2] at h2
      exact .inr (.inr ⟨hw, h2⟩)
    · exact .inr (.inl h1)
    · exact .inl h1

/-- The parts are those of the command: of a well-formed command they are sound
and together they are the bytes of the command. -/
theorem C39_parts (c : Command) (a : Area) (h : CmdTyped c a) :
    (CmdWF c a ↔ ∀ p ∈ commandParts c a.active, p.Sound) ∧
    (CmdWF c a → (commandParts c a.active).flatMap Part.bytes = commandBytes c a.active) :=
  ⟨⟨fun hw => (commandParts_bytes hw).1, commandParts_wf h⟩, fun hw => (commandParts_bytes hw).2⟩

theorem items_sound (a b c d : Bytes) :
    ∀ q ∈ [Part.item a, .item b, .item c, .item d], q.Sound := by
  intro q hq
  simp only [List.mem_cons, List.not_mem_nil, or_false] at hq
  rcases hq with rfl | rfl | rfl | rfl <;> trivial

/-- A command with 4084 bytes of handles and four of parameters. -/
def fullCommand : Command :=
  ⟨0x17B, .bytes 4084, .bytes (List.replicate 4084 0), .prim 4, .int 7, .unit, .unit⟩

/-- 4083 bytes of handles leave three bytes for the authorization size: the
client panics (the case of `C39_violated`); 4084 bytes of handles without
authorizations and a parameter of four bytes: the memory error. -/
example {σ ε : Type} (tr : Transport σ ε) (s : σ) :
    runCommandWithHandles tr wideCommand (area1 exSession) s = ⟨.panic, s⟩ ∧
    runCommandWithHandles tr fullCommand area0 s =
      ⟨.err (.tss ⟨0x904⟩), s⟩ := by
  have hlen : ∀ n, (List.replicate n (0 : UInt8)).length = n := fun n => List.length_replicate ..
  constructor
  · refine (C39_exact_partial tr wideCommand (area1 exSession) s
      ⟨by decide, hlen _, trivial, by decide⟩).1 ⟨[_, _, _, _], _, _, rfl, ?_, ?_, ?_⟩
    · exact items_sound _ _ _ _
    · simp only [partsLen, List.flatMap_cons, List.flatMap_nil, Part.bytes, List.length_append,
        digits256_length, hlen, List.length_nil]
      omega
    · refine .inl ⟨Nat.le_refl _, ?_⟩
      simp only [partsLen, List.flatMap_cons, List.flatMap_nil, Part.bytes, List.length_append,
        digits256_length, hlen, List.length_nil]
      omega
  · refine (C39_exact_partial tr fullCommand area0 s
      ⟨by decide, hlen _, by decide, by decide⟩).2.1 ⟨[_, _, _, _], _, _, rfl, ?_, ?_, ?_⟩
    · exact items_sound _ _ _ _
    · simp only [partsLen, List.flatMap_cons, List.flatMap_nil, Part.bytes, List.length_append,
        digits256_length, hlen, List.length_nil]
      omega
    · simp only [Part.Refused, partsLen, List.flatMap_cons, List.flatMap_nil, Part.bytes,
        List.length_append, digits256_length, hlen, List.length_nil]
      omega

end Verif.Client
