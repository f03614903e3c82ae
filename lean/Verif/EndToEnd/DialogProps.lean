import Verif.EndToEnd.Dialog
import Verif.EndToEnd.RemoteProps

/-
Property theorems C108: programs of any commands with a server with any handlers.
-/

namespace Verif.EndToEnd
open Verif Verif.Base Verif.Errors Verif.Client Verif.Server Verif.Tcp

variable {K D E σ α : Type} {os : Os σ} {d : Device K} {obs : σ → World K} {h : Handlers K}

/-! ### Lemmas -/

/-- What is behind the reported size does not change what the client reads. -/
theorem readResponse_trim (c : Command) (a : Area) {k k' : K} {req b : Bytes} {m : Nat}
    (ha : Answered h k req (List.replicate 10 0) (List.replicate 4086 0) (some m) b k') :
    readResponse c a (b.take m ++ (List.replicate 4096 0).drop m) = readResponse c a b := by
  have e6 : (List.replicate 10 (0 : UInt8)).take 6 = digits256 2 0 ++ digits256 4 0 := by decide
  have ezero : ∀ (x : Nat) (r r' : Bytes),
      readResponse c a (digits256 2 0 ++ digits256 4 0 ++ digits256 4 x ++ r) =
      readResponse c a (digits256 2 0 ++ digits256 4 0 ++ digits256 4 x ++ r') := by
    intro x r r'
    have hm : digits256 4 x = digits256 4 (x % 2 ^ 32) := by
      have := digits256_positional (digits256 4 x)
      rw [positional_digits256, digits256_length] at this
      exact this.symm
    have hlt : x % 2 ^ 32 < 2 ^ 32 := Nat.mod_lt _ (by decide)
    rw [hm, readResponse_eq c a 0 0 _ r (by decide) (by decide) hlt,
      readResponse_eq c a 0 0 _ r' (by decide) (by decide) hlt]
    simp
  generalize hz : List.replicate 4096 (0 : UInt8) = z
  generalize hy : List.replicate 4086 (0 : UInt8) = y at ha
  have t10 : ∀ (x : Nat) (r : Bytes), (digits256 2 0 ++ digits256 4 0 ++ digits256 4 x ++ r).take 10 =
      digits256 2 0 ++ digits256 4 0 ++ digits256 4 x := fun x r => List.take_left' (by simp)
  cases ha with
  | size hw => rw [e6, t10]; exact ezero _ _ _
  | code hw hc => rw [e6, t10]; exact ezero _ _ _
  | error hw hf hr hwr => rw [e6, List.append_assoc _ _ (y.drop _), t10]; exact ezero _ _ _
  | @success f w out _ hw hf hr hwr =>
    have hl : (responseOf 0 out).length = 10 + out.length := by simp [responseOf]; omega
    rw [List.take_left' hl]
    subst hz hy
    rw [List.drop_replicate, List.drop_replicate]
    congr 3
    omega

/-- One command with the device is one command with the server. -/
theorem dialog_ideal (hd : RunsWith d h) {c : Command} {a : Area} {k : K} (l : Nat)
    {r : Res TssError (Val × Val)} {k' : K} (hr : r ≠ .panic)
    (hx : runCommandWithHandles (serverTransportWith h) c a k = ⟨r.mapErr .tss, k'⟩) :
    ideal d (.command c a) l k = some (.result r, l, k') := by
  unfold runCommandWithHandles at hx
  unfold ideal runCommandWithHandles
  rcases hb : buildCommand c a with ⟨r0, cmdBuffer⟩
  cases r0 with
  | err e =>
    simp only [hb, Run.mk.injEq] at hx
    obtain ⟨h1, rfl⟩ := hx
    cases r <;> simp [Res.mapErr] at h1
    subst h1
    simp [hb, outcome]
  | panic =>
    simp only [hb, Run.mk.injEq] at hx
    cases r <;> simp [Res.mapErr] at hx
    exact absurd rfl hr
  | ok written =>
    simp only [hb] at hx ⊢
    cases hs : sliceTo cmdBuffer written with
    | none =>
      simp only [hs, Run.mk.injEq] at hx
      cases r <;> simp [Res.mapErr] at hx
      exact absurd rfl hr
    | some cmd =>
      simp only [hs] at hx ⊢
      have hsz : List.replicate respBufferSize (0 : UInt8) = List.replicate 4096 0 := rfl
      rw [hsz] at hx ⊢
      rcases he : executeSeparateWith h k cmd (List.replicate 4096 0) with ⟨size, buf, k1⟩
      have hbounds := executeSeparateWith_length h k cmd (List.replicate 4096 0)
      rw [he, List.length_replicate] at hbounds
      cases size with
      | none =>
        simp only [serverTransportWith, he, Run.mk.injEq] at hx
        cases r <;> simp [Res.mapErr] at hx
      | some size =>
        obtain ⟨hlen, hsize⟩ := hbounds
        have hsize := hsize size rfl
        have hsend := hd k l cmd size buf k1 he
        have hl : (buf.take size).length = size := by
          rw [List.length_take]
          simp only at hlen
          omega
        have ha := (C105_separate h k k1 cmd (List.replicate 10 0) (List.replicate 4086 0) buf
          (some size) (by simp)).1 (by rw [← respBuffer_split]; exact he)
        simp only [serverTransportWith, he, Run.mk.injEq] at hx
        obtain ⟨h1, rfl⟩ := hx
        simp only [deviceTransport, hsend, hl, List.length_replicate, if_pos hsize]
        rw [readResponse_trim c a ha, h1]
        cases r with
        | ok x => rfl
        | err e => rfl
        | panic => exact absurd rfl hr

/-- The program with the device is the program with the server. -/
theorem dialog_dream (hd : RunsWith d h) (s : Dialog α) (l : Nat) : ∀ (k k' : K) (x : α),
    s.direct h k = (some x, k') → s.remote.dream d l k = some (some x, l, k') := by
  unfold Dialog.direct
  induction s with
  | done x =>
    intro k k' y hy
    simp only [Dialog.runWith, Prod.mk.injEq, Option.some.injEq] at hy
    obtain ⟨rfl, rfl⟩ := hy
    rfl
  | ask c a next ih =>
    intro k k' y hy
    rw [Dialog.runWith] at hy
    rcases hx : runCommandWithHandles (serverTransportWith h) c a k with ⟨r, k1⟩
    simp only [hx] at hy
    cases r with
    | ok x =>
      rw [Dialog.remote, Prog.dream, dialog_ideal hd (r := .ok x) l (by simp) hx]
      exact ih _ k1 k' y hy
    | err e =>
      cases e with
      | tss e =>
        rw [Dialog.remote, Prog.dream, dialog_ideal hd (r := .err e) l (by simp) hx]
        exact ih _ k1 k' y hy
      | conn e => simp [returned] at hy
    | panic => simp [returned] at hy

theorem dialog_calls (P : Call → Prop) (hP : ∀ c a, P (.command c a)) (s : Dialog α) :
    s.remote.Calls P := by
  induction s with
  | done x => trivial
  | ask c a next ih =>
    rw [Dialog.remote]
    refine ⟨hP _ _, ?_⟩
    intro o
    dsimp only
    split
    · exact ih _
    · exact ih _
    · trivial

/-! ### C108 -/

/-- **C108.** A program has with client and server the result it would have calling the handlers
itself. -/
theorem C108_direct (s : Dialog α) (k k' : K) (x : α) (hs : s.Handled h k x k') :
    s.direct h k = (some x, k') := by
  unfold Dialog.direct
  induction hs with
  | done => rfl
  | refused hw hfit hc _ ih =>
    simp only [Dialog.runWith, C107_refused h _ _ _ hw hfit hc]
    exact ih
  | error hw hfit hf hr hwr h0 hlt _ ih =>
    simp only [Dialog.runWith, C107_error h _ _ _ _ _ hw hfit hf _ _ _ h0 hlt hr hwr]
    exact ih
  | @answer c a next f k w hv pv auths k1 x k' hw hfit hf hr w1 w2 w3 hacc hwr _ ih =>
    obtain ⟨h1, h2, -⟩ := C107_answer h c a k k1 f hw hfit hf w _ hr hwr
    have h2 := h2 hv pv auths w1 w2 w3 hacc rfl
    rcases hx : runCommandWithHandles (serverTransportWith h) c a k with ⟨r, k2⟩
    rw [hx] at h1 h2
    simp only at h1 h2
    subst h1 h2
    simp only [Dialog.runWith, hx]
    exact ih

/-- **C108.** A program that runs to its end over a connection has the result it has with the
server called directly, and leaves the server in the same state. -/
theorem C108_same (hl : Link os d obs) (hd : RunsWith d h) (s : Dialog α) (c c' : Conn σ)
    (hc : (obs c.net).Quiet) (hlt : c.locality < 256) (x : α) (k' : K)
    (hs : s.direct h (obs c.net).dev = (some x, k')) (r : Option α)
    (hr : s.remote.play os c = (.ok r, c')) :
    r = some x ∧ (obs c'.net).dev = k' ∧ (obs c'.net).Quiet := by
  obtain ⟨h1, h2⟩ := C83_observes_device_partial hl s.remote (dialog_calls _ (fun _ _ => trivial) s)
    (dialog_calls _ (fun _ _ => trivial) s) c c' r hc hlt hr
  rw [dialog_dream hd s _ _ _ _ hs] at h1
  simp only [Option.some.injEq, Prod.mk.injEq] at h1
  exact ⟨h1.1.symm, h1.2.2.symm, h2⟩

/-- **C108.** With an operating system that does not fail, a program that runs to its end with the
server called directly does so over a connection, and with the same result. -/
theorem C108_completes (hl : Willing os d obs) (hd : RunsWith d h) (s : Dialog α) (c : Conn σ)
    (hc : (obs c.net).Quiet) (hlt : c.locality < 256) (x : α) (k' : K)
    (hs : s.direct h (obs c.net).dev = (some x, k')) :
    ∃ c', s.remote.play os c = (.ok (some x), c') ∧ (obs c'.net).dev = k' ∧ (obs c'.net).Quiet := by
  obtain ⟨c', h1⟩ := C83_completes_partial hl s.remote (dialog_calls _ (fun _ _ => trivial) s)
    (dialog_calls _ (fun _ _ => trivial) s) c (some x) _ _ hc hlt (dialog_dream hd s _ _ _ _ hs)
  exact ⟨c', h1, (C108_same hl.toLink hd s c c' hc hlt x k' hs _ h1).2⟩

/-- **C108.** With an operating system that does not fail, a program has over a connection the
result it would have calling the handlers itself: packets, views, buffers, headers and sessions
add nothing. -/
theorem C108_handled (hl : Willing os d obs) (hd : RunsWith d h) (s : Dialog α) (c : Conn σ)
    (hc : (obs c.net).Quiet) (hlt : c.locality < 256) (x : α) (k' : K)
    (hs : s.Handled h (obs c.net).dev x k') :
    ∃ c', s.remote.play os c = (.ok (some x), c') ∧ (obs c'.net).dev = k' ∧ (obs c'.net).Quiet :=
  C108_completes hl hd s c hc hlt x k' (C108_direct s _ _ _ hs)

/-- **C108.** The device of C101 is the one with the handlers of the crate. -/
theorem C108_crate (d : Device (Crypto D E)) (g : Drbg D) (es : Entropy E) :
    Runs d g es ↔ RunsWith d (crateHandlers g es) := by
  unfold Runs RunsWith
  simp only [(C105_crate g es _).1]

/-! ### Cases -/

/-- A device that is the server with the handlers; instead of a panic there is an empty
response. -/
def handlerDevice (h : Handlers K) : Device K where
  perform k _ := k
  send k _ cmd :=
    match executeSeparateWith h k cmd (List.replicate 4096 0) with
    | (some size, buf, k') => (buf.take size, k')
    | (none, _, k') => ([], k')
  send_lt k l cmd := by
    have hb := (executeSeparateWith_length h k cmd (List.replicate 4096 0)).1
    rcases he : executeSeparateWith h k cmd (List.replicate 4096 0) with ⟨_ | size, buf, k'⟩
    · simp
    · rw [he] at hb
      simp only [List.length_take] at hb ⊢
      rw [hb, List.length_replicate]
      omega
  handshake k _ := (none, k)
  handshake_lt _ _ _ _ h := by simp at h
  sizes k := (List.replicate 16 0, k)
  sizes_length _ := rfl
  act k _ := (0, k)
  act_lt _ _ := by simp
  leave k _ _ := k

theorem handlerDevice_runs (h : Handlers K) : RunsWith (handlerDevice h) h := by
  intro k l cmd size buf k' he
  simp only [handlerDevice, he]

/-- A program: the command of `exHandler`, asked for too much if the first answer was right, then
one without handler. -/
def exDialog : Dialog (Nat × Nat) :=
  .ask (exCommand 2 0x0A0B0C0D) area0 fun
    | .ok (.struct [.int _, .int y], _) =>
      .ask (exCommand (y + 5000) 1) area0 fun
        | .err e => .ask (getRandomCommand 4) area0 fun
          | .err e' => .done (e.code, e'.code)
          | _ => .done (0, 0)
        | _ => .done (0, 1)
    | _ => .done (1, 0)

theorem exDialog_handled : exDialog.Handled exHandlers 7 (0x904, 0x143) 9 := by
  have hsp : List.replicate 4086 (0 : UInt8) = [0, 0, 0, 0] ++ ([0, 0] ++ List.replicate 4080 0) := by
    rw [show (4086 : Nat) = 4 + (2 + 4080) from rfl, ← List.replicate_append_replicate,
      ← List.replicate_append_replicate]
    rfl
  have hsp4 : List.replicate 4086 (0 : UInt8) = [0, 0, 0, 0] ++ List.replicate 4082 0 := by
    rw [show (4086 : Nat) = 4 + 4082 from rfl, ← List.replicate_append_replicate]
    rfl
  refine .answer (f := exHandler) (k1 := 8) (hv := .unit)
    (pv := .struct [.int 0x0A0B0C0D, .int 0x0101]) (auths := [])
    (exCommand_wf _ _ (by decide) (by decide)) (exCommand_fit _ _) (if_pos rfl)
    (.u16 (b := [0, 2]) (rest := [0xA, 0xB, 0xC, 0xD]) rfl
      (.u32 (b := [0xA, 0xB, 0xC, 0xD]) (rest := []) rfl .respond))
    trivial (by decide) (by simp) trivial ?_ ?_
  · rw [hsp]
    exact .fits (old := [0, 0, 0, 0]) rfl (.filled (old := [0, 0]) rfl .done)
  refine .error (f := exHandler) (k1 := 9) (e := .Memory) (out := [0, 0, 0, 1])
    (exCommand_wf _ _ (by decide) (by decide)) (exCommand_fit _ _) (if_pos rfl)
    (.u16 (b := [0x14, 0x89]) (rest := [0, 0, 0, 1]) rfl
      (.u32 (b := [0, 0, 0, 1]) (rest := []) rfl .respond)) ?_ (by decide) (by decide) ?_
  · rw [hsp4]
    refine .fits (old := [0, 0, 0, 0]) (out := []) rfl (.refused ?_ .done)
    rw [List.length_replicate]
    decide
  exact .refused (exCmdWF0 4 (by decide)) (exFit0 4) (if_neg (by decide)) .done

/-- Over the reference simulator's loops, the program sees the codes of both errors, and the
handler was called twice. -/
example : ∃ c', exDialog.remote.play (refOs (handlerDevice exHandlers)) ⟨World.start 7, 0, []⟩ =
    (.ok (some (0x904, 0x143)), c') ∧ c'.net.dev = 9 :=
  let ⟨c', h1, h2, _⟩ := C108_handled (refOs_willing _) (handlerDevice_runs exHandlers) exDialog
    ⟨World.start 7, 0, []⟩ (World.start_quiet _) (by decide) _ _ exDialog_handled
  ⟨c', h1, h2⟩

end Verif.EndToEnd
