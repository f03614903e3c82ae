import Verif.EndToEnd.Remote
import Verif.EndToEnd.ProgramProps
import Verif.EndToEnd.RandomProps

/-
Property theorems C101: the connection and the simulator add nothing to the client and the
server.
-/

namespace Verif.EndToEnd
open Verif Verif.Errors Verif.Client Verif.Server Verif.Tcp

variable {D E σ α : Type} {os : Os σ} {d : Device (Crypto D E)} {obs : σ → World (Crypto D E)}
  {g : Drbg D} {es : Entropy E}

/-- One command with the device is one command with the server. -/
theorem ask_ideal (hd : Runs d g es) {f : Val → Seen} {c : Command} {a : Area} {k k' : Crypto D E}
    {x : Seen} (l : Nat) (h : ask g es f c a k = (some x, k')) :
    ∃ o, ideal d (.command c a) l k = some (o, l, k') ∧ Seen.ofOut f o = some x := by
  unfold ask runCommandWithHandles at h
  unfold ideal runCommandWithHandles
  rcases hb : buildCommand c a with ⟨r, cmdBuffer⟩
  cases r with
  | err e =>
    simp only [hb, Prod.mk.injEq] at h
    obtain ⟨h1, rfl⟩ := h
    simp only [hb, outcome]
    exact ⟨_, rfl, h1⟩
  | panic => simp [hb, Seen.of] at h
  | ok written =>
    simp only [hb] at h ⊢
    cases hs : sliceTo cmdBuffer written with
    | none => simp [hs, Seen.of] at h
    | some cmd =>
      simp only [hs] at h ⊢
      rcases he : executeSeparate g es k cmd (List.replicate respBufferSize 0) with ⟨size, buf, k1⟩
      have hbounds := C46_bounds g es k cmd (List.replicate respBufferSize 0) _ (.inl rfl)
      rw [he] at hbounds
      cases size with
      | none => simp [serverTransport, he, Seen.of] at h
      | some size =>
        obtain ⟨hlen, hdrop, -⟩ := hbounds
        obtain ⟨hsize, hdrop⟩ := hdrop size rfl
        dsimp only at hlen hdrop
        have hsend := hd k l cmd size buf k1 he
        have hl : (buf.take size).length = size := by
          rw [List.length_take, hlen]
          omega
        simp only [serverTransport, he] at h
        simp only [deviceTransport, hsend, hl, if_pos hsize]
        rw [← hdrop, List.take_append_drop]
        simp only [Prod.mk.injEq] at h
        obtain ⟨h1, rfl⟩ := h
        cases hr : readResponse c a buf with
        | ok r => rw [hr] at h1; exact ⟨_, rfl, h1⟩
        | err e => rw [hr] at h1; exact ⟨_, rfl, h1⟩
        | panic => rw [hr] at h1; simp [Res.mapErr, Seen.of] at h1

/-- The program with the device is the program with the server. -/
theorem remote_dream (hd : Runs d g es) (s : Script α) (l : Nat) : ∀ (k k' : Crypto D E) (a : α),
    s.play g es k = (some a, k') → s.remote.dream d l k = some (some a, l, k') := by
  unfold Script.play
  induction s with
  | done x =>
    intro k k' a h
    simp only [Script.runWith, Prod.mk.injEq, Option.some.injEq] at h
    obtain ⟨rfl, rfl⟩ := h
    rfl
  | random n next ih =>
    intro k k' a h
    rw [Script.runWith] at h
    rcases hx : ask g es (fun p => .bytes (randomBytes p)) (getRandomCommand n) area0 k with ⟨x | x, k1⟩
    · rw [hx] at h; simp at h
    · rw [hx] at h
      obtain ⟨o, h1, h2⟩ := ask_ideal hd l hx
      rw [Script.remote, Prog.dream, h1]
      simp only [h2]
      exact ih x k1 k' a h
  | other c area next ih =>
    intro k k' a h
    rw [Script.runWith] at h
    rcases hx : ask g es .response c area k with ⟨x | x, k1⟩
    · rw [hx] at h; simp at h
    · rw [hx] at h
      obtain ⟨o, h1, h2⟩ := ask_ideal hd l hx
      rw [Script.remote, Prog.dream, h1]
      simp only [h2]
      exact ih x k1 k' a h

theorem remote_calls (P : Call → Prop) (hP : ∀ c a, P (.command c a)) (s : Script α) :
    s.remote.Calls P := by
  induction s with
  | done x => trivial
  | random n next ih =>
    rw [Script.remote]
    refine ⟨hP _ _, ?_⟩
    intro o
    dsimp only
    split
    · exact ih _
    · trivial
  | other c a next ih =>
    rw [Script.remote]
    refine ⟨hP _ _, ?_⟩
    intro o
    dsimp only
    split
    · exact ih _
    · trivial

/-- **C101**: a program that runs to its end over a connection has the result it has with
the server called directly, and leaves the server in the same state. -/
theorem C101_same (hl : Link os d obs) (hd : Runs d g es) (s : Script α) (c c' : Conn σ)
    (hc : (obs c.net).Quiet) (hlt : c.locality < 256) (a : α) (k' : Crypto D E)
    (hs : s.play g es (obs c.net).dev = (some a, k')) (r : Option α)
    (hr : s.remote.play os c = (.ok r, c')) :
    r = some a ∧ (obs c'.net).dev = k' ∧ (obs c'.net).Quiet := by
  obtain ⟨h1, h2⟩ := C83_observes_device_partial hl s.remote (remote_calls _ (fun _ _ => trivial) s)
    (remote_calls _ (fun _ _ => trivial) s) c c' r hc hlt hr
  rw [remote_dream hd s _ _ _ _ hs] at h1
  simp only [Option.some.injEq, Prod.mk.injEq] at h1
  exact ⟨h1.1.symm, h1.2.2.symm, h2⟩

/-- **C101**: with an operating system that does not fail, a program that runs to its end with
the server called directly does so over a connection, and with the same result. -/
theorem C101_completes (hl : Willing os d obs) (hd : Runs d g es) (s : Script α) (c : Conn σ)
    (hc : (obs c.net).Quiet) (hlt : c.locality < 256) (a : α) (k' : Crypto D E)
    (hs : s.play g es (obs c.net).dev = (some a, k')) :
    ∃ c', s.remote.play os c = (.ok (some a), c') ∧ (obs c'.net).dev = k' ∧ (obs c'.net).Quiet := by
  obtain ⟨c', h⟩ := C83_completes_partial hl s.remote (remote_calls _ (fun _ _ => trivial) s)
    (remote_calls _ (fun _ _ => trivial) s) c (some a) _ _ hc hlt (remote_dream hd s _ _ _ _ hs)
  exact ⟨c', h, (C101_same hl.toLink hd s c c' hc hlt a k' hs _ h).2⟩

/-- **C101**: with a generator that does not fail, every such program runs to its end, and its
result is the one it would have with the generator at hand, shown what C96 shows. -/
theorem C101_generator (hl : Willing os d obs) (hd : Runs d g es)
    (hg : ∀ k n, ∃ out k', Produces g es k (List.replicate n 0) out k')
    (s : Script α) (hs : s.Fine) (c : Conn σ) (hc : (obs c.net).Quiet) (hlt : c.locality < 256) :
    ∃ a c', s.remote.play os c = (.ok (some a), c') ∧
      s.Dreams misread g es (obs c.net).dev a (obs c'.net).dev ∧ (obs c'.net).Quiet := by
  obtain ⟨a, k', h⟩ := C96_ends g es hg s hs (obs c.net).dev
  obtain ⟨c', h1, rfl, h3⟩ := C101_completes hl hd s c hc hlt a k' h
  exact ⟨a, c', h1, (C96_exact_partial g es s hs _ _ a).1 h, h3⟩

/-! Concrete case: -/

/-- The server as a device without a platform: everything but commands is ignored. -/
def serverDevice (g : Drbg D) (es : Entropy E) : Device (Crypto D E) where
  perform k _ := k
  send k _ cmd :=
    match executeSeparate g es k cmd (List.replicate 4096 0) with
    | (some size, buf, k') => (buf.take size, k')
    | (none, _, k') => ([], k')
  send_lt k l cmd := by
    have h := (C46_bounds g es k cmd (List.replicate 4096 0) _ (.inl rfl)).1
    rcases he : executeSeparate g es k cmd (List.replicate 4096 0) with ⟨_ | size, buf, k'⟩
    · simp
    · rw [he] at h
      simp only [List.length_take] at h ⊢
      rw [h, List.length_replicate]
      omega
  handshake k _ := (none, k)
  handshake_lt _ _ _ _ h := by simp at h
  sizes k := (List.replicate 16 0, k)
  sizes_length _ := rfl
  act k _ := (0, k)
  act_lt _ _ := by simp
  leave k _ _ := k

theorem serverDevice_runs (g : Drbg D) (es : Entropy E) : Runs (serverDevice g es) g es := by
  intro k l cmd size buf k' h
  simp only [serverDevice, h]

/-- The program of C96 over the reference simulator's loops. -/
example : ∃ c', exScript.remote.play (refOs (serverDevice sizedDrbg fakeEntropy))
    ⟨World.start ⟨(), ()⟩, 0, []⟩ = (.ok (some (.bytes [7, 8], .code 0x143, .code 0x904)), c') :=
  let ⟨c', h, _⟩ := C101_completes (refOs_willing _) (serverDevice_runs sizedDrbg fakeEntropy) exScript
    ⟨World.start ⟨(), ()⟩, 0, []⟩ (World.start_quiet _) (by decide) _ _ exScript_play
  ⟨c', h⟩

example := C101_generator (refOs_willing _) (serverDevice_runs sizedDrbg fakeEntropy)
  (fun _ _ => ⟨_, _, .direct () () _ rfl rfl⟩) exScript exScript_fine
  ⟨World.start ⟨(), ()⟩, 3, []⟩ (World.start_quiet _) (by decide)

end Verif.EndToEnd
