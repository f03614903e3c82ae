import Verif.EndToEnd.OwnProgram

/-! C117: programs of commands of the caller's own, with state of their own, over a connection. -/

namespace Verif.EndToEnd
open Verif Verif.Base Verif.Errors Verif.Client Verif.Server Verif.Tcp Verif.Own

variable {σ τ S α P H : Type} {os : Os σ} {d : Device τ} {obs : σ → World τ} {h : Handlers τ}

/-- **C117**: a program that runs to its end over a connection to the reference simulator has the result
it has with the device itself, leaves it in the same state and its own state too, and nothing is left
over on the connections. -/
theorem C117_observes (hl : Link os d obs) (p : OwnProg S α) (ht : p.Typed) (c c' : Conn σ) (s s' : S)
    (x : α) (hc : (obs c.net).Quiet) (hlt : c.locality < 256) (hr : p.play os c s = (.ok x, c', s')) :
    p.dream d c.locality (obs c.net).dev s = some (x, c'.locality, (obs c'.net).dev, s') ∧
    (obs c'.net).Quiet := by
  induction p generalizing c s with
  | done b =>
    simp only [OwnProg.play, Prod.mk.injEq, Except.ok.injEq] at hr
    obtain ⟨rfl, rfl, rfl⟩ := hr
    exact ⟨rfl, hc⟩
  | look next ih => exact ih s (ht s) c s hc hlt hr
  | set s0 next ih => exact ih ht c s0 hc hlt hr
  | run cmd a next ih =>
    rw [OwnProg.play] at hr
    have key := own_sound hl cmd a (l := c.locality) (s := s) hlt ⟨hc, rfl, rfl⟩
    dsimp only at key
    generalize runOwn ((tcpTransport os).live.beside S) (cmd.beside _) (a.beside _) (c, s) = r at *
    rcases hx : resultOf r.result with e | o <;> rw [hx] at hr
    · cases hr
    · dsimp only at hr
      obtain ⟨h1, h2, h3, h5, h4⟩ := key o hx
      rw [OwnProg.dream]
      rw [h1]
      dsimp only
      rw [h2, ← h5]
      have := ih o (ht.2.2 o) r.state.1 r.state.2 h3 (by rw [h4]; exact hlt) hr
      rw [h4] at this
      exact this
  | call x k ih =>
    rw [OwnProg.play] at hr
    rcases hx : real os x c with ⟨e | o, c1⟩ <;> rw [hx] at hr
    · simp at hr
    · dsimp only at hr
      obtain ⟨l', t', h1, ⟨h2, rfl, rfl⟩, h3⟩ := call_sound hl ht.1 ht.2.1 hlt ⟨hc, rfl, rfl⟩ hx
      rw [OwnProg.dream, h1]
      exact ih o (ht.2.2 o) c1 s h2 h3 hr

/-- **C117**: with an operating system that does not fail, a program that runs to its end with the device
itself does so over a connection. -/
theorem C117_completes (hl : Willing os d obs) (p : OwnProg S α) (ht : p.Typed) (c : Conn σ) (s s' : S)
    (x : α) (l : Nat) (t : τ) (hc : (obs c.net).Quiet) (hlt : c.locality < 256)
    (hr : p.dream d c.locality (obs c.net).dev s = some (x, l, t, s')) :
    ∃ c', p.play os c s = (.ok x, c', s') ∧ c'.locality = l ∧ (obs c'.net).dev = t ∧
      (obs c'.net).Quiet := by
  suffices ∃ c' s'', p.play os c s = (.ok x, c', s'') by
    obtain ⟨c', s'', h1⟩ := this
    obtain ⟨h2, h3⟩ := C117_observes hl.toLink p ht c c' s s'' x hc hlt h1
    rw [hr] at h2
    cases h2
    exact ⟨c', h1, rfl, rfl, h3⟩
  induction p generalizing c s with
  | done b =>
    rw [OwnProg.dream] at hr
    cases hr
    exact ⟨c, _, rfl⟩
  | look next ih => exact ih s (ht s) c s hc hlt hr
  | set s0 next ih => exact ih ht c s0 hc hlt hr
  | run cmd a next ih =>
    rw [OwnProg.dream] at hr
    have key := own_live hl cmd a (l := c.locality) (s := s) hlt ⟨hc, rfl, rfl⟩ ht.1 ht.2.1
    have key2 := own_sound hl.toLink cmd a (l := c.locality) (s := s) hlt ⟨hc, rfl, rfl⟩
    rw [OwnProg.play]
    dsimp only at key2 ⊢
    generalize runOwn ((tcpTransport os).live.beside S) (cmd.beside _) (a.beside _) (c, s) = r at *
    generalize runOwn ((deviceTransport d c.locality).live.beside S) (cmd.beside _) (a.beside _)
      ((obs c.net).dev, s) = r' at *
    rcases hx : resultOf r'.result with e | o <;> rw [hx] at hr
    · cases hr
    · dsimp only at hr
      have h0 := key o hx
      obtain ⟨-, h2, h3, h5, h4⟩ := key2 o h0
      rw [h0]
      refine ih o (ht.2.2 o) r.state.1 r.state.2 h3 (by rw [h4]; exact hlt) ?_
      rw [h4, h5, ← h2]
      exact hr
  | call x k ih =>
    rw [OwnProg.dream] at hr
    rcases hx : ideal d x c.locality (obs c.net).dev with _ | ⟨o, l1, t1⟩ <;> rw [hx] at hr
    · simp at hr
    · dsimp only at hr
      obtain ⟨c1, h1⟩ := call_live hl ht.1 ht.2.1 hlt ⟨hc, rfl, rfl⟩ hx
      obtain ⟨l', t', h2, ⟨h3, rfl, rfl⟩, h4⟩ := call_sound hl.toLink ht.1 ht.2.1 hlt ⟨hc, rfl, rfl⟩ h1
      rw [hx] at h2
      simp only [Option.some.injEq, Prod.mk.injEq, true_and] at h2
      obtain ⟨rfl, rfl⟩ := h2
      rw [OwnProg.play, h1]
      exact ih o (ht.2.2 o) c1 s h3 h4 hr

/-! ### Lemmas -/

theorem composed_fields {c : OwnCommand S P H} {a : FreeArea S} {s s1 : S} {cmd : Bytes}
    (hc : Composes c a s cmd s1) (hcode : c.code < 2 ^ 32) :
    WellSized cmd ∧ field cmd 6 4 = c.code ∧ cmd.length ≤ 4096 := by
  obtain ⟨h1, h2, tag, body, -, h4⟩ := C93_header c a s s1 cmd hc
  refine ⟨⟨h1, ?_⟩, ?_, h2⟩
  · generalize hn : cmd.length = n at *
    unfold field
    rw [h4, List.append_assoc, List.append_assoc, List.drop_left' (by simp), List.take_left' (by simp),
      positional_digits256, Nat.mod_eq_of_lt (by omega)]
  · unfold field
    rw [h4, List.append_assoc, List.drop_left' (by simp), List.take_left' (by simp),
      positional_digits256, Nat.mod_eq_of_lt (by omega)]

theorem device_answer (hd : RunsWith d h) {k k' : τ} {cmd b : Bytes} {n : Nat} (l : Nat)
    (ha : Answered h k cmd (List.replicate 10 0) (List.replicate 4086 0) (some n) b k') :
    d.send k l cmd = (b.take n, k') := by
  refine hd k l cmd n b k' ?_
  rw [show (4096 : Nat) = 10 + 4086 from rfl, ← List.replicate_append_replicate]
  exact (C105_separate h k k' cmd _ _ b (some n) (by simp)).2 ha

theorem own_answered {c : OwnCommand S P H} {a : FreeArea S} {s s1 : S} {cmd b : Bytes} {k k' : τ} {l : Nat}
    (hc : Composes c a s cmd s1) (hcode : c.code < 2 ^ 32) (ha : a.Typed)
    (hs : d.send k l cmd = (b, k')) (hb : b.length ≤ 4096) :
    runOwn ((deviceTransport d l).live.beside S) (c.beside τ) (a.beside τ) (k, s) =
      ⟨(readResponseOwn c a (b ++ List.replicate (4096 - b.length) 0) s1).1.mapErr .tss,
        (k', (readResponseOwn c a (b ++ List.replicate (4096 - b.length) 0) s1).2)⟩ := by
  obtain ⟨n, b0, h1, h2⟩ := (buildOwn_iff c a s s1 cmd hcode ha).2 hc
  have ht : (deviceTransport d l).live.transact k cmd (List.replicate respBufferSize 0) =
      (some (.reported b.length), b ++ List.replicate (4096 - b.length) 0, k') := by
    dsimp only [deviceTransport, Transport.live]
    rw [hs]
    dsimp only
    rw [if_pos (by rw [List.length_replicate]; exact hb), List.drop_replicate]
    rfl
  rw [run_beside, h1]
  dsimp only
  rw [h2]
  dsimp only
  rw [ht]
  rfl

theorem resultOf_tss {ε β : Type} (r : Res TssError β) :
    resultOf (r.mapErr (CErr.tss : TssError → CErr ε)) = .ok r := by
  cases r <;> rfl

theorem dream_answered {c : OwnCommand S P H} {a : FreeArea S} {s s1 s2 : S} {cmd b : Bytes} {k k' : τ}
    {l : Nat} {next : Res TssError (P × H) → OwnProg S α} {r : Res TssError (P × H)}
    (hc : Composes c a s cmd s1) (hcode : c.code < 2 ^ 32) (ha : a.Typed)
    (hs : d.send k l cmd = (b, k')) (hb : b.length ≤ 4096)
    (hr : readResponseOwn c a (b ++ List.replicate (4096 - b.length) 0) s1 = (r, s2)) :
    (OwnProg.run c a next).dream d l k s = (next r).dream d l k' s2 := by
  rw [OwnProg.dream]
  rw [own_answered hc hcode ha hs hb, hr]
  dsimp only
  rw [resultOf_tss]

theorem dream_failed {c : OwnCommand S P H} {a : FreeArea S} {s s1 : S} {cmd : Bytes} {k k' : τ}
    {l x : Nat} {next : Res TssError (P × H) → OwnProg S α} {r : Bytes}
    (hc : Composes c a s cmd s1) (hcode : c.code < 2 ^ 32) (ha : a.Typed) (hx : x < 2 ^ 32) (hx0 : x ≠ 0)
    (hs : d.send k l cmd = (((List.replicate 10 0).take 6 ++ digits256 4 x ++ r).take 10, k')) :
    (OwnProg.run c a next).dream d l k s = (next (.err ⟨x⟩)).dream d l k' s1 := by
  have e6 : (List.replicate 10 (0 : UInt8)).take 6 = digits256 2 0 ++ digits256 4 0 := by decide
  rw [e6, List.take_left' (by simp)] at hs
  refine dream_answered hc hcode ha hs (by simp) ?_
  rw [readResponseOwn_eq c a 0 0 x _ _ (by decide) (by decide) hx, if_pos hx0]

/-- The program with the device is the one with the handlers. -/
theorem handled_dream (hd : RunsWith d h) (l : Nat) {p : OwnProg S α} {k k' : τ} {s s' : S} {x : α}
    (hh : p.Handled h k s x k' s') (ht : p.Typed) : p.dream d l k s = some (x, l, k', s') := by
  induction hh with
  | done => rfl
  | look _ ih => exact ih (ht _)
  | set _ ih => exact ih ht
  | @unsent P H k s s1 x k' s' c a next e h1 h2 ih =>
    rw [← ih (ht.2.2 _), OwnProg.dream]
    rw [run_beside]
    have hb := (build_stops c a ht.2.1 ht.1 s e s1).2 h1
    rcases ho : buildOwn c a s with ⟨⟨n | e' | _, b⟩, s2⟩ <;> rw [ho] at hb <;> dsimp only [handOver] at hb ⊢
    · rcases hsl : sliceTo b n with _ | cmd <;> rw [hsl] at hb <;> dsimp only at hb ⊢
      · cases e <;> cases hb
        rfl
      · cases e <;> cases hb
    · cases e <;> cases hb
      rfl
    · cases e <;> cases hb
      rfl
  | @refused P H k s s1 x k' s' c a next cmd h1 h2 h3 ih =>
    rw [← ih (ht.2.2 _)]
    obtain ⟨w1, w2, -⟩ := composed_fields h1 ht.1
    exact dream_failed h1 ht.1 ht.2.1 (by decide) (by decide)
      (device_answer hd l (.code w1 (by rw [w2]; exact h2)))
  | @error P H k k1 s s1 x k' s' c a next cmd out f w e h1 h2 h3 h4 h5 h6 h7 ih =>
    rw [← ih (ht.2.2 _)]
    obtain ⟨w1, w2, -⟩ := composed_fields h1 ht.1
    refine dream_failed (r := out ++ (List.replicate 4086 0).drop out.length) h1 ht.1 ht.2.1 h6 h5 ?_
    rw [← List.append_assoc]
    exact device_answer hd l (.error w1 (by rw [w2]; exact h2) h3 h4)
  | @answer P H k k1 s s1 s2 x k' s' c a next cmd out f w p y h1 h2 h3 h4 h5 h6 ih =>
    rw [← ih (ht.2.2 _)]
    obtain ⟨w1, w2, -⟩ := composed_fields h1 ht.1
    have hl : (responseOf 0 out).length = 10 + out.length := by simp [responseOf]; omega
    have ho : out.length ≤ 4086 := by
      have := writes_length h4
      rwa [List.length_replicate] at this
    have hs := device_answer hd l (.success w1 (by rw [w2]; exact h2) h3 h4)
    rw [List.take_left' hl] at hs
    refine dream_answered h1 ht.1 ht.2.1 hs (by omega) ?_
    rw [hl, show 4096 - (10 + out.length) = 4086 - out.length by omega]
    exact (readOwn_ok_iff c a _ s1 s2 p y (by
      rw [List.length_append, hl, List.length_replicate]; omega)).2 h5
  | @unread P H k k1 s s1 s2 x k' s' c a next cmd out f w e h1 h2 h3 h4 h5 h6 ih =>
    rw [← ih (ht.2.2 _)]
    obtain ⟨w1, w2, -⟩ := composed_fields h1 ht.1
    have hl : (responseOf 0 out).length = 10 + out.length := by simp [responseOf]; omega
    have ho : out.length ≤ 4086 := by
      have := writes_length h4
      rwa [List.length_replicate] at this
    have hs := device_answer hd l (.success w1 (by rw [w2]; exact h2) h3 h4)
    rw [List.take_left' hl] at hs
    refine dream_answered h1 ht.1 ht.2.1 hs (by omega) ?_
    refine (read_stops c a _ (by
      rw [List.length_append, hl, List.length_replicate]; omega) s1 s2 e).2 ?_
    exact .body (tag := 0x8001) (by decide) h5

/-- **C117**: with an operating system that does not fail and a device that answers with the handlers, a
program has over a connection the result it would have calling the handlers itself, and its own state is
the same: connection, packets, buffers and headers add nothing. -/
theorem C117_handled (hl : Willing os d obs) (hd : RunsWith d h) (p : OwnProg S α) (ht : p.Typed)
    (c : Conn σ) (s s' : S) (x : α) (k' : τ) (hc : (obs c.net).Quiet) (hlt : c.locality < 256)
    (hh : p.Handled h (obs c.net).dev s x k' s') :
    ∃ c', p.play os c s = (.ok x, c', s') ∧ c'.locality = c.locality ∧ (obs c'.net).dev = k' ∧
      (obs c'.net).Quiet :=
  C117_completes hl p ht c s s' x _ k' hc hlt (handled_dream hd _ hh ht)

/-! ### A case -/

/-- A device with one command: it answers with what its state says, and with an error the third time. -/
def exOwnHandlers : Handlers Nat := fun code =>
  if code = 0x17B then some fun k => .u32 fun x => .respond <|
    if k = 2 then .done (.err .Memory) 3
    else .write [x.elim 0 UInt8.ofNat, 6] fun _ => .write (List.replicate k 9) fun _ => .done (.ok ()) (k + 1)
  else none

/-- The command that leaves its bytes to the handles, three times, the state put back each time; then one
that does not fit, and one that is not known. -/
def exOwnProg : OwnProg Nat (Bytes × List Nat × Nat) :=
  .run sloppy free0 fun r1 => .set 7 <| .run sloppy free0 fun r2 => .look fun s => .set 7 <|
    .run sloppy free0 fun r3 => .run greedy boasting fun r4 => .run { sloppy with code := 5 } free0 fun r5 =>
      match r1, r2, r3, r4, r5 with
      | .ok (x, _), .err e2, .err e3, .err e4, .err e5 =>
        .done (x, [e2.code, e3.code, e4.code, e5.code], s)
      | _, _, _, _, _ => .done ([], [], 0)

theorem boasting_typed : (boasting : FreeArea Nat).Typed := by
  intro w d w' h s hs
  simp only [boasting, Prod.mk.injEq, Option.some.injEq] at h
  rw [← h.1] at hs
  cases hs

theorem sloppy_composes_any (code : Nat) : Composes { sloppy with code := code } free0 7
    ([0x80, 1, 0, 0, 0, 14] ++ digits256 4 code ++ [0xAA, 0xAA, 0xAA, 0xAA]) 7 := by
  have := Composes.mk (c := { sloppy with code := code }) (a := free0) (w := 7) (empty := true) (n := 0)
    (m := 4) (hs := List.replicate 4086 0xAA) (ps := List.replicate 4086 0xAA) (auths := none) (w1 := 7)
    (w2 := 7) (w3 := 7) (w4 := 7) rfl (by simp only [sloppy, List.map_replicate]) (.nothing rfl)
    (fun _ h => nomatch h) rfl (by decide)
  rw [List.take_replicate] at this
  exact this

theorem exOwnProg_typed : exOwnProg.Typed := by
  refine ⟨by decide, free0_typed, fun r1 => ⟨by decide, free0_typed, fun r2 s => ⟨by decide, free0_typed,
    fun r3 => ⟨by decide, boasting_typed, fun r4 => ⟨by decide, free0_typed, fun r5 => ?_⟩⟩⟩⟩⟩
  dsimp only
  split <;> trivial

theorem exOwnProg_handled : exOwnProg.Handled exOwnHandlers 0 7 ([0xAA, 6], [0x2010, 0x904, 0x904, 0x143], 8)
    3 7 := by
  have hsp : List.replicate 4086 (0 : UInt8) = [0, 0] ++ List.replicate 4084 0 := by
    rw [show (4086 : Nat) = 2 + 4084 from rfl, ← List.replicate_append_replicate]
    rfl
  have hsp1 : List.replicate 4084 (0 : UInt8) = [0] ++ List.replicate 4083 0 := by
    rw [show (4084 : Nat) = 1 + 4083 from rfl, ← List.replicate_append_replicate]
    rfl
  have hread : ∀ k, (Reading.u32 fun x => .respond <|
      if k = 2 then Writing.done (.err .Memory) 3
      else .write [x.elim 0 UInt8.ofNat, 6] fun _ => .write (List.replicate k 9) fun _ =>
        .done (.ok ()) (k + 1)).Reads
      (List.drop 10 [0x80, 1, 0, 0, 0, 14, 0, 0, 1, 0x7B, 0xAA, 0xAA, 0xAA, 0xAA])
      (if k = 2 then Writing.done (.err .Memory) 3
       else .write [0xAA, 6] fun _ => .write (List.replicate k 9) fun _ => .done (.ok ()) (k + 1)) := by
    intro k
    exact .u32 (b := [0xAA, 0xAA, 0xAA, 0xAA]) (rest := []) rfl .respond
  refine .answer (k1 := 1) (out := [0xAA, 6]) (s2 := 8) (p := [0xAA, 6]) (y := ()) sloppy_composes (if_pos rfl) (hread 0) ?_ ?_
    (.set (.unread (k1 := 2) (out := [0xAA, 6, 9]) (s2 := 8) (e := some 0x2010) sloppy_composes (if_pos rfl)
      (hread 1) ?_ ?_ (.look (.set (.error (e := .Memory) sloppy_composes (if_pos rfl) (hread 2) .done
        (by decide) (by decide) (.unsent (e := some 0x904) ?_ (.refused (sloppy_composes_any 5)
          (if_neg (by decide)) .done)))))))
  · rw [hsp]
    exact .fits (old := [0, 0]) (out := []) rfl (.fits (old := []) (data := []) rfl .done)
  · exact Decomposes.mk (c := sloppy) (a := free0) (w := 7) (tag := 0x8001) (paramSize := 0)
      (body := [0xAA, 6]) (rest := List.replicate 4084 0) (b1 := [0xAA, 6]) (b2 := [])
      (d := ⟨none, none, none⟩) (auths := []) (w1 := 7) (w2 := 8) (w3 := 8) (by decide) (by decide)
      rfl rfl rfl rfl (fun _ h => nomatch h) (.nil _)
  · rw [hsp, hsp1]
    exact .fits (old := [0, 0]) (out := [9]) rfl (.fits (old := [0]) (data := [9]) rfl .done)
  · exact BodyStops.surplus (n := 0) (b1 := [0xAA, 6, 9]) (w1 := 7) (x := [0xAA, 6]) (vs := []) (z := 9)
      (more := []) (w2 := 8) (d := ⟨none, none, none⟩) (w3 := 8) (by decide) rfl rfl rfl
      (fun _ h => nomatch h) (.nil _)
  · exact .area (n := 4084) (hs := List.replicate 4086 0) (empty := false) (w1 := 7) (w2 := 7) rfl rfl
      (by decide) (.noRoom rfl rfl rfl (by decide))

/-- Over the reference simulator's loops the program sees the answer, a response that is not read to its
end, the error of the handler, the command that is not composed, and the code that is not known. -/
example : ∃ c', exOwnProg.play (refOs (handlerDevice exOwnHandlers)) ⟨World.start 0, 0, []⟩ 7 =
    (.ok ([0xAA, 6], [0x2010, 0x904, 0x904, 0x143], 8), c', 7) ∧ c'.net.dev = 3 :=
  let ⟨c', h1, _, h2, _⟩ := C117_handled (refOs_willing _) (handlerDevice_runs exOwnHandlers) exOwnProg
    exOwnProg_typed ⟨World.start 0, 0, []⟩ 7 7 _ 3 (World.start_quiet _) (by decide) exOwnProg_handled
  ⟨c', h1, h2⟩

/-- And that is what it sees if it runs to its end at all, whatever the program. -/
example (p : OwnProg Nat Bytes) (ht : p.Typed) (c' : Conn (World Nat)) (s' : Nat) (x : Bytes)
    (hr : p.play (refOs (handlerDevice exOwnHandlers)) ⟨World.start 0, 3, []⟩ 7 = (.ok x, c', s')) :
    p.dream (handlerDevice exOwnHandlers) 3 0 7 = some (x, c'.locality, c'.net.dev, s') :=
  (C117_observes (refOs_willing _).toLink p ht ⟨World.start 0, 3, []⟩ c' 7 s' x
    (World.start_quiet _) (by decide) hr).1

end Verif.EndToEnd
