import Verif.Tcp.Props

/-
Property theorems C61: the values that operations of the simulator connection
return.
-/

namespace Verif.Tcp
open Verif

variable {σ τ : Type}

/-- A word in the byte order of the host. -/
def hostWord : Endian → Nat → Bytes
  | .little, x => (digits256 4 x).reverse
  | .big, x => digits256 4 x

/-! ### Successful steps -/

theorem bind_ok {α β : Type} {m : M σ α} {f : α → M σ β} {c c' : Conn σ} {b : β}
    (h : M.bind m f c = (.ok b, c')) : ∃ a c1, m c = (.ok a, c1) ∧ f a c1 = (.ok b, c') := by
  unfold M.bind at h
  rcases hm : m c with ⟨e | a, c1⟩
  · rw [hm] at h
    exact absurd (Prod.mk.inj h).1 (by simp)
  · rw [hm] at h
    exact ⟨a, c1, rfl, h⟩

theorem send_ok {α : Type} {m : M σ α} {p : Port} {b : Bytes} (hm : HasTrace m [.send p b])
    {c c' : Conn σ} {a : α} (h : m c = (.ok a, c')) : c'.log = c.log ++ outs p b := by
  obtain ⟨-, l, h2, h3⟩ := hm c
  rw [h] at h2 h3
  rcases h3 with ⟨l', rfl, rfl, -⟩ | ⟨h4, -⟩
  · simpa using h2
  · exact absurd h4 (by simp [Except.isOk, Except.toBool])

theorem ack_ok {os : Os σ} {p : Port} {c c' : Conn σ} {a : Unit}
    (h : checkResponseEnd os p c = (.ok a, c')) : c'.log = c.log ++ inps p ackBytes := by
  obtain ⟨-, l, h2, h3⟩ := hasTrace_ack os p c
  rw [h] at h2 h3
  rcases h3 with ⟨l', rfl, rfl, -⟩ | ⟨h4, -⟩
  · simpa using h2
  · exact absurd h4 (by simp [Except.isOk, Except.toBool])

theorem readLocal_ok {os : Os σ} {p : Port} {n : Nat} {c c' : Conn σ} {b : Bytes}
    (h : readLocal os p n c = (.ok b, c')) : b.length = n ∧ c'.log = c.log ++ inps p b := by
  obtain ⟨-, h2, -, h4⟩ := readExact_spec os p n c
  unfold readLocal at h
  rcases hr : readExact os p n c with ⟨e | u, b', c1⟩
  · rw [hr] at h
    exact absurd (Prod.mk.inj h).1 (by simp)
  · rw [hr] at h h2 h4
    simp only [Prod.mk.injEq, Except.ok.injEq] at h
    obtain ⟨rfl, rfl⟩ := h
    exact ⟨h4 rfl, h2⟩

theorem word_of_bytes {b : Bytes} (h : b.length = 4) : fromBE b < 2 ^ 32 ∧ word (fromBE b) = b := by
  have h1 := digits256_positional b
  rw [h] at h1
  rw [fromBE_eq_positional]
  refine ⟨?_, h1⟩
  have := positional_lt b
  rw [h] at this
  exact this

theorem hostWord_of_bytes (host : Endian) {b : Bytes} (h : b.length = 4) :
    host.u32 b < 2 ^ 32 ∧ hostWord host (host.u32 b) = b := by
  cases host
  · have := word_of_bytes (b := b.reverse) (by simpa using h)
    refine ⟨this.1, ?_⟩
    have h2 := congrArg List.reverse this.2
    rw [List.reverse_reverse] at h2
    exact h2
  · exact word_of_bytes h

/-! ### C61 -/

/-- **C61**: a handshake that succeeds, with any peer, sent its code and the
client's version, received two words, and returns exactly these. -/
theorem C61_handshake (os : Os σ) (v : Nat) (c c' : Conn σ) (version info : Nat)
    (h : remoteHandshake os v c = (.ok (version, info), c')) :
    version < 2 ^ 32 ∧ info < 2 ^ 32 ∧
    c'.log = c.log ++ outs .tpm (word 15 ++ word v) ++ inps .tpm (word version ++ word info) ++
      inps .tpm ackBytes := by
  unfold remoteHandshake at h
  simp only [bind_def] at h
  obtain ⟨_, c1, h1, h⟩ := bind_ok h
  obtain ⟨b, c2, h2, h⟩ := bind_ok h
  obtain ⟨_, c3, h3, h⟩ := bind_ok h
  have g1 := send_ok (hasTrace_writeVectored os .tpm _) h1
  obtain ⟨g2, g3⟩ := readLocal_ok h2
  have g4 := ack_ok h3
  simp only [M.pure, Prod.mk.injEq, Except.ok.injEq] at h
  obtain ⟨⟨rfl, rfl⟩, rfl⟩ := h
  obtain ⟨e1, e2⟩ := word_of_bytes (b := b.take 4) (by rw [List.length_take]; omega)
  obtain ⟨e3, e4⟩ := word_of_bytes (b := b.drop 4) (by rw [List.length_drop]; omega)
  refine ⟨e1, e3, ?_⟩
  rw [g4, g3, g1, e2, e4, List.take_append_drop, word_eq, word_eq]
  rfl

/-- **C61**: likewise the question whether a timer was signaled. -/
theorem C61_act (os : Os σ) (handle : Nat) (c c' : Conn σ) (signaled : Nat)
    (h : actGetSignaled os handle c = (.ok signaled, c')) :
    signaled < 2 ^ 32 ∧
    c'.log = c.log ++ outs .plat (word 26 ++ word handle) ++ inps .plat (word signaled) ++
      inps .plat ackBytes := by
  unfold actGetSignaled at h
  simp only [bind_def] at h
  obtain ⟨_, c1, h1, h⟩ := bind_ok h
  obtain ⟨b, c2, h2, h⟩ := bind_ok h
  obtain ⟨_, c3, h3, h⟩ := bind_ok h
  have g1 := send_ok (hasTrace_writeVectored os .plat _) h1
  obtain ⟨g2, g3⟩ := readLocal_ok h2
  have g4 := ack_ok h3
  simp only [M.pure, Prod.mk.injEq, Except.ok.injEq] at h
  obtain ⟨rfl, rfl⟩ := h
  obtain ⟨e1, e2⟩ := word_of_bytes g2
  refine ⟨e1, ?_⟩
  rw [g4, g3, g1, e2, word_eq, word_eq]
  rfl

/-- **C61**: likewise the question for the largest command and response: the
reply is sixteen bytes long, the sizes are numbers in the byte order of the
host, the codes in network byte order. -/
theorem C61_sizes (os : Os σ) (host : Endian) (c c' : Conn σ) (resp : Bytes)
    (h : getCommandResponseSizes os c = (.ok resp, c')) :
    largestCommandSize host resp < 2 ^ 32 ∧ largestCommand resp < 2 ^ 32 ∧
    largestResponseSize host resp < 2 ^ 32 ∧ largestResponse resp < 2 ^ 32 ∧
    c'.log = c.log ++ outs .plat (word 25) ++ inps .plat (word 16) ++
      inps .plat (hostWord host (largestCommandSize host resp) ++ word (largestCommand resp) ++
        hostWord host (largestResponseSize host resp) ++ word (largestResponse resp)) ++
      inps .plat ackBytes := by
  unfold getCommandResponseSizes at h
  simp only [bind_def] at h
  obtain ⟨_, c1, h1, h⟩ := bind_ok h
  obtain ⟨len, c2, h2, h⟩ := bind_ok h
  have g1 := send_ok (hasTrace_writeAll os .plat _) h1
  obtain ⟨g2, g3⟩ := readLocal_ok h2
  by_cases hl : fromBE len = 16
  · simp only [hl, ne_eq, not_true_eq_false, if_false] at h
    obtain ⟨b, c3, h3, h⟩ := bind_ok h
    obtain ⟨_, c4, h4, h⟩ := bind_ok h
    obtain ⟨g4, g5⟩ := readLocal_ok h3
    have g6 := ack_ok h4
    simp only [M.pure, Prod.mk.injEq, Except.ok.injEq] at h
    obtain ⟨rfl, rfl⟩ := h
    have hw : len = word 16 := by rw [← hl, (word_of_bytes g2).2]
    obtain ⟨a1, a2⟩ := hostWord_of_bytes host (b := b.take 4) (by rw [List.length_take]; omega)
    obtain ⟨b1, b2⟩ := word_of_bytes (b := (b.drop 4).take 4)
      (by rw [List.length_take, List.length_drop]; omega)
    obtain ⟨d1, d2⟩ := hostWord_of_bytes host (b := (b.drop 8).take 4)
      (by rw [List.length_take, List.length_drop]; omega)
    obtain ⟨e1, e2⟩ := word_of_bytes (b := (b.drop 12).take 4)
      (by rw [List.length_take, List.length_drop]; omega)
    refine ⟨a1, b1, d1, e1, ?_⟩
    unfold largestCommandSize largestCommand largestResponseSize largestResponse
    have hb : b.take 4 ++ (b.drop 4).take 4 ++ (b.drop 8).take 4 ++ (b.drop 12).take 4 = b := by
      have x1 : (b.drop 12).take 4 = b.drop 12 := List.take_of_length_le (by simp; omega)
      have x2 : (b.drop 8).take 4 ++ b.drop 12 = b.drop 8 := by
        have := List.take_append_drop 4 (b.drop 8)
        rwa [List.drop_drop] at this
      have x3 : (b.drop 4).take 4 ++ b.drop 8 = b.drop 4 := by
        have := List.take_append_drop 4 (b.drop 4)
        rwa [List.drop_drop] at this
      rw [x1, List.append_assoc, List.append_assoc, x2, x3, List.take_append_drop]
    rw [a2, b2, d2, e2, hb, g6, g5, g3, g1, hw, word_eq]
    rfl
  · simp only [ne_eq, hl, not_false_eq_true, if_true, M.fail] at h
    exact absurd (Prod.mk.inj h).1 (by simp)

/-- **C61**: another reply length is an error. -/
theorem C61_sizes_length (os : Os σ) (pend : σ → Bytes) (st : σ → τ) (hf : Feeds os .plat pend st)
    (c : Conn σ) (s' : σ) (hw : os.write c.net .plat (word 25) = (.ok 4, s')) (n : Nat)
    (hn : n < 2 ^ 32) (more : Bytes) (hp : pend s' = word n ++ more) (h16 : n ≠ 16) :
    (getCommandResponseSizes os c).1 = .error .invalidData := by
  unfold getCommandResponseSizes
  simp only [bind_def]
  have hwa : writeAll os .plat (toBE 4 PlatCode.getCommandResponseSizes.val) c =
      (.ok (), ⟨s', c.locality, c.log ++ outs .plat (word 25)⟩) := by
    have e : toBE 4 PlatCode.getCommandResponseSizes.val = word 25 := word_eq 25
    rw [e, writeAll, if_neg (by decide)]
    unfold write
    rw [hw]
    simp only [show ¬ (4 = 0) by decide, dite_false]
    rw [show (word 25).drop 4 = [] by decide, writeAll, if_pos (by decide),
      show (word 25).take 4 = word 25 by decide]
    rfl
  rw [M.bind, hwa]
  simp only
  obtain ⟨c2, h1, -⟩ := readLocal_feeds hf (word n) more
    ⟨s', c.locality, c.log ++ outs .plat (word 25)⟩ hp
  have hl : (word n).length = 4 := by simp [word]
  rw [hl] at h1
  rw [M.bind, h1]
  have hv : fromBE (word n) = n := fromBE_word n hn
  simp only [hv, ne_eq, h16, not_false_eq_true, if_true, M.fail]

/-- A peer that reports version 1 and endpoint 2. -/
example : (remoteHandshake (streamOs 100) 9 ⟨[0, 0, 0, 1, 0, 0, 0, 2, 0, 0, 0, 0], 0, []⟩).1 =
    .ok (1, 2) := by
  simp [remoteHandshake, bind_def, M.bind, writeVectored, write, checkResponseEnd, readLocal,
    readExact, read, streamOs, M.pure, TpmCode.val, toBE, fromBE]

/-- Three numbers of different byte orders on a little-endian host. -/
example : (getCommandResponseSizes (streamOs 100)
      ⟨[0, 0, 0, 16, 7, 0, 0, 0, 0, 0, 1, 0x7B, 8, 0, 0, 0, 0, 0, 0, 5, 0, 0, 0, 0], 0, []⟩).1.map
        (fun r => (largestCommandSize .little r, largestCommand r, largestResponseSize .little r,
          largestResponse r)) = .ok (7, 0x17B, 8, 5) := by
  simp [getCommandResponseSizes, bind_def, M.bind, writeAll, write, checkResponseEnd, readLocal,
    readExact, read, streamOs, M.pure, PlatCode.val, toBE, fromBE, Except.map,
    largestCommandSize, largestCommand, largestResponseSize, largestResponse, Endian.u32]

example : (getCommandResponseSizes (streamOs 100) ⟨[0, 0, 0, 17, 7], 0, []⟩).1 =
    .error .invalidData :=
  C61_sizes_length (streamOs 100) id (fun _ => ()) ⟨fun s n hn =>
    ⟨n, Nat.le_refl _, fun _ => hn, rfl, rfl, rfl⟩⟩ _ _ rfl 17 (by decide) [7] (by decide) (by decide)

example : (actGetSignaled (streamOs 100) 3 ⟨[0, 0, 1, 1, 0, 0, 0, 0], 0, []⟩).1 = .ok 257 := by
  simp [actGetSignaled, bind_def, M.bind, writeVectored, write, checkResponseEnd, readLocal,
    readExact, read, streamOs, M.pure, PlatCode.val, toBE, fromBE]

end Verif.Tcp
