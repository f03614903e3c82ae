import Verif.EndToEnd.Random
import Verif.Client.OutcomeProps

/-
Property theorems C96: programs that use the server through the client, and what exactly
the client makes of the bytes the server generated (C56).
-/

namespace Verif.EndToEnd
open Verif Verif.Base Verif.Errors Verif.Client Verif.Server

variable {D E α : Type}

/-! ### C56 -/

theorem getRandom_state (n : Nat) (hn : n ≤ 4086) (g : Drbg D) (es : Entropy E)
    (k k' : Crypto D E) (out : Bytes) (hp : Produces g es k (List.replicate n 0) out k') :
    (runCommandWithHandles (serverTransport g es) (getRandomCommand n) area0 k).state = k' := by
  rw [run_eq _ _ _ _ (exCmdWF0 n (by omega)) (exFit0 n),
    (getRandom_transact n hn g es k k' out hp).1]

/-- The error the client reports about generated bytes. -/
theorem getRandom_error (n : Nat) (hn : n ≤ 4086) (g : Drbg D) (es : Entropy E)
    (k k' : Crypto D E) (out : Bytes) (hp : Produces g es k (List.replicate n 0) out k') (e : Nat)
    (hb : BodyFails (getRandomCommand n) [] 0x8001 out e) :
    (runCommandWithHandles (serverTransport g es) (getRandomCommand n) area0 k).result =
      .err (.tss ⟨e⟩) := by
  obtain ⟨ht, hl⟩ := getRandom_transact n hn g es k k' out hp
  refine (C90_exact_partial _ _ _ k (typed0 n (by omega)) _).2 (.inr ⟨exCmdWF0 n (by omega), exFit0 n,
    _, _, _, ht, .inr (.inr ?_)⟩)
  have hro : (responseOf 0 out).length = 10 + out.length := by simp [responseOf]; omega
  have e1 : ((responseOf 0 out ++ List.replicate (4086 - n) 0).drop 2).take 4 =
      digits256 4 (10 + out.length) := by
    unfold responseOf
    simp only [List.append_assoc]
    rw [List.drop_left' (by rfl), List.take_left' (by simp)]
  have e2 : ((responseOf 0 out ++ List.replicate (4086 - n) 0).drop 6).take 4 = digits256 4 0 := by
    unfold responseOf
    rw [List.append_assoc, List.append_assoc _ (digits256 4 0), List.drop_left' (by simp),
      List.take_left' (by simp)]
  have e3 : (responseOf 0 out ++ List.replicate (4086 - n) 0).take 2 = [0x80, 0x01] := by
    unfold responseOf
    simp only [List.append_assoc]
    rw [List.take_left' (by rfl)]
  have p4 : (256 : Nat) ^ 4 = 4294967296 := by decide
  have q1 : positional (digits256 4 (10 + out.length)) = 10 + out.length :=
    positional_digits256_of_lt (by rw [p4]; omega)
  have q2 : positional (digits256 4 0) = 0 := positional_digits256_of_lt (by decide)
  rw [e1, e2, e3, q1, q2, List.take_left' hro]
  refine ⟨rfl, by omega, by omega, ?_⟩
  have : (responseOf 0 out).drop 10 = out := by
    unfold responseOf
    rw [List.drop_left' (by simp)]
  rw [this]
  exact hb

theorem digits_two (x y : UInt8) : digits256 2 (256 * x.toNat + y.toNat) = [x, y] := by
  have hx := x.toNat_lt
  have hy := y.toNat_lt
  have h := digits256_positional [x, y]
  simp only [positional, List.length_cons, List.length_nil] at h
  rw [← h]
  congr 1
  omega

/-- **C56 (partial)**, exactly: what the client returns for the bytes the server generated.
The first two of them count as the size of the rest; if it is the size of the rest, and at
most 64, the rest is returned, and an error otherwise.  (Missing for the full claim: `out`
itself; that is violated, see `C56_violated`.) -/
theorem C56_exact_partial (n : Nat) (hn : n ≤ 4086) (g : Drbg D) (es : Entropy E)
    (k k' : Crypto D E) (out : Bytes) (hp : Produces g es k (List.replicate n 0) out k') :
    Seen.of (fun p => .bytes (randomBytes p))
      (runCommandWithHandles (serverTransport g es) (getRandomCommand n) area0 k).result =
      some (misread out) := by
  have hE := getRandom_error n hn g es k k' out hp
  have hlen := (getRandom_transact n hn g es k k' out hp).2
  have hsz : ∀ h : Val, wire (getRandomCommand n).respHandlesTy h = [] := by intro h; cases h <;> rfl
  have hF : ∀ f, Faulty f Tpm2bDigest out → Faulty f (getRandomCommand n).respTy out := by
    intro f h
    simp only [getRandomCommand, GetRandomResp, S, plains, Faulty, FaultyFields]
    exact .inl h
  have hP : ∀ f, Faulty f Tpm2bDigest out →
      (runCommandWithHandles (serverTransport g es) (getRandomCommand n) area0 k).result =
        .err (.tss ⟨faultNumber f⟩) := by
    intro f h
    exact hE _ (.params .unit 0 out f trivial (by decide) (by rw [hsz]; rfl) (hF f h))
  match out, hE, hlen, hP, hp with
  | [], hE, hlen, hP, hp =>
    rw [hP .short (.inl ⟨rfl, by decide⟩)]; rfl
  | [_], hE, hlen, hP, hp =>
    rw [hP .short (.inl ⟨rfl, by simp⟩)]; rfl
  | x :: y :: r, hE, hlen, hP, hp =>
    have hx := x.toNat_lt
    have hy := y.toNat_lt
    have hd := digits_two x y
    simp only [misread]
    generalize hs : 256 * x.toNat + y.toNat = size at hd ⊢
    have hs' : size < 65536 := by omega
    by_cases h1 : size ≤ r.length ∧ size ≤ 64
    · rw [if_pos h1]
      by_cases h2 : size = r.length
      · rw [if_pos h2]
        have := (C56_interpreted_partial n hn g es k k' _ hp).2
          (.struct [.tpm2b size (r ++ List.replicate (64 - size) 0)])
          (by
            simp only [GetRandomResp, S, plains, Tpm2bDigest, WF, WFFields]
            refine ⟨⟨?_, ?_, ?_⟩, trivial⟩ <;> first | omega | (simp; omega))
          (by
            simp only [GetRandomResp, S, plains, Tpm2bDigest, wire, wireFields, List.append_nil]
            rw [hd, List.take_left' h2.symm]; rfl)
        rw [this]
        simp only [Seen.of, GetRandomResp, S, plains, Tpm2bDigest, canon, canonFields, randomBytes]
        rw [h2, List.take_left' rfl, List.take_left' rfl]
      · rw [if_neg h2]
        rw [hE 0x2010 ?_]
        · rfl
        obtain ⟨z, more, hr⟩ : ∃ z more, r.drop size = z :: more := by
          cases hx : r.drop size with
          | nil => have := congrArg List.length hx; simp at this; omega
          | cons z more => exact ⟨z, more, rfl⟩
        refine .surplus .unit 0 (.struct [.tpm2b size (r.take size ++ List.replicate (64 - size) 0)])
          [] z more trivial (by decide) ?_ (by simp) ?_ ?_
        · simp only [getRandomCommand, GetRandomResp, S, plains, Tpm2bDigest, WF, WFFields]
          refine ⟨⟨?_, ?_, ?_⟩, trivial⟩ <;> first | omega | (simp; omega)
        · simp [Accepted]
        · rw [hsz]
          simp only [getRandomCommand, GetRandomResp, S, plains, Tpm2bDigest, wire, wireFields,
            List.append_nil, wires]
          rw [hd, List.take_left' (by simp; omega), ← hr]
          simp [sizeField]
    · rw [if_neg h1]
      by_cases h2 : 64 < size
      · rw [hP .size (.inr ⟨size, r, hs', by rw [hd]; rfl, .inl ⟨rfl, h2⟩⟩)]; rfl
      · rw [hP .short (.inr ⟨size, r, hs', by rw [hd]; rfl, .inr ⟨rfl, by omega, by omega⟩⟩)]; rfl

/-- The generator that produces 0, 2, 7, 8: asked for four bytes the client returns two,
asked for five it fails. -/
example : Seen.of (fun p => .bytes (randomBytes p))
    (runCommandWithHandles (serverTransport sizedDrbg fakeEntropy) (getRandomCommand 4) area0
      ⟨(), ()⟩).result = some (.bytes [7, 8]) :=
  C56_exact_partial 4 (by decide) sizedDrbg fakeEntropy ⟨(), ()⟩ _ [0, 2, 7, 8] (.direct () () _ rfl rfl)
example : Seen.of (fun p => .bytes (randomBytes p))
    (runCommandWithHandles (serverTransport sizedDrbg fakeEntropy) (getRandomCommand 5) area0
      ⟨(), ()⟩).result = some (.code 0x2010) :=
  C56_exact_partial 5 (by decide) sizedDrbg fakeEntropy ⟨(), ()⟩ _ [0, 2, 7, 8, 0]
    (.direct () () _ rfl rfl)

/-- **C56 is violated** always for fewer than 2 and for more than 66 bytes: whatever is
generated, the client reports an error, and the generator has moved on. -/
theorem C56_violated_sizes (n : Nat) (hn : n ≤ 4086) (h : n < 2 ∨ 66 < n) (g : Drbg D) (es : Entropy E)
    (k k' : Crypto D E) (out : Bytes) (hp : Produces g es k (List.replicate n 0) out k') :
    ∃ e, runCommandWithHandles (serverTransport g es) (getRandomCommand n) area0 k =
      ⟨.err (.tss ⟨e⟩), k'⟩ ∧ (e = 0x904 ∨ e = 0x2010) := by
  have hs := getRandom_state n hn g es k k' out hp
  have hx := C56_exact_partial n hn g es k k' out hp
  have hlen := (getRandom_transact n hn g es k k' out hp).2
  have hm : misread out = .code 0x904 ∨ misread out = .code 0x2010 := by
    unfold misread
    split
    · rename_i x y r
      simp only [List.length_cons] at hlen
      dsimp only
      split
      · rw [if_neg (by omega)]; exact .inr rfl
      · exact .inl rfl
    · exact .inl rfl
  rcases hr : runCommandWithHandles (serverTransport g es) (getRandomCommand n) area0 k with ⟨r, s⟩
  rw [hr] at hs hx
  simp only at hs hx
  subst hs
  rcases hm with hm | hm <;> rw [hm] at hx <;>
    (rcases r with ⟨p, h'⟩ | x | _ <;> simp [Seen.of] at hx
     cases x with
     | conn u => simp at hx
     | tss e =>
       simp only [Option.some.injEq, Seen.code.injEq] at hx
       exact ⟨e.code, rfl, by omega⟩)

example := C56_violated_sizes 100 (by decide) (.inr (by decide)) sizedDrbg fakeEntropy ⟨(), ()⟩ _ _
  (.direct () () _ rfl rfl)

/-! ### C96 -/

theorem ask_eq {g : Drbg D} {es : Entropy E} {c : Command} {a : Area} {k k1 : Crypto D E}
    (f : Val → Seen) {r : Res (CErr Unit) (Val × Val)} (x : Option Seen)
    (h : runCommandWithHandles (serverTransport g es) c a k = ⟨r, k1⟩) (hx : Seen.of f r = x) :
    ask g es f c a k = (x, k1) := by
  rw [ask, h, hx]

theorem ask_random (n : Nat) (hn : n ≤ 4086) (g : Drbg D) (es : Entropy E)
    (k k' : Crypto D E) (out : Bytes) (hp : Produces g es k (List.replicate n 0) out k') :
    ask g es (fun p => .bytes (randomBytes p)) (getRandomCommand n) area0 k =
      (some (misread out), k') := by
  rw [ask, C56_exact_partial n hn g es k k' out hp, getRandom_state n hn g es k k' out hp]

theorem getRandom_fails (n : Nat) (hn : n ≤ 4086) (g : Drbg D) (es : Entropy E) (k : Crypto D E)
    (h : ¬ ∃ out k', Produces g es k (List.replicate n 0) out k') :
    (runCommandWithHandles (serverTransport g es) (getRandomCommand n) area0 k).result =
      .err (.conn ()) := by
  obtain ⟨h1, h2⟩ := getRandom_asks n (by omega)
  have hr : ((List.replicate 4096 (0 : UInt8)).drop 10).take n = List.replicate n 0 := by
    rw [List.drop_replicate, List.take_replicate]; congr 1; omega
  have hx := (C52_panics_iff_partial g es k _ (List.replicate 4096 0) _ (.inl rfl)).2
    ⟨h1, by rw [h2, List.length_replicate]; omega, by rw [h2, hr]; exact h⟩
  rw [run_eq _ _ _ _ (exCmdWF0 n (by omega)) (exFit0 n)]
  simp only [serverTransport, hx]

/-- **C96 (partial)**: every program that uses the server through the client has exactly
the result, and leaves exactly the state, that it would have with the generator at hand.
(Missing for the full claim, `Dreams .bytes`: the program is not shown the generated bytes
but what they are misread as; see `C96_violated`.) -/
theorem C96_exact_partial (g : Drbg D) (es : Entropy E) (s : Script α) (hs : s.Fine)
    (k k' : Crypto D E) (a : α) :
    s.play g es k = (some a, k') ↔ s.Dreams misread g es k a k' := by
  unfold Script.play
  induction s generalizing k with
  | done x =>
    simp only [Script.runWith, Prod.mk.injEq, Option.some.injEq]
    constructor
    · rintro ⟨rfl, rfl⟩; exact .done
    · intro h; cases h; exact ⟨rfl, rfl⟩
  | random n next ih =>
    obtain ⟨hn, hf⟩ := hs
    simp only [Script.runWith]
    by_cases hbig : 4086 < n
    · rw [ask_eq _ (some (.code 0x904)) (C57_too_many n hn hbig g es k) rfl]
      simp only
      rw [ih _ (hf _)]
      constructor
      · exact .tooMany hbig
      · intro h
        cases h with
        | random h1 => omega
        | tooMany _ rest => exact rest
    · by_cases hp : ∃ out k1, Produces g es k (List.replicate n 0) out k1
      · obtain ⟨out, k1, hp⟩ := hp
        rw [ask_random n (by omega) g es k k1 out hp]
        simp only
        rw [ih _ (hf _)]
        constructor
        · exact .random (by omega) hp
        · intro h
          cases h with
          | random h1 h2 rest =>
            have e1 := hp.tryGetRandom_eq
            rw [h2.tryGetRandom_eq] at e1
            simp only [Prod.mk.injEq, true_and] at e1
            obtain ⟨rfl, rfl⟩ := e1
            exact rest
          | tooMany h1 _ => omega
      · rw [ask, getRandom_fails n (by omega) g es k hp, Seen.of]
        simp only [Prod.mk.injEq, reduceCtorEq, false_and, false_iff]
        intro h
        cases h with
        | random _ h2 _ => exact hp ⟨_, _, h2⟩
        | tooMany h1 _ => omega
  | other c area next ih =>
    obtain ⟨h1, h2, h3, hf⟩ := hs
    simp only [Script.runWith]
    rw [ask_eq _ (some (.code 0x143)) (C57_unsupported c area g es k h1 h2 h3) rfl]
    simp only
    rw [ih _ (hf _)]
    constructor
    · exact .other
    · intro h
      cases h with
      | other rest => exact rest

/-- A program that asks for four bytes, then starts the TPM, then asks for more than fit, and
returns what it saw. -/
def exScript : Script (Seen × Seen × Seen) :=
  .random 4 fun x => .other ⟨Cc.Startup, .unit, .unit, StartupCmd, .struct [.struct [.int 0]], .unit, .unit⟩
    (area1 exSession) fun y => .random 5000 fun z => .done (x, y, z)

theorem exScript_fine : exScript.Fine :=
  ⟨by decide, fun _ => ⟨⟨by decide, by decide, by decide, exCmdWF.auths⟩, by decide, by decide,
    fun _ => ⟨by decide, fun _ => trivial⟩⟩⟩

theorem exScript_play : exScript.play sizedDrbg fakeEntropy ⟨(), ()⟩ =
    (some (.bytes [7, 8], .code 0x143, .code 0x904), ⟨(), ()⟩) :=
  (C96_exact_partial _ _ _ exScript_fine _ _ _).2
    (.random (by decide) (.direct () () [0, 2, 7, 8] rfl rfl) (.other (.tooMany (by decide) .done)))

/-- **C96 is violated**: with the generator at hand the program would have seen its four
bytes. -/
theorem C96_violated :
    exScript.Dreams .bytes sizedDrbg fakeEntropy ⟨(), ()⟩
      (.bytes [0, 2, 7, 8], .code 0x143, .code 0x904) ⟨(), ()⟩ ∧
    (exScript.play sizedDrbg fakeEntropy ⟨(), ()⟩).1 ≠
      some (.bytes [0, 2, 7, 8], .code 0x143, .code 0x904) := by
  refine ⟨.random (by decide) (.direct () () [0, 2, 7, 8] rfl rfl) (.other (.tooMany (by decide) .done)), ?_⟩
  rw [exScript_play]
  simp

/-- **C96**: a program comes to an end exactly if it does with the generator at hand: if the
generator never fails, every program does. -/
theorem C96_ends (g : Drbg D) (es : Entropy E) (hg : ∀ k n, ∃ out k', Produces g es k (List.replicate n 0) out k')
    (s : Script α) (hs : s.Fine) (k : Crypto D E) : ∃ a k', s.play g es k = (some a, k') := by
  suffices h : ∃ a k', s.Dreams misread g es k a k' by
    obtain ⟨a, k', h⟩ := h
    exact ⟨a, k', (C96_exact_partial g es s hs k k' a).2 h⟩
  clear hs
  induction s generalizing k with
  | done x => exact ⟨x, k, .done⟩
  | random n next ih =>
    by_cases hn : n ≤ 4086
    · obtain ⟨out, k1, hp⟩ := hg k n
      obtain ⟨a, k', h⟩ := ih (misread out) k1
      exact ⟨a, k', .random hn hp h⟩
    · obtain ⟨a, k', h⟩ := ih (.code 0x904) k
      exact ⟨a, k', .tooMany (by omega) h⟩
  | other c area next ih =>
    obtain ⟨a, k', h⟩ := ih (.code 0x143) k
    exact ⟨a, k', .other h⟩

example := C96_ends sizedDrbg fakeEntropy (fun _ _ => ⟨_, _, .direct () () _ rfl rfl⟩) exScript
  exScript_fine ⟨(), ()⟩

end Verif.EndToEnd
