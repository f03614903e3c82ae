import Verif.Client.Outcome
import Verif.Client.FitProps

/-! C90: which failures the client reports with which code. -/

namespace Verif.Client
open Verif Verif.Base Verif.Errors

set_option maxRecDepth 8000

/-- **C90 (exactly).** Running a command with any arguments, sessions and connection returns a
TSS error exactly in two cases: the command does not fit or is malformed and is refused
(`TPM_RC_MEMORY`, nothing is sent), or the connection delivers a response that is to be
reported with that code: the response code of the TPM if it is not zero, otherwise the code
for the first thing wrong with the response.  Missing for C90: errors found by the client
have codes of the client's layers. -/
theorem C90_exact_partial {σ ε : Type} (tr : Transport σ ε) (c : Command) (a : Area) (s : σ)
    (h : CmdTyped c a) (e : TssError) :
    (runCommandWithHandles tr c a s).result = .err (.tss e) ↔
      (StopsAt Part.Refused (commandParts c a.active) 4096 ∧ e = ⟨0x904⟩) ∨
      (CmdWF c a ∧ (commandBytes c a.active).length ≤ 4096 ∧
        ∃ n rsp s', tr.transact s (commandBytes c a.active) (List.replicate 4096 0) =
          (.reported n, rsp, s') ∧ Reports c a.active rsp e.code) := by
  obtain ⟨h1, h2, -, h3⟩ := C39_exact_partial tr c a s h
  have key : CmdWF c a → (commandBytes c a.active).length ≤ 4096 →
      ((runCommandWithHandles tr c a s).result = .err (.tss e) ↔
        ∃ n rsp s', tr.transact s (commandBytes c a.active) (List.replicate 4096 0) =
          (.reported n, rsp, s') ∧ Reports c a.active rsp e.code) := by
    intro hw hfit
    rw [run_eq tr c a s hw hfit]
    rcases ht : tr.transact s (commandBytes c a.active) (List.replicate 4096 0) with ⟨n | x, rsp, s'⟩
    · have hl : rsp.length = 4096 := by
        have := tr.keeps_length s (commandBytes c a.active) (List.replicate 4096 0)
        rw [ht, List.length_replicate] at this; exact this
      have hr := readResponse_err_iff c a rsp hl e
      show (readResponse c a rsp).mapErr _ = _ ↔ _
      constructor
      · intro hm
        refine ⟨n, rsp, s', rfl, hr.1 ?_⟩
        cases hq : readResponse c a rsp <;> rw [hq] at hm <;> simp [Res.mapErr] at hm
        rw [hm]
      · rintro ⟨n', rsp', s'', he, hR⟩
        simp only [Prod.mk.injEq] at he
        obtain ⟨-, rfl, -⟩ := he
        rw [hr.2 hR]; rfl
    · simp
  constructor
  · intro hr
    rcases h3 with hb | hb | ⟨hw, hfit⟩
    · rw [h1 hb] at hr; cases hr
    · rw [h2 hb] at hr
      injection hr with hr
      injection hr with hr
      exact .inl ⟨hb, hr.symm⟩
    · exact .inr ⟨hw, hfit, (key hw hfit).1 hr⟩
  · rintro (⟨hb, rfl⟩ | ⟨hw, hfit, hx⟩)
    · rw [h2 hb]
    · exact (key hw hfit).2 hx

/-- Codes of failing authorization responses: those of malformed encodings and those of
the sessions. -/
theorem authsFail_code {ss : List Session} {b : Bytes} {e : Nat} (h : AuthsFail ss b e) :
    e = 0x904 ∨ e = 0x098 ∨ e = 0x095 ∨ ∃ s ∈ ss, ∃ v, s.validate v = some ⟨e⟩ := by
  induction h with
  | malformed k _ => cases k <;> simp [faultNumber]
  | refused v rest e _ _ _ h => exact .inr (.inr (.inr ⟨_, List.mem_cons_self, v, h⟩))
  | later v rest _ _ _ _ _ ih =>
    rcases ih with h | h | h | ⟨s, hs, hv⟩
    · exact .inl h
    · exact .inr (.inl h)
    · exact .inr (.inr (.inl h))
    · exact .inr (.inr (.inr ⟨s, List.mem_cons_of_mem _ hs, hv⟩))

/-- **C90 (partial).** A code that is not the TPM's own word is the client's
`TSS_E_OUTOFMEMORY` or `TSS_E_TPM_UNEXPECTED`, a session's, or one of the three TPM codes
used for malformed encodings. -/
theorem C90_sources_partial {σ ε : Type} (tr : Transport σ ε) (c : Command) (a : Area) (s : σ)
    (h : CmdTyped c a) (e : TssError)
    (hr : (runCommandWithHandles tr c a s).result = .err (.tss e)) :
    (∃ n rsp s', tr.transact s (commandBytes c a.active) (List.replicate 4096 0) =
      (.reported n, rsp, s') ∧ positional ((rsp.drop 6).take 4) = e.code ∧ e.code ≠ 0) ∨
    e.code = 0x2005 ∨ e.code = 0x2010 ∨ (∃ x ∈ a.active, ∃ v, x.validate v = some e) ∨
    e.code = 0x904 ∨ e.code = 0x098 ∨ e.code = 0x095 := by
  obtain ⟨m⟩ := e
  rcases (C90_exact_partial tr c a s h _).1 hr with ⟨-, he⟩ | ⟨-, -, n, rsp, s', ht, hR⟩
  · injection he with he
    exact .inr (.inr (.inr (.inr (.inl he))))
  · rcases hR with ⟨h1, h2⟩ | ⟨-, -, h2⟩ | ⟨-, -, -, hB⟩
    · simp only at h2
      exact .inl ⟨n, rsp, s', ht, h2.symm, by simp only [h2]; exact h1⟩
    · exact .inr (.inl h2)
    · have hf : ∀ k, faultNumber k = 0x904 ∨ faultNumber k = 0x098 ∨ faultNumber k = 0x095 := by
        intro k; cases k <;> simp [faultNumber]
      right; right
      simp only at hB ⊢
      cases hB with
      | handles k _ => exact .inr (.inr (hf k))
      | size => simp
      | params _ _ _ k => exact .inr (.inr (hf k))
      | auths _ _ _ _ _ _ _ _ hA =>
        rcases authsFail_code hA with h | h | h | h
        · exact .inr (.inr (.inl h))
        · exact .inr (.inr (.inr (.inl h)))
        · exact .inr (.inr (.inr (.inr h)))
        · exact .inr (.inl h)
      | surplus => simp

/-- **C90.** A password session refuses with `TSS_E_BAD_PARAMETER` of the client's TCS layer. -/
theorem C90_password (auth v : Val) (e : TssError) (h : (passwordSession auth).validate v = some e) :
    e.code = 0x2003 := by
  have key : passwordValidate v = some e := h
  unfold passwordValidate at key
  split at key
  · split at key
    · injection key with key; subst key; rfl
    · cases key
  · injection key with key; subst key; rfl

/-- Such a refusal: a response with a nonce of one byte. -/
example : (passwordSession .unit).validate
    (.struct [.tpm2b 1 [9], .struct [.int 1], .tpm2b 0 []]) = some ⟨0x2003⟩ := rfl

theorem typed0 (n : Nat) (h : n < 65536) : CmdTyped (getRandomCommand n) area0 :=
  ⟨by show 0x17B < 2 ^ 32; decide, trivial, ⟨h, trivial⟩, by
    intro s hs; simp [Area.active, area0] at hs⟩

/-- How the client reports a complete response of few bytes to a request for two random
bytes without sessions. -/
theorem replayed (rsp : Bytes) (hl : rsp.length ≤ 4096) (e : Nat)
    (hR : Reports (getRandomCommand 2) [] (rsp ++ (List.replicate 4096 0).drop rsp.length) e) :
    (runCommandWithHandles (replay rsp rsp.length (Nat.le_refl _)) (getRandomCommand 2) area0 0).result =
      .err (.tss ⟨e⟩) :=
  (C90_exact_partial _ _ _ 0 (typed0 2 (by omega)) _).2 (.inr ⟨exCmdWF0 2 (by omega), exFit0 2,
    _, _, _, replay_transact _ _ _ _ _ hl, hR⟩)

/-- **C90 is violated**: the TPM answers a request for random bytes with success, and the
response ends within the size of the buffer; the client reports `TPM_RC_MEMORY`, by which
the TPM would say that it is out of memory. -/
theorem C90_violated :
    (runCommandWithHandles (replay [0x80, 0x01, 0, 0, 0, 11, 0, 0, 0, 0, 0] 11 (by decide))
      (getRandomCommand 2) area0 0).result = .err (.tss ⟨0x904⟩) := by
  refine replayed [0x80, 0x01, 0, 0, 0, 11, 0, 0, 0, 0, 0] (by decide) 0x904 (.inr (.inr ?_))
  rw [List.drop_append_of_le_length (by decide), List.drop_append_of_le_length (by decide),
    List.take_append_of_le_length (by decide), List.take_append_of_le_length (by decide),
    List.take_append_of_le_length (by decide)]
  refine ⟨by decide, by decide, by decide, ?_⟩
  have e : positional (List.take 4 (List.drop 2 [0x80, 0x01, 0, 0, 0, 11, 0, 0, 0, 0, 0])) = 11 := by
    decide
  rw [e, List.take_append_of_le_length (by decide)]
  refine .params .unit 0 [0] .short trivial (by decide) (by decide) ?_
  simp only [getRandomCommand, GetRandomResp, S, plains, Tpm2bDigest, Faulty, FaultyFields]
  exact .inl (.inl ⟨trivial, by decide⟩)

/-- A response with the right encoding of two random bytes and one more is reported as
`TSS_E_TPM_UNEXPECTED`. -/
example : (runCommandWithHandles
      (replay [0x80, 0x01, 0, 0, 0, 15, 0, 0, 0, 0, 0, 2, 0xAA, 0xBB, 7] 15 (by decide))
      (getRandomCommand 2) area0 0).result = .err (.tss ⟨0x2010⟩) := by
  refine replayed [0x80, 0x01, 0, 0, 0, 15, 0, 0, 0, 0, 0, 2, 0xAA, 0xBB, 7] (by decide) 0x2010
    (.inr (.inr ?_))
  rw [List.drop_append_of_le_length (by decide), List.drop_append_of_le_length (by decide),
    List.take_append_of_le_length (by decide), List.take_append_of_le_length (by decide),
    List.take_append_of_le_length (by decide)]
  refine ⟨by decide, by decide, by decide, ?_⟩
  have e : positional (List.take 4 (List.drop 2
    [0x80, 0x01, 0, 0, 0, 15, 0, 0, 0, 0, 0, 2, 0xAA, 0xBB, 7])) = 15 := by decide
  rw [e, List.take_append_of_le_length (by decide)]
  exact .surplus .unit 0 (.struct [.tpm2b 2 ([0xAA, 0xBB] ++ List.replicate 62 0)]) [] 7 [] trivial
    (by decide) (by decide) (by simp) trivial (by decide)

/-- A declared size of 5000 bytes is reported as `TSS_E_OUTOFMEMORY`. -/
example : (runCommandWithHandles (replay [0x80, 0x01, 0, 0, 0x13, 0x88, 0, 0, 0, 0] 10 (by decide))
      (getRandomCommand 2) area0 0).result = .err (.tss ⟨0x2005⟩) := by
  refine replayed [0x80, 0x01, 0, 0, 0x13, 0x88, 0, 0, 0, 0] (by decide) 0x2005 (.inr (.inl ?_))
  rw [List.drop_append_of_le_length (by decide), List.drop_append_of_le_length (by decide),
    List.take_append_of_le_length (by decide), List.take_append_of_le_length (by decide)]
  exact ⟨by decide, by decide, rfl⟩

end Verif.Client
