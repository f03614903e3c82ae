import Verif.Tcp.Interrupts

/-
Lemmas for C109: the operations on an operating system that interrupts system calls, compared
with those on the same one without interrupts.
-/

namespace Verif.Tcp
open Verif

variable {σ : Type} {α β : Type} {os : Os σ} {m : σ → Nat} (hm : Patient os m)

/-! ### Calls -/

theorem calm_write_again (s : σ) (p : Port) (b : Bytes)
    (h : (os.write s p b).1 = .error interrupted) :
    (calm os hm).write s p b = (calm os hm).write (os.write s p b).2 p b := by
  show retryWrite os hm s p b = _
  rw [retryWrite, dif_pos h]
  rfl

theorem calm_write_same (s : σ) (p : Port) (b : Bytes)
    (h : (os.write s p b).1 ≠ .error interrupted) :
    (calm os hm).write s p b = os.write s p b := by
  show retryWrite os hm s p b = _
  rw [retryWrite, dif_neg h]

theorem calm_read_again (s : σ) (p : Port) (n : Nat)
    (h : (os.read s p n).1 = .error interrupted) :
    (calm os hm).read s p n = (calm os hm).read (os.read s p n).2 p n := by
  show retryRead os hm s p n = _
  rw [retryRead, dif_pos h]
  rfl

theorem calm_read_same (s : σ) (p : Port) (n : Nat)
    (h : (os.read s p n).1 ≠ .error interrupted) :
    (calm os hm).read s p n = os.read s p n := by
  show retryRead os hm s p n = _
  rw [retryRead, dif_neg h]

theorem calm_write_never (s : σ) (p : Port) (b : Bytes) :
    ((calm os hm).write s p b).1 ≠ .error interrupted := by
  show (retryWrite os hm s p b).1 ≠ _
  induction s using retryWrite.induct os hm p b with
  | case1 s h ih => rw [retryWrite, dif_pos h]; exact ih
  | case2 s h => rw [retryWrite, dif_neg h]; exact h

theorem calm_read_never (s : σ) (p : Port) (n : Nat) :
    ((calm os hm).read s p n).1 ≠ .error interrupted := by
  show (retryRead os hm s p n).1 ≠ _
  induction s using retryRead.induct os hm p n with
  | case1 s h ih => rw [retryRead, dif_pos h]; exact ih
  | case2 s h => rw [retryRead, dif_neg h]; exact h

theorem write_fst_ok {p : Port} {b : Bytes} {c c' : Conn σ} {n : Nat}
    (h : write os p b c = (.ok n, c')) : (os.write c.net p b).1 = .ok n := by
  unfold write at h
  split at h
  · rename_i n' s hs
    simp only [Prod.mk.injEq, Except.ok.injEq] at h
    rw [hs, h.1]
  · simp at h

theorem read_fst_ok {p : Port} {n : Nat} {c c' : Conn σ} {b : Bytes}
    (h : read os p n c = (.ok b, c')) : (os.read c.net p n).1 = .ok b := by
  unfold read at h
  split at h
  · rename_i n' s hs
    simp only [Prod.mk.injEq, Except.ok.injEq] at h
    rw [hs, h.1]
  · simp at h

/-- An interrupted write leaves everything to the next one. -/
theorem write_again {p : Port} {b : Bytes} {c c' : Conn σ}
    (h : write os p b c = (.error interrupted, c')) :
    write (calm os hm) p b c = write (calm os hm) p b c' := by
  obtain ⟨h1, rfl⟩ := Raw.write_error h
  unfold write
  rw [calm_write_again hm _ _ _ h1]

theorem write_same {p : Port} {b : Bytes} {c : Conn σ}
    (h : (write os p b c).1 ≠ .error interrupted) : write (calm os hm) p b c = write os p b c := by
  have : (os.write c.net p b).1 ≠ .error interrupted := by
    intro he
    apply h
    unfold write
    split
    · rename_i n s hs
      rw [hs] at he
      simp at he
    · rename_i e s hs
      rw [hs] at he
      exact he
  unfold write
  rw [calm_write_same hm _ _ _ this]

theorem read_again {p : Port} {n : Nat} {c c' : Conn σ}
    (h : read os p n c = (.error interrupted, c')) :
    read (calm os hm) p n c = read (calm os hm) p n c' := by
  obtain ⟨h1, rfl⟩ := Raw.read_error h
  unfold read
  rw [calm_read_again hm _ _ _ h1]

theorem read_same {p : Port} {n : Nat} {c : Conn σ}
    (h : (read os p n c).1 ≠ .error interrupted) : read (calm os hm) p n c = read os p n c := by
  have : (os.read c.net p n).1 ≠ .error interrupted := by
    intro he
    apply h
    unfold read
    split
    · rename_i n s hs
      rw [hs] at he
      simp at he
    · rename_i e s hs
      rw [hs] at he
      exact he
  unfold read
  rw [calm_read_same hm _ _ _ this]

theorem write_never (p : Port) (b : Bytes) (c : Conn σ) :
    (write (calm os hm) p b c).1 ≠ .error interrupted := by
  intro h
  rcases hw : write (calm os hm) p b c with ⟨r, c'⟩
  rw [hw] at h
  simp only at h
  subst h
  exact calm_write_never hm _ _ _ (Raw.write_error hw).1

theorem read_never (p : Port) (n : Nat) (c : Conn σ) :
    (read (calm os hm) p n c).1 ≠ .error interrupted := by
  intro h
  rcases hw : read (calm os hm) p n c with ⟨r, c'⟩
  rw [hw] at h
  simp only at h
  subst h
  exact calm_read_never hm _ _ _ (Raw.read_error hw).1

/-! ### Loops -/

theorem writeAll_calm (p : Port) (b : Bytes) (c : Conn σ) :
    Raw.writeAll os hm p b c = writeAll (calm os hm) p b c := by
  induction b, c using Raw.writeAll.induct os hm p with
  | case1 b c hb => rw [Raw.writeAll, writeAll, if_pos hb, if_pos hb]
  | case2 b c hb c' hw ih =>
    rw [Raw.writeAll, if_neg hb]
    split
    · rename_i e c'' hw'
      rw [hw] at hw'
      simp only [Prod.mk.injEq, Except.error.injEq] at hw'
      obtain ⟨rfl, rfl⟩ := hw'
      rw [dif_pos rfl, ih, writeAll, if_neg hb, ← write_again hm hw]
      conv => rhs; rw [writeAll, if_neg hb]
    · rename_i n c'' hw'
      rw [hw] at hw'
      simp at hw'
  | case3 b c hb e c' hw he =>
    have hs := write_same hm (c := c) (p := p) (b := b) (by rw [hw]; simpa using he)
    rw [Raw.writeAll, if_neg hb, writeAll, if_neg hb, hs]
    split
    · rename_i e' c'' hw'
      rw [hw'] at hw ⊢
      simp only [Prod.mk.injEq, Except.error.injEq] at hw
      rw [dif_neg (by rw [hw.1]; exact he)]
    · rename_i n c'' hw'
      rw [hw] at hw'
      simp at hw'
  | case4 b c hb c' hw =>
    have hs := write_same hm (c := c) (p := p) (b := b) (by rw [hw]; simp)
    rw [Raw.writeAll, if_neg hb, writeAll, if_neg hb, hs]
    split
    · rename_i e' c'' hw'
      rw [hw] at hw'
      simp at hw'
    · rename_i n c'' hw'
      rw [hw'] at hw ⊢
      simp only [Prod.mk.injEq, Except.ok.injEq] at hw
      simp [hw.1]
  | case5 b c hb n c' hw hn ih =>
    have hs := write_same hm (c := c) (p := p) (b := b) (by rw [hw]; simp)
    rw [Raw.writeAll, if_neg hb, writeAll, if_neg hb, hs]
    split
    · rename_i e' c'' hw'
      rw [hw] at hw'
      simp at hw'
    · rename_i n' c'' hw'
      rw [hw'] at hw ⊢
      simp only [Prod.mk.injEq, Except.ok.injEq] at hw
      obtain ⟨rfl, rfl⟩ := hw
      rw [dif_neg hn]
      simp only [dif_neg hn]
      exact ih

theorem readExact_calm (p : Port) (n : Nat) (c : Conn σ) :
    Raw.readExact os hm p n c = readExact (calm os hm) p n c := by
  induction n, c using Raw.readExact.induct os hm p with
  | case1 c => rw [Raw.readExact, readExact, if_pos rfl, if_pos rfl]
  | case2 n c hn c' hw ih =>
    rw [Raw.readExact, if_neg hn]
    split
    · rename_i e c'' hw'
      rw [hw] at hw'
      simp only [Prod.mk.injEq, Except.error.injEq] at hw'
      obtain ⟨rfl, rfl⟩ := hw'
      rw [dif_pos rfl, ih, readExact, if_neg hn, ← read_again hm hw]
      conv => rhs; rw [readExact, if_neg hn]
    · rename_i n c'' hw'
      rw [hw] at hw'
      simp at hw'
  | case3 n c hn e c' hw he =>
    have hs := read_same hm (c := c) (p := p) (n := n) (by rw [hw]; simpa using he)
    rw [Raw.readExact, if_neg hn, readExact, if_neg hn, hs]
    split
    · rename_i e' c'' hw'
      rw [hw'] at hw ⊢
      simp only [Prod.mk.injEq, Except.error.injEq] at hw
      rw [dif_neg (by rw [hw.1]; exact he)]
    · rename_i n c'' hw'
      rw [hw] at hw'
      simp at hw'
  | case4 n c hn b c' hw hb =>
    have hs := read_same hm (c := c) (p := p) (n := n) (by rw [hw]; simp)
    rw [Raw.readExact, if_neg hn, readExact, if_neg hn, hs]
    split
    · rename_i e' c'' hw'
      rw [hw] at hw'
      simp at hw'
    · rename_i n c'' hw'
      rw [hw'] at hw ⊢
      simp only [Prod.mk.injEq, Except.ok.injEq] at hw
      simp [hw.1, hb]
  | case5 n c hn b c' hw hb _ _ _ _ ih =>
    have hs := read_same hm (c := c) (p := p) (n := n) (by rw [hw]; simp)
    rw [Raw.readExact, if_neg hn, readExact, if_neg hn, hs]
    split
    · rename_i e' c'' hw'
      rw [hw] at hw'
      simp at hw'
    · rename_i n' c'' hw'
      rw [hw'] at hw ⊢
      simp only [Prod.mk.injEq, Except.ok.injEq] at hw
      obtain ⟨rfl, rfl⟩ := hw
      rw [dif_neg hb]
      simp only [dif_neg hb, ih]

theorem readLocal_calm (p : Port) (n : Nat) :
    Raw.readLocal os hm p n = readLocal (calm os hm) p n := by
  funext c
  unfold Raw.readLocal readLocal
  rw [readExact_calm]
  rcases readExact (calm os hm) p n c with ⟨e | a, b, c'⟩ <;> rfl

theorem checkResponseEnd_calm (p : Port) :
    Raw.checkResponseEnd os hm p = checkResponseEnd (calm os hm) p := by
  unfold Raw.checkResponseEnd checkResponseEnd
  rw [readLocal_calm]

theorem shutdown_calm (p : Port) : shutdown (calm os hm) p = shutdown os p := rfl

theorem writeAll_calm' (p : Port) (b : Bytes) :
    Raw.writeAll os hm p b = writeAll (calm os hm) p b := funext fun c => writeAll_calm hm p b c

/-! ### Nothing is interrupted -/

/-- The function does not end with an interrupt. -/
def Never (x : M σ α) : Prop := ∀ c, (x c).1 ≠ .error interrupted

theorem Never.bind {x : M σ α} {f : α → M σ β} (hx : Never x) (hf : ∀ a, Never (f a)) :
    Never (x >>= f) := by
  intro c
  show (M.bind x f c).1 ≠ _
  unfold M.bind
  have := hx c
  rcases hc : x c with ⟨e | a, c'⟩ <;> rw [hc] at this
  · intro h
    apply this
    simpa using h
  · exact hf a c'

theorem never_pure (a : α) : Never (M.pure a : M σ α) := by intro c; simp [M.pure]

theorem never_fail {e : IoErr} (h : e ≠ interrupted) : Never (M.fail e : M σ α) := by
  intro c; simpa [M.fail] using h

theorem never_writeAll (p : Port) (b : Bytes) : Never (writeAll (calm os hm) p b) := by
  intro c
  induction b, c using writeAll.induct (calm os hm) p with
  | case1 b c hb => rw [writeAll, if_pos hb]; simp
  | case2 b c hb e c' hw =>
    rw [writeAll, if_neg hb, hw]
    have := write_never hm p b c
    rw [hw] at this
    simpa using this
  | case3 b c hb c' hw =>
    rw [writeAll, if_neg hb, hw]
    simp [interrupted]
  | case4 b c hb n c' hw hn ih =>
    rw [writeAll, if_neg hb, hw]
    simp only [dif_neg hn]
    exact ih

theorem never_readExact (p : Port) (n : Nat) (c : Conn σ) :
    (readExact (calm os hm) p n c).1 ≠ .error interrupted := by
  induction n, c using readExact.induct (calm os hm) p with
  | case1 c => rw [readExact, if_pos rfl]; simp
  | case2 n c hn e c' hw =>
    rw [readExact, if_neg hn, hw]
    have := read_never hm p n c
    rw [hw] at this
    simpa using this
  | case3 n c hn b c' hw hb =>
    rw [readExact, if_neg hn, hw]
    simp [interrupted, hb]
  | case4 n c hn b c' hw hb _ _ _ _ ih =>
    rw [readExact, if_neg hn, hw]
    simp only [dif_neg hb]
    exact ih

theorem never_readLocal (p : Port) (n : Nat) : Never (readLocal (calm os hm) p n) := by
  intro c
  unfold readLocal
  have := never_readExact hm p n c
  rcases hc : readExact (calm os hm) p n c with ⟨e | a, b, c'⟩ <;> rw [hc] at this
  · intro h
    apply this
    simpa using h
  · simp

theorem never_check (p : Port) : Never (checkResponseEnd (calm os hm) p) := by
  refine (never_readLocal hm p 4).bind fun b => ?_
  split
  · exact never_fail (by simp [interrupted])
  · exact never_pure _

include hm in
theorem never_shutdown (p : Port) : Never (shutdown os p) := by
  intro c
  unfold shutdown
  have := hm.shutdown c.net p
  rcases hc : os.shutdown c.net p with ⟨e | a, s⟩ <;> rw [hc] at this
  · intro h
    apply this
    simpa using h
  · simp

/-! ### Functions that agree unless they are interrupted -/

/-- The functions do the same unless the first is interrupted. -/
def Agree (x y : M σ α) : Prop := ∀ c, (x c).1 ≠ .error interrupted → x c = y c

theorem Agree.refl (x : M σ α) : Agree x x := fun _ _ => rfl

theorem Agree.bind {x y : M σ α} {f g : α → M σ β} (hx : Agree x y) (hf : ∀ a, Agree (f a) (g a)) :
    Agree (x >>= f) (y >>= g) := by
  intro c
  show (M.bind x f c).1 ≠ _ → M.bind x f c = M.bind y g c
  intro h
  unfold M.bind at h ⊢
  have h1 := hx c
  rcases hxc : x c with ⟨e | a, c'⟩
  · rw [hxc] at h h1
    rw [← h1 (by simpa using h)]
  · rw [hxc] at h h1
    rw [← h1 (by simp)]
    exact hf a c' h

theorem agree_writeVectored (p : Port) (b : Bytes) :
    Agree (writeVectored os p b) (writeVectored (calm os hm) p b) := by
  refine Agree.bind ?_ fun n => .refl _
  intro c h
  exact (write_same hm h).symm

/-! ### Functions that begin with one write -/

theorem bind_interrupted {x : M σ α} {f : α → M σ β} (hf : ∀ a, Never (f a)) {c c' : Conn σ}
    (h : (x >>= f) c = (.error interrupted, c')) : x c = (.error interrupted, c') := by
  change M.bind x f c = _ at h
  unfold M.bind at h
  rcases hx : x c with ⟨e | a, c1⟩
  · rw [hx] at h
    simpa using h
  · rw [hx] at h
    exact absurd (congrArg Prod.fst h) (hf a c1)

theorem writeVectored_interrupted {p : Port} {b : Bytes} {c c' : Conn σ}
    (h : writeVectored os p b c = (.error interrupted, c')) :
    write os p b c = (.error interrupted, c') := by
  refine bind_interrupted (fun n => ?_) h
  split
  · exact never_fail (by simp [interrupted])
  · exact never_pure _

theorem writeVectored_again {p : Port} {b : Bytes} {c c' : Conn σ}
    (h : writeVectored os p b c = (.error interrupted, c')) :
    writeVectored (calm os hm) p b c = writeVectored (calm os hm) p b c' := by
  have hw := write_again hm (writeVectored_interrupted h)
  show M.bind _ _ c = M.bind _ _ c'
  unfold M.bind
  rw [hw]

/-! ### Transactions -/

/-- A transaction is the one without interrupts, or it was interrupted before anything was sent. -/
theorem transact_cases (cmd rsp : Bytes) (c : Conn σ) :
    Raw.transact os hm cmd rsp c = transact (calm os hm) cmd rsp c ∨
    ∃ c', cmd.length < 2 ^ 32 ∧
      write os .tpm (sendFrame c.locality cmd) c = (.error interrupted, c') ∧
      Raw.transact os hm cmd rsp c = (.error interrupted, rsp, c') := by
  unfold Raw.transact transact
  by_cases hl : 2 ^ 32 ≤ cmd.length
  · rw [if_pos hl, if_pos hl]
    exact .inl rfl
  · rw [if_neg hl, if_neg hl]
    by_cases hi : (writeVectored os .tpm (sendFrame c.locality cmd) c).1 = .error interrupted
    · rcases hw : writeVectored os .tpm (sendFrame c.locality cmd) c with ⟨r, c'⟩
      rw [hw] at hi
      simp only at hi
      subst hi
      exact .inr ⟨c', by omega, writeVectored_interrupted hw, rfl⟩
    · rw [← agree_writeVectored hm _ _ c hi]
      left
      rcases writeVectored os .tpm (sendFrame c.locality cmd) c with ⟨e | u, c'⟩
      · rfl
      · simp only [readLocal_calm, readExact_calm, checkResponseEnd_calm]
        rfl

theorem transact_again {cmd : Bytes} (rsp : Bytes) {c c' : Conn σ} (hl : cmd.length < 2 ^ 32)
    (h : write os .tpm (sendFrame c.locality cmd) c = (.error interrupted, c')) :
    transact (calm os hm) cmd rsp c = transact (calm os hm) cmd rsp c' := by
  have hc : c'.locality = c.locality := by rw [(Raw.write_error h).2]
  have hv : writeVectored (calm os hm) .tpm (sendFrame c.locality cmd) c =
      writeVectored (calm os hm) .tpm (sendFrame c.locality cmd) c' := by
    show M.bind _ _ c = M.bind _ _ c'
    unfold M.bind
    rw [write_again hm h]
  unfold transact
  rw [hc, hv, if_neg (by omega), if_neg (by omega)]

/-- A transaction without interrupts does not end with one. -/
theorem never_transact (cmd rsp : Bytes) (c : Conn σ) :
    (transact (calm os hm) cmd rsp c).1 ≠ .error interrupted := by
  unfold transact
  split
  · simp [interrupted]
  · have h1 : Never (writeVectored (calm os hm) .tpm (sendFrame c.locality cmd)) :=
      Never.bind (write_never hm _ _) fun n => by
        split
        · exact never_fail (by simp [interrupted])
        · exact never_pure _
    have h1 := h1 c
    rcases hw : writeVectored (calm os hm) .tpm (sendFrame c.locality cmd) c with ⟨e | u, c1⟩ <;>
      rw [hw] at h1
    · simpa using h1
    · have h2 := never_readLocal hm .tpm 4 c1
      simp only
      rcases hr : readLocal (calm os hm) .tpm 4 c1 with ⟨e | hdr, c2⟩ <;> rw [hr] at h2
      · simpa using h2
      · simp only
        split
        · simp [interrupted]
        · have h3 := never_readExact hm .tpm (fromBE hdr) c2
          rcases hx : readExact (calm os hm) .tpm (fromBE hdr) c2 with ⟨e | u, b, c3⟩ <;>
            rw [hx] at h3
          · simpa using h3
          · have h4 := never_check hm .tpm c3
            simp only
            rcases hk : checkResponseEnd (calm os hm) .tpm c3 with ⟨e | u, c4⟩ <;> rw [hk] at h4
            · simpa using h4
            · simp

end Verif.Tcp
