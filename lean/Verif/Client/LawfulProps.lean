import Verif.Client.Lawful

/-! C113: commands whose types the caller implements as documented. -/

namespace Verif.Client
open Verif Verif.Base Verif.Errors Verif.Own

variable {ω ε A B P H : Type} {code : Nat} {ph : Part A} {h : A} {pp : Part B} {v : B} {qp : Part P}
  {qh : Part H} {mh : Meaning A} {mp : Meaning B} {np : Meaning P} {nh : Meaning H}

/-- **C113**: what is sent is the command in the format of the standard, with the encodings of
handles and parameters, if it has at most 4096 bytes and the area and its sessions answer; nothing is
sent otherwise. -/
theorem C113_sent (lh : Lawful ph mh) (lp : Lawful pp mp) (sh : mh.sound h) (sv : mp.sound v)
    (a : FreeArea ω) (w w' : ω) (cmd : Bytes) :
    Composes (commandOf code ph h pp v qp qh) a w cmd w' ↔ ∃ empty auths w1,
      a.isEmpty w = (some empty, w1) ∧ Contributes a w1 auths w' ∧
      (∀ vs, auths = some vs → ∀ v ∈ vs, WF TpmsAuthCommand v) ∧ cmd.length ≤ 4096 ∧
      cmd = requestBytes code (!empty) (mh.bytes h) (authBytes auths) (mp.bytes v) := by
  rw [C93_honest _ a w w' cmd (mh.bytes h) (mp.bytes v) (lawful_honest lh h sh) (lawful_honest lp v sv)]
  constructor
  · rintro ⟨empty, auths, w1, h1, h2, h3, h4, h5⟩
    refine ⟨empty, auths, w1, h1, h2, h3, h4, ?_⟩
    have hlen : cmd.length = 10 + (mh.bytes h).length + (authBytes auths).length + (mp.bytes v).length := by
      have := congrArg List.length h5
      simp only [List.length_append, digits256_length] at this
      omega
    rw [h5, hlen]
    unfold requestBytes
    cases empty <;> simp [commandOf]
  · rintro ⟨empty, auths, w1, h1, h2, h3, h4, h5⟩
    refine ⟨empty, auths, w1, h1, h2, h3, h4, ?_⟩
    have hlen : cmd.length = 10 + (mh.bytes h).length + (authBytes auths).length + (mp.bytes v).length := by
      rw [h5]
      simp only [requestBytes, List.length_append, digits256_length]
    rw [hlen, h5]
    unfold requestBytes
    cases empty <;> simp [commandOf]

/-- **C113**: a command succeeds exactly if it is sent and the connection reports a successful
response with the encodings of the values that are returned, followed by authorizations that the
sessions of the area accept, one for each. -/
theorem C113_success (lqp : Lawful qp np) (lqh : Lawful qh nh) (hcode : code < 2 ^ 32)
    (tr : LiveTransport ω ε) (a : FreeArea ω) (ha : a.Typed) (w w' : ω) (x : P) (y : H) :
    runOwn tr (commandOf code ph h pp v qp qh) a w = ⟨.ok (x, y), w'⟩ ↔
      ∃ cmd w1 n w2 tag paramSize auths rest d w3,
        Composes (commandOf code ph h pp v qp qh) a w cmd w1 ∧
        tr.transact w1 cmd (List.replicate 4096 0) = (some (.reported n),
          successBytes tag paramSize (nh.bytes y) (np.bytes x) (wires TpmsAuthResponse auths) ++ rest, w2) ∧
        tag < 65536 ∧ paramSize < 2 ^ 32 ∧
        np.sound x ∧ np.canon x = x ∧ nh.sound y ∧ nh.canon y = y ∧
        a.decompose w2 = (some d, w3) ∧
        (∀ z ∈ auths, WF TpmsAuthResponse z ∧ canon TpmsAuthResponse z = z) ∧
        Accepts d.active auths w3 w' := by
  rw [C93_success_iff tr _ a w w' hcode ha x y]
  constructor
  · rintro ⟨cmd, w1, n, buf, w2, h1, h2, h3⟩
    cases h3 with
    | @mk tag paramSize body rest b1 b2 _ _ d auths u1 u2 w3 _ htag hsize g1 g2 g3 g4 g5 g6 =>
      simp only [commandOf, Prod.mk.injEq] at g1 g2
      obtain ⟨e1, rfl⟩ := g1
      obtain ⟨e2, rfl⟩ := g2
      obtain ⟨s1, c1, rfl⟩ := lqh.only _ _ _ e1
      obtain ⟨s2, c2, rfl⟩ := lqp.only _ _ _ e2
      subst g4
      refine ⟨cmd, w1, n, w2, tag, paramSize, auths, rest, d, w3, h1, ?_, htag, hsize, s2, c2, s1, c1, g3,
        g5, g6⟩
      rw [h2]
      simp only [successBytes, List.append_assoc]
  · rintro ⟨cmd, w1, n, w2, tag, paramSize, auths, rest, d, w3, h1, h2, htag, hsize, s2, c2, s1, c1, g3,
      g5, g6⟩
    refine ⟨cmd, w1, n, _, w2, h1, h2, ?_⟩
    unfold successBytes
    refine Decomposes.mk (w1 := w2) (w2 := w2) (b1 := np.bytes x ++ wires TpmsAuthResponse auths) htag hsize
      ?_ ?_ g3 rfl g5 g6
    · have := lqh.reads y ((if tag = 0x8002 then digits256 4 paramSize else []) ++
        (np.bytes x ++ wires TpmsAuthResponse auths)) s1
      rw [c1] at this
      simp only [commandOf, List.append_assoc]
      exact congrArg (·, w2) this
    · have := lqp.reads x (wires TpmsAuthResponse auths) s2
      rw [c2] at this
      exact congrArg (·, w2) this

/-- **C113**: if the response carries the encodings of sound values, what is returned are these
values as they are read back. -/
theorem C113_result (lqp : Lawful qp np) (lqh : Lawful qh nh) (hcode : code < 2 ^ 32)
    (tr : LiveTransport ω ε) (a : FreeArea ω) (ha : a.Typed) (w w1 w2 w3 w' : ω) (cmd rest : Bytes)
    (n tag paramSize : Nat) (auths : List Val) (d : LiveArea ω) (x : P) (y : H)
    (hc : Composes (commandOf code ph h pp v qp qh) a w cmd w1)
    (ht : tr.transact w1 cmd (List.replicate 4096 0) = (some (.reported n),
      successBytes tag paramSize (nh.bytes y) (np.bytes x) (wires TpmsAuthResponse auths) ++ rest, w2))
    (htag : tag < 65536) (hsize : paramSize < 2 ^ 32) (sx : np.sound x) (sy : nh.sound y)
    (hd : a.decompose w2 = (some d, w3))
    (hz : ∀ z ∈ auths, WF TpmsAuthResponse z ∧ canon TpmsAuthResponse z = z)
    (hacc : Accepts d.active auths w3 w') :
    runOwn tr (commandOf code ph h pp v qp qh) a w = ⟨.ok (np.canon x, nh.canon y), w'⟩ := by
  rw [C93_success_iff tr _ a w w' hcode ha]
  refine ⟨cmd, w1, n, _, w2, hc, ht, ?_⟩
  unfold successBytes
  refine Decomposes.mk (w1 := w2) (w2 := w2) (b1 := np.bytes x ++ wires TpmsAuthResponse auths) htag hsize
    ?_ ?_ hd rfl hz hacc
  · have := lqh.reads y ((if tag = 0x8002 then digits256 4 paramSize else []) ++
      (np.bytes x ++ wires TpmsAuthResponse auths)) sy
    simp only [commandOf, List.append_assoc]
    exact congrArg (·, w2) this
  · exact congrArg (·, w2) (lqp.reads x (wires TpmsAuthResponse auths) sx)

/-- **C113**: implementations with the same meaning can be exchanged: commands succeed with the same
results and states. -/
theorem C113_same {ph' : Part A} {pp' : Part B} {qp' : Part P} {qh' : Part H}
    (lh : Lawful ph mh) (lp : Lawful pp mp) (lqp : Lawful qp np) (lqh : Lawful qh nh)
    (lh' : Lawful ph' mh) (lp' : Lawful pp' mp) (lqp' : Lawful qp' np) (lqh' : Lawful qh' nh)
    (sh : mh.sound h) (sv : mp.sound v) (hcode : code < 2 ^ 32)
    (tr : LiveTransport ω ε) (a : FreeArea ω) (ha : a.Typed) (w w' : ω) (x : P) (y : H) :
    runOwn tr (commandOf code ph h pp v qp qh) a w = ⟨.ok (x, y), w'⟩ ↔
      runOwn tr (commandOf code ph' h pp' v qp' qh') a w = ⟨.ok (x, y), w'⟩ := by
  rw [C113_success lqp lqh hcode tr a ha, C113_success lqp' lqh' hcode tr a ha]
  have e : ∀ cmd w1, Composes (commandOf code ph h pp v qp qh : OwnCommand ω P H) a w cmd w1 ↔
      Composes (commandOf code ph' h pp' v qp' qh') a w cmd w1 := by
    intro cmd w1
    rw [C113_sent lh lp sh sv, C113_sent lh' lp' sh sv]
  simp only [e]

/-- **C113**: without sessions, and with implementations that do not panic for want of room, a command
panics only if the connection does, or if it reports a response with code zero that declares less than
the ten bytes of its header (C37). -/
theorem C113_panics (lh : Lawful ph mh) (lp : Lawful pp mp) (ch : Calm ph mh) (cp : Calm pp mp)
    (lqp : Lawful qp np) (lqh : Lawful qh nh) (sh : mh.sound h) (sv : mp.sound v) (hcode : code < 2 ^ 32)
    (tr : LiveTransport ω ε) (w w' : ω)
    (hr : runOwn tr (commandOf code ph h pp v qp qh) free0 w = ⟨.panic, w'⟩) :
    ∃ cmd, cmd = requestBytes code false (mh.bytes h) [] (mp.bytes v) ∧
      ((∃ b, tr.transact w cmd (List.replicate 4096 0) = (none, b, w')) ∨
       ∃ n tag size rest, tr.transact w cmd (List.replicate 4096 0) = (some (.reported n),
         digits256 2 tag ++ digits256 4 size ++ digits256 4 0 ++ rest, w') ∧ size < 10) := by
  obtain ⟨s1, s2, s3, s4⟩ := build_safe (qp := qp) (qh := qh) lh lp ch cp sh sv hcode w
  unfold runOwn at hr
  rcases hb : buildOwn (commandOf code ph h pp v qp qh : OwnCommand ω P H) free0 w
    with ⟨⟨m | e | _, b⟩, w1⟩ <;> rw [hb] at hr s1 s2 s3 s4
  · dsimp only at hr s1 s3 s4
    subst s1
    have hm := s4 m rfl
    rcases hs : sliceTo b m with _ | cmd <;> rw [hs] at hr
    · unfold sliceTo at hs
      rw [if_pos (by omega)] at hs
      cases hs
    · have hc := (buildOwn_iff _ free0 _ _ cmd hcode free0_typed).1 ⟨m, b, hb, hs⟩
      obtain ⟨empty, auths, w2, g1, g2, -, -, g5⟩ := (C113_sent lh lp sh sv free0 _ _ cmd).1 hc
      have he : empty = true := by
        simp only [free0, FreeArea.provided, Prod.mk.injEq, Option.some.injEq] at g1
        exact g1.1.symm
      have hau : auths = none := by
        cases g2 with
        | nothing _ => rfl
        | auths h1 _ _ => simp [free0, FreeArea.provided] at h1
      subst he hau
      refine ⟨cmd, g5, ?_⟩
      dsimp only at hr
      have hk := tr.keeps_length w1 cmd (List.replicate respBufferSize 0)
      rcases ht : tr.transact w1 cmd (List.replicate respBufferSize 0)
        with ⟨_ | n | e', buf', w3⟩ <;> rw [ht] at hr
      · simp only [Run.mk.injEq, true_and] at hr
        subst hr
        exact Or.inl ⟨buf', ht⟩
      · right
        rw [ht, List.length_replicate] at hk
        dsimp only at hr hk
        obtain ⟨tag, size, rc, rest, rfl, b1, b2, b3⟩ := header_form buf' (by rw [hk]; decide)
        rw [readResponseOwn_eq _ free0 tag size rc rest w3 b1 b2 b3] at hr
        by_cases h0 : rc = 0
        · subst h0
          rw [if_neg (by simp)] at hr
          by_cases h1 : 10 + rest.length < size
          · rw [if_pos h1] at hr; simp [Res.mapErr] at hr
          · rw [if_neg h1] at hr
            by_cases h2 : size < 10
            · rw [if_pos h2] at hr
              simp only [Res.mapErr, Run.mk.injEq, true_and] at hr
              subst hr
              exact ⟨n, tag, size, rest, ht, h2⟩
            · rw [if_neg h2] at hr
              exact absurd (congrArg Run.result hr) (by
                have := body_calm (code := code) (ph := ph) (h := h) (pp := pp) (v := v) lqp lqh tag
                  (rest.take (size - 10)) w3
                rcases hrb : readBodyOwn (commandOf code ph h pp v qp qh : OwnCommand ω P H) free0 tag
                  (rest.take (size - 10)) w3 with ⟨_ | _ | _, _⟩ <;> rw [hrb] at this <;>
                  simp [Res.mapErr] at this ⊢)
        · rw [if_pos h0] at hr; simp [Res.mapErr] at hr
      · simp at hr
  · simp at hr
  · exact absurd rfl s2


/-! ### A case -/

/-- A handle of the caller's own and no parameters; the response is the structure of C112. -/
def exOwnCommand : OwnCommand Nat (Own.Val Nat) Unit :=
  commandOf 0x2000_0001 small 2 (derived (.struct .nil : Own.Ty Nat)) (.struct []) (derived exTy)
    ⟨fun _ b => (.ok 0, b), fun b => (.ok (), b), (), fun _ => 0, fun _ _ => rfl⟩

/-- Nothing. -/
def noneMeaning : Meaning Unit := ⟨fun _ => True, fun _ => [], id⟩

theorem none_lawful : Lawful ⟨fun _ b => (.ok 0, b), fun b => (.ok (), b), (), fun _ => 0, fun _ _ => rfl⟩
    noneMeaning where
  writes x buf _ _ := rfl
  refuses x buf n _ hl := absurd hl (Nat.not_lt_zero _)
  reads x r _ := rfl
  only b x r hb := by cases hb; exact ⟨trivial, rfl, rfl⟩
  total b := ⟨by simp, [], rfl⟩
  cast x _ := rfl

theorem exOwnCommand_composes : Composes exOwnCommand free0 7
    [0x80, 1, 0, 0, 0, 11, 0x20, 0, 0, 1, 2] 7 := by
  have l : Lawful (derived (.struct .nil : Own.Ty Nat)) (meaning (fun _ => smallMeaning) (.struct .nil)) :=
    C112_derived _ (show Ty.Own _ (.struct .nil) from trivial)
  have sv : (meaning (fun _ => smallMeaning) (.struct .nil : Own.Ty Nat)).sound (.struct []) := by
    simp only [meaning, Sound, SoundFields]
  refine (C113_sent (code := 0x2000_0001) (h := 2) (v := .struct []) small_lawful l
    (show 2 < 4 by decide) sv free0 7 7 [0x80, 1, 0, 0, 0, 11, 0x20, 0, 0, 1, 2]).2
    ⟨true, none, 7, rfl, .nothing rfl, ?_, by decide, by decide⟩
  intro _ h
  cases h

/-- The response is read as the structure. -/
example : runOwn (answering [0x80, 1, 0, 0, 0, 16, 0, 0, 0, 0, 2, 1, 0, 2, 0x12, 0x34] (by decide))
    exOwnCommand free0 7 = ⟨.ok (.struct [.own 2, .arr [.own 1, .own 0, .own 3],
      .enum 2 [.std (.int 0x1234)]], ()), 7⟩ := by
  have l := C112_derived (M := fun _ => smallMeaning) exTy (Ty.Own.mono (fun _ h => h.1) _ exTy_own)
  refine C113_result (np := meaning (fun _ => smallMeaning) exTy) l none_lawful (by decide) _ free0
    free0_typed 7 7 7 7 7 _ (List.drop 16 (List.replicate 4096 0)) 16 0x8001 0 [] ⟨none, none, none⟩
    exVal () exOwnCommand_composes ?_ (by decide) (by decide) exVal_sound trivial rfl
    (fun _ h => nomatch h) (.nil _)
  simp only [answering, List.length_replicate, if_true]
  rfl

/-- Its handle and parameters do not panic for want of room, so it panics only through the connection
or a response that declares less than its header. -/
example (tr : LiveTransport Nat ε) (w w' : Nat) (hr : runOwn tr exOwnCommand free0 w = ⟨.panic, w'⟩) :
    (∃ b, tr.transact w [0x80, 1, 0, 0, 0, 11, 0x20, 0, 0, 1, 2] (List.replicate 4096 0) = (none, b, w')) ∨
    ∃ n tag size rest, tr.transact w [0x80, 1, 0, 0, 0, 11, 0x20, 0, 0, 1, 2] (List.replicate 4096 0) =
      (some (.reported n), digits256 2 tag ++ digits256 4 size ++ digits256 4 0 ++ rest, w') ∧ size < 10 := by
  have l : Lawful (derived (.struct .nil : Own.Ty Nat)) (meaning (fun _ => smallMeaning) (.struct .nil)) :=
    C112_derived _ (show Ty.Own _ (.struct .nil) from trivial)
  have cl : Calm (derived (.struct .nil : Own.Ty Nat)) (meaning (fun _ => smallMeaning) (.struct .nil)) :=
    C112_calm _ (show Ty.Own _ (.struct .nil) from trivial) (show Ty.Std _ (.struct .nil) from trivial)
  have sv : (meaning (fun _ => smallMeaning) (.struct .nil : Own.Ty Nat)).sound (.struct []) := by
    simp only [meaning, Sound, SoundFields]
  have l2 := C112_derived (M := fun _ => smallMeaning) exTy (Ty.Own.mono (fun _ h => h.1) _ exTy_own)
  unfold exOwnCommand at hr
  have key := fun hr => C113_panics (code := 0x2000_0001) (h := 2) (v := .struct []) small_lawful l
    small_calm cl l2 none_lawful (show 2 < 4 by decide) sv (by decide) tr w w' hr
  have h' := key hr
  obtain ⟨cmd, rfl, h⟩ := h'
  exact h

/-- And with such a response it does. -/
example : runOwn (answering [0x80, 1, 0, 0, 0, 5, 0, 0, 0, 0] (by decide)) exOwnCommand free0 7 =
    ⟨.panic, 7⟩ := by
  obtain ⟨m, b, hb, hs⟩ := (buildOwn_iff exOwnCommand free0 7 7 _ (by decide) free0_typed).2
    exOwnCommand_composes
  have hrd := readResponseOwn_eq exOwnCommand free0 0x8001 5 0 (List.drop 10 (List.replicate 4096 0)) 7
    (by decide) (by decide) (by decide)
  rw [if_neg (by simp), if_neg (Nat.not_lt.mpr (Nat.le_trans (by decide : 5 ≤ 10) (Nat.le_add_right _ _))),
    if_pos (by decide)] at hrd
  have ht : (answering [0x80, 1, 0, 0, 0, 5, 0, 0, 0, 0] (by decide)).transact 7
      [0x80, 1, 0, 0, 0, 11, 0x20, 0, 0, 1, 2] (List.replicate respBufferSize 0) =
      (some (.reported 10), digits256 2 0x8001 ++ digits256 4 5 ++ digits256 4 0 ++
        List.drop 10 (List.replicate 4096 0), 7) := by
    simp only [answering, respBufferSize, List.length_replicate, if_true]
    rfl
  simp only [runOwn, hb, hs, ht, hrd, Res.mapErr]

end Verif.Client
