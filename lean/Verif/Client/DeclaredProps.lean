import Verif.Client.Declared

/-! C121: commands whose types are declared with the derive macro. -/

namespace Verif.Client
open Verif Verif.Base Verif.Errors Verif.Own

variable {ω ε A B P H : Type} {code : Nat} {dh : Declared A} {h : Own.Val A} {dp : Declared B}
  {v : Own.Val B} {dq : Declared P} {dr : Declared H} {th : Own.Ty A} {tp : Own.Ty B} {tq : Own.Ty P}
  {tr : Own.Ty H} {Mh : Part A → Meaning A} {Mp : Part B → Meaning B} {Mq : Part P → Meaning P}
  {Mr : Part H → Meaning H} {c : OwnCommand ω (Own.Val P) (Own.Val H)}

/-- **C121**: every four declarations and sound values make a command. -/
theorem C121_made (code : Nat) (dq : Declared P) (dr : Declared H) (eh : dh.Says th) (ep : dp.Says tp)
    (sh : Sound Mh th h) (sv : Sound Mp tp v) :
    ∃ c : OwnCommand ω (Own.Val P) (Own.Val H), Made c code dh h dp v dq dr := by
  obtain ⟨tq, eq⟩ := dq.says
  obtain ⟨tr, er⟩ := dr.says
  refine ⟨commandOf code (derived th) h (derived tp) v (derived tq) (derived tr), rfl, fun b w => ?_,
    fun b w => ?_, fun b w => ?_, fun b w => ?_⟩
  · rw [(dh.implements eh).2 h b (dh.formed eh h sh)]; rfl
  · rw [(dp.implements ep).2 v b (dp.formed ep v sv)]; rfl
  · rw [(dq.implements eq).1]; rfl
  · rw [(dr.implements er).1]; rfl

/-- **C121**: what is sent are the fields of the handles and of the parameters in the order of their
declarations, behind a header and around the authorizations, if the command has at most 4096 bytes and
the area and its sessions answer; nothing is sent otherwise. -/
theorem C121_sent (hc : Made c code dh h dp v dq dr) (eh : dh.Says th) (ep : dp.Says tp)
    (lh : th.Own fun p => Lawful p (Mh p)) (lp : tp.Own fun p => Lawful p (Mp p))
    (sh : Sound Mh th h) (sv : Sound Mp tp v) (a : FreeArea ω) (w w' : ω) (cmd : Bytes) :
    Composes c a w cmd w' ↔ ∃ empty auths w1,
      a.isEmpty w = (some empty, w1) ∧ Contributes a w1 auths w' ∧
      (∀ vs, auths = some vs → ∀ v ∈ vs, WF TpmsAuthCommand v) ∧ cmd.length ≤ 4096 ∧
      cmd = requestBytes code (!empty) (Own.wire Mh th h) (authBytes auths) (Own.wire Mp tp v) := by
  obtain ⟨tq, eq⟩ := dq.says
  obtain ⟨tr, er⟩ := dr.says
  rw [made_eq hc eh ep eq er (dh.formed eh h sh) (dp.formed ep v sv)]
  exact C113_sent (mh := meaning Mh th) (mp := meaning Mp tp) (C112_derived th lh) (C112_derived tp lp)
    sh sv a w w' cmd

/-- **C121**: a command succeeds exactly if it is sent and the connection reports a successful response
with the fields of the response handles and parameters in the order of their declarations, followed by
authorizations that the sessions accept, one for each. -/
theorem C121_success (hc : Made c code dh h dp v dq dr) (eh : dh.Says th) (ep : dp.Says tp)
    (eq : dq.Says tq) (er : dr.Says tr) (sh : Sound Mh th h) (sv : Sound Mp tp v)
    (lq : tq.Own fun p => Lawful p (Mq p)) (lr : tr.Own fun p => Lawful p (Mr p)) (hcode : code < 2 ^ 32)
    (con : LiveTransport ω ε) (a : FreeArea ω) (ha : a.Typed) (w w' : ω) (x : Own.Val P) (y : Own.Val H) :
    runOwn con c a w = ⟨.ok (x, y), w'⟩ ↔
      ∃ cmd w1 n w2 tag paramSize auths rest d w3,
        Composes c a w cmd w1 ∧
        con.transact w1 cmd (List.replicate 4096 0) = (some (.reported n),
          successBytes tag paramSize (Own.wire Mr tr y) (Own.wire Mq tq x)
            (wires TpmsAuthResponse auths) ++ rest, w2) ∧
        tag < 65536 ∧ paramSize < 2 ^ 32 ∧
        Sound Mq tq x ∧ Own.canon Mq tq x = x ∧ Sound Mr tr y ∧ Own.canon Mr tr y = y ∧
        a.decompose w2 = (some d, w3) ∧
        (∀ z ∈ auths, WF TpmsAuthResponse z ∧ canon TpmsAuthResponse z = z) ∧
        Accepts d.active auths w3 w' := by
  rw [made_eq hc eh ep eq er (dh.formed eh h sh) (dp.formed ep v sv)]
  exact C113_success (np := meaning Mq tq) (nh := meaning Mr tr) (C112_derived tq lq) (C112_derived tr lr)
    hcode con a ha w w' x y

/-- **C121**: if the response carries the encodings of sound values, these are returned, with array
slots beyond a length field as they are by default. -/
theorem C121_result (hc : Made c code dh h dp v dq dr) (eh : dh.Says th) (ep : dp.Says tp)
    (eq : dq.Says tq) (er : dr.Says tr) (sh : Sound Mh th h) (sv : Sound Mp tp v)
    (lq : tq.Own fun p => Lawful p (Mq p)) (lr : tr.Own fun p => Lawful p (Mr p)) (hcode : code < 2 ^ 32)
    (con : LiveTransport ω ε) (a : FreeArea ω) (ha : a.Typed) (w w1 w2 w3 w' : ω) (cmd rest : Bytes)
    (n tag paramSize : Nat) (auths : List Val) (d : LiveArea ω) (x : Own.Val P) (y : Own.Val H)
    (hs : Composes c a w cmd w1)
    (ht : con.transact w1 cmd (List.replicate 4096 0) = (some (.reported n),
      successBytes tag paramSize (Own.wire Mr tr y) (Own.wire Mq tq x)
        (wires TpmsAuthResponse auths) ++ rest, w2))
    (htag : tag < 65536) (hsize : paramSize < 2 ^ 32) (sx : Sound Mq tq x) (sy : Sound Mr tr y)
    (hd : a.decompose w2 = (some d, w3))
    (hz : ∀ z ∈ auths, WF TpmsAuthResponse z ∧ canon TpmsAuthResponse z = z)
    (hacc : Accepts d.active auths w3 w') :
    runOwn con c a w = ⟨.ok (Own.canon Mq tq x, Own.canon Mr tr y), w'⟩ := by
  have e := made_eq hc eh ep eq er (dh.formed eh h sh) (dp.formed ep v sv)
  subst e
  exact C113_result (np := meaning Mq tq) (nh := meaning Mr tr) (C112_derived tq lq) (C112_derived tr lr)
    hcode con a ha w w1 w2 w3 w' cmd rest n tag paramSize auths d x y hs ht htag hsize sx sy hd hz hacc

/-- **C121**: without sessions, with declarations that contain no sized buffer and parts that do not
panic for want of room, a command panics only if the connection does, or if it reports a response with
code zero that declares less than the ten bytes of its header (C37). -/
theorem C121_panics (hc : Made c code dh h dp v dq dr) (eh : dh.Says th) (ep : dp.Says tp)
    (eq : dq.Says tq) (er : dr.Says tr) (sh : Sound Mh th h) (sv : Sound Mp tp v)
    (lh : th.Own fun p => Lawful p (Mh p) ∧ Calm p (Mh p)) (lp : tp.Own fun p => Lawful p (Mp p) ∧ Calm p (Mp p))
    (nh : th.Std fun t => hasSized t = false) (np : tp.Std fun t => hasSized t = false)
    (lq : tq.Own fun p => Lawful p (Mq p)) (lr : tr.Own fun p => Lawful p (Mr p)) (hcode : code < 2 ^ 32)
    (con : LiveTransport ω ε) (w w' : ω) (hr : runOwn con c free0 w = ⟨.panic, w'⟩) :
    ∃ cmd, cmd = requestBytes code false (Own.wire Mh th h) [] (Own.wire Mp tp v) ∧
      ((∃ b, con.transact w cmd (List.replicate 4096 0) = (none, b, w')) ∨
       ∃ n tag size rest, con.transact w cmd (List.replicate 4096 0) = (some (.reported n),
         digits256 2 tag ++ digits256 4 size ++ digits256 4 0 ++ rest, w') ∧ size < 10) := by
  have e := made_eq hc eh ep eq er (dh.formed eh h sh) (dp.formed ep v sv)
  subst e
  exact C113_panics (mh := meaning Mh th) (mp := meaning Mp tp) (np := meaning Mq tq) (nh := meaning Mr tr)
    (C112_derived th (Ty.Own.mono (fun _ h => h.1) _ lh)) (C112_derived tp (Ty.Own.mono (fun _ h => h.1) _ lp))
    (C112_calm th lh nh) (C112_calm tp lp np) (C112_derived tq lq) (C112_derived tr lr) sh sv hcode con w w' hr

/-! ### A case -/

/-- The declaration `struct Ex` of C119 in a program. -/
theorem exDeclared : ∃ d : Declared Nat, d.Says exTy := by
  obtain ⟨items, c, h, hc⟩ := (Own.Derive.C119_compiles Own.Derive.exCtx 0 Own.Derive.exInput
    Own.Derive.exDistinct.1 Own.Derive.exDistinct.2).2
    ⟨Own.Derive.exUsable.1, Own.Derive.exUsable.2, _, Own.Derive.exMeans⟩
  exact ⟨⟨Own.Derive.exCtx, 0, Own.Derive.exInput, items, c, Own.Derive.exDistinct.1,
    Own.Derive.exDistinct.2, h, hc⟩, Own.Derive.exMeans⟩

/-- `struct One(...);` with any such fields. -/
theorem smallDeclared (ts : List Verif.Derive.TypeE) (F : Own.Fields Nat)
    (h : Own.Derive.TuplesMean Own.Derive.exCtx ts F) : ∃ d : Declared Nat, d.Says (.struct F) := by
  have hp : (⟨"One", [], .struct (.unnamed ts)⟩ : Verif.Derive.Input).Plain := by intro a ha; cases ha
  obtain ⟨items, c, h1, h2⟩ := (Own.Derive.C119_compiles Own.Derive.exCtx 0
    ⟨"One", [], .struct (.unnamed ts)⟩ hp trivial).2 ⟨trivial, trivial, _, .unnamed h⟩
  exact ⟨⟨Own.Derive.exCtx, 0, ⟨"One", [], .struct (.unnamed ts)⟩, items, c, hp, trivial, h1, h2⟩, .unnamed h⟩

/-- A handle `One(2)`, the structure as parameters and as response, and no response handles. -/
example : ∃ (d0 d1 dx : Declared Nat) (c : OwnCommand Nat (Own.Val Nat) (Own.Val Nat)),
    Made c 0x2000_0001 d1 (.struct [.own 2]) dx exVal dx d0 ∧
    Composes c free0 7 [0x80, 1, 0, 0, 0, 17, 0x20, 0, 0, 1, 2, 2, 1, 0, 2, 0x12, 0x34] 7 ∧
    runOwn (answering [0x80, 1, 0, 0, 0, 16, 0, 0, 0, 0, 2, 1, 0, 2, 0x12, 0x34] (by decide)) c free0 7 =
      ⟨.ok (.struct [.own 2, .arr [.own 1, .own 0, .own 3], .enum 2 [.std (.int 0x1234)]], .struct []), 7⟩ ∧
    ∀ (con : LiveTransport Nat Unit) w', runOwn con c free0 7 = ⟨.panic, w'⟩ →
      (∃ b, con.transact 7 [0x80, 1, 0, 0, 0, 17, 0x20, 0, 0, 1, 2, 2, 1, 0, 2, 0x12, 0x34]
        (List.replicate 4096 0) = (none, b, w')) ∨
      ∃ n tag size rest, con.transact 7 [0x80, 1, 0, 0, 0, 17, 0x20, 0, 0, 1, 2, 2, 1, 0, 2, 0x12, 0x34]
        (List.replicate 4096 0) = (some (.reported n),
          digits256 2 tag ++ digits256 4 size ++ digits256 4 0 ++ rest, w') ∧ size < 10 := by
  obtain ⟨d0, e0⟩ := smallDeclared [] .nil .nil
  obtain ⟨d1, e1⟩ := smallDeclared [.path (.ident "Small")] (.plain (.own small) .nil) (.cons rfl .nil)
  obtain ⟨dx, ex⟩ := exDeclared
  have s1 : Sound (fun _ => smallMeaning) (.struct (.plain (.own small) .nil)) (.struct [.own 2]) :=
    ⟨show 2 < 4 by decide, trivial⟩
  have s0 : Sound (fun _ => smallMeaning) (.struct .nil) (.struct [] : Own.Val Nat) := trivial
  have l0 : (Own.Ty.struct .nil : Own.Ty Nat).Own fun p => Lawful p smallMeaning := trivial
  have l1 : (Own.Ty.struct (.plain (.own small) .nil)).Own
      fun p => Lawful p smallMeaning ∧ Calm p smallMeaning := ⟨⟨small_lawful, small_calm⟩, trivial⟩
  have lx := Ty.Own.mono (fun _ h => h.1) _ exTy_own
  obtain ⟨c, hc⟩ := C121_made (ω := Nat) 0x2000_0001 dx d0 e1 ex s1 exVal_sound
  have hs : Composes c free0 7 [0x80, 1, 0, 0, 0, 17, 0x20, 0, 0, 1, 2, 2, 1, 0, 2, 0x12, 0x34] 7 :=
    (C121_sent hc e1 ex (Ty.Own.mono (fun _ h => h.1) _ l1) lx s1 exVal_sound free0 7 7 _).2
      ⟨true, none, 7, rfl, .nothing rfl, (fun _ h => nomatch h), by decide, by decide⟩
  refine ⟨d0, d1, dx, c, hc, hs, ?_, fun con w' hr => ?_⟩
  · refine C121_result hc e1 ex ex e0 s1 exVal_sound lx l0 (by decide) _ free0
      free0_typed 7 7 7 7 7 _ (List.drop 16 (List.replicate 4096 0)) 16 0x8001 0 [] ⟨none, none, none⟩
      exVal (.struct []) hs ?_ (by decide) (by decide) exVal_sound s0 rfl (fun _ h => nomatch h) (.nil _)
    simp only [answering, List.length_replicate, if_true]
    rfl
  · obtain ⟨cmd, rfl, h⟩ := C121_panics hc e1 ex ex e0 s1 exVal_sound l1 exTy_own ⟨trivial, trivial⟩
      ⟨trivial, trivial, ⟨⟨trivial, trivial⟩, ⟨rfl, trivial⟩, trivial⟩, trivial⟩ lx l0 (by decide) con 7 w' hr
    exact h

end Verif.Client
