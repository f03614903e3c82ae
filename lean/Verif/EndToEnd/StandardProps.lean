import Verif.EndToEnd.Standard
import Verif.Client.Props
import Verif.Client.OutcomeProps

/-
Property theorems C111: programs get what a TPM of the standard answers.
-/

namespace Verif.EndToEnd
open Verif Verif.Base Verif.Errors Verif.Client Verif.Tcp

variable {σ τ α : Type} {os : Os σ} {d : Device τ} {obs : σ → World τ} {known : Command → Prop}
  {tpm : Tpm τ}

/-! ### Proof -/

/-- The device as a transport, with an answer that fits. -/
theorem device_transact (d : Device τ) (t : τ) (l : Nat) (cmd b : Bytes) (t1 : τ)
    (hs : d.send t l cmd = (b, t1)) (hb : b.length ≤ 4096) :
    (deviceTransport d l).transact t cmd (List.replicate 4096 0) =
      (.reported b.length, b ++ List.replicate (4096 - b.length) 0, t1) := by
  simp only [deviceTransport, hs, List.length_replicate, hb, if_true, List.drop_replicate]

theorem ideal_command {c : Command} {a : Area} {t : τ} {l : Nat} {b : Bytes} {t1 : τ}
    (hw : CmdWF c a) (hf : (commandBytes c a.active).length ≤ 4096)
    (hs : d.send t l (commandBytes c a.active) = (b, t1)) (hb : b.length ≤ 4096)
    {r : Res TssError (Val × Val)} (hr : r ≠ .panic)
    (hx : (runCommandWithHandles (deviceTransport d l) c a t).result = r.mapErr .tss) :
    ideal d (.command c a) l t = some (.result r, l, t1) := by
  have h1 := run_eq (deviceTransport d l) c a t hw hf
  rw [device_transact d t l _ b t1 hs hb] at h1
  unfold ideal
  simp only [hx]
  rw [h1]
  cases r with
  | ok v => rfl
  | err e => rfl
  | panic => exact absurd rfl hr

theorem refused_fails {ss : List Session} {e : TssError} : ∀ {auths : List Val},
    (∀ v ∈ auths, WF TpmsAuthResponse v) → Refused ss (auths.map (canon TpmsAuthResponse)) e →
    AuthsFail ss (wires TpmsAuthResponse auths) e.code := by
  intro auths hwf h
  generalize hm : auths.map (canon TpmsAuthResponse) = vs at h
  induction h generalizing auths with
  | @here s ss v vs e hv =>
    cases auths with
    | nil => simp at hm
    | cons x xs =>
      simp only [List.map_cons, List.cons.injEq] at hm
      obtain ⟨rfl, -⟩ := hm
      have h1 := (goodTy TpmsAuthResponse).complete x [] (hwf x (by simp))
      obtain ⟨h2, h3, h4⟩ := (goodTy TpmsAuthResponse).sound _ _ _ h1
      simp only [List.append_nil] at h4
      refine .refused (canon TpmsAuthResponse x) (wires TpmsAuthResponse xs) e h2 h3 ?_ hv
      rw [← h4]
      simp [wires]
  | @later s ss v vs e hv _ ih =>
    cases auths with
    | nil => simp at hm
    | cons x xs =>
      simp only [List.map_cons, List.cons.injEq] at hm
      obtain ⟨rfl, hm⟩ := hm
      have h1 := (goodTy TpmsAuthResponse).complete x [] (hwf x (by simp))
      obtain ⟨h2, h3, h4⟩ := (goodTy TpmsAuthResponse).sound _ _ _ h1
      simp only [List.append_nil] at h4
      refine .later (canon TpmsAuthResponse x) (wires TpmsAuthResponse xs) h2 h3 ?_ hv
        (ih (fun v hv => hwf v (by simp [hv])) hm)
      rw [← h4]
      simp [wires]

theorem meets_dream (hc : Conforms d known tpm) {prog : Prog α} {l l' : Nat} {t t' : τ} {x : α}
    (h : prog.Meets d known tpm l t x l' t') : prog.dream d l t = some (x, l', t') := by
  induction h with
  | done => rfl
  | other _ hi _ ih =>
    rw [Prog.dream, hi]
    exact ih
  | @failure c a k l t rc t1 x l' t' hk hw hf ht h0 hlt _ ih =>
    have hs := hc t l c a hk hw
    rw [ht] at hs
    have hx := C32_error_code (deviceTransport d l) c a t t1 hw hf _ _
      (device_transact d t l _ _ t1 hs (by simp [Answer.bytes]))
    have hp : positional ((((Answer.failure rc).bytes c (!a.active.isEmpty) ++
        List.replicate (4096 - ((Answer.failure rc).bytes c (!a.active.isEmpty)).length) 0).drop
          6).take 4) = rc := by
      simp only [Answer.bytes]
      rw [List.append_assoc, List.drop_left' (by simp), List.take_left' (by simp),
        positional_digits256_of_lt (by simpa using hlt)]
    simp only [hp] at hx
    rw [Prog.dream, ideal_command hw hf hs (by simp [Answer.bytes]) (r := .err ⟨rc⟩) (by simp)
      (hx h0)]
    exact ih
  | @success c a k l t hv pv auths t1 x l' t' hk hw hf ht w1 w2 w3 hb hacc _ ih =>
    have hs := hc t l c a hk hw
    rw [ht] at hs
    have hlen : (wire c.respTy pv).length ≤ 4096 := by
      refine Nat.le_trans ?_ hb
      simp only [Answer.bytes, responseBytes, responseBody, List.length_append]
      omega
    have hx := C34_delivered (deviceTransport d l) c a t t1 hw hf _
      ⟨if (!a.active.isEmpty) = true then 0x8002 else 0x8001, hv, (wire c.respTy pv).length, pv, auths⟩
      (List.replicate (4096 - ((Answer.success hv pv auths).bytes c (!a.active.isEmpty)).length) 0)
      ⟨by show (if _ then _ else _) < _; split <;> decide,
        Nat.lt_of_le_of_lt hlen (by decide), w1, w2, w3⟩
      (device_transact d t l _ _ t1 hs hb) hacc
    rw [Prog.dream, ideal_command hw hf hs hb
      (r := .ok (canon c.respTy pv, canon c.respHandlesTy hv)) (by simp) hx]
    exact ih
  | @refused c a k l t hv pv auths t1 e x l' t' hk hw hf ht w1 w2 w3 hb hacc _ ih =>
    have hs := hc t l c a hk hw
    rw [ht] at hs
    have hlen : (wire c.respTy pv).length ≤ 4096 := by
      refine Nat.le_trans ?_ hb
      simp only [Answer.bytes, responseBytes, responseBody, List.length_append]
      omega
    have hx : (runCommandWithHandles (deviceTransport d l) c a t).result = .err (.tss e) := by
      rw [run_eq _ c a t hw hf, device_transact d t l _ _ t1 hs hb]
      have hrr : readResponse c a ((Answer.success hv pv auths).bytes c (!a.active.isEmpty) ++
          List.replicate (4096 - ((Answer.success hv pv auths).bytes c (!a.active.isEmpty)).length) 0) =
          .err e := by
        rw [readResponse_err_iff c a _ (by rw [List.length_append, List.length_replicate]; omega)]
        simp only [Answer.bytes] at hb ⊢
        generalize hr : (⟨if (!a.active.isEmpty) = true then 0x8002 else 0x8001, hv,
          (wire c.respTy pv).length, pv, auths⟩ : Response) = r at hb ⊢
        have hlr : (responseBytes c r).length = 10 + (responseBody c r).length := by
          simp only [responseBytes, List.length_append, digits256_length]
        have htag : r.tag < 65536 := by
          rw [← hr]; show (if _ then _ else _) < _; split <;> decide
        generalize hz : List.replicate (4096 - (responseBytes c r).length) (0 : UInt8) = z
        have q1 : positional ((responseBytes c r ++ z).take 2) = r.tag := by
          simp only [responseBytes, List.append_assoc]
          rw [List.take_left' (by simp), positional_digits256_of_lt (by simpa using htag)]
        have q2 : positional (((responseBytes c r ++ z).drop 2).take 4) =
            10 + (responseBody c r).length := by
          simp only [responseBytes, List.append_assoc]
          rw [List.drop_left' (by simp), List.take_left' (by simp),
            positional_digits256_of_lt (by omega)]
        have q3 : positional (((responseBytes c r ++ z).drop 6).take 4) = 0 := by
          simp only [responseBytes]
          rw [List.append_assoc, List.append_assoc, List.drop_left' (by simp),
            List.take_left' (by simp), positional_digits256_of_lt (by decide)]
        have q4 : ((responseBytes c r ++ z).take (10 + (responseBody c r).length)).drop 10 =
            responseBody c r := by
          rw [List.take_left' hlr]
          simp only [responseBytes]
          rw [List.drop_left' (by simp)]
        refine .inr (.inr ?_)
        simp only [q1, q2, q3, q4]
        refine ⟨trivial, by omega, by omega, ?_⟩
        refine .auths hv (wire c.respTy pv).length pv (wires TpmsAuthResponse auths) w1
          (Nat.lt_of_le_of_lt hlen (by decide)) w2 ?_ (refused_fails w3 hacc)
        rw [← hr]
        rfl
      simp only [hrr, Res.mapErr]
    rw [Prog.dream, ideal_command hw hf hs hb (r := .err e) (by simp) hx]
    exact ih

/-! ### C111 -/

/-- **C111.** With an operating system that does not fail, a program has over a connection to a
simulator the result that its TPM gives it, and leaves the TPM in the same state. -/
theorem C111_completes (hl : Willing os d obs) (hc : Conforms d known tpm) (prog : Prog α)
    (ht : prog.Calls Call.Typed) (hs : prog.Calls Call.Short) (c : Conn σ) (hq : (obs c.net).Quiet)
    (hlt : c.locality < 256) (x : α) (l' : Nat) (t' : τ)
    (h : prog.Meets d known tpm c.locality (obs c.net).dev x l' t') :
    ∃ c', prog.play os c = (.ok x, c') ∧ c'.locality = l' ∧ (obs c'.net).dev = t' ∧
      (obs c'.net).Quiet := by
  have hd := meets_dream hc h
  obtain ⟨c', h1⟩ := C83_completes_partial hl prog ht hs c x l' t' hq hlt hd
  obtain ⟨h2, h3⟩ := C83_observes_device_partial hl.toLink prog ht hs c c' x hq hlt h1
  rw [hd] at h2
  simp only [Option.some.injEq, Prod.mk.injEq, true_and] at h2
  exact ⟨c', h1, h2.1.symm, h2.2.symm, h3⟩

/-- **C111.** If the operating system may fail, the program has this result or does not run to its
end. -/
theorem C111_same (hl : Link os d obs) (hc : Conforms d known tpm) (prog : Prog α)
    (ht : prog.Calls Call.Typed) (hs : prog.Calls Call.Short) (c c' : Conn σ) (hq : (obs c.net).Quiet)
    (hlt : c.locality < 256) (x y : α) (l' : Nat) (t' : τ)
    (h : prog.Meets d known tpm c.locality (obs c.net).dev x l' t')
    (hr : prog.play os c = (.ok y, c')) :
    y = x ∧ c'.locality = l' ∧ (obs c'.net).dev = t' ∧ (obs c'.net).Quiet := by
  obtain ⟨h2, h3⟩ := C83_observes_device_partial hl prog ht hs c c' y hq hlt hr
  rw [meets_dream hc h] at h2
  simp only [Option.some.injEq, Prod.mk.injEq] at h2
  exact ⟨h2.1.symm, h2.2.1.symm, h2.2.2.symm, h3⟩

/-! ### A TPM that answers with authorizations -/

/-- The authorization response of a password session, with the given attributes. -/
def exAuth (attributes : Nat) : Val :=
  .struct [.tpm2b 0 (List.replicate 64 0), .struct [.int attributes], .tpm2b 0 (List.replicate 64 0)]

/-- Answers GetRandom with sessions: the first time rightly, then with attributes that the session
refuses.  Without sessions it is a failure. -/
def exRandomTpm : Tpm Bool := fun t _ _ auths =>
  if auths = [] then (.failure 0x12F, t)
  else (.success .unit (.struct [.tpm2b 4 ([1, 2, 3, 4] ++ List.replicate 60 0)])
    [exAuth (if t then 1 else 0)], false)

/-- The device with this TPM. -/
def exRandomDevice : Device Bool where
  perform t _ := t
  leave t _ _ := t
  send t _ b :=
    if b.take 2 = [0x80, 2] then
      ((Answer.success .unit (.struct [.tpm2b 4 ([1, 2, 3, 4] ++ List.replicate 60 0)])
        [exAuth (if t then 1 else 0)]).bytes (getRandomCommand 4) true, false)
    else ((Answer.failure 0x12F).bytes (getRandomCommand 4) false, t)
  send_lt t _ b := by
    split
    · cases t <;> decide
    · show 10 < _; decide
  handshake t _ := (none, t)
  handshake_lt t _ x y h := by simp at h
  sizes t := (List.replicate 16 0, t)
  sizes_length _ := by simp
  act t _ := (0, t)
  act_lt _ _ := by show 0 < 2 ^ 32; decide

theorem exRandom_conforms : Conforms exRandomDevice (· = getRandomCommand 4) exRandomTpm := by
  intro t l c a hk hw
  subst hk
  have h1 : (commandBytes (getRandomCommand 4) a.active).take 2 =
      digits256 2 (if a.active.isEmpty then 0x8001 else 0x8002) := by
    unfold commandBytes
    rw [List.append_assoc, List.append_assoc, List.take_left' (by simp)]
  by_cases ha : a.active = []
  · rw [ha] at h1 ⊢
    unfold exRandomDevice
    dsimp only
    rw [if_neg (by rw [h1]; decide)]
    rfl
  · have hb : a.active.isEmpty = false := by simpa using ha
    rw [hb] at h1 ⊢
    have h3 : exRandomTpm t l (getRandomCommand 4) (a.active.map (·.authCommand)) = _ :=
      if_neg (by simpa using ha)
    rw [h3]
    unfold exRandomDevice
    dsimp only
    rw [if_pos (by rw [h1]; decide)]
    rfl

/-- Asks three times for random numbers: with a password, with it again, and without a session. -/
def exRandomProg : Prog (List Out) :=
  .call (.command (getRandomCommand 4) (area1 exSession)) fun o1 =>
    .call (.command (getRandomCommand 4) (area1 exSession)) fun o2 =>
      .call (.command (getRandomCommand 4) area0) fun o3 => .done [o1, o2, o3]

/-- The program gets the random numbers, then the error of the session, then that of the TPM. -/
theorem exRandom_meets : exRandomProg.Meets exRandomDevice (· = getRandomCommand 4) exRandomTpm 0 true
    [.result (.ok (.struct [.tpm2b 4 ([1, 2, 3, 4] ++ List.replicate 60 0)], .unit)),
     .result (.err tcsBadParameter), .result (.err ⟨0x12F⟩)] 0 false := by
  refine .success (auths := [exAuth 1]) rfl exCmdWF (by decide) rfl (by trivial) (by decide) ?_
    (by decide) ?_ ?_
  · intro v hv
    simp only [List.mem_singleton] at hv
    subst hv
    decide
  · exact ⟨by decide, trivial⟩
  refine .refused (auths := [exAuth 0]) (e := tcsBadParameter) rfl exCmdWF (by decide) rfl (by trivial)
    (by decide) ?_ (by decide) (.here (by decide)) ?_
  · intro v hv
    simp only [List.mem_singleton] at hv
    subst hv
    decide
  refine .failure (rc := 0x12F) rfl (exCmdWF0 4 (by decide)) (exFit0 4) rfl (by decide) (by decide) ?_
  exact .done

example : ∃ c', exRandomProg.play (refOs exRandomDevice) ⟨World.start true, 0, []⟩ =
    (.ok [.result (.ok (.struct [.tpm2b 4 ([1, 2, 3, 4] ++ List.replicate 60 0)], .unit)),
      .result (.err tcsBadParameter), .result (.err ⟨0x12F⟩)], c') ∧ c'.locality = 0 ∧
    c'.net.dev = false ∧ c'.net.Quiet :=
  C111_completes (refOs_willing exRandomDevice) exRandom_conforms exRandomProg
    ⟨trivial, fun _ => ⟨trivial, fun _ => ⟨trivial, fun _ => trivial⟩⟩⟩
    ⟨trivial, fun _ => ⟨trivial, fun _ => ⟨trivial, fun _ => trivial⟩⟩⟩
    ⟨World.start true, 0, []⟩ (World.start_quiet _) (by decide) _ 0 false exRandom_meets

end Verif.EndToEnd
