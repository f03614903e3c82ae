import Verif.Client.Lemmas
import Verif.Codec.Faults

/-
What the client has to report about a response, stated with the wire format only:
the first thing wrong with it and the code for that.
-/

namespace Verif.Client
open Verif Verif.Base Verif.Errors

/-! ### Specification -/

/-- The code of a fault in an encoding: `TPM_RC_MEMORY` for input that ends early and for
sized buffers of more bytes than they can hold, `TPM_RC_SELECTOR`, `TPM_RC_SIZE`. -/
def faultNumber : Fault → Nat
  | .short => 0x904
  | .size => 0x904
  | .selector => 0x098
  | .count => 0x095

/-- The first thing wrong with the authorization responses for the given sessions at the
beginning of the bytes has the code `e`: one of them is malformed or refused by its
session, after others that are accepted. -/
inductive AuthsFail : List Session → Bytes → Nat → Prop
  | malformed {s ss b} (k : Fault) : Faulty k TpmsAuthResponse b →
      AuthsFail (s :: ss) b (faultNumber k)
  | refused {s ss b} (v : Val) (rest : Bytes) (e : TssError) : WF TpmsAuthResponse v →
      canon TpmsAuthResponse v = v → b = wire TpmsAuthResponse v ++ rest →
      s.validate v = some e → AuthsFail (s :: ss) b e.code
  | later {s ss b e} (v : Val) (rest : Bytes) : WF TpmsAuthResponse v →
      canon TpmsAuthResponse v = v → b = wire TpmsAuthResponse v ++ rest →
      s.validate v = none → AuthsFail ss rest e → AuthsFail (s :: ss) b e

/-- The parameter size, there only if the tag says so. -/
def sizeField (tag size : Nat) : Bytes := if tag = 0x8002 then digits256 4 size else []

/-- The first thing wrong with the bytes behind the header of a response has the code `e`. -/
inductive BodyFails (c : Command) (ss : List Session) (tag : Nat) : Bytes → Nat → Prop
  /-- a malformed response handle -/
  | handles {b} (k : Fault) : Faulty k c.respHandlesTy b → BodyFails c ss tag b (faultNumber k)
  /-- the end within the parameter size -/
  | size {b} (h : Val) (rest : Bytes) : WF c.respHandlesTy h → tag = 0x8002 →
      b = wire c.respHandlesTy h ++ rest → rest.length < 4 → BodyFails c ss tag b 0x904
  /-- malformed response parameters -/
  | params {b} (h : Val) (n : Nat) (rest : Bytes) (k : Fault) : WF c.respHandlesTy h → n < 2 ^ 32 →
      b = wire c.respHandlesTy h ++ sizeField tag n ++ rest → Faulty k c.respTy rest →
      BodyFails c ss tag b (faultNumber k)
  /-- a malformed or refused authorization response -/
  | auths {b e} (h : Val) (n : Nat) (p : Val) (rest : Bytes) : WF c.respHandlesTy h → n < 2 ^ 32 →
      WF c.respTy p → b = wire c.respHandlesTy h ++ sizeField tag n ++ wire c.respTy p ++ rest →
      AuthsFail ss rest e → BodyFails c ss tag b e
  /-- something left at the end: `TSS_E_TPM_UNEXPECTED` of the TCS layer -/
  | surplus {b} (h : Val) (n : Nat) (p : Val) (vs : List Val) (x : UInt8) (more : Bytes) :
      WF c.respHandlesTy h → n < 2 ^ 32 → WF c.respTy p →
      (∀ v ∈ vs, WF TpmsAuthResponse v ∧ canon TpmsAuthResponse v = v) → Accepted ss vs →
      b = wire c.respHandlesTy h ++ sizeField tag n ++ wire c.respTy p ++
        wires TpmsAuthResponse vs ++ x :: more → BodyFails c ss tag b 0x2010

/-- The response is to be reported as the error `e`: the code the TPM sent, or else
`TSS_E_OUTOFMEMORY` of the TCS layer for a declared size beyond the buffer, or the code for
what is wrong behind the header. -/
def Reports (c : Command) (ss : List Session) (rsp : Bytes) (e : Nat) : Prop :=
  let tag := positional (rsp.take 2)
  let size := positional ((rsp.drop 2).take 4)
  let rc := positional ((rsp.drop 6).take 4)
  (rc ≠ 0 ∧ e = rc) ∨
  (rc = 0 ∧ 4096 < size ∧ e = 0x2005) ∨
  (rc = 0 ∧ 10 ≤ size ∧ size ≤ 4096 ∧ BodyFails c ss tag ((rsp.take size).drop 10) e)

/-! ### Proof -/

theorem tum_err_iff (t : Ty) (b : Bytes) (e : TssError) :
    tum t b = .err e ↔ ∃ k, Faulty k t b ∧ e = ⟨faultNumber k⟩ := by
  have hc : ∀ k : Fault, merrToTss k.code = ⟨faultNumber k⟩ := by intro k; cases k <;> rfl
  constructor
  · intro h
    unfold tum at h
    rcases hu : unmarshal t b with ⟨_ | e' | _, r⟩ <;> rw [hu] at h <;> simp at h
    obtain ⟨k, hk, rfl⟩ := ((failsTy t).err b e').mp (by rw [hu])
    exact ⟨k, hk, by rw [← h, hc]⟩
  · rintro ⟨k, hk, rfl⟩
    have := ((failsTy t).err b k.code).mpr ⟨k, hk, rfl⟩
    unfold tum
    rcases hu : unmarshal t b with ⟨_ | e' | _, r⟩ <;> rw [hu] at this <;> simp at this
    rw [this, ← hc]

theorem bind_err_iff {ε α β : Type} {r : Res ε α} {f : α → Res ε β} {e : ε} :
    r.bind f = .err e ↔ r = .err e ∨ ∃ a, r = .ok a ∧ f a = .err e := by
  cases r <;> simp [Res.bind]

theorem readChain_err_iff (ss : List Session) (b : Bytes) (e : TssError) :
    readChain ss b = .err e ↔ AuthsFail ss b e.code := by
  induction ss generalizing b with
  | nil =>
    simp only [readChain, reduceCtorEq, false_iff]
    intro h; cases h
  | cons s ss ih =>
    simp only [readChain]
    rw [bind_err_iff]
    constructor
    · rintro (h | ⟨b', h1, h2⟩)
      · unfold readAuth at h
        rw [bind_err_iff] at h
        rcases h with h | ⟨⟨v, b'⟩, h1, h2⟩
        · obtain ⟨k, hk, rfl⟩ := (tum_err_iff _ _ _).1 h
          exact .malformed k hk
        · obtain ⟨a1, a2, a3⟩ := (tum_ok_iff _ _ _ _).1 h1
          simp only at h2
          cases hv : s.validate v with
          | none => rw [hv] at h2; simp at h2
          | some e' =>
            rw [hv] at h2
            injection h2 with h2; subst h2
            exact .refused v b' e' a1 a2 a3 hv
      · obtain ⟨v, a1, a2, a3, a4⟩ := (readAuth_ok_iff _ _ _).1 h1
        exact .later v b' a1 a2 a3 a4 ((ih b').1 h2)
    · obtain ⟨n⟩ := e
      intro h
      simp only at h
      cases h with
      | malformed k hk =>
        left
        unfold readAuth
        rw [bind_err_iff]
        exact .inl ((tum_err_iff _ _ _).2 ⟨k, hk, rfl⟩)
      | refused v rest e a1 a2 a3 a4 =>
        left
        unfold readAuth
        rw [bind_err_iff]
        refine .inr ⟨(v, rest), (tum_ok_iff _ _ _ _).2 ⟨a1, a2, a3⟩, ?_⟩
        simp only [a4]
      | later v rest a1 a2 a3 a4 h =>
        exact .inr ⟨rest, (readAuth_ok_iff _ _ _).2 ⟨v, a1, a2, a3, a4⟩, (ih rest).2 h⟩

theorem sizeStep_ok_iff (tag : Nat) (b r : Bytes) :
    (if tag = St.Sessions then (tum u32 b).map (·.2) else .ok b) = (.ok r : Res TssError Bytes) ↔
      ∃ n < 2 ^ 32, b = sizeField tag n ++ r := by
  have hwn : ∀ n, wire u32 (.int n) = digits256 4 n := by intro n; simp [wire]
  by_cases ht : tag = 0x8002
  · simp only [St.Sessions, sizeField, ht, if_true]
    constructor
    · intro h
      rcases hu : tum u32 b with ⟨v, r'⟩ | _ | _ <;> rw [hu] at h <;> simp [Res.map] at h
      subst h
      obtain ⟨w, -, e⟩ := (tum_ok_iff _ _ _ _).1 hu
      obtain ⟨n, rfl, hn⟩ := wf_u32 w
      exact ⟨n, hn, by rw [e, hwn]⟩
    · rintro ⟨n, hn, rfl⟩
      rw [← hwn, tum_wire u32 (.int n) _ (by simpa [WF] using hn)]
      rfl
  · simp only [St.Sessions, sizeField, ht, if_false, List.nil_append, Res.ok.injEq]
    constructor
    · intro h; exact ⟨0, by decide, h⟩
    · rintro ⟨-, -, h⟩; exact h

theorem sizeStep_err_iff (tag : Nat) (b : Bytes) (e : TssError) :
    (if tag = St.Sessions then (tum u32 b).map (·.2) else .ok b) = (.err e : Res TssError Bytes) ↔
      tag = 0x8002 ∧ b.length < 4 ∧ e = ⟨0x904⟩ := by
  by_cases ht : tag = 0x8002
  · simp only [St.Sessions, ht, if_true, true_and]
    have : Res.map (fun x : Val × Bytes => x.2) (tum u32 b) = .err e ↔ tum u32 b = .err e := by
      cases tum u32 b <;> simp [Res.map]
    rw [this, tum_err_iff]
    constructor
    · rintro ⟨k, hk, rfl⟩
      simp only [Faulty] at hk
      exact ⟨hk.2, by rw [hk.1]; rfl⟩
    · rintro ⟨h1, rfl⟩
      exact ⟨.short, by simpa [Faulty] using h1, rfl⟩
  · simp [St.Sessions, ht]

theorem tum_of_wf {t : Ty} {v : Val} {r : Bytes} (h : WF t v) :
    tum t (wire t v ++ r) = .ok (canon t v, r) := tum_wire t v r h

theorem readBody_err_iff (c : Command) (a : Area) (tag : Nat) (b : Bytes) (e : TssError) :
    readBody c a tag b = .err e ↔ BodyFails c a.active tag b e.code := by
  unfold readBody
  simp only [bind_err_iff, sizeStep_ok_iff, sizeStep_err_iff, readResponseSessions_eq]
  constructor
  · rintro (h | ⟨⟨h, b1⟩, e1, ⟨ht, hl, rfl⟩ | ⟨b2, ⟨n, hn, e2⟩, h3⟩⟩)
    · obtain ⟨k, hk, rfl⟩ := (tum_err_iff _ _ _).1 h
      exact .handles k hk
    · obtain ⟨w, -, rfl⟩ := (tum_ok_iff _ _ _ _).1 e1
      exact .size h b1 w ht rfl hl
    · obtain ⟨w, -, rfl⟩ := (tum_ok_iff _ _ _ _).1 e1
      simp only at e2; subst e2
      rcases h3 with h3 | ⟨⟨p, b3⟩, e3, h4⟩
      · obtain ⟨k, hk, rfl⟩ := (tum_err_iff _ _ _).1 h3
        exact .params h n b2 k w hn (by simp) hk
      · obtain ⟨w3, -, rfl⟩ := (tum_ok_iff _ _ _ _).1 e3
        rcases h4 with h4 | ⟨b4, e4, h5⟩
        · exact .auths h n p b3 w hn w3 (by simp) ((readChain_err_iff _ _ _).1 h4)
        · obtain ⟨vs, v1, v2, rfl⟩ := (readChain_ok_iff _ _ _).1 e4
          cases b4 with
          | nil => simp at h5
          | cons x more =>
            simp only [List.isEmpty_cons, Bool.false_eq_true, if_false, Res.err.injEq] at h5
            subst h5
            exact .surplus h n p vs x more w hn w3 v1 v2 (by simp)
  · obtain ⟨m⟩ := e
    intro h
    simp only at h
    cases h with
    | handles k hk => exact .inl ((tum_err_iff _ _ _).2 ⟨k, hk, rfl⟩)
    | size h rest w ht hb hl =>
      subst hb
      exact .inr ⟨_, tum_of_wf w, .inl ⟨ht, hl, rfl⟩⟩
    | params h n rest k w hn hb hk =>
      subst hb
      rw [List.append_assoc]
      exact .inr ⟨_, tum_of_wf w, .inr ⟨_, ⟨n, hn, rfl⟩, .inl ((tum_err_iff _ _ _).2 ⟨k, hk, rfl⟩)⟩⟩
    | auths h n p rest w hn w3 hb hf =>
      subst hb
      rw [List.append_assoc, List.append_assoc]
      exact .inr ⟨_, tum_of_wf w, .inr ⟨_, ⟨n, hn, rfl⟩, .inr ⟨_, tum_of_wf w3,
        .inl ((readChain_err_iff _ _ _).2 hf)⟩⟩⟩
    | surplus h n p vs x more w hn w3 v1 v2 hb =>
      subst hb
      rw [List.append_assoc, List.append_assoc, List.append_assoc]
      exact .inr ⟨_, tum_of_wf w, .inr ⟨_, ⟨n, hn, rfl⟩, .inr ⟨_, tum_of_wf w3,
        .inr ⟨_, (readChain_ok_iff _ _ _).2 ⟨vs, v1, v2, rfl⟩, rfl⟩⟩⟩⟩

theorem readResponse_err_iff (c : Command) (a : Area) (buf : Bytes) (hl : buf.length = 4096)
    (e : TssError) : readResponse c a buf = .err e ↔ Reports c a.active buf e.code := by
  obtain ⟨tag, size, rc, rest, h1, h2, h3, rfl⟩ := split_header buf (by omega)
  have e0 : (digits256 2 tag ++ digits256 4 size ++ digits256 4 rc ++ rest).take 2 =
      digits256 2 tag := by
    rw [List.append_assoc, List.append_assoc, List.take_left' (by simp)]
  have e1 : ((digits256 2 tag ++ digits256 4 size ++ digits256 4 rc ++ rest).drop 6).take 4 =
      digits256 4 rc := by
    rw [List.append_assoc _ (digits256 4 rc), List.drop_left' (by simp), List.take_left' (by simp)]
  have e2 : ((digits256 2 tag ++ digits256 4 size ++ digits256 4 rc ++ rest).drop 2).take 4 =
      digits256 4 size := by
    rw [List.append_assoc, List.append_assoc, List.drop_left' (by simp), List.take_left' (by simp)]
  have hlr : rest.length = 4086 := by simp at hl; omega
  have e3 : ((digits256 2 tag ++ digits256 4 size ++ digits256 4 rc ++ rest).take size).drop 10 =
      rest.take (size - 10) := by
    rw [List.drop_take, List.drop_left' (by simp)]
  unfold Reports
  rw [e0, e1, e2, positional_digits256_of_lt (by simpa using h1),
    positional_digits256_of_lt (by simpa using h2), positional_digits256_of_lt (by simpa using h3)]
  dsimp only
  rw [e3, readResponse_eq c a tag size rc rest h1 h2 h3, hlr]
  obtain ⟨m⟩ := e
  by_cases hrc : rc = 0
  · rw [if_neg (by simpa using hrc)]
    by_cases hbig : 4096 < size
    · rw [if_pos (by omega)]
      simp only [Res.err.injEq, hrc, ne_eq, not_true, false_and, false_or, true_and, hbig]
      have : (tcsOutOfMemory = (⟨m⟩ : TssError)) ↔ m = 0x2005 := by
        rw [show tcsOutOfMemory = ⟨0x2005⟩ from rfl]
        simp only [TssError.mk.injEq]
        exact eq_comm
      rw [this]
      constructor
      · exact .inl
      · rintro (h | ⟨-, h, -⟩)
        · exact h
        · omega
    · rw [if_neg (by omega)]
      simp only [hrc, ne_eq, not_true, false_and, false_or, true_and, hbig]
      by_cases hs : size < 10
      · rw [if_pos hs]
        simp only [reduceCtorEq, false_iff]
        rintro ⟨h, -⟩; omega
      · rw [if_neg hs, readBody_err_iff]
        exact ⟨fun h => ⟨by omega, by omega, h⟩, fun h => h.2.2⟩
  · rw [if_pos hrc]
    simp only [Res.err.injEq, TssError.mk.injEq, hrc, ne_eq, not_false_eq_true, true_and, false_and,
      or_false]
    exact eq_comm

end Verif.Client
