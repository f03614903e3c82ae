import Verif.Width.OwnProps
import Verif.Width.DeriveProps
import Verif.Client.DeclaredProps

/-! Commands with declared types on machines of any width: the client as on the machine (C114) with what
is generated as on the machine (C120). -/

namespace Verif.Client
open Verif Verif.Base Verif.Errors Verif.Own

variable {ω ε A B P H : Type} {m : Machine}

/-- A command with handles, parameters and responses of these declared types, with the code generated for
them as it runs on the machine (marshalable-derive/src/lib.rs:125-204,
crates/tpm2-client/src/lib.rs:145-153).  There are no slices longer than a `usize` says. -/
structure MadeOn (m : Machine) (c : OwnCommand ω (Own.Val P) (Own.Val H)) (code : Nat)
    (dh : Declared A) (h : Own.Val A) (dp : Declared B) (v : Own.Val B) (dq : Declared P) (dr : Declared H) :
    Prop where
  code : c.code = code
  handles : ∃ k, Own.Derive.Wide.implOfOn m dh.ctx dh.width dh.input dh.items = some k ∧
    ∀ b w, b.length < 2 ^ m.bits → c.handles b w = (k.marshal h b, w)
  param : ∃ k, Own.Derive.Wide.implOfOn m dp.ctx dp.width dp.input dp.items = some k ∧
    ∀ b w, b.length < 2 ^ m.bits → c.param b w = (k.marshal v b, w)
  resp : ∃ k, Own.Derive.Wide.implOfOn m dq.ctx dq.width dq.input dq.items = some k ∧
    ∀ b w, c.resp b w = (k.unmarshal b, w)
  respHandles : ∃ k, Own.Derive.Wide.implOfOn m dr.ctx dr.width dr.input dr.items = some k ∧
    ∀ b w, c.respHandles b w = (k.unmarshal b, w)

/-! ### Lemmas -/

theorem Declared.onMachine {X : Type} (d : Declared X) {t : Own.Ty X} (ht : d.Says t)
    {k : Own.Derive.Codec X} (hk : Own.Derive.Wide.implOfOn m d.ctx d.width d.input d.items = some k) :
    Own.Derive.Wide.ImplementsOn m k t := by
  obtain ⟨t', ht', hi⟩ := Own.Derive.Wide.C120_generated m d.ctx d.width d.input d.items k d.plain
    d.distinct d.accepted hk
  have e := Own.Derive.C119_unambiguous d.ctx d.width _ _ _ d.distinct ht' ht
  subst e
  exact hi

theorem Declared.everywhere {X : Type} (d : Declared X) (m : Machine) :
    ∃ k, Own.Derive.Wide.implOfOn m d.ctx d.width d.input d.items = some k := by
  obtain ⟨items, k, h, hk⟩ := (Own.Derive.Wide.C120_compiles m d.ctx d.width d.input d.plain d.distinct).2
    ((Own.Derive.C119_compiles d.ctx d.width d.input d.plain d.distinct).1
      ⟨d.items, d.codec, d.accepted, d.compiles⟩)
  rw [d.accepted] at h
  cases h
  exact ⟨k, hk⟩

/-- What is written does not depend on the machine. -/
theorem Declared.writes_same {X : Type} {M : Own.Part X → Meaning X} (hm : 32 ≤ m.bits) (d : Declared X)
    {t : Own.Ty X} (ht : d.Says t) (hn : t.Counts) (hl : t.Own fun p => Lawful p (M p)) {v : Own.Val X}
    (hh : Held (fun p x => (M p).sound x) t v) {k : Own.Derive.Codec X}
    (hk : Own.Derive.Wide.implOfOn m d.ctx d.width d.input d.items = some k) (b : Bytes)
    (hb : b.length < 2 ^ m.bits) : k.marshal v b = (derived t).marshal v b := by
  have hq : Held Truthful t v := Held.mono (P := fun p => Lawful p (M p)) (fun p x hp hx b n hn => by
    by_cases hl : ((M p).bytes x).length ≤ b.length
    · rw [hp.writes x b hx hl] at hn
      cases hn
      exact hl
    · exact absurd hn (hp.refuses x b n hx (Nat.lt_of_not_le hl))) t v hl hh
  have hf : Own.Derive.Formed t v := by
    unfold Declared.Says at ht
    generalize d.input.data = D at ht
    exact Own.Derive.Wide.held_formed ht v hq
  rw [(d.onMachine ht hk).2 v b hf]
  exact (C116_same_partial hm t hn v hq b hb).1

/-- As `build_handOver`, for two commands that do the same with what the client gives them. -/
theorem build_handOver_congr (hb : 32 ≤ m.bits) (c' c : OwnCommand ω P H) (a : FreeArea ω) (ha : a.Typed)
    (hcc : c'.code = c.code) (e1 : ∀ b w, b.length ≤ 4096 → c'.handles b w = c.handles b w)
    (e2 : ∀ b w, b.length ≤ 4096 → c'.param b w = c.param b w)
    (hcode : c.code < 2 ^ 32) (hm : m.checked = true ∨ (Modest m c.handles ∧ Modest m c.param)) (w : ω) :
    handOver (buildOwnOn m c' a w) = handOver (buildOwn c a w) := by
  have hp : 2 ^ 32 ≤ 2 ^ m.bits := Nat.pow_le_pow_right (n := 2) (by decide) hb
  unfold buildOwnOn buildOwn
  rw [hcc]
  rcases he : a.isEmpty w with ⟨_ | empty, w1⟩
  · rfl
  · dsimp only
    have hh : ∀ n (b : Bytes), n < 2 ^ 32 → b.length = 4096 →
        toTss (marshalOn m CmdHeader (cmdHeader empty c.code n) b) =
          toTss (marshal CmdHeader (cmdHeader empty c.code n) b) := fun n b hn hbl =>
      (tagrees_toTss (marshalOn_agrees (m := m) (c := 4) (by omega) (by omega) _ _ header_countsIn
        (cmdHeader_typed empty hcode hn)) b (by omega)).1
    have hrl : (List.replicate cmdBufferSize (0 : UInt8)).length = 4096 := by
      rw [List.length_replicate]; rfl
    rw [hh 0 _ (by decide) hrl, header_fit empty c.code 0 hcode (by decide) _ (by omega), lthen_of_ok,
      lthen_of_ok]
    have hlast : ∀ n (b : Bytes) (w : ω), b.length = 4096 →
        lthen (toTss (marshalOn m CmdHeader (cmdHeader empty c.code (n % 2 ^ 32)) b), w)
          (fun _ buf w => ((.ok n, buf), w)) =
        lthen (toTss (marshal CmdHeader (cmdHeader empty c.code (n % 2 ^ 32)) b), w)
          (fun _ buf w => ((.ok n, buf), w)) := by
      intro n b w hbl
      rw [hh _ _ (Nat.mod_lt _ (by decide)) hbl]
    have hover : ∀ n (b : Bytes) (w : ω), 4096 < n → b.length = 4096 →
        handOver (lthen (toTss (marshal CmdHeader (cmdHeader empty c.code (n % 2 ^ 32)) b), w)
          (fun _ buf w => ((.ok n, buf), w))) = (.panic, w) := by
      intro n b w hn hbl
      rw [header_fit empty c.code _ hcode (Nat.mod_lt _ (by decide)) _ (by omega), lthen_of_ok]
      generalize hx : digits256 2 (if empty then 0x8001 else 0x8002) ++ digits256 4 (n % 2 ^ 32) ++
        digits256 4 c.code ++ b.drop 10 = x
      have hxl : ¬ n ≤ x.length := by
        rw [← hx]
        simp only [List.length_append, digits256_length, List.length_drop]
        omega
      simp only [handOver, sliceTo, if_neg hxl]
    refine own_step hb (fun b w hl => by simp only [ownTss, e1 b w hl])
      (fun b w _ => ownTss_length _ (fun b w => c.handles_length b w) b w)
      (hm.imp id fun h b w n hbl hr => h.1 b w n hbl (ownTss_report _ _ _ _ hr)) ?_
      (fun n b w => beyond_lstepOn _ _ n b w) (fun n b w => beyond_lstep _ _ n b w) _ _ _ (by decide)
      (by simp only [List.length_append, digits256_length, List.length_drop, hrl])
    intro n b w hn hbl
    have hs := lagrees_sessions hb a ha
    refine own_step hb (fun b w hl => (hs b w (by omega)).1) (fun b w hl => (hs b w (by omega)).2.1)
      (.inr fun b w n hl hr => by have := (hs b w (by omega)).2.2 n hr; omega) ?_
      (fun n b w => beyond_lstepOn _ _ n b w) (fun n b w => beyond_lstep _ _ n b w) _ _ _ hn hbl
    intro n b w hn hbl
    refine own_step hb (fun b w hl => by simp only [ownTss, e2 b w hl])
      (fun b w _ => ownTss_length _ (fun b w => c.param_length b w) b w)
      (hm.imp id fun h b w n hbl hr => h.2 b w n hbl (ownTss_report _ _ _ _ hr)) ?_ ?_ ?_ _ _ _ hn hbl
    · intro n b w _ hbl
      rw [hlast n b w hbl]
    · intro n b w hn hbl
      rw [hlast n b w hbl, hover n b w hn hbl]
    · intro n b w hn hbl
      exact hover n b w hn hbl

end Verif.Client
