import Verif.Client.LawfulProps
import Verif.Derive.OwnProps

/-! Commands whose handles, parameters and responses are of types declared with
`#[derive(Marshalable)]`: the macro, the code it generates and the client together. -/

namespace Verif.Client
open Verif Verif.Own

/-- A declaration with `#[derive(Marshalable)]` in a program that compiles
(marshalable-derive/src/lib.rs:125-204): the types it can name, the width of discriminants, what the macro
makes of it, and the implementation of `Marshalable` this is. -/
structure Declared (X : Type) where
  ctx : Own.Derive.Ctx X
  width : Nat
  input : Verif.Derive.Input
  items : List Verif.Derive.Item
  codec : Own.Derive.Codec X
  plain : input.Plain
  distinct : Verif.Derive.Distinct input.data
  accepted : Verif.Derive.deriveMarshalable input = .ok items
  compiles : Own.Derive.implOf ctx width input items = some codec

/-- The declaration says this layout (see C119). -/
def Declared.Says {X : Type} (d : Declared X) (t : Own.Ty X) : Prop :=
  Own.Derive.Means d.ctx d.width d.input.data t

/-- A command with handles, parameters and responses of these declared types, as
`run_command_with_handles` sees it: crates/tpm2-client/src/lib.rs:145-153. -/
structure Made {ω A B P H : Type} (c : OwnCommand ω (Own.Val P) (Own.Val H)) (code : Nat)
    (dh : Declared A) (h : Own.Val A) (dp : Declared B) (v : Own.Val B) (dq : Declared P) (dr : Declared H) :
    Prop where
  code : c.code = code
  handles : ∀ b w, c.handles b w = (dh.codec.marshal h b, w)
  param : ∀ b w, c.param b w = (dp.codec.marshal v b, w)
  resp : ∀ b w, c.resp b w = (dq.codec.unmarshal b, w)
  respHandles : ∀ b w, c.respHandles b w = (dr.codec.unmarshal b, w)

/-! ### Lemmas -/

variable {X : Type}

theorem Declared.implements (d : Declared X) {t : Own.Ty X} (ht : d.Says t) : d.codec.Implements t := by
  obtain ⟨t', ht', hi⟩ := Own.Derive.C119_generated d.ctx d.width d.input d.items d.codec d.plain
    d.distinct d.accepted d.compiles
  have e := Own.Derive.C119_unambiguous d.ctx d.width _ _ _ d.distinct ht' ht
  subst e
  exact hi

theorem Declared.says (d : Declared X) : ∃ t, d.Says t := by
  obtain ⟨t', ht', _⟩ := Own.Derive.C119_generated d.ctx d.width d.input d.items d.codec d.plain
    d.distinct d.accepted d.compiles
  exact ⟨t', ht'⟩

theorem Declared.formed {M : Part X → Meaning X} (d : Declared X) {t : Own.Ty X} (ht : d.Says t)
    (v : Own.Val X) (hv : Sound M t v) : Own.Derive.Formed t v := by
  unfold Declared.Says at ht
  generalize d.input.data = D at ht
  have hstruct : ∀ F : Own.Fields X, Sound M (.struct F) v → Own.Derive.Formed (.struct F) v := by
    intro F hv
    cases v with
    | struct vs => exact .struct (Own.Derive.formed_fields _ [] vs (by simpa only [Sound] using hv))
    | _ => simp [Sound] at hv
  cases ht with
  | named _ => exact hstruct _ hv
  | unnamed _ => exact hstruct _ hv
  | unit => exact hstruct _ hv
  | enum _ =>
    cases v with
    | enum sel fvs =>
      simp only [Sound] at hv
      obtain ⟨fs, hs, hf⟩ := Own.Derive.formed_variant _ sel fvs hv.2
      exact .enum hs hf
    | _ => simp [Sound] at hv

/-- Such a command is the one with the types derived from the layouts. -/
theorem made_eq {ω A B P H : Type} {c : OwnCommand ω (Own.Val P) (Own.Val H)} {code : Nat}
    {dh : Declared A} {h : Own.Val A} {dp : Declared B} {v : Own.Val B} {dq : Declared P} {dr : Declared H}
    {th : Own.Ty A} {tp : Own.Ty B} {tq : Own.Ty P} {tr : Own.Ty H}
    (hc : Made c code dh h dp v dq dr) (eh : dh.Says th) (ep : dp.Says tp) (eq : dq.Says tq)
    (er : dr.Says tr) (fh : Own.Derive.Formed th h) (fv : Own.Derive.Formed tp v) :
    c = commandOf code (derived th) h (derived tp) v (derived tq) (derived tr) := by
  obtain ⟨h1, h2, h3, h4, h5⟩ := hc
  cases c
  simp only [commandOf, OwnCommand.mk.injEq]
  refine ⟨h1, funext fun b => funext fun w => ?_, funext fun b => funext fun w => ?_,
    funext fun b => funext fun w => ?_, funext fun b => funext fun w => ?_⟩
  · exact (h2 b w).trans (by rw [(dh.implements eh).2 h b fh])
  · exact (h3 b w).trans (by rw [(dp.implements ep).2 v b fv])
  · exact (h4 b w).trans (by rw [(dq.implements eq).1])
  · exact (h5 b w).trans (by rw [(dr.implements er).1])

end Verif.Client
