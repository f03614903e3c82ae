import Verif.Tcg.Layouts
import Verif.Tcg.Constants
import Verif.Client.Props
import Verif.Codec.Typed

/-
C74: the commands of the base crate, run by the client, against the command and
response structures of Part 1 (clause 18) and the commands of Part 3.
-/

namespace Verif.Tcg
open Verif Verif.Client

/-! ### The standard -/

/-- A command of Part 3 without handles: command code, parameters, response
parameters. -/
structure Part3 where
  code : Nat
  params : Shape
  response : Shape

/-- The commands of Part 3 that base/src/commands/ implements: `TPM2_Startup`
(9.3), `TPM2_GetRandom` (16.1), `TPM2_PCR_Read` (22.4), `TPM2_GetCapability` (30.2). -/
def part3 (c : Choices) : List (String × Part3) := [
  ("Startup", ⟨0x144, TPM2_Startup, T []⟩),
  ("GetRandom", ⟨0x17B, TPM2_GetRandom, TPM2_GetRandom_Response⟩),
  ("PCR_Read", ⟨0x17E, TPM2_PCR_Read, TPM2_PCR_Read_Response⟩),
  ("GetCapability", ⟨0x17A, TPM2_GetCapability, TPM2_GetCapability_Response c⟩)]

/-- The bytes are a command with code `cc`, parameters of the given type, the
given bytes as parameters and the given authorizations: Part 1, clause 18.2-18.5 (the
bytes of crates/tpm2-client/src/lib.rs:155-173). -/
def IsCommand (cc : Nat) (p : Shape) (params : Bytes) (auths : List Bytes) (b : Bytes) : Prop :=
  Valid p params ∧ (∀ a ∈ auths, Valid TPMS_AUTH_COMMAND a) ∧
  b = digits256 2 (if auths = [] then 0x8001 else 0x8002) ++ digits256 4 b.length ++
    digits256 4 cc ++
    (if auths = [] then [] else digits256 4 auths.flatten.length ++ auths.flatten) ++ params

/-- The bytes are a successful response with parameters of the given type: Part
1, clause 18.6-18.9 (the bytes read in crates/tpm2-client/src/lib.rs:178-194). -/
def IsResponse (q : Shape) (params : Bytes) (auths : List Bytes) (b : Bytes) : Prop :=
  Valid q params ∧ (∀ a ∈ auths, Valid TPMS_AUTH_RESPONSE a) ∧
  b = digits256 2 (if auths = [] then 0x8001 else 0x8002) ++ digits256 4 b.length ++
    digits256 4 0 ++ (if auths = [] then [] else digits256 4 params.length) ++ params ++
    auths.flatten

/-! ### The commands of the crate -/

/-- An implementation of `TpmCommand`: base/src/commands.rs:105-114. -/
structure Impl where
  code : Nat
  handlesTy : Ty
  paramTy : Ty
  respTy : Ty
  respHandlesTy : Ty

/-- The implementations of `TpmCommand`: base/src/commands/startup.rs:14-19,
base/src/commands/random.rs:13-18, base/src/commands/pcr.rs:19-24,
base/src/commands/capability.rs:15-20. -/
def impls : List (String × Impl) := [
  ("Startup", ⟨Base.Cc.Startup, .unit, Base.StartupCmd, .unit, .unit⟩),
  ("GetRandom", ⟨Base.Cc.GetRandom, .unit, Base.GetRandomCmd, Base.GetRandomResp, .unit⟩),
  ("PCR_Read", ⟨Base.Cc.PCRRead, .unit, Base.PcrReadCmd, Base.PcrReadResp, .unit⟩),
  ("GetCapability",
    ⟨Base.Cc.GetCapability, .unit, Base.GetCapabilityCmd, Base.GetCapabilityResp, .unit⟩)]

/-- A command with its arguments: the parameter `cmd` and the handles `()` of
crates/tpm2-client/src/lib.rs:150-151. -/
def Impl.with (i : Impl) (v : Val) : Command :=
  ⟨i.code, i.handlesTy, .unit, i.paramTy, v, i.respTy, i.respHandlesTy⟩

/-- The type accepts exactly the bytes that are the structure. -/
def Agrees (t : Ty) (s : Shape) : Prop := ∀ b, (∃ v, unmarshal t b = (.ok v, [])) ↔ Valid s b

theorem agrees_of_conf {t : Ty} {s : Shape} (h : conf t s = true) : Agrees t s := fun b => by
  rw [accepts_iff, conf_iff t s h b]

theorem agrees_unit : Agrees .unit (T []) := fun b => by
  simp only [unmarshal, T, rows, Valid, ValidRows]
  constructor
  · rintro ⟨v, h⟩; injection h
  · rintro rfl; exact ⟨_, rfl⟩

/-- In terms of encodings. -/
theorem Agrees.wire {t : Ty} {s : Shape} (h : Agrees t s) (b : Bytes) :
    Valid s b ↔ ∃ v, WF t v ∧ canon t v = v ∧ wire t v = b := by
  rw [← h b]
  constructor
  · rintro ⟨v, hv⟩
    obtain ⟨h1, h2, h3⟩ := (goodTy t).sound _ _ _ hv
    exact ⟨v, h1, h2, by simpa using h3.symm⟩
  · rintro ⟨v, h1, h2, rfl⟩
    have := (goodTy t).complete v [] h1
    rw [List.append_nil] at this
    exact ⟨_, this⟩

theorem Agrees.valid {t : Ty} {s : Shape} (h : Agrees t s) {v : Val} (hv : WF t v) :
    Valid s (Verif.wire t v) := by
  obtain ⟨h1, h2, h3⟩ := C01_canon_faithful t v hv
  exact (h.wire _).mpr ⟨canon t v, h1, h3, h2⟩

theorem slots_true : Derive.baseTable.all (fun x => x.2.slotsOk) = true := by decide +kernel

/-- **C73** for marshalling: what a declared type is marshalled to is the
structure, and every such structure is obtained in this way. -/
theorem C73_marshal (n : String) (s : Shape) (h : (n, s) ∈ entries crate) :
    ∃ t, (n, t) ∈ Derive.baseTable ∧
      ∀ b, Valid s b ↔
        ∃ v buf k buf', HasTy t v ∧ marshal t v buf = (.ok k, buf') ∧ b = buf'.take k := by
  obtain ⟨t, ht, hc⟩ := checkAll_mem checkAll_crate h
  refine ⟨t, ht, fun b => ?_⟩
  have ha := agrees_of_conf hc
  constructor
  · intro hb
    obtain ⟨v, hw, hv, rfl⟩ := (ha.wire b).mp hb
    have hs := hasTy_canon t v (List.all_eq_true.mp slots_true _ ht) hw
    rw [hv] at hs
    refine ⟨v, wire t v, _, _, hs, (writesTy t v hw).fit _ (Nat.le_refl _), ?_⟩
    simp
  · rintro ⟨v, buf, k, buf', hty, hm, rfl⟩
    have hw := marshal_ok_wf t v buf k hty (by rw [hm])
    have := (C06_marshal_writes_only_reported t v buf hty).2 k (by rw [hm])
    rw [hm] at this
    obtain ⟨rfl, h2⟩ := this
    simp only at h2
    rw [h2, List.take_left]
    exact ha.valid hw

/-- The parts of an implementation agree with the command of the standard. -/
structure Meets (i : Impl) (p : Part3) : Prop where
  code : i.code = p.code
  small : i.code < 2 ^ 32
  handles : i.handlesTy = .unit
  respHandles : i.respHandlesTy = .unit
  params : Agrees i.paramTy p.params
  response : Agrees i.respTy p.response

set_option maxRecDepth 100000 in
/-- The commands of the crate against those of the standard. -/
theorem meets_crate (n : String) (p : Part3) (h : (n, p) ∈ part3 crate) :
    ∃ i, (n, i) ∈ impls ∧ Meets i p := by
  simp only [part3, List.mem_cons, List.not_mem_nil, or_false, Prod.mk.injEq] at h
  obtain ⟨rfl, rfl⟩ | ⟨rfl, rfl⟩ | ⟨rfl, rfl⟩ | ⟨rfl, rfl⟩ := h
  · exact ⟨_, List.mem_of_getElem? (i := 0) rfl, rfl, by decide, rfl, rfl,
      agrees_of_conf (by decide +kernel), agrees_unit⟩
  · exact ⟨_, List.mem_of_getElem? (i := 1) rfl, rfl, by decide, rfl, rfl,
      agrees_of_conf (by decide +kernel), agrees_of_conf (by decide +kernel)⟩
  · exact ⟨_, List.mem_of_getElem? (i := 2) rfl, rfl, by decide, rfl, rfl,
      agrees_of_conf (by decide +kernel), agrees_of_conf (by decide +kernel)⟩
  · exact ⟨_, List.mem_of_getElem? (i := 3) rfl, rfl, by decide, rfl, rfl,
      agrees_of_conf (by decide +kernel), agrees_of_conf (by decide +kernel)⟩

theorem agrees_auth : Agrees Base.TpmsAuthCommand TPMS_AUTH_COMMAND :=
  agrees_of_conf (by decide +kernel)
theorem agrees_authResponse : Agrees Base.TpmsAuthResponse TPMS_AUTH_RESPONSE :=
  agrees_of_conf (by decide +kernel)

theorem command_is (i : Impl) (p : Part3) (hm : Meets i p) (v : Val) (ss : List Session)
    (hv : WF i.paramTy v) (hs : ∀ s ∈ ss, WF Base.TpmsAuthCommand s.authCommand) :
    IsCommand p.code p.params (wire i.paramTy v)
      (ss.map fun s => wire Base.TpmsAuthCommand s.authCommand) (commandBytes (i.with v) ss) := by
  refine ⟨hm.params.valid hv, ?_, ?_⟩
  · intro a ha
    obtain ⟨s, hs', rfl⟩ := List.mem_map.mp ha
    exact agrees_auth.valid (hs s hs')
  · have hl := commandBytes_length (i.with v) ss
    rw [hl]
    unfold commandBytes commandBody authArea
    have hw : wire (i.with v).handlesTy (i.with v).handles = [] := by
      simp [Impl.with, hm.handles, wire]
    rw [hw]
    have hc : (i.with v).code = p.code := hm.code
    rw [hc]
    rcases ss with _ | ⟨s, ss⟩
    · simp [Impl.with]
    · simp [Impl.with, wires, List.map_map, Function.comp_def]

/-! ### C74 -/

theorem meets_standard (n : String) (p : Part3) (h : (n, p) ∈ part3 standard) :
    ∃ i q, (n, i) ∈ impls ∧ Meets i q ∧ q.code = p.code ∧ q.params = p.params ∧
      (n ≠ "GetCapability" → q = p) := by
  have key : ∀ q, (n, q) ∈ part3 crate → q.code = p.code → q.params = p.params →
      (n ≠ "GetCapability" → q = p) →
      ∃ i q, (n, i) ∈ impls ∧ Meets i q ∧ q.code = p.code ∧ q.params = p.params ∧
        (n ≠ "GetCapability" → q = p) := fun q hq h1 h2 h3 => by
    obtain ⟨i, hi, hm⟩ := meets_crate n q hq
    exact ⟨i, q, hi, hm, h1, h2, h3⟩
  simp only [part3, List.mem_cons, List.not_mem_nil, or_false, Prod.mk.injEq] at h
  obtain ⟨rfl, rfl⟩ | ⟨rfl, rfl⟩ | ⟨rfl, rfl⟩ | ⟨rfl, rfl⟩ := h
  · exact key _ (List.mem_of_getElem? (i := 0) rfl) rfl rfl fun _ => rfl
  · exact key _ (List.mem_of_getElem? (i := 1) rfl) rfl rfl fun _ => rfl
  · exact key _ (List.mem_of_getElem? (i := 2) rfl) rfl rfl fun _ => rfl
  · exact key _ (List.mem_of_getElem? (i := 3) rfl) rfl rfl fun h => absurd rfl h

theorem area_of (ss : List Session) (h : ss.length ≤ 3) : ∃ a : Area, a.active = ss := by
  rcases ss with _ | ⟨x, _ | ⟨y, _ | ⟨z, _ | ⟨w, ss⟩⟩⟩⟩
  · exact ⟨area0, rfl⟩
  · exact ⟨area1 x, rfl⟩
  · exact ⟨area2 x y, rfl⟩
  · exact ⟨area3 x y z, rfl⟩
  · simp at h

/-- **C74.** What the client hands to the connection for one of the commands is
that command of the standard, with one authorization for every session. -/
theorem C74_sent (n : String) (p : Part3) (h : (n, p) ∈ part3 standard) :
    ∃ i, (n, i) ∈ impls ∧ ∀ (σ ε : Type) (tr : Transport σ ε) (v : Val) (a : Area) (s : σ),
      HasTy i.paramTy v → (∀ x ∈ a.active, HasTy Base.TpmsAuthCommand x.authCommand) →
      (runCommandWithHandles (recording tr) (i.with v) a (s, [])).state.2 = [] ∨
      ∃ b params auths,
        (runCommandWithHandles (recording tr) (i.with v) a (s, [])).state.2 =
          [(b, List.replicate 4096 0)] ∧
        auths.length = a.active.length ∧ IsCommand p.code p.params params auths b := by
  obtain ⟨i, q, hi, hm, h1, h2, -⟩ := meets_standard n p h
  refine ⟨i, hi, fun σ ε tr v a s hv ha => ?_⟩
  by_cases hsent : (runCommandWithHandles (recording tr) (i.with v) a (s, [])).state.2 = []
  · exact .inl hsent
  · have hu : HasTy (i.with v).handlesTy (i.with v).handles := by
      simp [Impl.with, hm.handles, HasTy]
    obtain ⟨hw, -⟩ := run_wf (recording tr) (i.with v) a (s, []) hm.small hu hv ha
      (.inl fun h => hsent (by rw [h]))
    obtain ⟨h3, -, h4⟩ := C31_framing tr (i.with v) a s hm.small hu hv ha hsent
    refine .inr ⟨_, _, _, h3, ?_, h1 ▸ h2 ▸ command_is i q hm v a.active hw.param hw.auths⟩
    simp

theorem auths_of (bs : List Bytes) (h : ∀ b ∈ bs, Valid TPMS_AUTH_COMMAND b) :
    ∃ ss : List Session, ss.length = bs.length ∧
      (∀ s ∈ ss, WF Base.TpmsAuthCommand s.authCommand ∧
        HasTy Base.TpmsAuthCommand s.authCommand) ∧
      ss.map (fun s => wire Base.TpmsAuthCommand s.authCommand) = bs := by
  induction bs with
  | nil => exact ⟨[], rfl, by simp, rfl⟩
  | cons b bs ih =>
    obtain ⟨ss, h1, h2, h3⟩ := ih fun x hx => h x (List.mem_cons_of_mem _ hx)
    obtain ⟨v, hw, hc, rfl⟩ := (agrees_auth.wire b).mp (h b List.mem_cons_self)
    refine ⟨⟨v, fun _ => none⟩ :: ss, by simp [h1], ?_, by simp [h3]⟩
    intro s hs
    rcases List.mem_cons.mp hs with rfl | hs
    · refine ⟨hw, ?_⟩
      have := hasTy_canon Base.TpmsAuthCommand v (by decide +kernel) hw
      rwa [hc] at this
    · exact h2 s hs

theorem command_unique {cc : Nat} {p : Shape} {params b b' : Bytes} {auths : List Bytes}
    (h : IsCommand cc p params auths b) (h' : IsCommand cc p params auths b') : b = b' := by
  have hl : b.length = b'.length := by
    have e := congrArg List.length h.2.2
    have e' := congrArg List.length h'.2.2
    simp only [List.length_append, digits256_length] at e e'
    omega
  rw [h.2.2, h'.2.2, hl]

theorem slots_impls : impls.all (fun x => x.2.paramTy.slotsOk) = true := by decide +kernel

/-- **C74.** Every command of the standard that fits into the client's buffer,
with at most three authorizations, is what some parameters and sessions are
sent as. -/
theorem C74_every (n : String) (p : Part3) (h : (n, p) ∈ part3 standard) (params : Bytes)
    (auths : List Bytes) (b : Bytes) (hb : IsCommand p.code p.params params auths b)
    (hl : b.length ≤ 4096) (hn : auths.length ≤ 3) :
    ∃ i v a, (n, i) ∈ impls ∧ HasTy i.paramTy v ∧
      (∀ x ∈ a.active, HasTy Base.TpmsAuthCommand x.authCommand) ∧
      ∀ (σ ε : Type) (tr : Transport σ ε) (s : σ),
        (runCommandWithHandles (recording tr) (i.with v) a (s, [])).state.2 =
          [(b, List.replicate 4096 0)] := by
  obtain ⟨i, q, hi, hm, h1, h2, -⟩ := meets_standard n p h
  obtain ⟨v, hv, hc, rfl⟩ := (hm.params.wire params).mp (h2 ▸ hb.1)
  have hty := hasTy_canon i.paramTy v (List.all_eq_true.mp slots_impls _ hi) hv
  rw [hc] at hty
  obtain ⟨ss, hs1, hs2, hs3⟩ := auths_of auths hb.2.1
  obtain ⟨a, rfl⟩ := area_of ss (by omega)
  have hcmd := command_is i q hm v a.active hv fun s hs => (hs2 s hs).1
  rw [hs3, h1, h2] at hcmd
  have := command_unique hb hcmd
  subst this
  refine ⟨i, v, a, hi, hty, fun x hx => (hs2 x hx).2, fun σ ε tr s => ?_⟩
  have hu : WF (i.with v).handlesTy (i.with v).handles := by
    simp [Impl.with, hm.handles, WF]
  exact C31_sent tr (i.with v) a s [] ⟨hm.small, hu, hv, fun s hs => (hs2 s hs).1⟩ hl

/-- The session accepts the bytes of an authorization response. -/
def Accepts (s : Session) (b : Bytes) : Prop :=
  ∃ w, unmarshal Base.TpmsAuthResponse b = (.ok w, []) ∧ s.validate w = none

/-- The sessions accept the authorization responses, in order. -/
def AcceptAll : List Session → List Bytes → Prop
  | [], [] => True
  | s :: ss, b :: bs => Accepts s b ∧ AcceptAll ss bs
  | _, _ => False

theorem accepted_of : ∀ (ss : List Session) (bs : List Bytes), AcceptAll ss bs →
    ∃ vs : List Val, (∀ v ∈ vs, WF Base.TpmsAuthResponse v) ∧
      Accepted ss (vs.map (canon Base.TpmsAuthResponse)) ∧
      wires Base.TpmsAuthResponse vs = bs.flatten
  | [], [], _ => ⟨[], by simp, trivial, rfl⟩
  | s :: ss, b :: bs, h => by
    obtain ⟨⟨w, hw, hv⟩, h⟩ := h
    obtain ⟨vs, h1, h2, h3⟩ := accepted_of ss bs h
    obtain ⟨g1, g2, g3⟩ := (goodTy Base.TpmsAuthResponse).sound _ _ _ hw
    refine ⟨w :: vs, ?_, ⟨by rw [g2]; exact hv, h2⟩, ?_⟩
    · intro v hm
      rcases List.mem_cons.mp hm with rfl | hm
      · exact g1
      · exact h1 v hm
    · simp only [wires] at h3
      simp only [wires, List.map_cons, List.flatten_cons, h3]
      rw [List.append_nil] at g3
      rw [← g3]

theorem answer (i : Impl) (q : Part3) (hm : Meets i q) {σ ε : Type} (tr : Transport σ ε) (v : Val)
    (a : Area) (s s' : σ) (k : Nat) (rsp rest params : Bytes) (auths : List Bytes)
    (hw : CmdWF (i.with v) a) (hfit : (commandBytes (i.with v) a.active).length ≤ 4096)
    (ht : tr.transact s (commandBytes (i.with v) a.active) (List.replicate 4096 0) =
      (.reported k, rsp ++ rest, s'))
    (hr : IsResponse q.response params auths rsp) (hacc : AcceptAll a.active auths) :
    ∃ x, (runCommandWithHandles tr (i.with v) a s).result = .ok (x, .unit) ∧
      unmarshal i.respTy params = (.ok x, []) := by
  have hlen : rsp.length ≤ 4096 := by
    have := tr.keeps_length s (commandBytes (i.with v) a.active) (List.replicate 4096 0)
    rw [ht, List.length_replicate, List.length_append] at this; omega
  obtain ⟨x, hx⟩ := (hm.response params).mpr hr.1
  obtain ⟨g1, g2, g3⟩ := (goodTy i.respTy).sound _ _ _ hx
  rw [List.append_nil] at g3
  obtain ⟨vs, h1, h2, h3⟩ := accepted_of a.active auths hacc
  have hsz := congrArg List.length hr.2.2
  simp only [List.length_append, digits256_length] at hsz
  refine ⟨x, ?_, hx⟩
  have hu : (i.with v).respHandlesTy = .unit := hm.respHandles
  have hd := C34_delivered tr (i.with v) a s s' hw hfit k
    ⟨if auths = [] then 0x8001 else 0x8002, .unit, params.length, x, vs⟩ rest
    ⟨by dsimp only; split <;> omega, by dsimp only; omega, by rw [hu]; trivial, g1, h1⟩ ?_ h2
  · rw [hd, hu]
    show Res.ok (canon i.respTy x, canon .unit .unit) = _
    rw [g2]; rfl
  · rw [ht]
    have : responseBytes (i.with v)
        ⟨if auths = [] then 0x8001 else 0x8002, .unit, params.length, x, vs⟩ = rsp := by
      rw [hr.2.2]
      unfold responseBytes responseBody
      rw [hu]
      show _ ++ digits256 4 (10 + (_ ++ _ ++ wire i.respTy x ++ _).length) ++ _ ++
        (_ ++ _ ++ wire i.respTy x ++ _) = _
      rw [← g3, h3]
      have e : (if (if auths = [] then 0x8001 else 0x8002) = 0x8002 then digits256 4 params.length
          else ([] : Bytes)) = if auths = [] then [] else digits256 4 params.length := by
        by_cases ha : auths = [] <;> simp [ha]
      dsimp only
      rw [e]
      simp only [wire, List.nil_append, List.append_assoc, List.length_append]
      congr 2
      have : rsp.length = 10 + ((if auths = [] then [] else digits256 4 params.length : Bytes).length +
          (params.length + auths.flatten.length)) := by omega
      rw [this]
    rw [this]

/-- **C74 (partial).** A successful response of the standard whose authorization
responses the sessions accept is delivered: the client returns the value of its
parameters.  Missing: GetCapability, for which this is false
(`C74_violated`) and which has `C74_answer_crate`. -/
theorem C74_answer_partial (n : String) (p : Part3) (h : (n, p) ∈ part3 standard)
    (hn : n ≠ "GetCapability") :
    ∃ i, (n, i) ∈ impls ∧ ∀ (σ ε : Type) (tr : Transport σ ε) (v : Val) (a : Area) (s s' : σ)
      (k : Nat) (rsp rest params : Bytes) (auths : List Bytes), CmdWF (i.with v) a →
      (commandBytes (i.with v) a.active).length ≤ 4096 →
      tr.transact s (commandBytes (i.with v) a.active) (List.replicate 4096 0) =
        (.reported k, rsp ++ rest, s') →
      IsResponse p.response params auths rsp → AcceptAll a.active auths →
      ∃ x, (runCommandWithHandles tr (i.with v) a s).result = .ok (x, .unit) ∧
        unmarshal i.respTy params = (.ok x, []) := by
  obtain ⟨i, q, hi, hm, -, -, h3⟩ := meets_standard n p h
  have := h3 hn
  subst this
  exact ⟨i, hi, fun σ ε tr v a s s' k rsp rest params auths => answer i q hm tr v a s s' k rsp rest params auths⟩

/-- **C74** for all four commands, with the response of GetCapability as the
crate has it. -/
theorem C74_answer_crate (n : String) (p : Part3) (h : (n, p) ∈ part3 crate) :
    ∃ i, (n, i) ∈ impls ∧ ∀ (σ ε : Type) (tr : Transport σ ε) (v : Val) (a : Area) (s s' : σ)
      (k : Nat) (rsp rest params : Bytes) (auths : List Bytes), CmdWF (i.with v) a →
      (commandBytes (i.with v) a.active).length ≤ 4096 →
      tr.transact s (commandBytes (i.with v) a.active) (List.replicate 4096 0) =
        (.reported k, rsp ++ rest, s') →
      IsResponse p.response params auths rsp → AcceptAll a.active auths →
      ∃ x, (runCommandWithHandles tr (i.with v) a s).result = .ok (x, .unit) ∧
        unmarshal i.respTy params = (.ok x, []) := by
  obtain ⟨i, hi, hm⟩ := meets_crate n p h
  exact ⟨i, hi, fun σ ε tr v a s s' k rsp rest params auths => answer i p hm tr v a s s' k rsp rest params auths⟩

/-- A GetCapability command for the authenticated countdown timers. -/
def actCommand : Val := .struct [.struct [.int 10], .struct [.int 0], .int 1]
/-- The response of a TPM without timers: an empty list. -/
def actResponse : Bytes := [0x80, 0x01, 0, 0, 0, 19, 0, 0, 0, 0, 0, 0, 0, 0, 10, 0, 0, 0, 0]

set_option maxRecDepth 100000 in
/-- **C74 is violated** for GetCapability: the client can ask for the timers of
the TPM, but does not read the answer of the standard. -/
theorem C74_violated :
    ∃ p i, ("GetCapability", p) ∈ part3 standard ∧ ("GetCapability", i) ∈ impls ∧
      CmdWF (i.with actCommand) area0 ∧
      (∃ params, IsResponse p.response params [] actResponse) ∧
      (runCommandWithHandles (replay actResponse 19 (by decide)) (i.with actCommand) area0 0).result =
        .err (.tss ⟨0x98⟩) := by
  refine ⟨_, _, List.mem_of_getElem? (i := 3) rfl, List.mem_of_getElem? (i := 3) rfl, ?_, ?_, ?_⟩
  · exact ⟨by decide, trivial, by decide, by intro s hs; simp [Area.active, area0] at hs⟩
  · refine ⟨[0, 0, 0, 0, 10, 0, 0, 0, 0], ?_, by simp, by decide⟩
    have hc : conf (Base.S [Base.TpmiYesNo, capabilityStd]) (TPM2_GetCapability_Response standard) =
      true := by decide +kernel
    rw [conf_iff _ _ hc, ← accepts_iff, ← accepts_eq]
    decide +kernel
  · have hw : CmdWF ((⟨Base.Cc.GetCapability, .unit, Base.GetCapabilityCmd, Base.GetCapabilityResp,
        .unit⟩ : Impl).with actCommand) area0 :=
      ⟨by decide, trivial, by decide, by intro s hs; simp [Area.active, area0] at hs⟩
    rw [run_eq _ _ _ _ hw (by decide), replay_transact _ _ _ _ _ (by decide)]
    rfl

/-- **C74**: the command codes of the standard are those of the constants that
the implementations name. -/
theorem C74_codes (e : Derive.Env) (he : Derive.Env.empty.addAll Derive.Decls.all = some e)
    (n : String) (p : Part3) (h : (n, p) ∈ part3 standard) :
    ∃ m, Named m n ∧ e.const ["TpmCc", m] = some p.code := by
  refine C72_complete e he "TpmCc" CC (List.mem_of_getElem? (i := 2) rfl) n p.code ?_
  simp only [part3, List.mem_cons, List.not_mem_nil, or_false, Prod.mk.injEq] at h
  obtain ⟨rfl, rfl⟩ | ⟨rfl, rfl⟩ | ⟨rfl, rfl⟩ | ⟨rfl, rfl⟩ := h
  · exact List.mem_of_getElem? (i := 36) rfl
  · exact List.mem_of_getElem? (i := 87) rfl
  · exact List.mem_of_getElem? (i := 90) rfl
  · exact List.mem_of_getElem? (i := 86) rfl

/-! ### Non-vacuity -/

/-- GetRandom(8) with the password "ab". -/
def exCommand : Bytes := [0x80, 0x02, 0, 0, 0, 27, 0, 0, 0x01, 0x7B,
  0, 0, 0, 11, 0x40, 0, 0, 9, 0, 0, 0, 0, 2, 0x61, 0x62, 0, 8]

theorem exCommand_is : IsCommand 0x17B TPM2_GetRandom [0, 8]
    [[0x40, 0, 0, 9, 0, 0, 0, 0, 2, 0x61, 0x62]] exCommand := by
  refine ⟨?_, ?_, by decide⟩
  · have hc : conf Base.GetRandomCmd TPM2_GetRandom = true := by decide +kernel
    rw [conf_iff _ _ hc, ← accepts_iff, ← accepts_eq]
    decide +kernel
  · intro a ha
    rw [List.mem_singleton] at ha
    subst ha
    rw [← agrees_auth, ← accepts_eq]
    decide +kernel

example := C74_every "GetRandom" _ (List.mem_of_getElem? (i := 1) rfl) _ _ exCommand exCommand_is
  (by decide) (by decide)

/-- The client sends this command. -/
example : (runCommandWithHandles (recording (replay [] 0 (by decide)))
    (Impl.with ⟨0x17B, .unit, Base.GetRandomCmd, Base.GetRandomResp, .unit⟩ (.struct [.int 8]))
    (area1 exSession) (0, [])).state.2 = [(exCommand, List.replicate 4096 0)] := by
  have hw : CmdWF (Impl.with ⟨0x17B, .unit, Base.GetRandomCmd, Base.GetRandomResp, .unit⟩
      (.struct [.int 8])) (area1 exSession) := ⟨by decide, trivial, by decide, exCmdWF.auths⟩
  rw [C31_sent _ _ _ _ _ hw (by decide)]
  rfl

/-- A response with two random bytes. -/
example : IsResponse TPM2_GetRandom_Response [0, 2, 0xAA, 0xBB] []
    [0x80, 0x01, 0, 0, 0, 14, 0, 0, 0, 0, 0, 2, 0xAA, 0xBB] := by
  refine ⟨?_, by simp, by decide⟩
  have hc : conf Base.GetRandomResp TPM2_GetRandom_Response = true := by decide +kernel
  rw [conf_iff _ _ hc, ← accepts_iff, ← accepts_eq]
  decide +kernel

end Verif.Tcg
