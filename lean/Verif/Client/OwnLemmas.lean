import Verif.Client.Own
import Verif.Client.AreaLemmas
import Verif.Client.Outcome

/-! Helper lemmas for commands of the caller's own. -/

namespace Verif.Client
open Verif Verif.Base Verif.Errors

variable {ω ε P H : Type}

theorem authBytes_eq : authBytes = areaBytes := by
  funext x
  rcases x with _ | vs <;> rfl

theorem contributes_iff (a : FreeArea ω) (w w' : ω) (auths : Option (List Val)) :
    Contributes a w auths w' ↔ Gives2 a w auths w' := by
  constructor
  · intro h
    cases h with
    | nothing h => exact h
    | auths h1 h2 h3 => exact ⟨_, _, _, h1, h2, h3⟩
  · intro h
    rcases auths with _ | vs
    · exact .nothing h
    · obtain ⟨_, _, _, h1, h2, h3⟩ := h
      exact .auths h1 h2 h3

theorem Gives2.good {a : FreeArea ω} {w w1 : ω} {auths : Option (List Val)}
    (h : Gives2 a w auths w1)
    (ha : ∀ w d w', a.decompose w = (some d, w') → ∀ s ∈ d.active,
      ∀ w v w', s.authCommand w = (some v, w') → HasTy TpmsAuthCommand v) :
    (∀ vs, auths = some vs → ∀ v ∈ vs, HasTy TpmsAuthCommand v) ∧
    (∀ vs, auths = some vs → vs.length ≤ 3) := by
  rcases auths with _ | vs
  · exact ⟨fun _ h => (nomatch h), fun _ h => (nomatch h)⟩
  · obtain ⟨w2, d, w3, h2, h3, h4⟩ := h
    constructor
    · rintro _ ⟨rfl⟩
      exact h4.hasTy (ha _ _ _ h3)
    · rintro _ ⟨rfl⟩
      rw [h4.length]
      exact LiveArea.active_length _

theorem authChain_wf : ∀ (vs : List Val) (k : Nat → Bytes → TOut) (w n : Nat) (b b' : Bytes),
    (∀ v ∈ vs, HasTy TpmsAuthCommand v) →
    authChain (vs.map fixed) k w b = (.ok n, b') → ∀ v ∈ vs, WF TpmsAuthCommand v := by
  intro vs
  induction vs with
  | nil => intro k w n b b' _ _ s hs; simp at hs
  | cons s ss ih =>
    intro k w n b b' hty hch x hx
    obtain ⟨w', b'', e, hch⟩ := tthen_isOk hch
    rcases List.mem_cons.1 hx with rfl | hx
    · obtain ⟨m, _, e⟩ := tstep_isOk e
      exact marshal_ok_wf _ _ _ _ (hty _ List.mem_cons_self) (toTss_isOk e)
    · exact ih _ _ _ _ _ (fun y hy => hty y (List.mem_cons_of_mem _ hy)) hch x hx

/-- Writing the authorizations. -/
theorem sessionsP_ok_iff (auths : Option (List Val)) (b b' : Bytes) (n : Nat)
    (ha : ∀ vs, auths = some vs → ∀ v ∈ vs, HasTy TpmsAuthCommand v)
    (hl : ∀ vs, auths = some vs → vs.length ≤ 3) :
    sessionsP (auths.map (·.map fixed)) b = (.ok n, b') ↔
      (∀ vs, auths = some vs → ∀ v ∈ vs, WF TpmsAuthCommand v) ∧
      (areaBytes auths).length ≤ b.length ∧ n = (areaBytes auths).length ∧
      b' = areaBytes auths ++ b.drop (areaBytes auths).length := by
  constructor
  · intro h
    have hwf : ∀ vs, auths = some vs → ∀ v ∈ vs, WF TpmsAuthCommand v := by
      rintro vs rfl
      exact authChain_wf _ _ _ _ _ _ (ha vs rfl) h
    have hw := sessionsP_writes auths hwf (areaBytes_length auths hwf hl)
    by_cases hf : (areaBytes auths).length ≤ b.length
    · have := hw.fit b hf
      rw [h] at this
      simp only [Prod.mk.injEq, Res.ok.injEq] at this
      exact ⟨hwf, hf, this.1, this.2⟩
    · have := hw.short b (by omega)
      rw [h] at this
      simp [TShort] at this
  · rintro ⟨hwf, hf, rfl, rfl⟩
    exact (sessionsP_writes auths hwf (areaBytes_length auths hwf hl)).fit b hf

theorem ownTss_ok_iff (f : Bytes → ω → MOut × ω) (b b' : Bytes) (w w' : ω) (n : Nat) :
    ownTss f b w = ((.ok n, b'), w') ↔ f b w = ((.ok n, b'), w') := by
  unfold ownTss toTss
  rcases f b w with ⟨⟨_ | _ | _, _⟩, _⟩ <;> simp [Res.mapErr]

/-- The header, written over the first ten bytes. -/
theorem header_fit (e : Bool) (code size : Nat) (hc : code < 2 ^ 32) (hs : size < 2 ^ 32) (buf : Bytes)
    (hl : 10 ≤ buf.length) :
    toTss (marshal CmdHeader (cmdHeader e code size) buf) =
      (.ok 10, (digits256 2 (if e then 0x8001 else 0x8002) ++ digits256 4 size ++
        digits256 4 code) ++ buf.drop 10) := by
  have := (tWrites_toTss (writesTy _ _ (header_wf e hc hs))).fit buf (by rw [header_length]; exact hl)
  rw [header_length, header_wire] at this
  exact this

theorem lstep_at_ok_iff (f : Bytes → ω → LOut ω) {x : Bytes} {n : Nat} (hn : x.length = n)
    (r b' : Bytes) (m : Nat) (w w' : ω) :
    lstep f n (x ++ r) w = ((.ok m, b'), w') ↔
      ∃ k sub, f r w = ((.ok k, sub), w') ∧ m = n + k ∧ b' = x ++ sub := by
  rw [lstep_ok_iff, List.drop_left' hn, List.take_left' hn]
  constructor
  · exact fun h => h.2
  · exact fun h => ⟨by rw [List.length_append]; omega, h⟩

theorem sliceTo_iff (b : Bytes) (n : Nat) (c : Bytes) :
    sliceTo b n = some c ↔ n ≤ b.length ∧ c = b.take n := by
  unfold sliceTo
  split <;> simp [*, eq_comm]

/-- Cutting the buffer where the next part begins. -/
theorem cut_at {x r : Bytes} {n k : Nat} (hn : x.length = n) (hk : k ≤ r.length) :
    x ++ r = (x ++ r.take k) ++ r.drop k ∧ (x ++ r.take k).length = n + k := by
  constructor
  · rw [List.append_assoc, List.take_append_drop]
  · rw [List.length_append, List.length_take]; omega

/-- Building succeeds with something that can be handed over exactly if the command
is composed. -/
theorem buildOwn_iff (c : OwnCommand ω P H) (a : FreeArea ω) (w w' : ω) (cmd : Bytes)
    (hcode : c.code < 2 ^ 32)
    (ha : ∀ w d w', a.decompose w = (some d, w') → ∀ s ∈ d.active,
      ∀ w v w', s.authCommand w = (some v, w') → HasTy TpmsAuthCommand v) :
    (∃ n b, buildOwn c a w = ((.ok n, b), w') ∧ sliceTo b n = some cmd) ↔ Composes c a w cmd w' := by
  have hbuf : (List.replicate cmdBufferSize (0 : UInt8)).drop 10 = List.replicate 4086 0 := by
    rw [List.drop_replicate]; rfl
  have hlen : 10 ≤ (List.replicate cmdBufferSize (0 : UInt8)).length := by
    rw [cmdBuf_length]; omega
  constructor
  · rintro ⟨n, b, hb, hs⟩
    unfold buildOwn at hb
    rcases he : a.isEmpty w with ⟨_ | empty, w1⟩ <;> rw [he] at hb
    · simp at hb
    · dsimp only at hb
      rw [header_fit empty c.code 0 hcode (by omega) _ hlen, lthen_of_ok, hbuf] at hb
      have hH : (digits256 2 (if empty then 0x8001 else 0x8002) ++ digits256 4 0 ++
        digits256 4 c.code).length = 10 := by simp
      generalize digits256 2 (if empty then 0x8001 else 0x8002) ++ digits256 4 0 ++
        digits256 4 c.code = hd at hb hH
      obtain ⟨k2, b2, w2, e2, hb⟩ := lthen_isOk hb
      obtain ⟨n1, hs1, f1, rfl, rfl⟩ := (lstep_at_ok_iff _ hH _ _ _ _ _).1 e2
      rw [ownTss_ok_iff] at f1
      have hl1 := c.handles_length (List.replicate 4086 0) w1
      rw [f1, List.length_replicate] at hl1
      dsimp only at hl1
      obtain ⟨k3, b3, w3, e3, hb⟩ := lthen_isOk hb
      have hn1 : n1 ≤ hs1.length := by
        have := ((lstep_ok_iff _ _ _ _ _ _ _).1 e3).1
        rw [List.length_append] at this
        omega
      obtain ⟨c1, c2⟩ := cut_at (x := hd) hH hn1
      rw [c1] at e3
      obtain ⟨n2, sub2, f2, rfl, rfl⟩ := (lstep_at_ok_iff _ c2 _ _ _ _ _).1 e3
      obtain ⟨auths, g1, g2⟩ := (sessionsF_ok_iff _ _ _ _ _ _).1 f2
      have hgood := g1.good ha
      obtain ⟨wf, hfa, rfl, rfl⟩ := (sessionsP_ok_iff _ _ _ _ hgood.1 hgood.2).1 g2
      rw [List.drop_drop, ← List.append_assoc] at hb
      have c3 : (hd ++ hs1.take n1 ++ areaBytes auths).length =
          10 + n1 + (areaBytes auths).length := by rw [List.length_append, c2]
      obtain ⟨k4, b4, w4, e4, hb⟩ := lthen_isOk hb
      obtain ⟨n3, ps, f3, rfl, rfl⟩ := (lstep_at_ok_iff _ c3 _ _ _ _ _).1 e4
      rw [ownTss_ok_iff] at f3
      have hl3 := c.param_length (hs1.drop (n1 + (areaBytes auths).length)) w3
      rw [f3, List.length_drop, hl1] at hl3
      dsimp only at hl3
      rw [List.length_drop, hl1] at hfa
      obtain ⟨k5, b5, w5, e5, hb⟩ := lthen_isOk hb
      simp only [Prod.mk.injEq, Res.ok.injEq] at hb
      obtain ⟨⟨rfl, rfl⟩, rfl⟩ := hb
      rw [header_fit _ _ _ hcode (Nat.mod_lt _ (by omega)) _ (by
        rw [List.length_append, c3]; omega)] at e5
      simp only [Prod.mk.injEq] at e5
      obtain ⟨⟨-, rfl⟩, rfl⟩ := e5
      rw [List.append_assoc hd, List.append_assoc hd, List.drop_left' hH] at hs
      have hH' : (digits256 2 (if empty then 0x8001 else 0x8002) ++
        digits256 4 ((10 + n1 + (areaBytes auths).length + n3) % 2 ^ 32) ++
        digits256 4 c.code).length = 10 := by simp
      have hfit : n1 + (areaBytes auths).length + n3 ≤ 4086 := by
        have h := ((sliceTo_iff _ _ _).1 hs).1
        simp only [List.length_append, hl3, List.length_take, digits256_length] at h
        omega
      have hcmd : cmd = digits256 2 (if empty then 0x8001 else 0x8002) ++
          digits256 4 (10 + (n1 + (authBytes auths).length + n3)) ++ digits256 4 c.code ++
          (hs1.take n1 ++ authBytes auths ++ ps.take n3) := by
        have hmod : (10 + n1 + (areaBytes auths).length + n3) % 2 ^ 32 =
            10 + (n1 + (areaBytes auths).length + n3) := by omega
        rw [hmod] at hs hH'
        rw [authBytes_eq]
        generalize digits256 2 (if empty then 0x8001 else 0x8002) ++
          digits256 4 (10 + (n1 + (areaBytes auths).length + n3)) ++
          digits256 4 c.code = hd' at hs hH'
        rw [((sliceTo_iff _ _ _).1 hs).2, ← List.append_assoc, ← List.append_assoc]
        have c4 : (hd' ++ hs1.take n1 ++ areaBytes auths).length =
            10 + n1 + (areaBytes auths).length := by
          rw [List.length_append, List.length_append, hH', List.length_take]; omega
        rw [List.take_append, List.take_of_length_le (by omega), c4, Nat.add_sub_cancel_left,
          List.append_assoc, List.append_assoc, List.append_assoc]
      rw [hcmd]
      rw [← authBytes_eq] at f3 hfit
      exact .mk he f1 ((contributes_iff _ _ _ _).2 g1) wf f3 hfit
  · intro h
    cases h with
    | @mk empty n1 n3 hs1 ps auths w1 w2 w3 _ he f1 g1 wf f3 hfit =>
    rw [contributes_iff] at g1
    rw [authBytes_eq] at f3 hfit ⊢
    have hl1 := c.handles_length (List.replicate 4086 0) w1
    rw [f1, List.length_replicate] at hl1
    dsimp only at hl1
    have hl3 := c.param_length (hs1.drop (n1 + (areaBytes auths).length)) w3
    rw [f3, List.length_drop, hl1] at hl3
    dsimp only at hl3
    have hH : (digits256 2 (if empty then 0x8001 else 0x8002) ++ digits256 4 0 ++
      digits256 4 c.code).length = 10 := by simp
    unfold buildOwn
    rw [he]
    dsimp only
    rw [header_fit empty c.code 0 hcode (by omega) _ hlen, lthen_of_ok, hbuf]
    generalize digits256 2 (if empty then 0x8001 else 0x8002) ++ digits256 4 0 ++
      digits256 4 c.code = hd at hH ⊢
    rw [(lstep_at_ok_iff _ hH _ _ _ _ _).2 ⟨n1, hs1, (ownTss_ok_iff _ _ _ _ _ _).2 f1, rfl, rfl⟩,
      lthen_of_ok]
    have hn1 : n1 ≤ hs1.length := by omega
    obtain ⟨c1, c2⟩ := cut_at (x := hd) hH hn1
    rw [c1]
    have hgood := g1.good ha
    rw [(lstep_at_ok_iff _ c2 _ _ _ _ _).2 ⟨_, _, (sessionsF_ok_iff _ _ _ _ _ _).2 ⟨auths, g1,
      (sessionsP_ok_iff _ _ _ _ hgood.1 hgood.2).2 ⟨wf, by rw [List.length_drop]; omega, rfl, rfl⟩⟩,
      rfl, rfl⟩, lthen_of_ok, List.drop_drop, ← List.append_assoc]
    have c3 : (hd ++ hs1.take n1 ++ areaBytes auths).length =
        10 + n1 + (areaBytes auths).length := by rw [List.length_append, c2]
    rw [(lstep_at_ok_iff _ c3 _ _ _ _ _).2 ⟨n3, ps, (ownTss_ok_iff _ _ _ _ _ _).2 f3, rfl, rfl⟩,
      lthen_of_ok]
    have hmod : (10 + n1 + (areaBytes auths).length + n3) % 2 ^ 32 =
        10 + (n1 + (areaBytes auths).length + n3) := by omega
    rw [hmod, header_fit _ _ _ hcode (by omega) _ (by rw [List.length_append, c3]; omega),
      lthen_of_ok]
    refine ⟨_, _, rfl, ?_⟩
    rw [List.append_assoc hd, List.append_assoc hd, List.drop_left' hH]
    have hH' : (digits256 2 (if empty then 0x8001 else 0x8002) ++
      digits256 4 (10 + (n1 + (areaBytes auths).length + n3)) ++
      digits256 4 c.code).length = 10 := by simp
    generalize digits256 2 (if empty then 0x8001 else 0x8002) ++
      digits256 4 (10 + (n1 + (areaBytes auths).length + n3)) ++ digits256 4 c.code = hd' at hH' ⊢
    have c4 : (hd' ++ hs1.take n1 ++ areaBytes auths).length =
        10 + n1 + (areaBytes auths).length := by
      rw [List.length_append, List.length_append, hH', List.length_take]; omega
    unfold sliceTo
    rw [← List.append_assoc, ← List.append_assoc, if_pos (by
        rw [List.length_append, c4]; omega), List.take_append, List.take_of_length_le (by omega), c4,
      Nat.add_sub_cancel_left, List.append_assoc, List.append_assoc, List.append_assoc]

/-- The sessions read their responses. -/
theorem checkL_ok_iff (ss : List (LiveSession ω)) : ∀ (b b' : Bytes) (w w' : ω),
    checkL ss b w = (.ok b', w') ↔ ∃ xs, b = wires TpmsAuthResponse xs ++ b' ∧
      (∀ v ∈ xs, WF TpmsAuthResponse v ∧ canon TpmsAuthResponse v = v) ∧ Accepts ss xs w w' := by
  induction ss with
  | nil =>
    intro b b' w w'
    constructor
    · intro h
      simp only [checkL, Prod.mk.injEq, Res.ok.injEq] at h
      obtain ⟨rfl, rfl⟩ := h
      exact ⟨[], rfl, by simp, .nil _⟩
    · rintro ⟨xs, rfl, -, h⟩
      cases h
      rfl
  | cons s ss ih =>
    intro b b' w w'
    simp only [checkL, readAuthL]
    constructor
    · intro h
      rcases hu : tum TpmsAuthResponse b with ⟨v, r⟩ | _ | _ <;> rw [hu] at h <;>
        simp only [lbind] at h
      · rcases hv : s.validate v w with ⟨_ | _ | _, w1⟩ <;> rw [hv] at h <;> dsimp only at h
        · obtain ⟨xs, rfl, h2, h3⟩ := (ih _ _ _ _).1 h
          obtain ⟨e1, e2, e3⟩ := (tum_ok_iff _ _ _ _).1 hu
          refine ⟨v :: xs, by rw [e3]; simp [wires], ?_, .cons hv h3⟩
          intro x hx
          rcases List.mem_cons.1 hx with rfl | hx
          · exact ⟨e1, e2⟩
          · exact h2 x hx
        · simp at h
        · simp at h
      · simp at h
      · simp at h
    · rintro ⟨xs, rfl, h2, h3⟩
      cases h3 with
      | @cons _ _ _ w1 _ x xs hv ht =>
        obtain ⟨e1, e2⟩ := h2 x List.mem_cons_self
        have : wires TpmsAuthResponse (x :: xs) ++ b' =
            wire TpmsAuthResponse x ++ (wires TpmsAuthResponse xs ++ b') := by simp [wires]
        rw [this, (tum_ok_iff _ _ _ _).2 ⟨e1, e2, rfl⟩]
        simp only [lbind, hv]
        exact (ih _ _ _ _).2 ⟨xs, rfl, fun v hv => h2 v (List.mem_cons_of_mem _ hv), ht⟩

theorem ownUm_ok_iff {α : Type} (f : Bytes → ω → (Res MErr α × Bytes) × ω) (b r : Bytes) (v : α)
    (w w' : ω) : ownUm f b w = (.ok (v, r), w') ↔ f b w = ((.ok v, r), w') := by
  unfold ownUm
  rcases f b w with ⟨⟨_ | _ | _, _⟩, _⟩ <;> simp

theorem lbind_isOk {α β : Type} {r : Res TssError α × ω} {k : α → ω → Res TssError β × ω} {x : β}
    {w' : ω} (h : lbind r k = (.ok x, w')) : ∃ y w1, r = (.ok y, w1) ∧ k y w1 = (.ok x, w') := by
  rcases r with ⟨y | _ | _, w1⟩
  · exact ⟨y, w1, rfl, h⟩
  · simp [lbind] at h
  · simp [lbind] at h

theorem lbind_of_ok {α β : Type} {k : α → ω → Res TssError β × ω} {y : α} {w : ω} :
    lbind (.ok y, w) k = k y w := rfl

theorem sizeStep_iff (tag : Nat) (b r : Bytes) :
    (if tag = St.Sessions then (tum u32 b).map (·.2) else .ok b) = (.ok r : Res TssError Bytes) ↔
      ∃ n < 2 ^ 32, b = (if tag = 0x8002 then digits256 4 n else []) ++ r := by
  rw [sizeStep_ok_iff]
  rfl

/-- Reading a response with a header. -/
theorem readResponseOwn_eq (c : OwnCommand ω P H) (a : FreeArea ω) (tag size rc : Nat) (rest : Bytes)
    (w : ω) (h1 : tag < 65536) (h2 : size < 2 ^ 32) (h3 : rc < 2 ^ 32) :
    readResponseOwn c a (digits256 2 tag ++ digits256 4 size ++ digits256 4 rc ++ rest) w =
      if rc ≠ 0 then (.err ⟨rc⟩, w)
      else if 10 + rest.length < size then (.err tcsOutOfMemory, w)
      else if size < 10 then (.panic, w)
      else readBodyOwn c a tag (rest.take (size - 10)) w := by
  unfold readResponseOwn readResponseHeader
  rw [tum_header _ _ _ _ h1 h2 h3]
  simp only [Res.bind, TssError.tryFrom]
  by_cases hrc : rc = 0
  · subst hrc
    simp only [if_true, lbind]
    have hl : (digits256 2 tag ++ digits256 4 size ++ digits256 4 0 ++ rest).length =
        10 + rest.length := by simp; omega
    rw [hl]
    by_cases hbig : 10 + rest.length < size
    · simp [hbig]
    · have e : 10 + rest.length - rest.length = 10 := by omega
      rw [e]
      by_cases hsmall : size < 10
      · rw [if_neg (by omega), if_neg (by omega), if_neg (by simp), if_neg hbig, if_pos hsmall]
      · rw [if_neg (by omega), if_pos (by omega), if_neg (by simp), if_neg hbig, if_neg hsmall]
        congr 1
        have hl10 : (digits256 2 tag ++ digits256 4 size ++ digits256 4 0).length = 10 := by simp
        generalize digits256 2 tag ++ digits256 4 size ++ digits256 4 0 = hd at hl10
        rw [List.drop_take, List.drop_left' hl10]
  · simp [hrc, lbind]

theorem readBodyOwn_ok_iff (c : OwnCommand ω P H) (a : FreeArea ω) (tag : Nat) (body : Bytes)
    (w w' : ω) (p : P) (h : H) :
    readBodyOwn c a tag body w = (.ok (p, h), w') ↔
      ∃ paramSize b1 b2 d auths w1 w2 w3, paramSize < 2 ^ 32 ∧
        c.respHandles body w = ((.ok h, (if tag = 0x8002 then digits256 4 paramSize else []) ++ b1),
          w1) ∧
        c.resp b1 w1 = ((.ok p, b2), w2) ∧ a.decompose w2 = (some d, w3) ∧
        b2 = wires TpmsAuthResponse auths ∧
        (∀ v ∈ auths, WF TpmsAuthResponse v ∧ canon TpmsAuthResponse v = v) ∧
        Accepts d.active auths w3 w' := by
  unfold readBodyOwn
  constructor
  · intro hr
    obtain ⟨⟨h', b0⟩, w1, e1, hr⟩ := lbind_isOk hr
    obtain ⟨b1, _, e2, hr⟩ := lbind_isOk hr
    simp only [Prod.mk.injEq] at e2
    obtain ⟨e2, rfl⟩ := e2
    obtain ⟨⟨p', b2⟩, w2, e3, hr⟩ := lbind_isOk hr
    obtain ⟨b3, w3, e4, hr⟩ := lbind_isOk hr
    rw [ownUm_ok_iff] at e1 e3
    obtain ⟨n, hn, e2⟩ := (sizeStep_iff _ _ _).1 e2
    subst e2
    unfold readResponseSessionsF at e4
    rcases hd : a.decompose w2 with ⟨_ | d, w4⟩ <;> rw [hd] at e4
    · simp at e4
    · dsimp only at e4
      rw [readResponseSessionsL_eq] at e4
      obtain ⟨xs, x1, x2, x3⟩ := (checkL_ok_iff _ _ _ _ _).1 e4
      rcases b3 with _ | ⟨y, ys⟩
      · simp only [List.isEmpty_nil, if_true, Prod.mk.injEq, Res.ok.injEq] at hr
        obtain ⟨⟨rfl, rfl⟩, rfl⟩ := hr
        exact ⟨n, b1, b2, d, xs, w1, w2, w4, hn, e1, e3, hd, by simpa using x1, x2, x3⟩
      · simp at hr
  · rintro ⟨n, b1, b2, d, xs, w1, w2, w3, hn, e1, e3, hd, rfl, x2, x3⟩
    rw [(ownUm_ok_iff _ _ _ _ _ _).2 e1, lbind_of_ok, (sizeStep_iff _ _ _).2 ⟨n, hn, rfl⟩, lbind_of_ok, (ownUm_ok_iff _ _ _ _ _ _).2 e3,
      lbind_of_ok]
    unfold readResponseSessionsF
    rw [hd]
    dsimp only
    rw [readResponseSessionsL_eq, (checkL_ok_iff _ _ [] _ _).2 ⟨xs, by simp, x2, x3⟩, lbind_of_ok]
    rfl

theorem readOwn_ok_iff (c : OwnCommand ω P H) (a : FreeArea ω) (buf : Bytes) (w w' : ω) (p : P)
    (h : H) (hl : buf.length = 4096) :
    readResponseOwn c a buf w = (.ok (p, h), w') ↔ Decomposes c a w buf p h w' := by
  constructor
  · intro hr
    obtain ⟨tag, size, rc, rest, h1, h2, h3, rfl⟩ := split_header buf (by omega)
    rw [readResponseOwn_eq c a tag size rc rest w h1 h2 h3] at hr
    split at hr
    · simp at hr
    · rename_i hrc
      split at hr
      · simp at hr
      · split at hr
        · simp at hr
        · rename_i hbig hsmall
          have hrc : rc = 0 := by omega
          subst hrc
          obtain ⟨n, b1, b2, d, auths, w1, w2, w3, hn, g1, g2, g3, g4, g5, g6⟩ :=
            (readBodyOwn_ok_iff _ _ _ _ _ _ _ _).1 hr
          have hlen : (rest.take (size - 10)).length = size - 10 := by
            rw [List.length_take]; omega
          have := Decomposes.mk (rest := rest.drop (size - 10)) h1 hn g1 g2 g3 g4 g5 g6
          rw [hlen, show 10 + (size - 10) = size by omega, List.append_assoc _ (rest.take _),
            List.take_append_drop] at this
          exact this
  · intro hd
    cases hd with
    | @mk tag paramSize body rest b1 b2 _ _ d auths w1 w2 w3 _ htag hsize g1 g2 g3 g4 g5 g6 =>
    have hlen : 10 + body.length + rest.length = 4096 := by
      simp only [List.length_append, digits256_length] at hl; omega
    rw [List.append_assoc _ body, readResponseOwn_eq c a _ _ _ _ _ htag (by omega) (by omega),
      if_neg (by simp), if_neg (by rw [List.length_append]; omega), if_neg (by omega),
      show 10 + body.length - 10 = body.length by omega, List.take_left' rfl]
    exact (readBodyOwn_ok_iff _ _ _ _ _ _ _ _).2
      ⟨paramSize, b1, b2, d, auths, w1, w2, w3, hsize, g1, g2, g3, g4, g5, g6⟩

end Verif.Client
