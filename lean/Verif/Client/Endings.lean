import Verif.Width.OwnProps
import Verif.Client.Outcome

/-
Every way in which a command can end with types, areas, sessions and connections of the caller's own:
specification and helper lemmas for C115.
-/

namespace Verif.Client
open Verif Verif.Base Verif.Errors

variable {ω ε P H : Type}

/-! ### Specification -/

/-- An end without a result that is not an error of the connection: an error with its code, or
(`none`) a panic. -/
abbrev Ending := Option Nat

/-- The outcome of the client. -/
def Ending.res {α : Type} : Ending → Res (CErr ε) α
  | some e => .err (.tss ⟨e⟩)
  | none => .panic

/-- The codes of what an implementation of the caller reports when reading or writing:
`TPM_RC_SIZE`, `TPM_RC_MEMORY`, `TPM_RC_SELECTOR`. -/
def partNumber : MErr → Nat
  | .arrayLengthExceeded => 0x095
  | .unexpectedEndOfBuffer => 0x904
  | .unknownSelector => 0x098

/-- The sessions are asked for authorizations in order, and each is written into what the ones before
left of the space; one of them panics, or is not written. -/
inductive AuthsStop : List (LiveSession ω) → Nat → ω → Ending → ω → Prop
  | panics {s ss space w w1} : s.authCommand w = (none, w1) → AuthsStop (s :: ss) space w none w1
  | refused {s ss space w v w1} : s.authCommand w = (some v, w1) →
      StopsAt Part.Refused (parts TpmsAuthCommand v) space → AuthsStop (s :: ss) space w (some 0x904) w1
  | breaks {s ss space w v w1} : s.authCommand w = (some v, w1) →
      StopsAt Part.Breaks (parts TpmsAuthCommand v) space → AuthsStop (s :: ss) space w none w1
  | later {s ss space w v w1 h w2} : s.authCommand w = (some v, w1) → WF TpmsAuthCommand v →
      (wire TpmsAuthCommand v).length ≤ space →
      AuthsStop ss (space - (wire TpmsAuthCommand v).length) w1 h w2 → AuthsStop (s :: ss) space w h w2

/-- Writing the authorization area into the space ends so.  The size of the area takes four bytes; if
there are fewer, the first session is still asked, and then the client panics. -/
inductive AreaStops (a : FreeArea ω) (space : Nat) (w : ω) : Ending → ω → Prop
  | isEmpty {w1} : a.isEmpty w = (none, w1) → AreaStops a space w none w1
  | decompose {w1 w2} : a.isEmpty w = (some false, w1) → a.decompose w1 = (none, w2) →
      AreaStops a space w none w2
  | noRoom {w1 d w2} : a.isEmpty w = (some false, w1) → a.decompose w1 = (some d, w2) →
      d.active = [] → space < 4 → AreaStops a space w (some 0x904) w2
  | crash {w1 d w2 s ss r w3} : a.isEmpty w = (some false, w1) → a.decompose w1 = (some d, w2) →
      d.active = s :: ss → space < 4 → s.authCommand w2 = (r, w3) → AreaStops a space w none w3
  | auths {w1 d w2 h w3} : a.isEmpty w = (some false, w1) → a.decompose w1 = (some d, w2) → 4 ≤ space →
      AuthsStop d.active (space - 4) w2 h w3 → AreaStops a space w h w3

/-- Composing the command ends so, and nothing is sent. -/
inductive BuildStops (c : OwnCommand ω P H) (a : FreeArea ω) (w : ω) : Ending → ω → Prop
  | isEmpty {w1} : a.isEmpty w = (none, w1) → BuildStops c a w none w1
  | handles {empty w1 e hs w2} : a.isEmpty w = (some empty, w1) →
      c.handles (List.replicate 4086 0) w1 = ((.err e, hs), w2) → BuildStops c a w (some (partNumber e)) w2
  | handlesPanic {empty w1 hs w2} : a.isEmpty w = (some empty, w1) →
      c.handles (List.replicate 4086 0) w1 = ((.panic, hs), w2) → BuildStops c a w none w2
  /-- the handles report more than the 4086 bytes they were given -/
  | handlesOver {empty w1 n hs w2} : a.isEmpty w = (some empty, w1) →
      c.handles (List.replicate 4086 0) w1 = ((.ok n, hs), w2) → 4086 < n → BuildStops c a w none w2
  | area {empty w1 n hs w2 h w3} : a.isEmpty w = (some empty, w1) →
      c.handles (List.replicate 4086 0) w1 = ((.ok n, hs), w2) → n ≤ 4086 →
      AreaStops a (4086 - n) w2 h w3 → BuildStops c a w h w3
  | params {empty w1 n hs w2 auths w3 e ps w4} : a.isEmpty w = (some empty, w1) →
      c.handles (List.replicate 4086 0) w1 = ((.ok n, hs), w2) → Contributes a w2 auths w3 →
      (∀ vs, auths = some vs → ∀ v ∈ vs, WF TpmsAuthCommand v) → n + (authBytes auths).length ≤ 4086 →
      c.param (hs.drop (n + (authBytes auths).length)) w3 = ((.err e, ps), w4) →
      BuildStops c a w (some (partNumber e)) w4
  | paramsPanic {empty w1 n hs w2 auths w3 ps w4} : a.isEmpty w = (some empty, w1) →
      c.handles (List.replicate 4086 0) w1 = ((.ok n, hs), w2) → Contributes a w2 auths w3 →
      (∀ vs, auths = some vs → ∀ v ∈ vs, WF TpmsAuthCommand v) → n + (authBytes auths).length ≤ 4086 →
      c.param (hs.drop (n + (authBytes auths).length)) w3 = ((.panic, ps), w4) → BuildStops c a w none w4
  /-- the parameters report more than the bytes they were given -/
  | paramsOver {empty w1 n hs w2 auths w3 m ps w4} : a.isEmpty w = (some empty, w1) →
      c.handles (List.replicate 4086 0) w1 = ((.ok n, hs), w2) → Contributes a w2 auths w3 →
      (∀ vs, auths = some vs → ∀ v ∈ vs, WF TpmsAuthCommand v) → n + (authBytes auths).length ≤ 4086 →
      c.param (hs.drop (n + (authBytes auths).length)) w3 = ((.ok m, ps), w4) →
      4086 < n + (authBytes auths).length + m → BuildStops c a w none w4

/-- The sessions are given their authorization responses in order; one of these is malformed, or its
session refuses it or panics. -/
inductive ReplyStops : List (LiveSession ω) → Bytes → ω → Ending → ω → Prop
  | malformed {s ss b w} (k : Fault) : Faulty k TpmsAuthResponse b →
      ReplyStops (s :: ss) b w (some (faultNumber k)) w
  | refused {s ss rest w v e w1} : WF TpmsAuthResponse v → canon TpmsAuthResponse v = v →
      s.validate v w = (.err e, w1) → ReplyStops (s :: ss) (wire TpmsAuthResponse v ++ rest) w (some e.code) w1
  | panics {s ss rest w v w1} : WF TpmsAuthResponse v → canon TpmsAuthResponse v = v →
      s.validate v w = (.panic, w1) → ReplyStops (s :: ss) (wire TpmsAuthResponse v ++ rest) w none w1
  | later {s ss rest w v w1 h w2} : WF TpmsAuthResponse v → canon TpmsAuthResponse v = v →
      s.validate v w = (.ok (), w1) → ReplyStops ss rest w1 h w2 →
      ReplyStops (s :: ss) (wire TpmsAuthResponse v ++ rest) w h w2

/-- Reading what is behind the header of a successful response ends so. -/
inductive BodyStops (c : OwnCommand ω P H) (a : FreeArea ω) (tag : Nat) (body : Bytes) (w : ω) :
    Ending → ω → Prop
  | handles {e r w1} : c.respHandles body w = ((.err e, r), w1) →
      BodyStops c a tag body w (some (partNumber e)) w1
  | handlesPanic {r w1} : c.respHandles body w = ((.panic, r), w1) → BodyStops c a tag body w none w1
  /-- less than the four bytes of the parameter size are left -/
  | size {y r w1} : c.respHandles body w = ((.ok y, r), w1) → tag = 0x8002 → r.length < 4 →
      BodyStops c a tag body w (some 0x904) w1
  | params {y n b1 w1 e r w2} : n < 2 ^ 32 → c.respHandles body w = ((.ok y, sizeField tag n ++ b1), w1) →
      c.resp b1 w1 = ((.err e, r), w2) → BodyStops c a tag body w (some (partNumber e)) w2
  | paramsPanic {y n b1 w1 r w2} : n < 2 ^ 32 →
      c.respHandles body w = ((.ok y, sizeField tag n ++ b1), w1) →
      c.resp b1 w1 = ((.panic, r), w2) → BodyStops c a tag body w none w2
  | decompose {y n b1 w1 x b2 w2 w3} : n < 2 ^ 32 →
      c.respHandles body w = ((.ok y, sizeField tag n ++ b1), w1) → c.resp b1 w1 = ((.ok x, b2), w2) →
      a.decompose w2 = (none, w3) → BodyStops c a tag body w none w3
  | auths {y n b1 w1 x b2 w2 d w3 h w4} : n < 2 ^ 32 →
      c.respHandles body w = ((.ok y, sizeField tag n ++ b1), w1) → c.resp b1 w1 = ((.ok x, b2), w2) →
      a.decompose w2 = (some d, w3) → ReplyStops d.active b2 w3 h w4 → BodyStops c a tag body w h w4
  /-- something is left: `TSS_E_TPM_UNEXPECTED` of the TCS layer -/
  | surplus {y n b1 w1 x w2 d w3 vs z more w4} : n < 2 ^ 32 →
      c.respHandles body w = ((.ok y, sizeField tag n ++ b1), w1) →
      c.resp b1 w1 = ((.ok x, wires TpmsAuthResponse vs ++ z :: more), w2) →
      a.decompose w2 = (some d, w3) →
      (∀ v ∈ vs, WF TpmsAuthResponse v ∧ canon TpmsAuthResponse v = v) → Accepts d.active vs w3 w4 →
      BodyStops c a tag body w (some 0x2010) w4

/-- Reading the response buffer ends so: with the response code, if it is not zero; otherwise with
`TSS_E_OUTOFMEMORY` of the TCS layer for a declared size beyond the buffer, with a panic for one below
that of the header, or behind the header. -/
inductive ReadStops (c : OwnCommand ω P H) (a : FreeArea ω) (w : ω) : Bytes → Ending → ω → Prop
  | code {tag size rc rest} : tag < 65536 → size < 2 ^ 32 → rc < 2 ^ 32 → rc ≠ 0 →
      ReadStops c a w (digits256 2 tag ++ digits256 4 size ++ digits256 4 rc ++ rest) (some rc) w
  | large {tag size rest} : tag < 65536 → size < 2 ^ 32 → 4096 < size →
      ReadStops c a w (digits256 2 tag ++ digits256 4 size ++ digits256 4 0 ++ rest) (some 0x2005) w
  | small {tag size rest} : tag < 65536 → size < 10 →
      ReadStops c a w (digits256 2 tag ++ digits256 4 size ++ digits256 4 0 ++ rest) none w
  | body {tag body rest h w1} : tag < 65536 → BodyStops c a tag body w h w1 →
      ReadStops c a w (digits256 2 tag ++ digits256 4 (10 + body.length) ++ digits256 4 0 ++ body ++ rest) h w1

/-! ### Lemmas: writing -/

/-- The outcome of a part of the client. -/
def Ending.tss {α : Type} : Ending → Res TssError α
  | some e => .err ⟨e⟩
  | none => .panic

theorem tss_inj {α : Type} {h h' : Ending} (e : (h.tss : Res TssError α) = h'.tss) : h = h' := by
  cases h <;> cases h' <;> simp_all [Ending.tss]

theorem tss_ne {α : Type} (h : Ending) (x : α) : (h.tss : Res TssError α) ≠ .ok x := by
  cases h <;> simp [Ending.tss]

theorem partNumber_tss (e : MErr) : merrToTss e = ⟨partNumber e⟩ := by cases e <;> rfl

theorem res_cases {α : Type} (r : Res TssError α) : (∃ x, r = .ok x) ∨ ∃ h : Ending, r = h.tss := by
  rcases r with x | e | _
  · exact .inl ⟨x, rfl⟩
  · exact .inr ⟨some e.code, rfl⟩
  · exact .inr ⟨none, rfl⟩

/-- One authorization. -/
theorem auth_writes (v : Val) (hv : HasTy TpmsAuthCommand v) (n : Nat) (b : Bytes) (hn : n ≤ b.length) :
    ∃ o, tstep (fun b => toTss (marshal TpmsAuthCommand v b)) n b = o ∧ o.2.length = b.length ∧
      ((WF TpmsAuthCommand v ∧ (wire TpmsAuthCommand v).length ≤ b.length - n ∧
          o.1 = .ok (n + (wire TpmsAuthCommand v).length)) ∨
        (StopsAt Part.Refused (parts TpmsAuthCommand v) (b.length - n) ∧ o.1 = .err ⟨0x904⟩) ∨
        (StopsAt Part.Breaks (parts TpmsAuthCommand v) (b.length - n) ∧ o.1 = .panic)) := by
  refine ⟨_, rfl, ?_⟩
  obtain ⟨h1, h2⟩ := (fills_marshal TpmsAuthCommand v).step 0 n b (by omega) hn
  refine ⟨h2, ?_⟩
  obtain ⟨ht, hs⟩ := parts_sound _ _ hv
  rcases writeParts_ends (parts TpmsAuthCommand v) (b.length - n) ht with ⟨g1, g2, g3⟩ | ⟨g1, g2⟩ | ⟨g1, g2⟩
  · left
    have hw := hs g1
    have e := (parts_wf _ _ hw).1
    rw [partsLen, e] at g2 g3
    refine ⟨hw, g2, ?_⟩
    rw [h1, g3]
    rfl
  · right; left
    rw [h1, g2]
    exact ⟨g1, rfl⟩
  · right; right
    rw [h1, g2]
    exact ⟨g1, rfl⟩

/-- Only one of them is the case. -/
theorem stops_excl {v : Val} (hv : HasTy TpmsAuthCommand v) {space : Nat} :
    ((WF TpmsAuthCommand v ∧ (wire TpmsAuthCommand v).length ≤ space) →
      ¬ StopsAt Part.Refused (parts TpmsAuthCommand v) space ∧
      ¬ StopsAt Part.Breaks (parts TpmsAuthCommand v) space) ∧
    ¬ (StopsAt Part.Refused (parts TpmsAuthCommand v) space ∧
      StopsAt Part.Breaks (parts TpmsAuthCommand v) space) := by
  have ht := (parts_sound _ _ hv).1
  refine ⟨fun ⟨hw, hl⟩ => ?_, fun ⟨h1, h2⟩ => ?_⟩
  · obtain ⟨e1, e2⟩ := parts_wf _ _ hw
    have := writeParts_sound _ space e2 (by rw [e1]; exact hl)
    constructor <;> intro h
    · have := writeParts_refused ht h; simp_all
    · have := writeParts_breaks ht h; simp_all
  · have g1 := writeParts_refused ht h1
    have g2 := writeParts_breaks ht h2
    rw [g1] at g2
    cases g2

theorem authSize_ok (n : Nat) (b : Bytes) (h : 4 ≤ b.length) : ∃ b', marshalAuthSize n b = (.ok n, b') := by
  unfold marshalAuthSize
  simp only [marshalPrim, marshalBytes]
  have hl : (toBE 4 ((n - 4) % 2 ^ 32)).length = 4 := by simp [toBE]
  rw [if_pos (by rw [hl]; omega), copyPrefix, if_pos ⟨by rw [hl]; omega, rfl⟩]
  exact ⟨_, rfl⟩

theorem chain_stops (ss : List (LiveSession ω)) (hs : ∀ s ∈ ss, ∀ w v w', s.authCommand w = (some v, w') →
      HasTy TpmsAuthCommand v) : ∀ (n : Nat) (b : Bytes) (w : ω) (h : Ending) (w' : ω), 4 ≤ n → n ≤ b.length →
    ((chainL ss marshalAuthSize n b w).1.1 = h.tss ∧ (chainL ss marshalAuthSize n b w).2 = w' ↔
      AuthsStop ss (b.length - n) w h w') := by
  induction ss with
  | nil =>
    intro n b w h w' hn hb
    obtain ⟨b', e⟩ := authSize_ok n b (by omega)
    simp only [chainL, e]
    exact ⟨fun hh => absurd hh.1.symm (tss_ne h n), fun hh => nomatch hh⟩
  | cons s ss ih =>
    intro n b w h w' hn hb
    simp only [chainL, writeAuthL]
    rcases ha : s.authCommand w with ⟨_ | v, w1⟩
    · simp only [lthen]
      constructor
      · rintro ⟨h1, rfl⟩
        have : h = none := tss_inj (α := Nat) (h' := none) h1.symm
        subst this
        exact .panics ha
      · intro hh
        cases hh <;> simp_all [Ending.tss]
    · have hv := hs s List.mem_cons_self w v w1 ha
      obtain ⟨⟨r, b'⟩, e, hl, hc⟩ := auth_writes v hv n b hb
      dsimp only at hl hc
      have ex := stops_excl hv (space := b.length - n)
      simp only [e]
      rcases hc with ⟨g1, g2, rfl⟩ | ⟨g1, rfl⟩ | ⟨g1, rfl⟩
      · simp only [lthen]
        have hi := ih (fun s' h' => hs s' (List.mem_cons_of_mem _ h'))
          (n + (wire TpmsAuthCommand v).length) b' w1 h w' (by omega) (by omega)
        rw [hi, hl, Nat.sub_add_eq]
        constructor
        · exact fun hh => .later ha g1 g2 hh
        · intro hh
          cases hh with
          | panics h1 => simp [ha] at h1
          | refused h1 h2 =>
            simp only [ha, Prod.mk.injEq, Option.some.injEq] at h1
            obtain ⟨rfl, rfl⟩ := h1
            exact absurd h2 (ex.1 ⟨g1, g2⟩).1
          | breaks h1 h2 =>
            simp only [ha, Prod.mk.injEq, Option.some.injEq] at h1
            obtain ⟨rfl, rfl⟩ := h1
            exact absurd h2 (ex.1 ⟨g1, g2⟩).2
          | later h1 _ _ h2 =>
            simp only [ha, Prod.mk.injEq, Option.some.injEq] at h1
            obtain ⟨rfl, rfl⟩ := h1
            exact h2
      · simp only [lthen]
        constructor
        · rintro ⟨h1, rfl⟩
          have : h = some 0x904 := tss_inj (α := Nat) h1.symm
          subst this
          exact .refused ha g1
        · intro hh
          cases hh with
          | panics h1 => simp [ha] at h1
          | refused h1 h2 =>
            simp only [ha, Prod.mk.injEq, Option.some.injEq] at h1
            exact ⟨rfl, h1.2⟩
          | breaks h1 h2 =>
            simp only [ha, Prod.mk.injEq, Option.some.injEq] at h1
            obtain ⟨rfl, rfl⟩ := h1
            exact absurd ⟨g1, h2⟩ ex.2
          | later h1 h3 h4 _ =>
            simp only [ha, Prod.mk.injEq, Option.some.injEq] at h1
            obtain ⟨rfl, rfl⟩ := h1
            exact absurd g1 (ex.1 ⟨h3, h4⟩).1
      · simp only [lthen]
        constructor
        · rintro ⟨h1, rfl⟩
          have : h = none := tss_inj (α := Nat) h1.symm
          subst this
          exact .breaks ha g1
        · intro hh
          cases hh with
          | panics h1 => simp [ha] at h1
          | refused h1 h2 =>
            simp only [ha, Prod.mk.injEq, Option.some.injEq] at h1
            obtain ⟨rfl, rfl⟩ := h1
            exact absurd ⟨h2, g1⟩ ex.2
          | breaks h1 h2 =>
            simp only [ha, Prod.mk.injEq, Option.some.injEq] at h1
            exact ⟨rfl, h1.2⟩
          | later h1 h3 h4 _ =>
            simp only [ha, Prod.mk.injEq, Option.some.injEq] at h1
            obtain ⟨rfl, rfl⟩ := h1
            exact absurd g1 (ex.1 ⟨h3, h4⟩).2

theorem authSize_short (b : Bytes) (h : b.length < 4) : ∃ b', marshalAuthSize 4 b = (.err ⟨0x904⟩, b') := by
  unfold marshalAuthSize
  simp only [marshalPrim, marshalBytes]
  rw [if_neg (by simp [toBE]; omega)]
  exact ⟨_, rfl⟩

theorem area_stops (a : FreeArea ω) (ha : a.Typed) (b : Bytes) (w : ω) (h : Ending) (w' : ω) :
    ((writeCommandSessionsF a b w).1.1 = h.tss ∧ (writeCommandSessionsF a b w).2 = w') ↔
      AreaStops a b.length w h w' := by
  rw [writeCommandSessionsF_eq]
  rcases he : a.isEmpty w with ⟨_ | _ | _, w1⟩
  · dsimp only
    constructor
    · rintro ⟨h1, rfl⟩
      have : h = none := tss_inj (α := Nat) h1.symm
      subst this
      exact .isEmpty he
    · intro hh
      cases hh <;> simp_all [Ending.tss]
  · dsimp only
    rcases hd : a.decompose w1 with ⟨_ | d, w2⟩
    · dsimp only
      constructor
      · rintro ⟨h1, rfl⟩
        have : h = none := tss_inj (α := Nat) h1.symm
        subst this
        exact .decompose he hd
      · intro hh
        cases hh <;> simp_all [Ending.tss]
    · dsimp only
      have hty := ha w1 d w2 hd
      by_cases hb : 4 ≤ b.length
      · rw [chain_stops d.active hty 4 b w2 h w' (by omega) hb]
        constructor
        · exact fun hh => .auths he hd hb hh
        · intro hh
          cases hh with
          | isEmpty h1 => simp [he] at h1
          | decompose h1 h2 => simp only [he, Prod.mk.injEq, true_and] at h1; subst h1; simp [hd] at h2
          | noRoom _ _ _ h4 => omega
          | crash _ _ _ h4 _ => omega
          | auths h1 h2 _ h4 =>
            simp only [he, Prod.mk.injEq, true_and] at h1; subst h1
            simp only [hd, Prod.mk.injEq, Option.some.injEq] at h2
            obtain ⟨rfl, rfl⟩ := h2
            exact h4
      · rcases hac : d.active with _ | ⟨s, ss⟩
        · obtain ⟨b', e⟩ := authSize_short b (by omega)
          simp only [chainL, e]
          constructor
          · rintro ⟨h1, rfl⟩
            have : h = some 0x904 := tss_inj (α := Nat) h1.symm
            subst this
            exact .noRoom he hd hac (by omega)
          · intro hh
            cases hh with
            | isEmpty h1 => simp [he] at h1
            | decompose h1 h2 => simp only [he, Prod.mk.injEq, true_and] at h1; subst h1; simp [hd] at h2
            | noRoom h1 h2 _ _ =>
              simp only [he, Prod.mk.injEq, true_and] at h1; subst h1
              simp only [hd, Prod.mk.injEq] at h2
              exact ⟨rfl, h2.2⟩
            | crash h1 h2 h3 _ _ =>
              simp only [he, Prod.mk.injEq, true_and] at h1; subst h1
              simp only [hd, Prod.mk.injEq, Option.some.injEq] at h2
              obtain ⟨rfl, rfl⟩ := h2
              simp [hac] at h3
            | auths _ _ h3 _ => omega
        · have hx : ∃ w3 r, s.authCommand w2 = (r, w3) ∧
              chainL (s :: ss) marshalAuthSize 4 b w2 = ((.panic, b), w3) := by
            simp only [chainL, writeAuthL]
            rcases s.authCommand w2 with ⟨_ | v, w3⟩
            · exact ⟨w3, none, rfl, rfl⟩
            · refine ⟨w3, some v, rfl, ?_⟩
              simp only [tstep, if_neg (show ¬ 4 ≤ b.length from hb), lthen]
          obtain ⟨w3, r, e1, e2⟩ := hx
          rw [e2]
          dsimp only
          constructor
          · rintro ⟨h1, rfl⟩
            have : h = none := tss_inj (α := Nat) h1.symm
            subst this
            exact .crash he hd hac (by omega) e1
          · intro hh
            cases hh with
            | isEmpty h1 => simp [he] at h1
            | decompose h1 h2 => simp only [he, Prod.mk.injEq, true_and] at h1; subst h1; simp [hd] at h2
            | noRoom h1 h2 h3 _ =>
              simp only [he, Prod.mk.injEq, true_and] at h1; subst h1
              simp only [hd, Prod.mk.injEq, Option.some.injEq] at h2
              obtain ⟨rfl, rfl⟩ := h2
              simp [hac] at h3
            | crash h1 h2 h3 _ h5 =>
              simp only [he, Prod.mk.injEq, true_and] at h1; subst h1
              simp only [hd, Prod.mk.injEq, Option.some.injEq] at h2
              obtain ⟨rfl, rfl⟩ := h2
              simp only [hac, List.cons.injEq] at h3
              obtain ⟨rfl, rfl⟩ := h3
              simp only [e1, Prod.mk.injEq] at h5
              exact ⟨rfl, h5.2⟩
            | auths _ _ h3 _ => omega
  · dsimp only
    constructor
    · exact fun hh => absurd hh.1.symm (tss_ne h 0)
    · intro hh
      cases hh <;> simp_all

/-! ### Lemmas: the command -/

/-- What comes of composing the command, without the command. -/
def settled (x : Res TssError Bytes × ω) : Res TssError Unit × ω :=
  (match x.1 with | .ok _ => .ok () | .err e => .err e | .panic => .panic, x.2)

theorem settled_iff (x : Res TssError Bytes × ω) (h : Ending) (w : ω) :
    x = (h.tss, w) ↔ settled x = (h.tss, w) := by
  rcases x with ⟨x | e | _, w1⟩ <;> rcases h with _ | c <;> simp [settled, Ending.tss]

/-- Composing the command, step by step. -/
theorem settled_build (c : OwnCommand ω P H) (a : FreeArea ω) (ha : a.Typed) (hcode : c.code < 2 ^ 32)
    (w : ω) : settled (handOver (buildOwn c a w)) =
      match a.isEmpty w with
      | (none, w1) => (.panic, w1)
      | (some _, w1) =>
        match c.handles (List.replicate 4086 0) w1 with
        | ((.err e, _), w2) => (.err ⟨partNumber e⟩, w2)
        | ((.panic, _), w2) => (.panic, w2)
        | ((.ok n, hs), w2) =>
          if 4086 < n then (.panic, w2) else
          match writeCommandSessionsF a (hs.drop n) w2 with
          | ((.err e, _), w3) => (.err e, w3)
          | ((.panic, _), w3) => (.panic, w3)
          | ((.ok k, sub), w3) =>
            match c.param (sub.drop k) w3 with
            | ((.err e, _), w4) => (.err ⟨partNumber e⟩, w4)
            | ((.panic, _), w4) => (.panic, w4)
            | ((.ok j, _), w4) => if 4086 < n + k + j then (.panic, w4) else (.ok (), w4) := by
  unfold buildOwn
  rcases he : a.isEmpty w with ⟨_ | empty, w1⟩
  · rfl
  · dsimp only
    have hrl : (List.replicate cmdBufferSize (0 : UInt8)).length = 4096 := cmdBuf_length
    have hbuf : (List.replicate cmdBufferSize (0 : UInt8)).drop 10 = List.replicate 4086 0 := by
      rw [List.drop_replicate]; rfl
    rw [header_fit empty c.code 0 hcode (by decide) _ (by omega), lthen_of_ok, hbuf]
    have hH : (digits256 2 (if empty then 0x8001 else 0x8002) ++ digits256 4 0 ++
      digits256 4 c.code).length = 10 := by simp
    generalize digits256 2 (if empty then 0x8001 else 0x8002) ++ digits256 4 0 ++
      digits256 4 c.code = hd at hH
    have hl1 := c.handles_length (List.replicate 4086 0) w1
    rw [List.length_replicate] at hl1
    generalize List.replicate 4086 (0 : UInt8) = z at hl1
    have hz : 10 ≤ (hd ++ z).length := by rw [List.length_append]; omega
    have s1 : lstep (ownTss c.handles) 10 (hd ++ z) w1 =
        match c.handles z w1 with
        | ((.ok n, sub), w) => ((.ok (10 + n), hd ++ sub), w)
        | ((.err e, sub), w) => ((.err ⟨partNumber e⟩, hd ++ sub), w)
        | ((.panic, sub), w) => ((.panic, hd ++ sub), w) := by
      unfold lstep
      rw [if_pos hz, List.drop_left' hH, List.take_left' hH]
      unfold ownTss toTss
      rcases c.handles z w1 with ⟨⟨n | e | _, hs⟩, w2⟩ <;> simp [Res.mapErr, partNumber_tss]
    rw [s1]
    rcases hh : c.handles z w1 with ⟨⟨n | e | _, hs⟩, w2⟩ <;> rw [hh] at hl1
    · dsimp only at hl1 ⊢
      rw [lthen_of_ok]
      have hbl : (hd ++ hs).length = 4096 := by rw [List.length_append]; omega
      by_cases hn : 4086 < n
      · rw [if_pos hn, beyond_lstep _ _ _ _ _ (by omega) hbl]
        rfl
      · rw [if_neg hn]
        obtain ⟨c1, c2⟩ := cut_at (x := hd) (r := hs) (k := n) hH (by omega)
        have hsl : (hs.drop n).length = 4086 - n := by rw [List.length_drop, hl1]
        have hag := (lagrees_sessions (m := ⟨64, true⟩) (by decide) a ha (hs.drop n) w2 (by
          rw [hsl]; exact Nat.lt_of_le_of_lt (Nat.sub_le _ _) (by decide))).2
        have s2 : lstep (writeCommandSessionsF a) (10 + n) (hd ++ hs) w2 =
            match writeCommandSessionsF a (hs.drop n) w2 with
            | ((.ok k, sub), w) => ((.ok (10 + n + k), (hd ++ hs.take n) ++ sub), w)
            | ((.err e, sub), w) => ((.err e, (hd ++ hs.take n) ++ sub), w)
            | ((.panic, sub), w) => ((.panic, (hd ++ hs.take n) ++ sub), w) := by
          unfold lstep
          rw [if_pos (by omega), c1, List.drop_left' c2, List.take_left' c2]
          rcases writeCommandSessionsF a (hs.drop n) w2 with ⟨⟨k | e | _, sub⟩, w3⟩ <;> rfl
        rw [s2]
        rcases hs2 : writeCommandSessionsF a (hs.drop n) w2 with ⟨⟨k | e | _, sub⟩, w3⟩ <;>
          rw [hs2] at hag
        · dsimp only at hag ⊢
          rw [lthen_of_ok]
          have hk := hag.2 k rfl
          have hsub : sub.length = 4086 - n := by rw [hag.1, hsl]
          rw [hsl] at hk
          obtain ⟨d1, d2⟩ := cut_at (x := hd ++ hs.take n) (r := sub) (k := k) c2 (by omega)
          have hl3 := c.param_length (sub.drop k) w3
          rw [List.length_drop, hsub] at hl3
          have s3 : lstep (ownTss c.param) (10 + n + k) (hd ++ hs.take n ++ sub) w3 =
              match c.param (sub.drop k) w3 with
              | ((.ok j, ps), w) => ((.ok (10 + n + k + j), (hd ++ hs.take n ++ sub.take k) ++ ps), w)
              | ((.err e, ps), w) => ((.err ⟨partNumber e⟩, (hd ++ hs.take n ++ sub.take k) ++ ps), w)
              | ((.panic, ps), w) => ((.panic, (hd ++ hs.take n ++ sub.take k) ++ ps), w) := by
            unfold lstep
            rw [if_pos (by rw [List.length_append]; omega), d1, List.drop_left' d2, List.take_left' d2]
            unfold ownTss toTss
            rcases c.param (sub.drop k) w3 with ⟨⟨n | e | _, hs⟩, w2⟩ <;>
              simp [Res.mapErr, partNumber_tss]
          rw [s3]
          rcases hp : c.param (sub.drop k) w3 with ⟨⟨j | e | _, ps⟩, w4⟩ <;> rw [hp] at hl3
          · dsimp only at hl3 ⊢
            rw [lthen_of_ok]
            have hbl : (hd ++ hs.take n ++ sub.take k ++ ps).length = 4096 := by
              rw [List.length_append, d2]; omega
            generalize hd ++ hs.take n ++ sub.take k ++ ps = buf at hbl
            rw [header_fit empty c.code _ hcode (Nat.mod_lt _ (by decide)) _ (by omega), lthen_of_ok]
            generalize hx : digits256 2 (if empty then 0x8001 else 0x8002) ++
              digits256 4 ((10 + n + k + j) % 2 ^ 32) ++ digits256 4 c.code ++ buf.drop 10 = x
            have hxl : x.length = 4096 := by
              rw [← hx]
              simp only [List.length_append, digits256_length, List.length_drop]
              omega
            by_cases hj : 4086 < n + k + j
            · rw [if_pos hj]
              simp only [handOver, sliceTo, if_neg (show ¬ 10 + n + k + j ≤ x.length by omega), settled]
            · rw [if_neg hj]
              simp only [handOver, sliceTo, if_pos (show 10 + n + k + j ≤ x.length by omega), settled]
          · rfl
          · rfl
        · rfl
        · rfl
    · rfl
    · rfl

/-- What the area contributes, and the rest of the buffer. -/
theorem sessions_ok_iff (a : FreeArea ω) (ha : a.Typed) (b b' : Bytes) (w w' : ω) (n : Nat) :
    writeCommandSessionsF a b w = ((.ok n, b'), w') ↔
      ∃ auths, Contributes a w auths w' ∧ (∀ vs, auths = some vs → ∀ v ∈ vs, WF TpmsAuthCommand v) ∧
        (authBytes auths).length ≤ b.length ∧ n = (authBytes auths).length ∧
        b' = authBytes auths ++ b.drop (authBytes auths).length := by
  rw [sessionsF_ok_iff, authBytes_eq]
  constructor
  · rintro ⟨auths, g1, g2⟩
    have hg := g1.good ha
    exact ⟨auths, (contributes_iff _ _ _ _).2 g1, (sessionsP_ok_iff _ _ _ _ hg.1 hg.2).1 g2⟩
  · rintro ⟨auths, g1, g2⟩
    have g1 := (contributes_iff _ _ _ _).1 g1
    have hg := g1.good ha
    exact ⟨auths, g1, (sessionsP_ok_iff _ _ _ _ hg.1 hg.2).2 g2⟩

theorem build_stops (c : OwnCommand ω P H) (a : FreeArea ω) (ha : a.Typed) (hcode : c.code < 2 ^ 32)
    (w : ω) (h : Ending) (w' : ω) :
    handOver (buildOwn c a w) = (h.tss, w') ↔ BuildStops c a w h w' := by
  rw [settled_iff, settled_build c a ha hcode w]
  constructor
  · intro hr
    rcases he : a.isEmpty w with ⟨_ | empty, w1⟩ <;> rw [he] at hr
    · rcases h with _ | _ <;> simp [Ending.tss] at hr
      subst hr
      exact .isEmpty he
    · dsimp only at hr
      have hl1 := c.handles_length (List.replicate 4086 0) w1
      rw [List.length_replicate] at hl1
      rcases hh : c.handles (List.replicate 4086 0) w1 with ⟨⟨n | e | _, hs⟩, w2⟩ <;> rw [hh] at hr hl1
      · dsimp only at hr hl1
        by_cases hn : 4086 < n
        · rw [if_pos hn] at hr
          rcases h with _ | _ <;> simp [Ending.tss] at hr
          subst hr
          exact .handlesOver he hh hn
        · rw [if_neg hn] at hr
          have hsl : (hs.drop n).length = 4086 - n := by rw [List.length_drop, hl1]
          rcases hs2 : writeCommandSessionsF a (hs.drop n) w2 with ⟨⟨k | e | _, sub⟩, w3⟩ <;> rw [hs2] at hr
          · dsimp only at hr
            obtain ⟨auths, g1, g2, g3, rfl, rfl⟩ := (sessions_ok_iff a ha _ _ _ _ _).1 hs2
            rw [List.drop_left' rfl, List.drop_drop] at hr
            rw [hsl] at g3
            rcases hp : c.param (hs.drop (n + (authBytes auths).length)) w3 with ⟨⟨j | e | _, ps⟩, w4⟩ <;>
              rw [hp] at hr
            · dsimp only at hr
              split at hr
              · rcases h with _ | _ <;> simp [Ending.tss] at hr
                subst hr
                exact .paramsOver he hh g1 g2 (by omega) hp (by assumption)
              · rcases h with _ | _ <;> simp [Ending.tss] at hr
            · rcases h with _ | _ <;> simp [Ending.tss] at hr
              obtain ⟨rfl, rfl⟩ := hr
              exact .params he hh g1 g2 (by omega) hp
            · rcases h with _ | _ <;> simp [Ending.tss] at hr
              subst hr
              exact .paramsPanic he hh g1 g2 (by omega) hp
          · rcases h with _ | _ <;> simp [Ending.tss] at hr
            obtain ⟨rfl, rfl⟩ := hr
            refine .area he hh (by omega) ?_
            rw [← hsl, ← area_stops a ha, hs2]
            exact ⟨rfl, rfl⟩
          · rcases h with _ | _ <;> simp [Ending.tss] at hr
            subst hr
            refine .area he hh (by omega) ?_
            rw [← hsl, ← area_stops a ha, hs2]
            exact ⟨rfl, rfl⟩
      · rcases h with _ | _ <;> simp [Ending.tss] at hr
        obtain ⟨rfl, rfl⟩ := hr
        exact .handles he hh
      · rcases h with _ | _ <;> simp [Ending.tss] at hr
        subst hr
        exact .handlesPanic he hh
  · intro hh
    cases hh with
    | isEmpty h1 => rw [h1]; rfl
    | handles h1 h2 => rw [h1]; dsimp only; rw [h2]; rfl
    | handlesPanic h1 h2 => rw [h1]; dsimp only; rw [h2]; rfl
    | handlesOver h1 h2 h3 => rw [h1]; dsimp only; rw [h2]; dsimp only; rw [if_pos h3]; rfl
    | @area empty w1 n hs w2 _ _ h1 h2 h3 h4 =>
      rw [h1]; dsimp only; rw [h2]; dsimp only; rw [if_neg (by omega)]
      have hl1 := c.handles_length (List.replicate 4086 0) w1
      rw [List.length_replicate, h2] at hl1
      have hsl : (hs.drop n).length = 4086 - n := by
        rw [List.length_drop, show hs.length = 4086 from hl1]
      rw [← hsl, ← area_stops a ha] at h4
      rcases hs2 : writeCommandSessionsF a (hs.drop n) w2 with ⟨⟨k | e | _, sub⟩, w3⟩ <;> rw [hs2] at h4
      · exact absurd h4.1.symm (tss_ne h k)
      · rcases h with _ | _ <;> simp [Ending.tss] at h4 ⊢
        exact h4
      · rcases h with _ | _ <;> simp [Ending.tss] at h4 ⊢
        exact h4
    | @params empty w1 n hs w2 auths w3 e ps _ h1 h2 h3 h4 h5 h6 =>
      rw [h1]; dsimp only; rw [h2]; dsimp only; rw [if_neg (by omega)]
      have hl1 := c.handles_length (List.replicate 4086 0) w1
      rw [List.length_replicate, h2] at hl1
      have hsl : (hs.drop n).length = 4086 - n := by
        rw [List.length_drop, show hs.length = 4086 from hl1]
      rw [(sessions_ok_iff a ha (hs.drop n) _ w2 w3 _).2 ⟨auths, h3, h4, by omega, rfl, rfl⟩]
      dsimp only
      rw [List.drop_left' rfl, List.drop_drop, h6]
      rfl
    | @paramsPanic empty w1 n hs w2 auths w3 ps _ h1 h2 h3 h4 h5 h6 =>
      rw [h1]; dsimp only; rw [h2]; dsimp only; rw [if_neg (by omega)]
      have hl1 := c.handles_length (List.replicate 4086 0) w1
      rw [List.length_replicate, h2] at hl1
      have hsl : (hs.drop n).length = 4086 - n := by
        rw [List.length_drop, show hs.length = 4086 from hl1]
      rw [(sessions_ok_iff a ha (hs.drop n) _ w2 w3 _).2 ⟨auths, h3, h4, by omega, rfl, rfl⟩]
      dsimp only
      rw [List.drop_left' rfl, List.drop_drop, h6]
      rfl
    | @paramsOver empty w1 n hs w2 auths w3 m ps _ h1 h2 h3 h4 h5 h6 h7 =>
      rw [h1]; dsimp only; rw [h2]; dsimp only; rw [if_neg (by omega)]
      have hl1 := c.handles_length (List.replicate 4086 0) w1
      rw [List.length_replicate, h2] at hl1
      have hsl : (hs.drop n).length = 4086 - n := by
        rw [List.length_drop, show hs.length = 4086 from hl1]
      rw [(sessions_ok_iff a ha (hs.drop n) _ w2 w3 _).2 ⟨auths, h3, h4, by omega, rfl, rfl⟩]
      dsimp only
      rw [List.drop_left' rfl, List.drop_drop, h6]
      dsimp only
      rw [if_pos h7]
      rfl

/-! ### Lemmas: the response -/

theorem lbind_stops {α β : Type} (r : Res TssError α × ω) (k : α → ω → Res TssError β × ω) (h : Ending)
    (w' : ω) : lbind r k = (h.tss, w') ↔
      r = (h.tss, w') ∨ ∃ y w1, r = (.ok y, w1) ∧ k y w1 = (h.tss, w') := by
  rcases r with ⟨y | e | _, w1⟩
  · simp only [lbind, Prod.mk.injEq, Res.ok.injEq]
    constructor
    · exact fun hh => .inr ⟨y, w1, ⟨rfl, rfl⟩, hh⟩
    · rintro (⟨h1, -⟩ | ⟨_, _, ⟨rfl, rfl⟩, h2⟩)
      · exact absurd h1.symm (tss_ne h y)
      · exact h2
  · rcases h with _ | c <;> simp [lbind, Ending.tss]
  · rcases h with _ | c <;> simp [lbind, Ending.tss]

theorem tum_stops (t : Ty) (b : Bytes) (h : Ending) :
    tum t b = h.tss ↔ ∃ k, Faulty k t b ∧ h = some (faultNumber k) := by
  rcases h with _ | e
  · constructor
    · exact fun hh => absurd hh (tum_no_panic t b)
    · rintro ⟨_, _, hh⟩; simp at hh
  · simp only [Ending.tss, tum_err_iff, TssError.mk.injEq, Option.some.injEq]

theorem ownUm_stops {α : Type} (f : Bytes → ω → (Res MErr α × Bytes) × ω) (b : Bytes) (w w' : ω)
    (h : Ending) : ownUm f b w = (h.tss, w') ↔
      (∃ e r, f b w = ((.err e, r), w') ∧ h = some (partNumber e)) ∨
      (∃ r, f b w = ((.panic, r), w') ∧ h = none) := by
  unfold ownUm
  rcases hf : f b w with ⟨⟨v | e | _, r⟩, w1⟩
  · simp only [Prod.mk.injEq, false_and, exists_false, or_false, iff_false, reduceCtorEq]
    rintro ⟨h1, -⟩
    exact tss_ne h _ h1.symm
  · rcases h with _ | c <;> simp [Ending.tss, partNumber_tss]
    exact ⟨fun ⟨h1, h2⟩ => ⟨e, ⟨rfl, h2⟩, h1.symm⟩, fun ⟨_, ⟨h1, h2⟩, h3⟩ => ⟨by rw [h3, h1], h2⟩⟩
  · rcases h with _ | c <;> simp [Ending.tss]

theorem check_stops (ss : List (LiveSession ω)) : ∀ (b : Bytes) (w : ω) (h : Ending) (w' : ω),
    checkL ss b w = (h.tss, w') ↔ ReplyStops ss b w h w' := by
  induction ss with
  | nil =>
    intro b w h w'
    simp only [checkL, Prod.mk.injEq]
    exact ⟨fun hh => absurd hh.1.symm (tss_ne h b), fun hh => nomatch hh⟩
  | cons s ss ih =>
    intro b w h w'
    simp only [checkL, readAuthL, lbind_stops, ih]
    constructor
    · rintro ((h1 | ⟨⟨v, r⟩, w1, h1, (h2 | ⟨u, w2, h2, h3⟩)⟩) | ⟨y, w1, h1, h2⟩)
      · simp only [Prod.mk.injEq] at h1
        obtain ⟨h1, rfl⟩ := h1
        obtain ⟨k, hk, rfl⟩ := (tum_stops _ _ _).1 h1
        exact .malformed k hk
      · simp only [Prod.mk.injEq] at h1
        obtain ⟨h1, rfl⟩ := h1
        obtain ⟨e1, e2, rfl⟩ := (tum_ok_iff _ _ _ _).1 h1
        rcases h with _ | e
        · exact .panics e1 e2 h2
        · exact .refused (e := ⟨e⟩) e1 e2 h2
      · simp only [Prod.mk.injEq] at h3
        exact absurd h3.1.symm (tss_ne h _)
      · obtain ⟨⟨v, r⟩, w2, h3, h4⟩ := lbind_isOk h1
        simp only [Prod.mk.injEq] at h3
        obtain ⟨h3, rfl⟩ := h3
        obtain ⟨u, w3, h5, h6⟩ := lbind_isOk h4
        simp only [Prod.mk.injEq, Res.ok.injEq] at h6
        obtain ⟨rfl, rfl⟩ := h6
        obtain ⟨e1, e2, rfl⟩ := (tum_ok_iff _ _ _ _).1 h3
        exact .later e1 e2 h5 h2
    · intro hh
      cases hh with
      | malformed k hk => exact .inl (.inl (by rw [(tum_stops _ _ _).2 ⟨k, hk, rfl⟩]))
      | refused e1 e2 h2 =>
        exact .inl (.inr ⟨_, _, by rw [(tum_ok_iff _ _ _ _).2 ⟨e1, e2, rfl⟩], .inl h2⟩)
      | panics e1 e2 h2 =>
        exact .inl (.inr ⟨_, _, by rw [(tum_ok_iff _ _ _ _).2 ⟨e1, e2, rfl⟩], .inl h2⟩)
      | later e1 e2 h2 h3 =>
        refine .inr ⟨_, _, ?_, h3⟩
        rw [(tum_ok_iff _ _ _ _).2 ⟨e1, e2, rfl⟩, lbind_of_ok, h2, lbind_of_ok]

theorem sizeStep_stops (tag : Nat) (b : Bytes) (h : Ending) :
    (if tag = St.Sessions then (tum u32 b).map (·.2) else .ok b) = (h.tss : Res TssError Bytes) ↔
      tag = 0x8002 ∧ b.length < 4 ∧ h = some 0x904 := by
  rcases h with _ | e
  · simp only [reduceCtorEq, and_false, iff_false]
    intro hh
    split at hh
    · have := tum_no_panic u32 b
      rcases hu : tum u32 b with _ | _ | _ <;> rw [hu] at hh this <;> simp [Res.map, Ending.tss] at hh this
    · simp [Ending.tss] at hh
  · simp only [Ending.tss, sizeStep_err_iff, TssError.mk.injEq, Option.some.injEq]

theorem sessionsF_stops (a : FreeArea ω) (b : Bytes) (w w' : ω) (h : Ending) :
    readResponseSessionsF a b w = (h.tss, w') ↔
      (a.decompose w = (none, w') ∧ h = none) ∨
      ∃ d w1, a.decompose w = (some d, w1) ∧ ReplyStops d.active b w1 h w' := by
  unfold readResponseSessionsF
  rcases hd : a.decompose w with ⟨_ | d, w1⟩
  · rcases h with _ | e <;> simp [Ending.tss]
  · simp only [readResponseSessionsL_eq, check_stops, Prod.mk.injEq, reduceCtorEq, false_and, false_or,
      Option.some.injEq]
    exact ⟨fun hh => ⟨d, w1, ⟨rfl, rfl⟩, hh⟩, by rintro ⟨_, _, ⟨rfl, rfl⟩, hh⟩; exact hh⟩

theorem sessionsF_reads (a : FreeArea ω) (b r : Bytes) (w w' : ω) :
    readResponseSessionsF a b w = (.ok r, w') ↔
      ∃ d w1 xs, a.decompose w = (some d, w1) ∧ b = wires TpmsAuthResponse xs ++ r ∧
        (∀ v ∈ xs, WF TpmsAuthResponse v ∧ canon TpmsAuthResponse v = v) ∧ Accepts d.active xs w1 w' := by
  unfold readResponseSessionsF
  rcases hd : a.decompose w with ⟨_ | d, w1⟩
  · simp
  · simp only [readResponseSessionsL_eq, checkL_ok_iff, Prod.mk.injEq, Option.some.injEq]
    exact ⟨fun ⟨xs, hh⟩ => ⟨d, w1, xs, ⟨rfl, rfl⟩, hh⟩,
      by rintro ⟨_, _, xs, ⟨rfl, rfl⟩, hh⟩; exact ⟨xs, hh⟩⟩

theorem body_stops (c : OwnCommand ω P H) (a : FreeArea ω) (tag : Nat) (body : Bytes) (w w' : ω)
    (h : Ending) : readBodyOwn c a tag body w = (h.tss, w') ↔ BodyStops c a tag body w h w' := by
  simp only [readBodyOwn, lbind_stops]
  constructor
  · rintro (h1 | ⟨⟨y, r⟩, w1, h1, h2⟩)
    · rcases (ownUm_stops _ _ _ _ _).1 h1 with ⟨e, r, g, rfl⟩ | ⟨r, g, rfl⟩
      · exact .handles g
      · exact .handlesPanic g
    · have h1 := (ownUm_ok_iff _ _ _ _ _ _).1 h1
      rcases h2 with h2 | ⟨b1, w2, h2, h3⟩
      · simp only [Prod.mk.injEq] at h2
        obtain ⟨h2, rfl⟩ := h2
        obtain ⟨e1, e2, rfl⟩ := (sizeStep_stops _ _ _).1 h2
        exact .size h1 e1 e2
      · simp only [Prod.mk.injEq] at h2
        obtain ⟨h2, rfl⟩ := h2
        obtain ⟨n, hn, rfl⟩ := (sizeStep_ok_iff _ _ _).1 h2
        rcases h3 with h3 | ⟨⟨x, b2⟩, w3, h3, h4⟩
        · rcases (ownUm_stops _ _ _ _ _).1 h3 with ⟨e, r, g, rfl⟩ | ⟨r, g, rfl⟩
          · exact .params hn h1 g
          · exact .paramsPanic hn h1 g
        · have h3 := (ownUm_ok_iff _ _ _ _ _ _).1 h3
          rcases h4 with h4 | ⟨b3, w4, h4, h5⟩
          · rcases (sessionsF_stops _ _ _ _ _).1 h4 with ⟨g, rfl⟩ | ⟨d, w4, g, h5⟩
            · exact .decompose hn h1 h3 g
            · exact .auths hn h1 h3 g h5
          · obtain ⟨d, w5, xs, h6, rfl, h7, h8⟩ := (sessionsF_reads _ _ _ _ _).1 h4
            rcases b3 with _ | ⟨z, more⟩
            · simp only [List.isEmpty_nil, if_true, Prod.mk.injEq] at h5
              exact absurd h5.1.symm (tss_ne h _)
            · simp only [List.isEmpty_cons, Prod.mk.injEq, Bool.false_eq_true, if_false] at h5
              obtain ⟨h5, rfl⟩ := h5
              have : h = some 0x2010 := tss_inj (α := P × H) h5.symm
              subst this
              exact .surplus hn h1 h3 h6 h7 h8
  · intro hh
    cases hh with
    | handles h1 => exact .inl ((ownUm_stops _ _ _ _ _).2 (.inl ⟨_, _, h1, rfl⟩))
    | handlesPanic h1 => exact .inl ((ownUm_stops _ _ _ _ _).2 (.inr ⟨_, h1, rfl⟩))
    | size h1 e1 e2 =>
      exact .inr ⟨_, _, (ownUm_ok_iff _ _ _ _ _ _).2 h1, .inl (by
        rw [(sizeStep_stops _ _ _).2 ⟨e1, e2, rfl⟩])⟩
    | params hn h1 h3 =>
      exact .inr ⟨_, _, (ownUm_ok_iff _ _ _ _ _ _).2 h1, .inr ⟨_, _, by
        rw [(sizeStep_ok_iff _ _ _).2 ⟨_, hn, rfl⟩],
        .inl ((ownUm_stops _ _ _ _ _).2 (.inl ⟨_, _, h3, rfl⟩))⟩⟩
    | paramsPanic hn h1 h3 =>
      exact .inr ⟨_, _, (ownUm_ok_iff _ _ _ _ _ _).2 h1, .inr ⟨_, _, by
        rw [(sizeStep_ok_iff _ _ _).2 ⟨_, hn, rfl⟩],
        .inl ((ownUm_stops _ _ _ _ _).2 (.inr ⟨_, h3, rfl⟩))⟩⟩
    | decompose hn h1 h3 h4 =>
      exact .inr ⟨_, _, (ownUm_ok_iff _ _ _ _ _ _).2 h1, .inr ⟨_, _, by
        rw [(sizeStep_ok_iff _ _ _).2 ⟨_, hn, rfl⟩],
        .inr ⟨_, _, (ownUm_ok_iff _ _ _ _ _ _).2 h3, .inl ((sessionsF_stops _ _ _ _ _).2 (.inl ⟨h4, rfl⟩))⟩⟩⟩
    | auths hn h1 h3 h4 h5 =>
      exact .inr ⟨_, _, (ownUm_ok_iff _ _ _ _ _ _).2 h1, .inr ⟨_, _, by
        rw [(sizeStep_ok_iff _ _ _).2 ⟨_, hn, rfl⟩],
        .inr ⟨_, _, (ownUm_ok_iff _ _ _ _ _ _).2 h3,
          .inl ((sessionsF_stops _ _ _ _ _).2 (.inr ⟨_, _, h4, h5⟩))⟩⟩⟩
    | surplus hn h1 h3 h4 h5 h6 =>
      exact .inr ⟨_, _, (ownUm_ok_iff _ _ _ _ _ _).2 h1, .inr ⟨_, _, by
        rw [(sizeStep_ok_iff _ _ _).2 ⟨_, hn, rfl⟩],
        .inr ⟨_, _, (ownUm_ok_iff _ _ _ _ _ _).2 h3,
          .inr ⟨_, _, (sessionsF_reads _ _ _ _ _).2 ⟨_, _, _, h4, rfl, h5, h6⟩, rfl⟩⟩⟩⟩

theorem read_stops (c : OwnCommand ω P H) (a : FreeArea ω) (buf : Bytes) (hb : buf.length = 4096)
    (w w' : ω) (h : Ending) :
    readResponseOwn c a buf w = (h.tss, w') ↔ ReadStops c a w buf h w' := by
  constructor
  · intro hr
    obtain ⟨tag, size, rc, rest, h1, h2, h3, rfl⟩ := split_header buf (by omega)
    have hl : rest.length = 4086 := by
      simp only [List.length_append, digits256_length] at hb; omega
    rw [readResponseOwn_eq c a _ _ _ _ _ h1 h2 h3] at hr
    by_cases hrc : rc = 0
    · subst hrc
      rw [if_neg (by simp)] at hr
      by_cases hbig : 10 + rest.length < size
      · rw [if_pos hbig, Prod.mk.injEq] at hr
        obtain ⟨hr, rfl⟩ := hr
        have : h = some 0x2005 := tss_inj (α := P × H) hr.symm
        subst this
        exact .large h1 h2 (by omega)
      · rw [if_neg hbig] at hr
        by_cases hsmall : size < 10
        · rw [if_pos hsmall, Prod.mk.injEq] at hr
          obtain ⟨hr, rfl⟩ := hr
          have : h = none := tss_inj (α := P × H) hr.symm
          subst this
          exact .small h1 hsmall
        · rw [if_neg hsmall, body_stops] at hr
          have hsz : (rest.take (size - 10)).length = size - 10 := by rw [List.length_take]; omega
          have := ReadStops.body (rest := rest.drop (size - 10)) h1 hr
          rw [hsz, show 10 + (size - 10) = size by omega, List.append_assoc _ (rest.take _),
            List.take_append_drop] at this
          exact this
    · rw [if_pos hrc, Prod.mk.injEq] at hr
      obtain ⟨hr, rfl⟩ := hr
      have : h = some rc := tss_inj (α := P × H) hr.symm
      subst this
      exact .code h1 h2 h3 hrc
  · intro hh
    cases hh with
    | code h1 h2 h3 h4 => rw [readResponseOwn_eq c a _ _ _ _ _ h1 h2 h3, if_pos h4]; rfl
    | large h1 h2 h3 =>
      have hb' := hb
      simp only [List.length_append, digits256_length] at hb'
      rw [readResponseOwn_eq c a _ _ _ _ _ h1 h2 (by decide), if_neg (by simp), if_pos (by omega)]
      rfl
    | small h1 h2 =>
      rw [readResponseOwn_eq c a _ _ _ _ _ h1 (by omega) (by decide), if_neg (by simp),
        if_neg (by omega), if_pos h2]
      rfl
    | @body tag body rest _ _ h1 h2 =>
      have hb' := hb
      simp only [List.length_append, digits256_length] at hb'
      rw [List.append_assoc _ body, readResponseOwn_eq c a _ _ _ _ _ h1 (by omega) (by decide),
        if_neg (by simp), if_neg (by rw [List.length_append]; omega), if_neg (by omega),
        Nat.add_sub_cancel_left, List.take_left' rfl]
      exact (body_stops _ _ _ _ _ _ _).2 h2

end Verif.Client
