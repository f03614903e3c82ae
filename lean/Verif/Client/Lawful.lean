import Verif.Client.OwnProps
import Verif.Codec.OwnProps

/-!
Commands whose types are implemented by the caller, or derived over such types, in the way that is
documented: model, specification and helper lemmas for C113.
-/

namespace Verif.Client
open Verif Verif.Base Verif.Errors Verif.Own

variable {ω ε A B P H : Type}

/-- A command with these handles and parameters, whose types do not keep state:
crates/tpm2-client/src/lib.rs:145-153. -/
def commandOf (code : Nat) (ph : Part A) (h : A) (pp : Part B) (v : B) (qp : Part P) (qh : Part H) :
    OwnCommand ω P H where
  code := code
  handles b w := (ph.marshal h b, w)
  param b w := (pp.marshal v b, w)
  resp b w := (qp.unmarshal b, w)
  respHandles b w := (qh.unmarshal b, w)
  handles_length b _ := ph.keeps_length h b
  param_length b _ := pp.keeps_length v b

/-- The command that is sent: header, handles, authorizations and parameters. -/
def requestBytes (code : Nat) (sessions : Bool) (handles auths params : Bytes) : Bytes :=
  digits256 2 (if sessions then 0x8002 else 0x8001) ++
  digits256 4 (10 + handles.length + auths.length + params.length) ++ digits256 4 code ++
  handles ++ auths ++ params

/-- A successful response: header, response handles, the size of the parameters if the tag is the one
for sessions, parameters and authorizations. -/
def successBytes (tag paramSize : Nat) (handles params auths : Bytes) : Bytes :=
  let body := handles ++ (if tag = 0x8002 then digits256 4 paramSize else []) ++ params ++ auths
  digits256 2 tag ++ digits256 4 (10 + body.length) ++ digits256 4 0 ++ body

variable {code : Nat} {ph : Part A} {h : A} {pp : Part B} {v : B} {qp : Part P} {qh : Part H}
  {mh : Meaning A} {mp : Meaning B} {np : Meaning P} {nh : Meaning H}

theorem lawful_honest {α : Type} {p : Part α} {m : Meaning α} (hl : Lawful p m) (x : α)
    (hx : m.sound x) : Honest (ω := ω) (fun b w => (p.marshal x b, w)) (m.bytes x) := by
  intro b w
  refine ⟨fun hb => by dsimp only; rw [hl.writes x b hx hb], fun hb n b' w' e => ?_⟩
  exact hl.refuses x b n hx hb (congrArg (fun y => y.1.1) e)

/-- An outcome without panic, that leaves the state and counts bytes that are there. -/
def Safe (N : Nat) (o : LOut ω) (w : ω) : Prop :=
  o.2 = w ∧ o.1.1 ≠ .panic ∧ o.1.2.length = N ∧ ∀ m, o.1.1 = .ok m → m ≤ N

theorem lthen_safe {N : Nat} {o : LOut ω} {w : ω} {k : Nat → Bytes → ω → LOut ω} (ho : Safe N o w)
    (hk : ∀ m b, m ≤ N → b.length = N → Safe N (k m b w) w) : Safe N (lthen o k) w := by
  obtain ⟨⟨m | e | _, b⟩, w0⟩ := o
  · obtain ⟨rfl, -, h2, h3⟩ := ho
    exact hk m b (h3 m rfl) h2
  · obtain ⟨rfl, -, h2, -⟩ := ho
    exact ⟨rfl, by simp [lthen], h2, by simp [lthen]⟩
  · exact absurd rfl ho.2.1

theorem lstep_safe {f : Bytes → ω → LOut ω} {w : ω} {m : Nat} {b : Bytes}
    (hf : ∀ b : Bytes, Safe b.length (f b w) w) (hm : m ≤ b.length) :
    Safe b.length (lstep f m b w) w := by
  unfold lstep
  rw [if_pos hm]
  have := hf (b.drop m)
  rcases hfb : f (b.drop m) w with ⟨⟨n | e | _, sub⟩, w0⟩ <;> rw [hfb] at this <;> dsimp only
  · obtain ⟨rfl, -, h2, h3⟩ := this
    have h4 := h3 n rfl
    simp only [List.length_drop] at h2 h4
    refine ⟨rfl, by simp, ?_, ?_⟩
    · simp only [List.length_append, List.length_take]; omega
    · intro k hk
      cases hk
      omega
  · obtain ⟨rfl, -, h2, -⟩ := this
    simp only [List.length_drop] at h2
    exact ⟨rfl, by simp, by simp only [List.length_append, List.length_take]; omega, by simp⟩
  · exact absurd rfl this.2.1

theorem part_safe {α : Type} {p : Part α} {m : Meaning α} (hl : Lawful p m) (hc : Calm p m) (x : α)
    (hx : m.sound x) (b : Bytes) (w : ω) :
    Safe b.length (ownTss (fun b w => (p.marshal x b, w)) b w) w := by
  have h1 := p.keeps_length x b
  have h2 := hc x b hx
  by_cases hb : (m.bytes x).length ≤ b.length
  · have e := hl.writes x b hx hb
    simp only [ownTss, e, toTss, Res.mapErr]
    refine ⟨rfl, by simp, ?_, ?_⟩
    · simp only [List.length_append, List.length_drop]; omega
    · intro k hk
      cases hk
      exact hb
  · have h3 := hl.refuses x b
    rcases e : p.marshal x b with ⟨n | e' | _, b'⟩
    · rw [e] at h3; exact absurd rfl (h3 n hx (Nat.lt_of_not_le hb))
    · rw [e] at h1
      simp only [ownTss, e, toTss, Res.mapErr]
      exact ⟨rfl, by simp, h1, by simp⟩
    · rw [e] at h2; exact absurd rfl h2

theorem header_safe (code size : Nat) (hcode : code < 2 ^ 32) (hs : size < 2 ^ 32) {N : Nat} (hN : 10 ≤ N)
    {b : Bytes} (hb : b.length = N) (w : ω) :
    Safe N (toTss (marshal CmdHeader (cmdHeader true code size) b), w) w := by
  rw [header_fit true code size hcode hs b (by omega)]
  refine ⟨rfl, by simp, ?_, ?_⟩
  · simp only [List.length_append, digits256_length, List.length_drop]; omega
  · intro m hm
    cases hm
    exact hN

theorem build_safe (lh : Lawful ph mh) (lp : Lawful pp mp) (ch : Calm ph mh) (cp : Calm pp mp)
    (sh : mh.sound h) (sv : mp.sound v) (hcode : code < 2 ^ 32) (w : ω) :
    Safe 4096 (buildOwn (commandOf code ph h pp v qp qh : OwnCommand ω P H) free0 w) w := by
  have h0 : (List.replicate cmdBufferSize (0 : UInt8)).length = 4096 := cmdBuf_length
  unfold buildOwn
  refine lthen_safe (header_safe code 0 hcode (by omega) (by omega) h0 w) fun m b hm hb => ?_
  rw [← hb] at hm ⊢
  refine lthen_safe (lstep_safe (fun b => part_safe lh ch h sh b w) hm) fun m2 b2 hm2 hb2 => ?_
  rw [← hb2] at hm2 ⊢
  refine lthen_safe (lstep_safe (fun b => ?_) hm2) fun m3 b3 hm3 hb3 => ?_
  · exact ⟨rfl, by simp [writeCommandSessionsF, free0, FreeArea.provided], rfl, by
      intro m hm
      have : m = 0 := by
        simp [writeCommandSessionsF, free0, FreeArea.provided] at hm
        omega
      omega⟩
  rw [← hb3] at hm3 ⊢
  refine lthen_safe (lstep_safe (fun b => part_safe lp cp v sv b w) hm3) fun m4 b4 hm4 hb4 => ?_
  refine lthen_safe (header_safe code _ hcode (Nat.mod_lt _ (by decide)) (by omega) hb4 w)
    fun m5 b5 hm5 hb5 => ?_
  exact ⟨rfl, by simp, hb5, by intro m hm; cases hm; exact hm4⟩

/-- Ten bytes are a header. -/
theorem header_form (b : Bytes) (hb : 10 ≤ b.length) : ∃ tag size rc rest,
    b = digits256 2 tag ++ digits256 4 size ++ digits256 4 rc ++ rest ∧ tag < 65536 ∧ size < 2 ^ 32 ∧
      rc < 2 ^ 32 := by
  have e : ∀ (n : Nat) (x : Bytes), x.length = n → digits256 n (positional x) = x := by
    intro n x hx; subst hx; exact digits256_positional x
  have l : ∀ (n : Nat) (x : Bytes), x.length = n → positional x < 256 ^ n := by
    intro n x hx; subst hx; exact positional_lt x
  have l1 : (b.take 2).length = 2 := by rw [List.length_take]; omega
  have l2 : ((b.drop 2).take 4).length = 4 := by rw [List.length_take, List.length_drop]; omega
  have l3 : ((b.drop 6).take 4).length = 4 := by rw [List.length_take, List.length_drop]; omega
  refine ⟨positional (b.take 2), positional ((b.drop 2).take 4), positional ((b.drop 6).take 4), b.drop 10,
    ?_, l 2 _ l1, l 4 _ l2, l 4 _ l3⟩
  rw [e 2 _ l1, e 4 _ l2, e 4 _ l3]
  conv => lhs; rw [← List.take_append_drop 2 b, ← List.take_append_drop 4 (b.drop 2), List.drop_drop,
    ← List.take_append_drop 4 (b.drop 6), List.drop_drop]
  simp only [List.append_assoc]

theorem lbind_calm {α β : Type} {r : Res TssError α × ω} {k : α → ω → Res TssError β × ω}
    (hr : r.1 ≠ .panic) (hk : ∀ x w, (k x w).1 ≠ .panic) : (lbind r k).1 ≠ .panic := by
  obtain ⟨x | e | _, w⟩ := r
  · exact hk x w
  · simp [lbind]
  · exact absurd rfl hr

theorem ownUm_calm {α : Type} {p : Part α} {m : Meaning α} (hl : Lawful p m) (b : Bytes) (w : ω) :
    (ownUm (fun b w => (p.unmarshal b, w)) b w).1 ≠ .panic := by
  have := (hl.total b).1
  unfold ownUm
  rcases e : p.unmarshal b with ⟨_ | _ | _, _⟩ <;> rw [e] at this <;> simp_all

theorem body_calm (lqp : Lawful qp np) (lqh : Lawful qh nh) (tag : Nat) (b : Bytes) (w : ω) :
    (readBodyOwn (commandOf code ph h pp v qp qh : OwnCommand ω P H) free0 tag b w).1 ≠ .panic := by
  unfold readBodyOwn
  refine lbind_calm (ownUm_calm lqh b w) fun y w => lbind_calm ?_ fun b2 w =>
    lbind_calm (ownUm_calm lqp b2 w) fun x w => lbind_calm ?_ fun b3 w => ?_
  · dsimp only
    split
    · have h2 := ((Verif.goodTy u32).total y.2).1
      unfold tum
      rcases e2 : unmarshal u32 y.2 with ⟨_ | _ | _, _⟩ <;> rw [e2] at h2 <;> simp_all [Res.map]
    · simp
  · simp [readResponseSessionsF, free0, FreeArea.provided, readResponseSessionsL]
  · dsimp only
    split <;> simp

end Verif.Client
