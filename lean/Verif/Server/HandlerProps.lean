import Verif.Server.Handlers
import Verif.Server.Props

/-
Property theorems C105: the server with any handlers.
-/

namespace Verif.Server
open Verif Verif.Errors

variable {K D E : Type}

/-! ### Lemmas -/

theorem Writing.Writes.det {w : Writing K} {space out out' : Bytes} {r r' : Res TpmRcError Unit}
    {k k' : K} (h : w.Writes space out r k) (h' : w.Writes space out' r' k') :
    out = out' ∧ r = r' ∧ k = k' := by
  induction h generalizing out' r' k' with
  | done => cases h'; exact ⟨rfl, rfl, rfl⟩
  | @fits data next old rest out r k hl _ ih =>
    generalize hs : old ++ rest = s at h'
    cases h' with
    | fits hl' hw =>
      obtain ⟨rfl, rfl⟩ := List.append_inj hs (by omega)
      obtain ⟨rfl, rfl, rfl⟩ := ih hw
      exact ⟨rfl, rfl, rfl⟩
    | full hl' hw => rw [← hs, List.length_append] at hl'; omega
  | @full data next space out r k hl _ ih =>
    generalize hs : space = s at h'
    cases h' with
    | fits hl' hw => rw [hs, List.length_append] at hl; omega
    | full hl' hw => subst hs; exact ih hw
  | @filled size full fill keeps next old rest out r k hl _ ih =>
    generalize hs : old ++ rest = s at h'
    cases h' with
    | filled hl' hw =>
      obtain ⟨rfl, rfl⟩ := List.append_inj hs (by omega)
      obtain ⟨rfl, rfl, rfl⟩ := ih hw
      exact ⟨rfl, rfl, rfl⟩
    | refused hl' hw => rw [← hs, List.length_append] at hl'; omega
  | @refused size full fill keeps next space out r k hl _ ih =>
    generalize hs : space = s at h'
    cases h' with
    | filled hl' hw => rw [hs, List.length_append] at hl; omega
    | refused hl' hw => subst hs; exact ih hw

theorem Reading.Reads.det {rd : Reading K} {input : Bytes} {w w' : Writing K}
    (h : rd.Reads input w) (h' : rd.Reads input w') : w = w' := by
  induction h with
  | respond => cases h'; rfl
  | @u16 next b rest w hl _ ih =>
    generalize hs : b ++ rest = s at h'
    cases h' with
    | u16 hl' hw =>
      obtain ⟨rfl, rfl⟩ := List.append_inj hs (by omega)
      exact ih hw
    | no16 hl' hw => rw [← hs, List.length_append] at hl'; omega
  | @u32 next b rest w hl _ ih =>
    generalize hs : b ++ rest = s at h'
    cases h' with
    | u32 hl' hw =>
      obtain ⟨rfl, rfl⟩ := List.append_inj hs (by omega)
      exact ih hw
    | no32 hl' hw => rw [← hs, List.length_append] at hl'; omega
  | @no16 next input w hl _ ih =>
    generalize hs : input = s at h'
    cases h' with
    | u16 hl' hw => rw [hs, List.length_append] at hl; omega
    | no16 hl' hw => subst hs; exact ih hw
  | @no32 next input w hl _ ih =>
    generalize hs : input = s at h'
    cases h' with
    | u32 hl' hw => rw [hs, List.length_append] at hl; omega
    | no32 hl' hw => subst hs; exact ih hw

theorem setResponse_setResponse (bs : Buffers) (a b : Bytes) :
    (bs.setResponse a).setResponse b = bs.setResponse b := by
  cases bs <;> rfl

theorem setResponse_self (bs : Buffers) : bs.setResponse bs.response = bs := by
  cases bs <;> rfl

/-- Reading a number from the rest of the request. -/
theorem readBE_drop (bs : Buffers) (hv : bs.Valid) (o p n : Nat) (ho : o ≤ bs.request.length) :
    (∃ b rest, bs.request.drop o = b ++ rest ∧ b.length = n ∧ o + n ≤ bs.request.length ∧
      bs.request.drop (o + n) = rest ∧
      (⟨bs, o, p⟩ : Cursor).readBE n = (some (positional b), ⟨bs, o + n, p⟩)) ∨
    ((bs.request.drop o).length < n ∧ (⟨bs, o, p⟩ : Cursor).readBE n = (none, ⟨bs, o, p⟩)) := by
  rw [readBE_eq _ hv]
  simp only
  by_cases h : o + n ≤ bs.request.length
  · rw [if_pos h]
    refine .inl ⟨(bs.request.drop o).take n, (bs.request.drop o).drop n,
      (List.take_append_drop _ _).symm, ?_, h, ?_, rfl⟩
    · rw [List.length_take, List.length_drop]; omega
    · rw [List.drop_drop]
  · rw [if_neg h]
    exact .inr ⟨by rw [List.length_drop]; omega, rfl⟩

theorem reading_run (rd : Reading K) (bs : Buffers) (hv : bs.Valid) (o p : Nat)
    (ho : o ≤ bs.request.length) :
    ∃ w o', rd.Reads (bs.request.drop o) w ∧ rd.run ⟨bs, o, p⟩ = w.run ⟨bs, o', p⟩ := by
  induction rd generalizing o with
  | respond w => exact ⟨w, o, .respond, rfl⟩
  | u16 next ih =>
    rcases readBE_drop bs hv o p 2 ho with ⟨b, rest, hb, hl, ho', hr, he⟩ | ⟨hl, he⟩
    · obtain ⟨w, o', hw, hrun⟩ := ih (some (positional b)) (o + 2) ho'
      rw [hr] at hw
      exact ⟨w, o', by rw [hb]; exact .u16 hl hw, by rw [Reading.run, he]; exact hrun⟩
    · obtain ⟨w, o', hw, hrun⟩ := ih none o ho
      exact ⟨w, o', .no16 hl hw, by rw [Reading.run, he]; exact hrun⟩
  | u32 next ih =>
    rcases readBE_drop bs hv o p 4 ho with ⟨b, rest, hb, hl, ho', hr, he⟩ | ⟨hl, he⟩
    · obtain ⟨w, o', hw, hrun⟩ := ih (some (positional b)) (o + 4) ho'
      rw [hr] at hw
      exact ⟨w, o', by rw [hb]; exact .u32 hl hw, by rw [Reading.run, he]; exact hrun⟩
    · obtain ⟨w, o', hw, hrun⟩ := ih none o ho
      exact ⟨w, o', .no32 hl hw, by rw [Reading.run, he]; exact hrun⟩

theorem writing_run (w : Writing K) (bs : Buffers) (o p : Nat) (hp : p ≤ bs.response.length) :
    ∃ out r k, w.Writes (bs.response.drop p) out r k ∧ p + out.length ≤ bs.response.length ∧
      w.run ⟨bs, o, p⟩ = (r, ⟨bs.setResponse
        (bs.response.take p ++ out ++ bs.response.drop (p + out.length)), o, p + out.length⟩, k) := by
  induction w generalizing bs p with
  | done r k =>
    refine ⟨[], r, k, .done, by simpa using hp, ?_⟩
    simp only [Writing.run, List.append_nil, List.length_nil, Nat.add_zero,
      List.take_append_drop, setResponse_self]
  | write data next ih =>
    by_cases h : p + data.length ≤ bs.response.length
    · have hlen : (bs.response.take p ++ data ++
          bs.response.drop (p + data.length)).length = bs.response.length := by
        simp; omega
      obtain ⟨out, r, k, hw, hl, hrun⟩ := ih true (bs.setResponse (bs.response.take p ++ data ++
        bs.response.drop (p + data.length))) (p + data.length)
        (by rw [setResponse_response, hlen]; exact h)
      rw [setResponse_response, hlen] at hl
      rw [setResponse_response, List.drop_left' (by simp; omega)] at hw
      rw [setResponse_response, setResponse_setResponse,
        List.take_left' (by simp; omega)] at hrun
      refine ⟨data ++ out, r, k, ?_, by simp; omega, ?_⟩
      · have hd : bs.response.drop p = (bs.response.drop p).take data.length ++
            bs.response.drop (p + data.length) := by
          rw [← List.drop_drop, List.take_append_drop]
        rw [hd]
        exact .fits (by simp; omega) hw
      · simp only [Writing.run, Cursor.write, write_of_le h]
        rw [hrun, ← List.drop_drop (i := out.length) (j := p + data.length),
          List.drop_left' (by simp; omega), List.drop_drop]
        simp only [List.append_assoc, List.length_append, Nat.add_assoc]
    · obtain ⟨out, r, k, hw, hl, hrun⟩ := ih false bs p hp
      refine ⟨out, r, k, .full (by simp; omega) hw, hl, ?_⟩
      simp only [Writing.run, Cursor.write, Server.write, if_neg h]
      exact hrun
  | callback size full fill keeps next ihf ihn =>
    by_cases h : p + size ≤ bs.response.length
    · have hold : ((bs.response.drop p).take size).length = size := by simp; omega
      have hnew : (fill ((bs.response.drop p).take size)).length = size := by rw [keeps, hold]
      have hlen : (bs.response.take p ++ fill ((bs.response.drop p).take size) ++
          bs.response.drop (p + size)).length = bs.response.length := by
        simp [hnew]; omega
      obtain ⟨out, r, k, hw, hl, hrun⟩ := ihn ((bs.response.drop p).take size)
        (bs.setResponse (bs.response.take p ++ fill ((bs.response.drop p).take size) ++
          bs.response.drop (p + size))) (p + size)
        (by rw [setResponse_response, hlen]; exact h)
      rw [setResponse_response, hlen] at hl
      rw [setResponse_response, List.drop_left' (by simp [hnew]; omega)] at hw
      rw [setResponse_response, setResponse_setResponse,
        List.take_left' (by simp [hnew]; omega)] at hrun
      refine ⟨fill ((bs.response.drop p).take size) ++ out, r, k, ?_, by simp [hnew]; omega, ?_⟩
      · have hd : bs.response.drop p = (bs.response.drop p).take size ++
            bs.response.drop (p + size) := by
          rw [← List.drop_drop, List.take_append_drop]
        conv => arg 2; rw [hd]
        exact .filled hold hw
      · simp only [Writing.run, Cursor.writeCallback, Server.writeCallback, if_pos h]
        rw [hrun, ← List.drop_drop (i := out.length) (j := p + size),
          List.drop_left' (by simp [hnew]; omega), List.drop_drop]
        simp only [List.append_assoc, List.length_append, hnew, Nat.add_assoc]
    · obtain ⟨out, r, k, hw, hl, hrun⟩ := ihf bs p hp
      refine ⟨out, r, k, .refused (by simp; omega) hw, hl, ?_⟩
      simp only [Writing.run, Cursor.writeCallback, Server.writeCallback, if_neg h]
      exact hrun

theorem mute_run (w : Writing K) (bs : Buffers) (o p : Nat) (hp : bs.response.length < p) :
    ∃ r k, w.Mute r k ∧ w.run ⟨bs, o, p⟩ = (r, ⟨bs, o, p⟩, k) := by
  induction w with
  | done r k => exact ⟨r, k, .done, rfl⟩
  | write data next ih =>
    obtain ⟨r, k, hm, hr⟩ := ih false
    refine ⟨r, k, .write hm, ?_⟩
    have h : ¬ p + data.length ≤ bs.response.length := by omega
    simp only [Writing.run, Cursor.write, Server.write, if_neg h]
    exact hr
  | callback size full fill keeps next ihf ihn =>
    obtain ⟨r, k, hm, hr⟩ := ihf
    refine ⟨r, k, .callback hm, ?_⟩
    have h : ¬ p + size ≤ bs.response.length := by omega
    simp only [Writing.run, Cursor.writeCallback, Server.writeCallback, if_neg h]
    exact hr

/-- What happens up to the handler. -/
theorem executeCommandWith_eq (h : Handlers K) (k : K) (bs : Buffers) (hv : bs.Valid) :
    executeCommandWith h k bs =
      if ¬ WellSized bs.request then (.err .CommandSize, bs.response, k)
      else match h (field bs.request 6 4) with
        | none => (.err .CommandCode, bs.response, k)
        | some f =>
          match (f k).run ⟨bs, 10, 10⟩ with
          | (.ok (), c, k) => ((finish c).1, (finish c).2, k)
          | (.err e, c, k) => (.err e, c.buffers.response, k)
          | (.panic, c, k) => (.panic, c.buffers.response, k) := by
  unfold executeCommandWith
  simp only
  rw [readBE_eq _ hv]
  simp only [Nat.zero_add]
  by_cases h2 : 2 ≤ bs.request.length
  case neg => rw [if_neg h2, if_pos (by intro h; have := h.1; omega)]
  rw [if_pos h2]
  simp only
  rw [readBE_eq _ hv]
  simp only
  by_cases h6 : 6 ≤ bs.request.length
  case neg => rw [if_neg h6, if_pos (by intro h; have := h.1; omega)]
  rw [if_pos h6]
  simp only
  rw [requestLen_eq _ hv]
  by_cases hs : field bs.request 2 4 = bs.request.length
  case neg => rw [if_pos hs, if_pos (by intro h; exact hs h.2)]
  rw [if_neg (by simpa using hs), readBE_eq _ hv]
  simp only
  by_cases h10 : 10 ≤ bs.request.length
  case neg => rw [if_neg h10, if_pos (by intro h; have := h.1; omega)]
  rw [if_pos h10, if_neg (fun hn => hn ⟨h10, hs⟩)]
  simp only
  cases h (field bs.request 6 4) <;> rfl

theorem fillError_long (b : Bytes) (e : TpmRcError) (hl : 10 ≤ b.length) :
    fillError b e = (10, b.take 6 ++ digits256 4 e.code ++ b.drop 10) := by
  have l4 : (toBE 4 e.code).length = 4 := by rw [toBE_eq_digits256]; simp
  unfold fillError
  rw [write_of_le (by omega), toBE_eq_digits256]
  simp

theorem answered (h : Handlers K) (k : K) (bs : Buffers) (hv : bs.Valid)
    (hl : 10 ≤ bs.response.length) :
    let r := completeWith (executeCommandWith h k bs)
    Answered h k bs.request (bs.response.take 10) (bs.response.drop 10) r.1 r.2.1 r.2.2 := by
  simp only
  have ht : bs.response.take 6 = (bs.response.take 10).take 6 := by rw [List.take_take]; rfl
  rw [executeCommandWith_eq h k bs hv]
  by_cases hw : WellSized bs.request
  case neg =>
    rw [if_pos hw]
    simp only [completeWith, fillError_long _ _ hl, ht]
    exact .size hw
  rw [if_neg (fun hn => hn hw)]
  cases hh : h (field bs.request 6 4) with
  | none =>
    simp only [completeWith, fillError_long _ _ hl, ht]
    exact .code hw hh
  | some f =>
    obtain ⟨w, o, hr, hrun⟩ := reading_run (f k) bs hv 10 10 hw.1
    obtain ⟨out, r, k', hwr, hle, hwrun⟩ := writing_run w bs o 10 hl
    simp only [hrun, hwrun]
    have hlen : (bs.response.take 10 ++ out ++ bs.response.drop (10 + out.length)).length =
        bs.response.length := by simp; omega
    have hd : bs.response.drop (10 + out.length) = (bs.response.drop 10).drop out.length := by
      rw [List.drop_drop]
    cases r with
    | ok u =>
      simp only
      rw [finish_eq _ _ _ _ (setResponse_response _ _) (by rw [hlen]; exact hl)]
      have := Answered.success (hdr := bs.response.take 10) hw hh hr hwr
      simp only [completeWith]
      rw [List.append_assoc (bs.response.take 10), List.drop_left' (by simp; omega), hd]
      unfold responseOf at this
      simpa only [List.append_assoc] using this
    | err e =>
      simp only [completeWith, setResponse_response]
      rw [fillError_long _ _ (by rw [hlen]; exact hl), List.append_assoc (bs.response.take 10),
        List.drop_left' (by simp; omega), List.take_append_of_le_length (by simp; omega), hd,
        ← List.append_assoc _ out]
      exact .error hw hh hr hwr
    | panic =>
      simp only [completeWith, setResponse_response]
      rw [hd]
      exact .panic hw hh hr hwr

theorem Answered.det {h : Handlers K} {k k1 k2 : K} {req hdr space b1 b2 : Bytes}
    {n1 n2 : Option Nat} (h1 : Answered h k req hdr space n1 b1 k1)
    (h2 : Answered h k req hdr space n2 b2 k2) : n1 = n2 ∧ b1 = b2 ∧ k1 = k2 := by
  have both : ∀ {f f' w w' out out' r r' k1 k2}, h (field req 6 4) = some f →
      h (field req 6 4) = some f' → (f k).Reads (req.drop 10) w → (f' k).Reads (req.drop 10) w' →
      w.Writes space out r k1 → w'.Writes space out' r' k2 → out = out' ∧ r = r' ∧ k1 = k2 := by
    intro f f' w w' out out' r r' k1 k2 e e' hr hr' hw hw'
    rw [e] at e'
    injection e' with e'
    subst e'
    have := hr.det hr'
    subst this
    exact hw.det hw'
  cases h1 with
  | size a => cases h2 with
    | size => exact ⟨rfl, rfl, rfl⟩
    | code b => exact absurd b a
    | success b => exact absurd b a
    | error b => exact absurd b a
    | panic b => exact absurd b a
  | code a c => cases h2 with
    | size b => exact absurd a b
    | code => exact ⟨rfl, rfl, rfl⟩
    | success _ b => rw [c] at b; cases b
    | error _ b => rw [c] at b; cases b
    | panic _ b => rw [c] at b; cases b
  | success a c d e => cases h2 with
    | size b => exact absurd a b
    | code _ b => rw [b] at c; cases c
    | success _ c' d' e' =>
      obtain ⟨rfl, -, rfl⟩ := both c c' d d' e e'
      exact ⟨rfl, rfl, rfl⟩
    | error _ c' d' e' => have := (both c c' d d' e e').2.1; cases this
    | panic _ c' d' e' => have := (both c c' d d' e e').2.1; cases this
  | error a c d e => cases h2 with
    | size b => exact absurd a b
    | code _ b => rw [b] at c; cases c
    | success _ c' d' e' => have := (both c c' d d' e e').2.1; cases this
    | error _ c' d' e' =>
      obtain ⟨rfl, he, rfl⟩ := both c c' d d' e e'
      cases he
      exact ⟨rfl, rfl, rfl⟩
    | panic _ c' d' e' => have := (both c c' d d' e e').2.1; cases this
  | panic a c d e => cases h2 with
    | size b => exact absurd a b
    | code _ b => rw [b] at c; cases c
    | success _ c' d' e' => have := (both c c' d d' e e').2.1; cases this
    | error _ c' d' e' => have := (both c c' d d' e e').2.1; cases this
    | panic _ c' d' e' =>
      obtain ⟨rfl, -, rfl⟩ := both c c' d d' e e'
      exact ⟨rfl, rfl, rfl⟩

/-! ### C105 -/

/-- **C105**: with any handlers, the answer to any request is the one specified: the handler of
the command code reads the request behind the header in order, what it writes stands in order
behind the header of the response, and tag, size and code are in front if it succeeds.  If it
fails, its error is at the place of the code. -/
theorem C105_separate (h : Handlers K) (k k' : K) (req hdr space b : Bytes) (n : Option Nat)
    (hl : hdr.length = 10) :
    executeSeparateWith h k req (hdr ++ space) = (n, b, k') ↔
      Answered h k req hdr space n b k' := by
  have ha := answered h k (.separate req (hdr ++ space)) trivial
    (by simp only [Buffers.response, List.length_append]; omega)
  simp only [Buffers.request, Buffers.response, List.take_left' hl, List.drop_left' hl] at ha
  constructor
  · intro he
    unfold executeSeparateWith at he
    rw [he] at ha
    exact ha
  · intro h2
    obtain ⟨h3, h4, h5⟩ := ha.det h2
    exact Prod.ext h3 (Prod.ext h4 h5)

/-- **C105**: in place, the answer is the one to a copy of the request, with any handlers:
nothing a handler writes can be read as a request. -/
theorem C105_in_place (h : Handlers K) (k : K) (b : Bytes) (size : Nat) :
    executeInPlaceWith h k b size = executeSeparateWith h k (b.take size) b := by
  unfold executeInPlaceWith executeSeparateWith
  rw [executeCommandWith_eq h k _ (newInOut_valid b size),
    executeCommandWith_eq h k (.separate (b.take size) b) trivial, newInOut_request]
  have hr : (Buffers.newInOut b size).response = b := rfl
  have hr' : (Buffers.separate (b.take size) b).response = b := rfl
  have hq : (Buffers.separate (b.take size) b).request = b.take size := rfl
  rw [hr, hr', hq]
  by_cases hw : WellSized (b.take size)
  case neg => rw [if_pos hw, if_pos hw]
  rw [if_neg (fun hn => hn hw), if_neg (fun hn => hn hw)]
  cases hh : h (field (b.take size) 6 4) with
  | none => rfl
  | some f =>
    obtain ⟨w, o, h1, h2⟩ := reading_run (f k) (Buffers.newInOut b size) (newInOut_valid b size)
      10 10 (by rw [newInOut_request]; exact hw.1)
    obtain ⟨w', o', h1', h2'⟩ := reading_run (f k) (.separate (b.take size) b) trivial
      10 10 hw.1
    rw [newInOut_request] at h1
    have := h1.det h1'
    subst this
    simp only [h2, h2']
    by_cases hl : 10 ≤ b.length
    · obtain ⟨out, r, k1, a1, a2, a3⟩ := writing_run w (Buffers.newInOut b size) o 10 hl
      obtain ⟨out', r', k1', b1, b2, b3⟩ := writing_run w (.separate (b.take size) b) o' 10 hl
      obtain ⟨rfl, rfl, rfl⟩ := a1.det b1
      rw [a3, b3]
      cases r <;> rfl
    · obtain ⟨r, k1, a1, a2⟩ := mute_run w (Buffers.newInOut b size) o 10
        (by rw [hr]; omega)
      obtain ⟨r', k1', b1, b2⟩ := mute_run w (.separate (b.take size) b) o' 10
        (by rw [hr']; omega)
      have : r = r' ∧ k1 = k1' := by
        clear a2 b2 h1 h1' h2 h2'
        induction a1 with
        | done => cases b1; exact ⟨rfl, rfl⟩
        | write _ ih => cases b1 with | write h => exact ih h
        | callback _ ih => cases b1 with | callback h => exact ih h
      obtain ⟨rfl, rfl⟩ := this
      rw [a2, b2]
      cases r <;> rfl

/-- **C105**: with a response buffer too short for a header, handlers cannot write; the size is
zero, whatever they return, and only bytes of the header are changed. -/
theorem C105_short (h : Handlers K) (k : K) (req rsp : Bytes) (hl : rsp.length < 10) :
    let r := executeSeparateWith h k req rsp
    (r.1 = some 0 ∨ r.1 = none) ∧ r.2.1.length = rsp.length ∧ r.2.1.drop 6 = rsp.drop 6 ∧
    (∀ f w, WellSized req → h (field req 6 4) = some f → (f k).Reads (req.drop 10) w →
      ∃ x, w.Mute x r.2.2 ∧ (r.1 = none ↔ x = .panic)) := by
  simp only
  have l4 : ∀ x, (toBE 4 x).length = 4 := by intro x; rw [toBE_eq_digits256]; simp
  have hfe : ∀ (b : Bytes) (e : TpmRcError), b.length < 10 → fillError b e = (0, b) := by
    intro b e hb
    unfold fillError Server.write
    rw [if_neg (by rw [l4]; omega)]
  unfold executeSeparateWith
  rw [executeCommandWith_eq h k (.separate req rsp) trivial]
  have hq : (Buffers.separate req rsp).request = req := rfl
  have hr : (Buffers.separate req rsp).response = rsp := rfl
  rw [hq, hr]
  by_cases hw : WellSized req
  case neg =>
    rw [if_pos hw]
    simp only [completeWith, hfe _ _ hl]
    exact ⟨by simp, by simp, by simp, fun f w h1 => absurd h1 hw⟩
  rw [if_neg (fun hn => hn hw)]
  cases hh : h (field req 6 4) with
  | none =>
    simp only [completeWith, hfe _ _ hl]
    exact ⟨by simp, by simp, by simp, fun f w _ h1 => by cases h1⟩
  | some f =>
    obtain ⟨w, o, h1, h2⟩ := reading_run (f k) (.separate req rsp) trivial 10 10 hw.1
    obtain ⟨r, k1, a1, a2⟩ := mute_run w (.separate req rsp) o 10 hl
    simp only [h2, a2]
    have key : ∀ f' w', WellSized req → some f = some f' → (f' k).Reads (req.drop 10) w' →
        w'.Mute r k1 := by
      intro f' w' _ hf hr'
      injection hf with hf
      subst hf
      have := h1.det hr'
      subst this
      exact a1
    cases r with
    | panic =>
      exact ⟨by simp [completeWith], by simp [completeWith, hr], by simp [completeWith, hr],
        fun f' w' x y z => ⟨_, key f' w' x y z, by simp [completeWith]⟩⟩
    | err e =>
      simp only [completeWith, hr, hfe _ _ hl]
      exact ⟨by simp, by simp, by simp,
        fun f' w' x y z => ⟨_, key f' w' x y z, by simp⟩⟩
    | ok u =>
      have hfin : ∃ b : Bytes, finish ⟨.separate req rsp, o, 10⟩ = (.err .Memory, b) ∧
          b.length = rsp.length ∧ b.drop 6 = rsp.drop 6 := by
        unfold finish
        simp only [hr]
        unfold Server.write
        have l2 : (toBE 2 0x8001).length = 2 := by decide
        by_cases c2 : 2 ≤ rsp.length
        · rw [if_pos (by rw [l2]; omega)]
          simp only
          generalize hb : rsp.take 0 ++ toBE 2 0x8001 ++ rsp.drop (0 + (toBE 2 0x8001).length) = b
          have hbl : b.length = rsp.length := by rw [← hb]; simp [l2]; omega
          have hbd : b.drop 2 = rsp.drop 2 := by
            rw [← hb, List.take_zero, List.nil_append, List.drop_left' l2, l2]
          have hbd6 : b.drop 6 = rsp.drop 6 := by
            have e : ∀ x : Bytes, x.drop 6 = (x.drop 2).drop 4 := by
              intro x; rw [List.drop_drop]
            rw [e, e, hbd]
          by_cases c6 : 6 ≤ rsp.length
          · rw [if_pos (by rw [l4]; omega)]
            simp only
            generalize hd : b.take 2 ++ toBE 4 10 ++ b.drop (2 + (toBE 4 10).length) = d
            have hdl : d.length = rsp.length := by rw [← hd]; simp [l4]; omega
            rw [if_neg (by rw [l4]; omega)]
            refine ⟨d, rfl, hdl, ?_⟩
            rw [← hd, List.drop_left' (by simp [l4]; omega), l4, ← hbd6]
          · rw [if_neg (by rw [l4]; omega)]
            exact ⟨b, rfl, hbl, hbd6⟩
        · rw [if_neg (by rw [l2]; omega)]
          exact ⟨rsp, rfl, rfl, rfl⟩
      obtain ⟨b, hb1, hb2, hb3⟩ := hfin
      simp only [hb1, completeWith, hfe b _ (by omega)]
      exact ⟨by simp, hb2, hb3, fun f' w' x y z => ⟨_, key f' w' x y z, by simp⟩⟩

/-- **C105**: the server of the crate is the one with the handler of `GetRandom` alone. -/
theorem C105_crate (g : Drbg D) (es : Entropy E) (k : Crypto D E) :
    (∀ req rsp, executeSeparate g es k req rsp =
      executeSeparateWith (crateHandlers g es) k req rsp) ∧
    ∀ b size, executeInPlace g es k b size = executeInPlaceWith (crateHandlers g es) k b size := by
  have hget : ∀ c : Cursor, getRandom g es k c = (getRandomHandler g es k).run c := by
    intro c
    unfold getRandom getRandomHandler
    simp only [Reading.run]
    rcases hc : c.readBE 2 with ⟨_ | n, c1⟩
    · rfl
    · simp only [Reading.run, Writing.run, Cursor.writeCallback, Server.writeCallback]
      by_cases hl : c1.responseOffset + n ≤ c1.buffers.response.length
      · rw [if_pos hl, if_pos hl]
      · rw [if_neg hl, if_neg hl]
  have hx : ∀ bs, complete (executeCommand g es k bs) =
      completeWith (executeCommandWith (crateHandlers g es) k bs) := by
    intro bs
    have : executeCommand g es k bs = executeCommandWith (crateHandlers g es) k bs := by
      unfold executeCommand executeCommandWith
      simp only
      rcases (⟨bs, 0, 10⟩ : Cursor).readBE 2 with ⟨_ | _, c1⟩
      · rfl
      simp only
      rcases c1.readBE 4 with ⟨_ | size, c2⟩
      · rfl
      simp only
      by_cases hs : size = bs.requestLen
      case neg => rw [if_pos hs, if_pos hs]
      rw [if_neg (fun hn => hn hs), if_neg (fun hn => hn hs)]
      rcases c2.readBE 4 with ⟨_ | code, c3⟩
      · rfl
      simp only
      by_cases hc : code = 0x17B
      · simp only [if_pos hc, crateHandlers, hget]
        rcases (getRandomHandler g es k).run c3 with ⟨_ | _ | _, c4, k4⟩ <;> rfl
      · simp only [if_neg hc, crateHandlers]
    rw [this]
    rcases executeCommandWith (crateHandlers g es) k bs with ⟨_ | _ | _, b, k'⟩ <;> rfl
  exact ⟨fun req rsp => hx _, fun b size => hx _⟩

/-! ### Examples -/

/-- A command that reads two numbers, writes the second and then fills as many bytes as the
first says with what is there plus one; it counts its uses. -/
def exHandler (k : Nat) : Reading Nat :=
  .u16 fun
    | none => .respond (.done (.err .CommandSize) k)
    | some n => .u32 fun
      | none => .respond (.done (.err .CommandSize) k)
      | some x => .respond (.write (digits256 4 x) fun
        | false => .done (.err .Memory) k
        | true => .callback n (.done (.err .Memory) (k + 1)) (fun b => b.map (· + 1))
            (by simp) fun _ => .done (.ok ()) (k + 1))

/-- Handlers with this command. -/
def exHandlers : Handlers Nat := fun code => if code = 0x144 then some exHandler else none

/-- A request to fill two bytes. -/
def exFill : Bytes := [0x80, 1, 0, 0, 0, 16, 0, 0, 1, 0x44, 0, 2, 0xA, 0xB, 0xC, 0xD]

theorem exHandlers_fill : exHandlers (field exFill 6 4) = some exHandler :=
  if_pos (by decide)

example : executeSeparateWith exHandlers 7 exFill (List.replicate 18 9) =
    (some 16, [0x80, 1, 0, 0, 0, 16, 0, 0, 0, 0, 0xA, 0xB, 0xC, 0xD, 10, 10, 9, 9], 8) := by
  refine (C105_separate exHandlers 7 8 exFill (List.replicate 10 9) (List.replicate 8 9) _ _
    rfl).mpr ?_
  exact .success (f := exHandler) (out := [0xA, 0xB, 0xC, 0xD, 10, 10]) (by decide)
    exHandlers_fill (.u16 (b := [0, 2]) (rest := [0xA, 0xB, 0xC, 0xD]) rfl
      (.u32 (b := [0xA, 0xB, 0xC, 0xD]) (rest := []) rfl .respond))
    (.fits (old := [9, 9, 9, 9]) (rest := [9, 9, 9, 9]) rfl
      (.filled (old := [9, 9]) (rest := [9, 9]) rfl .done))

/-- In place the parameters are overwritten only after they are read.  The last two bytes of
the parameters are still there when the callback is called. -/
example : executeInPlaceWith exHandlers 7 exFill 16 =
    (some 16, [0x80, 1, 0, 0, 0, 16, 0, 0, 0, 0, 0xA, 0xB, 0xC, 0xD, 0xD, 0xE], 8) := by
  rw [C105_in_place]
  refine (C105_separate exHandlers 7 8 exFill (exFill.take 10) (exFill.drop 10) _ _ rfl).mpr ?_
  exact .success (f := exHandler) (out := [0xA, 0xB, 0xC, 0xD, 0xD, 0xE]) (by decide)
    exHandlers_fill (.u16 (b := [0, 2]) (rest := [0xA, 0xB, 0xC, 0xD]) rfl
      (.u32 (b := [0xA, 0xB, 0xC, 0xD]) (rest := []) rfl .respond))
    (.fits (old := [0, 2, 0xA, 0xB]) (rest := [0xC, 0xD]) rfl
      (.filled (old := [0xC, 0xD]) (rest := []) rfl .done))

/-- A handler that fails after it has written: the error is reported, and what was written stays
behind the ten bytes of the response. -/
example : executeSeparateWith exHandlers 7 exFill (List.replicate 15 9) =
    (some 10, [9, 9, 9, 9, 9, 9, 0, 0, 9, 4, 0xA, 0xB, 0xC, 0xD, 9], 8) := by
  refine (C105_separate exHandlers 7 8 exFill (List.replicate 10 9) (List.replicate 5 9) _ _
    rfl).mpr ?_
  exact .error (k := 7) (req := exFill) (f := exHandler) (e := .Memory) (out := [0xA, 0xB, 0xC, 0xD]) (by decide)
    exHandlers_fill (.u16 (b := [0, 2]) (rest := [0xA, 0xB, 0xC, 0xD]) rfl
      (.u32 (b := [0xA, 0xB, 0xC, 0xD]) (rest := []) rfl .respond))
    (.fits (old := [9, 9, 9, 9]) (rest := [9]) rfl (.refused (by decide) .done))

/-- Five bytes of space. -/
example := C105_short exHandlers 7 exFill (List.replicate 5 9) (by decide)

end Verif.Server
