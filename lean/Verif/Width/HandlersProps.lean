import Verif.Width.Handlers
import Verif.Width.Props

/-! C118: buffers and any handlers of commands on machines of any width. -/

namespace Verif.Server
open Verif Verif.Errors

variable {K D E : Type}

/-! ### Slices as buffers -/

/-- **C118**: random access to a slice as a buffer, with any offset and size.  Without overflow checks
what is not in the slice is refused, however large the numbers; with them it is a panic if the sum does
not fit, and refused if it does. -/
theorem C118_slices (m : Machine) (b : Bytes) (hb : b.length < 2 ^ m.bits) (o : Nat) (ho : o < 2 ^ m.bits) :
    (∀ n < 2 ^ m.bits, readIntoOn m b o n =
      if m.checked = true ∧ 2 ^ m.bits ≤ o + n then none
      else some (if o + n ≤ b.length then some ((b.drop o).take n) else none)) ∧
    (∀ d : Bytes, d.length < 2 ^ m.bits → writeOn m b o d =
      if m.checked = true ∧ 2 ^ m.bits ≤ o + d.length then none
      else some (if o + d.length ≤ b.length then some (b.take o ++ d ++ b.drop (o + d.length)) else none)) ∧
    ∀ (γ : Type) (f : Bytes → γ × Bytes), ∀ n < 2 ^ m.bits, writeCallbackOn m b o n f =
      if m.checked = true ∧ 2 ^ m.bits ≤ o + n then none
      else some (if o + n ≤ b.length then
        some ((f ((b.drop o).take n)).1, b.take o ++ (f ((b.drop o).take n)).2 ++ b.drop (o + n)) else none) :=
  ⟨fun _ hn => readIntoOn_if b hb ho hn, fun _ hd => writeOn_if b hb ho hd,
    fun _ f _ hn => writeCallbackOn_if b f hb ho hn⟩

/-- **C118**: in place, nothing behind the request is read, without overflow checks either. -/
theorem C118_request (m : Machine) (b : Bytes) (hb : b.length < 2 ^ m.bits) (len o n : Nat)
    (ho : o < 2 ^ m.bits) (hn : n < 2 ^ m.bits) (hl : len ≤ b.length) :
    (Buffers.inOut b len).requestReadOn m o n =
      if m.checked = true ∧ 2 ^ m.bits ≤ o + n then none
      else some (if o + n ≤ len then some ((b.drop o).take n) else none) := by
  dsimp only [Buffers.requestReadOn]
  by_cases h : 2 ^ m.bits ≤ o + n
  · cases hc : m.checked
    · obtain ⟨last, h1, h2⟩ := add_wraps hc h ho hn
      rw [h1]
      dsimp only
      have hx : readIntoOn m b o n = some none := by
        rw [readIntoOn_if b hb ho hn, if_neg (by simp [hc])]
        unfold readInto
        rw [if_neg (by omega)]
      rw [hx, if_neg (by simp : ¬ (false = true ∧ 2 ^ m.bits ≤ o + n)), if_neg (by omega : ¬ o + n ≤ len)]
      split <;> rfl
    · rw [add_checked hc h, if_pos ⟨rfl, h⟩]
  · rw [add_fits (by omega), if_neg (fun x => h x.2)]
    dsimp only
    have hx : readIntoOn m b o n = some (readInto b o n) := by
      rw [readIntoOn_if b hb ho hn, if_neg (fun x => h x.2)]
    rw [hx]
    unfold readInto
    by_cases h1 : len < o + n
    · rw [if_pos h1, if_neg (by omega)]
    · rw [if_neg h1, if_pos (by omega), if_pos (by omega)]

/-! ### Handlers -/

/-- A command, if the sums do not panic. -/
theorem command_same {m : Machine} (hm : 32 ≤ m.bits) {h : Handlers K}
    (hh : m.checked = false ∧ h.On m ∨ h.Modest m) (k : K) (bs : Buffers) (hv : bs.Valid)
    (hq : Holds m bs.request) (hr : Holds m bs.response) :
    executeCommandOnWith m h k bs = some (executeCommandWith h k bs) := by
  obtain ⟨e1, e2⟩ := bits_half hm
  rw [executeCommandOnWith_eq hm h k bs hv, executeCommandWith_eq h k bs hv]
  by_cases hw : WellSized bs.request
  case neg => rw [if_pos hw, if_pos hw]
  rw [if_neg (fun hn => hn hw), if_neg (fun hn => hn hw)]
  rcases hf : h (field bs.request 6 4) with _ | f
  · rfl
  · have : (f k).runOn m ⟨bs, 10, 10⟩ = some ((f k).run ⟨bs, 10, 10⟩) := by
      rcases hh with ⟨hc, ho⟩ | ho
      · obtain ⟨w, o', -, hs, h1, h2⟩ := reading_on hm (f k) bs hv 10 10 hw.1 hq (ho _ f hf k)
        rw [h1, h2]
        exact writing_same hm w hs (.inl ⟨hc, rfl⟩) _ hr (by dsimp only; omega)
      · obtain ⟨w, o', -, hs, h1, h2⟩ := reading_on hm (f k) bs hv 10 10 hw.1 hq (ho _ f hf k)
        rw [h1, h2]
        exact writing_same hm w hs (.inr rfl) _ hr (by dsimp only; omega)
    simp only [this]
    rcases (f k).run ⟨bs, 10, 10⟩ with ⟨_ | e | _, c, k'⟩ <;> rfl

/-- **C118**: without overflow checks any handlers, and with them handlers that ask for no more than a
slice can have, answer every request as on a machine without limits. -/
theorem C118_same_partial (m : Machine) (hm : 32 ≤ m.bits) (h : Handlers K)
    (hh : m.checked = false ∧ h.On m ∨ h.Modest m) (k : K) (req rsp : Bytes) (hq : Holds m req)
    (hr : Holds m rsp) (size : Nat) :
    executeSeparateOnWith m h k req rsp = some (executeSeparateWith h k req rsp) ∧
    executeInPlaceOnWith m h k rsp size = some (executeInPlaceWith h k rsp size) := by
  unfold executeSeparateOnWith executeSeparateWith executeInPlaceOnWith executeInPlaceWith
  refine ⟨?_, ?_⟩
  · rw [command_same hm hh k (.separate req rsp) trivial hq hr, completeOnWith_eq hm]
  · rw [command_same hm hh k _ (newInOut_valid rsp size) (by
      rw [newInOut_request]
      unfold Holds at hr ⊢
      rw [List.length_take]
      omega) hr, completeOnWith_eq hm]

/-- **C118**: with overflow checks, a request leads to a panic of the server exactly if the handler of its
code comes to ask for a size that does not fit into a `usize` together with the position; otherwise the
answer is that without limits. -/
theorem C118_checked (m : Machine) (hm : 32 ≤ m.bits) (hc : m.checked = true) (h : Handlers K)
    (hh : h.On m) (k : K) (req rsp : Bytes) (hq : Holds m req) (hr : Holds m rsp) (hl : 10 ≤ rsp.length) :
    (executeSeparateOnWith m h k req rsp = none ↔ ∃ f w, WellSized req ∧ h (field req 6 4) = some f ∧
      (f k).Reads (req.drop 10) w ∧ w.Exceeds (2 ^ m.bits) 10 (rsp.drop 10)) ∧
    ∀ r, executeSeparateOnWith m h k req rsp = some r → r = executeSeparateWith h k req rsp := by
  have hv : (Buffers.separate req rsp).Valid := trivial
  have hw0 : executeSeparateWith h k req rsp =
    completeWith (executeCommandWith h k (.separate req rsp)) := rfl
  unfold executeSeparateOnWith
  rw [hw0, executeCommandOnWith_eq hm h k _ hv, executeCommandWith_eq h k _ hv]
  have e1 : (Buffers.separate req rsp).request = req := rfl
  have e2 : (Buffers.separate req rsp).response = rsp := rfl
  rw [e1, e2]
  by_cases hw : WellSized req
  case neg =>
    rw [if_pos hw, if_pos hw, completeOnWith_eq hm]
    exact ⟨⟨nofun, fun ⟨_, _, h, _⟩ => absurd h hw⟩, fun r hr => by cases hr; rfl⟩
  rw [if_neg (fun hn => hn hw), if_neg (fun hn => hn hw)]
  rcases hf : h (field req 6 4) with _ | f
  · dsimp only
    rw [completeOnWith_eq hm]
    exact ⟨⟨nofun, fun ⟨_, _, _, h, _⟩ => nomatch h⟩, fun r hr => by cases hr; rfl⟩
  · dsimp only
    obtain ⟨w, o', hrd, hs, h1, h2⟩ :=
      reading_on hm (f k) (.separate req rsp) hv 10 10 hw.1 hq (hh _ f hf k)
    rw [h1, h2]
    rcases writing_checked hm hc w hs ⟨.separate req rsp, o', 10⟩ hr hl with ⟨g1, g2⟩ | ⟨g1, g2⟩
    · rw [g1]
      exact ⟨⟨fun _ => ⟨f, w, hw, rfl, hrd, g2⟩, fun _ => rfl⟩, nofun⟩
    · rw [g1]
      have hno : ¬ ∃ f' w', WellSized req ∧ some f = some f' ∧ (f' k).Reads (req.drop 10) w' ∧
          w'.Exceeds (2 ^ m.bits) 10 (rsp.drop 10) := by
        rintro ⟨f', w', -, hf', hr', hx⟩
        cases hf'
        rw [e1] at hrd
        obtain rfl := hrd.det hr'
        exact absurd hx g2
      generalize w.run ⟨.separate req rsp, o', 10⟩ = x
      rcases x with ⟨_ | e | _, c, k'⟩ <;> dsimp only <;> rw [completeOnWith_eq hm] <;>
        exact ⟨⟨nofun, fun h => absurd h hno⟩, fun r hr => (Option.some.inj hr).symm⟩

/-- **C118**: the handlers of the crate ask for 65535 bytes at most. -/
theorem C118_crate (m : Machine) (hm : 32 ≤ m.bits) (g : Drbg D) (es : Entropy E) (k : Crypto D E)
    (req rsp : Bytes) (hq : Holds m req) (hr : Holds m rsp) :
    (crateHandlers g es).Modest m ∧
    executeSeparateOnWith m (crateHandlers g es) k req rsp = some (executeSeparateOn m g es k req rsp) := by
  obtain ⟨e1, e2⟩ := bits_half hm
  have hmod : (crateHandlers g es).Modest m := by
    intro code f hf k
    unfold crateHandlers at hf
    split at hf
    · cases hf
      refine ⟨trivial, fun x hx => ⟨by omega, trivial, fun _ => trivial⟩⟩
    · cases hf
  refine ⟨hmod, ?_⟩
  rw [(C118_same_partial m hm _ (.inr hmod) k req rsp hq hr 0).1, ← (C105_crate g es k).1,
    (C98_separate m m hm hm g es k req rsp).2]

/-! ### The violation -/

/-- A handler that asks for all that a `usize` can say, and reports that there is no room. -/
def grasps (bits k : Nat) : Writing Nat :=
  .callback (2 ^ bits - 1) (.done (.err .Memory) (k + 1)) id (fun _ => rfl) fun _ => .done (.ok ()) k

/-- It is the only one. -/
def grasping (bits : Nat) : Handlers Nat := fun code =>
  if code = 0x17B then some fun k => .respond (grasps bits k) else none

/-- The request for it. -/
def grasp : Bytes := [0x80, 1, 0, 0, 0, 10, 0, 0, 1, 0x7B]

theorem grasping_handler (bits : Nat) :
    grasping bits (field grasp 6 4) = some fun k => .respond (grasps bits k) :=
  if_pos (by decide)

theorem grasping_on (m : Machine) : (grasping m.bits).On m := by
  intro code f hf k
  unfold grasping at hf
  split at hf
  · cases hf
    exact ⟨Nat.sub_lt (Nat.two_pow_pos _) (by decide), trivial, fun _ => trivial⟩
  · cases hf

theorem grasping_panics (m : Machine) (hm : 32 ≤ m.bits) (hc : m.checked = true) :
    executeSeparateOnWith m (grasping m.bits) 7 grasp (List.replicate 12 9) = none := by
  obtain ⟨e1, e2⟩ := bits_half hm
  refine (C118_checked m hm hc _ (grasping_on m) 7 grasp (List.replicate 12 9)
    (Nat.lt_of_lt_of_le (by decide) e2) (Nat.lt_of_lt_of_le (by decide) e2) (by decide)).1.2
    ⟨_, _, by decide, grasping_handler m.bits, .respond, .here ?_⟩
  omega

/-- **C118**, violated: with overflow checks, on machines of any width, a handler that asks for too much
is not told so; the server panics instead of answering. -/
theorem C118_violated (m : Machine) (hm : 32 ≤ m.bits) (hc : m.checked = true) :
    ¬ ∀ h : Handlers Nat, h.On m → ∀ (k : Nat) (req rsp : Bytes), Holds m req → Holds m rsp →
      executeSeparateOnWith m h k req rsp = some (executeSeparateWith h k req rsp) := by
  obtain ⟨e1, e2⟩ := bits_half hm
  intro hx
  have := hx _ (grasping_on m) 7 grasp (List.replicate 12 9)
    (Nat.lt_of_lt_of_le (by decide) e2) (Nat.lt_of_lt_of_le (by decide) e2)
  rw [grasping_panics m hm hc] at this
  cases this

/-! ### Cases -/

theorem grasping_answered (bits : Nat) (hb : 32 ≤ bits) :
    executeSeparateWith (grasping bits) 7 grasp (List.replicate 12 9) =
      (some 10, [9, 9, 9, 9, 9, 9, 0, 0, 9, 4, 9, 9], 8) := by
  refine (C105_separate (grasping bits) 7 8 grasp (List.replicate 10 9) (List.replicate 2 9) _ (some 10)
    (by decide)).2 ?_
  have h2 : 2 ^ 32 ≤ 2 ^ bits := Nat.pow_le_pow_right (by decide) hb
  exact Answered.error (h := grasping bits) (out := []) (e := .Memory) (by decide) (grasping_handler bits)
    .respond (.refused (by rw [List.length_replicate]; omega) .done)

/-- Without overflow checks it is told, also on 32 bits. -/
example : executeSeparateOnWith machine32 (grasping 32) 7 grasp (List.replicate 12 9) =
    some (some 10, [9, 9, 9, 9, 9, 9, 0, 0, 9, 4, 9, 9], 8) := by
  rw [(C118_same_partial machine32 (by decide) (grasping 32) (.inl ⟨rfl, grasping_on machine32⟩) 7 grasp
    (List.replicate 12 9) (show _ < _ by decide) (show _ < _ by decide) 0).1,
    grasping_answered 32 (by decide)]

/-- With them, a handler made for half of the width is. -/
example : executeSeparateOnWith machine64 (grasping 63) 7 grasp (List.replicate 12 9) =
    some (some 10, [9, 9, 9, 9, 9, 9, 0, 0, 9, 4, 9, 9], 8) := by
  have hmod : (grasping 63).Modest machine64 := by
    intro code f hf k
    unfold grasping at hf
    split at hf
    · cases hf
      exact ⟨by decide, trivial, fun _ => trivial⟩
    · cases hf
  rw [(C118_same_partial machine64 (by decide) _ (.inr hmod) 7 grasp
    (List.replicate 12 9) (show _ < _ by decide) (show _ < _ by decide) 0).1,
    grasping_answered 63 (by decide)]

/-- The largest offset with two bytes: refused, or a panic. -/
example (b : Bytes) (hb : b.length < 2 ^ 31) :
    readIntoOn machine32 b (2 ^ 32 - 1) 2 = some none ∧ readIntoOn ⟨32, true⟩ b (2 ^ 32 - 1) 2 = none := by
  constructor
  · rw [(C118_slices machine32 b (by show _ < 2 ^ 32; omega) (2 ^ 32 - 1) (by decide)).1 2 (by decide),
      if_neg (by decide), if_neg (by omega)]
  · rw [(C118_slices ⟨32, true⟩ b (by show _ < 2 ^ 32; omega) (2 ^ 32 - 1) (by decide)).1 2 (by decide),
      if_pos (by decide)]

end Verif.Server
