import Verif.Base.Tpml
import Verif.Codec.Unmarshal
import Verif.Codec.Marshal
import Verif.Codec.Check

/-
Property theorems C17 and C18: TPM lists are bounded sequences.
-/

namespace Verif.Base
open Verif Verif.Errors

set_option maxRecDepth 8000

/-! ### Specification: a bounded sequence -/

/-- A list value as its user sees it: its count and its elements are those of
the sequence `xs`. -/
def Shows (n : Nat) (v : Val) (xs : List Val) : Prop :=
  tpmlCount v = xs.length ∧ tpmlElems n v = .ok xs

/-- Appending to a sequence of capacity `n`: outcome and new sequence. -/
def boundedPush (n : Nat) (xs : List Val) (x : Val) : Bool × List Val :=
  if xs.length < n then (true, xs ++ [x]) else (false, xs)

/-- Appending the elements of `es` one after the other. -/
def boundedPushes (n : Nat) : List Val → List Val → List Bool × List Val
  | xs, [] => ([], xs)
  | xs, e :: es =>
    let (ok, xs') := boundedPush n xs e
    let (oks, xs'') := boundedPushes n xs' es
    (ok :: oks, xs'')

/-- A history of `add` calls on a list: all outcomes and the final list. -/
def addAll (v : Val) : List Val → List (Res TpmRcError Unit) × Val
  | [] => ([], v)
  | e :: es =>
    let (o, v') := tpmlAdd v e
    let (os, v'') := addAll v' es
    (o :: os, v'')

/-- The `add` outcome corresponding to a specification outcome. -/
def outcome (ok : Bool) : Res TpmRcError Unit := if ok then .ok () else .err .Size

/-! ### Shape of list values -/

theorem wf_tpml {t : Ty} {n : Nat} {v : Val} (h : WF (tpml t n) v) :
    ∃ count list, v = .struct [.int count, .arr list] ∧ count < 2 ^ 32 ∧ list.length = n ∧
      count ≤ n ∧ ∀ e ∈ list.take count, WF t e := by
  unfold tpml at h
  cases v <;> simp only [WF] at h
  rename_i fs
  rcases fs with _ | ⟨c, _ | ⟨a, fs⟩⟩
  · simp [WFFields] at h
  · simp [WFFields] at h
  · cases a <;> simp only [WFFields, and_false] at h
    rename_i list
    rcases fs with _ | ⟨x, fs⟩
    · cases c <;> simp only [WF, false_and] at h
      rename_i count
      simp only [List.nil_append, asUsize, List.getD_cons_zero] at h
      exact ⟨count, list, rfl, by simpa using h.1, h.2.1, h.2.2.1, h.2.2.2.1⟩
    · simp [WFFields] at h

theorem wf_tpml_mk {t : Ty} {n count : Nat} {list : List Val} (h0 : count < 2 ^ 32)
    (h1 : list.length = n) (h2 : count ≤ n) (h3 : ∀ e ∈ list.take count, WF t e) :
    WF (tpml t n) (.struct [.int count, .arr list]) := by
  simp only [tpml, WF, WFFields, List.nil_append, asUsize, List.getD_cons_zero, and_true]
  exact ⟨by simpa using h0, h1, h2, h3⟩

theorem shows_mk {n count : Nat} {list : List Val} (h1 : list.length = n) (h2 : count ≤ n) :
    Shows n (.struct [.int count, .arr list]) (list.take count) := by
  refine ⟨by simp [tpmlCount]; omega, ?_⟩
  simp only [tpmlElems, Nat.min_eq_left h2, h1, h2, if_true]

/-! ### C17 -/

/-- **C17, creation.** `new` succeeds exactly for slices within the capacity
and then shows exactly the slice. -/
theorem C17_new (t : Ty) (n : Nat) (es : List Val) (hn : n < 2 ^ 32) (hes : ∀ e ∈ es, WF t e) :
    (es.length ≤ n → ∃ v, tpmlNew t n es = .ok v ∧ WF (tpml t n) v ∧ Shows n v es) ∧
    (n < es.length → tpmlNew t n es = .err .Size) := by
  constructor
  · intro h
    refine ⟨.struct [.int (es.length % 2 ^ 32),
      .arr (es ++ (List.replicate n t.default).drop es.length)], ?_, ?_, ?_⟩
    · unfold tpmlNew
      rw [if_neg (by omega)]
      simp only [List.length_replicate, h, if_true]
    · rw [Nat.mod_eq_of_lt (by omega)]
      refine wf_tpml_mk (by omega) (by simp; omega) h ?_
      rw [List.take_left]; exact hes
    · rw [Nat.mod_eq_of_lt (by omega)]
      have := shows_mk (n := n) (count := es.length)
        (list := es ++ (List.replicate n t.default).drop es.length) (by simp; omega) h
      rwa [List.take_left] at this
  · intro h
    unfold tpmlNew
    rw [if_pos h]

/-- **C17, default.** A default list is the empty sequence. -/
theorem C17_default (t : Ty) (n : Nat) :
    WF (tpml t n) (tpmlDefault t n) ∧ Shows n (tpmlDefault t n) [] ∧
      tpmlDefault t n = (tpml t n).default := by
  refine ⟨wf_tpml_mk (by decide) (by simp) (by omega) (by simp), ?_, rfl⟩
  have := shows_mk (n := n) (count := 0) (list := List.replicate n t.default) (by simp) (by omega)
  simpa [tpmlDefault] using this

/-- **C17, add.** On a list showing `xs`, `add` appends when there is room and
otherwise fails and changes nothing. -/
theorem C17_add (t : Ty) (n : Nat) (v e : Val) (xs : List Val) (hn : n < 2 ^ 32)
    (hv : WF (tpml t n) v) (he : WF t e) (hs : Shows n v xs) :
    (xs.length < n → (tpmlAdd v e).1 = .ok () ∧ WF (tpml t n) (tpmlAdd v e).2 ∧
      Shows n (tpmlAdd v e).2 (xs ++ [e])) ∧
    (n ≤ xs.length → tpmlAdd v e = (.err .Size, v)) := by
  obtain ⟨count, list, rfl, hc, hl, hcn, hwf⟩ := wf_tpml hv
  have h1 : count = xs.length := hs.1
  have h2 : list.take count = xs := by
    have := hs.2
    simp only [tpmlElems, Nat.min_eq_left hcn, hl, hcn, if_true] at this
    injection this
  have hset : (list.set count e).take (count + 1) = list.take count ++ [e] ∨ n ≤ count := by
    by_cases hlt : count < n
    · left
      rw [List.take_add_one, List.take_set_of_le (Nat.le_refl _)]
      simp [hl, hlt]
    · right; omega
  constructor
  · intro hlt
    have hadd : tpmlAdd (.struct [.int count, .arr list]) e =
        (.ok (), .struct [.int (count + 1), .arr (list.set count e)]) := by
      simp only [tpmlAdd]
      rw [if_neg (by omega), if_pos (by omega), if_pos (by omega)]
    rw [hadd]
    have hset := hset.resolve_right (by omega)
    refine ⟨rfl, wf_tpml_mk (by omega) (by simp [hl]) (by omega) ?_, ?_⟩
    · rw [hset]
      intro x hx
      rcases List.mem_append.1 hx with hx | hx
      · exact hwf x hx
      · simp only [List.mem_singleton] at hx; exact hx ▸ he
    · have := shows_mk (n := n) (count := count + 1) (list := list.set count e) (by simp [hl])
        (by omega)
      rwa [hset, h2] at this
  · intro hge
    simp only [tpmlAdd]
    rw [if_pos (by omega)]

/-- **C17, histories.** Any history of `add` calls on any list behaves like the
bounded sequence, call by call, and never panics. -/
theorem C17_history (t : Ty) (n : Nat) (es : List Val) (hn : n < 2 ^ 32)
    (hes : ∀ e ∈ es, WF t e) : ∀ (v : Val) (xs : List Val), WF (tpml t n) v → Shows n v xs →
    (addAll v es).1 = (boundedPushes n xs es).1.map outcome ∧
    WF (tpml t n) (addAll v es).2 ∧ Shows n (addAll v es).2 (boundedPushes n xs es).2 := by
  induction es with
  | nil => intro v xs hv hs; exact ⟨rfl, hv, hs⟩
  | cons e es ih =>
    intro v xs hv hs
    have ih := ih (fun x hx => hes x (List.mem_cons_of_mem _ hx))
    obtain ⟨h1, h2⟩ := C17_add t n v e xs hn hv (hes e List.mem_cons_self) hs
    by_cases hlt : xs.length < n
    · obtain ⟨ho, hw, hsh⟩ := h1 hlt
      obtain ⟨i1, i2, i3⟩ := ih _ _ hw hsh
      simp only [addAll, boundedPushes, boundedPush, hlt, if_true, List.map_cons]
      exact ⟨by rw [ho, i1]; rfl, i2, i3⟩
    · have hadd := h2 (by omega)
      obtain ⟨i1, i2, i3⟩ := ih v xs hv hs
      simp only [addAll, boundedPushes, boundedPush, hlt, if_false, List.map_cons, hadd]
      exact ⟨by rw [i1]; rfl, i2, by simpa using i3⟩

/-- The bounded sequence in closed form: what fits is kept, in order. -/
theorem C17_history_closed (n : Nat) (es : List Val) : ∀ xs, xs.length ≤ n →
    (boundedPushes n xs es).2 = xs ++ es.take (n - xs.length) ∧
    (boundedPushes n xs es).1 =
      List.replicate (min es.length (n - xs.length)) true ++
      List.replicate (es.length - (n - xs.length)) false := by
  induction es with
  | nil => intro xs _; simp [boundedPushes]
  | cons e es ih =>
    intro xs hx
    by_cases hlt : xs.length < n
    · obtain ⟨a, b⟩ := ih (xs ++ [e]) (by simp; omega)
      simp only [boundedPushes, boundedPush, hlt, if_true, a, b]
      obtain ⟨k, hk⟩ : ∃ k, n - xs.length = k + 1 := ⟨n - xs.length - 1, by omega⟩
      have hk' : n - (xs ++ [e]).length = k := by simp; omega
      rw [hk, hk']
      constructor
      · simp
      · rw [List.length_cons, show min (es.length + 1) (k + 1) = min es.length k + 1 by omega,
          Nat.add_sub_add_right, List.replicate_succ]; rfl
    · obtain ⟨a, b⟩ := ih xs hx
      have h0 : n - xs.length = 0 := by omega
      simp only [boundedPushes, boundedPush, hlt, if_false, a, b, h0]
      simp [List.replicate_succ]

/-- The accessor never panics, whatever the (public) count field holds. -/
theorem C17_accessor_total (n count : Nat) (list : List Val) (hl : list.length = n) :
    tpmlElems n (.struct [.int count, .arr list]) = .ok (list.take (min count n)) := by
  simp only [tpmlElems]
  rw [if_pos (by omega)]

/-- Non-vacuity: nine digests added to a digest list of capacity eight. -/
example : let d : Val := .tpm2b 1 (5 :: List.replicate 63 0)
    (addAll (tpmlDefault Tpm2bDigest 8) (List.replicate 9 d)).1 =
      List.replicate 8 (.ok ()) ++ [.err .Size] ∧
    WF Tpm2bDigest d ∧ WF (tpml Tpm2bDigest 8) (tpmlDefault Tpm2bDigest 8) := by
  exact ⟨by decide, by decide, by decide⟩

/-! ### C18 -/

/-- **C18.** A decoded list shows exactly the elements on the wire: the input
is the 4-byte count, the encodings of the shown elements in order, and the
rest. -/
theorem C18_decoded_list (t : Ty) (n : Nat) (b : Bytes) (v : Val) (r : Bytes)
    (h : unmarshal (tpml t n) b = (.ok v, r)) :
    ∃ es, Shows n v es ∧ es.length ≤ n ∧ (∀ e ∈ es, WF t e) ∧
      b = digits256 4 es.length ++ (es.map (wire t)).flatten ++ r := by
  obtain ⟨hv, -, hb⟩ := (goodTy (tpml t n)).sound _ _ _ h
  obtain ⟨count, list, rfl, hc, hl, hcn, hwf⟩ := wf_tpml hv
  have hlen : (list.take count).length = count := by simp; omega
  refine ⟨list.take count, shows_mk hl hcn, by omega, hwf, ?_⟩
  rw [hb, hlen]
  simp [tpml, wire, wireFields, asUsize]

/-- Conversely a list marshals as its count and its shown elements, so the
receiver sees the same sequence (up to the canonical form of each element). -/
theorem C18_list_transfer (t : Ty) (n : Nat) (v : Val) (xs : List Val) (buf rest : Bytes)
    (hv : WF (tpml t n) v) (hs : Shows n v xs)
    (hbuf : 4 + ((xs.map (wire t)).flatten).length ≤ buf.length) :
    ∃ k buf' v', marshal (tpml t n) v buf = (.ok k, buf') ∧
      buf'.take k = digits256 4 xs.length ++ (xs.map (wire t)).flatten ∧
      unmarshal (tpml t n) (buf'.take k ++ rest) = (.ok v', rest) ∧
      Shows n v' (xs.map (canon t)) := by
  obtain ⟨count, list, rfl, hc, hl, hcn, hwf⟩ := wf_tpml hv
  have h1 : count = xs.length := hs.1
  have h2 : list.take count = xs := by
    have := hs.2
    simp only [tpmlElems, Nat.min_eq_left hcn, hl, hcn, if_true] at this
    injection this
  have hw : wire (tpml t n) (.struct [.int count, .arr list]) =
      digits256 4 xs.length ++ (xs.map (wire t)).flatten := by
    simp [tpml, wire, wireFields, asUsize, h2, ← h1]
  have hd : (digits256 4 xs.length).length = 4 := by simp [digits256]
  refine ⟨_, _, canon (tpml t n) (.struct [.int count, .arr list]), (writesTy _ _ hv).fit buf (by rw [hw, List.length_append, hd]; exact hbuf), ?_,
    ?_, ?_⟩
  · rw [List.take_left, hw]
  · rw [List.take_left]
    exact (goodTy (tpml t n)).complete _ rest hv
  · have hcanon : canon (tpml t n) (.struct [.int count, .arr list]) =
        .struct [.int count, .arr (xs.map (canon t) ++ List.replicate (n - count) t.default)] := by
      simp [tpml, canon, canonFields, asUsize, h2]
    rw [hcanon]
    have := shows_mk (n := n) (count := count)
      (list := xs.map (canon t) ++ List.replicate (n - count) t.default)
      (by simp; omega) hcn
    rwa [List.take_append_of_le_length (by simp; omega), List.take_of_length_le (by simp; omega)]
      at this

/-- Non-vacuity: two handles on the wire, followed by other data. -/
example : ∃ v, unmarshal (tpml u32 3) [0, 0, 0, 2, 0x80, 0, 0, 0, 0x81, 0, 0, 1, 77] =
    (.ok v, [77]) ∧ Shows 3 v [.int 0x80000000, .int 0x81000001] :=
  ⟨_, rfl, rfl, rfl⟩

end Verif.Base
