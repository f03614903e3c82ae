import Verif.Tcp.Calls
import Verif.Tcp.Lemmas

/-
Lemmas about the system calls of a connection.
-/

namespace Verif.Tcp
open Verif

variable {σ : Type}

theorem moved_append (a b : List SysCall) : moved (a ++ b) = moved a ++ moved b := by
  simp [moved]

@[simp] theorem length_outs (p : Port) (b : Bytes) : (outs p b).length = b.length := by simp [outs]
@[simp] theorem length_inps (p : Port) (b : Bytes) : (inps p b).length = b.length := by simp [inps]

theorem announced_inps (p : Port) (b : Bytes) (l : List Ev) (h : b.length = 4) :
    announced (inps p b ++ l) = positional b := by
  unfold announced
  rw [List.take_left' (by simpa using h)]
  simp only [inps, List.map_map]
  congr 1
  exact List.map_id b

/-- What comes next does not depend on what follows. -/
theorem due_append {i1 i2 : List Piece} {l : List Ev} {a : Ask} (h : due i1 l = some a) :
    due (i1 ++ i2) l = some a := by
  induction i1 generalizing l with
  | nil => simp [due] at h
  | cons x xs ih =>
    cases x <;> simp only [due, List.cons_append] at h ⊢
    · split
      · rename_i hl; rw [if_pos hl] at h; exact h
      · rename_i hl; rw [if_neg hl] at h; exact ih h
    · split
      · rename_i hl; rw [if_pos hl] at h; exact h
      · rename_i hl; rw [if_neg hl] at h; exact ih h
    · split
      · rename_i hl; rw [if_pos hl] at h; exact h
      · rename_i hl; rw [if_neg hl] at h; exact ih h
    · split
      · rename_i hl; rw [if_pos hl] at h; exact h
      · rename_i hl
        rw [if_neg hl] at h
        split
        · rename_i hw; rw [if_pos hw] at h; exact ih h
        · rename_i hw; rw [if_neg hw] at h; exact h
    · split
      · rename_i hl; rw [if_pos hl] at h; exact h
      · rename_i hl
        rw [if_neg hl] at h
        split
        · rename_i hw; rw [if_pos hw] at h; exact h
        · rename_i hw
          rw [if_neg hw] at h
          split
          · rename_i hk; rw [if_pos hk] at h; exact h
          · rename_i hk; rw [if_neg hk] at h; exact ih h
    · split
      · rename_i hl; rw [if_pos hl] at h; exact h
      · rename_i hl; rw [if_neg hl] at h; exact ih h

/-- After complete pieces comes what follows. -/
theorem due_complete {i1 i2 : List Piece} {l1 l2 : List Ev} (h : Complete i1 l1) :
    due (i1 ++ i2) (l1 ++ l2) = due i2 l2 := by
  induction i1 generalizing l1 with
  | nil => rw [h]; rfl
  | cons x xs ih =>
    cases x with
    | send p b =>
      obtain ⟨l', rfl, h⟩ := h
      simp only [due, List.cons_append]
      rw [if_neg (by simp), List.append_assoc, List.drop_left' (by simp)]
      exact ih h
    | once p b =>
      obtain ⟨l', rfl, h⟩ := h
      simp only [due, List.cons_append]
      rw [if_neg (by simp), List.append_assoc, List.drop_left' (by simp)]
      exact ih h
    | recv p n =>
      obtain ⟨b, l', hb, rfl, h⟩ := h
      simp only [due, List.cons_append]
      rw [if_neg (by simp; omega), List.append_assoc, List.drop_left' (by simpa using hb)]
      exact ih h
    | expect p w =>
      obtain ⟨b, l', hb, hw, rfl, h⟩ := h
      simp only [due, List.cons_append]
      rw [if_neg (by simp; omega), List.append_assoc, announced_inps p b _ hb, if_pos hw,
        List.drop_left' (by simpa using hb)]
      exact ih h
    | reply p cap =>
      obtain ⟨hd, b, l', hh, hc, hb, rfl, h⟩ := h
      simp only [due, List.cons_append]
      rw [if_neg (by simp; omega), List.append_assoc, announced_inps p hd _ hh,
        if_neg (by omega), if_neg (by simp; omega)]
      have : 4 + positional hd = (inps p hd ++ inps p b).length := by simp; omega
      rw [List.append_assoc, ← List.append_assoc (inps p hd), this, List.drop_left]
      exact ih h
    | shut p =>
      obtain ⟨l', rfl, h⟩ := h
      simp only [due, List.cons_append]
      rw [if_neg (by simp)]
      exact ih h

theorem Complete.append {i1 i2 : List Piece} {l1 l2 : List Ev} (h1 : Complete i1 l1)
    (h2 : Complete i2 l2) : Complete (i1 ++ i2) (l1 ++ l2) := by
  induction i1 generalizing l1 with
  | nil => rw [h1]; exact h2
  | cons x xs ih =>
    cases x with
    | send p b => obtain ⟨l', rfl, h⟩ := h1; exact ⟨_, List.append_assoc .., ih h⟩
    | once p b => obtain ⟨l', rfl, h⟩ := h1; exact ⟨_, List.append_assoc .., ih h⟩
    | recv p n => obtain ⟨b, l', hb, rfl, h⟩ := h1; exact ⟨b, _, hb, List.append_assoc .., ih h⟩
    | expect p w =>
      obtain ⟨b, l', hb, hw, rfl, h⟩ := h1; exact ⟨b, _, hb, hw, List.append_assoc .., ih h⟩
    | reply p cap =>
      obtain ⟨hd, b, l', hh, hc, hb, rfl, h⟩ := h1
      exact ⟨hd, b, _, hh, hc, hb, by simp only [List.append_assoc], ih h⟩
    | shut p => obtain ⟨l', rfl, h⟩ := h1; exact ⟨_, rfl, ih h⟩

theorem orderly_nil (pieces : List Piece) : Orderly pieces [] := by
  intro pre c post h
  cases pre <;> simp at h

theorem Orderly.more {i1 : List Piece} {calls : List SysCall} (h : Orderly i1 calls) (i2 : List Piece) :
    Orderly (i1 ++ i2) calls := fun pre c post he =>
  ⟨due_append (h pre c post he).1, (h pre c post he).2⟩

theorem Orderly.append {i1 i2 : List Piece} {c1 c2 : List SysCall} (h1 : Orderly i1 c1)
    (hm : ∀ c ∈ c1, c.events ≠ []) (hd : Complete i1 (moved c1)) (h2 : Orderly i2 c2) :
    Orderly (i1 ++ i2) (c1 ++ c2) := by
  intro pre c post he
  rcases List.append_eq_append_iff.1 he with ⟨x, hx, hy⟩ | ⟨x, hx, hy⟩
  · subst hx
    rw [moved_append, due_complete hd]
    exact h2 x c post hy
  · cases x with
    | nil =>
      simp only [List.append_nil, List.nil_append] at hx hy
      subst hx
      have := due_complete (i2 := i2) (l2 := []) hd
      rw [List.append_nil] at this
      rw [this]
      exact h2 [] c post hy.symm
    | cons y ys =>
      simp only [List.cons_append, List.cons.injEq] at hy
      obtain ⟨rfl, rfl⟩ := hy
      obtain ⟨g1, g2⟩ := h1 pre c ys hx
      exact ⟨due_append g1, fun _ => hm c (by rw [hx]; simp)⟩

/-- A single call. -/
theorem orderly_one {pieces : List Piece} {c : SysCall} (h : due pieces [] = some c.ask) :
    Orderly pieces [c] := by
  intro pre d post he
  cases pre with
  | nil =>
    simp only [List.nil_append, List.cons.injEq] at he
    obtain ⟨rfl, rfl⟩ := he
    exact ⟨h, fun hp => absurd rfl hp⟩
  | cons x xs => simp at he

/-- The connection without the record of calls. -/
def Conn.plain (c : Conn (σ × List SysCall)) : Conn σ := ⟨c.net.1, c.locality, c.log⟩

/-- The run `r` from `c`, made with the record, and the run `r'`, made without,
do the same, and the calls made conform to the pieces. -/
def Keeps {α : Type} (pieces : List Piece) (c : Conn (σ × List SysCall))
    (ok : α → Bool) (r : α × Conn (σ × List SysCall)) (r' : α × Conn σ) : Prop :=
  r.1 = r'.1 ∧ r.2.plain = r'.2 ∧
  ∃ calls, r.2.net.2 = c.net.2 ++ calls ∧ r.2.log = c.log ++ moved calls ∧
    Orderly pieces calls ∧
    (ok r.1 = true → (∀ s ∈ calls, s.events ≠ []) ∧ Complete pieces (moved calls))

/-- For every connection. -/
def Follows {α : Type} (pieces : List Piece) (m : M (σ × List SysCall) α) (m' : M σ α) : Prop :=
  ∀ c, Keeps pieces c Except.isOk (m c) (m' c.plain)

theorem Follows.bind {α β : Type} {i1 i2 : List Piece} {m : M (σ × List SysCall) α} {m' : M σ α}
    {f : α → M (σ × List SysCall) β} {f' : α → M σ β} (hm : Follows i1 m m')
    (hf : ∀ a, Follows i2 (f a) (f' a)) : Follows (i1 ++ i2) (M.bind m f) (M.bind m' f') := by
  intro c
  obtain ⟨h1, h2, calls, h3, h4, h5, h6⟩ := hm c
  unfold M.bind
  rcases hr : m c with ⟨e | a, c1⟩ <;> rcases hr' : m' c.plain with ⟨e' | a', c1'⟩ <;>
    rw [hr, hr'] at h1 <;> simp only at h1 <;> try cases h1
  · rw [hr] at h2 h3 h4 h6; rw [hr'] at h2
    exact ⟨rfl, h2, calls, h3, h4, h5.more i2, fun h => by simp at h⟩
  · rw [hr] at h2 h3 h4 h6; rw [hr'] at h2
    obtain ⟨k1, k2⟩ := h6 rfl
    obtain ⟨g1, g2, calls', g3, g4, g5, g6⟩ := hf a c1
    simp only at h2 h3 h4
    subst h2
    refine ⟨g1, g2, calls ++ calls', ?_, ?_, h5.append k1 k2 g5, fun h => ?_⟩
    · simp only at g3 ⊢; rw [g3, h3, List.append_assoc]
    · simp only at g4 ⊢; rw [g4, h4, moved_append, List.append_assoc]
    · obtain ⟨k3, k4⟩ := g6 h
      refine ⟨fun s hs => ?_, ?_⟩
      · rcases List.mem_append.1 hs with hs | hs
        · exact k1 s hs
        · exact k3 s hs
      · rw [moved_append]; exact k2.append k4

theorem follows_pure {α : Type} (a : α) : Follows (σ := σ) [] (M.pure a) (M.pure a) := fun c =>
  ⟨rfl, rfl, [], by simp [M.pure], by simp [M.pure, moved], orderly_nil _,
    fun _ => ⟨by simp, rfl⟩⟩

theorem follows_fail {α : Type} (pieces : List Piece) (e : IoErr) :
    Follows (σ := σ) (α := α) pieces (M.fail e) (M.fail e) := fun c =>
  ⟨rfl, rfl, [], by simp [M.fail], by simp [M.fail, moved], orderly_nil _,
    fun h => by simp [M.fail] at h⟩

/-- One write. -/
theorem write_watch (os : Os σ) (p : Port) (b : Bytes) (c : Conn (σ × List SysCall)) :
    (write (watch os) p b c).1 = (write os p b c.plain).1 ∧
    (write (watch os) p b c).2.plain = (write os p b c.plain).2 ∧
    (write (watch os) p b c).2.net.2 = c.net.2 ++ [.write p b (write os p b c.plain).1] ∧
    (write (watch os) p b c).2.log = c.log ++ moved [.write p b (write os p b c.plain).1] := by
  unfold write watch Conn.plain
  simp only
  rcases os.write c.net.1 p b with ⟨e | n, s⟩
  · simp [moved, SysCall.events]
  · simp [moved, SysCall.events, outs]

/-- One read. -/
theorem read_watch (os : Os σ) (p : Port) (n : Nat) (c : Conn (σ × List SysCall)) :
    (read (watch os) p n c).1 = (read os p n c.plain).1 ∧
    (read (watch os) p n c).2.plain = (read os p n c.plain).2 ∧
    (read (watch os) p n c).2.net.2 = c.net.2 ++ [.read p n (read os p n c.plain).1] ∧
    (read (watch os) p n c).2.log = c.log ++ moved [.read p n (read os p n c.plain).1] := by
  unfold read watch Conn.plain
  simp only
  rcases os.read c.net.1 p n with ⟨e | b, s⟩
  · simp [moved, SysCall.events]
  · simp [moved, SysCall.events, inps]

theorem outs_ne {p : Port} {b : Bytes} {n : Nat} (hn : n ≠ 0) (hb : b ≠ []) :
    outs p (b.take n) ≠ [] := by
  cases b with
  | nil => exact absurd rfl hb
  | cons x xs => cases n with
    | zero => exact absurd rfl hn
    | succ n => simp [outs]

/-- Prefixing a first call that moved something. -/
theorem orderly_cons {pieces pieces' : List Piece} {c : SysCall} {calls : List SysCall}
    (h1 : due pieces [] = some c.ask) (h2 : c.events ≠ [])
    (h3 : ∀ l a, due pieces' l = some a → due pieces (c.events ++ l) = some a)
    (h4 : Orderly pieces' calls) : Orderly pieces (c :: calls) := by
  intro pre d post he
  cases pre with
  | nil =>
    simp only [List.nil_append, List.cons.injEq] at he
    obtain ⟨rfl, rfl⟩ := he
    exact ⟨h1, fun _ => h2⟩
  | cons x xs =>
    simp only [List.cons_append, List.cons.injEq] at he
    obtain ⟨rfl, he⟩ := he
    obtain ⟨g1, g2⟩ := h4 xs d post he
    refine ⟨?_, g2⟩
    have : moved (c :: xs) = c.events ++ moved xs := by simp [moved]
    rw [this]
    exact h3 _ _ g1

theorem follows_writeAll (os : Os σ) (p : Port) (b : Bytes) :
    Follows [.send p b] (writeAll (watch os) p b) (writeAll os p b) := by
  generalize hk : b.length = k
  induction k using Nat.strongRecOn generalizing b with
  | ind k ih =>
    intro c
    rw [writeAll, writeAll]
    cases b with
    | nil =>
      simp only [List.isEmpty_nil, if_true]
      exact ⟨rfl, rfl, [], by simp, by simp [moved], orderly_nil _,
        fun _ => ⟨by simp, [], by simp [outs, moved], rfl⟩⟩
    | cons y ys =>
      simp only [List.isEmpty_cons, Bool.false_eq_true, if_false]
      obtain ⟨h1, h2, h3, h4⟩ := write_watch os p (y :: ys) c
      have hfirst : ∀ r, due [.send p (y :: ys)] [] = some (SysCall.write p (y :: ys) r).ask := by
        intro r; simp [due, SysCall.ask]
      obtain ⟨w1, w2, w3⟩ := write_spec os p (y :: ys) c.plain
      rcases hr : write (watch os) p (y :: ys) c with ⟨e | n, c1⟩ <;>
        rcases hr' : write os p (y :: ys) c.plain with ⟨e' | n', c1'⟩ <;>
        rw [hr, hr'] at h1 <;> simp only at h1 <;> try cases h1
      · rw [hr, hr'] at h2 h3 h4
        exact ⟨rfl, h2, _, h3, h4, orderly_one (hfirst _), fun h => by simp at h⟩
      · rw [hr, hr'] at h2 h3 h4
        simp only
        by_cases hn : n = 0
        · simp only [hn, dif_pos]
          subst hn
          exact ⟨rfl, h2, _, h3, h4, orderly_one (hfirst _), fun h => by simp at h⟩
        · simp only [hn, dif_neg, not_false_eq_true]
          simp only at h2 h3 h4
          subst h2
          have hnl : n ≤ (y :: ys).length := by
            have := w2 n
            rw [hr'] at this
            exact (this rfl).1
          have hev : SysCall.events (SysCall.write p (y :: ys) (.ok n)) = outs p ((y :: ys).take n) := rfl
          have hlen : (outs p ((y :: ys).take n)).length = n := by
            rw [length_outs, List.length_take]; omega
          obtain ⟨g1, g2, calls, g3, g4, g5, g6⟩ := ih ((y :: ys).drop n).length
            (by rw [List.length_drop]; simp only [List.length_cons] at hk ⊢; omega)
            ((y :: ys).drop n) rfl c1
          refine ⟨g1, g2, .write p (y :: ys) (.ok n) :: calls, ?_, ?_, ?_, fun h => ?_⟩
          · rw [g3, h3, List.append_assoc]; rfl
          · rw [g4, h4, List.append_assoc, ← moved_append]; rfl
          · refine orderly_cons (hfirst _) (by rw [hev]; exact outs_ne hn (by simp)) ?_ g5
            intro l a ha
            simp only [due, SysCall.events, List.length_append, hlen, List.length_drop] at ha ⊢
            split at ha
            · rw [if_pos (by omega), ← ha, List.drop_drop]
            · cases ha
          · obtain ⟨k1, l', k2, k3⟩ := g6 h
            refine ⟨fun s hs => ?_, l', ?_, k3⟩
            · rcases List.mem_cons.1 hs with rfl | hs
              · rw [hev]; exact outs_ne hn (by simp)
              · exact k1 s hs
            · have : moved (.write p (y :: ys) (.ok n) :: calls) =
                  outs p ((y :: ys).take n) ++ moved calls := by simp [moved, SysCall.events]
              rw [this, k2, ← List.append_assoc, ← outs_append, List.take_append_drop]

theorem follows_writeVectored (os : Os σ) (p : Port) (b : Bytes) (hb : b ≠ []) :
    Follows [.once p b] (writeVectored (watch os) p b) (writeVectored os p b) := by
  intro c
  obtain ⟨h1, h2, h3, h4⟩ := write_watch os p b c
  have hfirst : ∀ r, due [.once p b] [] = some (SysCall.write p b r).ask := by
    intro r
    have : 0 < b.length := List.length_pos_iff.2 hb
    simp [due, SysCall.ask, this]
  unfold writeVectored
  rw [bind_def, bind_def, M.bind, M.bind]
  rcases hr : write (watch os) p b c with ⟨e | n, c1⟩ <;>
    rcases hr' : write os p b c.plain with ⟨e' | n', c1'⟩ <;>
    rw [hr, hr'] at h1 <;> simp only at h1 <;> try cases h1
  · rw [hr, hr'] at h2 h3 h4
    exact ⟨rfl, h2, _, h3, h4, orderly_one (hfirst _), fun h => by simp at h⟩
  · rw [hr, hr'] at h2 h3 h4
    simp only
    by_cases hn : n = b.length
    · simp only [hn, ne_eq, not_true_eq_false, if_false, M.pure]
      subst hn
      refine ⟨rfl, h2, _, h3, h4, orderly_one (hfirst _), fun _ => ⟨fun s hs => ?_, [], ?_, rfl⟩⟩
      · rw [List.mem_singleton.1 hs]
        simp only [SysCall.events]
        exact outs_ne (by simpa using hb) hb
      · simp [moved, SysCall.events]
    · simp only [hn, ne_eq, not_false_eq_true, if_true, M.fail]
      exact ⟨rfl, h2, _, h3, h4, orderly_one (hfirst _), fun h => by simp at h⟩

/-- `read_exact`, with what was stored. -/
theorem readExact_watch (os : Os σ) (p : Port) (n : Nat) (c : Conn (σ × List SysCall)) :
    (readExact (watch os) p n c).1 = (readExact os p n c.plain).1 ∧
    (readExact (watch os) p n c).2.1 = (readExact os p n c.plain).2.1 ∧
    (readExact (watch os) p n c).2.2.plain = (readExact os p n c.plain).2.2 ∧
    ∃ calls, (readExact (watch os) p n c).2.2.net.2 = c.net.2 ++ calls ∧
      (readExact (watch os) p n c).2.2.log = c.log ++ moved calls ∧
      moved calls = inps p (readExact (watch os) p n c).2.1 ∧
      Orderly [.recv p n] calls ∧
      ((readExact (watch os) p n c).1.isOk = true → ∀ s ∈ calls, s.events ≠ []) := by
  induction n using Nat.strongRecOn generalizing c with
  | ind n ih =>
    rw [readExact, readExact]
    by_cases hn : n = 0
    · rw [if_pos hn, if_pos hn]
      exact ⟨rfl, rfl, rfl, [], by simp, by simp [moved], by simp [moved, inps], orderly_nil _,
        by simp⟩
    · rw [if_neg hn, if_neg hn]
      obtain ⟨h1, h2, h3, h4⟩ := read_watch os p n c
      have hfirst : ∀ r, due [.recv p n] [] = some (SysCall.read p n r).ask := by
        intro r
        have : 0 < n := by omega
        simp [due, SysCall.ask, this]
      obtain ⟨w1, w2, w3⟩ := read_spec os p n c.plain
      rcases hr : read (watch os) p n c with ⟨e | b, c1⟩ <;>
        rcases hr' : read os p n c.plain with ⟨e' | b', c1'⟩ <;>
        rw [hr, hr'] at h1 <;> simp only at h1 <;> try cases h1
      · rw [hr, hr'] at h2 h3 h4
        exact ⟨rfl, rfl, h2, _, h3, h4, by simp [moved, SysCall.events, inps], orderly_one (hfirst _),
          fun h => by simp at h⟩
      · rw [hr, hr'] at h2 h3 h4
        simp only
        by_cases hb : b.length = 0
        · rw [dif_pos hb, dif_pos hb]
          have hb' : b = [] := List.length_eq_zero_iff.1 hb
          subst hb'
          exact ⟨rfl, rfl, h2, _, h3, h4, by simp [moved, SysCall.events, inps],
            orderly_one (hfirst _), fun h => by simp at h⟩
        · simp only [hb, dif_neg, not_false_eq_true]
          simp only at h2 h3 h4
          subst h2
          have hbn : b.length ≤ n := by
            have := w2 b
            rw [hr'] at this
            exact (this rfl).1
          obtain ⟨g1, g2, g3, calls, g4, g5, g6, g7, g8⟩ := ih (n - b.length) (by omega) c1
          refine ⟨g1, by rw [g2], g3, .read p n (.ok b) :: calls, ?_, ?_, ?_, ?_, fun h => ?_⟩
          · rw [g4, h3, List.append_assoc]; rfl
          · rw [g5, h4, List.append_assoc, ← moved_append]; rfl
          · have : moved (.read p n (.ok b) :: calls) = inps p b ++ moved calls := by
              simp [moved, SysCall.events]
            rw [this, g6, ← inps_append]
          · refine orderly_cons (hfirst _) ?_ ?_ g7
            · simp only [SysCall.events, inps]
              intro hc; exact hb (by simpa using congrArg List.length hc)
            · intro l a ha
              simp only [due, SysCall.events, List.length_append, length_inps] at ha ⊢
              split at ha
              · rw [if_pos (by omega), ← ha, Nat.sub_add_eq]
              · cases ha
          · intro s hs
            rcases List.mem_cons.1 hs with rfl | hs
            · simp only [SysCall.events, inps]
              intro hc; exact hb (by simpa using congrArg List.length hc)
            · exact g8 h s hs

theorem follows_shutdown (os : Os σ) (p : Port) :
    Follows [.shut p] (shutdown (watch os) p) (shutdown os p) := by
  intro c
  unfold shutdown watch Conn.plain Keeps
  simp only
  rcases os.shutdown c.net.1 p with ⟨e | a, s⟩
  · exact ⟨rfl, rfl, _, rfl, by simp [moved, SysCall.events],
      orderly_one (by simp [due, SysCall.ask]), fun h => by simp at h⟩
  · exact ⟨rfl, rfl, _, rfl, by simp [moved, SysCall.events],
      orderly_one (by simp [due, SysCall.ask]),
      fun _ => ⟨by simp [SysCall.events], [], by simp [moved, SysCall.events], rfl⟩⟩

theorem follows_readLocal (os : Os σ) (p : Port) (n : Nat) :
    Follows [.recv p n] (readLocal (watch os) p n) (readLocal os p n) := by
  intro c
  obtain ⟨h1, h2, h3, calls, h4, h5, h6, h7, h8⟩ := readExact_watch os p n c
  obtain ⟨k1, k2, k3, k4⟩ := readExact_spec (watch os) p n c
  unfold readLocal
  rcases hr : readExact (watch os) p n c with ⟨e | a, b, c1⟩ <;>
    rcases hr' : readExact os p n c.plain with ⟨e' | a', b', c1'⟩ <;>
    rw [hr, hr'] at h1 <;> simp only at h1 <;> try cases h1
  · rw [hr] at h2 h3 h4 h5 h6; rw [hr'] at h2 h3
    exact ⟨rfl, h3, calls, h4, h5, h7, fun h => by simp at h⟩
  · rw [hr] at h2 h3 h4 h5 h6 h8 k4; rw [hr'] at h2 h3
    simp only at h2
    subst h2
    exact ⟨rfl, h3, calls, h4, h5, h7, fun _ => ⟨h8 rfl, b, [], k4 rfl, by simpa using h6, rfl⟩⟩

theorem due_recv {p : Port} {l : List Ev} {a : Ask} {x : Piece} {n : Nat} {rest : List Piece}
    (h : due [.recv p n] l = some a)
    (hx : l.length < n → due (x :: rest) l = some (.read p (n - l.length))) :
    due (x :: rest) l = some a := by
  simp only [due] at h
  split at h
  · rename_i hl; rw [hx hl, ← h]
  · cases h

/-- A word that must be `w`. -/
theorem follows_expect {α : Type} (os : Os σ) (p : Port) (w : Nat) (e : IoErr)
    {pieces : List Piece} {f : Bytes → M (σ × List SysCall) α} {f' : Bytes → M σ α}
    (hf : ∀ b, Follows pieces (f b) (f' b)) :
    Follows (.expect p w :: pieces)
      (M.bind (readLocal (watch os) p 4) fun b => if fromBE b ≠ w then M.fail e else f b)
      (M.bind (readLocal os p 4) fun b => if fromBE b ≠ w then M.fail e else f' b) := by
  intro c
  obtain ⟨h1, h2, h3, calls, h4, h5, h6, h7, h8⟩ := readExact_watch os p 4 c
  obtain ⟨k1, k2, k3, k4⟩ := readExact_spec (watch os) p 4 c
  have ho : Orderly (.expect p w :: pieces) calls := fun pre d post he =>
    ⟨due_recv (h7 pre d post he).1 (fun hl => by simp only [due]; rw [if_pos hl]),
      (h7 pre d post he).2⟩
  unfold M.bind readLocal
  rcases hr : readExact (watch os) p 4 c with ⟨e | a, b, c1⟩ <;>
    rcases hr' : readExact os p 4 c.plain with ⟨e' | a', b', c1'⟩ <;>
    rw [hr, hr'] at h1 <;> simp only at h1 <;> try cases h1
  · rw [hr] at h2 h3 h4 h5 h6; rw [hr'] at h2 h3
    exact ⟨rfl, h3, calls, h4, h5, ho, fun h => by simp at h⟩
  · rw [hr] at h2 h3 h4 h5 h6 h8 k4; rw [hr'] at h2 h3
    simp only at h2 h3 h4 h5 h6
    subst h2 h3
    simp only
    by_cases hw : fromBE b = w
    · simp only [hw, ne_eq, not_true_eq_false, if_false]
      have hc : Complete [.expect p w] (moved calls) :=
        ⟨b, [], k4 rfl, by rw [← fromBE_eq_positional]; exact hw, by simpa using h6, rfl⟩
      have ho' : Orderly [.expect p w] calls := fun pre d post he =>
        ⟨due_recv (h7 pre d post he).1 (fun hl => by simp only [due]; rw [if_pos hl]),
          (h7 pre d post he).2⟩
      obtain ⟨g1, g2, calls', g3, g4, g5, g6⟩ := hf b c1
      refine ⟨g1, g2, calls ++ calls', ?_, ?_, ho'.append (h8 rfl) hc g5, fun h => ?_⟩
      · rw [g3, h4, List.append_assoc]
      · rw [g4, h5, moved_append, List.append_assoc]
      · obtain ⟨m1, m2⟩ := g6 h
        refine ⟨fun s hs => ?_, ?_⟩
        · rcases List.mem_append.1 hs with hs | hs
          · exact h8 rfl s hs
          · exact m1 s hs
        · rw [moved_append]; exact hc.append m2
    · simp only [hw, ne_eq, not_false_eq_true, if_true, M.fail]
      exact ⟨rfl, rfl, calls, h4, h5, ho, fun h => by simp at h⟩

theorem follows_ack (os : Os σ) (p : Port) :
    Follows [.expect p 0] (checkResponseEnd (watch os) p) (checkResponseEnd os p) := by
  unfold checkResponseEnd
  exact follows_expect os p 0 .invalidData fun _ => follows_pure ()

/-- One or more pieces first. -/
theorem Follows.cons {α β : Type} {i : Piece} {is : List Piece} {m : M (σ × List SysCall) α}
    {m' : M σ α} {f : α → M (σ × List SysCall) β} {f' : α → M σ β} (hm : Follows [i] m m')
    (hf : ∀ a, Follows is (f a) (f' a)) : Follows (i :: is) (M.bind m f) (M.bind m' f') :=
  hm.bind hf

theorem follows_signal (os : Os σ) (s : Signal) :
    Follows [.send .plat (word (signalCode s)), .expect .plat 0]
      (platformSignal (watch os) s) (platformSignal os s) := by
  unfold platformSignal
  rw [word_eq, signal_code]
  exact (follows_writeAll os .plat _).bind fun _ => follows_ack os .plat

theorem word_ne (x : Nat) (b : Bytes) : word x ++ b ≠ [] := by
  intro h
  have := congrArg List.length h
  simp [word, digits256] at this

/-- Every operation. -/
theorem op_watch (os : Os σ) (op : Op) (c : Conn (σ × List SysCall)) :
    Keeps op.pieces c id (runOp (watch os) op c) (runOp os op c.plain) := by
  have key : ∀ {α : Type} {m : M (σ × List SysCall) α} {m' : M σ α}, Follows op.pieces m m' →
      Keeps op.pieces c id ((m c).1.isOk, (m c).2) ((m' c.plain).1.isOk, (m' c.plain).2) := by
    intro α m m' h
    obtain ⟨h1, h2, h3⟩ := h c
    exact ⟨by rw [h1], h2, h3⟩
  cases op with
  | hcrtmSequence d =>
    refine key ?_
    unfold hcrtmSequence
    simp only [word_eq, TpmCode.val]
    exact (follows_writeAll os .tpm _).bind fun _ => (follows_ack os .tpm).bind fun _ =>
      (follows_writeVectored os .tpm _ (by rw [List.append_assoc]; exact word_ne _ _)).bind
      fun _ => (follows_ack os .tpm).bind fun _ =>
      (follows_writeAll os .tpm _).bind fun _ => follows_ack os .tpm
  | remoteHandshake v =>
    refine key ?_
    unfold remoteHandshake
    simp only [word_eq, TpmCode.val]
    exact (follows_writeVectored os .tpm _ (word_ne _ _)).bind fun _ =>
      (follows_readLocal os .tpm 8).bind fun _ => (follows_ack os .tpm).bind fun _ =>
      follows_pure _
  | setAlternativeResult r =>
    refine key ?_
    unfold setAlternativeResult
    simp only [word_eq, TpmCode.val]
    exact (follows_writeVectored os .tpm _ (word_ne _ _)).bind fun _ => follows_ack os .tpm
  | platformSignal s => exact key (follows_signal os s)
  | reinit =>
    refine key ?_
    unfold reinit
    exact (follows_signal os .nvOff).bind fun _ => (follows_signal os .powerOff).bind fun _ =>
      (follows_signal os .powerOn).bind fun _ => (follows_signal os .nvOn).bind fun _ =>
      follows_pure _
  | testFailureMode =>
    refine key ?_
    unfold testFailureMode
    simp only [word_eq, PlatCode.val]
    exact (follows_writeAll os .plat _).bind fun _ => follows_ack os .plat
  | getCommandResponseSizes =>
    refine key ?_
    unfold getCommandResponseSizes
    simp only [word_eq, PlatCode.val]
    exact (follows_writeAll os .plat _).bind fun _ => follows_expect os .plat 16 .invalidData
      fun _ => (follows_readLocal os .plat 16).bind fun _ => (follows_ack os .plat).bind fun _ =>
      follows_pure _
  | actGetSignaled h =>
    refine key ?_
    unfold actGetSignaled
    simp only [word_eq, PlatCode.val]
    exact (follows_writeVectored os .plat _ (word_ne _ _)).bind fun _ =>
      (follows_readLocal os .plat 4).bind fun _ => (follows_ack os .plat).bind fun _ =>
      follows_pure _
  | setFirmwareHash h =>
    refine key ?_
    unfold setFirmwareHash
    simp only [word_eq, PlatCode.val]
    exact (follows_writeVectored os .plat _ (word_ne _ _)).bind fun _ => follows_ack os .plat
  | setFirmwareSvn h =>
    refine key ?_
    unfold setFirmwareSvn
    simp only [word_eq, PlatCode.val]
    exact (follows_writeVectored os .plat _ (word_ne _ _)).bind fun _ => follows_ack os .plat
  | sessionEnd =>
    refine key ?_
    unfold sessionEnd
    simp only [word_eq, TpmCode.val, PlatCode.val]
    exact (follows_writeAll os .tpm _).bind fun _ => (follows_shutdown os .tpm).bind fun _ =>
      (follows_writeAll os .plat _).bind fun _ => follows_shutdown os .plat
  | stopSimulator =>
    refine key ?_
    unfold stopSimulator
    simp only [word_eq, TpmCode.val, PlatCode.val]
    exact (follows_writeAll os .tpm _).bind fun _ => (follows_shutdown os .tpm).bind fun _ =>
      (follows_writeAll os .plat _).bind fun _ => follows_shutdown os .plat

/-! ### Commands -/

theorem receive_watch (os : Os σ) (response : Bytes) (c : Conn (σ × List SysCall)) :
    Keeps [.reply .tpm response.length, .expect .tpm 0] c (fun r => r.1.isOk)
      (((receive (watch os) response c).1, (receive (watch os) response c).2.1),
        (receive (watch os) response c).2.2)
      (((receive os response c.plain).1, (receive os response c.plain).2.1),
        (receive os response c.plain).2.2) := by
  obtain ⟨h1, h2, h3, calls, h4, h5, h6, h7, h8⟩ := readExact_watch os .tpm 4 c
  obtain ⟨k1, k2, k3, k4⟩ := readExact_spec (watch os) .tpm 4 c
  have ho : ∀ rest, Orderly (.reply .tpm response.length :: rest) calls := fun rest pre d post he =>
    ⟨due_recv (h7 pre d post he).1 (fun hl => by simp only [due]; rw [if_pos hl]),
      (h7 pre d post he).2⟩
  unfold receive readLocal
  rcases hr : readExact (watch os) .tpm 4 c with ⟨e | a, hdr, c1⟩ <;>
    rcases hr' : readExact os .tpm 4 c.plain with ⟨e' | a', hdr', c1'⟩ <;>
    rw [hr, hr'] at h1 <;> simp only at h1 <;> try cases h1
  · rw [hr] at h2 h3 h4 h5 h6; rw [hr'] at h2 h3
    exact ⟨rfl, h3, calls, h4, h5, ho _, fun h => by simp at h⟩
  rw [hr] at h2 h3 h4 h5 h6 h8 k4; rw [hr'] at h2 h3
  simp only at h2 h3 h4 h5 h6
  subst h2 h3
  simp only
  have hh : hdr.length = 4 := k4 rfl
  have hfb := fromBE_eq_positional hdr
  by_cases hbig : fromBE hdr > response.length
  · rw [if_pos hbig, if_pos hbig]
    exact ⟨rfl, rfl, calls, h4, h5, ho _, fun h => by simp at h⟩
  rw [if_neg hbig, if_neg hbig]
  obtain ⟨g1, g2, g3, calls', g4, g5, g6, g7, g8⟩ := readExact_watch os .tpm (fromBE hdr) c1
  obtain ⟨m1, m2, m3, m4⟩ := readExact_spec (watch os) .tpm (fromBE hdr) c1
  have ho2 : ∀ rest, Orderly (.reply .tpm response.length :: rest) (calls ++ calls') := by
    intro rest pre d post he
    rcases List.append_eq_append_iff.1 he with ⟨x, hx, hy⟩ | ⟨x, hx, hy⟩
    · subst hx
      have hn := g7 x d post hy
      refine ⟨?_, hn.2⟩
      have hn := hn.1
      simp only [due] at hn
      split at hn
      · rename_i hl
        rw [← hn, moved_append, h6]
        simp only [due]
        rw [if_neg (by simp; omega), announced_inps _ _ _ hh, if_neg (by omega),
          if_pos (by simp; omega)]
        simp only [List.length_append, length_inps, hh, hfb]
        congr 2; omega
      · cases hn
    · cases x with
      | nil =>
        simp only [List.append_nil, List.nil_append] at hx hy
        subst hx
        have hn := g7 [] d post hy.symm
        refine ⟨?_, hn.2⟩
        have hn := hn.1
        simp only [due, moved, List.flatMap_nil, List.length_nil] at hn
        split at hn
        · rename_i hl
          rw [← hn]
          have := announced_inps .tpm hdr [] hh
          rw [List.append_nil] at this
          rw [h6]
          simp only [due]
          rw [if_neg (by simp; omega), this, if_neg (by omega), if_pos (by simp; omega)]
          simp only [length_inps, hh, hfb]
          congr 2; omega
        · cases hn
      | cons y ys =>
        simp only [List.cons_append, List.cons.injEq] at hy
        obtain ⟨rfl, rfl⟩ := hy
        exact ⟨(ho rest pre d ys hx).1, fun _ => h8 rfl d (by rw [hx]; simp)⟩
  rcases hr2 : readExact (watch os) .tpm (fromBE hdr) c1 with ⟨e | a, b, c2⟩ <;>
    rcases hr2' : readExact os .tpm (fromBE hdr) c1.plain with ⟨e' | a', b', c2'⟩ <;>
    rw [hr2, hr2'] at g1 <;> simp only at g1 <;> try cases g1
  · rw [hr2] at g2 g3 g4 g5 g6; rw [hr2'] at g2 g3
    simp only at g2
    subst g2
    refine ⟨rfl, g3, calls ++ calls', ?_, ?_, ho2 _, fun h => by simp at h⟩
    · simp only at g4 ⊢; rw [g4, h4, List.append_assoc]
    · simp only at g5 ⊢; rw [g5, h5, moved_append, List.append_assoc]
  rw [hr2] at g2 g3 g4 g5 g6 g8 m4; rw [hr2'] at g2 g3
  simp only at g2 g3 g4 g5 g6
  subst g2 g3
  simp only
  have hb : b.length = fromBE hdr := m4 rfl
  have hall : ∀ s ∈ calls ++ calls', s.events ≠ [] := by
    intro s hs
    rcases List.mem_append.1 hs with hs | hs
    · exact h8 rfl s hs
    · exact g8 rfl s hs
  have hcomp : Complete [.reply .tpm response.length] (moved (calls ++ calls')) :=
    ⟨hdr, b, [], hh, by omega, by omega, by rw [moved_append, h6, g6]; simp, rfl⟩
  obtain ⟨f1, f2, calls2, f3, f4, f5, f6⟩ := follows_ack os .tpm c2
  have hord := (ho2 []).append hall hcomp f5
  rcases hr3 : checkResponseEnd (watch os) .tpm c2 with ⟨e | a, c3⟩ <;>
    rcases hr3' : checkResponseEnd os .tpm c2.plain with ⟨e' | a', c3'⟩ <;>
    rw [hr3, hr3'] at f1 <;> simp only at f1 <;> try cases f1
  · rw [hr3] at f2 f3 f4; rw [hr3'] at f2
    refine ⟨rfl, f2, calls ++ calls' ++ calls2, ?_, ?_, hord, fun h => by simp at h⟩
    · simp only at f3 ⊢; rw [f3, g4, h4]; simp only [List.append_assoc]
    · simp only at f4 ⊢; rw [f4, g5, h5, moved_append, moved_append]; simp only [List.append_assoc]
  · rw [hr3] at f2 f3 f4 f6; rw [hr3'] at f2
    refine ⟨rfl, f2, calls ++ calls' ++ calls2, ?_, ?_, hord, fun _ => ?_⟩
    · simp only at f3 ⊢; rw [f3, g4, h4]; simp only [List.append_assoc]
    · simp only at f4 ⊢; rw [f4, g5, h5, moved_append, moved_append]; simp only [List.append_assoc]
    · obtain ⟨n1, n2⟩ := f6 rfl
      refine ⟨fun s hs => ?_, ?_⟩
      · rcases List.mem_append.1 hs with hs | hs
        · exact hall s hs
        · exact n1 s hs
      · rw [moved_append]; exact hcomp.append n2

theorem request_ne (locality : Nat) (command : Bytes) : request locality command ≠ [] := by
  simp [request]

theorem transact_watch (os : Os σ) (command response : Bytes) (c : Conn (σ × List SysCall))
    (hc : command.length < 2 ^ 32) :
    Keeps (commandPieces c.locality command response.length) c (fun r => r.1.isOk)
      (((transact (watch os) command response c).1, (transact (watch os) command response c).2.1),
        (transact (watch os) command response c).2.2)
      (((transact os command response c.plain).1, (transact os command response c.plain).2.1),
        (transact os command response c.plain).2.2) := by
  rw [transact_eq _ _ _ _ hc, transact_eq _ _ _ _ hc]
  obtain ⟨h1, h2, calls, h3, h4, h5, h6⟩ :=
    follows_writeVectored os .tpm (request c.locality command) (request_ne _ _) c
  have hloc : c.plain.locality = c.locality := rfl
  rw [hloc]
  rcases hr : writeVectored (watch os) .tpm (request c.locality command) c with ⟨e | a, c1⟩ <;>
    rcases hr' : writeVectored os .tpm (request c.locality command) c.plain with ⟨e' | a', c1'⟩ <;>
    rw [hr, hr'] at h1 <;> simp only at h1 <;> try cases h1
  · rw [hr] at h2 h3 h4; rw [hr'] at h2
    exact ⟨rfl, h2, calls, h3, h4, h5.more _, fun h => by simp at h⟩
  · rw [hr] at h2 h3 h4 h6; rw [hr'] at h2
    simp only at h2 h3 h4
    subst h2
    obtain ⟨k1, k2⟩ := h6 rfl
    obtain ⟨g1, g2, calls', g3, g4, g5, g6⟩ := receive_watch os response c1
    simp only at g1 g2 g3 g4 g6 ⊢
    refine ⟨g1, g2, calls ++ calls', ?_, ?_, h5.append k1 k2 g5, fun h => ?_⟩
    · simp only; rw [g3, h3, List.append_assoc]
    · simp only; rw [g4, h4, moved_append, List.append_assoc]
    · obtain ⟨k3, k4⟩ := g6 h
      refine ⟨fun s hs => ?_, ?_⟩
      · rcases List.mem_append.1 hs with hs | hs
        · exact k1 s hs
        · exact k3 s hs
      · rw [moved_append]; exact k2.append k4

/-- Orderly calls are bounded by what they transfer. -/
theorem orderly_bound {pieces : List Piece} {calls : List SysCall} (h : Orderly pieces calls) :
    calls.length ≤ (moved calls).length + 1 := by
  have key : ∀ (l : List SysCall), (∀ s ∈ l, s.events ≠ []) → l.length ≤ (moved l).length := by
    intro l
    induction l with
    | nil => intro _; simp
    | cons x xs ih =>
      intro hx
      have h1 := ih (fun s hs => hx s (List.mem_cons_of_mem _ hs))
      have h2 := List.length_pos_iff.2 (hx x (by simp))
      have : moved (x :: xs) = x.events ++ moved xs := by simp [moved]
      rw [this, List.length_append, List.length_cons]; omega
  rcases List.eq_nil_or_concat calls with rfl | ⟨init, last, rfl⟩
  · simp
  · have := key init (fun s hs => by
      obtain ⟨a, b, rfl⟩ := List.append_of_mem hs
      exact (h a s (b ++ [last]) (by simp)).2 (by simp))
    rw [List.concat_eq_append, moved_append, List.length_append, List.length_append]
    simp only [List.length_cons, List.length_nil]; omega

end Verif.Tcp
