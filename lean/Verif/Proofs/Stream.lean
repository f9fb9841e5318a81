import Verif.Spec.Movie
import Mathlib.Tactic.Ring

/-! The stream emitter as a function of the list of operations it is given. -/

namespace IIVision
open Spec

/-- Stream position after `m` operations (292 operations of 7 bytes and an ACK of 4 per 2K). -/
def posOf (m : Nat) : Nat := 2048 * (m / 292) + 7 * (m % 292)

/-- Memory bank after `m` operations. -/
def bankAt (mode : VideoMode) (m : Nat) : Bool := decide (mode = .DHGR ∧ (m / 292) % 2 = 1)

/-- The operations with ACKs inserted; `m` operations have been emitted before. -/
def weave (mode : VideoMode) : Nat → List Opcode → List Opcode
  | _, [] => []
  | m, op :: l =>
    if (m + 1) % 292 = 0 then op :: .ack (bankAt mode (m + 1)) :: weave mode (m + 1) l
    else op :: weave mode (m + 1) l

theorem weave_cons (mode : VideoMode) (m : Nat) (op : Opcode) (l : List Opcode) :
    weave mode m (op :: l) = if (m + 1) % 292 = 0 then
      op :: .ack (bankAt mode (m + 1)) :: weave mode (m + 1) l else op :: weave mode (m + 1) l := rfl

theorem frameOp_length (addr : AddrTable) {op : Opcode} (h : FrameOp op) : (op.emit addr).length = 7 := by
  cases op with
  | header m => rfl
  | tick t p c os =>
    have h' : os.length = 4 := h
    simp [Opcode.emit, Opcode.emitCommand, Opcode.emitData, h']
  | terminate => exact absurd h (by simp [FrameOp])
  | nop => exact absurd h (by simp [FrameOp])
  | ack a => exact absurd h (by simp [FrameOp])

theorem ack_length (addr : AddrTable) (a : Bool) : ((Opcode.ack a).emit addr).length = 4 := rfl
theorem terminate_length (addr : AddrTable) : (Opcode.terminate.emit addr).length = 2 := rfl

theorem flip_bank (mode : VideoMode) (m : Nat) (h : (m + 1) % 292 = 0) :
    (if mode = .DHGR then !bankAt mode m else bankAt mode m) = bankAt mode (m + 1) := by
  cases mode with
  | HGR => simp [bankAt]
  | DHGR =>
    have h1 : (m + 1) / 292 = m / 292 + 1 := by omega
    simp only [bankAt, if_true, true_and, h1]
    rcases Nat.mod_two_eq_zero_or_one (m / 292) with h2 | h2
    · have : (m / 292 + 1) % 2 = 1 := by omega
      simp [h2, this]
    · have : (m / 292 + 1) % 2 = 0 := by omega
      simp [h2, this]

theorem same_bank (mode : VideoMode) (m : Nat) (h : (m + 1) % 292 ≠ 0) :
    bankAt mode (m + 1) = bankAt mode m := by
  have h1 : (m + 1) / 292 = m / 292 := by omega
  simp only [bankAt, h1]

theorem posOf_succ_ack (m : Nat) (h : (m + 1) % 292 = 0) :
    posOf (m + 1) = posOf m + 7 + 4 ∧ (posOf m + 7) % 2048 = 2044 := by unfold posOf; omega

theorem posOf_succ (m : Nat) (h : (m + 1) % 292 ≠ 0) :
    posOf (m + 1) = posOf m + 7 ∧ (posOf m + 7) % 2048 < 2044 := by
  have : m % 292 < 291 := by omega
  have : (posOf m + 7) % 2048 = 7 * (m % 292) + 7 := by unfold posOf; omega
  exact ⟨by unfold posOf; omega, by omega⟩

theorem posOf_mod (m : Nat) : posOf m % 2048 = 7 * (m % 292) := by unfold posOf; omega

theorem ackIfDue_yes (M : Movie) (m : Nat) (h : (m + 1) % 292 = 0) :
    M.ackIfDue (posOf m + 7) (bankAt M.mode m)
      = .ok ([.ack (bankAt M.mode (m + 1))], Opcode.emit M.addr (.ack (bankAt M.mode (m + 1))),
          posOf (m + 1), bankAt M.mode (m + 1)) := by
  obtain ⟨h1, h2⟩ := posOf_succ_ack m h
  unfold Movie.ackIfDue
  rw [if_pos (by omega)]
  simp only [flip_bank M.mode m h, ack_length, ← h1]
  have h3 : posOf (m + 1) % 2048 = 0 := by omega
  simp only [h3, pyAssert, bind, Except.bind, pure, Except.pure, decide_true, if_true]

theorem ackIfDue_no (M : Movie) (m : Nat) (h : (m + 1) % 292 ≠ 0) :
    M.ackIfDue (posOf m + 7) (bankAt M.mode m)
      = .ok ([], [], posOf (m + 1), bankAt M.mode (m + 1)) := by
  obtain ⟨h1, h2⟩ := posOf_succ m h
  unfold Movie.ackIfDue
  rw [if_neg (by omega), same_bank M.mode m h, h1]
  rfl

/-- A run of the operation source under the emitter, after `m` operations. -/
inductive Pulls (M : Movie) {σ : Type} (next : Bool → σ → Except PyErr (Option (Opcode × σ))) :
    Nat → σ → List Opcode → σ → Prop
  | nil (m : Nat) (s : σ) : Pulls M next m s [] s
  | cons {m : Nat} {s s1 s2 : σ} {op : Opcode} {l : List Opcode} :
      next (bankAt M.mode m) s = .ok (some (op, s1)) → M.atLimit (posOf m) = false →
      Pulls M next (m + 1) s1 l s2 → Pulls M next m s (op :: l) s2

/-- Why the emitter stops. -/
def Stops (M : Movie) {σ : Type} (next : Bool → σ → Except PyErr (Option (Opcode × σ)))
    (m : Nat) (s : σ) : Prop :=
  next (bankAt M.mode m) s = .ok none ∨
  (M.atLimit (posOf m) = true ∧ ∃ x, next (bankAt M.mode m) s = .ok (some x))

/-- The result for a list of operations. -/
def emitted (M : Movie) (m : Nat) (l : List Opcode) : List Opcode × List Nat :=
  (weave M.mode m l ++ [.terminate], bytesOf M.addr (weave M.mode m l ++ [.terminate]) ++
    List.replicate (2048 - (posOf (m + l.length) + 2) % 2048) 0)

theorem emitted_nil (M : Movie) (m : Nat) : emitted M m [] = M.done (posOf m) := by
  unfold emitted Movie.done
  simp [weave, bytesOf, terminate_length]

theorem emitted_cons (M : Movie) (m : Nat) (op : Opcode) (l : List Opcode) :
    emitted M m (op :: l) =
      if (m + 1) % 292 = 0 then
        (op :: [.ack (bankAt M.mode (m + 1))] ++ (emitted M (m + 1) l).1,
         op.emit M.addr ++ Opcode.emit M.addr (.ack (bankAt M.mode (m + 1))) ++ (emitted M (m + 1) l).2)
      else (op :: [] ++ (emitted M (m + 1) l).1, op.emit M.addr ++ [] ++ (emitted M (m + 1) l).2) := by
  have h : m + (op :: l).length = m + 1 + l.length := by simp; omega
  unfold emitted
  rw [h]
  rw [weave_cons]
  split
  · simp [bytesOf]
  · simp [bytesOf]

theorem Except.bind_ok {ε α β : Type} (a : α) (f : α → Except ε β) : (Except.ok a >>= f) = f a := rfl

theorem emitLoop_some (M : Movie) {σ : Type} (next : Bool → σ → Except PyErr (Option (Opcode × σ)))
    (n m : Nat) (s s1 : σ) (op : Opcode) (h : next (bankAt M.mode m) s = .ok (some (op, s1)))
    (hl : M.atLimit (posOf m) = false) (hf : FrameOp op) :
    M.emitLoop next (n + 1) s (posOf m) (bankAt M.mode m) =
      (M.emitLoop next n s1 (posOf (m + 1)) (bankAt M.mode (m + 1)) >>= fun r =>
        if (m + 1) % 292 = 0 then
          .ok (op :: [.ack (bankAt M.mode (m + 1))] ++ r.1,
            op.emit M.addr ++ Opcode.emit M.addr (.ack (bankAt M.mode (m + 1))) ++ r.2)
        else .ok (op :: [] ++ r.1, op.emit M.addr ++ [] ++ r.2)) := by
  conv => lhs; unfold Movie.emitLoop
  rw [h, Except.bind_ok]
  simp only [hl, frameOp_length M.addr hf]
  by_cases hm : (m + 1) % 292 = 0
  · rw [ackIfDue_yes M m hm]
    simp only [Except.bind_ok, hm, if_true]
    rfl
  · rw [ackIfDue_no M m hm]
    simp only [Except.bind_ok, hm, if_false]
    rfl

/-- A run of the source that stops determines the stream. -/
theorem loop_intro (M : Movie) {σ : Type} (next : Bool → σ → Except PyErr (Option (Opcode × σ)))
    {m : Nat} {s s2 : σ} {l : List Opcode} (h : Pulls M next m s l s2) :
    ∀ {n : Nat}, l.length < n → Stops M next (m + l.length) s2 → (∀ op ∈ l, FrameOp op) →
    M.emitLoop next n s (posOf m) (bankAt M.mode m) = .ok (emitted M m l) := by
  induction h with
  | nil m s =>
    intro n hn hs _
    cases n with
    | zero => exact absurd hn (by simp)
    | succ n =>
      rw [emitted_nil]
      rcases hs with hs | ⟨hl, x, hs⟩
      · conv => lhs; unfold Movie.emitLoop
        rw [show m = m + [].length from rfl, hs]
        rfl
      · conv => lhs; unfold Movie.emitLoop
        rw [show m + ([] : List Opcode).length = m from rfl] at hs hl
        rw [hs, Except.bind_ok]
        simp only [hl]
        rfl
  | @cons m s s1 s2 op l h1 h2 h3 ih =>
    intro n hn hs hf
    cases n with
    | zero => exact absurd hn (by simp)
    | succ n =>
      rw [emitLoop_some M next n m s s1 op h1 h2 (hf op (by simp))]
      have e : m + (op :: l).length = m + 1 + l.length := by simp; omega
      rw [e] at hs
      rw [ih (n := n) (by simpa using hn) hs (fun o ho => hf o (by simp [ho])), Except.bind_ok,
        emitted_cons]
      split <;> rfl

/-- Every outcome of the emitter comes from a run of its source. -/
theorem loop_elim (M : Movie) {σ : Type} (next : Bool → σ → Except PyErr (Option (Opcode × σ)))
    (hf : ∀ a s op s1, next a s = .ok (some (op, s1)) → FrameOp op) (n : Nat) : ∀ (m : Nat) (s : σ),
    ∃ l s2, Pulls M next m s l s2 ∧ l.length ≤ n ∧ (∀ op ∈ l, FrameOp op) ∧
      ((M.emitLoop next n s (posOf m) (bankAt M.mode m) = .ok (emitted M m l) ∧
        (l.length = n ∨ Stops M next (m + l.length) s2)) ∨
       (∃ e, M.emitLoop next n s (posOf m) (bankAt M.mode m) = .error e ∧
        next (bankAt M.mode (m + l.length)) s2 = .error e)) := by
  induction n with
  | zero =>
    intro m s
    refine ⟨[], s, .nil m s, by simp, by simp, .inl ⟨?_, .inl rfl⟩⟩
    rw [emitted_nil]; rfl
  | succ n ih =>
    intro m s
    cases hx : next (bankAt M.mode m) s with
    | error e =>
      refine ⟨[], s, .nil m s, by simp, by simp, .inr ⟨e, ?_, hx⟩⟩
      unfold Movie.emitLoop
      rw [hx]
      rfl
    | ok x =>
      cases x with
      | none =>
        refine ⟨[], s, .nil m s, by simp, by simp, .inl ⟨?_, .inr (.inl hx)⟩⟩
        rw [emitted_nil]
        unfold Movie.emitLoop
        rw [hx]
        rfl
      | some x =>
        obtain ⟨op, s1⟩ := x
        cases hl : M.atLimit (posOf m) with
        | true =>
          refine ⟨[], s, .nil m s, by simp, by simp, .inl ⟨?_, .inr (.inr ⟨hl, _, hx⟩)⟩⟩
          rw [emitted_nil]
          unfold Movie.emitLoop
          rw [hx, Except.bind_ok]
          simp only [hl]
          rfl
        | false =>
          have hfo := hf _ _ _ _ hx
          obtain ⟨l, s2, h1, h2, h3, h4⟩ := ih (m + 1) s1
          have e : m + (op :: l).length = m + 1 + l.length := by simp; omega
          refine ⟨op :: l, s2, .cons hx hl h1, by simpa using h2, ?_, ?_⟩
          · intro o ho
            rcases List.mem_cons.mp ho with rfl | ho
            · exact hfo
            · exact h3 o ho
          · rw [emitLoop_some M next n m s s1 op hx hl hfo, e]
            rcases h4 with ⟨h5, h6⟩ | ⟨x, h5, h6⟩
            · left
              rw [h5, Except.bind_ok, emitted_cons]
              refine ⟨by split <;> rfl, ?_⟩
              rcases h6 with h6 | h6
              · exact .inl (by simp [h6])
              · exact .inr h6
            · right
              exact ⟨x, by rw [h5]; rfl, h6⟩

/-! ### Layout of the woven list -/

theorem bytesOf_append (addr : AddrTable) (a b : List Opcode) :
    bytesOf addr (a ++ b) = bytesOf addr a ++ bytesOf addr b := by simp [bytesOf]

theorem bytesOf_cons (addr : AddrTable) (op : Opcode) (l : List Opcode) :
    bytesOf addr (op :: l) = op.emit addr ++ bytesOf addr l := by simp [bytesOf]

theorem bytesOf_nil (addr : AddrTable) : bytesOf addr [] = [] := rfl

theorem weave_length (addr : AddrTable) (mode : VideoMode) (l : List Opcode) : ∀ (m : Nat),
    (∀ op ∈ l, FrameOp op) → posOf m + (bytesOf addr (weave mode m l)).length = posOf (m + l.length) := by
  induction l with
  | nil => intro m _; simp [weave, bytesOf]
  | cons op l ih =>
    intro m hf
    have e : m + (op :: l).length = m + 1 + l.length := by simp; omega
    have h := ih (m + 1) (fun o ho => hf o (by simp [ho]))
    have h7 := frameOp_length addr (hf op (by simp))
    rw [e]
    rw [weave_cons]
    split
    · rename_i hm
      have := (posOf_succ_ack m hm).1
      rw [bytesOf_cons, bytesOf_cons, List.length_append, List.length_append, h7, ack_length]
      omega
    · rename_i hm
      have := (posOf_succ m hm).1
      rw [bytesOf_cons, List.length_append, h7]
      omega

def isAck : Opcode → Prop
  | .ack _ => True
  | _ => False

theorem frameOp_notAck {op : Opcode} (h : FrameOp op) : ¬ isAck op := by
  cases op <;> simp_all [FrameOp, isAck]

/-- Where each opcode of the stream lies. -/
theorem weave_layout (addr : AddrTable) (mode : VideoMode) (l : List Opcode) : ∀ (m : Nat)
    (pre : List Opcode) (op : Opcode) (post : List Opcode),
    (∀ op ∈ l, FrameOp op) → weave mode m l ++ [.terminate] = pre ++ op :: post →
    let pos := posOf m + (bytesOf addr pre).length
    (isAck op ↔ pos % 2048 = 2044) ∧ pos % 2048 + (op.emit addr).length ≤ 2048 := by
  induction l with
  | nil =>
    intro m pre op post _ h
    have hm := posOf_mod m
    simp only [weave, List.nil_append] at h
    cases pre with
    | nil =>
      simp only [List.nil_append, List.cons.injEq] at h
      obtain ⟨rfl, -⟩ := h
      simp only [bytesOf, List.flatMap_nil, List.length_nil, Nat.add_zero, terminate_length, isAck]
      refine ⟨⟨fun h => h.elim, fun h => ?_⟩, ?_⟩ <;> omega
    | cons x pre => simp at h
  | cons o l ih =>
    intro m pre op post hf h
    have hm := posOf_mod m
    have hfo := hf o (by simp)
    have hfl : ∀ op ∈ l, FrameOp op := fun x hx => hf x (by simp [hx])
    have h7 := frameOp_length addr hfo
    have first : ∀ q, q = posOf m → (isAck o ↔ q % 2048 = 2044) ∧ q % 2048 + (o.emit addr).length ≤ 2048 := by
      rintro q rfl
      rw [h7]
      refine ⟨⟨fun h => (frameOp_notAck hfo h).elim, fun h => ?_⟩, ?_⟩ <;> omega
    rw [weave_cons] at h
    split at h
    · rename_i ha
      obtain ⟨p1, p2⟩ := posOf_succ_ack m ha
      cases pre with
      | nil =>
        simp only [List.cons_append, List.nil_append, List.cons.injEq] at h
        rw [← h.1]
        exact first _ (by simp [bytesOf])
      | cons x pre =>
        simp only [List.cons_append, List.cons.injEq] at h
        obtain ⟨rfl, h⟩ := h
        cases pre with
        | nil =>
          simp only [List.nil_append, List.cons.injEq] at h
          rw [← h.1]
          simp only [bytesOf_cons, List.length_append, h7, ack_length, isAck, bytesOf_nil, List.length_nil, true_iff]
          omega
        | cons y pre =>
          simp only [List.cons_append, List.cons.injEq] at h
          obtain ⟨rfl, h⟩ := h
          have := ih (m + 1) pre op post hfl h
          rw [p1] at this
          simp only [bytesOf_cons, List.length_append, h7, ack_length]
          have e : posOf m + (7 + (4 + (bytesOf addr pre).length))
            = posOf m + 7 + 4 + (bytesOf addr pre).length := by omega
          rw [e]; exact this
    · rename_i ha
      obtain ⟨p1, p2⟩ := posOf_succ m ha
      cases pre with
      | nil =>
        simp only [List.cons_append, List.nil_append, List.cons.injEq] at h
        rw [← h.1]
        exact first _ (by simp [bytesOf])
      | cons x pre =>
        simp only [List.cons_append, List.cons.injEq] at h
        obtain ⟨rfl, h⟩ := h
        have := ih (m + 1) pre op post hfl h
        rw [p1] at this
        simp only [bytesOf_cons, List.length_append, h7]
        have e : posOf m + (7 + (bytesOf addr pre).length)
          = posOf m + 7 + (bytesOf addr pre).length := by omega
        rw [e]; exact this

/-- Every full block ends with an ACK. -/
theorem weave_blocks (addr : AddrTable) (mode : VideoMode) (l : List Opcode) : ∀ (m : Nat),
    (∀ op ∈ l, FrameOp op) → ∀ k, posOf m < 2048 * (k + 1) → 2048 * (k + 1) ≤ posOf (m + l.length) →
    ∃ pre post, weave mode m l = pre ++ .ack (bankAt mode (292 * (k + 1))) :: post ∧
      posOf m + (bytesOf addr pre).length = 2048 * k + 2044 := by
  induction l with
  | nil => intro m _ k h1 h2; simp only [List.length_nil, Nat.add_zero] at h2; omega
  | cons o l ih =>
    intro m hf k h1 h2
    have h7 := frameOp_length addr (hf o (by simp))
    have hfl : ∀ op ∈ l, FrameOp op := fun x hx => hf x (by simp [hx])
    have e : m + (o :: l).length = m + 1 + l.length := by simp; omega
    rw [e] at h2
    rw [weave_cons]
    split
    · rename_i ha
      obtain ⟨p1, p2⟩ := posOf_succ_ack m ha
      by_cases hk : posOf (m + 1) < 2048 * (k + 1)
      · obtain ⟨pre, post, q1, q2⟩ := ih (m + 1) hfl k hk h2
        refine ⟨o :: .ack (bankAt mode (m + 1)) :: pre, post, by simp [q1], ?_⟩
        simp only [bytesOf_cons, List.length_append, h7, ack_length]
        omega
      · refine ⟨[o], weave mode (m + 1) l, ?_, ?_⟩
        · have : m + 1 = 292 * (k + 1) := by unfold posOf at h1 hk p1; omega
          rw [this]; rfl
        · simp only [bytesOf_cons, List.length_append, h7, bytesOf_nil, List.length_nil]
          unfold posOf at *
          omega
    · rename_i ha
      obtain ⟨p1, p2⟩ := posOf_succ m ha
      have hk : posOf (m + 1) < 2048 * (k + 1) := by
        have := posOf_mod m
        have : m % 292 < 291 := by omega
        have hq : posOf m = 2048 * (m / 292) + 7 * (m % 292) := rfl
        generalize m / 292 = q at hq
        generalize m % 292 = r at hq this
        have : q ≤ k := by omega
        omega
      obtain ⟨pre, post, q1, q2⟩ := ih (m + 1) hfl k hk h2
      refine ⟨o :: pre, post, by simp [q1], ?_⟩
      simp only [bytesOf_cons, List.length_append, h7]
      omega

theorem frameOp_acks_cons {op : Opcode} (h : FrameOp op) (l : List Opcode) : acks (op :: l) = acks l := by
  cases op <;> first | rfl | simp_all [FrameOp]

/-- ACK flags of the stream. -/
theorem weave_acks (mode : VideoMode) (l : List Opcode) : ∀ (m : Nat), (∀ op ∈ l, FrameOp op) →
    acks (weave mode m l) = (List.range' (m / 292) ((m + l.length) / 292 - m / 292)).map
      fun k => decide (mode = .DHGR ∧ k % 2 = 0) := by
  induction l with
  | nil => intro m _; simp [weave, acks]
  | cons o l ih =>
    intro m hf
    have hfl : ∀ op ∈ l, FrameOp op := fun x hx => hf x (by simp [hx])
    have e : m + (o :: l).length = m + 1 + l.length := by simp; omega
    have hfo := hf o (by simp)
    rw [weave_cons]
    split
    · rename_i ha
      rw [frameOp_acks_cons hfo]
      show bankAt mode (m + 1) :: acks _ = _
      rw [ih (m + 1) hfl, e]
      have h1 : (m + 1) / 292 = m / 292 + 1 := by omega
      have h2 : (m + 1 + l.length) / 292 - m / 292 = ((m + 1 + l.length) / 292 - (m + 1) / 292) + 1 := by
        omega
      rw [h2, List.range'_succ, List.map_cons, h1]
      congr 1
      unfold bankAt
      rw [h1]
      congr 1
      apply propext
      constructor <;> rintro ⟨h, h'⟩ <;> exact ⟨h, by omega⟩
    · rename_i ha
      rw [frameOp_acks_cons hfo, ih (m + 1) hfl, e]
      have h1 : (m + 1) / 292 = m / 292 := by omega
      rw [h1]

theorem acks_append (a b : List Opcode) : acks (a ++ b) = acks a ++ acks b := by
  induction a with
  | nil => rfl
  | cons x a ih => cases x <;> simp [acks, ih]

/-- The tick operations of a list of operations, `m` operations having gone before. -/
def ticksFrom (mode : VideoMode) : Nat → List Opcode → List Played
  | _, [] => []
  | m, .tick t p c os :: l =>
    ⟨4 + 2 * t.val, 32 + p.val, c, os, bankAt mode m⟩ :: ticksFrom mode (m + 1) l
  | m, _ :: l => ticksFrom mode (m + 1) l

theorem weave_ticks (mode : VideoMode) (l : List Opcode) (tl : List Opcode) : ∀ (m : Nat),
    (∀ op ∈ l, FrameOp op) → (∀ b, ticksOf b tl = []) →
    ticksOf (bankAt mode m) (weave mode m l ++ tl) = ticksFrom mode m l := by
  induction l with
  | nil => intro m _ h; exact h _
  | cons o l ih =>
    intro m hf htl
    have hfl : ∀ op ∈ l, FrameOp op := fun x hx => hf x (by simp [hx])
    have hfo := hf o (by simp)
    have h := ih (m + 1) hfl htl
    have key : ticksOf (bankAt mode m) (weave mode m (o :: l) ++ tl)
        = ticksOf (bankAt mode m) [o] ++ ticksOf (bankAt mode (m + 1)) (weave mode (m + 1) l ++ tl) := by
      rw [weave_cons]
      split
      · cases o <;> rfl
      · rename_i ha
        rw [same_bank mode m ha]
        cases o <;> first | rfl | simp_all [FrameOp]
    rw [key, h]
    cases o <;> rfl

end IIVision
