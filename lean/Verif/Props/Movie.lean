import Verif.Proofs.Movie
import Verif.Props.Video
import Mathlib.Tactic.Linarith
import Mathlib.Data.Rat.Cast.Order
import Mathlib.Data.Rat.Floor
import Mathlib.Algebra.Order.Floor.Semiring

/-! Properties C23 - C30 of the emitted byte stream. -/

namespace IIVision
open Spec

theorem pos_zero : posOf 0 = 0 := rfl
theorem bank_zero (mode : VideoMode) : bankAt mode 0 = false := by simp [bankAt]

/-- The emitter from the start of the stream. -/
theorem stream_elim (M : Movie) {σ : Type} (next : Bool → σ → Except PyErr (Option (Opcode × σ)))
    (hf : ∀ a s op s1, next a s = .ok (some (op, s1)) → FrameOp op) {n : Nat} {s : σ}
    {ops : List Opcode} {bytes : List Nat} (h : M.emitLoop next n s 0 false = .ok (ops, bytes)) :
    ∃ l, (∀ op ∈ l, FrameOp op) ∧ ops = (emitted M 0 l).1 ∧ bytes = (emitted M 0 l).2 := by
  obtain ⟨l, s2, -, -, h3, h4⟩ := loop_elim M next hf n 0 s
  rw [pos_zero, bank_zero, h] at h4
  rcases h4 with ⟨h4, -⟩ | ⟨e, h4, -⟩
  · cases h4; exact ⟨l, h3, rfl, rfl⟩
  · cases h4

theorem emitted_bytes (M : Movie) (l : List Opcode) (hf : ∀ op ∈ l, FrameOp op) :
    (bytesOf M.addr (weave M.mode 0 l)).length = posOf l.length ∧
    (emitted M 0 l).2.length = posOf l.length + 2 + (2048 - (posOf l.length + 2) % 2048) ∧
    (emitted M 0 l).2 = bytesOf M.addr (weave M.mode 0 l) ++ Opcode.terminate.emit M.addr ++
      List.replicate (2048 - (posOf l.length + 2) % 2048) 0 := by
  have h := weave_length M.addr M.mode l 0 hf
  rw [pos_zero, Nat.zero_add, Nat.zero_add] at h
  refine ⟨h, ?_, ?_⟩
  · unfold emitted
    rw [Nat.zero_add]
    simp only [List.length_append, bytesOf_append, h, List.length_replicate]
    rfl
  · unfold emitted
    rw [Nat.zero_add, bytesOf_append, bytesOf_cons, bytesOf_nil, List.append_nil]

/-! ### C23 -/

/-- C23: for every source of header/tick operations and every address table, the stream is the
concatenation of its opcodes followed by zeros; an opcode is an ACK exactly if it starts 4 bytes
before the end of a 2K block; no opcode crosses a block boundary; and every block but the last
has the bytes of an ACK at its end. -/
theorem C23_ack_blocks (M : Movie) {σ : Type} (next : Bool → σ → Except PyErr (Option (Opcode × σ)))
    (hf : ∀ a s op s1, next a s = .ok (some (op, s1)) → FrameOp op) (n : Nat) (s : σ)
    (ops : List Opcode) (bytes : List Nat) (h : M.emitLoop next n s 0 false = .ok (ops, bytes)) :
    (∃ pad, bytes = bytesOf M.addr ops ++ List.replicate pad 0) ∧
    (∀ pre op post, ops = pre ++ op :: post →
      ((∃ a, op = .ack a) ↔ (bytesOf M.addr pre).length % 2048 = 2044) ∧
      (bytesOf M.addr pre).length % 2048 + (op.emit M.addr).length ≤ 2048) ∧
    (∀ k, 2048 * (k + 1) < bytes.length →
      ∃ a, (bytes.drop (2048 * k + 2044)).take 4 = Opcode.emit M.addr (.ack a)) := by
  obtain ⟨l, hl, h1, h2⟩ := stream_elim M next hf h
  obtain ⟨b1, b2, b3⟩ := emitted_bytes M l hl
  refine ⟨⟨_, by rw [h2, h1]; rfl⟩, ?_, ?_⟩
  · intro pre op post ho
    have := weave_layout M.addr M.mode l 0 pre op post hl (by rw [← ho, h1]; rfl)
    simp only [pos_zero, Nat.zero_add] at this
    refine ⟨?_, this.2⟩
    rw [← this.1]
    cases op <;> simp [isAck]
  · intro k hk
    have hpos : 2048 * (k + 1) ≤ posOf l.length := by
      rw [h2, b2] at hk
      have := posOf_mod l.length
      have h3 : l.length % 292 < 292 := Nat.mod_lt _ (by omega)
      clear h h1 h2 b1 b2 b3 hl
      generalize posOf l.length = P at *
      generalize l.length % 292 = r at *
      obtain ⟨q, rfl⟩ : ∃ q, P = 2048 * q + 7 * r := ⟨P / 2048, by omega⟩
      have hm : (2048 * q + 7 * r + 2) % 2048 = 7 * r + 2 := by omega
      rw [hm] at hk
      omega
    obtain ⟨pre, post, w1, w2⟩ := weave_blocks M.addr M.mode l 0 hl k (by rw [pos_zero]; omega)
      (by rw [Nat.zero_add]; exact hpos)
    rw [pos_zero, Nat.zero_add] at w2
    refine ⟨bankAt M.mode (292 * (k + 1)), ?_⟩
    rw [h2, b3, w1, bytesOf_append, bytesOf_cons]
    simp only [List.append_assoc]
    rw [← w2, List.drop_left]
    exact List.take_left' (ack_length _ _)

/-- C23: the emitter itself never raises: its alignment assertion cannot fire, any exception
comes from the source of operations. -/
theorem C23_no_assertion (M : Movie) {σ : Type} (next : Bool → σ → Except PyErr (Option (Opcode × σ)))
    (hf : ∀ a s op s1, next a s = .ok (some (op, s1)) → FrameOp op) (n : Nat) (s : σ) (e : PyErr)
    (h : M.emitLoop next n s 0 false = .error e) : ∃ a s', next a s' = .error e := by
  obtain ⟨l, s2, -, -, h3, h4⟩ := loop_elim M next hf n 0 s
  rw [pos_zero, bank_zero, h] at h4
  rcases h4 with ⟨h4, -⟩ | ⟨e', h4, h5⟩
  · cases h4
  · cases h4; exact ⟨_, _, h5⟩

/-! ### C24 -/

theorem weave_no_terminate (mode : VideoMode) (l : List Opcode) : ∀ m, (∀ op ∈ l, FrameOp op) →
    Opcode.terminate ∉ weave mode m l := by
  induction l with
  | nil => intro m _; simp [weave]
  | cons o l ih =>
    intro m hf
    have ho : Opcode.terminate ≠ o := by
      rintro rfl
      exact absurd (hf .terminate (by simp)) (by simp [FrameOp])
    have := ih (m + 1) (fun x hx => hf x (by simp [hx]))
    rw [weave_cons]
    split
    · simp only [List.mem_cons, reduceCtorEq, false_or, not_or]
      exact ⟨ho, this⟩
    · simp only [List.mem_cons, not_or]
      exact ⟨ho, this⟩

/-- C24: the stream is a positive number of 2K blocks; its one TERMINATE is its last opcode, lies
in the last block, and is followed only by zeros. -/
theorem C24_terminated (M : Movie) {σ : Type} (next : Bool → σ → Except PyErr (Option (Opcode × σ)))
    (hf : ∀ a s op s1, next a s = .ok (some (op, s1)) → FrameOp op) (n : Nat) (s : σ)
    (ops : List Opcode) (bytes : List Nat) (h : M.emitLoop next n s 0 false = .ok (ops, bytes)) :
    bytes.length % 2048 = 0 ∧ 0 < bytes.length ∧
    ∃ body pad, ops = body ++ [.terminate] ∧ .terminate ∉ body ∧
      bytes = bytesOf M.addr body ++ Opcode.terminate.emit M.addr ++ List.replicate pad 0 ∧
      (bytesOf M.addr body).length / 2048 = (bytes.length - 1) / 2048 := by
  obtain ⟨l, hl, h1, h2⟩ := stream_elim M next hf h
  obtain ⟨b1, b2, b3⟩ := emitted_bytes M l hl
  have h3 : l.length % 292 < 292 := Nat.mod_lt _ (by omega)
  have h4 := posOf_mod l.length
  refine ⟨by rw [h2, b2]; omega, by rw [h2, b2]; omega, weave M.mode 0 l, _, by rw [h1]; rfl,
    weave_no_terminate _ _ _ hl, by rw [h2, b3], ?_⟩
  rw [b1, h2, b2]
  omega

/-! ### C25 -/

/-- Limited and unlimited emission side by side. -/
theorem limit_loop (M : Movie) {σ : Type} (next : Bool → σ → Except PyErr (Option (Opcode × σ)))
    (hf : ∀ a s op s1, next a s = .ok (some (op, s1)) → FrameOp op) (n : Nat) : ∀ (m : Nat) (s : σ) r0,
    ({ M with limit := 0 } : Movie).emitLoop next n s (posOf m) (bankAt M.mode m) = .ok r0 →
    ∃ l0 l, r0 = emitted M m l0 ∧ M.emitLoop next n s (posOf m) (bankAt M.mode m) = .ok (emitted M m l) ∧
      l <+: l0 ∧ (l = l0 ∨ M.atLimit (posOf (m + l.length)) = true) ∧
      (∀ i < l.length, M.atLimit (posOf (m + i)) = false) ∧ (∀ op ∈ l0, FrameOp op) := by
  have h0 : ∀ p, ({ M with limit := 0 } : Movie).atLimit p = false := by
    intro p; simp [Movie.atLimit]
  induction n with
  | zero =>
    intro m s r0 h
    refine ⟨[], [], ?_, ?_, List.prefix_refl _, .inl rfl, by simp, by simp⟩
    · rw [emitted_nil]
      have : ({ M with limit := 0 } : Movie).emitLoop next 0 s (posOf m) (bankAt M.mode m)
        = .ok (M.done (posOf m)) := rfl
      rw [this] at h
      cases h; rfl
    · rw [emitted_nil]; rfl
  | succ n ih =>
    intro m s r0 h
    cases hx : next (bankAt M.mode m) s with
    | error e =>
      unfold Movie.emitLoop at h
      rw [hx] at h
      cases h
    | ok x =>
      cases x with
      | none =>
        refine ⟨[], [], ?_, ?_, List.prefix_refl _, .inl rfl, by simp, by simp⟩
        · rw [emitted_nil]
          unfold Movie.emitLoop at h
          rw [hx] at h
          cases h; rfl
        · rw [emitted_nil]
          unfold Movie.emitLoop
          rw [hx]
          rfl
      | some x =>
        obtain ⟨op, s1⟩ := x
        have hfo := hf _ _ _ _ hx
        rw [emitLoop_some { M with limit := 0 } next n m s s1 op hx (h0 _) hfo] at h
        cases hl : ({ M with limit := 0 } : Movie).emitLoop next n s1 (posOf (m + 1)) (bankAt M.mode (m + 1)) with
        | error e => rw [hl] at h; cases h
        | ok r =>
          rw [hl, Except.bind_ok] at h
          obtain ⟨l0, l, a1, a2, a3, a4, a5, a6⟩ := ih (m + 1) s1 r hl
          have hr0 : r0 = emitted M m (op :: l0) := by
            rw [emitted_cons, ← a1]
            split at h <;> rename_i hc
            · rw [if_pos hc]; cases h; rfl
            · rw [if_neg hc]; cases h; rfl
          have hfo' : ∀ o ∈ op :: l0, FrameOp o := by
            intro o ho
            rcases List.mem_cons.mp ho with rfl | ho
            · exact hfo
            · exact a6 o ho
          cases hlim : M.atLimit (posOf m) with
          | true =>
            refine ⟨op :: l0, [], hr0, ?_, List.nil_prefix, .inr hlim, by simp, hfo'⟩
            rw [emitted_nil]
            unfold Movie.emitLoop
            rw [hx, Except.bind_ok]
            simp only [hlim]
            rfl
          | false =>
            refine ⟨op :: l0, op :: l, hr0, ?_, ?_, ?_, ?_, hfo'⟩
            · rw [emitLoop_some M next n m s s1 op hx hlim hfo, a2, Except.bind_ok, emitted_cons]
              split <;> rfl
            · exact (List.prefix_cons_inj op).mpr a3
            · rcases a4 with rfl | a4
              · exact .inl rfl
              · right
                rw [show m + (op :: l).length = m + 1 + l.length by simp; omega]
                exact a4
            · intro i hi
              cases i with
              | zero => exact hlim
              | succ i =>
                have := a5 i (by simpa using hi)
                rwa [show m + 1 + i = m + (i + 1) by omega] at this

theorem weave_prefix (mode : VideoMode) {l l0 : List Opcode} : ∀ m, l <+: l0 →
    weave mode m l <+: weave mode m l0 := by
  induction l generalizing l0 with
  | nil => intro m _; exact List.nil_prefix
  | cons o l ih =>
    intro m h
    obtain ⟨t, rfl⟩ := h
    have := ih (l0 := l ++ t) (m + 1) (List.prefix_append _ _)
    rw [List.cons_append, weave_cons, weave_cons]
    split
    · rw [List.prefix_cons_inj, List.prefix_cons_inj]; exact this
    · rw [List.prefix_cons_inj]; exact this

/-- Every frame operation of the woven list was number `i` of the source, at `posOf i`. -/
theorem weave_index (addr : AddrTable) (mode : VideoMode) (l : List Opcode) : ∀ (m : Nat)
    (pre : List Opcode) (op : Opcode) (post : List Opcode), (∀ op ∈ l, FrameOp op) →
    weave mode m l = pre ++ op :: post → FrameOp op →
    ∃ i < l.length, posOf m + (bytesOf addr pre).length = posOf (m + i) := by
  induction l with
  | nil => intro m pre op post _ h; simp [weave] at h
  | cons o l ih =>
    intro m pre op post hf h hop
    have h7 := frameOp_length addr (hf o (by simp))
    have hfl : ∀ op ∈ l, FrameOp op := fun x hx => hf x (by simp [hx])
    rw [weave_cons] at h
    cases pre with
    | nil => exact ⟨0, by simp, by simp [bytesOf]⟩
    | cons x pre =>
      split at h
      · rename_i ha
        have p1 := (posOf_succ_ack m ha).1
        simp only [List.cons_append, List.cons.injEq] at h
        obtain ⟨rfl, h⟩ := h
        cases pre with
        | nil =>
          simp only [List.nil_append, List.cons.injEq] at h
          rw [← h.1] at hop
          exact absurd hop (by simp [FrameOp])
        | cons y pre =>
          simp only [List.cons_append, List.cons.injEq] at h
          obtain ⟨rfl, h⟩ := h
          obtain ⟨i, hi, e⟩ := ih (m + 1) pre op post hfl h hop
          refine ⟨i + 1, by simpa using hi, ?_⟩
          rw [bytesOf_cons, bytesOf_cons, List.length_append, List.length_append, h7, ack_length,
            show m + (i + 1) = m + 1 + i by omega, ← e]
          omega
      · rename_i ha
        have p1 := (posOf_succ m ha).1
        simp only [List.cons_append, List.cons.injEq] at h
        obtain ⟨rfl, h⟩ := h
        obtain ⟨i, hi, e⟩ := ih (m + 1) pre op post hfl h hop
        refine ⟨i + 1, by simpa using hi, ?_⟩
        rw [bytesOf_cons, List.length_append, h7, show m + (i + 1) = m + 1 + i by omega, ← e]
        omega

theorem atLimit_iff (M : Movie) (hm : 0 < M.limit) (p : Nat) :
    M.atLimit p = true ↔ M.limit ≤ (p : Rat) := by
  unfold Movie.atLimit
  simp only [decide_eq_true_eq, and_iff_right_iff_imp]
  intro _ h
  rw [h] at hm
  exact absurd hm (by simp)

/-- C25: emission under a positive limit `m` succeeds whenever unlimited emission does; its
opcodes before TERMINATE are a prefix of the unlimited ones; every header/tick operation in it
starts before byte `m`; if anything was cut, the body has reached `m`; and the whole stream is
shorter than `m + 2059` bytes. -/
theorem C25_limit (M : Movie) (hm : 0 < M.limit) {σ : Type}
    (next : Bool → σ → Except PyErr (Option (Opcode × σ)))
    (hf : ∀ a s op s1, next a s = .ok (some (op, s1)) → FrameOp op) (n : Nat) (s : σ)
    (body0 : List Opcode) (bytes0 : List Nat)
    (h : ({ M with limit := 0 } : Movie).emitLoop next n s 0 false = .ok (body0 ++ [.terminate], bytes0)) :
    ∃ body bytes, M.emitLoop next n s 0 false = .ok (body ++ [.terminate], bytes) ∧
      body <+: body0 ∧ bytes.take (bytesOf M.addr body).length = bytes0.take (bytesOf M.addr body).length ∧
      (∀ pre op post, body = pre ++ op :: post → FrameOp op →
        ((bytesOf M.addr pre).length : Rat) < M.limit) ∧
      ((body = body0 ∧ bytes = bytes0) ∨ M.limit ≤ ((bytesOf M.addr body).length : Rat)) ∧
      (bytes.length : Rat) < M.limit + 2059 := by
  obtain ⟨l0, l, a1, a2, a3, a4, a5, a6⟩ := limit_loop M next hf n 0 s _
    (by rw [pos_zero, bank_zero]; exact h)
  have hfl : ∀ op ∈ l, FrameOp op := fun o ho => a6 o (a3.subset ho)
  rw [pos_zero, bank_zero] at a2
  have e0 : body0 = weave M.mode 0 l0 ∧ bytes0 = (emitted M 0 l0).2 := by
    have h1 := congrArg Prod.fst a1
    have h2 := congrArg Prod.snd a1
    exact ⟨List.append_inj_left' h1 rfl, h2⟩
  obtain ⟨b1, b2, b3⟩ := emitted_bytes M l hfl
  obtain ⟨c1, c2, c3⟩ := emitted_bytes M l0 a6
  have hpre := weave_prefix M.mode 0 a3
  simp only [Nat.zero_add] at a4 a5
  refine ⟨weave M.mode 0 l, (emitted M 0 l).2, a2, ?_, ?_, ?_, ?_, ?_⟩
  · rw [e0.1]; exact hpre
  · rw [e0.2, b3, c3]
    obtain ⟨t, ht⟩ := hpre
    rw [← ht, bytesOf_append]
    simp only [List.append_assoc, List.take_left]
  · intro pre op post hb hop
    obtain ⟨i, hi, e⟩ := weave_index M.addr M.mode l 0 pre op post hfl hb hop
    rw [pos_zero, Nat.zero_add, Nat.zero_add] at e
    have := a5 i hi
    rw [e]
    by_contra hc
    rw [(atLimit_iff M hm _).mpr (not_lt.mp hc)] at this
    exact absurd this (by simp)
  · rcases a4 with rfl | a4
    · exact .inl ⟨e0.1.symm, e0.2.symm⟩
    · right
      rw [b1]
      exact (atLimit_iff M hm _).mp a4
  · rcases Nat.eq_zero_or_pos l.length with hl | hl
    · have : (((emitted M 0 l).2.length : Nat) : Rat) = 2048 := by
        rw [b2, hl, pos_zero]; norm_num
      linarith
    have h1 := a5 (l.length - 1) (by omega)
    have h2 : ((posOf (l.length - 1) : Nat) : Rat) < M.limit := by
      by_contra hc
      rw [(atLimit_iff M hm _).mpr (not_lt.mp hc)] at h1
      exact absurd h1 (by simp)
    have h3 : (emitted M 0 l).2.length ≤ posOf (l.length - 1) + 2059 := by
      rw [b2]
      obtain ⟨k, hk⟩ : ∃ k, l.length = k + 1 := ⟨l.length - 1, by omega⟩
      rw [hk, Nat.add_sub_cancel]
      by_cases hc : (k + 1) % 292 = 0
      · have := posOf_succ_ack k hc
        omega
      · have := posOf_succ k hc
        omega
    have h4 : (((emitted M 0 l).2.length : Nat) : Rat) ≤ (posOf (l.length - 1) : Nat) + 2059 := by
      exact_mod_cast h3
    linarith

theorem weave_withoutAcks (mode : VideoMode) (l : List Opcode) : ∀ m, (∀ op ∈ l, FrameOp op) →
    withoutAcks (weave mode m l) = l := by
  induction l with
  | nil => intro m _; rfl
  | cons o l ih =>
    intro m hf
    have h1 := ih (m + 1) (fun x hx => hf x (by simp [hx]))
    have h2 := frameOp_notAck (hf o (by simp))
    rw [weave_cons]
    unfold withoutAcks at h1 ⊢
    cases o <;> split <;> simp_all [isAck]

/-- C25: with a limit of 0 (or None) nothing is cut: the stream consists of all operations of the
source in order, ACKs and the final TERMINATE. -/
theorem C25_unlimited (M : Movie) (h0 : M.limit = 0) (l : List Opcode) (hl : ∀ op ∈ l, FrameOp op) :
    ∃ ops bytes, M.emitLoop listNext (l.length + 1) l 0 false = .ok (ops, bytes) ∧
      withoutAcks ops = l ++ [.terminate] := by
  have hp : ∀ (m : Nat) (l : List Opcode), Pulls M listNext m l l [] := by
    intro m l
    induction l generalizing m with
    | nil => exact .nil _ _
    | cons o l ih => exact .cons rfl (by simp [Movie.atLimit, h0]) (ih _)
  have := loop_intro M listNext (hp 0 l) (n := l.length + 1) (by omega) (.inl rfl) hl
  rw [pos_zero, bank_zero] at this
  refine ⟨_, _, this, ?_⟩
  show withoutAcks (weave M.mode 0 l ++ [.terminate]) = _
  unfold withoutAcks
  rw [List.filter_append]
  congr 1
  exact weave_withoutAcks M.mode l 0 hl

/-! ### C26 -/

/-- C26: the `k`-th ACK selects the aux bank iff the mode is DHGR and `k` is even. -/
theorem C26_ack_banks (M : Movie) {σ : Type} (next : Bool → σ → Except PyErr (Option (Opcode × σ)))
    (hf : ∀ a s op s1, next a s = .ok (some (op, s1)) → FrameOp op) (n : Nat) (s : σ)
    (ops : List Opcode) (bytes : List Nat) (h : M.emitLoop next n s 0 false = .ok (ops, bytes))
    (k : Nat) (a : Bool) (hk : (acks ops)[k]? = some a) : a = true ↔ M.mode = .DHGR ∧ k % 2 = 0 := by
  obtain ⟨l, hl, h1, h2⟩ := stream_elim M next hf h
  have e : acks ops = acks (weave M.mode 0 l) := by
    rw [h1]
    show acks (_ ++ [.terminate]) = _
    rw [acks_append]
    simp [acks]
  rw [e, weave_acks M.mode l 0 hl, List.getElem?_map] at hk
  obtain ⟨j, hj, rfl⟩ := Option.map_eq_some_iff.mp hk
  rw [List.getElem?_eq_some_iff] at hj
  obtain ⟨hlt, hj⟩ := hj
  rw [List.getElem_range'] at hj
  simp only [Nat.zero_div, Nat.zero_add, Nat.one_mul] at hj
  subst hj
  simp

/-! ### C27 - C30 -/

theorem fetched_due {thr : Nat → Nat} (h : Paced thr) (t : Nat) :
    fetched thr t ≤ t ∧ (∀ k < fetched thr t, due thr k ≤ t) ∧ t < due thr (fetched thr t) := by
  induction t with
  | zero => exact ⟨Nat.le_refl _, by simp [fetched], by simp [fetched, due]⟩
  | succ t ih =>
    obtain ⟨h1, h2, h3⟩ := ih
    rw [fetched_succ]
    split
    · rename_i hc
      refine ⟨by omega, ?_, ?_⟩
      · intro k hk
        rcases Nat.lt_succ_iff_lt_or_eq.mp hk with hk | rfl
        · have := h2 k hk; omega
        · unfold due; omega
      · have := h.step (fetched thr t)
        unfold due at h3 ⊢
        omega
    · rename_i hc
      refine ⟨by omega, fun k hk => by have := h2 k hk; omega, ?_⟩
      unfold due; omega

theorem due_strict {thr : Nat → Nat} (h : Paced thr) {j k : Nat} (hjk : j < k) : due thr j < due thr k := by
  induction hjk with
  | refl => have := h.step j; unfold due; simp only [Nat.succ_eq_add_one]; omega
  | step _ ih => rename_i m _; have := h.step m; unfold due at *; simp only [Nat.succ_eq_add_one] at *; omega

/-- C29: frame `k` is fetched at tick `due k` = max (k+1) (threshold k), for every `k`,
independently of everything else; in particular frames never accumulate delay and no tick
fetches two. -/
theorem C29_no_drift (thr : Nat → Nat) (h : Paced thr) (k : Nat) :
    fetched thr (due thr k) = k + 1 ∧ fetched thr (due thr k - 1) = k := by
  have hpos : 1 ≤ due thr k := by unfold due; omega
  have key : ∀ t K, (∀ j < K, due thr j ≤ t) → t < due thr K → fetched thr t = K := by
    intro t K h1 h2
    obtain ⟨-, g2, g3⟩ := fetched_due h t
    rcases Nat.lt_trichotomy (fetched thr t) K with hc | hc | hc
    · have := h1 _ hc; omega
    · exact hc
    · have := g2 _ hc; omega
  refine ⟨key _ _ ?_ ?_, key _ _ ?_ ?_⟩
  · intro j hj
    rcases Nat.lt_succ_iff_lt_or_eq.mp hj with hj | rfl
    · exact Nat.le_of_lt (due_strict h hj)
    · exact Nat.le_refl _
  · exact due_strict h (Nat.lt_succ_self k)
  · intro j hj
    have := due_strict h hj
    omega
  · omega

/-- C29: thresholds computed as `ticks_per_frame * k`, with any rounding of the product by at
most half a tick, are paced if there are at least two ticks per frame; then every frame but the
first (which comes at tick 1) is fetched exactly at the first tick not before its product. -/
theorem C29_float_thresholds (q : Rat) (hq : 2 ≤ q) (x : Nat → Rat) (hx0 : x 0 = 0)
    (hx : ∀ k : Nat, |x k - q * k| ≤ 1 / 2) :
    Paced (fun k => ⌈x k⌉₊) ∧
    ∀ k, 1 ≤ k → ∀ t : Nat, due (fun k => ⌈x k⌉₊) k ≤ t ↔ x k ≤ t := by
  have hb : ∀ k : Nat, q * k - 1 / 2 ≤ x k ∧ x k ≤ q * k + 1 / 2 := by
    intro k
    have := abs_le.mp (hx k)
    constructor <;> linarith [this.1, this.2]
  refine ⟨⟨by simp [hx0], ?_⟩, ?_⟩
  · intro k
    have h1 := (hb k).2
    have h2 := (hb (k + 1)).1
    have h3 : x k + 1 ≤ x (k + 1) := by push_cast at h2; linarith
    have h4 : ⌈x k⌉₊ < ⌈x (k + 1)⌉₊ := by
      rw [Nat.lt_ceil]
      by_cases hz : x k ≤ 0
      · have hz' : ⌈x k⌉₊ = 0 := Nat.ceil_eq_zero.mpr hz
        rw [hz']
        have : (0 : Rat) ≤ k := Nat.cast_nonneg k
        push_cast at h2 ⊢
        nlinarith
      · have := Nat.ceil_lt_add_one (le_of_lt (not_le.mp hz))
        linarith
    exact h4
  · intro k hk t
    have h2 := (hb k).1
    have hk' : (1 : Rat) ≤ k := by exact_mod_cast hk
    have h3 : (k : Rat) < x k := by nlinarith
    have h4 : k < ⌈x k⌉₊ := Nat.lt_ceil.mpr h3
    unfold due
    rw [max_eq_right h4]
    exact Nat.ceil_le

theorem ticksFrom_get (mode : VideoMode) (l : List Opcode) : ∀ (m i : Nat) (t p : Fin 32) (c : U8)
    (os : List (Fin 256)), (∀ op ∈ l, ∃ t p c os, op = .tick t p c os) → l[i]? = some (.tick t p c os) →
    (ticksFrom mode m l)[i]? = some ⟨4 + 2 * t.val, 32 + p.val, c, os, bankAt mode (m + i)⟩ := by
  induction l with
  | nil => intro m i t p c os _ h; simp at h
  | cons o l ih =>
    intro m i t p c os ha h
    obtain ⟨t', p', c', os', rfl⟩ := ha o (by simp)
    unfold ticksFrom
    cases i with
    | zero =>
      simp only [List.getElem?_cons_zero, Option.some.injEq, Opcode.tick.injEq] at h
      obtain ⟨rfl, rfl, rfl, rfl⟩ := h
      simp
    | succ i =>
      simp only [List.getElem?_cons_succ] at h ⊢
      rw [ih (m + 1) i t p c os (fun o ho => ha o (by simp [ho])) h,
        show m + 1 + i = m + (i + 1) by omega]

theorem ticksFrom_length (mode : VideoMode) (l : List Opcode) : ∀ (m : Nat),
    (∀ op ∈ l, ∃ t p c os, op = .tick t p c os) → (ticksFrom mode m l).length = l.length := by
  induction l with
  | nil => intro m _; rfl
  | cons o l ih =>
    intro m ha
    obtain ⟨t', p', c', os', rfl⟩ := ha o (by simp)
    unfold ticksFrom
    rw [List.length_cons, ih (m + 1) (fun o ho => ha o (by simp [ho])), List.length_cons]

/-- Everything about the stream of a movie, in specification terms. -/
theorem tickCalls_congr {M : Movie} {F : List Frame} {b b' : Nat → Bool} {n : Nat} (h : ∀ i < n, b i = b' i) {i : Nat} (hi : i < n) :
    tickCalls M F b i = tickCalls M F b' i := by
  unfold tickCalls
  rw [h i hi, h (i - 1) (by omega)]

theorem movieCalls_congr {M : Movie} {F : List Frame} {b b' : Nat → Bool} {n : Nat} (h : ∀ i < n, b i = b' i) :
    movieCalls M F b n = movieCalls M F b' n := by
  unfold movieCalls
  rw [List.flatMap_def, List.flatMap_def]
  congr 1
  apply List.map_congr_left
  intro i hi
  exact tickCalls_congr h (List.mem_range.mp hi)

theorem movie_exact (M : Movie) (A : List Int) (F : List Frame) (hin : MovieInput M A F)
    (tape : Nat → Nat) :
    ∃ body bytes calls e steps, M.stream tape A F = .ok (.header M.mode :: body ++ [.terminate], bytes) ∧
      Legal M.mode calls ∧ runNew M.mode M.table tape calls = .ok (e, steps) ∧
      (ticksOf false body).length = steps.length ∧ steps.length ≤ A.length ∧
      Ended M A F steps.length ∧
      (bytesOf M.addr (.header M.mode :: body)).length = posOf (steps.length + 1) ∧
      (∀ i x s, (ticksOf false body)[i]? = some x → steps[i]? = some s →
        fetched M.thr (i + 1) ≤ F.length ∧ 1 ≤ fetched M.thr (i + 1) ∧
        ShownBitmap M F (fetched M.thr (i + 1)) s.target ∧ StepOk M.table M.mode s ∧
        x.bank = s.isAux ∧ x.page = s.op.page ∧ x.content = s.op.content ∧ x.offsets = s.op.offsets ∧
        ∃ au, A[i]? = some au ∧ (x.duty : Int) = 2 * au + 34) ∧
      calls = movieCalls M F (tickBank (ticksOf false body)) (ticksOf false body).length := by
  obtain ⟨l, calls, e, steps, h1, h2, h3, h4, h5, h6, h7, h8, h9⟩ := stream_exact hin tape
  have hall : ∀ op ∈ l, ∃ t p c os, op = .tick t p c os := by
    intro op hop
    obtain ⟨i, hi, rfl⟩ := List.getElem_of_mem hop
    have hs : i < steps.length := by omega
    obtain ⟨t, p, au, -, h, -⟩ := (h8 i _ _ (List.getElem?_eq_getElem hi) (List.getElem?_eq_getElem hs)).tick
    exact ⟨t, p, _, _, h⟩
  have hfl : ∀ op ∈ (.header M.mode :: l), FrameOp op := by
    intro op hop
    rcases List.mem_cons.mp hop with rfl | hop
    · trivial
    · exact h2 op hop
  have hw0 : weave M.mode 0 (.header M.mode :: l) = .header M.mode :: weave M.mode 1 l := by
    rw [weave_cons, if_neg (by decide)]
  have hb1 : bankAt M.mode 1 = false := by simp [bankAt]
  have htk : ticksOf false (weave M.mode 1 l) = ticksFrom M.mode 1 l := by
    have := weave_ticks M.mode l [] 1 h2 (fun _ => rfl)
    rwa [List.append_nil, hb1] at this
  refine ⟨weave M.mode 1 l, (emitted M 0 (.header M.mode :: l)).2, calls, e, steps, ?_, h5, h6, ?_, by omega,
    by rw [h7]; exact h3, ?_, ?_, ?_⟩
  · rw [h1, ← hw0]; rfl
  · rw [htk, ticksFrom_length _ _ _ hall, h7]
  · rw [← hw0, (emitted_bytes M _ hfl).1, h7]; rfl
  · intro i x s hx hs
    have hi : i < l.length := by
      rw [htk] at hx
      have := (List.getElem?_eq_some_iff.mp hx).1
      rwa [ticksFrom_length _ _ _ hall] at this
    have hr := h8 i _ s (List.getElem?_eq_getElem hi) hs
    obtain ⟨t, p, au, q1, q2, q3, q4, q5⟩ := hr.tick
    have hg := ticksFrom_get M.mode l 1 i t p s.op.content s.op.offsets hall
      (by rw [List.getElem?_eq_getElem hi, q2])
    rw [htk, hg] at hx
    simp only [Option.some.injEq] at hx
    subst hx
    refine ⟨hr.enough, hr.started, hr.target, hr.ok, ?_, q4, rfl, rfl, au, q1, q3⟩
    rw [hr.bank, Nat.add_comm 1 i]
  · rw [htk, ticksFrom_length _ _ _ hall, h9]
    refine movieCalls_congr fun i hi => ?_
    obtain ⟨t, p, c, os, hop⟩ := hall _ (List.getElem_mem hi)
    have hg := ticksFrom_get M.mode l 1 i t p c os hall (by rw [List.getElem?_eq_getElem hi, hop])
    unfold tickBank
    rw [hg]
    dsimp only
    rw [Nat.add_comm 1 i]

theorem movie_facts (M : Movie) (A : List Int) (F : List Frame) (hin : MovieInput M A F)
    (tape : Nat → Nat) :
    ∃ body bytes calls e steps, M.stream tape A F = .ok (.header M.mode :: body ++ [.terminate], bytes) ∧
      Legal M.mode calls ∧ runNew M.mode M.table tape calls = .ok (e, steps) ∧
      (ticksOf false body).length = steps.length ∧ steps.length ≤ A.length ∧
      Ended M A F steps.length ∧
      (bytesOf M.addr (.header M.mode :: body)).length = posOf (steps.length + 1) ∧
      (∀ i x s, (ticksOf false body)[i]? = some x → steps[i]? = some s →
        fetched M.thr (i + 1) ≤ F.length ∧ 1 ≤ fetched M.thr (i + 1) ∧
        ShownBitmap M F (fetched M.thr (i + 1)) s.target ∧ StepOk M.table M.mode s ∧
        x.bank = s.isAux ∧ x.page = s.op.page ∧ x.content = s.op.content ∧ x.offsets = s.op.offsets ∧
        ∃ au, A[i]? = some au ∧ (x.duty : Int) = 2 * au + 34) := by
  obtain ⟨body, bytes, calls, e, steps, h1, h2, h3, h4, h5, h6, h7, h8, -⟩ := movie_exact M A F hin tape
  exact ⟨body, bytes, calls, e, steps, h1, h2, h3, h4, h5, h6, h7, h8⟩

/-- C27: a movie's stream is produced without an exception, starts with the header of its mode,
and there is a legal history of the frame encoder (so C15 - C22 apply to it) whose operations are
exactly the tick operations of the stream in order; each was computed for the bank selected by
the last ACK before it (main before the first), with the frame due at that time as its target. -/
theorem C27_stream_is_history (M : Movie) (A : List Int) (F : List Frame) (hin : MovieInput M A F)
    (hp : Paced M.thr) (tape : Nat → Nat) :
    ∃ body bytes calls e steps, M.stream tape A F = .ok (.header M.mode :: body ++ [.terminate], bytes) ∧
      Legal M.mode calls ∧ runNew M.mode M.table tape calls = .ok (e, steps) ∧
      (ticksOf false body).length = steps.length ∧
      ∀ i x s, (ticksOf false body)[i]? = some x → steps[i]? = some s →
        x.bank = s.isAux ∧ x.page = s.op.page ∧ x.content = s.op.content ∧ x.offsets = s.op.offsets ∧
        ∀ k, due M.thr k ≤ i + 1 → i + 1 < due M.thr (k + 1) →
          ∃ f, F[shown M.everyN (k + 1)]? = some f ∧ M.bitmapOf f = .ok s.target := by
  obtain ⟨body, bytes, calls, e, steps, h1, h2, h3, h4, -, -, -, h5⟩ := movie_facts M A F hin tape
  refine ⟨body, bytes, calls, e, steps, h1, h2, h3, h4, ?_⟩
  intro i x s hx hs
  obtain ⟨a1, a2, a3, a4, a5, a6, a7, a8, -⟩ := h5 i x s hx hs
  refine ⟨a5, a6, a7, a8, ?_⟩
  intro k hk1 hk2
  have hK : fetched M.thr (i + 1) = k + 1 := by
    obtain ⟨-, g2, g3⟩ := fetched_due hp (i + 1)
    rcases Nat.lt_trichotomy (fetched M.thr (i + 1)) (k + 1) with hc | hc | hc
    · rcases Nat.lt_succ_iff_lt_or_eq.mp hc with hc | hc
      · have := due_strict hp hc; omega
      · rw [hc] at g3; omega
    · exact hc
    · have := g2 _ hc; omega
  rw [hK] at a3
  exact a3

theorem ticksOf_terminate (body : List Opcode) : ∀ b,
    ticksOf b (body ++ [.terminate]) = ticksOf b body := by
  induction body with
  | nil => intro b; rfl
  | cons o body ih => intro b; cases o <;> simp [ticksOf, ih]

/-- C27: the history, exactly: the `i`-th tick of the stream carries the operation obtained by `next()` after frames have been
started as `tickCalls` says, and nothing else is done with the encoder. -/
theorem C27_exact_history (M : Movie) (A : List Int) (F : List Frame) (hin : MovieInput M A F) (tape : Nat → Nat)
    (ops : List Opcode) (bytes : List Nat) (h : M.stream tape A F = .ok (ops, bytes)) :
    ∃ e steps, Legal M.mode (movieCalls M F (tickBank (ticksOf false ops)) (ticksOf false ops).length) ∧
      runNew M.mode M.table tape (movieCalls M F (tickBank (ticksOf false ops)) (ticksOf false ops).length) = .ok (e, steps) ∧
      (ticksOf false ops).length = steps.length ∧
      ∀ (i : Nat) (x : Played) (s : Step), (ticksOf false ops)[i]? = some x → steps[i]? = some s →
        x.bank = s.isAux ∧ x.page = s.op.page ∧ x.content = s.op.content ∧ x.offsets = s.op.offsets := by
  obtain ⟨body, bytes', calls, e, steps, h1, h2, h3, h4, -, -, -, h5, h6⟩ := movie_exact M A F hin tape
  rw [h1] at h
  simp only [Except.ok.injEq, Prod.mk.injEq] at h
  obtain ⟨rfl, rfl⟩ := h
  have htk : ticksOf false (.header M.mode :: body ++ [.terminate]) = ticksOf false body := ticksOf_terminate body false
  rw [htk]
  subst h6
  refine ⟨e, steps, h2, h3, h4, fun i x s hx hs => ?_⟩
  obtain ⟨-, -, -, -, a5, a6, a7, a8, -⟩ := h5 i x s hx hs
  exact ⟨a5, a6, a7, a8⟩

/-- C28: the `i`-th tick of the stream has duty 2*s+34 for the `i`-th sample s; the stream stops
only when the samples are used up, or the next frame is due at the next tick and there is none, or
the size limit has been reached. -/
theorem C28_audio (M : Movie) (A : List Int) (F : List Frame) (hin : MovieInput M A F)
    (hp : Paced M.thr) (tape : Nat → Nat) (ops : List Opcode) (bytes : List Nat)
    (h : M.stream tape A F = .ok (ops, bytes)) :
    (ticksOf false ops).map (fun x => (x.duty : Int))
      = (A.take (ticksOf false ops).length).map (fun s => 2 * s + 34) ∧
    ((ticksOf false ops).length = A.length ∨
     ((ticksOf false ops).length < A.length ∧ due M.thr F.length = (ticksOf false ops).length + 1) ∨
     (M.limit ≠ 0 ∧ M.limit ≤ ((bytesOf M.addr ops.dropLast).length : Rat))) := by
  obtain ⟨body, bytes', calls, e, steps, h1, h2, h3, h4, h5, h6, h7, h8⟩ := movie_facts M A F hin tape
  rw [h1] at h
  simp only [Except.ok.injEq, Prod.mk.injEq] at h
  obtain ⟨rfl, rfl⟩ := h
  have htk : ticksOf false (.header M.mode :: body ++ [.terminate]) = ticksOf false body := by
    exact ticksOf_terminate body false
  rw [htk]
  constructor
  · apply List.ext_getElem?
    intro i
    rw [List.getElem?_map, List.getElem?_map]
    by_cases hi : i < (ticksOf false body).length
    · obtain ⟨-, -, -, -, -, -, -, -, au, q1, q2⟩ := h8 i _ _ (List.getElem?_eq_getElem hi)
        (List.getElem?_eq_getElem (by omega : i < steps.length))
      rw [List.getElem?_eq_getElem hi, List.getElem?_take, if_pos hi, q1]
      simp only [Option.map_some, q2]
    · rw [List.getElem?_eq_none (by omega), List.getElem?_take, if_neg hi]
      rfl
  · rw [h4]
    rcases h6 with h6 | ⟨g1, g2, g3⟩ | ⟨g1, g2⟩
    · exact .inl h6
    · right; left
      refine ⟨g1, ?_⟩
      obtain ⟨x1, x2, x3⟩ := fetched_due hp steps.length
      rw [g3] at g2 x1 x3
      unfold due at *
      omega
    · right; right
      rw [List.dropLast_concat, h7]
      unfold Movie.atLimit at g2
      simpa using g2

/-- C30: with stride `n`, the target of every tick is the frame with the largest index divisible
by `n` among the frames `0 .. k` that were due by then; in particular frame 0 from the first tick
on. -/
theorem C30_stride (n : Int) (hn : n ≠ 0) (k : Nat) :
    n ∣ (shown n (k + 1) : Int) ∧ shown n (k + 1) ≤ k ∧
    (∀ j : Nat, n ∣ (j : Int) → j ≤ k → j ≤ shown n (k + 1)) ∧ shown n 1 = 0 := by
  have hpos : 0 < n.natAbs := Int.natAbs_pos.mpr hn
  refine ⟨?_, ?_, ?_, ?_⟩
  · unfold shown
    rw [← Int.natAbs_dvd]
    exact_mod_cast Nat.dvd_mul_left _ _
  · unfold shown
    rw [Nat.add_sub_cancel]
    exact Nat.div_mul_le_self _ _
  · intro j hj hk
    have hd : n.natAbs ∣ j := by
      rw [← Int.natAbs_dvd] at hj
      exact_mod_cast hj
    obtain ⟨q, rfl⟩ := hd
    unfold shown
    rw [Nat.add_sub_cancel, Nat.mul_comm n.natAbs q]
    apply Nat.mul_le_mul_right
    rw [Nat.le_div_iff_mul_le hpos, Nat.mul_comm]
    exact hk
  · simp [shown]

/-! ### The hypotheses are met -/

/-- 600 operations: the emitter inserts two ACKs. -/
example (M : Movie) : ∃ ops bytes, ({ M with limit := 0 } : Movie).emitLoop listNext 601
    (List.replicate 600 (.tick 5 7 0x2a#8 [0, 1, 2, 3])) 0 false = .ok (ops, bytes) ∧
    withoutAcks ops = List.replicate 600 (.tick 5 7 0x2a#8 [0, 1, 2, 3]) ++ [.terminate] := by
  have := C25_unlimited { M with limit := 0 } rfl (List.replicate 600 (.tick 5 7 0x2a#8 [0, 1, 2, 3]))
    (by intro op h; rw [List.eq_of_mem_replicate h]; rfl)
  rwa [List.length_replicate] at this

example : ∀ a s op s1, listNext a (List.replicate s (.header .HGR)) = .ok (some (op, s1)) → FrameOp op := by
  intro a s op s1 h
  cases s with
  | zero => cases h
  | succ s => cases h; trivial

/-- 44.1 kHz audio with 490 ticks per frame, every second frame encoded, 100 Mb limit. -/
def sampleMovie : Movie :=
  { mode := .DHGR, everyN := 2, limit := 1024 * 1024 * 100, addr := fun _ => 0x4000,
    table := flatTable 13, thr := fun k => 490 * k }

example : Paced sampleMovie.thr := ⟨rfl, fun k => by show 490 * k + 1 ≤ 490 * (k + 1); omega⟩

example : MovieInput sampleMovie [0, -15, 16, 3, 3, 3]
    (List.replicate 10 ⟨stripesFrame.main, stripesFrame.aux⟩) where
  stride := by decide
  limit := by norm_num [sampleMovie]
  thr0 := rfl
  audio := by decide
  frames := by
    intro f hf
    rw [List.eq_of_mem_replicate hf]
    exact ⟨rfl, fun _ => ⟨_, rfl, rfl, fun _ _ => (by decide : (0x2a#8).toNat < 0x80)⟩,
      fun _ _ _ => (by decide : (0x2a#8).toNat < 0x80)⟩

/-- Exact products satisfy the rounding hypothesis of `C29_float_thresholds`. -/
example : Paced (fun k => ⌈(14700 / 30 : Rat) * k⌉₊) :=
  (C29_float_thresholds (14700 / 30) (by norm_num) (fun k => (14700 / 30 : Rat) * k) (by simp)
    (by intro k; simp)).1

end IIVision
