import Verif.Props.Simulator
import Mathlib.Data.List.Induction

/-! C55, continued: what can get into the memory of the simulated network card, over any history
of accesses. -/

namespace IIVision.Sim
open Spec

/-- What the callbacks of the card leave of its memory: all but the socket's status. -/
theorem run_mem (d : Nat) (c : UCall) (v : Option U8) (u : Bus UState) (b : Nat) (hb : b ≠ 0x403) :
    (UCall.run (uWriteDepth (d + 1)) c v u).2.mem b = u.mem b ∧
    (UCall.run (uWriteDepth (d + 1)) c v u).2.st.ptr = u.st.ptr := by
  cases c with
  | unimplemented => exact ⟨rfl, rfl⟩
  | mode =>
    cases v with
    | none => exact ⟨rfl, rfl⟩
    | some v =>
      simp only [UCall.run]
      split <;> exact ⟨rfl, rfl⟩
  | socketMode =>
    cases v with
    | none => exact ⟨rfl, rfl⟩
    | some v =>
      simp only [UCall.run]
      split <;> exact ⟨rfl, rfl⟩
  | socketCommand =>
    cases v with
    | none => exact ⟨rfl, rfl⟩
    | some v =>
      simp only [UCall.run, uWriteDepth_status]
      split
      · exact ⟨if_neg hb, rfl⟩
      · split
        · exact ⟨if_neg hb, rfl⟩
        · split <;> exact ⟨rfl, rfl⟩

theorem interceptor_mem (d a : Nat) (v : Option U8) (u : Bus UState) (b : Nat) (hb : b ≠ 0x403) :
    (ioInterceptor uIoMap (UCall.run (uWriteDepth (d + 1))) a v u).2.mem b = u.mem b ∧
    (ioInterceptor uIoMap (UCall.run (uWriteDepth (d + 1))) a v u).2.st.ptr = u.st.ptr := by
  unfold ioInterceptor
  rcases uIoMap a with _ | ⟨m, cb⟩
  · exact ⟨rfl, rfl⟩
  · dsimp only
    split
    · rcases cb with _ | cb
      · exact ⟨rfl, rfl⟩
      · exact run_mem d cb v u b hb
    · exact ⟨rfl, rfl⟩

/-- The callbacks of the card never replace the value. -/
theorem interceptor_value (write : Nat → U8 → Py (Bus UState) Unit) (a : Nat) (v : Option U8)
    (u : Bus UState) (r : Option U8)
    (h : (ioInterceptor uIoMap (UCall.run write) a v u).1 = .ok r) : r = none := by
  unfold ioInterceptor at h
  generalize uIoMap a = e at h
  rcases e with _ | ⟨m, cb⟩
  · cases h
  · dsimp only at h
    split at h
    · rcases cb with _ | cb
      · cases h; rfl
      · dsimp only at h
        unfold UCall.run at h
        repeat' split at h
        all_goals first | (cases h; rfl) | (cases h)
    · cases h

theorem uWrite_mem (d a : Nat) (v : U8) (u : Bus UState) (b : Nat) (hb : b ≠ 0x403) :
    ((uWriteDepth (d + 2) a v u).2.mem b = u.mem b ∨
      (b = a % 65536 ∧ (uWriteDepth (d + 2) a v u).2.mem b = v)) ∧
    (uWriteDepth (d + 2) a v u).2.st.ptr = u.st.ptr := by
  rw [uWriteDepth, Observers.write]
  rw [uManager_writers_eq]
  have poked : ∀ w : Bus UState, w.mem b = u.mem b →
      ((w.poke (a % 65536) v).mem b = u.mem b ∨ (b = a % 65536 ∧ (w.poke (a % 65536) v).mem b = v)) := by
    intro w hw
    by_cases h : b = a % 65536
    · exact .inr ⟨h, if_pos h⟩
    · exact .inl ((if_neg h).trans hw)
  by_cases hio : a % 65536 ≤ 0x2f ∨ (0x400 ≤ a % 65536 ∧ a % 65536 ≤ 0x7ff)
  · rw [if_pos hio]
    have hm := interceptor_mem d (a % 65536) (some v) u b hb
    have hv := interceptor_value (uWriteDepth (d + 1)) (a % 65536) (some v) u
    simp only [callWriters]
    generalize ioInterceptor uIoMap (UCall.run (uWriteDepth (d + 1))) (a % 65536) (some v) u = r at hm hv
    rcases r with ⟨e | r, w⟩
    · exact ⟨.inl hm.1, hm.2⟩
    · cases hv r rfl
      exact ⟨poked w hm.1, hm.2⟩
  · rw [if_neg hio]
    exact ⟨poked u rfl, rfl⟩

theorem uRead_mem (a : Nat) (u : Bus UState) : (uRead a u).2 = u := by
  unfold uRead Observers.read
  rw [uManager_readers_eq]
  have hi : (ioInterceptor uIoMap (UCall.run uWrite) (a % 65536) none u).2 = u := by
    unfold ioInterceptor
    rcases uIoMap (a % 65536) with _ | ⟨m, cb⟩
    · rfl
    · dsimp only
      split
      · rcases cb with _ | cb
        · rfl
        · cases cb <;> rfl
      · rfl
  by_cases hio : a % 65536 ≤ 0x2f ∨ (0x400 ≤ a % 65536 ∧ a % 65536 ≤ 0x7ff)
  · rw [if_pos hio]
    simp only [callReaders]
    generalize ioInterceptor uIoMap (UCall.run uWrite) (a % 65536) none u = r at hi
    rcases r with ⟨e | _ | r, w⟩ <;> exact hi
  · rw [if_neg hio]
    rfl

theorem uWriteDepth_byte {n : Nat} (hn : 2 ≤ n) (a : Nat) (v : U8) (u : Bus UState) (b : Nat)
    (hb : b ≠ 0x403) :
    ((uWriteDepth n a v u).2.mem b = u.mem b ∨ (b = a % 65536 ∧ (uWriteDepth n a v u).2.mem b = v)) ∧
    (uWriteDepth n a v u).2.st.ptr = u.st.ptr := by
  obtain ⟨d, rfl⟩ := Nat.exists_eq_add_of_le' hn
  exact uWrite_mem d a v u b hb

theorem uWrite_byte (a : Nat) (v : U8) (u : Bus UState) (b : Nat) (hb : b ≠ 0x403) :
    ((uWrite a v u).2.mem b = u.mem b ∨ (b = a % 65536 ∧ (uWrite a v u).2.mem b = v)) ∧
    (uWrite a v u).2.st.ptr = u.st.ptr := by
  unfold uWrite
  exact uWriteDepth_byte (by decide) a v u b hb

theorem next_small (n : Nat) : (n + 1) &&& 0x7fff < 65536 := by rw [and_7fff]; omega

section
attribute [local irreducible] uWrite uRead

theorem uReadData_byte (u : Bus UState) (hp : u.st.ptr < 65536) :
    (uReadData u).2.mem = u.mem ∧ (uReadData u).2.st.ptr < 65536 := by
  have h := uRead_mem u.st.ptr u
  unfold uReadData
  generalize uRead u.st.ptr u = r at h
  rcases r with ⟨e | r, w⟩
  · cases h
    exact ⟨rfl, hp⟩
  · cases h
    dsimp only
    exact ⟨rfl, next_small _⟩

theorem uWriteData_byte (v : U8) (u : Bus UState) (hp : u.st.ptr < 65536) (b : Nat)
    (hb : b ≠ 0x403) :
    ((uWriteData v u).2.mem b = u.mem b ∨ (b = u.st.ptr ∧ (uWriteData v u).2.mem b = v)) ∧
    (uWriteData v u).2.st.ptr < 65536 := by
  have h := uWrite_byte u.st.ptr v u b hb
  rw [Nat.mod_eq_of_lt hp] at h
  unfold uWriteData
  generalize uWrite u.st.ptr v u = r at h
  rcases r with ⟨e | r, w⟩
  · exact ⟨h.1, Nat.lt_of_le_of_lt (Nat.le_of_eq h.2) hp⟩
  · dsimp only
    exact ⟨h.1, next_small _⟩

theorem or_small {a b : Nat} (ha : a < 65536) (hb : b < 65536) : a ||| b < 65536 :=
  Nat.or_lt_two_pow (n := 16) ha hb

/-- What one access can do to a byte of the card's memory, and to the pointer. -/
theorem perform_card_byte (s : Bus AState) (x : Access) (hx : x.addr < 65536)
    (hp : s.st.uther.st.ptr < 65536) (b : Nat) (hb : b ≠ 0x403) :
    ((x.perform s).st.uther.mem b = s.st.uther.mem b ∨
      ∃ v, x.value = some v ∧ (x.perform s).st.uther.mem b = v ∧
        ((x.addr = 0xc097 ∧ b = s.st.uther.st.ptr) ∨ (x.addr = 0xc094 ∧ b = 0))) ∧
    (x.perform s).st.uther.st.ptr < 65536 := by
  by_cases hc : x.addr < 0xc094 ∨ 0xc097 < x.addr
  · rw [perform_card s x hx hc]
    exact ⟨.inl rfl, hp⟩
  obtain ⟨a, v⟩ := x
  dsimp only at hc
  have ha : a = 0xc094 ∨ a = 0xc095 ∨ a = 0xc096 ∨ a = 0xc097 := by omega
  cases v with
  | none =>
    simp only [Access.perform]
    rcases ha with rfl | rfl | rfl | rfl
    · rw [aRead_io (by decide) (by decide)]
      have h := uRead_mem 0 s.st.uther
      unfold ioInterceptor
      rw [entry_wmode]
      simp only [AccessMode.allows, AccessMode.RW, if_true, ACall.run, onCard, uReadMode]
      generalize uRead 0 s.st.uther = r at h
      rcases r with ⟨e | r, w⟩ <;> cases h <;> exact ⟨.inl rfl, hp⟩
    · rw [aRead_io (by decide) (by decide)]
      unfold ioInterceptor
      rw [entry_wadrh]
      exact ⟨.inl rfl, hp⟩
    · rw [aRead_io (by decide) (by decide)]
      unfold ioInterceptor
      rw [entry_wadrl]
      exact ⟨.inl rfl, hp⟩
    · rw [aRead_io (by decide) (by decide)]
      have h := uReadData_byte s.st.uther hp
      unfold ioInterceptor
      rw [entry_wdata]
      simp only [AccessMode.allows, AccessMode.RW, if_true, ACall.run, onCard]
      generalize uReadData s.st.uther = r at h
      rcases r with ⟨e | r, w⟩ <;> exact ⟨.inl (congrFun h.1 b), h.2⟩
  | some v =>
    simp only [Access.perform]
    rcases ha with rfl | rfl | rfl | rfl
    · rw [aWrite_io (by decide) (by decide)]
      have h := uWrite_byte 0 v s.st.uther b hb
      have h' : (uWrite 0 v s.st.uther).2.mem b = _ ∨ (b = 0 ∧ (uWrite 0 v s.st.uther).2.mem b = v) := h.1
      unfold ioInterceptor
      rw [entry_wmode]
      simp only [AccessMode.allows, AccessMode.RW, if_true, ACall.run, onCard, uWriteMode]
      replace h := h.2
      generalize uWrite 0 v s.st.uther = r at h h'
      rcases r with ⟨e | r, w⟩
      · refine ⟨h'.imp id fun h' => ⟨v, rfl, h'.2, .inr ⟨trivial, h'.1⟩⟩, ?_⟩
        exact Nat.lt_of_le_of_lt (Nat.le_of_eq h) hp
      · refine ⟨h'.imp id fun h' => ⟨v, rfl, h'.2, .inr ⟨trivial, h'.1⟩⟩, ?_⟩
        exact Nat.lt_of_le_of_lt (Nat.le_of_eq h) hp
    · rw [write_wadrh]
      refine ⟨.inl rfl, or_small ?_ ?_⟩
      · rw [Nat.shiftLeft_eq]
        have := v.isLt
        omega
      · exact Nat.lt_of_le_of_lt Nat.and_le_right (by decide)
    · rw [write_wadrl]
      refine ⟨.inl rfl, or_small ?_ ?_⟩
      · exact Nat.lt_of_le_of_lt Nat.and_le_right (by decide)
      · have := v.isLt
        omega
    · rw [aWrite_io (by decide) (by decide)]
      have h := uWriteData_byte v s.st.uther hp b hb
      unfold ioInterceptor
      rw [entry_wdata]
      simp only [AccessMode.allows, AccessMode.RW, if_true, ACall.run, onCard]
      generalize uWriteData v s.st.uther = r at h
      rcases r with ⟨e | r, w⟩ <;>
        exact ⟨h.1.imp id fun h' => ⟨v, rfl, h'.2, .inl ⟨trivial, h'.1⟩⟩, h.2⟩

end

/-- **C55.** (Defect.)  Nothing ever arrives in the simulator: after any accesses, whatever their
outcomes, a byte of the card's memory other than the socket's status is 0, as in a new card, or one
that the program itself has put there, through the data port while the pointer was at that address
(or, the byte at 0, through the mode register).  So a program waiting for the received size at
`$0426` to become other than 0 waits for ever, unless it writes there itself. -/
theorem C55_nothing_arrives (history : List Access) (ha : ∀ x ∈ history, x.addr < 65536) (b : Nat)
    (hb : b ≠ 0x403) (hv : (history.foldl Access.perform aNew).st.uther.mem b ≠ 0) :
    ∃ before x after v, history = before ++ x :: after ∧ x.value = some v ∧
      (history.foldl Access.perform aNew).st.uther.mem b = v ∧
      ((x.addr = 0xc097 ∧ (before.foldl Access.perform aNew).st.uther.st.ptr = b) ∨
        (x.addr = 0xc094 ∧ b = 0)) := by
  have key : (history.foldl Access.perform aNew).st.uther.st.ptr < 65536 ∧
      ((history.foldl Access.perform aNew).st.uther.mem b = 0 ∨
        ∃ before x after v, history = before ++ x :: after ∧ x.value = some v ∧
          (history.foldl Access.perform aNew).st.uther.mem b = v ∧
          ((x.addr = 0xc097 ∧ (before.foldl Access.perform aNew).st.uther.st.ptr = b) ∨
            (x.addr = 0xc094 ∧ b = 0))) := by
    clear hv
    induction history using List.reverseRecOn with
    | nil => exact ⟨by decide, .inl rfl⟩
    | append_singleton l x ih =>
      obtain ⟨hp, ih⟩ := ih fun y hy => ha y (List.mem_append_left _ hy)
      rw [List.foldl_append]
      simp only [List.foldl_cons, List.foldl_nil]
      have step := perform_card_byte (l.foldl Access.perform aNew) x (ha x (by simp)) hp b hb
      refine ⟨step.2, ?_⟩
      rcases step.1 with h | ⟨v, h1, h2, h3⟩
      · rw [h]
        refine ih.imp id ?_
        rintro ⟨before, y, after, v, h1, h2, h3, h4⟩
        exact ⟨before, y, after ++ [x], v, by simp [h1], h2, h3, h4⟩
      · exact .inr ⟨l, x, [], v, rfl, h1, h2, h3.imp (fun h => ⟨h.1, h.2.symm⟩) id⟩
  exact key.2.resolve_left hv

/-- The hypotheses can be met: 4 to `$C095`, `$26` to `$C096` and `$55` to `$C097` make the byte
`$55`. -/
example : (∀ x ∈ [(⟨0xc095, some 4⟩ : Access), ⟨0xc096, some 0x26⟩, ⟨0xc097, some 0x55⟩],
      x.addr < 65536) ∧
    ([(⟨0xc095, some 4⟩ : Access), ⟨0xc096, some 0x26⟩, ⟨0xc097, some 0x55⟩].foldl Access.perform
      aNew).st.uther.mem 0x426 ≠ 0 := by
  refine ⟨by decide, ?_⟩
  rw [show [(⟨0xc095, some 4⟩ : Access), ⟨0xc096, some 0x26⟩, ⟨0xc097, some 0x55⟩].foldl
    Access.perform aNew = (aWrite 0xc097 0x55 (aWrite 0xc096 0x26 (aWrite 0xc095 4 aNew).2).2).2
    from rfl]
  have hp : _ = 0x426 := (C48_pointer 4 0x26 aNew).2.2.1
  generalize (aWrite 0xc096 0x26 (aWrite 0xc095 4 aNew).2).2 = s at hp
  have hw : uWriteData 0x55 s.st.uther = (.ok (), withPtr (s.st.uther.poke 0x426 0x55) 0x427) := by
    unfold uWriteData uWrite
    rw [hp, uWriteDepth,
      Observers.write]
    rw [show (0x426 % 65536 : Nat) = 0x426 from rfl, uManager_writers_eq, if_pos (by decide)]
    simp only [callWriters, ioInterceptor,
      show uIoMap 0x426 = some (.RW, none) by decide +kernel, AccessMode.allows, AccessMode.RW,
      if_true, withPtr, Bus.poke, hp]
    rfl
  rw [aWrite_io (by decide) (by decide)]
  unfold ioInterceptor
  rw [entry_wdata]
  simp only [AccessMode.allows, AccessMode.RW, if_true, ACall.run, onCard, hw]
  show (0x55#8 : U8) ≠ 0
  decide

end IIVision.Sim
