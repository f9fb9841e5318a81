import Verif.Proofs.Simulator

/-! The simulated computer: what reads and writes do at each address. -/

namespace IIVision.Sim
open Spec

theorem aMap_inBounds : InBounds aMap := by
  unfold InBounds; decide

theorem uMap_inBounds : InBounds uMap := by
  unfold InBounds; decide

theorem aManager_readers (a : Nat) : aManager.obs.readers a = readersAt a [] aMap :=
  enableFrom_readersAt a aMap 0 _ aMap_inBounds

theorem aManager_writers (a : Nat) : aManager.obs.writers a = writersAt a 0 [] aMap :=
  enableFrom_writersAt a aMap 0 _ aMap_inBounds

theorem uManager_readers (a : Nat) : uManager.obs.readers a = readersAt a [] uMap :=
  enableFrom_readersAt a uMap 0 _ uMap_inBounds

theorem uManager_writers (a : Nat) : uManager.obs.writers a = writersAt a 0 [] uMap :=
  enableFrom_writersAt a uMap 0 _ uMap_inBounds

theorem aManager_readers_io {a : Nat} (h1 : 0xc000 ≤ a) (h2 : a ≤ 0xc0ff) :
    aManager.obs.readers a = [.io] := by
  rw [aManager_readers, aMap]
  iterate 5 rw [readersAt_skip (by simp only [Inside]; omega)]
  rw [readersAt_take ⟨h1, h2⟩]
  iterate 8 rw [readersAt_skip (by simp only [Inside]; omega)]
  rfl

theorem aManager_readers_other {a : Nat} (h : ¬(0xc000 ≤ a ∧ a ≤ 0xc0ff)) :
    aManager.obs.readers a = [] := by
  rw [aManager_readers]
  exact readersAt_plain (by simpa [aMap, Inside] using h)

theorem aManager_writers_io {a : Nat} (h1 : 0xc000 ≤ a) (h2 : a ≤ 0xc0ff) :
    aManager.obs.writers a = [.call .io] := by
  rw [aManager_writers, aMap]
  iterate 5 rw [writersAt_skip (by simp only [Inside]; omega)]
  rw [writersAt_take ⟨h1, h2⟩]
  iterate 8 rw [writersAt_skip (by simp only [Inside]; omega)]
  rfl

theorem aManager_writers_text {a : Nat} (h1 : 0x400 ≤ a) (h2 : a ≤ 0x7ff) :
    aManager.obs.writers a = [.call .textPage] := by
  rw [aManager_writers, aMap]
  iterate 2 rw [writersAt_skip (by simp only [Inside]; omega)]
  rw [writersAt_take ⟨h1, h2⟩]
  iterate 11 rw [writersAt_skip (by simp only [Inside]; omega)]
  rfl

theorem uManager_readers_eq (a : Nat) :
    uManager.obs.readers a = if a ≤ 0x2f ∨ (0x400 ≤ a ∧ a ≤ 0x7ff) then [.io] else [] := by
  rw [uManager_readers, uMap]
  by_cases h1 : a ≤ 0x2f
  · rw [if_pos (.inl h1), readersAt_take ⟨Nat.zero_le _, h1⟩]
    iterate 3 rw [readersAt_skip (by simp only [Inside]; omega)]
    rfl
  · rw [readersAt_skip (by simp only [Inside]; omega)]
    by_cases h2 : 0x400 ≤ a ∧ a ≤ 0x7ff
    · rw [if_pos (.inr h2), readersAt_take ⟨h2.1, h2.2⟩]
      iterate 2 rw [readersAt_skip (by simp only [Inside]; omega)]
      rfl
    · rw [if_neg (by omega), readersAt_skip (by simp only [Inside]; omega)]
      exact readersAt_plain (by simp)

theorem uManager_writers_eq (a : Nat) :
    uManager.obs.writers a = if a ≤ 0x2f ∨ (0x400 ≤ a ∧ a ≤ 0x7ff) then [.call .io] else [] := by
  rw [uManager_writers, uMap]
  by_cases h1 : a ≤ 0x2f
  · rw [if_pos (.inl h1), writersAt_take ⟨Nat.zero_le _, h1⟩]
    iterate 3 rw [writersAt_skip (by simp only [Inside]; omega)]
    rfl
  · rw [writersAt_skip (by simp only [Inside]; omega)]
    by_cases h2 : 0x400 ≤ a ∧ a ≤ 0x7ff
    · rw [if_pos (.inr h2), writersAt_take ⟨h2.1, h2.2⟩]
      iterate 2 rw [writersAt_skip (by simp only [Inside]; omega)]
      rfl
    · rw [if_neg (by omega), writersAt_skip (by simp only [Inside]; omega)]
      exact writersAt_plain (by simp)

/-- The read-only addresses of the computer. -/
theorem aMap_readOnly {a : Nat} :
    (∃ r ∈ aMap, Inside r a ∧ r.writable = false) ↔
      (0x4000 ≤ a ∧ a ≤ 0x4fff) ∨ (0xc100 ≤ a ∧ a ≤ 0xc7ff) ∨ (0xd000 ≤ a ∧ a ≤ 0xffff) := by
  simp only [aMap, Inside, List.mem_cons, List.not_mem_nil, or_false, exists_eq_or_imp,
    exists_eq_left, Bool.true_eq_false, and_false, and_true, or_false, false_or]
  omega

theorem aMap_interceptors {a : Nat} :
    (∀ r ∈ aMap, Inside r a → r.readInterceptor = none) ↔ ¬(0xc000 ≤ a ∧ a ≤ 0xc0ff) := by
  simp [aMap, Inside]

theorem aMap_plain {a : Nat} (h1 : ¬(0x400 ≤ a ∧ a ≤ 0x7ff)) (h2 : ¬(0xc000 ≤ a ∧ a ≤ 0xc0ff))
    (h3 : ¬((0x4000 ≤ a ∧ a ≤ 0x4fff) ∨ (0xc100 ≤ a ∧ a ≤ 0xc7ff) ∨ 0xd000 ≤ a))  :
    ∀ r ∈ aMap, Inside r a → r.writeInterceptor = none ∧ r.writable = true := by
  simp only [aMap, Inside, List.forall_mem_cons]
  refine ⟨?_, ?_, ?_, ?_, ?_, ?_, ?_, ?_, ?_, ?_, ?_, ?_, ?_, ?_, ?_⟩ <;>
    first
    | exact fun _ => ⟨trivial, trivial⟩
    | (intro h; exfalso; omega)
    | (intro r hr; cases hr)

/-- Reading an address of the I/O page. -/
theorem aRead_io {a : Nat} (h1 : 0xc000 ≤ a) (h2 : a ≤ 0xc0ff) (s : Bus AState) :
    aRead a s = match ioInterceptor aIoMap ACall.run a none s with
      | (.ok (some v), s) => (.ok v, s)
      | (.ok none, s) => (.ok (s.mem a), s)
      | (.error e, s) => (.error e, s) := by
  unfold aRead Observers.read
  rw [Nat.mod_eq_of_lt (by omega : a < 65536), aManager_readers_io h1 h2]
  simp only [callReaders, AInt.run]
  cases ioInterceptor aIoMap ACall.run a none s with
  | mk r s' =>
    cases r with
    | error e => rfl
    | ok r => cases r <;> rfl

/-- Writing to an address of the I/O page. -/
theorem aWrite_io {a : Nat} (h1 : 0xc000 ≤ a) (h2 : a ≤ 0xc0ff) (v : U8) (s : Bus AState) :
    aWrite a v s = match ioInterceptor aIoMap ACall.run a (some v) s with
      | (.ok r, s) => (.ok (), s.poke a (r.getD v))
      | (.error e, s) => (.error e, s) := by
  unfold aWrite Observers.write
  rw [Nat.mod_eq_of_lt (by omega : a < 65536), aManager_writers_io h1 h2]
  simp only [callWriters, AInt.run]
  cases ioInterceptor aIoMap ACall.run a (some v) s with
  | mk r s' =>
    cases r with
    | error e => rfl
    | ok r => rfl

/-- Reading elsewhere. -/
theorem aRead_other {a : Nat} (ha : a < 65536) (h : ¬(0xc000 ≤ a ∧ a ≤ 0xc0ff)) (s : Bus AState) :
    aRead a s = (.ok (s.mem a), s) := by
  unfold aRead Observers.read
  rw [Nat.mod_eq_of_lt ha, aManager_readers_other h]
  rfl

/-- Writing elsewhere: denied or done. -/
theorem aWrite_other {a : Nat} (ha : a < 65536) (h : ¬(0xc000 ≤ a ∧ a ≤ 0xc0ff)) (v : U8)
    (s : Bus AState) :
    aWrite a v s = if (0x4000 ≤ a ∧ a ≤ 0x4fff) ∨ (0xc100 ≤ a ∧ a ≤ 0xc7ff) ∨ 0xd000 ≤ a then
      (.error .writeProtected, s) else (.ok (), s.poke a v) := by
  unfold aWrite Observers.write
  rw [Nat.mod_eq_of_lt ha]
  by_cases hro : (0x4000 ≤ a ∧ a ≤ 0x4fff) ∨ (0xc100 ≤ a ∧ a ≤ 0xc7ff) ∨ 0xd000 ≤ a
  · rw [if_pos hro]
    obtain ⟨k, hk⟩ := enableFrom_deny aMap 0 (Manager.new AInt Handler) aMap_inBounds
      (aMap_readOnly.2 (show (0x4000 ≤ a ∧ a ≤ 0x4fff) ∨ (0xc100 ≤ a ∧ a ≤ 0xc7ff) ∨
        (0xd000 ≤ a ∧ a ≤ 0xffff) by omega))
    have hall := enableFrom_writers (a := a) aMap 0 (Manager.new AInt Handler) aMap_inBounds
    have hd : ∀ x ∈ aManager.obs.writers a, ∃ k, x = .deny k := by
      intro x hx
      rcases hall x hx with hx | ⟨r, hr, hin, hx⟩
      · exact absurd hx (by simp [Manager.new])
      · rcases hx with ⟨c, hc, _⟩ | ⟨_, hx⟩
        · exfalso
          have : ∀ r ∈ aMap, Inside r a → r.writeInterceptor = none := by
            simp only [aMap, Inside, List.forall_mem_cons]
            refine ⟨?_, ?_, ?_, ?_, ?_, ?_, ?_, ?_, ?_, ?_, ?_, ?_, ?_, ?_, ?_⟩ <;>
              first
              | exact fun _ => trivial
              | (intro h; exfalso; omega)
              | (intro r hr; cases hr)
          rw [this r hr hin] at hc
          cases hc
        · exact hx
    have hk : Sub.deny k ∈ aManager.obs.writers a := hk
    cases hl : aManager.obs.writers a with
    | nil => rw [hl] at hk; cases hk
    | cons x l =>
      obtain ⟨k', rfl⟩ := hd x (by rw [hl]; exact .head _)
      rfl
  · rw [if_neg hro]
    by_cases ht : 0x400 ≤ a ∧ a ≤ 0x7ff
    · rw [aManager_writers_text ht.1 ht.2]; rfl
    · rw [aManager_writers, writersAt_plain (aMap_plain ht h hro)]
      rfl

attribute [local irreducible] uWrite uRead uReadData uWriteData uReadMode uWriteMode

theorem onCard_mem {α β : Type} (x : Py (Bus UState) α) (f : α → β) (s : Bus AState) :
    (onCard x f s).2.mem = s.mem ∧ (onCard x f s).2.st.sw = s.st.sw := by
  unfold onCard
  rcases x s.st.uther with ⟨r | r, u⟩ <;> exact ⟨rfl, rfl⟩

theorem ACall.run_mem (c : ACall) (v : Option U8) (s : Bus AState) : (c.run v s).2.mem = s.mem := by
  cases c with
  | tick => rfl
  | switch i op => rfl
  | wmode => cases v with
    | none => exact (onCard_mem uReadMode some s).1
    | some v => exact (onCard_mem (uWriteMode v) (fun _ => none) s).1
  | wdata => cases v with
    | none => exact (onCard_mem uReadData some s).1
    | some v => exact (onCard_mem (uWriteData v) (fun _ => none) s).1
  | wadrh => cases v with
    | none => rfl
    | some v => exact (onCard_mem _ _ s).1
  | wadrl => cases v with
    | none => rfl
    | some v => exact (onCard_mem _ _ s).1

theorem io_mem (a : Nat) (v : Option U8) (s : Bus AState) :
    (ioInterceptor aIoMap ACall.run a v s).2.mem = s.mem := by
  unfold ioInterceptor
  rcases aIoMap a with _ | ⟨mode, _ | cb⟩
  · rfl
  · dsimp only; split <;> rfl
  · dsimp only; split
    · exact ACall.run_mem _ _ _
    · rfl

/-- Which switch an access to the I/O page moves, and where. -/
def effect (a : Nat) (v : Option U8) : Option (Nat × Bool) :=
  match aIoMap a with
  | some (m, some (.switch i op)) =>
    if m.allows v then
      match op with
      | .set => some (i, true)
      | .clear => some (i, false)
      | .get => none
    else none
  | _ => none

theorem run_sw (c : ACall) (v : Option U8) (s : Bus AState) (h : ∀ i op, c ≠ .switch i op) :
    (c.run v s).2.st.sw = s.st.sw := by
  cases c with
  | switch i op => exact absurd rfl (h i op)
  | tick => rfl
  | wmode => cases v with
    | none => exact (onCard_mem uReadMode some s).2
    | some v => exact (onCard_mem (uWriteMode v) (fun _ => none) s).2
  | wdata => cases v with
    | none => exact (onCard_mem uReadData some s).2
    | some v => exact (onCard_mem (uWriteData v) (fun _ => none) s).2
  | wadrh => cases v with
    | none => rfl
    | some v => exact (onCard_mem _ _ s).2
  | wadrl => cases v with
    | none => rfl
    | some v => exact (onCard_mem _ _ s).2

theorem switch_sw (i : Nat) (op : SwitchOp) (v : Option U8) (s : Bus AState) :
    ((ACall.switch i op).run v s).2.st.sw =
      if op = .get then s.st.sw else fun j => if j = i then decide (op = .set) else s.st.sw j := by
  simp only [ACall.run, switchCall]
  cases op with
  | get => rfl
  | set =>
    rcases aSwitches[i]? with _ | ss
    · rfl
    · dsimp only; split <;> rfl
  | clear =>
    rcases aSwitches[i]? with _ | ss
    · rfl
    · dsimp only; split <;> rfl

theorem io_sw (a : Nat) (v : Option U8) (s : Bus AState) :
    (ioInterceptor aIoMap ACall.run a v s).2.st.sw = fun i =>
      match effect a v with
      | some (j, b) => if i = j then b else s.st.sw i
      | none => s.st.sw i := by
  unfold ioInterceptor effect
  rcases aIoMap a with _ | ⟨m, _ | cb⟩
  · rfl
  · dsimp only; split <;> rfl
  · dsimp only
    by_cases hm : m.allows v = true
    · rw [if_pos hm]
      cases cb with
      | switch i op =>
        dsimp only
        rw [switch_sw, if_pos hm]
        cases op <;> rfl
      | _ => exact run_sw _ v s (by intros; simp)
    · rw [if_neg hm]
      cases cb with
      | switch i op => dsimp only; rw [if_neg hm]
      | _ => rfl

end IIVision.Sim
