import Verif.Proofs.Card

/-! C46-C49, C55, C56: the simulated computer and network card. -/

namespace IIVision.Sim
open Spec

/-! ### C46: soft switches -/

/-- **C46.** (Defect.)  After every series of accesses to the memory of a new computer, each of the
twelve switches is where the last command to it put it — but reading its status address gives 0
in every case (and changes nothing), also when the switch is on. -/
theorem C46_status (history : List Access) (ha : ∀ x ∈ history, x.addr < 65536) (i : Nat)
    (hi : i < switchTable.length) :
    (history.foldl Access.perform aNew).st.sw i = switchTable[i].position history ∧
    aRead switchTable[i].status (history.foldl Access.perform aNew) =
      (.ok 0, history.foldl Access.perform aNew) :=
  ⟨history_sw i hi history aNew ha, status_read _ i hi⟩

/-- The defect is real: HIRES (number 11) is on after an access to `$C057`, its status reads 0;
and a switch gets to both positions. -/
example : switchTable[11].position [⟨0xc057, none⟩] = true ∧
    switchTable[11].position [⟨0xc057, none⟩, ⟨0x2000, some 5⟩, ⟨0xc056, none⟩] = false ∧
    switchTable[11].position [⟨0xc056, some 1⟩, ⟨0xc057, some 0⟩, ⟨0xc01d, none⟩] = true ∧
    switchTable[6].position [⟨0xc00d, none⟩] = false := by decide

example : ([⟨0xc057, none⟩].foldl Access.perform aNew).st.sw 11 = true ∧
    aRead 0xc01d ([⟨0xc057, none⟩].foldl Access.perform aNew) =
      (.ok 0, [⟨0xc057, none⟩].foldl Access.perform aNew) :=
  have h := C46_status [⟨0xc057, none⟩] (by decide) 11 (by decide)
  ⟨h.1.trans (by decide), h.2⟩

/-! ### C47: I/O dispatch -/

/-- **C47.** An access to the I/O page that is not in the table raises `TrapException` and changes
nothing.  One in the table, other than to the card's ports `$C094` and `$C097`, goes through, except
that the six switches at `$C000`-`$C00B` raise `NotImplementedError`. -/
theorem C47_dispatch (s : Bus AState) (x : Access) (h1 : 0xc000 ≤ x.addr) (h2 : x.addr ≤ 0xc0ff) :
    (x.known = false → x.error s = some .trapException ∧ x.perform s = s) ∧
    (x.known = true → x.addr ≠ 0xc094 → x.addr ≠ 0xc097 →
      x.error s = if x.addr ≤ 0xc00b then some .notImplementedError else none) := by
  obtain ⟨a, v⟩ := x
  dsimp only at h1 h2
  constructor
  · intro hk
    have ht := io_trap ((allowed_known h1 h2 v).trans hk) s
    constructor
    · rw [access_error h1 h2, ht]; rfl
    · cases v with
      | none => simp only [Access.perform]; rw [aRead_io h1 h2, ht]
      | some v => simp only [Access.perform]; rw [aWrite_io h1 h2, ht]
  · intro hk h94 h97
    dsimp only at h94 h97 ⊢
    have ht := err_table ⟨a - 0xc000, by omega⟩ v.isSome
    simp only [show 0xc000 + (a - 0xc000) = a by omega] at ht
    rw [access_error h1 h2, io_err v s (ht.2 (by omega) (by omega))]
    have hk' : Access.known ⟨a, if v.isSome then some 0 else none⟩ = true := by
      cases v <;> exact hk
    rw [show staticErr a v = staticErr a (if v.isSome then some 0 else none) by cases v <;> rfl,
      ht.1 hk']
    by_cases hb : a ≤ 0xc00b
    · rw [if_pos hb, if_pos (by omega)]
    · rw [if_neg hb, if_neg (by omega)]

/-- **C47.** No access, anywhere and whatever its outcome, changes a switch other than the one
whose on or off address it is to, or memory other than the byte it writes, or the network card
other than through its four ports. -/
theorem C47_only_addressed (s : Bus AState) (x : Access) (hx : x.addr < 65536) :
    (∀ i (hi : i < switchTable.length), x.addr ≠ switchTable[i].on → x.addr ≠ switchTable[i].off →
      (x.perform s).st.sw i = s.st.sw i) ∧
    (∀ b, b ≠ x.addr ∨ x.value = none → (x.perform s).mem b = s.mem b) ∧
    (x.addr < 0xc094 ∨ 0xc097 < x.addr → (x.perform s).st.uther = s.st.uther) := by
  refine ⟨fun i hi hon hoff => ?_, fun b hb => perform_mem s x hx b hb, perform_card s x hx⟩
  rw [perform_sw s x hx i hi]
  unfold SwitchRow.after
  rw [if_neg hon, if_neg hoff]
  split <;> rfl

theorem register_at {γ : Type} (mk : Nat → SwitchOp → γ) (i : Nat) (ss : SoftSwitch) (io : IoMap γ)
    (a : Nat) : ss.register mk i io a =
      if a = ss.statusAddr then some (.READ, some (mk i .get))
      else if a = ss.setAddr then some (ss.mode, some (mk i .set))
      else if a = ss.clearAddr then some (ss.mode, some (mk i .clear)) else io a := rfl

/-- The three addresses of a switch. -/
def SoftSwitch.addrs (ss : SoftSwitch) : List Nat := [ss.clearAddr, ss.setAddr, ss.statusAddr]

theorem registerAll_other {γ : Type} (mk : Nat → SwitchOp → γ) {a : Nat} :
    ∀ (sws : List SoftSwitch) (i : Nat) (io : IoMap γ), (∀ ss ∈ sws, a ∉ ss.addrs) →
      registerAll mk i sws io a = io a
  | [], _, _, _ => rfl
  | ss :: rest, i, io, h => by
    rw [registerAll, registerAll_other mk rest _ _ (fun s hs => h s (.tail _ hs)), register_at]
    have := h ss (.head _)
    simp only [SoftSwitch.addrs, List.mem_cons, List.not_mem_nil, or_false, not_or] at this
    rw [if_neg this.2.2, if_neg this.2.1, if_neg this.1]

/-- **C47**, for any computer: registering any list of switches with different addresses on top of
any I/O map gives each of them its three entries — the off and on addresses with the mode of the
switch, the status address for reading only — and leaves every other address as it was. -/
theorem C47_register {γ : Type} (mk : Nat → SwitchOp → γ) :
    ∀ (sws : List SoftSwitch) (n : Nat) (io : IoMap γ), (sws.flatMap SoftSwitch.addrs).Nodup →
      (∀ i (hi : i < sws.length),
        registerAll mk n sws io sws[i].clearAddr = some (sws[i].mode, some (mk (n + i) .clear)) ∧
        registerAll mk n sws io sws[i].setAddr = some (sws[i].mode, some (mk (n + i) .set)) ∧
        registerAll mk n sws io sws[i].statusAddr = some (.READ, some (mk (n + i) .get))) ∧
      (∀ a, (∀ ss ∈ sws, a ∉ ss.addrs) → registerAll mk n sws io a = io a) := by
  intro sws n io hd
  refine ⟨?_, fun a ha => registerAll_other mk sws n io ha⟩
  induction sws generalizing n io with
  | nil => intro i hi; cases hi
  | cons ss rest ih =>
    rw [List.flatMap_cons, List.nodup_append] at hd
    obtain ⟨hd1, hd2, hd3⟩ := hd
    intro i hi
    cases i with
    | zero =>
      simp only [SoftSwitch.addrs, List.nodup_cons, List.mem_cons, List.not_mem_nil, or_false,
        not_or] at hd1
      have other : ∀ a ∈ ss.addrs, ∀ s ∈ rest, a ∉ s.addrs := fun a ha s hs has =>
        hd3 a ha a (List.mem_flatMap.2 ⟨s, hs, has⟩) rfl
      simp only [List.getElem_cons_zero, registerAll, Nat.add_zero]
      rw [registerAll_other mk rest _ _ (other ss.clearAddr (by simp [SoftSwitch.addrs])),
        registerAll_other mk rest _ _ (other ss.setAddr (by simp [SoftSwitch.addrs])),
        registerAll_other mk rest _ _ (other ss.statusAddr (by simp [SoftSwitch.addrs]))]
      refine ⟨?_, ?_, ?_⟩
      · rw [register_at, if_neg hd1.1.2, if_neg hd1.1.1, if_pos rfl]
      · rw [register_at, if_neg hd1.2.1, if_pos rfl]
      · rw [register_at, if_pos rfl]
    | succ i =>
      have := ih (n + 1) (ss.register mk n io) hd2 i (by simpa using hi)
      rw [Nat.add_right_comm, Nat.add_assoc] at this
      exact this

/-- The switches of the computer have different addresses; some accesses are known, some not. -/
example : (aSwitches.flatMap SoftSwitch.addrs).Nodup ∧
    (⟨0xc050, none⟩ : Access).known = true ∧ (⟨0xc00d, none⟩ : Access).known = false ∧
    (⟨0xc00d, some 0⟩ : Access).known = true ∧ (⟨0xc01d, some 0⟩ : Access).known = false ∧
    (⟨0xc000, none⟩ : Access).known = false := by decide

/-! ### C48: the network card's pointer -/

/-- **C48.** Writing `h` to WADRH and then `l` to WADRL, whatever the pointer was, makes it
`(h mod 128)·256 + l`; the card's memory is as before. -/
theorem C48_pointer (h l : U8) (s : Bus AState) :
    (aWrite 0xc095 h s).1 = .ok () ∧ (aWrite 0xc096 l (aWrite 0xc095 h s).2).1 = .ok () ∧
    (aWrite 0xc096 l (aWrite 0xc095 h s).2).2.st.uther.st.ptr = h.toNat % 128 * 256 + l.toNat ∧
    (aWrite 0xc096 l (aWrite 0xc095 h s).2).2.st.uther.mem = s.st.uther.mem := by
  rw [write_wadrh]
  dsimp only
  rw [write_wadrl]
  exact ⟨rfl, rfl, ptr_value h l _, rfl⟩

/-- **C48.** `n` reads of the data port return `n` consecutive bytes of the card's memory, starting
at the pointer and going on from `$7FFF` to 0, if none of them is a register that the simulator
lacks; they leave the pointer behind the last one and the memory as it was.  (This is so whether
or not the auto-increment bit is set.) -/
theorem C48_reads (n : Nat) (s : Bus AState) (hp : s.st.uther.st.ptr < 32768)
    (hr : ∀ i < n, cardReadable ((s.st.uther.st.ptr + i) % 32768) = true) :
    (readMany 0xc097 n s).1 =
      .ok ((List.range n).map fun i => s.st.uther.mem ((s.st.uther.st.ptr + i) % 32768)) ∧
    (readMany 0xc097 n s).2.st.uther.st.ptr = (s.st.uther.st.ptr + n) % 32768 ∧
    (readMany 0xc097 n s).2.st.uther.mem = s.st.uther.mem := by
  rw [readMany_wdata n s hp hr]
  exact ⟨rfl, rfl, rfl⟩

/-- **C48.** Writing up to 32K bytes to the data port stores them at consecutive addresses from the
pointer on, if no register is among them, and changes nothing else in the card's memory. -/
theorem C48_writes (vs : List U8) (s : Bus AState) (hp : s.st.uther.st.ptr < 32768)
    (hl : vs.length ≤ 32768)
    (hr : ∀ i < vs.length, cardPlain ((s.st.uther.st.ptr + i) % 32768) = true) :
    (writeMany 0xc097 vs s).1 = .ok () ∧
    (writeMany 0xc097 vs s).2.st.uther.st.ptr = (s.st.uther.st.ptr + vs.length) % 32768 ∧
    (∀ i (hi : i < vs.length),
      (writeMany 0xc097 vs s).2.st.uther.mem ((s.st.uther.st.ptr + i) % 32768) = vs[i]) ∧
    (∀ a, (∀ i < vs.length, a ≠ (s.st.uther.st.ptr + i) % 32768) →
      (writeMany 0xc097 vs s).2.st.uther.mem a = s.st.uther.mem a) := by
  obtain ⟨s', he, h⟩ := writeMany_wdata vs s hp hl hr
  rw [he]
  exact ⟨rfl, h⟩

/-- **C48.** (Defects.)  In the other order, low byte first, bit 7 of the low byte is lost and bit
7 of the high byte kept: the pointer gets `h·256 + l mod 128`.  And behind the last byte of the
receive buffer, `$7FFF`, comes 0, not the first byte of the buffer `$6000`, as on the W5100. -/
theorem C48_defects (h l : U8) (s : Bus AState) :
    (aWrite 0xc095 h (aWrite 0xc096 l s).2).2.st.uther.st.ptr = h.toNat * 256 + l.toNat % 128 ∧
    (s.st.uther.st.ptr = 0x7fff → (aRead 0xc097 s).2.st.uther.st.ptr = 0) := by
  constructor
  · rw [write_wadrl]
    dsimp only
    rw [write_wadrh]
    exact ptr_low_first h l _
  · intro hp
    rw [read_wdata (by omega) (by rw [hp]; decide)]
    show (s.st.uther.st.ptr + 1) % 32768 = 0
    rw [hp]

/-- The receive buffer, also across its end, can be read; the hypotheses of `C48_reads` hold
there, those of `C48_writes` up to the end. -/
example : (∀ i < 8192, cardReadable ((0x6000 + i) % 32768) = true) ∧
    (∀ i < 20, cardReadable ((0x7ff0 + i) % 32768) = true) ∧
    (∀ i < 8192, cardPlain ((0x6000 + i) % 32768) = true) ∧ cardReadable 0x13 = false := by
  refine ⟨fun i hi => ?_, by decide, fun i hi => ?_, by decide⟩
  · simp only [cardReadable, Bool.or_eq_true, decide_eq_true_eq]; omega
  · simp only [cardPlain, Bool.or_eq_true, decide_eq_true_eq]; omega

/-! ### C55: socket commands -/

theorem entry_command : uIoMap 0x401 = some (.RW, some .socketCommand) := by decide +kernel
theorem entry_status : uIoMap 0x403 = some (.RW, none) := by decide +kernel

theorem uWriteDepth_status (d : Nat) (v : U8) (u : Bus UState) :
    uWriteDepth (d + 1) 0x403 v u = (.ok (), u.poke 0x403 v) := by
  unfold uWriteDepth Observers.write
  rw [show (0x403 % 65536 : Nat) = 0x403 from rfl, uManager_writers_eq, if_pos (by decide)]
  simp only [callWriters, ioInterceptor, entry_status]
  rfl

theorem uWriteDepth_command (d : Nat) (v : U8) (u : Bus UState) :
    uWriteDepth (d + 2) 0x401 v u =
      if v = 0x01 then (.ok (), (u.poke 0x403 0x13).poke 0x401 v)
      else if v = 0x04 then (.ok (), (u.poke 0x403 0x17).poke 0x401 v)
      else if v = 0x40 then (.error .notImplementedError, u)
      else (.ok (), u.poke 0x401 v) := by
  rw [uWriteDepth, Observers.write]
  rw [show (0x401 % 65536 : Nat) = 0x401 from rfl, uManager_writers_eq, if_pos (by decide)]
  simp only [callWriters, ioInterceptor, entry_command, AccessMode.allows, AccessMode.RW, if_true,
    UCall.run]
  by_cases h1 : v = 0x01
  · simp only [if_pos h1, uWriteDepth_status, Option.getD_none]
  · simp only [if_neg h1]
    by_cases h2 : v = 0x04
    · simp only [if_pos h2, uWriteDepth_status, Option.getD_none]
    · simp only [if_neg h2]
      by_cases h3 : v = 0x40
      · simp only [if_pos h3]
      · simp only [if_neg h3, Option.getD_none]

/-- **C55.** A command for socket 0, i.e. a byte written to the data port while the pointer is at
`$0401`: OPEN (1) and CONNECT (4) make the socket's status `$13` (SOCK_INIT) and `$17`
(SOCK_ESTABLISHED) whatever it was; the other commands have no effect beyond being stored, except
(defect) RECV (`$40`), with which the player acknowledges received data: it raises
`NotImplementedError`, and nothing has changed. -/
theorem C55_commands (v : U8) (s : Bus AState) (hp : s.st.uther.st.ptr = 0x401) :
    (v = 0x40 → aWrite 0xc097 v s = (.error .notImplementedError, s)) ∧
    (v ≠ 0x40 → (aWrite 0xc097 v s).1 = .ok () ∧
      (aWrite 0xc097 v s).2.st.uther.st.ptr = 0x402 ∧
      ∀ a, (aWrite 0xc097 v s).2.st.uther.mem a =
        if a = 0x401 then v
        else if a = 0x403 ∧ v = 0x01 then 0x13
        else if a = 0x403 ∧ v = 0x04 then 0x17
        else s.st.uther.mem a) := by
  have hw : uWrite s.st.uther.st.ptr v s.st.uther = _ :=
    (congrArg (fun p => uWriteDepth (198 + 2) p v s.st.uther) hp).trans
      (uWriteDepth_command 198 v s.st.uther)
  have key : ∀ u, uWrite s.st.uther.st.ptr v s.st.uther = (.ok (), u) →
      u.st.ptr = s.st.uther.st.ptr →
      aWrite 0xc097 v s = (.ok (), (withCard s (withPtr u 0x402)).poke 0xc097 v) := by
    intro u hu hup
    have hd : uWriteData v s.st.uther = (.ok (), withPtr u 0x402) := by
      unfold uWriteData
      rw [hu]
      simp only [hup, hp, withPtr]
      rfl
    rw [aWrite_io (by decide) (by decide)]
    unfold ioInterceptor
    rw [entry_wdata]
    simp only [AccessMode.allows, AccessMode.RW, if_true, ACall.run,
      onCard_ok (fun _ => (none : Option U8)) hd, Option.getD_none]
  constructor
  · intro h
    subst h
    rw [if_neg (by decide), if_neg (by decide), if_pos rfl] at hw
    have hd : uWriteData 0x40 s.st.uther = (.error .notImplementedError, s.st.uther) := by
      unfold uWriteData
      rw [hw]
    rw [aWrite_io (by decide) (by decide)]
    unfold ioInterceptor
    rw [entry_wdata]
    simp only [AccessMode.allows, AccessMode.RW, if_true, ACall.run, onCard, hd]
  · intro h40
    rw [if_neg h40] at hw
    by_cases h1 : v = 0x01
    · rw [if_pos h1] at hw
      rw [key _ hw rfl]
      refine ⟨rfl, rfl, fun a => ?_⟩
      show (if a = 0x401 then v else if a = 0x403 then 0x13 else s.st.uther.mem a) = _
      simp [h1]
    · rw [if_neg h1] at hw
      by_cases h4 : v = 0x04
      · rw [if_pos h4] at hw
        rw [key _ hw rfl]
        refine ⟨rfl, rfl, fun a => ?_⟩
        show (if a = 0x401 then v else if a = 0x403 then 0x17 else s.st.uther.mem a) = _
        simp [h4]
      · rw [if_neg h4] at hw
        rw [key _ hw rfl]
        refine ⟨rfl, rfl, fun a => ?_⟩
        show (if a = 0x401 then v else s.st.uther.mem a) = _
        rw [if_neg (c := a = 0x403 ∧ v = 0x01) (fun h => h1 h.2),
          if_neg (c := a = 0x403 ∧ v = 0x04) (fun h => h4 h.2)]

/-- The pointer gets to `$0401` by writing 4 and 1 to WADRH and WADRL. -/
example (s : Bus AState) : (aWrite 0xc096 1 (aWrite 0xc095 4 s).2).2.st.uther.st.ptr = 0x401 :=
  (C48_pointer 4 1 s).2.2.1

theorem entry_mode : uIoMap 0 = some (.RW, some .mode) := by decide +kernel
theorem entry_socketMode : uIoMap 0x400 = some (.RW, some .socketMode) := by decide +kernel
theorem entry_wmode : aIoMap 0xc094 = some (.RW, some .wmode) := by decide

/-- **C55.** The card's mode register, port `$C094`: a value with only bits 0 (indirect bus), 1
(auto-increment) and 7 (reset) sets the two flags and is stored; nothing else on the card changes,
so (defect) reset does not reset anything; other values are refused. -/
theorem C55_mode (v : U8) (s : Bus AState) :
    (v &&& 0x7c = 0 → (aWrite 0xc094 v s).1 = .ok () ∧
      (aWrite 0xc094 v s).2.st.uther =
        ⟨fun a => if a = 0 then v else s.st.uther.mem a, ⟨v.getLsbD 0, v.getLsbD 1, s.st.uther.st.ptr⟩⟩) ∧
    (v &&& 0x7c ≠ 0 → (aWrite 0xc094 v s).1 = .error .assertionError ∧ (aWrite 0xc094 v s).2.st.uther = s.st.uther) := by
  have hbits : (v &&& 0x83 = v) ↔ v &&& 0x7c = 0 := by revert v; decide
  have hw : uWriteMode v s.st.uther = if v &&& 0x83 = v then
      (.ok (), ⟨fun a => if a = 0 then v else s.st.uther.mem a, ⟨v.getLsbD 0, v.getLsbD 1, s.st.uther.st.ptr⟩⟩)
      else (.error .assertionError, s.st.uther) := by
    unfold uWriteMode uWrite
    rw [uWriteDepth, Observers.write]
    rw [show (0 % 65536 : Nat) = 0 from rfl, uManager_writers_eq, if_pos (by decide)]
    simp only [callWriters, ioInterceptor, entry_mode, AccessMode.allows, AccessMode.RW, if_true, UCall.run]
    by_cases h : v &&& 0x83 = v
    · simp only [if_pos h]; rfl
    · simp only [if_neg h]
  rw [aWrite_io (by decide) (by decide)]
  unfold ioInterceptor
  rw [entry_wmode]
  simp only [AccessMode.allows, AccessMode.RW, if_true, ACall.run, onCard, hw]
  constructor
  · intro h
    rw [if_pos (hbits.mpr h)]
    exact ⟨rfl, rfl⟩
  · intro h
    rw [if_neg (fun h' => h (hbits.mp h'))]
    exact ⟨rfl, rfl⟩

/-- **C55.** The mode register of socket 0 accepts only `$21` (TCP, no delayed ACK), the value the player uses. -/
theorem C55_socket_mode (v : U8) (s : Bus AState) (hp : s.st.uther.st.ptr = 0x400) :
    (v = 0x21 → (aWrite 0xc097 v s).1 = .ok () ∧ (aWrite 0xc097 v s).2.st.uther.st.ptr = 0x401 ∧
      ∀ a, (aWrite 0xc097 v s).2.st.uther.mem a = if a = 0x400 then v else s.st.uther.mem a) ∧
    (v ≠ 0x21 → (aWrite 0xc097 v s).1 = .error .assertionError ∧ (aWrite 0xc097 v s).2.st.uther = s.st.uther) := by
  have hw : uWriteData v s.st.uther = if v = 0x21 then
      (.ok (), withPtr (s.st.uther.poke 0x400 v) 0x401)
      else (.error .assertionError, s.st.uther) := by
    unfold uWriteData uWrite
    rw [hp, uWriteDepth, Observers.write]
    rw [show (0x400 % 65536 : Nat) = 0x400 from rfl, uManager_writers_eq, if_pos (by decide)]
    simp only [callWriters, ioInterceptor, entry_socketMode, AccessMode.allows, AccessMode.RW, if_true, UCall.run]
    by_cases h : v = 0x21
    · simp only [if_pos h, withPtr, Bus.poke, hp]; rfl
    · simp only [if_neg h]
  rw [aWrite_io (by decide) (by decide)]
  unfold ioInterceptor
  rw [entry_wdata]
  simp only [AccessMode.allows, AccessMode.RW, if_true, ACall.run, onCard, hw]
  constructor
  · intro h
    rw [if_pos h]
    exact ⟨rfl, rfl, fun a => rfl⟩
  · intro h
    rw [if_neg h]
    exact ⟨rfl, rfl⟩

/-! ### C49: memory protection and entry points -/

/-- **C49.** For any memory map within the 64K and any interceptors: a write to an address of a
region that is not writable raises an exception and the write itself does not change the byte —
if no region there has a write interceptor, the exception is `WriteProtectedException` and nothing
at all has changed. -/
theorem C49_read_only {κ η τ : Type} [DecidableEq κ] (map : List (Region κ η)) (hb : InBounds map)
    (run : κ → Nat → Option U8 → Py (Bus τ) (Option U8)) (a : Nat) (ha : a < 65536)
    (hro : ∃ r ∈ map, Inside r a ∧ r.writable = false) (v : U8) (s : Bus τ) :
    (∃ e, (((Manager.new κ η).enable map).obs.write run a v s).1 = .error e) ∧
    ((∀ r ∈ map, Inside r a → r.writeInterceptor = none) →
      ((Manager.new κ η).enable map).obs.write run a v s = (.error .writeProtected, s)) := by
  obtain ⟨k, hk⟩ := enableFrom_deny map 0 (Manager.new κ η) hb hro
  unfold Observers.write Manager.enable
  rw [Nat.mod_eq_of_lt ha]
  constructor
  · obtain ⟨e, he⟩ := callWriters_deny run a _ v s hk
    generalize callWriters run a _ v s = r at he
    rcases r with ⟨_ | _, s'⟩
    · exact ⟨_, rfl⟩
    · cases he
  · intro hni
    cases hl : (Manager.enableFrom 0 (Manager.new κ η) map).obs.writers a with
    | nil => rw [hl] at hk; cases hk
    | cons x l =>
      rcases enableFrom_writers map 0 (Manager.new κ η) hb x (by rw [hl]; exact .head _) with
        h | ⟨r, hr, hin, ⟨c, hc, _⟩ | ⟨_, k', rfl⟩⟩
      · cases h
      · rw [hni r hr hin] at hc; cases hc
      · rfl

/-- **C49.** For any memory map within the 64K: a write to an address that is in no read-only
region and has no interceptor changes that byte and nothing else; a read without read interceptors
returns the byte and changes nothing. -/
theorem C49_plain {κ η τ : Type} [DecidableEq κ] (map : List (Region κ η)) (hb : InBounds map)
    (run : κ → Nat → Option U8 → Py (Bus τ) (Option U8)) (a : Nat) (ha : a < 65536) (v : U8)
    (s : Bus τ) :
    ((∀ r ∈ map, Inside r a → r.writeInterceptor = none ∧ r.writable = true) →
      ∃ s', ((Manager.new κ η).enable map).obs.write run a v s = (.ok (), s') ∧
        s'.st = s.st ∧ s'.mem a = v ∧ ∀ b, b ≠ a → s'.mem b = s.mem b) ∧
    ((∀ r ∈ map, Inside r a → r.readInterceptor = none) →
      ((Manager.new κ η).enable map).obs.read run a s = (.ok (s.mem a), s)) := by
  constructor
  · intro h
    refine ⟨s.poke a v, ?_, rfl, ?_, ?_⟩
    · unfold Observers.write Manager.enable
      rw [Nat.mod_eq_of_lt ha, enableFrom_writersAt a map 0 _ hb, writersAt_plain h]
      rfl
    · simp [Bus.poke]
    · intro b hba; simp [Bus.poke, hba]
  · intro h
    unfold Observers.read Manager.enable
    rw [Nat.mod_eq_of_lt ha, enableFrom_readersAt a map 0 _ hb, readersAt_plain h]
    rfl

/-- **C49.** An address belongs to the last region of the map that contains it, to the default
region if there is none. -/
theorem C49_regions {κ η : Type} [DecidableEq κ] (map : List (Region κ η)) (a : Nat) :
    ((Manager.new κ η).enable map).region a = lastRegion a map := by
  unfold Manager.enable
  rw [enableFrom_region a map 0]
  cases lastRegion a map with
  | none => rfl
  | some j => simp

/-- **C49**, for the simulated computer: writes to `$4000`-`$4FFF`, `$C100`-`$C7FF` and
`$D000`-`$FFFF` are denied and change nothing; all other writes, but to the I/O page, change
exactly the byte written; reads outside the I/O page return the byte and change nothing. -/
theorem C49_computer (a : Nat) (ha : a < 65536) (hio : ¬(0xc000 ≤ a ∧ a ≤ 0xc0ff)) (v : U8)
    (s : Bus AState) :
    ((0x4000 ≤ a ∧ a ≤ 0x4fff) ∨ (0xc100 ≤ a ∧ a ≤ 0xc7ff) ∨ 0xd000 ≤ a →
      aWrite a v s = (.error .writeProtected, s)) ∧
    (¬((0x4000 ≤ a ∧ a ≤ 0x4fff) ∨ (0xc100 ≤ a ∧ a ≤ 0xc7ff) ∨ 0xd000 ≤ a) →
      ∃ s', aWrite a v s = (.ok (), s') ∧ s'.st = s.st ∧ s'.mem a = v ∧
        ∀ b, b ≠ a → s'.mem b = s.mem b) ∧
    aRead a s = (.ok (s.mem a), s) := by
  refine ⟨fun h => ?_, fun h => ?_, aRead_other ha hio s⟩
  · rw [aWrite_other ha hio, if_pos h]
  · rw [aWrite_other ha hio, if_neg h]
    exact ⟨_, rfl, rfl, by simp [Bus.poke], fun b hb => by simp [Bus.poke, hb]⟩

/-- The functions of the list were called one after the other, without exception. -/
inductive Spec.Called {η σ : Type} (handle : η → Py σ Unit) : List η → σ → σ → Prop
  | nil (s : σ) : Spec.Called handle [] s s
  | cons {h : η} {rest : List η} {s t u : σ} : handle h s = (.ok (), t) →
      Spec.Called handle rest t u → Spec.Called handle (h :: rest) s u

/-- One transition of a run is fine: the program counter moved within a region, or to an entry
point, or from an RTS instruction (as memory reads after the instruction). -/
def Spec.Fine {κ η σ : Type} (m : Manager κ η) (read : Nat → Py σ U8) (pc : σ → Nat) (old : Nat)
    (s : σ) : Prop :=
  m.region old = m.region (pc s) ∨ m.handlers (pc s) ≠ [] ∨ (read old s).1 = .ok 0x60

theorem maybeIntercept_fine {κ η σ : Type} (m : Manager κ η) (handle : η → Py σ Unit)
    (read : Nat → Py σ U8) (pc : σ → Nat) (old : Nat) (s : σ) :
    (¬Fine m read pc old s → ∀ op, (read old s).1 = .ok op →
      m.maybeIntercept handle read old (pc s) s = (.error .undefinedEntryPoint, (read old s).2)) ∧
    (∀ s', m.maybeIntercept handle read old (pc s) s = (.ok (), s') → Fine m read pc old s) := by
  unfold Manager.maybeIntercept Fine
  by_cases hr : m.region old = m.region (pc s)
  · exact ⟨fun h => absurd (.inl hr) h, fun _ _ => .inl hr⟩
  · rw [if_neg hr]
    rcases hrd : read old s with ⟨e | op, s₁⟩
    · constructor
      · intro _ op hop; cases hop
      · intro s' h; cases h
    · dsimp only
      by_cases hop : op ≠ 0x60 ∧ m.handlers (pc s) = []
      · rw [if_pos hop]
        constructor
        · intros; rfl
        · intro s' h; cases h
      · rw [if_neg hop]
        have hfine : m.handlers (pc s) ≠ [] ∨ op = 0x60 := by
          by_cases h : op = 0x60
          · exact .inr h
          · exact .inl (fun hh => hop ⟨h, hh⟩)
        refine ⟨fun h => absurd ?_ h, fun _ _ => ?_⟩
        · exact hfine.elim (fun h => .inr (.inl h)) (fun h => .inr (.inr (by rw [h])))
        · exact hfine.elim (fun h => .inr (.inl h)) (fun h => .inr (.inr (by rw [h])))

/-- **C49.** For any memory map, any processor and any number of rounds of the main loop: between
two instructions that were executed one after the other the program counter moved (else the loop
ends), and it entered another region only by RTS or at an entry point. -/
theorem C49_entries {κ η σ : Type} (m : Manager κ η) (handle : η → Py σ Unit)
    (read : Nat → Py σ U8) (pc : σ → Nat) (step : Py σ Unit) :
    ∀ (n old : Nat) (s : σ) (k : Nat) (s₁ s₂ : σ),
      (runLoop m handle read pc step n old s).1[k]? = some s₁ →
      (runLoop m handle read pc step n old s).1[k + 1]? = some s₂ →
      (step s₁).1 = .ok () ∧ pc (step s₁).2 ≠ pc s₁ ∧ Fine m read pc (pc s₁) (step s₁).2
  | 0, _, _, _, _, _, h, _ => by simp [runLoop] at h
  | n + 1, old, s, k, s₁, s₂, h1, h2 => by
    rw [runLoop] at h1 h2
    rcases hmi : m.maybeIntercept handle read old (pc s) s with ⟨e | u, t⟩
    · rw [hmi] at h1; simp at h1
    · rw [hmi] at h1 h2
      dsimp only at h1 h2
      rcases hst : step t with ⟨e | u, t'⟩
      · rw [hst] at h2; simp at h2
      · rw [hst] at h1 h2
        dsimp only at h1 h2
        by_cases hpc : pc t' = pc t
        · rw [if_pos hpc] at h2; simp at h2
        · rw [if_neg hpc] at h1 h2
          cases k with
          | zero =>
            simp only [List.getElem?_cons_zero, Option.some.injEq, List.getElem?_cons_succ] at h1 h2
            subst h1
            rw [hst]
            refine ⟨rfl, hpc, ?_⟩
            cases n with
            | zero => simp [runLoop] at h2
            | succ n =>
              rw [runLoop] at h2
              rcases hmi' : m.maybeIntercept handle read (pc t) (pc t') t' with ⟨e | u, t''⟩
              · rw [hmi'] at h2; simp at h2
              · exact (maybeIntercept_fine m handle read pc (pc t) t').2 _ hmi'
          | succ k =>
            simp only [List.getElem?_cons_succ] at h1 h2
            exact C49_entries m handle read pc step n (pc t) t' k s₁ s₂ h1 h2

/-- **C49.** If an instruction moves the program counter into another region, not by RTS and not to
an entry point, then the next round of the main loop raises `UndefinedEntryPointException` before
anything of that region is executed. -/
theorem C49_trap {κ η σ : Type} (m : Manager κ η) (handle : η → Py σ Unit)
    (read : Nat → Py σ U8) (pc : σ → Nat) (step : Py σ Unit) (n old : Nat) (s : σ) (op : U8)
    (hread : (read old s).1 = .ok op) (hbad : ¬Fine m read pc old s) :
    (runLoop m handle read pc step (n + 1) old s).1 = [] ∧
    (runLoop m handle read pc step (n + 1) old s).2.1 = .raised .undefinedEntryPoint := by
  rw [runLoop, (maybeIntercept_fine m handle read pc old s).1 hbad op hread]
  exact ⟨rfl, rfl⟩

/-- **C49.** The functions to be called at an address are the entry points listed for it, region
by region. -/
theorem C49_handlers {κ η : Type} [DecidableEq κ] (map : List (Region κ η)) (a : Nat) :
    ((Manager.new κ η).enable map).handlers a =
      map.flatMap fun r => (r.entrypoints.filter fun e => e.1 = a).map (·.2) := by
  have key : ∀ (es : List (Nat × η)) (f : Nat → List η),
      es.foldl (fun f e a => if a = e.1 then f a ++ [e.2] else f a) f a =
        f a ++ (es.filter fun e => e.1 = a).map (·.2) := by
    intro es
    induction es with
    | nil => intro f; simp
    | cons e es ih =>
      intro f
      rw [List.foldl_cons, ih]
      by_cases he : e.1 = a
      · rw [if_pos he.symm, List.filter_cons_of_pos (by simpa using he)]
        simp
      · rw [if_neg (fun h => he h.symm), List.filter_cons_of_neg (by simpa using he)]
  have all : ∀ (map : List (Region κ η)) (i : Nat) (m : Manager κ η), (m.enableFrom i map).handlers a =
      m.handlers a ++ map.flatMap fun r => (r.entrypoints.filter fun e => e.1 = a).map (·.2) := by
    intro map
    induction map with
    | nil => intro i m; simp [Manager.enableFrom]
    | cons r rest ih =>
      intro i m
      rw [Manager.enableFrom, ih]
      show r.entrypoints.foldl _ m.handlers a ++ _ = _
      rw [key, List.flatMap_cons, List.append_assoc]
  exact all map 0 _

/-- **C49.** Before an instruction is executed, all functions for its address have been called, one
after the other in order, each in the state the one before left (only a read of the opcode of the
previous instruction may come first). -/
theorem C49_handled {κ η σ : Type} (m : Manager κ η) (handle : η → Py σ Unit)
    (read : Nat → Py σ U8) (pc : σ → Nat) (step : Py σ Unit) (n old : Nat) (s t : σ)
    (h : (runLoop m handle read pc step n old s).1[0]? = some t) :
    ∃ s', (s' = s ∨ s' = (read old s).2) ∧ Called handle (m.handlers (pc s)) s' t := by
  have calls : ∀ (l : List η) (s t : σ), callHandlers handle l s = (.ok (), t) → Called handle l s t := by
    intro l
    induction l with
    | nil =>
      intro s t h
      simp only [callHandlers, Prod.mk.injEq, true_and] at h
      subst h
      exact .nil _
    | cons x l ih =>
      intro s t h
      rw [callHandlers] at h
      dsimp only at h
      rcases hx : handle x s with ⟨e | u, s'⟩
      · rw [hx] at h; simp at h
      · rw [hx] at h
        exact .cons hx (ih _ _ h)
  cases n with
  | zero => simp [runLoop] at h
  | succ n =>
    rw [runLoop] at h
    have hfirst : ∃ u, m.maybeIntercept handle read old (pc s) s = (.ok u, t) := by
      rcases hmi : m.maybeIntercept handle read old (pc s) s with ⟨e | u, t'⟩
      · rw [hmi] at h; simp at h
      · rw [hmi] at h
        dsimp only at h
        rcases hst : step t' with ⟨e | u, t''⟩
        · rw [hst] at h; simp at h; subst h; exact ⟨u, rfl⟩
        · rw [hst] at h
          dsimp only at h
          split at h
          · simp at h; subst h; exact ⟨_, rfl⟩
          · simp at h; subst h; exact ⟨_, rfl⟩
    obtain ⟨u, hu⟩ := hfirst
    unfold Manager.maybeIntercept at hu
    split at hu
    · exact ⟨s, .inl rfl, calls _ _ _ hu⟩
    · rcases hrd : read old s with ⟨e | op, s₁⟩
      · rw [hrd] at hu; simp at hu
      · rw [hrd] at hu
        dsimp only at hu
        split at hu
        · simp at hu
        · exact ⟨s₁, .inr rfl, calls _ _ _ hu⟩

/-- C49_handlers, C49_handled: two functions for the same address, in different regions; both are
called, the first one first. -/
example : ((Manager.new AInt Nat).enable
      [{ start := 0, stop := 9, entrypoints := [(5, 1), (6, 2)] }, { start := 3, stop := 6, entrypoints := [(5, 3)] }]).handlers 5
      = [1, 3] ∧
    (runLoop ((Manager.new AInt Nat).enable
      [{ start := 0, stop := 9, entrypoints := [(5, 1), (6, 2)] }, { start := 3, stop := 6, entrypoints := [(5, 3)] }])
      (fun h s => (.ok (), 10 * s + h)) (fun _ s => (.ok 0, s)) (fun _ => 5) (fun s => (.ok (), s)) 3 5 7).1[0]? = some 713 := by
  refine ⟨by rw [C49_handlers]; rfl, rfl⟩

/-- **C49.** The entry points of the simulated computer are the four ROM routines it lists, each
with one function: `_Wait` for WAIT, a log entry for the others. -/
theorem C49_rom_routines (a : Nat) :
    aManager.handlers a =
      if a = 0xfca8 then [.wait] else if a = 0xf3e2 ∨ a = 0xfded ∨ a = 0xfe89 then [.event] else [] := by
  rw [show aManager.handlers a = _ from C49_handlers aMap a]
  by_cases h1 : a = 0xf3e2
  · subst h1; decide
  by_cases h2 : a = 0xfca8
  · subst h2; decide
  by_cases h3 : a = 0xfded
  · subst h3; decide
  by_cases h4 : a = 0xfe89
  · subst h4; decide
  rw [if_neg h2, if_neg (by omega)]
  rw [List.flatMap_eq_nil_iff]
  intro r hr
  rw [List.map_eq_nil_iff, List.filter_eq_nil_iff]
  have : ∀ r ∈ aMap, ∀ e ∈ r.entrypoints,
      e.1 = 0xf3e2 ∨ e.1 = 0xfca8 ∨ e.1 = 0xfded ∨ e.1 = 0xfe89 := by decide
  intro e he
  have := this r hr e he
  simp only [decide_eq_true_eq]
  omega

/-- **C49.** The entry points of the simulated computer are the four ROM routines it lists. -/
theorem C49_entry_points (a : Nat) :
    aManager.handlers a ≠ [] ↔ a = 0xf3e2 ∨ a = 0xfca8 ∨ a = 0xfded ∨ a = 0xfe89 := by
  have hmem := fun h => enableFrom_handlers a h aMap 0 (Manager.new AInt Handler)
  constructor
  · intro hne
    obtain ⟨h, hh⟩ := List.exists_mem_of_ne_nil _ hne
    rcases (hmem h).1 hh with h | ⟨r, hr, he⟩
    · cases h
    · have : ∀ r ∈ aMap, ∀ e ∈ r.entrypoints,
          e.1 = 0xf3e2 ∨ e.1 = 0xfca8 ∨ e.1 = 0xfded ∨ e.1 = 0xfe89 := by decide
      exact this r hr _ he
  · intro h
    have : ∃ h, h ∈ aManager.handlers a := by
      have hr : aMap[13] ∈ aMap := List.getElem_mem _
      rcases h with rfl | rfl | rfl | rfl
      · exact ⟨.event, (hmem _).2 (.inr ⟨_, hr, by decide⟩)⟩
      · exact ⟨.wait, (hmem _).2 (.inr ⟨_, hr, by decide⟩)⟩
      · exact ⟨.event, (hmem _).2 (.inr ⟨_, hr, by decide⟩)⟩
      · exact ⟨.event, (hmem _).2 (.inr ⟨_, hr, by decide⟩)⟩
    obtain ⟨h, hh⟩ := this
    exact List.ne_nil_of_mem hh

/-- Concrete addresses: `$407E`, where the player modifies itself, cannot be written; `$2000` can;
the last of two overlapping regions counts. -/
example (v : U8) (s : Bus AState) : aWrite 0x407e v s = (.error .writeProtected, s) :=
  (C49_computer 0x407e (by decide) (by decide) v s).1 (by decide)

example : lastRegion (κ := AInt) (η := Handler) 5
    [{ start := 0, stop := 9 }, { start := 3, stop := 6 }, { start := 7, stop := 9 }] = some 1 ∧
    lastRegion 0x8000 aMap = none ∧ lastRegion 0xfded aMap = some 13 := by decide

/-- A jump from `$8000` (default region) to `$D000` is not fine unless it was an RTS. -/
example (read : Nat → Py Nat U8) (h : (read 0x8000 0xd000).1 = .ok 0x4c) :
    ¬Fine aManager read id 0x8000 0xd000 := by
  rintro (hr | hh | ho)
  · rw [show aManager.region 0x8000 = _ from C49_regions aMap 0x8000,
      show aManager.region (id 0xd000) = _ from C49_regions aMap 0xd000] at hr
    exact absurd hr (by decide)
  · exact absurd ((C49_entry_points _).1 hh) (by decide)
  · rw [h] at ho; injection ho with ho; exact absurd ho (by decide)

/-! ### C56: loading -/

theorem load_in {τ : Type} (s : Bus τ) {start a : Nat} {bytes : List U8}
    (h : start ≤ a ∧ a < start + bytes.length) : (s.load start bytes).mem a = bytes.getD (a - start) 0 :=
  if_pos h

theorem load_out {τ : Type} (s : Bus τ) {start a : Nat} {bytes : List U8}
    (h : ¬(start ≤ a ∧ a < start + bytes.length)) : (s.load start bytes).mem a = s.mem a :=
  if_neg h

theorem pySlice_length {l : List U8} {a b : Nat} (h : b ≤ l.length) :
    (pySlice l a b).length = b - a := by
  simp [pySlice, Nat.min_eq_left h]

theorem pySlice_getD {l : List U8} {a b i : Nat} (hi : a + i < b) :
    (pySlice l a b).getD i 0 = l.getD (a + i) 0 := by
  simp [pySlice, List.getD_eq_getElem?_getD, hi]

/-- **C56.** (Defect.)  For a 32K ROM image and any program: when the simulation
starts, memory holds the program from `$8000` on and the ROM image's disk controller and main ROM
at `$C600` and `$D000` — except that each is one byte short: `$C6FF` and `$FFFF`, the high byte of
the interrupt vector, read 0 whatever the image has there.  `$36`/`$37` hold `$FDF0`, everything
else 0. -/
theorem C56_loaded (rom code : List U8) (hrom : rom.length = 0x8000) (a : Nat) :
    (aSetUp rom code).mem a =
      if a = 0x36 then 0xf0
      else if a = 0x37 then 0xfd
      else if 0x8000 ≤ a ∧ a < 0x8000 + code.length then code.getD (a - 0x8000) 0
      else if 0xc600 ≤ a ∧ a < 0xc6ff then rom.getD (0x600 + (a - 0xc600)) 0
      else if 0xd000 ≤ a ∧ a < 0xffff then rom.getD (0x5000 + (a - 0xd000)) 0
      else 0 := by
  have l1 := pySlice_length (l := rom) (a := 0x0600) (b := 0x6ff) (by omega)
  have l2 := pySlice_length (l := rom) (a := 0x5000) (b := 0x7fff) (by omega)
  unfold aSetUp
  simp only [Bus.poke]
  by_cases h37 : a = 0x37
  · rw [if_pos h37, if_neg (by omega), if_pos h37]
  rw [if_neg h37]
  by_cases h36 : a = 0x36
  · rw [if_pos h36, if_pos h36]
  rw [if_neg h36, if_neg h36, if_neg h37]
  by_cases hc : 0x8000 ≤ a ∧ a < 0x8000 + code.length
  · rw [if_pos hc, load_in _ hc]
  rw [if_neg hc, load_out _ hc]
  by_cases h6 : 0xc600 ≤ a ∧ a < 0xc6ff
  · rw [if_pos h6, load_out _ (by rw [l2]; omega), load_in _ (by rw [l1]; omega),
      pySlice_getD (by omega)]
  rw [if_neg h6]
  by_cases hd : 0xd000 ≤ a ∧ a < 0xffff
  · rw [if_pos hd, load_in _ (by rw [l2]; omega), pySlice_getD (by omega)]
  rw [if_neg hd, load_out _ (by rw [l2]; omega), load_out _ (by rw [l1]; omega)]
  rfl

/-- For instance with an image of all `$FF`. -/
example : (aSetUp (List.replicate 0x8000 0xff) [0xa9, 0x00]).mem 0xffff = 0 ∧
    (aSetUp (List.replicate 0x8000 0xff) [0xa9, 0x00]).mem 0x8000 = 0xa9 := by
  have h := C56_loaded (List.replicate 0x8000 0xff) [0xa9, 0x00] List.length_replicate
  exact ⟨(h 0xffff).trans rfl, (h 0x8000).trans rfl⟩

end IIVision.Sim
