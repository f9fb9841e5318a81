import Verif.Proofs.Apple

/-! The switch table and the data port of the network card. -/

namespace IIVision.Sim
open Spec

/-- The table against the registered switches, for every address of the I/O page. -/
theorem table_effect : ∀ k : Fin 256, ∀ i : Fin 12, ∀ w b : Bool,
    (switchTable[i.val]'(by decide +revert)).after b ⟨0xc000 + k.val, if w then some 0 else none⟩ =
      match effect (0xc000 + k.val) (if w then some 0 else none) with
      | some (j, b') => if i.val = j then b' else b
      | none => b := by
  decide +kernel

theorem allows_isSome (m : AccessMode) (v : Option U8) :
    m.allows v = m.allows (if v.isSome then some 0 else none) := by cases v <;> rfl

theorem effect_isSome (a : Nat) (v : Option U8) :
    effect a v = effect a (if v.isSome then some 0 else none) := by cases v <;> rfl

theorem after_isSome (r : SwitchRow) (b : Bool) (a : Nat) (v : Option U8) :
    r.after b ⟨a, v⟩ = r.after b ⟨a, if v.isSome then some 0 else none⟩ := by cases v <;> rfl

theorem table_lo : ∀ r ∈ switchTable, (0xc000 ≤ r.on ∧ r.on ≤ 0xc0ff) ∧
    (0xc000 ≤ r.off ∧ r.off ≤ 0xc0ff) := by decide

theorem after_other {r : SwitchRow} (hr : r ∈ switchTable) (b : Bool) {x : Access}
    (h : ¬(0xc000 ≤ x.addr ∧ x.addr ≤ 0xc0ff)) : r.after b x = b := by
  have := table_lo r hr
  unfold SwitchRow.after
  rw [if_neg (c := x.addr = r.on) (by intro e; rw [e] at h; exact h this.1),
    if_neg (c := x.addr = r.off) (by intro e; rw [e] at h; exact h this.2)]
  split <;> rfl

/-- One access, seen from one switch. -/
theorem perform_sw (s : Bus AState) (x : Access) (hx : x.addr < 65536) (i : Nat)
    (hi : i < switchTable.length) :
    (x.perform s).st.sw i = switchTable[i].after (s.st.sw i) x := by
  obtain ⟨a, v⟩ := x
  by_cases h : 0xc000 ≤ a ∧ a ≤ 0xc0ff
  · have key : (ioInterceptor aIoMap ACall.run a v s).2.st.sw i =
        switchTable[i].after (s.st.sw i) ⟨a, v⟩ := by
      rw [io_sw, effect_isSome, after_isSome]
      have hk : a - 0xc000 < 256 := by omega
      have := table_effect ⟨a - 0xc000, hk⟩ ⟨i, hi⟩ v.isSome (s.st.sw i)
      simp only [show 0xc000 + (a - 0xc000) = a by omega] at this
      exact this.symm
    rw [← key]
    cases v with
    | none =>
      simp only [Access.perform]
      rw [aRead_io h.1 h.2]
      rcases ioInterceptor aIoMap ACall.run a none s with ⟨_ | _ | _, s'⟩ <;> rfl
    | some v =>
      simp only [Access.perform]
      rw [aWrite_io h.1 h.2]
      rcases ioInterceptor aIoMap ACall.run a (some v) s with ⟨_ | _, s'⟩ <;> rfl
  · rw [after_other (List.getElem_mem _) _ h]
    cases v with
    | none =>
      simp only [Access.perform]
      rw [aRead_other hx h]
    | some v =>
      simp only [Access.perform]
      rw [aWrite_other hx h]
      split <;> rfl

theorem history_sw (i : Nat) (hi : i < switchTable.length) :
    ∀ (history : List Access) (s : Bus AState), (∀ x ∈ history, x.addr < 65536) →
      (history.foldl Access.perform s).st.sw i =
        history.foldl switchTable[i].after (s.st.sw i) := by
  intro history
  induction history with
  | nil => intros; rfl
  | cons x rest ih =>
    intro s h
    rw [List.foldl_cons, List.foldl_cons, ih _ (fun y hy => h y (.tail _ hy)),
      perform_sw s x (h x (.head _)) i hi]

/-- The status addresses. -/
theorem status_entry : ∀ i : Fin 12, aIoMap ((switchTable[i.val]'(by decide +revert)).status) =
    some (.READ, some (.switch i.val .get)) := by
  decide +kernel

theorem status_lo : ∀ r ∈ switchTable, 0xc000 ≤ r.status ∧ r.status ≤ 0xc0ff := by decide

theorem status_read (s : Bus AState) (i : Nat) (hi : i < switchTable.length) :
    aRead switchTable[i].status s = (.ok 0, s) := by
  have hlo := status_lo _ (List.getElem_mem hi)
  rw [aRead_io hlo.1 hlo.2]
  unfold ioInterceptor
  rw [status_entry ⟨i, hi⟩]
  simp only [AccessMode.allows, AccessMode.READ, if_true, ACall.run, switchCall]
  cases s.st.sw i <;> rfl

/-! ### Which accesses are known -/

/-- The entry of the I/O map allows the access. -/
def allowed (a : Nat) (v : Option U8) : Bool :=
  match aIoMap a with
  | some (m, _) => m.allows v
  | none => false

theorem known_table : ∀ k : Fin 256, ∀ w : Bool,
    allowed (0xc000 + k.val) (if w then some 0 else none) =
      Access.known ⟨0xc000 + k.val, if w then some 0 else none⟩ := by
  decide +kernel

theorem allowed_known {a : Nat} (h1 : 0xc000 ≤ a) (h2 : a ≤ 0xc0ff) (v : Option U8) :
    allowed a v = Access.known ⟨a, v⟩ := by
  have := known_table ⟨a - 0xc000, by omega⟩ v.isSome
  simp only [show 0xc000 + (a - 0xc000) = a by omega] at this
  rw [show allowed a v = allowed a (if v.isSome then some 0 else none) by cases v <;> rfl, this]
  cases v <;> rfl

theorem io_trap {a : Nat} {v : Option U8} (h : allowed a v = false) (s : Bus AState) :
    ioInterceptor aIoMap ACall.run a v s = (.error .trapException, s) := by
  unfold ioInterceptor
  unfold allowed at h
  rcases haa : aIoMap a with _ | ⟨m, cb⟩
  · rfl
  · rw [haa] at h
    simp only at h
    simp [h]

/-- The exception that an access to the I/O page raises by itself, from the entry alone. -/
def staticErr (a : Nat) (v : Option U8) : Option PyErr :=
  match aIoMap a with
  | none => some .trapException
  | some (m, cb) =>
    if m.allows v then
      match cb with
      | some (.switch _ .get) => none
      | some (.switch i _) => match aSwitches[i]? with
        | some ss => if ss.unimplemented then some .notImplementedError else none
        | none => some .indexError
      | some .wadrh => if v.isSome then none else some .typeError
      | some .wadrl => if v.isSome then none else some .typeError
      | _ => none
    else some .trapException

/-- The exception of a result. -/
def errOf {α : Type} : Except PyErr α → Option PyErr
  | .ok _ => none
  | .error e => some e

theorem err_table : ∀ k : Fin 256, ∀ w : Bool, (Access.known ⟨0xc000 + k.val, if w then some 0 else none⟩ = true →
    staticErr (0xc000 + k.val) (if w then some 0 else none) =
      if k.val ≤ 0x0b then some .notImplementedError else none) ∧
    (k.val ≠ 0x94 → k.val ≠ 0x97 → ∀ m, aIoMap (0xc000 + k.val) ≠ some (m, some .wmode) ∧
      aIoMap (0xc000 + k.val) ≠ some (m, some .wdata)) := by
  have h : ∀ k : Fin 256, ∀ w : Bool, (Access.known ⟨0xc000 + k.val, if w then some 0 else none⟩ = true →
      staticErr (0xc000 + k.val) (if w then some 0 else none) =
        if k.val ≤ 0x0b then some .notImplementedError else none) ∧
      (k.val ≠ 0x94 → k.val ≠ 0x97 → (match aIoMap (0xc000 + k.val) with
        | some (_, some .wmode) => false
        | some (_, some .wdata) => false
        | _ => true) = true) := by
    decide +kernel
  intro k w
  refine ⟨(h k w).1, fun h1 h2 m => ?_⟩
  have := (h k w).2 h1 h2
  constructor <;> (intro e; rw [e] at this; cases this)

theorem io_err {a : Nat} (v : Option U8) (s : Bus AState)
    (h : ∀ m, aIoMap a ≠ some (m, some .wmode) ∧ aIoMap a ≠ some (m, some .wdata)) :
    errOf (ioInterceptor aIoMap ACall.run a v s).1 = staticErr a v := by
  unfold ioInterceptor staticErr
  rcases haa : aIoMap a with _ | ⟨m, cb⟩
  · rfl
  · dsimp only
    by_cases hm : m.allows v = true
    · rw [if_pos hm, if_pos hm]
      cases cb with
      | none => rfl
      | some cb =>
        cases cb with
        | wmode => exact absurd haa (h m).1
        | wdata => exact absurd haa (h m).2
        | tick => rfl
        | wadrh => cases v <;> rfl
        | wadrl => cases v <;> rfl
        | switch i op =>
          simp only [ACall.run, switchCall]
          cases op with
          | get => rfl
          | set =>
            dsimp only
            rcases aSwitches[i]? with _ | ss
            · rfl
            · dsimp only
              cases ss.unimplemented <;> rfl
          | clear =>
            dsimp only
            rcases aSwitches[i]? with _ | ss
            · rfl
            · dsimp only
              cases ss.unimplemented <;> rfl
    · rw [if_neg hm, if_neg hm]; rfl

theorem access_error {a : Nat} (h1 : 0xc000 ≤ a) (h2 : a ≤ 0xc0ff) (v : Option U8) (s : Bus AState) :
    Access.error s ⟨a, v⟩ = errOf (ioInterceptor aIoMap ACall.run a v s).1 := by
  cases v with
  | none =>
    simp only [Access.error, aRead_io h1 h2]
    rcases ioInterceptor aIoMap ACall.run a none s with ⟨_ | _ | _, s'⟩ <;> rfl
  | some v =>
    simp only [Access.error, aWrite_io h1 h2]
    rcases ioInterceptor aIoMap ACall.run a (some v) s with ⟨_ | _, s'⟩ <;> rfl

/-- The memory of the computer changes at the written address only. -/
theorem perform_mem (s : Bus AState) (x : Access) (hx : x.addr < 65536) (b : Nat)
    (hb : b ≠ x.addr ∨ x.value = none) : (x.perform s).mem b = s.mem b := by
  obtain ⟨a, v⟩ := x
  by_cases h : 0xc000 ≤ a ∧ a ≤ 0xc0ff
  · have key := io_mem a v s
    cases v with
    | none =>
      simp only [Access.perform]
      rw [aRead_io h.1 h.2]
      generalize ioInterceptor aIoMap ACall.run a none s = r at key
      rcases r with ⟨_ | _ | _, s'⟩ <;> exact congrFun key b
    | some v =>
      simp only [Access.perform]
      rw [aWrite_io h.1 h.2]
      generalize ioInterceptor aIoMap ACall.run a (some v) s = r at key
      rcases r with ⟨_ | _, s'⟩
      · exact congrFun key b
      · rcases hb with hb | hb
        · simp only [Bus.poke, if_neg hb]; exact congrFun key b
        · cases hb
  · cases v with
    | none => simp only [Access.perform]; rw [aRead_other hx h]
    | some v =>
      simp only [Access.perform]
      rw [aWrite_other hx h]
      split
      · rfl
      · rcases hb with hb | hb
        · simp only [Bus.poke, if_neg hb]
        · cases hb

theorem card_table : ∀ k : Fin 256, (k.val < 0x94 ∨ 0x97 < k.val) → (match aIoMap (0xc000 + k.val) with
    | some (_, some (.switch _ _)) => true
    | some (_, some .tick) => true
    | none => true
    | _ => false) = true := by
  decide +kernel

/-- The card is only reached through its four addresses. -/
theorem perform_card (s : Bus AState) (x : Access) (hx : x.addr < 65536)
    (hc : x.addr < 0xc094 ∨ 0xc097 < x.addr) : (x.perform s).st.uther = s.st.uther := by
  obtain ⟨a, v⟩ := x
  by_cases h : 0xc000 ≤ a ∧ a ≤ 0xc0ff
  · have key : (ioInterceptor aIoMap ACall.run a v s).2.st.uther = s.st.uther := by
      have ht := card_table ⟨a - 0xc000, by omega⟩ (by dsimp only at hc ⊢; omega)
      simp only [show 0xc000 + (a - 0xc000) = a by omega] at ht
      unfold ioInterceptor
      rcases haa : aIoMap a with _ | ⟨m, cb⟩
      · rfl
      · rw [haa] at ht
        dsimp only
        split
        · rcases cb with _ | cb
          · rfl
          · cases cb with
            | switch i op => rfl
            | tick => rfl
            | _ => cases ht
        · rfl
    cases v with
    | none =>
      simp only [Access.perform]
      rw [aRead_io h.1 h.2]
      generalize ioInterceptor aIoMap ACall.run a none s = r at key
      rcases r with ⟨_ | _ | _, s'⟩ <;> exact key
    | some v =>
      simp only [Access.perform]
      rw [aWrite_io h.1 h.2]
      generalize ioInterceptor aIoMap ACall.run a (some v) s = r at key
      rcases r with ⟨_ | _, s'⟩ <;> exact key
  · cases v with
    | none => simp only [Access.perform]; rw [aRead_other hx h]
    | some v =>
      simp only [Access.perform]
      rw [aWrite_other hx h]
      split <;> rfl

/-! ### The data port -/

/-- The entry of the card's I/O map lets reads through. -/
def uReads (p : Nat) : Bool :=
  match uIoMap p with
  | some (m, cb) => m.read && (match cb with | some .unimplemented => false | _ => true)
  | none => false

theorem uReads_low : ∀ p : Fin 0x30, cardReadable p.val = uReads p.val := by decide +kernel
theorem uReads_high : ∀ p : Fin 0x400, cardReadable (0x400 + p.val) = uReads (0x400 + p.val) := by
  decide +kernel

theorem uRead_readable {p : Nat} (hp : p < 65536) (h : cardReadable p = true) (u : Bus UState) :
    uRead p u = (.ok (u.mem p), u) := by
  unfold uRead Observers.read
  rw [Nat.mod_eq_of_lt hp, uManager_readers_eq]
  by_cases hr : p ≤ 0x2f ∨ (0x400 ≤ p ∧ p ≤ 0x7ff)
  · rw [if_pos hr]
    have hu : uReads p = true := by
      rcases hr with hr | hr
      · rw [← uReads_low ⟨p, by omega⟩]; exact h
      · have := uReads_high ⟨p - 0x400, by omega⟩
        simp only [show 0x400 + (p - 0x400) = p by omega] at this
        rw [← this]; exact h
    unfold uReads at hu
    simp only [callReaders, ioInterceptor]
    generalize uIoMap p = e at hu
    rcases e with _ | ⟨m, cb⟩
    · cases hu
    · simp only [Bool.and_eq_true] at hu
      simp only [AccessMode.allows, hu.1, if_true]
      rcases cb with _ | cb
      · rfl
      · cases cb with
        | unimplemented => exact absurd hu.2 (by simp)
        | _ => rfl
  · rw [if_neg hr]; rfl

theorem uWrite_plain {p : Nat} (hp : p < 65536) (h : cardPlain p = true) (v : U8) (u : Bus UState) :
    uWrite p v u = (.ok (), u.poke p v) := by
  unfold uWrite uWriteDepth Observers.write
  rw [Nat.mod_eq_of_lt hp, uManager_writers_eq, if_neg]
  · rfl
  · unfold cardPlain at h
    simp only [Bool.or_eq_true, Bool.and_eq_true, decide_eq_true_eq] at h
    omega

theorem ptr_value (h l : U8) (p : Nat) :
    ((h.toNat <<< 8) ||| (p &&& 0x7f)) &&& 0x7f00 ||| l.toNat = h.toNat % 128 * 256 + l.toNat := by
  have e1 : (0x7f00 : Nat) = 0x7f <<< 8 := by decide
  have e2 : p &&& 0x7f &&& 0x7f <<< 8 = 0 := by
    rw [Nat.and_assoc, show (0x7f &&& 0x7f <<< 8 : Nat) = 0 by decide, Nat.and_zero]
  rw [e1, Nat.and_or_distrib_right, e2, Nat.or_zero, ← Nat.shiftLeft_and_distrib,
    show (0x7f : Nat) = 2 ^ 7 - 1 by decide, Nat.and_two_pow_sub_one_eq_mod,
    ← Nat.shiftLeft_add_eq_or_of_lt l.isLt, Nat.shiftLeft_eq]

theorem ptr_low_first (h l : U8) (p : Nat) :
    (h.toNat <<< 8) ||| (((p &&& 0x7f00) ||| l.toNat) &&& 0x7f) = h.toNat * 256 + l.toNat % 128 := by
  have e2 : p &&& 0x7f00 &&& 0x7f = 0 := by
    rw [Nat.and_assoc, show (0x7f00 &&& 0x7f : Nat) = 0 by decide, Nat.and_zero]
  rw [Nat.and_or_distrib_right, e2, Nat.zero_or, show (0x7f : Nat) = 2 ^ 7 - 1 by decide,
    Nat.and_two_pow_sub_one_eq_mod, ← Nat.shiftLeft_add_eq_or_of_lt (by omega : l.toNat % 2 ^ 7 < 2 ^ 8),
    Nat.shiftLeft_eq]

end IIVision.Sim

namespace IIVision.Sim
open Spec

/-- The computer with another card. -/
def withCard (s : Bus AState) (u : Bus UState) : Bus AState := { s with st := { s.st with uther := u } }

/-- The card with its pointer moved. -/
def withPtr (u : Bus UState) (p : Nat) : Bus UState := { u with st := { u.st with ptr := p } }

theorem entry_wadrh : aIoMap 0xc095 = some (.WRITE, some .wadrh) := by decide
theorem entry_wadrl : aIoMap 0xc096 = some (.WRITE, some .wadrl) := by decide
theorem entry_wdata : aIoMap 0xc097 = some (.RW, some .wdata) := by decide

theorem write_wadrh (h : U8) (s : Bus AState) :
    aWrite 0xc095 h s = (.ok (), (withCard s (withPtr s.st.uther
      ((h.toNat <<< 8) ||| (s.st.uther.st.ptr &&& 0x7f)))).poke 0xc095 h) := by
  rw [aWrite_io (by decide) (by decide)]
  unfold ioInterceptor
  rw [entry_wadrh]
  rfl

theorem write_wadrl (l : U8) (s : Bus AState) :
    aWrite 0xc096 l s = (.ok (), (withCard s (withPtr s.st.uther
      ((s.st.uther.st.ptr &&& 0x7f00) ||| l.toNat))).poke 0xc096 l) := by
  rw [aWrite_io (by decide) (by decide)]
  unfold ioInterceptor
  rw [entry_wadrl]
  rfl

theorem and_7fff (n : Nat) : n &&& 0x7fff = n % 32768 := Nat.and_two_pow_sub_one_eq_mod n 15

theorem uReadData_eq {u : Bus UState} (hp : u.st.ptr < 65536) (h : cardReadable u.st.ptr = true) :
    uReadData u = (.ok (u.mem u.st.ptr), withPtr u ((u.st.ptr + 1) % 32768)) := by
  unfold uReadData
  rw [uRead_readable hp h]
  simp only [and_7fff, withPtr]

theorem uWriteData_eq {u : Bus UState} (hp : u.st.ptr < 65536) (h : cardPlain u.st.ptr = true)
    (v : U8) :
    uWriteData v u = (.ok (), withPtr (u.poke u.st.ptr v) ((u.st.ptr + 1) % 32768)) := by
  unfold uWriteData
  rw [uWrite_plain hp h]
  simp only [and_7fff, withPtr, Bus.poke]

theorem onCard_ok {α β : Type} {x : Py (Bus UState) α} (f : α → β) {s : Bus AState} {r : α}
    {u : Bus UState} (h : x s.st.uther = (.ok r, u)) : onCard x f s = (.ok (f r), withCard s u) := by
  unfold onCard
  rw [h]
  rfl

theorem read_wdata {s : Bus AState} (hp : s.st.uther.st.ptr < 65536)
    (h : cardReadable s.st.uther.st.ptr = true) :
    aRead 0xc097 s = (.ok (s.st.uther.mem s.st.uther.st.ptr),
      withCard s (withPtr s.st.uther ((s.st.uther.st.ptr + 1) % 32768))) := by
  rw [aRead_io (by decide) (by decide)]
  unfold ioInterceptor
  rw [entry_wdata]
  simp only [AccessMode.allows, AccessMode.RW, if_true, ACall.run, onCard_ok some (uReadData_eq hp h)]

theorem write_wdata {s : Bus AState} (hp : s.st.uther.st.ptr < 65536)
    (h : cardPlain s.st.uther.st.ptr = true) (v : U8) :
    aWrite 0xc097 v s = (.ok (), (withCard s (withPtr (s.st.uther.poke s.st.uther.st.ptr v)
      ((s.st.uther.st.ptr + 1) % 32768))).poke 0xc097 v) := by
  rw [aWrite_io (by decide) (by decide)]
  unfold ioInterceptor
  rw [entry_wdata]
  simp only [AccessMode.allows, AccessMode.RW, if_true, ACall.run,
    onCard_ok (fun _ => (none : Option U8)) (uWriteData_eq hp h v), Option.getD_none]

theorem readMany_wdata : ∀ (n : Nat) (s : Bus AState), s.st.uther.st.ptr < 32768 →
    (∀ i < n, cardReadable ((s.st.uther.st.ptr + i) % 32768) = true) →
    readMany 0xc097 n s =
      (.ok ((List.range n).map fun i => s.st.uther.mem ((s.st.uther.st.ptr + i) % 32768)),
        withCard s (withPtr s.st.uther ((s.st.uther.st.ptr + n) % 32768)))
  | 0, s, hp, _ => by
    rw [readMany, Nat.add_zero, Nat.mod_eq_of_lt hp]; rfl
  | n + 1, s, hp, h => by
    have h0 := h 0 (by omega)
    rw [Nat.add_zero, Nat.mod_eq_of_lt hp] at h0
    rw [readMany]
    simp only [read_wdata (by omega) h0]
    have hp' : (withCard s (withPtr s.st.uther ((s.st.uther.st.ptr + 1) % 32768))).st.uther.st.ptr =
        (s.st.uther.st.ptr + 1) % 32768 := rfl
    rw [readMany_wdata n _ (by rw [hp']; omega) (by
      intro i hi
      rw [hp', Nat.mod_add_mod, Nat.add_assoc, Nat.add_comm 1 i]
      exact h (i + 1) (by omega))]
    have hm : (withCard s (withPtr s.st.uther ((s.st.uther.st.ptr + 1) % 32768))).st.uther.mem =
        s.st.uther.mem := rfl
    simp only [hp', hm]
    rw [List.range_succ_eq_map, List.map_cons, List.map_map]
    refine Prod.ext ?_ ?_
    · refine congrArg Except.ok (congr (congrArg List.cons ?_) ?_)
      · rw [Nat.add_zero, Nat.mod_eq_of_lt hp]
      · apply List.map_congr_left
        intro i _
        simp only [Function.comp, Nat.mod_add_mod, Nat.add_assoc, Nat.add_comm 1 i]
    · simp only [Nat.mod_add_mod, Nat.add_assoc, Nat.add_comm 1 n]
      rfl

section
attribute [local irreducible] aWrite
theorem writeMany_cons {a : Nat} {v : U8} (vs : List U8) {s s' : Bus AState}
    (hw : aWrite a v s = (.ok (), s')) : writeMany a (v :: vs) s = writeMany a vs s' := by
  simp only [writeMany, List.foldl_cons, hw]

end

theorem writeMany_wdata : ∀ (vs : List U8) (s : Bus AState), s.st.uther.st.ptr < 32768 →
    vs.length ≤ 32768 →
    (∀ i < vs.length, cardPlain ((s.st.uther.st.ptr + i) % 32768) = true) →
    ∃ s', writeMany 0xc097 vs s = (.ok (), s') ∧
      s'.st.uther.st.ptr = (s.st.uther.st.ptr + vs.length) % 32768 ∧
      (∀ i (hi : i < vs.length), s'.st.uther.mem ((s.st.uther.st.ptr + i) % 32768) = vs[i]) ∧
      (∀ a, (∀ i < vs.length, a ≠ (s.st.uther.st.ptr + i) % 32768) →
        s'.st.uther.mem a = s.st.uther.mem a)
  | [], s, hp, _, _ => ⟨s, rfl, by simp [Nat.mod_eq_of_lt hp], by simp, fun _ _ => rfl⟩
  | v :: vs, s, hp, hl, h => by
    have h0 := h 0 (by simp)
    rw [Nat.add_zero, Nat.mod_eq_of_lt hp] at h0
    rw [List.length_cons] at hl
    let s₁ := (withCard s (withPtr (s.st.uther.poke s.st.uther.st.ptr v)
      ((s.st.uther.st.ptr + 1) % 32768))).poke 0xc097 v
    have hp1 : s₁.st.uther.st.ptr = (s.st.uther.st.ptr + 1) % 32768 := rfl
    have hm1 : ∀ a, s₁.st.uther.mem a = if a = s.st.uther.st.ptr then v else s.st.uther.mem a :=
      fun _ => rfl
    have hw : aWrite 0xc097 v s = (.ok (), s₁) := write_wdata (by omega) h0 v
    clear_value s₁
    have shift : ∀ i, (s₁.st.uther.st.ptr + i) % 32768 = (s.st.uther.st.ptr + (i + 1)) % 32768 := by
      intro i; rw [hp1, Nat.mod_add_mod, Nat.add_assoc, Nat.add_comm 1 i]
    obtain ⟨s', he, hp', hin, hout⟩ := writeMany_wdata vs s₁ (by rw [hp1]; omega) (by omega) (by
      intro i hi
      rw [shift]
      exact h (i + 1) (by simpa using hi))
    refine ⟨s', ?_, ?_, ?_, ?_⟩
    · exact (writeMany_cons vs hw).trans he
    · rw [hp', List.length_cons, shift]
    · intro i hi
      cases i with
      | zero =>
        rw [Nat.add_zero, Nat.mod_eq_of_lt hp, List.getElem_cons_zero, hout, hm1, if_pos rfl]
        intro i hi
        rw [shift]
        generalize s.st.uther.st.ptr = p at *
        omega
      | succ i =>
        rw [List.getElem_cons_succ, ← shift]
        exact hin i (by simpa using hi)
    · intro a ha
      rw [hout a, hm1, if_neg]
      · have := ha 0 (by simp)
        rwa [Nat.add_zero, Nat.mod_eq_of_lt hp] at this
      · intro i hi
        rw [shift]
        exact ha (i + 1) (by simpa using hi)

end IIVision.Sim
