import Verif.Spec.Simulator

/-! Lemmas about the simulator: subscriptions, regions, dispatch. -/

namespace IIVision.Sim
open Spec

/-- Adding a subscriber once. -/
def addNew {α : Type} [DecidableEq α] (c : α) (l : List α) : List α := if c ∈ l then l else l ++ [c]

theorem subscribe_fold {α : Type} [DecidableEq α] (c : α) (a : Nat) : ∀ (n start : Nat)
    (subs : Nat → List α), start + n ≤ 65536 →
    (List.range' start n).foldl
      (fun subs x a => if a = x % 65536 then (if c ∈ subs a then subs a else subs a ++ [c])
        else subs a) subs a =
      if start ≤ a ∧ a < start + n then addNew c (subs a) else subs a
  | 0, start, subs, _ => by
    rw [if_neg (by omega)]; rfl
  | n + 1, start, subs, h => by
    rw [List.range'_succ, List.foldl_cons, subscribe_fold c a n (start + 1) _ (by omega)]
    have hm : start % 65536 = start := Nat.mod_eq_of_lt (by omega)
    simp only [hm]
    by_cases hs : a = start
    · rw [if_neg (c := start + 1 ≤ a ∧ _) (by omega), if_pos hs,
        if_pos (c := start ≤ a ∧ _) (by omega)]; rfl
    · rw [if_neg hs]
      by_cases hin : start + 1 ≤ a ∧ a < start + 1 + n
      · rw [if_pos hin, if_pos (by omega)]
      · rw [if_neg hin, if_neg (by omega)]

theorem subscribe_eq {α : Type} [DecidableEq α] {start stop : Nat} (c : α) (subs : Nat → List α)
    (a : Nat) (h : stop < 65536) :
    subscribe start stop c subs a =
      if start ≤ a ∧ a ≤ stop then addNew c (subs a) else subs a := by
  unfold subscribe
  by_cases hle : start ≤ stop + 1
  · rw [subscribe_fold c a _ _ _ (by omega)]
    by_cases hin : start ≤ a ∧ a ≤ stop
    · rw [if_pos hin, if_pos (by omega)]
    · rw [if_neg hin, if_neg (by omega)]
  · rw [show stop + 1 - start = 0 by omega, if_neg (by omega)]; rfl

theorem region_fold (i a : Nat) : ∀ (n start : Nat) (f : Nat → Option Nat),
    (List.range' start n).foldl (fun f x a => if a = x then some i else f a) f a =
      if start ≤ a ∧ a < start + n then some i else f a
  | 0, start, f => by rw [if_neg (by omega)]; rfl
  | n + 1, start, f => by
    rw [List.range'_succ, List.foldl_cons, region_fold i a n (start + 1)]
    by_cases hs : a = start
    · rw [if_neg (by omega), if_pos hs, if_pos (by omega)]
    · rw [if_neg hs]
      by_cases hin : start + 1 ≤ a ∧ a < start + 1 + n
      · rw [if_pos hin, if_pos (by omega)]
      · rw [if_neg hin, if_neg (by omega)]

variable {κ η : Type} [DecidableEq κ]

theorem register_region (m : Manager κ η) (i : Nat) (r : Region κ η) (a : Nat) :
    (m.register i r).region a = if Inside r a then some i else m.region a := by
  show (List.range' r.start (r.stop + 1 - r.start)).foldl _ m.region a = _
  rw [region_fold]
  by_cases h : Inside r a
  · rw [if_pos h, if_pos (by unfold Inside at h; omega)]
  · rw [if_neg h, if_neg (by unfold Inside at h; omega)]

theorem enableFrom_region (a : Nat) : ∀ (map : List (Region κ η)) (i : Nat) (m : Manager κ η),
    (m.enableFrom i map).region a =
      match lastRegion a map with
      | some j => some (i + j)
      | none => m.region a
  | [], _, _ => rfl
  | r :: rest, i, m => by
    rw [Manager.enableFrom, enableFrom_region a rest, register_region, lastRegion]
    cases lastRegion a rest with
    | some j => simp only [Option.some.injEq]; omega
    | none =>
      by_cases h : Inside r a <;> simp [h]

/-- What registering a region does to the readers of an address. -/
theorem register_readers (m : Manager κ η) (i : Nat) {r : Region κ η} (hb : r.stop < 65536)
    (a : Nat) :
    (m.register i r).obs.readers a =
      match r.readInterceptor with
      | some c => if Inside r a then addNew c (m.obs.readers a) else m.obs.readers a
      | none => m.obs.readers a := by
  unfold Manager.register Inside
  cases hr : r.readInterceptor with
  | none => rfl
  | some c => exact subscribe_eq c _ a hb

/-- What registering a region does to the writers of an address outside and inside. -/
theorem register_writers (m : Manager κ η) (i : Nat) {r : Region κ η} (hb : r.stop < 65536)
    (a : Nat) :
    (m.register i r).obs.writers a =
      if Inside r a then
        let l := match r.writeInterceptor with
          | some c => addNew (.call c) (m.obs.writers a)
          | none => m.obs.writers a
        if r.writable then l else addNew (.deny m.serial) l
      else m.obs.writers a := by
  unfold Manager.register Inside
  cases hw : r.writeInterceptor with
  | none =>
    cases hr : r.writable with
    | true => simp
    | false => simpa using subscribe_eq (Sub.deny m.serial) _ a hb
  | some c =>
    cases hr : r.writable with
    | true => simpa using subscribe_eq (Sub.call c) _ a hb
    | false =>
      simp only [Bool.false_eq_true, if_false]
      rw [subscribe_eq _ _ a hb, subscribe_eq _ _ a hb]
      by_cases h : r.start ≤ a ∧ a ≤ r.stop
      · simp only [if_pos h]
      · simp only [if_neg h]

theorem mem_addNew {α : Type} [DecidableEq α] {c x : α} {l : List α} :
    x ∈ addNew c l ↔ x ∈ l ∨ x = c := by
  unfold addNew
  by_cases h : c ∈ l
  · rw [if_pos h]
    exact ⟨.inl, fun hx => hx.elim id (fun e => e ▸ h)⟩
  · rw [if_neg h]; simp

/-- The readers of one address, region by region. -/
def readersAt (a : Nat) : List κ → List (Region κ η) → List κ
  | l, [] => l
  | l, r :: rest =>
    readersAt a (if Inside r a then (match r.readInterceptor with
      | some c => addNew c l
      | none => l) else l) rest

/-- The writers of one address, region by region. -/
def writersAt (a : Nat) : Nat → List (Sub κ) → List (Region κ η) → List (Sub κ)
  | _, l, [] => l
  | k, l, r :: rest =>
    writersAt a (k + 1) (if Inside r a then
        let l := match r.writeInterceptor with
          | some c => addNew (.call c) l
          | none => l
        if r.writable then l else addNew (.deny k) l
      else l) rest

theorem readersAt_skip {a : Nat} {l : List κ} {r : Region κ η} {rest : List (Region κ η)}
    (h : ¬Inside r a) : readersAt a l (r :: rest) = readersAt a l rest := by
  rw [readersAt, if_neg h]

theorem readersAt_take {a : Nat} {l : List κ} {r : Region κ η} {rest : List (Region κ η)}
    (h : Inside r a) : readersAt a l (r :: rest) = readersAt a (match r.readInterceptor with
      | some c => addNew c l
      | none => l) rest := by
  rw [readersAt, if_pos h]

theorem readersAt_plain {a : Nat} {l : List κ} {rest : List (Region κ η)}
    (h : ∀ r ∈ rest, Inside r a → r.readInterceptor = none) : readersAt a l rest = l := by
  induction rest with
  | nil => rfl
  | cons r rest ih =>
    rw [readersAt]
    by_cases hin : Inside r a
    · rw [if_pos hin, h r (.head _) hin]; exact ih (fun r hr => h r (.tail _ hr))
    · rw [if_neg hin]; exact ih (fun r hr => h r (.tail _ hr))

theorem writersAt_skip {a k : Nat} {l : List (Sub κ)} {r : Region κ η} {rest : List (Region κ η)}
    (h : ¬Inside r a) : writersAt a k l (r :: rest) = writersAt a (k + 1) l rest := by
  rw [writersAt, if_neg h]

theorem writersAt_take {a k : Nat} {l : List (Sub κ)} {r : Region κ η} {rest : List (Region κ η)}
    (h : Inside r a) : writersAt a k l (r :: rest) = writersAt a (k + 1)
      (let l := match r.writeInterceptor with
          | some c => addNew (.call c) l
          | none => l
        if r.writable then l else addNew (.deny k) l) rest := by
  rw [writersAt, if_pos h]

theorem writersAt_plain {a k : Nat} {l : List (Sub κ)} {rest : List (Region κ η)}
    (h : ∀ r ∈ rest, Inside r a → r.writeInterceptor = none ∧ r.writable = true) :
    writersAt a k l rest = l := by
  induction rest generalizing k with
  | nil => rfl
  | cons r rest ih =>
    rw [writersAt]
    by_cases hin : Inside r a
    · obtain ⟨h1, h2⟩ := h r (.head _) hin
      rw [if_pos hin, h1]
      simp only [h2, if_true]
      exact ih (fun r hr => h r (.tail _ hr))
    · rw [if_neg hin]; exact ih (fun r hr => h r (.tail _ hr))

theorem enableFrom_readersAt (a : Nat) : ∀ (map : List (Region κ η)) (i : Nat) (m : Manager κ η),
    InBounds map → (m.enableFrom i map).obs.readers a = readersAt a (m.obs.readers a) map
  | [], _, _, _ => rfl
  | r :: rest, i, m, hb => by
    rw [Manager.enableFrom, enableFrom_readersAt a rest _ _ (fun r hr => hb r (.tail _ hr)),
      register_readers m i (hb r (.head _)) a, readersAt]
    congr 1
    cases r.readInterceptor with
    | none => simp
    | some c => rfl

theorem enableFrom_writersAt (a : Nat) : ∀ (map : List (Region κ η)) (i : Nat) (m : Manager κ η),
    InBounds map →
      (m.enableFrom i map).obs.writers a = writersAt a m.serial (m.obs.writers a) map
  | [], _, _, _ => rfl
  | r :: rest, i, m, hb => by
    rw [Manager.enableFrom, enableFrom_writersAt a rest _ _ (fun r hr => hb r (.tail _ hr)),
      register_writers m i (hb r (.head _)) a, writersAt]
    rfl

/-- Where the readers of an address come from. -/
theorem enableFrom_readers {a : Nat} : ∀ (map : List (Region κ η)) (i : Nat) (m : Manager κ η),
    InBounds map → (∀ r ∈ map, Inside r a → r.readInterceptor = none) →
    (m.enableFrom i map).obs.readers a = m.obs.readers a
  | [], _, _, _, _ => rfl
  | r :: rest, i, m, hb, h => by
    rw [Manager.enableFrom, enableFrom_readers rest _ _ (fun r hr => hb r (.tail _ hr))
      (fun r hr => h r (.tail _ hr)), register_readers m i (hb r (.head _)) a]
    cases hr : r.readInterceptor with
    | none => rfl
    | some c =>
      by_cases hin : Inside r a
      · rw [h r (.head _) hin] at hr; cases hr
      · simp [hin]

/-- Where the writers of an address come from. -/
theorem enableFrom_writers {a : Nat} : ∀ (map : List (Region κ η)) (i : Nat) (m : Manager κ η),
    InBounds map → ∀ x, x ∈ (m.enableFrom i map).obs.writers a →
      x ∈ m.obs.writers a ∨ ∃ r ∈ map, Inside r a ∧
        ((∃ c, r.writeInterceptor = some c ∧ x = .call c) ∨ (r.writable = false ∧ ∃ k, x = .deny k))
  | [], _, _, _, _, hx => .inl hx
  | r :: rest, i, m, hb, x, hx => by
    rw [Manager.enableFrom] at hx
    rcases enableFrom_writers rest _ _ (fun r hr => hb r (.tail _ hr)) x hx with h | ⟨r', hr', h⟩
    · rw [register_writers m i (hb r (.head _)) a] at h
      by_cases hin : Inside r a
      · rw [if_pos hin] at h
        have key : ∀ x, x ∈ (match r.writeInterceptor with
            | some c => addNew (Sub.call c) (m.obs.writers a)
            | none => m.obs.writers a) →
            x ∈ m.obs.writers a ∨ ∃ c, r.writeInterceptor = some c ∧ x = .call c := by
          intro x hx
          cases hw : r.writeInterceptor with
          | none => rw [hw] at hx; exact .inl hx
          | some c =>
            rw [hw] at hx
            rcases mem_addNew.1 hx with h | h
            · exact .inl h
            · exact .inr ⟨c, rfl, h⟩
        cases hw : r.writable with
        | true =>
          simp only [hw, if_true] at h
          rcases key x h with h | h
          · exact .inl h
          · exact .inr ⟨r, .head _, hin, .inl h⟩
        | false =>
          simp only [hw, Bool.false_eq_true, if_false] at h
          rcases mem_addNew.1 h with h | h
          · rcases key x h with h | h
            · exact .inl h
            · exact .inr ⟨r, .head _, hin, .inl h⟩
          · exact .inr ⟨r, .head _, hin, .inr ⟨hw, _, h⟩⟩
      · rw [if_neg hin] at h; exact .inl h
    · exact .inr ⟨r', .tail _ hr', h⟩

theorem enableFrom_writers_mono {a : Nat} {x : Sub κ} : ∀ (map : List (Region κ η)) (i : Nat)
    (m : Manager κ η), InBounds map → x ∈ m.obs.writers a → x ∈ (m.enableFrom i map).obs.writers a
  | [], _, _, _, hx => hx
  | r :: rest, i, m, hb, hx => by
    refine enableFrom_writers_mono rest (i + 1) (m.register i r) (fun r hr => hb r (.tail _ hr)) ?_
    rw [register_writers m i (hb r (.head _)) a]
    by_cases hin : Inside r a
    · rw [if_pos hin]
      have h1 : x ∈ (match r.writeInterceptor with
            | some c => addNew (Sub.call c) (m.obs.writers a)
            | none => m.obs.writers a) := by
        cases r.writeInterceptor with
        | none => exact hx
        | some c => exact mem_addNew.2 (.inl hx)
      cases hw : r.writable with
      | true => simpa using h1
      | false => simpa using mem_addNew.2 (.inl h1)
    · rw [if_neg hin]; exact hx

theorem enableFrom_deny {a : Nat} : ∀ (map : List (Region κ η)) (i : Nat) (m : Manager κ η),
    InBounds map → (∃ r ∈ map, Inside r a ∧ r.writable = false) →
    ∃ k, Sub.deny k ∈ (m.enableFrom i map).obs.writers a
  | r :: rest, i, m, hb, ⟨r', hr', hin, hw⟩ => by
    rw [Manager.enableFrom]
    cases hr' with
    | head =>
      refine ⟨m.serial, enableFrom_writers_mono rest _ _ (fun r hr => hb r (.tail _ hr)) ?_⟩
      rw [register_writers m i (hb r (.head _)) a, if_pos hin]
      simpa [hw] using mem_addNew.2 (.inr rfl)
    | tail _ hr' =>
      exact enableFrom_deny rest _ _ (fun r hr => hb r (.tail _ hr)) ⟨r', hr', hin, hw⟩

omit [DecidableEq κ] in
theorem callWriters_deny {σ : Type} (run : κ → Nat → Option U8 → Py σ (Option U8)) (a : Nat)
    {k : Nat} : ∀ (l : List (Sub κ)) (v : U8) (s : σ), Sub.deny k ∈ l →
      ∃ e, (callWriters run a l v s).1 = .error e
  | .deny _ :: _, _, _, _ => ⟨_, rfl⟩
  | .call c :: rest, v, s, h => by
    have h' : Sub.deny k ∈ rest := by
      cases h with | tail _ h => exact h
    show ∃ e, (match run c a (some v) s with
      | (.ok r, s) => callWriters run a rest (r.getD v) s
      | (.error e, s) => (.error e, s)).1 = .error e
    cases hr : run c a (some v) s with
    | mk r s' =>
      cases r with
      | error e => exact ⟨e, rfl⟩
      | ok r => exact callWriters_deny run a rest _ s' h'

theorem enableFrom_handlers (pc : Nat) (h : η) : ∀ (map : List (Region κ η)) (i : Nat)
    (m : Manager κ η), h ∈ (m.enableFrom i map).handlers pc ↔
      h ∈ m.handlers pc ∨ ∃ r ∈ map, (pc, h) ∈ r.entrypoints
  | [], _, _ => by simp [Manager.enableFrom]
  | r :: rest, i, m => by
    rw [Manager.enableFrom, enableFrom_handlers pc h rest]
    have key : ∀ (es : List (Nat × η)) (f : Nat → List η),
        h ∈ es.foldl (fun f e a => if a = e.1 then f a ++ [e.2] else f a) f pc ↔
          h ∈ f pc ∨ (pc, h) ∈ es := by
      intro es
      induction es with
      | nil => intro f; simp
      | cons e es ih =>
        intro f
        rw [List.foldl_cons, ih]
        by_cases he : pc = e.1
        · rw [if_pos he, List.mem_append, List.mem_singleton, List.mem_cons, or_assoc]
          have : h = e.2 ↔ (pc, h) = e := by
            rw [Prod.ext_iff]; exact ⟨fun x => ⟨he, x⟩, fun x => x.2⟩
          rw [this]
        · rw [if_neg he, List.mem_cons]
          have : (pc, h) ≠ e := fun x => he (by rw [← x])
          simp [this]
    have := key r.entrypoints m.handlers
    show h ∈ r.entrypoints.foldl _ m.handlers pc ∨ _ ↔ _
    rw [this]
    simp [or_assoc]

end IIVision.Sim
