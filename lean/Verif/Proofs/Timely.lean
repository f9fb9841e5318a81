import Verif.Props.Speed

/-! Executing opcodes without delay. -/

namespace IIVision.Player

open Spec

/-- Every opcode is executed in the time of `duration`. -/
inductive Timely (e : Env) : Mach → List Opcode → Mach → Prop
  | nil (s : Mach) : Timely e s [] s
  | cons {s t s' : Mach} {op : Opcode} {ops : List Opcode} : Executes e s [op] t → t.cycles = s.cycles + duration [op] →
      Timely e t ops s' → Timely e s (op :: ops) s'

theorem executes_cons {e : Env} {s t s' : Mach} {op : Opcode} {ops : List Opcode} (h : Executes e s [op] t) (h' : Executes e t ops s') :
    Executes e s (op :: ops) s' := by
  cases h with
  | tick a b c d f g r => cases r; exact .tick a b c d f g h'
  | ack a b c d r => cases r; exact .ack a b c d h'
  | nop a b c d r => cases r; exact .nop a b c d h'

theorem executes_append {e : Env} {s u s' : Mach} {ops1 ops2 : List Opcode} (h : Executes e s ops1 u) (h' : Executes e u ops2 s') :
    Executes e s (ops1 ++ ops2) s' := by
  induction h with
  | nil s => exact h'
  | tick a b c d f g _ ih => exact .tick a b c d f g (ih h')
  | ack a b c d _ ih => exact .ack a b c d (ih h')
  | nop a b c d _ ih => exact .nop a b c d (ih h')

theorem Timely.executes {e : Env} {s s' : Mach} {ops : List Opcode} (h : Timely e s ops s') : Executes e s ops s' := by
  induction h with
  | nil s => exact .nil s
  | cons h _ _ ih => exact executes_cons h ih

theorem Timely.cycles {e : Env} {s s' : Mach} {ops : List Opcode} (h : Timely e s ops s') : s'.cycles = s.cycles + duration ops := by
  induction h with
  | nil s => rfl
  | @cons s t s' op ops _ h _ ih =>
    have := duration_append [op] ops
    rw [List.singleton_append] at this
    omega

theorem Timely.split {e : Env} {ops2 : List Opcode} {s2 : Mach} : ∀ {ops1 : List Opcode} {s : Mach}, Timely e s (ops1 ++ ops2) s2 →
    ∃ u, Timely e s ops1 u ∧ Timely e u ops2 s2
  | [], s, h => ⟨s, .nil s, h⟩
  | _ :: _, _, .cons h1 h2 h3 => by
    obtain ⟨u, a, b⟩ := Timely.split h3
    exact ⟨u, .cons h1 h2 a, b⟩

theorem Timely.append {e : Env} {ops1 ops2 : List Opcode} {s u s' : Mach} (h : Timely e s ops1 u) (h' : Timely e u ops2 s') : Timely e s (ops1 ++ ops2) s' := by
  induction h with
  | nil s => exact h'
  | cons a b _ ih => exact .cons a b (ih h')

theorem reaches_trans {e : Env} {s t u : Mach} (h1 : s.Reaches e t) (h2 : t.Reaches e u) : s.Reaches e u := by
  obtain ⟨n, h1⟩ := h1
  obtain ⟨m, h2⟩ := h2
  exact ⟨n + m, by rw [run_add n h1]; exact h2⟩

theorem executes_reaches {e : Env} {s s' : Mach} {ops : List Opcode} (h : Executes e s ops s') : s.Reaches e s' := by
  induction h with
  | nil s => exact ⟨0, rfl⟩
  | tick _ h _ _ _ _ _ ih => exact reaches_trans h ih
  | ack _ h _ _ _ ih => exact reaches_trans h ih
  | nop _ h _ _ _ ih => exact reaches_trans h ih

theorem timely {e : Env} (hK : e.KeepsUp) (ops : List Opcode) : ∀ {s : Mach} {P : Nat}, AtOp e s P ops → OnTime e s P → NoKeys e s →
    ∃ P' s', Timely e s ops s' ∧ AtOp e s' P' [] := by
  induction ops with
  | nil => intro s P h _ _; exact ⟨P, s, .nil s, h⟩
  | cons op ops ih =>
    intro s P h hpc hk
    have fin : ∀ {t : Mach} {n k : Nat}, Hop e s (P + 2) n k t → AtOp e t (P + k) ops → OnTime e t (P + k) →
        Executes e s [op] t → t.cycles = s.cycles + duration [op] → ∃ P' s', Timely e s (op :: ops) s' ∧ AtOp e s' P' [] := by
      intro t n k a1 a2 ap a3 a4
      obtain ⟨P', s', b1, b2⟩ := ih a2 ap (nokeys_run _ hk a1.run)
      exact ⟨P', s', .cons a3 a4 b1, b2⟩
    cases op with
    | header m => exact absurd (h.here.body _ List.mem_cons_self) (by simp [BodyOp])
    | terminate => exact absurd (h.here.body _ List.mem_cons_self) (by simp [BodyOp])
    | nop =>
      obtain ⟨t, a1, a2, a3, a4, a5, a6, a7⟩ := op_nop h
      exact fin a1 a2 (paced_next h hpc a1 (by decide) (by have := (here_nop h.here).2.1; omega)) (.nop a3 ⟨_, a1.run⟩ a4 a5 (.nil _)) a6
    | tick x p c os =>
      obtain ⟨n, t, a0, a1, a2, a3, a4, a5, a6, a7⟩ := op_tick h
      exact fin a1 a2 (paced_next h hpc a1 (by omega) (by have := (here_tick h.here).2.1; omega)) (.tick a3 ⟨_, a1.run⟩ a4 a5 a6 a7 (.nil _)) a4
    | ack a =>
      obtain ⟨t, a1, a2, a3, a4, a5, a6, a7, a8, a9⟩ := op_ack h
      obtain ⟨u, b1, b2, b3, b4, b5⟩ := ready_go a2 a3 a4
        (paced_ack hK h hpc a1 (here_ack h.here).2.1 a3 a4) (nokeys_run _ hk a1.run)
      refine fin (a1.trans b1) b2 (paced_start b2 (by have := (here_ack h.here).2.1; omega))
        (.ack a5 ⟨_, (a1.trans b1).run⟩ (b3.mem.trans a6) (by rw [b3.sw, a7]) (.nil _)) ?_
      rw [b4, a8]
      rfl

theorem ticksOf_append : ∀ (a b : List Opcode) (x : Bool), ∃ y, ticksOf x (a ++ b) = ticksOf x a ++ ticksOf y b
  | [], _, x => ⟨x, rfl⟩
  | .tick _ _ _ _ :: a, b, x => by
    obtain ⟨y, h⟩ := ticksOf_append a b x
    exact ⟨y, congrArg (_ :: ·) h⟩
  | .ack z :: a, b, _ => ticksOf_append a b z
  | .nop :: a, b, x => ticksOf_append a b x
  | .header _ :: a, b, x => ticksOf_append a b x
  | .terminate :: a, b, x => ticksOf_append a b x

theorem ticksOf_take {a b : List Opcode} {i : Nat} (h : (ticksOf false a).length = i) : ticksOf false a = (ticksOf false (a ++ b)).take i := by
  obtain ⟨y, hy⟩ := ticksOf_append a b false
  rw [hy, List.take_append_of_le_length (by omega), ← h, List.take_length]

/-- The stream of a movie up to its `i`-th tick. -/
theorem movie_parts {M : Movie} {A : List Int} {F : List Frame} (hin : MovieInput M A F)
    {tape : Nat → Nat} {body : List Opcode} {bytes : List Nat} (h : M.stream tape A F = .ok (.header M.mode :: body ++ [.terminate], bytes))
    {i : Nat} (hi : i ≤ (ticksOf false body).length) :
    ∃ pre post, body = pre ++ post ∧ (ticksOf false pre).length = i ∧ duration pre = tickStart i ∧
      (acks pre).length = (i + 1) / 292 ∧ (i = (ticksOf false body).length → post = []) ∧
      (i < (ticksOf false body).length → ∃ t p c os r, post = .tick t p c os :: r) := by
  obtain ⟨l, calls, enc, steps, h1, h2, -, -, -, -, h7, h8, -⟩ := stream_exact hin tape
  have hall : ∀ op ∈ l, ∃ t p c os, op = .tick t p c os := by
    intro op hop
    obtain ⟨i, hi, rfl⟩ := List.getElem_of_mem hop
    have hs : i < steps.length := by omega
    obtain ⟨t, p, au, -, h, -⟩ := (h8 i _ _ (List.getElem?_eq_getElem hi) (List.getElem?_eq_getElem hs)).tick
    exact ⟨t, p, _, _, h⟩
  have hbody : body = weave M.mode 1 l := by
    have hw0 : weave M.mode 0 (.header M.mode :: l) = .header M.mode :: weave M.mode 1 l := by
      rw [weave_cons, if_neg (by decide)]
    have hops : Opcode.header M.mode :: body ++ [.terminate] = .header M.mode :: weave M.mode 1 l ++ [.terminate] := by
      rw [h1] at h
      simp only [Except.ok.injEq] at h
      rw [← hw0]
      exact (congrArg Prod.fst h).symm
    have := List.append_cancel_right hops
    exact (List.cons.inj this).2
  have hb1 : bankAt M.mode 1 = false := by simp [bankAt]
  have hcount : ∀ l' : List Opcode, (∀ op ∈ l', op ∈ l) → (ticksOf false (weave M.mode 1 l')).length = l'.length ∧
      (acks (weave M.mode 1 l')).length = (l'.length + 1) / 292 := by
    intro l' hl'
    constructor
    · have := weave_ticks M.mode l' [] 1 (fun op ho => h2 op (hl' op ho)) (fun _ => rfl)
      rw [List.append_nil, hb1] at this
      rw [this, ticksFrom_length _ _ _ fun op ho => hall op (hl' op ho)]
    · rw [weave_acks M.mode l' 1 (fun op ho => h2 op (hl' op ho)), List.length_map, List.length_range', Nat.add_comm 1]
      omega
  have hd : ∀ l' : List Opcode, (∀ op ∈ l', op ∈ l) → duration (weave M.mode 1 l') = tickStart l'.length := by
    intro l' hl'
    have := duration_weave M.mode l' (fun op ho => hall op (hl' op ho)) 1
    unfold tickStart
    rw [Nat.add_comm 1] at this
    omega
  have hn : (ticksOf false body).length = l.length := by rw [hbody, (hcount l fun _ h => h).1]
  rw [hn] at hi ⊢
  have ht : ∀ op ∈ l.take i, op ∈ l := fun op ho => List.mem_of_mem_take ho
  have hti : (l.take i).length = i := List.length_take_of_le hi
  have hsplit : body = weave M.mode 1 (l.take i) ++ weave M.mode (1 + i) (l.drop i) := by
    have := weave_split M.mode (l.take i) (l.drop i) 1
    rw [hti] at this
    rw [hbody, ← this, List.take_append_drop]
  refine ⟨_, _, hsplit, by rw [(hcount _ ht).1, hti], by rw [hd _ ht, hti], by rw [(hcount _ ht).2, hti], fun h => ?_, fun h => ?_⟩
  · rw [h, List.drop_length]
    rfl
  · obtain ⟨t, p, c, os, htick⟩ := hall l[i] (List.getElem_mem h)
    rw [List.drop_eq_getElem_cons h, weave_cons, htick]
    split <;> exact ⟨t, p, c, os, _, rfl⟩

/-- Where the `i`-th tick of a movie is, and when it begins. -/
theorem movie_tick {M : Movie} {A : List Int} {F : List Frame} (hin : MovieInput M A F)
    {tape : Nat → Nat} {body : List Opcode} {bytes : List Nat} (h : M.stream tape A F = .ok (.header M.mode :: body ++ [.terminate], bytes))
    {i : Nat} (hi : i < (ticksOf false body).length) :
    ∃ pre t p c os post, body = pre ++ .tick t p c os :: post ∧ (ticksOf false pre).length = i ∧ duration pre = tickStart i ∧
      (acks pre).length = (i + 1) / 292 := by
  obtain ⟨pre, post, a1, a2, a3, a4, -, a5⟩ := movie_parts hin h hi.le
  obtain ⟨t, p, c, os, r, rfl⟩ := a5 hi
  exact ⟨pre, t, p, c, os, r, a1, a2, a3, a4⟩

/-- When the movie ends. -/
theorem movie_total {M : Movie} {A : List Int} {F : List Frame} (hin : MovieInput M A F)
    {tape : Nat → Nat} {body : List Opcode} {bytes : List Nat} (h : M.stream tape A F = .ok (.header M.mode :: body ++ [.terminate], bytes)) :
    duration body = tickStart (ticksOf false body).length ∧ (acks body).length = ((ticksOf false body).length + 1) / 292 := by
  obtain ⟨pre, post, a1, a2, a3, a4, a5, -⟩ := movie_parts hin h (Nat.le_refl _)
  cases a5 rfl
  rw [List.append_nil] at a1
  subst a1
  exact ⟨a3, a4⟩

end IIVision.Player
