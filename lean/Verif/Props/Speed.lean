import Verif.Props.Connect

/-! C53 for movies: when each sample is played. -/

namespace IIVision.Player

open Spec

theorem weave_split (mode : VideoMode) (a b : List Opcode) : ∀ m, weave mode m (a ++ b) = weave mode m a ++ weave mode (m + a.length) b := by
  induction a with
  | nil => intro m; rfl
  | cons op a ih =>
    intro m
    rw [List.cons_append, weave_cons, weave_cons, ih, List.length_cons, show m + 1 + a.length = m + (a.length + 1) by omega]
    split <;> rfl

theorem duration_append (a b : List Opcode) : duration (a ++ b) = duration a + duration b := by
  induction a with
  | nil => exact (Nat.zero_add _).symm
  | cons op a ih =>
    cases op with
    | tick t p c os => show 73 + duration (a ++ b) = 73 + duration a + _; omega
    | ack x => show 2 * 73 + duration (a ++ b) = 2 * 73 + duration a + _; omega
    | nop => show 19 + duration (a ++ b) = 19 + duration a + _; omega
    | header m => exact ih
    | terminate => exact ih

theorem clickTimes_append (a b : List Opcode) : ∀ c, clickTimes c (a ++ b) = clickTimes c a ++ clickTimes (c + duration a) b := by
  induction a with
  | nil => intro c; rfl
  | cons op a ih =>
    intro c
    cases op with
    | tick t p x os =>
      show _ ++ clickTimes (c + 73) (a ++ b) = _ ++ clickTimes (c + 73) a ++ clickTimes (c + (73 + duration a)) b
      rw [ih, ← Nat.add_assoc, List.append_assoc]
    | ack x =>
      show _ ++ clickTimes (c + 2 * 73) (a ++ b) = _ ++ clickTimes (c + 2 * 73) a ++ clickTimes (c + (2 * 73 + duration a)) b
      rw [ih, ← Nat.add_assoc, List.append_assoc]
    | nop =>
      show clickTimes (c + 19) (a ++ b) = clickTimes (c + 19) a ++ clickTimes (c + (19 + duration a)) b
      rw [ih, ← Nat.add_assoc]
    | header m => exact ih c
    | terminate => exact ih c

theorem clickTimes_length (a : List Opcode) : ∀ c, (∀ op ∈ a, BodyOp op) →
    (clickTimes c a).length = 2 * (ticksOf false a).length + 4 * (acks a).length := by
  suffices h : ∀ b c, (∀ op ∈ a, BodyOp op) → (clickTimes c a).length = 2 * (ticksOf b a).length + 4 * (acks a).length from h false
  induction a with
  | nil => intro b c _; rfl
  | cons op a ih =>
    intro b c h
    have ih := fun b c => ih b c fun op ho => h op (List.mem_cons_of_mem _ ho)
    have h0 := h op List.mem_cons_self
    cases op with
    | tick t p x os =>
      show (clickTimes (c + 73) a).length + 1 + 1 = 2 * ((ticksOf b a).length + 1) + 4 * (acks a).length
      have := ih b (c + 73)
      omega
    | ack x =>
      show (clickTimes (c + 2 * 73) a).length + 1 + 1 + 1 + 1 = 2 * (ticksOf x a).length + 4 * ((acks a).length + 1)
      have := ih x (c + 2 * 73)
      omega
    | nop => exact ih b (c + 19)
    | header m => exact absurd h0 (by simp [BodyOp])
    | terminate => exact absurd h0 (by simp [BodyOp])

theorem duration_weave (mode : VideoMode) (l : List Opcode) (hl : ∀ op ∈ l, ∃ t p c os, op = .tick t p c os) :
    ∀ m, duration (weave mode m l) + 2 * 73 * (m / 292) = 73 * l.length + 2 * 73 * ((m + l.length) / 292) := by
  induction l with
  | nil => intro m; show 0 + _ = 0 + 2 * 73 * ((m + 0) / 292); omega
  | cons op l ih =>
    intro m
    obtain ⟨t, p, c, os, rfl⟩ := hl op List.mem_cons_self
    have ih := ih (fun op ho => hl op (List.mem_cons_of_mem _ ho)) (m + 1)
    rw [weave_cons, List.length_cons, show m + (l.length + 1) = m + 1 + l.length by omega]
    split
    · show 73 + (2 * 73 + duration (weave mode (m + 1) l)) + _ = _
      omega
    · show 73 + duration (weave mode (m + 1) l) + _ = _
      omega

/-- C53: with a network that keeps up and no key pressed, a movie of n samples plays, from its
first opcode to TERMINATE, in exactly `tickStart n` cycles, and the `i`-th sample a is heard as a
pulse of 2 a + 34 cycles (one less for 22 and 40) that begins exactly `tickStart i + 4` cycles after
the first opcode started. -/
theorem C53_movie {M : Movie} {A : List Int} {F : List Frame} (hin : MovieInput M A F) (ha : M.addr = playerAddr)
    {tape : Nat → Nat} {ops : List Opcode} {bytes : List Nat} (h : M.stream tape A F = .ok (ops, bytes))
    {e : Env} (hfile : e.file = bytes.map (BitVec.ofNat 8)) (hK : e.KeepsUp) (hA : e.Answers) (hR : e.NeverRefuses)
    (hO : e.StaysOpen ∨ 8192 < e.file.length) {s : Mach} (hs : Started s) (hw : s.w.works = true) (hk : NoKeys e s) :
    ∃ body s1 s2, ops = .header M.mode :: body ++ [.terminate] ∧ s.Reaches e s1 ∧ Executes e s1 body s2 ∧ s1.Reaches e s2 ∧
      s2.pc = playerAddr .terminate ∧ s2.cycles = s1.cycles + tickStart (ticksOf false body).length ∧
      ∀ i, i < (ticksOf false body).length → ∃ a pre post, A[i]? = some a ∧ pre.length = 2 * i + 4 * ((i + 1) / 292) ∧
        s2.clicks = s1.clicks ++ (pre ++ [s1.cycles + tickStart i + 4, s1.cycles + tickStart i + 4 + pulseWidth (2 * a + 34).toNat] ++ post) := by
  obtain ⟨t, ⟨n, b1⟩, b2, -⟩ := C58_connects hs hw hA hR hO
  obtain ⟨body, c1, c2⟩ := C40_transcoder hin ha h
  obtain ⟨s1, s2, ⟨m, d1⟩, d2, d3, d4, d5, d6⟩ := C53_timing hK b2 (hfile ▸ c2) (nokeys_run n hk b1)
  obtain ⟨l, calls, enc, steps, h1, h2, -, -, -, -, h7, h8, -⟩ := stream_exact hin tape
  have hall : ∀ op ∈ l, ∃ t p c os, op = .tick t p c os := by
    intro op hop
    obtain ⟨i, hi, rfl⟩ := List.getElem_of_mem hop
    have hs : i < steps.length := by omega
    obtain ⟨t, p, au, -, h, -⟩ := (h8 i _ _ (List.getElem?_eq_getElem hi) (List.getElem?_eq_getElem hs)).tick
    exact ⟨t, p, _, _, h⟩
  have hbody : body = weave M.mode 1 l := by
    have hw0 : weave M.mode 0 (.header M.mode :: l) = .header M.mode :: weave M.mode 1 l := by
      rw [weave_cons, if_neg (by decide)]
    have hops : ops = .header M.mode :: weave M.mode 1 l ++ [.terminate] := by
      rw [h1] at h
      simp only [Except.ok.injEq] at h
      rw [← hw0]
      exact (congrArg Prod.fst h).symm
    rw [hops] at c1
    have := List.append_cancel_right c1
    exact (List.cons.inj this).2.symm
  have hb1 : bankAt M.mode 1 = false := by simp [bankAt]
  have hcount : ∀ l' : List Opcode, (∀ op ∈ l', op ∈ l) → (ticksOf false (weave M.mode 1 l')).length = l'.length ∧
      (acks (weave M.mode 1 l')).length = (l'.length + 1) / 292 := by
    intro l' hl'
    constructor
    · have := weave_ticks M.mode l' [] 1 (fun op ho => h2 op (hl' op ho)) (fun _ => rfl)
      rw [List.append_nil, hb1] at this
      rw [this, ticksFrom_length _ _ _ fun op ho => hall op (hl' op ho)]
    · rw [weave_acks M.mode l' 1 (fun op ho => h2 op (hl' op ho)), List.length_map, List.length_range', Nat.add_comm 1]
      omega
  have hlen : (ticksOf false body).length = l.length := by rw [hbody]; exact (hcount l fun _ h => h).1
  have hd : ∀ l' : List Opcode, (∀ op ∈ l', op ∈ l) → duration (weave M.mode 1 l') = tickStart l'.length := by
    intro l' hl'
    have := duration_weave M.mode l' (fun op ho => hall op (hl' op ho)) 1
    unfold tickStart
    rw [Nat.add_comm 1] at this
    omega
  refine ⟨body, s1, s2, c1, ⟨n + m, by rw [run_add n b1]; exact d1⟩, d2, d3, d4, ?_, ?_⟩
  · rw [d5, hlen, hbody, hd l fun _ h => h]
  · intro i hi
    rw [hlen] at hi
    obtain ⟨t, p, a, g1, g2⟩ := (h8 i _ _ (List.getElem?_eq_getElem hi) (List.getElem?_eq_getElem (by omega))).tick
    have ht : ∀ op ∈ l.take i, op ∈ l := fun op ho => List.mem_of_mem_take ho
    have hti : (l.take i).length = i := List.length_take_of_le (Nat.le_of_lt hi)
    have hsplit : body = weave M.mode 1 (l.take i) ++ weave M.mode (1 + i) (l[i] :: l.drop (i + 1)) := by
      have := weave_split M.mode (l.take i) (l[i] :: l.drop (i + 1)) 1
      rw [hti] at this
      rw [hbody, ← this, ← List.drop_eq_getElem_cons hi, List.take_append_drop]
    have hrest : ∃ rest, weave M.mode (1 + i) (l[i] :: l.drop (i + 1)) = l[i] :: rest := by
      rw [weave_cons]
      split <;> exact ⟨_, rfl⟩
    obtain ⟨rest, hrest⟩ := hrest
    have hbo : ∀ op ∈ weave M.mode 1 (l.take i), BodyOp op := fun op ho => c2.ops op (by rw [hsplit]; exact List.mem_append_left _ ho)
    refine ⟨a, clickTimes s1.cycles (weave M.mode 1 (l.take i)), clickTimes (s1.cycles + tickStart i + 73) rest, g1, ?_, ?_⟩
    · rw [clickTimes_length _ _ hbo, (hcount _ ht).1, (hcount _ ht).2, hti]
    · rw [d6, hsplit, clickTimes_append, hd _ ht, hti, hrest, g2.1, List.append_assoc _ [_, _] _]
      have : (2 * a + 34).toNat = 4 + 2 * t.val := by rw [← g2.2.1]; rfl
      rw [this]
      rfl

/-- C53: the sound does not drift: whatever the length of the movie, the `i`-th tick starts at
most a cycle late and 145 cycles early for a rate of 292 ticks in 294 * 73 cycles. -/
theorem C53_rate (i : Nat) : 73 * 294 * i ≤ 292 * (tickStart i + 145) ∧ 292 * tickStart i ≤ 73 * 294 * i + 292 := by
  unfold tickStart
  omega

/-! ### The hypotheses can be met -/

/-- A movie of six samples over a network that delivers a byte before every other instruction: it
plays in `tickStart` of its length. -/
example : ∃ ops bytes, ({ sampleMovie with addr := playerAddr } : Movie).stream (fun _ => 0) [0, -15, 16, 3, 3, 3]
      (List.replicate 10 ⟨stripesFrame.main, stripesFrame.aux⟩) = .ok (ops, bytes) ∧
    ∃ (body : List Opcode) (s1 s2 : Mach), ops = .header .DHGR :: body ++ [.terminate] ∧
      (sampleMach 0x800 (coldChip true)).Reaches
        (linkEnv (bytes.map (BitVec.ofNat 8)) (fun t => if t % 2 = 0 then 1 else 0) fun t => if t % 10 = 0 then some stEstablished else none) s1 ∧
      s2.pc = playerAddr .terminate ∧ s2.cycles = s1.cycles + tickStart (ticksOf false body).length := by
  have hin : MovieInput { sampleMovie with addr := playerAddr } [0, -15, 16, 3, 3, 3]
      (List.replicate 10 ⟨stripesFrame.main, stripesFrame.aux⟩) := by
    refine ⟨by decide, by norm_num [sampleMovie], rfl, by decide, ?_⟩
    intro f hf
    rw [List.eq_of_mem_replicate hf]
    exact ⟨rfl, fun _ => ⟨_, rfl, rfl, fun _ _ => (by decide : (0x2a#8).toNat < 0x80)⟩,
      fun _ _ _ => (by decide : (0x2a#8).toNat < 0x80)⟩
  obtain ⟨body, bytes, -, -, -, h1, -⟩ := movie_facts _ _ _ hin (fun _ => 0)
  refine ⟨_, bytes, h1, ?_⟩
  obtain ⟨body, s1, s2, a1, a2, -, -, a3, a4, -⟩ := C53_movie hin rfl h1
    (e := linkEnv (bytes.map (BitVec.ofNat 8)) (fun t => if t % 2 = 0 then 1 else 0) fun t => if t % 10 = 0 then some stEstablished else none)
    rfl
    (every_other _ fun t => by
      constructor
      · show (if 2 * t % 2 = 0 then 1 else 0) = 1
        rw [if_pos (by omega)]
      · show (if (2 * t + 1) % 2 = 0 then 1 else 0) = 0
        rw [if_neg (by omega)])
    (fun t => ⟨10 * t, by omega, .inl (if_pos (by omega))⟩)
    (fun t => by show (if t % 10 = 0 then some stEstablished else none) ≠ _; split <;> decide)
    (.inl fun t => by show (if t % 10 = 0 then some stEstablished else none) ≠ _; split <;> decide)
    (sample_started true) rfl ⟨(by decide : (0#8).getLsbD 7 = false), fun _ _ => rfl⟩
  exact ⟨body, s1, s2, a1, a2, a3, a4⟩

end IIVision.Player
