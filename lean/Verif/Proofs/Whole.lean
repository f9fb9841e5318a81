import Verif.Proofs.Boot

/-! The player from the connection to TERMINATE. -/

namespace IIVision.Player

open Spec

/-! ### The stream -/

theorem bytesOf_cons (op : Opcode) (ops : List Opcode) : bytesOf playerAddr (op :: ops) = op.emit playerAddr ++ bytesOf playerAddr ops := rfl

theorem bytesOf_snoc (ops : List Opcode) (op : Opcode) :
    (bytesOf playerAddr (ops ++ [op])).length = (bytesOf playerAddr ops).length + opLen op := by
  unfold bytesOf
  rw [List.flatMap_append, List.length_append]
  simp [opLen]

theorem lay_of {body : List Opcode}
    (hacks : ∀ pre a post, body = pre ++ .ack a :: post → (7 + (bytesOf playerAddr pre).length) % 2048 = 2044)
    (hothers : ∀ pre op post, body ++ [.terminate] = pre ++ op :: post → (∀ a, op ≠ .ack a) →
      (7 + (bytesOf playerAddr pre).length) % 2048 + (op.emit playerAddr).length ≤ 2044) :
    ∀ (ops pre : List Opcode), body = pre ++ ops → Lay (7 + (bytesOf playerAddr pre).length) ops := by
  intro ops
  induction ops with
  | nil =>
    intro pre h
    rw [List.append_nil] at h
    have := hothers pre .terminate [] (by rw [h]) (fun a => by simp)
    exact this
  | cons op ops ih =>
    intro pre h
    refine ⟨⟨?_, ?_⟩, ?_⟩
    · rintro a rfl
      exact hacks pre a ops h
    · intro ha
      exact hothers pre op (ops ++ [.terminate]) (by rw [h]; simp) ha
    · have := ih (pre ++ [op]) (by rw [h]; simp)
      rw [bytesOf_snoc, ← Nat.add_assoc] at this
      exact this

theorem here_of_playable {e : Env} {mode : VideoMode} {body : List Opcode} (h : Playable e.file mode body) :
    Here e 7 body ∧ e.byte 6 = BitVec.ofNat 8 mode.value ∧ 2048 ≤ e.file.length := by
  obtain ⟨pad, hb⟩ := h.bytes
  have h1 : e.file.drop 0 = ([0xff, 0xff, 0xff, 0xff, 0xff, 0xff, mode.value] ++ (bytesOf playerAddr (body ++ [.terminate]) ++ pad)).map (BitVec.ofNat 8) := by
    rw [List.drop_zero, hb]
    rfl
  obtain ⟨-, h1, -⟩ := drop_cons h1
  obtain ⟨-, h1, -⟩ := drop_cons h1
  obtain ⟨-, h1, -⟩ := drop_cons h1
  obtain ⟨-, h1, -⟩ := drop_cons h1
  obtain ⟨-, h1, -⟩ := drop_cons h1
  obtain ⟨-, h1, -⟩ := drop_cons h1
  obtain ⟨h2, h1, h3⟩ := drop_cons h1
  refine ⟨⟨⟨pad, h1⟩, ?_, h.ops, h.whole⟩, h2, ?_⟩
  · exact lay_of h.acks h.others body [] rfl
  · have := h.whole
    have : 0 < e.file.length := by omega
    omega

/-! ### Progress -/

theorem patched_screen {q : Nat} (h1 : 0x2000 ≤ q) (h2 : q < 0x4000) : ¬ Patched q := by
  intro h
  have := isPatch_range ((isPatch_iff q).mpr h)
  omega

theorem cleared_same {s t : Mach} (h : SameMemory t s) : (Cleared s.main → Cleared t.main) ∧ (Cleared s.aux → Cleared t.aux) := by
  constructor <;> intro hc q h1 h2
  · rw [(h q (by omega) (patched_screen h1 h2)).1]; exact hc q h1 h2
  · rw [(h q (by omega) (patched_screen h1 h2)).2]; exact hc q h1 h2

/-- Up to the first opcode. -/
theorem start_live {e : Env} (hD : e.Delivers) {s : Mach} {mode : VideoMode} {body : List Opcode} (hc : Connected e s)
    (hp : Playable e.file mode body) :
    (∃ n s', Path e s 0 n 9 s' ∧ AtOp e s' 7 body ∧ s'.sw = Switches.For mode s.sw ∧ Cleared s'.main ∧
      (mode = .DHGR → Cleared s'.aux)) ∨
    ∃ n s', Path e s 0 n 7 s' ∧ Paused e s' ∧ ¬ NoKeys e s := by
  obtain ⟨hh, hm, hl⟩ := here_of_playable hp
  obtain ⟨n1, t1, a1, a2, a3⟩ := waiting_live hD (by omega) 256 (waiting_of_connected hc) (by omega)
  obtain ⟨n2, t2, b1, b2, b3, b4, b5, b6⟩ := boot_ready a2 hm
  have p2 := a1.path.trans0 b1
  rcases ready_live hD b2 (by rw [b3]) hh with ⟨n3, t3, c1, c2, c3⟩ | ⟨n3, t3, c1, c2, c3⟩
  · refine .inl ⟨_, t3, p2.trans (by rw [Nat.zero_add]; exact c1.path), c2, ?_, (cleared_same c3.mem).1 b5, fun h => (cleared_same c3.mem).2 (b6 h)⟩
    rw [c3.sw, b4, a3.sw]
  · exact .inr ⟨_, t3, p2.trans (by rw [Nat.zero_add]; exact c1.path), c2, fun h => c3 (nokeys_run _ h p2.run)⟩

/-- The whole stream. -/
theorem whole_live {e : Env} (hD : e.Delivers) {s : Mach} {mode : VideoMode} {body : List Opcode} (hc : Connected e s)
    (hp : Playable e.file mode body) :
    (∃ s1 s2 n1 n2 k, Path e s 0 n1 9 s1 ∧ Hop e s1 9 n2 k s2 ∧ s1.sw = Switches.For mode s.sw ∧ Cleared s1.main ∧
      (mode = .DHGR → Cleared s1.aux) ∧ Executes e s1 body s2 ∧ AtOp e s2 (7 + k) []) ∨
    ∃ n k s', Path e s 0 n k s' ∧ Paused e s' ∧ ¬ NoKeys e s := by
  rcases start_live hD hc hp with ⟨n1, s1, a1, a2, a3, a4, a5⟩ | ⟨n, s', a1, a2, a3⟩
  · rcases play_ops hD body a2 with ⟨n2, k, s2, P', b1, b2, b3, b4⟩ | ⟨n2, k, s2, b1, b2, b3⟩
    · rw [b4] at b3
      exact .inl ⟨s1, s2, n1, n2, k, a1, b1, a3, a4, a5, b2, b3⟩
    · exact .inr ⟨_, _, s2, a1.trans (by rw [Nat.zero_add]; exact b1.path), b2, fun h => b3 (nokeys_run _ h a1.run)⟩
  · exact .inr ⟨_, _, s', a1, a2, a3⟩

/-! ### Safety -/

theorem WithinS.trans {e : Env} {s s' t : Mach} {r n k : Nat} (h : Path e s r n k s') (h' : WithinS e s' (r + k) t) :
    WithinS e s r t := by
  refine ⟨h.within.only.trans h'.only, ?_⟩
  obtain ⟨l, h1, h2⟩ := h'.log
  exact ⟨k + l, by omega, by rw [h2, h.log, bytes_add, List.append_assoc]⟩

/-- The player goes on until it exits. -/
def Safe (e : Env) (s : Mach) (r n : Nat) : Prop :=
  (∃ t, s.run e n = some t ∧ WithinS e s r t) ∨ ∃ m t, m ≤ n ∧ s.run e m = some t ∧ WithinS e s r t ∧ t.pc = 0xbaac

theorem safe_trans {e : Env} {s s' : Mach} {r m k n : Nat} (h : Path e s r m k s') (h' : ∀ j, j + m = n → Safe e s' (r + k) j) :
    Safe e s r n := by
  by_cases hn : n ≤ m
  · exact .inl (h.steps n hn)
  · rcases h' (n - m) (by omega) with ⟨t, a1, a2⟩ | ⟨j, t, a0, a1, a2, a3⟩
    · refine .inl ⟨t, ?_, WithinS.trans h a2⟩
      rw [← a1, ← run_add m h.run, show m + (n - m) = n by omega]
    · refine .inr ⟨m + j, t, by omega, ?_, WithinS.trans h a2, a3⟩
      rw [← a1, ← run_add m h.run]

theorem safe_phase {e : Env} {s : Mach} {r : Nat} (h : Phase e s r) (n : Nat) : Safe e s r n := by
  rcases phase_safe n h with ⟨t, a1, a2⟩ | ⟨m, t, a0, a1, a2, a3⟩
  · exact .inl ⟨t, a1, a2.only.startup, a2.log⟩
  · exact .inr ⟨m, t, a0, a1, ⟨a2.only.startup, a2.log⟩, a3⟩

theorem safe_waiting {e : Env} {mode : VideoMode} {body : List Opcode} (hp : Playable e.file mode body) (n : Nat) :
    ∀ {s : Mach}, Waiting e s → Safe e s 0 n := by
  obtain ⟨hh, hm, hl⟩ := here_of_playable hp
  induction n using Nat.strongRecOn with
  | _ n ih =>
    intro s h
    rcases waiting_hop h with ⟨s', a1, a2, -⟩ | ⟨s', a1, a2, -⟩
    · obtain ⟨n2, t2, b1, b2, b3, -⟩ := boot_ready a2 hm
      refine safe_trans (a1.path.trans0 b1) fun j _ => ?_
      rw [Nat.zero_add]
      exact safe_phase (.ready b2 (by rw [b3]) hh) j
    · exact safe_trans a1.path fun j hj => ih j (by omega) a2

theorem whole_safe {e : Env} {s : Mach} {mode : VideoMode} {body : List Opcode} (hc : Connected e s)
    (hp : Playable e.file mode body) (n : Nat) : Safe e s 0 n := safe_waiting hp n (waiting_of_connected hc)

end IIVision.Player
