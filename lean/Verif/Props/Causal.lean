import Verif.Props.Shown
import Verif.Props.Speed

/-! C68: the stream up to a moment depends only on the input up to that moment. -/

namespace IIVision

open Spec

theorem startShown_congr {M : Movie} {F F' : List Frame} {k n : Nat} (hF : F.take n = F'.take n) (hk : k ≤ n) (h1 : 1 ≤ k) (b : Bool) :
    startShown M F k b = startShown M F' k b := by
  have hs : shown M.everyN k < n := by
    unfold shown
    have := Nat.div_mul_le_self (k - 1) M.everyN.natAbs
    omega
  have : F[shown M.everyN k]? = F'[shown M.everyN k]? := by
    have := congrArg (·[shown M.everyN k]?) hF
    simpa only [List.getElem?_take, if_pos hs] using this
  unfold startShown
  rw [this]

theorem fetched_mono (thr : Nat → Nat) (a b : Nat) : fetched thr a ≤ fetched thr (a + b) := by
  induction b with
  | zero => exact Nat.le_refl _
  | succ b ih =>
    refine Nat.le_trans ih ?_
    rw [← Nat.add_assoc, fetched]
    split <;> omega

theorem tickCalls_causal {M : Movie} {F F' : List Frame} {n i : Nat} {bank : Nat → Bool}
    (hF : F.take (fetched M.thr n) = F'.take (fetched M.thr n)) (hi : i < n) (h1 : 1 ≤ fetched M.thr (i + 1)) :
    tickCalls M F bank i = tickCalls M F' bank i := by
  have hk : fetched M.thr (i + 1) ≤ fetched M.thr n := by
    have := fetched_mono M.thr (i + 1) (n - (i + 1))
    rwa [show i + 1 + (n - (i + 1)) = n by omega] at this
  unfold tickCalls
  rw [startShown_congr hF hk h1]

theorem movieCalls_causal {M : Movie} {F F' : List Frame} {n : Nat} {bank : Nat → Bool}
    (hF : F.take (fetched M.thr n) = F'.take (fetched M.thr n)) (h1 : ∀ i < n, 1 ≤ fetched M.thr (i + 1)) :
    movieCalls M F bank n = movieCalls M F' bank n := by
  unfold movieCalls
  refine congrArg List.flatten (List.map_congr_left fun i hi => ?_)
  rw [List.mem_range] at hi
  exact tickCalls_causal hF hi (h1 i hi)

/-- What the stream of a movie is made of. -/
theorem stream_parts {M : Movie} {A : List Int} {F : List Frame} (hin : MovieInput M A F) {tape : Nat → Nat} {ops : List Opcode} {bytes : List Nat}
    (h : M.stream tape A F = .ok (ops, bytes)) :
    ∃ l e steps, ops = weave M.mode 0 (.header M.mode :: l) ++ [.terminate] ∧ bytesOf M.addr ops <+: bytes ∧
      (∀ op ∈ l, FrameOp op) ∧ (∀ op ∈ l, ∃ t p c os, op = .tick t p c os) ∧ (ticksOf false ops).length = l.length ∧
      runNew M.mode M.table tape (movieCalls M F (fun i => bankAt M.mode (i + 1)) l.length) = .ok (e, steps) ∧
      steps.length = l.length ∧ ∀ i op s, l[i]? = some op → steps[i]? = some s → TickRel M A F i op s := by
  obtain ⟨l, calls, e, steps, h1, h2, -, -, -, h6, h7, h8, h9⟩ := stream_exact hin tape
  subst h9
  rw [h1] at h
  have hops := congrArg Prod.fst (Except.ok.inj h)
  have hbytes := congrArg Prod.snd (Except.ok.inj h)
  subst hops
  have hall : ∀ op ∈ l, ∃ t p c os, op = .tick t p c os := by
    intro op hop
    obtain ⟨i, hi, rfl⟩ := List.getElem_of_mem hop
    have hs : i < steps.length := by omega
    obtain ⟨t, p, au, -, h, -⟩ := (h8 i _ _ (List.getElem?_eq_getElem hi) (List.getElem?_eq_getElem hs)).tick
    exact ⟨t, p, _, _, h⟩
  refine ⟨l, e, steps, rfl, ⟨_, hbytes⟩, h2, hall, ?_, h6, h7, h8⟩
  have := weave_ticks M.mode (.header M.mode :: l) [.terminate] 0 (by
    intro op ho
    rcases List.mem_cons.mp ho with rfl | ho
    · trivial
    · exact h2 op ho) (fun _ => rfl)
  rw [show bankAt M.mode 0 = false from by simp [bankAt]] at this
  show (ticksOf false (weave M.mode 0 (.header M.mode :: l) ++ [.terminate])).length = _
  rw [this]
  exact ticksFrom_length M.mode l 1 hall

/-- C68: the stream of a movie up to its n-th tick depends only on the first n samples and the
frames fetched by then: whatever comes later, and whatever the size limit, as long as it is
reached, these opcodes, and so these bytes, are the same. -/
theorem C68_causal {M : Movie} {A A' : List Int} {F F' : List Frame} {L : Rat} (hin : MovieInput M A F)
    (hin' : MovieInput { M with limit := L } A' F') {tape : Nat → Nat} {ops ops' : List Opcode} {bytes bytes' : List Nat}
    (h : M.stream tape A F = .ok (ops, bytes)) (h' : ({ M with limit := L } : Movie).stream tape A' F' = .ok (ops', bytes'))
    {n : Nat} (hn : n ≤ (ticksOf false ops).length) (hn' : n ≤ (ticksOf false ops').length)
    (hA : A.take n = A'.take n) (hF : F.take (fetched M.thr n) = F'.take (fetched M.thr n)) :
    ∃ pre post post', ops = pre ++ post ∧ ops' = pre ++ post' ∧ (ticksOf false pre).length = n ∧
      bytesOf M.addr pre <+: bytes ∧ bytesOf M.addr pre <+: bytes' := by
  obtain ⟨l, e, steps, a1, a2, a3, a4, a5, a6, a7, a8⟩ := stream_parts hin h
  obtain ⟨l', e', steps', b1, b2, b3, b4, b5, b6, b7, b8⟩ := stream_parts hin' h'
  have hl : n ≤ l.length := by omega
  have hl' : n ≤ l'.length := by omega
  obtain ⟨e1, c1⟩ := movie_prefix a6 hl
  obtain ⟨e2, c2⟩ := movie_prefix b6 hl'
  have hm : movieCalls M F (fun i => bankAt M.mode (i + 1)) n = movieCalls M F' (fun i => bankAt M.mode (i + 1)) n := by
    refine movieCalls_causal hF fun i hi => ?_
    exact (a8 i _ _ (List.getElem?_eq_getElem (show i < l.length by omega)) (List.getElem?_eq_getElem (show i < steps.length by omega))).started
  have hst : steps.take n = steps'.take n := by
    rw [hm] at c1
    have c2 : runNew M.mode M.table tape (movieCalls M F' (fun i => bankAt M.mode (i + 1)) n) = .ok (e2, steps'.take n) := c2
    rw [c1] at c2
    exact congrArg Prod.snd (Except.ok.inj c2)
  have hlt : l.take n = l'.take n := by
    apply List.ext_getElem?
    intro i
    by_cases hi : i < n
    · rw [List.getElem?_take, List.getElem?_take, if_pos hi, if_pos hi]
      have hs : steps[i]? = steps'[i]? := by
        have := congrArg (·[i]?) hst
        simpa only [List.getElem?_take, if_pos hi] using this
      have hA' : A[i]? = A'[i]? := by
        have := congrArg (·[i]?) hA
        simpa only [List.getElem?_take, if_pos hi] using this
      have x1 : i < l.length := by omega
      have x2 : i < steps.length := by omega
      have x3 : i < l'.length := by omega
      obtain ⟨t, p, au, g1, g2, g3, g4, -⟩ := (a8 i _ _ (List.getElem?_eq_getElem x1) (List.getElem?_eq_getElem x2)).tick
      obtain ⟨t', p', au', k1, k2, k3, k4, -⟩ := (b8 i _ _ (List.getElem?_eq_getElem x3) (by rw [← hs]; exact List.getElem?_eq_getElem x2)).tick
      rw [hA', k1] at g1
      cases g1
      rw [List.getElem?_eq_getElem x1, List.getElem?_eq_getElem x3, g2, k2]
      have ht : t = t' := Fin.ext (by omega)
      have hp : p = p' := Fin.ext (by omega)
      rw [ht, hp]
    · rw [List.getElem?_take, List.getElem?_take, if_neg hi, if_neg hi]
  have e1 : ops = weave M.mode 0 (.header M.mode :: l.take n) ++ (weave M.mode (n + 1) (l.drop n) ++ [.terminate]) := by
    have := Player.weave_split M.mode (.header M.mode :: l.take n) (l.drop n) 0
    rw [List.cons_append, List.take_append_drop, List.length_cons, List.length_take_of_le hl, Nat.zero_add] at this
    rw [a1, this, List.append_assoc]
  have e2 : ops' = weave M.mode 0 (.header M.mode :: l.take n) ++ (weave M.mode (n + 1) (l'.drop n) ++ [.terminate]) := by
    have := Player.weave_split M.mode (.header M.mode :: l'.take n) (l'.drop n) 0
    rw [List.cons_append, List.take_append_drop, List.length_cons, List.length_take_of_le hl', Nat.zero_add] at this
    rw [b1, hlt]
    show weave M.mode 0 (.header M.mode :: l') ++ _ = _
    rw [this, List.append_assoc]
  have bapp : ∀ x y : List Opcode, bytesOf M.addr (x ++ y) = bytesOf M.addr x ++ bytesOf M.addr y := fun x y => by
    unfold bytesOf; exact List.flatMap_append
  refine ⟨_, _, _, e1, e2, ?_, ?_, ?_⟩
  · have hft : ∀ op ∈ l.take n, op ∈ l := fun op ho => List.mem_of_mem_take ho
    have := weave_ticks M.mode (.header M.mode :: l.take n) [] 0 (by
      intro op ho
      rcases List.mem_cons.mp ho with rfl | ho
      · trivial
      · exact a3 op (hft op ho)) (fun _ => rfl)
    rw [show bankAt M.mode 0 = false from by simp [bankAt], List.append_nil] at this
    rw [this]
    refine (ticksFrom_length M.mode _ 1 fun op ho => a4 op (hft op ho)).trans (List.length_take_of_le hl)
  · refine List.IsPrefix.trans ?_ a2
    rw [e1, bapp]
    exact List.prefix_append _ _
  · refine List.IsPrefix.trans ?_ (show bytesOf M.addr ops' <+: bytes' from b2)
    rw [e2, bapp]
    exact List.prefix_append _ _

/-! ### The hypotheses can be met -/

theorem sample_input (n : Nat) (A : List Int) (hA : ∀ a ∈ A, -15 ≤ a ∧ a ≤ 16) :
    MovieInput { sampleMovie with limit := 0 } A (List.replicate n ⟨stripesFrame.main, stripesFrame.aux⟩) := by
  refine ⟨by decide, le_refl _, rfl, hA, ?_⟩
  intro f hf
  rw [List.eq_of_mem_replicate hf]
  exact ⟨rfl, fun _ => ⟨_, rfl, rfl, fun _ _ => (by decide : (0x2a#8).toNat < 0x80)⟩,
    fun _ _ _ => (by decide : (0x2a#8).toNat < 0x80)⟩

theorem sample_ticks (n : Nat) (A : List Int) (hA : ∀ a ∈ A, -15 ≤ a ∧ a ≤ 16) (hn : A.length ≤ n) {ops : List Opcode} {bytes : List Nat}
    (h : ({ sampleMovie with limit := 0 } : Movie).stream (fun _ => 0) A (List.replicate n ⟨stripesFrame.main, stripesFrame.aux⟩) = .ok (ops, bytes)) :
    (ticksOf false ops).length = A.length := by
  rcases (C28_audio _ A _ (sample_input n A hA) ⟨rfl, fun k => by show 490 * k + 1 ≤ 490 * (k + 1); omega⟩ _ ops bytes h).2 with h | ⟨h1, h2⟩ | ⟨h, -⟩
  · exact h
  · rw [List.length_replicate] at h2
    unfold due at h2
    omega
  · exact absurd rfl h

/-- Two films that begin alike: the same first opcodes. -/
example : ∃ ops bytes ops' bytes' pre post post',
    ({ sampleMovie with limit := 0 } : Movie).stream (fun _ => 0) [0, -15, 16, 3, 3, 3] (List.replicate 10 ⟨stripesFrame.main, stripesFrame.aux⟩) = .ok (ops, bytes) ∧
    ({ sampleMovie with limit := 0 } : Movie).stream (fun _ => 0) [0, -15, 16, 7] (List.replicate 5 ⟨stripesFrame.main, stripesFrame.aux⟩) = .ok (ops', bytes') ∧
    ops = pre ++ post ∧ ops' = pre ++ post' ∧ (ticksOf false pre).length = 3 := by
  obtain ⟨body, bytes, -, -, -, h1, -⟩ := movie_facts _ _ _ (sample_input 10 [0, -15, 16, 3, 3, 3] (by decide)) (fun _ => 0)
  obtain ⟨body', bytes', -, -, -, h2, -⟩ := movie_facts _ _ _ (sample_input 5 [0, -15, 16, 7] (by decide)) (fun _ => 0)
  have t1 := sample_ticks 10 _ (by decide) (by decide) h1
  have t2 := sample_ticks 5 _ (by decide) (by decide) h2
  obtain ⟨pre, post, post', a1, a2, a3, -⟩ := C68_causal (sample_input 10 [0, -15, 16, 3, 3, 3] (by decide)) (L := 0)
    (sample_input 5 [0, -15, 16, 7] (by decide)) h1 h2 (n := 3) (by rw [t1]; decide) (by rw [t2]; decide) rfl rfl
  exact ⟨_, _, _, _, pre, post, post', h1, h2, a1, a2, a3⟩

end IIVision
