import Verif.Props.Shown
import Verif.Proofs.Machinery

/-! C69: neither the layout of the priority queues nor the cache in front of the price of a
store can be observed: the encoder with the array heaps of `heapq` and the cache of
`functools.lru_cache` emits what the encoder of Model/Video.lean emits. -/

namespace IIVision

open Spec

/-- C69: for every history of calls (legal or not), every cache size and whatever the
identities of the bitmap objects (the numbers in `calls`), the encoder with heap arrays and
cache has the same steps - the same operations, screens, priorities - or the same exception
as the one with a bag of tuples and no cache. -/
theorem C69_encoder (size : Nat) (mode : VideoMode) (t : EditTable) (tape : Nat → Nat)
    (calls : List (Nat × Call)) :
    (Real.runNew size mode t tape calls).map (·.2)
      = (runNew mode t tape (calls.map (·.2))).map (·.2) := by
  have h := Real.runNew_sim size mode t tape calls
  cases h1 : Real.runNew size mode t tape calls <;> cases h2 : runNew mode t tape (calls.map (·.2)) <;>
    rw [h1, h2] at h
  · exact congrArg Except.error h
  · exact h.elim
  · exact h.elim
  · exact congrArg Except.ok h.2

/-- C69: the cache never holds more prices than its size (for `10 ** 6`, it keeps at most a
million bitmaps alive), never two for the same arguments, and every price in it is the one
that computing it again would give. -/
theorem C69_cache (size : Nat) (mode : VideoMode) (t : EditTable) (tape : Nat → Nat)
    (calls : List (Nat × Call)) {e : Real.Enc} {steps : List Step}
    (h : Real.runNew size mode t tape calls = .ok (e, steps)) :
    e.cache.entries.length ≤ size ∧ (e.cache.entries.map (·.1)).Nodup ∧
    ∀ id k old content p, ((id, k, old, content), p) ∈ e.cache.entries →
      mode.cls.bytePairDifference t k old content = .ok p := by
  have hs := Real.runNew_sim size mode t tape calls
  rw [h] at hs
  cases h2 : runNew mode t tape (calls.map (·.2)) with
  | error x => rw [h2] at hs; exact hs.elim
  | ok y =>
    rw [h2] at hs
    have hc := hs.1.cache
    exact ⟨hc.small, hc.distinct, fun id k old content p hm => hc.right ((id, k, old, content), p) hm⟩

/-- C69: for movies: the ticks of the produced stream carry, one by one, the operations of
the encoder with heap arrays and a cache of a million prices, driven as `movieCalls` says
(see C27), whatever the identities of the frames' bitmaps. -/
theorem C69_movie (M : Movie) (A : List Int) (F : List Frame) (hin : MovieInput M A F)
    (tape : Nat → Nat) (ops : List Opcode) (bytes : List Nat)
    (h : M.stream tape A F = .ok (ops, bytes)) (calls : List (Nat × Call))
    (hc : calls.map (·.2)
      = movieCalls M F (tickBank (ticksOf false ops)) (ticksOf false ops).length) :
    ∃ e steps, Real.runNew pairCacheSize M.mode M.table tape calls = .ok (e, steps) ∧
      (ticksOf false ops).map (fun x => (x.bank, x.page, x.content, x.offsets))
        = steps.map (fun s => (s.isAux, s.op.page, s.op.content, s.op.offsets)) := by
  obtain ⟨e, steps, -, h2, h3, h4⟩ := C27_exact_history M A F hin tape ops bytes h
  rw [← hc] at h2
  have hq := C69_encoder pairCacheSize M.mode M.table tape calls
  rw [h2] at hq
  cases h1 : Real.runNew pairCacheSize M.mode M.table tape calls with
  | error x => rw [h1] at hq; cases hq
  | ok y =>
    rw [h1] at hq
    have hy : y.2 = steps := Except.ok.inj hq
    refine ⟨y.1, y.2, rfl, ?_⟩
    rw [hy]
    refine List.ext_getElem (by simp [h3]) fun i hi hj => ?_
    rw [List.length_map] at hi hj
    obtain ⟨a1, a2, a3, a4⟩ := h4 i _ _ (List.getElem?_eq_getElem hi) (List.getElem?_eq_getElem hj)
    simp only [List.getElem_map, a1, a2, a3, a4]

/-! ### The hypotheses can be met -/

/-- The array algorithms on six numbers. -/
example : Heapq.heapify (fun a b : Nat => decide (a < b)) [5, 3, 8, 1, 9, 2] = [1, 3, 2, 5, 9, 8] ∧
    Heapq.heappop (fun a b : Nat => decide (a < b)) [1, 3, 2, 5, 9, 8] = some (1, [2, 3, 8, 5, 9]) ∧
    Heapq.heappush (fun a b : Nat => decide (a < b)) [2, 3, 8, 5, 9] 0 = [0, 3, 2, 5, 9, 8] := by
  decide

/-- A cache of size 2 after calls with the arguments 1, 2, 1, 3: the last call displaced 2. -/
example :
    (do let (_, c) ← (Lru.empty 2 : Lru Nat Nat).call 1 (.ok 10)
        let (_, c) ← c.call 2 (.ok 20)
        let (v, c) ← c.call 1 (.error .typeError)
        let (_, c) ← c.call 3 (.ok 30)
        return (v, c.entries) : Except PyErr (Nat × List (Nat × Nat))) = .ok (10, [(3, 30), (1, 10)]) := by
  rfl

/-- The striped picture for both banks, as objects 7 and 8, ten
operations each; the encoder with heaps and cache runs through. -/
example : ∃ e steps, Real.runNew pairCacheSize .DHGR (flatTable 13) (fun i => i * i)
    ((7, .start stripesFrame false) :: List.replicate 10 (0, .pull) ++
      (8, .start stripesFrame true) :: List.replicate 10 (0, .pull)) = .ok (e, steps) ∧
    steps.length = 20 ∧ e.cache.entries.length ≤ 1000000 := by
  have hL : Legal .DHGR (.start stripesFrame false :: List.replicate 10 .pull ++
      .start stripesFrame true :: List.replicate 10 .pull) := by
    refine ⟨fun c hc => ?_, fun c hc => by cases hc; rfl⟩
    simp only [List.cons_append, List.mem_cons, List.mem_append, List.mem_replicate] at hc
    rcases hc with rfl | ⟨-, rfl⟩ | rfl | ⟨-, rfl⟩
    · exact stripesFrame_legal _
    · trivial
    · exact stripesFrame_legal _
    · trivial
  obtain ⟨-, e, tr, -, h2, -⟩ := runNew_ok (t := flatTable 13) hL (fun i => i * i)
  have hq := C69_encoder pairCacheSize .DHGR (flatTable 13) (fun i => i * i)
    ((7, .start stripesFrame false) :: List.replicate 10 (0, .pull) ++
      (8, .start stripesFrame true) :: List.replicate 10 (0, .pull))
  rw [List.map_append, List.map_cons, List.map_cons, List.map_replicate, h2] at hq
  cases h1 : Real.runNew pairCacheSize .DHGR (flatTable 13) (fun i => i * i)
    ((7, .start stripesFrame false) :: List.replicate 10 (0, .pull) ++
      (8, .start stripesFrame true) :: List.replicate 10 (0, .pull)) with
  | error x => rw [h1] at hq; cases hq
  | ok y =>
    rw [h1] at hq
    have hy : y.2 = tr := Except.ok.inj hq
    refine ⟨y.1, y.2, rfl, ?_, (C69_cache _ _ _ _ _ h1).1⟩
    rw [hy]
    unfold runNew at h2
    cases hi : Enc.init .DHGR (fun i => i * i) with
    | error x => rw [hi] at h2; cases h2
    | ok e0 =>
      rw [hi] at h2
      simp only [bind, Except.bind] at h2
      generalize flatTable 13 = t at h2
      exact (run_length _ h2).trans (by
        simp [List.countP_cons, isPull])

end IIVision
