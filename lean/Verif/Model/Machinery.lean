import Verif.Model.Heapq
import Verif.Spec.Encoder

/-! The frame encoder with the data structures the interpreter uses: heap arrays managed by
the algorithms of `heapq` and the least-recently-used cache in front of
`byte_pair_difference`.  Everything else is shared with Model/Video.lean. -/

namespace IIVision

/-- The cache of `functools.lru_cache(maxsize)` (screen.py:383): arguments and results, the
most recently used first. -/
structure Lru (κ β : Type) where
  maxsize : Nat
  entries : List (κ × β)

/-- A new cache. -/
def Lru.empty {κ β : Type} (maxsize : Nat) : Lru κ β := ⟨maxsize, []⟩

/-- A call of the decorated function (Lib/functools.py `_lru_cache_wrapper`, the case of a
bounded cache): on a hit the entry becomes the most recent one; on a miss the function is
called, an exception passes through and leaves the cache unchanged, and a result is
entered, displacing the least recently used entry if the cache is full. -/
def Lru.call {κ β : Type} [DecidableEq κ] (c : Lru κ β) (key : κ) (f : Except PyErr β) :
    Except PyErr (β × Lru κ β) :=
  match c.entries.find? (fun e => decide (e.1 = key)) with
  | some e => .ok (e.2, { c with entries := e :: c.entries.filter fun e => decide (e.1 ≠ key) })
  | none => do
    let v ← f
    return (v, { c with entries := ((key, v) :: c.entries).take c.maxsize })

/-- Arguments of `byte_pair_difference(self, byte_offset, old_packed, content)`
(screen.py:384-389): bitmap objects are hashed and compared by identity. -/
abbrev PairKey := Nat × Nat × U64 × U8

abbrev PairCache := Lru PairKey (BitVec 16)

/-- screen.py:383 `@functools.lru_cache(10 ** 6)`. -/
def pairCacheSize : Nat := 10 ^ 6

namespace Real

/-- video.py:275-297 `_compute_error` with the heap array. -/
def computeError (C : Cls) (t : EditTable) (page : Fin 32) (content : U8) (target : Bitmap)
    (dw : Fin 256 → Int) (isAux : Bool) (r : Rng) : Except PyErr (List Cand × Rng) := do
  let delta ← C.computeDeltaPage t target.packed page content dw isAux
  let (cands, r) := Rng.mapDraw (fun o n => (⟨delta o, n, o⟩ : Cand))
    ((List.finRange 256).filter fun o => decide (delta o < 0)) r
  let deltas := Heapq.heapify Cand.lt cands
  return (Heapq.drain Cand.lt deltas.length deltas, r)

/-- State of the loop at video.py:146-182. -/
structure Inner where
  v : Video
  heap : List Entry
  r : Rng
  offsets : List (Fin 256)
  cache : PairCache

/-- video.py:146-182; `id` is the identity of the object `target_pixelmap`. -/
def innerLoop (t : EditTable) (id : Nat) (target : Bitmap) (isAux : Bool) (page : Fin 32)
    (content : U8) (offset : Fin 256) : List Cand → Inner → Except PyErr Inner
  | [], s => .ok s
  | c :: cs, s => do
    pyAssert (decide (c.delta < 0))
    pyAssert (decide (c.offset ≠ offset))
    pyAssert (!screenHoles page c.offset)
    if s.v.priority isAux page c.offset = 0 then
      innerLoop t id target isAux page content offset cs s
    else
      let C := s.v.mode.cls
      let k ← C.byteOffset c.offset isAux
      let oldPacked := target.packed page ⟨c.offset.val / 2, by omega⟩
      let (p, cache) ← s.cache.call (id, k, oldPacked, content)
        (C.bytePairDifference t k oldPacked content)
      let pm ← s.v.pixelmap.apply C page c.offset isAux content
      let v := s.v.setPriority isAux
        (Grid.set (s.v.priority isAux) page c.offset (p.toNat : Int))
      let v := { v with pixelmap := pm }
      let (heap, r) :=
        if p ≠ 0 then
          let (n, r) := s.r.draw
          (Heapq.heappush Entry.lt s.heap (⟨((-p).toNat : Int), n, page, c.offset⟩ : Entry), r)
        else (s.heap, s.r)
      let offsets := s.offsets ++ [c.offset]
      if offsets.length = 3 then return ⟨v, heap, r, offsets, cache⟩
      else innerLoop t id target isAux page content offset cs ⟨v, heap, r, offsets, cache⟩

/-- A suspended `encode_frame` generator with its heap array. -/
inductive Gen where
  | notStarted (id : Nat) (target : Bitmap) (isAux : Bool)
  | running (id : Nat) (target : Bitmap) (isAux : Bool) (dw : Grid Int) (heap : List Entry)
  | padding (id : Nat) (target : Bitmap) (isAux : Bool)

/-- video.py:133-187. -/
def emitCell (t : EditTable) (v : Video) (r : Rng) (cache : PairCache) (id : Nat)
    (target : Bitmap) (isAux : Bool) (dw : Grid Int) (heap : List Entry) (page : Fin 32)
    (offset : Fin 256) : Except PyErr (VideoOp × Video × Rng × PairCache × Gen) := do
  let mem ← targetMemory v.mode target isAux
  let content := mem.pageOffset page offset
  pyAssert (decide (v.mode = .DHGR → content.toNat < 0x80))
  let v := v.setPriority isAux (Grid.set (v.priority isAux) page offset 0)
  let dw := Grid.set dw page offset 0
  let pm ← v.pixelmap.apply v.mode.cls page offset isAux content
  let v := { v with pixelmap := pm }
  let (cands, r) ← computeError v.mode.cls t page content target (dw page) isAux r
  let s ← innerLoop t id target isAux page content offset cands ⟨v, heap, r, [offset], cache⟩
  return (⟨page.val + 32, content, padOffsets offset s.offsets⟩, s.v, s.r, s.cache,
    .running id target isAux dw s.heap)

/-- video.py:189, 248-251. -/
def finishFrame (v : Video) (r : Rng) (cache : PairCache) (id : Nat) (target : Bitmap)
    (isAux : Bool) : Except PyErr (VideoOp × Video × Rng × PairCache × Gen) := do
  let v := { v with outOfWork := fun b => if b = isAux then true else v.outOfWork b }
  let op ← padOp v target isAux
  return (op, v, r, cache, .padding id target isAux)

/-- video.py:121-251, popping from the heap array. -/
def outerLoop (t : EditTable) (id : Nat) (target : Bitmap) (isAux : Bool) (dw : Grid Int) :
    Nat → Video → Rng → PairCache → List Entry →
    Except PyErr (VideoOp × Video × Rng × PairCache × Gen)
  | 0, v, r, cache, _ => finishFrame v r cache id target isAux
  | n + 1, v, r, cache, heap =>
    match Heapq.heappop Entry.lt heap with
    | none => finishFrame v r cache id target isAux
    | some (e, heap) => do
      pyAssert (!screenHoles e.page e.offset)
      if v.priority isAux e.page e.offset = 0 then
        outerLoop t id target isAux dw n v r cache heap
      else
        emitCell t v r cache id target isAux dw heap e.page e.offset

/-- `next(op_seq)`; video.py:270 `heapq.heapify(priorities)` is applied to the list built
by `_heapify_priorities`. -/
def next (t : EditTable) (v : Video) (r : Rng) (cache : PairCache) : Gen →
    Except PyErr (VideoOp × Video × Rng × PairCache × Gen)
  | .notStarted id target isAux => do
    let (v, r, dw, heap) ← startFrame t v r target isAux
    let heap := Heapq.heapify Entry.lt heap
    outerLoop t id target isAux dw heap.length v r cache heap
  | .running id target isAux dw heap =>
    outerLoop t id target isAux dw heap.length v r cache heap
  | .padding id target isAux => do
    let op ← padOp v target isAux
    return (op, v, r, cache, .padding id target isAux)

/-- The `Video` object, the current generator, the random tape and the cache. -/
structure Enc where
  v : Video
  gen : Option Gen
  rng : Rng
  startV : Video
  cache : PairCache

open Spec (Call Step)

def Gen.target : Gen → Bitmap
  | .notStarted _ t _ => t
  | .running _ t _ _ _ => t
  | .padding _ t _ => t

def Gen.isAux : Gen → Bool
  | .notStarted _ _ a => a
  | .running _ _ a _ _ => a
  | .padding _ _ a => a

def Gen.isNew : Gen → Bool
  | .notStarted _ _ _ => true
  | _ => false

def Gen.isPadding : Gen → Bool
  | .padding _ _ _ => true
  | _ => false

/-- One call (see `Spec.Call`); the number is the identity of the bitmap object passed when
a frame is started. -/
def Enc.call (t : EditTable) (e : Enc) : Nat × Call → Except PyErr (Enc × List Step)
  | (id, .start target isAux) => .ok ({ e with gen := some (.notStarted id target isAux) }, [])
  | (_, .reset) => .ok ({ e with v := { e.v with outOfWork := fun _ => false } }, [])
  | (_, .pull) => match e.gen with
    | none => .error .typeError
    | some g => do
      let startV := if g.isNew then e.v else e.startV
      let (op, v, rng, cache, g') ← next t e.v e.rng e.cache g
      return ({ v, gen := some g', rng, startV, cache },
        [{ target := g.target, isAux := g.isAux, first := g.isNew, startV, before := e.v, op,
           after := v, padding := g'.isPadding }])

/-- A whole history of calls. -/
def Enc.run (t : EditTable) : Enc → List (Nat × Call) → Except PyErr (Enc × List Step)
  | e, [] => .ok (e, [])
  | e, c :: cs => do
    let (e, s) ← e.call t c
    let (e, ss) ← Enc.run t e cs
    return (e, s ++ ss)

/-- A history from a new `Video` object and an empty cache of the given size. -/
def runNew (maxsize : Nat) (mode : VideoMode) (t : EditTable) (tape : Nat → Nat)
    (calls : List (Nat × Call)) : Except PyErr (Enc × List Step) := do
  let v ← Video.new mode
  Enc.run t { v, gen := none, rng := ⟨tape, 0⟩, startV := v, cache := Lru.empty maxsize } calls

end Real
end IIVision
