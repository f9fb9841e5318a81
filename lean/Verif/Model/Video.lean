import Verif.Model.Bitmap

/-! Model of transcoder/video.py: the class `Video` and the frame encoder generator.

A suspended Python generator is a value of type `Gen`; `Video.next` resumes it until
its next `yield`.  Mutable arrays shared between the generator and the object
(`update_priority`, the pixel map and its memory maps) live in `Video`; local
variables of the generator (`diff_weights`, `priorities`) live in `Gen`.
`random.getrandbits(8)` / `np.random.randint(0, 256)` read successive entries of an
arbitrary tape.  `heapq` is modelled by its contract: the heap is a bag of tuples and
`heappop` removes a least one. -/

namespace IIVision

/-- video.py:15-62 `Video` (the fields that matter for encoding; the frame counter and
`tick` are in Model/Movie.lean).  `self.memory_map`/`self.aux_memory_map` are the very
objects passed to the pixel map (video.py:37-53), i.e. `pixelmap.main`/`pixelmap.aux`. -/
structure Video where
  mode : VideoMode
  pixelmap : Bitmap
  /-- `update_priority` (int32) -/
  prio : Grid Int
  /-- `aux_update_priority` (int32; only exists in DHGR) -/
  auxPrio : Grid Int
  /-- `out_of_work` -/
  outOfWork : Bool → Bool

/-- screen.py:104-117 with no data: an all-zero memory map for screen page 1. -/
def emptyMap : MemoryMap := { screenPage := 1, pageOffset := fun _ _ => 0#8 }

/-- video.py:21-62 `Video.__init__`. -/
def Video.new (mode : VideoMode) : Except PyErr Video := do
  let pixelmap ← match mode with
    | .DHGR => DHGRBitmap.new emptyMap emptyMap
    | .HGR => HGRBitmap.new emptyMap
  return { mode, pixelmap, prio := fun _ _ => 0, auxPrio := fun _ _ => 0,
           outOfWork := fun _ => false }

/-- video.py:79-84: the priority array of a bank. -/
def Video.priority (v : Video) (isAux : Bool) : Grid Int := if isAux then v.auxPrio else v.prio

/-- In-place update of the priority array of a bank. -/
def Video.setPriority (v : Video) (isAux : Bool) (g : Grid Int) : Video :=
  if isAux then { v with auxPrio := g } else { v with prio := g }

/-- numpy int32 wrap-around. -/
def wrap32 (x : Int) : Int := x.bmod (2 ^ 32)

/-- A heap tuple `(-priority, nonce, page, offset)` (video.py:177-178, 259-268). -/
structure Entry where
  key : Int
  nonce : Nat
  page : Fin 32
  offset : Fin 256
  deriving DecidableEq, Repr

/-- Python tuple comparison `a < b`. -/
def Entry.lt (a b : Entry) : Bool :=
  a.key < b.key || (a.key == b.key && (a.nonce < b.nonce || (a.nonce == b.nonce &&
    (a.page < b.page || (a.page == b.page && a.offset < b.offset)))))

/-- A tuple `(delta, nonce, offset)` of `_compute_error` (video.py:290-293). -/
structure Cand where
  delta : Int
  nonce : Nat
  offset : Fin 256
  deriving DecidableEq, Repr

/-- Python tuple comparison `a < b`. -/
def Cand.lt (a b : Cand) : Bool :=
  a.delta < b.delta || (a.delta == b.delta && (a.nonce < b.nonce || (a.nonce == b.nonce &&
    a.offset < b.offset)))

/-- A least element of a non-empty list (the first of several equal ones). -/
def leastOf {α : Type} (lt : α → α → Bool) (x : α) : List α → α
  | [] => x
  | y :: l => leastOf lt (if lt y x then y else x) l

/-- `heapq.heappop`: a least element and the remaining bag; `none` on the empty heap. -/
def heapPop {α : Type} [DecidableEq α] (lt : α → α → Bool) : List α → Option (α × List α)
  | [] => none
  | x :: l => let m := leastOf lt x l; some (m, (x :: l).erase m)

/-- `while deltas: heappop(deltas)` (video.py:296-301): the bag in popping order
(`n` bounds the number of pops; called with the length). -/
def heapDrain {α : Type} [DecidableEq α] (lt : α → α → Bool) : Nat → List α → List α
  | 0, _ => []
  | n + 1, h => match heapPop lt h with
    | none => []
    | some (x, h') => x :: heapDrain lt n h'

/-- The tape of random bytes and the position of the next draw. -/
structure Rng where
  tape : Nat → Nat
  pos : Nat

/-- `random.getrandbits(8)`. -/
def Rng.draw (r : Rng) : Nat × Rng := (r.tape r.pos % 256, { r with pos := r.pos + 1 })

/-- `[f(x, nonce) for x in l]` with one random byte per element. -/
def Rng.mapDraw {α β : Type} (f : α → Nat → β) : List α → Rng → List β × Rng
  | [], r => ([], r)
  | x :: l, r =>
    let (n, r) := r.draw
    let (l', r) := Rng.mapDraw f l r
    (f x n :: l', r)

/-- All `(page, offset)` pairs in row-major order (order of `ndarray.nonzero()`). -/
def allCells : List (Fin 32 × Fin 256) :=
  (List.finRange 32).flatMap fun p => (List.finRange 256).map fun o => (p, o)

/-- video.py:253-271 `_heapify_priorities`. -/
def heapifyPriorities (prio : Grid Int) (r : Rng) : List Entry × Rng :=
  Rng.mapDraw (fun (c : Fin 32 × Fin 256) n => (⟨-prio c.1 c.2, n, c.1, c.2⟩ : Entry))
    (allCells.filter fun c => prio c.1 c.2 ≠ 0) r

/-- video.py:275-301 `_compute_error`: the sequence of `(-pri, offset)` it yields, kept
as the popped tuples (its assertions `pri < 0` are checked by the consumer loop below,
`0 <= offset <= 255` holds by typing). -/
def computeError (C : Cls) (t : EditTable) (page : Fin 32) (content : U8) (target : Bitmap)
    (dw : Fin 256 → Int) (isAux : Bool) (r : Rng) : Except PyErr (List Cand × Rng) := do
  let delta ← C.computeDeltaPage t target.packed page content dw isAux
  let (cands, r) := Rng.mapDraw (fun o n => (⟨delta o, n, o⟩ : Cand))
    ((List.finRange 256).filter fun o => decide (delta o < 0)) r
  return (heapDrain Cand.lt cands.length cands, r)

/-- An emitted tuple `(page, content, offsets)` (video.py:187). -/
structure VideoOp where
  page : Nat
  content : U8
  offsets : List (Fin 256)
  deriving DecidableEq, Repr

/-- A suspended `encode_frame` generator. -/
inductive Gen where
  /-- created by `encode_frame(target, is_aux)`, not yet resumed -/
  | notStarted (target : Bitmap) (isAux : Bool)
  /-- suspended at video.py:187 (or about to enter the loop at line 121) -/
  | running (target : Bitmap) (isAux : Bool) (dw : Grid Int) (heap : List Entry)
  /-- suspended at video.py:251 -/
  | padding (target : Bitmap) (isAux : Bool)

/-- State threaded through the inner loop of video.py:146-182. -/
structure Inner where
  v : Video
  heap : List Entry
  r : Rng
  offsets : List (Fin 256)

/-- video.py:146-182: the loop over the offsets yielded by `_compute_error`.
`-p` at line 178 is computed on an `np.uint16`, so it is `65536 - p`, a positive key. -/
def innerLoop (t : EditTable) (target : Bitmap) (isAux : Bool) (page : Fin 32) (content : U8)
    (offset : Fin 256) : List Cand → Inner → Except PyErr Inner
  | [], s => .ok s
  | c :: cs, s => do
    pyAssert (decide (c.delta < 0))
    pyAssert (decide (c.offset ≠ offset))
    pyAssert (!screenHoles page c.offset)
    if s.v.priority isAux page c.offset = 0 then
      innerLoop t target isAux page content offset cs s
    else
      let C := s.v.mode.cls
      let k ← C.byteOffset c.offset isAux
      let p ← C.bytePairDifference t k (target.packed page ⟨c.offset.val / 2, by omega⟩) content
      let pm ← s.v.pixelmap.apply C page c.offset isAux content
      let v := s.v.setPriority isAux
        (Grid.set (s.v.priority isAux) page c.offset (p.toNat : Int))
      let v := { v with pixelmap := pm }
      let (heap, r) :=
        if p ≠ 0 then
          let (n, r) := s.r.draw
          ((⟨((-p).toNat : Int), n, page, c.offset⟩ : Entry) :: s.heap, r)
        else (s.heap, s.r)
      let offsets := s.offsets ++ [c.offset]
      if offsets.length = 3 then return ⟨v, heap, r, offsets⟩
      else innerLoop t target isAux page content offset cs ⟨v, heap, r, offsets⟩

/-- video.py:104-107: the memory map of the target for a bank. -/
def targetMemory (mode : VideoMode) (target : Bitmap) (isAux : Bool) : Except PyErr MemoryMap :=
  if mode = .DHGR ∧ isAux then
    match target.aux with
    | some a => .ok a
    | none => .error .attributeError
  else .ok target.main

/-- video.py:184-186: pad the offsets to 4 with the first one. -/
def padOffsets (offset : Fin 256) (l : List (Fin 256)) : List (Fin 256) :=
  l ++ List.replicate (4 - l.length) offset

/-- video.py:133-187: body of the outer loop for a cell that is still pending, up to
the `yield`. -/
def emitCell (t : EditTable) (v : Video) (r : Rng) (target : Bitmap) (isAux : Bool)
    (dw : Grid Int) (heap : List Entry) (page : Fin 32) (offset : Fin 256) :
    Except PyErr (VideoOp × Video × Rng × Gen) := do
  let mem ← targetMemory v.mode target isAux
  let content := mem.pageOffset page offset
  pyAssert (decide (v.mode = .DHGR → content.toNat < 0x80))
  let v := v.setPriority isAux (Grid.set (v.priority isAux) page offset 0)
  let dw := Grid.set dw page offset 0
  let pm ← v.pixelmap.apply v.mode.cls page offset isAux content
  let v := { v with pixelmap := pm }
  let (cands, r) ← computeError v.mode.cls t page content target (dw page) isAux r
  let s ← innerLoop t target isAux page content offset cands ⟨v, heap, r, [offset]⟩
  return (⟨page.val + 32, content, padOffsets offset s.offsets⟩, s.v, s.r,
    .running target isAux dw s.heap)

/-- video.py:248-251: the endless padding loop. -/
def padOp (v : Video) (target : Bitmap) (isAux : Bool) : Except PyErr VideoOp := do
  let mem ← targetMemory v.mode target isAux
  return ⟨32, mem.pageOffset 0 0, [0, 0, 0, 0]⟩

/-- video.py:189, 248-251: leaving the loop and yielding the first padding operation. -/
def finishFrame (v : Video) (r : Rng) (target : Bitmap) (isAux : Bool) :
    Except PyErr (VideoOp × Video × Rng × Gen) := do
  let v := { v with outOfWork := fun b => if b = isAux then true else v.outOfWork b }
  let op ← padOp v target isAux
  return (op, v, r, .padding target isAux)

/-- video.py:121-251: resume the loop; the first argument bounds the number of pops
before the next `yield` (called with the heap's length, which suffices since skipped
entries are not pushed back). -/
def outerLoop (t : EditTable) (target : Bitmap) (isAux : Bool) (dw : Grid Int) :
    Nat → Video → Rng → List Entry → Except PyErr (VideoOp × Video × Rng × Gen)
  | 0, v, r, _ => finishFrame v r target isAux
  | n + 1, v, r, heap =>
    match heapPop Entry.lt heap with
    | none => finishFrame v r target isAux
    | some (e, heap) => do
      pyAssert (!screenHoles e.page e.offset)
      if v.priority isAux e.page e.offset = 0 then
        outerLoop t target isAux dw n v r heap
      else
        emitCell t v r target isAux dw heap e.page e.offset

/-- video.py:79-84: the memory map of a bank (`aux_memory_map` only exists in DHGR). -/
def sourceMemory (v : Video) (isAux : Bool) : Except PyErr MemoryMap :=
  if isAux then
    match v.pixelmap.aux with
    | some a => .ok a
    | none => .error .attributeError
  else .ok v.pixelmap.main

/-- video.py:111 `diff_weights[SCREEN_HOLES] = 0`. -/
def clearHoles (dw : Grid Int) : Grid Int := fun p o => if screenHoles p o then 0 else dw p o

/-- video.py:115-116 `update_priority[diff_weights == 0] = 0; update_priority += diff_weights`. -/
def accumulate (prio dw : Grid Int) : Grid Int :=
  fun p o => wrap32 ((if dw p o = 0 then 0 else prio p o) + dw p o)

/-- video.py:79-93, 104-119: from the call of `encode_frame` to the loop. -/
def startFrame (t : EditTable) (v : Video) (r : Rng) (target : Bitmap) (isAux : Bool) :
    Except PyErr (Video × Rng × Grid Int × List Entry) := do
  let mem ← sourceMemory v isAux
  pyAssert (decide (∀ p o, screenHoles p o = true → mem.pageOffset p o = 0))
  let _ ← targetMemory v.mode target isAux
  let dw ← v.mode.cls.diffWeights t v.pixelmap.packed target.packed isAux
  let dw := clearHoles dw
  let prio := accumulate (v.priority isAux) dw
  pyAssert (decide (∀ p o, prio p o ≥ 0))
  let (heap, r) := heapifyPriorities prio r
  return (v.setPriority isAux prio, r, dw, heap)

/-- `next(op_seq)` on an `encode_frame` generator. -/
def Video.next (t : EditTable) (v : Video) (r : Rng) : Gen →
    Except PyErr (VideoOp × Video × Rng × Gen)
  | .notStarted target isAux => do
    let (v, r, dw, heap) ← startFrame t v r target isAux
    outerLoop t target isAux dw heap.length v r heap
  | .running target isAux dw heap => outerLoop t target isAux dw heap.length v r heap
  | .padding target isAux => do
    let op ← padOp v target isAux
    return (op, v, r, .padding target isAux)

end IIVision
