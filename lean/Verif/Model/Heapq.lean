import Verif.Model.Video

/-! The standard-library machinery behind transcoder/video.py, in the form the
interpreter executes it: the array algorithms of `heapq` (imported at video.py:3, used at
118-122, 177, 270, 293-297; CPython's Lib/heapq.py, of which the C version is a
transcription) and the least-recently-used cache of `functools.lru_cache` (screen.py:383),
and the encoder written with them.  Model/Video.lean uses instead a bag with an arbitrary
pop-min and no cache; Props/Machinery.lean proves that the two encoders agree. -/

namespace IIVision.Heapq
variable {α : Type}

/-- Lib/heapq.py `_siftdown(heap, startpos, pos)`, the loop: `item` moves from the hole at
`pos` towards `startpos`; larger parents move down.  The first argument bounds the number
of iterations (called with `pos`, which decreases). -/
def siftdownLoop (lt : α → α → Bool) (startpos : Nat) (item : α) :
    Nat → Nat → List α → List α × Nat
  | 0, pos, heap => (heap, pos)
  | n + 1, pos, heap =>
    if startpos < pos then
      let parentpos := (pos - 1) / 2
      let parent := heap.getD parentpos item
      if lt item parent then siftdownLoop lt startpos item n parentpos (heap.set pos parent)
      else (heap, pos)
    else (heap, pos)

/-- Lib/heapq.py `_siftdown(heap, startpos, pos)` with `newitem = heap[pos]`. -/
def siftdown (lt : α → α → Bool) (heap : List α) (startpos pos : Nat) (item : α) : List α :=
  let (heap, pos) := siftdownLoop lt startpos item pos pos heap
  heap.set pos item

/-- Lib/heapq.py `_siftup(heap, pos)`, the loop: the smaller child moves up until the hole
is at a leaf.  The first argument bounds the number of iterations (called with the length
of the heap; the hole's index grows). -/
def siftupLoop (lt : α → α → Bool) (item : α) : Nat → Nat → List α → List α × Nat
  | 0, pos, heap => (heap, pos)
  | n + 1, pos, heap =>
    let childpos := 2 * pos + 1
    if childpos < heap.length then
      let rightpos := childpos + 1
      let childpos :=
        if rightpos < heap.length ∧ lt (heap.getD childpos item) (heap.getD rightpos item) = false
        then rightpos else childpos
      siftupLoop lt item n childpos (heap.set pos (heap.getD childpos item))
    else (heap, pos)

/-- Lib/heapq.py `_siftup(heap, pos)` with `newitem = heap[pos]`. -/
def siftup (lt : α → α → Bool) (heap : List α) (pos : Nat) (item : α) : List α :=
  let (heap, leaf) := siftupLoop lt item heap.length pos heap
  siftdown lt (heap.set leaf item) pos leaf item

/-- Lib/heapq.py `heappush(heap, item)`. -/
def heappush (lt : α → α → Bool) (heap : List α) (item : α) : List α :=
  siftdown lt (heap ++ [item]) 0 heap.length item

/-- Lib/heapq.py `heappop(heap)`: the first element; the last one takes its place and
sinks.  `none` is the `IndexError` on an empty list. -/
def heappop (lt : α → α → Bool) (heap : List α) : Option (α × List α) :=
  match heap.getLast? with
  | none => none
  | some lastelt =>
    match heap.dropLast with
    | [] => some (lastelt, [])
    | returnitem :: rest => some (returnitem, siftup lt (lastelt :: rest) 0 lastelt)

/-- Lib/heapq.py `heapify(x)`, the loop over `reversed(range(n))`. -/
def heapifyLoop (lt : α → α → Bool) : Nat → List α → List α
  | 0, x => x
  | i + 1, x =>
    match x[i]? with
    | some item => heapifyLoop lt i (siftup lt x i item)
    | none => heapifyLoop lt i x

/-- Lib/heapq.py `heapify(x)`. -/
def heapify (lt : α → α → Bool) (x : List α) : List α := heapifyLoop lt (x.length / 2) x

/-- `while deltas: heappop(deltas)` (video.py:296-297). -/
def drain (lt : α → α → Bool) : Nat → List α → List α
  | 0, _ => []
  | n + 1, h => match heappop lt h with
    | none => []
    | some (x, h') => x :: drain lt n h'

end IIVision.Heapq
