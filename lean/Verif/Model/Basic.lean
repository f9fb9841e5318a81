/-
Shared vocabulary of the model: Python exceptions as values, numpy integer
types as bit vectors, numpy (including negative) indexing.
-/

namespace IIVision

/-- Python exceptions that the modelled code can raise, as values. -/
inductive PyErr where
  | valueError
  | assertionError
  | indexError
  | keyError
  | typeError
  | zeroDivisionError
  | notImplementedError
  | attributeError
  | unboundLocalError
  | trapException
  | writeProtected
  | undefinedEntryPoint
  | fileNotFound
  | recursionError
  | connectionError
  deriving DecidableEq, Repr

/-- `np.uint8`. -/
abbrev U8 := BitVec 8
/-- `np.uint64`. -/
abbrev U64 := BitVec 64

/-- Python `assert cond`. -/
def pyAssert (c : Bool) : Except PyErr Unit :=
  if c then .ok () else .error .assertionError

/-- numpy scalar indexing into an axis of length `n`: indices `-n .. -1` count
from the end, anything outside `-n .. n-1` raises `IndexError`.
(numpy semantics, relied upon by transcoder/screen.py:125.) -/
def npIndex (n : Nat) (i : Int) : Except PyErr (Fin n) :=
  if h : 0 ≤ i ∧ i < n then
    .ok ⟨i.toNat, by omega⟩
  else if h : -(n : Int) ≤ i ∧ i < 0 then
    .ok ⟨(i + n).toNat, by omega⟩
  else .error .indexError

/-- A numpy `(32, 256)` array. -/
abbrev Grid (α : Type) := Fin 32 → Fin 256 → α

/-- numpy element assignment `a[p, o] = v`. -/
def Grid.set {α : Type} (g : Grid α) (p : Fin 32) (o : Fin 256) (v : α) : Grid α :=
  fun p' o' => if p' = p ∧ o' = o then v else g p' o'

/-- Contents of one 8K hi-res screen bank, as page/offset bytes. -/
abbrev Mem := Grid U8

end IIVision
