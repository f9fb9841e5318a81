import Verif.Model.Opcodes

/-! Model of transcoder/audio.py.

Decoding and resampling (`Audio._decode`: audioread, librosa) is not modelled: the decoded
samples are inputs.  Floating point arithmetic is exact arithmetic followed by a rounding
function `rnd` (which may overflow to an infinity). -/

namespace IIVision

/-- A floating point value. -/
inductive Flt where
  | fin (q : Rat)
  | posInf
  | negInf
  | nan
  deriving DecidableEq, Repr

/-- IEEE sign test for infinities and zero products: -1, 0 or 1. -/
def ratSign (q : Rat) : Int := if q = 0 then 0 else if q < 0 then -1 else 1

/-- An infinity of the given sign; 0 * inf is NaN. -/
def Flt.infOf (sign : Int) : Flt := if sign = 0 then .nan else if sign < 0 then .negInf else .posInf

/-- IEEE multiplication. -/
def Flt.mul (rnd : Rat → Flt) : Flt → Flt → Flt
  | .nan, _ => .nan
  | _, .nan => .nan
  | .fin a, .fin b => rnd (a * b)
  | .fin a, .posInf => Flt.infOf (ratSign a)
  | .fin a, .negInf => Flt.infOf (-ratSign a)
  | .posInf, .fin b => Flt.infOf (ratSign b)
  | .negInf, .fin b => Flt.infOf (-ratSign b)
  | .posInf, .posInf => .posInf
  | .posInf, .negInf => .negInf
  | .negInf, .posInf => .negInf
  | .negInf, .negInf => .posInf

/-- IEEE division of a positive finite constant by a value, as numpy scalars do it: division by
zero gives an infinity with a warning (the sign of the zero is dropped: the only divisor in
audio.py is an absolute value). -/
def Flt.divInto (rnd : Rat → Flt) (c : Rat) : Flt → Flt
  | .nan => .nan
  | .posInf => .fin 0
  | .negInf => .fin 0
  | .fin q => if q = 0 then .posInf else rnd (c / q)

/-- `np.abs` -/
def Flt.abs : Flt → Flt
  | .nan => .nan
  | .posInf => .posInf
  | .negInf => .posInf
  | .fin q => .fin (if q < 0 then -q else q)

/-- `np.max` of two values: NaN wins. -/
def Flt.max : Flt → Flt → Flt
  | .nan, _ => .nan
  | _, .nan => .nan
  | .posInf, _ => .posInf
  | _, .posInf => .posInf
  | .negInf, b => b
  | a, .negInf => a
  | .fin a, .fin b => .fin (if a < b then b else a)

/-- `astype(np.int)` (64 bit): truncation towards zero; values that do not fit, infinities and
NaN give a value that depends on the machine, here `bad` (-2^63 on x86-64). -/
def Flt.toInt (bad : Flt → Int) : Flt → Int
  | .fin q =>
    let i := q.num.tdiv q.den
    if -(2 ^ 63) ≤ i ∧ i < 2 ^ 63 then i else bad (.fin q)
  | x => bad x

/-- x86-64 conversion: "integer indefinite". -/
def x86Bad : Flt → Int := fun _ => -(2 ^ 63)

/-- `np.clip(a, -15, 16)`, audio.py:98 -/
def clipSample (i : Int) : Int := if i < -15 then -15 else if 16 < i then 16 else i

/-- audio.py:93-98: one decoded sample. -/
def quantise (rnd : Rat → Flt) (bad : Flt → Int) (normalization a : Flt) : Int :=
  let a := Flt.mul rnd a (.fin (1 / 16384))
  let a := Flt.mul rnd a normalization
  clipSample (Flt.toInt bad (Flt.mul rnd a (.fin 16)))

/-- The value of `np.percentile` (linear interpolation) between neighbouring sorted samples
`lo`, `hi` at fraction `t`. -/
def lerp (lo hi t : Rat) : Rat := lo + (hi - lo) * t

/-- `np.percentile(a, p)` for finite samples (numpy, linear method); the interpolation is exact
here.  No sample: numpy raises IndexError. -/
def percentile (a : List Rat) (p : Rat) : Except PyErr Rat :=
  let s := a.mergeSort (fun x y => decide (x ≤ y))
  let v := p / 100 * ((s.length : Rat) - 1)
  let i := v.floor.toNat
  match s[i]? with
  | none => .error .indexError
  | some lo => match s[i + 1]? with
    | none => .ok lo
    | some hi => .ok (lerp lo hi (v - i))

/-- audio.py:64-82 `_normalization`, for the decoded samples of the first 10 Mb. -/
def normalizationOf (rnd : Rat → Flt) (analysed : List Rat) : Except PyErr Flt := do
  let p1 ← percentile analysed (1 / 2)
  let p2 ← percentile analysed (995 / 10)
  return Flt.divInto rnd 16384 (Flt.max (Flt.abs (.fin p1)) (Flt.abs (.fin p2)))

/-- audio.py:44-45: `normalization or self._normalization()`; `None` and 0 are false. -/
def chooseNormalization (rnd : Rat → Flt) (given : Option Flt) (analysed : List Rat) :
    Except PyErr Flt :=
  match given with
  | none => normalizationOf rnd analysed
  | some (.fin q) => if q = 0 then normalizationOf rnd analysed else .ok (.fin q)
  | some x => .ok x

/-- audio.py:84-100 `audio_stream` for the decoded chunks. -/
def audioStream (rnd : Rat → Flt) (bad : Flt → Int) (given : Option Flt) (analysed : List Rat)
    (chunks : List (List Flt)) : Except PyErr (List Int) := do
  let n ← chooseNormalization rnd given analysed
  return chunks.flatMap fun a => a.map (quantise rnd bad n)

end IIVision
