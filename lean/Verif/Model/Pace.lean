import Verif.Model.Program

/-! Model of where the times of the frames come from: the frame rate that ffprobe reports
(frame_grabber.py:35-40), `--audio_bitrate` (audio.py:42) and video.py:30-33, 67.

Floating point numbers are rationals, every operation being exact and followed by a rounding `rnd`
(overflow to infinity is not modelled). -/

namespace IIVision

/-- The number a text of decimal digits stands for, `none` if there is another character. -/
def digitsFrom (acc : Nat) : Text → Option Nat
  | [] => some acc
  | c :: t => if 48 ≤ c ∧ c ≤ 57 then digitsFrom (10 * acc + (c - 48)) t else none

/-- frame_grabber.py:39-40 `float(text)`.  Simplified: Python also accepts signs, exponents, `inf`,
blanks and so on; ffprobe writes decimal digits. -/
def floatOf (rnd : Rat → Rat) (t : Text) : Except PyErr Rat :=
  if t = [] then .error .valueError
  else match digitsFrom 0 t with
    | some n => .ok (rnd n)
    | none => .error .valueError

/-- frame_grabber.py:37-40 `input_frame_rate`, from `data['@r_frame_rate']`. -/
def frameRate (rnd : Rat → Rat) (r : Text) : Except PyErr Rat := do
  let parts := splitOn 47 r
  let x ← floatOf rnd (parts.headD [])
  match parts[1]? with
  | none => .error .indexError
  | some t =>
    let y ← floatOf rnd t
    if y = 0 then .error .zeroDivisionError else .ok (rnd (x / y))

/-- audio.py:42, movie.py:39, video.py:30-33 `ticks_per_frame`. -/
def ticksPerFrame (rnd : Rat → Rat) (bitrate : Int) (rate : Rat) : Except PyErr Rat :=
  if rate = 0 then .error .zeroDivisionError else .ok (rnd (rnd bitrate / rate))

/-- video.py:67: the least number of ticks for which `ticks >= self.ticks_per_frame *
self.frame_number` (Python compares an integer with a float exactly). -/
def tickThreshold (rnd : Rat → Rat) (tpf : Rat) (k : Nat) : Nat := (rnd (tpf * rnd k)).ceil.toNat

end IIVision
