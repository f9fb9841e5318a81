import Verif.Model.Audio

/-! Model of the decoding in transcoder/audio.py: from the buffers of bytes that audioread delivers
to the samples of the stream.

The file formats (audioread, ffmpeg) are not modelled: the buffers are given, of any sizes (what
audioread makes of the argument 128 * 1024 of `read_data` depends on its backend).  The arithmetic of
`librosa.resample` is not modelled either: it is an arbitrary function of a buffer's mono samples;
what the theorems need of it (the number of samples) is a hypothesis.  The mean of the channels is
exact arithmetic followed by a rounding function. -/

namespace IIVision.Pcm

/-- audio.py:54 `np.frombuffer(buf, dtype='int16')` on a little endian machine; ValueError unless the
size is a multiple of two.  (`astype('float32')` is exact for these numbers.  An empty buffer, which
audioread does not deliver, gives no numbers here.) -/
def int16s : List U8 → Except PyErr (List Int)
  | [] => .ok []
  | [_] => .error .valueError
  | lo :: hi :: rest => do
    let xs ← int16s rest
    return (hi ++ lo : BitVec 16).toInt :: xs

/-- audio.py:54-55 `reshape((f.channels, -1), order='F')`: one row per channel, in Fortran order:
number `i * channels + c` gets to row `c`, column `i`; ValueError if the rows would not be equally
long. -/
def reshapeF (channels : Nat) (xs : List Int) : Except PyErr (List (List Int)) :=
  if channels = 0 ∨ xs.length % channels ≠ 0 then .error .valueError
  else .ok ((List.range channels).map fun c =>
    (List.range (xs.length / channels)).map fun i => xs.getD (i * channels + c) 0)

/-- audio.py:57 `librosa.core.to_mono`: the mean of each column. -/
def toMono (rnd : Rat → Rat) (rows : List (List Int)) : List Rat :=
  (List.range (rows.headD []).length).map fun i =>
    rnd ((((rows.map fun r => r.getD i 0).sum : Int) : Rat) / ((rows.length : Nat) : Rat))

/-- What the decoder depends on. -/
structure Format where
  /-- `f.channels` -/
  channels : Nat
  /-- rounding of float32 -/
  rnd : Rat → Rat
  /-- audio.py:58-60 `librosa.resample(a, orig_sr=..., target_sr=..., ...).flatten()` -/
  resample : List Rat → List Rat

/-- audio.py:47-62 `_decode`. -/
def Format.decode (F : Format) (buf : List U8) : Except PyErr (List Rat) := do
  let xs ← int16s buf
  let rows ← reshapeF F.channels xs
  return F.resample (toMono F.rnd rows)

/-- audio.py:73-78: the loop that collects the bytes to be analysed. -/
def collect (readBytes : Nat) : List U8 → List (List U8) → List U8
  | raw, [] => raw
  | raw, buf :: rest =>
    let raw := raw ++ buf
    if readBytes < raw.length then raw else collect readBytes raw rest

/-- audio.py:64 default of `read_bytes`. -/
def readBytes : Nat := 1024 * 1024 * 10

/-- audio.py:44-45, 64-82: the normalisation given or else computed; `buffers` is what
`f.read_data()` delivers. -/
def Format.normalization (F : Format) (rnd : Rat → Flt) (given : Option Flt) (buffers : List (List U8)) :
    Except PyErr Flt :=
  let compute := do
    let a ← F.decode (collect readBytes [] buffers)
    normalizationOf rnd a
  match given with
  | none => compute
  | some (.fin q) => if q = 0 then compute else .ok (.fin q)
  | some x => .ok x

/-- audio.py:84-100 `audio_stream`: the samples yielded, and the exception that ended the stream if
there was one; `buffers` is what `f.read_data(128 * 1024)` delivers. -/
def Format.stream (F : Format) (rnd : Rat → Flt) (bad : Flt → Int) (normalization : Flt) :
    List (List U8) → List Int × Option PyErr
  | [] => ([], none)
  | buf :: rest =>
    match F.decode buf with
    | .error e => ([], some e)
    | .ok a =>
      let r := F.stream rnd bad normalization rest
      ((a.map fun x => quantise rnd bad normalization (.fin x)) ++ r.1, r.2)

end IIVision.Pcm
