import Verif.Proofs.Pcm
import Verif.Props.Audio
import Mathlib.Data.Nat.Prime.Basic
import Mathlib.Data.Rat.Floor

/-! C71: from the bytes of a sound file to the samples of the stream. -/

namespace IIVision.Pcm
open Spec

theorem ceil_eq (x : Rat) : x.ceil = ⌈x⌉ := by
  symm
  rw [Int.ceil_eq_iff]
  refine ⟨?_, Rat.le_ceil⟩
  have := Rat.ceil_lt (x := x)
  linarith

/-- **C71.** A buffer of whole frames, whatever the number of channels: what is resampled is one
sample per frame, in order, the mean of its channels. -/
theorem C71_mono (F : Format) (hch : 0 < F.channels) (frames : List (List Int))
    (h : GoodFrames F.channels frames) :
    F.decode (pcmBytes frames) = .ok (F.resample (frames.map (monoOf F.rnd))) :=
  decode_frames F hch frames h

theorem stream_good (F : Format) (hch : 0 < F.channels) (rnd : Rat → Flt) (bad : Flt → Int) (n : Flt)
    (buffers : List (List (List Int))) (h : ∀ b ∈ buffers, GoodFrames F.channels b) (rest : List (List U8)) :
    F.stream rnd bad n (buffers.map pcmBytes ++ rest) =
      ((buffers.flatMap fun b => (F.resample (b.map (monoOf F.rnd))).map fun x => quantise rnd bad n (.fin x)) ++
        (F.stream rnd bad n rest).1, (F.stream rnd bad n rest).2) := by
  induction buffers with
  | nil => simp
  | cons b buffers ih =>
    have ih := ih fun x hx => h x (by simp [hx])
    simp only [List.map_cons, List.cons_append, Format.stream, decode_frames F hch b (h b (by simp)), ih,
      List.flatMap_cons, List.append_assoc]

/-- **C71.** If no resampling is needed, the stream has one sample per frame of the file, in order,
each depending only on its own frame, however the file was cut into buffers (of whole frames). -/
theorem C71_same_rate (F : Format) (hch : 0 < F.channels) (rate : Rat) (hr : Resamples F rate rate)
    (rnd : Rat → Flt) (bad : Flt → Int) (n : Flt)
    (buffers : List (List (List Int))) (h : ∀ b ∈ buffers, GoodFrames F.channels b) :
    F.stream rnd bad n (buffers.map pcmBytes) =
      (buffers.flatten.map fun f => quantise rnd bad n (.fin (monoOf F.rnd f)), none) := by
  have := stream_good F hch rnd bad n buffers h []
  rw [List.append_nil] at this
  rw [this]
  simp only [Format.stream, List.append_nil, hr.same rfl, List.map_map, Function.comp_def]
  congr 1
  induction buffers with
  | nil => rfl
  | cons b buffers ih =>
    rw [List.flatMap_cons, List.flatten_cons, List.map_append,
      ih (fun x hx => h x (by simp [hx])) (by simpa using stream_good F hch rnd bad n buffers (fun x hx => h x (by simp [hx])) [])]

/-- **C71.** With resampling, each buffer is resampled by itself and the number of its samples is
rounded up.  So (finding) the stream is too long by up to one sample per buffer: the sound falls
behind the picture. -/
theorem C71_count (F : Format) (hch : 0 < F.channels) (orig target : Rat) (ho : 0 < orig) (ht : 0 < target)
    (hr : Resamples F orig target) (rnd : Rat → Flt) (bad : Flt → Int) (n : Flt)
    (buffers : List (List (List Int))) (h : ∀ b ∈ buffers, GoodFrames F.channels b) :
    (F.stream rnd bad n (buffers.map pcmBytes)).2 = none ∧
    (F.stream rnd bad n (buffers.map pcmBytes)).1.length =
      (buffers.map fun b => resampledLength orig target b.length).sum ∧
    (buffers.flatten.length : Rat) * target / orig ≤ ((F.stream rnd bad n (buffers.map pcmBytes)).1.length : Rat) ∧
    ((F.stream rnd bad n (buffers.map pcmBytes)).1.length : Rat) ≤
      (buffers.flatten.length : Rat) * target / orig + buffers.length := by
  have hs := stream_good F hch rnd bad n buffers h []
  rw [List.append_nil] at hs
  have hlen : (F.stream rnd bad n (buffers.map pcmBytes)).1.length =
      (buffers.map fun b => resampledLength orig target b.length).sum := by
    rw [hs]
    simp only [Format.stream, List.append_nil, List.length_flatMap, List.length_map, hr.length]
  refine ⟨by rw [hs]; rfl, hlen, ?_⟩
  rw [hlen]
  clear hs hlen h
  induction buffers with
  | nil => simp
  | cons b buffers ih =>
    simp only [List.flatten_cons, List.length_append, List.map_cons, List.sum_cons, List.length_cons, Nat.cast_add,
      Nat.cast_one]
    have h0 : (0 : Rat) ≤ (b.length : Rat) * target / orig := by positivity
    have h1 : (b.length : Rat) * target / orig ≤ (resampledLength orig target b.length : Rat) := by
      unfold resampledLength
      have := Int.le_ceil ((b.length : Rat) * target / orig)
      have h2 : (((b.length : Rat) * target / orig).ceil : Rat) ≤ ((((b.length : Rat) * target / orig).ceil.toNat : Nat) : Rat) := by
        have := Int.self_le_toNat ((b.length : Rat) * target / orig).ceil
        exact_mod_cast this
      have h3 : (⌈(b.length : Rat) * target / orig⌉ : Rat) = (((b.length : Rat) * target / orig).ceil : Rat) := by rw [ceil_eq]
      linarith
    have h2 : (resampledLength orig target b.length : Rat) ≤ (b.length : Rat) * target / orig + 1 := by
      unfold resampledLength
      have hlt := Int.ceil_lt_add_one ((b.length : Rat) * target / orig)
      have hnn : 0 ≤ ((b.length : Rat) * target / orig).ceil := by rw [ceil_eq]; exact Int.ceil_nonneg h0
      have h3 : ((((b.length : Rat) * target / orig).ceil.toNat : Nat) : Rat) = (((b.length : Rat) * target / orig).ceil : Rat) := by
        have := Int.toNat_of_nonneg hnn
        exact_mod_cast this
      rw [h3, ceil_eq]
      exact hlt.le
    have e : ((b.length : Rat) + (buffers.flatten.length : Rat)) * target / orig =
        (b.length : Rat) * target / orig + (buffers.flatten.length : Rat) * target / orig := by ring
    rw [e]
    constructor <;> linarith [ih.1, ih.2]

/-- **C71.** A buffer raises an exception exactly if it does not consist of whole frames, and then it
is a ValueError. -/
theorem C71_misaligned (F : Format) (hch : 0 < F.channels) (buf : List U8) :
    (buf.length % (2 * F.channels) = 0 → ∃ a, F.decode buf = .ok a) ∧
    (buf.length % (2 * F.channels) ≠ 0 → F.decode buf = .error .valueError) := by
  obtain ⟨h1, h2⟩ := int16s_length buf
  by_cases he : buf.length % 2 = 0
  · obtain ⟨xs, h3, h4⟩ := h1 he
    have hmod : buf.length % (2 * F.channels) = 2 * (xs.length % F.channels) := by
      rw [← h4, Nat.mul_mod_mul_left]
    simp only [Format.decode, h3, bind, Except.bind, reshapeF]
    constructor
    · intro h
      rw [if_neg (by omega)]
      exact ⟨_, rfl⟩
    · intro h
      rw [if_pos (by right; omega)]
  · have hno : buf.length % (2 * F.channels) ≠ 0 := by
      intro h
      have := Nat.mod_mod_of_dvd buf.length (Dvd.intro F.channels rfl : 2 ∣ 2 * F.channels)
      rw [h] at this
      omega
    refine ⟨fun h => absurd h hno, fun _ => ?_⟩
    simp only [Format.decode, h2 he, bind, Except.bind]

/-- **C71.** (Finding.)  So the first buffer that is not whole frames ends the stream with a
ValueError, after the samples of the buffers before it; and if the size of the buffers is a power of
two, this is the fate of every file of more than one buffer whose number of channels is not a power
of two, such as 5.1 sound. -/
theorem C71_surround (F : Format) (hch : 0 < F.channels) (rnd : Rat → Flt) (bad : Flt → Int) (n : Flt)
    (good : List (List (List Int))) (h : ∀ b ∈ good, GoodFrames F.channels b) (buf : List U8) (rest : List (List U8)) :
    (buf.length % (2 * F.channels) ≠ 0 →
      F.stream rnd bad n (good.map pcmBytes ++ buf :: rest) =
        (good.flatMap fun b => (F.resample (b.map (monoOf F.rnd))).map fun x => quantise rnd bad n (.fin x),
          some .valueError)) ∧
    (∀ m, buf.length = 2 ^ m → (buf.length % (2 * F.channels) = 0 ↔ ∃ k, k < m ∧ F.channels = 2 ^ k)) := by
  constructor
  · intro hb
    rw [stream_good F hch rnd bad n good h]
    simp only [Format.stream, (C71_misaligned F hch buf).2 hb, List.append_nil]
  · intro m hl
    rw [hl]
    constructor
    · intro h0
      obtain ⟨k, hk, he⟩ := (Nat.dvd_prime_pow Nat.prime_two).mp (Nat.dvd_of_mod_eq_zero h0)
      cases k with
      | zero => omega
      | succ k => exact ⟨k, hk, by rw [Nat.pow_succ] at he; omega⟩
    · rintro ⟨k, hk, he⟩
      rw [he, show 2 * 2 ^ k = 2 ^ (k + 1) by rw [Nat.pow_succ, Nat.mul_comm]]
      exact Nat.mod_eq_zero_of_dvd (Nat.pow_dvd_pow 2 hk)

/-- **C71.** What is analysed for the normalisation is the beginning of the file: all of it if it has
at most 10 MiB, else 10 MiB and less than one buffer more. -/
theorem C71_analysed (buffers : List (List U8)) :
    (collect readBytes [] buffers <+: buffers.flatten) ∧
    (buffers.flatten.length ≤ 10485760 → collect readBytes [] buffers = buffers.flatten) ∧
    (10485760 < buffers.flatten.length → 10485760 < (collect readBytes [] buffers).length ∧
      ∃ b ∈ buffers, (collect readBytes [] buffers).length ≤ 10485760 + b.length) := by
  have key : ∀ (buffers : List (List U8)) (raw : List U8), raw.length ≤ readBytes →
      (collect readBytes raw buffers <+: raw ++ buffers.flatten) ∧
      (raw.length + buffers.flatten.length ≤ readBytes → collect readBytes raw buffers = raw ++ buffers.flatten) ∧
      (readBytes < raw.length + buffers.flatten.length → readBytes < (collect readBytes raw buffers).length ∧
        ∃ b ∈ buffers, (collect readBytes raw buffers).length ≤ readBytes + b.length) := by
    intro buffers
    induction buffers with
    | nil =>
      intro raw hr
      refine ⟨by simp [collect], by simp [collect], fun h => ?_⟩
      simp at h
      omega
    | cons b buffers ih =>
      intro raw hr
      simp only [collect, List.flatten_cons]
      by_cases hb : readBytes < (raw ++ b).length
      · rw [if_pos hb]
        rw [List.length_append] at hb
        refine ⟨⟨buffers.flatten, by simp⟩, fun h => ?_, fun _ => ⟨by simpa using hb, b, by simp, ?_⟩⟩
        · simp only [List.length_append] at h; omega
        · simp only [List.length_append]; omega
      · rw [if_neg hb]
        obtain ⟨h1, h2, h3⟩ := ih (raw ++ b) (by omega)
        rw [List.append_assoc] at h1 h2
        simp only [List.length_append] at h2 h3 ⊢
        refine ⟨h1, fun h => h2 (by omega), fun h => ?_⟩
        obtain ⟨h4, b', hb', h5⟩ := h3 (by omega)
        exact ⟨h4, b', by simp [hb'], h5⟩
  obtain ⟨h1, h2, h3⟩ := key buffers [] (by simp [readBytes])
  refine ⟨by simpa using h1, fun h => by simpa using h2 (by simpa [readBytes] using h), fun h => ?_⟩
  obtain ⟨h4, b, hb, h5⟩ := h3 (by simpa [readBytes] using h)
  exact ⟨by simpa [readBytes] using h4, b, hb, by simpa [readBytes] using h5⟩

/-- **C71.** A normalisation that is given and not 0 is used, whatever the file; else it is computed
from the analysed part of the file, if this is whole frames from the resampled means. -/
theorem C71_normalization (F : Format) (hch : 0 < F.channels) (rnd : Rat → Flt) (buffers : List (List U8)) :
    (∀ x, x ≠ .fin 0 → F.normalization rnd (some x) buffers = .ok x) ∧
    (∀ given, given = none ∨ given = some (.fin 0) →
      (∀ frames, GoodFrames F.channels frames → collect readBytes [] buffers = pcmBytes frames →
        F.normalization rnd given buffers = normalizationOf rnd (F.resample (frames.map (monoOf F.rnd)))) ∧
      ((collect readBytes [] buffers).length % (2 * F.channels) ≠ 0 →
        F.normalization rnd given buffers = .error .valueError)) := by
  constructor
  · intro x hx
    cases x with
    | fin q =>
      have : q ≠ 0 := fun h => hx (by rw [h])
      simp only [Format.normalization, if_neg this]
    | _ => rfl
  · intro given hg
    have e : F.normalization rnd given buffers = (do
        let a ← F.decode (collect readBytes [] buffers)
        normalizationOf rnd a) := by
      rcases hg with rfl | rfl
      · rfl
      · simp only [Format.normalization, if_true]
    rw [e]
    constructor
    · intro frames hf hc
      rw [hc, decode_frames F hch frames hf]
      rfl
    · intro hm
      rw [(C71_misaligned F hch _).2 hm]
      rfl

/-- **C71.** The stream of a file whose buffers all decode is the one that C31, C32 and C52 are about,
for these decoded buffers. -/
theorem C71_is_audioStream (F : Format) (rnd : Rat → Flt) (bad : Flt → Int) (given : Option Flt)
    (analysed : List Rat) (n : Flt) (hn : chooseNormalization rnd given analysed = .ok n)
    (buffers : List (List U8)) (decoded : List (List Rat)) (hd : buffers.map F.decode = decoded.map .ok) :
    (F.stream rnd bad n buffers).2 = none ∧
    audioStream rnd bad given analysed (decoded.map fun a => a.map .fin) = .ok (F.stream rnd bad n buffers).1 := by
  have key : ∀ (buffers : List (List U8)) (decoded : List (List Rat)), buffers.map F.decode = decoded.map .ok →
      F.stream rnd bad n buffers =
        ((decoded.map fun a => a.map Flt.fin).flatMap fun a => a.map (quantise rnd bad n), none) := by
    intro buffers
    induction buffers with
    | nil =>
      intro decoded h
      cases decoded with
      | nil => rfl
      | cons a d => simp at h
    | cons b buffers ih =>
      intro decoded h
      cases decoded with
      | nil => simp at h
      | cons a d =>
        simp only [List.map_cons, List.cons.injEq] at h
        simp only [Format.stream, h.1, ih d h.2, List.map_cons, List.flatMap_cons, List.map_map, Function.comp_def]
  rw [key buffers decoded hd]
  refine ⟨rfl, ?_⟩
  simp only [audioStream, hn, bind, Except.bind, pure, Except.pure]

/-! ### Examples -/

/-- A stereo file at the rate of the stream. -/
def plainFormat : Format := ⟨2, id, id⟩

theorem plainFormat_resamples : Resamples plainFormat 14700 14700 :=
  ⟨fun a => by
    unfold resampledLength
    rw [mul_div_assoc, div_self (by norm_num), mul_one]
    show a.length = _
    have : ((a.length : Rat)).ceil = (a.length : Int) := by rw [ceil_eq]; exact Int.ceil_natCast a.length
    rw [this]
    rfl, fun _ _ => rfl⟩

/-- C71_mono, C71_same_rate: three frames in two buffers, left and right: 100 and -200, 3 and 4,
32767 and -32768. -/
example : GoodFrames 2 [[100, -200], [3, 4]] ∧ GoodFrames 2 [[32767, -32768]] ∧
    pcmBytes [[100, -200]] = [0x64, 0x00, 0x38, 0xff] ∧
    plainFormat.decode [0x64, 0x00, 0x38, 0xff, 0x03, 0x00, 0x04, 0x00] = .ok [-50, 7 / 2] := by
  refine ⟨by unfold GoodFrames; decide, by unfold GoodFrames; decide, by decide, ?_⟩
  have h := C71_mono plainFormat (by decide) [[100, -200], [3, 4]] (by unfold GoodFrames; decide)
  have e : pcmBytes [[100, -200], [3, 4]] = [0x64, 0x00, 0x38, 0xff, 0x03, 0x00, 0x04, 0x00] := by decide
  rw [e] at h
  rw [h]
  show Except.ok [id (((-100 : Int) : Rat) / ((2 : Nat) : Rat)), id (((7 : Int) : Rat) / ((2 : Nat) : Rat))] = _
  norm_num

/-- C71_count: buffers of 128 KiB of 16 bit stereo sound at 44100 Hz have 32768 frames, each gives
10923 samples instead of 10922 and two thirds. -/
example : resampledLength 44100 14700 32768 = 10923 := by
  unfold resampledLength
  have : ((32768 : Nat) : Rat) * 14700 / 44100 = 32768 / 3 := by norm_num
  rw [this, ceil_eq, show ⌈(32768 / 3 : Rat)⌉ = 10923 by rw [Int.ceil_eq_iff]; norm_num]
  rfl

/-- C71_count: the hypothesis on the resampler holds of one that repeats or drops samples. -/
example : Resamples ⟨2, id, fun a => (List.range (resampledLength 44100 14700 a.length)).map fun i => a.getD (3 * i) 0⟩ 44100 14700 :=
  ⟨fun a => by simp, fun h => absurd h (by norm_num)⟩

/-- C71_surround: six channels, buffers of 128 KiB and of 4 KiB. -/
example : (List.replicate 131072 (0 : U8)).length = 2 ^ 17 ∧ (List.replicate 131072 (0 : U8)).length % (2 * 6) ≠ 0 ∧
    (List.replicate 4096 (0 : U8)).length % (2 * 6) ≠ 0 := by
  simp only [List.length_replicate]; decide

end IIVision.Pcm
