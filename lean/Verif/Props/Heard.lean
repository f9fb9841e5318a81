import Verif.Proofs.Heard
import Verif.Props.Journey

/-! The speaker follows the sound of the input. -/

namespace IIVision
open Spec

/-- **C91.** One frame of sound: whatever 16 bit values its channels have, with a finite normalisation `N` the pulse that the transcoder selects for it and the player makes follows its level. -/
theorem C91_sample {rnd : Rat → Flt} (hr : Single rnd) {mean : Rat → Rat} (hm : Single fun x => .fin (mean x)) (bad : Flt → Int) {N : Rat} (hN : |N| ≤ 2 ^ 39) {f : List Int}
    (hf : ∀ v ∈ f, -32768 ≤ v ∧ v < 32768) :
    Follows (Player.pulseWidth (2 * quantise rnd bad (.fin N) (.fin (monoOf mean f)) + 34).toNat) (level N f) := by
  have hM := mean_range hf
  obtain ⟨m', e1, e2⟩ := hm (meanOf f) (le_trans hM (by norm_num))
  cases e1
  have hy : |N * meanOf f / 16384| ≤ 2 ^ 40 := by
    rw [abs_div, abs_mul, abs_of_pos (by norm_num : (0 : Rat) < 16384), div_le_iff₀ (by norm_num)]
    calc |N| * |meanOf f| ≤ 2 ^ 39 * 32768 := by gcongr
      _ ≤ _ := by norm_num
  obtain ⟨z, z1, z2⟩ := quantise_near hr bad e2 hM (le_trans hN (by norm_num)) hy
  exact pulse_follows z1 z2

/-- **C91.** The whole way (as in C81): if the sound of the input has the rate of the stream, the `i`-th tick of the player makes a pulse that follows the level of the `i`-th frame of the input, however it was cut
into buffers: within three cycles (of 73) while the level is at most 1, silence if it is below 1/16, and the longest or shortest pulse if it is too loud. -/
theorem C91_heard {H : Host} {argv : List Text} {fs : FS} {c : Command} {N : Rat} {tpf : Rat} (h : Starts H argv c (.fin N) tpf)
    (hs : Smooth H c (.fin N) fs) (hf : Separate H c) (ha : H.addr = playerAddr)
    {conv : List U8 → List U8 × List U8} (hconv : Converts (hostGrabber H c) conv)
    (hdbl : Double H.double) {n d b : Nat} (hrate : H.rate = .ok (decText n ++ txt "/" ++ decText d)) (hbit : c.bitrate = b) (hg : GoodRates n d b)
    (hlong : (hostSound H c (.fin N)).length ≤ 2 ^ 48)
    -- the sound
    {sound : List (List (List Int))} (hsound : H.buffers = sound.map pcmBytes) (hch : 0 < (H.format c.bitrate).channels)
    (hgood : ∀ x ∈ sound, GoodFrames (H.format c.bitrate).channels x) {rate : Rat} (hres : Resamples (H.format c.bitrate) rate rate)
    (hsingle : Single H.rnd) (hmean : Single fun x => .fin ((H.format c.bitrate).rnd x)) (hN : |N| ≤ 2 ^ 39)
    -- the way to the player
    {k : Nat} {p : Prog} (hrun : Running H argv fs k p) (hend : Still H argv fs p)
    {srv : Server} (hr : ServerRun [p.disk (outFilename c.output c.input)] srv) {client : Nat} (hcl : srv.status client = .done)
    {e : Player.Env} (he : e.file = srv.received client)
    (hD : e.Delivers) (hA : e.Answers) (hR : e.NeverRefuses) (hO : e.StaysOpen ∨ 8192 < e.file.length)
    {s : Player.Mach} (hm : Player.Started s) (hw : s.w.works = true) (hk : Player.PausesEnd e s) :
    ∃ (body : List Opcode) (s1 s2 : Player.Mach), s.Reaches e s1 ∧ Player.Executes e s1 body s2 ∧ s2.pc = playerAddr .terminate ∧
      ∀ i, i < (ticksOf false body).length → ∃ f w u u' done todo, sound.flatten[i]? = some f ∧ s1.Reaches e u ∧ u.Reaches e u' ∧ u'.Reaches e s2 ∧
        body = done ++ todo ∧ (ticksOf false done).length = i + 1 ∧ Player.Executes e s1 done u' ∧
        u'.cycles = u.cycles + 73 ∧ u'.clicks = u.clicks ++ [u.cycles + 4, u.cycles + 4 + w] ∧ Follows w (level N f) := by
  obtain ⟨t, calls, enc, steps, body, s1, s2, -, -, -, j1, -, j2, j3, j4, -, j5⟩ :=
    C81_journey h hs hf ha hconv hdbl hrate hbit hg hlong hrun hend hr hcl he hD hA hR hO hm hw hk
  refine ⟨body, s1, s2, j1, j2, j3, fun i hi => ?_⟩
  obtain ⟨st, hst⟩ : ∃ st, steps[i]? = some st := ⟨_, List.getElem?_eq_getElem (by omega)⟩
  obtain ⟨a, u, u', done, todo, d1, d2, d3, d4, d5, d6, d7, d8, d9, -⟩ := j5 i st hst
  have hq : hostSound H c (.fin N) = sound.flatten.map fun f => quantise H.rnd H.bad (.fin N) (.fin (monoOf (H.format c.bitrate).rnd f)) := by
    unfold hostSound
    rw [hsound, Pcm.C71_same_rate _ hch rate hres _ _ _ _ hgood]
  rw [hq, List.getElem?_map] at d1
  cases hfi : sound.flatten[i]? with
  | none => rw [hfi] at d1; cases d1
  | some f =>
    rw [hfi] at d1
    cases d1
    refine ⟨f, _, u, u', done, todo, rfl, d2, d3, d4, d5, d6, d7, d8, d9, C91_sample hsingle hmean _ hN ?_⟩
    obtain ⟨l, hl, hfl⟩ := List.mem_flatten.1 (List.mem_of_getElem? hfi)
    exact (hgood l hl f hfl).2

/-- What `Follows` says cannot be improved much: the pulse for a level just below 1/4 is almost three cycles too short, that for a level just above -1/16 almost two too long, and the first audible level is 1/16. -/
theorem C91_sharp : Player.pulseWidth (2 * quantise .fin x86Bad (.fin 1) (.fin (monoOf id [4095])) + 34).toNat = 39 ∧ 41.99 < idealPulse (level 1 [4095]) ∧
    Player.pulseWidth (2 * quantise .fin x86Bad (.fin 1) (.fin (monoOf id [-1023])) + 34).toNat = 34 ∧ idealPulse (level 1 [-1023]) < 32.01 ∧
    Player.pulseWidth (2 * quantise .fin x86Bad (.fin 1) (.fin (monoOf id [1024])) + 34).toNat = 36 ∧ level 1 [1024] = 1 / 16 := by
  refine ⟨by decide +kernel, ?_, by decide +kernel, ?_, by decide +kernel, ?_⟩ <;> norm_num [idealPulse, level, meanOf]

theorem single_exact : Single Flt.fin := by
  intro x _
  refine ⟨x, rfl, ?_⟩
  rw [sub_self, abs_zero]
  positivity

/-- C91_heard: the hypotheses about the sound, for the input of C81 (whose example shows the others together). -/
theorem demo_heard : demoHost.buffers = [[[8192], [0]], [[-8192], [0]]].map pcmBytes ∧ 0 < (demoHost.format 14700).channels ∧
    (∀ x ∈ [[[8192], [0]], [[-8192], [0]]], GoodFrames (demoHost.format 14700).channels x) ∧ Resamples (demoHost.format 14700) 14700 14700 ∧
    Single demoHost.rnd ∧ (Single fun x => .fin ((demoHost.format 14700).rnd x)) ∧ |(3 / 2 : Rat)| ≤ 2 ^ 39 := by
  refine ⟨by decide +kernel, by decide, ?_, ⟨fun a => ?_, fun _ a => rfl⟩, single_exact, single_exact, ?_⟩
  · intro x hx f hf
    simp only [List.mem_cons, List.not_mem_nil, or_false] at hx
    rcases hx with rfl | rfl <;> simp only [List.mem_cons, List.not_mem_nil, or_false] at hf <;> rcases hf with rfl | rfl <;>
      exact ⟨rfl, fun v hv => by simp only [List.mem_cons, List.not_mem_nil, or_false] at hv; subst hv; constructor <;> decide⟩
  · show a.length = resampledLength 14700 14700 a.length
    unfold resampledLength
    rw [mul_div_assoc, div_self (by norm_num), mul_one, show ((a.length : Nat) : Rat).ceil = ⌈((a.length : Nat) : Rat)⌉ from ceil_eq _, Int.ceil_natCast, Int.toNat_natCast]
  · rw [abs_of_pos (by norm_num)]; norm_num

end IIVision
