import Verif.Proofs.Cut
import Verif.Props.Connect
import Verif.Props.Buffered
import Verif.Props.Seen
import Verif.Props.Causal

/-! Claim C85: a file that has been cut off, for instance because the transcoder was killed. -/

namespace IIVision.Player
open Spec

theorem bankOf_ticks_congr (b : Bool) (l : List Played) (m m' : Mem × Mem) (h : bankOf m b = bankOf m' b) :
    bankOf (l.foldl playTick m) b = bankOf (l.foldl playTick m') b := by
  refine bankOf_fold _ b ?_ l m m' h
  intro m m' s h
  exact bankOf_fold _ b (fun m m' o h => bankOf_storeBank_congr b _ _ _ m m' o h) _ m m' h

theorem cut_screen {e : Env} {s s1 s2 : Mach} {mode : VideoMode} {body pre post : List Opcode} (hb : body = pre ++ post)
    (h1 : s1.sw = Switches.For mode s.sw) (h2 : Cleared s1.main) (h3 : mode = .DHGR → Cleared s1.aux) (h4 : Executes e s1 pre s2)
    (hacks : mode = .HGR → ∀ a, .ack a ∈ body → a = false) (b : Bool) (hmb : mode = .HGR → b = false) :
    s2.screen b = bankOf ((ticksOf false pre).foldl playTick blank) b := by
  have hpage : s1.sw.page2 = false := by rw [h1]; cases mode <;> rfl
  have key := executes_screens h4 (by
    cases hm : mode with
    | DHGR => left; rw [h1, hm]; exact ⟨rfl, rfl⟩
    | HGR => right; exact ⟨hpage, fun a ha => hacks hm a (by rw [hb]; exact List.mem_append_left _ ha)⟩)
  have e1 : s2.screen b = bankOf s2.screens b := by cases b <;> rfl
  rw [e1, key, hpage]
  refine bankOf_ticks_congr b _ _ _ (screens_cleared b ?_)
  cases b with
  | false => exact h2
  | true =>
    apply h3
    cases hm : mode with
    | DHGR => rfl
    | HGR => exact absurd (hmb hm) (by decide)

/-- **C85.** The file is the beginning of a stream, and ends before the block with TERMINATE is complete: see `CutOff`. -/
theorem C85_cut {e : Env} {s : Mach} {full : List U8} {mode : VideoMode} {body : List Opcode} (hp : Playable full mode body) (hf : e.file <+: full)
    (hcut : e.file.length < 2048 * ((7 + (bytesOf playerAddr body).length) / 2048) + 2048) (hc : Connected e s) : CutOff e s mode body := by
  have hw := waiting_of_connected hc
  have hi : Intact s.main := hw.intact
  have safe : ∀ n, SafeP e s 0 n := by
    intro n
    by_cases hl : e.file.length < 256
    · have hops : ∀ m s, Waiting e s → SafeP e s 0 m := by
        intro m
        induction m using Nat.strongRecOn with
        | _ m ih =>
          intro s h
          rcases waiting_hop h with ⟨s', a1, a2, -⟩ | ⟨s', a1, a2, -⟩
          · exact absurd a2.avail (by have := a2.ring.ring.file; omega)
          · exact safeP_trans a1.path fun j hj => ih j (by omega) s' a2
      exact hops n s hw
    · obtain ⟨hm, pre, post, -, -, -, hpart⟩ := partly_of hp hf hcut (by omega)
      have hops : ∀ m s, Waiting e s → SafeP e s 0 m := by
        intro m
        induction m using Nat.strongRecOn with
        | _ m ih =>
          intro s h
          rcases waiting_hop h with ⟨s', a1, a2, -⟩ | ⟨s', a1, a2, -⟩
          · obtain ⟨n2, t2, b1, b2, b3, -⟩ := boot_ready a2 hm
            refine safeP_trans (a1.path.trans0 b1) fun j _ => ?_
            rw [Nat.zero_add]
            exact safeP_phase j (.ready b2 (by rw [b3]) hpart)
          · exact safeP_trans a1.path fun j hj => ih j (by omega) s' a2
      exact hops n s hw
  refine ⟨fun n => ?_, fun hl => waiting_hung hw hl, fun hl hD hk => ?_⟩
  · obtain ⟨t, h1, h2⟩ := safe n
    obtain ⟨k, h3, h4⟩ := h2.log
    rw [Nat.zero_add] at h3
    have hlen := run_file n hc.ring.file h1
    refine ⟨t, h1, never_exits h1 (intact_startup h2.only hi) fun n => (safe n).imp fun _ h => h.1, h2.only, k, ?_, h3, by omega⟩
    rw [h4, hc.log, List.nil_append, bytes_eq (by omega), List.drop_zero]
  · obtain ⟨hm, pre, post, hpp, hshort, hlong, hpart⟩ := partly_of hp hf hcut hl
    obtain ⟨n1, t1, a1, a2, a3⟩ := waiting_live hD hl 256 hw (by omega)
    obtain ⟨n2, t2, b1, b2, b3, b4, b5, b6⟩ := boot_ready a2 hm
    have p2 := a1.path.trans0 b1
    have logs : ∀ (u : Mach) (k : Nat), u.w.log = s.w.log ++ e.bytes 0 k → k ≤ e.file.length → u.w.log = e.file.take k := by
      intro u k h hk
      rw [h, hc.log, List.nil_append, bytes_eq (by omega), List.drop_zero]
    have keys : ∀ {t : Mach} {n : Nat}, s.run e n = some t → ¬ (Paused e t ∧ ¬ NoKeys e s) := by
      rintro t n hr ⟨h1, h2⟩
      exact hk.elim (fun hk => h2 hk) fun hk => hk t ⟨n, hr⟩ h1
    by_cases hpre : pre = []
    · subst hpre
      have hsh := partly_nil_short hpart
      have hlen : e.file.length < 2048 := by omega
      obtain ⟨q1, q2⟩ := ready_hung b2 (by rw [b3]; omega)
      refine ⟨[], post, t2, t2, hpp, hshort, hlong, ⟨_, p2.run⟩, by rw [b4, a3.sw], b5, b6, .nil _, q1, q2, ?_, ?_⟩
      · unfold readOf
        rw [if_neg (by omega), if_pos hlen]
        exact logs _ _ p2.log (by omega)
      · exact fun hacks b hmb => cut_screen (e := e) (s := s) hpp (by rw [b4, a3.sw]) b5 b6 (.nil _) hacks b hmb
    · rcases partly_live hD b2 (by rw [b3]) hpart hpre with ⟨n3, t3, c1, c2, c3⟩ | ⟨n3, t3, c1, c2, c3⟩
      · have p3 := p2.trans (by rw [Nat.zero_add]; exact c1.path)
        have m1 : t3.sw = Switches.For mode s.sw := by rw [c3.sw, b4, a3.sw]
        have m2 := (cleared_same c3.mem).1 b5
        have m3 : mode = .DHGR → Cleared t3.aux := fun h => (cleared_same c3.mem).2 (b6 h)
        rcases partly_ops hD pre c2 with ⟨n4, k, t4, P', d1, d2, d3, d4, d5, d6, d7⟩ | ⟨n4, k, t4, d1, d2, d3⟩
        · have p4 := p3.trans (by rw [Nat.zero_add]; exact d1.path)
          have hsh := partly_nil_short d5
          obtain ⟨q1, q2⟩ := ready_hung d3 (by rw [d4]; exact hsh)
          have hlen : 2048 ≤ e.file.length := by
            cases pre with
            | nil => exact absurd rfl hpre
            | cons op ops => have := partly_block hpart; omega
          have hpl := hlong hlen
          refine ⟨pre, post, t3, t4, hpp, hshort, hlong, ⟨_, p3.run⟩, m1, m2, m3, d2, q1, q2, ?_, ?_⟩
          · unfold readOf
            rw [if_neg (by omega), if_neg (by omega)]
            have : 7 + 2 + k = 2048 * (e.file.length / 2048) := by omega
            rw [← this]
            exact logs _ _ p4.log (by omega)
          · exact fun hacks b hmb => cut_screen hpp m1 m2 m3 d2 hacks b hmb
        · exact absurd ⟨d2, fun h => d3 (nokeys_run _ h p3.run)⟩ (keys (p3.trans (by rw [Nat.zero_add]; exact d1.path)).run)
      · exact absurd ⟨c2, fun h => c3 (nokeys_run _ h p2.run)⟩ (keys (p2.trans (by rw [Nat.zero_add]; exact c1.path)).run)

/-- **C85.** If only padding has been cut off, and whole blocks of it, the file is as good as the whole stream. -/
theorem C85_padding {file full : List U8} {mode : VideoMode} {body : List Opcode} (hp : Playable full mode body) (hf : file <+: full)
    (hw : file.length % 2048 = 0) (hl : 2048 * ((7 + (bytesOf playerAddr body).length) / 2048) + 2048 ≤ file.length) : Playable file mode body := by
  obtain ⟨pad, hb⟩ := hp.bytes
  refine ⟨hp.ops, ?_, hw, hp.acks, hp.others⟩
  have h1 := hp.others body .terminate [] rfl (fun a => by simp)
  have h2 : (Opcode.terminate.emit playerAddr).length = 2 := rfl
  have hlen : (bytesOf playerAddr (.header mode :: body ++ [.terminate])).length = 9 + (bytesOf playerAddr body).length := by
    unfold bytesOf
    rw [List.flatMap_append, List.flatMap_cons, List.length_append, List.length_append]
    have : (Opcode.emit playerAddr (.header mode)).length = 7 := rfl
    rw [this]
    show 7 + _ + 2 = _
    omega
  have hpre : (bytesOf playerAddr (.header mode :: body ++ [.terminate])).map (BitVec.ofNat 8) <+: file := by
    refine List.prefix_of_prefix_length_le (l₃ := full) ⟨pad.map (BitVec.ofNat 8), by rw [hb, List.map_append]⟩ hf ?_
    rw [List.length_map, hlen]
    omega
  obtain ⟨rest, hr⟩ := hpre
  refine ⟨rest.map BitVec.toNat, ?_⟩
  rw [← hr, List.map_append, List.map_map]
  congr 1
  conv => lhs; rw [← List.map_id rest]
  refine List.map_congr_left fun x _ => ?_
  simp

end IIVision.Player

namespace IIVision
open Spec

/-- **C85.** The transcoder is killed, or fails, at any moment, with the input and the other programs as in C80; the file it leaves is served to the player:
unless it has everything up to TERMINATE, the player does with it what is said in `CutOff`, for the stream the transcoder would have written.  If it has,
and the operating system takes whole buffers of a multiple of 2048 bytes and the loop was not over, the player can play it to the end. -/
theorem C85_killed {H : Host} {argv : List Text} {fs : FS} {c : Command} {norm : Flt} {tpf : Rat} (h : Starts H argv c norm tpf)
    (hs : Smooth H c norm fs) (hf : Separate H c) (ha : H.addr = playerAddr) {size : Nat} (hz : 0 < size) (dev : Device) :
    ∃ t ops bytes body, c.mode.loadEditDistances H.files c.palette = .ok t ∧
      (hostMovie H c tpf t).stream H.tape (hostSound H c norm) (wholeVideo (hostGrabber H c) fs).1 = .ok (ops, bytes) ∧
      ops = .header c.mode :: body ++ [.terminate] ∧ (c.mode = .HGR → ∀ a, .ack a ∈ body → a = false) ∧
      ∀ n s, Working H argv fs size dev n s → ∃ d, s.prog.disk (outFilename c.output c.input) = some d ∧
        (∀ (e : Player.Env) (m : Player.Mach), e.file = d → Player.Connected e m →
          d.length < 2048 * ((7 + (bytesOf playerAddr body).length) / 2048) + 2048 → Player.CutOff e m c.mode body) ∧
        (Generous size dev → 2048 ∣ size → s.over = false → 2048 ∣ d.length ∧
          (2048 * ((7 + (bytesOf playerAddr body).length) / 2048) + 2048 ≤ d.length → Player.Playable d c.mode body)) := by
  have ha' : ∀ x, H.addr x < 65536 := by rw [ha]; exact player_small
  obtain ⟨t, ops, bytes, h1, hin, h2, -⟩ := C80_good h hs hf ha'
  obtain ⟨body, b1, b2, b3⟩ := Player.playable_of_stream hin ha h2
  refine ⟨t, ops, bytes, body, h1, h2, b1, b3, fun n s hw => ?_⟩
  obtain ⟨t', ops', bytes', B, g1, g2, -, g3⟩ := C84_good h hs hf ha' hz dev
  cases h1.symm.trans g1
  have hb : bytes' = bytes := congrArg Prod.snd (Except.ok.inj (g2.symm.trans h2))
  subst hb
  obtain ⟨-, d, d1, d2, -⟩ := g3 n s hw
  have hpre : d <+: bytes'.map (BitVec.ofNat 8) := by
    obtain ⟨r, hr⟩ := d2
    refine ⟨r.map (BitVec.ofNat 8), ?_⟩
    rw [← hr, List.map_append]
    congr 1
    unfold numbers
    rw [List.map_map]
    conv => lhs; rw [← List.map_id d]
    refine List.map_congr_left fun x _ => ?_
    simp
  refine ⟨d, d1, fun e m he hc hl => ?_, fun hg hdiv ho => ?_⟩
  · exact Player.C85_cut b2 (by rw [he]; exact hpre) (by rw [he]; exact hl) hc
  · obtain ⟨P, s0, v, hl, -⟩ := starts_launch (fs := fs) h
    obtain ⟨hG, hN, -⟩ := good_plain h hs hf ha' hl
    obtain ⟨d', e1, e2, -⟩ := C84_blocks hl ha' (by rw [hG, hN]; exact hf.blind) (by rw [hG, hN]; exact hf.name) (by rw [hG]; exact hf.tool) hz hg hw ho
    rw [hN] at e1
    cases d1.symm.trans e1
    have hd := Nat.dvd_trans hdiv e2
    exact ⟨hd, fun hle => Player.C85_padding b2 hpre (by omega) hle⟩

/-! ### The hypotheses can be met -/

theorem ticks_bytes (addr : AddrTable) (l : List Opcode) (hl : ∀ op ∈ l, BodyOp op) : ∀ b, 7 * (ticksOf b l).length ≤ (bytesOf addr l).length := by
  induction l with
  | nil => intro b; exact Nat.zero_le _
  | cons op l ih =>
    intro b
    have hb : (bytesOf addr (op :: l)).length = (op.emit addr).length + (bytesOf addr l).length := by
      unfold bytesOf
      rw [List.flatMap_cons, List.length_append]
    rw [hb]
    have ih := ih fun op ho => hl op (List.mem_cons_of_mem _ ho)
    have h0 := hl op List.mem_cons_self
    cases op with
    | tick t p c os =>
      have := ih b
      have h7 : 7 ≤ (Opcode.emit addr (.tick t p c os)).length := by
        have h0 : os.length = 4 := h0
        simp [Opcode.emit, Opcode.emitCommand, Opcode.emitData, h0]
      show 7 * ((ticksOf b l).length + 1) ≤ _
      omega
    | ack a => exact Nat.le_trans (ih a) (Nat.le_add_left _ _)
    | nop => exact Nat.le_trans (ih b) (Nat.le_add_left _ _)
    | header m => exact Nat.le_trans (ih b) (Nat.le_add_left _ _)
    | terminate => exact Nat.le_trans (ih b) (Nat.le_add_left _ _)

/-- A movie with at least 1000 samples: whatever number of bytes below 7000 is left of its stream, C85_cut applies to it, with a network that delivers. -/
theorem demo_cut : ∃ full body, Player.Playable full .DHGR body ∧ 7000 ≤ (bytesOf playerAddr body).length ∧
    ∀ n, n < 7000 → (full.take n).length = n ∧
      ∃ (e : Player.Env) (s : Player.Mach), e.file = full.take n ∧ e.Delivers ∧ Player.NoKeys e s ∧ Player.CutOff e s .DHGR body := by
  have hin : MovieInput { sampleMovie with limit := 0, addr := playerAddr } (List.replicate 1000 0) (List.replicate 1000 ⟨stripesFrame.main, stripesFrame.aux⟩) := by
    have h := sample_input 1000 (List.replicate 1000 0) (fun a ha => by rw [List.eq_of_mem_replicate ha]; decide)
    exact ⟨h.stride, h.limit, h.thr0, h.audio, h.frames⟩
  obtain ⟨body0, bytes, -, -, -, h1, -⟩ := movie_facts _ _ _ hin (fun _ => 0)
  have ht : (ticksOf false (Opcode.header VideoMode.DHGR :: body0 ++ [.terminate])).length = 1000 := by
    rcases (C28_audio _ _ _ hin ⟨rfl, fun k => by show 490 * k + 1 ≤ 490 * (k + 1); omega⟩ _ _ bytes h1).2 with h | ⟨h, h2⟩ | ⟨h, -⟩
    · rw [List.length_replicate] at h
      exact h
    · rw [List.length_replicate] at h2
      unfold due at h2
      rw [List.length_replicate] at h
      have h2 : 490 * 1000 = _ := h2
      omega
    · exact absurd rfl h
  obtain ⟨body, h2, h3, -⟩ := Player.playable_of_stream hin rfl h1
  have hbody : body = body0 := by
    have h2 : body0 ++ [Opcode.terminate] = body ++ [.terminate] := List.tail_eq_of_cons_eq h2
    exact (List.append_cancel_right h2).symm
  subst hbody
  have hlen : 7000 ≤ (bytesOf playerAddr body).length := by
    have e1 : (ticksOf false body).length = 1000 := by
      rw [← ht]
      have : ∀ b (l : List Opcode), (ticksOf b (l ++ [.terminate])).length = (ticksOf b l).length := by
        intro b l
        induction l generalizing b with
        | nil => rfl
        | cons op l ih => cases op <;> first | exact ih _ | exact congrArg (· + 1) (ih _)
      exact (this false body).symm
    have := ticks_bytes playerAddr body h3.ops false
    omega
  refine ⟨_, body, h3, hlen, fun n hn => ?_⟩
  generalize bytes.map (BitVec.ofNat 8) = full at h3
  have hfull : 7000 ≤ full.length := by
    obtain ⟨pad, hb⟩ := h3.bytes
    rw [hb, List.length_map]
    unfold bytesOf at hlen ⊢
    rw [List.flatMap_append, List.flatMap_cons]
    simp only [List.length_append]
    omega
  refine ⟨by rw [List.length_take]; omega, Player.sampleEnv (full.take n) fun _ => 1, _, rfl, fun t => ⟨t, Nat.le_refl _, Nat.one_pos⟩,
    ?_, Player.C85_cut h3 (List.take_prefix _ _) ?_ (Player.sample_connected _)⟩
  · exact ⟨(by decide : (0#8).getLsbD 7 = false), fun _ _ => rfl⟩
  · show (full.take n).length < _
    rw [List.length_take]
    omega

/-- C85_killed: a transcoder that is killed before anything has been written: the player waits forever for a header. -/
example : ∃ s, Working demoHost demoWords (fun _ => none) 4096 (fun _ => .ok 4095) 0 s ∧ s.prog.disk (txt "v.a2m") = some [] ∧
    Player.Hung (Player.sampleEnv [] fun _ => 1) (Player.sampleMach (Player.sym .waitReadHeader) (Player.sampleChip [] 0 0x403)) := by
  obtain ⟨t, ops, bytes, body, -, -, -, -, h⟩ := C85_killed demo_starts demo_smooth demo_separate rfl (by decide : 0 < 4096) (fun _ => .ok 4095)
  obtain ⟨-, -, -, -, -, -, ⟨s, h0⟩, -⟩ := C84_good demo_starts demo_smooth demo_separate player_small (by decide : 0 < 4096) (fun _ => .ok 4095)
  obtain ⟨d, d1, d2, -⟩ := h 0 s h0
  have hd : d = [] := by
    obtain ⟨P, s0, v, hl, -⟩ := starts_launch (fs := fun _ => none) demo_starts
    obtain ⟨-, hN, -⟩ := good_plain demo_starts demo_smooth demo_separate player_small hl
    obtain ⟨-, x, e1, -⟩ := launch_begins hl player_small
    obtain ⟨P', s0', hl', hst⟩ := h0
    cases hl.symm.trans hl'
    cases hst
    have : (Session.start s0).prog.disk P.name = some [] := by
      rw [e1]
      exact if_pos rfl
    rw [hN] at this
    exact Option.some.inj (d1.symm.trans this)
  subst hd
  have hcut := d2 (Player.sampleEnv [] fun _ => 1) _ rfl (Player.sample_connected _) (by show 0 < _; omega)
  exact ⟨s, h0, d1, hcut.short (by decide)⟩

end IIVision
