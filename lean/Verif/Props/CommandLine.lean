import Verif.Proofs.CommandLine

/-! Claim C77: which command lines are accepted, and what they stand for. -/

namespace IIVision
open Spec (Spelling PlainWord OptionLike Negative CmdPart Spells valuesOf inputsOf Setting Meaning)

/-- C77. Whatever the words are and whatever `float` and `int` accept: the program goes to work with the settings `c` if and only if the words
spell parts that mean `c` — one input, and options with values that can be read, the last one of each counting and the documented value
standing for a missing one. -/
theorem C77_command_line (R : Reads) (argv : List Text) (c : Command) :
    parseArgs R argv = .ok c ↔ ∃ l, Spells argv l ∧ Meaning R l c := by
  constructor
  · intro h
    unfold parseArgs at h
    cases ht : tokens argv with
    | error e => rw [ht] at h; cases h
    | ok toks =>
      rw [ht] at h
      cases hc : consume R toks {} with
      | error e => simp only [bind, Except.bind, hc] at h; cases h
      | ok s =>
        simp only [bind, Except.bind, hc] at h
        split at h
        · cases h
        · rename_i inp hi
          split at h
          · cases h
          · rename_i hx
            cases h
            have he : s.extras = false := by simpa using hx
            obtain ⟨l, hsp, ha⟩ := consume_items _ argv (Nat.le_refl _) ht hc he
            have := (applyItems_iff (spells_no_help hsp) rfl).1 ⟨ha, he⟩
            obtain ⟨-, h1, h2, h3, h4, h5, h6, h7, h8⟩ := this
            rw [readPalette_eq] at h8
            refine ⟨l, hsp, ?_, h2, h3, h4, h5, h6, h7, h8⟩
            rw [hi] at h1
            exact h1
  · rintro ⟨l, hsp, h1, h2, h3, h4, h5, h6, h7, h8⟩
    rw [← readPalette_eq] at h8
    have hS : Settings R l {} { input := some c.input, output := c.output, maxMb := c.maxMb, normalization := c.normalization, bitrate := c.bitrate, everyN := c.everyN, mode := c.mode, palette := c.palette } := ⟨h1, h2, h3, h4, h5, h6, h7, h8⟩
    have := (applyItems_iff (spells_no_help hsp) rfl).2 ⟨rfl, hS⟩
    obtain ⟨toks, ht, hc⟩ := items_consume hsp this.1 this.2
    unfold parseArgs
    rw [ht]
    simp only [bind, Except.bind, hc]
    rfl

theorem parseOptional_error {w : Text} {e : Exit} (h : parseOptional w = .error e) : e = .usage := by
  unfold parseOptional at h
  repeat' split at h
  all_goals first
    | (cases h; rfl)
    | cases h

theorem tokens_error {argv : List Text} {e : Exit} (h : tokens argv = .error e) : e = .usage := by
  induction argv with
  | nil => simp [tokens] at h
  | cons w ws ih =>
    by_cases hw : w = txt "--"
    · rw [tokens, if_pos hw] at h; cases h
    · rw [tokens_cons hw] at h
      split at h
      · cases h
      · rename_i h1; cases h; exact parseOptional_error h1
      · rename_i h1; cases h; exact ih h1

theorem store_error {R : Reads} {s : Parsing} {v : Text} {o : Opt} (ho : o ≠ .help) {e : Exit} (h : s.store R v o = .error e) : e = .usage := by
  unfold Parsing.store at h
  split at h
  · exact absurd rfl ho
  · cases h
  all_goals
    (repeat' split at h)
    all_goals first
      | (cases h; rfl)
      | cases h

theorem tokens_mem {argv : List Text} {l : List Tok} (h : tokens argv = .ok l) {t : OptTuple} (ht : .opt t ∈ l) :
    ∃ w ∈ argv, parseOptional w = .ok (some t) := by
  induction argv generalizing l with
  | nil => simp only [tokens] at h; cases h; cases ht
  | cons w ws ih =>
    rcases tokens_cons_ok h with ⟨rfl, rfl⟩ | ⟨hw, t', l', h1, h2, rfl⟩
    · simp at ht
    · rcases List.mem_cons.1 ht with ht | ht
      · cases t' with
        | none => cases ht
        | some t' => cases ht; exact ⟨w, by simp, h1⟩
      · obtain ⟨w', hm, hp⟩ := ih h2 ht
        exact ⟨w', by simp [hm], hp⟩

/-- Help is given only where an option asks for it. -/
theorem consume_help {R : Reads} : ∀ (n : Nat) (l : List Tok), l.length ≤ n → ∀ {s : Parsing}, consume R l s = .error .help →
    ∃ st x, .opt ⟨some .help, st, x⟩ ∈ l ∧ (x = none ∨ st[1]? ≠ some 45)
  | _, [], _, s, h => by rw [consume] at h; cases h
  | n + 1, .arg w :: l, hl, s, h => by
    rw [consume_arg] at h
    simp only [List.length_cons] at hl
    obtain ⟨st, x, hm, hx⟩ := consume_help n _ (by
      split
      · simp only [List.length_cons] at hl; omega
      · omega) h
    refine ⟨st, x, List.mem_cons_of_mem _ ?_, hx⟩
    split at hm
    · exact List.mem_cons_of_mem _ hm
    · exact hm
  | n + 1, .dashes :: .arg w :: l, hl, s, h => by
    simp only [List.length_cons] at hl
    rw [consume] at h
    split at h
    · obtain ⟨st, x, hm, hx⟩ := consume_help n l (by omega) h
      exact ⟨st, x, by simp [hm], hx⟩
    · obtain ⟨st, x, hm, hx⟩ := consume_help n l (by omega) h
      exact ⟨st, x, by simp [hm], hx⟩
  | n + 1, [.dashes], hl, s, h => by simp only [consume] at h; cases h
  | n + 1, .dashes :: .dashes :: l, hl, s, h => by
    simp only [List.length_cons] at hl
    rw [consume] at h
    · obtain ⟨st, x, hm, hx⟩ := consume_help n _ (by simp only [List.length_cons]; omega) h
      exact ⟨st, x, List.mem_cons_of_mem _ hm, hx⟩
    · simp
  | n + 1, .dashes :: .opt t :: l, hl, s, h => by
    simp only [List.length_cons] at hl
    rw [consume] at h
    · obtain ⟨st, x, hm, hx⟩ := consume_help n _ (by simp only [List.length_cons]; omega) h
      exact ⟨st, x, List.mem_cons_of_mem _ hm, hx⟩
    · simp
  | n + 1, .opt ⟨none, _, _⟩ :: l, hl, s, h => by
    simp only [List.length_cons] at hl
    rw [consume] at h
    obtain ⟨st, x, hm, hx⟩ := consume_help n l (by omega) h
    exact ⟨st, x, List.mem_cons_of_mem _ hm, hx⟩
  | n + 1, .opt ⟨some o, st, x⟩ :: l, hl, s, h => by
    simp only [List.length_cons] at hl
    by_cases ho : o = .help
    · subst ho
      refine ⟨st, x, List.mem_cons_self, ?_⟩
      cases x with
      | none => exact .inl rfl
      | some x =>
        obtain ⟨b, e⟩ := x
        rw [consume] at h
        right
        intro hd
        rw [if_pos hd] at h
        cases h
    · cases x with
      | some x =>
        obtain ⟨b, e⟩ := x
        rw [consume_opt_some R o st e b l s ho] at h
        split at h
        · obtain ⟨st, x, hm, hx⟩ := consume_help n l (by omega) h
          exact ⟨st, x, List.mem_cons_of_mem _ hm, hx⟩
        · rename_i e1 h1; cases h; cases store_error ho h1
      | none =>
        match l, hl with
        | [], _ => cases o <;> first | exact absurd rfl ho | (simp only [consume] at h; cases h)
        | .dashes :: l, _ => cases o <;> first | exact absurd rfl ho | (simp only [consume] at h; cases h)
        | .opt t :: l, _ => cases o <;> first | exact absurd rfl ho | (simp only [consume] at h; cases h)
        | .arg v :: l, hl =>
          simp only [List.length_cons] at hl
          rw [consume_opt_none R o st v l s ho] at h
          split at h
          · obtain ⟨st, x, hm, hx⟩ := consume_help n l (by omega) h
            exact ⟨st, x, by simp [hm], hx⟩
          · rename_i e1 h1; cases h; cases store_error ho h1

/-- C77, second part. The program ends with the help text only if a word asks for it: one that begins with `-h`, or `--help` or a beginning of it that no
other option has.  (Everything else that is not accepted ends in the usage message.) -/
theorem C77_help {R : Reads} {argv : List Text} (h : parseArgs R argv = .error .help) :
    ∃ w ∈ argv, txt "-h" <+: w ∨ Spelling w .help := by
  unfold parseArgs at h
  cases ht : tokens argv with
  | error e =>
    rw [ht] at h
    cases h
    cases tokens_error ht
  | ok toks =>
    rw [ht] at h
    cases hc : consume R toks {} with
    | error e =>
      simp only [bind, Except.bind, hc] at h
      cases h
      obtain ⟨st, x, hm, hx⟩ := consume_help _ toks (Nat.le_refl _) hc
      obtain ⟨w, hw, hp⟩ := tokens_mem ht hm
      refine ⟨w, hw, ?_⟩
      rcases parse_option hp with ⟨-, h⟩ | ⟨-, h⟩ | ⟨e, s', p, rfl, rfl, -, -⟩
      · exact .inl h
      · exact .inr h
      · rcases hx with hx | hx
        · cases hx
        · exact absurd rfl hx
    | ok s =>
      simp only [bind, Except.bind, hc] at h
      split at h
      · cases h
      · split at h <;> cases h

theorem tokens_plain {ws : List Text} (h : ∀ x ∈ ws, PlainWord x ∨ ∃ o, Spelling x o) : ∃ l, tokens ws = .ok l := by
  induction ws with
  | nil => exact ⟨[], rfl⟩
  | cons w ws ih =>
    obtain ⟨l, hl⟩ := ih fun x hx => h x (List.mem_cons_of_mem _ hx)
    rcases h w List.mem_cons_self with hp | ⟨o, ho⟩
    · exact ⟨_, by rw [tokens_cons (plain_ne_dashes hp), (plain_iff w).1 hp, hl]⟩
    · obtain ⟨st, hs⟩ := spelled_parse ho
      exact ⟨_, by rw [tokens_cons (spelling_ne_dashes ho), hs, hl]⟩

theorem consume_helped (R : Reads) (o : Text) (l : List Tok) (pre : List Text) : ∀ s, consume R (pre.map .arg ++ .opt ⟨some .help, o, none⟩ :: l) s = .error .help := by
  induction pre with
  | nil => intro s; simp [consume]
  | cons w pre ih =>
    intro s
    rw [List.map_cons, List.cons_append, consume_arg]
    cases pre with
    | nil => exact ih _
    | cons v pre => exact ih _

/-- C77, third part. `-h`, or a spelling of `--help`, after any number of words that are not options (and before words that are not options, or are spellings of options) ends the program with the help text, whether or not the other words make sense. -/
theorem C77_helped (R : Reads) {pre rest : List Text} {w : Text} (hpre : ∀ x ∈ pre, PlainWord x) (hw : w = txt "-h" ∨ Spelling w .help)
    (hrest : ∀ x ∈ rest, PlainWord x ∨ ∃ o, Spelling x o) : parseArgs R (pre ++ w :: rest) = .error .help := by
  obtain ⟨l, hl⟩ := tokens_plain hrest
  have hh : ∃ st, tokens (w :: rest) = .ok (.opt ⟨some .help, st, none⟩ :: l) := by
    rcases hw with rfl | hw
    · refine ⟨txt "-h", ?_⟩
      rw [tokens_cons (by decide), show parseOptional (txt "-h") = .ok (some ⟨some .help, txt "-h", none⟩) from rfl, hl]
    · obtain ⟨st, hs⟩ := spelled_parse hw
      exact ⟨st, by rw [tokens_cons (spelling_ne_dashes hw), hs, hl]⟩
  obtain ⟨st, hh⟩ := hh
  have ht : tokens (pre ++ w :: rest) = .ok (pre.map .arg ++ .opt ⟨some .help, st, none⟩ :: l) := by
    induction pre with
    | nil => exact hh
    | cons v pre ih =>
      have hv := hpre v List.mem_cons_self
      rw [List.cons_append, tokens_cons (plain_ne_dashes hv), (plain_iff v).1 hv, ih fun x hx => hpre x (List.mem_cons_of_mem _ hx)]
      rfl
  unfold parseArgs
  rw [ht]
  simp only [bind, Except.bind]
  rw [consume_helped]

/-- Values for the examples: only these can be read. -/
def demoReads : Reads where
  float v := if v = txt "1.5" then some (.fin (3 / 2)) else if v = txt "-1" then some (.fin (-1)) else none
  int v := if v = txt "3" then some 3 else if v = txt "22500" then some 22500 else none

def demoCommand : Command := ⟨txt "movie.mp4", none, .fin 0, none, 14700, 2, .DHGR, .NTSC⟩

/-- Only the input: the defaults. -/
example : parseArgs demoReads [txt "movie.mp4"] = .ok demoCommand := by rfl

/-- Abbreviations, both ways to write a value, and the last value counts. -/
example : parseArgs demoReads [txt "--vi", txt "DHGR", txt "--audio_b=22500", txt "movie.mp4", txt "--video_mode=HGR", txt "--max", txt "1.5"] =
    .ok { demoCommand with mode := .HGR, bitrate := 22500, maxMb := .fin (3 / 2) } := by rfl

/-- The words of that command line spell what the specification says. -/
example : Spells [txt "--audio_b=22500", txt "movie.mp4", txt "--max", txt "-1"]
    [.option .bitrate (txt "22500"), .input (txt "movie.mp4"), .option .maxMb (txt "-1")] := by
  refine .joined (p := txt "--audio_b") (v := txt "22500") ⟨by decide, fun o => by cases o <;> decide⟩ (by decide) ?_
  refine .input (.inl (by decide)) ?_
  refine .separate ⟨by decide, fun o => by cases o <;> decide⟩ (by decide) ?_ .nil
  exact (plain_iff _).2 rfl

/-- A negative limit is accepted, with or without `=`. -/
example : parseArgs demoReads [txt "movie.mp4", txt "--max_output_mb", txt "-1"] = .ok { demoCommand with maxMb := .fin (-1) } := by rfl

/-- A defect: the palette UNKNOWN, a placeholder in palette.py, is among the choices. -/
example : parseArgs demoReads [txt "--palette", txt "UNKNOWN", txt "movie.mp4"] = .ok { demoCommand with palette := .UNKNOWN } := by rfl

/-- Not accepted: no input, two inputs, an ambiguous option, a value that cannot be read (even if a later one can), a negative number in a form that
looks like an option. -/
example : parseArgs demoReads [] = .error .usage := by rfl
example : parseArgs demoReads [txt "a.mp4", txt "b.mp4"] = .error .usage := by rfl
example : parseArgs demoReads [txt "a.mp4", txt "--audio", txt "3"] = .error .usage := by rfl
example : parseArgs demoReads [txt "a.mp4", txt "--every=x", txt "--every=3"] = .error .usage := by rfl
example : parseArgs demoReads [txt "a.mp4", txt "--output", txt "-x.a2m"] = .error .usage := by rfl

/-- An input with a dash at the beginning needs the two dashes. -/
example : parseArgs demoReads [txt "-a.mp4"] = .error .usage := by rfl
example : parseArgs demoReads [txt "--", txt "-a.mp4"] = .ok { demoCommand with input := txt "-a.mp4" } := by rfl

/-- Help, and C77_helped for it. -/
example (R : Reads) : parseArgs R [txt "a.mp4", txt "b.mp4", txt "--hel", txt "--output"] = .error .help :=
  C77_helped R (pre := [txt "a.mp4", txt "b.mp4"]) (rest := [txt "--output"])
    (fun x hx => (plain_iff x).2 (by
      rcases List.mem_cons.1 hx with rfl | hx
      · rfl
      · rcases List.mem_cons.1 hx with rfl | hx
        · rfl
        · cases hx))
    (.inr ⟨by decide, fun o' h => by cases o' <;> first | rfl | exact absurd h (by decide)⟩)
    (fun x hx => by
      rcases List.mem_cons.1 hx with rfl | hx
      · exact .inr ⟨.output, by decide, fun o' h => by cases o' <;> first | rfl | exact absurd h (by decide)⟩
      · cases hx)
example : parseArgs demoReads [txt "a.mp4", txt "--he"] = .error .help := by rfl
example : parseArgs demoReads [txt "-hx"] = .error .help := by rfl

end IIVision
