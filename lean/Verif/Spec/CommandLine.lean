import Verif.Model.CommandLine

/-! The command line, as a user would describe it. -/

namespace IIVision.Spec

/-- How an option is written. -/
def Opt.word : Opt → Text
  | .help => txt "--help"
  | .output => txt "--output"
  | .maxMb => txt "--max_output_mb"
  | .normalization => txt "--audio_normalization"
  | .bitrate => txt "--audio_bitrate"
  | .everyN => txt "--every_n_video_frames"
  | .mode => txt "--video_mode"
  | .palette => txt "--palette"

/-- A spelling of an option: its name, or a beginning of it that no other option has. -/
def Spelling (p : Text) (o : Opt) : Prop := p <+: Opt.word o ∧ ∀ o', p <+: Opt.word o' → o' = o

/-- A minus sign and decimal digits, perhaps with a point that is followed by a digit (and perhaps a newline at the end). -/
def Negative (w : Text) : Prop :=
  ∃ a b nl, (∀ c ∈ a ++ b, 48 ≤ c ∧ c ≤ 57) ∧ (nl = [] ∨ nl = txt "\n") ∧
    (w = txt "-" ++ a ++ nl ∧ a ≠ [] ∨ w = txt "-" ++ a ++ txt "." ++ b ++ nl ∧ b ≠ [])

/-- Begins like an option that exists: `-h`, or `--` and (up to a `=`) a beginning of an option's name. -/
def OptionLike (w : Text) : Prop :=
  txt "-h" <+: w ∨ txt "--" <+: w ∧ ∃ o, w.takeWhile (· ≠ 61) <+: Opt.word o

/-- A word that stands for itself: no minus sign at the beginning, or the minus sign alone, or a negative number or a word with a blank that does not
begin like an option. -/
def PlainWord (w : Text) : Prop :=
  w.head? ≠ some 45 ∨ w = txt "-" ∨ ¬ OptionLike w ∧ (Negative w ∨ 32 ∈ w)

/-- What a command line consists of. -/
inductive CmdPart where
  | input (w : Text)
  | option (o : Opt) (v : Text)

/-- The words of a command line and its items: an option and its value are two words, or one with a `=`.  The input may have `--` before
it if it is the last word, or after it if that is the last word. -/
inductive Spells : List Text → List CmdPart → Prop
  | nil : Spells [] []
  | input {w : Text} {ws : List Text} {l : List CmdPart} (h : PlainWord w) (t : Spells ws l) : Spells (w :: ws) (.input w :: l)
  | separate {p v : Text} {o : Opt} {ws : List Text} {l : List CmdPart} (h : Spelling p o) (ho : o ≠ .help) (hv : PlainWord v) (t : Spells ws l) :
      Spells (p :: v :: ws) (.option o v :: l)
  | joined {p v : Text} {o : Opt} {ws : List Text} {l : List CmdPart} (h : Spelling p o) (ho : o ≠ .help) (t : Spells ws l) :
      Spells ((p ++ txt "=" ++ v) :: ws) (.option o v :: l)
  | dashes {w : Text} : Spells [txt "--", w] [.input w]
  | dashesAfter {w : Text} (h : PlainWord w) : Spells [w, txt "--"] [.input w]

/-- The values given for an option, in order. -/
def valuesOf (o : Opt) (l : List CmdPart) : List Text :=
  l.filterMap fun | .option o' v => if o' = o then some v else none | .input _ => none

/-- The inputs. -/
def inputsOf (l : List CmdPart) : List Text :=
  l.filterMap fun | .input w => some w | .option _ _ => none

/-- All values of an option can be read, and `x` is what the last of them stands for (`d` if there is none). -/
def Setting {α : Type} (l : List CmdPart) (o : Opt) (read : Text → Option α) (d x : α) : Prop :=
  (∀ v ∈ valuesOf o l, read v ≠ none) ∧ some x = match (valuesOf o l).getLast? with
    | none => some d
    | some v => read v

/-- What the items mean: one input, and the settings of the options. -/
structure Meaning (R : Reads) (l : List CmdPart) (c : Command) : Prop where
  input : inputsOf l = [c.input]
  output : Setting l .output (fun v => some (some v)) none c.output
  maxMb : Setting l .maxMb R.float (.fin 0) c.maxMb
  normalization : Setting l .normalization (fun v => (R.float v).map some) none c.normalization
  bitrate : Setting l .bitrate R.int 14700 c.bitrate
  everyN : Setting l .everyN R.int 2 c.everyN
  mode : Setting l .mode (fun v => if v = txt "HGR" then some .HGR else if v = txt "DHGR" then some .DHGR else none) .DHGR c.mode
  palette : Setting l .palette (fun v => if v = txt "IIGS" then some .IIGS else if v = txt "NTSC" then some .NTSC
    else if v = txt "UNKNOWN" then some .UNKNOWN else none) .NTSC c.palette

end IIVision.Spec
