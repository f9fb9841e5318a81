import Verif.Model.Program

/-! Model of the command line (main.py:9-42): the options the program declares and what CPython's
`argparse` (3.11, `ArgumentParser.parse_args`) makes of the words.

`argparse` works with indices into the list of words; here the words still to come are a list.  What `float` and `int`
accept is a parameter.  In the test for negative numbers `\d` is an ASCII digit.  Error messages are not modelled. -/

namespace IIVision

/-- The declared options (main.py:11-42; `help` is added by argparse). -/
inductive Opt where
  | help | output | maxMb | normalization | bitrate | everyN | mode | palette
  deriving DecidableEq, Repr

/-- `parser._option_string_actions` (main.py:11-42), in order of declaration. -/
def optionStrings : List (Text × Opt) :=
  [(txt "-h", .help), (txt "--help", .help), (txt "--output", .output), (txt "--max_output_mb", .maxMb),
   (txt "--audio_normalization", .normalization), (txt "--audio_bitrate", .bitrate),
   (txt "--every_n_video_frames", .everyN), (txt "--video_mode", .mode), (txt "--palette", .palette)]

/-- How the program ends instead of running: `--help` (status 0), or a usage message (status 2). -/
inductive Exit where
  | help | usage
  deriving DecidableEq, Repr

/-- The namespace that `parse_args` returns. -/
structure Command where
  input : Text
  output : Option Text
  maxMb : Flt
  normalization : Option Flt
  bitrate : Int
  everyN : Int
  mode : VideoMode
  palette : Palette
  deriving DecidableEq

/-- `float` and `int` on texts: `none` is a ValueError. -/
structure Reads where
  float : Text → Option Flt
  int : Text → Option Int

/-- The namespace while parsing: the values of the options (main.py:13-40 defaults), the input if there has been one, and whether there
were words that could not be used (`extras`). -/
structure Parsing where
  input : Option Text := none
  extras : Bool := false
  output : Option Text := none
  maxMb : Flt := .fin 0
  normalization : Option Flt := none
  bitrate : Int := 14700
  everyN : Int := 2
  mode : VideoMode := .DHGR
  palette : Palette := .NTSC

/-- What `_parse_optional` returns for a word that is taken for an option: the action (`none` for an
unknown option), the option string, and the explicit argument with whether there was a `=`. -/
structure OptTuple where
  action : Option Opt
  string : Text
  explicit : Option (Bool × Text)
  deriving DecidableEq

/-- `str.partition('=')`. -/
def partitionEq : Text → Text × Option Text
  | [] => ([], none)
  | c :: t => if c = 61 then ([], some t) else ((c :: (partitionEq t).1), (partitionEq t).2)

/-- argparse `_get_option_tuples`. -/
def optionTuples (w : Text) : List OptTuple :=
  if w[1]? = some 45 then
    optionStrings.filterMap fun (s, a) =>
      if (partitionEq w).1.isPrefixOf s then some ⟨some a, s, (partitionEq w).2.map fun e => (true, e)⟩ else none
  else
    optionStrings.filterMap fun (s, a) =>
      if s = w.take 2 then some ⟨some a, s, some (false, w.drop 2)⟩
      else if w.isPrefixOf s then some ⟨some a, s, none⟩ else none

/-- An ASCII digit. -/
def isDigit (c : Nat) : Bool := decide (48 ≤ c ∧ c ≤ 57)

/-- `$` in a regular expression also matches before a final newline. -/
def dropNewline (w : Text) : Text := if w.getLast? = some 10 then w.dropLast else w

/-- argparse `_negative_number_matcher`: `^-\d+$|^-\d*\.\d+$`. -/
def negativeNumber (w : Text) : Bool :=
  match dropNewline w with
  | 45 :: t => (!t.isEmpty && t.all isDigit) ||
      (match t.dropWhile isDigit with
       | 46 :: u => !u.isEmpty && u.all isDigit
       | _ => false)
  | _ => false

/-- argparse `_parse_optional`: `none` for a word that is not an option. -/
def parseOptional (w : Text) : Except Exit (Option OptTuple) :=
  match w with
  | [] => .ok none
  | c :: rest =>
    if c ≠ 45 then .ok none
    else match optionStrings.lookup w with
    | some a => .ok (some ⟨some a, w, none⟩)
    | none =>
      if rest = [] then .ok none
      else match (partitionEq w).2.bind fun e => (optionStrings.lookup (partitionEq w).1).map fun a => (e, a) with
      | some (e, a) => .ok (some ⟨some a, (partitionEq w).1, some (true, e)⟩)
      | none =>
        match optionTuples w with
        | _ :: _ :: _ => .error .usage
        | [t] => .ok (some t)
        | [] =>
          if negativeNumber w then .ok none
          else if 32 ∈ w then .ok none
          else .ok (some ⟨none, w, none⟩)

/-- A word after the first pass of `_parse_known_args`: `A`, `-` or `O`. -/
inductive Tok where
  | arg (w : Text)
  | dashes
  | opt (t : OptTuple)

/-- argparse `_parse_known_args`, first pass. -/
def tokens : List Text → Except Exit (List Tok)
  | [] => .ok []
  | w :: ws =>
    if w = txt "--" then .ok (.dashes :: ws.map .arg)
    else do
      let t ← parseOptional w
      let l ← tokens ws
      return (match t with | none => .arg w | some t => .opt t) :: l

/-- argparse `consume_optional` for the action `help`, which takes no argument, when there is an
explicit one: the rest of a word of single-dash options. -/
def helpTail : Bool → Text → Exit
  | _, [] => .usage
  | sep, c :: e =>
    if sep = true ∨ c = 45 then .usage
    else if c = 104 then
      match e with
      | [] => .help
      | d :: e' => if d = 61 then helpTail true e' else helpTail false (d :: e')
    else .help

/-- argparse `_get_values` and the action `store` for an option with the types and choices of main.py:13-42. -/
def Parsing.store (R : Reads) (s : Parsing) (v : Text) : Opt → Except Exit Parsing
  | .help => .error .help
  | .output => .ok { s with output := some v }
  | .maxMb => match R.float v with
    | some x => .ok { s with maxMb := x }
    | none => .error .usage
  | .normalization => match R.float v with
    | some x => .ok { s with normalization := some x }
    | none => .error .usage
  | .bitrate => match R.int v with
    | some x => .ok { s with bitrate := x }
    | none => .error .usage
  | .everyN => match R.int v with
    | some x => .ok { s with everyN := x }
    | none => .error .usage
  | .mode =>
    if v = txt "HGR" then .ok { s with mode := .HGR }
    else if v = txt "DHGR" then .ok { s with mode := .DHGR }
    else .error .usage
  | .palette =>
    if v = txt "UNKNOWN" then .ok { s with palette := .UNKNOWN }
    else if v = txt "IIGS" then .ok { s with palette := .IIGS }
    else if v = txt "NTSC" then .ok { s with palette := .NTSC }
    else .error .usage

/-- argparse `_parse_known_args`, second pass: options and the positional argument are consumed alternately; what cannot be used is
remembered.  The pattern of the positional argument is `-*A-*`, that of an option `A`. -/
def consume (R : Reads) : List Tok → Parsing → Except Exit Parsing
  | [], s => .ok s
  | .opt ⟨none, _, _⟩ :: l, s => consume R l { s with extras := true }
  | .opt ⟨some .help, _, none⟩ :: _, _ => .error .help
  | .opt ⟨some .help, o, some (sep, e)⟩ :: _, _ => .error (if o[1]? = some 45 then .usage else helpTail sep e)
  | .opt ⟨some a, _, some (_, e)⟩ :: l, s => do
    let s ← s.store R e a
    consume R l s
  | .opt ⟨some a, _, none⟩ :: .arg v :: l, s => do
    let s ← s.store R v a
    consume R l s
  | .opt ⟨some _, _, none⟩ :: _, _ => .error .usage
  | .arg w :: .dashes :: l, s =>
    if s.input = none then consume R l { s with input := some w } else consume R l { s with extras := true }
  | .arg w :: l, s => if s.input = none then consume R l { s with input := some w } else consume R l { s with extras := true }
  | .dashes :: .arg w :: l, s =>
    if s.input = none then consume R l { s with input := some w } else consume R l { s with extras := true }
  | .dashes :: l, s => consume R l { s with extras := true }

/-- main.py:73 `parser.parse_args()`: a missing input and unused words end in the usage message. -/
def parseArgs (R : Reads) (argv : List Text) : Except Exit Command := do
  let l ← tokens argv
  let s ← consume R l {}
  match s.input with
  | none => .error .usage
  | some input =>
    if s.extras then .error .usage
    else return { input, output := s.output, maxMb := s.maxMb, normalization := s.normalization, bitrate := s.bitrate,
                  everyN := s.everyN, mode := s.mode, palette := s.palette }

end IIVision
