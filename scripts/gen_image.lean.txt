import Verif.Model.Player
open IIVision.Player
def hexNat (bs : List Nat) : String :=
  String.join (bs.reverse.map fun b => String.ofList [Nat.digitChar (b/16), Nat.digitChar (b%16)])
def main : IO Unit := do
  let names := ["lowcodeImage", "hgrImage", "codeImage"]
  let mut out := "/-! Generated by scripts/gen_image.lean.txt: the bytes of the three segments of the player as\nnumbers in base 256, first byte least significant.  That these are the bytes of the program of\nModel/Player.lean is proved in Proofs/PlayerImage.lean. -/\n\nnamespace IIVision.Player\n\n"
  for (n, s) in names.zip program do
    out := out ++ s!"def {n} : Nat :=\n  0x{hexNat s.2}\n\n"
  out := out ++ "end IIVision.Player\n"
  IO.FS.writeFile "/verif/lean/Verif/Data/PlayerImage.lean" out
