import Verif.Spec.Dots

/-! Independent description of the distance between two rows of pixels: the cheapest way of
turning one into the other, pixel by pixel, where a pixel may be kept (free), recoloured (at a
given price) or swapped with its right-hand neighbour (price 1). -/

namespace IIVision.Spec

/-- `Rewrite cost s t c`: row `s` can be turned into row `t` at total price `c`. -/
inductive Rewrite {α : Type} (cost : α → α → Int) : List α → List α → Int → Prop
  | nil : Rewrite cost [] [] 0
  | keep {s t : List α} {c : Int} (x : α) : Rewrite cost s t c → Rewrite cost (x :: s) (x :: t) c
  | recolour {s t : List α} {c : Int} (x y : α) (h : x ≠ y) : Rewrite cost s t c →
      Rewrite cost (x :: s) (y :: t) (cost x y + c)
  | swap {s t : List α} {c : Int} (x y : α) : Rewrite cost s t c →
      Rewrite cost (x :: y :: s) (y :: x :: t) (1 + c)

/-- `d` is the price of the cheapest rewriting of `s` into `t`. -/
def Cheapest {α : Type} (cost : α → α → Int) (s t : List α) (d : Int) : Prop :=
  Rewrite cost s t d ∧ ∀ c, Rewrite cost s t c → d ≤ c

/-- The HGR colour whose pattern is the DHGR pattern of `x`: the colour whose RGB value
the generator really uses in DHGR (C11). -/
def mispriced (x : Colour) : Colour :=
  match x with
  | .BLACK => .BLACK | .MAGENTA => .BROWN | .BROWN => .DARK_GREEN | .ORANGE => .GREEN
  | .DARK_GREEN => .DARK_BLUE | .GREY1 => .GREY2 | .GREEN => .MED_BLUE | .YELLOW => .AQUA
  | .DARK_BLUE => .MAGENTA | .VIOLET => .ORANGE | .GREY2 => .GREY1 | .PINK => .YELLOW
  | .MED_BLUE => .VIOLET | .LIGHT_BLUE => .PINK | .AQUA => .LIGHT_BLUE | .WHITE => .WHITE

/-- The colour a pixel is priced as. -/
def priced (mode : VideoMode) (x : Colour) : Colour :=
  match mode with
  | .HGR => x
  | .DHGR => mispriced x

/-- What is assumed of the perceptual colour difference (CIE2000 truncated to an integer):
symmetric, non-negative, at most 3640 (18 pixels then stay below 2^16; the real values are
below 130). -/
structure ColourDifference (deltaE : RGB → RGB → Int) : Prop where
  symm : ∀ a b, deltaE a b = deltaE b a
  nonneg : ∀ a b, 0 ≤ deltaE a b
  le : ∀ a b, deltaE a b ≤ 3640

/-- The difference of two RGB values is zero exactly if they are equal. -/
def Separates (deltaE : RGB → RGB → Int) : Prop := ∀ a b, deltaE a b = 0 ↔ a = b

end IIVision.Spec
