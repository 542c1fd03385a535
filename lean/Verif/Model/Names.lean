import Verif.Model.Types

/-! types.go: the names of the line modes. The modes are `uint8`, so a value need not be one of the constants. -/

namespace GoSvg

/-- types.go:18-25 (iota) -/
def JoinMode.code : JoinMode → UInt8
  | .arc => 0 | .round => 1 | .bevel => 2 | .miter => 3 | .miterClip => 4 | .arcClip => 5

/-- types.go:49-56 (iota) -/
def CapMode.code : CapMode → UInt8
  | .nilCap => 0 | .butt => 1 | .square => 2 | .round => 3 | .cubic => 4 | .quadratic => 5

/-- types.go:81-87 (iota) -/
def GapMode.code : GapMode → UInt8
  | .nilGap => 0 | .flat => 1 | .round => 2 | .cubic => 3 | .quadratic => 4

/-- types.go:27-44 `JoinMode.String`, on any value of the type -/
def joinString (s : UInt8) : String :=
  if s = JoinMode.round.code then "Round"
  else if s = JoinMode.bevel.code then "Bevel"
  else if s = JoinMode.miter.code then "Miter"
  else if s = JoinMode.miterClip.code then "MiterClip"
  else if s = JoinMode.arc.code then "Arc"
  else if s = JoinMode.arcClip.code then "ArcClip"
  else "<unknown JoinMode>"

/-- types.go:58-75 `CapMode.String` -/
def capString (c : UInt8) : String :=
  if c = CapMode.nilCap.code then "NilCap"
  else if c = CapMode.butt.code then "ButtCap"
  else if c = CapMode.square.code then "SquareCap"
  else if c = CapMode.round.code then "RoundCap"
  else if c = CapMode.cubic.code then "CubicCap"
  else if c = CapMode.quadratic.code then "QuadraticCap"
  else "<unknown CapMode>"

/-- types.go:89-104 `GapMode.String` -/
def gapString (g : UInt8) : String :=
  if g = GapMode.nilGap.code then "NilGap"
  else if g = GapMode.flat.code then "FlatGap"
  else if g = GapMode.round.code then "RoundGap"
  else if g = GapMode.cubic.code then "CubicGap"
  else if g = GapMode.quadratic.code then "QuadraticGap"
  else "<unknown GapMode>"

end GoSvg
