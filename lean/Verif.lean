import Verif.Model.PathString
import Verif.Model.RealFloat
import Verif.Model.Env
import Verif.Props.Matrix
import Verif.Props.Numbers
import Verif.Props.PathData
import Verif.Props.Arcs
import Verif.Props.Shapes
import Verif.Props.ShapeAttrs
import Verif.Props.Transforms
import Verif.Props.Styles
import Verif.Props.Color
import Verif.Props.Render
import Verif.Props.Text
import Verif.Props.Parsing
import Verif.Props.Nesting
import Verif.Props.Places
import Verif.Props.Inherit
import Verif.Props.Masks
import Verif.Props.Gradients
import Verif.Props.Use
import Verif.Props.UseOffset
import Verif.Props.Size
import Verif.Props.Computed
import Verif.Spec.Stops
import Verif.Props.Stops
import Verif.Spec.Strokes
import Verif.Props.Strokes
import Verif.Spec.GradPaint
import Verif.Props.GradPaint
import Verif.Spec.Clips
import Verif.Props.Clips
import Verif.Spec.Float64
import Verif.Lemmas.Float64
import Verif.Lemmas.GridPath
import Verif.Props.Float64
import Verif.Props.NumberSyntax
import Verif.Props.Float64Shapes
import Verif.Props.Initial
import Verif.Model.Names
import Verif.Props.Names
import Verif.Lemmas.Round
import Verif.Props.Float64Opacity
import Verif.Spec.Documents
import Verif.Props.Documents
import Verif.Props.PathError
import Verif.Props.Float64Matrix
import Verif.Props.EndToEnd
import Verif.Props.ShapeError
import Verif.Props.RootBox
import Verif.Props.Transformed
import Verif.Props.ArcPaths
import Verif.Props.DegenerateArcs
import Verif.Props.Ellipse64
import Verif.Props.MatrixMethods
import Verif.Props.Transforms64
import Verif.Props.Corners
import Verif.Props.Corners64
import Verif.Props.RootBox64
import Verif.Props.Arcs64
import Verif.Props.Tree
import Verif.Props.UseInline
import Verif.Props.Canvas
import Verif.Props.Picture
import Verif.Props.Lines
import Verif.Spec.Bare
import Verif.Lemmas.Bare
import Verif.Lemmas.BareDoc
import Verif.Props.Bare
import Verif.Lemmas.StackExt
import Verif.Props.PlainGroup
import Verif.Props.Asides
import Verif.Props.Collapse
import Verif.Props.Untold
import Verif.Model.File
import Verif.Props.File
import Verif.Props.Sized
import Verif.Props.Alone
import Verif.Props.Reorder
import Verif.Props.Insert
