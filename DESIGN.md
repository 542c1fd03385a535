# A Lean 4 model of lafriks/go-svg

Sections: 1 shape of the model; 2 trusted base; 3 which Go functions are modelled; 4 classes of documents used as hypotheses;
5 what each property became; 6 where the code disagrees with a property; 7 mutation testing; 8 axioms of every theorem.

## 1. Shape of the model

The model is a set of total Lean functions that follow the Go functions one by one
(`lean/Verif/Model/*`); each definition cites the file and lines it models. The property theorems are in
`lean/Verif/Props/*`, separate from the helper lemmas (`lean/Verif/Lemmas/*`) and from the small
independent specifications (`lean/Verif/Spec/*`).

* **Strings** are lists of characters (`Str = List Char`). encoding/xml only delivers valid UTF-8, so this loses
  nothing except where the code indexes *bytes*; there (colour parsing) the model encodes to bytes first.
* **float64** is an abstract type `F` with the operations the code uses (`class GoFloat F`, no laws). Theorems about
  control flow, order, errors, aliasing hold for *every* `F`, hence for IEEE float64 ("any arithmetic" in section 5).
  Theorems that need arithmetic are stated for the instance `F = ℝ` ("exact arithmetic": floating-point rounding is then *not*
  covered). `F64` (`Model/F64.lean`) is an executable soft-float model of IEEE binary64 (round to nearest even, subnormals,
  infinities, NaN); the witnesses and the examples beside the theorems run whole documents through it in the kernel.
  `Spec/Float64` says what a number of binary64 is and what "nearest" means, independently of the algorithm; the theorems named
  `..._float64`, C68 and C70 are about `F64`. Every operation is rounded separately, as on amd64 (the Go specification also allows a
  fused multiply and add; on the grid of C68 the two agree because no operation is rounded).
* **fixed.Int26_6** is `Int` with explicit wrap to 32 bits. Conversions from float64 to integers out of range give what amd64
  gives (the minimum of the type); the Go specification leaves them open.
* **Errors / panics / divergence**: every function returns `Res α = ok | err | panic | diverge` together with the
  state at that moment (Go functions mutate the cursor before failing and `Parse` returns the partial Svg).
  `panic` is explicit at every index/slice expression that is not obviously in range, and names its site.
* **Fuel**: recursion through `use`, the loop that raises an angle by full turns (shapes.go:60-62) and, in the gg renderer,
  masks take a fuel argument; `diverge` = fuel exhausted. "Terminates" is `∃ fuel, result ≠ diverge`, "does not terminate" is
  `∀ fuel, result = diverge`. `parse_more` (`Lemmas/Fuel`): a result other than `diverge` is the same for every larger fuel, so
  the fuel of a theorem does not matter.
* **Pointers and slices**: gradients are pointers into a gradient heap (`grads` maps ids to addresses); the
  `Masks []string` field of a style is a slice (array address, length, capacity) into a heap of arrays, because
  `append` aliases there. Everything else is a value in the model, for these reasons: the operations of a path are copied into
  a new array when the path is emitted (parse.go:378); dash arrays are made anew by every declaration and never written afterwards;
  `localizeGradIfStopClrNil` writes only to a new array of stops (patterns.go:240), and a gradient copied into a style shares the
  array of its stops with the one in the table, but only the latter is ever appended to, beyond the length the copy sees.
* **XML**: the input is the list of tokens delivered by encoding/xml, ended by EOF or by an error. Only `Name.Local`
  is kept of names because the code never looks at namespaces.
* **log** output is a list of lines in the state.
* **Renderers**: the three `Draw` functions are modelled as functions to the list of backend calls they make. Properties about
  what is painted need the meaning of those calls; the specifications state it (`Spec/Drawing`, `Spec/Strokes`, `Spec/GradPaint`,
  `Spec/Clips`, `Spec/Canvas`), and it is part of the trusted base.

## 2. Trusted base

Lean's kernel; the axioms `propext`, `Classical.choice`, `Quot.sound` (section 8 lists them for each theorem; no others, no
`sorry`, no `native_decide`); and the reading of the Go code into the model. Not modelled, hence trusted or out of scope:

* encoding/xml and charset decoding. That tags match is the hypothesis `WellNested` where it is needed; theorems without it hold
  for every list of tokens;
* unicode tables outside ASCII (`GoEnv`: arbitrary functions that agree with ASCII and never call a letter a number);
* the colour-name table of x/image/colornames (`GoEnv.colorName`: any table whose names are lower-case letters, other than `none`
  and not starting with `url`, with opaque colours; the examples use the SVG 1.1 table, `Model/ColorNames`);
* `strconv.ParseFloat` is a field of `GoFloat`: arbitrary in generic theorems; for ℝ and F64 the syntax of Go (`Model/Decimal`: decimal and
  hexadecimal literals, digit separators, infinities, `nan`) with the exact value, which F64 rounds to nearest. ℝ has no infinities, so
  `inf` and `nan` are errors there. Go reads no further digits of an exponent that has reached 10000; that is not modelled (it matters
  only for literals with tens of thousands of digits);
* math.Sin/Cos/Tan/Atan2 (arbitrary in generic theorems, exact in ℝ, left open in F64 as `Libm`; `C80_stored` and `C80_drawn` assume `Spec.Accurate`: errors of at most 2^-50 in sine and cosine up to 8 and in tangent up to 1, the documented values at zero, multiples of pi rounded once, met by `fineLibm`; so do C82 and C83, which also assumes `Spec.AtanAxes`, the documented values of the arc tangent on the axes, met by `fineLibm` too; C84 assumes `Spec.Angular`, sine and cosine up to 10 and the arc tangent up to 2^-50, met by `arcLibm`; `C70_rect` assumes `ExactAtZero`: sin 0 = 0, cos 0 = 1 and a finite degree constant). `AnglesClose` (a hypothesis of
  the termination theorems, proved for ℝ): the angles of `math.Atan2` are at most a full turn apart;
* the growth policy of `append` (`GoEnv.growCap`: doubling below 256, arbitrary growth above; the Go
  runtime doubles all capacities that occur here, the powers of two);
* the behaviour of the drawing backends. Assumed by the specifications: a setting stays in effect until it is set again; draw2d's
  `Fill`/`Stroke` use the current path and clear it, `BeginPath` clears it; gg's `Fill`/`Stroke` clear it, `FillPreserve`/`StrokePreserve`
  keep it, and `NewSubPath` forgets only the current point (without one nothing is closed, and a line is a move); rasterx's `Clear` clears it, and what it paints are the subpaths ended by `Stop`; a fill closes the open subpaths of its area; gg's `SetColor` sets both the fill and
  the stroke colour (gg v1.3); gg's `SetMask` replaces the mask and `ResetClip` removes it; the gg gradient constructors take the
  arguments (x0, y0, r0, x1, y1, r1) and run from the first to the second circle; rasterx's `GetPathExtent` is an arbitrary function of
  the calls made since `Clear` (`RxEnv.extent`); rasterx's `SetColor` takes the gradient it is handed;
* os.Open (an arbitrary function of the name, `Files`) and Close in `ParseFile`; goroutines (none in the code); memory exhaustion; timing.

## 3. The Go functions and their models

Generated from the comments in `lean/Verif/Model`. Test files are not listed.

| Go source | function | model |
|---|---|---|
| matrix.go:21-31 | `otherPair` | `Matrix.otherPair` |
| matrix.go:33-38 | `matrix3.coFact` | `Matrix.Matrix3.coFact` |
| matrix.go:40-60 | `matrix3.invert` | `Matrix.checkerSign`, `Matrix.Matrix3.invert` |
| matrix.go:63-67 | `Matrix2D.Invert` | `Matrix.Matrix2D.invert` |
| matrix.go:70-79 | `Matrix2D.Mult` | `Matrix.mult` |
| matrix.go:85-89 | `Matrix2D.TFixed` | `Matrix.tFixed` |
| matrix.go:93-97 | `Matrix2D.Transform` | `Matrix.transform` |
| matrix.go:101-105 | `Matrix2D.TransformVector` | `Matrix.transformVector` |
| matrix.go:108-117 | `Matrix2D.Scale` | `Matrix.scale` |
| matrix.go:120-129 | `Matrix2D.SkewY` | `Matrix.skewY` |
| matrix.go:132-141 | `Matrix2D.SkewX` | `Matrix.skewX` |
| matrix.go:144-153 | `Matrix2D.Translate` | `Matrix.translate` |
| matrix.go:156-165 | `Matrix2D.Rotate` | `Matrix.rotate` |
| matrix.go:174-176 | `matrixAdder.Reset` | `matrixAdder` is the list of operations it adds (`Model/Shapes`) |
| matrix.go:179-181 | `matrixAdder.Start` | as above |
| matrix.go:184-186 | `matrixAdder.Line` | as above |
| matrix.go:189-191 | `matrixAdder.QuadBezier` | as above |
| matrix.go:194-196 | `matrixAdder.CubeBezier` | as above |
| matrix.go:199-201 | `Matrix2D.MoveTo` | `Matrix.moveTo` |
| matrix.go:204-206 | `Matrix2D.LineTo` | `Matrix.moveTo` |
| matrix.go:209-211 | `Matrix2D.QuadTo` | `Matrix.moveTo` |
| matrix.go:214-216 | `Matrix2D.CubicTo` | `Matrix.moveTo` |
| matrix.go:221-223 | `Matrix2D.LineWidthScale` | `Matrix.lineWidthScale` |
| parse.go:33-35 | `fToFixed` | `toFixedP` |
| parse.go:38-46 | `svgCursor.handleError` | `Style.handleError` |
| parse.go:48-106 | `svgCursor.readTransformAttr` | `Style.readTransformAttr` |
| parse.go:108-132 | `svgCursor.parseTransform` | `Style.transformLoop`, `Style.parseTransform` |
| parse.go:134-150 | `svgCursor.parseSelector` | `Style.parseSelector` |
| parse.go:152-300 | `svgCursor.readStyleAttr` | `Style.gapOf`, `Style.capOf`, `Style.joinOf`, `Style.parseDashes`, `Style.appendMask`, `Style.addMask`, `Style.readStyleAttr` |
| parse.go:305-331 | `svgCursor.pushStyle` | `Style.stylePairs`, `Style.pairsLoop`, `Style.pushStyle` |
| parse.go:334-339 | `splitOnCommaOrSpace` | `Style.splitOnCommaOrSpace` |
| parse.go:341-389 | `svgCursor.readStartElement` | `Parse.emitPath`, `Parse.lastID`, `Parse.recordDef`, `Parse.readStartElement` |
| parse_path.go:45-52 | `pathCursor.init` | `PathParse.init` |
| parse_path.go:56-75 | `pathCursor.compilePath` | `PathParse.startsSeg`, `PathParse.compileGo`, `PathParse.compilePath` |
| parse_path.go:77-79 | `reflect` | `PathParse.reflect` |
| parse_path.go:81-86 | `pathCursor.valsToAbs` | `PathParse.valsToAbs` |
| parse_path.go:88-99 | `pathCursor.pointsToAbs` | `PathParse.pointsToAbs` |
| parse_path.go:101-109 | `pathCursor.hasSetsOrMore` | `PathParse.hasSetsOrMore` |
| parse_path.go:112-135 | `pathCursor.readFloat` | `PathParse.pushFloat`, `PathParse.readFloatGo`, `PathParse.readFloat` |
| parse_path.go:139-166 | `pathCursor.getPoints` | `PathParse.endsNumber`, `PathParse.getPointsGo`, `PathParse.getPoints` |
| parse_path.go:168-175 | `pathCursor.reflectControlQuad` | `PathParse.reflectControlQuad` |
| parse_path.go:177-184 | `pathCursor.reflectControlCube` | `PathParse.reflectControlCube` |
| parse_path.go:188-383 | `pathCursor.addSeg` | `PathParse.lineOps`, `PathParse.quadOps`, `PathParse.cubicOps`, `PathParse.smoothQuadLoop`, `PathParse.smoothCubeLoop`, `PathParse.arcLoop`, `PathParse.segSwitch`, `PathParse.addSeg` |
| parse_path.go:387-397 | `pathCursor.ellipseAt` | `PathParse.ellipseAt` |
| parse_path.go:400-404 | `pathCursor.addArcFromA` | `PathParse.addArcFromA` |
| path.go:36-38 | `OpMoveTo.String` | `PathString.Op.toStr` |
| path.go:40-42 | `OpLineTo.String` | `PathString.Op.toStr` |
| path.go:44-47 | `OpQuadTo.String` | `PathString.Op.toStr` |
| path.go:49-52 | `OpCubicTo.String` | `PathString.Op.toStr` |
| path.go:54-56 | `OpClose.String` | `PathString.Op.toStr` |
| path.go:63-69 | `Path.ToSVGPath` | `PathString.toSVGPath` |
| path.go:72-74 | `Path.String` | `toSVGPath` (same function) |
| path.go:77-79 | `Path.Clear` | not modelled as a call: `init` sets the operations to `[]` (see 1, slices) |
| path.go:82-84 | `Path.Start` | `PathParse.addOps` |
| path.go:87-89 | `Path.Line` | `PathParse.addOps` |
| path.go:92-94 | `Path.QuadBezier` | `PathParse.addOps` |
| path.go:97-99 | `Path.CubeBezier` | `PathParse.addOps` |
| path.go:102-106 | `Path.Stop` | `PathParse.addOps` |
| patterns.go:25-27 | `NewPlainColor` | `Types.Pattern` |
| patterns.go:29-29 | `PlainColor.isPattern` | `Types.Pattern` |
| patterns.go:30-30 | `Gradient.isPattern` | `Types.Pattern` |
| patterns.go:38-40 | `toOptColor` | `Option Color` |
| patterns.go:42-47 | `optionnalColor.asColor` | `Option Color`, `Option.getD` |
| patterns.go:49-54 | `optionnalColor.asPattern` | `Option.map` |
| patterns.go:58-101 | `parseSVGColor` | `Color.parseSVGColor` |
| patterns.go:103-116 | `parseColorValue` | `Color.parseColorValue` |
| patterns.go:119-144 | `parseSVGColorNum` | `Color.parseSVGColorNum`, `Go.parseHex2` |
| patterns.go:186-200 | `Gradient.ApplyPathExtent` | `Color.applyPathExtent` |
| patterns.go:210-210 | `Linear.isRadial` | `Types.Direction` |
| patterns.go:215-215 | `Radial.isRadial` | `Types.Direction` |
| patterns.go:219-231 | `GetColor` | `Color.getColor` |
| patterns.go:233-253 | `localizeGradIfStopClrNil` | `Color.localizeGrad` |
| patterns.go:259-271 | `svgCursor.readGradURL` | `Style.readGradURL` |
| patterns.go:274-296 | `svgCursor.readGradAttr` | `Elements.readGradAttr` |
| renderer/draw2d/draw.go:13-18 | `Draw` | `Render.draw` |
| renderer/draw2d/draw.go:20-39 | `drawTo` | `Render.drawTo` |
| renderer/draw2d/draw.go:41-51 | `toLineCap` | `Render.toLineCap` |
| renderer/draw2d/draw.go:53-63 | `toLineJoin` | `Render.toLineJoin` |
| renderer/draw2d/draw.go:65-68 | `toColor` | `Render.toColor`, `Render.patternColor` |
| renderer/draw2d/draw.go:70-72 | `toGradient` | `Render.patternColor` |
| renderer/draw2d/draw.go:75-117 | `drawTransformed` | `Render.patternColor`, `Render.drawTransformed` |
| renderer/draw2d/example/draw_example.go:13-28 | `main` | not modelled (example program) |
| renderer/gg/draw.go:14-23 | `Draw` | `Render.draw` |
| renderer/gg/draw.go:25-44 | `drawTo` | `Render.drawTo` |
| renderer/gg/draw.go:46-56 | `toLineCap` | `Render.toLineCap` |
| renderer/gg/draw.go:58-68 | `toLineJoin` | `Render.toLineJoin` |
| renderer/gg/draw.go:70-73 | `toColor` | `GG.toColor` |
| renderer/gg/draw.go:75-89 | `toGradient` | `Render.toColor`, `Render.toGradient` |
| renderer/gg/draw.go:92-154 | `drawTransformed` | `Render.toStops`, `Render.toGradient`, `Render.fillSetup`, `Render.strokeSetup`, `Render.finish`, `Render.drawMasked`, `Render.drawTransformed` |
| renderer/gg/draw.go:156-187 | `getMask` | `Render.finish`, `Render.drawMasked`, `Render.drawTransformed` |
| renderer/gg/example/draw_example.go:11-26 | `main` | not modelled (example program) |
| renderer/options.go:22-24 | `Opacity.apply` | `Render.RenderOption.apply` |
| renderer/options.go:30-34 | `targetOption.apply` | `RenderOption.apply` |
| renderer/options.go:37-39 | `Target` | `RenderOption.target` |
| renderer/options.go:42-50 | `Options` | `Render.options` |
| renderer/rasterx/draw.go:12-17 | `Draw` | `Render.draw` |
| renderer/rasterx/draw.go:19-33 | `drawToStroker` | `Render.drawTo` |
| renderer/rasterx/draw.go:35-49 | `drawToFiller` | `Rasterx.drawTo` (the two Go functions are equal) |
| renderer/rasterx/draw.go:51-63 | `toLineGap` | `Render.toLineGap` |
| renderer/rasterx/draw.go:65-82 | `toLineCap` | `Render.toLineCap` |
| renderer/rasterx/draw.go:84-100 | `toLineJoin` | `Rasterx.toLineJoin` |
| renderer/rasterx/draw.go:102-128 | `toRasterxGradient` | `Render.toRasterxGradient` |
| renderer/rasterx/draw.go:131-180 | `drawTransformed` | `Render.paint`, `Render.fillCalls`, `Render.strokeCalls`, `Render.drawTransformed` |
| renderer/rasterx/example/draw_example.go:16-40 | `main` | not modelled (example program) |
| shapes.go:25-29 | `toFixedP` | `Shapes.toFix`, `Shapes.toFixedP` |
| shapes.go:33-43 | `Path.addRect` | `Shapes.addRect` |
| shapes.go:46-49 | `length` | `Shapes.length` |
| shapes.go:52-102 | `addArc` | `Shapes.raise`, `Shapes.circLoop`, `Shapes.addArcCirc` |
| shapes.go:105-109 | `roundGap` | `Shapes.roundGap` |
| shapes.go:115-148 | `Path.addRoundRect` | `Shapes.addRoundRect` |
| shapes.go:151-205 | `Path.addArc` | `Shapes.arcDeltaEta`, `Shapes.ellLoop`, `Shapes.arcSegs`, `Shapes.addArc` |
| shapes.go:208-214 | `ellipsePrime` | `Shapes.ellipsePrime` |
| shapes.go:217-223 | `ellipsePointAt` | `Shapes.ellipsePointAt` |
| shapes.go:232-273 | `findEllipseCenter` | `Shapes.findEllipseCenter` |
| styles.go:9-53 | `appendStyleAttrs` | `Color.stylePieces`, `Color.appendStyleAttrs` |
| svg.go:60-136 | `Parse` | `Parse.readEndElement`, `Parse.readChars`, `Parse.readToken`, `Parse.readTokens`, `Parse.initSvg`, `Parse.initCursor`, `Parse.Token.isStart`, `Parse.parse`, `Style.popStyle` |
| svg.go:142-149 | `ParseFile` | `File.parseFile` |
| svg_elements.go:11-15 | `init` | the table itself (`drawFuncs` in `Model/Elements`) |
| svg_elements.go:38-74 | `svgF` | `Elements.svgBox`, `Elements.svgAttr`, `Elements.svgF` |
| svg_elements.go:75-110 | `gF` | `gF` |
| svg_elements.go:76-110 | `rectF` | `Elements.RectVars`, `Elements.rectAttr`, `Elements.rectOps`, `Elements.rectF` |
| svg_elements.go:112-148 | `maskF` | `Elements.MaskVars`, `Elements.maskAttr`, `Elements.maskF` |
| svg_elements.go:150-176 | `circleF` | `Elements.CircleVars`, `Elements.circleAttr`, `Elements.circleF` |
| svg_elements.go:178-205 | `lineF` | `Elements.LineVars`, `Elements.lineAttr`, `Elements.lineF` |
| svg_elements.go:207-234 | `polylineF` | `Elements.polyAttr`, `Elements.polyDraw`, `Elements.polylineF` |
| svg_elements.go:236-242 | `polygonF` | `Elements.polygonF` |
| svg_elements.go:244-256 | `pathF` | `Elements.pathAttr`, `Elements.pathF` |
| svg_elements.go:258-262 | `descF` | `Elements.descF` |
| svg_elements.go:264-268 | `titleF` | `Elements.titleF` |
| svg_elements.go:270-273 | `defsF` | `Elements.defsF` |
| svg_elements.go:275-331 | `linearGradientF` | `Elements.newGrad`, `Elements.setGradID`, `Elements.LinStrs`, `Elements.linAttr`, `Elements.gradBox`, `Elements.linearGradientF` |
| svg_elements.go:333-409 | `radialGradientF` | `Elements.RadStrs`, `Elements.radAttr`, `Elements.fifty`, `Elements.radialGradientF` |
| svg_elements.go:411-440 | `stopF` | `Elements.stopAttr`, `Elements.stopF` |
| svg_elements.go:442-498 | `useF` | `Elements.UseVars`, `Elements.useAttr`, `Elements.useLoop`, `Elements.useBody`, `Elements.withOffset`, `Elements.useF`, `Style.popStyle` |
| types.go:27-44 | `JoinMode.String` | `Names.joinString` |
| types.go:58-75 | `CapMode.String` | `Names.capString` |
| types.go:89-104 | `GapMode.String` | `Names.gapString` |
| units.go:31-40 | `findUnit` | `Units.findUnitGo`, `Units.findUnit` |
| units.go:43-47 | `parseUnit` | `Units.parseUnit` |
| units.go:60-78 | `Bounds.resolveUnit` | `Units.resolveUnit` |
| units.go:82-84 | `svgCursor.parseUnit` | `resolveUnit` with `parseUnit` (`Model/Units`) |
| units.go:86-89 | `parseBasicFloat` | `Units.parseBasicFloat` |
| units.go:91-107 | `readFraction` | `Units.readFraction` |

## 4. Classes of documents in hypotheses

All are decidable predicates on the token list (`Spec/Nesting`, `Spec/Use`, `Spec/Shift`, `Spec/Size`), and beside the theorems a
concrete document is shown to be in them.

* `WellNested`: the tags match; what encoding/xml guarantees up to the point where it stops.
* `Tidy`: well nested; no `defs` inside `defs`, masks, titles or descriptions; gradients hold `stop` only; outside `defs` no title
  inside a title, no description inside a description, no mask inside a mask; and in a document with `use`, `defs` holds only
  gradients, shapes, groups and further uses, and an `id` inside `defs` is only on elements that are not part of a group.
  The witnesses C28_use_false, C41_*_false, C45_*_false, C46_nested_title_false show what goes wrong outside.
* `Balanced`: well nested, and without `use` or tidy with such definitions only.
* `Within`: an element at a place of a balanced document whose only `svg` is the root.
* `Acyclic`: the definitions can be ranked so that each refers to lower ones only (C42_circle_false: otherwise never ends).
* `Shiftable`, `ShiftablePlain`: content for which a `use` offset is a shift.
* `FewCurves`: arcs give a bounded number of curves; proved for ℝ (`few_real`).
* `DrawingOnly`: groups and shapes without mask declarations, and character data. `Pointed`: every polyline and polygon has a `points`
  attribute (`Spec/Alone`; C97_points_false shows what goes wrong otherwise).

## 5. What each property became

`proved`: the statement in `properties.jsonl` is a theorem. `partial`: the theorems with suffix `_partial` prove it under hypotheses that
the statement does not have, and, where the statement is false of the code, a theorem `…_false` gives a witness. No property is
not applicable. Theorem names are without the prefix `GoSvg.`.

| id | title | status | theorems | note |
|---|---|---|---|---|
| C01 | Number lists are tokenised faithfully | proved | `C01_number_list`, `C01_number_list_exact`, `C01_float64` | any arithmetic; exact values in real arithmetic; nearest numbers in binary64 |
| C02 | Run-together decimals are split at the second point | proved | `C02_run_together`, `C02_run_together_exact`, `C02_float64` | any arithmetic; exact values in real arithmetic; nearest numbers in binary64 |
| C03 | Units scale by their CSS factor | proved | `C03_units`, `C03_units_exact`, `C03_rejects_others`, `C03_float64`, `C76_length` | any arithmetic; the values are exact in real arithmetic, and in binary64 for numbers on a binary grid with a unit of whole pixels; C76_length bounds the error in binary64 for all units |
| C04 | Percentages refer to the right view-box dimension | proved | `C04_percent`, `C04_not_percent`, `C15_ellipse`, `C15_zero_radius`, `C16_empty`, `C16_corners`, `C17_line`, `C63_lengths_partial` | C04_percent and C04_not_percent say what each kind of reference means; the theorems on the elements (Len in their hypotheses) and on style lengths (LengthText) say which attribute uses which |
| C05 | Coordinates are quantised to 1/64 px toward zero | proved | `C05_quantised`, `C05_float64` | exact arithmetic and binary64 |
| C06 | Path data means what SVG says it means (non-arc commands) | proved | `C06_path_semantics`, `C06_path_semantics_exact` | any arithmetic and, with exact numbers, real arithmetic |
| C07 | Relative commands are absolute commands shifted by the current point | proved | `C07_relative_is_shifted` | any arithmetic, any prefix and suffix, any layout |
| C08 | Repeated parameter sets equal repeated commands | partial | `C08_repeated_sets_partial`, `C08_arcs_false` | all commands but arcs; the claim fails for arcs |
| C09 | Wrong parameter counts are rejected, right ones accepted | proved | `C09_parameter_count` | any arithmetic, every error mode |
| C10 | Close returns to the subpath start | partial | `C10_close_partial`, `C10_second_close_false` | closes of a subpath started by a move; a subpath that continues after a close is never closed again |
| C11 | Unknown path letters are skipped or reported according to the error mode | partial | `C11_unknown_strict`, `C11_unknown_skipped_partial`, `C11_unreadable_numbers_false` | the claim fails when what follows the letter cannot be read as numbers |
| C12 | A path's geometry depends only on its own `d` attribute | proved | `C12_path_independent` | any arithmetic |
| C13 | The centre found for an arc puts both end points on the ellipse | proved | `C13_centre`, `C13_two_centres` | exact arithmetic |
| C14 | An arc is drawn as a bounded chain of cubics ending exactly at its end point | partial | `C14_arc_partial`, `C14_end_point` | exact arithmetic; the first set of an arc command outside a use with an offset |
| C15 | Circles and ellipses become closed curves through points of the ellipse | proved | `C15_ellipse`, `C15_zero_radius` | exact arithmetic |
| C16 | Rectangles are drawn with exactly their four corners | partial | `C16_corners`, `C16_empty`, `C16_missing_radius`, `C16_rounded_partial`, `C16_rounded_false` | exact arithmetic; rounded rectangles with equal radii; the claim fails for two different radii |
| C17 | Lines, polylines and polygons visit their own points in order | partial | `C17_line`, `C17_poly_partial`, `C17_odd`, `C17_two_points_not_drawn`, `C17_no_points_drawn`, `C17_two_points_false`, `C17_no_points_false` | three points or more; the claim fails for two points and for a missing points attribute |
| C18 | Matrix product is composition of maps | partial | `C18_mult_is_composition_partial`, `C18_mult_is_composition_false`, `C18_mult_assoc_false` | Matrix multiplication is not composition in the code; the theorem gives the exact condition under which it is, and witnesses show that composition and associativity fail. |
| C19 | Invert gives the inverse map | proved | `C19_invert_left`, `C19_invert_right`, `C19_singular_not_invertible` | exact arithmetic |
| C20 | Identity is neutral | proved | `C20_identity_mult`, `C20_identity_map`, `C20_neutral_steps`, `C20_identity_fixed`, `C20_float64`, `C20_float64_fixed`, `C20_float64_neutral` | exact arithmetic; Identity also in binary64 |
| C21 | A transform list is applied from right to left | partial | `C21_transform_list_partial`, `C21_accepted`, `C21_single_translate_false`, `C21_rotate_about_false`, `C21_order_false`, `C21_comma_false` | exact arithmetic; lists the code reads right, with an exact condition; witnesses for translate(x), rotate about a point, order of functions and commas between functions |
| C22 | Nested transforms compose parent after child | partial | `C22_nested_partial`, `C22_inherited`, `C22_nested_false` | exact arithmetic; exact condition on the parent's matrix; witness otherwise |
| C23 | Fixed-point transformation agrees with the real one | proved | `C23_tFixed_truncates`, `C23_all_operations`, `C23_float64` | exact arithmetic, and binary64 with a bound on the error |
| C24 | Styles come from ancestors only | partial | `C24_only_ancestors_partial`, `C24_masks_partial`, `C24_example`, `C24_svg_false`, `C24_use_false` | any arithmetic; balanced documents with one svg element: two documents sharing only the element and its ancestors give it the same style; a second svg and incomplete definitions do influence it |
| C25 | Opacity multiplies down the tree | partial | `C25_opacity_partial`, `C25_product_partial`, `C25_float64_partial`, `C25_use_false`, `C25_percent_false` | any arithmetic (fold of products), exact arithmetic (product) and binary64 (error at most 2^-53 for each factor); balanced documents; use of an incomplete definition drops a group's opacity, and percentages are read as numbers |
| C26 | Style attribute and presentation attributes are equivalent | partial | `C26_style_equals_attributes`, `C26_later_decides_partial`, `C26_later_false`, `C26_mask_false`, `C26_dash_false` | any arithmetic; the later of two declarations decides for the replacing properties; opacities multiply, masks accumulate, dash array none is ignored |
| C27 | Keyword properties accept exactly their keywords | proved | `C27_keyword`, `C27_other` | any arithmetic, every error mode |
| C28 | The style stack is balanced | partial | `C28_no_stack_panic`, `C28_restored`, `C28_no_stack_panic_use_partial`, `C28_restored_use_partial`, `C28_use_false` | any arithmetic; all well-nested documents without use, and tidy documents with use; a definition that is not complete unbalances the stack |
| C29 | Results already emitted are never changed or reordered | partial | `C29_prefix_partial`, `C29_fourth_mask_false` | any arithmetic, all cut points; operations, style and the first three masks of every path stay; a fourth mask may be overwritten by a later sibling |
| C30 | Warn mode and ignore mode give the same picture | proved | `C30_lenient_modes_agree`, `C30_only_warn_logs` | any arithmetic, every token stream |
| C31 | Strict mode only adds errors | proved | `C31_strict_success` | any arithmetic, every token stream |
| C32 | Unknown elements never break lenient parsing | partial | `C32_strict_partial`, `C32_lenient_partial`, `C32_like_group_partial`, `C32_after_use_false` | any arithmetic; unknown elements outside defs of tidy documents |
| C33 | Reader and emptiness errors are reported | proved | `C33_no_element`, `C33_success_consumes_all`, `C33_stream_error`, `C33_element_error_stops` | any arithmetic, every token stream |
| C34 | Parsing does not panic | partial | `C34_panic_sites`, `C34_only_colors_partial`, `C34_no_panic_partial`, `C34_terminates_partial`, `C34_terminates_real_partial`, `C34_color_false`, `C28_use_false` | every possible panic site is named for all token streams; tidy documents panic on malformed colours only; witnesses for the panics |
| C35 | Hexadecimal colours round-trip | partial | `C35_six`, `C35_round_trip`, `C35_three`, `C35_not_hex`, `C35_not_hex_three`, `C35_other_lengths`, `C35_short`, `C35_lengths_false` | three and six digits and what is rejected; the claim fails for other lengths |
| C36 | rgb() components are clamped to 0..255 | partial | `C36_value`, `C36_rgb_partial`, `C36_only_three`, `C36_error_partial`, `C36_clamp_false`, `C36_empty_false` | components in range; the claim fails for components out of range (no clamping) and for empty components (panic) |
| C37 | none, names and urls are distinguished from black | partial | `C37_none`, `C37_name`, `C37_unresolved`, `C37_other_partial`, `C37_empty_false` | the claim fails for an empty value |
| C38 | A gradient reference takes the gradient as defined so far | partial | `C38_paint_partial`, `C38_reference_partial`, `C38_unresolved_partial`, `C38_later`, `C38_example`, `C38_forward` | any arithmetic; which gradient a reference takes, with which stops and colours, in balanced documents (not the matrix of a gradientTransform); that later tokens do not change paints, for all documents; a forward reference is black |
| C39 | Painted gradients have no missing colours and a direction | partial | `C39_complete`, `C39_filled_partial`, `C38_example` | any arithmetic; direction and colours of every stop for all documents and outcomes; which colour is filled in, for balanced documents |
| C40 | Gradient vectors take their defaults and units | partial | `C40_direction_partial`, `C40_document_partial`, `C40_linear`, `C40_radial`, `C40_units_anywhere`, `C40_example`, `C38_example`, `C40_fr_false` | all attribute lists; defaults and percentages in exact arithmetic; from documents for balanced ones; C40_fr_false: the default of fr, which the claim leaves out, is not that of SVG |
| C41 | Definitions are not painted | partial | `C41_silent_partial`, `C41_nested_defs_false`, `C41_gradient_content_false` | any arithmetic; defs outside defs, gradients holding stops only; nested defs and other gradient content are painted |
| C42 | use terminates | partial | `C42_terminates_partial`, `C42_terminates_real_partial`, `C42_circle_false`, `C42_errors_partial`, `C42_error_kind_partial` | tidy documents whose definitions do not refer to themselves end, with one and the same result for every sufficient fuel; every circle of definitions is proved never to end; bad references stop with an error, nothing is drawn for them and nothing after them is read |
| C43 | use expansion is proportional to the input | partial | `C43_no_use_partial`, `C43_no_use_real_partial`, `few_real`, `size_holds`, `C43_false`, `C43_polynomial_false`, `C43_points_left` | linear bound for every document without use whose polylines and polygons have points (exact arithmetic, or any arithmetic with bounded arcs); false with use: for every k a document of size at most 80 (k+1)^2 gives 2^(k+1) operations, so no polynomial bound holds |
| C44 | use offsets its content | partial | `C44_shift_partial`, `C44_shift_real_partial`, `C44_gone`, `shift_draws`, `C44_arc_false`, `C44_nested_false`, `C44_path_false` | definitions of groups, lines, polylines, polygons, arc-free paths (any arithmetic), circles, ellipses and plain rectangles (exact arithmetic) are drawn shifted; the offset is gone afterwards; false for arcs in paths, nested uses and a path after another shape |
| C45 | Mask content goes to its mask only | partial | `C45_collected_partial`, `C45_registered_partial`, `C45_only_mask_end`, `C45_example`, `C45_nested_mask_false`, `C45_defs_false`, `C45_use_false` | for tidy documents: the paths of a mask are those its content gives in a group, in order, and none of them is among the document's; every registered mask is of that kind; false for masks within masks, defs within masks and use of masks |
| C46 | Titles and descriptions collect their text | partial | `C46_texts_partial`, `C46_no_text_panic`, `C46_nested_title_false`, `C46_use_false` | any arithmetic; tidy documents; a title inside a title loses text; a use of a title adds one |
| C47 | One path per drawable element, in document order | proved | `C47_one_path_per_tag`, `C47_document_order` | any arithmetic, every token stream |
| C48 | Render options: last one wins, defaults are neutral | partial | `C48_last_opacity`, `C48_last_target`, `C48_default_opacity`, `C48_no_target_false` | any arithmetic; without a Target everything is drawn at the origin |
| C49 | Target maps the view box onto the target rectangle | partial | `C49_target_partial`, `C49_target_false`, `C49_float64_partial` | exact arithmetic; exact condition on the target and a witness; binary64 with a bound on the error of the matrix |
| C50 | Rendering applies the style transform and then the target | partial | `C50_order_partial`, `C50_target_partial`, `C50_order_false` | exact arithmetic; exact condition on target and transform and a witness |
| C51 | Renderers replay every operation once and in order | partial | `C51_rasterx`, `C51_draw2d_partial`, `C51_gg_partial`, `C51_draw2d_false` | any arithmetic; full for rasterx; draw2d and gg add a close before each move |
| C52 | Fill and stroke happen exactly when painted, fill first | proved | `C52_fill_and_stroke` | any arithmetic; all three renderers; for gg whenever drawing ends normally |
| C53 | Opacity scales alpha monotonically within 0..255 | partial | `C53_alpha_partial`, `C53_monotone`, `C53_full`, `C53_float64_partial`, `C53_float64_monotone`, `C53_false` | exact arithmetic and binary64; opacities from 0 to 1; off by one from the rounded product, wraps around above 1 |
| C54 | Mask rendering terminates | partial | `C54_masks_partial`, `C54_plain_masks_partial`, `C54_self_false`, `C54_document_false` | masks that do not lead back to themselves; a self-referring mask never ends |
| C55 | Line widths scale with the transform | partial | `C55_uniform_partial`, `C55_rotation_false` | exact arithmetic; the claim fails for rotations |
| C56 | Textual paths parse back | partial | `C56_round_trip_partial`, `C56_cubic_false`, `C56_large_false` | exact arithmetic; paths without cubics, coordinates below 2^24/64 px; the text of every path with a cubic is rejected; float32 loses large coordinates |
| C57 | Attribute order does not matter for basic shapes | partial | `C57_rect`, `C57_line`, `C57_mask`, `C57_circle_partial`, `C57_circle_false` | any arithmetic; the claim fails for a circle or ellipse that gives r together with rx or ry |
| C58 | The view box falls back to width and height | proved | `C58_view_box`, `C58_four_numbers`, `C58_document`, `C58_float64`, `C58_box` | any arithmetic; C58_document is about whole documents; C58_float64 and C58_box: in binary64 every number of the view box is rounded once, so the view boxes asked for by C75, C80, C82 and C83 follow from the text |
| C59 | Dash arrays keep every dash in order | proved | `C59_dash_array`, `C59_none` |  |
| C60 | Gradient bounding boxes follow the painted path | proved | `C60_bounding_box`, `C60_user_space` | exact arithmetic for the bounding box |
| C61 | Selectors are read exactly | partial | `C61_selector_iff`, `C61_selector_error`, `C61_gradient_url`, `C61_gradient_url_other`, `C61_none_false` | the selectors themselves are read exactly; in a document none selects the mask without a name (C61_none_false) |
| C62 | Fills and strokes use the paint of their style | partial | `C62_draw2d`, `C62_rasterx`, `C62_gg_partial`, `C62_gg_false` | any arithmetic; full for draw2d and rasterx; gg fills with the stroke colour when there is a stroke (semantics of the backend calls in Spec/Drawing) |
| C63 | The last declaration along the ancestors decides | partial | `C63_keywords_partial`, `C63_paint_partial`, `C63_lengths_partial`, `C63_exact_partial`, `C63_root_percent_false` | balanced documents, for lengths with one svg; keywords and paints for any arithmetic, lengths exact in real arithmetic; percentages on the root element itself are read as 0 (C63_root_percent_false); a dash array none keeps the earlier one (C26_dash_false) |
| C64 | Stops, spread and transform of gradients | partial | `C64_stops_partial`, `C64_transform_partial`, `C64_transform_false`, `C64_opacity_percent_false` | Stops in exact arithmetic, for balanced documents (as in C38). The matrix for transform lists that C21 covers, in elements without transforms: the matrix wrongly includes the transform of the elements around the gradient (C64_transform_false). Opacities in percent are read a hundred times too large (C64_opacity_percent_false). |
| C65 | Strokes are drawn with the line settings of their style | partial | `C65_draw2d`, `C65_gg_path`, `C65_gg_partial`, `C65_rasterx_partial`, `C65_rasterx_dash_false`, `C65_gg_miter_false`, `C65_dash_scale_false` | Holds for draw2d. For gg whenever drawing ends without a panic, with bevels for miters (C65_gg_miter_false). For rasterx except for the dashes, on which no drawing depends (C65_rasterx_dash_false). The dashes are not scaled with the drawing while the line width is (C65_dash_scale_false). C65_example is a drawing with two strokes. |
| C66 | Gradients reach the renderer unchanged | partial | `C66_draw2d_partial`, `C66_gg_path`, `C66_gg_partial`, `C66_rasterx_partial`, `C66_documents`, `C66_gg_no_panic`, `C66_draw2d_false`, `C66_gg_false`, `C66_gg_target_false`, `C66_gg_radial_false`, `C66_rasterx_target_false`, `C66_rasterx_focal_false` | rasterx: everything but the radius of the focal circle (C66_rasterx_focal_false) and the target for user space units (C66_rasterx_target_false). gg: points and stops of fills without a stroke; no drawing depends on units, bounds, matrix or spread (C66_gg_false) or moves gradients with the target (C66_gg_target_false), and radial gradients run the wrong way round (C66_gg_radial_false). draw2d: one colour (C66_draw2d_false). Drawing a document with gg never panics (C66_gg_no_panic). C66_example is a document with a gradient. |
| C67 | Masks clip what is drawn | partial | `C67_gg_path`, `C67_gg_partial`, `C67_draw2d_false`, `C67_rasterx_false`, `C67_region_false`, `C67_transform_false`, `C67_nested_false` | For gg: each fill and stroke is clipped by the content of the last mask of its path, drawn with the matrix of the masked path and full opacity (ClipFor), or not clipped if there is none. False in gg for the region and for transforms inside the mask (C67_region_false, C67_transform_false) and for the other masks of a path (C67_nested_false); draw2d and rasterx ignore masks (C67_draw2d_false, C67_rasterx_false). C67_example is a document with a masked and an unmasked path. |
| C68 | Path data on a binary grid is read without rounding error in float64 | proved | `C68_grid_path`, `C68_off_grid_false` | binary64 (soft-float model), arcs excluded, offset of the parser zero; the witness shows the claim needs the grid |
| C69 | Only finite SVG numbers are accepted as numbers | partial | `C69_syntax_partial`, `C69_finite_partial`, `C69_hex_false`, `C69_infinite_false`, `C69_values_false` | binary64; the exact language that is accepted; finite for decimal numbers without a unit; false for hexadecimal literals, underscores, Inf, NaN and for lengths that overflow by their unit |
| C70 | Shapes on a binary grid are drawn without rounding error | partial | `C70_line`, `C70_poly_partial`, `C70_rect`, `C70_units_false` | binary64 (soft-float model), offset of the parser zero; a polyline of two points is not drawn at all (C17); C70_rect assumes sin 0 = 0, cos 0 = 1 and a finite degree constant of the library; the witness shows the claim needs the units named |
| C71 | Properties nobody sets have their SVG initial values | partial | `C71_initial_partial`, `C71_stroke_false` | any arithmetic, balanced documents; false for the stroke: its width is 2 and its joins are bevels |
| C72 | Line modes print as their names | proved | `C72_names`, `C72_distinct`, `C72_modes` | the whole of the three types |
| C73 | The shapes of a document are where their attributes put them | partial | `C73_line`, `C73_rect`, `C73_ellipse`, `C73_poly_partial`, `C73_path`, `C73_nothing`, `C73_float64_line`, `C73_float64_rect`, `C73_float64_poly_partial`, `C73_float64_path` | exact arithmetic, and binary64 on a grid; rectangles with square corners, polylines and polygons with three or more points, paths without arcs; false for polylines of two points and without points (C17) and for rounded rectangles with different radii (C16) |
| C74 | Path data with arbitrary decimal numbers is stored within 1/64 pixel plus the rounding of the sums | proved | `C74_path_error`, `C74_path_error_small` | binary64; that the second term is needed is C68_off_grid_false |
| C75 | What an element says is what is drawn: from the text of the attributes to the calls on the backend | partial | `C75_path`, `C75_line`, `C75_rect`, `C75_poly_partial` | Proved for paths of moves, lines, curves and closings, for lines, rectangles with square corners, and polylines and polygons of three or more points. Circles and ellipses are C80. Rounded corners are C83, elements under a transform C82. Arcs are C78 and C84. Not covered: targets away from the origin, for which the witness C49_target_false shows that the code does not put the picture where Target says. Shorter point lists are refused or drop out (C17 witnesses). ExactAtZero (sin 0 = 0, cos 0 = 1 in libm) is assumed for rectangles. |
| C76 | Lengths with units and percentages, and the shapes made of them, are read within a known error | partial | `C76_length`, `C76_line`, `C76_rect`, `C76_poly_partial` | Lines and rectangles without rx and ry are covered, rectangles under the assumption that width and height are larger than the reading error. Point lists of three or more points only (C17 witnesses). Circles, ellipses and lengths against the diagonal are C80, rounded corners C83. C70_units_false is the witness that storage is not exact for such lengths. |
| C77 | Shapes under nested transforms are drawn where the transforms and the target put them | partial | `C77_drawn_partial`, `C77_line_partial`, `C77_rect_partial`, `C77_ellipse_partial`, `C77_poly_partial`, `C77_path_partial` | Whole documents in exact arithmetic. Partial: only the transform lists and targets that the code composes in the right order (TransformedBy, InPlace); for the others the claim is false, see the witnesses of C18, C21, C22, C49 and C50. Rounded rectangles and arcs are not stated here; C77_drawn_partial applies to whatever an element contributes. |
| C78 | Paths with arcs mean what SVG says, wherever the arcs stand | partial | `C78_path_partial`, `C78_path_at_partial`, `C78_document_partial`, `C78_drawn_partial` | Exact arithmetic; inside a use with an offset only paths without arcs (C78_path_at_partial; C44_arc_false). Partial: arcs with one parameter set (C08_arcs_false is the witness for several), radii of the same sign (C79_zero_radius_false, C79_one_negative_false are the witnesses for the others) and different end points (C79_coinciding). |
| C79 | Arcs with parameters out of range | partial | `C79_coinciding`, `C79_zero_radius_false`, `C79_negative_partial`, `C79_one_negative_false` | Coinciding ends: proved in binary64 for all radii, rotations and flags (of the library functions only that NaN gives NaN, and int(NaN) as on amd64). Zero radius: false for every such arc, nothing is drawn and the current point stays. Two negative radii: as SVG says, in exact arithmetic. One negative radius: the arc of the other direction is drawn, for every such arc. |
| C80 | Circles and ellipses in binary64 | proved | `C80_radius`, `C80_stored`, `C80_drawn` | Binary64. Assumed of the mathematics library: Spec.Accurate (errors of at most 2^-50 in sine and cosine up to 8 and tangent up to 1/2, the documented values at zero, constants rounded once); fine_accurate shows that the assumption can be met. Coordinates up to 2^23, radii larger than 2^-42 times the magnitude. |
| C81 | Transform, TransformVector and the methods that add a step to a matrix | partial | `C81_transform`, `C81_vector`, `C81_skewX`, `C81_skewY`, `C81_rotate_partial`, `C81_translate_partial`, `C81_scale_partial`, `C81_rotate_false`, `C81_translate_false`, `C81_scale_false` | Exact arithmetic. Skews hold for all matrices; for rotations, translations and scalings the partial theorems say exactly for which matrices the claim holds (if and only if) and what the code does otherwise; witnesses show that it is false in general. |
| C82 | Transforms in binary64, with error bounds | partial | `C82_stored_partial`, `C82_drawn_partial`, `C82_line_partial`, `C82_rect_partial`, `C82_ellipse_partial`, `C82_poly_partial`, `C82_path_partial` | Binary64 with a mathematics library accurate to 2^-50. Partial: only for the transforms and targets for which the code composes in the right order (see C22, C81), rotations of at most a full turn, skews of at most 45 degrees; rectangles with rounded corners are C83; paths here are without arcs, circular arcs are C84. |
| C83 | The rounded corners of rectangles are round | partial | `C83_exact_partial`, `C83_document_partial`, `F64.C83_stored_partial`, `C83_drawn_partial` | In exact arithmetic (also for whole documents) and in binary64 with a mathematics library accurate to 2^-50 and the documented special cases of the arc tangent. Partial: equal radii (one of the two given, or both by the same text); in binary64 the radius must stay below half of both sides. With different radii the claim is false, see C16_rounded_false. |
| C84 | Circular arcs of paths are circular in binary64 | partial | `C84_path_partial`, `C84_document_partial`, `C84_drawn_partial` | In binary64 with a mathematics library accurate to 2^-50 whose arc tangent is the angle of a point up to 2^-50. Partial: arcs of circles with positive radii, without rotation, whose ends are at least 1/64 of the bound on the numbers apart. In exact arithmetic all ellipses are covered by C78. |
| C85 | Documents of groups, shapes, gradients, uses and masks are accepted, and the drawing is what the tree says | partial | `C85_tree_partial`, `C85_drawn_partial` | In exact arithmetic. Success is a conclusion, not a hypothesis. Partial: at most three masks on a shape (C29_fourth_mask_false), no masks in masks (C45_nested_mask_false) or in definitions, mask regions with the code's default 0 (SVG: -10% and 120%); a `use` stands below its definition, which is one shape, in groups or not, whose declarations change nothing of the look around it (C86_style_false, C86_parts_false), without arcs if the `use` has an offset (C44_arc_false); references to gradients stand below them, gradients do not refer to each other, and their stops have colours; transforms that the code composes in the right order (C21, C22), no percentages on the root, `stroke-dasharray="none"` only where no dash array is inherited; polylines and polygons of three or more points, rounded corners with equal radii, arcs as in C78. Initial values and the default of `fr` are those of the code (C64). |
| C86 | A use element is a group with a copy of its definition | partial | `C86_inline_partial`, `C86_style_false`, `C86_parts_false` | Any arithmetic, all outcomes (drawing, error, messages, panic). Partial: the definition is one shape without a style of its own and the use has no x and y; with a style of its own the claim is false (the code stores the path after it has taken the style of the definition off the stack, so that all used shapes get the style of the use element), and with several shapes it is false (they become one path). The offset is C44. |
| C87 | Every painting covers the outline of its own path | partial | `C87_rasterx`, `C87_draw2d_last`, `C87_draw2d_partial`, `C87_gg_closing`, `C87_gg_partial`, `C87_draw2d_false`, `C87_gg_unpainted_false`, `C87_gg_open_false` | Any arithmetic. Full for rasterx. False for draw2d with several subpaths (each move begins a new path, so only the last subpath is painted) and for gg (an unpainted path stays and is covered with the next; an open subpath that another follows is stroked closed); the two partial theorems are for the remaining drawings. The meaning of the canvas calls (which keep and which clear the current path) is trusted. |
| C88 | The picture is the one the document asks for | partial | `C88_rasterx_partial`, `C88_draw2d_partial`, `C88_gg_partial` | In exact arithmetic, end to end: from the tokens of the document to the paintings. Partial as C85 (the documents that the code reads right) and for targets that the code composes in the right order; widths are scaled by the mean of the two scales (C55). draw2d: no gradients (C66_draw2d_false), one subpath per figure (C87_draw2d_false). gg: no gradients, every figure has either a fill or a stroke (C62_gg_false, C87_gg_unpainted_false), subpaths that others follow are closed (C87_gg_open_false). The masks themselves are C54 and C85, the placing of gradients is C66. |
| C89 | Strokes are made with the line settings of the document | partial | `C89_draw2d_partial`, `C89_gg_partial`, `C89_rasterx_partial` | In exact arithmetic, from the tokens of the document to the settings in effect at each stroke. Partial as C85. The code itself loses some: dashes are not scaled (C65_dash_scale_false), rasterx has no dashes (C65_rasterx_dash_false), gg no miter joins (C65_gg_miter_false) and none of the backends but rasterx has lead caps, gaps and miter limits. |
| C90 | Masked figures are clipped by what their masks show | partial | `C90_gg_partial` | In exact arithmetic, from the tokens of the document to the clip in effect at each painting; that gg ends without a panic is a conclusion. Partial: as C88_gg_partial, also for what is in the masks; at most one mask on a figure (C67_nested_false); no transforms and no masks in masks (C67_transform_false, C45_nested_mask_false); the region of a mask has no effect (C67_region_false); draw2d and rasterx have no masks (C67_draw2d_false, C67_rasterx_false). |
| C91 | Comments, foreign attributes and text do not matter | proved | `C91_unknown_attributes`, `C91_text` | Any number type, any document. The attributes that mean something are listed in Spec/Bare.lean, separately from the model. The drawing is compared as a caller sees it, without the table of definitions, which is not exported. |
| C92 | A group that says nothing does nothing | partial | `C92_plain_group_partial`, `grouped_styled_false` | Any number type. Missing: groups inside defs, where the table of definitions differs, and documents that are not tidy. grouped_styled_false shows that the restriction to groups without style attributes is needed. |
| C93 | The attributes of a group may be put on its only element | partial | `C93_collapse_partial`, `collapse_transform_false` | Any number type. Missing: groups inside defs, elements other than shapes and groups, documents that are not tidy. collapse_transform_false shows that the restriction on transforms is needed. |
| C94 | Texts are only texts | partial | `C94_text`, `C94_title_partial`, `C94_defs_false` | Any number type. C94_text: documents with the same tags, no hypotheses. C94_title_partial: one title or description outside defs in a tidy document. For titles in defs the claim is false: C94_defs_false, a title with an identifier ends the group it is in. |
| C95 | A parsed file is closed | proved | `C95_file`, `C95_no_use` | Any number type. For contents on which parsing never ends (C42_circle_false) the call has no end. C95_no_use: with files without use the call ends and the file is closed. |
| C96 | With a view box the size of the picture changes nothing in the drawing | proved | `C96_size`, `C96_strings`, `C96_auto_false`, `C96_nested_false` | Any number type. The root attributes are distinct and equal but for width and height, of which each may be missing. The values have to be lengths: C96_auto_false, width="auto" is an error although the width is not used. C96_strings: the two strings, for documents with one svg element that are parsed without an error. With an inner svg element the drawing gets the width, height and view box of the inner one (C96_nested_false). |
| C97 | Leaving out or putting in shapes changes their paths and nothing else | partial | `C97_shapes_partial`, `C97_insert_partial`, `C97_points_false` | Any number type. Missing: shapes with a mask declaration, whose names stay in the backing arrays of the drawing. Polylines and polygons behind the shapes need a points attribute, and those in front of them, too, if there is a use behind: C97_points_false, one without is drawn with the numbers the shape before it has left. |
| C98 | The order of the shapes is the order of their paths, and nothing else | partial | `C98_order_partial` | Any number type. Missing: shapes with a mask declaration. Polylines and polygons need a points attribute (C97_points_false). |

## 6. Where the code disagrees with a property

Each line is a theorem with a concrete witness (a document, matrix or call), so that it can be tried against the Go code.

Numbers, paths, shapes
* `C08_arcs_false`: with two parameter sets in one `A` command the path ends at the end point of the first.
* `C10_second_close_false`: `Z` after a subpath that continues after a `Z` without `M` closes nothing.
* `C11_unreadable_numbers_false`: an unknown command letter in lenient modes still stops the path when its numbers cannot be read.
* `C16_rounded_false`: rounded rectangles with two different radii are drawn at another place.
* `C17_two_points_false`: a polyline of two points is not drawn. `C17_no_points_false`: one without `points` draws numbers left from an
  earlier element.
* `C79_zero_radius_false`: an arc with a radius of zero draws nothing and leaves the current point, instead of a line to its end (`M3 4a0 5 0 0 0 7 0`).
  `C79_one_negative_false`: an arc with one negative radius is drawn in the other direction (`M0 0A-1 1 0 0 1 2 0`).
* `C57_circle_false`: with both `r` and `rx`/`ry` the order of attributes matters.
* `C56_cubic_false`: cubics are printed as `CC…`, which cannot be read back. `C56_large_false`: large coordinates lose digits (float32).

Matrices and transforms
* `C18_mult_is_composition_false`, `C18_mult_assoc_false`: `Mult` is not matrix multiplication (E, F use b.A, b.D).
* `C21_single_translate_false`: `translate(2)` also shifts down. `C21_rotate_about_false`: `rotate(a x y)` moves (x, y).
  `C21_order_false`: translations and scalings after a matrix, rotation or skew. `C21_comma_false`: commas between functions are
  rejected. `C22_nested_false`: a child's scaling also scales the parent's translation.
* `C81_rotate_false`, `C81_translate_false`, `C81_scale_false`: the methods of a matrix with a translation or a linear part of its own.
* `C49_target_false`, `C50_order_false`, `C48_no_target_false` (the default target is the zero matrix).
* `C55_rotation_false`: the line width is scaled by the cosine of a rotation.

Styles and colours
* `C26_later_false` (opacities multiply), `C26_mask_false` (masks accumulate), `C26_dash_false` (`none` does not take back a dash array); `C61_none_false`: `mask="none"` selects a mask named "".
* `C35_lengths_false`, `C36_clamp_false`, `C36_empty_false` (panic), `C37_empty_false`, `C34_color_false` (panics).
* `C29_fourth_mask_false`: four nested masked groups and a sibling: the mask list of an earlier path is overwritten.
* `C63_root_percent_false`: percentages on the root element are 0. `C64_opacity_percent_false`: `stop-opacity="50%"` is 50; `C25_percent_false`: the same for `opacity`.
* `C71_stroke_false`: the initial stroke width is 2 and the initial line join bevel (SVG: 1, miter).
* `C64_transform_false`: a gradient's matrix includes the transforms of elements around it. `C38_forward`: a reference to a later
  gradient is black.

Structure
* `C24_svg_false`, `C24_use_false`, `C25_use_false`, `C28_use_false`, `C32_after_use_false`: incomplete definitions and a second `svg`
  unbalance or change the style stack.
* `C41_nested_defs_false`, `C41_gradient_content_false`, `C45_nested_mask_false`, `C45_defs_false`, `C45_use_false`,
  `C46_nested_title_false`.
* `C42_circle_false`: every circle of definitions makes `Parse` run for ever. `C43_false`, `C43_polynomial_false`: exponentially many
  operations.
* `C44_arc_false`: a `use` offset moves the start of an arc and not its end. `C44_nested_false`: the offsets of nested uses do not add
  up. `C44_path_false`: a path in a definition removes the shape before it.

Renderers
* `C86_style_false`, `C86_parts_false`: a `use` draws its definition with the style of the `use` element; the fill, stroke, opacity and
  transform of the definition itself have no effect, and several shapes become one path.
* `C87_draw2d_false`: of a path with several subpaths draw2d paints only the last (each move begins a new path). `C87_gg_unpainted_false`: a
  path without fill and stroke stays the current path of gg and is covered with the paint of the next. `C87_gg_open_false`: an open subpath
  that another follows is stroked closed.
* `C51_draw2d_false` (extra close before each move), `C53_false` (alpha wraps above 1), `C54_self_false`, `C54_document_false` (a mask that
  refers to itself never ends), `C62_gg_false` (fill in the stroke colour).
* `C65_rasterx_dash_false`, `C65_gg_miter_false`, `C65_dash_scale_false`.
* `C66_draw2d_false`, `C66_gg_false`, `C66_gg_target_false`, `C66_gg_radial_false`, `C66_rasterx_target_false`, `C66_rasterx_focal_false`.
* `C67_draw2d_false`, `C67_rasterx_false`, `C67_region_false`, `C67_transform_false`, `C67_nested_false`.
* `C68_off_grid_false`: `h.1 .1 .1 .1 .1 .1 .1 .1 .1 .1` from 0 ends at 63/64 instead of 1 (rounding error, then truncation). Not a
  disagreement with C68 but the reason for its hypothesis.
* `C70_units_false`: a line to 12.7cm (exactly 480px) ends at 479 63/64.
* `C69_hex_false`, `C69_infinite_false`, `C69_values_false`: numbers are read with Go's syntax. `x2="0x1.8p4"` is 24, `1_0px` is 10 pixels,
  `Inf`, `NaN` and `infin` (infinity in inches) are accepted in strict mode and end up as the coordinate -2^25; `1e308in` overflows to
  infinity without an error.

`C40_fr_false`: the default of `fr` is 50% instead of 0. `C46_use_false`: a `use` of a recorded title adds an empty title.
`C94_defs_false`: a title with an id inside a group of `defs` ends the group: what follows it is not drawn by a `use` of the group.
`C96_auto_false`: `width="auto"` on the root is an error even when a view box makes the width superfluous.
`C96_nested_false`: the width, height and view box of an inner `svg` element replace those of the drawing.
`C97_points_false`: a polyline without `points` is drawn with the numbers the shape before it has left.

Seen while modelling, without a property of their own: `appendStyleAttrs` reads only the first `style` attribute;
gradients with an empty id are accepted; path data that does not begin with a move is accepted in strict mode.

## 7. Mutation testing

In a scratch copy the model is edited the way a realistic bug would change the Go code (one edit each), the modules with the theorems of
the claims are rebuilt, and the theorems that no longer hold are recorded in `seeded/LOG.jsonl`: a theorem counts as failed
when its proof or any lemma it uses no longer compiles. Where all theorems of a broken claim survived, theorems were added or
tightened, and the edit was tried again.

## 8. Axioms

`#print axioms` for every theorem in `MANIFEST.json`:

* `Classical.choice`, `Quot.sound`, `propext` (381 theorems): `C01_float64`, `C01_number_list_exact`, `C01_number_list`, `C02_float64`, `C02_run_together_exact`, `C02_run_together`, `C03_float64`, `C03_rejects_others`, `C03_units_exact`, `C03_units`, `C04_not_percent`, `C04_percent`, `C05_float64`, `C05_quantised`, `C06_path_semantics_exact`, `C06_path_semantics`, `C07_relative_is_shifted`, `C08_arcs_false`, `C08_repeated_sets_partial`, `C09_parameter_count`, `C10_close_partial`, `C10_second_close_false`, `C11_unknown_skipped_partial`, `C11_unknown_strict`, `C11_unreadable_numbers_false`, `C12_path_independent`, `C13_centre`, `C13_two_centres`, `C14_arc_partial`, `C14_end_point`, `C15_ellipse`, `C15_zero_radius`, `C16_corners`, `C16_empty`, `C16_missing_radius`, `C16_rounded_false`, `C16_rounded_partial`, `C17_line`, `C17_no_points_drawn`, `C17_no_points_false`, `C17_odd`, `C17_poly_partial`, `C17_two_points_false`, `C17_two_points_not_drawn`, `C18_mult_assoc_false`, `C18_mult_is_composition_false`, `C18_mult_is_composition_partial`, `C19_invert_left`, `C19_invert_right`, `C19_singular_not_invertible`, `C20_float64_fixed`, `C20_float64_neutral`, `C20_float64`, `C20_identity_fixed`, `C20_identity_map`, `C20_identity_mult`, `C20_neutral_steps`, `C21_accepted`, `C21_comma_false`, `C21_order_false`, `C21_rotate_about_false`, `C21_single_translate_false`, `C21_transform_list_partial`, `C22_inherited`, `C22_nested_false`, `C22_nested_partial`, `C23_all_operations`, `C23_float64`, `C23_tFixed_truncates`, `C24_example`, `C24_masks_partial`, `C24_only_ancestors_partial`, `C24_svg_false`, `C24_use_false`, `C25_float64_partial`, `C25_opacity_partial`, `C25_percent_false`, `C25_product_partial`, `C25_use_false`, `C26_dash_false`, `C26_later_decides_partial`, `C26_later_false`, `C26_mask_false`, `C26_style_equals_attributes`, `C27_keyword`, `C27_other`, `C28_no_stack_panic_use_partial`, `C28_no_stack_panic`, `C28_restored_use_partial`, `C28_restored`, `C28_use_false`, `C29_fourth_mask_false`, `C29_prefix_partial`, `C30_lenient_modes_agree`, `C30_only_warn_logs`, `C31_strict_success`, `C32_after_use_false`, `C32_lenient_partial`, `C32_like_group_partial`, `C32_strict_partial`, `C33_element_error_stops`, `C33_no_element`, `C33_stream_error`, `C33_success_consumes_all`, `C34_color_false`, `C34_no_panic_partial`, `C34_only_colors_partial`, `C34_panic_sites`, `C34_terminates_partial`, `C34_terminates_real_partial`, `C35_lengths_false`, `C35_not_hex_three`, `C35_not_hex`, `C35_other_lengths`, `C35_round_trip`, `C35_short`, `C35_six`, `C35_three`, `C36_clamp_false`, `C36_empty_false`, `C36_error_partial`, `C36_only_three`, `C36_rgb_partial`, `C36_value`, `C37_empty_false`, `C37_name`, `C37_none`, `C37_other_partial`, `C37_unresolved`, `C38_example`, `C38_forward`, `C38_later`, `C38_paint_partial`, `C38_reference_partial`, `C38_unresolved_partial`, `C39_complete`, `C39_filled_partial`, `C40_direction_partial`, `C40_document_partial`, `C40_example`, `C40_fr_false`, `C40_linear`, `C40_radial`, `C40_units_anywhere`, `C41_gradient_content_false`, `C41_nested_defs_false`, `C41_silent_partial`, `C42_circle_false`, `C42_error_kind_partial`, `C42_errors_partial`, `C42_terminates_partial`, `C42_terminates_real_partial`, `C43_false`, `C43_no_use_partial`, `C43_no_use_real_partial`, `C43_points_left`, `C43_polynomial_false`, `C44_arc_false`, `C44_gone`, `C44_nested_false`, `C44_path_false`, `C44_shift_partial`, `C44_shift_real_partial`, `C45_collected_partial`, `C45_defs_false`, `C45_example`, `C45_nested_mask_false`, `C45_only_mask_end`, `C45_registered_partial`, `C45_use_false`, `C46_nested_title_false`, `C46_no_text_panic`, `C46_texts_partial`, `C46_use_false`, `C47_document_order`, `C47_one_path_per_tag`, `C48_default_opacity`, `C48_last_opacity`, `C48_last_target`, `C48_no_target_false`, `C49_float64_partial`, `C49_target_false`, `C49_target_partial`, `C50_order_false`, `C50_order_partial`, `C50_target_partial`, `C51_draw2d_false`, `C51_draw2d_partial`, `C51_gg_partial`, `C51_rasterx`, `C52_fill_and_stroke`, `C53_alpha_partial`, `C53_false`, `C53_float64_monotone`, `C53_float64_partial`, `C53_full`, `C53_monotone`, `C54_document_false`, `C54_masks_partial`, `C54_plain_masks_partial`, `C54_self_false`, `C55_rotation_false`, `C55_uniform_partial`, `C56_cubic_false`, `C56_large_false`, `C56_round_trip_partial`, `C57_circle_false`, `C57_circle_partial`, `C57_line`, `C57_mask`, `C57_rect`, `C58_box`, `C58_document`, `C58_float64`, `C58_four_numbers`, `C58_view_box`, `C59_dash_array`, `C59_none`, `C60_bounding_box`, `C60_user_space`, `C61_gradient_url_other`, `C61_gradient_url`, `C61_none_false`, `C61_selector_error`, `C61_selector_iff`, `C62_draw2d`, `C62_gg_false`, `C62_gg_partial`, `C62_rasterx`, `C63_exact_partial`, `C63_keywords_partial`, `C63_lengths_partial`, `C63_paint_partial`, `C63_root_percent_false`, `C64_opacity_percent_false`, `C64_stops_partial`, `C64_transform_false`, `C64_transform_partial`, `C65_dash_scale_false`, `C65_draw2d`, `C65_gg_miter_false`, `C65_gg_partial`, `C65_gg_path`, `C65_rasterx_dash_false`, `C65_rasterx_partial`, `C66_documents`, `C66_draw2d_false`, `C66_draw2d_partial`, `C66_gg_false`, `C66_gg_no_panic`, `C66_gg_partial`, `C66_gg_path`, `C66_gg_radial_false`, `C66_gg_target_false`, `C66_rasterx_focal_false`, `C66_rasterx_partial`, `C66_rasterx_target_false`, `C67_draw2d_false`, `C67_gg_partial`, `C67_gg_path`, `C67_nested_false`, `C67_rasterx_false`, `C67_region_false`, `C67_transform_false`, `C68_grid_path`, `C68_off_grid_false`, `C69_finite_partial`, `C69_hex_false`, `C69_infinite_false`, `C69_syntax_partial`, `C69_values_false`, `C70_line`, `C70_poly_partial`, `C70_rect`, `C70_units_false`, `C71_initial_partial`, `C71_stroke_false`, `C72_distinct`, `C73_ellipse`, `C73_float64_line`, `C73_float64_path`, `C73_float64_poly_partial`, `C73_float64_rect`, `C73_line`, `C73_nothing`, `C73_path`, `C73_poly_partial`, `C73_rect`, `C74_path_error_small`, `C74_path_error`, `C75_line`, `C75_path`, `C75_poly_partial`, `C75_rect`, `C76_length`, `C76_line`, `C76_poly_partial`, `C76_rect`, `C77_drawn_partial`, `C77_ellipse_partial`, `C77_line_partial`, `C77_path_partial`, `C77_poly_partial`, `C77_rect_partial`, `C78_document_partial`, `C78_drawn_partial`, `C78_path_at_partial`, `C78_path_partial`, `C79_coinciding`, `C79_negative_partial`, `C79_one_negative_false`, `C79_zero_radius_false`, `C80_drawn`, `C80_radius`, `C80_stored`, `C81_rotate_false`, `C81_rotate_partial`, `C81_scale_false`, `C81_scale_partial`, `C81_skewX`, `C81_skewY`, `C81_transform`, `C81_translate_false`, `C81_translate_partial`, `C81_vector`, `C82_drawn_partial`, `C82_ellipse_partial`, `C82_line_partial`, `C82_path_partial`, `C82_poly_partial`, `C82_rect_partial`, `C82_stored_partial`, `C83_document_partial`, `C83_drawn_partial`, `C83_exact_partial`, `C84_document_partial`, `C84_drawn_partial`, `C84_path_partial`, `C85_drawn_partial`, `C85_tree_partial`, `C86_inline_partial`, `C86_parts_false`, `C86_style_false`, `C87_draw2d_false`, `C87_draw2d_last`, `C87_draw2d_partial`, `C87_gg_closing`, `C87_gg_open_false`, `C87_gg_partial`, `C87_gg_unpainted_false`, `C87_rasterx`, `C88_draw2d_partial`, `C88_gg_partial`, `C88_rasterx_partial`, `C89_draw2d_partial`, `C89_gg_partial`, `C89_rasterx_partial`, `C90_gg_partial`, `C91_text`, `C91_unknown_attributes`, `C92_plain_group_partial`, `C93_collapse_partial`, `C94_defs_false`, `C94_text`, `C94_title_partial`, `C95_file`, `C95_no_use`, `C96_auto_false`, `C96_nested_false`, `C96_size`, `C96_strings`, `C97_insert_partial`, `C97_points_false`, `C97_shapes_partial`, `C98_order_partial`, `F64.C83_stored_partial`, `collapse_transform_false`, `few_real`, `grouped_styled_false`, `shift_draws`, `size_holds`
* `propext` (2 theorems): `C72_modes`, `C72_names`

