{"id": "C01", "title": "Number lists are tokenised faithfully", "statement": "When a number list (a path command's arguments, a `points` attribute, a `viewBox`, a transform's arguments) is written as any sequence of decimal spellings (optional minus, digits, optional fraction, optional lower-case exponent) separated by any non-empty runs of separator characters, or by nothing when the next spelling starts with a minus sign, the parser reads exactly those spellings, in that order, and nothing else.", "quantifier": "all lists of numeric spellings, all separator strings between, before and after them", "why_tests_cant": "the set of spellings and separators is infinite and the scanner is a hand-written state machine; a test fixes a few strings", "anchors": ["parse_path.go:getPoints", "parse_path.go:readFloat"]}
{"id": "C02", "title": "Run-together decimals are split at the second point", "statement": "A run such as `23.4.56.67` with any number of decimal points is read as the first decimal followed by one number per further point (`23.4`, `.56`, `.67`), whatever the digits are; a string with at most one point is read as one number.", "quantifier": "all digit strings and any number of points", "why_tests_cant": "the repository tests four literals; the loop must be right for every number of points and every digit string", "anchors": ["parse_path.go:readFloat", "parse_path_test.go:TestReadFloat"]}
{"id": "C03", "title": "Units scale by their CSS factor", "statement": "A length written as a number followed, after optional white space, by px, cm, mm, pt, in, Q, pc evaluates to the number times that unit's pixel factor (96 px to the inch), a number with no unit is in pixels, surrounding white space is irrelevant, and anything else after the number (em, PX, ...) is rejected as an error.", "quantifier": "all number spellings, all units, all amounts of white space", "why_tests_cant": "there are infinitely many spellings, and suffix matching order could make one unit shadow another", "anchors": ["units.go:findUnit", "units.go:parseUnit", "units.go:resolveUnit"]}
{"id": "C04", "title": "Percentages refer to the right view-box dimension", "statement": "A percentage in a horizontal attribute is that fraction of the view box's width, in a vertical attribute of its height, and in a radius/dash/stroke-like diagonal attribute of sqrt(w^2+h^2)/sqrt 2; a length that is not a percentage does not depend on the view box at all.", "quantifier": "all percentages, all view boxes, all three kinds of reference", "why_tests_cant": "numbers and view boxes are unbounded; independence from the view box is a universally quantified claim", "anchors": ["units.go:resolveUnit", "svg_elements.go:rectF", "svg_elements.go:circleF", "svg_elements.go:lineF"]}
{"id": "C05", "title": "Coordinates are quantised to 1/64 px toward zero", "statement": "Every coordinate v in an emitted path operation is stored as the multiple of 1/64 obtained by truncating v toward zero: the error is less than 1/64, never moves away from zero, and is zero exactly for multiples of 1/64 (within the 26.6 range).", "quantifier": "all coordinates whose 26.6 representation is in range", "why_tests_cant": "a claim about every real number; tests can only look at chosen points and rounding bugs hide between them", "anchors": ["shapes.go:toFixedP", "parse.go:fToFixed", "parse_path.go:addSeg"]}
{"id": "C06", "title": "Path data means what SVG says it means (non-arc commands)", "statement": "For every path made of M/m, L/l, H/h, V/v, C/c, S/s, Q/q, T/t and Z/z commands with any number of parameter sets each, in which a new subpath is started with a move after each close, parsing the textual form of the path yields exactly the sequence of move/line/quadratic/cubic/close operations that the SVG specification's one-parameter-set-at-a-time semantics prescribes, including implicit line-tos after a move and control-point reflection in S and T.", "quantifier": "all lists of commands, all numbers of parameter sets, all parameter values, all textual layouts", "why_tests_cant": "commands interact through the current point, the last control point and the last command; the number of interactions is unbounded", "anchors": ["parse_path.go:compilePath", "parse_path.go:addSeg", "parse_path.go:pointsToAbs", "parse_path.go:reflectControlCube", "parse_path.go:reflectControlQuad"]}
{"id": "C07", "title": "Relative commands are absolute commands shifted by the current point", "statement": "Replacing a lower-case (relative) path command by its upper-case form with every parameter pair offset by the current point at the start of its own parameter set produces the same operations and the same following behaviour.", "quantifier": "all current points, all commands, all parameter lists; for arcs a single parameter set (repeated sets are the subject of C08)", "why_tests_cant": "unbounded inputs; accumulated offsets across repeated parameter sets are exactly what a few literals miss", "anchors": ["parse_path.go:pointsToAbs", "parse_path.go:valsToAbs", "parse_path.go:addSeg"]}
{"id": "C08", "title": "Repeated parameter sets equal repeated commands", "statement": "A path command letter followed by several parameter sets is equivalent to repeating the letter before each set (with M/m continuing as L/l), for every command including arcs.", "quantifier": "all commands, all numbers of parameter sets, all splits of the sets", "why_tests_cant": "quantifies over every list length and every starting state", "anchors": ["parse_path.go:addSeg", "parse_path.go:addArcFromA"]}
{"id": "C09", "title": "Wrong parameter counts are rejected, right ones accepted", "statement": "A path command is accepted exactly when the number of its parameters is a positive multiple of its arity (exactly zero for Z), in every error mode, and a rejected command adds nothing to the path.", "quantifier": "all commands, all parameter counts, all error modes, all earlier states", "why_tests_cant": "the number of parameters is unbounded", "anchors": ["parse_path.go:hasSetsOrMore", "parse_path.go:addSeg"]}
{"id": "C10", "title": "Close returns to the subpath start", "statement": "After Z/z the current point is the start of the subpath being closed, so that the next relative command is relative to it, and every Z emits a close operation for the subpath drawn since the previous close.", "quantifier": "all path prefixes before the Z", "why_tests_cant": "depends on the whole history of the path", "anchors": ["parse_path.go:addSeg"]}
{"id": "C11", "title": "Unknown path letters are skipped or reported according to the error mode", "statement": "A segment starting with a letter that is not a path command yields an error in strict mode; in every other mode it leaves the path, the current point and the subpath start unchanged and parsing goes on.", "quantifier": "all letters (including non-ASCII ones), all states, all error modes", "why_tests_cant": "all Unicode letters times all states", "anchors": ["parse_path.go:compilePath", "parse_path.go:addSeg"]}
{"id": "C12", "title": "A path's geometry depends only on its own `d` attribute", "statement": "The operations obtained for a `d` string, and whether it is accepted, depend on that string, the current `use` offset and the error mode only, and not on any path, shape or number list parsed earlier.", "quantifier": "all earlier parser states", "why_tests_cant": "quantifies over all histories of earlier elements; leftover cursor state is invisible in single-element tests", "anchors": ["parse_path.go:init", "parse_path.go:compilePath"]}
{"id": "C13", "title": "The centre found for an arc puts both end points on the ellipse", "statement": "For an arc with positive radii between distinct points, the centre and the possibly enlarged radii chosen by the parser define an ellipse (with the requested rotation and the requested ratio of radii) passing through both end points; the radii are unchanged when such an ellipse exists, and are otherwise enlarged by the least factor that makes one exist; the two sweep/size choices pick the two different centres.", "quantifier": "all radii, rotations, end points and flags (in exact real arithmetic)", "why_tests_cant": "a geometric identity over six real parameters", "anchors": ["shapes.go:findEllipseCenter", "parse_path.go:addArcFromA"]}
{"id": "C14", "title": "An arc is drawn as a bounded chain of cubics ending exactly at its end point", "statement": "Each arc is drawn as at least one and at most 17 cubic segments whose last end point is exactly the requested end point and whose inner junctions lie on the ellipse, spanning at most pi/8 each.", "quantifier": "all arcs", "why_tests_cant": "the segment count depends on transcendental functions of the input", "anchors": ["shapes.go:addArc", "shapes.go:ellipsePointAt", "shapes.go:ellipsePrime"]}
{"id": "C15", "title": "Circles and ellipses become closed curves through points of the ellipse", "statement": "A circle or ellipse with non-zero radii becomes one move to its right-most point, 17 cubics whose junctions lie on the ellipse and whose last one ends at the starting point, and a close; with a zero radius it draws nothing and is not an error.", "quantifier": "all centres and radii", "why_tests_cant": "infinitely many radii; the number of segments sits exactly on a rounding boundary", "anchors": ["svg_elements.go:circleF", "parse_path.go:ellipseAt", "shapes.go:addArc"]}
{"id": "C16", "title": "Rectangles are drawn with exactly their four corners", "statement": "A rect without rounding becomes move, line, line, line, close through (x,y), (x+w,y), (x+w,y+h), (x,y+h) in that order; a rect with zero width or height draws nothing; a missing rx or ry takes the other's value; a rounded rect starts at (x+rx,y), has radii limited to half the sides, and is closed.", "quantifier": "all rectangles", "why_tests_cant": "all real rectangles; the code routes the corners through a matrix that must be the identity", "anchors": ["svg_elements.go:rectF", "shapes.go:addRect", "shapes.go:addRoundRect"]}
{"id": "C17", "title": "Lines, polylines and polygons visit their own points in order", "statement": "A line becomes a move and a line; a polyline with n>=2 points becomes a move to its first point and lines to the others in order; a polygon is the same followed by a close; an odd number of coordinates is an error; without a `points` attribute nothing is drawn.", "quantifier": "all point lists and all earlier parser states", "why_tests_cant": "unbounded lists, and the absence of leakage from earlier elements is a claim about every history", "anchors": ["svg_elements.go:lineF", "svg_elements.go:polylineF", "svg_elements.go:polygonF"]}
{"id": "C18", "title": "Matrix product is composition of maps", "statement": "Transforming a point by a.Mult(b) equals transforming it by b and then by a.", "quantifier": "all pairs of matrices and all points", "why_tests_cant": "an algebraic identity over 14 real variables", "anchors": ["matrix.go:Mult", "matrix.go:Transform"]}
{"id": "C19", "title": "Invert gives the inverse map", "statement": "For a matrix with non-zero determinant, a.Invert() undoes a and a undoes a.Invert(), on every point.", "quantifier": "all invertible matrices, all points", "why_tests_cant": "an algebraic identity over 8 real variables", "anchors": ["matrix.go:Invert", "matrix.go:invert", "matrix.go:coFact"]}
{"id": "C20", "title": "Identity is neutral", "statement": "Identity.Mult(a) and a.Mult(Identity) are a, Identity transforms every point to itself (also in fixed point), and translating, scaling by one, rotating or skewing by zero leave a matrix unchanged.", "quantifier": "all matrices, all points", "why_tests_cant": "universally quantified identities", "anchors": ["matrix.go:Identity", "matrix.go:Mult", "matrix.go:Translate", "matrix.go:Scale", "matrix.go:Rotate", "matrix.go:SkewX", "matrix.go:SkewY"]}
{"id": "C21", "title": "A transform list is applied from right to left", "statement": "For an element whose ancestors have no transform, the matrix obtained from a `transform` attribute maps each point to the result of applying the listed transformations one after the other from the right-most to the left-most, each with its SVG meaning.", "quantifier": "all lists of translate/scale/rotate/skew/matrix items, all points", "why_tests_cant": "lists of unbounded length, order-sensitive composition", "anchors": ["parse.go:parseTransform", "parse.go:readTransformAttr", "matrix.go"]}
{"id": "C22", "title": "Nested transforms compose parent after child", "statement": "A point of an element with its own transform inside a parent with a transform is mapped first by the element's transform and then by the parent's.", "quantifier": "all parent and child transforms, any nesting depth", "why_tests_cant": "depends on the whole chain of ancestors", "anchors": ["parse.go:parseTransform", "parse.go:pushStyle"]}
{"id": "C23", "title": "Fixed-point transformation agrees with the real one", "statement": "Transforming a 26.6 point by a matrix gives the real transform of that point truncated toward zero to 1/64 in each coordinate, for every kind of path operation.", "quantifier": "all matrices, all points in range, all operation kinds", "why_tests_cant": "universally quantified numerical statement", "anchors": ["matrix.go:TFixed", "matrix.go:MoveTo", "matrix.go:LineTo", "matrix.go:QuadTo", "matrix.go:CubicTo"]}
{"id": "C24", "title": "Styles come from ancestors only", "statement": "The style attached to an emitted path is the default style modified by the attributes of the element's ancestors from the root down and then by its own; siblings, earlier elements and descendants of siblings have no influence.", "quantifier": "all documents (trees of any size and depth)", "why_tests_cant": "a claim about every tree shape; stack discipline errors show only for particular nestings", "anchors": ["parse.go:pushStyle", "svg.go:Parse", "svg_elements.go:useF"]}
{"id": "C25", "title": "Opacity multiplies down the tree", "statement": "The fill (line) opacity of an emitted path is the product of all `opacity` and `fill-opacity` (`stroke-opacity`) values on the path from the root to it, and `fill-opacity` never affects lines nor `stroke-opacity` fills.", "quantifier": "all documents and attribute lists", "why_tests_cant": "unbounded nesting", "anchors": ["parse.go:readStyleAttr", "parse.go:pushStyle"]}
{"id": "C26", "title": "Style attribute and presentation attributes are equivalent", "statement": "Writing a property inside `style=\"...\"` has the same effect as writing it as an attribute at the same place; when a property is given several times the later one decides; declarations without a colon are ignored; case and spaces around property names do not matter.", "quantifier": "all attribute lists and declarations", "why_tests_cant": "unbounded lists; order-sensitivity", "anchors": ["parse.go:pushStyle", "styles.go:appendStyleAttrs"]}
{"id": "C27", "title": "Keyword properties accept exactly their keywords", "statement": "fill-rule, stroke-linecap, stroke-leadlinecap, stroke-linejoin and stroke-linegap set exactly the documented mode for each supported keyword and change nothing else; any other value changes nothing and is an error in strict mode only.", "quantifier": "all keyword strings, all current styles, all error modes", "why_tests_cant": "all strings, and the `changes nothing else` frame condition", "anchors": ["parse.go:readStyleAttr"]}
{"id": "C28", "title": "The style stack is balanced", "statement": "While parsing a well-nested document the parser always has a current style (it never runs out of the style stack and never panics because of it) and after a complete element the current style is what it was before the element.", "quantifier": "all well-nested documents", "why_tests_cant": "an invariant over every document", "anchors": ["svg.go:Parse", "svg_elements.go:useF", "parse.go:pushStyle"]}
{"id": "C29", "title": "Results already emitted are never changed or reordered", "statement": "Paths already collected when some input has been read are still there, unchanged and in the same positions, whatever comes later in the document: the paths of a prefix are a prefix of the paths of the whole.", "quantifier": "all documents and all cut points", "why_tests_cant": "quantifies over all continuations; slice aliasing is invisible in small tests", "anchors": ["parse.go:readStartElement", "parse.go:readStyleAttr", "svg.go:Parse"]}
{"id": "C30", "title": "Warn mode and ignore mode give the same picture", "statement": "Parsing the same input in warn mode and in ignore mode gives the same error status and the same Svg; only the log differs (and ignore mode logs nothing).", "quantifier": "all inputs", "why_tests_cant": "a two-run property over all documents", "anchors": ["parse.go:handleError", "parse.go:readStartElement", "parse_path.go:addSeg"]}
{"id": "C31", "title": "Strict mode only adds errors", "statement": "If parsing succeeds in strict mode then parsing the same input in ignore or warn mode succeeds with the same Svg, and nothing is logged.", "quantifier": "all inputs", "why_tests_cant": "a two-run property over all documents", "anchors": ["parse.go:handleError", "parse.go:readStartElement", "parse_path.go:addSeg"]}
{"id": "C32", "title": "Unknown elements never break lenient parsing", "statement": "An element outside `defs` whose name is not supported is an error in strict mode; in the other modes it emits nothing itself, changes neither gradients, masks, definitions nor texts, and its children are still processed with its style.", "quantifier": "all element names, attributes and states", "why_tests_cant": "all names and all states", "anchors": ["parse.go:readStartElement"]}
{"id": "C33", "title": "Reader and emptiness errors are reported", "statement": "An input with no element at all yields an error and no Svg; an XML or read error is returned as is together with what had been parsed; an error raised by an element stops parsing at that element; and success is reported only when the whole input has been consumed.", "quantifier": "all token streams and all positions of the failure", "why_tests_cant": "every crash point of the stream", "anchors": ["svg.go:Parse"]}
{"id": "C34", "title": "Parsing does not panic", "statement": "Parsing terminates without panicking on every well-nested input.", "quantifier": "all inputs", "why_tests_cant": "absence of a panic is a universally quantified claim; fuzzing only samples it", "anchors": ["svg.go:Parse", "patterns.go:parseSVGColor", "patterns.go:parseSVGColorNum", "patterns.go:parseColorValue", "svg_elements.go:useF"]}
{"id": "C35", "title": "Hexadecimal colours round-trip", "statement": "Formatting any colour as #rrggbb (either case) and parsing it gives that colour with full alpha; #rgb means #rrggbb; a non-hexadecimal digit is an error.", "quantifier": "all 2^24 colours, all strings", "why_tests_cant": "2^24 colours and all malformed strings", "anchors": ["patterns.go:parseSVGColorNum", "patterns.go:parseSVGColor"]}
{"id": "C36", "title": "rgb() components are clamped to 0..255", "statement": "rgb(a,b,c) with integer components gives each component limited to 0..255, with percentages scaled so that 100% is 255 and limited likewise; spaces around components do not matter; a wrong number of components or a non-number is an error.", "quantifier": "all integer triples, all spacings", "why_tests_cant": "all integers; wrap-around shows only outside the sampled range", "anchors": ["patterns.go:parseColorValue", "patterns.go:parseSVGColor"]}
{"id": "C37", "title": "none, names and urls are distinguished from black", "statement": "`none` turns painting off (it is not black), a CSS colour name in any letter case gives exactly its table colour, an unresolvable url(...) falls back to opaque black, and anything else that is neither rgb() nor #hex is an error.", "quantifier": "all strings, all name tables", "why_tests_cant": "all strings and letter cases", "anchors": ["patterns.go:parseSVGColor", "parse.go:readStyleAttr"]}
{"id": "C38", "title": "A gradient reference takes the gradient as defined so far", "statement": "A fill or stroke url(#id) takes the most recently started gradient with that id, with the stops collected so far, and what is parsed later (more stops, redefinitions) does not change styles already taken; two styles taken from the same gradient are independent.", "quantifier": "all documents and all interleavings of definitions and references", "why_tests_cant": "history-dependent; pointer aliasing", "anchors": ["patterns.go:readGradURL", "patterns.go:localizeGradIfStopClrNil", "svg_elements.go:stopF"]}
{"id": "C39", "title": "Painted gradients have no missing colours and a direction", "statement": "Every gradient in the style of an emitted path has a direction and a colour in each of its stops, so that renderers never meet a nil colour or a nil direction; missing stop colours are filled with the inherited paint's colour.", "quantifier": "all documents", "why_tests_cant": "an invariant over all documents", "anchors": ["patterns.go:localizeGradIfStopClrNil", "patterns.go:GetColor", "svg_elements.go:linearGradientF", "svg_elements.go:radialGradientF"]}
{"id": "C40", "title": "Gradient vectors take their defaults and units", "statement": "A linear gradient's vector defaults to (0,0)-(100%,0) and a radial gradient's circle to (50%,50%,50%) with the focal point at the centre unless given; percentages are fractions of the unit square in objectBoundingBox units and of the view box in userSpaceOnUse units, wherever in the attribute list gradientUnits stands.", "quantifier": "all attribute lists", "why_tests_cant": "all attribute orders and values", "anchors": ["svg_elements.go:linearGradientF", "svg_elements.go:radialGradientF", "patterns.go:readGradAttr"]}
{"id": "C41", "title": "Definitions are not painted", "statement": "Elements inside `defs` (other than gradients and their content) emit no path, no mask and no text, whatever they are.", "quantifier": "all defs contents", "why_tests_cant": "all element trees", "anchors": ["parse.go:readStartElement", "svg_elements.go:defsF", "svg.go:Parse"]}
{"id": "C42", "title": "use terminates", "statement": "Expanding a `use` element always terminates, and it stops with an error when the reference is missing, empty, not of the form #id, or not defined.", "quantifier": "all definition tables, including cyclic ones", "why_tests_cant": "termination for all reference graphs", "anchors": ["svg_elements.go:useF"]}
{"id": "C43", "title": "use expansion is proportional to the input", "statement": "The number of operations produced by a document is bounded linearly in the size of the document.", "quantifier": "all documents", "why_tests_cant": "a resource bound over all documents", "anchors": ["svg_elements.go:useF"]}
{"id": "C44", "title": "use offsets its content", "statement": "The content of a definition used with x, y is drawn shifted by (x, y), nested uses add up, and the offset is gone after the use element.", "quantifier": "all definitions, all offsets, all nestings", "why_tests_cant": "nesting and restoring of state over all definition tables", "anchors": ["svg_elements.go:useF", "svg_elements.go:rectF", "svg_elements.go:lineF", "parse_path.go:addSeg"]}
{"id": "C45", "title": "Mask content goes to its mask only", "statement": "Shapes inside a mask element outside defs are collected in document order in the mask registered under its id when the mask ends, and not among the document's paths; shapes outside masks never end up in a mask.", "quantifier": "all documents", "why_tests_cant": "all nestings", "anchors": ["svg_elements.go:maskF", "parse.go:readStartElement", "svg.go:Parse"]}
{"id": "C46", "title": "Titles and descriptions collect their text", "statement": "There is exactly one title (description) per title (desc) element outside defs, in document order, holding the concatenation of the character data up to its end tag, and no other text is collected; collecting text never panics.", "quantifier": "all documents, all chunkings of the character data", "why_tests_cant": "all documents and chunkings", "anchors": ["svg.go:Parse", "svg_elements.go:titleF", "svg_elements.go:descF"]}
{"id": "C47", "title": "One path per drawable element, in document order", "statement": "Each start tag adds at most one path, and the collected paths are in the order of the elements that produced them; g, stop, desc, title, defs, gradients, mask and unknown elements add none.", "quantifier": "all documents", "why_tests_cant": "all documents", "anchors": ["parse.go:readStartElement", "svg_elements.go"]}
{"id": "C48", "title": "Render options: last one wins, defaults are neutral", "statement": "With several render options the last Opacity and the last Target decide independently of their relative order, and with no option at all the picture is drawn untransformed with opacity 1.", "quantifier": "all option lists", "why_tests_cant": "all option lists", "anchors": ["renderer/options.go:Options", "renderer/options.go:Target"]}
{"id": "C49", "title": "Target maps the view box onto the target rectangle", "statement": "With Target(x,y,w,h) the corner (vx,vy) of the view box is drawn at (x,y) and the opposite corner at (x+w,y+h).", "quantifier": "all view boxes of non-zero size and all target rectangles", "why_tests_cant": "an identity over 8 real variables", "anchors": ["renderer/options.go:targetOption.apply", "renderer/options.go:Options"]}
{"id": "C50", "title": "Rendering applies the style transform and then the target", "statement": "Every point of a path is drawn at the image under the target mapping of its image under the path's own transform.", "quantifier": "all transforms, targets and points", "why_tests_cant": "identity over all matrices", "anchors": ["renderer/gg/draw.go:Draw", "renderer/draw2d/draw.go:drawTransformed", "renderer/rasterx/draw.go:drawTransformed"]}
{"id": "C51", "title": "Renderers replay every operation once and in order", "statement": "Each renderer hands the backend, for each path in document order, exactly one drawing call per path operation, of the same kind, in the same order, with the transformed points.", "quantifier": "all paths, all matrices, all three renderers", "why_tests_cant": "all paths", "anchors": ["renderer/gg/draw.go:drawTo", "renderer/draw2d/draw.go:drawTo", "renderer/rasterx/draw.go:drawToFiller", "renderer/rasterx/draw.go:drawToStroker"]}
{"id": "C52", "title": "Fill and stroke happen exactly when painted, fill first", "statement": "A path is filled exactly when its fill paint is set and stroked exactly when its line paint is set, the fill before the stroke, and a path with neither leaves no fill or stroke.", "quantifier": "all styles, all three renderers", "why_tests_cant": "all combinations over all paths", "anchors": ["renderer/gg/draw.go:drawTransformed", "renderer/draw2d/draw.go:drawTransformed", "renderer/rasterx/draw.go:drawTransformed"]}
{"id": "C53", "title": "Opacity scales alpha monotonically within 0..255", "statement": "The alpha handed to the backend is the colour's alpha times the opacity, rounded down, for every opacity; it never wraps around; full opacity leaves opaque colours unchanged.", "quantifier": "all colours, all opacities", "why_tests_cant": "all reals; wrap-around outside the sampled range", "anchors": ["renderer/gg/draw.go:toColor", "renderer/draw2d/draw.go:toColor"]}
{"id": "C54", "title": "Mask rendering terminates", "statement": "Drawing a document with masks terminates for every table of masks.", "quantifier": "all mask tables, including self-referring ones", "why_tests_cant": "termination over all reference graphs", "anchors": ["renderer/gg/draw.go:getMask", "renderer/gg/draw.go:drawTransformed"]}
{"id": "C55", "title": "Line widths scale with the transform", "statement": "The stroke width handed to the backend is the style's width times the scale of the transform; in particular rotations leave it unchanged.", "quantifier": "all transforms", "why_tests_cant": "all matrices", "anchors": ["matrix.go:LineWidthScale"]}
{"id": "C56", "title": "Textual paths parse back", "statement": "Path.ToSVGPath yields a text that the path parser accepts and that gives back the same operations, with coordinates off by at most 1/64.", "quantifier": "all paths", "why_tests_cant": "all paths and coordinates", "anchors": ["path.go:ToSVGPath", "path.go:String"]}
{"id": "C57", "title": "Attribute order does not matter for basic shapes", "statement": "Permuting the (distinct) attributes of a rect, line, circle/ellipse or mask does not change the emitted geometry.", "quantifier": "all attribute lists and permutations", "why_tests_cant": "n! orders", "anchors": ["svg_elements.go:rectF", "svg_elements.go:lineF", "svg_elements.go:circleF", "svg_elements.go:maskF"]}
{"id": "C58", "title": "The view box falls back to width and height", "statement": "After an svg element the view box is the one given by viewBox, with a zero (or missing) width or height replaced by the width or height attribute's number; a viewBox without exactly four numbers is an error.", "quantifier": "all attribute lists", "why_tests_cant": "all values and orders", "anchors": ["svg_elements.go:svgF"]}
{"id": "C59", "title": "Dash arrays keep every dash in order", "statement": "A stroke-dasharray written as lengths separated by commas and/or spaces gives exactly those lengths in order; `none` leaves the inherited dash unchanged.", "quantifier": "all lists, all separators", "why_tests_cant": "unbounded lists", "anchors": ["parse.go:splitOnCommaOrSpace", "parse.go:readStyleAttr"]}
{"id": "C60", "title": "Gradient bounding boxes follow the painted path", "statement": "For a gradient in objectBoundingBox units, applying a path extent sets its bounds to that extent and returns the map that applies the gradient matrix and then scales by the size of the box; in userSpaceOnUse units it changes nothing and returns the gradient matrix.", "quantifier": "all gradients and extents", "why_tests_cant": "identity over all extents and matrices", "anchors": ["patterns.go:ApplyPathExtent"]}
{"id": "C61", "title": "Selectors are read exactly", "statement": "mask=\"url(#id)\" selects exactly id for every id without a closing parenthesis, `none` or an empty value selects nothing, and any other value is an error; gradient urls likewise select exactly the id between # and the final parenthesis.", "quantifier": "all ids and all strings", "why_tests_cant": "all strings", "anchors": ["parse.go:parseSelector", "patterns.go:readGradURL"]}
{"id": "C62", "title": "Fills and strokes use the paint of their style", "statement": "Every fill is made with the fill colour of its path, combined with fill opacity and render opacity, under the path's fill rule; every stroke with the stroke colour, the stroke opacity and the scaled stroke width; nothing set for an earlier path or for the other paint shows through.", "quantifier": "all documents with plain colours, all options, all three renderers, any earlier state of the backend", "why_tests_cant": "all combinations of paints over all sequences of paths; backend state carried between paths", "anchors": ["renderer/gg/draw.go:drawTransformed", "renderer/draw2d/draw.go:drawTransformed", "renderer/rasterx/draw.go:drawTransformed"]}
{"id": "C63", "title": "The last declaration along the ancestors decides", "statement": "The fill rule, caps, joins, gap, stroke width, dash offset, dash array, miter limit, fill and stroke of a drawn path are what the last value declared for that property, on the elements from the root down to the drawn one and within an element in order, says (keywords by their tables, lengths with units and with percentages of the drawing's view box, colours in every notation); without a declaration they are the initial values (nonzero, butt, bevel, width 2, offset 0, no dashes, miter limit 4, black fill, no stroke).", "quantifier": "all documents, all chains of elements, all texts of the values", "why_tests_cant": "unbounded documents, chains and value texts", "anchors": ["parse.go:readStyleAttr", "parse.go:pushStyle", "types.go:DefaultStyle"]}
{"id": "C64", "title": "Stops, spread and transform of gradients", "statement": "A gradient used as fill or stroke has the stops that stand between its tags, in document order. Each stop is at the offset its `offset` attribute says (a number or a percentage divided by 100; 0 when absent), has the opacity its stop-opacity says (1 when absent) and the colour its stop-color says, whether these are attributes or stand in a style attribute (which wins). A stop without a colour has that of the inherited paint. The spread method is the one of spreadMethod, pad by default. The gradient's matrix is the identity without gradientTransform and otherwise maps points as the list of functions says.", "quantifier": "For all documents, all gradients in them with any number of stops and any attribute lists, all spellings of the numbers and percentages, all transform lists.", "why_tests_cant": "Any number of stops with any attributes in any order, any spelling of a number, and gradients standing anywhere in a document; tests cover a handful of gradient files.", "anchors": ["svg_elements.go:stopF", "units.go:readFraction", "patterns.go:readGradAttr", "parse.go:parseTransform", "styles.go:appendStyleAttrs"]}
{"id": "C65", "title": "Strokes are drawn with the line settings of their style", "statement": "Drawing an Svg makes exactly one stroke for each path that has a line paint, in the order of the paths, and each stroke is made with the line cap, the line join, the dash pattern and the dash offset (scaled with the drawing, as the line width is) of its own path's style, and in rasterx with its miter limit, leading cap (the trailing one if none is set) and gap, whatever was set in the backend before.", "quantifier": "for every Svg, all render options, all three renderers and every state of the backend before drawing", "why_tests_cant": "A test compares pictures of a few files; that no setting of one path leaks into the stroke of another needs every sequence of paths and styles.", "anchors": ["renderer/draw2d/draw.go:drawTransformed", "renderer/draw2d/draw.go:toLineCap", "renderer/draw2d/draw.go:toLineJoin", "renderer/gg/draw.go:drawTransformed", "renderer/gg/draw.go:toLineCap", "renderer/gg/draw.go:toLineJoin", "renderer/rasterx/draw.go:drawTransformed", "renderer/rasterx/draw.go:toLineCap", "renderer/rasterx/draw.go:toLineGap"]}
{"id": "C66", "title": "Gradients reach the renderer unchanged", "statement": "A path whose fill or stroke paint is a gradient is painted with that gradient: the renderer is given its points, all its stops in order with their colours and their opacities times that of the paint, its spread method, its units and its transform, placed relative to the bounding box of the painted outline or in user space under the transform of the drawing; drawing a parsed document never panics.", "quantifier": "for every document, every Svg, all render options, all three renderers and every state of the backend before drawing", "why_tests_cant": "Pictures of a few gradients do not show which of their parts are ignored, nor that no gradient of any document lacks a part the renderer needs.", "anchors": ["renderer/draw2d/draw.go:drawTransformed", "renderer/gg/draw.go:toGradient", "renderer/gg/draw.go:drawTransformed", "renderer/rasterx/draw.go:toRasterxGradient", "renderer/rasterx/draw.go:drawTransformed", "patterns.go:ApplyPathExtent", "patterns.go:GetColor"]}
{"id": "C67", "title": "Masks clip what is drawn", "statement": "Every fill and stroke of a path that refers to masks of the document is made through those masks, that is clipped by their content drawn in its own place within the region of the mask; a path without masks, or with a reference to an unknown mask, is not clipped, and no mask of an earlier path stays in effect.", "quantifier": "for every Svg whose drawing ends, masks nested in masks to any depth, all render options, all three renderers and every state of the backend before drawing", "why_tests_cant": "Masks can nest to any depth and follow each other in any order; a few pictures do not show that none leaks.", "anchors": ["renderer/gg/draw.go:drawTransformed", "renderer/gg/draw.go:getMask", "renderer/draw2d/draw.go:drawTransformed", "renderer/rasterx/draw.go:drawTransformed"]}
{"id": "C68", "title": "Path data on a binary grid is read without rounding error in float64", "statement": "If every number of the path data is an integer of magnitude at most 2^51 times 2^-k, and no coordinate of the drawing exceeds 2^51 times 2^-k, then the stored path is exactly what exact arithmetic gives: relative commands, reflected control points and long chains of segments accumulate no error, and only the final truncation to 1/64 is visible. (Off the grid this fails: ten relative steps of 0.1 end one 1/64 short of 1.)", "quantifier": "for all k up to 1074, all lists of path commands M L H V C S Q T Z in both cases with any number of parameter sets, in every layout and decimal spelling, of any length", "why_tests_cant": "Error accumulation depends on the values and on the length of the chain; a passing test of a few segments says nothing about the next chain.", "anchors": ["parse_path.go:compilePath", "parse_path.go:addSeg", "parse_path.go:getPoints", "parse_path.go:reflectControlCube", "parse_path.go:reflectControlQuad"]}
{"id": "C69", "title": "Only finite SVG numbers are accepted as numbers", "statement": "An attribute that is read as a number or a length is accepted only if it is an SVG number (digits with an optional sign, point and exponent), with one of the units where a length is expected, and its value is then a finite number; hexadecimal literals, digit separators, infinities and NaN are errors.", "quantifier": "all attribute values, all units, every error mode", "why_tests_cant": "what a number reader accepts is an infinite language; a test cannot show that nothing else is in it", "anchors": ["units.go:parseUnit", "units.go:findUnit", "units.go:resolveUnit", "units.go:parseBasicFloat"]}
{"id": "C70", "title": "Shapes on a binary grid are drawn without rounding error", "statement": "A line, a polyline or polygon, and a rectangle with square corners whose lengths are written as numbers that are multiples of a power of two (with no unit, px, in or pc) and of moderate size appear in the picture with exactly the corner points that exact arithmetic gives, truncated to 1/64 as always. In particular whole and half pixels are never moved.", "quantifier": "all attribute lists, all spellings of the numbers, all grid steps down to 2^-1073, all view boxes and styles in force", "why_tests_cant": "the claim is that no input on the grid is rounded at any of the steps (parsing, unit factor, sum, midpoint of the rotation, conversion to fixed point); the grid has far more numbers than can be run", "anchors": ["svg_elements.go: lineF, polylineF, polygonF, rectF", "shapes.go: addRect, addRoundRect", "units.go: resolveUnit", "matrix.go: TFixed"]}
{"id": "C71", "title": "Properties nobody sets have their SVG initial values", "statement": "If neither an element nor any of its ancestors declares a style property, its path is filled black with the nonzero rule and full opacity, has no stroke, full stroke opacity, stroke width 1, butt caps, miter joins, miter limit 4, no dashes, no mask and no transform, whatever the elements around it declare.", "quantifier": "all well-nested documents, all positions in them, all contents of the other elements", "why_tests_cant": "styles are kept on a stack that every element changes; that nothing of any sibling or definition remains in force is a statement about all documents", "anchors": ["types.go: DefaultStyle", "parse.go: pushStyle, readStyleAttr"]}
{"id": "C72", "title": "Line modes print as their names", "statement": "Every value of the join, cap and gap mode types prints as the name of its constant, different constants print differently, and values that are no constant print as unknown.", "quantifier": "all 256 values of each type", "why_tests_cant": "the tests would have to repeat the tables; that no two values are confused is a statement about all pairs", "anchors": ["types.go: JoinMode.String, CapMode.String, GapMode.String"]}
{"id": "C73", "title": "The shapes of a document are where their attributes put them", "statement": "In a tidy document with one svg element that is parsed without error, every line, rectangle, circle, ellipse, polyline, polygon and path that is not inside defs or a mask contributes exactly one path to the result (none if it has no extent), with the operations that SVG prescribes for its own attributes; percentages are those of the view box of the result. Nothing else in the document (elements before and after it, open groups, definitions, earlier uses with an offset) has any influence on the operations.", "quantifier": "for all tidy documents, all places in them, all attribute lists of shapes, all error modes and everything that precedes and follows", "why_tests_cant": "It is about every position in every document: parser state left behind by any earlier element could leak into a later one, and tests only try a few neighbours.", "anchors": ["svg.go: Parse", "parse.go: readStartElement", "svg_elements.go: rectF, circleF, lineF, polylineF, polygonF, pathF"]}
{"id": "C74", "title": "Path data with arbitrary decimal numbers is stored within 1/64 pixel plus the rounding of the sums", "statement": "Path data whose numbers and points are at most 2^e in size (e up to 24), with at most N sets of arguments where N(N+1) < 2^52, is accepted in the arithmetic of the machine (binary64), and every coordinate that is stored is less than 1/64 + N(N+1)*2^e/2^52 away from the coordinate that the SVG grammar prescribes, calculated exactly; the operations are the same in kind, number and order. For numbers up to 65536 and up to 1000 sets this is less than 1/64 + 1/65000 of a pixel. Without the second term the claim is false.", "quantifier": "for all path data of moves, lines, curves, reflected curves and closings, absolute and relative, all spellings of their numbers, all sizes within the bounds", "why_tests_cant": "Rounding errors of relative coordinates and reflected control points add up over the path; a test sees the error of one path, not the largest error of all paths.", "anchors": ["parse_path.go: compilePath, addSeg, getPoints, reflectControlQuad, reflectControlCube, readFloat"]}
{"id": "C75", "title": "What an element says is what is drawn: from the text of the attributes to the calls on the backend", "statement": "Take a document of any size that is read without error, and in it a path, a line, a rectangle with square corners, or a polyline or polygon of three or more points, with no transform on it or on the elements around it. Draw it with Target(0, 0, w, h). Then there is exactly one path of the result that comes from this element, and each of the three renderers makes, for this path, exactly the calls that the attributes prescribe (same kind, number and order); every coordinate given to the backend is within |w/width| * (1/64 + error of reading) + 1/64 + 2^(e+j)/2^47 pixels of the place in the picture to which the view box maps the exact coordinate, where 2^e bounds the coordinates, 2^j the scale and e + j is at most 22. All arithmetic is that of the machine (binary64).", "quantifier": "for all documents read without error, all positions of the element in them, all spellings of its numbers, all view boxes with width and height other than zero, all target sizes, all three renderers", "why_tests_cant": "The claim joins reading, nesting, the view box, the target and three backends; a test runs one document through one backend and compares a picture, which hides errors below a pixel and errors at other sizes.", "anchors": ["svg.go: Parse", "parse.go: readStartElement", "parse_path.go: compilePath", "renderer/options.go: Target", "renderer/rasterx/draw.go: Draw, drawTransformed", "renderer/draw2d/draw.go: Draw, drawTransformed", "renderer/gg/draw.go: Draw, drawTransformed"]}
{"id": "C76", "title": "Lengths with units and percentages, and the shapes made of them, are read within a known error", "statement": "In the arithmetic of the machine (binary64), an x, y, width, height, x1, y1, x2 or y2 given as a number with any of the units, or as a percentage of up to 1024% of the view box, with an exact value of at most 2^e in size (e up to 40), is read with an error of at most 2^e/2^45. Lines, rectangles with square corners, and polylines and polygons of three or more points are stored with each coordinate less than 1/64 plus 2^e/2^45, 2^e/2^43 or 2^e/2^54 from where it is, and with the operations in the prescribed order.", "quantifier": "for all lengths, units and percentages within the bounds, all view boxes, all attribute lists without duplicate names", "why_tests_cant": "The factors of cm, mm and in are not binary fractions, so nearly every length is rounded several times; the largest error over all inputs cannot be found by trying some.", "anchors": ["units.go: findUnit, parseUnit, resolveUnit", "svg_elements.go: lineF, rectF, polylineF, polygonF"]}
{"id": "C77", "title": "Shapes under nested transforms are drawn where the transforms and the target put them", "statement": "For a document that is parsed, a line, rectangle, circle, ellipse, polyline, polygon or path inside elements with transforms, drawn with the Target option, every pen movement that each renderer makes for it is at the point the attributes say, moved by its own transform, then by those of the elements around it from the inside out, then by the map that takes the view box to the target. The distance is at most a sixty-fourth of a unit before the transforms and a sixty-fourth of a pixel after them.", "quantifier": "all documents, all depths of nesting, all transforms written as the code reads them right, all targets at which the code composes target and transform in the right order, all shapes within the range of fixed point numbers", "why_tests_cant": "The combinations of nested transforms, shapes, view boxes and targets are unbounded. The wrong order of composition shows only when the matrices do not commute.", "anchors": ["svg.go: Parse", "parse.go: readStartElement, readTransformAttr", "matrix.go: Mult, TFixed", "renderer/options.go: Target", "renderer/rasterx/draw.go: Draw, drawTransformed", "renderer/draw2d/draw.go: Draw, drawTransformed", "renderer/gg/draw.go: Draw, drawTransformed"]}
{"id": "C78", "title": "Paths with arcs mean what SVG says, wherever the arcs stand", "statement": "For path data that mixes elliptical arcs, absolute or relative, with all other commands in any order, each arc with one parameter set, two positive or two negative radii and different end points, the operations stored are those of the other commands as SVG defines them, and for each arc one to seventeen cubics that follow the piece of the ellipse SVG prescribes (radii enlarged as little as needed, right side, right direction), ending at the given end point, from which the next command continues. In a document under transforms and drawn into a target, each renderer draws them where the transforms and the target put them.", "quantifier": "all command sequences, all spellings of the numbers, all radii, rotations, flags and end points, all documents and targets as in C77", "why_tests_cant": "An arc takes its start from what comes before and gives its end to what comes after; the combinations with relative and smooth commands are unbounded, and the shape depends on seven real parameters.", "anchors": ["parse_path.go: addSeg, addArcFromA", "shapes.go: addArc, findEllipseCenter"]}
{"id": "C79", "title": "Arcs with parameters out of range", "statement": "SVG 1.1 F.6.2 and F.6.6: an arc that ends where it starts is left out; an arc with a radius of zero is a straight line to its end; the signs of the radii are dropped.", "quantifier": "all path data before the arc, all parameters of the arc", "why_tests_cant": "The cases are decided by divisions by zero, infinities and NaN that arise in the middle of the computation of the centre, and by where the signs of the radii cancel; there is no branch in the code for a test to cover.", "anchors": ["parse_path.go: addArcFromA", "shapes.go: addArc, findEllipseCenter"]}
{"id": "C80", "title": "Circles and ellipses in binary64", "statement": "A circle or an ellipse whose centre and radii are given as numbers, as lengths in any unit or as percentages (r against the diagonal of the view box divided by the square root of two) is stored as a move to its right end, seventeen cubics around the ellipse and a close. Without transforms it is drawn at that place of the picture. Every control point is off by at most 1/64 of a pixel and a rounding error of 2^-38 of the coordinates, scaled, and 1/64 of a pixel once more after scaling.", "quantifier": "all documents, all spellings of the lengths, all view boxes and target sizes within the stated magnitudes, all mathematics libraries with errors of at most 2^-50 in sine, cosine and tangent", "why_tests_cant": "Seventeen control points per element are computed by a chain of about twenty rounded operations each, through square root, tangent, sine and cosine; a comparison of images on samples bounds nothing for other centres and radii.", "anchors": ["shapes.go: addArc, ellipsePrime, ellipsePointAt", "svg_elements.go: circleF", "units.go: parseUnit"]}
{"id": "C81", "title": "Transform, TransformVector and the methods that add a step to a matrix", "statement": "Matrix2D.Transform maps a point as the matrix says, TransformVector maps the difference of two points to the difference of their images, and SkewX, SkewY, Rotate, Translate and Scale give the matrix that first makes the step and then does what the old matrix did.", "quantifier": "all matrices, points, angles and factors", "why_tests_cant": "The order of composition and the mixed terms cancel for the matrices tests use (identity, one step at a time).", "anchors": ["matrix.go: Transform, TransformVector, SkewX, SkewY, Rotate, Translate, Scale"]}
{"id": "C82", "title": "Transforms in binary64, with error bounds", "statement": "The matrix stored for a path is, up to the rounding of binary64, the map that the transform attributes of its element and of the elements around it say; and lines, rectangles, circles, ellipses, polygons and paths under transforms are drawn by all three renderers within a stated distance of the exact image.", "quantifier": "all documents, lists of transform functions and nestings of them that are composed in the right order, all sizes up to stated powers of two", "why_tests_cant": "Each transform rounds twelve products and sums and the angles, sines and tangents are inexact; the error after many steps is not visible in examples that happen to be exact.", "anchors": ["parse.go: parseTransform, readTransformAttr", "matrix.go: Mult, Translate, Scale, Rotate, SkewX, SkewY", "renderer/options.go: Target"]}
{"id": "C83", "title": "The rounded corners of rectangles are round", "statement": "A rectangle with rx and ry is stored and drawn as its four sides joined by four quarter circles of that radius: each corner is five cubics that begin and end on the circle, leave and arrive along its tangent, stay within a six hundredth of the radius of it, and every stored coordinate is less than 5/64 away from the ideal one.", "quantifier": "all rectangles, radii, units and percentages up to stated powers of two; all transforms and targets covered by C82", "why_tests_cant": "The corners are built from angles, tangents and truncations to sixty-fourths in several stages; how far the errors add up for an arbitrary rectangle is not visible in examples.", "anchors": ["svg_elements.go: rectF", "shapes.go: addRoundRect, roundGap, addArc, length"]}
{"id": "C84", "title": "Circular arcs of paths are circular in binary64", "statement": "A path with arcs of a circle is read in binary64 and stored as the lines and curves it says, and each arc as a chain of cubics whose points are less than 1/64 and 1/4096 of the radius away from a chain that begins and ends at the two ends, follows the piece of the circle that SVG prescribes for the flags (including the radius scaled up when the ends are too far apart) and turns by less than 23 degrees in each piece; drawn, every point is within a stated fraction of a pixel of that.", "quantifier": "all paths of move, line, curve, close and arc commands in any spelling whose numbers are up to a stated power of two and whose arcs have equal radii, no rotation and ends that are not very close; all transforms and targets covered by C82", "why_tests_cant": "The centre, the two angles, the number of pieces and the points all come from rounded square roots, arc tangents and sums, with several case distinctions decided on rounded values; a test sees single arcs, not how far the worst of them goes wrong.", "anchors": ["parse_path.go: addArcFromA", "shapes.go: addArc, findEllipseCenter, ellipsePrime, ellipsePointAt"]}
{"id": "C85", "title": "Documents of groups, shapes, gradients, uses and masks are accepted, and the drawing is what the tree says", "statement": "A document made of a root element, nested groups, shapes (lines, rectangles with square or rounded corners, circles, ellipses, polylines, polygons, paths with curves and arcs), linear and radial gradients, definitions and uses of them, masks, titles, descriptions, text and comments, with valid values, is accepted in every error mode without an error or a warning. The drawing has the view box the root says, one path per visible shape or use outside the masks in the order of the document, each with the outline its attributes say (for a use, that of the shape it refers to, moved by its x and y) and with the colours or gradients, opacities, widths, joins, caps, dashes, masks and transform that follow from the declarations on it and around it, every mask with its region and what is in it, and the texts of the titles and descriptions.", "quantifier": "all trees of any depth and size; all attribute lists and style declarations; all spellings of numbers, lengths, colours, keywords, transforms and path data; all error modes; all arrangements of text and comments", "why_tests_cant": "Acceptance and the right result have to hold together for every nesting and every combination of declarations and spellings; tests look at a handful of files, and whether anything in an unusual but valid document stops the parser cannot be seen from them.", "anchors": ["svg.go: ParseWithOptions", "parse.go: readStartElement, pushStyle, readStyleAttr", "svg_elements.go: svgF, gF, rectF, circleF, lineF, polylineF, polygonF, pathF, titleF, descF, defsF, useF, maskF, linearGradientF, radialGradientF, stopF", "parse_path.go: compilePath"]}
{"id": "C86", "title": "A use element is a group with a copy of its definition", "statement": "Replacing a `use` element by a group with the same attributes that holds a copy of the referenced element does not change what Parse gives: the same paths with the same outlines and styles, the same texts, error and messages.", "quantifier": "all documents around the use element, before and after it; all attributes and styles of the use element and of the elements around it; all shapes as definitions; all error modes; all ends of the stream, also with errors before, in or after the use", "why_tests_cant": "The claim compares two runs of the parser for every document around the reference and every definition; tests compare a few drawings with stored results.", "anchors": ["svg_elements.go: useF, gF, drawFuncs", "parse.go: readStartElement, pushStyle", "svg.go: ParseWithOptions"]}
{"id": "C87", "title": "Every painting covers the outline of its own path", "statement": "When a drawing is rendered, each fill covers the area inside the outline of the path it belongs to and each stroke follows that outline, under the transform of the path and the target; nothing of other paths is covered and no part of the outline is missing, for each of the three renderers.", "quantifier": "all drawings (any number of paths, subpaths and operations, any styles), all render options, all states of the canvas before the drawing, all three renderers", "why_tests_cant": "The current path of a canvas is state that survives from one call to the next; whether a painting has exactly its own outline depends on all calls before it, for every sequence of paths. Tests compare a few images.", "anchors": ["renderer/draw2d/draw.go: Draw, drawTransformed, drawTo", "renderer/gg/draw.go: Draw, drawTransformed, drawTo", "renderer/rasterx/draw.go: Draw, drawTransformed, drawToFiller, drawToStroker"]}
{"id": "C88", "title": "The picture is the one the document asks for", "statement": "A well-formed document is accepted, and rendering it paints exactly the figures that the tree of elements says, in document order, the fill of each before its stroke; each painting covers the outline of its figure where the transforms and the target rectangle put it (up to fixed point rounding), with the colour or gradient, the opacity, the fill rule and the line width that the declarations say.", "quantifier": "all documents that are trees of groups, shapes, gradients, definitions, uses and masks of any depth and size; all target rectangles and opacities; all error modes; all states of the canvas before; all three renderers", "why_tests_cant": "The claim runs from the text of the document to the calls on the canvas for every tree; golden-image tests cover a few drawings and no combination of nesting, transforms, styles and renderers beyond those.", "anchors": ["svg.go: Parse", "parse.go: readStartElement, pushStyle", "svg_elements.go: drawFuncs", "renderer/draw2d/draw.go: Draw", "renderer/gg/draw.go: Draw", "renderer/rasterx/draw.go: Draw"]}
{"id": "C89", "title": "Strokes are made with the line settings of the document", "statement": "A well-formed document is accepted, and when it is rendered every stroke is made with the cap, the join, the dashes, the dash offset, the gap and the miter limit that the declarations of the element and of the elements around it say, in document order, whatever was set on the canvas before and by the strokes before.", "quantifier": "all documents that are trees of groups, shapes, gradients, definitions, uses and masks of any depth and size; all render options; all error modes; all states of the canvas before; all three renderers", "why_tests_cant": "Line settings persist on the canvas from one path to the next and are inherited through any number of elements; tests compare images of a few drawings.", "anchors": ["svg.go: Parse", "parse.go: readStyleAttr, pushStyle", "renderer/draw2d/draw.go: drawTransformed, toLineCap, toLineJoin", "renderer/gg/draw.go: drawTransformed, toLineCap, toLineJoin", "renderer/rasterx/draw.go: drawTransformed, toLineCap, toLineGap, toLineJoin"]}
{"id": "C90", "title": "Masked figures are clipped by what their masks show", "statement": "A well-formed document is accepted, and when gg renders it, every fill and stroke of a figure that names a mask is clipped by the figures in that mask, in their looks, with full opacity and drawn where the masked figure is; figures that name no mask, or one that does not exist, are not clipped, whatever was clipped before.", "quantifier": "all documents that are trees of groups, shapes, gradients, definitions, uses and masks of any depth and size; all target rectangles and opacities; all error modes; all states of the canvas before", "why_tests_cant": "The clip is state of the canvas that survives from one figure to the next, and what is in a mask is read elsewhere in the document; tests compare images of a few drawings.", "anchors": ["svg_elements.go: maskF, drawFuncs", "parse.go: readStyleAttr", "renderer/gg/draw.go: Draw, drawTransformed, getMask"]}
{"id": "C91", "title": "Comments, foreign attributes and text do not matter", "statement": "Two documents with the same tags that differ only in comments, processing instructions and directives and in attributes that mean nothing for the elements they are on give the same outcome: the same drawing, the same error, the same log messages. If they also differ in text, the outcomes differ in the texts of titles and descriptions only.", "quantifier": "all documents, well-nested or not, of any size; all error modes; all ways the stream may end", "why_tests_cant": "An attribute name is compared in many places (style, geometry, gradients, stops, uses, masks), and attributes are kept with definitions and read again at each use; no set of files shows that a foreign attribute is never picked up.", "anchors": ["svg.go: Parse", "parse.go: pushStyle, readStyleAttr, readStartElement, readGradientAttr, readGradientURL", "svg_elements.go: drawFuncs"]}
{"id": "C92", "title": "A group that says nothing does nothing", "statement": "Taking away the two tags of a group that has no style attributes, and leaving its content where it is, changes nothing in the outcome of parsing.", "quantifier": "all well-formed documents of any size; all groups in them outside of definitions, with any content; all error modes; all ways the stream may end", "why_tests_cant": "The group adds a level to the stack of styles below everything in it, including gradients, masks, definitions and uses; tests compare a few documents.", "anchors": ["svg.go: Parse", "parse.go: pushStyle, readStartElement", "svg_elements.go: drawFuncs"]}
{"id": "C93", "title": "The attributes of a group may be put on its only element", "statement": "Taking away a group around a single shape or group, and putting the group's attributes before those of the element inside, changes nothing in the outcome of parsing, if not both have a transform and none of the group's attributes means something else on the element.", "quantifier": "all well-formed documents of any size; all groups in them outside of definitions around one shape or group with any content; all lists of attributes; all error modes; all ways the stream may end", "why_tests_cant": "Inheritance from a group and the order of declarations on one element are two different mechanisms that have to agree on every property and every value, in the presence of errors too; tests compare a few documents.", "anchors": ["svg.go: Parse", "parse.go: pushStyle, readStyleAttr, parseTransform, readStartElement", "svg_elements.go: drawFuncs"]}
{"id": "C94", "title": "Texts are only texts", "statement": "The text of a document, its comments, titles and descriptions change nothing but the list of titles and descriptions: two documents with the same tags give the same paths, styles, gradients, masks, size, error and warnings, whatever stands between the tags; and a title or description element can be left out or put in anywhere without a change to the drawing.", "quantifier": "for all documents, well-formed or not, all error modes and all ways in which the stream ends; for the elements, at every place of the document and with every content", "why_tests_cant": "The text can be anything and stand anywhere; that nothing else reads it is a statement about every element and every state of the parser.", "anchors": ["svg.go: Parse, Svg.Titles, Svg.Descriptions", "svg_elements.go: titleF, descF", "parse.go: readStartElement"]}
{"id": "C95", "title": "A parsed file is closed", "statement": "Parsing a file gives what parsing its content gives, or no drawing and the error of the operating system if the file cannot be opened; when the call has come to an end, by returning or with a panic, the file is closed, and it is not read when it is not open.", "quantifier": "for all file systems, file names, contents and error modes", "why_tests_cant": "A file that stays open on one of the ways out of the parser (an error, a warning mode, a panic on some content) shows only after many calls; tests look at the result.", "anchors": ["svg.go: ParseFile, Parse"]}
{"id": "C96", "title": "With a view box the size of the picture changes nothing in the drawing", "statement": "If the root element has a view box with a width and a height other than zero, then its width and height attributes, as long as they are lengths, decide nothing but the width and height strings of the result: two documents that differ in them only give the same view box, paths, styles, gradients, masks, texts, error and warnings, percentages included; so does a document without them. In a document with one svg element these two strings are exactly what the attributes say, and empty without them.", "quantifier": "for all documents after the root start tag, well-formed or not, all other attributes of the root, all pairs of sizes, all error modes and all ways in which the stream ends", "why_tests_cant": "The size could be read by any element further down, for instance where a percentage is resolved; that none does is a statement about every element and every state of the parser.", "anchors": ["svg.go: Parse, Svg.Width, Svg.Height, Svg.ViewBox", "svg_elements.go: svgF", "units.go: percentageReference"]}
{"id": "C97", "title": "Leaving out or putting in shapes changes their paths and nothing else", "statement": "Take a document that is read without error, and leave out a shape (path, rect, circle, ellipse, line, polyline, polygon), or a group of shapes, that stands outside of defs, masks and texts. The rest is read without error, too, and gives the same drawing: the same view box, size, texts, gradients, masks and definitions, and the same paths with the same styles in the same order, except for the paths of what was left out, which stood behind the paths of what precedes it, at most one for each element. The messages are the same but for those about what was left out. So no shape has an effect on those that follow. Conversely, shapes that can be read behind what precedes can be put in there, with the same effect.", "quantifier": "for all documents that are nested properly, all places within the root, all properly nested runs of groups, shapes and character data without mask declarations, all error modes", "why_tests_cant": "The parser draws every shape with the same cursor, whose numbers, places and control points stay behind when a shape is done; that none of them reaches a later element is a statement about every pair of elements and everything between them. It fails for a polyline without points.", "anchors": ["svg.go: Parse", "parse.go: readStartElement, pathCursor", "svg_elements.go: rectF, circleF, lineF, polylineF, polygonF, pathF, useF", "parse_path.go: compilePath, init"]}
{"id": "C98", "title": "The order of the shapes is the order of their paths, and nothing else", "statement": "Take a document that is read without error and let two neighbouring shapes, or groups of shapes, outside of defs, masks and texts change places. The document is read without error again and gives the same drawing, only with the paths of the one before those of the other; the messages about them change places in the same way. The geometry and the style of a shape do not depend on which shapes stand before it.", "quantifier": "for all documents that are nested properly, all places within the root, all pairs of neighbouring properly nested runs of groups, shapes and character data without mask declarations, all error modes", "why_tests_cant": "It compares two runs of the parser over two different documents, for every pair of neighbours, every context in front and every rest behind them.", "anchors": ["svg.go: Parse", "parse.go: readStartElement, pathCursor", "svg_elements.go: rectF, circleF, lineF, polylineF, polygonF, pathF", "parse_path.go: compilePath, init"]}
