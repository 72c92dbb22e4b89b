# DESIGN — machine-checked model of bcsgh/stl-to-ps in Lean 4

## 1. What is built

A functional Lean model of the whole program, from the bytes of the script and of the STL files to the bytes of the
PostScript output and the exit status, function by function, and theorems about it. Every model definition cites the file and lines in /repo it
models.

    lean/Verif/Model/*.lean   the model (no proofs except termination)
    lean/Verif/Spec/*.lean    small independent specifications (grammar, regex language, PostScript scanner, geometry)
    lean/Verif/Lemmas/*.lean  helper lemmas
    lean/Verif/Props/*.lean   the property theorems, named C<nn>_..., and the non-vacuity examples beside them
    lean/Verif/Check/*.lean   the repository's own tests run through the model (testing, no theorems)

## 2. Arithmetic

C++ `double` is abstracted by a class `FP α` that has the operations the code uses (+ - * / sqrt sin cos acos atan2,
comparisons, literals, conversions, printing) and **no laws**. The whole model is written over `FP α`.

* Theorems about control flow, containers, parsing, acceptance, output structure and so on are proved for **every** `FP α`, hence
  also for IEEE doubles with rounding.
* Theorems that need an order only assume `FPOrd` (on the non-NaN values the comparisons are a total preorder).
* Geometric theorems are proved at the instance `Ext K`: the elements of an ordered field K (read: ℝ) together with +∞, −∞ and NaN,
  with IEEE rules for the special values (x/0, ∞−∞, comparisons with NaN) and *exact* finite arithmetic.
  What `Ext` leaves out: rounding, overflow, and the sign of zero. A geometric theorem is therefore a statement about the algorithm in exact
  arithmetic; DESIGN labels each theorem with its level: [any FP], [FPOrd], [FPRound], [Ext K], [Ext ℝ].
* `FPRound` (Spec/Round.lean) has the laws of a rounded format that do not depend on the rounding: sizes bounded by powers of two are respected,
  x−x is zero, sums and products of zeros are zero, finite numerals have finite values. The instance `Fl R` is the reals with +∞, −∞ and NaN, each operation
  being the exact one followed by a rounding `R` and overflow; `binary64 I` is IEEE 754 double precision (53 bits, subnormals, overflow at 2^1024) with rounding
  of the significand by `I` (down, up, to nearest even, …). Left out at this level: the sign of zero; sin, cos and so on are taken to be correctly rounded
  in `Fl`, but the laws only ask that sin and cos are at most 1 and not both zero.

## 3. Outcomes

Functions that can terminate the process or hit undefined behaviour return `Except Abort _`, with
`Abort = check | atCheck | ub | exception` (failed CHECK; the CHECK that '@' is a location, kept apart because C07 is about it;
undefined behaviour; uncaught C++ exception). `false`/`nullptr` results are ordinary values.
Uninitialised locals are read from an arbitrary environment `junk`/`junkM`; results of library calls whose implementation is not modelled
(`std::sort`, `absl::ParsedFormat`, clock, flags, file system) come from the structure `Env` (Model/Ast.lean) or `World` (Model/Main.lean),
about which theorems assume only what is stated in their hypotheses:

* `SortOK E.sorter`: the result is a permutation and is sorted when the comparison is a strict weak order.
* `E.NotAView`: the matrix left in uninitialised memory is not a rotation. The shipped build defines EIGEN_INITIALIZE_MATRICES_BY_ZERO
  (BUILD:65), so the matrix is zero there and the premise holds (C59_zero_memory).
* `E.junkM` zero (C62): the same matrix under the shipped build's definition.
* `FormatsPlain E`: `absl::StrFormat` of an accepted format without parentheses, backslashes and line ends yields a text without them.

## 4. Trusted base

* Lean's kernel; axioms `propext`, `Classical.choice`, `Quot.sound` only (checked by vcheck and `#print axioms`; no theorem uses any other).
* The reading of the C++ text: nothing ties the model to the code mechanically. As a check of the reading, `Verif/Check` runs the model with machine
  doubles (`Float`) on the repository's own tests at build time (`#guard`): the value expectations of the `*_test.cc` files (Check/Units) and the
  `.case` and `.example` scripts of /repo/testcases (Check/Cases), where the whole list of diagnostics is compared. All of them agree. The scripts that load hole.stl
  (bad_dia, bad_rad, hole.example) were run the same way outside the build and agree too. This is testing and not part of the proofs; no theorem imports these files.
* Bison builds a correct parser for the conflict-free grammar of parser.y; flex implements the rules of lexer.l by maximal munch, the earliest
  rule winning ties.
* Eigen, absl, re2, libstdc++ behave as their documentation says where the model transcribes them (vector algebra,
  `normalized()` leaving a zero vector alone, the cofactor inverse of 3x3 matrices, `Substitute`, `StrSplit`, `RE2::FullMatch` with `double*`,
  ordered containers, `ifstream::open`).
* For C32-C37, C60, C61: that Spec/PostScript.lean, Spec/PsNumber.lean and Spec/Paint.lean say what the PostScript Language Reference says for the part of the language
  they cover. Not covered: hexadecimal and base-85 strings, radix numbers (such tokens make the scanner fail, they are never emitted). The font
  is abstract (any width and bounding box); `FontBBox` is taken to be an executable array, as the prologue in ps.cc requires.
* Not modelled: rounding/overflow/signed zero at the `Ext` level (`DBL_MAX` is +∞ there); association order of Eigen sums; `int` overflow of
  counters (sizes below 2^31); memory allocation failure; LOG output; write errors on the output stream; UTF-8 validity
  in the `solid` line regex; RE2's limit of 200 characters on numerals; the text of syntax-error messages and file names in diagnostics;
  bazel rules (rule.bzl), tests.

Modelled, by file (all under /repo/stl-to-ps): geo.h, geo.cc, center.cc, ast.h/ast.cc (tree, NewQuote, points, Near, Closest, Between, Center, views), lexer.l,
parser.y, parser.cc (Parse), stl.h/stl.cc (Make, Rotate, CullBackFace, Limits, ToLines, Points, Index, EdgeCrosses, GenerateLines), ps.h/ps.cc,
stl-to-ps-impl.h, stl-to-ps.cc (everything), stl-to-ps-main.cc (main).

## 5. Plan per property

| id | how it is modelled and proved |
|---|---|
| C01 | Model NewQuote's in-place loop and the lexer rule. Proof: loop invariant (prefix written = unescape of prefix read), then unescape∘escape = id, plus longest-match of the string rule. [any FP] |
| C02 | Rule table transcribed as regexes; lexer = derivative matcher with longest/first selection. Spec: relation quantifying over all rules and prefixes. Proof: derivative correctness, selection correctness. [any FP] |
| C03 | Spec: inductive derivation relation, one constructor per production of parser.y. Model: deterministic parser. Proof: soundness and completeness, uniqueness as corollary. [any FP] |
| C04 | Printer for documents (spec side); parse∘lex∘print = id. Uses C02/C03 lemmas. [any FP] |
| C05 | Relation 'same tokens modulo blanks'; lexing of blanks yields nothing and token boundaries at blanks. [any FP] |
| C06 | False of the code (std::stof throws on out-of-range literals; Scale conversion to int is UB out of range): witness + partial theorem: no abort when every literal converts. [any FP] |
| C07 | Invariant of the parser: a property named '@' holds a location; hence the CHECK branch is unreachable in rendering. [any FP] |
| C08 | Model Near's loop; invariant: running minimum. [Ext K] |
| C09 | False of the code (points further than the current furthest are skipped although fewer than count are held): witness; partial theorems: sorted, subset, bounded, contains a closest point, and full k-nearest when the first point is furthest. [Ext K] |
| C10 | Model Between; filter characterisation. [Ext K] (+ order-free [any FP] form) |
| C11 | Model FindCircle incl. Eigen's cofactor inverse; normal equations have the unique solution given by the circle. [Ext ℝ] |
| C12 | Least-squares optimality from the normal equations; mean of third equation; uniqueness for equivariance. [Ext ℝ] |
| C13 | Model Center/GetCenter; singular first fit makes the annulus filter empty; non-singular one keeps its three points. [Ext ℝ] |
| C14 | Model line classification and the Make loop; spec by regex language and a block grammar. [any FP] |
| C15 | False of the code (Facet ctor indexes e[0..2] of a possibly shorter vector): witness; partial: no UB when each closed facet has >= 3 vertices. [any FP] |
| C16 | Model the constructor; algebra over ℝ. [Ext ℝ] |
| C17 | Printer for triangles; induction over the list. [any FP] |
| C18 | std::set insertion model; induction. [FPOrd] |
| C19 | Model the swap loop; loop invariant with permutation. [any FP] |
| C20 | Fold of min/max; induction. [Ext K] |
| C21 | Model Index (map, edge table, swap partition, relabelling); invariants. [FPOrd] |
| C22 | Same model; partition invariant. [FPOrd] |
| C23 | Model EdgeCrosses; keys of the list are distinct; algebra for the 2x2 inverse, division by zero via Ext. [any FP] for no-abort, [Ext K] for geometry |
| C24 | Model ToLines; idx <= 5; sort gives ordered extremes; distances recomputed are equal. [Ext K] (sort any implementation) |
| C25 | Model GenerateLines; parametrise the edge, loop invariant on `from`. [Ext K] |
| C26 | Convexity of the region behind a triangle + C25 + C23. [Ext K] |
| C27 | Interval argument on the edge ∩ triangle outline. [Ext K] |
| C28 | From C25 and C21. `C28_viewed` (Props/HiddenView) starts from the model as loaded, by `C26_after_view`. [Ext K] |
| C29 | The model map is an input of the visitor and not part of its state; stated through C51-style independence. [any FP] |
| C30 | Matrix algebra, sin²+cos²=1; decision on names. [Ext ℝ] |
| C31 | Case analysis from FPOrd. [FPOrd] |
| C32 | Spec: PostScript string scanner (PLRM rules). Proof: induction on the text. CR is the exception the scanner normalises: stated. [any FP] |
| C33 | False for dia (label is emitted unescaped and fmt may contain parentheses): witness; partial for the others and for paren-free fmt. [any FP] |
| C34 | False if a field contains a newline: witness; partial under no-newline. [any FP] |
| C35 | Spec: interpreter of the emitted operators; proof by induction on lists. [any FP] |
| C36 | Induction on pages. [any FP] |
| C37 | Spec scanner on the whole output. [Ext K printing] |
| C38 | Direct from AddLines/AddArcs/AddText model. [any FP] / [Ext K] |
| C39 | Algebra on Draw's offset with C20. [Ext K] |
| C40 | Algebra, orthogonality of the view. [Ext ℝ] |
| C41 | Characterisation of Flatten/Take then of Dim. [any FP] |
| C42 | Algebra, Cauchy–Schwarz, orthogonality. [Ext ℝ] |
| C43 | Algebra. [Ext ℝ] |
| C44 | Characterisation of Flatten/Take; propagation of false through GeneratePages. [any FP] |
| C45 | StrSplit model; induction. [any FP]/[Ext K] |
| C46 | Direct. [any FP]/[Ext K] |
| C47 | File system as a function; induction over models. [any FP] |
| C48 | ScriptToPS returns the written bytes. [any FP] |
| C49 | main as a function on a file-system state; false when script and output are the same file or on write errors: witness; partial. [any FP] |
| C50 | Diagnostics logged in the model; false for near/center (silent failure): witness; partial otherwise; success quiet. [any FP] |
| C51 | Draw overwrites every visitor field before use. [any FP] |
| C52 | False (points are rotated in place): witness; partial for identity-like views. [any FP]/[Ext K] |
| C53 | Junk is a parameter; result equal for all junk. [any FP]; abort of the 'Null rotation' CHECK depends on the value of Matrix3d{}. |
| C54 | False (scale a:0, dia dir zero): witness; partial under positive scale and non-zero page direction. [Ext ℝ] |
| C55 | Permutation invariance of Flatten/Take. [any FP] |
| C56 | Matrix algebra. [Ext ℝ] |
| C57 | Algebra. [Ext K] |
| C58 | Induction over pages. [any FP] |
| C59 | Everything above combined: each abort site of the renderer is excluded. [Ext ℝ] |
| C60 | Spec: PostScript number syntax. Digits of `%g` printing, rounding and carry. [Ext K] |
| C61 | The prologue run on the PostScript machine. [Ext K] |
| C62 | Sizes of all intermediate values are bounded by powers of two, which rounding respects; hence no NaN reaches an assertion. [FPRound] |
| C63 | Algebra: normalisation, feet of perpendiculars, rotation invariance. [Ext ℝ] |
| C64 | False (elbow inside the circle): witness; partial otherwise. [Ext ℝ] |
| C65 | Algebra. [Ext ℝ] |
| C66 | Spans with equal start may be swapped in the loop of GenerateLines; the extreme candidates are unique. [Ext K]/[Ext ℝ] |
| C67 | False where three facets meet at an edge: witness. Otherwise: which edges are drawn and what hides them is a function of the set of facets. [Ext ℝ] |
| C68 | Facets, tables, visibility, segments and limits are natural under p ↦ k·p + t; the page offset cancels it. [Ext ℝ] |
| C69 | mkFacet commutes with rotations; matrices compose. [Ext ℝ] |
| C70 | Pages depend on the models only through lookup of the drawn names; loading through what is found for each name. |
| C71 | False where three facets facing the viewer meet at an edge: witness. Otherwise: a view is a function of the set of facets facing the viewer. [Ext ℝ] |
| C72 | From the files read to the ink on paper: C24–C27, C31, C35, C38, C46, C48, C49, C58 put together. `NothingMissing`, `NothingAdded` in Spec/Ink. [Ext ℝ] |
| C73 | Forward error analysis of C72's second half for binary64: `Fl.Near x a ε` is carried through the view matrix (sin, cos of degrees), the turned corners, any point `ToLines` can put on an edge (interpolation with a parameter between 0 and 1, wherever it comes from), the box, the offset and the page. [Fl R], R any binary64 rounding |
| C74 | Forward error analysis of C40 for binary64 (`Fl.Near`): turned points, unit vector along `dir`, projections, norm of their difference, with the error relative to the largest coordinate. [Fl R], R any binary64 rounding |
| C75 | The same for C42: legs, unit vectors normalised twice, their product, acos by the mean value theorem on an interval that stays within (-1, 1). [Fl R], R any binary64 rounding |
| C76 | Writing pages without arcs does no arithmetic, so it is the same text as in `Ext ℝ` and C35's machine applies; placing of texts and title by forward error analysis, lines from C73, printing by `Six`. [Fl R], R any binary64 rounding |
| C77 | The points of a drawing are the seen corners, turned (from C26, C18); induction over a point expression: its value has the page position of a corner picked (C08); drawn items of flat dimensions depend on page positions only; congruence of a run in its drawings (C58). [Ext ℝ] |
| C78 | False: witness triangle in the plane z = 1, exact apex, inexact legs. Otherwise by C77's lemmas and C42's formula for the label. [Ext ℝ] |
| C79 | False: the legs (2,5) and (-6,-15), all 18 roundings evaluated in binary64. Otherwise zeros stay zero, equal products cancel; C75. [Fl] |
| C80 | C63's closed form of the strokes: exchanging the ends negates the unit vector of the dimension line and both sides, so the eight strokes are permuted and two reversed; angles: the cross product changes sign, so the same call is made (Lemmas/Swap). False where the line meets a point measured: counted strokes with an end 4 points above the line. [Ext ℝ] |
| C81 | Turning: every point is turned and the view turns back, so the very same projected items are drawn. Moving: the items, the outline and the limits all move by the projected move, which the centring takes back; near's loop commutes with the move (Lemmas/Carried); two disks via run_rel2 (Lemmas/Swap). False for moves in depth with near. [Ext ℝ], the witness at [Ext ℚ] |
| C82 | Lemmas/Hole: invariant of the loop of Closest (HInv): what it has collected are, up to near-duplicates (StandsFor), the nearest corners so far; so at the end its first three lie on the circle, the fit of C09 gives exactly that circle, and the second pass collects only its corners. pointOf_spot carries this through nested near/center by induction on the expression. |
| C83 | Lemmas/ClearPair: the determinants and quotients of a pair of sides with error bounds; where they clearly do not meet, the parameters are out of range, where they clearly meet, the heights compare as they should. Lemmas/ClearFace: so a facet's hidden span on the edge has both ends at one end of the edge, and the loop over the spans keeps the line. Lemmas/ClearTurn: the margins survive the turning of the model; ClearDraw: the table of edges has the edge, before `unseen`. [Fl] |
| C84 | Lemmas/Solid: the cross product of the rounded sides is within M²/2^44, so the normal is within 2^-22 if the triangle is stout, its sign against the declared normal is right, and the average distance is within M/2^19; Lemmas/SolidText: the lines of the file read at `Fl R` and at `Ext ℚ` correspond numeral by numeral, so do the blocks (no stout normal is rounded to zero). Then the `Turned` relation of ClearDraw holds between the facets and the triangles described. Spec/Solid has `Describes`, `Stout`, `triOf`. [Fl] |
| C85 | Lemmas/SpanPair, SpanLoop: a crossing clear of the ends is found within 2^-13 of its place, the loop over the edges sorts candidates by their place and joins the hidden intervals; SpanFace: a facet's candidates for an edge are those of `HidesPart`, so the interval hidden is its; SpanLines: what `ToLines` leaves of an edge is its complement; SpanTurn, SpanDraw: as ClearTurn, ClearDraw. SpanMeans: `HidesPart`, `VisibleAt` in terms of `Front`, `InsideTri`, `StrictlyBehind` of Spec/Hidden. [Fl] |
| C86 | `sheet_shows`: the lines of a page are those of its drawings, one after the other, then the header's; `C85_body` for each drawing, `PaintsPage` for printing. Then as C76. Spec/SpanPaper. [Fl] |
| C87 | `near_picks`: the search returns a point of the view with minimal computed distance, or the target if it is one; computed and true squares of distances differ by at most 2^10·M²η. `view_points`: the points of the view are, in both directions, the turned corners of stored facets kept by culling; `described_stored` ties them to the text. Then `value_near` as in C74. Spec/NearDouble. [Fl] |
| C88 | `dim_ink`: each end of the eight strokes with its error. The direction on the page is the difference of the feet divided by its length (`dirn_near`, needs the distance measured to be at least M/2^10); the gap is a minimum of two quotients, of which at least one is finite (`Recip`: reciprocals on the extended line, so that a zero component gives infinity and drops out). Comparisons are right except within `dimDoubt` of equality. `DimInk.shift` moves the strokes from the rounded corners to the corners of the text. Spec/StrokeDouble, Spec/DimDone. [Fl] |
| C89 | `draw_paper`, `text_paper`: what a drawing and a text block put on paper, from `C94_strokes` and `text_near` (`dim_paper`, `angle_paper`, `round_paper`, `span_paper`, `turn_paper`); `arcExt`: the page with angles that have, without rounding, the degrees computed is written alike, so C35 applies to it (Lemmas/ArcPaper); `pageDir_exists`: two points apart along a direction square to the line of sight have a direction on the page. `sheet_whole`: the marks of a page are those of its things, one after the other, and the header's. Then as C86. The example's script comes from `C04_writable`. Spec/DimPaper. [Fl] |
| C90 | False in doubles. `X64` is an executable binary64 on ℚ; `fl_*`: it agrees with the rounded reals, operation by operation, hence for `makeLoop`, `cullFacets`, `cornerSet`, `locate`. Three model files are run through it by the kernel (`decide +kernel`), and `top_draws` carries the result to a drawing. Positive part: `fitMat_normal`, `inv3_cof`, `row_gauge` bound every rounding of FindCircle in units of the bound of the result (`Gauge`), `fitRes_near` and `findCircle_near` the fit (the determinant is at least the squared area of any triangle of the points, `gramDet_area`), `fetch_three` and `between_rim` which corners are taken, `locate_rim` the whole search. Spec/Exec64, Spec/HoleDouble, Spec/RimDouble. [Fl] |
| C91 | `spot_point`: a point of such a dimension evaluates near the place meant (`point_meant` of C87, `locate_rim` of C90); `label_spots`: `value_near` of C74 applied to the computed points, and the error of the places added. |
| C92 | `leg_ink`, `head_near`: each end of the six strokes with its error; `perp_near`: the side to which the arc goes is the sign of a cross product whose error is below the sine of the angle; `atan_near`: an angle computed by atan2 has the right cosine and sine. `angle_meant` ties the literal points of the script to these, `angle_accepts_near` gives acceptance. Spec/AngleDouble. [Fl] |
| C93 | `dir2_near`: the unit vector of the line; `elbow_near`: the smaller of the two quotients, if it is taken, is a number up to 5 times the largest coordinate (one divisor is at least 0.7), and times its divisor it gives the distance to the label back; `clear_near`: both quotients with their error if neither divisor is small; `RoundParts.rad_ink`, `.dia_ink`, `.label`: each end of the strokes. `round_meant` ties the literal points of the script and the circle found (`locate_rim` of C90) to these. Spec/RoundDouble. [Fl] |
| C94 | `hole_asks`: what is meant in the file gives `RoundAsks` of C93. `rim_of_hole`: `RimAt` for any points that are off by κ from the corners (`dist2_shift`, `area_shift`), where the first point is one of those that may be first (`order_le`). Corners behind one another: `Lone` is a matrix of a named view (one entry ±1 per column), `lone_same` shows that it copies coordinates, `read_same` that equal numerals are read equally, so `cornerSet` merges them. Spec/HoleFile. [Fl] |
| C95 | `hole_rim` (the part of C94 that gives `RimAt` of the corners as computed) turns `PlaceSeen` into `SeenSpot` of C91; `span_meant` is `strokes_meant` of C88 with points that are off by their own errors (`DimInk.shift`). The theorems are read off from `C94_strokes`, whose `DimensionDone` has a clause for these. Spec/HoleFile. [Fl] |
| C96 | `flat_point` turns `FlatSeen` into points as computed (`hole_rim` for centres, `corner_flat` for corners picked by `near`), `arm_near` into unit legs (`unit_near2`), `angle_core` is the part of C92 after the legs, with the points where the fit put them; `angle2_flat` relates the angle on the page to the one in space. `along_leg`: a leg at depth 0 is a leg of C92. Spec/HoleFile, Lemmas/HoleAngle. [Fl] |
| C97 | `invoke_place`: the value of an expression, by induction on `Place` (C08, C82); `turns_dim` is C42's argument in the coordinates of the view; `flat_sweep`: at one depth the arc cosine gives back the sweep. Spec/HoleTurn. C97_run (and C82_run_partial): Props/HoleRun, by `run_drawings`. [Ext ℝ] |
| C98 | `drawn_relocated`: the ingredients of a drawing (`Drawn`) but for the place are those of before; `dimContent_items`: a dimension is drawn about the origin and then moved; `offset_shift`, `moved_shift`; `rows_shift` for text; pages by C58, runs by C48. Spec/Place. [Ext ℝ] |
| C99 | `draw_sum`, C58: what a drawing or page shows is the sum of what its parts show when met alone (`dimContent`, `content`); `results_perm`, `sum_perm`: sums in another order have the same ink. C99_paper (Props/ReorderPaper): each line, arc and text makes one mark that depends on it alone (`run_pages_eq`). Spec/Reorder. [every α; paper: Ext K] |
| C100 | `spelled_look`: a property is found as before, or was missing and now has its default; then `scaleOf`, `viewOf`, `locOf`, `textLocOf` and the title agree, `Drawn` holds of both alike, and `draw_sum`, C58 carry it to pages and runs. Spec/Spelled. [Ext K] |

## 6. Where code and properties disagree

Each item is a theorem with a concrete witness (suffix `_false` or named below), next to a `_partial` theorem.

* C06: a number outside the range of float makes `std::stof` throw out of `Parse`; a scale term outside `int` is an undefined conversion.
* C09: `Closest` skips a point farther than the farthest held even while it holds fewer than `count`; so a nearest point offered first hides
  all others, and `center()`, `dia`, `rad` can fail depending on vertex order.
* C15: `endfacet` after fewer than three vertices reads past the end of a vector.
* C27 (C27_touching_end_shown): an edge with an end on a facet's inside is not seen as hidden by it.
* C32: PostScript normalises carriage returns inside string literals. C33: the label of `dia` is written without escaping, so a `fmt` with
  parentheses injects PostScript. C34: a line end in the image name or script path leaves the header comment.
* C43: a `dia`/`rad` direction along the line of sight has no direction on the page.
* C63 (C63_struck_through): with `at` beyond an arrowhead, the dimension line is drawn through the label.
* C64: `len > 1` compares the elbow's distance with one unit, not with the radius: the leader can end short of the arrow's tip.
* C67: whether an edge is drawn depends on the normals of the first and the last facet (in file order) that has it. With three or more facets on an edge (non-manifold models, or several bodies touching) the file order decides.
* C71: removing back faces swaps the last facet into the place of the removed one, so a facet that is not drawn at all can decide (through C67) whether an edge elsewhere is drawn.
* C78: `near(p)` returns `p` itself if it is exactly a corner seen (depth kept) and otherwise the nearest corner with depth 0 (ast.cc:55-77). An angle is computed in space, so mixing both kinds of argument gives a wrong number (60 degrees for a right angle); a linear dimension along the line of sight is affected in the same way.
* C79: the test for a degenerate angle compares the cross product of two rounded unit vectors with 0 (stl-to-ps.cc:415), and the label is the arc cosine of their scalar product without clamping (stl-to-ps.cc:453). For legs on one line whose unit vectors are rounded differently, e.g. (2,5) and (-6,-15), the test passes and the label is "nan deg".
* C80: the side of the dimension line on which a point measured lies is taken as `> 0 ? 1 : -1` (stl-to-ps.cc:621-622), relative to the direction from from to to. For a point exactly on the line (as seen) the stub of its extension line is therefore put on one side or on the other depending on which end is called from.
* C81: `near` answers with the corner itself only when its argument is exactly one; otherwise it takes the closest corner in the plane of the page and puts it at depth 0 (ast.cc:60-76). A dimension measured (partly) along the line of sight between a near point and a written one therefore depends on how far in depth the model lies in its file: moved by 5, the label goes from 0 to 5.
* C82: `Closest` (ast.cc:81-108) drops a point farther away than the last one collected even while fewer than three are collected. The first corner looked at (leftmost, then lowest) is always collected, so a `center` nearer to that corner than to two others finds fewer than three corners and is rejected (C82_false), although the circle is there. Corners within 10 % of the radius of the circle are taken into the fit, so concentric circles that close are mixed; RoundAt excludes them.
* C96: `center` answers with depth 0 (ast.cc:154), whatever the depth of the round part. An angle is computed in space, so with its apex at a centre and a leg through a literal point at another depth the number is not the angle on the page, and the radius of the arc includes the depth of the label. C96 asks for points at depth 0; `C97_neither` is a witness (a right angle in the body and on the page, labelled otherwise), C78 has one for `near`, where the cause is the same.
* C65 (C65_tilted): arrows of legs tilted out of the page are not on the arc.
* C49: output is truncated before the script is opened; with script = output the script is destroyed and the run reports success.
* C50: `near()` without visible points and `center()` fail silently.
* C52: points are rotated in place in the document, so generating pages twice differs.
* C53: the message for a wrong-typed `dir` of `dim` depends on uninitialised memory; memory equal to the view matrix trips a CHECK.
* C54: scale a:0 and directions seen end-on put NaN on an accepted page.
* C05: a comment inserted after a lexical error (a lone slash) joins it; stated in C05_insert's premise.
* C39: the box that is centred is that of the corners of the facets facing the viewer, not of the whole model. Without '@' a drawing is centred
  on the lower left page corner.
* C90: `FindCircle` (center.cc:37-65) solves the normal equations in coordinates that are not centred at the points. The radius is what is left of `z + x² + y²` after numbers of the size of the squared distance from the origin cancel, so the error grows like M·(M/r)^5 units in the last place. A circle of radius 0.5 at (200, 200) is labelled 1.513, one of radius 1.25 at (1000, 1000) is labelled nan, and one of radius 1.5 at (200, 200) is refused, because the distances of its corners from its middle are rounded differently and `Closest` (see C82) then holds only one. In exact arithmetic all three are right (C82).
* C85: `Facet::r` is the mean of three products in doubles, which may exceed the plane's distance: (z+z+z)/3 > z for z = 0.1, 0.2, 0.4, 1.6, …  The test
  for 'behind' has no tolerance, so an edge in that plane, inside of the facet, is removed in doubles; in exact arithmetic it is drawn. Outside of C85's margins.
* C85: where an edge begins at a corner of a triangle that hides part of it, one candidate of two may be missing in doubles, and then nothing is hidden.
  Outside of C85's margins.

## 7. Testing the theorems

seeded/LOG.jsonl records edits of the model as realistic bugs, made in a scratch copy. Each copy was rebuilt with a driver that goes on after an
error (the failed theorem is recorded as depending on `sorryAx`), and a theorem counts as failed if it depends on such a theorem.

## 8. Results per property

See MANIFEST.json: status, theorem names, and a note per property with the arithmetic level and what is missing from partial ones.
