{
 "C01": [
  "proved",
  "Literal read back exactly (any FP); adjacent literals in any layout denote the concatenation, as property value and as text block."
 ],
 "C02": [
  "proved",
  "Token stream = unique longest-match / first-rule scan, for every text; words read whole; identifiers are never reserved words."
 ],
 "C05": [
  "proved",
  "Outcome (document, rejection or abort) depends on the lexemes only, up to lines; every text is a layout; insertion between tokens. Insertion after a lexical error is excluded: a comment put after a lone slash joins it (example)."
 ],
 "C14": [
  "proved",
  "[FPOrd] acceptance and content, for files in which no closed facet is short of vertices (otherwise C15: undefined behaviour). Lines specified independently (LineIs)."
 ],
 "C15": [
  "partial",
  "False of the code: C15_false is a concrete witness. The _partial theorems give the exact condition for the out-of-bounds access and exclude every other abnormal end."
 ],
 "C16": [
  "proved",
  "[Ext R] all triangles; degenerate ones characterised separately."
 ],
 "C17": [
  "proved",
  "[FPOrd] any numerals, indentation, gaps, name; every decimal has a numeral."
 ],
 "C18": [
  "proved",
  "[FPOrd] exact set, strictly increasing; [Ext K] membership iff and Nodup."
 ],
 "C19": [
  "proved",
  "[any FP] multiset equality and idempotence; finite corollary [Ext K]."
 ],
 "C20": [
  "proved",
  "[FPOrd] bounds hold and are attained; empty model."
 ],
 "C21": [
  "proved",
  "[FPOrd] for all facet lists with NaN-free corners; corollaries for loading and viewing."
 ],
 "C22": [
  "proved",
  "[FPOrd] an edge stands before `unseen` iff one facet has it, or first/last facet normals have dot < 0.98."
 ],
 "C23": [
  "proved",
  "no abort in any arithmetic; exact characterisation of the record over Ext K"
 ],
 "C24": [
  "proved",
  "buffer bound in any arithmetic; no assertion fires for finite edges (facets arbitrary), and after any finite view of finite corners"
 ],
 "C25": [
  "proved",
  "parameter intervals on the edge; plus the show-hidden switch"
 ],
 "C26": [
  "proved",
  "C26_hidden_exact states C26, C27, C28 with one witness; C26_after_view discharges its hypotheses for every viewed model over the reals"
 ],
 "C27": [
  "proved",
  "also clause `complete` of C26_hidden_exact; C27_touching_end_shown is the witness for the exclusion in the statement"
 ],
 "C28": [
  "proved",
  "C28_only_real_edges: for an indexed model of front facets, in any ordered field. C28_viewed: over the reals, from the model as loaded and a rotation, with the facet it comes from and that it faces the viewer."
 ],
 "C30": [
  "proved",
  "[any FP] names; [Ext K] named views; [Ext R] angle views; plane offset kept."
 ],
 "C31": [
  "proved",
  "[FPOrd]"
 ],
 "C56": [
  "proved",
  "[Ext R]; degrees are converted with the 17-digit literal for pi, as in the code."
 ],
 "C03": [
  "proved",
  "The recursive-descent model accepts a token sequence iff the productions of parser.y (Spec/Grammar, left recursive, one constructor per production) derive it, with the same document; unique. That bison builds a correct parser for this conflict-free grammar is trusted. Holds for every FP."
 ],
 "C04": [
  "proved",
  "For documents whose names are identifiers, whose texts have no NUL and whose numbers have a decimal spelling (all of which every parsed document satisfies, C04_parsed); any layout of the printed tokens; up to line numbers. Properties come before drawings and models before pages in the printed form because the document does not record their interleaving."
 ],
 "C06": [
  "partial",
  "False as stated: numbers out of float range (std::stof throws) and scale terms out of int range (undefined conversion) stop the process; both witnessed. Proved: these are the only causes."
 ],
 "C08": [
  "proved",
  "near succeeds with its argument [any FP]; minimises the computed distance [IEEE comparisons]; true nearest vertex in exact arithmetic. The case that every distance is at least DBL_MAX (output left unset) is excluded by a hypothesis of C08_rounded."
 ],
 "C09": [
  "partial",
  "The count clause is false (C09_false: a point offered first that is closest hides the others). Proved: order, subset, bound, no omitted point closer except near-duplicates, first is a nearest, and the exact number returned."
 ],
 "C10": [
  "proved",
  "Exact arithmetic over the reals for the distance statement; the empty cases for any arithmetic."
 ],
 "C11": [
  "proved",
  "Exact arithmetic over the reals."
 ],
 "C12": [
  "proved",
  "Exact arithmetic over the reals; unique minimiser, mean squared distance, translation, scaling by any non-zero factor."
 ],
 "C13": [
  "proved",
  "Exact arithmetic over the reals, finite vertices and target; success iff the neighbours found are not on one line."
 ],
 "C29": [
  "proved",
  "[any FP] stated as: a drawing anywhere on a page contributes what it contributes when rendered alone with the same models."
 ],
 "C44": [
  "proved",
  "[any FP]"
 ],
 "C51": [
  "proved",
  "[any FP]"
 ],
 "C58": [
  "proved",
  "[any FP]"
 ],
 "C07": [
  "proved",
  "[any FP]"
 ],
 "C41": [
  "proved",
  "[any FP] C41_accept, under the condition that the view matrix does not equal uninitialised memory; [Ext R] C41_views discharges it."
 ],
 "C50": [
  "partial",
  "False of the code: C50_silent_failure is a witness. Success is quiet (C50_success_quiet); failures are diagnosed except where center() is used or near() has no visible points. [any FP]"
 ],
 "C55": [
  "proved",
  "[any FP]"
 ],
 "C59": [
  "proved",
  "[Ext R], for a sorting routine that sorts and uninitialised memory that does not hold a rotation (it is zero in the shipped build)."
 ],
 "C38": [
  "proved",
  "[any FP] for every accepted drawing whose view matrix does not equal uninitialised memory."
 ],
 "C39": [
  "proved",
  "[Ext R] The bounding box is that of the corners of the facets facing the viewer; uninitialised memory must not hold a rotation (it is zero in the shipped build)."
 ],
 "C40": [
  "proved",
  "[Ext R] Literal points, any rotation view, any scale; uninitialised memory must not hold a rotation (it is zero in the shipped build)."
 ],
 "C42": [
  "proved",
  "[Ext R] Literal points, any rotation view; uninitialised memory must not hold a rotation (it is zero in the shipped build)."
 ],
 "C43": [
  "partial",
  "The label part is proved for every accepted dia and rad [any FP]. The tips are on the circle [Ext R] unless dir is along the line of sight, where the claim is false (C43_false)."
 ],
 "C45": [
  "proved",
  "[Ext K]"
 ],
 "C46": [
  "proved",
  "[Ext K]"
 ],
 "C57": [
  "proved",
  "[Ext R] for every drawing accepted with b non-zero; uninitialised memory must not hold a rotation (it is zero in the shipped build)."
 ],
 "C47": [
  "proved",
  "[any FP] C47_load gives the verdict, C47_lookup the model found under each name, C47_only_places says which files are looked at, C47_abort when loading stops abnormally."
 ],
 "C48": [
  "proved",
  "[any FP] The output file receives the header followed by one page per script page, and only when the script was read, parsed, every model loaded, every page generated and accepted; in every other ending nothing is written. Stated with the independent relation Converts (Spec/Run)."
 ],
 "C49": [
  "partial",
  "[any FP] Files other than the output are never changed (C49_other_files) and the exit status is 0 exactly when the conversion run succeeded (C49_exit) hold always. The status/content link to the disk as it was before the run (C49_exit_partial, C49_failure) needs the output path to be neither the script nor a place a model is read from; C49_false shows that with script = output the script is destroyed and the run still reports success."
 ],
 "C52": [
  "partial",
  "False as stated: C52_false gives a document whose second generation differs because literal points are turned in place. C52_only_points [any FP]: nothing but the coordinates of literal points can change. C52_same_partial / C52_page_partial [Ext K]: documents whose drawings have no literal points or an identity view are generated the same again."
 ],
 "C53": [
  "partial",
  "Verdict and output bytes do not depend on the uninitialised locals (C53_pages, C53_run) given that the leftover matrix is not equal to a view matrix; the whole result including diagnostics is the same when every linear dimension's dir is a literal point (C53_diagnostics_partial). C53_false: a wrong-typed dir makes the diagnostics differ; C53_false_view: a leftover matrix equal to the view aborts."
 ],
 "C54": [
  "partial",
  "False as stated: C54_false_scale (scale 1:0) and C54_false_direction (diameter direction seen end-on) are accepted scripts that put NaN on the page. C54_finite_partial [Ext R]: for every script, every made model: if no drawing's scale has second number 0, drawings with dimensions have positive scale, and no dia/rad direction is seen end-on, then every coordinate, radius and angle on every page is finite. Exact arithmetic: overflow of doubles is not covered."
 ],
 "C32": [
  "partial",
  "False as stated: C32_false (a carriage return inside a string literal is read back as a line feed by the PostScript scanner). C32_literal: for every text the emitted literal is read as exactly one string, the text with its line ends normalised, and scanning resumes right after it. C32_command: the same for the whole text command. C32_exact_partial: texts without carriage returns are read back exactly. Missing: exactness for texts with carriage returns, where it is false."
 ],
 "C33": [
  "partial",
  "False as stated: C33_false (the label of dia is written without escaping, so an accepted fmt containing a closing parenthesis runs its own PostScript). C33_labels: labels of rad, dim and angle are always one string followed by the intended operators. C33_dia_partial: so is the label of dia when fmt has no parenthesis, backslash or line end. Missing: dia with other formats, where it is false."
 ],
 "C34": [
  "partial",
  "False as stated: C34_false (a line feed in the image name). C34_prologue_partial: when name, path and time contain no line end, the header's executable content is exactly the fixed prologue. Missing: names or paths with line ends, where it is false."
 ],
 "C35": [
  "proved",
  "C35_paints: running the output on a small PostScript machine (Spec/Paint.lean), whatever the font metrics, paints exactly texts, arcs, lines of each page in order, then the border and labels of the page, then one page. Coordinates are the model's to six significant digits. C35_determined: what is painted is unique. C35_degrees: angles in degrees in terms of pi. C35_run: for every successful run whose drawings meet C54's premises and whose dia formats are plain."
 ],
 "C36": [
  "proved",
  "C36_blocks: header, then one block per page in order, announced as i of n and with exactly one showpage, at its end. C36_run: for every successful run with plain dia formats (C33)."
 ],
 "C37": [
  "proved",
  "C37_tokens: the whole output scans as exactly the intended token sequence. C37_run: for every successful run with plain dia formats and header fields without line ends."
 ],
 "C60": [
  "proved",
  "C60_six_digits: a finite number is printed as a PostScript number within half a unit of the sixth significant digit. C60_not_numbers: exactly the finite numbers are printed as numbers; infinities and NaN are printed as names."
 ],
 "C61": [
  "proved",
  "C61_centred: on the PostScript machine, for all font metrics, the middle of a centred text is painted at the text's x coordinate to six digits; other texts start there."
 ],
 "C62": [
  "proved",
  "[FPRound], with binary64 in any rounding direction as an instance (C62_binary64); sign of zero abstracted; uninitialised matrix zero as in the shipped build. C62_run: whole runs; C62_exit: exit status 0 or 1. C59_run is the exact-arithmetic counterpart without a bound on sizes."
 ],
 "C63": [
  "proved",
  "[Ext R] C63_strokes gives all eight strokes in page points; C63_perpendicular, C63_label_clear follow; C63_struck_through: with `at` beyond an arrowhead the dimension line runs through the label (outside the claim's premise)."
 ],
 "C64": [
  "partial",
  "False as stated: C64_false (the code compares the elbow's distance with 1 unit instead of the radius, so the arrow's tip can be beyond the leader's end). C64_rad_partial / C64_dia_partial [Ext R]: the leader's path for literal at and dir not along the sight, and the tip is on it unless the elbow is between 1 unit and the radius from the centre."
 ],
 "C65": [
  "proved",
  "[Ext R]; C65_tilted shows that legs tilted out of the page end off the arc."
 ],
 "C66": [
  "proved",
  "C66_lines [Ext K]; C66_pages, C66_run, C66_tool [Ext R]. Exact arithmetic: points at the same distance along an edge are the same point. With rounding, different points can tie; not covered."
 ],
 "C67": [
  "partial",
  "False as stated: C67_false (an edge bordering three facets is judged by the normals of the first and last one in file order). C67_view_partial, C67_pages_partial [Ext R]: any order of facets, any starting corner, for models in which no edge borders three facets. C67_corners_partial: any order of corners gives the same facet up to its starting corner, unless the declared normal lies in the facet's plane (then only the corner order gives the orientation)."
 ],
 "C68": [
  "proved",
  "Exact arithmetic over the reals, any rotation view. C68_drawing covers drawings without dimensions (dimensions name points by coordinates, which would have to change too). C68_pages is the whole document, models moved."
 ],
 "C69": [
  "proved",
  "Exact arithmetic over the reals. C69_view gives equality of the whole viewed model; C69_drawing the page for drawings without dimensions; C69_angles the angle views."
 ],
 "C70": [
  "proved",
  "For every arithmetic. Ways of loading that fail are excluded: then nothing is drawn and the diagnostics name the models."
 ],
 "C71": [
  "partial",
  "False where three or more facets facing the viewer share an edge (C71_false, a concrete model): dropping a facet that faces away changes the order of the others. C71_view_partial and C71_drawing_partial prove it for all models without such edges, with all dimensions and diagnostics."
 ],
 "C72": [
  "proved",
  "End to end, in exact arithmetic [Ext ℝ]: C72_paper for a conversion (nothing missing: with any tame dimensions), C72_program for the program on its files. Premises as in C35 and C49: header fields without line breaks, formats without special characters, scale not a:0, the output is another file than the script and the models. A facet that shares the edge never covers it; a facet that the edge touches or passes in front of may leave ends out or in (Under)."
 ],
 "C73": [
  "proved",
  "binary64 in any rounding direction, sign of zero abstracted as in C62; sin and cos exact up to rounding, as in the model of <cmath>. C73_ink for a drawing, C73_run for a conversion (pages the output is written from). That nothing is missing (the other half of C72) does not survive rounding as a statement about single edges: whether an edge that just touches a facet is cut is decided by the last bit."
 ],
 "C74": [
  "proved",
  "binary64 in any rounding direction, sign of zero abstracted as in C62. C74_label for a drawing, C74_run for a conversion (pages the output is written from). C40 is the same in exact arithmetic, for all directions that are not zero."
 ],
 "C75": [
  "proved",
  "binary64 in any rounding direction, sign of zero abstracted as in C62; acos correct up to rounding, as in the model of <cmath>. C75_label for a drawing, C75_run for a conversion. The condition on the sine is needed: the code does not clamp the product of the unit vectors before acos. C42 is the same in exact arithmetic, for all angles."
 ],
 "C76": [
  "proved",
  "binary64 in any rounding direction, sign of zero abstracted as in C62; numbers are printed by FP.g6 as in C34/C35. C76_paper for a conversion, C76_program for the program. Composes C73 with C35's PostScript machine; that nothing is missing (C72) is shown in exact arithmetic only, as hiding decisions may differ within rounding."
 ],
 "C77": [
  "proved",
  "[exact arithmetic] C77_drawing for a drawing, C77_run for a conversion (byte for byte), C77_label for the number. near(p) flattens the corner unless p is exactly a corner, so directions along the line of sight and angles are excluded; for these see C78."
 ],
 "C78": [
  "partial",
  "[exact arithmetic] False as stated (C78_false: 60 degrees instead of 90). C78_true_partial: holds when every point is literal, near() of an exact corner, or all corners seen lie in the plane of the drawing. C78_seen_partial: with near() of points that are not corners, the angle is the one seen on the page. Mixed cases are in C97; directions from_dir/to_dir are C42's."
 ],
 "C79": [
  "partial",
  "[binary64] False as stated (C79_nan, C79_straight_false, C79_number_false: a straight angle labelled 'nan deg', rounding to nearest). C79_same_partial: legs written in the same way are rejected, any rounding, any view. C79_axis_partial: legs on the same model axis are rejected in named views, any rounding. C79_apart_partial: away from 0 and 180 degrees the label is a number (accuracy in C75). The sign of zero is not modelled; it does not matter here."
 ],
 "C80": [
  "partial",
  "[exact arithmetic] False as stated (C80_false: a width measured from a point on the dimension line; the stub of the extension line changes sides). C80_angles, C80_angles_run: in full for angles (and trivially diameters, radii), any points including near. C80_drawing_partial, C80_run_partial: linear dimensions with literal points whose line, as seen, passes by both points measured, or is seen as a point; positive scale. With C77 this carries over to near."
 ],
 "C81": [
  "partial",
  "[exact arithmetic] False as stated (C81_false: model and points moved by 5 along the line of sight; the label of a dimension in depth, from a near point, goes from 0 to 5). C81_turned: in full for turning. C81_moved_partial, C81_pages_partial, C81_run_partial: moves for which every linear dimension and angle either has only literal points or a direction across the line of sight, or the move is across the line of sight (DimN.Movable); diameters and radii without restriction; directions written out; some corner seen."
 ],
 "C82": [
  "partial",
  "[exact arithmetic] False as stated (C82_false: a triangle on a circle; center at its middle or to the right of it gives the diameter, to the left of it is rejected). C82_located, C82_label_partial, C82_between_partial, C82_accepted_partial: for RoundAt places: three corners, apart from each other, not further than the leftmost corner, with everything nearer on the circle, and no other corner within a tenth of the radius of it. C82_centre_partial: at the middle itself it is enough that nothing is seen inside and three corners of the circle are R/5 apart. Nested near(...) and center(...) are covered by Spot. C82_run_partial: the same of whole runs, from script text and model files."
 ],
 "C83": [
  "proved",
  "C83_edges (drawings, with or without dimensions), C83_run (whole conversions). InFullView (Spec/Clear) has the margins: M²/2^30 for points left or right of a line, M²/2^14 for sines of angles between sides, M/2^12 for depth, M/2^10 for the length of the edge, 1/2^37 for facing the viewer, 0.97 against 0.98 for creases, M = 2^n the size of the model. SaneNormals asks that normals and distances of the facets are numbers, which fails for facets without area only."
 ],
 "C84": [
  "proved",
  "C84_facets (files), C84_edges (drawings), C84_run (whole conversions; the body by the text of the file found). Stout (Spec/Solid): area of the parallelogram at least M²/2^20, declared normal at least 2^-16 off the plane, M = 2^n the size of the model. Normals are within 2^-22, planes within M/2^19. InFullView as for C83 but 2^-20 for facing the viewer. SaneModels (the vertex lines are of size 2^n, no facet has fewer than three vertices) is asked of the files of the script."
 ],
 "C85": [
  "proved",
  "C85_lines (drawings, by the facets as stored), C85_body (drawings, by the text of the file), C85_run (whole conversions). VisibleAt, HidesPart, Unhidden (Spec/Span) have the margins of C83; in addition crossings are 2^-15 of the length off the ends of edge and side, hidden parts are at least 2^-10 of the edge long, and points in view are 2^-11 off hidden parts and ends. C85_part, C85_in_view, C85_front show what these words mean: the part hidden is exactly where the triangle, facing the viewer, is before the edge; no triangle is before a point in view. Not covered: an edge that begins at a corner of a triangle that hides part of it (whether the corner counts as a crossing depends on the last digit)."
 ],
 "C86": [
  "proved",
  "C86_paper (conversions), C86_program (the program, exit status 0). SheetShows (Spec/SpanPaper) is about the marks of the PostScript machine of Spec/Paint; the lines of each drawing are given in the order of the drawings. Margins as in C85, premises as in C76 (no dimensions, scales not over zero, angles up to 1024 degrees, texts and titles up to 2^32, header names without line ends, output file apart from script and model files)."
 ],
 "C87": [
  "proved",
  "C87_label (points meant), C87_corners (corners picked beyond doubt), C87_run (of a conversion). Spec/NearDouble. Difference of squared distances that counts as clear: 2^11 * M^2 * eta, M the size of the model, eta = 2^-50 for named views and 2^-40 for views by angles; triangles facing the viewer within 2^-20 of edge-on may or may not count. Directions not square to the line of sight are excluded because the result of near has depth 0 or that of the corner (C71)."
 ],
 "C88": [
  "proved",
  "C88_strokes (a drawing: own lines, then one block for each dimension in order, no arcs), C88_clear (points picked beyond doubt), C88_run (of a conversion). Spec/StrokeDouble, Spec/DimDone. Dimensions shorter than 2^-9 of the size of the model have the label only in the claim; one triangle must clearly face the viewer, otherwise the offset of the drawing is not finite. Other kinds of dimension are covered in exact arithmetic (C65, C75)."
 ],
 "C89": [
  "proved",
  "C89_paper (of a conversion), C89_program (of the program, by the output file). Spec/DimPaper: WholeSheet gives the marks of a sheet exactly, in order. Linear dimensions as in C88 and, from or to the centres of round parts, as in C95, angles as in C92 and, at or through the centres of round parts, as in C96, radii and diameters as in C94 (labels of up to 100 characters; those of a diameter without characters that are special in a PostScript string, as in C35); a drawing with dimensions must have a triangle that clearly faces the viewer. The examples: a run from a script text that asks for a linear dimension and an angle (beside the theorem), and one that asks for the radius and the diameter of a plate, a distance from its centre and an angle at its centre (Props/PlateRun; these runs meet the premises of C94_run, C95_run and C96_run too)."
 ],
 "C90": [
  "partial",
  "False as stated, in double arithmetic (nearest). C90_wrong: twelve corners exactly on a circle of radius 0.5 round (200, 200): the drawing is accepted and shows a radius above 1.5. C90_nan: radius 1.25 round (1000, 1000): accepted, the radius shown is not a number. C90_refused: radius 1.5 round (200, 200): refused. The numbers come from an executable model of binary64 (Spec/Exec64) evaluated by the kernel and proved equal to the rounded reals (Lemmas/Exec64, ExecFit, ExecModel). The sums in FindCircle are taken from the left; Eigen may associate them otherwise, with other errors of the same size. What holds: C90_located_partial, C90_label_partial, C90_accepted_partial: at a clear rim (RimAt: three corners of the rim clearly nearer than the first corner and than all corners off it, nothing between 0.88 and 1.12 radii) any rounding of binary64 gives centre within e = rimErr and radius within 8*M*e/r, diameter within 17*M*e/r, where e = 64(N+1)^4 M^5/(2^51 A^2) + 3(N+1)^3 M^3 eta/A^2 for N corners on the rim within M of the origin, off it by eta, spanning triangles of area at least A, as long as 2000 M e <= r^2; and the drawing is accepted. disc_case: radius 5 at the origin, error below 1/40000."
 ],
 "C91": [
  "proved",
  "Any rounding of binary64. C91_label: the number at the dimension; C91_accepted: a drawing whose dimensions are such, or radii and diameters as in C90, is not refused. A point is literal, near of a literal point that is closest to one corner beyond doubt, or center of a literal point at a clear rim (RimAt of C90; the condition is on the corners as they are seen). The error is 2^12 * 2^n * eta (size of the model, accuracy of the view) plus twice the errors of both points (rimErr for a centre). Without a clear rim the centre may be wrong (C90). side_case: from the centre of a rim to a corner, 7 but for 10^-6."
 ],
 "C92": [
  "proved",
  "Any rounding of binary64. C92_strokes: a drawing is the lines of the body and one block per dimension; the block of an angle with literal points and legs square to the line of sight, with 2^28*(K*eta) <= sin^2 (K bounds reach/length of the legs, eta is the accuracy of the view), is AngleDone: label, six strokes within angleError, arc with centre and radius within the same error and ends within 2^9*K*eta, in the orientation that the two legs have on the page. Linear dimensions of the same drawing as in C88. C92_run: the same of a conversion. C92_accepted: such a drawing is not refused. The start and stop angles are stated up to full turns (their cosine and sine)."
 ],
 "C93": [
  "proved",
  "Any rounding of binary64. C93_strokes: a drawing is the lines of the body and one block per dimension; the block of such a radius or diameter is RoundDone: no arcs, one label with its place, and strokes within roundError, that is 4 times the error of the circle (C90) plus 2^12*M*eta in model units, 2^20*eta points for the arrowheads, and the rounding of the shift. The elbow is ElbowAt always, and ElbowClear (which place, within elbowError) for a line whose components are at least theta >= 2^7*eta. C93_accepted: such a drawing is not refused. The place of the label is stated for numbers of up to 100 characters. Rims are those of C90_label_partial (RimAt); C64 tells which elbows are not on the far side of the rim."
 ],
 "C94": [
  "proved",
  "Any rounding of binary64. The hypotheses are about the triangles `us` that the text of the file describes (Describes of C78), not about computed points. HoleSeen: corners that may be seen (a triangle up to 2^-20 from edge-on counts as possibly seen, one beyond as certainly seen) are on the rim but for s, or outside the ring of 0.87 to 1.13 radii; three corners of the rim are clearly nearer to the centre asked for than whichever corner may come first; all with room for coordinates off by 10*M*eta. In a view by name corners behind one another are one (the model proves that a named view copies coordinates, lone_same, and that equal numerals are read equally); in other views they count as different corners. C94_strokes gives for each dimension DimensionDone: the linear ones as in C88 and C95, angles as in C92, radii and diameters as in C93, with the extra error of the rounding of the corners. C94_accepted: not refused. C94_run: for a conversion that succeeds. plate_leader: a round plate above a floor, one corner of which is right under one of the plate. Where the corners do not show the circle clearly the result may be wrong (C90)."
 ],
 "C95": [
  "proved",
  "Any rounding of binary64. The version of C91 whose hypotheses are about the triangles that the text of the file describes (HoleSeen of C94, PointClear of C79), with the strokes and the place of the label, not only the number. PlaceSeen: where a point is seen, with its error (2*M*eta for a corner or a literal point, rimErr for a centre). C95_strokes: each such dimension of a drawing that succeeds has a block of one label and, if the distance is at least 2^-9 of the size, eight strokes that go to these places (DimInk of C88, with the errors of the places added). C95_accepted: a drawing all of whose dimensions are clear (linear, angle, radius, diameter) is not refused. C95_run: for a conversion that succeeds. plate_spanned: from the centre of a plate to a corner of the floor, 8 but for 10^-3."
 ],
 "C96": [
  "proved",
  "Any rounding of binary64. FlatSeen: a literal point at depth 0 of the view (no error), a corner picked by near beyond doubt (the answer has depth 0 if the point given has, or if no corner is seen at it), or the center of a clearly shown circle (rimErr). The code gives a center the depth 0, so the other points must be at that depth as well: otherwise the angle is one in space, see DESIGN section 6. TurnAsks asks that, however the places lie within their errors, the legs are not too short and the angle not too flat. C96_strokes, C96_accepted, C96_run: as in C95, with the six strokes and the arc. plate_turned: the angle at the centre of a plate between a direction and a point, 90 but for 1/100. plate_turn': a leg to a corner picked by near."
 ],
 "C97": [
  "proved",
  "[exact arithmetic] Place: where in space each expression is taken to be. C97_angle: label, arc, refusal; C97_accepted: a drawing of such angles and of dimensions as in C82 is accepted; C97_page: with legs square to the line of sight the number is what the arc spans; C97_neither: the witness for the rest. near with several corners equally near and center where the circle is not clear are left to C08, C78 and C82. C97_run: the same of whole runs, from script text and model files."
 ],
 "C98": [
  "proved",
  "For single drawings (C98_drawing), text blocks (C98_text), pages (C98_page: one move per thing on it, possibly none) and whole runs (C98_run). Exact arithmetic; whatever is not finite stays so. The other properties and the dimensions are the same up to the line numbers of the moved drawings and of places; the place must have been given before (without one, a drawing is centred at the corner of the sheet, a text block at its middle)."
 ],
 "C99": [
  "proved",
  "For drawings (C99_drawing), pages (C99_page) and runs (C99_run), in every arithmetic; and as marks that the written files put on each sheet when run (C99_paper; exact arithmetic, finite pages with harmless labels as in C35). Nothing is said of the order of the pages themselves, which shows; that of properties is C55, that of loads C70_order."
 ],
 "C100": [
  "proved",
  "For drawings and text blocks (C100_block), pages (C100_page) and runs (C100_run: same success, same bytes written), in exact arithmetic. The places of drawings and of text blocks have different defaults; the theorem says so. That the default place of a drawing is a corner, most of the model then lying off the sheet, is noted in DESIGN.md section 6 under C39. Messages may differ in line numbers and are not compared."
 ]
}