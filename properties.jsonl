{"id": "C01", "title": "String literals denote exactly the text that was quoted", "statement": "For every text s without a NUL byte, writing s between double quotes with each double quote and backslash escaped by a backslash and each newline written \\n, the lexer yields one string token whose value is exactly s; adjacent literals denote the concatenation.", "quantifier": "all texts s of any length; all lists of adjacent literals", "why_tests_cant": "unbounded strings and every mix of escapes; the in-place unescape loop has index arithmetic a sample cannot cover", "anchors": ["stl-to-ps/ast.cc: NewQuote", "stl-to-ps/lexer.l: string rule", "stl-to-ps/parser.y: string_lit"]}
{"id": "C02", "title": "Tokenisation is longest-match with first-rule priority", "statement": "For every script text the token stream is the unique one obtained by repeatedly taking the longest prefix matched by any lexer rule, the earliest rule winning ties; whitespace and // comments give no token; a character no rule accepts gives a lexical error. In particular a keyword is recognised only as a whole word and can never be an identifier.", "quantifier": "all byte strings", "why_tests_cant": "all inputs; flex's maximal munch is a universally quantified statement over prefixes", "anchors": ["stl-to-ps/lexer.l"]}
{"id": "C03", "title": "The parser accepts exactly the published grammar and the resulting document is unique", "statement": "A token sequence is accepted iff the grammar in parser.y derives it, and the document returned is the one the grammar's actions build; no token sequence has two different documents.", "quantifier": "all token sequences", "why_tests_cant": "unbounded token sequences; ambiguity is a statement about all pairs of derivations", "anchors": ["stl-to-ps/parser.y", "stl-to-ps/parser.cc: Parse"]}
{"id": "C04", "title": "Every document can be written as a script and read back", "statement": "For every document whose names are identifiers, rendering it in the script syntax and parsing the text gives back the same document (models, pages, properties, drawings, dimensions, in the same order and with the same values).", "quantifier": "all documents (any number of models, pages, properties, nesting of point functions)", "why_tests_cant": "unbounded recursive data", "anchors": ["stl-to-ps/parser.y", "stl-to-ps/lexer.l", "stl-to-ps/ast.h: Document"]}
{"id": "C05", "title": "Layout is insignificant", "statement": "Inserting or removing spaces, tabs, carriage returns, newlines or // comments between tokens changes neither acceptance nor the document, except for recorded line numbers.", "quantifier": "all scripts, all placements of blanks between tokens", "why_tests_cant": "all placements in all scripts", "anchors": ["stl-to-ps/lexer.l: whitespace and comment rules"]}
{"id": "C06", "title": "Parsing never aborts the process", "statement": "For every script text Parse returns (zero or non-zero); it does not terminate the process.", "quantifier": "all scripts", "why_tests_cant": "needs every numeric literal that can be written, including those outside float range", "anchors": ["stl-to-ps/lexer.l: NUM rules (std::stof)", "stl-to-ps/parser.cc: Parse"]}
{"id": "C07", "title": "No script reaches the internal type assertion on '@'", "statement": "For every script that parses and every set of models, rendering never terminates the process at the assertion that an '@' property is a 2D location.", "quantifier": "all scripts, all models", "why_tests_cant": "all documents reachable from the parser", "anchors": ["stl-to-ps/stl-to-ps.cc: DrawToPage::operator()(Draw), (Text)", "stl-to-ps/parser.y: arg"]}
{"id": "C08", "title": "near(p) returns a vertex nearest to p on the page", "statement": "For a non-empty visible model, near(p) succeeds whenever p itself does; the result is p itself if p is a vertex, and otherwise is the page projection (z=0) of some vertex whose page distance to p is minimal.", "quantifier": "all point sets, all targets", "why_tests_cant": "all finite point sets", "anchors": ["stl-to-ps/ast.cc: PointFunc::Near"]}
{"id": "C09", "title": "The k-closest search returns the k closest points", "statement": "The search for the `count` closest points returns, in order of distance, at most `count` of the given points; and no omitted point (other than near-duplicates) is closer than a returned one, and fewer than `count` are returned only when there are fewer points.", "quantifier": "all point lists, counts, targets", "why_tests_cant": "depends on the order of an unbounded list", "anchors": ["stl-to-ps/ast.cc: point_impl::Closest"]}
{"id": "C10", "title": "The annulus filter returns exactly the points in the annulus", "statement": "For 0 <= min, the filter returns exactly the input points (in order, with multiplicity) whose distance to the centre is strictly between min and max; it returns none when max<0 or min>max.", "quantifier": "all point lists, radii, centres", "why_tests_cant": "all inputs", "anchors": ["stl-to-ps/ast.cc: point_impl::Between"]}
{"id": "C11", "title": "Circle fitting is exact on circles", "statement": "If three or more points, not all on one line, lie on a circle, the fit returns exactly that circle's centre and radius; with fewer than three points it reports failure.", "quantifier": "all circles, all finite point lists on them", "why_tests_cant": "all circles and point configurations", "anchors": ["stl-to-ps/center.cc: FindCircle"]}
{"id": "C12", "title": "Circle fitting is least squares, and moves and scales with the data", "statement": "For any point list with a unique fit, the fitted (centre, radius) minimises the sum of squared algebraic residuals |p|^2-2p.c+|c|^2-r^2, the squared radius is the mean squared distance to the centre, and translating or scaling all points translates or scales the result.", "quantifier": "all point lists with non-singular normal equations", "why_tests_cant": "optimality is a universally quantified statement", "anchors": ["stl-to-ps/center.cc: FindCircle", "stl-to-ps/center.h"]}
{"id": "C13", "title": "center(), dia and rad never report a degenerate circle", "statement": "When locating a circle for center()/dia/rad succeeds, the centre and radius are finite numbers with radius positive; when the located points all lie on one circle, centre and radius are exactly that circle's. Collinear neighbourhoods are reported as failure.", "quantifier": "all vertex sets and targets", "why_tests_cant": "all point configurations, including singular ones", "anchors": ["stl-to-ps/ast.cc: PointFunc::Center", "stl-to-ps/stl-to-ps.cc: DrawToPage::GetCenter"]}
{"id": "C14", "title": "An STL file is accepted iff every line is recognised, and facets are kept in file order", "statement": "Reading a model fails iff some line is none of: solid/endsolid, outer loop/endloop, facet normal with three numbers, vertex with three numbers, endfacet. On success the facets are those closed by an endfacet with a non-zero normal, in file order, built from the first three vertices since the last 'facet normal'.", "quantifier": "all file contents", "why_tests_cant": "all byte strings / line sequences", "anchors": ["stl-to-ps/stl.cc: STLFile::Make"]}
{"id": "C15", "title": "Reading a model has no undefined behaviour", "statement": "For every file content, reading it does not access memory out of bounds.", "quantifier": "all file contents", "why_tests_cant": "malformed facets with fewer than three vertices", "anchors": ["stl-to-ps/stl.cc: STLFile::Make, Facet::Facet"]}
{"id": "C16", "title": "Facet normals are unit, consistent with vertex order, and on the declared side", "statement": "Every facet built from three non-collinear vertices has a unit normal perpendicular to its edges, equal in direction to the right-hand rule on its stored vertex order, never opposed to the declared normal; its stored offset is the plane's offset; the stored vertices are the given ones up to exchanging first and third.", "quantifier": "all triangles and declared normals", "why_tests_cant": "all real inputs", "anchors": ["stl-to-ps/stl.cc: Facet::Facet"]}
{"id": "C17", "title": "STL round trip", "statement": "Writing any list of triangles with non-zero normals in the ASCII layout, with any indentation, and reading it returns exactly those facets.", "quantifier": "all lists of triangles with decimal coordinates, all indentations, any solid name", "why_tests_cant": "unbounded files", "anchors": ["stl-to-ps/stl.cc: STLFile::Make"]}
{"id": "C18", "title": "The vertex set is exactly the set of facet corners", "statement": "The vertex set of a model contains every corner of every facet and nothing else, with no duplicates and in lexicographic order.", "quantifier": "all models", "why_tests_cant": "all models", "anchors": ["stl-to-ps/stl.cc: STLFile::Points", "stl-to-ps/geo.h: point_set"]}
{"id": "C19", "title": "Back-face culling keeps exactly the front faces and is idempotent", "statement": "After culling, the facets are exactly (as a multiset) those whose normal does not point away from or edge-on to the viewer; culling again changes nothing.", "quantifier": "all models, any arithmetic", "why_tests_cant": "in-place swap loop over unbounded arrays", "anchors": ["stl-to-ps/stl.cc: STLFile::CullBackFace"]}
{"id": "C20", "title": "Limits is the tight page bounding box", "statement": "For a non-empty model the limits enclose every vertex's page coordinates and each of the four bounds is attained by some vertex; for an empty model it is the zero box.", "quantifier": "all models", "why_tests_cant": "all models", "anchors": ["stl-to-ps/stl.cc: STLFile::Limits"]}
{"id": "C21", "title": "Edge indexing is sound, complete and never aborts", "statement": "After loading or rotating, every facet's three sides appear in the edge table at the recorded positions, no edge appears twice (in either direction), every table entry is a side of some facet, and the 'edge not found' assertion never fires.", "quantifier": "all models with comparable coordinates", "why_tests_cant": "all meshes, including degenerate and non-manifold ones", "anchors": ["stl-to-ps/stl.cc: STLFile::Index"]}
{"id": "C22", "title": "Exactly the smooth interior edges are suppressed", "statement": "The edges offered for drawing are exactly those not shared by two facets, or whose first and last sharing facets have normals with dot product below 0.98.", "quantifier": "all models, any arithmetic", "why_tests_cant": "in-place swap partition over unbounded arrays", "anchors": ["stl-to-ps/stl.cc: STLFile::Index"]}
{"id": "C23", "title": "Edge crossing detection never aborts and records true crossings", "statement": "The 'Duplicate found' assertion never fires; each recorded crossing of an edge by another is a point on the first edge that coincides on the page with a point of the second edge that is at least as near to the viewer; and every such pair of non-parallel (on the page) edges is recorded.", "quantifier": "all models", "why_tests_cant": "all pairs of edges in all meshes", "anchors": ["stl-to-ps/stl.cc: STLFile::EdgeCrosses"]}
{"id": "C24", "title": "Hidden-line removal never aborts or overruns its buffer", "statement": "For every finite model the per-face buffer of five candidate points is never overrun, and none of the assertions in hidden-line removal fires.", "quantifier": "all finite models", "why_tests_cant": "all meshes, including degenerate ones", "anchors": ["stl-to-ps/stl.cc: STLFile::ToLines, GenerateLines"]}
{"id": "C25", "title": "Line generation draws exactly the complement of the hidden spans", "statement": "Given an edge and hidden spans on it sorted by start, every point of the edge outside all spans is on a generated line, and no interior point of a generated line is interior to a span; generated lines lie on the edge.", "quantifier": "all edges, all sorted lists of spans", "why_tests_cant": "unbounded lists of overlapping spans", "anchors": ["stl-to-ps/stl.cc: GenerateLines"]}
{"id": "C26", "title": "Nothing visible is removed", "statement": "Every point of a drawable edge that is not on any output line is, on the page, inside some front facet not having that edge as a side, and is on or behind that facet's plane.", "quantifier": "all models of triangles with consistent normals, all views", "why_tests_cant": "geometry over all meshes", "anchors": ["stl-to-ps/stl.cc: STLFile::ToLines"]}
{"id": "C27", "title": "What a facet hides is removed", "statement": "If a drawable edge does not pass in front of a front facet, and neither of its ends lies on the inside of that facet, then every point of it that lies on the page strictly inside the facet's outline is not in the interior of any output line of that edge. (An end lying on the facet's inside is not seen as hidden: such an edge can stay visible behind the facet.)", "quantifier": "all models, views, edges, facets", "why_tests_cant": "geometry over all meshes", "anchors": ["stl-to-ps/stl.cc: STLFile::ToLines, EdgeCrosses"]}
{"id": "C28", "title": "Only real edges are drawn", "statement": "Every output line is a segment of the page projection of some drawable edge of a front facet: of a facet of the model as loaded that, turned as the view asks, faces the viewer.", "quantifier": "all models, views", "why_tests_cant": "all meshes", "anchors": ["stl-to-ps/stl.cc: STLFile::ToLines, GenerateLines"]}
{"id": "C29", "title": "Drawing does not change the loaded models", "statement": "Rendering any sequence of drawings leaves the loaded models unchanged, so the same model may be drawn repeatedly and in different views with the same result as if drawn alone.", "quantifier": "all sequences of drawings", "why_tests_cant": "all histories", "anchors": ["stl-to-ps/stl-to-ps.cc: DrawToPage::operator()(Draw)", "stl-to-ps/stl.cc: STLFile::Rotate"]}
{"id": "C30", "title": "Every view is a proper rotation", "statement": "Every view, given by name or by two angles, is an orthogonal matrix of determinant 1; exactly the six names X+,X-,Y+,Y-,Z+,Z- are known and each looks along the axis it names; a facet's plane equation stays valid under viewing without recomputing the offset.", "quantifier": "all names, all angles, all facets", "why_tests_cant": "all real angles", "anchors": ["stl-to-ps/ast.cc: GetMatrixByName, GetMatrixByAng", "stl-to-ps/geo.cc: Rotate", "stl-to-ps/geo.h: matrix"]}
{"id": "C31", "title": "Point, edge and line orders are strict weak orders", "statement": "The orders used as keys of ordered containers (points, edges, page lines) are strict weak orders on values free of NaN, whose ties are exactly coordinatewise equality.", "quantifier": "all triples of points/edges/lines", "why_tests_cant": "all triples of values", "anchors": ["stl-to-ps/geo.h: Order, operator<", "stl-to-ps/stl.cc: EdgeOrder"]}
{"id": "C32", "title": "Text is shown literally and cannot inject PostScript", "statement": "For every text, the PostScript scanner reads the emitted string literal back as exactly that text and resumes immediately after it; no text content can end the literal early or be executed.", "quantifier": "all texts", "why_tests_cant": "all byte strings", "anchors": ["stl-to-ps/ps.cc: TextToPs"]}
{"id": "C33", "title": "Dimension labels cannot inject PostScript", "statement": "For every accepted fmt, the label of dia, rad, dim and angle is shown as one string literal followed by the intended operators.", "quantifier": "all accepted fmt strings and values", "why_tests_cant": "all format strings", "anchors": ["stl-to-ps/stl-to-ps.cc: RenderDia, RenderRad, Dim, Angle", "stl-to-ps/ps.cc: TextToPs"]}
{"id": "C34", "title": "Document header fields stay inside comments", "statement": "For every image name and script path, the emitted header's executable content is the same fixed prologue.", "quantifier": "all names, paths and time strings", "why_tests_cant": "all strings", "anchors": ["stl-to-ps/ps.cc: DocumentHeader"]}
{"id": "C35", "title": "Each drawing primitive becomes one PostScript stroke, in order", "statement": "Interpreting the emitted page program paints exactly the page's lines, arcs (angles in degrees) and texts, each once, texts first, then arcs, then lines, in list order.", "quantifier": "all pages", "why_tests_cant": "all lists of primitives", "anchors": ["stl-to-ps/ps.cc: LinesToPs, ArcToPs, TextToPs", "stl-to-ps/stl-to-ps.cc: RenderPages"]}
{"id": "C36", "title": "One output page per script page, numbered in order", "statement": "The output consists of one header followed by one page per script page in script order; page i is announced as 'i of n' and ends with exactly one showpage.", "quantifier": "all page lists", "why_tests_cant": "any number of pages", "anchors": ["stl-to-ps/stl-to-ps.cc: RenderPages, GeneratePages", "stl-to-ps/ps.cc: PageHeader, PageFooter"]}
{"id": "C37", "title": "The whole output is lexically well-formed PostScript", "statement": "For every document with finite coordinates, header fields free of newlines and no raw text containing parentheses or backslash misuse, the complete output scans as exactly the intended token sequence.", "quantifier": "all outputs", "why_tests_cant": "all documents", "anchors": ["stl-to-ps/stl-to-ps.cc: RenderPages", "stl-to-ps/ps.cc"]}
{"id": "C38", "title": "Model geometry reaches the page by one uniform scale and offset", "statement": "Everything a drawing adds (lines, arcs, dimension texts) is the model-space item with coordinates multiplied by scale*72 and shifted by one offset; arc radii are scaled, arc angles kept; earlier page content is kept in front in order.", "quantifier": "all drawings", "why_tests_cant": "all lists of primitives", "anchors": ["stl-to-ps/stl-to-ps.cc: AddLines, AddArcs, AddText"]}
{"id": "C39", "title": "A drawing is centred where it is placed", "statement": "For every model, view and scale with a:b positive, a drawing placed with @[x,y] has the centre of its bounding box at page point (396+72x, 306+72y).", "quantifier": "all models, views, scales, placements", "why_tests_cant": "all real inputs", "anchors": ["stl-to-ps/stl-to-ps.cc: DrawToPage::operator()(Draw)"]}
{"id": "C40", "title": "A linear dimension shows the true model distance along its direction", "statement": "For literal points, the dim label formats |(to-from).dir|/|dir| computed in model coordinates: independent of view, scale, `at`, the length of dir, and swapping from/to.", "quantifier": "all points, directions, views, scales", "why_tests_cant": "all real inputs", "anchors": ["stl-to-ps/stl-to-ps.cc: DrawToPage::operator()(Dim)"]}
{"id": "C41", "title": "A linear dimension is accepted iff it is well formed", "statement": "A dim succeeds iff its properties are exactly at, dir, from, to and optionally fmt, none repeated, the four being points that evaluate, dir non-zero, fmt a valid float format string; when it fails it adds nothing to the page.", "quantifier": "all property lists, visitor states", "why_tests_cant": "all property lists", "anchors": ["stl-to-ps/stl-to-ps.cc: DrawToPage::operator()(Dim), Flatten, Take"]}
{"id": "C42", "title": "An angle dimension shows the true angle and its arc turns counter-clockwise less than half a turn", "statement": "For an accepted angle the label formats the angle in degrees between the two model-space directions, independent of view; the arc is centred at the apex, passes at the distance of `at`, and sweeps counter-clockwise on the page from its start to its end direction by less than 180 degrees; a direction pair that is parallel on the page is rejected.", "quantifier": "all points, directions, views", "why_tests_cant": "all real inputs", "anchors": ["stl-to-ps/stl-to-ps.cc: DrawToPage::operator()(Angle)"]}
{"id": "C43", "title": "Diameter and radius labels and leaders match the located circle", "statement": "An accepted dia labels twice, and rad once, the radius of the located circle; their arrow tips lie on that circle.", "quantifier": "all circles, directions, placements, scales", "why_tests_cant": "all real inputs", "anchors": ["stl-to-ps/stl-to-ps.cc: RenderDia, RenderRad"]}
{"id": "C44", "title": "Unknown, repeated or missing properties are never ignored", "statement": "If any block (page, draw, text, dim, dia, rad, angle) has a repeated or unknown property, or lacks a required one, generation reports failure.", "quantifier": "all documents", "why_tests_cant": "all property lists", "anchors": ["stl-to-ps/stl-to-ps.cc: Flatten, Take, GeneratePages, DrawToPage"]}
{"id": "C45", "title": "Text blocks are laid out line by line", "statement": "A text block adds exactly its non-empty lines, in order, line number k (from 0, counting empty lines) at (396+72x, 306+72y-12k).", "quantifier": "all texts, placements", "why_tests_cant": "all texts", "anchors": ["stl-to-ps/stl-to-ps.cc: DrawToPage::operator()(Text)"]}
{"id": "C46", "title": "The page title is right-aligned in its box", "statement": "Each page ends with its title text starting 4.8 units per character left of 784 and two lines boxing it; nothing else is added by the title.", "quantifier": "all titles", "why_tests_cant": "all titles", "anchors": ["stl-to-ps/stl-to-ps.cc: OutputPage::AddHeader"]}
{"id": "C47", "title": "Model loading succeeds iff all names are distinct and all files readable and well-formed", "statement": "Loading reports success iff model names are pairwise distinct and each file is found and accepted; then the map holds exactly the named models with the content of their files. Relative paths are tried under '.', then each load-path root in order; absolute paths are opened as is. Files outside these places are never read.", "quantifier": "all documents, file systems, load paths", "why_tests_cant": "all file systems", "anchors": ["stl-to-ps/stl-to-ps.cc: LoadFiles"]}
{"id": "C48", "title": "Output is all or nothing", "statement": "If conversion reports failure, nothing has been written to the output stream; if it reports success, the complete document has been written.", "quantifier": "all scripts, models, file systems", "why_tests_cant": "every failing path in every script", "anchors": ["stl-to-ps/stl-to-ps.cc: ScriptToPS"]}
{"id": "C49", "title": "Exit status and files of the command line tool", "statement": "The tool exits 0 iff both flags are given, both files open and conversion succeeds; then the output file holds the complete document. It never alters any other file, in particular not the script.", "quantifier": "all flag values, file systems", "why_tests_cant": "all file systems, including aliasing of paths", "anchors": ["stl-to-ps/stl-to-ps-main.cc: main"]}
{"id": "C50", "title": "Failures are diagnosed and successes are quiet", "statement": "If page generation reports failure, at least one diagnostic with a source line was printed; if it succeeds, none was.", "quantifier": "all documents and models", "why_tests_cant": "every failing path", "anchors": ["stl-to-ps/stl-to-ps.cc", "stl-to-ps/ast.cc: PointFunc::Near, PointFunc::Center"]}
{"id": "C51", "title": "Pages and drawings do not influence each other", "statement": "What a page (or drawing) contributes depends only on its own text and the models: it is the same whatever pages or drawings precede it, including failed ones.", "quantifier": "all documents, all positions", "why_tests_cant": "all histories of earlier drawings", "anchors": ["stl-to-ps/stl-to-ps.cc: GeneratePages, DrawToPage"]}
{"id": "C52", "title": "Rendering a document twice gives the same pages", "statement": "Generating pages from the same document object a second time gives the same pages as the first time.", "quantifier": "all documents", "why_tests_cant": "all documents; state is mutated through const references", "anchors": ["stl-to-ps/stl-to-ps.cc: GetRotated", "stl-to-ps/ast.h: Point::Rotate"]}
{"id": "C53", "title": "Results never depend on uninitialised memory", "statement": "Acceptance, diagnostics and page content do not depend on the indeterminate contents of local vectors and matrices that the code declares without initialising.", "quantifier": "all documents, all indeterminate contents", "why_tests_cant": "indeterminate values cannot be enumerated by tests", "anchors": ["stl-to-ps/stl-to-ps.cc: Dim, Angle, GetCenter, GetRotated", "stl-to-ps/ast.cc: Near"]}
{"id": "C54", "title": "Accepted drawings have finite coordinates", "statement": "If conversion succeeds, every coordinate and radius on every page is a finite number.", "quantifier": "all scripts and finite models", "why_tests_cant": "all scales and directions", "anchors": ["stl-to-ps/stl-to-ps.cc: Draw, RenderDia, RenderRad, Dim, Angle"]}
{"id": "C55", "title": "The order of properties in a block is irrelevant", "statement": "Permuting the properties of a page, draw, text or dimension block changes neither acceptance nor what is drawn.", "quantifier": "all blocks, all permutations", "why_tests_cant": "all permutations", "anchors": ["stl-to-ps/stl-to-ps.cc: Flatten, Take"]}
{"id": "C56", "title": "Angle views compose as turn then tilt", "statement": "The view [a,b] is the turn by a about the view axis composed with the tilt by b; [0,0] is the identity view (Z+); turns add.", "quantifier": "all angles", "why_tests_cant": "all real angles", "anchors": ["stl-to-ps/geo.cc: Rotate", "stl-to-ps/ast.cc: GetMatrixByAng"]}
{"id": "C57", "title": "Scale a:b draws one model unit as 72*a/b points", "statement": "For a:b with b non-zero, page distances between drawn points are exactly 72*|a/b| times their page-projected model distances.", "quantifier": "all scales, all points", "why_tests_cant": "all real inputs", "anchors": ["stl-to-ps/stl-to-ps.cc: Draw, AddLines"]}
{"id": "C58", "title": "A failed drawing does not stop the others", "statement": "Page generation processes every page and every drawing even when some fail, appends one output page per script page after any existing pages, and reports success iff every part succeeded.", "quantifier": "all documents", "why_tests_cant": "all combinations of failures", "anchors": ["stl-to-ps/stl-to-ps.cc: GeneratePages"]}
{"id": "C59", "title": "Rendering finishes", "statement": "For every script that parses and every set of model files that were read, rendering finishes: no assertion fails, no array is overrun and no null pointer is followed.", "quantifier": "all scripts, all model files, all views and page layouts", "why_tests_cant": "The assertions and fixed-size buffers depend on geometric coincidences between arbitrary models and views; testing covers only the models tried.", "anchors": ["stl-to-ps/stl-to-ps.cc:170-207", "stl-to-ps/stl-to-ps.cc:305-319", "stl-to-ps/stl-to-ps.cc:661-726", "stl-to-ps/stl.cc:172-276", "stl-to-ps/stl.cc:297-412"]}
{"id": "C60", "title": "Printed coordinates are accurate to six significant digits", "statement": "Every finite number the program prints into PostScript is read back by a PostScript scanner as a number that differs from it by at most 5e-6 of its size; infinities and not-a-number are never read as numbers.", "quantifier": "all real numbers", "why_tests_cant": "Rounding, carries into a new digit and the switch between positional and exponent notation depend on the value; tests try a few values.", "anchors": ["stl-to-ps/ps.cc: LinesToPs, ArcToPs, TextToPs"]}
{"id": "C61", "title": "Centred text is centred", "statement": "Whatever the font's metrics, running the emitted command for a centred text paints it so that its horizontal middle is at the requested x; a text that is not centred starts at the requested x.", "quantifier": "all texts, places and font metrics", "why_tests_cant": "Needs an interpretation of the emitted PostScript for all fonts, not a comparison of text.", "anchors": ["stl-to-ps/ps.cc: DocumentHeader, TextToPs"]}
{"id": "C62", "title": "A run finishes in floating-point arithmetic", "statement": "In double-precision arithmetic with rounding and overflow, for any rounding direction: if reading the script does not itself end the program, no facet of a model file is closed with fewer than three vertices and no vertex coordinate exceeds 2^505 in size, then the run finishes; no assertion fails, nothing undefined happens, and the exit status is 0 or 1.", "quantifier": "all scripts, model files within the bound, sorting routines, rounding directions", "why_tests_cant": "The assertions in hidden-line removal depend on how sums, products and quotients of arbitrary coordinates round; only a proof about every rounding excludes a failing combination.", "anchors": ["stl-to-ps/stl.cc: ToLines, GenerateLines, EdgeCrosses, Index", "stl-to-ps/geo.cc", "stl-to-ps/stl-to-ps.cc: ScriptToPS", "stl-to-ps/stl-to-ps-main.cc: main"]}
{"id": "C63", "title": "A linear dimension is drawn where it measures", "statement": "For literal points and any view, an accepted dim draws exactly eight strokes: its arrowheads start at the feet of the perpendiculars from `from` and `to` onto the line through `at` along `dir`; the extension lines run from 4 points beyond the dimension line to 2 points before the measured points and, when dir is parallel to the page, are perpendicular to it; the dimension line leaves the label's box free when the arrowheads are farther from `at` than the gap.", "quantifier": "all points, directions, rotation views, positive scales, offsets and formats", "why_tests_cant": "A geometric relation between continuous inputs; tests compare a few drawings.", "anchors": ["stl-to-ps/stl-to-ps.cc: DrawToPage::operator()(const Dim&)"]}
{"id": "C64", "title": "The leader of a diameter or radius connects arrow and label", "statement": "The leader of an accepted dia or rad goes from the opposite tip (dia) or the centre (rad) along dir through the arrow's tip to an elbow and from there to `at`.", "quantifier": "all located circles, places, directions, views and scales", "why_tests_cant": "Whether the tip is on the leader depends on the ratio of the label's distance to the radius; tests try a few.", "anchors": ["stl-to-ps/stl-to-ps.cc: DrawToPage::RenderDia, RenderRad"]}
{"id": "C65", "title": "The arrows of an angle are at the ends of its arc", "statement": "The arrowheads of an accepted angle start at the points of the two legs at the distance of `at` from the apex; for legs parallel to the page these are points of the arc.", "quantifier": "all apexes, legs, places, rotation views and scales", "why_tests_cant": "A geometric relation between continuous inputs; tests compare a few drawings.", "anchors": ["stl-to-ps/stl-to-ps.cc: DrawToPage::operator()(const Angle&)"]}
{"id": "C66", "title": "Ties in std::sort do not show", "statement": "std::sort may order equal elements in any way. Whatever it does, the lines drawn, the bytes written, the diagnostics, the exit status and the files afterwards are the same.", "quantifier": "all pairs of correct sort implementations, all models, scripts, views and file systems", "why_tests_cant": "A test runs one standard library; another may order ties differently.", "anchors": ["stl-to-ps/stl.cc: STLFile::ToLines", "stl-to-ps/stl.cc: GenerateLines"]}
{"id": "C67", "title": "The order of facets and corners in a model file does not show", "statement": "Listing the facets of a model in another order, or the corners of a facet in another order, changes neither verdict nor diagnostics, and every page holds the same strokes, arcs and texts.", "quantifier": "all models, all reorderings of facets and corners, all scripts, rotation views and correct sort implementations", "why_tests_cant": "The number of reorderings is factorial and the drawing goes through index tables built in file order; tests try one order.", "anchors": ["stl-to-ps/stl.cc: STLFile::Index", "stl-to-ps/stl.cc: STLFile::CullFacets", "stl-to-ps/stl.cc: STLFile::ToLines", "stl-to-ps/stl.cc: Facet"]}
{"id": "C68", "title": "Where a model lies in its own coordinates does not show, nor its size if the scale is adapted", "statement": "If all vertices of a model are multiplied by k > 0 and moved by a vector, and the scale of a drawing is divided by k (for k = 1: left alone), the outline of the model appears at the same place of the page with the same strokes in the same order.", "quantifier": "all models, all k > 0, all vectors, all views, places and scales with non-zero denominator, all correct sort implementations", "why_tests_cant": "Hidden-line removal compares positions with planes, boxes and edges through many intermediate quantities; a test that happens to place the model at the origin cannot notice one that depends on where it lies.", "anchors": ["stl-to-ps/stl.cc: STLFile::Rotate", "stl-to-ps/stl.cc: STLFile::ToLines", "stl-to-ps/stl.cc: STLFile::Limits", "stl-to-ps/stl-to-ps.cc: StlToPsVisitor::VisitNode(const Draw&)"]}
{"id": "C69", "title": "Turning a model is turning the view", "statement": "If all vertices and declared normals of a model are turned by a rotation R and the model is drawn in a view m, the drawing is exactly that of the original model in the view 'first R, then m'; for angle views, turning the model by a degrees adds a to the first angle.", "quantifier": "all models, rotations and views", "why_tests_cant": "Views and rotations form a continuum; tests try a few named views of one model.", "anchors": ["stl-to-ps/stl.cc: Facet", "stl-to-ps/stl.cc: STLFile::Rotate", "stl-to-ps/geo.cc: GetMatrixByAng"]}
{"id": "C70", "title": "Only the models drawn matter", "statement": "The result of a run does not depend on the names given to models, the order in which they are loaded, models that are loaded but not drawn, or files other than those found for the models the script names.", "quantifier": "all scripts, all ways of loading the models that succeed, all file systems", "why_tests_cant": "It compares pairs of scripts and pairs of file systems; tests run a few scripts in one directory.", "anchors": ["stl-to-ps/stl-to-ps.cc: LoadFiles", "stl-to-ps/stl-to-ps.cc: GeneratePages", "stl-to-ps/stl-to-ps.cc: ScriptToPS"]}
{"id": "C71", "title": "Facets that face away from the viewer do not show", "statement": "Leaving out of a model the facets that face away from the viewer (or are seen edge-on) changes neither the verdict nor the diagnostics of a drawing, and the same strokes, arcs and texts appear on the page.", "quantifier": "all models, all views, places, scales and dimensions, all correct sort implementations", "why_tests_cant": "Back faces are removed by swapping facets about in the list, which changes the order of all the others; whether that order matters is a question about every model.", "anchors": ["stl-to-ps/stl.cc: STLFile::Rotate", "stl-to-ps/stl.cc: STLFile::CullBackFace", "stl-to-ps/stl.cc: STLFile::ToLines"]}
{"id": "C72", "title": "What comes out on paper is the model: nothing missing, nothing added", "statement": "After exit status 0, the output file is a PostScript program which puts one sheet on paper for each page of the script. On the sheet of a page, for each of its drawings: every point of an edge of the model's facets that face the viewer, unless two of them meet there nearly in a plane, lies under a stroke along that edge - at its place in the view, scaled as asked for and with the centre of what is seen where asked for, up to printing to six digits - or is covered by a facet. And if the page has no dimensions, every stroke on it is the border, one of the two lines about the title, or part of a side of a facet that faces the viewer, no point of which is within the outline of a facet that is in front of that side.", "quantifier": "all scripts and model files for which the program succeeds, all views, places and scales, all correct sort implementations", "why_tests_cant": "This is the purpose of the program as one statement from the files it reads to the ink on paper: it depends on reading, indexing, view, hidden lines, page layout and the PostScript that is written, for all models at once.", "anchors": ["stl-to-ps/stl-to-ps-main.cc: main", "stl-to-ps/stl-to-ps.cc: ScriptToPS, LoadFiles, RenderPages", "stl-to-ps/stl.cc: STLFile::Make, Rotate, CullBackFace, ToLines", "stl-to-ps/ast.cc: Draw, DrawSet"]}
{"id": "C73", "title": "Rounding puts no ink away from the model", "statement": "In IEEE 754 double arithmetic, with any rounding direction, every line of a successful drawing without dimensions starts and ends next to one and the same side of a facet that faces the viewer in the view asked for, at the scale asked for (to the accuracy of a float) and with the centre of what is seen at the place asked for. 'Next to' means within (M*k + |p| + 1)/2^35 points on paper, where M is the power of two that bounds the model's coordinates, k the scale and p the place. A facet whose normal is within 2^-37 of being edge-on may count as facing or not.", "quantifier": "all models with coordinates up to 2^500, all views by name or by angles up to 1024 degrees, all places, all scales not over zero, all rounding directions, all correct sort implementations", "why_tests_cant": "Rounding errors depend on every input and accumulate through rotation, intersection of edges, interpolation and page layout; a cancellation or a division by almost zero could throw a point far away for some model no test contains.", "anchors": ["stl-to-ps/stl.cc: STLFile::Rotate, STLFile::ToLines", "stl-to-ps/stl-to-ps.cc: DrawToPage::operator()(const Draw&)"]}
{"id": "C74", "title": "The number at a linear dimension is right in double arithmetic", "statement": "In IEEE 754 double arithmetic, with any rounding direction, in every successful drawing each linear dimension whose at, dir, from and to are literal points has a centred label, and the number formatted in it differs from |(to-from).dir|/|dir| by at most 2^-38 times the largest coordinate if the view is named and 2^-28 times if it is given by angles. In particular the number is never infinite or NaN, and none of the intermediate results (unit vector, projections, norms) can overflow or lose its digits.", "quantifier": "all models, scales, places and views (angles up to 1024 degrees), all points with coordinates up to 2^200, all directions whose largest coordinate is between 2^-40 and 2^200, all rounding directions", "why_tests_cant": "Rounding depends on every bit of the input and of the view; a test samples a few numbers on one machine", "anchors": ["stl-to-ps/stl-to-ps.cc: DrawToPage::operator()(Dim)", "stl-to-ps/geo.cc: Rotate", "stl-to-ps/ast.cc: GetMatrixByAng"]}
{"id": "C75", "title": "The number at an angle is right in double arithmetic", "statement": "In IEEE 754 double arithmetic, with any rounding direction, in every successful drawing each angle with literal apex and legs (by direction or by point) has a centred label ending in ' deg', and the number formatted in it differs from the angle between the legs in model space, in degrees, by at most 2^18*K*e/sin(angle), where e is 2^-50 for named views and 2^-40 for views by angles, and K says how many times larger the coordinates of a leg's point and of the apex are than their difference. The angle must have sin^2 at least 2^24*K*e; then it is never NaN although the program takes the arc cosine of a rounded product.", "quantifier": "all models, scales, places and views (angles up to 1024 degrees), all legs with coordinates between 2^-40 and 2^200, all rounding directions", "why_tests_cant": "Rounding depends on every bit of the input and of the view; whether acos gets an argument over 1 is a matter of the last bit", "anchors": ["stl-to-ps/stl-to-ps.cc: DrawToPage::operator()(Angle)"]}
{"id": "C76", "title": "What comes out on paper is the model, in double arithmetic", "statement": "In IEEE 754 double arithmetic, with any rounding direction: after exit status 0 for a script without dimensions, the output file is a PostScript program which puts one sheet on paper for each page of the script. On each sheet every stroke is the border, one of the two lines at the title, or one line that starts and ends next to one and the same side of a facet that faces the viewer in a drawing of that page (in the view, at the scale and place asked for); every text is the corner's label, the title at its place, or a line of a text block of the page next to its place, and every non-empty line of every text block is there. 'Next to' is the distance of C73 for lines, (n+1)*(|x|+|y|+12n+1)/2^38 points for a block of n lines asked for at (x, y), (length+200)/2^18 points for the title, and in each case half a unit in the sixth printed digit on top.", "quantifier": "all scripts without dimensions (views by name or angles up to 1024 degrees, scales not over zero, texts shorter than 2^32), all model files with coordinates up to 2^500, all rounding directions of binary64, all correct sort implementations, all fonts", "why_tests_cant": "A test compares a few outputs with stored ones; that no script and no model file makes rounding, overflow (inf/nan in the PostScript) or printing put ink or text in a wrong place is a statement about all of them at once, from the bytes of the input files to the marks of a PostScript interpreter.", "anchors": ["stl-to-ps/stl-to-ps-main.cc: main", "stl-to-ps/stl-to-ps.cc: ScriptToPS, GeneratePages, RenderPages, OutputPage::AddHeader, DrawToPage::operator()(const Draw&), operator()(const Text&), AddLines, AddText", "stl-to-ps/ps.cc: DocumentHeader, PageHeader, LinesToPs, TextToPs, PageFooter"]}
{"id": "C77", "title": "A dimension at near(p) looks as if the corner of the model were written out", "statement": "In a successful conversion, every near(p) in a diameter, a radius, or a linear dimension whose direction is square to the line of sight (nested near allowed) can be replaced by the coordinates, as in the model file, of a corner of a facet facing the viewer that appears nearest to p in the view of the drawing, and the output stays the same byte for byte. In particular the number at such a linear dimension is the distance along its direction, in model units, between the two corners picked, in every view and at every scale.", "quantifier": "all scripts whose dimensions are of these kinds, all model files, all views, scales and places, all correct sort implementations", "why_tests_cant": "It relates two runs over all scripts, views and models: the corner must be looked up in the turned, culled model and yet count in the coordinates of the file; a test sees single views, mostly the default one in which both coincide.", "anchors": ["stl-to-ps/ast.cc: PointFunc::Invoke", "stl-to-ps/stl-to-ps.cc: DrawToPage::operator()(const Draw&), operator()(const Dim&), Flatten"]}
{"id": "C78", "title": "An angle at points picked by near is the angle between the corners picked", "statement": "The number at an angle whose apex and leg points are given literally or by near() is the angle, in degrees, between the corners picked as they are in the model. (False: near() keeps the depth of a corner only if it is given exactly and otherwise moves it into the plane of the drawing; with an exact apex and inexact leg points, a right angle parallel to the page is labelled 60 degrees. True if no point loses its depth; if no point given is exactly a corner seen, the number is the angle between the corners as it appears on the page.)", "quantifier": "all drawings with such angles, all models, views and scales", "why_tests_cant": "The result depends on whether a point given coincides exactly with a corner; tests use models lying in the plane z = 0 or points beside the corners, where the difference does not show.", "anchors": ["stl-to-ps/ast.cc: PointFunc::Near", "stl-to-ps/stl-to-ps.cc: DrawToPage::operator()(const Angle&)"]}
{"id": "C79", "title": "Legs on one line are rejected, and every angle that is drawn shows a number, in double arithmetic", "statement": "In IEEE 754 double arithmetic an angle whose legs are on one line (0 or 180 degrees) is rejected, as in exact arithmetic, and the label of every angle that is drawn is a number. (False: the legs (2,5) and (-6,-15) are drawn and labelled 'nan deg', because the cross product of the rounded unit vectors is -2^-54 and their scalar product is -1-2^-52.)", "quantifier": "all models, drawings, views, literal legs", "why_tests_cant": "Whether it happens depends on the last bits of the unit vectors: of the integer legs up to 11 a few are wrong and most are right", "anchors": ["stl-to-ps/stl-to-ps.cc: DrawToPage::operator()(Angle)"]}
{"id": "C80", "title": "Which end of a dimension is called from and which to does not show", "statement": "Exchanging from and to in a dimension (from with to, from_dir with to_dir, from_point with to_point) changes nothing that can be seen: the conversion still succeeds, and every page shows the same strokes, arcs and texts, only possibly drawn in another order or direction. For angles the output even stays the same byte for byte. (False for a linear dimension of which the dimension line, as seen, goes exactly through a point measured: the stub of the extension line there changes sides.)", "quantifier": "all scripts, all model files, all views, all positive scales, all correct sort implementations; angles with any points, linear dimensions with literal points", "why_tests_cant": "It compares two runs over all placements of the points: left or right of the line, label fitting or not, dimension line seen end on; the one case in which it fails is a tie in the sign of a scalar product.", "anchors": ["stl-to-ps/stl-to-ps.cc: DrawToPage::operator()(const Dim&), operator()(const Angle&)"]}
{"id": "C81", "title": "A model can be moved or turned together with its dimensions", "statement": "When a model has been moved in its file and the points of all dimensions of its drawings have been moved with it (directions left as they are), the output is the same byte for byte; likewise when model, points and directions have been turned and the view of each drawing turns them back. So where a model's origin lies and how it is laid out in its file do not show, dimensions included. (False for moves with a part along the line of sight when a linear dimension or an angle mixes near and written points: near puts the point at depth 0.)", "quantifier": "all scripts, all model files, all moves and all rotations, all views, scales, places and dimensions; moves in depth with the restriction named", "why_tests_cant": "It relates two runs on different disks and scripts for every move and rotation; in exact arithmetic only, so a test would see rounding, and the one way in which it fails shows only for near points measured in depth.", "anchors": ["stl-to-ps/stl-to-ps.cc: DrawToPage, Near, MetaToPoint", "stl-to-ps/geo.cc: CenterOn, limits"]}
{"id": "C82", "title": "The diameter at a round hole is the diameter of the hole", "statement": "Where the corners seen nearest to the point given as center lie on a circle (a hole or a disc, approximated by any number of facets), dia shows the diameter of that circle and rad its radius, and center(...) in any other dimension stands for its centre: a linear dimension between such points shows their distance along its direction. The point need not be the exact centre. (False as it stands: corners further away than the leftmost one of the whole model are not considered, so a point nearer to it than to two others is rejected; and corners within a tenth of the radius from the circle are fitted too.)", "quantifier": "all models, views, scales, holes with any number of facets, any three or more distinct corners; exact arithmetic", "why_tests_cant": "Which corners are collected depends on the order of all corners of the model, on every distance and on the thresholds; a test sees single holes, the claim is for all of them and all places one may point at.", "anchors": ["stl-to-ps/ast.cc: Closest, Center", "stl-to-ps/center.cc", "stl-to-ps/stl-to-ps.cc: DrawToPage::operator()(Dia), operator()(Rad), operator()(Dim)"]}
{"id": "C83", "title": "An edge in full view is drawn, in spite of rounding", "statement": "In double arithmetic, whatever the direction of rounding, every edge of a model that is clearly in full view in the view asked for is drawn from end to end, at the scale and place asked for. An edge is in full view if it is a side of a facet facing the viewer, is no crease between all but parallel facets, is not all but a point, and no facet facing the viewer hides any of it: where on the page it meets the side of another facet it passes above that side or has a corner in common with it. There is something to spare in each respect; nothing is said about edges for which it is a matter of the last bits.", "quantifier": "all models with corners up to 2^40, all views and scales, all scripts, all rounding directions; IEEE 754 double arithmetic", "why_tests_cant": "Whether a line is removed depends on comparisons of rounded quotients for each pair of an edge and a side; a test sees single models, and on another machine rounding or order may differ. The claim is that no accumulation of errors removes or shortens any of the edges.", "anchors": ["stl-to-ps/stl.cc: STLFile::Rotate, STLFile::EdgeCrosses, STLFile::ToLines", "stl-to-ps/stl-to-ps.cc: DrawToPage::operator()(const Draw&)"]}
{"id": "C84", "title": "What the model file describes is what is drawn, in spite of rounding", "statement": "In double arithmetic, whatever the direction of rounding: the facets of an accepted model file are the triangles that its text describes (the decimal numerals taken at their exact value), in order, with the side that fits the declared normal as the front, and with a normal and a plane that are nearly the true ones. Every edge of the body so described that is clearly in full view in the view asked for is drawn from end to end, at the scale and place asked for. This holds if the triangles are not all but lines and the declared normals are not all but parallel to the triangles.", "quantifier": "all texts of model files with coordinates up to 2^40, all views and scales, all scripts, all rounding directions; IEEE 754 double arithmetic", "why_tests_cant": "The numerals are rounded when read, the normal and the distance of the plane are computed from the rounded corners, and which side is the front depends on the sign of a rounded product; each affects which lines are removed. A test sees single files.", "anchors": ["stl-to-ps/stl.cc: Facet::Facet, STLFile::Make", "stl-to-ps/stl.cc: STLFile::Rotate, STLFile::EdgeCrosses, STLFile::ToLines"]}
{"id": "C85", "title": "Hidden lines are left out and visible ones drawn, in spite of rounding", "statement": "In double arithmetic, whatever the direction of rounding: every point of an edge of the body that a model file describes which is clearly in view in the view asked for is in a line of the drawing that shows a part of that edge, and every line of the drawing of the body shows a part of an edge of the body which no triangle facing the viewer clearly hides, but for a thousandth of the length of the edge at its ends. All lines are at the scale and place asked for. Nothing else is drawn of the body.", "quantifier": "all texts of model files with coordinates up to 2^40, all views and scales, all scripts, all edges, triangles and points of them, all rounding directions; IEEE 754 double arithmetic", "why_tests_cant": "What is hidden is found from rounded crossings of edges on the page, sorted along the edge and joined; one wrong comparison near a crossing draws a hidden line or removes a visible one. Tests see single bodies from single directions.", "anchors": ["stl-to-ps/stl.cc:172-276 STLFile::ToLines", "stl-to-ps/stl.cc:366-454 STLFile::EdgeCrosses", "stl-to-ps/stl.cc:72-170 STLFile::Make, Rotate, CullBackFace"]}
{"id": "C86", "title": "From script and model files to ink on paper, in double arithmetic", "statement": "If the program exits with status 0, the output file is a PostScript program that puts one sheet on paper per page of the script. The strokes on a sheet are the border, the box of the title and, for each drawing of the page, lines that show the body which the text of its model file describes, in the view and at the scale and place asked for: every point of an edge that is clearly in view is on such a line, and no such line shows a clearly hidden part of an edge beyond a thousandth of the edge's length. Nothing else is stroked, and the texts are those of the script. All of this holds in double arithmetic with numbers printed to six digits.", "quantifier": "all disks, scripts without dimensions and model files with coordinates up to 2^40, all rounding directions, all fonts of the printer; IEEE 754 double arithmetic", "why_tests_cant": "The claim joins reading, geometry, hidden lines, layout, printing of numbers and the PostScript language for all inputs; tests compare single outputs with what was printed before.", "anchors": ["stl-to-ps/stl-to-ps-main.cc:42 main", "stl-to-ps/stl-to-ps.cc:661 DrawToPage::operator()(const Draw&)", "stl-to-ps/stl.cc:72-454", "stl-to-ps/ps.cc:44-165"]}
{"id": "C87", "title": "A dimension between corners picked by near is right, in double arithmetic", "statement": "In a drawing that succeeds, a linear dimension whose direction is square to the line of sight and whose points are literal or near(p) with a literal p has a label. The number in it is the distance along the direction between the points meant, but for 2^13 units of the last place of the view. The point meant by near(p) is a corner of a triangle of the model file that does not clearly face away, and no corner of a triangle that clearly faces the viewer appears nearer to p by more than rounding. If one corner is clearly the nearest, it is the one measured from, however roughly p was given and whatever its depth.", "quantifier": "all scripts and model files with coordinates up to 2^40, all views by name or by angles up to 1024 degrees, all directions of rounding; IEEE 754 double arithmetic", "why_tests_cant": "The tests call near on a few exact points. The claim is about every model text and every rough point: reading, culling, turning, searching and measuring with rounding at each step, where a search that compares rounded distances could prefer another corner.", "anchors": ["stl-to-ps/ast.cc:55-77 PointFunc::Near", "stl-to-ps/stl-to-ps.cc:536 DrawToPage::operator()(const Dim&)", "stl-to-ps/stl.cc:72-160"]}
{"id": "C88", "title": "The strokes of a linear dimension are where they should be, in double arithmetic", "statement": "A drawing that succeeds puts on the page the lines of the body and then, for each dimension in order, what that dimension gives, and nothing else. A linear dimension whose direction is square to the line of sight, whose points are literal or near(p), at a positive scale, gives one label, centred where 'at' is asked for, and, unless it is short for the size of the model, eight strokes: the dimension line between the feet of the points measured, broken for the label if there is room for it and otherwise drawn outside with arrowheads pointing inwards; two extension lines from 4 points beyond the dimension line to 2 points before the point measured; two barbs for each arrowhead, 6 points long and 2 to the side. Ends of strokes are right but for rounding. Only when the room for the label is just enough, or a point measured is next to the dimension line, may rounding decide between the two ways of drawing.", "quantifier": "all scripts and model files with coordinates up to 2^40, all views by name or by angles up to 1024 degrees, all positive scales, labels up to 64 characters, all directions of rounding; IEEE 754 double arithmetic", "why_tests_cant": "The tests compare one rendered page. The claim is about every direction, every scale and every place: normalised directions, quotients by components of the direction that may be zero or tiny, a minimum of two such quotients, and comparisons whose outcome selects the way of drawing, all with rounding.", "anchors": ["stl-to-ps/stl-to-ps.cc:536 DrawToPage::operator()(const Dim&)", "stl-to-ps/stl-to-ps.cc:596-690 strokes of a dimension", "stl-to-ps/ast.cc:55-77"]}
{"id": "C89", "title": "A whole sheet with drawings, dimensions and texts is right on paper, in double arithmetic", "statement": "After exit status 0 the output file, run as a PostScript program, puts one sheet on paper for each page of the script, and on each sheet, in this order and with nothing else: the border, the label in the corner, the texts, the title, the arcs, the lines, the two lines around the title. The texts are, thing by thing in the order of the script, the non-empty lines of a text block and the labels of the dimensions of a drawing, one for each, centred where the dimension is asked for, with the distance between the points meant, or the angle in degrees, or behind an R or a diameter sign, to the right of the place, the radius or diameter of a round part of the body. The strokes are, drawing by drawing, first the lines that show the body its model file describes, hidden parts left out, and then for each dimension in order the eight strokes of a linear dimension, the six of an angle, whose arc goes counter-clockwise from the leg to the right to the leg to the left, the four of a radius or the six of a diameter. All coordinates are right but for rounding and printing to six digits.", "quantifier": "all scripts whose dimensions are linear, square to the line of sight and not short, with points literal or near(p), or center(p) where the corners of the body clearly show a circle, or angles square to the line of sight and not too flat, with points literal or near(p) at depth 0 of the view, or center(p) where the corners of the body clearly show a circle, or radii and diameters with literal points at places where the corners of the body clearly show a circle; all model files that describe a body with coordinates up to 2^40, all views by name or by angles up to 1024 degrees, all positive scales, all directions of rounding; IEEE 754 double arithmetic", "why_tests_cant": "The tests run parts of the chain on a few inputs and compare text. The claim joins the script parser, the STL reader, culling, hidden-line removal, dimensions, page layout, number printing and the PostScript interpreter for every input of the kind, and says that nothing else gets on paper.", "anchors": ["stl-to-ps/stl-to-ps.cc:536 DrawToPage::operator()(const Dim&)", "stl-to-ps/stl-to-ps.cc:323-462 drawing an angle dimension", "stl-to-ps/stl-to-ps.cc:690-870 drawings, texts, pages", "stl-to-ps/ps.cc", "stl-to-ps/stl-to-ps-main.cc", "stl-to-ps/stl.cc"]}
{"id": "C90", "title": "The radius of a round hole is right in double arithmetic", "statement": "Where the corners seen at a place are exactly on a circle, a radius or diameter dimension there shows the radius or diameter of that circle, but for rounding errors that do not show on the drawing; and the drawing is not refused.", "quantifier": "all model files whose corners at the place are exactly on a circle, all positions of the circle; IEEE 754 double arithmetic", "why_tests_cant": "Tests fit a few circles near the origin. The error of the fit grows with the fourth power of (distance from the origin / radius), so that it is invisible in such tests and larger than the radius itself for a hole of 1 mm in a plate of 200 mm.", "anchors": ["stl-to-ps/center.cc:37-65 FindCircle", "stl-to-ps/ast.cc:81-156 Closest, Between, center()", "stl-to-ps/stl-to-ps.cc:273-296 locating the circle of dia and rad"]}
{"id": "C91", "title": "The distance between holes, and between a hole and a corner, is right in double arithmetic", "statement": "A linear dimension square to the line of sight between points that are written out, picked by near, or the center of a circle that the corners show clearly, is accepted, and its number is the distance along the direction between the places where the points are seen, but for an error bounded by the size of the model, the accuracy of the view and the errors of the fitted circles.", "quantifier": "all model files with coordinates up to 2^40, all views by name or by angles up to 1024 degrees, all mixtures of such points, all clear rims (coordinates up to 2^16); all rounding directions; IEEE 754 double arithmetic", "why_tests_cant": "The error of a fitted centre depends on the number of corners, their distance from the origin and the area they span; a test has one rim, and no test bounds the error for all of them.", "anchors": ["stl-to-ps/ast.cc:81-156 Closest, Between, near(), center()", "stl-to-ps/center.cc:37-65 FindCircle", "stl-to-ps/stl-to-ps.cc:536-660 drawing a linear dimension"]}
{"id": "C92", "title": "The strokes and the arc of an angle dimension are right in double arithmetic", "statement": "An angle dimension with literal points whose legs are square to the line of sight, and which is not too flat for the accuracy of the view, is accepted; it gives its label at the place asked for with the angle in degrees, two legs from 2 points after their beginning to 4 points beyond the arc, two barbs at each end of the arc, and the arc counter-clockwise from the leg to the right to the leg to the left, each but for a stated error.", "quantifier": "all model files with coordinates up to 2^40, all views by name or by angles up to 1024 degrees, all positive scales, all such angles in either orientation; all rounding directions; IEEE 754 double arithmetic", "why_tests_cant": "A test has one angle in one orientation with exact coordinates; the cross product whose sign decides the direction of the arc, and the quotient that locates the arrowheads, lose accuracy as the angle gets flat, which only a bound for all angles settles.", "anchors": ["stl-to-ps/stl-to-ps.cc:323-462 drawing an angle dimension"]}
{"id": "C93", "title": "The leader of a radius or diameter is drawn right in double arithmetic", "statement": "A radius or diameter with literal points, whose line is square to the line of sight and whose centre is asked for where the corners that are seen show a circle clearly, is accepted; it gives its label to the right of the place asked for, a line from the centre (for a diameter from the far side of the rim) along the direction asked for to an elbow and from there to the place of the label, and an arrowhead of two barbs where the line crosses the rim (for a diameter at both crossings), each but for a stated error; the elbow is on the rim or further than a unit from the centre and level with the label, and for a line not too nearly parallel to an axis it is determined which.", "quantifier": "all model files with coordinates up to 2^40, all views by name or by angles up to 1024 degrees, all positive scales, all such radii and diameters; all rounding directions; IEEE 754 double arithmetic", "why_tests_cant": "A test has one circle and one direction; the circle is fitted in rounded arithmetic, the direction is normalised in it, and the elbow is the smaller of two quotients whose divisors can be arbitrarily close to zero, so that only a bound for all directions tells where the strokes end.", "anchors": ["stl-to-ps/stl-to-ps.cc:499-531 drawing a diameter", "stl-to-ps/stl-to-ps.cc:764-792 drawing a radius"]}
{"id": "C94", "title": "Radii and diameters of the round parts that a model file describes, in double arithmetic", "statement": "If the triangles that a model file describes, numerals read exactly, clearly show a circle in the view asked for at the place given as the centre of a radius or diameter, the drawing is accepted and the dimension shows the radius or diameter of this circle and its strokes, each but for a stated error, whatever the rounding of the corners; in a view along an axis this includes blind holes and bosses whose corners are seen one behind the other. The same output has the visible edges of the body and the linear and angle dimensions of the drawing, each block in order.", "quantifier": "all model files with coordinates up to 2^40, all views by name or by angles up to 1024 degrees, all positive scales, all dimensions of the drawing; all rounding directions; IEEE 754 double arithmetic", "why_tests_cant": "The corners are rounded on reading and again when the body is turned, equal corners are merged by comparing rounded numbers, the search starts at whichever corner happens to be leftmost after rounding, and the fit magnifies all of these errors: only a bound for all files and views tells that what was written in the file is what is shown on the label.", "anchors": ["stl-to-ps/stl.cc:72-133 reading the model file", "stl-to-ps/stl-to-ps.cc:499-531 drawing a diameter", "stl-to-ps/stl-to-ps.cc:764-792 drawing a radius", "stl-to-ps/center.cc:37-65 fitting the circle", "stl-to-ps/ast.cc:81-156 choosing the corners"]}
{"id": "C95", "title": "Distances from the centres of the round parts that a model file describes, in double arithmetic", "statement": "If the triangles that a model file describes, numerals read exactly, clearly show a circle in the view asked for, a linear dimension from or to the centre of this circle, square to the line of sight, shows the distance along its direction between this centre and the other point (the centre of another circle, a corner, or a point written out), with its label where it was asked for and the eight strokes of a dimension between the two places on the page, each but for a stated error. A drawing whose dimensions are all such, or angles, radii and diameters likewise clear, is accepted.", "quantifier": "all model files with coordinates up to 2^40, all views by name or by angles up to 1024 degrees, all positive scales, all dimensions of the drawing; all rounding directions; IEEE 754 double arithmetic", "why_tests_cant": "The distance depends on the corners found by the search, on the fit of one or two circles, on the turn of the body and on the rounding of all of these; a test has one file and one view.", "anchors": ["stl-to-ps/stl.cc:72-133 reading the model file", "stl-to-ps/ast.cc:81-156 center and near as points", "stl-to-ps/center.cc:37-65 fitting the circle", "stl-to-ps/stl-to-ps.cc:536-659 drawing a linear dimension"]}
{"id": "C96", "title": "Angles at and through the centres of the round parts that a model file describes, in double arithmetic", "statement": "If the triangles that a model file describes, numerals read exactly, clearly show a circle in the view asked for, an angle with its apex at the centre of this circle, or with a leg through it, shows in degrees the angle on the page between its legs, with its label where it was asked for, the six strokes, and the arc counter-clockwise from the leg to the right to the leg to the left, each but for a stated error, the centres being where they are but for the error of the fit. A drawing whose dimensions are all such, or linear dimensions, angles, radii and diameters likewise clear, is accepted.", "quantifier": "all model files with coordinates up to 2^40, all views by name or by angles up to 1024 degrees, all positive scales, all dimensions of the drawing whose other points, literal or near(p), are at depth 0 of the view; all rounding directions; IEEE 754 double arithmetic", "why_tests_cant": "The angle depends on the corners found by the search, on the fit of up to three circles, on the turn of the body, on the arc cosine of a quotient and on the rounding of all of these; a test has one file and one view.", "anchors": ["stl-to-ps/stl.cc:72-133 reading the model file", "stl-to-ps/ast.cc:81-156 center as a point", "stl-to-ps/center.cc:37-65 fitting the circle", "stl-to-ps/stl-to-ps.cc:323-462 drawing an angle dimension"]}
{"id": "C97", "title": "Which angle is shown, whatever its points are", "statement": "The number at an angle is the angle in space between its legs, where a literal point is where it is, near(p) is p itself if a corner seen is exactly there and otherwise the corner that appears nearest, moved to depth 0, and center(p) is the centre of the circle there, at depth 0. The label is at the place asked for; the arc is around the apex, at the distance in space of the label, and runs counter-clockwise by less than half a turn from one leg to the other. Legs parallel on the page are refused. If the legs are square to the line of sight the number is the angle the arc spans. Otherwise it may be neither the angle in the body nor the one on the page: at the centre of a circle at depth 1, between two corners on it written out, both are 90 degrees and something else is shown.", "quantifier": "all models, views and scales; all angles with points and directions made of literal points, near and center, nested in any way, where no two corners appear equally near and the corners clearly show the circles; exact arithmetic", "why_tests_cant": "The tests of angles use literal points only. The claim is for every nesting of near and center, every body and view, and tells exactly when the number agrees with the picture.", "anchors": ["stl-to-ps/ast.cc:41-156 PointFunc::Invoke, Near, Center", "stl-to-ps/stl-to-ps.cc:323-462 drawing an angle dimension"]}
{"id": "C98", "title": "Where a drawing or text block is put on the page changes nothing but its place", "statement": "If in a script the places given with @ for drawings and text blocks are changed, each by some inches across and up, and nothing else, then the conversion succeeds if it did before, each page has the same title, and on each page the lines, arcs, labels and text of each drawing and text block are those of before, all moved by 72 points per inch, independently of the others; radii, angles, label texts and the order are kept.", "quantifier": "all scripts with at least the moved drawings' and blocks' places given, all moves (different for each drawing and block), all models, views, scales and dimensions, all file systems; exact arithmetic", "why_tests_cant": "A test has one drawing at one place. That nothing but the place depends on the place, for every model, dimension and expression, and that no drawing affects another, needs an argument over all of them.", "anchors": ["stl-to-ps/stl-to-ps.cc:661-726 visiting a drawing", "stl-to-ps/stl-to-ps.cc:797-827 visiting a text block", "stl-to-ps/stl-to-ps.cc:170-207 generating the pages", "stl-to-ps/parser.y:138 the place of a drawing or text block"]}
{"id": "C99", "title": "The order in which the things on a page are written does not show", "statement": "If two scripts load the same models and have the same pages, except that within a page the drawings and text blocks, and within a drawing the dimensions, are written in another order, then their conversions both succeed or both fail; if they succeed, each page of the one has exactly the lines, arcs and texts of that page of the other, each as often, whatever the arithmetic does.", "quantifier": "all scripts, all orders of drawings, text blocks and dimensions, all file systems; every arithmetic, including IEEE 754", "why_tests_cant": "The code works on one page object, one scale, one offset and one set of points that every drawing overwrites, and turns the points of dimensions in place; that no order lets one leak into another is a claim about all scripts.", "anchors": ["stl-to-ps/stl-to-ps.cc:170-207 generating the pages", "stl-to-ps/stl-to-ps.cc:221-230 AddDims", "stl-to-ps/stl-to-ps.cc:661-726 visiting a drawing", "stl-to-ps/stl-to-ps.cc:797-827 visiting a text block"]}
{"id": "C100", "title": "A default written out changes nothing", "statement": "A drawing without scale, view or place is the same as one with scale=1:1, view=\"Z+\" and @[-5.5,-4.25] (the lower left corner of the sheet), a text block without place the same as one with @[0,0] (the middle of the sheet), and a page without name the same as one with an empty name: scripts that differ only in such properties being left out or written out, any of them in any combination, are both converted or both rejected, and if converted give the same file.", "quantifier": "all scripts, all choices of left-out properties written out, all models and dimensions, all file systems; exact arithmetic", "why_tests_cant": "The default and the given value reach the projection by different branches, for every block separately and beside any other properties and dimensions; a test compares a few scripts, the claim is about all of them.", "anchors": ["stl-to-ps/stl-to-ps.cc:666-673 scale", "stl-to-ps/stl-to-ps.cc:681-696 view", "stl-to-ps/stl-to-ps.cc:698-703 place of a drawing", "stl-to-ps/stl-to-ps.cc:797-811 place of a text block", "stl-to-ps/stl-to-ps.cc:170-207 generating the pages", "stl-to-ps/ast.cc:187-199 views by name"]}
