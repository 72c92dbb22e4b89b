import Verif.Check.Machine

/-! # The repository's own regression scripts, run through the model

/repo/testcases/input_test.sh runs the program on each `.case` file and asks for exit status 1 and, for every comment in the script, a
diagnostic on that line matching the comment.  Here the model is run on the same texts (machine doubles, `#guard`) and the whole
list of diagnostics is compared: each one below lies on the line and contains the text the repository's test asks for.
These are tests of the model, not proofs of properties. -/

namespace S2P.Check

/-- the files the scripts name: /dev/null is empty, and bad_model.case offers itself as a model -/
def caseWorld (self : Str) : World where
  ident p := if p = c!"/dev/null" then 0 else if p = c!"./testcases/bad_model.case" then 1 else 2
  data i := if i = 0 then some [] else if i = 1 then some self else none
  canWrite _ := true

/-- verdict and diagnostics of the model on a script -/
def verdict (s : Str) : Option (Bool × List Diag) :=
  ((scriptToPS env (caseWorld s) c!"script" s).toOption).map (fun r => (r.ok, r.log))

/-- /repo/testcases/bad_angle.case -/
def bad_angle : Str :=
  c!"load y = \"/dev/null\";\n" ++
  c!"\n" ++
  c!"page {\n" ++
  c!"  draw y {\n" ++
  c!"    angle();  // Missing\n" ++
  c!"    angle(         // Unexepcted properties for angle\n" ++
  c!"      at=[0,0,0],\n" ++
  c!"      at=[1,1,1],  // Duplicate angle property 'at'\n" ++
  c!"      foo=3        // \\\\bfoo\\\\b\n" ++
  c!"    );\n" ++
  c!"    \n" ++
  c!"    angle(at=[1,1,1], apex=[0,0,0], from_dir=[1,0,0], to_dir=[0,1,0]);\n" ++
  c!"\n" ++
  c!"    angle(            apex=[0,0,0], from_dir=[1,0,0], to_dir=[0,1,0]);  // Missing 'at'\n" ++
  c!"    angle(at=[1,1,1],               from_dir=[1,0,0], to_dir=[0,1,0]);  // Missing 'apex'\n" ++
  c!"    angle(at=[1,1,1], apex=[0,0,0],                   to_dir=[0,1,0]);  // Missing 'from_{dir,point}'\n" ++
  c!"    angle(at=[1,1,1], apex=[0,0,0], from_dir=[1,0,0]                );  // Missing 'to_{dir,point}'\n" ++
  c!"\n" ++
  c!"    angle(at=[1,1,1], apex=[0,0,0], from_dir=[1,0,0], to_dir=[0,1,0],\n" ++
  c!"          fmt=1);  // argument.*is the wrong type\n" ++
  c!"    angle(at=[1,1,1], apex=[0,0,0], from_dir=[1,0,0], to_dir=[0,1,0],\n" ++
  c!"          fmt=\"%n\");  // must be a '%f' type\n" ++
  c!"\n" ++
  c!"    angle(at=[1,1,1], apex=[0,0,0], from_point=[1,0,0], to_point=[0,1,0],\n" ++
  c!"          from_dir=[1,0,0],  // Both 'from_{dir,point}' provided\n" ++
  c!"\t  to_dir=[0,1,0]     // Both 'to_{dir,point}' provided\n" ++
  c!"\t  );\n" ++
  c!"\t  \n" ++
  c!"    angle(at=[1,1,1], apex=[0,0,0], from_point=[1,0,0], to_point=[-1,0,0]);  // Degenerate angle provided.\n" ++
  c!"\n" ++
  c!"  }\n" ++
  c!"\n" ++
  c!"}"

#guard verdict bad_angle = some (false, [
    (5, c!"Missing 'at'"),
    (5, c!"Missing 'apex'"),
    (5, c!"Missing 'from_{dir,point}'"),
    (5, c!"Missing 'to_{dir,point}'"),
    (8, c!"Duplicate angle property 'at'"),
    (6, c!"Unexepcted properties for angle"),
    (9, c!"foo"),
    (14, c!"Missing 'at'"),
    (15, c!"Missing 'apex'"),
    (16, c!"Missing 'from_{dir,point}'"),
    (17, c!"Missing 'to_{dir,point}'"),
    (20, c!"fmt argument for angle is the wrong type"),
    (22, c!"Invalid fmt argument for angle: must be a '%f' type"),
    (25, c!"Both 'from_{dir,point}' provided"),
    (26, c!"Both 'to_{dir,point}' provided"),
    (29, c!"Degenerate angle provided.")])

/-- /repo/testcases/bad_dim.case -/
def bad_dim : Str :=
  c!"load y = \"/dev/null\";\n" ++
  c!"\n" ++
  c!"page {\n" ++
  c!"  draw y {\n" ++
  c!"    dim();  // Missing\n" ++
  c!"    dim(                                                       // Unexepcted properties for dim\n" ++
  c!"      from=[0,-1,0], to=[0,+1,0], at=[0,0,1], dir=[0,1,0],\n" ++
  c!"      from=[0,0,0],                                            // Duplicate dim property 'from'\n" ++
  c!"      foo=3,                                                   // \\\\bfoo\\\\b\n" ++
  c!"      @[0,0]);                                                 // @\n" ++
  c!"\n" ++
  c!"    dim(               to=[0,+1,0], at=[0,0,1], dir=[0,1,0]);  // 'from'\n" ++
  c!"    dim(from=[0,-1,0],              at=[0,0,1], dir=[0,1,0]);  // 'to'\n" ++
  c!"    dim(from=[0,-1,0], to=[0,+1,0],             dir=[0,1,0]);  // 'at'\n" ++
  c!"    dim(from=[0,-1,0], to=[0,+1,0], at=[0,0,1]             );  // 'dir'\n" ++
  c!"\n" ++
  c!"    dim(from=[0,-1,0], to=[0,+1,0], at=[0,0,1],\n" ++
  c!"        dir=[0,0,0]);  // Dimention's 'dir' must not be the zero vector\n" ++
  c!"    dim(from=[0,-1,0], to=[0,+1,0], at=[0,0,1], dir=[0,1,0],\n" ++
  c!"        fmt=1);  // fmt argument for dim is the wrong type\n" ++
  c!"    dim(from=[0,-1,0], to=[0,+1,0], at=[0,0,1], dir=[0,1,0],\n" ++
  c!"        fmt=\"%n\");  // must be a '%f' type\n" ++
  c!"    dim(from=[0,-1,0], to=[0,+1,0], at=[0,0,1],\n" ++
  c!"        dir=0);  // Dimention's 'dir' must not be the zero vector\n" ++
  c!"  }\n" ++
  c!"\n" ++
  c!"}"

#guard verdict bad_dim = some (false, [
    (5, c!"Missing 'at'"),
    (5, c!"Missing 'dir'"),
    (5, c!"Missing 'from'"),
    (5, c!"Missing 'to'"),
    (8, c!"Duplicate dim property 'from'"),
    (6, c!"Unexepcted properties for dim"),
    (10, c!"@"),
    (9, c!"foo"),
    (12, c!"Missing 'from'"),
    (13, c!"Missing 'to'"),
    (14, c!"Missing 'at'"),
    (15, c!"Missing 'dir'"),
    (18, c!"Dimention's 'dir' must not be the zero vector"),
    (20, c!"fmt argument for dim is the wrong type"),
    (22, c!"Invalid fmt argument for dim: must be a '%f' type"),
    (24, c!"Expected point for 'dir' got float"),
    (24, c!"Dimention's 'dir' must not be the zero vector")])

/-- /repo/testcases/bad_draw.case -/
def bad_draw : Str :=
  c!"load y = \"/dev/null\";\n" ++
  c!"\n" ++
  c!"page {\n" ++
  c!"  draw X {}  // Unknown model 'X'\n" ++
  c!"  draw y {\n" ++
  c!"    scale = 1;  // Wrong type for scale\n" ++
  c!"  }\n" ++
  c!"  draw y {   // Unexepcted properties for draw\n" ++
  c!"    z = 1;   // \\\\bz\\\\b\n" ++
  c!"  }\n" ++
  c!"  draw y {\n" ++
  c!"    view = \"bob\";  // Unknown view name: 'bob'\n" ++
  c!"  }\n" ++
  c!"  draw y {\n" ++
  c!"    view = [0,0,0];  // Unexpect view type: stl2ps::Point\n" ++
  c!"  }\n" ++
  c!"  draw y {\n" ++
  c!"    @[0,0];\n" ++
  c!"    @[0,0];  // Duplicate draw property '@'\n" ++
  c!"    scale = 1:2;\n" ++
  c!"    scale = 1:3;  // Duplicate draw property 'scale'\n" ++
  c!"  }\n" ++
  c!"}"

#guard verdict bad_draw = some (false, [
    (4, c!"Unknown model 'X'"),
    (6, c!"Wrong type for scale"),
    (8, c!"Unexepcted properties for draw"),
    (9, c!"z"),
    (12, c!"Unknown view name: 'bob'"),
    (15, c!"Unexpect view type: stl2ps::Point"),
    (19, c!"Duplicate draw property '@'"),
    (21, c!"Duplicate draw property 'scale'")])

/-- /repo/testcases/bad_fn.case -/
def bad_fn : Str :=
  c!"load y = \"/dev/null\";\n" ++
  c!"\n" ++
  c!"page {\n" ++
  c!"  draw y {\n" ++
  c!"    dim(\n" ++
  c!"      from=unknown([0,0,0]),  // Unknown function 'unknown'\n" ++
  c!"      to=[0,0,0], at=[0,0,0], dir=[0,1,0]\n" ++
  c!"      );\n" ++
  c!"  }\n" ++
  c!"\n" ++
  c!"}"

#guard verdict bad_fn = some (false, [
    (6, c!"Unknown function 'unknown'")])

/-- /repo/testcases/bad_model.case -/
def bad_model : Str :=
  c!"load Foo = \"/dev/null\";\n" ++
  c!"load Foo = \"/dev/null\";  // Modele 'Foo' was already loaded\n" ++
  c!"load Bar = \"nothing\";    // Failed to read model Bar from 'nothing'\n" ++
  c!"load Baz = \"testcases/bad_model.case\";  // Failed to parse Baz.*bad_model\n"

#guard verdict bad_model = some (false, [
    (2, c!"Modele 'Foo' was already loaded"),
    (3, c!"Failed to read model Bar from 'nothing'"),
    (4, c!"Failed to parse Baz 'testcases/bad_model.case'")])

/-- /repo/testcases/bad_page.case -/
def bad_page : Str :=
  c!"page {\n" ++
  c!"  name = 1;  // Expected document name to be a string\n" ++
  c!"}\n" ++
  c!"page {      // Unexepcted properties for page 2\n" ++
  c!"  bob = 3;  // bob\n" ++
  c!"  bill = 4; // bill\n" ++
  c!"  bill = 5; // Duplicate page property 'bill'\n" ++
  c!"}"

#guard verdict bad_page = some (false, [
    (2, c!"Expected document name to be a string, got 'float'"),
    (7, c!"Duplicate page property 'bill'"),
    (4, c!"Unexepcted properties for page 2"),
    (6, c!"bill"),
    (5, c!"bob")])

/-- /repo/testcases/bad_text.case -/
def bad_text : Str :=
  c!"page {\n" ++
  c!"  text [\"hello world\"]{   // Unexepcted properties for text\n" ++
  c!"    boo=2;                // boo\n" ++
  c!"  }\n" ++
  c!"  text [\"hello world\"]{\n" ++
  c!"    @[0,0];\n" ++
  c!"    @[0,1];  // Duplicate draw property '@'\n" ++
  c!"  }\n" ++
  c!"}"

#guard verdict bad_text = some (false, [
    (2, c!"Unexepcted properties for text"),
    (3, c!"boo"),
    (7, c!"Duplicate draw property '@'")])

/-- /repo/testcases/lex_error.case -/
def lex_error : Str :=
  c!"&  // &"

#guard verdict lex_error = some (false, [
])

/-- /repo/testcases/syntax_error.case -/
def syntax_error : Str :=
  c!"@  // syntax error"

#guard verdict syntax_error = some (false, [
])

/-! The `.example` scripts are to be accepted. -/

/-- /repo/testcases/cube.stl -/
def cubeStl : Str :=
  c!"solid OpenSCAD_Model\n" ++
  c!"  facet normal -0 0 1\n" ++
  c!"    outer loop\n" ++
  c!"      vertex 0 1 1\n" ++
  c!"      vertex 1 0 1\n" ++
  c!"      vertex 1 1 1\n" ++
  c!"    endloop\n" ++
  c!"  endfacet\n" ++
  c!"  facet normal 0 0 1\n" ++
  c!"    outer loop\n" ++
  c!"      vertex 1 0 1\n" ++
  c!"      vertex 0 1 1\n" ++
  c!"      vertex 0 0 1\n" ++
  c!"    endloop\n" ++
  c!"  endfacet\n" ++
  c!"  facet normal 0 0 -1\n" ++
  c!"    outer loop\n" ++
  c!"      vertex 0 0 0\n" ++
  c!"      vertex 1 1 0\n" ++
  c!"      vertex 1 0 0\n" ++
  c!"    endloop\n" ++
  c!"  endfacet\n" ++
  c!"  facet normal -0 0 -1\n" ++
  c!"    outer loop\n" ++
  c!"      vertex 1 1 0\n" ++
  c!"      vertex 0 0 0\n" ++
  c!"      vertex 0 1 0\n" ++
  c!"    endloop\n" ++
  c!"  endfacet\n" ++
  c!"  facet normal 0 -1 0\n" ++
  c!"    outer loop\n" ++
  c!"      vertex 0 0 0\n" ++
  c!"      vertex 1 0 1\n" ++
  c!"      vertex 0 0 1\n" ++
  c!"    endloop\n" ++
  c!"  endfacet\n" ++
  c!"  facet normal 0 -1 -0\n" ++
  c!"    outer loop\n" ++
  c!"      vertex 1 0 1\n" ++
  c!"      vertex 0 0 0\n" ++
  c!"      vertex 1 0 0\n" ++
  c!"    endloop\n" ++
  c!"  endfacet\n" ++
  c!"  facet normal 1 -0 0\n" ++
  c!"    outer loop\n" ++
  c!"      vertex 1 0 1\n" ++
  c!"      vertex 1 1 0\n" ++
  c!"      vertex 1 1 1\n" ++
  c!"    endloop\n" ++
  c!"  endfacet\n" ++
  c!"  facet normal 1 0 0\n" ++
  c!"    outer loop\n" ++
  c!"      vertex 1 1 0\n" ++
  c!"      vertex 1 0 1\n" ++
  c!"      vertex 1 0 0\n" ++
  c!"    endloop\n" ++
  c!"  endfacet\n" ++
  c!"  facet normal 0 1 -0\n" ++
  c!"    outer loop\n" ++
  c!"      vertex 1 1 0\n" ++
  c!"      vertex 0 1 1\n" ++
  c!"      vertex 1 1 1\n" ++
  c!"    endloop\n" ++
  c!"  endfacet\n" ++
  c!"  facet normal 0 1 0\n" ++
  c!"    outer loop\n" ++
  c!"      vertex 0 1 1\n" ++
  c!"      vertex 1 1 0\n" ++
  c!"      vertex 0 1 0\n" ++
  c!"    endloop\n" ++
  c!"  endfacet\n" ++
  c!"  facet normal -1 0 0\n" ++
  c!"    outer loop\n" ++
  c!"      vertex 0 0 0\n" ++
  c!"      vertex 0 1 1\n" ++
  c!"      vertex 0 1 0\n" ++
  c!"    endloop\n" ++
  c!"  endfacet\n" ++
  c!"  facet normal -1 -0 0\n" ++
  c!"    outer loop\n" ++
  c!"      vertex 0 1 1\n" ++
  c!"      vertex 0 0 0\n" ++
  c!"      vertex 0 0 1\n" ++
  c!"    endloop\n" ++
  c!"  endfacet\n" ++
  c!"endsolid OpenSCAD_Model\n"

/-- /dev/null and the cube -/
def exampleWorld : World where
  ident p := if p = c!"/dev/null" then 0 else if p = c!"./testcases/cube.stl" then 1 else 2
  data i := if i = 0 then some [] else if i = 1 then some cubeStl else none
  canWrite _ := true

/-- verdict, diagnostics and number of lines of output -/
def accepts (s : Str) : Option (Bool × List Diag × Nat) :=
  ((scriptToPS env exampleWorld c!"script" s).toOption).map (fun r => (r.ok, r.log, r.out.count '\n'))

/-- /repo/testcases/ang.example -/
def angExample : Str :=
  c!"load X = \"/dev/null\";\n" ++
  c!"page {\n" ++
  c!"  name = \"X\";\n" ++
  c!"  draw X {\n" ++
  c!"    scale = 1:2;\n" ++
  c!"    @[0, 0];\n" ++
  c!"    angle(apex=[0,0,0], at=[0.5,.25,0], from_dir=[1,0,0], to_dir=[1,+1,0]);\n" ++
  c!"    angle(apex=[1,0,0], at=[1.5,-.25,0], from_dir=[1,0,0], to_dir=[1,-1,0]);\n" ++
  c!"\n" ++
  c!"    angle(apex=[0,2,0], at=[0,2.25,0], from_dir=[1,0,0], to_dir=[-1,+1,0], fmt=\"%.4f\");\n" ++
  c!"    angle(apex=[1,2,0], at=[1,1.75,0], to_dir=[1,0,0], from_dir=[-1,-1,0]);\n" ++
  c!"\n" ++
  c!"    // angle(apex=[0,-2,0], at=[0,-2.25,0], from_dir=[1,0,0], to_dir=[-1,0,0]);\n" ++
  c!"    // angle(apex=[1,-2,0], at=[1,-1.75,0], from_dir=[1,0,0], to_dir=[1,0,0]);\n" ++
  c!"\n" ++
  c!"  }\n" ++
  c!"}\n"

#guard accepts angExample = some (true, [], 69)

/-- /repo/testcases/blank.example -/
def blankExample : Str :=
  []

#guard accepts blankExample = some (true, [], 24)

/-- /repo/testcases/case1.example -/
def case1Example : Str :=
  c!"load X = \"/dev/null\";\n" ++
  c!"load Y = \"testcases/cube.stl\";\n" ++
  c!"\n" ++
  c!"page {\n" ++
  c!"  name = \"X\";\n" ++
  c!"  text [\n" ++
  c!"    \"hello world\\n\"\n" ++
  c!"    \"This is a test\\n\"\n" ++
  c!"  ]{\n" ++
  c!"    @[1,1];\n" ++
  c!"  }\n" ++
  c!"  draw X {\n" ++
  c!"    scale = 1:2;\n" ++
  c!"    @[+3, -2];\n" ++
  c!"    view = [30, 60];\n" ++
  c!"    dim(from=[0,-0.490,0], to=[0,+0.490,0], at=[0,0,1.50], dir=[0,1,0]);\n" ++
  c!"  }\n" ++
  c!"}\n" ++
  c!"\n" ++
  c!"page {\n" ++
  c!"  name = \"Y\";\n" ++
  c!"  draw Y {\n" ++
  c!"    view = \"X+\";\n" ++
  c!"    dim(\n" ++
  c!"      from=near([-1,-1,-1]),\n" ++
  c!"      to=near([2,2,2]),\n" ++
  c!"      at=[0,0,2],\n" ++
  c!"      dir=[0,1,0]);\n" ++
  c!"  }\n" ++
  c!"}"

#guard accepts case1Example = some (true, [], 74)

end S2P.Check
