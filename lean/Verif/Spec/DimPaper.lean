import Verif.Spec.DimDone
import Verif.Spec.AngleDouble
import Verif.Spec.SpanPaper
import Verif.Spec.HoleFile

/-! # Sheets with dimensions -/

namespace S2P
open PS

/-- the mark is the text `s`, centred about `p` but for `ε`, in 8 point Courier -/
def CentredAt (F : Fonts) (m : Mark) (s : Str) (p : V2 ℝ) (ε : ℝ) : Prop :=
  ∃ q : V2 ℚ, PrintedAt q p ε ∧
    m = .text ⟨q.x - (F.width c!"Courier" 8 (eol s)).x / 2, q.y - (F.bbox c!"Courier").2.2.2 * 8 / 3200⟩ (eol s) c!"Courier" 8

/-- the mark is a diameter sign and the text `s`, centred about `p` but for `ε`, in 8 point Courier -/
def SignCentredAt (F : Fonts) (m : Mark) (s : Str) (p : V2 ℝ) (ε : ℝ) : Prop :=
  ∃ q : V2 ℚ, PrintedAt q p ε ∧
    m = .text ⟨q.x - (F.width c!"Courier" 8 (Char.ofNat 233 :: s)).x / 2, q.y - (F.bbox c!"Courier").2.2.2 * 8 / 3200⟩ (Char.ofNat 233 :: s) c!"Courier" 8

/-- `DimInk` on paper -/
def PathsInk (G ε ε' : ℝ) (n : ℕ) (a f t e : V2 ℝ) (paths : List (List Elem)) : Prop :=
  Leaves (labelW n) labelH e G ∧ ∃ fits σf σt, (fits = true → G * 2 ≤ (t - f).dot e + ε') ∧ (fits = false → (t - f).dot e ≤ G * 2 + ε') ∧
    OnSide ε' a e f σf ∧ OnSide ε' a e t σt ∧ List.Forall₂ (fun path m => LineNear path m.o m.t ε) paths (strokesOf fits σf σt G a f t e)

/-- the direction `q` degrees is `a`, but for `δ` -/
def TurnedTo (δ : ℝ) (q : ℚ) (a : V2 ℝ) : Prop := |Real.cos (q * (Real.pi / 180)) - a.x| ≤ δ ∧ |Real.sin (q * (Real.pi / 180)) - a.y| ≤ δ

/-- the path is an arc about `x` with radius `L`, counter-clockwise from the direction `a` to the direction `b` (angles are printed to six digits) -/
def ArcPath (ε δ : ℝ) (path : List Elem) (x : V2 ℝ) (L : ℝ) (a b : V2 ℝ) : Prop :=
  ∃ c l q q', path = [.arc c l q q'] ∧ PrintedAt c x ε ∧ Printed l L ε ∧ TurnedTo (δ + 1 / 2 ^ 15) q a ∧ TurnedTo (δ + 1 / 2 ^ 15) q' b

/-- `AngleInk` on paper -/
def PathsAngle (ε δ : ℝ) (x p q a b : V2 ℝ) (L : ℝ) (arcs ink : List (List Elem)) : Prop :=
  List.Forall₂ (fun path m => LineNear path m.o m.t ε) ink (angleStrokes x p q a b L) ∧ ∃ path, arcs = [path] ∧ ArcPath ε δ path x L a b

/-- `RoundInk` on paper -/
def PathsRound (strokes : V2 ℝ → V2 ℝ → V2 ℝ → ℝ → ℝ → List (Line ℝ)) (M k η ζ : ℝ) (o c s e : V2 ℝ) (L : ℝ) (ink : List (List Elem)) : Prop :=
  ∃ m, ElbowAt (roundError M k η ζ o) k L c s e m ∧ (∀ θ, 2 ^ 7 * η ≤ θ → θ ≤ 1 → ElbowClear (elbowError M k η ζ θ) θ k L c s e m) ∧
    List.Forall₂ (fun path m => LineNear path m.o m.t (roundError M k η ζ o)) ink (strokes c s e L m)

variable {R : Rounding}

/-- a linear dimension of the kind in question: along the literal direction `u` square to the line of sight, between points literal or picked by `near`, not
short, with short labels -/
structure MeasuredDim (E : Env (Fl R)) (M η : ℝ) (r : M3 ℝ) (us : List (Tri ℝ)) (d : DimN (Fl R)) (u : V3 ℝ) (g : Fl R → Str) : Prop where
  asks : DimAsks E d u g M
  largest : ∃ U, Largest u U
  square : (u.mulM r).z = 0
  short : ShortLabels g M
  long : ∀ f t, PointMeant (1 / 2 ^ 20) (2 ^ 11 * (M ^ 2 * η)) r us d.metas c!"from" f →
    PointMeant (1 / 2 ^ 20) (2 ^ 11 * (M ^ 2 * η)) r us d.metas c!"to" t → M / 2 ^ 9 ≤ shown u f t

/-- an angle of the kind in question: with literal points, legs square to the line of sight, not too flat -/
structure MeasuredAngle (E : Env (Fl R)) (M η : ℝ) (r : M3 ℝ) (d : DimN (Fl R)) (a x u w f t : V3 ℝ) (g : Fl R → Str) (K : ℝ) : Prop where
  asks : AngleAsks E d r a x u w f t g K M
  wide : 2 ^ 28 * (K * η) ≤ Real.sin (angleBetween u w) ^ 2

/-- a radius or diameter of the kind in question: with literal points, its line square to the line of sight, at a place where the corners of the body clearly show a
circle, with short labels; those of a diameter have no characters that are special in a string of a PostScript program -/
structure MeasuredRound (E : Env (Fl R)) (M η : ℝ) (named : Prop) (r : M3 ℝ) (us : List (Tri ℝ)) (d : DimN (Fl R)) (g : Fl R → Str) (a u q : V3 ℝ) (m : V2 ℝ) (ρ : ℝ) (N : ℕ)
    (B A s : ℝ) : Prop where
  asks : HoleAsks E r d g a u q M
  size : B ≤ M
  seen : HoleSeen (10 * (M * η)) (1 / 2 ^ 20) named r us q m ρ N B A s
  short : ∀ y : ℝ, 9 / 10 * ρ ≤ y → y ≤ 3 * ρ → (g (Ext.fin y : Ext ℝ)).length ≤ 100
  plain : d.kind = .dia → ∀ z, Plain (g z)

/-- such a radius or diameter on paper: a label to the right of the place asked for, and four or six strokes -/
def RoundPaper (F : Fonts) (M η : ℝ) (r : M3 ℝ) (k : ℝ) (off : V2 ℝ) (d : DimN (Fl R)) (g : Fl R → Str) (a u : V3 ℝ) (m : V2 ℝ) (ρ : ℝ) (N : ℕ) (B A s : ℝ)
    (texts : List Mark) (arcs ink : List (List Elem)) : Prop :=
  let ζ := 8 * B * rimErr N B A s / ρ
  arcs = [] ∧ ∃ e label z, LegDir r u e ∧ texts = [label] ∧
    (d.kind = .dia → SignCentredAt F label (g z) (S2P.onPage r k off a + ⟨(12 / 5) * ((g z).length + 2), 0⟩) (roundError M k η ζ off) ∧
      Fl.Near z (2 * ρ) (17 * B * rimErr N B A s / ρ) ∧ PathsRound diaStrokes M k η ζ off (m.onPage k off) (S2P.onPage r k off a) e (ρ * k) ink) ∧
    (d.kind = .rad → CentredAt F label (c!"R" ++ g z) (S2P.onPage r k off a + ⟨(12 / 5) * ((g z).length + 3), 0⟩) (roundError M k η ζ off) ∧
      Fl.Near z ρ ζ ∧ PathsRound radStrokes M k η ζ off (m.onPage k off) (S2P.onPage r k off a) e (ρ * k) ink)

/-- such an angle on paper: a label, the arc, and six strokes -/
def AnglePaper (F : Fonts) (M η K : ℝ) (r : M3 ℝ) (k : ℝ) (p off : V2 ℝ) (a x u w f t : V3 ℝ) (g : Fl R → Str) (texts : List Mark)
    (arcs ink : List (List Elem)) : Prop :=
  (∃ label y, texts = [label] ∧ CentredAt F label (g y ++ c!" deg") (onPage r k off a) (inkError M k p) ∧
    Fl.Near y (angleBetween u w * 180 / Real.pi) (2 ^ 18 * (K * η) / Real.sin (angleBetween u w))) ∧
  ∃ e e', LegDir r u e ∧ LegDir r w e' ∧
    ((0 < e.x * e'.y - e.y * e'.x ∧ PathsAngle (angleError M k (K * η) (e.x * e'.y - e.y * e'.x) off) (2 ^ 9 * (K * η))
        (onPage r k off x) (onPage r k off f) (onPage r k off t) e e' (len3 (a - x) * k) arcs ink) ∨
     (0 < e'.x * e.y - e'.y * e.x ∧ PathsAngle (angleError M k (K * η) (e'.x * e.y - e'.y * e.x) off) (2 ^ 9 * (K * η))
        (onPage r k off x) (onPage r k off t) (onPage r k off f) e' e (len3 (a - x) * k) arcs ink))

/-- such a linear dimension on paper: a label and eight strokes -/
def DimPaper (F : Fonts) (M η : ℝ) (r : M3 ℝ) (us : List (Tri ℝ)) (k : ℝ) (p off : V2 ℝ) (d : DimN (Fl R)) (u : V3 ℝ) (g : Fl R → Str) (texts : List Mark)
    (arcs ink : List (List Elem)) : Prop :=
  arcs = [] ∧ ∃ a f t, PointMeant (1 / 2 ^ 20) (2 ^ 11 * (M ^ 2 * η)) r us d.metas c!"at" a ∧
    PointMeant (1 / 2 ^ 20) (2 ^ 11 * (M ^ 2 * η)) r us d.metas c!"from" f ∧
    PointMeant (1 / 2 ^ 20) (2 ^ 11 * (M ^ 2 * η)) r us d.metas c!"to" t ∧
    ∃ label x e G, texts = [label] ∧ CentredAt F label (g x) (onPage r k off a) (inkError M k p) ∧ Fl.Near x (shown u f t) (2 ^ 13 * (M * η)) ∧
      PageDir r u f t e ∧
      PathsInk G (dimError M k η G off) (dimDoubt M k η G) (g x).length (onPage r k off a) (onPage r k off f) (onPage r k off t) e ink

/-- a linear dimension between places that the body clearly shows, such as centres of holes, not short, with short labels -/
structure MeasuredSpan (E : Env (Fl R)) (M η : ℝ) (named : Prop) (r : M3 ℝ) (us : List (Tri ℝ)) (d : DimN (Fl R)) (u : V3 ℝ) (g : Fl R → Str) (a f t : V2 ℝ) (εa εf εt : ℝ) : Prop where
  asks : SpanAsks E named r us M η d u g a f t εa εf εt
  short : ShortLabels g M
  long : M / 2 ^ 9 + 2 * (εf + εt) ≤ spanAlong r u f t

/-- such a dimension on paper: a label and eight strokes -/
def SpanOnPaper (F : Fonts) (M η : ℝ) (r : M3 ℝ) (k : ℝ) (p off : V2 ℝ) (u : V3 ℝ) (g : Fl R → Str) (a f t : V2 ℝ) (εa εf εt : ℝ) (texts : List Mark)
    (arcs ink : List (List Elem)) : Prop :=
  arcs = [] ∧ ∃ label x e G, texts = [label] ∧ CentredAt F label (g x) (a.onPage k off) (inkError M k p + εa * k) ∧
    Fl.Near x (spanAlong r u f t) (2 ^ 12 * (M * η) + 2 * (εf + εt)) ∧ SpanDir r u f t e ∧
    PathsInk G (dimError M k η G off + 5 * ((εa + εf + εt) * k)) (dimDoubt M k η G + 4 * ((εa + εf + εt) * k)) (g x).length (a.onPage k off) (f.onPage k off) (t.onPage k off) e ink

/-- such an angle on paper, with the places at most their errors off: a label, the arc, and six strokes -/
def TurnOnPaper (F : Fonts) (M η : ℝ) (r : M3 ℝ) (k : ℝ) (p off : V2 ℝ) (g : Fl R → Str) (a : V3 ℝ) (x : V2 ℝ) (εx : ℝ) (l l' : Arm) (K : ℝ) (texts : List Mark)
    (arcs ink : List (List Elem)) : Prop :=
  ∃ x' q w q' w' e e', Nearby εx x' x ∧ l.Goes r x' q w ∧ l'.Goes r x' q' w' ∧ Along w e ∧ Along w' e' ∧
    (∃ label y, texts = [label] ∧ CentredAt F label (g y ++ c!" deg") (onPage r k off a) (inkError M k p) ∧
      Fl.Near y (angle2 w w' * 180 / Real.pi) (2 ^ 18 * (K * η) / Real.sin (angle2 w w'))) ∧
    ((0 < e.x * e'.y - e.y * e'.x ∧ PathsAngle (angleError M k (K * η) (e.x * e'.y - e.y * e'.x) off) (2 ^ 9 * (K * η))
        (x'.onPage k off) (q.onPage k off) (q'.onPage k off) e e' (len3 (a.mulM r - ⟨x'.x, x'.y, 0⟩) * k) arcs ink) ∨
     (0 < e'.x * e.y - e'.y * e.x ∧ PathsAngle (angleError M k (K * η) (e'.x * e.y - e'.y * e.x) off) (2 ^ 9 * (K * η))
        (x'.onPage k off) (q'.onPage k off) (q.onPage k off) e' e (len3 (a.mulM r - ⟨x'.x, x'.y, 0⟩) * k) arcs ink))

/-- What is asked of a drawing: the scale is positive and of sane size, the text of the model file describes a body, and if there are dimensions, a triangle
clearly faces the viewer and the dimensions are of the kind in question. -/
structure Drawing (E : Env (Fl R)) (w : World) (models : List ModelN) (M η : ℝ) (name : Str) (ms : List (Meta (Fl R))) (dims : List (DimN (Fl R))) : Prop where
  scale : TameScale ms
  positive : PositiveScale ms
  view : ViewError ms η
  body : ∀ m ∈ models, m.name = name → ∀ ps text, Places E.loadPath m.source ps → FoundAt w ps text → ∃ us, Describes M text us ∧
    ∀ r, AskedView ms r → (dims ≠ [] → ∃ c, MustSee (1 / 2 ^ 20) r us c) ∧ ∀ d ∈ dims, (∃ u g, MeasuredDim E M η r us d u g) ∨
      (∃ a x u w f t g K, MeasuredAngle E M η r d a x u w f t g K) ∨ (∃ g a u q m ρ N B A s, MeasuredRound E M η (NamedView ms) r us d g a u q m ρ N B A s) ∨
      (∃ u g a f t εa εf εt, MeasuredSpan E M η (NamedView ms) r us d u g a f t εa εf εt) ∨
      ∃ g a x εx l l' K, TurnAsks E (NamedView ms) r us M η d g a x εx l l' K

/-- The texts, arcs and lines of a drawing: first the lines that show the body, then, in order, what each dimension gives. -/
def DrawingPaper (F : Fonts) (E : Env (Fl R)) (w : World) (models : List ModelN) (M η : ℝ) (name : Str) (ms : List (Meta (Fl R))) (dims : List (DimN (Fl R)))
    (texts : List Mark) (arcs ink : List (List Elem)) : Prop :=
  ∃ m ∈ models, ∃ text ps, ∃ file : STLFile (Fl R), ∃ v ts k p off own, ∃ blocks : List (List Mark × List (List Elem) × List (List Elem)),
    m.name = name ∧ Places E.loadPath m.source ps ∧ FoundAt w ps text ∧ make text = .ok (some file) ∧
    AskedView ms v ∧ IsRotation v ∧ NearlySeen v file ts (1 / 2 ^ 37) ∧ NearlyProjects file ms ts k p off (inkError M k p) ∧
    texts = (blocks.map (fun b => b.1)).flatten ∧ arcs = (blocks.map (fun b => b.2.1)).flatten ∧ ink = own ++ (blocks.map (fun b => b.2.2)).flatten ∧
    ∀ us, Describes M text us → InkShows (1 / 2 ^ 20) M v us k off ((M * |k| + (|p.x| + |p.y|) + 1) / 2 ^ 16) own ∧
      ((∃ c, MustSee (1 / 2 ^ 20) v us c) →
        List.Forall₂ (fun d b => (∀ u g, MeasuredDim E M η v us d u g → DimPaper F M η v us k p off d u g b.1 b.2.1 b.2.2) ∧
          (∀ a x u w f t g K, MeasuredAngle E M η v d a x u w f t g K → AnglePaper F M η K v k p off a x u w f t g b.1 b.2.1 b.2.2) ∧
          (∀ g a u q m ρ N B A s, MeasuredRound E M η (NamedView ms) v us d g a u q m ρ N B A s →
            RoundPaper F M η v k off d g a u m ρ N B A (s + 4 * (B * (10 * (M * η)))) b.1 b.2.1 b.2.2) ∧
          (∀ u g a f t εa εf εt, MeasuredSpan E M η (NamedView ms) v us d u g a f t εa εf εt →
            SpanOnPaper F M η v k p off u g a f t εa εf εt b.1 b.2.1 b.2.2) ∧
          ∀ g a x εx l l' K, TurnAsks E (NamedView ms) v us M η d g a x εx l l' K → TurnOnPaper F M η v k p off g a x εx l l' K b.1 b.2.1 b.2.2) dims blocks)

/-- the lines of a text on paper, 12 points one below the other, empty ones left out -/
def TextPaper (s : Str) (ms : List (Meta (Fl R))) (texts : List Mark) : Prop :=
  ∃ p ls, TextAskedAt ms p ∧ IsLines s ls ∧ List.Forall₂ (fun (il : ℕ × Str) m => ∃ q, PrintedAt q ⟨p.x, p.y - 12 * il.1⟩ (textError ls.length p) ∧
    m = .text q (eol il.2) c!"Courier" 8) ((ls.zipIdx.filter fun il => decide (il.1 ≠ [])).map fun il => (il.2, il.1)) texts

/-- what one thing on the page puts on paper -/
def PartPaper (F : Fonts) (E : Env (Fl R)) (w : World) (models : List ModelN) (M : ℝ) (η : List (Meta (Fl R)) → ℝ) (d : Drawable (Fl R))
    (part : List Mark × List (List Elem) × List (List Elem)) : Prop :=
  match d with
  | .text s ms _ => part.2 = ([], []) ∧ TextPaper s ms part.1
  | .draw name ms dims _ => DrawingPaper F E w models M (η ms) name ms dims part.1 part.2.1 part.2.2

/-- Everything on the sheet, in order: the border, the label in the corner, the texts, the title, the arcs, the lines, the two lines around the title; and the sheet is
put out. -/
def WholeSheet (F : Fonts) (E : Env (Fl R)) (w : World) (models : List ModelN) (M : ℝ) (η : List (Meta (Fl R)) → ℝ) (label : Option Str) (pg : PageN (Fl R))
    (P : List Mark) : Prop :=
  ∃ title parts q l1 l2, titled pg.metas title ∧ List.Forall₂ (PartPaper F E w models M η) pg.draws parts ∧
    P = [border] ++ (label.map (fun s => Mark.text ⟨7, 7⟩ (eol s) c!"Courier" 8)).toList ++ (parts.map (fun b => b.1)).flatten ++ [.text q (eol title) c!"Courier" 8] ++
      (parts.map (fun b => b.2.1)).flatten.map Mark.stroke ++ (parts.map (fun b => b.2.2)).flatten.map Mark.stroke ++ [.stroke l1, .stroke l2] ++ [.page] ∧
    let left : ℝ := 784 - title.length * (48 / 10)
    PrintedAt q ⟨left, 8⟩ ((title.length + 200) / 2 ^ 18) ∧ LineNear l1 ⟨left - 3, 5⟩ ⟨left - 3, 16⟩ ((title.length + 200) / 2 ^ 18) ∧
      LineNear l2 ⟨left - 3, 16⟩ ⟨787, 16⟩ ((title.length + 200) / 2 ^ 18)

end S2P
