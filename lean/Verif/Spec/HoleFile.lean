import Verif.Spec.RoundDouble
import Verif.Spec.NearDouble
import Verif.Spec.AngleDouble
import Verif.Spec.DimDone

/-! # A round hole or boss in the body that a model file describes, clear enough for double arithmetic -/

namespace S2P

/-- where in the view a point of the body is seen -/
def seenAt (r : M3 ℝ) (c : V3 ℝ) : V2 ℝ := (c.mulM r).xy

/-- clearly not near the circle: the ring between 0.87 and 1.13 radii is free -/
def WellOff (m : V2 ℝ) (ρ : ℝ) (q : V2 ℝ) : Prop := dist2 q m ≤ (87 / 100 * ρ) ^ 2 ∨ (113 / 100 * ρ) ^ 2 ≤ dist2 q m

/-- `c` may be the corner furthest to the left of those that are seen, coordinates being off by `κ` -/
def MayBeFirst (κ δ : ℝ) (r : M3 ℝ) (us : List (Tri ℝ)) (c : V3 ℝ) : Prop :=
  MaySee δ r us c ∧ ∀ c', MustSee δ r us c' → (seenAt r c).x ≤ (seenAt r c').x + 2 * κ

/-- In the view `r` of the body `us`, where `q` is seen the corners show a circle of radius `ρ` round `m`; they are on it but for `s`.  There are at most `N` of them, no
coordinate is larger than `B`, and any three of them are the corners of a triangle of area at least `A`.  All of this with something to spare for coordinates that are
off by `κ`.  Two corners that are seen at the same place count as different ones, unless the view is `named`, that is along an axis. -/
structure HoleSeen (κ δ : ℝ) (named : Prop) (r : M3 ℝ) (us : List (Tri ℝ)) (q : V3 ℝ) (m : V2 ℝ) (ρ : ℝ) (N : ℕ) (B A s : ℝ) : Prop where
  few : 3 ≤ N ∧ N < 2 ^ 9 ∧ ∃ l : List (V3 ℝ), l.length ≤ N ∧ ∀ c, MaySee δ r us c → OnRim m ρ s (seenAt r c) → c ∈ l
  size : 1 ≤ B ∧ B ≤ 2 ^ 16 ∧ |m.x| ≤ B ∧ |m.y| ≤ B
  near : ∀ c, c = q ∨ MaySee δ r us c → |(seenAt r c).x| + κ ≤ B ∧ |(seenAt r c).y| + κ ≤ B
  rad : 0 < ρ ∧ ρ ≤ B
  slack : 0 ≤ s ∧ 2 * (s + 4 * (B * κ)) ≤ ρ ^ 2 / 100
  area : 0 < A ∧ ∀ x y z, MaySee δ r us x → MaySee δ r us y → MaySee δ r us z → OnRim m ρ s (seenAt r x) → OnRim m ρ s (seenAt r y) → OnRim m ρ s (seenAt r z) →
    x ≠ y → x ≠ z → y ≠ z → (named → seenAt r x ≠ seenAt r y ∧ seenAt r x ≠ seenAt r z ∧ seenAt r y ≠ seenAt r z) →
    2 * A + 16 * (B * κ) ≤ |twiceArea (seenAt r x) (seenAt r y) (seenAt r z)|
  cond : 2000 * B * rimErr N B A (s + 4 * (B * κ)) ≤ ρ ^ 2
  away : ∀ c, MaySee δ r us c → B ^ 2 / 2 ^ 30 + 16 * (B * κ) ≤ dist2 (seenAt r c) (seenAt r q)
  /-- three corners of the rim are clearly closer to the place asked for than the leftmost corner and than every corner that is not on the rim -/
  three : ∃ a b c, (∀ x ∈ [a, b, c], MustSee δ r us x ∧ OnRim m ρ s (seenAt r x) ∧
      ∀ y, MayBeFirst κ δ r us y → dist2 (seenAt r x) (seenAt r q) + B ^ 2 / 2 ^ 40 + 32 * (B * κ) ≤ dist2 (seenAt r y) (seenAt r q)) ∧
    [a, b, c].Pairwise (fun x y => dist2 (seenAt r x) (seenAt r q) + 272 * (B * κ) ≤ 16 * dist2 (seenAt r x) (seenAt r y) ∧
      dist2 (seenAt r y) (seenAt r q) + 272 * (B * κ) ≤ 16 * dist2 (seenAt r x) (seenAt r y)) ∧
    ∀ y, MaySee δ r us y → OnRim m ρ s (seenAt r y) ∨ (WellOff m ρ (seenAt r y) ∧
      ∀ x ∈ [a, b, c], dist2 (seenAt r x) (seenAt r q) + B ^ 2 / 2 ^ 40 + 32 * (B * κ) ≤ dist2 (seenAt r y) (seenAt r q))

variable {R : Rounding}

/-- A `dia` or `rad` with its three points written out: label at `a`, line along `u`, and `center` at `q`. -/
structure HoleAsks (E : Env (Fl R)) (r : M3 ℝ) (d : DimN (Fl R)) (g : Fl R → Str) (a u q : V3 ℝ) (M : ℝ) : Prop where
  kind : d.kind = .dia ∨ d.kind = .rad
  good : GoodDim d.kind d.metas
  fmt : formatOf E c!"%.3f" d.metas = some g
  at_ : Literal (K := ℝ) d.metas c!"at" a
  dir : Literal (K := ℝ) d.metas c!"dir" u
  center : Literal (K := ℝ) d.metas c!"center" q
  within : a.Within M ∧ q.Within M
  largest : ∃ U, Largest u U
  square : (u.mulM r).z = 0

/-- Where the point that property `n` stands for is seen, but for an error: a literal point, or a corner picked by `near` beyond doubt, or the `center` of a circle that
the corners clearly show where the literal point given is seen.  `η` is the accuracy of the view. -/
inductive PlaceSeen (named : Prop) (r : M3 ℝ) (us : List (Tri ℝ)) (M η : ℝ) (ms : List (Meta (Fl R))) (n : Str) : V2 ℝ → ℝ → Prop
  | corner (c : V3 ℝ) : PointAsked M ms n → PointClear (1 / 2 ^ 20) (2 ^ 11 * (M ^ 2 * η)) r us ms n c → PlaceSeen named r us M η ms n (seenAt r c) (2 * (M * η))
  | centre (q : V3 ℝ) (l l' line : Nat) (m : V2 ℝ) (ρ : ℝ) (N : ℕ) (B A s : ℝ) :
      look ms n = some ⟨n, .pt (.func c!"center" (.val (q.fin : V3 (Ext ℝ)) l) l'), line⟩ → q.Within M → B ≤ M →
      HoleSeen (10 * (M * η)) (1 / 2 ^ 20) named r us q m ρ N B A s → PlaceSeen named r us M η ms n m (rimErr N B A (s + 4 * (B * (10 * (M * η)))))

/-- A linear dimension along the literal direction `u`, square to the line of sight, between points seen at `f` and `t`, with its label where `a` is seen, but for
`εf`, `εt` and `εa`. -/
structure SpanAsks (E : Env (Fl R)) (named : Prop) (r : M3 ℝ) (us : List (Tri ℝ)) (M η : ℝ) (d : DimN (Fl R)) (u : V3 ℝ) (g : Fl R → Str) (a f t : V2 ℝ) (εa εf εt : ℝ) :
    Prop where
  kind : d.kind = .dim
  good : GoodDim d.kind d.metas
  fmt : formatOf E c!"%.3f" d.metas = some g
  dir : Literal (K := ℝ) d.metas c!"dir" u
  largest : ∃ U, Largest u U
  square : (u.mulM r).z = 0
  label : PlaceSeen named r us M η d.metas c!"at" a εa
  start : PlaceSeen named r us M η d.metas c!"from" f εf
  stop : PlaceSeen named r us M η d.metas c!"to" t εt

/-- the distance of two places of the view along the direction `u` of the body -/
noncomputable def spanAlong (r : M3 ℝ) (u : V3 ℝ) (f t : V2 ℝ) : ℝ := |(t - f).dot (seenAt r u)| / len3 u

/-- `e` is the unit vector on the page along the direction `u`, from `f` towards `t` -/
def SpanDir (r : M3 ℝ) (u : V3 ℝ) (f t e : V2 ℝ) : Prop := e.dot e = 1 ∧ (∃ c, seenAt r u = e.smul c) ∧ 0 < (t - f).dot e

/-- What such a dimension gives, `b`: one label with the distance, centred at the place given, and, if the distance is not too small for the size of the drawing, the
eight strokes of a dimension between these places. -/
def SpanDone (M η : ℝ) (r : M3 ℝ) (k : ℝ) (p off : V2 ℝ) (u : V3 ℝ) (g : Fl R → Str) (a f t : V2 ℝ) (εa εf εt : ℝ) (b : OutPage (Fl R)) : Prop :=
  b.arcs = [] ∧ ∃ q x, b.text = [⟨q, g x, true, false⟩] ∧ Fl.Near x (spanAlong r u f t) (2 ^ 12 * (M * η) + 2 * (εf + εt)) ∧
    V2.NearTo q (a.onPage k off) (inkError M k p + εa * k) ∧
    (ShortLabels g M → M / 2 ^ 9 + 2 * (εf + εt) ≤ spanAlong r u f t → ∀ e, SpanDir r u f t e →
      ∃ G, DimInk G (dimError M k η G off + 5 * ((εa + εf + εt) * k)) (dimDoubt M k η G + 4 * ((εa + εf + εt) * k)) (g x).length (a.onPage k off) (f.onPage k off) (t.onPage k off) e
        b.lines)

/-- Where the point that property `n` stands for is seen, but for an error, at depth 0: a literal point at that depth; or a corner picked by `near` beyond doubt, the
point given being at that depth or clearly not seen where a corner is (only then the answer has depth 0); or the `center` of a circle that the corners
clearly show where the literal point given is seen.  `η` is the accuracy of the view. -/
inductive FlatSeen (named : Prop) (r : M3 ℝ) (us : List (Tri ℝ)) (M η : ℝ) (ms : List (Meta (Fl R))) (n : Str) : V2 ℝ → ℝ → Prop
  | point (c : V3 ℝ) : Literal (K := ℝ) ms n c → c.Within M → (c.mulM r).z = 0 → FlatSeen named r us M η ms n (seenAt r c) 0
  | corner (p c : V3 ℝ) : NearOf (K := ℝ) ms n p → p.Within M → PointClear (1 / 2 ^ 20) (2 ^ 11 * (M ^ 2 * η)) r us ms n c →
      ((p.mulM r).z = 0 ∨ ∀ c', MaySee (1 / 2 ^ 20) r us c' → 2 ^ 11 * (M ^ 2 * η) < seenDist2 r c' p) → FlatSeen named r us M η ms n (seenAt r c) (2 * (M * η))
  | centre (q : V3 ℝ) (l l' line : Nat) (m : V2 ℝ) (ρ : ℝ) (N : ℕ) (B A s : ℝ) :
      look ms n = some ⟨n, .pt (.func c!"center" (.val (q.fin : V3 (Ext ℝ)) l) l'), line⟩ → q.Within M → B ≤ M →
      HoleSeen (10 * (M * η)) (1 / 2 ^ 20) named r us q m ρ N B A s → FlatSeen named r us M η ms n m (rimErr N B A (s + 4 * (B * (10 * (M * η)))))

/-- the same place but for `ε` -/
def Nearby (ε : ℝ) (p q : V2 ℝ) : Prop := |p.x - q.x| ≤ ε ∧ |p.y - q.y| ≤ ε

/-- how a leg is given: its direction in the body, or a place on it, but for `ε` -/
inductive Arm
  | along (u : V3 ℝ)
  | through (p : V2 ℝ) (ε : ℝ)

/-- the leg from the apex `x` begins at `q` and has the direction `w` -/
def Arm.Goes (r : M3 ℝ) (x : V2 ℝ) : Arm → V2 ℝ → V2 ℝ → Prop
  | .along u, q, w => q = x ∧ w = seenAt r u
  | .through p ε, q, w => Nearby ε q p ∧ w = q - x

noncomputable def V2.len (w : V2 ℝ) : ℝ := Real.sqrt (w.x ^ 2 + w.y ^ 2)

/-- a leg given by a place is not much shorter than the coordinates are large -/
def Arm.Long (M K : ℝ) : Arm → V2 ℝ → Prop
  | .along _, _ => True
  | .through _ _, w => M ≤ K * w.len

/-- the properties say this about a leg -/
def ArmAsks (named : Prop) (r : M3 ℝ) (us : List (Tri ℝ)) (M η : ℝ) (ms : List (Meta (Fl R))) (dirName pointName : Str) : Arm → Prop
  | .along u => Literal (K := ℝ) ms dirName u ∧ (∃ U, Largest u U) ∧ (u.mulM r).z = 0
  | .through p ε => look ms dirName = none ∧ FlatSeen named r us M η ms pointName p ε

/-- the angle between two directions on the page -/
noncomputable def angle2 (w w' : V2 ℝ) : ℝ := Real.arccos (w.dot w' / (w.len * w'.len))

/-- An angle with its apex at `x`, but for `εx`, and with the legs `l` and `l'`, and its label where the literal point `a` is seen.  However the places lie
within their errors, the legs are not too short and the angle is not too flat. -/
structure TurnAsks (E : Env (Fl R)) (named : Prop) (r : M3 ℝ) (us : List (Tri ℝ)) (M η : ℝ) (d : DimN (Fl R)) (g : Fl R → Str) (a : V3 ℝ) (x : V2 ℝ) (εx : ℝ) (l l' : Arm) (K : ℝ) :
    Prop where
  kind : d.kind = .angle
  good : GoodDim d.kind d.metas
  fmt : formatOf E c!"%.1f" d.metas = some g
  label : Literal (K := ℝ) d.metas c!"at" a
  within : a.Within M
  apex : FlatSeen named r us M η d.metas c!"apex" x εx
  from_ : ArmAsks named r us M η d.metas c!"from_dir" c!"from_point" l
  to_ : ArmAsks named r us M η d.metas c!"to_dir" c!"to_point" l'
  size : 1 ≤ K
  wide : ∀ x' q w q' w', Nearby εx x' x → l.Goes r x' q w → l'.Goes r x' q' w' → l.Long M K w ∧ l'.Long M K w' ∧ 2 ^ 28 * (K * η) ≤ Real.sin (angle2 w w') ^ 2

/-- `e` is the unit vector along `w` -/
def Along (w e : V2 ℝ) : Prop := e.dot e = 1 ∧ ∃ c, 0 < c ∧ w = e.smul c

/-- What such an angle gives, `b`: with the places at most their errors off, the number is the angle between the legs, centred at the place given, and there are the strokes
and the arc of an angle, from the leg to the right to the leg to the left.  The radius of the arc is the distance of label and apex in space, the apex being at
depth 0. -/
def TurnDone (M η : ℝ) (r : M3 ℝ) (k : ℝ) (p off : V2 ℝ) (g : Fl R → Str) (a : V3 ℝ) (x : V2 ℝ) (εx : ℝ) (l l' : Arm) (K : ℝ) (b : OutPage (Fl R)) : Prop :=
  ∃ x' q w q' w', Nearby εx x' x ∧ l.Goes r x' q w ∧ l'.Goes r x' q' w' ∧
    (∃ z y, b.text = [⟨z, g y ++ c!" deg", true, false⟩] ∧
      Fl.Near y (angle2 w w' * 180 / Real.pi) (2 ^ 18 * (K * η) / Real.sin (angle2 w w')) ∧ V2.NearTo z (onPage r k off a) (inkError M k p)) ∧
    ∀ e e', Along w e → Along w' e' →
      (0 < e.x * e'.y - e.y * e'.x → AngleInk (angleError M k (K * η) (e.x * e'.y - e.y * e'.x) off) (2 ^ 9 * (K * η))
        (x'.onPage k off) (q.onPage k off) (q'.onPage k off) e e' (len3 (a.mulM r - ⟨x'.x, x'.y, 0⟩) * k) b) ∧
      (0 < e'.x * e.y - e'.y * e.x → AngleInk (angleError M k (K * η) (e'.x * e.y - e'.y * e.x) off) (2 ^ 9 * (K * η))
        (x'.onPage k off) (q'.onPage k off) (q.onPage k off) e' e (len3 (a.mulM r - ⟨x'.x, x'.y, 0⟩) * k) b)

/-- What dimension `d` of a drawing gives, `b`, is right: the body is `us`, the view `r` with accuracy `η` (`named`: along an axis), `k` and `off` are scale and shift of the
drawing, whose place on the page is `p`.  A linear dimension square to the line of sight between literal points and corners; an angle whose legs are square to it and which is
not too flat; a radius or diameter where the corners show a circle; a linear dimension between places some of which are centres of such circles;
an angle between such lines. -/
def DimensionDone (E : Env (Fl R)) (M η : ℝ) (named : Prop) (r : M3 ℝ) (us : List (Tri ℝ)) (k : ℝ) (p off : V2 ℝ) (d : DimN (Fl R)) (b : OutPage (Fl R)) : Prop :=
  (∀ u g U, DimAsks E d u g M → Largest u U → (u.mulM r).z = 0 → ShortLabels g M → DimDone M η r us k p off d u g b) ∧
  (∀ a x u w f t g K, AngleAsks E d r a x u w f t g K M → 2 ^ 28 * (K * η) ≤ Real.sin (angleBetween u w) ^ 2 → AngleDone M η K r k p off a x u w f t g b) ∧
  (∀ g a u q m ρ N B A s, HoleAsks E r d g a u q M → B ≤ M → HoleSeen (10 * (M * η)) (1 / 2 ^ 20) named r us q m ρ N B A s →
    RoundDone M η r k off d g a u m ρ N B A (s + 4 * (B * (10 * (M * η)))) b) ∧
  (∀ u g a f t εa εf εt, SpanAsks E named r us M η d u g a f t εa εf εt → SpanDone M η r k p off u g a f t εa εf εt b) ∧
  ∀ g a x εx l l' K, TurnAsks E named r us M η d g a x εx l l' K → TurnDone M η r k p off g a x εx l l' K b

end S2P
