import Verif.Spec.RimDouble
import Verif.Spec.NearDouble

/-! # Points of a dimension between corners and centres of holes, in double arithmetic -/

namespace S2P

/-- Where the point that property `n` stands for is seen, but for an error: a literal point or a corner picked by `near` beyond doubt, or the centre of a circle that the
corners `pts`, seen in this order, show clearly at the literal point given.  `rot` is the view as computed, `r` the one asked for, `η` the difference. -/
inductive SeenSpot {R : Rounding} (rot : M3 (Fl R)) (r : M3 ℝ) (us : List (Tri ℝ)) (pts : List (V3 (Fl R))) (M η : ℝ) (ms : List (Meta (Fl R))) (n : Str) : V2 ℝ → ℝ → Prop
  | corner (c : V3 ℝ) : PointAsked M ms n → PointClear (1 / 2 ^ 20) (2 ^ 11 * (M ^ 2 * η)) r us ms n c → SeenSpot rot r us pts M η ms n (c.mulM r).xy (2 * (M * η))
  | centre (q : V3 (Fl R)) (l l' line : Nat) (t : V2 ℝ) (p0 : V2 ℝ) (ps : List (V2 ℝ)) (m : V2 ℝ) (ρ : ℝ) (N : ℕ) (B A s : ℝ) :
      look ms n = some ⟨n, .pt (.func c!"center" (.val q l) l'), line⟩ → (q.mulM rot).xy = V2.toFl R t → pts.map V3.xy = (p0 :: ps).map (V2.toFl R) →
      RimAt p0 ps t m ρ N B A s → B ≤ M → SeenSpot rot r us pts M η ms n m (rimErr N B A s)

/-- a linear dimension along the literal direction `u` between points seen at `f` and `t`, but for `εf` and `εt` -/
structure SpotDim {R : Rounding} (E : Env (Fl R)) (rot : M3 (Fl R)) (r : M3 ℝ) (us : List (Tri ℝ)) (pts : List (V3 (Fl R))) (M η : ℝ) (d : DimN (Fl R)) (u : V3 ℝ)
    (g : Fl R → Str) (f t : V2 ℝ) (εf εt : ℝ) : Prop where
  kind : d.kind = .dim
  good : GoodDim d.kind d.metas
  fmt : formatOf E c!"%.3f" d.metas = some g
  dir : Literal (K := ℝ) d.metas c!"dir" u
  square : (u.mulM r).z = 0
  label : ∃ s ε, SeenSpot rot r us pts M η d.metas c!"at" s ε
  start : SeenSpot rot r us pts M η d.metas c!"from" f εf
  stop : SeenSpot rot r us pts M η d.metas c!"to" t εt

end S2P
