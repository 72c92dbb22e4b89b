import Verif.Lemmas.Pin
import Verif.Spec.HoleDouble

set_option linter.unusedSectionVars false
set_option linter.unusedVariables false
set_option linter.unusedSimpArgs false

/-! # C90: the radius of a round part in double arithmetic

In exact arithmetic the radius of a round hole is exact (C82).  In double arithmetic it is not, and the error is not small: the circle is fitted with the normal equations in
coordinates that are not centred at the hole, so that the digits that make up the radius cancel when the hole is small compared with its distance from the origin. -/

namespace S2P

/-! ## Three model files -/

/-- twelve points at distance 5 from the origin, counterclockwise -/
def ring5 : List (Int × Int) := [(5, 0), (4, 3), (3, 4), (0, 5), (-3, 4), (-4, 3), (-5, 0), (-4, -3), (-3, -4), (0, -5), (3, -4), (4, -3)]

/-- a number of `ring5` written with the numerals for the numbers −5, −4, −3, 0, 3, 4, 5 -/
def spelled (w : List Str) (k : Int) : Str :=
  w.getD (if k = -5 then 0 else if k = -4 then 1 else if k = -3 then 2 else if k = 0 then 3 else if k = 3 then 4 else if k = 4 then 5 else 6) []

def ringVertex (w : List Str) (p : Int × Int) : Str := c!"vertex " ++ spelled w p.1 ++ c!" " ++ spelled w p.2 ++ c!" 0\n"

def ringFacet (w : List Str) (a b c : Int × Int) : Str :=
  c!"facet normal 0 0 1\nouter loop\n" ++ ringVertex w a ++ ringVertex w b ++ ringVertex w c ++ c!"endloop\nendfacet\n"

def fanText (w : List Str) (a : Int × Int) : List (Int × Int) → Str
  | b :: c :: r => ringFacet w a b c ++ fanText w a (c :: r)
  | _ => []

/-- the polygon of the twelve points as a model file of ten facets -/
def ringText (w : List Str) : Str := c!"solid p\n" ++ fanText w (5, 0) ring5.tail ++ c!"endsolid p\n"

/-- radius 0.5 round (200, 200) -/
def pinText : Str := ringText [c!"199.5", c!"199.6", c!"199.7", c!"200", c!"200.3", c!"200.4", c!"200.5"]

/-- radius 1.5 round (200, 200) -/
def bossText : Str := ringText [c!"198.5", c!"198.8", c!"199.1", c!"200", c!"200.9", c!"201.2", c!"201.5"]

/-- radius 1.25 round (1000, 1000) -/
def farText : Str := ringText [c!"998.75", c!"999", c!"999.25", c!"1000", c!"1000.75", c!"1001", c!"1001.25"]

/-! ## What is in them -/

def onLine (x y r : ℚ) (l : Str) : Bool :=
  match classify (α := Ext ℚ) l with
  | some (.vertex ⟨.fin a, .fin b, .fin c⟩) => decide (c = 0) && decide ((a - x) ^ 2 + (b - y) ^ 2 = r ^ 2)
  | _ => true

theorem allOn_ok {content : Str} {x y r : ℚ} (h : (getLines content).all (onLine x y r) = true) : AllOn content x y r := by
  intro ls hl l hlm v hv
  have hls := linesOf_unique content ls hl
  subst hls
  rw [List.all_eq_true] at h
  have := h l hlm
  unfold onLine at this
  rw [(classify_iff _ _).2 hv] at this
  simpa [V3.map] using this

theorem pin_on : AllOn pinText 200 200 (1 / 2) := allOn_ok (by decide +kernel)
theorem boss_on : AllOn bossText 200 200 (3 / 2) := allOn_ok (by decide +kernel)
theorem far_on : AllOn farText 1000 1000 (5 / 4) := allOn_ok (by decide +kernel)

theorem pin_sane : SaneFile 8 pinText := saneB_ok _ _ (by decide +kernel)
theorem boss_sane : SaneFile 8 bossText := saneB_ok _ _ (by decide +kernel)
theorem far_sane : SaneFile 10 farText := saneB_ok _ _ (by decide +kernel)

/-! ## What is found -/

/-- a point of the plane with integer coordinates -/
def gridPt (x y : ℤ) : V3 X64 := ⟨(Ext.fin (x : ℚ) : Ext ℚ), (Ext.fin (y : ℚ) : Ext ℚ), (Ext.fin 0 : Ext ℚ)⟩

def above (b : ℚ) : Option (V2 X64 × X64) → Bool
  | some (_, .fin r) => decide (b < r)
  | _ => false

def nanRadius : Option (V2 X64 × X64) → Bool
  | some (_, .nan) => true
  | _ => false

theorem pin_check : topCheck pinText (gridPt 200 200) (above (3 / 2)) = true := by decide +kernel
theorem boss_check : topCheck bossText (gridPt 200 200) Option.isNone = true := by decide +kernel
theorem far_check : topCheck farText (gridPt 1000 1000) nanRadius = true := by decide +kernel

theorem gridPt_fl (x y : ℤ) : (gridPt x y).fl = ((⟨x, y, 0⟩ : V3 ℝ).fin : V3 (Ext ℝ)) := by
  simp [gridPt, V3.fl, V3.map, V3.fin, X64.fl, Ext.real]
  rfl

/-- a radius at the middle of the part, the line pointing to the upper right -/
noncomputable def ringRad (x y : ℤ) (l : ℕ → ℕ) : DimN F64 :=
  ⟨.rad, [⟨c!"at", .pt (.val ((⟨x + 9, y + 9, 0⟩ : V3 ℝ).fin : V3 (Ext ℝ)) (l 0)), l 1⟩, ⟨c!"center", .pt (.val ((⟨x, y, 0⟩ : V3 ℝ).fin : V3 (Ext ℝ)) (l 2)), l 3⟩,
    ⟨c!"dir", .pt (.val ((⟨1, 1, 0⟩ : V3 ℝ).fin : V3 (Ext ℝ)) (l 4)), l 5⟩], l 6⟩

theorem ringRad_top (x y : ℤ) (l : ℕ → ℕ) : ringRad x y l = topRad (gridPt (x + 9) (y + 9)) (gridPt x y) (gridPt 1 1) l := by
  unfold ringRad topRad
  rw [gridPt_fl, gridPt_fl, gridPt_fl]
  simp

/-! ## The property fails -/

/-- **C90 fails**: the corners of a part of radius 0.5 at (200, 200) are all exactly on the circle, the drawing of the part is accepted, and the radius in it shows more
than 1.5. -/
theorem C90_wrong (l : ℕ → ℕ) (b : ℕ) : ∃ (file : STLFile F64) (c : _), AllOn pinText 200 200 (1 / 2) ∧ make pinText = .ok (some file) ∧
    content flEnv [(c!"m", some file)] (.draw c!"m" [] [ringRad 200 200 l] b) = .ok c ∧ c.1 = true ∧
    ∃ item ∈ c.2.1.text, ∃ r : ℝ, 3 / 2 < r ∧ item.str = c!"R" ++ FP.g6 (α := F64) (Ext.fin r : Ext ℝ) := by
  obtain ⟨s, h1, h2, h3, h4⟩ := topCheck_iff pin_check
  obtain ⟨file, c, g1, g2, g3, g4⟩ := top_draws (by norm_num) pin_sane h1 h2 h3 (gridPt (200 + 9) (200 + 9)) (gridPt 200 200) (gridPt 1 1) l b
  generalize locate (seenTop s.facets) ((gridPt 200 200).mulM matZP).xy = k at h4 g3 g4
  unfold above at h4
  split at h4
  · rename_i m r
    obtain ⟨item, hi, hs⟩ := g4 _ _ rfl
    refine ⟨file, c, pin_on, g1, ?_, g3.2 rfl, item, hi, (r : ℝ), ?_, hs⟩
    · rw [ringRad_top]; exact g2
    · have := of_decide_eq_true h4
      have : ((3 / 2 : ℚ) : ℝ) < (r : ℝ) := by exact_mod_cast this
      simpa using this
  · simp at h4

/-- **C90 fails**: the drawing of a part of radius 1.25 at (1000, 1000) is accepted, and the radius in it is not a number. -/
theorem C90_nan (l : ℕ → ℕ) (b : ℕ) : ∃ (file : STLFile F64) (c : _), AllOn farText 1000 1000 (5 / 4) ∧ make farText = .ok (some file) ∧
    content flEnv [(c!"m", some file)] (.draw c!"m" [] [ringRad 1000 1000 l] b) = .ok c ∧ c.1 = true ∧
    ∃ item ∈ c.2.1.text, item.str = c!"R" ++ FP.g6 (α := F64) (Ext.nan : Ext ℝ) := by
  obtain ⟨s, h1, h2, h3, h4⟩ := topCheck_iff far_check
  obtain ⟨file, c, g1, g2, g3, g4⟩ := top_draws (by norm_num) far_sane h1 h2 h3 (gridPt (1000 + 9) (1000 + 9)) (gridPt 1000 1000) (gridPt 1 1) l b
  generalize locate (seenTop s.facets) ((gridPt 1000 1000).mulM matZP).xy = k at h4 g3 g4
  unfold nanRadius at h4
  split at h4
  · rename_i m
    obtain ⟨item, hi, hs⟩ := g4 _ _ rfl
    refine ⟨file, c, far_on, g1, ?_, g3.2 rfl, item, hi, hs⟩
    rw [ringRad_top]; exact g2
  · simp at h4

/-- **C90 fails**: a drawing of a part of radius 1.5 at (200, 200) with its radius is refused. -/
theorem C90_refused (l : ℕ → ℕ) (b : ℕ) : ∃ (file : STLFile F64) (c : _), AllOn bossText 200 200 (3 / 2) ∧ make bossText = .ok (some file) ∧
    content flEnv [(c!"m", some file)] (.draw c!"m" [] [ringRad 200 200 l] b) = .ok c ∧ c.1 = false := by
  obtain ⟨s, h1, h2, h3, h4⟩ := topCheck_iff boss_check
  obtain ⟨file, c, g1, g2, g3, g4⟩ := top_draws (by norm_num) boss_sane h1 h2 h3 (gridPt (200 + 9) (200 + 9)) (gridPt 200 200) (gridPt 1 1) l b
  generalize locate (seenTop s.facets) ((gridPt 200 200).mulM matZP).xy = k at h4 g3 g4
  cases k with
  | some k => simp at h4
  | none =>
    refine ⟨file, c, boss_on, g1, ?_, ?_⟩
    · rw [ringRad_top]; exact g2
    · cases h : c.1 with
      | false => rfl
      | true => exact absurd (g3.1 h) (by simp)

end S2P
