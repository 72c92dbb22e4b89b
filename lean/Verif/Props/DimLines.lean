import Verif.Lemmas.DimLines

set_option linter.unusedSectionVars false
set_option linter.unusedVariables false
set_option linter.unusedSimpArgs false

/-! # C63: the strokes of a linear dimension -/

namespace S2P

/-- A well formed `dim` with literal points, drawn in the view `r` at `s` points per unit: `a`, `u`, `f`, `t` are at, dir, from and to; `g` formats the label;
`f'` and `t'` are the feet of `f` and `t` on the line through `a` along `u`; on the page `e` is the unit vector from `f'` to `t'`. -/
structure DimCase (E : Env (Ext ℝ)) (v : Vis (Ext ℝ)) (x : DimN (Ext ℝ)) (r : M3 ℝ) (s : ℝ) (d : V2 ℝ) (a u f t f' t' : V3 ℝ) (g : Ext ℝ → Str)
    (e : V2 ℝ) : Prop where
  notView : E.NotAView
  rot : IsRotation r
  view : v.rotation = r.fin
  scale : v.scale = .fin s
  pos : 0 < s
  offset : v.d = d.fin
  kind : x.kind = .dim
  good : GoodDim x.kind x.metas
  at_ : Literal x.metas c!"at" a
  dir : Literal x.metas c!"dir" u
  from_ : Literal x.metas c!"from" f
  to_ : Literal x.metas c!"to" t
  fmt : formatOf E c!"%.3f" x.metas = some g
  footF : Foot a u f f'
  footT : Foot a u t t'
  unit : e.x ^ 2 + e.y ^ 2 = 1
  along : ∃ D, 0 < D ∧ onPage r s d t' = onPage r s d f' + e.smul D

section
variable {E : Env (Ext ℝ)} {v : Vis (Ext ℝ)} {x : DimN (Ext ℝ)} {r : M3 ℝ} {s : ℝ} {d : V2 ℝ} {a u f t f' t' : V3 ℝ} {g : Ext ℝ → Str} {e : V2 ℝ}

theorem DimCase.ne (h : DimCase E v x r s d a u f t f' t' g e) : u ≠ ⟨0, 0, 0⟩ := by
  rintro rfl
  obtain ⟨⟨k, hk⟩, -⟩ := h.footF
  obtain ⟨⟨l, hl⟩, -⟩ := h.footT
  obtain ⟨D, hD, hp⟩ := h.along
  have e1 : f' = a := by rw [hk]; ext <;> simp [V3.smul]
  have e2 : t' = a := by rw [hl]; ext <;> simp [V3.smul]
  rw [e1, e2] at hp
  have hx : e.x * D = 0 := by have := congrArg V2.x hp; simp [V2.smul] at this; rcases this with h | h <;> simp [h]
  have hy : e.y * D = 0 := by have := congrArg V2.y hp; simp [V2.smul] at this; rcases this with h | h <;> simp [h]
  have := h.unit
  rcases mul_eq_zero.mp hx with h1 | h1
  · rcases mul_eq_zero.mp hy with h2 | h2
    · rw [h1, h2] at this; norm_num at this
    · exact absurd h2 hD.ne'
  · exact absurd h1 hD.ne'

theorem foot_view (hr : IsRotation r) (hne : u ≠ ⟨0, 0, 0⟩) {p q : V3 ℝ} (h : Foot a u p q) :
    a.mulM r + ((u.mulM r).sdiv (len3 u)).smul (((u.mulM r).sdiv (len3 u)).dot (p.mulM r - a.mulM r)) = q.mulM r := by
  obtain ⟨⟨k, rfl⟩, h2⟩ := h
  have hp := len3_pos hne
  have hk : (p - a).dot u = k * (len3 u * len3 u) := by
    have : len3 u * len3 u = u.dot u := by rw [len3_mul_self]; rfl
    rw [this]
    have : (p - (a + u.smul k)).dot u = (p - a).dot u - k * u.dot u := by simp [V3.dot, V3.smul]; ring
    linarith
  have hd : (u.mulM r).dot (p.mulM r - a.mulM r) = k * (len3 u * len3 u) := by
    rw [← rot_sub, rot_dot hr, ← hk]; simp [V3.dot]; ring
  have h1 : ((u.mulM r).sdiv (len3 u)).dot (p.mulM r - a.mulM r) = k * len3 u := by
    have : ((u.mulM r).sdiv (len3 u)).dot (p.mulM r - a.mulM r) = (u.mulM r).dot (p.mulM r - a.mulM r) / len3 u := by
      simp [V3.dot, V3.sdiv]; ring
    rw [this, hd]; field_simp
  rw [h1]
  ext <;> simp [V3.smul, V3.sdiv, V3.mulM] <;> field_simp <;> ring

theorem foot_dist (hne : u ≠ ⟨0, 0, 0⟩) (hr : IsRotation r) (hf : Foot a u f f') (ht : Foot a u t t') : len3 (t'.mulM r - f'.mulM r) = shown u f t := by
  rw [← rot_sub, rot_len hr]
  obtain ⟨⟨k, rfl⟩, h2⟩ := hf
  obtain ⟨⟨l, rfl⟩, h3⟩ := ht
  have hp := len3_pos hne
  have e1 : (a + u.smul l) - (a + u.smul k) = u.smul (l - k) := by ext <;> simp [V3.smul] <;> ring
  have e2 : (t - f).dot u = (l - k) * (len3 u * len3 u) := by
    have e3 : (t - f).dot u = (t - (a + u.smul l)).dot u - (f - (a + u.smul k)).dot u + (l - k) * u.dot u := by simp [V3.dot, V3.smul]; ring
    rw [e3, h2, h3, len3_mul_self]; unfold V3.sqNorm; ring
  rw [e1, len3_scaled, shown, e2, abs_mul, abs_of_pos (by positivity : 0 < len3 u * len3 u)]
  field_simp

/-- C63: an accepted `dim` draws exactly these eight strokes. -/
theorem C63_strokes (h : DimCase E v x r s d a u f t f' t' g e) (G : ℝ) (hG : Leaves (labelW (g (.fin (shown u f t))).length) labelH e G) :
    ∃ P L, dimContent E v x = .ok (true, P, L) ∧ P.arcs = [] ∧
      P.lines = (dimStrokes (G * 2 < shown u f t * s) G (onPage r s d a) (onPage r s d f) (onPage r s d t) (onPage r s d f') (onPage r s d t') e).map
        (fun l => (⟨l.o.fin, l.t.fin⟩ : Line (Ext ℝ))) := by
  have hne := h.ne
  have hne' := rot_ne h.rot hne
  have hz : (u.mulM r).fin.eqv (V3.zero : V3 (Ext ℝ)) = false := by
    by_contra hc
    rw [Bool.not_eq_false] at hc
    apply hne'
    simp [V3.eqv, V3.zero, V3.map] at hc
    obtain ⟨⟨h1, h2⟩, h3⟩ := hc
    ext <;> assumption
  have hi : drawnItems E v x.kind x.metas = some (dimItems g v.scale (a.mulM r).fin (u.mulM r).fin.normalized (f.mulM r).fin (t.mulM r).fin) := by
    rw [h.kind]
    simp only [drawnItems, literal_point h.view h.at_, literal_point h.view h.dir, literal_point h.view h.from_, literal_point h.view h.to_, h.fmt, bind, Option.bind, hz]
    rfl
  obtain ⟨L, eq⟩ := (dimContent_items E v x (by rw [h.view]; exact h.notView r h.rot)).1 _ h.good hi
  refine ⟨_, L, eq, rfl, ?_⟩
  obtain ⟨D, hD, hp⟩ := h.along
  have hx := congrArg V2.x hp
  have hy := congrArg V2.y hp
  simp only [onPage, V2.smul, V2.add_x, V2.add_y] at hx hy
  have hd := foot_dist hne h.rot h.footF h.footT
  rw [normalized_real hne', rot_len h.rot, h.scale, h.offset]
  have := dimItems_strokes g s h.pos d (a.mulM r) ((u.mulM r).sdiv (len3 u)) (f.mulM r) (t.mulM r) (f'.mulM r) (t'.mulM r) e D G
    (foot_view h.rot hne h.footF) (foot_view h.rot hne h.footT) h.unit hD (by linarith) (by linarith) (by rw [hd]; exact hG)
  rw [this]
  simp only [hd]
  rfl

/-- a point of a stroke -/
def Line.at (l : Line ℝ) (k : ℝ) : V2 ℝ := l.o + (l.t - l.o).smul k

/-- C63: when `dir` is parallel to the page, the extension lines (third and fourth stroke) are perpendicular to the dimension line. -/
theorem C63_perpendicular (h : DimCase E v x r s d a u f t f' t' g e) (hz : (u.mulM r).z = 0) (G : ℝ) (fits : Prop) [Decidable fits] :
    ∀ l ∈ ((dimStrokes fits G (onPage r s d a) (onPage r s d f) (onPage r s d t) (onPage r s d f') (onPage r s d t') e).drop 2).take 2,
      (l.t - l.o).dot e = 0 := by
  obtain ⟨D, hD, hp⟩ := h.along
  have hx := congrArg V2.x hp
  have hy := congrArg V2.y hp
  simp only [onPage, V2.smul, V2.add_x, V2.add_y] at hx hy
  obtain ⟨⟨k, hk⟩, -⟩ := h.footF
  obtain ⟨⟨l, hl⟩, -⟩ := h.footT
  have key : ∀ p q : V3 ℝ, Foot a u p q → (onPage r s d p - onPage r s d q).dot e = 0 := by
    intro p q ⟨⟨m, hm⟩, hq⟩
    rw [← rot_dot h.rot, rot_sub] at hq
    have h3 : (p.mulM r - q.mulM r).dot (u.mulM r) = (p.mulM r - q.mulM r).x * (u.mulM r).x + (p.mulM r - q.mulM r).y * (u.mulM r).y := by
      simp only [V3.dot, hz]; ring
    rw [h3] at hq
    have ex : e.x * D = (u.mulM r).x * ((l - k) * s) := by
      have h4 : (t'.mulM r).x - (f'.mulM r).x = (u.mulM r).x * (l - k) := by rw [hk, hl]; simp [V3.mulM, V3.smul]; ring
      linear_combination s * h4 - hx
    have ey : e.y * D = (u.mulM r).y * ((l - k) * s) := by
      have h4 : (t'.mulM r).y - (f'.mulM r).y = (u.mulM r).y * (l - k) := by rw [hk, hl]; simp [V3.mulM, V3.smul]; ring
      linear_combination s * h4 - hy
    have : (onPage r s d p - onPage r s d q).dot e * D = 0 := by
      simp only [onPage, V2.dot, V2.sub_x, V2.sub_y]
      simp only [V3.sub_x, V3.sub_y] at hq
      linear_combination ((p.mulM r).x * s - (q.mulM r).x * s) * ex + ((p.mulM r).y * s - (q.mulM r).y * s) * ey + s * ((l - k) * s) * hq
    exact (mul_eq_zero.mp this).resolve_right hD.ne'
  have kf := key _ _ h.footF
  have kt := key _ _ h.footT
  unfold dimStrokes
  have h2 : ∀ A B : Line ℝ, ∀ R : List (Line ℝ), (((if fits then [⟨onPage r s d f', onPage r s d a - e.smul G⟩, ⟨onPage r s d a + e.smul G, onPage r s d t'⟩]
      else [⟨onPage r s d f', onPage r s d f' - e.smul 10⟩, ⟨onPage r s d t', onPage r s d t' + e.smul 10⟩]) ++ (A :: B :: R) : List (Line ℝ)).drop 2).take 2 = [A, B] := by
    intro A B R; split <;> rfl
  rw [h2]
  intro l hl
  simp only [List.mem_cons, List.not_mem_nil, or_false] at hl
  simp only [V2.dot, V2.sub_x, V2.sub_y] at kf kt
  rcases hl with rfl | rfl <;> simp only [V2.dot, V2.smul, V2.left, V2.sub_x, V2.sub_y]
  · linear_combination kf
  · linear_combination kt

theorem strokes_clear (a f t f' t' e : V2 ℝ) (w hh G p q : ℝ) (hG : Leaves w hh e G) (hp : a = f' + e.smul p) (hq : t' = a + e.smul q) (hpG : G ≤ p) (hqG : G ≤ q) :
    ∀ l ∈ (dimStrokes True G a f t f' t' e).take 2, ∀ k, 0 ≤ k → k ≤ 1 → w ≤ |(l.at k).x - a.x| ∨ hh ≤ |(l.at k).y - a.y| := by
  obtain ⟨g0, -, -, g3⟩ := hG
  have out : ∀ m : ℝ, G ≤ |m| → ∀ z : V2 ℝ, z = a + e.smul m → w ≤ |z.x - a.x| ∨ hh ≤ |z.y - a.y| := by
    rintro m hm z rfl
    simp only [V2.add_x, V2.add_y, V2.smul, add_sub_cancel_left, abs_mul]
    rcases g3 with g3 | g3
    · left; rw [← g3]; exact mul_le_mul_of_nonneg_left hm (abs_nonneg _)
    · right; rw [← g3]; exact mul_le_mul_of_nonneg_left hm (abs_nonneg _)
  intro l hl k k0 k1
  simp only [dimStrokes, if_true, List.cons_append, List.take_succ_cons, List.take_zero, List.mem_cons, List.not_mem_nil, or_false] at hl
  have hf : f' = a - e.smul p := by rw [hp]; ext <;> simp [V2.smul]
  rcases hl with rfl | rfl
  · apply out (-(p * (1 - k) + G * k))
    · rw [abs_neg, abs_of_nonneg (by nlinarith)]; nlinarith
    · rw [hf]; ext <;> simp [Line.at, V2.smul] <;> ring
  · apply out (q * k + G * (1 - k))
    · rw [abs_of_nonneg (by nlinarith)]; nlinarith
    · rw [hq]; ext <;> simp [Line.at, V2.smul] <;> ring

theorem strokes_through (a f t f' t' e : V2 ℝ) (G q : ℝ) (hG : 0 < G) (hq : t' = a - e.smul q) (hq0 : 0 ≤ q) :
    ∃ l ∈ (dimStrokes True G a f t f' t' e).take 2, ∃ k, 0 ≤ k ∧ k ≤ 1 ∧ l.at k = a := by
  refine ⟨⟨a + e.smul G, t'⟩, ?_, G / (G + q), by positivity, (div_le_one (by linarith)).mpr (by linarith), ?_⟩
  · simp [dimStrokes]
  · have : G + q ≠ 0 := by positivity
    rw [hq]; ext <;> simp [Line.at, V2.smul] <;> field_simp <;> ring

theorem strokes_fit {fits : Prop} [Decidable fits] (hf : fits) (G : ℝ) (a f t f' t' e : V2 ℝ) : dimStrokes fits G a f t f' t' e = dimStrokes True G a f t f' t' e := by
  simp only [dimStrokes, hf, if_true]

/-- C63: where the distance is long enough for the label and both arrowheads are farther from it than the gap, the dimension line (first and second
stroke) stays outside the box reserved for the label. -/
theorem C63_label_clear (h : DimCase E v x r s d a u f t f' t' g e) (G p q : ℝ) (hG : Leaves (labelW (g (.fin (shown u f t))).length) labelH e G)
    (hfit : G * 2 < shown u f t * s) (hp : onPage r s d a = onPage r s d f' + e.smul p) (hq : onPage r s d t' = onPage r s d a + e.smul q)
    (hpG : G ≤ p) (hqG : G ≤ q) :
    ∃ (P : OutPage (Ext ℝ)) (L : List Diag) (ls : List (Line ℝ)), dimContent E v x = .ok (true, P, L) ∧ P.lines = ls.map (fun l => (⟨l.o.fin, l.t.fin⟩ : Line (Ext ℝ))) ∧
      ∀ l ∈ ls.take 2, ∀ k, 0 ≤ k → k ≤ 1 →
        labelW (g (.fin (shown u f t))).length ≤ |(l.at k).x - (onPage r s d a).x| ∨ labelH ≤ |(l.at k).y - (onPage r s d a).y| := by
  obtain ⟨P, L, h1, -, h3⟩ := C63_strokes h G hG
  rw [strokes_fit hfit] at h3
  exact ⟨P, L, _, h1, h3, strokes_clear _ _ _ _ _ _ _ _ G p q hG hp hq hpG hqG⟩

/-- C63: otherwise it need not: with the label placed beyond the arrowhead at `to` and the distance long enough for the label, the dimension line
runs through the middle of the label. -/
theorem C63_struck_through (h : DimCase E v x r s d a u f t f' t' g e) (G q : ℝ) (hG : Leaves (labelW (g (.fin (shown u f t))).length) labelH e G)
    (hfit : G * 2 < shown u f t * s) (hq : onPage r s d t' = onPage r s d a - e.smul q) (hq0 : 0 ≤ q) :
    ∃ (P : OutPage (Ext ℝ)) (L : List Diag) (ls : List (Line ℝ)), dimContent E v x = .ok (true, P, L) ∧ P.lines = ls.map (fun l => (⟨l.o.fin, l.t.fin⟩ : Line (Ext ℝ))) ∧
      ∃ l ∈ ls.take 2, ∃ k, 0 ≤ k ∧ k ≤ 1 ∧ l.at k = onPage r s d a := by
  obtain ⟨P, L, h1, -, h3⟩ := C63_strokes h G hG
  rw [strokes_fit hfit] at h3
  exact ⟨P, L, _, h1, h3, strokes_through _ _ _ _ _ _ G q hG.1 hq hq0⟩

end

/-! ## A case -/

/-- the dimension of the examples in Props/Labels: measured from (0,0,0) to (3,4,0) along the y axis, shown at (1,1,1), at half a point per unit -/
example : ∃ r g, DimCase rEnv rVis rLabel r (1 / 2) ⟨10, 20⟩ ⟨1, 1, 1⟩ ⟨0, -2, 0⟩ ⟨0, 0, 0⟩ ⟨3, 4, 0⟩ ⟨1, 0, 1⟩ ⟨1, 4, 1⟩ g ⟨0, 1⟩ ∧
    (V3.mulM ⟨0, -2, 0⟩ r).z = 0 ∧ Leaves (labelW (g (.fin (shown ⟨0, -2, 0⟩ ⟨0, 0, 0⟩ ⟨3, 4, 0⟩))).length) labelH ⟨0, 1⟩ labelH := by
  obtain ⟨r, ax, eq, hr, hs, -⟩ := C30_named_views (K := ℝ) c!"Z+" matZP rfl
  refine ⟨r, _, ⟨rEnv_notAView, hr, eq, rfl, by norm_num, rfl, rfl, ?_, ⟨_, _, rfl, rfl⟩, ⟨_, _, rfl, rfl⟩, ⟨_, _, rfl, rfl⟩, ⟨_, _, rfl, rfl⟩, rfl,
    ⟨⟨1 / 2, ?_⟩, ?_⟩, ⟨⟨-3 / 2, ?_⟩, ?_⟩, by norm_num, 2, by norm_num, ?_⟩, ?_, ?_⟩
  · simp [rLabel, GoodDim, exactly_def, Has, litProp]
  · ext <;> norm_num [V3.smul]
  · norm_num [V3.dot]
  · ext <;> norm_num [V3.smul]
  · norm_num [V3.dot]
  · simp only [specView] at hs
    obtain ⟨rfl, -⟩ := hs
    ext <;> norm_num [onPage, V3.mulM, V2.smul]
  · simp only [specView] at hs
    obtain ⟨rfl, -⟩ := hs
    norm_num [V3.mulM]
  · refine ⟨by norm_num [labelH], by simp [labelW]; positivity, by simp, .inr (by simp)⟩

end S2P
