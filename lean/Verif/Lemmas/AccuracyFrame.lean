import Verif.Lemmas.AccuracyDraw
import Verif.Props.Round
import Verif.Lemmas.Paper

set_option linter.unusedSectionVars false
set_option linter.unusedVariables false
set_option linter.unusedSimpArgs false

/-! # A drawing in rounded arithmetic: the view, the facets seen, the scale and the place -/

namespace S2P

/-- all that is known of a drawing that succeeds -/
structure Framed {R : Rounding} (E : Env (Fl R)) (stl : Models (Fl R)) (n : ℕ) (name : Str) (ms : List (Meta (Fl R))) (sc : Int × Int) (rot : M3 (Fl R))
    (loc : V2 (Fl R)) (file proj : STLFile (Fl R)) (ls : List (Line (Fl R))) (r : M3 ℝ) (kept : List (Facet (Fl R))) (k : ℝ) (p off : V2 ℝ) : Prop where
  drawn : Drawn E stl name ms sc rot loc file proj ls
  viewBd : rot.ViewBd
  bd : file.Bd n
  asked : AskedView ms r
  rotation : IsRotation r
  near : M3.NearTo rot r (1 / 2 ^ 40)
  culled : proj.cull = proj
  keptIn : ∀ f ∈ kept, f ∈ file.facets
  keptIff : ∀ f ∈ file.facets, (FP.Bd 1 f.norm.x ∧ FP.Bd 1 f.norm.y ∧ FP.Bd 1 f.norm.z) →
    (1 / 2 ^ 37 < (f.norm.val.mulM r).z → f ∈ kept) ∧ (f ∈ kept → -(1 / 2 ^ 37) < (f.norm.val.mulM r).z)
  perm : proj.facets.Perm (kept.map (rotFacet rot))
  corners : ∀ f ∈ kept, ∀ p ∈ f.corners, V3.NearTo (p.mulM rot) (p.val.mulM r) (2 ^ n / 2 ^ 38) ∧ (p.val.mulM r).Within (3 * 2 ^ n)
  edges : ∀ e ∈ proj.edges, ∃ f ∈ kept, ∃ E : Edge ℝ, (f.val.seenIn r).HasSide E ∧ V3.NearTo e.1 E.1 (2 ^ n / 2 ^ 38) ∧
    V3.NearTo e.2 E.2 (2 ^ n / 2 ^ 38) ∧ E.1.Within (3 * 2 ^ n) ∧ E.2.Within (3 * 2 ^ n)
  placed : NearlyProjects file ms (kept.map (fun f => f.val.seenIn r)) k p off (inkError (2 ^ n) k p)
  mid : PageMid (2 ^ n) k (|p.x| + |p.y|)
  scale : (projScale sc : Fl R) = (Ext.fin k : Ext ℝ)
  offset : kept ≠ [] → projOffset loc proj.limits (projScale sc) = (⟨(Ext.fin off.x : Ext ℝ), (Ext.fin off.y : Ext ℝ)⟩ : V2 (Fl R)) ∧
    |off.x| ≤ 4 * (2 ^ n * |k|) + 2 * (|p.x| + |p.y|) + 1 ∧ |off.y| ≤ 4 * (2 ^ n * |k|) + 2 * (|p.x| + |p.y|) + 1

/-- how a drawing that succeeds is placed -/
theorem draw_frame {R : Rounding} (hR : R.Accurate) (E : Env (Fl R)) (hS : SortOK E.sorter) (hJ : E.junkM = ⟨V3.zero, V3.zero, V3.zero⟩)
    (stl : Models (Fl R)) {n : ℕ} (hn : n ≤ 500) (hM : stl.Bd n) (name : Str) (ms : List (Meta (Fl R))) (hf : ∀ m ∈ ms, m.val.LocBd) (hv : TameView ms)
    (hs : TameScale ms) (dims : List (DimN (Fl R))) (line : Nat) (c) (h : content E stl (.draw name ms dims line) = .ok c) (hc : c.1 = true) :
    ∃ (sc : Int × Int) (rot : M3 (Fl R)) (loc : V2 (Fl R)) (file proj : STLFile (Fl R)) (ls : List (Line (Fl R))) (r : M3 ℝ) (kept : List (Facet (Fl R)))
      (k : ℝ) (p off : V2 ℝ), Framed E stl n name ms sc rot loc file proj ls r kept k p off := by
  rcases draw_sum E stl name ms dims line c h with ⟨h1, -⟩ | ⟨⟨a, b⟩, rot, loc, file, proj, ls, cs, hd, -⟩
  · rw [h1] at hc; cases hc
  have hvb := viewOf_bd _ (fun m hm => hf m (look_mem hm)) _ hd.view
  obtain ⟨en, hen, hfile⟩ := hd.model
  obtain ⟨file', hf', hbd⟩ := hM en (List.mem_of_find?_eq_some hen)
  rw [hfile] at hf'; injection hf' with hf'; subst hf'
  obtain ⟨r, r1, r2, r3⟩ := view_near hR _ (fun m l hm hl => hv m l hm hl) _ hd.view
  obtain ⟨kept, k1, k2, k3, k4, k5, k6⟩ := turned_near hR hn file proj hbd rot hvb r r2 r3 hd.turned
  obtain ⟨hb0, ha31, hb31⟩ := hs a b hd.scale
  obtain ⟨k, hk, hk2, hk3⟩ := scale_near hR a b hb0 ha31 hb31
  obtain ⟨p, p1, p2, p3⟩ := locOf_near hR ms hf loc hd.loc
  have hpm : PageMid (2 ^ n) k (|p.x| + |p.y|) := ⟨⟨one_le_pow₀ (by norm_num), pow_le_pow_right₀ (by norm_num) (by omega)⟩, hk3,
    add_nonneg (abs_nonneg _) (abs_nonneg _), p3⟩
  have hseen : NearlySeen r file (kept.map (fun f => f.val.seenIn r)) (1 / 2 ^ 37) := ⟨kept, rfl, k1, k2⟩
  by_cases hempty : kept = []
  · exact ⟨(a, b), rot, loc, file, proj, ls, r, kept, k, p, ⟨0, 0⟩, hd, hvb, hbd, r1, r2, r3, k3, k1, k2, k4, k5, k6,
      ⟨r, a, b, r1, r2, hseen, hd.scale, hk2, p1, by simp [hempty]⟩, hpm, hk, fun h => absurd hempty h⟩
  · -- the box
    have hfne : proj.facets ≠ [] := by
      intro h0
      rw [h0] at k4
      have := k4.symm.eq_nil
      simp at this
      exact hempty this
    have hcor : ∀ q : V3 (Fl R), q ∈ proj.corners ↔ ∃ f ∈ kept, ∃ c ∈ f.corners, q = c.mulM rot := by
      intro q
      unfold STLFile.corners
      rw [List.mem_flatMap]
      constructor
      · rintro ⟨f, hf, hq⟩
        obtain ⟨g, hg, rfl⟩ := List.mem_map.1 (k4.subset hf)
        rw [corners_rot] at hq
        obtain ⟨c, hc, rfl⟩ := List.mem_map.1 hq
        exact ⟨g, hg, c, hc, rfl⟩
      · rintro ⟨f, hf, c, hc, rfl⟩
        exact ⟨rotFacet rot f, k4.symm.subset (List.mem_map_of_mem hf), by rw [corners_rot]; exact List.mem_map_of_mem hc⟩
    have hokc : ∀ q ∈ proj.corners, V3.Ok q := by
      intro q hq
      obtain ⟨f, hf, c, hc, rfl⟩ := (hcor q).1 hq
      obtain ⟨⟨⟨_, e1, -⟩, ⟨_, e2, -⟩, ⟨_, e3, -⟩⟩, -⟩ := k5 f hf c hc
      have okf : ∀ x : ℝ, FP.Ok (α := Fl R) (Ext.fin x : Ext ℝ) := by
        intro x
        show Ext.eq (K := ℝ) (.fin x) (.fin x) = true
        simp [Ext.eq]
      refine ⟨?_, ?_, ?_⟩
      · rw [e1]; exact okf _
      · rw [e2]; exact okf _
      · rw [e3]; exact okf _
    obtain ⟨i1, i2, i3, i4, i5⟩ := C20_limits proj hfne (by
      intro f hf
      have : ∀ p ∈ f.corners, V3.Ok p := fun p hp => hokc p (List.mem_flatMap.mpr ⟨f, hf, hp⟩)
      exact ⟨this _ (by simp [Facet.corners]), this _ (by simp [Facet.corners]), this _ (by simp [Facet.corners])⟩)
    obtain ⟨lo, hi, hbox⟩ := exists_box (((kept.map (fun f => f.val.seenIn r)).flatMap Tri.corners).map V3.xy) (by
      obtain ⟨f, hf⟩ := List.exists_mem_of_ne_nil kept hempty
      intro h0
      rw [List.map_eq_nil_iff, List.flatMap_eq_nil_iff] at h0
      have := h0 _ (List.mem_map_of_mem hf)
      simp [Tri.corners] at this)
    have hex : ∀ q : V2 ℝ, q ∈ ((kept.map (fun f => f.val.seenIn r)).flatMap Tri.corners).map V3.xy ↔ ∃ f ∈ kept, ∃ c ∈ f.corners, q = (c.val.mulM r).xy := by
      intro q
      simp only [List.mem_map, List.mem_flatMap, Tri.corners, Facet.corners, Tri.seenIn, Facet.val, List.mem_cons, List.not_mem_nil, or_false]
      constructor
      · rintro ⟨v, ⟨t, ⟨f, hf, rfl⟩, (rfl | rfl | rfl)⟩, rfl⟩
        · exact ⟨f, hf, f.e0, by simp, rfl⟩
        · exact ⟨f, hf, f.e1, by simp, rfl⟩
        · exact ⟨f, hf, f.e2, by simp, rfl⟩
      · rintro ⟨f, hf, c, (rfl | rfl | rfl), rfl⟩
        · exact ⟨_, ⟨_, ⟨f, hf, rfl⟩, Or.inl rfl⟩, rfl⟩
        · exact ⟨_, ⟨_, ⟨f, hf, rfl⟩, Or.inr (Or.inl rfl)⟩, rfl⟩
        · exact ⟨_, ⟨_, ⟨f, hf, rfl⟩, Or.inr (Or.inr rfl)⟩, rfl⟩
    let Q : V3 (Fl R) → Prop := fun c => ∃ f ∈ kept, c ∈ f.corners
    have nx : ∀ c, Q c → Fl.Near (c.mulM rot).x (c.val.mulM r).x (2 ^ n / 2 ^ 38) := fun c ⟨f, hf, hc⟩ => (k5 f hf c hc).1.1
    have ny : ∀ c, Q c → Fl.Near (c.mulM rot).y (c.val.mulM r).y (2 ^ n / 2 ^ 38) := fun c ⟨f, hf, hc⟩ => (k5 f hf c hc).1.2.1
    have at1 : ∀ {g : V3 (Fl R) → Fl R} {L : Fl R}, (∃ q ∈ proj.corners, L = g q) → ∃ c, Q c ∧ L = g (c.mulM rot) := by
      rintro g L ⟨q, hq, rfl⟩
      obtain ⟨f, hf, c, hc, rfl⟩ := (hcor q).1 hq
      exact ⟨c, ⟨f, hf, hc⟩, rfl⟩
    have lim : ∀ c, Q c → FP.le proj.limits.o.x (c.mulM rot).x = true ∧ FP.le proj.limits.o.y (c.mulM rot).y = true ∧
        FP.le (c.mulM rot).x proj.limits.t.x = true ∧ FP.le (c.mulM rot).y proj.limits.t.y = true := by
      rintro c ⟨f, hf, hc⟩
      refine i1 (rotFacet rot f) (k4.symm.subset (List.mem_map_of_mem hf)) (c.mulM rot) ?_
      simp only [Facet.corners, List.mem_cons, List.not_mem_nil, or_false] at hc
      rcases hc with rfl | rfl | rfl <;> simp [rotFacet]
    have at2 : ∀ {g : V2 ℝ → ℝ} {z : ℝ}, (∃ q ∈ ((kept.map (fun f => f.val.seenIn r)).flatMap Tri.corners).map V3.xy, g q = z) →
        ∃ c, Q c ∧ g (c.val.mulM r).xy = z := by
      rintro g z ⟨q, hq, rfl⟩
      obtain ⟨f, hf, c, hc, rfl⟩ := (hex q).1 hq
      exact ⟨c, ⟨f, hf, hc⟩, rfl⟩
    have bnd : ∀ c, Q c → lo.x ≤ (c.val.mulM r).x ∧ (c.val.mulM r).x ≤ hi.x ∧ lo.y ≤ (c.val.mulM r).y ∧ (c.val.mulM r).y ≤ hi.y := by
      rintro c ⟨f, hf, hc⟩
      exact hbox.1 _ ((hex _).2 ⟨f, hf, c, hc, rfl⟩)
    obtain ⟨-, bx1, bx2, by1, by2⟩ := hbox.2 |> fun h => And.intro trivial h
    have n1 : Fl.Near proj.limits.o.x lo.x (2 ^ n / 2 ^ 38) := near_min nx (at1 (g := V3.x) i2) (fun q hq => (lim q hq).1) (at2 (g := V2.x) bx1) (fun q hq => (bnd q hq).1)
    have n2 : Fl.Near proj.limits.o.y lo.y (2 ^ n / 2 ^ 38) := near_min ny (at1 (g := V3.y) i3) (fun q hq => (lim q hq).2.1) (at2 (g := V2.y) by1) (fun q hq => (bnd q hq).2.2.1)
    have n3 : Fl.Near proj.limits.t.x hi.x (2 ^ n / 2 ^ 38) := near_max nx (at1 (g := V3.x) i4) (fun q hq => (lim q hq).2.2.1) (at2 (g := V2.x) bx2) (fun q hq => (bnd q hq).2.1)
    have n4 : Fl.Near proj.limits.t.y hi.y (2 ^ n / 2 ^ 38) := near_max ny (at1 (g := V3.y) i5) (fun q hq => (lim q hq).2.2.2) (at2 (g := V2.y) by2) (fun q hq => (bnd q hq).2.2.2)
    have wi : ∀ c, Q c → |(c.val.mulM r).x| ≤ 3 * 2 ^ n ∧ |(c.val.mulM r).y| ≤ 3 * 2 ^ n := fun c ⟨f, hf, hc⟩ =>
      ⟨(k5 f hf c hc).2.1, (k5 f hf c hc).2.2.1⟩
    have w1 : |lo.x| ≤ 3 * 2 ^ n := by obtain ⟨c, hc, e⟩ := at2 (g := V2.x) bx1; rw [← e]; exact (wi c hc).1
    have w2 : |lo.y| ≤ 3 * 2 ^ n := by obtain ⟨c, hc, e⟩ := at2 (g := V2.y) by1; rw [← e]; exact (wi c hc).2
    have w3 : |hi.x| ≤ 3 * 2 ^ n := by obtain ⟨c, hc, e⟩ := at2 (g := V2.x) bx2; rw [← e]; exact (wi c hc).1
    have w4 : |hi.y| ≤ 3 * 2 ^ n := by obtain ⟨c, hc, e⟩ := at2 (g := V2.y) by2; rw [← e]; exact (wi c hc).2
    have px : |p.x| ≤ |p.x| + |p.y| := by linarith [abs_nonneg p.y]
    have py : |p.y| ≤ |p.x| + |p.y| := by linarith [abs_nonneg p.x]
    have o1 := centre_near hR hpm n1 n3 w1 w3 p2.1 px
    have o2 := centre_near hR hpm n2 n4 w2 w4 p2.2 py
    obtain ⟨ox, ex, ox2⟩ := o1
    obtain ⟨oy, ey, oy2⟩ := o2
    have hoff : projOffset loc proj.limits (projScale (a, b)) = ⟨(Ext.fin ox : Ext ℝ), (Ext.fin oy : Ext ℝ)⟩ := by
      rw [hk]
      exact congrArg₂ V2.mk ex ey
    have hMk : 0 ≤ 2 ^ n * |k| := mul_nonneg (by positivity) (abs_nonneg _)
    have hP := hpm.loc0
    have bound : ∀ {o q a b : ℝ}, |o - (q - (a + b) / 2 * k)| ≤ (2 ^ n * |k| + (|p.x| + |p.y|) + 1) / 2 ^ 35 → |q| ≤ |p.x| + |p.y| → |a| ≤ 3 * 2 ^ n →
        |b| ≤ 3 * 2 ^ n → |o| ≤ 4 * (2 ^ n * |k|) + 2 * (|p.x| + |p.y|) + 1 := by
      intro o q a b h1 h2 h3 h4
      have t1 := abs_add_le (o - (q - (a + b) / 2 * k)) (q - (a + b) / 2 * k)
      rw [sub_add_cancel] at t1
      have t2 := abs_sub q ((a + b) / 2 * k)
      have t3 : |(a + b) / 2 * k| ≤ 3 * (2 ^ n * |k|) := by
        have : |(a + b) / 2| ≤ 3 * 2 ^ n := by
          have := abs_add_le a b
          rw [abs_div]; norm_num; linarith
        rw [abs_mul]; nlinarith [abs_nonneg k]
      norm_num at h1
      linarith
    refine ⟨(a, b), rot, loc, file, proj, ls, r, kept, k, p, ⟨ox, oy⟩, hd, hvb, hbd, r1, r2, r3, k3, k1, k2, k4, k5, k6,
      ⟨r, a, b, r1, r2, hseen, hd.scale, hk2, p1, fun _ => ⟨lo, hi, hbox, ?_, ?_⟩⟩, hpm, hk, fun _ => ⟨hoff, bound ox2 px w1 w3, bound oy2 py w2 w4⟩⟩
    · simp only [V2.moved]
      rw [show (lo.x + hi.x) / 2 * k + ox - p.x = ox - (p.x - (lo.x + hi.x) / 2 * k) by ring]
      exact ox2
    · simp only [V2.moved]
      rw [show (lo.y + hi.y) / 2 * k + oy - p.y = oy - (p.y - (lo.y + hi.y) / 2 * k) by ring]
      exact oy2

end S2P
