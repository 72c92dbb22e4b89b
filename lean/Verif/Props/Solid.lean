import Verif.Lemmas.SolidText
import Verif.Props.Accuracy

set_option linter.unusedSectionVars false
set_option linter.unusedVariables false
set_option linter.unusedSimpArgs false

/-! # C84: what a model file describes is what is drawn, in spite of rounding -/

namespace S2P

section
variable (I : IntRounding) (range64 range32 : ℚ → Bool)

/-- **C84.** In IEEE 754 double arithmetic, whatever the direction of rounding: if a model file is accepted, its facets are the triangles that its text describes,
in that order, with corners in the order that fits the declared normal, and with normals and planes that are nearly the true ones. -/
theorem C84_facets {n : ℕ} (hn : n ≤ 40) (text : Str) (ts : List (Tri ℝ)) (h : Describes (2 ^ n) text ts)
    (file : STLFile (Fl (binary64 I range64 range32))) (hf : make text = .ok (some file)) : List.Forall₂ (FacetFor (2 ^ n)) file.facets ts := by
  have hR := binary64_accurate I range64 range32
  have h1 : (1 : ℝ) ≤ 2 ^ n := one_le_pow₀ (by norm_num)
  have hM : Small ((2 : ℝ) ^ n) := ⟨h1, pow_le_pow_right₀ (by norm_num) hn⟩
  have top : (2 : ℝ) ^ n ≤ 2 ^ 1000 := pow_le_pow_right₀ (by norm_num) (by omega)
  refine (described_stored hR hM h hf).imp fun f t k => ?_
  have go : ∀ z ∈ pairs f t, V3.NearTo z.1 z.2 (2 ^ n / 2 ^ 51) := by
    intro z hz
    obtain ⟨⟨q, hq, e⟩, w⟩ := k.corners z hz
    have := reads_near hR h1 top (by rw [e]; exact w) hq
    rwa [e] at this
  exact ⟨go (f.e0, t.a) (by simp [pairs]), go (f.e1, t.b) (by simp [pairs]), go (f.e2, t.c) (by simp [pairs]), k.normal, k.dist⟩

/-- **C84**, of a drawing: if it succeeds and the text of the model describes the triangles `us`, then for each edge of that body that is in full view there is a
line from end to end of the edge, at the scale and the place asked for. -/
theorem C84_edges (E : Env (Fl (binary64 I range64 range32))) (hS : SortOK E.sorter) (hJ : E.junkM = ⟨V3.zero, V3.zero, V3.zero⟩)
    (stl : Models (Fl (binary64 I range64 range32))) {n : ℕ} (hn : n ≤ 40) (hM : stl.Bd n) (name : Str)
    (ms : List (Meta (Fl (binary64 I range64 range32)))) (hf : ∀ m ∈ ms, m.val.LocBd) (hv : TameView ms)
    (hs : TameScale ms) (dims : List (DimN (Fl (binary64 I range64 range32)))) (line : Nat) (c) (h : content E stl (.draw name ms dims line) = .ok c)
    (hc : c.1 = true) :
    ∃ file r ts k p off, (∃ e, stl.find? (fun e => decide (e.1 = name)) = some e ∧ e.2 = some file) ∧ AskedView ms r ∧ IsRotation r ∧
      NearlySeen r file ts (1 / 2 ^ 37) ∧ NearlyProjects file ms ts k p off (inkError (2 ^ n) k p) ∧
      ∀ text us, make text = .ok (some file) → Describes (2 ^ n) text us → ∀ a b, InFullView (1 / 2 ^ 20) (2 ^ n) r us a b →
        ∃ l ∈ c.2.1.lines, LineJoins ((2 ^ n * |k| + (|p.x| + |p.y|) + 1) / 2 ^ 16) (a.xy.moved k off) (b.xy.moved k off) l := by
  have hR := binary64_accurate I range64 range32
  obtain ⟨file, r, kept, k, p, off, h1, h2, h3, h4, h5, h6, h7⟩ := draw_clear hR E hS hJ stl hn hM name ms hf hv hs dims line c h hc
  refine ⟨file, r, kept, k, p, off, h1, h2, h3, h4, h5, fun text us ht hd a b hab => h7 _ _ _ readAs_oneToOne le_rfl (fun rot hm => ?_) a b hab⟩
  have hst := described_stored hR ⟨one_le_pow₀ (by norm_num), pow_le_pow_right₀ (by norm_num) hn⟩ hd ht
  rw [List.forall₂_iff_get] at hst ⊢
  refine ⟨hst.1, fun i g1 g2 => turned_stored hR hn h3 hm (h6 _ (List.get_mem _ _)) (hst.2 i g1 g2)⟩

/-- **C84**, of a run: if a conversion succeeds, the output is written from pages that have, for each drawing whose model file describes a body and for each edge of
this body in full view, a line from end to end of the edge. -/
theorem C84_run (E : Env (Fl (binary64 I range64 range32))) (hS : SortOK E.sorter) (hJ : E.junkM = ⟨V3.zero, V3.zero, V3.zero⟩)
    (w : World) (src script : Str) {n : ℕ} (hn : n ≤ 40) (r : RunRes) (h : scriptToPS E w src script = .ok r) (hok : r.ok = true)
    (hw : ∀ doc : Doc (Fl (binary64 I range64 range32)), parse script = .ok (some doc) → SaneModels n E.loadPath w doc.models)
    (hd : ∀ doc : Doc (Fl (binary64 I range64 range32)), parse script = .ok (some doc) → ∀ pg ∈ doc.pages, ∀ name ms dims line,
      Drawable.draw name ms dims line ∈ pg.draws → TameView ms ∧ TameScale ms) :
    ∃ (doc : Doc (Fl (binary64 I range64 range32))) (outs : List (OutPage (Fl (binary64 I range64 range32)))),
      parse script = .ok (some doc) ∧ r.out = renderPages E src outs ∧
      List.Forall₂ (fun pg o => ∀ name ms dims line, Drawable.draw name ms dims line ∈ pg.draws →
        ∃ m ∈ doc.models, ∃ text ps file v ts k p off, m.name = name ∧ Places E.loadPath m.source ps ∧ FoundAt w ps text ∧ make text = .ok (some file) ∧
          AskedView ms v ∧ IsRotation v ∧ NearlySeen v file ts (1 / 2 ^ 37) ∧ NearlyProjects file ms ts k p off (inkError (2 ^ n) k p) ∧
          ∀ us, Describes (2 ^ n) text us → ∀ a b, InFullView (1 / 2 ^ 20) (2 ^ n) v us a b →
            ∃ l ∈ o.lines, LineJoins ((2 ^ n * |k| + (|p.x| + |p.y|) + 1) / 2 ^ 16) (a.xy.moved k off) (b.xy.moved k off) l) doc.pages outs := by
  obtain ⟨doc, fs, outs, hp, -, hl, hf, ho⟩ := (C48_all_or_nothing E w src script r h).2.1 hok
  refine ⟨doc, outs, hp, ho, ?_⟩
  have hM : Models.Bd n (List.zipWith (fun (m : ModelN) f => (m.name, some f)) doc.models fs) := by
    have hw' := hw doc hp
    clear * - hl hw' hn
    generalize doc.models = dm at *
    induction hl with
    | nil => intro e he; simp at he
    | @cons m f ms fs hmf _ ih =>
      intro e he
      simp only [List.zipWith_cons_cons, List.mem_cons] at he
      rcases he with rfl | he
      · obtain ⟨ps, x, p1, p2, hx⟩ := hmf
        exact ⟨f, rfl, sane_bd (by omega) (hw' m (by simp) ps x p1 p2) f hx⟩
      · exact ih (fun m' hm' => hw' m' (by simp [hm'])) e he
  have hlo := parse_locBd script doc hp
  have hd' := hd doc hp
  clear ho hp
  generalize hpg : doc.pages = pgs at *
  clear hpg
  induction hf with
  | nil => exact .nil
  | @cons pg o pgs outs ho _ ih =>
    refine .cons ?_ (ih (fun pg hpg => hlo pg (List.mem_cons_of_mem _ hpg)) (fun pg hpg => hd' pg (List.mem_cons_of_mem _ hpg)))
    obtain ⟨g, hg, gok, gp⟩ := ho
    obtain ⟨cs, k1, ⟨t, -, k2⟩, k3⟩ := C58_page E _ pg g hg
    have hall := (k3.1 gok).2.2
    rw [gp] at k2
    injection k2 with k2 _
    intro name ms dims line hdm
    obtain ⟨hv, hs⟩ := hd' pg List.mem_cons_self name ms dims line hdm
    obtain ⟨i, hi, hdi⟩ := List.getElem_of_mem hdm
    have hi2 : i < cs.length := by rw [← k1.length_eq]; exact hi
    have hdc := (List.forall₂_iff_get.1 k1).2 i hi hi2
    simp only [List.get_eq_getElem] at hdc
    rw [hdi] at hdc
    have hcm : cs[i] ∈ cs := List.getElem_mem _
    obtain ⟨file, v, ts, k, p, off, ⟨en, e1, e2⟩, d1, d2, d3, d4, d5⟩ :=
      C84_edges I range64 range32 E hS hJ _ hn hM name ms (hlo pg List.mem_cons_self _ hdm) hv hs dims line _ hdc (hall _ hcm)
    obtain ⟨m, m1, m2, ps, text, q1, q2, q3⟩ := find_loads E.loadPath w _ _ hl name en e1 file e2
    refine ⟨m, m1, text, ps, file, v, ts, k, p, off, m2, q1, q2, q3, d1, d2, d3, d4, ?_⟩
    intro us hus a b hab
    obtain ⟨l, hl, hln⟩ := d5 text us q3 hus a b hab
    refine ⟨l, ?_, hln⟩
    rw [k2]
    exact List.mem_append_left _ ((mem_sum_lines _).2 ⟨_, List.mem_map_of_mem hcm, hl⟩)
end

/-! ## The premises occur -/

/-- two triangles, part of the lower one below the other; its corners are given clockwise -/
def twoText : Str := c!"solid two\nfacet normal 0 0 1\nouter loop\nvertex 0 0 0\nvertex 4 0 0\nvertex 0 3 0\nendloop\nendfacet\nfacet normal 0 0 1.0\nouter loop\nvertex 2 1 -2\nvertex 3e0 -2 -2\nvertex 1 -2 -2\nendloop\nendfacet\nendsolid two\n"

theorem two_described : Describes (2 ^ 2) twoText
    [⟨⟨0, 0, 1⟩, ⟨0, 0, 0⟩, ⟨4, 0, 0⟩, ⟨0, 3, 0⟩, 0⟩, ⟨⟨0, 0, 1⟩, ⟨1, -2, -2⟩, ⟨3, -2, -2⟩, ⟨2, 1, -2⟩, -2⟩] := by
  refine ⟨getLines twoText, (getLines twoText).filterMap classify, linesOf_getLines _, ?_, ?_⟩
  · have h : ∀ l ∈ getLines twoText, (classify (α := Ext ℚ) l).isSome = true := by decide +kernel
    generalize getLines twoText = ls at h
    induction ls with
    | nil => exact .nil
    | cons l ls ih =>
      obtain ⟨r, hr⟩ := Option.isSome_iff_exists.1 (h l (by simp))
      rw [List.filterMap_cons, hr]
      exact .cons ((classify_iff l r).1 hr) (ih (fun l hl => h l (by simp [hl])))
  · have e : blocks (α := Ext ℚ) ((getLines twoText).filterMap classify) =
        [(V3.fin ⟨0, 0, 1⟩, [V3.fin ⟨0, 0, 0⟩, V3.fin ⟨4, 0, 0⟩, V3.fin ⟨0, 3, 0⟩]), (V3.fin ⟨0, 0, 1⟩, [V3.fin ⟨2, 1, -2⟩, V3.fin ⟨3, -2, -2⟩, V3.fin ⟨1, -2, -2⟩])] := by
      decide +kernel
    rw [e]
    have l1 : len3 (⟨0, 0, 12⟩ : V3 ℝ) = 12 := by
      simp only [len3, V3.sqNorm, V3.dot]
      rw [show (0 ^ 2 + 0 ^ 2 + 12 ^ 2 : ℝ) = 12 ^ 2 by norm_num]
      exact Real.sqrt_sq (by norm_num)
    have l2 : len3 (⟨0, 0, -6⟩ : V3 ℝ) = 6 := by
      simp only [len3, V3.sqNorm, V3.dot]
      rw [show (0 ^ 2 + 0 ^ 2 + (-6) ^ 2 : ℝ) = 6 ^ 2 by norm_num]
      exact Real.sqrt_sq (by norm_num)
    have c1 : ((V3.real ⟨4, 0, 0⟩ - V3.real ⟨0, 0, 0⟩).cross (V3.real ⟨0, 3, 0⟩ - V3.real ⟨0, 0, 0⟩)) = (⟨0, 0, 12⟩ : V3 ℝ) := by
      ext <;> simp [V3.real, V3.cross] <;> norm_num
    have c2 : ((V3.real ⟨3, -2, -2⟩ - V3.real ⟨2, 1, -2⟩).cross (V3.real ⟨1, -2, -2⟩ - V3.real ⟨2, 1, -2⟩)) = (⟨0, 0, -6⟩ : V3 ℝ) := by
      ext <;> simp [V3.real, V3.cross] <;> norm_num
    have u1 : unitNormal (V3.real ⟨0, 0, 0⟩) (V3.real ⟨4, 0, 0⟩) (V3.real ⟨0, 3, 0⟩) = ⟨0, 0, 1⟩ := by
      unfold unitNormal; rw [c1, l1]; ext <;> simp [V3.sdiv]
    have u2 : unitNormal (V3.real ⟨2, 1, -2⟩) (V3.real ⟨3, -2, -2⟩) (V3.real ⟨1, -2, -2⟩) = ⟨0, 0, -1⟩ := by
      unfold unitNormal; rw [c2, l2]; ext <;> simp [V3.sdiv]
    refine .cons ⟨_, _, _, _, _, rfl, ⟨?_, ?_, ?_, ?_, ?_, ?_⟩, ?_⟩ (.cons ⟨_, _, _, _, _, rfl, ⟨?_, ?_, ?_, ?_, ?_, ?_⟩, ?_⟩ .nil)
    · simp [V3.Within, V3.real]
    · simp [V3.Within, V3.real]; norm_num
    · simp [V3.Within, V3.real]; norm_num
    · simp [V3.Within, V3.real]
    · rw [c1, l1]; norm_num
    · rw [u1]; simp [V3.real, V3.dot]; norm_num
    · unfold triOf; rw [u1]; simp [V3.real, V3.dot]
    · simp [V3.Within, V3.real]; norm_num
    · simp [V3.Within, V3.real]; norm_num
    · simp [V3.Within, V3.real]; norm_num
    · simp [V3.Within, V3.real]
    · rw [c2, l2]; norm_num
    · rw [u2]; simp [V3.real, V3.dot]; norm_num
    · unfold triOf
      rw [u2, if_pos (by simp [V3.real, V3.dot])]
      simp [V3.real, V3.dot]
      ext <;> simp

/-- the file is accepted, and the edge that passes over the lower triangle is in full view from above -/
example : (∃ s, make (α := Ext ℚ) twoText = .ok (some s)) ∧ ∃ us, Describes (2 ^ 2) twoText us ∧
    InFullView (1 / 2 ^ 20) (2 ^ 2) ⟨⟨1, 0, 0⟩, ⟨0, 1, 0⟩, ⟨0, 0, 1⟩⟩ us ⟨0, 0, 0⟩ ⟨4, 0, 0⟩ := by
  constructor
  · have : ((make (α := Ext ℚ) twoText).toOption.getD none).isSome = true := by decide +kernel
    cases h : make (α := Ext ℚ) twoText with
    | error e => rw [h] at this; simp [Except.toOption] at this
    | ok o =>
      rw [h] at this
      obtain ⟨s, hs⟩ := Option.isSome_iff_exists.1 this
      simp [Except.toOption] at hs
      exact ⟨s, by rw [hs]⟩
  · refine ⟨_, two_described, ?_⟩
    have e1 : (⟨⟨0, 0, 1⟩, ⟨0, 0, 0⟩, ⟨4, 0, 0⟩, ⟨0, 3, 0⟩, 0⟩ : Tri ℝ).seenIn ⟨⟨1, 0, 0⟩, ⟨0, 1, 0⟩, ⟨0, 0, 1⟩⟩ = ⟨⟨0, 0, 1⟩, ⟨0, 0, 0⟩, ⟨4, 0, 0⟩, ⟨0, 3, 0⟩, 0⟩ := by
      simp [Tri.seenIn, V3.mulM]
    have e2 : (⟨⟨0, 0, 1⟩, ⟨1, -2, -2⟩, ⟨3, -2, -2⟩, ⟨2, 1, -2⟩, -2⟩ : Tri ℝ).seenIn ⟨⟨1, 0, 0⟩, ⟨0, 1, 0⟩, ⟨0, 0, 1⟩⟩ =
        ⟨⟨0, 0, 1⟩, ⟨1, -2, -2⟩, ⟨3, -2, -2⟩, ⟨2, 1, -2⟩, -2⟩ := by
      simp [Tri.seenIn, V3.mulM]
    refine ⟨⟨_, List.mem_cons_self, ?_, ?_⟩, ?_, ?_, ?_⟩
    · simp [V3.mulM]; norm_num
    · rw [e1]; simp [Tri.HasSide]
    · simp only [List.pairwise_cons, List.mem_singleton, forall_eq, List.not_mem_nil, false_implies, implies_true, List.Pairwise.nil, and_true]
      intro _ _ _ h
      rw [e2] at h
      simp [Tri.HasSide] at h
    · intro f hf _
      simp only [List.mem_cons, List.not_mem_nil, or_false] at hf
      rcases hf with rfl | rfl
      · rw [e1]; left; simp [Tri.HasSide]
      · rw [e2]; right
        constructor
        · rintro p (rfl | rfl) <;> right <;> simp [NotBehind, V3.dot] <;> norm_num
        · intro c d h
          simp only [Tri.HasSide, Prod.mk.injEq] at h
          right
          rcases h with ⟨rfl, rfl⟩ | ⟨rfl, rfl⟩ | ⟨rfl, rfl⟩ | ⟨rfl, rfl⟩ | ⟨rfl, rfl⟩ | ⟨rfl, rfl⟩ <;> right <;> left <;>
            simp [Higher] <;> norm_num
    · unfold FarApart; norm_num

end S2P
