import Verif.Lemmas.SpanDraw
import Verif.Lemmas.SpanMeans
import Verif.Props.Solid

set_option linter.unusedSectionVars false
set_option linter.unusedVariables false
set_option linter.unusedSimpArgs false

/-! # C85: hidden lines are left out and the others drawn, in spite of rounding -/

namespace S2P

section
variable (I : IntRounding) (range64 range32 : ℚ → Bool)

/-- **C85.** In IEEE 754 double arithmetic, whatever the direction of rounding: the lines of a drawing that succeeds are those of the model, then those of the
dimensions.  Every point in view of an edge of the model is in a line that shows a part of that edge.  Every line of the model shows a part of an edge that no
triangle hides, but for 2^-10 of the edge's length at the ends of the part.  Lines are at the scale and the place asked for; the error is 2^-16 times the size
of the drawing.  The corners of the model are of size at most 2^n. -/
theorem C85_lines (E : Env (Fl (binary64 I range64 range32))) (hS : SortOK E.sorter) (hJ : E.junkM = ⟨V3.zero, V3.zero, V3.zero⟩)
    (stl : Models (Fl (binary64 I range64 range32))) {n : ℕ} (hn : n ≤ 40) (hM : stl.Bd n) (name : Str)
    (ms : List (Meta (Fl (binary64 I range64 range32)))) (hf : ∀ m ∈ ms, m.val.LocBd) (hv : TameView ms)
    (hs : TameScale ms) (dims : List (DimN (Fl (binary64 I range64 range32)))) (line : Nat) (c) (h : content E stl (.draw name ms dims line) = .ok c)
    (hc : c.1 = true) :
    ∃ file r ts k p off own rest, (∃ e, stl.find? (fun e => decide (e.1 = name)) = some e ∧ e.2 = some file) ∧ AskedView ms r ∧ IsRotation r ∧
      NearlySeen r file ts (1 / 2 ^ 37) ∧ NearlyProjects file ms ts k p off (inkError (2 ^ n) k p) ∧
      c.2.1.lines = own ++ rest ∧ (dims = [] → rest = []) ∧
      (SaneNormals file → ShowsView (1 / 2 ^ 37) (2 ^ n) r (file.facets.map Facet.val) k off ((2 ^ n * |k| + (|p.x| + |p.y|) + 1) / 2 ^ 16) own) := by
  have hR := binary64_accurate I range64 range32
  obtain ⟨file, r, kept, k, p, off, own, rest, h1, h2, h3, h4, h5, h6, h7, h8, h9⟩ := draw_spans hR E hS hJ stl hn hM name ms hf hv hs dims line c h hc
  refine ⟨file, r, kept, k, p, off, own, rest, h1, h2, h3, h4, h5, h7, h8, fun hsn => ?_⟩
  obtain ⟨k1, k2⟩ := h9 _ (1 / 2 ^ 37) (file.facets.map Facet.val) near_oneToOne (by norm_num) (fun rot hm => by
    rw [List.forall₂_map_right_iff, List.forall₂_same]
    exact fun f hf => turned_ok hR hn h6 hsn h3 hm hf)
  exact ⟨k1, k2⟩

/-- **C85**, of a drawing: if it succeeds and the text of the model describes the triangles `us`, then its lines are, hidden lines left out, those of that body. -/
theorem C85_body (E : Env (Fl (binary64 I range64 range32))) (hS : SortOK E.sorter) (hJ : E.junkM = ⟨V3.zero, V3.zero, V3.zero⟩)
    (stl : Models (Fl (binary64 I range64 range32))) {n : ℕ} (hn : n ≤ 40) (hM : stl.Bd n) (name : Str)
    (ms : List (Meta (Fl (binary64 I range64 range32)))) (hf : ∀ m ∈ ms, m.val.LocBd) (hv : TameView ms)
    (hs : TameScale ms) (dims : List (DimN (Fl (binary64 I range64 range32)))) (line : Nat) (c) (h : content E stl (.draw name ms dims line) = .ok c)
    (hc : c.1 = true) :
    ∃ file r ts k p off own rest, (∃ e, stl.find? (fun e => decide (e.1 = name)) = some e ∧ e.2 = some file) ∧ AskedView ms r ∧ IsRotation r ∧
      NearlySeen r file ts (1 / 2 ^ 37) ∧ NearlyProjects file ms ts k p off (inkError (2 ^ n) k p) ∧
      c.2.1.lines = own ++ rest ∧ (dims = [] → rest = []) ∧
      ∀ text us, make text = .ok (some file) → Describes (2 ^ n) text us →
        ShowsView (1 / 2 ^ 20) (2 ^ n) r us k off ((2 ^ n * |k| + (|p.x| + |p.y|) + 1) / 2 ^ 16) own := by
  have hR := binary64_accurate I range64 range32
  obtain ⟨file, r, kept, k, p, off, own, rest, h1, h2, h3, h4, h5, h6, h7, h8, h9⟩ := draw_spans hR E hS hJ stl hn hM name ms hf hv hs dims line c h hc
  refine ⟨file, r, kept, k, p, off, own, rest, h1, h2, h3, h4, h5, h7, h8, fun text us ht hd => ?_⟩
  obtain ⟨k1, k2⟩ := h9 _ (1 / 2 ^ 20) us readAs_oneToOne le_rfl (fun rot hm => by
    have hst := described_stored hR ⟨one_le_pow₀ (by norm_num), pow_le_pow_right₀ (by norm_num) hn⟩ hd ht
    rw [List.forall₂_iff_get] at hst ⊢
    exact ⟨hst.1, fun i g1 g2 => turned_stored hR hn h3 hm (h6 _ (List.get_mem _ _)) (hst.2 i g1 g2)⟩)
  exact ⟨k1, k2⟩

/-- **C85**, of a run: if a conversion succeeds, the output is written from pages that have, for each drawing whose model file describes a body, the lines of
this body, hidden lines left out. -/
theorem C85_run (E : Env (Fl (binary64 I range64 range32))) (hS : SortOK E.sorter) (hJ : E.junkM = ⟨V3.zero, V3.zero, V3.zero⟩)
    (w : World) (src script : Str) {n : ℕ} (hn : n ≤ 40) (r : RunRes) (h : scriptToPS E w src script = .ok r) (hok : r.ok = true)
    (hw : ∀ doc : Doc (Fl (binary64 I range64 range32)), parse script = .ok (some doc) → SaneModels n E.loadPath w doc.models)
    (hd : ∀ doc : Doc (Fl (binary64 I range64 range32)), parse script = .ok (some doc) → ∀ pg ∈ doc.pages, ∀ name ms dims line,
      Drawable.draw name ms dims line ∈ pg.draws → TameView ms ∧ TameScale ms) :
    ∃ (doc : Doc (Fl (binary64 I range64 range32))) (outs : List (OutPage (Fl (binary64 I range64 range32)))),
      parse script = .ok (some doc) ∧ r.out = renderPages E src outs ∧
      List.Forall₂ (fun pg o => ∀ name ms dims line, Drawable.draw name ms dims line ∈ pg.draws →
        ∃ m ∈ doc.models, ∃ text ps file v ts k p off own, m.name = name ∧ Places E.loadPath m.source ps ∧ FoundAt w ps text ∧ make text = .ok (some file) ∧
          AskedView ms v ∧ IsRotation v ∧ NearlySeen v file ts (1 / 2 ^ 37) ∧ NearlyProjects file ms ts k p off (inkError (2 ^ n) k p) ∧
          own ⊆ o.lines ∧
          ∀ us, Describes (2 ^ n) text us → ShowsView (1 / 2 ^ 20) (2 ^ n) v us k off ((2 ^ n * |k| + (|p.x| + |p.y|) + 1) / 2 ^ 16) own) doc.pages outs := by
  obtain ⟨doc, fs, outs, hp, -, hl, hf, ho⟩ := (C48_all_or_nothing E w src script r h).2.1 hok
  refine ⟨doc, outs, hp, ho, ?_⟩
  have hM : Models.Bd n (List.zipWith (fun (m : ModelN) f => (m.name, some f)) doc.models fs) := by
    have hw' := hw doc hp
    clear * - hl hw' hn
    generalize doc.models = dm at *
    induction hl with
    | nil => intro e he; simp at he
    | @cons m f ms fs hmf _ ih =>
      intro e he
      simp only [List.zipWith_cons_cons, List.mem_cons] at he
      rcases he with rfl | he
      · obtain ⟨ps, x, p1, p2, hx⟩ := hmf
        exact ⟨f, rfl, sane_bd (by omega) (hw' m (by simp) ps x p1 p2) f hx⟩
      · exact ih (fun m' hm' => hw' m' (by simp [hm'])) e he
  have hlo := parse_locBd script doc hp
  have hd' := hd doc hp
  clear ho hp
  generalize hpg : doc.pages = pgs at *
  clear hpg
  induction hf with
  | nil => exact .nil
  | @cons pg o pgs outs ho _ ih =>
    refine .cons ?_ (ih (fun pg hpg => hlo pg (List.mem_cons_of_mem _ hpg)) (fun pg hpg => hd' pg (List.mem_cons_of_mem _ hpg)))
    obtain ⟨g, hg, gok, gp⟩ := ho
    obtain ⟨cs, k1, ⟨t, -, k2⟩, k3⟩ := C58_page E _ pg g hg
    have hall := (k3.1 gok).2.2
    rw [gp] at k2
    injection k2 with k2 _
    intro name ms dims line hdm
    obtain ⟨hv, hs⟩ := hd' pg List.mem_cons_self name ms dims line hdm
    obtain ⟨i, hi, hdi⟩ := List.getElem_of_mem hdm
    have hi2 : i < cs.length := by rw [← k1.length_eq]; exact hi
    have hdc := (List.forall₂_iff_get.1 k1).2 i hi hi2
    simp only [List.get_eq_getElem] at hdc
    rw [hdi] at hdc
    have hcm : cs[i] ∈ cs := List.getElem_mem _
    obtain ⟨file, v, ts, k, p, off, own, rest, ⟨en, e1, e2⟩, d1, d2, d3, d4, d5, d6, d7⟩ :=
      C85_body I range64 range32 E hS hJ _ hn hM name ms (hlo pg List.mem_cons_self _ hdm) hv hs dims line _ hdc (hall _ hcm)
    obtain ⟨m, m1, m2, ps, text, q1, q2, q3⟩ := find_loads E.loadPath w _ _ hl name en e1 file e2
    refine ⟨m, m1, text, ps, file, v, ts, k, p, off, own, m2, q1, q2, q3, d1, d2, d3, d4, ?_, fun us hus => d7 text us q3 hus⟩
    intro l hl
    rw [k2]
    exact List.mem_append_left _ ((mem_sum_lines _).2 ⟨_, List.mem_map_of_mem hcm, by rw [d5]; simp [hl]⟩)
end

/-! ## What the words mean -/

/-- the part that a triangle hides is the part that it is before -/
theorem C85_part {μ κ ζ ρ : ℝ} (hμ : 0 < μ) (hκ : 0 < κ) (hζ : 0 < ζ) (hρ : 0 < ρ) {a b : V3 ℝ} {t : Tri ℝ} (hf : t.Front) {s s' : ℝ}
    (h : HidesPart μ κ ζ ρ a b t s s') (u : ℝ) (h0 : 0 ≤ u) (h1 : u ≤ 1) :
    (s < u → u < s' → InsideTri t (edgeAt (a, b) u) ∧ StrictlyBehind t (edgeAt (a, b) u)) ∧
    (u < s ∨ s' < u → ¬ (InsideTri t (edgeAt (a, b) u) ∧ StrictlyBehind t (edgeAt (a, b) u))) := by
  rw [← before_means hf]
  exact ⟨fun k1 k2 => h.before hμ hκ hζ hρ hf.faces k1 k2, fun k => h.not_before hμ hκ hζ hρ hf.faces h0 h1 k⟩

/-- no triangle is before a point in view -/
theorem C85_in_view {δ M : ℝ} (hM : 0 < M) {r : M3 ℝ} {ts : List (Tri ℝ)} {a b : V3 ℝ} {σ : ℝ} (h : VisibleAt δ M r ts a b σ) {t : Tri ℝ} (ht : t ∈ ts)
    (hz : -δ < (t.n.mulM r).z) (hf : (t.seenIn r).Front) : ¬ (InsideTri (t.seenIn r) (edgeAt (a, b) σ) ∧ StrictlyBehind (t.seenIn r) (edgeAt (a, b) σ)) := by
  rw [← before_means hf]
  exact h.not_before hM ht hz hf.faces

/-- the triangles that a text describes are, where they face the viewer, such triangles -/
theorem C85_front {M : ℝ} (hM : 0 < M) {text : Str} {us : List (Tri ℝ)} (h : Describes M text us) {t : Tri ℝ} (ht : t ∈ us) {r : M3 ℝ} (hr : IsRotation r)
    (hz : 0 < (t.n.mulM r).z) : (t.seenIn r).Front := described_front hM h ht hr hz

/-! ## The premises occur -/

theorem two_part : HidesPart ((2 ^ 2) ^ 2 / 2 ^ 30) ((2 ^ 2) ^ 2 / 2 ^ 14) (2 ^ 2 / 2 ^ 12) (1 / 2 ^ 15) ⟨3, -2, -2⟩ ⟨2, 1, -2⟩
    (⟨⟨0, 0, 1⟩, ⟨0, 0, 0⟩, ⟨4, 0, 0⟩, ⟨0, 3, 0⟩, 0⟩ : Tri ℝ) (2 / 3) 1 := by
  have hp : PassesUnder ((2 ^ 2) ^ 2 / 2 ^ 14) (2 ^ 2 / 2 ^ 12) (1 / 2 ^ 15) (⟨3, -2, -2⟩ : V3 ℝ) ⟨2, 1, -2⟩ ⟨0, 0, 0⟩ ⟨4, 0, 0⟩ (2 / 3) := by
    refine ⟨?_, by norm_num, by norm_num, 7 / 12, by norm_num, by norm_num, ?_, ?_⟩
    · have : slant (⟨3, -2, -2⟩ : V3 ℝ) ⟨2, 1, -2⟩ ⟨0, 0, 0⟩ ⟨4, 0, 0⟩ = -12 := by simp [slant]; norm_num
      rw [this]; norm_num
    · simp [edgeAt, V3.smul, V3.xy]; norm_num
    · simp [edgeAt, V3.smul]; norm_num
  refine ⟨by norm_num, Or.inr ⟨_, _, Or.inl rfl, hp⟩, Or.inl ⟨rfl, ?_⟩, Or.inl ?_, Or.inr rfl, ?_⟩
  · simp [BehindBy, V3.dot, leftOf]; norm_num
  · right; left; simp [leftOf]; norm_num
  · intro c d h
    simp only [Tri.HasSide, Prod.mk.injEq] at h
    rcases h with ⟨rfl, rfl⟩ | ⟨rfl, rfl⟩ | ⟨rfl, rfl⟩ | ⟨rfl, rfl⟩ | ⟨rfl, rfl⟩ | ⟨rfl, rfl⟩
    · exact Or.inr (Or.inr (Or.inr ⟨_, le_rfl, by norm_num, hp⟩))
    · left; right; right; left; simp [leftOf]; norm_num
    · left; right; right; left; simp [leftOf]; norm_num
    · exact Or.inr (Or.inr (Or.inr ⟨_, le_rfl, by norm_num, hp.flip⟩))
    · left; right; right; right; simp [leftOf]; norm_num
    · left; right; right; right; simp [leftOf]; norm_num

/-- Of one side of the lower triangle the last third is hidden by the upper one; the point at one third is in view.  A line that shows this side may not
reach into the last third by more than 2^-10. -/
example : ∃ us, Describes (2 ^ 2) twoText us ∧ (∀ t ∈ us, (t.seenIn ⟨⟨1, 0, 0⟩, ⟨0, 1, 0⟩, ⟨0, 0, 1⟩⟩).Front) ∧
    VisibleAt (1 / 2 ^ 20) (2 ^ 2) ⟨⟨1, 0, 0⟩, ⟨0, 1, 0⟩, ⟨0, 0, 1⟩⟩ us ⟨3, -2, -2⟩ ⟨2, 1, -2⟩ (1 / 3) ∧
    ∀ x y, x ≤ 1 / 3 → Unhidden (1 / 2 ^ 20) (2 ^ 2) ⟨⟨1, 0, 0⟩, ⟨0, 1, 0⟩, ⟨0, 0, 1⟩⟩ us ⟨3, -2, -2⟩ ⟨2, 1, -2⟩ x y → y ≤ 2 / 3 + 1 / 2 ^ 10 := by
  have e1 : (⟨⟨0, 0, 1⟩, ⟨0, 0, 0⟩, ⟨4, 0, 0⟩, ⟨0, 3, 0⟩, 0⟩ : Tri ℝ).seenIn ⟨⟨1, 0, 0⟩, ⟨0, 1, 0⟩, ⟨0, 0, 1⟩⟩ = ⟨⟨0, 0, 1⟩, ⟨0, 0, 0⟩, ⟨4, 0, 0⟩, ⟨0, 3, 0⟩, 0⟩ := by
    simp [Tri.seenIn, V3.mulM]
  have e2 : (⟨⟨0, 0, 1⟩, ⟨1, -2, -2⟩, ⟨3, -2, -2⟩, ⟨2, 1, -2⟩, -2⟩ : Tri ℝ).seenIn ⟨⟨1, 0, 0⟩, ⟨0, 1, 0⟩, ⟨0, 0, 1⟩⟩ =
      ⟨⟨0, 0, 1⟩, ⟨1, -2, -2⟩, ⟨3, -2, -2⟩, ⟨2, 1, -2⟩, -2⟩ := by
    simp [Tri.seenIn, V3.mulM]
  have far : FarApart (2 ^ 2 / 2 ^ 10) (⟨3, -2, -2⟩ : V3 ℝ) ⟨2, 1, -2⟩ := by unfold FarApart; norm_num
  refine ⟨_, two_described, ?_, ⟨⟨_, List.mem_cons_of_mem _ List.mem_cons_self, ?_, ?_⟩, ?_, ?_, far, by norm_num, by norm_num⟩, ?_⟩
  · intro t ht
    have hr : IsRotation (⟨⟨1, 0, 0⟩, ⟨0, 1, 0⟩, ⟨0, 0, 1⟩⟩ : M3 ℝ) := by
      refine ⟨?_, ?_⟩
      · intro u v; simp [V3.mulM]
      · simp [M3.det, V3.dot, V3.cross]
    refine C85_front (by norm_num) two_described ht hr ?_
    simp only [List.mem_cons, List.not_mem_nil, or_false] at ht
    rcases ht with rfl | rfl <;> simp [V3.mulM]
  · simp [V3.mulM]; norm_num
  · rw [e2]; simp [Tri.HasSide]
  · simp only [List.pairwise_cons, List.mem_singleton, forall_eq, List.not_mem_nil, false_implies, implies_true, List.Pairwise.nil, and_true]
    intro _ _ h
    rw [e1] at h
    simp [Tri.HasSide] at h
  · intro f hf _
    simp only [List.mem_cons, List.not_mem_nil, or_false] at hf
    rcases hf with rfl | rfl
    · rw [e1]; exact Or.inr ⟨_, _, two_part, Or.inl (by norm_num)⟩
    · rw [e2]; left; left; simp [Tri.HasSide]
  · rintro x y hx ⟨-, h⟩
    rcases h far _ List.mem_cons_self (by simp [V3.mulM]; norm_num) (2 / 3) 1 (by rw [e1]; exact two_part) with h | h
    · norm_num at h; linarith
    · exact h

end S2P
