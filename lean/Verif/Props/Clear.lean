import Verif.Lemmas.ClearDraw
import Verif.Props.Accuracy

set_option linter.unusedSectionVars false
set_option linter.unusedVariables false
set_option linter.unusedSimpArgs false

/-! # C83: edges in full view are drawn, in spite of rounding -/

namespace S2P

section
variable (I : IntRounding) (range64 range32 : ℚ → Bool)

/-- **C83.** In IEEE 754 double arithmetic, whatever the direction of rounding: a drawing that succeeds has, for each edge that is in full view in the view
asked for, a line that runs from end to end of the edge, at the scale and the place asked for.  The error is 2^-16 times the size of the drawing.
The corners of the model are of size at most 2^n. -/
theorem C83_edges (E : Env (Fl (binary64 I range64 range32))) (hS : SortOK E.sorter) (hJ : E.junkM = ⟨V3.zero, V3.zero, V3.zero⟩)
    (stl : Models (Fl (binary64 I range64 range32))) {n : ℕ} (hn : n ≤ 40) (hM : stl.Bd n) (name : Str)
    (ms : List (Meta (Fl (binary64 I range64 range32)))) (hf : ∀ m ∈ ms, m.val.LocBd) (hv : TameView ms)
    (hs : TameScale ms) (dims : List (DimN (Fl (binary64 I range64 range32)))) (line : Nat) (c) (h : content E stl (.draw name ms dims line) = .ok c)
    (hc : c.1 = true) :
    ∃ file r ts k p off, (∃ e, stl.find? (fun e => decide (e.1 = name)) = some e ∧ e.2 = some file) ∧ AskedView ms r ∧ IsRotation r ∧
      NearlySeen r file ts (1 / 2 ^ 37) ∧ NearlyProjects file ms ts k p off (inkError (2 ^ n) k p) ∧
      (SaneNormals file → ∀ a b, InFullView (1 / 2 ^ 37) (2 ^ n) r (file.facets.map Facet.val) a b →
        ∃ l ∈ c.2.1.lines, LineJoins ((2 ^ n * |k| + (|p.x| + |p.y|) + 1) / 2 ^ 16) (a.xy.moved k off) (b.xy.moved k off) l) := by
  have hR := binary64_accurate I range64 range32
  obtain ⟨file, r, kept, k, p, off, h1, h2, h3, h4, h5, h6, h7⟩ := draw_clear hR E hS hJ stl hn hM name ms hf hv hs dims line c h hc
  refine ⟨file, r, kept, k, p, off, h1, h2, h3, h4, h5, fun hsn a b hab => h7 _ _ _ near_oneToOne (by norm_num) (fun rot hm => ?_) a b hab⟩
  rw [List.forall₂_map_right_iff, List.forall₂_same]
  exact fun f hf => turned_ok hR hn h6 hsn h3 hm hf

/-- **C83**, of a run: if a conversion succeeds, the output is written from pages that have, for each drawing and each edge of its model in full view, a line
from end to end of the edge. -/
theorem C83_run (E : Env (Fl (binary64 I range64 range32))) (hS : SortOK E.sorter) (hJ : E.junkM = ⟨V3.zero, V3.zero, V3.zero⟩)
    (w : World) (src script : Str) {n : ℕ} (hn : n ≤ 40) (r : RunRes) (h : scriptToPS E w src script = .ok r) (hok : r.ok = true)
    (hw : ∀ doc : Doc (Fl (binary64 I range64 range32)), parse script = .ok (some doc) → SaneModels n E.loadPath w doc.models)
    (hd : ∀ doc : Doc (Fl (binary64 I range64 range32)), parse script = .ok (some doc) → ∀ pg ∈ doc.pages, ∀ name ms dims line,
      Drawable.draw name ms dims line ∈ pg.draws → TameView ms ∧ TameScale ms) :
    ∃ (doc : Doc (Fl (binary64 I range64 range32))) (outs : List (OutPage (Fl (binary64 I range64 range32)))),
      parse script = .ok (some doc) ∧ r.out = renderPages E src outs ∧
      List.Forall₂ (fun pg o => ∀ name ms dims line, Drawable.draw name ms dims line ∈ pg.draws →
        ∃ m ∈ doc.models, ∃ file v ts k p off, m.name = name ∧ Loads E.loadPath w m file ∧ AskedView ms v ∧ IsRotation v ∧
          NearlySeen v file ts (1 / 2 ^ 37) ∧ NearlyProjects file ms ts k p off (inkError (2 ^ n) k p) ∧
          (SaneNormals file → ∀ a b, InFullView (1 / 2 ^ 37) (2 ^ n) v (file.facets.map Facet.val) a b →
            ∃ l ∈ o.lines, LineJoins ((2 ^ n * |k| + (|p.x| + |p.y|) + 1) / 2 ^ 16) (a.xy.moved k off) (b.xy.moved k off) l)) doc.pages outs := by
  obtain ⟨doc, fs, outs, hp, -, hl, hf, ho⟩ := (C48_all_or_nothing E w src script r h).2.1 hok
  refine ⟨doc, outs, hp, ho, ?_⟩
  have hM : Models.Bd n (List.zipWith (fun (m : ModelN) f => (m.name, some f)) doc.models fs) := by
    have hw' := hw doc hp
    clear * - hl hw' hn
    generalize doc.models = dm at *
    induction hl with
    | nil => intro e he; simp at he
    | @cons m f ms fs hmf _ ih =>
      intro e he
      simp only [List.zipWith_cons_cons, List.mem_cons] at he
      rcases he with rfl | he
      · obtain ⟨ps, x, p1, p2, hx⟩ := hmf
        exact ⟨f, rfl, sane_bd (by omega) (hw' m (by simp) ps x p1 p2) f hx⟩
      · exact ih (fun m' hm' => hw' m' (by simp [hm'])) e he
  have hlo := parse_locBd script doc hp
  have hd' := hd doc hp
  clear ho hp
  generalize hpg : doc.pages = pgs at *
  clear hpg
  induction hf with
  | nil => exact .nil
  | @cons pg o pgs outs ho _ ih =>
    refine .cons ?_ (ih (fun pg hpg => hlo pg (List.mem_cons_of_mem _ hpg)) (fun pg hpg => hd' pg (List.mem_cons_of_mem _ hpg)))
    obtain ⟨g, hg, gok, gp⟩ := ho
    obtain ⟨cs, k1, ⟨t, -, k2⟩, k3⟩ := C58_page E _ pg g hg
    have hall := (k3.1 gok).2.2
    rw [gp] at k2
    injection k2 with k2 _
    intro name ms dims line hdm
    obtain ⟨hv, hs⟩ := hd' pg List.mem_cons_self name ms dims line hdm
    obtain ⟨i, hi, hdi⟩ := List.getElem_of_mem hdm
    have hi2 : i < cs.length := by rw [← k1.length_eq]; exact hi
    have hdc := (List.forall₂_iff_get.1 k1).2 i hi hi2
    simp only [List.get_eq_getElem] at hdc
    rw [hdi] at hdc
    have hcm : cs[i] ∈ cs := List.getElem_mem _
    obtain ⟨file, v, ts, k, p, off, ⟨en, e1, e2⟩, d1, d2, d3, d4, d5⟩ :=
      C83_edges I range64 range32 E hS hJ _ hn hM name ms (hlo pg List.mem_cons_self _ hdm) hv hs dims line _ hdc (hall _ hcm)
    obtain ⟨m, m1, m2, m3⟩ := find_loads E.loadPath w _ _ hl name en e1 file e2
    refine ⟨m, m1, file, v, ts, k, p, off, m2, m3, d1, d2, d3, d4, ?_⟩
    intro hsn a b hab
    obtain ⟨l, hl, hln⟩ := d5 hsn a b hab
    refine ⟨l, ?_, hln⟩
    rw [k2]
    exact List.mem_append_left _ ((mem_sum_lines _).2 ⟨_, List.mem_map_of_mem hcm, hl⟩)
end

/-! ## The premises occur -/

/-- a triangle lower down, part of it below `flTri` -/
noncomputable def flLow : Facet (Fl (binary64 .nearest (fun _ => true) (fun _ => true))) :=
  ⟨⟨(Ext.fin 0 : Ext ℝ), (Ext.fin 0 : Ext ℝ), (Ext.fin 1 : Ext ℝ)⟩, ⟨(Ext.fin 1 : Ext ℝ), (Ext.fin (-2) : Ext ℝ), (Ext.fin (-2) : Ext ℝ)⟩,
    ⟨(Ext.fin 3 : Ext ℝ), (Ext.fin (-2) : Ext ℝ), (Ext.fin (-2) : Ext ℝ)⟩, ⟨(Ext.fin 2 : Ext ℝ), (Ext.fin 1 : Ext ℝ), (Ext.fin (-2) : Ext ℝ)⟩,
    (Ext.fin (-2) : Ext ℝ)⟩

/-- an edge of the upper triangle that passes over the lower one is in full view -/
example : SaneNormals (⟨[flTri, flLow], [], [], 0⟩ : STLFile (Fl (binary64 .nearest (fun _ => true) (fun _ => true)))) ∧
    ∀ r, AskedView (R := binary64 .nearest (fun _ => true) (fun _ => true)) [] r → InFullView (1 / 2 ^ 37) (2 ^ 2) r [flTri.val, flLow.val] ⟨0, 0, 0⟩ ⟨4, 0, 0⟩ := by
  constructor
  · intro f hf
    have key : ∀ a : ℝ, |a| ≤ 2 ^ 1 → FP.Bd (α := Fl (binary64 .nearest (fun _ => true) (fun _ => true))) 1 (Ext.fin a : Ext ℝ) :=
      fun a ha => (bd_iff _ (by norm_num) _).mpr ⟨a, rfl, ha⟩
    simp only [List.mem_cons, List.not_mem_nil, or_false] at hf
    rcases hf with rfl | rfl
    · exact ⟨⟨key _ (by norm_num), key _ (by norm_num), key _ (by norm_num)⟩, Fl.near_fin _⟩
    · exact ⟨⟨key _ (by norm_num), key _ (by norm_num), key _ (by norm_num)⟩, Fl.near_fin _⟩
  · intro r hr
    have hr' : (matZP : M3 (Ext ℝ)) = r.fin := by
      have : viewOf (α := Ext ℝ) none = .ok r.fin := hr
      have e : viewOf (α := Ext ℝ) none = .ok matZP := rfl
      rw [e] at this
      injection this
    have hone : r = ⟨⟨1, 0, 0⟩, ⟨0, 1, 0⟩, ⟨0, 0, 1⟩⟩ := by
      have h1 : (matZP : M3 (Ext ℝ)) = M3.fin (⟨⟨1, 0, 0⟩, ⟨0, 1, 0⟩, ⟨0, 0, 1⟩⟩ : M3 ℝ) := by
        simp [matZP, ptX, ptY, ptZ, M3.fin, M3.map, V3.map]
      rw [h1] at hr'
      simp [M3.fin, M3.map, V3.map] at hr'
      obtain ⟨⟨a1, a2, a3⟩, ⟨b1, b2, b3⟩, c1, c2, c3⟩ := hr'
      ext <;> simp <;> linarith
    subst hone
    have e1 : flTri.val.seenIn ⟨⟨1, 0, 0⟩, ⟨0, 1, 0⟩, ⟨0, 0, 1⟩⟩ = ⟨⟨0, 0, 1⟩, ⟨0, 0, 0⟩, ⟨4, 0, 0⟩, ⟨0, 3, 0⟩, 0⟩ := by
      simp [Tri.seenIn, flTri, Facet.val, V3.val, V3.map, V3.mulM, Fl.val]
    have e2 : flLow.val.seenIn ⟨⟨1, 0, 0⟩, ⟨0, 1, 0⟩, ⟨0, 0, 1⟩⟩ = ⟨⟨0, 0, 1⟩, ⟨1, -2, -2⟩, ⟨3, -2, -2⟩, ⟨2, 1, -2⟩, -2⟩ := by
      simp [Tri.seenIn, flLow, Facet.val, V3.val, V3.map, V3.mulM, Fl.val]
    refine ⟨⟨flTri.val, by simp, ?_, ?_⟩, ?_, ?_, ?_⟩
    · simp [flTri, Facet.val, V3.val, V3.map, V3.mulM, Fl.val]
      norm_num
    · rw [e1]; simp [Tri.HasSide]
    · simp only [List.pairwise_cons, List.mem_singleton, forall_eq, List.not_mem_nil, false_implies, implies_true, List.Pairwise.nil, and_true]
      intro _ _ _ h
      rw [e2] at h
      simp [Tri.HasSide] at h
    · intro f hf _
      simp only [List.mem_cons, List.not_mem_nil, or_false] at hf
      rcases hf with rfl | rfl
      · rw [e1]; left; simp [Tri.HasSide]
      · rw [e2]; right
        constructor
        · rintro p (rfl | rfl) <;> right <;> simp [NotBehind, V3.dot] <;> norm_num
        · intro c d h
          simp only [Tri.HasSide, Prod.mk.injEq] at h
          right
          rcases h with ⟨rfl, rfl⟩ | ⟨rfl, rfl⟩ | ⟨rfl, rfl⟩ | ⟨rfl, rfl⟩ | ⟨rfl, rfl⟩ | ⟨rfl, rfl⟩ <;> right <;> left <;>
            simp [Higher] <;> norm_num
    · unfold FarApart; norm_num

end S2P
