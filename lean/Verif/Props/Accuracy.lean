import Verif.Lemmas.AccuracyFrame

set_option linter.unusedSectionVars false
set_option linter.unusedVariables false
set_option linter.unusedSimpArgs false

/-! # C73: rounding puts no ink away from the model -/

namespace S2P

theorem draw_accurate {R : Rounding} (hR : R.Accurate) (E : Env (Fl R)) (hS : SortOK E.sorter) (hJ : E.junkM = ⟨V3.zero, V3.zero, V3.zero⟩)
    (stl : Models (Fl R)) {n : ℕ} (hn : n ≤ 500) (hM : stl.Bd n) (name : Str) (ms : List (Meta (Fl R))) (hf : ∀ m ∈ ms, m.val.LocBd) (hv : TameView ms)
    (hs : TameScale ms) (line : Nat) (c) (h : content E stl (.draw name ms [] line) = .ok c) (hc : c.1 = true) :
    ∃ file ts k p off, (∃ e, stl.find? (fun e => decide (e.1 = name)) = some e ∧ e.2 = some file) ∧
      NearlyProjects file ms ts k p off (inkError (2 ^ n) k p) ∧ (∀ l ∈ c.2.1.lines, NearSide ts k off (inkError (2 ^ n) k p) l) ∧ c.2.1.arcs = [] := by
  obtain ⟨sc, rot, loc, file, proj, ls, r, kept, k, p, off, F⟩ := draw_frame hR E hS hJ stl hn hM name ms hf hv hs [] line c h hc
  have hd := F.drawn
  obtain ⟨Ps, f, e⟩ := C38_drawing E stl name ms [] line c h _ _ _ _ _ _ hd (by rw [hJ]; exact F.viewBd.2.2.2)
  cases f
  have hlines : c.2.1.lines = ls.map (fun l => ⟨l.o.moved (projScale sc) (projOffset loc proj.cull.limits (projScale sc)),
      l.t.moved (projScale sc) (projOffset loc proj.cull.limits (projScale sc))⟩) := by
    rw [e]; simp [OutPage.sum, OutPage.moved, OutPage.app, OutPage.ofLines, OutPage.empty]
  have harcs : c.2.1.arcs = [] := by
    rw [e]; simp [OutPage.sum, OutPage.moved, OutPage.app, OutPage.ofLines, OutPage.empty]
  have hto := hd.lines
  rw [F.culled] at hlines hto
  have hon := toLines_on E.sorter hS proj ls hto
  refine ⟨file, _, k, p, off, hd.model, F.placed, ?_, harcs⟩
  intro l hl
  rw [hlines] at hl
  obtain ⟨l', hl', rfl⟩ := List.mem_map.1 hl
  obtain ⟨e, he, q1, q2, hq1, hq2, rfl⟩ := hon l' hl'
  obtain ⟨f, hfk, F1, F1', F2, F3, F4, F5⟩ := F.edges e he
  obtain ⟨hoff, o1, o2⟩ := F.offset (List.ne_nil_of_mem hfk)
  obtain ⟨t, t0, t1, t2, t3⟩ := pointOn_near hR F.mid.mid F2 F3 F4 F5 hq1
  obtain ⟨u, u0, u1, u2, u3⟩ := pointOn_near hR F.mid.mid F2 F3 F4 F5 hq2
  refine ⟨F1, t, u, ⟨_, List.mem_map_of_mem hfk, F1'⟩, t0, t1, u0, u1, ?_, ?_⟩
  · rw [hoff, F.scale]
    exact ⟨page_near hR F.mid o1 t2.1 t3.1, page_near hR F.mid o2 t2.2.1 t3.2.1⟩
  · rw [hoff, F.scale]
    exact ⟨page_near hR F.mid o1 u2.1 u3.1, page_near hR F.mid o2 u2.2.1 u3.2.1⟩

theorem text_no_lines {α : Type} [FP α] (E : Env α) (stl : Models α) (s : Str) (ms : List (Meta α)) (l : Nat) (c)
    (h : content E stl (.text s ms l) = .ok c) : c.2.1.lines = [] ∧ c.2.1.arcs = [] := by
  unfold content at h
  simp only [visitDrawable, bind, Except.bind] at h
  obtain ⟨ds, extra, e1, e2, e3⟩ := visitText_out (α := α) s ms l
  rw [e3] at h
  unfold textOut at h
  by_cases hd : ds ≠ []
  · rw [if_pos hd] at h; cases h; exact ⟨rfl, rfl⟩
  · rw [if_neg hd] at h
    cases h1 : textLocOf (look ms c!"@") with
    | error a => rw [h1] at h; cases h
    | ok p => rw [h1] at h; cases h; exact ⟨rfl, rfl⟩

section
variable (I : IntRounding) (range64 range32 : ℚ → Bool)

/-- **C73.** In IEEE 754 double arithmetic, whatever the direction of rounding: a drawing without dimensions that succeeds consists of lines that start and
end next to a side of a facet that faces the viewer, seen in the view asked for, at the scale and the place asked for.  "Next to" is a distance of
2^-35 times the size of the drawing. -/
theorem C73_ink (E : Env (Fl (binary64 I range64 range32))) (hS : SortOK E.sorter) (hJ : E.junkM = ⟨V3.zero, V3.zero, V3.zero⟩)
    (stl : Models (Fl (binary64 I range64 range32))) {n : ℕ} (hn : n ≤ 500) (hM : stl.Bd n) (name : Str)
    (ms : List (Meta (Fl (binary64 I range64 range32)))) (hf : ∀ m ∈ ms, m.val.LocBd) (hv : TameView ms)
    (hs : TameScale ms) (line : Nat) (c) (h : content E stl (.draw name ms [] line) = .ok c) (hc : c.1 = true) :
    ∃ file ts k p off, (∃ e, stl.find? (fun e => decide (e.1 = name)) = some e ∧ e.2 = some file) ∧
      NearlyProjects file ms ts k p off (inkError (2 ^ n) k p) ∧ (∀ l ∈ c.2.1.lines, NearSide ts k off (inkError (2 ^ n) k p) l) ∧ c.2.1.arcs = [] :=
  draw_accurate (binary64_accurate I range64 range32) E hS hJ stl hn hM name ms hf hv hs line c h hc

/-- **C73**, of a run: if a conversion succeeds, the output is written from pages whose lines, but for the two that box the title, are next to a side of a
facet of a model the page draws.  The script has no dimensions, views as named or with angles up to 1024°, scales not over zero; the numbers on the vertex
lines of the model files are of size at most 2^n. -/
theorem C73_run (E : Env (Fl (binary64 I range64 range32))) (hS : SortOK E.sorter) (hJ : E.junkM = ⟨V3.zero, V3.zero, V3.zero⟩)
    (w : World) (src script : Str) {n : ℕ} (hn : n ≤ 500) (r : RunRes) (h : scriptToPS E w src script = .ok r) (hok : r.ok = true)
    (hw : ∀ doc : Doc (Fl (binary64 I range64 range32)), parse script = .ok (some doc) → SaneModels n E.loadPath w doc.models)
    (hd : ∀ doc : Doc (Fl (binary64 I range64 range32)), parse script = .ok (some doc) → ∀ pg ∈ doc.pages, ∀ name ms dims line,
      Drawable.draw name ms dims line ∈ pg.draws → dims = [] ∧ TameView ms ∧ TameScale ms) :
    ∃ (doc : Doc (Fl (binary64 I range64 range32))) (outs : List (OutPage (Fl (binary64 I range64 range32)))),
      parse script = .ok (some doc) ∧ r.out = renderPages E src outs ∧
      List.Forall₂ (fun pg o => o.arcs = [] ∧ ∃ ls a b, o.lines = ls ++ [a, b] ∧ ∀ l ∈ ls, ∃ name ms line, Drawable.draw name ms [] line ∈ pg.draws ∧
        ∃ m ∈ doc.models, ∃ file ts k p off, m.name = name ∧ Loads E.loadPath w m file ∧
          NearlyProjects file ms ts k p off (inkError (2 ^ n) k p) ∧ NearSide ts k off (inkError (2 ^ n) k p) l) doc.pages outs := by
  obtain ⟨doc, fs, outs, hp, -, hl, hf, ho⟩ := (C48_all_or_nothing E w src script r h).2.1 hok
  refine ⟨doc, outs, hp, ho, ?_⟩
  have hM : Models.Bd n (List.zipWith (fun (m : ModelN) f => (m.name, some f)) doc.models fs) := by
    have hw' := hw doc hp
    clear * - hl hw' hn
    generalize doc.models = dm at *
    induction hl with
    | nil => intro e he; simp at he
    | @cons m f ms fs hmf _ ih =>
      intro e he
      simp only [List.zipWith_cons_cons, List.mem_cons] at he
      rcases he with rfl | he
      · obtain ⟨ps, x, p1, p2, hx⟩ := hmf
        exact ⟨f, rfl, sane_bd (by omega) (hw' m (by simp) ps x p1 p2) f hx⟩
      · exact ih (fun m' hm' => hw' m' (by simp [hm'])) e he
  have hlo := parse_locBd script doc hp
  have hd' := hd doc hp
  clear ho hp
  generalize hpg : doc.pages = pgs at *
  clear hpg
  induction hf with
  | nil => exact .nil
  | @cons pg o pgs outs ho _ ih =>
    refine .cons ?_ (ih (fun pg hpg => hlo pg (List.mem_cons_of_mem _ hpg)) (fun pg hpg => hd' pg (List.mem_cons_of_mem _ hpg)))
    obtain ⟨g, hg, gok, gp⟩ := ho
    obtain ⟨cs, k1, ⟨t, -, k2⟩, k3⟩ := C58_page E _ pg g hg
    have hall := (k3.1 gok).2.2
    rw [gp] at k2
    injection k2 with k2 _
    constructor
    · rw [k2, List.eq_nil_iff_forall_not_mem]
      intro a ha
      obtain ⟨Q, hQ, ha⟩ := (mem_sum_arcs _).1 ha
      obtain ⟨c, hc, rfl⟩ := List.mem_map.1 hQ
      obtain ⟨d, hdm, hdc⟩ := forall₂_right k1 c hc
      cases d with
      | text s ms l => rw [(text_no_lines E _ s ms l c hdc).2] at ha; cases ha
      | draw name ms dims line =>
        obtain ⟨rfl, hv, hs⟩ := hd' pg List.mem_cons_self name ms dims line hdm
        obtain ⟨_, _, _, _, _, -, -, -, d3⟩ := C73_ink I range64 range32 E hS hJ _ hn hM name ms (hlo pg List.mem_cons_self _ hdm) hv hs line c hdc (hall c hc)
        rw [d3] at ha; cases ha
    · refine ⟨_, _, _, by rw [k2]; rfl, ?_⟩
      intro l hl'
      obtain ⟨Q, hQ, ha⟩ := (mem_sum_lines _).1 hl'
      obtain ⟨c, hc, rfl⟩ := List.mem_map.1 hQ
      obtain ⟨d, hdm, hdc⟩ := forall₂_right k1 c hc
      cases d with
      | text s ms l => rw [(text_no_lines E _ s ms l c hdc).1] at ha; cases ha
      | draw name ms dims line =>
        obtain ⟨rfl, hv, hs⟩ := hd' pg List.mem_cons_self name ms dims line hdm
        obtain ⟨file, ts, k, p, off, ⟨en, e1, e2⟩, d1, d2, -⟩ :=
          C73_ink I range64 range32 E hS hJ _ hn hM name ms (hlo pg List.mem_cons_self _ hdm) hv hs line c hdc (hall c hc)
        obtain ⟨m, m1, m2, m3⟩ := find_loads E.loadPath w _ _ hl name en e1 file e2
        exact ⟨name, ms, line, hdm, m, m1, file, ts, k, p, off, m2, m3, d1, d2 l ha⟩
end

/-! ## The premises occur -/

/-- a triangle that faces the viewer -/
noncomputable def flTri : Facet (Fl (binary64 .nearest (fun _ => true) (fun _ => true))) :=
  ⟨⟨(Ext.fin 0 : Ext ℝ), (Ext.fin 0 : Ext ℝ), (Ext.fin 1 : Ext ℝ)⟩, ⟨(Ext.fin 0 : Ext ℝ), (Ext.fin 0 : Ext ℝ), (Ext.fin 0 : Ext ℝ)⟩,
    ⟨(Ext.fin 4 : Ext ℝ), (Ext.fin 0 : Ext ℝ), (Ext.fin 0 : Ext ℝ)⟩, ⟨(Ext.fin 0 : Ext ℝ), (Ext.fin 3 : Ext ℝ), (Ext.fin 0 : Ext ℝ)⟩, (Ext.fin 0 : Ext ℝ)⟩

theorem flTri_bd : STLFile.Bd 2 (⟨[flTri], [], [], 0⟩ : STLFile (Fl (binary64 .nearest (fun _ => true) (fun _ => true)))) := by
  intro f hf p hp
  simp only [List.mem_singleton] at hf
  subst hf
  have key : ∀ a : ℝ, |a| ≤ 2 ^ 2 → FP.Bd (α := Fl (binary64 .nearest (fun _ => true) (fun _ => true))) 2 (Ext.fin a : Ext ℝ) :=
    fun a ha => (bd_iff _ (by norm_num) _).mpr ⟨a, rfl, ha⟩
  simp only [flTri, Facet.corners, List.mem_cons, List.not_mem_nil, or_false] at hp
  rcases hp with rfl | rfl | rfl <;> exact ⟨key _ (by norm_num), key _ (by norm_num), key _ (by norm_num)⟩

/-- its drawing meets the premises of `C73_ink`, and it is among the facets that have to be there -/
example : Models.Bd 2 [(c!"m", some (⟨[flTri], [], [], 0⟩ : STLFile (Fl (binary64 .nearest (fun _ => true) (fun _ => true)))))] ∧
    TameView (R := binary64 .nearest (fun _ => true) (fun _ => true)) [] ∧ TameScale (R := binary64 .nearest (fun _ => true) (fun _ => true)) [] ∧
    (∃ c, content flEnv [(c!"m", some ⟨[flTri], [], [], 0⟩)] (.draw c!"m" [] [] 1) = .ok c ∧ c.1 = true) ∧
    ∀ r, AskedView (R := binary64 .nearest (fun _ => true) (fun _ => true)) [] r →
      ∀ ts, NearlySeen r ⟨[flTri], [], [], 0⟩ ts (1 / 2 ^ 37) → flTri.val.seenIn r ∈ ts := by
  have hM : Models.Bd 2 [(c!"m", some (⟨[flTri], [], [], 0⟩ : STLFile (Fl (binary64 .nearest (fun _ => true) (fun _ => true)))))] := by
    intro e he
    simp only [List.mem_singleton] at he
    subst he
    exact ⟨_, rfl, flTri_bd⟩
  refine ⟨hM, by simp [TameView, look], ?_, ?_, ?_⟩
  · intro a b h
    have : (a, b) = ((1, 1) : Int × Int) := by
      simp only [look, scaleOf] at h
      cases h; rfl
    cases this; norm_num
  · obtain ⟨c, hc⟩ := content_bd flEnv insSorter_ok rfl [(c!"m", some ⟨[flTri], [], [], 0⟩)] (k := 2) (by norm_num) hM (.draw c!"m" [] [] 1)
      (by simp [Drawable.LocBd]) (by intro m hm; simp at hm)
    refine ⟨c, hc, ?_⟩
    obtain ⟨proj, ls, g1, g2, -, g3, -⟩ := turned_bd (n := 2) (by norm_num) flEnv.sorter insSorter_ok _ flTri_bd matZP
      (viewOf_bd (none : Option (Meta (Fl (binary64 .nearest (fun _ => true) (fun _ => true))))) (by simp) matZP rfl)
    rcases draw_sum _ _ _ _ _ _ c hc with ⟨-, -, -, h⟩ | ⟨_, _, _, _, _, _, cs, -, hcs, -, h, -⟩
    · exact absurd ⟨_, _, _, _, _, _, ⟨by simp, rfl, rfl, rfl, ⟨_, rfl, rfl⟩, g1, by rw [g2]; exact g3⟩⟩ h
    · cases hcs
      exact h.2 ⟨by simp, by simp⟩
  · rintro r hr ts ⟨kept, rfl, -, h⟩
    have hr' : (matZP : M3 (Ext ℝ)) = r.fin := by
      have : viewOf (α := Ext ℝ) none = .ok r.fin := hr
      have e : viewOf (α := Ext ℝ) none = .ok matZP := rfl
      rw [e] at this
      injection this
    have key : ∀ a : ℝ, |a| ≤ 2 ^ 1 → FP.Bd (α := Fl (binary64 .nearest (fun _ => true) (fun _ => true))) 1 (Ext.fin a : Ext ℝ) :=
      fun a ha => (bd_iff _ (by norm_num) _).mpr ⟨a, rfl, ha⟩
    refine List.mem_map_of_mem ((h flTri (by simp) ⟨key _ (by norm_num), key _ (by norm_num), key _ (by norm_num)⟩).1 ?_)
    have hz : r.r2.z = 1 := by
      have := congrArg (fun m : M3 (Ext ℝ) => m.r2.z) hr'
      simp [matZP, ptZ, M3.fin, M3.map, V3.map] at this
      linarith
    simp [flTri, V3.val, V3.map, V3.mulM, Fl.val, hz]
    norm_num

end S2P
