import Verif.Spec.Finite
import Verif.Lemmas.Shuffle
import Verif.Lemmas.AtCheck
import Verif.Props.Parse
import Verif.Props.Views
import Verif.Props.Hidden

set_option linter.unusedSectionVars false
set_option linter.unusedVariables false
set_option linter.unusedSimpArgs false

/-! # Finite inputs: what is read is finite, and rendering it does not abort -/

namespace S2P

section
variable {α : Type} [FP α]

theorem good_atLoc {num : α → Str} {int : Int → Str} {ms : List (Meta α)} (h : ∀ m ∈ ms, m.Good num int) : AtLoc ms := by
  intro m hm he
  rcases (h m hm).1 with hn | ⟨-, hl⟩
  · exfalso
    rw [he] at hn
    obtain ⟨c, t, e, hl, -⟩ := hn.1
    cases e
    revert hl; unfold Letter; decide
  · exact hl

theorem parse_atLoc (s : Str) (d : Doc α) (h : parse s = .ok (some d)) : ∀ p ∈ d.pages, ∀ x ∈ p.draws, x.AtLoc := by
  obtain ⟨num, int, -, hg⟩ := C04_parsed s d h
  intro p hp x hx
  have := (hg p hp).2 x hx
  cases x with
  | draw n ms ds l => exact good_atLoc this.2.1
  | text s ms l => exact good_atLoc this.2
end

section
variable {K : Type} [Field K] [LinearOrder K] [IsStrictOrderedRing K] [FloorRing K] [Trans K]

theorem spellNum_fin {x : Ext K} {w : Str} (h : SpellNum x w) : x.IsFin := by
  obtain ⟨-, q, -, hq⟩ := h
  cases hq
  exact ⟨_, rfl⟩

theorem pt_fin {num : Ext K → Str} : ∀ {p : Pt (Ext K)}, p.Good num → p.IsFin
  | .val ⟨x, y, z⟩ l, h => by
    obtain ⟨a, ha⟩ := spellNum_fin h.1
    obtain ⟨b, hb⟩ := spellNum_fin h.2.1
    obtain ⟨c, hc⟩ := spellNum_fin h.2.2
    simp only at ha hb hc
    subst ha hb hc
    exact ⟨⟨a, b, c⟩, rfl⟩
  | .func n p l, h => pt_fin (p := p) h.2

theorem metaVal_fin {num : Ext K → Str} {int : Int → Str} {v : MetaVal (Ext K)} (h : v.Good num int) : v.IsFin := by
  cases v with
  | str s => trivial
  | pt p => exact pt_fin h
  | num x => exact spellNum_fin h
  | loc l =>
    obtain ⟨x, y⟩ := l
    obtain ⟨a, ha⟩ := spellNum_fin h.1
    obtain ⟨b, hb⟩ := spellNum_fin h.2
    simp only at ha hb
    subst ha hb
    exact ⟨⟨a, b⟩, rfl⟩
  | scale i j => trivial

theorem parse_isFin (s : Str) (d : Doc (Ext K)) (h : parse s = .ok (some d)) : d.IsFin := by
  obtain ⟨num, int, -, hg⟩ := C04_parsed s d h
  intro p hp x hx
  have := (hg p hp).2 x hx
  cases x with
  | draw n ms ds l => exact ⟨fun m hm => metaVal_fin (this.2.1 m hm).2, fun d hd m hm => metaVal_fin (this.2.2 d hd m hm).2⟩
  | text s ms l => exact fun m hm => metaVal_fin (this.2 m hm).2

/-! ## Files -/

theorem parse3_fin {t : Str × Str × Str} {v : V3 (Ext K)} (h : parse3 t = some v) : v.IsFin := by
  unfold parse3 at h
  simp only [bind, Option.bind_eq_some_iff] at h
  obtain ⟨x, ⟨a, -, hx⟩, y, ⟨b, -, hy⟩, z, ⟨c, -, hz⟩, e⟩ := h
  cases hx; cases hy; cases hz; cases e
  exact ⟨⟨_, _, _⟩, rfl⟩

theorem classify_fin {l : Str} {r : StlLine (Ext K)} (h : classify l = some r) : ∀ v, r = .facet v ∨ r = .vertex v → v.IsFin := by
  unfold classify at h
  by_cases a : matchSolid l = true
  · rw [if_pos a] at h; cases h; rintro v (h | h) <;> cases h
  rw [if_neg a] at h
  by_cases b : matchLoop l = true
  · rw [if_pos b] at h; cases h; rintro v (h | h) <;> cases h
  rw [if_neg b] at h
  cases h1 : (matchKw3 c!"facet normal" l).bind (parse3 (α := Ext K)) with
  | some m =>
    rw [h1] at h
    cases h
    obtain ⟨t, -, ht⟩ := Option.bind_eq_some_iff.mp h1
    rintro v (h | h) <;> cases h
    exact parse3_fin ht
  | none =>
    rw [h1] at h
    simp only [] at h
    by_cases c : matchEndfacet l = true
    · rw [if_pos c] at h; cases h; rintro v (h | h) <;> cases h
    rw [if_neg c] at h
    cases h2 : (matchKw3 c!"vertex" l).bind (parse3 (α := Ext K)) with
    | none => rw [h2] at h; cases h
    | some m =>
      rw [h2] at h
      cases h
      obtain ⟨t, -, ht⟩ := Option.bind_eq_some_iff.mp h2
      rintro v (h | h) <;> cases h
      exact parse3_fin ht

theorem makeLoop_made : ∀ (ls : List Str) (s s' : MakeState (Ext K)), s.norm.IsFin → (∀ p ∈ s.points, p.IsFin) → (∀ f ∈ s.facets, f.Made) →
    makeLoop ls s = .ok (some s') → ∀ f ∈ s'.facets, f.Made
  | [], s, s', h1, h2, h3, h => by cases h; exact h3
  | l :: ls, s, s', h1, h2, h3, h => by
    unfold makeLoop at h
    cases hc : classify (α := Ext K) l with
    | none => rw [hc] at h; cases h
    | some ln =>
      rw [hc] at h
      simp only [bind, Except.bind] at h
      cases hs : makeStep s ln with
      | error a => rw [hs] at h; cases h
      | ok t =>
        rw [hs] at h
        simp only [] at h
        have : t.norm.IsFin ∧ (∀ p ∈ t.points, p.IsFin) ∧ (∀ f ∈ t.facets, f.Made) := by
          cases ln with
          | solid => cases hs; exact ⟨h1, h2, h3⟩
          | loop => cases hs; exact ⟨h1, h2, h3⟩
          | facet n => cases hs; exact ⟨classify_fin hc _ (Or.inl rfl), by simp, h3⟩
          | vertex n =>
            cases hs
            refine ⟨h1, ?_, h3⟩
            intro p hp
            rcases List.mem_append.mp hp with hp | hp
            · exact h2 p hp
            · rw [List.mem_singleton.mp hp]; exact classify_fin hc _ (Or.inr rfl)
          | endfacet =>
            simp only [makeStep] at hs
            split_ifs at hs
            · cases hs; exact ⟨h1, h2, h3⟩
            · simp only [bind, Except.bind] at hs
              cases hm : mkFacet s.norm s.points with
              | error a => rw [hm] at hs; cases hs
              | ok f =>
                rw [hm] at hs
                cases hs
                refine ⟨⟨⟨0, 0, 0⟩, by simp [V3.zero, V3.map]⟩, by simp, ?_⟩
                intro g hg
                rcases List.mem_append.mp hg with hg | hg
                · exact h3 g hg
                · rw [List.mem_singleton.mp hg]
                  obtain ⟨n, hn⟩ := h1
                  rcases hp : s.points with _ | ⟨a, _ | ⟨b, _ | ⟨c, rest⟩⟩⟩
                  · rw [hp] at hm; cases hm
                  · rw [hp] at hm; cases hm
                  · rw [hp] at hm; cases hm
                  · rw [hp] at hm h2
                    obtain ⟨a', ha⟩ := h2 a (by simp)
                    obtain ⟨b', hb⟩ := h2 b (by simp)
                    obtain ⟨c', hc⟩ := h2 c (by simp)
                    refine ⟨n, a', b', c', ?_⟩
                    rw [← hn, ← ha, ← hb, ← hc]
                    exact hm
        exact makeLoop_made ls t s' this.1 this.2.1 this.2.2 h

theorem make_made (content : Str) (s : STLFile (Ext K)) (h : make content = .ok (some s)) : ∀ f ∈ s.facets, f.Made := by
  unfold make at h
  simp only [bind, Except.bind] at h
  cases hl : makeLoop (α := Ext K) (getLines content) ⟨V3.zero, [], []⟩ with
  | error a => rw [hl] at h; cases h
  | ok r =>
    rw [hl] at h
    cases r with
    | none => cases h
    | some t =>
      simp only [] at h
      have ht := makeLoop_made _ _ t ⟨⟨0, 0, 0⟩, by simp [V3.zero, V3.map]⟩ (by simp) (by simp) hl
      cases hi : index t.facets with
      | error a => rw [hi] at h; cases h
      | ok u =>
        rw [hi] at h
        cases h
        unfold index at hi
        simp only [bind, Except.bind] at hi
        cases hm : t.facets.mapM (faceEdges (rebuildDD (partLoop t.facets (addFacets t.facets).edges (addFacets t.facets).edgeFace 0
            (addFacets t.facets).edges.length).1)) with
        | error a => rw [hm] at hi; cases hi
        | ok fe => rw [hm] at hi; cases hi; exact ht
end

/-! ## Views -/

theorem rotation_ne_zero {K : Type} [Field K] [LinearOrder K] [IsStrictOrderedRing K] [FloorRing K] [Trans K] (r : M3 K) (h : IsRotation r) :
    r.fin.eqv (⟨V3.zero, V3.zero, V3.zero⟩ : M3 (Ext K)) = false := by
  by_contra hc
  rw [Bool.not_eq_false] at hc
  simp only [M3.eqv, V3.eqv, Bool.and_eq_true] at hc
  obtain ⟨⟨⟨⟨h1, h2⟩, h3⟩, -⟩, -⟩ := hc
  have e1 : r.r0.x = 0 := by simpa [M3.map, V3.map, V3.zero, FP.eq, Ext.eq] using h1
  have e2 : r.r0.y = 0 := by simpa [M3.map, V3.map, V3.zero, FP.eq, Ext.eq] using h2
  have e3 : r.r0.z = 0 := by simpa [M3.map, V3.map, V3.zero, FP.eq, Ext.eq] using h3
  have := h.2
  simp [M3.det, V3.cross, V3.dot, e1, e2, e3] at this

theorem viewOf_rotation (mV : Option (Meta (Ext ℝ))) (hf : ∀ m, mV = some m → m.val.IsFin) (rot : M3 (Ext ℝ)) (h : viewOf mV = .ok rot) :
    ∃ r : M3 ℝ, rot = r.fin ∧ IsRotation r := by
  unfold viewOf at h
  cases mV with
  | none =>
    cases h
    obtain ⟨m', ax, e, hr, -⟩ := C30_named_views (K := ℝ) c!"Z+" matZP rfl
    exact ⟨m', e, hr⟩
  | some m =>
    simp only [] at h
    have hm := hf m rfl
    cases hv : m.val with
    | loc l =>
      rw [hv] at h hm
      cases h
      obtain ⟨a, rfl⟩ := hm
      exact C30_angle_views a
    | str n =>
      rw [hv] at h
      simp only [] at h
      cases hn : getMatrixByName (α := Ext ℝ) n with
      | none => rw [hn] at h; cases h
      | some r =>
        rw [hn] at h; cases h
        obtain ⟨m', ax, e, hr, -⟩ := C30_named_views n _ hn
        exact ⟨m', e, hr⟩
    | _ => rw [hv] at h; cases h

/-- a property looked up is one of the block's -/
theorem look_fin {K : Type} [FP (Ext K)] {ms : List (Meta (Ext K))} (h : ∀ m ∈ ms, m.val.IsFin) (n : Str) : ∀ m, look ms n = some m → m.val.IsFin :=
  fun m hm => h m (look_mem hm)

/-! ## No abort -/

theorem content_ok (E : Env (Ext ℝ)) (hS : SortOK E.sorter) (hJ : E.NotAView) (stl : Models (Ext ℝ)) (hM : stl.Made) (d : Drawable (Ext ℝ))
    (hf : d.IsFin) (ha : d.AtLoc) : ∃ c, content E stl d = .ok c := by
  cases d with
  | draw n ms dims l =>
    unfold content
    simp only [visitDrawable, bind, Except.bind]
    obtain ⟨ds, extra, e1, e2, e3⟩ := visitDraw_out E stl n ms l
    rw [e3]
    unfold drawOut
    by_cases hd : ds ≠ []
    · rw [if_pos hd]; exact ⟨_, rfl⟩
    rw [if_neg hd]
    cases h1 : scaleOf (look ms c!"scale") with
    | error d => exact ⟨_, rfl⟩
    | ok sc =>
      dsimp only
      cases h2 : stl.find? (fun e => decide (e.1 = n)) with
      | none => exact ⟨_, rfl⟩
      | some e =>
        dsimp only
        cases h3 : viewOf (look ms c!"view") with
        | error d => exact ⟨_, rfl⟩
        | ok rot =>
          dsimp only
          obtain ⟨r, hr, hrot⟩ := viewOf_rotation _ (look_fin hf.1 _) _ h3
          subst hr
          cases h4 : locOf (look ms c!"@") with
          | error a =>
            exfalso
            unfold locOf at h4
            cases h5 : look ms c!"@" with
            | none => rw [h5] at h4; cases h4
            | some m =>
              obtain ⟨q, hq⟩ := ha m (look_mem h5) (by simpa using List.find?_some h5)
              rw [h5] at h4
              simp [hq] at h4
          | ok loc =>
            dsimp only
            obtain ⟨file, hfile, hmade⟩ := hM e (List.mem_of_find?_eq_some h2)
            rw [hfile]
            dsimp only
            obtain ⟨s', ts, es, g1, g2, g3, g4, g5, g6⟩ := C26_after_view file r hrot (fun f hf => hmade f hf)
            rw [g1]
            dsimp only
            obtain ⟨ls, hls⟩ := C24_toLines E.sorter hS s' es g4 g6.unseenLe
            rw [g2, hls]
            dsimp only
            cases h8 : visitDims E dims (drawStart (initVis E) sc r.fin loc s' ls) with
            | error a =>
              exfalso
              obtain ⟨p, d, q, -, -, hc⟩ := ((dims_sum E dims _).1 a).mp h8
              unfold dimContent at hc
              have hne : ((drawStart (initVis E) sc r.fin loc s' ls).base).rotation.eqv E.junkM = false := hJ r hrot
              obtain ⟨k1, k2⟩ := visitDimN_spec E _ d hne
              cases hdd : dimDraws E (drawStart (initVis E) sc r.fin loc s' ls).base d.kind d.metas with
              | none => obtain ⟨x, L, e⟩ := k2 (Or.inr hdd); rw [e] at hc; cases hc
              | some w =>
                by_cases hg : GoodDim d.kind d.metas
                · obtain ⟨x, e⟩ := k1 hg w hdd; rw [e] at hc; cases hc
                · obtain ⟨x, L, e⟩ := k2 (Or.inl hg); rw [e] at hc; cases hc
            | ok r =>
              dsimp only
              by_cases hb : r.1 = false
              · rw [if_pos hb]; exact ⟨_, rfl⟩
              · rw [if_neg hb]
                by_cases hx : extra ≠ []
                · rw [if_pos hx]; exact ⟨_, rfl⟩
                · rw [if_neg hx]; exact ⟨_, rfl⟩
  | text s ms l =>
    unfold content
    simp only [visitDrawable, bind, Except.bind]
    obtain ⟨ds, extra, e1, e2, e3⟩ := visitText_out (α := Ext ℝ) s ms l
    rw [e3]
    unfold textOut
    by_cases hd : ds ≠ []
    · rw [if_pos hd]; exact ⟨_, rfl⟩
    rw [if_neg hd]
    cases h4 : textLocOf (look ms c!"@") with
    | ok p => exact ⟨_, rfl⟩
    | error a =>
      exfalso
      unfold textLocOf at h4
      cases h5 : look ms c!"@" with
      | none => rw [h5] at h4; cases h4
      | some m =>
        obtain ⟨q, hq⟩ := ha m (look_mem h5) (by simpa using List.find?_some h5)
        rw [h5] at h4
        simp [hq] at h4

end S2P
