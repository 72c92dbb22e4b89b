import Verif.Lemmas.Loud

set_option linter.unusedSectionVars false
set_option linter.unusedVariables false
set_option linter.unusedSimpArgs false

/-! # The order of properties -/

namespace S2P
variable {α : Type} [FP α]

theorem has_perm {ms ms' : List (Meta α)} (h : ms.Perm ms') (n : Str) : Has ms n ↔ Has ms' n := by
  unfold Has
  exact exists_congr (fun m => and_congr_left (fun _ => h.mem_iff))

theorem nodup_perm {ms ms' : List (Meta α)} (h : ms.Perm ms') : (ms.map (fun m => m.name)).Nodup ↔ (ms'.map (fun m => m.name)).Nodup :=
  (h.map _).nodup_iff

theorem exactly_perm {ms ms' : List (Meta α)} (h : ms.Perm ms') (req opt : List Str) : Exactly ms req opt ↔ Exactly ms' req opt := by
  constructor
  · rintro ⟨h1, h2, h3⟩
    exact ⟨(nodup_perm h).mp h1, fun m hm => h2 m (h.mem_iff.mpr hm), fun n hn => (has_perm h n).mp (h3 n hn)⟩
  · rintro ⟨h1, h2, h3⟩
    exact ⟨(nodup_perm h).mpr h1, fun m hm => h2 m (h.mem_iff.mp hm), fun n hn => (has_perm h n).mpr (h3 n hn)⟩

theorem goodDim_perm {ms ms' : List (Meta α)} (h : ms.Perm ms') (k : DimKind) : GoodDim k ms ↔ GoodDim k ms' := by
  cases k <;> simp only [GoodDim, exactly_perm h, has_perm h]

theorem look_perm {ms ms' : List (Meta α)} (h : ms.Perm ms') (hn : (ms.map (fun m => m.name)).Nodup) (n : Str) : look ms n = look ms' n := by
  have hn' := (nodup_perm h).mp hn
  have key : ∀ {a b : List (Meta α)}, a.Perm b → (b.map (fun m => m.name)).Nodup → ∀ m, look a n = some m → look b n = some m := by
    intro a b hab hb m hm
    have h1 : m.name = n := by simpa using List.find?_some hm
    unfold look
    rw [← h1]
    exact (find_name_nodup hb m).mpr (hab.mem_iff.mp (look_mem hm))
  cases h1 : look ms n with
  | some m => exact (key h hn' m h1).symm
  | none =>
    cases h2 : look ms' n with
    | none => rfl
    | some m => rw [key h.symm hn m h2] at h1; cases h1

theorem pointOf_perm (E : Env α) (v : Vis α) {ms ms' : List (Meta α)} (h : ∀ n, look ms n = look ms' n) (j : Nat) (n : Str) :
    pointOf E v j ms n = pointOf E v j ms' n := by
  unfold pointOf; rw [h]

theorem dimDraws_perm (E : Env α) (v : Vis α) {ms ms' : List (Meta α)} (h : ∀ n, look ms n = look ms' n) (k : DimKind) :
    dimDraws E v k ms = dimDraws E v k ms' := by
  have hp := fun j n => pointOf_perm E v h j n
  have hf : ∀ d, formatOf E d ms = formatOf E d ms' := by intro d; unfold formatOf; rw [h]
  have hl : ∀ j x a b, legOf E v j x ms a b = legOf E v j x ms' a b := by
    intro j x a b; unfold legOf; rw [h]; simp only [hp]
  cases k <;> simp only [dimDraws, dimDraws.circ, hp, hf, hl]

theorem goodDim_nodup {k : DimKind} {ms : List (Meta α)} (h : GoodDim k ms) : (ms.map (fun m => m.name)).Nodup := by
  cases k
  · exact h.1.once
  · exact h.once
  · exact h.once
  · exact h.once

/-- when the assertion in GetRotated fails -/
def Stuck (v : Vis α) (k : DimKind) (ms : List (Meta α)) : Prop :=
  match k with
  | .dim => GoodDim .dim ms
  | .angle => GoodDim .angle ms
  | _ => (ms.map (fun m => m.name)).Nodup ∧ Has ms c!"at" ∧ Has ms c!"dir" ∧ Has ms c!"center" ∧ ¬ v.points.length < 3

theorem stuck_perm (v : Vis α) (k : DimKind) {ms ms' : List (Meta α)} (h : ms.Perm ms') : Stuck v k ms ↔ Stuck v k ms' := by
  cases k <;> simp only [Stuck, goodDim_perm h, nodup_perm h, has_perm h]

theorem visitDimN_stuck (E : Env α) (v : Vis α) (d : DimN α) (hr : v.rotation.eqv E.junkM = true) :
    (Stuck v d.kind d.metas → visitDimN E v d = .error .check) ∧
    (¬ Stuck v d.kind d.metas → ∃ d' L, L ≠ [] ∧ visitDimN E v d = .ok (false, d', v.errs L)) := by
  have circ : ∀ k dr, ((d.metas.map (fun m => m.name)).Nodup ∧ Has d.metas c!"at" ∧ Has d.metas c!"dir" ∧ Has d.metas c!"center" ∧ ¬ v.points.length < 3 →
      visitCirc E k dr ⟨d.metas, v⟩ d.line = .error .check) ∧
      (¬ ((d.metas.map (fun m => m.name)).Nodup ∧ Has d.metas c!"at" ∧ Has d.metas c!"dir" ∧ Has d.metas c!"center" ∧ ¬ v.points.length < 3) →
        ∃ L, L ≠ [] ∧ visitCirc E k dr ⟨d.metas, v⟩ d.line = .ok (false, ⟨d.metas, v.errs L⟩)) := by
    intro k dr
    obtain ⟨t1, t2, -⟩ := visitCirc_table E k dr d.metas v d.line
    refine ⟨fun h => t2 h.1 h.2.1 h.2.2.1 h.2.2.2.1 h.2.2.2.2 hr, fun h => t1 ?_⟩
    by_cases hp : v.points.length < 3
    · exact Or.inr hp
    · exact Or.inl (fun hc => h ⟨hc.1, hc.2.1, hc.2.2.1, hc.2.2.2, hp⟩)
  unfold visitDimN
  simp only [bind, Except.bind]
  cases hk : d.kind <;> simp only [Stuck]
  · obtain ⟨t1, t2, -⟩ := visitAngle_table E d.metas v d.line
    exact ⟨fun h => by rw [t2 h hr], fun h => by obtain ⟨L, hL, e⟩ := t1 h; rw [e]; exact ⟨_, L, hL, rfl⟩⟩
  · exact ⟨fun h => by rw [(circ _ _).1 h], fun h => by obtain ⟨L, hL, e⟩ := (circ _ _).2 h; rw [e]; exact ⟨_, L, hL, rfl⟩⟩
  · obtain ⟨t1, t2, -⟩ := visitDim_table E d.metas v d.line
    exact ⟨fun h => by rw [t2 h hr], fun h => by obtain ⟨L, hL, e⟩ := t1 h; rw [e]; exact ⟨_, L, hL, rfl⟩⟩
  · exact ⟨fun h => by rw [(circ _ _).1 h], fun h => by obtain ⟨L, hL, e⟩ := (circ _ _).2 h; rw [e]; exact ⟨_, L, hL, rfl⟩⟩

theorem dimContent_shuffled (E : Env α) (v : Vis α) {d d' : DimN α} (h : d.Shuffled d') :
    (dimContent E v d).map (fun c => (c.1, c.2.1)) = (dimContent E v d').map (fun c => (c.1, c.2.1)) := by
  obtain ⟨hk, -, hp⟩ := h
  unfold dimContent
  cases hr : v.base.rotation.eqv E.junkM with
  | true =>
    obtain ⟨a1, a2⟩ := visitDimN_stuck E v.base d hr
    obtain ⟨b1, b2⟩ := visitDimN_stuck E v.base d' hr
    have hs : Stuck v.base d.kind d.metas ↔ Stuck v.base d'.kind d'.metas := by rw [hk]; exact stuck_perm _ _ hp
    by_cases h : Stuck v.base d.kind d.metas
    · rw [a1 h, b1 (hs.mp h)]
    · obtain ⟨x, L, -, e⟩ := a2 h
      obtain ⟨x', L', -, e'⟩ := b2 (fun h' => h (hs.mpr h'))
      rw [e, e']; rfl
  | false =>
    obtain ⟨a1, a2⟩ := visitDimN_spec E v.base d hr
    obtain ⟨b1, b2⟩ := visitDimN_spec E v.base d' hr
    have hg : GoodDim d.kind d.metas ↔ GoodDim d'.kind d'.metas := by rw [hk]; exact goodDim_perm hp _
    by_cases h : GoodDim d.kind d.metas
    · have he : dimDraws E v.base d.kind d.metas = dimDraws E v.base d'.kind d'.metas := by
        rw [hk]; exact dimDraws_perm E v.base (look_perm hp (goodDim_nodup h)) _
      cases hd : dimDraws E v.base d.kind d.metas with
      | none =>
        obtain ⟨x, L, e⟩ := a2 (Or.inr hd)
        obtain ⟨x', L', e'⟩ := b2 (Or.inr (he ▸ hd))
        rw [e, e']; rfl
      | some w =>
        obtain ⟨x, e⟩ := a1 h w hd
        obtain ⟨x', e'⟩ := b1 (hg.mp h) w (he ▸ hd)
        rw [e, e']; rfl
    · obtain ⟨x, L, e⟩ := a2 (Or.inl h)
      obtain ⟨x', L', e'⟩ := b2 (Or.inl (fun h' => h (hg.mpr h')))
      rw [e, e']; rfl

theorem visitDims_shuffled (E : Env α) : ∀ {ds ds' : List (DimN α)}, List.Forall₂ DimN.Shuffled ds ds' → ∀ v w : Vis α, v.SameCtx w → v.page = w.page →
    (visitDims E ds v).map (fun r => (r.1, r.2.2.page)) = (visitDims E ds' w).map (fun r => (r.1, r.2.2.page)) := by
  intro ds ds' h
  induction h with
  | nil => intro v w _ hp; simp [visitDims, Except.map, hp]
  | @cons d d' ds ds' hd _ ih =>
    intro v w hc hp
    have e1 := dimContent_any E v d
    have e2 := dimContent_any E w d'
    have e3 := dimContent_shuffled E v hd
    have e4 : dimContent E w d' = dimContent E v d' := by unfold dimContent; rw [base_ctx hc]
    rw [e4] at e2
    unfold visitDims
    simp only [bind, Except.bind]
    cases hx : visitDimN E v d with
    | error a =>
      rw [hx] at e1
      cases h1 : dimContent E v d with
      | ok c => rw [h1] at e1; simp [Except.map] at e1
      | error b =>
        rw [h1] at e1 e3
        cases h2 : dimContent E v d' with
        | ok c => rw [h2] at e3; simp [Except.map] at e3
        | error b' =>
          rw [h2] at e3 e2
          cases hy : visitDimN E w d' with
          | ok y => rw [hy] at e2; simp [Except.map] at e2
          | error a' =>
            rw [hy] at e2
            simp only [Except.map, Except.error.injEq] at e1 e2 e3 ⊢
            rw [e1, e2, e3]
    | ok x =>
      rw [hx] at e1
      cases h1 : dimContent E v d with
      | error c => rw [h1] at e1; simp [Except.map] at e1
      | ok b =>
        rw [h1] at e1 e3
        cases h2 : dimContent E v d' with
        | error c => rw [h2] at e3; simp [Except.map] at e3
        | ok b' =>
          rw [h2] at e3 e2
          cases hy : visitDimN E w d' with
          | error y => rw [hy] at e2; simp [Except.map] at e2
          | ok y =>
            rw [hy] at e2
            simp only [Except.map, Except.ok.injEq, Prod.mk.injEq] at e1 e2 e3 ⊢
            have hcx : x.2.2.SameCtx y.2.2 := by
              have c1 := visitDimN_ctx E v d x hx
              have c2 := visitDimN_ctx E w d' y hy
              exact ⟨c1.1.trans (hc.1.trans c2.1.symm), c1.2.1.trans (hc.2.1.trans c2.2.1.symm), c1.2.2.1.trans (hc.2.2.1.trans c2.2.2.1.symm),
                c1.2.2.2.trans (hc.2.2.2.trans c2.2.2.2.symm)⟩
            have hpx : x.2.2.page = y.2.2.page := by rw [e1.2.1, e2.2.1, e3.2, hp]
            have hbx : x.1 = y.1 := by rw [e1.1, e2.1, e3.1]
            have := ih x.2.2 y.2.2 hcx hpx
            revert this
            cases visitDims E ds x.2.2 <;> cases visitDims E ds' y.2.2 <;> intro this <;>
              simp only [Except.map, Except.ok.injEq, Except.error.injEq, reduceCtorEq, Prod.mk.injEq, pure, Except.pure] at this ⊢
            · exact this
            · exact ⟨by rw [hbx, this.1], this.2⟩

theorem content_shuffled (E : Env α) (stl : Models α) {d d' : Drawable α} (h : d.Shuffled d') :
    (content E stl d).map (fun c => (c.1, c.2.1)) = (content E stl d').map (fun c => (c.1, c.2.1)) := by
  cases h with
  | draw n ms ms' ds ds' l hp hd =>
    unfold content
    simp only [visitDrawable, bind, Except.bind]
    obtain ⟨x, ex, a1, a2, a3⟩ := visitDraw_out E stl n ms l
    obtain ⟨x', ex', b1, b2, b3⟩ := visitDraw_out E stl n ms' l
    rw [a3, b3]
    unfold drawOut
    have hx : x = [] ↔ x' = [] := by rw [a1, b1]; exact nodup_perm hp
    have hex : ex = [] ↔ ex' = [] := by
      rw [a2, b2]
      exact ⟨fun h m hm => h m (hp.mem_iff.mpr hm), fun h m hm => h m (hp.mem_iff.mp hm)⟩
    by_cases hn : x = []
    · have hk := look_perm hp (a1.mp hn)
      rw [if_neg (by simpa using hn), if_neg (by simpa using hx.mp hn), hk, hk, hk]
      cases scaleOf (look ms' c!"scale") with
      | error d => rfl
      | ok sc =>
        dsimp only
        cases stl.find? (fun e => decide (e.1 = n)) with
        | none => rfl
        | some e =>
          dsimp only
          cases viewOf (look ms' c!"view") with
          | error d => rfl
          | ok rot =>
            dsimp only
            cases locOf (look ms' c!"@") with
            | error a => rfl
            | ok loc =>
              dsimp only
              cases e.2 with
              | none => rfl
              | some file =>
                dsimp only
                cases file.rotate rot with
                | error a => rfl
                | ok proj =>
                  dsimp only
                  cases proj.cull.toLines E.sorter with
                  | error a => rfl
                  | ok ls =>
                    dsimp only
                    have := visitDims_shuffled E hd (drawStart (initVis E) sc rot loc proj.cull ls) _ ⟨rfl, rfl, rfl, rfl⟩ rfl
                    revert this
                    cases visitDims E ds (drawStart (initVis E) sc rot loc proj.cull ls) <;> cases visitDims E ds' (drawStart (initVis E) sc rot loc proj.cull ls) <;>
                      intro this <;> simp only [Except.map, Except.ok.injEq, Except.error.injEq, reduceCtorEq, Prod.mk.injEq, pure, Except.pure] at this ⊢
                    · exact this
                    · rename_i r r'
                      by_cases hr : r.1 = false
                      · rw [if_pos hr, if_pos (this.1 ▸ hr)]
                        simp [this.2]
                      · have hr' : ¬ r'.1 = false := by rw [← this.1]; exact hr
                        rw [if_neg hr, if_neg hr']
                        by_cases he : ex = []
                        · rw [if_neg (not_not.mpr he), if_neg (not_not.mpr (hex.mp he))]
                          simp [this.2]
                        · rw [if_pos he, if_pos (fun h => he (hex.mpr h))]
                          simp [this.2, Vis.errs]
    · rw [if_pos hn, if_pos (fun h => hn (hx.mpr h))]
      rfl
  | text s ms ms' l hp =>
    unfold content
    simp only [visitDrawable, bind, Except.bind]
    obtain ⟨x, ex, a1, a2, a3⟩ := visitText_out (α := α) s ms l
    obtain ⟨x', ex', b1, b2, b3⟩ := visitText_out (α := α) s ms' l
    rw [a3, b3]
    unfold textOut
    have hx : x = [] ↔ x' = [] := by rw [a1, b1]; exact nodup_perm hp
    have hex : ex = [] ↔ ex' = [] := by
      rw [a2, b2]
      exact ⟨fun h m hm => h m (hp.mem_iff.mpr hm), fun h m hm => h m (hp.mem_iff.mp hm)⟩
    by_cases hn : x = []
    · have hk := look_perm hp (a1.mp hn)
      rw [if_neg (by simpa using hn), if_neg (by simpa using hx.mp hn), hk]
      cases textLocOf (look ms' c!"@") with
      | error a => rfl
      | ok p =>
        have : ex.isEmpty = ex'.isEmpty := by rw [Bool.eq_iff_iff, List.isEmpty_iff, List.isEmpty_iff, hex]
        simp [Except.map, pure, Except.pure, Vis.errs, this]
    · rw [if_pos hn, if_pos (fun h => hn (hx.mpr h))]
      rfl

theorem visitDrawables_shuffled (E : Env α) (stl : Models α) : ∀ {ds ds' : List (Drawable α)}, List.Forall₂ Drawable.Shuffled ds ds' → ∀ v w : Vis α,
    v.page = w.page →
    (visitDrawables E stl ds v).map (fun r => (r.1, r.2.2.page)) = (visitDrawables E stl ds' w).map (fun r => (r.1, r.2.2.page)) := by
  intro ds ds' h
  induction h with
  | nil => intro v w hp; simp [visitDrawables, Except.map, hp]
  | @cons d d' ds ds' hd _ ih =>
    intro v w hp
    have e1 := content_any E stl v d
    have e2 := content_any E stl w d'
    have e3 := content_shuffled E stl hd
    unfold visitDrawables
    simp only [bind, Except.bind]
    revert e1 e2 e3
    cases content E stl d <;> cases content E stl d' <;> cases visitDrawable E stl v d <;> cases visitDrawable E stl w d' <;> intro e1 e2 e3 <;>
      simp only [Except.map, Except.ok.injEq, Except.error.injEq, reduceCtorEq, Prod.mk.injEq, pure, Except.pure] at e1 e2 e3 ⊢
    · rw [e1, e2, e3]
    · rename_i x y
      have hpx : x.2.2.page = y.2.2.page := by rw [e1.2.1, e2.2.1, e3.2, hp]
      have hbx : x.1 = y.1 := by rw [e1.1, e2.1, e3.1]
      have := ih x.2.2 y.2.2 hpx
      revert this
      cases visitDrawables E stl ds x.2.2 <;> cases visitDrawables E stl ds' y.2.2 <;> intro this <;>
        simp only [Except.map, Except.ok.injEq, Except.error.injEq, reduceCtorEq, Prod.mk.injEq, pure, Except.pure] at this ⊢
      · exact this
      · exact ⟨by rw [hbx, this.1], this.2⟩

theorem genPage_shuffled (E : Env α) (stl : Models α) {p p' : PageN α} (h : p.Shuffled p') (n : Nat) (v w : Vis α) :
    (genPage E stl v n p).map (fun r => r.1) = (genPage E stl w n p').map (fun r => r.1) ∧
    ((p.metas.map (fun m => m.name)).Nodup →
      (genPage E stl v n p).map (fun r => (r.1, r.2.2.page)) = (genPage E stl w n p').map (fun r => (r.1, r.2.2.page))) := by
  obtain ⟨-, hp, hd⟩ := h
  obtain ⟨x, xl, a1, a2⟩ := genPage_out E stl p
  obtain ⟨x', xl', b1, b2⟩ := genPage_out E stl p'
  obtain ⟨ex, a3, -, a4⟩ := a2 n
  obtain ⟨ex', b3, -, b4⟩ := b2 n
  rw [a4, b4]
  have hx : x.isEmpty = x'.isEmpty := by rw [Bool.eq_iff_iff, List.isEmpty_iff, List.isEmpty_iff, a1, b1]; exact nodup_perm hp
  have hex : ex.isEmpty = ex'.isEmpty := by
    rw [Bool.eq_iff_iff, List.isEmpty_iff, List.isEmpty_iff, a3, b3]
    exact ⟨fun h m hm => h m (hp.mem_iff.mpr hm), fun h m hm => h m (hp.mem_iff.mp hm)⟩
  have key := visitDrawables_shuffled E stl hd
    { v with page := OutPage.empty, log := v.log ++ (x ++ (titleOf (look p.metas c!"name")).2) }
    { w with page := OutPage.empty, log := w.log ++ (x' ++ (titleOf (look p'.metas c!"name")).2) } rfl
  have hk : x = [] → look p.metas c!"name" = look p'.metas c!"name" := fun h => look_perm hp (a1.mp h) _
  revert key
  generalize visitDrawables E stl p.draws _ = R
  generalize visitDrawables E stl p'.draws _ = R'
  intro key
  cases R <;> cases R' <;> simp only [Except.map, Except.ok.injEq, Except.error.injEq, reduceCtorEq, Prod.mk.injEq] at key ⊢
  · exact ⟨key, fun _ => key⟩
  · obtain ⟨k1, k2⟩ := key
    refine ⟨?_, fun hn => ?_⟩
    · by_cases h : x = []
      · rw [hx, hex, k1, hk h]
      · have h1 : x.isEmpty = false := by simpa using h
        rw [hx] at h1
        simp [hx, h1]
    · rw [hx, hex, k1, k2, hk (a1.mpr hn)]
      exact ⟨rfl, rfl⟩

theorem genPages_shuffled (E : Env α) (stl : Models α) : ∀ {ps ps' : List (PageN α)}, List.Forall₂ PageN.Shuffled ps ps' → ∀ (n : Nat) (v w : Vis α),
    (genPages E stl ps n v).map (fun r => r.1) = (genPages E stl ps' n w).map (fun r => r.1) ∧
    ((∀ p ∈ ps, (p.metas.map (fun m => m.name)).Nodup) →
      (genPages E stl ps n v).map (fun r => (r.1, r.2.1)) = (genPages E stl ps' n w).map (fun r => (r.1, r.2.1))) := by
  intro ps ps' h
  induction h with
  | nil => intro n v w; simp [genPages, Except.map]
  | @cons p p' ps ps' hd _ ih =>
    intro n v w
    obtain ⟨g1, g2⟩ := genPage_shuffled E stl hd (n + 1) v w
    unfold genPages
    simp only [bind, Except.bind]
    revert g1 g2
    cases genPage E stl v (n + 1) p <;> cases genPage E stl w (n + 1) p' <;> intro g1 g2 <;>
      simp only [Except.map, Except.ok.injEq, Except.error.injEq, reduceCtorEq, Prod.mk.injEq, pure, Except.pure] at g1 g2 ⊢
    · exact ⟨g1, fun _ => g1⟩
    · rename_i x y
      obtain ⟨i1, i2⟩ := ih (n + 1) x.2.2 y.2.2
      revert i1 i2
      cases genPages E stl ps (n + 1) x.2.2 <;> cases genPages E stl ps' (n + 1) y.2.2 <;> intro i1 i2 <;>
        simp only [Except.map, Except.ok.injEq, Except.error.injEq, reduceCtorEq, Prod.mk.injEq, pure, Except.pure] at i1 i2 ⊢
      · exact ⟨i1, fun _ => i1⟩
      · refine ⟨by rw [g1, i1], fun hn => ?_⟩
        obtain ⟨j1, j2⟩ := g2 (hn p (by simp))
        obtain ⟨k1, k2⟩ := i2 (fun q hq => hn q (by simp [hq]))
        exact ⟨by rw [j1, k1], by rw [j2, k2]⟩

end S2P
