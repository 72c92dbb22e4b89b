import Verif.Lemmas.Snap
import Verif.Props.Paper
import Verif.Props.AccuracyDim
import Verif.Lemmas.RealSample

set_option linter.unusedSectionVars false
set_option linter.unusedVariables false
set_option linter.unusedSimpArgs false

/-! # C77: dimensions at points picked by `near`

[exact arithmetic] -/

namespace S2P

/-- **C77.** An accepted drawing whose dimensions use `near` (inside one another, too) looks exactly as if the corner of the model were written in
place of each `near(p)`: a corner of a facet seen that appears nearest to `p`.  This holds for diameters, radii, and for linear dimensions along a direction
square to the line of sight. -/
theorem C77_drawing (E : Env (Ext ℝ)) (hS : SortOK E.sorter) (hJ : E.NotAView) (stl : Models (Ext ℝ)) (hM : stl.Made) (name : Str) (ms : List (Meta (Ext ℝ)))
    (dims : List (DimN (Ext ℝ))) (line : Nat) (hf : (Drawable.draw name ms dims line).IsFin) (hat : (Drawable.draw name ms dims line).AtLoc)
    (hd : (Drawable.draw name ms dims line).Flat) (c)
    (h : content E stl (.draw name ms dims line) = .ok c) (hc : c.1 = true) :
    ∃ (r : M3 ℝ) (file : STLFile (Ext ℝ)) (dims' : List (DimN (Ext ℝ))) (c' : Bool × OutPage (Ext ℝ) × List Diag),
      viewOf (look ms c!"view") = .ok r.fin ∧ (∃ e, stl.find? (fun e => decide (e.1 = name)) = some e ∧ e.2 = some file) ∧
      List.Forall₂ (DimN.WrittenOut r file) dims dims' ∧ content E stl (.draw name ms dims' line) = .ok c' ∧ c'.1 = true ∧ c'.2.1 = c.2.1 := by
  rcases draw_sum E stl name ms dims line c h with ⟨h1, -⟩ | ⟨sc, rot, loc, file, proj, ls, cs, hD, hcs, hp, hok, -⟩
  · rw [h1] at hc; cases hc
  obtain ⟨r, rfl, hr⟩ := viewOf_rotation _ (look_fin hf.1 _) _ hD.view
  obtain ⟨en, hen, hfile⟩ := hD.model
  obtain ⟨file', hf', hmade⟩ := hM en (List.mem_of_find?_eq_some hen)
  rw [hfile] at hf'; injection hf' with hf'; subst hf'
  obtain ⟨qs, hqs, hq⟩ := points_seen E.sorter hS file proj hmade r hr hD.turned ls hD.lines
  generalize hv : drawStart (initVis E) sc r.fin loc proj.cull ls = v at *
  have hvr : v.rotation = r.fin := by rw [← hv]; rfl
  have hvp : v.points = qs.map V3.fin := by rw [← hv]; exact hqs
  have hvj : v.rotation.eqv E.junkM = false := by rw [hvr]; exact hJ r hr
  obtain ⟨hall, hnames⟩ := hok.1 hc
  obtain ⟨dims', w1, w2⟩ : ∃ dims', List.Forall₂ (DimN.WrittenOut r file) dims dims' ∧
      List.Forall₂ (fun d (k : Bool × OutPage (Ext ℝ) × List Diag) => ∃ L, dimContent E v d = .ok (true, k.2.1, L)) dims' cs := by
    have gen : ∀ (ds : List (DimN (Ext ℝ))) (cs : List (Bool × OutPage (Ext ℝ) × List Diag)), List.Forall₂ (fun d k => dimContent E v d = .ok k) ds cs →
        (∀ k ∈ cs, k.1 = true) → (∀ d ∈ ds, d.IsFin) → (∀ d ∈ ds, d.Flat r) → ∃ dims', List.Forall₂ (DimN.WrittenOut r file) ds dims' ∧
      List.Forall₂ (fun d (k : Bool × OutPage (Ext ℝ) × List Diag) => ∃ L, dimContent E v d = .ok (true, k.2.1, L)) dims' cs := by
     intro ds cs hcs
     induction hcs with
     | nil => exact fun _ _ _ => ⟨[], .nil, .nil⟩
     | @cons d k ds cs hk _ ih =>
      intro hall hdf hdd
      obtain ⟨ds', i1, i2⟩ := ih (fun k hk => hall k (List.mem_cons_of_mem _ hk)) (fun d hd => hdf d (List.mem_cons_of_mem _ hd))
        (fun d hd => hdd d (List.mem_cons_of_mem _ hd))
      obtain ⟨a1, a2⟩ := dimContent_items E v d hvj
      have hk1 := hall k List.mem_cons_self
      have hg : GoodDim d.kind d.metas := by
        by_contra hg
        obtain ⟨L, e⟩ := a2 (Or.inl hg)
        rw [hk] at e; cases e; cases hk1
      cases hi : drawnItems E v d.kind d.metas with
      | none =>
        obtain ⟨L, e⟩ := a2 (Or.inr hi)
        rw [hk] at e; cases e; cases hk1
      | some P =>
        obtain ⟨d', b1, b2, b3⟩ := drawnItems_written hr hq E v hvr hvp d (hdf d List.mem_cons_self) (hdd d List.mem_cons_self) hg P hi
        obtain ⟨L, e⟩ := a1 P hg hi
        rw [hk] at e; cases e
        obtain ⟨L', e'⟩ := (dimContent_items E v d' hvj).1 P b2 b3
        exact ⟨d' :: ds', .cons b1 i1, .cons ⟨L', e'⟩ i2⟩
    exact gen dims cs hcs hall hf.2 (hd r hD.view)
  refine ⟨r, file, dims', ?_⟩
  have hfin' : (Drawable.draw name ms dims' line).IsFin := by
    refine ⟨hf.1, ?_⟩
    intro d' hd'
    obtain ⟨d, hd0, hw⟩ := forall₂_right w1 d' hd'
    intro m' hm'
    obtain ⟨m, hm0, hw2⟩ := forall₂_right hw.2.2 m' hm'
    have := hf.2 d hd0 m hm0
    obtain ⟨-, -, hw2⟩ := hw2
    cases hval : m.val with
    | pt e =>
      simp only [hval] at hw2
      obtain ⟨x, l, -, e2⟩ := hw2
      rw [e2]
      exact ⟨x, rfl⟩
    | _ => simp only [hval] at hw2 this; rw [hw2]; exact this
  obtain ⟨c', hc'⟩ := content_ok E hS hJ stl hM (.draw name ms dims' line) hfin' hat
  refine ⟨c', hD.view, ⟨en, hen, hfile⟩, w1, hc', ?_⟩
  rcases draw_sum E stl name ms dims' line c' hc' with ⟨-, -, -, h1⟩ | ⟨sc', rot', loc', file', proj', ls', cs', hD', hcs', hp', hok', -⟩
  · exact absurd ⟨_, _, _, _, _, _, hD⟩ h1
  obtain ⟨rfl, rfl, rfl, rfl, rfl, rfl⟩ := drawn_unique hD hD'
  rw [hv] at hcs' hp'
  have e : (∀ k ∈ cs', k.1 = true) ∧ cs'.map (fun k => k.2.1) = cs.map (fun k => k.2.1) := by
    clear * - hcs' w2
    induction w2 generalizing cs' with
    | nil => cases hcs'; simp
    | cons h1 _ ih =>
      cases hcs' with
      | cons g1 g2 =>
        obtain ⟨L, e⟩ := h1
        rw [e] at g1
        cases g1
        obtain ⟨i1, i2⟩ := ih _ g2
        refine ⟨?_, by simp only [List.map_cons, i2]⟩
        intro k hk
        rcases List.mem_cons.1 hk with rfl | hk
        · rfl
        · exact i1 k hk
  exact ⟨hok'.2 ⟨e.1, hnames⟩, by rw [hp', hp, e.2]⟩

theorem look_written {r : M3 ℝ} {file : STLFile (Ext ℝ)} {ms ms' : List (Meta (Ext ℝ))} (h : List.Forall₂ (Meta.WrittenOut r file) ms ms') (n : Str) :
    (∀ m', look ms' n = some m' → ∃ m, look ms n = some m ∧ Meta.WrittenOut r file m m') ∧ (look ms' n = none → look ms n = none) := by
  unfold look
  induction h with
  | nil => simp
  | @cons m m' ms ms' h _ ih =>
    have hn := h.1
    by_cases e : m.name = n
    · rw [List.find?_cons_of_pos (by simpa [hn] using e), List.find?_cons_of_pos (by simpa using e)]
      exact ⟨fun x hx => ⟨m, rfl, by cases hx; exact h⟩, by simp⟩
    · rw [List.find?_cons_of_neg (by simpa [hn] using e), List.find?_cons_of_neg (by simpa using e)]
      exact ih

theorem format_written {r : M3 ℝ} {file : STLFile (Ext ℝ)} {ms ms' : List (Meta (Ext ℝ))} (h : List.Forall₂ (Meta.WrittenOut r file) ms ms') (E : Env (Ext ℝ))
    (s : Str) : formatOf E s ms' = formatOf E s ms := by
  obtain ⟨h1, h2⟩ := look_written h c!"fmt"
  unfold formatOf
  cases hl : look ms' c!"fmt" with
  | none => rw [h2 hl]
  | some m' =>
    obtain ⟨m, e, -, -, hw⟩ := h1 m' hl
    rw [e]
    dsimp only
    cases hv : m.val with
    | pt e => rw [hv] at hw; obtain ⟨x, l, -, e'⟩ := hw; rw [e']
    | _ => rw [hv] at hw; dsimp only at hw; rw [hw]

/-- **C77**, of the number: an accepted drawing has, for each linear dimension along a direction square to the line of sight, a label with the distance along
that direction between the two points of the model picked. -/
theorem C77_label (E : Env (Ext ℝ)) (hS : SortOK E.sorter) (hJ : E.NotAView) (stl : Models (Ext ℝ)) (hM : stl.Made) (name : Str) (ms : List (Meta (Ext ℝ)))
    (dims : List (DimN (Ext ℝ))) (line : Nat) (hf : (Drawable.draw name ms dims line).IsFin) (hat : (Drawable.draw name ms dims line).AtLoc)
    (hd : (Drawable.draw name ms dims line).Flat) (c)
    (h : content E stl (.draw name ms dims line) = .ok c) (hc : c.1 = true) (d : DimN (Ext ℝ)) (hmem : d ∈ dims) (hk : d.kind = .dim) (u : V3 ℝ)
    (hu : Literal d.metas c!"dir" u) (hne : u ≠ ⟨0, 0, 0⟩) (g : Ext ℝ → Str) (hfmt : formatOf E c!"%.3f" d.metas = some g) :
    ∃ (r : M3 ℝ) (file : STLFile (Ext ℝ)) (p q : V3 ℝ), viewOf (look ms c!"view") = .ok r.fin ∧
      (∃ e, stl.find? (fun e => decide (e.1 = name)) = some e ∧ e.2 = some file) ∧ PicksAt r file d.metas c!"from" p ∧ PicksAt r file d.metas c!"to" q ∧
      ∃ item ∈ c.2.1.text, item.str = g (.fin (|(q - p).dot u| / len3 u)) ∧ item.center = true := by
  obtain ⟨r, file, dims', c', a1, a2, a3, a4, a5, a6⟩ := C77_drawing E hS hJ stl hM name ms dims line hf hat hd c h hc
  obtain ⟨d', hd', hk', -, hw⟩ := forall₂_left_mem a3 hmem
  rcases draw_sum E stl name ms dims' line c' a4 with ⟨h1, -⟩ | ⟨sc, rot, loc, file', proj, ls, cs, hD, hcs, hp, hok, -⟩
  · rw [h1] at a5; cases a5
  have erot := hD.view
  rw [a1] at erot
  injection erot with erot
  subst erot
  obtain ⟨r2, er, hr⟩ := viewOf_rotation _ (look_fin hf.1 _) _ a1
  obtain rfl : r2 = r := by
    simpa [M3.fin, M3.map, V3.fin, V3.map, M3.ext_iff, V3.ext_iff, eq_comm] using er.symm
  have hj : (drawStart (initVis E) sc r2.fin loc proj.cull ls).rotation.eqv E.junkM = false := hJ r2 hr
  obtain ⟨k, hk2, hdk⟩ := forall₂_left_mem hcs hd'
  have hg : GoodDim d'.kind d'.metas := by
    by_contra hg
    obtain ⟨L, e⟩ := (dimContent_items E _ d' hj).2 (Or.inl hg)
    have := (hok.1 a5).1 k hk2
    rw [hdk] at e
    injection e with e
    rw [e] at this; cases this
  have lit : ∀ n j x, pointOf E (drawStart (initVis E) sc r2.fin loc proj.cull ls) j d'.metas n = some x →
      ∃ p, PicksAt r2 file d.metas n p ∧ Literal d'.metas n p := by
    intro n j x hx
    unfold pointOf at hx
    cases hl : look d'.metas n with
    | none => rw [hl] at hx; cases hx
    | some m' =>
      obtain ⟨m, e, -, -, hw2⟩ := (look_written hw n).1 m' hl
      cases hv : m.val with
      | pt e' => rw [hv] at hw2; obtain ⟨p, l, e1, e2⟩ := hw2; exact ⟨p, ⟨m, e', e, hv, e1⟩, m', l, hl, e2⟩
      | _ => rw [hv] at hw2; dsimp only at hw2; rw [hl] at hx; simp only [hw2] at hx; cases hx
  obtain ⟨P, hP⟩ : ∃ P, drawnItems E (drawStart (initVis E) sc r2.fin loc proj.cull ls) d'.kind d'.metas = some P := by
    cases hP : drawnItems E (drawStart (initVis E) sc r2.fin loc proj.cull ls) d'.kind d'.metas with
    | some P => exact ⟨P, rfl⟩
    | none =>
      obtain ⟨L, e⟩ := (dimContent_items E _ d' hj).2 (Or.inr hP)
      have := (hok.1 a5).1 k hk2
      rw [hdk] at e
      injection e with e
      rw [e] at this; cases this
  rw [hk', hk] at hP
  simp only [drawnItems, bind, Option.bind_eq_some_iff] at hP
  obtain ⟨xa, ea, xu, eu, xf, ef, xt, et, -⟩ := hP
  obtain ⟨a, -, la⟩ := lit _ _ _ ea
  obtain ⟨p, pp, lp⟩ := lit _ _ _ ef
  obtain ⟨q, pq, lq⟩ := lit _ _ _ et
  obtain ⟨u', pu, lu⟩ := lit _ _ _ eu
  obtain rfl : u' = u := by
    obtain ⟨m, e, e1, e2, e3⟩ := pu
    obtain ⟨m', l, e1', e2'⟩ := hu
    rw [e1] at e1'; cases e1'
    rw [e2] at e2'
    injection e2' with e2'
    exact picks_literal e3 u l e2'
  obtain ⟨P, L, e1, e2⟩ := C40_label E hJ (drawStart (initVis E) sc r2.fin loc proj.cull ls) r2 hr rfl d' (hk'.trans hk) hg a u' p q la lu lp lq g
    (by rw [format_written hw]; exact hfmt) hne
  rw [hdk] at e1
  injection e1 with e1
  subst e1
  refine ⟨r2, file, p, q, a1, a2, pp, pq, ⟨(a.mulM r2).xy.fin.moved (drawStart (initVis E) sc r2.fin loc proj.cull ls).scale
    (drawStart (initVis E) sc r2.fin loc proj.cull ls).d, g (.fin (|(q - p).dot u'| / len3 u')), true, false⟩, ?_, rfl, rfl⟩
  rw [← a6, hp]
  simp only [OutPage.app, List.mem_append]
  exact Or.inr ((mem_sum_text _).2 ⟨P, List.mem_map.2 ⟨_, hk2, rfl⟩, by rw [e2]; exact List.mem_singleton_self _⟩)

/-- Two documents of which corresponding drawings do the same give the same pages. -/
theorem pages_alike {α : Type} [FP α] (E : Env α) (stl : Models α) (models models' : List ModelN) (pgs pgs' : List (PageN α)) (g : GenRes α)
    (h : generatePages E stl ⟨models, pgs⟩ [] = .ok g) (hok : g.ok = true)
    (hp : List.Forall₂ (fun p p' => p'.metas = p.metas ∧ List.Forall₂ (fun d d' => ∀ c, content E stl d = .ok c → c.1 = true →
      ∃ c', content E stl d' = .ok c' ∧ c'.1 = true ∧ c'.2.1 = c.2.1) p.draws p'.draws) pgs pgs') :
    ∃ g', generatePages E stl ⟨models', pgs'⟩ [] = .ok g' ∧ g'.ok = true ∧ g'.pages = g.pages := by
  obtain ⟨k1, k2'⟩ := generatePages_each E stl _ g h
  have k2 := k2'.1 hok
  clear k2'
  dsimp only at k1 k2
  have each : List.Forall₂ (fun (p' : PageN α) o => ∃ g, onePage E stl p' = .ok g ∧ g.ok = true ∧ g.pages = [o]) pgs' g.pages ∧
      ∀ p' ∈ pgs', ∀ d ∈ p'.draws, ∃ c, content E stl d = .ok c := by
    generalize g.pages = os at k1
    clear h
    induction hp generalizing os with
    | nil => cases k1; exact ⟨.nil, by simp⟩
    | @cons p p' ps ps' hpp _ ih =>
      cases k1 with
      | @cons _ o _ os t1 t2 =>
        obtain ⟨i1, i2⟩ := ih (fun x hx => k2 x (List.mem_cons_of_mem _ hx)) os t2
        obtain ⟨g1, e1, e2⟩ := t1
        obtain ⟨g1', e1', e3⟩ := k2 p List.mem_cons_self
        rw [e1] at e1'; cases e1'
        obtain ⟨cs, c1, ⟨t, ht, c2⟩, c3⟩ := C58_page E stl p g1 e1
        obtain ⟨m1, m2, m3⟩ := c3.1 e3
        obtain ⟨cs', d1, d2⟩ : ∃ cs', List.Forall₂ (fun d c => content E stl d = .ok c) p'.draws cs' ∧ (∀ c ∈ cs', c.1 = true) ∧
            cs'.map (fun c => c.2.1) = cs.map (fun c => c.2.1) := by
          have hd := hpp.2
          clear * - hd c1 m3
          generalize p.draws = pd at *
          generalize p'.draws = pd' at *
          induction hd generalizing cs with
          | nil => cases c1; exact ⟨[], .nil, by simp⟩
          | cons a1 _ ih =>
            cases c1 with
            | @cons _ c _ cs b1 b2 =>
              obtain ⟨cs', j1, j2, j3⟩ := ih cs (fun x hx => m3 x (List.mem_cons_of_mem _ hx)) b2
              obtain ⟨c', q1, q2, q3⟩ := a1 c b1 (m3 c List.mem_cons_self)
              refine ⟨c' :: cs', .cons q1 j1, ?_, by simp only [List.map_cons, q3, j3]⟩
              intro x hx
              rcases List.mem_cons.1 hx with rfl | hx
              · exact q2
              · exact j2 x hx
        have hcon : ∀ d ∈ p'.draws, ∃ c, content E stl d = .ok c := fun d hd => by
          obtain ⟨c, -, hc⟩ := forall₂_left_mem d1 hd
          exact ⟨c, hc⟩
        obtain ⟨g2, f1⟩ := generatePages_ok E stl ⟨[], [p']⟩ [] (by
          intro x hx
          simp only [List.mem_singleton] at hx
          subst hx
          exact hcon)
        obtain ⟨cs2, n1, ⟨t', ht', n2⟩, n3⟩ := C58_page E stl p' g2 f1
        have ecs : cs2 = cs' := by
          clear * - n1 d1
          generalize p'.draws = pd' at *
          induction d1 generalizing cs2 with
          | nil => cases n1; rfl
          | cons a _ ih =>
            cases n1 with
            | cons b1 b2 => rw [a] at b1; cases b1; rw [ih _ b2]
        subst ecs
        have et : t' = t := by
          rw [hpp.1] at ht'
          clear * - ht ht'
          unfold titled at ht ht'
          cases hl : look p.metas c!"name" with
          | none => rw [hl] at ht ht'; rw [ht, ht']
          | some m =>
            rw [hl] at ht ht'
            dsimp only at ht ht'
            cases hm : m.val <;> rw [hm] at ht ht' <;> dsimp only at ht ht' <;> rw [ht, ht']
        subst et
        refine ⟨.cons ⟨g2, f1, n3.2 ⟨by rw [hpp.1]; exact m1, by rw [hpp.1]; exact m2, d2.1⟩, ?_⟩ i1, ?_⟩
        · rw [n2, d2.2, ← c2, e2]
        · intro x hx
          rcases List.mem_cons.1 hx with rfl | hx
          · exact hcon
          · exact i2 x hx
  obtain ⟨g', hg'⟩ := generatePages_ok E stl ⟨models', pgs'⟩ [] each.2
  obtain ⟨j1, j2⟩ := generatePages_each E stl _ g' hg'
  dsimp only at j1 j2
  refine ⟨g', hg', j2.2 ?_, ?_⟩
  · intro p hp
    obtain ⟨o, -, g, a, b, -⟩ := forall₂_left_mem each.1 hp
    exact ⟨g, a, b⟩
  · have e := each.1
    generalize g.pages = os at e
    generalize g'.pages = os' at j1
    clear * - e j1
    induction e generalizing os' with
    | nil => cases j1; rfl
    | cons a _ ih =>
      cases j1 with
      | cons b c =>
        obtain ⟨g1, a1, -, a2⟩ := a
        obtain ⟨g2, b1, b2⟩ := b
        rw [a1] at b1; cases b1
        rw [a2] at b2
        cases b2
        rw [ih _ c]

theorem forall₂_of_each {A B : Type} {Q S : A → B → Prop} (as : List A) (h : ∀ a ∈ as, ∃ b, Q a b ∧ S a b) :
    ∃ bs, List.Forall₂ Q as bs ∧ List.Forall₂ S as bs := by
  induction as with
  | nil => exact ⟨[], .nil, .nil⟩
  | cons a as ih =>
    obtain ⟨b, h1, h2⟩ := h a List.mem_cons_self
    obtain ⟨bs, i1, i2⟩ := ih fun x hx => h x (List.mem_cons_of_mem _ hx)
    exact ⟨b :: bs, .cons h1 i1, .cons h2 i2⟩

/-- **C77**, of a run: the output is, byte for byte, that of the script with the corner of the model in place of each `near(p)`. -/
theorem C77_run (E : Env (Ext ℝ)) (hS : SortOK E.sorter) (hJ : E.NotAView) (w : World) (src script : Str) (doc : Doc (Ext ℝ))
    (hp : parse script = .ok (some doc)) (hd : ∀ pg ∈ doc.pages, ∀ d ∈ pg.draws, d.Flat) (r : RunRes) (h : scriptToPS E w src script = .ok r) (hok : r.ok = true) :
    ∃ pgs' r', List.Forall₂ (PageN.WrittenOut E.loadPath w doc.models) doc.pages pgs' ∧ docToPS E w src ⟨doc.models, pgs'⟩ = .ok r' ∧ r'.ok = true ∧
      r'.out = r.out := by
  rw [scriptToPS_some E w src script doc hp] at h
  have hf := parse_isFin script doc hp
  have ha := parse_atLoc script doc hp
  unfold docToPS at h
  simp only [bind, Except.bind] at h
  cases hl : loadFiles E w doc.models with
  | error a => rw [hl] at h; cases h
  | ok l =>
    rw [hl] at h
    dsimp only at h
    cases hk : l.ok with
    | false => rw [hk] at h; cases h; cases hok
    | true =>
      rw [hk] at h
      simp only [Bool.not_true, Bool.false_eq_true, if_false] at h
      cases hg : generatePages E l.stl doc [] with
      | error a => rw [hg] at h; cases h
      | ok g =>
        rw [hg] at h
        dsimp only at h
        cases hgk : g.ok with
        | false => rw [hgk] at h; cases h; cases hok
        | true =>
          rw [hgk] at h
          cases h
          have hM := loaded_made E w _ l hl hk
          obtain ⟨fs, hfs, estl⟩ := (C47_load E w doc.models l hl).2 hk
          have hcon := generatePages_each E l.stl doc g hg
          obtain ⟨pgs', b1, b2⟩ : ∃ pgs', List.Forall₂ (PageN.WrittenOut E.loadPath w doc.models) doc.pages pgs' ∧
              List.Forall₂ (fun (p p' : PageN (Ext ℝ)) => p'.metas = p.metas ∧ List.Forall₂ (fun d d' => ∀ c, content E l.stl d = .ok c → c.1 = true →
                ∃ c', content E l.stl d' = .ok c' ∧ c'.1 = true ∧ c'.2.1 = c.2.1) p.draws p'.draws) doc.pages pgs' := by
            have hcon : ∀ p ∈ doc.pages, ∀ d ∈ p.draws, ∃ c, content E l.stl d = .ok c ∧ c.1 = true := by
              intro p hp' d hd'
              obtain ⟨g1, e1, e2⟩ := hcon.2.1 hgk p hp'
              obtain ⟨cs, c1, -, c3⟩ := C58_page E l.stl p g1 e1
              obtain ⟨c, hc, e⟩ := forall₂_left_mem c1 hd'
              exact ⟨c, e, (c3.1 e2).2.2 c hc⟩
            have one : ∀ p ∈ doc.pages, ∀ d ∈ p.draws, ∃ d', Drawable.WrittenOut E.loadPath w doc.models d d' ∧ ∀ c, content E l.stl d = .ok c → c.1 = true →
                ∃ c', content E l.stl d' = .ok c' ∧ c'.1 = true ∧ c'.2.1 = c.2.1 := by
              intro p hp' d hd'
              obtain ⟨c, e1, e2⟩ := hcon p hp' d hd'
              cases d with
              | text s ms line => exact ⟨_, .text s ms line, fun c hc hk => ⟨c, hc, hk, rfl⟩⟩
              | draw name ms dims line =>
                obtain ⟨m, file, dims', c', a1, ⟨en, a2, a3⟩, a4, a5, a6, a7⟩ := C77_drawing E hS hJ l.stl hM name ms dims line (hf p hp' _ hd') (ha p hp' _ hd')
                  (hd p hp' _ hd') c e1 e2
                rw [estl] at a2
                obtain ⟨mo, b1, b2, b3⟩ := find_loads E.loadPath w doc.models fs hfs name en a2 file a3
                refine ⟨_, .draw name ms dims dims' line mo file m b1 b2 b3 a1 a4, fun c2 hc2 _ => ⟨c', a5, a6, ?_⟩⟩
                rw [e1] at hc2
                cases hc2
                exact a7
            have page : ∀ p ∈ doc.pages, ∃ p', PageN.WrittenOut E.loadPath w doc.models p p' ∧ p'.metas = p.metas ∧
                List.Forall₂ (fun d d' => ∀ c, content E l.stl d = .ok c → c.1 = true → ∃ c', content E l.stl d' = .ok c' ∧ c'.1 = true ∧ c'.2.1 = c.2.1)
                  p.draws p'.draws := by
              intro p hp'
              obtain ⟨ds', h1, h2⟩ := forall₂_of_each p.draws (one p hp')
              exact ⟨⟨p.metas, ds', p.line⟩, ⟨rfl, rfl, h1⟩, rfl, h2⟩
            exact forall₂_of_each doc.pages page
          obtain ⟨g', c1, c2, c3⟩ := pages_alike E l.stl doc.models doc.models doc.pages pgs' g hg hgk b2
          refine ⟨pgs', ⟨true, renderPages E src g'.pages, l.log ++ g'.log⟩, b1, ?_, rfl, by simp only [c3]⟩
          unfold docToPS
          simp only [bind, Except.bind, hl, hk, Bool.not_true, Bool.false_eq_true, if_false, c1, c2]
          rfl

/-! ## The premises can be met -/

/-- a width, from the corner nearest to one point to the corner nearest to the corner nearest to another -/
noncomputable def snapDim : DimN (Ext ℝ) := ⟨.dim, [⟨c!"at", .pt (.val (V3.fin ⟨1, 5, 0⟩) 1), 1⟩, ⟨c!"dir", .pt (.val (V3.fin ⟨1, 0, 0⟩) 1), 1⟩,
  ⟨c!"from", .pt (.func c!"near" (.val (V3.fin ⟨1, 1, 0⟩) 1) 1), 1⟩, ⟨c!"to", .pt (.func c!"near" (.func c!"near" (.val (V3.fin ⟨5, 1, 0⟩) 1) 1) 1), 1⟩], 1⟩

theorem snapDim_fin : snapDim.IsFin := by
  intro m hm
  simp only [snapDim, List.mem_cons, List.not_mem_nil, or_false] at hm
  rcases hm with rfl | rfl | rfl | rfl <;> exact ⟨_, rfl⟩

theorem snapDim_flat : (Drawable.draw c!"m" rMetas [snapDim] 1).Flat := by
  intro r hr d hd
  simp only [List.mem_singleton] at hd
  subst hd
  have hz : r.fin = (matZP : M3 (Ext ℝ)) := by
    have : viewOf (look rMetas c!"view") = .ok matZP := by simp [rMetas, look, viewOf]
    rw [this] at hr
    injection hr with hr
    exact hr.symm
  have hx : r.r0.z = 0 := by
    have := congrArg (fun m => m.r0.z) hz
    simpa [M3.fin, M3.map, V3.fin, V3.map, matZP, ptX, ptY, ptZ, Ext.fin] using this
  refine ⟨by simp [snapDim], ?_, ?_⟩
  · intro m hm e he
    simp only [snapDim, List.mem_cons, List.not_mem_nil, or_false] at hm
    rcases hm with rfl | rfl | rfl | rfl <;> injection he with he <;> subst he <;> simp [Pt.NearOnly]
  · intro _ m hm hn
    simp only [snapDim, List.mem_cons, List.not_mem_nil, or_false] at hm
    rcases hm with rfl | rfl | rfl | rfl
    · simp at hn
    · exact ⟨⟨1, 0, 0⟩, 1, rfl, by simp [V3.mulM, hx]⟩
    · simp at hn
    · simp at hn

theorem snap_accepts (stl : Models (Ext ℝ)) (hM : stl.Made) (name : Str) (ms : List (Meta (Ext ℝ))) (hms : ∀ m ∈ ms, m.val.IsFin) (line : Nat)
    (hnames : ∀ m ∈ ms, m.name ∈ [c!"scale", c!"view", c!"@"]) (sc loc file proj ls)
    (hD : Drawn rEnv stl name ms sc matZP loc file proj ls) (hne : proj.cull.facets ≠ []) (c)
    (hc : content rEnv stl (.draw name ms [snapDim] line) = .ok c) : c.1 = true := by
  rcases draw_sum rEnv stl name ms [snapDim] line c hc with ⟨-, -, -, h1⟩ | ⟨sc', rot', loc', file', proj', ls', cs, hD', hcs, hp, hok, -⟩
  · exact absurd ⟨_, _, _, _, _, _, hD⟩ h1
  obtain ⟨rfl, rfl, rfl, rfl, rfl, rfl⟩ := drawn_unique hD hD'
  refine hok.2 ⟨?_, hnames⟩
  intro k hk
  obtain ⟨d, hd, hdk⟩ := forall₂_right hcs k hk
  simp only [List.mem_singleton] at hd
  subst hd
  obtain ⟨r, e, hr⟩ := viewOf_rotation _ (look_fin hms _) _ hD.view
  have hpts : proj.cull.points ≠ [] := by
    obtain ⟨en, hen, hfile⟩ := hD.model
    obtain ⟨file', hf', hmade⟩ := hM en (List.mem_of_find?_eq_some hen)
    rw [hfile] at hf'; injection hf' with hf'; subst hf'
    obtain ⟨ts, -, hts, -⟩ := view_ink rEnv.sorter insSorter_ok file proj hmade r hr (by rw [← e]; exact hD.turned) ls hD.lines
    obtain ⟨f, hf⟩ := List.exists_mem_of_ne_nil _ hne
    obtain ⟨q, hq, -⟩ := (C18_points proj.cull (by
      intro f hf
      rw [hts] at hf
      obtain ⟨T, -, rfl⟩ := List.mem_map.1 hf
      exact ⟨V3.ok_fin _, V3.ok_fin _, V3.ok_fin _⟩)).2.1 f hf _ (Or.inl rfl)
    exact List.ne_nil_of_mem hq
  obtain ⟨P, hP⟩ : ∃ P, drawnItems rEnv (drawStart (initVis rEnv) sc matZP loc proj.cull ls) snapDim.kind snapDim.metas = some P := by
    have hd0 : V3.eqv (V3.mulM (V3.fin (⟨1, 0, 0⟩ : V3 ℝ)) matZP) V3.zero = false := by
      simp [V3.eqv, V3.zero, V3.mulM, V3.fin, V3.map, matZP, ptX, ptY, ptZ]
    generalize hv : drawStart (initVis rEnv) sc matZP loc proj.cull ls = v
    have hpts' : v.points ≠ [] := by rw [← hv]; exact hpts
    have hrot : v.rotation = matZP := by rw [← hv]; rfl
    have near : ∀ (q : Pt (Ext ℝ)) (J : Nat → V3 (Ext ℝ)) (ret : V3 (Ext ℝ)), ((Pt.func c!"near" q 1).invoke J v.points ret).1 =
        (q.invoke (fun n => J (n + 1)) v.points (J 0)).1 := fun q J ret => (C08_succeeds J v.points q 1 ret hpts').1
    have pa : pointOf rEnv v 0 snapDim.metas c!"at" = some ((V3.fin ⟨1, 5, 0⟩ : V3 (Ext ℝ)).mulM matZP) := by rw [← hrot]; rfl
    have pd : pointOf rEnv v 1 snapDim.metas c!"dir" = some ((V3.fin ⟨1, 0, 0⟩ : V3 (Ext ℝ)).mulM matZP) := by rw [← hrot]; rfl
    obtain ⟨xf, pf⟩ : ∃ x, pointOf rEnv v 2 snapDim.metas c!"from" = some x := by
      refine ⟨_, if_pos ?_⟩
      rw [Pt.rot, near]; rfl
    obtain ⟨xt, pt⟩ : ∃ x, pointOf rEnv v 3 snapDim.metas c!"to" = some x := by
      refine ⟨_, if_pos ?_⟩
      rw [Pt.rot, near, Pt.rot, near]; rfl
    have pg : formatOf rEnv c!"%.3f" snapDim.metas = some FP.g6 := by simp [formatOf, snapDim, look, rEnv]
    refine ⟨dimItems FP.g6 v.scale ((V3.fin ⟨1, 5, 0⟩ : V3 (Ext ℝ)).mulM matZP) ((V3.fin ⟨1, 0, 0⟩ : V3 (Ext ℝ)).mulM matZP).normalized xf xt, ?_⟩
    have hk : snapDim.kind = .dim := rfl
    simp only [hk, drawnItems, pa, pd, pf, pt, pg, bind, Option.bind, hd0]
    rfl
  obtain ⟨L, e'⟩ := (dimContent_items rEnv (drawStart (initVis rEnv) sc matZP loc proj.cull ls) snapDim (by
    change M3.eqv matZP rEnv.junkM = false
    rw [e]; exact rEnv_notAView r hr)).1 P (by simp only [snapDim, GoodDim]; rw [exactly_def]; simp [Has]) hP
  rw [hdk] at e'
  injection e' with e'
  rw [e']

example : ∃ (stl : Models (Ext ℝ)) (c : Bool × OutPage (Ext ℝ) × List Diag), stl.Made ∧ (Drawable.draw c!"m" rMetas [snapDim] 1).IsFin ∧
    (Drawable.draw c!"m" rMetas [snapDim] 1).AtLoc ∧ (Drawable.draw c!"m" rMetas [snapDim] 1).Flat ∧
    content rEnv stl (.draw c!"m" rMetas [snapDim] 1) = .ok c ∧ c.1 = true ∧ Literal snapDim.metas c!"dir" (⟨1, 0, 0⟩ : V3 ℝ) ∧
    formatOf rEnv c!"%.3f" snapDim.metas = some FP.g6 := by
  obtain ⟨stl, loc, file, proj, ls, c, hM, hD, hc, hne⟩ := real_drawn [snapDim] (by
    intro d hd
    simp only [List.mem_singleton] at hd
    subst hd; exact snapDim_fin)
  refine ⟨stl, c, hM, ⟨rMetas_fin, by intro d hd; simp only [List.mem_singleton] at hd; subst hd; exact snapDim_fin⟩, ?_, snapDim_flat, hc, ?_, ?_, ?_⟩
  · intro m hm hn
    simp only [rMetas, List.mem_cons, List.not_mem_nil, or_false] at hm
    rcases hm with rfl | rfl
    · exact ⟨_, rfl⟩
    · simp at hn
  · exact snap_accepts stl hM c!"m" rMetas rMetas_fin 1 (by
      intro m hm; simp only [rMetas, List.mem_cons, List.not_mem_nil, or_false] at hm; rcases hm with rfl | rfl <;> simp) _ _ _ _ _ hD hne c hc
  · exact ⟨_, 1, rfl, rfl⟩
  · simp [formatOf, snapDim, look, rEnv]

/-- a script with such a dimension -/
def snapScript : Str := c!"load m=\"/x\";page{draw m{dim(at=[1,5,0],dir=[1,0,0],from=near([1,1,0]),to=near(near([5,1,0])));}}"

/-- a literal point as it comes out of a script -/
noncomputable def litPt (x y z : Rat) : Pt (Ext ℝ) := .val ⟨FP.lit x, FP.lit y, FP.lit z⟩ 1

open Lean Meta Elab Tactic in
/-- what is read from it: both sides compute to the same (the tactic offers `rfl` to the kernel directly) -/
theorem snap_doc_lit : parse snapScript = .ok (some ⟨[⟨c!"m", c!"/x", 1⟩], [⟨[], [.draw c!"m" [] [⟨.dim, [⟨c!"at", .pt (litPt 1 5 0), 1⟩,
    ⟨c!"dir", .pt (litPt 1 0 0), 1⟩, ⟨c!"from", .pt (.func c!"near" (litPt 1 1 0) 1), 1⟩,
    ⟨c!"to", .pt (.func c!"near" (.func c!"near" (litPt 5 1 0) 1) 1), 1⟩], 1⟩] 1], 1⟩]⟩) := by
  run_tac do
    let g ← getMainGoal
    let some (_, a, _) := (← g.getType).eq? | throwError "not an equation"
    g.assign (← mkEqRefl a)

theorem snap_doc : parse snapScript = .ok (some ⟨[⟨c!"m", c!"/x", 1⟩], [⟨[], [.draw c!"m" [] [snapDim] 1], 1⟩]⟩) := by
  have lit : ∀ x y z : Rat, litPt x y z = .val (V3.fin ⟨(x : ℝ), (y : ℝ), (z : ℝ)⟩) 1 := fun _ _ _ => rfl
  rw [snap_doc_lit]
  simp only [snapDim, lit]
  norm_num

theorem snapDim_flat' : (Drawable.draw c!"m" [] [snapDim] 1).Flat := by
  intro r hr d hd
  refine snapDim_flat r ?_ d hd
  rw [← hr]
  simp [rMetas, look, viewOf]

/-- all that is asked of the run is met by this script -/
theorem snap_run : ∃ doc r, parse snapScript = .ok (some doc) ∧ (∀ pg ∈ doc.pages, ∀ d ∈ pg.draws, d.Flat) ∧
    scriptToPS rEnv paperDisk c!"s" snapScript = .ok r ∧ r.ok = true := by
  obtain ⟨f, T, hf, hT, hz, hM, -⟩ := paper_content
  have hfin : (Drawable.draw c!"m" [] [snapDim] 1).IsFin := ⟨by simp, by intro d hd; simp only [List.mem_singleton] at hd; subst hd; exact snapDim_fin⟩
  obtain ⟨c, hc⟩ := content_ok rEnv insSorter_ok rEnv_notAView [(c!"m", some f)] hM (.draw c!"m" [] [snapDim] 1) hfin (by intro m hm; simp at hm)
  obtain ⟨proj, ls, hd⟩ := drawn_exists rEnv insSorter_ok [(c!"m", some f)] c!"m" [] (by simp) (by simp) (1, 1) rfl matZP rfl _ rfl f ⟨_, rfl, rfl⟩
    (make_made _ f hf)
  have hne : proj.cull.facets ≠ [] := by
    obtain ⟨r, e, hr⟩ := viewOf_rotation none (by simp) matZP rfl
    obtain ⟨ts, ⟨all, hall, hperm⟩, hts, -⟩ := view_ink rEnv.sorter insSorter_ok f proj (make_made _ f hf) r hr (by rw [← e]; exact hd.turned) ls hd.lines
    have hz0 : r.r0.z = 0 ∧ r.r1.z = 0 ∧ r.r2.z = 1 := by
      refine ⟨?_, ?_, ?_⟩
      · simpa [M3.fin, M3.map, V3.fin, V3.map, matZP, ptX, ptY, ptZ, Ext.fin] using (congrArg (fun m => m.r0.z) e).symm
      · simpa [M3.fin, M3.map, V3.fin, V3.map, matZP, ptX, ptY, ptZ, Ext.fin] using (congrArg (fun m => m.r1.z) e).symm
      · simpa [M3.fin, M3.map, V3.fin, V3.map, matZP, ptX, ptY, ptZ, Ext.fin] using (congrArg (fun m => m.r2.z) e).symm
    intro hnil
    rw [hts] at hnil
    have hnil' : ts = [] := by simpa using hnil
    rw [hT] at hall
    cases all with
    | nil => cases hall
    | cons T' rest =>
      have e1 : T.fin = T'.fin := by simpa using (List.cons.inj hall).1
      have e2 : T'.n = T.n := by
        have := congrArg (fun f => f.norm) e1
        simpa [Tri.fin, V3.fin, V3.map, V3.ext_iff, eq_comm] using this.symm
      rw [hnil'] at hperm
      have hm : T'.seenIn r ∈ ([] : List (Tri ℝ)) := hperm.mem_iff.2 (List.mem_filter.2 ⟨by simp, by
        simp [Tri.seenIn, V3.mulM, e2, hz0, hz]⟩)
      cases hm
  obtain ⟨r, hr, hok⟩ := one_run snapScript [] [snapDim] 1 1 1 snap_doc paperDisk rfl f hf
    ⟨c, hc, snap_accepts _ hM c!"m" [] (by simp) 1 (by simp) _ _ _ _ _ hd hne c hc⟩
  refine ⟨_, r, snap_doc, ?_, hr, hok⟩
  intro pg hpg d hd
  simp only [List.mem_singleton] at hpg; subst hpg
  simp only [List.mem_singleton] at hd; subst hd
  exact snapDim_flat'

example : SortOK rEnv.sorter ∧ rEnv.NotAView ∧ ∃ doc r, parse snapScript = .ok (some doc) ∧ (∀ pg ∈ doc.pages, ∀ d ∈ pg.draws, d.Flat) ∧
    scriptToPS rEnv paperDisk c!"s" snapScript = .ok r ∧ r.ok = true := ⟨insSorter_ok, rEnv_notAView, snap_run⟩

end S2P
