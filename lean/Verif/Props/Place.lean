import Verif.Spec.Place
import Verif.Props.Paper
import Verif.Props.Junk

set_option linter.unusedSectionVars false
set_option linter.unusedVariables false
set_option linter.unusedSimpArgs false

/-! # C98: where a drawing is put on the page changes nothing but its place -/

namespace S2P
open PS

theorem ext_shift (a b : Ext ℝ) (t : ℝ) : a + (b + Ext.fin t) = a + b + Ext.fin t := by
  cases a <;> cases b <;> first | rfl | (show Ext.fin _ = Ext.fin _; rw [add_assoc])

theorem ext_shift_sub (a t : ℝ) (b : Ext ℝ) : Ext.fin (a + t) - b = Ext.fin a - b + Ext.fin t := by
  cases b <;> first | rfl | (show Ext.fin _ = Ext.fin _; congr 1; ring)

theorem ext_add_zero (a : Ext ℝ) : a + Ext.fin 0 = a := by
  cases a <;> first | rfl | (show Ext.fin _ = Ext.fin _; rw [add_zero])

theorem v2_shift (p : V2 (Ext ℝ)) (s : Ext ℝ) (d : V2 (Ext ℝ)) (t : V2 ℝ) : p.moved s (d + t.fin) = p.moved s d + t.fin := by
  show (⟨_, _⟩ : V2 (Ext ℝ)) = ⟨_, _⟩
  congr 1
  · exact ext_shift _ _ _
  · exact ext_shift _ _ _

theorem moved_shift (s : Ext ℝ) (d : V2 (Ext ℝ)) (t : V2 ℝ) (P : OutPage (Ext ℝ)) : P.moved s (d + t.fin) = (P.moved s d).shifted t := by
  simp only [OutPage.moved, OutPage.shifted, List.map_map, OutPage.mk.injEq]
  refine ⟨?_, ?_, ?_⟩ <;> (apply List.map_congr_left; intro x _; simp only [Function.comp, v2_shift])

theorem shifted_app (t : V2 ℝ) (P Q : OutPage (Ext ℝ)) : (P.app Q).shifted t = (P.shifted t).app (Q.shifted t) := by
  simp [OutPage.shifted, OutPage.app]

theorem shifted_sum (t : V2 ℝ) : ∀ Ps : List (OutPage (Ext ℝ)), (OutPage.sum Ps).shifted t = OutPage.sum (Ps.map (OutPage.shifted t))
  | [] => rfl
  | P :: Ps => by simp only [OutPage.sum, List.map_cons, shifted_app, shifted_sum t Ps]

theorem v2_add_zero (p : V2 (Ext ℝ)) : p + (⟨0, 0⟩ : V2 ℝ).fin = p := by
  show (⟨_, _⟩ : V2 (Ext ℝ)) = p
  cases p
  congr 1
  · exact ext_add_zero _
  · exact ext_add_zero _

theorem shifted_zero (P : OutPage (Ext ℝ)) : P.shifted ⟨0, 0⟩ = P := by
  cases P
  simp only [OutPage.shifted, v2_add_zero]
  simp

theorem offset_shift (l t : V2 ℝ) (lim : Line (Ext ℝ)) (s : Ext ℝ) : projOffset (l + t).fin lim s = projOffset l.fin lim s + t.fin := by
  show (⟨_, _⟩ : V2 (Ext ℝ)) = ⟨_, _⟩
  congr 1
  · exact ext_shift_sub _ _ _
  · exact ext_shift_sub _ _ _

/-! ## Properties -/

theorem relocated_names {δ : V2 ℝ} {ms ms' : List (Meta (Ext ℝ))} (h : List.Forall₂ (Meta.Relocated δ) ms ms') : ms'.map (fun m => m.name) = ms.map (fun m => m.name) := by
  induction h with
  | nil => rfl
  | cons h _ ih => simp only [List.map_cons, ih, h.1]

theorem relocated_look {δ : V2 ℝ} {ms ms' : List (Meta (Ext ℝ))} (h : List.Forall₂ (Meta.Relocated δ) ms ms') (n : Str) :
    (look ms n = none ∧ look ms' n = none) ∨ ∃ m m', look ms n = some m ∧ look ms' n = some m' ∧ m.name = n ∧ m.Relocated δ m' := by
  induction h with
  | nil => exact Or.inl ⟨rfl, rfl⟩
  | @cons m m' ms ms' h _ ih =>
    unfold look
    rw [List.find?_cons, List.find?_cons, h.1]
    by_cases e : m.name = n
    · rw [decide_eq_true e]
      exact Or.inr ⟨m, m', rfl, rfl, e, h⟩
    · rw [decide_eq_false e]
      exact ih

theorem relocated_known {δ : V2 ℝ} {ms ms' : List (Meta (Ext ℝ))} (h : List.Forall₂ (Meta.Relocated δ) ms ms') (ns : List Str) :
    (∀ m ∈ ms', m.name ∈ ns) ↔ ∀ m ∈ ms, m.name ∈ ns := by
  have e := relocated_names h
  constructor
  · intro k m hm
    have : m.name ∈ ms'.map (fun m => m.name) := by rw [e]; exact List.mem_map.2 ⟨m, hm, rfl⟩
    obtain ⟨m', h1, h2⟩ := List.mem_map.1 this
    rw [← h2]; exact k m' h1
  · intro k m hm
    have : m.name ∈ ms.map (fun m => m.name) := by rw [← e]; exact List.mem_map.2 ⟨m, hm, rfl⟩
    obtain ⟨m', h1, h2⟩ := List.mem_map.1 this
    rw [← h2]; exact k m' h1

theorem look_some {ms : List (Meta (Ext ℝ))} {n : Str} (h : ∃ m ∈ ms, m.name = n) : look ms n ≠ none := by
  obtain ⟨m, h1, h2⟩ := h
  intro e
  unfold look at e
  rw [List.find?_eq_none] at e
  exact e m h1 (by simpa using h2)

theorem scaleOf_relocated {δ : V2 ℝ} {ms ms' : List (Meta (Ext ℝ))} (h : List.Forall₂ (Meta.Relocated δ) ms ms') (sc) :
    scaleOf (look ms' c!"scale") = .ok sc ↔ scaleOf (look ms c!"scale") = .ok sc := by
  rcases relocated_look h c!"scale" with ⟨h1, h2⟩ | ⟨m, m', h1, h2, h3, -, h4, -⟩
  · rw [h1, h2]
  · have e := h4 (by rw [h3]; decide)
    rw [h1, h2]
    unfold scaleOf
    simp only [e]
    cases m.val <;> simp

theorem viewOf_relocated {δ : V2 ℝ} {ms ms' : List (Meta (Ext ℝ))} (h : List.Forall₂ (Meta.Relocated δ) ms ms') (r) :
    viewOf (look ms' c!"view") = .ok r ↔ viewOf (look ms c!"view") = .ok r := by
  rcases relocated_look h c!"view" with ⟨h1, h2⟩ | ⟨m, m', h1, h2, h3, -, h4, -⟩
  · rw [h1, h2]
  · have e := h4 (by rw [h3]; decide)
    rw [h1, h2]
    unfold viewOf
    simp only [e]
    cases m.val <;> simp
    split <;> simp

theorem locOf_relocated {δ : V2 ℝ} {ms ms' : List (Meta (Ext ℝ))} (h : List.Forall₂ (Meta.Relocated δ) ms ms') (hat : ∃ m ∈ ms, m.name = c!"@") :
    ∃ l : V2 ℝ, locOf (look ms c!"@") = .ok l.fin ∧ locOf (look ms' c!"@") = .ok (l + δ.smul 72).fin := by
  rcases relocated_look h c!"@" with ⟨h1, -⟩ | ⟨m, m', h1, h2, h3, -, -, h4⟩
  · exact absurd h1 (look_some hat)
  obtain ⟨p, e1, e2⟩ := h4 h3
  rw [h1, h2]
  refine ⟨p.smul 72 + ⟨396, 306⟩, ?_, ?_⟩
  · simp only [locOf, e1]
    show Except.ok (V2.mk _ _) = Except.ok (V2.mk _ _)
    congr 2
  · simp only [locOf, e2]
    show Except.ok (V2.mk _ _) = Except.ok (V2.mk _ _)
    congr 2 <;> (show Ext.fin _ = Ext.fin _; simp [V2.smul]; ring)

theorem drawn_relocated {E : Env (Ext ℝ)} {stl : Models (Ext ℝ)} {name : Str} {δ : V2 ℝ} {ms ms' : List (Meta (Ext ℝ))} (h : List.Forall₂ (Meta.Relocated δ) ms ms')
    (hat : ∃ m ∈ ms, m.name = c!"@") {sc rot loc file proj ls} (hD : Drawn E stl name ms sc rot loc file proj ls) :
    ∃ l : V2 ℝ, loc = l.fin ∧ Drawn E stl name ms' sc rot (l + δ.smul 72).fin file proj ls := by
  obtain ⟨l, h1, h2⟩ := locOf_relocated h hat
  have := hD.loc
  rw [h1] at this
  injection this with this
  exact ⟨l, this.symm, by rw [relocated_names h]; exact hD.once, (scaleOf_relocated h _).2 hD.scale, (viewOf_relocated h _).2 hD.view, h2, hD.model, hD.turned, hD.lines⟩

theorem drawn_located {E : Env (Ext ℝ)} {stl : Models (Ext ℝ)} {name : Str} {δ : V2 ℝ} {ms ms' : List (Meta (Ext ℝ))} (h : List.Forall₂ (Meta.Relocated δ) ms ms')
    (hat : ∃ m ∈ ms, m.name = c!"@") {sc rot loc file proj ls} (hD : Drawn E stl name ms' sc rot loc file proj ls) : ∃ loc', Drawn E stl name ms sc rot loc' file proj ls := by
  obtain ⟨l, h1, h2⟩ := locOf_relocated h hat
  exact ⟨_, by rw [← relocated_names h]; exact hD.once, (scaleOf_relocated h _).1 hD.scale, (viewOf_relocated h _).1 hD.view, h1, hD.model, hD.turned, hD.lines⟩

/-! ## Drawings -/

/-- a dimension in a drawing put elsewhere -/
theorem dim_relocated (E : Env (Ext ℝ)) (v : Vis (Ext ℝ)) (hr : v.rotation.eqv E.junkM = false) (t : V2 ℝ) (d : DimN (Ext ℝ)) (k k')
    (hk : dimContent E v d = .ok k) (hk' : dimContent E { v with d := v.d + t.fin } d = .ok k') : k'.1 = k.1 ∧ k'.2.1 = k.2.1.shifted t := by
  obtain ⟨a1, a2⟩ := dimContent_items E v d hr
  obtain ⟨b1, b2⟩ := dimContent_items E { v with d := v.d + t.fin } d hr
  have e : drawnItems E { v with d := v.d + t.fin } d.kind d.metas = drawnItems E v d.kind d.metas := rfl
  rw [e] at b1 b2
  by_cases hg : GoodDim d.kind d.metas
  · cases hi : drawnItems E v d.kind d.metas with
    | some P =>
      obtain ⟨L, e1⟩ := a1 P hg hi
      obtain ⟨L', e2⟩ := b1 P hg hi
      rw [hk] at e1; rw [hk'] at e2
      cases e1; cases e2
      exact ⟨rfl, moved_shift _ _ _ _⟩
    | none =>
      obtain ⟨L, e1⟩ := a2 (Or.inr hi)
      obtain ⟨L', e2⟩ := b2 (Or.inr hi)
      rw [hk] at e1; rw [hk'] at e2
      cases e1; cases e2
      exact ⟨rfl, rfl⟩
  · obtain ⟨L, e1⟩ := a2 (Or.inl hg)
    obtain ⟨L', e2⟩ := b2 (Or.inl hg)
    rw [hk] at e1; rw [hk'] at e2
    cases e1; cases e2
    exact ⟨rfl, rfl⟩

/-- **C98.** If the place of a drawing is changed by `δ` inches, it is accepted as before, and everything it draws, lines, arcs and labels, is moved by 72 `δ` points. -/
theorem C98_drawing (E : Env (Ext ℝ)) (hJ : E.NotAView) (stl : Models (Ext ℝ)) (name : Str) (δ : V2 ℝ) (ms ms' : List (Meta (Ext ℝ)))
    (hms : ∀ m ∈ ms, m.val.IsFin) (h : List.Forall₂ (Meta.Relocated δ) ms ms') (hat : ∃ m ∈ ms, m.name = c!"@") (dims : List (DimN (Ext ℝ))) (line line' : Nat) (c c')
    (hc : content E stl (.draw name ms dims line) = .ok c) (hc' : content E stl (.draw name ms' dims line') = .ok c') :
    c'.1 = c.1 ∧ c'.2.1 = c.2.1.shifted (δ.smul 72) := by
  rcases draw_sum E stl name ms dims line c hc with ⟨a1, a2, -, a3⟩ | ⟨sc, rot, loc, file, proj, ls, cs, hD, hcs, hp, hok, -⟩ <;>
  rcases draw_sum E stl name ms' dims line' c' hc' with ⟨b1, b2, -, b3⟩ | ⟨sc', rot', loc', file', proj', ls', cs', hD', hcs', hp', hok', -⟩
  · rw [a1, b1, a2, b2]; exact ⟨rfl, rfl⟩
  · obtain ⟨l, hl⟩ := drawn_located h hat hD'
    exact absurd ⟨_, _, _, _, _, _, hl⟩ a3
  · obtain ⟨l, -, hl⟩ := drawn_relocated h hat hD
    exact absurd ⟨_, _, _, _, _, _, hl⟩ b3
  · obtain ⟨l, rfl, hl⟩ := drawn_relocated h hat hD
    obtain ⟨rfl, rfl, rfl, rfl, rfl, rfl⟩ := drawn_unique hl hD'
    obtain ⟨r, rfl, hr⟩ := viewOf_rotation _ (look_fin hms _) _ hD.view
    have hrot : (drawStart (initVis E) sc r.fin l.fin proj.cull ls).rotation.eqv E.junkM = false := hJ r hr
    have key : List.Forall₂ (fun k k' => k'.1 = k.1 ∧ k'.2.1 = k.2.1.shifted (δ.smul 72)) cs cs' := by
      clear hp hok hp' hok' hc hc'
      induction hcs generalizing cs' with
      | nil => cases hcs'; exact .nil
      | @cons d k ds cs h1 _ ih =>
        cases hcs' with
        | @cons _ k' _ cs' h1' h2' =>
          refine .cons ?_ (ih cs' h2')
          refine dim_relocated E _ hrot _ d k k' h1 ?_
          rw [← h1']
          have e : (drawStart (initVis E) sc r.fin l.fin proj.cull ls).d + (δ.smul 72).fin = (drawStart (initVis E) sc r.fin (l + δ.smul 72).fin proj.cull ls).d :=
            (offset_shift l (δ.smul 72) _ _).symm
          rw [e]
          rfl
    constructor
    · rw [Bool.eq_iff_iff, hok, hok', relocated_known h]
      refine and_congr_left fun _ => ?_
      clear hp hok hp' hok' hc hc' hcs hcs'
      induction key with
      | nil => simp
      | cons h _ ih => simp only [List.mem_cons, forall_eq_or_imp, ih, h.1]
    · rw [hp, hp', shifted_app, shifted_sum]
      congr 1
      · have : ∀ m : V2 (Ext ℝ), (drawStart (initVis E) sc r.fin m proj.cull ls).page = (OutPage.ofLines ls).moved (projScale sc) (projOffset m proj.cull.limits (projScale sc)) := by
          intro _; rfl
        rw [this, this, offset_shift, moved_shift]
      · congr 1
        clear hp hok hp' hok' hc hc' hcs hcs'
        induction key with
        | nil => rfl
        | cons h _ ih => simp only [List.map_cons, ih, h.2]

/-! ## Text -/

theorem rows_shift (t : V2 ℝ) : ∀ (ss : List Str) (p : V2 (Ext ℝ)), textRows (p + t.fin) ss = (textRows p ss).map (fun x => ⟨x.at_ + t.fin, x.str, x.center, x.raw⟩)
  | [], _ => rfl
  | s :: ss, p => by
    have e : (⟨(p + t.fin).x, (p + t.fin).y - FP.lit 12⟩ : V2 (Ext ℝ)) = ⟨p.x, p.y - FP.lit 12⟩ + t.fin := by
      obtain ⟨x, y⟩ := p
      show (⟨_, _⟩ : V2 (Ext ℝ)) = ⟨_, _⟩
      congr 1
      show y + Ext.fin t.y - FP.lit 12 = y - FP.lit 12 + Ext.fin t.y
      cases y <;> first | rfl | (show Ext.fin _ = Ext.fin _; congr 1; ring)
    unfold textRows
    dsimp only
    rw [e, rows_shift t ss]
    split <;> rfl

theorem textLocOf_relocated {δ : V2 ℝ} {ms ms' : List (Meta (Ext ℝ))} (h : List.Forall₂ (Meta.Relocated δ) ms ms') (hat : ∃ m ∈ ms, m.name = c!"@") :
    ∃ l : V2 ℝ, textLocOf (look ms c!"@") = .ok l.fin ∧ textLocOf (look ms' c!"@") = .ok (l.fin + (δ.smul 72).fin) := by
  rcases relocated_look h c!"@" with ⟨h1, -⟩ | ⟨m, m', h1, h2, h3, -, -, h4⟩
  · exact absurd h1 (look_some hat)
  obtain ⟨p, e1, e2⟩ := h4 h3
  rw [h1, h2]
  refine ⟨p.smul 72 + ⟨396, 306⟩, ?_, ?_⟩
  · simp only [textLocOf, e1]
    show Except.ok (V2.mk _ _) = Except.ok (V2.mk _ _)
    congr 2 <;> (show Ext.fin _ = Ext.fin _; simp [V2.smul])
  · simp only [textLocOf, e2]
    show Except.ok (V2.mk _ _) = Except.ok (V2.mk _ _)
    congr 2 <;> (show Ext.fin _ = Ext.fin _; simp [V2.smul]; ring)

/-- **C98**, text: if the place of a text block is changed by `δ` inches, it is accepted as before, and all its lines are moved by 72 `δ` points. -/
theorem C98_text (E : Env (Ext ℝ)) (stl : Models (Ext ℝ)) (s : Str) (δ : V2 ℝ) (ms ms' : List (Meta (Ext ℝ))) (h : List.Forall₂ (Meta.Relocated δ) ms ms')
    (hat : ∃ m ∈ ms, m.name = c!"@") (line line' : Nat) (c c') (hc : content E stl (.text s ms line) = .ok c) (hc' : content E stl (.text s ms' line') = .ok c') :
    c'.1 = c.1 ∧ c'.2.1 = c.2.1.shifted (δ.smul 72) := by
  obtain ⟨ds, ex, a1, a2, a3⟩ := visitText_out (α := Ext ℝ) s ms line
  obtain ⟨ds', ex', b1, b2, b3⟩ := visitText_out (α := Ext ℝ) s ms' line'
  obtain ⟨l, l1, l2⟩ := textLocOf_relocated h hat
  rw [relocated_names h, ← a1] at b1
  rw [relocated_known h, ← a2] at b2
  unfold content at hc hc'
  simp only [visitDrawable, a3, b3, bind, Except.bind, pure, Except.pure, textOut, l1, l2] at hc hc'
  by_cases hd : ds = []
  · rw [if_neg (by simpa using hd)] at hc
    rw [if_neg (by simpa using b1.2 hd)] at hc'
    cases hc
    cases hc'
    refine ⟨?_, ?_⟩
    · show ex'.isEmpty = ex.isEmpty
      rw [Bool.eq_iff_iff, List.isEmpty_iff, List.isEmpty_iff, b2]
    · simp only [Vis.errs, rows_shift]
      simp [OutPage.shifted, initVis, OutPage.empty]
  · rw [if_pos (by simpa using hd)] at hc
    rw [if_pos (by simpa using fun e => hd (b1.1 e))] at hc'
    cases hc
    cases hc'
    exact ⟨rfl, rfl⟩

/-! ## Pages -/

theorem put_content (E : Env (Ext ℝ)) (hJ : E.NotAView) (stl : Models (Ext ℝ)) (δ : V2 ℝ) (d d' : Drawable (Ext ℝ)) (hf : d.IsFin) (h : d.Put δ d') (c c')
    (hc : content E stl d = .ok c) (hc' : content E stl d' = .ok c') : c'.1 = c.1 ∧ c'.2.1 = c.2.1.shifted (δ.smul 72) := by
  rcases h with ⟨rfl, rfl⟩ | h
  · rw [hc] at hc'
    cases hc'
    have : (⟨0, 0⟩ : V2 ℝ).smul 72 = ⟨0, 0⟩ := by simp [V2.smul]
    rw [this, shifted_zero]
    exact ⟨rfl, rfl⟩
  · cases h with
    | draw n ms ms' dims l l' h1 h2 => exact C98_drawing E hJ stl n δ ms ms' hf.1 h1 h2 dims l l' c c' hc hc'
    | text s ms ms' l l' h1 h2 => exact C98_text E stl s δ ms ms' h1 h2 l l' c c' hc hc'

theorem put_contents (E : Env (Ext ℝ)) (hJ : E.NotAView) (stl : Models (Ext ℝ)) : ∀ (δs : List (V2 ℝ)) (ds ds' : List (Drawable (Ext ℝ))) (cs cs'),
    (∀ d ∈ ds, d.IsFin) → δs.length = ds.length → List.Forall₂ (fun (x : V2 ℝ × Drawable (Ext ℝ)) d' => x.2.Put x.1 d') (δs.zip ds) ds' →
    List.Forall₂ (fun d c => content E stl d = .ok c) ds cs → List.Forall₂ (fun d c => content E stl d = .ok c) ds' cs' →
    ((∀ c ∈ cs', c.1 = true) ↔ ∀ c ∈ cs, c.1 = true) ∧
    cs'.map (fun c => c.2.1) = List.zipWith (fun δ P => P.shifted (δ.smul 72)) δs (cs.map (fun c => c.2.1))
  | [], [], ds', cs, cs', _, _, h, h1, h2 => by
    cases h; cases h1; cases h2; simp
  | [], _ :: _, _, _, _, _, hl, _, _, _ => by simp at hl
  | _ :: _, [], _, _, _, _, hl, _, _, _ => by simp at hl
  | δ :: δs, d :: ds, ds', cs, cs', hf, hl, h, h1, h2 => by
    rw [List.zip_cons_cons] at h
    cases h with
    | cons k h =>
      cases h1 with
      | cons k1 h1 =>
        cases h2 with
        | cons k2 h2 =>
          obtain ⟨e1, e2⟩ := put_contents E hJ stl δs ds _ _ _ (fun d hd => hf d (List.mem_cons_of_mem _ hd)) (by simpa using hl) h h1 h2
          obtain ⟨f1, f2⟩ := put_content E hJ stl δ d _ (hf d List.mem_cons_self) k _ _ k1 k2
          simp only [List.mem_cons, forall_eq_or_imp, e1, f1, List.map_cons, List.zipWith_cons_cons, e2, f2, and_self]

/-- **C98**, pages: if things on a page are put elsewhere, the page is accepted as before, its title is the same, and each thing is moved as its place was, whatever
the others do. -/
theorem C98_page (E : Env (Ext ℝ)) (hJ : E.NotAView) (stl : Models (Ext ℝ)) (δs : List (V2 ℝ)) (pg pg' : PageN (Ext ℝ)) (hf : ∀ d ∈ pg.draws, d.IsFin)
    (h : pg.Rearranged δs pg') (g g') (hg : onePage E stl pg = .ok g) (hg' : onePage E stl pg' = .ok g') :
    g'.ok = g.ok ∧ ∃ o o', g.pages = [o] ∧ g'.pages = [o'] ∧ SamePieces δs o o' := by
  obtain ⟨hm, hl, hd⟩ := h
  obtain ⟨cs, a1, ⟨t, a2, a3⟩, a4⟩ := C58_page E stl pg g hg
  obtain ⟨cs', b1, ⟨t', b2, b3⟩, b4⟩ := C58_page E stl pg' g' hg'
  obtain ⟨e1, e2⟩ := put_contents E hJ stl δs pg.draws pg'.draws cs cs' hf hl hd a1 b1
  rw [hm] at b2 b4
  cases titled_unique a2 b2
  refine ⟨?_, _, _, a3, b3, cs.map (fun c => c.2.1), t, ?_, rfl, by rw [e2]⟩
  · rw [Bool.eq_iff_iff, a4, b4, e1]
  · rw [List.length_map, ← a1.length_eq, hl]

/-! ## Runs -/

theorem loads_unique {α : Type} [FP α] {lp : Str} {w : World} {m : ModelN} {f f' : STLFile α} (h : Loads lp w m f) (h' : Loads lp w m f') : f = f' := by
  obtain ⟨ps, x, h1, h2, h3⟩ := h
  obtain ⟨ps', x', h1', h2', h3'⟩ := h'
  cases places_unique h1 h1'
  cases foundAt_unique h2 h2'
  rw [h3] at h3'
  cases h3'
  rfl

theorem loads_uniques {α : Type} [FP α] {lp : Str} {w : World} {ms : List ModelN} {fs fs' : List (STLFile α)} (h : List.Forall₂ (Loads lp w) ms fs)
    (h' : List.Forall₂ (Loads lp w) ms fs') : fs = fs' := by
  induction h generalizing fs' with
  | nil => cases h'; rfl
  | cons h _ ih =>
    cases h' with
    | cons k k' => rw [loads_unique h k, ih k']

theorem onePage_ok (E : Env (Ext ℝ)) (hS : SortOK E.sorter) (hJ : E.NotAView) (stl : Models (Ext ℝ)) (hM : stl.Made) (pg : PageN (Ext ℝ)) (hf : ∀ d ∈ pg.draws, d.IsFin)
    (ha : ∀ d ∈ pg.draws, d.AtLoc) : ∃ g, onePage E stl pg = .ok g := by
  refine generatePages_ok E stl _ _ ?_
  intro p hp x hx
  simp only [List.mem_singleton] at hp
  subst hp
  exact content_ok E hS hJ stl hM x (hf x hx) (ha x hx)

/-- **C98**, runs: if two scripts say the same but for places of drawings and text blocks, conversions of them both succeed or both fail; if they succeed, each thing
on a page made from the one is on that made from the other, moved as its place was. -/
theorem C98_run (E : Env (Ext ℝ)) (hS : SortOK E.sorter) (hJ : E.NotAView) (w : World) (src script script' : Str) (doc doc' : Doc (Ext ℝ)) (hp : parse script = .ok (some doc))
    (hp' : parse script' = .ok (some doc')) (hm : doc'.models = doc.models) (δss : List (List (V2 ℝ))) (hl : δss.length = doc.pages.length)
    (hd : List.Forall₂ (fun (x : List (V2 ℝ) × PageN (Ext ℝ)) pg' => x.2.Rearranged x.1 pg') (δss.zip doc.pages) doc'.pages)
    (r r' : RunRes) (h : scriptToPS E w src script = .ok r) (h' : scriptToPS E w src script' = .ok r') :
    r'.ok = r.ok ∧ (r.ok = true → ∃ outs outs', r.out = renderPages E src outs ∧ r'.out = renderPages E src outs' ∧ outs.length = doc.pages.length ∧
      List.Forall₂ (fun (x : List (V2 ℝ) × OutPage (Ext ℝ)) o' => SamePieces x.1 x.2 o') (δss.zip outs) outs') := by
  have hf : ∀ pg ∈ doc.pages, ∀ d ∈ pg.draws, d.IsFin := parse_isFin script doc hp
  have hf' : ∀ pg ∈ doc'.pages, ∀ d ∈ pg.draws, d.IsFin := parse_isFin script' doc' hp'
  have ha := parse_atLoc script doc hp
  have ha' := parse_atLoc script' doc' hp'
  -- pages with models that could be loaded
  have key : ∀ stl : Models (Ext ℝ), stl.Made →
      ((∃ outs, List.Forall₂ (fun pg o => ∃ g, onePage E stl pg = .ok g ∧ g.ok = true ∧ g.pages = [o]) doc.pages outs) ↔
        ∃ outs', List.Forall₂ (fun pg o => ∃ g, onePage E stl pg = .ok g ∧ g.ok = true ∧ g.pages = [o]) doc'.pages outs') ∧
      ∀ outs outs', List.Forall₂ (fun pg o => ∃ g, onePage E stl pg = .ok g ∧ g.ok = true ∧ g.pages = [o]) doc.pages outs →
        List.Forall₂ (fun pg o => ∃ g, onePage E stl pg = .ok g ∧ g.ok = true ∧ g.pages = [o]) doc'.pages outs' →
        List.Forall₂ (fun (x : List (V2 ℝ) × OutPage (Ext ℝ)) o' => SamePieces x.1 x.2 o') (δss.zip outs) outs' := by
    intro stl hM
    clear hp hp' hm h h'
    generalize doc.pages = pgs at hf ha hl hd
    generalize doc'.pages = pgs' at hf' ha' hd
    induction δss generalizing pgs pgs' with
    | nil =>
      cases pgs with
      | cons _ _ => simp at hl
      | nil =>
        cases hd
        refine ⟨Iff.rfl, ?_⟩
        intro outs outs' k k'
        cases k; cases k'; exact .nil
    | cons δs δss ih =>
      cases pgs with
      | nil => simp at hl
      | cons pg pgs =>
        rw [List.zip_cons_cons] at hd
        cases hd with
        | @cons _ pg' _ pgs' d1 d2 =>
          obtain ⟨i1, i2⟩ := ih pgs (fun p hp => hf p (List.mem_cons_of_mem _ hp)) (fun p hp => ha p (List.mem_cons_of_mem _ hp)) (by simpa using hl) pgs'
            (fun p hp => hf' p (List.mem_cons_of_mem _ hp)) (fun p hp => ha' p (List.mem_cons_of_mem _ hp)) d2
          obtain ⟨g, hg⟩ := onePage_ok E hS hJ stl hM pg (hf pg List.mem_cons_self) (ha pg List.mem_cons_self)
          obtain ⟨g', hg'⟩ := onePage_ok E hS hJ stl hM pg' (hf' pg' List.mem_cons_self) (ha' pg' List.mem_cons_self)
          obtain ⟨e1, o, o', e2, e3, e4⟩ := C98_page E hJ stl δs pg pg' (hf pg List.mem_cons_self) d1 g g' hg hg'
          refine ⟨⟨?_, ?_⟩, ?_⟩
          · rintro ⟨outs, k⟩
            cases k with
            | cons k1 k2 =>
              obtain ⟨g2, x1, x2, -⟩ := k1
              rw [hg] at x1; cases x1
              obtain ⟨outs', k'⟩ := i1.1 ⟨_, k2⟩
              exact ⟨o' :: outs', .cons ⟨g', hg', e1.trans x2, e3⟩ k'⟩
          · rintro ⟨outs, k⟩
            cases k with
            | cons k1 k2 =>
              obtain ⟨g2, x1, x2, -⟩ := k1
              rw [hg'] at x1; cases x1
              obtain ⟨outs', k'⟩ := i1.2 ⟨_, k2⟩
              exact ⟨o :: outs', .cons ⟨g, hg, e1.symm.trans x2, e2⟩ k'⟩
          · intro outs outs' k k'
            cases k with
            | cons k1 k2 =>
              cases k' with
              | cons k1' k2' =>
                obtain ⟨g2, x1, -, x2⟩ := k1
                obtain ⟨g3, y1, -, y2⟩ := k1'
                rw [hg] at x1; cases x1
                rw [hg'] at y1; cases y1
                rw [e2] at x2; rw [e3] at y2
                cases x2; cases y2
                rw [List.zip_cons_cons]
                exact .cons e4 (i2 _ _ k2 k2')
  have c1 := C48_all_or_nothing E w src script r h
  have c2 := C48_all_or_nothing E w src script' r' h'
  constructor
  · rw [Bool.eq_iff_iff, c1.1, c2.1]
    constructor
    · rintro ⟨out, d, fs, outs, k1, k2, k3, k4, k5⟩
      rw [hp'] at k1; cases k1
      rw [hm] at k2 k3 k4
      obtain ⟨outs', k6⟩ := ((key _ (zip_made _ w _ _ k3)).1).2 ⟨_, k4⟩
      exact ⟨_, doc, fs, outs', hp, k2, k3, k6, rfl⟩
    · rintro ⟨out, d, fs, outs, k1, k2, k3, k4, k5⟩
      rw [hp] at k1; cases k1
      obtain ⟨outs', k6⟩ := ((key _ (zip_made _ w _ _ k3)).1).1 ⟨_, k4⟩
      exact ⟨_, doc', fs, outs', hp', by rw [hm]; exact k2, by rw [hm]; exact k3, by rw [hm]; exact k6, rfl⟩
  · intro hok
    obtain ⟨d, fs, outs, k1, k2, k3, k4, k5⟩ := c1.2.1 hok
    rw [hp] at k1; cases k1
    have hok' : r'.ok = true := by
      rw [c2.1]
      obtain ⟨outs', k6⟩ := ((key _ (zip_made _ w _ _ k3)).1).1 ⟨_, k4⟩
      exact ⟨_, doc', fs, outs', hp', by rw [hm]; exact k2, by rw [hm]; exact k3, by rw [hm]; exact k6, rfl⟩
    obtain ⟨d', fs', outs', l1, l2, l3, l4, l5⟩ := c2.2.1 hok'
    rw [hp'] at l1; cases l1
    rw [hm] at l3 l4
    cases loads_uniques k3 l3
    exact ⟨outs, outs', k5, l5, k4.length_eq.symm, (key _ (zip_made _ w _ _ k3)).2 _ _ k4 l4⟩

/-! ## Examples -/

/-- the sample drawing, one inch right and half an inch down -/
noncomputable def rMetasAway : List (Meta (Ext ℝ)) := [⟨c!"@", .loc ((⟨1, 2⟩ : V2 ℝ) + ⟨1, -(1 / 2)⟩).fin, 7⟩, ⟨c!"scale", .scale 1 2, 1⟩]

theorem rMetas_away : List.Forall₂ (Meta.Relocated ⟨1, -(1 / 2)⟩) rMetas rMetasAway :=
  .cons ⟨rfl, fun h => absurd rfl h, fun _ => ⟨_, rfl, rfl⟩⟩ (.cons ⟨rfl, fun _ => rfl, fun h => absurd h (by decide)⟩ .nil)

/-- a drawing with ink, put elsewhere, and a text block that stays -/
example : rEnv.NotAView ∧ ∃ (stl : Models (Ext ℝ)) (c c' : Bool × OutPage (Ext ℝ) × List Diag) (g g' : GenRes (Ext ℝ)), (∀ m ∈ rMetas, m.val.IsFin) ∧
    (∃ m ∈ rMetas, m.name = c!"@") ∧ content rEnv stl (.draw c!"m" rMetas [] 1) = .ok c ∧ content rEnv stl (.draw c!"m" rMetasAway [] 1) = .ok c' ∧
    PageN.Rearranged [⟨1, -(1 / 2)⟩, ⟨0, 0⟩] ⟨[], [.draw c!"m" rMetas [] 1, .text c!"q" [] 1], 1⟩ ⟨[], [.draw c!"m" rMetasAway [] 1, .text c!"q" [] 1], 1⟩ ∧
    onePage rEnv stl ⟨[], [.draw c!"m" rMetas [] 1, .text c!"q" [] 1], 1⟩ = .ok g ∧ onePage rEnv stl ⟨[], [.draw c!"m" rMetasAway [] 1, .text c!"q" [] 1], 1⟩ = .ok g' := by
  obtain ⟨stl, loc, file, proj, ls, c, hM, hD, hc, -⟩ := real_drawn [] (by simp)
  have hat : ∃ m ∈ rMetas, m.name = c!"@" := ⟨_, List.mem_cons_self, rfl⟩
  have f1 : (Drawable.draw c!"m" rMetas [] 1).IsFin := ⟨rMetas_fin, by simp⟩
  have f2 : (Drawable.draw c!"m" rMetasAway [] 1).IsFin := by
    refine ⟨?_, by simp⟩
    simp only [rMetasAway, List.mem_cons, List.not_mem_nil, or_false]
    rintro m (rfl | rfl)
    · exact ⟨_, rfl⟩
    · trivial
  have f3 : (Drawable.text c!"q" [] 1 : Drawable (Ext ℝ)).IsFin := by intro m hm; simp at hm
  have a1 : (Drawable.draw c!"m" rMetas [] 1).AtLoc := by
    intro m hm hn
    simp only [rMetas, List.mem_cons, List.not_mem_nil, or_false] at hm
    rcases hm with rfl | rfl
    · exact ⟨_, rfl⟩
    · exact absurd hn (by decide)
  have a2 : (Drawable.draw c!"m" rMetasAway [] 1).AtLoc := by
    intro m hm hn
    simp only [rMetasAway, List.mem_cons, List.not_mem_nil, or_false] at hm
    rcases hm with rfl | rfl
    · exact ⟨_, rfl⟩
    · exact absurd hn (by decide)
  have a3 : (Drawable.text c!"q" [] 1 : Drawable (Ext ℝ)).AtLoc := by intro m hm; simp at hm
  obtain ⟨c', hc'⟩ := content_ok rEnv insSorter_ok rEnv_notAView stl hM _ f2 a2
  obtain ⟨g, hg⟩ := onePage_ok rEnv insSorter_ok rEnv_notAView stl hM ⟨[], [.draw c!"m" rMetas [] 1, .text c!"q" [] 1], 1⟩
    (by simp only [List.mem_cons, List.not_mem_nil, or_false]; rintro d (rfl | rfl) <;> assumption) (by simp only [List.mem_cons, List.not_mem_nil, or_false]; rintro d (rfl | rfl) <;> assumption)
  obtain ⟨g', hg'⟩ := onePage_ok rEnv insSorter_ok rEnv_notAView stl hM ⟨[], [.draw c!"m" rMetasAway [] 1, .text c!"q" [] 1], 1⟩
    (by simp only [List.mem_cons, List.not_mem_nil, or_false]; rintro d (rfl | rfl) <;> assumption) (by simp only [List.mem_cons, List.not_mem_nil, or_false]; rintro d (rfl | rfl) <;> assumption)
  refine ⟨rEnv_notAView, stl, c, c', g, g', rMetas_fin, hat, hc, hc', ⟨rfl, rfl, ?_⟩, hg, hg'⟩
  exact .cons (Or.inr (.draw _ _ _ _ _ _ rMetas_away hat)) (.cons (Or.inl ⟨rfl, rfl⟩) .nil)

end S2P
