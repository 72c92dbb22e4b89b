import Verif.Lemmas.Ink
import Verif.Spec.Resized
import Verif.Props.PostScript

set_option linter.unusedSectionVars false
set_option linter.unusedVariables false
set_option linter.unusedSimpArgs false

/-! # Lemmas for C72 -/

namespace S2P
open PS

/-- What an accepted drawing puts on the page, in terms of the facets seen. -/
theorem draw_ink (E : Env (Ext ℝ)) (hS : SortOK E.sorter) (hJ : E.NotAView) (stl : Models (Ext ℝ)) (hM : stl.Made) (name : Str)
    (ms : List (Meta (Ext ℝ))) (dims : List (DimN (Ext ℝ))) (line : Nat) (hf : ∀ m ∈ ms, m.val.IsFin)
    (ht : (Drawable.draw name ms dims line).Tame E stl) (c) (h : content E stl (.draw name ms dims line) = .ok c) (hc : c.1 = true) :
    ∃ file ts k off, (∃ e, stl.find? (fun e => decide (e.1 = name)) = some e ∧ e.2 = some file) ∧ Projects file ms ts k off ∧
      (∀ e, Sharp ts e → ∀ t, 0 ≤ t → t ≤ 1 → (∃ t0 t1, t0 ≤ t ∧ t ≤ t1 ∧ (partLine e t0 t1 k off ∈ c.2.1.lines ∨ partLine e t1 t0 k off ∈ c.2.1.lines)) ∨
        ∃ f ∈ ts, CoversPt f e (edgeAt e t)) ∧
      (dims = [] → c.2.1.arcs = [] ∧ ∀ l ∈ c.2.1.lines, ∃ e t u, (∃ f ∈ ts, f.HasSide e) ∧ 0 ≤ t ∧ t < u ∧ u ≤ 1 ∧ l = partLine e t u k off ∧
        ∀ f ∈ ts, Under f e → ∀ s, t < s → s < u → ¬ InsideTri f (edgeAt e s)) := by
  rcases draw_sum E stl name ms dims line c h with ⟨h1, -⟩ | ⟨⟨a, b⟩, rot, loc, file, proj, ls, cs, hd, -⟩
  · rw [h1] at hc; cases hc
  obtain ⟨r, rfl, hr⟩ := viewOf_rotation _ (look_fin hf _) _ hd.view
  obtain ⟨Ps, f, e⟩ := C38_drawing E stl name ms dims line c h _ _ _ _ _ _ hd (hJ r hr)
  obtain ⟨hb, -, -⟩ := ht _ _ _ _ _ _ hd
  obtain ⟨en, hen, hfile⟩ := hd.model
  obtain ⟨file', hf', hmade⟩ := hM en (List.mem_of_find?_eq_some hen)
  rw [hfile] at hf'; injection hf' with hf'; subst hf'
  obtain ⟨ts, i1, i2, i3, i4⟩ := view_ink E.sorter hS file proj hmade r hr hd.turned ls hd.lines
  obtain ⟨lo, hi, l1, l2⟩ := limits_box proj.cull ts i2
  obtain ⟨p, rfl⟩ := locOf_fin _ (look_fin hf _) loc hd.loc
  rw [l1, projScale_fin a b hb, projOffset_fin] at e
  set k : ℝ := 72 * ((a : ℝ) / b) with hk
  set off : V2 ℝ := ⟨p.x - (lo.x + hi.x) / 2 * k, p.y - (lo.y + hi.y) / 2 * k⟩ with hoff
  have part : ∀ (e : Edge ℝ) t u, (⟨(edgeAt e t).xy.fin.moved (Ext.fin k) off.fin, (edgeAt e u).xy.fin.moved (Ext.fin k) off.fin⟩ : Line (Ext ℝ)) =
      partLine e t u k off := fun e t u => rfl
  have hlines : c.2.1.lines = ls.map (fun l => ⟨l.o.moved (Ext.fin k) off.fin, l.t.moved (Ext.fin k) off.fin⟩) ++
      ((OutPage.sum Ps).moved (Ext.fin k) off.fin).lines := by
    rw [e]; simp [OutPage.sum, OutPage.moved, OutPage.app, OutPage.ofLines]
  refine ⟨file, ts, k, off, ⟨en, hen, hfile⟩, ⟨r, a, b, p, hd.view, hd.scale, hd.loc, i1, hk, ?_⟩, ?_, ?_⟩
  · intro hne
    refine ⟨lo, hi, l2 hne, ?_⟩
    ext <;> simp [V2.moved, hoff]
  · intro e he t t0 t1
    rcases i3 e he t t0 t1 with ⟨u0, u1, h1, h2, h3⟩ | h
    · left
      refine ⟨u0, u1, h1, h2, ?_⟩
      rw [hlines]
      rcases h3 with h3 | h3
      · left
        exact List.mem_append_left _ (List.mem_map.2 ⟨_, h3, part e u0 u1⟩)
      · right
        exact List.mem_append_left _ (List.mem_map.2 ⟨_, h3, part e u1 u0⟩)
    · exact Or.inr h
  · intro hn
    subst hn
    cases f
    constructor
    · rw [e]; simp [OutPage.sum, OutPage.moved, OutPage.app, OutPage.ofLines, OutPage.empty]
    intro l hl
    rw [hlines] at hl
    simp only [OutPage.sum, OutPage.moved, OutPage.empty, List.map_nil, List.append_nil] at hl
    obtain ⟨l', hl', rfl⟩ := List.mem_map.1 hl
    obtain ⟨e, t, u, j1, j2, j3, j4, rfl, j6⟩ := i4 l' hl'
    exact ⟨e, t, u, j1, j2, j3, j4, part e t u, j6⟩

theorem text_ink (E : Env (Ext ℝ)) (stl : Models (Ext ℝ)) (s : Str) (ms : List (Meta (Ext ℝ))) (l : Nat) (hf : ∀ m ∈ ms, m.val.IsFin) (c)
    (h : content E stl (.text s ms l) = .ok c) : c.2.1.lines = [] ∧ c.2.1.arcs = [] := by
  unfold content at h
  simp only [visitDrawable, bind, Except.bind] at h
  obtain ⟨ds, extra, e1, e2, e3⟩ := visitText_out (α := Ext ℝ) s ms l
  rw [e3] at h
  unfold textOut at h
  by_cases hd : ds ≠ []
  · rw [if_pos hd] at h; cases h; exact ⟨rfl, rfl⟩
  · rw [if_neg hd] at h
    cases h1 : textLocOf (look ms c!"@") with
    | error a => rw [h1] at h; cases h
    | ok p => rw [h1] at h; cases h; exact ⟨rfl, rfl⟩

theorem paints_sheets (F : Fonts) (E : Env (Ext ℝ)) (n : Nat) : ∀ (Ps : List (OutPage (Ext ℝ))) (i : Nat) (ms : List Mark), PaintsPages F E n i Ps ms →
    ∃ sheets, ms = sheets.flatten ∧ List.Forall₂ (fun P a => ∃ i, PaintsPage F E n i P a) Ps sheets
  | [], i, ms, h => ⟨[], by simpa [PaintsPages] using h, .nil⟩
  | P :: Ps, i, ms, ⟨a, b, e, h1, h2⟩ => by
    obtain ⟨sheets, rfl, h3⟩ := paints_sheets F E n Ps (i + 1) b h2
    exact ⟨a :: sheets, by rw [e]; rfl, .cons ⟨i, h1⟩ h3⟩

theorem mem_sum_lines {α : Type} [FP α] {l : Line α} : ∀ (Ps : List (OutPage α)), l ∈ (OutPage.sum Ps).lines ↔ ∃ P ∈ Ps, l ∈ P.lines
  | [] => by simp [OutPage.sum, OutPage.empty]
  | P :: Ps => by simp [OutPage.sum, OutPage.app, mem_sum_lines Ps]

theorem mem_sum_arcs {α : Type} [FP α] {l : Arc α} : ∀ (Ps : List (OutPage α)), l ∈ (OutPage.sum Ps).arcs ↔ ∃ P ∈ Ps, l ∈ P.arcs
  | [] => by simp [OutPage.sum, OutPage.empty]
  | P :: Ps => by simp [OutPage.sum, OutPage.app, mem_sum_arcs Ps]

theorem ok_unique {β γ : Type} (f : β → Except Abort γ) : ∀ (l : List β) (a b : List γ), List.Forall₂ (fun x y => f x = .ok y) l a →
    List.Forall₂ (fun x y => f x = .ok y) l b → a = b
  | [], _, _, .nil, .nil => rfl
  | _ :: l, _, _, .cons h1 h2, .cons h3 h4 => by
    rw [h1] at h3; injection h3 with h3
    rw [ok_unique f l _ _ h2 h4, h3]

theorem find_loads {α : Type} [FP α] (lp : Str) (w : World) (ms : List ModelN) (fs : List (STLFile α)) (hf : List.Forall₂ (Loads lp w) ms fs) (n : Str) (e)
    (he : (List.zipWith (fun (m : ModelN) f => (m.name, some f)) ms fs).find? (fun e => decide (e.1 = n)) = some e) (file) (hfile : e.2 = some file) :
    ∃ m ∈ ms, m.name = n ∧ Loads lp w m file := by
  induction hf with
  | nil => simp at he
  | @cons m f ms fs h1 h2 ih =>
    rw [List.zipWith_cons_cons, List.find?_cons] at he
    by_cases hn : m.name = n
    · simp [hn] at he
      subst he
      simp at hfile; subst hfile
      exact ⟨m, by simp, hn, h1⟩
    · simp [hn] at he
      obtain ⟨m', h3, h4⟩ := ih (by simpa using he)
      exact ⟨m', by simp [h3], h4⟩

theorem plain_tame (E : Env (Ext ℝ)) (stl : Models (Ext ℝ)) (y : Drawable (Ext ℝ)) (h : y.Plain) : y.Tame E stl ∧ PlainDia y := by
  cases y with
  | text => exact ⟨trivial, trivial⟩
  | draw n ms dims l =>
    obtain ⟨rfl, h⟩ := h
    refine ⟨?_, by simp [PlainDia]⟩
    rintro ⟨a, b⟩ rot loc file proj ls hd
    refine ⟨?_, by simp, by simp⟩
    have hs := hd.scale
    unfold scaleOf at hs
    cases hk : look ms c!"scale" with
    | none => rw [hk] at hs; simp at hs; simp [← hs.2]
    | some m =>
      rw [hk] at hs
      simp only at hs
      have hm : m ∈ ms := look_mem hk
      cases hv : m.val <;> rw [hv] at hs <;> simp at hs
      obtain ⟨rfl, rfl⟩ := hs
      exact h m hm _ _ hv

end S2P
