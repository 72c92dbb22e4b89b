import Verif.Spec.Reorder
import Verif.Props.Pages
import Verif.Props.Junk
import Verif.Props.Main

set_option linter.unusedSectionVars false
set_option linter.unusedVariables false
set_option linter.unusedSimpArgs false

/-! # C99: the order in which the things on a page are written does not show -/

namespace S2P

variable {α : Type} [FP α]

theorem OutPage.SameInk.refl (P : OutPage α) : P.SameInk P := ⟨.refl _, .refl _, .refl _⟩

theorem OutPage.SameInk.trans {P Q R : OutPage α} (h : P.SameInk Q) (k : Q.SameInk R) : P.SameInk R := ⟨h.1.trans k.1, h.2.1.trans k.2.1, h.2.2.trans k.2.2⟩

theorem OutPage.SameInk.app {P P' Q Q' : OutPage α} (h : P.SameInk P') (k : Q.SameInk Q') : (P.app Q).SameInk (P'.app Q') :=
  ⟨h.1.append k.1, h.2.1.append k.2.1, h.2.2.append k.2.2⟩

theorem sum_perm {Ps Qs : List (OutPage α)} (h : Ps.Perm Qs) : (OutPage.sum Ps).SameInk (OutPage.sum Qs) := by
  induction h with
  | nil => exact .refl _
  | cons P _ ih => exact OutPage.SameInk.app (.refl _) ih
  | swap P Q Ps =>
    refine ⟨?_, ?_, ?_⟩ <;> simp only [OutPage.sum, OutPage.app]
    · rw [← List.append_assoc, ← List.append_assoc]; exact List.perm_append_comm.append (.refl _)
    · rw [← List.append_assoc, ← List.append_assoc]; exact List.perm_append_comm.append (.refl _)
    · rw [← List.append_assoc, ← List.append_assoc]; exact List.perm_append_comm.append (.refl _)
  | trans _ _ h k => exact h.trans k

theorem sum_same {Ps Qs : List (OutPage α)} (h : List.Forall₂ OutPage.SameInk Ps Qs) : (OutPage.sum Ps).SameInk (OutPage.sum Qs) := by
  induction h with
  | nil => exact .refl _
  | cons h _ ih => exact h.app ih

theorem header_same {P Q : OutPage α} (h : P.SameInk Q) (t : Str) : (addHeader P t).SameInk (addHeader Q t) := by
  refine ⟨?_, ?_, ?_⟩ <;> unfold addHeader <;> dsimp only
  · exact h.1.append (.refl _)
  · exact h.2.1
  · exact h.2.2.append (.refl _)

theorem results_unique {β γ : Type} {R : β → Except Abort γ} {l : List β} {a b : List γ} (h : List.Forall₂ (fun d c => R d = .ok c) l a) (k : List.Forall₂ (fun d c => R d = .ok c) l b) : a = b := by
  induction h generalizing b with
  | nil => cases k; rfl
  | cons h _ ih =>
    cases k with
    | cons k k' =>
      rw [h] at k
      cases k
      rw [ih k']

theorem results_perm {β γ : Type} {R : β → Except Abort γ} {l l' : List β} (p : l.Perm l') {a : List γ} (h : List.Forall₂ (fun d c => R d = .ok c) l a) :
    ∃ b, a.Perm b ∧ List.Forall₂ (fun d c => R d = .ok c) l' b := by
  induction p generalizing a with
  | nil => exact ⟨a, .refl _, h⟩
  | cons x _ ih =>
    cases h with
    | cons h k =>
      obtain ⟨b, p, q⟩ := ih k
      exact ⟨_ :: b, p.cons _, .cons h q⟩
  | swap x y l =>
    cases h with
    | cons h k =>
      cases k with
      | cons h' k => exact ⟨_ :: _ :: _, .swap _ _ _, .cons h' (.cons h k)⟩
  | trans _ _ ih1 ih2 =>
    obtain ⟨b, p, q⟩ := ih1 h
    obtain ⟨c, p', q'⟩ := ih2 q
    exact ⟨c, p.trans p', q'⟩

/-- **C99**, drawings: the dimensions of a drawing can be written in any order. -/
theorem C99_drawing (E : Env α) (stl : Models α) (d d' : Drawable α) (h : d.Reordered d') (c c') (hc : content E stl d = .ok c) (hc' : content E stl d' = .ok c') :
    c'.1 = c.1 ∧ c.2.1.SameInk c'.2.1 := by
  cases h with
  | text s ms l =>
    rw [hc] at hc'
    cases hc'
    exact ⟨rfl, .refl _⟩
  | draw n ms ds ds' l l' hp =>
    rcases draw_sum E stl n ms ds l c hc with ⟨a1, a2, -, a3⟩ | ⟨sc, rot, loc, file, proj, ls, cs, hD, hcs, hp1, hok, -⟩ <;>
    rcases draw_sum E stl n ms ds' l' c' hc' with ⟨b1, b2, -, b3⟩ | ⟨sc', rot', loc', file', proj', ls', cs', hD', hcs', hp', hok', -⟩
    · rw [a1, b1, a2, b2]; exact ⟨rfl, .refl _⟩
    · exact absurd ⟨_, _, _, _, _, _, hD'⟩ a3
    · exact absurd ⟨_, _, _, _, _, _, hD⟩ b3
    · obtain ⟨rfl, rfl, rfl, rfl, rfl, rfl⟩ := drawn_unique hD hD'
      obtain ⟨cs2, p2, q2⟩ := results_perm hp hcs
      cases results_unique q2 hcs'
      refine ⟨?_, ?_⟩
      · rw [Bool.eq_iff_iff, hok, hok']
        simp only [p2.mem_iff]
      · rw [hp1, hp']
        exact OutPage.SameInk.app (.refl _) (sum_perm (p2.map _))

theorem reordered_contents (E : Env α) (stl : Models α) {ds ds' : List (Drawable α)} (h : List.Forall₂ Drawable.Reordered ds ds') (cs cs')
    (hc : List.Forall₂ (fun d c => content E stl d = .ok c) ds cs) (hc' : List.Forall₂ (fun d c => content E stl d = .ok c) ds' cs') :
    ((∀ c ∈ cs', c.1 = true) ↔ ∀ c ∈ cs, c.1 = true) ∧ List.Forall₂ OutPage.SameInk (cs.map (fun c => c.2.1)) (cs'.map (fun c => c.2.1)) := by
  induction h generalizing cs cs' with
  | nil => cases hc; cases hc'; exact ⟨Iff.rfl, .nil⟩
  | cons h _ ih =>
    cases hc with
    | cons k1 k2 =>
      cases hc' with
      | cons l1 l2 =>
        obtain ⟨e1, e2⟩ := ih _ _ k2 l2
        obtain ⟨f1, f2⟩ := C99_drawing E stl _ _ h _ _ k1 l1
        refine ⟨?_, .cons f2 e2⟩
        simp only [List.mem_cons, forall_eq_or_imp, e1, f1]

/-- **C99**, pages: the drawings and text blocks of a page, and the dimensions of drawings, can be written in any order. -/
theorem C99_page (E : Env α) (stl : Models α) (pg pg' : PageN α) (h : pg.Reordered pg') (g g') (hg : onePage E stl pg = .ok g) (hg' : onePage E stl pg' = .ok g') :
    g'.ok = g.ok ∧ ∃ o o', g.pages = [o] ∧ g'.pages = [o'] ∧ o.SameInk o' := by
  obtain ⟨hm, ds, hp, hd⟩ := h
  obtain ⟨cs, a1, ⟨t, a2, a3⟩, a4⟩ := C58_page E stl pg g hg
  obtain ⟨cs', b1, ⟨t', b2, b3⟩, b4⟩ := C58_page E stl pg' g' hg'
  obtain ⟨cs2, p2, q2⟩ := results_perm hp a1
  obtain ⟨e1, e2⟩ := reordered_contents E stl hd cs2 cs' q2 b1
  rw [hm] at b2 b4
  cases titled_unique a2 b2
  refine ⟨?_, _, _, a3, b3, header_same ((sum_perm (p2.map _)).trans (sum_same e2)) t⟩
  rw [Bool.eq_iff_iff, a4, b4, e1]
  simp only [p2.mem_iff]

theorem reordered_pages (E : Env α) (stl : Models α) {pgs pgs' : List (PageN α)} (h : List.Forall₂ PageN.Reordered pgs pgs') (outs outs')
    (ho : List.Forall₂ (fun pg o => ∃ g, onePage E stl pg = .ok g ∧ g.pages = [o]) pgs outs)
    (ho' : List.Forall₂ (fun pg o => ∃ g, onePage E stl pg = .ok g ∧ g.pages = [o]) pgs' outs') :
    List.Forall₂ OutPage.SameInk outs outs' ∧
      ((∀ pg ∈ pgs', ∃ g, onePage E stl pg = .ok g ∧ g.ok = true) ↔ ∀ pg ∈ pgs, ∃ g, onePage E stl pg = .ok g ∧ g.ok = true) := by
  induction h generalizing outs outs' with
  | nil => cases ho; cases ho'; exact ⟨.nil, by simp⟩
  | cons h _ ih =>
    cases ho with
    | cons k1 k2 =>
      cases ho' with
      | cons l1 l2 =>
        obtain ⟨e1, e2⟩ := ih _ _ k2 l2
        obtain ⟨g, x1, x2⟩ := k1
        obtain ⟨g', y1, y2⟩ := l1
        obtain ⟨f1, o, o', f2, f3, f4⟩ := C99_page E stl _ _ h g g' x1 y1
        rw [x2] at f2; rw [y2] at f3
        cases f2; cases f3
        refine ⟨.cons f4 e1, ?_⟩
        simp only [List.mem_cons, forall_eq_or_imp, e2, x1, y1, Except.ok.injEq, exists_eq_left', f1]

/-- **C99**, runs: if two scripts load the same models and have the same pages, but for the order of the drawings, text blocks and dimensions within each page, then
conversions of them both succeed or both fail; if they succeed, each page has the same lines, arcs and texts. -/
theorem C99_run (E : Env α) (w : World) (src script script' : Str) (doc doc' : Doc α) (hp : parse script = .ok (some doc)) (hp' : parse script' = .ok (some doc'))
    (hm : doc'.models = doc.models) (hd : List.Forall₂ PageN.Reordered doc.pages doc'.pages)
    (r r' : RunRes) (h : scriptToPS E w src script = .ok r) (h' : scriptToPS E w src script' = .ok r') :
    r'.ok = r.ok ∧ (r.ok = true → ∃ outs outs', r.out = renderPages E src outs ∧ r'.out = renderPages E src outs' ∧ outs.length = doc.pages.length ∧
      List.Forall₂ OutPage.SameInk outs outs') := by
  unfold scriptToPS at h h'
  rw [hp] at h
  rw [hp'] at h'
  replace h : docToPS E w src doc = .ok r := h
  replace h' : docToPS E w src doc' = .ok r' := h'
  cases hl : loadFiles E w doc.models with
  | error a => unfold docToPS at h; rw [hl] at h; cases h
  | ok l =>
    have hl' : loadFiles E w doc'.models = .ok l := by rw [hm]; exact hl
    cases hk : l.ok with
    | false =>
      rw [docToPS_unloaded E w src doc l hl hk] at h
      rw [docToPS_unloaded E w src doc' l hl' hk] at h'
      cases h; cases h'
      exact ⟨rfl, fun k => by cases k⟩
    | true =>
      cases hg : generatePages E l.stl doc [] with
      | error a => rw [docToPS_abort E w src doc l hl hk a hg] at h; cases h
      | ok g =>
        cases hg' : generatePages E l.stl doc' [] with
        | error a => rw [docToPS_abort E w src doc' l hl' hk a hg'] at h'; cases h'
        | ok g' =>
          obtain ⟨⟨outs, a1, a2, a3⟩, a4⟩ := C58_pages E l.stl doc [] g hg
          obtain ⟨⟨outs', b1, b2, b3⟩, b4⟩ := C58_pages E l.stl doc' [] g' hg'
          obtain ⟨e1, e2⟩ := reordered_pages E l.stl hd outs outs' a3 b3
          have e3 : g'.ok = g.ok := by rw [Bool.eq_iff_iff, a4, b4, e2]
          cases hb : g.ok with
          | false =>
            rw [docToPS_rejected E w src doc l hl hk g hg hb] at h
            rw [docToPS_rejected E w src doc' l hl' hk g' hg' (e3.trans hb)] at h'
            cases h; cases h'
            exact ⟨rfl, fun k => by cases k⟩
          | true =>
            rw [docToPS_done E w src doc l hl hk g hg hb] at h
            rw [docToPS_done E w src doc' l hl' hk g' hg' (e3.trans hb)] at h'
            cases h; cases h'
            refine ⟨rfl, fun _ => ⟨outs, outs', ?_, ?_, a2, e1⟩⟩
            · show renderPages E src g.pages = _; rw [a1]; rfl
            · show renderPages E src g'.pages = _; rw [b1]; rfl

/-! ## Examples -/

/-- another dimension of the sample drawing -/
def exDim2 : DimN (Ext ℚ) :=
  ⟨.dim, [⟨c!"at", pt (-1) 1 0, 3⟩, ⟨c!"dir", pt 0 1 0, 3⟩, ⟨c!"from", pt 0 0 0, 3⟩, ⟨c!"to", pt 0 3 0, 3⟩], 3⟩

/-- a page with a drawing and a text block, and the same the other way round, the two dimensions of the drawing too: both are accepted, and differ as lists -/
example : PageN.Reordered (⟨[], [.draw c!"m" [exAt 0 0] [exDim, exDim2] 1, exText], 9⟩ : PageN (Ext ℚ)) ⟨[], [exText, .draw c!"m" [exAt 0 0] [exDim2, exDim] 1], 9⟩ ∧
    (onePage exEnv exModels ⟨[], [.draw c!"m" [exAt 0 0] [exDim, exDim2] 1, exText], 9⟩).map (fun g => (g.ok, g.pages.map (fun o => o.text.map (fun t => t.str)))) =
      .ok (true, [[c!"4", c!"3", c!"hi", c!"you", c!""]]) ∧
    (onePage exEnv exModels ⟨[], [exText, .draw c!"m" [exAt 0 0] [exDim2, exDim] 1], 9⟩).map (fun g => (g.ok, g.pages.map (fun o => o.text.map (fun t => t.str)))) =
      .ok (true, [[c!"hi", c!"you", c!"3", c!"4", c!""]]) := by
  refine ⟨⟨rfl, [exText, .draw c!"m" [exAt 0 0] [exDim, exDim2] 1], .swap _ _ _, .cons (.text _ _ _) (.cons (.draw _ _ _ _ _ _ (.swap _ _ _)) .nil)⟩, ?_, ?_⟩ <;> decide +kernel

def abScript : Str := c!"page{text[\"a\"]{}text[\"b\"]{}}"
def baScript : Str := c!"page{text[\"b\"]{}text[\"a\"]{}}"

open Lean Meta Elab Tactic in
/-- both sides compute to the same (the tactic offers `rfl` to the kernel directly) -/
theorem ab_doc : parse (α := Ext ℚ) abScript = .ok (some ⟨[], [⟨[], [.text c!"a" [] 1, .text c!"b" [] 1], 1⟩]⟩) := by
  run_tac do
    let g ← getMainGoal
    let some (_, a, _) := (← g.getType).eq? | throwError "not an equation"
    g.assign (← mkEqRefl a)

open Lean Meta Elab Tactic in
/-- both sides compute to the same (the tactic offers `rfl` to the kernel directly) -/
theorem ba_doc : parse (α := Ext ℚ) baScript = .ok (some ⟨[], [⟨[], [.text c!"b" [] 1, .text c!"a" [] 1], 1⟩]⟩) := by
  run_tac do
    let g ← getMainGoal
    let some (_, a, _) := (← g.getType).eq? | throwError "not an equation"
    g.assign (← mkEqRefl a)

/-- two scripts that meet what C99 asks of runs -/
example : ∃ (doc doc' : Doc (Ext ℚ)) (r r' : RunRes), parse abScript = .ok (some doc) ∧ parse baScript = .ok (some doc') ∧ doc'.models = doc.models ∧
    List.Forall₂ PageN.Reordered doc.pages doc'.pages ∧ scriptToPS exEnv exDisk c!"s" abScript = .ok r ∧ scriptToPS exEnv exDisk c!"s" baScript = .ok r' ∧ r.ok = true := by
  have h1 := ab_doc
  have h2 := ba_doc
  have k1 : (scriptToPS exEnv exDisk c!"s" abScript).map (fun r => r.ok) = .ok true := by decide +kernel
  have k2 : (scriptToPS exEnv exDisk c!"s" baScript).map (fun r => r.ok) = .ok true := by decide +kernel
  cases e1 : scriptToPS exEnv exDisk c!"s" abScript with
  | error a => rw [e1] at k1; cases k1
  | ok r =>
    cases e2 : scriptToPS exEnv exDisk c!"s" baScript with
    | error a => rw [e2] at k2; cases k2
    | ok r' =>
      rw [e1] at k1
      injection k1 with k1
      exact ⟨_, _, r, r', h1, h2, rfl, .cons ⟨rfl, _, .swap _ _ _, .cons (.text _ _ _) (.cons (.text _ _ _) .nil)⟩ .nil, rfl, rfl, k1⟩

end S2P
