import Verif.Spec.Spelled
import Verif.Props.Pages
import Verif.Props.Junk
import Verif.Props.Main
import Verif.Props.Reorder

set_option linter.unusedSectionVars false
set_option linter.unusedVariables false
set_option linter.unusedSimpArgs false

/-! # C100: a default written out changes nothing -/

namespace S2P

variable {K : Type} [Field K] [LinearOrder K] [IsStrictOrderedRing K] [FloorRing K] [Trans K]

theorem spelled_look {D : Meta (Ext K) → Prop} {ms ms' : List (Meta (Ext K))} (h : SpelledOut D ms ms') (n : Str) :
    look ms' n = look ms n ∨ (look ms n = none ∧ ∃ m, look ms' n = some m ∧ m.name = n ∧ D m) := by
  obtain ⟨extra, rfl, -, hx⟩ := h
  unfold look
  rw [List.find?_append]
  cases h1 : ms.find? (fun m => decide (m.name = n)) with
  | some m => exact Or.inl rfl
  | none =>
    rw [Option.none_or]
    cases h2 : extra.find? (fun m => decide (m.name = n)) with
    | none => exact Or.inl rfl
    | some m => exact Or.inr ⟨rfl, m, rfl, by simpa using List.find?_some h2, (hx m (List.mem_of_find?_eq_some h2)).1⟩

theorem spelled_once {D : Meta (Ext K) → Prop} {ms ms' : List (Meta (Ext K))} (h : SpelledOut D ms ms') :
    (ms'.map (fun m => m.name)).Nodup ↔ (ms.map (fun m => m.name)).Nodup := by
  obtain ⟨extra, rfl, hn, hx⟩ := h
  rw [List.map_append, List.nodup_append]
  constructor
  · exact fun h => h.1
  · intro h
    refine ⟨h, hn, ?_⟩
    intro a ha b hb e
    obtain ⟨m, hm, rfl⟩ := List.mem_map.1 hb
    exact (hx m hm).2 (e ▸ ha)

theorem spelled_known {D : Meta (Ext K) → Prop} {ms ms' : List (Meta (Ext K))} (h : SpelledOut D ms ms') (ns : List Str) (hD : ∀ m, D m → m.name ∈ ns) :
    (∀ m ∈ ms', m.name ∈ ns) ↔ ∀ m ∈ ms, m.name ∈ ns := by
  obtain ⟨extra, rfl, -, hx⟩ := h
  simp only [List.mem_append]
  constructor
  · exact fun k m hm => k m (Or.inl hm)
  · rintro k m (hm | hm)
    · exact k m hm
    · exact hD m (hx m hm).1

theorem spelled_scale {ms ms' : List (Meta (Ext K))} (h : SpelledOut DrawDefault ms ms') : scaleOf (look ms' c!"scale") = scaleOf (look ms c!"scale") := by
  rcases spelled_look h c!"scale" with e | ⟨e1, m, e2, e3, e4⟩
  · rw [e]
  · rcases e4 with ⟨-, e4⟩ | ⟨e4, -⟩ | ⟨e4, -⟩
    · rw [e1, e2]; simp only [scaleOf, e4]
    · rw [e3] at e4; exact absurd e4 (by decide)
    · rw [e3] at e4; exact absurd e4 (by decide)

theorem spelled_view {ms ms' : List (Meta (Ext K))} (h : SpelledOut DrawDefault ms ms') : viewOf (look ms' c!"view") = viewOf (look ms c!"view") := by
  rcases spelled_look h c!"view" with e | ⟨e1, m, e2, e3, e4⟩
  · rw [e]
  · rcases e4 with ⟨e4, -⟩ | ⟨-, e4⟩ | ⟨e4, -⟩
    · rw [e3] at e4; exact absurd e4 (by decide)
    · rw [e1, e2]; simp only [viewOf, e4]; rfl
    · rw [e3] at e4; exact absurd e4 (by decide)

theorem spelled_loc {ms ms' : List (Meta (Ext K))} (h : SpelledOut DrawDefault ms ms') : locOf (look ms' c!"@") = locOf (look ms c!"@") := by
  rcases spelled_look h c!"@" with e | ⟨e1, m, e2, e3, e4⟩
  · rw [e]
  · rcases e4 with ⟨e4, -⟩ | ⟨e4, -⟩ | ⟨-, e4⟩
    · rw [e3] at e4; exact absurd e4 (by decide)
    · rw [e3] at e4; exact absurd e4 (by decide)
    · rw [e1, e2]; simp only [locOf, e4]
      show Except.ok (V2.mk _ _) = Except.ok (V2.mk _ _)
      congr 2 <;> (show Ext.fin _ = Ext.fin _; congr 1; norm_num)

theorem spelled_textLoc {ms ms' : List (Meta (Ext K))} (h : SpelledOut TextDefault ms ms') : textLocOf (look ms' c!"@") = textLocOf (look ms c!"@") := by
  rcases spelled_look h c!"@" with e | ⟨e1, m, e2, e3, -, e4⟩
  · rw [e]
  · rw [e1, e2]; simp only [textLocOf, e4]
    show Except.ok (V2.mk _ _) = Except.ok (V2.mk _ _)
    congr 2 <;> (show Ext.fin _ = Ext.fin _; congr 1; norm_num)

theorem drawDefault_known (m : Meta (Ext K)) (h : DrawDefault m) : m.name ∈ [c!"scale", c!"view", c!"@"] := by
  rcases h with ⟨h, -⟩ | ⟨h, -⟩ | ⟨h, -⟩ <;> rw [h] <;> simp

theorem drawn_spelled {E : Env (Ext K)} {stl : Models (Ext K)} {name : Str} {ms ms' : List (Meta (Ext K))} (h : SpelledOut DrawDefault ms ms') {sc rot loc file proj ls} :
    Drawn E stl name ms' sc rot loc file proj ls ↔ Drawn E stl name ms sc rot loc file proj ls := by
  constructor
  · intro hD
    exact ⟨(spelled_once h).1 hD.once, by rw [← spelled_scale h]; exact hD.scale, by rw [← spelled_view h]; exact hD.view, by rw [← spelled_loc h]; exact hD.loc, hD.model, hD.turned, hD.lines⟩
  · intro hD
    exact ⟨(spelled_once h).2 hD.once, by rw [spelled_scale h]; exact hD.scale, by rw [spelled_view h]; exact hD.view, by rw [spelled_loc h]; exact hD.loc, hD.model, hD.turned, hD.lines⟩

/-- **C100**, drawings and text blocks: properties left out can be written out as `DrawDefault` and `TextDefault` say. -/
theorem C100_block (E : Env (Ext K)) (stl : Models (Ext K)) (d d' : Drawable (Ext K)) (h : d.Spelled d') (c c') (hc : content E stl d = .ok c) (hc' : content E stl d' = .ok c') :
    c'.1 = c.1 ∧ c'.2.1 = c.2.1 := by
  cases h with
  | draw n ms ms' dims l l' h =>
    rcases draw_sum E stl n ms dims l c hc with ⟨a1, a2, -, a3⟩ | ⟨sc, rot, loc, file, proj, ls, cs, hD, hcs, hp1, hok, -⟩ <;>
    rcases draw_sum E stl n ms' dims l' c' hc' with ⟨b1, b2, -, b3⟩ | ⟨sc', rot', loc', file', proj', ls', cs', hD', hcs', hp', hok', -⟩
    · rw [a1, b1, a2, b2]; exact ⟨rfl, rfl⟩
    · exact absurd ⟨_, _, _, _, _, _, (drawn_spelled h).1 hD'⟩ a3
    · exact absurd ⟨_, _, _, _, _, _, (drawn_spelled h).2 hD⟩ b3
    · obtain ⟨rfl, rfl, rfl, rfl, rfl, rfl⟩ := drawn_unique hD ((drawn_spelled h).1 hD')
      cases results_unique hcs hcs'
      refine ⟨?_, hp'.trans hp1.symm⟩
      rw [Bool.eq_iff_iff, hok, hok', spelled_known h _ drawDefault_known]
  | text s ms ms' l l' h =>
    obtain ⟨ds, ex, a1, a2, a3⟩ := visitText_out (α := Ext K) s ms l
    obtain ⟨ds', ex', b1, b2, b3⟩ := visitText_out (α := Ext K) s ms' l'
    rw [spelled_once h, ← a1] at b1
    rw [spelled_known h _ (fun m hm => by rw [hm.1]; simp), ← a2] at b2
    unfold content at hc hc'
    simp only [visitDrawable, a3, b3, bind, Except.bind, pure, Except.pure, textOut, spelled_textLoc h] at hc hc'
    cases hl : textLocOf (look ms c!"@") with
    | error a =>
      rw [hl] at hc hc'
      by_cases hd : ds = []
      · rw [if_neg (by simpa using hd)] at hc; cases hc
      · rw [if_pos (by simpa using hd)] at hc
        rw [if_pos (by simpa using fun e => hd (b1.1 e))] at hc'
        cases hc
        cases hc'
        exact ⟨rfl, rfl⟩
    | ok p =>
      rw [hl] at hc hc'
      by_cases hd : ds = []
      · rw [if_neg (by simpa using hd)] at hc
        rw [if_neg (by simpa using b1.2 hd)] at hc'
        cases hc
        cases hc'
        refine ⟨?_, rfl⟩
        show ex'.isEmpty = ex.isEmpty
        rw [Bool.eq_iff_iff, List.isEmpty_iff, List.isEmpty_iff, b2]
      · rw [if_pos (by simpa using hd)] at hc
        rw [if_pos (by simpa using fun e => hd (b1.1 e))] at hc'
        cases hc
        cases hc'
        exact ⟨rfl, rfl⟩

theorem spelled_contents (E : Env (Ext K)) (stl : Models (Ext K)) {ds ds' : List (Drawable (Ext K))} (h : List.Forall₂ Drawable.Spelled ds ds') (cs cs')
    (hc : List.Forall₂ (fun d c => content E stl d = .ok c) ds cs) (hc' : List.Forall₂ (fun d c => content E stl d = .ok c) ds' cs') :
    ((∀ c ∈ cs', c.1 = true) ↔ ∀ c ∈ cs, c.1 = true) ∧ cs'.map (fun c => c.2.1) = cs.map (fun c => c.2.1) := by
  induction h generalizing cs cs' with
  | nil => cases hc; cases hc'; exact ⟨Iff.rfl, rfl⟩
  | cons h _ ih =>
    cases hc with
    | cons k1 k2 =>
      cases hc' with
      | cons l1 l2 =>
        obtain ⟨e1, e2⟩ := ih _ _ k2 l2
        obtain ⟨f1, f2⟩ := C100_block E stl _ _ h _ _ k1 l1
        simp only [List.mem_cons, forall_eq_or_imp, e1, f1, List.map_cons, e2, f2, and_self]

theorem spelled_titled {ms ms' : List (Meta (Ext K))} (h : SpelledOut PageDefault ms ms') (t : Str) : titled ms' t ↔ titled ms t := by
  unfold titled
  rcases spelled_look h c!"name" with e | ⟨e1, m, e2, e3, -, e4⟩
  · rw [e]
  · rw [e1, e2]; simp only [e4]

theorem spelled_isString {ms ms' : List (Meta (Ext K))} (h : SpelledOut PageDefault ms ms') : nameIsString ms' ↔ nameIsString ms := by
  unfold nameIsString
  rcases spelled_look h c!"name" with e | ⟨e1, m, e2, e3, -, e4⟩
  · rw [e]
  · rw [e1, e2]
    constructor
    · intro _ m hm; cases hm
    · intro _ m' hm; cases hm; exact ⟨_, e4⟩

/-- **C100**, pages: likewise, and a page without a name is one with an empty name. -/
theorem C100_page (E : Env (Ext K)) (stl : Models (Ext K)) (pg pg' : PageN (Ext K)) (h : pg.Spelled pg') (g g') (hg : onePage E stl pg = .ok g) (hg' : onePage E stl pg' = .ok g') :
    g'.ok = g.ok ∧ g'.pages = g.pages := by
  obtain ⟨hm, hd⟩ := h
  obtain ⟨cs, a1, ⟨t, a2, a3⟩, a4⟩ := C58_page E stl pg g hg
  obtain ⟨cs', b1, ⟨t', b2, b3⟩, b4⟩ := C58_page E stl pg' g' hg'
  obtain ⟨e1, e2⟩ := spelled_contents E stl hd cs cs' a1 b1
  rw [spelled_titled hm] at b2
  cases titled_unique a2 b2
  refine ⟨?_, by rw [a3, b3, e2]⟩
  have hx : Exactly pg'.metas [] [c!"name"] ↔ Exactly pg.metas [] [c!"name"] := by
    have hk := spelled_known hm ([] ++ [c!"name"]) (fun m hm => by rw [hm.1]; simp)
    exact ⟨fun k => ⟨(spelled_once hm).1 k.once, hk.1 k.known, fun n hn => by cases hn⟩, fun k => ⟨(spelled_once hm).2 k.once, hk.2 k.known, fun n hn => by cases hn⟩⟩
  rw [Bool.eq_iff_iff, a4, b4, e1, spelled_isString hm, hx]

theorem spelled_pages (E : Env (Ext K)) (stl : Models (Ext K)) {pgs pgs' : List (PageN (Ext K))} (h : List.Forall₂ PageN.Spelled pgs pgs') (outs outs')
    (ho : List.Forall₂ (fun pg o => ∃ g, onePage E stl pg = .ok g ∧ g.pages = [o]) pgs outs)
    (ho' : List.Forall₂ (fun pg o => ∃ g, onePage E stl pg = .ok g ∧ g.pages = [o]) pgs' outs') :
    outs' = outs ∧ ((∀ pg ∈ pgs', ∃ g, onePage E stl pg = .ok g ∧ g.ok = true) ↔ ∀ pg ∈ pgs, ∃ g, onePage E stl pg = .ok g ∧ g.ok = true) := by
  induction h generalizing outs outs' with
  | nil => cases ho; cases ho'; exact ⟨rfl, by simp⟩
  | cons h _ ih =>
    cases ho with
    | cons k1 k2 =>
      cases ho' with
      | cons l1 l2 =>
        obtain ⟨e1, e2⟩ := ih _ _ k2 l2
        obtain ⟨g, x1, x2⟩ := k1
        obtain ⟨g', y1, y2⟩ := l1
        obtain ⟨f1, f2⟩ := C100_page E stl _ _ h g g' x1 y1
        rw [x2, y2] at f2
        cases f2
        refine ⟨by rw [e1], ?_⟩
        simp only [List.mem_cons, forall_eq_or_imp, e2, x1, y1, Except.ok.injEq, exists_eq_left', f1]

/-- **C100**, runs: scripts that differ only in defaults written out are converted to the same file, or neither is converted. -/
theorem C100_run (E : Env (Ext K)) (w : World) (src script script' : Str) (doc doc' : Doc (Ext K)) (hp : parse script = .ok (some doc)) (hp' : parse script' = .ok (some doc'))
    (hm : doc'.models = doc.models) (hd : List.Forall₂ PageN.Spelled doc.pages doc'.pages)
    (r r' : RunRes) (h : scriptToPS E w src script = .ok r) (h' : scriptToPS E w src script' = .ok r') : r'.ok = r.ok ∧ r'.out = r.out := by
  unfold scriptToPS at h h'
  rw [hp] at h
  rw [hp'] at h'
  replace h : docToPS E w src doc = .ok r := h
  replace h' : docToPS E w src doc' = .ok r' := h'
  cases hl : loadFiles E w doc.models with
  | error a => unfold docToPS at h; rw [hl] at h; cases h
  | ok l =>
    have hl' : loadFiles E w doc'.models = .ok l := by rw [hm]; exact hl
    cases hk : l.ok with
    | false =>
      rw [docToPS_unloaded E w src doc l hl hk] at h
      rw [docToPS_unloaded E w src doc' l hl' hk] at h'
      cases h; cases h'
      exact ⟨rfl, rfl⟩
    | true =>
      cases hg : generatePages E l.stl doc [] with
      | error a => rw [docToPS_abort E w src doc l hl hk a hg] at h; cases h
      | ok g =>
        cases hg' : generatePages E l.stl doc' [] with
        | error a => rw [docToPS_abort E w src doc' l hl' hk a hg'] at h'; cases h'
        | ok g' =>
          obtain ⟨⟨outs, a1, a2, a3⟩, a4⟩ := C58_pages E l.stl doc [] g hg
          obtain ⟨⟨outs', b1, b2, b3⟩, b4⟩ := C58_pages E l.stl doc' [] g' hg'
          obtain ⟨e1, e2⟩ := spelled_pages E l.stl hd outs outs' a3 b3
          have e3 : g'.ok = g.ok := by rw [Bool.eq_iff_iff, a4, b4, e2]
          have e4 : g'.pages = g.pages := by rw [a1, b1, e1]
          cases hb : g.ok with
          | false =>
            rw [docToPS_rejected E w src doc l hl hk g hg hb] at h
            rw [docToPS_rejected E w src doc' l hl' hk g' hg' (e3.trans hb)] at h'
            cases h; cases h'
            exact ⟨rfl, rfl⟩
          | true =>
            rw [docToPS_done E w src doc l hl hk g hg hb] at h
            rw [docToPS_done E w src doc' l hl' hk g' hg' (e3.trans hb)] at h'
            cases h; cases h'
            refine ⟨rfl, ?_⟩
            show renderPages E src g'.pages = renderPages E src g.pages
            rw [e4]

/-! ## Examples -/

/-- a drawing and a text block, nothing said about them -/
def bareScript : Str := c!"load m=\"/x\";page{draw m{}text[\"a\"]{}}"
/-- the same with everything said -/
def fullScript : Str := c!"load m=\"/x\";page{name=\"\";draw m{scale=1:1;view=\"Z+\";@[-5.5,-4.25];}text[\"a\"]{@[0,0];}}"

def bareDoc : Doc (Ext ℚ) := ⟨[⟨c!"m", c!"/x", 1⟩], [⟨[], [.draw c!"m" [] [] 1, .text c!"a" [] 1], 1⟩]⟩
def fullDoc : Doc (Ext ℚ) := ⟨[⟨c!"m", c!"/x", 1⟩], [⟨[⟨c!"name", .str [], 1⟩],
  [.draw c!"m" [⟨c!"scale", .scale 1 1, 1⟩, ⟨c!"view", .str c!"Z+", 1⟩, ⟨c!"@", .loc (V2.fin ⟨-(11/2), -(17/4)⟩), 1⟩] [] 1, .text c!"a" [⟨c!"@", .loc (V2.fin ⟨0, 0⟩), 1⟩] 1], 1⟩]⟩

open Lean Meta Elab Tactic in
/-- both sides compute to the same (the tactic offers `rfl` to the kernel directly) -/
theorem bare_doc : parse bareScript = .ok (some bareDoc) := by
  run_tac do
    let g ← getMainGoal
    let some (_, a, _) := (← g.getType).eq? | throwError "not an equation"
    g.assign (← mkEqRefl a)

open Lean Meta Elab Tactic in
/-- both sides compute to the same (the tactic offers `rfl` to the kernel directly) -/
theorem full_doc : parse fullScript = .ok (some fullDoc) := by
  run_tac do
    let g ← getMainGoal
    let some (_, a, _) := (← g.getType).eq? | throwError "not an equation"
    g.assign (← mkEqRefl a)

theorem full_spelled : List.Forall₂ PageN.Spelled bareDoc.pages fullDoc.pages := by
  refine .cons ⟨⟨_, rfl, ?_, ?_⟩, .cons (.draw _ _ _ _ _ _ ⟨_, rfl, ?_, ?_⟩) (.cons (.text _ _ _ _ _ ⟨_, rfl, ?_, ?_⟩) .nil)⟩ .nil
  · decide
  · intro m hm
    rw [List.mem_singleton.1 hm]
    exact ⟨⟨rfl, rfl⟩, by simp⟩
  · decide
  · intro m hm
    simp only [List.mem_cons, List.not_mem_nil, or_false] at hm
    rcases hm with rfl | rfl | rfl
    · exact ⟨Or.inl ⟨rfl, rfl⟩, by simp⟩
    · exact ⟨Or.inr (Or.inl ⟨rfl, rfl⟩), by simp⟩
    · exact ⟨Or.inr (Or.inr ⟨rfl, rfl⟩), by simp⟩
  · decide
  · intro m hm
    rw [List.mem_singleton.1 hm]
    exact ⟨⟨rfl, rfl⟩, by simp⟩

/-- two scripts that meet what C100 asks of runs -/
example : ∃ (doc doc' : Doc (Ext ℚ)) (r r' : RunRes), parse bareScript = .ok (some doc) ∧ parse fullScript = .ok (some doc') ∧ doc'.models = doc.models ∧
    List.Forall₂ PageN.Spelled doc.pages doc'.pages ∧ scriptToPS exEnv exDisk c!"s" bareScript = .ok r ∧ scriptToPS exEnv exDisk c!"s" fullScript = .ok r' ∧ r.ok = true := by
  have k1 : (scriptToPS exEnv exDisk c!"s" bareScript).map (fun r => r.ok) = .ok true := by decide +kernel
  have k2 : (scriptToPS exEnv exDisk c!"s" fullScript).map (fun r => r.ok) = .ok true := by decide +kernel
  cases e1 : scriptToPS exEnv exDisk c!"s" bareScript with
  | error a => rw [e1] at k1; cases k1
  | ok r =>
    cases e2 : scriptToPS exEnv exDisk c!"s" fullScript with
    | error a => rw [e2] at k2; cases k2
    | ok r' =>
      rw [e1] at k1
      injection k1 with k1
      exact ⟨_, _, r, r', bare_doc, full_doc, rfl, full_spelled, rfl, rfl, k1⟩

/-- a page with a drawing, a text block and no name, and the same with all written out: both are accepted -/
example : PageN.Spelled (⟨[], [.draw c!"m" [] [] 1, .text c!"a" [] 1], 1⟩ : PageN (Ext ℚ)) (fullDoc.pages.headD ⟨[], [], 0⟩) ∧
    (onePage exEnv exModels ⟨[], [.draw c!"m" [] [] 1, .text c!"a" [] 1], 1⟩).map (fun g => (g.ok, g.pages.map (fun o => o.text.map (fun t => t.str)))) = .ok (true, [[c!"a", c!""]]) ∧
    (onePage exEnv exModels (fullDoc.pages.headD ⟨[], [], 0⟩)).map (fun g => (g.ok, g.pages.map (fun o => o.text.map (fun t => t.str)))) = .ok (true, [[c!"a", c!""]]) := by
  refine ⟨?_, by decide +kernel, by decide +kernel⟩
  have h := full_spelled
  cases h with
  | cons h _ => exact h

end S2P
