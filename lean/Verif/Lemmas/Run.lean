import Verif.Model.Main

set_option linter.unusedSectionVars false

/-! # ScriptToPS by cases -/

namespace S2P
theorem scriptToPS_error {α : Type} [FP α] (E : Env α) (w src script a) (h : (parse script : Except Abort (Option (Doc α))) = .error a) : scriptToPS E w src script = .error a := by
  unfold scriptToPS; rw [h]; rfl
theorem scriptToPS_none {α : Type} [FP α] (E : Env α) (w src script) (h : (parse script : Except Abort (Option (Doc α))) = .ok none) : scriptToPS E w src script = .ok ⟨false, [], []⟩ := by
  unfold scriptToPS; rw [h]; rfl
theorem scriptToPS_some {α : Type} [FP α] (E : Env α) (w src script) (doc : Doc α) (h : (parse script : Except Abort (Option (Doc α))) = .ok (some doc)) : scriptToPS E w src script = docToPS E w src doc := by
  unfold scriptToPS; rw [h]; rfl
theorem docToPS_error {α : Type} [FP α] (E : Env α) (w src) (doc : Doc α) (a) (h : loadFiles E w doc.models = .error a) : docToPS E w src doc = .error a := by
  unfold docToPS; rw [h]; rfl
theorem docToPS_unloaded {α : Type} [FP α] (E : Env α) (w src) (doc : Doc α) (l) (h : loadFiles E w doc.models = .ok l) (hk : l.ok = false) : docToPS E w src doc = .ok ⟨false, [], l.log⟩ := by
  unfold docToPS; rw [h]; simp only [bind, Except.bind, hk]; rfl
theorem docToPS_abort {α : Type} [FP α] (E : Env α) (w src) (doc : Doc α) (l) (h : loadFiles E w doc.models = .ok l) (hk : l.ok = true) (a) (hg : generatePages E l.stl doc [] = .error a) : docToPS E w src doc = .error a := by
  unfold docToPS; rw [h]; simp only [bind, Except.bind, hk]; rw [hg]; rfl
theorem docToPS_rejected {α : Type} [FP α] (E : Env α) (w src) (doc : Doc α) (l) (h : loadFiles E w doc.models = .ok l) (hk : l.ok = true) (g) (hg : generatePages E l.stl doc [] = .ok g)
    (hb : g.ok = false) : docToPS E w src doc = .ok ⟨false, [], l.log ++ g.log⟩ := by
  unfold docToPS; rw [h]; simp only [bind, Except.bind, hk]; rw [hg]; simp only [hb]; rfl
theorem docToPS_done {α : Type} [FP α] (E : Env α) (w src) (doc : Doc α) (l) (h : loadFiles E w doc.models = .ok l) (hk : l.ok = true) (g) (hg : generatePages E l.stl doc [] = .ok g)
    (hb : g.ok = true) : docToPS E w src doc = .ok ⟨true, renderPages E src g.pages, l.log ++ g.log⟩ := by
  unfold docToPS; rw [h]; simp only [bind, Except.bind, hk]; rw [hg]; simp only [hb]; rfl
end S2P
