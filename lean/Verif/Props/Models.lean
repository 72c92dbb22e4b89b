import Verif.Spec.Rename
import Verif.Props.Load
import Verif.Props.Main

set_option linter.unusedSectionVars false
set_option linter.unusedVariables false
set_option linter.unusedSimpArgs false

/-! # C70: how models are named, in which order they are loaded, and which are loaded besides -/

namespace S2P
section
variable {α : Type} [FP α]

theorem visitDraw_find (E : Env α) (stl stl' : Models α) (v : Vis α) (n n' : Str) (ms : List (Meta α)) (dims : List (DimN α)) (line : Nat)
    (h : (stl'.find? (fun e => e.1 = n')).map (fun e => e.2) = (stl.find? (fun e => e.1 = n)).map (fun e => e.2))
    (hn : n' = n ∨ (stl.find? (fun e => e.1 = n)).isSome) :
    visitDraw E stl' v n' ms dims line = visitDraw E stl v n ms dims line := by
  unfold visitDraw
  cases h1 : stl.find? (fun e => decide (e.1 = n)) with
  | none =>
    rw [h1] at h hn
    cases h2 : stl'.find? (fun e => decide (e.1 = n')) with
    | none =>
      rcases hn with rfl | hn
      · rfl
      · cases hn
    | some e => rw [h2] at h; cases h
  | some e =>
    rw [h1] at h
    cases h2 : stl'.find? (fun e => decide (e.1 = n')) with
    | none => rw [h2] at h; cases h
    | some e' =>
      rw [h2] at h
      simp only [Option.map_some, Option.some.injEq] at h
      simp only [h]

/-- what is looked up -/
def SameFind (stl stl' : Models α) (ρ : Str → Str) (n : Str) : Prop :=
  (stl'.find? (fun e => e.1 = ρ n)).map (fun e => e.2) = (stl.find? (fun e => e.1 = n)).map (fun e => e.2) ∧
  (ρ n = n ∨ (stl.find? (fun e => e.1 = n)).isSome)

theorem visitDrawables_rename (E : Env α) (stl stl' : Models α) (ρ : Str → Str) : ∀ (ds : List (Drawable α)) (v : Vis α)
    (h : ∀ n ms dims l, Drawable.draw n ms dims l ∈ ds → SameFind stl stl' ρ n),
    visitDrawables E stl' (ds.map (Drawable.rename ρ)) v = (visitDrawables E stl ds v).map fun r => (r.1, r.2.1.map (Drawable.rename ρ), r.2.2)
  | [], v, _ => rfl
  | d :: ds, v, h => by
    have h1 : visitDrawable E stl' v (d.rename ρ) = (visitDrawable E stl v d).map fun r => (r.1, r.2.1.rename ρ, r.2.2) := by
      cases d with
      | text s ms l =>
        simp only [Drawable.rename, visitDrawable, bind, Except.bind]
        cases visitText v s ms l <;> rfl
      | draw n ms dims l =>
        obtain ⟨a, b⟩ := h n ms dims l (by simp)
        simp only [Drawable.rename, visitDrawable, bind, Except.bind]
        rw [visitDraw_find E stl stl' v n (ρ n) ms dims l a b]
        cases visitDraw E stl v n ms dims l <;> rfl
    simp only [List.map_cons, visitDrawables, bind, Except.bind]
    rw [h1]
    cases visitDrawable E stl v d with
    | error a => rfl
    | ok x =>
      dsimp only [Except.map]
      rw [visitDrawables_rename E stl stl' ρ ds x.2.2 (fun n ms dims l hm => h n ms dims l (by simp [hm]))]
      cases visitDrawables E stl ds x.2.2 <;> rfl

theorem genPage_rename (E : Env α) (stl stl' : Models α) (ρ : Str → Str) (v : Vis α) (k : Nat) (pg : PageN α)
    (h : ∀ n ms dims l, Drawable.draw n ms dims l ∈ pg.draws → SameFind stl stl' ρ n) :
    genPage E stl' v k (pg.rename ρ) = (genPage E stl v k pg).map fun r => (r.1, r.2.1.rename ρ, r.2.2) := by
  unfold genPage
  simp only [PageN.rename, bind, Except.bind]
  rw [visitDrawables_rename E stl stl' ρ pg.draws _ h]
  cases visitDrawables E stl pg.draws _ <;> rfl

theorem genPages_rename (E : Env α) (stl stl' : Models α) (ρ : Str → Str) : ∀ (pgs : List (PageN α)) (k : Nat) (v : Vis α)
    (h : ∀ n, Draws pgs n → SameFind stl stl' ρ n),
    genPages E stl' (pgs.map (PageN.rename ρ)) k v = (genPages E stl pgs k v).map fun r => (r.1, r.2.1, r.2.2.1.map (PageN.rename ρ), r.2.2.2)
  | [], _, _, _ => rfl
  | pg :: pgs, k, v, h => by
    simp only [List.map_cons, genPages, bind, Except.bind]
    rw [genPage_rename E stl stl' ρ v (k + 1) pg (fun n ms dims l hm => h n ⟨pg, by simp, ms, dims, l, hm⟩)]
    cases genPage E stl v (k + 1) pg with
    | error a => rfl
    | ok x =>
      dsimp only [Except.map]
      rw [genPages_rename E stl stl' ρ pgs (k + 1) x.2.2 (fun n ⟨p, hp, hn⟩ => h n ⟨p, by simp [hp], hn⟩)]
      cases genPages E stl pgs (k + 1) x.2.2 <;> rfl

/-- C70, pages: pages, verdict and diagnostics depend only on the models drawn. -/
theorem C70_pages (E : Env α) (stl stl' : Models α) (doc : Doc α) (pages : List (OutPage α))
    (h : ∀ n, Draws doc.pages n → stl'.find? (fun e => e.1 = n) = stl.find? (fun e => e.1 = n)) :
    generatePages E stl' doc pages = generatePages E stl doc pages := by
  have e := genPages_rename E stl stl' id doc.pages pages.length (initVis E) (fun n hn => ⟨by rw [id, h n hn], Or.inl rfl⟩)
  have hid : ∀ l : List (PageN α), l.map (PageN.rename id) = l := by
    intro l
    rw [show (PageN.rename id : PageN α → PageN α) = id from ?_, List.map_id]
    funext pg
    have : (Drawable.rename id : Drawable α → Drawable α) = id := by funext d; cases d <;> rfl
    simp [PageN.rename, this]
  simp only [hid] at e
  unfold generatePages
  simp only [bind, Except.bind]
  rw [e]
  cases genPages E stl doc.pages pages.length (initVis E) <;> rfl

theorem load_quiet (E : Env α) (w : World) : ∀ (ms : List ModelN) (s s' : LoadSt α), ms.foldlM (loadStep E w) s = .ok s' → s'.ok = true → s'.log = s.log
  | [], s, s', h, _ => by cases h; rfl
  | m :: ms, s, s', h, hk => by
    rw [List.foldlM_cons] at h
    simp only [bind, Except.bind] at h
    cases h1 : loadStep E w s m with
    | error a => rw [h1] at h; cases h
    | ok s1 =>
      rw [h1] at h
      have hk1 := ((loadAll_spec E w ms s1 s' h).1.1 hk).1
      rw [load_quiet E w ms s1 s' h hk]
      unfold loadStep at h1
      split at h1
      · cases h1; cases hk1
      · cases ho : openModel E w m.source with
        | none => rw [ho] at h1; cases h1; cases hk1
        | some content =>
          rw [ho] at h1
          simp only at h1
          cases hc : (make content : Except Abort (Option (STLFile α))) with
          | error b => rw [hc] at h1; cases h1
          | ok r =>
            rw [hc] at h1
            cases r with
            | none => cases h1; cases hk1
            | some f => cases h1; rfl

/-- C70, run: a document and another one that loads its models in another way — in another order, under other names, other models besides — and
names them accordingly in its drawings.  Both load.  Verdict, output and diagnostics are the same. -/
theorem C70_run (E : Env α) (w : World) (src : Str) (ms ms' : List ModelN) (pgs : List (PageN α)) (ρ : Str → Str)
    (l l' : LoadSt α) (hl : loadFiles E w ms = .ok l) (hk : l.ok = true) (hl' : loadFiles E w ms' = .ok l') (hk' : l'.ok = true)
    (h : ∀ n, Draws pgs n → (∃ f, Names ms n f ∧ Names ms' (ρ n) f) ∨ (ρ n = n ∧ ∀ f, ¬ Names ms n f ∧ ¬ Names ms' n f)) :
    docToPS E w src ⟨ms', pgs.map (PageN.rename ρ)⟩ = docToPS E w src ⟨ms, pgs⟩ := by
  have hfind : ∀ n, Draws pgs n → SameFind l.stl l'.stl ρ n := by
    intro n hn
    have a := C47_lookup E w ms l hl hk n
    have b := C47_lookup E w ms' l' hl' hk' (ρ n)
    rcases h n hn with ⟨f, ⟨m, hm, h1, h2⟩, ⟨m', hm', h1', h2'⟩⟩ | ⟨h1, h2⟩
    · obtain ⟨g, k1, k2⟩ := a.1 m hm h1
      obtain ⟨g', k1', k2'⟩ := b.1 m' hm' h1'
      have : g = g' := by
        apply C47_unique E.loadPath w m g g' k1
        unfold Loads at k1' ⊢
        rw [h2, ← h2']; exact k1'
      subst this
      unfold SameFind
      rw [k2, k2']
      exact ⟨rfl, Or.inr rfl⟩
    · have k2 := a.2 (fun m hm hmn => (h2 m.source).1 ⟨m, hm, hmn, rfl⟩)
      have k2' := b.2 (fun m hm hmn => (h2 m.source).2 ⟨m, hm, by rw [hmn, h1], rfl⟩)
      unfold SameFind
      rw [k2, k2']
      exact ⟨rfl, Or.inl h1⟩
  have q := load_quiet E w ms _ l hl hk
  have q' := load_quiet E w ms' _ l' hl' hk'
  have e := genPages_rename E l.stl l'.stl ρ pgs 0 (initVis E) hfind
  unfold docToPS
  simp only [bind, Except.bind]
  rw [hl, hl']
  simp only [hk, hk', Bool.not_true, Bool.false_eq_true, if_false, q, q', generatePages, bind, Except.bind, List.length_nil, e]
  cases genPages E l.stl pgs 0 (initVis E) <;> rfl

/-- C70, order: load statements can be given in any order. -/
theorem C70_order (E : Env α) (w : World) (src : Str) (ms ms' : List ModelN) (pgs : List (PageN α)) (hp : ms.Perm ms')
    (l l' : LoadSt α) (hl : loadFiles E w ms = .ok l) (hk : l.ok = true) (hl' : loadFiles E w ms' = .ok l') :
    l'.ok = true ∧ docToPS E w src ⟨ms', pgs⟩ = docToPS E w src ⟨ms, pgs⟩ := by
  have hk' : l'.ok = true := by
    obtain ⟨a, b⟩ := (C47_load E w ms l hl).1.1 hk
    exact (C47_load E w ms' l' hl').1.2 ⟨(hp.map _).nodup_iff.1 a, fun m hm => b m (hp.mem_iff.2 hm)⟩
  refine ⟨hk', ?_⟩
  have hid : pgs.map (PageN.rename id) = pgs := by
    rw [show (PageN.rename id : PageN α → PageN α) = id from ?_, List.map_id]
    funext pg
    have : (Drawable.rename id : Drawable α → Drawable α) = id := by funext d; cases d <;> rfl
    simp [PageN.rename, this]
  have := C70_run E w src ms ms' pgs id l l' hl hk hl' hk' (by
    intro n _
    by_cases hn : ∃ m ∈ ms, m.name = n
    · obtain ⟨m, hm, h⟩ := hn
      exact Or.inl ⟨m.source, ⟨m, hm, h, rfl⟩, ⟨m, hp.mem_iff.1 hm, h, rfl⟩⟩
    · refine Or.inr ⟨rfl, fun f => ⟨?_, ?_⟩⟩
      · rintro ⟨m, hm, h, -⟩; exact hn ⟨m, hm, h⟩
      · rintro ⟨m, hm, h, -⟩; exact hn ⟨m, hp.mem_iff.2 hm, h⟩)
  rwa [hid] at this

/-- C70, files: the result depends on the files only through what is found at the places of the models the script names. -/
theorem C70_files (E : Env α) (w w' : World) (src script : Str)
    (h : ∀ doc : Doc α, parse script = .ok (some doc) → ∀ m ∈ doc.models, ∀ ps, Places E.loadPath m.source ps → ∀ p ∈ ps, w.read p = w'.read p) :
    scriptToPS E w' src script = scriptToPS E w src script := by
  unfold scriptToPS
  simp only [bind, Except.bind]
  cases hp : (parse script : Except Abort (Option (Doc α))) with
  | error a => rfl
  | ok d =>
    cases d with
    | none => rfl
    | some doc =>
      dsimp only
      unfold docToPS
      rw [C47_only_places E w w' doc.models (h doc hp)]
end

/-! ## The premises occur -/

/-- the same model loaded as "m", or as "q" after another one; a drawing of it -/
example : (loadFiles { exEnv with loadPath := c!"a,b/c" } exWorld [⟨c!"m", c!"x", 1⟩]).map (fun r => r.ok) = .ok true ∧
    (loadFiles { exEnv with loadPath := c!"a,b/c" } exWorld [⟨c!"z", c!"x", 1⟩, ⟨c!"q", c!"x", 2⟩]).map (fun r => r.ok) = .ok true := by decide +kernel
example (n : Str) (h : Draws (α := Ext ℚ) [⟨[], [.draw c!"m" [] [] 3], 2⟩] n) :
    (∃ f, Names [⟨c!"m", c!"x", 1⟩] n f ∧ Names [⟨c!"z", c!"x", 1⟩, ⟨c!"q", c!"x", 2⟩] ((fun _ => c!"q") n) f) ∨
    ((fun _ => c!"q") n = n ∧ ∀ f, ¬ Names [⟨c!"m", c!"x", 1⟩] n f ∧ ¬ Names [⟨c!"z", c!"x", 1⟩, ⟨c!"q", c!"x", 2⟩] n f) := by
  obtain ⟨pg, hpg, ms, dims, l, hd⟩ := h
  simp only [List.mem_singleton] at hpg
  subst hpg
  simp only [List.mem_singleton, Drawable.draw.injEq] at hd
  obtain ⟨rfl, -⟩ := hd
  exact Or.inl ⟨c!"x", ⟨⟨c!"m", c!"x", 1⟩, by simp, rfl, rfl⟩, ⟨⟨c!"q", c!"x", 2⟩, by simp, rfl, rfl⟩⟩
example : Draws (α := Ext ℚ) [⟨[], [.draw c!"m" [] [] 3], 2⟩] c!"m" := ⟨_, List.mem_singleton.2 rfl, [], [], 3, List.mem_singleton.2 rfl⟩

end S2P
