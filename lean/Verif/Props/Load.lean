import Verif.Spec.Load
import Verif.Lemmas.Finite
import Verif.Lemmas.Sample

set_option linter.unusedSectionVars false
set_option linter.unusedVariables false
set_option linter.unusedSimpArgs false

/-! # C47: loading models -/

namespace S2P

theorem splitComma_ne : ∀ s : Str, splitComma s ≠ []
  | [] => by simp [splitComma]
  | c :: s => by
    unfold splitComma
    split
    · simp
    · cases h : splitComma s with
      | nil => exact absurd h (splitComma_ne s)
      | cons l ls => simp

theorem splitComma_fields : ∀ s : Str, IsFields ',' s (splitComma s)
  | [] => ⟨by simp [splitComma], by simp [splitComma], by simp [splitComma, List.intercalate]⟩
  | c :: s => by
    obtain ⟨h1, h2, h3⟩ := splitComma_fields s
    refine ⟨splitComma_ne _, ?_, ?_⟩
    · unfold splitComma
      split
      · simp only [List.mem_cons]
        rintro l (rfl | hl)
        · simp
        · exact h2 l hl
      · rename_i hc
        cases hs : splitComma s with
        | nil => exact absurd hs h1
        | cons l ls =>
          rw [hs] at h2
          simp only [List.mem_cons]
          rintro x (rfl | hx)
          · simp only [List.mem_cons, not_or]
            exact ⟨fun h => hc h.symm, h2 l (by simp)⟩
          · exact h2 x (by simp [hx])
    · unfold splitComma
      cases hs : splitComma s with
      | nil => exact absurd hs h1
      | cons l ls =>
        rw [hs] at h3
        rw [h3]
        split
        · rename_i hc
          subst hc
          cases ls <;> simp [List.intercalate]
        · cases ls <;> simp [List.intercalate]

section
variable {α : Type} [FP α]

theorem candidates_places (E : Env α) (file : Str) : Places E.loadPath file (candidates E file) := by
  unfold candidates
  split
  · exact .inl ⟨rfl, rfl⟩
  · rename_i h
    refine .inr ⟨?_, splitComma E.loadPath, splitComma_fields _, by simp⟩
    cases file with
    | nil => simp
    | cons c s =>
      simp only [List.head?_cons, ne_eq, Option.some.injEq]
      rintro rfl
      exact h s rfl

theorem findSome_found (w : World) : ∀ (ps : List Str) (x : Str), ps.findSome? w.read = some x ↔ FoundAt w ps x
  | [], x => by simp [FoundAt]
  | p :: ps, x => by
    rw [List.findSome?_cons]
    cases hp : w.read p with
    | some y =>
      simp only [Option.some.injEq]
      constructor
      · rintro rfl
        exact ⟨[], p, ps, rfl, by simp, hp⟩
      · intro h
        exact foundAt_unique ⟨[], p, ps, rfl, by simp, hp⟩ h
    | none =>
      simp only
      rw [findSome_found w ps x]
      constructor
      · rintro ⟨a, q, b, rfl, h1, h2⟩
        exact ⟨p :: a, q, b, rfl, by simpa [hp] using h1, h2⟩
      · rintro ⟨a, q, b, e, h1, h2⟩
        cases a with
        | nil => simp at e; rw [← e.1, hp] at h2; cases h2
        | cons z a =>
          simp at e
          exact ⟨a, q, b, e.2, fun x hx => h1 x (by simp [hx]), h2⟩

theorem openModel_found (E : Env α) (w : World) (file x : Str) : openModel E w file = some x ↔ ∃ ps, Places E.loadPath file ps ∧ FoundAt w ps x := by
  unfold openModel
  rw [findSome_found]
  constructor
  · intro h; exact ⟨_, candidates_places E file, h⟩
  · rintro ⟨ps, h1, h2⟩
    rw [places_unique (candidates_places E file) h1]; exact h2

/-- how one step changes the state -/
theorem loadStep_spec (E : Env α) (w : World) (s s' : LoadSt α) (m : ModelN) (h : loadStep E w s m = .ok s') :
    (s'.ok = true ↔ s.ok = true ∧ m.name ∉ s.stl.map (fun e => e.1) ∧ ∃ f : STLFile α, Loads E.loadPath w m f) ∧
    (s'.ok = true → ∃ f, Loads E.loadPath w m f ∧ s'.stl = s.stl ++ [(m.name, some f)]) ∧
    (∀ n, n ∈ s'.stl.map (fun e => e.1) ↔ n ∈ s.stl.map (fun e => e.1) ∨ n = m.name) := by
  unfold loadStep at h
  by_cases hd : s.stl.any (fun e => e.1 = m.name) = true
  · rw [if_pos hd] at h
    cases h
    have hmem : m.name ∈ s.stl.map (fun e => e.1) := by
      simp only [List.any_eq_true, decide_eq_true_eq] at hd
      obtain ⟨e, he, h⟩ := hd
      exact List.mem_map.mpr ⟨e, he, h⟩
    refine ⟨by simp [hmem], by simp, ?_⟩
    intro n
    constructor
    · exact .inl
    · rintro (h | rfl)
      · exact h
      · exact hmem
  rw [if_neg hd] at h
  have hmem : m.name ∉ s.stl.map (fun e => e.1) := by
    intro hm
    apply hd
    obtain ⟨e, he, h⟩ := List.mem_map.1 hm
    simp only [List.any_eq_true, decide_eq_true_eq]
    exact ⟨e, he, h⟩
  cases ho : openModel E w m.source with
  | none =>
    rw [ho] at h; cases h
    refine ⟨?_, by simp, by simp⟩
    constructor
    · simp
    · rintro ⟨-, -, f, ps, x, h1, h2, -⟩
      have := (openModel_found E w m.source x).2 ⟨ps, h1, h2⟩
      rw [ho] at this; cases this
  | some content =>
    rw [ho] at h
    obtain ⟨ps, p1, p2⟩ := (openModel_found E w m.source content).1 ho
    simp only at h
    cases hc : (make content : Except Abort (Option (STLFile α))) with
    | error a => rw [hc] at h; cases h
    | ok r =>
      rw [hc] at h
      cases r with
      | none =>
        cases h
        refine ⟨?_, by simp, by simp⟩
        constructor
        · simp
        · rintro ⟨-, -, f, ps', x, h1, h2, h3⟩
          have := (openModel_found E w m.source x).2 ⟨ps', h1, h2⟩
          rw [ho] at this; cases this
          rw [hc] at h3; cases h3
      | some f =>
        cases h
        refine ⟨?_, fun _ => ⟨f, ⟨ps, content, p1, p2, hc⟩, rfl⟩, by simp⟩
        constructor
        · intro hk; exact ⟨hk, hmem, f, ps, content, p1, p2, hc⟩
        · rintro ⟨hk, -⟩; exact hk

theorem loadAll_spec (E : Env α) (w : World) : ∀ (ms : List ModelN) (s s' : LoadSt α), ms.foldlM (loadStep E w) s = .ok s' →
    (s'.ok = true ↔ s.ok = true ∧ (ms.map (fun m => m.name)).Nodup ∧ (∀ m ∈ ms, m.name ∉ s.stl.map (fun e => e.1)) ∧ ∀ m ∈ ms, ∃ f : STLFile α, Loads E.loadPath w m f) ∧
    (s'.ok = true → ∃ fs, List.Forall₂ (Loads E.loadPath w) ms fs ∧ s'.stl = s.stl ++ List.zipWith (fun m f => (m.name, some f)) ms fs)
  | [], s, s', h => by
    cases h
    exact ⟨by simp, fun _ => ⟨[], .nil, by simp⟩⟩
  | m :: ms, s, s', h => by
    rw [List.foldlM_cons] at h
    simp only [bind, Except.bind] at h
    cases h1 : loadStep E w s m with
    | error a => rw [h1] at h; cases h
    | ok s1 =>
      rw [h1] at h
      obtain ⟨a1, a2, a3⟩ := loadStep_spec E w s s1 m h1
      obtain ⟨b1, b2⟩ := loadAll_spec E w ms s1 s' h
      refine ⟨?_, ?_⟩
      · rw [b1, a1]
        simp only [a3, List.map_cons, List.nodup_cons, List.mem_cons, forall_eq_or_imp, not_or]
        constructor
        · rintro ⟨⟨h1, h2, h3⟩, h4, h5, h6⟩
          refine ⟨h1, ⟨?_, h4⟩, ⟨h2, fun x hx => (h5 x hx).1⟩, h3, h6⟩
          intro hm
          obtain ⟨x, hx, e⟩ := List.mem_map.1 hm
          exact (h5 x hx).2 e
        · rintro ⟨h1, ⟨h2, h3⟩, ⟨h4, h5⟩, h6, h7⟩
          exact ⟨⟨h1, h4, h6⟩, h3, fun x hx => ⟨h5 x hx, fun e => h2 (List.mem_map.mpr ⟨x, hx, e⟩)⟩, h7⟩
      · intro hk
        obtain ⟨fs, g1, g2⟩ := b2 hk
        obtain ⟨f, k1, k2⟩ := a2 (b1.mp hk).1
        exact ⟨f :: fs, .cons k1 g1, by rw [g2, k2]; simp⟩

/-- C47: loading that runs to its end reports success iff the model names are pairwise distinct and each file is found, at the first of
its places that can be read, and accepted; then the map holds exactly the named models with the content of their files. -/
theorem C47_load (E : Env α) (w : World) (ms : List ModelN) (r : LoadSt α) (h : loadFiles E w ms = .ok r) :
    (r.ok = true ↔ (ms.map (fun m => m.name)).Nodup ∧ ∀ m ∈ ms, ∃ f : STLFile α, Loads E.loadPath w m f) ∧
    (r.ok = true → ∃ fs, List.Forall₂ (Loads E.loadPath w) ms fs ∧ r.stl = List.zipWith (fun m f => (m.name, some f)) ms fs) := by
  obtain ⟨h1, h2⟩ := loadAll_spec E w ms _ r h
  refine ⟨by rw [h1]; simp, fun hk => ?_⟩
  obtain ⟨fs, a, b⟩ := h2 hk
  exact ⟨fs, a, by simpa using b⟩

/-- what is loaded for a model is determined -/
theorem C47_unique (lp : Str) (w : World) (m : ModelN) (f g : STLFile α) (h : Loads lp w m f) (h' : Loads lp w m g) : f = g := by
  obtain ⟨ps, x, a, b, c⟩ := h
  obtain ⟨qs, y, a', b', c'⟩ := h'
  have hp := places_unique a a'
  subst hp
  have hx := foundAt_unique b b'
  subst hx
  rw [c] at c'; cases c'; rfl

/-- C47: lookup by name after successful loading -/
theorem C47_lookup (E : Env α) (w : World) (ms : List ModelN) (r : LoadSt α) (h : loadFiles E w ms = .ok r) (hk : r.ok = true) (n : Str) :
    (∀ m ∈ ms, m.name = n → ∃ f, Loads E.loadPath w m f ∧ r.stl.find? (fun e => decide (e.1 = n)) = some (n, some f)) ∧
    ((∀ m ∈ ms, m.name ≠ n) → r.stl.find? (fun e => decide (e.1 = n)) = none) := by
  obtain ⟨h1, h2⟩ := C47_load E w ms r h
  obtain ⟨nd, -⟩ := h1.mp hk
  obtain ⟨fs, hf, e⟩ := h2 hk
  rw [e]
  clear h1 h2 e h
  induction hf with
  | nil => simp
  | @cons m f ms fs hmf _ ih =>
    simp only [List.map_cons, List.nodup_cons] at nd
    obtain ⟨i1, i2⟩ := ih nd.2
    simp only [List.zipWith_cons_cons, List.find?_cons, List.mem_cons, forall_eq_or_imp]
    by_cases hn : m.name = n
    · subst hn
      refine ⟨⟨fun _ => ⟨f, hmf, by simp⟩, ?_⟩, by simp⟩
      intro x hx e
      exact absurd (List.mem_map.mpr ⟨x, hx, e⟩) nd.1
    · simp only [hn, decide_false]
      exact ⟨⟨fun h => h.elim, i1⟩, fun h => i2 h.2⟩

/-- C47: files outside the places of the models are never read: loading is the same whatever they hold. -/
theorem C47_only_places (E : Env α) (w w' : World) : ∀ (ms : List ModelN),
    (∀ m ∈ ms, ∀ ps, Places E.loadPath m.source ps → ∀ p ∈ ps, w.read p = w'.read p) → loadFiles E w ms = loadFiles E w' ms := by
  intro ms h
  have step : ∀ m ∈ ms, ∀ s : LoadSt α, loadStep E w s m = loadStep E w' s m := by
    intro m hm s
    have : openModel E w m.source = openModel E w' m.source := by
      unfold openModel
      have hp := h m hm _ (candidates_places E m.source)
      revert hp
      generalize candidates E m.source = ps
      intro hp
      induction ps with
      | nil => rfl
      | cons p ps ih =>
        rw [List.findSome?_cons, List.findSome?_cons, hp p (by simp), ih (fun q hq => hp q (by simp [hq]))]
    unfold loadStep
    rw [this]
  unfold loadFiles
  generalize (⟨true, [], []⟩ : LoadSt α) = s
  clear h
  induction ms generalizing s with
  | nil => rfl
  | cons m ms ih =>
    rw [List.foldlM_cons, List.foldlM_cons, step m (by simp)]
    congr 1
    funext s'
    exact ih (fun x hx => step x (by simp [hx])) s'

/-- C47: loading ends abnormally only in reading a file found for a model (see C15) -/
theorem C47_abort (E : Env α) (w : World) (ms : List ModelN) (a : Abort) (h : loadFiles E w ms = .error a) :
    ∃ m ∈ ms, ∃ ps content, Places E.loadPath m.source ps ∧ FoundAt w ps content ∧ (make content : Except Abort (Option (STLFile α))) = .error a := by
  unfold loadFiles at h
  revert h
  generalize (⟨true, [], []⟩ : LoadSt α) = s
  intro h
  induction ms generalizing s with
  | nil => cases h
  | cons m ms ih =>
    rw [List.foldlM_cons] at h
    simp only [bind, Except.bind] at h
    cases h1 : loadStep E w s m with
    | ok s' =>
      rw [h1] at h
      obtain ⟨x, hx, r⟩ := ih s' h
      exact ⟨x, by simp [hx], r⟩
    | error b =>
      rw [h1] at h; cases h
      unfold loadStep at h1
      split at h1
      · cases h1
      · cases ho : openModel E w m.source with
        | none => rw [ho] at h1; cases h1
        | some content =>
          rw [ho] at h1
          obtain ⟨ps, p1, p2⟩ := (openModel_found E w m.source content).1 ho
          simp only at h1
          cases hc : (make content : Except Abort (Option (STLFile α))) with
          | error b => rw [hc] at h1; cases h1; exact ⟨m, by simp, ps, content, p1, p2, hc⟩
          | ok r => rw [hc] at h1; cases r <;> cases h1
end

/-- the models loaded are made of proper facets -/
theorem loaded_made (E : Env (Ext ℝ)) (w : World) (ms : List ModelN) (r : LoadSt (Ext ℝ)) (h : loadFiles E w ms = .ok r) (hk : r.ok = true) :
    r.stl.Made := by
  obtain ⟨fs, hf, e⟩ := (C47_load E w ms r h).2 hk
  rw [e]
  clear e hk h
  induction hf with
  | nil => intro e he; simp at he
  | @cons m f ms fs hmf _ ih =>
    intro e he
    simp only [List.zipWith_cons_cons, List.mem_cons] at he
    rcases he with rfl | he
    · obtain ⟨ps, x, -, -, hx⟩ := hmf
      exact ⟨f, rfl, make_made x f hx⟩
    · exact ih e he

/-! ## The premises occur -/

/-- an absolute path; a relative one; an empty load path has one, empty, root -/
example : Places c!"a,b/c" c!"/x" [c!"/x"] := .inl ⟨rfl, rfl⟩
example : Places c!"a,b/c" c!"x" [c!"./x", c!"a/x", c!"b/c/x"] :=
  .inr ⟨by simp, [c!"a", c!"b/c"], ⟨by simp, by simp, rfl⟩, rfl⟩
example : Places [] c!"x" [c!"./x", c!"/x"] := .inr ⟨by simp, [[]], ⟨by simp, by simp, rfl⟩, rfl⟩

/-- a triangle, found only under the second root of the load path -/
def exWorld : World where
  ident p := if p = c!"b/c/x" then 1 else if p = c!"/bad" then 2 else 0
  data i := if i = 1 then some c!"solid\nfacet normal 0 0 1\nouter loop\nvertex 0 0 0\nvertex 4 0 0\nvertex 0 3 0\nendloop\nendfacet\nendsolid\n"
    else if i = 2 then some c!"solid\nfacet\n" else none
  canWrite _ := true

/-- success; a missing file; a file that is not accepted; a name used twice -/
example : (loadFiles { exEnv with loadPath := c!"a,b/c" } exWorld [⟨c!"m", c!"x", 1⟩, ⟨c!"n", c!"x", 2⟩]).map (fun r => (r.ok, r.stl.map (fun e => (e.1, e.2.map (fun f => f.facets.length))))) =
    .ok (true, [(c!"m", some 1), (c!"n", some 1)]) := by decide +kernel
example : (loadFiles exEnv exWorld [⟨c!"m", c!"x", 1⟩]).map (fun r => r.ok) = .ok false := by decide +kernel
example : (loadFiles exEnv exWorld [⟨c!"m", c!"/bad", 1⟩]).map (fun r => r.ok) = .ok false := by decide +kernel
example : (loadFiles { exEnv with loadPath := c!"a,b/c" } exWorld [⟨c!"m", c!"x", 1⟩, ⟨c!"m", c!"x", 2⟩]).map (fun r => r.ok) = .ok false := by decide +kernel

end S2P
