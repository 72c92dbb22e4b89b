import Verif.Model.Main

/-! # Where models are looked for -/

namespace S2P

/-- `fs` are the fields of `s` between separators -/
def IsFields (sep : Char) (s : Str) (fs : List Str) : Prop := fs ≠ [] ∧ (∀ f ∈ fs, sep ∉ f) ∧ s = List.intercalate [sep] fs

/-- The places tried for a file, in order: an absolute path as it is; otherwise under ".", then under each root of the load path. -/
def Places (loadPath file : Str) (ps : List Str) : Prop :=
  (file.head? = some '/' ∧ ps = [file]) ∨
  (file.head? ≠ some '/' ∧ ∃ roots, IsFields ',' loadPath roots ∧ ps = (c!"." :: roots).map (fun r => r ++ c!"/" ++ file))

/-- the first of the places where a file can be read holds `content` -/
def FoundAt (w : World) (ps : List Str) (content : Str) : Prop :=
  ∃ a p b, ps = a ++ p :: b ∧ (∀ q ∈ a, w.read q = none) ∧ w.read p = some content

/-- the model's file is found, and is accepted with content `f` -/
def Loads {α : Type} [FP α] (loadPath : Str) (w : World) (m : ModelN) (f : STLFile α) : Prop :=
  ∃ ps content, Places loadPath m.source ps ∧ FoundAt w ps content ∧ make content = .ok (some f)

/-- a text has just one division into fields -/
theorem isFields_unique (sep : Char) : ∀ (a b : List Str) (s : Str), IsFields sep s a → IsFields sep s b → a = b
  | [], b, s, h, _ => absurd rfl h.1
  | a, [], s, _, h => absurd rfl h.1
  | x :: a, y :: b, s, ⟨_, ha, hs⟩, ⟨_, hb, hs'⟩ => by
    have key : ∀ (x y : Str) (u v : Option Str), sep ∉ x → sep ∉ y →
        x ++ (match u with | none => [] | some u => sep :: u) = y ++ (match v with | none => [] | some v => sep :: v) → x = y ∧ u = v := by
      intro x
      induction x with
      | nil =>
        intro y u v _ hy h
        cases y with
        | nil =>
          refine ⟨rfl, ?_⟩
          cases u <;> cases v <;> simp at h ⊢
          exact h
        | cons c y =>
          exfalso
          cases u with
          | none => simp at h
          | some u => simp only [List.nil_append, List.cons_append, List.cons.injEq] at h; exact hy (h.1 ▸ List.mem_cons_self)
      | cons c x ih =>
        intro y u v hx hy h
        cases y with
        | nil =>
          exfalso
          cases v with
          | none => simp at h
          | some v => simp only [List.nil_append, List.cons_append, List.cons.injEq] at h; exact hx (h.1 ▸ List.mem_cons_self)
        | cons d y =>
          simp only [List.cons_append, List.cons.injEq] at h
          obtain ⟨h1, h2⟩ := ih y u v (fun h => hx (List.mem_cons_of_mem _ h)) (fun h => hy (List.mem_cons_of_mem _ h)) h.2
          exact ⟨by rw [h.1, h1], h2⟩
    have form : ∀ (x : Str) (a : List Str), List.intercalate [sep] (x :: a) =
        x ++ (match (if a = [] then none else some (List.intercalate [sep] a)) with | none => [] | some u => sep :: u) := by
      intro x a
      cases a with
      | nil => simp [List.intercalate]
      | cons y a => simp [List.intercalate, List.intersperse]
    rw [hs, form, form] at hs'
    obtain ⟨h1, h2⟩ := key x y _ _ (ha x (by simp)) (hb y (by simp)) hs'
    subst h1
    congr 1
    by_cases ea : a = [] <;> by_cases eb : b = []
    · rw [ea, eb]
    · simp [ea, eb] at h2
    · simp [ea, eb] at h2
    · rw [if_neg ea, if_neg eb] at h2
      injection h2 with h2
      exact isFields_unique sep a b _ ⟨ea, fun l hl => ha l (by simp [hl]), rfl⟩ ⟨eb, fun l hl => hb l (by simp [hl]), h2⟩

/-- so the places are determined -/
theorem places_unique {loadPath file : Str} {ps qs : List Str} (h : Places loadPath file ps) (h' : Places loadPath file qs) : ps = qs := by
  rcases h with ⟨a, rfl⟩ | ⟨a, fs, hf, rfl⟩ <;> rcases h' with ⟨b, rfl⟩ | ⟨b, gs, hg, rfl⟩
  · rfl
  · exact absurd a b
  · exact absurd b a
  · rw [isFields_unique ',' fs gs _ hf hg]

/-- and so is what is found there -/
theorem foundAt_unique {w : World} : ∀ {ps : List Str} {x y : Str}, FoundAt w ps x → FoundAt w ps y → x = y
  | [], x, y, ⟨a, p, b, h, _⟩, _ => by simp at h
  | q :: ps, x, y, ⟨a, p, b, e, h1, h2⟩, ⟨a', p', b', e', h1', h2'⟩ => by
    cases a with
    | nil =>
      cases a' with
      | nil => simp at e e'; rw [← e.1] at h2; rw [← e'.1, h2] at h2'; injection h2'
      | cons z a' => simp at e e'; rw [← e.1, e'.1, h1' z (by simp)] at h2; cases h2
    | cons z a =>
      cases a' with
      | nil => simp at e e'; rw [← e'.1, e.1, h1 z (by simp)] at h2'; cases h2'
      | cons z' a' =>
        simp at e e'
        exact foundAt_unique (ps := ps) ⟨a, p, b, e.2, fun q hq => h1 q (by simp [hq]), h2⟩ ⟨a', p', b', e'.2, fun q hq => h1' q (by simp [hq]), h2'⟩

end S2P
