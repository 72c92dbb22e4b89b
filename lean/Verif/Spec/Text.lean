import Verif.Model.FP

/-! # Lines of a text -/

namespace S2P

/-- `ls` are the lines of `s`: free of line feeds, at least one, and `s` is those lines with line feeds between -/
def IsLines (s : Str) (ls : List Str) : Prop := ls ≠ [] ∧ (∀ l ∈ ls, '\n' ∉ l) ∧ s = List.intercalate ['\n'] ls

/-- a text has just one division into lines -/
theorem isLines_unique : ∀ (a b : List Str) (s : Str), IsLines s a → IsLines s b → a = b
  | [], b, s, h, _ => absurd rfl h.1
  | a, [], s, _, h => absurd rfl h.1
  | x :: a, y :: b, s, ⟨_, ha, hs⟩, ⟨_, hb, hs'⟩ => by
    have key : ∀ (x y : Str) (u v : Option Str), '\n' ∉ x → '\n' ∉ y →
        x ++ (match u with | none => [] | some u => '\n' :: u) = y ++ (match v with | none => [] | some v => '\n' :: v) → x = y ∧ u = v := by
      intro x
      induction x with
      | nil =>
        intro y u v _ hy h
        cases y with
        | nil =>
          refine ⟨rfl, ?_⟩
          cases u <;> cases v <;> simp at h ⊢
          exact h
        | cons c y =>
          exfalso
          cases u with
          | none => simp at h
          | some u => simp only [List.nil_append, List.cons_append, List.cons.injEq] at h; exact hy (h.1 ▸ List.mem_cons_self)
      | cons c x ih =>
        intro y u v hx hy h
        cases y with
        | nil =>
          exfalso
          cases v with
          | none => simp at h
          | some v => simp only [List.nil_append, List.cons_append, List.cons.injEq] at h; exact hx (h.1 ▸ List.mem_cons_self)
        | cons d y =>
          simp only [List.cons_append, List.cons.injEq] at h
          obtain ⟨e1, e2⟩ := ih y u v (fun h => hx (by simp [h])) (fun h => hy (by simp [h])) h.2
          exact ⟨by rw [h.1, e1], e2⟩
    have form : ∀ (x : Str) (a : List Str), List.intercalate ['\n'] (x :: a) =
        x ++ (match (match a with | [] => none | c :: d => some (List.intercalate ['\n'] (c :: d)) : Option Str) with | none => [] | some u => '\n' :: u) := by
      intro x a
      cases a with
      | nil => simp [List.intercalate]
      | cons c d => simp [List.intercalate, List.intersperse]
    obtain ⟨e1, e2⟩ := key x y _ _ (ha x (by simp)) (hb y (by simp)) (by rw [← form, ← form, ← hs, hs'])
    subst e1
    cases a with
    | nil =>
      cases b with
      | nil => rfl
      | cons c d => simp at e2
    | cons c d =>
      cases b with
      | nil => simp at e2
      | cons c' d' =>
        simp only [Option.some.injEq] at e2
        rw [isLines_unique (c :: d) (c' :: d') _ ⟨by simp, fun l hl => ha l (by simp [hl]), rfl⟩ ⟨by simp, fun l hl => hb l (by simp [hl]), e2⟩]

end S2P
