import Verif.Spec.Text
import Verif.Props.Pages

set_option linter.unusedSectionVars false
set_option linter.unusedVariables false
set_option linter.unusedSimpArgs false

/-! # C45, C46: text blocks and titles -/

namespace S2P

theorem splitNl_ne (s : Str) : splitNl s ≠ [] := by
  cases s with
  | nil => simp [splitNl]
  | cons c s =>
    unfold splitNl
    split
    · simp
    · split <;> simp

theorem splitNl_lines : ∀ s : Str, IsLines s (splitNl s)
  | [] => ⟨by simp [splitNl], by simp [splitNl], by simp [splitNl, List.intercalate]⟩
  | c :: s => by
    obtain ⟨h1, h2, h3⟩ := splitNl_lines s
    refine ⟨splitNl_ne _, ?_, ?_⟩
    · unfold splitNl
      split
      · simp only [List.mem_cons]
        rintro l (rfl | hl)
        · simp
        · exact h2 l hl
      · rename_i hc
        cases hs : splitNl s with
        | nil => exact absurd hs h1
        | cons l ls =>
          rw [hs] at h2
          simp only [List.mem_cons]
          rintro x (rfl | hx)
          · simp only [List.mem_cons, not_or]
            exact ⟨fun h => hc h.symm, h2 l (by simp)⟩
          · exact h2 x (by simp [hx])
    · unfold splitNl
      cases hs : splitNl s with
      | nil => exact absurd hs h1
      | cons l ls =>
        rw [hs] at h3
        split
        · rename_i hc
          rw [h3, hc]
          simp [List.intercalate, List.intersperse]
        · rw [h3]
          cases ls <;> simp [List.intercalate, List.intersperse]

variable {K : Type} [Field K] [LinearOrder K] [IsStrictOrderedRing K] [FloorRing K] [Trans K]

theorem textRows_at (x y : K) : ∀ (ls : List Str) (k : Nat),
    textRows (V2.fin ⟨x, y - 12 * k⟩) ls =
      ((ls.zipIdx k).filter (fun p => decide (p.1 ≠ []))).map (fun p => ⟨V2.fin ⟨x, y - 12 * (p.2 : K)⟩, p.1, false, false⟩)
  | [], k => rfl
  | s :: ss, k => by
    have e : (⟨(V2.fin (⟨x, y - 12 * k⟩ : V2 K)).x, (V2.fin (⟨x, y - 12 * k⟩ : V2 K)).y - FP.lit 12⟩ : V2 (Ext K)) =
        V2.fin ⟨x, y - 12 * ((k + 1 : Nat) : K)⟩ := by
      ext
      · simp
      · simp [V2.map]; ring
    have ih := textRows_at x y ss (k + 1)
    unfold textRows
    rw [e]
    simp only [ih]
    by_cases hs : s = []
    · simp [hs]
    · simp [hs]

/-- C45: an accepted text block adds exactly its non-empty lines, in order; line number `k`, counting from 0 and including empty lines,
at (396+72x, 306+72y-12k), where `[x,y]` follows '@' (the page's centre without '@'). -/
theorem C45_text (E : Env (Ext K)) (stl : Models (Ext K)) (s : Str) (ms : List (Meta (Ext K))) (l : Nat) (c)
    (h : content E stl (.text s ms l) = .ok c) (hc : c.1 = true) (x y : K)
    (hxy : (look ms c!"@" = none ∧ x = 0 ∧ y = 0) ∨ ∃ m, look ms c!"@" = some m ∧ m.val = .loc (V2.fin ⟨x, y⟩)) :
    ∃ ls, IsLines s ls ∧ c.2.1.lines = [] ∧ c.2.1.arcs = [] ∧ c.2.1.text =
      (ls.zipIdx.filter (fun p => decide (p.1 ≠ []))).map
        (fun p => ⟨V2.fin ⟨396 + 72 * x, 306 + 72 * y - 12 * (p.2 : K)⟩, p.1, false, false⟩) := by
  unfold content at h
  simp only [visitDrawable, bind, Except.bind] at h
  obtain ⟨ds, extra, e1, e2, e3⟩ := visitText_out (α := Ext K) s ms l
  rw [e3] at h
  unfold textOut at h
  by_cases hd : ds ≠ []
  · rw [if_pos hd] at h; cases h; cases hc
  rw [if_neg hd] at h
  have hp : textLocOf (look ms c!"@") = .ok (V2.fin (⟨396 + 72 * x, 306 + 72 * y - 12 * ((0 : Nat) : K)⟩ : V2 K)) := by
    rcases hxy with ⟨hn, rfl, rfl⟩ | ⟨m, hm, hv⟩
    · rw [hn]
      simp only [textLocOf, Except.ok.injEq]
      ext <;> simp [pageCentre, V2.map]
    · rw [hm]
      simp only [textLocOf, hv, Except.ok.injEq]
      ext <;> simp [pageCentre, V2.map, V2.smul] <;> ring
  rw [hp] at h
  cases h
  refine ⟨splitNl s, splitNl_lines s, rfl, rfl, ?_⟩
  show [] ++ textRows _ _ = _
  rw [textRows_at]
  simp

/-- C46: a page shows what its drawings and text blocks contribute, and then only its title: a text starting 4.8 units per character
left of 784, and two lines boxing it. -/
theorem C46_title (E : Env (Ext K)) (stl : Models (Ext K)) (pg : PageN (Ext K)) (g : GenRes (Ext K)) (h : onePage E stl pg = .ok g) :
    ∃ (cs : List (Bool × OutPage (Ext K) × List Diag)) (t : Str),
      List.Forall₂ (fun d c => content E stl d = .ok c) pg.draws cs ∧ titled pg.metas t ∧
      let left : K := 784 - t.length * (48 / 10)
      g.pages = [(OutPage.sum (cs.map (fun c => c.2.1))).app
        ⟨[⟨V2.fin ⟨left - 3, 5⟩, V2.fin ⟨left - 3, 16⟩⟩, ⟨V2.fin ⟨left - 3, 16⟩, V2.fin ⟨787, 16⟩⟩], [],
         [⟨V2.fin ⟨left, 8⟩, t, false, false⟩]⟩] := by
  obtain ⟨cs, f, ⟨t, ht, hp⟩, -⟩ := C58_page E stl pg g h
  refine ⟨cs, t, f, ht, ?_⟩
  rw [hp]
  have e : (784 : K) - t.length * (8 : Nat) * (((6 / 10 : Rat)) : K) = 784 - t.length * (48 / 10) := by push_cast; ring
  simp only [addHeader, OutPage.app, List.append_nil, Ext.f32_eq, Ext.lit_eq, Ext.fin_mul, Ext.fin_sub, kFontSize]
  simp only [Rat.cast_natCast, Rat.cast_ofNat, e]
  simp [V2.map]
  norm_num

/-! ### Concrete cases -/

example : (content exEnv exModels (.text c!"hi\n\nyou" [exAt 1 1] 7)).map (fun c => c.2.1.text) =
    .ok ([⟨V2.fin ⟨468, 378⟩, c!"hi", false, false⟩, ⟨V2.fin ⟨468, 354⟩, c!"you", false, false⟩]) := by decide +kernel
example : IsLines c!"hi\n\nyou" [c!"hi", [], c!"you"] := by unfold IsLines; decide +kernel
example : (onePage exEnv exModels ⟨[⟨c!"name", .str c!"Plan", 1⟩], [], 1⟩).map (fun g => g.pages) =
    .ok [⟨[⟨V2.fin ⟨3809/5, 5⟩, V2.fin ⟨3809/5, 16⟩⟩, ⟨V2.fin ⟨3809/5, 16⟩, V2.fin ⟨787, 16⟩⟩], [],
      [⟨V2.fin ⟨3824/5, 8⟩, c!"Plan", false, false⟩]⟩] := by decide +kernel

end S2P
