import Verif.Props.StlFile
import Verif.Spec.StlPrint

/-! # C17: writing and reading back -/

set_option linter.unusedSectionVars false

namespace S2P
variable {α : Type} [FP α] [FPOrd α]

theorem numeral_noNl (n : Numeral) (h : n.Wf) : '\n' ∉ n.text := by
  have := isNumeral_chars n.text n.value ⟨n, h, rfl, rfl⟩
  intro hm
  have := this.2 _ hm
  simp [isNumCh, isDigit] at this

theorem sps_noNl (k : Nat) : '\n' ∉ sps k := by simp [sps]

theorem num3_noNl (t : Num3) (h : t.Wf) (k : Nat) : '\n' ∉ t.text k := by
  simp only [Num3.text, List.mem_append, not_or]
  exact ⟨⟨⟨⟨⟨sps_noNl _, numeral_noNl _ h.1⟩, sps_noNl _⟩, numeral_noNl _ h.2.1⟩, sps_noNl _⟩, numeral_noNl _ h.2.2⟩

theorem num3_triple (t : Num3) (h : t.Wf) (k : Nat) (v : V3 α) (hv : t.Denotes v) : IsTriple (t.text k) v :=
  ⟨k, k, k, _, _, _, _, _, _, rfl, ⟨t.x, h.1, rfl, rfl⟩, ⟨t.y, h.2.1, rfl, rfl⟩, ⟨t.z, h.2.2, rfl, rfl⟩, hv.1, hv.2.1, hv.2.2⟩

/-- a written triangle `t` denotes the normal `v.1` and corners `v.2` -/
def TriText.Denotes (t : TriText) (v : V3 α × V3 α × V3 α × V3 α) : Prop :=
  t.n.Wf ∧ t.a.Wf ∧ t.b.Wf ∧ t.c.Wf ∧ t.n.Denotes v.1 ∧ t.a.Denotes v.2.1 ∧ t.b.Denotes v.2.2.1 ∧ t.c.Denotes v.2.2.2

/-- what the seven lines say -/
def triLines (v : V3 α × V3 α × V3 α × V3 α) : List (StlLine α) :=
  [.facet v.1, .loop, .vertex v.2.1, .vertex v.2.2.1, .vertex v.2.2.2, .loop, .endfacet]

theorem tri_lineIs (t : TriText) (v : V3 α × V3 α × V3 α × V3 α) (h : t.Denotes v) :
    List.Forall₂ LineIs t.lines (triLines v) := by
  obtain ⟨h1, h2, h3, h4, d1, d2, d3, d4⟩ := h
  have e : ∀ s : Str, s = s ++ sps 0 := by intro s; simp [sps]
  refine .cons ?_ (.cons ?_ (.cons ?_ (.cons ?_ (.cons ?_ (.cons ?_ (.cons ?_ .nil))))))
  · rw [e (_ ++ t.n.text _)]; exact .facet _ _ _ _ (num3_triple _ h1 _ _ d1)
  · rw [e (_ ++ c!"outer loop")]; exact .loop _ _ _ (by simp)
  · rw [e (_ ++ t.a.text _)]; exact .vertex _ _ _ _ (num3_triple _ h2 _ _ d2)
  · rw [e (_ ++ t.b.text _)]; exact .vertex _ _ _ _ (num3_triple _ h3 _ _ d3)
  · rw [e (_ ++ t.c.text _)]; exact .vertex _ _ _ _ (num3_triple _ h4 _ _ d4)
  · rw [e (_ ++ c!"endloop")]; exact .loop _ _ _ (by simp)
  · rw [e (_ ++ c!"endfacet")]; exact .endfacet _ _

theorem tri_noNl (t : TriText) (v : V3 α × V3 α × V3 α × V3 α) (h : t.Denotes v) : ∀ l ∈ t.lines, '\n' ∉ l := by
  obtain ⟨h1, h2, h3, h4, _⟩ := h
  intro l hl
  simp only [TriText.lines, List.mem_cons, List.not_mem_nil, or_false] at hl
  rcases hl with rfl | rfl | rfl | rfl | rfl | rfl | rfl <;> simp only [List.mem_append, not_or] <;>
    simp [sps_noNl, num3_noNl, *]

theorem blocks_tri (v : V3 α × V3 α × V3 α × V3 α) (hz : v.1.eqv V3.zero = false) (rs : List (StlLine α)) :
    blocks (triLines v ++ rs) = (v.1, [v.2.1, v.2.2.1, v.2.2.2]) :: blocks rs := by
  simp [triLines, blocks_cons, blockAt, isMark, hz, List.filterMap, vertexOf]

theorem blocks_tris (vs : List (V3 α × V3 α × V3 α × V3 α)) (hz : ∀ v ∈ vs, v.1.eqv V3.zero = false) (rs : List (StlLine α)) :
    blocks (vs.flatMap triLines ++ rs) = vs.map (fun v => (v.1, [v.2.1, v.2.2.1, v.2.2.2])) ++ blocks rs := by
  induction vs with
  | nil => simp
  | cons v vs ih =>
    rw [List.flatMap_cons, List.append_assoc, blocks_tri v (hz v (by simp)), ih (fun w hw => hz w (by simp [hw]))]
    simp

/-- C17: write any list of triangles with non-zero declared normals, with any numerals for their coordinates, any
indentation of each line, any gap between numbers and any solid name; reading gives exactly the facets of those triangles in order. -/
theorem C17_round_trip (hc : ConvOk α) (name : Str) (hn : '\n' ∉ name) (ts : List TriText) (vs : List (V3 α × V3 α × V3 α × V3 α))
    (h : List.Forall₂ TriText.Denotes ts vs) (hz : ∀ v ∈ vs, v.1.eqv V3.zero = false) :
    ∃ s : STLFile α, make (stlText name ts) = .ok (some s) ∧
      List.Forall₂ (fun v f => mkFacet v.1 [v.2.1, v.2.2.1, v.2.2.2] = .ok f) vs s.facets := by
  have hls : LinesOf (stlText name ts) (stlLines name ts) := by
    refine ⟨?_, Or.inl rfl⟩
    intro l hl
    simp only [stlLines, List.cons_append, List.mem_cons, List.mem_append, List.mem_flatMap, List.not_mem_nil, or_false] at hl
    rcases hl with rfl | ⟨t, ht, hl⟩ | rfl
    · simp [hn]
    · obtain ⟨i, hi⟩ := List.getElem?_of_mem ht
      have hi' := (List.getElem?_eq_some_iff.1 hi).1
      have hlen := h.length_eq
      have := (List.forall₂_iff_get.1 h).2 i hi' (by omega)
      rw [List.get_eq_getElem, (List.getElem?_eq_some_iff.1 hi).2] at this
      exact tri_noNl t _ this l hl
    · simp [hn]
  have hr : List.Forall₂ LineIs (stlLines name ts) ((StlLine.solid :: vs.flatMap triLines) ++ [.solid]) := by
    refine List.rel_append ?_ (.cons ?_ .nil)
    · refine .cons ?_ ?_
      · exact .solid 0 c!"solid" (' ' :: name) (by simp) (Or.inr ⟨name, rfl, hn⟩)
      · clear hz hls
        induction h with
        | nil => exact .nil
        | cons h1 h2 ih => exact List.rel_append (tri_lineIs _ _ h1) ih
    · exact .solid 0 c!"endsolid" (' ' :: name) (by simp) (Or.inr ⟨name, rfl, hn⟩)
  have hb : blocks ((StlLine.solid :: vs.flatMap triLines) ++ [StlLine.solid]) = vs.map (fun v => (v.1, [v.2.1, v.2.2.1, v.2.2.2])) := by
    rw [List.cons_append, blocks_cons, blocks_tris vs hz]
    simp [blockAt, blocks_cons, blocks_nil]
  obtain ⟨s, hs, _, hf⟩ := C14_accept hc _ _ hls _ hr (by
    rw [hb]; intro b hb'; obtain ⟨v, _, rfl⟩ := List.mem_map.1 hb'; simp)
  refine ⟨s, hs, ?_⟩
  rw [hb, List.forall₂_map_left_iff] at hf
  exact hf.imp fun v f h => by simpa using h

/-! ## every decimal has a numeral -/

theorem toDigits_isDigits (m : Nat) : IsDigits (Nat.toDigits 10 m) := by
  rw [isDigits_iff]
  intro c hc
  have := Nat.isDigit_of_mem_toDigits (by decide) (by decide) hc
  simp only [Char.isDigit, ge_iff_le, Bool.and_eq_true, decide_eq_true_eq] at this
  simp only [isDigit, Bool.and_eq_true, decide_eq_true_eq]
  exact this

theorem decVal_append (s : Str) (c : Char) : decVal (s ++ [c]) = 10 * decVal s + (c.toNat - 48) := by
  simp [decVal, Nat.ofDigits_cons]; ring

theorem digitChar_val (d : Nat) (h : d < 10) : (Nat.digitChar d).toNat - 48 = d := by
  interval_cases d <;> rfl

theorem decVal_toDigits (m : Nat) : decVal (Nat.toDigits 10 m) = m := by
  induction m using Nat.strongRecOn with
  | ind m ih =>
    rw [Nat.toDigits_eq_if (by decide)]
    split_ifs with h
    · rw [show ([Nat.digitChar m] : List Char) = [] ++ [Nat.digitChar m] from rfl, decVal_append, digitChar_val m h]
      simp [decVal]
    · rw [decVal_append, ih (m / 10) (by omega), digitChar_val _ (Nat.mod_lt _ (by decide))]
      omega

/-- every decimal `±m/10^k` has a numeral, so the hypotheses of `C17_round_trip` can be met for every list of triangles with
decimal coordinates that the arithmetic can represent -/
theorem C17_decimals (neg : Bool) (m k : Nat) :
    (decNumeral neg m k).Wf ∧ (decNumeral neg m k).value = (if neg then -1 else 1) * (m : ℚ) / 10 ^ k := by
  refine ⟨⟨toDigits_isDigits m, by simp [decNumeral, IsDigits], by simp [decNumeral], ?_⟩, ?_⟩
  · intro e he
    simp [decNumeral] at he; subst he
    exact ⟨toDigits_isDigits k, by simp⟩
  · cases neg <;> simp [decNumeral, Numeral.value, Numeral.expVal, decVal_toDigits] <;> ring

/-- exact coordinates: for triangles with decimal coordinates the facets read are those of the exact triangles -/
example : (make (α := Ext ℚ) (stlText c!"part 7"
    [⟨⟨decNumeral false 0 0, decNumeral false 0 0, decNumeral false 1 0⟩, ⟨decNumeral false 0 0, decNumeral false 0 0, decNumeral false 0 0⟩,
      ⟨decNumeral false 15 1, decNumeral false 0 0, decNumeral false 0 0⟩, ⟨decNumeral false 0 0, decNumeral false 25 1, decNumeral true 0 0⟩,
      fun i => 2 * i, 1⟩])).map (Option.map (·.facets)) =
    .ok (some [⟨V3.fin ⟨0, 0, 1⟩, V3.fin ⟨0, 0, 0⟩, V3.fin ⟨3 / 2, 0, 0⟩, V3.fin ⟨0, 5 / 2, 0⟩, Ext.fin 0⟩]) := by decide +kernel

end S2P
