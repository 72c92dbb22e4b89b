import Verif.Spec.Hidden
import Verif.Spec.Sort
import Mathlib.Tactic.Linarith
import Mathlib.Tactic.FieldSimp
import Mathlib.Tactic.Ring

set_option linter.unusedSectionVars false
set_option linter.unusedVariables false

namespace S2P

section any
variable {α : Type} [FP α]

theorem collectCross_ok (unseen : Nat) (L : List (Nat × Nat × V3 α)) : ∀ (acc : List (List (Nat × V3 α))),
    acc.length = unseen → L.Pairwise (fun x y => ¬ (x.1 = y.1 ∧ x.2.1 = y.2.1)) →
    (∀ x ∈ L, ∀ m, acc[x.1]? = some m → ∀ e ∈ m, e.1 ≠ x.2.1) →
    ∃ acc', collectCross unseen L acc = .ok acc' ∧ acc'.length = unseen ∧
      ∀ (a : Nat) (m : List (Nat × V3 α)), acc[a]? = some m →
        acc'[a]? = some (m ++ (L.filter (fun x => x.1 == a)).map (·.2)) := by
  induction L with
  | nil => intro acc hl _ _; exact ⟨acc, rfl, hl, by simp⟩
  | cons x L ih =>
    obtain ⟨a, b, p⟩ := x
    intro acc hl hp hacc
    rw [List.pairwise_cons] at hp
    rw [collectCross]
    by_cases h1 : unseen ≤ a
    · rw [if_pos h1]
      obtain ⟨acc', e1, e2, e3⟩ := ih acc hl hp.2 (fun x hx => hacc x (by simp [hx]))
      refine ⟨acc', e1, e2, ?_⟩
      intro a' m hm
      have : a' < unseen := by rw [← hl]; exact (List.getElem?_eq_some_iff.1 hm).1
      have hne : (a == a') = false := by simp; omega
      rw [e3 a' m hm]
      simp [hne]
    rw [if_neg h1]
    dsimp only
    split_ifs with h2
    · exfalso
      have hlt : a < acc.length := by omega
      have hg : acc[a]? = some acc[a] := List.getElem?_eq_getElem hlt
      rw [hg] at h2
      simp only [Option.getD_some, List.any_eq_true, beq_iff_eq] at h2
      obtain ⟨e, he, heb⟩ := h2
      exact hacc (a, b, p) (by simp) _ hg e he heb
    · have hlt : a < acc.length := by omega
      have hg : acc[a]? = some acc[a] := List.getElem?_eq_getElem hlt
      rw [hg] at h2 ⊢
      simp only [Option.getD_some]
      obtain ⟨acc', e1, e2, e3⟩ := ih (acc.set a (acc[a] ++ [(b, p)])) (by simpa using hl) hp.2 (by
        intro x hx m hm e he
        rw [List.getElem?_set] at hm
        split_ifs at hm with hc1
        · simp only [Option.some.injEq] at hm
          subst hm
          rcases List.mem_append.1 he with he | he
          · exact hacc x (by simp [hx]) _ (by rw [← hc1]; exact hg) e he
          · simp at he; subst he
            have := hp.1 x hx
            intro hb; exact this ⟨hc1, hb⟩
        · exact hacc x (by simp [hx]) m hm e he)
      refine ⟨acc', e1, e2, ?_⟩
      intro a' m hm
      by_cases haa : a = a'
      · subst haa
        rw [hg] at hm; injection hm with hm
        rw [e3 a (acc[a] ++ [(b, p)]) (by rw [List.getElem?_set_self hlt])]
        simp [hm]
      · rw [e3 a' m (by rw [List.getElem?_set_ne haa]; exact hm)]
        have hne : (a == a') = false := by simpa using haa
        simp [hne]

/-- the test of stl.cc:393 -/
def crossCond (ev eu : Edge α) : Bool :=
  let dv := ev.2 - ev.1
  let du := eu.2 - eu.1
  let det := FP.lit 1 / (du.x * dv.y - dv.x * du.y)
  let x := eu.1.x - ev.1.x
  let y := eu.1.y - ev.1.y
  let j := (-du.y * x + du.x * y) * det
  let i := (-dv.y * x + dv.x * y) * det
  FP.le (FP.lit 0) i && FP.le i (FP.lit 1) && FP.le (FP.lit 0) j && FP.le j (FP.lit 1)

theorem crossPair_keys (v u : Nat) (ev eu : Edge α) (x : Nat × Nat × V3 α) (h : x ∈ crossPair v u ev eu) :
    (x.1 = u ∧ x.2.1 = v) ∨ (x.1 = v ∧ x.2.1 = u) := by
  unfold crossPair at h
  dsimp only at h
  split_ifs at h with h1 h2 h3 h3
  · simp at h; rcases h with rfl | rfl <;> simp
  · simp at h; subst h; simp
  · simp at h; subst h; simp
  · simp at h
  · simp at h

theorem crossPair_pairwise (v u : Nat) (hvu : v < u) (ev eu : Edge α) :
    (crossPair v u ev eu).Pairwise (fun x y => ¬ (x.1 = y.1 ∧ x.2.1 = y.2.1)) := by
  unfold crossPair
  dsimp only
  split_ifs <;> simp <;> omega

theorem mem_range_drop (n k u : Nat) : u ∈ (List.range n).drop k ↔ k ≤ u ∧ u < n := by
  rw [List.mem_drop_iff_getElem]
  constructor
  · rintro ⟨i, hi, h⟩
    simp at hi h
    omega
  · rintro ⟨h1, h2⟩
    exact ⟨u - k, by simp; omega, by simp; omega⟩

theorem mem_crossList (edges : List (Edge α)) (unseen : Nat) (x : Nat × Nat × V3 α) :
    x ∈ crossList edges unseen ↔ ∃ v u ev eu, v < unseen ∧ v < u ∧ edges[v]? = some ev ∧ edges[u]? = some eu ∧
      x ∈ crossPair v u ev eu := by
  unfold crossList
  simp only [List.mem_flatMap, List.mem_range, mem_range_drop]
  constructor
  · rintro ⟨v, hv, u, ⟨hu1, hu2⟩, hx⟩
    split at hx
    · rename_i ev eu h1 h2
      exact ⟨v, u, ev, eu, hv, hu1, h1, h2, hx⟩
    · simp at hx
  · rintro ⟨v, u, ev, eu, hv, hvu, h1, h2, hx⟩
    refine ⟨v, hv, u, ⟨hvu, (List.getElem?_eq_some_iff.1 h2).1⟩, ?_⟩
    rw [h1, h2]; exact hx

theorem crossList_pairwise (edges : List (Edge α)) (unseen : Nat) :
    (crossList edges unseen).Pairwise (fun x y => ¬ (x.1 = y.1 ∧ x.2.1 = y.2.1)) := by
  unfold crossList
  have keys : ∀ v u : Nat, v < u → ∀ x ∈ (match (edges[v]? : Option (Edge α)), (edges[u]? : Option (Edge α)) with
      | some ev, some eu => crossPair v u ev eu
      | _, _ => []), (x.1 = u ∧ x.2.1 = v) ∨ (x.1 = v ∧ x.2.1 = u) := by
    intro v u hvu x hx
    split at hx
    · exact crossPair_keys _ _ _ _ _ hx
    · simp at hx
  rw [List.pairwise_flatMap]
  constructor
  · intro v _
    rw [List.pairwise_flatMap]
    constructor
    · intro u hu
      rw [mem_range_drop] at hu
      split
      · exact crossPair_pairwise v u hu.1 _ _
      · exact .nil
    · have : ((List.range edges.length).drop (v + 1)).Pairwise (· < ·) := List.pairwise_lt_range.drop
      refine List.Pairwise.imp_of_mem ?_ this
      intro u u' hu hu' huu x hx y hy
      rw [mem_range_drop] at hu hu'
      have k1 := keys v u hu.1 x hx
      have k2 := keys v u' hu'.1 y hy
      omega
  · refine List.Pairwise.imp_of_mem ?_ List.pairwise_lt_range
    intro v v' hv hv' hvv x hx y hy
    simp only [List.mem_flatMap, mem_range_drop] at hx hy
    obtain ⟨u, hu, hx⟩ := hx
    obtain ⟨u', hu', hy⟩ := hy
    have k1 := keys v u hu.1 x hx
    have k2 := keys v' u' hu'.1 y hy
    omega

/-- `EdgeCrosses` never fails its CHECK; what it records -/
theorem edgeCrosses_ok (edges : List (Edge α)) (unseen : Nat) :
    ∃ cs, edgeCrosses edges unseen = .ok cs ∧ cs.length = unseen ∧
      ∀ v m, cs[v]? = some m →
        m = ((crossList edges unseen).filter (fun x => x.1 == v)).map (·.2) ∧
        m.Pairwise (fun a b => a.1 ≠ b.1) := by
  obtain ⟨cs, h1, h2, h3⟩ := collectCross_ok unseen (crossList edges unseen) (List.replicate unseen []) (by simp)
    (crossList_pairwise edges unseen) (by
      intro x _ m hm e he
      rw [List.getElem?_replicate] at hm
      split_ifs at hm
      simp at hm; subst hm; simp at he)
  refine ⟨cs, h1, h2, ?_⟩
  intro v m hm
  have hv : v < unseen := by rw [← h2]; exact (List.getElem?_eq_some_iff.1 hm).1
  have := h3 v [] (by rw [List.getElem?_replicate, if_pos hv])
  rw [hm] at this
  simp only [List.nil_append, Option.some.injEq] at this
  refine ⟨this, ?_⟩
  rw [this, List.pairwise_map]
  refine List.Pairwise.imp_of_mem ?_ ((crossList_pairwise edges unseen).filter _)
  intro a b ha hb hab hc
  simp only [List.mem_filter, beq_iff_eq] at ha hb
  exact hab ⟨ha.2.trans hb.2.symm, hc⟩

end any

section geo
variable {K : Type} [Field K] [LinearOrder K] [IsStrictOrderedRing K] [FloorRing K] [Trans K]

/-- crossing of finite edges that are not parallel on the page -/
theorem crossPair_fin (v u : Nat) (ev eu : Edge K) (x : Nat × Nat × V3 (Ext K)) :
    x ∈ crossPair v u ev.fin eu.fin ↔
      ¬ PageParallel ev eu ∧ ∃ i j, 0 ≤ i ∧ i ≤ 1 ∧ 0 ≤ j ∧ j ≤ 1 ∧ (edgeAt eu i).xy = (edgeAt ev j).xy ∧
        ((x = (u, v, (edgeAt eu i).fin) ∧ (edgeAt eu i).z ≤ (edgeAt ev j).z) ∨
         (x = (v, u, (edgeAt ev j).fin) ∧ (edgeAt ev j).z ≤ (edgeAt eu i).z)) := by
  obtain ⟨⟨vx, vy, vz⟩, ⟨wx, wy, wz⟩⟩ := ev
  obtain ⟨⟨ax, ay, az⟩, ⟨bx, by', bz⟩⟩ := eu
  unfold crossPair
  dsimp only [Edge.fin]
  simp only [V3.fin_sub, V3.fin_x, V3.fin_y, Ext.fin_sub, Ext.fin_mul, Ext.fin_neg, Ext.fin_add, Ext.lit_eq, V3.sub_x, V3.sub_y, Rat.cast_one,
    Rat.cast_zero]
  by_cases hd : (bx - ax) * (wy - vy) - (wx - vx) * (by' - ay) = 0
  · have hpar : PageParallel ((⟨vx, vy, vz⟩, ⟨wx, wy, wz⟩) : Edge K) (⟨ax, ay, az⟩, ⟨bx, by', bz⟩) := by
      simp only [PageParallel]; linear_combination -hd
    rw [hd, Ext.fin_div_zero]
    have hp : (Ext.infSign (1 : K)) = Ext.pinf := by simp [Ext.infSign]
    rw [hp]
    have hm : ∀ c : K, (FP.le (Ext.fin 0) (Ext.fin c * Ext.pinf) && FP.le (Ext.fin c * Ext.pinf) (Ext.fin 1 : Ext K)) = false := by
      intro c
      show (Ext.le (Ext.fin 0) (Ext.mul (Ext.fin c) Ext.pinf) && Ext.le (Ext.mul (Ext.fin c) Ext.pinf) (Ext.fin 1)) = false
      simp only [Ext.mul, Ext.infSign]
      split_ifs <;> simp [Ext.le]
    rw [hm]
    simp [hpar]
  · have hpar : ¬ PageParallel ((⟨vx, vy, vz⟩, ⟨wx, wy, wz⟩) : Edge K) (⟨ax, ay, az⟩, ⟨bx, by', bz⟩) := by
      simp only [PageParallel]; intro h; exact hd (by linear_combination -h)
    rw [Ext.fin_div _ _ hd]
    simp only [Ext.fin_mul, V3.fin_smul, V3.fin_add, V3.fin_z, Ext.fin_le]
    obtain ⟨I, hI⟩ : ∃ I, (-(wy - vy) * (ax - vx) + (wx - vx) * (ay - vy)) * (1 / ((bx - ax) * (wy - vy) - (wx - vx) * (by' - ay))) = I := ⟨_, rfl⟩
    obtain ⟨J, hJ⟩ : ∃ J, (-(by' - ay) * (ax - vx) + (bx - ax) * (ay - vy)) * (1 / ((bx - ax) * (wy - vy) - (wx - vx) * (by' - ay))) = J := ⟨_, rfl⟩
    simp only [hI, hJ]
    have hI' : I * ((bx - ax) * (wy - vy) - (wx - vx) * (by' - ay)) = -(wy - vy) * (ax - vx) + (wx - vx) * (ay - vy) := by
      rw [← hI, mul_assoc, one_div_mul_cancel hd, mul_one]
    have hJ' : J * ((bx - ax) * (wy - vy) - (wx - vx) * (by' - ay)) = -(by' - ay) * (ax - vx) + (bx - ax) * (ay - vy) := by
      rw [← hJ, mul_assoc, one_div_mul_cancel hd, mul_one]
    have hxy : (edgeAt ((⟨ax, ay, az⟩, ⟨bx, by', bz⟩) : Edge K) I).xy = (edgeAt ((⟨vx, vy, vz⟩, ⟨wx, wy, wz⟩) : Edge K) J).xy := by
      simp only [edgeAt, V3.xy, V3.add_x, V3.add_y, V3.smul, V3.sub_x, V3.sub_y, V2.mk.injEq]
      constructor <;> apply mul_right_cancel₀ hd
      · linear_combination (bx - ax) * hI' - (wx - vx) * hJ'
      · linear_combination (by' - ay) * hI' - (wy - vy) * hJ'
    have huniq : ∀ i j, (edgeAt ((⟨ax, ay, az⟩, ⟨bx, by', bz⟩) : Edge K) i).xy = (edgeAt ((⟨vx, vy, vz⟩, ⟨wx, wy, wz⟩) : Edge K) j).xy → i = I ∧ j = J := by
      intro i j h
      simp only [edgeAt, V3.xy, V3.add_x, V3.add_y, V3.smul, V3.sub_x, V3.sub_y, V2.mk.injEq] at h
      obtain ⟨h1, h2⟩ := h
      constructor <;> apply mul_right_cancel₀ hd
      · rw [hI']; linear_combination (wy - vy) * h1 - (wx - vx) * h2
      · rw [hJ']; linear_combination (by' - ay) * h1 - (bx - ax) * h2
    have eI : (⟨ax, ay, az⟩ : V3 K) + ((⟨bx, by', bz⟩ : V3 K) - ⟨ax, ay, az⟩).smul I = edgeAt ((⟨ax, ay, az⟩, ⟨bx, by', bz⟩) : Edge K) I := rfl
    have eJ : (⟨vx, vy, vz⟩ : V3 K) + ((⟨wx, wy, wz⟩ : V3 K) - ⟨vx, vy, vz⟩).smul J = edgeAt ((⟨vx, vy, vz⟩, ⟨wx, wy, wz⟩) : Edge K) J := rfl
    rw [eI, eJ]
    simp only [hpar, not_false_eq_true, true_and]
    constructor
    · intro h
      split_ifs at h with c1 c2 c3 c3
      all_goals simp only [Bool.and_eq_true, decide_eq_true_eq] at c1
      · simp only [decide_eq_true_eq] at c2 c3
        simp only [List.cons_append, List.nil_append, List.mem_cons, List.not_mem_nil, or_false] at h
        exact ⟨I, J, c1.1.1.1, c1.1.1.2, c1.1.2, c1.2, hxy, h.imp (fun h => ⟨h, c2⟩) (fun h => ⟨h, c3⟩)⟩
      · simp only [decide_eq_true_eq] at c2 c3
        simp only [List.append_nil, List.mem_cons, List.not_mem_nil, or_false] at h
        exact ⟨I, J, c1.1.1.1, c1.1.1.2, c1.1.2, c1.2, hxy, Or.inl ⟨h, c2⟩⟩
      · simp only [decide_eq_true_eq] at c2 c3
        simp only [List.nil_append, List.mem_cons, List.not_mem_nil, or_false] at h
        exact ⟨I, J, c1.1.1.1, c1.1.1.2, c1.1.2, c1.2, hxy, Or.inr ⟨h, c3⟩⟩
      · simp at h
      · simp at h
    · rintro ⟨i, j, i0, i1, j0, j1, hij, h⟩
      obtain ⟨rfl, rfl⟩ := huniq i j hij
      rw [if_pos (by simp [i0, i1, j0, j1])]
      rcases h with ⟨rfl, h⟩ | ⟨rfl, h⟩
      · rw [if_pos (by simpa using h)]; simp
      · rw [if_pos (by simpa using h) (c := decide ((edgeAt ((⟨vx, vy, vz⟩, ⟨wx, wy, wz⟩) : Edge K) j).z ≤ _) = true)]; simp

end geo
end S2P
