import Verif.Lemmas.Nearest
import Verif.Props.Circle

set_option linter.unusedSectionVars false
set_option linter.unusedVariables false
set_option linter.unusedSimpArgs false

/-! # The search for the three closest points, over the reals -/

namespace S2P

/-- an entry of the search -/
noncomputable def entry (t q : V2 ℝ) : Ext ℝ × V2 (Ext ℝ) := (.fin (dist2 q t), q.fin)

theorem dist2_nn (a b : V2 ℝ) : 0 ≤ dist2 a b := by unfold dist2; positivity
theorem dist2_symm (a b : V2 ℝ) : dist2 a b = dist2 b a := by unfold dist2; ring
theorem dist2_eq_zero {a b : V2 ℝ} (h : dist2 a b = 0) : a = b := by
  unfold dist2 at h
  have h1 : (a.x - b.x) ^ 2 = 0 := by nlinarith [sq_nonneg (a.x - b.x), sq_nonneg (a.y - b.y)]
  have h2 : (a.y - b.y) ^ 2 = 0 := by nlinarith [sq_nonneg (a.x - b.x), sq_nonneg (a.y - b.y)]
  ext
  · exact sub_eq_zero.1 (pow_eq_zero_iff (two_ne_zero) |>.1 h1)
  · exact sub_eq_zero.1 (pow_eq_zero_iff (two_ne_zero) |>.1 h2)

theorem cDist_fin (t p : V2 ℝ) : cDist t.fin p.fin = .fin (dist2 p t) := by
  unfold cDist
  rw [V2.fin_sub, V2.fin_sqNorm]
  simp [V2.sqNorm, V2.dot, dist2, pow_two]

theorem nearDup_fin (t p e : V2 ℝ) : nearDup t.fin p.fin e.fin = true ↔ dist2 e t = dist2 p t ∧ dist2 p e < dist2 p t / 100 := by
  unfold nearDup
  rw [cDist_fin, cDist_fin, V2.fin_sub, V2.fin_sqNorm, Ext.lit_eq, Ext.fin_mul]
  simp only [Ext.fin_lt, Bool.and_eq_true, Bool.not_eq_true', decide_eq_false_iff_not, decide_eq_true_eq, not_lt]
  have : (p - e).sqNorm = dist2 p e := by simp [V2.sqNorm, V2.dot, dist2, pow_two]
  rw [this]
  constructor
  · rintro ⟨⟨h1, h2⟩, h3⟩
    refine ⟨le_antisymm h2 h1, ?_⟩
    push_cast at h3
    linarith
  · rintro ⟨h1, h2⟩
    refine ⟨⟨h1.ge, h1.le⟩, ?_⟩
    push_cast
    linarith

/-- insertion keeps the order -/
theorem mmInsert_entry (t p : V2 ℝ) : ∀ c : List (V2 ℝ), c.Pairwise (fun a b => dist2 a t ≤ dist2 b t) →
    ∃ c' : List (V2 ℝ), mmInsert (.fin (dist2 p t)) p.fin (c.map (entry t)) = c'.map (entry t) ∧ c'.Perm (p :: c) ∧ c'.Pairwise (fun a b => dist2 a t ≤ dist2 b t)
  | [], _ => ⟨[p], rfl, .refl _, by simp⟩
  | e :: es, h => by
    rw [List.pairwise_cons] at h
    obtain ⟨c', h1, h2, h3⟩ := mmInsert_entry t p es h.2
    simp only [List.map_cons, mmInsert]
    by_cases hlt : dist2 p t < dist2 e t
    · rw [if_pos (by simpa [entry] using hlt)]
      refine ⟨p :: e :: es, rfl, .refl _, ?_⟩
      simp only [List.pairwise_cons]
      refine ⟨?_, h⟩
      intro b hb
      rcases List.mem_cons.1 hb with rfl | hb
      · exact hlt.le
      · exact hlt.le.trans (h.1 b hb)
    · rw [if_neg (by simpa [entry] using hlt)]
      refine ⟨e :: c', by rw [h1]; rfl, (h2.cons e).trans (List.Perm.swap _ _ _), ?_⟩
      rw [List.pairwise_cons]
      refine ⟨?_, h3⟩
      intro b hb
      rcases List.mem_cons.1 (h2.mem_iff.1 hb) with rfl | hb
      · exact not_lt.1 hlt
      · exact h.1 b hb

/-- `p` is among the entries, or one at the same distance from `t` and close to it is -/
def StandsFor (t : V2 ℝ) (c : List (V2 ℝ)) (p : V2 ℝ) : Prop := ∃ e ∈ c, dist2 e t = dist2 p t ∧ (e = p ∨ dist2 p e < dist2 p t / 100)

/-- what holds after the points `pre`, of which `p0` is the first, have been offered -/
structure HInv (t p0 : V2 ℝ) (pre c : List (V2 ℝ)) : Prop where
  sub : ∀ q ∈ c, q ∈ pre
  sorted : c.Pairwise (fun a b => dist2 a t ≤ dist2 b t)
  len : c.length ≤ 3
  apart : c.Pairwise (fun a b => dist2 a t = dist2 b t → dist2 b t / 100 ≤ dist2 a b)
  rep : ∀ p ∈ pre, StandsFor t c p ∨ (c.length = 3 ∧ ∀ e ∈ c, dist2 e t ≤ dist2 p t) ∨ dist2 p0 t < dist2 p t
  few : c.length < 3 → p0 ∈ c ∧ ∀ e ∈ c, dist2 e t ≤ dist2 p0 t

theorem step_entry (t p : V2 ℝ) (c : List (V2 ℝ)) (hs : c.Pairwise (fun a b => dist2 a t ≤ dist2 b t)) :
    ((((∃ e, c.getLast? = some e ∧ dist2 e t < dist2 p t) ∨ ∃ e ∈ c, dist2 e t = dist2 p t ∧ dist2 p e < dist2 p t / 100) ∧
      closestStep 3 t.fin (c.map (entry t)) p.fin = c.map (entry t)) ∨
    ((∀ e, c.getLast? = some e → dist2 p t ≤ dist2 e t) ∧ (∀ e ∈ c, dist2 e t = dist2 p t → dist2 p t / 100 ≤ dist2 p e) ∧
      ∃ c' : List (V2 ℝ), c'.Perm (p :: c) ∧ c'.Pairwise (fun a b => dist2 a t ≤ dist2 b t) ∧
        closestStep 3 t.fin (c.map (entry t)) p.fin = (c'.take 3).map (entry t))) := by
  have hk : Keyed t.fin (c.map (entry t)) := by
    intro e he
    obtain ⟨q, -, rfl⟩ := List.mem_map.1 he
    exact (cDist_fin t q).symm
  rw [closestStep_eq 3 _ _ _ hk]
  have e1 : (∃ e, (c.map (entry t)).getLast? = some e ∧ FP.lt e.1 (cDist t.fin p.fin) = true) ↔ ∃ e, c.getLast? = some e ∧ dist2 e t < dist2 p t := by
    rw [List.getLast?_map]
    constructor
    · rintro ⟨e, he, h⟩
      obtain ⟨q, hq, rfl⟩ := Option.map_eq_some_iff.1 he
      rw [cDist_fin] at h
      exact ⟨q, hq, by simpa [entry] using h⟩
    · rintro ⟨q, hq, h⟩
      refine ⟨entry t q, by rw [hq]; rfl, ?_⟩
      rw [cDist_fin]; simpa [entry] using h
  have e2 : (∃ e ∈ c.map (entry t), nearDup t.fin p.fin e.2 = true) ↔ ∃ e ∈ c, dist2 e t = dist2 p t ∧ dist2 p e < dist2 p t / 100 := by
    constructor
    · rintro ⟨e, he, h⟩
      obtain ⟨q, hq, rfl⟩ := List.mem_map.1 he
      exact ⟨q, hq, (nearDup_fin t p q).1 h⟩
    · rintro ⟨q, hq, h⟩
      exact ⟨_, List.mem_map_of_mem hq, (nearDup_fin t p q).2 h⟩
  by_cases hc : (∃ e, c.getLast? = some e ∧ dist2 e t < dist2 p t) ∨ ∃ e ∈ c, dist2 e t = dist2 p t ∧ dist2 p e < dist2 p t / 100
  · exact .inl ⟨hc, if_pos (hc.imp e1.2 e2.2)⟩
  · rw [if_neg (fun h => hc (h.imp e1.1 e2.1))]
    push Not at hc
    obtain ⟨c', h1, h2, h3⟩ := mmInsert_entry t p c hs
    refine .inr ⟨hc.1, hc.2, c', h2, h3, ?_⟩
    rw [cDist_fin, h1, List.map_take]

theorem le_last {t : V2 ℝ} {c : List (V2 ℝ)} (hs : c.Pairwise (fun a b => dist2 a t ≤ dist2 b t)) {l e : V2 ℝ} (hl : c.getLast? = some l) (he : e ∈ c) :
    dist2 e t ≤ dist2 l t := by
  obtain ⟨ys, rfl⟩ := List.getLast?_eq_some_iff.mp hl
  rcases List.mem_append.mp he with h1 | h1
  · exact (List.pairwise_append.mp hs).2.2 e h1 l (by simp)
  · simp only [List.mem_singleton] at h1; rw [h1]

theorem hinv_step {t p0 : V2 ℝ} {pre c : List (V2 ℝ)} (h : HInv t p0 pre c) (hne : c ≠ []) (p : V2 ℝ) :
    ∃ c', closestStep 3 t.fin (c.map (entry t)) p.fin = c'.map (entry t) ∧ HInv t p0 (pre ++ [p]) c' ∧ c' ≠ [] := by
  obtain ⟨l, hl⟩ : ∃ l, c.getLast? = some l := by
    cases hc : c.getLast? with
    | none => exact absurd (List.getLast?_eq_none_iff.1 hc) hne
    | some l => exact ⟨l, rfl⟩
  have hlm : l ∈ c := List.mem_of_getLast? hl
  rcases step_entry t p c h.sorted with ⟨hh, he⟩ | ⟨h1, h2, c', hp, hs', he⟩
  · refine ⟨c, he, ⟨fun q hq => by simp [h.sub q hq], h.sorted, h.len, h.apart, ?_, h.few⟩, hne⟩
    intro q hq
    rcases List.mem_append.1 hq with hq | hq
    · exact h.rep q hq
    simp only [List.mem_singleton] at hq
    subst hq
    rcases hh with ⟨e, hle, hlt⟩ | ⟨e, hem, h3, h4⟩
    · rw [hl] at hle; injection hle with hle; subst hle
      rcases Nat.lt_or_ge c.length 3 with h3 | h3
      · exact .inr (.inr (lt_of_le_of_lt (le_last h.sorted hl (h.few h3).1) hlt))
      · exact .inr (.inl ⟨le_antisymm h.len h3, fun e he => (le_last h.sorted hl he).trans hlt.le⟩)
    · exact .inl ⟨e, hem, h3, .inr h4⟩
  · have hpl := h1 l hl
    have hall : ∀ q ∈ c', q = p ∨ q ∈ c := fun q hq => List.mem_cons.1 (hp.mem_iff.1 hq)
    have hsplit : c' = c'.take 3 ++ c'.drop 3 := (List.take_append_drop 3 c').symm
    have hlen : c'.length = c.length + 1 := by rw [hp.length_eq]; rfl
    have hap : c'.Pairwise (fun a b => dist2 a t = dist2 b t → dist2 b t / 100 ≤ dist2 a b) := by
      refine (hp.pairwise_iff ?_).2 ?_
      · intro a b hab e; rw [dist2_symm b a, ← e]; exact hab e.symm
      · rw [List.pairwise_cons]
        exact ⟨fun e he hee => by rw [← hee]; exact h2 e he hee.symm, h.apart⟩
    have hcut : ∀ a ∈ c'.take 3, ∀ b ∈ c'.drop 3, dist2 a t ≤ dist2 b t := by
      intro a ha b hb
      rw [hsplit] at hs'
      exact (List.pairwise_append.1 hs').2.2 a ha b hb
    have hdrop : ∀ b ∈ c'.drop 3, (c'.take 3).length = 3 := by
      intro b hb
      have : 0 < (c'.drop 3).length := List.length_pos_of_mem hb
      rw [List.length_drop] at this
      rw [List.length_take]; omega
    have hrep : ∀ q, StandsFor t c' q → StandsFor t (c'.take 3) q ∨ ((c'.take 3).length = 3 ∧ ∀ e ∈ c'.take 3, dist2 e t ≤ dist2 q t) := by
      rintro q ⟨e, hem, h3, h4⟩
      rw [hsplit] at hem
      rcases List.mem_append.1 hem with hem | hem
      · exact .inl ⟨e, hem, h3, h4⟩
      · exact .inr ⟨hdrop e hem, fun x hx => by rw [← h3]; exact hcut x hx e hem⟩
    refine ⟨c'.take 3, he, ⟨?_, ?_, by simp, ?_, ?_, ?_⟩, ?_⟩
    · intro q hq
      rcases hall q (List.mem_of_mem_take hq) with rfl | hq
      · simp
      · simp [h.sub q hq]
    · exact hs'.sublist (List.take_sublist _ _)
    · exact hap.sublist (List.take_sublist _ _)
    · intro q hq
      rcases List.mem_append.1 hq with hq | hq
      · rcases h.rep q hq with ⟨e, hem, h3, h4⟩ | ⟨h3, h4⟩ | h3
        · rcases hrep q ⟨e, hp.mem_iff.2 (by simp [hem]), h3, h4⟩ with h5 | h5
          · exact .inl h5
          · exact .inr (.inl h5)
        · refine .inr (.inl ⟨by rw [List.length_take]; omega, ?_⟩)
          intro e hem
          rcases hall e (List.mem_of_mem_take hem) with rfl | hem
          · exact hpl.trans (h4 l hlm)
          · exact h4 e hem
        · exact .inr (.inr h3)
      · simp only [List.mem_singleton] at hq
        subst hq
        rcases hrep q ⟨q, hp.mem_iff.2 (by simp), rfl, .inl rfl⟩ with h5 | h5
        · exact .inl h5
        · exact .inr (.inl h5)
    · intro h3
      have h3' : c'.length < 3 := by rw [List.length_take] at h3; omega
      rw [List.take_of_length_le (by omega)]
      obtain ⟨h4, h5⟩ := h.few (by omega)
      refine ⟨hp.mem_iff.2 (by simp [h4]), ?_⟩
      intro e hem
      rcases hall e hem with rfl | hem
      · exact hpl.trans (h5 l hlm)
      · exact h5 e hem
    · intro h0
      have : c'.length = 0 ∨ 3 = 0 := by
        have := congrArg List.length h0
        rw [List.length_take] at this
        simp at this
        left
        rw [this]; rfl
      omega

theorem hinv_fold {t p0 : V2 ℝ} : ∀ (ps pre c : List (V2 ℝ)), HInv t p0 pre c → c ≠ [] →
    ∃ c', (ps.map V2.fin).foldl (closestStep 3 t.fin) (c.map (entry t)) = c'.map (entry t) ∧ HInv t p0 (pre ++ ps) c'
  | [], pre, c, h, _ => ⟨c, rfl, by simpa using h⟩
  | p :: ps, pre, c, h, hne => by
    obtain ⟨c', h1, h2, h3⟩ := hinv_step h hne p
    obtain ⟨c'', h4, h5⟩ := hinv_fold ps _ c' h2 h3
    exact ⟨c'', by rw [List.map_cons, List.foldl_cons, h1, h4], by simpa using h5⟩

/-- the search over the reals -/
theorem closest_inv (t p0 : V2 ℝ) (ps : List (V2 ℝ)) : ∃ c, closest ((p0 :: ps).map V2.fin) 3 t.fin = c.map V2.fin ∧ HInv t p0 (p0 :: ps) c := by
  have h0 : closestStep 3 t.fin [] p0.fin = [p0].map (entry t) := by
    rw [closestStep_eq 3 _ _ _ (by intro e he; cases he)]
    rw [if_neg (by simp), cDist_fin]; rfl
  have hi : HInv t p0 [p0] [p0] := by
    refine ⟨by simp, by simp, by simp, by simp, ?_, by simp⟩
    intro p hp
    simp only [List.mem_singleton] at hp
    subst hp
    exact .inl ⟨p, by simp, rfl, .inl rfl⟩
  obtain ⟨c, h1, h2⟩ := hinv_fold ps [p0] [p0] hi (by simp)
  refine ⟨c, ?_, by simpa using h2⟩
  unfold closest
  rw [if_neg (by norm_num)]
  rw [List.map_cons, List.foldl_cons]
  rw [show (3 : Int).toNat = 3 from rfl, h0, h1, List.map_map]
  rfl

/-- three points that represent three different ones are all three -/
theorem three_found {c : List (V2 ℝ)} (hlen : c.length ≤ 3) {x y z : V2 ℝ} (hx : x ∈ c) (hy : y ∈ c) (hz : z ∈ c) (hxy : x ≠ y) (hxz : x ≠ z) (hyz : y ≠ z) :
    c.Perm [x, y, z] := by
  have hs : [x, y, z].Subperm c := by
    refine List.subperm_of_subset (by simp [hxy, hxz, hyz]) ?_
    intro w hw
    simp only [List.mem_cons, List.not_mem_nil, or_false] at hw
    rcases hw with rfl | rfl | rfl <;> assumption
  exact (hs.perm_of_length_le (by simpa using hlen)).symm

/-- representatives of points far enough apart are different -/
theorem rep_ne {t a b x y : V2 ℝ} (ha : dist2 x t = dist2 a t ∧ (x = a ∨ dist2 a x < dist2 a t / 100)) (hb : dist2 y t = dist2 b t ∧ (y = b ∨ dist2 b y < dist2 b t / 100))
    (hne : a ≠ b) (h : dist2 a t = dist2 b t → dist2 a t ≤ 25 * dist2 a b) : x ≠ y := by
  rintro rfl
  have he : dist2 a t = dist2 b t := ha.1.symm.trans hb.1
  have h25 := h he
  have h1 : dist2 a x ≤ dist2 a t / 100 := by
    rcases ha.2 with rfl | h
    · have := dist2_nn x t
      rw [show dist2 x x = 0 by simp [dist2]]; positivity
    · exact h.le
  have h2 : dist2 b x ≤ dist2 a t / 100 := by
    rw [he]
    rcases hb.2 with rfl | h
    · have := dist2_nn x t
      rw [show dist2 x x = 0 by simp [dist2]]; positivity
    · exact h.le
  have hpar : dist2 a b ≤ 2 * dist2 a x + 2 * dist2 b x := by
    unfold dist2
    nlinarith [sq_nonneg ((a.x - x.x) + (b.x - x.x)), sq_nonneg ((a.y - x.y) + (b.y - x.y))]
  -- one of the two is strict
  have hs : dist2 a b < dist2 a t / 25 ∨ dist2 a t = 0 := by
    by_cases h0 : dist2 a t = 0
    · exact .inr h0
    left
    have hp : 0 < dist2 a t := lt_of_le_of_ne (dist2_nn a t) (Ne.symm h0)
    rcases ha.2 with rfl | h
    · rcases hb.2 with rfl | h'
      · exact absurd rfl hne
      · have e0 : dist2 x x = 0 := by simp [dist2]
        rw [← he] at h'
        rw [e0] at hpar
        nlinarith [hpar, h', hp]
    · nlinarith [hpar, h, h2, hp]
  rcases hs with hs | h0
  · linarith
  · have ha0 := dist2_eq_zero h0
    have hb0 := dist2_eq_zero (he.symm.trans h0)
    exact hne (ha0.trans hb0.symm)

/-- three different points of a circle are not on one line -/
theorem circle_noline {m x y z : V2 ℝ} {s : ℝ} (hx : dist2 x m = s) (hy : dist2 y m = s) (hz : dist2 z m = s) (hxy : x ≠ y) (hxz : x ≠ z) (hyz : y ≠ z)
    {c : List (V2 ℝ)} (hc : x ∈ c ∧ y ∈ c ∧ z ∈ c) : ¬ OnOneLine c := by
  rintro ⟨a, b, k, hab, h⟩
  have h1 := h x hc.1
  have h2 := h y hc.2.1
  have h3 := h z hc.2.2
  have hn : 0 < a ^ 2 + b ^ 2 := by
    rcases hab with h0 | h0
    · have := sq_nonneg b; have := pow_pos (abs_pos.2 h0) 2; rw [sq_abs] at this; linarith
    · have := sq_nonneg a; have := pow_pos (abs_pos.2 h0) 2; rw [sq_abs] at this; linarith
  -- along the line, a point is given by `b x - a y`
  have key : ∀ p q : V2 ℝ, a * p.x + b * p.y = k → a * q.x + b * q.y = k → dist2 p m = s → dist2 q m = s →
      (b * p.x - a * p.y - (b * q.x - a * q.y)) * ((b * p.x - a * p.y) + (b * q.x - a * q.y) - 2 * (b * m.x - a * m.y)) = 0 := by
    intro p q hp hq ep eq
    unfold dist2 at ep eq
    have e1 : (a ^ 2 + b ^ 2) * ((p.x - m.x) ^ 2 + (p.y - m.y) ^ 2) = (a * p.x + b * p.y - (a * m.x + b * m.y)) ^ 2 + (b * p.x - a * p.y - (b * m.x - a * m.y)) ^ 2 := by ring
    have e2 : (a ^ 2 + b ^ 2) * ((q.x - m.x) ^ 2 + (q.y - m.y) ^ 2) = (a * q.x + b * q.y - (a * m.x + b * m.y)) ^ 2 + (b * q.x - a * q.y - (b * m.x - a * m.y)) ^ 2 := by ring
    rw [ep, hp] at e1
    rw [eq, hq] at e2
    linear_combination e2 - e1
  have ne : ∀ p q : V2 ℝ, a * p.x + b * p.y = k → a * q.x + b * q.y = k → p ≠ q → b * p.x - a * p.y - (b * q.x - a * q.y) ≠ 0 := by
    intro p q hp hq hpq h0
    apply hpq
    have e1 : (a ^ 2 + b ^ 2) * (p.x - q.x) = 0 := by linear_combination a * (hp - hq) + b * h0
    have e2 : (a ^ 2 + b ^ 2) * (p.y - q.y) = 0 := by linear_combination b * (hp - hq) - a * h0
    ext
    · exact sub_eq_zero.1 ((mul_eq_zero.1 e1).resolve_left hn.ne')
    · exact sub_eq_zero.1 ((mul_eq_zero.1 e2).resolve_left hn.ne')
  have k1 := (mul_eq_zero.1 (key x y h1 h2 hx hy)).resolve_left (ne x y h1 h2 hxy)
  have k2 := (mul_eq_zero.1 (key x z h1 h3 hx hz)).resolve_left (ne x z h1 h3 hxz)
  exact ne y z h2 h3 hyz (by linarith)

/-- The circle found is the one on which the points nearest to `t` lie. -/
theorem locate_circle (q0 : V3 ℝ) (qs : List (V3 ℝ)) (t m : V2 ℝ) (R : ℝ) (hR : 0 < R) {a b c : V2 ℝ} (hmem : a ∈ flat (q0 :: qs) ∧ b ∈ flat (q0 :: qs) ∧ c ∈ flat (q0 :: qs))
    (hne : a ≠ b ∧ a ≠ c ∧ b ≠ c)
    (hsep : ∀ x ∈ [a, b, c], ∀ y ∈ [a, b, c], x ≠ y → dist2 x t = dist2 y t → dist2 x t ≤ 25 * dist2 x y)
    (hfirst : ∀ x ∈ [a, b, c], dist2 x t ≤ dist2 q0.xy t)
    (hclear : ∀ p ∈ flat (q0 :: qs), p ≠ t)
    (hnear : ∀ p ∈ flat (q0 :: qs), (∃ x ∈ [a, b, c], dist2 p t ≤ dist2 x t) → dist p m = R)
    (halone : ∀ p ∈ flat (q0 :: qs), R * (9 / 10) < dist p m → dist p m < R * (11 / 10) → dist p m = R) :
    locate ((q0 :: qs).map V3.fin) t.fin = some (m.fin, .fin R) := by
  obtain ⟨l, hl, hi⟩ := closest_inv t q0.xy (flat qs)
  have hflat : flat (q0 :: qs) = q0.xy :: flat qs := rfl
  rw [← hflat] at hl hi
  have hsq : ∀ p, dist p m = R → dist2 p m = R ^ 2 := by
    intro p hp; rw [← hp, dist, Real.sq_sqrt (dist2_nn _ _)]
  -- three different points have been found, all on the circle
  obtain ⟨x, y, z, hp, hxy, hxz, hyz, hcirc⟩ : ∃ x y z, l.Perm [x, y, z] ∧ x ≠ y ∧ x ≠ z ∧ y ≠ z ∧ ∀ p ∈ l, dist p m = R := by
    by_cases hcase : l.length = 3 ∧ ∃ w ∈ [a, b, c], ∀ e ∈ l, dist2 e t ≤ dist2 w t
    · obtain ⟨h3, w, hw, hle⟩ := hcase
      match l, h3, hi, hle with
      | [x, y, z], _, hi, hle =>
        have hd : ∀ p ∈ flat (q0 :: qs), ∀ q, p = q → dist2 p t = dist2 q t → dist2 q t / 100 ≤ dist2 p q → False := by
          rintro p hp q rfl - h
          rw [show dist2 p p = 0 by simp [dist2]] at h
          have h0 : dist2 p t = 0 := le_antisymm (by linarith) (dist2_nn p t)
          exact hclear p hp (dist2_eq_zero h0)
        have hap := hi.apart
        simp only [List.pairwise_cons, List.mem_cons, List.not_mem_nil, or_false, forall_eq_or_imp, forall_eq] at hap
        obtain ⟨⟨a1, a2⟩, a3, -⟩ := hap
        refine ⟨x, y, z, .refl _, ?_, ?_, ?_, ?_⟩
        · intro e; exact hd x (hi.sub x (by simp)) y e (by rw [e]) (a1 (by rw [e]))
        · intro e; exact hd x (hi.sub x (by simp)) z e (by rw [e]) (a2 (by rw [e]))
        · intro e; exact hd y (hi.sub y (by simp)) z e (by rw [e]) (a3 (by rw [e]))
        · intro p hp
          exact hnear p (hi.sub p hp) ⟨w, hw, hle p hp⟩
    · have hrep : ∀ w ∈ [a, b, c], StandsFor t l w := by
        intro w hw
        have hwm : w ∈ flat (q0 :: qs) := by
          simp only [List.mem_cons, List.not_mem_nil, or_false] at hw
          rcases hw with rfl | rfl | rfl
          · exact hmem.1
          · exact hmem.2.1
          · exact hmem.2.2
        rcases hi.rep w hwm with h | h | h
        · exact h
        · exact absurd ⟨h.1, w, hw, h.2⟩ hcase
        · exact absurd (hfirst w hw) (not_le.2 h)
      obtain ⟨x, hx, rx⟩ := hrep a (by simp)
      obtain ⟨y, hy, ry⟩ := hrep b (by simp)
      obtain ⟨z, hz, rz⟩ := hrep c (by simp)
      have hxy := rep_ne rx ry hne.1 (hsep a (by simp) b (by simp) hne.1)
      have hxz := rep_ne rx rz hne.2.1 (hsep a (by simp) c (by simp) hne.2.1)
      have hyz := rep_ne ry rz hne.2.2 (hsep b (by simp) c (by simp) hne.2.2)
      have hp := three_found hi.len hx hy hz hxy hxz hyz
      refine ⟨x, y, z, hp, hxy, hxz, hyz, ?_⟩
      intro p hpl
      have hp' := hp.mem_iff.1 hpl
      simp only [List.mem_cons, List.not_mem_nil, or_false] at hp'
      rcases hp' with rfl | rfl | rfl
      · exact hnear _ (hi.sub _ hpl) ⟨a, by simp, rx.1.le⟩
      · exact hnear _ (hi.sub _ hpl) ⟨b, by simp, ry.1.le⟩
      · exact hnear _ (hi.sub _ hpl) ⟨c, by simp, rz.1.le⟩
  have hin : x ∈ l ∧ y ∈ l ∧ z ∈ l := ⟨hp.mem_iff.2 (by simp), hp.mem_iff.2 (by simp), hp.mem_iff.2 (by simp)⟩
  have hnl : ∀ c, (x ∈ c ∧ y ∈ c ∧ z ∈ c) → ¬ OnOneLine c := fun c hc =>
    circle_noline (hsq x (hcirc x hin.1)) (hsq y (hcirc y hin.2.1)) (hsq z (hcirc z hin.2.2)) hxy hxz hyz hc
  have hfc := C11_exact l m R hcirc (hnl l hin)
  unfold locate
  have e1 : ((q0 :: qs).map V3.fin).map V3.xy = (flat (q0 :: qs)).map V2.fin := by
    unfold flat; rw [List.map_map, List.map_map]; rfl
  simp only [e1]
  rw [hl, hfc]
  have e2 : ((Ext.fin R : Ext ℝ) * (FP.lit 1 - FP.lit (1 / 10))) = Ext.fin (R * (9 / 10)) := by
    simp only [Ext.lit_eq, Ext.fin_sub, Ext.fin_mul, Ext.fin_inj]; push_cast; ring
  have e3 : ((Ext.fin R : Ext ℝ) * (FP.lit 1 + FP.lit (1 / 10))) = Ext.fin (R * (11 / 10)) := by
    simp only [Ext.lit_eq, Ext.fin_add, Ext.fin_mul, Ext.fin_inj]; push_cast; ring
  dsimp only
  rw [e2, e3, C10_between _ _ _ (by positivity)]
  apply C11_exact
  · intro p hp
    rw [List.mem_filter, decide_eq_true_eq] at hp
    exact halone p hp.1 hp.2.1 hp.2.2
  · apply hnl
    have : ∀ p ∈ l, p ∈ (flat (q0 :: qs)).filter (fun p => decide (R * (9 / 10) < dist p m ∧ dist p m < R * (11 / 10))) := by
      intro p hp
      rw [List.mem_filter, decide_eq_true_eq, hcirc p hp]
      exact ⟨hi.sub p hp, by linarith, by linarith⟩
    exact ⟨this x hin.1, this y hin.2.1, this z hin.2.2⟩

end S2P
