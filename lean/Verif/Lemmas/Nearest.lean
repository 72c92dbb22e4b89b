import Verif.Lemmas.Ext
import Verif.Lemmas.Order
import Verif.Spec.Circle
import Verif.Model.Ast

set_option linter.unusedSectionVars false
set_option linter.unusedVariables false
set_option linter.unusedSimpArgs false

namespace S2P

/-! ## near -/

section
variable {α : Type} [FP α]

/-- the distance the search computes -/
def nearDist (t q : V3 α) : α := (t - ⟨q.x, q.y, FP.lit 0⟩).sqNorm

theorem nearLoop_cons (t x : V3 α) (xs : List (V3 α)) (r : α) (ret : V3 α) :
    nearLoop t (x :: xs) r ret =
      if FP.lt (nearDist t x) r then nearLoop t xs (nearDist t x) ⟨x.x, x.y, FP.lit 0⟩ else nearLoop t xs r ret := rfl

theorem nearLoop_spec [FPOrd α] (t : V3 α) : ∀ (ps : List (V3 α)) (r : α) (ret : V3 α), (∀ q ∈ ps, FP.Ok (nearDist t q)) →
    (nearLoop t ps r ret = ret ∧ ∀ q ∈ ps, FP.lt (nearDist t q) r = false) ∨
    ∃ q ∈ ps, nearLoop t ps r ret = ⟨q.x, q.y, FP.lit 0⟩ ∧ FP.lt (nearDist t q) r = true ∧
      ∀ q' ∈ ps, FP.lt (nearDist t q') (nearDist t q) = false
  | [], r, ret, _ => by left; simp [nearLoop]
  | x :: xs, r, ret, hok => by
    rw [nearLoop_cons]
    have hx := hok x (by simp)
    by_cases h : FP.lt (nearDist t x) r = true
    · rw [if_pos h]
      rcases nearLoop_spec t xs (nearDist t x) ⟨x.x, x.y, FP.lit 0⟩ (fun q hq => hok q (by simp [hq])) with ⟨h1, h2⟩ | ⟨q, hq, h1, h2, h3⟩
      · right
        refine ⟨x, by simp, h1, h, ?_⟩
        intro q' hq'
        rcases List.mem_cons.mp hq' with rfl | hq'
        · exact FPOrd.lt_irrefl _
        · exact h2 q' hq'
      · right
        refine ⟨q, by simp [hq], h1, FPOrd.lt_trans _ _ _ h2 h, ?_⟩
        intro q' hq'
        rcases List.mem_cons.mp hq' with rfl | hq'
        · exact FP.lt_asymm h2
        · exact h3 q' hq'
    · rw [if_neg h]
      have h' : FP.lt (nearDist t x) r = false := by simpa using h
      rcases nearLoop_spec t xs r ret (fun q hq => hok q (by simp [hq])) with ⟨h1, h2⟩ | ⟨q, hq, h1, h2, h3⟩
      · left
        refine ⟨h1, ?_⟩
        intro q' hq'
        rcases List.mem_cons.mp hq' with rfl | hq'
        · exact h'
        · exact h2 q' hq'
      · right
        refine ⟨q, by simp [hq], h1, h2, ?_⟩
        intro q' hq'
        rcases List.mem_cons.mp hq' with rfl | hq'
        · cases hc : FP.lt (nearDist t q') (nearDist t q) with
          | false => rfl
          | true => rw [FPOrd.lt_trans _ _ _ hc h2] at h'; cases h'
        · exact h3 q' hq'

theorem near_unfold (junk : Nat → V3 α) (ps : List (V3 α)) (arg : Pt α) (line : Nat) (ret t : V3 α) (ds : List Diag)
    (hne : ps ≠ []) (h : arg.invoke (fun n => junk (n + 1)) ps (junk 0) = (true, t, ds)) :
    (Pt.func c!"near" arg line).invoke junk ps ret =
      (true, if setMem ps t then t else nearLoop ⟨t.x, t.y, FP.lit 0⟩ ps FP.dblMax ret, ds) := by
  have hb : ps.isEmpty = false := by cases ps <;> simp_all
  simp only [Pt.invoke, if_true, hb, Bool.false_eq_true, if_false, h]
  split_ifs <;> rfl

end

section
variable {K : Type} [Field K] [LinearOrder K] [IsStrictOrderedRing K] [FloorRing K] [Trans K]

theorem V3.eqv_fin (a b : V3 K) : V3.eqv a.fin b.fin = decide (a = b) := by
  simp only [V3.eqv, V3.fin_x, V3.fin_y, V3.fin_z, Ext.fin_eq]
  rw [Bool.eq_iff_iff]
  simp [V3.ext_iff, and_assoc]

theorem setMem_fin (qs : List (V3 K)) (t : V3 K) : setMem (qs.map V3.fin) t.fin = true ↔ t ∈ qs := by
  unfold setMem
  rw [List.any_eq_true]
  constructor
  · rintro ⟨x, hx, h⟩
    obtain ⟨q, hq, rfl⟩ := List.mem_map.mp hx
    have := (order_tie q.fin t.fin (V3.ok_fin _) (V3.ok_fin _)).mp (by simpa using h)
    rw [V3.eqv_fin] at this
    rwa [← of_decide_eq_true this]
  · intro h
    refine ⟨t.fin, List.mem_map.mpr ⟨t, h, rfl⟩, ?_⟩
    have := order_strictWeak.irrefl t.fin (V3.ok_fin t)
    simp [this]

theorem nearDist_fin (t q : V3 K) : nearDist (⟨Ext.fin t.x, Ext.fin t.y, FP.lit 0⟩ : V3 (Ext K)) q.fin = Ext.fin (pageDist2 q t) := by
  simp only [nearDist, V3.sqNorm, V3.dot, V3.sub_x, V3.sub_y, V3.sub_z, V3.fin_x, V3.fin_y, Ext.lit_eq, Ext.fin_sub, Ext.fin_mul,
    Ext.fin_add, Ext.fin_inj, pageDist2]
  push_cast; ring
end

/-! ## closest -/

section
variable {α : Type} [FP α]

/-- the distance the search computes -/
def cDist (tgt p : V2 α) : α := (p - tgt).sqNorm

/-- near-duplicate: at the same distance from the target and within a tenth of it from each other (`d` squared distances) -/
def nearDup (tgt p e : V2 α) : Bool :=
  !FP.lt (cDist tgt e) (cDist tgt p) && !FP.lt (cDist tgt p) (cDist tgt e) && FP.lt (p - e).sqNorm (cDist tgt p * FP.lit (1 / 100))

theorem mmInsert_perm {β : Type} (d : α) (v : β) : ∀ c : List (α × β), (mmInsert d v c).Perm ((d, v) :: c)
  | [] => List.Perm.refl _
  | e :: es => by
    unfold mmInsert
    split_ifs with h
    · exact List.Perm.refl _
    · exact ((mmInsert_perm d v es).cons e).trans (List.Perm.swap _ _ _)

theorem mmInsert_sorted {β : Type} [FPOrd α] (d : α) (v : β) (hd : FP.Ok d) : ∀ c : List (α × β), (∀ e ∈ c, FP.Ok e.1) →
    c.Pairwise (fun a b => FP.lt b.1 a.1 = false) → (mmInsert d v c).Pairwise (fun a b => FP.lt b.1 a.1 = false)
  | [], _, _ => by simp [mmInsert]
  | e :: es, hok, hs => by
    unfold mmInsert
    rw [List.pairwise_cons] at hs
    split_ifs with h
    · rw [List.pairwise_cons]
      refine ⟨?_, List.pairwise_cons.mpr hs⟩
      intro b hb
      rcases List.mem_cons.mp hb with rfl | hb
      · exact FP.lt_asymm h
      · cases hc : FP.lt b.1 d with
        | false => rfl
        | true =>
          have := FPOrd.lt_trans _ _ _ hc h
          rw [hs.1 b hb] at this; cases this
    · rw [List.pairwise_cons]
      refine ⟨?_, mmInsert_sorted d v hd es (fun x hx => hok x (by simp [hx])) hs.2⟩
      intro b hb
      have := (mmInsert_perm d v es).mem_iff.mp hb
      rcases List.mem_cons.mp this with rfl | hb
      · simpa using h
      · exact hs.1 b hb

/-- state of the search: entries carry their distance -/
def Keyed (tgt : V2 α) (c : List (α × V2 α)) : Prop := ∀ e ∈ c, e.1 = cDist tgt e.2

theorem closestStep_eq (count : Nat) (tgt : V2 α) (c : List (α × V2 α)) (p : V2 α) (hk : Keyed tgt c) :
    closestStep count tgt c p =
      if (∃ e, c.getLast? = some e ∧ FP.lt e.1 (cDist tgt p) = true) ∨ (∃ e ∈ c, nearDup tgt p e.2 = true) then c
      else (mmInsert (cDist tgt p) p c).take count := by
  have key : ∀ L : Option (α × V2 α), (match L with | none => false | some e => FP.lt e.1 (cDist tgt p)) = true ↔
      ∃ e, L = some e ∧ FP.lt e.1 (cDist tgt p) = true := by
    intro L; cases L <;> simp
  have key2 : (c.filter (fun e => !FP.lt e.1 (cDist tgt p) && !FP.lt (cDist tgt p) e.1)).any
        (fun e => FP.lt (p - e.2).sqNorm (cDist tgt p * FP.lit (1 / 100))) = true ↔ ∃ e ∈ c, nearDup tgt p e.2 = true := by
    rw [List.any_eq_true]
    constructor
    · rintro ⟨e, he, h⟩
      rw [List.mem_filter] at he
      refine ⟨e, he.1, ?_⟩
      unfold nearDup
      rw [← hk e he.1, he.2, h]; rfl
    · rintro ⟨e, he, h⟩
      unfold nearDup at h
      rw [← hk e he] at h
      rw [Bool.and_eq_true] at h
      exact ⟨e, List.mem_filter.mpr ⟨he, h.1⟩, h.2⟩
  have e0 : closestStep count tgt c p =
      if (match c.getLast? with | none => false | some e => FP.lt e.1 (cDist tgt p)) = true then c
      else if (c.filter (fun e => !FP.lt e.1 (cDist tgt p) && !FP.lt (cDist tgt p) e.1)).any
        (fun e => FP.lt (p - e.2).sqNorm (cDist tgt p * FP.lit (1 / 100))) = true then c
      else (mmInsert (cDist tgt p) p c).take count := rfl
  rw [e0]
  by_cases h1 : ∃ e, c.getLast? = some e ∧ FP.lt e.1 (cDist tgt p) = true
  · rw [if_pos ((key _).mpr h1), if_pos (Or.inl h1)]
  · rw [if_neg (fun h => h1 ((key _).mp h))]
    by_cases h2 : ∃ e ∈ c, nearDup tgt p e.2 = true
    · rw [if_pos (key2.mpr h2), if_pos (Or.inr h2)]
    · rw [if_neg (fun h => h2 (key2.mp h)), if_neg (by rintro (h | h); exact h1 h; exact h2 h)]

/-- what holds of the entries kept after the points `pre` were offered -/
structure CInv (count : Nat) (tgt : V2 α) (pre : List (V2 α)) (c : List (α × V2 α)) : Prop where
  keyed : Keyed tgt c
  sorted : c.Pairwise (fun a b => FP.lt b.1 a.1 = false)
  len : c.length ≤ count
  sub : (c.map (·.2)).Subperm pre
  some : pre ≠ [] → c ≠ []
  omitted : ∀ p ∈ pre, p ∈ c.map (·.2) ∨ (∀ e ∈ c, FP.lt (cDist tgt p) e.1 = false) ∨ ∃ e ∈ c, nearDup tgt p e.2 = true

theorem FP.not_lt_trans [FPOrd α] {x y z : α} (hy : FP.Ok y) (h1 : FP.lt y x = false) (h2 : FP.lt z y = false) : FP.lt z x = false := by
  cases h : FP.lt z x with
  | false => rfl
  | true =>
    rcases FPOrd.lt_cotrans _ y _ hy h with h' | h'
    · rw [h2] at h'; cases h'
    · rw [h1] at h'; cases h'

theorem CInv.le_last [FPOrd α] {count : Nat} {tgt : V2 α} {pre : List (V2 α)} {c : List (α × V2 α)} (h : CInv count tgt pre c)
    {l e : α × V2 α} (hl : c.getLast? = Option.some l) (he : e ∈ c) : FP.lt l.1 e.1 = false := by
  obtain ⟨ys, rfl⟩ := List.getLast?_eq_some_iff.mp hl
  rcases List.mem_append.mp he with h1 | h1
  · exact (List.pairwise_append.mp h.sorted).2.2 e h1 l (by simp)
  · simp at h1; subst h1; exact FPOrd.lt_irrefl _

theorem cinv_step [FPOrd α] (count : Nat) (hc : 1 ≤ count) (tgt : V2 α) (pre : List (V2 α)) (c : List (α × V2 α)) (p : V2 α)
    (hok : ∀ q ∈ pre ++ [p], FP.Ok (cDist tgt q)) (h : CInv count tgt pre c) :
    CInv count tgt (pre ++ [p]) (closestStep count tgt c p) := by
  have hokc : ∀ e ∈ c, FP.Ok e.1 := by
    intro e he
    rw [h.keyed e he]
    exact hok _ (List.mem_append_left _ (h.sub.subset (List.mem_map.mpr ⟨e, he, rfl⟩)))
  have hp := hok p (by simp)
  rw [closestStep_eq count tgt c p h.keyed]
  by_cases hcond : (∃ e, c.getLast? = some e ∧ FP.lt e.1 (cDist tgt p) = true) ∨ (∃ e ∈ c, nearDup tgt p e.2 = true)
  · rw [if_pos hcond]
    refine ⟨h.keyed, h.sorted, h.len, h.sub.trans (List.sublist_append_left _ _).subperm, ?_, ?_⟩
    · intro _ hnil
      subst hnil
      rcases hcond with ⟨e, h1, _⟩ | ⟨e, h1, _⟩ <;> simp at h1
    · intro q hq
      rcases List.mem_append.mp hq with hq | hq
      · exact h.omitted q hq
      · simp at hq; subst hq
        rcases hcond with ⟨l, hl, hlt⟩ | hnd
        · right; left
          intro e he
          have := h.le_last hl he
          cases hx : FP.lt (cDist tgt q) e.1 with
          | false => rfl
          | true => rw [FPOrd.lt_trans _ _ _ hlt hx] at this; cases this
        · exact Or.inr (Or.inr hnd)
  · rw [if_neg hcond]
    push Not at hcond
    obtain ⟨hfar, hdup⟩ := hcond
    have hperm := mmInsert_perm (cDist tgt p) p c
    have hmem : ∀ e, e ∈ mmInsert (cDist tgt p) p c ↔ e = (cDist tgt p, p) ∨ e ∈ c := by
      intro e; rw [hperm.mem_iff, List.mem_cons]
    have hkey : Keyed tgt (mmInsert (cDist tgt p) p c) := by
      intro e he
      rcases (hmem e).mp he with rfl | he
      · rfl
      · exact h.keyed e he
    have hsort := mmInsert_sorted (cDist tgt p) p hp c hokc h.sorted
    have hok' : ∀ e ∈ mmInsert (cDist tgt p) p c, FP.Ok e.1 := by
      intro e he
      rcases (hmem e).mp he with rfl | he
      · exact hp
      · exact hokc e he
    -- an entry is kept or is not below any kept one
    have hkeep : ∀ e ∈ mmInsert (cDist tgt p) p c, e ∈ (mmInsert (cDist tgt p) p c).take count ∨
        ∀ k ∈ (mmInsert (cDist tgt p) p c).take count, FP.lt e.1 k.1 = false := by
      intro e he
      have he' := he
      rw [← List.take_append_drop count (mmInsert (cDist tgt p) p c)] at he' hsort
      rcases List.mem_append.mp he' with h1 | h1
      · exact Or.inl h1
      · right
        intro k hk
        exact (List.pairwise_append.mp hsort).2.2 k hk e h1
    refine ⟨fun e he => hkey e (List.mem_of_mem_take he), hsort.sublist (List.take_sublist _ _), ?_, ?_, ?_, ?_⟩
    · rw [List.length_take]; omega
    · refine ((List.take_sublist count _).map (fun e : α × V2 α => e.2)).subperm.trans ?_
      refine (hperm.map (fun e : α × V2 α => e.2)).subperm.trans ?_
      simp only [List.map_cons]
      refine List.Subperm.trans ((List.subperm_cons p).mpr h.sub) ?_
      exact (List.perm_append_singleton p pre).symm.subperm
    · intro _ hnil
      have : (mmInsert (cDist tgt p) p c).length = c.length + 1 := by rw [hperm.length_eq]; simp
      rw [List.take_eq_nil_iff] at hnil
      rcases hnil with h0 | h0
      · omega
      · rw [h0] at this; simp at this
    · intro q hq
      have base : ∀ e ∈ mmInsert (cDist tgt p) p c, ∀ (hd : FP.lt (cDist tgt q) e.1 = false),
          (e ∈ (mmInsert (cDist tgt p) p c).take count ∨
            ∀ k ∈ (mmInsert (cDist tgt p) p c).take count, FP.lt (cDist tgt q) k.1 = false) := by
        intro e he hd
        rcases hkeep e he with h1 | h1
        · exact Or.inl h1
        · right
          intro k hk
          exact FP.not_lt_trans (hok' e he) (h1 k hk) hd
      rcases List.mem_append.mp hq with hq | hq
      · rcases h.omitted q hq with h1 | h1 | ⟨e, he, h1⟩
        · obtain ⟨e, he, rfl⟩ := List.mem_map.mp h1
          rcases base e ((hmem e).mpr (Or.inr he)) (by rw [h.keyed e he]; exact FPOrd.lt_irrefl _) with h2 | h2
          · exact Or.inl (List.mem_map.mpr ⟨e, h2, rfl⟩)
          · exact Or.inr (Or.inl h2)
        · right; left
          intro k hk
          rcases (hmem k).mp (List.mem_of_mem_take hk) with rfl | hk'
          · have hne : c ≠ [] := h.some (by rintro rfl; cases hq)
            obtain ⟨l, hl⟩ := Option.ne_none_iff_exists'.mp (mt List.getLast?_eq_none_iff.mp hne)
            have hfl := hfar l hl
            have hlc : l ∈ c := List.mem_of_getLast? hl
            exact FP.not_lt_trans (hokc l hlc) (by simpa using hfl) (h1 l hlc)
          · exact h1 k hk'
        · have hq1 : FP.lt (cDist tgt q) (cDist tgt e.2) = false := by
            unfold nearDup at h1; simp at h1; exact h1.1.2
          rcases base e ((hmem e).mpr (Or.inr he)) (by rw [h.keyed e he]; exact hq1) with h2 | h2
          · exact Or.inr (Or.inr ⟨e, h2, h1⟩)
          · exact Or.inr (Or.inl h2)
      · simp at hq; subst hq
        rcases base _ ((hmem _).mpr (Or.inl rfl)) (FPOrd.lt_irrefl _) with h2 | h2
        · exact Or.inl (List.mem_map.mpr ⟨_, h2, rfl⟩)
        · exact Or.inr (Or.inl h2)

theorem cinv_fold [FPOrd α] (count : Nat) (hc : 1 ≤ count) (tgt : V2 α) : ∀ (rest pre : List (V2 α)) (c : List (α × V2 α)),
    (∀ q ∈ pre ++ rest, FP.Ok (cDist tgt q)) → CInv count tgt pre c →
    CInv count tgt (pre ++ rest) (rest.foldl (closestStep count tgt) c)
  | [], pre, c, _, h => by simpa using h
  | p :: rest, pre, c, hok, h => by
    have := cinv_fold count hc tgt rest (pre ++ [p]) (closestStep count tgt c p) (by simpa using hok)
      (cinv_step count hc tgt pre c p (fun q hq => hok q (by
        rcases List.mem_append.mp hq with h1 | h1
        · simp [h1]
        · simp at h1; simp [h1])) h)
    simpa using this

theorem cinv_closest [FPOrd α] (count : Nat) (hc : 1 ≤ count) (tgt : V2 α) (ps : List (V2 α))
    (hok : ∀ q ∈ ps, FP.Ok (cDist tgt q)) : CInv count tgt ps (ps.foldl (closestStep count tgt) []) := by
  have := cinv_fold count hc tgt ps [] [] (by simpa using hok)
    ⟨fun e he => by simp at he, by simp, by simp, by simp, by simp, fun p hp => by simp at hp⟩
  simpa using this

/-! how many are returned -/

structure NInv (count : Nat) (tgt p0 : V2 α) (pre : List (V2 α)) (c : List (α × V2 α)) : Prop where
  len : c.length = min count (pre.countP (fun p => !FP.lt (cDist tgt p0) (cDist tgt p)))
  le : ∀ e ∈ c, FP.lt (cDist tgt p0) e.1 = false
  first : c.length < count → p0 ∈ c.map (·.2)

theorem ninv_step [FPOrd α] (count : Nat) (hc : 1 ≤ count) (tgt p0 : V2 α) (pre : List (V2 α)) (c : List (α × V2 α)) (p : V2 α)
    (hok : ∀ q ∈ pre ++ [p], FP.Ok (cDist tgt q)) (h0 : p0 ∈ pre) (hnd : ∀ q ∈ pre, nearDup tgt p q = false)
    (h : CInv count tgt pre c) (n : NInv count tgt p0 pre c) :
    NInv count tgt p0 (pre ++ [p]) (closestStep count tgt c p) := by
  have hokc : ∀ e ∈ c, FP.Ok e.1 := by
    intro e he
    rw [h.keyed e he]
    exact hok _ (List.mem_append_left _ (h.sub.subset (List.mem_map.mpr ⟨e, he, rfl⟩)))
  have hp := hok p (by simp)
  have hp0 := hok p0 (List.mem_append_left _ h0)
  have hne : c ≠ [] := h.some (by rintro rfl; cases h0)
  obtain ⟨l, hl⟩ := Option.ne_none_iff_exists'.mp (mt List.getLast?_eq_none_iff.mp hne)
  have hlc : l ∈ c := List.mem_of_getLast? hl
  have hnodup : ¬ ∃ e ∈ c, nearDup tgt p e.2 = true := by
    rintro ⟨e, he, h1⟩
    have := hnd e.2 (h.sub.subset (List.mem_map.mpr ⟨e, he, rfl⟩))
    rw [h1] at this; cases this
  have hcnt : (pre ++ [p]).countP (fun p => !FP.lt (cDist tgt p0) (cDist tgt p)) =
      pre.countP (fun p => !FP.lt (cDist tgt p0) (cDist tgt p)) + if FP.lt (cDist tgt p0) (cDist tgt p) = true then 0 else 1 := by
    rw [List.countP_append]
    congr 1
    simp [List.countP_cons]
    by_cases hx : FP.lt (cDist tgt p0) (cDist tgt p) = true <;> simp [hx]
  have hlen := h.len
  have hperm := mmInsert_perm (cDist tgt p) p c
  have hplen : (mmInsert (cDist tgt p) p c).length = c.length + 1 := by rw [hperm.length_eq]; simp
  rw [closestStep_eq count tgt c p h.keyed]
  by_cases hfar : FP.lt l.1 (cDist tgt p) = true
  · rw [if_pos (Or.inl ⟨l, hl, hfar⟩)]
    refine ⟨?_, n.le, n.first⟩
    rw [hcnt]
    by_cases hx : FP.lt (cDist tgt p0) (cDist tgt p) = true
    · rw [if_pos hx]; simpa using n.len
    · rw [if_neg hx]
      have hfull : ¬ c.length < count := by
        intro hlt
        obtain ⟨e, he, hep⟩ := List.mem_map.mp (n.first hlt)
        have h1 : FP.lt l.1 (cDist tgt p0) = false := by
          have := h.le_last hl he
          rwa [h.keyed e he, hep] at this
        rcases FPOrd.lt_cotrans _ _ _ hp0 hfar with h2 | h2
        · rw [h1] at h2; cases h2
        · exact hx h2
      have := n.len
      omega
  · rw [if_neg (by
      rintro (⟨e, he, h1⟩ | h1)
      · rw [hl] at he; cases he; exact hfar h1
      · exact hnodup h1)]
    have hx : FP.lt (cDist tgt p0) (cDist tgt p) = false := by
      cases hx : FP.lt (cDist tgt p0) (cDist tgt p) with
      | false => rfl
      | true =>
        rcases FPOrd.lt_cotrans _ _ _ (hokc l hlc) hx with h2 | h2
        · rw [n.le l hlc] at h2; cases h2
        · exact absurd h2 hfar
    refine ⟨?_, ?_, ?_⟩
    · rw [hcnt, List.length_take, hplen, hx]
      have := n.len
      simp only [Bool.false_eq_true, if_false]
      omega
    · intro e he
      rcases List.mem_cons.mp (hperm.mem_iff.mp (List.mem_of_mem_take he)) with rfl | he
      · exact hx
      · exact n.le e he
    · intro hlt
      rw [List.length_take, hplen] at hlt
      rw [List.take_of_length_le (by omega), (hperm.map (·.2)).mem_iff]
      simp only [List.map_cons, List.mem_cons]
      exact Or.inr (n.first (by omega))

theorem ninv_fold [FPOrd α] (count : Nat) (hc : 1 ≤ count) (tgt p0 : V2 α) : ∀ (rest pre : List (V2 α)) (c : List (α × V2 α)),
    (∀ q ∈ pre ++ rest, FP.Ok (cDist tgt q)) → p0 ∈ pre →
    (pre ++ rest).Pairwise (fun a b => nearDup tgt b a = false) → CInv count tgt pre c → NInv count tgt p0 pre c →
    NInv count tgt p0 (pre ++ rest) (rest.foldl (closestStep count tgt) c)
  | [], pre, c, _, _, _, _, n => by simpa using n
  | p :: rest, pre, c, hok, h0, hnd, h, n => by
    have hok' : ∀ q ∈ pre ++ [p], FP.Ok (cDist tgt q) := fun q hq => hok q (by
        rcases List.mem_append.mp hq with h1 | h1
        · simp [h1]
        · simp at h1; simp [h1])
    have := ninv_fold count hc tgt p0 rest (pre ++ [p]) (closestStep count tgt c p) (by simpa using hok) (by simp [h0])
      (by simpa using hnd)
      (cinv_step count hc tgt pre c p hok' h)
      (ninv_step count hc tgt p0 pre c p hok' h0
        (fun q hq => (List.pairwise_append.mp hnd).2.2 q hq p (by simp)) h n)
    simpa using this

theorem closestStep_first [FPOrd α] (count : Nat) (hc : 1 ≤ count) (tgt p0 : V2 α) :
    closestStep count tgt [] p0 = [(cDist tgt p0, p0)] := by
  rw [closestStep_eq _ _ _ _ (fun e he => by simp at he)]
  simp [mmInsert]
  omega

theorem ninv_closest [FPOrd α] (count : Nat) (hc : 1 ≤ count) (tgt p0 : V2 α) (ps : List (V2 α))
    (hok : ∀ q ∈ p0 :: ps, FP.Ok (cDist tgt q)) (hnd : (p0 :: ps).Pairwise (fun a b => nearDup tgt b a = false)) :
    NInv count tgt p0 (p0 :: ps) ((p0 :: ps).foldl (closestStep count tgt) []) := by
  have e1 := closestStep_first count hc tgt p0
  have hc1 : CInv count tgt [p0] (closestStep count tgt [] p0) := by
    have := cinv_closest count hc tgt [p0] (fun q hq => hok q (by simp at hq; simp [hq]))
    simpa using this
  refine ninv_fold count hc tgt p0 ps [p0] _ (by simpa using hok) (by simp) (by simpa using hnd) hc1 ?_
  rw [e1]
  refine ⟨?_, ?_, ?_⟩
  · simp [FPOrd.lt_irrefl]; omega
  · intro e he; simp at he; subst he; exact FPOrd.lt_irrefl _
  · intro _; simp

end
end S2P
