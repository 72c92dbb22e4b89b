import Verif.Spec.Round
import Verif.Lemmas.ToLines

set_option linter.unusedSectionVars false
set_option linter.unusedVariables false
set_option linter.unusedSimpArgs false

/-! # Hidden-line removal in rounded arithmetic: no failed CHECK, bounded lines -/

namespace S2P
variable {α : Type} [FP α] [FPRound α]

/-- every coordinate is a number of size at most 2^n -/
def V3.Bd (n : Nat) (v : V3 α) : Prop := FP.Bd n v.x ∧ FP.Bd n v.y ∧ FP.Bd n v.z
def V2.Bd (n : Nat) (v : V2 α) : Prop := FP.Bd n v.x ∧ FP.Bd n v.y
def Edge.Bd (n : Nat) (e : Edge α) : Prop := V3.Bd n e.1 ∧ V3.Bd n e.2
def Line.Bd (n : Nat) (l : Line α) : Prop := V2.Bd n l.o ∧ V2.Bd n l.t

/-! ## Sizes -/

theorem FP.Bd.ok {n : Nat} {x : α} (h : FP.Bd n x) : FP.Ok x := (FPOrd.ok_of_le _ _ h.1).2

theorem FP.le_tr {x y z : α} (h1 : FP.le x y = true) (h2 : FP.le y z = true) : FP.le x z = true := by
  obtain ⟨ox, oy⟩ := FPOrd.ok_of_le _ _ h1
  obtain ⟨-, oz⟩ := FPOrd.ok_of_le _ _ h2
  rw [FPOrd.le_iff _ _ ox oz]
  by_contra hc
  rw [Bool.not_eq_false] at hc
  rcases FPOrd.lt_cotrans z y x oy hc with h | h
  · rw [(FPOrd.le_iff _ _ oy oz).mp h2] at h; cases h
  · rw [(FPOrd.le_iff _ _ ox oy).mp h1] at h; cases h

theorem FP.Bd.mono {n m : Nat} {x : α} (hnm : n ≤ m) (h : FP.Bd n x) : FP.Bd m x := by
  have hq : (2 : Rat) ^ n ≤ 2 ^ m := pow_le_pow_right₀ (by norm_num) hnm
  exact ⟨FP.le_tr (FPRound.lit_mono _ _ (by linarith)) h.1, FP.le_tr h.2 (FPRound.lit_mono _ _ hq)⟩

theorem FP.bd_lit (n : Nat) (q : Rat) (h1 : -(2 ^ n) ≤ q) (h2 : q ≤ 2 ^ n) : FP.Bd n (FP.lit q : α) :=
  ⟨FPRound.lit_mono _ _ h1, FPRound.lit_mono _ _ h2⟩

theorem FP.bd_unit {x : α} (h0 : FP.le (FP.lit 0) x = true) (h1 : FP.le x (FP.lit 1) = true) : FP.Bd 0 x := by
  refine ⟨FP.le_tr (FPRound.lit_mono _ _ ?_) h0, by rw [pow_zero]; exact h1⟩
  norm_num

theorem V3.Bd.mono {n m : Nat} {v : V3 α} (hnm : n ≤ m) (h : V3.Bd n v) : V3.Bd m v :=
  ⟨h.1.mono hnm, h.2.1.mono hnm, h.2.2.mono hnm⟩

theorem V3.Bd.xy {n : Nat} {v : V3 α} (h : V3.Bd n v) : V2.Bd n v.xy := ⟨h.1, h.2.1⟩
theorem V3.Bd.ok {n : Nat} {v : V3 α} (h : V3.Bd n v) : V3.Ok v := ⟨h.1.ok, h.2.1.ok, h.2.2.ok⟩

theorem V3.Bd.sub {n : Nat} {a b : V3 α} (hn : n < 1023) (ha : V3.Bd n a) (hb : V3.Bd n b) : V3.Bd (n + 1) (a - b) :=
  ⟨FPRound.sub _ _ _ hn ha.1 hb.1, FPRound.sub _ _ _ hn ha.2.1 hb.2.1, FPRound.sub _ _ _ hn ha.2.2 hb.2.2⟩

theorem V3.Bd.add {n : Nat} {a b : V3 α} (hn : n < 1023) (ha : V3.Bd n a) (hb : V3.Bd n b) : V3.Bd (n + 1) (a + b) :=
  ⟨FPRound.add _ _ _ hn ha.1 hb.1, FPRound.add _ _ _ hn ha.2.1 hb.2.1, FPRound.add _ _ _ hn ha.2.2 hb.2.2⟩

theorem V3.Bd.smul {n m : Nat} {a : V3 α} {s : α} (hn : n + m ≤ 1023) (ha : V3.Bd n a) (hs : FP.Bd m s) : V3.Bd (n + m) (a.smul s) :=
  ⟨FPRound.mul _ _ _ _ hn ha.1 hs, FPRound.mul _ _ _ _ hn ha.2.1 hs, FPRound.mul _ _ _ _ hn ha.2.2 hs⟩

theorem V3.Bd.dot {n m : Nat} {a b : V3 α} (hn : n + m + 2 ≤ 1023) (ha : V3.Bd n a) (hb : V3.Bd m b) : FP.Bd (n + m + 2) (a.dot b) := by
  have h1 := FPRound.mul n m _ _ (by omega) ha.1 hb.1
  have h2 := FPRound.mul n m _ _ (by omega) ha.2.1 hb.2.1
  have h3 := FPRound.mul n m _ _ (by omega) ha.2.2 hb.2.2
  exact FPRound.add _ _ _ (by omega) (FPRound.add _ _ _ (by omega) h1 h2) (h3.mono (by omega))

theorem V3.Bd.mulM {n : Nat} {v : V3 α} {m : M3 α} (hn : n + 2 ≤ 1023) (hv : V3.Bd n v) (h0 : V3.Bd 0 m.r0) (h1 : V3.Bd 0 m.r1) (h2 : V3.Bd 0 m.r2) :
    V3.Bd (n + 2) (v.mulM m) := by
  have key : ∀ a b c : α, FP.Bd 0 a → FP.Bd 0 b → FP.Bd 0 c → FP.Bd (n + 2) (v.x * a + v.y * b + v.z * c) := by
    intro a b c ha hb hc
    have g1 := FPRound.mul n 0 _ _ (by omega) hv.1 ha
    have g2 := FPRound.mul n 0 _ _ (by omega) hv.2.1 hb
    have g3 := FPRound.mul n 0 _ _ (by omega) hv.2.2 hc
    exact FPRound.add _ _ _ (by omega) (FPRound.add _ _ _ (by omega) g1 g2) (g3.mono (by omega))
  exact ⟨key _ _ _ h0.1 h1.1 h2.1, key _ _ _ h0.2.1 h1.2.1 h2.2.1, key _ _ _ h0.2.2 h1.2.2 h2.2.2⟩

theorem V3.Bd.sqNorm {n : Nat} {a : V3 α} (hn : n + n + 2 ≤ 1023) (ha : V3.Bd n a) : FP.Bd (n + n + 2) a.sqNorm := ha.dot hn ha

theorem sqNorm_self {n : Nat} {a : V3 α} (hn : n ≤ 1023) (ha : V3.Bd n a) : FP.eq (a - a).sqNorm (FP.lit 0) = true :=
  FPRound.zero_add _ _
    (FPRound.zero_add _ _ (FPRound.zero_mul _ _ (FPRound.sub_self n _ hn ha.1) (FPRound.sub_self n _ hn ha.1))
      (FPRound.zero_mul _ _ (FPRound.sub_self n _ hn ha.2.1) (FPRound.sub_self n _ hn ha.2.1)))
    (FPRound.zero_mul _ _ (FPRound.sub_self n _ hn ha.2.2) (FPRound.sub_self n _ hn ha.2.2))

/-! ## Crossings -/

theorem crossPair_bd {n : Nat} (hn : n + 2 ≤ 1023) (v u : Nat) (ev eu : Edge α) (hv : Edge.Bd n ev) (hu : Edge.Bd n eu) (x : Nat × Nat × V3 α)
    (h : x ∈ crossPair v u ev eu) : V3.Bd (n + 2) x.2.2 := by
  unfold crossPair at h
  dsimp only at h
  split_ifs at h with h1
  all_goals try (simp only [List.append_nil, List.nil_append, List.mem_append, List.mem_cons, List.not_mem_nil, or_false] at h)
  all_goals
    simp only [Bool.and_eq_true] at h1
    obtain ⟨⟨⟨i0, i1⟩, j0⟩, j1⟩ := h1
    have bi := FP.bd_unit i0 i1
    have bj := FP.bd_unit j0 j1
    have pu := V3.Bd.add (by omega) (hu.1.mono (Nat.le_succ n)) ((hu.2.sub (by omega) hu.1).smul (m := 0) (by omega) bi)
    have pv := V3.Bd.add (by omega) (hv.1.mono (Nat.le_succ n)) ((hv.2.sub (by omega) hv.1).smul (m := 0) (by omega) bj)
  · rcases h with rfl | rfl
    · exact pu
    · exact pv
  · subst h; exact pu
  · subst h; exact pv

theorem edgeCrosses_bd {n : Nat} (hn : n + 2 ≤ 1023) (es : List (Edge α)) (unseen : Nat) (h : ∀ e ∈ es, Edge.Bd n e) :
    ∃ cs, edgeCrosses es unseen = .ok cs ∧ cs.length = unseen ∧ ∀ (v : Nat) (m : List (Nat × V3 α)), cs[v]? = some m →
      m.Pairwise (fun a b => a.1 ≠ b.1) ∧ ∀ c ∈ m, V3.Bd (n + 2) c.2 := by
  obtain ⟨cs, h1, h2, h3⟩ := edgeCrosses_ok es unseen
  refine ⟨cs, h1, h2, ?_⟩
  intro v m hm
  obtain ⟨e, hp⟩ := h3 v m hm
  refine ⟨hp, ?_⟩
  intro c hc
  rw [e] at hc
  obtain ⟨x, hx, rfl⟩ := List.mem_map.mp hc
  obtain ⟨v', u', ev, eu, -, -, g1, g2, g3⟩ := (mem_crossList es unseen x).mp (List.mem_filter.mp hx).1
  exact crossPair_bd hn _ _ ev eu (h _ (List.mem_of_getElem? g1)) (h _ (List.mem_of_getElem? g2)) x g3

/-! ## Spans -/

/-- a hidden span of an edge starting at `p0`: its ends are bounded, and the second is not nearer to `p0` than the first -/
def SpanBd (n : Nat) (p0 : V3 α) (h : Edge α) : Prop :=
  Edge.Bd n h ∧ FP.le (p0 - h.1).sqNorm (p0 - h.2).sqNorm = true

theorem dist_bd {n : Nat} (hn : n + n + 4 ≤ 1023) {p q : V3 α} (hp : V3.Bd n p) (hq : V3.Bd n q) : FP.Bd (n + n + 4) (p - q).sqNorm := by
  have := (hp.sub (by omega) hq).sqNorm (by omega)
  rwa [show n + 1 + (n + 1) + 2 = n + n + 4 by omega] at this

theorem candList_bd {n : Nat} (hn : n + n + 4 ≤ 1023) (cs : List (Nat × V3 α)) (hk : cs.Pairwise (fun a b => a.1 ≠ b.1)) (ev : Edge α) (f : Facet α)
    (el : Nat × Nat × Nat) (he : Edge.Bd n ev) (hc : ∀ c ∈ cs, V3.Bd n c.2) (x : V3 α × α) (hx : x ∈ candList cs ev f el) :
    V3.Bd n x.1 ∧ FP.Ok x.2 ∧ FP.eq x.2 (ev.1 - x.1).sqNorm = true := by
  have cr : ∀ k, x ∈ crossPt cs ev k → V3.Bd n x.1 ∧ FP.Ok x.2 ∧ FP.eq x.2 (ev.1 - x.1).sqNorm = true := by
    intro k hk'
    obtain ⟨c, hcm, -, rfl⟩ := (mem_crossPt cs hk ev k x).mp hk'
    have := (dist_bd hn he.1 (hc c hcm)).ok
    exact ⟨hc c hcm, this, this⟩
  unfold candList at hx
  simp only [List.mem_append] at hx
  rcases hx with (((h | h) | h) | h) | h
  · split_ifs at h
    · rw [List.mem_singleton] at h
      subst h
      have o1 : FP.Ok (FP.lit 0 : α) := FPOrd.ok_lit 0
      exact ⟨he.1, o1, FP.eq_symm (dist_bd hn he.1 he.1).ok o1 (sqNorm_self (n := n) (by omega) he.1)⟩
    · simp at h
  · split_ifs at h
    · rw [List.mem_singleton] at h
      subst h
      have := (dist_bd hn he.1 he.2).ok
      exact ⟨he.2, this, this⟩
    · simp at h
  · exact cr _ h
  · exact cr _ h
  · exact cr _ h

theorem head_last_pairwise {β : Type} {R : β → β → Prop} {l : List β} {a b : β} (hp : l.Pairwise R) (h2 : 2 ≤ l.length) (ha : l.head? = some a)
    (hb : l.getLast? = some b) : R a b := by
  cases l with
  | nil => simp at h2
  | cons x l =>
    simp only [List.head?_cons, Option.some.injEq] at ha
    subst ha
    rw [List.pairwise_cons] at hp
    cases l with
    | nil => simp at h2
    | cons y l =>
      rw [List.getLast?_cons_cons] at hb
      exact hp.1 b (List.mem_of_getLast? hb)

theorem faceHides_bd (S : Sorter) (hS : SortOK S) {n : Nat} (hn : n + n + 4 ≤ 1023) (cs : List (Nat × V3 α))
    (hk : cs.Pairwise (fun a b => a.1 ≠ b.1)) (v : Nat) (ev : Edge α) (f : Facet α) (el : Nat × Nat × Nat) (he : Edge.Bd n ev)
    (hc : ∀ c ∈ cs, V3.Bd n c.2) : ∃ r, faceHides S cs v ev f el = .ok r ∧ ∀ h, r = some h → SpanBd n ev.1 h := by
  unfold faceHides
  by_cases h0 : v = el.1 ∨ v = el.2.1 ∨ v = el.2.2
  · rw [if_pos h0]; exact ⟨none, rfl, by simp⟩
  rw [if_neg h0, hiddenPoints_eq]
  dsimp only [bind, Except.bind, pure, Except.pure]
  have hcl := candList_bd hn cs hk ev f el he hc
  generalize candList cs ev f el = l at *
  by_cases h2 : l.length < 2
  · rw [if_pos h2]; exact ⟨none, rfl, by simp⟩
  rw [if_neg h2]
  have hperm := hS.perm (fun l r : V3 α × α => FP.lt l.2 r.2) l
  have hsort := hS.sorted (fun l r : V3 α × α => FP.lt l.2 r.2) l (strictWeak_key (· ∈ l) (fun x => x.2) (fun a ha => (hcl a ha).2.1))
  generalize S.sort (fun l r : V3 α × α => FP.lt l.2 r.2) l = s at *
  have hl2 : 2 ≤ s.length := by rw [hperm.length_eq]; omega
  cases ha : s.head? with
  | none => rw [List.head?_eq_none_iff] at ha; simp [ha] at hl2
  | some a =>
    cases hb : s.getLast? with
    | none => rw [List.getLast?_eq_none_iff] at hb; simp [hb] at hl2
    | some b =>
      dsimp only
      have ma := hcl a (hperm.subset (List.mem_of_mem_head? ha))
      have mb := hcl b (hperm.subset (List.mem_of_getLast? hb))
      have hab := head_last_pairwise hsort hl2 ha hb
      have hle : FP.le a.2 b.2 = true := (FPOrd.le_iff _ _ ma.2.1 mb.2.1).mpr hab
      by_cases he0 : FP.eq (a.1 - b.1).sqNorm (FP.lit 0) = true
      · rw [if_pos he0]; exact ⟨none, rfl, by simp⟩
      · rw [if_neg he0]
        simp only [hle, if_true]
        refine ⟨_, rfl, ?_⟩
        intro h hh
        injection hh with hh
        subst hh
        refine ⟨⟨ma.1, mb.1⟩, ?_⟩
        have oa := (dist_bd hn he.1 ma.1).ok
        have ob := (dist_bd hn he.1 mb.1).ok
        rw [FPOrd.le_iff _ _ oa ob]
        by_contra hc
        rw [Bool.not_eq_false] at hc
        have h1 := FP.lt_of_eq_of_lt mb.2.1 ob mb.2.2 hc
        have h2 := FP.lt_of_lt_of_eq oa ma.2.1 h1 (FP.eq_symm ma.2.1 oa ma.2.2)
        rw [hab] at h2; cases h2

theorem mapM_except_all {β γ : Type} (f : β → Except Abort γ) (P : γ → Prop) : ∀ (l : List β), (∀ b ∈ l, ∃ c, f b = .ok c ∧ P c) →
    ∃ r, l.mapM f = .ok r ∧ r.length = l.length ∧ ∀ c ∈ r, P c
  | [], _ => ⟨[], rfl, rfl, by simp⟩
  | b :: l, h => by
    obtain ⟨c, h1, h2⟩ := h b (by simp)
    obtain ⟨r, g1, g2, g3⟩ := mapM_except_all f P l (fun x hx => h x (by simp [hx]))
    refine ⟨c :: r, by rw [List.mapM_cons, h1, g1]; rfl, by simp [g2], ?_⟩
    intro x hx
    rcases List.mem_cons.mp hx with rfl | hx
    · exact h2
    · exact g3 x hx

theorem edgeHides_bd (S : Sorter) (hS : SortOK S) {n : Nat} (hn : n + n + 4 ≤ 1023) (fs : List (Facet α × (Nat × Nat × Nat))) (cs : List (Nat × V3 α))
    (hk : cs.Pairwise (fun a b => a.1 ≠ b.1)) (v : Nat) (ev : Edge α) (he : Edge.Bd n ev)
    (hc : ∀ c ∈ cs, V3.Bd n c.2) : ∃ r, edgeHides S fs cs v ev = .ok r ∧ ∀ h ∈ r, SpanBd n ev.1 h := by
  unfold edgeHides
  obtain ⟨r, h1, -, h2⟩ := mapM_except_all (fun p => faceHides S cs v ev p.1 p.2) (fun r => ∀ h, r = some h → SpanBd n ev.1 h) fs
    (fun p _ => faceHides_bd S hS hn cs hk v ev p.1 p.2 he hc)
  rw [h1]
  refine ⟨_, rfl, ?_⟩
  intro h hh
  have := (hS.perm _ _).subset hh
  obtain ⟨x, hx, rfl⟩ := List.mem_filterMap.mp this
  exact h2 _ hx h rfl

theorem of3_bd {n : Nat} {a b : V3 α} (ha : V3.Bd n a) (hb : V3.Bd n b) : Line.Bd n (Line.of3 a b) := ⟨ha.xy, hb.xy⟩

theorem spanLoop_bd {n : Nat} (p0 : V3 α) : ∀ (hs : List (Edge α)) (frm : V3 α) (d : α) (acc : List (Line α)), (∀ h ∈ hs, SpanBd n p0 h) →
    V3.Bd n frm → (∀ l ∈ acc, Line.Bd n l) → ∃ r, spanLoop p0 hs frm d acc = .ok r ∧ V3.Bd n r.1 ∧ ∀ l ∈ r.2, Line.Bd n l
  | [], frm, d, acc, _, hf, ha => ⟨_, rfl, hf, ha⟩
  | h :: hs, frm, d, acc, hh, hf, ha => by
    unfold spanLoop
    dsimp only
    obtain ⟨⟨b1, b2⟩, hle⟩ := hh h (by simp)
    rw [if_pos hle]
    apply spanLoop_bd p0 hs _ _ _ (fun x hx => hh x (by simp [hx]))
    · split_ifs
      · exact b2
      · exact hf
    · split_ifs
      · intro l hl
        rcases List.mem_append.mp hl with hl | hl
        · exact ha l hl
        · rw [List.mem_singleton] at hl; subst hl; exact of3_bd hf b1
      · exact ha

theorem edgeLines_bd {n : Nat} (ml : α) (p : Edge α) (hs : List (Edge α)) (hp : Edge.Bd n p) (hh : ∀ h ∈ hs, SpanBd n p.1 h) :
    ∃ r, edgeLines ml p hs = .ok r ∧ ∀ l ∈ r, Line.Bd n l := by
  unfold edgeLines
  obtain ⟨r, h1, h2, h3⟩ := spanLoop_bd p.1 hs p.1 (FP.lit 0) [] hh hp.1 (by simp)
  rw [h1]
  dsimp only [bind, Except.bind, pure, Except.pure]
  split_ifs
  · refine ⟨_, rfl, ?_⟩
    intro l hl
    rcases List.mem_append.mp hl with hl | hl
    · exact h3 l hl
    · rw [List.mem_singleton] at hl; subst hl; exact of3_bd h2 hp.2
  · exact ⟨_, rfl, h3⟩

theorem Edge.Bd.mono {n m : Nat} {e : Edge α} (hnm : n ≤ m) (h : Edge.Bd n e) : Edge.Bd m e := ⟨h.1.mono hnm, h.2.mono hnm⟩

/-- Hidden-line removal on edges of size up to 2^507 finishes, and its lines are of size at most four times that. -/
theorem toLines_bd (S : Sorter) (hS : SortOK S) {n : Nat} (hn : n ≤ 507) (s : STLFile α) (he : ∀ e ∈ s.edges, Edge.Bd n e)
    (hu : s.unseen ≤ s.edges.length) : ∃ ls, s.toLines S = .ok ls ∧ ∀ l ∈ ls, Line.Bd (n + 2) l := by
  unfold STLFile.toLines
  obtain ⟨cs, c1, c2, c3⟩ := edgeCrosses_bd (n := n) (by omega) s.edges s.unseen he
  rw [c1]
  dsimp only [bind, Except.bind]
  have per : ∀ v, v < s.unseen → ∃ ev m r, s.edges[v]? = some ev ∧ cs[v]? = some m ∧ Edge.Bd (n + 2) ev ∧
      edgeHides S (s.facets.zip s.faceEdge) m v ev = .ok r ∧ ∀ h ∈ r, SpanBd (n + 2) ev.1 h := by
    intro v hv
    have e1 : s.edges[v]? = some s.edges[v] := List.getElem?_eq_getElem (by omega)
    have e2 : cs[v]? = some cs[v] := List.getElem?_eq_getElem (by omega)
    have b := (he _ (List.mem_of_getElem? e1)).mono (Nat.le_add_right n 2)
    obtain ⟨k1, k2⟩ := c3 v _ e2
    obtain ⟨r, r1, r2⟩ := edgeHides_bd S hS (n := n + 2) (by omega) (s.facets.zip s.faceEdge) cs[v] k1 v _ b k2
    exact ⟨_, _, r, e1, e2, b, r1, r2⟩
  choose! ev m r p1 p2 p3 p4 p5 using per
  rw [mapM_except_of_forall _ _ ((List.range s.unseen).map r) ?h1]
  case h1 =>
    rw [List.forall₂_map_right_iff]
    refine List.forall₂_same.2 fun v hv => ?_
    have hv' := List.mem_range.1 hv
    simp only [p1 v hv', p2 v hv']
    exact p4 v hv'
  dsimp only
  unfold generateLines
  have per2 : ∀ v ∈ List.range s.unseen, ∃ c, (match s.edges[v]? with
      | none => throw .ub
      | some p => edgeLines (FP.lit 0) p (if false then [] else (((List.range s.unseen).map r)[v]?).getD [])) = Except.ok c ∧ ∀ l ∈ c, Line.Bd (n + 2) l := by
    intro v hv
    have hv' := List.mem_range.1 hv
    simp only [p1 v hv', List.getElem?_map, List.getElem?_range hv', Option.map_some, Option.getD_some, Bool.false_eq_true, if_false]
    exact edgeLines_bd _ _ _ (p3 v hv') (p5 v hv')
  obtain ⟨L, l1, -, l2⟩ := mapM_except_all _ (fun c : List (Line α) => ∀ l ∈ c, Line.Bd (n + 2) l) _ per2
  refine ⟨L.flatten, ?_, ?_⟩
  · dsimp only [bind, Except.bind, pure, Except.pure] at l1 ⊢
    erw [l1]
  · intro l hl
    obtain ⟨c, hc, hlc⟩ := List.mem_flatten.mp hl
    exact l2 c hc l hlc

end S2P
