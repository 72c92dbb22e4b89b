import Verif.Spec.Grammar
import Verif.Model.Parser
import Mathlib.Tactic.Common

set_option linter.unusedSectionVars false
set_option linter.unusedVariables false
set_option linter.unusedSimpArgs false

namespace S2P
variable {α : Type} [FP α]

/-! ## Inversion of the readers -/

theorem stop_ne {β : Type} (its : Items α) (x : β) (h : stop its = .ok (some x)) : False := by
  unfold stop at h; split at h <;> simp at h

theorem expect_ok {β : Type} (c : Char) (k : Items α → Except Abort (Option β)) (its : Items α) (x : β)
    (h : expect c k its = .ok (some x)) : ∃ l r, its = .tok (.p c) l :: r ∧ k r = .ok (some x) := by
  unfold expect at h
  split at h
  · split_ifs at h with hc
    · subst hc; exact ⟨_, _, rfl, h⟩
    · exact (stop_ne _ _ h).elim
  · exact (stop_ne _ _ h).elim

theorem number_ok {β : Type} (k : α → Items α → Except Abort (Option β)) (its : Items α) (x : β)
    (h : number k its = .ok (some x)) : ∃ a l r, its = .tok (.num a) l :: r ∧ k a r = .ok (some x) := by
  unfold number at h
  split at h
  · exact ⟨_, _, _, rfl, h⟩
  · exact (stop_ne _ _ h).elim

theorem ident_ok {β : Type} (k : Str → Nat → Items α → Except Abort (Option β)) (its : Items α) (x : β)
    (h : ident k its = .ok (some x)) : ∃ n l r, its = .tok (.id n) l :: r ∧ k n l r = .ok (some x) := by
  unfold ident at h
  split at h
  · exact ⟨_, _, _, rfl, h⟩
  · exact (stop_ne _ _ h).elim

theorem strLit_ok {β : Type} (k : Str → Items α → Except Abort (Option β)) (its : Items α) (x : β)
    (h : strLit k its = .ok (some x)) : ∃ n l r, its = .tok (.str n) l :: r ∧ k n r = .ok (some x) := by
  unfold strLit at h
  split at h
  · exact ⟨_, _, _, rfl, h⟩
  · exact (stop_ne _ _ h).elim

theorem andThen_ok {β γ : Type} (r : PRes β α) (k : β → Items α → Except Abort (Option γ)) (x : γ)
    (h : andThen r k = .ok (some x)) : ∃ v its, r = .ok (some (v, its)) ∧ k v its = .ok (some x) := by
  rcases r with e | _ | ⟨v, its⟩
  · cases h
  · cases h
  · exact ⟨v, its, rfl, h⟩

theorem done_ok {β : Type} (v : β) (its : Items α) (x : β × Items α) (h : done v its = .ok (some x)) : x = (v, its) := by
  unfold done at h; simp at h; exact h.symm

theorem lookAhead_ok {β : Type} (v : β) (its : Items α) (x : β × Items α) (h : lookAhead v its = .ok (some x)) : x = (v, its) := by
  unfold lookAhead at h
  split at h
  · cases h
  · simp at h; exact h.symm

/-! ## Soundness -/

theorem parseLocation_sound (l : Nat) (its : Items α) (v : V2 α) (rest : Items α) (h : parseLocation its = .ok (some (v, rest))) :
    ∃ w, .tok (.p '[') l :: its = w ++ rest ∧ GLocation w v := by
  obtain ⟨a, l1, r, rfl, k1⟩ := number_ok _ _ _ h
  obtain ⟨l2, r, rfl, k2⟩ := expect_ok _ _ _ _ k1
  obtain ⟨b, l3, r, rfl, k3⟩ := number_ok _ _ _ k2
  obtain ⟨l4, r, rfl, k4⟩ := expect_ok _ _ _ _ k3
  have := done_ok _ _ _ k4
  simp only [Prod.mk.injEq] at this
  obtain ⟨rfl, rfl⟩ := this
  exact ⟨_, rfl, .mk l l1 l2 l3 l4 a b⟩

theorem pointTail_sound (l : Nat) (its : Items α) (v : Pt α) (rest : Items α) (h : pointTail l its = .ok (some (v, rest))) :
    ∃ w, .tok (.p '[') l :: its = w ++ rest ∧ GPoint w v := by
  obtain ⟨a, l1, r, rfl, k5⟩ := number_ok _ _ _ h
  obtain ⟨l2, r, rfl, k6⟩ := expect_ok _ _ _ _ k5
  obtain ⟨b, l3, r, rfl, k7⟩ := number_ok _ _ _ k6
  obtain ⟨l4, r, rfl, k8⟩ := expect_ok _ _ _ _ k7
  obtain ⟨c, l5, r, rfl, k9⟩ := number_ok _ _ _ k8
  obtain ⟨l6, r, rfl, k10⟩ := expect_ok _ _ _ _ k9
  have := done_ok _ _ _ k10
  simp only [Prod.mk.injEq] at this
  obtain ⟨rfl, rfl⟩ := this
  exact ⟨_, rfl, .val l l1 l2 l3 l4 l5 l6 a b c⟩

theorem parsePoint_sound (k : Nat) : ∀ (its : Items α) (v : Pt α) (rest : Items α), its.length ≤ k → parsePoint its = .ok (some (v, rest)) →
    ∃ w, its = w ++ rest ∧ GPoint w v := by
  induction k with
  | zero =>
    intro its v rest hk h
    have : its = [] := List.length_eq_zero_iff.1 (by omega)
    subst this
    simp [parsePoint, stop] at h
  | succ k ih =>
    intro its v rest hk h
    unfold parsePoint at h
    split at h
    · split_ifs at h with hc
      · subst hc; exact pointTail_sound _ _ _ _ h
      · exact (stop_ne _ _ h).elim
    · split_ifs at h with hc
      · subst hc
        obtain ⟨p, r, h1, h2⟩ := andThen_ok _ _ _ h
        obtain ⟨w, hw, hg⟩ := ih _ p r (by simp at hk; omega) h1
        obtain ⟨l2, r, rfl, h3⟩ := expect_ok _ _ _ _ h2
        have := done_ok _ _ _ h3
        simp only [Prod.mk.injEq] at this
        obtain ⟨rfl, rfl⟩ := this
        rename_i n l l' r
        refine ⟨_, ?_, .func n l l' l2 w p hg⟩
        rw [hw]; simp
      · exact (stop_ne _ _ h).elim
    · exact (stop_ne _ _ h).elim
    · exact (stop_ne _ _ h).elim

theorem parseStrs_sound (its : Items α) : ∀ (acc : Str) (w0 : Items α), GString w0 acc →
    ∃ w, its = w ++ (parseStrs acc its).2 ∧ GString (w0 ++ w) (parseStrs acc its).1 := by
  induction its with
  | nil => intro acc w0 h; exact ⟨[], rfl, by simpa [parseStrs] using h⟩
  | cons i its ih =>
    intro acc w0 h
    rcases i with ⟨t, l⟩ | _ | _
    · cases t with
      | str s =>
        obtain ⟨w, h1, h2⟩ := ih (acc ++ s) (w0 ++ [.tok (.str s) l]) (.more w0 acc s l h)
        refine ⟨.tok (.str s) l :: w, ?_, ?_⟩
        · simp only [parseStrs, List.cons_append]; rw [← h1]
        · simpa [parseStrs] using h2
      | _ => exact ⟨[], rfl, by simpa [parseStrs] using h⟩
    · exact ⟨[], rfl, by simpa [parseStrs] using h⟩
    · exact ⟨[], rfl, by simpa [parseStrs] using h⟩

theorem valPair_sound (n : Str) (ln l2 l l3 l4 l5 : Nat) (a b : α) (its : Items α) (v : MetaVal α) (rest : Items α)
    (h : valPair l a b its = .ok (some (v, rest))) :
    ∃ w, [Item.tok (.id n) ln, .tok (.p '=') l2, .tok (.p '[') l, .tok (.num a) l3, .tok (.p ',') l4, .tok (.num b) l5] ++ its = w ++ rest ∧ GArg w ⟨n, v, ln⟩ := by
  unfold valPair at h
  split at h
  · rename_i c l' its
    split_ifs at h with h1 h2
    · subst h1
      have := done_ok _ _ _ h
      simp only [Prod.mk.injEq] at this
      obtain ⟨rfl, rfl⟩ := this
      exact ⟨_, rfl, .loc n ln l2 _ _ (.mk l l3 l4 l5 l' a b)⟩
    · subst h2
      obtain ⟨z, l6, r, rfl, k11⟩ := number_ok _ _ _ h
      obtain ⟨l7, r, rfl, k12⟩ := expect_ok _ _ _ _ k11
      have := done_ok _ _ _ k12
      simp only [Prod.mk.injEq] at this
      obtain ⟨rfl, rfl⟩ := this
      exact ⟨_, rfl, .pt n ln l2 _ _ (.val l l3 l4 l5 l' l6 l7 a b z)⟩
    · exact (stop_ne _ _ h).elim
  · exact (stop_ne _ _ h).elim

theorem parseVal_sound (n : Str) (ln l2 : Nat) (its : Items α) (v : MetaVal α) (rest : Items α)
    (h : parseVal its = .ok (some (v, rest))) :
    ∃ w, [Item.tok (.id n) ln, .tok (.p '=') l2] ++ its = w ++ rest ∧ GArg w ⟨n, v, ln⟩ := by
  unfold parseVal at h
  split at h
  · rename_i s l its
    have := lookAhead_ok _ _ _ h
    simp only [Prod.mk.injEq] at this
    obtain ⟨rfl, rfl⟩ := this
    obtain ⟨w, h1, h2⟩ := parseStrs_sound its s [.tok (.str s) l] (.one s l)
    refine ⟨_, ?_, .str n ln l2 _ _ h2⟩
    simp only [List.append_assoc, List.cons_append, List.nil_append]
    rw [← h1]
  · rename_i a l its
    unfold valNum at h
    split at h
    · rename_i c l' its
      split_ifs at h with hc
      · subst hc
        obtain ⟨b, l3, r, rfl, k13⟩ := number_ok _ _ _ h
        unfold mkScale at k13
        split at k13
        · rename_i i j hi hj
          simp only [Except.ok.injEq, Option.some.injEq, Prod.mk.injEq] at k13
          obtain ⟨rfl, rfl⟩ := k13
          exact ⟨_, rfl, .scale n ln l2 l l' l3 a b i j hi hj⟩
        · cases k13
      · simp only [Except.ok.injEq, Option.some.injEq, Prod.mk.injEq] at h
        obtain ⟨rfl, rfl⟩ := h
        exact ⟨_, rfl, .num n ln l2 l a⟩
    · have := lookAhead_ok _ _ _ h
      simp only [Prod.mk.injEq] at this
      obtain ⟨rfl, rfl⟩ := this
      exact ⟨_, rfl, .num n ln l2 l a⟩
  · rename_i c l its
    split_ifs at h with hc
    · subst hc
      obtain ⟨a, l3, r, rfl, k14⟩ := number_ok _ _ _ h
      obtain ⟨l4, r, rfl, k15⟩ := expect_ok _ _ _ _ k14
      obtain ⟨b, l5, r, rfl, k16⟩ := number_ok _ _ _ k15
      exact valPair_sound n ln l2 l l3 l4 l5 a b r v rest k16
    · exact (stop_ne _ _ h).elim
  · rename_i m l its
    obtain ⟨p, r, h1, h2⟩ := andThen_ok _ _ _ h
    have := done_ok _ _ _ h2
    simp only [Prod.mk.injEq] at this
    obtain ⟨rfl, rfl⟩ := this
    obtain ⟨w, h3, h4⟩ := parsePoint_sound _ _ _ _ (Nat.le_refl _) h1
    refine ⟨_, ?_, .pt n ln l2 w p h4⟩
    rw [h3]; simp
  · exact (stop_ne _ _ h).elim

theorem parseArg_sound (its : Items α) (m : Meta α) (rest : Items α) (h : parseArg its = .ok (some (m, rest))) :
    ∃ w, its = w ++ rest ∧ GArg w m := by
  unfold parseArg at h
  split at h
  · obtain ⟨l2, r, rfl, k17⟩ := expect_ok _ _ _ _ h
    obtain ⟨v, r', h1, h2⟩ := andThen_ok _ _ _ k17
    have := done_ok _ _ _ h2
    simp only [Prod.mk.injEq] at this
    obtain ⟨rfl, rfl⟩ := this
    exact parseVal_sound _ _ l2 r v rest h1
  · split_ifs at h with hc
    · subst hc
      obtain ⟨l2, r, rfl, k18⟩ := expect_ok _ _ _ _ h
      obtain ⟨v, r', h1, h2⟩ := andThen_ok _ _ _ k18
      have := done_ok _ _ _ h2
      simp only [Prod.mk.injEq] at this
      obtain ⟨rfl, rfl⟩ := this
      obtain ⟨w, h3, h4⟩ := parseLocation_sound l2 r v rest h1
      exact ⟨_, by rw [h3]; rfl, .at _ w v h4⟩
    · exact (stop_ne _ _ h).elim
  · exact (stop_ne _ _ h).elim

theorem parseArgs_sound (fuel : Nat) : ∀ (acc : List (Meta α)) (its : Items α) (ms : List (Meta α)) (rest w0 : Items α),
    GTextParts w0 acc → parseArgs fuel acc its = .ok (some (ms, rest)) → ∃ w, its = w ++ rest ∧ GTextParts (w0 ++ w) ms := by
  induction fuel with
  | zero => intro acc its ms rest w0 _ h; cases h
  | succ fuel ih =>
    intro acc its ms rest w0 hw0 h
    simp only [parseArgs] at h
    split_ifs at h
    · obtain ⟨m, r, h1, h2⟩ := andThen_ok _ _ _ h
      obtain ⟨l, r', rfl, h3⟩ := expect_ok _ _ _ _ h2
      obtain ⟨a, rfl, hg⟩ := parseArg_sound _ _ _ h1
      obtain ⟨w, rfl, hw⟩ := ih _ _ _ _ _ (.arg w0 a acc m l hw0 hg) h3
      exact ⟨a ++ [.tok (.p ';') l] ++ w, by simp, by simpa using hw⟩
    · have := done_ok _ _ _ h
      simp only [Prod.mk.injEq] at this
      obtain ⟨rfl, rfl⟩ := this
      exact ⟨[], rfl, by simpa using hw0⟩

theorem parseMore_sound (fuel : Nat) : ∀ (acc : List (Meta α)) (its : Items α) (ms : List (Meta α)) (rest w0 : Items α),
    GDimParts w0 acc → parseMore fuel acc its = .ok (some (ms, rest)) → ∃ w, its = w ++ rest ∧ GDimParts (w0 ++ w) ms := by
  induction fuel with
  | zero => intro acc its ms rest w0 _ h; cases h
  | succ fuel ih =>
    intro acc its ms rest w0 hw0 h
    simp only [parseMore] at h
    split at h
    · split_ifs at h with hc
      · subst hc
        obtain ⟨m, r, h1, h2⟩ := andThen_ok _ _ _ h
        obtain ⟨a, rfl, hg⟩ := parseArg_sound _ _ _ h1
        rename_i _ l
        obtain ⟨w, rfl, hw⟩ := ih _ _ _ _ _ (.more w0 a acc m l hw0 hg) h2
        exact ⟨[.tok (.p ',') l] ++ a ++ w, by simp, by simpa using hw⟩
      · have := done_ok _ _ _ h
        simp only [Prod.mk.injEq] at this
        obtain ⟨rfl, rfl⟩ := this
        exact ⟨[], rfl, by simpa using hw0⟩
    · have := done_ok _ _ _ h
      simp only [Prod.mk.injEq] at this
      obtain ⟨rfl, rfl⟩ := this
      exact ⟨[], rfl, by simpa using hw0⟩

theorem dimKind_key (t : Tok α) (k : DimKind) : dimKind t = some k ↔ DimKey t k := by
  constructor
  · intro h
    cases t <;> simp [dimKind] at h <;> subst h
    · exact .angle
    · exact .dia
    · exact .dim
    · exact .rad
  · intro h; cases h <;> rfl

theorem parseDim_sound (t : Tok α) (k : DimKind) (hk : DimKey t k) (l : Nat) (its : Items α) (d : DimN α) (rest w0 : Items α)
    (ms : List (Meta α)) (ds : List (DimN α)) (h0 : GDrawParts w0 ms ds) (h : parseDim k l its = .ok (some (d, rest))) :
    ∃ w, .tok t l :: its = w ++ rest ∧ GDrawParts (w0 ++ w) ms (ds ++ [d]) := by
  obtain ⟨l3, r, rfl, k19⟩ := expect_ok _ _ _ _ h
  split_ifs at k19
  · obtain ⟨m, r1, h1, h2⟩ := andThen_ok _ _ _ k19
    obtain ⟨args, r2, h3, h4⟩ := andThen_ok _ _ _ h2
    obtain ⟨l5, r3, rfl, h5⟩ := expect_ok _ _ _ _ h4
    obtain ⟨l6, r4, rfl, h6⟩ := expect_ok _ _ _ _ h5
    have := done_ok _ _ _ h6
    simp only [Prod.mk.injEq] at this
    obtain ⟨rfl, rfl⟩ := this
    obtain ⟨a, rfl, hg⟩ := parseArg_sound _ _ _ h1
    obtain ⟨b, rfl, hd⟩ := parseMore_sound _ _ _ _ _ a (.one a m hg) h3
    refine ⟨_, ?_, by simpa using GDrawParts.dim w0 (a ++ b) ms args ds t k l l3 l5 l6 h0 hk hd⟩
    simp
  · obtain ⟨l5, r3, rfl, h5⟩ := expect_ok _ _ _ _ k19
    obtain ⟨l6, r4, rfl, h6⟩ := expect_ok _ _ _ _ h5
    have := done_ok _ _ _ h6
    simp only [Prod.mk.injEq] at this
    obtain ⟨rfl, rfl⟩ := this
    exact ⟨_, rfl, .dim0 w0 ms ds t k l l3 l5 l6 h0 hk⟩

theorem parseDrawParts_sound (fuel : Nat) : ∀ (ms : List (Meta α)) (ds : List (DimN α)) (its : Items α) (r : List (Meta α) × List (DimN α))
    (rest w0 : Items α), GDrawParts w0 ms ds → parseDrawParts fuel ms ds its = .ok (some (r, rest)) →
    ∃ w, its = w ++ rest ∧ GDrawParts (w0 ++ w) r.1 r.2 := by
  induction fuel with
  | zero => intro ms ds its r rest w0 _ h; cases h
  | succ fuel ih =>
    intro ms ds its r rest w0 hw0 h
    simp only [parseDrawParts] at h
    split_ifs at h
    · obtain ⟨m, r1, h1, h2⟩ := andThen_ok _ _ _ h
      obtain ⟨l, r2, rfl, h3⟩ := expect_ok _ _ _ _ h2
      obtain ⟨a, rfl, hg⟩ := parseArg_sound _ _ _ h1
      obtain ⟨w, rfl, hw⟩ := ih _ _ _ _ _ _ (.arg w0 a ms ds m l hw0 hg) h3
      exact ⟨a ++ [.tok (.p ';') l] ++ w, by simp, by simpa using hw⟩
    · split at h
      · split at h
        · rename_i k hk
          obtain ⟨d, r1, h1, h2⟩ := andThen_ok _ _ _ h
          obtain ⟨w1, hw1, hg1⟩ := parseDim_sound _ k ((dimKind_key _ k).1 hk) _ _ d r1 w0 ms ds hw0 h1
          obtain ⟨w, rfl, hw⟩ := ih _ _ _ _ _ _ hg1 h2
          exact ⟨w1 ++ w, by rw [hw1]; simp, by simpa using hw⟩
        · have := done_ok _ _ _ h
          simp only [Prod.mk.injEq] at this
          obtain ⟨rfl, rfl⟩ := this
          exact ⟨[], rfl, by simpa using hw0⟩
      · have := done_ok _ _ _ h
        simp only [Prod.mk.injEq] at this
        obtain ⟨rfl, rfl⟩ := this
        exact ⟨[], rfl, by simpa using hw0⟩

theorem parsePageParts_sound (fuel : Nat) : ∀ (ms : List (Meta α)) (ds : List (Drawable α)) (its : Items α) (r : List (Meta α) × List (Drawable α))
    (rest w0 : Items α), GPageParts w0 ms ds → parsePageParts fuel ms ds its = .ok (some (r, rest)) →
    ∃ w, its = w ++ rest ∧ GPageParts (w0 ++ w) r.1 r.2 := by
  induction fuel with
  | zero => intro ms ds its r rest w0 _ h; cases h
  | succ fuel ih =>
    intro ms ds its r rest w0 hw0 h
    simp only [parsePageParts] at h
    split_ifs at h with hsa
    · obtain ⟨m, r1, h1, h2⟩ := andThen_ok _ _ _ h
      obtain ⟨l, r2, rfl, h3⟩ := expect_ok _ _ _ _ h2
      obtain ⟨a, rfl, hg⟩ := parseArg_sound _ _ _ h1
      obtain ⟨w, rfl, hw⟩ := ih _ _ _ _ _ _ (.arg w0 a ms ds m l hw0 hg) h3
      exact ⟨a ++ [.tok (.p ';') l] ++ w, by simp, by simpa using hw⟩
    · split at h
      · rename_i l its
        obtain ⟨d, r1, h1, h2⟩ := andThen_ok _ _ _ h
        obtain ⟨n, l3, r2, rfl, h3⟩ := ident_ok _ _ _ h1
        obtain ⟨l4, r3, rfl, h4⟩ := expect_ok _ _ _ _ h3
        obtain ⟨q, r4, h5, h6⟩ := andThen_ok _ _ _ h4
        obtain ⟨l6, r5, rfl, h7⟩ := expect_ok _ _ _ _ h6
        have := done_ok _ _ _ h7
        simp only [Prod.mk.injEq] at this
        obtain ⟨rfl, rfl⟩ := this
        obtain ⟨a, rfl, hg⟩ := parseDrawParts_sound _ _ _ _ _ _ [] .empty h5
        obtain ⟨w, rfl, hw⟩ := ih _ _ _ _ _ _ (.draw w0 a ms q.1 ds q.2 n l l3 l4 l6 hw0 (by simpa using hg)) h2
        exact ⟨[.tok .kDraw l, .tok (.id n) l3, .tok (.p '{') l4] ++ a ++ [.tok (.p '}') l6] ++ w, by simp, by simpa using hw⟩
      · rename_i l its
        obtain ⟨d, r1, h1, h2⟩ := andThen_ok _ _ _ h
        obtain ⟨l3, r2, rfl, h3⟩ := expect_ok _ _ _ _ h1
        obtain ⟨s, ls, r3, rfl, h4⟩ := strLit_ok _ _ _ h3
        obtain ⟨l5, r4, hr4, h5⟩ := expect_ok _ _ _ _ h4
        obtain ⟨l6, r5, rfl, h6⟩ := expect_ok _ _ _ _ h5
        obtain ⟨args, r6, h7, h8⟩ := andThen_ok _ _ _ h6
        obtain ⟨l8, r7, rfl, h9⟩ := expect_ok _ _ _ _ h8
        have := done_ok _ _ _ h9
        simp only [Prod.mk.injEq] at this
        obtain ⟨rfl, rfl⟩ := this
        obtain ⟨sw, hsw, hsg⟩ := parseStrs_sound r3 s [.tok (.str s) ls] (.one s ls)
        obtain ⟨b, rfl, hg⟩ := parseArgs_sound _ _ _ _ _ [] .empty h7
        obtain ⟨w, rfl, hw⟩ := ih _ _ _ _ _ _ (.text w0 _ b ms args ds _ l l3 l5 l6 l8 hw0 hsg (by simpa using hg)) h2
        rw [hr4] at hsw
        refine ⟨[.tok .kText l, .tok (.p '[') l3] ++ ([.tok (.str s) ls] ++ sw) ++ [.tok (.p ']') l5, .tok (.p '{') l6] ++ b ++ [.tok (.p '}') l8] ++ w, ?_, by simpa using hw⟩
        rw [hsw]; simp
      · have := done_ok _ _ _ h
        simp only [Prod.mk.injEq] at this
        obtain ⟨rfl, rfl⟩ := this
        exact ⟨[], rfl, by simpa using hw0⟩

theorem parseInput_sound (fuel : Nat) : ∀ (ms : List ModelN) (ps : List (PageN α)) (its : Items α) (d : Doc α) (w0 : Items α),
    GInput w0 ⟨ms, ps⟩ → parseInput fuel ms ps its = .ok (some d) → GInput (w0 ++ its) d := by
  induction fuel with
  | zero => intro ms ps its d w0 _ h; cases h
  | succ fuel ih =>
    intro ms ps its d w0 hw0 h
    simp only [parseInput] at h
    split at h
    · simp only [Except.ok.injEq, Option.some.injEq] at h
      subst h; simpa using hw0
    · rename_i l its
      obtain ⟨m, r, h1, h2⟩ := andThen_ok _ _ _ h
      obtain ⟨n, l2, r1, rfl, k20⟩ := ident_ok _ _ _ h1
      obtain ⟨l3, r2, rfl, k21⟩ := expect_ok _ _ _ _ k20
      obtain ⟨s, l4, r3, rfl, k22⟩ := strLit_ok _ _ _ k21
      obtain ⟨l5, r4, rfl, k23⟩ := expect_ok _ _ _ _ k22
      have := done_ok _ _ _ k23
      simp only [Prod.mk.injEq] at this
      obtain ⟨rfl, rfl⟩ := this
      have := ih _ _ _ _ _ (.model w0 _ ms ps _ hw0 (.mk n s l l2 l3 l4 l5)) h2
      simpa using this
    · rename_i l its
      obtain ⟨m, r, h1, h2⟩ := andThen_ok _ _ _ h
      obtain ⟨l2, r1, rfl, k24⟩ := expect_ok _ _ _ _ h1
      obtain ⟨q, r2, h3, h4⟩ := andThen_ok _ _ _ k24
      obtain ⟨l4, r3, rfl, h5⟩ := expect_ok _ _ _ _ h4
      have := done_ok _ _ _ h5
      simp only [Prod.mk.injEq] at this
      obtain ⟨rfl, rfl⟩ := this
      obtain ⟨w, rfl, hg⟩ := parsePageParts_sound _ _ _ _ _ _ [] .empty h3
      have := ih _ _ _ _ _ (.page w0 _ ms ps _ hw0 (.mk l l2 l4 w q.1 q.2 (by simpa using hg))) h2
      simpa using this
    · exact (stop_ne _ _ h).elim

/-! ## Completeness -/

/-- what may follow an argument: a punctuation token other than `:` -/
def Follow (rest : Items α) : Prop := ∃ c l r, rest = .tok (.p c) l :: r ∧ c ≠ ':'

theorem parsePoint_complete (w : Items α) (v : Pt α) (h : GPoint w v) : ∀ rest, parsePoint (w ++ rest) = .ok (some (v, rest)) := by
  induction h with
  | val => intro rest; simp [parsePoint, pointTail, number, expect, done]
  | func n l l2 l4 w q _ ih =>
    intro rest
    simp only [List.cons_append, List.nil_append, List.append_assoc, parsePoint, if_true]
    rw [ih]
    simp [andThen, expect, done]

theorem parseStrs_complete (w : Items α) (s : Str) (h : GString w s) : ∃ s0 l w', w = .tok (.str s0) l :: w' ∧
    ∀ rest, (∀ t l r, rest ≠ .tok (.str t) l :: r) → parseStrs s0 (w' ++ rest) = (s, rest) := by
  have base : ∀ (acc : Str) (rest : Items α), (∀ t l r, rest ≠ .tok (.str t) l :: r) → parseStrs acc rest = (acc, rest) := by
    intro acc rest hr
    unfold parseStrs
    split
    · exact absurd rfl (hr _ _ _)
    · rfl
  have gen : ∃ s0 l w', w = .tok (.str s0) l :: w' ∧ ∀ rest, parseStrs s0 (w' ++ rest) = parseStrs s rest := by
    induction h with
    | one s l => exact ⟨s, l, [], rfl, fun rest => rfl⟩
    | more w s t l _ ih =>
      obtain ⟨s0, l0, w', rfl, h⟩ := ih
      refine ⟨s0, l0, w' ++ [.tok (.str t) l], rfl, fun rest => ?_⟩
      rw [List.append_assoc, h]; simp [parseStrs]
  obtain ⟨s0, l, w', h1, h2⟩ := gen
  exact ⟨s0, l, w', h1, fun rest hr => by rw [h2, base _ _ hr]⟩

theorem follow_notStr (rest : Items α) (h : Follow rest) : ∀ t l r, rest ≠ .tok (.str t) l :: r := by
  obtain ⟨c, l, r, rfl, _⟩ := h; intro t l' r'; simp

theorem parseArg_complete (w : Items α) (m : Meta α) (h : GArg w m) (rest : Items α) (hr : Follow rest) :
    parseArg (w ++ rest) = .ok (some (m, rest)) ∧ startsArg (w ++ rest) = true := by
  cases h with
  | str n l l2 w s hs =>
    obtain ⟨s0, ls, w', rfl, h⟩ := parseStrs_complete w s hs
    have h' := h rest (follow_notStr rest hr)
    obtain ⟨c, lc, r, rfl, _⟩ := hr
    simp only [List.cons_append, List.nil_append, parseArg, expect, if_true, parseVal, h', lookAhead, andThen, done, startsArg, and_self]
  | pt n l l2 w q hq =>
    have h' := parsePoint_complete w q hq rest
    refine ⟨?_, rfl⟩
    cases hq with
    | val => simp [parseArg, expect, parseVal, number, valPair, andThen, done]
    | func m l3 l4 l5 w q hq =>
      simp only [List.cons_append, List.nil_append, List.append_assoc] at h'
      simp only [List.cons_append, List.nil_append, List.append_assoc, parseArg, expect, if_true, parseVal, h', andThen, done]
  | num n l l2 l3 a =>
    obtain ⟨c, lc, r, rfl, hc⟩ := hr
    simp [parseArg, expect, parseVal, valNum, hc, andThen, done, startsArg]
  | loc n l l2 w v hv =>
    cases hv
    simp [parseArg, expect, parseVal, number, valPair, andThen, done, startsArg]
  | scale n l l2 l3 l4 l5 a b i j hi hj =>
    simp [parseArg, expect, parseVal, valNum, number, mkScale, hi, hj, andThen, done, startsArg]
  | «at» l w v hv =>
    cases hv
    simp [parseArg, expect, parseLocation, number, andThen, done, startsArg]

theorem parseArgs_complete (w : Items α) (ms : List (Meta α)) (h : GTextParts w ms) : ∃ k : Nat, k ≤ w.length ∧
    ∀ (fuel : Nat) acc rest, parseArgs (fuel + k) acc (w ++ rest) = parseArgs fuel (acc ++ ms) rest := by
  induction h with
  | empty => exact ⟨0, Nat.le_refl _, by simp⟩
  | arg w a ms m l _ hg ih =>
    obtain ⟨k, hk, h⟩ := ih
    refine ⟨k + 1, by simp only [List.length_append, List.length_cons, List.length_nil]; omega, fun fuel acc rest => ?_⟩
    have e : fuel + (k + 1) = (fuel + 1) + k := by rw [Nat.add_right_comm, Nat.add_assoc]
    have e2 : w ++ a ++ [.tok (.p ';') l] ++ rest = w ++ (a ++ (.tok (.p ';') l :: rest)) := by simp
    rw [e, e2, h]
    obtain ⟨h1, h2⟩ := parseArg_complete a m hg (.tok (.p ';') l :: rest) ⟨';', l, rest, rfl, by decide⟩
    simp only [parseArgs, h1, h2, if_true, andThen, expect, List.append_assoc]

theorem parseMore_complete (w : Items α) (ms : List (Meta α)) (h : GDimParts w ms) : ∃ a m w' ms' k, w = a ++ w' ∧ ms = m :: ms' ∧ GArg a m ∧ k ≤ w'.length ∧
    (∀ rest, Follow rest → Follow (w' ++ rest)) ∧
    ∀ (fuel : Nat) acc rest, Follow rest → parseMore (fuel + k) acc (w' ++ rest) = parseMore fuel (acc ++ ms') rest := by
  induction h with
  | one a m hg => exact ⟨a, m, [], [], 0, by simp, rfl, hg, Nat.le_refl _, by simp, by simp⟩
  | more w a ms m l _ hg ih =>
    obtain ⟨a0, m0, w', ms', k, rfl, rfl, hg0, hk, hf, h⟩ := ih
    refine ⟨a0, m0, w' ++ [.tok (.p ',') l] ++ a, ms' ++ [m], k + 1, by simp, by simp, hg0, by simp only [List.length_append, List.length_cons, List.length_nil]; omega, ?_, ?_⟩
    · intro rest hr
      have := hf (.tok (.p ',') l :: (a ++ rest)) ⟨',', l, _, rfl, by decide⟩
      simpa using this
    · intro fuel acc rest hr
      have e : fuel + (k + 1) = (fuel + 1) + k := by rw [Nat.add_right_comm, Nat.add_assoc]
      have e2 : w' ++ [.tok (.p ',') l] ++ a ++ rest = w' ++ (.tok (.p ',') l :: (a ++ rest)) := by simp
      rw [e, e2, h _ _ _ ⟨',', l, _, rfl, by decide⟩]
      simp only [parseMore, if_true, (parseArg_complete a m hg rest hr).1, andThen, List.append_assoc]

theorem parseDim_complete (k : DimKind) (l l3 l5 l6 : Nat) (a : Items α) (args : List (Meta α)) (h : GDimParts a args) (rest : Items α) :
    parseDim k l (.tok (.p '(') l3 :: (a ++ (.tok (.p ')') l5 :: .tok (.p ';') l6 :: rest))) = .ok (some (⟨k, args, l⟩, rest)) := by
  obtain ⟨a0, m, w', ms', n, rfl, rfl, hg, hn, hf, hc⟩ := parseMore_complete a args h
  have hr : Follow (Item.tok (.p ')') l5 :: .tok (.p ';') l6 :: rest) := ⟨')', l5, _, rfl, by decide⟩
  have harg := parseArg_complete a0 m hg (w' ++ (.tok (.p ')') l5 :: .tok (.p ';') l6 :: rest)) (hf _ hr)
  simp only [parseDim, expect, if_true, List.append_assoc, harg.1, harg.2, andThen]
  obtain ⟨f, hf'⟩ : ∃ f, (w' ++ (.tok (.p ')') l5 :: .tok (.p ';') l6 :: rest)).length + 1 = (f + 1) + n := by
    refine ⟨(w' ++ (.tok (.p ')') l5 :: .tok (.p ';') l6 :: rest)).length - n, ?_⟩
    simp; omega
  rw [hf', hc _ _ _ hr]
  simp [parseMore, done]

theorem parseDrawParts_complete (w : Items α) (ms : List (Meta α)) (ds : List (DimN α)) (h : GDrawParts w ms ds) : ∃ k : Nat, k ≤ w.length ∧
    ∀ (fuel : Nat) ms0 ds0 rest, parseDrawParts (fuel + k) ms0 ds0 (w ++ rest) = parseDrawParts fuel (ms0 ++ ms) (ds0 ++ ds) rest := by
  induction h with
  | empty => exact ⟨0, Nat.le_refl _, by simp⟩
  | arg w a ms ds m l _ hg ih =>
    obtain ⟨k, hk, h⟩ := ih
    refine ⟨k + 1, by simp only [List.length_append, List.length_cons, List.length_nil]; omega, fun fuel ms0 ds0 rest => ?_⟩
    have e : fuel + (k + 1) = (fuel + 1) + k := by rw [Nat.add_right_comm, Nat.add_assoc]
    have e2 : w ++ a ++ [.tok (.p ';') l] ++ rest = w ++ (a ++ (.tok (.p ';') l :: rest)) := by simp
    rw [e, e2, h]
    obtain ⟨h1, h2⟩ := parseArg_complete a m hg (.tok (.p ';') l :: rest) ⟨';', l, rest, rfl, by decide⟩
    simp only [parseDrawParts, h1, h2, if_true, andThen, expect, List.append_assoc]
  | dim0 w ms ds t kd l l3 l4 l5 _ hk' ih =>
    obtain ⟨k, hk, h⟩ := ih
    refine ⟨k + 1, by simp only [List.length_append, List.length_cons, List.length_nil]; omega, fun fuel ms0 ds0 rest => ?_⟩
    have e : fuel + (k + 1) = (fuel + 1) + k := by rw [Nat.add_right_comm, Nat.add_assoc]
    rw [e, List.append_assoc, h]
    cases hk' <;> simp [parseDrawParts, startsArg, dimKind, parseDim, expect, done, andThen]
  | dim w a ms args ds t kd l l3 l5 l6 _ hk' hd ih =>
    obtain ⟨k, hk, h⟩ := ih
    refine ⟨k + 1, by simp only [List.length_append, List.length_cons, List.length_nil]; omega, fun fuel ms0 ds0 rest => ?_⟩
    have e : fuel + (k + 1) = (fuel + 1) + k := by rw [Nat.add_right_comm, Nat.add_assoc]
    have e2 : w ++ [.tok t l, .tok (.p '(') l3] ++ a ++ [.tok (.p ')') l5, .tok (.p ';') l6] ++ rest =
      w ++ (.tok t l :: .tok (.p '(') l3 :: (a ++ (.tok (.p ')') l5 :: .tok (.p ';') l6 :: rest))) := by simp
    rw [e, e2, h]
    have hdim := parseDim_complete kd l l3 l5 l6 a args hd rest
    cases hk' <;> simp [parseDrawParts, startsArg, dimKind, hdim, andThen]

theorem parseDrawParts_end (w : Items α) (ms : List (Meta α)) (ds : List (DimN α)) (h : GDrawParts w ms ds) (l : Nat) (rest : Items α) (n : Nat)
    (hn : w.length < n) : parseDrawParts n [] [] (w ++ .tok (.p '}') l :: rest) = .ok (some ((ms, ds), .tok (.p '}') l :: rest)) := by
  obtain ⟨k, hk, h⟩ := parseDrawParts_complete w ms ds h
  obtain ⟨f, rfl⟩ : ∃ f, n = (f + 1) + k := ⟨n - k - 1, by omega⟩
  rw [h]
  simp [parseDrawParts, startsArg, dimKind, done]

theorem parseArgs_end (w : Items α) (ms : List (Meta α)) (h : GTextParts w ms) (l : Nat) (rest : Items α) (n : Nat)
    (hn : w.length < n) : parseArgs n [] (w ++ .tok (.p '}') l :: rest) = .ok (some (ms, .tok (.p '}') l :: rest)) := by
  obtain ⟨k, hk, h⟩ := parseArgs_complete w ms h
  obtain ⟨f, rfl⟩ : ∃ f, n = (f + 1) + k := ⟨n - k - 1, by omega⟩
  rw [h]
  simp [parseArgs, startsArg, done]

theorem parsePageParts_complete (w : Items α) (ms : List (Meta α)) (ds : List (Drawable α)) (h : GPageParts w ms ds) : ∃ k : Nat, k ≤ w.length ∧
    ∀ (fuel : Nat) ms0 ds0 rest, parsePageParts (fuel + k) ms0 ds0 (w ++ rest) = parsePageParts fuel (ms0 ++ ms) (ds0 ++ ds) rest := by
  induction h with
  | empty => exact ⟨0, Nat.le_refl _, by simp⟩
  | arg w a ms ds m l _ hg ih =>
    obtain ⟨k, hk, h⟩ := ih
    refine ⟨k + 1, by simp only [List.length_append, List.length_cons, List.length_nil]; omega, fun fuel ms0 ds0 rest => ?_⟩
    have e : fuel + (k + 1) = (fuel + 1) + k := by rw [Nat.add_right_comm, Nat.add_assoc]
    have e2 : w ++ a ++ [.tok (.p ';') l] ++ rest = w ++ (a ++ (.tok (.p ';') l :: rest)) := by simp
    rw [e, e2, h]
    obtain ⟨h1, h2⟩ := parseArg_complete a m hg (.tok (.p ';') l :: rest) ⟨';', l, rest, rfl, by decide⟩
    simp only [parsePageParts, h1, h2, if_true, andThen, expect, List.append_assoc]
  | draw w a ms ms' ds dims n l2 l l4 l6 _ hd ih =>
    obtain ⟨k, hk, h⟩ := ih
    refine ⟨k + 1, by simp only [List.length_append, List.length_cons, List.length_nil]; omega, fun fuel ms0 ds0 rest => ?_⟩
    have e : fuel + (k + 1) = (fuel + 1) + k := by rw [Nat.add_right_comm, Nat.add_assoc]
    have e2 : w ++ [.tok .kDraw l2, .tok (.id n) l, .tok (.p '{') l4] ++ a ++ [.tok (.p '}') l6] ++ rest =
      w ++ (.tok .kDraw l2 :: .tok (.id n) l :: .tok (.p '{') l4 :: (a ++ (.tok (.p '}') l6 :: rest))) := by simp
    rw [e, e2, h]
    have hparts := parseDrawParts_end a ms' dims hd l6 rest ((a ++ (.tok (.p '}') l6 :: rest)).length + 1) (by simp only [List.length_append, List.length_cons, List.length_nil]; omega)
    simp only [parsePageParts, startsArg, parseDraw, ident, expect, if_true, hparts, andThen, done, List.append_assoc]
    rfl
  | text w a b ms ms' ds s l l3 l5 l6 l8 _ hs hb ih =>
    obtain ⟨k, hk, h⟩ := ih
    refine ⟨k + 1, by simp only [List.length_append, List.length_cons, List.length_nil]; omega, fun fuel ms0 ds0 rest => ?_⟩
    have e : fuel + (k + 1) = (fuel + 1) + k := by rw [Nat.add_right_comm, Nat.add_assoc]
    obtain ⟨s0, ls, a', rfl, hstr⟩ := parseStrs_complete a s hs
    have e2 : w ++ [.tok .kText l, .tok (.p '[') l3] ++ (.tok (.str s0) ls :: a') ++ [.tok (.p ']') l5, .tok (.p '{') l6] ++ b ++ [.tok (.p '}') l8] ++ rest =
      w ++ (.tok .kText l :: .tok (.p '[') l3 :: .tok (.str s0) ls :: (a' ++ (.tok (.p ']') l5 :: .tok (.p '{') l6 :: (b ++ (.tok (.p '}') l8 :: rest))))) := by simp
    rw [e, e2, h]
    have hargs := parseArgs_end b ms' hb l8 rest ((b ++ (.tok (.p '}') l8 :: rest)).length + 1) (by simp only [List.length_append, List.length_cons, List.length_nil]; omega)
    have hst := hstr (.tok (.p ']') l5 :: .tok (.p '{') l6 :: (b ++ (.tok (.p '}') l8 :: rest))) (by simp)
    simp only [parsePageParts, startsArg, parseText, expect, strLit, if_true, hst, hargs, andThen, done, List.append_assoc]
    rfl

theorem parsePageParts_end (w : Items α) (ms : List (Meta α)) (ds : List (Drawable α)) (h : GPageParts w ms ds) (l : Nat) (rest : Items α) (n : Nat)
    (hn : w.length < n) : parsePageParts n [] [] (w ++ .tok (.p '}') l :: rest) = .ok (some ((ms, ds), .tok (.p '}') l :: rest)) := by
  obtain ⟨k, hk, h⟩ := parsePageParts_complete w ms ds h
  obtain ⟨f, rfl⟩ : ∃ f, n = (f + 1) + k := ⟨n - k - 1, by omega⟩
  rw [h]
  simp [parsePageParts, startsArg, done]

theorem parseInput_complete (w : Items α) (d : Doc α) (h : GInput w d) : ∃ k : Nat, k ≤ w.length ∧
    ∀ (fuel : Nat) ms0 ps0 rest, parseInput (fuel + k) ms0 ps0 (w ++ rest) = parseInput fuel (ms0 ++ d.models) (ps0 ++ d.pages) rest := by
  induction h with
  | empty => exact ⟨0, Nat.le_refl _, by simp⟩
  | model w a ms ps m _ hg ih =>
    obtain ⟨k, hk, h⟩ := ih
    cases hg with
    | mk n s l l2 l3 l4 l5 =>
      refine ⟨k + 1, by simp only [List.length_append, List.length_cons, List.length_nil]; omega, fun fuel ms0 ps0 rest => ?_⟩
      have e : fuel + (k + 1) = (fuel + 1) + k := by rw [Nat.add_right_comm, Nat.add_assoc]
      rw [e, List.append_assoc, h]
      simp [parseInput, parseModel, ident, expect, strLit, done, andThen]
  | page w a ms ps p _ hg ih =>
    obtain ⟨k, hk, h⟩ := ih
    cases hg with
    | mk l l2 l4 b pm pd hb =>
      refine ⟨k + 1, by simp only [List.length_append, List.length_cons, List.length_nil]; omega, fun fuel ms0 ps0 rest => ?_⟩
      have e : fuel + (k + 1) = (fuel + 1) + k := by rw [Nat.add_right_comm, Nat.add_assoc]
      have e2 : w ++ ([.tok .kPage l, .tok (.p '{') l2] ++ b ++ [.tok (.p '}') l4]) ++ rest =
        w ++ (.tok .kPage l :: .tok (.p '{') l2 :: (b ++ (.tok (.p '}') l4 :: rest))) := by simp
      rw [e, e2, h]
      have hp := parsePageParts_end b pm pd hb l4 rest ((b ++ (.tok (.p '}') l4 :: rest)).length + 1) (by simp only [List.length_append, List.length_cons, List.length_nil]; omega)
      simp only [parseInput, parsePage, expect, if_true, hp, andThen, done, List.append_assoc]

theorem parseItems_iff (its : Items α) (d : Doc α) : parseItems its = .ok (some d) ↔ GInput its d := by
  constructor
  · intro h
    simpa using parseInput_sound _ [] [] its d [] .empty h
  · intro h
    obtain ⟨k, hk, hc⟩ := parseInput_complete its d h
    obtain ⟨f, hf⟩ : ∃ f, its.length + 1 = (f + 1) + k := ⟨its.length - k, by omega⟩
    have := hc (f + 1) [] [] []
    rw [List.append_nil] at this
    unfold parseItems
    rw [hf, this]
    simp [parseInput]

end S2P
