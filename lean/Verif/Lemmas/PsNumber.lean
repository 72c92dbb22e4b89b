import Verif.Spec.PsNumber
import Verif.Lemmas.Ext
import Verif.Model.Ps
import Mathlib.Data.Int.Log
import Mathlib.Tactic.Linarith
import Mathlib.Tactic.Positivity
import Mathlib.Tactic.FieldSimp
import Mathlib.Tactic.Ring
import Mathlib.Tactic.IntervalCases

set_option linter.unusedSectionVars false
set_option linter.unusedVariables false
set_option linter.unusedSimpArgs false

/-! # Numbers as they are printed -/

namespace S2P
namespace PS

theorem decVal_app (a b : Str) : decVal (a ++ b) = decVal a * 10 ^ b.length + decVal b := by
  induction b using List.reverseRecOn with
  | nil => simp [decVal]
  | append_singleton b c ih =>
    rw [← List.append_assoc]
    have e : ∀ s : Str, decVal (s ++ [c]) = decVal s * 10 + (c.toNat - 48) := by intro s; simp [decVal]
    rw [e, e, ih, List.length_append, List.length_singleton, pow_succ]
    ring

theorem decVal_zeros (n : Nat) : decVal (List.replicate n '0') = 0 := by
  induction n with
  | zero => rfl
  | succ n ih => rw [List.replicate_succ', decVal_app, ih]; simp [decVal]

theorem digit_toNat (n : Nat) (h : n < 10) : (Char.ofNat (48 + n)).toNat = 48 + n := by
  interval_cases n <;> decide

theorem natDigits_spec (n : Nat) : decVal (Ext.natDigits n) = n ∧ (∀ c ∈ Ext.natDigits n, isDec c = true) ∧ Ext.natDigits n ≠ [] ∧
    ∀ k, 10 ^ k ≤ n → n < 10 ^ (k + 1) → (Ext.natDigits n).length = k + 1 := by
  induction n using Nat.strong_induction_on with
  | _ n ih =>
    unfold Ext.natDigits
    by_cases h : n < 10
    · rw [dif_pos h]
      refine ⟨by simp [decVal, digit_toNat n h], ?_, by simp, ?_⟩
      · intro c hc
        simp only [List.mem_singleton] at hc
        subst hc
        simp only [isDec, digit_toNat n h]
        simp; omega
      · intro k h1 h2
        cases k with
        | zero => rfl
        | succ k =>
          have : 10 ≤ 10 ^ (k + 1) := by rw [pow_succ]; have := Nat.one_le_pow k 10 (by norm_num); omega
          omega
    · rw [dif_neg h]
      obtain ⟨i1, i2, i3, i4⟩ := ih (n / 10) (by omega)
      have hm : n % 10 < 10 := Nat.mod_lt _ (by norm_num)
      refine ⟨?_, ?_, by simp, ?_⟩
      · rw [decVal_app, i1]
        simp [decVal, digit_toNat _ hm]
        omega
      · intro c hc
        rcases List.mem_append.1 hc with hc | hc
        · exact i2 c hc
        · simp only [List.mem_singleton] at hc
          subst hc
          simp only [isDec, digit_toNat _ hm]
          simp; omega
      · intro k h1 h2
        cases k with
        | zero => simp at h2; omega
        | succ k =>
          rw [List.length_append, i4 k (by rw [pow_succ] at h1; omega) (by rw [pow_succ] at h2; omega)]
          rfl

theorem dropZeros_spec (s : Str) : ∃ z, s = Ext.dropZeros s ++ List.replicate z '0' := by
  unfold Ext.dropZeros
  have h := List.takeWhile_append_dropWhile (p := fun c : Char => c == '0') (l := s.reverse)
  refine ⟨(s.reverse.takeWhile (· == '0')).length, ?_⟩
  have e : s.reverse.takeWhile (fun c => c == '0') = List.replicate (s.reverse.takeWhile (· == '0')).length '0' := by
    apply List.eq_replicate_of_mem
    intro c hc
    have : ∀ l : Str, c ∈ l.takeWhile (fun c => c == '0') → c = '0' := by
      intro l
      induction l with
      | nil => simp
      | cons a l ih =>
        intro h
        by_cases ha : a = '0'
        · subst ha
          simp at h
          rcases h with h | h
          · exact h
          · exact ih h
        · simp [ha] at h
    exact this _ hc
  have := congrArg List.reverse h
  rw [List.reverse_append, List.reverse_reverse] at this
  conv => lhs; rw [← this]
  congr 1
  conv => lhs; rw [e]
  simp

theorem takeWhile_digits {a : Str} (ha : ∀ c ∈ a, isDec c = true) (b : Str) (hb : ∀ c t, b = c :: t → isDec c = false) :
    (a ++ b).takeWhile isDec = a ∧ (a ++ b).dropWhile isDec = b := by
  induction a with
  | nil =>
    cases b with
    | nil => simp
    | cons c t => simp [hb c t rfl]
  | cons c a ih =>
    obtain ⟨h1, h2⟩ := ih (fun x hx => ha x (List.mem_cons_of_mem _ hx))
    simp [ha c List.mem_cons_self, h1, h2]

theorem readDigits_int {a : Str} (ha : ∀ c ∈ a, isDec c = true) (r : Str) (hr : ∀ c t, r = c :: t → isDec c = false ∧ c ≠ '.') :
    readDigits (a ++ r) = (a, [], r) := by
  obtain ⟨h1, h2⟩ := takeWhile_digits ha r (fun c t h => (hr c t h).1)
  unfold readDigits
  rw [h1, h2]
  cases r with
  | nil => rfl
  | cons c t =>
    split
    · rename_i h; cases h; exact absurd rfl (hr _ _ rfl).2
    · rfl

theorem readDigits_frac {a b : Str} (ha : ∀ c ∈ a, isDec c = true) (hb : ∀ c ∈ b, isDec c = true) (r : Str)
    (hr : ∀ c t, r = c :: t → isDec c = false) : readDigits (a ++ '.' :: b ++ r) = (a, b, r) := by
  rw [List.append_assoc, List.cons_append]
  obtain ⟨h1, h2⟩ := takeWhile_digits ha ('.' :: (b ++ r)) (by intro c t h; cases h; decide)
  obtain ⟨h3, h4⟩ := takeWhile_digits hb r hr
  unfold readDigits
  rw [h1, h2]
  simp only [h3, h4]

theorem signed_digit {s : Str} (h : ∀ c t, s = c :: t → isDec c = true) : signed s = (false, s) := by
  cases s with
  | nil => rfl
  | cons c t =>
    have := h c t rfl
    unfold signed
    split
    · rename_i e; cases e; exact absurd this (by decide)
    · rename_i e; cases e; exact absurd this (by decide)
    · rfl

/-- the value of a laid out significand and exponent; the text begins with a digit -/
theorem layout6_value (e : Int) (m : Nat) (h1 : 100000 ≤ m) (h2 : m < 1000000) :
    (∃ c t, Ext.layout6 e m = c :: t ∧ isDec c = true) ∧
    ∃ d, readDigits (Ext.layout6 e m) = d ∧ d.1 ++ d.2.1 ≠ [] ∧
      ∃ x, readExp d.2.2 = some x ∧ (decVal (d.1 ++ d.2.1) : ℚ) * (10 : ℚ) ^ (x - d.2.1.length) = m * (10 : ℚ) ^ (e - 5) := by
  obtain ⟨n1, n2, n3, n4⟩ := natDigits_spec m
  have n4 := n4 5 (by norm_num; exact h1) (by norm_num; exact h2)
  obtain ⟨z, hz⟩ := dropZeros_spec (Ext.natDigits m)
  unfold Ext.layout6
  dsimp only
  generalize hds : Ext.dropZeros (Ext.natDigits m) = ds at hz ⊢
  have hdec : ∀ c ∈ ds, isDec c = true := fun c hc => n2 c (by rw [hz]; exact List.mem_append_left _ hc)
  have hval : decVal ds * 10 ^ z = m := by
    rw [← n1, hz, decVal_app, decVal_zeros]; simp
  have hlen : ds.length + z = 6 := by
    rw [hz, List.length_append, List.length_replicate] at n4; exact n4
  have hne : ds ≠ [] := by
    rintro rfl
    simp [decVal] at hval
    omega
  have hq : (m : ℚ) = decVal ds * (10 : ℚ) ^ (6 - ds.length : Int) := by
    have : (z : Int) = 6 - ds.length := by omega
    rw [← this, zpow_natCast]
    exact_mod_cast hval.symm
  have ten : (10 : ℚ) ≠ 0 := by norm_num
  have hlen1 : 1 ≤ ds.length := List.length_pos_iff.2 hne
  have hzeros : ∀ n, ∀ c ∈ List.replicate n '0', isDec c = true := by
    intro n c hc; rw [List.eq_of_mem_replicate hc]; decide
  by_cases hmid : -4 ≤ e ∧ e ≤ 5
  · rw [if_pos hmid]
    by_cases h0 : 0 ≤ e
    · rw [if_pos h0]
      obtain ⟨k, rfl⟩ := Int.eq_ofNat_of_zero_le h0
      simp only [Int.ofNat_eq_natCast, Int.toNat_natCast]
      by_cases hk : k + 1 < ds.length
      · have e1 : (ds ++ List.replicate (k + 1) '0').take (k + 1) = ds.take (k + 1) := by
          rw [List.take_append_of_le_length (by omega)]
        have hfne : ds.drop (k + 1) ≠ [] := by
          intro h; have := congrArg List.length h; simp at this; omega
        rw [e1, if_neg hfne]
        have hd := readDigits_frac (a := ds.take (k + 1)) (b := ds.drop (k + 1)) (fun c hc => hdec c (List.mem_of_mem_take hc))
          (fun c hc => hdec c (List.mem_of_mem_drop hc)) [] (by simp)
        rw [List.append_nil] at hd
        constructor
        · cases ds with
          | nil => exact absurd rfl hne
          | cons c t => exact ⟨c, _, by simp [List.take_succ_cons]; rfl, hdec c List.mem_cons_self⟩
        · refine ⟨_, hd, by simp [hne], 0, rfl, ?_⟩
          simp only [List.take_append_drop, List.length_drop]
          rw [hq, mul_assoc, ← zpow_add₀ ten]
          congr 2
          omega
      · have hfe : ds.drop (k + 1) = [] := List.drop_eq_nil_of_le (by omega)
        have e1 : (ds ++ List.replicate (k + 1) '0').take (k + 1) = ds ++ List.replicate (k + 1 - ds.length) '0' := by
          rw [List.take_append, List.take_of_length_le (by omega), List.take_replicate]
          congr 2; omega
        rw [if_pos hfe, e1]
        have hall : ∀ c ∈ ds ++ List.replicate (k + 1 - ds.length) '0', isDec c = true := by
          intro c hc
          rcases List.mem_append.1 hc with h | h
          · exact hdec c h
          · exact hzeros _ c h
        have hd := readDigits_int hall [] (by simp)
        rw [List.append_nil] at hd
        constructor
        · cases ds with
          | nil => exact absurd rfl hne
          | cons c t => exact ⟨c, _, rfl, hdec c List.mem_cons_self⟩
        · refine ⟨_, hd, by simp [hne], 0, rfl, ?_⟩
          simp only [List.append_nil, decVal_app, decVal_zeros, List.length_replicate, List.length_nil]
          rw [hq, mul_assoc, ← zpow_add₀ ten]
          have : (6 - (ds.length : Int) + ((k : Int) - 5)) = ((k + 1 - ds.length : Nat) : Int) := by omega
          rw [this, zpow_natCast]
          push_cast
          ring
    · rw [if_neg h0]
      have hall : ∀ c ∈ List.replicate (-e - 1).toNat '0' ++ ds, isDec c = true := by
        intro c hc
        rcases List.mem_append.1 hc with h | h
        · exact hzeros _ c h
        · exact hdec c h
      have hd := readDigits_frac (a := c!"0") (b := List.replicate (-e - 1).toNat '0' ++ ds) (by decide) hall [] (by simp)
      rw [List.append_nil] at hd
      have e1 : c!"0." ++ List.replicate (-e - 1).toNat '0' ++ ds = c!"0" ++ '.' :: (List.replicate (-e - 1).toNat '0' ++ ds) := by simp
      rw [e1]
      refine ⟨⟨'0', _, rfl, by decide⟩, _, hd, by simp, 0, rfl, ?_⟩
      rw [decVal_app, decVal_app, decVal_zeros]
      simp only [List.length_append, List.length_replicate]
      rw [hq, mul_assoc, ← zpow_add₀ ten]
      have e2 : decVal c!"0" = 0 := by decide
      rw [e2]
      simp only [Nat.zero_mul, Nat.zero_add]
      congr 2
      push_cast
      omega
  · rw [if_neg hmid]
    obtain ⟨a1, a2, a3, -⟩ := natDigits_spec e.natAbs
    generalize Ext.natDigits e.natAbs = ea at a1 a2 a3 ⊢
    have hexp : ∀ s : Str, (∀ c ∈ s, isDec c = true) → s ≠ [] → decVal s = e.natAbs →
        readExp (['e', if e < 0 then '-' else '+'] ++ s) = some e := by
      intro s s1 s2 s3
      unfold readExp
      simp only [List.cons_append, List.nil_append, true_or, if_true]
      have : signed ((if e < 0 then '-' else '+') :: s) = (decide (e < 0), s) := by
        by_cases h : e < 0 <;> simp [h, signed]
      rw [this]
      have hs : s.all isDec = true := List.all_eq_true.2 s1
      rw [if_pos ⟨s2, hs⟩]
      dsimp only
      rw [s3, Option.some.injEq]
      by_cases h : e < 0
      · rw [if_pos (decide_eq_true h)]; omega
      · rw [if_neg (by simpa using h)]; omega
    have hx : readExp (['e', if e < 0 then '-' else '+'] ++ (if ea.length < 2 then '0' :: ea else ea)) = some e := by
      by_cases hl2 : ea.length < 2
      · rw [if_pos hl2]
        refine hexp _ ?_ (by simp) ?_
        · intro c hc
          rcases List.mem_cons.1 hc with rfl | hc
          · decide
          · exact a2 c hc
        · rw [show '0' :: ea = c!"0" ++ ea from rfl, decVal_app, a1, show decVal c!"0" = 0 from by decide]; simp
      · rw [if_neg hl2]; exact hexp _ a2 a3 a1
    generalize hT : (['e', if e < 0 then '-' else '+'] ++ (if ea.length < 2 then '0' :: ea else ea)) = T at hx
    have hTc : ∀ c t, T = c :: t → isDec c = false ∧ c ≠ '.' := by
      intro c t h
      rw [← hT] at h
      cases h
      decide
    have e1 : ∀ man : Str, man ++ ['e', if e < 0 then '-' else '+'] ++ (if ea.length < 2 then '0' :: ea else ea) = man ++ T := by
      intro man; rw [← hT]; simp
    rw [e1]
    match ds, hne, hdec, hq with
    | [c], _, hdec, hq =>
      refine ⟨⟨c, _, rfl, hdec c List.mem_cons_self⟩, _, readDigits_int hdec T hTc, by simp, e, hx, ?_⟩
      simp only [List.append_nil, List.length_nil]
      rw [hq, mul_assoc, ← zpow_add₀ ten]
      congr 2
      simp
    | c :: d :: t, _, hdec, hq =>
      have hd := readDigits_frac (a := [c]) (b := d :: t) (by simpa using hdec c List.mem_cons_self)
        (fun x hx => hdec x (List.mem_cons_of_mem _ hx)) T (fun c t h => (hTc c t h).1)
      refine ⟨⟨c, _, rfl, hdec c List.mem_cons_self⟩, _, hd, by simp, e, hx, ?_⟩
      simp only [List.cons_append, List.nil_append]
      rw [hq, mul_assoc, ← zpow_add₀ ten]
      congr 2
      simp; omega

variable {K : Type} [Field K] [LinearOrder K] [IsStrictOrderedRing K] [FloorRing K]

theorem roundEven_spec (y : K) : |(Ext.roundEven y : K) - y| ≤ 1 / 2 := by
  have h1 := Int.floor_le y
  have h2 := Int.lt_floor_add_one y
  unfold Ext.roundEven
  dsimp only
  split_ifs with a b c
  · rw [abs_le]; constructor <;> linarith
  · push_cast; rw [abs_le]; constructor <;> linarith
  · rw [abs_le]; constructor <;> linarith
  · push_cast; rw [abs_le]; constructor <;> linarith

theorem sixDigits_spec (x : K) (hx : 0 < x) : 100000 ≤ (Ext.sixDigits x).2 ∧ (Ext.sixDigits x).2 < 1000000 ∧
    |((Ext.sixDigits x).2 : K) * (10 : K) ^ ((Ext.sixDigits x).1 - 5) - x| ≤ x * (5 / 10 ^ 6) := by
  have ten : (0 : K) < 10 := by norm_num
  have l1 : (10 : K) ^ Int.log 10 x ≤ x := by exact_mod_cast Int.zpow_log_le_self (b := 10) (by norm_num) hx
  have l2 : x < (10 : K) ^ (Int.log 10 x + 1) := by exact_mod_cast Int.lt_zpow_succ_log_self (b := 10) (by norm_num) x
  unfold Ext.sixDigits
  dsimp only
  generalize Int.log 10 x = e at l1 l2 ⊢
  have hp : (0 : K) < (10 : K) ^ (e - 5) := zpow_pos ten _
  have e0 : (10 : K) ^ e = 10 ^ 5 * (10 : K) ^ (e - 5) := by
    rw [← zpow_natCast, ← zpow_add₀ ten.ne']; congr 1; simp
  have e1 : (10 : K) ^ (e + 1) = 10 ^ 6 * (10 : K) ^ (e - 5) := by
    rw [← zpow_natCast, ← zpow_add₀ ten.ne']; congr 1; push_cast; ring
  generalize hy : x / (10 : K) ^ (e - 5) = y
  have hxy : x = y * (10 : K) ^ (e - 5) := by rw [← hy]; field_simp
  have y1 : (10 : K) ^ 5 ≤ y := by
    rw [e0, hxy] at l1; exact le_of_mul_le_mul_right l1 hp
  have y2 : y < (10 : K) ^ 6 := by
    rw [e1, hxy] at l2; exact lt_of_mul_lt_mul_right l2 hp.le
  have hr := abs_le.1 (roundEven_spec y)
  generalize Ext.roundEven y = r at hr ⊢
  have r1 : 100000 ≤ r := by
    have : (99999 : K) < r := by norm_num at y1; linarith [hr.1]
    have : (99999 : Int) < r := by exact_mod_cast this
    omega
  have r2 : r ≤ 1000000 := by
    have : (r : K) < 1000001 := by norm_num at y2; linarith [hr.2]
    have : r < (1000001 : Int) := by exact_mod_cast this
    omega
  have herr : |(r : K) * (10 : K) ^ (e - 5) - x| ≤ x * (5 / 10 ^ 6) := by
    rw [hxy, ← sub_mul, abs_mul, abs_of_pos hp]
    have : y * (10 : K) ^ (e - 5) * (5 / 10 ^ 6) = (y * (5 / 10 ^ 6)) * (10 : K) ^ (e - 5) := by ring
    rw [this]
    apply mul_le_mul_of_nonneg_right _ hp.le
    rw [abs_le]
    norm_num at y1 ⊢
    constructor <;> linarith [hr.1, hr.2]
  have hN : (r.toNat : K) = (r : K) := by
    have : ((r.toNat : Int) : K) = (r : K) := by rw [Int.toNat_of_nonneg (by omega)]
    exact_mod_cast this
  split_ifs with hm
  · refine ⟨by norm_num, by norm_num, ?_⟩
    have hr6 : (r : K) = 1000000 := by rw [← hN, hm]; norm_num
    have : ((100000 : Nat) : K) * (10 : K) ^ (e + 1 - 5) = (r : K) * (10 : K) ^ (e - 5) := by
      rw [hr6, show e + 1 - 5 = (e - 5) + 1 from by ring, zpow_add_one₀ ten.ne']; push_cast; ring
    simp only [this]
    exact herr
  · refine ⟨by dsimp only; omega, by dsimp only; omega, ?_⟩
    simp only [hN]
    exact herr

/-- every number printed reads back as the number, to six digits -/
theorem show6_reads (x : K) : ∃ q, readNum (Ext.show6 x) = some q ∧ SixDigits x q := by
  have pos : ∀ y : K, 0 < y → ∃ (d : Str × Str × Str) (ex : Int) (c : Char) (t : Str), Ext.layout6 (Ext.sixDigits y).1 (Ext.sixDigits y).2 = c :: t ∧ isDec c = true ∧
      readDigits (Ext.layout6 (Ext.sixDigits y).1 (Ext.sixDigits y).2) = d ∧ d.1 ++ d.2.1 ≠ [] ∧ readExp d.2.2 = some ex ∧
      |(((decVal (d.1 ++ d.2.1) : ℚ) * (10 : ℚ) ^ (ex - d.2.1.length) : ℚ) : K) - y| ≤ y * (5 / 10 ^ 6) := by
    intro y hy
    obtain ⟨s1, s2, s3⟩ := sixDigits_spec y hy
    obtain ⟨⟨c, t, h1, h2⟩, d, h3, h4, ex, h5, h6⟩ := layout6_value (Ext.sixDigits y).1 (Ext.sixDigits y).2 s1 s2
    refine ⟨d, ex, c, t, h1, h2, h3, h4, h5, ?_⟩
    rw [h6]
    push_cast
    exact s3
  unfold Ext.show6
  by_cases h0 : x = 0
  · rw [if_pos h0]
    refine ⟨0, by decide +kernel, ?_⟩
    simp [SixDigits, h0]
  · rw [if_neg h0]
    by_cases hp : 0 < x
    · rw [if_pos hp]
      obtain ⟨d, ex, c, t, h1, h2, h3, h4, h5, h6⟩ := pos x hp
      dsimp only
      unfold readNum
      rw [signed_digit (by intro a b h; rw [h1] at h; cases h; exact h2)]
      dsimp only
      rw [h3, if_neg h4, h5]
      refine ⟨_, rfl, ?_⟩
      unfold SixDigits
      rw [abs_of_pos hp]
      simpa using h6
    · rw [if_neg hp]
      have hn : 0 < -x := by
        rcases lt_trichotomy x 0 with h | h | h
        · linarith
        · exact absurd h h0
        · exact absurd h hp
      obtain ⟨d, ex, c, t, h1, h2, h3, h4, h5, h6⟩ := pos (-x) hn
      dsimp only
      unfold readNum
      rw [show signed ('-' :: Ext.layout6 (Ext.sixDigits (-x)).1 (Ext.sixDigits (-x)).2) = (true, Ext.layout6 (Ext.sixDigits (-x)).1 (Ext.sixDigits (-x)).2) from rfl]
      dsimp only
      rw [h3, if_neg h4, h5]
      refine ⟨_, rfl, ?_⟩
      unfold SixDigits
      rw [abs_of_neg (show x < 0 by linarith)]
      rw [abs_sub_comm]
      have e : ∀ a b : K, x - (-1 * a * b) = a * b - -x := by intros; ring
      push_cast at h6 ⊢
      simp only [if_true]
      push_cast
      rw [e]
      exact h6

/-! ## Numbers are single tokens -/

theorem dec_regular {c : Char} (h : isDec c = true) : isRegular c = true := by
  simp only [isDec, Bool.and_eq_true, decide_eq_true_eq] at h
  obtain ⟨h1, h2⟩ := h
  have : ∀ d : Char, d.toNat < 48 ∨ 57 < d.toNat → c ≠ d := by
    rintro d hd rfl; omega
  have hs : isSpace c = false := by simp [isSpace]; omega
  have hd : isDelim c = false := by
    simp only [isDelim, Bool.or_eq_false_iff, decide_eq_false_iff_not]
    refine ⟨⟨⟨⟨⟨⟨⟨⟨⟨?_, ?_⟩, ?_⟩, ?_⟩, ?_⟩, ?_⟩, ?_⟩, ?_⟩, ?_⟩, ?_⟩ <;> exact this _ (by decide)
  simp [isRegular, hs, hd]

theorem layout6_regular (e : Int) (m : Nat) : (∀ c ∈ Ext.layout6 e m, isRegular c = true) ∧ Ext.layout6 e m ≠ [] := by
  obtain ⟨z, hz⟩ := dropZeros_spec (Ext.natDigits m)
  have hdec : ∀ c ∈ Ext.dropZeros (Ext.natDigits m), isRegular c = true := fun c hc =>
    dec_regular ((natDigits_spec m).2.1 c (by rw [hz]; exact List.mem_append_left _ hc))
  have hzero : ∀ n, ∀ c ∈ List.replicate n '0', isRegular c = true := by
    intro n c hc; rw [List.eq_of_mem_replicate hc]; decide
  unfold Ext.layout6
  dsimp only
  generalize Ext.dropZeros (Ext.natDigits m) = ds at hdec ⊢
  split
  · split
    · have hip : ∀ c ∈ (ds ++ List.replicate (e.toNat + 1) '0').take (e.toNat + 1), isRegular c = true := by
        intro c hc
        rcases List.mem_append.1 (List.mem_of_mem_take hc) with h | h
        · exact hdec c h
        · exact hzero _ c h
      have hne : (ds ++ List.replicate (e.toNat + 1) '0').take (e.toNat + 1) ≠ [] := by
        intro h; have := congrArg List.length h; simp at this
      split
      · exact ⟨hip, hne⟩
      · refine ⟨?_, by simp⟩
        intro c hc
        rcases List.mem_append.1 hc with h | h
        · exact hip c h
        · rcases List.mem_cons.1 h with rfl | h
          · decide
          · exact hdec c (List.mem_of_mem_drop h)
    · refine ⟨?_, by simp⟩
      intro c hc
      rcases List.mem_append.1 hc with h | h
      · rcases List.mem_append.1 h with h | h
        · simp only [List.mem_cons, List.not_mem_nil, or_false] at h
          rcases h with rfl | rfl <;> decide
        · exact hzero _ c h
      · exact hdec c h
  · refine ⟨?_, by simp⟩
    have ha : ∀ c ∈ Ext.natDigits e.natAbs, isRegular c = true := fun c hc => dec_regular ((natDigits_spec _).2.1 c hc)
    intro c hc
    rcases List.mem_append.1 hc with h | h
    · rcases List.mem_append.1 h with h | h
      · revert h
        split
        · simp
        · intro h; exact hdec c h
        · intro h
          rcases List.mem_cons.1 h with rfl | h
          · exact hdec _ List.mem_cons_self
          · rcases List.mem_cons.1 h with rfl | h
            · decide
            · exact hdec c (List.mem_cons_of_mem _ h)
      · simp only [List.mem_cons, List.not_mem_nil, or_false] at h
        rcases h with rfl | rfl
        · decide
        · split <;> decide
    · split at h
      · rcases List.mem_cons.1 h with rfl | h
        · decide
        · exact ha c h
      · exact ha c h

theorem show6_regular (x : K) : (∀ c ∈ Ext.show6 x, isRegular c = true) ∧ Ext.show6 x ≠ [] := by
  unfold Ext.show6
  split
  · decide
  · split
    · exact layout6_regular _ _
    · refine ⟨?_, by simp⟩
      intro c hc
      rcases List.mem_cons.1 hc with rfl | hc
      · decide
      · exact (layout6_regular _ _).1 c hc

variable [Trans K]

theorem g6_regular (x : Ext K) : (∀ c ∈ FP.g6 x, isRegular c = true) ∧ FP.g6 x ≠ [] := by
  cases x with
  | fin a => exact show6_regular a
  | pinf => exact (by decide : (∀ c ∈ c!"inf", isRegular c = true) ∧ c!"inf" ≠ [])
  | ninf => exact (by decide : (∀ c ∈ c!"-inf", isRegular c = true) ∧ c!"-inf" ≠ [])
  | nan => exact (by decide : (∀ c ∈ c!"nan", isRegular c = true) ∧ c!"nan" ≠ [])

theorem natStr_regular (n : Nat) : (∀ c ∈ natStr n, isRegular c = true) ∧ natStr n ≠ [] :=
  ⟨fun c hc => dec_regular ((natDigits_spec n).2.1 c hc), (natDigits_spec n).2.2.1⟩

end PS
end S2P
