import Verif.Model.Binary64

/-! Binary64 rounding is monotone, idempotent, symmetric and exact on small integers. -/

namespace WG

theorem nearestEven_mono : Monotone nearestEven := by
  intro x y h
  have hf : ⌊x⌋ ≤ ⌊y⌋ := Int.floor_le_floor h
  rcases hf.lt_or_eq with hlt | heq
  · have h1 : nearestEven x ≤ ⌊x⌋ + 1 := by unfold nearestEven; split_ifs <;> omega
    have h2 : ⌊y⌋ ≤ nearestEven y := by unfold nearestEven; split_ifs <;> omega
    omega
  · have : Int.fract x ≤ Int.fract y := by
      have := Int.self_sub_floor x; have := Int.self_sub_floor y
      rw [heq] at *; linarith
    unfold nearestEven
    rw [heq]
    by_cases e : Even ⌊y⌋
    · simp only [e, if_true]; split_ifs <;> first | omega | (exfalso; linarith)
    · simp only [e, if_false]; split_ifs <;> first | omega | (exfalso; linarith)

theorem nearestEven_int (n : ℤ) : nearestEven n = n := by
  simp [nearestEven]

theorem nearestEven_eq (x : ℝ) (n : ℤ) (h : |x - n| < 1 / 2) : nearestEven x = n := by
  rw [abs_lt] at h
  by_cases hx : (n : ℝ) ≤ x
  · have hfl : ⌊x⌋ = n := by rw [Int.floor_eq_iff]; constructor <;> linarith
    have hfr : Int.fract x < 1 / 2 := by
      have := Int.self_sub_floor x; rw [hfl] at this; linarith
    simp only [nearestEven, hfl, if_pos hfr]
  · have hfl : ⌊x⌋ = n - 1 := by
      rw [Int.floor_eq_iff]; push_cast; constructor <;> linarith
    have hfr : 1 / 2 < Int.fract x := by
      have := Int.self_sub_floor x; rw [hfl] at this; push_cast at this; linarith
    simp only [nearestEven, hfl, if_pos hfr, if_neg (not_lt.mpr hfr.le)]; ring

theorem zpow2_pos (e : ℤ) : (0 : ℝ) < 2 ^ e := zpow_pos (by norm_num) e

theorem roundPos_le {x : ℝ} {m : ℤ} (h : x ≤ m * 2 ^ lastBit x) : roundPos x ≤ m * 2 ^ lastBit x := by
  have h1 : x / 2 ^ lastBit x ≤ m := by rw [div_le_iff₀ (zpow2_pos _)]; exact h
  have h2 := nearestEven_mono h1
  rw [nearestEven_int] at h2
  exact mul_le_mul_of_nonneg_right (by exact_mod_cast h2) (zpow2_pos _).le

theorem le_roundPos {x : ℝ} {m : ℤ} (h : m * 2 ^ lastBit x ≤ x) : m * 2 ^ lastBit x ≤ roundPos x := by
  have h1 : (m : ℝ) ≤ x / 2 ^ lastBit x := by rw [le_div_iff₀ (zpow2_pos _)]; exact h
  have h2 := nearestEven_mono h1
  rw [nearestEven_int] at h2
  exact mul_le_mul_of_nonneg_right (by exact_mod_cast h2) (zpow2_pos _).le

theorem roundPos_nonneg {x : ℝ} (h : 0 ≤ x) : 0 ≤ roundPos x := by
  have := le_roundPos (x := x) (m := 0) (by simpa using h)
  simpa using this

theorem roundPos_zero : roundPos 0 = 0 := by
  have : nearestEven 0 = 0 := by exact_mod_cast nearestEven_int 0
  simp [roundPos, this]

theorem zpow2_split (a b : ℤ) (h : b ≤ a) : (2 : ℝ) ^ a = ((2 ^ (a - b).toNat : ℤ) : ℝ) * 2 ^ b := by
  push_cast
  rw [← zpow_natCast, ← zpow_add₀ (by norm_num)]
  congr 1
  omega

theorem log_bounds {x : ℝ} (h : 0 < x) : (2 : ℝ) ^ Int.log 2 x ≤ x ∧ x < 2 ^ (Int.log 2 x + 1) :=
  ⟨by exact_mod_cast Int.zpow_log_le_self (b := 2) (by norm_num) h,
   by exact_mod_cast Int.lt_zpow_succ_log_self (b := 2) (by norm_num) x⟩

theorem roundPos_mono {x y : ℝ} (hx : 0 ≤ x) (h : x ≤ y) : roundPos x ≤ roundPos y := by
  rcases hx.eq_or_lt with rfl | hx
  · rw [roundPos_zero]; exact roundPos_nonneg h
  have hy : 0 < y := lt_of_lt_of_le hx h
  have hlog : Int.log 2 x ≤ Int.log 2 y := Int.log_mono_right hx h
  by_cases he : lastBit x = lastBit y
  · unfold roundPos
    rw [he]
    have : x / 2 ^ lastBit y ≤ y / 2 ^ lastBit y := div_le_div_of_nonneg_right h (zpow2_pos _).le
    exact mul_le_mul_of_nonneg_right (by exact_mod_cast nearestEven_mono this) (zpow2_pos _).le
  · have hb : Int.log 2 x < Int.log 2 y ∧ lastBit x < Int.log 2 y - 52 ∧ lastBit y = Int.log 2 y - 52 := by
      unfold lastBit at *; omega
    obtain ⟨h1, h2, h3⟩ := hb
    have hxl : x ≤ 2 ^ Int.log 2 y := by
      refine (log_bounds hx).2.le.trans ?_
      exact zpow_le_zpow_right₀ (by norm_num) (by omega)
    have hup : roundPos x ≤ 2 ^ Int.log 2 y := by
      rw [zpow2_split (Int.log 2 y) (lastBit x) (by omega)] at hxl ⊢
      exact roundPos_le hxl
    have hlow : 2 ^ Int.log 2 y ≤ roundPos y := by
      have hyl := (log_bounds hy).1
      rw [zpow2_split (Int.log 2 y) (lastBit y) (by omega)] at hyl ⊢
      exact le_roundPos hyl
    exact hup.trans hlow

theorem roundPos_fix (n : ℕ) (e : ℤ) (hn : n ≤ 2 ^ 53) (he : -1074 ≤ e) :
    roundPos (n * 2 ^ e) = n * 2 ^ e := by
  rcases Nat.eq_zero_or_pos n with rfl | hpos
  · simp [roundPos_zero]
  set y : ℝ := n * 2 ^ e with hy
  have hnr : (1 : ℝ) ≤ n := by exact_mod_cast hpos
  have hy0 : 0 < y := mul_pos (by linarith) (zpow2_pos e)
  have hint : ∃ m : ℤ, y = m * 2 ^ lastBit y := by
    by_cases hE : lastBit y ≤ e
    · refine ⟨n * 2 ^ (e - lastBit y).toNat, ?_⟩
      conv_lhs => rw [hy]
      rw [zpow2_split e (lastBit y) hE]
      push_cast; ring
    · have h1 : lastBit y = Int.log 2 y - 52 ∧ e + 53 ≤ Int.log 2 y := by unfold lastBit at *; omega
      have h2 : (2 : ℝ) ^ (e + 53) ≤ y :=
        (zpow_le_zpow_right₀ (by norm_num) h1.2).trans (log_bounds hy0).1
      have h3 : (2 : ℝ) ^ (53 : ℕ) ≤ n := by
        rw [zpow_add₀ (by norm_num), hy, mul_comm] at h2
        have := le_of_mul_le_mul_right h2 (zpow2_pos e)
        exact_mod_cast this
      have h4 : n = 2 ^ 53 := le_antisymm hn (by exact_mod_cast h3)
      have h5 : Int.log 2 y = e + 53 := by
        have : y = ((2 : ℕ) : ℝ) ^ (e + 53) := by
          rw [hy, h4, Nat.cast_ofNat, zpow_add₀ (by norm_num)]; push_cast; rw [mul_comm]; norm_cast
        rw [this, Int.log_zpow (by norm_num)]
      refine ⟨2 ^ 52, ?_⟩
      rw [h1.1, h5, show e + 53 - 52 = e + 1 by ring, hy, h4, zpow_add₀ (by norm_num)]
      push_cast; ring
  obtain ⟨m, hm⟩ := hint
  have : y / 2 ^ lastBit y = m := by
    rw [div_eq_iff (zpow2_pos _).ne']; exact hm
  rw [roundPos, this, nearestEven_int]
  exact hm.symm

theorem roundPos_form {x : ℝ} (h : 0 ≤ x) :
    ∃ n : ℕ, n ≤ 2 ^ 53 ∧ roundPos x = n * 2 ^ lastBit x ∧ -1074 ≤ lastBit x := by
  have hl : -1074 ≤ lastBit x := le_max_right _ _
  have h0 : 0 ≤ nearestEven (x / 2 ^ lastBit x) := by
    have := nearestEven_mono (div_nonneg h (zpow2_pos (lastBit x)).le)
    have z : nearestEven 0 = 0 := by exact_mod_cast nearestEven_int 0
    rwa [z] at this
  have h1 : nearestEven (x / 2 ^ lastBit x) ≤ 2 ^ 53 := by
    rcases h.eq_or_lt with rfl | hx
    · have z : nearestEven 0 = 0 := by exact_mod_cast nearestEven_int 0
      simp [z]
    · have hb : x ≤ 2 ^ (lastBit x + 53) := by
        refine (log_bounds hx).2.le.trans (zpow_le_zpow_right₀ (by norm_num) ?_)
        unfold lastBit; omega
      have : x / 2 ^ lastBit x ≤ ((2 ^ 53 : ℤ) : ℝ) := by
        rw [div_le_iff₀ (zpow2_pos _)]
        rw [zpow_add₀ (by norm_num), mul_comm] at hb
        exact_mod_cast hb
      have := nearestEven_mono this
      rwa [nearestEven_int] at this
  refine ⟨(nearestEven (x / 2 ^ lastBit x)).toNat, by omega, ?_, hl⟩
  unfold roundPos
  congr 1
  have : (((nearestEven (x / 2 ^ lastBit x)).toNat : ℤ) : ℝ) = (nearestEven (x / 2 ^ lastBit x) : ℝ) := by
    rw [Int.toNat_of_nonneg h0]
  exact_mod_cast this.symm

theorem roundPos_idem {x : ℝ} (h : 0 ≤ x) : roundPos (roundPos x) = roundPos x := by
  obtain ⟨n, hn, e, hl⟩ := roundPos_form h
  rw [e]; exact roundPos_fix n _ hn hl

theorem fl64_nonneg {x : ℝ} (h : 0 ≤ x) : fl64 x = roundPos x := by simp [fl64, not_lt.mpr h]

theorem fl64_neg (x : ℝ) : fl64 (-x) = -fl64 x := by
  rcases lt_trichotomy x 0 with h | rfl | h
  · simp [fl64, h, not_lt.mpr h.le]
  · simp [fl64, roundPos_zero]
  · simp [fl64, h, not_lt.mpr h.le]

theorem fl64_mono : Monotone fl64 := by
  intro x y h
  by_cases hx : 0 ≤ x
  · rw [fl64_nonneg hx, fl64_nonneg (hx.trans h)]; exact roundPos_mono hx h
  · push Not at hx
    by_cases hy : 0 ≤ y
    · rw [fl64_nonneg hy]
      have := roundPos_nonneg hy
      have h2 := roundPos_nonneg (x := -x) (by linarith)
      simp only [fl64, if_pos hx]; linarith
    · push Not at hy
      simp only [fl64, if_pos hx, if_pos hy]
      have := roundPos_mono (x := -y) (y := -x) (by linarith) (by linarith)
      linarith

theorem fl64_idem (x : ℝ) : fl64 (fl64 x) = fl64 x := by
  by_cases hx : 0 ≤ x
  · rw [fl64_nonneg hx, fl64_nonneg (roundPos_nonneg hx), roundPos_idem hx]
  · push Not at hx
    have hn : 0 ≤ -x := by linarith
    have : fl64 x = -roundPos (-x) := by simp [fl64, hx]
    rw [this, fl64_neg, fl64_nonneg (roundPos_nonneg hn), roundPos_idem hn]

theorem fl64_nat (n : ℕ) (h : n ≤ 2 ^ 53) : fl64 n = n := by
  rw [fl64_nonneg (by positivity)]
  have := roundPos_fix n 0 h (by norm_num)
  simpa using this

/-- An integer of at most 53 bits times a power of two is a machine number. -/
theorem fl64_fix (n e : ℤ) (hn : |n| ≤ 2 ^ 53) (he : -1074 ≤ e) : fl64 (n * 2 ^ e) = n * 2 ^ e := by
  rcases le_total 0 n with h | h
  · obtain ⟨m, rfl⟩ := Int.eq_ofNat_of_zero_le h
    rw [fl64_nonneg (by positivity)]
    exact_mod_cast roundPos_fix m e (by rw [abs_of_nonneg h] at hn; exact_mod_cast hn) he
  · obtain ⟨m, hm⟩ := Int.eq_ofNat_of_zero_le (a := -n) (by omega)
    have hn' : n = -(m : ℤ) := by omega
    have hm2 : m ≤ 2 ^ 53 := by rw [abs_of_nonpos h, hm] at hn; exact_mod_cast hn
    rw [hn']
    push_cast
    rw [neg_mul, fl64_neg, fl64_nonneg (by positivity), roundPos_fix m e hm2 he]

/-- Every machine number is a multiple of the smallest one. -/
theorem fl64_grid (x : ℝ) : ∃ m : ℤ, fl64 x = m * 2 ^ (-1074 : ℤ) := by
  have pos : ∀ y : ℝ, 0 ≤ y → ∃ m : ℤ, roundPos y = m * 2 ^ (-1074 : ℤ) := by
    intro y hy
    obtain ⟨n, _, e, hl⟩ := roundPos_form hy
    refine ⟨n * 2 ^ (lastBit y - -1074).toNat, ?_⟩
    rw [e, zpow2_split (lastBit y) (-1074) hl]
    push_cast; ring
  by_cases hx : 0 ≤ x
  · rw [fl64_nonneg hx]; exact pos x hx
  · push Not at hx
    obtain ⟨m, hm⟩ := pos (-x) (by linarith)
    exact ⟨-m, by simp only [fl64, if_pos hx, hm]; push_cast; ring⟩

theorem fl64_under (x y : ℝ) (hx : fl64 x = x) (hy : fl64 y = y) (h : x < y) : 0 < fl64 (y - x) := by
  obtain ⟨a, ha⟩ := fl64_grid x
  obtain ⟨b, hb⟩ := fl64_grid y
  rw [hx] at ha; rw [hy] at hb
  have hab : a < b := by
    rw [ha, hb] at h
    exact_mod_cast lt_of_mul_lt_mul_right h (zpow2_pos _).le
  have hge : ((1 : ℕ) : ℝ) * 2 ^ (-1074 : ℤ) ≤ y - x := by
    rw [ha, hb, ← sub_mul]
    refine mul_le_mul_of_nonneg_right ?_ (zpow2_pos _).le
    have : a + 1 ≤ b := hab
    have : (a : ℝ) + 1 ≤ b := by exact_mod_cast this
    push_cast; linarith
  have hfix := roundPos_fix 1 (-1074) (by norm_num) le_rfl
  have hpos : (0 : ℝ) < ((1 : ℕ) : ℝ) * 2 ^ (-1074 : ℤ) := mul_pos (by norm_num) (zpow2_pos _)
  have := fl64_mono hge
  rw [fl64_nonneg hpos.le, hfix] at this
  linarith

/-- How to evaluate the rounding of a given normal number: between `2^(e+52)` and `2^(e+53)` the machine numbers are
the multiples of `2^e`. -/
theorem fl64_eval {x : ℝ} (n e : ℤ) (he : -1074 ≤ e) (h0 : (2 : ℝ) ^ (e + 52) ≤ x)
    (h1 : x < 2 ^ (e + 53)) (h : |x / 2 ^ e - n| < 1 / 2) : fl64 x = n * 2 ^ e := by
  have hx : 0 < x := lt_of_lt_of_le (zpow2_pos _) h0
  have hlog : Int.log 2 x = e + 52 := by
    have a : e + 52 ≤ Int.log 2 x :=
      (Int.zpow_le_iff_le_log (b := 2) (by norm_num) hx).mp (by exact_mod_cast h0)
    have b : Int.log 2 x < e + 53 :=
      (Int.lt_zpow_iff_log_lt (b := 2) (by norm_num) hx).mp (by exact_mod_cast h1)
    omega
  have hE : lastBit x = e := by unfold lastBit; omega
  rw [fl64_nonneg hx.le, roundPos, hE, nearestEven_eq _ n h]

theorem binary64_ok : binary64.Ok where
  mono := fl64_mono
  idem := fl64_idem
  neg := fl64_neg
  nat := fl64_nat
  under := fl64_under
  pow_F := fun _ _ => fl64_idem _
  pow_nonneg := fun x y hx => by
    have := fl64_mono (Real.rpow_nonneg hx y)
    have z := fl64_nat 0 (by norm_num)
    simp only [Nat.cast_zero] at z
    rwa [z] at this
  pow_le_one := fun x y h0 h1 hy => by
    have := fl64_mono (Real.rpow_le_one h0 h1 hy)
    have z := fl64_nat 1 (by norm_num)
    simp only [Nat.cast_one] at z
    rwa [z] at this
  exp_F := fun _ => fl64_idem _
  exp_nonneg := fun x => by
    have := fl64_mono (Real.exp_pos x).le
    have z := fl64_nat 0 (by norm_num)
    simp only [Nat.cast_zero] at z
    rwa [z] at this
  exp_le_one := fun x hx => by
    have := fl64_mono (Real.exp_le_one_iff.mpr hx)
    have z := fl64_nat 1 (by norm_num)
    simp only [Nat.cast_one] at z
    rwa [z] at this

theorem exact_ok : exact.Ok where
  mono := fun _ _ h => h
  idem := fun _ => rfl
  neg := fun _ => rfl
  nat := fun _ _ => rfl
  under := fun _ _ _ _ h => sub_pos.mpr h
  pow_F := fun _ _ => rfl
  pow_nonneg := fun _ y hx => Real.rpow_nonneg hx y
  pow_le_one := fun _ _ h0 h1 hy => Real.rpow_le_one h0 h1 hy
  exp_F := fun _ => rfl
  exp_nonneg := fun x => (Real.exp_pos x).le
  exp_le_one := fun _ hx => Real.exp_le_one_iff.mpr hx

end WG
