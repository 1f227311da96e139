/-
  Rounding to a binary floating-point format: monotony, exactness, relative error.
-/
import Verif.Prelude.Fp
import Mathlib.Tactic.Linarith
import Mathlib.Tactic.Positivity
import Mathlib.Tactic.FieldSimp
import Mathlib.Tactic.Ring

namespace Ripple
namespace Fp

noncomputable section

lemma rne_err (y : ℝ) : |(rne y : ℝ) - y| ≤ 1 / 2 := by
  have h := Int.floor_add_fract y
  have h0 := Int.fract_nonneg y
  have h1 := Int.fract_lt_one y
  unfold rne
  split_ifs with a b c <;> push_cast <;> rw [abs_le] <;> constructor <;> linarith

lemma rne_mem (y : ℝ) : ⌊y⌋ ≤ rne y ∧ rne y ≤ ⌊y⌋ + 1 := by
  unfold rne; split_ifs <;> constructor <;> omega

lemma rne_mono {x y : ℝ} (h : x ≤ y) : rne x ≤ rne y := by
  have hf := Int.floor_le_floor h
  rcases hf.lt_or_eq with hl | he
  · have := (rne_mem x).2; have := (rne_mem y).1; omega
  · have hx := Int.floor_add_fract x
    have hy := Int.floor_add_fract y
    have hfr : Int.fract x ≤ Int.fract y := by rw [he] at hx; linarith
    unfold rne
    rw [he]
    split_ifs <;> first | omega | (exfalso; linarith)

lemma rne_intCast (n : ℤ) : rne (n : ℝ) = n := by
  unfold rne; simp

lemma rne_le_int {y : ℝ} {n : ℤ} (h : y ≤ n) : rne y ≤ n := by
  have := rne_mono h; rwa [rne_intCast] at this

lemma int_le_rne {y : ℝ} {n : ℤ} (h : (n : ℝ) ≤ y) : n ≤ rne y := by
  have := rne_mono h; rwa [rne_intCast] at this

lemma rne_eq {y : ℝ} {n : ℤ} (h : |y - n| < 1 / 2) : rne y = n := by
  have h1 := abs_le.1 (rne_err y)
  have h2 := abs_lt.1 h
  have a : ((rne y - n : ℤ) : ℝ) < 1 := by push_cast; linarith [h1.2, h2.2]
  have b : (-1 : ℝ) < ((rne y - n : ℤ) : ℝ) := by push_cast; linarith [h1.1, h2.1]
  have a' : rne y - n < 1 := by exact_mod_cast a
  have b' : -1 < rne y - n := by exact_mod_cast b
  omega

lemma rne_half (n : ℤ) (hn : Even n) : rne ((n : ℝ) + 1 / 2) = n := by
  have hf : ⌊(n : ℝ) + 1 / 2⌋ = n := by rw [Int.floor_eq_iff]; constructor <;> linarith
  have hr : Int.fract ((n : ℝ) + 1 / 2) = 1 / 2 := by
    have := Int.floor_add_fract ((n : ℝ) + 1 / 2); rw [hf] at this; linarith
  unfold rne
  rw [hf, hr]; simp [hn]

lemma rne_neg_half (n : ℤ) (hn : Even n) : rne ((n : ℝ) - 1 / 2) = n := by
  have hf : ⌊(n : ℝ) - 1 / 2⌋ = n - 1 := by rw [Int.floor_eq_iff]; push_cast; constructor <;> linarith
  have hr : Int.fract ((n : ℝ) - 1 / 2) = 1 / 2 := by
    have := Int.floor_add_fract ((n : ℝ) - 1 / 2); rw [hf] at this; push_cast at this; linarith
  have ho : ¬ Even (n - 1) := by rw [Int.not_even_iff_odd]; exact Even.sub_odd hn odd_one
  unfold rne
  rw [hf, hr]; simp [ho]

lemma rne_small {y : ℝ} (h : |y| ≤ 1 / 2) : rne y = 0 := by
  have h2 := abs_le.1 h
  have a := rne_mono h2.2
  have b := rne_mono h2.1
  have e1 : rne (1 / 2 : ℝ) = 0 := by simpa using rne_half 0 (by simp)
  have e2 : rne (-(1 / 2) : ℝ) = 0 := by simpa using rne_neg_half 0 (by simp)
  omega

variable {F : Fmt}

lemma two_zpow_pos (e : ℤ) : (0 : ℝ) < 2 ^ e := zpow_pos two_pos e

lemma log_le_abs {x : ℝ} (hx : x ≠ 0) : (2 : ℝ) ^ Int.log 2 |x| ≤ |x| := by
  have := Int.zpow_log_le_self (b := 2) one_lt_two (abs_pos.2 hx); simpa using this

lemma abs_lt_log (x : ℝ) : |x| < 2 ^ (Int.log 2 |x| + 1) := by
  have := Int.lt_zpow_succ_log_self (b := 2) one_lt_two |x|; simpa using this

lemma log_eq {x : ℝ} {e : ℤ} (h1 : 2 ^ e ≤ |x|) (h2 : |x| < 2 ^ (e + 1)) : Int.log 2 |x| = e := by
  have hx : 0 < |x| := lt_of_lt_of_le (two_zpow_pos e) h1
  have a := (Int.zpow_le_iff_le_log (b := 2) (x := e) one_lt_two hx).1 (by simpa using h1)
  have b := (Int.lt_zpow_iff_log_lt (b := 2) (x := e + 1) one_lt_two hx).1 (by simpa using h2)
  omega

lemma rnd_zero : F.rnd 0 = 0 := by
  unfold Fmt.rnd; have := rne_intCast 0; simp at this; simp [this]

lemma rnd_err (x : ℝ) : |F.rnd x - x| ≤ 2 ^ F.lsb x / 2 := by
  have h := two_zpow_pos (F.lsb x)
  have e : F.rnd x - x = ((rne (x / 2 ^ F.lsb x) : ℝ) - x / 2 ^ F.lsb x) * 2 ^ F.lsb x := by
    unfold Fmt.rnd; field_simp
  rw [e, abs_mul, abs_of_pos h]
  have := mul_le_mul_of_nonneg_right (rne_err (x / 2 ^ F.lsb x)) h.le
  linarith

/-- A bound that is a multiple of the last bit survives rounding. -/
lemma rnd_le_of {x g : ℝ} (n : ℤ) (hg : g = n * 2 ^ F.lsb x) (h : x ≤ g) : F.rnd x ≤ g := by
  have hp := two_zpow_pos (F.lsb x)
  have : x / 2 ^ F.lsb x ≤ n := by rw [div_le_iff₀ hp, ← hg]; exact h
  rw [hg]; unfold Fmt.rnd
  exact mul_le_mul_of_nonneg_right (by exact_mod_cast rne_le_int this) hp.le

lemma le_rnd_of {x g : ℝ} (n : ℤ) (hg : g = n * 2 ^ F.lsb x) (h : g ≤ x) : g ≤ F.rnd x := by
  have hp := two_zpow_pos (F.lsb x)
  have : (n : ℝ) ≤ x / 2 ^ F.lsb x := by rw [le_div_iff₀ hp, ← hg]; exact h
  rw [hg]; unfold Fmt.rnd
  exact mul_le_mul_of_nonneg_right (by exact_mod_cast int_le_rne this) hp.le

lemma rnd_nonneg {x : ℝ} (h : 0 ≤ x) : 0 ≤ F.rnd x := le_rnd_of 0 (by simp) h

/-- A power of two is a multiple of any smaller one. -/
lemma zpow_mult {a b : ℤ} (h : b ≤ a) : ∃ n : ℤ, (2 : ℝ) ^ a = n * 2 ^ b := by
  refine ⟨2 ^ (a - b).toNat, ?_⟩
  push_cast
  rw [← zpow_natCast, Int.toNat_of_nonneg (by omega), ← zpow_add₀ two_ne_zero]; congr 1; ring

lemma zpow_le {a b : ℤ} (h : a ≤ b) : (2 : ℝ) ^ a ≤ 2 ^ b := zpow_le_zpow_right₀ one_le_two h

lemma lsb_mono {x y : ℝ} (hx : 0 < x) (h : x ≤ y) : F.lsb x ≤ F.lsb y := by
  unfold Fmt.lsb
  rw [abs_of_pos hx, abs_of_pos (hx.trans_le h)]
  exact max_le_max (sub_le_sub_right (Int.log_mono_right hx h) _) le_rfl

lemma rnd_mono {x y : ℝ} (hp : 1 ≤ F.p) (hx : 0 ≤ x) (h : x ≤ y) : F.rnd x ≤ F.rnd y := by
  rcases hx.eq_or_lt with rfl | hx
  · rw [rnd_zero]; exact rnd_nonneg h
  have hy := hx.trans_le h
  rcases (lsb_mono (F := F) hx h).lt_or_eq with hl | he
  · have hlog : F.lsb y = Int.log 2 |y| - (F.p - 1) := by
      have : F.qmin ≤ F.lsb x := le_max_right _ _
      unfold Fmt.lsb at *
      omega
    have hlx : Int.log 2 |x| < Int.log 2 |y| := by
      have : Int.log 2 |x| - (F.p - 1) ≤ F.lsb x := le_max_left _ _
      omega
    obtain ⟨n, hn⟩ := zpow_mult (a := Int.log 2 |y|) (b := F.lsb x) (by omega)
    obtain ⟨m, hm⟩ := zpow_mult (a := Int.log 2 |y|) (b := F.lsb y) (by omega)
    have hxg : x ≤ 2 ^ Int.log 2 |y| := by
      have := abs_lt_log x
      rw [abs_of_pos hx] at this
      refine this.le.trans (zpow_le ?_)
      rw [abs_of_pos hx] at hlx; omega
    have hgy : 2 ^ Int.log 2 |y| ≤ y := by
      have := log_le_abs hy.ne'; rwa [abs_of_pos hy] at this ⊢
    exact (rnd_le_of n hn hxg).trans (le_rnd_of m hm hgy)
  · unfold Fmt.rnd
    rw [he]
    exact mul_le_mul_of_nonneg_right (by exact_mod_cast rne_mono (div_le_div_of_nonneg_right h (two_zpow_pos _).le))
      (two_zpow_pos _).le

/-- Numbers with few enough bits are not changed by rounding. -/
lemma rnd_exact {x : ℝ} (n : ℤ) {k : ℤ} (hx : x = n * 2 ^ k) (hk : F.qmin ≤ k) (hn : |n| < 2 ^ F.p) : F.rnd x = x := by
  rcases eq_or_ne x 0 with rfl | h0
  · exact rnd_zero
  have hle : F.lsb x ≤ k := by
    refine max_le ?_ hk
    have h1 := log_le_abs h0
    have h2 : |x| < 2 ^ (k + F.p) := by
      rw [hx, abs_mul, abs_of_pos (two_zpow_pos k), zpow_add₀ two_ne_zero, mul_comm]
      refine mul_lt_mul_of_pos_left ?_ (two_zpow_pos k)
      rw [zpow_natCast]; exact_mod_cast hn
    have h3 := (zpow_lt_zpow_iff_right₀ (one_lt_two (α := ℝ))).1 (h1.trans_lt h2)
    omega
  obtain ⟨m, hm⟩ := zpow_mult hle
  have e : x = ((n * m : ℤ) : ℝ) * 2 ^ F.lsb x := by push_cast; rw [mul_assoc, ← hm, ← hx]
  exact le_antisymm (rnd_le_of _ e le_rfl) (le_rnd_of _ e le_rfl)

/-- A rounded number has few bits. -/
lemma rnd_form (hp : 1 ≤ F.p) (x : ℝ) : ∃ n k : ℤ, F.rnd x = n * 2 ^ k ∧ F.qmin ≤ k ∧ |n| < 2 ^ F.p ∧ F.lsb x ≤ k := by
  have hs := two_zpow_pos (F.lsb x)
  have hb : |x / 2 ^ F.lsb x| ≤ 2 ^ F.p := by
    rw [abs_div, abs_of_pos hs, div_le_iff₀ hs, ← zpow_natCast, ← zpow_add₀ two_ne_zero]
    refine (abs_lt_log x).le.trans (zpow_le ?_)
    have : Int.log 2 |x| - (F.p - 1) ≤ F.lsb x := le_max_left _ _
    omega
  have hb' := abs_le.1 hb
  have h1 : rne (x / 2 ^ F.lsb x) ≤ 2 ^ F.p := rne_le_int (by push_cast; exact hb'.2)
  have h2 : -2 ^ F.p ≤ rne (x / 2 ^ F.lsb x) := int_le_rne (by push_cast; exact hb'.1)
  by_cases h : |rne (x / 2 ^ F.lsb x)| < 2 ^ F.p
  · exact ⟨_, _, rfl, le_max_right _ _, h, le_rfl⟩
  · obtain ⟨q, hq⟩ : ∃ q, F.p = q + 1 := ⟨F.p - 1, by omega⟩
    have ha : |rne (x / 2 ^ F.lsb x)| ≤ 2 ^ F.p := abs_le.2 ⟨h2, h1⟩
    have he : |rne (x / 2 ^ F.lsb x)| = 2 ^ F.p := le_antisymm ha (not_lt.1 h)
    have hlt : (2 : ℤ) ^ q < 2 ^ F.p := by rw [hq, pow_succ]; have := pow_pos (two_pos (α := ℤ)) q; omega
    have hpos := pow_pos (two_pos (α := ℤ)) q
    rcases abs_choice (rne (x / 2 ^ F.lsb x)) with hc | hc
    · refine ⟨2 ^ q, F.lsb x + 1, ?_, (le_max_right _ _).trans (by show F.lsb x ≤ _; omega), by rw [abs_of_pos hpos]; exact hlt, by omega⟩
      unfold Fmt.rnd
      rw [show rne (x / 2 ^ F.lsb x) = 2 ^ F.p by rw [← he, hc], zpow_add₀ two_ne_zero, hq]; push_cast; ring
    · refine ⟨-2 ^ q, F.lsb x + 1, ?_, (le_max_right _ _).trans (by show F.lsb x ≤ _; omega), by rw [abs_neg, abs_of_pos hpos]; exact hlt, by omega⟩
      unfold Fmt.rnd
      rw [show rne (x / 2 ^ F.lsb x) = -2 ^ F.p by omega, zpow_add₀ two_ne_zero, hq]; push_cast; ring

lemma rnd_idem (hp : 1 ≤ F.p) (x : ℝ) : F.rnd (F.rnd x) = F.rnd x := by
  obtain ⟨n, k, h1, h2, h3, -⟩ := rnd_form hp x
  exact rnd_exact n h1 h2 h3

lemma minNormal_pos : 0 < F.minNormal := two_zpow_pos _

lemma u_pos : 0 < F.u := two_zpow_pos _

lemma lsb_normal {x : ℝ} (h : F.minNormal ≤ |x|) : F.lsb x = Int.log 2 |x| - (F.p - 1) := by
  refine max_eq_left ?_
  have hx : 0 < |x| := minNormal_pos.trans_le h
  have := (Int.zpow_le_iff_le_log (b := 2) (x := F.qmin + F.p - 1) one_lt_two hx).1 (by simpa [Fmt.minNormal] using h)
  omega

lemma rnd_rel {x : ℝ} (h : F.minNormal ≤ |x|) : |F.rnd x - x| ≤ F.u * |x| := by
  have hx : x ≠ 0 := abs_pos.1 (minNormal_pos.trans_le h)
  refine (rnd_err x).trans ?_
  rw [lsb_normal h, show Int.log 2 |x| - ((F.p : ℤ) - 1) = Int.log 2 |x| + (-(F.p : ℤ)) + 1 by ring,
    zpow_add₀ two_ne_zero, zpow_add₀ two_ne_zero]
  have := mul_le_mul_of_nonneg_right (log_le_abs hx) (u_pos (F := F)).le
  unfold Fmt.u at *
  simp only [zpow_one]; linarith

lemma rnd_minNormal (hp : 1 ≤ F.p) : F.rnd F.minNormal = F.minNormal := by
  obtain ⟨q, hq⟩ : ∃ q, F.p = q + 1 := ⟨F.p - 1, by omega⟩
  refine rnd_exact (2 ^ q) (k := F.qmin) ?_ le_rfl ?_
  · unfold Fmt.minNormal; push_cast
    rw [← zpow_natCast, ← zpow_add₀ two_ne_zero]; congr 1; rw [hq]; push_cast; ring
  · rw [abs_of_pos (pow_pos two_pos q), hq, pow_succ]; have := pow_pos (two_pos (α := ℤ)) q; omega

lemma minNormal_le_rnd {x : ℝ} (hp : 1 ≤ F.p) (h : F.minNormal ≤ x) : F.minNormal ≤ F.rnd x := by
  rw [← rnd_minNormal hp]; exact rnd_mono hp minNormal_pos.le h

lemma rd_normal {x : ℝ} (hp : 1 ≤ F.p) (h : F.minNormal ≤ x) : F.rd x = F.rnd x := by
  have := minNormal_le_rnd hp h
  unfold Fmt.rd
  rw [if_neg]; rintro ⟨-, h2⟩
  rw [abs_of_nonneg (minNormal_pos.le.trans this)] at h2; linarith

lemma rd_nonneg {x : ℝ} (h : 0 ≤ x) : 0 ≤ F.rd x := by
  unfold Fmt.rd; split_ifs; exacts [le_rfl, rnd_nonneg h]

lemma rd_le_rnd {x : ℝ} (h : 0 ≤ x) : F.rd x ≤ F.rnd x := by
  unfold Fmt.rd; split_ifs; exacts [rnd_nonneg h, le_rfl]

lemma rd_zero : F.rd 0 = 0 := by unfold Fmt.rd; rw [rnd_zero]; simp

lemma rd_mono {x y : ℝ} (hp : 1 ≤ F.p) (hx : 0 ≤ x) (h : x ≤ y) : F.rd x ≤ F.rd y := by
  have hm := rnd_mono hp hx h
  have h0 := rnd_nonneg (F := F) hx
  have h1 := h0.trans hm
  unfold Fmt.rd
  rw [abs_of_nonneg h0, abs_of_nonneg h1]
  split_ifs with a b b
  · exact le_rfl
  · exact h1
  · exact absurd ⟨b.1, hm.trans_lt b.2⟩ a
  · exact hm

/-- the error in absolute terms, below a bound for which the relative error dominates underflow -/
lemma rd_err {x B : ℝ} (hp : 1 ≤ F.p) (hx : 0 ≤ x) (h : x ≤ B) (hB : F.minNormal ≤ F.u * B) : |F.rd x - x| ≤ F.u * B := by
  rcases le_or_gt F.minNormal x with hn | hn
  · rw [rd_normal hp hn]
    have := rnd_rel (F := F) (x := x) (by rwa [abs_of_nonneg hx])
    rw [abs_of_nonneg hx] at this
    exact this.trans (mul_le_mul_of_nonneg_left h u_pos.le)
  · have h1 : F.rd x ≤ F.minNormal := by
      have := rd_mono hp hx hn.le
      rwa [rd_normal hp le_rfl, rnd_minNormal hp] at this
    have h2 := rd_nonneg (F := F) hx
    rw [abs_le]; constructor <;> linarith

lemma rd_exact {x : ℝ} (n : ℤ) {k : ℤ} (hx : x = n * 2 ^ k) (hk : F.qmin ≤ k) (hn : |n| < 2 ^ F.p)
    (hm : F.minNormal ≤ x) : F.rd x = x := by
  have e := rnd_exact n hx hk hn
  unfold Fmt.rd
  rw [if_neg, e]; rintro ⟨-, h2⟩
  rw [e, abs_of_nonneg (minNormal_pos.le.trans hm)] at h2; linarith

/-- a number that rounding does not change has few bits -/
lemma float_form {x : ℝ} (hp : 1 ≤ F.p) (hx : F.rd x = x) : ∃ n k : ℤ, x = n * 2 ^ k ∧ F.qmin ≤ k ∧ |n| < 2 ^ F.p := by
  unfold Fmt.rd at hx
  split_ifs at hx with h
  · exact ⟨0, F.qmin, by simpa using hx.symm, le_rfl, by rw [abs_zero]; positivity⟩
  · obtain ⟨n, k, h1, h2, h3, -⟩ := rnd_form (F := F) hp x
    exact ⟨n, k, by rw [← h1, hx], h2, h3⟩

lemma rd_rnd {x : ℝ} (hx : F.rd x = x) : F.rnd x = x := by
  unfold Fmt.rd at hx
  split_ifs at hx with h
  · rw [← hx]; exact rnd_zero
  · exact hx

lemma rd_idem (hp : 1 ≤ F.p) (x : ℝ) : F.rd (F.rd x) = F.rd x := by
  have e := rnd_idem (F := F) hp x
  by_cases h : F.ftz = true ∧ |F.rnd x| < F.minNormal
  · have : F.rd x = 0 := by unfold Fmt.rd; rw [if_pos h]
    rw [this, rd_zero]
  · have h1 : F.rd x = F.rnd x := by unfold Fmt.rd; rw [if_neg h]
    rw [h1]; unfold Fmt.rd; rw [e, if_neg h]

/-- multiplication of a normal number by a power of two that is at least one -/
lemma rd_scale_up {x : ℝ} (j : ℕ) (hp : 1 ≤ F.p) (hx : F.rd x = x) (hm : F.minNormal ≤ x) : F.rd (2 ^ j * x) = 2 ^ j * x := by
  obtain ⟨n, k, h1, h2, h3⟩ := float_form hp hx
  refine rd_exact n (k := k + j) ?_ (by omega) h3 ?_
  · rw [zpow_add₀ two_ne_zero, zpow_natCast, h1]; ring
  · have : (1 : ℝ) ≤ 2 ^ j := one_le_pow₀ one_le_two
    nlinarith [minNormal_pos (F := F)]

/-- halving of a number twice as large as the smallest normal number -/
lemma rd_half {x : ℝ} (hp : 1 ≤ F.p) (hx : F.rd x = x) (hm : 2 * F.minNormal ≤ x) : F.rd (x / 2) = x / 2 := by
  obtain ⟨n, k, h1, h2, h3⟩ := float_form hp hx
  have hk : F.qmin + 1 ≤ k := by
    by_contra hc
    have hk' : k = F.qmin := by omega
    have hn : (n : ℝ) < 2 ^ F.p := by exact_mod_cast (le_abs_self n).trans_lt h3
    have : x < 2 ^ F.p * 2 ^ F.qmin := by
      rw [h1, hk']; exact mul_lt_mul_of_pos_right hn (two_zpow_pos _)
    have e : 2 * F.minNormal = 2 ^ F.p * 2 ^ F.qmin := by
      unfold Fmt.minNormal
      rw [← zpow_natCast, ← zpow_add₀ two_ne_zero, show F.qmin + (F.p : ℤ) - 1 = F.p + F.qmin + (-1) by ring,
        zpow_add₀ two_ne_zero _ (-1 : ℤ)]; norm_num; ring
    linarith
  refine rd_exact n (k := k - 1) ?_ (by omega) h3 (by linarith)
  rw [h1, show k - 1 = k + (-1) by ring, zpow_add₀ two_ne_zero]; norm_num; ring

/-- what lies less than half a last bit above a number is rounded to at most this number -/
lemma rnd_le_near {M y : ℝ} (hp : 1 ≤ F.p) (hM : F.rnd M = M) (hm : F.minNormal ≤ M) (hy0 : 0 ≤ y)
    (hy : y < M + 2 ^ F.lsb M / 2) : F.rnd y ≤ M := by
  have hM0 : 0 < M := minNormal_pos.trans_le hm
  rcases le_or_gt y M with h | h
  · have := rnd_mono hp hy0 h; rwa [hM] at this
  have hl := two_zpow_pos (F.lsb M)
  set N := rne (M / 2 ^ F.lsb M) with hN
  have hMN : M = N * 2 ^ F.lsb M := by rw [hN]; exact hM.symm
  have hlsb := lsb_normal (F := F) (x := M) (by rwa [abs_of_pos hM0])
  obtain ⟨K, hK⟩ := zpow_mult (a := Int.log 2 |M| + 1) (b := F.lsb M) (by omega)
  have hlt := abs_lt_log M
  have hNK : N + 1 ≤ K := by
    have : (N : ℝ) < K := by
      rw [hK, abs_of_pos hM0] at hlt
      nth_rewrite 1 [hMN] at hlt
      exact lt_of_mul_lt_mul_right hlt hl.le
    exact_mod_cast this
  have hy1 : y < 2 ^ (Int.log 2 |M| + 1) := by
    have h2 : ((N : ℝ) + 1) * 2 ^ F.lsb M ≤ K * 2 ^ F.lsb M := mul_le_mul_of_nonneg_right (by exact_mod_cast hNK) hl.le
    rw [hK]; linarith
  have hlog : Int.log 2 |y| = Int.log 2 |M| := by
    refine log_eq ?_ ?_
    · rw [abs_of_nonneg hy0]
      have := log_le_abs hM0.ne'
      rw [abs_of_pos hM0] at this ⊢; linarith
    · rwa [abs_of_nonneg hy0]
  have hly : F.lsb y = F.lsb M := by unfold Fmt.lsb; rw [hlog]
  have hr : rne (y / 2 ^ F.lsb M) = N := by
    refine rne_eq ?_
    have e : y / 2 ^ F.lsb M - N = (y - M) / 2 ^ F.lsb M := by
      rw [sub_div]; nth_rewrite 3 [hMN]; field_simp
    rw [e, abs_of_nonneg (div_nonneg (by linarith) hl.le), div_lt_iff₀ hl]; linarith
  unfold Fmt.rnd
  rw [hly, hr, ← hMN]

/-- The square root of the rounded square does not exceed the number. -/
lemma rd_sqrt_sq {M x : ℝ} (hp : 1 ≤ F.p) (hM : F.rd M = M) (hm : F.minNormal ≤ M) (hm2 : F.minNormal ≤ M * M)
    (hx : x ≤ F.rd (M * M)) : F.rd (Real.sqrt x) ≤ M := by
  have hM0 : 0 < M := minNormal_pos.trans_le hm
  refine (rd_le_rnd (Real.sqrt_nonneg x)).trans (rnd_le_near hp (rd_rnd hM) hm (Real.sqrt_nonneg x) ?_)
  have hlM := lsb_normal (F := F) (x := M) (by rwa [abs_of_pos hM0])
  have hlQ := lsb_normal (F := F) (x := M * M) (by rwa [abs_of_pos (mul_pos hM0 hM0)])
  have hl := two_zpow_pos (F.lsb M)
  rw [Real.sqrt_lt' (by linarith)]
  rw [rd_normal hp hm2] at hx
  have herr := (abs_le.1 (rnd_err (F := F) (M * M))).2
  have hlog := abs_lt_log M
  rw [abs_of_pos hM0] at hlog hlM
  have hlow : (2 : ℝ) ^ Int.log 2 M ≤ M := by have := log_le_abs hM0.ne'; rwa [abs_of_pos hM0] at this
  have hQ : Int.log 2 |M * M| ≤ 2 * Int.log 2 M + 1 := by
    rw [abs_of_pos (mul_pos hM0 hM0)]
    have h1 : M * M < 2 ^ (2 * Int.log 2 M + 2) := by
      rw [show 2 * Int.log 2 M + 2 = (Int.log 2 M + 1) + (Int.log 2 M + 1) by ring, zpow_add₀ two_ne_zero]
      exact mul_lt_mul'' hlog hlog hM0.le hM0.le
    have := (Int.lt_zpow_iff_log_lt (b := 2) (x := 2 * Int.log 2 M + 2) one_lt_two (mul_pos hM0 hM0)).1 (by simpa using h1)
    omega
  have h2 : (2 : ℝ) ^ F.lsb (M * M) ≤ 2 * (2 ^ Int.log 2 M * 2 ^ F.lsb M) := by
    rw [← zpow_add₀ two_ne_zero, ← zpow_one_add₀ two_ne_zero]
    exact zpow_le (by omega)
  have h3 : 2 ^ Int.log 2 M * 2 ^ F.lsb M ≤ M * 2 ^ F.lsb M := mul_le_mul_of_nonneg_right hlow hl.le
  nlinarith

end
end Fp
end Ripple
