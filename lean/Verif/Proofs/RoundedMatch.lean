/-
  Exceptional values in the overlap and the match.
-/
import Verif.Model.RoundedMatch
import Verif.Proofs.RoundedNoise
import Mathlib.Analysis.SpecialFunctions.Trigonometric.Basic

namespace Ripple
namespace Fp

noncomputable section

variable {F : Fmt}

lemma ofReal_zero : F.ofReal 0 = .fin 0 := by
  have := ofReal_fin (F := F) (x := 0) le_rfl (by rw [rd_zero]; exact two_zpow_pos _)
  rwa [rd_zero] at this

lemma ofReal_of_rd {x : ℝ} (h : F.rd x = 0) : F.ofReal x = .fin 0 := by
  have := two_zpow_pos F.emax
  unfold Fmt.ofReal; rw [h, if_neg (by linarith), if_neg (by linarith)]

lemma ofReal_ne_nan (x : ℝ) : F.ofReal x ≠ .nan := by
  unfold Fmt.ofReal; split_ifs <;> simp

/-! ### zero or nan -/

lemma ZN.zero : ZN (.fin 0) := Or.inl rfl
lemma ZN.nan : ZN .nan := Or.inr rfl

lemma ZN.add {a b : XR} (ha : ZN a) (hb : ZN b) : ZN (F.add a b) := by
  rcases ha with rfl | rfl
  · rcases hb with rfl | rfl
    · exact Or.inl zero_add_zero
    · exact Or.inr (by simp)
  · exact Or.inr (by simp)

lemma ZN.sum {l : List XR} {s : XR} (h : IsSum F l s) : (∀ x ∈ l, ZN x) → ZN s := by
  induction h with
  | nil => exact fun _ => ZN.zero
  | one x => exact fun h => h x (by simp)
  | add hp _ _ i1 i2 =>
    intro h
    refine ZN.add (i1 fun x hx => h x ?_) (i2 fun x hx => h x ?_)
    · exact hp.mem_iff.2 (by simp [hx])
    · exact hp.mem_iff.2 (by simp [hx])

lemma ZN.sqrt {a : XR} (ha : ZN a) : ZN (F.sqrt a) := by
  rcases ha with rfl | rfl
  · left; unfold Fmt.sqrt; rw [XR.sqrt_fin le_rfl, Real.sqrt_zero]; exact ofReal_zero
  · right; rfl

lemma ZN.mul {a b : XR} (ha : ZN a) : ZN (F.mul a b) := by
  rcases ha with rfl | rfl
  · rcases b with r | _ | _ | _
    · left; unfold Fmt.mul; rw [XR.mul_fin, zero_mul]; exact ofReal_zero
    · right; show F.round (XR.infMul 0) = _; simp [XR.infMul, Fmt.round]
    · right; show F.round (XR.infMul (-0)) = _; simp [XR.infMul, Fmt.round]
    · right; simp
  · right; simp

lemma mul_comm' (a b : XR) : F.mul a b = F.mul b a := by
  have : a * b = b * a := by
    cases a <;> cases b <;> first | rfl | (simp [mul_comm])
  unfold Fmt.mul; rw [this]

lemma ZN.mul' {a b : XR} (ha : ZN b) : ZN (F.mul a b) := by rw [mul_comm']; exact ZN.mul ha

lemma ZN.zero_div (s : XR) : ZN (F.div (.fin 0) s) := by
  rcases s with r | _ | _ | _
  · by_cases hr : r = 0
    · subst hr; right; unfold Fmt.div; rw [XR.div_zero_zero]; rfl
    · left; unfold Fmt.div; rw [XR.div_fin _ hr, _root_.zero_div]; exact ofReal_zero
  · left; exact ofReal_zero
  · left; exact ofReal_zero
  · right; rfl

/-- nothing divided by zero or nan is finite -/
lemma div_ZN {a b : XR} (hb : ZN b) : ¬ (F.div a b).isFin := by
  rcases hb with rfl | rfl
  · rcases a with r | _ | _ | _
    · rcases lt_trichotomy r 0 with h | h | h
      · unfold Fmt.div; rw [XR.div_fin_zero_neg h]; simp [Fmt.round, XR.isFin]
      · subst h; unfold Fmt.div; rw [XR.div_zero_zero]; simp [Fmt.round, XR.isFin]
      · unfold Fmt.div; rw [XR.div_fin_zero_pos h]; simp [Fmt.round, XR.isFin]
    · show ¬ (F.round (if (0 : ℝ) < 0 then XR.ninf else XR.pinf)).isFin; simp [Fmt.round, XR.isFin]
    · show ¬ (F.round (if (0 : ℝ) < 0 then XR.pinf else XR.ninf)).isFin; simp [Fmt.round, XR.isFin]
    · simp [XR.isFin]
  · unfold Fmt.div; rw [XR.div_nan]; simp [Fmt.round, XR.isFin]

lemma ZN_div_ZN {a b : XR} (ha : ZN a) (hb : ZN b) : F.div a b = .nan := by
  rcases ha with rfl | rfl
  · rcases hb with rfl | rfl
    · unfold Fmt.div; rw [XR.div_zero_zero]; rfl
    · rfl
  · simp

/-! ### not finite -/

lemma nf_add {a b : XR} (h : ¬ a.isFin ∨ ¬ b.isFin) : ¬ (F.add a b).isFin := by
  cases a <;> cases b <;> first | exact id | (exfalso; simp [XR.isFin] at h)

lemma nf_sum {l : List XR} {s : XR} (h : IsSum F l s) : (∃ x ∈ l, ¬ x.isFin) → ¬ s.isFin := by
  induction h with
  | nil => rintro ⟨x, hx, -⟩; cases hx
  | one x => rintro ⟨y, hy, h⟩; rw [List.mem_singleton] at hy; rwa [hy] at h
  | add hp _ _ i1 i2 =>
    rintro ⟨x, hx, h⟩
    rcases List.mem_append.1 (hp.mem_iff.1 hx) with hx | hx
    · exact nf_add (Or.inl (i1 ⟨x, hx, h⟩))
    · exact nf_add (Or.inr (i2 ⟨x, hx, h⟩))

/-- infinite or nan -/
def IN (x : XR) : Prop := x = .pinf ∨ x = .nan

lemma IN.sqrt {a : XR} (h : ¬ a.isFin) : IN (F.sqrt a) := by
  cases a
  · exact absurd trivial h
  · left; rfl
  · right; rfl
  · right; rfl

lemma IN.mul {a b : XR} (ha : IN a) (hb : IN b) : IN (F.mul a b) := by
  rcases ha with rfl | rfl
  · rcases hb with rfl | rfl
    · left; rfl
    · right; simp
  · right; simp

lemma IN.div {a b : XR} (ha : IN a) (hb : IN b) : F.div a b = .nan := by
  rcases ha with rfl | rfl
  · rcases hb with rfl | rfl
    · rfl
    · rfl
  · simp

lemma nf_mul {a : ℝ} {b : XR} (hb : ¬ b.isFin) : ¬ (F.mul (.fin a) b).isFin := by
  cases b
  · exact absurd trivial hb
  · show ¬ (F.round (XR.infMul a)).isFin
    unfold XR.infMul; split_ifs <;> exact id
  · show ¬ (F.round (XR.infMul (-a))).isFin
    unfold XR.infMul; split_ifs <;> exact id
  · simp [XR.isFin]

lemma nf_div_zero (a : XR) : ¬ (F.div a (.fin 0)).isFin := div_ZN ZN.zero

/-! ### the maximum -/

lemma ZN.fmax {a b : XR} (ha : ZN a) (hb : ZN b) : ZN (Fp.fmax a b) := by
  rcases ha with rfl | rfl
  · rcases hb with rfl | rfl
    · simp [Fp.fmax, ZN]
    · exact ZN.nan
  · exact ZN.nan

lemma ZN.maxOf : ∀ {l : List XR}, (∀ x ∈ l, ZN x) → ZN (Fp.maxOf l)
  | [], _ => ZN.nan
  | [x], h => h x (by simp)
  | x :: y :: l, h => ZN.fmax (h x (by simp)) (ZN.maxOf (l := y :: l) fun z hz => h z (by simp [List.mem_cons.1 hz]))

lemma IN.fmax {a b : XR} (ha : IN a) (hb : IN b) : IN (Fp.fmax a b) := by
  rcases ha with rfl | rfl
  · rcases hb with rfl | rfl
    · left; simp [Fp.fmax]
    · right; rfl
  · right; rfl

lemma IN.maxOf : ∀ {l : List XR}, (∀ x ∈ l, IN x) → IN (Fp.maxOf l)
  | [], _ => Or.inr rfl
  | [x], h => h x (by simp)
  | x :: y :: l, h => IN.fmax (h x (by simp)) (IN.maxOf (l := y :: l) fun z hz => h z (by simp [List.mem_cons.1 hz]))

/-! ### the functions -/

variable (lib : Lib F)

lemma cabs_IN {z : XR × XR} (h : ¬ CFin z) : IN (lib.cabs z) := by
  have h1 := lib.cabs_nonfin z h
  have h2 := lib.cabs_ninf z
  cases e : lib.cabs z
  · rw [e] at h1; exact absurd trivial h1
  · left; rfl
  · exact absurd e h2
  · right; rfl

lemma norm_IN {n : ℕ} {S : Fin n → XR} (h : Fin n → XR × XR) {i : Fin n} (hi : S i = .fin 0) :
    IN (noiseNorm F lib S h) := by
  refine IN.sqrt (nf_sum (lib.sum_spec _) ⟨_, (List.mem_ofFn' _ _).2 ⟨i, rfl⟩, ?_⟩)
  beta_reduce; rw [hi]; exact nf_div_zero _

/-- A sample where the noise is zero: the overlap is nan whatever the waveforms. -/
lemma overlap_zero_psd {n : ℕ} (del_t : ℝ) (fs : Fin n → ℝ) {S : Fin n → XR} (h1 h2 : Fin n → XR × XR) {i : Fin n}
    (hi : S i = .fin 0) : get_phase_maximized_inner_product_arr F lib del_t fs S h1 h2 = .nan := by
  unfold get_phase_maximized_inner_product_arr
  refine IN.div (cabs_IN lib ?_) (IN.mul (norm_IN lib h1 hi) (norm_IN lib h2 hi))
  have hz := lib.cdiv_zero (cmul F (cmul F (conj (h1 i)) (h2 i)) (.fin (lib.cis (fs i) del_t).1, .fin (lib.cis (fs i) del_t).2))
  rintro ⟨a, b⟩
  apply hz
  refine ⟨?_, ?_⟩
  · by_contra hc
    exact nf_sum (lib.sum_spec _) ⟨_, (List.mem_ofFn' _ _).2 ⟨i, rfl⟩, by beta_reduce; rw [hi]; exact hc⟩ a
  · by_contra hc
    exact nf_sum (lib.sum_spec _) ⟨_, (List.mem_ofFn' _ _).2 ⟨i, rfl⟩, by beta_reduce; rw [hi]; exact hc⟩ b

lemma match_zero_psd (a b : ℕ) {n : ℕ} {S : Fin n → XR} (h1 h2 : Fin n → XR × XR) {i : Fin n} (hi : S i = .fin 0) :
    get_match_arr F lib a b S h1 h2 = .nan := by
  unfold get_match_arr
  refine IN.div (IN.maxOf fun x hx => ?_) (IN.mul (norm_IN lib h1 hi) (norm_IN lib h2 hi))
  obtain ⟨k, rfl⟩ := (List.mem_ofFn' _ _).1 hx
  refine cabs_IN lib ?_
  have hz := lib.ifft_nonfin (Fin.append (Fin.append (fun _ : Fin a => ((.fin 0, .fin 0) : XR × XR))
    (fun i => lib.cdiv (cmul F (conj (h1 i)) (h2 i)) (S i))) (fun _ : Fin b => (.fin 0, .fin 0)))
    ⟨Fin.castAdd b (Fin.natAdd a i), by rw [Fin.append_left, Fin.append_right, hi]; exact lib.cdiv_zero _⟩ k
  rintro ⟨p, q⟩
  apply hz
  refine ⟨?_, ?_⟩
  · by_contra hc; exact nf_mul hc p
  · by_contra hc; exact nf_mul hc q

/-! ### underflow -/

/-- Samples so small that their squares round to zero. -/
structure Faint (F : Fmt) {n : ℕ} (h : Fin n → ℝ × ℝ) (t : ℝ) : Prop where
  re : ∀ i, F.rd (h i).1 = (h i).1 ∧ |(h i).1| ≤ t
  im : ∀ i, F.rd (h i).2 = (h i).2 ∧ |(h i).2| ≤ t
  top : 4 * t < 2 ^ F.emax
  gone : ∀ x, |x| ≤ 4 * t ^ 2 → F.rd x = 0

/-- the samples as floats -/
def toC {n : ℕ} (h : Fin n → ℝ × ℝ) : Fin n → XR × XR := fun i => (.fin (h i).1, .fin (h i).2)

lemma norm_ZN {n : ℕ} (S : Fin n → XR) {h : Fin n → ℝ × ℝ} {t : ℝ} (hh : Faint F h t) :
    ZN (noiseNorm F lib S (toC h)) := by
  refine ZN.sqrt (ZN.sum (lib.sum_spec _) fun x hx => ?_)
  obtain ⟨i, rfl⟩ := (List.mem_ofFn' _ _).1 hx
  obtain ⟨r, hr, h0, h1⟩ := lib.cabs_small _ _ t (hh.re i).1 (hh.im i).1 (hh.re i).2 (hh.im i).2 hh.top
  show ZN (F.div (F.mul (lib.cabs (.fin (h i).1, .fin (h i).2)) (lib.cabs (.fin (h i).1, .fin (h i).2))) (S i))
  rw [hr]
  have : F.mul (.fin r) (.fin r) = .fin 0 := by
    refine ofReal_of_rd (hh.gone _ ?_)
    rw [abs_of_nonneg (mul_self_nonneg r)]; nlinarith
  rw [this]; exact ZN.zero_div _

lemma prod_zero {n : ℕ} {h1 h2 : Fin n → ℝ × ℝ} {t : ℝ} (hh1 : Faint F h1 t) (hh2 : Faint F h2 t) (i : Fin n) :
    cmul F (conj (toC h1 i)) (toC h2 i) = (.fin 0, .fin 0) := by
  have key : ∀ x y : ℝ, |x| ≤ t → |y| ≤ t → F.mul (.fin x) (.fin y) = .fin 0 := by
    intro x y hx hy
    refine ofReal_of_rd (hh1.gone _ ?_)
    rw [abs_mul]
    have := mul_le_mul hx hy (abs_nonneg _) ((abs_nonneg _).trans hx)
    have := sq_nonneg t
    nlinarith
  have k1 := (hh1.re i).2
  have k2 := (hh1.im i).2
  have k3 := (hh2.re i).2
  have k4 := (hh2.im i).2
  unfold cmul conj toC
  simp only [XR.neg_fin]
  rw [key _ _ k1 k3, key _ _ (by rwa [abs_neg]) k4, key _ _ k1 k4, key _ _ (by rwa [abs_neg]) k3, zero_sub_zero, zero_add_zero]

lemma zero_cmul (c s : ℝ) : cmul F (.fin 0, .fin 0) (.fin c, .fin s) = (.fin 0, .fin 0) := by
  have key : ∀ y : ℝ, F.mul (.fin 0) (.fin y) = .fin 0 := fun y => by rw [mul_comm']; exact fin_zero_mul
  unfold cmul; simp only [key, zero_sub_zero, zero_add_zero]

/-- One faint waveform: the overlap is not finite. -/
lemma overlap_faint {n : ℕ} (del_t : ℝ) (fs : Fin n → ℝ) (S : Fin n → XR) {h : Fin n → ℝ × ℝ} {t : ℝ} (hh : Faint F h t)
    (g : Fin n → XR × XR) :
    ¬ (get_phase_maximized_inner_product_arr F lib del_t fs S (toC h) g).isFin
      ∧ ¬ (get_phase_maximized_inner_product_arr F lib del_t fs S g (toC h)).isFin := by
  unfold get_phase_maximized_inner_product_arr
  exact ⟨div_ZN (ZN.mul (norm_ZN lib S hh)), div_ZN (ZN.mul' (norm_ZN lib S hh))⟩

lemma match_faint (a b : ℕ) {n : ℕ} (S : Fin n → XR) {h : Fin n → ℝ × ℝ} {t : ℝ} (hh : Faint F h t) (g : Fin n → XR × XR) :
    ¬ (get_match_arr F lib a b S (toC h) g).isFin ∧ ¬ (get_match_arr F lib a b S g (toC h)).isFin := by
  unfold get_match_arr
  exact ⟨div_ZN (ZN.mul (norm_ZN lib S hh)), div_ZN (ZN.mul' (norm_ZN lib S hh))⟩

/-- Two faint waveforms: the overlap is nan. -/
lemma overlap_faint2 {n : ℕ} (del_t : ℝ) (fs : Fin n → ℝ) (S : Fin n → XR) {h1 h2 : Fin n → ℝ × ℝ} {t : ℝ}
    (hh1 : Faint F h1 t) (hh2 : Faint F h2 t) :
    get_phase_maximized_inner_product_arr F lib del_t fs S (toC h1) (toC h2) = .nan := by
  unfold get_phase_maximized_inner_product_arr
  refine ZN_div_ZN (lib.cabs_ZN _ _ (ZN.sum (lib.sum_spec _) fun x hx => ?_) (ZN.sum (lib.sum_spec _) fun x hx => ?_))
    (ZN.mul (norm_ZN lib S hh1))
  · obtain ⟨i, rfl⟩ := (List.mem_ofFn' _ _).1 hx
    beta_reduce; rw [prod_zero hh1 hh2, zero_cmul]; exact (lib.zero_cdiv _).1
  · obtain ⟨i, rfl⟩ := (List.mem_ofFn' _ _).1 hx
    beta_reduce; rw [prod_zero hh1 hh2, zero_cmul]; exact (lib.zero_cdiv _).2

lemma match_faint2 (a b : ℕ) {n : ℕ} (S : Fin n → XR) {h1 h2 : Fin n → ℝ × ℝ} {t : ℝ} (hh1 : Faint F h1 t) (hh2 : Faint F h2 t) :
    get_match_arr F lib a b S (toC h1) (toC h2) = .nan := by
  unfold get_match_arr
  refine ZN_div_ZN (ZN.maxOf fun x hx => ?_) (ZN.mul (norm_ZN lib S hh1))
  obtain ⟨k, rfl⟩ := (List.mem_ofFn' _ _).1 hx
  have hz := lib.ifft_ZN (Fin.append (Fin.append (fun _ : Fin a => ((.fin 0, .fin 0) : XR × XR))
    (fun i => lib.cdiv (cmul F (conj (toC h1 i)) (toC h2 i)) (S i))) (fun _ : Fin b => (.fin 0, .fin 0))) (by
      intro i
      refine Fin.addCases (fun i => ?_) (fun i => ?_) i
      · rw [Fin.append_left]
        refine Fin.addCases (fun i => ?_) (fun i => ?_) i
        · rw [Fin.append_left]; exact ⟨ZN.zero, ZN.zero⟩
        · rw [Fin.append_right, prod_zero hh1 hh2]; exact lib.zero_cdiv _
      · rw [Fin.append_right]; exact ⟨ZN.zero, ZN.zero⟩) k
  exact lib.cabs_ZN _ _ (ZN.mul' hz.1) (ZN.mul' hz.2)

/-! ### a library -/

lemma rd_double (hp : 1 ≤ F.p) {m : ℝ} (h0 : 0 ≤ m) (hm : F.rd m = m) : F.rd (2 * m) = 2 * m := by
  obtain ⟨n, k, h1, h2, h3⟩ := float_form hp hm
  have e := rnd_exact (F := F) (x := 2 * m) n (k := k + 1) (by rw [h1, zpow_add₀ two_ne_zero]; ring) (by omega) h3
  by_cases hf : F.ftz = true ∧ |F.rnd m| < F.minNormal
  · have : m = 0 := by
      rw [← hm]; unfold Fmt.rd; rw [if_pos hf]
    rw [this]; simpa using rd_zero
  · unfold Fmt.rd
    rw [if_neg, e]
    rintro ⟨h4, h5⟩
    apply hf
    refine ⟨h4, ?_⟩
    rw [rd_rnd hm, abs_of_nonneg h0]
    rw [e, abs_of_nonneg (by linarith)] at h5
    linarith

open Classical in
/-- An exact library, rounded at the end. -/
def exactLib (hF : F.WF) : Lib F where
  sum l := l.foldr F.add (.fin 0)
  cabs
    | (.fin a, .fin b) => F.ofReal (Real.sqrt (a ^ 2 + b ^ 2))
    | _ => .nan
  cdiv z s := (F.div z.1 s, F.div z.2 s)
  cis f t := (F.rd (Real.cos (2 * Real.pi * f * t)), F.rd (Real.sin (2 * Real.pi * f * t)))
  ifft {N} x k :=
    if ∀ i, CFin (x i) then
      (F.ofReal (1 / (N : ℝ) * ∑ m : Fin N, match x m with
        | (.fin a, .fin b) => a * Real.cos (2 * Real.pi * k * m / N) - b * Real.sin (2 * Real.pi * k * m / N)
        | _ => 0),
       F.ofReal (1 / (N : ℝ) * ∑ m : Fin N, match x m with
        | (.fin a, .fin b) => a * Real.sin (2 * Real.pi * k * m / N) + b * Real.cos (2 * Real.pi * k * m / N)
        | _ => 0))
    else (.nan, .nan)
  sum_spec l := by
    induction l with
    | nil => exact IsSum.nil
    | cons x l ih => exact IsSum.add (l1 := [x]) (l2 := l) (List.Perm.refl _) (IsSum.one x) ih
  cabs_small a b t ha hb hat hbt ht := by
    have ht0 : 0 ≤ t := (abs_nonneg a).trans hat
    have hs := Real.sqrt_nonneg (a ^ 2 + b ^ 2)
    set m := max |a| |b| with hm
    have hm0 : 0 ≤ m := (abs_nonneg a).trans (le_max_left _ _)
    have hneg : ∀ x : ℝ, F.rd x = x → F.rd |x| = |x| := by
      intro x hx
      obtain ⟨n, k, h1, h2, h3⟩ := float_form hF.p1 hx
      have e : F.rnd |x| = |x| := rnd_exact |n| (by rw [h1, abs_mul, abs_of_pos (two_zpow_pos k)]; push_cast; rfl) h2
        (by rwa [abs_abs])
      by_cases hf : F.ftz = true ∧ |F.rnd x| < F.minNormal
      · have : x = 0 := by rw [← hx]; unfold Fmt.rd; rw [if_pos hf]
        rw [this, abs_zero]; exact rd_zero
      · unfold Fmt.rd
        rw [if_neg, e]
        rintro ⟨h4, h5⟩
        exact hf ⟨h4, by rw [rd_rnd hx]; rwa [e, abs_abs] at h5⟩
    have hmf : F.rd m = m := by
      rcases max_choice |a| |b| with h | h
      · rw [hm, h]; exact hneg a ha
      · rw [hm, h]; exact hneg b hb
    have hle : Real.sqrt (a ^ 2 + b ^ 2) ≤ 2 * m := by
      rw [Real.sqrt_le_left (by linarith)]
      have h1 : a ^ 2 ≤ m ^ 2 := by rw [← sq_abs a]; exact pow_le_pow_left₀ (abs_nonneg _) (le_max_left _ _) 2
      have h2 : b ^ 2 ≤ m ^ 2 := by rw [← sq_abs b]; exact pow_le_pow_left₀ (abs_nonneg _) (le_max_right _ _) 2
      nlinarith [sq_nonneg m]
    have hr := rd_mono hF.p1 hs hle
    rw [rd_double hF.p1 hm0 hmf] at hr
    have hmt : m ≤ t := max_le hat hbt
    exact ⟨_, ofReal_fin hs (by linarith), rd_nonneg hs, by linarith⟩
  cabs_nonfin z hz := by
    rcases z with ⟨x, y⟩
    cases x <;> cases y <;> first | exact id | exact absurd ⟨trivial, trivial⟩ hz
  cabs_ninf z := by
    rcases z with ⟨x, y⟩
    cases x <;> cases y <;> first | (simp; done) | skip
    rename_i a b
    have hs := rd_nonneg (F := F) (Real.sqrt_nonneg (a ^ 2 + b ^ 2))
    have := two_zpow_pos F.emax
    show F.ofReal _ ≠ _
    unfold Fmt.ofReal
    split_ifs with h1 h2
    · simp
    · linarith
    · simp
  cabs_ZN a b ha hb := by
    rcases ha with rfl | rfl
    · rcases hb with rfl | rfl
      · left; show F.ofReal _ = _; simpa using ofReal_zero
      · right; rfl
    · right; rfl
  cdiv_zero z h := nf_div_zero _ h.1
  zero_cdiv s := ⟨ZN.zero_div s, ZN.zero_div s⟩
  ifft_nonfin {N} x h k := by
    obtain ⟨i, hi⟩ := h
    rw [if_neg (fun hc => hi (hc i))]; exact fun hc => hc.1
  ifft_ZN {N} x h k := by
    split_ifs with hc
    · have hx : ∀ i, x i = (.fin 0, .fin 0) := by
        intro i
        have h1 := h i
        have h2 := hc i
        rcases hxi : x i with ⟨p, q⟩
        rw [hxi] at h1 h2
        rcases h1.1 with e | e <;> rcases h1.2 with e' | e' <;> simp only at e e' <;> subst e <;> subst e'
        · rfl
        · exact absurd h2.2 id
        · exact absurd h2.1 id
        · exact absurd h2.1 id
      simp only [hx, zero_mul, sub_zero, add_zero, Finset.sum_const_zero, mul_zero, ofReal_zero]
      exact ⟨ZN.zero, ZN.zero⟩
    · exact ⟨ZN.nan, ZN.nan⟩

end
end Fp
end Ripple
