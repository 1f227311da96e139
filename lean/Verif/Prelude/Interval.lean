/-
  Verified interval branch-and-bound.

  `E` is a small language of real expressions; `ev` evaluates an expression on a box with outward-rounded fixed-point
  intervals (60 fractional bits); `check` walks a bisection tree of a box and checks on every leaf that one of the
  goal expressions has a positive lower bound.  `sound` turns a successful check into a statement about *all* real
  points of the box.  The check itself is run by Lean's kernel (proof by `rfl`), no compiled code is trusted.
  The functions run by the kernel are written with recursors because they evaluate faster that way.
-/
import Mathlib.Data.Real.Basic
import Mathlib.Data.Nat.Cast.Order.Field
import Mathlib.Algebra.Field.Rat
import Mathlib.Tactic.Linarith
import Mathlib.Tactic.Positivity
import Mathlib.Tactic.NormNum
import Mathlib.Tactic.FieldSimp
import Mathlib.Tactic.Ring

namespace Ripple
namespace IA

/-! ### expressions -/

inductive E where
  | var (i : Nat)
  | zero
  | one
  | nat (n : Nat)
  | dec (m k : Nat)
  | neg (a : E)
  | add (a b : E)
  | sub (a b : E)
  | mul (a b : E)
  | div (a b : E)
  | pow (a : E) (n : Nat)
  deriving Inhabited, Repr

def getR (env : List ℝ) (i : ℕ) : ℝ := env.getD i 0

/-- real value of an expression -/
noncomputable def eval (env : List ℝ) : E → ℝ
  | .var i => getR env i
  | .zero => 0
  | .one => 1
  | .nat n => (n : ℝ)
  | .dec m k => (OfScientific.ofScientific m true k : ℝ)
  | .neg a => -eval env a
  | .add a b => eval env a + eval env b
  | .sub a b => eval env a - eval env b
  | .mul a b => eval env a * eval env b
  | .div a b => eval env a / eval env b
  | .pow a n => eval env a ^ n

/-! ### integers with a sign, and forcing

The kernel evaluates lazily; `Z.force` and friends make it store evaluated numbers instead of growing terms. -/

/-- `pos n` is `n`, `neg n` is `-n` -/
inductive Z where
  | pos (n : Nat)
  | neg (n : Nat)

def Z.val : Z → Int
  | .pos n => n
  | .neg n => -(n : Int)

/-- evaluate a natural number before going on -/
noncomputable def forceN {α : Type} (n : Nat) (k : Nat → α) : α := Nat.rec (k 0) (fun m _ => k (Nat.succ m)) n

lemma forceN_eq {α : Type} (n : Nat) (k : Nat → α) : forceN n k = k n := by cases n <;> rfl

noncomputable def Z.force {α : Type} (a : Z) (k : Z → α) : α :=
  Z.rec (fun n => forceN n fun m => k (.pos m)) (fun n => forceN n fun m => k (.neg m)) a

lemma Z.force_eq {α : Type} (a : Z) (k : Z → α) : Z.force a k = k a := by
  cases a with
  | pos n => exact forceN_eq n fun m => k (.pos m)
  | neg n => exact forceN_eq n fun m => k (.neg m)

noncomputable def isN (a : Z) : Bool := Z.rec (fun _ => false) (fun _ => true) a
noncomputable def zneg (a : Z) : Z := Z.rec (fun n => .neg n) (fun n => .pos n) a
/-- `a - b` for natural numbers -/
def nsub (a b : Nat) : Z := cond (Nat.ble b a) (.pos (Nat.sub a b)) (.neg (Nat.sub b a))
noncomputable def zadd (a b : Z) : Z :=
  Z.rec (fun n => Z.rec (fun m => .pos (Nat.add n m)) (fun m => nsub n m) b)
    (fun n => Z.rec (fun m => nsub m n) (fun m => .neg (Nat.add n m)) b) a
noncomputable def zmul (a b : Z) : Z :=
  Z.rec (fun n => Z.rec (fun m => .pos (Nat.mul n m)) (fun m => .neg (Nat.mul n m)) b)
    (fun n => Z.rec (fun m => .neg (Nat.mul n m)) (fun m => .pos (Nat.mul n m)) b) a
noncomputable def zle (a b : Z) : Bool :=
  Z.rec (fun n => Z.rec (fun m => Nat.ble n m) (fun m => Nat.ble (Nat.add n m) 0) b)
    (fun n => Z.rec (fun _ => true) (fun m => Nat.ble m n) b) a
noncomputable def zmin (a b : Z) : Z := cond (zle a b) a b
noncomputable def zmax (a b : Z) : Z := cond (zle a b) b a

/-- `2^60` -/
def P : Nat := 1152921504606846976
/-- `2^120` -/
def PP : Nat := 1329227995784915872903807060280344576

/-- floor of `a / 2^60` -/
noncomputable def fl (a : Z) : Z :=
  Z.rec (fun n => .pos (Nat.div n 1152921504606846976))
    (fun n => .neg (Nat.div (Nat.add n 1152921504606846975) 1152921504606846976)) a
/-- ceiling of `a / 2^60` -/
noncomputable def ce (a : Z) : Z :=
  Z.rec (fun n => .pos (Nat.div (Nat.add n 1152921504606846975) 1152921504606846976))
    (fun n => .neg (Nat.div n 1152921504606846976)) a

/-! ### intervals with endpoints `n / 2^60` -/

structure Iv where
  lo : Z
  hi : Z

noncomputable def Iv.force {α : Type} (i : Iv) (k : Iv → α) : α :=
  Iv.rec (fun l h => l.force fun l => h.force fun h => k ⟨l, h⟩) i

lemma Iv.force_eq {α : Type} (i : Iv) (k : Iv → α) : Iv.force i k = k i := by
  obtain ⟨l, h⟩ := i
  show Z.force l (fun l => Z.force h fun h => k ⟨l, h⟩) = _
  rw [Z.force_eq, Z.force_eq]

noncomputable def iadd (a b : Iv) : Iv := ⟨zadd a.lo b.lo, zadd a.hi b.hi⟩
noncomputable def ineg (a : Iv) : Iv := ⟨zneg a.hi, zneg a.lo⟩
noncomputable def isub (a b : Iv) : Iv := ⟨zadd a.lo (zneg b.hi), zadd a.hi (zneg b.lo)⟩
noncomputable def imul (x y : Iv) : Iv :=
  cond (isN x.lo)
    (cond (isN x.hi)
      (cond (isN y.lo)
        (cond (isN y.hi) ⟨fl (zmul x.hi y.hi), ce (zmul x.lo y.lo)⟩
          ⟨fl (zmul x.lo y.hi), ce (zmul x.lo y.lo)⟩)
        ⟨fl (zmul x.lo y.hi), ce (zmul x.hi y.lo)⟩)
      (cond (isN y.lo)
        (cond (isN y.hi) ⟨fl (zmul x.hi y.lo), ce (zmul x.lo y.lo)⟩
          ⟨fl (zmin (zmul x.lo y.hi) (zmul x.hi y.lo)), ce (zmax (zmul x.lo y.lo) (zmul x.hi y.hi))⟩)
        ⟨fl (zmul x.lo y.hi), ce (zmul x.hi y.hi)⟩))
    (cond (isN y.lo)
      (cond (isN y.hi) ⟨fl (zmul x.hi y.lo), ce (zmul x.lo y.hi)⟩
        ⟨fl (zmul x.hi y.lo), ce (zmul x.hi y.hi)⟩)
      ⟨fl (zmul x.lo y.lo), ce (zmul x.hi y.hi)⟩)

/-- reciprocal of an interval of positive numbers `[l+1, h]` -/
def invPos (l h : Nat) : Iv := ⟨.pos (Nat.div PP h), .pos (Nat.succ (Nat.div PP (Nat.succ l)))⟩
/-- reciprocal; fails when the interval contains zero -/
noncomputable def iinv (y : Iv) : Option Iv :=
  Z.rec (fun n => Nat.rec none (fun l _ => Z.rec (fun h => some (invPos l h)) (fun _ => none) y.hi) n)
    (fun h => Z.rec (fun _ => none) (fun n => Nat.rec none (fun l _ => some (ineg (invPos l h))) n) y.hi) y.lo

noncomputable def clamp0 (a : Iv) : Iv := cond (isN a.lo) ⟨.pos 0, a.hi⟩ a

noncomputable def ipow (x : Iv) (n : Nat) : Iv :=
  cond (Nat.beq (Nat.mod n 2) 0)
    (clamp0 (Nat.rec ⟨.pos P, .pos P⟩ (fun _ ih => ih.force fun y => imul y x) n))
    (Nat.rec ⟨.pos P, .pos P⟩ (fun _ ih => ih.force fun y => imul y x) n)

def decIv (m k : Nat) : Iv :=
  ⟨.pos (Nat.div (Nat.mul m P) (Nat.pow 10 k)), .pos (Nat.succ (Nat.div (Nat.mul m P) (Nat.pow 10 k)))⟩
def natIv (n : Nat) : Iv := ⟨.pos (Nat.mul n P), .pos (Nat.mul n P)⟩

noncomputable def getI (env : List Iv) : Nat → Option Iv :=
  List.rec (fun _ => none) (fun a _ ih n => Nat.rec (some a) (fun m _ => ih m) n) env

noncomputable def map1 (f : Iv → Iv) (a : Option Iv) : Option Iv := Option.rec none (fun x => (f x).force some) a
noncomputable def map2 (f : Iv → Iv → Iv) (a b : Option Iv) : Option Iv :=
  Option.rec none (fun x => Option.rec none (fun y => (f x y).force some) b) a
noncomputable def bind1 (f : Iv → Option Iv) (a : Option Iv) : Option Iv :=
  Option.rec none (fun x => Option.rec none (fun y => y.force some) (f x)) a

lemma map1_some (f : Iv → Iv) (x : Iv) : map1 f (some x) = some (f x) := Iv.force_eq _ _
lemma map2_some (f : Iv → Iv → Iv) (x y : Iv) : map2 f (some x) (some y) = some (f x y) := Iv.force_eq _ _
lemma bind1_some (f : Iv → Option Iv) (x : Iv) : bind1 f (some x) = f x := by
  show Option.rec (motive := fun _ => Option Iv) none (fun y => y.force some) (f x) = _
  cases f x with
  | none => rfl
  | some y => exact Iv.force_eq _ _

/-- interval value of an expression -/
noncomputable def ev (env : List Iv) (e : E) : Option Iv :=
  E.rec (fun i => getI env i) (some (natIv 0)) (some (natIv 1)) (fun n => some (natIv n))
    (fun m k => some (decIv m k))
    (fun _ a => map1 ineg a) (fun _ _ a b => map2 iadd a b) (fun _ _ a b => map2 isub a b)
    (fun _ _ a b => map2 imul a b) (fun _ _ a b => map2 imul a (bind1 iinv b))
    (fun _ n a => map1 (fun x => ipow x n) a) e

noncomputable def snoc (l : List Iv) (a : Iv) : List Iv := List.rec [a] (fun b _ ih => b :: ih) l

/-- evaluate a list of intervals before going on -/
noncomputable def forceL {α : Type} (l : List Iv) (k : List Iv → α) : α :=
  List.rec (motive := fun _ => (List Iv → α) → α) (fun k => k [])
    (fun a _ ih k => a.force fun a => ih fun l => k (a :: l)) l k

lemma forceL_eq {α : Type} (l : List Iv) (k : List Iv → α) : forceL l k = k l := by
  induction l generalizing k with
  | nil => rfl
  | cons a l ih =>
    show Iv.force a (fun a => forceL l fun l => k (a :: l)) = _
    rw [Iv.force_eq, ih]

/-- extend an interval environment by the defined quantities -/
noncomputable def ext (defs : List E) : List Iv → Option (List Iv) :=
  List.rec (fun env => some env)
    (fun d _ ih env => Option.rec none (fun i => forceL (snoc env i) ih) (ev env d)) defs

noncomputable def isPos (a : Z) : Bool := Z.rec (fun n => Nat.ble 1 n) (fun _ => false) a

/-- some goal has a positive lower bound -/
noncomputable def anyPos (env : List Iv) (goals : List E) : Bool :=
  List.rec false (fun g _ ih => cond (Option.rec false (fun i => isPos i.lo) (ev env g)) true ih) goals

noncomputable def leaf (defs goals : List E) (box : List Iv) : Bool :=
  Option.rec false (fun env => anyPos env goals) (ext defs box)

noncomputable def half (a : Z) : Z := Z.rec (fun n => .pos (Nat.div n 2)) (fun n => .neg (Nat.div (Nat.succ n) 2)) a
noncomputable def mid (i : Iv) : Z := half (zadd i.lo i.hi)
noncomputable def setL (l : List Iv) : Nat → List Iv :=
  List.rec (fun _ => []) (fun i l ih n => Nat.rec (⟨i.lo, mid i⟩ :: l) (fun n _ => i :: ih n) n) l
noncomputable def setR (l : List Iv) : Nat → List Iv :=
  List.rec (fun _ => []) (fun i l ih n => Nat.rec (⟨mid i, i.hi⟩ :: l) (fun n _ => i :: ih n) n) l

/-- bisection tree: `node d` bisects coordinate `d` -/
inductive T where
  | leaf
  | node (d : Nat) (l r : T)

/-- walk a bisection tree -/
noncomputable def check (defs goals : List E) (t : T) : List Iv → Bool :=
  T.rec (fun box => leaf defs goals box)
    (fun d _ _ ihl ihr box => cond (forceL (setL box d) ihl) (forceL (setR box d) ihr) false) t

/-! ### soundness -/

/-- `x ∈ [lo/2^60, hi/2^60]` -/
def Mem (x : ℝ) (i : Iv) : Prop := (i.lo.val : ℝ) ≤ x * P ∧ x * P ≤ i.hi.val

lemma P_pos : (0 : ℝ) < (P : ℝ) := by norm_num [P]

lemma isN_true (a : Z) (h : isN a = true) : a.val ≤ 0 := by
  cases a with
  | pos n => cases h
  | neg n => simp [Z.val]

lemma isN_false (a : Z) (h : isN a = false) : 0 ≤ a.val := by
  cases a with
  | pos n => simp [Z.val]
  | neg n => cases h

lemma nsub_val (a b : Nat) : (nsub a b).val = (a : Int) - b := by
  unfold nsub
  cases h : Nat.ble b a with
  | true =>
    have := Nat.le_of_ble_eq_true h
    show ((a - b : ℕ) : Int) = _
    omega
  | false =>
    have : ¬ b ≤ a := fun h' => by rw [Nat.ble_eq_true_of_le h'] at h; cases h
    show -((b - a : ℕ) : Int) = _
    omega

lemma zneg_val (a : Z) : (zneg a).val = -a.val := by cases a <;> simp [zneg, Z.val]

lemma zadd_val (a b : Z) : (zadd a b).val = a.val + b.val := by
  cases a with
  | pos n => cases b with
    | pos m => show ((n + m : ℕ) : Int) = n + m; push_cast; ring
    | neg m => show (nsub n m).val = n + -(m : Int); rw [nsub_val]; ring
  | neg n => cases b with
    | pos m => show (nsub m n).val = -(n : Int) + m; rw [nsub_val]; ring
    | neg m => show -((n + m : ℕ) : Int) = -(n : Int) + -(m : Int); push_cast; ring

lemma zmul_val (a b : Z) : (zmul a b).val = a.val * b.val := by
  cases a with
  | pos n => cases b with
    | pos m => show ((n * m : ℕ) : Int) = n * m; push_cast; ring
    | neg m => show -((n * m : ℕ) : Int) = n * -(m : Int); push_cast; ring
  | neg n => cases b with
    | pos m => show -((n * m : ℕ) : Int) = -(n : Int) * m; push_cast; ring
    | neg m => show ((n * m : ℕ) : Int) = -(n : Int) * -(m : Int); push_cast; ring

lemma zle_iff (a b : Z) : zle a b = true ↔ a.val ≤ b.val := by
  cases a with
  | pos n => cases b with
    | pos m => show Nat.ble n m = true ↔ (n : Int) ≤ m; rw [Nat.ble_eq]; omega
    | neg m => show Nat.ble (n + m) 0 = true ↔ (n : Int) ≤ -(m : Int); rw [Nat.ble_eq]; omega
  | neg n => cases b with
    | pos m => show true = true ↔ -(n : Int) ≤ m; constructor <;> intro _ <;> first | rfl | omega
    | neg m => show Nat.ble m n = true ↔ -(n : Int) ≤ -(m : Int); rw [Nat.ble_eq]; omega

lemma zmin_val (a b : Z) : (zmin a b).val = min a.val b.val := by
  unfold zmin
  cases h : zle a b
  · have : ¬ a.val ≤ b.val := by rw [← zle_iff]; simp [h]
    simp; omega
  · have := (zle_iff a b).1 h
    simp; omega

lemma zmax_val (a b : Z) : (zmax a b).val = max a.val b.val := by
  unfold zmax
  cases h : zle a b
  · have : ¬ a.val ≤ b.val := by rw [← zle_iff]; simp [h]
    simp; omega
  · have := (zle_iff a b).1 h
    simp; omega

lemma fl_le (a : Z) : ((fl a).val : ℝ) * P ≤ a.val := by
  have h : (fl a).val * (P : Int) ≤ a.val := by
    cases a with
    | pos n =>
      show ((n / 1152921504606846976 : ℕ) : Int) * ((1152921504606846976 : ℕ) : Int) ≤ n
      omega
    | neg n =>
      show -(((n + 1152921504606846975) / 1152921504606846976 : ℕ) : Int) * ((1152921504606846976 : ℕ) : Int) ≤ -(n : Int)
      omega
  exact_mod_cast h

lemma le_ce (a : Z) : (a.val : ℝ) ≤ ((ce a).val : ℝ) * P := by
  have h : a.val ≤ (ce a).val * (P : Int) := by
    cases a with
    | pos n =>
      show (n : Int) ≤ (((n + 1152921504606846975) / 1152921504606846976 : ℕ) : Int) * ((1152921504606846976 : ℕ) : Int)
      omega
    | neg n =>
      show -(n : Int) ≤ -((n / 1152921504606846976 : ℕ) : Int) * ((1152921504606846976 : ℕ) : Int)
      omega
  exact_mod_cast h

lemma mem_add {x y : ℝ} {a b : Iv} (ha : Mem x a) (hb : Mem y b) : Mem (x + y) (iadd a b) := by
  constructor
  · show ((zadd a.lo b.lo).val : ℝ) ≤ _
    rw [zadd_val]; push_cast; linarith [ha.1, hb.1]
  · show _ ≤ ((zadd a.hi b.hi).val : ℝ)
    rw [zadd_val]; push_cast; linarith [ha.2, hb.2]

lemma mem_neg {x : ℝ} {a : Iv} (ha : Mem x a) : Mem (-x) (ineg a) := by
  constructor
  · show ((zneg a.hi).val : ℝ) ≤ _
    rw [zneg_val]; push_cast; linarith [ha.2]
  · show _ ≤ ((zneg a.lo).val : ℝ)
    rw [zneg_val]; push_cast; linarith [ha.1]

lemma mem_sub {x y : ℝ} {a b : Iv} (ha : Mem x a) (hb : Mem y b) : Mem (x - y) (isub a b) := by
  constructor
  · show ((zadd a.lo (zneg b.hi)).val : ℝ) ≤ _
    rw [zadd_val, zneg_val]; push_cast; linarith [ha.1, hb.2]
  · show _ ≤ ((zadd a.hi (zneg b.lo)).val : ℝ)
    rw [zadd_val, zneg_val]; push_cast; linarith [ha.2, hb.1]

/-- real product bounds for the nine sign cases are assembled from these -/
lemma mem_of_prod {x y : ℝ} {l h : Z} (h1 : (l.val : ℝ) ≤ (x * P) * (y * P)) (h2 : (x * P) * (y * P) ≤ (h.val : ℝ)) :
    Mem (x * y) ⟨fl l, ce h⟩ := by
  have hP := P_pos
  constructor
  · have := fl_le l
    refine le_of_mul_le_mul_right ?_ hP
    calc ((fl l).val : ℝ) * P ≤ l.val := this
      _ ≤ (x * P) * (y * P) := h1
      _ = x * y * P * P := by ring
  · have := le_ce h
    refine le_of_mul_le_mul_right ?_ hP
    calc x * y * P * P = (x * P) * (y * P) := by ring
      _ ≤ h.val := h2
      _ ≤ ((ce h).val : ℝ) * P := this

lemma mem_mul {x y : ℝ} {a b : Iv} (ha : Mem x a) (hb : Mem y b) : Mem (x * y) (imul a b) := by
  obtain ⟨al, ah⟩ := a
  obtain ⟨bl, bh⟩ := b
  obtain ⟨a1, a2⟩ := ha
  obtain ⟨b1, b2⟩ := hb
  simp only at a1 a2 b1 b2
  generalize hX : x * P = X at *
  generalize hY : y * P = Y at *
  have key : ∀ {l h : Z}, (l.val : ℝ) ≤ X * Y → X * Y ≤ (h.val : ℝ) → Mem (x * y) ⟨fl l, ce h⟩ := by
    intro l h h1 h2
    exact mem_of_prod (by rw [hX, hY]; exact h1) (by rw [hX, hY]; exact h2)
  have cm : ∀ p q : Z, ((zmul p q).val : ℝ) = (p.val : ℝ) * q.val := by
    intro p q
    rw [zmul_val]
    push_cast; ring
  have P1 : ∀ {z : Z}, isN z = false → (0 : ℝ) ≤ z.val := fun {z} h => by exact_mod_cast isN_false z h
  have N1 : ∀ {z : Z}, isN z = true → (z.val : ℝ) ≤ 0 := fun {z} h => by exact_mod_cast isN_true z h
  unfold imul
  simp only
  rcases hal : isN al with _ | _ <;> rcases hbl : isN bl with _ | _
  · -- 0 ≤ al, 0 ≤ bl
    have p1 := P1 hal
    have q1 := P1 hbl
    simp only [cond_false]
    exact key (by rw [cm]; nlinarith) (by rw [cm]; nlinarith)
  · have p1 := P1 hal
    have q1 := N1 hbl
    rcases hbh : isN bh with _ | _
    · have q2 := P1 hbh
      simp only [cond_false, cond_true]
      exact key (by rw [cm]; nlinarith) (by rw [cm]; nlinarith)
    · have q2 := N1 hbh
      simp only [cond_false, cond_true]
      exact key (by rw [cm]; nlinarith) (by rw [cm]; nlinarith)
  · have p1 := N1 hal
    have q1 := P1 hbl
    rcases hah : isN ah with _ | _
    · have p2 := P1 hah
      simp only [cond_false, cond_true]
      exact key (by rw [cm]; nlinarith) (by rw [cm]; nlinarith)
    · have p2 := N1 hah
      simp only [cond_false, cond_true]
      exact key (by rw [cm]; nlinarith) (by rw [cm]; nlinarith)
  · have p1 := N1 hal
    have q1 := N1 hbl
    rcases hah : isN ah with _ | _ <;> rcases hbh : isN bh with _ | _
    · have p2 := P1 hah
      have q2 := P1 hbh
      simp only [cond_false, cond_true]
      refine key ?_ ?_
      · rw [zmin_val, Int.cast_min, cm, cm]
        rcases le_total 0 X with hx | hx
        · exact le_trans (min_le_right _ _) (by nlinarith)
        · exact le_trans (min_le_left _ _) (by nlinarith)
      · rw [zmax_val, Int.cast_max, cm, cm]
        rcases le_total 0 X with hx | hx
        · exact le_trans (by nlinarith) (le_max_right _ _)
        · exact le_trans (by nlinarith) (le_max_left _ _)
    · have p2 := P1 hah
      have q2 := N1 hbh
      simp only [cond_false, cond_true]
      exact key (by rw [cm]; nlinarith) (by rw [cm]; nlinarith)
    · have p2 := N1 hah
      have q2 := P1 hbh
      simp only [cond_true, cond_false]
      exact key (by rw [cm]; nlinarith) (by rw [cm]; nlinarith)
    · have p2 := N1 hah
      have q2 := N1 hbh
      simp only [cond_true]
      exact key (by rw [cm]; nlinarith) (by rw [cm]; nlinarith)

lemma PP_eq : (PP : ℝ) = (P : ℝ) * P := by norm_num [P, PP]

lemma mem_invPos {y : ℝ} {l h : Nat} (h1 : ((l : ℝ) + 1) ≤ y * P) (h2 : y * P ≤ (h : ℝ)) :
    Mem y⁻¹ (invPos l h) := by
  have hP := P_pos
  have hl : (0 : ℝ) < (l : ℝ) + 1 := by positivity
  have hyP : 0 < y * P := lt_of_lt_of_le hl h1
  have hy : 0 < y := pos_of_mul_pos_left hyP hP.le
  have inv : y⁻¹ * P = PP / (y * P) := by rw [PP_eq]; field_simp
  constructor
  · show (((PP / h : ℕ) : Int) : ℝ) ≤ _
    have a : ((PP / h : ℕ) : ℝ) ≤ (PP : ℝ) / h := Nat.cast_div_le
    rw [Int.cast_natCast, inv]
    exact le_trans a (div_le_div_of_nonneg_left (by positivity) hyP h2)
  · show _ ≤ (((PP / (l + 1) + 1 : ℕ) : Int) : ℝ)
    rw [Int.cast_natCast, inv]
    have a : (PP : ℝ) / ((l : ℝ) + 1) ≤ ((PP / (l + 1) + 1 : ℕ) : ℝ) := by
      rw [div_le_iff₀ hl]
      have : PP ≤ (PP / (l + 1) + 1) * (l + 1) := by
        have := Nat.div_add_mod PP (l + 1)
        have h3 := Nat.mod_lt PP (show 0 < l + 1 by omega)
        calc PP = (l + 1) * (PP / (l + 1)) + PP % (l + 1) := this.symm
          _ ≤ (l + 1) * (PP / (l + 1)) + (l + 1) := by omega
          _ = _ := by ring
      exact_mod_cast this
    exact le_trans (div_le_div_of_nonneg_left (by positivity) hl h1) a

lemma mem_inv {y : ℝ} {b c : Iv} (hb : Mem y b) (h : iinv b = some c) : Mem y⁻¹ c := by
  obtain ⟨lo, hi⟩ := b
  obtain ⟨b1, b2⟩ := hb
  simp only at b1 b2
  cases lo with
  | pos n =>
    cases n with
    | zero => cases h
    | succ l =>
      cases hi with
      | neg n => cases h
      | pos n =>
        have h' : invPos l n = c := Option.some.inj h
        rw [← h']
        refine mem_invPos ?_ ?_
        · have : (((Z.pos (l + 1)).val : Int) : ℝ) = (l : ℝ) + 1 := by simp [Z.val]
          rw [← this]; exact b1
        · have : (((Z.pos n).val : Int) : ℝ) = (n : ℝ) := by simp [Z.val]
          rw [← this]; exact b2
  | neg m =>
    cases hi with
    | pos n => cases h
    | neg n =>
      cases n with
      | zero => cases h
      | succ l =>
        have h' : ineg (invPos l m) = c := Option.some.inj h
        rw [← h']
        have e : y⁻¹ = -((-y)⁻¹) := by rw [inv_neg, neg_neg]
        rw [e]
        refine mem_neg (mem_invPos ?_ ?_)
        · have : (((Z.neg (l + 1)).val : Int) : ℝ) = -((l : ℝ) + 1) := by simp only [Z.val]; push_cast; ring
          rw [this] at b2
          linarith
        · have : (((Z.neg m).val : Int) : ℝ) = -(m : ℝ) := by simp [Z.val]
          rw [this] at b1
          linarith

lemma mem_nat (n : ℕ) : Mem (n : ℝ) (natIv n) := by
  have e : (((Nat.mul n P : ℕ) : Int) : ℝ) = (n : ℝ) * P := by
    rw [Int.cast_natCast]; show ((n * P : ℕ) : ℝ) = _; push_cast; ring
  constructor
  · show (((Nat.mul n P : ℕ) : Int) : ℝ) ≤ _
    rw [e]
  · show _ ≤ (((Nat.mul n P : ℕ) : Int) : ℝ)
    rw [e]

lemma mem_dec (m k : ℕ) : Mem (OfScientific.ofScientific m true k : ℝ) (decIv m k) := by
  have e : (OfScientific.ofScientific m true k : ℝ) = (m : ℝ) / 10 ^ k := by
    rw [NNRatCast.ofScientific_eq_ite, if_pos rfl]
    simp
  have h10 : (0 : ℝ) < 10 ^ k := by positivity
  have hP := P_pos
  rw [e]
  have e2 : (m : ℝ) / 10 ^ k * P = ((m * P : ℕ) : ℝ) / ((10 ^ k : ℕ) : ℝ) := by push_cast; ring
  constructor
  · show (((m * P / 10 ^ k : ℕ) : Int) : ℝ) ≤ _
    rw [Int.cast_natCast, e2]
    exact Nat.cast_div_le
  · show _ ≤ (((m * P / 10 ^ k + 1 : ℕ) : Int) : ℝ)
    rw [Int.cast_natCast, e2, div_le_iff₀ (by positivity)]
    have : m * P ≤ (m * P / 10 ^ k + 1) * 10 ^ k := by
      have h1 := Nat.div_add_mod (m * P) (10 ^ k)
      have h3 := Nat.mod_lt (m * P) (show 0 < 10 ^ k by positivity)
      calc m * P = 10 ^ k * (m * P / 10 ^ k) + m * P % 10 ^ k := h1.symm
        _ ≤ 10 ^ k * (m * P / 10 ^ k) + 10 ^ k := by omega
        _ = _ := by ring
    exact_mod_cast this

lemma mem_clamp0 {x : ℝ} {a : Iv} (h : Mem x a) (hx : 0 ≤ x) : Mem x (clamp0 a) := by
  unfold clamp0
  cases isN a.lo
  · exact h
  · exact ⟨by simpa [Z.val] using mul_nonneg hx P_pos.le, h.2⟩

lemma mem_powAux {x : ℝ} {a : Iv} (h : Mem x a) (n : ℕ) :
    Mem (x ^ n) (Nat.rec (motive := fun _ => Iv) ⟨.pos P, .pos P⟩ (fun _ ih => ih.force fun y => imul y a) n) := by
  induction n with
  | zero =>
    rw [pow_zero]
    simp [Mem, Z.val]
  | succ n ih =>
    rw [pow_succ]
    have := mem_mul ih h
    rwa [← Iv.force_eq (k := fun y => imul y a)] at this

lemma mem_pow {x : ℝ} {a : Iv} (h : Mem x a) (n : ℕ) : Mem (x ^ n) (ipow a n) := by
  unfold ipow
  rcases hb : Nat.beq (Nat.mod n 2) 0 with _ | _
  · exact mem_powAux h n
  · refine mem_clamp0 (mem_powAux h n) ?_
    have : n % 2 = 0 := Nat.eq_of_beq_eq_true hb
    exact Even.pow_nonneg (Nat.even_iff.2 this) x

/-- an interval environment encloses a real one (pointwise, as far as the interval environment reaches) -/
def EnvMem (env : List Iv) (xs : List ℝ) : Prop := ∀ i v, getI env i = some v → Mem (getR xs i) v

lemma getI_nil (i : ℕ) : getI [] i = none := rfl
lemma getI_cons_zero (a : Iv) (l : List Iv) : getI (a :: l) 0 = some a := rfl
lemma getI_cons_succ (a : Iv) (l : List Iv) (n : ℕ) : getI (a :: l) (n + 1) = getI l n := rfl

lemma mem_ev {env : List Iv} {xs : List ℝ} (h : EnvMem env xs) :
    ∀ (e : E) (v : Iv), ev env e = some v → Mem (eval xs e) v := by
  intro e
  induction e with
  | var i => intro v hv; exact h i v hv
  | zero =>
    intro v hv
    have : natIv 0 = v := Option.some.inj hv
    rw [← this]
    have := mem_nat 0
    rw [Nat.cast_zero] at this
    exact this
  | one =>
    intro v hv
    have : natIv 1 = v := Option.some.inj hv
    rw [← this]
    have := mem_nat 1
    rw [Nat.cast_one] at this
    exact this
  | nat n =>
    intro v hv
    have : natIv n = v := Option.some.inj hv
    rw [← this]
    exact mem_nat n
  | dec m k =>
    intro v hv
    have : decIv m k = v := Option.some.inj hv
    rw [← this]
    exact mem_dec m k
  | neg a iha =>
    intro v hv
    have hv' : map1 ineg (ev env a) = some v := hv
    cases ha : ev env a with
    | none => rw [ha] at hv'; cases hv'
    | some x =>
      rw [ha, map1_some] at hv'
      have : ineg x = v := Option.some.inj hv'
      rw [← this]; exact mem_neg (iha x ha)
  | add a b iha ihb =>
    intro v hv
    have hv' : map2 iadd (ev env a) (ev env b) = some v := hv
    cases ha : ev env a with
    | none => rw [ha] at hv'; cases hv'
    | some x =>
      cases hb : ev env b with
      | none => rw [ha, hb] at hv'; cases hv'
      | some y =>
        rw [ha, hb, map2_some] at hv'
        have : iadd x y = v := Option.some.inj hv'
        rw [← this]; exact mem_add (iha x ha) (ihb y hb)
  | sub a b iha ihb =>
    intro v hv
    have hv' : map2 isub (ev env a) (ev env b) = some v := hv
    cases ha : ev env a with
    | none => rw [ha] at hv'; cases hv'
    | some x =>
      cases hb : ev env b with
      | none => rw [ha, hb] at hv'; cases hv'
      | some y =>
        rw [ha, hb, map2_some] at hv'
        have : isub x y = v := Option.some.inj hv'
        rw [← this]; exact mem_sub (iha x ha) (ihb y hb)
  | mul a b iha ihb =>
    intro v hv
    have hv' : map2 imul (ev env a) (ev env b) = some v := hv
    cases ha : ev env a with
    | none => rw [ha] at hv'; cases hv'
    | some x =>
      cases hb : ev env b with
      | none => rw [ha, hb] at hv'; cases hv'
      | some y =>
        rw [ha, hb, map2_some] at hv'
        have : imul x y = v := Option.some.inj hv'
        rw [← this]; exact mem_mul (iha x ha) (ihb y hb)
  | div a b iha ihb =>
    intro v hv
    have hv' : map2 imul (ev env a) (bind1 iinv (ev env b)) = some v := hv
    cases ha : ev env a with
    | none => rw [ha] at hv'; cases hv'
    | some x =>
      cases hb : ev env b with
      | none => rw [ha, hb] at hv'; cases hv'
      | some y =>
        rw [ha, hb, bind1_some] at hv'
        have hv2 : map2 imul (some x) (iinv y) = some v := hv'
        cases hi : iinv y with
        | none => rw [hi] at hv2; cases hv2
        | some z =>
          rw [hi, map2_some] at hv2
          have : imul x z = v := Option.some.inj hv2
          rw [← this]
          show Mem (eval xs a / eval xs b) _
          rw [div_eq_mul_inv]
          exact mem_mul (iha x ha) (mem_inv (ihb y hb) hi)
  | pow a n iha =>
    intro v hv
    have hv' : map1 (fun x => ipow x n) (ev env a) = some v := hv
    cases ha : ev env a with
    | none => rw [ha] at hv'; cases hv'
    | some x =>
      rw [ha, map1_some] at hv'
      have : ipow x n = v := Option.some.inj hv'
      rw [← this]; exact mem_pow (iha x ha) n

lemma snoc_eq (l : List Iv) (a : Iv) : snoc l a = l ++ [a] := by
  induction l with
  | nil => rfl
  | cons b l ih =>
    show b :: snoc l a = _
    rw [ih]; rfl

lemma getI_append_left {l : List Iv} (m : List Iv) {i : ℕ} (hi : i < l.length) : getI (l ++ m) i = getI l i := by
  induction l generalizing i with
  | nil => simp at hi
  | cons a l ih =>
    cases i with
    | zero => rfl
    | succ i => exact ih (by simpa using hi)

lemma getI_append_last (l : List Iv) (a : Iv) : getI (l ++ [a]) l.length = some a := by
  induction l with
  | nil => rfl
  | cons b l ih => exact ih

lemma getI_none {l : List Iv} {i : ℕ} (hi : l.length ≤ i) : getI l i = none := by
  induction l generalizing i with
  | nil => rfl
  | cons a l ih =>
    cases i with
    | zero => simp at hi
    | succ i => exact ih (by simpa using hi)

/-- the atoms from position `k` on satisfy their defining equations -/
def DefsHold (xs : List ℝ) : ℕ → List E → Prop
  | _, [] => True
  | k, d :: ds => getR xs k = eval xs d ∧ DefsHold xs (k + 1) ds

lemma ext_mem {defs : List E} {env env' : List Iv} {xs : List ℝ} (h : EnvMem env xs)
    (hd : DefsHold xs env.length defs) (he : ext defs env = some env') : EnvMem env' xs := by
  induction defs generalizing env with
  | nil =>
    have : env = env' := Option.some.inj he
    rw [← this]; exact h
  | cons d ds ih =>
    cases hv : ev env d with
    | none =>
      have : Option.rec (motive := fun _ => Option (List Iv)) none (fun i => forceL (snoc env i) (ext ds)) (ev env d) = some env' := he
      rw [hv] at this; cases this
    | some v =>
      have he' : Option.rec (motive := fun _ => Option (List Iv)) none (fun i => forceL (snoc env i) (ext ds)) (ev env d) =
          some env' := he
      rw [hv] at he'
      have he2 : ext ds (snoc env v) = some env' := (forceL_eq _ _).symm.trans he'
      refine ih (env := snoc env v) ?_ ?_ he2
      · rw [snoc_eq]
        intro i w hw
        rcases lt_trichotomy i env.length with hi | hi | hi
        · rw [getI_append_left _ hi] at hw; exact h i w hw
        · rw [hi, getI_append_last] at hw
          have : v = w := Option.some.inj hw
          rw [hi, hd.1, ← this]
          exact mem_ev h d v hv
        · rw [getI_none (by simp; omega)] at hw; cases hw
      · rw [snoc_eq, List.length_append]
        exact hd.2

/-- one of the goals is positive -/
def Some (xs : List ℝ) : List E → Prop
  | [] => False
  | [g] => 0 < eval xs g
  | g :: gs => 0 < eval xs g ∨ Some xs gs

lemma some_cons (xs : List ℝ) (g : E) (gs : List E) (h : 0 < eval xs g ∨ Some xs gs) : Some xs (g :: gs) := by
  cases gs with
  | nil => rcases h with h | h
           · exact h
           · exact h.elim
  | cons a l => exact h

lemma isPos_iff (a : Z) : isPos a = true → 0 < a.val := by
  cases a with
  | pos n => intro h; have : 1 ≤ n := Nat.le_of_ble_eq_true h; show (0 : Int) < n; omega
  | neg n => intro h; cases h

lemma anyPos_sound {env : List Iv} {xs : List ℝ} (h : EnvMem env xs) {goals : List E} (hp : anyPos env goals = true) :
    Some xs goals := by
  induction goals with
  | nil => cases hp
  | cons g gs ih =>
    apply some_cons
    have hp' : cond (Option.rec (motive := fun _ => Bool) false (fun i => isPos i.lo) (ev env g)) true
      (anyPos env gs) = true := hp
    cases hv : ev env g with
    | none =>
      rw [hv] at hp'
      exact Or.inr (ih hp')
    | some v =>
      rw [hv] at hp'
      have hp2 : cond (isPos v.lo) true (anyPos env gs) = true := hp'
      cases hq : isPos v.lo with
      | false => rw [hq] at hp2; exact Or.inr (ih hp2)
      | true =>
        left
        have h1 := isPos_iff _ hq
        have h2 := (mem_ev h g v hv).1
        have h3 : (0 : ℝ) < v.lo.val := by exact_mod_cast h1
        have h4 : 0 < eval xs g * P := lt_of_lt_of_le h3 h2
        exact pos_of_mul_pos_left h4 P_pos.le

/-- real points of a box -/
def BoxMem : List Iv → List ℝ → Prop
  | [], _ => True
  | _ :: _, [] => False
  | i :: is, x :: xs => Mem x i ∧ BoxMem is xs

lemma BoxMem.env {box : List Iv} {xs : List ℝ} (h : BoxMem box xs) : EnvMem box xs := by
  induction box generalizing xs with
  | nil => intro i v hv; cases hv
  | cons a l ih =>
    cases xs with
    | nil => exact h.elim
    | cons x xs =>
      intro i v hv
      cases i with
      | zero => have : a = v := Option.some.inj hv; rw [← this]; exact h.1
      | succ i => exact ih h.2 i v hv

lemma setL_length (l : List Iv) (d : ℕ) : (setL l d).length = l.length := by
  induction l generalizing d with
  | nil => rfl
  | cons a l ih =>
    cases d with
    | zero => rfl
    | succ d => show (a :: setL l d).length = _; simp [ih]

lemma setR_length (l : List Iv) (d : ℕ) : (setR l d).length = l.length := by
  induction l generalizing d with
  | nil => rfl
  | cons a l ih =>
    cases d with
    | zero => rfl
    | succ d => show (a :: setR l d).length = _; simp [ih]

lemma split_mem {box : List Iv} {xs : List ℝ} (h : BoxMem box xs) (d : ℕ) :
    BoxMem (setL box d) xs ∨ BoxMem (setR box d) xs := by
  induction box generalizing xs d with
  | nil => left; trivial
  | cons a l ih =>
    cases xs with
    | nil => exact h.elim
    | cons x xs =>
      cases d with
      | zero =>
        rcases le_total (x * P) ((mid a).val : ℝ) with hm | hm
        · left; exact ⟨⟨h.1.1, hm⟩, h.2⟩
        · right; exact ⟨⟨hm, h.1.2⟩, h.2⟩
      | succ d =>
        rcases ih h.2 d with h' | h'
        · left; exact ⟨h.1, h'⟩
        · right; exact ⟨h.1, h'⟩

/-- A successful check proves, for every real point of the box whose defined atoms satisfy their equations, that one of
    the goals is positive. -/
theorem sound {defs goals : List E} {t : T} {box : List Iv} (h : check defs goals t box = true)
    (xs : List ℝ) (hb : BoxMem box xs) (hd : DefsHold xs box.length defs) : Some xs goals := by
  induction t generalizing box with
  | leaf =>
    have hl' : Option.rec (motive := fun _ => Bool) false (fun env => anyPos env goals) (ext defs box) = true := h
    cases he : ext defs box with
    | none => rw [he] at hl'; cases hl'
    | some env =>
      rw [he] at hl'
      exact anyPos_sound (ext_mem hb.env hd he) hl'
  | node d l r ihl ihr =>
    have h' : cond (forceL (setL box d) (check defs goals l)) (forceL (setR box d) (check defs goals r)) false = true := h
    rw [forceL_eq, forceL_eq] at h'
    cases hc : check defs goals l (setL box d) with
    | false => rw [hc] at h'; cases h'
    | true =>
      rw [hc] at h'
      have h3 : check defs goals r (setR box d) = true := h'
      rcases split_mem hb d with h4 | h4
      · exact ihl hc h4 (by rw [setL_length]; exact hd)
      · exact ihr h3 h4 (by rw [setR_length]; exact hd)

/-- membership in the interval spanned by two expressions without variables -/
lemma mem_of_bounds {lo hi : E} {x : ℝ} {vl vh : Iv} (h1 : ev [] lo = some vl) (h2 : ev [] hi = some vh)
    (hx : eval [] lo ≤ x ∧ x ≤ eval [] hi) : Mem x ⟨vl.lo, vh.hi⟩ := by
  have e : EnvMem [] [] := fun i v hv => by cases hv
  have a := (mem_ev e lo vl h1).1
  have b := (mem_ev e hi vh h2).2
  have hP := P_pos
  exact ⟨le_trans a (mul_le_mul_of_nonneg_right hx.1 hP.le), le_trans (mul_le_mul_of_nonneg_right hx.2 hP.le) b⟩

end IA
end Ripple
