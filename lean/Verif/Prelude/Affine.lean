/-
  Verified branch-and-bound with affine arithmetic.

  Like `Ripple.IA.check` (Verif/Prelude/Interval.lean), but every quantity is enclosed by an affine form
  `c + a₁ ε₁ + … + a₄ ε₄ + err` in terms of the normalised displacements `εᵢ ∈ [-1, 1]` of the first four variables from
  the middle of the box, with `|err| ≤ r` and `r + |a₁| + … + |a₄| ≤ R`.  The enclosure is exact to second order in the size
  of the box, so far fewer boxes are needed than with plain intervals.  The check is run by Lean's kernel, as before.

  Numbers are natural numbers: `c` stands for `(c - 2^120) / 2^60`, `r` and `R` for `r / 2^60` and `R / 2^60`.  The
  coefficients are packed into one natural number `V = Σ (aᵢ + 2^120) 2^(244 i)`, so that one multiplication of the kernel
  acts on all of them; a constant has `V = 0`.  The functions are in continuation-passing style; a result zero (an underflow
  of the offset) makes the check fail.
-/
import Verif.Prelude.Interval
import Mathlib.Tactic.Ring
import Mathlib.Tactic.Linarith
import Mathlib.Tactic.Positivity
import Mathlib.Tactic.FieldSimp
import Mathlib.Tactic.NormNum
import Mathlib.Tactic.LinearCombination
import Mathlib.Data.Nat.Bitwise
import Mathlib.Data.Real.Basic

namespace Ripple
namespace IA

/-- evaluate a natural number before going on; fails at zero -/
noncomputable def fN (n : Nat) (k : Nat → Bool) : Bool :=
  Bool.rec (motive := fun _ => Bool) (k n) false (Nat.beq n (nat_lit 0))

/-- what happens next with an affine form -/
abbrev K := Nat → Nat → Nat → Nat → Bool

structure AF where
  c : Nat
  r : Nat
  R : Nat
  V : Nat

/-- product of two numbers with offset -/
def mulc (x y : Nat) : Nat :=
  Nat.sub (Nat.div (Nat.sub (Nat.add (Nat.mul x y) (nat_lit 3533694129556768659166595001485837031654967793751237916243212402585239552)) (Nat.mul (nat_lit 1329227995784915872903807060280344576) (Nat.add x y))) (nat_lit 1152921504606846976)) (nat_lit 1532495540865888857029119031365393310714932061903257600)
/-- absolute value of a number with offset -/
def absO (z : Nat) : Nat := Nat.add (Nat.sub z (nat_lit 1329227995784915872903807060280344576)) (Nat.sub (nat_lit 1329227995784915872903807060280344576) z)
/-- divide the packed numbers `Σ (b + 2^240) 2^(244 i)` by `2^60` -/
def packS (w : Nat) : Nat := Nat.sub (Nat.land (Nat.shiftRight w (nat_lit 60)) (nat_lit 553956966280111321359151042308621317197106853745652161164256416758687874091322988753238895350636593764640036625071298645173649675797994564245417246644594869189905927433160042760874115091710176020373789979463527947195255014749272165578091459172032648590617250961548914496372735)) (nat_lit 34622310392506957554916872829070031404934547577066232628930994652574086732470643655129218639551261248792616059708155194255546688569913801092536805050910484038655750719851283801390575172863721633338021430782536074112187784468676081983390449339717404032757982634881701013094400)
/-- packed `x b + y a` -/
def mulV (x b y a : Nat) : Nat :=
  packS (Nat.sub (Nat.add (Nat.add (Nat.mul x b) (Nat.mul y a)) (nat_lit 119750418572083188699382362782210313964047075626127452490152834546232713516373864885159804174981805328667488605678580582415712566328718515938391053588731565493178848976226803077471044210020484946062761944729755923057521728686962343089371389128463948209823604461570243692537255902728734724063232))
    (Nat.mul (nat_lit 1329227995784915872903807060280344576) (Nat.add (Nat.add a b) (Nat.mul (nat_lit 22592111669665739975592870737637022906810831294812620197467215446901550643688755628127885379195528866594233498257913097147218989546971309245107589874025120638698880389448433593383447200261466033034643979674176502018080769) (Nat.add x y)))))
/-- packed `x b` -/
def mulcV (x b : Nat) : Nat :=
  packS (Nat.sub (Nat.add (Nat.mul x b) (nat_lit 79833612381388792466254908521473542642698050417418301660101889697488475677582576590106536116654536885778325737119053721610475044219145677292260702392487710328785899317484535384980696140013656630708507963153170615371681152457974895392914259418975965473215736307713495795024837268485823149375488)) (Nat.mul (nat_lit 1329227995784915872903807060280344576) (Nat.add b (Nat.mul (nat_lit 22592111669665739975592870737637022906810831294812620197467215446901550643688755628127885379195528866594233498257913097147218989546971309245107589874025120638698880389448433593383447200261466033034643979674176502018080769) x))))
/-- go on if the radius is small enough for the packed numbers -/
noncomputable def lim (R : Nat) (k : Nat → Bool) : Bool := fN R fun R => cond (Nat.ble R (nat_lit 664613997892457936451903530140172288)) (k R) false

/-- the sharpest radius -/
noncomputable def tightA (r R V : Nat) (k : Nat → Bool) : Bool :=
  Nat.rec (motive := fun _ => Bool) (k r)
    (fun _ _ => lim R fun _ => fN (Nat.add r (Nat.add (Nat.add (absO (Nat.mod V (nat_lit 28269553036454149273332760011886696253239742350009903329945699220681916416))) (absO (Nat.mod (Nat.div V (nat_lit 28269553036454149273332760011886696253239742350009903329945699220681916416)) (nat_lit 28269553036454149273332760011886696253239742350009903329945699220681916416))))
      (Nat.add (absO (Nat.mod (Nat.div V (nat_lit 799167628880894011233688890827050574271641124522232614619944181664095165137859998750798362384253944616915694367080095461234681773897801038410285056)) (nat_lit 28269553036454149273332760011886696253239742350009903329945699220681916416))) (absO (Nat.div V (nat_lit 22592111669665739975592870737637022906810831294812620197467215446901550642889587999246991367961839975767182923986271972624986374927027127581012424707895568851446368731861728964581056579941628221790058875830676242925879296)))))) k) V

noncomputable def aadd (c r R V c' r' R' V' : Nat) (k : K) : Bool :=
  fN (Nat.sub (Nat.add c c') (nat_lit 1329227995784915872903807060280344576)) fun z => fN (Nat.add r r') fun ρ => fN (Nat.add R R') fun μ =>
    Nat.rec (motive := fun _ => Bool) (k z ρ μ V')
      (fun _ _ => Nat.rec (motive := fun _ => Bool) (k z ρ μ V)
        (fun _ _ => fN (Nat.sub (Nat.add V V') (nat_lit 30030067315218800919884630782037027445247038374198014146711597563050526251539202817423174991700501936499153331398008085930794609064097249447852963385840787442865243867053871195754564810060504462506195678293680527951705716874876263568820844279851137519058944)) fun W => k z ρ μ W) V') V
noncomputable def asub (c r R V c' r' R' V' : Nat) (k : K) : Bool :=
  fN (Nat.sub (Nat.add c (nat_lit 1329227995784915872903807060280344576)) c') fun z => fN (Nat.add r r') fun ρ => fN (Nat.add R R') fun μ =>
    Nat.rec (motive := fun _ => Bool) (k z ρ μ V)
      (fun _ _ => Nat.rec (motive := fun _ => Bool) (fN (Nat.sub (nat_lit 60060134630437601839769261564074054890494076748396028293423195126101052503078405634846349983401003872998306662796016171861589218128194498895705926771681574885730487734107742391509129620121008925012391356587361055903411433749752527137641688559702275038117888) V') fun W => k z ρ μ W)
        (fun _ _ => fN (Nat.sub (Nat.add V (nat_lit 30030067315218800919884630782037027445247038374198014146711597563050526251539202817423174991700501936499153331398008085930794609064097249447852963385840787442865243867053871195754564810060504462506195678293680527951705716874876263568820844279851137519058944)) V') fun W => k z ρ μ W) V) V'
noncomputable def aneg (c r R V : Nat) (k : K) : Bool :=
  fN (Nat.sub (nat_lit 2658455991569831745807614120560689152) c) fun z => Nat.rec (motive := fun _ => Bool) (k z r R V)
    (fun _ _ => fN (Nat.sub (nat_lit 60060134630437601839769261564074054890494076748396028293423195126101052503078405634846349983401003872998306662796016171861589218128194498895705926771681574885730487734107742391509129620121008925012391356587361055903411433749752527137641688559702275038117888) V) fun W => k z r R W) V
/-- product with a constant `c`, `r` -/
noncomputable def amulc (c r c' r' R' V' : Nat) (k : K) : Bool :=
  fN (mulc c c') fun z =>
  fN (Nat.add (Nat.div (Nat.add (Nat.add (Nat.mul (absO c) r') (Nat.mul (absO c') r)) (Nat.mul r R')) (nat_lit 1152921504606846976)) (nat_lit 6)) fun ρ =>
  lim (Nat.add (Nat.div (Nat.add (Nat.add (Nat.mul (absO c) R') (Nat.mul (absO c') r)) (Nat.mul r R')) (nat_lit 1152921504606846976)) (nat_lit 11)) fun μ =>
  Nat.rec (motive := fun _ => Bool) (k z ρ μ (nat_lit 0)) (fun _ _ => fN (mulcV c V') fun W => k z ρ μ W) V'
noncomputable def amulv (c r R V c' r' R' V' : Nat) (k : K) : Bool :=
  fN (mulc c c') fun z =>
  fN (Nat.add (Nat.div (Nat.add (Nat.add (Nat.mul (absO c) r') (Nat.mul (absO c') r)) (Nat.mul R R')) (nat_lit 1152921504606846976)) (nat_lit 6)) fun ρ =>
  lim (Nat.add (Nat.div (Nat.add (Nat.add (Nat.mul (absO c) R') (Nat.mul (absO c') R)) (Nat.mul R R')) (nat_lit 1152921504606846976)) (nat_lit 11)) fun μ =>
  fN (mulV c V' c' V) fun W => tightA ρ μ W fun μ => k z ρ μ W
noncomputable def amul (c r R V c' r' R' V' : Nat) (k : K) : Bool :=
  Nat.rec (motive := fun _ => Bool) (amulc c r c' r' R' V' k)
    (fun _ _ => Nat.rec (motive := fun _ => Bool) (amulc c' r' c r R V k)
      (fun _ _ => amulv c r R V c' r' R' V' k) V') V
/-- square -/
noncomputable def asqr (c r R V : Nat) (k : K) : Bool :=
  fN (Nat.succ (Nat.div (Nat.mul R R) (nat_lit 2305843009213693952))) fun h =>
  fN (Nat.add (mulc c c) h) fun z => forceN (absO c) fun a =>
  fN (Nat.add (Nat.div (Nat.mul (nat_lit 2) (Nat.mul a r)) (nat_lit 1152921504606846976)) (Nat.add h (nat_lit 6))) fun ρ =>
  lim (Nat.add (Nat.div (Nat.mul (nat_lit 2) (Nat.mul a R)) (nat_lit 1152921504606846976)) (Nat.add h (nat_lit 11))) fun μ =>
  Nat.rec (motive := fun _ => Bool) (k z ρ μ (nat_lit 0)) (fun _ _ => fN (mulV c V c V) fun W => k z ρ μ W) V

/-- reciprocal; `y > 0` is the absolute value of the middle, `g` puts the sign back -/
noncomputable def invA (g : Nat → Nat) (y r R V : Nat) (k : K) : Bool :=
  fN (Nat.sub y R) fun D => fN (Nat.div (nat_lit 1329227995784915872903807060280344576) y) fun q => fN (Nat.div (Nat.mul q q) (nat_lit 1152921504606846976)) fun t =>
  fN (Nat.succ (Nat.div (Nat.mul t (Nat.mul R R)) (Nat.mul (nat_lit 2305843009213693952) D))) fun h =>
  fN (Nat.succ (Nat.div (Nat.add (Nat.mul (Nat.sub (nat_lit 1329227995784915872903807060280344576) (Nat.mul q y)) (nat_lit 1152921504606846976))
    (Nat.mul (Nat.sub (Nat.mul q (nat_lit 1152921504606846976)) (Nat.mul t y)) R)) (Nat.mul (nat_lit 1152921504606846976) D))) fun v =>
  fN (g (Nat.add q h)) fun z =>
  fN (Nat.add (Nat.div (Nat.mul t r) (nat_lit 1152921504606846976)) (Nat.add (Nat.add v h) (nat_lit 6))) fun ρ =>
  lim (Nat.add (Nat.div (Nat.mul t R) (nat_lit 1152921504606846976)) (Nat.add (Nat.add v h) (nat_lit 11))) fun μ =>
  Nat.rec (motive := fun _ => Bool) (k z ρ μ (nat_lit 0))
    (fun _ _ => fN (packS (Nat.sub (Nat.mul (nat_lit 22592111669665739975592870737637022906810831294812620197467215446901550643688755628127885379195528866594233498257913097147218989546971309245107589874025120638698880389448433593383447200261466033034643979674176502018080769) (Nat.mul (nat_lit 1329227995784915872903807060280344576) (Nat.add t (nat_lit 1329227995784915872903807060280344576)))) (Nat.mul t V))) fun W => k z ρ μ W) V
noncomputable def ainv (c r R V : Nat) (k : K) : Bool :=
  cond (Nat.ble (nat_lit 1329227995784915872903807060280344576) c) (invA (fun z => Nat.add (nat_lit 1329227995784915872903807060280344576) z) (Nat.sub c (nat_lit 1329227995784915872903807060280344576)) r R V k)
    (invA (fun z => Nat.sub (nat_lit 1329227995784915872903807060280344576) z) (Nat.sub (nat_lit 1329227995784915872903807060280344576) c) r R V k)

/-- `y x^n` -/
noncomputable def aiter (c r R V n : Nat) : Nat → Nat → Nat → Nat → K → Bool :=
  Nat.rec (motive := fun _ => Nat → Nat → Nat → Nat → K → Bool) (fun c' r' R' V' k => k c' r' R' V')
    (fun _ ih c' r' R' V' k => amul c' r' R' V' c r R V fun c' r' R' V' => ih c' r' R' V' k) n
/-- powers -/
noncomputable def apow (c r R V n : Nat) (k : K) : Bool :=
  Nat.rec (motive := fun _ => Bool) (Nat.rec (motive := fun _ => Bool) (k (nat_lit 1329227995784915874056728564887191552) (nat_lit 1) (nat_lit 1) (nat_lit 0)) (fun _ _ => k c r R V) n)
    (fun m _ => asqr c r R V fun c' r' R' V' => aiter c' r' R' V' m c' r' R' V' fun c' r' R' V' =>
      aiter c r R V (Nat.mod n (nat_lit 2)) c' r' R' V' k) (Nat.div n (nat_lit 2))

noncomputable def getA (env : List AF) : Nat → K → Bool :=
  List.rec (motive := fun _ => Nat → K → Bool) (fun _ _ => false)
    (fun a _ ih i k => Nat.rec (motive := fun _ => Bool) (AF.rec (motive := fun _ => Bool) (fun c r R V => k c r R V) a)
      (fun j _ => ih j k) i) env

/-- affine form of an expression -/
noncomputable def evA (env : List AF) (e : E) : K → Bool :=
  E.rec (motive := fun _ => K → Bool) (fun i k => getA env i k)
    (fun k => k (nat_lit 1329227995784915872903807060280344576) (nat_lit 1) (nat_lit 1) (nat_lit 0))
    (fun k => k (nat_lit 1329227995784915874056728564887191552) (nat_lit 1) (nat_lit 1) (nat_lit 0))
    (fun n k => fN (Nat.add (nat_lit 1329227995784915872903807060280344576) (Nat.mul n (nat_lit 1152921504606846976))) fun c => k c (nat_lit 1) (nat_lit 1) (nat_lit 0))
    (fun n d k => fN (Nat.add (nat_lit 1329227995784915872903807060280344576) (Nat.div (Nat.mul n (nat_lit 1152921504606846976)) (Nat.pow (nat_lit 10) d))) fun c => k c (nat_lit 1) (nat_lit 1) (nat_lit 0))
    (fun _ a k => a fun c r R V => aneg c r R V k)
    (fun _ _ a b k => a fun c r R V => b fun c' r' R' V' => aadd c r R V c' r' R' V' k)
    (fun _ _ a b k => a fun c r R V => b fun c' r' R' V' => asub c r R V c' r' R' V' k)
    (fun _ _ a b k => a fun c r R V => b fun c' r' R' V' => amul c r R V c' r' R' V' k)
    (fun _ _ a b k => a fun c r R V => b fun c' r' R' V' => ainv c' r' R' V' fun c' r' R' V' => amul c r R V c' r' R' V' k)
    (fun _ n a k => a fun c r R V => apow c r R V n k) e

noncomputable def snocA (l : List AF) (a : AF) : List AF := List.rec [a] (fun b _ ih => b :: ih) l

/-- evaluate the defined quantities, then some goal must be positive -/
noncomputable def leafA (goals : List E) (defs : List E) : List AF → Bool :=
  List.rec (motive := fun _ => List AF → Bool)
    (fun env => List.rec (motive := fun _ => Bool) false (fun g _ ih =>
      cond (evA env g fun c r R V => tightA r R V fun R => Nat.ble (Nat.succ (Nat.add (nat_lit 1329227995784915872903807060280344576) R)) c) true ih) goals)
    (fun d _ ih env => evA env d fun c r R V => tightA r R V fun R => ih (snocA env ⟨c, r, R, V⟩)) defs

/-- endpoint of an interval with offset -/
noncomputable def offZ (a : Z) : Nat := Z.rec (fun n => Nat.add (nat_lit 1329227995784915872903807060280344576) n) (fun n => Nat.sub (nat_lit 1329227995784915872903807060280344576) n) a

/-- the box variables; `us` are the places of the symbols, a variable without a place gets no symbol -/
noncomputable def initA (box : List Iv) : List Nat → (List AF → Bool) → Bool :=
  List.rec (motive := fun _ => List Nat → (List AF → Bool) → Bool) (fun _ k => k [])
    (fun i _ ih us k => fN (offZ i.lo) fun lo => fN (offZ i.hi) fun hi =>
      fN (Nat.div (Nat.add lo hi) (nat_lit 2)) fun c => fN (Nat.succ (Nat.sub hi c)) fun h =>
      List.rec (motive := fun _ => Bool) (ih [] fun l => k (⟨c, h, h, (nat_lit 0)⟩ :: l))
        (fun u us _ => fN (Nat.add (nat_lit 30030067315218800919884630782037027445247038374198014146711597563050526251539202817423174991700501936499153331398008085930794609064097249447852963385840787442865243867053871195754564810060504462506195678293680527951705716874876263568820844279851137519058944) (Nat.mul h u)) fun V => ih us fun l => k (⟨c, (nat_lit 1), Nat.succ h, V⟩ :: l)) us) box

/-- walk a bisection tree -/
noncomputable def checkA (defs goals : List E) (t : T) : List Iv → Bool :=
  T.rec (motive := fun _ => List Iv → Bool) (fun box => initA box [(nat_lit 1), (nat_lit 28269553036454149273332760011886696253239742350009903329945699220681916416), (nat_lit 799167628880894011233688890827050574271641124522232614619944181664095165137859998750798362384253944616915694367080095461234681773897801038410285056), (nat_lit 22592111669665739975592870737637022906810831294812620197467215446901550642889587999246991367961839975767182923986271972624986374927027127581012424707895568851446368731861728964581056579941628221790058875830676242925879296)] (leafA goals defs))
    (fun d _ _ ihl ihr box => cond (forceL (setL box d) ihl) (forceL (setR box d) ihr) false) t
lemma fN_elim {n : ℕ} {k : ℕ → Bool} (h : fN n k = true) : n ≠ 0 ∧ k n = true := by
  unfold fN at h
  cases hn : Nat.beq n 0 with
  | true =>
    have h' : Bool.rec (motive := fun _ => Bool) (k n) false (Nat.beq n 0) = true := h
    rw [hn] at h'
    exact Bool.noConfusion h'
  | false =>
    have h' : Bool.rec (motive := fun _ => Bool) (k n) false (Nat.beq n 0) = true := h
    rw [hn] at h'
    refine ⟨?_, h'⟩
    intro h0
    rw [h0] at hn
    exact absurd hn (by decide)

lemma lim_elim {n : ℕ} {k : ℕ → Bool} (h : lim n k = true) : n ≤ 2 ^ 119 ∧ k n = true := by
  obtain ⟨_, h⟩ := fN_elim h
  cases hb : Nat.ble n 664613997892457936451903530140172288 with
  | true =>
    have h' : cond (Nat.ble n 664613997892457936451903530140172288) (k n) false = true := h
    rw [hb] at h'
    exact ⟨(Nat.le_of_ble_eq_true hb).trans (by norm_num), h'⟩
  | false =>
    have h' : cond (Nat.ble n 664613997892457936451903530140172288) (k n) false = true := h
    rw [hb] at h'
    exact Bool.noConfusion h'

/-- offset of the integers -/
abbrev OO : ℤ := 2 ^ 120
/-- scale -/
abbrev QQ : ℤ := 2 ^ 60
/-- size of a packed digit -/
abbrev BB : ℤ := 2 ^ 244

lemma absO_eq (z : ℕ) : (absO z : ℤ) = |(z : ℤ) - OO| := by
  have h : absO z = (z - 2 ^ 120) + (2 ^ 120 - z) := rfl
  rw [h]
  rcases le_total z (2 ^ 120) with h | h
  · have h1 : (z : ℤ) - OO ≤ 0 := by simp only [OO]; omega
    rw [abs_of_nonpos h1]; simp only [OO]; omega
  · have h1 : 0 ≤ (z : ℤ) - OO := by simp only [OO]; omega
    rw [abs_of_nonneg h1]; simp only [OO]; omega

/-- subtraction of natural numbers with a result that is not zero -/
lemma sub_int {a b : ℕ} (h : a - b ≠ 0) : ((a - b : ℕ) : ℤ) = (a : ℤ) - b := by
  have : b ≤ a := by omega
  push_cast [this]; ring

lemma rec_ne {V : ℕ} (hv : V ≠ 0) {a b : Bool} (h : Nat.rec (motive := fun _ => Bool) a (fun _ _ => b) V = true) :
    b = true := by
  obtain ⟨n, rfl⟩ := Nat.exists_eq_succ_of_ne_zero hv
  exact h

lemma sub_real {a b : ℕ} (h : a - b ≠ 0) : ((a - b : ℕ) : ℝ) = (a : ℝ) - b := by
  have : b ≤ a := by omega
  push_cast [this]; ring

lemma mulc_eq {x y : ℕ} (h : mulc x y ≠ 0) :
    (mulc x y : ℤ) - OO = ((x : ℤ) - OO) * ((y : ℤ) - OO) / QQ := by
  have hd : mulc x y = (x * y + 2 ^ 241 - 2 ^ 120 * (x + y)) / 2 ^ 60 - (2 ^ 180 - 2 ^ 120) := rfl
  rw [hd] at h ⊢
  have h1 : (x * y + 2 ^ 241 - 2 ^ 120 * (x + y)) ≠ 0 := by
    intro h0; rw [h0] at h; simp at h
  have e1 := sub_int h1
  have e2 : ((x * y + 2 ^ 241 - 2 ^ 120 * (x + y) : ℕ) : ℤ) = ((x : ℤ) - OO) * ((y : ℤ) - OO) + 2 ^ 180 * QQ := by
    rw [e1]; simp only [OO, QQ]; push_cast; ring
  have e3 : (((x * y + 2 ^ 241 - 2 ^ 120 * (x + y)) / 2 ^ 60 : ℕ) : ℤ) =
      ((x : ℤ) - OO) * ((y : ℤ) - OO) / QQ + 2 ^ 180 := by
    rw [Int.natCast_div, e2]
    exact Int.add_mul_ediv_right _ _ (by norm_num)
  rw [sub_int h, e3]
  simp only [OO]
  norm_num
  ring

/-! ### packed numbers -/

lemma land_pack (k a b x y : ℕ) (ha : a < 2 ^ k) (hb : b < 2 ^ k) :
    Nat.land (a + 2 ^ k * x) (b + 2 ^ k * y) = Nat.land a b + 2 ^ k * Nat.land x y := by
  have hab : a &&& b < 2 ^ k := lt_of_le_of_lt Nat.and_le_left ha
  show (a + 2 ^ k * x) &&& (b + 2 ^ k * y) = (a &&& b) + 2 ^ k * (x &&& y)
  apply Nat.eq_of_testBit_eq
  intro i
  rw [Nat.testBit_and, add_comm a, add_comm b, add_comm (a &&& b), Nat.testBit_two_pow_mul_add _ ha,
    Nat.testBit_two_pow_mul_add _ hb, Nat.testBit_two_pow_mul_add _ hab]
  split_ifs
  · rw [Nat.testBit_and]
  · rw [Nat.testBit_and]

lemma land_low (a : ℕ) (x : ℕ) (ha : a < 2 ^ 184) : Nat.land (a + 2 ^ 184 * x) (2 ^ 184 - 1) = a := by
  show (a + 2 ^ 184 * x) &&& (2 ^ 184 - 1) = a
  rw [Nat.and_two_pow_sub_one_eq_mod, Nat.add_mul_mod_self_left, Nat.mod_eq_of_lt ha]

lemma mask_step (u w v m : ℕ) (hu : u < 2 ^ 244) (hw : w < 2 ^ 60) :
    Nat.land (u / 2 ^ 60 + 2 ^ 184 * (w + 2 ^ 60 * v)) ((2 ^ 184 - 1) + 2 ^ 244 * m) =
      u / 2 ^ 60 + 2 ^ 244 * Nat.land v m := by
  have h1 : u / 2 ^ 60 < 2 ^ 184 := by
    rw [Nat.div_lt_iff_lt_mul (by norm_num)]
    calc u < 2 ^ 244 := hu
      _ = 2 ^ 184 * 2 ^ 60 := by norm_num
  rw [show u / 2 ^ 60 + 2 ^ 184 * (w + 2 ^ 60 * v) = (u / 2 ^ 60 + 2 ^ 184 * w) + 2 ^ 244 * v by ring]
  rw [land_pack 244 _ _ _ _ ?_ (by norm_num), land_low _ _ h1]
  calc u / 2 ^ 60 + 2 ^ 184 * w < 2 ^ 184 + 2 ^ 184 * w := by omega
    _ = 2 ^ 184 * (w + 1) := by ring
    _ ≤ 2 ^ 184 * 2 ^ 60 := Nat.mul_le_mul_left _ hw
    _ = 2 ^ 244 := by norm_num

lemma mask4 (a b c d : ℕ) (ha : a < 2 ^ 244) (hb : b < 2 ^ 244) (hc : c < 2 ^ 244) (hd : d < 2 ^ 244) :
    Nat.land (Nat.shiftRight (a + 2 ^ 244 * (b + 2 ^ 244 * (c + 2 ^ 244 * d))) 60)
      ((2 ^ 184 - 1) + 2 ^ 244 * ((2 ^ 184 - 1) + 2 ^ 244 * ((2 ^ 184 - 1) + 2 ^ 244 * ((2 ^ 184 - 1) + 2 ^ 244 * 0)))) =
      a / 2 ^ 60 + 2 ^ 244 * (b / 2 ^ 60 + 2 ^ 244 * (c / 2 ^ 60 + 2 ^ 244 * (d / 2 ^ 60))) := by
  have s : ∀ u t : ℕ, Nat.shiftRight (u + 2 ^ 244 * t) 60 = u / 2 ^ 60 + 2 ^ 184 * t := by
    intro u t
    show (u + 2 ^ 244 * t) >>> 60 = _
    rw [Nat.shiftRight_eq_div_pow, show u + 2 ^ 244 * t = u + 2 ^ 60 * (2 ^ 184 * t) by ring,
      Nat.add_mul_div_left _ _ (by norm_num)]
  have e : ∀ u t : ℕ, u + 2 ^ 244 * t = u % 2 ^ 60 + 2 ^ 60 * (u / 2 ^ 60 + 2 ^ 184 * t) := by
    intro u t
    have := Nat.mod_add_div u (2 ^ 60)
    calc u + 2 ^ 244 * t = (u % 2 ^ 60 + 2 ^ 60 * (u / 2 ^ 60)) + 2 ^ 244 * t := by rw [this]
      _ = _ := by ring
  have m : ∀ u : ℕ, u % 2 ^ 60 < 2 ^ 60 := fun u => Nat.mod_lt _ (by norm_num)
  rw [show d = d + 2 ^ 244 * (0 + 2 ^ 60 * 0) by rfl, s, e b, mask_step _ _ _ _ ha (m b), e c, mask_step _ _ _ _ hb (m c), e d,
    mask_step _ _ _ _ hc (m d), mask_step _ _ _ _ hd (by norm_num)]
  rw [← e d (0 + 2 ^ 60 * 0)]
  rfl

/-- four packed integers -/
def pack (a b c d : ℤ) : ℤ := a + BB * (b + BB * (c + BB * d))

lemma packS_eq {w : ℕ} {a b c d : ℤ} (hw : (w : ℤ) = pack (a + 2 ^ 240) (b + 2 ^ 240) (c + 2 ^ 240) (d + 2 ^ 240))
    (ha : |a| < 2 ^ 240) (hb : |b| < 2 ^ 240) (hc : |c| < 2 ^ 240) (hd : |d| < 2 ^ 240) (h0 : packS w ≠ 0) :
    (packS w : ℤ) = pack (a / QQ + OO) (b / QQ + OO) (c / QQ + OO) (d / QQ + OO) := by
  rw [abs_lt] at ha hb hc hd
  have hd' : packS w = Nat.land (Nat.shiftRight w 60)
      ((2 ^ 184 - 1) + 2 ^ 244 * ((2 ^ 184 - 1) + 2 ^ 244 * ((2 ^ 184 - 1) + 2 ^ 244 * ((2 ^ 184 - 1) + 2 ^ 244 * 0)))) -
      ((2 ^ 180 - 2 ^ 120) + 2 ^ 244 * ((2 ^ 180 - 2 ^ 120) + 2 ^ 244 * ((2 ^ 180 - 2 ^ 120) + 2 ^ 244 * (2 ^ 180 - 2 ^ 120)))) :=
    rfl
  obtain ⟨a', ea⟩ := Int.eq_ofNat_of_zero_le (show 0 ≤ a + 2 ^ 240 by linarith)
  obtain ⟨b', eb⟩ := Int.eq_ofNat_of_zero_le (show 0 ≤ b + 2 ^ 240 by linarith)
  obtain ⟨c', ec⟩ := Int.eq_ofNat_of_zero_le (show 0 ≤ c + 2 ^ 240 by linarith)
  obtain ⟨d', ed⟩ := Int.eq_ofNat_of_zero_le (show 0 ≤ d + 2 ^ 240 by linarith)
  have hw' : w = a' + 2 ^ 244 * (b' + 2 ^ 244 * (c' + 2 ^ 244 * d')) := by
    rw [ea, eb, ec, ed] at hw
    unfold pack at hw
    simp only [BB] at hw
    exact_mod_cast hw
  have la : a' < 2 ^ 244 := by omega
  have lb : b' < 2 ^ 244 := by omega
  have lc : c' < 2 ^ 244 := by omega
  have ld : d' < 2 ^ 244 := by omega
  have q : ∀ (t : ℤ) (t' : ℕ), t + 2 ^ 240 = t' → ((t' / 2 ^ 60 : ℕ) : ℤ) = t / QQ + 2 ^ 180 := by
    intro t t' h
    rw [Int.natCast_div, ← h, show (2 : ℤ) ^ 240 = 2 ^ 180 * QQ by norm_num]
    exact Int.add_mul_ediv_right _ _ (by norm_num)
  rw [hw', mask4 _ _ _ _ la lb lc ld, ← hw'] at hd'
  rw [hd'] at h0 ⊢
  rw [sub_int h0]
  have qa := q a a' ea
  have qb := q b b' eb
  have qc := q c c' ec
  have qd := q d d' ed
  unfold pack
  simp only [BB, OO]
  generalize a / QQ = xa at *
  generalize b / QQ = xb at *
  generalize c / QQ = xc at *
  generalize d / QQ = xd at *
  rw [Nat.cast_add, Nat.cast_mul, Nat.cast_add, Nat.cast_mul, Nat.cast_add, Nat.cast_mul, qa, qb, qc, qd]
  norm_num
  ring

/-- a linear form in the displacements -/
def lin (ε : ℕ → ℝ) (a b c d : ℤ) : ℝ := a * ε 0 + b * ε 1 + c * ε 2 + d * ε 3

/-- the packed coefficients: zero for a constant -/
def Pk (V : ℕ) (a b c d : ℤ) : Prop :=
  (V = 0 ∧ a = 0 ∧ b = 0 ∧ c = 0 ∧ d = 0) ∨ (V ≠ 0 ∧ (V : ℤ) = pack (a + OO) (b + OO) (c + OO) (d + OO))

/-- `X` lies in the affine form, for the displacements `ε` -/
def AMem (ε : ℕ → ℝ) (X : ℝ) (c r R V : ℕ) : Prop :=
  ∃ a₀ a₁ a₂ a₃ : ℤ, Pk V a₀ a₁ a₂ a₃ ∧ |X * 2 ^ 60 - (c - 2 ^ 120) - lin ε a₀ a₁ a₂ a₃| ≤ (r : ℝ) ∧
    (r : ℤ) + (|a₀| + |a₁| + |a₂| + |a₃|) ≤ R

/-- displacements in `[-1, 1]` -/
def Unit4 (ε : ℕ → ℝ) : Prop := |ε 0| ≤ 1 ∧ |ε 1| ≤ 1 ∧ |ε 2| ≤ 1 ∧ |ε 3| ≤ 1

lemma lin_le {ε : ℕ → ℝ} (h : Unit4 ε) (a b c d : ℤ) : |lin ε a b c d| ≤ ((|a| + |b| + |c| + |d| : ℤ) : ℝ) := by
  obtain ⟨h0, h1, h2, h3⟩ := h
  unfold lin
  push_cast
  have k : ∀ (z : ℤ) (e : ℝ), |e| ≤ 1 → |(z : ℝ) * e| ≤ |(z : ℝ)| := by
    intro z e he
    rw [abs_mul]
    exact mul_le_of_le_one_right (abs_nonneg _) he
  calc |a * ε 0 + b * ε 1 + c * ε 2 + d * ε 3|
      ≤ |(a : ℝ) * ε 0| + |(b : ℝ) * ε 1| + |(c : ℝ) * ε 2| + |(d : ℝ) * ε 3| := by
        refine (abs_add_le _ _).trans (add_le_add ((abs_add_le _ _).trans (add_le_add (abs_add_le _ _) le_rfl)) le_rfl)
    _ ≤ _ := add_le_add (add_le_add (add_le_add (k a _ h0) (k b _ h1)) (k c _ h2)) (k d _ h3)

/-- the displacement of `X` from the middle -/
lemma AMem.radius {ε : ℕ → ℝ} (hε : Unit4 ε) {X : ℝ} {c r R V : ℕ} (h : AMem ε X c r R V) :
    |X * 2 ^ 60 - (c - 2 ^ 120)| ≤ (R : ℝ) := by
  obtain ⟨a, b, c', d, _, he, hR⟩ := h
  have h1 := lin_le hε a b c' d
  have h2 : ((r : ℤ) + (|a| + |b| + |c'| + |d|) : ℝ) ≤ R := by exact_mod_cast hR
  have h3 : X * 2 ^ 60 - (c - 2 ^ 120) = (X * 2 ^ 60 - (c - 2 ^ 120) - lin ε a b c' d) + lin ε a b c' d := by ring
  rw [h3]
  refine (abs_add_le _ _).trans ?_
  push_cast at h1 h2
  linarith

lemma pack_congr {a b c d a' b' c' d' : ℤ} (ha : a = a') (hb : b = b') (hc : c = c') (hd : d = d') :
    pack a b c d = pack a' b' c' d' := by rw [ha, hb, hc, hd]
lemma pack_add (a b c d a' b' c' d' : ℤ) :
    pack a b c d + pack a' b' c' d' = pack (a + a') (b + b') (c + c') (d + d') := by unfold pack; ring
lemma pack_sub (a b c d a' b' c' d' : ℤ) :
    pack a b c d - pack a' b' c' d' = pack (a - a') (b - b') (c - c') (d - d') := by unfold pack; ring
lemma pack_mul (x a b c d : ℤ) : x * pack a b c d = pack (x * a) (x * b) (x * c) (x * d) := by unfold pack; ring

/-- the packed unit -/
abbrev ONE4 : ℕ := 1 + 2 ^ 244 * (1 + 2 ^ 244 * (1 + 2 ^ 244))
lemma one4 : ((ONE4 : ℕ) : ℤ) = pack 1 1 1 1 := by unfold pack; norm_num

lemma abs_add4 (a b c d a' b' c' d' : ℤ) :
    |a + a'| + |b + b'| + |c + c'| + |d + d'| ≤ (|a| + |b| + |c| + |d|) + (|a'| + |b'| + |c'| + |d'|) := by
  have := abs_add_le a a'
  have := abs_add_le b b'
  have := abs_add_le c c'
  have := abs_add_le d d'
  linarith

/-- what a check does next with an enclosure of `X` -/
def Next (ε : ℕ → ℝ) (X : ℝ) (k : K) : Prop := ∃ c r R V, k c r R V = true ∧ AMem ε X c r R V

lemma aadd_sound {ε : ℕ → ℝ} {X Y : ℝ} {c r R V c' r' R' V' : ℕ} {k : K} (h : aadd c r R V c' r' R' V' k = true)
    (hx : AMem ε X c r R V) (hy : AMem ε Y c' r' R' V') : Next ε (X + Y) k := by
  obtain ⟨a0, a1, a2, a3, hp, he, hR⟩ := hx
  obtain ⟨b0, b1, b2, b3, hp', he', hR'⟩ := hy
  obtain ⟨hz, h⟩ := fN_elim h
  obtain ⟨-, h⟩ := fN_elim h
  obtain ⟨-, h⟩ := fN_elim h
  have ez := sub_real (a := c + c') (b := 1329227995784915872903807060280344576) hz
  have err : |(X + Y) * 2 ^ 60 - (((c + c' - 1329227995784915872903807060280344576 : ℕ) : ℝ) - 2 ^ 120) - lin ε (a0 + b0) (a1 + b1) (a2 + b2) (a3 + b3)| ≤
      ((r + r' : ℕ) : ℝ) := by
    have e1 : ((c + c' - 1329227995784915872903807060280344576 : ℕ) : ℝ) = c + c' - 2 ^ 120 := by
      rw [ez]; push_cast; norm_num
    rw [e1, show (X + Y) * 2 ^ 60 - ((c : ℝ) + c' - 2 ^ 120 - 2 ^ 120) - lin ε (a0 + b0) (a1 + b1) (a2 + b2) (a3 + b3) =
      (X * 2 ^ 60 - (c - 2 ^ 120) - lin ε a0 a1 a2 a3) + (Y * 2 ^ 60 - (c' - 2 ^ 120) - lin ε b0 b1 b2 b3) by
      unfold lin; push_cast; ring]
    refine (abs_add_le _ _).trans ?_
    push_cast
    linarith
  have rad : ((r + r' : ℕ) : ℤ) + (|a0 + b0| + |a1 + b1| + |a2 + b2| + |a3 + b3|) ≤ ((R + R' : ℕ) : ℤ) := by
    have := abs_add4 a0 a1 a2 a3 b0 b1 b2 b3
    push_cast
    linarith
  rcases hp with ⟨hv, z0, z1, z2, z3⟩ | ⟨hv, hp⟩
  · subst hv
    exact ⟨_, _, _, _, h, _, _, _, _, by rw [z0, z1, z2, z3, zero_add, zero_add, zero_add, zero_add]; exact hp', err, rad⟩
  · rcases hp' with ⟨hv', z0, z1, z2, z3⟩ | ⟨hv', hp'⟩
    · subst hv'
      have h := rec_ne hv h
      refine ⟨_, _, _, _, h, _, _, _, _, ?_, err, rad⟩
      rw [z0, z1, z2, z3, add_zero, add_zero, add_zero, add_zero]
      exact Or.inr ⟨hv, hp⟩
    · have h := rec_ne hv h
      have h := rec_ne hv' h
      obtain ⟨hw, h⟩ := fN_elim h
      refine ⟨_, _, _, _, h, _, _, _, _, Or.inr ⟨hw, ?_⟩, err, rad⟩
      have e := sub_int (a := V + V') (b := 30030067315218800919884630782037027445247038374198014146711597563050526251539202817423174991700501936499153331398008085930794609064097249447852963385840787442865243867053871195754564810060504462506195678293680527951705716874876263568820844279851137519058944) hw
      refine e.trans ?_
      rw [show (30030067315218800919884630782037027445247038374198014146711597563050526251539202817423174991700501936499153331398008085930794609064097249447852963385840787442865243867053871195754564810060504462506195678293680527951705716874876263568820844279851137519058944 : ℕ) = 2 ^ 120 * ONE4 by norm_num, Nat.cast_add, hp, hp', Nat.cast_mul, one4, pack_add, pack_mul, pack_sub]
      refine pack_congr ?_ ?_ ?_ ?_ <;> simp only [OO] <;> push_cast <;> ring

lemma asub_sound {ε : ℕ → ℝ} {X Y : ℝ} {c r R V c' r' R' V' : ℕ} {k : K} (h : asub c r R V c' r' R' V' k = true)
    (hx : AMem ε X c r R V) (hy : AMem ε Y c' r' R' V') : Next ε (X - Y) k := by
  obtain ⟨a0, a1, a2, a3, hp, he, hR⟩ := hx
  obtain ⟨b0, b1, b2, b3, hp', he', hR'⟩ := hy
  obtain ⟨hz, h⟩ := fN_elim h
  obtain ⟨-, h⟩ := fN_elim h
  obtain ⟨-, h⟩ := fN_elim h
  have ez := sub_real (a := c + 1329227995784915872903807060280344576) (b := c') hz
  have err : |(X - Y) * 2 ^ 60 - (((c + 1329227995784915872903807060280344576 - c' : ℕ) : ℝ) - 2 ^ 120) - lin ε (a0 - b0) (a1 - b1) (a2 - b2) (a3 - b3)| ≤
      ((r + r' : ℕ) : ℝ) := by
    have e1 : ((c + 1329227995784915872903807060280344576 - c' : ℕ) : ℝ) = c + 2 ^ 120 - c' := by
      rw [ez]; push_cast; norm_num
    rw [e1, show (X - Y) * 2 ^ 60 - ((c : ℝ) + 2 ^ 120 - c' - 2 ^ 120) - lin ε (a0 - b0) (a1 - b1) (a2 - b2) (a3 - b3) =
      (X * 2 ^ 60 - (c - 2 ^ 120) - lin ε a0 a1 a2 a3) - (Y * 2 ^ 60 - (c' - 2 ^ 120) - lin ε b0 b1 b2 b3) by
      unfold lin; push_cast; ring]
    refine (abs_sub _ _).trans ?_
    push_cast
    linarith
  have rad : ((r + r' : ℕ) : ℤ) + (|a0 - b0| + |a1 - b1| + |a2 - b2| + |a3 - b3|) ≤ ((R + R' : ℕ) : ℤ) := by
    have := abs_add4 a0 a1 a2 a3 (-b0) (-b1) (-b2) (-b3)
    simp only [abs_neg, ← sub_eq_add_neg] at this
    push_cast
    linarith
  rcases hp' with ⟨hv', z0, z1, z2, z3⟩ | ⟨hv', hp'⟩
  · subst hv'
    refine ⟨_, _, _, _, h, _, _, _, _, ?_, err, rad⟩
    rw [z0, z1, z2, z3, sub_zero, sub_zero, sub_zero, sub_zero]
    exact hp
  · have h := rec_ne hv' h
    rcases hp with ⟨hv, z0, z1, z2, z3⟩ | ⟨hv, hp⟩
    · subst hv
      obtain ⟨hw, h⟩ := fN_elim h
      refine ⟨_, _, _, _, h, _, _, _, _, Or.inr ⟨hw, ?_⟩, err, rad⟩
      have e := sub_int (a := 2 ^ 121 * ONE4) (b := V') hw
      refine e.trans ?_
      rw [hp', Nat.cast_mul, one4, pack_mul, pack_sub, z0, z1, z2, z3]
      refine pack_congr ?_ ?_ ?_ ?_ <;> simp only [OO] <;> push_cast <;> ring
    · have h := rec_ne hv h
      obtain ⟨hw, h⟩ := fN_elim h
      refine ⟨_, _, _, _, h, _, _, _, _, Or.inr ⟨hw, ?_⟩, err, rad⟩
      have e := sub_int (a := V + 2 ^ 120 * ONE4) (b := V') hw
      refine e.trans ?_
      rw [Nat.cast_add, hp, hp', Nat.cast_mul, one4, pack_mul, pack_add, pack_sub]
      refine pack_congr ?_ ?_ ?_ ?_ <;> simp only [OO] <;> push_cast <;> ring

lemma aneg_sound {ε : ℕ → ℝ} {X : ℝ} {c r R V : ℕ} {k : K} (h : aneg c r R V k = true)
    (hx : AMem ε X c r R V) : Next ε (-X) k := by
  obtain ⟨a0, a1, a2, a3, hp, he, hR⟩ := hx
  obtain ⟨hz, h⟩ := fN_elim h
  have ez := sub_real (a := 2658455991569831745807614120560689152) (b := c) hz
  have err : |(-X) * 2 ^ 60 - (((2658455991569831745807614120560689152 - c : ℕ) : ℝ) - 2 ^ 120) - lin ε (-a0) (-a1) (-a2) (-a3)| ≤ (r : ℝ) := by
    have e1 : ((2658455991569831745807614120560689152 - c : ℕ) : ℝ) = 2 ^ 121 - c := by
      rw [ez]; push_cast; norm_num
    rw [e1, show (-X) * 2 ^ 60 - ((2 : ℝ) ^ 121 - c - 2 ^ 120) - lin ε (-a0) (-a1) (-a2) (-a3) =
      -(X * 2 ^ 60 - (c - 2 ^ 120) - lin ε a0 a1 a2 a3) by unfold lin; push_cast; ring, abs_neg]
    exact he
  have rad : (r : ℤ) + (|-a0| + |-a1| + |-a2| + |-a3|) ≤ (R : ℤ) := by
    simp only [abs_neg]; exact hR
  rcases hp with ⟨hv, z0, z1, z2, z3⟩ | ⟨hv, hp⟩
  · subst hv
    exact ⟨_, _, _, _, h, _, _, _, _, Or.inl ⟨rfl, by rw [z0, neg_zero], by rw [z1, neg_zero], by rw [z2, neg_zero],
      by rw [z3, neg_zero]⟩, err, rad⟩
  · have h := rec_ne hv h
    obtain ⟨hw, h⟩ := fN_elim h
    refine ⟨_, _, _, _, h, _, _, _, _, Or.inr ⟨hw, ?_⟩, err, rad⟩
    have e := sub_int (a := 2 ^ 121 * ONE4) (b := V) hw
    refine e.trans ?_
    rw [hp, Nat.cast_mul, one4, pack_mul, pack_sub]
    refine pack_congr ?_ ?_ ?_ ?_ <;> simp only [OO] <;> push_cast <;> ring

lemma floor_err (t : ℤ) : |(t : ℝ) / 2 ^ 60 - ((t / QQ : ℤ) : ℝ)| ≤ 1 := by
  have h := Int.emod_add_mul_ediv t QQ
  have h1 := Int.emod_nonneg t (show QQ ≠ 0 by norm_num)
  have h2 := Int.emod_lt_of_pos t (show (0 : ℤ) < QQ by norm_num)
  have e : (t : ℝ) = ((t % QQ : ℤ) : ℝ) + 2 ^ 60 * ((t / QQ : ℤ) : ℝ) := by
    have : ((t % QQ + QQ * (t / QQ) : ℤ) : ℝ) = t := by rw [h]
    rw [← this]; push_cast [QQ]; norm_num
  have k1 : (0 : ℝ) ≤ ((t % QQ : ℤ) : ℝ) := by exact_mod_cast h1
  have k2 : ((t % QQ : ℤ) : ℝ) ≤ 2 ^ 60 := by
    have : ((t % QQ : ℤ) : ℝ) ≤ ((QQ : ℤ) : ℝ) := by exact_mod_cast h2.le
    rw [show ((QQ : ℤ) : ℝ) = 2 ^ 60 by norm_num] at this; exact this
  have e2 : (t : ℝ) / 2 ^ 60 - ((t / QQ : ℤ) : ℝ) = ((t % QQ : ℤ) : ℝ) / 2 ^ 60 := by
    rw [eq_div_iff (by norm_num), sub_mul, div_mul_cancel₀ _ (by norm_num)]
    linarith
  rw [e2, abs_of_nonneg (by positivity), div_le_one (by norm_num)]
  exact k2

lemma floor_abs (t : ℤ) : |t / QQ| ≤ |t| / QQ + 1 := by
  simp only [QQ]
  rcases le_total 0 t with h | h
  · rw [abs_of_nonneg h, abs_of_nonneg (by omega)]; omega
  · rw [abs_of_nonpos h, abs_of_nonpos (by omega)]; omega

lemma round_rad {t0 t1 t2 t3 : ℤ} {α β : ℕ} (h : |t0| + |t1| + |t2| + |t3| + (α : ℤ) ≤ β) :
    ((α / 2 ^ 60 + 6 : ℕ) : ℤ) + (|t0 / QQ| + |t1 / QQ| + |t2 / QQ| + |t3 / QQ|) ≤ ((β / 2 ^ 60 + 11 : ℕ) : ℤ) := by
  have k0 := floor_abs t0
  have k1 := floor_abs t1
  have k2 := floor_abs t2
  have k3 := floor_abs t3
  simp only [QQ] at *
  have n0 := abs_nonneg t0
  have n1 := abs_nonneg t1
  have n2 := abs_nonneg t2
  have n3 := abs_nonneg t3
  generalize |t0| = s0 at *
  generalize |t1| = s1 at *
  generalize |t2| = s2 at *
  generalize |t3| = s3 at *
  omega

lemma round_err {ε : ℕ → ℝ} (hε : Unit4 ε) {Z η : ℝ} {p t0 t1 t2 t3 : ℤ} {α : ℕ}
    (h : |Z - ((p : ℝ) + lin ε t0 t1 t2 t3) / 2 ^ 60| ≤ α / 2 ^ 60 + η) :
    |Z - ((p / QQ : ℤ) : ℝ) - lin ε (t0 / QQ) (t1 / QQ) (t2 / QQ) (t3 / QQ)| ≤ ((α / 2 ^ 60 + 6 : ℕ) : ℝ) + η := by
  obtain ⟨h0, h1, h2, h3⟩ := hε
  have kp := floor_err p
  have k : ∀ (t : ℤ) (e : ℝ), |e| ≤ 1 → |((t : ℝ) / 2 ^ 60 - ((t / QQ : ℤ) : ℝ)) * e| ≤ 1 := by
    intro t e he
    rw [abs_mul]
    exact mul_le_one₀ (floor_err t) (abs_nonneg _) he
  have k0 := k t0 _ h0
  have k1 := k t1 _ h1
  have k2 := k t2 _ h2
  have k3 := k t3 _ h3
  have hα : (α : ℝ) / 2 ^ 60 ≤ ((α / 2 ^ 60 : ℕ) : ℝ) + 1 := by
    rw [div_le_iff₀ (by norm_num)]
    have : α < (α / 2 ^ 60 + 1) * 2 ^ 60 := by omega
    have : (α : ℝ) < ((α / 2 ^ 60 : ℕ) + 1) * 2 ^ 60 := by exact_mod_cast this
    exact this.le
  rw [show Z - ((p / QQ : ℤ) : ℝ) - lin ε (t0 / QQ) (t1 / QQ) (t2 / QQ) (t3 / QQ) =
    (Z - ((p : ℝ) + lin ε t0 t1 t2 t3) / 2 ^ 60) + ((p : ℝ) / 2 ^ 60 - ((p / QQ : ℤ) : ℝ)) +
    ((t0 : ℝ) / 2 ^ 60 - ((t0 / QQ : ℤ) : ℝ)) * ε 0 + ((t1 : ℝ) / 2 ^ 60 - ((t1 / QQ : ℤ) : ℝ)) * ε 1 +
    ((t2 : ℝ) / 2 ^ 60 - ((t2 / QQ : ℤ) : ℝ)) * ε 2 + ((t3 : ℝ) / 2 ^ 60 - ((t3 / QQ : ℤ) : ℝ)) * ε 3 by unfold lin; ring]
  rw [Nat.cast_add]
  rw [abs_le] at *
  push_cast
  push_cast at hα h kp k0 k1 k2 k3
  constructor <;> linarith [h.1, h.2, kp.1, kp.2, k0.1, k0.2, k1.1, k1.2, k2.1, k2.2, k3.1, k3.2]

/-! ### radius -/

lemma digits {V : ℕ} {a b c d : ℤ} (h : (V : ℤ) = pack (a + OO) (b + OO) (c + OO) (d + OO)) (ha : |a| ≤ 2 ^ 119) (hb : |b| ≤ 2 ^ 119)
    (hc : |c| ≤ 2 ^ 119) (hd : |d| ≤ 2 ^ 119) :
    (absO (V % 2 ^ 244) : ℤ) = |a| ∧ (absO (V / 2 ^ 244 % 2 ^ 244) : ℤ) = |b| ∧ (absO (V / (2 ^ 244 * 2 ^ 244) % 2 ^ 244) : ℤ) = |c| ∧
      (absO (V / (2 ^ 244 * 2 ^ 244 * 2 ^ 244)) : ℤ) = |d| := by
  rw [abs_le] at ha hb hc hd
  obtain ⟨a', ea⟩ := Int.eq_ofNat_of_zero_le (show 0 ≤ a + OO by simp only [OO]; omega)
  obtain ⟨b', eb⟩ := Int.eq_ofNat_of_zero_le (show 0 ≤ b + OO by simp only [OO]; omega)
  obtain ⟨c', ec⟩ := Int.eq_ofNat_of_zero_le (show 0 ≤ c + OO by simp only [OO]; omega)
  obtain ⟨d', ed⟩ := Int.eq_ofNat_of_zero_le (show 0 ≤ d + OO by simp only [OO]; omega)
  have hV : V = a' + 2 ^ 244 * (b' + 2 ^ 244 * (c' + 2 ^ 244 * d')) := by
    rw [ea, eb, ec, ed] at h
    unfold pack at h
    simp only [BB] at h
    exact_mod_cast h
  simp only [OO] at ea eb ec ed
  have la : a' < 2 ^ 244 := by omega
  have lb : b' < 2 ^ 244 := by omega
  have lc : c' < 2 ^ 244 := by omega
  have m0 : V % 2 ^ 244 = a' := by rw [hV, Nat.add_mul_mod_self_left, Nat.mod_eq_of_lt la]
  have m1 : V / 2 ^ 244 = b' + 2 ^ 244 * (c' + 2 ^ 244 * d') := by
    rw [hV, Nat.add_mul_div_left _ _ (by norm_num), Nat.div_eq_of_lt la, zero_add]
  have m2 : V / (2 ^ 244 * 2 ^ 244) = c' + 2 ^ 244 * d' := by
    rw [← Nat.div_div_eq_div_mul, m1,
      Nat.add_mul_div_left _ _ (by norm_num), Nat.div_eq_of_lt lb, zero_add]
  have m3 : V / (2 ^ 244 * 2 ^ 244 * 2 ^ 244) = d' := by
    rw [← Nat.div_div_eq_div_mul, m2,
      Nat.add_mul_div_left _ _ (by norm_num), Nat.div_eq_of_lt lc, zero_add]
  rw [m0, m1, m2, m3, Nat.add_mul_mod_self_left, Nat.add_mul_mod_self_left, Nat.mod_eq_of_lt lb, Nat.mod_eq_of_lt lc,
    absO_eq, absO_eq, absO_eq, absO_eq]
  simp only [OO]
  refine ⟨?_, ?_, ?_, ?_⟩ <;> congr 1 <;> omega

lemma tightA_sound {ε : ℕ → ℝ} {X : ℝ} {c r R V : ℕ} {k : ℕ → Bool} (h : tightA r R V k = true) (hx : AMem ε X c r R V) :
    ∃ R', k R' = true ∧ AMem ε X c r R' V := by
  obtain ⟨a0, a1, a2, a3, hp, he, hR⟩ := hx
  rcases hp with ⟨hv, z0, z1, z2, z3⟩ | ⟨hv, hp⟩
  · subst hv
    refine ⟨r, h, a0, a1, a2, a3, Or.inl ⟨rfl, z0, z1, z2, z3⟩, he, ?_⟩
    rw [z0, z1, z2, z3]; simp
  · have h := rec_ne hv h
    obtain ⟨hl, h⟩ := lim_elim h
    obtain ⟨-, h⟩ := fN_elim h
    have hl' : (R : ℤ) ≤ 2 ^ 119 := by exact_mod_cast hl
    have n0 := abs_nonneg a0
    have n1 := abs_nonneg a1
    have n2 := abs_nonneg a2
    have n3 := abs_nonneg a3
    have nr : (0 : ℤ) ≤ r := Int.natCast_nonneg r
    obtain ⟨d0, d1, d2, d3⟩ := digits hp (by linarith) (by linarith) (by linarith) (by linarith)
    refine ⟨_, h, a0, a1, a2, a3, Or.inr ⟨hv, hp⟩, he, ?_⟩
    have e : (r + ((absO (V % 2 ^ 244) + absO (V / 2 ^ 244 % 2 ^ 244)) + (absO (V / (2 ^ 244 * 2 ^ 244) % 2 ^ 244) + absO (V / (2 ^ 244 * 2 ^ 244 * 2 ^ 244)))) : ℕ) =
      Nat.add r (Nat.add (Nat.add (absO (Nat.mod V 28269553036454149273332760011886696253239742350009903329945699220681916416)) (absO (Nat.mod (Nat.div V 28269553036454149273332760011886696253239742350009903329945699220681916416) 28269553036454149273332760011886696253239742350009903329945699220681916416)))
      (Nat.add (absO (Nat.mod (Nat.div V 799167628880894011233688890827050574271641124522232614619944181664095165137859998750798362384253944616915694367080095461234681773897801038410285056) 28269553036454149273332760011886696253239742350009903329945699220681916416)) (absO (Nat.div V 22592111669665739975592870737637022906810831294812620197467215446901550642889587999246991367961839975767182923986271972624986374927027127581012424707895568851446368731861728964581056579941628221790058875830676242925879296)))) := rfl
    refine le_trans ?_ (le_of_eq (congrArg (Nat.cast (R := ℤ)) e))
    push_cast only [Nat.cast_add]
    rw [d0, d1, d2, d3]
    linarith

lemma pack_nonneg {a b c d : ℤ} (ha : |a| < 2 ^ 240) (hb : |b| < 2 ^ 240) (hc : |c| < 2 ^ 240) (hd : |d| < 2 ^ 240) :
    0 ≤ pack (a + 2 ^ 240) (b + 2 ^ 240) (c + 2 ^ 240) (d + 2 ^ 240) := by
  rw [abs_lt] at ha hb hc hd
  have h1 : 0 ≤ a + 2 ^ 240 := by linarith [ha.1]
  have h2 : 0 ≤ b + 2 ^ 240 := by linarith [hb.1]
  have h3 : 0 ≤ c + 2 ^ 240 := by linarith [hc.1]
  have h4 : 0 ≤ d + 2 ^ 240 := by linarith [hd.1]
  unfold pack
  positivity

lemma mulcV_eq {x V : ℕ} {a b c d : ℤ} (h : (V : ℤ) = pack (a + OO) (b + OO) (c + OO) (d + OO))
    (ha : |((x : ℤ) - OO) * a| < 2 ^ 240) (hb : |((x : ℤ) - OO) * b| < 2 ^ 240) (hc : |((x : ℤ) - OO) * c| < 2 ^ 240)
    (hd : |((x : ℤ) - OO) * d| < 2 ^ 240) (h0 : mulcV x V ≠ 0) :
    (mulcV x V : ℤ) = pack (((x : ℤ) - OO) * a / QQ + OO) (((x : ℤ) - OO) * b / QQ + OO) (((x : ℤ) - OO) * c / QQ + OO)
      (((x : ℤ) - OO) * d / QQ + OO) := by
  have hdef : mulcV x V = packS (x * V + 2 ^ 241 * ONE4 - 2 ^ 120 * (V + ONE4 * x)) := rfl
  rw [hdef] at h0 ⊢
  have e : ∀ u : ℕ, (u : ℤ) = pack 1 1 1 1 → ((x * V + 2 ^ 241 * u : ℕ) : ℤ) - ((2 ^ 120 * (V + u * x) : ℕ) : ℤ) =
      pack (((x : ℤ) - OO) * a + 2 ^ 240) (((x : ℤ) - OO) * b + 2 ^ 240) (((x : ℤ) - OO) * c + 2 ^ 240)
        (((x : ℤ) - OO) * d + 2 ^ 240) := by
    intro u hu
    push_cast
    rw [hu, h]
    unfold pack
    simp only [OO]
    ring
  replace e := e _ one4
  refine packS_eq ?_ ha hb hc hd h0
  have hn := pack_nonneg ha hb hc hd
  rw [← e] at hn
  rw [Nat.cast_sub (by exact_mod_cast (sub_nonneg.mp hn))]
  exact e

lemma mulV_eq {x V y W : ℕ} {a b c d a' b' c' d' : ℤ} (h : (V : ℤ) = pack (a + OO) (b + OO) (c + OO) (d + OO))
    (h' : (W : ℤ) = pack (a' + OO) (b' + OO) (c' + OO) (d' + OO))
    (ha : |((x : ℤ) - OO) * a + ((y : ℤ) - OO) * a'| < 2 ^ 240) (hb : |((x : ℤ) - OO) * b + ((y : ℤ) - OO) * b'| < 2 ^ 240)
    (hc : |((x : ℤ) - OO) * c + ((y : ℤ) - OO) * c'| < 2 ^ 240)
    (hd : |((x : ℤ) - OO) * d + ((y : ℤ) - OO) * d'| < 2 ^ 240) (h0 : mulV x V y W ≠ 0) :
    (mulV x V y W : ℤ) = pack ((((x : ℤ) - OO) * a + ((y : ℤ) - OO) * a') / QQ + OO)
      ((((x : ℤ) - OO) * b + ((y : ℤ) - OO) * b') / QQ + OO) ((((x : ℤ) - OO) * c + ((y : ℤ) - OO) * c') / QQ + OO)
      ((((x : ℤ) - OO) * d + ((y : ℤ) - OO) * d') / QQ + OO) := by
  have hdef : mulV x V y W = packS (x * V + y * W + (2 ^ 241 + 2 ^ 240) * ONE4 - 2 ^ 120 * (W + V + ONE4 * (x + y))) := rfl
  rw [hdef] at h0 ⊢
  have e : ∀ u : ℕ, (u : ℤ) = pack 1 1 1 1 →
      ((x * V + y * W + (2 ^ 241 + 2 ^ 240) * u : ℕ) : ℤ) - ((2 ^ 120 * (W + V + u * (x + y)) : ℕ) : ℤ) =
      pack (((x : ℤ) - OO) * a + ((y : ℤ) - OO) * a' + 2 ^ 240) (((x : ℤ) - OO) * b + ((y : ℤ) - OO) * b' + 2 ^ 240)
        (((x : ℤ) - OO) * c + ((y : ℤ) - OO) * c' + 2 ^ 240) (((x : ℤ) - OO) * d + ((y : ℤ) - OO) * d' + 2 ^ 240) := by
    intro u hu
    push_cast
    rw [hu, h, h']
    unfold pack
    simp only [OO]
    ring
  replace e := e _ one4
  refine packS_eq ?_ ha hb hc hd h0
  have hn := pack_nonneg ha hb hc hd
  rw [← e] at hn
  rw [Nat.cast_sub (by exact_mod_cast (sub_nonneg.mp hn))]
  exact e

lemma abs_comb4 (x y a b c d a' b' c' d' : ℤ) :
    |x * a + y * a'| + |x * b + y * b'| + |x * c + y * c'| + |x * d + y * d'| ≤
      |x| * (|a| + |b| + |c| + |d|) + |y| * (|a'| + |b'| + |c'| + |d'|) := by
  have h := abs_add4 (x * a) (x * b) (x * c) (x * d) (y * a') (y * b') (y * c') (y * d')
  simp only [abs_mul] at h
  linarith

lemma lt_of_lim {t β : ℤ} {b : ℕ} (hb : (b : ℤ) = β) (hl : b / 2 ^ 60 + 11 ≤ 2 ^ 119) (ht : t ≤ β) : t < 2 ^ 240 := by omega

lemma cast_sub_OO (c : ℕ) : (((c : ℤ) - OO : ℤ) : ℝ) = (c : ℝ) - 2 ^ 120 := by
  simp only [OO]; push_cast; norm_num

lemma absO_real (c : ℕ) : ((absO c : ℕ) : ℝ) = |(c : ℝ) - 2 ^ 120| := by
  rw [← cast_sub_OO, ← Int.cast_abs, ← absO_eq]; simp

lemma mul_err {X Y x y L L' r r' R R' : ℝ} (he : |X * 2 ^ 60 - x - L| ≤ r) (he' : |Y * 2 ^ 60 - y - L'| ≤ r')
    (hu : |X * 2 ^ 60 - x| ≤ R) (hu' : |Y * 2 ^ 60 - y| ≤ R') :
    |X * Y * 2 ^ 60 - (x * y + (x * L' + y * L)) / 2 ^ 60| ≤ (|x| * r' + |y| * r + R * R') / 2 ^ 60 := by
  have e : X * Y * 2 ^ 60 - (x * y + (x * L' + y * L)) / 2 ^ 60 =
      (x * (Y * 2 ^ 60 - y - L') + y * (X * 2 ^ 60 - x - L) + (X * 2 ^ 60 - x) * (Y * 2 ^ 60 - y)) / 2 ^ 60 := by
    field_simp; ring
  rw [e, abs_div, abs_of_pos (show (0 : ℝ) < 2 ^ 60 by norm_num)]
  refine div_le_div_of_nonneg_right ?_ (by norm_num)
  refine (abs_add_le _ _).trans (add_le_add ((abs_add_le _ _).trans (add_le_add ?_ ?_)) ?_)
  · rw [abs_mul]; exact mul_le_mul_of_nonneg_left he' (abs_nonneg _)
  · rw [abs_mul]; exact mul_le_mul_of_nonneg_left he (abs_nonneg _)
  · rw [abs_mul]; exact mul_le_mul hu hu' (abs_nonneg _) ((abs_nonneg _).trans hu)

lemma le4 {a b c d s : ℤ} (h : |a| + |b| + |c| + |d| ≤ s) : |a| ≤ s ∧ |b| ≤ s ∧ |c| ≤ s ∧ |d| ≤ s := by
  have := abs_nonneg a
  have := abs_nonneg b
  have := abs_nonneg c
  have := abs_nonneg d
  exact ⟨by linarith, by linarith, by linarith, by linarith⟩

lemma amulc_sound {ε : ℕ → ℝ} (hε : Unit4 ε) {X Y : ℝ} {c r R c' r' R' V' : ℕ} {k : K}
    (h : amulc c r c' r' R' V' k = true) (hx : AMem ε X c r R 0) (hy : AMem ε Y c' r' R' V') : Next ε (X * Y) k := by
  have hu' := hy.radius hε
  obtain ⟨a0, a1, a2, a3, hp, he, hR⟩ := hx
  rcases hp with ⟨-, rfl, rfl, rfl, rfl⟩ | ⟨hv, -⟩
  swap
  · exact absurd rfl hv
  obtain ⟨b0, b1, b2, b3, hp', he', hR'⟩ := hy
  obtain ⟨hz, h⟩ := fN_elim h
  obtain ⟨-, h⟩ := fN_elim h
  obtain ⟨hl, h⟩ := lim_elim h
  have ez := mulc_eq hz
  set x : ℤ := (c : ℤ) - OO with hxdef
  set y : ℤ := (c' : ℤ) - OO with hydef
  have hl : (absO c * R' + absO c' * r + r * R') / 2 ^ 60 + 11 ≤ 2 ^ 119 := hl
  have nR : (0 : ℤ) ≤ R' := Int.natCast_nonneg _
  have nr : (0 : ℤ) ≤ r := Int.natCast_nonneg _
  have nr' : (0 : ℤ) ≤ r' := Int.natCast_nonneg _
  have hsum : |x * b0| + |x * b1| + |x * b2| + |x * b3| + ((absO c * r' + absO c' * r + r * R' : ℕ) : ℤ) ≤
      ((absO c * R' + absO c' * r + r * R' : ℕ) : ℤ) := by
    push_cast
    rw [absO_eq, absO_eq]
    simp only [abs_mul]
    have := mul_le_mul_of_nonneg_left hR' (abs_nonneg x)
    simp only [mul_add] at this
    rw [← hxdef]
    linarith only [this]
  have hsum0 : |x * b0| + |x * b1| + |x * b2| + |x * b3| ≤ ((absO c * R' + absO c' * r + r * R' : ℕ) : ℤ) := by
    have : (0 : ℤ) ≤ ((absO c * r' + absO c' * r + r * R' : ℕ) : ℤ) := Int.natCast_nonneg _
    linarith
  have rad := round_rad hsum
  have err : |X * Y * 2 ^ 60 - ((x * y / QQ : ℤ) : ℝ) - lin ε (x * b0 / QQ) (x * b1 / QQ) (x * b2 / QQ) (x * b3 / QQ)| ≤
      (((absO c * r' + absO c' * r + r * R') / 2 ^ 60 + 6 : ℕ) : ℝ) := by
    have he0 : |X * 2 ^ 60 - (c - 2 ^ 120) - 0| ≤ (r : ℝ) := by
      have : lin ε 0 0 0 0 = 0 := by unfold lin; simp
      rw [this] at he; exact he
    have he1 : |X * 2 ^ 60 - (c - 2 ^ 120)| ≤ (r : ℝ) := by rw [sub_zero] at he0; exact he0
    have m := mul_err he0 he' he1 hu'
    have := round_err hε (Z := X * Y * 2 ^ 60) (η := 0) (p := x * y) (t0 := x * b0) (t1 := x * b1) (t2 := x * b2)
      (t3 := x * b3) (α := absO c * r' + absO c' * r + r * R') ?_
    · rw [add_zero] at this; exact this
    · rw [add_zero]
      have hx' : (x : ℝ) = c - 2 ^ 120 := cast_sub_OO c
      have hy' : (y : ℝ) = c' - 2 ^ 120 := cast_sub_OO c'
      push_cast
      rw [absO_real, absO_real]
      refine le_trans (le_of_eq (congrArg abs ?_)) m
      unfold lin
      push_cast
      rw [hx', hy']
      ring
  have ez' : ((mulc c c' : ℕ) : ℝ) - 2 ^ 120 = ((x * y / QQ : ℤ) : ℝ) := by rw [← cast_sub_OO, ez]
  rw [← ez'] at err
  rcases hp' with ⟨hv', z0, z1, z2, z3⟩ | ⟨hv', hp'⟩
  · subst hv'
    exact ⟨_, _, _, _, h, _, _, _, _, Or.inl ⟨rfl, by rw [z0, mul_zero, Int.zero_ediv], by rw [z1, mul_zero, Int.zero_ediv], by rw [z2, mul_zero, Int.zero_ediv], by rw [z3, mul_zero, Int.zero_ediv]⟩, err, rad⟩
  · have h := rec_ne hv' h
    obtain ⟨hw, h⟩ := fN_elim h
    obtain ⟨l0, l1, l2, l3⟩ := le4 hsum0
    exact ⟨_, _, _, _, h, _, _, _, _, Or.inr ⟨hw, mulcV_eq hp' (lt_of_lim rfl hl l0) (lt_of_lim rfl hl l1) (lt_of_lim rfl hl l2)
      (lt_of_lim rfl hl l3) hw⟩, err, rad⟩

lemma amulv_sound {ε : ℕ → ℝ} (hε : Unit4 ε) {X Y : ℝ} {c r R V c' r' R' V' : ℕ} {k : K} (hv : V ≠ 0) (hv' : V' ≠ 0)
    (h : amulv c r R V c' r' R' V' k = true) (hx : AMem ε X c r R V) (hy : AMem ε Y c' r' R' V') : Next ε (X * Y) k := by
  have hu := hx.radius hε
  have hu' := hy.radius hε
  obtain ⟨a0, a1, a2, a3, hp, he, hR⟩ := hx
  obtain ⟨b0, b1, b2, b3, hp', he', hR'⟩ := hy
  replace hp := (hp.resolve_left fun h => hv h.1).2
  replace hp' := (hp'.resolve_left fun h => hv' h.1).2
  obtain ⟨hz, h⟩ := fN_elim h
  obtain ⟨-, h⟩ := fN_elim h
  obtain ⟨hl, h⟩ := lim_elim h
  obtain ⟨hw, h⟩ := fN_elim h
  have ez := mulc_eq hz
  set x : ℤ := (c : ℤ) - OO with hxdef
  set y : ℤ := (c' : ℤ) - OO with hydef
  have hl : (absO c * R' + absO c' * R + R * R') / 2 ^ 60 + 11 ≤ 2 ^ 119 := hl
  have hsum : |x * b0 + y * a0| + |x * b1 + y * a1| + |x * b2 + y * a2| + |x * b3 + y * a3| +
      ((absO c * r' + absO c' * r + R * R' : ℕ) : ℤ) ≤ ((absO c * R' + absO c' * R + R * R' : ℕ) : ℤ) := by
    push_cast
    rw [absO_eq, absO_eq]
    have := abs_comb4 x y b0 b1 b2 b3 a0 a1 a2 a3
    have := mul_le_mul_of_nonneg_left hR' (abs_nonneg x)
    have := mul_le_mul_of_nonneg_left hR (abs_nonneg y)
    simp only [mul_add] at *
    linarith
  have hsum0 : |x * b0 + y * a0| + |x * b1 + y * a1| + |x * b2 + y * a2| + |x * b3 + y * a3| ≤
      ((absO c * R' + absO c' * R + R * R' : ℕ) : ℤ) := by
    have : (0 : ℤ) ≤ ((absO c * r' + absO c' * r + R * R' : ℕ) : ℤ) := Int.natCast_nonneg _
    linarith
  have rad := round_rad hsum
  have err : |X * Y * 2 ^ 60 - ((x * y / QQ : ℤ) : ℝ) - lin ε ((x * b0 + y * a0) / QQ) ((x * b1 + y * a1) / QQ)
      ((x * b2 + y * a2) / QQ) ((x * b3 + y * a3) / QQ)| ≤
      (((absO c * r' + absO c' * r + R * R') / 2 ^ 60 + 6 : ℕ) : ℝ) := by
    have m := mul_err he he' hu hu'
    have := round_err hε (Z := X * Y * 2 ^ 60) (η := 0) (p := x * y) (t0 := x * b0 + y * a0) (t1 := x * b1 + y * a1)
      (t2 := x * b2 + y * a2) (t3 := x * b3 + y * a3) (α := absO c * r' + absO c' * r + R * R') ?_
    · rw [add_zero] at this; exact this
    · rw [add_zero]
      have hx' : (x : ℝ) = c - 2 ^ 120 := cast_sub_OO c
      have hy' : (y : ℝ) = c' - 2 ^ 120 := cast_sub_OO c'
      push_cast
      rw [absO_real, absO_real]
      refine le_trans (le_of_eq (congrArg abs ?_)) m
      unfold lin
      push_cast
      rw [hx', hy']
      ring
  have ez' : ((mulc c c' : ℕ) : ℝ) - 2 ^ 120 = ((x * y / QQ : ℤ) : ℝ) := by rw [← cast_sub_OO, ez]
  rw [← ez'] at err
  obtain ⟨l0, l1, l2, l3⟩ := le4 hsum0
  have mem : AMem ε (X * Y) (mulc c c') ((absO c * r' + absO c' * r + R * R') / 2 ^ 60 + 6)
      ((absO c * R' + absO c' * R + R * R') / 2 ^ 60 + 11) (mulV c V' c' V) :=
    ⟨_, _, _, _, Or.inr ⟨hw, mulV_eq hp' hp (lt_of_lim rfl hl l0) (lt_of_lim rfl hl l1) (lt_of_lim rfl hl l2)
      (lt_of_lim rfl hl l3) hw⟩, err, rad⟩
  obtain ⟨R'', hk, hm⟩ := tightA_sound h mem
  exact ⟨_, _, _, _, hk, hm⟩

lemma amul_sound {ε : ℕ → ℝ} (hε : Unit4 ε) {X Y : ℝ} {c r R V c' r' R' V' : ℕ} {k : K}
    (h : amul c r R V c' r' R' V' k = true) (hx : AMem ε X c r R V) (hy : AMem ε Y c' r' R' V') : Next ε (X * Y) k := by
  by_cases hv : V = 0
  · subst hv
    exact amulc_sound hε h hx hy
  · have h := rec_ne hv h
    by_cases hv' : V' = 0
    · subst hv'
      rw [mul_comm]
      exact amulc_sound hε h hy hx
    · exact amulv_sound hε hv hv' (rec_ne hv' h) hx hy

lemma mulc_self (c : ℕ) : mulc c c ≠ 0 := by
  have hd : mulc c c = (c * c + 2 ^ 241 - 2 ^ 120 * (c + c)) / 2 ^ 60 - (2 ^ 180 - 2 ^ 120) := rfl
  have h : 2 ^ 120 * (c + c) + 2 ^ 240 ≤ c * c + 2 ^ 241 := by
    have : (0 : ℤ) ≤ ((c : ℤ) - 2 ^ 120) ^ 2 := sq_nonneg _
    have : ((2 : ℤ) ^ 120 * (c + c) + 2 ^ 240) ≤ c * c + 2 ^ 241 := by nlinarith
    exact_mod_cast this
  have h2 : 2 ^ 180 ≤ (c * c + 2 ^ 241 - 2 ^ 120 * (c + c)) / 2 ^ 60 := by
    rw [Nat.le_div_iff_mul_le (by norm_num)]
    refine Nat.le_sub_of_add_le ?_
    have e : (2 : ℕ) ^ 180 * 2 ^ 60 = 2 ^ 240 := by norm_num
    rw [e, add_comm]
    exact h
  rw [hd]
  omega

lemma sqr_err {X x L r R h : ℝ} (he : |X * 2 ^ 60 - x - L| ≤ r) (hu : |X * 2 ^ 60 - x| ≤ R) (hh : R * R ≤ 2 ^ 61 * h) :
    |X ^ 2 * 2 ^ 60 - h - (x * x + 2 * x * L) / 2 ^ 60| ≤ 2 * (|x| * r) / 2 ^ 60 + h := by
  have e : X ^ 2 * 2 ^ 60 - h - (x * x + 2 * x * L) / 2 ^ 60 =
      (2 * (x * (X * 2 ^ 60 - x - L))) / 2 ^ 60 + ((X * 2 ^ 60 - x) ^ 2 / 2 ^ 60 - h) := by
    field_simp; ring
  rw [e]
  refine (abs_add_le _ _).trans (add_le_add ?_ ?_)
  · rw [abs_div, abs_of_pos (show (0 : ℝ) < 2 ^ 60 by norm_num), abs_mul, abs_two, abs_mul]
    refine div_le_div_of_nonneg_right ?_ (by norm_num)
    have := mul_le_mul_of_nonneg_left he (abs_nonneg x)
    linarith
  · have h1 : (X * 2 ^ 60 - x) ^ 2 ≤ R * R := by
      rw [← sq_abs, sq]
      exact mul_le_mul hu hu (abs_nonneg _) ((abs_nonneg _).trans hu)
    have h2 : 0 ≤ (X * 2 ^ 60 - x) ^ 2 / 2 ^ 60 := by positivity
    have h3 : (X * 2 ^ 60 - x) ^ 2 / 2 ^ 60 ≤ 2 * h := by
      rw [div_le_iff₀ (by norm_num)]
      linarith
    rw [abs_le]
    constructor <;> linarith

lemma div_succ_real (a b : ℕ) (hb : 0 < b) : (a : ℝ) ≤ b * ((Nat.succ (Nat.div a b) : ℕ) : ℝ) := by
  have : a < b * (Nat.succ (a / b)) := Nat.lt_mul_div_succ a hb
  have h : (a : ℝ) < b * (Nat.succ (a / b) : ℕ) := by exact_mod_cast this
  exact h.le

lemma asqr_sound {ε : ℕ → ℝ} (hε : Unit4 ε) {X : ℝ} {c r R V : ℕ} {k : K}
    (h : asqr c r R V k = true) (hx : AMem ε X c r R V) : Next ε (X ^ 2) k := by
  have hu := hx.radius hε
  obtain ⟨a0, a1, a2, a3, hp, he, hR⟩ := hx
  obtain ⟨-, h⟩ := fN_elim h
  have hhle := div_succ_real (R * R) 2305843009213693952 (by norm_num)
  obtain ⟨g, hg⟩ : ∃ g, Nat.succ (Nat.div (R * R) 2305843009213693952) = g := ⟨_, rfl⟩
  have hg' : Nat.succ (Nat.div (Nat.mul R R) 2305843009213693952) = g := hg
  rw [hg'] at h
  rw [hg] at hhle
  obtain ⟨-, h⟩ := fN_elim h
  have h := (forceN_eq _ _).symm.trans h
  obtain ⟨-, h⟩ := fN_elim h
  obtain ⟨hl, h⟩ := lim_elim h
  have ez := mulc_eq (mulc_self c)
  set x : ℤ := (c : ℤ) - OO with hxdef
  have hl : 2 * (absO c * R) / 2 ^ 60 + (g + 11) ≤ 2 ^ 119 := hl
  have hsum : |x * a0 + x * a0| + |x * a1 + x * a1| + |x * a2 + x * a2| + |x * a3 + x * a3| +
      ((2 * (absO c * r) : ℕ) : ℤ) ≤ ((2 * (absO c * R) : ℕ) : ℤ) := by
    push_cast
    rw [absO_eq]
    have h1 := abs_comb4 x x a0 a1 a2 a3 a0 a1 a2 a3
    have h2 := mul_le_mul_of_nonneg_left hR (abs_nonneg x)
    simp only [mul_add] at *
    rw [← hxdef]
    linarith only [h1, h2]
  have hsum0 : |x * a0 + x * a0| + |x * a1 + x * a1| + |x * a2 + x * a2| + |x * a3 + x * a3| ≤
      ((2 * (absO c * R) : ℕ) : ℤ) := by
    have : (0 : ℤ) ≤ ((2 * (absO c * r) : ℕ) : ℤ) := Int.natCast_nonneg _
    linarith
  have rad0 := round_rad hsum
  have rad : ((2 * (absO c * r) / 2 ^ 60 + (g + 6) : ℕ) : ℤ) + (|(x * a0 + x * a0) / QQ| + |(x * a1 + x * a1) / QQ| +
      |(x * a2 + x * a2) / QQ| + |(x * a3 + x * a3) / QQ|) ≤ ((2 * (absO c * R) / 2 ^ 60 + (g + 11) : ℕ) : ℤ) := by
    push_cast at rad0 ⊢
    linarith
  have err : |X ^ 2 * 2 ^ 60 - (((mulc c c + g : ℕ) : ℝ) - 2 ^ 120) - lin ε ((x * a0 + x * a0) / QQ) ((x * a1 + x * a1) / QQ)
      ((x * a2 + x * a2) / QQ) ((x * a3 + x * a3) / QQ)| ≤ ((2 * (absO c * r) / 2 ^ 60 + (g + 6) : ℕ) : ℝ) := by
    have hh : (R : ℝ) * R ≤ 2 ^ 61 * g := by
      push_cast at hhle
      refine hhle.trans (le_of_eq ?_)
      norm_num
    have m := sqr_err he hu hh
    have := round_err hε (Z := X ^ 2 * 2 ^ 60 - g) (η := g) (p := x * x) (t0 := x * a0 + x * a0) (t1 := x * a1 + x * a1)
      (t2 := x * a2 + x * a2) (t3 := x * a3 + x * a3) (α := 2 * (absO c * r)) ?_
    · have ez' : ((mulc c c : ℕ) : ℝ) - 2 ^ 120 = ((x * x / QQ : ℤ) : ℝ) := by rw [← cast_sub_OO, ez]
      rw [← ez'] at this
      refine le_trans (le_of_eq (congrArg abs ?_)) (this.trans (le_of_eq ?_))
      · push_cast; ring
      · push_cast; ring
    · have hx' : (x : ℝ) = c - 2 ^ 120 := cast_sub_OO c
      push_cast
      rw [absO_real]
      refine le_trans (le_of_eq (congrArg abs ?_)) m
      unfold lin
      push_cast
      rw [hx']
      ring
  have hl' : 2 * (absO c * R) / 2 ^ 60 + 11 ≤ 2 ^ 119 := by omega
  rcases hp with ⟨hv, z0, z1, z2, z3⟩ | ⟨hv, hp⟩
  · subst hv
    exact ⟨_, _, _, _, h, _, _, _, _, Or.inl ⟨rfl, by rw [z0, mul_zero, add_zero, Int.zero_ediv],
      by rw [z1, mul_zero, add_zero, Int.zero_ediv], by rw [z2, mul_zero, add_zero, Int.zero_ediv],
      by rw [z3, mul_zero, add_zero, Int.zero_ediv]⟩, err, rad⟩
  · have h := rec_ne hv h
    obtain ⟨hw, h⟩ := fN_elim h
    obtain ⟨l0, l1, l2, l3⟩ := le4 hsum0
    exact ⟨_, _, _, _, h, _, _, _, _, Or.inr ⟨hw, mulV_eq hp hp (lt_of_lim rfl hl' l0) (lt_of_lim rfl hl' l1)
      (lt_of_lim rfl hl' l2) (lt_of_lim rfl hl' l3) hw⟩, err, rad⟩

/-! ### reciprocal -/

lemma inv_core {y u R D q t h v : ℝ} (hu : |u| ≤ R) (hD : D = y - R) (hD0 : 0 < D) (hq : q * y ≤ 2 ^ 120)
    (ht : t * y ≤ q * 2 ^ 60) (ht0 : 0 ≤ t) (hv0 : 0 ≤ v) (hh0 : 0 ≤ h) (hh : t * (R * R) ≤ 2 ^ 61 * D * h)
    (hv : (2 ^ 120 - q * y) * 2 ^ 60 + (q * 2 ^ 60 - t * y) * R ≤ 2 ^ 60 * D * v) :
    0 < y + u ∧ |2 ^ 120 / (y + u) - (q + h) + t * u / 2 ^ 60| ≤ v + h := by
  rw [abs_le] at hu
  have h1 : D ≤ y + u := by rw [hD]; linarith
  have h2 : 0 < y + u := by linarith
  refine ⟨h2, ?_⟩
  have hR : 0 ≤ R := by linarith
  have e : 2 ^ 120 / (y + u) - (q + h) + t * u / 2 ^ 60 =
      ((2 ^ 120 - q * y) * 2 ^ 60 - u * (q * 2 ^ 60 - t * y) + t * u ^ 2) / (2 ^ 60 * (y + u)) - h := by
    have : y + u ≠ 0 := h2.ne'
    field_simp
    ring
  rw [e]
  have hα : 0 ≤ (2 ^ 120 - q * y) * 2 ^ 60 := by nlinarith
  have hβ : 0 ≤ q * 2 ^ 60 - t * y := by linarith
  have k1 : u * (q * 2 ^ 60 - t * y) ≤ R * (q * 2 ^ 60 - t * y) := mul_le_mul_of_nonneg_right hu.2 hβ
  have k2 : -R * (q * 2 ^ 60 - t * y) ≤ u * (q * 2 ^ 60 - t * y) := mul_le_mul_of_nonneg_right hu.1 hβ
  have k3 : t * u ^ 2 ≤ t * (R * R) := by
    refine mul_le_mul_of_nonneg_left ?_ ht0
    nlinarith
  have k4 : 0 ≤ t * u ^ 2 := by positivity
  have k5 : D * v ≤ (y + u) * v := mul_le_mul_of_nonneg_right h1 hv0
  have k6 : D * h ≤ (y + u) * h := mul_le_mul_of_nonneg_right h1 hh0
  have hp : 0 < 2 ^ 60 * (y + u) := by positivity
  have up : ((2 ^ 120 - q * y) * 2 ^ 60 - u * (q * 2 ^ 60 - t * y) + t * u ^ 2) / (2 ^ 60 * (y + u)) ≤ v + 2 * h := by
    rw [div_le_iff₀ hp]
    nlinarith
  have lo : -v ≤ ((2 ^ 120 - q * y) * 2 ^ 60 - u * (q * 2 ^ 60 - t * y) + t * u ^ 2) / (2 ^ 60 * (y + u)) := by
    rw [le_div_iff₀ hp]
    nlinarith
  rw [abs_le]
  constructor <;> linarith

lemma negV_eq {t V : ℕ} {a b c d : ℤ} (h : (V : ℤ) = pack (a + OO) (b + OO) (c + OO) (d + OO))
    (ha : |-(t : ℤ) * a| < 2 ^ 240) (hb : |-(t : ℤ) * b| < 2 ^ 240) (hc : |-(t : ℤ) * c| < 2 ^ 240)
    (hd : |-(t : ℤ) * d| < 2 ^ 240) (h0 : packS (ONE4 * (2 ^ 120 * (t + 2 ^ 120)) - t * V) ≠ 0) :
    (packS (ONE4 * (2 ^ 120 * (t + 2 ^ 120)) - t * V) : ℤ) = pack (-(t : ℤ) * a / QQ + OO) (-(t : ℤ) * b / QQ + OO)
      (-(t : ℤ) * c / QQ + OO) (-(t : ℤ) * d / QQ + OO) := by
  have e : ∀ u : ℕ, (u : ℤ) = pack 1 1 1 1 → ((u * (2 ^ 120 * (t + 2 ^ 120)) : ℕ) : ℤ) - ((t * V : ℕ) : ℤ) =
      pack (-(t : ℤ) * a + 2 ^ 240) (-(t : ℤ) * b + 2 ^ 240) (-(t : ℤ) * c + 2 ^ 240) (-(t : ℤ) * d + 2 ^ 240) := by
    intro u hu
    push_cast
    rw [hu, h]
    unfold pack
    simp only [OO]
    ring
  replace e := e _ one4
  refine packS_eq ?_ ha hb hc hd h0
  have hn := pack_nonneg ha hb hc hd
  rw [← e] at hn
  rw [Nat.cast_sub (by exact_mod_cast (sub_nonneg.mp hn))]
  exact e

lemma invA_sound {ε : ℕ → ℝ} (hε : Unit4 ε) {X σ : ℝ} {g : ℕ → ℕ} {y c r R V : ℕ} {k : K}
    (h : invA g y r R V k = true) (hx : AMem ε X c r R V) (hσ : σ = 1 ∨ σ = -1) (hc : (c : ℝ) - 2 ^ 120 = σ * y)
    (hg : ∀ n, g n ≠ 0 → (g n : ℝ) - 2 ^ 120 = σ * n) : Next ε (X⁻¹) k := by
  have hu := hx.radius hε
  obtain ⟨a0, a1, a2, a3, hp, he, hR⟩ := hx
  obtain ⟨hD, h⟩ := fN_elim h
  obtain ⟨D, eD⟩ : ∃ D, Nat.sub y R = D := ⟨_, rfl⟩
  rw [eD] at hD h
  obtain ⟨hq, h⟩ := fN_elim h
  obtain ⟨q, eq⟩ : ∃ q, Nat.div 1329227995784915872903807060280344576 y = q := ⟨_, rfl⟩
  rw [eq] at hq h
  obtain ⟨ht, h⟩ := fN_elim h
  obtain ⟨t, et⟩ : ∃ t, Nat.div (Nat.mul q q) 1152921504606846976 = t := ⟨_, rfl⟩
  rw [et] at ht h
  obtain ⟨-, h⟩ := fN_elim h
  have hh := div_succ_real (Nat.mul t (Nat.mul R R)) (Nat.mul 2305843009213693952 D) (Nat.mul_pos (by norm_num) (Nat.pos_of_ne_zero hD))
  obtain ⟨w, ew⟩ : ∃ w, Nat.succ (Nat.div (Nat.mul t (Nat.mul R R)) (Nat.mul 2305843009213693952 D)) = w := ⟨_, rfl⟩
  rw [ew] at hh h
  obtain ⟨-, h⟩ := fN_elim h
  have hv := div_succ_real (Nat.add (Nat.mul (Nat.sub 1329227995784915872903807060280344576 (Nat.mul q y)) 1152921504606846976)
    (Nat.mul (Nat.sub (Nat.mul q 1152921504606846976) (Nat.mul t y)) R)) (Nat.mul 1152921504606846976 D) (Nat.mul_pos (by norm_num) (Nat.pos_of_ne_zero hD))
  obtain ⟨v, ev⟩ : ∃ v, Nat.succ (Nat.div (Nat.add (Nat.mul (Nat.sub 1329227995784915872903807060280344576 (Nat.mul q y)) 1152921504606846976)
    (Nat.mul (Nat.sub (Nat.mul q 1152921504606846976) (Nat.mul t y)) R)) (Nat.mul 1152921504606846976 D)) = v := ⟨_, rfl⟩
  rw [ev] at hv h
  obtain ⟨hz, h⟩ := fN_elim h
  obtain ⟨-, h⟩ := fN_elim h
  obtain ⟨hl, h⟩ := lim_elim h
  have hyD : (D : ℝ) = y - R := by rw [← eD]; exact sub_real (by rw [← eD] at hD; exact hD)
  have hD0 : (0 : ℝ) < D := by exact_mod_cast Nat.pos_of_ne_zero hD
  have hqy : q * y ≤ 2 ^ 120 := by
    rw [← eq]
    exact (Nat.div_mul_le_self _ y).trans (by norm_num)
  have hty : t * y ≤ q * 2 ^ 60 := by
    have h1 : t * 2 ^ 60 ≤ q * q := by
      rw [← et]
      exact (Nat.div_mul_le_self (q * q) 1152921504606846976)
    have h2 : t * 2 ^ 60 * y ≤ q * q * y := Nat.mul_le_mul_right _ h1
    have h3 : q * (q * y) ≤ q * 2 ^ 120 := Nat.mul_le_mul_left _ hqy
    have h4 : t * y * 2 ^ 60 ≤ q * 2 ^ 60 * 2 ^ 60 := by
      calc t * y * 2 ^ 60 = t * 2 ^ 60 * y := by ring
        _ ≤ q * q * y := h2
        _ = q * (q * y) := by ring
        _ ≤ q * 2 ^ 120 := h3
        _ = q * 2 ^ 60 * 2 ^ 60 := by ring
    exact Nat.le_of_mul_le_mul_right h4 (by norm_num)
  have hh' : (t : ℝ) * (R * R) ≤ 2 ^ 61 * D * w := by
    have e1 : ((Nat.mul t (Nat.mul R R) : ℕ) : ℝ) = (t : ℝ) * (R * R) := by
      rw [show Nat.mul t (Nat.mul R R) = t * (R * R) from rfl]; push_cast; ring
    have e2 : ((Nat.mul 2305843009213693952 D : ℕ) : ℝ) = 2 ^ 61 * (D : ℝ) := by
      rw [show Nat.mul 2305843009213693952 D = 2305843009213693952 * D from rfl]; push_cast; norm_num
    rw [e1, e2] at hh
    exact hh
  have hv' : ((2 : ℝ) ^ 120 - q * y) * 2 ^ 60 + ((q : ℝ) * 2 ^ 60 - t * y) * R ≤ 2 ^ 60 * D * v := by
    have e2 : ((Nat.mul 1152921504606846976 D : ℕ) : ℝ) = 2 ^ 60 * (D : ℝ) := by
      rw [show Nat.mul 1152921504606846976 D = 1152921504606846976 * D from rfl]; push_cast; norm_num
    have e1 : ((Nat.add (Nat.mul (Nat.sub 1329227995784915872903807060280344576 (Nat.mul q y)) 1152921504606846976)
        (Nat.mul (Nat.sub (Nat.mul q 1152921504606846976) (Nat.mul t y)) R) : ℕ) : ℝ) =
        ((2 : ℝ) ^ 120 - q * y) * 2 ^ 60 + ((q : ℝ) * 2 ^ 60 - t * y) * R := by
      rw [show Nat.add (Nat.mul (Nat.sub 1329227995784915872903807060280344576 (Nat.mul q y)) 1152921504606846976)
        (Nat.mul (Nat.sub (Nat.mul q 1152921504606846976) (Nat.mul t y)) R) =
        (1329227995784915872903807060280344576 - q * y) * 1152921504606846976 + (q * 1152921504606846976 - t * y) * R from rfl]
      have l1 : q * y ≤ 1329227995784915872903807060280344576 := hqy.trans (by norm_num)
      have l2 : t * y ≤ q * 1152921504606846976 := hty.trans (by norm_num)
      rw [Nat.cast_add, Nat.cast_mul, Nat.cast_mul, Nat.cast_sub l1, Nat.cast_sub l2]
      push_cast
      norm_num
    rw [e1, e2] at hv
    exact hv
  -- the reciprocal
  have hσ2 : σ * σ = 1 := by rcases hσ with h | h <;> rw [h] <;> norm_num
  have hσa : |σ| = 1 := by rcases hσ with h | h <;> rw [h] <;> norm_num
  obtain ⟨hpos, core⟩ := inv_core (u := σ * (X * 2 ^ 60 - (c - 2 ^ 120))) (R := R) (y := y) (q := q) (t := t) (h := w) (v := v)
    (by rw [abs_mul, hσa, one_mul]; exact hu) hyD hD0 (by exact_mod_cast hqy) (by exact_mod_cast hty) (Nat.cast_nonneg _)
    (Nat.cast_nonneg _) (Nat.cast_nonneg _) hh' hv'
  have hX : X * 2 ^ 60 = σ * (y + σ * (X * 2 ^ 60 - (c - 2 ^ 120))) := by
    have : σ * (σ * (X * 2 ^ 60 - (c - 2 ^ 120))) = X * 2 ^ 60 - (c - 2 ^ 120) := by rw [← mul_assoc, hσ2, one_mul]
    rw [mul_add, this, hc]; ring
  generalize hU : (y : ℝ) + σ * (X * 2 ^ 60 - (c - 2 ^ 120)) = U at hpos core hX
  have hX0 : X ≠ 0 := by
    intro h0
    rw [h0, zero_mul] at hX
    have : σ ≠ 0 := by intro h; rw [h] at hσa; norm_num at hσa
    exact (mul_ne_zero this hpos.ne') hX.symm
  have hinv : X⁻¹ * 2 ^ 60 = σ * (2 ^ 120 / U) := by
    have hU' : U = σ * (X * 2 ^ 60) := by rw [hX, ← mul_assoc, hσ2, one_mul]
    rw [hU']
    have : σ ≠ 0 := by intro h; rw [h] at hσa; norm_num at hσa
    field_simp
  have ez : ((g (q + w) : ℕ) : ℝ) - 2 ^ 120 = σ * (q + w) := by
    have := hg (q + w) hz
    rw [this]; push_cast; ring
  have hl : t * R / 2 ^ 60 + (v + w + 11) ≤ 2 ^ 119 := hl
  have hsum : |-(t : ℤ) * a0| + |-(t : ℤ) * a1| + |-(t : ℤ) * a2| + |-(t : ℤ) * a3| + ((t * r : ℕ) : ℤ) ≤ ((t * R : ℕ) : ℤ) := by
    simp only [abs_mul, abs_neg, Nat.abs_cast]
    push_cast
    have := mul_le_mul_of_nonneg_left hR (Int.natCast_nonneg t)
    simp only [mul_add] at this
    linarith only [this]
  have hsum0 : |-(t : ℤ) * a0| + |-(t : ℤ) * a1| + |-(t : ℤ) * a2| + |-(t : ℤ) * a3| ≤ ((t * R : ℕ) : ℤ) := by
    have : (0 : ℤ) ≤ ((t * r : ℕ) : ℤ) := Int.natCast_nonneg _
    linarith
  have rad0 := round_rad hsum
  have rad : ((t * r / 2 ^ 60 + (v + w + 6) : ℕ) : ℤ) + (|-(t : ℤ) * a0 / QQ| + |-(t : ℤ) * a1 / QQ| + |-(t : ℤ) * a2 / QQ| +
      |-(t : ℤ) * a3 / QQ|) ≤ ((t * R / 2 ^ 60 + (v + w + 11) : ℕ) : ℤ) := by
    push_cast at rad0 ⊢
    linarith
  have err : |X⁻¹ * 2 ^ 60 - (((g (q + w) : ℕ) : ℝ) - 2 ^ 120) - lin ε (-(t : ℤ) * a0 / QQ) (-(t : ℤ) * a1 / QQ)
      (-(t : ℤ) * a2 / QQ) (-(t : ℤ) * a3 / QQ)| ≤ ((t * r / 2 ^ 60 + (v + w + 6) : ℕ) : ℝ) := by
    have := round_err hε (Z := X⁻¹ * 2 ^ 60 - σ * (q + w)) (η := v + w) (p := 0) (t0 := -(t : ℤ) * a0) (t1 := -(t : ℤ) * a1)
      (t2 := -(t : ℤ) * a2) (t3 := -(t : ℤ) * a3) (α := t * r) ?_
    · rw [ez]
      refine le_trans (le_of_eq (congrArg abs ?_)) (this.trans (le_of_eq ?_))
      · rw [Int.zero_ediv]; push_cast; ring
      · push_cast; ring
    · have e1 : X⁻¹ * 2 ^ 60 - σ * (q + w) - (((0 : ℤ) : ℝ) + lin ε (-(t : ℤ) * a0) (-(t : ℤ) * a1) (-(t : ℤ) * a2) (-(t : ℤ) * a3)) / 2 ^ 60 =
          σ * (2 ^ 120 / U - (q + w) + t * (σ * (X * 2 ^ 60 - (c - 2 ^ 120))) / 2 ^ 60) -
          t * (X * 2 ^ 60 - (c - 2 ^ 120) - lin ε a0 a1 a2 a3) / 2 ^ 60 := by
        rw [hinv]
        unfold lin
        push_cast
        have : σ ^ 2 = 1 := by rw [sq]; exact hσ2
        linear_combination (-(t : ℝ) * (X * 2 ^ 60 - (c - 2 ^ 120)) / 2 ^ 60) * this
      rw [e1]
      refine (abs_sub _ _).trans ?_
      rw [abs_mul, hσa, one_mul, abs_div, abs_mul, Nat.abs_cast, abs_of_pos (show (0 : ℝ) < 2 ^ 60 by norm_num), add_comm]
      refine add_le_add ?_ core
      push_cast
      exact div_le_div_of_nonneg_right (mul_le_mul_of_nonneg_left he (Nat.cast_nonneg _)) (by norm_num)
  have hl' : t * R / 2 ^ 60 + 11 ≤ 2 ^ 119 := by omega
  rcases hp with ⟨hv, z0, z1, z2, z3⟩ | ⟨hv, hp⟩
  · subst hv
    exact ⟨_, _, _, _, h, _, _, _, _, Or.inl ⟨rfl, by rw [z0, mul_zero, Int.zero_ediv], by rw [z1, mul_zero, Int.zero_ediv],
      by rw [z2, mul_zero, Int.zero_ediv], by rw [z3, mul_zero, Int.zero_ediv]⟩, err, rad⟩
  · have h := rec_ne hv h
    obtain ⟨hw, h⟩ := fN_elim h
    obtain ⟨l0, l1, l2, l3⟩ := le4 hsum0
    exact ⟨_, _, _, _, h, _, _, _, _, Or.inr ⟨hw, negV_eq hp (lt_of_lim rfl hl' l0) (lt_of_lim rfl hl' l1)
      (lt_of_lim rfl hl' l2) (lt_of_lim rfl hl' l3) hw⟩, err, rad⟩

lemma off_add (n : ℕ) : ((Nat.add 1329227995784915872903807060280344576 n : ℕ) : ℝ) - 2 ^ 120 = 1 * n := by
  rw [Nat.add_eq]; push_cast; norm_num

lemma off_sub (n : ℕ) (h : Nat.sub 1329227995784915872903807060280344576 n ≠ 0) : ((Nat.sub 1329227995784915872903807060280344576 n : ℕ) : ℝ) - 2 ^ 120 = -1 * n := by
  rw [Nat.sub_eq] at h ⊢
  rw [sub_real h]; push_cast; norm_num

lemma off_pos {c : ℕ} (h : 1329227995784915872903807060280344576 ≤ c) : (c : ℝ) - 2 ^ 120 = 1 * ((Nat.sub c 1329227995784915872903807060280344576 : ℕ) : ℝ) := by
  rw [Nat.sub_eq, Nat.cast_sub h]; push_cast; norm_num

lemma off_neg {c : ℕ} (h : c ≤ 1329227995784915872903807060280344576) : (c : ℝ) - 2 ^ 120 = -1 * ((Nat.sub 1329227995784915872903807060280344576 c : ℕ) : ℝ) := by
  rw [Nat.sub_eq, Nat.cast_sub h]; push_cast; norm_num

lemma cond_elim {b x y : Bool} (h : cond b x y = true) : (b = true ∧ x = true) ∨ (b = false ∧ y = true) := by
  cases b
  · exact Or.inr ⟨rfl, h⟩
  · exact Or.inl ⟨rfl, h⟩

lemma ble_true {n m : ℕ} (h : Nat.ble n m = true) : n ≤ m := Nat.le_of_ble_eq_true h
lemma ble_false {n m : ℕ} (h : Nat.ble n m = false) : m ≤ n := by
  by_contra hc
  rw [Nat.ble_eq_true_of_le (Nat.le_of_lt (Nat.lt_of_not_le hc))] at h
  exact Bool.noConfusion h

lemma ainv_sound {ε : ℕ → ℝ} (hε : Unit4 ε) {X : ℝ} {c r R V : ℕ} {k : K}
    (h : ainv c r R V k = true) (hx : AMem ε X c r R V) : Next ε (X⁻¹) k := by
  unfold ainv at h
  rcases cond_elim h with ⟨hb, h⟩ | ⟨hb, h⟩
  · exact invA_sound hε h hx (Or.inl rfl) (off_pos (ble_true hb)) fun n _ => off_add n
  · exact invA_sound hε h hx (Or.inr rfl) (off_neg (ble_false hb)) fun n hn => off_sub n hn

lemma aiter_sound {ε : ℕ → ℝ} (hε : Unit4 ε) {X : ℝ} {c r R V : ℕ} (hx : AMem ε X c r R V) (n : ℕ) :
    ∀ {Y : ℝ} {c' r' R' V' : ℕ} {k : K}, aiter c r R V n c' r' R' V' k = true → AMem ε Y c' r' R' V' →
      Next ε (Y * X ^ n) k := by
  induction n with
  | zero =>
    intro Y c' r' R' V' k h hy
    rw [pow_zero, mul_one]
    exact ⟨c', r', R', V', h, hy⟩
  | succ n ih =>
    intro Y c' r' R' V' k h hy
    obtain ⟨c'', r'', R'', V'', h', hy'⟩ := amul_sound hε h hy hx
    have := ih h' hy'
    rwa [mul_assoc, ← pow_succ'] at this

lemma amem_const {ε : ℕ → ℝ} {X : ℝ} {c r : ℕ} (h : |X * 2 ^ 60 - ((c : ℝ) - 2 ^ 120)| ≤ (r : ℝ)) : AMem ε X c r r 0 :=
  ⟨0, 0, 0, 0, Or.inl ⟨rfl, rfl, rfl, rfl, rfl⟩, by simpa [lin] using h, by simp⟩

lemma amem_one {ε : ℕ → ℝ} : AMem ε 1 1329227995784915874056728564887191552 1 1 0 := by
  apply amem_const
  norm_num

lemma amem_zero {ε : ℕ → ℝ} : AMem ε 0 1329227995784915872903807060280344576 1 1 0 := by
  apply amem_const
  norm_num

lemma apow_sound {ε : ℕ → ℝ} (hε : Unit4 ε) {X : ℝ} {c r R V n : ℕ} {k : K} (h : apow c r R V n k = true)
    (hx : AMem ε X c r R V) : Next ε (X ^ n) k := by
  rcases Nat.eq_zero_or_pos (n / 2) with h0 | h0
  · have hn : n = 0 ∨ n = 1 := by omega
    rcases hn with rfl | rfl
    · rw [pow_zero]
      exact ⟨_, _, _, _, h, amem_one⟩
    · rw [pow_one]
      exact ⟨_, _, _, _, h, hx⟩
  · obtain ⟨m, hm⟩ : ∃ m, n / 2 = m + 1 := ⟨n / 2 - 1, by omega⟩
    have hm' : Nat.div n 2 = m + 1 := hm
    unfold apow at h
    rw [hm'] at h
    obtain ⟨c1, r1, R1, V1, h1, hx1⟩ := asqr_sound hε h hx
    obtain ⟨c2, r2, R2, V2, h2, hx2⟩ := aiter_sound hε hx1 m h1 hx1
    have h3 := aiter_sound hε hx (n % 2) h2 hx2
    have e : X ^ 2 * (X ^ 2) ^ m * X ^ (n % 2) = X ^ n := by
      rw [← pow_succ', ← hm, ← pow_mul, ← pow_add, Nat.div_add_mod]
    rwa [e] at h3

/-- the entries of an environment enclose the atoms -/
def EnvA (ε : ℕ → ℝ) : List AF → List ℝ → Prop
  | env, xs => ∀ i a, env[i]? = some a → AMem ε (getR xs i) a.c a.r a.R a.V

lemma getA_elim {env : List AF} {i : ℕ} {k : K} (h : getA env i k = true) :
    ∃ a, env[i]? = some a ∧ k a.c a.r a.R a.V = true := by
  induction env generalizing i with
  | nil => exact Bool.noConfusion h
  | cons a l ih =>
    cases i with
    | zero => exact ⟨a, rfl, h⟩
    | succ i => exact ih h

lemma dec_real (m k : ℕ) : (OfScientific.ofScientific m true k : ℝ) = (m : ℝ) / 10 ^ k := by
  rw [NNRatCast.ofScientific_eq_ite, if_pos rfl]
  simp

lemma evA_sound {ε : ℕ → ℝ} (hε : Unit4 ε) {env : List AF} {xs : List ℝ} (he : EnvA ε env xs) (e : E) :
    ∀ {k : K}, evA env e k = true → Next ε (eval xs e) k := by
  induction e with
  | var i =>
    intro k h
    obtain ⟨a, ha, hk⟩ := getA_elim (show getA env i k = true from h)
    exact ⟨_, _, _, _, hk, he i a ha⟩
  | zero => intro k h; exact ⟨_, _, _, _, h, amem_zero⟩
  | one => intro k h; exact ⟨_, _, _, _, h, amem_one⟩
  | nat n =>
    intro k h
    have h0 : fN (Nat.add (nat_lit 1329227995784915872903807060280344576) (Nat.mul n (nat_lit 1152921504606846976))) (fun c => k c (nat_lit 1) (nat_lit 1) (nat_lit 0)) = true := h
    obtain ⟨-, h⟩ := fN_elim h0
    refine ⟨_, _, _, _, h, amem_const ?_⟩
    have e : ((Nat.add 1329227995784915872903807060280344576 (Nat.mul n 1152921504606846976) : ℕ) : ℝ) =
        1329227995784915872903807060280344576 + n * 1152921504606846976 := by
      show ((1329227995784915872903807060280344576 + n * 1152921504606846976 : ℕ) : ℝ) = _
      push_cast; rfl
    rw [e]
    have e2 : eval xs (E.nat n) * 2 ^ 60 - ((1329227995784915872903807060280344576 + n * 1152921504606846976 : ℝ) - 2 ^ 120) = 0 := by
      show (n : ℝ) * 2 ^ 60 - _ = 0
      norm_num
    rw [e2]; norm_num
  | dec m d =>
    intro k h
    have h0 : fN (Nat.add (nat_lit 1329227995784915872903807060280344576) (Nat.div (Nat.mul m (nat_lit 1152921504606846976)) (Nat.pow (nat_lit 10) d))) (fun c => k c (nat_lit 1) (nat_lit 1) (nat_lit 0)) = true := h
    obtain ⟨-, h⟩ := fN_elim h0
    refine ⟨_, _, _, _, h, amem_const ?_⟩
    have e : ((Nat.add 1329227995784915872903807060280344576 (Nat.div (Nat.mul m 1152921504606846976) (Nat.pow 10 d)) : ℕ) : ℝ) =
        1329227995784915872903807060280344576 + ((m * 1152921504606846976 / 10 ^ d : ℕ) : ℝ) := by
      show ((1329227995784915872903807060280344576 + m * 1152921504606846976 / 10 ^ d : ℕ) : ℝ) = _
      rw [Nat.cast_add]; norm_num
    rw [e]
    have h10 : (0 : ℝ) < 10 ^ d := by positivity
    have e2 : eval xs (E.dec m d) = (m : ℝ) / 10 ^ d := dec_real m d
    have e3 : (m : ℝ) / 10 ^ d * 2 ^ 60 = ((m * 1152921504606846976 : ℕ) : ℝ) / ((10 ^ d : ℕ) : ℝ) := by push_cast; ring
    have h1 : ((m * 1152921504606846976 / 10 ^ d : ℕ) : ℝ) ≤ ((m * 1152921504606846976 : ℕ) : ℝ) / ((10 ^ d : ℕ) : ℝ) := Nat.cast_div_le
    have h2 : ((m * 1152921504606846976 : ℕ) : ℝ) / ((10 ^ d : ℕ) : ℝ) ≤ ((m * 1152921504606846976 / 10 ^ d : ℕ) : ℝ) + 1 := by
      rw [div_le_iff₀ (by positivity)]
      have : m * 1152921504606846976 ≤ (m * 1152921504606846976 / 10 ^ d + 1) * 10 ^ d := by
        have h1 := Nat.div_add_mod (m * 1152921504606846976) (10 ^ d)
        have h3 := Nat.mod_lt (m * 1152921504606846976) (show 0 < 10 ^ d by positivity)
        nlinarith
      exact_mod_cast this
    rw [e2, e3, abs_le]
    norm_num only
    constructor <;> linarith
  | neg a iha =>
    intro k h
    obtain ⟨c, r, R, V, h, hx⟩ := iha h
    exact aneg_sound h hx
  | add a b iha ihb =>
    intro k h
    obtain ⟨c, r, R, V, h, hx⟩ := iha h
    obtain ⟨c', r', R', V', h, hy⟩ := ihb h
    exact aadd_sound h hx hy
  | sub a b iha ihb =>
    intro k h
    obtain ⟨c, r, R, V, h, hx⟩ := iha h
    obtain ⟨c', r', R', V', h, hy⟩ := ihb h
    exact asub_sound h hx hy
  | mul a b iha ihb =>
    intro k h
    obtain ⟨c, r, R, V, h, hx⟩ := iha h
    obtain ⟨c', r', R', V', h, hy⟩ := ihb h
    exact amul_sound hε h hx hy
  | div a b iha ihb =>
    intro k h
    obtain ⟨c, r, R, V, h, hx⟩ := iha h
    obtain ⟨c', r', R', V', h, hy⟩ := ihb h
    obtain ⟨c', r', R', V', h, hy⟩ := ainv_sound hε h hy
    show Next ε (eval xs a / eval xs b) k
    rw [div_eq_mul_inv]
    exact amul_sound hε h hx hy
  | pow a n iha =>
    intro k h
    obtain ⟨c, r, R, V, h, hx⟩ := iha h
    exact apow_sound hε h hx

lemma snocA_eq (l : List AF) (a : AF) : snocA l a = l ++ [a] := by
  induction l with
  | nil => rfl
  | cons b l ih =>
    show b :: snocA l a = _
    rw [ih]; rfl

/-- the goals on the full environment -/
noncomputable def goalA (env : List AF) (goals : List E) : Bool :=
  List.rec (motive := fun _ => Bool) false (fun g _ ih =>
      cond (evA env g fun c r R V => tightA r R V fun R => Nat.ble (Nat.succ (Nat.add (nat_lit 1329227995784915872903807060280344576) R)) c) true ih) goals

lemma goalA_sound {ε : ℕ → ℝ} (hε : Unit4 ε) {env : List AF} {xs : List ℝ} (he : EnvA ε env xs) {goals : List E}
    (h : goalA env goals = true) : Some xs goals := by
  induction goals with
  | nil => exact Bool.noConfusion h
  | cons g gs ih =>
    apply some_cons
    rcases cond_elim h with ⟨hb, -⟩ | ⟨-, h⟩
    · left
      obtain ⟨c, r, R, V, h, hx⟩ := evA_sound hε he g hb
      obtain ⟨R', h, hx⟩ := tightA_sound h hx
      have hr := hx.radius hε
      have hl : 1329227995784915872903807060280344576 + R' + 1 ≤ c := ble_true h
      have hl' : (1329227995784915872903807060280344576 : ℝ) + R' + 1 ≤ c := by exact_mod_cast hl
      rw [abs_le] at hr
      have : (0 : ℝ) < eval xs g * 2 ^ 60 := by
        have := hr.1
        norm_num at this ⊢
        linarith
      exact pos_of_mul_pos_left this (by positivity)
    · right
      exact ih h

lemma leafA_sound {ε : ℕ → ℝ} (hε : Unit4 ε) {xs : List ℝ} {goals defs : List E} : ∀ {env : List AF}, EnvA ε env xs →
    DefsHold xs env.length defs → leafA goals defs env = true → Some xs goals := by
  induction defs with
  | nil =>
    intro env he _ h
    exact goalA_sound hε he h
  | cons d ds ih =>
    intro env he hd h
    obtain ⟨c, r, R, V, h, hx⟩ := evA_sound hε he d h
    obtain ⟨R', h, hx⟩ := tightA_sound h hx
    refine ih ?_ ?_ h
    · rw [snocA_eq]
      intro i a ha
      rcases lt_trichotomy i env.length with hi | hi | hi
      · rw [List.getElem?_append_left hi] at ha
        exact he i a ha
      · subst hi
        rw [List.getElem?_concat_length] at ha
        have : (⟨c, r, R', V⟩ : AF) = a := Option.some.inj ha
        rw [hd.1, ← this]
        exact hx
      · rw [List.getElem?_eq_none (by simp; omega)] at ha
        cases ha
    · rw [snocA_eq, List.length_append]
      exact hd.2

/-- middle of an interval, with offset -/
noncomputable def cOf (i : Iv) : ℕ := Nat.div (Nat.add (offZ i.lo) (offZ i.hi)) (nat_lit 2)
/-- half width of an interval, rounded up -/
noncomputable def hOf (i : Iv) : ℕ := Nat.succ (Nat.sub (offZ i.hi) (cOf i))

/-- the displacement of a variable, in units of the half width -/
noncomputable def eps : List Iv → List ℝ → ℕ → ℝ
  | i :: _, x :: _, 0 => max (-1) (min 1 ((x * 2 ^ 60 - (cOf i - 2 ^ 120)) / hOf i))
  | _ :: is, _ :: xs, n + 1 => eps is xs n
  | _, _, _ => 0

lemma eps_abs (box : List Iv) (xs : List ℝ) (n : ℕ) : |eps box xs n| ≤ 1 := by
  induction box generalizing xs n with
  | nil => simp [eps]
  | cons i is ih =>
    cases xs with
    | nil => simp [eps]
    | cons x xs =>
      cases n with
      | zero =>
        rw [abs_le]
        exact ⟨le_max_left _ _, max_le (by norm_num) (min_le_left _ _)⟩
      | succ n => exact ih xs n

lemma offZ_val {a : Z} (h : offZ a ≠ 0) : (offZ a : ℝ) - 2 ^ 120 = a.val := by
  cases a with
  | pos n =>
    have := off_add n
    show ((Nat.add 1329227995784915872903807060280344576 n : ℕ) : ℝ) - 2 ^ 120 = ((n : ℤ) : ℝ)
    rw [this]; simp
  | neg n =>
    have := off_sub n h
    show ((Nat.sub 1329227995784915872903807060280344576 n : ℕ) : ℝ) - 2 ^ 120 = ((-(n : ℤ) : ℤ) : ℝ)
    rw [this]; simp

lemma half_le {i : Iv} {x : ℝ} (hx : Mem x i) (hl : offZ i.lo ≠ 0) (hh : offZ i.hi ≠ 0) :
    |x * 2 ^ 60 - ((cOf i : ℝ) - 2 ^ 120)| ≤ (hOf i : ℝ) := by
  have e1 := offZ_val hl
  have e2 := offZ_val hh
  have hP : ((P : ℕ) : ℝ) = 2 ^ 60 := by norm_num [P]
  have h1 := hx.1
  have h2 := hx.2
  rw [hP, ← e1] at h1
  rw [hP, ← e2] at h2
  have c1 : 2 * cOf i ≤ offZ i.lo + offZ i.hi := Nat.mul_div_le _ 2
  have c2 : offZ i.lo + offZ i.hi ≤ 2 * cOf i + 1 := by
    have : cOf i = (offZ i.lo + offZ i.hi) / 2 := rfl
    omega
  have h3 : offZ i.hi + 1 ≤ hOf i + cOf i := by
    have : hOf i = (offZ i.hi - cOf i) + 1 := rfl
    omega
  have c1' : (2 : ℝ) * cOf i ≤ offZ i.lo + offZ i.hi := by exact_mod_cast c1
  have c2' : (offZ i.lo : ℝ) + offZ i.hi ≤ 2 * cOf i + 1 := by exact_mod_cast c2
  have h3' : (offZ i.hi : ℝ) + 1 ≤ hOf i + cOf i := by exact_mod_cast h3
  rw [abs_le]
  constructor <;> linarith

/-- places of the symbols -/
abbrev places : List ℕ := [(nat_lit 1), (nat_lit 28269553036454149273332760011886696253239742350009903329945699220681916416), (nat_lit 799167628880894011233688890827050574271641124522232614619944181664095165137859998750798362384253944616915694367080095461234681773897801038410285056), (nat_lit 22592111669665739975592870737637022906810831294812620197467215446901550642889587999246991367961839975767182923986271972624986374927027127581012424707895568851446368731861728964581056579941628221790058875830676242925879296)]

/-- the packed zero -/
abbrev ZERO4 : ℕ := 30030067315218800919884630782037027445247038374198014146711597563050526251539202817423174991700501936499153331398008085930794609064097249447852963385840787442865243867053871195754564810060504462506195678293680527951705716874876263568820844279851137519058944

lemma place_mem {ε : ℕ → ℝ} {X : ℝ} {c h j u : ℕ} (hu : places[j]? = some u)
    (hX : X * 2 ^ 60 - (c - 2 ^ 120) = h * ε j) : AMem ε X c 1 (Nat.succ h) (Nat.add ZERO4 (Nat.mul h u)) := by
  have hj : j < 4 := by
    by_contra hc
    rw [List.getElem?_eq_none (by simpa using hc)] at hu
    cases hu
  have hz : ((ZERO4 : ℕ) : ℤ) = pack OO OO OO OO := by unfold pack; norm_num
  have hnz : Nat.add ZERO4 (Nat.mul h u) ≠ 0 := by
    have : 0 < ZERO4 := by norm_num
    exact Nat.pos_iff_ne_zero.mp (Nat.lt_of_lt_of_le this (Nat.le_add_right _ _))
  have hV : ((Nat.add ZERO4 (Nat.mul h u) : ℕ) : ℤ) = pack OO OO OO OO + h * u := by
    show ((ZERO4 + h * u : ℕ) : ℤ) = _
    rw [Nat.cast_add, hz, Nat.cast_mul]
  have hc : |(h : ℤ)| = h := abs_of_nonneg (Int.natCast_nonneg h)
  have u0 : ((1 : ℕ) : ℤ) = pack 1 0 0 0 := by unfold pack; norm_num
  have key : ∀ a b c' d : ℤ, ((u : ℕ) : ℤ) = pack a b c' d → lin ε (h * a) (h * b) (h * c') (h * d) = h * ε j →
      |(h : ℤ) * a| + |(h : ℤ) * b| + |(h : ℤ) * c'| + |(h : ℤ) * d| = h →
      AMem ε X c 1 (Nat.succ h) (Nat.add ZERO4 (Nat.mul h u)) := by
    intro a b c' d hu hl ha
    refine ⟨h * a, h * b, h * c', h * d, Or.inr ⟨hnz, ?_⟩, ?_, ?_⟩
    · rw [hV, hu, pack_mul, pack_add]
      exact pack_congr (by ring) (by ring) (by ring) (by ring)
    · rw [hX, hl, sub_self, abs_zero]; norm_num
    · rw [ha]; push_cast; linarith
  have hj4 : j = 0 ∨ j = 1 ∨ j = 2 ∨ j = 3 := by omega
  rcases hj4 with rfl | rfl | rfl | rfl
  · have : (1 : ℕ) = u := Option.some.inj hu
    refine key 1 0 0 0 (by rw [← this]; unfold pack; norm_num) (by simp [lin]) (by simp)
  · have : _ = u := Option.some.inj hu
    refine key 0 1 0 0 (by rw [← this]; unfold pack; norm_num) (by simp [lin]) (by simp)
  · have : _ = u := Option.some.inj hu
    refine key 0 0 1 0 (by rw [← this]; unfold pack; norm_num) (by simp [lin]) (by simp)
  · have : _ = u := Option.some.inj hu
    refine key 0 0 0 1 (by rw [← this]; unfold pack; norm_num) (by simp [lin]) (by simp)

lemma envA_cons {ε : ℕ → ℝ} {a : AF} {l : List AF} {x : ℝ} {xs : List ℝ} (h : AMem ε x a.c a.r a.R a.V)
    (hl : EnvA ε l xs) : EnvA ε (a :: l) (x :: xs) := by
  intro i b hb
  cases i with
  | zero =>
    have : a = b := Option.some.inj hb
    rw [← this]; exact h
  | succ i => exact hl i b hb

lemma initA_sound (ε : ℕ → ℝ) (box : List Iv) : ∀ (xs : List ℝ) (j : ℕ) (us : List ℕ) (k : List AF → Bool), BoxMem box xs →
    us = places.drop j → (∀ n, ε (j + n) = eps box xs n) → initA box us k = true →
    ∃ env, k env = true ∧ EnvA ε env xs ∧ env.length = box.length := by
  induction box with
  | nil =>
    intro xs j us k _ _ _ h
    exact ⟨[], h, fun i a ha => by simp at ha, rfl⟩
  | cons i is ih =>
    intro xs j us k hb hus he h
    cases xs with
    | nil => exact hb.elim
    | cons x xs =>
      have h0 : (fN (offZ i.lo) fun lo => fN (offZ i.hi) fun hi =>
          fN (Nat.div (Nat.add lo hi) (nat_lit 2)) fun c => fN (Nat.succ (Nat.sub hi c)) fun h =>
          List.rec (motive := fun _ => Bool) (initA is [] fun l => k (⟨c, h, h, (nat_lit 0)⟩ :: l))
            (fun u us _ => fN (Nat.add (nat_lit 30030067315218800919884630782037027445247038374198014146711597563050526251539202817423174991700501936499153331398008085930794609064097249447852963385840787442865243867053871195754564810060504462506195678293680527951705716874876263568820844279851137519058944) (Nat.mul h u)) fun V =>
              initA is us fun l => k (⟨c, (nat_lit 1), Nat.succ h, V⟩ :: l)) us) = true := h
      obtain ⟨hl, h⟩ := fN_elim h0
      obtain ⟨hh, h⟩ := fN_elim h
      obtain ⟨-, h⟩ := fN_elim h
      obtain ⟨-, h⟩ := fN_elim h
      have hr := half_le hb.1 hl hh
      have he' : ∀ n, ε (j + 1 + n) = eps is xs n := by
        intro n
        have := he (n + 1)
        rw [show j + 1 + n = j + (n + 1) by ring, this]
        rfl
      cases us with
      | nil =>
        have hd : ([] : List ℕ) = places.drop (j + 1) := by
          rw [← List.tail_drop, ← hus]; rfl
        obtain ⟨env, hk, hm, hlen⟩ := ih xs (j + 1) [] _ hb.2 hd he' h
        refine ⟨_, hk, envA_cons ?_ hm, by rw [List.length_cons, hlen, List.length_cons]⟩
        exact amem_const hr
      | cons u us =>
        have hd : us = places.drop (j + 1) := by
          rw [← List.tail_drop, ← hus]; rfl
        have hu : places[j]? = some u := by
          have := congrArg List.head? hus
          rw [List.head?_drop] at this
          exact this.symm
        obtain ⟨-, h⟩ := fN_elim h
        obtain ⟨env, hk, hm, hlen⟩ := ih xs (j + 1) us _ hb.2 hd he' h
        refine ⟨_, hk, envA_cons ?_ hm, by rw [List.length_cons, hlen, List.length_cons]⟩
        refine place_mem (c := cOf i) (h := hOf i) hu ?_
        have e0 : ε j = max (-1) (min 1 ((x * 2 ^ 60 - (cOf i - 2 ^ 120)) / hOf i)) := he 0
        have hpos : (0 : ℝ) < hOf i := by exact_mod_cast Nat.succ_pos _
        rw [abs_le] at hr
        have h1 : (x * 2 ^ 60 - (cOf i - 2 ^ 120)) / hOf i ≤ 1 := by rw [div_le_one hpos]; exact hr.2
        have h2 : -1 ≤ (x * 2 ^ 60 - (cOf i - 2 ^ 120)) / hOf i := by rw [le_div_iff₀ hpos]; linarith [hr.1]
        rw [e0, min_eq_right h1, max_eq_right h2, mul_div_cancel₀ _ hpos.ne']

/-- A successful check proves, for every real point of the box whose defined atoms satisfy their equations, that one of
    the goals is positive. -/
theorem soundA {defs goals : List E} {t : T} {box : List Iv} (h : checkA defs goals t box = true)
    (xs : List ℝ) (hb : BoxMem box xs) (hd : DefsHold xs box.length defs) : Some xs goals := by
  induction t generalizing box with
  | leaf =>
    obtain ⟨env, hk, hm, hlen⟩ := initA_sound (eps box xs) box xs 0 _ _ hb rfl (fun n => by rw [Nat.zero_add]) h
    exact leafA_sound ⟨eps_abs _ _ _, eps_abs _ _ _, eps_abs _ _ _, eps_abs _ _ _⟩ hm (by rw [hlen]; exact hd) hk
  | node d l r ihl ihr =>
    have h' : cond (forceL (setL box d) (checkA defs goals l)) (forceL (setR box d) (checkA defs goals r)) false = true := h
    rw [forceL_eq, forceL_eq] at h'
    rcases cond_elim h' with ⟨h1, h2⟩ | ⟨-, h2⟩
    · rcases split_mem hb d with h4 | h4
      · exact ihl h1 h4 (by rw [setL_length]; exact hd)
      · exact ihr h2 h4 (by rw [setR_length]; exact hd)
    · cases h2

/-- the two halves of a box can be checked separately -/
lemma checkA_node (defs goals : List E) (d : ℕ) (l r : T) (box bl br : List Iv) (hl : setL box d = bl) (hr : setR box d = br)
    (h1 : checkA defs goals l bl = true) (h2 : checkA defs goals r br = true) : checkA defs goals (T.node d l r) box = true := by
  show cond (forceL (setL box d) (checkA defs goals l)) (forceL (setR box d) (checkA defs goals r)) false = true
  rw [forceL_eq, forceL_eq, hl, hr, h1, h2]
  rfl

end IA
end Ripple
