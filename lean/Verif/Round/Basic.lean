import Mathlib.Data.Real.Basic
import Mathlib.Algebra.Order.Ring.Abs
import Mathlib.Tactic.Linarith
import Mathlib.Tactic.Ring
import Mathlib.Tactic.Positivity
/-!
# Rounded arithmetic

The models of the C++ code are written for an arbitrary type of numbers.  Here that type is the real numbers with operations that
round: after every operation the exact result `x` is replaced by `fl x`, with `|fl x - x| ≤ u |x|` (the standard model of floating
point arithmetic; `u = 2⁻⁵³` for `double` with rounding to nearest, without overflow and underflow).  Nothing else is known of `fl`.
-/
namespace Verif.Round

/-- A rounding with relative error at most `u`. -/
structure Rnd where
  u : ℝ
  fl : ℝ → ℝ
  nonneg : 0 ≤ u
  err : ∀ x, |fl x - x| ≤ u * |x|

/-- A number of the machine. -/
structure FP (R : Rnd) where
  val : ℝ

variable {R : Rnd}

instance : Add (FP R) := ⟨fun a b => ⟨R.fl (a.val + b.val)⟩⟩
instance : Sub (FP R) := ⟨fun a b => ⟨R.fl (a.val - b.val)⟩⟩
instance : Mul (FP R) := ⟨fun a b => ⟨R.fl (a.val * b.val)⟩⟩
noncomputable instance : Div (FP R) := ⟨fun a b => ⟨R.fl (a.val / b.val)⟩⟩
/-- The constants 0, 1, 2, 3, 4, ... of the program are represented exactly. -/
instance : NatCast (FP R) := ⟨fun n => ⟨(n : ℝ)⟩⟩

@[simp] theorem add_val (a b : FP R) : (a + b).val = R.fl (a.val + b.val) := rfl
@[simp] theorem sub_val (a b : FP R) : (a - b).val = R.fl (a.val - b.val) := rfl
@[simp] theorem mul_val (a b : FP R) : (a * b).val = R.fl (a.val * b.val) := rfl
@[simp] theorem div_val (a b : FP R) : (a / b).val = R.fl (a.val / b.val) := rfl
@[simp] theorem nat_val (n : ℕ) : ((n : FP R)).val = (n : ℝ) := rfl

theorem fl_zero : R.fl 0 = 0 := by
  have := R.err 0
  simpa using this

/-- What `k` roundings can do: the factor `(1 + u)^k - 1`. -/
def gam (R : Rnd) (k : ℕ) : ℝ := (1 + R.u) ^ k - 1

theorem one_le_pow (k : ℕ) : 1 ≤ (1 + R.u) ^ k := one_le_pow₀ (by linarith [R.nonneg])

theorem gam_nonneg (k : ℕ) : 0 ≤ gam R k := by
  have := one_le_pow (R := R) k
  unfold gam
  linarith

theorem gam_zero : gam R 0 = 0 := by simp [gam]

theorem gam_mono {k l : ℕ} (h : k ≤ l) : gam R k ≤ gam R l := by
  have : (1 + R.u) ^ k ≤ (1 + R.u) ^ l := pow_le_pow_right₀ (by linarith [R.nonneg]) h
  unfold gam
  linarith

theorem gam_succ (k : ℕ) : gam R (k + 1) = gam R k + R.u * (1 + gam R k) := by
  unfold gam
  rw [pow_succ]
  ring

theorem gam_add (k l : ℕ) : gam R (k + l) = gam R k + gam R l + gam R k * gam R l := by
  unfold gam
  rw [pow_add]
  ring

/-- `a` is `x` up to `k` roundings relative to the size `A`. -/
def Err (R : Rnd) (k : ℕ) (a x A : ℝ) : Prop := |a - x| ≤ gam R k * A ∧ |x| ≤ A

theorem Err.size_nonneg {k : ℕ} {a x A : ℝ} (h : Err R k a x A) : 0 ≤ A := (abs_nonneg x).trans h.2

theorem Err.exact (x : ℝ) : Err R 0 x x |x| := ⟨by simp [gam_zero], le_rfl⟩

theorem Err.exact_le {x A : ℝ} (h : |x| ≤ A) : Err R 0 x x A := ⟨by simp [gam_zero], h⟩

theorem Err.mono {k l : ℕ} {a x A : ℝ} (h : Err R k a x A) (hl : k ≤ l) : Err R l a x A :=
  ⟨h.1.trans (mul_le_mul_of_nonneg_right (gam_mono hl) h.size_nonneg), h.2⟩

theorem Err.bound {k : ℕ} {a x A : ℝ} (h : Err R k a x A) : |a| ≤ (1 + gam R k) * A := by
  have h1 : |a| ≤ |a - x| + |x| := by simpa using abs_add_le (a - x) x
  have := h.1
  have := h.2
  linarith

theorem Err.round {k : ℕ} {a x A : ℝ} (h : Err R k a x A) : Err R (k + 1) (R.fl a) x A := by
  refine ⟨?_, h.2⟩
  have h1 : |R.fl a - x| ≤ |R.fl a - a| + |a - x| := abs_sub_le _ _ _
  have h2 := R.err a
  have h3 : R.u * |a| ≤ R.u * ((1 + gam R k) * A) := mul_le_mul_of_nonneg_left h.bound R.nonneg
  rw [gam_succ]
  have := h.1
  linarith

theorem Err.add' {k : ℕ} {a x A b y B : ℝ} (h : Err R k a x A) (h' : Err R k b y B) : Err R k (a + b) (x + y) (A + B) := by
  refine ⟨?_, (abs_add_le x y).trans (add_le_add h.2 h'.2)⟩
  have : a + b - (x + y) = (a - x) + (b - y) := by ring
  rw [this]
  refine (abs_add_le _ _).trans ?_
  have := h.1
  have := h'.1
  linarith

theorem Err.neg {k : ℕ} {a x A : ℝ} (h : Err R k a x A) : Err R k (-a) (-x) A := by
  refine ⟨?_, by rw [abs_neg]; exact h.2⟩
  rw [← abs_neg]
  convert h.1 using 2
  ring

theorem Err.mul' {k l : ℕ} {a x A b y B : ℝ} (h : Err R k a x A) (h' : Err R l b y B) :
    Err R (k + l) (a * b) (x * y) (A * B) := by
  refine ⟨?_, by rw [abs_mul]; exact mul_le_mul h.2 h'.2 (abs_nonneg _) h.size_nonneg⟩
  have : a * b - x * y = (a - x) * b + x * (b - y) := by ring
  rw [this, gam_add]
  refine (abs_add_le _ _).trans ?_
  rw [abs_mul, abs_mul]
  have h1 : |a - x| * |b| ≤ gam R k * A * ((1 + gam R l) * B) :=
    mul_le_mul h.1 h'.bound (abs_nonneg _) (mul_nonneg (gam_nonneg _) h.size_nonneg)
  have h2 : |x| * |b - y| ≤ A * (gam R l * B) := mul_le_mul h.2 h'.1 (abs_nonneg _) h.size_nonneg
  calc _ ≤ gam R k * A * ((1 + gam R l) * B) + A * (gam R l * B) := add_le_add h1 h2
    _ = _ := by ring

/-- Addition of machine numbers. -/
theorem Err.add {k : ℕ} {a b : FP R} {x A y B : ℝ} (h : Err R k a.val x A) (h' : Err R k b.val y B) :
    Err R (k + 1) (a + b).val (x + y) (A + B) := (h.add' h').round

theorem Err.sub {k : ℕ} {a b : FP R} {x A y B : ℝ} (h : Err R k a.val x A) (h' : Err R k b.val y B) :
    Err R (k + 1) (a - b).val (x - y) (A + B) := by
  have := (h.add' h'.neg).round
  rwa [← sub_eq_add_neg, ← sub_eq_add_neg] at this

theorem Err.mul {k l : ℕ} {a b : FP R} {x A y B : ℝ} (h : Err R k a.val x A) (h' : Err R l b.val y B) :
    Err R (k + l + 1) (a * b).val (x * y) (A * B) := (h.mul' h').round

/-- Division by an exact number. -/
theorem Err.divNat {k : ℕ} {a : FP R} {x A : ℝ} (h : Err R k a.val x A) (n : ℕ) :
    Err R (k + 1) (a / (n : FP R)).val (x / n) (A / n) := by
  have h2 : Err R 0 ((n : ℝ)⁻¹) ((n : ℝ)⁻¹) ((n : ℝ)⁻¹) := Err.exact_le (by rw [abs_inv, Nat.abs_cast])
  have := (h.mul' h2).round
  simpa [div_eq_mul_inv] using this

/-- The difference of two given numbers is relatively accurate. -/
theorem Err.diff (a b : FP R) : Err R 1 (a - b).val (a.val - b.val) |a.val - b.val| := (Err.exact _).round

theorem Err.sum2 (a b : FP R) : Err R 1 (a + b).val (a.val + b.val) |a.val + b.val| := (Err.exact _).round

theorem Err.nat (n : ℕ) : Err R 0 ((n : FP R)).val (n : ℝ) (n : ℝ) := Err.exact_le (by simp)

theorem Err.of_abs {k : ℕ} {a x A : ℝ} (h : Err R k a x |A|) (hA : 0 ≤ A) : Err R k a x A := by rwa [abs_of_nonneg hA] at h

/-! ### Explicit size -/

/-- The usual bound `k u / (1 - k u)`. -/
theorem gam_le {k : ℕ} (h : k * R.u < 1) : gam R k ≤ k * R.u / (1 - k * R.u) := by
  rw [le_div_iff₀ (by linarith)]
  induction k with
  | zero => simp [gam_zero]
  | succ k ih =>
    have hu := R.nonneg
    push_cast at h ⊢
    have hk : (k : ℝ) * R.u < 1 := by nlinarith
    have i := ih hk
    have hg := gam_nonneg (R := R) k
    rw [gam_succ]
    have hku : 0 ≤ (k : ℝ) * R.u := by positivity
    nlinarith [mul_nonneg hu hg, mul_nonneg hku (mul_nonneg hu hg), mul_nonneg hu (mul_nonneg hu hg), mul_nonneg hku hu,
      mul_nonneg hu hu]

/-- For `double` numbers (`u = 2⁻⁵³`), up to a million roundings: relative error below `2⁻³²`. -/
theorem gam_double (hu : R.u = 1 / 2 ^ 53) {k : ℕ} (hk : k ≤ 2 ^ 20) : gam R k ≤ 1 / 2 ^ 32 := by
  refine (gam_mono hk).trans ((gam_le ?_).trans ?_)
  · rw [hu]; norm_num
  · rw [hu]; norm_num

end Verif.Round
