import Verif.Kron.Core
import Mathlib.Tactic.Ring
import Mathlib.Tactic.Linarith
import Mathlib.Tactic.FieldSimp
import Mathlib.Tactic.Positivity
import Mathlib.Algebra.BigOperators.Intervals
import Mathlib.Algebra.BigOperators.Ring.Finset

/-!
# Soundness of the checker for identities between rational functions
-/

set_option linter.unusedSimpArgs false
set_option linter.unusedVariables false

namespace Himalaya.Kron

/-! ### A base-`B` expansion with small digits that vanishes has only zero digits -/

theorem digits_zero {B : ℤ} (hB : 0 < B) (M : ℕ) (f : ℕ → ℤ) (hf : ∀ n, |f n| < B)
    (h : ∑ n ∈ Finset.range M, f n * B ^ n = 0) : ∀ n < M, f n = 0 := by
  induction M generalizing f with
  | zero => intro n hn; omega
  | succ M ih =>
    rw [Finset.sum_range_succ'] at h
    have e : ∑ k ∈ Finset.range M, f (k + 1) * B ^ (k + 1) = B * ∑ k ∈ Finset.range M, f (k + 1) * B ^ k := by
      rw [Finset.mul_sum]; refine Finset.sum_congr rfl fun k _ => ?_; ring
    rw [e] at h
    simp only [pow_zero, mul_one] at h
    have hd : B ∣ f 0 := ⟨-∑ k ∈ Finset.range M, f (k + 1) * B ^ k, by linarith⟩
    have h0 : f 0 = 0 := Int.eq_zero_of_abs_lt_dvd hd (hf 0)
    rw [h0, add_zero] at h
    have h1 := (mul_eq_zero.1 h).resolve_left hB.ne'
    intro n hn
    cases n with
    | zero => exact h0
    | succ n => exact ih (fun n => f (n + 1)) (fun n => hf _) h1 n (by omega)

/-- sum of `c * h e` over a list of pairs `(c, e)` -/
def ls {R : Type} [Ring R] (l : List (ℤ × ℕ)) (h : ℕ → R) : R := (l.map fun t => (t.1 : R) * h t.2).sum

/-- the coefficient of the power `n` -/
def cf : List (ℤ × ℕ) → ℕ → ℤ
  | [], _ => 0
  | t :: l, n => (if t.2 = n then t.1 else 0) + cf l n

theorem ls_eq {R : Type} [Ring R] (M : ℕ) (l : List (ℤ × ℕ)) (hl : ∀ t ∈ l, t.2 < M) (h : ℕ → R) :
    ls l h = ∑ n ∈ Finset.range M, (cf l n : R) * h n := by
  induction l with
  | nil => simp [ls, cf]
  | cons t l ih =>
    have := ih fun t ht => hl t (by simp [ht])
    simp only [ls, List.map_cons, List.sum_cons, cf] at this ⊢
    rw [this]
    simp only [Int.cast_add, add_mul, Finset.sum_add_distrib]
    congr 1
    rw [Finset.sum_eq_single t.2]
    · simp
    · intro b _ hb; rw [if_neg (Ne.symm hb)]; simp
    · intro hn; exact absurd (Finset.mem_range.2 (hl t (by simp))) hn

theorem cf_le (l : List (ℤ × ℕ)) (n : ℕ) : |cf l n| ≤ ((l.map fun t => t.1.natAbs).sum : ℕ) := by
  induction l with
  | nil => simp [cf]
  | cons t l ih =>
    simp only [cf, List.map_cons, List.sum_cons, Nat.cast_add]
    refine (abs_add_le _ _).trans (add_le_add ?_ ih)
    split
    · rw [Int.abs_eq_natAbs]
    · simp

theorem ls_zero {B : ℕ} (l : List (ℤ × ℕ)) (hN : (l.map fun t => t.1.natAbs).sum < B) (h0 : ls l (fun n => (B : ℤ) ^ n) = 0)
    (h : ℕ → ℝ) : ls l h = 0 := by
  obtain ⟨M, hM⟩ : ∃ M, ∀ t ∈ l, t.2 < M := by
    clear hN h0
    induction l with
    | nil => exact ⟨0, by simp⟩
    | cons t l ih =>
      obtain ⟨M, hM⟩ := ih
      refine ⟨max M (t.2 + 1), fun s hs => ?_⟩
      rcases List.mem_cons.1 hs with rfl | hs
      · omega
      · have := hM s hs; omega
  rw [ls_eq M l hM] at h0 ⊢
  have hB : (0 : ℤ) < B := by omega
  have hc : ∀ n, |cf l n| < (B : ℤ) := fun n => (cf_le l n).trans_lt (by exact_mod_cast hN)
  have := digits_zero hB M (cf l) hc (by simpa using h0)
  refine Finset.sum_eq_zero fun n hn => ?_
  rw [this n (Finset.mem_range.1 hn)]; simp

/-! ### Monomials -/

/-- `c * (atoms with exponents given by the digits of key) * m^em c^ec b^eb a^ea` -/
structure Mo where
  c : ℤ
  key : ℕ
  em : ℕ
  ec : ℕ
  eb : ℕ
  ea : ℕ

def Mo.mul (x y : Mo) : Mo := ⟨x.c * y.c, x.key + y.key, x.em + y.em, x.ec + y.ec, x.eb + y.eb, x.ea + y.ea⟩

/-- value of the monomial `key` in the atoms `j, …, j + n - 1` -/
noncomputable def kval (τ : ℕ → ℝ) : ℕ → ℕ → ℕ → ℝ
  | _, 0, _ => 1
  | j, n + 1, k => τ j ^ (k % 64) * kval τ (j + 1) n (k / 64)

def kwt (wt : ℕ → ℤ) : ℕ → ℕ → ℕ → ℤ
  | _, 0, _ => 0
  | j, n + 1, k => (k % 64 : ℕ) * wt j + kwt wt (j + 1) n (k / 64)

/-- all exponents are at most `d` -/
def small (d : ℕ) : ℕ → ℕ → Prop
  | 0, k => k = 0
  | n + 1, k => k % 64 ≤ d ∧ small d n (k / 64)

theorem small_mono {d e n k : ℕ} (h : d ≤ e) (hs : small d n k) : small e n k := by
  induction n generalizing k with
  | zero => exact hs
  | succ n ih => exact ⟨hs.1.trans h, ih hs.2⟩

theorem small_zero (d n : ℕ) : small d n 0 := by
  induction n with
  | zero => rfl
  | succ n ih => exact ⟨by simp, by simpa using ih⟩

theorem kval_zero (τ : ℕ → ℝ) (j n : ℕ) : kval τ j n 0 = 1 := by
  induction n generalizing j with
  | zero => rfl
  | succ n ih => simp [kval, ih]

theorem kwt_zero (wt : ℕ → ℤ) (j n : ℕ) : kwt wt j n 0 = 0 := by
  induction n generalizing j with
  | zero => rfl
  | succ n ih => simp [kwt, ih]

theorem key_add {d e n k l : ℕ} (h : d + e < 64) (hk : small d n k) (hl : small e n l) (τ : ℕ → ℝ) (wt : ℕ → ℤ) (j : ℕ) :
    small (d + e) n (k + l) ∧ kval τ j n (k + l) = kval τ j n k * kval τ j n l ∧
      kwt wt j n (k + l) = kwt wt j n k + kwt wt j n l := by
  induction n generalizing k l j with
  | zero => simp only [small] at hk hl; simp [small, kval, kwt, hk, hl]
  | succ n ih =>
    obtain ⟨k1, k2⟩ := hk
    obtain ⟨l1, l2⟩ := hl
    have e1 : (k + l) % 64 = k % 64 + l % 64 := by omega
    have e2 : (k + l) / 64 = k / 64 + l / 64 := by omega
    obtain ⟨i1, i2, i3⟩ := ih k2 l2 (j + 1)
    simp only [small, kval, kwt, e1, e2]
    refine ⟨⟨by omega, i1⟩, ?_, ?_⟩
    · rw [i2, pow_add]; ring
    · rw [i3]; push_cast; ring

theorem atom_key (i : ℕ) : ∀ n j, i < n → ∀ (τ : ℕ → ℝ) (wt : ℕ → ℤ),
    small 1 n (64 ^ i) ∧ kval τ j n (64 ^ i) = τ (j + i) ∧ kwt wt j n (64 ^ i) = wt (j + i) := by
  induction i with
  | zero =>
    intro n j h τ wt
    cases n with
    | zero => omega
    | succ n => simp [small, kval, kwt, small_zero, kval_zero, kwt_zero]
  | succ i ih =>
    intro n j h τ wt
    cases n with
    | zero => omega
    | succ n =>
      obtain ⟨a, b, c⟩ := ih n (j + 1) (by omega) τ wt
      have e1 : 64 ^ (i + 1) % 64 = 0 := by rw [pow_succ]; simp
      have e2 : 64 ^ (i + 1) / 64 = 64 ^ i := by rw [pow_succ]; simp
      simp only [small, kval, kwt, e1, e2, a, b, c]
      refine ⟨⟨by omega, trivial⟩, ?_, ?_⟩
      · simp; congr 1; omega
      · simp; congr 1; omega

/-! ### Lists of monomials and their integer images -/

section
variable (C : Cfg)

def code (x : Mo) : ℕ := x.em + C.rm * (x.ec + C.rc * x.eb)

theorem code_mul (x y : Mo) : code C (x.mul y) = code C x + code C y := by simp only [code, Mo.mul]; ring

/-- linear functionals of the two representations -/
def S (ts : List (ℕ × ℤ)) (g : ℕ → ℤ) : ℤ := (ts.map fun t => t.2 * g t.1).sum
def T (l : List Mo) (g : ℕ → ℤ) : ℤ := (l.map fun x => x.c * (C.B : ℤ) ^ code C x * g x.key).sum

noncomputable def V (τ : ℕ → ℝ) (ρ : ℕ → ℝ) (j n : ℕ) (l : List Mo) : ℝ :=
  (l.map fun x => (x.c : ℝ) * kval τ j n x.key * (ρ 3 ^ x.em * ρ 2 ^ x.ec * ρ 1 ^ x.eb * ρ 0 ^ x.ea)).sum

def Nm (l : List Mo) : ℕ := (l.map fun x => x.c.natAbs).sum

def lmul (l m : List Mo) : List Mo := l.flatMap fun x => m.map x.mul

theorem S_append (a b g) : S (a ++ b) g = S a g + S b g := by simp [S]
theorem S_cons (t ts g) : S (t :: ts) g = t.2 * g t.1 + S ts g := by simp [S]
theorem S_nil (g) : S [] g = 0 := rfl

theorem S_mrg (f : ℕ) (a b g) : S (mrg f a b) g = S a g + S b g := by
  induction f generalizing a b with
  | zero => exact S_append a b g
  | succ f ih =>
    cases a with
    | nil => simp [mrg, S_nil]
    | cons x a =>
      cases b with
      | nil => simp [mrg, S_nil]
      | cons y b =>
        simp only [mrg]
        split
        · simp only [S_cons, ih]; ring
        · rename_i h1
          split
          · simp only [S_cons, ih]; ring
          · rename_i h2
            have : x.1 = y.1 := le_antisymm (Nat.le_of_ble_eq_true h2) (Nat.le_of_ble_eq_true h1)
            simp only [S_cons, ih, this]; ring

theorem S_scale (k : ℕ) (v : ℤ) (a g) : S (scaleTs k v a) g = v * S a (fun i => g (i + k)) := by
  induction a with
  | nil => simp [scaleTs, S_nil]
  | cons t a ih => simp only [scaleTs, S_cons, ih]; ring

theorem S_mul (a b g) : S (mulTs a b) g = S a (fun i => S b (fun k => g (k + i))) := by
  induction a with
  | nil => simp [mulTs, S_nil]
  | cons t a ih => simp only [mulTs, S_mrg, S_scale, ih, S_cons]

theorem T_append (l m g) : T C (l ++ m) g = T C l g + T C m g := by simp [T]
theorem T_map (x : Mo) (m g) : T C (m.map x.mul) g = x.c * (C.B : ℤ) ^ code C x * T C m (fun k => g (k + x.key)) := by
  induction m with
  | nil => simp [T]
  | cons y m ih =>
    simp only [T, List.map_cons, List.sum_cons] at ih ⊢
    rw [ih, code_mul, pow_add]
    show _ * _ * _ * g (x.key + y.key) + _ = _
    rw [add_comm x.key]; ring

theorem T_mul (l m g) : T C (lmul l m) g = T C l (fun i => T C m (fun k => g (k + i))) := by
  induction l with
  | nil => simp [T, lmul]
  | cons x l ih =>
    have : lmul (x :: l) m = m.map x.mul ++ lmul l m := by simp [lmul]
    rw [this, T_append, T_map, ih]
    simp [T]

theorem Nm_append (l m) : Nm (l ++ m) = Nm l + Nm m := by simp [Nm]
theorem Nm_map (x : Mo) (m) : Nm (m.map x.mul) = x.c.natAbs * Nm m := by
  induction m with
  | nil => simp [Nm]
  | cons y m ih =>
    simp only [Nm, List.map_cons, List.sum_cons] at ih ⊢
    rw [ih, show (x.mul y).c = x.c * y.c from rfl, Int.natAbs_mul]; ring

theorem Nm_mul (l m) : Nm (lmul l m) = Nm l * Nm m := by
  induction l with
  | nil => simp [Nm, lmul]
  | cons x l ih =>
    have : lmul (x :: l) m = m.map x.mul ++ lmul l m := by simp [lmul]
    rw [this, Nm_append, Nm_map, ih]; simp [Nm]; ring

/-- bounds on the monomials of a list -/
def Good (wt : ℕ → ℤ) (j n dm dc : ℕ) (w : ℤ) (deg : ℕ) (l : List Mo) : Prop :=
  ∀ x ∈ l, x.em ≤ dm ∧ x.ec ≤ dc ∧ small deg n x.key ∧ ((x.em + x.ec + x.eb + x.ea : ℕ) : ℤ) + kwt wt j n x.key = w

theorem V_append (τ ρ j n l m) : V τ ρ j n (l ++ m) = V τ ρ j n l + V τ ρ j n m := by simp [V]

theorem V_mul {d e : ℕ} (h : d + e < 64) (τ ρ : ℕ → ℝ) (j n : ℕ) (l m : List Mo) (hl : ∀ x ∈ l, small d n x.key)
    (hm : ∀ x ∈ m, small e n x.key) : V τ ρ j n (lmul l m) = V τ ρ j n l * V τ ρ j n m := by
  induction l with
  | nil => simp [V, lmul]
  | cons x l ih =>
    have : lmul (x :: l) m = m.map x.mul ++ lmul l m := by simp [lmul]
    rw [this, V_append, ih fun y hy => hl y (by simp [hy])]
    have hx := hl x (by simp)
    have : V τ ρ j n (m.map x.mul) =
        (x.c : ℝ) * kval τ j n x.key * (ρ 3 ^ x.em * ρ 2 ^ x.ec * ρ 1 ^ x.eb * ρ 0 ^ x.ea) * V τ ρ j n m := by
      clear ih this
      induction m with
      | nil => simp [V]
      | cons y m ih =>
        have hy := hm y (by simp)
        have := ih fun z hz => hm z (by simp [hz])
        simp only [V, List.map_cons, List.sum_cons] at this ⊢
        rw [this]
        simp only [Mo.mul, (key_add h hx hy τ (fun _ => 0) j).2.1, pow_add, Int.cast_mul]
        ring
    rw [this]
    simp only [V, List.map_cons, List.sum_cons]; ring

theorem Good_mul {d e : ℕ} (h : d + e < 64) {wt : ℕ → ℤ} {j n dm dc dm' dc' : ℕ} {w w' : ℤ} {l m : List Mo}
    (hl : Good wt j n dm dc w d l) (hm : Good wt j n dm' dc' w' e m) :
    Good wt j n (dm + dm') (dc + dc') (w + w') (d + e) (lmul l m) := by
  intro z hz
  obtain ⟨x, hx, y, hy, rfl⟩ : ∃ x ∈ l, ∃ y ∈ m, x.mul y = z := by simpa [lmul] using hz
  obtain ⟨a1, a2, a3, a4⟩ := hl x hx
  obtain ⟨b1, b2, b3, b4⟩ := hm y hy
  obtain ⟨k1, -, k3⟩ := key_add h a3 b3 (fun _ => 0) wt j
  refine ⟨?_, ?_, k1, ?_⟩
  · simp only [Mo.mul]; omega
  · simp only [Mo.mul]; omega
  · simp only [Mo.mul, k3]; push_cast at a4 b4 ⊢; linarith

/-- the zero test -/
theorem V_zero {wt : ℕ → ℤ} {j n dm dc deg : ℕ} {w : ℤ} {l : List Mo} (hl : Good wt j n dm dc w deg l) (hN : Nm l < C.B)
    (hm : dm < C.rm) (hc : dc < C.rc) (h0 : ∀ g, T C l g = 0) (τ ρ : ℕ → ℝ) : V τ ρ j n l = 0 := by
  obtain ⟨M, hM0, hM⟩ : ∃ M, 0 < M ∧ ∀ x ∈ l, code C x < M := by
    clear hl hN h0
    induction l with
    | nil => exact ⟨1, by simp⟩
    | cons t l ih =>
      obtain ⟨M, h0, hM⟩ := ih
      refine ⟨max M (code C t + 1), by omega, fun s hs => ?_⟩
      rcases List.mem_cons.1 hs with rfl | hs
      · omega
      · have := hM s hs; omega
  set L : List (ℤ × ℕ) := l.map fun x => (x.c, code C x + M * x.key) with hL
  have e1 : (L.map fun t => t.1.natAbs).sum < C.B := by
    have : (L.map fun t => t.1.natAbs).sum = Nm l := by rw [hL, List.map_map]; rfl
    rw [this]; exact hN
  have e2 : ls L (fun n => ((C.B : ℕ) : ℤ) ^ n) = 0 := by
    have := h0 fun k => (C.B : ℤ) ^ (M * k)
    rw [← this]
    simp only [ls, T, hL, List.map_map]
    congr 1
    refine List.map_congr_left fun x _ => ?_
    simp only [Function.comp, pow_add, Int.cast_id]; ring
  set h : ℕ → ℝ := fun i =>
    kval τ j n (i / M) * (ρ 3 ^ (i % M % C.rm) * ρ 2 ^ (i % M / C.rm % C.rc) * ρ 1 ^ (i % M / C.rm / C.rc) *
      ρ 0 ^ (w - kwt wt j n (i / M) - ((i % M % C.rm + i % M / C.rm % C.rc + i % M / C.rm / C.rc : ℕ) : ℤ)).toNat) with hh
  have e3 := ls_zero L e1 e2 h
  rw [← e3]
  simp only [V, ls, hL, List.map_map]
  congr 1
  refine List.map_congr_left fun x hx => ?_
  obtain ⟨a1, a2, a3, a4⟩ := hl x hx
  have b := hM x hx
  have k1 : (code C x + M * x.key) / M = x.key := by
    rw [Nat.add_mul_div_left _ _ hM0, Nat.div_eq_of_lt b]; simp
  have k2 : (code C x + M * x.key) % M = code C x := by
    rw [Nat.add_mul_mod_self_left, Nat.mod_eq_of_lt b]
  have k3 : code C x % C.rm = x.em := by
    rw [code, Nat.add_mul_mod_self_left, Nat.mod_eq_of_lt (by omega)]
  have k4 : code C x / C.rm = x.ec + C.rc * x.eb := by
    rw [code, Nat.add_mul_div_left _ _ (by omega), Nat.div_eq_of_lt (by omega)]; simp
  have k5 : (x.ec + C.rc * x.eb) % C.rc = x.ec := by rw [Nat.add_mul_mod_self_left, Nat.mod_eq_of_lt (by omega)]
  have k6 : (x.ec + C.rc * x.eb) / C.rc = x.eb := by
    rw [Nat.add_mul_div_left _ _ (by omega), Nat.div_eq_of_lt (by omega)]; simp
  simp only [Function.comp, hh, k1, k2, k3, k4, k5, k6]
  have k7 : (w - kwt wt j n x.key - ((x.em + x.ec + x.eb : ℕ) : ℤ)).toNat = x.ea := by
    have : w - kwt wt j n x.key - ((x.em + x.ec + x.eb : ℕ) : ℤ) = x.ea := by push_cast at a4 ⊢; linarith
    rw [this]; simp
  rw [k7]; ring

end

end Himalaya.Kron
