import Verif.Li2.CSpec

/-!
# The series of the complex dilogarithm
-/

set_option linter.dupNamespace false
set_option linter.unusedSimpArgs false
set_option linter.unusedVariables false

namespace Himalaya.Li2
open Complex Set Filter Topology

/-! ### polynomials with rational coefficients -/

/-- value of `Σ c_k w^k` -/
noncomputable def ev : List ℚ → ℂ → ℂ
  | [], _ => 0
  | c :: l, w => (c : ℂ) + w * ev l w
def ladd : List ℚ → List ℚ → List ℚ
  | [], m => m
  | l, [] => l
  | a :: l, b :: m => (a + b) :: ladd l m
def lsmul (c : ℚ) (l : List ℚ) : List ℚ := l.map (c * ·)
def lmul : List ℚ → List ℚ → List ℚ
  | [], _ => []
  | a :: l, m => ladd (lsmul a m) (0 :: lmul l m)
def labs : List ℚ → ℚ → ℚ
  | [], _ => 0
  | c :: l, r => |c| + r * labs l r

theorem ev_add (l m : List ℚ) (w : ℂ) : ev (ladd l m) w = ev l w + ev m w := by
  induction l generalizing m with
  | nil => simp [ladd, ev]
  | cons a l ih =>
    cases m with
    | nil => simp [ladd, ev]
    | cons b m => simp only [ladd, ev, ih]; push_cast; ring
theorem ev_smul (c : ℚ) (l : List ℚ) (w : ℂ) : ev (lsmul c l) w = c * ev l w := by
  induction l with
  | nil => simp [lsmul, ev]
  | cons a l ih =>
    simp only [lsmul, List.map_cons, ev]
    rw [show List.map (fun x => c * x) l = lsmul c l from rfl, ih]; push_cast; ring
theorem ev_mul (l m : List ℚ) (w : ℂ) : ev (lmul l m) w = ev l w * ev m w := by
  induction l with
  | nil => simp [lmul, ev]
  | cons a l ih => simp only [lmul, ev_add, ev_smul, ev, ih]; push_cast; ring
theorem ev_append (l m : List ℚ) (w : ℂ) : ev (l ++ m) w = ev l w + w ^ l.length * ev m w := by
  induction l with
  | nil => simp [ev]
  | cons a l ih => simp only [List.cons_append, ev, ih, List.length_cons]; ring
theorem ev_range (f : ℕ → ℚ) (n : ℕ) (w : ℂ) : ev ((List.range n).map f) w = ∑ j ∈ Finset.range n, (f j : ℂ) * w ^ j := by
  induction n with
  | zero => simp [ev]
  | succ n ih => rw [List.range_succ, List.map_append, ev_append, ih, Finset.sum_range_succ]; simp [ev]; ring
theorem norm_ev_le (l : List ℚ) {w : ℂ} {r : ℚ} (h : ‖w‖ ≤ r) : ‖ev l w‖ ≤ labs l r := by
  induction l with
  | nil => simp [ev, labs]
  | cons a l ih =>
    simp only [ev, labs]
    push_cast
    refine (norm_add_le _ _).trans (add_le_add ?_ ?_)
    · rw [← Complex.ofReal_ratCast, Complex.norm_real, Real.norm_eq_abs]
    · rw [norm_mul]
      exact mul_le_mul h ih (norm_nonneg _) ((norm_nonneg _).trans h)

/-! ### the generating function of the Bernoulli numbers -/

/-- derivative of the series of the code -/
def bernQ : List ℚ := [1, -1/2, 3 * (1/36), 0, 5 * (-1/3600), 0, 7 * (1/211680), 0, 9 * (-1/10886400), 0, 11 * (1/526901760), 0,
  13 * (-4.0647616451442255e-11), 0, 15 * 8.9216910204564526e-13, 0, 17 * (-1.9939295860721076e-14), 0, 19 * 4.5189800296199182e-16]

/-- Taylor polynomial of `(e^w - 1)/w` -/
def expE : List ℚ := (List.range 31).map fun j => 1 / ((j + 1).factorial : ℚ)

theorem expE_close {w : ℂ} (h0 : w ≠ 0) (hw : ‖w‖ ≤ 21/20) : ‖(exp w - 1) / w - ev expE w‖ ≤ 1 / 10 ^ 30 * ‖w‖ ^ 20 := by
  have h := exp_bound' (x := w) (n := 32) (by rw [div_le_iff₀ (by norm_num)]; norm_num; linarith)
  have e : (exp w - 1) / w - ev expE w = (exp w - ∑ m ∈ Finset.range 32, w ^ m / (m.factorial : ℂ)) / w := by
    rw [expE, ev_range, Finset.sum_range_succ' _ 31, eq_div_iff h0, sub_mul, div_mul_cancel₀ _ h0, Finset.sum_mul]
    have : ∑ i ∈ Finset.range 31, ((1 / ((i + 1).factorial : ℚ) : ℚ) : ℂ) * w ^ i * w = ∑ k ∈ Finset.range 31, w ^ (k + 1) / ((k + 1).factorial : ℂ) := by
      refine Finset.sum_congr rfl fun i _ => ?_
      push_cast; ring
    rw [this]; simp; ring
  rw [e, norm_div, div_le_iff₀ (norm_pos_iff.2 h0)]
  refine h.trans ?_
  have hn := norm_nonneg w
  have e2 : ‖w‖ ^ 32 = ‖w‖ ^ 20 * ‖w‖ * ‖w‖ ^ 11 := by ring
  have h11 : ‖w‖ ^ 11 ≤ (21/20) ^ 11 := pow_le_pow_left₀ hn hw 11
  rw [e2]
  have hp : 0 ≤ ‖w‖ ^ 20 * ‖w‖ := by positivity
  have hf : (21/20 : ℝ) ^ 11 / (32 : ℕ).factorial * 2 ≤ 1 / 10 ^ 30 := by norm_num [Nat.factorial]
  calc ‖w‖ ^ 20 * ‖w‖ * ‖w‖ ^ 11 / (32 : ℕ).factorial * 2 = ‖w‖ ^ 20 * ‖w‖ * (‖w‖ ^ 11 / (32 : ℕ).factorial * 2) := by ring
    _ ≤ ‖w‖ ^ 20 * ‖w‖ * (1 / 10 ^ 30) := by
        refine mul_le_mul_of_nonneg_left (le_trans ?_ hf) hp
        gcongr
    _ = _ := by ring

/-- `w/(e^w - 1)` against the polynomial of the code -/
theorem bern_close {w : ℂ} (h0 : w ≠ 0) (hw : ‖w‖ ≤ 21/20) : ‖w / (exp w - 1) - ev bernQ w‖ ≤ 1.65e-15 * ‖w‖ ^ 20 + 6e-26 := by
  have hR : ‖w‖ ≤ ((21/20 : ℚ) : ℝ) := by push_cast; exact hw
  have hE := expE_close h0 hw
  have hn := norm_nonneg w
  have h20 : ‖w‖ ^ 20 ≤ (21/20) ^ 20 := pow_le_pow_left₀ hn hw 20
  obtain ⟨E, hEd⟩ : ∃ E, E = (exp w - 1) / w := ⟨_, rfl⟩
  rw [← hEd] at hE
  -- lower bound of E
  have hlow : 0.23 ≤ ‖E‖ := by
    have h1 : ‖ev (expE.tail) w‖ ≤ (labs expE.tail (21/20) : ℚ) := norm_ev_le _ hR
    have h2 : labs expE.tail (21/20) * (21/20) ≤ 0.7692 := by decide +kernel
    have h3 : ev expE w = 1 + w * ev expE.tail w := by
      have : expE = 1 :: expE.tail := by decide +kernel
      conv_lhs => rw [this]
      simp [ev]
    have h4 : ‖w * ev expE.tail w‖ ≤ 0.7692 := by
      rw [norm_mul, mul_comm]
      refine (mul_le_mul h1 hR hn ((norm_nonneg _).trans h1)).trans ?_
      rw [← Rat.cast_mul]
      exact ((Rat.cast_le (K := ℝ)).2 h2).trans (by norm_num)
    have h5 : (1:ℝ) ≤ ‖E‖ + ‖E - ev expE w‖ + ‖w * ev expE.tail w‖ := by
      have : (1 : ℂ) = E - (E - ev expE w) - w * ev expE.tail w := by rw [h3]; ring
      calc (1:ℝ) = ‖(1:ℂ)‖ := by simp
        _ = ‖E - (E - ev expE w) - w * ev expE.tail w‖ := by rw [← this]
        _ ≤ ‖E - (E - ev expE w)‖ + ‖w * ev expE.tail w‖ := norm_sub_le _ _
        _ ≤ _ := by gcongr; exact norm_sub_le _ _
    have h6 : 1 / 10 ^ 30 * ‖w‖ ^ 20 ≤ 1e-6 := by
      have : (21/20 : ℝ) ^ 20 ≤ 3 := by norm_num
      have := h20.trans this
      norm_num at this ⊢; linarith
    rw [norm_mul] at h4 h5
    norm_num at h4 h6 ⊢; linarith
  have hE0 : E ≠ 0 := by intro e; rw [e] at hlow; norm_num at hlow
  have hx : exp w - 1 ≠ 0 := by intro e; rw [e, zero_div] at hEd; exact hE0 hEd
  -- product
  have hprod : ‖1 - ev expE w * ev bernQ w‖ ≤ 3.75e-16 * ‖w‖ ^ 20 + 1.2e-26 := by
    have e1 : ev expE w * ev bernQ w - 1 = ev (ladd [-1] (lmul expE bernQ)) w := by
      rw [ev_add, ev_mul]; simp [ev]; ring
    obtain ⟨c, hc⟩ : ∃ c, c = ladd [-1] (lmul expE bernQ) := ⟨_, rfl⟩
    have hl : (c.take 20).length = 20 := by rw [hc]; decide +kernel
    have e2 : ev c w = ev (c.take 20) w + w ^ 20 * ev (c.drop 20) w := by
      conv_lhs => rw [← List.take_append_drop 20 c, ev_append, hl]
    have b1 : labs (c.take 20) (21/20) ≤ 1.2e-26 := by rw [hc]; decide +kernel
    have b2 : labs (c.drop 20) (21/20) ≤ 3.75e-16 := by rw [hc]; decide +kernel
    rw [norm_sub_rev, e1, ← hc, e2]
    refine (norm_add_le _ _).trans ?_
    rw [norm_mul, norm_pow]
    have a1 : ‖ev (c.take 20) w‖ ≤ 1.2e-26 := (norm_ev_le _ hR).trans (((Rat.cast_le (K := ℝ)).2 b1).trans (by norm_num))
    have a2 : ‖ev (c.drop 20) w‖ ≤ 3.75e-16 := (norm_ev_le _ hR).trans (((Rat.cast_le (K := ℝ)).2 b2).trans (by norm_num))
    have := mul_le_mul_of_nonneg_left a2 (pow_nonneg hn 20)
    linarith
  have hQ : ‖ev bernQ w‖ ≤ 2 := by
    have : labs bernQ (21/20) ≤ 2 := by decide +kernel
    exact (norm_ev_le _ hR).trans (by exact_mod_cast this)
  have e : w / (exp w - 1) - ev bernQ w = (1 - ev expE w * ev bernQ w - (E - ev expE w) * ev bernQ w) / E := by
    rw [eq_div_iff hE0, sub_mul]
    have : w / (exp w - 1) * E = 1 := by rw [hEd]; field_simp
    rw [this]; ring
  rw [e, norm_div, div_le_iff₀ (by linarith [norm_pos_iff.2 hE0])]
  have h1 : ‖1 - ev expE w * ev bernQ w - (E - ev expE w) * ev bernQ w‖ ≤ 3.75e-16 * ‖w‖ ^ 20 + 1.2e-26 + 1 / 10 ^ 30 * ‖w‖ ^ 20 * 2 := by
    refine (norm_sub_le _ _).trans (add_le_add hprod ?_)
    rw [norm_mul]
    exact mul_le_mul hE hQ (norm_nonneg _) (by positivity)
  refine h1.trans ?_
  have hp : 0 ≤ 1.65e-15 * ‖w‖ ^ 20 + 6e-26 := by positivity
  have := mul_le_mul_of_nonneg_left hlow hp
  refine le_trans ?_ this
  have : 0 ≤ ‖w‖ ^ 20 := by positivity
  norm_num; linarith

end Himalaya.Li2
