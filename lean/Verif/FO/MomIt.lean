import Verif.FO.MassEigen
import Verif.FO.OneLoopProps
import Verif.Misc.Props
import Mathlib.Tactic.Linarith

/-!
# Momentum iteration (C35)

The specification is the exact sequence of momenta `p₀, p₁, …` with `p_{k+1} = ` lightest eigenvalue of tree-level plus one-loop
matrix at momentum `p_k`, written as a function iterate; it does not mention the loop of the model.
-/

set_option linter.unusedSectionVars false

namespace Himalaya

open scoped Himalaya.FOps

section generic
variable {F : Type} [Add F] [Sub F] [Mul F] [Div F] [Neg F] [FOps F]
variable (M : F → Mat2 F) (lam : Mat2 F → F) (goal : F)

/-- the exact sequence of momenta -/
def momentum (M : F → Mat2 F) (lam : Mat2 F → F) (p0 : F) (k : ℕ) : F := (fun p => lam (M p))^[k] p0

theorem momentum_succ (p0 : F) (k : ℕ) : momentum M lam p0 (k + 1) = lam (M (momentum M lam p0 k)) :=
  Function.iterate_succ_apply' _ _ _

/-- state of the loop after `k` passes -/
def MomReach (p0 : F) (D0 : Mat2 F) (st : MomState F) : Prop :=
  st.p2 = momentum M lam p0 st.n ∧
  (st.n = 0 → st.dmh = D0 ∧ st.conv = false) ∧
  (∀ k, st.n = k + 1 → st.dmh = M (momentum M lam p0 k) ∧
    st.conv = Misc.isEqualRel (momentum M lam p0 (k + 1)) (momentum M lam p0 k) goal) ∧
  (∀ k, k + 1 < st.n → Misc.isEqualRel (momentum M lam p0 (k + 1)) (momentum M lam p0 k) goal = false)

theorem momBody_reach {p0 : F} {D0 : Mat2 F} {st : MomState F} (h : MomReach M lam goal p0 D0 st) (hc : st.conv = false) :
    MomReach M lam goal p0 D0 (momBody M lam goal st) := by
  obtain ⟨h1, h2, h3, h4⟩ := h
  have e : (momBody M lam goal st).p2 = momentum M lam p0 (st.n + 1) := by
    rw [momentum_succ, ← h1]; rfl
  refine ⟨e, ?_, ?_, ?_⟩
  · intro h; simp [momBody] at h
  · intro k hk
    have hk' : st.n = k := by simpa [momBody] using hk
    subst hk'
    refine ⟨?_, ?_⟩
    · rw [← h1]; rfl
    · rw [← h1, momentum_succ, ← h1]; rfl
  · intro k hk
    have hk' : k < st.n := by simpa [momBody] using hk
    rcases Nat.lt_or_ge (k + 1) st.n with h | h
    · exact h4 k h
    · have hk2 : st.n = k + 1 := by omega
      rw [← (h3 k hk2).2]; exact hc

theorem momLoop_reach (p0 : F) (D0 : Mat2 F) (max : Int) (st : MomState F) (h : MomReach M lam goal p0 D0 st)
    (hn : (st.n : Int) ≤ Max.max max 0) :
    MomReach M lam goal p0 D0 (momLoop M lam goal max st) ∧ ((momLoop M lam goal max st).n : Int) ≤ Max.max max 0 ∧
    ((momLoop M lam goal max st).conv = true ∨ max ≤ ((momLoop M lam goal max st).n : Int)) := by
  induction st using momLoop.induct (M := M) (lam := lam) (goal := goal) (max := max) with
  | case1 st hc ih =>
    rw [momLoop, if_pos hc]
    refine ih (momBody_reach M lam goal h hc.1) ?_
    simp only [momBody]
    push_cast
    have := hc.2
    omega
  | case2 st hc =>
    rw [momLoop, if_neg hc]
    refine ⟨h, hn, ?_⟩
    by_cases hb : st.conv = true
    · exact Or.inl hb
    · right
      have : st.conv = false := by simpa using hb
      by_contra hlt
      exact hc ⟨this, by omega⟩

end generic

noncomputable section real

open Real

/-- agreement of two numbers to a relative precision, in words: `is_equal_rel` (C44) -/
def CloseRel (a b goal : ℝ) : Prop :=
  |a - b| ≤ 1 / 2 ^ 52 ∨ (min |a| |b| < 1 / 2 ^ 52 ∧ |a - b| ≤ goal) ∨
    (1 / 2 ^ 52 ≤ min |a| |b| ∧ |a - b| ≤ goal * max |a| |b|)


theorem closeRel_iff (a b goal : ℝ) : Misc.isEqualRel a b goal = true ↔ CloseRel a b goal := Misc.C44_is_equal_rel a b goal

variable (X : Ext ℝ) (L : LoopFns ℝ) (c : MassEigen ℝ)

/-- The self-consistency map of the pole-mass equation: momentum ↦ first eigenvalue of tree-level plus one-loop mass matrix. -/
def poleMap (p2 : ℝ) : ℝ := (fsDiag X (c.tree + c.one L p2)).1.x0

/-- the sequence of momenta, starting at the tree-level mass -/
def momentumSeq (k : ℕ) : ℝ := (poleMap X L c)^[k] c.masses.M2hh.x0

theorem momentumSeq_eq (k : ℕ) : momentumSeq X L c k =
    momentum (fun p2 => c.tree + c.one L p2) (fun m => (fsDiag X m).1.x0) c.masses.M2hh.x0 k := rfl

theorem momentumSeq_succ (k : ℕ) : momentumSeq X L c (k + 1) = poleMap X L c (momentumSeq X L c k) :=
  Function.iterate_succ_apply' _ _ _

/-- final state of the loop -/
def finalState (goal : ℝ) (max : Int) : MomState ℝ :=
  momLoop (fun p2 => c.tree + c.one L p2) (fun m => (fsDiag X m).1.x0) goal max
    ⟨Mat2.const (@OfNat.ofNat ℝ 0 (FOps.instOfNat 0)), c.masses.M2hh.x0, 0, false⟩

theorem finalState_reach (goal : ℝ) (max : Int) :
    MomReach (fun p2 => c.tree + c.one L p2) (fun m => (fsDiag X m).1.x0) goal c.masses.M2hh.x0
      (Mat2.const (@OfNat.ofNat ℝ 0 (FOps.instOfNat 0))) (finalState X L c goal max) ∧
    ((finalState X L c goal max).n : Int) ≤ Max.max max 0 ∧
    ((finalState X L c goal max).conv = true ∨ max ≤ ((finalState X L c goal max).n : Int)) :=
  momLoop_reach (fun p2 => c.tree + c.one L p2) (fun m => (fsDiag X m).1.x0) goal c.masses.M2hh.x0
    (Mat2.const (@OfNat.ofNat ℝ 0 (FOps.instOfNat 0))) max
    ⟨Mat2.const (@OfNat.ofNat ℝ 0 (FOps.instOfNat 0)), c.masses.M2hh.x0, 0, false⟩
    ⟨rfl, fun _ => ⟨rfl, rfl⟩, fun k h => by simp at h, fun k h => by simp at h⟩ (by simp)

theorem mat2_cancel (a b d : Mat2 ℝ) : a + b - a - d = b - d := by
  show Mat2.mk _ _ _ _ = Mat2.mk _ _ _ _
  congr 1
  · show a.m00 + b.m00 - a.m00 - d.m00 = b.m00 - d.m00; ring
  · show a.m01 + b.m01 - a.m01 - d.m01 = b.m01 - d.m01; ring
  · show a.m10 + b.m10 - a.m10 - d.m10 = b.m10 - d.m10; ring
  · show a.m11 + b.m11 - a.m11 - d.m11 = b.m11 - d.m11; ring

/-- **C35.** For every parameter point, every loop functions, every precision goal and every positive iteration limit, the
iteration ends after some number `N` of passes with `1 ≤ N ≤ max`; the result is the difference of the one-loop matrices at the
momentum `p_{N-1}` and at the tree-level mass; no earlier pair of successive momenta agreed to the goal; and either the last two do
or the limit was exhausted. -/
theorem C35_momentum_iteration (goal : ℝ) (max : Int) (hmax : 1 ≤ max) :
    ∃ N : ℕ, 1 ≤ N ∧ (N : Int) ≤ max ∧
      c.momItNum X L goal max = c.one L (momentumSeq X L c (N - 1)) - c.one L c.masses.M2hh.x0 ∧
      (∀ k, 1 ≤ k → k < N → ¬ CloseRel (momentumSeq X L c k) (momentumSeq X L c (k - 1)) goal) ∧
      (CloseRel (momentumSeq X L c N) (momentumSeq X L c (N - 1)) goal ∨ (N : Int) = max) := by
  obtain ⟨⟨-, h0, h1, h2⟩, hn, hc⟩ := finalState_reach X L c goal max
  have hst : c.momItNum X L goal max = (finalState X L c goal max).dmh - c.tree - c.one L c.masses.M2hh.x0 := rfl
  generalize finalState X L c goal max = st at *
  have hm : Max.max max 0 = max := by omega
  rw [hm] at hn
  have hpos : 1 ≤ st.n := by
    by_contra hlt
    have hz : st.n = 0 := by omega
    have := (h0 hz).2
    rcases hc with hc | hc
    · rw [this] at hc; cases hc
    · omega
  obtain ⟨k, hk⟩ : ∃ k, st.n = k + 1 := ⟨st.n - 1, by omega⟩
  obtain ⟨hd, hv⟩ := h1 k hk
  refine ⟨st.n, hpos, hn, ?_, ?_, ?_⟩
  · rw [hst, hd, hk, Nat.add_sub_cancel, momentumSeq_eq]
    exact mat2_cancel _ _ _
  · intro j hj hjn
    obtain ⟨i, rfl⟩ : ∃ i, j = i + 1 := ⟨j - 1, by omega⟩
    have := h2 i hjn
    rw [Nat.add_sub_cancel, ← closeRel_iff, momentumSeq_eq, momentumSeq_eq, this]
    simp
  · rcases hc with hc | hc
    · left
      rw [hk, Nat.add_sub_cancel, ← closeRel_iff, momentumSeq_eq, momentumSeq_eq, ← hv, hc]
    · right; omega

/-- **C35, first pass.** With a limit of one pass the momentum iteration contributes nothing. -/
theorem C35_single_pass (goal : ℝ) : c.momItNum X L goal 1 = c.one L c.masses.M2hh.x0 - c.one L c.masses.M2hh.x0 := by
  obtain ⟨N, h1, h2, h3, -⟩ := C35_momentum_iteration X L c goal 1 le_rfl
  have : N = 1 := by omega
  subst this
  exact h3

/-- **C35, limit zero.** An iteration limit of zero or less does not switch the iteration off: the returned "two-loop" matrix is
minus the tree-level and one-loop matrices. -/
theorem C35_zero_limit (goal : ℝ) (max : Int) (hmax : max ≤ 0) :
    c.momItNum X L goal max = Mat2.const 0 - c.tree - c.one L c.masses.M2hh.x0 := by
  unfold MassEigen.momItNum
  simp only
  rw [momLoop, if_neg (by rintro ⟨-, h⟩; simp at h; omega)]
  simp only [real_ofNat, Nat.cast_zero]

/-- **C35, convergence.** If the pole-mass map is a contraction, the iteration converges as soon as the limit exceeds the number of
passes that the contraction needs to bring successive momenta within `2⁻⁵²`, whatever the precision goal. -/
theorem C35_contraction_converges (goal q : ℝ) (max : Int) (hq0 : 0 ≤ q)
    (hcon : ∀ a b, |poleMap X L c a - poleMap X L c b| ≤ q * |a - b|) (n : ℕ) (hn : (n : Int) + 1 ≤ max)
    (hsmall : q ^ n * |poleMap X L c c.masses.M2hh.x0 - c.masses.M2hh.x0| ≤ 1 / 2 ^ 52) :
    ∃ N : ℕ, 1 ≤ N ∧ N ≤ n + 1 ∧
      c.momItNum X L goal max = c.one L (momentumSeq X L c (N - 1)) - c.one L c.masses.M2hh.x0 ∧
      CloseRel (momentumSeq X L c N) (momentumSeq X L c (N - 1)) goal := by
  have step : ∀ k, |momentumSeq X L c (k + 1) - momentumSeq X L c k| ≤
      q ^ k * |poleMap X L c c.masses.M2hh.x0 - c.masses.M2hh.x0| := by
    intro k
    induction k with
    | zero => rw [momentumSeq_succ]; simp [momentumSeq]
    | succ k ih =>
      rw [momentumSeq_succ, momentumSeq_succ X L c k]
      refine (hcon _ _).trans ?_
      rw [pow_succ]
      calc q * |poleMap X L c (momentumSeq X L c k) - momentumSeq X L c k|
          ≤ q * (q ^ k * |poleMap X L c c.masses.M2hh.x0 - c.masses.M2hh.x0|) := by
            apply mul_le_mul_of_nonneg_left _ hq0
            rw [← momentumSeq_succ]; exact ih
        _ = _ := by ring
  obtain ⟨N, h1, h2, h3, h4, h5⟩ := C35_momentum_iteration X L c goal max (by omega)
  have hclose : CloseRel (momentumSeq X L c (n + 1)) (momentumSeq X L c n) goal := Or.inl ((step n).trans hsmall)
  have hN : N ≤ n + 1 := by
    by_contra hlt
    exact h4 (n + 1) (by omega) (by omega) (by simpa using hclose)
  refine ⟨N, h1, hN, h3, ?_⟩
  rcases h5 with h5 | h5
  · exact h5
  · have : N = n + 1 := by omega
    subst this
    simpa using hclose

/-- **C35, distance to the exact solution.** For a contraction with constant `q < 1` and an exact solution `p*` of the pole equation,
the momentum reached after `k` passes is within `q^k |p₀ - p*|` of it. -/
theorem C35_contraction_error (q pstar : ℝ) (hq0 : 0 ≤ q)
    (hcon : ∀ a b, |poleMap X L c a - poleMap X L c b| ≤ q * |a - b|) (hfix : poleMap X L c pstar = pstar) (k : ℕ) :
    |momentumSeq X L c k - pstar| ≤ q ^ k * |c.masses.M2hh.x0 - pstar| := by
  induction k with
  | zero => simp [momentumSeq]
  | succ k ih =>
    rw [momentumSeq_succ, pow_succ]
    have h := hcon (momentumSeq X L c k) pstar
    rw [hfix] at h
    calc _ ≤ q * |momentumSeq X L c k - pstar| := h
      _ ≤ q * (q ^ k * |c.masses.M2hh.x0 - pstar|) := mul_le_mul_of_nonneg_left ih hq0
      _ = _ := by ring

/-- The loop really iterates: for the map `p ↦ p/2 + 1` started at 0 with precision 0.3 three passes are made (momenta 1, 3/2, 7/4),
well within a limit of 100. -/
example : (momLoop (fun p : ℝ => Mat2.const (p / 2 + 1)) (fun m => m.m00) (3 / 10) 100 ⟨Mat2.const 0, 0, 0, false⟩).n = 3 ∧
    (momLoop (fun p : ℝ => Mat2.const (p / 2 + 1)) (fun m => m.m00) (3 / 10) 100 ⟨Mat2.const 0, 0, 0, false⟩).p2 = 7 / 4 := by
  have e1 : Misc.isEqualRel (1 : ℝ) 0 (3 / 10) = false := by
    rw [Bool.eq_false_iff]; intro h; rw [closeRel_iff] at h; unfold CloseRel at h; norm_num at h
  have e2 : Misc.isEqualRel (3 / 2 : ℝ) 1 (3 / 10) = false := by
    rw [Bool.eq_false_iff]; intro h; rw [closeRel_iff] at h; unfold CloseRel at h
    norm_num [abs_of_pos] at h
  have e3 : Misc.isEqualRel (7 / 4 : ℝ) (3 / 2) (3 / 10) = true := by
    rw [closeRel_iff]; unfold CloseRel; right; right
    norm_num [abs_of_pos]
  have b1 : momBody (fun p : ℝ => Mat2.const (p / 2 + 1)) (fun m => m.m00) (3 / 10) ⟨Mat2.const 0, 0, 0, false⟩ =
      ⟨Mat2.const 1, 1, 1, false⟩ := by
    simp [momBody, Mat2.const, e1]
  have b2 : momBody (fun p : ℝ => Mat2.const (p / 2 + 1)) (fun m => m.m00) (3 / 10) ⟨Mat2.const 1, 1, 1, false⟩ =
      ⟨Mat2.const (3 / 2), 3 / 2, 2, false⟩ := by
    simp only [momBody, Mat2.const]
    rw [show (1 / 2 + 1 : ℝ) = 3 / 2 by norm_num, e2]
  have b3 : momBody (fun p : ℝ => Mat2.const (p / 2 + 1)) (fun m => m.m00) (3 / 10) ⟨Mat2.const (3 / 2), 3 / 2, 2, false⟩ =
      ⟨Mat2.const (7 / 4), 7 / 4, 3, true⟩ := by
    simp only [momBody, Mat2.const]
    rw [show (3 / 2 / 2 + 1 : ℝ) = 7 / 4 by norm_num, e3]
  rw [momLoop, if_pos ⟨rfl, by norm_num⟩, b1, momLoop, if_pos ⟨rfl, by norm_num⟩, b2, momLoop, if_pos ⟨rfl, by norm_num⟩, b3,
    momLoop, if_neg (by simp)]
  exact ⟨rfl, rfl⟩

/-- The contraction hypothesis is met at every gaugeless point for vanishing loop functions (the self-energy then does not depend on
the momentum). -/
example (h1 : c.pars.g1 = 0) (h2 : c.pars.g2 = 0) (hu : c.pars.vu ≠ 0) (hd : c.pars.vd ≠ 0) (hf : FermionMasses c.masses c.pars) :
    ∃ L : LoopFns ℝ, ∀ a b, |poleMap X L c a - poleMap X L c b| ≤ (1 / 2) * |a - b| := by
  refine ⟨⟨fun _ => 0, fun _ _ _ => 0, fun _ _ => 0⟩, fun a b => ?_⟩
  have : ∀ a, c.one ⟨fun _ => 0, fun _ _ _ => 0, fun _ _ => 0⟩ a = c.one ⟨fun _ => 0, fun _ _ _ => 0, fun _ _ => 0⟩ 0 := by
    intro a
    unfold MassEigen.one
    rw [full_eq_yuk h1 h2 hu hd hf, full_eq_yuk h1 h2 hu hd hf]
    simp [yuk11, yuk12, yuk22, ferm, ownOwn, ownOther, otherOther, pairSum, tadSum]
  unfold poleMap
  rw [this a, this b, sub_self, abs_zero]
  positivity

end real
end Himalaya
