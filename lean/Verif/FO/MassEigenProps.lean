import Verif.FO.MassEigen
import Verif.FO.OneLoopProps
import Mathlib.Tactic.Linarith

/-!
# Switches of the fixed-order calculator (C54)

Reference: each two-loop coupling order has a contribution (a 2x2 matrix that is computed by its own routine from the parameter
point); a switch adds or removes exactly this matrix and nothing else.
-/

set_option linter.unusedSectionVars false
set_option linter.unusedSimpArgs false

namespace Himalaya

open scoped Himalaya.FOps

section generic
variable {F : Type} [Add F] [Sub F] [Mul F] [Div F] [Neg F] [FOps F]
variable (X : Ext F) (L : LoopFns F) (T : TwoLoopFns F) (c : MassEigen F)

/-- the orders that are read by the fixed-order calculation -/
def Order.usedByFO : Order → Bool
  | .G32YT4 | .G32YB4 | .YT6 | .YTAU6 | .YTAU2YB4 | .YTAU4YB2 | .ONLY_AT_AS => true
  | _ => false

theorem two_congr {c c' : MassEigen F} (h : ∀ o : Order, o.usedByFO = true → c.orders o = c'.orders o)
    (hc : c' = { c with orders := c'.orders }) : c.two X L T = c'.two X L T := by
  have ha : c.onlyAtAs = c'.onlyAtAs := by unfold MassEigen.onlyAtAs; rw [h .ONLY_AT_AS rfl]
  have hm : c.momPart X L = c'.momPart X L := by
    unfold MassEigen.momPart MassEigen.momItPert MassEigen.momItNum MassEigen.oneGl MassEigen.deriv
    rw [ha, hc]; rfl
  have h4 : c.atAt T = c'.atAt T := by
    unfold MassEigen.atAt; rw [h .ONLY_AT_AS rfl, hc]
  have h1 : c.atAs T = c'.atAs T := by rw [hc]; rfl
  have h2 : c.abAs T = c'.abAs T := by rw [hc]; rfl
  have h3 : c.atauAtau T = c'.atauAtau T := by rw [hc]; rfl
  have h5 : c.abAtau T = c'.abAtau T := by rw [hc]; rfl
  unfold MassEigen.two
  rw [hm, h1, h2, h3, h4, h5, h .G32YT4 rfl, h .G32YB4 rfl, h .YT6 rfl, h .YTAU6 rfl, h .YTAU2YB4 rfl, h .YTAU4YB2 rfl]

/-- **C54, inert switches.** The orders that have no two-loop routine of their own (all one-loop orders, `YB6`, `YTAU2YT4`, `YT2YB4`,
`YB2YT4`) can be set to anything without changing the result. -/
theorem C54_inert_switches (o : Order)
    (ho : o ∉ [Order.G32YT4, .G32YB4, .YT6, .YTAU6, .YTAU2YB4, .YTAU4YB2, .ONLY_AT_AS]) (v : Int) :
    (c.setCorrection o v).calculateMh2 X L T = c.calculateMh2 X L T ∧ (c.setCorrection o v).two X L T = c.two X L T ∧
    (∀ p2, (c.setCorrection o v).one L p2 = c.one L p2) := by
  have hu : ∀ x : Order, x.usedByFO = true → (c.setCorrection o v).orders x = c.orders x := by
    intro x hx
    refine Flags.put_other _ _ ?_
    rintro rfl
    apply ho
    revert hx; cases x <;> simp [Order.usedByFO]
  have h2 : (c.setCorrection o v).two X L T = c.two X L T := two_congr X L T hu rfl
  refine ⟨?_, h2, fun _ => rfl⟩
  have ha : (c.setCorrection o v).onlyAtAs = c.onlyAtAs := by unfold MassEigen.onlyAtAs; rw [hu .ONLY_AT_AS rfl]
  have hg : (c.setCorrection o v).oneGl L = c.oneGl L := by unfold MassEigen.oneGl; rw [ha]; rfl
  unfold MassEigen.calculateMh2
  rw [h2, hg]; rfl

/-- **C54, histories.** Settings of different orders commute and a later setting of the same order replaces an earlier one: the
calculator only remembers the last value of each switch. -/
theorem C54_last_setting (h : List (Order × Int)) (o : Order) :
    (h.foldl (fun c s => c.setCorrection s.1 s.2) c).orders o =
      ((h.filter (fun s => s.1 = o)).getLast?.map Prod.snd).getD (c.orders o) := by
  induction h using List.reverseRecOn with
  | nil => rfl
  | append_singleton l a ih =>
    rw [List.foldl_append, List.filter_append]
    by_cases hao : a.1 = o
    · simp [hao, MassEigen.setCorrection, Flags.put]
    · simp only [List.foldl_cons, List.foldl_nil, hao, decide_false, List.filter_cons, List.filter_nil]
      rw [if_neg (by simp), List.append_nil, ← ih]
      exact Flags.put_other _ _ (fun h => hao h.symm)

/-- **C54, after construction.** The constructor sets every flag to 0 or 1; a fermion lighter than `10⁻¹⁰` GeV switches off every
order with its Yukawa coupling that has a routine. -/
theorem C54_constructor_flags {X : FExt F} {nan : F} {p : Params F} {onlyAt : Bool} {c : MassEigen F}
    (h : massEigen X nan p onlyAt = .ok c) :
    (∀ o, c.orders o = 0 ∨ c.orders o = 1) ∧
    (c.orders .ONLY_AT_AS = 1 ↔ onlyAt = true) ∧
    (FOps.lt (FOps.abs p.Mt) foEps = true → c.orders .G32YT4 = 0 ∧ c.orders .YT6 = 0) ∧
    (FOps.lt (FOps.abs p.Mb) foEps = true → c.orders .G32YB4 = 0 ∧ c.orders .YTAU2YB4 = 0 ∧ c.orders .YTAU4YB2 = 0) ∧
    (FOps.lt (FOps.abs p.Mtau) foEps = true → c.orders .YTAU6 = 0 ∧ c.orders .YTAU2YB4 = 0 ∧ c.orders .YTAU4YB2 = 0) ∧
    (onlyAt = true → c.orders .G32YB4 = 0 ∧ c.orders .YTAU6 = 0 ∧ c.orders .YTAU2YB4 = 0 ∧ c.orders .YTAU4YB2 = 0) ∧
    (FOps.lt (FOps.abs p.Mt) foEps = false → FOps.lt (FOps.abs p.Mb) foEps = false →
      c.orders .G32YT4 = 1 ∧ c.orders .YT6 = 1) := by
  have ho : c.orders = foOrders p onlyAt := by
    unfold massEigen at h
    cases onlyAt
    · simp only [Bool.false_eq_true, if_false] at h
      injection h with h; rw [← h]
    · simp only [if_true] at h
      split at h
      · cases h
      · injection h with h; rw [← h]
  rw [ho]
  unfold foOrders
  refine ⟨fun o => ?_, ?_, fun ha => ?_, fun ha => ?_, fun ha => ?_, fun ha => ?_, fun ha hb => ?_⟩
  · cases onlyAt <;> simp only [Bool.false_eq_true, if_false, if_true] <;> split_ifs <;> simp only [Flags.off_apply] <;>
      split_ifs <;> simp
  · cases onlyAt <;> simp only [Bool.false_eq_true, if_false, if_true] <;> split_ifs <;> simp [Flags.off_apply]
  · cases onlyAt <;> simp only [ha, Bool.false_eq_true, if_false, if_true] <;> split_ifs <;> simp [Flags.off_apply]
  · cases onlyAt <;> simp only [ha, Bool.false_eq_true, if_false, if_true] <;> split_ifs <;> simp [Flags.off_apply]
  · cases onlyAt <;> simp only [ha, Bool.false_eq_true, if_false, if_true] <;> split_ifs <;> simp [Flags.off_apply]
  · simp only [ha, if_true]; split_ifs <;> simp [Flags.off_apply]
  · cases onlyAt <;> simp only [ha, hb, Bool.false_eq_true, if_false, if_true] <;> split_ifs <;> simp [Flags.off_apply]

/-- **C54, finding.** A bottom quark lighter than `10⁻¹⁰` GeV also switches off the `O(α_t²)` correction, which does not vanish with
the bottom Yukawa coupling. -/
theorem C54_massless_bottom_drops_at2 {X : FExt F} {nan : F} {p : Params F} {onlyAt : Bool} {c : MassEigen F}
    (h : massEigen X nan p onlyAt = .ok c) (hb : FOps.lt (FOps.abs p.Mb) foEps = true) : c.orders .YT6 = 0 := by
  have ho : c.orders = foOrders p onlyAt := by
    unfold massEigen at h
    cases onlyAt
    · simp only [Bool.false_eq_true, if_false] at h
      injection h with h; rw [← h]
    · simp only [if_true] at h
      split at h
      · cases h
      · injection h with h; rw [← h]
  rw [ho]
  unfold foOrders
  cases onlyAt <;> simp only [hb, Bool.false_eq_true, if_false, if_true] <;> split_ifs <;> simp [Flags.off_apply]

/-- a parameter point with another bottom Yukawa coupling -/
def withYb (p : Params F) (y : F) : Params F := { p with Yd := fun i k => if i = 2 ∧ k = 2 then y else p.Yd i k }

/-- **C54, only_at masses.** With `only_at`, two input points that differ in nothing but the bottom Yukawa coupling get the same masses,
but keep their own bottom Yukawa coupling for the self-energies. -/
theorem C54_only_at_same_masses {X' : FExt F} {nan : F} {p : Params F} {y : F} {c c' : MassEigen F}
    (h : massEigen X' nan p true = .ok c) (h' : massEigen X' nan (withYb p y) true = .ok c') :
    c'.masses = c.masses ∧ c'.pars = withYb c.pars y ∧ c.pars = { p with g1 := 0, g2 := 0 } := by
  have e : thirdGen nan (makeGaugeless (withYb p y)) = thirdGen nan (makeGaugeless p) := rfl
  unfold massEigen at h h'
  simp only [if_true, make3rdGen] at h h'
  rw [e] at h'
  rcases hv : validate X'.toExt (thirdGen nan (makeGaugeless p)) with ⟨r, q⟩
  rw [hv] at h h'
  cases r with
  | error msg => simp at h
  | ok u =>
    simp only [Except.ok.injEq] at h h'
    subst h h'
    exact ⟨rfl, rfl, rfl⟩

end generic

section real
variable (X : Ext ℝ) (L : LoopFns ℝ) (T : TwoLoopFns ℝ) (c : MassEigen ℝ)

/-- reference: a switch is on -/
def on (v : Int) (m : ℝ) : ℝ := if v = 0 then 0 else m

/-- **C54.** Every element of the two-loop matrix is the momentum-iteration part plus the contributions of the orders that are
switched on. -/
theorem C54_two_loop_sum (e : Mat2 ℝ → ℝ) (he : e = Mat2.m00 ∨ e = Mat2.m01 ∨ e = Mat2.m10 ∨ e = Mat2.m11) :
    e (c.two X L T) = e (c.momPart X L) + on (c.orders .G32YT4) (e (c.atAs T)) + on (c.orders .G32YB4) (e (c.abAs T))
      + on (c.orders .YT6) (e (c.atAt T)) + on (c.orders .YTAU6) (e (c.atauAtau T))
      + (if c.orders .YTAU2YB4 = 0 ∧ c.orders .YTAU4YB2 = 0 then 0 else e (c.abAtau T)) := by
  have ad : ∀ a b : Mat2 ℝ, e (a + b) = e a + e b := by
    intro a b; rcases he with rfl | rfl | rfl | rfl <;> rfl
  have z : e (Mat2.const (@OfNat.ofNat ℝ 0 (FOps.instOfNat 0))) = 0 := by
    rcases he with rfl | rfl | rfl | rfl <;> simp [Mat2.const, real_ofNat]
  have st : ∀ (v : Int) (a b : Mat2 ℝ), e (if v ≠ 0 then a + b else a) = e a + on v (e b) := by
    intro v a b
    unfold on
    by_cases hv : v = 0
    · rw [if_neg (by simpa using hv), if_pos hv, add_zero]
    · rw [if_pos hv, if_neg hv, ad]
  unfold MassEigen.two
  simp only
  by_cases h : c.orders .YTAU2YB4 = 0 ∧ c.orders .YTAU4YB2 = 0
  · rw [if_neg (by simp [h.1, h.2]), if_pos h, st, st, st, st, ad, z]; ring
  · rw [if_pos (by by_contra hh; apply h; push Not at hh; exact hh), if_neg h, ad, st, st, st, st, ad, z]; ring

/-- the contribution that a switch controls on its own -/
noncomputable def MassEigen.contribution (T : TwoLoopFns ℝ) (c : MassEigen ℝ) : Order → Mat2 ℝ
  | .G32YT4 => c.atAs T
  | .G32YB4 => c.abAs T
  | .YT6 => c.atAt T
  | .YTAU6 => c.atauAtau T
  | _ => Mat2.const 0

/-- **C54, a switch removes exactly its contribution**, whatever the other settings are. -/
theorem C54_switch_removes_contribution (o : Order) (ho : o ∈ [Order.G32YT4, .G32YB4, .YT6, .YTAU6]) (e : Mat2 ℝ → ℝ)
    (he : e = Mat2.m00 ∨ e = Mat2.m01 ∨ e = Mat2.m10 ∨ e = Mat2.m11) :
    e ((c.setCorrection o 1).two X L T) - e ((c.setCorrection o 0).two X L T) = e (c.contribution T o) := by
  rw [C54_two_loop_sum X L T _ e he, C54_two_loop_sum X L T _ e he]
  have hm : (c.setCorrection o 1).momPart X L = (c.setCorrection o 0).momPart X L := by
    have : o ≠ .ONLY_AT_AS := by rintro rfl; simp at ho
    unfold MassEigen.momPart MassEigen.momItPert MassEigen.momItNum MassEigen.oneGl MassEigen.deriv MassEigen.onlyAtAs
    simp only [MassEigen.setCorrection]
    rw [Flags.put_other _ _ this.symm, Flags.put_other _ _ this.symm]; rfl
  rw [hm]
  simp only [List.mem_cons, List.not_mem_nil, or_false] at ho
  rcases ho with rfl | rfl | rfl | rfl <;>
    simp only [MassEigen.setCorrection, Flags.put, MassEigen.contribution, on, reduceCtorEq, if_false, if_true, one_ne_zero] <;>
    simp only [MassEigen.atAs, MassEigen.abAs, MassEigen.atAt, MassEigen.atauAtau, MassEigen.abAtau, Flags.put, reduceCtorEq, if_false] <;> ring

/-- **C54, shared routine.** `YTAU2YB4` and `YTAU4YB2` come from one routine: switching one of them off changes nothing while the
other is on. -/
theorem C54_shared_switch (h : c.orders .YTAU4YB2 ≠ 0) (v : Int) :
    (c.setCorrection .YTAU2YB4 v).two X L T = (c.setCorrection .YTAU2YB4 1).two X L T := by
  have e : ∀ v, (c.setCorrection .YTAU2YB4 v).orders .YTAU4YB2 ≠ 0 := fun v => h
  unfold MassEigen.two
  simp only [if_pos (Or.inr (e v)), if_pos (Or.inr (e 1))]
  rfl

/-- **C54, leading top contributions.** With `only_at`, the two-loop matrix contains only the `O(α_t α_s)` and the top part of the
`O(α_t²)` correction besides the momentum iteration. -/
theorem C54_only_at_two_loop {X' : FExt ℝ} {nan : ℝ} {p : Params ℝ} {c : MassEigen ℝ} (h : massEigen X' nan p true = .ok c)
    (e : Mat2 ℝ → ℝ) (he : e = Mat2.m00 ∨ e = Mat2.m01 ∨ e = Mat2.m10 ∨ e = Mat2.m11)
    (ht : 1 / 10 ^ 10 ≤ |p.Mt|) (hb : 1 / 10 ^ 10 ≤ |p.Mb|) :
    e (c.two X L T) = e (c.momPart X L) + e (c.atAs T) + e (c.atAt T) ∧ c.orders .ONLY_AT_AS = 1 := by
  have he0 : (foEps : ℝ) = 1 / 10 ^ 10 := by unfold foEps; rw [real_lit]; norm_num
  have f := C54_constructor_flags h
  have h1 := f.2.2.2.2.2.1 rfl
  have h2 := f.2.2.2.2.2.2 (by rw [real_lt_false, he0, real_abs]; exact ht) (by rw [real_lt_false, he0, real_abs]; exact hb)
  refine ⟨?_, f.2.1.2 rfl⟩
  rw [C54_two_loop_sum X L T c e he]
  simp [on, h1.1, h1.2.1, h1.2.2.1, h1.2.2.2, h2.1, h2.2]

private theorem acc' (l : List ℝ) : accumulate l = l.sum := by
  unfold accumulate
  rw [real_ofNat, List.sum_eq_foldl]; simp

/-- **C54, finding.** With `only_at` ("only alpha_t-enhanced contributions are calculated"; the code speaks of `yb = ytau = 0`) the
one-loop self-energies still contain the bottom Yukawa coupling of the input: for given masses and a gaugeless point, another coupling `y`
changes the (2,2) element by the difference of the two sbottom contributions. -/
theorem C54_only_at_depends_on_yb (s : Spec ℝ) (p : Params ℝ) (y p2 : ℝ) (h1 : p.g1 = 0) (h2 : p.g2 = 0) (hu : p.vu ≠ 0) :
    (deltaMh1L L s (withYb p y) p2).m11 - (deltaMh1L L s p p2).m11 =
      oneL * (otherOther 3 L p2 y p.mu p.vu s.M2Sb s.ZB - otherOther 3 L p2 (p.Yd 2 2) p.mu p.vu s.M2Sb s.ZB) := by
  simp only [deltaMh1L, acc', full22, List.sum_cons, List.sum_nil, real_const]
  rw [full22_16_yb h1 h2 hu, full22_16_yb (p := withYb p y) h1 h2 hu]
  have r0 : full22_0 L s (withYb p y) p2 = full22_0 L s p p2 := rfl
  have r1 : full22_1 L s (withYb p y) p2 = full22_1 L s p p2 := rfl
  have r2 : full22_2 L s (withYb p y) p2 = full22_2 L s p p2 := rfl
  have r3 : full22_3 L s (withYb p y) p2 = full22_3 L s p p2 := rfl
  have r4 : full22_4 L s (withYb p y) p2 = full22_4 L s p p2 := rfl
  have r5 : full22_5 L s (withYb p y) p2 = full22_5 L s p p2 := rfl
  have r6 : full22_6 L s (withYb p y) p2 = full22_6 L s p p2 := rfl
  have r7 : full22_7 L s (withYb p y) p2 = full22_7 L s p p2 := rfl
  have r8 : full22_8 L s (withYb p y) p2 = full22_8 L s p p2 := rfl
  have r9 : full22_9 L s (withYb p y) p2 = full22_9 L s p p2 := rfl
  have r10 : full22_10 L s (withYb p y) p2 = full22_10 L s p p2 := rfl
  have r11 : full22_11 L s (withYb p y) p2 = full22_11 L s p p2 := rfl
  have r12 : full22_12 L s (withYb p y) p2 = full22_12 L s p p2 := rfl
  have r13 : full22_13 L s (withYb p y) p2 = full22_13 L s p p2 := rfl
  have r14 : full22_14 L s (withYb p y) p2 = full22_14 L s p p2 := rfl
  have r15 : full22_15 L s (withYb p y) p2 = full22_15 L s p p2 := rfl
  have r17 : full22_17 L s (withYb p y) p2 = full22_17 L s p p2 := rfl
  have r18 : full22_18 L s (withYb p y) p2 = full22_18 L s p p2 := rfl
  have r19 : full22_19 L s (withYb p y) p2 = full22_19 L s p p2 := rfl
  have r20 : full22_20 L s (withYb p y) p2 = full22_20 L s p p2 := rfl
  have r21 : full22_21 L s (withYb p y) p2 = full22_21 L s p p2 := rfl
  have r22 : full22_22 L s (withYb p y) p2 = full22_22 L s p p2 := rfl
  have r23 : full22_23 L s (withYb p y) p2 = full22_23 L s p p2 := rfl
  rw [r0, r1, r2, r3, r4, r5, r6, r7, r8, r9, r10, r11, r12, r13, r14, r15, r17, r18, r19, r20, r21, r22, r23]
  have ey : (withYb p y).Yd 2 2 = y := rfl
  have e1 : (withYb p y).mu = p.mu := rfl
  have e2 : (withYb p y).vu = p.vu := rfl
  rw [ey, e1, e2]
  unfold oneL
  simp only [Const.value]
  ring

/-- The difference does not vanish: with orthogonal sbottom mixing, `B₀ = 1` and `A₀ = 0` it is `-3 μ² (y² - y_b²)/(4π)²`. -/
theorem C54_only_at_depends_on_yb_witness (p2 y mu v : ℝ) (M : Vec2 ℝ) (Z : Mat2 ℝ) (h0 : Z.m00 ^ 2 + Z.m10 ^ 2 = 1)
    (h1 : Z.m01 ^ 2 + Z.m11 ^ 2 = 1) (h2 : Z.m00 * Z.m01 + Z.m10 * Z.m11 = 0) :
    otherOther 3 ⟨fun _ => 0, fun _ _ _ => 1, fun _ _ => 0⟩ p2 y mu v M Z = -3 * mu ^ 2 * y ^ 2 := by
  have q : (Z.m00 * Z.m01 + Z.m00 * Z.m01) ^ 2 + 2 * (Z.m00 * Z.m11 + Z.m01 * Z.m10) ^ 2 + (Z.m10 * Z.m11 + Z.m10 * Z.m11) ^ 2 = 2 := by
    have : (Z.m00 * Z.m01 + Z.m00 * Z.m01) ^ 2 + 2 * (Z.m00 * Z.m11 + Z.m01 * Z.m10) ^ 2 + (Z.m10 * Z.m11 + Z.m10 * Z.m11) ^ 2
        = 2 * (Z.m00 ^ 2 + Z.m10 ^ 2) * (Z.m01 ^ 2 + Z.m11 ^ 2) + 2 * (Z.m00 * Z.m01 + Z.m10 * Z.m11) ^ 2 := by ring
    rw [this, h0, h1, h2]; norm_num
  simp only [otherOther, tadSum, pairSum, cOther, Mat2.at, if_true, one_ne_zero, if_false]
  linear_combination (-(3/2) * mu ^ 2 * y ^ 2) * q

/-- Points to which the statements about construction apply: every point with positive soft masses and VEVs and given masses. -/
theorem massEigen_exists (X' : FExt ℝ) (nan : ℝ) (p : Params ℝ) (onlyAt : Bool) (hs : softMassesNegative p = false) (hG : 0 ≤ p.MG)
    (hu : 0 < p.vu) (hd : 0 < p.vd) : ∃ c, massEigen X' nan p onlyAt = .ok c := by
  cases onlyAt
  · exact ⟨_, rfl⟩
  · unfold massEigen make3rdGen
    have z : ((@OfNat.ofNat ℝ 0 (FOps.instOfNat 0))) = 0 := by rw [real_ofNat]; simp
    have hn : ∀ x : ℝ, FOps.isNaN x = false := fun _ => rfl
    obtain ⟨q, hv⟩ : ∃ q, validate X'.toExt (thirdGen nan (makeGaugeless p)) = (.ok (), q) := by
      refine ⟨_, validate_of_ok ⟨hs, ?_, hn _, ?_, hn _, ?_, _, _, _, rfl, rfl, rfl, rfl⟩⟩
      · rw [real_lt_false, z]; exact hG
      · rw [real_le_false, z]; exact hu
      · rw [real_le_false, z]; exact hd
    simp only [if_true]
    rw [hv]
    exact ⟨_, rfl⟩

/-- a point with a non-zero bottom Yukawa coupling and quark masses above the cut -/
example (X' : FExt ℝ) : ∃ (p : Params ℝ) (c : MassEigen ℝ), massEigen X' 0 p true = .ok c ∧ p.Yd 2 2 ≠ 0 ∧ p.vu ≠ 0 ∧
    1 / 10 ^ 10 ≤ |p.Mt| ∧ 1 / 10 ^ 10 ≤ |p.Mb| := by
  let m : Mat3 ℝ := fun _ _ => 1
  let p : Params ℝ := { examplePoint with
    mq2 := m, mu2 := m, md2 := m, ml2 := m, me2 := m, MG := 1, vu := 1, vd := 1, Yd := m, Mt := 1, Mb := 1 }
  have hm : FOps.lt (minCoeff m) (@OfNat.ofNat ℝ 0 (FOps.instOfNat 0)) = false := by
    have : minCoeff m = 1 := by
      unfold minCoeff
      simp [m]
    rw [this, real_lt_false, real_ofNat]; norm_num
  obtain ⟨c, hc⟩ := massEigen_exists X' 0 p true (by simp only [softMassesNegative, p, hm, Bool.or_self]) (by norm_num [p]) (by norm_num [p])
    (by norm_num [p])
  exact ⟨p, c, hc, by norm_num [p, m], by norm_num [p], by norm_num [p], by norm_num [p]⟩

end real
end Himalaya
