import Verif.EFT.Cont

/-!
# C56 at the level of `getThresholdCorrection`
-/

set_option linter.unusedSimpArgs false
set_option linter.unusedVariables false

namespace Himalaya.Cont
open Filter Topology

variable (T : ThrFns ℝ) (c : TcObj ℝ) (n : Int) (s : Scheme) {o : ThrOrder}

theorem pow2_sq (x : ℝ) : Himalaya.pow2 x = x ^ 2 := by unfold Himalaya.pow2; ring

theorem withMu_val (u : ℝ) : (withMu c u).p.mu2 2 2 = u := by simp [withMu, Mat3.set22]

/-- **C56 (equal stop masses).** The `MQ3_EQ_MU3` case at `mu2(2,2) = mq2(2,2)` is the limit of the `GENERAL` case as
`mu2(2,2)` approaches `mq2(2,2)`, for every order, scheme and setting of the logarithm switch. -/
theorem C56_equal_stops (hT : ∀ x < 1, T.dilog x = Li2.Li2 x) (hq : 0 < c.p.mq2 2 2) (hG : c.p.MG ≠ 0)
    (hne : c.p.MG ^ 2 ≠ c.p.mq2 2 2) (ho : o ∈ limitOrders) :
    LimitOf (fun u => ((withMu c u).setLimit .general).thr T o s n) (c.p.mq2 2 2)
      (((withMu c (c.p.mq2 2 2)).setLimit .qu).thr T o s n) := by
  set q := c.p.mq2 2 2 with hqd
  have hne' : -q + |c.p.MG| ^ 2 ≠ 0 := by rw [sq_abs]; intro h; apply hne; linarith
  have hm : Himalaya.pow2 c.p.MG = |c.p.MG| ^ 2 := by rw [pow2_sq, sq_abs]
  have hs : FOps.sqrt (|c.p.MG| ^ 2) = |c.p.MG| := by rw [real_sqrt]; exact Real.sqrt_sq (abs_nonneg _)
  have hmu : ∀ u, c.p.mu2.set22 u 2 2 = u := fun u => by simp [Mat3.set22]
  refine thr_limit T n (by simp) (by simp)
    (y := fun u => Thr.dYtAsGen (|c.p.MG| ^ 2) q u |c.p.MG| (Real.sqrt q) (Real.sqrt u) (calcXt c.p) (logMR c.p n q))
    (l1 := fun u => Thr.dLamAtGen (|c.p.MG| ^ 2) q u |c.p.MG| (Real.sqrt q) (Real.sqrt u) (calcXt c.p) (logMR c.p n q))
    (l2 := fun u => Thr.dLamAtAsGen T.dilog (|c.p.MG| ^ 2) q u |c.p.MG| (Real.sqrt q) (Real.sqrt u) (calcXt c.p) (logMR c.p n q))
    (y' := Thr.dYtAsQU (|c.p.MG| ^ 2) q q |c.p.MG| (Real.sqrt q) (Real.sqrt q) (calcXt c.p) (logMR c.p n q))
    (l1' := Thr.dLamAtQU (|c.p.MG| ^ 2) q q |c.p.MG| (Real.sqrt q) (Real.sqrt q) (calcXt c.p) (logMR c.p n q))
    (l2' := Thr.dLamAtAsQU T.dilog (|c.p.MG| ^ 2) q q |c.p.MG| (Real.sqrt q) (Real.sqrt q) (calcXt c.p) (logMR c.p n q))
    (fun u => ?_) ?_ (yt_qu_tendsto hq hne') (lam_qu_tendsto hq _ _ _ _ _) (lam2_qu_tendsto T.dilog hT hq (abs_ne_zero.2 hG) hne') s ho
  · constructor
    · simp only [TcObj.dYtAs, withMu, hmu, hm, hs]; rfl
    · simp only [TcObj.dLamAt, withMu, hmu, hm, hs]; rfl
    · simp only [TcObj.dLamAtAs, withMu, hmu, hm, hs]; rfl
  · constructor
    · simp only [TcObj.dYtAs, withMu, hmu, hm, hs]; rfl
    · simp only [TcObj.dLamAt, withMu, hmu, hm, hs]; rfl
    · simp only [TcObj.dLamAtAs, withMu, hmu, hm, hs]; rfl

/-- replaces `sqrt(m²)` by `m` in a limit at a positive point -/
theorem abs_tendsto {f : ℝ → ℝ → ℝ} {Q v : ℝ} (hQ : 0 < Q) (h : Tendsto (fun m => f (m ^ 2) m) (𝓝[≠] Q) (𝓝 v)) :
    Tendsto (fun m => f (Himalaya.pow2 m) (FOps.sqrt (Himalaya.pow2 m))) (𝓝[≠] Q) (𝓝 v) := by
  refine h.congr' ?_
  have : ∀ᶠ m in 𝓝[≠] Q, 0 < m := nhdsWithin_le_nhds (lt_mem_nhds hQ)
  filter_upwards [this] with m hm
  rw [pow2_sq, real_sqrt, Real.sqrt_sq hm.le]

/-- **C56 (gluino and left-handed stop).** The `MQ3_EQ_M3` case at `MG = sqrt(mq2(2,2))` is the limit of the `GENERAL` case
as `MG` approaches that value. -/
theorem C56_gluino_left (hT : ∀ x < 1, T.dilog x = Li2.Li2 x) (hq : 0 < c.p.mq2 2 2) (hu : 0 < c.p.mu2 2 2)
    (hne : c.p.mu2 2 2 ≠ c.p.mq2 2 2) (ho : o ∈ limitOrders) :
    LimitOf (fun m => ((withMG c m).setLimit .general).thr T o s n) (Real.sqrt (c.p.mq2 2 2))
      (((withMG c (Real.sqrt (c.p.mq2 2 2))).setLimit .qg).thr T o s n) := by
  set q := c.p.mq2 2 2 with hqd
  set u := c.p.mu2 2 2 with hud
  have hQ : 0 < Real.sqrt q := Real.sqrt_pos.2 hq
  have hqq : Real.sqrt q ^ 2 = q := Real.sq_sqrt hq.le
  have hne' : -u + Real.sqrt q ^ 2 ≠ 0 := by rw [hqq]; intro h; apply hne; linarith
  have t1 := yt_qg_tendsto (X := calcXt c.p) (L := logMR c.p n q) hQ hu hne' (Himalaya.pow2 (Real.sqrt q)) (FOps.sqrt (Himalaya.pow2 (Real.sqrt q)))
  have t2 := lam2_qg_tendsto (X := calcXt c.p) (L := logMR c.p n q) T.dilog hT hQ hu hne' (Himalaya.pow2 (Real.sqrt q)) (FOps.sqrt (Himalaya.pow2 (Real.sqrt q)))
  rw [hqq] at t1 t2
  refine thr_limit T n (by simp) (by simp) (fun m => ⟨rfl, rfl, rfl⟩) ⟨rfl, rfl, rfl⟩
    (abs_tendsto (f := fun x m => Thr.dYtAsGen x q u m (Real.sqrt q) (Real.sqrt u) (calcXt c.p) (logMR c.p n q)) hQ t1) ?_
    (abs_tendsto (f := fun x m => Thr.dLamAtAsGen T.dilog x q u m (Real.sqrt q) (Real.sqrt u) (calcXt c.p) (logMR c.p n q)) hQ t2) s ho
  exact tendsto_const_nhds

/-- **C56 (gluino and right-handed stop).** The `MU3_EQ_M3` case at `MG = sqrt(mu2(2,2))` is the limit of the `GENERAL`
case as `MG` approaches that value. -/
theorem C56_gluino_right (hT : ∀ x < 1, T.dilog x = Li2.Li2 x) (hq : 0 < c.p.mq2 2 2) (hu : 0 < c.p.mu2 2 2)
    (hne : c.p.mu2 2 2 ≠ c.p.mq2 2 2) (ho : o ∈ limitOrders) :
    LimitOf (fun m => ((withMG c m).setLimit .general).thr T o s n) (Real.sqrt (c.p.mu2 2 2))
      (((withMG c (Real.sqrt (c.p.mu2 2 2))).setLimit .ug).thr T o s n) := by
  set q := c.p.mq2 2 2 with hqd
  set u := c.p.mu2 2 2 with hud
  have hU : 0 < Real.sqrt u := Real.sqrt_pos.2 hu
  have huu : Real.sqrt u ^ 2 = u := Real.sq_sqrt hu.le
  have hne' : q - Real.sqrt u ^ 2 ≠ 0 := by rw [huu]; intro h; apply hne; linarith
  have t1 := yt_ug_tendsto (X := calcXt c.p) (L := logMR c.p n q) hU hq hne' (Himalaya.pow2 (Real.sqrt u)) (FOps.sqrt (Himalaya.pow2 (Real.sqrt u)))
  have t2 := lam2_ug_tendsto (X := calcXt c.p) (L := logMR c.p n q) T.dilog hT hU hq hne' (Himalaya.pow2 (Real.sqrt u)) (FOps.sqrt (Himalaya.pow2 (Real.sqrt u)))
  rw [huu] at t1 t2
  refine thr_limit T n (by simp) (by simp) (fun m => ⟨rfl, rfl, rfl⟩) ⟨rfl, rfl, rfl⟩
    (abs_tendsto (f := fun x m => Thr.dYtAsGen x q u m (Real.sqrt q) (Real.sqrt u) (calcXt c.p) (logMR c.p n q)) hU t1) ?_
    (abs_tendsto (f := fun x m => Thr.dLamAtAsGen T.dilog x q u m (Real.sqrt q) (Real.sqrt u) (calcXt c.p) (logMR c.p n q)) hU t2) s ho
  exact tendsto_const_nhds

/-- **C56 (all three equal).** The `MQ3_EQ_MU3_EQ_M3` and `DEGENERATE` cases at `MG = sqrt(mq2(2,2))` are the limits of the
`MQ3_EQ_MU3` case as `MG` approaches that value. -/
theorem C56_all_equal (hT : ∀ x < 1, T.dilog x = Li2.Li2 x) (hq : 0 < c.p.mq2 2 2) {l : Limit} (hl : l = .qug ∨ l = .degenerate)
    (ho : o ∈ limitOrders) :
    LimitOf (fun m => ((withMG c m).setLimit .qu).thr T o s n) (Real.sqrt (c.p.mq2 2 2))
      (((withMG c (Real.sqrt (c.p.mq2 2 2))).setLimit l).thr T o s n) := by
  set q := c.p.mq2 2 2 with hqd
  set u := c.p.mu2 2 2 with hud
  have hQ : 0 < Real.sqrt q := Real.sqrt_pos.2 hq
  have hqq : Real.sqrt q ^ 2 = q := Real.sq_sqrt hq.le
  have t1 := yt_qug_tendsto (X := calcXt c.p) (L := logMR c.p n q) (u := u) (U := Real.sqrt u) hQ (Himalaya.pow2 (Real.sqrt q)) (FOps.sqrt (Himalaya.pow2 (Real.sqrt q))) u (Real.sqrt u)
  have t2 := lam2_qug_tendsto (X := calcXt c.p) (L := logMR c.p n q) (u := u) (U := Real.sqrt u) T.dilog hT hQ (Himalaya.pow2 (Real.sqrt q)) (FOps.sqrt (Himalaya.pow2 (Real.sqrt q))) u (Real.sqrt u)
  rw [hqq] at t1 t2
  rcases hl with rfl | rfl
  · refine thr_limit T n (by simp) (by simp) (fun m => ⟨rfl, rfl, rfl⟩) ⟨rfl, rfl, rfl⟩
      (abs_tendsto (f := fun x m => Thr.dYtAsQU x q u m (Real.sqrt q) (Real.sqrt u) (calcXt c.p) (logMR c.p n q)) hQ t1) ?_
      (abs_tendsto (f := fun x m => Thr.dLamAtAsQU T.dilog x q u m (Real.sqrt q) (Real.sqrt u) (calcXt c.p) (logMR c.p n q)) hQ t2) s ho
    exact tendsto_const_nhds
  · refine thr_limit T n (by simp) (by simp) (fun m => ⟨rfl, rfl, rfl⟩) ⟨rfl, rfl, rfl⟩
      (abs_tendsto (f := fun x m => Thr.dYtAsQU x q u m (Real.sqrt q) (Real.sqrt u) (calcXt c.p) (logMR c.p n q)) hQ t1) ?_
      (abs_tendsto (f := fun x m => Thr.dLamAtAsQU T.dilog x q u m (Real.sqrt q) (Real.sqrt u) (calcXt c.p) (logMR c.p n q)) hQ t2) s ho
    exact tendsto_const_nhds

/-- the hypotheses are met by a point with different stop mass parameters and gluino mass -/
example : ∃ (T : ThrFns ℝ) (c : TcObj ℝ), (∀ x < 1, T.dilog x = Li2.Li2 x) ∧ 0 < c.p.mq2 2 2 ∧ 0 < c.p.mu2 2 2 ∧ c.p.MG ≠ 0
    ∧ c.p.MG ^ 2 ≠ c.p.mq2 2 2 ∧ c.p.mu2 2 2 ≠ c.p.mq2 2 2 := by
  refine ⟨{ demoThr with dilog := Li2.Li2 }, withMu (withMG ⟨{ onePoint with mq2 := fun _ _ => 1 }, 1, 6⟩ 3) 2, fun _ _ => rfl, ?_⟩
  simp only [withMu, withMG, Mat3.set22]
  norm_num

end Himalaya.Cont
