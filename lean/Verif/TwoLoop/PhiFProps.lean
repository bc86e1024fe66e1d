import Verif.TwoLoop.PhiF
import Verif.TwoLoop.PhiC
import Verif.Li2.BW

/-!
# The Fortran two-loop function: accuracy (C60)
-/

set_option linter.unusedSimpArgs false
set_option linter.unusedVariables false

namespace Himalaya.TwoLoop.F
open Real Himalaya.Li2

theorem Pi_bound : |Pi ^ 2 - π ^ 2| ≤ 25 / 10 ^ 17 := by
  have := PI_sq_bound
  rwa [show PI * PI - π * π = Pi ^ 2 - π ^ 2 by unfold PI Pi; ring] at this

theorem clam_pos {u v : ℝ} (h : 0 < TLF.Spec.lambda2 u v) : clam u v = ((√(TLF.Spec.lambda2 u v) : ℝ) : ℂ) := by
  unfold TLF.Spec.lambda2 at *
  unfold clam; rw [if_pos (by linarith)]; rfl
theorem clam_neg {u v : ℝ} (h : TLF.Spec.lambda2 u v < 0) : clam u v = ⟨0, √(-TLF.Spec.lambda2 u v)⟩ := by
  unfold TLF.Spec.lambda2 at *
  unfold clam; rw [if_neg (by push Not; linarith)]
  congr 2; ring
theorem clam_zero {u v : ℝ} : clam u v = 0 ↔ TLF.Spec.lambda2 u v = 0 := by
  constructor
  · intro h
    by_contra hc
    rcases lt_or_gt_of_ne hc with h1 | h1
    · rw [clam_neg h1] at h
      have := congrArg Complex.im h
      simp at this
      have h2 := sqrt_pos.2 (show 0 < -TLF.Spec.lambda2 u v by linarith)
      linarith
    · rw [clam_pos h1] at h
      have : √(TLF.Spec.lambda2 u v) = 0 := by exact_mod_cast h
      have h2 := sqrt_pos.2 h1
      linarith
  · intro h
    unfold TLF.Spec.lambda2 at h
    unfold clam; rw [if_pos (by linarith), h, sqrt_zero]; rfl

/-- above threshold -/
theorem num_pos {u v : ℝ} (hu : 0 < u) (hu1 : u ≤ 1) (hv : 0 < v) (hv1 : v ≤ 1) (hl : 0 < TLF.Spec.lambda2 u v) :
    |(ccphiNum u v / clam u v).re - TLF.Spec.Phi u v| ≤ 101 / 10 ^ 17 / √(TLF.Spec.lambda2 u v) := by
  obtain ⟨l0, x0, y0, xy, el, eu, ev⟩ := roots_any hu hu1 hv hv1 hl
  rw [← phiUV_below hu hu1 hv hv1 hl]
  unfold phiUV ccphiNum
  rw [clam_pos hl]
  simp only
  generalize √(TLF.Spec.lambda2 u v) = l at *
  have ep : (1 + ((u:ℂ) - v) - (l : ℂ)) / 2 = (((1 + (u - v) - l) / 2 : ℝ) : ℂ) := by push_cast; ring
  have em : (1 - ((u:ℂ) - v) - (l : ℂ)) / 2 = (((1 - (u - v) - l) / 2 : ℝ) : ℂ) := by push_cast; ring
  rw [ep, em]
  generalize (1 + (u - v) - l) / 2 = P at *
  generalize (1 - (u - v) - l) / 2 = M at *
  rw [Li2.F.fast_cdlog_eq, Li2.F.fast_cdlog_eq, ← Complex.ofReal_log x0.le, ← Complex.ofReal_log y0.le]
  have hc {x : ℝ} (h : x ≤ 1) : CLI2 (x : ℂ) = ((Li2.F.dli2 x : ℝ) : ℂ) := by
    unfold CLI2 Li2.F.cdli2; simp [h]; rfl
  rw [hc (by linarith), hc (by linarith)]
  have : (2 * ((log P : ℝ) : ℂ) * ((log M : ℝ) : ℂ) - log u * log v - 2 * (((Li2.F.dli2 P : ℝ) : ℂ) + ((Li2.F.dli2 M : ℝ) : ℂ)) + ((Pi ^ 2 / 3 : ℝ) : ℂ)) / (l : ℂ)
      = (((2 * log P * log M - log u * log v - 2 * (Li2.F.dli2 P + Li2.F.dli2 M) + Pi ^ 2 / 3) / l : ℝ) : ℂ) := by push_cast; ring
  rw [this, Complex.ofReal_re, ← sub_div, abs_div, abs_of_pos l0]
  have hP : |Li2.F.dli2 P - Li2 P| ≤ 6 / 10 ^ 17 := Li2.F.C59_dli2 P
  have hM : |Li2.F.dli2 M - Li2 M| ≤ 6 / 10 ^ 17 := Li2.F.C59_dli2 M
  have hpi := abs_le.1 Pi_bound
  have hP := abs_le.1 hP
  have hM := abs_le.1 hM
  gcongr
  rw [abs_le]
  constructor <;> linarith

/-- between the thresholds -/
theorem num_neg {u v : ℝ} (hu : 0 < u) (hv : 0 < v) (hl : TLF.Spec.lambda2 u v < 0) :
    |(ccphiNum u v / clam u v).re - TLF.Spec.Phi u v| ≤ 92 / 10 ^ 17 / √(-TLF.Spec.lambda2 u v) := by
  obtain ⟨a0, b0, g0, hsum, sa, sb, sg, hPhi⟩ := TLF.Phi.triangle hu hv hl
  have hLp : 0 < √(-TLF.Spec.lambda2 u v) := sqrt_pos.2 (by linarith)
  have hp : 0 < √u := sqrt_pos.2 hu
  have hq : 0 < √v := sqrt_pos.2 hv
  have hcos {c : ℝ} (h0 : 0 < arccos c) (h1 : arccos c < π) : cos (arccos c) = c := by
    refine cos_arccos ?_ ?_
    · by_contra hc
      rw [arccos_eq_pi.2 (not_le.1 hc).le] at h1; linarith
    · exact (arccos_pos.1 h0).le
  have ca := hcos a0 (by linarith)
  have cb := hcos b0 (by linarith)
  rw [hPhi]
  unfold ccphiNum
  rw [clam_neg hl]
  generalize √(-TLF.Spec.lambda2 u v) = L at *
  generalize arccos ((1 + u - v) / 2 / √u) = a at *
  generalize arccos ((1 - u + v) / 2 / √v) = b at *
  generalize arccos ((-1 + u + v) / 2 / (√u * √v)) = g at *
  have hg : g = π - a - b := by linarith
  have hab : sin (a + b) = L / (2 * √u * √v) := by rw [← sg, hg, ← sin_pi_sub]; congr 1; ring
  have hru : √u = sin b / sin (a + b) := by rw [hab, sb]; field_simp
  have hrv : √v = sin a / sin (b + a) := by rw [add_comm b a, hab, sa]; field_simp
  have Iu := CLi2_im a0 b0 (by linarith)
  have Iv := CLi2_im b0 a0 (by linarith)
  rw [← hru] at Iu
  rw [← hrv] at Iv
  have ep : (1 + ((u:ℂ) - v) - (⟨0, L⟩ : ℂ)) / 2 = (starRingEnd ℂ) (pol √u a) := by
    have h2 : (2:ℂ) = ((2:ℝ):ℂ) := by norm_num
    rw [h2]
    apply Complex.ext
    · rw [Complex.div_ofReal_re, Complex.conj_re]; simp only [pol, ca]; simp; field_simp; ring
    · rw [Complex.div_ofReal_im, Complex.conj_im]; simp only [pol, sa]; simp; field_simp
  have em : (1 - ((u:ℂ) - v) - (⟨0, L⟩ : ℂ)) / 2 = (starRingEnd ℂ) (pol √v b) := by
    have h2 : (2:ℂ) = ((2:ℝ):ℂ) := by norm_num
    rw [h2]
    apply Complex.ext
    · rw [Complex.div_ofReal_re, Complex.conj_re]; simp only [pol, cb]; simp; field_simp; ring
    · rw [Complex.div_ofReal_im, Complex.conj_im]; simp only [pol, sb]; simp; field_simp
  simp only
  rw [ep, em]
  have hconj {r t : ℝ} : (starRingEnd ℂ) (pol r t) = pol r (-t) := by
    apply Complex.ext <;> simp [pol]
  have him {r t : ℝ} (hr : 0 < r) (h0 : 0 < t) (h1 : t < π) : (pol r t).im ≠ 0 := by
    simp only [pol]; exact (mul_pos hr (sin_pos_of_pos_of_lt_pi h0 h1)).ne'
  have iu := him hp a0 (by linarith)
  have iv := him hq b0 (by linarith)
  have eu : ‖CLI2 ((starRingEnd ℂ) (pol √u a)) - CLi2 ((starRingEnd ℂ) (pol √u a))‖ ≤ 23 / 10 ^ 17 := Li2.F.C59_cdli2 _ (by left; simpa using iu)
  have ev : ‖CLI2 ((starRingEnd ℂ) (pol √v b)) - CLi2 ((starRingEnd ℂ) (pol √v b))‖ ≤ 23 / 10 ^ 17 := Li2.F.C59_cdli2 _ (by left; simpa using iv)
  rw [CLi2_conj _ (by right; simpa using iu)] at eu
  rw [CLi2_conj _ (by right; simpa using iv)] at ev
  have eu' := (Complex.abs_im_le_norm _).trans eu
  have ev' := (Complex.abs_im_le_norm _).trans ev
  rw [Complex.sub_im, Complex.conj_im, Iu] at eu'
  rw [Complex.sub_im, Complex.conj_im, Iv] at ev'
  generalize CLI2 ((starRingEnd ℂ) (pol √u a)) = A at *
  generalize CLI2 ((starRingEnd ℂ) (pol √v b)) = B at *
  rw [Li2.F.fast_cdlog_eq, Li2.F.fast_cdlog_eq, hconj, hconj, log_pol hp (by linarith) (by linarith), log_pol hq (by linarith) (by linarith)]
  rw [log_sqrt hu.le, log_sqrt hv.le]
  rw [log_sqrt hu.le] at eu'
  rw [log_sqrt hv.le] at ev'
  have hdiv (N : ℂ) : (N / (⟨0, L⟩ : ℂ)).re = N.im / L := by
    rw [Complex.div_re]; simp [Complex.normSq_apply]; field_simp
  rw [hdiv, ← sub_div, abs_div, abs_of_pos hLp]
  gcongr
  have e2 : (2 * (⟨log u / 2, -a⟩ : ℂ) * (⟨log v / 2, -b⟩ : ℂ) - log u * log v - 2 * (A + B) + ((Pi ^ 2 / 3 : ℝ) : ℂ)).im
      = -(a * log v + b * log u) - 2 * (A.im + B.im) := by
    have h1 : ((log u : ℂ) * log v) = ((log u * log v : ℝ) : ℂ) := by push_cast; rfl
    rw [h1]
    simp only [Complex.add_im, Complex.sub_im, Complex.ofReal_im, Complex.mul_im, Complex.mul_re, Complex.re_ofNat, Complex.im_ofNat]
    ring
  rw [e2, hg]
  rw [show π - b - a = π - a - b by ring] at ev'
  have eu' := abs_le.1 eu'
  have ev' := abs_le.1 ev'
  rw [abs_le]
  constructor <;> linarith

/-- **C60, accuracy.** Let `m` be the largest of three positive squared masses and let the other two be larger than `10⁻⁸ m`.  Unless one
of the masses is the sum of the other two, the Fortran function returns a number, which differs from the Davydychev–Tausk integral by
at most `1.01·10⁻¹⁵ z/√|Δ|` with `Δ = x² + y² + z² - 2(xy + xz + yz)`. -/
theorem C60_accuracy {x y z m : ℝ} (hx : 0 < x) (hy : 0 < y) (hz : 0 < z) (hm : m = max x (max y z))
    (ex : 1e-8 * m < x) (ey : 1e-8 * m < y) (ez : 1e-8 * m < z) (hd : delF z x y ≠ 0) :
    ∃ r, phi x y z = some r ∧ |r - dtPhi x y z| ≤ 101 / 10 ^ 17 * (z / √|delF z x y|) := by
  have key {u v : ℝ} {w : ℝ} (hu : 0 < u) (hv : 0 < v) (hw : 0 < w) (h1 : u ≤ w) (h2 : v ≤ w) (h3 : 1e-8 * w < u) (h4 : 1e-8 * w < v)
      (h5 : delF z x y = delF w u v) :
      ∃ r, myphi u v w = some r ∧ |r - TLF.Spec.Phi (u / w) (v / w)| ≤ 101 / 10 ^ 17 * (w / √|delF z x y|) := by
    have hlam : delF z x y = w ^ 2 * TLF.Spec.lambda2 (u / w) (v / w) := by rw [h5, delF_eq u v w hw.ne']
    have hne : TLF.Spec.lambda2 (u / w) (v / w) ≠ 0 := fun h => hd (by rw [hlam, h, mul_zero])
    have hs : w / √|delF z x y| = 1 / √|TLF.Spec.lambda2 (u / w) (v / w)| := by
      rw [hlam, abs_mul, abs_of_pos (by positivity : 0 < w ^ 2), sqrt_mul (by positivity), sqrt_sq hw.le]
      field_simp
    refine ⟨(ccphiNum (u / w) (v / w) / clam (u / w) (v / w)).re, ?_, ?_⟩
    · unfold myphi
      simp only
      rw [if_neg (by rw [not_le, lt_div_iff₀ hw]; exact h3), if_neg (by rw [not_le, lt_div_iff₀ hw]; exact h4), if_neg (by rw [clam_zero]; exact hne)]
    · rw [hs, mul_one_div]
      rcases lt_or_gt_of_ne hne with h | h
      · rw [abs_of_neg h]
        refine (num_neg (by positivity) (by positivity) h).trans ?_
        gcongr; norm_num
      · rw [abs_of_pos h]
        exact num_pos (by positivity) ((div_le_one hw).2 h1) (by positivity) ((div_le_one hw).2 h2) h
  have scale {r F w : ℝ} (hw : 0 < w) (h : |r - F| ≤ 101 / 10 ^ 17 * (w / √|delF z x y|)) :
      |z / w * r - z / w * F| ≤ 101 / 10 ^ 17 * (z / √|delF z x y|) := by
    rw [← mul_sub, abs_mul, abs_of_pos (by positivity : 0 < z / w)]
    calc z / w * |r - F| ≤ z / w * (101 / 10 ^ 17 * (w / √|delF z x y|)) := by gcongr
      _ = _ := by field_simp
  unfold phi dtPhi
  by_cases c1 : x ≤ z ∧ y ≤ z
  · rw [if_pos c1, if_pos c1]
    have : m = z := by rw [hm, max_eq_right c1.2, max_eq_right c1.1]
    rw [this] at ex ey
    exact key hx hy hz c1.1 c1.2 ex ey rfl
  · rw [if_neg c1, if_neg c1]
    by_cases c2 : z ≤ x ∧ y ≤ x
    · rw [if_pos c2, if_pos c2]
      have : m = x := by rw [hm, max_eq_left (max_le c2.2 c2.1)]
      rw [this] at ey ez
      obtain ⟨r, h1, h2⟩ := key hz hy hx c2.1 c2.2 ez ey (by unfold delF; ring)
      exact ⟨z / x * r, by rw [h1]; rfl, scale hx h2⟩
    · rw [if_neg c2, if_neg c2]
      have c3 : z ≤ y ∧ x ≤ y := by
        constructor
        · by_contra h; push Not at h
          by_cases hxz : x ≤ z
          · exact c1 ⟨hxz, h.le⟩
          · push Not at hxz; exact c2 ⟨hxz.le, by linarith⟩
        · by_contra h; push Not at h
          by_cases hxz : x ≤ z
          · exact c1 ⟨hxz, by linarith⟩
          · push Not at hxz; exact c2 ⟨hxz.le, h.le⟩
      rw [if_pos c3]
      have : m = y := by rw [hm, max_eq_left c3.1, max_eq_right c3.2]
      rw [this] at ex ez
      obtain ⟨r, h1, h2⟩ := key hz hx hy c3.1 c3.2 ez ex (by unfold delF; ring)
      exact ⟨z / y * r, by rw [h1]; rfl, scale hy h2⟩

/-- a point between the thresholds and one above -/
example : (∃ r, phi 1 2 3 = some r ∧ |r - dtPhi 1 2 3| ≤ 101 / 10 ^ 17 * (3 / √|delF 3 1 2|)) ∧ delF 3 1 2 < 0 :=
  ⟨C60_accuracy (m := 3) (by norm_num) (by norm_num) (by norm_num) (by norm_num) (by norm_num) (by norm_num) (by norm_num) (by norm_num [delF]),
    by norm_num [delF]⟩
example : (∃ r, phi 9 2 1 = some r ∧ |r - dtPhi 9 2 1| ≤ 101 / 10 ^ 17 * (1 / √|delF 1 9 2|)) ∧ 0 < delF 1 9 2 :=
  ⟨C60_accuracy (m := 9) (by norm_num) (by norm_num) (by norm_num) (by norm_num) (by norm_num) (by norm_num) (by norm_num) (by norm_num [delF]),
    by norm_num [delF]⟩

/-- **C60, at threshold.** If one mass is exactly the sum of the other two, the function divides by zero, although the integral exists. -/
theorem C60_threshold {x y z : ℝ} (hx : 0 < x) (hy : 0 < y) (hz : 0 < z)
    (ex : 1e-8 * max x (max y z) < x) (ey : 1e-8 * max x (max y z) < y) (ez : 1e-8 * max x (max y z) < z) (hd : delF z x y = 0) : phi x y z = none := by
  have key {u v w : ℝ} (hw : 0 < w) (h3 : 1e-8 * w < u) (h4 : 1e-8 * w < v) (h5 : delF w u v = 0) : myphi u v w = none := by
    rw [delF_eq u v w hw.ne'] at h5
    have hne : TLF.Spec.lambda2 (u / w) (v / w) = 0 := by
      rcases mul_eq_zero.1 h5 with h | h
      · exact absurd h (by positivity)
      · exact h
    unfold myphi
    simp only
    rw [if_neg (by rw [not_le, lt_div_iff₀ hw]; exact h3), if_neg (by rw [not_le, lt_div_iff₀ hw]; exact h4), if_pos (clam_zero.2 hne)]
  unfold phi
  split_ifs with c1 c2 c3
  · rw [max_eq_right c1.2, max_eq_right c1.1] at ex ey
    exact key hz ex ey hd
  · rw [max_eq_left (max_le c2.2 c2.1)] at ey ez
    rw [key hx ez ey (by rw [← hd]; unfold delF; ring)]; rfl
  · rw [max_eq_left c3.1, max_eq_right c3.2] at ex ez
    rw [key hy ez ex (by rw [← hd]; unfold delF; ring)]; rfl
  · rfl

/-- masses 1, 1 and 2 -/
theorem C60_threshold_example : phi 1 1 4 = none :=
  C60_threshold (by norm_num) (by norm_num) (by norm_num) (by norm_num) (by norm_num) (by norm_num) (by norm_num [delF])

/-- **C60, units.** The function depends on ratios of the squared masses only. -/
theorem C60_homogeneous {c : ℝ} (hc : 0 < c) (x y z : ℝ) : phi (c * x) (c * y) (c * z) = phi x y z := by
  have h1 (x y z : ℝ) : myphi (c * x) (c * y) (c * z) = myphi x y z := by
    unfold myphi
    rw [mul_div_mul_left _ _ hc.ne', mul_div_mul_left _ _ hc.ne']
  unfold phi
  simp only [h1, mul_le_mul_iff_right₀ hc, mul_div_mul_left _ _ hc.ne']

example : phi 2 4 6 = phi 1 2 3 := by
  have := C60_homogeneous (c := 2) (by norm_num) 1 2 3
  norm_num at this; exact this

end Himalaya.TwoLoop.F
