import Verif.EFT.Lam

/-!
# `getDeltaLambdaAlphatAlphas`, case `MQ3_EQ_MU3`, near `mQ3 = m3`

Printed by tools/mk_lam.py.
-/

set_option linter.unusedSimpArgs false
set_option linter.unusedVariables false
set_option linter.style.longLine false

namespace Himalaya.Cont
open Filter Topology


noncomputable def gQUG0p0 (Q e : ℝ) : ℝ :=
    (192 * e + 112 * e ^ 2 + 64 * e ^ 3 + 288 * e ^ 4 + 256 * e ^ 5 + 64 * e ^ 6) / ((2 + e) ^ 2)
noncomputable def gQUG0p1 (Q e : ℝ) : ℝ :=
    (-128 * e - 64 * e ^ 2)
noncomputable def gQUG0p2 (Q e : ℝ) : ℝ :=
    (-96)
noncomputable def gQUG0p3 (Q e : ℝ) : ℝ :=
    (-96 - 512 * e - 1152 * e ^ 2 - 1408 * e ^ 3 - 992 * e ^ 4 - 384 * e ^ 5 - 64 * e ^ 6) / ((2 + e) ^ 2)
noncomputable def gQUG0p4 (Q e : ℝ) : ℝ :=
    (-128 - 512 * e - 768 * e ^ 2 - 512 * e ^ 3 - 128 * e ^ 4) / ((2 + e) ^ 2)
noncomputable def gQUG0 (Q L e r s : ℝ) : ℝ :=
    gQUG0p0 Q e + L * gQUG0p1 Q e + L ^ 2 * gQUG0p2 Q e + r * gQUG0p3 Q e + s * gQUG0p4 Q e

noncomputable def gQUG1p0 (Q e : ℝ) : ℝ :=
    (-256 - 256 * e - 256 * e ^ 3 - 384 * e ^ 4 - 128 * e ^ 5) / ((Q) * (2 + e) ^ 2)
noncomputable def gQUG1p1 (Q e : ℝ) : ℝ :=
    (128 + 128 * e) / ((Q))
noncomputable def gQUG1p2 (Q e : ℝ) : ℝ :=
    (256 + 1024 * e + 1664 * e ^ 2 + 1408 * e ^ 3 + 640 * e ^ 4 + 128 * e ^ 5) / ((Q) * (2 + e) ^ 2)
noncomputable def gQUG1p3 (Q e : ℝ) : ℝ :=
    (256 + 768 * e + 768 * e ^ 2 + 256 * e ^ 3) / ((Q) * (2 + e) ^ 2)
noncomputable def gQUG1 (Q L e r s : ℝ) : ℝ :=
    gQUG1p0 Q e + L * gQUG1p1 Q e + r * gQUG1p2 Q e + s * gQUG1p3 Q e

noncomputable def gQUG2p0 (Q e : ℝ) : ℝ :=
    (-128 - 128 * e + 544 * e ^ 2 + 640 * e ^ 3 - 64 * e ^ 4 - 256 * e ^ 5 - 64 * e ^ 6) / ((Q) ^ 2 * (2 + e) ^ 2)
noncomputable def gQUG2p1 (Q e : ℝ) : ℝ :=
    (-128 + 128 * e + 64 * e ^ 2) / ((Q) ^ 2)
noncomputable def gQUG2p2 (Q e : ℝ) : ℝ :=
    (-128 - 384 * e - 192 * e ^ 2 + 512 * e ^ 3 + 768 * e ^ 4 + 384 * e ^ 5 + 64 * e ^ 6) / ((Q) ^ 2 * (2 + e) ^ 2)
noncomputable def gQUG2 (Q L e r s : ℝ) : ℝ :=
    gQUG2p0 Q e + L * gQUG2p1 Q e + r * gQUG2p2 Q e

noncomputable def gQUG3p0 (Q e : ℝ) : ℝ :=
    (896 / 3 + (640 / 3) * e - (832 / 3) * e ^ 2 - (448 / 3) * e ^ 3 + 64 * e ^ 4 + (64 / 3) * e ^ 5) / ((Q) ^ 3 * (2
    + e) ^ 2)
noncomputable def gQUG3p1 (Q e : ℝ) : ℝ :=
    (-64 / 3 - (64 / 3) * e) / ((Q) ^ 3)
noncomputable def gQUG3p2 (Q e : ℝ) : ℝ :=
    (448 / 3 + (1216 / 3) * e + (896 / 3) * e ^ 2 - (128 / 3) * e ^ 3 - (320 / 3) * e ^ 4 - (64 / 3) * e ^ 5) / ((Q) ^
    3 * (2 + e) ^ 2)
noncomputable def gQUG3 (Q L e r s : ℝ) : ℝ :=
    gQUG3p0 Q e + L * gQUG3p1 Q e + r * gQUG3p2 Q e

noncomputable def gQUG4p0 (Q e : ℝ) : ℝ :=
    (32 / 3 - (32 / 3) * e - (296 / 3) * e ^ 2 - (256 / 3) * e ^ 3 + (64 / 3) * e ^ 4 + (128 / 3) * e ^ 5 + (32 / 3) *
    e ^ 6) / ((Q) ^ 4 * (2 + e) ^ 2)
noncomputable def gQUG4p1 (Q e : ℝ) : ℝ :=
    (16 / 3 - (64 / 3) * e - (32 / 3) * e ^ 2) / ((Q) ^ 4)
noncomputable def gQUG4p2 (Q e : ℝ) : ℝ :=
    (32 / 3 + (64 / 3) * e - 32 * e ^ 2 - 128 * e ^ 3 - (416 / 3) * e ^ 4 - 64 * e ^ 5 - (32 / 3) * e ^ 6) / ((Q) ^ 4
    * (2 + e) ^ 2)
noncomputable def gQUG4 (Q L e r s : ℝ) : ℝ :=
    gQUG4p0 Q e + L * gQUG4p1 Q e + r * gQUG4p2 Q e

noncomputable def gQUG5p0 (Q e : ℝ) : ℝ :=
    (-64 / 3 - (64 / 3) * e + (32 / 3) * e ^ 2 + (32 / 3) * e ^ 3) / ((Q) ^ 5 * (2 + e) ^ 2)
noncomputable def gQUG5p1 (Q e : ℝ) : ℝ :=
    (-32 / 3 - 32 * e - 32 * e ^ 2 - (32 / 3) * e ^ 3) / ((Q) ^ 5 * (2 + e) ^ 2)
noncomputable def gQUG5 (Q L e r s : ℝ) : ℝ :=
    gQUG5p0 Q e + r * gQUG5p1 Q e

noncomputable def gQUG (X Q L e r s : ℝ) : ℝ :=
    gQUG0 Q L e r s + X * gQUG1 Q L e r s + X ^ 2 * gQUG2 Q L e r s + X ^ 3 * gQUG3 Q L e r s + X ^ 4 * gQUG4 Q L e r
    s + X ^ 5 * gQUG5 Q L e r s

theorem QUG_repr0 {Q L e r s : ℝ} (hQ : Q ≠ 0) (he : e ≠ 0) (h2 : 2 + e ≠ 0) :
    b0 (Q * (1 + e)) (Q ^ 2) L (2 * e - e ^ 2 + e ^ 2 * r) (-2 * e + e ^ 2 * s) = gQUG0 Q L e r s := by
  simp only [b0, gQUG0, gQUG0p0, gQUG0p1, gQUG0p2, gQUG0p3, gQUG0p4]
  have d1 : (Q * (1 + e)) ^ 2 - Q ^ 2 = Q ^ 2 * (e * (2 + e)) := by ring
  simp only [d1]
  generalize hF : 2 + e = F at *
  field_simp
  subst hF
  ring

theorem QUG_repr1 {Q L e r s : ℝ} (hQ : Q ≠ 0) (he : e ≠ 0) (h2 : 2 + e ≠ 0) :
    b1 (Q * (1 + e)) (Q ^ 2) L (2 * e - e ^ 2 + e ^ 2 * r) (-2 * e + e ^ 2 * s) = gQUG1 Q L e r s := by
  simp only [b1, gQUG1, gQUG1p0, gQUG1p1, gQUG1p2, gQUG1p3]
  have d1 : (Q * (1 + e)) ^ 2 - Q ^ 2 = Q ^ 2 * (e * (2 + e)) := by ring
  simp only [d1]
  generalize hF : 2 + e = F at *
  field_simp
  subst hF
  ring

theorem QUG_repr2 {Q L e r s : ℝ} (hQ : Q ≠ 0) (he : e ≠ 0) (h2 : 2 + e ≠ 0) :
    b2 (Q * (1 + e)) (Q ^ 2) L (2 * e - e ^ 2 + e ^ 2 * r) (-2 * e + e ^ 2 * s) = gQUG2 Q L e r s := by
  simp only [b2, gQUG2, gQUG2p0, gQUG2p1, gQUG2p2]
  have d1 : (Q * (1 + e)) ^ 2 - Q ^ 2 = Q ^ 2 * (e * (2 + e)) := by ring
  simp only [d1]
  generalize hF : 2 + e = F at *
  field_simp
  subst hF
  ring

theorem QUG_repr3 {Q L e r s : ℝ} (hQ : Q ≠ 0) (he : e ≠ 0) (h2 : 2 + e ≠ 0) :
    b3 (Q * (1 + e)) (Q ^ 2) L (2 * e - e ^ 2 + e ^ 2 * r) (-2 * e + e ^ 2 * s) = gQUG3 Q L e r s := by
  simp only [b3, gQUG3, gQUG3p0, gQUG3p1, gQUG3p2]
  have d1 : (Q * (1 + e)) ^ 2 - Q ^ 2 = Q ^ 2 * (e * (2 + e)) := by ring
  simp only [d1]
  generalize hF : 2 + e = F at *
  field_simp
  subst hF
  ring

theorem QUG_repr4 {Q L e r s : ℝ} (hQ : Q ≠ 0) (he : e ≠ 0) (h2 : 2 + e ≠ 0) :
    b4 (Q * (1 + e)) (Q ^ 2) L (2 * e - e ^ 2 + e ^ 2 * r) (-2 * e + e ^ 2 * s) = gQUG4 Q L e r s := by
  simp only [b4, gQUG4, gQUG4p0, gQUG4p1, gQUG4p2]
  have d1 : (Q * (1 + e)) ^ 2 - Q ^ 2 = Q ^ 2 * (e * (2 + e)) := by ring
  simp only [d1]
  generalize hF : 2 + e = F at *
  field_simp
  subst hF
  ring

theorem QUG_repr5 {Q L e r s : ℝ} (hQ : Q ≠ 0) (he : e ≠ 0) (h2 : 2 + e ≠ 0) :
    b5 (Q * (1 + e)) (Q ^ 2) L (2 * e - e ^ 2 + e ^ 2 * r) (-2 * e + e ^ 2 * s) = gQUG5 Q L e r s := by
  simp only [b5, gQUG5, gQUG5p0, gQUG5p1]
  have d1 : (Q * (1 + e)) ^ 2 - Q ^ 2 = Q ^ 2 * (e * (2 + e)) := by ring
  simp only [d1]
  generalize hF : 2 + e = F at *
  field_simp
  subst hF
  ring

theorem QUG_repr {X Q L e r s : ℝ} (hQ : Q ≠ 0) (he : e ≠ 0) (h2 : 2 + e ≠ 0) :
    lamQUX X (Q * (1 + e)) (Q ^ 2) L (2 * e - e ^ 2 + e ^ 2 * r) (-2 * e + e ^ 2 * s) = gQUG X Q L e r s := by
  unfold lamQUX gQUG
  rw [QUG_repr0 hQ he h2, QUG_repr1 hQ he h2, QUG_repr2 hQ he h2, QUG_repr3 hQ he h2, QUG_repr4 hQ he h2, QUG_repr5 hQ he h2]

theorem gQUG0_cont {Q L : ℝ} (hQ : Q ≠ 0) :
    ContinuousAt (fun z : ℝ × (ℝ × ℝ) => gQUG0 Q L z.1 z.2.1 z.2.2) (0, (0, 0)) := by
  have hgQUG0p0 : ContinuousAt (fun z : ℝ × (ℝ × ℝ) => gQUG0p0 Q z.1) (0, (0, 0)) := by
    unfold gQUG0p0
    fun_prop (disch := cdisch)
  have hgQUG0p1 : ContinuousAt (fun z : ℝ × (ℝ × ℝ) => gQUG0p1 Q z.1) (0, (0, 0)) := by
    unfold gQUG0p1
    fun_prop (disch := cdisch)
  have hgQUG0p2 : ContinuousAt (fun z : ℝ × (ℝ × ℝ) => gQUG0p2 Q z.1) (0, (0, 0)) := by
    unfold gQUG0p2
    fun_prop (disch := cdisch)
  have hgQUG0p3 : ContinuousAt (fun z : ℝ × (ℝ × ℝ) => gQUG0p3 Q z.1) (0, (0, 0)) := by
    unfold gQUG0p3
    fun_prop (disch := cdisch)
  have hgQUG0p4 : ContinuousAt (fun z : ℝ × (ℝ × ℝ) => gQUG0p4 Q z.1) (0, (0, 0)) := by
    unfold gQUG0p4
    fun_prop (disch := cdisch)
  exact ((((hgQUG0p0).add
    ((show ContinuousAt (fun z : ℝ × (ℝ × ℝ) => L) (0, (0, 0)) by fun_prop).mul hgQUG0p1)).add
    ((show ContinuousAt (fun z : ℝ × (ℝ × ℝ) => L ^ 2) (0, (0, 0)) by fun_prop).mul hgQUG0p2)).add
    ((show ContinuousAt (fun z : ℝ × (ℝ × ℝ) => z.2.1) (0, (0, 0)) by fun_prop).mul hgQUG0p3)).add
    ((show ContinuousAt (fun z : ℝ × (ℝ × ℝ) => z.2.2) (0, (0, 0)) by fun_prop).mul hgQUG0p4)

theorem gQUG1_cont {Q L : ℝ} (hQ : Q ≠ 0) :
    ContinuousAt (fun z : ℝ × (ℝ × ℝ) => gQUG1 Q L z.1 z.2.1 z.2.2) (0, (0, 0)) := by
  have hgQUG1p0 : ContinuousAt (fun z : ℝ × (ℝ × ℝ) => gQUG1p0 Q z.1) (0, (0, 0)) := by
    unfold gQUG1p0
    fun_prop (disch := cdisch)
  have hgQUG1p1 : ContinuousAt (fun z : ℝ × (ℝ × ℝ) => gQUG1p1 Q z.1) (0, (0, 0)) := by
    unfold gQUG1p1
    fun_prop (disch := cdisch)
  have hgQUG1p2 : ContinuousAt (fun z : ℝ × (ℝ × ℝ) => gQUG1p2 Q z.1) (0, (0, 0)) := by
    unfold gQUG1p2
    fun_prop (disch := cdisch)
  have hgQUG1p3 : ContinuousAt (fun z : ℝ × (ℝ × ℝ) => gQUG1p3 Q z.1) (0, (0, 0)) := by
    unfold gQUG1p3
    fun_prop (disch := cdisch)
  exact (((hgQUG1p0).add
    ((show ContinuousAt (fun z : ℝ × (ℝ × ℝ) => L) (0, (0, 0)) by fun_prop).mul hgQUG1p1)).add
    ((show ContinuousAt (fun z : ℝ × (ℝ × ℝ) => z.2.1) (0, (0, 0)) by fun_prop).mul hgQUG1p2)).add
    ((show ContinuousAt (fun z : ℝ × (ℝ × ℝ) => z.2.2) (0, (0, 0)) by fun_prop).mul hgQUG1p3)

theorem gQUG2_cont {Q L : ℝ} (hQ : Q ≠ 0) :
    ContinuousAt (fun z : ℝ × (ℝ × ℝ) => gQUG2 Q L z.1 z.2.1 z.2.2) (0, (0, 0)) := by
  have hgQUG2p0 : ContinuousAt (fun z : ℝ × (ℝ × ℝ) => gQUG2p0 Q z.1) (0, (0, 0)) := by
    unfold gQUG2p0
    fun_prop (disch := cdisch)
  have hgQUG2p1 : ContinuousAt (fun z : ℝ × (ℝ × ℝ) => gQUG2p1 Q z.1) (0, (0, 0)) := by
    unfold gQUG2p1
    fun_prop (disch := cdisch)
  have hgQUG2p2 : ContinuousAt (fun z : ℝ × (ℝ × ℝ) => gQUG2p2 Q z.1) (0, (0, 0)) := by
    unfold gQUG2p2
    fun_prop (disch := cdisch)
  exact ((hgQUG2p0).add
    ((show ContinuousAt (fun z : ℝ × (ℝ × ℝ) => L) (0, (0, 0)) by fun_prop).mul hgQUG2p1)).add
    ((show ContinuousAt (fun z : ℝ × (ℝ × ℝ) => z.2.1) (0, (0, 0)) by fun_prop).mul hgQUG2p2)

theorem gQUG3_cont {Q L : ℝ} (hQ : Q ≠ 0) :
    ContinuousAt (fun z : ℝ × (ℝ × ℝ) => gQUG3 Q L z.1 z.2.1 z.2.2) (0, (0, 0)) := by
  have hgQUG3p0 : ContinuousAt (fun z : ℝ × (ℝ × ℝ) => gQUG3p0 Q z.1) (0, (0, 0)) := by
    unfold gQUG3p0
    fun_prop (disch := cdisch)
  have hgQUG3p1 : ContinuousAt (fun z : ℝ × (ℝ × ℝ) => gQUG3p1 Q z.1) (0, (0, 0)) := by
    unfold gQUG3p1
    fun_prop (disch := cdisch)
  have hgQUG3p2 : ContinuousAt (fun z : ℝ × (ℝ × ℝ) => gQUG3p2 Q z.1) (0, (0, 0)) := by
    unfold gQUG3p2
    fun_prop (disch := cdisch)
  exact ((hgQUG3p0).add
    ((show ContinuousAt (fun z : ℝ × (ℝ × ℝ) => L) (0, (0, 0)) by fun_prop).mul hgQUG3p1)).add
    ((show ContinuousAt (fun z : ℝ × (ℝ × ℝ) => z.2.1) (0, (0, 0)) by fun_prop).mul hgQUG3p2)

theorem gQUG4_cont {Q L : ℝ} (hQ : Q ≠ 0) :
    ContinuousAt (fun z : ℝ × (ℝ × ℝ) => gQUG4 Q L z.1 z.2.1 z.2.2) (0, (0, 0)) := by
  have hgQUG4p0 : ContinuousAt (fun z : ℝ × (ℝ × ℝ) => gQUG4p0 Q z.1) (0, (0, 0)) := by
    unfold gQUG4p0
    fun_prop (disch := cdisch)
  have hgQUG4p1 : ContinuousAt (fun z : ℝ × (ℝ × ℝ) => gQUG4p1 Q z.1) (0, (0, 0)) := by
    unfold gQUG4p1
    fun_prop (disch := cdisch)
  have hgQUG4p2 : ContinuousAt (fun z : ℝ × (ℝ × ℝ) => gQUG4p2 Q z.1) (0, (0, 0)) := by
    unfold gQUG4p2
    fun_prop (disch := cdisch)
  exact ((hgQUG4p0).add
    ((show ContinuousAt (fun z : ℝ × (ℝ × ℝ) => L) (0, (0, 0)) by fun_prop).mul hgQUG4p1)).add
    ((show ContinuousAt (fun z : ℝ × (ℝ × ℝ) => z.2.1) (0, (0, 0)) by fun_prop).mul hgQUG4p2)

theorem gQUG5_cont {Q L : ℝ} (hQ : Q ≠ 0) :
    ContinuousAt (fun z : ℝ × (ℝ × ℝ) => gQUG5 Q L z.1 z.2.1 z.2.2) (0, (0, 0)) := by
  have hgQUG5p0 : ContinuousAt (fun z : ℝ × (ℝ × ℝ) => gQUG5p0 Q z.1) (0, (0, 0)) := by
    unfold gQUG5p0
    fun_prop (disch := cdisch)
  have hgQUG5p1 : ContinuousAt (fun z : ℝ × (ℝ × ℝ) => gQUG5p1 Q z.1) (0, (0, 0)) := by
    unfold gQUG5p1
    fun_prop (disch := cdisch)
  exact (hgQUG5p0).add
    ((show ContinuousAt (fun z : ℝ × (ℝ × ℝ) => z.2.1) (0, (0, 0)) by fun_prop).mul hgQUG5p1)

theorem gQUG_cont {X Q L : ℝ} (hQ : Q ≠ 0) :
    ContinuousAt (fun z : ℝ × (ℝ × ℝ) => gQUG X Q L z.1 z.2.1 z.2.2) (0, (0, 0)) := by
  exact (((((gQUG0_cont hQ).add (continuousAt_const.mul (gQUG1_cont hQ))).add (continuousAt_const.mul (gQUG2_cont hQ))).add (continuousAt_const.mul (gQUG3_cont hQ))).add (continuousAt_const.mul (gQUG4_cont hQ))).add (continuousAt_const.mul (gQUG5_cont hQ))

end Himalaya.Cont
