import Verif.EFT.Lam

/-!
# `getDeltaLambdaAlphatAlphas` near `mQ3 = mU3`

Printed by tools/mk_lam.py.
-/

set_option linter.unusedSimpArgs false
set_option linter.unusedVariables false
set_option linter.style.longLine false

namespace Himalaya.Cont
open Filter Topology


noncomputable def dQU1 (a q la : ℝ) : ℝ :=
    la * ((a ^ 2) / ((-q + a ^ 2)))

noncomputable def dQU2 (a q la : ℝ) : ℝ :=
    ((-(1 / 2) * a ^ 2) / ((-q + a ^ 2))) + la * ((a ^ 2 * q - (1 / 2) * a ^ 4) / ((-q + a ^ 2) ^ 2))

noncomputable def dQU3 (a q la : ℝ) : ℝ :=
    ((-(5 / 6) * a ^ 2 * q + (1 / 2) * a ^ 4) / ((-q + a ^ 2) ^ 2)) + la * ((a ^ 2 * q ^ 2 - a ^ 4 * q + (1 / 3) * a ^
    6) / ((-q + a ^ 2) ^ 3))

noncomputable def gQU0p0 (a q e : ℝ) : ℝ :=
    (-48 * q ^ 5 + 288 * a ^ 2 * q ^ 4 - 112 * e * q ^ 5 + 560 * a ^ 2 * e * q ^ 4 - 640 * a ^ 4 * q ^ 3 - 96 * e ^ 2
    * q ^ 5 + 384 * a ^ 2 * e ^ 2 * q ^ 4 - 944 * a ^ 4 * e * q ^ 3 + 672 * a ^ 6 * q ^ 2 - (160 / 3) * e ^ 3 * q ^ 5
    + (488 / 3) * a ^ 2 * e ^ 3 * q ^ 4 - 520 * a ^ 4 * e ^ 2 * q ^ 3 + 688 * a ^ 6 * e * q ^ 2 - 336 * a ^ 8 * q -
    (40 / 3) * e ^ 4 * q ^ 5 - 184 * a ^ 4 * e ^ 3 * q ^ 3 + 256 * a ^ 6 * e ^ 2 * q ^ 2 - 224 * a ^ 8 * e * q + 64 *
    a ^ 10 + (8 / 3) * e ^ 5 * q ^ 5 - 8 * a ^ 2 * e ^ 5 * q ^ 4 + (220 / 3) * a ^ 4 * e ^ 4 * q ^ 3 + (344 / 3) * a ^
    6 * e ^ 3 * q ^ 2 - 24 * a ^ 8 * e ^ 2 * q + 32 * a ^ 10 * e - (152 / 9) * e ^ 6 * q ^ 5 + (464 / 9) * a ^ 2 * e ^
    6 * q ^ 4 - (52 / 3) * a ^ 4 * e ^ 5 * q ^ 3 - 48 * a ^ 6 * e ^ 4 * q ^ 2 - (56 / 3) * a ^ 8 * e ^ 3 * q - 8 * e ^
    7 * q ^ 5 + (80 / 9) * a ^ 2 * e ^ 7 * q ^ 4 - (424 / 9) * a ^ 4 * e ^ 6 * q ^ 3 + (152 / 3) * a ^ 6 * e ^ 5 * q ^
    2 + (28 / 3) * a ^ 8 * e ^ 4 * q + (64 / 9) * a ^ 2 * e ^ 8 * q ^ 4 + (8 / 9) * a ^ 4 * e ^ 7 * q ^ 3 + (16 / 9) *
    a ^ 6 * e ^ 6 * q ^ 2 - 28 * a ^ 8 * e ^ 5 * q - (32 / 9) * e ^ 9 * q ^ 5 + (64 / 9) * a ^ 2 * e ^ 9 * q ^ 4 -
    (128 / 9) * a ^ 4 * e ^ 8 * q ^ 3 + (32 / 9) * a ^ 6 * e ^ 7 * q ^ 2 + (32 / 3) * a ^ 8 * e ^ 6 * q - (32 / 9) * a
    ^ 4 * e ^ 9 * q ^ 3 + (64 / 9) * a ^ 6 * e ^ 8 * q ^ 2 - (16 / 3) * a ^ 8 * e ^ 7 * q) / ((1 + e) * (q) * (q - a ^
    2 + e * q) ^ 2 * (-q + a ^ 2) ^ 2)
noncomputable def gQU0p1 (a q e : ℝ) : ℝ :=
    (-128 * a ^ 4 * q ^ 2 - 128 * a ^ 4 * e * q ^ 2 + 256 * a ^ 6 * q - 64 * a ^ 4 * e ^ 2 * q ^ 2 + 128 * a ^ 6 * e *
    q - 128 * a ^ 8) / ((q - a ^ 2 + e * q) ^ 2 * (-q + a ^ 2) ^ 2)
noncomputable def gQU0p2 (a q e : ℝ) : ℝ :=
    (64 * q - 64 * a ^ 2 - 32 * e * q - 32 * a ^ 2 * e - 48 * e ^ 2 * q + 16 * e ^ 3 * q - 32 * e ^ 4 * q) / ((1 + e)
    * (q))
noncomputable def gQU0p3 (a q e : ℝ) : ℝ :=
    (-96 * e ^ 3)
noncomputable def gQU0p4 (a q e : ℝ) : ℝ :=
    (-96)
noncomputable def gQU0p5 (a q e : ℝ) : ℝ :=
    (32 * a ^ 4 * q ^ 4 + 64 * a ^ 4 * e * q ^ 4 - 32 * a ^ 6 * q ^ 3 + 80 * a ^ 4 * e ^ 2 * q ^ 4 - 128 * a ^ 6 * e *
    q ^ 3 - 96 * a ^ 8 * q ^ 2 + 48 * a ^ 4 * e ^ 3 * q ^ 4 - 48 * a ^ 6 * e ^ 2 * q ^ 3 + 32 * a ^ 8 * e * q ^ 2 +
    160 * a ^ 10 * q + (8 / 3) * a ^ 4 * e ^ 4 * q ^ 4 - 32 * a ^ 6 * e ^ 3 * q ^ 3 - 64 * a ^ 8 * e ^ 2 * q ^ 2 + 64
    * a ^ 10 * e * q - 64 * a ^ 12 + 8 * a ^ 4 * e ^ 5 * q ^ 4 - (184 / 3) * a ^ 6 * e ^ 4 * q ^ 3 - 48 * a ^ 8 * e ^
    3 * q ^ 2 + 32 * a ^ 10 * e ^ 2 * q - 32 * a ^ 12 * e + (16 / 3) * a ^ 4 * e ^ 6 * q ^ 4 - (56 / 3) * a ^ 6 * e ^
    5 * q ^ 3 + (176 / 3) * a ^ 8 * e ^ 4 * q ^ 2 + (32 / 3) * a ^ 10 * e ^ 3 * q - (16 / 3) * a ^ 6 * e ^ 6 * q ^ 3 +
    (32 / 3) * a ^ 8 * e ^ 5 * q ^ 2 - (64 / 3) * a ^ 10 * e ^ 4 * q) / ((1 + e) * (q) * (q - a ^ 2 + e * q) ^ 2 * (-q
    + a ^ 2) ^ 3)
noncomputable def gQU0p6 (a q e : ℝ) : ℝ :=
    (-32 * a ^ 4 * e ^ 4 * q ^ 2 - 16 * a ^ 4 * e ^ 5 * q ^ 2 + 32 * a ^ 6 * e ^ 4 * q) / ((q - a ^ 2 + e * q) ^ 2 *
    (-q + a ^ 2) ^ 2)
noncomputable def gQU0p7 (a q e : ℝ) : ℝ :=
    (-32 * e ^ 3 * q ^ 3 + 128 * a ^ 2 * e ^ 3 * q ^ 2 - 16 * a ^ 2 * e ^ 4 * q ^ 2 - 208 * a ^ 4 * e ^ 3 * q + 64 * e
    ^ 5 * q ^ 3 - 112 * a ^ 2 * e ^ 5 * q ^ 2 + 112 * a ^ 4 * e ^ 4 * q + 112 * a ^ 6 * e ^ 3 + (64 / 3) * e ^ 6 * q ^
    3 + 16 * a ^ 4 * e ^ 5 * q - 96 * a ^ 6 * e ^ 4 + (32 / 3) * e ^ 7 * q ^ 3 - (160 / 3) * a ^ 2 * e ^ 7 * q ^ 2 +
    (32 / 3) * a ^ 4 * e ^ 6 * q + 48 * a ^ 6 * e ^ 5 + (64 / 3) * e ^ 8 * q ^ 3 - (64 / 3) * a ^ 2 * e ^ 8 * q ^ 2 +
    (128 / 3) * a ^ 4 * e ^ 7 * q - 32 * a ^ 6 * e ^ 6) / ((q - a ^ 2 + e * q) ^ 2 * (-q + a ^ 2))
noncomputable def gQU0p8 (a q e : ℝ) : ℝ :=
    (-32 * e ^ 6 * q ^ 2 + 64 * a ^ 2 * e ^ 6 * q - 64 * e ^ 7 * q ^ 2 + 64 * a ^ 2 * e ^ 7 * q - 48 * a ^ 4 * e ^ 6 -
    32 * e ^ 8 * q ^ 2) / ((q - a ^ 2 + e * q) ^ 2)
noncomputable def gQU0p9 (a q e : ℝ) : ℝ :=
    (-64 * a ^ 4 * e ^ 3) / ((q - a ^ 2 + e * q) ^ 2)
noncomputable def gQU0 (a q L la D e r s : ℝ) : ℝ :=
    gQU0p0 a q e + D * gQU0p1 a q e + L * gQU0p2 a q e + L * r * gQU0p3 a q e + L ^ 2 * gQU0p4 a q e + la * gQU0p5 a q
    e + la * r * gQU0p6 a q e + r * gQU0p7 a q e + r ^ 2 * gQU0p8 a q e + s * gQU0p9 a q e

noncomputable def gQU1p0 (a q e : ℝ) : ℝ :=
    (-128 * a * q ^ 3 + 384 * a ^ 3 * q ^ 2 + (64 / 3) * a * e ^ 2 * q ^ 3 - 192 * a ^ 3 * e * q ^ 2 - 384 * a ^ 5 * q
    - 48 * a * e ^ 3 * q ^ 3 + 128 * a ^ 3 * e ^ 2 * q ^ 2 + 256 * a ^ 5 * e * q + 128 * a ^ 7 + (112 / 3) * a * e ^ 4
    * q ^ 3 - (64 / 3) * a ^ 3 * e ^ 3 * q ^ 2 - (320 / 3) * a ^ 5 * e ^ 2 * q - 64 * a ^ 7 * e - (128 / 9) * a * e ^
    5 * q ^ 3 - 32 * a ^ 3 * e ^ 4 * q ^ 2 + (560 / 3) * a ^ 5 * e ^ 3 * q + (128 / 3) * a ^ 7 * e ^ 2 + (64 / 9) * a
    * e ^ 6 * q ^ 3 + (128 / 9) * a ^ 3 * e ^ 5 * q ^ 2 - 48 * a ^ 5 * e ^ 4 * q - (352 / 3) * a ^ 7 * e ^ 3 - (128 /
    9) * a ^ 3 * e ^ 6 * q ^ 2 + (128 / 9) * a ^ 5 * e ^ 5 * q + (128 / 3) * a ^ 7 * e ^ 4 + (64 / 9) * a ^ 5 * e ^ 6
    * q - (128 / 9) * a ^ 7 * e ^ 5) / ((q) * (q - a ^ 2 + e * q) * (-q + a ^ 2) ^ 2)
noncomputable def gQU1p1 (a q e : ℝ) : ℝ :=
    (-256 * a ^ 3) / ((q - a ^ 2 + e * q) * (-q + a ^ 2))
noncomputable def gQU1p2 (a q e : ℝ) : ℝ :=
    (128 * a - 64 * a * e + (128 / 3) * a * e ^ 2) / ((q))
noncomputable def gQU1p3 (a q e : ℝ) : ℝ :=
    (128 * a * e ^ 2) / ((q))
noncomputable def gQU1p4 (a q e : ℝ) : ℝ :=
    (-128 * a ^ 3 * q ^ 3 + 128 * a ^ 5 * q ^ 2 - (32 / 3) * a ^ 3 * e ^ 2 * q ^ 3 + 192 * a ^ 5 * e * q ^ 2 + 128 * a
    ^ 7 * q - (64 / 3) * a ^ 3 * e ^ 3 * q ^ 3 - 192 * a ^ 5 * e ^ 2 * q ^ 2 - 256 * a ^ 7 * e * q - 128 * a ^ 9 +
    (128 / 3) * a ^ 5 * e ^ 3 * q ^ 2 + 160 * a ^ 7 * e ^ 2 * q + 64 * a ^ 9 * e - (64 / 3) * a ^ 7 * e ^ 3 * q - (128
    / 3) * a ^ 9 * e ^ 2) / ((q) * (q - a ^ 2 + e * q) * (-q + a ^ 2) ^ 3)
noncomputable def gQU1p5 (a q e : ℝ) : ℝ :=
    (-128 * a ^ 3 * e ^ 2 * q - 64 * a ^ 3 * e ^ 3 * q + 128 * a ^ 5 * e ^ 2) / ((q) * (q - a ^ 2 + e * q) * (-q + a ^
    2))
noncomputable def gQU1p6 (a q e : ℝ) : ℝ :=
    (-128 * a * e ^ 2 * q + 128 * a ^ 3 * e ^ 2 + 64 * a * e ^ 4 * q - 256 * a ^ 3 * e ^ 3 - (64 / 3) * a * e ^ 5 * q
    + 128 * a ^ 3 * e ^ 4 + (128 / 3) * a * e ^ 6 * q - (256 / 3) * a ^ 3 * e ^ 5) / ((q) * (q - a ^ 2 + e * q))
noncomputable def gQU1p7 (a q e : ℝ) : ℝ :=
    (64 * a * e ^ 5 * q + 64 * a * e ^ 6 * q - 128 * a ^ 3 * e ^ 5) / ((q) * (q - a ^ 2 + e * q))
noncomputable def gQU1p8 (a q e : ℝ) : ℝ :=
    (-256 * a ^ 3 * e ^ 2) / ((q) * (q - a ^ 2 + e * q))
noncomputable def gQU1 (a q L la D e r s : ℝ) : ℝ :=
    gQU1p0 a q e + D * gQU1p1 a q e + L * gQU1p2 a q e + L * r * gQU1p3 a q e + la * gQU1p4 a q e + la * r * gQU1p5 a
    q e + r * gQU1p6 a q e + r ^ 2 * gQU1p7 a q e + s * gQU1p8 a q e

noncomputable def gQU2p0 (a q e : ℝ) : ℝ :=
    (-32 * q ^ 4 + 288 * a ^ 2 * q ^ 3 + 16 * e * q ^ 4 + 240 * a ^ 2 * e * q ^ 3 - 544 * a ^ 4 * q ^ 2 + (416 / 3) *
    e ^ 2 * q ^ 4 - (496 / 3) * a ^ 2 * e ^ 2 * q ^ 3 - 400 * a ^ 4 * e * q ^ 2 + 352 * a ^ 6 * q + 96 * e ^ 3 * q ^ 4
    - (224 / 3) * a ^ 2 * e ^ 3 * q ^ 3 + (272 / 3) * a ^ 4 * e ^ 2 * q ^ 2 + 144 * a ^ 6 * e * q - 64 * a ^ 8 + (544
    / 9) * e ^ 4 * q ^ 4 - (368 / 3) * a ^ 2 * e ^ 4 * q ^ 3 - (152 / 3) * a ^ 4 * e ^ 3 * q ^ 2 - 32 * a ^ 6 * e ^ 2
    * q + (848 / 9) * e ^ 5 * q ^ 4 - (1456 / 9) * a ^ 2 * e ^ 5 * q ^ 3 + (296 / 3) * a ^ 4 * e ^ 4 * q ^ 2 + (136 /
    3) * a ^ 6 * e ^ 3 * q + 32 * e ^ 6 * q ^ 4 - (160 / 9) * a ^ 2 * e ^ 6 * q ^ 3 + 64 * a ^ 4 * e ^ 5 * q ^ 2 -
    (376 / 9) * a ^ 6 * e ^ 4 * q + (64 / 9) * e ^ 7 * q ^ 4 - (320 / 9) * a ^ 2 * e ^ 7 * q ^ 3 - (32 / 9) * a ^ 4 *
    e ^ 6 * q ^ 2 + (128 / 9) * a ^ 6 * e ^ 5 * q + (128 / 9) * e ^ 8 * q ^ 4 - (128 / 9) * a ^ 2 * e ^ 8 * q ^ 3 +
    (256 / 9) * a ^ 4 * e ^ 7 * q ^ 2 - (32 / 3) * a ^ 6 * e ^ 6 * q) / ((1 + e) * (q) ^ 2 * (q - a ^ 2 + e * q) ^ 2 *
    (-q + a ^ 2))
noncomputable def gQU2p1 (a q e : ℝ) : ℝ :=
    (-192 * q + 64 * a ^ 2 - 96 * e * q + 32 * e ^ 2 * q - 64 * e ^ 3 * q) / ((1 + e) * (q) ^ 2)
noncomputable def gQU2p2 (a q e : ℝ) : ℝ :=
    (-192 * e ^ 2) / ((q))
noncomputable def gQU2p3 (a q e : ℝ) : ℝ :=
    (-192 * a ^ 4 * q ^ 3 - 288 * a ^ 4 * e * q ^ 3 + 448 * a ^ 6 * q ^ 2 - (352 / 3) * a ^ 4 * e ^ 2 * q ^ 3 + 448 *
    a ^ 6 * e * q ^ 2 - 320 * a ^ 8 * q - (80 / 3) * a ^ 4 * e ^ 3 * q ^ 3 + (224 / 3) * a ^ 6 * e ^ 2 * q ^ 2 - 160 *
    a ^ 8 * e * q + 64 * a ^ 10 - 16 * a ^ 4 * e ^ 4 * q ^ 3 + 32 * a ^ 6 * e ^ 3 * q ^ 2 + (32 / 3) * a ^ 8 * e ^ 2 *
    q - (32 / 3) * a ^ 4 * e ^ 5 * q ^ 3 + (64 / 3) * a ^ 6 * e ^ 4 * q ^ 2 - (64 / 3) * a ^ 8 * e ^ 3 * q) / ((1 + e)
    * (q) ^ 2 * (q - a ^ 2 + e * q) ^ 2 * (-q + a ^ 2) ^ 2)
noncomputable def gQU2p4 (a q e : ℝ) : ℝ :=
    (-64 * a ^ 4 * e ^ 2 * q ^ 2 - 64 * a ^ 4 * e ^ 3 * q ^ 2 + 128 * a ^ 6 * e ^ 2 * q - 32 * a ^ 4 * e ^ 4 * q ^ 2 +
    64 * a ^ 6 * e ^ 3 * q - 64 * a ^ 8 * e ^ 2) / ((q) * (q - a ^ 2 + e * q) ^ 2 * (-q + a ^ 2) ^ 2)
noncomputable def gQU2p5 (a q e : ℝ) : ℝ :=
    (32 * e ^ 2 * q ^ 3 + 32 * a ^ 2 * e ^ 2 * q ^ 2 + 256 * e ^ 3 * q ^ 3 - 544 * a ^ 2 * e ^ 3 * q ^ 2 - 160 * a ^ 4
    * e ^ 2 * q + (992 / 3) * e ^ 4 * q ^ 3 - 512 * a ^ 2 * e ^ 4 * q ^ 2 + 416 * a ^ 4 * e ^ 3 * q + 96 * a ^ 6 * e ^
    2 + (320 / 3) * e ^ 5 * q ^ 3 - (320 / 3) * a ^ 2 * e ^ 5 * q ^ 2 + 160 * a ^ 4 * e ^ 4 * q - 128 * a ^ 6 * e ^ 3
    + (256 / 3) * e ^ 6 * q ^ 3 - 256 * a ^ 2 * e ^ 6 * q ^ 2 + 64 * a ^ 4 * e ^ 5 * q + (160 / 3) * a ^ 6 * e ^ 4 +
    (256 / 3) * e ^ 7 * q ^ 3 - (256 / 3) * a ^ 2 * e ^ 7 * q ^ 2 + (512 / 3) * a ^ 4 * e ^ 6 * q - 64 * a ^ 6 * e ^
    5) / ((q) * (q - a ^ 2 + e * q) ^ 2 * (-q + a ^ 2))
noncomputable def gQU2p6 (a q e : ℝ) : ℝ :=
    (-64 * e ^ 4 * q ^ 2 + 128 * a ^ 2 * e ^ 4 * q - 256 * e ^ 5 * q ^ 2 + 384 * a ^ 2 * e ^ 5 * q - 64 * a ^ 4 * e ^
    4 - 320 * e ^ 6 * q ^ 2 + 256 * a ^ 2 * e ^ 6 * q - 96 * a ^ 4 * e ^ 5 - 128 * e ^ 7 * q ^ 2) / ((q) * (q - a ^ 2
    + e * q) ^ 2)
noncomputable def gQU2 (a q L la D e r s : ℝ) : ℝ :=
    gQU2p0 a q e + L * gQU2p1 a q e + L * r * gQU2p2 a q e + la * gQU2p3 a q e + la * r * gQU2p4 a q e + r * gQU2p5 a
    q e + r ^ 2 * gQU2p6 a q e

noncomputable def gQU3p0 (a q e : ℝ) : ℝ :=
    ((512 / 3) * a * q ^ 4 + (352 / 3) * a * e * q ^ 4 - (1088 / 3) * a ^ 3 * q ^ 3 + 48 * a * e ^ 2 * q ^ 4 - 64 * a
    ^ 3 * e * q ^ 3 + (640 / 3) * a ^ 5 * q ^ 2 + (592 / 9) * a * e ^ 3 * q ^ 4 + (304 / 3) * a ^ 3 * e ^ 2 * q ^ 3 -
    (832 / 3) * a ^ 5 * e * q ^ 2 - (64 / 3) * a ^ 7 * q - (256 / 9) * a * e ^ 4 * q ^ 4 - (1504 / 9) * a ^ 3 * e ^ 3
    * q ^ 3 - (464 / 3) * a ^ 5 * e ^ 2 * q ^ 2 + (1024 / 3) * a ^ 7 * e * q + (64 / 9) * a * e ^ 5 * q ^ 4 + (704 /
    9) * a ^ 3 * e ^ 4 * q ^ 3 + (368 / 3) * a ^ 5 * e ^ 3 * q ^ 2 + (16 / 3) * a ^ 7 * e ^ 2 * q - (352 / 3) * a ^ 9
    * e - (128 / 9) * a ^ 3 * e ^ 5 * q ^ 3 - (640 / 9) * a ^ 5 * e ^ 4 * q ^ 2 - (64 / 9) * a ^ 7 * e ^ 3 * q + (128
    / 3) * a ^ 9 * e ^ 2 + (64 / 9) * a ^ 5 * e ^ 5 * q ^ 2 + (64 / 3) * a ^ 7 * e ^ 4 * q - (128 / 9) * a ^ 9 * e ^
    3) / ((q) ^ 3 * (q - a ^ 2 + e * q) * (-q + a ^ 2) ^ 2)
noncomputable def gQU3p1 (a q e : ℝ) : ℝ :=
    (-(64 / 3) * a - (128 / 3) * a * e) / ((q) ^ 2)
noncomputable def gQU3p2 (a q e : ℝ) : ℝ :=
    (-256 * a - 128 * a * e) / ((q) ^ 2)
noncomputable def gQU3p3 (a q e : ℝ) : ℝ :=
    (-(512 / 3) * a ^ 3 * q ^ 3 - (320 / 3) * a ^ 3 * e * q ^ 3 + (1088 / 3) * a ^ 5 * q ^ 2 - (512 / 3) * a ^ 3 * e ^
    2 * q ^ 3 + 192 * a ^ 5 * e * q ^ 2 - (640 / 3) * a ^ 7 * q + (640 / 3) * a ^ 5 * e ^ 2 * q ^ 2 - 128 * a ^ 7 * e
    * q + (64 / 3) * a ^ 9 - (256 / 3) * a ^ 7 * e ^ 2 * q + (128 / 3) * a ^ 9 * e) / ((q) ^ 2 * (q - a ^ 2 + e * q) *
    (-q + a ^ 2) ^ 3)
noncomputable def gQU3p4 (a q e : ℝ) : ℝ :=
    (256 * a ^ 3 * q ^ 2 + 256 * a ^ 3 * e * q ^ 2 - 512 * a ^ 5 * q - 128 * a ^ 3 * e ^ 2 * q ^ 2 - 256 * a ^ 5 * e *
    q + 256 * a ^ 7) / ((q) ^ 3 * (q - a ^ 2 + e * q) * (-q + a ^ 2))
noncomputable def gQU3p5 (a q e : ℝ) : ℝ :=
    (512 * a * q ^ 2 + 640 * a * e * q ^ 2 - 512 * a ^ 3 * q + 384 * a * e ^ 2 * q ^ 2 + 128 * a ^ 3 * e * q + (320 /
    3) * a * e ^ 3 * q ^ 2 + 128 * a ^ 3 * e ^ 2 * q - 256 * a ^ 5 * e - (320 / 3) * a * e ^ 4 * q ^ 2 - (64 / 3) * a
    ^ 3 * e ^ 3 * q + 128 * a ^ 5 * e ^ 2 + (128 / 3) * a * e ^ 5 * q ^ 2 + 128 * a ^ 3 * e ^ 4 * q - (256 / 3) * a ^
    5 * e ^ 3) / ((q) ^ 3 * (q - a ^ 2 + e * q))
noncomputable def gQU3p6 (a q e : ℝ) : ℝ :=
    (-128 * a * e ^ 3 * q ^ 2 - 64 * a * e ^ 4 * q ^ 2 + 256 * a ^ 3 * e ^ 3 * q + 64 * a * e ^ 5 * q ^ 2 + 192 * a ^
    3 * e ^ 4 * q - 128 * a ^ 5 * e ^ 3) / ((q) ^ 3 * (q - a ^ 2 + e * q))
noncomputable def gQU3p7 (a q e : ℝ) : ℝ :=
    (-256 * a * q - 128 * a * e * q + 256 * a ^ 3) / ((q) ^ 3)
noncomputable def gQU3 (a q L la D e r s : ℝ) : ℝ :=
    gQU3p0 a q e + L * gQU3p1 a q e + L * r * gQU3p2 a q e + la * gQU3p3 a q e + la * r * gQU3p4 a q e + r * gQU3p5 a
    q e + r ^ 2 * gQU3p6 a q e + s * gQU3p7 a q e

noncomputable def gQU4p0 (a q e : ℝ) : ℝ :=
    (-(8 / 3) * q ^ 5 + 32 * a ^ 2 * q ^ 4 - (16 / 3) * e * q ^ 5 + 112 * a ^ 2 * e * q ^ 4 - (272 / 3) * a ^ 4 * q ^
    3 + (116 / 9) * e ^ 2 * q ^ 5 + (1096 / 9) * a ^ 2 * e ^ 2 * q ^ 4 - (856 / 3) * a ^ 4 * e * q ^ 3 + (320 / 3) * a
    ^ 6 * q ^ 2 + (380 / 9) * e ^ 3 * q ^ 5 + (88 / 9) * a ^ 2 * e ^ 3 * q ^ 4 - 324 * a ^ 4 * e ^ 2 * q ^ 3 + 264 * a
    ^ 6 * e * q ^ 2 - 56 * a ^ 8 * q + (404 / 9) * e ^ 4 * q ^ 5 - (776 / 9) * a ^ 2 * e ^ 4 * q ^ 4 - (796 / 9) * a ^
    4 * e ^ 3 * q ^ 3 + (2512 / 9) * a ^ 6 * e ^ 2 * q ^ 2 - (280 / 3) * a ^ 8 * e * q + (32 / 3) * a ^ 10 + (308 / 9)
    * e ^ 5 * q ^ 5 - (904 / 9) * a ^ 2 * e ^ 5 * q ^ 4 + (284 / 3) * a ^ 4 * e ^ 4 * q ^ 3 + (488 / 9) * a ^ 6 * e ^
    3 * q ^ 2 - (976 / 9) * a ^ 8 * e ^ 2 * q + 8 * a ^ 10 * e + (224 / 9) * e ^ 6 * q ^ 5 - 64 * a ^ 2 * e ^ 6 * q ^
    4 + (884 / 9) * a ^ 4 * e ^ 5 * q ^ 3 - (160 / 3) * a ^ 6 * e ^ 4 * q ^ 2 + (56 / 3) * a ^ 10 * e ^ 2 + (80 / 9) *
    e ^ 7 * q ^ 5 - (160 / 9) * a ^ 2 * e ^ 7 * q ^ 4 + (160 / 3) * a ^ 4 * e ^ 6 * q ^ 3 - 32 * a ^ 6 * e ^ 5 * q ^ 2
    + (64 / 9) * a ^ 8 * e ^ 4 * q - (64 / 9) * a ^ 10 * e ^ 3 + (80 / 9) * a ^ 4 * e ^ 7 * q ^ 3 - (128 / 9) * a ^ 6
    * e ^ 6 * q ^ 2 + (32 / 9) * a ^ 10 * e ^ 4) / ((1 + e) * (q) ^ 3 * (q - a ^ 2 + e * q) ^ 2 * (-q + a ^ 2) ^ 2)
noncomputable def gQU4p1 (a q e : ℝ) : ℝ :=
    (16 * q - (32 / 3) * a ^ 2 + 48 * e * q + (64 / 3) * a ^ 2 * e + 32 * e ^ 2 * q) / ((1 + e) * (q) ^ 3)
noncomputable def gQU4p2 (a q e : ℝ) : ℝ :=
    (192 * q + 64 * a ^ 2 + 96 * e * q) / ((q) ^ 3)
noncomputable def gQU4p3 (a q e : ℝ) : ℝ :=
    (-64 * a ^ 2 * e * q ^ 5 - (64 / 3) * a ^ 4 * q ^ 4 - 160 * a ^ 2 * e ^ 2 * q ^ 5 + (560 / 3) * a ^ 4 * e * q ^ 4
    + (224 / 3) * a ^ 6 * q ^ 3 - 128 * a ^ 2 * e ^ 3 * q ^ 5 + (1208 / 3) * a ^ 4 * e ^ 2 * q ^ 4 - 224 * a ^ 6 * e *
    q ^ 3 - 96 * a ^ 8 * q ^ 2 - 32 * a ^ 2 * e ^ 4 * q ^ 5 + (664 / 3) * a ^ 4 * e ^ 3 * q ^ 4 - (1192 / 3) * a ^ 6 *
    e ^ 2 * q ^ 3 + (496 / 3) * a ^ 8 * e * q ^ 2 + (160 / 3) * a ^ 10 * q + (80 / 3) * a ^ 4 * e ^ 4 * q ^ 4 - 136 *
    a ^ 6 * e ^ 3 * q ^ 3 + (592 / 3) * a ^ 8 * e ^ 2 * q ^ 2 - (256 / 3) * a ^ 10 * e * q - (32 / 3) * a ^ 12 - (16 /
    3) * a ^ 6 * e ^ 4 * q ^ 3 + 32 * a ^ 8 * e ^ 3 * q ^ 2 - (128 / 3) * a ^ 10 * e ^ 2 * q + (64 / 3) * a ^ 12 * e)
    / ((1 + e) * (q) ^ 3 * (q - a ^ 2 + e * q) ^ 2 * (-q + a ^ 2) ^ 3)
noncomputable def gQU4p4 (a q e : ℝ) : ℝ :=
    (64 * a ^ 4 * q ^ 2 + 96 * a ^ 4 * e * q ^ 2 - 128 * a ^ 6 * q + 64 * a ^ 4 * e ^ 2 * q ^ 2 - 128 * a ^ 6 * e * q
    + 64 * a ^ 8 + 16 * a ^ 4 * e ^ 3 * q ^ 2 - 32 * a ^ 6 * e ^ 2 * q + 32 * a ^ 8 * e) / ((q) ^ 2 * (q - a ^ 2 + e *
    q) ^ 2 * (-q + a ^ 2) ^ 2)
noncomputable def gQU4p5 (a q e : ℝ) : ℝ :=
    (32 * q ^ 4 - 96 * a ^ 2 * q ^ 3 - 16 * e * q ^ 4 + 48 * a ^ 2 * e * q ^ 3 + 32 * a ^ 4 * q ^ 2 - (448 / 3) * e ^
    2 * q ^ 4 + 240 * a ^ 2 * e ^ 2 * q ^ 3 - 48 * a ^ 4 * e * q ^ 2 + 96 * a ^ 6 * q - 192 * e ^ 3 * q ^ 4 + 336 * a
    ^ 2 * e ^ 3 * q ^ 3 - 80 * a ^ 4 * e ^ 2 * q ^ 2 - 48 * a ^ 6 * e * q - 64 * a ^ 8 - (640 / 3) * e ^ 4 * q ^ 4 +
    448 * a ^ 2 * e ^ 4 * q ^ 3 - (736 / 3) * a ^ 4 * e ^ 3 * q ^ 2 - (32 / 3) * a ^ 6 * e ^ 2 * q + 64 * a ^ 8 * e -
    176 * e ^ 5 * q ^ 4 + (784 / 3) * a ^ 2 * e ^ 5 * q ^ 3 - (704 / 3) * a ^ 4 * e ^ 4 * q ^ 2 + 64 * a ^ 6 * e ^ 3 *
    q - 32 * a ^ 8 * e ^ 2 - (160 / 3) * e ^ 6 * q ^ 4 + (160 / 3) * a ^ 2 * e ^ 6 * q ^ 3 - (256 / 3) * a ^ 4 * e ^ 5
    * q ^ 2 + (64 / 3) * a ^ 8 * e ^ 3) / ((q) ^ 3 * (q - a ^ 2 + e * q) ^ 2 * (-q + a ^ 2))
noncomputable def gQU4p6 (a q e : ℝ) : ℝ :=
    (128 * e ^ 2 * q ^ 3 - 256 * a ^ 2 * e ^ 2 * q ^ 2 + 480 * e ^ 3 * q ^ 3 - 672 * a ^ 2 * e ^ 3 * q ^ 2 + 128 * a ^
    4 * e ^ 2 * q + 656 * e ^ 4 * q ^ 3 - 544 * a ^ 2 * e ^ 4 * q ^ 2 + 128 * a ^ 4 * e ^ 3 * q + 384 * e ^ 5 * q ^ 3
    - 128 * a ^ 2 * e ^ 5 * q ^ 2 + 32 * a ^ 6 * e ^ 3 + 80 * e ^ 6 * q ^ 3) / ((q) ^ 3 * (q - a ^ 2 + e * q) ^ 2)
noncomputable def gQU4p7 (a q e : ℝ) : ℝ :=
    (-64 * q + 64 * a ^ 2 - 32 * e * q) / ((q) ^ 3)
noncomputable def gQU4 (a q L la D e r s : ℝ) : ℝ :=
    gQU4p0 a q e + L * gQU4p1 a q e + L * r * gQU4p2 a q e + la * gQU4p3 a q e + la * r * gQU4p4 a q e + r * gQU4p5 a
    q e + r ^ 2 * gQU4p6 a q e + s * gQU4p7 a q e

noncomputable def gQU5p0 (a q e : ℝ) : ℝ :=
    (-(32 / 3) * a - (80 / 3) * a * e - (80 / 9) * a * e ^ 2 - (64 / 9) * a * e ^ 4) / ((q) ^ 2 * (q - a ^ 2 + e * q))
noncomputable def gQU5p1 (a q e : ℝ) : ℝ :=
    ((32 / 3) * a ^ 3 + (64 / 3) * a ^ 3 * e) / ((q) ^ 2 * (q - a ^ 2 + e * q) * (-q + a ^ 2))
noncomputable def gQU5p2 (a q e : ℝ) : ℝ :=
    (128 * a ^ 3 + 64 * a ^ 3 * e) / ((q) ^ 2 * (q - a ^ 2 + e * q) * (-q + a ^ 2))
noncomputable def gQU5p3 (a q e : ℝ) : ℝ :=
    (-128 * a - 128 * a * e - (64 / 3) * a * e ^ 2 - 64 * a * e ^ 3 - (128 / 3) * a * e ^ 4) / ((q) ^ 2 * (q - a ^ 2 +
    e * q))
noncomputable def gQU5p4 (a q e : ℝ) : ℝ :=
    (-128 * a * e ^ 2 - 192 * a * e ^ 3 - 64 * a * e ^ 4) / ((q) ^ 2 * (q - a ^ 2 + e * q))
noncomputable def gQU5 (a q L la D e r s : ℝ) : ℝ :=
    gQU5p0 a q e + la * gQU5p1 a q e + la * r * gQU5p2 a q e + r * gQU5p3 a q e + r ^ 2 * gQU5p4 a q e

noncomputable def gQU (X a q L la D e r s : ℝ) : ℝ :=
    gQU0 a q L la D e r s + X * gQU1 a q L la D e r s + X ^ 2 * gQU2 a q L la D e r s + X ^ 3 * gQU3 a q L la D e r s
    + X ^ 4 * gQU4 a q L la D e r s + X ^ 5 * gQU5 a q L la D e r s

set_option maxRecDepth 8000 in
theorem qu_repr0 {a q L la D e r s : ℝ} (hq : q ≠ 0) (he : e ≠ 0) (h1 : 1 + e ≠ 0) (ha : -q + a ^ 2 ≠ 0)
    (hau : q - a ^ 2 + e * q ≠ 0) :
    c0 a q (q * (1 + e)) L (e - e ^ 2 / 2 + e ^ 3 / 3 + e ^ 3 * r) la D
      (D + e * dQU1 a q la + e ^ 2 * dQU2 a q la + e ^ 3 * dQU3 a q la + e ^ 3 * s) = gQU0 a q L la D e r s := by
  simp only [c0, gQU0, dQU1, dQU2, dQU3, gQU0p0, gQU0p1, gQU0p2, gQU0p3, gQU0p4, gQU0p5, gQU0p6, gQU0p7, gQU0p8, gQU0p9]
  have d2 : q - q * (1 + e) = - (q * e) := by ring
  have d3 : a ^ 2 - q * (1 + e) = - (q - a ^ 2 + e * q) := by ring
  have d4 : -(a ^ 2) + q = - (-q + a ^ 2) := by ring
  have d5 : a ^ 2 - q = (-q + a ^ 2) := by ring
  simp only [d2, d3, d4, d5]
  generalize hE : -q + a ^ 2 = E at *
  generalize hD : q - a ^ 2 + e * q = DD at *
  generalize hF : 1 + e = F at *
  field_simp
  subst hD hE hF
  ring

set_option maxRecDepth 8000 in
theorem qu_repr1 {a q L la D e r s : ℝ} (hq : q ≠ 0) (he : e ≠ 0) (h1 : 1 + e ≠ 0) (ha : -q + a ^ 2 ≠ 0)
    (hau : q - a ^ 2 + e * q ≠ 0) :
    c1 a q (q * (1 + e)) L (e - e ^ 2 / 2 + e ^ 3 / 3 + e ^ 3 * r) la D
      (D + e * dQU1 a q la + e ^ 2 * dQU2 a q la + e ^ 3 * dQU3 a q la + e ^ 3 * s) = gQU1 a q L la D e r s := by
  simp only [c1, gQU1, dQU1, dQU2, dQU3, gQU1p0, gQU1p1, gQU1p2, gQU1p3, gQU1p4, gQU1p5, gQU1p6, gQU1p7, gQU1p8]
  have d2 : q - q * (1 + e) = - (q * e) := by ring
  have d3 : a ^ 2 - q * (1 + e) = - (q - a ^ 2 + e * q) := by ring
  have d4 : -(a ^ 2) + q = - (-q + a ^ 2) := by ring
  have d5 : a ^ 2 - q = (-q + a ^ 2) := by ring
  simp only [d2, d3, d4, d5]
  generalize hE : -q + a ^ 2 = E at *
  generalize hD : q - a ^ 2 + e * q = DD at *
  generalize hF : 1 + e = F at *
  field_simp
  subst hD hE hF
  ring

set_option maxRecDepth 8000 in
theorem qu_repr2 {a q L la D e r s : ℝ} (hq : q ≠ 0) (he : e ≠ 0) (h1 : 1 + e ≠ 0) (ha : -q + a ^ 2 ≠ 0)
    (hau : q - a ^ 2 + e * q ≠ 0) :
    c2 a q (q * (1 + e)) L (e - e ^ 2 / 2 + e ^ 3 / 3 + e ^ 3 * r) la D
      (D + e * dQU1 a q la + e ^ 2 * dQU2 a q la + e ^ 3 * dQU3 a q la + e ^ 3 * s) = gQU2 a q L la D e r s := by
  simp only [c2, gQU2, dQU1, dQU2, dQU3, gQU2p0, gQU2p1, gQU2p2, gQU2p3, gQU2p4, gQU2p5, gQU2p6]
  have d2 : q - q * (1 + e) = - (q * e) := by ring
  have d3 : a ^ 2 - q * (1 + e) = - (q - a ^ 2 + e * q) := by ring
  have d4 : -(a ^ 2) + q = - (-q + a ^ 2) := by ring
  have d5 : a ^ 2 - q = (-q + a ^ 2) := by ring
  simp only [d2, d3, d4, d5]
  generalize hE : -q + a ^ 2 = E at *
  generalize hD : q - a ^ 2 + e * q = DD at *
  generalize hF : 1 + e = F at *
  field_simp
  subst hD hE hF
  ring

set_option maxRecDepth 8000 in
theorem qu_repr3 {a q L la D e r s : ℝ} (hq : q ≠ 0) (he : e ≠ 0) (h1 : 1 + e ≠ 0) (ha : -q + a ^ 2 ≠ 0)
    (hau : q - a ^ 2 + e * q ≠ 0) :
    c3 a q (q * (1 + e)) L (e - e ^ 2 / 2 + e ^ 3 / 3 + e ^ 3 * r) la D
      (D + e * dQU1 a q la + e ^ 2 * dQU2 a q la + e ^ 3 * dQU3 a q la + e ^ 3 * s) = gQU3 a q L la D e r s := by
  simp only [c3, gQU3, dQU1, dQU2, dQU3, gQU3p0, gQU3p1, gQU3p2, gQU3p3, gQU3p4, gQU3p5, gQU3p6, gQU3p7]
  have d2 : q - q * (1 + e) = - (q * e) := by ring
  have d3 : a ^ 2 - q * (1 + e) = - (q - a ^ 2 + e * q) := by ring
  have d4 : -(a ^ 2) + q = - (-q + a ^ 2) := by ring
  have d5 : a ^ 2 - q = (-q + a ^ 2) := by ring
  simp only [d2, d3, d4, d5]
  generalize hE : -q + a ^ 2 = E at *
  generalize hD : q - a ^ 2 + e * q = DD at *
  generalize hF : 1 + e = F at *
  field_simp
  subst hD hE hF
  ring

set_option maxRecDepth 8000 in
theorem qu_repr4 {a q L la D e r s : ℝ} (hq : q ≠ 0) (he : e ≠ 0) (h1 : 1 + e ≠ 0) (ha : -q + a ^ 2 ≠ 0)
    (hau : q - a ^ 2 + e * q ≠ 0) :
    c4 a q (q * (1 + e)) L (e - e ^ 2 / 2 + e ^ 3 / 3 + e ^ 3 * r) la D
      (D + e * dQU1 a q la + e ^ 2 * dQU2 a q la + e ^ 3 * dQU3 a q la + e ^ 3 * s) = gQU4 a q L la D e r s := by
  simp only [c4, gQU4, dQU1, dQU2, dQU3, gQU4p0, gQU4p1, gQU4p2, gQU4p3, gQU4p4, gQU4p5, gQU4p6, gQU4p7]
  have d2 : q - q * (1 + e) = - (q * e) := by ring
  have d3 : a ^ 2 - q * (1 + e) = - (q - a ^ 2 + e * q) := by ring
  have d4 : -(a ^ 2) + q = - (-q + a ^ 2) := by ring
  have d5 : a ^ 2 - q = (-q + a ^ 2) := by ring
  simp only [d2, d3, d4, d5]
  generalize hE : -q + a ^ 2 = E at *
  generalize hD : q - a ^ 2 + e * q = DD at *
  generalize hF : 1 + e = F at *
  field_simp
  subst hD hE hF
  ring

set_option maxRecDepth 8000 in
theorem qu_repr5 {a q L la D e r s : ℝ} (hq : q ≠ 0) (he : e ≠ 0) (h1 : 1 + e ≠ 0) (ha : -q + a ^ 2 ≠ 0)
    (hau : q - a ^ 2 + e * q ≠ 0) :
    c5 a q (q * (1 + e)) L (e - e ^ 2 / 2 + e ^ 3 / 3 + e ^ 3 * r) la D
      (D + e * dQU1 a q la + e ^ 2 * dQU2 a q la + e ^ 3 * dQU3 a q la + e ^ 3 * s) = gQU5 a q L la D e r s := by
  simp only [c5, gQU5, dQU1, dQU2, dQU3, gQU5p0, gQU5p1, gQU5p2, gQU5p3, gQU5p4]
  have d2 : q - q * (1 + e) = - (q * e) := by ring
  have d3 : a ^ 2 - q * (1 + e) = - (q - a ^ 2 + e * q) := by ring
  have d4 : -(a ^ 2) + q = - (-q + a ^ 2) := by ring
  have d5 : a ^ 2 - q = (-q + a ^ 2) := by ring
  simp only [d2, d3, d4, d5]
  generalize hE : -q + a ^ 2 = E at *
  generalize hD : q - a ^ 2 + e * q = DD at *
  generalize hF : 1 + e = F at *
  field_simp
  subst hD hE hF
  ring

theorem qu_repr {X a q L la D e r s : ℝ} (hq : q ≠ 0) (he : e ≠ 0) (h1 : 1 + e ≠ 0) (ha : -q + a ^ 2 ≠ 0)
    (hau : q - a ^ 2 + e * q ≠ 0) :
    lamX X a q (q * (1 + e)) L (e - e ^ 2 / 2 + e ^ 3 / 3 + e ^ 3 * r) la D
      (D + e * dQU1 a q la + e ^ 2 * dQU2 a q la + e ^ 3 * dQU3 a q la + e ^ 3 * s) = gQU X a q L la D e r s := by
  unfold lamX gQU
  rw [qu_repr0 hq he h1 ha hau, qu_repr1 hq he h1 ha hau, qu_repr2 hq he h1 ha hau, qu_repr3 hq he h1 ha hau, qu_repr4 hq he h1 ha hau, qu_repr5 hq he h1 ha hau]

theorem gQU_zero {X a q L la D : ℝ} (hq : q ≠ 0) (ha : -q + a ^ 2 ≠ 0) :
    gQU X a q L la D 0 0 0 = lamQUX X a q L la D := by
  have h : ∀ k l : ℝ, k = l → X * k = X * l := fun k l h => by rw [h]
  unfold gQU lamQUX
  have h0 : gQU0 a q L la D 0 0 0 = b0 a q L la D := by
    simp only [gQU0, b0, gQU0p0, gQU0p1, gQU0p2, gQU0p3, gQU0p4, gQU0p5, gQU0p6, gQU0p7, gQU0p8, gQU0p9]
    have d3 : q - a ^ 2 = - (-q + a ^ 2) := by ring
    have d5 : a ^ 2 - q = (-q + a ^ 2) := by ring
    simp only [zero_mul, mul_zero, add_zero, sub_zero, ne_eq, OfNat.ofNat_ne_zero, not_false_eq_true, zero_pow]
    simp only [d3, d5]
    generalize hE : -q + a ^ 2 = E at *
    field_simp
    subst hE
    ring
  have h1 : gQU1 a q L la D 0 0 0 = b1 a q L la D := by
    simp only [gQU1, b1, gQU1p0, gQU1p1, gQU1p2, gQU1p3, gQU1p4, gQU1p5, gQU1p6, gQU1p7, gQU1p8]
    have d3 : q - a ^ 2 = - (-q + a ^ 2) := by ring
    have d5 : a ^ 2 - q = (-q + a ^ 2) := by ring
    simp only [zero_mul, mul_zero, add_zero, sub_zero, ne_eq, OfNat.ofNat_ne_zero, not_false_eq_true, zero_pow]
    simp only [d3, d5]
    generalize hE : -q + a ^ 2 = E at *
    field_simp
    subst hE
    ring
  have h2 : gQU2 a q L la D 0 0 0 = b2 a q L la D := by
    simp only [gQU2, b2, gQU2p0, gQU2p1, gQU2p2, gQU2p3, gQU2p4, gQU2p5, gQU2p6]
    have d3 : q - a ^ 2 = - (-q + a ^ 2) := by ring
    have d5 : a ^ 2 - q = (-q + a ^ 2) := by ring
    simp only [zero_mul, mul_zero, add_zero, sub_zero, ne_eq, OfNat.ofNat_ne_zero, not_false_eq_true, zero_pow]
    simp only [d3, d5]
    generalize hE : -q + a ^ 2 = E at *
    field_simp
    subst hE
    ring
  have h3 : gQU3 a q L la D 0 0 0 = b3 a q L la D := by
    simp only [gQU3, b3, gQU3p0, gQU3p1, gQU3p2, gQU3p3, gQU3p4, gQU3p5, gQU3p6, gQU3p7]
    have d3 : q - a ^ 2 = - (-q + a ^ 2) := by ring
    have d5 : a ^ 2 - q = (-q + a ^ 2) := by ring
    simp only [zero_mul, mul_zero, add_zero, sub_zero, ne_eq, OfNat.ofNat_ne_zero, not_false_eq_true, zero_pow]
    simp only [d3, d5]
    generalize hE : -q + a ^ 2 = E at *
    field_simp
    subst hE
    ring
  have h4 : gQU4 a q L la D 0 0 0 = b4 a q L la D := by
    simp only [gQU4, b4, gQU4p0, gQU4p1, gQU4p2, gQU4p3, gQU4p4, gQU4p5, gQU4p6, gQU4p7]
    have d3 : q - a ^ 2 = - (-q + a ^ 2) := by ring
    have d5 : a ^ 2 - q = (-q + a ^ 2) := by ring
    simp only [zero_mul, mul_zero, add_zero, sub_zero, ne_eq, OfNat.ofNat_ne_zero, not_false_eq_true, zero_pow]
    simp only [d3, d5]
    generalize hE : -q + a ^ 2 = E at *
    field_simp
    subst hE
    ring
  have h5 : gQU5 a q L la D 0 0 0 = b5 a q L la D := by
    simp only [gQU5, b5, gQU5p0, gQU5p1, gQU5p2, gQU5p3, gQU5p4]
    have d3 : q - a ^ 2 = - (-q + a ^ 2) := by ring
    have d5 : a ^ 2 - q = (-q + a ^ 2) := by ring
    simp only [zero_mul, mul_zero, add_zero, sub_zero, ne_eq, OfNat.ofNat_ne_zero, not_false_eq_true, zero_pow]
    simp only [d3, d5]
    generalize hE : -q + a ^ 2 = E at *
    field_simp
    subst hE
    ring
  rw [h0, h1, h2, h3, h4, h5]


theorem gQU0_cont {a q L la D : ℝ} (hq : q ≠ 0) (ha : -q + a ^ 2 ≠ 0) :
    ContinuousAt (fun z : ℝ × (ℝ × ℝ) => gQU0 a q L la D z.1 z.2.1 z.2.2) (0, (0, 0)) := by
  have h3 : q - a ^ 2 + 0 * q ≠ 0 := by intro h; apply ha; linear_combination -h
  have hgQU0p0 : ContinuousAt (fun z : ℝ × (ℝ × ℝ) => gQU0p0 a q z.1) (0, (0, 0)) := by
    unfold gQU0p0
    fun_prop (disch := cdisch)
  have hgQU0p1 : ContinuousAt (fun z : ℝ × (ℝ × ℝ) => gQU0p1 a q z.1) (0, (0, 0)) := by
    unfold gQU0p1
    fun_prop (disch := cdisch)
  have hgQU0p2 : ContinuousAt (fun z : ℝ × (ℝ × ℝ) => gQU0p2 a q z.1) (0, (0, 0)) := by
    unfold gQU0p2
    fun_prop (disch := cdisch)
  have hgQU0p3 : ContinuousAt (fun z : ℝ × (ℝ × ℝ) => gQU0p3 a q z.1) (0, (0, 0)) := by
    unfold gQU0p3
    fun_prop (disch := cdisch)
  have hgQU0p4 : ContinuousAt (fun z : ℝ × (ℝ × ℝ) => gQU0p4 a q z.1) (0, (0, 0)) := by
    unfold gQU0p4
    fun_prop (disch := cdisch)
  have hgQU0p5 : ContinuousAt (fun z : ℝ × (ℝ × ℝ) => gQU0p5 a q z.1) (0, (0, 0)) := by
    unfold gQU0p5
    fun_prop (disch := cdisch)
  have hgQU0p6 : ContinuousAt (fun z : ℝ × (ℝ × ℝ) => gQU0p6 a q z.1) (0, (0, 0)) := by
    unfold gQU0p6
    fun_prop (disch := cdisch)
  have hgQU0p7 : ContinuousAt (fun z : ℝ × (ℝ × ℝ) => gQU0p7 a q z.1) (0, (0, 0)) := by
    unfold gQU0p7
    fun_prop (disch := cdisch)
  have hgQU0p8 : ContinuousAt (fun z : ℝ × (ℝ × ℝ) => gQU0p8 a q z.1) (0, (0, 0)) := by
    unfold gQU0p8
    fun_prop (disch := cdisch)
  have hgQU0p9 : ContinuousAt (fun z : ℝ × (ℝ × ℝ) => gQU0p9 a q z.1) (0, (0, 0)) := by
    unfold gQU0p9
    fun_prop (disch := cdisch)
  exact (((((((((hgQU0p0).add
    ((show ContinuousAt (fun z : ℝ × (ℝ × ℝ) => D) (0, (0, 0)) by fun_prop).mul hgQU0p1)).add
    ((show ContinuousAt (fun z : ℝ × (ℝ × ℝ) => L) (0, (0, 0)) by fun_prop).mul hgQU0p2)).add
    ((show ContinuousAt (fun z : ℝ × (ℝ × ℝ) => L * z.2.1) (0, (0, 0)) by fun_prop).mul hgQU0p3)).add
    ((show ContinuousAt (fun z : ℝ × (ℝ × ℝ) => L ^ 2) (0, (0, 0)) by fun_prop).mul hgQU0p4)).add
    ((show ContinuousAt (fun z : ℝ × (ℝ × ℝ) => la) (0, (0, 0)) by fun_prop).mul hgQU0p5)).add
    ((show ContinuousAt (fun z : ℝ × (ℝ × ℝ) => la * z.2.1) (0, (0, 0)) by fun_prop).mul hgQU0p6)).add
    ((show ContinuousAt (fun z : ℝ × (ℝ × ℝ) => z.2.1) (0, (0, 0)) by fun_prop).mul hgQU0p7)).add
    ((show ContinuousAt (fun z : ℝ × (ℝ × ℝ) => z.2.1 ^ 2) (0, (0, 0)) by fun_prop).mul hgQU0p8)).add
    ((show ContinuousAt (fun z : ℝ × (ℝ × ℝ) => z.2.2) (0, (0, 0)) by fun_prop).mul hgQU0p9)

theorem gQU1_cont {a q L la D : ℝ} (hq : q ≠ 0) (ha : -q + a ^ 2 ≠ 0) :
    ContinuousAt (fun z : ℝ × (ℝ × ℝ) => gQU1 a q L la D z.1 z.2.1 z.2.2) (0, (0, 0)) := by
  have h3 : q - a ^ 2 + 0 * q ≠ 0 := by intro h; apply ha; linear_combination -h
  have hgQU1p0 : ContinuousAt (fun z : ℝ × (ℝ × ℝ) => gQU1p0 a q z.1) (0, (0, 0)) := by
    unfold gQU1p0
    fun_prop (disch := cdisch)
  have hgQU1p1 : ContinuousAt (fun z : ℝ × (ℝ × ℝ) => gQU1p1 a q z.1) (0, (0, 0)) := by
    unfold gQU1p1
    fun_prop (disch := cdisch)
  have hgQU1p2 : ContinuousAt (fun z : ℝ × (ℝ × ℝ) => gQU1p2 a q z.1) (0, (0, 0)) := by
    unfold gQU1p2
    fun_prop (disch := cdisch)
  have hgQU1p3 : ContinuousAt (fun z : ℝ × (ℝ × ℝ) => gQU1p3 a q z.1) (0, (0, 0)) := by
    unfold gQU1p3
    fun_prop (disch := cdisch)
  have hgQU1p4 : ContinuousAt (fun z : ℝ × (ℝ × ℝ) => gQU1p4 a q z.1) (0, (0, 0)) := by
    unfold gQU1p4
    fun_prop (disch := cdisch)
  have hgQU1p5 : ContinuousAt (fun z : ℝ × (ℝ × ℝ) => gQU1p5 a q z.1) (0, (0, 0)) := by
    unfold gQU1p5
    fun_prop (disch := cdisch)
  have hgQU1p6 : ContinuousAt (fun z : ℝ × (ℝ × ℝ) => gQU1p6 a q z.1) (0, (0, 0)) := by
    unfold gQU1p6
    fun_prop (disch := cdisch)
  have hgQU1p7 : ContinuousAt (fun z : ℝ × (ℝ × ℝ) => gQU1p7 a q z.1) (0, (0, 0)) := by
    unfold gQU1p7
    fun_prop (disch := cdisch)
  have hgQU1p8 : ContinuousAt (fun z : ℝ × (ℝ × ℝ) => gQU1p8 a q z.1) (0, (0, 0)) := by
    unfold gQU1p8
    fun_prop (disch := cdisch)
  exact ((((((((hgQU1p0).add
    ((show ContinuousAt (fun z : ℝ × (ℝ × ℝ) => D) (0, (0, 0)) by fun_prop).mul hgQU1p1)).add
    ((show ContinuousAt (fun z : ℝ × (ℝ × ℝ) => L) (0, (0, 0)) by fun_prop).mul hgQU1p2)).add
    ((show ContinuousAt (fun z : ℝ × (ℝ × ℝ) => L * z.2.1) (0, (0, 0)) by fun_prop).mul hgQU1p3)).add
    ((show ContinuousAt (fun z : ℝ × (ℝ × ℝ) => la) (0, (0, 0)) by fun_prop).mul hgQU1p4)).add
    ((show ContinuousAt (fun z : ℝ × (ℝ × ℝ) => la * z.2.1) (0, (0, 0)) by fun_prop).mul hgQU1p5)).add
    ((show ContinuousAt (fun z : ℝ × (ℝ × ℝ) => z.2.1) (0, (0, 0)) by fun_prop).mul hgQU1p6)).add
    ((show ContinuousAt (fun z : ℝ × (ℝ × ℝ) => z.2.1 ^ 2) (0, (0, 0)) by fun_prop).mul hgQU1p7)).add
    ((show ContinuousAt (fun z : ℝ × (ℝ × ℝ) => z.2.2) (0, (0, 0)) by fun_prop).mul hgQU1p8)

theorem gQU2_cont {a q L la D : ℝ} (hq : q ≠ 0) (ha : -q + a ^ 2 ≠ 0) :
    ContinuousAt (fun z : ℝ × (ℝ × ℝ) => gQU2 a q L la D z.1 z.2.1 z.2.2) (0, (0, 0)) := by
  have h3 : q - a ^ 2 + 0 * q ≠ 0 := by intro h; apply ha; linear_combination -h
  have hgQU2p0 : ContinuousAt (fun z : ℝ × (ℝ × ℝ) => gQU2p0 a q z.1) (0, (0, 0)) := by
    unfold gQU2p0
    fun_prop (disch := cdisch)
  have hgQU2p1 : ContinuousAt (fun z : ℝ × (ℝ × ℝ) => gQU2p1 a q z.1) (0, (0, 0)) := by
    unfold gQU2p1
    fun_prop (disch := cdisch)
  have hgQU2p2 : ContinuousAt (fun z : ℝ × (ℝ × ℝ) => gQU2p2 a q z.1) (0, (0, 0)) := by
    unfold gQU2p2
    fun_prop (disch := cdisch)
  have hgQU2p3 : ContinuousAt (fun z : ℝ × (ℝ × ℝ) => gQU2p3 a q z.1) (0, (0, 0)) := by
    unfold gQU2p3
    fun_prop (disch := cdisch)
  have hgQU2p4 : ContinuousAt (fun z : ℝ × (ℝ × ℝ) => gQU2p4 a q z.1) (0, (0, 0)) := by
    unfold gQU2p4
    fun_prop (disch := cdisch)
  have hgQU2p5 : ContinuousAt (fun z : ℝ × (ℝ × ℝ) => gQU2p5 a q z.1) (0, (0, 0)) := by
    unfold gQU2p5
    fun_prop (disch := cdisch)
  have hgQU2p6 : ContinuousAt (fun z : ℝ × (ℝ × ℝ) => gQU2p6 a q z.1) (0, (0, 0)) := by
    unfold gQU2p6
    fun_prop (disch := cdisch)
  exact ((((((hgQU2p0).add
    ((show ContinuousAt (fun z : ℝ × (ℝ × ℝ) => L) (0, (0, 0)) by fun_prop).mul hgQU2p1)).add
    ((show ContinuousAt (fun z : ℝ × (ℝ × ℝ) => L * z.2.1) (0, (0, 0)) by fun_prop).mul hgQU2p2)).add
    ((show ContinuousAt (fun z : ℝ × (ℝ × ℝ) => la) (0, (0, 0)) by fun_prop).mul hgQU2p3)).add
    ((show ContinuousAt (fun z : ℝ × (ℝ × ℝ) => la * z.2.1) (0, (0, 0)) by fun_prop).mul hgQU2p4)).add
    ((show ContinuousAt (fun z : ℝ × (ℝ × ℝ) => z.2.1) (0, (0, 0)) by fun_prop).mul hgQU2p5)).add
    ((show ContinuousAt (fun z : ℝ × (ℝ × ℝ) => z.2.1 ^ 2) (0, (0, 0)) by fun_prop).mul hgQU2p6)

theorem gQU3_cont {a q L la D : ℝ} (hq : q ≠ 0) (ha : -q + a ^ 2 ≠ 0) :
    ContinuousAt (fun z : ℝ × (ℝ × ℝ) => gQU3 a q L la D z.1 z.2.1 z.2.2) (0, (0, 0)) := by
  have h3 : q - a ^ 2 + 0 * q ≠ 0 := by intro h; apply ha; linear_combination -h
  have hgQU3p0 : ContinuousAt (fun z : ℝ × (ℝ × ℝ) => gQU3p0 a q z.1) (0, (0, 0)) := by
    unfold gQU3p0
    fun_prop (disch := cdisch)
  have hgQU3p1 : ContinuousAt (fun z : ℝ × (ℝ × ℝ) => gQU3p1 a q z.1) (0, (0, 0)) := by
    unfold gQU3p1
    fun_prop (disch := cdisch)
  have hgQU3p2 : ContinuousAt (fun z : ℝ × (ℝ × ℝ) => gQU3p2 a q z.1) (0, (0, 0)) := by
    unfold gQU3p2
    fun_prop (disch := cdisch)
  have hgQU3p3 : ContinuousAt (fun z : ℝ × (ℝ × ℝ) => gQU3p3 a q z.1) (0, (0, 0)) := by
    unfold gQU3p3
    fun_prop (disch := cdisch)
  have hgQU3p4 : ContinuousAt (fun z : ℝ × (ℝ × ℝ) => gQU3p4 a q z.1) (0, (0, 0)) := by
    unfold gQU3p4
    fun_prop (disch := cdisch)
  have hgQU3p5 : ContinuousAt (fun z : ℝ × (ℝ × ℝ) => gQU3p5 a q z.1) (0, (0, 0)) := by
    unfold gQU3p5
    fun_prop (disch := cdisch)
  have hgQU3p6 : ContinuousAt (fun z : ℝ × (ℝ × ℝ) => gQU3p6 a q z.1) (0, (0, 0)) := by
    unfold gQU3p6
    fun_prop (disch := cdisch)
  have hgQU3p7 : ContinuousAt (fun z : ℝ × (ℝ × ℝ) => gQU3p7 a q z.1) (0, (0, 0)) := by
    unfold gQU3p7
    fun_prop (disch := cdisch)
  exact (((((((hgQU3p0).add
    ((show ContinuousAt (fun z : ℝ × (ℝ × ℝ) => L) (0, (0, 0)) by fun_prop).mul hgQU3p1)).add
    ((show ContinuousAt (fun z : ℝ × (ℝ × ℝ) => L * z.2.1) (0, (0, 0)) by fun_prop).mul hgQU3p2)).add
    ((show ContinuousAt (fun z : ℝ × (ℝ × ℝ) => la) (0, (0, 0)) by fun_prop).mul hgQU3p3)).add
    ((show ContinuousAt (fun z : ℝ × (ℝ × ℝ) => la * z.2.1) (0, (0, 0)) by fun_prop).mul hgQU3p4)).add
    ((show ContinuousAt (fun z : ℝ × (ℝ × ℝ) => z.2.1) (0, (0, 0)) by fun_prop).mul hgQU3p5)).add
    ((show ContinuousAt (fun z : ℝ × (ℝ × ℝ) => z.2.1 ^ 2) (0, (0, 0)) by fun_prop).mul hgQU3p6)).add
    ((show ContinuousAt (fun z : ℝ × (ℝ × ℝ) => z.2.2) (0, (0, 0)) by fun_prop).mul hgQU3p7)

theorem gQU4_cont {a q L la D : ℝ} (hq : q ≠ 0) (ha : -q + a ^ 2 ≠ 0) :
    ContinuousAt (fun z : ℝ × (ℝ × ℝ) => gQU4 a q L la D z.1 z.2.1 z.2.2) (0, (0, 0)) := by
  have h3 : q - a ^ 2 + 0 * q ≠ 0 := by intro h; apply ha; linear_combination -h
  have hgQU4p0 : ContinuousAt (fun z : ℝ × (ℝ × ℝ) => gQU4p0 a q z.1) (0, (0, 0)) := by
    unfold gQU4p0
    fun_prop (disch := cdisch)
  have hgQU4p1 : ContinuousAt (fun z : ℝ × (ℝ × ℝ) => gQU4p1 a q z.1) (0, (0, 0)) := by
    unfold gQU4p1
    fun_prop (disch := cdisch)
  have hgQU4p2 : ContinuousAt (fun z : ℝ × (ℝ × ℝ) => gQU4p2 a q z.1) (0, (0, 0)) := by
    unfold gQU4p2
    fun_prop (disch := cdisch)
  have hgQU4p3 : ContinuousAt (fun z : ℝ × (ℝ × ℝ) => gQU4p3 a q z.1) (0, (0, 0)) := by
    unfold gQU4p3
    fun_prop (disch := cdisch)
  have hgQU4p4 : ContinuousAt (fun z : ℝ × (ℝ × ℝ) => gQU4p4 a q z.1) (0, (0, 0)) := by
    unfold gQU4p4
    fun_prop (disch := cdisch)
  have hgQU4p5 : ContinuousAt (fun z : ℝ × (ℝ × ℝ) => gQU4p5 a q z.1) (0, (0, 0)) := by
    unfold gQU4p5
    fun_prop (disch := cdisch)
  have hgQU4p6 : ContinuousAt (fun z : ℝ × (ℝ × ℝ) => gQU4p6 a q z.1) (0, (0, 0)) := by
    unfold gQU4p6
    fun_prop (disch := cdisch)
  have hgQU4p7 : ContinuousAt (fun z : ℝ × (ℝ × ℝ) => gQU4p7 a q z.1) (0, (0, 0)) := by
    unfold gQU4p7
    fun_prop (disch := cdisch)
  exact (((((((hgQU4p0).add
    ((show ContinuousAt (fun z : ℝ × (ℝ × ℝ) => L) (0, (0, 0)) by fun_prop).mul hgQU4p1)).add
    ((show ContinuousAt (fun z : ℝ × (ℝ × ℝ) => L * z.2.1) (0, (0, 0)) by fun_prop).mul hgQU4p2)).add
    ((show ContinuousAt (fun z : ℝ × (ℝ × ℝ) => la) (0, (0, 0)) by fun_prop).mul hgQU4p3)).add
    ((show ContinuousAt (fun z : ℝ × (ℝ × ℝ) => la * z.2.1) (0, (0, 0)) by fun_prop).mul hgQU4p4)).add
    ((show ContinuousAt (fun z : ℝ × (ℝ × ℝ) => z.2.1) (0, (0, 0)) by fun_prop).mul hgQU4p5)).add
    ((show ContinuousAt (fun z : ℝ × (ℝ × ℝ) => z.2.1 ^ 2) (0, (0, 0)) by fun_prop).mul hgQU4p6)).add
    ((show ContinuousAt (fun z : ℝ × (ℝ × ℝ) => z.2.2) (0, (0, 0)) by fun_prop).mul hgQU4p7)

theorem gQU5_cont {a q L la D : ℝ} (hq : q ≠ 0) (ha : -q + a ^ 2 ≠ 0) :
    ContinuousAt (fun z : ℝ × (ℝ × ℝ) => gQU5 a q L la D z.1 z.2.1 z.2.2) (0, (0, 0)) := by
  have h3 : q - a ^ 2 + 0 * q ≠ 0 := by intro h; apply ha; linear_combination -h
  have hgQU5p0 : ContinuousAt (fun z : ℝ × (ℝ × ℝ) => gQU5p0 a q z.1) (0, (0, 0)) := by
    unfold gQU5p0
    fun_prop (disch := cdisch)
  have hgQU5p1 : ContinuousAt (fun z : ℝ × (ℝ × ℝ) => gQU5p1 a q z.1) (0, (0, 0)) := by
    unfold gQU5p1
    fun_prop (disch := cdisch)
  have hgQU5p2 : ContinuousAt (fun z : ℝ × (ℝ × ℝ) => gQU5p2 a q z.1) (0, (0, 0)) := by
    unfold gQU5p2
    fun_prop (disch := cdisch)
  have hgQU5p3 : ContinuousAt (fun z : ℝ × (ℝ × ℝ) => gQU5p3 a q z.1) (0, (0, 0)) := by
    unfold gQU5p3
    fun_prop (disch := cdisch)
  have hgQU5p4 : ContinuousAt (fun z : ℝ × (ℝ × ℝ) => gQU5p4 a q z.1) (0, (0, 0)) := by
    unfold gQU5p4
    fun_prop (disch := cdisch)
  exact ((((hgQU5p0).add
    ((show ContinuousAt (fun z : ℝ × (ℝ × ℝ) => la) (0, (0, 0)) by fun_prop).mul hgQU5p1)).add
    ((show ContinuousAt (fun z : ℝ × (ℝ × ℝ) => la * z.2.1) (0, (0, 0)) by fun_prop).mul hgQU5p2)).add
    ((show ContinuousAt (fun z : ℝ × (ℝ × ℝ) => z.2.1) (0, (0, 0)) by fun_prop).mul hgQU5p3)).add
    ((show ContinuousAt (fun z : ℝ × (ℝ × ℝ) => z.2.1 ^ 2) (0, (0, 0)) by fun_prop).mul hgQU5p4)

theorem gQU_cont {X a q L la D : ℝ} (hq : q ≠ 0) (ha : -q + a ^ 2 ≠ 0) :
    ContinuousAt (fun z : ℝ × (ℝ × ℝ) => gQU X a q L la D z.1 z.2.1 z.2.2) (0, (0, 0)) := by
  exact (((((gQU0_cont hq ha).add (continuousAt_const.mul (gQU1_cont hq ha))).add (continuousAt_const.mul (gQU2_cont hq ha))).add (continuousAt_const.mul (gQU3_cont hq ha))).add (continuousAt_const.mul (gQU4_cont hq ha))).add (continuousAt_const.mul (gQU5_cont hq ha))

end Himalaya.Cont
