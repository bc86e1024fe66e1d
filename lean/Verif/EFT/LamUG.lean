import Verif.EFT.Lam

/-!
# `getDeltaLambdaAlphatAlphas` near `mU3 = m3`

Printed by tools/mk_lam.py.
-/

set_option linter.unusedSimpArgs false
set_option linter.unusedVariables false
set_option linter.style.longLine false

namespace Himalaya.Cont
open Filter Topology


noncomputable def gUG0p0 (U q e : ℝ) : ℝ :=
    (-96 * q ^ 3 + 384 * U ^ 2 * q ^ 2 + 960 * U ^ 2 * e * q ^ 2 - 416 * U ^ 4 * q + 32 * e ^ 2 * q ^ 3 + 752 * U ^ 2
    * e ^ 2 * q ^ 2 - 2112 * U ^ 4 * e * q + 128 * U ^ 6 + 32 * e ^ 3 * q ^ 3 + 96 * U ^ 2 * e ^ 3 * q ^ 2 - 4400 * U
    ^ 4 * e ^ 2 * q + 640 * U ^ 6 * e + 144 * e ^ 4 * q ^ 3 - 432 * U ^ 2 * e ^ 4 * q ^ 2 - 4736 * U ^ 4 * e ^ 3 * q +
    1056 * U ^ 6 * e ^ 2 + 128 * e ^ 5 * q ^ 3 - 896 * U ^ 2 * e ^ 5 * q ^ 2 - 2464 * U ^ 4 * e ^ 4 * q + 128 * U ^ 6
    * e ^ 3 + 32 * e ^ 6 * q ^ 3 - 864 * U ^ 2 * e ^ 6 * q ^ 2 + 256 * U ^ 4 * e ^ 5 * q - 1664 * U ^ 6 * e ^ 4 - 384
    * U ^ 2 * e ^ 7 * q ^ 2 + 1648 * U ^ 4 * e ^ 6 * q - 1920 * U ^ 6 * e ^ 5 - 64 * U ^ 2 * e ^ 8 * q ^ 2 + 1600 * U
    ^ 4 * e ^ 7 * q - 320 * U ^ 6 * e ^ 6 + 864 * U ^ 4 * e ^ 8 * q + 896 * U ^ 6 * e ^ 7 + 256 * U ^ 4 * e ^ 9 * q +
    768 * U ^ 6 * e ^ 8 + 32 * U ^ 4 * e ^ 10 * q + 256 * U ^ 6 * e ^ 9 + 32 * U ^ 6 * e ^ 10) / ((q) * (2 + e) ^ 2 *
    (q - U ^ 2 - 2 * U ^ 2 * e - U ^ 2 * e ^ 2) ^ 2)
noncomputable def gUG0p1 (U q e : ℝ) : ℝ :=
    (-64 * U ^ 4 - 256 * U ^ 4 * e - 384 * U ^ 4 * e ^ 2 - 256 * U ^ 4 * e ^ 3 - 64 * U ^ 4 * e ^ 4) / ((q - U ^ 2 - 2
    * U ^ 2 * e - U ^ 2 * e ^ 2) ^ 2)
noncomputable def gUG0p2 (U q e : ℝ) : ℝ :=
    (32 * q - 32 * U ^ 2 - 64 * e * q - 64 * U ^ 2 * e - 32 * e ^ 2 * q - 32 * U ^ 2 * e ^ 2) / ((q))
noncomputable def gUG0p3 (U q e : ℝ) : ℝ :=
    (-96)
noncomputable def gUG0p4 (U q e : ℝ) : ℝ :=
    (-96)
noncomputable def gUG0p5 (U q e : ℝ) : ℝ :=
    (32 * q ^ 3 - 128 * U ^ 2 * q ^ 2 - 192 * e * q ^ 3 + 64 * U ^ 2 * e * q ^ 2 + 32 * U ^ 4 * q - 368 * e ^ 2 * q ^
    3 + 1232 * U ^ 2 * e ^ 2 * q ^ 2 - 192 * U ^ 4 * e * q - 128 * U ^ 6 - 224 * e ^ 3 * q ^ 3 + 2208 * U ^ 2 * e ^ 3
    * q ^ 2 - 1520 * U ^ 4 * e ^ 2 * q - 896 * U ^ 6 * e - 48 * e ^ 4 * q ^ 3 + 1712 * U ^ 2 * e ^ 4 * q ^ 2 - 3712 *
    U ^ 4 * e ^ 3 * q - 2720 * U ^ 6 * e ^ 2 + 640 * U ^ 2 * e ^ 5 * q ^ 2 - 4640 * U ^ 4 * e ^ 4 * q - 4672 * U ^ 6 *
    e ^ 3 + 96 * U ^ 2 * e ^ 6 * q ^ 2 - 3328 * U ^ 4 * e ^ 5 * q - 4960 * U ^ 6 * e ^ 4 - 1392 * U ^ 4 * e ^ 6 * q -
    3328 * U ^ 6 * e ^ 5 - 320 * U ^ 4 * e ^ 7 * q - 1376 * U ^ 6 * e ^ 6 - 32 * U ^ 4 * e ^ 8 * q - 320 * U ^ 6 * e ^
    7 - 32 * U ^ 6 * e ^ 8) / ((q) * (2 + e) ^ 2 * (q - U ^ 2 - 2 * U ^ 2 * e - U ^ 2 * e ^ 2) ^ 2)
noncomputable def gUG0p6 (U q e : ℝ) : ℝ :=
    (16 * q ^ 2 - 32 * U ^ 2 * q + 64 * e * q ^ 2 - 192 * U ^ 2 * e * q + 16 * U ^ 4 + 96 * e ^ 2 * q ^ 2 - 480 * U ^
    2 * e ^ 2 * q + 128 * U ^ 4 * e + 64 * e ^ 3 * q ^ 2 - 640 * U ^ 2 * e ^ 3 * q + 384 * U ^ 4 * e ^ 2 + 16 * e ^ 4
    * q ^ 2 - 480 * U ^ 2 * e ^ 4 * q + 576 * U ^ 4 * e ^ 3 - 192 * U ^ 2 * e ^ 5 * q + 464 * U ^ 4 * e ^ 4 - 32 * U ^
    2 * e ^ 6 * q + 192 * U ^ 4 * e ^ 5 + 32 * U ^ 4 * e ^ 6) / ((2 + e) ^ 2 * (q - U ^ 2 - 2 * U ^ 2 * e - U ^ 2 * e
    ^ 2) ^ 2)
noncomputable def gUG0p7 (U q e : ℝ) : ℝ :=
    (-32 * q ^ 2 + 64 * U ^ 2 * q + 128 * U ^ 2 * e * q - 48 * U ^ 4 + 64 * U ^ 2 * e ^ 2 * q - 192 * U ^ 4 * e - 288
    * U ^ 4 * e ^ 2 - 192 * U ^ 4 * e ^ 3 - 48 * U ^ 4 * e ^ 4) / ((q - U ^ 2 - 2 * U ^ 2 * e - U ^ 2 * e ^ 2) ^ 2)
noncomputable def gUG0p8 (U q e : ℝ) : ℝ :=
    (-48 * q ^ 3 + 96 * U ^ 2 * q ^ 2 - 256 * e * q ^ 3 + 704 * U ^ 2 * e * q ^ 2 - 48 * U ^ 4 * q - 576 * e ^ 2 * q ^
    3 + 2272 * U ^ 2 * e ^ 2 * q ^ 2 - 448 * U ^ 4 * e * q - 704 * e ^ 3 * q ^ 3 + 4224 * U ^ 2 * e ^ 3 * q ^ 2 - 1952
    * U ^ 4 * e ^ 2 * q - 496 * e ^ 4 * q ^ 3 + 4960 * U ^ 2 * e ^ 4 * q ^ 2 - 5056 * U ^ 4 * e ^ 3 * q - 128 * U ^ 6
    * e ^ 2 - 192 * e ^ 5 * q ^ 3 + 3776 * U ^ 2 * e ^ 5 * q ^ 2 - 8496 * U ^ 4 * e ^ 4 * q - 896 * U ^ 6 * e ^ 3 - 32
    * e ^ 6 * q ^ 3 + 1824 * U ^ 2 * e ^ 6 * q ^ 2 - 9664 * U ^ 4 * e ^ 5 * q - 2720 * U ^ 6 * e ^ 4 + 512 * U ^ 2 * e
    ^ 7 * q ^ 2 - 7584 * U ^ 4 * e ^ 6 * q - 4672 * U ^ 6 * e ^ 5 + 64 * U ^ 2 * e ^ 8 * q ^ 2 - 4096 * U ^ 4 * e ^ 7
    * q - 4960 * U ^ 6 * e ^ 6 - 1472 * U ^ 4 * e ^ 8 * q - 3328 * U ^ 6 * e ^ 7 - 320 * U ^ 4 * e ^ 9 * q - 1376 * U
    ^ 6 * e ^ 8 - 32 * U ^ 4 * e ^ 10 * q - 320 * U ^ 6 * e ^ 9 - 32 * U ^ 6 * e ^ 10) / ((q) * (2 + e) ^ 2 * (q - U ^
    2 - 2 * U ^ 2 * e - U ^ 2 * e ^ 2) ^ 2)
noncomputable def gUG0p9 (U q e : ℝ) : ℝ :=
    (-64 - 256 * e - 384 * e ^ 2 - 256 * e ^ 3 - 64 * e ^ 4) / ((2 + e) ^ 2)
noncomputable def gUG0 (U q L lU e r s D : ℝ) : ℝ :=
    gUG0p0 U q e + D * gUG0p1 U q e + L * gUG0p2 U q e + L * lU * gUG0p3 U q e + L ^ 2 * gUG0p4 U q e + lU * gUG0p5 U
    q e + lU * r * gUG0p6 U q e + lU ^ 2 * gUG0p7 U q e + r * gUG0p8 U q e + s * gUG0p9 U q e

noncomputable def gUG1p0 (U q e : ℝ) : ℝ :=
    (512 * U + 1536 * U * e + 1536 * U * e ^ 2 + 512 * U * e ^ 3) / ((q - U ^ 2) * (2 + e))
noncomputable def gUG1p1 (U q e : ℝ) : ℝ :=
    (-256 * U ^ 3 - 768 * U ^ 3 * e - 768 * U ^ 3 * e ^ 2 - 256 * U ^ 3 * e ^ 3) / ((q - U ^ 2) * (q - U ^ 2 - 2 * U ^
    2 * e - U ^ 2 * e ^ 2))
noncomputable def gUG1p2 (U q e : ℝ) : ℝ :=
    (-128 * U - 128 * U * e) / ((q - U ^ 2))
noncomputable def gUG1p3 (U q e : ℝ) : ℝ :=
    (384 * U * q + 704 * U * e * q - 384 * U ^ 3 + 320 * U * e ^ 2 * q - 1728 * U ^ 3 * e - 64 * U * e ^ 3 * q - 2880
    * U ^ 3 * e ^ 2 - 64 * U * e ^ 4 * q - 1984 * U ^ 3 * e ^ 3 - 192 * U ^ 3 * e ^ 4 + 384 * U ^ 3 * e ^ 5 + 128 * U
    ^ 3 * e ^ 6) / ((q - U ^ 2) * (2 + e) * (q - U ^ 2 - 2 * U ^ 2 * e - U ^ 2 * e ^ 2))
noncomputable def gUG1p4 (U q e : ℝ) : ℝ :=
    (64 * U * e * q + 192 * U * e ^ 2 * q - 64 * U ^ 3 * e + 192 * U * e ^ 3 * q - 448 * U ^ 3 * e ^ 2 + 64 * U * e ^
    4 * q - 1088 * U ^ 3 * e ^ 3 - 1216 * U ^ 3 * e ^ 4 - 640 * U ^ 3 * e ^ 5 - 128 * U ^ 3 * e ^ 6) / ((q - U ^ 2) *
    (2 + e) * (q - U ^ 2 - 2 * U ^ 2 * e - U ^ 2 * e ^ 2))
noncomputable def gUG1p5 (U q e : ℝ) : ℝ :=
    (-64 * U * q - 64 * U * e * q) / ((q - U ^ 2) * (q - U ^ 2 - 2 * U ^ 2 * e - U ^ 2 * e ^ 2))
noncomputable def gUG1p6 (U q e : ℝ) : ℝ :=
    (-256 * U * e - 768 * U * e ^ 2 - 768 * U * e ^ 3 - 256 * U * e ^ 4) / ((q - U ^ 2) * (2 + e))
noncomputable def gUG1 (U q L lU e r s D : ℝ) : ℝ :=
    gUG1p0 U q e + D * gUG1p1 U q e + L * lU * gUG1p2 U q e + lU * gUG1p3 U q e + lU * r * gUG1p4 U q e + lU ^ 2 *
    gUG1p5 U q e + s * gUG1p6 U q e

noncomputable def gUG2p0 (U q e : ℝ) : ℝ :=
    (128 * U ^ 2 + 128 * e * q + 320 * U ^ 2 * e + 256 * e ^ 2 * q + 64 * e ^ 3 * q - 576 * U ^ 2 * e ^ 3 - 128 * e ^
    4 * q - 384 * U ^ 2 * e ^ 4 - 64 * e ^ 5 * q + 192 * U ^ 2 * e ^ 5 + 256 * U ^ 2 * e ^ 6 + 64 * U ^ 2 * e ^ 7) /
    ((q) * (2 + e) * (q - U ^ 2 - 2 * U ^ 2 * e - U ^ 2 * e ^ 2))
noncomputable def gUG2p1 (U q e : ℝ) : ℝ :=
    (64 + 128 * e + 64 * e ^ 2) / ((q))
noncomputable def gUG2p2 (U q e : ℝ) : ℝ :=
    (192) / ((q - U ^ 2))
noncomputable def gUG2p3 (U q e : ℝ) : ℝ :=
    (-64 * q ^ 3 + 256 * U ^ 2 * q ^ 2 + 512 * e * q ^ 3 - 384 * U ^ 2 * e * q ^ 2 + 64 * U ^ 4 * q + 768 * e ^ 2 * q
    ^ 3 - 3040 * U ^ 2 * e ^ 2 * q ^ 2 + 1152 * U ^ 4 * e * q - 256 * U ^ 6 + 320 * e ^ 3 * q ^ 3 - 4544 * U ^ 2 * e ^
    3 * q ^ 2 + 4896 * U ^ 4 * e ^ 2 * q - 1792 * U ^ 6 * e + 32 * e ^ 4 * q ^ 3 - 2848 * U ^ 2 * e ^ 4 * q ^ 2 + 9600
    * U ^ 4 * e ^ 3 * q - 5440 * U ^ 6 * e ^ 2 - 768 * U ^ 2 * e ^ 5 * q ^ 2 + 10240 * U ^ 4 * e ^ 4 * q - 9344 * U ^
    6 * e ^ 3 - 64 * U ^ 2 * e ^ 6 * q ^ 2 + 6144 * U ^ 4 * e ^ 5 * q - 9920 * U ^ 6 * e ^ 4 + 1952 * U ^ 4 * e ^ 6 *
    q - 6656 * U ^ 6 * e ^ 5 + 256 * U ^ 4 * e ^ 7 * q - 2752 * U ^ 6 * e ^ 6 - 640 * U ^ 6 * e ^ 7 - 64 * U ^ 6 * e ^
    8) / ((q) * (2 + e) ^ 2 * (q - U ^ 2) * (q - U ^ 2 - 2 * U ^ 2 * e - U ^ 2 * e ^ 2) ^ 2)
noncomputable def gUG2p4 (U q e : ℝ) : ℝ :=
    (32 * q ^ 2 - 64 * U ^ 2 * q + 128 * e * q ^ 2 - 384 * U ^ 2 * e * q + 32 * U ^ 4 + 192 * e ^ 2 * q ^ 2 - 960 * U
    ^ 2 * e ^ 2 * q + 256 * U ^ 4 * e + 128 * e ^ 3 * q ^ 2 - 1280 * U ^ 2 * e ^ 3 * q + 1024 * U ^ 4 * e ^ 2 + 32 * e
    ^ 4 * q ^ 2 - 960 * U ^ 2 * e ^ 4 * q + 2432 * U ^ 4 * e ^ 3 - 384 * U ^ 2 * e ^ 5 * q + 3552 * U ^ 4 * e ^ 4 - 64
    * U ^ 2 * e ^ 6 * q + 3200 * U ^ 4 * e ^ 5 + 1728 * U ^ 4 * e ^ 6 + 512 * U ^ 4 * e ^ 7 + 64 * U ^ 4 * e ^ 8) /
    ((2 + e) ^ 2 * (q - U ^ 2) * (q - U ^ 2 - 2 * U ^ 2 * e - U ^ 2 * e ^ 2) ^ 2)
noncomputable def gUG2p5 (U q e : ℝ) : ℝ :=
    (64 * q ^ 3 - 256 * U ^ 2 * q ^ 2 - 256 * U ^ 2 * e * q ^ 2 + 352 * U ^ 4 * q - 128 * U ^ 2 * e ^ 2 * q ^ 2 + 896
    * U ^ 4 * e * q - 160 * U ^ 6 + 832 * U ^ 4 * e ^ 2 * q - 640 * U ^ 6 * e + 384 * U ^ 4 * e ^ 3 * q - 960 * U ^ 6
    * e ^ 2 + 96 * U ^ 4 * e ^ 4 * q - 640 * U ^ 6 * e ^ 3 - 160 * U ^ 6 * e ^ 4) / ((q - U ^ 2) ^ 2 * (q - U ^ 2 - 2
    * U ^ 2 * e - U ^ 2 * e ^ 2) ^ 2)
noncomputable def gUG2p6 (U q e : ℝ) : ℝ :=
    (64 * e * q + 256 * e ^ 2 * q - 128 * U ^ 2 * e ^ 2 + 384 * e ^ 3 * q - 576 * U ^ 2 * e ^ 3 + 256 * e ^ 4 * q -
    1024 * U ^ 2 * e ^ 4 + 64 * e ^ 5 * q - 896 * U ^ 2 * e ^ 5 - 384 * U ^ 2 * e ^ 6 - 64 * U ^ 2 * e ^ 7) / ((q) *
    (2 + e) * (q - U ^ 2 - 2 * U ^ 2 * e - U ^ 2 * e ^ 2))
noncomputable def gUG2 (U q L lU e r s D : ℝ) : ℝ :=
    gUG2p0 U q e + L * gUG2p1 U q e + L * lU * gUG2p2 U q e + lU * gUG2p3 U q e + lU * r * gUG2p4 U q e + lU ^ 2 *
    gUG2p5 U q e + r * gUG2p6 U q e

noncomputable def gUG3p0 (U q e : ℝ) : ℝ :=
    (-512 * U * q - 768 * U * e * q + 512 * U ^ 3 - 256 * U * e ^ 2 * q + 768 * U ^ 3 * e + 1280 * U ^ 3 * e ^ 2 +
    1536 * U ^ 3 * e ^ 3 + 512 * U ^ 3 * e ^ 4) / ((q - U ^ 2) ^ 3)
noncomputable def gUG3p1 (U q e : ℝ) : ℝ :=
    (-128 * U * q - 128 * U * e * q + 128 * U ^ 3 + 640 * U ^ 3 * e + 768 * U ^ 3 * e ^ 2 + 256 * U ^ 3 * e ^ 3) / ((q
    - U ^ 2) ^ 3)
noncomputable def gUG3p2 (U q e : ℝ) : ℝ :=
    (256 * U + 256 * U * e) / ((q - U ^ 2) ^ 2)
noncomputable def gUG3p3 (U q e : ℝ) : ℝ :=
    (128 * U * q + 128 * U * e * q + 128 * U ^ 3 + 128 * U ^ 3 * e) / ((q - U ^ 2) ^ 3)
noncomputable def gUG3p4 (U q e : ℝ) : ℝ :=
    (256 * U * e * q ^ 2 - 1024 * U ^ 3 * q + 256 * U * e ^ 2 * q ^ 2 - 512 * U ^ 3 * e * q + 1024 * U ^ 5 - 128 * U *
    e ^ 3 * q ^ 2 + 3072 * U ^ 3 * e ^ 2 * q + 2304 * U ^ 5 * e - 128 * U * e ^ 4 * q ^ 2 + 3712 * U ^ 3 * e ^ 3 * q -
    1280 * U ^ 5 * e ^ 2 + 640 * U ^ 3 * e ^ 4 * q - 8192 * U ^ 5 * e ^ 3 - 768 * U ^ 3 * e ^ 5 * q - 8704 * U ^ 5 * e
    ^ 4 - 256 * U ^ 3 * e ^ 6 * q - 2560 * U ^ 5 * e ^ 5 + 1536 * U ^ 5 * e ^ 6 + 1280 * U ^ 5 * e ^ 7 + 256 * U ^ 5 *
    e ^ 8) / ((q - U ^ 2 - 2 * U ^ 2 * e - U ^ 2 * e ^ 2) * (q - U ^ 2) ^ 3 * (2 + e))
noncomputable def gUG3p5 (U q e : ℝ) : ℝ :=
    (128 * U * e * q ^ 2 + 384 * U * e ^ 2 * q ^ 2 - 256 * U ^ 3 * e * q + 384 * U * e ^ 3 * q ^ 2 - 256 * U ^ 3 * e ^
    2 * q + 128 * U ^ 5 * e + 128 * U * e ^ 4 * q ^ 2 + 1024 * U ^ 3 * e ^ 3 * q - 128 * U ^ 5 * e ^ 2 + 2048 * U ^ 3
    * e ^ 4 * q - 2432 * U ^ 5 * e ^ 3 + 1280 * U ^ 3 * e ^ 5 * q - 6272 * U ^ 5 * e ^ 4 + 256 * U ^ 3 * e ^ 6 * q -
    7680 * U ^ 5 * e ^ 5 - 5120 * U ^ 5 * e ^ 6 - 1792 * U ^ 5 * e ^ 7 - 256 * U ^ 5 * e ^ 8) / ((q - U ^ 2 - 2 * U ^
    2 * e - U ^ 2 * e ^ 2) * (q - U ^ 2) ^ 3 * (2 + e))
noncomputable def gUG3p6 (U q e : ℝ) : ℝ :=
    (192 * U * q ^ 2 + 192 * U * e * q ^ 2 + 128 * U ^ 3 * e * q - 192 * U ^ 5 + 192 * U ^ 3 * e ^ 2 * q - 832 * U ^ 5
    * e + 64 * U ^ 3 * e ^ 3 * q - 1472 * U ^ 5 * e ^ 2 - 1344 * U ^ 5 * e ^ 3 - 640 * U ^ 5 * e ^ 4 - 128 * U ^ 5 * e
    ^ 5) / ((q - U ^ 2 - 2 * U ^ 2 * e - U ^ 2 * e ^ 2) * (q - U ^ 2) ^ 3)
noncomputable def gUG3p7 (U q e : ℝ) : ℝ :=
    (128 * U * e ^ 2 * q + 128 * U * e ^ 3 * q - 128 * U ^ 3 * e ^ 2 - 640 * U ^ 3 * e ^ 3 - 768 * U ^ 3 * e ^ 4 - 256
    * U ^ 3 * e ^ 5) / ((q - U ^ 2) ^ 3)
noncomputable def gUG3 (U q L lU e r s D : ℝ) : ℝ :=
    gUG3p0 U q e + D * gUG3p1 U q e + L * gUG3p2 U q e + L * lU * gUG3p3 U q e + lU * gUG3p4 U q e + lU * r * gUG3p5 U
    q e + lU ^ 2 * gUG3p6 U q e + s * gUG3p7 U q e

noncomputable def gUG4p0 (U q e : ℝ) : ℝ :=
    (704 * q ^ 4 - 2112 * U ^ 2 * q ^ 3 + 384 * e * q ^ 4 - 4224 * U ^ 2 * e * q ^ 3 + 1984 * U ^ 4 * q ^ 2 - 352 * e
    ^ 2 * q ^ 4 - 1504 * U ^ 2 * e ^ 2 * q ^ 3 + 6656 * U ^ 4 * e * q ^ 2 - 448 * U ^ 6 * q - 256 * e ^ 3 * q ^ 4 +
    2496 * U ^ 2 * e ^ 3 * q ^ 3 + 6080 * U ^ 4 * e ^ 2 * q ^ 2 - 2176 * U ^ 6 * e * q - 128 * U ^ 8 + 96 * e ^ 4 * q
    ^ 4 + 2240 * U ^ 2 * e ^ 4 * q ^ 3 - 3840 * U ^ 4 * e ^ 3 * q ^ 2 - 3168 * U ^ 6 * e ^ 2 * q - 640 * U ^ 8 * e +
    128 * e ^ 5 * q ^ 4 - 11424 * U ^ 4 * e ^ 4 * q ^ 2 + 1728 * U ^ 6 * e ^ 3 * q - 1056 * U ^ 8 * e ^ 2 + 32 * e ^ 6
    * q ^ 4 - 768 * U ^ 2 * e ^ 6 * q ^ 3 - 8448 * U ^ 4 * e ^ 5 * q ^ 2 + 11520 * U ^ 6 * e ^ 4 * q - 128 * U ^ 8 * e
    ^ 3 - 384 * U ^ 2 * e ^ 7 * q ^ 3 - 1920 * U ^ 4 * e ^ 6 * q ^ 2 + 16640 * U ^ 6 * e ^ 5 * q + 1664 * U ^ 8 * e ^
    4 - 64 * U ^ 2 * e ^ 8 * q ^ 3 + 960 * U ^ 4 * e ^ 7 * q ^ 2 + 12576 * U ^ 6 * e ^ 6 * q + 1920 * U ^ 8 * e ^ 5 +
    832 * U ^ 4 * e ^ 8 * q ^ 2 + 5440 * U ^ 6 * e ^ 7 * q + 320 * U ^ 8 * e ^ 6 + 256 * U ^ 4 * e ^ 9 * q ^ 2 + 1280
    * U ^ 6 * e ^ 8 * q - 896 * U ^ 8 * e ^ 7 + 32 * U ^ 4 * e ^ 10 * q ^ 2 + 128 * U ^ 6 * e ^ 9 * q - 768 * U ^ 8 *
    e ^ 8 - 256 * U ^ 8 * e ^ 9 - 32 * U ^ 8 * e ^ 10) / ((q) * (2 + e) ^ 2 * (q - U ^ 2) ^ 3 * (q - U ^ 2 - 2 * U ^ 2
    * e - U ^ 2 * e ^ 2) ^ 2)
noncomputable def gUG4p1 (U q e : ℝ) : ℝ :=
    (-32 * q + 32 * U ^ 2 + 128 * U ^ 2 * e + 64 * U ^ 2 * e ^ 2) / ((q - U ^ 2) ^ 3)
noncomputable def gUG4p2 (U q e : ℝ) : ℝ :=
    (-224 * q - 32 * U ^ 2 - 64 * e * q - 64 * U ^ 2 * e - 32 * e ^ 2 * q - 32 * U ^ 2 * e ^ 2) / ((q) * (q - U ^ 2) ^
    2)
noncomputable def gUG4p3 (U q e : ℝ) : ℝ :=
    (-96 * q - 160 * U ^ 2 - 128 * U ^ 2 * e - 64 * U ^ 2 * e ^ 2) / ((q - U ^ 2) ^ 3)
noncomputable def gUG4p4 (U q e : ℝ) : ℝ :=
    (32 * q ^ 4 + 1056 * U ^ 2 * q ^ 3 - 256 * e * q ^ 4 + 1856 * U ^ 2 * e * q ^ 3 - 2336 * U ^ 4 * q ^ 2 - 384 * e ^
    2 * q ^ 4 + 2576 * U ^ 2 * e ^ 2 * q ^ 3 - 8448 * U ^ 4 * e * q ^ 2 + 1120 * U ^ 6 * q - 160 * e ^ 3 * q ^ 4 +
    2688 * U ^ 2 * e ^ 3 * q ^ 3 - 13376 * U ^ 4 * e ^ 2 * q ^ 2 + 5952 * U ^ 6 * e * q + 128 * U ^ 8 - 16 * e ^ 4 * q
    ^ 4 + 1504 * U ^ 2 * e ^ 4 * q ^ 3 - 13088 * U ^ 4 * e ^ 3 * q ^ 2 + 13584 * U ^ 6 * e ^ 2 * q + 896 * U ^ 8 * e +
    384 * U ^ 2 * e ^ 5 * q ^ 3 - 9040 * U ^ 4 * e ^ 4 * q ^ 2 + 17664 * U ^ 6 * e ^ 3 * q + 2720 * U ^ 8 * e ^ 2 + 32
    * U ^ 2 * e ^ 6 * q ^ 3 - 4224 * U ^ 4 * e ^ 5 * q ^ 2 + 14752 * U ^ 6 * e ^ 4 * q + 4672 * U ^ 8 * e ^ 3 - 1136 *
    U ^ 4 * e ^ 6 * q ^ 2 + 8448 * U ^ 6 * e ^ 5 * q + 4960 * U ^ 8 * e ^ 4 - 128 * U ^ 4 * e ^ 7 * q ^ 2 + 3344 * U ^
    6 * e ^ 6 * q + 3328 * U ^ 8 * e ^ 5 + 832 * U ^ 6 * e ^ 7 * q + 1376 * U ^ 8 * e ^ 6 + 96 * U ^ 6 * e ^ 8 * q +
    320 * U ^ 8 * e ^ 7 + 32 * U ^ 8 * e ^ 8) / ((q) * (2 + e) ^ 2 * (q - U ^ 2) ^ 3 * (q - U ^ 2 - 2 * U ^ 2 * e - U
    ^ 2 * e ^ 2) ^ 2)
noncomputable def gUG4p5 (U q e : ℝ) : ℝ :=
    (-16 * q ^ 3 + 16 * U ^ 2 * q ^ 2 - 64 * e * q ^ 3 + 128 * U ^ 2 * e * q ^ 2 + 16 * U ^ 4 * q - 96 * e ^ 2 * q ^ 3
    + 384 * U ^ 2 * e ^ 2 * q ^ 2 + 64 * U ^ 4 * e * q - 16 * U ^ 6 - 64 * e ^ 3 * q ^ 3 + 576 * U ^ 2 * e ^ 3 * q ^ 2
    - 32 * U ^ 4 * e ^ 2 * q - 128 * U ^ 6 * e - 16 * e ^ 4 * q ^ 3 + 464 * U ^ 2 * e ^ 4 * q ^ 2 - 576 * U ^ 4 * e ^
    3 * q - 512 * U ^ 6 * e ^ 2 + 192 * U ^ 2 * e ^ 5 * q ^ 2 - 1296 * U ^ 4 * e ^ 4 * q - 1216 * U ^ 6 * e ^ 3 + 32 *
    U ^ 2 * e ^ 6 * q ^ 2 - 1408 * U ^ 4 * e ^ 5 * q - 1776 * U ^ 6 * e ^ 4 - 832 * U ^ 4 * e ^ 6 * q - 1600 * U ^ 6 *
    e ^ 5 - 256 * U ^ 4 * e ^ 7 * q - 864 * U ^ 6 * e ^ 6 - 32 * U ^ 4 * e ^ 8 * q - 256 * U ^ 6 * e ^ 7 - 32 * U ^ 6
    * e ^ 8) / ((2 + e) ^ 2 * (q - U ^ 2) ^ 3 * (q - U ^ 2 - 2 * U ^ 2 * e - U ^ 2 * e ^ 2) ^ 2)
noncomputable def gUG4p6 (U q e : ℝ) : ℝ :=
    (-16 * q ^ 4 + 64 * U ^ 2 * q ^ 3 + 16 * U ^ 4 * q ^ 2 - 64 * U ^ 4 * e * q ^ 2 - 192 * U ^ 6 * q + 96 * U ^ 4 * e
    ^ 2 * q ^ 2 - 512 * U ^ 6 * e * q + 128 * U ^ 8 + 128 * U ^ 4 * e ^ 3 * q ^ 2 - 640 * U ^ 6 * e ^ 2 * q + 576 * U
    ^ 8 * e + 32 * U ^ 4 * e ^ 4 * q ^ 2 - 640 * U ^ 6 * e ^ 3 * q + 1056 * U ^ 8 * e ^ 2 - 480 * U ^ 6 * e ^ 4 * q +
    1024 * U ^ 8 * e ^ 3 - 192 * U ^ 6 * e ^ 5 * q + 576 * U ^ 8 * e ^ 4 - 32 * U ^ 6 * e ^ 6 * q + 192 * U ^ 8 * e ^
    5 + 32 * U ^ 8 * e ^ 6) / ((q - U ^ 2) ^ 4 * (q - U ^ 2 - 2 * U ^ 2 * e - U ^ 2 * e ^ 2) ^ 2)
noncomputable def gUG4p7 (U q e : ℝ) : ℝ :=
    (-32 * q ^ 3 + 64 * U ^ 2 * q ^ 2 - 128 * e * q ^ 3 + 384 * U ^ 2 * e * q ^ 2 - 32 * U ^ 4 * q - 320 * e ^ 2 * q ^
    3 + 1088 * U ^ 2 * e ^ 2 * q ^ 2 - 256 * U ^ 4 * e * q - 512 * e ^ 3 * q ^ 3 + 2176 * U ^ 2 * e ^ 3 * q ^ 2 - 896
    * U ^ 4 * e ^ 2 * q - 448 * e ^ 4 * q ^ 3 + 3168 * U ^ 2 * e ^ 4 * q ^ 2 - 2048 * U ^ 4 * e ^ 3 * q - 128 * U ^ 6
    * e ^ 2 - 192 * e ^ 5 * q ^ 3 + 3008 * U ^ 2 * e ^ 5 * q ^ 2 - 3648 * U ^ 4 * e ^ 4 * q - 896 * U ^ 6 * e ^ 3 - 32
    * e ^ 6 * q ^ 3 + 1696 * U ^ 2 * e ^ 6 * q ^ 2 - 5056 * U ^ 4 * e ^ 5 * q - 2720 * U ^ 6 * e ^ 4 + 512 * U ^ 2 * e
    ^ 7 * q ^ 2 - 5024 * U ^ 4 * e ^ 6 * q - 4672 * U ^ 6 * e ^ 5 + 64 * U ^ 2 * e ^ 8 * q ^ 2 - 3328 * U ^ 4 * e ^ 7
    * q - 4960 * U ^ 6 * e ^ 6 - 1376 * U ^ 4 * e ^ 8 * q - 3328 * U ^ 6 * e ^ 7 - 320 * U ^ 4 * e ^ 9 * q - 1376 * U
    ^ 6 * e ^ 8 - 32 * U ^ 4 * e ^ 10 * q - 320 * U ^ 6 * e ^ 9 - 32 * U ^ 6 * e ^ 10) / ((q) * (2 + e) ^ 2 * (q - U ^
    2) ^ 2 * (q - U ^ 2 - 2 * U ^ 2 * e - U ^ 2 * e ^ 2) ^ 2)
noncomputable def gUG4p8 (U q e : ℝ) : ℝ :=
    (32 * e ^ 2 * q - 32 * U ^ 2 * e ^ 2 - 128 * U ^ 2 * e ^ 3 - 64 * U ^ 2 * e ^ 4) / ((q - U ^ 2) ^ 3)
noncomputable def gUG4 (U q L lU e r s D : ℝ) : ℝ :=
    gUG4p0 U q e + D * gUG4p1 U q e + L * gUG4p2 U q e + L * lU * gUG4p3 U q e + lU * gUG4p4 U q e + lU * r * gUG4p5 U
    q e + lU ^ 2 * gUG4p6 U q e + r * gUG4p7 U q e + s * gUG4p8 U q e

noncomputable def gUG5p0 (U q e : ℝ) : ℝ :=
    (-256 * U - 640 * U * e - 384 * U * e ^ 2 + 128 * U * e ^ 3 + 128 * U * e ^ 4) / ((q - U ^ 2 - 2 * U ^ 2 * e - U ^
    2 * e ^ 2) * (2 + e) * (q - U ^ 2) ^ 2)
noncomputable def gUG5p1 (U q e : ℝ) : ℝ :=
    (-384 * U * q - 704 * U * e * q - 128 * U ^ 3 - 320 * U * e ^ 2 * q - 320 * U ^ 3 * e + 64 * U * e ^ 3 * q - 192 *
    U ^ 3 * e ^ 2 + 64 * U * e ^ 4 * q + 64 * U ^ 3 * e ^ 3 + 64 * U ^ 3 * e ^ 4) / ((q - U ^ 2 - 2 * U ^ 2 * e - U ^
    2 * e ^ 2) * (2 + e) * (q - U ^ 2) ^ 3)
noncomputable def gUG5p2 (U q e : ℝ) : ℝ :=
    (-64 * U * e * q - 192 * U * e ^ 2 * q - 64 * U ^ 3 * e - 192 * U * e ^ 3 * q - 192 * U ^ 3 * e ^ 2 - 64 * U * e ^
    4 * q - 192 * U ^ 3 * e ^ 3 - 64 * U ^ 3 * e ^ 4) / ((q - U ^ 2 - 2 * U ^ 2 * e - U ^ 2 * e ^ 2) * (2 + e) * (q -
    U ^ 2) ^ 3)
noncomputable def gUG5p3 (U q e : ℝ) : ℝ :=
    (-64 * U * q ^ 2 - 64 * U * e * q ^ 2 - 64 * U ^ 3 * q - 64 * U ^ 3 * e * q) / ((q - U ^ 2 - 2 * U ^ 2 * e - U ^ 2
    * e ^ 2) * (q - U ^ 2) ^ 4)
noncomputable def gUG5p4 (U q e : ℝ) : ℝ :=
    (-128 * U * e - 384 * U * e ^ 2 - 384 * U * e ^ 3 - 128 * U * e ^ 4) / ((q - U ^ 2 - 2 * U ^ 2 * e - U ^ 2 * e ^
    2) * (2 + e) * (q - U ^ 2) ^ 2)
noncomputable def gUG5 (U q L lU e r s D : ℝ) : ℝ :=
    gUG5p0 U q e + lU * gUG5p1 U q e + lU * r * gUG5p2 U q e + lU ^ 2 * gUG5p3 U q e + r * gUG5p4 U q e

noncomputable def gUG (X U q L lU e r s D : ℝ) : ℝ :=
    gUG0 U q L lU e r s D + X * gUG1 U q L lU e r s D + X ^ 2 * gUG2 U q L lU e r s D + X ^ 3 * gUG3 U q L lU e r s D
    + X ^ 4 * gUG4 U q L lU e r s D + X ^ 5 * gUG5 U q L lU e r s D

set_option maxRecDepth 8000 in
theorem UG_repr0 {U q L lU e r s D : ℝ} (hU : U ≠ 0) (hq : q ≠ 0) (he : e ≠ 0) (h2 : 2 + e ≠ 0) (hUq : q - U ^ 2 ≠ 0)
    (hgq : q - U ^ 2 - 2 * U ^ 2 * e - U ^ 2 * e ^ 2 ≠ 0) :
    c0 (U * (1 + e)) q (U ^ 2) L lU (lU + (2 * e - e ^ 2 + e ^ 2 * r)) D (-2 * e + e ^ 2 * s) = gUG0 U q L lU e r s D := by
  simp only [c0, gUG0, gUG0p0, gUG0p1, gUG0p2, gUG0p3, gUG0p4, gUG0p5, gUG0p6, gUG0p7, gUG0p8, gUG0p9]
  have d1 : (U * (1 + e)) ^ 2 - U ^ 2 = U ^ 2 * (e * (2 + e)) := by ring
  have d2 : -((U * (1 + e)) ^ 2) + q = q - U ^ 2 - 2 * U ^ 2 * e - U ^ 2 * e ^ 2 := by ring
  have d4 : (U * (1 + e)) ^ 2 - q = -(q - U ^ 2 - 2 * U ^ 2 * e - U ^ 2 * e ^ 2) := by ring
  simp only [d1, d2, d4]
  generalize hD : q - U ^ 2 - 2 * U ^ 2 * e - U ^ 2 * e ^ 2 = DD at *
  generalize hE : q - U ^ 2 = E at *
  generalize hF : 2 + e = F at *
  field_simp
  subst hD hE hF
  ring

set_option maxRecDepth 8000 in
theorem UG_repr1 {U q L lU e r s D : ℝ} (hU : U ≠ 0) (hq : q ≠ 0) (he : e ≠ 0) (h2 : 2 + e ≠ 0) (hUq : q - U ^ 2 ≠ 0)
    (hgq : q - U ^ 2 - 2 * U ^ 2 * e - U ^ 2 * e ^ 2 ≠ 0) :
    c1 (U * (1 + e)) q (U ^ 2) L lU (lU + (2 * e - e ^ 2 + e ^ 2 * r)) D (-2 * e + e ^ 2 * s) = gUG1 U q L lU e r s D := by
  simp only [c1, gUG1, gUG1p0, gUG1p1, gUG1p2, gUG1p3, gUG1p4, gUG1p5, gUG1p6]
  have d1 : (U * (1 + e)) ^ 2 - U ^ 2 = U ^ 2 * (e * (2 + e)) := by ring
  have d2 : -((U * (1 + e)) ^ 2) + q = q - U ^ 2 - 2 * U ^ 2 * e - U ^ 2 * e ^ 2 := by ring
  have d4 : (U * (1 + e)) ^ 2 - q = -(q - U ^ 2 - 2 * U ^ 2 * e - U ^ 2 * e ^ 2) := by ring
  simp only [d1, d2, d4]
  generalize hD : q - U ^ 2 - 2 * U ^ 2 * e - U ^ 2 * e ^ 2 = DD at *
  generalize hE : q - U ^ 2 = E at *
  generalize hF : 2 + e = F at *
  field_simp
  subst hD hE hF
  ring

set_option maxRecDepth 8000 in
theorem UG_repr2 {U q L lU e r s D : ℝ} (hU : U ≠ 0) (hq : q ≠ 0) (he : e ≠ 0) (h2 : 2 + e ≠ 0) (hUq : q - U ^ 2 ≠ 0)
    (hgq : q - U ^ 2 - 2 * U ^ 2 * e - U ^ 2 * e ^ 2 ≠ 0) :
    c2 (U * (1 + e)) q (U ^ 2) L lU (lU + (2 * e - e ^ 2 + e ^ 2 * r)) D (-2 * e + e ^ 2 * s) = gUG2 U q L lU e r s D := by
  simp only [c2, gUG2, gUG2p0, gUG2p1, gUG2p2, gUG2p3, gUG2p4, gUG2p5, gUG2p6]
  have d1 : (U * (1 + e)) ^ 2 - U ^ 2 = U ^ 2 * (e * (2 + e)) := by ring
  have d2 : -((U * (1 + e)) ^ 2) + q = q - U ^ 2 - 2 * U ^ 2 * e - U ^ 2 * e ^ 2 := by ring
  have d4 : (U * (1 + e)) ^ 2 - q = -(q - U ^ 2 - 2 * U ^ 2 * e - U ^ 2 * e ^ 2) := by ring
  simp only [d1, d2, d4]
  generalize hD : q - U ^ 2 - 2 * U ^ 2 * e - U ^ 2 * e ^ 2 = DD at *
  generalize hE : q - U ^ 2 = E at *
  generalize hF : 2 + e = F at *
  field_simp
  subst hD hE hF
  ring

set_option maxRecDepth 8000 in
theorem UG_repr3 {U q L lU e r s D : ℝ} (hU : U ≠ 0) (hq : q ≠ 0) (he : e ≠ 0) (h2 : 2 + e ≠ 0) (hUq : q - U ^ 2 ≠ 0)
    (hgq : q - U ^ 2 - 2 * U ^ 2 * e - U ^ 2 * e ^ 2 ≠ 0) :
    c3 (U * (1 + e)) q (U ^ 2) L lU (lU + (2 * e - e ^ 2 + e ^ 2 * r)) D (-2 * e + e ^ 2 * s) = gUG3 U q L lU e r s D := by
  simp only [c3, gUG3, gUG3p0, gUG3p1, gUG3p2, gUG3p3, gUG3p4, gUG3p5, gUG3p6, gUG3p7]
  have d1 : (U * (1 + e)) ^ 2 - U ^ 2 = U ^ 2 * (e * (2 + e)) := by ring
  have d2 : -((U * (1 + e)) ^ 2) + q = q - U ^ 2 - 2 * U ^ 2 * e - U ^ 2 * e ^ 2 := by ring
  have d4 : (U * (1 + e)) ^ 2 - q = -(q - U ^ 2 - 2 * U ^ 2 * e - U ^ 2 * e ^ 2) := by ring
  simp only [d1, d2, d4]
  generalize hD : q - U ^ 2 - 2 * U ^ 2 * e - U ^ 2 * e ^ 2 = DD at *
  generalize hE : q - U ^ 2 = E at *
  generalize hF : 2 + e = F at *
  field_simp
  subst hD hE hF
  ring

set_option maxRecDepth 8000 in
theorem UG_repr4 {U q L lU e r s D : ℝ} (hU : U ≠ 0) (hq : q ≠ 0) (he : e ≠ 0) (h2 : 2 + e ≠ 0) (hUq : q - U ^ 2 ≠ 0)
    (hgq : q - U ^ 2 - 2 * U ^ 2 * e - U ^ 2 * e ^ 2 ≠ 0) :
    c4 (U * (1 + e)) q (U ^ 2) L lU (lU + (2 * e - e ^ 2 + e ^ 2 * r)) D (-2 * e + e ^ 2 * s) = gUG4 U q L lU e r s D := by
  simp only [c4, gUG4, gUG4p0, gUG4p1, gUG4p2, gUG4p3, gUG4p4, gUG4p5, gUG4p6, gUG4p7, gUG4p8]
  have d1 : (U * (1 + e)) ^ 2 - U ^ 2 = U ^ 2 * (e * (2 + e)) := by ring
  have d2 : -((U * (1 + e)) ^ 2) + q = q - U ^ 2 - 2 * U ^ 2 * e - U ^ 2 * e ^ 2 := by ring
  have d4 : (U * (1 + e)) ^ 2 - q = -(q - U ^ 2 - 2 * U ^ 2 * e - U ^ 2 * e ^ 2) := by ring
  simp only [d1, d2, d4]
  generalize hD : q - U ^ 2 - 2 * U ^ 2 * e - U ^ 2 * e ^ 2 = DD at *
  generalize hE : q - U ^ 2 = E at *
  generalize hF : 2 + e = F at *
  field_simp
  subst hD hE hF
  ring

set_option maxRecDepth 8000 in
theorem UG_repr5 {U q L lU e r s D : ℝ} (hU : U ≠ 0) (hq : q ≠ 0) (he : e ≠ 0) (h2 : 2 + e ≠ 0) (hUq : q - U ^ 2 ≠ 0)
    (hgq : q - U ^ 2 - 2 * U ^ 2 * e - U ^ 2 * e ^ 2 ≠ 0) :
    c5 (U * (1 + e)) q (U ^ 2) L lU (lU + (2 * e - e ^ 2 + e ^ 2 * r)) D (-2 * e + e ^ 2 * s) = gUG5 U q L lU e r s D := by
  simp only [c5, gUG5, gUG5p0, gUG5p1, gUG5p2, gUG5p3, gUG5p4]
  have d1 : (U * (1 + e)) ^ 2 - U ^ 2 = U ^ 2 * (e * (2 + e)) := by ring
  have d2 : -((U * (1 + e)) ^ 2) + q = q - U ^ 2 - 2 * U ^ 2 * e - U ^ 2 * e ^ 2 := by ring
  have d4 : (U * (1 + e)) ^ 2 - q = -(q - U ^ 2 - 2 * U ^ 2 * e - U ^ 2 * e ^ 2) := by ring
  simp only [d1, d2, d4]
  generalize hD : q - U ^ 2 - 2 * U ^ 2 * e - U ^ 2 * e ^ 2 = DD at *
  generalize hE : q - U ^ 2 = E at *
  generalize hF : 2 + e = F at *
  field_simp
  subst hD hE hF
  ring

theorem UG_repr {X U q L lU e r s D : ℝ} (hU : U ≠ 0) (hq : q ≠ 0) (he : e ≠ 0) (h2 : 2 + e ≠ 0) (hUq : q - U ^ 2 ≠ 0)
    (hgq : q - U ^ 2 - 2 * U ^ 2 * e - U ^ 2 * e ^ 2 ≠ 0) :
    lamX X (U * (1 + e)) q (U ^ 2) L lU (lU + (2 * e - e ^ 2 + e ^ 2 * r)) D (-2 * e + e ^ 2 * s) = gUG X U q L lU e r s D := by
  unfold lamX gUG
  rw [UG_repr0 hU hq he h2 hUq hgq, UG_repr1 hU hq he h2 hUq hgq, UG_repr2 hU hq he h2 hUq hgq, UG_repr3 hU hq he h2 hUq hgq, UG_repr4 hU hq he h2 hUq hgq, UG_repr5 hU hq he h2 hUq hgq]

theorem gUG0_cont {U q L lU D : ℝ} (hU : U ≠ 0) (hq : q ≠ 0) (hUq : q - U ^ 2 ≠ 0) :
    ContinuousAt (fun z : ℝ × (ℝ × (ℝ × ℝ)) => gUG0 U q L lU z.1 z.2.1 z.2.2.1 z.2.2.2) (0, (0, (0, D))) := by
  have h3 : q - U ^ 2 - 2 * U ^ 2 * 0 - U ^ 2 * 0 ^ 2 ≠ 0 := by intro h; apply hUq; linear_combination h
  have hgUG0p0 : ContinuousAt (fun z : ℝ × (ℝ × (ℝ × ℝ)) => gUG0p0 U q z.1) (0, (0, (0, D))) := by
    unfold gUG0p0
    fun_prop (disch := cdisch)
  have hgUG0p1 : ContinuousAt (fun z : ℝ × (ℝ × (ℝ × ℝ)) => gUG0p1 U q z.1) (0, (0, (0, D))) := by
    unfold gUG0p1
    fun_prop (disch := cdisch)
  have hgUG0p2 : ContinuousAt (fun z : ℝ × (ℝ × (ℝ × ℝ)) => gUG0p2 U q z.1) (0, (0, (0, D))) := by
    unfold gUG0p2
    fun_prop (disch := cdisch)
  have hgUG0p3 : ContinuousAt (fun z : ℝ × (ℝ × (ℝ × ℝ)) => gUG0p3 U q z.1) (0, (0, (0, D))) := by
    unfold gUG0p3
    fun_prop (disch := cdisch)
  have hgUG0p4 : ContinuousAt (fun z : ℝ × (ℝ × (ℝ × ℝ)) => gUG0p4 U q z.1) (0, (0, (0, D))) := by
    unfold gUG0p4
    fun_prop (disch := cdisch)
  have hgUG0p5 : ContinuousAt (fun z : ℝ × (ℝ × (ℝ × ℝ)) => gUG0p5 U q z.1) (0, (0, (0, D))) := by
    unfold gUG0p5
    fun_prop (disch := cdisch)
  have hgUG0p6 : ContinuousAt (fun z : ℝ × (ℝ × (ℝ × ℝ)) => gUG0p6 U q z.1) (0, (0, (0, D))) := by
    unfold gUG0p6
    fun_prop (disch := cdisch)
  have hgUG0p7 : ContinuousAt (fun z : ℝ × (ℝ × (ℝ × ℝ)) => gUG0p7 U q z.1) (0, (0, (0, D))) := by
    unfold gUG0p7
    fun_prop (disch := cdisch)
  have hgUG0p8 : ContinuousAt (fun z : ℝ × (ℝ × (ℝ × ℝ)) => gUG0p8 U q z.1) (0, (0, (0, D))) := by
    unfold gUG0p8
    fun_prop (disch := cdisch)
  have hgUG0p9 : ContinuousAt (fun z : ℝ × (ℝ × (ℝ × ℝ)) => gUG0p9 U q z.1) (0, (0, (0, D))) := by
    unfold gUG0p9
    fun_prop (disch := cdisch)
  exact (((((((((hgUG0p0).add
    ((show ContinuousAt (fun z : ℝ × (ℝ × (ℝ × ℝ)) => z.2.2.2) (0, (0, (0, D))) by fun_prop).mul hgUG0p1)).add
    ((show ContinuousAt (fun z : ℝ × (ℝ × (ℝ × ℝ)) => L) (0, (0, (0, D))) by fun_prop).mul hgUG0p2)).add
    ((show ContinuousAt (fun z : ℝ × (ℝ × (ℝ × ℝ)) => L * lU) (0, (0, (0, D))) by fun_prop).mul hgUG0p3)).add
    ((show ContinuousAt (fun z : ℝ × (ℝ × (ℝ × ℝ)) => L ^ 2) (0, (0, (0, D))) by fun_prop).mul hgUG0p4)).add
    ((show ContinuousAt (fun z : ℝ × (ℝ × (ℝ × ℝ)) => lU) (0, (0, (0, D))) by fun_prop).mul hgUG0p5)).add
    ((show ContinuousAt (fun z : ℝ × (ℝ × (ℝ × ℝ)) => lU * z.2.1) (0, (0, (0, D))) by fun_prop).mul hgUG0p6)).add
    ((show ContinuousAt (fun z : ℝ × (ℝ × (ℝ × ℝ)) => lU ^ 2) (0, (0, (0, D))) by fun_prop).mul hgUG0p7)).add
    ((show ContinuousAt (fun z : ℝ × (ℝ × (ℝ × ℝ)) => z.2.1) (0, (0, (0, D))) by fun_prop).mul hgUG0p8)).add
    ((show ContinuousAt (fun z : ℝ × (ℝ × (ℝ × ℝ)) => z.2.2.1) (0, (0, (0, D))) by fun_prop).mul hgUG0p9)

theorem gUG1_cont {U q L lU D : ℝ} (hU : U ≠ 0) (hq : q ≠ 0) (hUq : q - U ^ 2 ≠ 0) :
    ContinuousAt (fun z : ℝ × (ℝ × (ℝ × ℝ)) => gUG1 U q L lU z.1 z.2.1 z.2.2.1 z.2.2.2) (0, (0, (0, D))) := by
  have h3 : q - U ^ 2 - 2 * U ^ 2 * 0 - U ^ 2 * 0 ^ 2 ≠ 0 := by intro h; apply hUq; linear_combination h
  have hgUG1p0 : ContinuousAt (fun z : ℝ × (ℝ × (ℝ × ℝ)) => gUG1p0 U q z.1) (0, (0, (0, D))) := by
    unfold gUG1p0
    fun_prop (disch := cdisch)
  have hgUG1p1 : ContinuousAt (fun z : ℝ × (ℝ × (ℝ × ℝ)) => gUG1p1 U q z.1) (0, (0, (0, D))) := by
    unfold gUG1p1
    fun_prop (disch := cdisch)
  have hgUG1p2 : ContinuousAt (fun z : ℝ × (ℝ × (ℝ × ℝ)) => gUG1p2 U q z.1) (0, (0, (0, D))) := by
    unfold gUG1p2
    fun_prop (disch := cdisch)
  have hgUG1p3 : ContinuousAt (fun z : ℝ × (ℝ × (ℝ × ℝ)) => gUG1p3 U q z.1) (0, (0, (0, D))) := by
    unfold gUG1p3
    fun_prop (disch := cdisch)
  have hgUG1p4 : ContinuousAt (fun z : ℝ × (ℝ × (ℝ × ℝ)) => gUG1p4 U q z.1) (0, (0, (0, D))) := by
    unfold gUG1p4
    fun_prop (disch := cdisch)
  have hgUG1p5 : ContinuousAt (fun z : ℝ × (ℝ × (ℝ × ℝ)) => gUG1p5 U q z.1) (0, (0, (0, D))) := by
    unfold gUG1p5
    fun_prop (disch := cdisch)
  have hgUG1p6 : ContinuousAt (fun z : ℝ × (ℝ × (ℝ × ℝ)) => gUG1p6 U q z.1) (0, (0, (0, D))) := by
    unfold gUG1p6
    fun_prop (disch := cdisch)
  exact ((((((hgUG1p0).add
    ((show ContinuousAt (fun z : ℝ × (ℝ × (ℝ × ℝ)) => z.2.2.2) (0, (0, (0, D))) by fun_prop).mul hgUG1p1)).add
    ((show ContinuousAt (fun z : ℝ × (ℝ × (ℝ × ℝ)) => L * lU) (0, (0, (0, D))) by fun_prop).mul hgUG1p2)).add
    ((show ContinuousAt (fun z : ℝ × (ℝ × (ℝ × ℝ)) => lU) (0, (0, (0, D))) by fun_prop).mul hgUG1p3)).add
    ((show ContinuousAt (fun z : ℝ × (ℝ × (ℝ × ℝ)) => lU * z.2.1) (0, (0, (0, D))) by fun_prop).mul hgUG1p4)).add
    ((show ContinuousAt (fun z : ℝ × (ℝ × (ℝ × ℝ)) => lU ^ 2) (0, (0, (0, D))) by fun_prop).mul hgUG1p5)).add
    ((show ContinuousAt (fun z : ℝ × (ℝ × (ℝ × ℝ)) => z.2.2.1) (0, (0, (0, D))) by fun_prop).mul hgUG1p6)

theorem gUG2_cont {U q L lU D : ℝ} (hU : U ≠ 0) (hq : q ≠ 0) (hUq : q - U ^ 2 ≠ 0) :
    ContinuousAt (fun z : ℝ × (ℝ × (ℝ × ℝ)) => gUG2 U q L lU z.1 z.2.1 z.2.2.1 z.2.2.2) (0, (0, (0, D))) := by
  have h3 : q - U ^ 2 - 2 * U ^ 2 * 0 - U ^ 2 * 0 ^ 2 ≠ 0 := by intro h; apply hUq; linear_combination h
  have hgUG2p0 : ContinuousAt (fun z : ℝ × (ℝ × (ℝ × ℝ)) => gUG2p0 U q z.1) (0, (0, (0, D))) := by
    unfold gUG2p0
    fun_prop (disch := cdisch)
  have hgUG2p1 : ContinuousAt (fun z : ℝ × (ℝ × (ℝ × ℝ)) => gUG2p1 U q z.1) (0, (0, (0, D))) := by
    unfold gUG2p1
    fun_prop (disch := cdisch)
  have hgUG2p2 : ContinuousAt (fun z : ℝ × (ℝ × (ℝ × ℝ)) => gUG2p2 U q z.1) (0, (0, (0, D))) := by
    unfold gUG2p2
    fun_prop (disch := cdisch)
  have hgUG2p3 : ContinuousAt (fun z : ℝ × (ℝ × (ℝ × ℝ)) => gUG2p3 U q z.1) (0, (0, (0, D))) := by
    unfold gUG2p3
    fun_prop (disch := cdisch)
  have hgUG2p4 : ContinuousAt (fun z : ℝ × (ℝ × (ℝ × ℝ)) => gUG2p4 U q z.1) (0, (0, (0, D))) := by
    unfold gUG2p4
    fun_prop (disch := cdisch)
  have hgUG2p5 : ContinuousAt (fun z : ℝ × (ℝ × (ℝ × ℝ)) => gUG2p5 U q z.1) (0, (0, (0, D))) := by
    unfold gUG2p5
    fun_prop (disch := cdisch)
  have hgUG2p6 : ContinuousAt (fun z : ℝ × (ℝ × (ℝ × ℝ)) => gUG2p6 U q z.1) (0, (0, (0, D))) := by
    unfold gUG2p6
    fun_prop (disch := cdisch)
  exact ((((((hgUG2p0).add
    ((show ContinuousAt (fun z : ℝ × (ℝ × (ℝ × ℝ)) => L) (0, (0, (0, D))) by fun_prop).mul hgUG2p1)).add
    ((show ContinuousAt (fun z : ℝ × (ℝ × (ℝ × ℝ)) => L * lU) (0, (0, (0, D))) by fun_prop).mul hgUG2p2)).add
    ((show ContinuousAt (fun z : ℝ × (ℝ × (ℝ × ℝ)) => lU) (0, (0, (0, D))) by fun_prop).mul hgUG2p3)).add
    ((show ContinuousAt (fun z : ℝ × (ℝ × (ℝ × ℝ)) => lU * z.2.1) (0, (0, (0, D))) by fun_prop).mul hgUG2p4)).add
    ((show ContinuousAt (fun z : ℝ × (ℝ × (ℝ × ℝ)) => lU ^ 2) (0, (0, (0, D))) by fun_prop).mul hgUG2p5)).add
    ((show ContinuousAt (fun z : ℝ × (ℝ × (ℝ × ℝ)) => z.2.1) (0, (0, (0, D))) by fun_prop).mul hgUG2p6)

theorem gUG3_cont {U q L lU D : ℝ} (hU : U ≠ 0) (hq : q ≠ 0) (hUq : q - U ^ 2 ≠ 0) :
    ContinuousAt (fun z : ℝ × (ℝ × (ℝ × ℝ)) => gUG3 U q L lU z.1 z.2.1 z.2.2.1 z.2.2.2) (0, (0, (0, D))) := by
  have h3 : q - U ^ 2 - 2 * U ^ 2 * 0 - U ^ 2 * 0 ^ 2 ≠ 0 := by intro h; apply hUq; linear_combination h
  have hgUG3p0 : ContinuousAt (fun z : ℝ × (ℝ × (ℝ × ℝ)) => gUG3p0 U q z.1) (0, (0, (0, D))) := by
    unfold gUG3p0
    fun_prop (disch := cdisch)
  have hgUG3p1 : ContinuousAt (fun z : ℝ × (ℝ × (ℝ × ℝ)) => gUG3p1 U q z.1) (0, (0, (0, D))) := by
    unfold gUG3p1
    fun_prop (disch := cdisch)
  have hgUG3p2 : ContinuousAt (fun z : ℝ × (ℝ × (ℝ × ℝ)) => gUG3p2 U q z.1) (0, (0, (0, D))) := by
    unfold gUG3p2
    fun_prop (disch := cdisch)
  have hgUG3p3 : ContinuousAt (fun z : ℝ × (ℝ × (ℝ × ℝ)) => gUG3p3 U q z.1) (0, (0, (0, D))) := by
    unfold gUG3p3
    fun_prop (disch := cdisch)
  have hgUG3p4 : ContinuousAt (fun z : ℝ × (ℝ × (ℝ × ℝ)) => gUG3p4 U q z.1) (0, (0, (0, D))) := by
    unfold gUG3p4
    fun_prop (disch := cdisch)
  have hgUG3p5 : ContinuousAt (fun z : ℝ × (ℝ × (ℝ × ℝ)) => gUG3p5 U q z.1) (0, (0, (0, D))) := by
    unfold gUG3p5
    fun_prop (disch := cdisch)
  have hgUG3p6 : ContinuousAt (fun z : ℝ × (ℝ × (ℝ × ℝ)) => gUG3p6 U q z.1) (0, (0, (0, D))) := by
    unfold gUG3p6
    fun_prop (disch := cdisch)
  have hgUG3p7 : ContinuousAt (fun z : ℝ × (ℝ × (ℝ × ℝ)) => gUG3p7 U q z.1) (0, (0, (0, D))) := by
    unfold gUG3p7
    fun_prop (disch := cdisch)
  exact (((((((hgUG3p0).add
    ((show ContinuousAt (fun z : ℝ × (ℝ × (ℝ × ℝ)) => z.2.2.2) (0, (0, (0, D))) by fun_prop).mul hgUG3p1)).add
    ((show ContinuousAt (fun z : ℝ × (ℝ × (ℝ × ℝ)) => L) (0, (0, (0, D))) by fun_prop).mul hgUG3p2)).add
    ((show ContinuousAt (fun z : ℝ × (ℝ × (ℝ × ℝ)) => L * lU) (0, (0, (0, D))) by fun_prop).mul hgUG3p3)).add
    ((show ContinuousAt (fun z : ℝ × (ℝ × (ℝ × ℝ)) => lU) (0, (0, (0, D))) by fun_prop).mul hgUG3p4)).add
    ((show ContinuousAt (fun z : ℝ × (ℝ × (ℝ × ℝ)) => lU * z.2.1) (0, (0, (0, D))) by fun_prop).mul hgUG3p5)).add
    ((show ContinuousAt (fun z : ℝ × (ℝ × (ℝ × ℝ)) => lU ^ 2) (0, (0, (0, D))) by fun_prop).mul hgUG3p6)).add
    ((show ContinuousAt (fun z : ℝ × (ℝ × (ℝ × ℝ)) => z.2.2.1) (0, (0, (0, D))) by fun_prop).mul hgUG3p7)

theorem gUG4_cont {U q L lU D : ℝ} (hU : U ≠ 0) (hq : q ≠ 0) (hUq : q - U ^ 2 ≠ 0) :
    ContinuousAt (fun z : ℝ × (ℝ × (ℝ × ℝ)) => gUG4 U q L lU z.1 z.2.1 z.2.2.1 z.2.2.2) (0, (0, (0, D))) := by
  have h3 : q - U ^ 2 - 2 * U ^ 2 * 0 - U ^ 2 * 0 ^ 2 ≠ 0 := by intro h; apply hUq; linear_combination h
  have hgUG4p0 : ContinuousAt (fun z : ℝ × (ℝ × (ℝ × ℝ)) => gUG4p0 U q z.1) (0, (0, (0, D))) := by
    unfold gUG4p0
    fun_prop (disch := cdisch)
  have hgUG4p1 : ContinuousAt (fun z : ℝ × (ℝ × (ℝ × ℝ)) => gUG4p1 U q z.1) (0, (0, (0, D))) := by
    unfold gUG4p1
    fun_prop (disch := cdisch)
  have hgUG4p2 : ContinuousAt (fun z : ℝ × (ℝ × (ℝ × ℝ)) => gUG4p2 U q z.1) (0, (0, (0, D))) := by
    unfold gUG4p2
    fun_prop (disch := cdisch)
  have hgUG4p3 : ContinuousAt (fun z : ℝ × (ℝ × (ℝ × ℝ)) => gUG4p3 U q z.1) (0, (0, (0, D))) := by
    unfold gUG4p3
    fun_prop (disch := cdisch)
  have hgUG4p4 : ContinuousAt (fun z : ℝ × (ℝ × (ℝ × ℝ)) => gUG4p4 U q z.1) (0, (0, (0, D))) := by
    unfold gUG4p4
    fun_prop (disch := cdisch)
  have hgUG4p5 : ContinuousAt (fun z : ℝ × (ℝ × (ℝ × ℝ)) => gUG4p5 U q z.1) (0, (0, (0, D))) := by
    unfold gUG4p5
    fun_prop (disch := cdisch)
  have hgUG4p6 : ContinuousAt (fun z : ℝ × (ℝ × (ℝ × ℝ)) => gUG4p6 U q z.1) (0, (0, (0, D))) := by
    unfold gUG4p6
    fun_prop (disch := cdisch)
  have hgUG4p7 : ContinuousAt (fun z : ℝ × (ℝ × (ℝ × ℝ)) => gUG4p7 U q z.1) (0, (0, (0, D))) := by
    unfold gUG4p7
    fun_prop (disch := cdisch)
  have hgUG4p8 : ContinuousAt (fun z : ℝ × (ℝ × (ℝ × ℝ)) => gUG4p8 U q z.1) (0, (0, (0, D))) := by
    unfold gUG4p8
    fun_prop (disch := cdisch)
  exact ((((((((hgUG4p0).add
    ((show ContinuousAt (fun z : ℝ × (ℝ × (ℝ × ℝ)) => z.2.2.2) (0, (0, (0, D))) by fun_prop).mul hgUG4p1)).add
    ((show ContinuousAt (fun z : ℝ × (ℝ × (ℝ × ℝ)) => L) (0, (0, (0, D))) by fun_prop).mul hgUG4p2)).add
    ((show ContinuousAt (fun z : ℝ × (ℝ × (ℝ × ℝ)) => L * lU) (0, (0, (0, D))) by fun_prop).mul hgUG4p3)).add
    ((show ContinuousAt (fun z : ℝ × (ℝ × (ℝ × ℝ)) => lU) (0, (0, (0, D))) by fun_prop).mul hgUG4p4)).add
    ((show ContinuousAt (fun z : ℝ × (ℝ × (ℝ × ℝ)) => lU * z.2.1) (0, (0, (0, D))) by fun_prop).mul hgUG4p5)).add
    ((show ContinuousAt (fun z : ℝ × (ℝ × (ℝ × ℝ)) => lU ^ 2) (0, (0, (0, D))) by fun_prop).mul hgUG4p6)).add
    ((show ContinuousAt (fun z : ℝ × (ℝ × (ℝ × ℝ)) => z.2.1) (0, (0, (0, D))) by fun_prop).mul hgUG4p7)).add
    ((show ContinuousAt (fun z : ℝ × (ℝ × (ℝ × ℝ)) => z.2.2.1) (0, (0, (0, D))) by fun_prop).mul hgUG4p8)

theorem gUG5_cont {U q L lU D : ℝ} (hU : U ≠ 0) (hq : q ≠ 0) (hUq : q - U ^ 2 ≠ 0) :
    ContinuousAt (fun z : ℝ × (ℝ × (ℝ × ℝ)) => gUG5 U q L lU z.1 z.2.1 z.2.2.1 z.2.2.2) (0, (0, (0, D))) := by
  have h3 : q - U ^ 2 - 2 * U ^ 2 * 0 - U ^ 2 * 0 ^ 2 ≠ 0 := by intro h; apply hUq; linear_combination h
  have hgUG5p0 : ContinuousAt (fun z : ℝ × (ℝ × (ℝ × ℝ)) => gUG5p0 U q z.1) (0, (0, (0, D))) := by
    unfold gUG5p0
    fun_prop (disch := cdisch)
  have hgUG5p1 : ContinuousAt (fun z : ℝ × (ℝ × (ℝ × ℝ)) => gUG5p1 U q z.1) (0, (0, (0, D))) := by
    unfold gUG5p1
    fun_prop (disch := cdisch)
  have hgUG5p2 : ContinuousAt (fun z : ℝ × (ℝ × (ℝ × ℝ)) => gUG5p2 U q z.1) (0, (0, (0, D))) := by
    unfold gUG5p2
    fun_prop (disch := cdisch)
  have hgUG5p3 : ContinuousAt (fun z : ℝ × (ℝ × (ℝ × ℝ)) => gUG5p3 U q z.1) (0, (0, (0, D))) := by
    unfold gUG5p3
    fun_prop (disch := cdisch)
  have hgUG5p4 : ContinuousAt (fun z : ℝ × (ℝ × (ℝ × ℝ)) => gUG5p4 U q z.1) (0, (0, (0, D))) := by
    unfold gUG5p4
    fun_prop (disch := cdisch)
  exact ((((hgUG5p0).add
    ((show ContinuousAt (fun z : ℝ × (ℝ × (ℝ × ℝ)) => lU) (0, (0, (0, D))) by fun_prop).mul hgUG5p1)).add
    ((show ContinuousAt (fun z : ℝ × (ℝ × (ℝ × ℝ)) => lU * z.2.1) (0, (0, (0, D))) by fun_prop).mul hgUG5p2)).add
    ((show ContinuousAt (fun z : ℝ × (ℝ × (ℝ × ℝ)) => lU ^ 2) (0, (0, (0, D))) by fun_prop).mul hgUG5p3)).add
    ((show ContinuousAt (fun z : ℝ × (ℝ × (ℝ × ℝ)) => z.2.1) (0, (0, (0, D))) by fun_prop).mul hgUG5p4)

theorem gUG_cont {X U q L lU D : ℝ} (hU : U ≠ 0) (hq : q ≠ 0) (hUq : q - U ^ 2 ≠ 0) :
    ContinuousAt (fun z : ℝ × (ℝ × (ℝ × ℝ)) => gUG X U q L lU z.1 z.2.1 z.2.2.1 z.2.2.2) (0, (0, (0, D))) := by
  exact (((((gUG0_cont hU hq hUq).add (continuousAt_const.mul (gUG1_cont hU hq hUq))).add (continuousAt_const.mul (gUG2_cont hU hq hUq))).add (continuousAt_const.mul (gUG3_cont hU hq hUq))).add (continuousAt_const.mul (gUG4_cont hU hq hUq))).add (continuousAt_const.mul (gUG5_cont hU hq hUq))

end Himalaya.Cont
