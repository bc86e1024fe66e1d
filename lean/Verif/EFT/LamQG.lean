import Verif.EFT.Lam

/-!
# `getDeltaLambdaAlphatAlphas` near `mQ3 = m3`

Printed by tools/mk_lam.py.
-/

set_option linter.unusedSimpArgs false
set_option linter.unusedVariables false
set_option linter.style.longLine false

namespace Himalaya.Cont
open Filter Topology


noncomputable def gQG0p0 (Q u e : ℝ) : ℝ :=
    (-96 * u ^ 3 + 384 * Q ^ 2 * u ^ 2 + 960 * Q ^ 2 * e * u ^ 2 - 416 * Q ^ 4 * u + 32 * e ^ 2 * u ^ 3 + 752 * Q ^ 2
    * e ^ 2 * u ^ 2 - 2112 * Q ^ 4 * e * u + 128 * Q ^ 6 + 32 * e ^ 3 * u ^ 3 + 96 * Q ^ 2 * e ^ 3 * u ^ 2 - 4400 * Q
    ^ 4 * e ^ 2 * u + 640 * Q ^ 6 * e + 144 * e ^ 4 * u ^ 3 - 432 * Q ^ 2 * e ^ 4 * u ^ 2 - 4736 * Q ^ 4 * e ^ 3 * u +
    1056 * Q ^ 6 * e ^ 2 + 128 * e ^ 5 * u ^ 3 - 896 * Q ^ 2 * e ^ 5 * u ^ 2 - 2464 * Q ^ 4 * e ^ 4 * u + 128 * Q ^ 6
    * e ^ 3 + 32 * e ^ 6 * u ^ 3 - 864 * Q ^ 2 * e ^ 6 * u ^ 2 + 256 * Q ^ 4 * e ^ 5 * u - 1664 * Q ^ 6 * e ^ 4 - 384
    * Q ^ 2 * e ^ 7 * u ^ 2 + 1648 * Q ^ 4 * e ^ 6 * u - 1920 * Q ^ 6 * e ^ 5 - 64 * Q ^ 2 * e ^ 8 * u ^ 2 + 1600 * Q
    ^ 4 * e ^ 7 * u - 320 * Q ^ 6 * e ^ 6 + 864 * Q ^ 4 * e ^ 8 * u + 896 * Q ^ 6 * e ^ 7 + 256 * Q ^ 4 * e ^ 9 * u +
    768 * Q ^ 6 * e ^ 8 + 32 * Q ^ 4 * e ^ 10 * u + 256 * Q ^ 6 * e ^ 9 + 32 * Q ^ 6 * e ^ 10) / ((u) * (2 + e) ^ 2 *
    (-u + Q ^ 2 + 2 * Q ^ 2 * e + Q ^ 2 * e ^ 2) ^ 2)
noncomputable def gQG0p1 (Q u e : ℝ) : ℝ :=
    (-64 * Q ^ 4 - 256 * Q ^ 4 * e - 384 * Q ^ 4 * e ^ 2 - 256 * Q ^ 4 * e ^ 3 - 64 * Q ^ 4 * e ^ 4) / ((-u + Q ^ 2 +
    2 * Q ^ 2 * e + Q ^ 2 * e ^ 2) ^ 2)
noncomputable def gQG0p2 (Q u e : ℝ) : ℝ :=
    (32 * u - 32 * Q ^ 2 - 64 * e * u - 64 * Q ^ 2 * e - 32 * e ^ 2 * u - 32 * Q ^ 2 * e ^ 2) / ((u))
noncomputable def gQG0p3 (Q u e : ℝ) : ℝ :=
    (-96)
noncomputable def gQG0p4 (Q u e : ℝ) : ℝ :=
    (-96)
noncomputable def gQG0p5 (Q u e : ℝ) : ℝ :=
    (96 * u ^ 2 - 256 * Q ^ 2 * u + 64 * e * u ^ 2 - 704 * Q ^ 2 * e * u + 352 * Q ^ 4 + 16 * e ^ 2 * u ^ 2 - 688 * Q
    ^ 2 * e ^ 2 * u + 1856 * Q ^ 4 * e + 32 * e ^ 3 * u ^ 2 - 352 * Q ^ 2 * e ^ 3 * u + 4048 * Q ^ 4 * e ^ 2 + 16 * e
    ^ 4 * u ^ 2 - 208 * Q ^ 2 * e ^ 4 * u + 4672 * Q ^ 4 * e ^ 3 - 128 * Q ^ 2 * e ^ 5 * u + 3008 * Q ^ 4 * e ^ 4 - 32
    * Q ^ 2 * e ^ 6 * u + 1024 * Q ^ 4 * e ^ 5 + 144 * Q ^ 4 * e ^ 6) / ((2 + e) ^ 2 * (-u + Q ^ 2 + 2 * Q ^ 2 * e + Q
    ^ 2 * e ^ 2) ^ 2)
noncomputable def gQG0p6 (Q u e : ℝ) : ℝ :=
    (-16 * u ^ 2 + 32 * Q ^ 2 * u - 64 * e * u ^ 2 + 192 * Q ^ 2 * e * u - 16 * Q ^ 4 - 96 * e ^ 2 * u ^ 2 + 480 * Q ^
    2 * e ^ 2 * u - 128 * Q ^ 4 * e - 64 * e ^ 3 * u ^ 2 + 640 * Q ^ 2 * e ^ 3 * u - 384 * Q ^ 4 * e ^ 2 - 16 * e ^ 4
    * u ^ 2 + 480 * Q ^ 2 * e ^ 4 * u - 576 * Q ^ 4 * e ^ 3 + 192 * Q ^ 2 * e ^ 5 * u - 464 * Q ^ 4 * e ^ 4 + 32 * Q ^
    2 * e ^ 6 * u - 192 * Q ^ 4 * e ^ 5 - 32 * Q ^ 4 * e ^ 6) / ((2 + e) ^ 2 * (-u + Q ^ 2 + 2 * Q ^ 2 * e + Q ^ 2 * e
    ^ 2) ^ 2)
noncomputable def gQG0p7 (Q u e : ℝ) : ℝ :=
    (-32 * u ^ 2 + 64 * Q ^ 2 * u + 128 * Q ^ 2 * e * u - 48 * Q ^ 4 + 64 * Q ^ 2 * e ^ 2 * u - 192 * Q ^ 4 * e - 288
    * Q ^ 4 * e ^ 2 - 192 * Q ^ 4 * e ^ 3 - 48 * Q ^ 4 * e ^ 4) / ((-u + Q ^ 2 + 2 * Q ^ 2 * e + Q ^ 2 * e ^ 2) ^ 2)
noncomputable def gQG0p8 (Q u e : ℝ) : ℝ :=
    (-48 * u ^ 3 + 96 * Q ^ 2 * u ^ 2 - 256 * e * u ^ 3 + 704 * Q ^ 2 * e * u ^ 2 - 48 * Q ^ 4 * u - 576 * e ^ 2 * u ^
    3 + 2272 * Q ^ 2 * e ^ 2 * u ^ 2 - 448 * Q ^ 4 * e * u - 704 * e ^ 3 * u ^ 3 + 4224 * Q ^ 2 * e ^ 3 * u ^ 2 - 1952
    * Q ^ 4 * e ^ 2 * u - 496 * e ^ 4 * u ^ 3 + 4960 * Q ^ 2 * e ^ 4 * u ^ 2 - 5056 * Q ^ 4 * e ^ 3 * u - 128 * Q ^ 6
    * e ^ 2 - 192 * e ^ 5 * u ^ 3 + 3776 * Q ^ 2 * e ^ 5 * u ^ 2 - 8496 * Q ^ 4 * e ^ 4 * u - 896 * Q ^ 6 * e ^ 3 - 32
    * e ^ 6 * u ^ 3 + 1824 * Q ^ 2 * e ^ 6 * u ^ 2 - 9664 * Q ^ 4 * e ^ 5 * u - 2720 * Q ^ 6 * e ^ 4 + 512 * Q ^ 2 * e
    ^ 7 * u ^ 2 - 7584 * Q ^ 4 * e ^ 6 * u - 4672 * Q ^ 6 * e ^ 5 + 64 * Q ^ 2 * e ^ 8 * u ^ 2 - 4096 * Q ^ 4 * e ^ 7
    * u - 4960 * Q ^ 6 * e ^ 6 - 1472 * Q ^ 4 * e ^ 8 * u - 3328 * Q ^ 6 * e ^ 7 - 320 * Q ^ 4 * e ^ 9 * u - 1376 * Q
    ^ 6 * e ^ 8 - 32 * Q ^ 4 * e ^ 10 * u - 320 * Q ^ 6 * e ^ 9 - 32 * Q ^ 6 * e ^ 10) / ((u) * (2 + e) ^ 2 * (-u + Q
    ^ 2 + 2 * Q ^ 2 * e + Q ^ 2 * e ^ 2) ^ 2)
noncomputable def gQG0p9 (Q u e : ℝ) : ℝ :=
    (-64 - 256 * e - 384 * e ^ 2 - 256 * e ^ 3 - 64 * e ^ 4) / ((2 + e) ^ 2)
noncomputable def gQG0 (Q u L lU e r s D : ℝ) : ℝ :=
    gQG0p0 Q u e + D * gQG0p1 Q u e + L * gQG0p2 Q u e + L * lU * gQG0p3 Q u e + L ^ 2 * gQG0p4 Q u e + lU * gQG0p5 Q
    u e + lU * r * gQG0p6 Q u e + lU ^ 2 * gQG0p7 Q u e + r * gQG0p8 Q u e + s * gQG0p9 Q u e

noncomputable def gQG1p0 (Q u e : ℝ) : ℝ :=
    (-512 * Q - 1536 * Q * e - 1536 * Q * e ^ 2 - 512 * Q * e ^ 3) / ((-u + Q ^ 2) * (2 + e))
noncomputable def gQG1p1 (Q u e : ℝ) : ℝ :=
    (-256 * Q ^ 3 - 768 * Q ^ 3 * e - 768 * Q ^ 3 * e ^ 2 - 256 * Q ^ 3 * e ^ 3) / ((-u + Q ^ 2 + 2 * Q ^ 2 * e + Q ^
    2 * e ^ 2) * (-u + Q ^ 2))
noncomputable def gQG1p2 (Q u e : ℝ) : ℝ :=
    (-128 * Q - 128 * Q * e) / ((-u + Q ^ 2))
noncomputable def gQG1p3 (Q u e : ℝ) : ℝ :=
    (-384 * Q * u - 704 * Q * e * u + 384 * Q ^ 3 - 320 * Q * e ^ 2 * u + 1728 * Q ^ 3 * e + 64 * Q * e ^ 3 * u + 2880
    * Q ^ 3 * e ^ 2 + 64 * Q * e ^ 4 * u + 1984 * Q ^ 3 * e ^ 3 + 192 * Q ^ 3 * e ^ 4 - 384 * Q ^ 3 * e ^ 5 - 128 * Q
    ^ 3 * e ^ 6) / ((-u + Q ^ 2 + 2 * Q ^ 2 * e + Q ^ 2 * e ^ 2) * (-u + Q ^ 2) * (2 + e))
noncomputable def gQG1p4 (Q u e : ℝ) : ℝ :=
    (-64 * Q * e * u - 192 * Q * e ^ 2 * u + 64 * Q ^ 3 * e - 192 * Q * e ^ 3 * u + 448 * Q ^ 3 * e ^ 2 - 64 * Q * e ^
    4 * u + 1088 * Q ^ 3 * e ^ 3 + 1216 * Q ^ 3 * e ^ 4 + 640 * Q ^ 3 * e ^ 5 + 128 * Q ^ 3 * e ^ 6) / ((-u + Q ^ 2 +
    2 * Q ^ 2 * e + Q ^ 2 * e ^ 2) * (-u + Q ^ 2) * (2 + e))
noncomputable def gQG1p5 (Q u e : ℝ) : ℝ :=
    (64 * Q * u + 64 * Q * e * u - 128 * Q ^ 3 - 384 * Q ^ 3 * e - 384 * Q ^ 3 * e ^ 2 - 128 * Q ^ 3 * e ^ 3) / ((-u +
    Q ^ 2 + 2 * Q ^ 2 * e + Q ^ 2 * e ^ 2) * (-u + Q ^ 2))
noncomputable def gQG1p6 (Q u e : ℝ) : ℝ :=
    (256 * Q * e + 768 * Q * e ^ 2 + 768 * Q * e ^ 3 + 256 * Q * e ^ 4) / ((-u + Q ^ 2) * (2 + e))
noncomputable def gQG1 (Q u L lU e r s D : ℝ) : ℝ :=
    gQG1p0 Q u e + D * gQG1p1 Q u e + L * lU * gQG1p2 Q u e + lU * gQG1p3 Q u e + lU * r * gQG1p4 Q u e + lU ^ 2 *
    gQG1p5 Q u e + s * gQG1p6 Q u e

noncomputable def gQG2p0 (Q u e : ℝ) : ℝ :=
    (-128 * Q ^ 2 - 128 * e * u - 320 * Q ^ 2 * e - 256 * e ^ 2 * u - 64 * e ^ 3 * u + 576 * Q ^ 2 * e ^ 3 + 128 * e ^
    4 * u + 384 * Q ^ 2 * e ^ 4 + 64 * e ^ 5 * u - 192 * Q ^ 2 * e ^ 5 - 256 * Q ^ 2 * e ^ 6 - 64 * Q ^ 2 * e ^ 7) /
    ((u) * (2 + e) * (-u + Q ^ 2 + 2 * Q ^ 2 * e + Q ^ 2 * e ^ 2))
noncomputable def gQG2p1 (Q u e : ℝ) : ℝ :=
    (64 + 128 * e + 64 * e ^ 2) / ((u))
noncomputable def gQG2p2 (Q u e : ℝ) : ℝ :=
    (192) / ((-u + Q ^ 2))
noncomputable def gQG2p3 (Q u e : ℝ) : ℝ :=
    (-320 * u ^ 2 + 1024 * Q ^ 2 * u - 256 * e * u ^ 2 + 2944 * Q ^ 2 * e * u - 704 * Q ^ 4 - 64 * e ^ 2 * u ^ 2 +
    3040 * Q ^ 2 * e ^ 2 * u - 3200 * Q ^ 4 * e - 64 * e ^ 3 * u ^ 2 + 1472 * Q ^ 2 * e ^ 3 * u - 5792 * Q ^ 4 * e ^ 2
    - 32 * e ^ 4 * u ^ 2 + 544 * Q ^ 2 * e ^ 4 * u - 5376 * Q ^ 4 * e ^ 3 + 256 * Q ^ 2 * e ^ 5 * u - 3008 * Q ^ 4 * e
    ^ 4 + 64 * Q ^ 2 * e ^ 6 * u - 1536 * Q ^ 4 * e ^ 5 - 928 * Q ^ 4 * e ^ 6 - 384 * Q ^ 4 * e ^ 7 - 64 * Q ^ 4 * e ^
    8) / ((2 + e) ^ 2 * (-u + Q ^ 2 + 2 * Q ^ 2 * e + Q ^ 2 * e ^ 2) ^ 2 * (-u + Q ^ 2))
noncomputable def gQG2p4 (Q u e : ℝ) : ℝ :=
    (32 * u ^ 2 - 64 * Q ^ 2 * u + 128 * e * u ^ 2 - 384 * Q ^ 2 * e * u + 32 * Q ^ 4 + 192 * e ^ 2 * u ^ 2 - 960 * Q
    ^ 2 * e ^ 2 * u + 256 * Q ^ 4 * e + 128 * e ^ 3 * u ^ 2 - 1280 * Q ^ 2 * e ^ 3 * u + 1024 * Q ^ 4 * e ^ 2 + 32 * e
    ^ 4 * u ^ 2 - 960 * Q ^ 2 * e ^ 4 * u + 2432 * Q ^ 4 * e ^ 3 - 384 * Q ^ 2 * e ^ 5 * u + 3552 * Q ^ 4 * e ^ 4 - 64
    * Q ^ 2 * e ^ 6 * u + 3200 * Q ^ 4 * e ^ 5 + 1728 * Q ^ 4 * e ^ 6 + 512 * Q ^ 4 * e ^ 7 + 64 * Q ^ 4 * e ^ 8) /
    ((2 + e) ^ 2 * (-u + Q ^ 2 + 2 * Q ^ 2 * e + Q ^ 2 * e ^ 2) ^ 2 * (-u + Q ^ 2))
noncomputable def gQG2p5 (Q u e : ℝ) : ℝ :=
    (-128 * u ^ 3 + 320 * Q ^ 2 * u ^ 2 + 512 * Q ^ 2 * e * u ^ 2 - 224 * Q ^ 4 * u + 256 * Q ^ 2 * e ^ 2 * u ^ 2 -
    640 * Q ^ 4 * e * u + 32 * Q ^ 6 - 704 * Q ^ 4 * e ^ 2 * u + 128 * Q ^ 6 * e - 384 * Q ^ 4 * e ^ 3 * u + 192 * Q ^
    6 * e ^ 2 - 96 * Q ^ 4 * e ^ 4 * u + 128 * Q ^ 6 * e ^ 3 + 32 * Q ^ 6 * e ^ 4) / ((-u + Q ^ 2 + 2 * Q ^ 2 * e + Q
    ^ 2 * e ^ 2) ^ 2 * (-u + Q ^ 2) ^ 2)
noncomputable def gQG2p6 (Q u e : ℝ) : ℝ :=
    (-64 * e * u - 256 * e ^ 2 * u + 128 * Q ^ 2 * e ^ 2 - 384 * e ^ 3 * u + 576 * Q ^ 2 * e ^ 3 - 256 * e ^ 4 * u +
    1024 * Q ^ 2 * e ^ 4 - 64 * e ^ 5 * u + 896 * Q ^ 2 * e ^ 5 + 384 * Q ^ 2 * e ^ 6 + 64 * Q ^ 2 * e ^ 7) / ((u) *
    (2 + e) * (-u + Q ^ 2 + 2 * Q ^ 2 * e + Q ^ 2 * e ^ 2))
noncomputable def gQG2 (Q u L lU e r s D : ℝ) : ℝ :=
    gQG2p0 Q u e + L * gQG2p1 Q u e + L * lU * gQG2p2 Q u e + lU * gQG2p3 Q u e + lU * r * gQG2p4 Q u e + lU ^ 2 *
    gQG2p5 Q u e + r * gQG2p6 Q u e

noncomputable def gQG3p0 (Q u e : ℝ) : ℝ :=
    (512 * Q * u + 768 * Q * e * u - 512 * Q ^ 3 + 256 * Q * e ^ 2 * u - 768 * Q ^ 3 * e - 1280 * Q ^ 3 * e ^ 2 - 1536
    * Q ^ 3 * e ^ 3 - 512 * Q ^ 3 * e ^ 4) / ((-u + Q ^ 2) ^ 3)
noncomputable def gQG3p1 (Q u e : ℝ) : ℝ :=
    (128 * Q * u + 128 * Q * e * u - 128 * Q ^ 3 - 640 * Q ^ 3 * e - 768 * Q ^ 3 * e ^ 2 - 256 * Q ^ 3 * e ^ 3) / ((-u
    + Q ^ 2) ^ 3)
noncomputable def gQG3p2 (Q u e : ℝ) : ℝ :=
    (256 * Q + 256 * Q * e) / ((-u + Q ^ 2) ^ 2)
noncomputable def gQG3p3 (Q u e : ℝ) : ℝ :=
    (128 * Q * u + 128 * Q * e * u + 128 * Q ^ 3 + 128 * Q ^ 3 * e) / ((-u + Q ^ 2) ^ 3)
noncomputable def gQG3p4 (Q u e : ℝ) : ℝ :=
    (512 * Q * u ^ 2 + 512 * Q * e * u ^ 2 - 2048 * Q ^ 3 * e * u - 512 * Q ^ 5 + 128 * Q * e ^ 3 * u ^ 2 - 5632 * Q ^
    3 * e ^ 2 * u - 512 * Q ^ 5 * e + 128 * Q * e ^ 4 * u ^ 2 - 4992 * Q ^ 3 * e ^ 3 * u + 3584 * Q ^ 5 * e ^ 2 - 896
    * Q ^ 3 * e ^ 4 * u + 9472 * Q ^ 5 * e ^ 3 + 768 * Q ^ 3 * e ^ 5 * u + 8960 * Q ^ 5 * e ^ 4 + 256 * Q ^ 3 * e ^ 6
    * u + 2560 * Q ^ 5 * e ^ 5 - 1536 * Q ^ 5 * e ^ 6 - 1280 * Q ^ 5 * e ^ 7 - 256 * Q ^ 5 * e ^ 8) / ((-u + Q ^ 2 + 2
    * Q ^ 2 * e + Q ^ 2 * e ^ 2) * (-u + Q ^ 2) ^ 3 * (2 + e))
noncomputable def gQG3p5 (Q u e : ℝ) : ℝ :=
    (-128 * Q * e * u ^ 2 - 384 * Q * e ^ 2 * u ^ 2 + 256 * Q ^ 3 * e * u - 384 * Q * e ^ 3 * u ^ 2 + 256 * Q ^ 3 * e
    ^ 2 * u - 128 * Q ^ 5 * e - 128 * Q * e ^ 4 * u ^ 2 - 1024 * Q ^ 3 * e ^ 3 * u + 128 * Q ^ 5 * e ^ 2 - 2048 * Q ^
    3 * e ^ 4 * u + 2432 * Q ^ 5 * e ^ 3 - 1280 * Q ^ 3 * e ^ 5 * u + 6272 * Q ^ 5 * e ^ 4 - 256 * Q ^ 3 * e ^ 6 * u +
    7680 * Q ^ 5 * e ^ 5 + 5120 * Q ^ 5 * e ^ 6 + 1792 * Q ^ 5 * e ^ 7 + 256 * Q ^ 5 * e ^ 8) / ((-u + Q ^ 2 + 2 * Q ^
    2 * e + Q ^ 2 * e ^ 2) * (-u + Q ^ 2) ^ 3 * (2 + e))
noncomputable def gQG3p6 (Q u e : ℝ) : ℝ :=
    (64 * Q * u ^ 2 + 64 * Q * e * u ^ 2 + 384 * Q ^ 3 * e * u - 64 * Q ^ 5 + 576 * Q ^ 3 * e ^ 2 * u - 448 * Q ^ 5 *
    e + 192 * Q ^ 3 * e ^ 3 * u - 1088 * Q ^ 5 * e ^ 2 - 1216 * Q ^ 5 * e ^ 3 - 640 * Q ^ 5 * e ^ 4 - 128 * Q ^ 5 * e
    ^ 5) / ((-u + Q ^ 2 + 2 * Q ^ 2 * e + Q ^ 2 * e ^ 2) * (-u + Q ^ 2) ^ 3)
noncomputable def gQG3p7 (Q u e : ℝ) : ℝ :=
    (-128 * Q * e ^ 2 * u - 128 * Q * e ^ 3 * u + 128 * Q ^ 3 * e ^ 2 + 640 * Q ^ 3 * e ^ 3 + 768 * Q ^ 3 * e ^ 4 +
    256 * Q ^ 3 * e ^ 5) / ((-u + Q ^ 2) ^ 3)
noncomputable def gQG3 (Q u L lU e r s D : ℝ) : ℝ :=
    gQG3p0 Q u e + D * gQG3p1 Q u e + L * gQG3p2 Q u e + L * lU * gQG3p3 Q u e + lU * gQG3p4 Q u e + lU * r * gQG3p5 Q
    u e + lU ^ 2 * gQG3p6 Q u e + s * gQG3p7 Q u e

noncomputable def gQG4p0 (Q u e : ℝ) : ℝ :=
    (-704 * u ^ 4 + 2112 * Q ^ 2 * u ^ 3 - 384 * e * u ^ 4 + 4224 * Q ^ 2 * e * u ^ 3 - 1984 * Q ^ 4 * u ^ 2 + 352 * e
    ^ 2 * u ^ 4 + 1504 * Q ^ 2 * e ^ 2 * u ^ 3 - 6656 * Q ^ 4 * e * u ^ 2 + 448 * Q ^ 6 * u + 256 * e ^ 3 * u ^ 4 -
    2496 * Q ^ 2 * e ^ 3 * u ^ 3 - 6080 * Q ^ 4 * e ^ 2 * u ^ 2 + 2176 * Q ^ 6 * e * u + 128 * Q ^ 8 - 96 * e ^ 4 * u
    ^ 4 - 2240 * Q ^ 2 * e ^ 4 * u ^ 3 + 3840 * Q ^ 4 * e ^ 3 * u ^ 2 + 3168 * Q ^ 6 * e ^ 2 * u + 640 * Q ^ 8 * e -
    128 * e ^ 5 * u ^ 4 + 11424 * Q ^ 4 * e ^ 4 * u ^ 2 - 1728 * Q ^ 6 * e ^ 3 * u + 1056 * Q ^ 8 * e ^ 2 - 32 * e ^ 6
    * u ^ 4 + 768 * Q ^ 2 * e ^ 6 * u ^ 3 + 8448 * Q ^ 4 * e ^ 5 * u ^ 2 - 11520 * Q ^ 6 * e ^ 4 * u + 128 * Q ^ 8 * e
    ^ 3 + 384 * Q ^ 2 * e ^ 7 * u ^ 3 + 1920 * Q ^ 4 * e ^ 6 * u ^ 2 - 16640 * Q ^ 6 * e ^ 5 * u - 1664 * Q ^ 8 * e ^
    4 + 64 * Q ^ 2 * e ^ 8 * u ^ 3 - 960 * Q ^ 4 * e ^ 7 * u ^ 2 - 12576 * Q ^ 6 * e ^ 6 * u - 1920 * Q ^ 8 * e ^ 5 -
    832 * Q ^ 4 * e ^ 8 * u ^ 2 - 5440 * Q ^ 6 * e ^ 7 * u - 320 * Q ^ 8 * e ^ 6 - 256 * Q ^ 4 * e ^ 9 * u ^ 2 - 1280
    * Q ^ 6 * e ^ 8 * u + 896 * Q ^ 8 * e ^ 7 - 32 * Q ^ 4 * e ^ 10 * u ^ 2 - 128 * Q ^ 6 * e ^ 9 * u + 768 * Q ^ 8 *
    e ^ 8 + 256 * Q ^ 8 * e ^ 9 + 32 * Q ^ 8 * e ^ 10) / ((u) * (2 + e) ^ 2 * (-u + Q ^ 2 + 2 * Q ^ 2 * e + Q ^ 2 * e
    ^ 2) ^ 2 * (-u + Q ^ 2) ^ 3)
noncomputable def gQG4p1 (Q u e : ℝ) : ℝ :=
    (32 * u - 32 * Q ^ 2 - 128 * Q ^ 2 * e - 64 * Q ^ 2 * e ^ 2) / ((-u + Q ^ 2) ^ 3)
noncomputable def gQG4p2 (Q u e : ℝ) : ℝ :=
    (-224 * u - 32 * Q ^ 2 - 64 * e * u - 64 * Q ^ 2 * e - 32 * e ^ 2 * u - 32 * Q ^ 2 * e ^ 2) / ((u) * (-u + Q ^ 2)
    ^ 2)
noncomputable def gQG4p3 (Q u e : ℝ) : ℝ :=
    (-96 * u - 160 * Q ^ 2 - 128 * Q ^ 2 * e - 64 * Q ^ 2 * e ^ 2) / ((-u + Q ^ 2) ^ 3)
noncomputable def gQG4p4 (Q u e : ℝ) : ℝ :=
    (928 * u ^ 3 - 1504 * Q ^ 2 * u ^ 2 + 896 * e * u ^ 3 - 4800 * Q ^ 2 * e * u ^ 2 - 32 * Q ^ 4 * u + 224 * e ^ 2 *
    u ^ 3 - 5232 * Q ^ 2 * e ^ 2 * u ^ 2 + 512 * Q ^ 4 * e * u + 608 * Q ^ 6 + 32 * e ^ 3 * u ^ 3 - 2432 * Q ^ 2 * e ^
    3 * u ^ 2 + 1792 * Q ^ 4 * e ^ 2 * u + 3392 * Q ^ 6 * e + 16 * e ^ 4 * u ^ 3 - 544 * Q ^ 2 * e ^ 4 * u ^ 2 + 2144
    * Q ^ 4 * e ^ 3 * u + 8336 * Q ^ 6 * e ^ 2 - 128 * Q ^ 2 * e ^ 5 * u ^ 2 + 1264 * Q ^ 4 * e ^ 4 * u + 12032 * Q ^
    6 * e ^ 3 - 32 * Q ^ 2 * e ^ 6 * u ^ 2 + 640 * Q ^ 4 * e ^ 5 * u + 11424 * Q ^ 6 * e ^ 4 + 432 * Q ^ 4 * e ^ 6 * u
    + 7424 * Q ^ 6 * e ^ 5 + 192 * Q ^ 4 * e ^ 7 * u + 3216 * Q ^ 6 * e ^ 6 + 32 * Q ^ 4 * e ^ 8 * u + 832 * Q ^ 6 * e
    ^ 7 + 96 * Q ^ 6 * e ^ 8) / ((2 + e) ^ 2 * (-u + Q ^ 2 + 2 * Q ^ 2 * e + Q ^ 2 * e ^ 2) ^ 2 * (-u + Q ^ 2) ^ 3)
noncomputable def gQG4p5 (Q u e : ℝ) : ℝ :=
    (-16 * u ^ 3 + 16 * Q ^ 2 * u ^ 2 - 64 * e * u ^ 3 + 128 * Q ^ 2 * e * u ^ 2 + 16 * Q ^ 4 * u - 96 * e ^ 2 * u ^ 3
    + 384 * Q ^ 2 * e ^ 2 * u ^ 2 + 64 * Q ^ 4 * e * u - 16 * Q ^ 6 - 64 * e ^ 3 * u ^ 3 + 576 * Q ^ 2 * e ^ 3 * u ^ 2
    - 32 * Q ^ 4 * e ^ 2 * u - 128 * Q ^ 6 * e - 16 * e ^ 4 * u ^ 3 + 464 * Q ^ 2 * e ^ 4 * u ^ 2 - 576 * Q ^ 4 * e ^
    3 * u - 512 * Q ^ 6 * e ^ 2 + 192 * Q ^ 2 * e ^ 5 * u ^ 2 - 1296 * Q ^ 4 * e ^ 4 * u - 1216 * Q ^ 6 * e ^ 3 + 32 *
    Q ^ 2 * e ^ 6 * u ^ 2 - 1408 * Q ^ 4 * e ^ 5 * u - 1776 * Q ^ 6 * e ^ 4 - 832 * Q ^ 4 * e ^ 6 * u - 1600 * Q ^ 6 *
    e ^ 5 - 256 * Q ^ 4 * e ^ 7 * u - 864 * Q ^ 6 * e ^ 6 - 32 * Q ^ 4 * e ^ 8 * u - 256 * Q ^ 6 * e ^ 7 - 32 * Q ^ 6
    * e ^ 8) / ((2 + e) ^ 2 * (-u + Q ^ 2 + 2 * Q ^ 2 * e + Q ^ 2 * e ^ 2) ^ 2 * (-u + Q ^ 2) ^ 3)
noncomputable def gQG4p6 (Q u e : ℝ) : ℝ :=
    (80 * u ^ 4 - 64 * Q ^ 2 * u ^ 3 - 256 * Q ^ 2 * e * u ^ 3 - 176 * Q ^ 4 * u ^ 2 - 128 * Q ^ 2 * e ^ 2 * u ^ 3 -
    320 * Q ^ 4 * e * u ^ 2 + 192 * Q ^ 6 * u - 160 * Q ^ 4 * e ^ 2 * u ^ 2 + 768 * Q ^ 6 * e * u - 32 * Q ^ 8 + 1280
    * Q ^ 6 * e ^ 2 * u - 192 * Q ^ 8 * e + 1152 * Q ^ 6 * e ^ 3 * u - 480 * Q ^ 8 * e ^ 2 + 608 * Q ^ 6 * e ^ 4 * u -
    640 * Q ^ 8 * e ^ 3 + 192 * Q ^ 6 * e ^ 5 * u - 480 * Q ^ 8 * e ^ 4 + 32 * Q ^ 6 * e ^ 6 * u - 192 * Q ^ 8 * e ^ 5
    - 32 * Q ^ 8 * e ^ 6) / ((-u + Q ^ 2 + 2 * Q ^ 2 * e + Q ^ 2 * e ^ 2) ^ 2 * (-u + Q ^ 2) ^ 4)
noncomputable def gQG4p7 (Q u e : ℝ) : ℝ :=
    (-32 * u ^ 3 + 64 * Q ^ 2 * u ^ 2 - 128 * e * u ^ 3 + 384 * Q ^ 2 * e * u ^ 2 - 32 * Q ^ 4 * u - 320 * e ^ 2 * u ^
    3 + 1088 * Q ^ 2 * e ^ 2 * u ^ 2 - 256 * Q ^ 4 * e * u - 512 * e ^ 3 * u ^ 3 + 2176 * Q ^ 2 * e ^ 3 * u ^ 2 - 896
    * Q ^ 4 * e ^ 2 * u - 448 * e ^ 4 * u ^ 3 + 3168 * Q ^ 2 * e ^ 4 * u ^ 2 - 2048 * Q ^ 4 * e ^ 3 * u - 128 * Q ^ 6
    * e ^ 2 - 192 * e ^ 5 * u ^ 3 + 3008 * Q ^ 2 * e ^ 5 * u ^ 2 - 3648 * Q ^ 4 * e ^ 4 * u - 896 * Q ^ 6 * e ^ 3 - 32
    * e ^ 6 * u ^ 3 + 1696 * Q ^ 2 * e ^ 6 * u ^ 2 - 5056 * Q ^ 4 * e ^ 5 * u - 2720 * Q ^ 6 * e ^ 4 + 512 * Q ^ 2 * e
    ^ 7 * u ^ 2 - 5024 * Q ^ 4 * e ^ 6 * u - 4672 * Q ^ 6 * e ^ 5 + 64 * Q ^ 2 * e ^ 8 * u ^ 2 - 3328 * Q ^ 4 * e ^ 7
    * u - 4960 * Q ^ 6 * e ^ 6 - 1376 * Q ^ 4 * e ^ 8 * u - 3328 * Q ^ 6 * e ^ 7 - 320 * Q ^ 4 * e ^ 9 * u - 1376 * Q
    ^ 6 * e ^ 8 - 32 * Q ^ 4 * e ^ 10 * u - 320 * Q ^ 6 * e ^ 9 - 32 * Q ^ 6 * e ^ 10) / ((u) * (2 + e) ^ 2 * (-u + Q
    ^ 2 + 2 * Q ^ 2 * e + Q ^ 2 * e ^ 2) ^ 2 * (-u + Q ^ 2) ^ 2)
noncomputable def gQG4p8 (Q u e : ℝ) : ℝ :=
    (-32 * e ^ 2 * u + 32 * Q ^ 2 * e ^ 2 + 128 * Q ^ 2 * e ^ 3 + 64 * Q ^ 2 * e ^ 4) / ((-u + Q ^ 2) ^ 3)
noncomputable def gQG4 (Q u L lU e r s D : ℝ) : ℝ :=
    gQG4p0 Q u e + D * gQG4p1 Q u e + L * gQG4p2 Q u e + L * lU * gQG4p3 Q u e + lU * gQG4p4 Q u e + lU * r * gQG4p5 Q
    u e + lU ^ 2 * gQG4p6 Q u e + r * gQG4p7 Q u e + s * gQG4p8 Q u e

noncomputable def gQG5p0 (Q u e : ℝ) : ℝ :=
    (256 * Q + 640 * Q * e + 384 * Q * e ^ 2 - 128 * Q * e ^ 3 - 128 * Q * e ^ 4) / ((-u + Q ^ 2 + 2 * Q ^ 2 * e + Q ^
    2 * e ^ 2) * (-u + Q ^ 2) ^ 2 * (2 + e))
noncomputable def gQG5p1 (Q u e : ℝ) : ℝ :=
    (384 * Q * u + 704 * Q * e * u + 128 * Q ^ 3 + 320 * Q * e ^ 2 * u + 320 * Q ^ 3 * e - 64 * Q * e ^ 3 * u + 192 *
    Q ^ 3 * e ^ 2 - 64 * Q * e ^ 4 * u - 64 * Q ^ 3 * e ^ 3 - 64 * Q ^ 3 * e ^ 4) / ((-u + Q ^ 2 + 2 * Q ^ 2 * e + Q ^
    2 * e ^ 2) * (-u + Q ^ 2) ^ 3 * (2 + e))
noncomputable def gQG5p2 (Q u e : ℝ) : ℝ :=
    (64 * Q * e * u + 192 * Q * e ^ 2 * u + 64 * Q ^ 3 * e + 192 * Q * e ^ 3 * u + 192 * Q ^ 3 * e ^ 2 + 64 * Q * e ^
    4 * u + 192 * Q ^ 3 * e ^ 3 + 64 * Q ^ 3 * e ^ 4) / ((-u + Q ^ 2 + 2 * Q ^ 2 * e + Q ^ 2 * e ^ 2) * (-u + Q ^ 2) ^
    3 * (2 + e))
noncomputable def gQG5p3 (Q u e : ℝ) : ℝ :=
    (64 * Q * u ^ 2 + 64 * Q * e * u ^ 2 + 64 * Q ^ 3 * u + 64 * Q ^ 3 * e * u) / ((-u + Q ^ 2 + 2 * Q ^ 2 * e + Q ^ 2
    * e ^ 2) * (-u + Q ^ 2) ^ 4)
noncomputable def gQG5p4 (Q u e : ℝ) : ℝ :=
    (128 * Q * e + 384 * Q * e ^ 2 + 384 * Q * e ^ 3 + 128 * Q * e ^ 4) / ((-u + Q ^ 2 + 2 * Q ^ 2 * e + Q ^ 2 * e ^
    2) * (-u + Q ^ 2) ^ 2 * (2 + e))
noncomputable def gQG5 (Q u L lU e r s D : ℝ) : ℝ :=
    gQG5p0 Q u e + lU * gQG5p1 Q u e + lU * r * gQG5p2 Q u e + lU ^ 2 * gQG5p3 Q u e + r * gQG5p4 Q u e

noncomputable def gQG (X Q u L lU e r s D : ℝ) : ℝ :=
    gQG0 Q u L lU e r s D + X * gQG1 Q u L lU e r s D + X ^ 2 * gQG2 Q u L lU e r s D + X ^ 3 * gQG3 Q u L lU e r s D
    + X ^ 4 * gQG4 Q u L lU e r s D + X ^ 5 * gQG5 Q u L lU e r s D

set_option maxRecDepth 8000 in
theorem QG_repr0 {Q u L lU e r s D : ℝ} (hQ : Q ≠ 0) (hu : u ≠ 0) (he : e ≠ 0) (h2 : 2 + e ≠ 0) (hQu : -u + Q ^ 2 ≠ 0)
    (hgu : -u + Q ^ 2 + 2 * Q ^ 2 * e + Q ^ 2 * e ^ 2 ≠ 0) :
    c0 (Q * (1 + e)) (Q ^ 2) u L lU (2 * e - e ^ 2 + e ^ 2 * r) (-2 * e + e ^ 2 * s) D = gQG0 Q u L lU e r s D := by
  simp only [c0, gQG0, gQG0p0, gQG0p1, gQG0p2, gQG0p3, gQG0p4, gQG0p5, gQG0p6, gQG0p7, gQG0p8, gQG0p9]
  have d1 : (Q * (1 + e)) ^ 2 - Q ^ 2 = Q ^ 2 * (e * (2 + e)) := by ring
  have d2 : -((Q * (1 + e)) ^ 2) + Q ^ 2 = - (Q ^ 2 * (e * (2 + e))) := by ring
  have d3 : Q ^ 2 - u = -u + Q ^ 2 := by ring
  have d4 : (Q * (1 + e)) ^ 2 - u = -u + Q ^ 2 + 2 * Q ^ 2 * e + Q ^ 2 * e ^ 2 := by ring
  simp only [d1, d2, d3, d4]
  generalize hD : -u + Q ^ 2 + 2 * Q ^ 2 * e + Q ^ 2 * e ^ 2 = DD at *
  generalize hE : -u + Q ^ 2 = E at *
  generalize hF : 2 + e = F at *
  field_simp
  subst hD hE hF
  ring

set_option maxRecDepth 8000 in
theorem QG_repr1 {Q u L lU e r s D : ℝ} (hQ : Q ≠ 0) (hu : u ≠ 0) (he : e ≠ 0) (h2 : 2 + e ≠ 0) (hQu : -u + Q ^ 2 ≠ 0)
    (hgu : -u + Q ^ 2 + 2 * Q ^ 2 * e + Q ^ 2 * e ^ 2 ≠ 0) :
    c1 (Q * (1 + e)) (Q ^ 2) u L lU (2 * e - e ^ 2 + e ^ 2 * r) (-2 * e + e ^ 2 * s) D = gQG1 Q u L lU e r s D := by
  simp only [c1, gQG1, gQG1p0, gQG1p1, gQG1p2, gQG1p3, gQG1p4, gQG1p5, gQG1p6]
  have d1 : (Q * (1 + e)) ^ 2 - Q ^ 2 = Q ^ 2 * (e * (2 + e)) := by ring
  have d2 : -((Q * (1 + e)) ^ 2) + Q ^ 2 = - (Q ^ 2 * (e * (2 + e))) := by ring
  have d3 : Q ^ 2 - u = -u + Q ^ 2 := by ring
  have d4 : (Q * (1 + e)) ^ 2 - u = -u + Q ^ 2 + 2 * Q ^ 2 * e + Q ^ 2 * e ^ 2 := by ring
  simp only [d1, d2, d3, d4]
  generalize hD : -u + Q ^ 2 + 2 * Q ^ 2 * e + Q ^ 2 * e ^ 2 = DD at *
  generalize hE : -u + Q ^ 2 = E at *
  generalize hF : 2 + e = F at *
  field_simp
  subst hD hE hF
  ring

set_option maxRecDepth 8000 in
theorem QG_repr2 {Q u L lU e r s D : ℝ} (hQ : Q ≠ 0) (hu : u ≠ 0) (he : e ≠ 0) (h2 : 2 + e ≠ 0) (hQu : -u + Q ^ 2 ≠ 0)
    (hgu : -u + Q ^ 2 + 2 * Q ^ 2 * e + Q ^ 2 * e ^ 2 ≠ 0) :
    c2 (Q * (1 + e)) (Q ^ 2) u L lU (2 * e - e ^ 2 + e ^ 2 * r) (-2 * e + e ^ 2 * s) D = gQG2 Q u L lU e r s D := by
  simp only [c2, gQG2, gQG2p0, gQG2p1, gQG2p2, gQG2p3, gQG2p4, gQG2p5, gQG2p6]
  have d1 : (Q * (1 + e)) ^ 2 - Q ^ 2 = Q ^ 2 * (e * (2 + e)) := by ring
  have d2 : -((Q * (1 + e)) ^ 2) + Q ^ 2 = - (Q ^ 2 * (e * (2 + e))) := by ring
  have d3 : Q ^ 2 - u = -u + Q ^ 2 := by ring
  have d4 : (Q * (1 + e)) ^ 2 - u = -u + Q ^ 2 + 2 * Q ^ 2 * e + Q ^ 2 * e ^ 2 := by ring
  simp only [d1, d2, d3, d4]
  generalize hD : -u + Q ^ 2 + 2 * Q ^ 2 * e + Q ^ 2 * e ^ 2 = DD at *
  generalize hE : -u + Q ^ 2 = E at *
  generalize hF : 2 + e = F at *
  field_simp
  subst hD hE hF
  ring

set_option maxRecDepth 8000 in
theorem QG_repr3 {Q u L lU e r s D : ℝ} (hQ : Q ≠ 0) (hu : u ≠ 0) (he : e ≠ 0) (h2 : 2 + e ≠ 0) (hQu : -u + Q ^ 2 ≠ 0)
    (hgu : -u + Q ^ 2 + 2 * Q ^ 2 * e + Q ^ 2 * e ^ 2 ≠ 0) :
    c3 (Q * (1 + e)) (Q ^ 2) u L lU (2 * e - e ^ 2 + e ^ 2 * r) (-2 * e + e ^ 2 * s) D = gQG3 Q u L lU e r s D := by
  simp only [c3, gQG3, gQG3p0, gQG3p1, gQG3p2, gQG3p3, gQG3p4, gQG3p5, gQG3p6, gQG3p7]
  have d1 : (Q * (1 + e)) ^ 2 - Q ^ 2 = Q ^ 2 * (e * (2 + e)) := by ring
  have d2 : -((Q * (1 + e)) ^ 2) + Q ^ 2 = - (Q ^ 2 * (e * (2 + e))) := by ring
  have d3 : Q ^ 2 - u = -u + Q ^ 2 := by ring
  have d4 : (Q * (1 + e)) ^ 2 - u = -u + Q ^ 2 + 2 * Q ^ 2 * e + Q ^ 2 * e ^ 2 := by ring
  simp only [d1, d2, d3, d4]
  generalize hD : -u + Q ^ 2 + 2 * Q ^ 2 * e + Q ^ 2 * e ^ 2 = DD at *
  generalize hE : -u + Q ^ 2 = E at *
  generalize hF : 2 + e = F at *
  field_simp
  subst hD hE hF
  ring

set_option maxRecDepth 8000 in
theorem QG_repr4 {Q u L lU e r s D : ℝ} (hQ : Q ≠ 0) (hu : u ≠ 0) (he : e ≠ 0) (h2 : 2 + e ≠ 0) (hQu : -u + Q ^ 2 ≠ 0)
    (hgu : -u + Q ^ 2 + 2 * Q ^ 2 * e + Q ^ 2 * e ^ 2 ≠ 0) :
    c4 (Q * (1 + e)) (Q ^ 2) u L lU (2 * e - e ^ 2 + e ^ 2 * r) (-2 * e + e ^ 2 * s) D = gQG4 Q u L lU e r s D := by
  simp only [c4, gQG4, gQG4p0, gQG4p1, gQG4p2, gQG4p3, gQG4p4, gQG4p5, gQG4p6, gQG4p7, gQG4p8]
  have d1 : (Q * (1 + e)) ^ 2 - Q ^ 2 = Q ^ 2 * (e * (2 + e)) := by ring
  have d2 : -((Q * (1 + e)) ^ 2) + Q ^ 2 = - (Q ^ 2 * (e * (2 + e))) := by ring
  have d3 : Q ^ 2 - u = -u + Q ^ 2 := by ring
  have d4 : (Q * (1 + e)) ^ 2 - u = -u + Q ^ 2 + 2 * Q ^ 2 * e + Q ^ 2 * e ^ 2 := by ring
  simp only [d1, d2, d3, d4]
  generalize hD : -u + Q ^ 2 + 2 * Q ^ 2 * e + Q ^ 2 * e ^ 2 = DD at *
  generalize hE : -u + Q ^ 2 = E at *
  generalize hF : 2 + e = F at *
  field_simp
  subst hD hE hF
  ring

set_option maxRecDepth 8000 in
theorem QG_repr5 {Q u L lU e r s D : ℝ} (hQ : Q ≠ 0) (hu : u ≠ 0) (he : e ≠ 0) (h2 : 2 + e ≠ 0) (hQu : -u + Q ^ 2 ≠ 0)
    (hgu : -u + Q ^ 2 + 2 * Q ^ 2 * e + Q ^ 2 * e ^ 2 ≠ 0) :
    c5 (Q * (1 + e)) (Q ^ 2) u L lU (2 * e - e ^ 2 + e ^ 2 * r) (-2 * e + e ^ 2 * s) D = gQG5 Q u L lU e r s D := by
  simp only [c5, gQG5, gQG5p0, gQG5p1, gQG5p2, gQG5p3, gQG5p4]
  have d1 : (Q * (1 + e)) ^ 2 - Q ^ 2 = Q ^ 2 * (e * (2 + e)) := by ring
  have d2 : -((Q * (1 + e)) ^ 2) + Q ^ 2 = - (Q ^ 2 * (e * (2 + e))) := by ring
  have d3 : Q ^ 2 - u = -u + Q ^ 2 := by ring
  have d4 : (Q * (1 + e)) ^ 2 - u = -u + Q ^ 2 + 2 * Q ^ 2 * e + Q ^ 2 * e ^ 2 := by ring
  simp only [d1, d2, d3, d4]
  generalize hD : -u + Q ^ 2 + 2 * Q ^ 2 * e + Q ^ 2 * e ^ 2 = DD at *
  generalize hE : -u + Q ^ 2 = E at *
  generalize hF : 2 + e = F at *
  field_simp
  subst hD hE hF
  ring

theorem QG_repr {X Q u L lU e r s D : ℝ} (hQ : Q ≠ 0) (hu : u ≠ 0) (he : e ≠ 0) (h2 : 2 + e ≠ 0) (hQu : -u + Q ^ 2 ≠ 0)
    (hgu : -u + Q ^ 2 + 2 * Q ^ 2 * e + Q ^ 2 * e ^ 2 ≠ 0) :
    lamX X (Q * (1 + e)) (Q ^ 2) u L lU (2 * e - e ^ 2 + e ^ 2 * r) (-2 * e + e ^ 2 * s) D = gQG X Q u L lU e r s D := by
  unfold lamX gQG
  rw [QG_repr0 hQ hu he h2 hQu hgu, QG_repr1 hQ hu he h2 hQu hgu, QG_repr2 hQ hu he h2 hQu hgu, QG_repr3 hQ hu he h2 hQu hgu, QG_repr4 hQ hu he h2 hQu hgu, QG_repr5 hQ hu he h2 hQu hgu]

theorem gQG0_cont {Q u L lU D : ℝ} (hQ : Q ≠ 0) (hu : u ≠ 0) (hQu : -u + Q ^ 2 ≠ 0) :
    ContinuousAt (fun z : ℝ × (ℝ × (ℝ × ℝ)) => gQG0 Q u L lU z.1 z.2.1 z.2.2.1 z.2.2.2) (0, (0, (0, D))) := by
  have h3 : -u + Q ^ 2 + 2 * Q ^ 2 * 0 + Q ^ 2 * 0 ^ 2 ≠ 0 := by intro h; apply hQu; linear_combination h
  have hgQG0p0 : ContinuousAt (fun z : ℝ × (ℝ × (ℝ × ℝ)) => gQG0p0 Q u z.1) (0, (0, (0, D))) := by
    unfold gQG0p0
    fun_prop (disch := cdisch)
  have hgQG0p1 : ContinuousAt (fun z : ℝ × (ℝ × (ℝ × ℝ)) => gQG0p1 Q u z.1) (0, (0, (0, D))) := by
    unfold gQG0p1
    fun_prop (disch := cdisch)
  have hgQG0p2 : ContinuousAt (fun z : ℝ × (ℝ × (ℝ × ℝ)) => gQG0p2 Q u z.1) (0, (0, (0, D))) := by
    unfold gQG0p2
    fun_prop (disch := cdisch)
  have hgQG0p3 : ContinuousAt (fun z : ℝ × (ℝ × (ℝ × ℝ)) => gQG0p3 Q u z.1) (0, (0, (0, D))) := by
    unfold gQG0p3
    fun_prop (disch := cdisch)
  have hgQG0p4 : ContinuousAt (fun z : ℝ × (ℝ × (ℝ × ℝ)) => gQG0p4 Q u z.1) (0, (0, (0, D))) := by
    unfold gQG0p4
    fun_prop (disch := cdisch)
  have hgQG0p5 : ContinuousAt (fun z : ℝ × (ℝ × (ℝ × ℝ)) => gQG0p5 Q u z.1) (0, (0, (0, D))) := by
    unfold gQG0p5
    fun_prop (disch := cdisch)
  have hgQG0p6 : ContinuousAt (fun z : ℝ × (ℝ × (ℝ × ℝ)) => gQG0p6 Q u z.1) (0, (0, (0, D))) := by
    unfold gQG0p6
    fun_prop (disch := cdisch)
  have hgQG0p7 : ContinuousAt (fun z : ℝ × (ℝ × (ℝ × ℝ)) => gQG0p7 Q u z.1) (0, (0, (0, D))) := by
    unfold gQG0p7
    fun_prop (disch := cdisch)
  have hgQG0p8 : ContinuousAt (fun z : ℝ × (ℝ × (ℝ × ℝ)) => gQG0p8 Q u z.1) (0, (0, (0, D))) := by
    unfold gQG0p8
    fun_prop (disch := cdisch)
  have hgQG0p9 : ContinuousAt (fun z : ℝ × (ℝ × (ℝ × ℝ)) => gQG0p9 Q u z.1) (0, (0, (0, D))) := by
    unfold gQG0p9
    fun_prop (disch := cdisch)
  exact (((((((((hgQG0p0).add
    ((show ContinuousAt (fun z : ℝ × (ℝ × (ℝ × ℝ)) => z.2.2.2) (0, (0, (0, D))) by fun_prop).mul hgQG0p1)).add
    ((show ContinuousAt (fun z : ℝ × (ℝ × (ℝ × ℝ)) => L) (0, (0, (0, D))) by fun_prop).mul hgQG0p2)).add
    ((show ContinuousAt (fun z : ℝ × (ℝ × (ℝ × ℝ)) => L * lU) (0, (0, (0, D))) by fun_prop).mul hgQG0p3)).add
    ((show ContinuousAt (fun z : ℝ × (ℝ × (ℝ × ℝ)) => L ^ 2) (0, (0, (0, D))) by fun_prop).mul hgQG0p4)).add
    ((show ContinuousAt (fun z : ℝ × (ℝ × (ℝ × ℝ)) => lU) (0, (0, (0, D))) by fun_prop).mul hgQG0p5)).add
    ((show ContinuousAt (fun z : ℝ × (ℝ × (ℝ × ℝ)) => lU * z.2.1) (0, (0, (0, D))) by fun_prop).mul hgQG0p6)).add
    ((show ContinuousAt (fun z : ℝ × (ℝ × (ℝ × ℝ)) => lU ^ 2) (0, (0, (0, D))) by fun_prop).mul hgQG0p7)).add
    ((show ContinuousAt (fun z : ℝ × (ℝ × (ℝ × ℝ)) => z.2.1) (0, (0, (0, D))) by fun_prop).mul hgQG0p8)).add
    ((show ContinuousAt (fun z : ℝ × (ℝ × (ℝ × ℝ)) => z.2.2.1) (0, (0, (0, D))) by fun_prop).mul hgQG0p9)

theorem gQG1_cont {Q u L lU D : ℝ} (hQ : Q ≠ 0) (hu : u ≠ 0) (hQu : -u + Q ^ 2 ≠ 0) :
    ContinuousAt (fun z : ℝ × (ℝ × (ℝ × ℝ)) => gQG1 Q u L lU z.1 z.2.1 z.2.2.1 z.2.2.2) (0, (0, (0, D))) := by
  have h3 : -u + Q ^ 2 + 2 * Q ^ 2 * 0 + Q ^ 2 * 0 ^ 2 ≠ 0 := by intro h; apply hQu; linear_combination h
  have hgQG1p0 : ContinuousAt (fun z : ℝ × (ℝ × (ℝ × ℝ)) => gQG1p0 Q u z.1) (0, (0, (0, D))) := by
    unfold gQG1p0
    fun_prop (disch := cdisch)
  have hgQG1p1 : ContinuousAt (fun z : ℝ × (ℝ × (ℝ × ℝ)) => gQG1p1 Q u z.1) (0, (0, (0, D))) := by
    unfold gQG1p1
    fun_prop (disch := cdisch)
  have hgQG1p2 : ContinuousAt (fun z : ℝ × (ℝ × (ℝ × ℝ)) => gQG1p2 Q u z.1) (0, (0, (0, D))) := by
    unfold gQG1p2
    fun_prop (disch := cdisch)
  have hgQG1p3 : ContinuousAt (fun z : ℝ × (ℝ × (ℝ × ℝ)) => gQG1p3 Q u z.1) (0, (0, (0, D))) := by
    unfold gQG1p3
    fun_prop (disch := cdisch)
  have hgQG1p4 : ContinuousAt (fun z : ℝ × (ℝ × (ℝ × ℝ)) => gQG1p4 Q u z.1) (0, (0, (0, D))) := by
    unfold gQG1p4
    fun_prop (disch := cdisch)
  have hgQG1p5 : ContinuousAt (fun z : ℝ × (ℝ × (ℝ × ℝ)) => gQG1p5 Q u z.1) (0, (0, (0, D))) := by
    unfold gQG1p5
    fun_prop (disch := cdisch)
  have hgQG1p6 : ContinuousAt (fun z : ℝ × (ℝ × (ℝ × ℝ)) => gQG1p6 Q u z.1) (0, (0, (0, D))) := by
    unfold gQG1p6
    fun_prop (disch := cdisch)
  exact ((((((hgQG1p0).add
    ((show ContinuousAt (fun z : ℝ × (ℝ × (ℝ × ℝ)) => z.2.2.2) (0, (0, (0, D))) by fun_prop).mul hgQG1p1)).add
    ((show ContinuousAt (fun z : ℝ × (ℝ × (ℝ × ℝ)) => L * lU) (0, (0, (0, D))) by fun_prop).mul hgQG1p2)).add
    ((show ContinuousAt (fun z : ℝ × (ℝ × (ℝ × ℝ)) => lU) (0, (0, (0, D))) by fun_prop).mul hgQG1p3)).add
    ((show ContinuousAt (fun z : ℝ × (ℝ × (ℝ × ℝ)) => lU * z.2.1) (0, (0, (0, D))) by fun_prop).mul hgQG1p4)).add
    ((show ContinuousAt (fun z : ℝ × (ℝ × (ℝ × ℝ)) => lU ^ 2) (0, (0, (0, D))) by fun_prop).mul hgQG1p5)).add
    ((show ContinuousAt (fun z : ℝ × (ℝ × (ℝ × ℝ)) => z.2.2.1) (0, (0, (0, D))) by fun_prop).mul hgQG1p6)

theorem gQG2_cont {Q u L lU D : ℝ} (hQ : Q ≠ 0) (hu : u ≠ 0) (hQu : -u + Q ^ 2 ≠ 0) :
    ContinuousAt (fun z : ℝ × (ℝ × (ℝ × ℝ)) => gQG2 Q u L lU z.1 z.2.1 z.2.2.1 z.2.2.2) (0, (0, (0, D))) := by
  have h3 : -u + Q ^ 2 + 2 * Q ^ 2 * 0 + Q ^ 2 * 0 ^ 2 ≠ 0 := by intro h; apply hQu; linear_combination h
  have hgQG2p0 : ContinuousAt (fun z : ℝ × (ℝ × (ℝ × ℝ)) => gQG2p0 Q u z.1) (0, (0, (0, D))) := by
    unfold gQG2p0
    fun_prop (disch := cdisch)
  have hgQG2p1 : ContinuousAt (fun z : ℝ × (ℝ × (ℝ × ℝ)) => gQG2p1 Q u z.1) (0, (0, (0, D))) := by
    unfold gQG2p1
    fun_prop (disch := cdisch)
  have hgQG2p2 : ContinuousAt (fun z : ℝ × (ℝ × (ℝ × ℝ)) => gQG2p2 Q u z.1) (0, (0, (0, D))) := by
    unfold gQG2p2
    fun_prop (disch := cdisch)
  have hgQG2p3 : ContinuousAt (fun z : ℝ × (ℝ × (ℝ × ℝ)) => gQG2p3 Q u z.1) (0, (0, (0, D))) := by
    unfold gQG2p3
    fun_prop (disch := cdisch)
  have hgQG2p4 : ContinuousAt (fun z : ℝ × (ℝ × (ℝ × ℝ)) => gQG2p4 Q u z.1) (0, (0, (0, D))) := by
    unfold gQG2p4
    fun_prop (disch := cdisch)
  have hgQG2p5 : ContinuousAt (fun z : ℝ × (ℝ × (ℝ × ℝ)) => gQG2p5 Q u z.1) (0, (0, (0, D))) := by
    unfold gQG2p5
    fun_prop (disch := cdisch)
  have hgQG2p6 : ContinuousAt (fun z : ℝ × (ℝ × (ℝ × ℝ)) => gQG2p6 Q u z.1) (0, (0, (0, D))) := by
    unfold gQG2p6
    fun_prop (disch := cdisch)
  exact ((((((hgQG2p0).add
    ((show ContinuousAt (fun z : ℝ × (ℝ × (ℝ × ℝ)) => L) (0, (0, (0, D))) by fun_prop).mul hgQG2p1)).add
    ((show ContinuousAt (fun z : ℝ × (ℝ × (ℝ × ℝ)) => L * lU) (0, (0, (0, D))) by fun_prop).mul hgQG2p2)).add
    ((show ContinuousAt (fun z : ℝ × (ℝ × (ℝ × ℝ)) => lU) (0, (0, (0, D))) by fun_prop).mul hgQG2p3)).add
    ((show ContinuousAt (fun z : ℝ × (ℝ × (ℝ × ℝ)) => lU * z.2.1) (0, (0, (0, D))) by fun_prop).mul hgQG2p4)).add
    ((show ContinuousAt (fun z : ℝ × (ℝ × (ℝ × ℝ)) => lU ^ 2) (0, (0, (0, D))) by fun_prop).mul hgQG2p5)).add
    ((show ContinuousAt (fun z : ℝ × (ℝ × (ℝ × ℝ)) => z.2.1) (0, (0, (0, D))) by fun_prop).mul hgQG2p6)

theorem gQG3_cont {Q u L lU D : ℝ} (hQ : Q ≠ 0) (hu : u ≠ 0) (hQu : -u + Q ^ 2 ≠ 0) :
    ContinuousAt (fun z : ℝ × (ℝ × (ℝ × ℝ)) => gQG3 Q u L lU z.1 z.2.1 z.2.2.1 z.2.2.2) (0, (0, (0, D))) := by
  have h3 : -u + Q ^ 2 + 2 * Q ^ 2 * 0 + Q ^ 2 * 0 ^ 2 ≠ 0 := by intro h; apply hQu; linear_combination h
  have hgQG3p0 : ContinuousAt (fun z : ℝ × (ℝ × (ℝ × ℝ)) => gQG3p0 Q u z.1) (0, (0, (0, D))) := by
    unfold gQG3p0
    fun_prop (disch := cdisch)
  have hgQG3p1 : ContinuousAt (fun z : ℝ × (ℝ × (ℝ × ℝ)) => gQG3p1 Q u z.1) (0, (0, (0, D))) := by
    unfold gQG3p1
    fun_prop (disch := cdisch)
  have hgQG3p2 : ContinuousAt (fun z : ℝ × (ℝ × (ℝ × ℝ)) => gQG3p2 Q u z.1) (0, (0, (0, D))) := by
    unfold gQG3p2
    fun_prop (disch := cdisch)
  have hgQG3p3 : ContinuousAt (fun z : ℝ × (ℝ × (ℝ × ℝ)) => gQG3p3 Q u z.1) (0, (0, (0, D))) := by
    unfold gQG3p3
    fun_prop (disch := cdisch)
  have hgQG3p4 : ContinuousAt (fun z : ℝ × (ℝ × (ℝ × ℝ)) => gQG3p4 Q u z.1) (0, (0, (0, D))) := by
    unfold gQG3p4
    fun_prop (disch := cdisch)
  have hgQG3p5 : ContinuousAt (fun z : ℝ × (ℝ × (ℝ × ℝ)) => gQG3p5 Q u z.1) (0, (0, (0, D))) := by
    unfold gQG3p5
    fun_prop (disch := cdisch)
  have hgQG3p6 : ContinuousAt (fun z : ℝ × (ℝ × (ℝ × ℝ)) => gQG3p6 Q u z.1) (0, (0, (0, D))) := by
    unfold gQG3p6
    fun_prop (disch := cdisch)
  have hgQG3p7 : ContinuousAt (fun z : ℝ × (ℝ × (ℝ × ℝ)) => gQG3p7 Q u z.1) (0, (0, (0, D))) := by
    unfold gQG3p7
    fun_prop (disch := cdisch)
  exact (((((((hgQG3p0).add
    ((show ContinuousAt (fun z : ℝ × (ℝ × (ℝ × ℝ)) => z.2.2.2) (0, (0, (0, D))) by fun_prop).mul hgQG3p1)).add
    ((show ContinuousAt (fun z : ℝ × (ℝ × (ℝ × ℝ)) => L) (0, (0, (0, D))) by fun_prop).mul hgQG3p2)).add
    ((show ContinuousAt (fun z : ℝ × (ℝ × (ℝ × ℝ)) => L * lU) (0, (0, (0, D))) by fun_prop).mul hgQG3p3)).add
    ((show ContinuousAt (fun z : ℝ × (ℝ × (ℝ × ℝ)) => lU) (0, (0, (0, D))) by fun_prop).mul hgQG3p4)).add
    ((show ContinuousAt (fun z : ℝ × (ℝ × (ℝ × ℝ)) => lU * z.2.1) (0, (0, (0, D))) by fun_prop).mul hgQG3p5)).add
    ((show ContinuousAt (fun z : ℝ × (ℝ × (ℝ × ℝ)) => lU ^ 2) (0, (0, (0, D))) by fun_prop).mul hgQG3p6)).add
    ((show ContinuousAt (fun z : ℝ × (ℝ × (ℝ × ℝ)) => z.2.2.1) (0, (0, (0, D))) by fun_prop).mul hgQG3p7)

theorem gQG4_cont {Q u L lU D : ℝ} (hQ : Q ≠ 0) (hu : u ≠ 0) (hQu : -u + Q ^ 2 ≠ 0) :
    ContinuousAt (fun z : ℝ × (ℝ × (ℝ × ℝ)) => gQG4 Q u L lU z.1 z.2.1 z.2.2.1 z.2.2.2) (0, (0, (0, D))) := by
  have h3 : -u + Q ^ 2 + 2 * Q ^ 2 * 0 + Q ^ 2 * 0 ^ 2 ≠ 0 := by intro h; apply hQu; linear_combination h
  have hgQG4p0 : ContinuousAt (fun z : ℝ × (ℝ × (ℝ × ℝ)) => gQG4p0 Q u z.1) (0, (0, (0, D))) := by
    unfold gQG4p0
    fun_prop (disch := cdisch)
  have hgQG4p1 : ContinuousAt (fun z : ℝ × (ℝ × (ℝ × ℝ)) => gQG4p1 Q u z.1) (0, (0, (0, D))) := by
    unfold gQG4p1
    fun_prop (disch := cdisch)
  have hgQG4p2 : ContinuousAt (fun z : ℝ × (ℝ × (ℝ × ℝ)) => gQG4p2 Q u z.1) (0, (0, (0, D))) := by
    unfold gQG4p2
    fun_prop (disch := cdisch)
  have hgQG4p3 : ContinuousAt (fun z : ℝ × (ℝ × (ℝ × ℝ)) => gQG4p3 Q u z.1) (0, (0, (0, D))) := by
    unfold gQG4p3
    fun_prop (disch := cdisch)
  have hgQG4p4 : ContinuousAt (fun z : ℝ × (ℝ × (ℝ × ℝ)) => gQG4p4 Q u z.1) (0, (0, (0, D))) := by
    unfold gQG4p4
    fun_prop (disch := cdisch)
  have hgQG4p5 : ContinuousAt (fun z : ℝ × (ℝ × (ℝ × ℝ)) => gQG4p5 Q u z.1) (0, (0, (0, D))) := by
    unfold gQG4p5
    fun_prop (disch := cdisch)
  have hgQG4p6 : ContinuousAt (fun z : ℝ × (ℝ × (ℝ × ℝ)) => gQG4p6 Q u z.1) (0, (0, (0, D))) := by
    unfold gQG4p6
    fun_prop (disch := cdisch)
  have hgQG4p7 : ContinuousAt (fun z : ℝ × (ℝ × (ℝ × ℝ)) => gQG4p7 Q u z.1) (0, (0, (0, D))) := by
    unfold gQG4p7
    fun_prop (disch := cdisch)
  have hgQG4p8 : ContinuousAt (fun z : ℝ × (ℝ × (ℝ × ℝ)) => gQG4p8 Q u z.1) (0, (0, (0, D))) := by
    unfold gQG4p8
    fun_prop (disch := cdisch)
  exact ((((((((hgQG4p0).add
    ((show ContinuousAt (fun z : ℝ × (ℝ × (ℝ × ℝ)) => z.2.2.2) (0, (0, (0, D))) by fun_prop).mul hgQG4p1)).add
    ((show ContinuousAt (fun z : ℝ × (ℝ × (ℝ × ℝ)) => L) (0, (0, (0, D))) by fun_prop).mul hgQG4p2)).add
    ((show ContinuousAt (fun z : ℝ × (ℝ × (ℝ × ℝ)) => L * lU) (0, (0, (0, D))) by fun_prop).mul hgQG4p3)).add
    ((show ContinuousAt (fun z : ℝ × (ℝ × (ℝ × ℝ)) => lU) (0, (0, (0, D))) by fun_prop).mul hgQG4p4)).add
    ((show ContinuousAt (fun z : ℝ × (ℝ × (ℝ × ℝ)) => lU * z.2.1) (0, (0, (0, D))) by fun_prop).mul hgQG4p5)).add
    ((show ContinuousAt (fun z : ℝ × (ℝ × (ℝ × ℝ)) => lU ^ 2) (0, (0, (0, D))) by fun_prop).mul hgQG4p6)).add
    ((show ContinuousAt (fun z : ℝ × (ℝ × (ℝ × ℝ)) => z.2.1) (0, (0, (0, D))) by fun_prop).mul hgQG4p7)).add
    ((show ContinuousAt (fun z : ℝ × (ℝ × (ℝ × ℝ)) => z.2.2.1) (0, (0, (0, D))) by fun_prop).mul hgQG4p8)

theorem gQG5_cont {Q u L lU D : ℝ} (hQ : Q ≠ 0) (hu : u ≠ 0) (hQu : -u + Q ^ 2 ≠ 0) :
    ContinuousAt (fun z : ℝ × (ℝ × (ℝ × ℝ)) => gQG5 Q u L lU z.1 z.2.1 z.2.2.1 z.2.2.2) (0, (0, (0, D))) := by
  have h3 : -u + Q ^ 2 + 2 * Q ^ 2 * 0 + Q ^ 2 * 0 ^ 2 ≠ 0 := by intro h; apply hQu; linear_combination h
  have hgQG5p0 : ContinuousAt (fun z : ℝ × (ℝ × (ℝ × ℝ)) => gQG5p0 Q u z.1) (0, (0, (0, D))) := by
    unfold gQG5p0
    fun_prop (disch := cdisch)
  have hgQG5p1 : ContinuousAt (fun z : ℝ × (ℝ × (ℝ × ℝ)) => gQG5p1 Q u z.1) (0, (0, (0, D))) := by
    unfold gQG5p1
    fun_prop (disch := cdisch)
  have hgQG5p2 : ContinuousAt (fun z : ℝ × (ℝ × (ℝ × ℝ)) => gQG5p2 Q u z.1) (0, (0, (0, D))) := by
    unfold gQG5p2
    fun_prop (disch := cdisch)
  have hgQG5p3 : ContinuousAt (fun z : ℝ × (ℝ × (ℝ × ℝ)) => gQG5p3 Q u z.1) (0, (0, (0, D))) := by
    unfold gQG5p3
    fun_prop (disch := cdisch)
  have hgQG5p4 : ContinuousAt (fun z : ℝ × (ℝ × (ℝ × ℝ)) => gQG5p4 Q u z.1) (0, (0, (0, D))) := by
    unfold gQG5p4
    fun_prop (disch := cdisch)
  exact ((((hgQG5p0).add
    ((show ContinuousAt (fun z : ℝ × (ℝ × (ℝ × ℝ)) => lU) (0, (0, (0, D))) by fun_prop).mul hgQG5p1)).add
    ((show ContinuousAt (fun z : ℝ × (ℝ × (ℝ × ℝ)) => lU * z.2.1) (0, (0, (0, D))) by fun_prop).mul hgQG5p2)).add
    ((show ContinuousAt (fun z : ℝ × (ℝ × (ℝ × ℝ)) => lU ^ 2) (0, (0, (0, D))) by fun_prop).mul hgQG5p3)).add
    ((show ContinuousAt (fun z : ℝ × (ℝ × (ℝ × ℝ)) => z.2.1) (0, (0, (0, D))) by fun_prop).mul hgQG5p4)

theorem gQG_cont {X Q u L lU D : ℝ} (hQ : Q ≠ 0) (hu : u ≠ 0) (hQu : -u + Q ^ 2 ≠ 0) :
    ContinuousAt (fun z : ℝ × (ℝ × (ℝ × ℝ)) => gQG X Q u L lU z.1 z.2.1 z.2.2.1 z.2.2.2) (0, (0, (0, D))) := by
  exact (((((gQG0_cont hQ hu hQu).add (continuousAt_const.mul (gQG1_cont hQ hu hQu))).add (continuousAt_const.mul (gQG2_cont hQ hu hQu))).add (continuousAt_const.mul (gQG3_cont hQ hu hQu))).add (continuousAt_const.mul (gQG4_cont hQ hu hQu))).add (continuousAt_const.mul (gQG5_cont hQ hu hQu))

end Himalaya.Cont
