import Verif.Hier.Mem
import Verif.Kron.LaurentKeys

/-!
# What a user expects of the self energies of a hierarchy class

Statements about a function `S` of the members of a class (`getS1`, `getS2` or `getS12`), on the points where the masses and angles
in its denominators do not vanish (`reg`).
-/

set_option linter.unusedVariables false

namespace Himalaya

/-- A self energy as a function of the members of the class. -/
abbrev SelfEnergy := HConst ℝ → HMem ℝ → ℝ

namespace HMem

/-- All dimensionful members in other units of mass (the logarithms are logarithms of ratios). -/
def rescale (l : ℝ) (h : HMem ℝ) : HMem ℝ :=
  { h with
    At := l * h.At, Mt := l * h.Mt, Mst1 := l * h.Mst1, Mst2 := l * h.Mst2, Msq := l * h.Msq, Mgl := l * h.Mgl,
    Msusy := l * h.Msusy, MuSUSY := l * h.MuSUSY, Dmglst1 := l * h.Dmglst1, Dmglst2 := l * h.Dmglst2,
    Dmsqst1 := l ^ 2 * h.Dmsqst1, Dmsqst2 := l ^ 2 * h.Dmsqst2, Dmst12 := l ^ 2 * h.Dmst12 }

/-- The loop flags and the coupling `αs/(4π)`. -/
def loops (h : HMem ℝ) (f1 f2 f3 a : ℝ) : HMem ℝ :=
  { h with oneLoopFlag := f1, twoLoopFlag := f2, threeLoopFlag := f3, Al4p := a }

/-- Another sign convention for the top quark field. -/
def flipMt (h : HMem ℝ) : HMem ℝ := { h with Mt := -h.Mt, s2t := -h.s2t }

end HMem

/-- A self energy is proportional to the fourth power of the unit of mass. -/
def Units (reg : HMem ℝ → Prop) (S : SelfEnergy) : Prop :=
  ∀ (k : HConst ℝ) (h : HMem ℝ) (l : ℝ), l ≠ 0 → reg h → S k (h.rescale l) = l ^ 4 * S k h

/-- The sum of a one-loop part proportional to `αs⁰`, a two-loop part proportional to `αs` and a three-loop part proportional to
`αs²`, each switched by its own flag. -/
def Loops (reg : HMem ℝ → Prop) (S : SelfEnergy) : Prop :=
  ∀ (k : HConst ℝ) (h : HMem ℝ) (f1 f2 f3 a : ℝ), reg h → S k (h.loops f1 f2 f3 a) =
    f1 * S k (h.loops 1 0 0 1) + f2 * a * S k (h.loops 0 1 0 1) + f3 * a ^ 2 * S k (h.loops 0 0 1 1)

/-- The sign of the top mass is a convention. -/
def MtSign (reg : HMem ℝ → Prop) (S : SelfEnergy) : Prop :=
  ∀ (k : HConst ℝ) (h : HMem ℝ), reg h → S k h.flipMt = S k h

/-- Proportional to `μ²`. -/
def MuSquared (reg : HMem ℝ → Prop) (S : SelfEnergy) : Prop :=
  ∀ (k : HConst ℝ) (h : HMem ℝ) (μ : ℝ), reg h → S k { h with MuSUSY := μ } = μ ^ 2 * S k { h with MuSUSY := 1 }

/-- Proportional to `μ`: vanishes for `μ = 0`. -/
def MuVanishes (reg : HMem ℝ → Prop) (S : SelfEnergy) : Prop :=
  ∀ (k : HConst ℝ) (h : HMem ℝ), reg h → S k { h with MuSUSY := 0 } = 0

/-- `c₀ t^{A₀} + c₁ t^{A₁} + …` -/
noncomputable def laurentSum (t : ℝ) : List ℤ → (ℕ → ℝ) → ℝ
  | [], _ => 0
  | i :: A, c => c 0 * t ^ i + laurentSum t A (fun j => c (j + 1))

/-- The truncation flag `x` multiplies exactly the terms with the power `N` of the expansion parameter `t`: the terms without the
flag have the powers `A`.  `upd h t x` sets the expansion parameter and the flag. -/
def Truncates (reg : HMem ℝ → Prop) (upd : HMem ℝ → ℝ → ℝ → HMem ℝ) (A : List ℤ) (N : ℤ) (S : SelfEnergy) : Prop :=
  N ∉ A ∧ ∀ (k : HConst ℝ) (h : HMem ℝ), ∃ (c : ℕ → ℝ) (d : ℝ), ∀ t x : ℝ, reg (upd h t x) →
    S k (upd h t x) = laurentSum t A c + x * d * t ^ N

namespace HMem

def updDmglst1 (h : HMem ℝ) (t x : ℝ) : HMem ℝ := { h with Dmglst1 := t, xDmglst1 := x }
def updDmglst2 (h : HMem ℝ) (t x : ℝ) : HMem ℝ := { h with Dmglst2 := t, xDmglst2 := x }
def updDmsqst1 (h : HMem ℝ) (t x : ℝ) : HMem ℝ := { h with Dmsqst1 := t, xDmsqst1 := x }
def updDmsqst2 (h : HMem ℝ) (t x : ℝ) : HMem ℝ := { h with Dmsqst2 := t, xDmsqst2 := x }
def updDmst12 (h : HMem ℝ) (t x : ℝ) : HMem ℝ := { h with Dmst12 := t, xDmst12 := x }
def updAt (h : HMem ℝ) (t x : ℝ) : HMem ℝ := { h with At := t, xAt := x }
def updlmMsusy (h : HMem ℝ) (t x : ℝ) : HMem ℝ := { h with lmMsusy := t, xlmMsusy := x }
def updMsusy (h : HMem ℝ) (t x : ℝ) : HMem ℝ := { h with Msusy := t, xMsusy := x }
def updMsq (h : HMem ℝ) (t x : ℝ) : HMem ℝ := { h with Msq := t, xMsq := x }
def updMst (h : HMem ℝ) (t x : ℝ) : HMem ℝ := { h with Mst1 := t, xMst := x }
def updMgl (h : HMem ℝ) (t x : ℝ) : HMem ℝ := { h with Mgl := t, xMgl := x }

end HMem

namespace Laur

/-- A self energy whose formula has been normalised; `P k h` are the values of the variables. -/
structure Normal (c : ℕ → Bool) (n m : ℕ) (P : HConst ℝ → HMem ℝ → List ℝ) (S : SelfEnergy) where
  ts : List (ℕ × ℤ)
  den : ℕ
  chk : ∀ t ∈ ts, c t.1 = true
  value : ∀ k h, NZ m (P k h) → S k h = val (P k h) ts / den
  len : ∀ k h, (P k h).length = n

section
variable {c : ℕ → Bool} {n m : ℕ} {P : HConst ℝ → HMem ℝ → List ℝ} {S : SelfEnergy}

open Kron (E eval)

theorem normal_of_check {e : E} (h : checkB n m c e = true) (hl : ∀ k h, (P k h).length = n)
    (link : ∀ k h, eval (fun _ => 0) (fun i => (P k h).getD i 0) e = S k h) : Nonempty (Normal c n m P S) := by
  obtain ⟨Q⟩ := checkB_sound (fun _ => 0) h
  exact ⟨{ ts := Q.ts, den := Q.den, chk := Q.chk, len := hl,
           value := fun k h hz => by rw [← link]; exact Q.value (P k h) (hl k h) hz }⟩

theorem Normal.tab (Q : Normal c n m P S) (is : List ℕ) (al : List (List ℕ)) (h : ∀ k, c k = true → tabB is al k = true) :
    ∃ C : ℕ → List ℝ → ℝ, ∀ k h, NZ m (P k h) → S k h = sumTab (P k h) is al C := by
  obtain ⟨C, hC⟩ := val_tab is al Q.ts (fun t ht => h _ (Q.chk t ht))
  refine ⟨fun j ys => C j ys / Q.den, fun k h hz => ?_⟩
  rw [Q.value k h hz, hC, sumTab_div]

theorem Normal.units (Q : Normal c n m P S) (reg : HMem ℝ → Prop) (ws : List (ℕ × ℕ)) (hw : ∀ p ∈ ws, p.1 < n)
    (h : ∀ k, c k = true → wtS k ws = 4 + wt0 ws) (hP : ∀ k h l, P k (h.rescale l) = scaleS l ws (P k h))
    (hr : ∀ k h, reg h → NZ m (P k h)) : Units reg S := by
  intro k h' l hl hreg
  have z := hr k h' hreg
  have z' : NZ m (P k (h'.rescale l)) := by rw [hP]; exact nz_scaleS hl m ws _ z
  have e : ∀ ts : List (ℕ × ℤ), (∀ t ∈ ts, wtS t.1 ws = 4 + wt0 ws) →
      val (scaleS l ws (P k h')) ts = l ^ 4 * val (P k h') ts := by
    intro ts
    induction ts with
    | nil => intro _; simp [val]
    | cons t ts ih =>
      intro ht
      simp only [val]
      rw [mon_scaleS hl _ ws _ (fun p hp => by rw [Q.len]; exact hw p hp), ht t (List.mem_cons_self ..),
        ih (fun t h' => ht t (List.mem_cons_of_mem _ h'))]
      have e4 : (((4 + wt0 ws : ℕ) : ℤ) - (wt0 ws : ℤ)) = ((4 : ℕ) : ℤ) := by push_cast; ring
      rw [e4, zpow_natCast]; ring
  rw [Q.value k _ z', Q.value k h' z, hP, e Q.ts (fun t ht => h _ (Q.chk t ht)), mul_div_assoc]

theorem Normal.mtSign (Q : Normal c n m P S) (reg : HMem ℝ → Prop) (ws : List (ℕ × ℕ)) (hw : ∀ p ∈ ws, p.1 < n)
    (hd : 2 ∣ wt0 ws) (h : ∀ k, c k = true → 2 ∣ wtS k ws) (hP : ∀ k h, P k h.flipMt = scaleS (-1) ws (P k h))
    (hr : ∀ k h, reg h → NZ m (P k h)) : MtSign reg S := by
  intro k h' hreg
  have z := hr k h' hreg
  have z' : NZ m (P k h'.flipMt) := by rw [hP]; exact nz_scaleS (by norm_num) m ws _ z
  have e : ∀ ts : List (ℕ × ℤ), (∀ t ∈ ts, 2 ∣ wtS t.1 ws) → val (scaleS (-1) ws (P k h')) ts = val (P k h') ts := by
    intro ts
    induction ts with
    | nil => intro _; rfl
    | cons t ts ih =>
      intro ht
      obtain ⟨j, hj⟩ := ht t (List.mem_cons_self ..)
      obtain ⟨i, hi⟩ := hd
      simp only [val]
      rw [mon_scaleS (by norm_num) _ ws _ (fun p hp => by rw [Q.len]; exact hw p hp), hj, hi,
        ih (fun t h' => ht t (List.mem_cons_of_mem _ h'))]
      have e2 : (((2 * j : ℕ) : ℤ) - ((2 * i : ℕ) : ℤ)) = 2 * ((j : ℤ) - i) := by push_cast; ring
      rw [e2, zpow_mul]; norm_num
  rw [Q.value k _ z', Q.value k h' z, hP, e Q.ts (fun t ht => h _ (Q.chk t ht))]

theorem loops_of_tab {is : List ℕ} {C : ℕ → List ℝ → ℝ} {al : List (List ℕ)} (reg : HMem ℝ → Prop)
    (hC : ∀ k h, NZ m (P k h) → S k h = sumTab (P k h) is al C)
    (hr : ∀ k h f1 f2 f3 a, reg h → NZ m (P k (h.loops f1 f2 f3 a)))
    (hP : ∃ o : HConst ℝ → HMem ℝ → List ℝ, ∀ k h f1 f2 f3 a, sumTab (P k (h.loops f1 f2 f3 a)) is al C =
      f1 * C 0 (o k h) + f2 * a * C 1 (o k h) + f3 * a ^ 2 * C 2 (o k h)) : Loops reg S := by
  obtain ⟨o, ho⟩ := hP
  intro k h f1 f2 f3 a hreg
  rw [hC k _ (hr k h f1 f2 f3 a hreg), hC k _ (hr k h 1 0 0 1 hreg), hC k _ (hr k h 0 1 0 1 hreg), hC k _ (hr k h 0 0 1 1 hreg),
    ho, ho, ho, ho]
  ring

end


/-- exponents of a truncation flag and of its expansion parameter -/
def truncTab (A : List ℤ) (N : ℤ) : List (List ℕ) := (A.map fun i => [512, (512 + i).toNat]) ++ [[513, (512 + N).toNat]]

theorem sumTab_trunc (xs : List ℝ) (ix iv : ℕ) (N : ℤ) (hN : 0 ≤ 512 + N) (x t : ℝ) (hx : xs.getD ix 1 = x)
    (ht : (xs.set ix 1).getD iv 1 = t) : ∀ (A : List ℤ) (hA : ∀ i ∈ A, 0 ≤ 512 + i) (C : ℕ → List ℝ → ℝ),
    sumTab xs [ix, iv] (truncTab A N) C
      = laurentSum t A (fun j => C j (ones xs [ix, iv])) + x * C A.length (ones xs [ix, iv]) * t ^ N
  | [], _, C => by
    have e : ((512 + N).toNat : ℤ) - 512 = N := by rw [Int.toNat_of_nonneg hN]; ring
    simp only [truncTab, List.map_nil, List.nil_append, sumTab, pw, laurentSum, hx, ht, e, List.length_nil]
    norm_num; ring
  | i :: A, hA, C => by
    have e : ((512 + i).toNat : ℤ) - 512 = i := by rw [Int.toNat_of_nonneg (hA i (List.mem_cons_self ..))]; ring
    have ih := sumTab_trunc xs ix iv N hN x t hx ht A (fun i h => hA i (List.mem_cons_of_mem _ h)) (fun j => C (j + 1))
    simp only [truncTab] at ih
    simp only [truncTab, List.map_cons, List.cons_append, sumTab, ih, pw, laurentSum, hx, ht, e, List.length_cons]
    norm_num; ring

theorem truncates_of_tab {m : ℕ} {al : List (List ℕ)} {P : HConst ℝ → HMem ℝ → List ℝ} {S : SelfEnergy} {ix iv : ℕ} {A : List ℤ} {N : ℤ}
    {C : ℕ → List ℝ → ℝ} {reg : HMem ℝ → Prop} {upd : HMem ℝ → ℝ → ℝ → HMem ℝ}
    (hC : ∀ k h, NZ m (P k h) → S k h = sumTab (P k h) [ix, iv] al C)
    (hal : al = truncTab A N) (hr : ∀ k h, reg h → NZ m (P k h)) (hN : N ∉ A) (hB : ∀ i ∈ N :: A, 0 ≤ 512 + i)
    (hx : ∀ k h t x, (P k (upd h t x)).getD ix 1 = x) (ht : ∀ k h t x, ((P k (upd h t x)).set ix 1).getD iv 1 = t)
    (ho : ∀ k h t x, ones (P k (upd h t x)) [ix, iv] = ones (P k h) [ix, iv]) : Truncates reg upd A N S := by
  subst hal
  refine ⟨hN, fun k h => ⟨fun j => C j (ones (P k h) [ix, iv]), C A.length (ones (P k h) [ix, iv]), fun t x hreg => ?_⟩⟩
  rw [hC k _ (hr k _ hreg), sumTab_trunc _ ix iv N (hB N (List.mem_cons_self ..)) x t (hx k h t x) (ht k h t x) A
    (fun i hi => hB i (List.mem_cons_of_mem _ hi)), ho]

end Laur

end Himalaya
