import Verif.Kron.Core

/-!
# Weights of formulas

`wt` assigns a weight to a formula from the weights of its variables, if all sums are homogeneous and all arguments of logarithms
and dilogarithms have weight zero.  A formula of weight `d` is multiplied by `l^d` if each variable of weight `w` is
multiplied by `l^w`.  Weights may be counted modulo `md`, if `l^md = 1`.
-/

namespace Himalaya.Kron

/-- equality of weights modulo `md` (`md = 0`: equality) -/
def sameW (md a b : ℤ) : Bool := decide ((a - b) % md = 0)

def wtAdd (md : ℤ) : Option ℤ → Option ℤ → Option ℤ
  | some a, some b => if sameW md a b then some a else none
  | _, _ => none

def wtMul : Option ℤ → Option ℤ → Option ℤ
  | some a, some b => some (a + b)
  | _, _ => none

def wtDiv : Option ℤ → Option ℤ → Option ℤ
  | some a, some b => some (a - b)
  | _, _ => none

def wtFun (md : ℤ) : Option ℤ → Option ℤ
  | some a => if sameW md a 0 then some 0 else none
  | _ => none

/-- weight of a formula -/
def wt (md : ℤ) (w : List ℤ) : E → Option ℤ
  | .lit _ => some 0
  | .var i => some (w.getD i 0)
  | .cst _ => some 0
  | .add a b => wtAdd md (wt md w a) (wt md w b)
  | .sub a b => wtAdd md (wt md w a) (wt md w b)
  | .mul a b => wtMul (wt md w a) (wt md w b)
  | .div a b => wtDiv (wt md w a) (wt md w b)
  | .neg a => wt md w a
  | .log a => wtFun md (wt md w a)
  | .dilog a => wtFun md (wt md w a)
  | .bad => none

theorem sameW_pow {md : ℤ} {l : ℝ} (hl : l ≠ 0) (hm : l ^ md = 1) {a b : ℤ} (h : sameW md a b = true) : l ^ a = l ^ b := by
  have h := of_decide_eq_true h
  obtain ⟨k, hk⟩ := Int.dvd_of_emod_eq_zero h
  rw [show a = b + md * k by omega, zpow_add₀ hl, zpow_mul, hm, one_zpow, mul_one]

theorem wtAdd_some {md : ℤ} {x y : Option ℤ} {d : ℤ} (h : wtAdd md x y = some d) :
    x = some d ∧ ∃ b, y = some b ∧ sameW md d b = true := by
  unfold wtAdd at h
  split at h
  · split_ifs at h with hs
    obtain rfl := Option.some.inj h
    exact ⟨rfl, _, rfl, hs⟩
  · exact absurd h (by simp)

theorem wtMul_some {x y : Option ℤ} {d : ℤ} (h : wtMul x y = some d) : ∃ a b, x = some a ∧ y = some b ∧ d = a + b := by
  unfold wtMul at h
  split at h
  · exact ⟨_, _, rfl, rfl, (Option.some.inj h).symm⟩
  · exact absurd h (by simp)

theorem wtDiv_some {x y : Option ℤ} {d : ℤ} (h : wtDiv x y = some d) : ∃ a b, x = some a ∧ y = some b ∧ d = a - b := by
  unfold wtDiv at h
  split at h
  · exact ⟨_, _, rfl, rfl, (Option.some.inj h).symm⟩
  · exact absurd h (by simp)

theorem wtFun_some {md : ℤ} {x : Option ℤ} {d : ℤ} (h : wtFun md x = some d) : d = 0 ∧ ∃ a, x = some a ∧ sameW md a 0 = true := by
  unfold wtFun at h
  split at h
  · split_ifs at h with hs
    exact ⟨(Option.some.inj h).symm, _, rfl, hs⟩
  · exact absurd h (by simp)

theorem wt_sound (dl : ℝ → ℝ) {md : ℤ} {l : ℝ} (hl : l ≠ 0) (hm : l ^ md = 1) (w : List ℤ) (ρ ρ' : ℕ → ℝ)
    (hρ : ∀ i, ρ' i = l ^ (w.getD i 0) * ρ i) (e : E) : ∀ d, wt md w e = some d → eval dl ρ' e = l ^ d * eval dl ρ e := by
  induction e with
  | lit q => intro d h; obtain rfl := Option.some.inj h; simp [eval]
  | var i => intro d h; obtain rfl := Option.some.inj h; exact hρ i
  | cst c => intro d h; obtain rfl := Option.some.inj h; simp [eval]
  | bad => intro d h; exact absurd h (by simp [wt])
  | add a b iha ihb =>
    intro d h
    obtain ⟨ha, b', hb, hs⟩ := wtAdd_some h
    show eval dl _ a + eval dl _ b = _ * (eval dl ρ a + eval dl ρ b)
    rw [iha _ ha, ihb _ hb, ← sameW_pow hl hm hs, mul_add]
  | sub a b iha ihb =>
    intro d h
    obtain ⟨ha, b', hb, hs⟩ := wtAdd_some h
    show eval dl _ a - eval dl _ b = _ * (eval dl ρ a - eval dl ρ b)
    rw [iha _ ha, ihb _ hb, ← sameW_pow hl hm hs, mul_sub]
  | mul a b iha ihb =>
    intro d h
    obtain ⟨x, y, ha, hb, rfl⟩ := wtMul_some h
    show eval dl _ a * eval dl _ b = _ * (eval dl ρ a * eval dl ρ b)
    rw [iha _ ha, ihb _ hb, zpow_add₀ hl]; ring
  | div a b iha ihb =>
    intro d h
    obtain ⟨x, y, ha, hb, rfl⟩ := wtDiv_some h
    show eval dl _ a / eval dl _ b = _ * (eval dl ρ a / eval dl ρ b)
    rw [iha _ ha, ihb _ hb, zpow_sub₀ hl, mul_div_mul_comm]
  | neg a iha =>
    intro d h
    show -eval dl _ a = _ * -eval dl ρ a
    rw [iha _ h, mul_neg]
  | log a iha =>
    intro d h
    obtain ⟨rfl, x, ha, hs⟩ := wtFun_some h
    show Real.log (eval dl _ a) = _ * Real.log (eval dl ρ a)
    rw [iha _ ha, sameW_pow hl hm hs, zpow_zero, one_mul, one_mul]
  | dilog a iha =>
    intro d h
    obtain ⟨rfl, x, ha, hs⟩ := wtFun_some h
    show dl (eval dl _ a) = _ * dl (eval dl ρ a)
    rw [iha _ ha, sameW_pow hl hm hs, zpow_zero, one_mul, one_mul]

/-- the variables are the entries of a list -/
def env (xs : List ℝ) : ℕ → ℝ := fun i => xs.getD i 0

/-- The entries of `ys` are those of `xs`, multiplied by the powers of `l` given by the list of weights. -/
def Scaled (l : ℝ) : List ℤ → List ℝ → List ℝ → Prop
  | w :: ws, x :: xs, y :: ys => y = l ^ w * x ∧ Scaled l ws xs ys
  | _, [], [] => True
  | _, _, _ => False

theorem Scaled.env {l : ℝ} : ∀ {w : List ℤ} {xs ys : List ℝ}, Scaled l w xs ys → ∀ i, env ys i = l ^ (w.getD i 0) * env xs i
  | w :: ws, x :: xs, y :: ys, h, 0 => h.1
  | w :: ws, x :: xs, y :: ys, h, i + 1 => Scaled.env (w := ws) (xs := xs) (ys := ys) h.2 i
  | [], [], [], _, i => by simp [Kron.env]
  | w :: ws, [], [], _, i => by simp [Kron.env]

/-- A formula of weight zero. -/
theorem homog (dl : ℝ → ℝ) {md : ℤ} {l : ℝ} (hl : l ≠ 0) (hm : l ^ md = 1) {w : List ℤ} {xs ys : List ℝ} (h : Scaled l w xs ys)
    {e : E} (hw : wt md w e = some 0) : eval dl (env ys) e = eval dl (env xs) e := by
  have := wt_sound dl hl hm w (env xs) (env ys) h.env e 0 hw
  rwa [zpow_zero, one_mul] at this

end Himalaya.Kron
