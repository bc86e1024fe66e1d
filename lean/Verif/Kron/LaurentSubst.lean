import Verif.Kron.LaurentKeys

/-!
# Laurent polynomials with logarithms

Logarithms in a formula are replaced by variables (`Kron.subst`) before it is normalised.
-/

namespace Himalaya.Laur

open Kron (E eval subst look)

theorem look_eval (dl : ℝ → ℝ) (ρ : ℕ → ℝ) {n m : ℕ} (t : List (E × E)) (ht : ∀ p ∈ t, eval dl ρ p.1 = eval dl ρ p.2) (e : E)
    {q : LP} (h : norm n m (bias n) (look t e) = some q) : eval dl ρ (look t e) = eval dl ρ e := by
  induction t with
  | nil => simp [look, norm] at h
  | cons p t ih =>
    simp only [look] at h ⊢
    split
    · rename_i he
      rw [← ht p (List.mem_cons_self ..), he]
    · rename_i he
      rw [if_neg he] at h
      exact ih (fun p hp => ht p (List.mem_cons_of_mem _ hp)) h

theorem subst_eval (dl : ℝ → ℝ) (ρ : ℕ → ℝ) {n m : ℕ} (t : List (E × E)) (ht : ∀ p ∈ t, eval dl ρ p.1 = eval dl ρ p.2) :
    ∀ (e : E) {q : LP}, norm n m (bias n) (subst t e) = some q → eval dl ρ (subst t e) = eval dl ρ e
  | .lit _, _, _ => rfl
  | .var _, _, _ => rfl
  | .cst c, _, h => look_eval dl ρ t ht (.cst c) h
  | .log a, _, h => look_eval dl ρ t ht (.log a) h
  | .dilog a, _, h => look_eval dl ρ t ht (.dilog a) h
  | .bad, _, _ => rfl
  | .add a b, _, h => by
    simp only [subst, norm] at h
    split at h
    · rename_i x y hx hy
      simp only [subst, eval, subst_eval dl ρ t ht a hx, subst_eval dl ρ t ht b hy]
    · simp at h
  | .sub a b, _, h => by
    simp only [subst, norm] at h
    split at h
    · rename_i x y hx hy
      simp only [subst, eval, subst_eval dl ρ t ht a hx, subst_eval dl ρ t ht b hy]
    · simp at h
  | .mul a b, _, h => by
    simp only [subst, norm] at h
    split at h
    · rename_i x y hx hy
      simp only [subst, eval, subst_eval dl ρ t ht a hx, subst_eval dl ρ t ht b hy]
    · simp at h
  | .div a b, _, h => by
    simp only [subst, norm] at h
    split at h
    · rename_i x y hx hy
      simp only [subst, eval, subst_eval dl ρ t ht a hx, subst_eval dl ρ t ht b hy]
    · simp at h
  | .neg a, _, h => by
    simp only [subst, norm] at h
    split at h
    · rename_i x hx
      simp only [subst, eval, subst_eval dl ρ t ht a hx]
    · simp at h

/-- The formula vanishes at every point where the table of logarithms is right. -/
theorem zeroB_subst (dl : ℝ → ℝ) {n m : ℕ} {t : List (E × E)} {e : E} (h : zeroB n m (subst t e) = true) (xs : List ℝ)
    (hl : xs.length = n) (hz : NZ m xs)
    (ht : ∀ p ∈ t, eval dl (fun i => xs.getD i 0) p.1 = eval dl (fun i => xs.getD i 0) p.2) :
    eval dl (fun i => xs.getD i 0) e = 0 := by
  have h0 := zeroB_sound dl h xs hl hz
  rw [zeroB] at h
  split at h
  · rename_i p hp
    rw [← subst_eval dl _ t ht e hp]; exact h0
  · simp at h

end Himalaya.Laur
