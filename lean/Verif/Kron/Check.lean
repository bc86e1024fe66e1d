import Verif.Kron.Rep
import Mathlib.Data.List.Forall2
import Mathlib.Algebra.BigOperators.Field

/-!
# Soundness of the checker: normal forms, clearing of denominators, the two checks
-/

set_option linter.unusedSimpArgs false
set_option linter.unusedVariables false

namespace Himalaya.Kron

/-! ### Normal forms -/

section
variable {C : Cfg} {wt : ℕ → ℤ} {τ : (ℕ → ℝ) → ℕ → ℝ} {A : Set (ℕ → ℝ)} {j n : ℕ}

theorem rep_norm (dl : ℝ → ℝ) {fs : List El} {φs : List ((ℕ → ℝ) → ℝ)} (hR : List.Forall₂ (Rep C wt τ A 0 n) fs φs)
    (hi : fs.length + C.wts.length ≤ n) (hτ : ∀ m (h : m < φs.length), ∀ ρ ∈ A, τ ρ m = (φs[m] ρ)⁻¹)
    (hw : ∀ m (h : m < fs.length), wt m = -fs[m].w)
    (ha : ∀ i w, C.wts[i]? = some w → wt (fs.length + i) = w ∧ ∀ ρ ∈ A, τ ρ (fs.length + i) = ρ (i + 4))
    (e : E) : ∀ {z : El}, norm C fs e = some z → Rep C wt τ A 0 n z fun ρ => eval dl ρ e := by
  induction e with
  | lit q =>
    intro z h
    simp only [norm, Option.some.injEq] at h; subst h
    exact (rep_lit q.num q.den q.den_pos).congr fun ρ _ => by simp only [eval]; exact (Rat.cast_def q).symm
  | var i =>
    intro z h
    match i with
    | 0 => simp only [norm, Option.some.injEq] at h; subst h; exact rep_A
    | 1 => simp only [norm, Option.some.injEq] at h; subst h; exact rep_B
    | 2 => simp only [norm, Option.some.injEq] at h; subst h; exact rep_C
    | 3 => simp only [norm, Option.some.injEq] at h; subst h; exact rep_M
    | i + 4 =>
      simp only [norm, Option.map_eq_some_iff] at h
      obtain ⟨w, h1, rfl⟩ := h
      obtain ⟨a1, a2⟩ := ha i w h1
      have hlt : i < C.wts.length := (List.getElem?_eq_some_iff.1 h1).1
      refine (rep_atom (fs.length + i) w (by omega) (by simpa using a1)).congr fun ρ hρ => ?_
      simpa [eval] using a2 ρ hρ
  | cst c => intro z h; simp [norm] at h
  | log a _ => intro z h; simp [norm] at h
  | dilog a _ => intro z h; simp [norm] at h
  | bad => intro z h; simp [norm] at h
  | add a b iha ihb =>
    intro z h
    simp only [norm, Option.bind_eq_bind, Option.bind_eq_some_iff] at h
    obtain ⟨x, hx, y, hy, h⟩ := h
    exact rep_add (iha hx) (ihb hy) h
  | sub a b iha ihb =>
    intro z h
    simp only [norm, Option.bind_eq_bind, Option.bind_eq_some_iff] at h
    obtain ⟨x, hx, y, hy, h⟩ := h
    exact (rep_add (iha hx) (rep_neg (ihb hy)) h).congr fun ρ _ => by simp only [eval]; ring
  | mul a b iha ihb =>
    intro z h
    simp only [norm, Option.bind_eq_bind, Option.bind_eq_some_iff] at h
    obtain ⟨x, hx, y, hy, h⟩ := h
    exact rep_mul (iha hx) (ihb hy) h
  | div a b iha ihb =>
    intro z h
    simp only [norm, Option.bind_eq_bind, Option.bind_eq_some_iff] at h
    obtain ⟨x, hx, y, hy, y', hy', h⟩ := h
    exact (rep_mul (iha hx) (rep_inv hR (by omega) hτ hw (ihb hy) hy') h).congr fun ρ _ => by
      simp only [eval]; rw [div_eq_mul_inv]
  | neg a ih =>
    intro z h
    simp only [norm, Option.bind_eq_bind, Option.bind_eq_some_iff] at h
    obtain ⟨x, hx, h⟩ := h
    injection h with h; subst h
    exact rep_neg (ih hx)

/-- a formula without atoms can be read with any atoms -/
theorem Rep.lift {wt' : ℕ → ℤ} {τ' : (ℕ → ℝ) → ℕ → ℝ} {j' : ℕ} {e : El} {φ : (ℕ → ℝ) → ℝ} (h : Rep C wt τ A j 0 e φ) :
    Rep C wt' τ' A j' n e φ := by
  obtain ⟨h0, l, a, b, c, d⟩ := h
  have hk : ∀ x ∈ l, x.key = 0 := fun x hx => (c x hx).2.2.1
  refine ⟨h0, l, a, b, fun x hx => ?_, fun ρ hρ => ?_⟩
  · obtain ⟨c1, c2, -, c4⟩ := c x hx
    rw [hk x hx, kwt_zero] at c4
    exact ⟨c1, c2, by rw [hk x hx]; exact small_zero _ _, by rw [hk x hx, kwt_zero]; exact c4⟩
  · rw [d ρ hρ]
    simp only [V]
    congr 1
    refine List.map_congr_left fun x hx => ?_
    rw [hk x hx, kval_zero, kval_zero]

theorem rep_pure (dl : ℝ → ℝ) (e : E) {z : El} (h : norm C.pure [] e = some z) :
    Rep C wt τ A 0 0 z fun ρ => eval dl ρ e :=
  rep_norm (C := C.pure) (wt := wt) (τ := τ) (A := A) (n := 0) dl (fs := []) (φs := []) List.Forall₂.nil (by simp [Cfg.pure])
    (by simp) (by simp) (by simp [Cfg.pure]) e h

theorem pure_indep (dl : ℝ → ℝ) {ρ ρ' : ℕ → ℝ} (hρ : ∀ i < 4, ρ i = ρ' i) (e : E) :
    ∀ {z : El}, norm C.pure [] e = some z → eval dl ρ e = eval dl ρ' e := by
  induction e with
  | lit q => intro z h; rfl
  | var i =>
    intro z h
    match i with
    | 0 => exact hρ 0 (by norm_num)
    | 1 => exact hρ 1 (by norm_num)
    | 2 => exact hρ 2 (by norm_num)
    | 3 => exact hρ 3 (by norm_num)
    | i + 4 => simp [norm, Cfg.pure] at h
  | cst c => intro z h; simp [norm] at h
  | log a _ => intro z h; simp [norm] at h
  | dilog a _ => intro z h; simp [norm] at h
  | bad => intro z h; simp [norm] at h
  | add a b iha ihb =>
    intro z h
    simp only [norm, Option.bind_eq_bind, Option.bind_eq_some_iff] at h
    obtain ⟨x, hx, y, hy, h⟩ := h
    simp only [eval, iha hx, ihb hy]
  | sub a b iha ihb =>
    intro z h
    simp only [norm, Option.bind_eq_bind, Option.bind_eq_some_iff] at h
    obtain ⟨x, hx, y, hy, h⟩ := h
    simp only [eval, iha hx, ihb hy]
  | mul a b iha ihb =>
    intro z h
    simp only [norm, Option.bind_eq_bind, Option.bind_eq_some_iff] at h
    obtain ⟨x, hx, y, hy, h⟩ := h
    simp only [eval, iha hx, ihb hy]
  | div a b iha ihb =>
    intro z h
    simp only [norm, Option.bind_eq_bind, Option.bind_eq_some_iff] at h
    obtain ⟨x, hx, y, hy, y', hy', h⟩ := h
    simp only [eval, iha hx, ihb hy]
  | neg a ih =>
    intro z h
    simp only [norm, Option.bind_eq_bind, Option.bind_eq_some_iff] at h
    obtain ⟨x, hx, h⟩ := h
    simp only [eval, ih hx]

/-! ### Replacing logarithms and dilogarithms -/

theorem look_eval (dl : ℝ → ℝ) (ρ : ℕ → ℝ) (t : List (E × E)) (ht : ∀ p ∈ t, eval dl ρ p.1 = eval dl ρ p.2) (e : E)
    {fs : List El} {z : El} (h : norm C fs (look t e) = some z) : eval dl ρ (look t e) = eval dl ρ e := by
  induction t with
  | nil => simp [look, norm] at h
  | cons p t ih =>
    simp only [look] at h ⊢
    split
    · rename_i he
      have := ht p (by simp)
      rw [← this, he]
    · rename_i he
      rw [if_neg he] at h
      exact ih (fun p hp => ht p (by simp [hp])) h

theorem subst_eval (dl : ℝ → ℝ) (ρ : ℕ → ℝ) (t : List (E × E)) (ht : ∀ p ∈ t, eval dl ρ p.1 = eval dl ρ p.2) {fs : List El}
    (e : E) : ∀ {z : El}, norm C fs (subst t e) = some z → eval dl ρ (subst t e) = eval dl ρ e := by
  induction e with
  | lit q => intro z h; rfl
  | var i => intro z h; rfl
  | cst c => intro z h; exact look_eval dl ρ t ht _ h
  | log a _ => intro z h; exact look_eval dl ρ t ht _ h
  | dilog a _ => intro z h; exact look_eval dl ρ t ht _ h
  | bad => intro z h; rfl
  | add a b iha ihb =>
    intro z h
    simp only [subst, norm, Option.bind_eq_bind, Option.bind_eq_some_iff] at h
    obtain ⟨x, hx, y, hy, h⟩ := h
    simp only [subst, eval, iha hx, ihb hy]
  | sub a b iha ihb =>
    intro z h
    simp only [subst, norm, Option.bind_eq_bind, Option.bind_eq_some_iff] at h
    obtain ⟨x, hx, y, hy, h⟩ := h
    simp only [subst, eval, iha hx, ihb hy]
  | mul a b iha ihb =>
    intro z h
    simp only [subst, norm, Option.bind_eq_bind, Option.bind_eq_some_iff] at h
    obtain ⟨x, hx, y, hy, h⟩ := h
    simp only [subst, eval, iha hx, ihb hy]
  | div a b iha ihb =>
    intro z h
    simp only [subst, norm, Option.bind_eq_bind, Option.bind_eq_some_iff] at h
    obtain ⟨x, hx, y, hy, y', hy', h⟩ := h
    simp only [subst, eval, iha hx, ihb hy]
  | neg a ih =>
    intro z h
    simp only [subst, norm, Option.bind_eq_bind, Option.bind_eq_some_iff] at h
    obtain ⟨x, hx, h⟩ := h
    simp only [subst, eval, ih hx]

/-! ### Clearing of one denominator -/

theorem maxDig_le (ts : List (ℕ × ℤ)) : ∀ t ∈ ts, t.1 % 64 ≤ maxDig ts := by
  induction ts with
  | nil => simp
  | cons s ts ih =>
    intro t ht
    simp only [maxDig]
    rcases List.mem_cons.1 ht with rfl | h
    · exact le_max_left _ _
    · exact (ih t h).trans (le_max_right _ _)

theorem S_eq_zero (ts : List (ℕ × ℤ)) (g : ℕ → ℤ) (h : ∀ t ∈ ts, g t.1 = 0) : S ts g = 0 := by
  induction ts with
  | nil => rfl
  | cons t ts ih => rw [S_cons, ih fun s hs => h s (by simp [hs]), h t (by simp)]; simp

theorem T_filter (l : List Mo) (P : ℕ → Bool) (g : ℕ → ℤ) :
    T C (l.filter fun x => P x.key) g = T C l fun k => if P k then g k else 0 := by
  induction l with
  | nil => rfl
  | cons x l ih =>
    by_cases hp : P x.key = true
    · rw [List.filter_cons_of_pos (by simpa using hp)]
      simp only [T, List.map_cons, List.sum_cons] at ih ⊢
      rw [ih, if_pos hp]
    · rw [List.filter_cons_of_neg (by simpa using hp), ih]
      simp only [T, List.map_cons, List.sum_cons]
      rw [if_neg hp]; simp

theorem V_split (l : List Mo) (P : ℕ → Bool) (τ ρ : ℕ → ℝ) :
    V τ ρ j n l = V τ ρ j n (l.filter fun x => P x.key) + V τ ρ j n (l.filter fun x => !P x.key) := by
  induction l with
  | nil => simp [V]
  | cons x l ih =>
    by_cases hp : P x.key = true
    · rw [List.filter_cons_of_pos (by simpa using hp), List.filter_cons_of_neg (by simpa using hp)]
      simp only [V, List.map_cons, List.sum_cons] at ih ⊢
      rw [ih]; ring
    · rw [List.filter_cons_of_neg (by simpa using hp), List.filter_cons_of_pos (by simpa using hp)]
      simp only [V, List.map_cons, List.sum_cons] at ih ⊢
      rw [ih]; ring

theorem Nm_filter (l : List Mo) (P : Mo → Bool) : Nm (l.filter P) ≤ Nm l := by
  induction l with
  | nil => simp
  | cons x l ih =>
    by_cases hp : P x = true
    · rw [List.filter_cons_of_pos hp]; simp only [Nm, List.map_cons, List.sum_cons] at ih ⊢; omega
    · rw [List.filter_cons_of_neg hp]; simp only [Nm, List.map_cons, List.sum_cons] at ih ⊢; omega

theorem Good_filter {dm dc deg : ℕ} {w : ℤ} {l : List Mo} (h : Good wt j n dm dc w deg l) (P : Mo → Bool) :
    Good wt j n dm dc w deg (l.filter P) := fun x hx => h x (List.mem_filter.1 hx).1

/-- the terms whose key fails a test that all keys of `e.ts` pass add up to zero -/
theorem V_drop {e : El} {l : List Mo} (a : ∀ g, S e.ts g = T C l g) (b : Nm l ≤ e.N) (c : Good wt j n e.dm e.dc e.w e.deg l)
    (P : ℕ → Bool) (hP : ∀ t ∈ e.ts, P t.1 = true) (hN : e.N < C.B) (hm : e.dm < C.rm) (hc : e.dc < C.rc) (τ ρ : ℕ → ℝ) :
    V τ ρ j n l = V τ ρ j n (l.filter fun x => P x.key) ∧ ∀ g, S e.ts g = T C (l.filter fun x => P x.key) g := by
  have h0 : ∀ g, T C (l.filter fun x => !P x.key) g = 0 := fun g => by
    rw [T_filter l (fun k => !P k), ← a]
    refine S_eq_zero _ _ fun t ht => ?_
    simp [hP t ht]
  constructor
  · rw [V_split l P, V_zero C (Good_filter c _) (((Nm_filter _ _).trans b).trans_lt hN) hm hc h0, add_zero]
  · intro g
    rw [T_filter, ← a]
    have : ∀ ts : List (ℕ × ℤ), (∀ t ∈ ts, P t.1 = true) → S ts g = S ts fun k => if P k = true then g k else 0 := by
      intro ts
      induction ts with
      | nil => intro _; rfl
      | cons t ts ih =>
        intro h
        rw [S_cons, S_cons, ← ih fun s hs => h s (by simp [hs]), if_pos (h t (by simp))]
    exact this _ hP

theorem elPow_pure {f : El} (hd : f.den = 1) (hg : f.deg = 0) (k : ℕ) :
    ∃ z, elPow f k = some z ∧ z.den = 1 ∧ z.deg = 0 ∧ z.N = f.N ^ k ∧ z.dm = k * f.dm ∧ z.dc = k * f.dc ∧ z.w = k * f.w := by
  induction k with
  | zero => exact ⟨elLit 1 1, rfl, rfl, rfl, by simp [elLit], by simp [elLit], by simp [elLit], by simp [elLit]⟩
  | succ k ih =>
    obtain ⟨z, h1, h2, h3, h4, h5, h6, h7⟩ := ih
    simp only [elPow, Option.bind_eq_bind, h1, Option.bind_some, elMul, h3, hg, h2, hd, h4, h5, h6, h7]
    refine ⟨_, rfl, rfl, rfl, by simp [pow_succ], ?_, ?_, ?_⟩
    · show k * f.dm + f.dm = _; ring
    · show k * f.dc + f.dc = _; ring
    · show (k : ℤ) * f.w + f.w = _; push_cast; ring

theorem S_clearTs {f : El} {K : ℕ} (G : ℕ → List (ℕ × ℤ)) (hG : ∀ k z, elPow f k = some z → z.ts = G k) (ts : List (ℕ × ℤ)) :
    ∀ {r}, clearTs f K ts = some r → ∀ g, S r g = S ts fun k => S (G (K - k % 64)) fun i => g (i + k / 64) := by
  induction ts with
  | nil => intro r h g; simp only [clearTs, Option.some.injEq] at h; subst h; rfl
  | cons t ts ih =>
    intro r h g
    simp only [clearTs, Option.bind_eq_bind, Option.bind_eq_some_iff] at h
    obtain ⟨p, hp, q, hq, h⟩ := h
    injection h with h; subst h
    rw [S_mrg, S_scale, ih hq, S_cons, hG _ _ hp]

theorem rep_clear1 {f e z : El} {φ ψ : (ℕ → ℝ) → ℝ} {wt' : ℕ → ℤ} {τ' : (ℕ → ℝ) → ℕ → ℝ} {j' : ℕ}
    (hf : Rep C wt' τ' A j' 0 f ψ) (he : Rep C wt τ A j (n + 1) e φ)
    (hτ : ∀ ρ ∈ A, τ ρ j = (ψ ρ)⁻¹) (h0 : ∀ ρ ∈ A, ψ ρ ≠ 0) (hw : wt j = -f.w) (h : clear1 C f e = some z) :
    Rep C wt τ A (j + 1) n z fun ρ => φ ρ * ψ ρ ^ maxDig e.ts := by
  unfold clear1 at h
  simp only at h
  split at h
  · rename_i hc
    simp only [Bool.and_eq_true, Nat.blt_eq, Nat.beq_eq, Nat.ble_eq] at hc
    obtain ⟨⟨⟨⟨⟨hN, hdm⟩, hdc⟩, hfN⟩, hfd⟩, hfg⟩ := hc
    simp only [Option.bind_eq_bind, Option.bind_eq_some_iff] at h
    obtain ⟨r, hr, h⟩ := h
    injection h with h; subst h
    set K := maxDig e.ts with hK
    obtain ⟨hd0, l0, a, b, c, d⟩ := he
    -- the powers of the factor
    have hp : ∀ k, ∃ P : List Mo, ∃ ts : List (ℕ × ℤ), (∀ z, elPow f k = some z → z.ts = ts) ∧ (∀ g, S ts g = T C P g) ∧
        Nm P ≤ f.N ^ k ∧ (∀ x ∈ P, x.em ≤ k * f.dm ∧ x.ec ≤ k * f.dc ∧ x.key = 0 ∧
          ((x.em + x.ec + x.eb + x.ea : ℕ) : ℤ) = k * f.w) ∧
        ∀ ρ ∈ A, (P.map fun x => (x.c : ℝ) * (ρ 3 ^ x.em * ρ 2 ^ x.ec * ρ 1 ^ x.eb * ρ 0 ^ x.ea)).sum = ψ ρ ^ k := by
      intro k
      obtain ⟨z, h1, h2, h3, h4, h5, h6, h7⟩ := elPow_pure hfd hfg k
      obtain ⟨-, P, q1, q2, q3, q4⟩ := rep_pow hf k h1
      refine ⟨P, z.ts, fun y hy => by rw [h1] at hy; injection hy with hy; rw [hy], q1, h4 ▸ q2, fun x hx => ?_, fun ρ hρ => ?_⟩
      · obtain ⟨r1, r2, r3, r4⟩ := q3 x hx
        refine ⟨h5 ▸ r1, h6 ▸ r2, r3, ?_⟩
        rw [h7] at r4
        simpa [kwt] using r4
      · have := q4 ρ hρ
        rw [h2] at this
        simp only [Nat.cast_one, mul_one] at this
        rw [this]
        simp only [V, kval, mul_one]
    choose P G g1 g2 g3 g4 g5 using hp
    set l := l0.filter fun x => Nat.ble (x.key % 64) K with hl
    have hle : ∀ x ∈ l, x.key % 64 ≤ K := fun x hx => by
      simpa using (List.mem_filter.1 hx).2
    have drop := fun ρ τ => V_drop a b c (fun k => Nat.ble (k % 64) K) (fun t ht => by simpa using maxDig_le _ t ht) hN hdm hdc τ ρ
    have a' := (drop (fun _ => 0) (fun _ => 0)).2
    have b' : Nm l ≤ e.N := (Nm_filter _ _).trans b
    have c' : Good wt j (n + 1) e.dm e.dc e.w e.deg l := Good_filter c _
    have d' : ∀ ρ ∈ A, φ ρ * e.den = V (τ ρ) ρ j (n + 1) l := fun ρ hρ => by rw [d ρ hρ, (drop ρ (τ ρ)).1]
    rw [← hl] at a'
    clear_value l
    clear drop d c b a hl
    refine ⟨hd0, l.flatMap fun x => (P (K - x.key % 64)).map (Mo.mul { x with key := x.key / 64 }), fun g => ?_, ?_, ?_, ?_⟩
    · show S r g = _
      rw [S_clearTs G g1 _ hr g, a']
      clear a' b' c' d' hle
      induction l with
      | nil => rfl
      | cons x l ih =>
        rw [List.flatMap_cons, T_append, ← ih, T_map]
        simp only [T, List.map_cons, List.sum_cons]
        congr 1
        rw [g2]; rfl
    · show _ ≤ e.N * f.N ^ K
      refine le_trans ?_ (Nat.mul_le_mul_right _ b')
      clear a' b' c' d' hle
      induction l with
      | nil => simp [Nm]
      | cons x l ih =>
        rw [List.flatMap_cons, Nm_append, Nm_map]
        have h1 : Nm (P (K - x.key % 64)) ≤ f.N ^ K := (g3 _).trans (Nat.pow_le_pow_right hfN (by omega))
        have h2 : Nm (x :: l) = x.c.natAbs + Nm l := by simp [Nm]
        rw [h2, Nat.add_mul]
        exact add_le_add (Nat.mul_le_mul_left _ h1) ih
    · intro y hy
      obtain ⟨x, hx, y', hy', rfl⟩ : ∃ x ∈ l, ∃ y' ∈ P (K - x.key % 64), Mo.mul { x with key := x.key / 64 } y' = y := by
        simpa using hy
      obtain ⟨u1, u2, u3, u4⟩ := c' x hx
      obtain ⟨v1, v2, v3, v4⟩ := g4 _ y' hy'
      have hx' := hle x hx
      refine ⟨?_, ?_, ?_, ?_⟩
      · show x.em + y'.em ≤ e.dm + K * f.dm
        have : (K - x.key % 64) * f.dm ≤ K * f.dm := Nat.mul_le_mul_right _ (by omega)
        omega
      · show x.ec + y'.ec ≤ e.dc + K * f.dc
        have : (K - x.key % 64) * f.dc ≤ K * f.dc := Nat.mul_le_mul_right _ (by omega)
        omega
      · show small e.deg n (x.key / 64 + y'.key)
        rw [v3]; exact u3.2
      · show ((x.em + y'.em + (x.ec + y'.ec) + (x.eb + y'.eb) + (x.ea + y'.ea) : ℕ) : ℤ) + kwt wt (j + 1) n (x.key / 64 + y'.key) =
          e.w + K * f.w
        rw [v3, add_zero]
        simp only [kwt, hw] at u4
        rw [Nat.cast_sub hx'] at v4
        push_cast at u4 v4 ⊢
        linarith
    · intro ρ hρ
      show φ ρ * ψ ρ ^ K * e.den = _
      rw [mul_right_comm, d' ρ hρ]
      have ht := hτ ρ hρ
      have hn := h0 ρ hρ
      clear a' b' c' d'
      induction l with
      | nil => simp [V]
      | cons x l ih =>
        rw [List.flatMap_cons, V_append, ← ih fun y hy => hle y (by simp [hy])]
        have hx' := hle x (by simp)
        have e1 : V (τ ρ) ρ (j + 1) n ((P (K - x.key % 64)).map (Mo.mul { x with key := x.key / 64 })) =
            (x.c : ℝ) * kval (τ ρ) (j + 1) n (x.key / 64) * (ρ 3 ^ x.em * ρ 2 ^ x.ec * ρ 1 ^ x.eb * ρ 0 ^ x.ea) *
              ψ ρ ^ (K - x.key % 64) := by
          rw [← g5 _ ρ hρ]
          have := fun y hy => (g4 (K - x.key % 64) y hy).2.2.1
          generalize P (K - x.key % 64) = p at this ⊢
          clear ih
          induction p with
          | nil => simp [V]
          | cons y p ih =>
            have i1 := ih fun z hz => this z (by simp [hz])
            simp only [V, List.map_cons, List.sum_cons] at i1 ⊢
            rw [i1]
            simp only [Mo.mul, this y (by simp), add_zero, pow_add, Int.cast_mul]
            ring
        rw [e1]
        simp only [V, List.map_cons, List.sum_cons, kval, ht]
        have e2 : (ψ ρ)⁻¹ ^ (x.key % 64) * ψ ρ ^ K = ψ ρ ^ (K - x.key % 64) := by
          rw [inv_pow, pow_sub₀ _ hn hx', mul_comm]
        rw [← e2]; ring
  · cases h

/-! ### Clearing of all denominators -/

theorem rep_clearAll (fs : List El) (φs : List ((ℕ → ℝ) → ℝ)) (m : ℕ) : ∀ (j : ℕ) (e z : El) (φ : (ℕ → ℝ) → ℝ),
    List.Forall₂ (Rep C wt τ A 0 0) fs φs → Rep C wt τ A j (fs.length + m) e φ →
    (∀ i (h : i < φs.length), ∀ ρ ∈ A, τ ρ (j + i) = (φs[i] ρ)⁻¹) → (∀ ψ ∈ φs, ∀ ρ ∈ A, ψ ρ ≠ 0) →
    (∀ i (h : i < fs.length), wt (j + i) = -fs[i].w) →
    (∀ ψ ∈ φs, ∀ ρ ρ' : ℕ → ℝ, (∀ i < 4, ρ i = ρ' i) → ψ ρ = ψ ρ') → clearAll C fs e = some z →
    ∃ χ : (ℕ → ℝ) → ℝ, (∀ ρ ∈ A, χ ρ ≠ 0) ∧ (∀ ρ ρ' : ℕ → ℝ, (∀ i < 4, ρ i = ρ' i) → χ ρ = χ ρ') ∧
      Rep C wt τ A (j + fs.length) m z fun ρ => φ ρ * χ ρ := by
  induction fs generalizing φs with
  | nil =>
    intro j e z φ hf he _ _ _ _ h
    simp only [clearAll, Option.some.injEq] at h; subst h
    refine ⟨fun _ => 1, by simp, by simp, ?_⟩
    simp only [List.length_nil, zero_add, add_zero] at he ⊢
    exact he.congr fun ρ _ => by simp
  | cons f fs ih =>
    intro j e z φ hf he hτ h0 hw hi h
    cases hf with
    | @cons _ ψ _ φs h1 h2 =>
      simp only [clearAll, Option.bind_eq_bind, Option.bind_eq_some_iff] at h
      obtain ⟨y, hy, h⟩ := h
      have hlen : (f :: fs).length + m = fs.length + m + 1 := by simp; omega
      rw [hlen] at he
      have r1 := rep_clear1 h1 he (fun ρ hρ => hτ 0 (by simp) ρ hρ) (h0 ψ (by simp))
        (hw 0 (by simp)) hy
      obtain ⟨χ, x1, x2, x3⟩ := ih φs (j + 1) y z _ h2 r1
        (fun i hi ρ hρ => by
          have := hτ (i + 1) (by simpa using hi) ρ hρ
          rw [show j + 1 + i = j + (i + 1) by omega, this]; rfl)
        (fun ψ hψ => h0 ψ (by simp [hψ]))
        (fun i hi => by
          have := hw (i + 1) (by simpa using hi)
          rw [show j + 1 + i = j + (i + 1) by omega, this]; rfl)
        (fun ψ hψ => hi ψ (by simp [hψ])) h
      refine ⟨fun ρ => ψ ρ ^ maxDig e.ts * χ ρ, fun ρ hρ => mul_ne_zero (pow_ne_zero _ (h0 ψ (by simp) ρ hρ)) (x1 ρ hρ),
        fun ρ ρ' hh => by simp only; rw [hi ψ (by simp) ρ ρ' hh, x2 ρ ρ' hh], ?_⟩
      rw [show j + (f :: fs).length = j + 1 + fs.length by simp; omega]
      exact x3.congr fun ρ _ => by ring

end

/-! ### The checks -/

/-- the set of points at which no denominator vanishes -/
def regular (C : Cfg) (dl : ℝ → ℝ) : Set (ℕ → ℝ) := {ρ | ∀ f ∈ C.facs, eval dl ρ f ≠ 0}

theorem normAll_rep {C : Cfg} (dl : ℝ → ℝ) {wt : ℕ → ℤ} {τ : (ℕ → ℝ) → ℕ → ℝ} {A : Set (ℕ → ℝ)} (es : List E) :
    ∀ {fs}, normAll C.pure es = some fs → List.Forall₂ (Rep C wt τ A 0 0) fs (es.map fun e ρ => eval dl ρ e) := by
  induction es with
  | nil => intro fs h; simp only [normAll, Option.some.injEq] at h; subst h; exact .nil
  | cons e es ih =>
    intro fs h
    simp only [normAll, Option.bind_eq_bind, Option.bind_eq_some_iff] at h
    obtain ⟨x, hx, y, hy, h⟩ := h
    injection h with h; subst h
    exact .cons (rep_pure dl e hx) (ih hy)

theorem normAll_indep {C : Cfg} (dl : ℝ → ℝ) {ρ ρ' : ℕ → ℝ} (hρ : ∀ i < 4, ρ i = ρ' i) (es : List E) :
    ∀ {fs}, normAll C.pure es = some fs → ∀ e ∈ es, eval dl ρ e = eval dl ρ' e := by
  induction es with
  | nil => simp
  | cons e es ih =>
    intro fs h
    simp only [normAll, Option.bind_eq_bind, Option.bind_eq_some_iff] at h
    obtain ⟨x, hx, y, hy, h⟩ := h
    intro a ha
    rcases List.mem_cons.1 ha with rfl | ha
    · exact pure_indep dl hρ _ hx
    · exact ih hy a ha

/-- values of the atoms, given the number of factors -/
noncomputable def atoms (dl : ℝ → ℝ) (facs : List E) (ρ : ℕ → ℝ) (i : ℕ) : ℝ :=
  if h : i < facs.length then (eval dl ρ facs[i])⁻¹ else ρ (i - facs.length + 4)

theorem full_rep {C : Cfg} (dl : ℝ → ℝ) {e : E} {r : El} (h : full C e = some r) :
    (∃ fs z, norm C fs e = some z) ∧ ∃ (wt : ℕ → ℤ) (χ : (ℕ → ℝ) → ℝ), (∀ ρ ∈ regular C dl, χ ρ ≠ 0) ∧
      (∀ ρ ρ' : ℕ → ℝ, (∀ i < 4, ρ i = ρ' i) → χ ρ = χ ρ') ∧
      Rep C wt (atoms dl C.facs) (regular C dl) C.facs.length C.wts.length r fun ρ => eval dl ρ e * χ ρ := by
  simp only [full, Option.bind_eq_bind, Option.bind_eq_some_iff] at h
  obtain ⟨fs, hfs, z, hz, h⟩ := h
  refine ⟨⟨fs, z, hz⟩, ?_⟩
  set wt : ℕ → ℤ := fun i => if h : i < fs.length then -fs[i].w else C.wts.getD (i - fs.length) 0 with hwt
  have hR0 := normAll_rep (C := C) dl (wt := wt) (τ := atoms dl C.facs) (A := regular C dl) C.facs hfs
  have hlen : fs.length = C.facs.length := by simpa using hR0.length_eq
  have hR : List.Forall₂ (Rep C wt (atoms dl C.facs) (regular C dl) 0 (fs.length + C.wts.length)) fs
      (C.facs.map fun e ρ => eval dl ρ e) := hR0.imp fun _ _ h => h.lift
  have hτ : ∀ m (h : m < (C.facs.map fun e ρ => eval dl ρ e).length), ∀ ρ ∈ regular C dl,
      atoms dl C.facs ρ m = ((C.facs.map fun e ρ => eval dl ρ e)[m] ρ)⁻¹ := fun m hm ρ _ => by
    have : m < C.facs.length := by simpa using hm
    simp [atoms, this]
  have hw : ∀ m (h : m < fs.length), wt m = -fs[m].w := fun m hm => by simp [hwt, hm]
  have r1 := rep_norm dl hR le_rfl hτ hw (fun i w hi => by
    refine ⟨?_, fun ρ _ => ?_⟩
    · simp [hwt, hi]
    · simp [atoms, hlen]) e hz
  obtain ⟨χ, x1, x2, x3⟩ := rep_clearAll fs _ C.wts.length 0 z r _ hR0 r1 (by simpa using hτ)
    (by
      intro ψ hψ ρ hρ
      obtain ⟨f, hf, rfl⟩ := List.mem_map.1 hψ
      exact hρ f hf) (by simpa using hw)
    (by
      intro ψ hψ ρ ρ' hh
      obtain ⟨f, hf, rfl⟩ := List.mem_map.1 hψ
      exact normAll_indep dl hh C.facs hfs f hf) h
  rw [zero_add, hlen] at x3
  exact ⟨wt, χ, x1, x2, x3⟩

/-- soundness of `zeroCheck` -/
theorem zeroCheck_sound (C : Cfg) (dl : ℝ → ℝ) (t : List (E × E)) (e : E) (h : zeroCheck C (subst t e) = true) (ρ : ℕ → ℝ)
    (hρ : ∀ f ∈ C.facs, eval dl ρ f ≠ 0) (ht : ∀ p ∈ t, eval dl ρ p.1 = eval dl ρ p.2) : eval dl ρ e = 0 := by
  unfold zeroCheck at h
  split at h
  · cases h
  · rename_i r hr
    obtain ⟨⟨fs, z, hz⟩, wt, χ, x1, -, x3⟩ := full_rep dl hr
    have := rep_isZero x3 h (show ρ ∈ regular C dl from hρ)
    rw [← subst_eval dl ρ t ht e hz]
    exact (mul_eq_zero.1 this).resolve_right (x1 ρ hρ)

/-- soundness of `degCheck`: the coefficients of the polynomial do not depend on the variable `4` -/
theorem degCheck_sound (C : Cfg) (dl : ℝ → ℝ) (t : List (E × E)) (D : ℕ) (e : E) (hX : C.wts ≠ [])
    (h : degCheck C D (subst t e) = true) :
    ∃ c : ℕ → (ℕ → ℝ) → ℝ, (∀ k ρ ρ', (∀ i, i ≠ 4 → ρ i = ρ' i) → c k ρ = c k ρ') ∧
      ∀ ρ, (∀ f ∈ C.facs, eval dl ρ f ≠ 0) → (∀ p ∈ t, eval dl ρ p.1 = eval dl ρ p.2) →
        eval dl ρ e = ∑ k ∈ Finset.range D, c k ρ * ρ 4 ^ k := by
  unfold degCheck at h
  split at h
  · cases h
  · rename_i r hr
    obtain ⟨⟨fs, z, hz⟩, wt, χ, x1, x2, ⟨hd0, l, a, b, c, d⟩⟩ := full_rep dl hr
    obtain ⟨n, hn⟩ : ∃ n, C.wts.length = n + 1 := by
      cases hw : C.wts with
      | nil => exact absurd hw hX
      | cons w ws => exact ⟨ws.length, rfl⟩
    rw [hn] at c d
    set J := C.facs.length with hJ
    -- the terms of the polynomial
    set s : Mo → (ℕ → ℝ) → ℝ := fun x ρ =>
      (x.c : ℝ) * kval (fun i => ρ (i - J + 4)) (J + 1) n (x.key / 64) * (ρ 3 ^ x.em * ρ 2 ^ x.ec * ρ 1 ^ x.eb * ρ 0 ^ x.ea)
      with hs
    have hkv : ∀ (τ τ' : ℕ → ℝ) (m i k : ℕ), (∀ p, i ≤ p → τ p = τ' p) → kval τ i m k = kval τ' i m k := by
      intro τ τ' m
      induction m with
      | zero => intros; rfl
      | succ m ih =>
        intro i k hp
        simp only [kval]
        rw [hp i le_rfl, ih (i + 1) (k / 64) fun p hp' => hp p (by omega)]
    refine ⟨fun k ρ => (((l.filter fun x => x.key % 64 = k).map fun x => s x ρ).sum) / (r.den * χ ρ), ?_, ?_⟩
    · intro k ρ ρ' hh
      have h4 : ∀ i < 4, ρ i = ρ' i := fun i hi => hh i (by omega)
      have : ∀ x, s x ρ = s x ρ' := fun x => by
        simp only [hs]
        rw [h4 0 (by omega), h4 1 (by omega), h4 2 (by omega), h4 3 (by omega)]
        rw [hkv (fun i => ρ (i - J + 4)) (fun i => ρ' (i - J + 4)) n (J + 1) _ fun p hp => hh _ (by omega)]
      simp only [this, x2 ρ ρ' h4]
    · intro ρ hρ ht
      rw [← subst_eval dl ρ t ht e hz]
      have hd := d ρ hρ
      obtain ⟨z1, z2, z3, z4⟩ := isZero_iff h
      -- the other terms add up to zero
      have hz0 : V (atoms dl C.facs ρ) ρ J (n + 1) (l.filter fun x => !(fun k => Nat.blt (k % 64) D) x.key) = 0 := by
        refine V_zero C (Good_filter c _) (((Nm_filter _ _).trans b).trans_lt z2) z3 z4 (fun g => ?_) _ _
        rw [T_filter l (fun k => !Nat.blt (k % 64) D), ← a]
        have h0 := allZero_S z1 g
        simp only at h0
        refine Eq.trans ?_ h0
        clear a z1 h0 hr h
        generalize r.ts = ts
        induction ts with
        | nil => rfl
        | cons p ts ih =>
          rw [S_cons, ih]
          by_cases hp : D ≤ p.1 % 64
          · rw [List.filter_cons_of_pos (by simpa using hp), S_cons]
            have : Nat.blt (p.1 % 64) D = false := by
              rw [Bool.eq_false_iff]; simp; omega
            simp [this]
          · rw [List.filter_cons_of_neg (by simpa using hp)]
            have : Nat.blt (p.1 % 64) D = true := by simp; omega
            simp [this]
      rw [V_split l (fun k => Nat.blt (k % 64) D), hz0, add_zero] at hd
      have hv : V (atoms dl C.facs ρ) ρ J (n + 1) (l.filter fun x => Nat.blt (x.key % 64) D) =
          ∑ k ∈ Finset.range D, ((l.filter fun x => x.key % 64 = k).map fun x => s x ρ).sum * ρ 4 ^ k := by
        have hterm : ∀ x : Mo, (x.c : ℝ) * kval (atoms dl C.facs ρ) J (n + 1) x.key *
            (ρ 3 ^ x.em * ρ 2 ^ x.ec * ρ 1 ^ x.eb * ρ 0 ^ x.ea) = s x ρ * ρ 4 ^ (x.key % 64) := fun x => by
          simp only [kval, hs]
          rw [hkv (atoms dl C.facs ρ) (fun i => ρ (i - J + 4)) n (J + 1) _ fun p hp => by
            have : ¬ p < C.facs.length := by omega
            simp [atoms, this, hJ]]
          have : atoms dl C.facs ρ J = ρ 4 := by simp [atoms, hJ]
          rw [this]; ring
        clear hd hz0 a b c d
        induction l with
        | nil => simp [V]
        | cons x l ih =>
          have hsum : ∀ k, ((x :: l).filter fun x => x.key % 64 = k).map (fun x => s x ρ) =
              (if x.key % 64 = k then [s x ρ] else []) ++ (l.filter fun x => x.key % 64 = k).map (fun x => s x ρ) := by
            intro k
            by_cases hk : x.key % 64 = k
            · rw [List.filter_cons_of_pos (by simpa using hk)]; simp [hk]
            · rw [List.filter_cons_of_neg (by simpa using hk)]; simp [hk]
          simp only [hsum, List.sum_append, add_mul, Finset.sum_add_distrib, ← ih]
          by_cases hp : x.key % 64 < D
          · rw [List.filter_cons_of_pos (by simpa using hp)]
            simp only [V, List.map_cons, List.sum_cons, hterm]
            congr 1
            rw [Finset.sum_eq_single (x.key % 64)]
            · simp
            · intro k _ hk; rw [if_neg (Ne.symm hk)]; simp
            · intro hk; exact absurd (Finset.mem_range.2 hp) hk
          · rw [List.filter_cons_of_neg (by simpa using hp)]
            have : ∑ k ∈ Finset.range D, (if x.key % 64 = k then [s x ρ] else []).sum * ρ 4 ^ k = 0 := by
              refine Finset.sum_eq_zero fun k hk => ?_
              rw [if_neg (by have := Finset.mem_range.1 hk; omega)]; simp
            rw [this, zero_add]
      rw [hv] at hd
      have hχ := x1 ρ hρ
      have hden : (r.den : ℝ) ≠ 0 := by exact_mod_cast hd0.ne'
      have : eval dl ρ (subst t e) = (∑ k ∈ Finset.range D, ((l.filter fun x => x.key % 64 = k).map fun x => s x ρ).sum * ρ 4 ^ k) /
          (r.den * χ ρ) := by
        rw [← hd]; field_simp
      rw [this, Finset.sum_div]
      exact Finset.sum_congr rfl fun k _ => by ring

end Himalaya.Kron
