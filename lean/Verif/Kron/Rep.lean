import Verif.Kron.Sound

/-!
# Soundness of the checker: the operations
-/

set_option linter.unusedSimpArgs false
set_option linter.unusedVariables false

namespace Himalaya.Kron

/-- `e` represents the function `φ` on the set `A`: there is a list of monomials `l` with the bounds recorded in `e`, whose integer
image is `e.ts` and whose value is `den * φ`. -/
def Rep (C : Cfg) (wt : ℕ → ℤ) (τ : (ℕ → ℝ) → ℕ → ℝ) (A : Set (ℕ → ℝ)) (j n : ℕ) (e : El) (φ : (ℕ → ℝ) → ℝ) : Prop :=
  0 < e.den ∧ ∃ l : List Mo, (∀ g, S e.ts g = T C l g) ∧ Nm l ≤ e.N ∧ Good wt j n e.dm e.dc e.w e.deg l ∧
    ∀ ρ ∈ A, φ ρ * e.den = V (τ ρ) ρ j n l

section
variable {C : Cfg} {wt : ℕ → ℤ} {τ : (ℕ → ℝ) → ℕ → ℝ} {A : Set (ℕ → ℝ)} {j n : ℕ}

theorem Rep.congr {e : El} {φ ψ : (ℕ → ℝ) → ℝ} (h : Rep C wt τ A j n e φ) (he : ∀ ρ ∈ A, φ ρ = ψ ρ) : Rep C wt τ A j n e ψ := by
  obtain ⟨h0, l, a, b, c, d⟩ := h
  exact ⟨h0, l, a, b, c, fun ρ hρ => by rw [← he ρ hρ]; exact d ρ hρ⟩

/-- a single monomial without atoms -/
theorem rep_mono (x : Mo) (hk : x.key = 0) {e : El} (hd : 0 < e.den) (ht : e.ts = [(0, x.c * (C.B : ℤ) ^ code C x)])
    (hN : x.c.natAbs ≤ e.N) (h1 : x.em ≤ e.dm) (h2 : x.ec ≤ e.dc) (hw : ((x.em + x.ec + x.eb + x.ea : ℕ) : ℤ) = e.w) :
    Rep C wt τ A j n e fun ρ => (x.c : ℝ) * (ρ 3 ^ x.em * ρ 2 ^ x.ec * ρ 1 ^ x.eb * ρ 0 ^ x.ea) / e.den := by
  refine ⟨hd, [x], fun g => ?_, by simpa [Nm] using hN, fun y hy => ?_, fun ρ _ => ?_⟩
  · simp [S, T, ht, hk]
  · obtain rfl : y = x := by simpa using hy
    refine ⟨h1, h2, by rw [hk]; exact small_zero _ _, ?_⟩
    rw [hk, kwt_zero, add_zero, hw]
  · have : (e.den : ℝ) ≠ 0 := by exact_mod_cast hd.ne'
    simp only [V, List.map_cons, List.map_nil, List.sum_cons, List.sum_nil, hk, kval_zero]
    field_simp; ring

theorem rep_lit (m : ℤ) (d : ℕ) (hd : 0 < d) : Rep C wt τ A j n (elLit m d) fun _ => (m : ℝ) / d := by
  have := rep_mono (C := C) (wt := wt) (τ := τ) (A := A) (j := j) (n := n) ⟨m, 0, 0, 0, 0, 0⟩ rfl (e := elLit m d) hd
    (by simp [elLit, code]) (by simp [elLit]) (by simp) (by simp) (by simp [elLit])
  exact this.congr fun ρ _ => by simp [elLit]

theorem rep_A : Rep C wt τ A j n elA fun ρ => ρ 0 := by
  have := rep_mono (C := C) (wt := wt) (τ := τ) (A := A) (j := j) (n := n) ⟨1, 0, 0, 0, 0, 1⟩ rfl (e := elA) (by simp [elA])
    (by simp [elA, code]) (by simp [elA]) (by simp) (by simp) (by simp [elA])
  exact this.congr fun ρ _ => by simp [elA]

theorem rep_B : Rep C wt τ A j n (elB C) fun ρ => ρ 1 := by
  have := rep_mono (C := C) (wt := wt) (τ := τ) (A := A) (j := j) (n := n) ⟨1, 0, 0, 0, 1, 0⟩ rfl (e := elB C) (by simp [elB])
    (by simp [elB, code]) (by simp [elB]) (by simp) (by simp) (by simp [elB])
  exact this.congr fun ρ _ => by simp [elB]

theorem rep_C : Rep C wt τ A j n (elC C) fun ρ => ρ 2 := by
  have := rep_mono (C := C) (wt := wt) (τ := τ) (A := A) (j := j) (n := n) ⟨1, 0, 0, 1, 0, 0⟩ rfl (e := elC C) (by simp [elC])
    (by simp [elC, code]) (by simp [elC]) (by simp) (by simp [elC]) (by simp [elC])
  exact this.congr fun ρ _ => by simp [elC]

theorem rep_M : Rep C wt τ A j n (elM C) fun ρ => ρ 3 := by
  have := rep_mono (C := C) (wt := wt) (τ := τ) (A := A) (j := j) (n := n) ⟨1, 0, 1, 0, 0, 0⟩ rfl (e := elM C) (by simp [elM])
    (by simp [elM, code]) (by simp [elM]) (by simp [elM]) (by simp) (by simp [elM])
  exact this.congr fun ρ _ => by simp [elM]

theorem rep_atom (i : ℕ) (w : ℤ) (hi : i < n) (hw : wt (j + i) = w) :
    Rep C wt τ A j n (elAtom i w) fun ρ => τ ρ (j + i) := by
  refine ⟨by simp [elAtom], [⟨1, 64 ^ i, 0, 0, 0, 0⟩], fun g => by simp [S, T, elAtom, code], by simp [Nm, elAtom],
    fun y hy => ?_, fun ρ _ => ?_⟩
  · obtain rfl := List.mem_singleton.1 hy
    obtain ⟨a, -, c⟩ := atom_key i n j hi (fun _ => 0) wt
    exact ⟨by simp, by simp, a, by simp [c, hw, elAtom]⟩
  · simp [V, elAtom, (atom_key i n j hi (τ ρ) wt).2.1]

def sm (c : ℤ) (l : List Mo) : List Mo := l.map fun x => { x with c := x.c * c }

theorem V_smul (τ ρ : ℕ → ℝ) (j n : ℕ) (c : ℤ) (l : List Mo) :
    V τ ρ j n (sm c l) = c * V τ ρ j n l := by
  unfold sm
  induction l with
  | nil => simp [V]
  | cons x l ih =>
    simp only [V, List.map_cons, List.sum_cons, Int.cast_mul] at ih ⊢
    rw [ih]; ring

theorem T_smul (c : ℤ) (l : List Mo) (g : ℕ → ℤ) : T C (sm c l) g = c * T C l g := by
  unfold sm
  induction l with
  | nil => simp [T]
  | cons x l ih =>
    simp only [T, List.map_cons, List.sum_cons] at ih ⊢
    rw [ih]
    show x.c * c * (C.B : ℤ) ^ code C x * _ + _ = _
    ring

theorem Nm_smul (c : ℤ) (l : List Mo) : Nm (sm c l) = Nm l * c.natAbs := by
  unfold sm
  induction l with
  | nil => simp [Nm]
  | cons x l ih =>
    simp only [Nm, List.map_cons, List.sum_cons, Int.natAbs_mul] at ih ⊢
    rw [ih]; ring

theorem Good_smul {dm dc deg : ℕ} {w c : ℤ} {l : List Mo} (h : Good wt j n dm dc w deg l) :
    Good wt j n dm dc w deg (sm c l) := by
  intro y hy
  obtain ⟨x, hx, rfl⟩ := List.mem_map.1 hy
  exact h x hx

theorem rep_neg {e : El} {φ : (ℕ → ℝ) → ℝ} (h : Rep C wt τ A j n e φ) : Rep C wt τ A j n (elNeg e) fun ρ => -φ ρ := by
  obtain ⟨h0, l, a, b, c, d⟩ := h
  refine ⟨h0, sm (-1) l, fun g => ?_, ?_, Good_smul c, fun ρ hρ => ?_⟩
  · rw [T_smul, ← a]; simp [elNeg, S_scale]
  · rw [Nm_smul]; show _ ≤ e.N; simpa using b
  · rw [V_smul, ← d ρ hρ]; simp [elNeg]

theorem rep_stretch {k : ℕ} (hk : 0 < k) {e : El} {φ : (ℕ → ℝ) → ℝ} (h : Rep C wt τ A j n e φ) :
    Rep C wt τ A j n (elStretch k e) φ := by
  obtain ⟨h0, l, a, b, c, d⟩ := h
  refine ⟨Nat.mul_pos h0 hk, sm (k : ℤ) l, fun g => ?_, ?_, Good_smul c, fun ρ hρ => ?_⟩
  · rw [T_smul, ← a]; simp [elStretch, S_scale]
  · rw [Nm_smul]; simpa [elStretch] using Nat.mul_le_mul_right k b
  · rw [V_smul, ← d ρ hρ]; simp [elStretch]; ring

theorem rep_addSame {x y : El} {φ ψ : (ℕ → ℝ) → ℝ} (hx : Rep C wt τ A j n x φ) (hy : Rep C wt τ A j n y ψ) (hw : x.w = y.w)
    (hd : x.den = y.den) : Rep C wt τ A j n (elAddSame x y) fun ρ => φ ρ + ψ ρ := by
  obtain ⟨h0, l, a, b, c, d⟩ := hx
  obtain ⟨h0', l', a', b', c', d'⟩ := hy
  refine ⟨h0, l ++ l', fun g => ?_, ?_, ?_, fun ρ hρ => ?_⟩
  · rw [T_append, ← a, ← a']; simp [elAddSame, S_mrg]
  · rw [Nm_append]; exact add_le_add b b'
  · intro z hz
    rcases List.mem_append.1 hz with h | h
    · obtain ⟨k1, k2, k3, k4⟩ := c z h
      exact ⟨k1.trans (le_max_left _ _), k2.trans (le_max_left _ _), small_mono (le_max_left _ _) k3, k4⟩
    · obtain ⟨k1, k2, k3, k4⟩ := c' z h
      exact ⟨k1.trans (le_max_right _ _), k2.trans (le_max_right _ _), small_mono (le_max_right _ _) k3, k4.trans hw.symm⟩
  · rw [V_append, ← d ρ hρ, ← d' ρ hρ, ← hd]; simp [elAddSame]; ring

theorem Nm_zero {l : List Mo} (h : Nm l = 0) (τ ρ : ℕ → ℝ) (j n : ℕ) : V τ ρ j n l = 0 := by
  induction l with
  | nil => simp [V]
  | cons x l ih =>
    simp only [Nm, List.map_cons, List.sum_cons, Nat.add_eq_zero_iff, Int.natAbs_eq_zero] at h ih
    have := ih h.2
    simp only [V, List.map_cons, List.sum_cons] at this ⊢
    rw [this, h.1]; simp

theorem rep_N0 {e : El} {φ : (ℕ → ℝ) → ℝ} (h : Rep C wt τ A j n e φ) (hN : e.N = 0) {ρ : ℕ → ℝ} (hρ : ρ ∈ A) : φ ρ = 0 := by
  obtain ⟨h0, l, a, b, c, d⟩ := h
  have := d ρ hρ
  rw [Nm_zero (by omega)] at this
  exact (mul_eq_zero.1 this).resolve_right (by exact_mod_cast h0.ne')

theorem rep_add {x y z : El} {φ ψ : (ℕ → ℝ) → ℝ} (hx : Rep C wt τ A j n x φ) (hy : Rep C wt τ A j n y ψ)
    (h : elAdd x y = some z) : Rep C wt τ A j n z fun ρ => φ ρ + ψ ρ := by
  unfold elAdd at h
  split at h
  · rename_i h0
    injection h with h; subst h
    exact hy.congr fun ρ hρ => by rw [rep_N0 hx h0 hρ]; simp
  · rename_i h0 _
    injection h with h; subst h
    exact hx.congr fun ρ hρ => by rw [rep_N0 hy h0 hρ]; simp
  · split at h
    · rename_i hw
      split at h
      · rename_i hd
        injection h with h; subst h
        exact rep_addSame hx hy hw hd
      · injection h with h; subst h
        have p1 := hx.1
        have p2 := hy.1
        have g0 : 0 < Nat.gcd x.den y.den := Nat.gcd_pos_of_pos_left _ p1
        refine rep_addSame (rep_stretch (Nat.div_pos (Nat.le_of_dvd p2 (Nat.gcd_dvd_right _ _)) g0) hx)
          (rep_stretch (Nat.div_pos (Nat.le_of_dvd p1 (Nat.gcd_dvd_left _ _)) g0) hy) hw ?_
        show x.den * (y.den / Nat.gcd x.den y.den) = y.den * (x.den / Nat.gcd x.den y.den)
        rw [← Nat.mul_div_assoc _ (Nat.gcd_dvd_right _ _), ← Nat.mul_div_assoc _ (Nat.gcd_dvd_left _ _), Nat.mul_comm]
    · cases h

theorem S_congr (ts : List (ℕ × ℤ)) {g h : ℕ → ℤ} (e : ∀ k, g k = h k) : S ts g = S ts h := by
  rw [show g = h from funext e]

theorem rep_mul {x y z : El} {φ ψ : (ℕ → ℝ) → ℝ} (hx : Rep C wt τ A j n x φ) (hy : Rep C wt τ A j n y ψ)
    (h : elMul x y = some z) : Rep C wt τ A j n z fun ρ => φ ρ * ψ ρ := by
  unfold elMul at h
  split at h
  · rename_i hdeg
    injection h with h; subst h
    obtain ⟨h0, l, a, b, c, d⟩ := hx
    obtain ⟨h0', l', a', b', c', d'⟩ := hy
    refine ⟨Nat.mul_pos h0 h0', lmul l l', fun g => ?_, ?_, Good_mul hdeg c c', fun ρ hρ => ?_⟩
    · show S (mulTs x.ts y.ts) g = _
      rw [T_mul, S_mul, ← a]
      exact S_congr _ fun k => a' _
    · rw [Nm_mul]; exact Nat.mul_le_mul b b'
    · rw [V_mul hdeg _ _ _ _ _ _ (fun x hx => (c x hx).2.2.1) (fun x hx => (c' x hx).2.2.1), ← d ρ hρ, ← d' ρ hρ]
      push_cast; ring
  · cases h

theorem allZero_S {ts : List (ℕ × ℤ)} (h : allZero ts = true) (g : ℕ → ℤ) : S ts g = 0 := by
  induction ts with
  | nil => rfl
  | cons t ts ih =>
    unfold allZero at h
    split at h
    · rename_i h0
      rw [S_cons, ih h, h0]; simp
    · cases h

theorem isZero_iff {e : El} (h : isZero C e = true) : allZero e.ts = true ∧ e.N < C.B ∧ e.dm < C.rm ∧ e.dc < C.rc := by
  simp only [isZero, Bool.and_eq_true, Nat.blt_eq] at h
  exact ⟨h.1.1.1, h.1.1.2, h.1.2, h.2⟩

theorem rep_isZero {e : El} {φ : (ℕ → ℝ) → ℝ} (h : Rep C wt τ A j n e φ) (hz : isZero C e = true) {ρ : ℕ → ℝ} (hρ : ρ ∈ A) :
    φ ρ = 0 := by
  obtain ⟨h0, l, a, b, c, d⟩ := h
  obtain ⟨z1, z2, z3, z4⟩ := isZero_iff hz
  have := d ρ hρ
  rw [V_zero C c (b.trans_lt z2) z3 z4 (fun g => by rw [← a, allZero_S z1])] at this
  exact (mul_eq_zero.1 this).resolve_right (by exact_mod_cast h0.ne')

theorem rep_pow {x : El} {φ : (ℕ → ℝ) → ℝ} (hx : Rep C wt τ A j n x φ) (k : ℕ) {z : El} (h : elPow x k = some z) :
    Rep C wt τ A j n z fun ρ => φ ρ ^ k := by
  induction k generalizing z with
  | zero =>
    injection h with h; subst h
    exact (rep_lit 1 1 one_pos).congr fun ρ _ => by simp
  | succ k ih =>
    simp only [elPow, Option.bind_eq_bind, Option.bind_eq_some_iff] at h
    obtain ⟨y, h1, h2⟩ := h
    exact (rep_mul (ih h1) hx h2).congr fun ρ _ => (pow_succ _ _).symm

theorem rep_prods (fs : List El) (φs : List ((ℕ → ℝ) → ℝ)) (ks : List ℕ) (i : ℕ) (hR : List.Forall₂ (Rep C wt τ A 0 n) fs φs)
    (hi : i + fs.length ≤ n) (hτ : ∀ m (h : m < φs.length), ∀ ρ ∈ A, τ ρ (i + m) = (φs[m] ρ)⁻¹)
    (hw : ∀ m (h : m < fs.length), wt (i + m) = -fs[m].w) {P : El × El} (h : prods fs ks i = some P) :
    ∃ ψ, Rep C wt τ A 0 n P.1 ψ ∧ Rep C wt τ A 0 n P.2 fun ρ => (ψ ρ)⁻¹ := by
  have one : ∃ ψ, Rep C wt τ A 0 n (elLit 1 1) ψ ∧ Rep C wt τ A 0 n (elLit 1 1) fun ρ => (ψ ρ)⁻¹ :=
    ⟨fun _ => 1, (rep_lit 1 1 one_pos).congr fun ρ _ => by simp, (rep_lit 1 1 one_pos).congr fun ρ _ => by simp⟩
  induction hR generalizing ks i P with
  | nil =>
    simp only [prods] at h
    injection h with h; subst h; exact one
  | @cons f φ fs φs hf hR ih =>
    cases ks with
    | nil =>
      simp only [prods] at h
      injection h with h; subst h; exact one
    | cons k ks =>
      simp only [prods, Option.bind_eq_bind, Option.bind_eq_some_iff] at h
      obtain ⟨r, h1, h⟩ := h
      have hlen : (f :: fs).length = fs.length + 1 := rfl
      obtain ⟨ψ, q1, q2⟩ := ih ks (i + 1) (by omega)
        (fun m hm ρ hρ => by
          have := hτ (m + 1) (by simpa using hm) ρ hρ
          rw [show i + 1 + m = i + (m + 1) by omega, this]; rfl)
        (fun m hm => by
          have := hw (m + 1) (by simpa using hm)
          rw [show i + 1 + m = i + (m + 1) by omega, this]; rfl) h1
      split at h
      · injection h with h; subst h; exact ⟨ψ, q1, q2⟩
      · simp only [Option.bind_eq_some_iff] at h
        obtain ⟨a, ha, b, hb, c, hc, d, hd, h⟩ := h
        injection h with h; subst h
        refine ⟨fun ρ => φ ρ ^ k * ψ ρ, rep_mul (rep_pow hf k ha) q1 hb, ?_⟩
        have hat := rep_atom (C := C) (wt := wt) (τ := τ) (A := A) (j := 0) (n := n) i (-f.w) (by omega)
          (by have := hw 0 (by simp); simpa using this)
        refine (rep_mul (rep_pow hat k hc) q2 hd).congr fun ρ hρ => ?_
        have := hτ 0 (by simp) ρ hρ
        simp only [zero_add, add_zero, List.getElem_cons_zero] at this ⊢
        rw [this, mul_inv, inv_pow]

theorem rep_den {e : El} {φ : (ℕ → ℝ) → ℝ} (h : Rep C wt τ A j n e φ) :
    Rep C wt τ A j n { e with den := 1 } fun ρ => φ ρ * e.den := by
  obtain ⟨h0, l, a, b, c, d⟩ := h
  exact ⟨one_pos, l, a, b, c, fun ρ hρ => by rw [← d ρ hρ]; simp⟩

theorem rep_sign (c : ℤ) (hc : c ≠ 0) :
    Rep C wt τ A j n { elLit 1 c.natAbs with ts := [(0, c.sign)] } fun _ => ((c : ℝ))⁻¹ := by
  have hp : 0 < c.natAbs := Int.natAbs_pos.2 hc
  have := rep_mono (C := C) (wt := wt) (τ := τ) (A := A) (j := j) (n := n) ⟨c.sign, 0, 0, 0, 0, 0⟩ rfl
    (e := { elLit 1 c.natAbs with ts := [(0, c.sign)] }) hp (by simp [code])
    (by rcases lt_trichotomy c 0 with h | h | h
        · simp [elLit, Int.sign_eq_neg_one_of_neg h]
        · exact absurd h hc
        · simp [elLit, Int.sign_eq_one_of_pos h]) (by simp) (by simp) (by simp [elLit])
  refine this.congr fun ρ _ => ?_
  have e : c = c.sign * c.natAbs := (Int.sign_mul_natAbs c).symm
  have hr : (c : ℝ) = c.sign * (c.natAbs : ℕ) := by
    have := congrArg (Int.cast : ℤ → ℝ) e
    rw [Int.cast_mul, Int.cast_natCast] at this
    exact this
  have hn : ((c.natAbs : ℕ) : ℝ) ≠ 0 := by exact_mod_cast hp.ne'
  have hs : (c.sign : ℝ) * c.sign = 1 := by
    rcases lt_trichotomy c 0 with h | h | h
    · simp [Int.sign_eq_neg_one_of_neg h]
    · exact absurd h hc
    · simp [Int.sign_eq_one_of_pos h]
  show (c.sign : ℝ) * _ / (c.natAbs : ℕ) = _
  simp only [pow_zero, mul_one]
  rw [hr, mul_inv]
  have : ((c.sign : ℝ))⁻¹ = c.sign := inv_eq_of_mul_eq_one_left hs
  rw [this]; rfl

theorem rep_inv {fs : List El} {φs : List ((ℕ → ℝ) → ℝ)} (hR : List.Forall₂ (Rep C wt τ A 0 n) fs φs)
    (hi : fs.length ≤ n) (hτ : ∀ m (h : m < φs.length), ∀ ρ ∈ A, τ ρ m = (φs[m] ρ)⁻¹)
    (hw : ∀ m (h : m < fs.length), wt m = -fs[m].w) {e z : El} {φ : (ℕ → ℝ) → ℝ} (he : Rep C wt τ A 0 n e φ)
    (h : elInv C fs e = some z) : Rep C wt τ A 0 n z fun ρ => (φ ρ)⁻¹ := by
  unfold elInv at h
  split at h
  · rename_i t ht
    simp only [Option.bind_eq_bind, Option.bind_eq_some_iff] at h
    obtain ⟨p, hp, c, hc, d, hd, h⟩ := h
    split at h
    · cases h
    · rename_i hne
      split at h
      · rename_i hz
        simp only [Option.bind_eq_some_iff] at h
        obtain ⟨q, hq, h⟩ := h
        set r := peelAll fs.dropLast t.2 e.w with hr
        obtain ⟨ψ, q1, q2⟩ := rep_prods fs φs _ 0 hR (by omega) (by simpa using hτ) (by simpa using hw) hp
        have r1 := rep_mul (rep_lit (C := C) (wt := wt) (τ := τ) (A := A) (j := 0) (n := n) r.2.1 1 one_pos) q1 hc
        have r2 := rep_add (rep_den he) (rep_neg r1) hd
        have key : ∀ ρ ∈ A, φ ρ * e.den = r.2.1 * ψ ρ := fun ρ hρ => by
          have := rep_isZero r2 hz hρ
          simp only [Nat.cast_one, div_one] at this
          linarith
        have r3 := rep_mul (rep_sign (C := C) (wt := wt) (τ := τ) (A := A) (j := 0) (n := n) r.2.1 hne) q2 hq
        have r4 := rep_mul (rep_lit (C := C) (wt := wt) (τ := τ) (A := A) (j := 0) (n := n) e.den 1 one_pos) r3 h
        refine r4.congr fun ρ hρ => ?_
        have hden : (e.den : ℝ) ≠ 0 := by exact_mod_cast he.1.ne'
        simp only [Nat.cast_one, div_one, Int.cast_natCast]
        rw [← mul_inv, ← key ρ hρ, mul_inv, mul_comm, mul_assoc, inv_mul_cancel₀ hden, mul_one]
      · cases h
  · cases h

end

end Himalaya.Kron
