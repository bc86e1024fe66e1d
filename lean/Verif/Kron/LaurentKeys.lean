import Verif.Kron.Laurent

/-!
# Consequences of the exponents that occur in a Laurent polynomial

`checkB` normalises a formula and tests a condition on the exponents of all its monomials.  Two kinds of conditions are used:
the total weight of the monomial (`wt`), and the exponents of a few chosen variables (`tabB`).
-/

namespace Himalaya.Laur

open Kron (E eval)

open Lean Elab Tactic Meta in
/-- closes a goal `a = b` by reflexivity; the kernel checks that `a` and `b` are equal by computation -/
elab "krfl" : tactic => do
  let g ← getMainGoal
  let t ← instantiateMVars (← g.getType)
  let some (_, a, _) := t.eq? | throwError "not an equation"
  g.assign (← mkEqRefl a)

/-- all monomials of the formula satisfy `c` -/
def checkB (n m : ℕ) (c : ℕ → Bool) (e : E) : Bool :=
  match norm n m (bias n) e with
  | some p => p.ts.all (fun t => c t.1)
  | none => false

/-- the formula is identically zero -/
def zeroB (n m : ℕ) (e : E) : Bool :=
  match norm n m (bias n) e with
  | some p => match p.ts with
    | [] => true
    | _ :: _ => false
  | none => false

theorem zeroB_sound (dl : ℝ → ℝ) {n m : ℕ} {e : E} (h : zeroB n m e = true) (xs : List ℝ) (hl : xs.length = n)
    (hz : NZ m xs) : eval dl (fun i => xs.getD i 0) e = 0 := by
  rw [zeroB] at h
  split at h
  · rename_i p hp
    split at h
    · rename_i hts
      have r := (norm_rep dl n m e p hp).value xs hl hz
      rw [r, hts]; simp [val]
    · simp at h
  · simp at h

/-- What a successful `checkB` says about the formula. -/
structure Poly (c : ℕ → Bool) (n m : ℕ) (φ : List ℝ → ℝ) where
  ts : List (ℕ × ℤ)
  den : ℕ
  chk : ∀ t ∈ ts, c t.1 = true
  value : ∀ xs : List ℝ, xs.length = n → NZ m xs → φ xs = val xs ts / den

theorem checkB_sound (dl : ℝ → ℝ) {n m : ℕ} {c : ℕ → Bool} {e : E} (h : checkB n m c e = true) :
    Nonempty (Poly c n m (fun xs => eval dl (fun i => xs.getD i 0) e)) := by
  rw [checkB] at h
  split at h
  · rename_i p hp
    exact ⟨{ ts := p.ts, den := p.den, chk := fun t ht => (List.all_eq_true.1 h) t ht, value := (norm_rep dl n m e p hp).value }⟩
  · simp at h

/-! ## Exponents of chosen variables -/

/-- digit of a key, that is, 512 plus the exponent of variable `i` -/
def dig (k i : ℕ) : ℕ := Nat.mod (Nat.div k (Nat.pow 1024 i)) 1024

def digs (k : ℕ) : List ℕ → List ℕ
  | [] => []
  | i :: is => dig k i :: digs k is

def eqL : List ℕ → List ℕ → Bool
  | [], [] => true
  | a :: as, b :: bs => match Nat.beq a b with
    | true => eqL as bs
    | false => false
  | _, _ => false

theorem eqL_eq : ∀ {a b : List ℕ}, eqL a b = true → a = b
  | [], [], _ => rfl
  | a :: as, b :: bs, h => by
    rw [eqL] at h
    split at h
    · rename_i e; rw [Nat.eq_of_beq_eq_true e, eqL_eq h]
    · simp at h
  | [], _ :: _, h => by simp [eqL] at h
  | _ :: _, [], h => by simp [eqL] at h

def memB (a : List ℕ) : List (List ℕ) → Bool
  | [] => false
  | b :: bs => match eqL a b with
    | true => true
    | false => memB a bs

/-- the exponents of the variables `is` are among the tuples `al` -/
def tabB (is : List ℕ) (al : List (List ℕ)) (k : ℕ) : Bool := memB (digs k is) al

/-- the values of the variables `is` replaced by 1 -/
noncomputable def ones (xs : List ℝ) : List ℕ → List ℝ
  | [] => xs
  | i :: is => ones (xs.set i 1) is

/-- product of powers of the variables `is` -/
noncomputable def pw (xs : List ℝ) : List ℕ → List ℕ → ℝ
  | i :: is, d :: ds => xs.getD i 1 ^ ((d : ℤ) - 512) * pw (xs.set i 1) is ds
  | _, _ => 1

theorem mon_set (i : ℕ) : ∀ (xs : List ℝ) (k : ℕ), mon xs k = xs.getD i 1 ^ ((dig k i : ℤ) - 512) * mon (xs.set i 1) k := by
  induction i with
  | zero =>
    intro xs k
    cases xs with
    | nil => simp [mon]
    | cons x xs =>
      have e : dig k 0 = k % 1024 := by
        show k / 1024 ^ 0 % 1024 = k % 1024
        rw [pow_zero, Nat.div_one]
      simp [mon, e]
  | succ i ih =>
    intro xs k
    cases xs with
    | nil => simp [mon]
    | cons x xs =>
      simp only [mon, List.set_cons_succ, List.getD_cons_succ]
      rw [ih xs (k / 1024)]
      have e : dig (k / 1024) i = dig k (i + 1) := by
        show k / 1024 / 1024 ^ i % 1024 = k / 1024 ^ (i + 1) % 1024
        rw [Nat.div_div_eq_div_mul, ← pow_succ']
      rw [e]; ring

theorem mon_pw : ∀ (is : List ℕ) (xs : List ℝ) (k : ℕ), mon xs k = pw xs is (digs k is) * mon (ones xs is) k
  | [], xs, k => by simp [pw, ones]
  | i :: is, xs, k => by
    rw [mon_set i xs k, mon_pw is (xs.set i 1) k]
    simp only [pw, digs, ones]; ring

/-- `∑ⱼ (powers aⱼ of the variables is) * Cⱼ(the other variables)` -/
noncomputable def sumTab (xs : List ℝ) (is : List ℕ) : List (List ℕ) → (ℕ → List ℝ → ℝ) → ℝ
  | [], _ => 0
  | a :: as, C => pw xs is a * C 0 (ones xs is) + sumTab xs is as (fun j => C (j + 1))

theorem sumTab_div (xs : List ℝ) (is : List ℕ) (d : ℝ) : ∀ (al : List (List ℕ)) (C : ℕ → List ℝ → ℝ),
    sumTab xs is al C / d = sumTab xs is al (fun j ys => C j ys / d)
  | [], _ => by simp [sumTab]
  | a :: as, C => by
    rw [sumTab, sumTab, ← sumTab_div xs is d as]; ring

theorem val_filter (xs : List ℝ) (c : ℕ → Bool) (ts : List (ℕ × ℤ)) :
    val xs ts = val xs (ts.filter fun t => c t.1) + val xs (ts.filter fun t => !c t.1) := by
  induction ts with
  | nil => simp [val]
  | cons t ts ih =>
    cases h : c t.1 with
    | true => simp only [List.filter_cons, h, if_true, Bool.not_true, Bool.false_eq_true, if_false, val]; rw [ih]; ring
    | false => simp only [List.filter_cons, h, if_true, Bool.not_false, Bool.false_eq_true, if_false, val]; rw [ih]; ring

theorem val_const (xs : List ℝ) (is a : List ℕ) (ts : List (ℕ × ℤ)) (h : ∀ t ∈ ts, digs t.1 is = a) :
    val xs ts = pw xs is a * val (ones xs is) ts := by
  induction ts with
  | nil => simp [val]
  | cons t ts ih =>
    simp only [val]
    rw [ih (fun t h' => h t (List.mem_cons_of_mem _ h')), mon_pw is xs t.1, h t (List.mem_cons_self ..)]; ring

theorem val_tab (is : List ℕ) : ∀ (al : List (List ℕ)) (ts : List (ℕ × ℤ)), (∀ t ∈ ts, tabB is al t.1 = true) →
    ∃ C : ℕ → List ℝ → ℝ, ∀ xs, val xs ts = sumTab xs is al C
  | [], ts, h => by
    refine ⟨fun _ _ => 0, fun xs => ?_⟩
    cases ts with
    | nil => rfl
    | cons t ts => have := h t (List.mem_cons_self ..); simp [tabB, memB] at this
  | a :: al, ts, h => by
    obtain ⟨C, hC⟩ := val_tab is al (ts.filter fun t => !eqL (digs t.1 is) a) (by
      intro t ht
      have h1 := h t (List.mem_filter.1 ht).1
      have h2 := (List.mem_filter.1 ht).2
      rw [tabB, memB] at h1
      split at h1
      · rename_i e; rw [e] at h2; simp at h2
      · exact h1)
    refine ⟨fun j => match j with | 0 => fun ys => val ys (ts.filter fun t => eqL (digs t.1 is) a) | j + 1 => C j, fun xs => ?_⟩
    rw [val_filter xs (fun k => eqL (digs k is) a) ts]
    rw [sumTab]
    congr 1
    · exact val_const xs is a _ (fun t ht => eqL_eq (List.mem_filter.1 ht).2)
    · exact hC xs

/-- a formula as a polynomial in the variables `is` with the exponents `al` -/
theorem Poly.tab {c : ℕ → Bool} {n m : ℕ} {φ : List ℝ → ℝ} (P : Poly c n m φ) (is : List ℕ) (al : List (List ℕ))
    (h : ∀ k, c k = true → tabB is al k = true) :
    ∃ C : ℕ → List ℝ → ℝ, ∀ xs : List ℝ, xs.length = n → NZ m xs → φ xs = sumTab xs is al C := by
  obtain ⟨C, hC⟩ := val_tab is al P.ts (fun t ht => h _ (P.chk t ht))
  refine ⟨fun j ys => C j ys / P.den, fun xs hx hz => ?_⟩
  rw [P.value xs hx hz, hC xs, sumTab_div]

/-! ## Weights -/

/-- `∑ w * (512 + exponent of variable i)` for the given pairs `(i, w)` -/
def wtS (k : ℕ) : List (ℕ × ℕ) → ℕ
  | [] => 0
  | p :: ps => Nat.add (Nat.mul p.2 (dig k p.1)) (wtS k ps)

/-- `512 * ∑ w` -/
def wt0 : List (ℕ × ℕ) → ℕ
  | [] => 0
  | p :: ps => p.2 * 512 + wt0 ps

/-- multiplies variable `i` by `l ^ w` for the given pairs `(i, w)` -/
noncomputable def scaleS (l : ℝ) : List (ℕ × ℕ) → List ℝ → List ℝ
  | [], xs => xs
  | p :: ps, xs => scaleS l ps (xs.set p.1 (l ^ p.2 * xs.getD p.1 1))

theorem mon_setMul (xs : List ℝ) (i : ℕ) (y : ℝ) (k : ℕ) (hi : i < xs.length) :
    mon (xs.set i (y * xs.getD i 1)) k = y ^ ((dig k i : ℤ) - 512) * mon xs k := by
  rw [mon_set i (xs.set i (y * xs.getD i 1)) k, mon_set i xs k, List.set_set]
  have e : (xs.set i (y * xs.getD i 1)).getD i 1 = y * xs.getD i 1 := by simp [hi]
  rw [e, mul_zpow, mul_assoc]

theorem mon_scaleS {l : ℝ} (hl : l ≠ 0) (k : ℕ) : ∀ (ps : List (ℕ × ℕ)) (xs : List ℝ), (∀ p ∈ ps, p.1 < xs.length) →
    mon (scaleS l ps xs) k = l ^ ((wtS k ps : ℤ) - wt0 ps) * mon xs k
  | [], xs, _ => by simp [scaleS, wtS, wt0]
  | p :: ps, xs, h => by
    have h1 : p.1 < xs.length := h p (List.mem_cons_self ..)
    rw [scaleS, mon_scaleS hl k ps _ (fun q hq => by rw [List.length_set]; exact h q (List.mem_cons_of_mem _ hq)),
      mon_setMul xs p.1 _ k h1]
    have e : ((wtS k (p :: ps) : ℤ) - wt0 (p :: ps)) = ((wtS k ps : ℤ) - wt0 ps) + (p.2 : ℤ) * ((dig k p.1 : ℤ) - 512) := by
      show (((p.2 * dig k p.1 + wtS k ps : ℕ) : ℤ) - ((p.2 * 512 + wt0 ps : ℕ) : ℤ)) = _
      push_cast; ring
    rw [e, zpow_add₀ hl, zpow_mul, zpow_natCast]; ring

theorem length_scaleS (l : ℝ) : ∀ (ps : List (ℕ × ℕ)) (xs : List ℝ), (scaleS l ps xs).length = xs.length
  | [], _ => rfl
  | p :: ps, xs => by rw [scaleS, length_scaleS l ps, List.length_set]

theorem nz_set : ∀ (m : ℕ) (xs : List ℝ) (i : ℕ) (y : ℝ), y ≠ 0 → NZ m xs → NZ m (xs.set i (y * xs.getD i 1))
  | 0, _, _, _, _, _ => trivial
  | _ + 1, [], _, _, _, _ => trivial
  | _ + 1, _ :: _, 0, _, hy, h => ⟨mul_ne_zero hy h.1, h.2⟩
  | m + 1, _ :: xs, i + 1, y, hy, h => ⟨h.1, nz_set m xs i y hy h.2⟩

theorem nz_scaleS {l : ℝ} (hl : l ≠ 0) (m : ℕ) : ∀ (ps : List (ℕ × ℕ)) (xs : List ℝ), NZ m xs → NZ m (scaleS l ps xs)
  | [], _, h => h
  | p :: ps, xs, h => nz_scaleS hl m ps _ (nz_set m xs p.1 _ (pow_ne_zero _ hl) h)

/-! ## Faster tests for neighbouring variables -/

def memN (c : ℕ) : List ℕ → Bool
  | [] => false
  | a :: as => match Nat.beq c a with
    | true => true
    | false => memN c as

/-- `p = 1024 ^ i`, `w = 1024 ^ (number of variables)`; the digits are read as one number -/
def tabN (p w : ℕ) (al : List ℕ) (k : ℕ) : Bool := memN (Nat.mod (Nat.div k p) w) al

theorem memN_mem {c : ℕ} : ∀ {al : List ℕ}, memN c al = true → c ∈ al
  | [], h => by simp [memN] at h
  | a :: as, h => by
    rw [memN] at h
    split at h
    · rename_i e; rw [Nat.eq_of_beq_eq_true e]; exact List.mem_cons_self ..
    · exact List.mem_cons_of_mem _ (memN_mem h)

theorem eqL_refl : ∀ a : List ℕ, eqL a a = true
  | [] => rfl
  | a :: as => by
    have e : Nat.beq a a = true := by simp
    rw [eqL, e]; exact eqL_refl as

theorem memB_of_mem {a : List ℕ} : ∀ {al : List (List ℕ)}, a ∈ al → memB a al = true
  | [], h => by simp at h
  | b :: bs, h => by
    rw [memB]
    split
    · rfl
    · rename_i e
      rcases List.mem_cons.1 h with r | r
      · rw [r, eqL_refl] at e; simp at e
      · exact memB_of_mem r

theorem dig_code (k i : ℕ) (w n j : ℕ) (hw : w = 1024 ^ n) (hj : j < n) :
    dig (Nat.mod (Nat.div k (1024 ^ i)) w) j = dig k (i + j) := by
  show k / 1024 ^ i % w / 1024 ^ j % 1024 = k / 1024 ^ (i + j) % 1024
  obtain ⟨r, rfl⟩ : ∃ r, n = j + (r + 1) := ⟨n - j - 1, by omega⟩
  rw [hw, pow_add 1024 j, Nat.mod_mul_right_div_self, pow_succ' 1024 r, Nat.mod_mod_of_dvd _ (Dvd.intro _ rfl),
    Nat.div_div_eq_div_mul, ← pow_add]

theorem digs_code (k i w n : ℕ) (hw : w = 1024 ^ n) : ∀ js : List ℕ, (∀ j ∈ js, j < n) →
    digs (Nat.mod (Nat.div k (1024 ^ i)) w) js = digs k (js.map (i + ·))
  | [], _ => rfl
  | j :: js, h => by
    show dig _ j :: digs _ js = dig k (i + j) :: digs k (js.map (i + ·))
    rw [dig_code k i w n j hw (h j (List.mem_cons_self ..)), digs_code k i w n hw js (fun j h' => h j (List.mem_cons_of_mem _ h'))]

/-- `tabN` implies `tabB` -/
theorem tabN_tabB {p w i n : ℕ} {al : List ℕ} {js is : List ℕ} {al' : List (List ℕ)} (hp : p = 1024 ^ i) (hw : w = 1024 ^ n)
    (hj : ∀ j ∈ js, j < n) (his : is = js.map (i + ·)) (hal : al' = al.map (fun c => digs c js)) {k : ℕ}
    (h : tabN p w al k = true) : tabB is al' k = true := by
  rw [tabN, hp] at h
  rw [tabB, his, ← digs_code k i w n hw js hj]
  apply memB_of_mem
  rw [hal]
  exact List.mem_map_of_mem (f := fun c => digs c js) (memN_mem h)

end Himalaya.Laur
