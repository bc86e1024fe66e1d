import Verif.Calc.UnitsFO
import Verif.Calc.Props6
import Verif.Calc.Props3Ex

/-!
# C77: `calculateDMh3L` in other units of mass
-/

set_option linter.unusedSimpArgs false
set_option linter.unusedVariables false
set_option linter.unusedSectionVars false
set_option linter.unusedTactic false
set_option linter.unreachableTactic false

namespace Himalaya

open scoped Himalaya
open CalcM

/-! ### the specification -/

/-- The result object in other units of mass: mass matrices, shifts and squared masses have dimension 2, uncertainties and masses
dimension 1; the hierarchy, the flags, relative errors and corrections to the quartic coupling are pure numbers. -/
noncomputable def HObj.rescale (l : ℝ) (o : HObj ℝ) : HObj ℝ :=
  { o with
    absDiff2L := l * o.absDiff2L, expUncertainties := fun i => l * o.expUncertainties i,
    dMhMap := fun i => Mat2.smul (l ^ 2) (o.dMhMap i), dMh2Map := fun i => l ^ 2 * o.dMh2Map i,
    mdrShift := Mat2.smul (l ^ 2) o.mdrShift, mdrMasses := ⟨l * o.mdrMasses.x0, l * o.mdrMasses.x1⟩,
    h3mShift := Mat2.smul (l ^ 2) o.h3mShift, dMh2EFTMap := fun i => l ^ 2 * o.dMh2EFTMap i,
    dMh2FOMap := fun i => l ^ 2 * o.dMh2FOMap i, dMh2FOAtMap := fun i => l ^ 2 * o.dMh2FOAtMap i }

/-- Self energies have dimension 4, the coefficients of the correction to the quartic coupling dimension 0. -/
noncomputable def HierOut.rescale (l : ℝ) (o : HierOut ℝ) : HierOut ℝ :=
  { o with s1 := l ^ 4 * o.s1, s2 := l ^ 4 * o.s2, s12 := l ^ 4 * o.s12 }

/-- The corrections to the squared Higgs mass have dimension 2. -/
noncomputable def Eft.rescale (l : ℝ) (e : Eft ℝ) : Eft ℝ :=
  ⟨l ^ 2 * e.loop0, fun a b => l ^ 2 * e.loop1 a b, fun a b => l ^ 2 * e.loop2 a b, fun a b c => l ^ 2 * e.loop3 a b c⟩

/-- The code called by the calculator does not depend on the units of mass; `K` are the hierarchies whose classes are asked. -/
structure UnitFree (E : Env ℝ) (p : Params ℝ) (l : ℝ) (b : Bool) (K : Int → Prop) : Prop where
  hier : ∀ (ho : HObj ℝ) (d : Depth) (L : Int) (m n : ℝ) (a a' : List ℝ), ho.isAlphab = b → K ho.hierarchy →
    calcMsfMDRFlag p ho L = .ok (m, n) → hierArgs p ho m n = some a → hierArgs (p.rescale l) ho (l * m) (l * n) = some a' →
    E.hier ho.hierarchy d a' ho.mdrFlag (loopFlagsOf L) = Except.map (HierOut.rescale l) (E.hier ho.hierarchy d a ho.mdrFlag (loopFlagsOf L))
  eig : ∀ M, E.smallestEig (Mat2.smul (l ^ 2) M) = l * E.smallestEig M
  atas : ∀ t g m n s c q mu tb v g3 : ℝ,
    E.atas [l ^ 2 * t, l * g, l ^ 2 * m, l ^ 2 * n, s, c, l ^ 2 * q, l * mu, tb, l ^ 2 * v, g3] =
      Except.map (fun r => (l ^ 2 * r.1, l ^ 2 * r.2.1, l ^ 2 * r.2.2)) (E.atas [t, g, m, n, s, c, q, mu, tb, v, g3])
  eftAs : ∀ q : Params ℝ, E.eftAs (q.rescale l) = Except.map (Eft.rescale l) (E.eftAs q)
  eftFull : ∀ q : Params ℝ, E.eftFull (q.rescale l) = Except.map (Eft.rescale l) (E.eftFull q)
  tc : ∀ q : Params ℝ, E.tc (q.rescale l) = E.tc q
  fo : ∀ (q : Params ℝ) (o : Bool), E.fo (q.rescale l) o = Except.map (fun r => (l ^ 2 * r.1, l ^ 2 * r.2.1, l ^ 2 * r.2.2)) (E.fo q o)
  diag : ∀ A B C D, E.diag (Mat2.smul (l ^ 2) A) (Mat2.smul (l ^ 2) B) (Mat2.smul (l ^ 2) C) (Mat2.smul (l ^ 2) D) =
    (l ^ 2 * (E.diag A B C D).1, l ^ 2 * (E.diag A B C D).2.1, l ^ 2 * (E.diag A B C D).2.2.1, l ^ 2 * (E.diag A B C D).2.2.2)

/-- The quark mass and the squark masses in the schemes of the hierarchies `K` do not vanish. -/
structure Massive (p : Params ℝ) (b : Bool) (K : Int → Prop) : Prop where
  quark : (if b then p.Mb else p.Mt) ≠ 0
  light : ∀ (ho : HObj ℝ) (f g : Int) (m : ℝ), ho.isAlphab = b → K ho.hierarchy → (f = 0 ∨ f = 1) → (g = 0 ∨ g = 1) →
    shiftMst1ToMDR p ho f g = .ok m → m ≠ 0
  heavy : ∀ (ho : HObj ℝ) (f g : Int) (m : ℝ), ho.isAlphab = b → K ho.hierarchy → (f = 0 ∨ f = 1) → (g = 0 ∨ g = 1) →
    shiftMst2ToMDR p ho f g = .ok m → m ≠ 0

namespace Units

variable {l : ℝ}

/-- the state in other units -/
noncomputable def rSt (l : ℝ) (s : St ℝ) : St ℝ := ⟨s.depth, s.ho.rescale l⟩

theorem sameKey_rescale (o : HObj ℝ) : SameKey (o.rescale l) o := ⟨rfl, rfl, rfl⟩

/-- `m'` does in the new units what `m` does in the old ones, from the states with `G`, and both end with `G'`; the values satisfy `A`. -/
def Sim (l : ℝ) (G G' : HObj ℝ → Prop) {α α' : Type} (A : α → Prop) (m : CalcM ℝ α) (m' : CalcM ℝ α') (f : α → α') : Prop :=
  ∀ s, G s.ho → m' (rSt l s) = (Except.map f (m s).1, rSt l (m s).2) ∧ ∀ a, (m s).1 = .ok a → G' (m s).2.ho ∧ A a

theorem Sim.bind {G G' G'' : HObj ℝ → Prop} {α α' β β' : Type} {A : α → Prop} {B : β → Prop} {m : CalcM ℝ α} {m' : CalcM ℝ α'} {f : α → α'}
    {k : α → CalcM ℝ β} {k' : α' → CalcM ℝ β'} {g : β → β'} (h : Sim l G G' A m m' f) (hk : ∀ a, A a → Sim l G' G'' B (k a) (k' (f a)) g) :
    Sim l G G'' B (m >>= k) (m' >>= k') g := by
  intro s hs
  obtain ⟨h1, h2⟩ := h s hs
  rw [bind_run, bind_run, h1]
  rcases hm : m s with ⟨r, s1⟩
  rw [hm] at h2
  cases r with
  | error e => exact ⟨rfl, fun a ha => by cases ha⟩
  | ok a =>
    obtain ⟨g1, ga⟩ := h2 a rfl
    exact hk a ga s1 g1

theorem Sim.pure {G : HObj ℝ → Prop} {α α' : Type} {A : α → Prop} {f : α → α'} {a : α} {a' : α'} (h : a' = f a) (hA : A a) :
    Sim l G G A (Pure.pure a : CalcM ℝ α) (Pure.pure a') f := by
  subst h
  exact fun s hs => ⟨rfl, fun b hb => by cases hb; exact ⟨hs, hA⟩⟩

theorem Sim.lift {G : HObj ℝ → Prop} {α α' : Type} {f : α → α'} {e : Except String α} {e' : Except String α'} (h : e' = Except.map f e) :
    Sim l G G (fun a => e = .ok a) (CalcM.lift e : CalcM ℝ α) (CalcM.lift e') f := by
  subst h
  exact fun s hs => ⟨rfl, fun b hb => ⟨hs, hb⟩⟩

theorem Sim.getHo {G : HObj ℝ → Prop} : Sim l G G G (CalcM.getHo : CalcM ℝ _) CalcM.getHo (HObj.rescale l) :=
  fun s hs => ⟨rfl, fun b hb => by cases hb; exact ⟨hs, hs⟩⟩

theorem Sim.modHo {G G' : HObj ℝ → Prop} {g g' : HObj ℝ → HObj ℝ} (h : ∀ o, g' (o.rescale l) = (g o).rescale l) (hG : ∀ o, G o → G' (g o)) :
    Sim l G G' (fun _ => True) (CalcM.modHo g) (CalcM.modHo g') id :=
  fun s hs => ⟨by show ((Except.ok (), (⟨s.depth, g' (s.ho.rescale l)⟩ : St ℝ)) : Except String Unit × St ℝ) = _; rw [h]; rfl, fun b hb => ⟨hG _ hs, trivial⟩⟩

theorem Sim.modHoE {G G' : HObj ℝ → Prop} {g g' : HObj ℝ → Except String (HObj ℝ)} (h : ∀ o, g' (o.rescale l) = Except.map (HObj.rescale l) (g o))
    (hG : ∀ o o', G o → g o = .ok o' → G' o') : Sim l G G' (fun _ => True) (CalcM.modHoE g) (CalcM.modHoE g') id := by
  intro s hs
  unfold CalcM.modHoE
  have e := h s.ho
  have e2 : (rSt l s).ho = s.ho.rescale l := rfl
  rw [e2, e]
  cases hg : g s.ho with
  | error x => exact ⟨rfl, fun a ha => by cases ha⟩
  | ok x => exact ⟨rfl, fun a ha => ⟨hG _ _ hs hg, trivial⟩⟩

theorem Sim.whenM {G : HObj ℝ → Prop} {c : Bool} {m m' : CalcM ℝ Unit} (h : Sim l G G (fun _ => True) m m' id) :
    Sim l G G (fun _ => True) (CalcM.whenM c m) (CalcM.whenM c m') id := by
  cases c
  · exact Sim.pure rfl trivial
  · exact h

theorem Sim.weaken {G G' G1 G1' : HObj ℝ → Prop} {α α' : Type} {A A1 : α → Prop} {m : CalcM ℝ α} {m' : CalcM ℝ α'} {f : α → α'}
    (h : Sim l G G' A m m' f) (h1 : ∀ o, G1 o → G o) (h2 : ∀ o, G' o → G1' o) (h3 : ∀ a, A a → A1 a) : Sim l G1 G1' A1 m m' f :=
  fun s hs => ⟨(h s (h1 _ hs)).1, fun a ha => ⟨h2 _ ((h s (h1 _ hs)).2 a ha).1, h3 _ ((h s (h1 _ hs)).2 a ha).2⟩⟩

theorem Sim.tempSet {G G' : HObj ℝ → Prop} {α α' : Type} {A : α → Prop} {m : CalcM ℝ α} {m' : CalcM ℝ α'} {f : α → α'} (i : DepthIdx) (v : Int)
    (h : Sim l G G' A m m' f) : Sim l G G' A (CalcM.tempSet i v m) (CalcM.tempSet i v m') f := by
  intro s hs
  obtain ⟨h1, h2⟩ := h { s with depth := setIdx s.depth i v } hs
  unfold CalcM.tempSet
  have e : ({ rSt l s with depth := setIdx (rSt l s).depth i v } : St ℝ) = rSt l { s with depth := setIdx s.depth i v } := rfl
  rw [e, h1]
  rcases hm : m { s with depth := setIdx s.depth i v } with ⟨r, s1⟩
  rw [hm] at h2
  exact ⟨rfl, h2⟩

theorem Sim.localHo {G0 G G' : HObj ℝ → Prop} {α α' : Type} {A : α → Prop} {m : CalcM ℝ α} {m' : CalcM ℝ α'} {f : α → α'} {h0 h0' : HObj ℝ}
    (h : Sim l G G' A m m' f) (e : h0' = h0.rescale l) (hG : G h0) : Sim l G0 G0 A (CalcM.localHo h0 m) (CalcM.localHo h0' m') f := by
  subst e
  intro s hs
  obtain ⟨h1, h2⟩ := h { s with ho := h0 } hG
  unfold CalcM.localHo
  have e : ({ rSt l s with ho := h0.rescale l } : St ℝ) = rSt l { s with ho := h0 } := rfl
  rw [e, h1]
  rcases hm : m { s with ho := h0 } with ⟨r, s1⟩
  rw [hm] at h2
  exact ⟨rfl, fun a ha => ⟨hs, (h2 a ha).2⟩⟩

/-! ### the pure pieces -/

theorem smul_add (k : ℝ) (A B : Mat2 ℝ) : Mat2.smul k A + Mat2.smul k B = Mat2.smul k (A + B) := by
  show (⟨_, _, _, _⟩ : Mat2 ℝ) = ⟨_, _, _, _⟩
  simp only [Mat2.smul, Mat2.mk.injEq]
  exact ⟨(mul_add _ _ _).symm, (mul_add _ _ _).symm, (mul_add _ _ _).symm, (mul_add _ _ _).symm⟩
theorem smul_sub (k : ℝ) (A B : Mat2 ℝ) : Mat2.smul k A - Mat2.smul k B = Mat2.smul k (A - B) := by
  show (⟨_, _, _, _⟩ : Mat2 ℝ) = ⟨_, _, _, _⟩
  simp only [Mat2.smul, Mat2.mk.injEq]
  exact ⟨(mul_sub _ _ _).symm, (mul_sub _ _ _).symm, (mul_sub _ _ _).symm, (mul_sub _ _ _).symm⟩
theorem smul_neg (k : ℝ) (A : Mat2 ℝ) : -Mat2.smul k A = Mat2.smul k (-A) := by
  show (⟨_, _, _, _⟩ : Mat2 ℝ) = ⟨_, _, _, _⟩
  simp only [Mat2.smul, Mat2.mk.injEq]
  exact ⟨(mul_neg _ _).symm, (mul_neg _ _).symm, (mul_neg _ _).symm, (mul_neg _ _).symm⟩

/-- the result object describes the sector `b`, with a hierarchy of `K` and an admissible scheme -/
structure Good (b : Bool) (K : Int → Prop) (o : HObj ℝ) : Prop where
  alphab : o.isAlphab = b
  mdr : o.mdrFlag = 0 ∨ o.mdrFlag = 1
  key : K o.hierarchy

variable (hl : 0 < l) {E : Env ℝ} {p : Params ℝ} {b : Bool} {K : Int → Prop} (H : UnitFree E p l b K) (M : Massive p b K)
include hl

theorem s_msf (ho : HObj ℝ) (L : Int) : calcMsfMDRFlag (p.rescale l) ho L = Except.map (fun m => (l * m.1, l * m.2)) (calcMsfMDRFlag p ho L) := by
  unfold calcMsfMDRFlag
  simp only [C77_mst1 hl, C77_mst2 hl]
  split_ifs
  · cases shiftMst1ToMDR p ho 0 0 <;> cases shiftMst2ToMDR p ho 0 0 <;> rfl
  · cases shiftMst1ToMDR p ho ho.getMDRFlag 0 <;> cases shiftMst2ToMDR p ho ho.getMDRFlag 0 <;> rfl
  · cases shiftMst1ToMDR p ho ho.getMDRFlag ho.getMDRFlag <;> cases shiftMst2ToMDR p ho ho.getMDRFlag ho.getMDRFlag <;> rfl
  · rfl

omit hl in
theorem hierArgs_isSome (p q : Params ℝ) (ho : HObj ℝ) (a b c d : ℝ) : (hierArgs p ho a b).isSome = (hierArgs q ho c d).isSome := by
  unfold hierArgs
  dsimp only
  generalize ho.getSuitableHierarchy = k
  split <;> rfl

include H
theorem s_loopOut (ho : HObj ℝ) (hg : Good b K ho) (d : Depth) (L : Int) :
    loopOut E (p.rescale l) d ho L = Except.map (fun r => (r.1.rescale l, l * r.2)) (loopOut E p d ho L) := by
  unfold loopOut
  rw [s_msf hl]
  cases hm : calcMsfMDRFlag p ho L with
  | error e => rfl
  | ok m =>
    dsimp only [Except.map]
    have hs := hierArgs_isSome p (p.rescale l) ho m.1 m.2 (l * m.1) (l * m.2)
    cases ha : hierArgs p ho m.1 m.2 with
    | none =>
      rw [ha] at hs
      cases ha' : hierArgs (p.rescale l) ho (l * m.1) (l * m.2) with
      | none => rfl
      | some a' => rw [ha'] at hs; cases hs
    | some a =>
      rw [ha] at hs
      cases ha' : hierArgs (p.rescale l) ho (l * m.1) (l * m.2) with
      | none => rw [ha'] at hs; cases hs
      | some a' =>
        dsimp only
        have := H.hier ho d L m.1 m.2 a a' hg.alphab hg.key hm ha ha'
        unfold HObj.getSuitableHierarchy HObj.getMDRFlag
        rw [this]
        cases E.hier ho.hierarchy d a ho.mdrFlag (loopFlagsOf L) <;> rfl

theorem s_pureStep (ho : HObj ℝ) (hg : Good b K ho) (d : Depth) (run : Bool) (L : Int) (acc acc' : SE ℝ)
    (ha : acc' = (l ^ 4 * acc.1, l ^ 4 * acc.2.1, l ^ 4 * acc.2.2)) :
    pureStep E (p.rescale l) d ho run L acc' = Except.map (fun a => (l ^ 4 * a.1, l ^ 4 * a.2.1, l ^ 4 * a.2.2)) (pureStep E p d ho run L acc) := by
  subst ha
  unfold pureStep
  cases run
  · rfl
  · simp only [if_true]
    rw [s_loopOut hl H ho hg]
    cases loopOut E p d ho L with
    | error e => rfl
    | ok r =>
      dsimp only [Except.map, HierOut.rescale]
      simp only [mul_add]

theorem s_pureHier (ho : HObj ℝ) (hg : Good b K ho) (d : Depth) (f1 f2 f3 : Int) :
    pureHier E (p.rescale l) d ho f1 f2 f3 = Except.map (Mat2.smul (l ^ 2)) (pureHier E p d ho f1 f2 f3) := by
  unfold pureHier
  have z : (@OfNat.ofNat ℝ 0 (FOps.instOfNat 0)) = 0 := by simp [real_ofNat]
  rw [z, s_pureStep hl H ho hg d _ 1 (0, 0, 0) (0, 0, 0) (by simp)]
  cases pureStep E p d ho (decide (f1 ≠ 0)) 1 (0, 0, 0) with
  | error e => rfl
  | ok a =>
    dsimp only [Except.map]
    rw [s_pureStep hl H ho hg d _ 2 a _ rfl]
    cases pureStep E p d ho (decide (f2 ≠ 0)) 2 a with
    | error e => rfl
    | ok a =>
      dsimp only [Except.map]
      rw [s_pureStep hl H ho hg d _ 3 a _ rfl]
      cases pureStep E p d ho (decide (f3 ≠ 0)) 3 a with
      | error e => rfl
      | ok a =>
        dsimp only [Except.map]
        rw [u_pre hl]
        simp only [Mat2.smul, Except.ok.injEq, Mat2.mk.injEq]
        have e : ∀ x y : ℝ, x / l ^ 2 * (l ^ 4 * y) = l ^ 2 * (x * y) := fun x y => by
          have := hl.ne'
          field_simp
        simp only [e, and_self]

theorem s_pureMh (ho : HObj ℝ) (hg : Good b K ho) (d : Depth) (Q : Mat2 ℝ) (f1 f2 f3 : Int) :
    pureMh E (p.rescale l) d ho (Mat2.smul (l ^ 2) Q) f1 f2 f3 = Except.map (l * ·) (pureMh E p d ho Q f1 f2 f3) := by
  unfold pureMh
  rw [s_pureHier hl H ho hg]
  cases pureHier E p d ho f1 f2 f3 with
  | error e => rfl
  | ok m =>
    dsimp only [Except.map]
    rw [smul_add, H.eig]

theorem s_pureSum (ho : HObj ℝ) (hg : Good b K ho) (d : Depth) (Q : Mat2 ℝ) (f1 f2 f3 : Int) (Mh : ℝ) (is : List DepthIdx) : ∀ acc : ℝ,
    pureSum E (p.rescale l) d ho (Mat2.smul (l ^ 2) Q) f1 f2 f3 (l * Mh) is (l ^ 2 * acc) = Except.map (l ^ 2 * ·) (pureSum E p d ho Q f1 f2 f3 Mh is acc) := by
  induction is with
  | nil => intro acc; rfl
  | cons i is ih =>
    intro acc
    unfold pureSum
    rw [s_pureMh hl H ho hg]
    cases pureMh E p (setIdx d i 0) ho Q f1 f2 f3 with
    | error e => rfl
    | ok m =>
      refine Eq.trans ?_ (ih (acc + pow2 (Mh - m)))
      show pureSum E (p.rescale l) d ho (Mat2.smul (l ^ 2) Q) f1 f2 f3 (l * Mh) is (l ^ 2 * acc + pow2 (l * Mh - l * m)) = _
      congr 1
      simp only [pow2, Misc.pow2]; ring

theorem s_pureUnc (ho : HObj ℝ) (hg : Good b K ho) (d : Depth) (Q : Mat2 ℝ) (f1 f2 f3 : Int) :
    pureUnc E (p.rescale l) d ho (Mat2.smul (l ^ 2) Q) f1 f2 f3 = Except.map (l * ·) (pureUnc E p d ho Q f1 f2 f3) := by
  unfold pureUnc
  rw [s_pureMh hl H ho hg]
  cases pureMh E p (uncDepth d) ho Q f1 f2 f3 with
  | error e => rfl
  | ok Mh =>
    dsimp only [Except.map]
    cases getMotherHierarchy ho.hierarchy with
    | error e => rfl
    | ok m =>
      dsimp only
      have := s_pureSum hl H ho hg (uncDepth d) Q f1 f2 f3 Mh (truncationFlags m) 0
      rw [mul_zero] at this
      have z : (@OfNat.ofNat ℝ 0 (FOps.instOfNat 0)) = 0 := by simp [real_ofNat]
      rw [z, this]
      cases pureSum E p (uncDepth d) ho Q f1 f2 f3 Mh (truncationFlags m) 0 with
      | error e => rfl
      | ok u => exact congrArg Except.ok (r_sqrt hl u)

/-! ### the member functions -/

omit H hl in
theorem Good.of_sameKey {a c : HObj ℝ} (h : SameKey a c) (g : Good b K c) : Good b K a :=
  ⟨h.alphab.trans g.alphab, by rw [h.mdr]; exact g.mdr, by rw [h.hierarchy]; exact g.key⟩

omit H in
theorem s_setMDRMasses (o : HObj ℝ) (v : Vec2 ℝ) : (o.rescale l).setMDRMasses ⟨l * v.x0, l * v.x1⟩ = (o.setMDRMasses v).rescale l := by
  unfold HObj.setMDRMasses HObj.sortVector
  dsimp only
  rw [u_lt hl]
  split_ifs <;> rfl

omit H in
theorem s_dlambda (o : HObj ℝ) (out : HierOut ℝ) (x : ℝ) : calcDlambda (o.rescale l) (out.rescale l) x = (calcDlambda o out x).rescale l := rfl

theorem s_calcH (f1 f2 f3 : Int) : Sim l (Good b K) (Good b K) (fun _ => True) (calculateHierarchy E p f1 f2 f3)
    (calculateHierarchy E (p.rescale l) f1 f2 f3) (Mat2.smul (l ^ 2)) := by
  intro s hs
  refine ⟨?_, fun a ha => ⟨Good.of_sameKey (calculateHierarchy_key E p f1 f2 f3 s) hs, trivial⟩⟩
  by_cases h : f1 = 0 ∧ f2 = 0 ∧ f3 = 1
  · obtain ⟨rfl, rfl, rfl⟩ := h
    rw [calculateHierarchy_3, calculateHierarchy_3]
    have e1 : loopOut E (p.rescale l) (rSt l s).depth (rSt l s).ho 3 = loopOut E (p.rescale l) s.depth s.ho 3 := loopOut_congr E (sameKey_rescale _) _ _
    have e2 : pureHier E (p.rescale l) (rSt l s).depth (rSt l s).ho 0 0 1 = pureHier E (p.rescale l) s.depth s.ho 0 0 1 :=
      pureHier_congr E (sameKey_rescale _) _ _ _ _
    have e3 : calcMsfMDRFlag (p.rescale l) (rSt l s).ho 3 = calcMsfMDRFlag (p.rescale l) s.ho 3 := calcMsf_congr (sameKey_rescale _) _
    rw [e1, e2, e3, s_loopOut hl H _ hs, s_pureHier hl H _ hs, s_msf hl]
    cases loopOut E p s.depth s.ho 3 with
    | error e => rfl
    | ok r =>
      dsimp only [Except.map]
      cases calcMsfMDRFlag p s.ho 3 with
      | error e => rfl
      | ok m =>
        dsimp only
        refine congrArg (Prod.mk _) ?_
        have hlog : FOps.log (pow2 ((p.rescale l).scale / (l * r.2))) = FOps.log (pow2 (p.scale / r.2)) := u_scale hl p r.2
        rw [hlog]
        show (⟨s.depth, (calcDlambda (s.ho.rescale l) (r.1.rescale l) _).setMDRMasses _⟩ : St ℝ) = ⟨s.depth, _⟩
        rw [s_dlambda hl, s_setMDRMasses hl _ ⟨m.1, m.2⟩]
  · rw [calculateHierarchy_no3 E _ f1 f2 f3 h, calculateHierarchy_no3 E _ f1 f2 f3 h]
    have e2 : pureHier E (p.rescale l) (rSt l s).depth (rSt l s).ho f1 f2 f3 = pureHier E (p.rescale l) s.depth s.ho f1 f2 f3 :=
      pureHier_congr E (sameKey_rescale _) _ _ _ _
    rw [e2, s_pureHier hl H _ hs]

theorem s_unc (Q : Mat2 ℝ) (f1 f2 f3 : Int) : Sim l (Good b K) (Good b K) (fun _ => True) (getExpansionUncertainty E p Q f1 f2 f3)
    (getExpansionUncertainty E (p.rescale l) (Mat2.smul (l ^ 2) Q) f1 f2 f3) (l * ·) := by
  intro s hs
  rw [getExpansionUncertainty_run, getExpansionUncertainty_run]
  have e : pureUnc E (p.rescale l) (rSt l s).depth (rSt l s).ho (Mat2.smul (l ^ 2) Q) f1 f2 f3 =
      pureUnc E (p.rescale l) s.depth (s.ho.rescale l) (Mat2.smul (l ^ 2) Q) f1 f2 f3 := rfl
  have g : Good b K (s.ho.rescale l) := Good.of_sameKey (sameKey_rescale _) hs
  rw [e, s_pureUnc hl H _ g]
  have e2 : pureUnc E p s.depth (s.ho.rescale l) Q f1 f2 f3 = pureUnc E p s.depth s.ho Q f1 f2 f3 := pureUnc_congr (sameKey_rescale _) _ _ _ _ _
  rw [e2]
  exact ⟨rfl, fun a ha => ⟨hs, trivial⟩⟩

include M
omit H in
theorem s_mt41 (ho : HObj ℝ) (hg : Good b K ho) (f g : Int) (hf : f = 0 ∨ f = 1) (hgg : g = 0 ∨ g = 1) :
    getMt41L (p.rescale l) (ho.rescale l) f g = Except.map (Mat2.smul (l ^ 2)) (getMt41L p ho f g) := by
  rw [mt41_congr (sameKey_rescale _)]
  cases h1 : shiftMst1ToMDR p ho f g with
  | error e =>
    unfold getMt41L
    rw [C77_mst1 hl, h1]; rfl
  | ok m =>
    cases h2 : shiftMst2ToMDR p ho f g with
    | error e =>
      unfold getMt41L
      rw [C77_mst1 hl, C77_mst2 hl, h1, h2]; rfl
    | ok n =>
      refine C77_one_loop hl p ho f g h1 h2 (M.light ho f g m hg.alphab hg.key hf hgg h1) (M.heavy ho f g n hg.alphab hg.key hf hgg h2) ?_
      unfold HObj.getIsAlphab; rw [hg.alphab]; exact M.quark

omit M
include H
theorem s_mt42 (ho : HObj ℝ) (f g : Int) :
    getMt42L E (p.rescale l) (ho.rescale l) f g = Except.map (Mat2.smul (l ^ 2)) (getMt42L E p ho f g) := by
  rw [mt42_congr E (sameKey_rescale _)]
  unfold getMt42L
  rw [C77_mst1 hl, C77_mst2 hl]
  cases shiftMst1ToMDR p ho f g with
  | error e => rfl
  | ok m =>
  cases shiftMst2ToMDR p ho f g with
  | error e => rfl
  | ok n =>
  dsimp only [Except.map, Bind.bind, Except.bind, Pure.pure, Except.pure]
  have hq : (if ho.getIsAlphab then pow2 (p.rescale l).Mb else pow2 (p.rescale l).Mt) = l ^ 2 * (if ho.getIsAlphab then pow2 p.Mb else pow2 p.Mt) := by
    cases ho.getIsAlphab
    · exact r_pow2 hl _
    · exact r_pow2 hl _
  have hs : (if ho.getIsAlphab then (p.rescale l).theta_b else (p.rescale l).theta_t) = (if ho.getIsAlphab then p.theta_b else p.theta_t) := rfl
  have hg : (p.rescale l).g3 = p.g3 := rfl
  rw [hq, hs, r_mu, r_MG, r_scale, hg, u_tanF hl, u_v2F hl, r_pow2 hl, r_pow2 hl, r_pow2 hl, ← mul_neg]
  unfold deltaMh2AtAs
  rw [H.atas]
  cases E.atas [(if ho.getIsAlphab then pow2 p.Mb else pow2 p.Mt), p.MG, pow2 m, pow2 n, FOps.sin (if ho.getIsAlphab then p.theta_b else p.theta_t),
    FOps.cos (if ho.getIsAlphab then p.theta_b else p.theta_t), pow2 p.scale, -p.mu, calcTanBeta p, calcV2 p, p.g3] with
  | error e => rfl
  | ok r =>
    dsimp only [Except.map, Bind.bind, Except.bind, Pure.pure, Except.pure]
    rw [← smul_add]
    have z : (@OfNat.ofNat ℝ 0 (FOps.instOfNat 0)) = 0 := by simp [real_ofNat]
    have : rotateBy (@OfNat.ofNat ℝ 0 (FOps.instOfNat 0)) (calcTanBeta p) = Mat2.smul (l ^ 2) (rotateBy (@OfNat.ofNat ℝ 0 (FOps.instOfNat 0)) (calcTanBeta p)) := by
      unfold rotateBy Mat2.smul
      simp only [z, zero_mul, mul_zero, neg_zero]
    conv_lhs => rw [this]
    rfl

/-! ### the setters -/

omit H hl in
theorem s_arrSet {α : Type} (f : α → α) (a : Fin 4 → α) (i : Int) (v : α) :
    HObj.arrSet (fun j => f (a j)) i (f v) = Except.map (fun b j => f (b j)) (HObj.arrSet a i v) := by
  unfold HObj.arrSet
  split_ifs
  · refine congrArg Except.ok (funext fun j => ?_)
    dsimp only
    split_ifs <;> rfl
  · rfl

/-- a setter of an array -/
macro "setter" u:ident "," f:term : tactic => `(tactic| (
  unfold $u
  split_ifs
  · refine Eq.trans (congrArg (Except.map _) (s_arrSet $f _ _ _)) ?_
    cases HObj.arrSet _ _ _ <;> rfl
  · rfl))
/-- a setter of an array does not touch the key -/
macro "setterKey" u:ident h:ident : tactic => `(tactic| (
  unfold $u at $h:ident
  split_ifs at $h:ident
  revert $h:ident
  cases HObj.arrSet _ _ _ with
  | error e => intro h; cases h
  | ok a => intro h; cases h; exact ⟨rfl, rfl, rfl⟩))

omit H hl in
theorem s_setDMh (i : Int) (Q : Mat2 ℝ) (o : HObj ℝ) : (o.rescale l).setDMh i (Mat2.smul (l ^ 2) Q) = Except.map (HObj.rescale l) (o.setDMh i Q) := by
  setter HObj.setDMh, (Mat2.smul (l ^ 2))
omit H hl in
theorem s_setDMh2 (i : Int) (x : ℝ) (o : HObj ℝ) : (o.rescale l).setDMh2 i (l ^ 2 * x) = Except.map (HObj.rescale l) (o.setDMh2 i x) := by
  setter HObj.setDMh2, (l ^ 2 * ·)
omit H hl in
theorem s_setFO (i : Int) (x : ℝ) (o : HObj ℝ) : (o.rescale l).setDMh2FO i (l ^ 2 * x) = Except.map (HObj.rescale l) (o.setDMh2FO i x) := by
  setter HObj.setDMh2FO, (l ^ 2 * ·)
omit H hl in
theorem s_setFOAt (i : Int) (x : ℝ) (o : HObj ℝ) : (o.rescale l).setDMh2FOAt i (l ^ 2 * x) = Except.map (HObj.rescale l) (o.setDMh2FOAt i x) := by
  setter HObj.setDMh2FOAt, (l ^ 2 * ·)
omit H hl in
theorem s_setEFT (i : Int) (x : ℝ) (o : HObj ℝ) : (o.rescale l).setDMh2EFT i (l ^ 2 * x) = Except.map (HObj.rescale l) (o.setDMh2EFT i x) := by
  setter HObj.setDMh2EFT, (l ^ 2 * ·)
omit H hl in
theorem s_setUnc (i : Int) (x : ℝ) (o : HObj ℝ) : (o.rescale l).setDMhExpUncertainty i (l * x) = Except.map (HObj.rescale l) (o.setDMhExpUncertainty i x) := by
  setter HObj.setDMhExpUncertainty, (l * ·)
omit H hl in
theorem s_setDLambda (i : Int) (x : ℝ) (o : HObj ℝ) : (o.rescale l).setDLambda i x = Except.map (HObj.rescale l) (o.setDLambda i x) := by
  unfold HObj.setDLambda
  have e : (o.rescale l).dLambdaMap = o.dLambdaMap := rfl
  rw [e]
  split_ifs
  · cases HObj.arrSet o.dLambdaMap i x <;> rfl
  · rfl
omit H hl in
theorem s_setDLambdaShift (i : Int) (x : ℝ) (o : HObj ℝ) : (o.rescale l).setDLambdaShift i x = Except.map (HObj.rescale l) (o.setDLambdaShift i x) := by
  unfold HObj.setDLambdaShift
  have e : (o.rescale l).dLambdaDRbarPrimeToMSbarShiftMap = o.dLambdaDRbarPrimeToMSbarShiftMap := rfl
  rw [e]
  split_ifs
  · cases HObj.arrSet o.dLambdaDRbarPrimeToMSbarShiftMap i x <;> rfl
  · rfl
omit H hl in
theorem s_setMDRFlag (i : Int) (o : HObj ℝ) : (o.rescale l).setMDRFlag i = Except.map (HObj.rescale l) (o.setMDRFlag i) := by
  unfold HObj.setMDRFlag; split_ifs <;> rfl

omit H hl in
theorem k_setDMh {i : Int} {Q : Mat2 ℝ} {o o' : HObj ℝ} (h : o.setDMh i Q = .ok o') : SameKey o' o := by setterKey HObj.setDMh h
omit H hl in
theorem k_setDMh2 {i : Int} {x : ℝ} {o o' : HObj ℝ} (h : o.setDMh2 i x = .ok o') : SameKey o' o := by setterKey HObj.setDMh2 h
omit H hl in
theorem k_setFO {i : Int} {x : ℝ} {o o' : HObj ℝ} (h : o.setDMh2FO i x = .ok o') : SameKey o' o := by setterKey HObj.setDMh2FO h
omit H hl in
theorem k_setFOAt {i : Int} {x : ℝ} {o o' : HObj ℝ} (h : o.setDMh2FOAt i x = .ok o') : SameKey o' o := by setterKey HObj.setDMh2FOAt h
omit H hl in
theorem k_setEFT {i : Int} {x : ℝ} {o o' : HObj ℝ} (h : o.setDMh2EFT i x = .ok o') : SameKey o' o := by setterKey HObj.setDMh2EFT h
omit H hl in
theorem k_setUnc {i : Int} {x : ℝ} {o o' : HObj ℝ} (h : o.setDMhExpUncertainty i x = .ok o') : SameKey o' o := by setterKey HObj.setDMhExpUncertainty h
omit H hl in
theorem k_setDLambda {i : Int} {x : ℝ} {o o' : HObj ℝ} (h : o.setDLambda i x = .ok o') : SameKey o' o := by setterKey HObj.setDLambda h
omit H hl in
theorem k_setDLambdaShift {i : Int} {x : ℝ} {o o' : HObj ℝ} (h : o.setDLambdaShift i x = .ok o') : SameKey o' o := by setterKey HObj.setDLambdaShift h

omit H hl in
theorem s_getDMh (i : Int) (o : HObj ℝ) : (o.rescale l).getDMh i = Except.map (Mat2.smul (l ^ 2)) (o.getDMh i) := by
  unfold HObj.getDMh HObj.arrGet
  split_ifs <;> rfl

omit H hl in
/-- `modHo` with a function that does not touch the key -/
theorem Sim.mod {g g' : HObj ℝ → HObj ℝ} (h : ∀ o, g' (o.rescale l) = (g o).rescale l) (hk : ∀ o, SameKey (g o) o) :
    Sim l (Good b K) (Good b K) (fun _ => True) (CalcM.modHo g) (CalcM.modHo g') id :=
  Sim.modHo h fun o ho => Good.of_sameKey (hk o) ho
omit H hl in
/-- `modHoE` with a function that does not touch the key -/
theorem Sim.modE {g g' : HObj ℝ → Except String (HObj ℝ)} (h : ∀ o, g' (o.rescale l) = Except.map (HObj.rescale l) (g o))
    (hk : ∀ o o', g o = .ok o' → SameKey o' o) :
    Sim l (Good b K) (Good b K) (fun _ => True) (CalcM.modHoE g) (CalcM.modHoE g') id :=
  Sim.modHoE h fun o o' ho he => Good.of_sameKey (hk o o' he) ho

omit H in
theorem s_pMassES (p : Params ℝ) : pMassES (p.rescale l) = (pMassES p).rescale l := by
  have h0 : ∀ x : ℝ, pow2 (l * x) = l ^ 2 * pow2 x := r_pow2 hl
  have e : ∀ (m : Mat3 ℝ) (x : ℝ), Mat3.set22 (fun i j => l ^ 2 * m i j) (l ^ 2 * x) = fun i j => l ^ 2 * Mat3.set22 m x i j := by
    intro m x
    funext i j
    unfold Mat3.set22
    split_ifs <;> rfl
  unfold pMassES
  dsimp only [Params.rescale]
  rw [h0, h0, e, e]

theorem s_lambda3 (o : Bool) : Sim l (Good b K) (Good b K) (fun _ => True) (calcDeltaLambda3L E p o) (calcDeltaLambda3L E (p.rescale l) o) id := by
  have hv : ∀ x : ℝ, (l ^ 2 * x) / calcV2 (p.rescale l) = x / calcV2 p := fun x => by rw [u_v2F hl, r_div2 hl]
  unfold calcDeltaLambda3L
  refine Sim.bind Sim.getHo fun ho hho => ?_
  have e1 : (ho.rescale l).getSuitableHierarchy = ho.getSuitableHierarchy := rfl
  have hm : (p.rescale l).Mt = l * p.Mt := rfl
  have hg : (p.rescale l).g3 = p.g3 := rfl
  have hp : FOps.const .threeLoop * ((@OfNat.ofNat ℝ 2 (FOps.instOfNat 2)) * pow2 (p.rescale l).Mt / calcV2 (p.rescale l)) * pow2 ((p.rescale l).Mt * pow2 (p.rescale l).g3) =
      l ^ 2 * (FOps.const .threeLoop * ((@OfNat.ofNat ℝ 2 (FOps.instOfNat 2)) * pow2 p.Mt / calcV2 p) * pow2 (p.Mt * pow2 p.g3)) := by
    rw [hm, hg, r_pow2 hl, mul_left_comm, hv]
    simp only [pow2, Misc.pow2]; ring
  refine Sim.bind (Sim.lift (f := Eft.rescale l) (by rw [s_pMassES hl, H.eftAs])) fun eft _ => ?_
  refine Sim.bind (Sim.lift (f := id) (by rw [s_pMassES hl, H.tc]; cases E.tc (pMassES p) <;> rfl)) fun tc _ => ?_
  have h3 : ∀ n, shiftH3mToDRbarPrimeMh2 (p.rescale l) (ho.rescale l) n = shiftH3mToDRbarPrimeMh2 p ho n := fun n => by
    rw [C77_h3m_shift_mh2 hl]; rfl
  dsimp only [id]
  rw [e1, hp]
  simp only [h3]
  generalize FOps.const .threeLoop * ((@OfNat.ofNat ℝ 2 (FOps.instOfNat 2)) * pow2 p.Mt / calcV2 p) * pow2 (p.Mt * pow2 p.g3) = pref
  have f0 : ∀ a b c, (eft.rescale l).loop3 a b c = l ^ 2 * eft.loop3 a b c := fun _ _ _ => rfl
  have g1 : (ho.rescale l).getDLambdaNonLog = ho.getDLambdaNonLog := rfl
  have g2 : (ho.rescale l).getDLambdaH3m = ho.getDLambdaH3m := rfl
  rw [g1, g2]
  have hv' : ∀ c x : ℝ, c * (l ^ 2 * x) / calcV2 (p.rescale l) = c * x / calcV2 p := fun c x => by rw [mul_left_comm, hv]
  simp only [f0, mul_assoc, ← mul_sub, ← mul_add, hv, hv']
  refine Sim.bind (Sim.mod (fun _ => rfl) (fun _ => ⟨rfl, rfl, rfl⟩)) fun _ _ => ?_
  refine Sim.bind (Sim.mod (fun _ => rfl) (fun _ => ⟨rfl, rfl, rfl⟩)) fun _ _ => ?_
  refine Sim.bind (Sim.mod (fun _ => rfl) (fun _ => ⟨rfl, rfl, rfl⟩)) fun _ _ => ?_
  refine Sim.bind (Sim.modE (s_setDLambdaShift _ _) (fun _ _ => k_setDLambdaShift)) fun _ _ => ?_
  refine Sim.bind (Sim.whenM (Sim.mod (fun _ => rfl) (fun _ => ⟨rfl, rfl, rfl⟩))) fun _ _ => ?_
  exact Sim.mod (fun _ => rfl) (fun _ => ⟨rfl, rfl, rfl⟩)

include M

/-- the numbers of a candidate in other units -/
noncomputable def rCand (l : ℝ) (c : Cand ℝ) : Cand ℝ := ⟨l * c.twoLoopError, c.relError, l * c.unc2, l * c.unc3, c.currError⟩

theorem s_eval : Sim l (Good b K) (Good b K) (fun _ => True) (evalCandidate E p) (evalCandidate E (p.rescale l)) (rCand l) := by
  unfold evalCandidate
  refine Sim.bind Sim.getHo fun ho hho => ?_
  refine Sim.bind (Sim.lift (f := Mat2.smul (l ^ 2)) (s_mt41 hl M ho hho _ _ hho.mdr (Or.inl rfl))) fun m1 _ => ?_
  refine Sim.bind (Sim.lift (f := Mat2.smul (l ^ 2)) (s_mt42 hl H ho _ _)) fun m2 _ => ?_
  refine Sim.bind (s_calcH hl H 0 1 0) fun m _ => ?_
  rw [C77_tree_level hl]
  simp only [smul_add, H.eig, u_sub hl, u_abs hl]
  refine Sim.bind (s_unc hl H _ 0 1 0) fun u2 _ => ?_
  refine Sim.bind (s_unc hl H _ 0 0 1) fun u3 _ => ?_
  refine Sim.bind (s_lambda3 hl H true) fun _ _ => ?_
  refine Sim.pure ?_ trivial
  simp only [r_div hl]
  rfl

/-- any hierarchy -/
abbrev anyKey : Int → Prop := fun _ => True

variable (hK : ∀ ho : HObj ℝ, ho.isAlphab = b → isHierarchySuitable p ho = true → K ho.hierarchy)
include hK

theorem s_selectBody (k : Int) (acc : Sel ℝ) (ha : K acc.2 ∨ acc.2 = -1) :
    Sim l (Good b anyKey) (Good b anyKey) (fun a => K a.2 ∨ a.2 = -1) (selectBody E p k acc) (selectBody E (p.rescale l) k acc) id := by
  intro s hs
  unfold selectBody
  rw [bind_run, modHo_run, bind_run, modHo_run]
  dsimp only
  rw [bind_run, getHo_run, bind_run, getHo_run]
  dsimp only
  have e0 : ((rSt l s).ho.setSuitableHierarchy k) = (s.ho.setSuitableHierarchy k).rescale l := rfl
  have e1 : isHierarchySuitable (p.rescale l) ((s.ho.setSuitableHierarchy k).rescale l) = isHierarchySuitable p (s.ho.setSuitableHierarchy k) := by
    rw [C77_suitable hl, suitable_congr (sameKey_rescale _)]
  rw [e0, e1]
  have e2 : ({ rSt l s with ho := (s.ho.setSuitableHierarchy k).rescale l } : St ℝ) = rSt l { s with ho := s.ho.setSuitableHierarchy k } := rfl
  rw [e2]
  by_cases hsu : isHierarchySuitable p (s.ho.setSuitableHierarchy k) = true
  · rw [if_pos hsu, if_pos hsu]
    have hk : K k := hK (s.ho.setSuitableHierarchy k) hs.alphab hsu
    have g : Good b K (s.ho.setSuitableHierarchy k) := ⟨hs.alphab, hs.mdr, hk⟩
    refine (?_ : Sim l (Good b K) (Good b anyKey) (fun a : Sel ℝ => K a.2 ∨ a.2 = -1) _ _ id) { s with ho := s.ho.setSuitableHierarchy k } g
    refine Sim.bind (s_eval hl H M) fun c _ => ?_
    dsimp only [rCand]
    split_ifs
    · refine Sim.bind (Sim.mod (fun _ => rfl) (fun _ => ⟨rfl, rfl, rfl⟩)) fun _ _ => ?_
      refine Sim.bind (Sim.mod (fun _ => rfl) (fun _ => ⟨rfl, rfl, rfl⟩)) fun _ _ => ?_
      refine Sim.bind (Sim.modE (s_setUnc _ _) (fun _ _ => k_setUnc)) fun _ _ => ?_
      refine Sim.bind (Sim.modE (s_setUnc _ _) (fun _ _ => k_setUnc)) fun _ _ => ?_
      exact Sim.weaken (G := Good b K) (G' := Good b K) (A := fun a : Sel ℝ => K a.2 ∨ a.2 = -1) (Sim.pure rfl (Or.inl hk)) (fun _ h => h)
        (fun _ h => ⟨h.alphab, h.mdr, trivial⟩) (fun _ h => h)
    · exact Sim.weaken (G := Good b K) (G' := Good b K) (A := fun a : Sel ℝ => K a.2 ∨ a.2 = -1) (Sim.pure rfl ha) (fun _ h => h)
        (fun _ h => ⟨h.alphab, h.mdr, trivial⟩) (fun _ h => h)
  · rw [if_neg hsu, if_neg hsu]
    refine (?_ : Sim l (Good b anyKey) (Good b anyKey) (fun a : Sel ℝ => K a.2 ∨ a.2 = -1) _ _ id) { s with ho := s.ho.setSuitableHierarchy k } ⟨hs.alphab, hs.mdr, trivial⟩
    exact Sim.pure rfl ha

theorem s_selectLoop (ks : List Int) : ∀ acc : Sel ℝ, (K acc.2 ∨ acc.2 = -1) →
    Sim l (Good b anyKey) (Good b anyKey) (fun a => K a.2 ∨ a.2 = -1) (selectLoop E p ks acc) (selectLoop E (p.rescale l) ks acc) id := by
  induction ks with
  | nil => intro acc ha; exact Sim.pure rfl ha
  | cons k ks ih =>
    intro acc ha
    unfold selectLoop
    exact Sim.bind (s_selectBody hl H M hK k acc ha) fun a h => ih a h

theorem s_compare : Sim l (Good b anyKey) (Good b (fun k => K k ∨ k = -1)) (fun k => K k ∨ k = -1) (compareHierarchies E p)
    (compareHierarchies E (p.rescale l)) id := by
  unfold compareHierarchies
  refine Sim.tempSet _ _ (Sim.tempSet _ _ ?_)
  rw [C77_tree_level hl]
  refine Sim.bind (Sim.modE (s_setDMh _ _) (fun _ _ => k_setDMh)) fun _ _ => ?_
  refine Sim.bind (s_selectLoop hl H M hK _ _ (Or.inr rfl)) fun r hr => ?_
  refine Sim.bind (Sim.modHo (G' := Good b (fun k => K k ∨ k = -1)) (fun _ => rfl) (fun o ho => ⟨ho.alphab, ho.mdr, hr⟩)) fun _ _ => ?_
  exact Sim.pure rfl hr

omit hK
omit hl M in
theorem UnitFree.extend : UnitFree E p l b (fun k => K k ∨ k = -1) :=
  { H with
    hier := by
      intro ho d L m n a a' h1 h2 h3 h4 h5
      rcases h2 with h2 | h2
      · exact H.hier ho d L m n a a' h1 h2 h3 h4 h5
      · exfalso
        unfold hierArgs HObj.getSuitableHierarchy at h4
        rw [h2] at h4
        cases h4 }
omit hl H in
theorem Massive.extend : Massive p b (fun k => K k ∨ k = -1) where
  quark := M.quark
  light := by
    intro ho f g m h1 h2 h3 h4 h5
    rcases h2 with h2 | h2
    · exact M.light ho f g m h1 h2 h3 h4 h5
    · exfalso
      unfold shiftMst1ToMDR HObj.getSuitableHierarchy at h5
      rw [h2] at h5
      cases h5
  heavy := by
    intro ho f g m h1 h2 h3 h4 h5
    rcases h2 with h2 | h2
    · exact M.heavy ho f g m h1 h2 h3 h4 h5
    · exfalso
      unfold shiftMst2ToMDR HObj.getSuitableHierarchy at h5
      rw [h2] at h5
      cases h5

omit H M in
theorem s_h3m (ho : HObj ℝ) : shiftH3mToDRbarPrime (p.rescale l) (ho.rescale l) = Except.map (Mat2.smul (l ^ 2)) (shiftH3mToDRbarPrime p ho) := by
  rw [h3m_congr (sameKey_rescale _), C77_h3m_shift hl]

theorem s_mass : Sim l (Good b K) (Good b K) (fun _ => True) (dmh3lMass E p) (dmh3lMass E (p.rescale l)) id := by
  unfold dmh3lMass
  refine Sim.bind (s_calcH hl H 0 0 1) fun m _ => ?_
  refine Sim.bind Sim.getHo fun ho hho => ?_
  refine Sim.bind (Sim.lift (f := Mat2.smul (l ^ 2)) (s_h3m hl ho)) fun sh _ => ?_
  rw [smul_add]
  refine Sim.bind (Sim.modE (s_setDMh _ _) (fun _ _ => k_setDMh)) fun _ _ => ?_
  refine Sim.bind Sim.getHo fun ho hho => ?_
  refine Sim.bind (Sim.lift (f := Mat2.smul (l ^ 2)) (s_mt41 hl M ho hho _ _ (Or.inl rfl) (Or.inl rfl))) fun m1 _ => ?_
  refine Sim.bind (Sim.modE (s_setDMh _ _) (fun _ _ => k_setDMh)) fun _ _ => ?_
  refine Sim.bind Sim.getHo fun ho hho => ?_
  refine Sim.bind (Sim.lift (f := Mat2.smul (l ^ 2)) (s_mt42 hl H ho _ _)) fun m2 _ => ?_
  refine Sim.bind (Sim.modE (s_setDMh _ _) (fun _ _ => k_setDMh)) fun _ _ => ?_
  refine Sim.bind Sim.getHo fun ho hho => ?_
  refine Sim.bind (Sim.lift (f := Mat2.smul (l ^ 2)) (s_getDMh 0 ho)) fun d0 _ => ?_
  refine Sim.bind (Sim.lift (f := Mat2.smul (l ^ 2)) (s_getDMh 1 ho)) fun d1 _ => ?_
  refine Sim.bind (Sim.lift (f := Mat2.smul (l ^ 2)) (s_getDMh 2 ho)) fun d2 _ => ?_
  rw [smul_add, smul_add]
  refine Sim.bind (s_unc hl H _ 0 0 1) fun u _ => ?_
  refine Sim.bind (Sim.modE (s_setUnc _ _) (fun _ _ => k_setUnc)) fun _ _ => ?_
  refine Sim.bind (Sim.modE (fun o => by
    have := s_setUnc (l := l) 1 0 o
    rw [mul_zero] at this
    simpa [real_ofNat] using this) (fun _ _ => k_setUnc)) fun _ _ => ?_
  refine Sim.bind Sim.getHo fun ho hho => ?_
  refine Sim.bind (Sim.lift (f := Mat2.smul (l ^ 2)) (s_h3m hl ho)) fun sh _ => ?_
  rw [smul_neg]
  exact Sim.mod (fun _ => rfl) (fun _ => ⟨rfl, rfl, rfl⟩)

omit M
theorem s_lambda (al : Bool) : Sim l (Good b K) (Good b K) (fun _ => True) (dmh3lLambda E p al) (dmh3lLambda E (p.rescale l) al) id := by
  have hv : ∀ x : ℝ, (l ^ 2 * x) / calcV2 (p.rescale l) = x / calcV2 p := fun x => by rw [u_v2F hl, r_div2 hl]
  have hm : (p.rescale l).Mt = l * p.Mt := rfl
  have hg : (p.rescale l).g3 = p.g3 := rfl
  have hgt : FOps.const .sqrt2 * (p.rescale l).Mt / FOps.sqrt (calcV2 (p.rescale l)) = FOps.const .sqrt2 * p.Mt / FOps.sqrt (calcV2 p) := by
    rw [hm, u_v2F hl, r_sqrt hl, mul_left_comm, r_div hl]
  unfold dmh3lLambda
  refine Sim.bind (s_lambda3 hl H false) fun _ _ => ?_
  refine Sim.bind (Sim.lift (f := Eft.rescale l) (by rw [s_pMassES hl, H.eftAs])) fun eft _ => ?_
  refine Sim.bind (Sim.lift (f := id) (by rw [s_pMassES hl, H.tc]; cases E.tc (pMassES p) <;> rfl)) fun tc _ => ?_
  dsimp only [id]
  rw [hgt, hm, hg]
  generalize FOps.const .sqrt2 * p.Mt / FOps.sqrt (calcV2 p) = gt
  simp only [mul_assoc, r_pow2 hl]
  have f0 : (eft.rescale l).loop0 = l ^ 2 * eft.loop0 := rfl
  have hv1 : ∀ c x y : ℝ, c * (l ^ 2 * x * y) / calcV2 (p.rescale l) = c * (x * y) / calcV2 p := fun c x y => by rw [mul_assoc, mul_left_comm, hv]
  have hv2 : ∀ c x y : ℝ, c * (l ^ 2 * (x * y)) / calcV2 (p.rescale l) = c * (x * y) / calcV2 p := fun c x y => by rw [mul_left_comm, hv]
  simp only [f0, hv, mul_assoc, hv2]
  refine Sim.bind (Sim.modE (s_setDLambda _ _) (fun _ _ => k_setDLambda)) fun _ _ => ?_
  refine Sim.bind (Sim.modE (s_setDLambda _ _) (fun _ _ => k_setDLambda)) fun _ _ => ?_
  refine Sim.bind (Sim.modE (s_setDLambda _ _) (fun _ _ => k_setDLambda)) fun _ _ => ?_
  refine Sim.bind (Sim.modE (s_setDLambdaShift _ _) (fun _ _ => k_setDLambdaShift)) fun _ _ => ?_
  refine Sim.bind (Sim.modE (s_setDLambdaShift _ _) (fun _ _ => k_setDLambdaShift)) fun _ _ => ?_
  split_ifs
  · refine Sim.bind (Sim.modE (fun o => s_setDLambda 3 o.getDLambdaEFT o) (fun _ _ => k_setDLambda)) fun _ _ => ?_
    refine Sim.bind Sim.getHo fun ho hho => ?_
    refine Sim.bind (Sim.lift (f := id) (show (ho.rescale l).getDLambda 1 = _ from by
      have : (ho.rescale l).getDLambda 1 = ho.getDLambda 1 := rfl
      rw [this]; cases ho.getDLambda 1 <;> rfl)) fun l1 _ => ?_
    dsimp only [id]
    exact Sim.modE (s_setDLambdaShift _ _) (fun _ _ => k_setDLambdaShift)
  · refine Sim.bind (Sim.mod (fun _ => rfl) (fun _ => ⟨rfl, rfl, rfl⟩)) fun _ _ => ?_
    refine Sim.bind (Sim.mod (fun _ => rfl) (fun _ => ⟨rfl, rfl, rfl⟩)) fun _ _ => ?_
    refine Sim.bind (Sim.mod (fun _ => rfl) (fun _ => ⟨rfl, rfl, rfl⟩)) fun _ _ => ?_
    refine Sim.bind (Sim.mod (fun _ => rfl) (fun _ => ⟨rfl, rfl, rfl⟩)) fun _ _ => ?_
    refine Sim.bind (Sim.modE (s_setDLambda _ _) (fun _ _ => k_setDLambda)) fun _ _ => ?_
    exact Sim.modE (s_setDLambdaShift _ _) (fun _ _ => k_setDLambdaShift)

omit H hl in
theorem s_zero {g : HObj ℝ → ℝ → Except String (HObj ℝ)} (h : ∀ x o, g (o.rescale l) (l ^ 2 * x) = Except.map (HObj.rescale l) (g o x)) (o : HObj ℝ) :
    g (o.rescale l) (@OfNat.ofNat ℝ 0 (FOps.instOfNat 0)) = Except.map (HObj.rescale l) (g o (@OfNat.ofNat ℝ 0 (FOps.instOfNat 0))) := by
  have := h 0 o
  rw [mul_zero] at this
  simpa [real_ofNat] using this

theorem s_part2 : Sim l (Good b K) (Good b K) (fun _ => True) (dmh3lPart2 E p) (dmh3lPart2 E (p.rescale l)) id := by
  unfold dmh3lPart2
  refine Sim.bind (Sim.lift (f := fun r => (l ^ 2 * r.1, l ^ 2 * r.2.1, l ^ 2 * r.2.2)) (H.fo p false)) fun fo _ => ?_
  dsimp only
  refine Sim.bind (Sim.modE (s_setFO _ _) (fun _ _ => k_setFO)) fun _ _ => ?_
  refine Sim.bind (Sim.modE (s_setFO _ _) (fun _ _ => k_setFO)) fun _ _ => ?_
  refine Sim.bind (Sim.modE (s_setFO _ _) (fun _ _ => k_setFO)) fun _ _ => ?_
  refine Sim.bind (Sim.modE (s_zero (g := fun o x => o.setDMh2FO 3 x) (s_setFO 3)) (fun _ _ => k_setFO)) fun _ _ => ?_
  refine Sim.bind (Sim.lift (f := fun r => (l ^ 2 * r.1, l ^ 2 * r.2.1, l ^ 2 * r.2.2)) (H.fo p true)) fun fa _ => ?_
  dsimp only
  refine Sim.bind (Sim.modE (s_zero (g := fun o x => o.setDMh2FOAt 0 x) (s_setFOAt 0)) (fun _ _ => k_setFOAt)) fun _ _ => ?_
  refine Sim.bind (Sim.modE (s_setFOAt _ _) (fun _ _ => k_setFOAt)) fun _ _ => ?_
  refine Sim.bind (Sim.modE (s_setFOAt _ _) (fun _ _ => k_setFOAt)) fun _ _ => ?_
  refine Sim.bind (Sim.modE (s_zero (g := fun o x => o.setDMh2FOAt 3 x) (s_setFOAt 3)) (fun _ _ => k_setFOAt)) fun _ _ => ?_
  refine Sim.bind (Sim.lift (f := Eft.rescale l) (H.eftFull p)) fun e _ => ?_
  refine Sim.bind (Sim.modE (s_setEFT _ _) (fun _ _ => k_setEFT)) fun _ _ => ?_
  refine Sim.bind (Sim.modE (s_setEFT _ _) (fun _ _ => k_setEFT)) fun _ _ => ?_
  refine Sim.bind (Sim.modE (s_setEFT _ _) (fun _ _ => k_setEFT)) fun _ _ => ?_
  refine Sim.modE (fun o => ?_) (fun _ _ => k_setEFT)
  have h3 : (e.rescale l).loop3 1 1 0 = l ^ 2 * e.loop3 1 1 0 := rfl
  have h4 : (o.rescale l).getDLambdaEFT = o.getDLambdaEFT := rfl
  rw [h3, h4, u_v2F hl, mul_left_comm, ← mul_add]
  exact s_setEFT 3 _ o

include M
theorem s_mdrShift (ho : HObj ℝ) (hg : Good b K ho) :
    calcDRbarToMDRbarShift E (p.rescale l) (ho.rescale l) true true = Except.map (Mat2.smul (l ^ 2)) (calcDRbarToMDRbarShift E p ho true true) := by
  unfold calcDRbarToMDRbarShift
  rw [s_mt41 hl M ho hg 1 1 (Or.inr rfl) (Or.inr rfl), s_mt41 hl M ho hg 0 0 (Or.inl rfl) (Or.inl rfl), s_mt42 hl H ho 1 1, s_mt42 hl H ho 0 0]
  cases getMt41L p ho 1 1 with
  | error e => rfl
  | ok a =>
  cases getMt41L p ho 0 0 with
  | error e => rfl
  | ok c =>
  cases getMt42L E p ho 1 1 with
  | error e => rfl
  | ok d =>
  cases getMt42L E p ho 0 0 with
  | error e => rfl
  | ok f =>
  show Except.ok (Mat2.const _ + (Mat2.smul (l ^ 2) a - Mat2.smul (l ^ 2) c) + (Mat2.smul (l ^ 2) d - Mat2.smul (l ^ 2) f)) =
    Except.ok (Mat2.smul (l ^ 2) (Mat2.const _ + (a - c) + (d - f)))
  have z : (Mat2.const (@OfNat.ofNat ℝ 0 (FOps.instOfNat 0)) : Mat2 ℝ) = Mat2.smul (l ^ 2) (Mat2.const (@OfNat.ofNat ℝ 0 (FOps.instOfNat 0))) := by
    simp [Mat2.const, Mat2.smul, real_ofNat]
  conv_lhs => rw [z]
  rw [smul_sub, smul_sub, smul_add, smul_add]

theorem s_mdrBlock : Sim l (Good b K) (Good b K) (fun _ => True) (mdrBlock E p) (mdrBlock E (p.rescale l))
    (fun r => (⟨l * r.1.x0, l * r.1.x1⟩, Mat2.smul (l ^ 2) r.2.1, Mat2.smul (l ^ 2) r.2.2)) := by
  unfold mdrBlock
  refine Sim.bind (Sim.modHoE (G' := Good b K) (s_setMDRFlag 1) (fun o o' ho he => by
    unfold HObj.setMDRFlag at he
    split_ifs at he
    cases he
    exact ⟨ho.alphab, Or.inr rfl, ho.key⟩)) fun _ _ => ?_
  refine Sim.bind Sim.getHo fun ho hho => ?_
  refine Sim.bind (Sim.lift (f := Mat2.smul (l ^ 2)) (s_mdrShift hl H M ho hho)) fun sh _ => ?_
  refine Sim.bind (Sim.mod (fun _ => rfl) (fun _ => ⟨rfl, rfl, rfl⟩)) fun _ _ => ?_
  refine Sim.bind (s_calcH hl H 0 0 1) fun m _ => ?_
  refine Sim.bind Sim.getHo fun ho hho => ?_
  refine Sim.bind (Sim.lift (f := Mat2.smul (l ^ 2)) (s_h3m hl ho)) fun sh _ => ?_
  rw [smul_add]
  refine Sim.bind (Sim.modE (s_setDMh _ _) (fun _ _ => k_setDMh)) fun _ _ => ?_
  refine Sim.bind Sim.getHo fun ho hho => ?_
  refine Sim.bind (Sim.lift (f := Mat2.smul (l ^ 2)) (s_getDMh 3 ho)) fun d3 _ => ?_
  exact Sim.pure rfl trivial

theorem s_part3 : Sim l (Good b K) (Good b K) (fun _ => True) (dmh3lPart3 E p) (dmh3lPart3 E (p.rescale l)) id := by
  unfold dmh3lPart3
  refine Sim.bind Sim.getHo fun ho hho => ?_
  refine Sim.bind (Sim.localHo (s_mdrBlock hl H M) rfl hho) fun r _ => ?_
  dsimp only
  refine Sim.bind (Sim.mod (g := fun h => h.setMDRMasses r.1) (fun o => s_setMDRMasses hl o r.1) (fun _ => ⟨rfl, rfl, rfl⟩)) fun _ _ => ?_
  refine Sim.bind Sim.getHo fun ho hho => ?_
  refine Sim.bind (Sim.lift (f := Mat2.smul (l ^ 2)) (s_getDMh 3 ho)) fun d3 _ => ?_
  rw [smul_add, smul_sub]
  refine Sim.bind (Sim.mod (fun _ => rfl) (fun _ => ⟨rfl, rfl, rfl⟩)) fun _ _ => ?_
  refine Sim.bind Sim.getHo fun ho hho => ?_
  refine Sim.bind (Sim.lift (f := Mat2.smul (l ^ 2)) (s_getDMh 0 ho)) fun d0 _ => ?_
  refine Sim.bind (Sim.lift (f := Mat2.smul (l ^ 2)) (s_getDMh 1 ho)) fun d1 _ => ?_
  refine Sim.bind (Sim.lift (f := Mat2.smul (l ^ 2)) (s_getDMh 2 ho)) fun d2 _ => ?_
  refine Sim.bind (Sim.lift (f := Mat2.smul (l ^ 2)) (s_getDMh 3 ho)) fun d3 _ => ?_
  rw [H.diag]
  refine Sim.bind (Sim.modE (s_setDMh2 _ _) (fun _ _ => k_setDMh2)) fun _ _ => ?_
  refine Sim.bind (Sim.modE (s_setDMh2 _ _) (fun _ _ => k_setDMh2)) fun _ _ => ?_
  refine Sim.bind (Sim.modE (s_setDMh2 _ _) (fun _ _ => k_setDMh2)) fun _ _ => ?_
  refine Sim.bind (Sim.modE (s_setDMh2 _ _) (fun _ _ => k_setDMh2)) fun _ _ => ?_
  refine Sim.bind (Sim.modE (s_setFO _ _) (fun _ _ => k_setFO)) fun _ _ => ?_
  exact Sim.modE (s_setFOAt _ _) (fun _ _ => k_setFOAt)

include hK
theorem s_body : Sim l (Good b anyKey) (Good b (fun k => K k ∨ k = -1)) (fun _ => True) (dmh3lBody E p b) (dmh3lBody E (p.rescale l) b) (HObj.rescale l) := by
  have H' := UnitFree.extend H
  have M' := Massive.extend M
  unfold dmh3lBody dmh3lPart1 dmh3lSelect
  refine Sim.bind (Sim.bind (Sim.bind (Sim.modHoE (G' := Good b anyKey) (s_setMDRFlag 0) (fun o o' ho he => by
    unfold HObj.setMDRFlag at he
    split_ifs at he
    cases he
    exact ⟨ho.alphab, Or.inl rfl, trivial⟩)) fun _ _ => s_compare hl H M hK) fun _ _ => Sim.bind (s_mass hl H' M') fun _ _ => s_lambda hl H' b) fun _ _ => ?_
  refine Sim.bind (s_part2 hl H') fun _ _ => ?_
  refine Sim.bind (s_part3 hl H' M') fun _ _ => ?_
  exact Sim.getHo.weaken (fun _ h => h) (fun _ h => h) (fun _ _ => trivial)

omit hl H M hK
/-- **C77.** `calculateDMh3L` selects the same hierarchy and gives the same result in other units of mass (exactly `HObj.rescale`), or throws
the same exception: for every parameter point where the quark and the squark masses do not vanish, if the code it calls does not depend on the
units for the hierarchies that are suitable at this point. -/
theorem C77_report {l : ℝ} (hl : 0 < l) {E : Env ℝ} {p : Params ℝ} {b : Bool} {K : Int → Prop} (H : UnitFree E p l b K) (M : Massive p b K)
    (hK : ∀ ho : HObj ℝ, ho.isAlphab = b → isHierarchySuitable p ho = true → K ho.hierarchy) (d : Depth) (h0 : HObj ℝ) :
    (calculateDMh3L E (p.rescale l) b ⟨d, h0⟩).1 = Except.map (HObj.rescale l) (calculateDMh3L E p b ⟨d, h0⟩).1 := by
  have e : (HObj.new b : HObj ℝ) = (HObj.new b).rescale l := by
    unfold HObj.new HObj.rescale
    simp [real_lit, Mat2.const, Mat2.smul]
  have := (Sim.localHo (G0 := fun _ => True) (s_body hl H M hK) e ⟨rfl, Or.inl rfl, trivial⟩ ⟨d, h0⟩ trivial).1
  have e2 : ∀ s s' : St ℝ, s.depth = s'.depth → (calculateDMh3L E (p.rescale l) b s).1 = (calculateDMh3L E (p.rescale l) b s').1 := by
    intro s s' hs
    unfold calculateDMh3L CalcM.localHo
    have : ({ s with ho := HObj.new b } : St ℝ) = { s' with ho := HObj.new b } := by rw [hs]
    rw [this]
  refine (e2 _ (rSt l ⟨d, h0⟩) rfl).trans ?_
  exact congrArg Prod.fst this


/-! ### a case -/

/-- code that does not depend on the units of mass, and gives results that do not vanish -/
noncomputable def unitEnv : Env ℝ where
  hier k d args _ _ := .ok ⟨(d XD.Dmglst1 : ℝ) * (args.getD (if k = 3 then 6 else 7) 0) ^ 4, 0, 0, 1, 0, 0, 0⟩
  smallestEig Q := Real.sqrt (Q.m00 + Q.m11)
  atas args := .ok (args.getD 0 0, args.getD 2 0, 0)
  eftFull q := .ok ⟨q.MZ ^ 2, fun _ _ => q.Mt ^ 2, fun _ _ => q.Mt ^ 2, fun _ _ _ => q.Mt ^ 2⟩
  eftAs q := .ok ⟨q.MZ ^ 2, fun _ _ => q.Mt ^ 2, fun _ _ => q.Mt ^ 2, fun _ _ _ => q.Mt ^ 2⟩
  tc _ := .ok ⟨fun _ _ _ _ => 1, fun _ _ _ => 1, fun _ _ _ => 1, 0⟩
  fo q _ := .ok (q.MZ ^ 2, q.Mt ^ 2, 0)
  diag A B C D := (A.m00, B.m00, C.m00, D.m00)

/-- the hierarchies suitable at the example point -/
def exampleKeys (k : Int) : Prop := k = 2 ∨ k = 3 ∨ k = 4 ∨ k = 13

theorem unitEnv_free (hl : 0 < l) : UnitFree unitEnv examplePoint l false exampleKeys where
  hier := by
    intro ho d L m n a a' h1 h2 _ h4 h5
    unfold hierArgs HObj.getSuitableHierarchy HObj.getIsAlphab at h4 h5
    rw [h1] at h4 h5
    rcases h2 with h | h | h | h <;> rw [h] at h4 h5 ⊢ <;> cases h4 <;> cases h5 <;>
      simp [unitEnv, Except.map, HierOut.rescale, Params.rescale, mul_pow] <;> ring
  eig := by
    intro Q
    have e : Q.smul (l ^ 2) = ⟨l ^ 2 * Q.m00, l ^ 2 * Q.m01, l ^ 2 * Q.m10, l ^ 2 * Q.m11⟩ := rfl
    simp only [unitEnv, e, ← mul_add]
    rw [Real.sqrt_mul (by positivity), Real.sqrt_sq hl.le]
  atas := by intros; simp [unitEnv, Except.map]
  eftAs := by intros; simp [unitEnv, Except.map, Eft.rescale, Params.rescale, mul_pow]
  eftFull := by intros; simp [unitEnv, Except.map, Eft.rescale, Params.rescale, mul_pow]
  tc := by intros; rfl
  fo := by intros; simp [unitEnv, Except.map, Params.rescale, mul_pow]
  diag := by intros; rfl

theorem example_as : 0 ≤ pow2 (calcAsOver4Pi examplePoint) ∧ pow2 (calcAsOver4Pi examplePoint) ≤ 1 / 2304 := by
  have hp := Real.pi_gt_three
  have e : calcAsOver4Pi examplePoint = 1 / (4 * Real.pi) ^ 2 := by
    unfold calcAsOver4Pi
    simp [real_const, Const.value, pow2, examplePoint]
  have h2 : 1 / (4 * Real.pi) ^ 2 ≤ 1 / 48 := by
    apply one_div_le_one_div_of_le (by norm_num)
    nlinarith
  have h0 : (0 : ℝ) ≤ 1 / (4 * Real.pi) ^ 2 := by positivity
  rw [e]
  simp only [pow2]
  exact ⟨mul_self_nonneg _, by nlinarith⟩

theorem z2_bounds : (3 / 2 : ℝ) ≤ cz2 ∧ (cz2 : ℝ) ≤ 2 := by
  have h1 := Real.pi_gt_three
  have h2 := Real.pi_lt_d2
  have e : (cz2 : ℝ) = Real.pi ^ 2 / 6 := by unfold cz2; simp [real_const, Const.value]
  rw [e]
  constructor <;> nlinarith

theorem example_massive : Massive examplePoint false exampleKeys := by
  obtain ⟨a0, a1⟩ := example_as
  obtain ⟨z0, z1⟩ := z2_bounds
  have l1 : Real.log (16 / 9) ≤ 7 / 9 := by
    have := Real.log_le_sub_one_of_pos (show (0 : ℝ) < 16 / 9 by norm_num); linarith
  have l0 : 0 ≤ Real.log (16 / 9) := Real.log_nonneg (by norm_num)
  have hf : ∀ f : Int, f = 0 ∨ f = 1 → 0 ≤ (FOps.ofInt f : ℝ) ∧ (FOps.ofInt f : ℝ) ≤ 1 := by
    rintro f (rfl | rfl) <;> simp [real_ofInt]
  have x0 : examplePoint.MSt.x0 = 1 / 2 := rfl
  have x1 : examplePoint.MSt.x1 = 3 / 4 := rfl
  have sc : examplePoint.scale = 1 := rfl
  refine ⟨by simp [examplePoint], ?_, ?_⟩
  · intro ho f g m h1 h2 _ h4 h5
    have hka : 0 < 1 + mdr2mst1ka examplePoint (1 / 2) (3 / 4) (FOps.ofInt g) := by
      obtain ⟨g0, g1⟩ := hf g h4
      unfold mdr2mst1ka
      rw [examplePoint_msq, sc]
      have e1 : (FOps.log (pow2 ((1 : ℝ) / 1)) : ℝ) = 0 := by simp [real_log, pow2]
      have e2 : (FOps.log (pow2 (1 : ℝ) / pow2 (3 / 4)) : ℝ) = Real.log (16 / 9) := by
        simp only [real_log, pow2]; norm_num
      rw [e1, e2]
      generalize (FOps.ofInt g : ℝ) = t at g0 g1
      generalize pow2 (calcAsOver4Pi examplePoint) = A at a0 a1
      generalize (cz2 : ℝ) = z at z0 z1
      generalize Real.log (16 / 9) = w at l0 l1
      simp only [pow2, real_ofNat]
      push_cast
      have hX : 0 ≤ 10 * (1 * 1) * (-1 + 2 * 0 + 2 * z) + 3 / 4 * (3 / 4) * (-1 + 2 * w + 2 * z) := by nlinarith
      have hX2 : 10 * (1 * 1) * (-1 + 2 * 0 + 2 * z) + 3 / 4 * (3 / 4) * (-1 + 2 * w + 2 * z) ≤ 40 := by nlinarith
      have tA : t * A ≤ 1 / 2304 := by nlinarith
      have tA0 : 0 ≤ t * A := mul_nonneg g0 a0
      have : t * A * (10 * (1 * 1) * (-1 + 2 * 0 + 2 * z) + 3 / 4 * (3 / 4) * (-1 + 2 * w + 2 * z)) ≤ 1 / 2304 * 40 :=
        mul_le_mul tA hX2 hX (by norm_num)
      rw [show (1 : ℝ) + -8 * t * A * (10 * (1 * 1) * (-1 + 2 * 0 + 2 * z) + 3 / 4 * (3 / 4) * (-1 + 2 * w + 2 * z)) / (3 * (1 / 2 * (1 / 2))) =
        1 - 32 / 3 * (t * A * (10 * (1 * 1) * (-1 + 2 * 0 + 2 * z) + 3 / 4 * (3 / 4) * (-1 + 2 * w + 2 * z))) by ring]
      linarith
    have hm : m = 1 / 2 * Real.sqrt (1 + mdr2mst1ka examplePoint (1 / 2) (3 / 4) (FOps.ofInt g)) := by
      unfold shiftMst1ToMDR mst1 mst2 HObj.getSuitableHierarchy HObj.getIsAlphab at h5
      rw [h1] at h5
      rcases h2 with h | h | h | h <;> rw [h] at h5 <;> cases h5 <;>
        simp [shiftMod, x0, x1, real_sqrt, real_ofNat]
    rw [hm]
    have := Real.sqrt_pos.2 hka
    positivity
  · intro ho f g m h1 h2 _ h4 h5
    have hka : 0 < 1 + mdr2mst2ka examplePoint (3 / 4) (FOps.ofInt g) := by
      obtain ⟨g0, g1⟩ := hf g h4
      unfold mdr2mst2ka
      rw [examplePoint_msq, sc]
      have e1 : (FOps.log (pow2 ((1 : ℝ) / 1)) : ℝ) = 0 := by simp [real_log, pow2]
      rw [e1]
      generalize (FOps.ofInt g : ℝ) = t at g0 g1
      generalize pow2 (calcAsOver4Pi examplePoint) = A at a0 a1
      generalize (cz2 : ℝ) = z at z0 z1
      simp only [pow2, real_ofNat]
      push_cast
      have tA : t * A ≤ 1 / 2304 := by nlinarith
      have tA0 : 0 ≤ t * A := mul_nonneg g0 a0
      have : t * A * (-1 + 2 * z) ≤ 1 / 2304 * 3 := mul_le_mul tA (by linarith) (by linarith) (by norm_num)
      rw [show (1 : ℝ) + -80 * t * A * (1 * 1) * (-1 + 2 * 0 + 2 * z) / (3 * (3 / 4 * (3 / 4))) = 1 - 1280 / 27 * (t * A * (-1 + 2 * z)) by ring]
      linarith
    have hm : m = 3 / 4 * Real.sqrt (1 + mdr2mst2ka examplePoint (3 / 4) (FOps.ofInt g)) := by
      unfold shiftMst2ToMDR mst2 HObj.getSuitableHierarchy HObj.getIsAlphab at h5
      rw [h1] at h5
      rcases h2 with h | h | h | h <;> rw [h] at h5 <;> cases h5 <;>
        simp [shiftMod, x0, x1, real_sqrt, real_ofNat]
    rw [hm]
    have := Real.sqrt_pos.2 hka
    positivity

theorem example_keys (ho : HObj ℝ) (h : ho.isAlphab = false) (hs : isHierarchySuitable examplePoint ho = true) : exampleKeys ho.hierarchy := by
  unfold isHierarchySuitable HObj.getIsAlphab HObj.getSuitableHierarchy at hs
  rw [h, examplePoint_msq] at hs
  have x0 : examplePoint.MSt.x0 = 1 / 2 := rfl
  have x1 : examplePoint.MSt.x1 = 3 / 4 := rfl
  have x2 : examplePoint.MG = 1 / 4 := rfl
  simp only [Bool.false_eq_true, if_false, x0, x1, x2] at hs
  unfold suitableMasses at hs
  revert hs
  generalize ho.hierarchy = k
  unfold exampleKeys
  dsimp only
  simp only [rlt, rle, real_lit, real_abs]
  intro hs
  split_ifs at hs
  split at hs <;> first | omega | (revert hs; norm_num [abs_of_neg, abs_of_pos]) | (cases hs)

example (d : Depth) : ∃ r, (calculateDMh3L unitEnv examplePoint false ⟨d, HObj.new false⟩).1 = .ok r ∧
    (calculateDMh3L unitEnv (examplePoint.rescale 1000) false ⟨d, HObj.new false⟩).1 = .ok (r.rescale 1000) := by
  have ht : TotalEnv unitEnv := by constructor <;> intros <;> exact ⟨_, rfl⟩
  obtain ⟨r, hr⟩ := C20_returns_if_suitable ht d false (HObj.new false) 4 examplePoint_suitable
  refine ⟨r, hr, ?_⟩
  rw [C77_report (by norm_num : (0 : ℝ) < 1000) (unitEnv_free (by norm_num)) example_massive example_keys, hr]
  rfl

end Units
end Himalaya
