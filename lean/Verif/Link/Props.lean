import Verif.Link.Model
import Verif.Calc.Props6

/-!
# C40, C48: the Mathematica interface
-/

set_option linter.unusedSimpArgs false
set_option linter.unusedVariables false
set_option linter.unusedSectionVars false

namespace Himalaya.Link

open FOps
open scoped Himalaya

section
variable {F : Type} [FOps F]

/-! ### Specification: what the C++ side should see -/

/-- an optional mass: used if positive -/
def optMass (nan x : F) : F := if lt (lit 0) x then x else nan
/-- optional sfermion masses and mixing: used if both masses are positive and `|s2| ≤ 1` -/
def optGiven (m : Vec2 F) (s : F) : Bool := lt (lit 0) (minCoeff m) && le (abs s) (lit 1)

/-- The parameter point described by the Mathematica options (before validation). -/
def meant (nan : F) (o : MInput F) : Params F where
  scale := o.scale
  mu := o.mu
  g1 := o.g1
  g2 := o.g2
  g3 := o.g3
  vd := o.vd
  vu := o.vu
  mq2 := o.mq2
  md2 := o.md2
  mu2 := o.mu2
  ml2 := o.ml2
  me2 := o.me2
  Au := o.Au
  Ad := o.Ad
  Ae := o.Ae
  Yu := o.Yu
  Yd := o.Yd
  Ye := o.Ye
  M1 := o.M1
  M2 := o.M2
  MG := o.M3
  MW := optMass nan o.MW
  MZ := optMass nan o.MZ
  Mt := optMass nan o.Mt
  Mb := optMass nan o.Mb
  Mtau := optMass nan o.Mtau
  MA := o.MA
  MSt := if optGiven o.MSt o.s2t then o.MSt else ⟨nan, nan⟩
  MSb := if optGiven o.MSb o.s2b then o.MSb else ⟨nan, nan⟩
  MStau := if optGiven o.MStau o.s2tau then o.MStau else ⟨nan, nan⟩
  s2t := if optGiven o.MSt o.s2t then o.s2t else nan
  s2b := if optGiven o.MSb o.s2b then o.s2b else nan
  s2tau := if optGiven o.MStau o.s2tau then o.s2tau else nan
  theta_t := nan
  theta_b := nan
  theta_tau := nan
  massLimit3LThreshold := 0

/-! ### Round trip -/

private theorem mat_eta (m : Mat3 F) : (fun i k : Fin 3 => match i, k with
    | 0, 0 => m 0 0 | 0, 1 => m 0 1 | 0, 2 => m 0 2
    | 1, 0 => m 1 0 | 1, 1 => m 1 1 | 1, 2 => m 1 2
    | 2, 0 => m 2 0 | 2, 1 => m 2 1 | 2, 2 => m 2 2) = m := by
  funext i k
  fin_cases i <;> fin_cases k <;> rfl

set_option maxRecDepth 4000 in
/-- the front end always sends 127 numbers -/
theorem encode_length (o : MInput F) : (encode o).length = 127 := rfl

/-- the required input -/
private def required (nan : F) (o : MInput F) : Params F := { initialPars nan with
    scale := o.scale, mu := o.mu, g1 := o.g1, g2 := o.g2, g3 := o.g3, vd := o.vd, vu := o.vu,
    mq2 := o.mq2, md2 := o.md2, mu2 := o.mu2, ml2 := o.ml2, me2 := o.me2,
    Au := o.Au, Ad := o.Ad, Ae := o.Ae, Yu := o.Yu, Yd := o.Yd, Ye := o.Ye,
    MA := o.MA, M1 := o.M1, M2 := o.M2, MG := o.M3 }

private theorem optional_eq (nan : F) (o : MInput F) :
    optionalInput (required nan o) o.MW o.MZ o.Mt o.Mb o.Mtau o.MSt o.MSb o.MStau o.s2t o.s2b o.s2tau = meant nan o := by
  unfold optionalInput meant optMass optGiven
  generalize lt (lit 0) o.MW = c1, lt (lit 0) o.MZ = c2, lt (lit 0) o.Mt = c3, lt (lit 0) o.Mb = c4, lt (lit 0) o.Mtau = c5,
    (lt (lit 0) (minCoeff o.MSt) && le (abs o.s2t) (lit 1)) = c6,
    (lt (lit 0) (minCoeff o.MSb) && le (abs o.s2b) (lit 1)) = c7,
    (lt (lit 0) (minCoeff o.MStau) && le (abs o.s2tau) (lit 1)) = c8
  cases c1 <;> cases c2 <;> cases c3 <;> cases c4 <;> cases c5 <;> cases c6 <;> cases c7 <;> cases c8 <;> rfl

private theorem next_bind {α : Type} {v : List F} {c : Nat} {x : F} (h : v[c]? = some x) (f : F → Reader α) :
    (next v >>= f) c = f x (c + 1) := by
  show StateT.bind (next v) f c = _
  unfold StateT.bind
  have : next v c = .ok (x, c + 1) := by unfold next; rw [h]
  rw [this]
  rfl

private theorem nextMat_bind {α : Type} {v : List F} {c : Nat} {m : Mat3 F} (h00 : v[c]? = some (m 0 0))
    (h01 : v[c+1]? = some (m 0 1)) (h02 : v[c+2]? = some (m 0 2)) (h10 : v[c+3]? = some (m 1 0))
    (h11 : v[c+4]? = some (m 1 1)) (h12 : v[c+5]? = some (m 1 2)) (h20 : v[c+6]? = some (m 2 0))
    (h21 : v[c+7]? = some (m 2 1)) (h22 : v[c+8]? = some (m 2 2)) (f : Mat3 F → Reader α) :
    (nextMat v >>= f) c = f m (c + 9) := by
  have : nextMat v c = .ok (m, c + 9) := by
    unfold nextMat
    rw [next_bind h00, next_bind h01, next_bind h02, next_bind h10, next_bind h11, next_bind h12, next_bind h20, next_bind h21,
      next_bind h22]
    conv_rhs => rw [← mat_eta m]
    rfl
  show StateT.bind (nextMat v) f c = _
  unfold StateT.bind
  rw [this]
  rfl

set_option maxRecDepth 4000 in
/-- **C40** The C++ side unpacks exactly the point the Mathematica side has packed: `make_data` of the packed list is the
validation of the point described by the options, with the settings; it fails only if the validation does. -/
theorem C40_round_trip (X : Conv F) (o : MInput F) :
    makeData X (encode o) =
      match X.validate (meant X.nan o) with
      | (.ok (), p) => .ok ⟨p, toBool o.bottom, X.toInt o.loopOrder, toBool o.verbose⟩
      | (.error e, _) => .error e := by
  unfold makeData
  rw [if_neg (by rw [encode_length]; simp)]
  have key : readData X (encode o) 0 = (match X.validate (meant X.nan o) with
      | (.ok (), p) => (.ok (⟨p, toBool o.bottom, X.toInt o.loopOrder, toBool o.verbose⟩, 127) : Except String (Data F × Nat))
      | (.error e, _) => .error e) := by
    unfold readData
    iterate 10 rw [next_bind (v := encode o) rfl]
    rw [nextMat_bind (v := encode o) (m := o.mq2) rfl rfl rfl rfl rfl rfl rfl rfl rfl]
    rw [nextMat_bind (v := encode o) (m := o.md2) rfl rfl rfl rfl rfl rfl rfl rfl rfl]
    rw [nextMat_bind (v := encode o) (m := o.mu2) rfl rfl rfl rfl rfl rfl rfl rfl rfl]
    rw [nextMat_bind (v := encode o) (m := o.ml2) rfl rfl rfl rfl rfl rfl rfl rfl rfl]
    rw [nextMat_bind (v := encode o) (m := o.me2) rfl rfl rfl rfl rfl rfl rfl rfl rfl]
    rw [nextMat_bind (v := encode o) (m := o.Au) rfl rfl rfl rfl rfl rfl rfl rfl rfl]
    rw [nextMat_bind (v := encode o) (m := o.Ad) rfl rfl rfl rfl rfl rfl rfl rfl rfl]
    rw [nextMat_bind (v := encode o) (m := o.Ae) rfl rfl rfl rfl rfl rfl rfl rfl rfl]
    rw [nextMat_bind (v := encode o) (m := o.Yu) rfl rfl rfl rfl rfl rfl rfl rfl rfl]
    rw [nextMat_bind (v := encode o) (m := o.Yd) rfl rfl rfl rfl rfl rfl rfl rfl rfl]
    rw [nextMat_bind (v := encode o) (m := o.Ye) rfl rfl rfl rfl rfl rfl rfl rfl rfl]
    iterate 18 rw [next_bind (v := encode o) rfl]
    have h := optional_eq X.nan o
    unfold required at h
    dsimp only at h ⊢
    rw [h]
    rcases X.validate (meant X.nan o) with ⟨r, p⟩
    cases r <;> rfl
  rw [key]
  rcases X.validate (meant X.nan o) with ⟨r, p⟩
  cases r <;> rfl

/-- **C40** Vectors of any other length are rejected. -/
theorem C40_wrong_length (X : Conv F) (v : List F) (h : v.length ≠ 127) : ∃ e, makeData X v = .error e := by
  unfold makeData
  rw [if_pos h]
  exact ⟨_, rfl⟩

set_option maxRecDepth 4000 in
/-- **C40** Every slot matters: every vector of 127 numbers is the packing of exactly one choice of the options. -/
theorem C40_every_slot (v : List F) (h : v.length = 127) : ∃! o : MInput F, encode o = v := by
  let g (i : Nat) (hi : i < 127) : F := v[i]'(by omega)
  let m (i : Nat) (hi : i + 8 < 127) : Mat3 F := fun a b => g (i + 3 * a.val + b.val) (by omega)
  refine ⟨⟨g 0 (by omega), g 1 (by omega), g 2 (by omega), g 3 (by omega), g 4 (by omega), g 5 (by omega), g 6 (by omega),
    g 7 (by omega), g 8 (by omega), g 9 (by omega), m 10 (by omega), m 19 (by omega), m 28 (by omega), m 37 (by omega),
    m 46 (by omega), m 55 (by omega), m 64 (by omega), m 73 (by omega), m 82 (by omega), m 91 (by omega), m 100 (by omega),
    g 109 (by omega), g 110 (by omega), g 111 (by omega), g 112 (by omega), g 113 (by omega), g 114 (by omega), g 115 (by omega),
    g 116 (by omega), g 117 (by omega), ⟨g 118 (by omega), g 119 (by omega)⟩, ⟨g 120 (by omega), g 121 (by omega)⟩,
    ⟨g 122 (by omega), g 123 (by omega)⟩, g 124 (by omega), g 125 (by omega), g 126 (by omega)⟩, ?_, ?_⟩
  · have : v = List.ofFn (fun i : Fin 127 => g i.val i.isLt) := by
      apply List.ext_getElem
      · simp [h]
      · intro n h1 h2; rw [List.getElem_ofFn]
    dsimp only
    conv_rhs => rw [this]
    rfl
  · intro o ho
    have hg : ∀ i hi, g i hi = (encode o)[i]'(by rw [encode_length]; exact hi) := by
      intro i hi; simp only [g, ho]
    have hm : ∀ (i : Nat) (hi : i + 8 < 127) (M : Mat3 F), (∀ a b : Fin 3, (encode o)[i + 3 * a.val + b.val]? = some (M a b)) →
        m i hi = M := by
      intro i hi M hM
      funext a b
      show g (i + 3 * a.val + b.val) (by omega) = _
      rw [hg _ (by omega)]
      have := hM a b
      rw [List.getElem?_eq_getElem (by rw [encode_length]; omega)] at this
      exact Option.some.inj this
    have all : ∀ (P : Fin 3 → Fin 3 → Prop), P 0 0 → P 0 1 → P 0 2 → P 1 0 → P 1 1 → P 1 2 → P 2 0 → P 2 1 → P 2 2 → ∀ a b, P a b := by
      intro P h1 h2 h3 h4 h5 h6 h7 h8 h9 a b
      fin_cases a <;> fin_cases b <;> assumption
    rw [hm 10 (by omega) o.mq2 (all _ rfl rfl rfl rfl rfl rfl rfl rfl rfl), hm 19 (by omega) o.md2 (all _ rfl rfl rfl rfl rfl rfl rfl rfl rfl),
      hm 28 (by omega) o.mu2 (all _ rfl rfl rfl rfl rfl rfl rfl rfl rfl), hm 37 (by omega) o.ml2 (all _ rfl rfl rfl rfl rfl rfl rfl rfl rfl),
      hm 46 (by omega) o.me2 (all _ rfl rfl rfl rfl rfl rfl rfl rfl rfl), hm 55 (by omega) o.Au (all _ rfl rfl rfl rfl rfl rfl rfl rfl rfl),
      hm 64 (by omega) o.Ad (all _ rfl rfl rfl rfl rfl rfl rfl rfl rfl), hm 73 (by omega) o.Ae (all _ rfl rfl rfl rfl rfl rfl rfl rfl rfl),
      hm 82 (by omega) o.Yu (all _ rfl rfl rfl rfl rfl rfl rfl rfl rfl), hm 91 (by omega) o.Yd (all _ rfl rfl rfl rfl rfl rfl rfl rfl rfl),
      hm 100 (by omega) o.Ye (all _ rfl rfl rfl rfl rfl rfl rfl rfl rfl)]
    simp only [hg]
    rfl

/-- **C40** Consequently the result of `make_data` is determined slot by slot for every vector of 127 numbers. -/
theorem C40_all_vectors (X : Conv F) (v : List F) (h : v.length = 127) : ∃ o : MInput F, encode o = v ∧
    makeData X v = match X.validate (meant X.nan o) with
      | (.ok (), p) => .ok ⟨p, toBool o.bottom, X.toInt o.loopOrder, toBool o.verbose⟩
      | (.error e, _) => .error e := by
  obtain ⟨o, ho, _⟩ := C40_every_slot v h
  refine ⟨o, ho, ?_⟩
  rw [← ho]
  exact C40_round_trip X o

/-- Sfermion masses given without the mixing (the default of which is the invalid value -2) are silently ignored. -/
theorem C40_masses_without_mixing_ignored (nan : F) (o : MInput F) (h : le (abs o.s2t) (lit 1) = false) :
    (meant nan o).MSt = ⟨nan, nan⟩ ∧ (meant nan o).s2t = nan := by
  unfold meant optGiven
  simp only [h, Bool.and_false, Bool.false_eq_true, if_false, and_self]

end

/-- the default `-2` of the mixing does not count as given -/
example : le (FOps.abs (lit (-2) : ℝ)) (lit 1) = false := by norm_num

/-! ### The reply -/

section
variable {F : Type} [Add F] [Sub F] [Mul F] [Div F] [Neg F] [FOps F]

/-- the value put for a name -/
def Reply.get (r : Reply F) (name : String) : Option (Val F) := (r.rules.find? (fun x => x.1 == name)).map (·.2)

private theorem arr4 {α : Type} (a : Fin 4 → α) :
    HObj.arrGet a 0 = .ok (a 0) ∧ HObj.arrGet a 1 = .ok (a 1) ∧ HObj.arrGet a 2 = .ok (a 2) ∧ HObj.arrGet a 3 = .ok (a 3) :=
  ⟨rfl, rfl, rfl, rfl⟩

/-- the reply, in terms of the stored results -/
private theorem put_eq (r : Results F) : ∃ x, putResult r = .ok x ∧ x.announced = 13 ∧ x.rules = [
    ("hierarchyID", .int r.ho.hierarchy),
    ("hierarchyName", .sym (h3mHierarchyNotation r.ho.hierarchy)),
    (if r.ho.isAlphab then "MsbottomMDRPrime" else "MstopMDRPrime", .vec [r.ho.mdrMasses.x0, r.ho.mdrMasses.x1]),
    ("Mh2", .mats [r.ho.dMhMap 0, r.ho.dMhMap 1, r.ho.dMhMap 2, r.ho.dMhMap 3]),
    ("Mh2ShiftDRbarPrimeToMDRPrime", .mats [Mat2.const (lit 0), Mat2.const (lit 0), Mat2.const (lit 0), r.ho.mdrShift]),
    ("Mh2ShiftDRbarPrimeToH3m", .mats [Mat2.const (lit 0), Mat2.const (lit 0), Mat2.const (lit 0), r.ho.h3mShift]),
    ("expansionUncertainty", .vec [lit 0, r.ho.expUncertainties 1, r.ho.expUncertainties 2, r.ho.expUncertainties 3]),
    ("Mh2EFTAt", .vec [r.eft.1, r.eft.2.1, r.eft.2.2.1, r.eft.2.2.2]),
    ("Mh2FO", .vec [r.fo.1, r.fo.2.1, r.fo.2.2.1, r.fo.2.2.2]),
    ("Mh2FOAt", .vec [r.foDom.1, r.foDom.2.1, r.foDom.2.2.1, r.foDom.2.2.2]),
    ("lambda", .vec [r.ho.dLambdaMap 0, r.ho.dLambdaMap 1, r.ho.dLambdaMap 2, r.ho.dLambdaMap 3]),
    ("lambdaUncertainty", .vec [lit 0, lit 0, lit 0,
      abs r.ho.dLambdaXtUncertainty + abs (r.ho.dLambdaEFT - r.ho.dLambdaH3m)]),
    ("lambdaShiftDRbarPrimeToMSbar", .vec [r.ho.dLambdaDRbarPrimeToMSbarShiftMap 0, r.ho.dLambdaDRbarPrimeToMSbarShiftMap 1,
      r.ho.dLambdaDRbarPrimeToMSbarShiftMap 2, r.ho.dLambdaDRbarPrimeToMSbarShiftMap 3])] :=
  ⟨_, rfl, rfl, rfl⟩

/-- **C48** A reply never fails, announces exactly the number of rules it contains, and no name occurs twice. -/
theorem C48_reply_complete (r : Results F) : ∃ x, putResult r = .ok x ∧ x.rules.length = x.announced ∧
    (x.rules.map (·.1)).Nodup := by
  obtain ⟨x, h, ha, hr⟩ := put_eq r
  refine ⟨x, h, by rw [hr, ha]; rfl, ?_⟩
  rw [hr]
  simp only [List.map_cons, List.map_nil]
  cases r.ho.isAlphab <;> decide

/-- **C48** A three-loop call replies with the numbers `calculateDMh3L` stored in its result object: every entry of the reply is
what the corresponding getter of the object returns. -/
theorem C48_three_loop_reply (X : Ext F) (E : Env F) (d : Data F) (hd : d.loopOrder > 2) (c : Calculator F)
    (hc : Calculator.mk' X d.pars = .ok c) (ho : HObj F)
    (hho : ((CalcOp.calculateDMh3L d.bottom).run E c).2.result = .ok (.obj ho)) :
    ∃ r x, calculateResults X E d = .ok r ∧ putResult r = .ok x ∧
      x.get "hierarchyID" = some (.int ho.getSuitableHierarchy) ∧
      x.get "hierarchyName" = some (.sym (h3mHierarchyNotation ho.getSuitableHierarchy)) ∧
      x.get (if ho.getIsAlphab then "MsbottomMDRPrime" else "MstopMDRPrime") =
        some (.vec [ho.getMDRMasses.x0, ho.getMDRMasses.x1]) ∧
      (∃ m0 m1 m2 m3, ho.getDMh 0 = .ok m0 ∧ ho.getDMh 1 = .ok m1 ∧ ho.getDMh 2 = .ok m2 ∧ ho.getDMh 3 = .ok m3 ∧
        x.get "Mh2" = some (.mats [m0, m1, m2, m3])) ∧
      x.get "Mh2ShiftDRbarPrimeToMDRPrime" =
        some (.mats [Mat2.const (lit 0), Mat2.const (lit 0), Mat2.const (lit 0), ho.getMDRShift]) ∧
      x.get "Mh2ShiftDRbarPrimeToH3m" =
        some (.mats [Mat2.const (lit 0), Mat2.const (lit 0), Mat2.const (lit 0), ho.getH3mShift]) ∧
      (∃ u1 u2 u3, ho.getDMhExpUncertainty 1 = .ok u1 ∧ ho.getDMhExpUncertainty 2 = .ok u2 ∧
        ho.getDMhExpUncertainty 3 = .ok u3 ∧ x.get "expansionUncertainty" = some (.vec [lit 0, u1, u2, u3])) ∧
      (∃ e0 e1 e2 e3, ho.getDMh2EFTAt 0 = .ok e0 ∧ ho.getDMh2EFTAt 1 = .ok e1 ∧ ho.getDMh2EFTAt 2 = .ok e2 ∧
        ho.getDMh2EFTAt 3 = .ok e3 ∧ x.get "Mh2EFTAt" = some (.vec [e0, e1, e2, e3])) ∧
      (∃ e0 e1 e2 e3, ho.getDMh2FO 0 = .ok e0 ∧ ho.getDMh2FO 1 = .ok e1 ∧ ho.getDMh2FO 2 = .ok e2 ∧
        ho.getDMh2FO 3 = .ok e3 ∧ x.get "Mh2FO" = some (.vec [e0, e1, e2, e3])) ∧
      (∃ e0 e1 e2 e3, ho.getDMh2FOAt 0 = .ok e0 ∧ ho.getDMh2FOAt 1 = .ok e1 ∧ ho.getDMh2FOAt 2 = .ok e2 ∧
        ho.getDMh2FOAt 3 = .ok e3 ∧ x.get "Mh2FOAt" = some (.vec [e0, e1, e2, e3])) ∧
      (∃ e0 e1 e2 e3, ho.getDLambda 0 = .ok e0 ∧ ho.getDLambda 1 = .ok e1 ∧ ho.getDLambda 2 = .ok e2 ∧
        ho.getDLambda 3 = .ok e3 ∧ x.get "lambda" = some (.vec [e0, e1, e2, e3])) ∧
      (∃ u, ho.getDLambdaUncertainty 3 = .ok u ∧ x.get "lambdaUncertainty" = some (.vec [lit 0, lit 0, lit 0, u])) ∧
      (∃ e0 e1 e2 e3, ho.getDLambdaShift 0 = .ok e0 ∧ ho.getDLambdaShift 1 = .ok e1 ∧ ho.getDLambdaShift 2 = .ok e2 ∧
        ho.getDLambdaShift 3 = .ok e3 ∧ x.get "lambdaShiftDRbarPrimeToMSbar" = some (.vec [e0, e1, e2, e3])) := by
  have hrun : (Himalaya.calculateDMh3L E c.p d.bottom ⟨c.depth, HObj.new d.bottom⟩).1 = .ok ho := by
    have h := hho
    unfold CalcOp.run runOn at h
    dsimp only at h
    revert h
    rcases Himalaya.calculateDMh3L E c.p d.bottom ⟨c.depth, HObj.new d.bottom⟩ with ⟨r, s⟩
    intro h
    cases r with
    | error e => cases h
    | ok a =>
      have : CalcRes.obj a = CalcRes.obj ho := Except.ok.inj h
      injection this with this
      rw [this]
  let r : Results F := ⟨ho, (ho.dMh2EFTMap 0, ho.dMh2EFTMap 1, ho.dMh2EFTMap 2, ho.dMh2EFTMap 3),
    (ho.dMh2FOMap 0, ho.dMh2FOMap 1, ho.dMh2FOMap 2, ho.dMh2FOMap 3),
    (ho.dMh2FOAtMap 0, ho.dMh2FOAtMap 1, ho.dMh2FOAtMap 2, ho.dMh2FOAtMap 3)⟩
  have hr : calculateResults X E d = .ok r := by
    unfold calculateResults
    rw [if_pos hd, hc]
    show (do
      let ho ← (Himalaya.calculateDMh3L E c.p d.bottom ⟨c.depth, HObj.new d.bottom⟩).1
      _ : Except String (Results F)) = _
    rw [hrun]
    rfl
  obtain ⟨x, hx, _, hl⟩ := put_eq r
  have hx' : x = ⟨x.announced, x.rules⟩ := rfl
  rw [hl] at hx'
  refine ⟨r, x, hr, hx, ?_⟩
  unfold Reply.get
  rw [hl]
  have hb : ho.getIsAlphab = r.ho.isAlphab := rfl
  rw [hb]
  cases r.ho.isAlphab <;>
  exact ⟨rfl, rfl, rfl, ⟨_, _, _, _, rfl, rfl, rfl, rfl, rfl⟩, rfl, rfl, ⟨_, _, _, rfl, rfl, rfl, rfl⟩,
    ⟨_, _, _, _, rfl, rfl, rfl, rfl, rfl⟩, ⟨_, _, _, _, rfl, rfl, rfl, rfl, rfl⟩, ⟨_, _, _, _, rfl, rfl, rfl, rfl, rfl⟩,
    ⟨_, _, _, _, rfl, rfl, rfl, rfl, rfl⟩, ⟨_, rfl, rfl⟩, ⟨_, _, _, _, rfl, rfl, rfl, rfl, rfl⟩⟩

/-- **C48** A call with `loopOrder ≤ 2` selects no hierarchy and computes no matrices: the reply carries the hierarchy number 0
(named "h3"), vanishing matrices, masses, uncertainties and lambda, and the stop label, also if `bottom` was requested. -/
theorem C48_lower_order_reply (X : Ext F) (E : Env F) (d : Data F) (hd : d.loopOrder ≤ 2) (r : Results F)
    (hr : calculateResults X E d = .ok r) : ∃ x, putResult r = .ok x ∧
      x.get "hierarchyID" = some (.int 0) ∧ x.get "hierarchyName" = some (.sym "h3") ∧
      x.get "MstopMDRPrime" = some (.vec [lit 0, lit 0]) ∧
      x.get "Mh2" = some (.mats (List.replicate 4 (Mat2.const (lit 0)))) ∧
      x.get "expansionUncertainty" = some (.vec (List.replicate 4 (lit 0))) ∧
      x.get "lambda" = some (.vec (List.replicate 4 (lit 0))) ∧
      (∃ e f g, E.eftFull d.pars = .ok e ∧ E.fo d.pars false = .ok f ∧ E.fo d.pars true = .ok g ∧
        x.get "Mh2EFTAt" = some (.vec [e.loop0, e.loop1 1 1, e.loop2 1 1, lit 0]) ∧
        x.get "Mh2FO" = some (.vec [f.1, f.2.1, f.2.2, lit 0]) ∧
        x.get "Mh2FOAt" = some (.vec [g.1, g.2.1, g.2.2, lit 0])) := by
  unfold calculateResults at hr
  rw [if_neg (by omega)] at hr
  rcases he : E.eftFull d.pars with e | e
  · rw [he] at hr; cases hr
  rw [he] at hr
  rcases hf : E.fo d.pars false with f | f
  · simp only [hf] at hr; cases hr
  rcases hg : E.fo d.pars true with g | g
  · simp only [hf, hg] at hr; cases hr
  simp only [hf, hg] at hr
  have hr : r = ⟨HObj.new false, (e.loop0, e.loop1 1 1, e.loop2 1 1, lit 0), (f.1, f.2.1, f.2.2, lit 0),
    (g.1, g.2.1, g.2.2, lit 0)⟩ := (Except.ok.inj hr).symm
  obtain ⟨x, hx, _, hl⟩ := put_eq r
  refine ⟨x, hx, ?_⟩
  unfold Reply.get
  rw [hl, hr]
  exact ⟨rfl, rfl, rfl, rfl, rfl, rfl, e, f, g, rfl, rfl, rfl, rfl, rfl, rfl⟩

end

/-! ### Non-vacuity -/

/-- a valid point -/
noncomputable def linkPoint : Params ℝ := { examplePoint with mu2 := fun i j => if i = 2 ∧ j = 2 then 2 else 1 }

/-- a linear algebra library (only the singular values of the vanishing Yukawa matrices matter) -/
noncomputable def linkExt : Ext ℝ := ⟨fun _ _ => 0, fun _ => ⟨0, 0⟩, fun _ => ⟨1, 0, 0, 1⟩⟩

theorem linkPoint_valid : Calculator.mk' linkExt linkPoint = .ok ⟨linkPoint, fun _ => 1⟩ := by
  have hv : validate linkExt linkPoint = (.ok (), linkPoint) := by
    have h1 : softMassesNegative linkPoint = false := by
      simp [softMassesNegative, minCoeff, linkPoint, examplePoint, Himalaya.minCoeff, real_ofNat]
    have h2 : h_svd linkExt linkPoint.Yu = linkPoint.Yu := by
      funext i j; simp [h_svd, linkExt, linkPoint, examplePoint, real_ofNat]
    have h3 : prep linkExt linkPoint = linkPoint := by
      have e : ({ linkPoint with
          MG := FOps.abs linkPoint.MG, Yu := h_svd linkExt linkPoint.Yu, Yd := h_svd linkExt linkPoint.Yd,
          Ye := h_svd linkExt linkPoint.Ye } : Params ℝ) = linkPoint := by
        rw [h2, show h_svd linkExt linkPoint.Yd = linkPoint.Yd from h2, show h_svd linkExt linkPoint.Ye = linkPoint.Ye from h2,
          show FOps.abs linkPoint.MG = linkPoint.MG by simp [linkPoint, examplePoint]]
      unfold prep
      rw [e]
      rfl
    have h4 : ∀ s : Sf ℝ, s.incomplete = false := fun s => rfl
    unfold validate
    rw [h1, h3]
    simp only [Bool.false_eq_true, if_false]
    rw [if_neg (by simp [linkPoint, examplePoint, real_ofNat]), if_neg (by simp [linkPoint, examplePoint, real_ofNat]),
      if_neg (by simp [linkPoint, examplePoint, real_ofNat])]
    unfold computeSfermions fillSf
    simp only [h4, Bool.false_eq_true, if_false]
    congr 1
    have s1 : ∀ (a b c : ℝ), sort_ev (⟨⟨1/2, 3/4⟩, a, b⟩ : Sf ℝ) = ⟨⟨1/2, 3/4⟩, a, b⟩ := by
      intro a b c
      unfold sort_ev
      rw [if_neg (by norm_num [real_lt_iff])]
    unfold sortAndShift
    simp only [Params.withStops, Params.withSbottoms, Params.withStaus, Params.stops, Params.sbottoms, Params.staus]
    have hst : linkPoint.MSt = ⟨1/2, 3/4⟩ := rfl
    have hsb : linkPoint.MSb = ⟨1/2, 3/4⟩ := rfl
    have hstau : linkPoint.MStau = ⟨1/2, 3/4⟩ := rfl
    have k1 : shiftStops (⟨1/2, 3/4⟩ : Vec2 ℝ) = ⟨1/2, 3/4⟩ := by
      unfold shiftStops degEps; rw [if_neg (by norm_num [real_lt_iff, abs_of_neg])]
    have k2 : shiftSbottoms (⟨1/2, 3/4⟩ : Vec2 ℝ) = ⟨1/2, 3/4⟩ := by
      unfold shiftSbottoms degEps; rw [if_neg (by norm_num [real_lt_iff, abs_of_neg])]
    have k3 : shiftMq2 linkPoint.mq2 linkPoint.mu2 = linkPoint.mq2 := by
      unfold shiftMq2 degEps; rw [if_neg (by norm_num [real_lt_iff, abs_of_neg, linkPoint, examplePoint])]
    rw [hst, hsb, hstau, s1 _ _ 0, s1 _ _ 0, s1 _ _ 0, k1, k2, k3]
    rfl
  unfold Calculator.mk'
  rw [hv]

theorem linkPoint_suitable : Suitable linkPoint (HObj.new false) 4 := by
  have := examplePoint_suitable
  exact this

/-- The hypotheses of `C48_three_loop_reply` are met. -/
example : ∃ (d : Data ℝ) (c : Calculator ℝ) (ho : HObj ℝ), d.loopOrder > 2 ∧ Calculator.mk' linkExt d.pars = .ok c ∧
    ((CalcOp.calculateDMh3L d.bottom).run exampleEnv c).2.result = .ok (.obj ho) := by
  obtain ⟨r, hr⟩ := C20_returns_if_suitable exampleEnv_total (fun _ => 1) false (HObj.new false) 4 linkPoint_suitable
  refine ⟨⟨linkPoint, false, 3, false⟩, _, r, by decide, linkPoint_valid, ?_⟩
  unfold CalcOp.run runOn
  dsimp only
  revert hr
  rcases Himalaya.calculateDMh3L exampleEnv linkPoint false ⟨fun _ => 1, HObj.new false⟩ with ⟨x, y⟩
  intro hr
  have hr : x = .ok r := hr
  subst hr
  rfl

/-- The hypotheses of `C48_lower_order_reply` are met. -/
example : ∃ (d : Data ℝ) (r : Results ℝ), d.loopOrder ≤ 2 ∧ d.bottom = true ∧ calculateResults linkExt exampleEnv d = .ok r :=
  ⟨⟨linkPoint, true, 2, false⟩, _, by decide, rfl, rfl⟩

end Himalaya.Link
