import Verif.Li2.ClSpec

/-!
# Bernoulli numbers

The first coefficients of the power series of the Clausen function as explicit rational numbers.  Generated table; the recursion is
checked by the kernel.
-/

namespace Himalaya.Clausen
open scoped Nat

/-- `B_k / k!` -/
def b (k : ℕ) : ℚ := bernoulli' k / k !

theorem b_rec (n : ℕ) : b n = 1 / (n ! : ℚ) - ∑ k ∈ Finset.range n, b k / (n - k + 1)! := by
  unfold b
  rw [bernoulli'_def n, sub_div, Finset.sum_div]
  congr 1
  apply Finset.sum_congr rfl
  intro k hk
  have hk : k ≤ n := (Finset.mem_range.1 hk).le
  rw [Nat.cast_choose ℚ hk, Nat.factorial_succ]
  have h1 : (n ! : ℚ) ≠ 0 := by positivity
  have h2 : (k ! : ℚ) ≠ 0 := by positivity
  have h3 : ((n - k)! : ℚ) ≠ 0 := by positivity
  push_cast [Nat.cast_sub hk]
  have h4 : (n : ℚ) - k + 1 ≠ 0 := by
    have : (k : ℚ) ≤ n := by exact_mod_cast hk
    linarith
  field_simp

/-- `b_(m-1)/(j+2)! + b_(m-2)/(j+3)! + ...` for the list of the `b`, last first; `f = 1/(j+2)!` -/
def conv : List ℚ → ℕ → ℚ → ℚ
  | [], _, _ => 0
  | x :: r, j, f => x * f + conv r (j + 1) (f / (j + 3))

/-- every entry is the one required by the recursion; also returns `1/n!` -/
def okB : List ℚ → Bool × ℕ × ℚ
  | [] => (true, 0, 1)
  | x :: r => let t := okB r; (t.1 && decide (x = t.2.2 - conv r 0 (1 / 2)), t.2.1 + 1, t.2.2 / (t.2.1 + 1))

theorem conv_eq (n j : ℕ) : conv ((List.range n).map b).reverse j (1 / (j + 2)!) =
    ∑ k ∈ Finset.range n, b k / (n - k + 1 + j)! := by
  induction n generalizing j with
  | zero => rfl
  | succ n ih =>
    rw [List.range_succ, List.map_append, List.reverse_append]
    simp only [List.map_cons, List.map_nil, List.reverse_singleton, List.singleton_append, conv]
    have e : (1 : ℚ) / (j + 2)! / (j + 3) = 1 / (j + 1 + 2)! := by
      have := Nat.factorial_succ (j + 2)
      rw [show j + 1 + 2 = j + 2 + 1 by ring, this, div_div]
      push_cast
      congr 1
      ring
    rw [e, ih, Finset.sum_range_succ, add_comm]
    congr 1
    · apply Finset.sum_congr rfl
      intro k hk
      have := Finset.mem_range.1 hk
      rw [show n - k + 1 + (j + 1) = n + 1 - k + 1 + j by omega]
    · rw [show n + 1 - n + 1 + j = j + 2 by omega]; ring

theorem okB_sound (l : List ℚ) (h : (okB l).1 = true) :
    l = ((List.range l.length).map b).reverse ∧ (okB l).2 = (l.length, 1 / ((l.length)! : ℚ)) := by
  induction l with
  | nil => simp [okB]
  | cons x r ih =>
    simp only [okB, Bool.and_eq_true, decide_eq_true_eq] at h
    obtain ⟨h1, h2⟩ := h
    obtain ⟨e1, e2⟩ := ih h1
    constructor
    · rw [List.length_cons, List.range_succ, List.map_append, List.reverse_append]
      simp only [List.map_cons, List.map_nil, List.reverse_singleton, List.singleton_append]
      rw [← e1]
      congr 1
      rw [h2, e2, b_rec]
      congr 1
      have := conv_eq r.length 0
      rw [← e1] at this
      rw [show ((1 : ℚ) / 2) = 1 / (0 + 2)! by norm_num, this]
    · simp only [okB, e2, List.length_cons, Nat.factorial_succ]
      push_cast
      rw [div_div, mul_comm]

/-- `b_61, ..., b_0` -/
def btab : List ℚ :=
  [0,
   -1215233140483755572040304994079820246041491/472521648504724881947681632159585722781504396170832356365329971241033924608000000000000000,
   0, 2913228046513104891794716413587449/28693059009453069463021866149046084071566112435728434318790612746240000000000000,
   0, -354198989901889536240773677094747/88366967341461600444717101899062958038679034518088079865439846400000000000000, 0,
   29149963634884862421418123812691/184213270476714621616730008661056009704456294528302737023565824000000000000, 0,
   -61628132164268458257532691681/9865115270907751302226185584744768422362331819308031672320000000000000, 0,
   19802288209643185928499101/80293206052523318035137285558410989749156973742055751680000000000, 0,
   -5609403368997817686249127547/576129822649599132654718834688598335537782181720594841600000000000, 0,
   25932657025822267968607/67466932568130829732947223083550951296312425840640000000000, 0,
   -2530297234481911294093/166746126054911786359100164509098633120050053120000000000, 0,
   1520097643918070802691/2537441048661701096768915546877587895305109504000000000, 0,
   -261082718496449122051/11039333782344056345696120477635448049500160000000000, 0,
   154210205991661/165165037094716140555791754978970828800000000, 0,
   -26315271553053477373/713925872841910517552409860896601407488000000000, 0,
   151628697551/104199811425742637946218332815360000000, 0, -7709321041217/134196726836183700385281186201600000000, 0,
   1723168255201/759790291646040068357842010112000000, 0, -3392780147/37893265687455865519472640000000, 0,
   657931/186134520519971831808000000, 0, -236364091/1693824136731743669452800000, 0, 77683/14101100039391805440000, 0,
   -174611/802857662698291200000, 0, 43867/5109094217170944000, 0, -3617/10670622842880000, 0, 1/74724249600, 0,
   -691/1307674368000, 0, 1/47900160, 0, -1/1209600, 0, 1/30240, 0, -1/720, 0, 1/12, 1/2, 1]

/-- common denominator of the coefficients -/
def Dz : ℤ := 16579925370487872770287071845549881535160061758563427941094117845658822485431524702289920000000000000000

/-- `Dz` times the coefficients of `x^(2i+3)` -/
def Sz : List ℤ :=
  [230276741256776010698431553410415021321667524424492054737418303411928090075437843087360000000000000000,
   1151383706283880053492157767052075106608337622122460273687091517059640450377189215436800000000000000,
   13054237032697052760682060850930556764266866463973472490783350533556014176612122624000000000000000,
   190374290060165352759946720742737286145558469266279807157257195281025206742260121600000000000000,
   3146682480333311615866887946160946878438982963079005076979457773240086061855539200000000000000,
   56161203937760640537720050903468951871453718189075602493943971387240288710819840000000000000,
   1056578366412284120101824401946593884701734206162059091781869215678905576325120000000000000,
   20662002331927074299352826891440474053666590742258692338749031969672369537024000000000000,
   416246398010129557716627121354003073453497564194418563637580299111162183680000000000000,
   8585514455405417067582599391019545335489203525011434002933096147366214369280000000000,
   180511572648259322746092253008161555500650004801237744483325042516557824000000000000,
   3856066384598002302407616510624755492404485809928849752198436139988680704000000000,
   83483160859821496366230175938202577861646083559781818523147668522270720000000000,
   1828185353985777393084928987133989764132944445744646219853530732167168000000000,
   40432776778036278951043135430439237215672600380554547787439550758912000000000,
   901971596202426378298756393499944838802941610808334502713740576358400000000,
   20274496678052557951679635177335309234379514174391059295161273548800000000,
   458810217959660041029443481233499773903300085401861873906239733760000000,
   10445503183988756549700341145452491406274486002279861818938163200000000,
   239096921657606040333692832541449755197433994104380337704539340800000,
   5499717095295838225815109906294214581408135891839097515233280000000,
   127067114836194694893607291091013050481581420088398997464985600000,
   2947697634701054725683404657770427907591160811251783377408000000,
   68634356855953412962682986402889705504568719960614575943200000,
   1603536938746415543124344178099077550004451499988277738880000,
   37582026909687397310062622962045209875809693638844427856000, 883371180190423012374870873168477509725994420339123024000,
   20819824115765571295854934435481970889490828546992527300, 491926475646538725118180016959353274078402982551611000,
   11650360932011097607153574259929517463632721907404949]

/-- `Dz` times the coefficient of `x^(2i+3)` in terms of `b` -/
def coefs : ℚ → ℕ → List ℚ → List ℚ
  | s, k, x :: _ :: r => s * Dz * x / (2 * k * (2 * k + 1)) :: coefs (-s) (k + 1) r
  | _, _, _ => []

theorem okB_btab : (okB btab).1 = true := by decide +kernel

theorem coefs_btab : coefs 1 1 (btab.reverse.drop 2) = Sz.map (fun (a : ℤ) => (a : ℚ)) := by decide +kernel

theorem btab_eq : btab = ((List.range 62).map b).reverse := (okB_sound _ okB_btab).1

theorem coefs_eq (s : ℚ) (k n : ℕ) : coefs s k ((List.range' (2 * k) (2 * n)).map b) =
    (List.range n).map fun i => s * (-1) ^ i * Dz * b (2 * (k + i)) / (2 * (k + i : ℕ) * (2 * (k + i : ℕ) + 1)) := by
  induction n generalizing s k with
  | zero => rfl
  | succ n ih =>
    rw [show 2 * (n + 1) = 2 * n + 1 + 1 by ring, List.range'_succ, List.range'_succ, List.range_succ_eq_map]
    simp only [List.map_cons, coefs, List.map_map]
    rw [show 2 * k + 1 + 1 = 2 * (k + 1) by ring, ih]
    congr 1
    · simp
    · apply List.map_congr_left
      intro i _
      simp only [Function.comp]
      rw [show k + 1 + i = k + (i + 1) by ring, pow_succ]
      push_cast
      ring

theorem Sz_eq : Sz.map (fun (a : ℤ) => (a : ℚ)) =
    (List.range 30).map fun i => (-1) ^ i * Dz * b (2 * (i + 1)) / (2 * (i + 1 : ℕ) * (2 * (i + 1 : ℕ) + 1)) := by
  have h : btab.reverse.drop 2 = (List.range' (2 * 1) (2 * 30)).map b := by
    rw [btab_eq, List.reverse_reverse, ← List.map_drop]
    rfl
  rw [← coefs_btab, h, coefs_eq]
  apply List.map_congr_left
  intro i _
  rw [add_comm 1 i, one_mul]

theorem c_eq (n : ℕ) (hn : n ≠ 0) : c n = (((-1) ^ (n + 1) * b (2 * n) / (2 * n) : ℚ) : ℝ) := by
  unfold c b
  rw [bernoulli_eq_bernoulli'_of_ne_one (by omega)]
  push_cast
  have : (n : ℝ) ≠ 0 := by exact_mod_cast hn
  field_simp

end Himalaya.Clausen
