import Verif.Spec.AllGases
import Mathlib.Analysis.Complex.ExponentialBounds

/-!
# The self-continuum of MWL24 is positive

The equilibrium constant of metastable dimers is positive between 200 K and 330 K: the second virial coefficient, a
polynomial of degree 9 in the temperature, exceeds the exponential of the bound dimers.  The interval is cut into pieces on
which the exponential is replaced by its value at the colder end; each polynomial inequality is in Bernstein form.
-/

namespace Verif.Lemmas

open Verif.Spec Real

theorem exp_le_taylor {x : ℝ} (h0 : 0 ≤ x) (h1 : x ≤ 8) : exp x ≤ (1 + x / 8 + (x / 8) ^ 2 / 2 + (x / 8) ^ 3 / 6 +
    (x / 8) ^ 4 / 24 + (x / 8) ^ 5 / 120 + (x / 8) ^ 6 * (7 / 4320)) ^ 8 := by
  have h := Real.exp_bound' (x := x / 8) (by positivity) (by linarith) (n := 6) (by norm_num)
  have e : exp x = exp (x / 8) ^ 8 := by rw [← exp_nat_mul]; congr 1; push_cast; ring
  rw [e]
  refine pow_le_pow_left₀ (exp_pos _).le (h.trans (le_of_eq ?_)) 8
  simp only [Finset.sum_range_succ, Finset.sum_range_zero, Nat.factorial]
  norm_num
  ring

/-- Minus the numerator of the virial coefficient, less the volume of a pair; temperature in units of 100 K. -/
noncomputable def virialNum (t : ℝ) : ℝ :=
  (7804242) * t ^ 0 + (-8345651) * t ^ 1 + (4212794) * t ^ 2 + (-1242946) * t ^ 3 + (1204911/5) * t ^ 4 + (-754442/25) * t ^ 5 + (2488457/1000) * t ^ 6 + (-337657/2500) * t ^ 7 + (4134191/1000000) * t ^ 8 + (-2765387/50000000) * t ^ 9

theorem virial_eq {T : ℝ} (hT : 0 < T) : secondVirial T - 30.5 = virialNum (T / 100) / (T / 100) ^ 6 := by
  rw [eq_div_iff (by positivity)]
  unfold secondVirial virialNum
  rw [show (100 / T) ^ 6 = ((T / 100) ^ 6)⁻¹ by rw [← inv_pow, inv_div]]
  have h : (T / 100) ^ 6 ≠ 0 := by positivity
  rw [sub_mul, mul_assoc, ← neg_mul_eq_neg_mul, inv_mul_cancel₀ h]
  norm_num
  ring

/-- One piece. -/
theorem dimer_piece {T a x K : ℝ} (hT : 0 < T) (ha : 0 < a) (h1 : a ≤ T / 100) (hx : 1669.8 / (100 * a) - 0.510485 * a ≤ x)
    (hK : exp x ≤ K) (h : 3.93 * K * (T / 100) ^ 7 < virialNum (T / 100)) : 0 < metastableDimers T := by
  have e1 : exp (1669.8 / T - 5.10485e-3 * T) ≤ K := by
    refine le_trans (exp_le_exp.2 ?_) hK
    refine le_trans ?_ hx
    have b : 100 * a ≤ T := by linarith
    have : 1669.8 / T ≤ 1669.8 / (100 * a) := by gcongr
    linarith
  unfold metastableDimers boundDimers
  rw [virial_eq hT, ← sub_div]
  refine div_pos (sub_pos.2 ?_) (by norm_num)
  rw [lt_div_iff₀ (by positivity), lt_div_iff₀ (by positivity)]
  refine lt_of_le_of_lt ?_ h
  have e2 := mul_le_mul_of_nonneg_right e1 (show 0 ≤ (T / 100) ^ 7 by positivity)
  have e3 : 0 ≤ exp (1669.8 / T - 5.10485e-3 * T) * (T / 100) ^ 7 := by positivity
  have e4 : 4.7856e-4 * exp (1669.8 / T - 5.10485e-3 * T) * (82.05746 * T) * (T / 100) ^ 6 =
    3.92694180576 * (exp (1669.8 / T - 5.10485e-3 * T) * (T / 100) ^ 7) := by
    generalize exp (1669.8 / T - 5.10485e-3 * T) = E
    norm_num
    ring
  rw [e4]
  linarith

theorem virial_piece0 {t : ℝ} (h1 : 2 ≤ t) (h2 : t ≤ 207/100) : 3.93 * (1524) * t ^ 7 < virialNum t := by
  have a0 : 0 ≤ t - 2 := sub_nonneg.2 h1
  have b0 : 0 ≤ 207/100 - t := sub_nonneg.2 h2
  obtain h | h : 0 < t - 2 ∨ 0 < 207/100 - t := by
    by_contra! h
    linarith [h.1, h.2]
  all_goals
    have key : 0 < (286947724933120000000000/40353607 : ℝ) * (t - 2) ^ 0 * (207/100 - t) ^ 9 + (2346318390648652800000000/40353607 : ℝ) * (t - 2) ^ 1 * (207/100 - t) ^ 8 + (8423834072404872192000000/40353607 : ℝ) * (t - 2) ^ 2 * (207/100 - t) ^ 7 + (2481759426307806218240000/5764801 : ℝ) * (t - 2) ^ 3 * (207/100 - t) ^ 6 + (3224536853884029988697600/5764801 : ℝ) * (t - 2) ^ 4 * (207/100 - t) ^ 5 + (2717338255960051087882816/5764801 : ℝ) * (t - 2) ^ 5 * (207/100 - t) ^ 4 + (36679426843284405366052376/144120025 : ℝ) * (t - 2) ^ 6 * (207/100 - t) ^ 3 + (2093169054676000610055910662/25221004375 : ℝ) * (t - 2) ^ 7 * (207/100 - t) ^ 2 + (35573669151848895778000039373/2522100437500 : ℝ) * (t - 2) ^ 8 * (207/100 - t) ^ 1 + (1644267153508151332241502337491/2017680350000000 : ℝ) * (t - 2) ^ 9 * (207/100 - t) ^ 0 := by
      positivity
    refine sub_pos.1 (key.trans_eq ?_)
    unfold virialNum
    norm_num
    ring

theorem virial_piece1 {t : ℝ} (h1 : 207/100 ≤ t) (h2 : t ≤ 54/25) : 3.93 * (5539/5) * t ^ 7 < virialNum t := by
  have a0 : 0 ≤ t - 207/100 := sub_nonneg.2 h1
  have b0 : 0 ≤ 54/25 - t := sub_nonneg.2 h2
  obtain h | h : 0 < t - 207/100 ∨ 0 < 54/25 - t := by
    by_contra! h
    linarith [h.1, h.2]
  all_goals
    have key : 0 < (1662535591358577164262278037499/2152336050000000 : ℝ) * (t - 207/100) ^ 0 * (54/25 - t) ^ 9 + (841356359886729930315446481263/134521003125000 : ℝ) * (t - 207/100) ^ 1 * (54/25 - t) ^ 8 + (372757301194071850584313303322/16815125390625 : ℝ) * (t - 207/100) ^ 2 * (54/25 - t) ^ 7 + (755498689248228174149025471784/16815125390625 : ℝ) * (t - 207/100) ^ 3 * (54/25 - t) ^ 6 + (958021155356554271846668311488/16815125390625 : ℝ) * (t - 207/100) ^ 4 * (54/25 - t) ^ 5 + (778821200749751008024338578944/16815125390625 : ℝ) * (t - 207/100) ^ 5 * (54/25 - t) ^ 4 + (396997028551194109475089154048/16815125390625 : ℝ) * (t - 207/100) ^ 6 * (54/25 - t) ^ 3 + (116539296529556419536287236096/16815125390625 : ℝ) * (t - 207/100) ^ 7 * (54/25 - t) ^ 2 + (15416886871959827667616858112/16815125390625 : ℝ) * (t - 207/100) ^ 8 * (54/25 - t) ^ 1 + (50733255964033246799331328/5605041796875 : ℝ) * (t - 207/100) ^ 9 * (54/25 - t) ^ 0 := by
      positivity
    refine sub_pos.1 (key.trans_eq ?_)
    unfold virialNum
    norm_num
    ring

theorem virial_piece2 {t : ℝ} (h1 : 54/25 ≤ t) (h2 : t ≤ 113/50) : 3.93 * (7561/10) * t ^ 7 < virialNum t := by
  have a0 : 0 ≤ t - 54/25 := sub_nonneg.2 h1
  have b0 : 0 ≤ 113/50 - t := sub_nonneg.2 h2
  obtain h | h : 0 < t - 54/25 ∨ 0 < 113/50 - t := by
    by_contra! h
    linarith [h.1, h.2]
  all_goals
    have key : 0 < (234005009752590203749183488/762939453125 : ℝ) * (t - 54/25) ^ 0 * (113/50 - t) ^ 9 + (1906655814952040867101344512/762939453125 : ℝ) * (t - 54/25) ^ 1 * (113/50 - t) ^ 8 + (6810906185277715472362723328/762939453125 : ℝ) * (t - 54/25) ^ 2 * (113/50 - t) ^ 7 + (13944552202338883449227181952/762939453125 : ℝ) * (t - 54/25) ^ 3 * (113/50 - t) ^ 6 + (17926301395928235736358405008/762939453125 : ℝ) * (t - 54/25) ^ 4 * (113/50 - t) ^ 5 + (14863662321752308864594853388/762939453125 : ℝ) * (t - 54/25) ^ 5 * (113/50 - t) ^ 4 + (7817267674320192301624175087/762939453125 : ℝ) * (t - 54/25) ^ 6 * (113/50 - t) ^ 3 + (2431407439681689056814562353/762939453125 : ℝ) * (t - 54/25) ^ 7 * (113/50 - t) ^ 2 + (5957208203251021049905671607/12207031250000 : ℝ) * (t - 54/25) ^ 8 * (113/50 - t) ^ 1 + (1859583904896031971736610849/97656250000000 : ℝ) * (t - 54/25) ^ 9 * (113/50 - t) ^ 0 := by
      positivity
    refine sub_pos.1 (key.trans_eq ?_)
    unfold virialNum
    norm_num
    ring

theorem virial_piece3 {t : ℝ} (h1 : 113/50 ≤ t) (h2 : t ≤ 119/50) : 3.93 * (2552/5) * t ^ 7 < virialNum t := by
  have a0 : 0 ≤ t - 113/50 := sub_nonneg.2 h1
  have b0 : 0 ≤ 119/50 - t := sub_nonneg.2 h2
  obtain h | h : 0 < t - 113/50 ∨ 0 < 119/50 - t := by
    by_contra! h
    linarith [h.1, h.2]
  all_goals
    have key : 0 < (30255561461473949473861610849/503884800000000 : ℝ) * (t - 113/50) ^ 0 * (119/50 - t) ^ 9 + (81916205906618551425888482461/167961600000000 : ℝ) * (t - 113/50) ^ 1 * (119/50 - t) ^ 8 + (72834289929069936467365411043/41990400000000 : ℝ) * (t - 113/50) ^ 2 * (119/50 - t) ^ 7 + (49395923839557684797797925107/13996800000000 : ℝ) * (t - 113/50) ^ 3 * (119/50 - t) ^ 6 + (377497466604985077395743063669/83980800000000 : ℝ) * (t - 113/50) ^ 4 * (119/50 - t) ^ 5 + (308553975909277187237436275147/83980800000000 : ℝ) * (t - 113/50) ^ 5 * (119/50 - t) ^ 4 + (79213853362486905386103322087/41990400000000 : ℝ) * (t - 113/50) ^ 6 * (119/50 - t) ^ 3 + (23523724146964719092742384349/41990400000000 : ℝ) * (t - 113/50) ^ 7 * (119/50 - t) ^ 2 + (12790055352967471352742557987/167961600000000 : ℝ) * (t - 113/50) ^ 8 * (119/50 - t) ^ 1 + (577825485796842743525941727/503884800000000 : ℝ) * (t - 113/50) ^ 9 * (119/50 - t) ^ 0 := by
      positivity
    refine sub_pos.1 (key.trans_eq ?_)
    unfold virialNum
    norm_num
    ring

theorem virial_piece4 {t : ℝ} (h1 : 119/50 ≤ t) (h2 : t ≤ 63/25) : 3.93 * (331) * t ^ 7 < virialNum t := by
  have a0 : 0 ≤ t - 119/50 := sub_nonneg.2 h1
  have b0 : 0 ≤ 63/25 - t := sub_nonneg.2 h2
  obtain h | h : 0 < t - 119/50 ∨ 0 < 63/25 - t := by
    by_contra! h
    linarith [h.1, h.2]
  all_goals
    have key : 0 < (30359816745616116423275941727/2017680350000000 : ℝ) * (t - 119/50) ^ 0 * (63/25 - t) ^ 9 + (123401748723858018022078455361/1008840175000000 : ℝ) * (t - 119/50) ^ 1 * (63/25 - t) ^ 8 + (54897779234002793262252786147/126105021875000 : ℝ) * (t - 119/50) ^ 2 * (63/25 - t) ^ 7 + (7981490125271833930772367923/9007501562500 : ℝ) * (t - 119/50) ^ 3 * (63/25 - t) ^ 6 + (10165652964341746459238284863/9007501562500 : ℝ) * (t - 119/50) ^ 4 * (63/25 - t) ^ 5 + (4150830591666201753942550001/4503750781250 : ℝ) * (t - 119/50) ^ 5 * (63/25 - t) ^ 4 + (1062853131063395181039901618/2251875390625 : ℝ) * (t - 119/50) ^ 6 * (63/25 - t) ^ 3 + (2194388296109397729525361316/15763127734375 : ℝ) * (t - 119/50) ^ 7 * (63/25 - t) ^ 2 + (291659146382303024694581966/15763127734375 : ℝ) * (t - 119/50) ^ 8 * (63/25 - t) ^ 1 + (2876814022505012385456996/15763127734375 : ℝ) * (t - 119/50) ^ 9 * (63/25 - t) ^ 0 := by
      positivity
    refine sub_pos.1 (key.trans_eq ?_)
    unfold virialNum
    norm_num
    ring

theorem virial_piece5 {t : ℝ} (h1 : 63/25 ≤ t) (h2 : t ≤ 67/25) : 3.93 * (1043/5) * t ^ 7 < virialNum t := by
  have a0 : 0 ≤ t - 63/25 := sub_nonneg.2 h1
  have b0 : 0 ≤ 67/25 - t := sub_nonneg.2 h2
  obtain h | h : 0 < t - 63/25 ∨ 0 < 67/25 - t := by
    by_contra! h
    linarith [h.1, h.2]
  all_goals
    have key : 0 < (59930945218744388846364249/13107200000000 : ℝ) * (t - 63/25) ^ 0 * (67/25 - t) ^ 9 + (489761173710471965695715669/13107200000000 : ℝ) * (t - 63/25) ^ 1 * (67/25 - t) ^ 8 + (438513768791603416965594521/3276800000000 : ℝ) * (t - 63/25) ^ 2 * (67/25 - t) ^ 7 + (899572076148330416226958441/3276800000000 : ℝ) * (t - 63/25) ^ 3 * (67/25 - t) ^ 6 + (2314923309872770731269412407/6553600000000 : ℝ) * (t - 63/25) ^ 4 * (67/25 - t) ^ 5 + (1917425384570348248875272163/6553600000000 : ℝ) * (t - 63/25) ^ 5 * (67/25 - t) ^ 4 + (501800406434683224882747989/3276800000000 : ℝ) * (t - 63/25) ^ 6 * (67/25 - t) ^ 3 + (153999908237797401119728029/3276800000000 : ℝ) * (t - 63/25) ^ 7 * (67/25 - t) ^ 2 + (90619550631605643186245761/13107200000000 : ℝ) * (t - 63/25) ^ 8 * (67/25 - t) ^ 1 + (2753936105357604202189261/13107200000000 : ℝ) * (t - 63/25) ^ 9 * (67/25 - t) ^ 0 := by
      positivity
    refine sub_pos.1 (key.trans_eq ?_)
    unfold virialNum
    norm_num
    ring

theorem virial_piece6 {t : ℝ} (h1 : 67/25 ≤ t) (h2 : t ≤ 72/25) : 3.93 * (259/2) * t ^ 7 < virialNum t := by
  have a0 : 0 ≤ t - 67/25 := sub_nonneg.2 h1
  have b0 : 0 ≤ 72/25 - t := sub_nonneg.2 h2
  obtain h | h : 0 < t - 67/25 ∨ 0 < 72/25 - t := by
    by_contra! h
    linarith [h.1, h.2]
  all_goals
    have key : 0 < (61630529598030221358439261/97656250000000 : ℝ) * (t - 67/25) ^ 0 * (72/25 - t) ^ 9 + (251569269357254377837012667/48828125000000 : ℝ) * (t - 67/25) ^ 1 * (72/25 - t) ^ 8 + (14046554386631211178226667/762939453125 : ℝ) * (t - 67/25) ^ 2 * (72/25 - t) ^ 7 + (229579365314492470076315669/6103515625000 : ℝ) * (t - 67/25) ^ 3 * (72/25 - t) ^ 6 + (36661688476122618139409757/762939453125 : ℝ) * (t - 67/25) ^ 4 * (72/25 - t) ^ 5 + (29990160488340668449163237/762939453125 : ℝ) * (t - 67/25) ^ 5 * (72/25 - t) ^ 4 + (15340841741072836498738028/762939453125 : ℝ) * (t - 67/25) ^ 6 * (72/25 - t) ^ 3 + (4486810303764512773302442/762939453125 : ℝ) * (t - 67/25) ^ 7 * (72/25 - t) ^ 2 + (574700293816952544406393/762939453125 : ℝ) * (t - 67/25) ^ 8 * (72/25 - t) ^ 1 + (112120004347632978282/762939453125 : ℝ) * (t - 67/25) ^ 9 * (72/25 - t) ^ 0 := by
      positivity
    refine sub_pos.1 (key.trans_eq ?_)
    unfold virialNum
    norm_num
    ring

theorem virial_piece7 {t : ℝ} (h1 : 72/25 ≤ t) (h2 : t ≤ 313/100) : 3.93 * (379/5) * t ^ 7 < virialNum t := by
  have a0 : 0 ≤ t - 72/25 := sub_nonneg.2 h1
  have b0 : 0 ≤ 313/100 - t := sub_nonneg.2 h2
  obtain h | h : 0 < t - 72/25 ∨ 0 < 313/100 - t := by
    by_contra! h
    linarith [h.1, h.2]
  all_goals
    have key : 0 < (135509109924848109611458756608/1490116119384765625 : ℝ) * (t - 72/25) ^ 0 * (313/100 - t) ^ 9 + (1113917597911057927320952963072/1490116119384765625 : ℝ) * (t - 72/25) ^ 1 * (313/100 - t) ^ 8 + (4010723895351277143833475186688/1490116119384765625 : ℝ) * (t - 72/25) ^ 2 * (313/100 - t) ^ 7 + (8263377155488672063892162895872/1490116119384765625 : ℝ) * (t - 72/25) ^ 3 * (313/100 - t) ^ 6 + (10659951734763745739118361054208/1490116119384765625 : ℝ) * (t - 72/25) ^ 4 * (313/100 - t) ^ 5 + (8824331725911147852648089284608/1490116119384765625 : ℝ) * (t - 72/25) ^ 5 * (313/100 - t) ^ 4 + (4586636063711717373388468981672/1490116119384765625 : ℝ) * (t - 72/25) ^ 6 * (313/100 - t) ^ 3 + (1376614860692112295931068283688/1490116119384765625 : ℝ) * (t - 72/25) ^ 7 * (313/100 - t) ^ 2 + (3005507512463278581682884174227/23841857910156250000 : ℝ) * (t - 72/25) ^ 8 * (313/100 - t) ^ 1 + (310231459516252487650569119749/190734863281250000000 : ℝ) * (t - 72/25) ^ 9 * (313/100 - t) ^ 0 := by
      positivity
    refine sub_pos.1 (key.trans_eq ?_)
    unfold virialNum
    norm_num
    ring

theorem virial_piece8 {t : ℝ} (h1 : 313/100 ≤ t) (h2 : t ≤ 33/10) : 3.93 * (421/10) * t ^ 7 < virialNum t := by
  have a0 : 0 ≤ t - 313/100 := sub_nonneg.2 h1
  have b0 : 0 ≤ 33/10 - t := sub_nonneg.2 h2
  obtain h | h : 0 < t - 313/100 ∨ 0 < 33/10 - t := by
    by_contra! h
    linarith [h.1, h.2]
  all_goals
    have key : 0 < (19799826637872315750099069119749/5929393824850000000 : ℝ) * (t - 313/100) ^ 0 * (33/10 - t) ^ 9 + (17115687759770020416901371518281/592939382485000000 : ℝ) * (t - 313/100) ^ 1 * (33/10 - t) ^ 8 + (1638417588625225522389772226421/14823484562125000 : ℝ) * (t - 313/100) ^ 2 * (33/10 - t) ^ 7 + (364553648622886642765303507709/1482348456212500 : ℝ) * (t - 313/100) ^ 3 * (33/10 - t) ^ 6 + (103829001364525783103180070507/296469691242500 : ℝ) * (t - 313/100) ^ 4 * (33/10 - t) ^ 5 + (9806619543122313372391175087/29646969124250 : ℝ) * (t - 313/100) ^ 5 * (33/10 - t) ^ 4 + (613770357406980711795936578/2964696912425 : ℝ) * (t - 313/100) ^ 6 * (33/10 - t) ^ 3 + (49036897886233873385284484/592939382485 : ℝ) * (t - 313/100) ^ 7 * (33/10 - t) ^ 2 + (2265724223351083871117722/118587876497 : ℝ) * (t - 313/100) ^ 8 * (33/10 - t) ^ 1 + (230189115678905848293780/118587876497 : ℝ) * (t - 313/100) ^ 9 * (33/10 - t) ^ 0 := by
      positivity
    refine sub_pos.1 (key.trans_eq ?_)
    unfold virialNum
    norm_num
    ring

theorem metastable_pos {T : ℝ} (h1 : 200 ≤ T) (h2 : T ≤ 330) : 0 < metastableDimers T := by
  have hT : 0 < T := by linarith
  have ev : ∀ x K : ℝ, 0 ≤ x → x ≤ 8 → (1 + x / 8 + (x / 8) ^ 2 / 2 + (x / 8) ^ 3 / 6 +
      (x / 8) ^ 4 / 24 + (x / 8) ^ 5 / 120 + (x / 8) ^ 6 * (7 / 4320)) ^ 8 ≤ K → exp x ≤ K :=
    fun x K a b c => (exp_le_taylor a b).trans c
  have lo : 2 ≤ T / 100 := by linarith
  have hi : T / 100 ≤ 33 / 10 := by linarith
  rcases le_or_gt (T / 100) (207/100) with hi | lo
  · exact dimer_piece (x := 7329/1000) (K := 1524) hT (by norm_num) lo (by norm_num) (ev _ _ (by norm_num) (by norm_num) (by norm_num)) (virial_piece0 lo hi)
  rcases le_or_gt (T / 100) (54/25) with hi | lo
  · exact dimer_piece (x := 701/100) (K := 5539/5) hT (by norm_num) lo.le (by norm_num) (ev _ _ (by norm_num) (by norm_num) (by norm_num)) (virial_piece1 lo.le hi)
  rcases le_or_gt (T / 100) (113/50) with hi | lo
  · exact dimer_piece (x := 1657/250) (K := 7561/10) hT (by norm_num) lo.le (by norm_num) (ev _ _ (by norm_num) (by norm_num) (by norm_num)) (virial_piece2 lo.le hi)
  rcases le_or_gt (T / 100) (119/50) with hi | lo
  · exact dimer_piece (x := 1247/200) (K := 2552/5) hT (by norm_num) lo.le (by norm_num) (ev _ _ (by norm_num) (by norm_num) (by norm_num)) (virial_piece3 lo.le hi)
  rcases le_or_gt (T / 100) (63/25) with hi | lo
  · exact dimer_piece (x := 2901/500) (K := 331) hT (by norm_num) lo.le (by norm_num) (ev _ _ (by norm_num) (by norm_num) (by norm_num)) (virial_piece4 lo.le hi)
  rcases le_or_gt (T / 100) (67/25) with hi | lo
  · exact dimer_piece (x := 267/50) (K := 1043/5) hT (by norm_num) lo.le (by norm_num) (ev _ _ (by norm_num) (by norm_num) (by norm_num)) (virial_piece5 lo.le hi)
  rcases le_or_gt (T / 100) (72/25) with hi | lo
  · exact dimer_piece (x := 4863/1000) (K := 259/2) hT (by norm_num) lo.le (by norm_num) (ev _ _ (by norm_num) (by norm_num) (by norm_num)) (virial_piece6 lo.le hi)
  rcases le_or_gt (T / 100) (313/100) with hi | lo
  · exact dimer_piece (x := 541/125) (K := 379/5) hT (by norm_num) lo.le (by norm_num) (ev _ _ (by norm_num) (by norm_num) (by norm_num)) (virial_piece7 lo.le hi)
  exact dimer_piece (x := 1869/500) (K := 421/10) hT (by norm_num) lo.le (by norm_num) (ev _ _ (by norm_num) (by norm_num) (by norm_num)) (virial_piece8 lo.le hi)

/-- Between 200 K and 330 K the self-continuum of MWL24 is positive. -/
theorem dimerContinuum_pos {T f : ℝ} (h1 : 200 ≤ T) (h2 : T ≤ 330) (hf : 0 < f) : 0 < dimerContinuum T f := by
  have hT : 0 < T := by linarith
  have hM := metastable_pos h1 h2
  have hB : 0 < boundDimers T := by unfold boundDimers; positivity
  have hD : 0 < dimerSpectrum T f := by unfold dimerSpectrum; positivity
  unfold dimerContinuum
  positivity

end Verif.Lemmas
