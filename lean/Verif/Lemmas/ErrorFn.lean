import Verif.Model.ErrorFn
import Mathlib.Tactic.Linarith
import Mathlib.Tactic.Positivity
import Mathlib.Tactic.Ring

/-!
# The rational approximation of the complex error function has positive real part
-/

namespace Verif.Lemmas

open Verif.Model

/-- Real and imaginary part of `errA` and `errB` at `y - i x`, by Horner's rule. -/
def hornerRI (x y : ℝ) : List ℝ → ℝ × ℝ
  | [] => (0, 0)
  | c :: l => (c + ((hornerRI x y l).1 * y + (hornerRI x y l).2 * x), (hornerRI x y l).2 * y - (hornerRI x y l).1 * x)

/-- Coefficients of `errA`. -/
noncomputable def coefA : List ℝ := [61303965888552163/500000000000000, 8575295547788257/40000000000000, 181928533092181549/1000000000000000, 93155580458138441/1000000000000000, 30180142196210589/1000000000000000, 5912626209773153/1000000000000000, 112837916712523/200000000000000]

/-- Coefficients of `errB`. -/
noncomputable def coefB : List ℝ := [2452158635477507/20000000000000, 176365312555481779/500000000000000, 457334478783897737/1000000000000000, 21793994857468487/62500000000000, 10647125113818217/62500000000000, 53992906912940207/1000000000000000, 10479857114260399/1000000000000000, 1]

theorem errA_eq (x y : ℝ) : errA ⟨y, -x⟩ = ⟨(hornerRI x y coefA).1, (hornerRI x y coefA).2⟩ := by
  have hc (r : ℝ) (s t : ℝ) (w : ℂ) (hw : w = ⟨s, t⟩) (c : ℂ) (h : c = (r : ℂ)) :
      w * ⟨y, -x⟩ + c = ⟨r + (s * y + t * x), t * y - s * x⟩ := by
    subst hw h
    apply Complex.ext <;> simp [Complex.mul_re, Complex.mul_im] <;> ring
  unfold errA coefA
  simp only [hornerRI]
  refine hc _ _ _ _ (hc _ _ _ _ (hc _ _ _ _ (hc _ _ _ _ (hc _ _ _ _ (hc _ _ _ _ ?_ _ ?_) _ ?_) _ ?_) _ ?_) _ ?_) _ ?_
  · apply Complex.ext <;> simp <;> norm_num
  all_goals (push_cast; norm_num)

theorem errB_eq (x y : ℝ) : errB ⟨y, -x⟩ = ⟨(hornerRI x y coefB).1, (hornerRI x y coefB).2⟩ := by
  have hc (r : ℝ) (s t : ℝ) (w : ℂ) (hw : w = ⟨s, t⟩) (c : ℂ) (h : c = (r : ℂ)) :
      w * ⟨y, -x⟩ + c = ⟨r + (s * y + t * x), t * y - s * x⟩ := by
    subst hw h
    apply Complex.ext <;> simp [Complex.mul_re, Complex.mul_im] <;> ring
  unfold errB coefB
  simp only [hornerRI]
  refine hc _ _ _ _ (hc _ _ _ _ (hc _ _ _ _ (hc _ _ _ _ (hc _ _ _ _ (hc _ _ _ _ ?_ _ ?_) _ ?_) _ ?_) _ ?_) _ ?_) _ ?_
  · apply Complex.ext <;> simp <;> norm_num <;> ring
  all_goals (push_cast; norm_num)

/-- `Re (A conj B)` expanded; `X = x²`. -/
noncomputable def errPoly (X y : ℝ) : ℝ :=
  (150327049342631706987922382697641/10000000000000000000000000000 : ℝ) + (-1379740885037877329084384688383631/500000000000000000000000000000) * X ^ 1 + (174462550706166359844933890446957/1000000000000000000000000000000) * X ^ 2 + (-1088105978880846983260352296231/250000000000000000000000000000) * X ^ 3 + (37483450269415363388190207851/1000000000000000000000000000000) * X ^ 4 + (-3711829189531604750941081/50000000000000000000000000000) * X ^ 5 + (2263425935112646276677/200000000000000000000000000000) * X ^ 6 + (34766276852950686727900580872137829/500000000000000000000000000000) * y ^ 1 + (-310214424718051185172379542125059/1000000000000000000000000000000) * y ^ 1 * X ^ 1 + (1267843888901629319159108374250199/1000000000000000000000000000000) * y ^ 1 * X ^ 2 + (182928417014768090691004917469153/1000000000000000000000000000000) * y ^ 1 * X ^ 3 + (13709468810526130492177469680511/500000000000000000000000000000) * y ^ 1 * X ^ 4 + (235660865796085094968337103669/125000000000000000000000000000) * y ^ 1 * X ^ 5 + (112837916712523/200000000000000) * y ^ 1 * X ^ 6 + (76998974862103241432953610371843781/500000000000000000000000000000) * y ^ 2 + (9440960911964138660926880147287547/500000000000000000000000000000) * y ^ 2 * X ^ 1 + (466432671401909475633505079058671/100000000000000000000000000000) * y ^ 2 * X ^ 2 + (362579448821068827267231937763941/500000000000000000000000000000) * y ^ 2 * X ^ 3 + (39773023826001318168403194630241/500000000000000000000000000000) * y ^ 2 * X ^ 4 + (1182525248744908405337938830031/100000000000000000000000000000) * y ^ 2 * X ^ 5 + (216391702404594485484288435975177109/1000000000000000000000000000000) * y ^ 3 + (22151625221115690977881720366756403/500000000000000000000000000000) * y ^ 3 * X ^ 1 + (344333889033217828617113617769367/40000000000000000000000000000) * y ^ 3 * X ^ 2 + (290768562882238352617281866275061/250000000000000000000000000000) * y ^ 3 * X ^ 3 + (3253675085417143994968337103669/25000000000000000000000000000) * y ^ 3 * X ^ 4 + (338513750137569/100000000000000) * y ^ 3 * X ^ 5 + (215404072461669581145769547756040313/1000000000000000000000000000000) * y ^ 4 + (6703880188652795412409319399021429/125000000000000000000000000000) * y ^ 4 * X ^ 1 + (2300441045613662180434839352294747/250000000000000000000000000000) * y ^ 4 * X ^ 2 + (66464348539934748729260984078633/62500000000000000000000000000) * y ^ 4 * X ^ 3 + (2365050490699539005337938830031/40000000000000000000000000000) * y ^ 4 * X ^ 4 + (160553702843915534853031091359487119/1000000000000000000000000000000) * y ^ 5 + (42067080774788785222374528288824811/1000000000000000000000000000000) * y ^ 5 * X ^ 1 + (31177828291677257247506263795673/5000000000000000000000000000) * y ^ 5 * X ^ 2 + (6271689305038202894968337103669/12500000000000000000000000000) * y ^ 5 * X ^ 3 + (338513750137569/40000000000000) * y ^ 5 * X ^ 4 + (46146584770732139161879860031021083/500000000000000000000000000000) * y ^ 6 + (11544219022007283870664437976302867/500000000000000000000000000000) * y ^ 6 * X ^ 1 + (678252925409753553665684677998823/250000000000000000000000000000) * y ^ 6 * X ^ 2 + (1182525244218056535112646276677/10000000000000000000000000000) * y ^ 6 * X ^ 3 + (41488569599707784461637692762059789/1000000000000000000000000000000) * y ^ 7 + (2272896078142062927883135720103139/250000000000000000000000000000) * y ^ 7 * X ^ 1 + (9289703524659261794968337103669/12500000000000000000000000000) * y ^ 7 * X ^ 2 + (112837916712523/10000000000000) * y ^ 7 * X ^ 3 + (14611795275751787258760594228746777/1000000000000000000000000000000) * y ^ 8 + (638479808788022497207162709841557/250000000000000000000000000000) * y ^ 8 * X ^ 1 + (4730100974608800205337938830031/40000000000000000000000000000) * y ^ 8 * X ^ 2 + (1995836984070350705758031323508589/500000000000000000000000000000) * y ^ 9 + (12307717744280320694968337103669/25000000000000000000000000000) * y ^ 9 * X ^ 1 + (338513750137569/40000000000000) * y ^ 9 * X ^ 2 + (412395494131722663432593232273481/500000000000000000000000000000) * y ^ 10 + (5912626216563430805337938830031/100000000000000000000000000000) * y ^ 10 * X ^ 1 + (15325731963901379594968337103669/125000000000000000000000000000) * y ^ 11 + (338513750137569/100000000000000) * y ^ 11 * X ^ 1 + (2365050486172687135112646276677/200000000000000000000000000000) * y ^ 12 + (112837916712523/200000000000000) * y ^ 13

theorem errPoly_eq (x y : ℝ) : (hornerRI x y coefA).1 * (hornerRI x y coefB).1
    + (hornerRI x y coefA).2 * (hornerRI x y coefB).2 = errPoly (x ^ 2) y := by
  simp only [hornerRI, coefA, coefB, errPoly]
  ring

/-- Part of degree 0 and, at `y = 1/10000`, 1 in `y`. -/
noncomputable def errLow (X : ℝ) : ℝ := (75198290948168804180689091929692637829/5000000000000000000000000000000000 : ℝ) + (-27595127915182264632872866147214745059/10000000000000000000000000000000000 : ℝ) * X ^ 1 + (1745893350950565227768498012843820199/10000000000000000000000000000000000 : ℝ) * X ^ 2 + (-43341310738219111239723086931770847/10000000000000000000000000000000000 : ℝ) * X ^ 3 + (201126720157602947433128508935511/5000000000000000000000000000000000 : ℝ) * X ^ 4 + (142865136057794976194810078669/1250000000000000000000000000000000 : ℝ) * X ^ 5 + (11286055097187412646276677/200000000000000000000000000000 : ℝ) * X ^ 6

theorem errLow_pos {X : ℝ} (hX : 0 ≤ X) : 0 < errLow X := by
  rcases le_or_gt X 16 with h0 | h0
  · have e1 : errLow X = (75198290948168804180689091929692637829/83886080000000000000000000000000000000000 : ℝ) * (X - 0) ^ 0 * (16 - X) ^ 6 + (115214361183777354010575811200218933251/41943040000000000000000000000000000000000 : ℝ) * (X - 0) ^ 1 * (16 - X) ^ 5 + (247643596536913826549789478700808750547/83886080000000000000000000000000000000000 : ℝ) * (X - 0) ^ 2 * (16 - X) ^ 4 + (25372494260902892445617661839110599773/20971520000000000000000000000000000000000 : ℝ) * (X - 0) ^ 3 * (16 - X) ^ 3 + (324090083784617372513296995402457619/3355443200000000000000000000000000000000 : ℝ) * (X - 0) ^ 4 * (16 - X) ^ 2 + (977156434459252077810529386099440851/41943040000000000000000000000000000000000 : ℝ) * (X - 0) ^ 5 * (16 - X) ^ 1 + (1532517460844414455425043631659423689/16777216000000000000000000000000000000000 : ℝ) * (X - 0) ^ 6 * (16 - X) ^ 0 := by
      unfold errLow
      ring
    have u : 0 ≤ X - 0 := by linarith
    have v : 0 ≤ 16 - X := by linarith
    rw [e1]
    rcases u.eq_or_lt with u | u
    · rw [← u]
      have : 0 < 16 - X := by linarith
      simp only [ne_eq, OfNat.ofNat_ne_zero, not_false_eq_true, zero_pow, mul_zero, zero_mul, add_zero, pow_zero, mul_one,
        one_ne_zero]
      positivity
    · positivity
  rcases le_or_gt X 32 with h1 | h1
  · have e1 : errLow X = (1532517460844414455425043631659423689/16777216000000000000000000000000000000000 : ℝ) * (X - 16) ^ 0 * (32 - X) ^ 6 + (44998367390873181584940779563683269819/41943040000000000000000000000000000000000 : ℝ) * (X - 16) ^ 1 * (32 - X) ^ 5 + (89662872331750945876826985332179946031/16777216000000000000000000000000000000000 : ℝ) * (X - 16) ^ 2 * (32 - X) ^ 4 + (277792373408025825708845326540908201957/20971520000000000000000000000000000000000 : ℝ) * (X - 16) ^ 3 * (32 - X) ^ 3 + (303166741609166369084662289603805363607/16777216000000000000000000000000000000000 : ℝ) * (X - 16) ^ 4 * (32 - X) ^ 2 + (558204869590806601778676652532295323531/41943040000000000000000000000000000000000 : ℝ) * (X - 16) ^ 5 * (32 - X) ^ 1 + (350499025190489577839237462662147127893/83886080000000000000000000000000000000000 : ℝ) * (X - 16) ^ 6 * (32 - X) ^ 0 := by
      unfold errLow
      ring
    have u : 0 ≤ X - 16 := by linarith
    have v : 0 ≤ 32 - X := by linarith
    rw [e1]
    rcases u.eq_or_lt with u | u
    · rw [← u]
      have : 0 < 32 - X := by linarith
      simp only [ne_eq, OfNat.ofNat_ne_zero, not_false_eq_true, zero_pow, mul_zero, zero_mul, add_zero, pow_zero, mul_one,
        one_ne_zero]
      positivity
    · positivity
  rcases le_or_gt X 64 with h2 | h2
  · have e1 : errLow X = (350499025190489577839237462662147127893/5368709120000000000000000000000000000000000 : ℝ) * (X - 32) ^ 0 * (64 - X) ^ 6 + (81523259501311719879831354355789340159/107374182400000000000000000000000000000000 : ℝ) * (X - 32) ^ 1 * (64 - X) ^ 5 + (3977682211490204856653940819905650025167/1073741824000000000000000000000000000000000 : ℝ) * (X - 32) ^ 2 * (64 - X) ^ 4 + (13046595646829274387625133495384339348529/1342177280000000000000000000000000000000000 : ℝ) * (X - 32) ^ 3 * (64 - X) ^ 3 + (77583963631302023631136709954532437190939/5368709120000000000000000000000000000000000 : ℝ) * (X - 32) ^ 4 * (64 - X) ^ 2 + (6172152444811672381802096993933763207451/536870912000000000000000000000000000000000 : ℝ) * (X - 32) ^ 5 * (64 - X) ^ 1 + (20464154031201332613383764771207593231909/5368709120000000000000000000000000000000000 : ℝ) * (X - 32) ^ 6 * (64 - X) ^ 0 := by
      unfold errLow
      ring
    have u : 0 ≤ X - 32 := by linarith
    have v : 0 ≤ 64 - X := by linarith
    rw [e1]
    rcases u.eq_or_lt with u | u
    · rw [← u]
      have : 0 < 64 - X := by linarith
      simp only [ne_eq, OfNat.ofNat_ne_zero, not_false_eq_true, zero_pow, mul_zero, zero_mul, add_zero, pow_zero, mul_one,
        one_ne_zero]
      positivity
    · positivity
  have e1 : errLow X = (20464154031201332613383764771207593231909/5000000000000000000000000000000000 : ℝ) * (X - 64) ^ 0 + (3816462483693204491392601167994245457309/10000000000000000000000000000000000 : ℝ) * (X - 64) ^ 1 + (148317679411598425276930335597574561127/10000000000000000000000000000000000 : ℝ) * (X - 64) ^ 2 + (613004249032597791278221458341893741/2000000000000000000000000000000000 : ℝ) * (X - 64) ^ 3 + (17719374723591446341643461281631831/5000000000000000000000000000000000 : ℝ) * (X - 64) ^ 4 + (27229397369307585327258834878669/1250000000000000000000000000000000 : ℝ) * (X - 64) ^ 5 + (11286055097187412646276677/200000000000000000000000000000 : ℝ) * (X - 64) ^ 6 := by
    unfold errLow
    ring
  have u : 0 < X - 64 := by linarith
  rw [e1]
  positivity

theorem errPoly_pos {X y : ℝ} (hX : 0 ≤ X) (hy : 1 / 10000 ≤ y) : 0 < errPoly X y := by
  have hy0 : 0 < y := by linarith
  have h1 := errLow_pos hX
  have h2 : 0 ≤ (y - 1 / 10000) * ((34766276852950686727900580872137829/500000000000000000000000000000 : ℝ) + (-310214424718051185172379542125059/1000000000000000000000000000000 : ℝ) * X ^ 1 + (1267843888901629319159108374250199/1000000000000000000000000000000 : ℝ) * X ^ 2 + (182928417014768090691004917469153/1000000000000000000000000000000 : ℝ) * X ^ 3 + (13709468810526130492177469680511/500000000000000000000000000000 : ℝ) * X ^ 4 + (235660865796085094968337103669/125000000000000000000000000000 : ℝ) * X ^ 5 + (112837916712523/200000000000000 : ℝ) * X ^ 6) := by
    refine mul_nonneg (by linarith) ?_
    have : 0 ≤ (34766276852950686727900580872137829/500000000000000000000000000000 : ℝ) + (-310214424718051185172379542125059/1000000000000000000000000000000) * X ^ 1 + (1267843888901629319159108374250199/1000000000000000000000000000000) * X ^ 2 := by nlinarith [sq_nonneg (X - 1)]
    have h3 : 0 ≤ (182928417014768090691004917469153/1000000000000000000000000000000 : ℝ) * X ^ 3 + (13709468810526130492177469680511/500000000000000000000000000000 : ℝ) * X ^ 4 + (235660865796085094968337103669/125000000000000000000000000000 : ℝ) * X ^ 5 + (112837916712523/200000000000000 : ℝ) * X ^ 6 := by positivity
    linarith
  have h3 : 0 ≤ (76998974862103241432953610371843781/500000000000000000000000000000 : ℝ) * y ^ 2 + (9440960911964138660926880147287547/500000000000000000000000000000) * y ^ 2 * X ^ 1 + (466432671401909475633505079058671/100000000000000000000000000000) * y ^ 2 * X ^ 2 + (362579448821068827267231937763941/500000000000000000000000000000) * y ^ 2 * X ^ 3 + (39773023826001318168403194630241/500000000000000000000000000000) * y ^ 2 * X ^ 4 + (1182525248744908405337938830031/100000000000000000000000000000) * y ^ 2 * X ^ 5 + (216391702404594485484288435975177109/1000000000000000000000000000000) * y ^ 3 + (22151625221115690977881720366756403/500000000000000000000000000000) * y ^ 3 * X ^ 1 + (344333889033217828617113617769367/40000000000000000000000000000) * y ^ 3 * X ^ 2 + (290768562882238352617281866275061/250000000000000000000000000000) * y ^ 3 * X ^ 3 + (3253675085417143994968337103669/25000000000000000000000000000) * y ^ 3 * X ^ 4 + (338513750137569/100000000000000) * y ^ 3 * X ^ 5 + (215404072461669581145769547756040313/1000000000000000000000000000000) * y ^ 4 + (6703880188652795412409319399021429/125000000000000000000000000000) * y ^ 4 * X ^ 1 + (2300441045613662180434839352294747/250000000000000000000000000000) * y ^ 4 * X ^ 2 + (66464348539934748729260984078633/62500000000000000000000000000) * y ^ 4 * X ^ 3 + (2365050490699539005337938830031/40000000000000000000000000000) * y ^ 4 * X ^ 4 + (160553702843915534853031091359487119/1000000000000000000000000000000) * y ^ 5 + (42067080774788785222374528288824811/1000000000000000000000000000000) * y ^ 5 * X ^ 1 + (31177828291677257247506263795673/5000000000000000000000000000) * y ^ 5 * X ^ 2 + (6271689305038202894968337103669/12500000000000000000000000000) * y ^ 5 * X ^ 3 + (338513750137569/40000000000000) * y ^ 5 * X ^ 4 + (46146584770732139161879860031021083/500000000000000000000000000000) * y ^ 6 + (11544219022007283870664437976302867/500000000000000000000000000000) * y ^ 6 * X ^ 1 + (678252925409753553665684677998823/250000000000000000000000000000) * y ^ 6 * X ^ 2 + (1182525244218056535112646276677/10000000000000000000000000000) * y ^ 6 * X ^ 3 + (41488569599707784461637692762059789/1000000000000000000000000000000) * y ^ 7 + (2272896078142062927883135720103139/250000000000000000000000000000) * y ^ 7 * X ^ 1 + (9289703524659261794968337103669/12500000000000000000000000000) * y ^ 7 * X ^ 2 + (112837916712523/10000000000000) * y ^ 7 * X ^ 3 + (14611795275751787258760594228746777/1000000000000000000000000000000) * y ^ 8 + (638479808788022497207162709841557/250000000000000000000000000000) * y ^ 8 * X ^ 1 + (4730100974608800205337938830031/40000000000000000000000000000) * y ^ 8 * X ^ 2 + (1995836984070350705758031323508589/500000000000000000000000000000) * y ^ 9 + (12307717744280320694968337103669/25000000000000000000000000000) * y ^ 9 * X ^ 1 + (338513750137569/40000000000000) * y ^ 9 * X ^ 2 + (412395494131722663432593232273481/500000000000000000000000000000) * y ^ 10 + (5912626216563430805337938830031/100000000000000000000000000000) * y ^ 10 * X ^ 1 + (15325731963901379594968337103669/125000000000000000000000000000) * y ^ 11 + (338513750137569/100000000000000) * y ^ 11 * X ^ 1 + (2365050486172687135112646276677/200000000000000000000000000000) * y ^ 12 + (112837916712523/200000000000000) * y ^ 13 := by positivity
  have e1 : errPoly X y = errLow X + (y - 1 / 10000) * ((34766276852950686727900580872137829/500000000000000000000000000000 : ℝ) + (-310214424718051185172379542125059/1000000000000000000000000000000 : ℝ) * X ^ 1 + (1267843888901629319159108374250199/1000000000000000000000000000000 : ℝ) * X ^ 2 + (182928417014768090691004917469153/1000000000000000000000000000000 : ℝ) * X ^ 3 + (13709468810526130492177469680511/500000000000000000000000000000 : ℝ) * X ^ 4 + (235660865796085094968337103669/125000000000000000000000000000 : ℝ) * X ^ 5 + (112837916712523/200000000000000 : ℝ) * X ^ 6) + ((76998974862103241432953610371843781/500000000000000000000000000000 : ℝ) * y ^ 2 + (9440960911964138660926880147287547/500000000000000000000000000000) * y ^ 2 * X ^ 1 + (466432671401909475633505079058671/100000000000000000000000000000) * y ^ 2 * X ^ 2 + (362579448821068827267231937763941/500000000000000000000000000000) * y ^ 2 * X ^ 3 + (39773023826001318168403194630241/500000000000000000000000000000) * y ^ 2 * X ^ 4 + (1182525248744908405337938830031/100000000000000000000000000000) * y ^ 2 * X ^ 5 + (216391702404594485484288435975177109/1000000000000000000000000000000) * y ^ 3 + (22151625221115690977881720366756403/500000000000000000000000000000) * y ^ 3 * X ^ 1 + (344333889033217828617113617769367/40000000000000000000000000000) * y ^ 3 * X ^ 2 + (290768562882238352617281866275061/250000000000000000000000000000) * y ^ 3 * X ^ 3 + (3253675085417143994968337103669/25000000000000000000000000000) * y ^ 3 * X ^ 4 + (338513750137569/100000000000000) * y ^ 3 * X ^ 5 + (215404072461669581145769547756040313/1000000000000000000000000000000) * y ^ 4 + (6703880188652795412409319399021429/125000000000000000000000000000) * y ^ 4 * X ^ 1 + (2300441045613662180434839352294747/250000000000000000000000000000) * y ^ 4 * X ^ 2 + (66464348539934748729260984078633/62500000000000000000000000000) * y ^ 4 * X ^ 3 + (2365050490699539005337938830031/40000000000000000000000000000) * y ^ 4 * X ^ 4 + (160553702843915534853031091359487119/1000000000000000000000000000000) * y ^ 5 + (42067080774788785222374528288824811/1000000000000000000000000000000) * y ^ 5 * X ^ 1 + (31177828291677257247506263795673/5000000000000000000000000000) * y ^ 5 * X ^ 2 + (6271689305038202894968337103669/12500000000000000000000000000) * y ^ 5 * X ^ 3 + (338513750137569/40000000000000) * y ^ 5 * X ^ 4 + (46146584770732139161879860031021083/500000000000000000000000000000) * y ^ 6 + (11544219022007283870664437976302867/500000000000000000000000000000) * y ^ 6 * X ^ 1 + (678252925409753553665684677998823/250000000000000000000000000000) * y ^ 6 * X ^ 2 + (1182525244218056535112646276677/10000000000000000000000000000) * y ^ 6 * X ^ 3 + (41488569599707784461637692762059789/1000000000000000000000000000000) * y ^ 7 + (2272896078142062927883135720103139/250000000000000000000000000000) * y ^ 7 * X ^ 1 + (9289703524659261794968337103669/12500000000000000000000000000) * y ^ 7 * X ^ 2 + (112837916712523/10000000000000) * y ^ 7 * X ^ 3 + (14611795275751787258760594228746777/1000000000000000000000000000000) * y ^ 8 + (638479808788022497207162709841557/250000000000000000000000000000) * y ^ 8 * X ^ 1 + (4730100974608800205337938830031/40000000000000000000000000000) * y ^ 8 * X ^ 2 + (1995836984070350705758031323508589/500000000000000000000000000000) * y ^ 9 + (12307717744280320694968337103669/25000000000000000000000000000) * y ^ 9 * X ^ 1 + (338513750137569/40000000000000) * y ^ 9 * X ^ 2 + (412395494131722663432593232273481/500000000000000000000000000000) * y ^ 10 + (5912626216563430805337938830031/100000000000000000000000000000) * y ^ 10 * X ^ 1 + (15325731963901379594968337103669/125000000000000000000000000000) * y ^ 11 + (338513750137569/100000000000000) * y ^ 11 * X ^ 1 + (2365050486172687135112646276677/200000000000000000000000000000) * y ^ 12 + (112837916712523/200000000000000) * y ^ 13) := by
    unfold errPoly errLow
    ring
  rw [e1]
  linarith

/-- The approximation is defined, with positive real part, from `y = 1/10000` up. -/
theorem dcerror_pos (x : ℝ) {y : ℝ} (hy : 1 / 10000 ≤ y) : ∃ w, dcerror x y = some w ∧ 0 < w.re := by
  have hy0 : 0 < y := by linarith
  have hp := errPoly_pos (sq_nonneg x) hy
  rw [← errPoly_eq] at hp
  have hB : errB ⟨|y|, -x⟩ ≠ 0 := by
    rw [abs_of_pos hy0, errB_eq]
    intro h
    have hr := congrArg Complex.re h
    have hi := congrArg Complex.im h
    simp only [Complex.zero_re, Complex.zero_im] at hr hi
    rw [hr, hi] at hp
    simp at hp
  unfold dcerror
  simp only [cDiv, if_neg hB, bind, Option.bind, if_pos hy0.le, pure]
  refine ⟨_, rfl, ?_⟩
  rw [Complex.div_re, ← add_div]
  apply div_pos _ (Complex.normSq_pos.2 hB)
  rw [abs_of_pos hy0, errA_eq, errB_eq]
  exact hp

/-- `|errB|²` expanded; `X = x²`. -/
noncomputable def errNorm (X y : ℝ) : ℝ :=
  (6013081973546909051873902935049/400000000000000000000000000 : ℝ)
    + (1534153093252145046652905754231683/125000000000000000000000000000 : ℝ) * X ^ 1
    + (4931227398233944389323700533055697/1000000000000000000000000000000 : ℝ) * X ^ 2
    + (20265333929896096628892278898957/15625000000000000000000000000 : ℝ) * X ^ 3
    + (122774164592959440564865616271511/500000000000000000000000000000 : ℝ) * X ^ 4
    + (42070636493429118194621144768193/1000000000000000000000000000000 : ℝ) * X ^ 5
    + (1841591309433883621324779639201/1000000000000000000000000000000 : ℝ) * X ^ 6
    + (1/1 : ℝ) * X ^ 7
    + (432475724181614232262442102844953/5000000000000000000000000000 : ℝ) * y ^ 1
    + (16527139063567999147207675716543323/250000000000000000000000000000 : ℝ) * y ^ 1 * X ^ 1
    + (6153448518950095431303428353038913/250000000000000000000000000000 : ℝ) * y ^ 1 * X ^ 2
    + (2949231243553779766090791157949357/500000000000000000000000000000 : ℝ) * y ^ 1 * X ^ 3
    + (1629620180759795889561711235599/1562500000000000000000000000 : ℝ) * y ^ 1 * X ^ 4
    + (54775944167901489952805314962593/500000000000000000000000000000 : ℝ) * y ^ 1 * X ^ 5
    + (10479857114260399/500000000000000 : ℝ) * y ^ 1 * X ^ 6
    + (14785285189770316894603598523386579/62500000000000000000000000000 : ℝ) * y ^ 2
    + (83834314488417287365874840417629969/500000000000000000000000000000 : ℝ) * y ^ 2 * X ^ 1
    + (7132954943491999164806195061712313/125000000000000000000000000000 : ℝ) * y ^ 2 * X ^ 2
    + (1538231080235439778886771348691857/125000000000000000000000000000 : ℝ) * y ^ 2 * X ^ 3
    + (1772232890665190638189674548710277/1000000000000000000000000000000 : ℝ) * y ^ 2 * X ^ 4
    + (113510587754182064863974338917603/500000000000000000000000000000 : ℝ) * y ^ 2 * X ^ 5
    + (7/1 : ℝ) * y ^ 2 * X ^ 6
    + (102034871369637966730952395431597723/250000000000000000000000000000 : ℝ) * y ^ 3
    + (33142728836183036484886521423629039/125000000000000000000000000000 : ℝ) * y ^ 3 * X ^ 1
    + (40553678654493449429935666377501467/500000000000000000000000000000 : ℝ) * y ^ 3 * X ^ 2
    + (118073331050423548963390679258293/7812500000000000000000000000 : ℝ) * y ^ 3 * X ^ 3
    + (191059145624774667552805314962593/100000000000000000000000000000 : ℝ) * y ^ 3 * X ^ 4
    + (31439571342781197/250000000000000 : ℝ) * y ^ 3 * X ^ 5
    + (496925430901592955572221696718447441/1000000000000000000000000000000 : ℝ) * y ^ 4
    + (3645048221380300722517030544262687/12500000000000000000000000000 : ℝ) * y ^ 4 * X ^ 1
    + (19566728949290643794381228062604861/250000000000000000000000000000 : ℝ) * y ^ 4 * X ^ 2
    + (6123743940619202021406243373579589/500000000000000000000000000000 : ℝ) * y ^ 4 * X ^ 3
    + (221496401580062478863974338917603/200000000000000000000000000000 : ℝ) * y ^ 4 * X ^ 4
    + (21/1 : ℝ) * y ^ 4 * X ^ 5
    + (22618335665971156534495105652759753/50000000000000000000000000000 : ℝ) * y ^ 5
    + (23534528007087581463517620373157827/100000000000000000000000000000 : ℝ) * y ^ 5 * X ^ 1
    + (419665007424451204453320700706909/7812500000000000000000000000 : ℝ) * y ^ 5 * X ^ 2
    + (327342347081647845152805314962593/50000000000000000000000000000 : ℝ) * y ^ 5 * X ^ 3
    + (31439571342781197/100000000000000 : ℝ) * y ^ 5 * X ^ 4
    + (39758958790271786504377050750223413/125000000000000000000000000000 : ℝ) * y ^ 6
    + (17896654874064992362285779632800801/125000000000000000000000000000 : ℝ) * y ^ 6 * X ^ 1
    + (13264886332329179740622812198448901/500000000000000000000000000000 : ℝ) * y ^ 6 * X ^ 2
    + (109827405135314297621324779639201/50000000000000000000000000000 : ℝ) * y ^ 6 * X ^ 3
    + (35/1 : ℝ) * y ^ 6 * X ^ 4
    + (3516604010321050402149729065849481/20000000000000000000000000000 : ℝ) * y ^ 7
    + (517702425312827679807703588350919/7812500000000000000000000000 : ℝ) * y ^ 7 * X ^ 1
    + (463625548538521022752805314962593/50000000000000000000000000000 : ℝ) * y ^ 7 * X ^ 2
    + (10479857114260399/25000000000000 : ℝ) * y ^ 7 * X ^ 3
    + (38483311754027481535362882184489399/500000000000000000000000000000 : ℝ) * y ^ 8
    + (23195660065795123795839381023318213/1000000000000000000000000000000 : ℝ) * y ^ 8 * X ^ 1
    + (437468029231823306863974338917603/200000000000000000000000000000 : ℝ) * y ^ 8 * X ^ 2
    + (35/1 : ℝ) * y ^ 8 * X ^ 3
    + (51990662008750261217491252681077/1953125000000000000000000000 : ℝ) * y ^ 9
    + (599908749995394200352805314962593/100000000000000000000000000000 : ℝ) * y ^ 9 * X ^ 1
    + (31439571342781197/100000000000000 : ℝ) * y ^ 9 * X ^ 2
    + (1436642605640681367482237993927501/200000000000000000000000000000 : ℝ) * y ^ 10
    + (545453843057703720863974338917603/500000000000000000000000000000 : ℝ) * y ^ 10 * X ^ 1
    + (21/1 : ℝ) * y ^ 10 * X ^ 2
    + (736191951452267377952805314962593/500000000000000000000000000000 : ℝ) * y ^ 11
    + (31439571342781197/250000000000000 : ℝ) * y ^ 11 * X ^ 1
    + (217813218961194711621324779639201/1000000000000000000000000000000 : ℝ) * y ^ 12
    + (7/1 : ℝ) * y ^ 12 * X ^ 1
    + (10479857114260399/500000000000000 : ℝ) * y ^ 13
    + (1/1 : ℝ) * y ^ 14

theorem errNorm_eq (x y : ℝ) : (hornerRI x y coefB).1 ^ 2 + (hornerRI x y coefB).2 ^ 2 = errNorm (x ^ 2) y := by
  simp only [hornerRI, coefB, errNorm]
  ring

theorem errB_ne (x : ℝ) {y : ℝ} (hy : 0 ≤ y) : errB ⟨y, -x⟩ ≠ 0 := by
  rw [errB_eq]
  intro h
  have hr := congrArg Complex.re h
  have hi := congrArg Complex.im h
  simp only [Complex.zero_re, Complex.zero_im] at hr hi
  have hp := errNorm_eq x y
  rw [hr, hi] at hp
  have hX := sq_nonneg x
  have : 0 < errNorm (x ^ 2) y := by
    generalize x ^ 2 = X at hX
    unfold errNorm
    positivity
  simp at hp
  linarith

/-- The approximation is defined everywhere. -/
theorem dcerror_some (x y : ℝ) : ∃ w, dcerror x y = some w := by
  unfold dcerror
  simp only [cDiv, if_neg (errB_ne x (abs_nonneg y)), bind, Option.bind, pure]
  split_ifs <;> exact ⟨_, rfl⟩

end Verif.Lemmas
