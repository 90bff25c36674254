import Verif.Lemmas.WaterTables
import Verif.Spec.Water

/-!
# Line sums and continua of the water vapour routine have a sign
-/

namespace Verif.Lemmas

open Verif.Model Verif.Py Verif.Spec

theorem plainLine_eq (closed : Bool) (f fl shift w s : ℝ) (hw : 0 < w) (hfl : fl ≠ 0) :
    plainLine closed f fl shift w s = some (s * (max 0 (lorentz w (f - fl - shift) - lorentz w 750)
      + max 0 (lorentz w (f + fl + shift) - lorentz w 750)) * (f / fl) ^ 2) := by
  unfold plainLine
  simp only [cut_eq_max hw, npDiv_of_ne hfl, lorentz]
  rfl

theorem sdLine_eq (f fl shift w w2 d2 s : ℝ) (hw : 0 < w) (hfl : fl ≠ 0)
    (h : w2 ≤ 0 ∨ 10 * w ≤ |f - fl - shift|) :
    sdLine f fl shift w w2 d2 s = some (s * (max 0 (lorentz w (f - fl - shift) - lorentz w 750)
      + max 0 (lorentz w (f + fl + shift) - lorentz w 750)) * (f / fl) ^ 2) := by
  unfold sdLine
  have hn : ¬(0 < w2 ∧ |f - fl - shift| < 10 * w) := by
    rintro ⟨h1, h2⟩
    rcases h with h | h <;> linarith
  simp only [if_neg hn, cut_eq_max' hw, npDiv_of_ne hfl, lorentz]
  rfl

theorem plainLine_nonneg (closed : Bool) {f fl shift w s : ℝ} (hw : 0 < w) (hfl : fl ≠ 0) (hs : 0 ≤ s) :
    ∃ c, plainLine closed f fl shift w s = some c ∧ 0 ≤ c := by
  refine ⟨_, plainLine_eq closed f fl shift w s hw hfl, ?_⟩
  have h1 := le_max_left 0 (lorentz w (f - fl - shift) - lorentz w 750)
  have h2 := le_max_left 0 (lorentz w (f + fl + shift) - lorentz w 750)
  positivity

/-- Line list with the signs of a physical one. -/
structure GoodLines (ll : LineList) where
  n : ℕ
  fl : Val
  s1 : Val
  b2 : Val
  w0 : Val
  x : Val
  w0s : Val
  xs : Val
  reftline : Val
  reftcon : Val
  cf : Val
  xcf : Val
  xcs : Val
  cs : Val
  hn : ll "len(fl)" = some fun _ => (n : ℝ)
  hfl : ll "fl" = some fl
  hs1 : ll "s1" = some s1
  hb2 : ll "b2" = some b2
  hw0 : ll "w0" = some w0
  hx : ll "x" = some x
  hw0s : ll "w0s" = some w0s
  hxs : ll "xs" = some xs
  hreftline : ll "reftline" = some reftline
  hreftcon : ll "reftcon" = some reftcon
  hcf : ll "cf" = some cf
  hxcf : ll "xcf" = some xcf
  hcs : ll "cs" = some cs
  hxcs : ll "xcs" = some xcs
  pos : ∀ i < n, 0 < fl i ∧ 0 < s1 i ∧ 0 < w0 i ∧ 0 < w0s i
  preft : 0 < reftline 0 ∧ 0 < reftcon 0 ∧ 0 < cf 0

theorem attr_some {ll : LineList} {a : String} {v : Val} (h : ll a = some v) : attr ll a = .ok v := by simp [attr, h]

theorem numLines_nat (n : ℕ) : numLines (fun _ => (n : ℝ)) = n := by simp [numLines]

theorem sumLines_nonneg {n : ℕ} {g : ℕ → Option ℝ} (hg : ∀ i < n, ∃ c, g i = some c ∧ 0 ≤ c) :
    ∃ c, sumLines n g = some c ∧ 0 ≤ c := by
  have hc : ∀ i, ∃ c, i < n → g i = some c ∧ 0 ≤ c := by
    intro i
    by_cases hi : i < n
    · obtain ⟨c, hc⟩ := hg i hi; exact ⟨c, fun _ => hc⟩
    · exact ⟨0, fun h => absurd h hi⟩
  choose c hc using hc
  exact ⟨_, sumLines_some fun i hi => (hc i hi).1,
    Finset.sum_nonneg fun i hi => (hc i (Finset.mem_range.1 hi)).2⟩

theorem waterSumOld_nonneg {m : String} {ll : LineList} (G : GoodLines ll) (hsr : m ≠ "R98" → (ll "sr").isSome)
    {A : WaterAir} {f : ℝ} (ht : 0 < A.t) (hv : 0 < A.pvap) (hd : 0 ≤ A.pda) :
    ∃ s, waterSumOld m ll A f = .ok (some s) ∧ 0 ≤ s := by
  obtain ⟨sr, hsr⟩ : ∃ sr, (if m = "R98" then .ok fun _ => 0 else attr ll "sr" : Except PyErr Val) = .ok sr := by
    by_cases h : m = "R98"
    · exact ⟨_, if_pos h⟩
    · obtain ⟨v, hv⟩ := Option.isSome_iff_exists.1 (hsr h)
      exact ⟨v, by rw [if_neg h, attr_some hv]⟩
  unfold waterSumOld
  simp only [attr_some G.hn, attr_some G.hfl, attr_some G.hs1, attr_some G.hb2, attr_some G.hw0, attr_some G.hx,
    attr_some G.hw0s, attr_some G.hxs, attr_some G.hreftline, bind, Except.bind, hsr, pure, Except.pure, numLines_nat]
  have hti : 0 < G.reftline 0 / A.t := div_pos G.preft.1 ht
  simp only [Except.ok.injEq]
  apply sumLines_nonneg
  intro i hi
  obtain ⟨h1, h2, h3, h4⟩ := G.pos i hi
  simp only [fpow_of_pos hti, Option.bind]
  apply plainLine_nonneg
  · positivity
  · exact h1.ne'
  · positivity

theorem waterSumMid_nonneg {m : String} {ll : LineList} (G : GoodLines ll)
    (hsh : ∀ a ∈ ["sh", "xh", "shs", "xhs"], (ll a).isSome) (hai : m ≠ "R18" → (ll "aair").isSome ∧ (ll "aself").isSome)
    {A : WaterAir} {f : ℝ} (ht : 0 < A.t) (hv : 0 < A.pvap) (hd : 0 ≤ A.pda) :
    ∃ s, waterSumMid m ll A f = .ok (some s) ∧ 0 ≤ s := by
  have opt (a : String) (h : m ≠ "R18" → (ll a).isSome) :
      ∃ v, (if m = "R18" then .ok fun _ => 0 else attr ll a : Except PyErr Val) = .ok v := by
    by_cases hm : m = "R18"
    · exact ⟨_, if_pos hm⟩
    · obtain ⟨v, hv⟩ := Option.isSome_iff_exists.1 (h hm)
      exact ⟨v, by rw [if_neg hm, attr_some hv]⟩
  obtain ⟨aair, haair⟩ := opt "aair" fun h => (hai h).1
  obtain ⟨aself, haself⟩ := opt "aself" fun h => (hai h).2
  obtain ⟨sh, h1⟩ := Option.isSome_iff_exists.1 (hsh "sh" (by simp))
  obtain ⟨xh, h2⟩ := Option.isSome_iff_exists.1 (hsh "xh" (by simp))
  obtain ⟨shs, h3⟩ := Option.isSome_iff_exists.1 (hsh "shs" (by simp))
  obtain ⟨xhs, h4⟩ := Option.isSome_iff_exists.1 (hsh "xhs" (by simp))
  unfold waterSumMid
  simp only [attr_some G.hn, attr_some G.hfl, attr_some G.hs1, attr_some G.hb2, attr_some G.hw0, attr_some G.hx,
    attr_some G.hw0s, attr_some G.hxs, attr_some G.hreftline, bind, Except.bind, haair, haself, pure, Except.pure,
    numLines_nat, attr_some h1, attr_some h2, attr_some h3, attr_some h4]
  have hti : 0 < G.reftline 0 / A.t := div_pos G.preft.1 ht
  simp only [Except.ok.injEq]
  apply sumLines_nonneg
  intro i hi
  obtain ⟨h1, h2, h3, h4⟩ := G.pos i hi
  simp only [fpow_of_pos hti, npLog_of_pos hti, Option.bind]
  apply plainLine_nonneg
  · positivity
  · exact h1.ne'
  · positivity


theorem reload_some {F old : LineList} {a : String} {v : Val} (h : F a = some v) : reloadLL F old a = some v := by
  simp [reloadLL, h]

/-- The loaded list of a shipped model has the signs of a physical one, whatever was loaded before. -/
theorem goodLines_of_file {m : String} {F : LineList} (hF : waterFile m = some F) (old : LineList) :
    Nonempty (GoodLines (reloadLL F old)) := by
  unfold waterFile at hF
  cases hT : waterGroups.lookup m with
  | none => simp [hT] at hF
  | some T =>
    rw [hT, Option.map_some, Option.some_inj] at hF
    have hmem : (m, T) ∈ waterGroups := by
      rw [List.lookup_eq_some_iff] at hT
      obtain ⟨l₁, l₂, h, -⟩ := hT
      simp [h]
    have hread (a : String) (ha : a ∈ waterReads m) : ∃ v, reloadLL F old a = some v := by
      obtain ⟨v, hv⟩ := hasAttr_some (waterGroups_reads _ hmem a ha)
      exact ⟨v, reload_some (by rw [← hF]; exact hv)⟩
    have hpos (a : String) (ha : a ∈ ["fl", "s1", "b2", "w0", "x", "w0s", "reftline", "reftcon", "cf", "xcf"]) :
        ∃ v, reloadLL F old a = some v ∧ ∀ k < T.rows, 0 < v k := by
      obtain ⟨v, hv, h⟩ := posAttr_some (waterGroups_pos _ hmem a ha)
      exact ⟨v, reload_some (by rw [← hF]; exact hv), h⟩
    have hrows := (waterGroups_lengths _ hmem).1
    obtain ⟨fl, hfl, pfl⟩ := hpos "fl" (by simp)
    obtain ⟨s1, hs1, ps1⟩ := hpos "s1" (by simp)
    obtain ⟨w0, hw0, pw0⟩ := hpos "w0" (by simp)
    obtain ⟨w0s, hw0s, pw0s⟩ := hpos "w0s" (by simp)
    obtain ⟨reftline, hr, pr⟩ := hpos "reftline" (by simp)
    obtain ⟨reftcon, hrc, prc⟩ := hpos "reftcon" (by simp)
    obtain ⟨cf, hcf, pcf⟩ := hpos "cf" (by simp)
    obtain ⟨b2, hb2, -⟩ := hpos "b2" (by simp)
    obtain ⟨x, hx, -⟩ := hpos "x" (by simp)
    obtain ⟨xcf, hxcf, -⟩ := hpos "xcf" (by simp)
    obtain ⟨xs, hxs⟩ := hread "xs" (by simp [waterReads, waterCommon])
    obtain ⟨cs, hcs⟩ := hread "cs" (by simp [waterReads, waterCommon])
    obtain ⟨xcs, hxcs⟩ := hread "xcs" (by simp [waterReads, waterCommon])
    have hn : reloadLL F old "len(fl)" = some fun _ => (T.rows : ℝ) := by
      rw [reloadLL, ← hF]
      simp only [waterGroups_len, Option.bind_some, Src.val]
      rfl
    exact ⟨⟨T.rows, fl, s1, b2, w0, x, w0s, xs, reftline, reftcon, cf, xcf, xcs, cs, hn, hfl, hs1, hb2, hw0, hx, hw0s,
      hxs, hr, hrc, hcf, hxcf, hcs, hxcs, fun i hi => ⟨pfl i hi, ps1 i hi, pw0 i hi, pw0s i hi⟩,
      ⟨pr 0 hrows, prc 0 hrows, pcf 0 hrows⟩⟩⟩

theorem file_reads {m : String} {F : LineList} (hF : waterFile m = some F) (old : LineList) (a : String)
    (ha : a ∈ waterReads m) : ∃ v, F a = some v ∧ reloadLL F old a = some v := by
  unfold waterFile at hF
  cases hT : waterGroups.lookup m with
  | none => simp [hT] at hF
  | some T =>
    rw [hT, Option.map_some, Option.some_inj] at hF
    have hmem : (m, T) ∈ waterGroups := by
      rw [List.lookup_eq_some_iff] at hT
      obtain ⟨l₁, l₂, h, -⟩ := hT
      simp [h]
    obtain ⟨v, hv⟩ := hasAttr_some (waterGroups_reads _ hmem a ha)
    exact ⟨v, by rw [← hF]; exact hv, reload_some (by rw [← hF]; exact hv)⟩

theorem file_cs {m : String} {F : LineList} (hF : waterFile m = some F) (hm : m ∉ ["R23SD", "R24"]) (old : LineList)
    {v : Val} (hv : reloadLL F old "cs" = some v) : 0 < v 0 := by
  unfold waterFile at hF
  cases hT : waterGroups.lookup m with
  | none => simp [hT] at hF
  | some T =>
    rw [hT, Option.map_some, Option.some_inj] at hF
    have hmem : (m, T) ∈ waterGroups := by
      rw [List.lookup_eq_some_iff] at hT
      obtain ⟨l₁, l₂, h, -⟩ := hT
      simp [h]
    obtain ⟨w, hw, hp⟩ := posAttr_some (waterGroups_cs _ hmem hm)
    have : reloadLL F old "cs" = some w := reload_some (by rw [← hF]; exact hw)
    rw [this, Option.some_inj] at hv
    rw [← hv]
    exact hp 0 (waterGroups_lengths _ hmem).1

theorem waterCon_pos {m : String} {ll : LineList} (G : GoodLines ll) (hcs : 0 < G.cs 0) {A : WaterAir} {vx f : ℝ}
    (hm : m ≠ "MWL24") (ht : 0 < A.t) (hv : 0 < A.pvap) (hd : 0 ≤ A.pda) (hf : 0 < f) :
    ∃ c, waterCon m ll A vx f = .ok (some c) ∧ 0 < c := by
  have hti : 0 < G.reftcon 0 / A.t := div_pos G.preft.2.1 ht
  unfold waterCon
  simp only [attr_some G.hreftcon, attr_some G.hcf, attr_some G.hxcf, attr_some G.hcs, attr_some G.hxcs, bind, Except.bind,
    pure, Except.pure, if_neg hm, fpow_of_pos hti, Option.map_some, Option.bind_some]
  have := G.preft.2.2
  split_ifs
  · exact ⟨_, rfl, by positivity⟩
  · exact ⟨_, rfl, by positivity⟩

/-- The models without speed dependence. -/
theorem h2o_plain {m : String} (hm : m ∈ ["R98", "R03", "R16", "R17", "R18", "R19", "R20"]) {F : LineList}
    (hF : waterFile m = some F) (old : LineList) {p vx e f : ℝ} (hp : 0 ≤ p) (hv : 0 < vx) (he : 0 < e) (hf : 0 < f) :
    ∃ n c, h2oAbsorption m (reloadLL F old) p vx e f = .ok (some (n, c)) ∧ 0 ≤ n ∧ 0 < c := by
  obtain ⟨G⟩ := goodLines_of_file hF old
  obtain ⟨ht, hr, hpv, hpd, hden⟩ := waterAir_props m hp hv he
  have hm1 : m ≠ "MWL24" := by rintro rfl; revert hm; decide
  have hm2 : m ∉ ["R23SD", "R24"] := by
    simp only [List.mem_cons, List.not_mem_nil, or_false] at hm ⊢
    rcases hm with rfl | rfl | rfl | rfl | rfl | rfl | rfl <;> decide
  have hm3 : m ∉ ["R22SD", "R23SD"] ∧ m ≠ "R24" ∧ isSD m = false := by
    simp only [List.mem_cons, List.not_mem_nil, or_false] at hm ⊢
    rcases hm with rfl | rfl | rfl | rfl | rfl | rfl | rfl <;> decide +kernel
  obtain ⟨c, hc, hc0⟩ := waterCon_pos (m := m) (vx := vx) (f := f) G (file_cs hF hm2 old G.hcs) hm1 ht hpv hpd hf
  have hs : ∃ s, waterSum m (reloadLL F old) (waterAir m p vx e) f = .ok (some s) ∧ 0 ≤ s := by
    unfold waterSum
    rw [if_neg (by simp [hm3.2.2])]
    have hr := file_reads hF old
    split_ifs with h1 h2
    · refine waterSumOld_nonneg G ?_ ht hpv hpd
      intro h98
      obtain ⟨v, -, hv⟩ := hr "sr" (by
        simp only [List.mem_cons, List.not_mem_nil, or_false] at h1
        rcases h1 with rfl | rfl | rfl | rfl
        · decide +kernel
        · decide +kernel
        · decide +kernel
        · exact absurd rfl h98)
      simp [hv]
    · refine waterSumMid_nonneg G ?_ ?_ ht hpv hpd
      · intro a ha
        obtain ⟨v, -, hv⟩ := hr a (by
          simp only [List.mem_cons, List.not_mem_nil, or_false] at h2 ha
          rcases h2 with rfl | rfl | rfl <;> rcases ha with rfl | rfl | rfl | rfl <;> decide +kernel)
        simp [hv]
      · intro h18
        have key : ∀ a ∈ ["aair", "aself"], (reloadLL F old a).isSome := by
          intro a ha
          obtain ⟨v, -, hv⟩ := hr a (by
            simp only [List.mem_cons, List.not_mem_nil, or_false] at h2 ha
            rcases h2 with rfl | rfl | rfl
            · rcases ha with rfl | rfl <;> decide +kernel
            · rcases ha with rfl | rfl <;> decide +kernel
            · exact absurd rfl h18)
          simp [hv]
        exact ⟨key "aair" (by simp), key "aself" (by simp)⟩
    · exfalso
      simp only [List.mem_cons, List.not_mem_nil, or_false] at hm h1 h2
      tauto
  obtain ⟨s, hs, hs0⟩ := hs
  have hfac : 0 < 0.182 * f := by positivity
  have hdb := db2np_pos
  unfold h2oAbsorption
  rw [if_pos hv]
  simp only [if_neg hr.ne', hc, hs, bind, Except.bind, if_neg hm2, pure, Except.pure, Option.bind_some, waterUnits,
    if_neg hm3.1, if_neg hm3.2.1, npDiv_of_ne hfac.ne']
  exact ⟨_, _, rfl, by positivity, by positivity⟩

/-- The attributes read for the continuum only. -/
def conReads : List String := ["reftcon", "cf", "xcf", "cs", "xcs"]

/-- The line sum does not look at the attributes of the continuum. -/
theorem waterSum_congr {m : String} {ll ll' : LineList}
    (h : ∀ a ∈ waterReads m, a ∉ conReads → attr ll a = attr ll' a) (A : WaterAir) (f : ℝ) :
    waterSum m ll A f = waterSum m ll' A f := by
  have hc (a : String) (ha : a ∈ waterCommon) (hb : a ∉ conReads := by decide) : attr ll a = attr ll' a :=
    h a (by simp [waterReads, ha]) hb
  unfold waterSum
  split_ifs with h1 h2 h3
  · unfold waterSumSD
    have hx (a : String) (ha : a ∈ ["sh", "xh", "shs", "xhs", "aair", "aself", "w2", "w2s"]) :
        attr ll a = attr ll' a := h a (by
          simp only [List.mem_cons, List.not_mem_nil, or_false] at ha
          simp only [waterReads, h1, or_true, if_true, List.mem_append, List.mem_cons, List.not_mem_nil, or_false]
          tauto) ((by decide : ∀ a ∈ ["sh", "xh", "shs", "xhs", "aair", "aself", "w2", "w2s"], a ∉ conReads) a ha)
    have h7 (a : String) (ha : a ∈ ["xw2", "xw2s", "d2", "d2s"]) :
        (if m ∈ newSD then attr ll a else (.ok fun _ => 0 : Except PyErr Val)) =
          if m ∈ newSD then attr ll' a else .ok fun _ => 0 := by
      split_ifs with hm
      · exact h a (by simp only [waterReads, hm, if_true, List.mem_append]; tauto)
          ((by decide : ∀ a ∈ ["xw2", "xw2s", "d2", "d2s"], a ∉ conReads) a ha)
      · rfl
    have h8 (a : String) (ha : a ∈ ["d2air", "d2self"]) :
        (if m = "R20SD" then attr ll a else (.ok fun _ => 0 : Except PyErr Val)) =
          if m = "R20SD" then attr ll' a else .ok fun _ => 0 := by
      split_ifs with hm
      · exact h a (by simp only [waterReads, hm, if_true, List.mem_append]; tauto)
          ((by decide : ∀ a ∈ ["d2air", "d2self"], a ∉ conReads) a ha)
      · rfl
    rw [hc "len(fl)" (by decide), hc "fl" (by decide), hc "s1" (by decide), hc "b2" (by decide), hc "w0" (by decide),
      hc "x" (by decide), hc "w0s" (by decide), hc "xs" (by decide), hc "reftline" (by decide), hx "sh" (by decide),
      hx "xh" (by decide), hx "shs" (by decide), hx "xhs" (by decide), hx "aair" (by decide), hx "aself" (by decide),
      hx "w2" (by decide), hx "w2s" (by decide)]
    simp only [h7 "xw2" (by decide), h7 "xw2s" (by decide), h7 "d2" (by decide), h7 "d2s" (by decide),
      h8 "d2air" (by decide), h8 "d2self" (by decide)]
  · unfold waterSumOld
    have h7 : (if m = "R98" then (.ok fun _ => 0 : Except PyErr Val) else attr ll "sr") =
          if m = "R98" then .ok fun _ => 0 else attr ll' "sr" := by
      split_ifs with hm
      · rfl
      · refine h "sr" ?_ (by decide)
        have : m ∈ ["R03", "R16", "R17"] := by
          simp only [List.mem_cons, List.not_mem_nil, or_false] at h2 ⊢
          tauto
        simp only [waterReads, this, if_true, List.mem_append, List.mem_singleton]
        tauto
    rw [hc "len(fl)" (by decide), hc "fl" (by decide), hc "s1" (by decide), hc "b2" (by decide), hc "w0" (by decide),
      hc "x" (by decide), hc "w0s" (by decide), hc "xs" (by decide), hc "reftline" (by decide)]
    simp only [h7]
  · unfold waterSumMid
    have hx (a : String) (ha : a ∈ ["sh", "xh", "shs", "xhs"]) : attr ll a = attr ll' a := h a (by
          have : m ∈ ["R18", "R19", "R20"] := by
            simp only [List.mem_cons, List.not_mem_nil, or_false] at h3 ⊢
            tauto
          simp only [waterReads, this, true_or, if_true, List.mem_append]
          tauto) ((by decide : ∀ a ∈ ["sh", "xh", "shs", "xhs"], a ∉ conReads) a ha)
    have h7 (a : String) (ha : a ∈ ["aair", "aself"]) :
        (if m = "R18" then (.ok fun _ => 0 : Except PyErr Val) else attr ll a) =
          if m = "R18" then .ok fun _ => 0 else attr ll' a := by
      split_ifs with hm
      · rfl
      · have : m ∈ ["R19", "R20"] := by
          simp only [List.mem_cons, List.not_mem_nil, or_false] at h3 ⊢
          tauto
        exact h a (by simp only [waterReads, this, true_or, if_true, List.mem_append]; tauto)
          ((by decide : ∀ a ∈ ["aair", "aself"], a ∉ conReads) a ha)
    rw [hc "len(fl)" (by decide), hc "fl" (by decide), hc "s1" (by decide), hc "b2" (by decide), hc "w0" (by decide),
      hc "x" (by decide), hc "w0s" (by decide), hc "xs" (by decide), hc "reftline" (by decide), hx "sh" (by decide),
      hx "xh" (by decide), hx "shs" (by decide), hx "xhs" (by decide)]
    simp only [h7 "aair" (by decide), h7 "aself" (by decide)]
  · rfl

/-- The water vapour routine only looks at the attributes in `waterReads`. -/
theorem h2o_congr {m : String} {ll ll' : LineList} (h : ∀ a ∈ waterReads m, attr ll a = attr ll' a) (p vx e f : ℝ) :
    h2oAbsorption m ll p vx e f = h2oAbsorption m ll' p vx e f := by
  have hc (a : String) (ha : a ∈ waterCommon) : attr ll a = attr ll' a := h a (by simp [waterReads, ha])
  have hcon (A : WaterAir) : waterCon m ll A vx f = waterCon m ll' A vx f := by
    unfold waterCon
    rw [hc "reftcon" (by decide), hc "cf" (by decide), hc "xcf" (by decide), hc "cs" (by decide), hc "xcs" (by decide)]
  have hconN (A : WaterAir) : waterConNew ll A vx f = waterConNew ll' A vx f := by
    unfold waterConNew
    rw [hc "reftline" (by decide), hc "cf" (by decide), hc "xcf" (by decide), hc "cs" (by decide), hc "xcs" (by decide)]
  have hsum (A : WaterAir) : waterSum m ll A f = waterSum m ll' A f := waterSum_congr (fun a ha _ => h a ha) A f
  unfold h2oAbsorption
  simp only [hcon, hconN, hsum]

/-- Three models do not look at the coefficients of the continuum either. -/
theorem h2o_congr_con {m : String} (hm : m ∈ ["R98", "R03", "MWL24"]) {ll ll' : LineList}
    (h : ∀ a ∈ waterReads m, a ∉ ["cf", "xcf", "cs", "xcs"] → attr ll a = attr ll' a) (p vx e f : ℝ) :
    h2oAbsorption m ll p vx e f = h2oAbsorption m ll' p vx e f := by
  have hr : attr ll "reftcon" = attr ll' "reftcon" := h "reftcon" (by simp [waterReads, waterCommon]) (by decide)
  have hcon (A : WaterAir) : waterCon m ll A vx f = waterCon m ll' A vx f := by
    unfold waterCon
    rw [hr]
    by_cases h1 : m ∈ ["R03", "R98"]
    · simp only [if_pos h1]
    · have h2 : m = "MWL24" := by
        simp only [List.mem_cons, List.not_mem_nil, or_false] at hm h1
        tauto
      simp only [if_neg h1, if_pos h2]
  have hn : m ∉ ["R23SD", "R24"] := by
    simp only [List.mem_cons, List.not_mem_nil, or_false] at hm
    rcases hm with rfl | rfl | rfl <;> decide
  have hsum (A : WaterAir) : waterSum m ll A f = waterSum m ll' A f := waterSum_congr (fun a ha hc => h a ha (by
    intro h'
    apply hc
    revert h'
    simp only [conReads, List.mem_cons, List.not_mem_nil, or_false]
    tauto)) A f
  unfold h2oAbsorption
  simp only [hcon, hsum, if_neg hn]

end Verif.Lemmas
