import Verif.Lemmas.OxygenParams
import Verif.Props.Oxygen

/-!
# Runs with modified spectroscopic parameters of oxygen (C40), and what becomes of the parameters (C61)
-/

namespace Verif.Props

open Verif.Model Verif.Py Verif.Lemmas

/-- C40: a run with the unperturbed oxygen parameters of a model gives what the run without parameters gives, and leaves
all arrays as they were.  The columns of the line list have to be arrays, as they are in the tables. -/
theorem C40_oxygen_unperturbed {m : String} {ll P : Refs} (h : oxygenParams m ll = .ok P) (mem : Mem)
    (harr : ∀ a ∈ ["w300", "y300", "v"], ∀ x, ll a ≠ some (.num x)) (p vx e f : ℝ) :
    o2With m P mem ll p vx e f = (o2Absorption m (ll.view mem) p vx e f).map (·, mem) := by
  obtain ⟨⟨f', s, be, w, wb, x, e1, e2, e3, e4, e5, e6, q1, q2, q3, q4, q5, q6, q7, q8, q9, q10, q11, q12⟩, hl, he⟩ :=
    oxygenParams_some h
  have isArr {a : String} (ha : a ∈ ["w300", "y300", "v"]) {r : Ref} (hr : ll a = some r) : ∃ b, r = .arr b := by
    cases r with
    | num x => exact absurd hr (harr a ha x)
    | arr b => exact ⟨b, rfl⟩
  obtain ⟨w, rfl⟩ := isArr (by simp) e4
  let K : OxyKeys P := ⟨_, _, _, _, _, _, _, _, _, _, w, w, q12, q4, q5, q6, q1, q2, q3, q9, q10, q7, q8, q11⟩
  have hmem : memOxy K mem w = mem := by
    show copied (copied mem w w 0 38) w w 34 49 = mem
    rw [copied_self, copied_self]
  have hset {a : String} (ha : a ∉ oxyUnread) : setOxy K ll a = ll a := setOxy_same K e5 e1 e2 e3 e6 ha
  have fin {L : Refs} (hL : ∀ a, a ∉ oxyUnread → L a = ll a) :
      o2Absorption m (L.view mem) p vx e f = o2Absorption m (ll.view mem) p vx e f := by
    refine o2_congr (fun a ha => ?_) p vx e f
    unfold attr Refs.view
    rw [hL a (oxyUnread_reads m a ha)]
  have key {L : Refs} (hL : ∀ a, a ∉ oxyUnread → L a = ll a) (hA : amuOxygen m P mem ll = .ok (mem, L)) :
      o2With m P mem ll p vx e f = (o2Absorption m (ll.view mem) p vx e f).map (·, mem) := by
    unfold o2With
    rw [hA]
    show (o2Absorption m (L.view mem) p vx e f >>= fun r => pure (r, mem)) = _
    rw [fin hL]
    cases o2Absorption m (ll.view mem) p vx e f <;> rfl
  by_cases hm : "R19" < m
  · obtain ⟨y0, y1, d0, d1, j1, j2, j3, j4, i1, i2, i3, i4⟩ := hl hm
    have hA := amuOxygen_late hm K ⟨y0, y1, d0, d1, i1, i2, i3, i4⟩ mem e4
    rw [hmem] at hA
    exact key (set_same (set_same (set_same (set_same (fun _ => hset) j1) j2) j3) j4) hA
  · obtain ⟨v, y, j1, j2, i1, i2, i3, i4⟩ := he hm
    obtain ⟨v, rfl⟩ := isArr (by simp) j1
    obtain ⟨y, rfl⟩ := isArr (by simp) j2
    have hA := amuOxygen_early hm K ⟨y, y, v, v, i1, i2, i3, i4⟩ mem e4
    rw [hmem] at hA
    simp only [copied_self] at hA
    exact key (set_same (set_same (fun _ => hset) j2) j1) hA

/-- The models whose unperturbed oxygen parameters can be asked for in a new process. -/
def oxygenWithParams : List String := ["R03", "R17", "R18", "R19", "R20", "R20SD", "R22"]

set_option maxRecDepth 10000 in
theorem oxygenGroups_params : ∀ g ∈ oxygenGroups,
    (g.1 ∈ oxygenWithParams ∧ ∀ a ∈ oxygenParamReads g.1, a ∈ oxygenAssign g.1 ∧ (g.2.lookup a).isSome = true) ∨
    (g.1 ∉ oxygenWithParams ∧ ∃ a ∈ oxygenParamReads g.1, a ∉ oxygenAssign g.1 ∧ a ≠ "len(f)") := by decide +kernel

/-- C40: in a new process the unperturbed oxygen parameters exist for seven of the twelve models with a table; for the
other five (R98, R16, R19SD, R23, R24) asking for them fails. -/
theorem C40_oxygen_names {m : String} {F : LineList} (hF : oxygenFile m = some F) {ll : Refs} {mem : Mem}
    (hll : ll.view mem = F) : (m ∈ oxygenWithParams → ∃ P, oxygenParams m ll = .ok P) ∧
      (m ∉ oxygenWithParams → oxygenParams m ll = .error .attributeError) := by
  obtain ⟨T, hmem, rfl⟩ := oxygenFile_some hF
  have hv (a : String) : (ll a).map (Ref.val mem) = ll.view mem a := rfl
  rcases oxygenGroups_params _ hmem with ⟨hn, h⟩ | ⟨hn, a, ha, h, hne⟩
  · refine ⟨fun _ => oxygenParams_ok ?_, fun hm => absurd hn hm⟩
    intro a ha
    have hlen : a ≠ "len(f)" := by
      rintro rfl
      revert ha
      unfold oxygenParamReads
      split_ifs <;> decide
    have h3 := hv a
    rw [hll] at h3
    simp only [if_neg hlen, if_pos (h a ha).1] at h3
    have h4 := (h a ha).2
    rw [← Option.isSome_map (f := Ref.val mem), h3]
    simpa using h4
  · refine ⟨fun hm => absurd hm hn, fun _ => oxygenParams_fails ha ?_⟩
    have h3 := hv a
    rw [hll] at h3
    simpa [if_neg hne, if_neg h] using h3

/-- C61: the only arrays that a run with parameters can change are the widths of the line list and, for the models up to
R19, the two mixing arrays handed in by the caller. -/
theorem C61_frame {m : String} {P ll : Refs} {h h' : Mem} {p vx e f : ℝ} {r : Option (ℝ × ℝ)}
    (hr : o2With m P h ll p vx e f = .ok (r, h')) {c : ℕ} (hc : ll "w300" ≠ some (.arr c))
    (hy : ¬ "R19" < m → P "Y300" ≠ some (.arr c) ∧ P "O2_V" ≠ some (.arr c)) : h' c = h c := by
  obtain ⟨L, hA, -⟩ := o2With_ok hr
  obtain ⟨K, w, hw, hl, he⟩ := amuOxygen_ok hA
  have hcw : c ≠ w := by rintro rfl; exact hc hw
  have hm0 : memOxy K h w c = h c := by
    unfold memOxy
    rw [copied_other hcw, copied_other hcw]
  by_cases hm : "R19" < m
  · obtain ⟨N⟩ := hl hm
    rw [amuOxygen_late hm K N h hw] at hA
    cases hA
    exact hm0
  · obtain ⟨N⟩ := he hm
    rw [amuOxygen_early hm K N h hw] at hA
    cases hA
    obtain ⟨h1, h2⟩ := hy hm
    rw [copied_other (by rintro rfl; exact h2 N.k_v), copied_other (by rintro rfl; exact h1 N.k_y), hm0]

/-- C61: for the models up to R19 a run overwrites entries 34 to 48 of the caller's arrays `Y300` and `O2_V` by those of
`Y300_NL` and `O2_V_NL`. -/
theorem C61_overwritten {m : String} (hm : ¬ "R19" < m) {P ll : Refs} {h h' : Mem} {p vx e f : ℝ} {r : Option (ℝ × ℝ)}
    (hr : o2With m P h ll p vx e f = .ok (r, h')) {w y yn v vn : ℕ} (hw : ll "w300" = some (.arr w))
    (hy : P "Y300" = some (.arr y)) (hyn : P "Y300_NL" = some (.arr yn)) (hv : P "O2_V" = some (.arr v))
    (hvn : P "O2_V_NL" = some (.arr vn)) (d1 : y ≠ w) (d2 : yn ≠ w) (d3 : v ≠ w) (d4 : vn ≠ w) (d5 : y ≠ v) (d6 : vn ≠ y)
    (n : ℕ) : h' y n = (if 34 ≤ n ∧ n < 49 then h yn n else h y n) ∧
      h' v n = if 34 ≤ n ∧ n < 49 then h vn n else h v n := by
  obtain ⟨L, hA, -⟩ := o2With_ok hr
  obtain ⟨K, w', hw', -, -⟩ := amuOxygen_ok hA
  rw [amuOxygen_early hm K ⟨y, yn, v, vn, hy, hyn, hv, hvn⟩ h hw] at hA
  cases hA
  have hm0 {c : ℕ} (hc : c ≠ w) : memOxy K h w c = h c := by
    unfold memOxy
    rw [copied_other hc, copied_other hc]
  constructor
  · rw [copied_other d5]
    unfold copied
    rw [Function.update_self, hm0 d1, hm0 d2]
  · rw [copied, Function.update_self, copied_other d6, hm0 d4, copied_other d5.symm, hm0 d3]

/-- C61 does not hold: with the shipped table R17, take its parameters and put another array under `Y300_NL`, with another
number in one of the places 34 to 48.  Every run with them changes the array under `Y300`. -/
theorem C61_refuted {F : LineList} (hF : oxygenFile "R17" = some F) {ll P : Refs} {h : Mem} (hll : ll.view h = F)
    (hP : oxygenParams "R17" ll = .ok P) {w y v b : ℕ} (hw : ll "w300" = some (.arr w)) (hy : ll "y300" = some (.arr y))
    (hv : ll "v" = some (.arr v)) (d1 : y ≠ w) (d2 : v ≠ w) (d3 : y ≠ v) (d4 : b ≠ w) {n : ℕ} (hn : 34 ≤ n ∧ n < 49)
    (hb : h b n ≠ h y n) (p vx e f : ℝ) :
    ∃ r h', o2With "R17" (P.set "Y300_NL" (.arr b)) h ll p vx e f = .ok (r, h') ∧
      (P.set "Y300_NL" (.arr b)) "Y300" = some (.arr y) ∧ h' y n ≠ h y n := by
  obtain ⟨⟨f', s, be, w', wb, x, e1, e2, e3, e4, e5, e6, q1, q2, q3, q4, q5, q6, q7, q8, q9, q10, q11, q12⟩, -, he⟩ :=
    oxygenParams_some hP
  obtain ⟨v', y', j1, j2, i1, i2, i3, i4⟩ := he (by decide)
  obtain rfl : Ref.arr v = v' := Option.some_inj.1 (hv.symm.trans j1)
  obtain rfl : Ref.arr y = y' := Option.some_inj.1 (hy.symm.trans j2)
  obtain rfl : Ref.arr w = w' := Option.some_inj.1 (hw.symm.trans e4)
  have g {k : String} {u : Ref} (hk : k ≠ "Y300_NL") (hu : P k = some u) : (P.set "Y300_NL" (.arr b)) k = some u := by
    simp [Refs.set, hk, hu]
  have gn : (P.set "Y300_NL" (.arr b)) "Y300_NL" = some (.arr b) := by simp [Refs.set]
  let K : OxyKeys (P.set "Y300_NL" (.arr b)) := ⟨_, _, _, _, _, _, _, _, _, _, w, w, g (by decide) q12, g (by decide) q4,
    g (by decide) q5, g (by decide) q6, g (by decide) q1, g (by decide) q2, g (by decide) q3, g (by decide) q9,
    g (by decide) q10, g (by decide) q7, g (by decide) q8, g (by decide) q11⟩
  have hA := amuOxygen_early (m := "R17") (by decide) K ⟨y, b, v, v, g (by decide) i1, gn, g (by decide) i3,
    g (by decide) i4⟩ h hw
  have htot : ∀ h', ∃ r, o2Absorption "R17" ((((setOxy K ll).set "y300" (.arr y)).set "v" (.arr v)).view h') p vx e f =
      .ok r := by
    intro h'
    apply o2_R17_total
    intro a ha
    have : (((setOxy K ll).set "y300" (.arr y)).set "v" (.arr v)) a = ll a :=
      set_same (set_same (fun _ => setOxy_same K e5 e1 e2 e3 e6) j2) j1 a (oxyUnread_reads _ a ha)
    unfold Refs.view
    rw [this, Option.isSome_map]
    obtain ⟨u, hu, -⟩ := oxyFile_reads hF (fun _ => none) a ha
    rw [← Option.isSome_map (f := Ref.val h)]
    show (ll.view h a).isSome
    rw [hll, hu]
    rfl
  obtain ⟨r, hB⟩ := htot _
  have hrun := o2With_of hA hB
  refine ⟨r, _, hrun, g (by decide) i1, ?_⟩
  rw [(C61_overwritten (by decide) hrun hw (g (by decide) i1) gn (g (by decide) i3) (g (by decide) i4) d1 d4 d2 d2 d3 d3.symm
    n).1, if_pos hn]
  exact hb

/-- The case that the array under `Y300_NL` holds 1 everywhere. -/
example : ∃ F ll P h r h' y, oxygenFile "R17" = some F ∧ ll.view h = F ∧ oxygenParams "R17" ll = .ok P ∧
    o2With "R17" (P.set "Y300_NL" (.arr 9)) h ll 90 1 1 60 = .ok (r, h') ∧ P "Y300" = some (.arr y) ∧
    h' y 40 ≠ h y 40 := by
  obtain ⟨F, hF⟩ := Option.isSome_iff_exists.1 ((C37_names "R17").2 (by decide))
  let names := ["w300", "y300", "v", "f", "s300", "be", "wb300", "x", "len(f)"]
  have hnames : ∀ a, (F a).isSome → a ∈ names := by
    intro a ha
    obtain ⟨T, -, rfl⟩ := oxygenFile_some hF
    by_cases h1 : a = "len(f)"
    · subst h1; decide
    · by_cases h2 : a ∈ oxygenAssign "R17"
      · exact (by decide : ∀ a ∈ oxygenAssign "R17", a ∈ names) a h2
      · simp [h1, h2] at ha
  have hsome (a : String) (ha : a ∈ oxyReads "R17") : (F a).isSome := by
    obtain ⟨u, hu, -⟩ := oxyFile_reads hF (fun _ => none) a ha
    simp [hu]
  let x : Val := fun _ => tableMem names F 1 40 + 1
  have hv := tableRefs_view hnames x
  obtain ⟨P, hP⟩ := (C40_oxygen_names hF hv).1 (by decide)
  have hw : tableRefs names F "w300" = some (.arr 0) := by
    unfold tableRefs
    rw [if_pos (hsome _ (by decide))]
    rfl
  have hy : tableRefs names F "y300" = some (.arr 1) := by
    unfold tableRefs
    rw [if_pos (hsome _ (by decide))]
    rfl
  have hvv : tableRefs names F "v" = some (.arr 2) := by
    unfold tableRefs
    rw [if_pos (hsome _ (by decide))]
    rfl
  obtain ⟨r, h', h1, h2, h3⟩ := C61_refuted hF hv hP hw hy hvv (by decide) (by decide) (by decide) (b := 9) (by decide)
    (n := 40) (by decide) (by
      show (Function.update (tableMem names F) 9 x) 9 40 ≠ (Function.update (tableMem names F) 9 x) 1 40
      rw [Function.update_self, Function.update_of_ne (by decide)]
      simp [x]) 90 1 1 60
  refine ⟨F, _, P, _, r, h', 1, hF, hv, hP, h1, ?_, h3⟩
  simpa [Refs.set] using h2

/-- The parameters of an oxygen model whose values have no effect. -/
def oxygenDead (m : String) : List String :=
  ["w2a", "X11", "X16", "Snr", "O2_nS"] ++
  if m ∈ ["R98", "R19SD"] then ["y0", "y1", "dnu0", "dnu1", "Y300", "Y300_NL", "O2_V", "O2_V_NL"]
  else if m ∈ ["R23", "R24"] then ["y0", "Y300", "Y300_NL", "O2_V", "O2_V_NL"]
  else if m ∈ ["R20", "R20SD", "R22"] then ["Y300", "Y300_NL", "O2_V", "O2_V_NL"]
  else if m ∈ ["R03", "R16", "R17", "R18", "R19"] then ["y0", "y1", "dnu0", "dnu1"]
  else []

theorem oxygenDead_early : ∀ m ∈ ["R03", "R16", "R17", "R18", "R19"], ¬ "R19" < m ∧ ∀ k ∈ oxygenDead m,
    k ∉ ["Y300", "Y300_NL", "O2_V", "O2_V_NL", "O2gamma", "O2gamma_NL", "WB300", "O2FL", "O2S", "O2BE", "X05"] := by decide

theorem oxygenDead_late : ∀ m ∈ ["R98", "R19SD", "R20", "R20SD", "R22", "R23", "R24"], "R19" < m ∧ (∀ k ∈ oxygenDead m,
    k ∉ ["O2gamma", "O2gamma_NL", "WB300", "O2FL", "O2S", "O2BE", "X05"]) ∧
    ∀ a ∈ oxyReads m, a ∈ ["y0", "y1", "dnu0", "dnu1"] → a ∉ oxygenDead m := by decide

/-- C40: giving another value to one of the parameters in `oxygenDead` changes neither the result of a run nor what it does
to arrays. -/
theorem C40_oxygen_no_effect {m k : String} (hm : (oxygenFile m).isSome) (hk : k ∈ oxygenDead m) {P ll : Refs}
    {h h' : Mem} {p vx e f : ℝ} {r : Option (ℝ × ℝ)} (hr : o2With m P h ll p vx e f = .ok (r, h')) (v : Ref) :
    o2With m (P.set k v) h ll p vx e f = .ok (r, h') := by
  rw [C37_names] at hm
  obtain ⟨L, hA, hB⟩ := o2With_ok hr
  obtain ⟨K, w, hw, hl, he⟩ := amuOxygen_ok hA
  have update (hk : k ∉ ["O2gamma", "O2gamma_NL", "WB300", "O2FL", "O2S", "O2BE", "X05"]) :
      ∃ K' : OxyKeys (P.set k v), memOxy K' h w = memOxy K h w ∧ ∀ a, a ∉ oxyUnread → setOxy K' ll a = setOxy K ll a := by
    simp only [List.mem_cons, List.not_mem_nil, or_false, not_or] at hk
    obtain ⟨n1, n2, n3, n4, n5, n6, n7⟩ := hk
    let K' : OxyKeys (P.set k v) := ⟨_, K.wb, K.f, K.s, K.be, _, _, K.x05, _, _, K.g, K.gnl, key_update K.k_w2a,
      key_update_ne K.k_g (Ne.symm n1), key_update_ne K.k_gnl (Ne.symm n2), key_update_ne K.k_wb (Ne.symm n3),
      key_update_ne K.k_f (Ne.symm n4), key_update_ne K.k_s (Ne.symm n5), key_update_ne K.k_be (Ne.symm n6),
      key_update K.k_x11, key_update K.k_x16, key_update_ne K.k_x05 (Ne.symm n7), key_update K.k_snr, key_update K.k_ns⟩
    exact ⟨K', rfl, fun a ha => setOxy_congr K K' ll rfl rfl rfl rfl rfl ha⟩
  by_cases hlate : m ∈ ["R98", "R19SD", "R20", "R20SD", "R22", "R23", "R24"]
  · obtain ⟨hlt, d1, d2⟩ := oxygenDead_late m hlate
    obtain ⟨N⟩ := hl hlt
    obtain ⟨K', hmem, hset⟩ := update (d1 k hk)
    let N' : OxyLate (P.set k v) := ⟨_, _, _, _, key_update N.k_y0, key_update N.k_y1, key_update N.k_d0,
      key_update N.k_d1⟩
    rw [amuOxygen_late hlt K N h hw] at hA
    have hA' := amuOxygen_late hlt K' N' h hw
    rw [hmem] at hA'
    cases hA
    refine o2With_of hA' ?_
    rw [← hB]
    refine o2_congr (fun a ha => ?_) p vx e f
    unfold attr Refs.view
    suffices hs : ((((setOxy K' ll).set "y0" N'.y0).set "y1" N'.y1).set "dnu0" N'.d0).set "dnu1" N'.d1 a =
        ((((setOxy K ll).set "y0" N.y0).set "y1" N.y1).set "dnu0" N.d0).set "dnu1" N.d1 a by rw [hs]
    have hd := d2 a ha
    by_cases c1 : a = "y0"
    · subst c1
      have : "y0" ≠ k := by rintro rfl; exact hd (by decide) hk
      simp [Refs.set, N', this]
    by_cases c2 : a = "y1"
    · subst c2
      have : "y1" ≠ k := by rintro rfl; exact hd (by decide) hk
      simp [Refs.set, N', this]
    by_cases c3 : a = "dnu0"
    · subst c3
      have : "dnu0" ≠ k := by rintro rfl; exact hd (by decide) hk
      simp [Refs.set, N', this]
    by_cases c4 : a = "dnu1"
    · subst c4
      have : "dnu1" ≠ k := by rintro rfl; exact hd (by decide) hk
      simp [Refs.set, N', this]
    have := hset a (oxyUnread_reads m a ha)
    simp [Refs.set, c1, c2, c3, c4, this]
  · have hearly : m ∈ ["R03", "R16", "R17", "R18", "R19"] := by
      simp only [List.mem_cons, List.not_mem_nil, or_false] at hm hlate ⊢
      tauto
    obtain ⟨hlt, d1⟩ := oxygenDead_early m hearly
    have d1 := d1 k hk
    simp only [List.mem_cons, List.not_mem_nil, or_false, not_or] at d1
    obtain ⟨n1, n2, n3, n4, n5, n6, n7, n8, n9, n10, n11⟩ := d1
    obtain ⟨N⟩ := he hlt
    obtain ⟨K', hmem, hset⟩ := update (by
      simp only [List.mem_cons, List.not_mem_nil, or_false, not_or]
      exact ⟨n5, n6, n7, n8, n9, n10, n11⟩)
    let N' : OxyEarly (P.set k v) := ⟨N.y, N.yn, N.v, N.vn, key_update_ne N.k_y (Ne.symm n1),
      key_update_ne N.k_yn (Ne.symm n2), key_update_ne N.k_v (Ne.symm n3), key_update_ne N.k_vn (Ne.symm n4)⟩
    rw [amuOxygen_early hlt K N h hw] at hA
    have hA' := amuOxygen_early hlt K' N' h hw
    rw [hmem] at hA'
    cases hA
    refine o2With_of hA' ?_
    rw [← hB]
    refine o2_congr (fun a ha => ?_) p vx e f
    unfold attr Refs.view
    have := hset a (oxyUnread_reads m a ha)
    suffices hs : ((setOxy K' ll).set "y300" (.arr N'.y)).set "v" (.arr N'.v) a =
        ((setOxy K ll).set "y300" (.arr N.y)).set "v" (.arr N.v) a by rw [hs]
    simp only [Refs.set, N', this]

/-- R20 with another value under `X11`, which is not used: the run still gives the finite result without parameters. -/
example : ∃ F ll h P n, oxygenFile "R20" = some F ∧ ll.view h = F ∧ oxygenParams "R20" ll = .ok P ∧ 0 ≤ n ∧
    o2Absorption "R20" F 90 1 1 60 = .ok (some (n, 0)) ∧
    o2With "R20" (P.set "X11" (.num 5)) h ll 90 1 1 60 = .ok (some (n, 0), h) := by
  obtain ⟨F, hF⟩ := Option.isSome_iff_exists.1 ((C37_names "R20").2 (by decide))
  let names := ["w300", "y0", "y1", "g0", "g1", "dnu0", "dnu1", "f", "s300", "be", "wb300", "x", "len(f)"]
  have hnames : ∀ a, (F a).isSome → a ∈ names := by
    intro a ha
    obtain ⟨T, -, rfl⟩ := oxygenFile_some hF
    by_cases h1 : a = "len(f)"
    · subst h1; decide
    · by_cases h2 : a ∈ oxygenAssign "R20"
      · exact (by decide : ∀ a ∈ oxygenAssign "R20", a ∈ names) a h2
      · simp [h1, h2] at ha
  have hv := tableRefs_view hnames fun _ => 0
  obtain ⟨P, hP⟩ := (C40_oxygen_names hF hv).1 (by decide)
  obtain ⟨n, c, h1, h2, -, h3⟩ := C37_sign hF (fun _ => none) (p := 90) (vx := 1) (e := 1) (f := 60) (by norm_num)
    (by norm_num) (by norm_num) (by norm_num) (by norm_num)
  rw [reload_none, h3 (by decide)] at h1
  have hrun := C40_oxygen_unperturbed hP
    (Function.update (tableMem names F) names.length fun _ => 0) (by
    intro a _ x
    unfold tableRefs
    split_ifs <;> simp) 90 1 1 60
  rw [hv, h1] at hrun
  exact ⟨F, _, _, P, n, hF, hv, hP, h2 (by decide), h1,
    C40_oxygen_no_effect (by rw [hF]; rfl) (by decide) hrun (.num 5)⟩

end Verif.Props
