import Verif.Model.Parameters
import Verif.Lemmas.Oxygen
import Verif.Lemmas.WaterParams

/-!
# Spectroscopic parameters of oxygen
-/

namespace Verif.Lemmas

open Verif.Model Verif.Py

theorem get_bind {r : Refs} {e : PyErr} {k : String} {α : Type} {f : Ref → Except PyErr α} {x : α}
    (h : (r.get e k >>= f) = .ok x) : ∃ v, r k = some v ∧ f v = .ok x := by
  unfold Refs.get at h
  cases hk : r k with
  | none => rw [hk] at h; cases h
  | some v => rw [hk] at h; exact ⟨v, rfl, h⟩

theorem get_bind_some {r : Refs} {e : PyErr} {k : String} {α : Type} {f : Ref → Except PyErr α} {v : Ref}
    (h : r k = some v) : (r.get e k >>= f) = f v := by
  unfold Refs.get
  rw [h]
  rfl

/-- Memory after `a[lo:hi] = b[lo:hi]`. -/
def copied (h : Mem) (a b lo hi : ℕ) : Mem := Function.update h a fun n => if lo ≤ n ∧ n < hi then h b n else h a n

theorem slice_bind {h : Mem} {d s : Ref} {lo hi : ℕ} {α : Type} {f : Mem → Except PyErr α} {x : α}
    (hx : (sliceCopy h d s lo hi >>= f) = .ok x) : ∃ a b, d = .arr a ∧ s = .arr b ∧ f (copied h a b lo hi) = .ok x := by
  cases d with
  | num _ => cases hx
  | arr a =>
    cases s with
    | num _ => cases hx
    | arr b => exact ⟨a, b, rfl, rfl, hx⟩

theorem slice_bind_some (h : Mem) (a b lo hi : ℕ) {α : Type} (f : Mem → Except PyErr α) :
    (sliceCopy h (.arr a) (.arr b) lo hi >>= f) = f (copied h a b lo hi) := rfl

theorem copied_self (h : Mem) (a lo hi : ℕ) : copied h a a lo hi = h := by
  unfold copied
  have : (fun n => if lo ≤ n ∧ n < hi then h a n else h a n) = h a := by
    funext n
    split_ifs <;> rfl
  rw [this, Function.update_eq_self]

theorem copied_other {h : Mem} {a b lo hi c : ℕ} (hc : c ≠ a) : copied h a b lo hi c = h c := by
  unfold copied
  rw [Function.update_of_ne hc]

/-- The keys used for all models. -/
structure OxyKeys (P : Refs) where
  (w2a wb f s be x11 x16 x05 snr ns : Ref)
  (g gnl : ℕ)
  k_w2a : P "w2a" = some w2a
  k_g : P "O2gamma" = some (.arr g)
  k_gnl : P "O2gamma_NL" = some (.arr gnl)
  k_wb : P "WB300" = some wb
  k_f : P "O2FL" = some f
  k_s : P "O2S" = some s
  k_be : P "O2BE" = some be
  k_x11 : P "X11" = some x11
  k_x16 : P "X16" = some x16
  k_x05 : P "X05" = some x05
  k_snr : P "Snr" = some snr
  k_ns : P "O2_nS" = some ns

/-- The parameters of the newer models. -/
structure OxyLate (P : Refs) where
  (y0 y1 d0 d1 : Ref)
  k_y0 : P "y0" = some y0
  k_y1 : P "y1" = some y1
  k_d0 : P "dnu0" = some d0
  k_d1 : P "dnu1" = some d1

/-- The parameters of the older models. -/
structure OxyEarly (P : Refs) where
  (y yn v vn : ℕ)
  k_y : P "Y300" = some (.arr y)
  k_yn : P "Y300_NL" = some (.arr yn)
  k_v : P "O2_V" = some (.arr v)
  k_vn : P "O2_V_NL" = some (.arr vn)

/-- The line list after the assignments common to all models. -/
def setOxy {P : Refs} (K : OxyKeys P) (ll : Refs) : Refs :=
  ((((((ll.set "w2a" K.w2a).set "wb300" K.wb).set "f" K.f).set "s300" K.s).set "be" K.be).set "x11" K.x11)
    |>.set "x16" K.x16 |>.set "x05" K.x05 |>.set "x" K.x05 |>.set "snr" K.snr |>.set "ns" K.ns

/-- The memory after the assignments to `w300`. -/
def memOxy {P : Refs} (K : OxyKeys P) (h : Mem) (w : ℕ) : Mem := copied (copied h w K.g 0 38) w K.gnl 34 49

theorem amuOxygen_late {m : String} (hm : "R19" < m) {P : Refs} (K : OxyKeys P) (N : OxyLate P) (h : Mem) {ll : Refs} {w : ℕ}
    (hw : ll "w300" = some (.arr w)) : amuOxygen m P h ll = .ok (memOxy K h w,
      ((((setOxy K ll).set "y0" N.y0).set "y1" N.y1).set "dnu0" N.d0).set "dnu1" N.d1) := by
  have hw' : (ll.set "w2a" K.w2a) "w300" = some (.arr w) := by simp [Refs.set, hw]
  unfold amuOxygen
  simp only [get_bind_some K.k_w2a, get_bind_some K.k_g, get_bind_some K.k_gnl, get_bind_some K.k_wb, get_bind_some K.k_f, get_bind_some K.k_s, get_bind_some K.k_be, get_bind_some K.k_x11, get_bind_some K.k_x16, get_bind_some K.k_x05, get_bind_some K.k_snr, get_bind_some K.k_ns, get_bind_some hw', slice_bind_some,
    if_pos hm, get_bind_some N.k_y0, get_bind_some N.k_y1, get_bind_some N.k_d0, get_bind_some N.k_d1]
  rfl

theorem amuOxygen_early {m : String} (hm : ¬ "R19" < m) {P : Refs} (K : OxyKeys P) (N : OxyEarly P) (h : Mem) {ll : Refs}
    {w : ℕ} (hw : ll "w300" = some (.arr w)) : amuOxygen m P h ll =
      .ok (copied (copied (memOxy K h w) N.y N.yn 34 49) N.v N.vn 34 49,
        ((setOxy K ll).set "y300" (.arr N.y)).set "v" (.arr N.v)) := by
  have hw' : (ll.set "w2a" K.w2a) "w300" = some (.arr w) := by simp [Refs.set, hw]
  unfold amuOxygen
  simp only [get_bind_some K.k_w2a, get_bind_some K.k_g, get_bind_some K.k_gnl, get_bind_some K.k_wb, get_bind_some K.k_f, get_bind_some K.k_s, get_bind_some K.k_be, get_bind_some K.k_x11, get_bind_some K.k_x16, get_bind_some K.k_x05, get_bind_some K.k_snr, get_bind_some K.k_ns, get_bind_some hw', slice_bind_some,
    if_neg hm, get_bind_some N.k_y, get_bind_some N.k_yn, get_bind_some N.k_v, get_bind_some N.k_vn]
  rfl

/-- What a successful run needs. -/
theorem amuOxygen_ok {m : String} {P : Refs} {h : Mem} {ll : Refs} {r : Mem × Refs} (hr : amuOxygen m P h ll = .ok r) :
    ∃ _ : OxyKeys P, ∃ w, ll "w300" = some (.arr w) ∧ ("R19" < m → Nonempty (OxyLate P)) ∧
      (¬ "R19" < m → Nonempty (OxyEarly P)) := by
  unfold amuOxygen at hr
  obtain ⟨w2a, k1, hr⟩ := get_bind hr
  obtain ⟨g, k2, hr⟩ := get_bind hr
  obtain ⟨w, k3, hr⟩ := get_bind hr
  obtain ⟨w, b, rfl, rfl, hr⟩ := slice_bind hr
  obtain ⟨gnl, k4, hr⟩ := get_bind hr
  obtain ⟨w', c, hw, rfl, hr⟩ := slice_bind hr
  obtain ⟨wb, k5, hr⟩ := get_bind hr
  obtain ⟨f, k6, hr⟩ := get_bind hr
  obtain ⟨s, k7, hr⟩ := get_bind hr
  obtain ⟨be, k8, hr⟩ := get_bind hr
  obtain ⟨x11, k9, hr⟩ := get_bind hr
  obtain ⟨x16, k10, hr⟩ := get_bind hr
  obtain ⟨x05, k11, hr⟩ := get_bind hr
  obtain ⟨snr, k12, hr⟩ := get_bind hr
  obtain ⟨ns, k13, hr⟩ := get_bind hr
  have hw3 : ll "w300" = some (.arr w) := by simpa [Refs.set] using k3
  refine ⟨⟨w2a, wb, f, s, be, x11, x16, x05, snr, ns, b, c, k1, k2, k4, k5, k6, k7, k8, k9, k10, k11, k12, k13⟩, w, hw3, ?_,
    ?_⟩
  · intro hm
    rw [if_pos hm] at hr
    obtain ⟨y0, j1, hr⟩ := get_bind hr
    obtain ⟨y1, j2, hr⟩ := get_bind hr
    obtain ⟨d0, j3, hr⟩ := get_bind hr
    obtain ⟨d1, j4, hr⟩ := get_bind hr
    exact ⟨⟨y0, y1, d0, d1, j1, j2, j3, j4⟩⟩
  · intro hm
    rw [if_neg hm] at hr
    obtain ⟨y, j1, hr⟩ := get_bind hr
    obtain ⟨yn, j2, hr⟩ := get_bind hr
    obtain ⟨y, yn, rfl, rfl, hr⟩ := slice_bind hr
    obtain ⟨v, j3, hr⟩ := get_bind hr
    obtain ⟨vn, j4, hr⟩ := get_bind hr
    obtain ⟨v, vn, rfl, rfl, hr⟩ := slice_bind hr
    exact ⟨⟨y, yn, v, vn, j1, j2, j3, j4⟩⟩

/-- The attributes of the line list that `oxygen_parameters` reads. -/
def oxygenParamReads (m : String) : List String :=
  ["f", "s300", "be", "w300", "wb300", "x"] ++ if "R19" < m then ["y0", "y1", "dnu0", "dnu1"] else ["v", "y300"]

theorem oxygenParams_some {m : String} {ll : Refs} {P : Refs} (h : oxygenParams m ll = .ok P) :
    (∃ f s be w wb x, ll "f" = some f ∧ ll "s300" = some s ∧ ll "be" = some be ∧ ll "w300" = some w ∧
      ll "wb300" = some wb ∧ ll "x" = some x ∧ P "O2FL" = some f ∧ P "O2S" = some s ∧ P "O2BE" = some be ∧
      P "O2gamma" = some w ∧ P "O2gamma_NL" = some w ∧ P "WB300" = some wb ∧ P "X05" = some x ∧
      P "Snr" = some (.num 1.6e-17) ∧ P "X11" = some (.num 0.785) ∧ P "X16" = some (.num 0.765) ∧
      P "O2_nS" = some (.num 2) ∧ P "w2a" = some (.num 1.2)) ∧
    ("R19" < m → ∃ y0 y1 d0 d1, ll "y0" = some y0 ∧ ll "y1" = some y1 ∧ ll "dnu0" = some d0 ∧ ll "dnu1" = some d1 ∧
      P "y0" = some y0 ∧ P "y1" = some y1 ∧ P "dnu0" = some d0 ∧ P "dnu1" = some d1) ∧
    (¬ "R19" < m → ∃ v y, ll "v" = some v ∧ ll "y300" = some y ∧ P "Y300" = some y ∧ P "Y300_NL" = some y ∧
      P "O2_V" = some v ∧ P "O2_V_NL" = some v) := by
  unfold oxygenParams at h
  obtain ⟨f, e1, h⟩ := get_bind h
  obtain ⟨s, e2, h⟩ := get_bind h
  obtain ⟨be, e3, h⟩ := get_bind h
  obtain ⟨w, e4, h⟩ := get_bind h
  obtain ⟨wb, e5, h⟩ := get_bind h
  obtain ⟨x, e6, h⟩ := get_bind h
  by_cases hm : "R19" < m
  · simp only [if_pos hm] at h
    obtain ⟨y0, j1, h⟩ := get_bind h
    obtain ⟨y1, j2, h⟩ := get_bind h
    obtain ⟨d0, j3, h⟩ := get_bind h
    obtain ⟨d1, j4, h⟩ := get_bind h
    cases h
    exact ⟨⟨f, s, be, w, wb, x, e1, e2, e3, e4, e5, e6, rfl, rfl, rfl, rfl, rfl, rfl, rfl, rfl, rfl, rfl, rfl, rfl⟩,
      fun _ => ⟨y0, y1, d0, d1, j1, j2, j3, j4, rfl, rfl, rfl, rfl⟩, fun h => absurd hm h⟩
  · simp only [if_neg hm] at h
    obtain ⟨v, j1, h⟩ := get_bind h
    obtain ⟨y, j2, h⟩ := get_bind h
    cases h
    exact ⟨⟨f, s, be, w, wb, x, e1, e2, e3, e4, e5, e6, rfl, rfl, rfl, rfl, rfl, rfl, rfl, rfl, rfl, rfl, rfl, rfl⟩,
      fun h => absurd h hm, fun _ => ⟨v, y, j1, j2, rfl, rfl, rfl, rfl⟩⟩

/-- The attributes that a run sets but no formula reads. -/
def oxyUnread : List String := ["w2a", "x11", "x16", "x05", "snr", "ns"]

theorem oxyUnread_reads (m : String) : ∀ a ∈ oxyReads m, a ∉ oxyUnread := by
  unfold oxyReads oxyExtra
  split_ifs <;> decide

theorem set_same {L ll : Refs} {U : List String} (hL : ∀ a, a ∉ U → L a = ll a) {b : String} {v : Ref}
    (hv : ll b = some v) : ∀ a, a ∉ U → (L.set b v) a = ll a := by
  intro a ha
  unfold Refs.set
  split_ifs with hb
  · rw [hb, hv]
  · exact hL a ha

theorem setOxy_same {P : Refs} (K : OxyKeys P) {ll : Refs} (h1 : ll "wb300" = some K.wb) (h2 : ll "f" = some K.f)
    (h3 : ll "s300" = some K.s) (h4 : ll "be" = some K.be) (h5 : ll "x" = some K.x05) {a : String} (ha : a ∉ oxyUnread) :
    setOxy K ll a = ll a := by
  simp only [oxyUnread, List.mem_cons, List.not_mem_nil, or_false, not_or] at ha
  obtain ⟨a1, a2, a3, a4, a5, a6⟩ := ha
  unfold setOxy
  simp only [Refs.set, a1, a2, a3, a4, a5, a6, if_false]
  by_cases c1 : a = "wb300"
  · subst c1; simp [h1]
  by_cases c2 : a = "f"
  · subst c2; simp [h2]
  by_cases c3 : a = "s300"
  · subst c3; simp [h3]
  by_cases c4 : a = "be"
  · subst c4; simp [h4]
  by_cases c5 : a = "x"
  · subst c5; simp [h5]
  simp [c1, c2, c3, c4, c5]

theorem oxygenParams_ok {m : String} {ll : Refs} (h : ∀ a ∈ oxygenParamReads m, (ll a).isSome) :
    ∃ P, oxygenParams m ll = .ok P := by
  have g (a : String) (ha : a ∈ oxygenParamReads m) := Option.isSome_iff_exists.1 (h a ha)
  unfold oxygenParamReads at g
  obtain ⟨_, e1⟩ := g "f" (by simp)
  obtain ⟨_, e2⟩ := g "s300" (by simp)
  obtain ⟨_, e3⟩ := g "be" (by simp)
  obtain ⟨_, e4⟩ := g "w300" (by simp)
  obtain ⟨_, e5⟩ := g "wb300" (by simp)
  obtain ⟨_, e6⟩ := g "x" (by simp)
  unfold oxygenParams
  rw [get_bind_some e1, get_bind_some e2, get_bind_some e3, get_bind_some e4, get_bind_some e5, get_bind_some e6]
  by_cases hm : "R19" < m
  · simp only [if_pos hm] at g ⊢
    obtain ⟨_, e12⟩ := g "y0" (by simp)
    obtain ⟨_, e13⟩ := g "y1" (by simp)
    obtain ⟨_, e14⟩ := g "dnu0" (by simp)
    obtain ⟨_, e15⟩ := g "dnu1" (by simp)
    rw [get_bind_some e12, get_bind_some e13, get_bind_some e14, get_bind_some e15]
    exact ⟨_, rfl⟩
  · simp only [if_neg hm] at g ⊢
    obtain ⟨_, e12⟩ := g "v" (by simp)
    obtain ⟨_, e13⟩ := g "y300" (by simp)
    rw [get_bind_some e12, get_bind_some e13]
    exact ⟨_, rfl⟩

theorem oxygenParams_fails {m : String} {ll : Refs} {a : String} (ha : a ∈ oxygenParamReads m) (h : ll a = none) :
    oxygenParams m ll = .error .attributeError := by
  have step (b : String) {α : Type} (k : Ref → Except PyErr α) (hk : ∀ v, b ≠ a → k v = .error .attributeError) :
      (ll.get .attributeError b >>= k) = .error .attributeError := by
    unfold Refs.get
    cases e : ll b with
    | none => rfl
    | some v => exact hk v (by rintro rfl; rw [h] at e; cases e)
  unfold oxygenParamReads at ha
  unfold oxygenParams
  refine step _ _ fun _ h1 => step _ _ fun _ h2 => step _ _ fun _ h3 => step _ _ fun _ h4 => step _ _ fun _ h5 =>
    step _ _ fun _ h6 => ?_
  by_cases hm : "R19" < m
  · simp only [if_pos hm] at ha ⊢
    refine step _ _ fun _ h12 => step _ _ fun _ h13 => step _ _ fun _ h14 => step _ _ fun _ h15 => ?_
    simp at ha
    grind
  · simp only [if_neg hm] at ha ⊢
    refine step _ _ fun _ h12 => step _ _ fun _ h13 => ?_
    simp at ha
    grind

theorem o2With_ok {m : String} {P ll : Refs} {h h' : Mem} {p vx e f : ℝ} {r : Option (ℝ × ℝ)}
    (hr : o2With m P h ll p vx e f = .ok (r, h')) :
    ∃ L, amuOxygen m P h ll = .ok (h', L) ∧ o2Absorption m (L.view h') p vx e f = .ok r := by
  unfold o2With at hr
  cases hA : amuOxygen m P h ll with
  | error _ => rw [hA] at hr; cases hr
  | ok x =>
    obtain ⟨h1, L⟩ := x
    rw [hA] at hr
    have hr : (o2Absorption m (L.view h1) p vx e f >>= fun r => pure (r, h1)) = .ok (r, h') := hr
    cases hB : o2Absorption m (L.view h1) p vx e f with
    | error _ => rw [hB] at hr; cases hr
    | ok x => rw [hB] at hr; cases hr; exact ⟨L, rfl, hB⟩

theorem o2With_of {m : String} {P ll L : Refs} {h h' : Mem} {p vx e f : ℝ} {r : Option (ℝ × ℝ)}
    (hA : amuOxygen m P h ll = .ok (h', L)) (hB : o2Absorption m (L.view h') p vx e f = .ok r) :
    o2With m P h ll p vx e f = .ok (r, h') := by
  unfold o2With
  rw [hA]
  show (o2Absorption m (L.view h') p vx e f >>= fun r => pure (r, h')) = _
  rw [hB]
  rfl

theorem o2_R17_total {ll : LineList} (h : ∀ a ∈ oxyReads "R17", (ll a).isSome) (p vx e f : ℝ) :
    ∃ r, o2Absorption "R17" ll p vx e f = .ok r := by
  have g (a : String) (ha : a ∈ oxyReads "R17") : ∃ v, attr ll a = .ok v := by
    obtain ⟨v, hv⟩ := Option.isSome_iff_exists.1 (h a ha)
    exact ⟨v, attr_some hv⟩
  obtain ⟨x1, e1⟩ := g "x" (by decide)
  obtain ⟨x2, e2⟩ := g "wb300" (by decide)
  obtain ⟨x3, e3⟩ := g "len(f)" (by decide)
  obtain ⟨x4, e4⟩ := g "f" (by decide)
  obtain ⟨x5, e5⟩ := g "s300" (by decide)
  obtain ⟨x6, e6⟩ := g "be" (by decide)
  obtain ⟨x7, e7⟩ := g "w300" (by decide)
  obtain ⟨x8, e8⟩ := g "y300" (by decide)
  obtain ⟨x9, e9⟩ := g "v" (by decide)
  have hs : ∃ s, oxySum "R17" ll (oxyAir "R17" (x1 0) (x2 0) p vx e) (x2 0) f = .ok s := by
    unfold oxySum
    rw [if_neg (by decide), if_pos (by decide)]
    unfold oxySumMid
    simp only [e3, e4, e5, e6, e7, e8, e9, bind, Except.bind, pure, Except.pure]
    exact ⟨_, rfl⟩
  obtain ⟨s, hs⟩ := hs
  unfold o2Absorption
  simp only [e1, e2, bind, Except.bind, hs, pure, Except.pure]
  exact ⟨_, rfl⟩

/-- A memory and references holding a table whose attributes are the given names. -/
noncomputable def tableMem (names : List String) (F : LineList) : Mem := fun i => ((names[i]?).bind F).getD fun _ => 0

open Classical in
/-- See `tableMem`. -/
noncomputable def tableRefs (names : List String) (F : LineList) : Refs := fun a =>
  if (F a).isSome then some (.arr (names.idxOf a)) else none

theorem tableRefs_view {names : List String} {F : LineList} (h : ∀ a, (F a).isSome → a ∈ names) (x : Val) :
    (tableRefs names F).view (Function.update (tableMem names F) names.length x) = F := by
  funext a
  unfold Refs.view tableRefs
  cases hF : F a with
  | none => simp
  | some v =>
    have ha := h a (by simp [hF])
    have hlt := List.idxOf_lt_length_iff.2 ha
    simp only [Option.isSome_some, if_true, Option.map_some, Ref.val, Option.some_inj]
    rw [Function.update_of_ne (by omega)]
    unfold tableMem
    rw [List.getElem?_eq_getElem hlt]
    simp [hF]

theorem key_update {P : Refs} {j k : String} {u v : Ref} (h : P j = some u) :
    (P.set k v) j = some (if j = k then v else u) := by
  unfold Refs.set
  split_ifs <;> simp [h]

theorem key_update_ne {P : Refs} {j k : String} {u v : Ref} (h : P j = some u) (hk : j ≠ k) : (P.set k v) j = some u := by
  unfold Refs.set
  rw [if_neg hk, h]

theorem setOxy_congr {P P' : Refs} (K : OxyKeys P) (K' : OxyKeys P') (ll : Refs) (h1 : K'.wb = K.wb) (h2 : K'.f = K.f)
    (h3 : K'.s = K.s) (h4 : K'.be = K.be) (h5 : K'.x05 = K.x05) {a : String} (ha : a ∉ oxyUnread) :
    setOxy K' ll a = setOxy K ll a := by
  simp only [oxyUnread, List.mem_cons, List.not_mem_nil, or_false, not_or] at ha
  obtain ⟨a1, a2, a3, a4, a5, a6⟩ := ha
  unfold setOxy
  simp only [Refs.set, a1, a2, a3, a4, a5, a6, if_false, h1, h2, h3, h4, h5]

end Verif.Lemmas
