import Verif.Model.ParamAlias
import Verif.Lemmas.WaterParams

/-!
# References held by the loaded line list and by a parameter dictionary
-/

namespace Verif.Lemmas

open Verif.Model Verif.Py Real

/-- All arrays of `r` lie below address `a`. -/
def Fresh (r : Refs) (a : ℕ) : Prop := ∀ k b, r k = some (.arr b) → b < a

variable {m k a : String} {T : RawTable} {base : ℕ} {old ll P : Refs} {h h' : Mem} {F : LineList}

theorem placed_below {b : ℕ} (hb : b < base) : placed T base h b = h b := by simp [placed, hb]

theorem src_view (s : Src) : (s.ref T base).map (Ref.val (placed T base h)) = s.val T := by
  cases s with
  | col c =>
    simp only [Src.ref, Src.val]
    by_cases hc : c < T.cols.length
    · have : ¬ base + 2 * c < base := by omega
      simp [hc, Ref.val, placed, this, cellOf]
    · simp [hc]
  | milli c =>
    simp only [Src.ref, Src.val]
    by_cases hc : c < T.cols.length
    · have h1 : ¬ base + 2 * c + 1 < base := by omega
      have h2 : base + 2 * c + 1 - base = 2 * c + 1 := by omega
      have h3 : (2 * c + 1) / 2 = c := by omega
      simp [hc, Ref.val, placed, h1, h2, h3, cellOf, Nat.add_mod]
    · simp [hc]
  | ctr c => simp only [Src.ref, Src.val]; split <;> rfl
  | reft => simp only [Src.ref, Src.val]; split <;> rfl
  | extra c => simp only [Src.ref, Src.val]; split <;> rfl
  | rows => rfl

theorem ref_bounds {s : Src} {b : ℕ} (hs : s.ref T base = some (.arr b)) :
    base ≤ b ∧ b < base + 2 * T.cols.length := by
  cases s <;> simp only [Src.ref] at hs <;> first | (split_ifs at hs <;> simp at hs <;> omega) | cases hs

/-- Loading gives the values of the file, and keeps what earlier loads left over. -/
theorem load_view (hT : waterGroups.lookup m = some T) (hF : waterFile m = some F) (hold : Fresh old base) :
    (loadWater m T base old).view (placed T base h) = reloadLL F (old.view h) := by
  unfold waterFile at hF
  rw [hT, Option.map_some, Option.some_inj] at hF
  funext a
  have e : ((lastAssign (waterAssign m) a).bind (Src.ref T base)).map (Ref.val (placed T base h)) = F a := by
    rw [← hF]
    show _ = (lastAssign (waterAssign m) a).bind (Src.val T)
    cases lastAssign (waterAssign m) a with
    | none => rfl
    | some s => exact src_view s
  unfold Refs.view loadWater reloadLL
  rw [← e]
  cases (lastAssign (waterAssign m) a).bind (Src.ref T base) with
  | some r => rfl
  | none =>
    show (old a).map _ = (old a).map _
    cases ho : old a with
    | none => rfl
    | some r =>
      cases r with
      | num x => rfl
      | arr b => simp [Ref.val, placed_below (hold a b ho)]

theorem load_fresh (hold : Fresh old base) : Fresh (loadWater m T base old) (base + 2 * T.cols.length) := by
  intro a b hb
  unfold loadWater at hb
  cases e : (lastAssign (waterAssign m) a).bind (Src.ref T base) with
  | some r =>
    rw [e] at hb
    simp only [Option.orElse_some, Option.some.injEq] at hb
    subst hb
    obtain ⟨s, -, hs⟩ := Option.bind_eq_some_iff.1 e
    exact (ref_bounds hs).2
  | none =>
    rw [e] at hb
    have := hold a b (by simpa using hb)
    omega

theorem scaled_val (h : Mem) (a : ℕ) (r : Ref) : (scaledRef a r).val (scaledMem h a r) = fun i => r.val h i * 1e3 := by
  cases r <;> simp [scaledRef, scaledMem, Ref.val]

theorem scaledMem_ne (h : Mem) {a b : ℕ} (r : Ref) (hb : b ≠ a) : scaledMem h a r b = h b := by
  cases r <;> simp [scaledMem, hb]

/-- A reference to an array below `a`. -/
def Ref.below (a : ℕ) (r : Ref) : Prop := ∀ b, r = .arr b → b < a

theorem below_val {a : ℕ} {r : Ref} (hr : Ref.below a r) (hm : ∀ b < a, h' b = h b) : r.val h' = r.val h := by
  cases r with
  | num x => rfl
  | arr b => exact hm b (hr b rfl)

theorem scaledRef_below {a c : ℕ} (r : Ref) (hc : a < c) : Ref.below c (scaledRef a r) := by
  intro b hb
  cases r <;> simp [scaledRef] at hb
  omega

theorem get_some {e : PyErr} {r : Ref} (hr : ll k = some r) : ll.get e k = .ok r := by unfold Refs.get; rw [hr]

theorem attr_view {r : Ref} (hr : ll k = some r) : attr (ll.view h) k = .ok (r.val h) := by
  unfold attr Refs.view; rw [hr]; rfl

theorem get_ok {e : PyErr} {r : Ref} (hr : ll.get e k = .ok r) : ll k = some r := by
  unfold Refs.get at hr
  cases hk : ll k with
  | none => rw [hk] at hr; cases hr
  | some x => rw [hk] at hr; cases hr; rfl

theorem bind_ok {α β : Type} {x : Except PyErr α} {f : α → Except PyErr β} {y : β} (hx : (x >>= f) = .ok y) :
    ∃ v, x = .ok v ∧ f v = .ok y := by
  cases x with
  | error e => cases hx
  | ok v => exact ⟨v, rfl, hx⟩

theorem lookup_map {α β : Type} (f : α → β) (l : List (String × α)) (k : String) :
    (l.map fun e => (e.1, f e.2)).lookup k = (l.lookup k).map f := by
  induction l with
  | nil => rfl
  | cons e l ih =>
    obtain ⟨x, y⟩ := e
    simp only [List.map_cons, List.lookup_cons]
    cases k == x
    · simpa using ih
    · rfl

theorem lookup_mem {α : Type} {l : List (String × α)} {k : String} {v : α} (hl : l.lookup k = some v) : (k, v) ∈ l := by
  rw [List.lookup_eq_some_iff] at hl
  obtain ⟨l₁, l₂, rfl, -⟩ := hl
  simp

theorem num_below (a : ℕ) (x : ℝ) : Ref.below a (.num x) := by intro b hb; cases hb

theorem Ref.below.mono {a b : ℕ} {r : Ref} (hr : Ref.below a r) (hab : a ≤ b) : Ref.below b r :=
  fun c hc => (hr c hc).trans_le hab

/-- The references held by a dictionary. -/
structure WaterRefs (m : String) (ll P : Refs) (a : ℕ) (h h' : Mem) : Prop where
  shared : ∀ e ∈ [("con_Cf", "cf"), ("con_Cs", "cs"), ("con_Xf", "xcf"), ("con_Xs", "xcs"), ("FL", "fl"), ("S", "s1"),
    ("B2", "b2"), ("n_a", "x"), ("n_w", "xs")] ++ (if "R17" < m then [("n_da", "xh"), ("n_dw", "xhs")] else
      [("SR", "sr")]), (ll e.2).isSome ∧ P e.1 = ll e.2
  scaled : ∀ e ∈ [("gamma_a", "w0", a), ("gamma_w", "w0s", a + 1)] ++ (if "R17" < m then
    [("delta_a", "sh", a + 2), ("delta_w", "shs", a + 3)] else []), ∃ r, ll e.2.1 = some r ∧ P e.1 = some (scaledRef e.2.2 r)
  numbers : ∀ k ∈ ["wv_nS", "con_Cf_factr", "con_Cs_factr"], ∃ x, P k = some (.num x)
  keys : ∀ k r, P k = some r → k ∈ ["con_Cf", "con_Cs", "con_Xf", "con_Xs", "FL", "S", "B2", "gamma_a", "gamma_w", "n_a",
    "n_w", "wv_nS"] ++ (if "R17" < m then ["con_Cf_factr", "con_Cs_factr", "n_da", "n_dw", "delta_a", "delta_w"] else
      ["SR", "con_Cf_factr", "con_Cs_factr"])
  frame : ∀ b < a, h' b = h b
  fresh : Fresh ll a → ∀ k r, P k = some r → (Ref.below (a + 4) r)
  values : Fresh ll a → waterParams m (ll.view h) = .ok (P.view h')

theorem waterRefs {a : ℕ} (hP : waterParamsRef m ll a h = .ok (P, h')) : WaterRefs m ll P a h h' := by
  unfold waterParamsRef at hP
  obtain ⟨cf, g1, hP⟩ := bind_ok hP
  obtain ⟨cs, g2, hP⟩ := bind_ok hP
  obtain ⟨xcf, g3, hP⟩ := bind_ok hP
  obtain ⟨xcs, g4, hP⟩ := bind_ok hP
  obtain ⟨fl, g5, hP⟩ := bind_ok hP
  obtain ⟨s1, g6, hP⟩ := bind_ok hP
  obtain ⟨b2, g7, hP⟩ := bind_ok hP
  obtain ⟨w0, g8, hP⟩ := bind_ok hP
  obtain ⟨w0s, g9, hP⟩ := bind_ok hP
  obtain ⟨x, g10, hP⟩ := bind_ok hP
  obtain ⟨xs, g11, hP⟩ := bind_ok hP
  have g1 := get_ok g1
  have g2 := get_ok g2
  have g3 := get_ok g3
  have g4 := get_ok g4
  have g5 := get_ok g5
  have g6 := get_ok g6
  have g7 := get_ok g7
  have g8 := get_ok g8
  have g9 := get_ok g9
  have g10 := get_ok g10
  have g11 := get_ok g11
  have below {k : String} {r : Ref} (hr : ll k = some r) (hf : Fresh ll a) : Ref.below a r := fun b hb =>
    hf k b (hb ▸ hr)
  simp only at hP
  split_ifs at hP with hm
  · obtain ⟨xh, k1, hP⟩ := bind_ok hP
    obtain ⟨xhs, k2, hP⟩ := bind_ok hP
    obtain ⟨sh, k3, hP⟩ := bind_ok hP
    obtain ⟨shs, k4, hP⟩ := bind_ok hP
    have k1 := get_ok k1
    have k2 := get_ok k2
    have k3 := get_ok k3
    have k4 := get_ok k4
    cases hP
    have fr : ∀ b < a, scaledMem (scaledMem (scaledMem (scaledMem h a w0) (a + 1) w0s) (a + 2) sh) (a + 3) shs b = h b := by
      intro b hb
      rw [scaledMem_ne _ _ (by omega), scaledMem_ne _ _ (by omega), scaledMem_ne _ _ (by omega),
        scaledMem_ne _ _ (by omega)]
    refine ⟨?_, ?_, ?_, ?_, fr, ?_, ?_⟩
    · rw [if_pos hm]
      intro e he
      fin_cases he <;> simp [g1, g2, g3, g4, g5, g6, g7, g10, g11, k1, k2, List.lookup]
    · rw [if_pos hm]
      intro e he
      fin_cases he <;> simp [g8, g9, k3, k4, List.lookup]
    · intro e he
      fin_cases he <;> exact ⟨_, rfl⟩
    · intro k r hk
      rw [if_pos hm]
      exact List.mem_map_of_mem (f := Prod.fst) (lookup_mem hk)
    · intro hf k r hk
      have hmem := lookup_mem hk
      simp only [List.mem_append, List.mem_cons, Prod.mk.injEq, List.not_mem_nil, or_false] at hmem
      have B := fun {k : String} {r : Ref} (hr : ll k = some r) => (below hr hf).mono (show a ≤ a + 4 by omega)
      rcases hmem with (⟨-, rfl⟩ | ⟨-, rfl⟩ | ⟨-, rfl⟩ | ⟨-, rfl⟩ | ⟨-, rfl⟩ | ⟨-, rfl⟩ | ⟨-, rfl⟩ | ⟨-, rfl⟩ | ⟨-, rfl⟩ | ⟨-, rfl⟩ | ⟨-, rfl⟩ | ⟨-, rfl⟩) | ⟨-, rfl⟩ | ⟨-, rfl⟩ | ⟨-, rfl⟩ | ⟨-, rfl⟩ | ⟨-, rfl⟩ | ⟨-, rfl⟩ <;>
        first | exact num_below _ _ | exact scaledRef_below _ (by omega) | exact B ‹_›
    · intro hf
      unfold waterParams
      rw [attr_view g1, attr_view g2, attr_view g3, attr_view g4, attr_view g5, attr_view g6, attr_view g7,
        attr_view g8, attr_view g9, attr_view g10, attr_view g11, attr_view k1, attr_view k2, attr_view k3, attr_view k4]
      simp only [if_pos hm]
      show Except.ok _ = Except.ok _
      congr 1
      funext k
      unfold paramsOf Refs.view
      rw [← lookup_map]
      have V := fun {k : String} {r : Ref} (hr : ll k = some r) => below_val (below hr hf) fr
      congr 1
      simp only [List.map_append, List.map_cons, List.map_nil, V g1, V g2, V g3, V g4, V g5, V g6, V g7, V g10, V g11, V k1, V k2]
      have S1 : (scaledRef a w0).val (scaledMem (scaledMem (scaledMem (scaledMem h a w0) (a + 1) w0s) (a + 2) sh)
          (a + 3) shs) = fun i => w0.val h i * 1e3 := by
        rw [← scaled_val h a w0]
        refine below_val (scaledRef_below _ (Nat.lt_succ_self a)) fun b hb => ?_
        rw [scaledMem_ne _ _ (by omega), scaledMem_ne _ _ (by omega), scaledMem_ne _ _ (by omega)]
      have S2 : (scaledRef (a + 1) w0s).val (scaledMem (scaledMem (scaledMem (scaledMem h a w0) (a + 1) w0s) (a + 2) sh)
          (a + 3) shs) = fun i => w0s.val h i * 1e3 := by
        rw [← below_val (below g9 hf) (h' := scaledMem h a w0) fun b hb => scaledMem_ne _ _ (by omega),
          ← scaled_val _ (a + 1) w0s]
        refine below_val (scaledRef_below _ (Nat.lt_succ_self (a + 1))) fun b hb => ?_
        rw [scaledMem_ne _ _ (by omega), scaledMem_ne _ _ (by omega)]
      have S3 : (scaledRef (a + 2) sh).val (scaledMem (scaledMem (scaledMem (scaledMem h a w0) (a + 1) w0s) (a + 2) sh)
          (a + 3) shs) = fun i => sh.val h i * 1e3 := by
        rw [← below_val (below k3 hf) (h' := scaledMem (scaledMem h a w0) (a + 1) w0s) fun b hb => by
          rw [scaledMem_ne _ _ (by omega), scaledMem_ne _ _ (by omega)], ← scaled_val _ (a + 2) sh]
        refine below_val (scaledRef_below _ (Nat.lt_succ_self (a + 2))) fun b hb => ?_
        rw [scaledMem_ne _ _ (by omega)]
      have S4 : (scaledRef (a + 3) shs).val (scaledMem (scaledMem (scaledMem (scaledMem h a w0) (a + 1) w0s) (a + 2) sh)
          (a + 3) shs) = fun i => shs.val h i * 1e3 := by
        rw [scaled_val, below_val (below k4 hf) fun b hb => by
          rw [scaledMem_ne _ _ (by omega), scaledMem_ne _ _ (by omega), scaledMem_ne _ _ (by omega)]]
      rw [S1, S2, S3, S4]
      rfl
  · obtain ⟨sr, k1, hP⟩ := bind_ok hP
    have k1 := get_ok k1
    cases hP
    have fr : ∀ b < a, scaledMem (scaledMem h a w0) (a + 1) w0s b = h b := by
      intro b hb
      rw [scaledMem_ne _ _ (by omega), scaledMem_ne _ _ (by omega)]
    refine ⟨?_, ?_, ?_, ?_, fr, ?_, ?_⟩
    · rw [if_neg hm]
      intro e he
      fin_cases he <;> simp [g1, g2, g3, g4, g5, g6, g7, g10, g11, k1, List.lookup]
    · rw [if_neg hm]
      intro e he
      fin_cases he <;> simp [g8, g9, List.lookup]
    · intro e he
      fin_cases he <;> exact ⟨_, rfl⟩
    · intro k r hk
      rw [if_neg hm]
      exact List.mem_map_of_mem (f := Prod.fst) (lookup_mem hk)
    · intro hf k r hk
      have hmem := lookup_mem hk
      simp only [List.mem_append, List.mem_cons, Prod.mk.injEq, List.not_mem_nil, or_false] at hmem
      have B := fun {k : String} {r : Ref} (hr : ll k = some r) => (below hr hf).mono (show a ≤ a + 4 by omega)
      rcases hmem with (⟨-, rfl⟩ | ⟨-, rfl⟩ | ⟨-, rfl⟩ | ⟨-, rfl⟩ | ⟨-, rfl⟩ | ⟨-, rfl⟩ | ⟨-, rfl⟩ | ⟨-, rfl⟩ | ⟨-, rfl⟩ | ⟨-, rfl⟩ | ⟨-, rfl⟩ | ⟨-, rfl⟩) | ⟨-, rfl⟩ | ⟨-, rfl⟩ | ⟨-, rfl⟩ <;>
        first | exact num_below _ _ | exact scaledRef_below _ (by omega) | exact B ‹_›
    · intro hf
      unfold waterParams
      rw [attr_view g1, attr_view g2, attr_view g3, attr_view g4, attr_view g5, attr_view g6, attr_view g7,
        attr_view g8, attr_view g9, attr_view g10, attr_view g11, attr_view k1]
      simp only [if_neg hm]
      show Except.ok _ = Except.ok _
      congr 1
      funext k
      unfold paramsOf Refs.view
      rw [← lookup_map]
      have V := fun {k : String} {r : Ref} (hr : ll k = some r) => below_val (below hr hf) fr
      congr 1
      simp only [List.map_append, List.map_cons, List.map_nil, V g1, V g2, V g3, V g4, V g5, V g6, V g7, V g10, V g11, V k1]
      have S1 : (scaledRef a w0).val (scaledMem (scaledMem h a w0) (a + 1) w0s) = fun i => w0.val h i * 1e3 := by
        rw [← scaled_val h a w0]
        refine below_val (scaledRef_below _ (Nat.lt_succ_self a)) fun b hb => ?_
        rw [scaledMem_ne _ _ (by omega)]
      have S2 : (scaledRef (a + 1) w0s).val (scaledMem (scaledMem h a w0) (a + 1) w0s) = fun i => w0s.val h i * 1e3 := by
        rw [scaled_val, below_val (below g9 hf) fun b hb => scaledMem_ne _ _ (by omega)]
      rw [S1, S2]
      rfl

theorem waterParamsRef_ok {a : ℕ} (hr : ∀ k ∈ waterParamReads m, (ll k).isSome) :
    ∃ P h', waterParamsRef m ll a h = .ok (P, h') := by
  have g (k : String) (hk : k ∈ waterParamReads m) := Option.isSome_iff_exists.1 (hr k hk)
  unfold waterParamReads at g
  obtain ⟨_, e1⟩ := g "cf" (by simp)
  obtain ⟨_, e2⟩ := g "cs" (by simp)
  obtain ⟨_, e3⟩ := g "xcf" (by simp)
  obtain ⟨_, e4⟩ := g "xcs" (by simp)
  obtain ⟨_, e5⟩ := g "fl" (by simp)
  obtain ⟨_, e6⟩ := g "s1" (by simp)
  obtain ⟨_, e7⟩ := g "b2" (by simp)
  obtain ⟨_, e8⟩ := g "w0" (by simp)
  obtain ⟨_, e9⟩ := g "w0s" (by simp)
  obtain ⟨_, e10⟩ := g "x" (by simp)
  obtain ⟨_, e11⟩ := g "xs" (by simp)
  unfold waterParamsRef
  rw [get_some e1, get_some e2, get_some e3, get_some e4, get_some e5, get_some e6, get_some e7, get_some e8,
    get_some e9, get_some e10, get_some e11]
  by_cases hm : "R17" < m
  · simp only [if_pos hm] at g ⊢
    obtain ⟨_, k1⟩ := g "xh" (by simp)
    obtain ⟨_, k2⟩ := g "xhs" (by simp)
    obtain ⟨_, k3⟩ := g "sh" (by simp)
    obtain ⟨_, k4⟩ := g "shs" (by simp)
    rw [get_some k1, get_some k2, get_some k3, get_some k4]
    exact ⟨_, _, rfl⟩
  · simp only [if_neg hm] at g ⊢
    obtain ⟨_, k1⟩ := g "sr" (by simp)
    rw [get_some k1]
    exact ⟨_, _, rfl⟩

/-- Names assigned by the module body. -/
def assigned (m : String) : List String := (waterAssign m).map Prod.fst

set_option maxRecDepth 10000 in
/-- No two attributes refer to the same part of the table. -/
theorem assigned_distinct : ∀ g ∈ waterGroups, ∀ a ∈ assigned g.1, ∀ b ∈ assigned g.1,
    lastAssign (waterAssign g.1) a = lastAssign (waterAssign g.1) b → a = b := by decide +kernel

theorem lastAssign_mem {l : List (String × Src)} {a : String} {s : Src} (hl : lastAssign l a = some s) :
    a ∈ l.map Prod.fst := by
  unfold lastAssign at hl
  obtain ⟨e, he, -⟩ := Option.map_eq_some_iff.1 hl
  have h1 := List.find?_some he
  have h2 := List.mem_of_find?_eq_some he
  simp only [decide_eq_true_eq] at h1
  subst h1
  exact List.mem_map_of_mem (List.mem_reverse.1 h2)

theorem ref_inj {s s' : Src} {b : ℕ} (hs : s.ref T base = some (.arr b)) (hs' : s'.ref T base = some (.arr b)) :
    s = s' := by
  cases s <;> cases s' <;> simp only [Src.ref] at hs hs' <;>
    (try split_ifs at hs hs') <;> simp at hs hs' <;> (congr 1; omega)

/-- After loading, an array of the file belongs to one attribute only. -/
theorem load_unique (hT : waterGroups.lookup m = some T) (hold : Fresh old base) {s : Src}
    (hs : lastAssign (waterAssign m) a = some s) {b : ℕ} (hb : s.ref T base = some (.arr b)) {a' : String}
    (ha' : loadWater m T base old a' = some (.arr b)) : a' = a := by
  unfold loadWater at ha'
  cases e : (lastAssign (waterAssign m) a').bind (Src.ref T base) with
  | some r =>
    rw [e] at ha'
    simp only [Option.orElse_some, Option.some.injEq] at ha'
    subst ha'
    obtain ⟨s', h1, h2⟩ := Option.bind_eq_some_iff.1 e
    have := ref_inj hb h2
    subst this
    exact assigned_distinct (m, T) (lookup_mem hT) a' (lastAssign_mem h1) a (lastAssign_mem hs) (h1.trans hs.symm)
  | none =>
    rw [e] at ha'
    have h1 := hold a' b (by simpa using ha')
    have h2 := (ref_bounds hb).1
    omega

theorem view_update {b : ℕ} (hb : ll a = some (.arr b)) (hu : ∀ a', ll a' = some (.arr b) → a' = a) (v : Val) :
    ll.view (Function.update h b v) = (ll.view h).set a v := by
  funext a'
  unfold Refs.view LineList.set
  split_ifs with e
  · subst e; rw [hb]; simp [Ref.val]
  · show (ll a').map _ = (ll a').map _
    cases hr : ll a' with
    | none => rfl
    | some r =>
      cases r with
      | num x => rfl
      | arr c =>
        have : c ≠ b := by rintro rfl; exact e (hu a' hr)
        simp [Ref.val, this]

theorem view_frame {c : ℕ} (hf : Fresh ll c) (hm : ∀ b < c, h' b = h b) : ll.view h' = ll.view h := by
  funext a
  unfold Refs.view
  cases hr : ll a with
  | none => rfl
  | some r =>
    cases r with
    | num x => rfl
    | arr b => simp [Ref.val, hm b (hf a b hr)]

end Verif.Lemmas
