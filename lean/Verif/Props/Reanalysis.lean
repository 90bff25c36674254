import Verif.Model.Reanalysis
import Verif.Props.Utils

/-!
# Reading reanalysis files (C72)
-/

namespace Verif.Props

open Verif.Model Verif.Py Real

/-! ### Specification -/

/-- Point of the unit sphere at a latitude and longitude in degrees. -/
noncomputable def spherePoint (a : ℝ × ℝ) : ℝ × ℝ × ℝ :=
  (cos (a.1 * π / 180) * cos (a.2 * π / 180), cos (a.1 * π / 180) * sin (a.2 * π / 180), sin (a.1 * π / 180))

/-- Square of the straight distance between two such points; it grows with the distance along the surface. -/
noncomputable def chordSq (a b : ℝ × ℝ) : ℝ :=
  ((spherePoint a).1 - (spherePoint b).1) ^ 2 + ((spherePoint a).2.1 - (spherePoint b).2.1) ^ 2 +
    ((spherePoint a).2.2 - (spherePoint b).2.2) ^ 2

/-- The file has these coordinates and they have the lengths of its dimensions. -/
structure Coordinates (nc : NcFile) (lats lons lev time : List ℝ) : Prop where
  lat : nc.coord "latitude" = some lats
  lon : nc.coord "longitude" = some lons
  level : nc.coord "level" = some lev
  tim : nc.coord "time" = some time
  nlev : nc.nlev = lev.length
  ntime : nc.ntime = time.length
  nlat : nc.nlat = lats.length
  nlon : nc.nlon = lons.length

/-- The data a user expects: values of a variable at the first time and a grid node, last level of the file first. -/
def nodeColumn (nc : NcFile) (name : String) (i j : ℕ) : Option (List ℝ) :=
  (nc.var name).map fun v => ((List.range nc.nlev).map fun b => v 0 b i j).reverse

/-- The grid node in row `i` and column `j` as (latitude, longitude). -/
def gridNode (lats lons : List ℝ) (i j : ℕ) : Option (ℝ × ℝ) :=
  match lats[i]?, lons[j]? with
  | some a, some b => some (a, b)
  | _, _ => none

/-! ### The metric -/

theorem chordSq_eq (a b : ℝ × ℝ) : chordSq a b =
    4 * (sin ((a.1 * π / 180 - b.1 * π / 180) / 2) ^ 2 +
      cos (a.1 * π / 180) * cos (b.1 * π / 180) * sin ((a.2 * π / 180 - b.2 * π / 180) / 2) ^ 2) := by
  have h (x : ℝ) : sin (x / 2) ^ 2 = (1 - cos x) / 2 := by
    have := cos_sq (x / 2)
    have h2 := sin_sq_add_cos_sq (x / 2)
    rw [show 2 * (x / 2) = x by ring] at this
    linarith
  rw [h, h, cos_sub, cos_sub]
  unfold chordSq spherePoint
  simp only
  have h1 := sin_sq_add_cos_sq (a.1 * π / 180)
  have h2 := sin_sq_add_cos_sq (b.1 * π / 180)
  have h3 := sin_sq_add_cos_sq (a.2 * π / 180)
  have h4 := sin_sq_add_cos_sq (b.2 * π / 180)
  generalize cos (a.1 * π / 180) = c1 at *
  generalize sin (a.1 * π / 180) = s1 at *
  generalize cos (b.1 * π / 180) = c2 at *
  generalize sin (b.1 * π / 180) = s2 at *
  generalize cos (a.2 * π / 180) = c3 at *
  generalize sin (a.2 * π / 180) = s3 at *
  generalize cos (b.2 * π / 180) = c4 at *
  generalize sin (b.2 * π / 180) = s4 at *
  linear_combination h1 + h2 + c1 ^ 2 * h3 + c2 ^ 2 * h4

theorem chordSq_nonneg (a b : ℝ × ℝ) : 0 ≤ chordSq a b := by unfold chordSq; positivity

theorem chordSq_le (a b : ℝ × ℝ) : chordSq a b ≤ 4 := by
  unfold chordSq spherePoint
  simp only
  have h1 := sin_sq_add_cos_sq (a.1 * π / 180)
  have h2 := sin_sq_add_cos_sq (b.1 * π / 180)
  have h3 := sin_sq_add_cos_sq (a.2 * π / 180)
  have h4 := sin_sq_add_cos_sq (b.2 * π / 180)
  generalize cos (a.1 * π / 180) = c1 at *
  generalize sin (a.1 * π / 180) = s1 at *
  generalize cos (b.1 * π / 180) = c2 at *
  generalize sin (b.1 * π / 180) = s2 at *
  generalize cos (a.2 * π / 180) = c3 at *
  generalize sin (a.2 * π / 180) = s3 at *
  generalize cos (b.2 * π / 180) = c4 at *
  generalize sin (b.2 * π / 180) = s4 at *
  have e1 : (c1 * c3) ^ 2 + (c1 * s3) ^ 2 + s1 ^ 2 = 1 := by linear_combination h1 + c1 ^ 2 * h3
  have e2 : (c2 * c4) ^ 2 + (c2 * s4) ^ 2 + s2 ^ 2 = 1 := by linear_combination h2 + c2 ^ 2 * h4
  nlinarith [sq_nonneg (c1 * c3 + c2 * c4), sq_nonneg (c1 * s3 + c2 * s4), sq_nonneg (s1 + s2)]

theorem haversine_eq (a b : ℝ × ℝ) :
    haversine (radians a.1, radians a.2) (radians b.1, radians b.2) = 2 * arcsin √(chordSq a b / 4) := by
  rw [chordSq_eq]
  unfold haversine radians
  simp only
  congr 3
  ring

theorem haversine_le (q a b : ℝ × ℝ) :
    haversine (radians q.1, radians q.2) (radians a.1, radians a.2) ≤
      haversine (radians q.1, radians q.2) (radians b.1, radians b.2) ↔ chordSq q a ≤ chordSq q b := by
  have hm (x : ℝ × ℝ) : √(chordSq q x / 4) ∈ Set.Icc (-1 : ℝ) 1 := by
    refine ⟨by linarith [sqrt_nonneg (chordSq q x / 4)], ?_⟩
    exact sqrt_le_iff.2 ⟨zero_le_one, by linarith [chordSq_le q x]⟩
  rw [haversine_eq, haversine_eq, mul_le_mul_iff_right₀ (by norm_num), strictMonoOn_arcsin.le_iff_le (hm a) (hm b),
    sqrt_le_sqrt_iff (by linarith [chordSq_nonneg q b])]
  constructor <;> intro h <;> linarith

theorem chordSq_self (a : ℝ × ℝ) : chordSq a a = 0 := by simp [chordSq]

/-! ### Steps of the readers -/

theorem getVar_ok {nc : NcFile} {name : String} {i : ℕ} {r : List (List ℝ)} (h : nc.getVar name i = .ok r) :
    ∃ v, nc.var name = some v ∧
      r = (List.range nc.ntime).map fun a => (List.range nc.nlev).map fun b => v a b i i := by
  unfold NcFile.getVar at h
  cases hv : nc.var name with
  | none => simp [hv] at h
  | some v => exact ⟨v, rfl, by simpa [hv] using h.symm⟩

theorem firstRow_getVar {nc : NcFile} {name : String} {i : ℕ} {r : List (List ℝ)} {x : List ℝ}
    (h : nc.getVar name i = .ok r) (hx : firstRow r = .ok x) : nodeColumn nc name i i = some x.reverse := by
  obtain ⟨v, hv, rfl⟩ := getVar_ok h
  unfold nodeColumn
  rw [hv, Option.map_some]
  cases hn : nc.ntime with
  | zero => simp [hn, firstRow] at hx
  | succ n =>
    rw [hn, List.range_succ_eq_map, List.map_cons, firstRow] at hx
    rw [← Except.ok.inj hx]

theorem firstRow_rh {nc : NcFile} {name : String} {i : ℕ} {r : List (List ℝ)} {x : List ℝ}
    (h : nc.getVar name i = .ok r) (hx : firstRow (r.map fun row => row.map (· / 100)) = .ok x) :
    ∃ y, nodeColumn nc name i i = some y ∧ x.reverse = y.map (· / 100) := by
  cases hr : r with
  | nil => simp [hr, firstRow] at hx
  | cons a l =>
    subst hr
    refine ⟨_, firstRow_getVar h rfl, ?_⟩
    rw [List.map_cons, firstRow] at hx
    rw [← Except.ok.inj hx, List.map_reverse]

theorem findNearest_ok {ball : List (ℝ × ℝ) → ℝ × ℝ → ℕ} (hb : NearestSearch ball) {lons lats : List ℝ} {q : ℝ × ℝ} {k : ℕ}
    (h : findNearest ball lons lats q = .ok k) : lats.length = lons.length ∧ k < lats.length ∧
      ∃ a, gridNode lats lons k k = some a ∧
        ∀ j b, gridNode lats lons j j = some b → chordSq (q.2, q.1) a ≤ chordSq (q.2, q.1) b := by
  unfold findNearest at h
  by_cases h1 : lats.length = lons.length
  · rw [if_neg (by simpa using h1)] at h
    by_cases h2 : lats = []
    · rw [if_pos h2] at h; cases h
    · rw [if_neg h2] at h
      have hk := Except.ok.inj h
      have hne : (lats.zip lons).map (fun x => (radians x.1, radians x.2)) ≠ [] := by
        intro hn
        have := congrArg List.length hn
        simp only [List.length_map, List.length_zip, List.length_nil, ← h1, min_self, List.length_eq_zero_iff] at this
        exact h2 this
      obtain ⟨p, hp, hmin⟩ := hb _ (radians q.2, radians q.1) hne
      rw [hk, List.getElem?_map] at hp
      obtain ⟨a, ha, rfl⟩ := Option.map_eq_some_iff.1 hp
      have hkl : k < (lats.zip lons).length := (List.getElem?_eq_some_iff.1 ha).1
      simp only [List.length_zip, ← h1, min_self] at hkl
      refine ⟨h1, hkl, a, ?_, fun j b hj => ?_⟩
      · unfold gridNode
        rw [List.getElem?_zip_eq_some] at ha
        rw [ha.1, ha.2]
      · have hjb : (lats.zip lons)[j]? = some b := by
          unfold gridNode at hj
          rw [List.getElem?_zip_eq_some]
          cases h3 : lats[j]? <;> cases h4 : lons[j]? <;> simp_all
          subst hj
          exact ⟨rfl, rfl⟩
        have := hmin (radians b.1, radians b.2) (List.mem_map.2 ⟨b, List.mem_of_getElem? hjb, rfl⟩)
        exact (haversine_le (q.2, q.1) a b).1 this
  · rw [if_pos h1] at h; cases h

theorem ok_of_bind {α β : Type} {x : Except PyErr α} {f : α → Except PyErr β} {b : β} (h : x >>= f = .ok b) :
    ∃ a, x = .ok a ∧ f a = .ok b := by
  cases x with
  | error e => cases h
  | ok a => exact ⟨a, rfl, h⟩

theorem getCoord_ok {nc : NcFile} {name : String} {l r : List ℝ} (h : nc.coord name = some l) (hr : nc.getCoord name = .ok r) :
    r = l := by
  unfold NcFile.getCoord at hr
  rw [h] at hr
  exact (Except.ok.inj hr).symm

theorem dataFrame_ok {c F : Frame} (h : dataFrame c = .ok F) :
    F = c ∧ ∀ a ∈ c, ∀ b ∈ c, a.2.length = b.2.length := by
  unfold dataFrame at h
  split at h
  · rename_i hc; exact ⟨(Except.ok.inj h).symm, hc⟩
  · cases h

/-- What every table has: the profile at the node with equal row and column number `k` that is nearest to the requested
point among the nodes with equal row and column number. -/
structure DiagonalProfile (nc : NcFile) (lats lons lev : List ℝ) (q : ℝ × ℝ) (names : List String) (F : Frame) (k : ℕ) :
    Prop where
  square : lats.length = lons.length
  inside : k < lats.length
  nearest : ∃ a, gridNode lats lons k k = some a ∧
    ∀ j b, gridNode lats lons j j = some b → chordSq (q.2, q.1) a ≤ chordSq (q.2, q.1) b
  pressure : F.lookup "p" = some (lev.reverse.map some)
  humidity : ∃ y, nodeColumn nc "r" k k = some y ∧ F.lookup "rh" = some (y.map fun x => some (x / 100))
  others : ∀ n ∈ names, ∃ y, nodeColumn nc n k k = some y ∧ F.lookup n = some (y.map some)

/-- C72, ERA5. -/
theorem C72_profile_era {ball : List (ℝ × ℝ) → ℝ × ℝ → ℕ} (hb : NearestSearch ball) {nc : NcFile}
    {lats lons lev time : List ℝ} (hc : Coordinates nc lats lons lev time) {q : ℝ × ℝ} {F : Frame}
    (h : readEra ball nc q = .ok F) :
    ∃ k, DiagonalProfile nc lats lons lev q ["t", "clwc", "ciwc", "crwc", "cswc", "o3", "q"] F k := by
  unfold readEra at h
  obtain ⟨_, e1, h⟩ := ok_of_bind h
  obtain rfl := getCoord_ok hc.lat e1
  obtain ⟨_, e2, h⟩ := ok_of_bind h
  obtain rfl := getCoord_ok hc.lon e2
  obtain ⟨k, hk, h⟩ := ok_of_bind h
  obtain ⟨_, e3, h⟩ := ok_of_bind h
  obtain rfl := getCoord_ok hc.level e3
  obtain ⟨_, v1, h⟩ := ok_of_bind h
  obtain ⟨_, v2, h⟩ := ok_of_bind h
  obtain ⟨_, v3, h⟩ := ok_of_bind h
  obtain ⟨_, v4, h⟩ := ok_of_bind h
  obtain ⟨_, v5, h⟩ := ok_of_bind h
  obtain ⟨_, v6, h⟩ := ok_of_bind h
  obtain ⟨_, v7, h⟩ := ok_of_bind h
  obtain ⟨_, v8, h⟩ := ok_of_bind h
  obtain ⟨_, f1, h⟩ := ok_of_bind h
  obtain ⟨_, f8, h⟩ := ok_of_bind h
  obtain ⟨_, e4, h⟩ := ok_of_bind h
  obtain ⟨_, f2, h⟩ := ok_of_bind h
  obtain ⟨_, f3, h⟩ := ok_of_bind h
  obtain ⟨_, f4, h⟩ := ok_of_bind h
  obtain ⟨_, f5, h⟩ := ok_of_bind h
  obtain ⟨_, f6, h⟩ := ok_of_bind h
  obtain ⟨_, f7, h⟩ := ok_of_bind h
  obtain ⟨rfl, -⟩ := dataFrame_ok h
  obtain ⟨hs, hi, hn⟩ := findNearest_ok hb hk
  obtain ⟨y, hy, hy'⟩ := firstRow_rh v2 f2
  refine ⟨k, hs, hi, hn, rfl, ⟨y, hy, ?_⟩, ?_⟩
  · show some (fin _) = _
    rw [hy', fin, List.map_map]
    rfl
  · intro n hn
    simp only [List.mem_cons, List.not_mem_nil, or_false] at hn
    rcases hn with rfl | rfl | rfl | rfl | rfl | rfl | rfl
    · exact ⟨_, firstRow_getVar v1 f1, rfl⟩
    · exact ⟨_, firstRow_getVar v3 f3, rfl⟩
    · exact ⟨_, firstRow_getVar v4 f4, rfl⟩
    · exact ⟨_, firstRow_getVar v5 f5, rfl⟩
    · exact ⟨_, firstRow_getVar v6 f6, rfl⟩
    · exact ⟨_, firstRow_getVar v7 f7, rfl⟩
    · exact ⟨_, firstRow_getVar v8 f8, rfl⟩

/-- C72, EUMETSAT. -/
theorem C72_profile_eps {ball : List (ℝ × ℝ) → ℝ × ℝ → ℕ} (hb : NearestSearch ball) {nc : NcFile}
    {lats lons lev time : List ℝ} (hc : Coordinates nc lats lons lev time) {q : ℝ × ℝ} {F : Frame}
    (h : readEps ball nc q = .ok F) :
    ∃ k, DiagonalProfile nc lats lons lev q ["t", "clwc", "ciwc", "crwc", "cswc", "q"] F k := by
  unfold readEps at h
  obtain ⟨_, e1, h⟩ := ok_of_bind h
  obtain rfl := getCoord_ok hc.lat e1
  obtain ⟨_, e2, h⟩ := ok_of_bind h
  obtain rfl := getCoord_ok hc.lon e2
  obtain ⟨k, hk, h⟩ := ok_of_bind h
  obtain ⟨_, e3, h⟩ := ok_of_bind h
  obtain rfl := getCoord_ok hc.level e3
  obtain ⟨_, v1, h⟩ := ok_of_bind h
  obtain ⟨_, v2, h⟩ := ok_of_bind h
  obtain ⟨_, v3, h⟩ := ok_of_bind h
  obtain ⟨_, v4, h⟩ := ok_of_bind h
  obtain ⟨_, v5, h⟩ := ok_of_bind h
  obtain ⟨_, v6, h⟩ := ok_of_bind h
  obtain ⟨_, v8, h⟩ := ok_of_bind h
  obtain ⟨_, e4, h⟩ := ok_of_bind h
  obtain ⟨_, f1, h⟩ := ok_of_bind h
  obtain ⟨_, f2, h⟩ := ok_of_bind h
  obtain ⟨_, f3, h⟩ := ok_of_bind h
  obtain ⟨_, f4, h⟩ := ok_of_bind h
  obtain ⟨_, f5, h⟩ := ok_of_bind h
  obtain ⟨_, f6, h⟩ := ok_of_bind h
  obtain ⟨_, f8, h⟩ := ok_of_bind h
  obtain ⟨rfl, -⟩ := dataFrame_ok h
  obtain ⟨hs, hi, hn⟩ := findNearest_ok hb hk
  obtain ⟨y, hy, hy'⟩ := firstRow_rh v2 f2
  refine ⟨k, hs, hi, hn, rfl, ⟨y, hy, ?_⟩, ?_⟩
  · show some (fin _) = _
    rw [hy', fin, List.map_map]
    rfl
  · intro n hn
    simp only [List.mem_cons, List.not_mem_nil, or_false] at hn
    rcases hn with rfl | rfl | rfl | rfl | rfl | rfl
    · exact ⟨_, firstRow_getVar v1 f1, rfl⟩
    · exact ⟨_, firstRow_getVar v3 f3, rfl⟩
    · exact ⟨_, firstRow_getVar v4 f4, rfl⟩
    · exact ⟨_, firstRow_getVar v5 f5, rfl⟩
    · exact ⟨_, firstRow_getVar v6 f6, rfl⟩
    · exact ⟨_, firstRow_getVar v8 f8, rfl⟩

/-- C72: the data of a node with different row and column number are never used. -/
theorem C72_diagonal_only (ball : List (ℝ × ℝ) → ℝ × ℝ → ℕ) {nc nc' : NcFile} (hcoord : nc'.coord = nc.coord)
    (ht : nc'.ntime = nc.ntime) (hl : nc'.nlev = nc.nlev)
    (hv : ∀ n, (nc'.var n).map (fun v a b i => v a b i i) = (nc.var n).map fun v a b i => v a b i i) (q : ℝ × ℝ) :
    readEra ball nc' q = readEra ball nc q ∧ readEps ball nc' q = readEps ball nc q := by
  have hc (n : String) : nc'.getCoord n = nc.getCoord n := by unfold NcFile.getCoord; rw [hcoord]
  have hg (n : String) (i : ℕ) : nc'.getVar n i = nc.getVar n i := by
    have := hv n
    unfold NcFile.getVar
    rw [ht, hl]
    cases h1 : nc'.var n <;> cases h2 : nc.var n <;> rw [h1, h2] at this
    · cases this
    · cases this
    · have h3 := Option.some.inj this
      simp only [Except.ok.injEq]
      refine List.map_congr_left fun a _ => List.map_congr_left fun b _ => ?_
      exact congrFun (congrFun (congrFun h3 a) b) i
  constructor
  · unfold readEra; simp only [hc, hg]
  · unfold readEps; simp only [hc, hg]

theorem getCoord_some {nc : NcFile} {n : String} {l : List ℝ} (h : nc.coord n = some l) : nc.getCoord n = .ok l := by
  unfold NcFile.getCoord; rw [h]

theorem getVar_one {nc : NcFile} {n : String} {v : ℕ → ℕ → ℕ → ℕ → ℝ} (h : nc.var n = some v) (ht : nc.ntime = 1) (i : ℕ) :
    nc.getVar n i = .ok [(List.range nc.nlev).map fun b => v 0 b i i] := by
  unfold NcFile.getVar; rw [h, ht]; rfl

theorem getVar_isSome {nc : NcFile} {n : String} {i : ℕ} {r : List (List ℝ)} (h : nc.getVar n i = .ok r) :
    (nc.var n).isSome := by
  obtain ⟨v, hv, -⟩ := getVar_ok h
  rw [hv]; rfl

theorem dataFrame_succeeds {c : Frame} (n : ℕ) (h : ∀ a ∈ c, a.2.length = n) : ∃ F, dataFrame c = .ok F :=
  ⟨c, by unfold dataFrame; rw [if_pos fun a ha b hb => (h a ha).trans (h b hb).symm]⟩

theorem repeatEach_length (l : List ℝ) (n : ℕ) : (repeatEach l n).length = l.length * n := by
  unfold repeatEach
  induction l with
  | nil => simp
  | cons a l ih => rw [List.flatMap_cons, List.length_append, ih, List.length_replicate, List.length_cons]; ring

/-- C72, ERA5: which files can be read. -/
theorem C72_succeeds_era {ball : List (ℝ × ℝ) → ℝ × ℝ → ℕ} {nc : NcFile} {lats lons lev time : List ℝ}
    (hc : Coordinates nc lats lons lev time) (hlev : lev ≠ []) (q : ℝ × ℝ) :
    (∃ F, readEra ball nc q = .ok F) ↔ lats.length = lons.length ∧ lats ≠ [] ∧ time.length = 1 ∧
      ∀ n ∈ ["t", "r", "clwc", "ciwc", "crwc", "cswc", "o3", "q"], (nc.var n).isSome := by
  constructor
  · rintro ⟨F, h⟩
    unfold readEra at h
    obtain ⟨_, e1, h⟩ := ok_of_bind h
    obtain rfl := getCoord_ok hc.lat e1
    obtain ⟨_, e2, h⟩ := ok_of_bind h
    obtain rfl := getCoord_ok hc.lon e2
    obtain ⟨k, hk, h⟩ := ok_of_bind h
    obtain ⟨_, e3, h⟩ := ok_of_bind h
    obtain rfl := getCoord_ok hc.level e3
    obtain ⟨_, v1, h⟩ := ok_of_bind h
    obtain ⟨_, v2, h⟩ := ok_of_bind h
    obtain ⟨_, v3, h⟩ := ok_of_bind h
    obtain ⟨_, v4, h⟩ := ok_of_bind h
    obtain ⟨_, v5, h⟩ := ok_of_bind h
    obtain ⟨_, v6, h⟩ := ok_of_bind h
    obtain ⟨_, v7, h⟩ := ok_of_bind h
    obtain ⟨_, v8, h⟩ := ok_of_bind h
    obtain ⟨_, f1, h⟩ := ok_of_bind h
    obtain ⟨_, f8, h⟩ := ok_of_bind h
    obtain ⟨_, e4, h⟩ := ok_of_bind h
    obtain rfl := getCoord_ok hc.tim e4
    obtain ⟨_, f2, h⟩ := ok_of_bind h
    obtain ⟨_, f3, h⟩ := ok_of_bind h
    obtain ⟨_, f4, h⟩ := ok_of_bind h
    obtain ⟨_, f5, h⟩ := ok_of_bind h
    obtain ⟨_, f6, h⟩ := ok_of_bind h
    obtain ⟨_, f7, h⟩ := ok_of_bind h
    obtain ⟨-, hd⟩ := dataFrame_ok h
    have hl := hd _ (List.mem_cons_self ..) _ (List.mem_of_getLast? rfl)
    simp only [List.getLast_cons_cons, List.getLast_singleton, fin, List.length_map, List.length_reverse,
      repeatEach_length] at hl
    unfold findNearest at hk
    split at hk
    · cases hk
    · split at hk
      · cases hk
      · rename_i h1 h2
        refine ⟨by simpa using h1, h2, ?_, ?_⟩
        · have := List.length_pos_of_ne_nil hlev
          exact Nat.eq_of_mul_eq_mul_right this (by rw [one_mul]; exact hl.symm)
        · intro n hn
          simp only [List.mem_cons, List.not_mem_nil, or_false] at hn
          rcases hn with rfl | rfl | rfl | rfl | rfl | rfl | rfl | rfl
          · exact getVar_isSome v1
          · exact getVar_isSome v2
          · exact getVar_isSome v3
          · exact getVar_isSome v4
          · exact getVar_isSome v5
          · exact getVar_isSome v6
          · exact getVar_isSome v7
          · exact getVar_isSome v8
  · rintro ⟨h1, h2, h3, h4⟩
    simp only [List.forall_mem_cons, Option.isSome_iff_exists] at h4
    obtain ⟨⟨w1, g1⟩, ⟨w2, g2⟩, ⟨w3, g3⟩, ⟨w4, g4⟩, ⟨w5, g5⟩, ⟨w6, g6⟩, ⟨w7, g7⟩, ⟨w8, g8⟩, -⟩ := h4
    have ht : nc.ntime = 1 := hc.ntime.trans h3
    unfold readEra findNearest
    simp only [getCoord_some hc.lat, getCoord_some hc.lon, getCoord_some hc.level, getCoord_some hc.tim,
      getVar_one g1 ht, getVar_one g2 ht, getVar_one g3 ht, getVar_one g4 ht, getVar_one g5 ht, getVar_one g6 ht,
      getVar_one g7 ht, getVar_one g8 ht, bind, Except.bind, h1, h2, ne_eq, not_true_eq_false, if_false, firstRow,
      List.map_cons, List.map_nil]
    refine dataFrame_succeeds lev.length ?_
    simp only [List.forall_mem_cons, fin, List.length_map, List.length_reverse, List.length_range, hc.nlev,
      repeatEach_length, h3, one_mul]
    simp

/-- C72, EUMETSAT: which files can be read. -/
theorem C72_succeeds_eps {ball : List (ℝ × ℝ) → ℝ × ℝ → ℕ} {nc : NcFile} {lats lons lev time : List ℝ}
    (hc : Coordinates nc lats lons lev time) (hlev : lev ≠ []) (q : ℝ × ℝ) :
    (∃ F, readEps ball nc q = .ok F) ↔ lats.length = lons.length ∧ lats ≠ [] ∧ time.length = 1 ∧
      ∀ n ∈ ["t", "r", "clwc", "ciwc", "crwc", "cswc", "q"], (nc.var n).isSome := by
  constructor
  · rintro ⟨F, h⟩
    unfold readEps at h
    obtain ⟨_, e1, h⟩ := ok_of_bind h
    obtain rfl := getCoord_ok hc.lat e1
    obtain ⟨_, e2, h⟩ := ok_of_bind h
    obtain rfl := getCoord_ok hc.lon e2
    obtain ⟨k, hk, h⟩ := ok_of_bind h
    obtain ⟨_, e3, h⟩ := ok_of_bind h
    obtain rfl := getCoord_ok hc.level e3
    obtain ⟨_, v1, h⟩ := ok_of_bind h
    obtain ⟨_, v2, h⟩ := ok_of_bind h
    obtain ⟨_, v3, h⟩ := ok_of_bind h
    obtain ⟨_, v4, h⟩ := ok_of_bind h
    obtain ⟨_, v5, h⟩ := ok_of_bind h
    obtain ⟨_, v6, h⟩ := ok_of_bind h
    obtain ⟨_, v8, h⟩ := ok_of_bind h
    obtain ⟨_, e4, h⟩ := ok_of_bind h
    obtain rfl := getCoord_ok hc.tim e4
    obtain ⟨_, f1, h⟩ := ok_of_bind h
    obtain ⟨_, f2, h⟩ := ok_of_bind h
    obtain ⟨_, f3, h⟩ := ok_of_bind h
    obtain ⟨_, f4, h⟩ := ok_of_bind h
    obtain ⟨_, f5, h⟩ := ok_of_bind h
    obtain ⟨_, f6, h⟩ := ok_of_bind h
    obtain ⟨_, f8, h⟩ := ok_of_bind h
    obtain ⟨-, hd⟩ := dataFrame_ok h
    have hl := hd _ (List.mem_cons_self ..) _ (List.mem_of_getLast? rfl)
    simp only [List.getLast_cons_cons, List.getLast_singleton, fin, List.length_map, List.length_reverse,
      repeatEach_length] at hl
    unfold findNearest at hk
    split at hk
    · cases hk
    · split at hk
      · cases hk
      · rename_i h1 h2
        refine ⟨by simpa using h1, h2, ?_, ?_⟩
        · have := List.length_pos_of_ne_nil hlev
          exact Nat.eq_of_mul_eq_mul_right this (by rw [one_mul]; exact hl.symm)
        · intro n hn
          simp only [List.mem_cons, List.not_mem_nil, or_false] at hn
          rcases hn with rfl | rfl | rfl | rfl | rfl | rfl | rfl
          · exact getVar_isSome v1
          · exact getVar_isSome v2
          · exact getVar_isSome v3
          · exact getVar_isSome v4
          · exact getVar_isSome v5
          · exact getVar_isSome v6
          · exact getVar_isSome v8
  · rintro ⟨h1, h2, h3, h4⟩
    simp only [List.forall_mem_cons, Option.isSome_iff_exists] at h4
    obtain ⟨⟨w1, g1⟩, ⟨w2, g2⟩, ⟨w3, g3⟩, ⟨w4, g4⟩, ⟨w5, g5⟩, ⟨w6, g6⟩, ⟨w8, g8⟩, -⟩ := h4
    have ht : nc.ntime = 1 := hc.ntime.trans h3
    unfold readEps findNearest
    simp only [getCoord_some hc.lat, getCoord_some hc.lon, getCoord_some hc.level, getCoord_some hc.tim,
      getVar_one g1 ht, getVar_one g2 ht, getVar_one g3 ht, getVar_one g4 ht, getVar_one g5 ht, getVar_one g6 ht,
      getVar_one g8 ht, bind, Except.bind, h1, h2, ne_eq, not_true_eq_false, if_false, firstRow,
      List.map_cons, List.map_nil]
    refine dataFrame_succeeds lev.length ?_
    simp only [List.forall_mem_cons, fin, List.length_map, List.length_reverse, List.length_range, hc.nlev,
      repeatEach_length, h3, one_mul]
    simp

theorem reverse_getD {lev : List ℝ} {i : ℕ} (h : i < lev.length) :
    lev.reverse.getD i 0 = lev[lev.length - 1 - i]'(by omega) := by
  rw [List.getD_eq_getElem?_getD, List.getElem?_eq_getElem (by simpa using h), List.getElem_reverse, Option.getD_some]

theorem column_getD (n : ℕ) (f : ℕ → ℝ) {i : ℕ} (h : i < n) :
    ((List.range n).map f).reverse.getD i 0 = f (n - 1 - i) := by
  rw [List.getD_eq_getElem?_getD, List.getElem?_eq_getElem (by simpa using h), List.getElem_reverse, Option.getD_some]
  simp

/-- C72, ERA5: with positive pressures ordered upwards in the file (as in the archive), positive temperatures and
nonnegative humidity, the heights are finite, start at zero, increase strictly and follow the hypsometric equation for the
temperatures and humidities of the table. -/
theorem C72_heights_era {ball : List (ℝ × ℝ) → ℝ × ℝ → ℕ} {nc : NcFile}
    {lats lons lev time : List ℝ} (hc : Coordinates nc lats lons lev time) (hlev : lev ≠ []) (hpos : ∀ x ∈ lev, 0 < x)
    (hord : lev.Pairwise (· < ·)) (ht : ∀ v, nc.var "t" = some v → ∀ b i j, 0 < v 0 b i j)
    (hq : ∀ v, nc.var "q" = some v → ∀ b i j, 0 ≤ v 0 b i j) {q : ℝ × ℝ} {F : Frame} (h : readEra ball nc q = .ok F) :
    ∃ hs ts qs tv : List ℝ, F.lookup "z" = some (hs.map some) ∧ F.lookup "t" = some (ts.map some) ∧
      F.lookup "q" = some (qs.map some) ∧ hs.length = lev.length ∧ tv.length = lev.length ∧ hs.head? = some 0 ∧
      hs.Pairwise (· < ·) ∧ (∀ (i : ℕ) a b c, ts[i]? = some a → qs[i]? = some b → tv[i]? = some c → virtualTemperature a b = some c) ∧
      ∀ (i : ℕ) z0 z1 p0 p1 t0 t1, hs[i]? = some z0 → hs[i + 1]? = some z1 → lev.reverse[i]? = some p0 →
        lev.reverse[i + 1]? = some p1 → tv[i]? = some t0 → tv[i + 1]? = some t1 →
        z1 - z0 = 8.314462618 / 28.96546e-3 / 9.80665 / 1000 * ((t0 + t1) / 2) * log (p0 / p1) := by
  unfold readEra at h
  obtain ⟨_, e1, h⟩ := ok_of_bind h
  obtain ⟨_, e2, h⟩ := ok_of_bind h
  obtain ⟨k, hk, h⟩ := ok_of_bind h
  obtain ⟨lev', e3, h⟩ := ok_of_bind h
  have e3' := getCoord_ok hc.level e3
  subst lev'
  obtain ⟨_, v1, h⟩ := ok_of_bind h
  obtain ⟨_, v2, h⟩ := ok_of_bind h
  obtain ⟨_, v3, h⟩ := ok_of_bind h
  obtain ⟨_, v4, h⟩ := ok_of_bind h
  obtain ⟨_, v5, h⟩ := ok_of_bind h
  obtain ⟨_, v6, h⟩ := ok_of_bind h
  obtain ⟨_, v7, h⟩ := ok_of_bind h
  obtain ⟨_, v8, h⟩ := ok_of_bind h
  obtain ⟨ts, f1, h⟩ := ok_of_bind h
  obtain ⟨qs, f8, h⟩ := ok_of_bind h
  obtain ⟨_, e4, h⟩ := ok_of_bind h
  obtain ⟨_, f2, h⟩ := ok_of_bind h
  obtain ⟨_, f3, h⟩ := ok_of_bind h
  obtain ⟨_, f4, h⟩ := ok_of_bind h
  obtain ⟨_, f5, h⟩ := ok_of_bind h
  obtain ⟨_, f6, h⟩ := ok_of_bind h
  obtain ⟨_, f7, h⟩ := ok_of_bind h
  obtain ⟨rfl, -⟩ := dataFrame_ok h
  obtain ⟨wt, ht', -⟩ := getVar_ok v1
  obtain ⟨wq, hq', -⟩ := getVar_ok v8
  have ets := firstRow_getVar v1 f1
  have eqs := firstRow_getVar v8 f8
  unfold nodeColumn at ets eqs
  rw [ht', hc.nlev] at ets
  rw [hq', hc.nlev] at eqs
  have ets := (Option.some.inj ets).symm
  have eqs := (Option.some.inj eqs).symm
  clear h
  set n := lev.length with hn
  have hn0 : 0 < n := List.length_pos_of_ne_nil hlev
  have hlt : ∀ i < n, ts.reverse.getD i 0 = wt 0 (n - 1 - i) k k := fun i hi => by rw [ets, column_getD _ _ hi]
  have hlq : ∀ i < n, qs.reverse.getD i 0 = wq 0 (n - 1 - i) k k := fun i hi => by rw [eqs, column_getD _ _ hi]
  have hp' : ∀ i < n, 0 < lev.reverse.getD i 0 := fun i hi => by
    rw [reverse_getD hi]; exact hpos _ (List.getElem_mem _)
  have hd' : ∀ i, i + 1 < n → lev.reverse.getD (i + 1) 0 < lev.reverse.getD i 0 := fun i hi => by
    rw [reverse_getD hi, reverse_getD (by omega)]
    exact List.pairwise_iff_getElem.1 hord _ _ _ _ (by omega)
  have hT : ∀ i < n, 0 < ts.reverse.getD i 0 := fun i hi => by rw [hlt i hi]; exact ht _ ht' _ _ _
  have hQ : ∀ m, (some fun i => qs.reverse.getD i 0) = some m → ∀ i < n, 0 ≤ m i := by
    rintro m ⟨⟩ i hi
    simp only
    rw [hlq i hi]; exact hq _ hq' _ _ _
  obtain ⟨hh, tv, h1, h2, h3, -, h5, h6⟩ := C46_thickness hp' hT hQ
  have hlts : ts.reverse.length = n := by rw [ets]; simp
  have hlqs : qs.reverse.length = n := by rw [eqs]; simp
  have get {f : ℕ → ℝ} {i : ℕ} {x : ℝ} (hx : ((List.range n).map f)[i]? = some x) : i < n ∧ f i = x := by
    obtain ⟨hi, hx⟩ := List.getElem?_eq_some_iff.1 hx
    simp only [List.length_map, List.length_range] at hi
    exact ⟨hi, by simpa using hx⟩
  have getD {l : List ℝ} {i : ℕ} {x : ℝ} (hx : l[i]? = some x) : l.getD i 0 = x := by
    rw [List.getD_eq_getElem?_getD, hx]; rfl
  refine ⟨(List.range n).map hh, ts.reverse, qs.reverse, (List.range n).map tv, ?_, rfl, rfl, by simp, by simp, ?_, ?_, ?_, ?_⟩
  · show some _ = _
    rw [List.map_map, List.length_reverse]
    refine congrArg some (List.map_congr_left fun i hi => ?_)
    rw [h1 i (List.mem_range.1 hi)]
    rfl
  · rw [List.head?_map, List.head?_range, if_neg (by omega)]
    simp [h2]
  · rw [List.pairwise_map]
    refine List.pairwise_lt_range.imp_of_mem fun {i j} hi hj hij => ?_
    obtain ⟨a, b, ha, hb, hab⟩ := C46_increasing hp' hT hQ hd' hij (List.mem_range.1 hj)
    rw [h1 _ (List.mem_range.1 hi)] at ha
    rw [h1 _ (List.mem_range.1 hj)] at hb
    cases ha; cases hb
    exact hab
  · intro i a b c ha hb hc'
    obtain ⟨hi, rfl⟩ := get hc'
    rw [← getD ha, ← getD hb]
    exact h5 _ rfl i hi
  · intro i z0 z1 p0 p1 t0 t1 a0 a1 b0 b1 c0 c1
    obtain ⟨hi, rfl⟩ := get a1
    obtain ⟨-, rfl⟩ := get a0
    obtain ⟨-, rfl⟩ := get c1
    obtain ⟨-, rfl⟩ := get c0
    rw [← getD b0, ← getD b1]
    exact h6 i hi

/-- C72, EUMETSAT: with positive pressures ordered upwards in the file, the heights are finite, increase strictly and are
those of the standard atmosphere for the pressures of the table. -/
theorem C72_heights_eps {ball : List (ℝ × ℝ) → ℝ × ℝ → ℕ} {nc : NcFile}
    {lats lons lev time : List ℝ} (hc : Coordinates nc lats lons lev time) (hpos : ∀ x ∈ lev, 0 < x)
    (hord : lev.Pairwise (· < ·)) {q : ℝ × ℝ} {F : Frame} (h : readEps ball nc q = .ok F) :
    ∃ hs : List ℝ, F.lookup "z" = some (hs.map some) ∧ hs.length = lev.length ∧ hs.Pairwise (· < ·) ∧
      ∀ (i : ℕ) z p, hs[i]? = some z → lev.reverse[i]? = some p → heightToPressure (1000 * z) = some p := by
  unfold readEps at h
  obtain ⟨_, e1, h⟩ := ok_of_bind h
  obtain ⟨_, e2, h⟩ := ok_of_bind h
  obtain ⟨k, hk, h⟩ := ok_of_bind h
  obtain ⟨lev', e3, h⟩ := ok_of_bind h
  have e3' := getCoord_ok hc.level e3
  subst lev'
  obtain ⟨_, v1, h⟩ := ok_of_bind h
  obtain ⟨_, v2, h⟩ := ok_of_bind h
  obtain ⟨_, v3, h⟩ := ok_of_bind h
  obtain ⟨_, v4, h⟩ := ok_of_bind h
  obtain ⟨_, v5, h⟩ := ok_of_bind h
  obtain ⟨_, v6, h⟩ := ok_of_bind h
  obtain ⟨_, v8, h⟩ := ok_of_bind h
  obtain ⟨_, e4, h⟩ := ok_of_bind h
  obtain ⟨_, f1, h⟩ := ok_of_bind h
  obtain ⟨_, f2, h⟩ := ok_of_bind h
  obtain ⟨_, f3, h⟩ := ok_of_bind h
  obtain ⟨_, f4, h⟩ := ok_of_bind h
  obtain ⟨_, f5, h⟩ := ok_of_bind h
  obtain ⟨_, f6, h⟩ := ok_of_bind h
  obtain ⟨_, f8, h⟩ := ok_of_bind h
  obtain ⟨rfl, -⟩ := dataFrame_ok h
  clear h
  have hh : ∀ p, ∃ z, 0 < p → pressureToHeight p = some z ∧ heightToPressure z = some p := fun p => by
    by_cases hp : 0 < p
    · obtain ⟨z, hz⟩ := C44_left_inverse hp
      exact ⟨z, fun _ => hz⟩
    · exact ⟨0, fun h => absurd h hp⟩
  choose g hg using hh
  refine ⟨lev.reverse.map fun p => g p / 1000, ?_, by simp, ?_, ?_⟩
  · show some (List.reverse _) = _
    rw [← List.map_reverse, List.map_map]
    refine congrArg some (List.map_congr_left fun p hp => ?_)
    rw [(hg p (hpos p (List.mem_reverse.1 hp))).1]
    rfl
  · rw [List.pairwise_map, List.pairwise_reverse]
    refine hord.imp_of_mem fun {a b} ha hb hab => ?_
    obtain ⟨x, y, hx, hy, hxy⟩ := C44_height_decreasing (hpos a ha) hab
    rw [(hg a (hpos a ha)).1] at hx
    rw [(hg b (hpos b hb)).1] at hy
    cases hx; cases hy
    linarith
  · intro i z p hz hp
    rw [List.getElem?_map, hp] at hz
    cases hz
    have : 1000 * (g p / 1000) = g p := by ring
    rw [this]
    exact (hg p (hpos p (List.mem_reverse.1 (List.mem_of_getElem? hp)))).2

/-- C72, ERA5: every row carries the time of the file. -/
theorem C72_time_era {ball : List (ℝ × ℝ) → ℝ × ℝ → ℕ} {nc : NcFile} {lats lons lev time : List ℝ}
    (hc : Coordinates nc lats lons lev time) (hlev : lev ≠ []) {q : ℝ × ℝ} {F : Frame} (h : readEra ball nc q = .ok F) :
    ∃ t0, time = [t0] ∧ F.lookup "time" = some (List.replicate lev.length (some t0)) := by
  have h1 := ((C72_succeeds_era hc hlev q).1 ⟨F, h⟩).2.2.1
  obtain ⟨t0, ht0⟩ := List.length_eq_one_iff.1 h1
  refine ⟨t0, ht0, ?_⟩
  unfold readEra at h
  obtain ⟨_, e1, h⟩ := ok_of_bind h
  obtain rfl := getCoord_ok hc.lat e1
  obtain ⟨_, e2, h⟩ := ok_of_bind h
  obtain rfl := getCoord_ok hc.lon e2
  obtain ⟨k, hk, h⟩ := ok_of_bind h
  obtain ⟨_, e3, h⟩ := ok_of_bind h
  obtain rfl := getCoord_ok hc.level e3
  obtain ⟨_, v1, h⟩ := ok_of_bind h
  obtain ⟨_, v2, h⟩ := ok_of_bind h
  obtain ⟨_, v3, h⟩ := ok_of_bind h
  obtain ⟨_, v4, h⟩ := ok_of_bind h
  obtain ⟨_, v5, h⟩ := ok_of_bind h
  obtain ⟨_, v6, h⟩ := ok_of_bind h
  obtain ⟨_, v7, h⟩ := ok_of_bind h
  obtain ⟨_, v8, h⟩ := ok_of_bind h
  obtain ⟨_, f1, h⟩ := ok_of_bind h
  obtain ⟨_, f8, h⟩ := ok_of_bind h
  obtain ⟨_, e4, h⟩ := ok_of_bind h
  obtain rfl := getCoord_ok hc.tim e4
  obtain ⟨_, f2, h⟩ := ok_of_bind h
  obtain ⟨_, f3, h⟩ := ok_of_bind h
  obtain ⟨_, f4, h⟩ := ok_of_bind h
  obtain ⟨_, f5, h⟩ := ok_of_bind h
  obtain ⟨_, f6, h⟩ := ok_of_bind h
  obtain ⟨_, f7, h⟩ := ok_of_bind h
  obtain ⟨rfl, -⟩ := dataFrame_ok h
  show some (fin (repeatEach _ _)) = _
  rw [ht0]
  simp [repeatEach, fin]

/-- C72, EUMETSAT: every row carries the time of the file. -/
theorem C72_time_eps {ball : List (ℝ × ℝ) → ℝ × ℝ → ℕ} {nc : NcFile} {lats lons lev time : List ℝ}
    (hc : Coordinates nc lats lons lev time) (hlev : lev ≠ []) {q : ℝ × ℝ} {F : Frame} (h : readEps ball nc q = .ok F) :
    ∃ t0, time = [t0] ∧ F.lookup "time" = some (List.replicate lev.length (some t0)) := by
  have h1 := ((C72_succeeds_eps hc hlev q).1 ⟨F, h⟩).2.2.1
  obtain ⟨t0, ht0⟩ := List.length_eq_one_iff.1 h1
  refine ⟨t0, ht0, ?_⟩
  unfold readEps at h
  obtain ⟨_, e1, h⟩ := ok_of_bind h
  obtain rfl := getCoord_ok hc.lat e1
  obtain ⟨_, e2, h⟩ := ok_of_bind h
  obtain rfl := getCoord_ok hc.lon e2
  obtain ⟨k, hk, h⟩ := ok_of_bind h
  obtain ⟨_, e3, h⟩ := ok_of_bind h
  obtain rfl := getCoord_ok hc.level e3
  obtain ⟨_, v1, h⟩ := ok_of_bind h
  obtain ⟨_, v2, h⟩ := ok_of_bind h
  obtain ⟨_, v3, h⟩ := ok_of_bind h
  obtain ⟨_, v4, h⟩ := ok_of_bind h
  obtain ⟨_, v5, h⟩ := ok_of_bind h
  obtain ⟨_, v6, h⟩ := ok_of_bind h
  obtain ⟨_, v8, h⟩ := ok_of_bind h
  obtain ⟨_, e4, h⟩ := ok_of_bind h
  obtain rfl := getCoord_ok hc.tim e4
  obtain ⟨_, f1, h⟩ := ok_of_bind h
  obtain ⟨_, f2, h⟩ := ok_of_bind h
  obtain ⟨_, f3, h⟩ := ok_of_bind h
  obtain ⟨_, f4, h⟩ := ok_of_bind h
  obtain ⟨_, f5, h⟩ := ok_of_bind h
  obtain ⟨_, f6, h⟩ := ok_of_bind h
  obtain ⟨_, f8, h⟩ := ok_of_bind h
  obtain ⟨rfl, -⟩ := dataFrame_ok h
  show some (fin (repeatEach _ _)) = _
  rw [ht0]
  simp [repeatEach, fin]

/-- C72: asking for a node with equal row and column number gives the profile at that node. -/
theorem diagonal_node {nc : NcFile} {lats lons lev : List ℝ} {q : ℝ × ℝ} {names : List String} {F : Frame} {k i : ℕ}
    (hp : DiagonalProfile nc lats lons lev q names F k) (hdist : lats.Nodup) (hrange : ∀ x ∈ lats, -90 ≤ x ∧ x ≤ 90)
    (hi : gridNode lats lons i i = some (q.2, q.1)) : k = i := by
  obtain ⟨a, ha, hmin⟩ := hp.nearest
  have h0 := hmin i _ hi
  rw [chordSq_self] at h0
  have hs : sin (q.2 * π / 180) = sin (a.1 * π / 180) := by
    unfold chordSq spherePoint at h0
    simp only at h0
    have h1 : (sin (q.2 * π / 180) - sin (a.1 * π / 180)) ^ 2 ≤ 0 := by
      refine le_trans ?_ h0
      have := sq_nonneg (cos (q.2 * π / 180) * cos (q.1 * π / 180) - cos (a.1 * π / 180) * cos (a.2 * π / 180))
      have := sq_nonneg (cos (q.2 * π / 180) * sin (q.1 * π / 180) - cos (a.1 * π / 180) * sin (a.2 * π / 180))
      linarith
    have := pow_eq_zero_iff (two_ne_zero) |>.1 (le_antisymm h1 (sq_nonneg _))
    linarith
  have la : lats[k]? = some a.1 := by
    unfold gridNode at ha
    cases h3 : lats[k]? <;> cases h4 : lons[k]? <;> simp_all
    rw [← ha]
  have li : lats[i]? = some q.2 := by
    unfold gridNode at hi
    cases h3 : lats[i]? <;> cases h4 : lons[i]? <;> simp_all
  have hr (x : ℝ) (hx : x ∈ lats) : x * π / 180 ∈ Set.Icc (-(π / 2)) (π / 2) := by
    obtain ⟨h1, h2⟩ := hrange x hx
    have := pi_pos
    constructor <;> nlinarith
  have he := injOn_sin (hr _ (List.mem_of_getElem? li)) (hr _ (List.mem_of_getElem? la)) hs
  have he' : a.1 = q.2 := by
    have := pi_pos
    field_simp at he
    exact he.symm
  rw [he'] at la
  obtain ⟨hk, e⟩ := List.getElem?_eq_some_iff.1 la
  exact (List.Nodup.getElem_inj_iff hdist).1 (e.trans (List.getElem?_eq_some_iff.1 li).2.symm)

theorem C72_node {ball : List (ℝ × ℝ) → ℝ × ℝ → ℕ} (hb : NearestSearch ball) {nc : NcFile}
    {lats lons lev time : List ℝ} (hc : Coordinates nc lats lons lev time) (hdist : lats.Nodup)
    (hrange : ∀ x ∈ lats, -90 ≤ x ∧ x ≤ 90) {i : ℕ} {lat lon : ℝ} (hi : gridNode lats lons i i = some (lat, lon)) :
    (∀ F, readEra ball nc (lon, lat) = .ok F →
      DiagonalProfile nc lats lons lev (lon, lat) ["t", "clwc", "ciwc", "crwc", "cswc", "o3", "q"] F i) ∧
    ∀ F, readEps ball nc (lon, lat) = .ok F →
      DiagonalProfile nc lats lons lev (lon, lat) ["t", "clwc", "ciwc", "crwc", "cswc", "q"] F i := by
  constructor <;> intro F h
  · obtain ⟨k, hk⟩ := C72_profile_era hb hc h
    exact diagonal_node hk hdist hrange hi ▸ hk
  · obtain ⟨k, hk⟩ := C72_profile_eps hb hc h
    exact diagonal_node hk hdist hrange hi ▸ hk

theorem nearestSearch_exists : ∃ ball, NearestSearch ball := by
  have h : ∀ (pts : List (ℝ × ℝ)) (q : ℝ × ℝ), ∃ i : ℕ, pts ≠ [] →
      ∃ p, pts[i]? = some p ∧ ∀ p' ∈ pts, haversine q p ≤ haversine q p' := by
    intro pts q
    induction pts with
    | nil => exact ⟨0, fun h => absurd rfl h⟩
    | cons a l ih =>
      obtain ⟨i, hi⟩ := ih
      by_cases hl : l = []
      · subst hl
        exact ⟨0, fun _ => ⟨a, rfl, by simp⟩⟩
      · obtain ⟨p, hp, hmin⟩ := hi hl
        by_cases hle : haversine q a ≤ haversine q p
        · refine ⟨0, fun _ => ⟨a, rfl, fun p' hp' => ?_⟩⟩
          rcases List.mem_cons.1 hp' with rfl | hm
          · exact le_rfl
          · exact hle.trans (hmin _ hm)
        · refine ⟨i + 1, fun _ => ⟨p, by simpa using hp, fun p' hp' => ?_⟩⟩
          rcases List.mem_cons.1 hp' with rfl | hm
          · exact (not_le.1 hle).le
          · exact hmin _ hm
  choose f hf using h
  exact ⟨f, hf⟩

/-- A file with one time, two levels and a grid of two by two nodes. -/
def smallFile : NcFile where
  ntime := 1
  nlev := 2
  nlat := 2
  nlon := 2
  coord n := if n = "latitude" then some [1, 0] else if n = "longitude" then some [0, 1]
    else if n = "level" then some [500, 1000] else if n = "time" then some [0] else none
  var n := if n = "t" then some fun _ b i j => 260 + 20 * b + 2 * i + j else if n = "r" then some fun _ _ _ _ => 50
    else some fun _ _ _ _ => 0

theorem smallFile_coordinates : Coordinates smallFile [1, 0] [0, 1] [500, 1000] [0] := by
  constructor <;> simp [smallFile]

/-- C72 as a user would state it ("the profile at the nearest grid node") fails: the file has a node exactly at the
requested point and both readers return another node's temperatures. -/
theorem C72_refuted : ∃ (nc : NcFile) (lats lons lev time : List ℝ) (lat lon : ℝ) (i j : ℕ),
    Coordinates nc lats lons lev time ∧ gridNode lats lons i j = some (lat, lon) ∧
    ∀ ball, NearestSearch ball →
      (∃ F, readEra ball nc (lon, lat) = .ok F ∧ F.lookup "t" ≠ (nodeColumn nc "t" i j).map (·.map some)) ∧
      ∃ F, readEps ball nc (lon, lat) = .ok F ∧ F.lookup "t" ≠ (nodeColumn nc "t" i j).map (·.map some) := by
  refine ⟨smallFile, [1, 0], [0, 1], [500, 1000], [0], 0, 0, 1, 0, smallFile_coordinates, rfl, fun ball hb => ?_⟩
  have hv : ∀ n, (smallFile.var n).isSome := by
    intro n; unfold smallFile; simp only; split
    · rfl
    · split <;> rfl
  have key {k : ℕ} {y : List ℝ} (hk : k < 2) (hy : nodeColumn smallFile "t" k k = some y) :
      some (y.map some) ≠ (nodeColumn smallFile "t" 1 0).map (·.map some) := by
    rintro h
    unfold nodeColumn smallFile at hy h
    simp [List.range_succ] at hy h
    subst hy
    obtain rfl | rfl : k = 0 ∨ k = 1 := by omega
    · norm_num at h
    · norm_num at h
  constructor
  · obtain ⟨F, hF⟩ := (C72_succeeds_era (ball := ball) smallFile_coordinates (by simp) (0, 0)).2
      ⟨rfl, by simp, rfl, fun n _ => hv n⟩
    obtain ⟨k, hk⟩ := C72_profile_era hb smallFile_coordinates hF
    obtain ⟨y, hy, hl⟩ := hk.others "t" (by simp)
    exact ⟨F, hF, hl ▸ key hk.inside hy⟩
  · obtain ⟨F, hF⟩ := (C72_succeeds_eps (ball := ball) smallFile_coordinates (by simp) (0, 0)).2
      ⟨rfl, by simp, rfl, fun n _ => hv n⟩
    obtain ⟨k, hk⟩ := C72_profile_eps hb smallFile_coordinates hF
    obtain ⟨y, hy, hl⟩ := hk.others "t" (by simp)
    exact ⟨F, hF, hl ▸ key hk.inside hy⟩

/-- The hypotheses of the C72 theorems are met: a search exists and both readers read the small file; asked for the
south-eastern node they return its temperatures, lowest level first. -/
example : ∃ ball, NearestSearch ball ∧ (∃ F, readEra ball smallFile (1, 0) = .ok F ∧
      F.lookup "t" = some [some 283, some 263] ∧ F.lookup "p" = some [some 1000, some 500]) ∧
    ∃ F, readEps ball smallFile (1, 0) = .ok F ∧ F.lookup "t" = some [some 283, some 263] := by
  obtain ⟨ball, hb⟩ := nearestSearch_exists
  have hv : ∀ n, (smallFile.var n).isSome := by
    intro n; unfold smallFile; simp only; split
    · rfl
    · split <;> rfl
  have ht : nodeColumn smallFile "t" 1 1 = some [283, 263] := by
    unfold nodeColumn smallFile
    norm_num [List.range_succ]
  have hn := C72_node hb smallFile_coordinates (by norm_num) (by norm_num) (i := 1) (lat := 0) (lon := 1) rfl
  refine ⟨ball, hb, ?_, ?_⟩
  · obtain ⟨F, hF⟩ := (C72_succeeds_era (ball := ball) smallFile_coordinates (by simp) (1, 0)).2
      ⟨rfl, by simp, rfl, fun n _ => hv n⟩
    have hk := hn.1 F hF
    obtain ⟨y, hy, hl⟩ := hk.others "t" (by simp)
    rw [ht] at hy
    cases hy
    exact ⟨F, hF, hl, by simpa using hk.pressure⟩
  · obtain ⟨F, hF⟩ := (C72_succeeds_eps (ball := ball) smallFile_coordinates (by simp) (1, 0)).2
      ⟨rfl, by simp, rfl, fun n _ => hv n⟩
    have hk := hn.2 F hF
    obtain ⟨y, hy, hl⟩ := hk.others "t" (by simp)
    rw [ht] at hy
    cases hy
    exact ⟨F, hF, hl⟩

example : (∀ x ∈ ([500, 1000] : List ℝ), 0 < x) ∧ ([500, 1000] : List ℝ).Pairwise (· < ·) ∧
    (∀ v, smallFile.var "t" = some v → ∀ b i j, 0 < v 0 b i j) ∧
    ∀ v, smallFile.var "q" = some v → ∀ b i j, 0 ≤ v 0 b i j := by
  refine ⟨by norm_num, by norm_num, ?_, ?_⟩
  · intro v hv b i j
    simp [smallFile] at hv
    subst hv
    positivity
  · intro v hv b i j
    simp [smallFile] at hv
    subst hv
    simp

/-- C72: the units attached to the ERA5 table say per cent while the column is a fraction: for a file with 50 % everywhere
the column holds one half. -/
theorem C72_units_refuted : ("rh", "%") ∈ eraUnits ∧ ∃ nc : NcFile, (∀ v, nc.var "r" = some v → ∀ a b i j, v a b i j = 50) ∧
    ∀ ball, NearestSearch ball → ∃ F, readEra ball nc (0, 0) = .ok F ∧ F.lookup "rh" = some [some (1 / 2), some (1 / 2)] := by
  refine ⟨by simp [eraUnits], smallFile, ?_, fun ball hb => ?_⟩
  · intro v hv
    simp [smallFile] at hv
    subst hv
    simp
  · obtain ⟨F, hF⟩ := (C72_succeeds_era (ball := ball) smallFile_coordinates (by simp) (0, 0)).2
      ⟨rfl, by simp, rfl, fun n _ => by
        unfold smallFile; simp only; split
        · rfl
        · split <;> rfl⟩
    obtain ⟨k, hk⟩ := C72_profile_era hb smallFile_coordinates hF
    obtain ⟨y, hy, hl⟩ := hk.humidity
    refine ⟨F, hF, hl.trans ?_⟩
    unfold nodeColumn smallFile at hy
    simp [List.range_succ] at hy
    subst hy
    norm_num

/-- C72: the area asked of the archive is the square of half-width `offset` around the point, in the order north, west,
south, east. -/
theorem C72_area (lon lat offset x y : ℝ) :
    ((eraArea (lon, lat) offset).2.1 ≤ x ∧ x ≤ (eraArea (lon, lat) offset).2.2.2 ∧
      (eraArea (lon, lat) offset).2.2.1 ≤ y ∧ y ≤ (eraArea (lon, lat) offset).1) ↔ |x - lon| ≤ offset ∧ |y - lat| ≤ offset := by
  unfold eraArea
  simp only [abs_le]
  constructor
  · rintro ⟨h1, h2, h3, h4⟩; refine ⟨⟨?_, ?_⟩, ?_, ?_⟩ <;> linarith
  · rintro ⟨⟨h1, h2⟩, h3, h4⟩; refine ⟨?_, ?_, ?_, ?_⟩ <;> linarith

end Verif.Props
