import Verif.Model.ReanalysisRequest
import Verif.Props.Reanalysis
import Verif.Props.Endpoint

/-!
# C130: files downloaded from the reanalysis archive
-/

namespace Verif.Props

open Verif.Py Verif.Model

/-- What `datetime` guarantees. -/
structure Moment.Valid (t : Moment) : Prop where
  year : t.year < 10000
  month : t.month ≤ 12
  day : t.day ≤ 31
  hour : t.hour < 24
  minute : t.minute < 60
  second : t.second < 60
  micro : t.micro < 1000000

theorem twoDigits_mod (n : ℕ) : twoDigits n = twoDigits (n % 100) := by
  unfold twoDigits
  rw [show n % 100 / 10 % 10 = n / 10 % 10 by omega, show n % 100 % 10 = n % 10 by omega]

theorem twoDigits_inj_mod {a b : ℕ} (h : twoDigits a = twoDigits b) : a % 100 = b % 100 := by
  rw [twoDigits_mod a, twoDigits_mod b] at h
  exact twoDigits_inj (Nat.mod_lt _ (by norm_num)) (Nat.mod_lt _ (by norm_num)) h

theorem fourDigits_inj {a b : ℕ} (ha : a < 10000) (hb : b < 10000) (h : fourDigits a = fourDigits b) : a = b := by
  unfold fourDigits at h
  obtain ⟨h1, h2⟩ := List.append_inj h rfl
  have := twoDigits_inj_mod h1
  have := twoDigits_inj_mod h2
  omega

theorem sixDigits_inj {a b : ℕ} (ha : a < 1000000) (hb : b < 1000000) (h : sixDigits a = sixDigits b) : a = b := by
  unfold sixDigits at h
  obtain ⟨h1, h3⟩ := List.append_inj h rfl
  obtain ⟨h1, h2⟩ := List.append_inj h1 rfl
  have := twoDigits_inj_mod h1
  have := twoDigits_inj_mod h2
  have := twoDigits_inj_mod h3
  omega

/-- The text of a time determines it. -/
theorem isoformat_inj {s t : Moment} (hs : Moment.Valid s) (ht : Moment.Valid t) (h : isoformat s = isoformat t) : s = t := by
  unfold isoformat at h
  obtain ⟨h, h7⟩ := List.append_inj h rfl
  obtain ⟨h, h6⟩ := List.append_inj h rfl
  obtain ⟨h, h5⟩ := List.append_inj h rfl
  obtain ⟨h, h4⟩ := List.append_inj h rfl
  obtain ⟨h, h3⟩ := List.append_inj h rfl
  obtain ⟨h1, h2⟩ := List.append_inj h rfl
  have e1 := fourDigits_inj hs.year ht.year h1
  have e2 := twoDigits_inj_mod (List.cons.inj h2).2
  have e3 := twoDigits_inj_mod (List.cons.inj h3).2
  have e4 := twoDigits_inj_mod (List.cons.inj h4).2
  have e5 := twoDigits_inj_mod (List.cons.inj h5).2
  have e6 := twoDigits_inj_mod (List.cons.inj h6).2
  have e7 : s.micro = t.micro := by
    by_cases a : s.micro = 0 <;> by_cases b : t.micro = 0
    · omega
    · rw [if_pos a, if_neg b] at h7
      exact absurd h7 (List.cons_ne_nil _ _).symm
    · rw [if_neg a, if_pos b] at h7
      exact absurd h7 (List.cons_ne_nil _ _)
    · rw [if_neg a, if_neg b] at h7
      exact sixDigits_inj hs.micro ht.micro (List.cons.inj h7).2
  have := hs.month; have := hs.day; have := hs.hour; have := hs.minute; have := hs.second
  have := ht.month; have := ht.day; have := ht.hour; have := ht.minute; have := ht.second
  obtain ⟨y, mo, d, hh, mi, ss, us⟩ := s
  obtain ⟨y', mo', d', hh', mi', ss', us'⟩ := t
  simp only at *
  simp only [Moment.mk.injEq]
  omega

theorem eraFile_eq (path : List Char) (t : Moment) : eraFile path t =
    (if path = [] ∨ path.getLast? = some '/' then path else path ++ ['/']) ++
      ("era5_reanalysis-".toList ++ isoformat t ++ ".nc".toList) := by
  unfold eraFile posixJoin
  rw [if_neg]
  · split_ifs <;> simp
  · simp

/-- **C130.** In one folder there is one file for every time, and only one. -/
theorem C130_names {s t : Moment} (hs : Moment.Valid s) (ht : Moment.Valid t) (path : List Char) :
    eraFile path s = eraFile path t ↔ s = t := by
  refine ⟨fun h => ?_, fun h => h ▸ rfl⟩
  rw [eraFile_eq, eraFile_eq] at h
  exact isoformat_inj hs ht (List.append_cancel_left (List.append_cancel_right (List.append_cancel_left h)))

/-- A download: time and place. -/
abbrev Download := Moment × (ℝ × ℝ)

/-- What the archive answers for a place and time. -/
noncomputable def answer (archive : EraQuery → Except PyErr NcFile) (r o : ℝ) (d : Download) : Except PyErr NcFile :=
  archive (eraQuery d.1 d.2 r o)

/-- Downloads one after the other. -/
noncomputable def downloads (archive : EraQuery → Except PyErr NcFile) (path : List Char) (r o : ℝ) (fs : FileSystem)
    (ds : List Download) : FileSystem :=
  ds.foldl (fun fs d => (eraRequest archive fs path d.1 d.2 r o).1) fs

section history
variable {archive : EraQuery → Except PyErr NcFile} {path : List Char} {r o : ℝ} {fs : FileSystem}

/-- **C130.** One download: the file named in the result holds the answer of the archive; all others are as before. -/
theorem C130_download {t : Moment} {lonlat : ℝ × ℝ} {name : List Char} {fs' : FileSystem}
    (h : eraRequest archive fs path t lonlat r o = (fs', .ok name)) :
    (∃ nc, answer archive r o (t, lonlat) = .ok nc ∧ fs' name = some nc) ∧ ∀ n, n ≠ name → fs' n = fs n := by
  unfold eraRequest at h
  unfold answer
  cases ha : archive (eraQuery t lonlat r o) with
  | error x => rw [ha] at h; cases (Prod.mk.inj h).2
  | ok c =>
    rw [ha] at h
    simp only [Prod.mk.injEq, Except.ok.injEq] at h
    obtain ⟨rfl, rfl⟩ := h
    exact ⟨⟨c, rfl, if_pos rfl⟩, fun n hn => if_neg hn⟩

/-- **C130.** Any number of downloads into one folder: the file of a time holds the answer to the last successful download
for that time, wherever that was. -/
theorem C130_history (ds : List Download) (hv : ∀ d ∈ ds, Moment.Valid d.1) {t : Moment} (ht : Moment.Valid t) :
    downloads archive path r o fs ds (eraFile path t) =
      (((ds.filter fun d => d.1 = t).filterMap fun d => (answer archive r o d).toOption).getLast?.or
        (fs (eraFile path t))) := by
  induction ds using List.reverseRecOn with
  | nil => rfl
  | append_singleton ds d ih =>
    have ih := ih fun d hd => hv d (List.mem_append_left _ hd)
    have hd : Moment.Valid d.1 := hv d (by simp)
    unfold downloads at ih ⊢
    rw [List.foldl_append, List.foldl_cons, List.foldl_nil, List.filter_append, List.filterMap_append]
    have e : ∀ fs, eraRequest archive fs path d.1 d.2 r o = match answer archive r o d with
        | .error x => (fs, .error x)
        | .ok c => (FileSystem.write fs (eraFile path d.1) c, .ok (eraFile path d.1)) := fun _ => rfl
    rw [e]
    by_cases hdt : d.1 = t
    · rw [show [d].filter (fun d => decide (d.1 = t)) = [d] by simp [hdt]]
      cases ha : answer archive r o d with
      | error x => simpa [ha, Except.toOption] using ih
      | ok c => simp [ha, Except.toOption, FileSystem.write, hdt]
    · rw [show [d].filter (fun d => decide (d.1 = t)) = [] by simp [hdt], List.filterMap_nil, List.append_nil]
      cases ha : answer archive r o d with
      | error x => exact ih
      | ok c =>
        simp only [FileSystem.write]
        rw [if_neg fun h => hdt ((C130_names ht hd path).1 h).symm]
        exact ih

/-- **C130.** With different times every download keeps its file. -/
theorem C130_kept {ds : List Download} (hv : ∀ d ∈ ds, Moment.Valid d.1) (hdiff : (ds.map Prod.fst).Nodup)
    {d : Download} (hd : d ∈ ds) {nc : NcFile} (ha : answer archive r o d = .ok nc) :
    downloads archive path r o fs ds (eraFile path d.1) = some nc := by
  rw [C130_history ds hv (hv d hd)]
  have : ds.filter (fun d' => d'.1 = d.1) = [d] := by
    clear hv ha
    induction ds with
    | nil => cases hd
    | cons a ds ih =>
      rw [List.map_cons, List.nodup_cons] at hdiff
      rcases List.mem_cons.1 hd with rfl | hd
      · rw [List.filter_cons, if_pos (by simp), List.filter_eq_nil_iff.2]
        intro b hb
        simpa using fun h : b.1 = d.1 => hdiff.1 (h ▸ List.mem_map.2 ⟨b, hb, rfl⟩)
      · rw [List.filter_cons, if_neg, ih hdiff.2 hd]
        simpa using fun h : a.1 = d.1 => hdiff.1 (h ▸ List.mem_map.2 ⟨d, hd, rfl⟩)
  rw [this]
  simp [ha, Except.toOption]

/-- **C130.** Two places, one time: both results name the same file, and it holds the second place only. -/
theorem C130_overwritten {t : Moment} (ht : Moment.Valid t) {q q' : ℝ × ℝ} {nc nc' : NcFile}
    (_h : answer archive r o (t, q) = .ok nc) (h' : answer archive r o (t, q') = .ok nc') :
    downloads archive path r o fs [(t, q), (t, q')] (eraFile path t) = some nc' := by
  rw [C130_history _ (by simp [ht]) ht]
  simp only [List.filter_cons, decide_true, if_true, List.filter_nil]
  cases ha : answer archive r o (t, q) <;> simp [ha, h', Except.toOption]

/-- **C130.** Minutes and seconds are in the name but not in the query: two times of one hour give two files with the same
content. -/
theorem C130_hour {s t : Moment} (hs : Moment.Valid s) (ht : Moment.Valid t) (hne : s ≠ t)
    (hsame : s.year = t.year ∧ s.month = t.month ∧ s.day = t.day ∧ s.hour = t.hour) {q : ℝ × ℝ} {nc : NcFile}
    (h : answer archive r o (s, q) = .ok nc) :
    eraFile path s ≠ eraFile path t ∧ downloads archive path r o fs [(s, q), (t, q)] (eraFile path s) = some nc ∧
      downloads archive path r o fs [(s, q), (t, q)] (eraFile path t) = some nc := by
  have h' : answer archive r o (t, q) = .ok nc := by
    rw [← h]
    unfold answer eraQuery
    simp only [hsame]
  have hv : ∀ d ∈ [(s, q), (t, q)], Moment.Valid (Prod.fst d) := by simp [hs, ht]
  exact ⟨fun e => hne ((C130_names hs ht path).1 e), C130_kept (d := (s, q)) hv (by simp [hne]) (by simp) h,
    C130_kept (d := (t, q)) hv (by simp [hne]) (by simp) h'⟩

/-- **C130.** The other class downloads nothing: the file it names is the one of `ERA5Reanalysis` for that time, or none. -/
theorem C130_eumetsat {ds : List Download} (hv : ∀ d ∈ ds, Moment.Valid d.1) {t : Moment} (ht : Moment.Valid t)
    (hfresh : fs (eraFile path t) = none) (hno : ∀ d ∈ ds, d.1 ≠ t) {name : List Char} {fs' : FileSystem}
    (h : epsRequest (downloads archive path r o fs ds) path t = (fs', .ok name)) : fs' name = none := by
  unfold epsRequest at h
  simp only [Prod.mk.injEq, Except.ok.injEq] at h
  obtain ⟨rfl, rfl⟩ := h
  rw [C130_history ds hv ht, hfresh, List.filter_eq_nil_iff.2]
  · rfl
  · intro d hd
    simpa using hno d hd

end history

/-! ### Reading what was downloaded -/

/-- Short names of the variables in files of the archive. -/
def shortName : List (String × String) := [("relative_humidity", "r"), ("specific_cloud_ice_water_content", "ciwc"),
  ("specific_cloud_liquid_water_content", "clwc"), ("specific_humidity", "q"), ("specific_rain_water_content", "crwc"),
  ("specific_snow_water_content", "cswc"), ("ozone_mass_mixing_ratio", "o3"), ("temperature", "t")]

/-- Numbers from `a` in steps of `s`, as many as fit into a length `l`. -/
noncomputable def gridLine (a s l : ℝ) : List ℝ := (List.range (⌊l / s⌋₊ + 1)).map fun k => a + k * s

/-- The file is the answer to a query, with nodes counted from the north-west corner of the area. -/
structure Answers (nc : NcFile) (Q : EraQuery) (time : ℝ) : Prop where
  coords : Coordinates nc (gridLine Q.area.1 (-Q.grid.2) (-(Q.area.1 - Q.area.2.2.1)))
    (gridLine Q.area.2.1 Q.grid.1 (Q.area.2.2.2 - Q.area.2.1)) (List.map (Nat.cast : ℕ → ℝ) Q.levels) [time]
  vars : ∀ v ∈ Q.names, ∀ n, shortName.lookup v = some n → (nc.var n).isSome

/-- **C130.** Whatever is read is requested: if the archive answers with nodes counted from the corner of the requested area,
then for any place, resolution and offset the downloaded file can be read, and the table has the 37 pressures from 1000 down
to 1 hPa. -/
theorem C130_readable {archive : EraQuery → Except PyErr NcFile} {path : List Char} {r o : ℝ} {fs fs' : FileSystem}
    {t : Moment} {q : ℝ × ℝ} {name : List Char} {ball : List (ℝ × ℝ) → ℝ × ℝ → ℕ} (hb : NearestSearch ball)
    (harch : ∀ Q nc, archive Q = .ok nc → ∃ h, Answers nc Q h)
    (h : eraRequest archive fs path t q r o = (fs', .ok name)) :
    ∃ (F : Frame) (p : List ℝ), readEraFile ball fs' name q = .ok F ∧ F.lookup "p" = some (p.map some) ∧ p.length = 37 ∧
      p.head? = some 1000 ∧ p.getLast? = some 1 ∧ p.Pairwise (· > ·) := by
  obtain ⟨⟨nc, ha, hn⟩, -⟩ := C130_download h
  obtain ⟨tm, hA⟩ := harch _ _ ha
  have hlen : (gridLine (eraQuery t q r o).area.1 (-(eraQuery t q r o).grid.2)
      (-((eraQuery t q r o).area.1 - (eraQuery t q r o).area.2.2.1))).length =
      (gridLine (eraQuery t q r o).area.2.1 (eraQuery t q r o).grid.1
        ((eraQuery t q r o).area.2.2.2 - (eraQuery t q r o).area.2.1)).length := by
    unfold gridLine eraQuery eraArea
    simp only [List.length_map, neg_div_neg_eq]
    rw [show q.2 + o - (q.2 - o) = q.1 + o - (q.1 - o) by ring]
  have hlv : (eraQuery t q r o).levels = eraLevels := rfl
  obtain ⟨F, hF⟩ := (C72_succeeds_era (ball := ball) hA.coords (by rw [hlv]; simp [eraLevels]) q).2
    ⟨hlen, by unfold gridLine; rw [List.range_succ]; simp, rfl, fun n hn => by
      have key : ∀ n ∈ ["t", "r", "clwc", "ciwc", "crwc", "cswc", "o3", "q"], ∃ v ∈ eraVariables,
          shortName.lookup v = some n := by decide
      obtain ⟨v, hv, hvn⟩ := key n hn
      exact hA.vars v hv n hvn⟩
  obtain ⟨k, hk⟩ := C72_profile_era hb hA.coords hF
  refine ⟨F, _, ?_, hk.pressure, ?_, ?_, ?_, ?_⟩
  · unfold readEraFile
    rw [hn]
    exact hF
  · rw [hlv]; rfl
  · rw [hlv]; simp [eraLevels]
  · rw [hlv]; simp [eraLevels]
  · rw [hlv, ← List.map_reverse, List.pairwise_map]
    have : eraLevels.reverse.Pairwise (· > ·) := by decide
    exact this.imp fun h => by exact_mod_cast h

theorem quarter_lats (y : ℝ) : y ∈ [-(1 / 4 : ℝ), 0, 1 / 4] ↔ (∃ k : ℤ, y = k / 4) ∧ -0.4 ≤ y ∧ y ≤ 0.4 := by
  simp only [List.mem_cons, List.not_mem_nil, or_false]
  constructor
  · rintro (rfl | rfl | rfl)
    · exact ⟨⟨-1, by norm_num⟩, by norm_num, by norm_num⟩
    · exact ⟨⟨0, by norm_num⟩, by norm_num, by norm_num⟩
    · exact ⟨⟨1, by norm_num⟩, by norm_num, by norm_num⟩
  · rintro ⟨⟨k, rfl⟩, a, b⟩
    have a' : -2 < k := by
      have : (-2 : ℝ) < k := by norm_num at a; linarith
      exact_mod_cast this
    have b' : k < 2 := by
      have : (k : ℝ) < 2 := by norm_num at b; linarith
      exact_mod_cast this
    have : k = -1 ∨ k = 0 ∨ k = 1 := by omega
    rcases this with rfl | rfl | rfl <;> norm_num

theorem quarter_lons (x : ℝ) : x ∈ [-(1 / 4 : ℝ), 0, 1 / 4, 1 / 2] ↔ (∃ k : ℤ, x = k / 4) ∧ -0.3 ≤ x ∧ x ≤ 0.5 := by
  simp only [List.mem_cons, List.not_mem_nil, or_false]
  constructor
  · rintro (rfl | rfl | rfl | rfl)
    · exact ⟨⟨-1, by norm_num⟩, by norm_num, by norm_num⟩
    · exact ⟨⟨0, by norm_num⟩, by norm_num, by norm_num⟩
    · exact ⟨⟨1, by norm_num⟩, by norm_num, by norm_num⟩
    · exact ⟨⟨2, by norm_num⟩, by norm_num, by norm_num⟩
  · rintro ⟨⟨k, rfl⟩, a, b⟩
    have a' : -2 < k := by
      have : (-2 : ℝ) < k := by norm_num at a; linarith
      exact_mod_cast this
    have b' : k < 3 := by
      have : (k : ℝ) < 3 := by norm_num at b; linarith
      exact_mod_cast this
    have : k = -1 ∨ k = 0 ∨ k = 1 ∨ k = 2 := by omega
    rcases this with rfl | rfl | rfl | rfl <;> norm_num

/-- The file holds the nodes of a fixed grid of quarter degrees that lie in the requested area. -/
structure FixedGrid (Q : EraQuery) (lats lons : List ℝ) : Prop where
  nodupLat : lats.Nodup
  nodupLon : lons.Nodup
  lat : ∀ y, y ∈ lats ↔ (∃ k : ℤ, y = k / 4) ∧ Q.area.2.2.1 ≤ y ∧ y ≤ Q.area.1
  lon : ∀ x, x ∈ lons ↔ (∃ k : ℤ, x = k / 4) ∧ Q.area.2.1 ≤ x ∧ x ≤ Q.area.2.2.2

theorem area_default : eraArea (0.1, 0) 0.4 = (0.4, -0.3, -0.4, 0.5) := by
  unfold eraArea
  norm_num

/-- **C130.** If the archive answers with the nodes of a fixed grid instead, numbers of rows and columns can differ and the
file cannot be read: default area and resolution at longitude 0.1, latitude 0. -/
theorem C130_fixed_grid {archive : EraQuery → Except PyErr NcFile} {path : List Char} {fs fs' : FileSystem}
    {t : Moment} {name : List Char} {ball : List (ℝ × ℝ) → ℝ × ℝ → ℕ}
    (harch : ∀ Q nc, archive Q = .ok nc → ∃ lats lons lev time, Coordinates nc lats lons lev time ∧ FixedGrid Q lats lons)
    (h : eraRequest archive fs path t (0.1, 0) 0.25 0.4 = (fs', .ok name)) :
    readEraFile ball fs' name (0.1, 0) = .error .valueError := by
  obtain ⟨⟨nc, ha, hn⟩, -⟩ := C130_download h
  obtain ⟨lats, lons, lev, time, hc, hg⟩ := harch _ _ ha
  have hA : (eraQuery t (0.1, 0) 0.25 0.4).area = (0.4, -0.3, -0.4, 0.5) := area_default
  have h1 : lats.Perm [-(1 / 4), 0, 1 / 4] := by
    rw [List.perm_ext_iff_of_nodup hg.nodupLat (by norm_num)]
    intro y
    rw [hg.lat, quarter_lats, hA]
  have h2 : lons.Perm [-(1 / 4), 0, 1 / 4, 1 / 2] := by
    rw [List.perm_ext_iff_of_nodup hg.nodupLon (by norm_num)]
    intro y
    rw [hg.lon, quarter_lons, hA]
  unfold readEraFile
  rw [hn]
  show readEra ball nc (0.1, 0) = _
  unfold readEra
  have e1 : nc.getCoord "latitude" = .ok lats := by unfold NcFile.getCoord; rw [hc.lat]
  have e2 : nc.getCoord "longitude" = .ok lons := by unfold NcFile.getCoord; rw [hc.lon]
  have e3 : findNearest ball lons lats (0.1, 0) = .error .valueError := by
    unfold findNearest
    rw [if_pos]
    rw [h1.length_eq, h2.length_eq]
    decide
  rw [e1, e2]
  show (findNearest ball lons lats (0.1, 0) >>= _) = _
  rw [e3]
  rfl

/-! ### Examples -/

/-- A file with the given coordinates in which every variable has the same value everywhere. -/
noncomputable def constFile (lats lons lev : List ℝ) (x : ℝ) : NcFile where
  ntime := 1
  nlev := lev.length
  nlat := lats.length
  nlon := lons.length
  coord := fun n => if n = "latitude" then some lats else if n = "longitude" then some lons
    else if n = "level" then some lev else if n = "time" then some [0] else none
  var := fun _ => some fun _ _ _ _ => x

theorem constFile_coordinates (lats lons lev : List ℝ) (x : ℝ) : Coordinates (constFile lats lons lev x) lats lons lev [0] :=
  ⟨rfl, rfl, rfl, rfl, rfl, rfl, rfl, rfl⟩

/-- An archive with nodes counted from the corner; values are the northern boundary. -/
noncomputable def cornerArchive (Q : EraQuery) : Except PyErr NcFile :=
  .ok (constFile (gridLine Q.area.1 (-Q.grid.2) (-(Q.area.1 - Q.area.2.2.1)))
    (gridLine Q.area.2.1 Q.grid.1 (Q.area.2.2.2 - Q.area.2.1)) (List.map (Nat.cast : ℕ → ℝ) Q.levels) Q.area.1)

theorem cornerArchive_answers (Q : EraQuery) (nc : NcFile) (h : cornerArchive Q = .ok nc) : ∃ x, Answers nc Q x := by
  obtain rfl := Except.ok.inj h
  exact ⟨0, constFile_coordinates _ _ _ _, fun _ _ _ _ => rfl⟩

/-- 22 February 2020, 12 h. -/
def demoMoment : Moment := ⟨2020, 2, 22, 12, 0, 0, 0⟩

theorem demoMoment_valid : Moment.Valid demoMoment := by
  constructor <;> simp [demoMoment]

example : isoformat demoMoment = "2020-02-22T12:00:00".toList := by decide

example : isoformat ⟨2020, 2, 22, 12, 0, 0, 1500⟩ = "2020-02-22T12:00:00.001500".toList := by decide

/-- The file of the documentation can be read. -/
example {ball : List (ℝ × ℝ) → ℝ × ℝ → ℕ} (hb : NearestSearch ball) (fs : FileSystem) :
    ∃ (F : Frame) (p : List ℝ), readEraFile ball (eraRequest cornerArchive fs "/tmp".toList demoMoment (15.8158, 38.2663) 0.25 0.4).1
      "/tmp/era5_reanalysis-2020-02-22T12:00:00.nc".toList (15.8158, 38.2663) = .ok F ∧ F.lookup "p" = some (p.map some) ∧
      p.length = 37 ∧ p.head? = some 1000 ∧ p.getLast? = some 1 ∧ p.Pairwise (· > ·) := by
  refine C130_readable (name := "/tmp/era5_reanalysis-2020-02-22T12:00:00.nc".toList) hb cornerArchive_answers
    (fs := fs) (path := "/tmp".toList) (t := demoMoment) (r := 0.25) (o := 0.4) ?_
  rw [show "/tmp/era5_reanalysis-2020-02-22T12:00:00.nc".toList = eraFile "/tmp".toList demoMoment by decide]
  rfl

/-- Two places at one time: the first is lost. -/
example (fs : FileSystem) : ∃ nc nc', answer cornerArchive 0.25 0.4 (demoMoment, (0, 0)) = .ok nc ∧
    answer cornerArchive 0.25 0.4 (demoMoment, (0, 1)) = .ok nc' ∧
    downloads cornerArchive [] 0.25 0.4 fs [(demoMoment, (0, 0)), (demoMoment, (0, 1))] (eraFile [] demoMoment) = some nc' ∧
    nc ≠ nc' := by
  refine ⟨_, _, rfl, rfl, C130_overwritten demoMoment_valid rfl rfl, fun h => ?_⟩
  have := congrArg (fun nc : NcFile => (nc.var "t").map fun v => v 0 0 0 0) h
  simp [constFile, eraQuery, eraArea] at this

/-- The nodes of the fixed grid around longitude 0.1, latitude 0. -/
example : ∃ lats lons : List ℝ, FixedGrid (eraQuery demoMoment (0.1, 0) 0.25 0.4) lats lons ∧ lats.length = 3 ∧
    lons.length = 4 := by
  have hA : (eraQuery demoMoment (0.1, 0) 0.25 0.4).area = (0.4, -0.3, -0.4, 0.5) := area_default
  refine ⟨[-(1 / 4), 0, 1 / 4], [-(1 / 4), 0, 1 / 4, 1 / 2], ⟨by norm_num, by norm_num, fun y => ?_, fun x => ?_⟩, rfl, rfl⟩
  · rw [quarter_lats, hA]
  · rw [quarter_lons, hA]

end Verif.Props
