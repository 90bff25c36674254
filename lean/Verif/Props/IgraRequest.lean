import Verif.Model.IgraRequest
import Verif.Props.IgraTable
import Verif.Props.Endpoint

/-!
# C129: requests to the radiosonde archive by period

`IGRAUpperAir.request_data` from the arguments to the two tables, for any server whose files hold well-formed soundings in
chronological order.
-/

namespace Verif.Props

open Verif.Py Verif.Model

/-- The server has, for the station, a zip file whose content is the given soundings in chronological order. -/
structure HasArchive (server : List Char → Reply) (unzip : Reply → Except PyErr (List (List Char))) (site : String)
    (current : Bool) (rs : List Record) : Prop where
  found : (server (igraBase ++ (rawPath site current).toList)).status = 200
  content : unzip (server (igraBase ++ (rawPath site current).toList)) = .ok (fileLines (rs.map Record.sounding))
  valid : ∀ r ∈ rs, r.Valid
  sorted : (rs.map Record.date).Pairwise (· ≤ ·)

/-- One table of levels after the other. -/
def joinBody (t u : BodyTable) : BodyTable where
  lvltyp1 := t.lvltyp1 ++ u.lvltyp1
  lvltyp2 := t.lvltyp2 ++ u.lvltyp2
  etime := t.etime ++ u.etime
  pressure := t.pressure ++ u.pressure
  pflag := t.pflag ++ u.pflag
  height := t.height ++ u.height
  zflag := t.zflag ++ u.zflag
  temperature := t.temperature ++ u.temperature
  tflag := t.tflag ++ u.tflag
  relativeHumidity := t.relativeHumidity ++ u.relativeHumidity
  direction := t.direction ++ u.direction
  speed := t.speed ++ u.speed
  date := t.date ++ u.date
  uWind := t.uWind ++ u.uWind
  vWind := t.vWind ++ u.vWind
  dewpoint := t.dewpoint ++ u.dewpoint

/-- One table of soundings after the other. -/
def joinHeader (t u : HeaderTable) : HeaderTable where
  siteId := t.siteId ++ u.siteId
  releaseTime := t.releaseTime ++ u.releaseTime
  numberLevels := t.numberLevels ++ u.numberLevels
  latitude := t.latitude ++ u.latitude
  longitude := t.longitude ++ u.longitude
  date := t.date ++ u.date

section requests
variable {server : List Char → Reply} {unzip : Reply → Except PyErr (List (List Char))} {site : String} {cur : Bool}
  {rs : List Record}

theorem igraRequest_eq (h : HasArchive server unzip site cur rs) (b e : DT) :
    igraRequest server unzip (.inr [b, e]) site cur false =
      if inRange b e rs = [] then .error .valueError
      else .ok (bodyOf (rowsOf (inRange b e rs)), headerOf (inRange b e rs)) := by
  rw [← igraTables_records b e h.valid h.sorted]
  unfold igraRequest requestDates
  simp only
  rw [C75_igra_url, if_pos h.found]
  simp only
  rw [h.content]

/-- **C129.** A single time is the range from that time to itself, for any server and any content. -/
theorem C129_single (t : DT) (derived : Bool) : igraRequest server unzip (.inl t) site cur derived =
    igraRequest server unzip (.inr [t, t]) site cur derived := rfl

/-- **C129.** What is returned is the soundings of the period, both ends included: their times and numbers of levels, and
for every row of the other table its time. -/
theorem C129_period (h : HasArchive server unzip site cur rs) {b e : DT} {t : BodyTable} {u : HeaderTable}
    (ho : igraRequest server unzip (.inr [b, e]) site cur false = .ok (t, u)) :
    u.date = (rs.filter fun r => b ≤ r.date ∧ r.date ≤ e).map Record.date ∧ u.date ≠ [] ∧
      u.siteId = (rs.filter fun r => b ≤ r.date ∧ r.date ≤ e).map Record.site ∧
      (∀ d ∈ t.date, d ∈ u.date) ∧
      (∀ r ∈ rs, (∃ l ∈ r.levels, l.hasData) → b ≤ r.date → r.date ≤ e → r.date ∈ t.date) := by
  rw [igraRequest_eq h] at ho
  split_ifs at ho with hne
  obtain ⟨rfl, rfl⟩ := Prod.mk.inj (Except.ok.inj ho)
  refine ⟨rfl, ?_, rfl, fun d hd => ?_, fun r hr hl h1 h2 => ?_⟩
  · simpa [headerOf] using hne
  · simp only [bodyOf, rowsOf, List.map_flatMap, List.map_map, Function.comp_def, List.mem_flatMap, List.mem_map] at hd
    obtain ⟨r, hr, l, -, rfl⟩ := hd
    exact List.mem_map.2 ⟨r, hr, rfl⟩
  · obtain ⟨l, hl, hd⟩ := hl
    simp only [bodyOf, rowsOf, List.map_flatMap, List.map_map, Function.comp_def, List.mem_flatMap, List.mem_map]
    exact ⟨r, List.mem_filter.2 ⟨hr, by simp [h1, h2]⟩, l, List.mem_filter.2 ⟨hl, hd⟩, rfl⟩

/-- **C129.** `ValueError` without a file for the station, without a sounding in the period, or when the period ends before
it begins. -/
theorem C129_error (b e : DT) :
    ((server (igraBase ++ (rawPath site cur).toList)).status ≠ 200 →
      igraRequest server unzip (.inr [b, e]) site cur false = .error .valueError) ∧
    (HasArchive server unzip site cur rs → (igraRequest server unzip (.inr [b, e]) site cur false = .error .valueError ↔
      ∀ r ∈ rs, ¬(b ≤ r.date ∧ r.date ≤ e))) ∧
    (HasArchive server unzip site cur rs → e < b →
      igraRequest server unzip (.inr [b, e]) site cur false = .error .valueError) := by
  have key : HasArchive server unzip site cur rs →
      (igraRequest server unzip (.inr [b, e]) site cur false = .error .valueError ↔
      ∀ r ∈ rs, ¬(b ≤ r.date ∧ r.date ≤ e)) := fun h => by
    rw [igraRequest_eq h]
    have : inRange b e rs = [] ↔ ∀ r ∈ rs, ¬(b ≤ r.date ∧ r.date ≤ e) := by
      unfold inRange
      rw [List.filter_eq_nil_iff]
      simp
    split_ifs with hne
    · simpa using this.1 hne
    · simpa using (not_congr this).1 hne
  refine ⟨fun h => ?_, key, fun h hbe => (key h).2 fun r _ hr => ?_⟩
  · unfold igraRequest requestDates
    simp only
    rw [C75_igra_url, if_neg h]
  · exact absurd (hr.1.trans hr.2) (not_le.2 hbe)

theorem inRange_split {b m m' e : DT} (hs : (rs.map Record.date).Pairwise (· ≤ ·)) (hbm : b ≤ m) (hm : m < m') (he : m' ≤ e)
    (hgap : ∀ r ∈ rs, ¬(m < r.date ∧ r.date < m')) :
    inRange b e rs = inRange b m rs ++ inRange m' e rs := by
  induction rs with
  | nil => rfl
  | cons r rs ih =>
    rw [List.map_cons, List.pairwise_cons] at hs
    have ih := ih hs.2 fun r hr => hgap r (List.mem_cons_of_mem _ hr)
    have hg := hgap r List.mem_cons_self
    unfold inRange at ih ⊢
    rcases le_or_gt r.date m with h | h
    · have a3 : ¬(m' ≤ r.date ∧ r.date ≤ e) := fun q => absurd (h.trans_lt hm) (not_lt.2 q.1)
      have a2 : r.date ≤ e := h.trans (hm.le.trans he)
      rw [List.filter_cons, List.filter_cons, List.filter_cons]
      simp only [decide_eq_true_eq]
      rw [if_neg a3, ih]
      by_cases hb : b ≤ r.date
      · rw [if_pos ⟨hb, a2⟩, if_pos ⟨hb, h⟩]; rfl
      · rw [if_neg (fun q => hb q.1), if_neg (fun q => hb q.1)]
    · have h' : m' ≤ r.date := by
        by_contra hc
        exact hg ⟨h, not_le.1 hc⟩
      have e0 : ∀ q ∈ r :: rs, ¬(b ≤ q.date ∧ q.date ≤ m) := by
        intro q hq ⟨_, q2⟩
        rcases List.mem_cons.1 hq with rfl | hq
        · exact absurd h (not_lt.2 q2)
        · exact absurd (h.trans_le (hs.1 _ (List.mem_map.2 ⟨q, hq, rfl⟩))) (not_lt.2 q2)
      have e1 : (r :: rs).filter (fun r => b ≤ r.date ∧ r.date ≤ m) = [] := by
        rw [List.filter_eq_nil_iff]
        intro q hq
        simpa using fun q1 => not_le.1 fun q2 => e0 q hq ⟨q1, q2⟩
      rw [e1, List.nil_append]
      refine List.filter_congr fun q hq => ?_
      have hqm : m' ≤ q.date := by
        rcases List.mem_cons.1 hq with rfl | hq
        · exact h'
        · exact h'.trans (hs.1 _ (List.mem_map.2 ⟨q, hq, rfl⟩))
      simp [hqm, hbm.trans (hm.le.trans hqm)]

/-- **C129.** Two adjoining periods with no sounding in between: their tables, one after the other, are those of the whole
period. -/
theorem C129_split (h : HasArchive server unzip site cur rs) {b m m' e : DT} (hbm : b ≤ m) (hm : m < m') (he : m' ≤ e)
    (hgap : ∀ r ∈ rs, ¬(m < r.date ∧ r.date < m')) {t t' : BodyTable} {u u' : HeaderTable}
    (h1 : igraRequest server unzip (.inr [b, m]) site cur false = .ok (t, u))
    (h2 : igraRequest server unzip (.inr [m', e]) site cur false = .ok (t', u')) :
    igraRequest server unzip (.inr [b, e]) site cur false = .ok (joinBody t t', joinHeader u u') := by
  rw [igraRequest_eq h] at h1 h2 ⊢
  rw [inRange_split h.sorted hbm hm he hgap]
  split_ifs at h1 with n1
  split_ifs at h2 with n2
  rw [if_neg (by simp [n1])]
  obtain ⟨rfl, rfl⟩ := Prod.mk.inj (Except.ok.inj h1)
  obtain ⟨rfl, rfl⟩ := Prod.mk.inj (Except.ok.inj h2)
  simp only [bodyOf, headerOf, rowsOf, joinBody, joinHeader, List.flatMap_append, List.map_append]

/-- **C129.** Periods with a common end: a sounding at that time is in both tables, so that chained requests list it twice. -/
theorem C129_shared (h : HasArchive server unzip site cur rs) {b m e : DT} (hbm : b ≤ m) (he : m ≤ e)
    {t t' : BodyTable} {u u' : HeaderTable} (h1 : igraRequest server unzip (.inr [b, m]) site cur false = .ok (t, u))
    (h2 : igraRequest server unzip (.inr [m, e]) site cur false = .ok (t', u')) (d : DT) :
    (joinHeader u u').date.count d = if d = m then 2 * (rs.map Record.date).count m
      else if b ≤ d ∧ d ≤ e then (rs.map Record.date).count d else 0 := by
  rw [igraRequest_eq h] at h1 h2
  split_ifs at h1 with n1
  split_ifs at h2 with n2
  obtain ⟨rfl, rfl⟩ := Prod.mk.inj (Except.ok.inj h1)
  obtain ⟨rfl, rfl⟩ := Prod.mk.inj (Except.ok.inj h2)
  have key : ∀ x y : DT, ((inRange x y rs).map Record.date).count d =
      if x ≤ d ∧ d ≤ y then (rs.map Record.date).count d else 0 := fun x y => by
    unfold inRange
    rw [show (fun r : Record => decide (x ≤ r.date ∧ r.date ≤ y)) = (fun q => decide (x ≤ q ∧ q ≤ y)) ∘ Record.date from rfl,
      ← List.filter_map]
    split_ifs with hc
    · exact List.count_filter (by simpa using hc)
    · rw [List.count_eq_zero]
      intro hm
      exact hc (by simpa using (List.mem_filter.1 hm).2)
  show ((headerOf (inRange b m rs)).date ++ (headerOf (inRange m e rs)).date).count d = _
  simp only [headerOf]
  rw [List.count_append, key, key]
  rcases lt_trichotomy d m with hd | rfl | hd
  · rw [if_neg (show ¬(m ≤ d ∧ d ≤ e) from fun q => absurd hd (not_lt.2 q.1)), if_neg hd.ne, add_zero]
    by_cases hb : b ≤ d
    · rw [if_pos ⟨hb, hd.le⟩, if_pos ⟨hb, hd.le.trans he⟩]
    · rw [if_neg (fun q => hb q.1), if_neg (fun q => hb q.1)]
  · rw [if_pos ⟨hbm, le_rfl⟩, if_pos ⟨le_rfl, he⟩, if_pos rfl, two_mul]
  · rw [if_neg (show ¬(b ≤ d ∧ d ≤ m) from fun q => absurd hd (not_lt.2 q.2)), if_neg hd.ne', zero_add]
    by_cases hb : d ≤ e
    · rw [if_pos ⟨hd.le, hb⟩, if_pos ⟨hbm.trans hd.le, hb⟩]
    · rw [if_neg (fun q => hb q.2), if_neg (fun q => hb q.2)]

/-- **C129.** Two files (full period of record, recent years) that agree on the soundings of the period give the same
tables. -/
theorem C129_files {rs' : List Record} {cur' : Bool} (h : HasArchive server unzip site cur rs)
    (h' : HasArchive server unzip site cur' rs') {b e : DT}
    (hag : (rs.filter fun r => b ≤ r.date ∧ r.date ≤ e) = rs'.filter fun r => b ≤ r.date ∧ r.date ≤ e) :
    igraRequest server unzip (.inr [b, e]) site cur false = igraRequest server unzip (.inr [b, e]) site cur' false := by
  rw [igraRequest_eq h, igraRequest_eq h']
  unfold inRange
  rw [hag]

/-- **C129.** The argument `time` must be one time or two of them. -/
theorem C129_times {ts : List DT} (h : ts.length ≠ 2) (derived : Bool) :
    igraRequest server unzip (.inr ts) site cur derived = .error .valueError := by
  match ts, h with
  | [], _ => rfl
  | [_], _ => rfl
  | [_, _], h => exact absurd rfl h
  | _ :: _ :: _ :: _, _ => rfl

/-- **C129.** With `derived` every request fails: no file of the archive, of any station, has the name that is asked
for. -/
theorem C129_derived {time : DT ⊕ List DT} (hsite : site.length = 11)
    (hfiles : ∀ url, (server url).status = 200 → ∃ s : String, s.length = 11 ∧
      (url = igraBase ++ ("data-por/" ++ s ++ "-data.txt.zip").toList ∨
       url = igraBase ++ ("data-y2d/" ++ s ++ "-data-beg2021.txt.zip").toList ∨
       url = igraBase ++ ("derived-por/" ++ s ++ "-drvd.txt.zip").toList)) :
    igraRequest server unzip time site cur true = .error .valueError := by
  have hj : posixJoin igraBase (requestPath site cur true).toList = igraBase ++ (requestPath site cur true).toList := by
    unfold posixJoin
    rw [if_neg, if_pos (.inr igraBase_last)]
    cases cur <;> simp [requestPath, folderSuffix, String.toList_append]
  have h : (server (posixJoin igraBase (requestPath site cur true).toList)).status ≠ 200 := by
    intro h
    obtain ⟨s, hs, hu⟩ := hfiles _ h
    rw [hj] at hu
    have a1 : "-data.txt-drvd.txt".length = 18 := by decide
    have a2 : "-data-beg2021.txt-drvd.txt".length = 26 := by decide
    have a3 : ".zip".length = 4 := by decide
    have a4 : "derived-por/".length = 12 := by decide
    have a5 : "-drvd.txt.zip".length = 13 := by decide
    have a6 : "data-por/".length = 9 := by decide
    have a7 : "-data.txt.zip".length = 13 := by decide
    have a8 : "data-y2d/".length = 9 := by decide
    have a9 : "-data-beg2021.txt.zip".length = 21 := by decide
    have hl : (requestPath site cur true).length = 45 ∨ (requestPath site cur true).length = 53 := by
      cases cur <;> simp [requestPath, folderSuffix, String.length_append, hsite, a1, a2, a3, a4]
    rcases hu with hu | hu | hu <;>
    · have := congrArg List.length (List.append_cancel_left hu)
      rw [String.length_toList, String.length_toList, String.length_append, String.length_append, hs] at this
      omega
  unfold igraRequest
  cases hd : requestDates time with
  | error x =>
    match time with
    | .inl t => cases hd
    | .inr [] => cases hd; rfl
    | .inr [_] => cases hd; rfl
    | .inr [_, _] => cases hd
    | .inr (_ :: _ :: _ :: _) => cases hd; rfl
  | ok be =>
    simp only
    rw [igraDownload, endpointGetPath, httpAsValue_get, if_neg h]

end requests

/-- A server with one archive of two soundings. -/
def demoServer : List Char → Reply := fun _ => ⟨200, [], [], []⟩

def demoUnzip (rs : List Record) : Reply → Except PyErr (List (List Char)) :=
  fun _ => .ok (fileLines (rs.map Record.sounding))

theorem demo_archive : HasArchive demoServer (demoUnzip [demoRecord 11, demoRecord 12]) "USM00072201" false
    [demoRecord 11, demoRecord 12] where
  found := rfl
  content := rfl
  valid := by
    intro r hr
    simp at hr
    rcases hr with rfl | rfl <;> exact demoRecord_valid (by norm_num)
  sorted := by simp [demoRecord, Record.date, mkDT_le]

/-- The two days of the archive, together and one after the other. -/
example : ∃ t u t' u', igraRequest demoServer (demoUnzip [demoRecord 11, demoRecord 12]) (.inl (mkDT 2018 6 11 12 0))
      "USM00072201" false false = .ok (t, u) ∧
    igraRequest demoServer (demoUnzip [demoRecord 11, demoRecord 12]) (.inl (mkDT 2018 6 12 12 0))
      "USM00072201" false false = .ok (t', u') ∧
    igraRequest demoServer (demoUnzip [demoRecord 11, demoRecord 12]) (.inr [mkDT 2018 6 11 12 0, mkDT 2018 6 12 12 0])
      "USM00072201" false false = .ok (joinBody t t', joinHeader u u') ∧ u.date = [mkDT 2018 6 11 12 0] := by
  have e1 := igraRequest_eq demo_archive (mkDT 2018 6 11 12 0) (mkDT 2018 6 11 12 0)
  have e2 := igraRequest_eq demo_archive (mkDT 2018 6 12 12 0) (mkDT 2018 6 12 12 0)
  have r1 : inRange (mkDT 2018 6 11 12 0) (mkDT 2018 6 11 12 0) [demoRecord 11, demoRecord 12] = [demoRecord 11] := by
    simp [inRange, demoRecord, Record.date, mkDT_le]
  have r2 : inRange (mkDT 2018 6 12 12 0) (mkDT 2018 6 12 12 0) [demoRecord 11, demoRecord 12] = [demoRecord 12] := by
    simp [inRange, demoRecord, Record.date, mkDT_le]
  rw [r1, if_neg (by simp)] at e1
  rw [r2, if_neg (by simp)] at e2
  refine ⟨_, _, _, _, e1, e2, C129_split demo_archive le_rfl ?_ le_rfl ?_ e1 e2, ?_⟩
  · rw [lt_iff_le_not_ge, mkDT_le, mkDT_le]; omega
  · intro r hr
    simp at hr
    rcases hr with rfl | rfl
    · simp [demoRecord, Record.date]
    · simp [demoRecord, Record.date]
  · simp [headerOf, demoRecord, Record.date]

/-- A server with the three files of one station. -/
def stationServer (s : String) : List Char → Reply := fun url =>
  ⟨if url = igraBase ++ ("data-por/" ++ s ++ "-data.txt.zip").toList ∨
      url = igraBase ++ ("data-y2d/" ++ s ++ "-data-beg2021.txt.zip").toList ∨
      url = igraBase ++ ("derived-por/" ++ s ++ "-drvd.txt.zip").toList then 200 else 404, [], [], []⟩

example : igraRequest (stationServer "USM00072201") (demoUnzip [demoRecord 11]) (.inl (mkDT 2018 6 11 12 0)) "USM00072201"
    false true = .error .valueError := by
  refine C129_derived (by decide) fun url hu => ⟨"USM00072201", by decide, ?_⟩
  by_contra hc
  unfold stationServer at hu
  simp only [if_neg hc] at hu
  omega

end Verif.Props
