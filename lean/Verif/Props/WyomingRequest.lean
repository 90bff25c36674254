import Verif.Model.WyomingRequest
import Verif.Props.Wyoming
import Verif.Props.Endpoint

/-!
# C134: requests to the Wyoming archive
-/

namespace Verif.Props

open Verif.Py Verif.Model Verif.Lemmas

/-! ### Specification: an archive -/

/-- A sounding of the archive: its levels, what is said about it, and the title of the page. -/
structure WSounding where
  levels : List WLevel
  info : WInfo
  title : List Char

structure WSounding.Valid (x : WSounding) : Prop where
  levels : ∀ l ∈ x.levels, l.Valid
  gapless : ∀ l ∈ x.levels, l.Gapless
  complete : ∃ l ∈ x.levels, l.mixr.isSome
  info : x.info.Valid

/-- A page with one or more soundings: for each the listing and what is said about it. -/
structure ShowsFirst (p : Page) (x : WSounding) : Prop where
  texts : ∃ top pad more rest, Top top ∧ (∀ l ∈ more, '\n' ∉ l) ∧
    p.pre = some (listing top x.levels) :: some (x.info.text pad more) :: rest
  title : ∃ rest, p.h2 = some x.title :: rest

/-- The question in a request. -/
def askUrl (y m d h : ℕ) (site : List Char) : List Char := posixJoin wyomingBase (wyomingPath y m d h site)

/-- The server has a page that can be read and does not say "Can't". -/
def HasPage (server : List Char → Reply) (url : List Char) : Prop :=
  (server url).status = 200 ∧ ¬ ∃ p q, (server url).text = p ++ "Can't".toList ++ q

/-- The levels with temperature and dew point, column by column. -/
noncomputable def soundingColumns (x : WSounding) : List CsvColumn :=
  [fun l => l.pressure, fun l => l.height, fun l => l.temperature, fun l => l.dewpoint, fun l => l.rh, fun l => l.mixr].map
    fun (f : WLevel → Option Dec) => .numbers ((x.levels.filter fun l => l.temperature.isSome && l.dewpoint.isSome).map
      fun l => (f l).map Dec.value)

variable {server : List Char → Reply} {soup : List Char → Page} {y m d h : ℕ} {site : List Char}

theorem download_ok (ha : HasPage server (askUrl y m d h site)) :
    wyomingDownload server y m d h site = .ok (server (askUrl y m d h site)).text :=
  (C75_reply server y m d h site).2.2 ha.1 ha.2

theorem csvTable_of_table {table info : List Char} {t : WyomingTable} (ht : wyomingTable table info = .ok t) :
    ∃ c, csvTable table = .ok c := by
  unfold wyomingTable at ht
  cases hc : csvTable table with
  | error x => rw [hc] at ht; simp [bind, Except.bind] at ht
  | ok c => exact ⟨c, rfl⟩

/-- **C134.** The first sounding of the page is returned, with its own time and station. -/
theorem C134_sounding {x : WSounding} (hx : x.Valid) (ha : HasPage server (askUrl y m d h site))
    (hp : ShowsFirst (soup (server (askUrl y m d h site)).text) x) :
    ∃ t, wyomingRequest server soup y m d h site = .ok (t, x.title) ∧ t.columns = soundingColumns x ∧
      t.info.station = x.info.station.getD [] ∧ t.info.stationNumber = x.info.number ∧
      t.info.time = mkDT x.info.year x.info.month x.info.day x.info.hour (x.info.minute * 60000000) ∧
      t.info.latitude = x.info.latitude.value ∧ t.info.longitude = x.info.longitude.value ∧
      t.info.elevation = x.info.elevation.value := by
  obtain ⟨top, pad, more, rest, h1, h2, h3⟩ := hp.texts
  obtain ⟨rest', h4⟩ := hp.title
  obtain ⟨t, e1, e2⟩ := C74_gapless h1 hx.levels hx.gapless hx.info pad h2 hx.complete
  obtain ⟨i, i1, i2⟩ := C74_metadata hx.info pad h2
  have hi : t.info = i := by
    have e1 := e1
    unfold wyomingTable at e1
    rw [i1] at e1
    cases hc : csvTable (listing top x.levels) with
    | error e => rw [hc] at e1; simp [bind, Except.bind] at e1
    | ok c =>
      rw [hc] at e1
      simp only [bind, Except.bind] at e1
      split at e1
      · simp at e1
      · have := Except.ok.inj e1
        rw [← this]
  obtain ⟨c, hc⟩ := csvTable_of_table e1
  refine ⟨t, ?_, e2, by rw [hi]; exact i2⟩
  unfold wyomingRequest
  rw [download_ok ha]
  dsimp only
  rw [h3, h4]
  simp only [firstText, List.getElem?_cons_zero, List.getElem?_cons_succ, hc, e1]

/-- **C134.** An archive that answers every request with the sounding of that hour and that station: the table is that of
the request. -/
theorem C134_faithful (ha : HasPage server (askUrl y m d h site)) {x : WSounding} (hx : x.Valid)
    (hp : ShowsFirst (soup (server (askUrl y m d h site)).text) x)
    (htime : x.info.year = y ∧ x.info.month = m ∧ x.info.day = d ∧ x.info.hour = h)
    (hst : x.info.station = some site) :
    ∃ t, wyomingRequest server soup y m d h site = .ok (t, x.title) ∧ t.columns = soundingColumns x ∧ t.info.station = site ∧
      mkDT y m d h 0 ≤ t.info.time ∧ t.info.time < mkDT y m d (h + 1) 0 := by
  obtain ⟨t, h1, h2, h3, -, h5, -⟩ := C134_sounding hx ha hp
  obtain ⟨rfl, rfl, rfl, rfl⟩ := htime
  refine ⟨t, h1, h2, by rw [h3, hst]; rfl, ?_, ?_⟩
  · rw [h5]
    unfold mkDT
    simp [Prod.Lex.toLex_le_toLex]
  · rw [h5]
    unfold mkDT
    simp [Prod.Lex.toLex_lt_toLex]

/-- **C134.** Nothing else matters: two servers that agree on the one address give the same result.  The address has the year,
month, day, hour and station of the request and no minutes; different requests have different addresses. -/
theorem C134_only {server' : List Char → Reply} (hs : server (askUrl y m d h site) = server' (askUrl y m d h site)) :
    wyomingRequest server soup y m d h site = wyomingRequest server' soup y m d h site := by
  have : wyomingDownload server y m d h site = wyomingDownload server' y m d h site := by
    unfold wyomingDownload
    have e (s : List Char → Reply) : endpointGetPath s wyomingBase (wyomingPath y m d h site) =
      endpointGet s (askUrl y m d h site) := rfl
    rw [e, e]
    unfold endpointGet
    rw [hs]
  unfold wyomingRequest
  rw [this]

/-- **C134.** The reply is not compared with the request: whatever hour and station was asked for, equal pages give equal
tables. -/
theorem C134_unchecked {y' m' d' h' : ℕ} {site' : List Char} (ha : HasPage server (askUrl y m d h site))
    (ha' : HasPage server (askUrl y' m' d' h' site'))
    (he : (server (askUrl y m d h site)).text = (server (askUrl y' m' d' h' site')).text) :
    wyomingRequest server soup y m d h site = wyomingRequest server soup y' m' d' h' site' := by
  unfold wyomingRequest
  rw [download_ok ha, download_ok ha', he]

/-- **C134.** Errors.  Any status but 200: `HTTPError`.  A page that says "Can't": `ValueError`.  A page without a listing or
without a heading: `IndexError`; so is a page with a readable listing and nothing about the sounding. -/
theorem C134_error :
    ((server (askUrl y m d h site)).status ≠ 200 → wyomingRequest server soup y m d h site = .error .other) ∧
    ((server (askUrl y m d h site)).status = 200 → (∃ p q, (server (askUrl y m d h site)).text = p ++ "Can't".toList ++ q) →
      wyomingRequest server soup y m d h site = .error .valueError) ∧
    (HasPage server (askUrl y m d h site) →
      let page := soup (server (askUrl y m d h site)).text
      ((page.pre = [] ∨ page.h2 = []) → wyomingRequest server soup y m d h site = .error .indexError) ∧
      ∀ top ls title, Top top → (∀ l ∈ ls, WLevel.Valid l) → page.pre = [some (listing top ls)] → page.h2 = [some title] →
        wyomingRequest server soup y m d h site =
          .error (if ∃ l ∈ ls, 6 ≤ l.known.length then .indexError else .valueError)) := by
  obtain ⟨r1, r2, -⟩ := C75_reply server y m d h site
  refine ⟨fun hs => ?_, fun hs hc => ?_, fun ha => ⟨fun hp => ?_, fun top ls title ht hl h1 h2 => ?_⟩⟩
  · obtain ⟨text, e⟩ := r1 hs
    unfold wyomingRequest
    rw [e]
  · unfold wyomingRequest
    rw [r2 hs hc]
  · unfold wyomingRequest
    rw [download_ok ha]
    dsimp only
    rcases hp with hp | hp
    · rw [hp]
      rfl
    · rw [hp]
      unfold firstText
      rcases (soup (server (askUrl y m d h site)).text).pre[0]? with _ | _ | s <;> rfl
  · unfold wyomingRequest
    rw [download_ok ha]
    dsimp only
    rw [h1, h2]
    simp only [firstText, List.getElem?_cons_zero, List.getElem?_cons_succ, List.getElem?_nil]
    rw [csvTable_listing ht hl]
    split_ifs <;> rfl

/-! ### Cases -/

def demoWSounding : WSounding := ⟨[demoGround, demoFull], demoInfo, "16245 Observations".toList⟩

theorem demoWSounding_valid : demoWSounding.Valid := by
  refine ⟨?_, ?_, ⟨demoFull, by simp [demoWSounding], rfl⟩, demoInfo_valid⟩
  · rintro l hl
    simp [demoWSounding] at hl
    rcases hl with rfl | rfl
    exacts [demoGround_valid, demoFull_valid]
  · rintro l hl i j hij h hj
    simp [demoWSounding] at hl
    rcases hl with rfl | rfl
    · have hi : i < 11 := by omega
      interval_cases i <;> interval_cases j <;> simp_all [demoGround, WLevel.entries]
    · have hi : i < 11 := by omega
      interval_cases i <;> simp [demoFull, WLevel.entries] at h

def demoPage : Page := ⟨[some (listing demoTop [demoGround, demoFull]), some (demoInfo.text (fun _ => 20) [])],
  [some "16245 Observations".toList]⟩

theorem demoPage_shows : ShowsFirst demoPage demoWSounding :=
  ⟨⟨demoTop, fun _ => 20, [], [], demoTop_top, by simp, rfl⟩, ⟨[], rfl⟩⟩

theorem demo_answers (url : List Char) : HasPage (fun _ => ⟨200, [], [], []⟩) url := by
  refine ⟨rfl, ?_⟩
  rintro ⟨p, q, e⟩
  have := congrArg List.length e
  simp at this

/-- The sounding of 22 June 2022, 12 UTC. -/
example : ∃ t, wyomingRequest (fun _ => ⟨200, [], [], []⟩) (fun _ => demoPage) 2022 6 22 12 "16245".toList =
    .ok (t, "16245 Observations".toList) ∧ t.info.time = mkDT 2022 6 22 12 0 := by
  obtain ⟨t, h1, -, -, -, h5, -⟩ := C134_sounding (server := fun _ => ⟨200, [], [], []⟩) (soup := fun _ => demoPage) (y := 2022)
    (m := 6) (d := 22) (h := 12) (site := "16245".toList) demoWSounding_valid (demo_answers _) demoPage_shows
  exact ⟨t, h1, h5⟩

/-- The same sounding of a station with an identifier: the table is that of the request. -/
example : ∃ t, wyomingRequest (fun _ => ⟨200, [], [], []⟩)
    (fun _ => ⟨[some (listing demoTop [demoGround, demoFull]),
      some ({ demoInfo with station := some "LIRE".toList }.text (fun _ => 20) [])], [some []]⟩) 2022 6 22 12 "LIRE".toList =
      .ok (t, []) ∧ t.info.station = "LIRE".toList := by
  obtain ⟨t, h1, -, h3, -⟩ := C134_faithful (server := fun _ => ⟨200, [], [], []⟩)
    (soup := fun _ => ⟨[some (listing demoTop [demoGround, demoFull]),
      some ({ demoInfo with station := some "LIRE".toList }.text (fun _ => 20) [])], [some []]⟩) (y := 2022)
    (m := 6) (d := 22) (h := 12) (site := "LIRE".toList)
    (x := ⟨[demoGround, demoFull], { demoInfo with station := some "LIRE".toList }, []⟩) (demo_answers _)
    ⟨demoWSounding_valid.levels, demoWSounding_valid.gapless, demoWSounding_valid.complete,
      ⟨fun s hs => by
        obtain rfl := Option.some.inj hs
        exact ⟨by unfold Word; decide, by decide⟩, demoInfo_valid.year, demoInfo_valid.day, demoInfo_valid.hour,
        demoInfo_valid.minute, demoInfo_valid.latitude, demoInfo_valid.longitude, demoInfo_valid.elevation⟩⟩
    ⟨⟨demoTop, fun _ => 20, [], [], demoTop_top, by simp, rfl⟩, ⟨[], rfl⟩⟩ ⟨rfl, rfl, rfl, rfl⟩ rfl
  exact ⟨t, h1, h3⟩

/-- **C134.** A request for another day is answered with that sounding as well, if the server sends it: the time of the table
is not the time asked for, and there is no error. -/
theorem C134_refuted : ∃ (server : List Char → Reply) (soup : List Char → Page) (t : WyomingTable) (title : List Char),
    wyomingRequest server soup 2021 1 1 0 "LIRE".toList = .ok (t, title) ∧ t.info.time = mkDT 2022 6 22 12 0 ∧
      t.info.stationNumber = 16245 := by
  obtain ⟨t, h1, -, -, h4, h5, -⟩ := C134_sounding (server := fun _ => ⟨200, [], [], []⟩) (soup := fun _ => demoPage) (y := 2021)
    (m := 1) (d := 1) (h := 0) (site := "LIRE".toList) demoWSounding_valid (demo_answers _) demoPage_shows
  exact ⟨_, _, t, _, h1, h5, h4⟩

end Verif.Props
