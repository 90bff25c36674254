import Verif.Model.Endpoint
import Verif.Props.Wyoming

/-!
# Requests to the sounding archives (C75)
-/

namespace Verif.Props

open Verif.Py Verif.Model Verif.Lemmas

/-! ### Specification: what a URL asks for -/

/-- The pieces of a text between the occurrences of a character. -/
def parts (c : Char) : List Char → List (List Char)
  | [] => [[]]
  | a :: s => match parts c s with
    | [] => [[a]]
    | w :: ws => if a = c then [] :: w :: ws else (a :: w) :: ws

/-- The resource of a URL and the pairs of its query. -/
def readUrl (url : List Char) : List Char × List (List (List Char)) :=
  match parts '?' url with
  | [r, q] => (r, (parts '&' q).map (parts '='))
  | _ => (url, [])

theorem parts_ne_nil (c : Char) (s : List Char) : parts c s ≠ [] := by
  cases s with
  | nil => simp [parts]
  | cons a s => rw [parts]; split <;> (try split_ifs) <;> simp

theorem parts_none {c : Char} {s : List Char} (h : c ∉ s) : parts c s = [s] := by
  induction s with
  | nil => rfl
  | cons a s ih =>
    simp only [List.mem_cons, not_or] at h
    rw [parts, ih h.2]
    simp [Ne.symm h.1]

theorem parts_append {c : Char} {a : List Char} (h : c ∉ a) (b : List Char) : parts c (a ++ c :: b) = a :: parts c b := by
  induction a with
  | nil =>
    rw [List.nil_append, parts]
    obtain ⟨w, ws, hw⟩ := List.exists_cons_of_ne_nil (parts_ne_nil c b)
    rw [hw]; simp
  | cons x a ih =>
    simp only [List.mem_cons, not_or] at h
    rw [List.cons_append, parts, ih h.2]
    simp [Ne.symm h.1]

theorem twoDigits_eq (n : ℕ) : twoDigits n = (two n).map dig := rfl

theorem not_mem_two {c : Char} (hc : digitVal c = none) (n : ℕ) : c ∉ twoDigits n := by
  rw [twoDigits_eq]
  intro hm
  obtain ⟨k, hk, rfl⟩ := List.mem_map.1 hm
  have hk : k < 10 := by simp [two] at hk; omega
  rw [(dig_spec hk).1] at hc
  exact absurd hc (by simp)

theorem not_mem_four {c : Char} (hc : digitVal c = none) (n : ℕ) : c ∉ fourDigits n := by
  simp [fourDigits, not_mem_two hc]

theorem wyomingPath_eq (y m d h : ℕ) (site : List Char) :
    wyomingPath y m d h site = '?' :: (("region".toList ++ '=' :: "naconf".toList) ++ '&' ::
      (("TYPE".toList ++ '=' :: "TEXT%3ALIST".toList) ++ '&' :: (("YEAR".toList ++ '=' :: fourDigits y) ++ '&' ::
      (("MONTH".toList ++ '=' :: twoDigits m) ++ '&' :: (("FROM".toList ++ '=' :: (twoDigits d ++ twoDigits h)) ++ '&' ::
      (("TO".toList ++ '=' :: (twoDigits d ++ twoDigits h)) ++ '&' :: ("STNM".toList ++ '=' :: site))))))) := by
  unfold wyomingPath
  rw [show "?region=naconf&TYPE=TEXT%3ALIST".toList = '?' :: ("region".toList ++ '=' :: "naconf".toList) ++ '&' ::
      ("TYPE".toList ++ '=' :: "TEXT%3ALIST".toList) by decide,
    show "&YEAR=".toList = '&' :: ("YEAR".toList ++ ['=']) by decide,
    show "&MONTH=".toList = '&' :: ("MONTH".toList ++ ['=']) by decide,
    show "&FROM=".toList = '&' :: ("FROM".toList ++ ['=']) by decide,
    show "&TO=".toList = '&' :: ("TO".toList ++ ['=']) by decide,
    show "&STNM=".toList = '&' :: ("STNM".toList ++ ['=']) by decide]
  simp only [List.append_assoc, List.cons_append, List.nil_append]

theorem wyoming_url (y m d h : ℕ) (site : List Char) :
    posixJoin wyomingBase (wyomingPath y m d h site) = wyomingBase ++ '/' :: wyomingPath y m d h site := by
  unfold posixJoin
  rw [if_neg (by rw [wyomingPath_eq]; simp), if_neg (by decide)]

/-- **C75**: the request to the Wyoming archive asks for the year, the month, from and to the given day and hour, and the
station, in this order and nothing else. -/
theorem C75_query {y m d h : ℕ} {site : List Char} (h1 : '&' ∉ site) (h2 : '=' ∉ site) (h3 : '?' ∉ site) :
    readUrl (posixJoin wyomingBase (wyomingPath y m d h site)) = ("http://weather.uwyo.edu/cgi-bin/sounding/".toList,
      [["region".toList, "naconf".toList], ["TYPE".toList, "TEXT%3ALIST".toList], ["YEAR".toList, fourDigits y],
        ["MONTH".toList, twoDigits m], ["FROM".toList, twoDigits d ++ twoDigits h], ["TO".toList, twoDigits d ++ twoDigits h],
        ["STNM".toList, site]]) := by
  have a1 := not_mem_two (c := '&') (by decide)
  have a2 := not_mem_two (c := '=') (by decide)
  have a3 := not_mem_two (c := '?') (by decide)
  have b1 := not_mem_four (c := '&') (by decide)
  have b2 := not_mem_four (c := '=') (by decide)
  have b3 := not_mem_four (c := '?') (by decide)
  rw [wyoming_url, wyomingPath_eq]
  unfold readUrl
  rw [List.append_cons wyomingBase '/', parts_append (by decide), parts_none (by simp [a3, b3, h3])]
  simp only
  rw [parts_append (by simp), parts_append (by simp), parts_append (by simp [b1]), parts_append (by simp [a1]),
    parts_append (by simp [a1]), parts_append (by simp [a1]), parts_none (by simp [h1])]
  simp only [List.map_cons, List.map_nil]
  rw [parts_append (by simp), parts_append (by simp), parts_append (by simp), parts_append (by simp),
    parts_append (by simp), parts_append (by simp), parts_append (by simp), parts_none (by simp), parts_none (by simp),
    parts_none (b2 y), parts_none (a2 m), parts_none (by simp [a2]), parts_none h2,
    show wyomingBase ++ ['/'] = "http://weather.uwyo.edu/cgi-bin/sounding/".toList by decide]

theorem twoDigits_inj {a b : ℕ} (ha : a < 100) (hb : b < 100) (h : twoDigits a = twoDigits b) : a = b := by
  have := congrArg natOf h
  rw [twoDigits_eq, twoDigits_eq, natOf_two ha, natOf_two hb] at this
  exact Option.some.inj this

/-- **C75**: different soundings have different URLs; minutes are not asked for. -/
theorem C75_distinct {y m d h y' m' d' h' : ℕ} {site site' : List Char} (hy : y < 10000) (hy' : y' < 10000) (hm : m < 100)
    (hm' : m' < 100) (hd : d < 100) (hd' : d' < 100) (hh : h < 100) (hh' : h' < 100) :
    posixJoin wyomingBase (wyomingPath y m d h site) = posixJoin wyomingBase (wyomingPath y' m' d' h' site') ↔
      y = y' ∧ m = m' ∧ d = d' ∧ h = h' ∧ site = site' := by
  constructor
  · intro he
    rw [wyoming_url, wyoming_url] at he
    have he := List.append_cancel_left he
    unfold wyomingPath at he
    simp only [List.append_assoc, List.cons.injEq, true_and] at he
    have he := List.append_cancel_left (List.append_cancel_left he)
    obtain ⟨e1, he⟩ := List.append_inj he rfl
    have he := List.append_cancel_left he
    obtain ⟨e2, he⟩ := List.append_inj he rfl
    have he := List.append_cancel_left he
    obtain ⟨e3, he⟩ := List.append_inj he rfl
    obtain ⟨e4, he⟩ := List.append_inj he rfl
    have he := List.append_cancel_left he
    obtain ⟨-, he⟩ := List.append_inj he rfl
    obtain ⟨-, he⟩ := List.append_inj he rfl
    have he := List.append_cancel_left he
    obtain ⟨f1, f2⟩ := List.append_inj e1 rfl
    have g1 := twoDigits_inj (by omega) (by omega) f1
    have f2 : twoDigits (y % 100) = twoDigits (y' % 100) := by
      simpa [twoDigits, Nat.mod_mod_of_dvd, show y % 100 / 10 % 10 = y / 10 % 10 by omega,
        show y' % 100 / 10 % 10 = y' / 10 % 10 by omega] using f2
    have g2 := twoDigits_inj (by omega) (by omega) f2
    exact ⟨by omega, twoDigits_inj hm hm' e2, twoDigits_inj hd hd' e3, twoDigits_inj hh hh' e4, he⟩
  · rintro ⟨rfl, rfl, rfl, rfl, rfl⟩; rfl

set_option maxRecDepth 10000 in
theorem igraBase_last : igraBase.getLast? = some '/' := by decide

/-- The path of the file with raw soundings. -/
def rawPath (site : String) (current : Bool) : String :=
  if current then "data-y2d/" ++ site ++ "-data-beg2021.txt" ++ ".zip" else "data-por/" ++ site ++ "-data.txt" ++ ".zip"

theorem requestPath_raw (site : String) (beg2021 : Bool) : requestPath site beg2021 false = rawPath site beg2021 := by
  cases beg2021
  · exact (C65_raw site).1
  · exact (C65_raw site).2

theorem rawPath_head (site : String) (current : Bool) : (rawPath site current).toList.head? = some 'd' := by
  cases current <;> simp [rawPath]

theorem httpAsValue_get (server : List Char → Reply) (url : List Char) : httpAsValue (endpointGet server url) =
    if (server url).status = 200 then .ok (server url) else .error .value := by
  unfold endpointGet
  simp only
  by_cases hs : (server url).status = 200
  · rw [if_pos hs, if_neg (not_not.2 hs)]; rfl
  · rw [if_neg hs, if_pos hs]; rfl

/-- **C75**: raw soundings of the other archive are asked for under its address; any status but 200 is a `ValueError`. -/
theorem C75_igra_url (server : List Char → Reply) (site : String) (beg2021 : Bool) :
    igraDownload server site beg2021 false =
      if (server (igraBase ++ (rawPath site beg2021).toList)).status = 200 then
        .ok (server (igraBase ++ (rawPath site beg2021).toList)) else .error .value := by
  have hj : posixJoin igraBase (rawPath site beg2021).toList = igraBase ++ (rawPath site beg2021).toList := by
    unfold posixJoin
    rw [if_neg (by rw [rawPath_head]; decide), if_pos (.inr igraBase_last)]
  rw [igraDownload, endpointGetPath, requestPath_raw, hj, httpAsValue_get]

/-- A text occurs in another one. -/
theorem isInfix_iff {a s : List Char} : isInfix a s = true ↔ ∃ p q, s = p ++ a ++ q := by
  induction s with
  | nil =>
    simp only [isInfix, List.isEmpty_iff]
    constructor
    · rintro rfl; exact ⟨[], [], rfl⟩
    · rintro ⟨p, q, h⟩; simp at h; exact h.2.1
  | cons c s ih =>
    rw [isInfix, Bool.or_eq_true, ih, List.isPrefixOf_iff_prefix]
    constructor
    · rintro (⟨t, h⟩ | ⟨p, q, h⟩)
      · exact ⟨[], t, by simpa using h.symm⟩
      · exact ⟨c :: p, q, by simp [h]⟩
    · rintro ⟨p, q, h⟩
      cases p with
      | nil => exact .inl ⟨q, by simpa using h.symm⟩
      | cons x p =>
        simp only [List.cons_append, List.cons.injEq] at h
        exact .inr ⟨p, q, h.2⟩

/-- **C75**: replies.  For the Wyoming archive any status but 200 is an `HTTPError` with the status, a reply with "Can't"
anywhere in it is a `ValueError`, everything else is passed on.  (The other archive turns both into `ValueError`,
`C75_igra_url`.) -/
theorem C75_reply (server : List Char → Reply) (y m d h : ℕ) (site : List Char) :
    let url := posixJoin wyomingBase (wyomingPath y m d h site)
    ((server url).status ≠ 200 → ∃ text, wyomingDownload server y m d h site = .error (.http url (server url).status text)) ∧
    ((server url).status = 200 → (∃ p q, (server url).text = p ++ "Can't".toList ++ q) →
      wyomingDownload server y m d h site = .error .value) ∧
    ((server url).status = 200 → (¬ ∃ p q, (server url).text = p ++ "Can't".toList ++ q) →
      wyomingDownload server y m d h site = .ok (server url).text) := by
  intro url
  have hu : endpointGetPath server wyomingBase (wyomingPath y m d h site) = endpointGet server url := rfl
  refine ⟨fun hs => ?_, fun hs hi => ?_, fun hs hi => ?_⟩
  · unfold wyomingDownload
    rw [hu, endpointGet]
    simp only [ne_eq, hs, not_false_eq_true, if_true]
    exact ⟨_, rfl⟩
  · unfold wyomingDownload
    rw [hu, endpointGet]
    simp only [ne_eq, hs, not_true_eq_false, if_false, isInfix_iff.2 hi, if_true]
  · unfold wyomingDownload
    rw [hu, endpointGet]
    rw [← isInfix_iff, Bool.not_eq_true] at hi
    simp only [ne_eq, hs, not_true_eq_false, if_false, hi, Bool.false_eq_true]

set_option maxRecDepth 100000 in
/-- A request to a server that answers in one way. -/
example : wyomingDownload (fun _ => ⟨404, [], [], []⟩) 2022 6 22 12 "LIRE".toList =
    .error (.http "http://weather.uwyo.edu/cgi-bin/sounding/?region=naconf&TYPE=TEXT%3ALIST&YEAR=2022&MONTH=06&FROM=2212&TO=2212&STNM=LIRE".toList
      404 []) := by
  obtain ⟨t, ht⟩ := (C75_reply (fun _ => ⟨404, [], [], []⟩) 2022 6 22 12 "LIRE".toList).1 (by norm_num)
  unfold wyomingDownload endpointGetPath endpointGet
  rw [wyoming_url, wyomingPath_eq]
  congr 2

/-! ### Stations -/

/-- An area of the map: the code of a station and its name, if it stands for a station. -/
structure Area where
  station : Option (List Char × List Char)

/-- Its title. -/
def Area.title (a : Area) : Option (List Char) := a.station.map fun s => s.1 ++ ' ' :: s.2

def Area.Valid (a : Area) : Prop := ∀ s, a.station = some s → s.1 ≠ [] ∧ ' ' ∉ s.1 ∧ strip s.2 = s.2

theorem splitBlank_append {a : List Char} (h : ' ' ∉ a) (b : List Char) : splitBlank (a ++ ' ' :: b) = a :: splitBlank b := by
  induction a with
  | nil => simp [splitBlank]
  | cons c a ih =>
    simp only [List.mem_cons, not_or] at h
    rw [List.cons_append, splitBlank, if_neg (Ne.symm h.1), ih h.2]

theorem splitBlank_ne_nil (s : List Char) : splitBlank s ≠ [] := by
  cases s with
  | nil => simp [splitBlank]
  | cons a s => rw [splitBlank]; split_ifs <;> (try split) <;> simp

theorem joinBlank_splitBlank (s : List Char) : joinBlank (splitBlank s) = s := by
  induction s with
  | nil => rfl
  | cons c s ih =>
    rw [splitBlank]
    obtain ⟨w, ws, hw⟩ := List.exists_cons_of_ne_nil (splitBlank_ne_nil s)
    rw [hw] at ih ⊢
    split_ifs with hc
    · subst hc
      rw [show joinBlank ([] :: w :: ws) = [] ++ ' ' :: joinBlank (w :: ws) from rfl, ih]
      rfl
    · cases ws with
      | nil => simp only [joinBlank] at ih ⊢; rw [ih]
      | cons x xs => simp only [joinBlank, List.cons_append] at ih ⊢; rw [ih]

theorem dictSet_keys (d : List (List Char × List Char)) (k v : List Char) :
    (dictSet d k v).map Prod.fst = if k ∈ d.map Prod.fst then d.map Prod.fst else d.map Prod.fst ++ [k] := by
  induction d with
  | nil => simp [dictSet]
  | cons x d ih =>
    obtain ⟨k', v'⟩ := x
    rw [dictSet]
    by_cases h : k' = k
    · simp [h]
    · rw [if_neg h, List.map_cons, ih]
      have : k ≠ k' := Ne.symm h
      by_cases h2 : k ∈ d.map Prod.fst <;> simp [h2, this]

theorem mem_dictSet {d : List (List Char × List Char)} (hd : (d.map Prod.fst).Nodup) (k v k' v' : List Char) :
    (k', v') ∈ dictSet d k v ↔ if k' = k then v' = v else (k', v') ∈ d := by
  induction d with
  | nil => simp only [dictSet, List.mem_singleton, Prod.mk.injEq, List.not_mem_nil]; split_ifs with h <;> simp [h]
  | cons x d ih =>
    obtain ⟨a, b⟩ := x
    simp only [List.map_cons, List.nodup_cons] at hd
    have ih := ih hd.2
    rw [dictSet]
    by_cases h : a = k
    · subst h
      rw [if_pos rfl]
      simp only [List.mem_cons, Prod.mk.injEq]
      split_ifs with h
      · subst h
        have : ¬ (k', v') ∈ d := fun hm => hd.1 (List.mem_map_of_mem (f := Prod.fst) hm)
        simp [this]
      · simp [h]
    · rw [if_neg h, List.mem_cons, ih]
      simp only [List.mem_cons, Prod.mk.injEq]
      split_ifs with h'
      · subst h'; simp [Ne.symm h]
      · rfl

/-- **C75**: the table of stations has one row for each code, in the order in which the codes come first, with the name that
comes last. -/
theorem C75_stations {as : List Area} (h : ∀ a ∈ as, a.Valid) :
    ((stationTable (as.map Area.title)).map Prod.fst).Nodup ∧
    ((stationTable (as.map Area.title)).map Prod.fst = ((as.filterMap Area.station).map Prod.fst).reverse.dedup.reverse) ∧
    ∀ k v, (k, v) ∈ stationTable (as.map Area.title) ↔
      ∃ p q, as.filterMap Area.station = p ++ (k, v) :: q ∧ ∀ e ∈ q, e.1 ≠ k := by
  induction as using List.reverseRecOn with
  | nil => simp [stationTable]
  | append_singleton as a ih =>
    obtain ⟨i1, i2, i3⟩ := ih fun b hb => h b (by simp [hb])
    have ha := h a (by simp)
    cases hs : a.station with
    | none =>
      have e : stationTable ((as ++ [a]).map Area.title) = stationTable (as.map Area.title) := by
        simp [stationTable, List.foldl_append, Area.title, hs]
      have e' : (as ++ [a]).filterMap Area.station = as.filterMap Area.station := by simp [hs]
      rw [e, e']
      exact ⟨i1, i2, i3⟩
    | some s =>
      obtain ⟨k, v⟩ := s
      obtain ⟨h1, h2, h3⟩ := ha _ hs
      have e : stationTable ((as ++ [a]).map Area.title) = dictSet (stationTable (as.map Area.title)) k v := by
        obtain ⟨c, cs, rfl⟩ := List.exists_cons_of_ne_nil h1
        have hsp := splitBlank_append h2 v
        have ht : a.title = some (c :: (cs ++ ' ' :: v)) := by simp [Area.title, hs]
        rw [List.cons_append] at hsp
        simp only [stationTable, List.map_append, List.map_cons, List.map_nil, List.foldl_append, List.foldl_cons,
          List.foldl_nil, ht, hsp, List.headD_cons, List.drop_succ_cons, List.drop_zero, joinBlank_splitBlank]
        rw [h3]
      have e' : (as ++ [a]).filterMap Area.station = as.filterMap Area.station ++ [(k, v)] := by simp [hs]
      rw [e, e']
      generalize stationTable (as.map Area.title) = d at i1 i2 i3
      generalize as.filterMap Area.station = es at i2 i3
      refine ⟨?_, ?_, ?_⟩
      · rw [dictSet_keys]
        split_ifs with hk
        · exact i1
        · rw [List.nodup_append]
          exact ⟨i1, by simp, by rintro x hx y hy rfl; simp at hy; subst hy; exact hk hx⟩
      · have hk : k ∈ d.map Prod.fst ↔ k ∈ es.map Prod.fst := by rw [i2]; simp
        rw [dictSet_keys, List.map_append, List.reverse_append]
        simp only [List.map_cons, List.map_nil, List.reverse_cons, List.reverse_nil, List.nil_append, List.cons_append]
        by_cases hm : k ∈ es.map Prod.fst
        · rw [if_pos (hk.2 hm), List.dedup_cons_of_mem (by simpa using hm), i2]
        · rw [if_neg (mt hk.1 hm), List.dedup_cons_of_notMem (by simpa using hm), List.reverse_cons, i2]
      · intro k' v'
        rw [mem_dictSet i1]
        split_ifs with hk
        · subst hk
          constructor
          · rintro rfl; exact ⟨es, [], rfl, by simp⟩
          · rintro ⟨p, q, h, hq⟩
            rcases List.eq_nil_or_concat q with rfl | ⟨q, x, rfl⟩
            · have := List.append_inj_right' h rfl
              simp at this; exact this.symm
            · have h : es ++ [(k', v)] = (p ++ (k', v') :: q) ++ [x] := by simpa using h
              have := List.append_inj_right' h rfl
              simp at this
              exact absurd rfl (this ▸ hq x (by simp))
        · rw [i3]
          constructor
          · rintro ⟨p, q, rfl, hq⟩
            refine ⟨p, q ++ [(k, v)], by simp, ?_⟩
            intro e he
            rcases List.mem_append.1 he with he | he
            · exact hq e he
            · simp at he; subst he; exact Ne.symm hk
          · rintro ⟨p, q, h, hq⟩
            rcases List.eq_nil_or_concat q with rfl | ⟨q, x, rfl⟩
            · have := List.append_inj_right' h rfl
              simp at this; exact absurd this.1.symm hk
            · have h : es ++ [(k, v)] = (p ++ (k', v') :: q) ++ [x] := by simpa using h
              exact ⟨p, q, List.append_inj_left' h rfl, fun e he => hq e (by simp [he])⟩

/-- Two stations, one of them twice, and an area without station. -/
example : stationTable ([⟨some (['A'], ['x', ' ', 'y'])⟩, ⟨none⟩, ⟨some (['B'], ['z'])⟩, ⟨some (['A'], ['w'])⟩].map Area.title) =
    [(['A'], ['w']), (['B'], ['z'])] ∧
    ∀ a ∈ [(⟨some (['A'], ['x', ' ', 'y'])⟩ : Area), ⟨none⟩, ⟨some (['B'], ['z'])⟩, ⟨some (['A'], ['w'])⟩], a.Valid := by
  refine ⟨rfl, ?_⟩
  intro a ha s hs
  simp only [List.mem_cons, List.not_mem_nil, or_false] at ha
  rcases ha with rfl | rfl | rfl | rfl <;> cases hs <;> exact ⟨by simp, by simp, rfl⟩

end Verif.Props
