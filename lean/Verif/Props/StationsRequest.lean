import Verif.Model.WyomingRequest
import Verif.Props.Endpoint

/-!
# C135: the list of stations of a region
-/

namespace Verif.Props

open Verif.Py Verif.Model Verif.Lemmas

variable {server : List Char → Reply} {areas : List Char → List (Option (List Char))} {region : List Char}

/-- The address of the map of a region. -/
def mapUrl (region : List Char) : List Char := "http://weather.uwyo.edu/upperair/".toList ++ region ++ ".html".toList

/-- The regions of the documentation, wyomingupperair.py:74-96. -/
def regionNames : List (List Char) :=
  ["naconf", "samer", "pac", "nz", "ant", "np", "europe", "africa", "seasia", "mideast"].map String.toList

theorem stations_path (h : region.head? ≠ some '/') :
    endpointGetPath server stationsBase (region ++ ".html".toList) = endpointGet server (mapUrl region) := by
  have h1 : (region ++ ".html".toList).head? ≠ some '/' := by
    cases region with
    | nil => decide
    | cons c cs => simpa using h
  have h2 : stationsBase.getLast? = some '/' := by decide
  unfold endpointGetPath posixJoin mapUrl
  rw [if_neg h1, if_pos (.inr h2), List.append_assoc]
  rfl

/-- **C135.** The page asked for is that of the region, for every name that does not begin with a slash; different regions have
different pages.  Nothing but the reply to that address matters. -/
theorem C135_page (h : region.head? ≠ some '/') :
    ((server (mapUrl region)).status = 200 →
      stationsRequest server areas region = .ok (stationTable (areas (server (mapUrl region)).text))) ∧
    ((server (mapUrl region)).status ≠ 200 →
      ∃ text, stationsRequest server areas region = .error (.http (mapUrl region) (server (mapUrl region)).status text)) ∧
    ∀ region', mapUrl region = mapUrl region' ↔ region = region' := by
  refine ⟨fun hs => ?_, fun hs => ?_, fun region' => ⟨fun he => ?_, fun he => by rw [he]⟩⟩
  · unfold stationsRequest
    rw [stations_path h, endpointGet]
    simp only [ne_eq, hs, not_true_eq_false, if_false]
  · unfold stationsRequest
    rw [stations_path h, endpointGet]
    simp only [ne_eq, hs, not_false_eq_true, if_true]
    exact ⟨_, rfl⟩
  · unfold mapUrl at he
    rw [List.append_assoc, List.append_assoc] at he
    exact List.append_cancel_right (List.append_cancel_left he)

/-- **C135.** A name that begins with a slash replaces the whole address. -/
theorem C135_slash (name : List Char) :
    stationsRequest server areas ('/' :: name) =
      (endpointGet server ('/' :: name ++ ".html".toList)).map fun resp => stationTable (areas resp.text) := by
  have : endpointGetPath server stationsBase ('/' :: name ++ ".html".toList) = endpointGet server ('/' :: name ++ ".html".toList) := by
    unfold endpointGetPath posixJoin
    rw [if_pos (by rfl)]
  unfold stationsRequest
  rw [this]
  cases endpointGet server ('/' :: name ++ ".html".toList) <;> rfl

/-- **C135.** For a page with the map of a region: one row for each station code, in the order of the first mention, with the
name of the last. -/
theorem C135_table (h : region.head? ≠ some '/') {as : List Area} (hv : ∀ a ∈ as, a.Valid)
    (hs : (server (mapUrl region)).status = 200) (ha : areas (server (mapUrl region)).text = as.map Area.title) :
    ∃ rows, stationsRequest server areas region = .ok rows ∧ (rows.map Prod.fst).Nodup ∧
      rows.map Prod.fst = ((as.filterMap Area.station).map Prod.fst).reverse.dedup.reverse ∧
      ∀ k v, (k, v) ∈ rows ↔ ∃ p q, as.filterMap Area.station = p ++ (k, v) :: q ∧ ∀ e ∈ q, e.1 ≠ k := by
  refine ⟨_, (C135_page h).1 hs, ?_⟩
  rw [ha]
  exact C75_stations hv

/-- **C135.** From the list to a sounding: a code of the list, put into a request, is the station that is asked for.  The region
of that request is `naconf` whatever region the list was for. -/
theorem C135_request (h : region.head? ≠ some '/') {as : List Area} (hv : ∀ a ∈ as, a.Valid)
    (hs : (server (mapUrl region)).status = 200) (ha : areas (server (mapUrl region)).text = as.map Area.title)
    (hc : ∀ a ∈ as, ∀ s, a.station = some s → '&' ∉ s.1 ∧ '=' ∉ s.1 ∧ '?' ∉ s.1) {rows : List (List Char × List Char)}
    (hr : stationsRequest server areas region = .ok rows) {k v : List Char} (hk : (k, v) ∈ rows) (y m d hh : ℕ) :
    ["STNM".toList, k] ∈ (readUrl (posixJoin wyomingBase (wyomingPath y m d hh k))).2 ∧
      ["region".toList, "naconf".toList] ∈ (readUrl (posixJoin wyomingBase (wyomingPath y m d hh k))).2 := by
  obtain ⟨rows', h1, -, -, h4⟩ := C135_table h hv hs ha
  obtain rfl := Except.ok.inj (hr.symm.trans h1)
  obtain ⟨p, q, e, -⟩ := (h4 k v).1 hk
  have hm : (k, v) ∈ as.filterMap Area.station := by rw [e]; simp
  obtain ⟨a, h5, h6⟩ := List.mem_filterMap.1 hm
  obtain ⟨c1, c2, c3⟩ := hc a h5 _ h6
  rw [C75_query c1 c2 c3]
  simp

/-- **C135.** The regions of the documentation have ten different pages, and all their names are of the first kind. -/
theorem C135_regions : (regionNames.map mapUrl).Nodup ∧ ∀ r ∈ regionNames, r.head? ≠ some '/' := by
  have h : ∀ r ∈ regionNames, r.head? ≠ some '/' := by decide
  refine ⟨List.Nodup.map_on (fun a ha b _ e => ?_) (by decide), h⟩
  exact ((C135_page (server := fun _ => ⟨200, [], [], []⟩) (areas := fun _ => []) (h a ha)).2.2 b).1 e

/-- Two stations on the map of Europe, one of them twice. -/
example : stationsRequest (fun u => if u = mapUrl "europe".toList then ⟨200, [], [], []⟩ else ⟨404, [], [], []⟩)
    (fun _ => [⟨some (['A'], ['x'])⟩, ⟨none⟩, ⟨some (['B'], ['z'])⟩, ⟨some (['A'], ['w'])⟩].map Area.title) "europe".toList =
      .ok [(['A'], ['w']), (['B'], ['z'])] := by
  rw [(C135_page (C135_regions.2 _ (by decide))).1 (by simp)]
  rfl

end Verif.Props
