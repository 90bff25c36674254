import Verif.Model.Wyoming
import Verif.Props.IgraTable

/-!
# Soundings of the Wyoming archive (C74)
-/

namespace Verif.Props

open Verif.Py Verif.Model Verif.Lemmas

/-! ### Specification: a listing and its text -/

/-- A decimal number as written. -/
structure Dec where
  neg : Bool
  int : ℕ
  /-- the decimals -/
  frac : List ℕ

def Dec.text (x : Dec) : List Char :=
  (if x.neg then ['-'] else []) ++ (natDigits x.int).map dig ++ (if x.frac = [] then [] else '.' :: x.frac.map dig)

noncomputable def Dec.value (x : Dec) : ℝ :=
  (if x.neg then -1 else 1) * (x.int + (ofDigits x.frac : ℝ) / 10 ^ x.frac.length)

def Dec.Valid (x : Dec) : Prop := ∀ k ∈ x.frac, k < 10

/-- A line of the listing: pressure, height, temperature, dew point, relative humidity, mixing ratio, wind direction, wind
speed and three potential temperatures, each of which can be missing. -/
structure WLevel where
  pressure : Option Dec
  height : Option Dec
  temperature : Option Dec
  dewpoint : Option Dec
  rh : Option Dec
  mixr : Option Dec
  direction : Option Dec
  speed : Option Dec
  theta : List (Option Dec)

def WLevel.entries (l : WLevel) : List (Option Dec) :=
  [l.pressure, l.height, l.temperature, l.dewpoint, l.rh, l.mixr, l.direction, l.speed] ++ l.theta

/-- A field of seven columns, blank when missing. -/
def field7 : Option Dec → List Char
  | none => List.replicate 7 ' '
  | some x => rjust 7 x.text

def WLevel.line (l : WLevel) : List Char := (l.entries.map field7).flatten ++ ['\n']

structure WLevel.Valid (l : WLevel) : Prop where
  theta : l.theta.length = 3
  /-- at least one blank before each number -/
  entries : ∀ x ∈ l.entries, ∀ d, x = some d → d.Valid ∧ d.text.length ≤ 6

/-- The values that are present, in the order of the columns. -/
noncomputable def WLevel.known (l : WLevel) : List ℝ := l.entries.filterMap fun x => x.map Dec.value

/-- Nothing follows a missing entry. -/
def WLevel.Gapless (l : WLevel) : Prop := ∀ (i j : ℕ), i ≤ j → l.entries[i]? = some none → j < 11 → l.entries[j]? = some none

/-! ### Reading a line -/

theorem Dec.text_word {x : Dec} (h : x.Valid) : Word x.text := by
  intro c hc
  unfold Dec.text at hc
  simp only [List.mem_append] at hc
  rcases hc with (hc | hc) | hc
  · split_ifs at hc
    · simp at hc; subst hc; decide
    · simp at hc
  · exact nospace (natDigits_lt _) c hc
  · split_ifs at hc
    · simp at hc
    · rcases List.mem_cons.1 hc with rfl | hc
      · decide
      · exact nospace h c hc

theorem Dec.text_ne_nil (x : Dec) : x.text ≠ [] := by
  have := natDigits_ne_nil x.int
  simp [Dec.text, this]

theorem takeWhile_point {a b : List Char} (ha : ∀ c ∈ a, c ≠ '.') :
    (a ++ '.' :: b).takeWhile (· ≠ '.') = a ∧ (a ++ '.' :: b).dropWhile (· ≠ '.') = '.' :: b := by
  induction a with
  | nil => simp
  | cons c a ih =>
    have hc := ha c (by simp)
    obtain ⟨h1, h2⟩ := ih fun c hc => ha c (by simp [hc])
    constructor
    · rw [List.cons_append, List.takeWhile_cons_of_pos (by simpa using hc), h1]
    · rw [List.cons_append, List.dropWhile_cons_of_pos (by simpa using hc), h2]

theorem unsignedFloat_dec {x : Dec} (h : x.Valid) :
    unsignedFloat ((natDigits x.int).map dig ++ (if x.frac = [] then [] else '.' :: x.frac.map dig)) =
      some (x.int + (ofDigits x.frac : ℝ) / 10 ^ x.frac.length) := by
  by_cases hf : x.frac = []
  · rw [if_pos hf, List.append_nil, unsignedFloat_digits (natDigits_lt _) (natDigits_ne_nil _), ofDigits_natDigits, hf]
    simp [ofDigits]
  · rw [if_neg hf]
    have hp : ∀ c ∈ (natDigits x.int).map dig, c ≠ '.' := by
      intro c hc
      obtain ⟨k, hk, rfl⟩ := List.mem_map.1 hc
      exact (dig_spec (natDigits_lt _ k hk)).2.2.2.2.2
    obtain ⟨h1, h2⟩ := takeWhile_point (b := x.frac.map dig) hp
    unfold unsignedFloat
    simp only [h1, h2]
    rw [if_neg (by simp [natDigits_ne_nil]), digits_map (natDigits_lt _), digits_map h]
    simp [ofDigits_natDigits]

theorem pyFloat_dec {x : Dec} (h : x.Valid) : pyFloat x.text = .ok x.value := by
  have hu := unsignedFloat_dec h
  unfold pyFloat
  rw [strip_nospace (Dec.text_word h)]
  unfold Dec.text Dec.value
  by_cases hn : x.neg = true
  · simp only [hn, if_true, List.cons_append, List.nil_append, hu]
    simp
  · simp only [hn, Bool.false_eq_true, if_false, List.nil_append, one_mul]
    obtain ⟨k, ks, hk⟩ := List.exists_cons_of_ne_nil (natDigits_ne_nil x.int)
    have hd := dig_spec (natDigits_lt x.int k (by rw [hk]; simp))
    split
    · rename_i t heq
      rw [hk] at heq
      simp only [List.map_cons, List.cons_append, List.cons.injEq] at heq
      exact absurd heq.1 hd.2.2.1
    · rename_i t heq
      rw [hk] at heq
      simp only [List.map_cons, List.cons_append, List.cons.injEq] at heq
      exact absurd heq.1 hd.2.2.2.1
    · rw [hu]

theorem splitWs_blanks (n : ℕ) (s : List Char) : splitWs (List.replicate n ' ' ++ s) = splitWs s := by
  induction n with
  | zero => rfl
  | succ n ih => rw [List.replicate_succ, List.cons_append, splitWs.eq_def]; simpa [isSpace] using ih

theorem splitWs_word' {w rest : List Char} {c : Char} (hw : Word w) (hne : w ≠ []) (hc : isSpace c = true) :
    splitWs (w ++ c :: rest) = w :: splitWs (c :: rest) := by
  have hr : splitWs (c :: rest) = splitWs rest := by rw [splitWs.eq_def]; simp [hc]
  rw [hr]
  induction w with
  | nil => exact absurd rfl hne
  | cons a w ih =>
    have ha := hw a (by simp)
    cases w with
    | nil => simp [splitWs, ha, hc]
    | cons b w =>
      have hb := hw b (by simp)
      have := ih (fun c hc => hw c (by simp [hc])) (by simp)
      rw [List.cons_append] at this
      rw [List.cons_append, List.cons_append, splitWs, if_neg (by simp [ha])]
      simp only [hb, Bool.false_eq_true, if_false, this]

theorem splitWs_fields {xs : List (Option Dec)} (h : ∀ x ∈ xs, ∀ d, x = some d → d.Valid ∧ d.text.length ≤ 6) :
    splitWs ((xs.map field7).flatten ++ ['\n']) = xs.filterMap fun x => x.map Dec.text := by
  induction xs with
  | nil => rfl
  | cons x xs ih =>
    have ih := ih fun y hy => h y (by simp [hy])
    rw [List.map_cons, List.flatten_cons, List.append_assoc]
    cases x with
    | none => rw [field7, splitWs_blanks, ih]; rfl
    | some d =>
      obtain ⟨hd, hl⟩ := h (some d) (by simp) d rfl
      -- what follows begins with a blank or the end of the line
      have hs : ∃ c t, (xs.map field7).flatten ++ ['\n'] = c :: t ∧ isSpace c = true := by
        cases xs with
        | nil => exact ⟨'\n', [], rfl, by decide⟩
        | cons y ys =>
          cases y with
          | none => exact ⟨' ', _, rfl, by decide⟩
          | some e =>
            obtain ⟨-, hl⟩ := h (some e) (by simp) e rfl
            obtain ⟨k, hk⟩ : ∃ k, 7 - e.text.length = k + 1 := ⟨6 - e.text.length, by omega⟩
            exact ⟨' ', _, by simp only [List.map_cons, List.flatten_cons, field7, rjust, hk, List.replicate_succ,
              List.cons_append]; rfl, by decide⟩
      obtain ⟨c, t, hct, hc⟩ := hs
      rw [hct] at ih ⊢
      rw [field7, rjust, List.append_assoc, splitWs_blanks, splitWs_word' (Dec.text_word hd) (Dec.text_ne_nil d) hc, ih]
      rfl

theorem WLevel.Valid.words {l : WLevel} (h : l.Valid) : splitWs l.line = l.entries.filterMap fun x => x.map Dec.text :=
  splitWs_fields h.entries

theorem Dec.text_chars {x : Dec} (h : x.Valid) : ∀ c ∈ x.text, c = '-' ∨ c = '.' ∨ (digitVal c).isSome = true := by
  intro c hc
  unfold Dec.text at hc
  simp only [List.mem_append] at hc
  rcases hc with (hc | hc) | hc
  · split_ifs at hc
    · simp at hc; exact .inl hc
    · simp at hc
  · obtain ⟨k, hk, rfl⟩ := List.mem_map.1 hc
    exact .inr (.inr (by rw [(dig_spec (natDigits_lt _ k hk)).1]; rfl))
  · split_ifs at hc
    · simp at hc
    · rcases List.mem_cons.1 hc with rfl | hc
      · exact .inr (.inl rfl)
      · obtain ⟨k, hk, rfl⟩ := List.mem_map.1 hc
        exact .inr (.inr (by rw [(dig_spec (h k hk)).1]; rfl))

theorem csvMissing_chars : ∀ w ∈ csvMissing, ∃ c ∈ w, ¬ (c = '-' ∨ c = '.' ∨ (digitVal c).isSome = true) := by decide

theorem Dec.not_missing {x : Dec} (h : x.Valid) : x.text ∉ csvMissing := by
  intro hm
  obtain ⟨c, hc, hn⟩ := csvMissing_chars _ hm
  exact hn (Dec.text_chars h c hc)

theorem WLevel.Valid.newline {l : WLevel} (h : l.Valid) : ∃ t, l.line = t ++ ['\n'] ∧ '\n' ∉ t := by
  refine ⟨_, rfl, ?_⟩
  intro hm
  obtain ⟨f, hf, hm⟩ := List.mem_flatten.1 hm
  obtain ⟨x, hx, rfl⟩ := List.mem_map.1 hf
  cases x with
  | none => simp [field7] at hm
  | some d => exact newline_rjust (Dec.text_word (h.entries _ hx d rfl).1) hm

/-- The text of a listing: five lines that are not read, and the levels. -/
def listing (top : List (List Char)) (ls : List WLevel) : List Char := (top ++ ls.map WLevel.line).flatten

/-- Five lines. -/
structure Top (top : List (List Char)) : Prop where
  five : top.length = 5
  lines : ∀ l ∈ top, ∃ t, l = t ++ ['\n'] ∧ '\n' ∉ t

theorem csvRows_listing {top : List (List Char)} (ht : Top top) {ls : List WLevel} (h : ∀ l ∈ ls, l.Valid) :
    csvRows (listing top ls) =
      (ls.filter fun l => l.known ≠ []).map fun l => l.entries.filterMap fun x => x.map Dec.text := by
  unfold csvRows listing
  rw [textLines_flatten, ← ht.five, List.drop_left, List.map_map]
  · have : ls.map (splitWs ∘ WLevel.line) = ls.map fun l => l.entries.filterMap fun x => x.map Dec.text :=
      List.map_congr_left fun l hl => (h l hl).words
    rw [this, List.filter_map]
    congr 1
    apply List.filter_congr
    intro l _
    have hl : (l.entries.filterMap fun x => x.map Dec.text).length = l.known.length := by
      unfold WLevel.known
      induction l.entries with
      | nil => rfl
      | cons x xs ih => cases x <;> simp [ih]
    simp only [Function.comp]
    cases h1 : l.entries.filterMap fun x => x.map Dec.text with
    | nil =>
      rw [h1] at hl
      simp [List.length_eq_zero_iff.1 hl.symm]
    | cons a b =>
      have : l.known ≠ [] := by
        intro h2; rw [h1, h2] at hl; simp at hl
      simp [this]
  · intro l hl
    rcases List.mem_append.1 hl with hl | hl
    · exact ht.lines l hl
    · obtain ⟨k, hk, rfl⟩ := List.mem_map.1 hl
      exact (h k hk).newline

/-- Fields of the words of a line are the known values. -/
theorem known_getElem (xs : List (Option Dec)) (h : ∀ x ∈ xs, ∀ d, x = some d → d.Valid) (i : ℕ) :
    (∀ w, (xs.filterMap fun x => x.map Dec.text)[i]? = some w → w ∉ csvMissing) ∧
    csvCell ((xs.filterMap fun x => x.map Dec.text)[i]?) = .ok ((xs.filterMap fun x => x.map Dec.value)[i]?) := by
  induction xs generalizing i with
  | nil => simp [csvCell]
  | cons x xs ih =>
    have ih := ih fun y hy => h y (by simp [hy])
    cases x with
    | none => simpa using ih i
    | some d =>
      have hd := h (some d) (by simp) d rfl
      cases i with
      | zero =>
        simp only [List.filterMap_cons, Option.map_some, List.getElem?_cons_zero]
        refine ⟨?_, ?_⟩
        · rintro w hw; cases hw; exact Dec.not_missing hd
        · rw [csvCell, pyFloat_dec hd]; rfl
      | succ i => simpa using ih i

theorem csvColumn_levels {ls : List WLevel} (h : ∀ l ∈ ls, l.Valid) (i : ℕ) :
    csvColumn (ls.map fun l => (l.entries.filterMap fun x => x.map Dec.text)[i]?) =
      .numbers (ls.map fun l => l.known[i]?) := by
  have hk : ∀ l ∈ ls, _ := fun l hl => known_getElem l.entries (fun x hx d hd => ((h l hl).entries x hx d hd).1) i
  have e : (ls.map fun l => (l.entries.filterMap fun x => x.map Dec.text)[i]?).map
      (fun w => w.filter fun w => decide (w ∉ csvMissing)) =
      ls.map fun l => (l.entries.filterMap fun x => x.map Dec.text)[i]? := by
    rw [List.map_map]
    refine List.map_congr_left fun l hl => ?_
    simp only [Function.comp]
    cases hw : (l.entries.filterMap fun x => x.map Dec.text)[i]? with
    | none => rfl
    | some w =>
      have := (hk l hl).1 w hw
      simp [Option.filter, this]
  unfold csvColumn
  simp only [e]
  rw [show (ls.map fun l => (l.entries.filterMap fun x => x.map Dec.text)[i]?).mapM csvCell =
      .ok (ls.map fun l => l.known[i]?) by
    rw [List.mapM_map]
    exact mapM_ok fun l hl => (hk l hl).2]

theorem csvTable_listing {top : List (List Char)} (ht : Top top) {ls : List WLevel} (h : ∀ l ∈ ls, l.Valid) :
    csvTable (listing top ls) =
      if ∃ l ∈ ls, 6 ≤ l.known.length then
        .ok ((List.range 6).map fun i => .numbers ((ls.filter fun l => l.known ≠ []).map fun l => l.known[i]?))
      else .error .valueError := by
  have hlen (l : WLevel) : (l.entries.filterMap fun x => x.map Dec.text).length = l.known.length := by
    unfold WLevel.known
    induction l.entries with
    | nil => rfl
    | cons x xs ih => cases x <;> simp [ih]
  unfold csvTable
  simp only [csvRows_listing ht h, List.map_map]
  by_cases h6 : ∃ l ∈ ls, 6 ≤ l.known.length
  · rw [if_pos h6, if_neg]
    · congr 1
      refine List.map_congr_left fun i _ => ?_
      exact csvColumn_levels (fun l hl => h l (List.mem_of_mem_filter hl)) i
    · obtain ⟨l, hl, h6⟩ := h6
      intro hall
      rw [List.all_eq_true] at hall
      have := hall _ (List.mem_map_of_mem (List.mem_filter.2 ⟨hl, by
        have : l.known ≠ [] := by intro h0; rw [h0] at h6; simp at h6
        simpa using this⟩))
      simp only [hlen, decide_eq_true_eq] at this
      omega
  · rw [if_neg h6, if_pos]
    rw [List.all_eq_true]
    intro r hr
    obtain ⟨l, hl, rfl⟩ := List.mem_map.1 hr
    push Not at h6
    simpa [hlen] using h6 l (List.mem_of_mem_filter hl)

/-! ### The text about the sounding -/

/-- What the archive says about a sounding. -/
structure WInfo where
  /-- some stations have no identifier -/
  station : Option (List Char)
  number : ℕ
  year : ℕ
  month : ℕ
  day : ℕ
  hour : ℕ
  minute : ℕ
  latitude : Dec
  longitude : Dec
  elevation : Dec

/-- A line with a right-justified label and a value. -/
def infoLine (pad : ℕ) (label : String) (value : List Char) : List Char :=
  List.replicate pad ' ' ++ label.toList ++ ':' :: ' ' :: value

def WInfo.timeText (i : WInfo) : List Char :=
  (two (i.year % 100)).map dig ++ (two i.month).map dig ++ (two i.day).map dig ++ '/' :: (two i.hour).map dig ++
    (two i.minute).map dig

/-- The lines: an empty one, the identifier if there is one, the rest, and indices that are not read. -/
def WInfo.lines (i : WInfo) (pad : ℕ → ℕ) (more : List (List Char)) : List (List Char) :=
  [] :: ((i.station.map (infoLine (pad 0) "Station identifier")).toList ++
    [infoLine (pad 1) "Station number" ((natDigits i.number).map dig), infoLine (pad 2) "Observation time" i.timeText,
      infoLine (pad 3) "Station latitude" i.latitude.text, infoLine (pad 4) "Station longitude" i.longitude.text,
      infoLine (pad 5) "Station elevation" i.elevation.text] ++ more)

def WInfo.text (i : WInfo) (pad : ℕ → ℕ) (more : List (List Char)) : List Char :=
  ((i.lines pad more).map fun l => l ++ ['\n']).flatten

structure WInfo.Valid (i : WInfo) : Prop where
  station : ∀ s, i.station = some s → Word s ∧ ':' ∉ s
  year : 1969 ≤ i.year ∧ i.year ≤ 2068
  day : DayExists i.year i.month i.day
  hour : i.hour ≤ 23
  minute : i.minute ≤ 59
  latitude : i.latitude.Valid
  longitude : i.longitude.Valid
  elevation : i.elevation.Valid

theorem splitColon_none {s : List Char} (h : ':' ∉ s) : splitColon s = [s] := by
  induction s with
  | nil => rfl
  | cons c s ih =>
    have hc : c ≠ ':' := by rintro rfl; simp at h
    rw [splitColon, if_neg hc, ih (by simp at h; exact h.2)]

theorem splitColon_two {a b : List Char} (ha : ':' ∉ a) (hb : ':' ∉ b) : splitColon (a ++ ':' :: b) = [a, b] := by
  induction a with
  | nil => simp [splitColon, splitColon_none hb]
  | cons c a ih =>
    have hc : c ≠ ':' := by rintro rfl; simp at ha
    rw [List.cons_append, splitColon, if_neg hc, ih (by simp at ha; exact ha.2)]

theorem strip_blank {s : List Char} (h : Word s) : strip (' ' :: s) = s := by
  have : strip (' ' :: s) = strip s := by
    unfold strip
    rw [List.dropWhile_cons_of_pos (by decide)]
  rw [this, strip_nospace h]

theorem metaField_info {lines : List (List Char)} {k pad : ℕ} {label : String} {v : List Char}
    (h : lines[k]? = some (infoLine pad label v)) (hl : ':' ∉ label.toList) (hv : Word v) (hc : ':' ∉ v) :
    metaField lines k = .ok v := by
  have hp : ':' ∉ List.replicate pad ' ' := by
    intro hm; exact absurd (List.eq_of_mem_replicate hm) (by decide)
  have := splitColon_two (a := List.replicate pad ' ' ++ label.toList) (b := ' ' :: v) (by simp [hl])
    (by simp [hc])
  unfold metaField infoLine at *
  rw [h]
  simp only [this, List.getElem?_cons_succ, List.getElem?_cons_zero, strip_blank hv]

theorem Dec.no_colon {x : Dec} (h : x.Valid) : ':' ∉ x.text := fun hm => by
  have := Dec.text_chars h _ hm
  revert this; decide

theorem digits_no_colon {ds : List ℕ} (h : ∀ k ∈ ds, k < 10) : ':' ∉ ds.map dig := by
  intro hm
  obtain ⟨k, hk, he⟩ := List.mem_map.1 hm
  have := h k hk
  interval_cases k <;> revert he <;> decide

theorem isInfix_mem {a s : List Char} (h : isInfix a s = true) : ∀ c ∈ a, c ∈ s := by
  induction s with
  | nil =>
    simp only [isInfix, List.isEmpty_iff] at h
    simp [h]
  | cons b s ih =>
    rw [isInfix, Bool.or_eq_true] at h
    rcases h with h | h
    · intro c hc
      exact (List.isPrefixOf_iff_prefix.1 h).subset hc
    · intro c hc
      exact List.mem_cons_of_mem _ (ih h c hc)

theorem isInfix_blanks (n : ℕ) {s : List Char} :
    isInfix "Station number".toList (List.replicate n ' ' ++ s) = isInfix "Station number".toList s := by
  induction n with
  | zero => rfl
  | succ n ih =>
    rw [List.replicate_succ, List.cons_append, isInfix, ih]
    rfl

theorem isInfix_identifier {n : ℕ} {s : List Char} (h : Word s) :
    isInfix "Station number".toList (infoLine n "Station identifier" s) = false := by
  unfold infoLine
  rw [List.append_assoc, isInfix_blanks]
  have hs : isInfix "Station number".toList s = false := by
    rw [Bool.eq_false_iff]
    intro hi
    exact absurd (h _ (isInfix_mem hi ' ' (by decide))) (by decide)
  have e : "Station identifier".toList = ['S', 't', 'a', 't', 'i', 'o', 'n', ' ', 'i', 'd', 'e', 'n', 't', 'i', 'f', 'i', 'e',
    'r'] := by decide
  have e' : "Station number".toList = ['S', 't', 'a', 't', 'i', 'o', 'n', ' ', 'n', 'u', 'm', 'b', 'e', 'r'] := by decide
  rw [e'] at hs ⊢
  rw [e]
  simp [isInfix, List.isPrefixOf, hs]

theorem isInfix_number {n : ℕ} {s : List Char} :
    isInfix "Station number".toList (infoLine n "Station number" s) = true := by
  unfold infoLine
  rw [List.append_assoc, isInfix_blanks]
  have e' : "Station number".toList = ['S', 't', 'a', 't', 'i', 'o', 'n', ' ', 'n', 'u', 'm', 'b', 'e', 'r'] := by decide
  rw [e']
  simp [isInfix, List.isPrefixOf]

theorem natOf_two {n : ℕ} (h : n < 100) : natOf ((two n).map dig) = some n := by
  obtain ⟨h1, h2⟩ := two_spec h
  unfold natOf
  rw [if_neg (by simp [two]), digits_map h1, Option.map_some, h2]

theorem strptimeShort_time {i : WInfo} (h : i.Valid) :
    strptimeShort i.timeText = .ok (mkDT i.year i.month i.day i.hour (i.minute * 60000000)) := by
  obtain ⟨⟨hm1, hm2⟩, hd1, hd2⟩ := dayExists_iff.1 h.day
  have hd : i.day < 100 := by
    have : daysIn i.year i.month ≤ 31 := by unfold daysIn; split_ifs <;> omega
    omega
  have hh := h.hour
  have hmi := h.minute
  have hy := h.year
  have n1 := natOf_two (n := i.year % 100) (by omega)
  have n2 := natOf_two (n := i.month) (by omega)
  have n3 := natOf_two (n := i.day) hd
  have n4 := natOf_two (n := i.hour) (by omega)
  have n5 := natOf_two (n := i.minute) (by omega)
  have s1 : slice i.timeText 0 2 = (two (i.year % 100)).map dig := rfl
  have s2 : slice i.timeText 2 4 = (two i.month).map dig := rfl
  have s3 : slice i.timeText 4 6 = (two i.day).map dig := rfl
  have s4 : slice i.timeText 7 9 = (two i.hour).map dig := rfl
  have s5 : slice i.timeText 9 11 = (two i.minute).map dig := rfl
  have e : (if 69 ≤ i.year % 100 then 1900 + i.year % 100 else 2000 + i.year % 100) = i.year := by split_ifs <;> omega
  unfold strptimeShort
  rw [if_neg (by rintro (h | h) <;> exact h rfl)]
  simp only [s1, s2, s3, s4, s5, n1, n2, n3, n4, n5, e]
  rw [if_pos ⟨hm1, hm2, hd1, hd2, hh, hmi⟩]

theorem no_newline_info {n : ℕ} {label : String} {v : List Char} (hl : '\n' ∉ label.toList) (hv : Word v) :
    '\n' ∉ infoLine n label v := by
  have h1 : '\n' ∉ List.replicate n ' ' := fun hm => absurd (List.eq_of_mem_replicate hm) (by decide)
  simp [infoLine, hl, newline_word hv]

theorem timeText_chars {i : WInfo} (h : i.Valid) : Word i.timeText ∧ ':' ∉ i.timeText := by
  obtain ⟨⟨hm1, hm2⟩, hd1, hd2⟩ := dayExists_iff.1 h.day
  have hd : i.day < 100 := by
    have : daysIn i.year i.month ≤ 31 := by unfold daysIn; split_ifs <;> omega
    omega
  have hh := h.hour
  have hmi := h.minute
  have d1 := (two_spec (n := i.year % 100) (by omega)).1
  have d2 := (two_spec (n := i.month) (by omega)).1
  have d3 := (two_spec (n := i.day) hd).1
  have d4 := (two_spec (n := i.hour) (by omega)).1
  have d5 := (two_spec (n := i.minute) (by omega)).1
  constructor
  · intro c hc
    simp only [WInfo.timeText, List.mem_append, List.mem_cons] at hc
    rcases hc with (((hc | hc) | hc) | rfl | hc) | hc
    · exact nospace d1 c hc
    · exact nospace d2 c hc
    · exact nospace d3 c hc
    · decide
    · exact nospace d4 c hc
    · exact nospace d5 c hc
  · simp only [WInfo.timeText, List.mem_append, List.mem_cons, not_or]
    exact ⟨⟨⟨⟨digits_no_colon d1, digits_no_colon d2⟩, digits_no_colon d3⟩, by decide, digits_no_colon d4⟩,
      digits_no_colon d5⟩

theorem splitLines_lines {ls : List (List Char)} (h : ∀ l ∈ ls, '\n' ∉ l) :
    splitLines (ls.map fun l => l ++ ['\n']).flatten = ls := by
  unfold splitLines
  rw [textLines_flatten, List.map_map]
  · conv_rhs => rw [← List.map_id ls]
    refine List.map_congr_left fun l hl => ?_
    simp only [Function.comp, List.filter_append, id]
    rw [List.filter_eq_self.2]
    · simp
    · intro c hc
      have : c ≠ '\n' := by rintro rfl; exact h l hl hc
      simpa using this
  · intro l hl
    obtain ⟨k, hk, rfl⟩ := List.mem_map.1 hl
    exact ⟨k, rfl, h k hk⟩

/-- **C74**: what the archive says about the sounding is returned, whether or not the station has an identifier. -/
theorem C74_metadata {i : WInfo} (h : i.Valid) (pad : ℕ → ℕ) {more : List (List Char)} (hm : ∀ l ∈ more, '\n' ∉ l) :
    ∃ m, wyomingMeta (i.text pad more) = .ok m ∧ m.station = i.station.getD [] ∧ m.stationNumber = i.number ∧
      m.time = mkDT i.year i.month i.day i.hour (i.minute * 60000000) ∧ m.latitude = i.latitude.value ∧
      m.longitude = i.longitude.value ∧ m.elevation = i.elevation.value := by
  have ht := timeText_chars h
  have hnum := natDigits_lt i.number
  have hlines : splitLines (i.text pad more) = i.lines pad more := by
    apply splitLines_lines
    intro l hl
    simp only [WInfo.lines, List.mem_cons, List.mem_append, Option.mem_toList, Option.map_eq_some_iff, List.not_mem_nil,
      or_false] at hl
    rcases hl with rfl | (⟨s, hs, rfl⟩ | rfl | rfl | rfl | rfl | rfl) | hl
    · simp
    · exact no_newline_info (by decide) (h.station s hs).1
    · exact no_newline_info (by decide) (nospace hnum)
    · exact no_newline_info (by decide) ht.1
    · exact no_newline_info (by decide) (Dec.text_word h.latitude)
    · exact no_newline_info (by decide) (Dec.text_word h.longitude)
    · exact no_newline_info (by decide) (Dec.text_word h.elevation)
    · exact hm l hl
  -- the lines after the insertion
  have key : ∀ (st : List Char) (ls : List (List Char)), metaField ls 1 = .ok st →
      ls[2]? = some (infoLine (pad 1) "Station number" ((natDigits i.number).map dig)) →
      ls[3]? = some (infoLine (pad 2) "Observation time" i.timeText) →
      ls[4]? = some (infoLine (pad 3) "Station latitude" i.latitude.text) →
      ls[5]? = some (infoLine (pad 4) "Station longitude" i.longitude.text) →
      ls[6]? = some (infoLine (pad 5) "Station elevation" i.elevation.text) →
      metaField ls 1 = .ok st ∧ metaField ls 2 = .ok ((natDigits i.number).map dig) ∧ metaField ls 3 = .ok i.timeText ∧
      metaField ls 4 = .ok i.latitude.text ∧ metaField ls 5 = .ok i.longitude.text ∧
      metaField ls 6 = .ok i.elevation.text := by
    intro st ls h1 h2 h3 h4 h5 h6
    exact ⟨h1, metaField_info h2 (by decide) (nospace hnum) (digits_no_colon hnum),
      metaField_info h3 (by decide) ht.1 ht.2,
      metaField_info h4 (by decide) (Dec.text_word h.latitude) (Dec.no_colon h.latitude),
      metaField_info h5 (by decide) (Dec.text_word h.longitude) (Dec.no_colon h.longitude),
      metaField_info h6 (by decide) (Dec.text_word h.elevation) (Dec.no_colon h.elevation)⟩
  cases hs : i.station with
  | none =>
    have hl1 : (i.lines pad more)[1]? = some (infoLine (pad 1) "Station number" ((natDigits i.number).map dig)) := by
      simp [WInfo.lines, hs]
    obtain ⟨f1, f2, f3, f4, f5, f6⟩ := key [] ((i.lines pad more).insertIdx 1 "Station identifier: ".toList)
      (metaField_info (pad := 0) (label := "Station identifier") (by simp [WInfo.lines, hs, infoLine]) (by decide)
        (by simp [Word]) (by simp)) (by simp [WInfo.lines, hs]) (by simp [WInfo.lines, hs])
      (by simp [WInfo.lines, hs]) (by simp [WInfo.lines, hs]) (by simp [WInfo.lines, hs])
    unfold wyomingMeta
    simp only [hlines, hl1, isInfix_number, if_true, bind, Except.bind, f1, f2, f3, f4, f5, f6,
      pyInt_digits hnum (natDigits_ne_nil _), ofDigits_natDigits, strptimeShort_time h, pyFloat_dec h.latitude,
      pyFloat_dec h.longitude, pyFloat_dec h.elevation]
    exact ⟨_, rfl, rfl, rfl, rfl, rfl, rfl, rfl⟩
  | some s =>
    obtain ⟨hw, hc⟩ := h.station s hs
    have hl1 : (i.lines pad more)[1]? = some (infoLine (pad 0) "Station identifier" s) := by
      simp [WInfo.lines, hs]
    obtain ⟨f1, f2, f3, f4, f5, f6⟩ := key s (i.lines pad more) (metaField_info hl1 (by decide) hw hc)
      (by simp [WInfo.lines, hs]) (by simp [WInfo.lines, hs]) (by simp [WInfo.lines, hs])
      (by simp [WInfo.lines, hs]) (by simp [WInfo.lines, hs])
    unfold wyomingMeta
    simp only [hlines, hl1, isInfix_identifier hw, Bool.false_eq_true, if_false, bind, Except.bind, f1, f2, f3, f4, f5, f6,
      pyInt_digits hnum (natDigits_ne_nil _), ofDigits_natDigits, strptimeShort_time h, pyFloat_dec h.latitude,
      pyFloat_dec h.longitude, pyFloat_dec h.elevation]
    exact ⟨_, rfl, rfl, rfl, rfl, rfl, rfl, rfl⟩

/-! ### The table -/

/-- **C74**: exactly what is returned.  Empty fields are not seen: the rows are the levels with at least four known values
of any kind, and column `i` holds the known value number `i`. -/
theorem C74_rows {top : List (List Char)} (ht : Top top) {ls : List WLevel} (h : ∀ l ∈ ls, l.Valid) {i : WInfo}
    (hi : i.Valid) (pad : ℕ → ℕ) {more : List (List Char)} (hm : ∀ l ∈ more, '\n' ∉ l) (h6 : ∃ l ∈ ls, 6 ≤ l.known.length) :
    ∃ t, wyomingTable (listing top ls) (i.text pad more) = .ok t ∧
      t.columns = (List.range 6).map fun k => .numbers ((ls.filter fun l => 4 ≤ l.known.length).map fun l => l.known[k]?) := by
  obtain ⟨m, hm, -⟩ := C74_metadata hi pad hm
  unfold wyomingTable
  rw [csvTable_listing ht h, if_pos h6, hm]
  simp only [bind, Except.bind, List.getElem?_map, List.getElem?_range (show 2 < 6 by norm_num),
    List.getElem?_range (show 3 < 6 by norm_num), Option.map_some, CsvColumn.present]
  refine ⟨_, rfl, ?_⟩
  simp only [List.map_map]
  refine List.map_congr_left fun k _ => ?_
  simp only [Function.comp, CsvColumn.keep, zipWith_map_same, keepRows_map, List.filter_filter]
  congr 2
  apply List.filter_congr
  intro l _
  rcases hk : l.known with _ | ⟨a, _ | ⟨b, _ | ⟨c, _ | ⟨d, t⟩⟩⟩⟩ <;> simp

theorem isSome_get (xs : List ℝ) (k : ℕ) : (xs[k]?).isSome = decide (k < xs.length) := by
  by_cases h : k < xs.length
  · simp [h]
  · simp [h]

/-- **C74**: the table is right for listings where nothing follows a missing entry: the levels with temperature and dew
point, each with its six values. -/
theorem C74_gapless {top : List (List Char)} (ht : Top top) {ls : List WLevel} (h : ∀ l ∈ ls, l.Valid)
    (hg : ∀ l ∈ ls, l.Gapless) {i : WInfo} (hi : i.Valid) (pad : ℕ → ℕ) {more : List (List Char)}
    (hm : ∀ l ∈ more, '\n' ∉ l) (h6 : ∃ l ∈ ls, l.mixr.isSome) :
    ∃ t, wyomingTable (listing top ls) (i.text pad more) = .ok t ∧
      (let ks := ls.filter fun l => l.temperature.isSome && l.dewpoint.isSome
      t.columns = [fun l => l.pressure, fun l => l.height, fun l => l.temperature, fun l => l.dewpoint, fun l => l.rh,
        fun l => l.mixr].map fun (f : WLevel → Option Dec) => .numbers (ks.map fun l => (f l).map Dec.value)) := by
  -- with entries in a row the known values are in their places
  have key : ∀ l ∈ ls, ∀ k : ℕ, k < 6 → l.known[k]? = (l.entries[k]?).join.map Dec.value := by
    intro l hl k hk
    have gap : ∀ (i j : ℕ), i ≤ j → l.entries[i]? = some none → l.entries[j]? ≠ none → l.entries[j]? = some none := by
      intro i j hij h1 h2
      refine hg l hl i j hij h1 ?_
      have := (List.getElem?_eq_some_iff.1 (Option.ne_none_iff_exists'.1 h2).choose_spec).1
      simpa [WLevel.entries, (h l hl).theta] using this
    unfold WLevel.known
    generalize l.entries = xs at gap
    clear hk
    induction xs generalizing k with
    | nil => simp
    | cons x xs ih =>
      cases x with
      | none =>
        have hall : ∀ y ∈ xs, y = none := by
          intro y hy
          obtain ⟨n, hn⟩ := List.getElem?_of_mem hy
          have := gap 0 (n + 1) (by omega) rfl (by simp [hn])
          simp only [List.getElem?_cons_succ, hn, Option.some.injEq] at this
          exact this
        have e : (none :: xs : List (Option Dec)).filterMap (fun x => x.map Dec.value) = [] := by
          simp only [List.filterMap_cons, Option.map_none, List.filterMap_eq_nil_iff]
          intro y hy; rw [hall y hy]; rfl
        rw [e]
        cases k with
        | zero => rfl
        | succ k =>
          simp only [List.getElem?_nil, List.getElem?_cons_succ]
          cases hk : xs[k]? with
          | none => rfl
          | some y => rw [hall y (List.mem_of_getElem? hk)]; rfl
      | some d =>
        cases k with
        | zero => rfl
        | succ k =>
          simp only [List.filterMap_cons, Option.map_some, List.getElem?_cons_succ]
          exact ih k fun i j hij h1 h2 => by simpa using gap (i + 1) (j + 1) (by omega) (by simpa using h1) (by simpa using h2)
  have six : ∃ l ∈ ls, 6 ≤ l.known.length := by
    obtain ⟨l, hl, h6⟩ := h6
    refine ⟨l, hl, ?_⟩
    have := key l hl 5 (by norm_num)
    obtain ⟨d, hd⟩ := Option.isSome_iff_exists.1 h6
    simp only [WLevel.entries, List.cons_append, List.getElem?_cons_succ, List.getElem?_cons_zero, hd, Option.join_some,
      Option.map_some] at this
    exact (List.getElem?_eq_some_iff.1 this).1
  obtain ⟨t, h1, h2⟩ := C74_rows ht h hi pad hm six
  refine ⟨t, h1, ?_⟩
  have hf : (ls.filter fun l => decide (4 ≤ l.known.length)) = ls.filter fun l => l.temperature.isSome && l.dewpoint.isSome := by
    apply List.filter_congr
    intro l hl
    have k2 := key l hl 2 (by norm_num)
    have k3 := key l hl 3 (by norm_num)
    simp only [WLevel.entries, List.cons_append, List.getElem?_cons_succ, List.getElem?_cons_zero, Option.join_some] at k2 k3
    have e2 : l.temperature.isSome = decide (2 < l.known.length) := by
      have := congrArg Option.isSome k2
      rw [Option.isSome_map] at this
      rw [← this, isSome_get]
    have e3 : l.dewpoint.isSome = decide (3 < l.known.length) := by
      have := congrArg Option.isSome k3
      rw [Option.isSome_map] at this
      rw [← this, isSome_get]
    rw [e2, e3]
    rw [Bool.eq_iff_iff]
    simp only [Bool.and_eq_true, decide_eq_true_eq]
    omega
  rw [h2, hf]
  have col (k : ℕ) (hk : k < 6) (f : WLevel → Option Dec) (hf : ∀ l : WLevel, l.entries[k]? = some (f l)) :
      ((ls.filter fun l => l.temperature.isSome && l.dewpoint.isSome).map fun l => l.known[k]?) =
      (ls.filter fun l => l.temperature.isSome && l.dewpoint.isSome).map fun l => (f l).map Dec.value := by
    refine List.map_congr_left fun l hl => ?_
    rw [key l (List.mem_of_mem_filter hl) k hk, hf]
    rfl
  simp only [show List.range 6 = [0, 1, 2, 3, 4, 5] from rfl, List.map_cons, List.map_nil]
  rw [col 0 (by norm_num) _ fun _ => rfl, col 1 (by norm_num) _ fun _ => rfl, col 2 (by norm_num) _ fun _ => rfl,
    col 3 (by norm_num) _ fun _ => rfl, col 4 (by norm_num) _ fun _ => rfl, col 5 (by norm_num) _ fun _ => rfl]

/-- **C74**: a listing without a line of six values raises `ValueError`. -/
theorem C74_short {top : List (List Char)} (ht : Top top) {ls : List WLevel} (h : ∀ l ∈ ls, l.Valid)
    (h6 : ∀ l ∈ ls, l.known.length < 6) (info : List Char) :
    wyomingTable (listing top ls) info = .error .valueError := by
  unfold wyomingTable
  rw [csvTable_listing ht h, if_neg (by push Not; exact h6)]
  rfl

/-- **C74**: a level with pressure, height and wind but without temperature, dew point, humidity and mixing ratio is
returned with the wind direction as temperature and the wind speed as dew point. -/
theorem C74_wind_as_temperature {top : List (List Char)} (ht : Top top) {ls : List WLevel} (h : ∀ l ∈ ls, l.Valid)
    {i : WInfo} (hi : i.Valid) (pad : ℕ → ℕ) {more : List (List Char)} (hm : ∀ l ∈ more, '\n' ∉ l)
    (h6 : ∃ l ∈ ls, 6 ≤ l.known.length) {l : WLevel} (hl : l ∈ ls) {p z d s : Dec} (hp : l.pressure = some p)
    (hz : l.height = some z) (hT : l.temperature = none) (hTd : l.dewpoint = none) (hrh : l.rh = none) (hq : l.mixr = none)
    (hd : l.direction = some d) (hs : l.speed = some s) :
    ∃ t ps zs ts ds rs qs, wyomingTable (listing top ls) (i.text pad more) = .ok t ∧
      t.columns = [.numbers ps, .numbers zs, .numbers ts, .numbers ds, .numbers rs, .numbers qs] ∧
      ∃ k : ℕ, ps[k]? = some (some p.value) ∧ zs[k]? = some (some z.value) ∧ ts[k]? = some (some d.value) ∧
        ds[k]? = some (some s.value) := by
  obtain ⟨t, h1, h2⟩ := C74_rows ht h hi pad hm h6
  have hk : ∃ r, l.known = p.value :: z.value :: d.value :: s.value :: r := by
    simp [WLevel.known, WLevel.entries, hp, hz, hT, hTd, hrh, hq, hd, hs]
  obtain ⟨r, hk⟩ := hk
  have hin : l ∈ ls.filter fun l => decide (4 ≤ l.known.length) := List.mem_filter.2 ⟨hl, by simp [hk]⟩
  obtain ⟨k, hk'⟩ := List.getElem?_of_mem hin
  refine ⟨t, _, _, _, _, _, _, h1, h2, k, ?_, ?_, ?_, ?_⟩ <;> simp [hk', hk]

/-- Five lines above the levels. -/
def demoTop : List (List Char) := List.replicate 5 ['-', '\n']

theorem demoTop_top : Top demoTop := ⟨rfl, fun l hl => ⟨['-'], by
  rw [List.eq_of_mem_replicate hl]; rfl, by decide⟩⟩

def dec (n : ℕ) : Dec := ⟨false, n, [5]⟩

/-- A complete level, the lowest standard level below the ground, and a level with wind only. -/
def demoFull : WLevel := ⟨some (dec 990), some ⟨false, 182, []⟩, some (dec 21), some ⟨true, 0, [3]⟩, some ⟨false, 24, []⟩,
  some (dec 3), some ⟨false, 240, []⟩, some ⟨false, 7, []⟩, [some (dec 295), some (dec 305), some (dec 296)]⟩
def demoGround : WLevel := ⟨some (dec 1000), some ⟨false, 95, []⟩, none, none, none, none, none, none, [none, none, none]⟩
def demoWind : WLevel := ⟨some (dec 500), some ⟨false, 5790, []⟩, none, none, none, none, some ⟨false, 270, []⟩,
  some ⟨false, 45, []⟩, [none, none, none]⟩

theorem demoFull_valid : demoFull.Valid := by
  refine ⟨rfl, ?_⟩
  intro x hx d hd
  subst hd
  simp only [demoFull, WLevel.entries, dec, List.cons_append, List.nil_append, List.mem_cons, Option.some.injEq,
    List.not_mem_nil, or_false] at hx
  rcases hx with rfl | rfl | rfl | rfl | rfl | rfl | rfl | rfl | rfl | rfl | rfl <;>
    simp [Dec.Valid, Dec.text, natDigits]

theorem demoGround_valid : demoGround.Valid := by
  refine ⟨rfl, ?_⟩
  intro x hx d hd
  subst hd
  simp only [demoGround, WLevel.entries, dec, List.cons_append, List.nil_append, List.mem_cons, Option.some.injEq,
    List.not_mem_nil, or_false, reduceCtorEq] at hx
  rcases hx with rfl | rfl <;> simp [Dec.Valid, Dec.text, natDigits]

theorem demoWind_valid : demoWind.Valid := by
  refine ⟨rfl, ?_⟩
  intro x hx d hd
  subst hd
  simp only [demoWind, WLevel.entries, dec, List.cons_append, List.nil_append, List.mem_cons, Option.some.injEq,
    List.not_mem_nil, or_false, reduceCtorEq, false_or] at hx
  rcases hx with rfl | rfl | rfl | rfl <;> simp [Dec.Valid, Dec.text, natDigits]

set_option maxRecDepth 10000 in
/-- The line of the complete level is the one in the archive. -/
example : String.ofList demoFull.line =
    "  990.5    182   21.5   -0.3     24    3.5    240      7  295.5  305.5  296.5\n" := by
  simp [WLevel.line, WLevel.entries, demoFull, dec, field7, rjust, Dec.text, natDigits]
  decide

/-- A sounding of a station without identifier. -/
def demoInfo : WInfo := ⟨none, 16245, 2022, 6, 22, 12, 0, ⟨false, 41, [6, 7]⟩, ⟨false, 12, [4, 5]⟩, ⟨false, 32, [0]⟩⟩

theorem demoInfo_valid : demoInfo.Valid := by
  have hd : DayExists 2022 6 22 := ⟨by norm_num, by norm_num, 30, rfl, by norm_num⟩
  constructor
  · simp [demoInfo]
  · simp [demoInfo]
  · simpa only [demoInfo] using hd
  all_goals simp [demoInfo, Dec.Valid]

theorem demoFull_known : demoFull.known.length = 11 := by simp [demoFull, WLevel.known, WLevel.entries]

/-- Complete levels and levels below the ground are read as they are. -/
example : ∃ t, wyomingTable (listing demoTop [demoGround, demoFull]) (demoInfo.text (fun _ => 20) []) = .ok t ∧
    t.columns[2]? = some (.numbers [some 21.5]) ∧ t.columns[3]? = some (.numbers [some (-0.3)]) := by
  obtain ⟨t, h1, h2⟩ := C74_gapless demoTop_top (ls := [demoGround, demoFull])
    (by rintro l hl; simp at hl; rcases hl with rfl | rfl; exacts [demoGround_valid, demoFull_valid])
    (by
      rintro l hl i j hij h hj
      simp at hl
      rcases hl with rfl | rfl
      · have hi : i < 11 := by omega
        interval_cases i <;> interval_cases j <;> simp_all [demoGround, WLevel.entries]
      · have hi : i < 11 := by omega
        interval_cases i <;> simp [demoFull, WLevel.entries] at h)
    demoInfo_valid (fun _ => 20) (more := []) (by simp) ⟨demoFull, by simp, rfl⟩
  refine ⟨t, h1, ?_, ?_⟩ <;> rw [h2] <;>
    simp [demoGround, demoFull, dec, Dec.value, ofDigits] <;> norm_num

/-- **C74**: the table of a listing need not be right: a level without temperature gets one of 270 degrees. -/
theorem C74_refuted : ∃ (ls : List WLevel) (t : WyomingTable) (ts : List (Option ℝ)), (∀ l ∈ ls, l.Valid) ∧
    wyomingTable (listing demoTop ls) (demoInfo.text (fun _ => 20) []) = .ok t ∧ t.columns[2]? = some (.numbers ts) ∧
    some 270 ∈ ts ∧ ∀ l ∈ ls, ∀ x, l.temperature = some x → x.value ≠ 270 := by
  have hv : ∀ l ∈ [demoFull, demoWind], l.Valid := by
    rintro l hl; simp at hl; rcases hl with rfl | rfl; exacts [demoFull_valid, demoWind_valid]
  obtain ⟨t, ps, zs, ts, ds, rs, qs, h1, h2, k, -, -, h3, -⟩ := C74_wind_as_temperature demoTop_top (ls := [demoFull, demoWind])
    hv demoInfo_valid (fun _ => 20) (more := []) (by simp) ⟨demoFull, by simp, by rw [demoFull_known]; norm_num⟩ (l := demoWind)
    (by simp) rfl rfl rfl rfl rfl rfl rfl rfl
  refine ⟨_, t, ts, hv, h1, by rw [h2]; rfl, ?_, ?_⟩
  · have := List.mem_of_getElem? h3
    simpa [Dec.value, ofDigits] using this
  · intro l hl x hx
    simp at hl
    rcases hl with rfl | rfl
    · simp only [demoFull, Option.some.injEq] at hx
      subst hx
      norm_num [dec, Dec.value, ofDigits]
    · simp [demoWind] at hx

end Verif.Props
