import Verif.Lemmas.IgraText

/-!
# Radiosonde tables (C73)
-/

namespace Verif.Props

open Verif.Py Verif.Model Verif.Lemmas

/-! ### Specification: an archive and its text -/

/-- An entry of a level: missing, removed by quality control, or a number. -/
inductive Entry where
  | missing
  | removed
  | value (z : ℤ)

/-- Its text in the archive. -/
def Entry.text : Entry → List Char
  | .missing => "-9999".toList
  | .removed => "-8888".toList
  | .value z => intText z

/-- It fits into `w` columns and is not one of the codes for missing values. -/
def Entry.Fits (w : ℕ) : Entry → Prop
  | .value z => (intText z).length ≤ w ∧ z ≠ -9999 ∧ z ≠ -8888
  | _ => True

/-- The number divided by a power of ten. -/
noncomputable def Entry.scaled (power : ℕ) : Entry → Option ℝ
  | .value z => some (z / 10 ^ power)
  | _ => none

/-- A quality flag. -/
inductive Flag where
  | blank
  | a
  | b

def Flag.char : Flag → Char
  | .blank => ' '
  | .a => 'A'
  | .b => 'B'

def Flag.number : Flag → ℝ
  | .blank => 0
  | .a => 1
  | .b => 2

/-- A level of a sounding. -/
structure Level where
  typ1 : ℕ
  typ2 : ℕ
  /-- minutes times 100 plus seconds -/
  etime : Entry
  /-- pascal -/
  pressure : Entry
  pflag : Flag
  /-- metres -/
  height : Entry
  zflag : Flag
  /-- tenths of a degree Celsius -/
  temperature : Entry
  tflag : Flag
  /-- tenths of a per cent -/
  rh : Entry
  /-- tenths of a degree -/
  depression : Entry
  /-- degrees clockwise from north -/
  direction : Entry
  /-- tenths of metres per second -/
  speed : Entry
  /-- blanks at the end of the line -/
  trailing : ℕ

/-- The columns of the line of a level in the archive (format of its data files). -/
def Level.pieces (l : Level) : List (List Char) :=
  [[dig l.typ1], [dig l.typ2], [' '], rjust 5 l.etime.text, [' '], rjust 6 l.pressure.text, [l.pflag.char],
    rjust 5 l.height.text, [l.zflag.char], rjust 5 l.temperature.text, [l.tflag.char], rjust 5 l.rh.text, [' '],
    rjust 5 l.depression.text, [' '], rjust 5 l.direction.text, [' '], rjust 5 l.speed.text,
    List.replicate l.trailing ' ', ['\n']]

/-- The line of a level. -/
def Level.line (l : Level) : List Char := l.pieces.flatten

structure Level.Valid (l : Level) : Prop where
  typ1 : l.typ1 < 10
  typ2 : l.typ2 < 10
  etime : l.etime.Fits 5
  etime' : ∀ z, l.etime = .value z → 0 ≤ z ∧ z % 100 < 60
  pressure : l.pressure.Fits 6
  pressure' : ∀ z, l.pressure = .value z → 0 ≤ z
  height : l.height.Fits 5
  temperature : l.temperature.Fits 5
  rh : l.rh.Fits 5
  depression : l.depression.Fits 5
  direction : l.direction.Fits 5
  speed : l.speed.Fits 5

/-- Elapsed time in seconds. -/
noncomputable def Level.seconds (l : Level) : Option ℝ :=
  match l.etime with
  | .value z => some ((z / 100 * 60 + z % 100 : ℤ) : ℝ)
  | _ => none

/-- Speed and direction, if both are known. -/
noncomputable def Level.wind (l : Level) : Option (ℝ × ℝ) :=
  match l.speed, l.direction with
  | .value s, .value d => some (s / 10, d)
  | _, _ => none

/-- Temperature minus depression, if both are known. -/
noncomputable def Level.dewpoint (l : Level) : Option ℝ :=
  match l.temperature, l.depression with
  | .value t, .value d => some (t / 10 - d / 10)
  | _, _ => none

/-- A level with temperature, dew-point depression, wind direction or wind speed. -/
def Level.hasData (l : Level) : Bool :=
  match l.temperature, l.direction, l.speed, l.depression with
  | .value _, _, _, _ => true
  | _, .value _, _, _ => true
  | _, _, .value _, _ => true
  | _, _, _, .value _ => true
  | _, _, _, _ => false

/-! ### Reading one line -/

theorem Entry.text_word (e : Entry) : Word e.text := by
  cases e with
  | missing => intro c hc; revert c hc; decide
  | removed => intro c hc; revert c hc; decide
  | value z => exact intText_nospace z

theorem Entry.text_length {e : Entry} {w : ℕ} (hw : 5 ≤ w) (h : e.Fits w) : e.text.length ≤ w := by
  cases e with
  | missing => simpa [Entry.text] using hw
  | removed => simpa [Entry.text] using hw
  | value z => exact h.1

theorem missing_text : intText (-9999) = "-9999".toList := by simp [intText, natDigits]; decide
theorem removed_text : intText (-8888) = "-8888".toList := by simp [intText, natDigits]; decide
theorem third_text : intText (-99999) = "-99999".toList := by simp [intText, natDigits]; decide

theorem intText_inj {a b : ℤ} (h : intText a = intText b) : a = b := by
  have h1 := pyInt_intText a
  rw [h, pyInt_intText b] at h1
  exact (Except.ok.inj h1).symm

/-- The number that `int` reads. -/
def Entry.code : Entry → ℤ
  | .missing => -9999
  | .removed => -8888
  | .value z => z

theorem Entry.text_eq (e : Entry) : e.text = intText e.code := by
  cases e with
  | missing => exact missing_text.symm
  | removed => exact removed_text.symm
  | value z => rfl

theorem convInt_entry (e : Entry) : convInt e.text = .ok (some (e.code : ℝ)) := by
  rw [convInt, e.text_eq, pyInt_intText]; rfl

theorem naNumber_entry {e : Entry} {w : ℕ} (h : e.Fits w) : (some (e.code : ℝ)).bind naNumber = e.scaled 0 := by
  cases e with
  | missing => simp [Entry.code, naNumber, Entry.scaled]
  | removed => simp [Entry.code, naNumber, Entry.scaled]
  | value z =>
    have h1 : (z : ℝ) ≠ -9999 := by exact_mod_cast h.2.1
    have h2 : (z : ℝ) ≠ -8888 := by exact_mod_cast h.2.2
    simp [Entry.code, naNumber, Entry.scaled, h1, h2]

theorem cdec_entry {e : Entry} (power : ℕ) (h99 : ∀ z, e = .value z → z ≠ -99999 ∧ z ≠ -9999 ∧ z ≠ -8888) :
    cdec power e.text = .ok (e.scaled power) := by
  cases e with
  | missing => rw [cdec, if_pos (by simp [Entry.text])]; rfl
  | removed => rw [cdec, if_pos (by simp [Entry.text])]; rfl
  | value z =>
    obtain ⟨h1, h2, h3⟩ := h99 z rfl
    rw [cdec, if_neg]
    · rw [Entry.text, pyFloat_intText]; rfl
    · intro hm
      simp only [List.mem_cons, List.not_mem_nil, or_false, Entry.text, ← missing_text, ← removed_text,
        ← third_text] at hm
      rcases hm with hm | hm | hm
      · exact h2 (intText_inj hm)
      · exact h3 (intText_inj hm)
      · exact h1 (intText_inj hm)

theorem scaled_na {e : Entry} {power : ℕ} (h : ∀ z, e = .value z → -(8888 * 10 ^ power : ℤ) < z) :
    (e.scaled power).bind naNumber = e.scaled power := by
  cases e with
  | missing => rfl
  | removed => rfl
  | value z =>
    have h1 : (-(8888 * 10 ^ power) : ℝ) < z := by exact_mod_cast h z rfl
    have hp : (0 : ℝ) < 10 ^ power := by positivity
    have h2 : (-8888 : ℝ) < z / 10 ^ power := by rw [lt_div_iff₀ hp]; linarith
    simp only [Entry.scaled, Option.bind_some, naNumber]
    rw [if_neg]
    rintro (h3 | h3) <;> linarith

theorem cdec_fits {e : Entry} (h : e.Fits 5) :
    cdec 1 e.text = .ok (e.scaled 1) ∧ (e.scaled 1).bind naNumber = e.scaled 1 := by
  constructor
  · refine cdec_entry 1 fun z hz => ?_
    subst hz
    have := (intText_bound (w := 4) h.1).1
    exact ⟨by omega, h.2.1, h.2.2⟩
  · refine scaled_na fun z hz => ?_
    subst hz
    have := (intText_bound (w := 4) h.1).1
    omega

theorem cdec_pressure {e : Entry} (h' : ∀ z, e = .value z → 0 ≤ z) :
    cdec 2 e.text = .ok (e.scaled 2) ∧ (e.scaled 2).bind naNumber = e.scaled 2 := by
  constructor
  · refine cdec_entry 2 fun z hz => ?_
    have := h' z hz
    refine ⟨?_, ?_, ?_⟩ <;> omega
  · refine scaled_na fun z hz => ?_
    have := h' z hz
    omega

theorem convTime_entry {l : Level} (h : l.Valid) :
    convTime "MMMSS" l.etime.text = .ok l.seconds ∧ l.seconds.bind naNumber = l.seconds := by
  have h1 := h.etime
  have h2 := h.etime'
  unfold Level.seconds
  cases he : l.etime with
  | missing => exact ⟨by rw [convTime, Entry.text, (C63_missing "MMMSS").1]; rfl, rfl⟩
  | removed => exact ⟨by rw [convTime, Entry.text, (C63_missing "MMMSS").2.1]; rfl, rfl⟩
  | value z =>
    rw [he] at h1
    obtain ⟨hz, hs⟩ := h2 z he
    have hl := h1.1
    have e0 : intText z = (natDigits z.natAbs).map dig := by rw [intText, if_neg (by omega)]
    rw [e0, List.length_map] at hl
    have hc := C63_elapsed (mm := (z / 100).toNat) (ss := (z % 100).toNat) (by omega) (pad := 0)
      (natDigits_lt z.natAbs) hl (by rw [ofDigits_natDigits]; omega)
    constructor
    · rw [convTime, Entry.text, e0]
      simp only [List.replicate_zero, List.nil_append] at hc
      rw [hc]
      show Except.ok (some _) = _
      have : (60 * ((z / 100).toNat : ℤ) + ((z % 100).toNat : ℤ)) = z / 100 * 60 + z % 100 := by omega
      rw [this]
    · simp only [Option.bind_some, naNumber]
      rw [if_neg]
      have : (0 : ℤ) ≤ z / 100 * 60 + z % 100 := by omega
      have : (0 : ℝ) ≤ ((z / 100 * 60 + z % 100 : ℤ) : ℝ) := by exact_mod_cast this
      rintro (h3 | h3) <;> linarith

theorem convInt_digit {k : ℕ} (h : k < 10) : convInt [dig k] = .ok (some (k : ℝ)) ∧ (some (k : ℝ)).bind naNumber = some (k : ℝ) := by
  constructor
  · have := pyInt_digits (ds := [k]) (by simpa using h) (by simp)
    rw [convInt, show [dig k] = [k].map dig from rfl, this]
    simp [ofDigits, Except.map]
  · simp only [Option.bind_some, naNumber]
    rw [if_neg]
    have : (0 : ℝ) ≤ k := by positivity
    rintro (h3 | h3) <;> linarith

/-- The text of a flag once stripped. -/
def Flag.text : Flag → List Char
  | .blank => []
  | .a => ['A']
  | .b => ['B']

theorem convFlag_flag (f : Flag) : convFlag f.text = .ok (some f.number) ∧ (some f.number).bind naNumber = some f.number := by
  have hb : ¬ ('B' = 'A') := by decide
  cases f <;> norm_num [convFlag, cflag, Flag.text, Flag.number, naNumber, hb]

theorem fwfField_flag (p r : List Char) (f : Flag) {a b : ℕ} (ha : p.length = a) (hb : a + 1 = b) :
    fwfField (a, b) (p ++ (f.char :: r)) = f.text := by
  cases f with
  | blank => exact fwfField_mid (s := []) (n := 1) (k := 0) (by simp [Word]) ha (by simpa using hb)
  | a => exact fwfField_mid (s := ['A']) (n := 0) (k := 0) (by intro c hc; revert c hc; decide) ha (by simpa using hb)
  | b => exact fwfField_mid (s := ['B']) (n := 0) (k := 0) (by intro c hc; revert c hc; decide) ha (by simpa using hb)

/-- The fields of a level line. -/
theorem Level.Valid.fields {l : Level} (h : l.Valid) :
    fwfField (0, 1) l.line = [dig l.typ1] ∧ fwfField (1, 2) l.line = [dig l.typ2] ∧
    fwfField (3, 8) l.line = l.etime.text ∧ fwfField (9, 15) l.line = l.pressure.text ∧
    fwfField (15, 16) l.line = l.pflag.text ∧ fwfField (16, 21) l.line = l.height.text ∧
    fwfField (21, 22) l.line = l.zflag.text ∧ fwfField (22, 27) l.line = l.temperature.text ∧
    fwfField (27, 28) l.line = l.tflag.text ∧ fwfField (28, 33) l.line = l.rh.text ∧
    fwfField (34, 39) l.line = l.depression.text ∧ fwfField (40, 45) l.line = l.direction.text ∧
    fwfField (46, 51) l.line = l.speed.text := by
  have l1 := rjust_length (Entry.text_length (by norm_num) h.etime)
  have l2 := rjust_length (Entry.text_length (by norm_num) h.pressure)
  have l3 := rjust_length (Entry.text_length (by norm_num) h.height)
  have l4 := rjust_length (Entry.text_length (by norm_num) h.temperature)
  have l5 := rjust_length (Entry.text_length (by norm_num) h.rh)
  have l6 := rjust_length (Entry.text_length (by norm_num) h.depression)
  have l7 := rjust_length (Entry.text_length (by norm_num) h.direction)
  have w {k : ℕ} (hk : k < 10) : Word [dig k] := by intro c hc; simp at hc; subst hc; exact (dig_spec hk).2.1
  have key {pre : List (List Char)} {x : List Char} {post : List (List Char)} (hp : l.pieces = pre ++ x :: post) :
      l.line = pre.flatten ++ (x ++ post.flatten) := by
    rw [Level.line, hp]; simp
  have field {pre : List (List Char)} {e : Entry} {n : ℕ} {post : List (List Char)} {a b : ℕ} (he : e.Fits n) (hn : 5 ≤ n)
      (hp : l.pieces = pre ++ rjust n e.text :: post) (ha : pre.flatten.length = a) (hb : a + n = b) :
      fwfField (a, b) l.line = e.text := by
    rw [key hp]
    exact fwfField_rjust e.text_word (Entry.text_length hn he) ha hb
  have flag {pre : List (List Char)} {f : Flag} {post : List (List Char)} {a b : ℕ}
      (hp : l.pieces = pre ++ [f.char] :: post) (ha : pre.flatten.length = a) (hb : a + 1 = b) :
      fwfField (a, b) l.line = f.text := by
    rw [key hp]
    exact fwfField_flag _ _ f ha hb
  have digit {pre : List (List Char)} {k : ℕ} {post : List (List Char)} {a b : ℕ} (hk : k < 10)
      (hp : l.pieces = pre ++ [dig k] :: post) (ha : pre.flatten.length = a) (hb : a + 1 = b) :
      fwfField (a, b) l.line = [dig k] := by
    rw [key hp]
    exact fwfField_mid (s := [dig k]) (n := 0) (k := 0) (w hk) ha (by simpa using hb)
  refine ⟨?_, ?_, ?_, ?_, ?_, ?_, ?_, ?_, ?_, ?_, ?_, ?_, ?_⟩
  · exact digit (pre := []) h.typ1 rfl rfl rfl
  · exact digit (pre := l.pieces.take 1) h.typ2 rfl rfl rfl
  · exact field (pre := l.pieces.take 3) h.etime (by norm_num) rfl rfl rfl
  · exact field (pre := l.pieces.take 5) h.pressure (by norm_num) rfl (by simp [Level.pieces, l1]) rfl
  · exact flag (pre := l.pieces.take 6) rfl (by simp [Level.pieces, l1, l2]) rfl
  · exact field (pre := l.pieces.take 7) h.height (by norm_num) rfl (by simp [Level.pieces, l1, l2]) rfl
  · exact flag (pre := l.pieces.take 8) rfl (by simp [Level.pieces, l1, l2, l3]) rfl
  · exact field (pre := l.pieces.take 9) h.temperature (by norm_num) rfl (by simp [Level.pieces, l1, l2, l3]) rfl
  · exact flag (pre := l.pieces.take 10) rfl (by simp [Level.pieces, l1, l2, l3, l4]) rfl
  · exact field (pre := l.pieces.take 11) h.rh (by norm_num) rfl (by simp [Level.pieces, l1, l2, l3, l4]) rfl
  · exact field (pre := l.pieces.take 13) h.depression (by norm_num) rfl
      (by simp [Level.pieces, l1, l2, l3, l4, l5]) rfl
  · exact field (pre := l.pieces.take 15) h.direction (by norm_num) rfl
      (by simp [Level.pieces, l1, l2, l3, l4, l5, l6]) rfl
  · exact field (pre := l.pieces.take 17) h.speed (by norm_num) rfl
      (by simp [Level.pieces, l1, l2, l3, l4, l5, l6, l7]) rfl


/-! ### Reading the body -/

theorem newline_rjust {n : ℕ} {t : List Char} (h : Word t) : '\n' ∉ rjust n t := by
  intro hm
  rcases List.mem_append.1 hm with hm | hm
  · exact absurd (List.eq_of_mem_replicate hm) (by decide)
  · exact absurd (h _ hm) (by decide)

theorem newline_dig {k : ℕ} (h : k < 10) : '\n' ≠ dig k := by
  intro e
  have := (dig_spec h).2.1
  rw [← e] at this
  exact absurd this (by decide)

theorem newline_flag (f : Flag) : '\n' ≠ f.char := by cases f <;> decide

theorem Level.Valid.line_newline {l : Level} (h : l.Valid) : ∃ t, l.line = t ++ ['\n'] ∧ '\n' ∉ t := by
  refine ⟨(l.pieces.take 19).flatten, by simp [Level.line, Level.pieces], ?_⟩
  have hs : '\n' ≠ ' ' := by decide
  simp only [Level.pieces, List.take_succ_cons, List.take_zero, List.flatten_cons, List.flatten_nil, List.mem_append,
    List.mem_singleton, newline_dig h.typ1, newline_dig h.typ2, newline_rjust (Entry.text_word _), newline_flag, hs,
    List.mem_replicate, List.not_mem_nil, or_false, and_false, not_false_eq_true]

theorem fwfLines_levels {ls : List Level} (h : ∀ l ∈ ls, l.Valid) :
    fwfLines bodySpecs (ls.map Level.line).flatten = ls.map Level.line := by
  rw [fwfLines, textLines_flatten]
  · rw [List.filter_eq_self]
    intro x hx
    obtain ⟨l, hl, rfl⟩ := List.mem_map.1 hx
    rw [List.any_eq_true]
    exact ⟨(0, 1), by simp [bodySpecs], by rw [(h l hl).fields.1]; rfl⟩
  · intro x hx
    obtain ⟨l, hl, rfl⟩ := List.mem_map.1 hx
    exact (h l hl).line_newline

theorem anyValue_map {α : Type} (l : List α) (fs : List (α → Option ℝ)) :
    anyValue (fs.map fun f => l.map f) l.length = l.map fun x => fs.any fun f => (f x).isSome := by
  unfold anyValue
  apply List.ext_getElem
  · simp
  · intro i h1 h2
    simp only [List.length_map, List.length_range] at h1
    simp only [List.getElem_map, List.getElem_range, List.any_map]
    congr 1
    funext f
    simp only [Function.comp, List.getElem?_map, List.getElem?_eq_getElem h1, Option.map_some]
    cases f l[i] <;> rfl

theorem zipWith_map_same {α β γ δ : Type} (f : β → γ → δ) (a : α → β) (b : α → γ) (l : List α) :
    List.zipWith f (l.map a) (l.map b) = l.map fun x => f (a x) (b x) := by
  induction l with
  | nil => rfl
  | cons x l ih => simp [ih]

/-- The rounded wind component in the table. -/
noncomputable def Level.component (pick : ℝ × ℝ → ℝ) (l : Level) : Option ℝ :=
  l.wind.map fun w => npRound1 (pick (windComponents w.1 (w.2 * Real.pi / 180)))

theorem Level.component_eq (pick : ℝ × ℝ → ℝ) (l : Level) :
    ((l.speed.scaled 1).bind fun s => (l.direction.scaled 0).map fun d =>
      npRound1 (pick (windComponents s (d * Real.pi / 180)))) = l.component pick := by
  unfold Level.component Level.wind
  cases l.speed <;> cases l.direction <;> simp [Entry.scaled]

theorem Level.dewpoint_eq (l : Level) :
    ((l.temperature.scaled 1).bind fun t => (l.depression.scaled 1).map fun d => t - d) = l.dewpoint := by
  unfold Level.dewpoint
  cases l.temperature <;> cases l.depression <;> simp [Entry.scaled]

theorem Level.hasData_eq (l : Level) :
    ([fun l => l.temperature.scaled 1, fun l => l.direction.scaled 0, fun l => l.speed.scaled 1,
      fun l => l.depression.scaled 1, Level.component Prod.fst, Level.component Prod.snd] :
      List (Level → Option ℝ)).any (fun f => (f l).isSome) = l.hasData := by
  simp only [List.any_cons, List.any_nil]
  unfold Level.hasData Level.component Level.wind
  cases l.temperature <;> cases l.direction <;> cases l.speed <;> cases l.depression <;> simp [Entry.scaled]

/-- The table of levels with their dates. -/
noncomputable def bodyOf (ps : List (DT × Level)) : BodyTable where
  lvltyp1 := ps.map fun p => some (p.2.typ1 : ℝ)
  lvltyp2 := ps.map fun p => some (p.2.typ2 : ℝ)
  etime := ps.map fun p => p.2.seconds
  pressure := ps.map fun p => p.2.pressure.scaled 2
  pflag := ps.map fun p => some p.2.pflag.number
  height := ps.map fun p => p.2.height.scaled 0
  zflag := ps.map fun p => some p.2.zflag.number
  temperature := ps.map fun p => p.2.temperature.scaled 1
  tflag := ps.map fun p => some p.2.tflag.number
  relativeHumidity := ps.map fun p => p.2.rh.scaled 1
  direction := ps.map fun p => p.2.direction.scaled 0
  speed := ps.map fun p => p.2.speed.scaled 1
  date := ps.map Prod.fst
  uWind := ps.map fun p => p.2.component Prod.fst
  vWind := ps.map fun p => p.2.component Prod.snd
  dewpoint := ps.map fun p => p.2.dewpoint

theorem readBody_levels {ps : List (DT × Level)} (h : ∀ p ∈ ps, p.2.Valid) :
    readBody (ps.map fun p => p.2.line).flatten (ps.map Prod.fst) = .ok (bodyOf (ps.filter fun p => p.2.hasData)) := by
  have hrows : fwfLines bodySpecs (ps.map fun p => p.2.line).flatten = ps.map fun p => p.2.line := by
    have := fwfLines_levels (ls := ps.map Prod.snd) fun l hl => by
      obtain ⟨p, hp, rfl⟩ := List.mem_map.1 hl
      exact h p hp
    simpa [Function.comp_def] using this
  have col {s : ℕ × ℕ} {t : Level → List Char} {conv : List Char → Except PyErr (Option ℝ)} {g g' : Level → Option ℝ}
      (h1 : ∀ l : Level, l.Valid → fwfField s l.line = t l)
      (h2 : ∀ l : Level, l.Valid → conv (t l) = .ok (g l) ∧ (g l).bind naNumber = g' l) :
      convColumn conv ((ps.map fun p => p.2.line).map (fwfField s)) = .ok (ps.map fun p => g' p.2) := by
    rw [List.map_map, convColumn_ok (g := fun p => g p.2)]
    · congr 1
      exact List.map_congr_left fun p hp => (h2 _ (h p hp)).2
    · intro p hp
      simp only [Function.comp]
      rw [h1 _ (h p hp)]
      exact (h2 _ (h p hp)).1
  have c1 := col (s := (0, 1)) (g' := fun l => some (l.typ1 : ℝ)) (fun l hl => hl.fields.1)
    fun l hl => convInt_digit hl.typ1
  have c2 := col (s := (1, 2)) (g' := fun l => some (l.typ2 : ℝ)) (fun l hl => hl.fields.2.1)
    fun l hl => convInt_digit hl.typ2
  have c3 := col (s := (3, 8)) (g' := fun l => l.seconds) (fun l hl => hl.fields.2.2.1) fun l hl => convTime_entry hl
  have c4 := col (s := (9, 15)) (g' := fun l => l.pressure.scaled 2) (fun l hl => hl.fields.2.2.2.1)
    fun l hl => cdec_pressure hl.pressure'
  have c5 := col (s := (15, 16)) (g' := fun l => some l.pflag.number) (fun l hl => hl.fields.2.2.2.2.1)
    fun l _ => convFlag_flag l.pflag
  have c6 := col (s := (16, 21)) (g' := fun l => l.height.scaled 0) (fun l hl => hl.fields.2.2.2.2.2.1)
    fun l hl => ⟨convInt_entry _, naNumber_entry hl.height⟩
  have c7 := col (s := (21, 22)) (g' := fun l => some l.zflag.number) (fun l hl => hl.fields.2.2.2.2.2.2.1)
    fun l _ => convFlag_flag l.zflag
  have c8 := col (s := (22, 27)) (g' := fun l => l.temperature.scaled 1) (fun l hl => hl.fields.2.2.2.2.2.2.2.1)
    fun l hl => cdec_fits hl.temperature
  have c9 := col (s := (27, 28)) (g' := fun l => some l.tflag.number) (fun l hl => hl.fields.2.2.2.2.2.2.2.2.1)
    fun l _ => convFlag_flag l.tflag
  have c10 := col (s := (28, 33)) (g' := fun l => l.rh.scaled 1) (fun l hl => hl.fields.2.2.2.2.2.2.2.2.2.1)
    fun l hl => cdec_fits hl.rh
  have c11 := col (s := (34, 39)) (g' := fun l => l.depression.scaled 1) (fun l hl => hl.fields.2.2.2.2.2.2.2.2.2.2.1)
    fun l hl => cdec_fits hl.depression
  have c12 := col (s := (40, 45)) (g' := fun l => l.direction.scaled 0)
    (fun l hl => hl.fields.2.2.2.2.2.2.2.2.2.2.2.1) fun l hl => ⟨convInt_entry _, naNumber_entry hl.direction⟩
  have c13 := col (s := (46, 51)) (g' := fun l => l.speed.scaled 1)
    (fun l hl => hl.fields.2.2.2.2.2.2.2.2.2.2.2.2) fun l hl => cdec_fits hl.speed
  have hwind (pick : ℝ × ℝ → ℝ) : windColumn pick (ps.map fun p => p.2.speed.scaled 1)
      (ps.map fun p => p.2.direction.scaled 0) = ps.map fun p => p.2.component pick := by
    rw [windColumn, zipWith_map_same]
    exact List.map_congr_left fun p _ => p.2.component_eq pick
  have hany : anyValue [ps.map fun p => p.2.temperature.scaled 1, ps.map fun p => p.2.direction.scaled 0,
      ps.map fun p => p.2.speed.scaled 1, ps.map fun p => p.2.depression.scaled 1,
      ps.map fun p => p.2.component Prod.fst, ps.map fun p => p.2.component Prod.snd] ps.length =
      ps.map fun p => p.2.hasData := by
    have := anyValue_map ps ([fun l => l.temperature.scaled 1, fun l => l.direction.scaled 0, fun l => l.speed.scaled 1,
      fun l => l.depression.scaled 1, Level.component Prod.fst, Level.component Prod.snd].map
      fun (f : Level → Option ℝ) (p : DT × Level) => f p.2)
    refine Eq.trans this (List.map_congr_left fun p _ => ?_)
    rw [List.any_map]
    exact p.2.hasData_eq
  unfold readBody
  simp only [hrows, c1, c2, c3, c4, c5, c6, c7, c8, c9, c10, c11, c12, c13, bind, Except.bind, List.length_map, ne_eq,
    not_true_eq_false, if_false, hwind, hany, keepRows_map, zipWith_map_same, Level.dewpoint_eq]
  rfl

/-! ### Specification: soundings -/

/-- A sounding as it is: station, nominal time (hour 99 when unknown), release time, place, levels. -/
structure Record where
  site : List Char
  year : ℕ
  month : ℕ
  day : ℕ
  hour : ℕ
  /-- hour and minute -/
  release : Option (ℕ × ℕ)
  source1 : List Char
  source2 : List Char
  /-- ten-thousandths of a degree -/
  lat : ℤ
  lon : ℤ
  levels : List Level

/-- The text of the release time. -/
def Record.releaseText (r : Record) : List Char :=
  match r.release with
  | some (hh, mm) => (four (100 * hh + mm)).map dig
  | none => "9999".toList

/-- What follows the number of levels in the header line. -/
def Record.rest (r : Record) : List Char :=
  [[' '], r.source1, [' '], r.source2, [' '], rjust 7 (intText r.lat), [' '], rjust 8 (intText r.lon), ['\n']].flatten

/-- The header line of the archive. -/
def Record.header (r : Record) : List Char :=
  headerLine r.site r.year r.month r.day r.hour r.releaseText (4 - (natDigits r.levels.length).length)
    (natDigits r.levels.length) r.rest

/-- The time of the sounding; midnight when the hour is unknown. -/
def Record.date (r : Record) : DT := mkDT r.year r.month r.day (if r.hour ≤ 23 then r.hour else 0) 0

/-- The text of a sounding. -/
def Record.sounding (r : Record) : Sounding := ⟨r.header, r.levels.map Level.line, r.date⟩

structure Record.Valid (r : Record) : Prop where
  site : r.site.length = 11
  site' : Word r.site
  year : 1 ≤ r.year ∧ r.year ≤ 9999
  day : DayExists r.year r.month r.day
  hour : r.hour < 100
  release : ∀ hh mm, r.release = some (hh, mm) → hh < 24 ∧ mm < 60
  source1 : r.source1.length = 8 ∧ '\n' ∉ r.source1
  source2 : r.source2.length = 8 ∧ '\n' ∉ r.source2
  /-- not within a tenth of a degree of the equator or the zero meridian, see C64 -/
  lat : 1000 ≤ r.lat.natAbs ∧ r.lat.natAbs ≤ 900000
  lon : 1000 ≤ r.lon.natAbs ∧ r.lon.natAbs ≤ 1800000
  levels : r.levels.length < 10000
  valid : ∀ l ∈ r.levels, l.Valid

theorem Record.Valid.releaseText_length {r : Record} (_h : r.Valid) : r.releaseText.length = 4 := by
  unfold Record.releaseText
  split
  · simp [four]
  · rfl

theorem Record.Valid.wf {r : Record} (h : r.Valid) : r.sounding.WF := by
  refine C62_wellformed h.site h.releaseText_length ?_ (natDigits_ne_nil _) (natDigits_lt _) h.year h.day h.hour ?_ ?_
  · have := natDigits_length_le (w := 4) (by norm_num) (n := r.levels.length) (by norm_num; exact h.levels)
    omega
  · rw [ofDigits_natDigits, List.length_map]
  · intro x hx
    obtain ⟨l, hl, rfl⟩ := List.mem_map.1 hx
    have hv := h.valid l hl
    exact ⟨dig l.typ1, (l.pieces.drop 1).flatten, rfl, (dig_spec hv.typ1).2.2.2.2.1⟩

/-- The release time that the code computes (the digits are read one place to the left, see C63). -/
noncomputable def Record.releaseRead (r : Record) : Option ℝ :=
  r.release.map fun t => (((t.1 / 10 : ℕ) * 3600 + (10 * (t.1 % 10) + t.2 / 10 : ℕ) * 60 : ℤ) : ℝ)

theorem convTime_release {r : Record} (h : r.Valid) :
    convTime "HHMM" r.releaseText = .ok r.releaseRead ∧ r.releaseRead.bind naNumber = r.releaseRead := by
  unfold Record.releaseText Record.releaseRead
  cases hr : r.release with
  | none => exact ⟨by rw [convTime, show ctime "HHMM" "9999".toList = .ok none from rfl]; rfl, rfl⟩
  | some t =>
    obtain ⟨hh, mm⟩ := t
    obtain ⟨h1, h2⟩ := h.release hh mm hr
    obtain ⟨f1, f2⟩ := four_spec (n := 100 * hh + mm) (by omega)
    have := C63_release (hh := hh) (mm := mm) h2 (pad := 0) f1 (by simp [four]) f2
    constructor
    · simp only [List.replicate_zero, List.nil_append] at this
      simp only [convTime, this]
      rfl
    · simp only [Option.map_some, Option.bind_some, naNumber]
      rw [if_neg]
      have : (0 : ℤ) ≤ (hh / 10 : ℕ) * 3600 + (10 * (hh % 10) + mm / 10 : ℕ) * 60 := by positivity
      have : (0 : ℝ) ≤ (((hh / 10 : ℕ) * 3600 + (10 * (hh % 10) + mm / 10 : ℕ) * 60 : ℤ) : ℝ) := by exact_mod_cast this
      rintro (h3 | h3) <;> linarith

theorem intText_length {z : ℤ} {w : ℕ} (hw : 1 ≤ w) (h : z.natAbs < 10 ^ w) : (intText z).length ≤ w + 1 := by
  have := natDigits_length_le hw h
  unfold intText
  split_ifs <;> simp <;> omega

theorem convLatLon_int {z : ℤ} (h : 1000 ≤ z.natAbs) (h' : z.natAbs ≤ 1800000) :
    convLatLon (intText z) = .ok (some ((z : ℝ) / 10000)) ∧ (some ((z : ℝ) / 10000)).bind naNumber = some ((z : ℝ) / 10000) := by
  constructor
  · rw [convLatLon, clatlon_intText h]; rfl
  · simp only [Option.bind_some, naNumber]
    rw [if_neg]
    have : (-1800000 : ℤ) ≤ z := by omega
    have : (-1800000 : ℝ) ≤ z := by exact_mod_cast this
    rintro (h3 | h3) <;> linarith

/-- The pieces of a header line. -/
def Record.pieces (r : Record) : List (List Char) :=
  [['#'], r.site, [' '], (four r.year).map dig, [' '], (two r.month).map dig, [' '], (two r.day).map dig, [' '],
    (two r.hour).map dig, [' '], r.releaseText, [' '],
    rjust 4 ((natDigits r.levels.length).map dig), [' '], r.source1, [' '], r.source2, [' '],
    rjust 7 (intText r.lat), [' '], rjust 8 (intText r.lon), ['\n']]

theorem Record.header_eq (r : Record) : r.header = r.pieces.flatten := by
  simp [Record.header, headerLine, Record.pieces, Record.rest, rjust]

theorem digits_word {ds : List ℕ} (h : ∀ k ∈ ds, k < 10) : Word (ds.map dig) := nospace h

theorem Record.releaseText_word {r : Record} (h : r.Valid) : Word r.releaseText := by
  unfold Record.releaseText
  split
  · rename_i hh mm hr
    obtain ⟨h1, h2⟩ := h.release hh mm hr
    exact digits_word (four_spec (by omega)).1
  · intro c hc; revert c hc; decide

theorem Record.Valid.fields {r : Record} (h : r.Valid) :
    fwfField (1, 12) r.header = r.site ∧ fwfField (27, 31) r.header = r.releaseText ∧
    fwfField (32, 36) r.header = (natDigits r.levels.length).map dig ∧ fwfField (55, 62) r.header = intText r.lat ∧
    fwfField (63, 71) r.header = intText r.lon := by
  have hlev := natDigits_length_le (w := 4) (by norm_num) (n := r.levels.length) (by norm_num; exact h.levels)
  have hlat := intText_length (z := r.lat) (w := 6) (by norm_num) (by have := h.lat.2; norm_num; omega)
  have hlon := intText_length (z := r.lon) (w := 7) (by norm_num) (by have := h.lon.2; norm_num; omega)
  have l1 := rjust_length (w := 4) (s := (natDigits r.levels.length).map dig) (by simpa using hlev)
  have l2 := rjust_length hlat
  have hrel := h.releaseText_length
  have key {pre : List (List Char)} {x : List Char} {post : List (List Char)} (hp : r.pieces = pre ++ x :: post) :
      r.header = pre.flatten ++ (x ++ post.flatten) := by
    rw [r.header_eq, hp]; simp
  have word {pre : List (List Char)} {x : List Char} {post : List (List Char)} {a b : ℕ} (hx : Word x)
      (hp : r.pieces = pre ++ x :: post) (ha : pre.flatten.length = a) (hb : a + x.length = b) :
      fwfField (a, b) r.header = x := by
    rw [key hp]
    have := fwfField_mid (p := pre.flatten) (r := post.flatten) (n := 0) (k := 0) (b := b) hx ha (by simpa using hb)
    simpa using this
  have just {pre : List (List Char)} {x : List Char} {n : ℕ} {post : List (List Char)} {a b : ℕ} (hx : Word x)
      (hn : x.length ≤ n) (hp : r.pieces = pre ++ rjust n x :: post) (ha : pre.flatten.length = a) (hb : a + n = b) :
      fwfField (a, b) r.header = x := by
    rw [key hp]
    exact fwfField_rjust hx hn ha hb
  refine ⟨?_, ?_, ?_, ?_, ?_⟩
  · exact word (pre := r.pieces.take 1) h.site' rfl rfl (by rw [h.site])
  · exact word (pre := r.pieces.take 11) (Record.releaseText_word h) rfl
      (by simp [Record.pieces, h.site, four, two]) (by rw [hrel])
  · exact just (pre := r.pieces.take 13) (n := 4) (digits_word (natDigits_lt _)) (by simpa using hlev) rfl
      (by simp [Record.pieces, h.site, four, two, hrel]) rfl
  · exact just (pre := r.pieces.take 19) (n := 7) (intText_nospace _) hlat rfl
      (by simp [Record.pieces, h.site, four, two, hrel, l1, h.source1.1, h.source2.1]) rfl
  · exact just (pre := r.pieces.take 21) (n := 8) (intText_nospace _) hlon rfl
      (by simp [Record.pieces, h.site, four, two, hrel, l1, l2, h.source1.1, h.source2.1]) rfl

theorem newline_word {t : List Char} (h : Word t) : '\n' ∉ t := fun hm => absurd (h _ hm) (by decide)

theorem Record.Valid.header_newline {r : Record} (h : r.Valid) : ∃ t, r.header = t ++ ['\n'] ∧ '\n' ∉ t := by
  refine ⟨(r.pieces.take 22).flatten, by simp [Record.header_eq, Record.pieces], ?_⟩
  have hs : '\n' ≠ ' ' := by decide
  have hh : '\n' ≠ '#' := by decide
  have hm : r.month < 100 := by
    have := (dayExists_iff.1 h.day).1.2; omega
  have hd : r.day < 100 := by
    have := (dayExists_iff.1 h.day).2.2
    have : daysIn r.year r.month ≤ 31 := by unfold daysIn; split_ifs <;> omega
    omega
  have hy : r.year < 10000 := by have := h.year.2; omega
  simp only [Record.pieces, List.take_succ_cons, List.take_zero, List.flatten_cons, List.flatten_nil, List.mem_append,
    List.mem_singleton, newline_word h.site', newline_word (digits_word (four_spec hy).1),
    newline_word (digits_word (two_spec hm).1), newline_word (digits_word (two_spec hd).1),
    newline_word (digits_word (two_spec h.hour).1), newline_word (Record.releaseText_word h),
    newline_rjust (digits_word (natDigits_lt _)), newline_rjust (intText_nospace _), h.source1.2, h.source2.2,
    hs, hh, List.not_mem_nil, or_false, not_false_eq_true]

/-- The header table of soundings. -/
noncomputable def headerOf (rs : List Record) : HeaderTable where
  siteId := rs.map Record.site
  releaseTime := rs.map Record.releaseRead
  numberLevels := rs.map fun r => some (r.levels.length : ℝ)
  latitude := rs.map fun r => some ((r.lat : ℝ) / 10000)
  longitude := rs.map fun r => some ((r.lon : ℝ) / 10000)
  date := rs.map Record.date

theorem readHeader_records {rs : List Record} (h : ∀ r ∈ rs, r.Valid) :
    readHeader (rs.map Record.header).flatten (rs.map Record.date) = .ok (headerOf rs) := by
  have hrows : fwfLines headerSpecs (rs.map Record.header).flatten = rs.map Record.header := by
    rw [fwfLines, textLines_flatten]
    · rw [List.filter_eq_self]
      intro x hx
      obtain ⟨r, hr, rfl⟩ := List.mem_map.1 hx
      rw [List.any_eq_true]
      refine ⟨(1, 12), by simp [headerSpecs], ?_⟩
      rw [(h r hr).fields.1]
      have := (h r hr).site
      cases hs : r.site with
      | nil => rw [hs] at this; simp at this
      | cons => rfl
    · intro x hx
      obtain ⟨r, hr, rfl⟩ := List.mem_map.1 hx
      exact (h r hr).header_newline
  have col {s : ℕ × ℕ} {t : Record → List Char} {conv : List Char → Except PyErr (Option ℝ)} {g g' : Record → Option ℝ}
      (h1 : ∀ r : Record, r.Valid → fwfField s r.header = t r)
      (h2 : ∀ r : Record, r.Valid → conv (t r) = .ok (g r) ∧ (g r).bind naNumber = g' r) :
      convColumn conv ((rs.map Record.header).map (fwfField s)) = .ok (rs.map g') := by
    rw [List.map_map, convColumn_ok (g := g)]
    · congr 1
      exact List.map_congr_left fun r hr => (h2 _ (h r hr)).2
    · intro r hr
      simp only [Function.comp]
      rw [h1 _ (h r hr)]
      exact (h2 _ (h r hr)).1
  have c1 := col (s := (27, 31)) (g' := Record.releaseRead) (fun r hr => hr.fields.2.1) fun r hr => convTime_release hr
  have c2 := col (s := (32, 36)) (g' := fun r => some (r.levels.length : ℝ)) (g := fun r => some (r.levels.length : ℝ))
    (conv := convInt) (fun r hr => hr.fields.2.2.1) fun r _ => by
      constructor
      · rw [convInt, pyInt_digits (natDigits_lt _) (natDigits_ne_nil _), ofDigits_natDigits]; rfl
      · simp only [Option.bind_some, naNumber]
        rw [if_neg]
        have : (0 : ℝ) ≤ r.levels.length := by positivity
        rintro (h3 | h3) <;> linarith
  have c3 := col (s := (55, 62)) (g' := fun r => some ((r.lat : ℝ) / 10000)) (fun r hr => hr.fields.2.2.2.1)
    fun r hr => convLatLon_int hr.lat.1 (by have := hr.lat.2; omega)
  have c4 := col (s := (63, 71)) (g' := fun r => some ((r.lon : ℝ) / 10000)) (fun r hr => hr.fields.2.2.2.2)
    fun r hr => convLatLon_int hr.lon.1 hr.lon.2
  have c0 : (rs.map Record.header).map (fwfField (1, 12)) = rs.map Record.site := by
    rw [List.map_map]
    exact List.map_congr_left fun r hr => (h r hr).fields.1
  unfold readHeader
  simp only [hrows, c0, c1, c2, c3, c4, bind, Except.bind, List.length_map, ne_eq, not_true_eq_false, if_false]
  rfl

/-! ### The tables -/

/-- The soundings with a time in the closed range. -/
def inRange (b e : DT) (rs : List Record) : List Record := rs.filter fun r => b ≤ r.date ∧ r.date ≤ e

/-- The rows of the table of levels: those with data, each with the time of its sounding. -/
def rowsOf (rs : List Record) : List (DT × Level) :=
  rs.flatMap fun r => (r.levels.filter Level.hasData).map fun l => (r.date, l)

/-- A wind column holds, to one decimal, the given component of the wind *towards* which the air moves. -/
def WindColumn (dir : ℝ → ℝ) (col : List (Option ℝ)) (ls : List Level) : Prop :=
  List.Forall₂ (fun (c : Option ℝ) (l : Level) => match l.wind with
    | none => c = none
    | some (s, d) => ∃ x : ℝ, c = some x ∧ |x + s * dir (d / 360 * (2 * Real.pi))| ≤ 1 / 20 ∧ ∃ k : ℤ, x = k / 10) col ls

theorem windColumn_component {pick : ℝ × ℝ → ℝ} {dir : ℝ → ℝ} (h : ∀ s d, pick (windComponents s d) = -s * dir d)
    (ls : List Level) : WindColumn dir (ls.map (Level.component pick)) ls := by
  unfold WindColumn
  induction ls with
  | nil => exact .nil
  | cons l ls ih =>
    refine .cons ?_ ih
    unfold Level.component
    cases l.wind with
    | none => rfl
    | some w =>
      obtain ⟨s, d⟩ := w
      refine ⟨_, rfl, ?_, ⟨rint (pick (windComponents s (d * Real.pi / 180)) * 10), rfl⟩⟩
      have := npRound1_close (pick (windComponents s (d * Real.pi / 180)))
      change |npRound1 (pick (windComponents s (d * Real.pi / 180))) + _| ≤ _
      rw [h] at this ⊢
      rw [show d / 360 * (2 * Real.pi) = d * Real.pi / 180 by ring]
      rw [show npRound1 (-s * dir (d * Real.pi / 180)) + s * dir (d * Real.pi / 180) =
        npRound1 (-s * dir (d * Real.pi / 180)) - -s * dir (d * Real.pi / 180) by ring]
      exact this

theorem between_records (b e : DT) (rs : List Record) :
    between b e (rs.map Record.sounding) = (inRange b e rs).map Record.sounding := by
  unfold between inRange
  rw [List.filter_map]
  rfl

theorem igraTables_records (b e : DT) {rs : List Record} (hv : ∀ r ∈ rs, r.Valid)
    (hs : (rs.map Record.date).Pairwise (· ≤ ·)) :
    igraTables b e (fileLines (rs.map Record.sounding)) =
      if inRange b e rs = [] then .error .valueError
      else .ok (bodyOf (rowsOf (inRange b e rs)), headerOf (inRange b e rs)) := by
  have hsel := C62_select b e (rs.map Record.sounding)
    (by
      intro x hx
      obtain ⟨r, hr, rfl⟩ := List.mem_map.1 hx
      exact (hv r hr).wf)
    (by simpa [Function.comp_def, Record.sounding] using hs)
  rw [between_records] at hsel
  simp only [List.map_eq_nil_iff] at hsel
  unfold igraTables
  rw [hsel]
  by_cases hne : inRange b e rs = []
  · simp only [hne, if_true]; rfl
  have hk : ∀ r ∈ inRange b e rs, r.Valid := fun r hr => hv r (List.mem_of_mem_filter hr)
  generalize inRange b e rs = ks at hk hne ⊢
  simp only [hne, if_false, bind, Except.bind]
  have e1 : (ks.map Record.sounding).flatMap Sounding.body =
      (ks.flatMap fun r => r.levels.map fun l => (r.date, l)).map fun p => p.2.line := by
    simp [List.flatMap_map, List.map_flatMap, Function.comp_def, Record.sounding]
  have e2 : ((ks.map Record.sounding).flatMap fun s => List.replicate s.body.length s.date) =
      (ks.flatMap fun r => r.levels.map fun l => (r.date, l)).map Prod.fst := by
    simp [List.flatMap_map, List.map_flatMap, Function.comp_def, Record.sounding]
  have e3 : (ks.map Record.sounding).map Sounding.header = ks.map Record.header := by
    simp [Function.comp_def, Record.sounding]
  have e4 : (ks.map Record.sounding).map Sounding.date = ks.map Record.date := by
    simp [Function.comp_def, Record.sounding]
  have e5 : ((ks.flatMap fun r => r.levels.map fun l => (r.date, l)).filter fun p => p.2.hasData) = rowsOf ks := by
    simp [rowsOf, List.filter_flatMap, List.filter_map, Function.comp_def]
  rw [e1, e2, e3, e4, readBody_levels, readHeader_records hk, e5]
  · rfl
  · intro p hp
    obtain ⟨r, hr, hp⟩ := List.mem_flatMap.1 hp
    obtain ⟨l, hl, rfl⟩ := List.mem_map.1 hp
    exact (hk r hr).valid l hl

/-- **C73**: for every archive in chronological order and every range with a sounding, the table of levels has exactly
the levels with data of the soundings in the range, in order, each with the time of its sounding and its values in the
announced units; missing and removed entries are not a number. -/
theorem C73_levels {b e : DT} {rs : List Record} (hv : ∀ r ∈ rs, r.Valid) (hs : (rs.map Record.date).Pairwise (· ≤ ·))
    (hne : inRange b e rs ≠ []) :
    ∃ t h, igraTables b e (fileLines (rs.map Record.sounding)) = .ok (t, h) ∧
      t.date = (rowsOf (inRange b e rs)).map Prod.fst ∧
      (let ls := (rowsOf (inRange b e rs)).map Prod.snd
      t.lvltyp1 = ls.map (fun l => some (l.typ1 : ℝ)) ∧ t.lvltyp2 = ls.map (fun l => some (l.typ2 : ℝ)) ∧
      t.etime = ls.map Level.seconds ∧
      t.pressure = ls.map (fun l => l.pressure.scaled 2) ∧ t.height = ls.map (fun l => l.height.scaled 0) ∧
      t.temperature = ls.map (fun l => l.temperature.scaled 1) ∧
      t.relativeHumidity = ls.map (fun l => l.rh.scaled 1) ∧
      t.dewpoint = ls.map Level.dewpoint ∧
      t.direction = ls.map (fun l => l.direction.scaled 0) ∧ t.speed = ls.map (fun l => l.speed.scaled 1) ∧
      t.pflag = ls.map (fun l => some l.pflag.number) ∧ t.zflag = ls.map (fun l => some l.zflag.number) ∧
      t.tflag = ls.map (fun l => some l.tflag.number) ∧
      WindColumn Real.sin t.uWind ls ∧ WindColumn Real.cos t.vWind ls) := by
  refine ⟨_, _, by rw [igraTables_records b e hv hs, if_neg hne], rfl, ?_⟩
  generalize rowsOf (inRange b e rs) = ps
  simp only [List.map_map]
  refine ⟨rfl, rfl, rfl, rfl, rfl, rfl, rfl, rfl, rfl, rfl, rfl, rfl, rfl, ?_, ?_⟩
  · have := windColumn_component (pick := Prod.fst) (dir := Real.sin) (fun _ _ => rfl) (ps.map Prod.snd)
    simpa [Function.comp_def, bodyOf] using this
  · have := windColumn_component (pick := Prod.snd) (dir := Real.cos) (fun _ _ => rfl) (ps.map Prod.snd)
    simpa [Function.comp_def, bodyOf] using this

/-- **C73**: the other table has one row for each sounding in the range: station, time, number of levels in the file
(not of rows kept) and place in degrees. -/
theorem C73_soundings {b e : DT} {rs : List Record} (hv : ∀ r ∈ rs, r.Valid)
    (hs : (rs.map Record.date).Pairwise (· ≤ ·)) (hne : inRange b e rs ≠ []) :
    ∃ t h, igraTables b e (fileLines (rs.map Record.sounding)) = .ok (t, h) ∧
      h.siteId = (inRange b e rs).map Record.site ∧ h.date = (inRange b e rs).map Record.date ∧
      h.numberLevels = (inRange b e rs).map (fun r => some (r.levels.length : ℝ)) ∧
      h.latitude = (inRange b e rs).map (fun r => some ((r.lat : ℝ) / 10000)) ∧
      h.longitude = (inRange b e rs).map (fun r => some ((r.lon : ℝ) / 10000)) ∧
      List.Forall₂ (fun (x : Option ℝ) (r : Record) => x.isSome ↔ r.release.isSome) h.releaseTime (inRange b e rs) := by
  refine ⟨_, _, by rw [igraTables_records b e hv hs, if_neg hne], rfl, rfl, rfl, rfl, rfl, ?_⟩
  generalize inRange b e rs = ks
  simp only [headerOf]
  induction ks with
  | nil => exact .nil
  | cons r ks ih => exact .cons (by simp [Record.releaseRead]) ih

/-- **C73**: without a sounding in the range there is a `ValueError`. -/
theorem C73_none {b e : DT} {rs : List Record} (hv : ∀ r ∈ rs, r.Valid) (hs : (rs.map Record.date).Pairwise (· ≤ ·))
    (h : ∀ r ∈ rs, r.date < b ∨ e < r.date) :
    igraTables b e (fileLines (rs.map Record.sounding)) = .error .valueError := by
  rw [igraTables_records b e hv hs, if_pos]
  unfold inRange
  rw [List.filter_eq_nil_iff]
  intro r hr
  rcases h r hr with h | h <;> simp [h]

/-- A level of the archive: 850 hPa, 12.3 °C, depression 4.5 K, wind from 270° with 10 m/s. -/
def demoLevel : Level where
  typ1 := 1
  typ2 := 0
  etime := .value 130
  pressure := .value 85000
  pflag := .b
  height := .value 1457
  zflag := .blank
  temperature := .value 123
  tflag := .b
  rh := .removed
  depression := .value 45
  direction := .value 270
  speed := .value 100
  trailing := 1

/-- A level with pressure, height and relative humidity only. -/
def demoDry : Level := { demoLevel with
  rh := .value 400
  temperature := .missing
  depression := .missing
  direction := .missing
  speed := .missing }

/-- A sounding at a given day of June 2018. -/
def demoRecord (d : ℕ) : Record where
  site := ['U', 'S', 'M', '0', '0', '0', '7', '2', '2', '0', '1']
  year := 2018
  month := 6
  day := d
  hour := 12
  release := some (11, 2)
  source1 := ['n', 'c', 'd', 'c', '-', 'g', 't', 's']
  source2 := ['n', 'c', 'd', 'c', '-', 'g', 't', 's']
  lat := 245528
  lon := -817892
  levels := [demoLevel, demoDry]

theorem demoLevel_valid : demoLevel.Valid := by
  constructor <;> simp [demoLevel, Entry.Fits, intText, natDigits]

theorem demoDry_valid : demoDry.Valid := by
  constructor <;> simp [demoLevel, demoDry, Entry.Fits, intText, natDigits]

theorem demoRecord_valid {d : ℕ} (h : 1 ≤ d ∧ d ≤ 30) : (demoRecord d).Valid := by
  have hd : DayExists 2018 6 d := ⟨by norm_num, h.1, 30, rfl, h.2⟩
  constructor
  · simp only [demoRecord]; decide
  · intro c hc; revert c hc; simp only [demoRecord]; decide
  · simp [demoRecord]
  · simpa only [demoRecord] using hd
  · simp [demoRecord]
  · rintro hh mm h; simp only [demoRecord, Option.some.injEq, Prod.mk.injEq] at h; omega
  · simp only [demoRecord]; decide
  · simp only [demoRecord]; decide
  · simp [demoRecord]
  · simp [demoRecord]
  · simp [demoRecord]
  · intro l hl
    simp only [demoRecord, List.mem_cons, List.not_mem_nil, or_false] at hl
    rcases hl with rfl | rfl
    · exact demoLevel_valid
    · exact demoDry_valid

/-- The line of the level is the one in the archive. -/
example : String.ofList demoLevel.line = "10   130  85000B 1457   123B-8888    45   270   100 \n" := by
  simp [Level.line, Level.pieces, demoLevel, rjust, Entry.text, intText, natDigits]
  decide

/-- Of two soundings one is in the range; of its two levels the one with data is in the table. -/
example : ∃ t h, igraTables (mkDT 2018 6 12 0 0) (mkDT 2018 6 12 23 0)
    (fileLines ([demoRecord 11, demoRecord 12].map Record.sounding)) = .ok (t, h) ∧
    t.date = [mkDT 2018 6 12 12 0] ∧ t.pressure = [some 850] ∧ t.dewpoint = [some 7.8] ∧
    t.relativeHumidity = [none] := by
  have hr : inRange (mkDT 2018 6 12 0 0) (mkDT 2018 6 12 23 0) [demoRecord 11, demoRecord 12] = [demoRecord 12] := by
    simp [inRange, demoRecord, Record.date, mkDT_le]
  obtain ⟨t, h, h0, h1, h2⟩ := C73_levels (b := mkDT 2018 6 12 0 0) (e := mkDT 2018 6 12 23 0)
    (rs := [demoRecord 11, demoRecord 12])
    (by
      intro r hr
      simp at hr
      rcases hr with rfl | rfl <;> exact demoRecord_valid (by norm_num))
    (by simp [demoRecord, Record.date, mkDT_le]) (by rw [hr]; simp)
  have hrow : rowsOf [demoRecord 12] = [(mkDT 2018 6 12 12 0, demoLevel)] := by
    have h1 : demoLevel.hasData = true := rfl
    have h2 : demoDry.hasData = false := rfl
    simp [rowsOf, demoRecord, h1, h2, Record.date]
  rw [hr, hrow] at h1 h2
  obtain ⟨-, -, -, h3, -, -, h4, h5, -⟩ := h2
  refine ⟨t, h, h0, by simpa using h1, ?_, ?_, ?_⟩
  · rw [h3]; norm_num [demoLevel, Entry.scaled]
  · rw [h5]; norm_num [demoLevel, Level.dewpoint]
  · rw [h4]; simp [demoLevel, Entry.scaled]

end Verif.Props
