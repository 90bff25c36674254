import Verif.Model.Igra
import Mathlib.Tactic.Ring
import Mathlib.Tactic.Linarith
import Mathlib.Tactic.LinearCombination
import Mathlib.Tactic.IntervalCases
import Mathlib.Tactic.FieldSimp
import Mathlib.Tactic.NormNum

/-!
# Radiosonde archive files: C62–C66
-/

namespace Verif.Props

open Verif.Py Verif.Model

/-! ### Date-range selection (C62) -/

/-- A sounding of an archive: its header line, its body lines and its time. -/
structure Sounding where
  header : List Char
  body : List (List Char)
  date : DT

/-- The header carries the time and the number of body lines, and only it starts with `#`. -/
structure Sounding.WF (s : Sounding) : Prop where
  head : ∃ cs, s.header = '#' :: cs
  date : headerDate s.header = .ok s.date
  levels : headerLevels s.header = .ok s.body.length
  body : ∀ l ∈ s.body, ∃ c cs, l = c :: cs ∧ c ≠ '#'

def Sounding.lines (s : Sounding) : List (List Char) := s.header :: s.body

/-- The lines of a file. -/
def fileLines (a : List Sounding) : List (List Char) := a.flatMap Sounding.lines

/-- The soundings of an archive with a time in the closed range. -/
def between (b e : DT) (a : List Sounding) : List Sounding := a.filter fun s => b ≤ s.date ∧ s.date ≤ e

/-- Where the headers of the soundings are, the file starting at line `k`. -/
def heads : ℕ → List Sounding → List (ℕ × ℤ × DT)
  | _, [] => []
  | k, s :: a => (k, (s.body.length : ℤ), s.date) :: heads (k + 1 + s.body.length) a

theorem scan_body (b e : DT) (body rest : List (List Char)) (h : ∀ l ∈ body, ∃ c cs, l = c :: cs ∧ c ≠ '#') (k : ℕ)
    (acc : List (ℕ × ℤ × DT)) :
    scanLines b e k (body ++ rest) acc = scanLines b e (k + body.length) rest acc := by
  induction body generalizing k with
  | nil => rfl
  | cons l body ih =>
    obtain ⟨c, cs, rfl, hc⟩ := h l (by simp)
    rw [List.cons_append, scanLines, if_neg hc, ih (fun l hl => h l (by simp [hl]))]
    congr 1
    simp only [List.length_cons]
    omega

theorem scan_header (b e : DT) {s : Sounding} (h : s.WF) (rest : List (List Char)) (k : ℕ) (acc : List (ℕ × ℤ × DT)) :
    scanLines b e k (s.header :: rest) acc =
      if e < s.date then .ok acc
      else if b ≤ s.date then scanLines b e (k + 1) rest (acc ++ [(k, (s.body.length : ℤ), s.date)])
      else scanLines b e (k + 1) rest acc := by
  obtain ⟨cs, hcs⟩ := h.head
  have hd := h.date
  have hl := h.levels
  rw [hcs] at hd hl ⊢
  rw [scanLines, if_pos rfl, hd, hl]
  by_cases h1 : e < s.date
  · have : ¬ (b ≤ s.date ∧ s.date ≤ e) := fun h => absurd h1 (not_lt.mpr h.2)
    simp [h1, this, bind, Except.bind, pure, Except.pure]
  · by_cases h2 : b ≤ s.date
    · have : b ≤ s.date ∧ s.date ≤ e := ⟨h2, not_lt.mp h1⟩
      simp [h1, this, bind, Except.bind, pure, Except.pure]
    · have : ¬ (b ≤ s.date ∧ s.date ≤ e) := fun h => h2 h.1
      simp [h1, h2, bind, Except.bind, pure, Except.pure]

theorem scan_sounding (b e : DT) {s : Sounding} (h : s.WF) (rest : List (List Char)) (k : ℕ)
    (acc : List (ℕ × ℤ × DT)) :
    scanLines b e k (s.lines ++ rest) acc =
      if e < s.date then .ok acc
      else if b ≤ s.date then
        scanLines b e (k + 1 + s.body.length) rest (acc ++ [(k, (s.body.length : ℤ), s.date)])
      else scanLines b e (k + 1 + s.body.length) rest acc := by
  rw [Sounding.lines, List.cons_append, scan_header b e h, scan_body b e _ _ h.body, scan_body b e _ _ h.body]

theorem fileLines_cons (s : Sounding) (a : List Sounding) : fileLines (s :: a) = s.lines ++ fileLines a := rfl

theorem fileLines_append (a b : List Sounding) : fileLines (a ++ b) = fileLines a ++ fileLines b := by
  simp [fileLines]

theorem scan_pre (b e : DT) (hbe : b ≤ e) (pre rest : List Sounding) (hpre : ∀ s ∈ pre, s.WF ∧ s.date < b) (k : ℕ)
    (acc : List (ℕ × ℤ × DT)) :
    scanLines b e k (fileLines (pre ++ rest)) acc =
      scanLines b e (k + (fileLines pre).length) (fileLines rest) acc := by
  induction pre generalizing k with
  | nil => rfl
  | cons s pre ih =>
    obtain ⟨hw, hd⟩ := hpre s (by simp)
    rw [List.cons_append, fileLines_cons, scan_sounding b e hw, if_neg (not_lt.mpr (hd.le.trans hbe)),
      if_neg (not_le.mpr hd), ih fun s hs => hpre s (by simp [hs])]
    congr 1
    simp [fileLines_cons, Sounding.lines]
    omega

theorem scan_mid (b e : DT) (mid rest : List Sounding) (hmid : ∀ s ∈ mid, s.WF ∧ b ≤ s.date ∧ s.date ≤ e) (k : ℕ)
    (acc : List (ℕ × ℤ × DT)) :
    scanLines b e k (fileLines (mid ++ rest)) acc =
      scanLines b e (k + (fileLines mid).length) (fileLines rest) (acc ++ heads k mid) := by
  induction mid generalizing k acc with
  | nil => simp [fileLines, heads]
  | cons s mid ih =>
    obtain ⟨hw, hb, he⟩ := hmid s (by simp)
    rw [List.cons_append, fileLines_cons, scan_sounding b e hw, if_neg (not_lt.mpr he), if_pos hb,
      ih fun s hs => hmid s (by simp [hs])]
    congr 1
    · simp [fileLines_cons, Sounding.lines]
      omega
    · simp [heads]

theorem scan_post (b e : DT) (post : List Sounding) (hpost : ∀ s ∈ post, s.WF ∧ e < s.date) (k : ℕ)
    (acc : List (ℕ × ℤ × DT)) : scanLines b e k (fileLines post) acc = .ok acc := by
  cases post with
  | nil => rfl
  | cons s post =>
    obtain ⟨hw, hd⟩ := hpost s (by simp)
    rw [fileLines_cons, scan_sounding b e hw, if_pos hd]

/-- A chronological archive is what lies before, in and after the range. -/
theorem split_range (b e : DT) (a : List Sounding) (hs : (a.map Sounding.date).Pairwise (· ≤ ·)) :
    ∃ pre post, a = pre ++ between b e a ++ post ∧ (∀ s ∈ pre, s.date < b) ∧ (∀ s ∈ post, e < s.date) := by
  induction a with
  | nil => exact ⟨[], [], rfl, by simp, by simp⟩
  | cons s a ih =>
    rw [List.map_cons, List.pairwise_cons] at hs
    obtain ⟨pre, post, h1, h2, h3⟩ := ih hs.2
    by_cases c1 : s.date < b
    · refine ⟨s :: pre, post, ?_, ?_, h3⟩
      · have : between b e (s :: a) = between b e a := by
          simp [between, not_le.mpr c1]
        rw [this, List.cons_append, List.cons_append, ← h1]
      · intro x hx
        rcases List.mem_cons.mp hx with rfl | hx
        · exact c1
        · exact h2 x hx
    · by_cases c2 : e < s.date
      · refine ⟨[], s :: a, ?_, by simp, ?_⟩
        · have : between b e (s :: a) = [] := by
            rw [between, List.filter_eq_nil_iff]
            intro x hx
            have hle : s.date ≤ x.date := by
              rcases List.mem_cons.mp hx with rfl | hx
              · exact le_rfl
              · exact hs.1 _ (List.mem_map_of_mem hx)
            simp [not_le.mpr (c2.trans_le hle)]
          rw [this]; rfl
        · intro x hx
          rcases List.mem_cons.mp hx with rfl | hx
          · exact c2
          · exact c2.trans_le (hs.1 _ (List.mem_map_of_mem hx))
      · have hin : between b e (s :: a) = s :: between b e a := by
          simp [between, not_lt.mp c1, not_lt.mp c2]
        cases pre with
        | nil => exact ⟨[], post, by rw [hin]; simpa using h1, by simp, h3⟩
        | cons x pre =>
          have hx := h2 x (by simp)
          have : s.date ≤ x.date := hs.1 _ (List.mem_map_of_mem (by rw [h1]; simp))
          exact absurd (this.trans_lt hx) c1

theorem compress_append (sel : ℕ → Bool) (k : ℕ) (x y : List (List Char)) :
    compress sel k (x ++ y) = compress sel k x ++ compress sel (k + x.length) y := by
  induction x generalizing k with
  | nil => rfl
  | cons l x ih =>
    rw [List.cons_append, compress, compress, ih]
    split_ifs <;> simp [Nat.add_assoc, Nat.add_comm 1]

theorem compress_none (sel : ℕ → Bool) (k : ℕ) (x : List (List Char)) (h : ∀ i, k ≤ i → i < k + x.length → sel i = false) :
    compress sel k x = [] := by
  induction x generalizing k with
  | nil => rfl
  | cons l x ih =>
    rw [compress, if_neg (by simp [h k le_rfl (by simp)])]
    exact ih (k + 1) fun i h1 h2 => h i (by omega) (by simp; omega)

theorem compress_all (sel : ℕ → Bool) (k : ℕ) (x : List (List Char)) (h : ∀ i, k ≤ i → i < k + x.length → sel i = true) :
    compress sel k x = x := by
  induction x generalizing k with
  | nil => rfl
  | cons l x ih =>
    rw [compress, if_pos (h k le_rfl (by simp))]
    rw [ih (k + 1) fun i h1 h2 => h i (by omega) (by simp; omega)]

theorem heads_ge (k : ℕ) (a : List Sounding) : ∀ x ∈ heads k a, k ≤ x.1 := by
  induction a generalizing k with
  | nil => simp [heads]
  | cons s a ih =>
    intro x hx
    rw [heads, List.mem_cons] at hx
    rcases hx with rfl | hx
    · exact le_rfl
    · have := ih _ x hx; omega

theorem compress_mid (sel : ℕ → Bool) (k : ℕ) (a : List Sounding)
    (h : ∀ i, k ≤ i → i < k + (fileLines a).length → (sel i = true ↔ i ∈ (heads k a).map Prod.fst)) :
    compress sel k (fileLines a) = a.map Sounding.header ∧
    compress (fun i => !sel i) k (fileLines a) = a.flatMap Sounding.body := by
  induction a generalizing k with
  | nil => exact ⟨rfl, rfl⟩
  | cons s a ih =>
    have hlen : (fileLines (s :: a)).length = 1 + s.body.length + (fileLines a).length := by
      simp [fileLines_cons, Sounding.lines]; omega
    rw [hlen] at h
    have hk : sel k = true := (h k le_rfl (by omega)).mpr (by simp [heads])
    have hbody : ∀ i, k + 1 ≤ i → i < k + 1 + s.body.length → sel i = false := by
      intro i h1 h2
      rw [← Bool.not_eq_true]
      intro hc
      obtain ⟨x, hx, rfl⟩ := List.mem_map.mp ((h i (by omega) (by omega)).mp hc)
      rw [heads, List.mem_cons] at hx
      rcases hx with rfl | hx
      · simp at h1
      · have := heads_ge _ _ x hx
        omega
    obtain ⟨i1, i2⟩ := ih (k + 1 + s.body.length) fun i h1 h2 => by
      rw [h i (by omega) (by omega), heads, List.map_cons, List.mem_cons]
      constructor
      · rintro (h' | h')
        · omega
        · exact h'
      · exact .inr
    have e1 : k + s.lines.length = k + 1 + s.body.length := by simp [Sounding.lines]; omega
    rw [fileLines_cons, compress_append, compress_append, e1, i1, i2]
    constructor
    · rw [Sounding.lines, compress, if_pos hk, compress_none _ _ _ hbody]
      rfl
    · rw [Sounding.lines, compress, if_neg (by simp [hk]),
        compress_all _ _ _ fun i h1 h2 => by simp [hbody i h1 h2]]
      rfl

theorem heads_last (k : ℕ) (a : List Sounding) (h : heads k a ≠ []) :
    (((heads k a).getLast h).1 : ℤ) + ((heads k a).getLast h).2.1 + 1 = k + (fileLines a).length := by
  induction a generalizing k with
  | nil => exact absurd rfl h
  | cons s a ih =>
    cases a with
    | nil =>
      simp [heads, fileLines, Sounding.lines]; ring
    | cons t a =>
      have := ih (k + 1 + s.body.length) (by simp [heads])
      simp only [heads] at this ⊢
      rw [List.getLast_cons (by simp), this]
      simp [fileLines_cons, Sounding.lines]
      ring

theorem heads_dates (k : ℕ) (a : List Sounding) :
    (heads k a).map (fun x => x.2.2) = a.map Sounding.date ∧
    ((heads k a).map fun x => (x.2.2, x.2.1)) = a.map fun s => (s.date, (s.body.length : ℤ)) := by
  induction a generalizing k with
  | nil => exact ⟨rfl, rfl⟩
  | cons s a ih => simp [heads, ih]

theorem repeat_ok (a : List Sounding) : npRepeat (a.map fun s => (s.date, (s.body.length : ℤ))) =
    .ok (a.flatMap fun s => List.replicate s.body.length s.date) := by
  rw [npRepeat, if_pos]
  · simp [List.flatMap_map]
  · intro x hx
    obtain ⟨s, _, rfl⟩ := List.mem_map.mp hx
    simp

/-- Selecting a date range from a chronological archive gives the body lines and the header lines of exactly the
soundings in the closed range, in order, one date for every body line and the dates of the soundings; when there are none
it raises. -/
theorem C62_select (b e : DT) (a : List Sounding) (hw : ∀ s ∈ a, s.WF)
    (hs : (a.map Sounding.date).Pairwise (· ≤ ·)) :
    selectDateRange b e (fileLines a) =
      if between b e a = [] then .error .valueError
      else .ok (((between b e a).flatMap Sounding.body).flatten, ((between b e a).map Sounding.header).flatten,
        (between b e a).flatMap fun s => List.replicate s.body.length s.date, (between b e a).map Sounding.date) := by
  rcases lt_or_ge e b with hbe | hbe
  · -- an empty range
    have hnone : between b e a = [] := by
      rw [between, List.filter_eq_nil_iff]
      intro s _
      simp only [decide_eq_true_eq, not_and, not_le]
      exact fun h => hbe.trans_le h
    have hscan : ∀ (a : List Sounding), (∀ s ∈ a, s.WF) → ∀ k, scanLines b e k (fileLines a) [] = .ok [] := by
      intro a
      induction a with
      | nil => intro _ k; rfl
      | cons s a ih =>
        intro hw k
        rw [fileLines_cons, scan_sounding b e (hw s (by simp))]
        by_cases h1 : e < s.date
        · rw [if_pos h1]
        · rw [if_neg h1, if_neg (not_le.mpr ((not_lt.mp h1).trans_lt hbe)), ih fun s hs => hw s (by simp [hs])]
    rw [if_pos hnone, selectDateRange, hscan a hw]
    rfl
  · obtain ⟨pre, post, h1, h2, h3⟩ := split_range b e a hs
    set mid := between b e a with hmid
    have hmidr : ∀ s ∈ mid, b ≤ s.date ∧ s.date ≤ e := by
      intro s hs
      rw [hmid, between, List.mem_filter] at hs
      simpa using hs.2
    have hscan : scanLines b e 0 (fileLines a) [] = .ok (heads (fileLines pre).length mid) := by
      rw [h1, List.append_assoc,
        scan_pre b e hbe pre (mid ++ post) fun s hs => ⟨hw s (by rw [h1]; simp [hs]), h2 s hs⟩,
        scan_mid b e mid post fun s hs => ⟨hw s (by rw [h1]; simp [hs]), hmidr s hs⟩,
        scan_post b e post fun s hs => ⟨hw s (by rw [h1]; simp [hs]), h3 s hs⟩]
      simp
    clear_value mid
    rw [selectDateRange, hscan]
    cases mid with
    | nil => simp [heads, bind, Except.bind]
    | cons s mid =>
      rw [if_neg (by simp)]
      set P := (fileLines pre).length with hP
      have hH : heads P (s :: mid) = (P, (s.body.length : ℤ), s.date) :: heads (P + 1 + s.body.length) mid := rfl
      have hlast := heads_last P (s :: mid) (by rw [hH]; simp)
      obtain ⟨d1, d2⟩ := heads_dates P (s :: mid)
      simp only [bind, Except.bind, hH] at *
      have hlines : fileLines a = fileLines pre ++ (fileLines (s :: mid) ++ fileLines post) := by
        rw [h1, fileLines_append, fileLines_append, List.append_assoc]
      have hlen : (fileLines a).length = P + (fileLines (s :: mid)).length + (fileLines post).length := by
        rw [hlines]; simp [hP]; omega
      have hlo : sliceBound (fileLines a).length (P : ℤ) = P := by
        rw [sliceBound, if_neg (by omega)]; simp; omega
      have hhi : sliceBound (fileLines a).length (P + (fileLines (s :: mid)).length : ℤ) =
          P + (fileLines (s :: mid)).length := by
        rw [sliceBound, if_neg (by omega), hlen]; omega
      rw [hlast, hlo, hhi, d1, d2, repeat_ok]
      simp only [pure, Except.pure]
      set H := (P, (s.body.length : ℤ), s.date) :: heads (P + 1 + s.body.length) mid with hHd
      have hcomp : ∀ sel : ℕ → Bool, (∀ i < P, sel i = false) →
          (∀ i, P + (fileLines (s :: mid)).length ≤ i → sel i = false) →
          compress sel 0 (fileLines a) = compress sel P (fileLines (s :: mid)) := by
        intro sel s1 s2
        rw [hlines, compress_append, compress_append, compress_none _ 0 _ fun i _ h => s1 i (by omega),
          compress_none sel (0 + (fileLines pre).length + _) _ fun i h _ => s2 i (by omega)]
        simp [hP]
      have hcongr : ∀ (f g : ℕ → Bool) (x : List (List Char)) (k : ℕ), (∀ i, k ≤ i → i < k + x.length → f i = g i) →
          compress f k x = compress g k x := by
        intro f g x
        induction x with
        | nil => intros; rfl
        | cons l x ih =>
          intro k h
          rw [compress, compress, h k le_rfl (by simp), ih (k + 1) fun i h1 h2 => h i (by omega) (by simp; omega)]
      obtain ⟨m1, m2⟩ := compress_mid (fun i => decide (i ∈ H.map Prod.fst)) P (s :: mid) fun i _ _ => by
        rw [hH]; simp
      congr 2
      · rw [hcomp _ (fun i hi => by simp; omega) (fun i hi => by simp; omega), ← m2]
        congr 1
        exact hcongr _ _ _ _ fun i h1 h2 => by simp [h1, h2]
      · congr 1
        rw [hcomp _ (fun i hi => by simp; omega) (fun i hi => by simp; omega), ← m1]
        congr 1
        exact hcongr _ _ _ _ fun i h1 h2 => by simp [h1, h2]

/-! ### Digits and fields -/

/-- The character of a digit. -/
def dig (k : ℕ) : Char := Char.ofNat (48 + k)

theorem dig_spec {k : ℕ} (h : k < 10) : digitVal (dig k) = some k ∧ isSpace (dig k) = false ∧ dig k ≠ '-' ∧
    dig k ≠ '+' ∧ dig k ≠ '#' ∧ dig k ≠ '.' := by
  interval_cases k <;> decide

theorem digits_map {ds : List ℕ} (h : ∀ k ∈ ds, k < 10) : digits (ds.map dig) = some ds := by
  induction ds with
  | nil => rfl
  | cons k ds ih =>
    have h1 := (dig_spec (h k (by simp))).1
    have h2 := ih fun k hk => h k (by simp [hk])
    unfold digits at h2 ⊢
    rw [List.map_cons, List.mapM_cons, h1, h2]
    rfl

theorem natOf_map {ds : List ℕ} (h : ∀ k ∈ ds, k < 10) (hne : ds ≠ []) : natOf (ds.map dig) = some (ofDigits ds) := by
  rw [natOf, if_neg (by simpa using hne), digits_map h]
  rfl

theorem dropWhile_digits {ds : List ℕ} (h : ∀ k ∈ ds, k < 10) : (ds.map dig).dropWhile isSpace = ds.map dig := by
  cases ds with
  | nil => rfl
  | cons k ds => rw [List.map_cons, List.dropWhile_cons_of_neg]; simp [(dig_spec (h k (by simp))).2.1]

theorem strip_digits (n : ℕ) {ds : List ℕ} (h : ∀ k ∈ ds, k < 10) :
    strip (List.replicate n ' ' ++ ds.map dig) = ds.map dig := by
  have h1 : (List.replicate n ' ' ++ ds.map dig).dropWhile isSpace = ds.map dig := by
    induction n with
    | zero => simpa using dropWhile_digits h
    | succ n ih => rw [List.replicate_succ, List.cons_append, List.dropWhile_cons_of_pos (by decide), ih]
  rw [strip, h1, ← List.map_reverse, dropWhile_digits fun k hk => h k (List.mem_reverse.mp hk), ← List.map_reverse,
    List.reverse_reverse]

/-- `int` reads right-justified decimal fields. -/
theorem pyInt_field (n : ℕ) {ds : List ℕ} (h : ∀ k ∈ ds, k < 10) (hne : ds ≠ []) :
    pyInt (List.replicate n ' ' ++ ds.map dig) = .ok (ofDigits ds : ℤ) := by
  rw [pyInt, strip_digits n h]
  have hn := natOf_map h hne
  cases ds with
  | nil => exact absurd rfl hne
  | cons k ds =>
    obtain ⟨_, _, h3, h4, _⟩ := dig_spec (h k (by simp))
    rw [List.map_cons] at hn ⊢
    split
    · rename_i t heq; injection heq with h1 _; exact absurd h1 h3
    · rename_i t heq; injection heq with h1 _; exact absurd h1 h4
    · rw [hn]

theorem pyInt_digits {ds : List ℕ} (h : ∀ k ∈ ds, k < 10) (hne : ds ≠ []) :
    pyInt (ds.map dig) = .ok (ofDigits ds : ℤ) := by
  simpa using pyInt_field 0 h hne

theorem splitWs_word {w : List Char} (hw : ∀ c ∈ w, isSpace c = false) (hne : w ≠ []) (rest : List Char) :
    splitWs (w ++ ' ' :: rest) = w :: splitWs rest := by
  induction w with
  | nil => exact absurd rfl hne
  | cons c w ih =>
    have hc := hw c (by simp)
    cases w with
    | nil =>
      simp [splitWs, hc, show isSpace ' ' = true by decide]
    | cons c' w =>
      have hc' := hw c' (by simp)
      have := ih (fun c hc => hw c (by simp [hc])) (by simp)
      rw [List.cons_append] at this
      rw [List.cons_append, List.cons_append, splitWs, if_neg (by simp [hc])]
      simp only [hc', Bool.false_eq_true, if_false, this]

theorem splitWs_last {w : List Char} (hw : ∀ c ∈ w, isSpace c = false) (hne : w ≠ []) : splitWs w = [w] := by
  induction w with
  | nil => exact absurd rfl hne
  | cons c w ih =>
    have hc := hw c (by simp)
    cases w with
    | nil => simp [splitWs, hc]
    | cons c' w =>
      have hc' := hw c' (by simp)
      have := ih (fun c hc => hw c (by simp [hc])) (by simp)
      rw [splitWs, if_neg (by simp [hc])]
      simp only [hc', Bool.false_eq_true, if_false, this]

theorem slice_mid {p m r : List Char} {a b : ℕ} (ha : p.length = a) (hb : a + m.length = b) :
    slice (p ++ (m ++ r)) a b = m := by
  subst ha hb
  rw [slice, List.take_append, List.take_of_length_le (by omega)]
  simp

/-- Two, four digits of a number. -/
def two (n : ℕ) : List ℕ := [n / 10 % 10, n % 10]
def four (n : ℕ) : List ℕ := [n / 1000 % 10, n / 100 % 10, n / 10 % 10, n % 10]

theorem two_spec {n : ℕ} (h : n < 100) : (∀ k ∈ two n, k < 10) ∧ ofDigits (two n) = n := by
  constructor
  · intro k hk
    simp [two] at hk
    omega
  · simp [two, ofDigits]; omega

theorem four_spec {n : ℕ} (h : n < 10000) : (∀ k ∈ four n, k < 10) ∧ ofDigits (four n) = n := by
  constructor
  · intro k hk
    simp [four] at hk
    omega
  · simp [four, ofDigits]; omega

theorem nospace {ds : List ℕ} (h : ∀ k ∈ ds, k < 10) : ∀ c ∈ ds.map dig, isSpace c = false := by
  intro c hc
  obtain ⟨k, hk, rfl⟩ := List.mem_map.mp hc
  exact (dig_spec (h k hk)).2.1

/-- A header line of the archive: station, year, month, day, hour, release time, number of levels (right-justified in
four columns), rest. -/
def headerLine (site : List Char) (y m d h : ℕ) (rel : List Char) (pad : ℕ) (lev : List ℕ) (rest : List Char) :
    List Char :=
  '#' :: site ++ ' ' :: ((four y).map dig ++ ' ' :: ((two m).map dig ++ ' ' :: ((two d).map dig ++ ' ' ::
    ((two h).map dig ++ ' ' :: (rel ++ ' ' :: (List.replicate pad ' ' ++ lev.map dig ++ rest))))))

/-- Lengths of the months of a year of the Gregorian calendar, as printed in an almanac. -/
def monthLengths (leap : Bool) : List ℕ := [31, if leap then 29 else 28, 31, 30, 31, 30, 31, 31, 30, 31, 30, 31]

/-- Leap years: divisible by 400, or divisible by 4 but not by 100. -/
def leapYear (y : ℕ) : Bool := 400 ∣ y ∨ (4 ∣ y ∧ ¬ 100 ∣ y)

/-- Day `d` exists in month `m` of year `y`. -/
def DayExists (y m d : ℕ) : Prop := 1 ≤ m ∧ 1 ≤ d ∧ ∃ n, (monthLengths (leapYear y))[m - 1]? = some n ∧ d ≤ n

theorem dayExists_iff {y m d : ℕ} : DayExists y m d ↔ (1 ≤ m ∧ m ≤ 12) ∧ 1 ≤ d ∧ d ≤ daysIn y m := by
  have hl : leapYear y = true ↔ y % 4 = 0 ∧ (y % 100 ≠ 0 ∨ y % 400 = 0) := by
    unfold leapYear
    rw [decide_eq_true_iff]
    omega
  unfold DayExists daysIn monthLengths
  constructor
  · rintro ⟨h1, h2, n, h3, h4⟩
    have h5 := (List.getElem?_eq_some_iff.1 h3).1
    simp only [List.length_cons, List.length_nil] at h5
    refine ⟨⟨h1, by omega⟩, h2, ?_⟩
    obtain ⟨m, rfl⟩ : ∃ k, m = k + 1 := ⟨m - 1, by omega⟩
    simp only [Nat.add_sub_cancel] at h3 h5
    simp only [hl] at h3
    interval_cases m <;> simp at h3 ⊢ <;> (try split_ifs at h3 ⊢) <;> omega
  · rintro ⟨⟨h1, h2⟩, h3, h4⟩
    refine ⟨h1, h3, _, ?_, h4⟩
    obtain ⟨m, rfl⟩ : ∃ k, m = k + 1 := ⟨m - 1, by omega⟩
    simp only [Nat.add_sub_cancel, hl]
    have : m < 12 := by omega
    interval_cases m <;> simp

/-- What is read from a header line: the time (midnight when the hour is not an hour, such as 99) and the number of
levels. -/
theorem C62_header {site rel rest : List Char} {y m d h pad : ℕ} {lev : List ℕ} (hsite : site.length = 11)
    (hrel : rel.length = 4) (hlev : pad + lev.length = 4) (hlev1 : lev ≠ []) (hdig : ∀ k ∈ lev, k < 10)
    (hy : 1 ≤ y ∧ y ≤ 9999) (hdate : DayExists y m d) (hh : h < 100) :
    headerDate (headerLine site y m d h rel pad lev rest) = .ok (mkDT y m d (if h ≤ 23 then h else 0) 0) ∧
    headerLevels (headerLine site y m d h rel pad lev rest) = .ok (ofDigits lev : ℤ) := by
  obtain ⟨hm, hd⟩ := dayExists_iff.1 hdate
  have hd31 : d < 100 := by
    have : daysIn y m ≤ 31 := by unfold daysIn; split_ifs <;> omega
    omega
  obtain ⟨y1, y2⟩ := four_spec (n := y) (by omega)
  obtain ⟨m1, m2⟩ := two_spec (n := m) (by omega)
  obtain ⟨d1, d2⟩ := two_spec (n := d) hd31
  obtain ⟨h1, h2⟩ := two_spec (n := h) hh
  have hslice : slice (headerLine site y m d h rel pad lev rest) 13 26 =
      (four y).map dig ++ ' ' :: ((two m).map dig ++ ' ' :: ((two d).map dig ++ ' ' :: (two h).map dig)) := by
    have e : headerLine site y m d h rel pad lev rest = ('#' :: site ++ [' ']) ++
        (((four y).map dig ++ ' ' :: ((two m).map dig ++ ' ' :: ((two d).map dig ++ ' ' :: (two h).map dig))) ++
          (' ' :: (rel ++ ' ' :: (List.replicate pad ' ' ++ lev.map dig ++ rest)))) := by
      simp [headerLine]
    rw [e]
    exact slice_mid (by simp [hsite]) (by simp [four, two])
  have hslice2 : slice (headerLine site y m d h rel pad lev rest) 32 36 = List.replicate pad ' ' ++ lev.map dig := by
    have e : headerLine site y m d h rel pad lev rest = ('#' :: site ++ ' ' :: ((four y).map dig ++ ' ' ::
        ((two m).map dig ++ ' ' :: ((two d).map dig ++ ' ' :: ((two h).map dig ++ ' ' :: (rel ++ [' '])))))) ++
          ((List.replicate pad ' ' ++ lev.map dig) ++ rest) := by
      simp [headerLine]
    rw [e]
    exact slice_mid (by simp [hsite, hrel, four, two]) (by simp; omega)
  constructor
  · rw [headerDate, hslice, splitWs_word (nospace y1) (by simp [four]), splitWs_word (nospace m1) (by simp [two]),
      splitWs_word (nospace d1) (by simp [two]), splitWs_last (nospace h1) (by simp [two])]
    simp only [List.mapM_cons, List.mapM_nil, pyInt_digits y1 (by simp [four]), pyInt_digits m1 (by simp [two]),
      pyInt_digits d1 (by simp [two]), pyInt_digits h1 (by simp [two]), y2, m2, d2, h2, bind, Except.bind, pure,
      Except.pure]
    by_cases h23 : h ≤ 23
    · rw [datetime, if_pos (by simp; omega), if_pos h23]
      simp
    · rw [datetime, if_neg (by simp; omega), if_neg h23, datetime, if_pos (by simp; omega)]
      simp
  · rw [headerLevels, hslice2, pyInt_field pad hdig hlev1]

/-- Every sounding with between 1 and 9999 levels, written with a header line of this form, is well formed. -/
theorem C62_wellformed {site rel rest : List Char} {y m d h pad : ℕ} {lev : List ℕ} {body : List (List Char)}
    (hsite : site.length = 11) (hrel : rel.length = 4) (hlev : pad + lev.length = 4) (hlev1 : lev ≠ [])
    (hdig : ∀ k ∈ lev, k < 10) (hy : 1 ≤ y ∧ y ≤ 9999) (hdate : DayExists y m d)
    (hh : h < 100) (hn : body.length = ofDigits lev) (hbody : ∀ l ∈ body, ∃ c cs, l = c :: cs ∧ c ≠ '#') :
    Sounding.WF ⟨headerLine site y m d h rel pad lev rest, body, mkDT y m d (if h ≤ 23 then h else 0) 0⟩ := by
  obtain ⟨h1, h2⟩ := C62_header (rest := rest) hsite hrel hlev hlev1 hdig hy hdate hh
  exact ⟨⟨_, rfl⟩, h1, by rw [h2, hn], hbody⟩

/-- The leap day of 2000 exists, those of 1900 and 2023 do not. -/
example : DayExists 2000 2 29 ∧ ¬ DayExists 1900 2 29 ∧ ¬ DayExists 2023 2 29 := by
  refine ⟨⟨by norm_num, by norm_num, 29, by decide, le_rfl⟩, ?_, ?_⟩ <;>
  · rintro ⟨-, -, n, h, h'⟩
    have : n = 28 := by
      simpa [monthLengths, leapYear] using h.symm
    omega

/-- A sounding of station USM00072201 with one body line for a given day of June 2018. -/
def demoSounding (d h : ℕ) : Sounding :=
  ⟨headerLine "USM00072201".toList 2018 6 d h "2302".toList 3 [1] " ncdc\n".toList, ["21 -9999 101300\n".toList],
    mkDT 2018 6 d (if h ≤ 23 then h else 0) 0⟩

theorem demoSounding_wf {d h : ℕ} (hd : 1 ≤ d ∧ d ≤ 30) (hh : h < 100) : (demoSounding d h).WF :=
  C62_wellformed rfl rfl rfl (by simp) (by simp) (by norm_num)
    ⟨by norm_num, hd.1, 30, rfl, hd.2⟩ hh rfl
    (by intro l hl; simp at hl; subst hl; exact ⟨_, _, rfl, by decide⟩)

theorem mkDT_le {y m d h y' m' d' h' : ℕ} : mkDT y m d h 0 ≤ mkDT y' m' d' h' 0 ↔
    y < y' ∨ y = y' ∧ (m < m' ∨ m = m' ∧ (d < d' ∨ d = d' ∧ h ≤ h')) := by
  simp only [mkDT, Prod.Lex.toLex_le_toLex, le_refl, and_true]
  constructor
  · rintro (h | ⟨h, h | ⟨h2, h | ⟨h3, h | h⟩⟩⟩) <;> omega
  · rintro (h | ⟨h1, h | ⟨h2, h | ⟨h3, h⟩⟩⟩)
    · exact .inl h
    · exact .inr ⟨h1, .inl h⟩
    · exact .inr ⟨h1, .inr ⟨h2, .inl h⟩⟩
    · exact .inr ⟨h1, .inr ⟨h2, .inr ⟨h3, h.lt_or_eq⟩⟩⟩

/-- Three soundings, the middle one selected. -/
example : ∃ r, selectDateRange (mkDT 2018 6 12 12 0) (mkDT 2018 6 12 23 0)
    (fileLines [demoSounding 12 0, demoSounding 12 12, demoSounding 13 0]) = .ok r ∧
    r.2.2.2 = [mkDT 2018 6 12 12 0] ∧ r.1 = "21 -9999 101300\n".toList := by
  have h := C62_select (mkDT 2018 6 12 12 0) (mkDT 2018 6 12 23 0)
    [demoSounding 12 0, demoSounding 12 12, demoSounding 13 0]
    (by
      intro s hs
      simp at hs
      rcases hs with rfl | rfl | rfl <;> exact demoSounding_wf (by norm_num) (by norm_num))
    (by simp [demoSounding, mkDT_le])
  have hb : between (mkDT 2018 6 12 12 0) (mkDT 2018 6 12 23 0)
      [demoSounding 12 0, demoSounding 12 12, demoSounding 13 0] = [demoSounding 12 12] := by
    simp [between, demoSounding, mkDT_le]
  rw [hb, if_neg (by simp)] at h
  exact ⟨_, h, rfl, by simp [demoSounding]⟩

/-- Without the chronological order the selection is wrong: a sounding without an hour (99) counts as midnight; between
two selected soundings its header line ends up among the body lines, so that there are more body lines than dates. -/
theorem C62_unsorted_refuted : ∃ r, selectDateRange (mkDT 2018 6 12 12 0) (mkDT 2018 6 13 0 0)
    (fileLines [demoSounding 12 12, demoSounding 12 99, demoSounding 13 0]) = .ok r ∧
    r.1 = ((demoSounding 12 12).body ++ (demoSounding 12 99).lines ++ (demoSounding 13 0).body).flatten ∧
    r.2.2.1.length = 2 := by
  have hw : ∀ d h, 1 ≤ d ∧ d ≤ 30 → h < 100 → (demoSounding d h).WF := fun d h hd hh => demoSounding_wf hd hh
  have hscan : scanLines (mkDT 2018 6 12 12 0) (mkDT 2018 6 13 0 0) 0
      (fileLines [demoSounding 12 12, demoSounding 12 99, demoSounding 13 0]) [] =
      .ok [(0, 1, mkDT 2018 6 12 12 0), (4, 1, mkDT 2018 6 13 0 0)] := by
    rw [fileLines_cons, scan_sounding _ _ (hw 12 12 (by norm_num) (by norm_num)), fileLines_cons,
      scan_sounding _ _ (hw 12 99 (by norm_num) (by norm_num)),
      scan_sounding _ _ (hw 12 99 (by norm_num) (by norm_num)), fileLines_cons,
      scan_sounding _ _ (hw 13 0 (by norm_num) (by norm_num)), scan_sounding _ _ (hw 13 0 (by norm_num) (by norm_num)),
      scan_sounding _ _ (hw 13 0 (by norm_num) (by norm_num)), scan_sounding _ _ (hw 13 0 (by norm_num) (by norm_num))]
    have l1 : ¬ (mkDT 2018 6 13 0 0 < mkDT 2018 6 12 12 0) := not_lt.mpr (mkDT_le.mpr (by norm_num))
    have l2 : ¬ (mkDT 2018 6 13 0 0 < mkDT 2018 6 12 0 0) := not_lt.mpr (mkDT_le.mpr (by norm_num))
    have l3 : ¬ (mkDT 2018 6 12 12 0 ≤ mkDT 2018 6 12 0 0) := by rw [mkDT_le]; norm_num
    have l4 : mkDT 2018 6 12 12 0 ≤ mkDT 2018 6 13 0 0 := by rw [mkDT_le]; norm_num
    simp [demoSounding, l1, l2, l3, l4, fileLines, scanLines]
  rw [selectDateRange, hscan]
  refine ⟨_, rfl, ?_, rfl⟩
  simp [fileLines, Sounding.lines, demoSounding, compress, sliceBound, headerLine]

/-! ### Time fields (C63) -/

theorem zfill_digits (w : ℕ) {ds : List ℕ} (h : ∀ k ∈ ds, k < 10) :
    zfill w (ds.map dig) = (List.replicate (w - ds.length) 0 ++ ds).map dig := by
  have hz : ∀ n, List.replicate n '0' = (List.replicate n 0).map dig := by
    intro n; rw [List.map_replicate]; rfl
  cases ds with
  | nil => simp [zfill, hz]
  | cons k ds =>
    obtain ⟨_, _, h3, h4, _⟩ := dig_spec (h k (by simp))
    rw [List.map_cons, zfill]
    · simp [hz]
    · intro t heq; injection heq with h1 _; exact h3 h1
    · intro t heq; injection heq with h1 _; exact h4 h1

theorem five_digits {ds : List ℕ} (h : ∀ k ∈ ds, k < 10) (hlen : ds.length ≤ 5) :
    ∃ a b c d e, (∀ k ∈ [a, b, c, d, e], k < 10) ∧ zfill 5 (ds.map dig) = [a, b, c, d, e].map dig ∧
      ofDigits ds = 10000 * a + 1000 * b + 100 * c + 10 * d + e := by
  rw [zfill_digits 5 h]
  match ds, h, hlen with
  | [], _, _ => exact ⟨0, 0, 0, 0, 0, by simp, rfl, rfl⟩
  | [e], h, _ => exact ⟨0, 0, 0, 0, e, by simpa using h, rfl, by simp [ofDigits]⟩
  | [d, e], h, _ => exact ⟨0, 0, 0, d, e, by simpa using h, rfl, by simp [ofDigits]⟩
  | [c, d, e], h, _ => exact ⟨0, 0, c, d, e, by simpa using h, rfl, by simp [ofDigits]; ring⟩
  | [b, c, d, e], h, _ => exact ⟨0, b, c, d, e, by simpa using h, rfl, by simp [ofDigits]; ring⟩
  | [a, b, c, d, e], h, _ => exact ⟨a, b, c, d, e, by simpa using h, rfl, by simp [ofDigits]; ring⟩

/-- Reading a time field of up to five digits: with the digits `abcde` after padding. -/
theorem ctime_field (pad : ℕ) {ds : List ℕ} (h : ∀ k ∈ ds, k < 10) (hlen : ds.length ≤ 5) :
    ∃ a b c d e, (a < 10 ∧ b < 10 ∧ c < 10 ∧ d < 10 ∧ e < 10) ∧
      ofDigits ds = 10000 * a + 1000 * b + 100 * c + 10 * d + e ∧
      (ofDigits ds ≠ 9999 → ctime "MMMSS" (List.replicate pad ' ' ++ ds.map dig) =
        .ok (some (((100 * a + 10 * b + c : ℕ) : ℤ) * 60 + ((10 * d + e : ℕ) : ℤ))) ∧
      ctime "HHMM" (List.replicate pad ' ' ++ ds.map dig) =
        .ok (some (((10 * a + b : ℕ) : ℤ) * 3600 + ((10 * c + d : ℕ) : ℤ) * 60))) := by
  obtain ⟨a, b, c, d, e, hd, hz, hv⟩ := five_digits h hlen
  refine ⟨a, b, c, d, e, by simpa using hd, hv, fun hne => ?_⟩
  have hi : pyInt ([a, b, c, d, e].map dig) = .ok (ofDigits ds : ℤ) := by
    rw [pyInt_digits hd (by simp), hv]
    simp [ofDigits]; ring
  have i1 : pyInt (slice ([a, b, c, d, e].map dig) 0 3) = .ok ((100 * a + 10 * b + c : ℕ) : ℤ) := by
    rw [show slice ([a, b, c, d, e].map dig) 0 3 = [a, b, c].map dig from rfl,
      pyInt_digits (fun k hk => hd k (by simp at hk ⊢; tauto)) (by simp)]
    simp [ofDigits]; ring
  have i2 : pyInt (slice ([a, b, c, d, e].map dig) 3 5) = .ok ((10 * d + e : ℕ) : ℤ) := by
    rw [show slice ([a, b, c, d, e].map dig) 3 5 = [d, e].map dig from rfl,
      pyInt_digits (fun k hk => hd k (by simp at hk ⊢; tauto)) (by simp)]
    simp [ofDigits]
  have i3 : pyInt (slice ([a, b, c, d, e].map dig) 0 2) = .ok ((10 * a + b : ℕ) : ℤ) := by
    rw [show slice ([a, b, c, d, e].map dig) 0 2 = [a, b].map dig from rfl,
      pyInt_digits (fun k hk => hd k (by simp at hk ⊢; tauto)) (by simp)]
    simp [ofDigits]
  have i4 : pyInt (slice ([a, b, c, d, e].map dig) 2 4) = .ok ((10 * c + d : ℕ) : ℤ) := by
    rw [show slice ([a, b, c, d, e].map dig) 2 4 = [c, d].map dig from rfl,
      pyInt_digits (fun k hk => hd k (by simp at hk ⊢; tauto)) (by simp)]
    simp [ofDigits]
  have hneg : ¬ ((ofDigits ds : ℤ) < 0) := by omega
  have hne' : ¬ ((ofDigits ds : ℤ) = 9999) := by omega
  constructor
  · simp only [ctime, strip_digits pad h, hz, hi, bind, Except.bind, if_neg hneg, if_neg hne', if_true, i1, i2]
    rfl
  · simp only [ctime, strip_digits pad h, hz, hi, bind, Except.bind, if_neg hneg, if_neg hne', i3, i4,
      if_neg (show ¬ ("HHMM" = "MMMSS") by decide), if_true]
    rfl

/-- Elapsed times of up to 999 minutes, written with the seconds in the last two of at most five digits, leading zeros or
spaces as wished, are read as the right number of seconds. -/
theorem C63_elapsed {mm ss : ℕ} (hs : ss < 60) {pad : ℕ} {ds : List ℕ} (h : ∀ k ∈ ds, k < 10)
    (hlen : ds.length ≤ 5) (hv : ofDigits ds = 100 * mm + ss) :
    ctime "MMMSS" (List.replicate pad ' ' ++ ds.map dig) = .ok (some (60 * mm + ss)) := by
  obtain ⟨a, b, c, d, e, hd, h1, h2⟩ := ctime_field pad h hlen
  rw [(h2 (by omega)).1]
  congr 2
  omega

/-- Release times of up to four digits are read one digit to the left: `HHMM` as hour `0H` and minute `HM`. -/
theorem C63_release {hh mm : ℕ} (h2 : mm < 60) {pad : ℕ} {ds : List ℕ} (h : ∀ k ∈ ds, k < 10)
    (hlen : ds.length ≤ 5) (hv : ofDigits ds = 100 * hh + mm) :
    ctime "HHMM" (List.replicate pad ' ' ++ ds.map dig) =
      .ok (some ((hh / 10 : ℕ) * 3600 + (10 * (hh % 10) + mm / 10 : ℕ) * 60)) := by
  obtain ⟨a, b, c, d, e, hd, h3, h4⟩ := ctime_field pad h hlen
  have e1 : 10 * a + b = hh / 10 := by omega
  have e2 : 10 * c + d = 10 * (hh % 10) + mm / 10 := by omega
  rw [(h4 (by omega)).2, e1, e2]

/-- So a release time is read correctly at midnight only. -/
theorem C63_release_refuted {hh mm : ℕ} (h1 : hh < 24) (h2 : mm < 60) {pad : ℕ} {ds : List ℕ} (h : ∀ k ∈ ds, k < 10)
    (hlen : ds.length ≤ 5) (hv : ofDigits ds = 100 * hh + mm) :
    ctime "HHMM" (List.replicate pad ' ' ++ ds.map dig) = .ok (some (3600 * hh + 60 * mm)) ↔ hh = 0 ∧ mm = 0 := by
  rw [C63_release h2 h hlen hv]
  simp only [Except.ok.injEq, Option.some.injEq]
  interval_cases hh <;> omega

/-- Missing times are not a number; other formats end the program. -/
theorem C63_missing (fmt : String) : ctime fmt "-9999".toList = .ok none ∧ ctime fmt "-8888".toList = .ok none ∧
    ctime fmt " 9999".toList = .ok none ∧
    (fmt ≠ "MMMSS" → fmt ≠ "HHMM" → ctime fmt "2302".toList = .error .systemExit) := by
  refine ⟨rfl, rfl, rfl, fun h1 h2 => ?_⟩
  have e : pyInt (zfill 5 (strip "2302".toList)) = .ok 2302 := rfl
  simp only [ctime, e, bind, Except.bind, h1, h2, if_false]
  rfl

example : ctime "MMMSS" "  130".toList = .ok (some 90) :=
  C63_elapsed (mm := 1) (ss := 30) (by norm_num) (pad := 2) (ds := [1, 3, 0]) (by simp) (by simp) rfl

example : ctime "HHMM" "2302".toList ≠ .ok (some (3600 * 23 + 60 * 2)) := fun h => by
  have := (C63_release_refuted (hh := 23) (mm := 2) (by norm_num) (by norm_num) (pad := 0) (ds := [2, 3, 0, 2])
    (by simp) (by simp) rfl).mp h
  omega

/-! ### Coordinates (C64) -/

theorem ofDigits_append (a b : List ℕ) : ofDigits (a ++ b) = ofDigits a * 10 ^ b.length + ofDigits b := by
  have hgen : ∀ (b : List ℕ) (n : ℕ), b.foldl (fun n d => 10 * n + d) n = n * 10 ^ b.length + ofDigits b := by
    intro b
    induction b with
    | nil => intro n; simp [ofDigits]
    | cons k b ih =>
      intro n
      rw [List.foldl_cons, ih, show ofDigits (k :: b) = b.foldl (fun n d => 10 * n + d) (10 * 0 + k) from rfl, ih,
        List.length_cons, pow_succ]
      ring
  rw [ofDigits, List.foldl_append, hgen]
  rfl

theorem unsignedFloat_point {i f : List ℕ} (hi : ∀ k ∈ i, k < 10) (hf : ∀ k ∈ f, k < 10) (hne : ¬ (i = [] ∧ f = [])) :
    unsignedFloat (i.map dig ++ '.' :: f.map dig) = some ((ofDigits i : ℝ) + (ofDigits f : ℝ) / 10 ^ f.length) := by
  have hnp : ∀ c ∈ i.map dig, decide (c ≠ '.') = true := by
    intro c hc
    obtain ⟨k, hk, rfl⟩ := List.mem_map.mp hc
    simpa using (dig_spec (hi k hk)).2.2.2.2.2
  have h1 : (i.map dig ++ '.' :: f.map dig).takeWhile (fun c => decide (c ≠ '.')) = i.map dig := by
    rw [List.takeWhile_append_of_pos hnp, List.takeWhile_cons_of_neg (by simp), List.append_nil]
  have h2 : (i.map dig ++ '.' :: f.map dig).dropWhile (fun c => decide (c ≠ '.')) = '.' :: f.map dig := by
    rw [List.dropWhile_append_of_pos hnp, List.dropWhile_cons_of_neg (by simp)]
  unfold unsignedFloat
  simp only [h1, h2]
  rw [if_neg (by simpa using hne), digits_map hi, digits_map hf]
  simp

theorem strip_ends {c : Char} {m : List Char} {e : Char} (hc : isSpace c = false) (he : isSpace e = false) :
    strip (c :: (m ++ [e])) = c :: (m ++ [e]) := by
  rw [strip, List.dropWhile_cons_of_neg (by simp [hc])]
  simp [he]

theorem strip_id {s : List Char} (h1 : ∀ c, s.head? = some c → isSpace c = false)
    (h2 : ∀ c, s.getLast? = some c → isSpace c = false) : strip s = s := by
  cases s with
  | nil => rfl
  | cons c s =>
    rw [strip, List.dropWhile_cons_of_neg (by simp [h1 c rfl])]
    rcases hr : (c :: s).reverse with _ | ⟨e, t⟩
    · simp at hr
    · have : (c :: s).getLast? = some e := by
        rw [← List.head?_reverse, hr]; rfl
      rw [List.dropWhile_cons_of_neg (by simp [h2 e this]), ← hr, List.reverse_reverse]

theorem pyFloat_point {i f : List ℕ} (hi : ∀ k ∈ i, k < 10) (hf : ∀ k ∈ f, k < 10) (hne : ¬ (i = [] ∧ f = [])) :
    pyFloat (i.map dig ++ '.' :: f.map dig) = .ok ((ofDigits i : ℝ) + (ofDigits f : ℝ) / 10 ^ f.length) ∧
    pyFloat ('-' :: (i.map dig ++ '.' :: f.map dig)) =
      .ok (-((ofDigits i : ℝ) + (ofDigits f : ℝ) / 10 ^ f.length)) := by
  have hlast : ∀ (p : List Char) c, (p ++ '.' :: f.map dig).getLast? = some c → isSpace c = false := by
    intro p c hc
    rw [List.getLast?_append_of_ne_nil _ (by simp)] at hc
    have := List.mem_of_getLast? hc
    rcases List.mem_cons.mp this with rfl | h
    · decide
    · exact nospace hf c h
  have hu := unsignedFloat_point hi hf hne
  constructor
  · have hs : strip (i.map dig ++ '.' :: f.map dig) = i.map dig ++ '.' :: f.map dig := by
      apply strip_id _ (hlast _)
      intro c hc
      cases i with
      | nil => simp at hc; subst hc; decide
      | cons k i => simp at hc; subst hc; exact (dig_spec (hi k (by simp))).2.1
    rw [pyFloat, hs]
    split
    · rename_i t heq
      exfalso
      cases i with
      | nil => simp at heq
      | cons k i => simp at heq; exact (dig_spec (hi k (by simp))).2.2.1 heq.1
    · rename_i t heq
      exfalso
      cases i with
      | nil => simp at heq
      | cons k i => simp at heq; exact (dig_spec (hi k (by simp))).2.2.2.1 heq.1
    · rw [hu]
  · have hs : strip ('-' :: (i.map dig ++ '.' :: f.map dig)) = '-' :: (i.map dig ++ '.' :: f.map dig) := by
      apply strip_id
      · intro c hc; simp at hc; subst hc; decide
      · intro c hc; exact hlast ('-' :: i.map dig) c (by simpa using hc)
    rw [pyFloat, hs]
    simp only [hu]

theorem slices {s t : List Char} (ht : t.length = 4) : headSlice (s ++ t) = s ∧ tailSlice (s ++ t) = t := by
  have : sliceBound (s ++ t).length (((s ++ t).length : ℤ) - 4) = s.length := by
    rw [sliceBound, if_neg (by simp; omega)]
    simp [ht]
  rw [headSlice, tailSlice, this]
  simp

/-- A coordinate of at least four digits, with or without a minus sign, is its value in ten-thousandths of a degree. -/
theorem C64_coordinate {ds : List ℕ} (h : ∀ k ∈ ds, k < 10) (hlen : 4 ≤ ds.length) :
    clatlon (ds.map dig) = .ok ((ofDigits ds : ℝ) / 10000) ∧
    clatlon ('-' :: ds.map dig) = .ok (-((ofDigits ds : ℝ) / 10000)) := by
  set i := ds.take (ds.length - 4) with hi
  set f := ds.drop (ds.length - 4) with hf
  have hds : ds = i ++ f := (List.take_append_drop _ _).symm
  have hfl : f.length = 4 := by rw [hf, List.length_drop]; omega
  clear_value i f
  subst hds
  have hi' : ∀ k ∈ i, k < 10 := fun k hk => h k (by simp [hk])
  have hf' : ∀ k ∈ f, k < 10 := fun k hk => h k (by simp [hk])
  have hne : ¬ (i = [] ∧ f = []) := by rintro ⟨_, rfl⟩; simp at hfl
  obtain ⟨p1, p2⟩ := pyFloat_point hi' hf' hne
  have hval : (ofDigits i : ℝ) + (ofDigits f : ℝ) / 10 ^ f.length = (ofDigits (i ++ f) : ℝ) / 10000 := by
    rw [ofDigits_append, hfl]; push_cast; ring
  rw [hval] at p1 p2
  have hfl' : (f.map dig).length = 4 := by simpa using hfl
  constructor
  · obtain ⟨s1, s2⟩ := slices (s := i.map dig) hfl'
    rw [clatlon, List.map_append, s1, s2, p1]
  · obtain ⟨s1, s2⟩ := slices (s := '-' :: i.map dig) hfl'
    rw [List.cons_append] at s1 s2
    rw [clatlon, List.map_append, s1, s2, List.cons_append, p2]

/-- Shorter coordinates, that is places within a tenth of a degree of the equator or the zero meridian, are read wrongly
or not at all. -/
theorem C64_short_refuted {a b c : ℕ} (ha : a < 10) (hb : b < 10) (hc : c < 10) :
    clatlon [dig a, dig b, dig c] = .ok ((10 * a + b : ℕ) + (c : ℝ) / 10) ∧
    clatlon [dig a, dig b] = .ok (((10 * a + b : ℕ) : ℝ) / 100) ∧
    clatlon [dig a] = .ok ((a : ℝ) / 10) ∧
    clatlon ['-', dig a, dig b, dig c] = .error .valueError ∧
    clatlon ['-', dig a, dig b] = .ok (-((a : ℝ) + (b : ℝ) / 10)) ∧
    clatlon ['-', dig a] = .error .valueError := by
  have hd : ∀ k ∈ [a, b], k < 10 := by simp [ha, hb]
  refine ⟨?_, ?_, ?_, ?_, ?_, ?_⟩
  · have := (pyFloat_point (i := [a, b]) (f := [c]) hd (by simp [hc]) (by simp)).1
    rw [show clatlon [dig a, dig b, dig c] = pyFloat ([a, b].map dig ++ '.' :: [c].map dig) from rfl, this]
    simp [ofDigits]
  · have := (pyFloat_point (i := []) (f := [a, b]) (by simp) hd (by simp)).1
    simp only [List.map_nil, List.nil_append] at this
    rw [show clatlon [dig a, dig b] = pyFloat ('.' :: [a, b].map dig) from rfl, this]
    simp [ofDigits]; norm_num
  · have := (pyFloat_point (i := []) (f := [a]) (by simp) (by simp [ha]) (by simp)).1
    simp only [List.map_nil, List.nil_append] at this
    rw [show clatlon [dig a] = pyFloat ('.' :: [a].map dig) from rfl, this]
    simp [ofDigits]
  · interval_cases a <;> interval_cases b <;> interval_cases c <;> rfl
  · have := (pyFloat_point (i := [a]) (f := [b]) (by simp [ha]) (by simp [hb]) (by simp)).2
    rw [show clatlon ['-', dig a, dig b] = pyFloat ('-' :: ([a].map dig ++ '.' :: [b].map dig)) from rfl, this]
    simp [ofDigits]
  · interval_cases a <;> rfl

example : clatlon "-817000".toList = .ok (-((817000 : ℕ) / 10000 : ℝ)) :=
  (C64_coordinate (ds := [8, 1, 7, 0, 0, 0]) (by simp) (by simp)).2

/-! ### Derived soundings (C65) -/

/-- Asking for derived soundings never requests the file of derived soundings of the station, and the answer is never
read with the columns of derived soundings. -/
theorem C65_derived_refuted (site : String) (beg2021 derived : Bool) :
    requestPath site beg2021 true ≠ "derived-por/" ++ site ++ "-drvd.txt.zip" ∧
    readsDerived beg2021 derived = false := by
  constructor
  · intro h
    have := congrArg String.length h
    have e1 : "-data.txt-drvd.txt".length = 18 := by decide
    have e2 : "-data-beg2021.txt-drvd.txt".length = 26 := by decide
    have e3 : ".zip".length = 4 := by decide
    have e4 : "-drvd.txt.zip".length = 13 := by decide
    cases beg2021 <;> simp [requestPath, folderSuffix, String.length_append] at this <;> omega
  · cases beg2021 <;> cases derived <;> decide

/-- Without derived soundings the paths are those of the period of record and of the current files. -/
theorem C65_raw (site : String) :
    requestPath site false false = "data-por/" ++ site ++ "-data.txt" ++ ".zip" ∧
    requestPath site true false = "data-y2d/" ++ site ++ "-data-beg2021.txt" ++ ".zip" := ⟨rfl, rfl⟩

/-! ### Wind components (C66) -/

/-- The components have the given speed, and the wind comes from the given direction (clockwise from north): against the
unit vector towards that direction it moves with minus the speed, and not at all across it. -/
theorem C66_wind (speed θ : ℝ) :
    let w := windComponents speed θ
    w.1 ^ 2 + w.2 ^ 2 = speed ^ 2 ∧ w.1 * Real.sin θ + w.2 * Real.cos θ = -speed ∧
      w.1 * Real.cos θ - w.2 * Real.sin θ = 0 := by
  have := Real.sin_sq_add_cos_sq θ
  refine ⟨?_, ?_, ?_⟩ <;> simp only [windComponents]
  · linear_combination speed ^ 2 * this
  · linear_combination -speed * this
  · ring

example : (windComponents 5 0).2 = -5 := by simp [windComponents]

end Verif.Props
