import Verif.Model.IgraTable
import Verif.Props.Igra

/-!
# Numbers in fields of fixed width
-/

namespace Verif.Lemmas

open Verif.Py Verif.Model Verif.Props

/-! ### Decimal numbers -/

/-- Decimal digits, most significant first. -/
def natDigits (n : ℕ) : List ℕ := if n < 10 then [n] else natDigits (n / 10) ++ [n % 10]
decreasing_by omega

theorem natDigits_lt (n : ℕ) : ∀ k ∈ natDigits n, k < 10 := by
  induction n using Nat.strong_induction_on with
  | _ n ih =>
    rw [natDigits]
    split_ifs with h
    · simpa using h
    · intro k hk
      rcases List.mem_append.1 hk with hk | hk
      · exact ih (n / 10) (by omega) k hk
      · simp at hk; omega

theorem ofDigits_natDigits (n : ℕ) : ofDigits (natDigits n) = n := by
  induction n using Nat.strong_induction_on with
  | _ n ih =>
    rw [natDigits]
    split_ifs with h
    · simp [ofDigits]
    · rw [ofDigits_append, ih (n / 10) (by omega)]
      simp [ofDigits]; omega

theorem natDigits_ne_nil (n : ℕ) : natDigits n ≠ [] := by
  rw [natDigits]
  split_ifs <;> simp

theorem lt_of_natDigits_length {n w : ℕ} (h : (natDigits n).length ≤ w) : n < 10 ^ w := by
  induction n using Nat.strong_induction_on generalizing w with
  | _ n ih =>
    rw [natDigits] at h
    split_ifs at h with hn
    · simp only [List.length_singleton] at h
      calc n < 10 ^ 1 := by simpa using hn
        _ ≤ 10 ^ w := Nat.pow_le_pow_right (by norm_num) h
    · simp only [List.length_append, List.length_singleton] at h
      obtain ⟨w, rfl⟩ : ∃ v, w = v + 1 := ⟨w - 1, by omega⟩
      have := ih (n / 10) (by omega) (w := w) (by omega)
      rw [pow_succ]
      omega

theorem natDigits_length_of_le {n w : ℕ} (h : 10 ^ w ≤ n) : w + 1 ≤ (natDigits n).length := by
  by_contra hc
  have := lt_of_natDigits_length (n := n) (w := w) (by omega)
  omega

theorem natDigits_length_le {n w : ℕ} (hw : 1 ≤ w) (h : n < 10 ^ w) : (natDigits n).length ≤ w := by
  induction n using Nat.strong_induction_on generalizing w with
  | _ n ih =>
    rw [natDigits]
    split_ifs with hn
    · simpa using hw
    · obtain ⟨w, rfl⟩ : ∃ v, w = v + 1 := ⟨w - 1, by omega⟩
      have hw1 : 1 ≤ w := by
        by_contra hc
        have : w = 0 := by omega
        subst this
        simp at h
        omega
      have := ih (n / 10) (by omega) hw1 (by rw [pow_succ] at h; omega)
      simp only [List.length_append, List.length_singleton]
      omega

/-- The decimal text of an integer. -/
def intText (z : ℤ) : List Char :=
  if z < 0 then '-' :: (natDigits z.natAbs).map dig else (natDigits z.natAbs).map dig

theorem intText_ne_nil (z : ℤ) : intText z ≠ [] := by
  unfold intText
  split_ifs
  · simp
  · simpa using natDigits_ne_nil _

theorem intText_nospace (z : ℤ) : ∀ c ∈ intText z, isSpace c = false := by
  unfold intText
  split_ifs
  · intro c hc
    rcases List.mem_cons.1 hc with rfl | hc
    · decide
    · exact nospace (natDigits_lt _) c hc
  · exact nospace (natDigits_lt _)

theorem strip_nospace {s : List Char} (h : ∀ c ∈ s, isSpace c = false) : strip s = s :=
  strip_id (fun c hc => h c (List.mem_of_head? hc)) fun c hc => h c (List.mem_of_getLast? hc)

theorem pyInt_intText (z : ℤ) : pyInt (intText z) = .ok z := by
  rcases lt_or_ge z 0 with h | h
  · unfold pyInt
    rw [strip_nospace (intText_nospace z), intText, if_pos h]
    simp only [natOf_map (natDigits_lt _) (natDigits_ne_nil _), ofDigits_natDigits]
    congr 1
    omega
  · rw [intText, if_neg (by omega), pyInt_digits (natDigits_lt _) (natDigits_ne_nil _), ofDigits_natDigits]
    congr 1
    omega

theorem unsignedFloat_digits {ds : List ℕ} (h : ∀ k ∈ ds, k < 10) (hne : ds ≠ []) :
    unsignedFloat (ds.map dig) = some (ofDigits ds : ℝ) := by
  have hnp : ∀ c ∈ ds.map dig, decide (c ≠ '.') = true := by
    intro c hc
    obtain ⟨k, hk, rfl⟩ := List.mem_map.mp hc
    simpa using (dig_spec (h k hk)).2.2.2.2.2
  have h1 : (ds.map dig).takeWhile (fun c => decide (c ≠ '.')) = ds.map dig :=
    by simpa using List.takeWhile_append_of_pos (l₂ := []) hnp
  have h2 : (ds.map dig).dropWhile (fun c => decide (c ≠ '.')) = [] :=
    by simpa using List.dropWhile_append_of_pos (l₂ := []) hnp
  unfold unsignedFloat
  simp only [h1, h2, natOf_map h hne]
  rfl

theorem pyFloat_intText (z : ℤ) : pyFloat (intText z) = .ok (z : ℝ) := by
  unfold pyFloat
  rw [strip_nospace (intText_nospace z)]
  have hu := unsignedFloat_digits (natDigits_lt z.natAbs) (natDigits_ne_nil z.natAbs)
  rw [ofDigits_natDigits] at hu
  rcases lt_or_ge z 0 with h | h
  · rw [intText, if_pos h]
    simp only [hu]
    congr 1
    have : (z : ℝ) = -((z.natAbs : ℕ) : ℝ) := by
      rw [Nat.cast_natAbs, abs_of_neg h]; push_cast; ring
    rw [this]
  · rw [intText, if_neg (by omega)]
    have hz : (z : ℝ) = ((z.natAbs : ℤ) : ℝ) := by congr 1; omega
    rcases hd : natDigits z.natAbs with _ | ⟨k, ds⟩
    · exact absurd hd (natDigits_ne_nil _)
    · have hk := dig_spec (natDigits_lt z.natAbs k (by rw [hd]; simp))
      rw [hd, List.map_cons] at hu
      rw [List.map_cons]
      split
      · rename_i t heq; injection heq with h1 _; exact absurd h1 hk.2.2.1
      · rename_i t heq; injection heq with h1 _; exact absurd h1 hk.2.2.2.1
      · rw [hu, hz]
        rfl

theorem clatlon_intText {z : ℤ} (h : 1000 ≤ z.natAbs) : clatlon (intText z) = .ok ((z : ℝ) / 10000) := by
  obtain ⟨h1, h2⟩ := C64_coordinate (natDigits_lt z.natAbs) (natDigits_length_of_le (w := 3) (by norm_num; exact h))
  rw [ofDigits_natDigits] at h1 h2
  rcases lt_or_ge z 0 with hz | hz
  · rw [intText, if_pos hz, h2]
    have : (z : ℝ) = -((z.natAbs : ℕ) : ℝ) := by
      rw [Nat.cast_natAbs, abs_of_neg hz]; push_cast; ring
    rw [this]; congr 1; ring
  · rw [intText, if_neg (by omega), h1]
    have hz : (z : ℝ) = ((z.natAbs : ℤ) : ℝ) := by congr 1; omega
    rw [hz]
    rfl

theorem intText_bound {z : ℤ} {w : ℕ} (h : (intText z).length ≤ w + 1) : -(10 : ℤ) ^ w < z ∧ z < 10 ^ (w + 1) := by
  unfold intText at h
  split_ifs at h with hz
  · simp only [List.length_cons, List.length_map] at h
    have := lt_of_natDigits_length (n := z.natAbs) (w := w) (by omega)
    have h10 : (0 : ℤ) < 10 ^ (w + 1) := by positivity
    have : (z.natAbs : ℤ) < 10 ^ w := by exact_mod_cast this
    constructor <;> omega
  · simp only [List.length_map] at h
    have := lt_of_natDigits_length (n := z.natAbs) (w := w + 1) (by omega)
    have h10 : (0 : ℤ) < 10 ^ w := by positivity
    have : (z.natAbs : ℤ) < 10 ^ (w + 1) := by exact_mod_cast this
    constructor <;> omega

/-! ### Fields -/

/-- A text right-justified in `w` columns. -/
def rjust (w : ℕ) (s : List Char) : List Char := List.replicate (w - s.length) ' ' ++ s

theorem rjust_length {w : ℕ} {s : List Char} (h : s.length ≤ w) : (rjust w s).length = w := by
  simp [rjust]; omega

theorem isFwfSpace_of {c : Char} (h : isSpace c = false) : isFwfSpace c = false := by
  unfold isSpace at h
  unfold isFwfSpace
  simp_all

/-- Strings without white space. -/
def Word (s : List Char) : Prop := ∀ c ∈ s, isSpace c = false

theorem dropWhile_word {s : List Char} (h : Word s) : s.dropWhile isFwfSpace = s := by
  cases s with
  | nil => rfl
  | cons c s => rw [List.dropWhile_cons_of_neg]; simp [isFwfSpace_of (h c (by simp))]

theorem fwfField_mid {p r s : List Char} {a b n k : ℕ} (h : Word s) (ha : p.length = a)
    (hb : a + (n + (s.length + k)) = b) :
    fwfField (a, b) (p ++ ((List.replicate n ' ' ++ (s ++ List.replicate k ' ')) ++ r)) = s := by
  unfold fwfField
  rw [slice_mid ha (by simpa using hb)]
  have h1 : ∀ (n : ℕ) (t : List Char), (List.replicate n ' ' ++ t).dropWhile isFwfSpace = t.dropWhile isFwfSpace := by
    intro n t
    induction n with
    | zero => rfl
    | succ n ih => rw [List.replicate_succ, List.cons_append, List.dropWhile_cons_of_pos (by decide), ih]
  rw [h1]
  rcases eq_or_ne s [] with rfl | hs
  · have : (List.replicate k ' ').dropWhile isFwfSpace = [] := by simpa using h1 k []
    rw [List.nil_append, this]
    rfl
  · have : (s ++ List.replicate k ' ').dropWhile isFwfSpace = s ++ List.replicate k ' ' := by
      cases s with
      | nil => exact absurd rfl hs
      | cons c s => rw [List.cons_append, List.dropWhile_cons_of_neg]; simp [isFwfSpace_of (h c (by simp))]
    rw [this, List.reverse_append, List.reverse_replicate, h1,
      dropWhile_word (fun c hc => h c (List.mem_reverse.1 hc)), List.reverse_reverse]

theorem fwfField_rjust {p r s : List Char} {a b w : ℕ} (h : Word s) (hw : s.length ≤ w) (ha : p.length = a) (hb : a + w = b) :
    fwfField (a, b) (p ++ (rjust w s ++ r)) = s := by
  have := fwfField_mid (p := p) (r := r) (n := w - s.length) (k := 0) (b := b) h ha (by omega)
  simpa [rjust] using this

/-! ### Lines -/

theorem textLines_cons {l : List Char} (h : '\n' ∉ l) (rest : List Char) :
    textLines (l ++ '\n' :: rest) = (l ++ ['\n']) :: textLines rest := by
  induction l with
  | nil => simp [textLines]
  | cons c l ih =>
    have hc : c ≠ '\n' := fun e => h (by simp [e])
    rw [List.cons_append, textLines, if_neg hc, ih fun e => h (by simp [e])]
    rfl

theorem textLines_flatten {ls : List (List Char)} (h : ∀ l ∈ ls, ∃ t, l = t ++ ['\n'] ∧ '\n' ∉ t) :
    textLines ls.flatten = ls := by
  induction ls with
  | nil => rfl
  | cons l ls ih =>
    obtain ⟨t, rfl, ht⟩ := h l (by simp)
    rw [List.flatten_cons, List.append_assoc, List.singleton_append, textLines_cons ht,
      ih fun l hl => h l (by simp [hl])]

/-! ### Columns -/

theorem mapM_ok {α β : Type} {f : α → Except PyErr β} {g : α → β} {l : List α} (h : ∀ x ∈ l, f x = .ok (g x)) :
    l.mapM f = .ok (l.map g) := by
  induction l with
  | nil => rfl
  | cons a l ih => rw [List.mapM_cons, h a (by simp), ih fun x hx => h x (by simp [hx])]; rfl

theorem convColumn_ok {α : Type} {conv : List Char → Except PyErr (Option ℝ)} {f : α → List Char} {g : α → Option ℝ}
    {l : List α} (h : ∀ x ∈ l, conv (f x) = .ok (g x)) :
    convColumn conv (l.map f) = .ok (l.map fun x => (g x).bind naNumber) := by
  have : (l.map f).mapM conv = .ok (l.map g) := by
    rw [← List.map_id (l.map g)] at *
    induction l with
    | nil => rfl
    | cons a l ih =>
      rw [List.map_cons, List.mapM_cons, h a (by simp), ih fun x hx => h x (by simp [hx])]; rfl
  rw [convColumn, this]
  simp

theorem keepRows_map {α β : Type} (l : List α) (m : α → Bool) (f : α → β) :
    keepRows (l.map m) (l.map f) = (l.filter m).map f := by
  unfold keepRows
  induction l with
  | nil => rfl
  | cons a l ih =>
    simp only [List.map_cons, List.zip_cons_cons, List.filterMap_cons, List.filter_cons]
    cases m a <;> simp [ih]

theorem rint_close (x : ℝ) : |(rint x : ℝ) - x| ≤ 1 / 2 := by
  unfold rint
  split_ifs with h
  · have := Int.self_sub_floor x
    rw [abs_le]
    constructor <;> linarith [h.1]
  · rw [abs_sub_comm]; exact abs_sub_round x

theorem npRound1_close (x : ℝ) : |npRound1 x - x| ≤ 1 / 20 := by
  have h := rint_close (x * 10)
  unfold npRound1
  rw [abs_le] at h ⊢
  constructor <;> linarith [h.1, h.2]

end Verif.Lemmas
