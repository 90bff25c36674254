import Verif.Model.Sessions
import Verif.Props.Wyoming

/-!
# C100: sessions; C101: the EUMETSAT data store
-/

namespace Verif.Props

open Verif.Model Verif.Py

variable {L : HttpLib}

/-- The options in force after a program: those of the last call. -/
def optionsAfter (h : List WebOp) : Kwargs :=
  match h.reverse.findSome? fun | .setOptions o => some o | .endpoint => none with
  | some o => o
  | none => []

theorem web_snoc (h : List WebOp) (o : WebOp) : Web.after L (h ++ [o]) = (Web.after L h).step L o := by simp [Web.after]

theorem web_options (h : List WebOp) : (Web.after L h).options = optionsAfter h := by
  induction h using List.reverseRecOn with
  | nil => rfl
  | append_singleton h o ih =>
    rw [web_snoc]
    cases o with
    | setOptions o => simp [Web.step, optionsAfter]
    | endpoint => simp [Web.step, ih, optionsAfter]

theorem web_prefix (h t : List WebOp) : (Web.after L h).endpoints <+: (Web.after L (h ++ t)).endpoints := by
  induction t using List.reverseRecOn with
  | nil => simp
  | append_singleton t o ih =>
    rw [← List.append_assoc, web_snoc]
    refine ih.trans ?_
    cases o with
    | setOptions o => exact List.prefix_rfl
    | endpoint => exact List.prefix_append _ _

theorem web_count (h : List WebOp) :
    (Web.after L h).endpoints.length = h.countP fun | .endpoint => true | .setOptions _ => false := by
  induction h using List.reverseRecOn with
  | nil => rfl
  | append_singleton h o ih =>
    rw [web_snoc]
    cases o with
    | setOptions o => simp [Web.step, ih]
    | endpoint => simp [Web.step, ih]

theorem setAttrs_apply (s : Session) (o : Kwargs) (hd : (o.map Prod.fst).Nodup) (a : String) :
    setAttrs s o a = ((o.lookup a).orElse fun _ => s a) := by
  induction o generalizing s with
  | nil => rfl
  | cons kv o ih =>
    obtain ⟨k, v⟩ := kv
    simp only [List.map_cons, List.nodup_cons] at hd
    show setAttrs (fun b => if b = k then some v else s b) o a = _
    rw [ih _ hd.2, List.lookup_cons]
    by_cases hk : a = k
    · subst hk
      have hn : o.lookup a = none := by
        rw [List.lookup_eq_none_iff]
        intro p hp
        have : ¬ a = p.1 := by
          rintro rfl
          exact hd.1 (List.mem_map_of_mem hp)
        simpa using this
      simp [hn]
    · have : (a == k) = false := by simpa using hk
      simp [this, hk]

/-- **C100** (sessions): an endpoint keeps for good the options of the last call before its creation, and of no other call. -/
theorem C100_session (pre post : List WebOp) (hd : ((optionsAfter pre).map Prod.fst).Nodup) :
    ∃ s, (Web.after L (pre ++ .endpoint :: post)).endpoints[
        pre.countP fun | .endpoint => true | .setOptions _ => false]? = some s ∧
      ∀ a, s a = match (optionsAfter pre).lookup a with
        | some v => some v
        | none => if a = "headers" then some (.headers fun k => if k = "User-Agent" then some L.agent else L.headers k)
          else L.fresh a := by
  refine ⟨createSession L (optionsAfter pre), ?_, fun a => ?_⟩
  · have h1 : pre ++ WebOp.endpoint :: post = (pre ++ [.endpoint]) ++ post := by simp
    obtain ⟨t, ht⟩ := web_prefix (L := L) (pre ++ [.endpoint]) post
    rw [h1, ← ht, ← web_count (L := L), web_snoc, Web.step, web_options]
    rw [List.getElem?_append_left (by simp), List.getElem?_append_right le_rfl]
    simp
  · rw [createSession, setAttrs_apply _ _ hd]
    cases (optionsAfter pre).lookup a <;> rfl

/-- **C100** (user agent): with headers among the options, only these are sent. -/
theorem C100_agent (o : Kwargs) (hd : (o.map Prod.fst).Nodup) : ∃ v, createSession L o "headers" = some v ∧
    match o.lookup "headers" with
    | some w => v = w
    | none => ∃ h, v = .headers h ∧ h "User-Agent" = some L.agent ∧ ∀ k, k ≠ "User-Agent" → h k = L.headers k := by
  rw [createSession, setAttrs_apply _ _ hd]
  cases hl : o.lookup "headers" with
  | some w => exact ⟨w, rfl, rfl⟩
  | none => exact ⟨_, rfl, _, rfl, rfl, fun k hk => if_neg hk⟩

/-- The agent of the library is not always sent. -/
theorem C100_agent_refuted : ¬ ∀ (L : HttpLib) (o : Kwargs), (o.map Prod.fst).Nodup →
    ∃ h, createSession L o "headers" = some (.headers h) ∧ h "User-Agent" = some L.agent := fun H => by
  obtain ⟨h, h1, h2⟩ := H ⟨fun _ => none, fun _ => none, "pyrtlib"⟩ [("headers", .headers fun k => if k = "Accept" then some "*/*" else none)]
    (by simp)
  have : createSession ⟨fun _ => none, fun _ => none, "pyrtlib"⟩
      [("headers", SessionVal.headers fun k => if k = "Accept" then some "*/*" else none)] "headers" =
      some (.headers fun k => if k = "Accept" then some "*/*" else none) := rfl
  rw [this] at h1
  cases h1
  simp at h2

/-- **C100** (address of queries): one slash at the end is removed; an empty address raises. -/
theorem C100_query (base : List Char) : (queryUrl base = .error .indexError ↔ base = []) ∧
    (∀ b, queryUrl (b ++ ['/']) = .ok b) ∧ (base ≠ [] → base.getLast? ≠ some '/' → queryUrl base = .ok base) := by
  refine ⟨⟨fun h => ?_, fun h => by subst h; rfl⟩, fun b => by simp [queryUrl], fun h0 h1 => ?_⟩
  · unfold queryUrl at h
    cases hb : base.getLast? with
    | none => simpa using hb
    | some c => rw [hb] at h; cases h
  · unfold queryUrl
    cases hb : base.getLast? with
    | none => simp at hb; exact absurd hb h0
    | some c =>
      have : c ≠ '/' := by rintro rfl; exact h1 hb
      simp [this]

/-- Two calls for options: only the second counts; an endpoint from before has none. -/
example : ∃ s t, (Web.after ⟨fun _ => none, fun _ => none, "pyrtlib"⟩
    [.endpoint, .setOptions [("verify", .plain 0)], .setOptions [("timeout", .plain 9)], .endpoint]).endpoints = [s, t] ∧
    s "timeout" = none ∧ t "timeout" = some (.plain 9) ∧ t "verify" = none := ⟨_, _, rfl, rfl, rfl, rfl⟩

example : queryUrl "http://a/".toList = .ok "http://a".toList := by decide

/-! ## EUMETSAT -/

theorem list_fold (w : List Char) (cs : List Collection) (a : List String × List Collection) :
    cs.foldl (fun acc c => if isInfix w c.title then (acc.1 ++ [c.ident], acc.2 ++ [c]) else acc) a =
      (a.1 ++ (cs.filter fun c => isInfix w c.title).map Collection.ident, a.2 ++ cs.filter fun c => isInfix w c.title) := by
  induction cs generalizing a with
  | nil => simp
  | cons c cs ih =>
    rw [List.foldl_cons, ih]
    by_cases h : isInfix w c.title <;> simp [h]

theorem titleInfix_iff (w s : List Char) : isInfix w s = true ↔ w <:+: s := by
  induction s with
  | nil => simp [isInfix, List.isEmpty_iff]
  | cons c cs ih =>
    rw [isInfix, Bool.or_eq_true, ih, List.infix_cons_iff, List.isPrefixOf_iff_prefix]

/-- **C101** (listing): after authentication, the collections whose title contains the word, each once, in the order of the
store, with their identifiers beside them; without word (or with an empty one) all; before authentication an exception. -/
theorem C101_list (p : Product) (keyword : Option (List Char)) :
    match p.store with
    | none => p.list keyword = .error .attributeError
    | some cs => ∃ sel, p.list keyword = .ok (sel.map Collection.ident, sel) ∧ sel.Sublist cs ∧
        (∀ c, c ∈ sel ↔ c ∈ cs ∧ ∀ w, keyword = some w → w <:+: c.title) ∧
        (keyword = none → sel = cs) := by
  cases hs : p.store with
  | none => simp [Product.list, hs]
  | some cs =>
    simp only
    match keyword with
    | none => exact ⟨cs, by simp [Product.list, hs], List.Sublist.refl _, by simp, fun _ => rfl⟩
    | some [] => exact ⟨cs, by simp [Product.list, hs], List.Sublist.refl _, by simp, fun _ => rfl⟩
    | some (a :: w) =>
      refine ⟨cs.filter fun c => isInfix (a :: w) c.title, ?_, List.filter_sublist, fun c => ?_, by simp⟩
      · simp only [Product.list, hs]
        rw [list_fold]
        simp
      · rw [List.mem_filter, titleInfix_iff]
        simp

theorem splitColon_cons (a b : List Char) (ha : ':' ∉ a) : splitColon (a ++ ':' :: b) = a :: splitColon b := by
  induction a with
  | nil => simp [splitColon]
  | cons c a ih =>
    have hc : c ≠ ':' := fun h => ha (by simp [h])
    rw [List.cons_append, splitColon, if_neg hc, ih (fun h => ha (by simp [h]))]

/-- **C101** (credentials): of a line `label: value` the value is read up to a second colon; what follows is lost. -/
theorem C101_credentials {l0 l1 v0 v1 r0 r1 : List Char} {more : List (List Char)} (h0 : ':' ∉ l0) (h1 : ':' ∉ l1)
    (hv0 : ':' ∉ v0) (hv1 : ':' ∉ v1) (hr0 : r0 = [] ∨ r0.head? = some ':') (hr1 : r1 = [] ∨ r1.head? = some ':') :
    credentials ((l0 ++ ':' :: (v0 ++ r0)) :: (l1 ++ ':' :: (v1 ++ r1)) :: more) = .ok (strip v0, strip v1) := by
  have key {l v r : List Char} (hl : ':' ∉ l) (hv : ':' ∉ v) (hr : r = [] ∨ r.head? = some ':') :
      (splitColon (l ++ ':' :: (v ++ r)))[1]? = some v := by
    rw [splitColon_cons _ _ hl]
    rcases hr with rfl | hr
    · rw [List.append_nil, splitColon_none hv]; rfl
    · cases r with
      | nil => cases hr
      | cons c r =>
        simp only [List.head?_cons, Option.some.injEq] at hr
        subst hr
        rw [splitColon_cons _ _ hv]; rfl
  unfold credentials metaField
  simp only [List.getElem?_cons_zero, List.getElem?_cons_succ, key h0 hv0 hr0, key h1 hv1 hr1]
  rfl

/-- **C101** (credentials): a missing line or colon raises, a missing file does not: then nothing can be listed. -/
theorem C101_missing (p : Product) (cat : List Char × List Char → List Collection) (lines : List (List Char)) :
    (lines.length < 2 ∨ (∃ l ∈ lines.take 2, ':' ∉ l) → p.authenticate (some lines) cat = .error .indexError) ∧
      p.authenticate none cat = .ok p := by
  refine ⟨fun h => ?_, rfl⟩
  have one {i : ℕ} (hi : ∀ l, lines[i]? = some l → ':' ∉ l) : metaField lines i = .error .indexError := by
    unfold metaField
    cases hl : lines[i]? with
    | none => rfl
    | some l => simp only [splitColon_none (hi l hl)]; rfl
  have two (i : ℕ) (e : PyErr) (he : metaField lines i = .error e) : e = .indexError := by
    unfold metaField at he
    split at he
    · exact (Except.error.inj he).symm
    · split at he
      · exact (Except.error.inj he).symm
      · cases he
  have : credentials lines = .error .indexError := by
    unfold credentials
    cases h0 : metaField lines 0 with
    | error e => rw [two 0 e h0]; rfl
    | ok k =>
      have h1 : metaField lines 1 = .error .indexError := by
        apply one
        intro l hl hc
        rcases h with h | ⟨l', hl', hc'⟩
        · have := (List.getElem?_eq_some_iff.1 hl).1
          omega
        · match lines, hl, hl' with
          | [], hl, _ => simp at hl
          | [a], hl, _ => simp at hl
          | a :: b :: r, hl, hl' =>
            simp only [List.take_succ_cons, List.take_zero, List.mem_cons, List.not_mem_nil, or_false] at hl'
            simp only [List.getElem?_cons_succ, List.getElem?_cons_zero, Option.some.injEq] at hl
            subst hl
            rcases hl' with rfl | rfl
            · unfold metaField at h0
              simp only [List.getElem?_cons_zero, splitColon_none hc'] at h0
              cases h0
            · exact hc' hc
      rw [h1]
      rfl
  unfold Product.authenticate
  simp [this, Except.map]

/-- **C101** (end to end): with a file `label: key`, `label: secret`, what is listed afterwards is what the service offers to
this key and this secret, in this order. -/
theorem C101_authenticated (p : Product) (cat : List Char × List Char → List Collection) {l0 l1 key secret : List Char}
    {more : List (List Char)} (h0 : ':' ∉ l0) (h1 : ':' ∉ l1) (hk : ':' ∉ key) (hs : ':' ∉ secret) :
    ∃ q, p.authenticate (some ((l0 ++ ':' :: key) :: (l1 ++ ':' :: secret) :: more)) cat = .ok q ∧
      q.list none = .ok ((cat (strip key, strip secret)).map Collection.ident, cat (strip key, strip secret)) := by
  have hc := C101_credentials (more := more) h0 h1 hk hs (.inl rfl) (.inl rfl)
  simp only [List.append_nil] at hc
  refine ⟨⟨some (cat (strip key, strip secret))⟩, ?_, rfl⟩
  simp [Product.authenticate, hc, Except.map]

/-- A secret with a colon in it is cut short. -/
theorem C101_secret_refuted : ¬ ∀ key secret : List Char, strip key = key → strip secret = secret →
    credentials ["consumer_key: ".toList ++ key, "consumer_secret: ".toList ++ secret] = .ok (key, secret) := fun H => by
  have := H "k".toList "a:b".toList (by decide) (by decide)
  exact absurd this (by decide)

/-- A service that knows one key and secret. -/
example : ∃ q, (⟨none⟩ : Product).authenticate (some ["key".toList ++ ':' :: " a\n".toList, "secret".toList ++ ':' :: " b\n".toList])
    (fun c => if c = (strip " a\n".toList, strip " b\n".toList) then [⟨"IASI".toList, "E2"⟩] else []) = .ok q ∧
    q.list none = .ok (["E2"], [⟨"IASI".toList, "E2"⟩]) := by
  obtain ⟨q, h1, h2⟩ := C101_authenticated ⟨none⟩
    (fun c => if c = (strip " a\n".toList, strip " b\n".toList) then [⟨"IASI".toList, "E2"⟩] else [])
    (l0 := "key".toList) (l1 := "secret".toList) (key := " a\n".toList) (secret := " b\n".toList) (more := [])
    (by decide) (by decide) (by decide) (by decide)
  exact ⟨q, h1, by rw [h2, if_pos rfl]; rfl⟩

example : credentials ["consumer_key: abc\n".toList, "consumer_secret: x:y\n".toList] = .ok ("abc".toList, "x".toList) := by decide

example : (⟨some [⟨"ASCAT winds".toList, "E1"⟩, ⟨"IASI".toList, "E2"⟩]⟩ : Product).list (some "wind".toList) =
    .ok (["E1"], [⟨"ASCAT winds".toList, "E1"⟩]) := rfl

end Verif.Props
