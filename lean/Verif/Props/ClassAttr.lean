import Verif.Spec.ClassAttr
import Verif.Props.History

/-!
# C99: setting a model on a class, on its base, on an instance
-/

namespace Verif.Props

open Verif.Model Verif.Py Verif.Spec

variable {h : List AttrOp} {K : Cls} {a : AttrName} {v : Obj} {i : ℕ}

theorem after_snoc (h : List AttrOp) (o : AttrOp) : Classes.after (h ++ [o]) = (Classes.after h).step o := by
  simp [Classes.after]

theorem step_entry (c : Classes) (o : AttrOp) (K : Cls) (a : AttrName) : (c.step o).entry K a =
    match o with
    | .setClass K' b v => if K = K' ∧ a = b then some (.obj v) else c.entry K a
    | _ => c.entry K a := by
  cases o with
  | setClass K' b v => rfl
  | create K' => rfl
  | setInst i b v =>
    simp only [Classes.step]
    cases c.insts[i]? with
    | none => rfl
    | some x => simp only; cases c.set x b v <;> rfl

theorem entry_after (h : List AttrOp) (K : Cls) (a : AttrName) : (Classes.after h).entry K a =
    match assigned h K a with
    | some v => some (.obj v)
    | none => Classes.init.entry K a := by
  induction h using List.reverseRecOn with
  | nil => rfl
  | append_singleton h o ih =>
    rw [after_snoc, step_entry]
    cases o with
    | setClass K' b v =>
      by_cases hk : K = K' ∧ a = b
      · simp [assigned, hk]
      · have hk' : ¬ (K' = K ∧ b = a) := fun h => hk ⟨h.1.symm, h.2.symm⟩
        simp only [if_neg hk, ih, assigned, List.reverse_append, List.reverse_cons, List.reverse_nil, List.nil_append,
          List.cons_append, List.findSome?_cons, if_neg hk']
    | create K' => simp [ih, assigned]
    | setInst i b v => simp [ih, assigned]

/-- **C99** (classes). -/
theorem C99_class (h : List AttrOp) (K : Cls) : (Classes.after h).read K .model =
    .ok (match assigned h K .model, assigned h .abs .model with
      | some v, _ => .obj v
      | none, some v => .obj v
      | none, none => .property) := by
  unfold Classes.read Classes.find
  rw [entry_after, entry_after]
  by_cases hK : K = .abs
  · subst hK; cases assigned h .abs .model <;> rfl
  · have : Classes.init.entry K .model = none := by cases K <;> first | rfl | exact absurd rfl hK
    rw [this]
    cases assigned h K .model <;> cases assigned h .abs .model <;> rfl

/-- **C99** (line lists). -/
theorem C99_list (h : List AttrOp) (hK : K = .h2o ∨ K = .o2 ∨ K = .o3) : (Classes.after h).read K .list =
    .ok (match assigned h K .list with
      | some v => .obj v
      | none => .property) := by
  unfold Classes.read Classes.find
  rw [entry_after, entry_after]
  rcases hK with rfl | rfl | rfl <;> cases assigned h _ .list <;> rfl

theorem findSome_filter {α β : Type*} (f : α → Option β) (p : α → Bool) (hp : ∀ x, p x = false → f x = none) (l : List α) :
    (l.filter p).findSome? f = l.findSome? f := by
  induction l with
  | nil => rfl
  | cons x l ih =>
    cases hx : p x
    · rw [List.filter_cons_of_neg (by simp [hx]), ih, List.findSome?_cons, hp x hx]
    · rw [List.filter_cons_of_pos hx, List.findSome?_cons, List.findSome?_cons, ih]

/-- Statements about instances are not seen by `assigned`. -/
theorem assigned_filter (h : List AttrOp) (K : Cls) (a : AttrName) :
    assigned (h.filter fun | .setClass _ _ _ => true | _ => false) K a = assigned h K a := by
  unfold assigned
  rw [← List.filter_reverse]
  exact findSome_filter _ _ (by rintro (_ | _ | _) hx <;> simp_all) _

/-- **C99** (instances do not select). -/
theorem C99_instances_irrelevant (h : List AttrOp) (K : Cls) (a : AttrName) :
    (Classes.after h).read K a = (Classes.after (h.filter fun | .setClass _ _ _ => true | _ => false)).read K a := by
  unfold Classes.read Classes.find
  simp only [entry_after, assigned_filter]

theorem insts_length (h : List AttrOp) : (Classes.after h).insts.map Instance.cls = createdClasses h := by
  induction h using List.reverseRecOn with
  | nil => rfl
  | append_singleton h o ih =>
    rw [after_snoc]
    cases o with
    | setClass K' b v => simp [Classes.step, ih, createdClasses]
    | create K' => simp [Classes.step, ih, createdClasses, newInstance]
    | setInst i b v =>
      have h1 : createdClasses (h ++ [.setInst i b v]) = createdClasses h := by simp [createdClasses]
      rw [h1, ← ih]
      simp only [Classes.step]
      split
      · rfl
      · rename_i x hx
        split
        · rfl
        · rename_i y hy
          have : y.cls = x.cls := by
            unfold Classes.set at hy
            split at hy
            · split at hy
              · rw [← Except.ok.inj hy]
              · cases hy
            · rw [← Except.ok.inj hy]
          rw [List.map_set, this]
          apply List.ext_getElem?
          intro k
          rw [List.getElem?_set]
          split
          · rename_i hk; subst hk
            obtain ⟨hl, he⟩ := List.getElem?_eq_some_iff.1 hx
            simp [hl, he]
          · rfl

/-- `setters` on an instance: `K` has a property for this attribute. -/
def HasProperty (K : Cls) : AttrName → Prop
  | .model => True
  | .list => K = .h2o ∨ K = .o2 ∨ K = .o3

theorem find_after (h : List AttrOp) (hp : HasProperty K a) :
    (Classes.after h).find K a = some .property ∧ ¬ Replaced h K a ∨
      (∃ v, (Classes.after h).find K a = some (.obj v) ∧ (Classes.after h).read K a = .ok (.obj v)) ∧ Replaced h K a := by
  cases a with
  | model =>
    have := C99_class h K
    unfold Classes.read at this ⊢
    unfold Replaced
    cases h1 : assigned h K .model <;> cases h2 : assigned h .abs .model <;> cases h3 : (Classes.after h).find K .model <;>
      simp_all
  | list =>
    have := C99_list h hp
    unfold Classes.read at this ⊢
    unfold Replaced
    cases h1 : assigned h K .list <;> cases h3 : (Classes.after h).find K .list <;> simp_all

/-- **C99** (validation). -/
theorem C99_rejected (h : List AttrOp) {x : Instance} (hp : HasProperty x.cls a) :
    (Classes.after h).set x a v = .error .valueError ↔ ¬ Replaced h x.cls a ∧ valid a v = false := by
  have hv : accepted a v = valid a v := by cases a <;> cases v <;> rfl
  unfold Classes.set
  rcases find_after h hp with ⟨h1, h2⟩ | ⟨⟨w, h1, -⟩, h2⟩
  · rw [h1, hv]
    cases valid a v <;> simp [h2]
  · rw [h1]
    simp [h2]

theorem assigned_snoc (h : List AttrOp) (o : AttrOp) (K : Cls) (a : AttrName) : assigned (h ++ [o]) K a =
    match o with
    | .setClass K' b v => if K' = K ∧ b = a then some v else assigned h K a
    | _ => assigned h K a := by
  unfold assigned
  cases o with
  | setClass K' b v => by_cases hk : K' = K ∧ b = a <;> simp [hk]
  | create K' => simp
  | setInst i b v => simp

theorem assignedTo_snoc (h : List AttrOp) (o : AttrOp) (i : ℕ) (a : AttrName) (ok : Obj → Bool) : assignedTo (h ++ [o]) i a ok =
    match o with
    | .setInst j b v => if j = i ∧ b = a ∧ ok v then some v else assignedTo h i a ok
    | _ => assignedTo h i a ok := by
  unfold assignedTo
  cases o with
  | setClass K' b v => simp
  | create K' => simp
  | setInst j b v => by_cases hk : j = i ∧ b = a ∧ ok v = true <;> simp [hk]

theorem _root_.Verif.Spec.Replaced.mono {o : AttrOp} (hr : Replaced h K a) : Replaced (h ++ [o]) K a := by
  have key (K' : Cls) (a : AttrName) (h1 : assigned h K' a ≠ none) : assigned (h ++ [o]) K' a ≠ none := by
    rw [assigned_snoc]
    cases o with
    | setClass K'' b v => simp only; split <;> simp [h1]
    | create K'' => exact h1
    | setInst i b v => exact h1
  cases a with
  | model => exact hr.imp (key _ _) (key _ _)
  | list => exact key _ _ hr

theorem _root_.Verif.Spec.Declared.init {o : AttrOp} (hd : Declared (h ++ [o])) : Declared h := fun pre post i a v e =>
  hd pre (post ++ [o]) i a v (by rw [e]; simp)

theorem assignedTo_none (hd : Declared h) {ok : Obj → Bool} (hi : (createdClasses h).length ≤ i) : assignedTo h i a ok = none := by
  induction h using List.reverseRecOn with
  | nil => rfl
  | append_singleton h o ih =>
    rw [assignedTo_snoc]
    have hl : (createdClasses h).length ≤ i := by
      refine le_trans ?_ hi
      simp [createdClasses]
    cases o with
    | setClass K' b v => exact ih hd.init hl
    | create K' => exact ih hd.init hl
    | setInst j b v =>
      have := hd h [] j b v rfl
      simp only
      rw [if_neg (by rintro ⟨rfl, -⟩; omega)]
      exact ih hd.init hl

/-- One statement, one instance. -/
theorem step_inst {c : Classes} {o : AttrOp} {x : Instance} (hx : (c.step o).insts[i]? = some x) :
    (∃ x₀, c.insts[i]? = some x₀ ∧ x.cls = x₀.cls ∧
      ((∃ b v, o = .setInst i b v ∧ c.set x₀ b v = .ok x) ∨
        (x = x₀ ∧ ∀ b v, o = .setInst i b v → ∃ e, c.set x₀ b v = .error e))) ∨
    (∃ K, o = .create K ∧ x = newInstance K ∧ i = c.insts.length) := by
  cases o with
  | setClass K' b v => exact Or.inl ⟨x, hx, rfl, Or.inr ⟨rfl, by simp⟩⟩
  | create K' =>
    simp only [Classes.step] at hx
    rw [List.getElem?_append] at hx
    split at hx
    · exact Or.inl ⟨x, hx, rfl, Or.inr ⟨rfl, by simp⟩⟩
    · rename_i hi
      right
      have : i - c.insts.length = 0 := by
        by_contra h0
        rw [List.getElem?_eq_none (by simp; omega)] at hx
        cases hx
      rw [this] at hx
      simp only [List.getElem?_cons_zero, Option.some.injEq] at hx
      exact ⟨K', rfl, hx.symm, by omega⟩
  | setInst j b v =>
    left
    simp only [Classes.step] at hx
    cases hj : c.insts[j]? with
    | none =>
      rw [hj] at hx
      refine ⟨x, hx, rfl, Or.inr ⟨rfl, ?_⟩⟩
      rintro b' v' e
      cases e
      simp only at hx
      rw [hj] at hx
      cases hx
    | some y =>
      rw [hj] at hx
      simp only at hx
      cases hs : c.set y b v with
      | error e =>
        rw [hs] at hx
        refine ⟨x, hx, rfl, Or.inr ⟨rfl, ?_⟩⟩
        rintro b' v' e'
        cases e'
        simp only at hx
        rw [hj] at hx
        cases hx
        exact ⟨e, hs⟩
      | ok z =>
        rw [hs] at hx
        simp only at hx
        have hcls : z.cls = y.cls := by
          unfold Classes.set at hs
          split at hs
          · split at hs
            · rw [← Except.ok.inj hs]
            · cases hs
          · rw [← Except.ok.inj hs]
        rw [List.getElem?_set] at hx
        split at hx
        · rename_i hk
          subst hk
          rw [if_pos (List.getElem?_eq_some_iff.1 hj).1] at hx
          cases hx
          exact ⟨y, hj, hcls, Or.inl ⟨b, v, rfl, hs⟩⟩
        · rename_i hk
          exact ⟨x, hx, rfl, Or.inr ⟨rfl, fun b' v' e => by cases e; exact absurd rfl hk⟩⟩

/-- While the property is in force. -/
theorem inst_before (hd : Declared h) {x : Instance} (hx : (Classes.after h).insts[i]? = some x) (hp : HasProperty x.cls a)
    (hr : ¬ Replaced h x.cls a) :
    x.own a = none ∧ x.hidden a = (assignedTo h i a (valid a)).getD ((newInstance x.cls).hidden a) := by
  induction h using List.reverseRecOn generalizing x with
  | nil => simp [Classes.after, Classes.init] at hx
  | append_singleton h o ih =>
    rw [after_snoc] at hx
    rw [assignedTo_snoc]
    rcases step_inst hx with ⟨x₀, h0, hc, hs | ⟨rfl, hs⟩⟩ | ⟨K', rfl, rfl, hi⟩
    · obtain ⟨b, v, rfl, hs⟩ := hs
      have hr0 : ¬ Replaced h x₀.cls a := fun hh => hr (hc ▸ hh.mono)
      obtain ⟨i1, i2⟩ := ih hd.init h0 (hc ▸ hp) hr0
      unfold Classes.set at hs
      by_cases hb : b = a
      · subst hb
        rcases find_after h (hc ▸ hp) with ⟨h1, -⟩ | ⟨-, h2⟩
        · rw [h1] at hs
          simp only at hs
          split at hs
          · rename_i hacc
            have hv : valid b v = true := by rw [← hacc]; cases b <;> cases v <;> rfl
            rw [← Except.ok.inj hs]
            simp [hv, i1]
          · cases hs
        · exact absurd h2 hr0
      · have : x.own a = x₀.own a ∧ x.hidden a = x₀.hidden a := by
          split at hs
          · split at hs
            · rw [← Except.ok.inj hs]
              exact ⟨rfl, if_neg (Ne.symm hb)⟩
            · cases hs
          · rw [← Except.ok.inj hs]
            exact ⟨if_neg (Ne.symm hb), rfl⟩
        simp only
        rw [if_neg (by rintro ⟨-, h, -⟩; exact hb h), this.1, this.2, hc]
        exact ⟨i1, i2⟩
    · have hr0 : ¬ Replaced h x.cls a := fun hh => hr hh.mono
      obtain ⟨i1, i2⟩ := ih hd.init h0 hp hr0
      refine ⟨i1, ?_⟩
      rw [i2]
      cases o with
      | setClass K' b v => rfl
      | create K' => rfl
      | setInst j b v =>
        simp only
        by_cases hk : j = i ∧ b = a ∧ valid a v = true
        · obtain ⟨rfl, rfl, hv⟩ := hk
          obtain ⟨e, he⟩ := hs b v rfl
          unfold Classes.set at he
          have hacc : accepted b v = true := by rw [← hv]; cases b <;> cases v <;> rfl
          rw [hacc] at he
          split at he <;> simp at he
        · rw [if_neg hk]
    · have hn := insts_length h
      refine ⟨rfl, ?_⟩
      simp only
      rw [assignedTo_none hd.init (by rw [← hn, List.length_map]; exact hi.ge)]
      rfl

/-- **C99** (an instance on its own). -/
theorem C99_private (hd : Declared h) {x : Instance} (hx : (Classes.after h).insts[i]? = some x)
    (hr : ¬ Replaced h x.cls .model) :
    (Classes.after h).get x .model = .ok ((assignedTo h i .model (valid .model)).getD (.str "")) := by
  have hp : HasProperty x.cls .model := trivial
  unfold Classes.get
  rcases find_after h hp with ⟨h1, -⟩ | ⟨-, h2⟩
  · rw [h1]
    simp only
    rw [(inst_before hd hx hp hr).2]
    rfl
  · exact absurd h2 hr

theorem assignedTo_append (p q : List AttrOp) {ok : Obj → Bool} (hn : assignedTo (p ++ q) i a ok = none) :
    assignedTo q i a ok = none := by
  unfold assignedTo at hn ⊢
  rw [List.reverse_append, List.findSome?_append] at hn
  cases hq : List.findSome? _ q.reverse with
  | none => rfl
  | some y => rw [hq] at hn; simp at hn

/-- Once the property is gone, the entries of an instance are what was assigned to it since. -/
theorem inst_after {pre post : List AttrOp} {K' : Cls} {v₀ : Obj} {x : Instance}
    (hd : Declared (pre ++ .setClass K' .model v₀ :: post))
    (hx : (Classes.after (pre ++ .setClass K' .model v₀ :: post)).insts[i]? = some x) (hK : K' = x.cls ∨ K' = .abs)
    (hr : ¬ Replaced pre x.cls .model) : x.own .model = assignedTo post i .model fun _ => true := by
  induction post using List.reverseRecOn generalizing x with
  | nil =>
    have hx' : (Classes.after pre).insts[i]? = some x := by
      rw [after_snoc] at hx
      exact hx
    exact (inst_before (a := .model) hd.init hx' trivial hr).1
  | append_singleton post o ih =>
    have e : pre ++ AttrOp.setClass K' .model v₀ :: (post ++ [o]) = (pre ++ .setClass K' .model v₀ :: post) ++ [o] := by simp
    rw [e] at hd hx
    rw [after_snoc] at hx
    rw [assignedTo_snoc]
    have hrep : ∀ y : Cls, K' = y ∨ K' = .abs → Replaced (pre ++ .setClass K' .model v₀ :: post) y .model := by
      intro y hy
      have : Replaced (pre ++ [.setClass K' .model v₀]) y .model := by
        unfold Replaced
        rw [assigned_snoc, assigned_snoc]
        rcases hy with rfl | rfl <;> simp
      clear ih hd hx e
      induction post using List.reverseRecOn with
      | nil => exact this
      | append_singleton post o ih => simpa using ih.mono (o := o)
    rcases step_inst hx with ⟨x₀, h0, hc, hs | ⟨rfl, hs⟩⟩ | ⟨K₁, rfl, rfl, hi⟩
    · obtain ⟨b, v, rfl, hs⟩ := hs
      have i1 := ih hd.init h0 (hc ▸ hK) (hc ▸ hr)
      rcases find_after (pre ++ .setClass K' .model v₀ :: post) (K := x₀.cls) (a := .model) trivial with ⟨-, h2⟩ | ⟨⟨w, h2, -⟩, -⟩
      · exact absurd (hrep _ (hc ▸ hK)) h2
      · unfold Classes.set at hs
        cases b with
        | model =>
          rw [h2] at hs
          rw [← Except.ok.inj hs]
          simp
        | list =>
          have : x.own .model = x₀.own .model := by
            split at hs
            · split at hs
              · rw [← Except.ok.inj hs]
              · cases hs
            · rw [← Except.ok.inj hs]
              simp
          rw [this, i1]
          simp
    · rw [ih hd.init h0 hK hr]
      cases o with
      | setClass K₁ b v => rfl
      | create K₁ => rfl
      | setInst j b v =>
        simp only
        by_cases hk : j = i ∧ b = .model
        · obtain ⟨rfl, rfl⟩ := hk
          obtain ⟨e₁, he⟩ := hs .model v rfl
          rcases find_after (pre ++ .setClass K' .model v₀ :: post) (K := x.cls) (a := .model) trivial with
            ⟨-, h2⟩ | ⟨⟨w, h2, -⟩, -⟩
          · exact absurd (hrep _ hK) h2
          · unfold Classes.set at he
            rw [h2] at he
            cases he
        · rw [if_neg (by rintro ⟨h1, h2, -⟩; exact hk ⟨h1, h2⟩)]
    · have hn := insts_length (pre ++ .setClass K' .model v₀ :: post)
      have h1 : assignedTo (pre ++ .setClass K' .model v₀ :: post) i .model (fun _ => true) = none :=
        assignedTo_none hd.init (by rw [← hn, List.length_map]; exact hi.ge)
      have h2 : assignedTo post i .model (fun _ => true) = none :=
        assignedTo_append (pre ++ [.setClass K' .model v₀]) post (by rw [← h1]; simp)
      simp only
      rw [h2]
      rfl

/-- **C99** (an instance after its class was assigned): what was chosen for it before is hidden. -/
theorem C99_instance {pre post : List AttrOp} {K' : Cls} {v₀ cur : Obj} {x : Instance}
    (hd : Declared (pre ++ .setClass K' .model v₀ :: post))
    (hx : (Classes.after (pre ++ .setClass K' .model v₀ :: post)).insts[i]? = some x) (hK : K' = x.cls ∨ K' = .abs)
    (hr : ¬ Replaced pre x.cls .model)
    (hcur : (Classes.after (pre ++ .setClass K' .model v₀ :: post)).read x.cls .model = .ok (.obj cur)) :
    (Classes.after (pre ++ .setClass K' .model v₀ :: post)).get x .model =
      .ok ((assignedTo post i .model fun _ => true).getD cur) := by
  rw [← inst_after hd hx hK hr]
  unfold Classes.get
  unfold Classes.read at hcur
  cases hf : (Classes.after (pre ++ .setClass K' .model v₀ :: post)).find x.cls .model with
  | none => rw [hf] at hcur; cases hcur
  | some s =>
    rw [hf] at hcur
    rw [Except.ok.inj hcur]

/-- **C99** (assigning to the base class): it reaches the classes that were never assigned themselves, and no others. -/
theorem C99_base (h : List AttrOp) (K : Cls) (v : Obj) : (Classes.after (h ++ [.setClass .abs .model v])).read K .model =
    if K = .abs ∨ assigned h K .model = none then .ok (.obj v) else (Classes.after h).read K .model := by
  rw [C99_class, C99_class, assigned_snoc, assigned_snoc]
  by_cases hK : K = .abs
  · subst hK; simp
  · have hK' : ¬ Cls.abs = K := fun e => hK e.symm
    cases hk : assigned h K .model <;> simp [hK, hK']

/-- **C99** (selecting a model as documented for `h2o_absorption`) is not possible in every state: after a simulator was
told its model, assigning to `AbsModel` changes nothing. -/
theorem C99_documented_refuted : ¬ ∀ (h : List AttrOp) (K : Cls) (m : String),
    (Classes.after (h ++ [.setClass .abs .model (.str m)])).read K .model = .ok (.obj (.str m)) := fun H => by
  have := H [.setClass .h2o .model (.str "R98")] .h2o "R16"
  rw [C99_base] at this
  simp [C99_class, assigned] at this

/-- **C99** (line lists): the setter refuses what `set_ll` installs, as long as it is in force; afterwards it is gone. -/
theorem C99_line_list (h : List AttrOp) {x : Instance} (hK : x.cls = .h2o ∨ x.cls = .o2 ∨ x.cls = .o3) :
    (assigned h x.cls .list = none → (Classes.after h).set x .list .moduleObj = .error .valueError) ∧
      ∀ v, (Classes.after (h ++ [.setClass x.cls .list .moduleObj])).set x .list v ≠ .error .valueError := by
  constructor
  · intro hn
    exact (C99_rejected h (a := .list) (v := .moduleObj) hK).2 ⟨not_not.2 hn, rfl⟩
  · intro v hv
    have := ((C99_rejected _ (a := .list) hK).1 hv).1
    refine this (show assigned _ _ _ ≠ none from ?_)
    rw [assigned_snoc]
    simp

/-- The validation of models is lost in the same way. -/
theorem C99_unvalidated (h : List AttrOp) {x : Instance} (hK : K = x.cls ∨ K = .abs) (m : String) (v : Obj) :
    (Classes.after (h ++ [.setClass K .model (.str m)])).set x .model v ≠ .error .valueError := fun hv => by
  refine ((C99_rejected _ (a := .model) trivial).1 hv).1 ?_
  unfold Replaced
  rw [assigned_snoc, assigned_snoc]
  rcases hK with rfl | rfl <;> simp

/-! ## Simulations -/

/-- The assignments a call performs, tb_spectrum.py:187-190. -/
def assignments : Op → List AttrOp
  | .initAbsmdl m => [.setClass .h2o .model (.str m), .setClass .o2 .model (.str m), .setClass .n2 .model (.str m),
      .setClass .liq .model (.str m)]
  | .setH2O m => [.setClass .h2o .model (.str m)]
  | .setO2 m => [.setClass .o2 .model (.str m)]
  | .setN2 m => [.setClass .n2 .model (.str m)]
  | .setLiq m => [.setClass .liq .model (.str m)]
  | .setO3 m => [.setClass .o3 .model (.str m)]
  | _ => []

/-- The name a class carries, if any. -/
def nameOf : Except PyErr Slot → Option String
  | .ok (.obj (.str m)) => some m
  | _ => none

theorem assigned_append (p q : List AttrOp) (K : Cls) (a : AttrName) :
    assigned (p ++ q) K a = (assigned q K a).orElse fun _ => assigned p K a := by
  unfold assigned
  rw [List.reverse_append, List.findSome?_append]
  cases List.findSome? _ q.reverse <;> rfl

/-- **C99** (simulations): statements about instances between the calls of a program change no selection. -/
theorem C99_selection (A : AbsRoutines) (h : List Op) (t : List AttrOp)
    (ht : (t.filter fun | .setClass _ _ _ => true | _ => false) = h.flatMap assignments) :
    (World.after A h).g.sel = ⟨nameOf ((Classes.after t).read .h2o .model), nameOf ((Classes.after t).read .o2 .model),
      nameOf ((Classes.after t).read .n2 .model), nameOf ((Classes.after t).read .liq .model),
      nameOf ((Classes.after t).read .o3 .model)⟩ := by
  rw [C27_selection]
  simp only [C99_instances_irrelevant t, ht]
  clear ht t
  have habs : assigned (h.flatMap assignments) .abs .model = none := by
    unfold assigned
    rw [List.findSome?_eq_none_iff]
    intro o ho
    rw [List.mem_reverse, List.mem_flatMap] at ho
    obtain ⟨p, -, hp⟩ := ho
    cases p <;> simp [assignments] at hp <;> (try rcases hp with rfl | rfl | rfl | rfl) <;> simp_all
  have key (K : Cls) (f : Op → Option String) (hf : ∀ o, assigned (assignments o) K .model = (f o).map .str) :
      assigned (h.flatMap assignments) K .model = (latest f h).map .str := by
    clear habs
    induction h using List.reverseRecOn with
    | nil => rfl
    | append_singleton h o ih =>
      rw [List.flatMap_append, assigned_append, ih]
      simp only [List.flatMap_cons, List.flatMap_nil, List.append_nil, hf]
      unfold latest
      rw [List.reverse_append]
      cases hfo : f o <;> simp [hfo]
  have name (o : Option String) : nameOf (.ok (match o.map Obj.str, (none : Option Obj) with
      | some v, _ => Slot.obj v
      | none, some v => .obj v
      | none, none => .property)) = o := by cases o <;> rfl
  unfold lastSel
  simp only [C99_class, habs]
  congr 1
  · rw [key .h2o _ (f := fun | .initAbsmdl m => some m | .setH2O m => some m | _ => none)]
    · exact (name _).symm
    · intro o; cases o <;> simp [assignments, assigned]
  · rw [key .o2 _ (f := fun | .initAbsmdl m => some m | .setO2 m => some m | _ => none)]
    · exact (name _).symm
    · intro o; cases o <;> simp [assignments, assigned]
  · rw [key .n2 _ (f := fun | .initAbsmdl m => some m | .setN2 m => some m | _ => none)]
    · exact (name _).symm
    · intro o; cases o <;> simp [assignments, assigned]
  · rw [key .liq _ (f := fun | .initAbsmdl m => some m | .setLiq m => some m | _ => none)]
    · exact (name _).symm
    · intro o; cases o <;> simp [assignments, assigned]
  · rw [key .o3 _ (f := fun | .setO3 m => some m | _ => none)]
    · exact (name _).symm
    · intro o; cases o <;> simp [assignments, assigned]

/-- A program: two instances, one of them told its model before the class is. -/
def classDemo : List AttrOp :=
  [.create .h2o, .setInst 0 .model (.str "R98"), .setInst 0 .model (.str ""), .setClass .h2o .model (.str "R17"), .create .h2o,
    .setInst 1 .model (.str ""), .setClass .abs .model (.str "R16")]

/-- The class has R17, the first instance no longer R98, the second an invalid name; oxygen follows the base class. -/
example : ∃ x y, (Classes.after classDemo).insts = [x, y] ∧ (Classes.after classDemo).read .h2o .model = .ok (.obj (.str "R17")) ∧
    (Classes.after classDemo).get x .model = .ok (.str "R17") ∧ (Classes.after classDemo).get y .model = .ok (.str "") ∧
    (Classes.after classDemo).read .o2 .model = .ok (.obj (.str "R16")) := by
  refine ⟨_, _, rfl, ?_, ?_, ?_, ?_⟩ <;> rfl

/-- Before the class was assigned the first instance had its own model, and an empty name was refused. -/
example : ∃ x, (Classes.after (classDemo.take 2)).insts[0]? = some x ∧
    (Classes.after (classDemo.take 2)).get x .model = .ok (.str "R98") ∧
    (Classes.after (classDemo.take 2)).set x .model (.str "") = .error .valueError := ⟨_, rfl, rfl, by
      simp [Classes.set, classDemo, Classes.after, Classes.step, Classes.init, Classes.find, newInstance, accepted]⟩

example : Declared classDemo := by
  intro pre post i a v e
  unfold classDemo at e
  rcases pre with _ | ⟨a0, _ | ⟨a1, _ | ⟨a2, _ | ⟨a3, _ | ⟨a4, _ | ⟨a5, _ | ⟨a6, _ | ⟨a7, pre⟩⟩⟩⟩⟩⟩⟩⟩ <;> cases e <;>
    simp [createdClasses]

/-- A history with instances in between. -/
example (A : AbsRoutines) : (World.after A [.initAbsmdl "R19", .setO2 "R20"]).g.sel.o2 = some "R20" := by
  rw [C99_selection A _ [.setClass .h2o .model (.str "R19"), .create .o2, .setClass .o2 .model (.str "R19"),
    .setInst 0 .model (.str "R98"), .setClass .n2 .model (.str "R19"), .setClass .liq .model (.str "R19"),
    .setClass .o2 .model (.str "R20")] rfl]
  rfl

end Verif.Props
