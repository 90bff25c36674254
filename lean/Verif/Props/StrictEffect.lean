import Verif.Props.StrictOpacity
import Verif.Props.MoreOzone

/-!
# C122: more absorption is visible

The strict form of C112 and C117.
-/

namespace Verif.Props

open Verif.Py Verif.Spec Verif.Model Real

variable {A A' : AbsRoutines} {g g' : Globals} {I I' : Inst} {rows rows' : List Row} {κ : ℕ → ℝ}

/-- The path for angle `k` through layer `i` has a positive length. -/
def Crosses (S : Settings) (k i : ℕ) : Prop :=
  ∀ e rho d, vapor S.tk S.rh S.ice = .ok (e, rho) →
    pathOf S (fun i => (refractivity1 (S.p i) (S.tk i) (e i)).2.2) k = .ok d → 0 < d i

theorem crosses_plane {S : Settings} {k i : ℕ} (hr : S.rayTracing = false) (ha0 : 0 < S.angles k)
    (ha1 : S.angles k < 180) (h1 : 1 ≤ i) (hz : S.z (i - 1) < S.z i) : Crosses S k i := by
  intro e rho d _ hd
  have hs := sin_pos_of_angle ha0 ha1
  rw [pathOf_plane hr hs.ne'] at hd
  cases hd
  beta_reduce
  rw [if_neg (by omega)]
  exact mul_pos (by linarith) (by positivity)

/-- **C122.** From the ground: a model that absorbs more on both sides of some layer gives a strictly higher brightness
temperature. -/
theorem C122_more_ground (h : (execute A g I).1 = .ok rows) (h' : (execute A' g' I').1 = .ok rows') (hsc : SameScene I I')
    (hcl : SameClouds A A' g g' I I') (hn : 1 ≤ I.set.nl) {j k : ℕ} (hj : j < I.set.nf) (hk : k < I.set.nang)
    (hp : GoodPath I.set k)
    (hab : Absorbs I ((execute A g I).2.out.cell j k) ((execute A' g' I').2.out.cell j k))
    (hw : SameKind I.set.nl ((execute A g I).2.out.cell j k).awet ((execute A' g' I').2.out.cell j k).awet)
    (hy : SameKind I.set.nl ((execute A g I).2.out.cell j k).adry ((execute A' g' I').2.out.cell j k).adry)
    (hsat : I.set.satellite = false) (hf : 0 < I.set.frq j) (hc : Cooling I.set.nl I.set.tk)
    (htop : 2.728 < I.set.tk (I.set.nl - 1))
    (hop : ∀ τ, ((execute A' g' I').2.out.cell j k).taulay = some τ → opacityBelow τ (I.set.nl - 1) < 125)
    {i : ℕ} (h1 : 1 ≤ i) (h2 : i < I.set.nl) (hx : Crosses I.set k i)
    (hm : MoreAt ((execute A g I).2.out.cell j k) ((execute A' g' I').2.out.cell j k) i) :
    ∃ Tb Tb', ((execute A g I).2.out.cell j k).tbtotal = some Tb ∧
      ((execute A' g' I').2.out.cell j k).tbtotal = some Tb' ∧ Tb < Tb' := by
  obtain ⟨d, -, -, -, -, -, hd, -, -, -, -, -, -, -, -, key⟩ := scene_views h h' hsc hcl hn hj hk hp hab
  obtain ⟨τ, τ', es, out, out', t1, t2, ht, -, p1, b1, p2, b2, hs⟩ := key hw hy
  obtain ⟨g1, e, rho, -, hv, -⟩ := (execute_ok h).ex
  rw [hsat] at p1 p2
  obtain ⟨a, b, c, d, e, -⟩ := C122_ground hf hc htop ht (hop τ' t2) p1 p2
  exact ⟨a, b, b1.trans c, b2.trans d, e.2 ⟨i, h1, h2, hs i h1 h2 (hx _ _ _ hv (hd _ _ hv)) hm⟩⟩

/-- **C122.** From a satellite over a black surface: strictly lower, if the upper side of that layer is colder than the
surface. -/
theorem C122_more_satellite (h : (execute A g I).1 = .ok rows) (h' : (execute A' g' I').1 = .ok rows')
    (hsc : SameScene I I')
    (hcl : SameClouds A A' g g' I I') (hn : 1 ≤ I.set.nl) {j k : ℕ} (hj : j < I.set.nf) (hk : k < I.set.nang)
    (hp : GoodPath I.set k)
    (hab : Absorbs I ((execute A g I).2.out.cell j k) ((execute A' g' I').2.out.cell j k))
    (hw : SameKind I.set.nl ((execute A g I).2.out.cell j k).awet ((execute A' g' I').2.out.cell j k).awet)
    (hy : SameKind I.set.nl ((execute A g I).2.out.cell j k).adry ((execute A' g' I').2.out.cell j k).adry)
    (hsat : I.set.satellite = true) (hf : 0 < I.set.frq j) (hc : Cooling I.set.nl I.set.tk) (hes : I.set.es[j]? = some 1)
    (hop : ∀ τ, ((execute A' g' I').2.out.cell j k).taulay = some τ → opacityBelow τ (I.set.nl - 1) < 125)
    {i : ℕ} (h1 : 1 ≤ i) (h2 : i < I.set.nl) (hx : Crosses I.set k i)
    (hm : MoreAt ((execute A g I).2.out.cell j k) ((execute A' g' I').2.out.cell j k) i)
    (hcold : I.set.tk i < I.set.tk 0) :
    ∃ Tb Tb', ((execute A g I).2.out.cell j k).tbtotal = some Tb ∧
      ((execute A' g' I').2.out.cell j k).tbtotal = some Tb' ∧ Tb' < Tb := by
  obtain ⟨d, -, -, -, -, -, hd, -, -, -, -, -, -, -, -, key⟩ := scene_views h h' hsc hcl hn hj hk hp hab
  obtain ⟨τ, τ', es, out, out', t1, t2, ht, he, p1, b1, p2, b2, hs⟩ := key hw hy
  obtain ⟨g1, e, rho, -, hv, -⟩ := (execute_ok h).ex
  rw [hes] at he; cases he
  rw [hsat] at p1 p2
  obtain ⟨a, b, c, d, e, -⟩ := C122_satellite hf hc ht (hop τ' t2) p1 p2
  exact ⟨a, b, b1.trans c, b2.trans d, e.2 ⟨i, h1, h2, hs i h1 h2 (hx _ _ _ hv (hd _ _ hv)) hm, hcold⟩⟩

theorem ozone_moreAt (h : (execute A g I).1 = .ok rows) (h' : (execute A g I').1 = .ok rows') (hc : ChangesOzone I I')
    {j k : ℕ} (hj : j < I.set.nf) (hk : k < I.set.nang) (hl : OzoneLaw A g I.set (I.set.frq j) κ) {i : ℕ}
    (h2 : i < I.set.nl) (hm : ∀ l, l = i - 1 ∨ l = i → 0 < κ l ∧ ozoneAt I.set.o3n l < ozoneAt I'.set.o3n l) :
    MoreAt ((execute A g I).2.out.cell j k) ((execute A g I').2.out.cell j k) i := by
  obtain ⟨-, q, -⟩ := ozone_views h h' hc hj hk hl
  have one (l : ℕ) (e : l = i - 1 ∨ l = i) :
      ((execute A g I).2.out.cell j k).adry l < ((execute A g I').2.out.cell j k).adry l := by
    rw [q l (by omega)]
    have := mul_pos (hm l e).1 (sub_pos.2 (hm l e).2)
    linarith
  exact Or.inr ⟨one _ (Or.inl rfl), one _ (Or.inr rfl)⟩

/-- **C122.** More ozone on both sides of a layer, at a frequency at which it absorbs there, is seen from the ground. -/
theorem C122_ozone_ground (h : (execute A g I).1 = .ok rows) (h' : (execute A g I').1 = .ok rows') (hc : ChangesOzone I I')
    (hcl : I.set.cloudy = true ∨ I.set.cloudy = false ∧ NoClouds I.out) (hn : 1 ≤ I.set.nl)
    {j k : ℕ} (hj : j < I.set.nf) (hk : k < I.set.nang) (hl : OzoneLaw A g I.set (I.set.frq j) κ)
    (hp : GoodPath I.set k)
    (hκ : ∀ i < I.set.nl, 0 ≤ κ i) (hmore : ∀ i < I.set.nl, ozoneAt I.set.o3n i ≤ ozoneAt I'.set.o3n i)
    (hpos : ∀ i < I.set.nl, 0 < ((execute A g I).2.out.cell j k).awet i ∧ 0 < ((execute A g I).2.out.cell j k).adry i)
    (hy : SameKind I.set.nl ((execute A g I).2.out.cell j k).adry ((execute A g I').2.out.cell j k).adry)
    (hsat : I.set.satellite = false) (hf : 0 < I.set.frq j) (hco : Cooling I.set.nl I.set.tk)
    (htop : 2.728 < I.set.tk (I.set.nl - 1))
    (hop : ∀ τ, ((execute A g I').2.out.cell j k).taulay = some τ → opacityBelow τ (I.set.nl - 1) < 125)
    {i : ℕ} (h1 : 1 ≤ i) (h2 : i < I.set.nl) (hx : Crosses I.set k i)
    (hm : ∀ l, l = i - 1 ∨ l = i → 0 < κ l ∧ ozoneAt I.set.o3n l < ozoneAt I'.set.o3n l) :
    ∃ Tb Tb', ((execute A g I).2.out.cell j k).tbtotal = some Tb ∧
      ((execute A g I').2.out.cell j k).tbtotal = some Tb' ∧ Tb < Tb' :=
  C122_more_ground h h' (changes_scene hc) (changes_clouds hc hcl) hn hj hk hp
    (ozone_absorbs h h' hc hj hk hl hκ hmore hpos) (by rw [(ozone_views h h' hc hj hk hl).1.1]; exact sameKind_refl) hy hsat
    hf hco htop hop h1 h2 hx (ozone_moreAt h h' hc hj hk hl h2 hm)

/-- **C122.** And from a satellite over a black surface, if the upper side of the layer is colder than the surface. -/
theorem C122_ozone_satellite (h : (execute A g I).1 = .ok rows) (h' : (execute A g I').1 = .ok rows')
    (hc : ChangesOzone I I')
    (hcl : I.set.cloudy = true ∨ I.set.cloudy = false ∧ NoClouds I.out) (hn : 1 ≤ I.set.nl)
    {j k : ℕ} (hj : j < I.set.nf) (hk : k < I.set.nang) (hl : OzoneLaw A g I.set (I.set.frq j) κ)
    (hp : GoodPath I.set k)
    (hκ : ∀ i < I.set.nl, 0 ≤ κ i) (hmore : ∀ i < I.set.nl, ozoneAt I.set.o3n i ≤ ozoneAt I'.set.o3n i)
    (hpos : ∀ i < I.set.nl, 0 < ((execute A g I).2.out.cell j k).awet i ∧ 0 < ((execute A g I).2.out.cell j k).adry i)
    (hy : SameKind I.set.nl ((execute A g I).2.out.cell j k).adry ((execute A g I').2.out.cell j k).adry)
    (hsat : I.set.satellite = true) (hf : 0 < I.set.frq j) (hco : Cooling I.set.nl I.set.tk)
    (hes : I.set.es[j]? = some 1)
    (hop : ∀ τ, ((execute A g I').2.out.cell j k).taulay = some τ → opacityBelow τ (I.set.nl - 1) < 125)
    {i : ℕ} (h1 : 1 ≤ i) (h2 : i < I.set.nl) (hx : Crosses I.set k i)
    (hm : ∀ l, l = i - 1 ∨ l = i → 0 < κ l ∧ ozoneAt I.set.o3n l < ozoneAt I'.set.o3n l)
    (hcold : I.set.tk i < I.set.tk 0) :
    ∃ Tb Tb', ((execute A g I).2.out.cell j k).tbtotal = some Tb ∧
      ((execute A g I').2.out.cell j k).tbtotal = some Tb' ∧ Tb' < Tb :=
  C122_more_satellite h h' (changes_scene hc) (changes_clouds hc hcl) hn hj hk hp
    (ozone_absorbs h h' hc hj hk hl hκ hmore hpos) (by rw [(ozone_views h h' hc hj hk hl).1.1]; exact sameKind_refl) hy hsat
    hf hco hes hop h1 h2 hx (ozone_moreAt h h' hc hj hk hl h2 hm) hcold

/-! ## Concrete runs -/

theorem tip_crosses (sat : Bool) {k : ℕ} (hk : k < 2) : Crosses (tipS sat) k 1 :=
  crosses_plane rfl (demo_angles k hk).1 (demo_angles k hk).2 le_rfl (by norm_num [tipS, demoS])

theorem thin_more (sat : Bool) : MoreAt ((execute thinA demoG ⟨tipS sat, Store.zero⟩).2.out.cell 0 1)
    ((execute demoA demoG ⟨tipS sat, Store.zero⟩).2.out.cell 0 1) 1 := by
  obtain ⟨rows, h⟩ := thin_runs sat
  obtain ⟨rows', h'⟩ := tip_runs sat
  have hd := db2np_pos'
  left
  rw [(thin_values (by decide) h (by decide)).1, (thin_values (by decide) h (by decide)).1,
    (tip_values (by decide) h' (by decide)).1, (tip_values (by decide) h' (by decide)).1]
  constructor <;> nlinarith

example : ∃ Tb Tb', ((execute thinA demoG ⟨tipS false, Store.zero⟩).2.out.cell 0 1).tbtotal = some Tb ∧
    ((execute demoA demoG ⟨tipS false, Store.zero⟩).2.out.cell 0 1).tbtotal = some Tb' ∧ Tb < Tb' := by
  obtain ⟨rows, h⟩ := thin_runs false
  obtain ⟨rows', h'⟩ := tip_runs false
  obtain ⟨s1, s2, s3⟩ := tip_scene false
  obtain ⟨a1, a2, a3⟩ := thin_absorbs (k := 1) (by decide) h h'
  exact C122_more_ground h h' s1 s2 (show 1 ≤ 3 by decide) (show 0 < 2 by decide) (show 1 < 2 by decide) (s3 1 (by decide))
    a1 a2 a3 rfl (by norm_num [tipS, demoS]) (tip_cooling false) (by norm_num [tipS, demoS])
    (fun τ ht => tip_opacity (by decide) h' ht) le_rfl (show 1 < 3 by decide) (tip_crosses false (by decide)) (thin_more false)

example : ∃ Tb Tb', ((execute thinA demoG ⟨tipS true, Store.zero⟩).2.out.cell 0 1).tbtotal = some Tb ∧
    ((execute demoA demoG ⟨tipS true, Store.zero⟩).2.out.cell 0 1).tbtotal = some Tb' ∧ Tb' < Tb := by
  obtain ⟨rows, h⟩ := thin_runs true
  obtain ⟨rows', h'⟩ := tip_runs true
  obtain ⟨s1, s2, s3⟩ := tip_scene true
  obtain ⟨a1, a2, a3⟩ := thin_absorbs (k := 1) (by decide) h h'
  exact C122_more_satellite h h' s1 s2 (show 1 ≤ 3 by decide) (show 0 < 2 by decide) (show 1 < 2 by decide) (s3 1 (by decide))
    a1 a2 a3 rfl (by norm_num [tipS, demoS]) (tip_cooling true) (by simp [tipS, demoS])
    (fun τ ht => tip_opacity (by decide) h' ht) le_rfl (show 1 < 3 by decide) (tip_crosses true (by decide)) (thin_more true)
    (by norm_num [tipS, demoS])

example : ∃ Tb Tb', ((execute demoO demoGO ⟨demoOzoneS false 1, Store.zero⟩).2.out.cell 0 1).tbtotal = some Tb ∧
    ((execute demoO demoGO ⟨demoOzoneS false 100, Store.zero⟩).2.out.cell 0 1).tbtotal = some Tb' ∧ Tb < Tb' := by
  obtain ⟨rows, h⟩ := moreOzone_runs false 1
  obtain ⟨rows', h'⟩ := moreOzone_runs false 100
  exact C122_ozone_ground h h' (ozone_changes _ _ _) (Or.inr ⟨rfl, fun _ _ => ⟨rfl, rfl, rfl, rfl, rfl⟩⟩)
    (show 1 ≤ 3 by decide) (show 0 < 2 by decide) (show 1 < 2 by decide) (moreOzone_law _ _ _)
    (moreOzone_path _ _ (by decide)) (fun _ _ => by norm_num) (fun _ _ => by norm_num [ozoneAt, demoOzoneS])
    (moreOzone_pos zero_le_one) moreOzone_kind rfl (by norm_num [demoOzoneS, tipS, demoS]) (tip_cooling false)
    (by norm_num [demoOzoneS, tipS, demoS]) (fun τ ht => moreOzone_opacity (by norm_num) le_rfl (by decide) ht) le_rfl
    (show 1 < 3 by decide) (tip_crosses false (by decide)) fun l _ => by norm_num [ozoneAt, demoOzoneS]

example : ∃ Tb Tb', ((execute demoO demoGO ⟨demoOzoneS true 1, Store.zero⟩).2.out.cell 0 1).tbtotal = some Tb ∧
    ((execute demoO demoGO ⟨demoOzoneS true 100, Store.zero⟩).2.out.cell 0 1).tbtotal = some Tb' ∧ Tb' < Tb := by
  obtain ⟨rows, h⟩ := moreOzone_runs true 1
  obtain ⟨rows', h'⟩ := moreOzone_runs true 100
  exact C122_ozone_satellite h h' (ozone_changes _ _ _) (Or.inr ⟨rfl, fun _ _ => ⟨rfl, rfl, rfl, rfl, rfl⟩⟩)
    (show 1 ≤ 3 by decide) (show 0 < 2 by decide) (show 1 < 2 by decide) (moreOzone_law _ _ _)
    (moreOzone_path _ _ (by decide)) (fun _ _ => by norm_num) (fun _ _ => by norm_num [ozoneAt, demoOzoneS])
    (moreOzone_pos zero_le_one) moreOzone_kind rfl (by norm_num [demoOzoneS, tipS, demoS]) (tip_cooling true)
    (by simp [demoOzoneS, tipS, demoS]) (fun τ ht => moreOzone_opacity (by norm_num) le_rfl (by decide) ht) le_rfl
    (show 1 < 3 by decide) (tip_crosses true (by decide)) (fun l _ => by norm_num [ozoneAt, demoOzoneS])
    (by norm_num [demoOzoneS, tipS, demoS])

end Verif.Props
