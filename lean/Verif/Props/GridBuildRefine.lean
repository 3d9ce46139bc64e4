import Verif.GridHeapBuild
import Verif.Props.GridSession
import Verif.Props.Quadrants

/-!
# Building by reference refines building by value
-/

set_option linter.unusedSectionVars false

namespace Beyonce
open Spec

section
variable {K : Type} [Field K] [LinearOrder K] [IsStrictOrderedRing K]

/-- No condition on what changes. -/
def Any (_ _ : GWorld K) : Prop := True

theorem any_pre : Pre (Any (K := K)) := ⟨fun _ => trivial, fun _ _ => trivial⟩

/-- The step refines, and there is nothing to say about the result. -/
abbrev Builds (mh : Meth (GWorld K) Unit) (mv : Meth (Shallot K) Unit) (w : GWorld K) : Prop :=
  Refines Any (fun _ _ _ => True) mh mv w

theorem Builds.seq {mh nh : Meth (GWorld K) Unit} {mv nv : Meth (Shallot K) Unit} {w : GWorld K}
    (h1 : Builds mh mv w) (h2 : ∀ w', Apart w' → Builds nh nv w') :
    Builds (mh >>= fun _ => nh) (mv >>= fun _ => nv) w :=
  h1.bind any_pre fun _ _ w' hw' _ _ => h2 w' hw'

theorem refines_any {α β : Type} {P : GWorld K → GWorld K → Prop} {R : GWorld K → α → β → Prop}
    {mh : Meth (GWorld K) α} {mv : Meth (Shallot K) β} {w : GWorld K} (h : Refines P R mh mv w) :
    Refines Any (fun _ _ _ => True) mh mv w :=
  h.mono (fun _ _ => trivial) fun _ _ _ _ _ => trivial

/-- A new property with a new array. -/
theorem placed_builds {w : GWorld K} (hw : Apart w) (c : Cube) (a : NpArr K) (q : GProp K)
    (hd : q.data = ⟨a.shape, a.data⟩) (hm : q.mask = none)
    {mh : Meth (GWorld K) Unit} {mv : Meth (Shallot K) Unit}
    (hh : mh w = (.ok (), ⟨w.arrays ++ [a], w.grid.setProp
      ⟨q.name, q.unit, q.params, w.arrays.length, none, q.vmin, q.vmax, q.colorMap, q.numColors⟩ c⟩))
    (hv : mv w.view = (.ok (), w.view.setProp q c)) : Builds mh mv w := by
  have hA := grown_append w a
  have ho : Own w (w.arrays ++ [a]) (.cube c)
      ⟨q.name, q.unit, q.params, w.arrays.length, none, q.vmin, q.vmax, q.colorMap, q.numColors⟩ :=
    ⟨.inr le_rfl, by simp, by simp, by simp, by simp⟩
  have hs := setProp_slot w.grid
    ⟨q.name, q.unit, q.params, w.arrays.length, none, q.vmin, q.vmax, q.colorMap, q.numColors⟩ c
  refine ⟨?_, ?_, trivial, ?_⟩
  · rw [hh]; exact insert_apart hw hA hs ho
  · rw [hh, hv]
    show (w.grid.setProp _ c).view (w.arrays ++ [a]) = _
    rw [setProp_view, hA.view hw]
    congr 1
    obtain ⟨n, u, g, d, m, lo, hi, cm, nc⟩ := q
    simp only at hd hm
    subst hd hm
    unfold HProp.view
    simp only [arrayAt_last, Option.map_none]
  · rw [hh, hv]; exact .ok trivial

theorem failed_builds {w : GWorld K} (hw : Apart w) {A : List (NpArr K)} (hA : Grown w A) (e : Err)
    {mh : Meth (GWorld K) Unit} {mv : Meth (Shallot K) Unit}
    (hh : mh w = (.error e, { w with arrays := A })) (hv : mv w.view = (.error e, w.view)) :
    Builds mh mv w := by
  refine ⟨?_, ?_, trivial, ?_⟩
  · rw [hh]; exact grown_apart hw hA
  · rw [hh, hv]; exact hA.view hw
  · rw [hh, hv]; exact .error e

/-- By value: `self.… = GridProperty(…)`. -/
def putVal (c : Cube) (e : Except Err (GProp K)) : Meth (Shallot K) Unit := do
  let p ← Meth.lift e
  Meth.modify fun s => s.setProp p c

theorem putNew_builds {w : GWorld K} (hw : Apart w) (c : Cube) (name : PropName) (unit : PropUnit)
    (a : NpArr K) (g : GridParams K) :
    Builds (GWorld.putNew c name unit a g) (putVal c (GProp.new name unit (.arr a) g)) w := by
  unfold GWorld.putNew putVal
  cases hp : GProp.new name unit (.arr a) g with
  | error e => exact failed_builds hw (grown_append w a) e rfl rfl
  | ok q =>
    obtain ⟨b, hb, -, -, hq⟩ := (prop_new_ok_iff _ _ _ _ _).1 hp
    cases hb
    refine placed_builds hw c a q (by rw [hq]) (by rw [hq]) ?_ rfl
    subst hq
    rfl

theorem place_builds {w : GWorld K} (hw : Apart w) (c : Cube) (e : Except Err (GProp K))
    (he : ∀ q, e = .ok q → q.mask = none) : Builds (GWorld.place c e) (putVal c e) w := by
  unfold GWorld.place putVal
  cases e with
  | error e => exact failed_builds hw (grown_refl w) e rfl rfl
  | ok q => exact placed_builds hw c ⟨"float64", q.data.shape, q.data.data⟩ q rfl (he q rfl) rfl rfl

/-! ## Rows -/

theorem putColumn_shape {d d' : Nd K} {y x : ℕ} {v : List (XF K)}
    (h : Shallot.putColumn d y x v = .ok d') : d'.shape = d.shape := by
  unfold Shallot.putColumn at h
  split at h
  · rename_i a b c hs
    split at h
    · cases h; rw [hs]; rfl
    · cases h
  · cases h

theorem setColumn_builds {w : GWorld K} (hw : Apart w) (c : Cube) (y x : ℕ) (v : List (XF K)) :
    Builds (GWorld.setColumn c y x v) (Shallot.onProp c (Shallot.setColumn y x v)) w := by
  cases hp : w.grid.prop c with
  | none =>
    have hv : w.view.prop c = none := by
      have := view_slot w.arrays w.grid (.cube c)
      simp only [HGrid.slot, hp, Option.map_none] at this
      exact this
    refine failed_builds hw (grown_refl w) .attributeError ?_ ?_
    · unfold GWorld.setColumn; rw [hp]
    · unfold Shallot.onProp; rw [hv]
  | some p =>
    have hslot : w.grid.slot (.cube c) = some p := hp
    have hov : ∀ (m : Meth (GProp K) Unit), Shallot.onProp c m w.view =
        ((m (p.view w.arrays)).1, w.view.setProp (m (p.view w.arrays)).2 c) :=
      fun m => onSlot_some m (.cube c) w.view _ (world_slot hslot)
    have hsame : w.view.setProp (p.view w.arrays) c = w.view :=
      setSlot_self (.cube c) _ _ (world_slot hslot)
    have em : Shallot.setColumn y x v (p.view w.arrays) = (do
        let d ← Meth.lift (Shallot.putColumn (ndAt w.arrays p.data) y x v)
        Meth.set { p.view w.arrays with data := d } : Meth (GProp K) Unit) (p.view w.arrays) := rfl
    cases hc : Shallot.putColumn (ndAt w.arrays p.data) y x v with
    | error e =>
      rw [hc] at em
      refine failed_builds hw (grown_refl w) e ?_ ?_
      · unfold GWorld.setColumn; rw [hp]; dsimp only; rw [hc]
      · rw [hov, em]; exact congrArg _ hsame
    | ok d =>
      rw [hc] at em
      have e1 : GWorld.setColumn c y x v w =
          (.ok (), { w with arrays := storeData w.arrays p.data d.data }) := by
        unfold GWorld.setColumn; rw [hp]; dsimp only; rw [hc]
      have hsh : d.shape = (arrayAt w.arrays p.data).shape := putColumn_shape hc
      have em : Shallot.setColumn y x v (p.view w.arrays) =
          (.ok (), { p.view w.arrays with data := ⟨(arrayAt w.arrays p.data).shape, d.data⟩ }) := by
        rw [em, ← hsh]; rfl
      refine ⟨?_, ?_, trivial, ?_⟩
      · rw [e1]; exact store_apart hw _ _
      · rw [e1, hov, em]; exact view_store hw hslot d.data
      · rw [e1, hov, em]; exact .ok trivial

theorem storeColumn_builds {w : GWorld K} (hw : Apart w) (y x : ℕ) (c : Shallot.Column K) :
    Builds (GWorld.storeColumn y x c) (Shallot.storeColumn y x c) w := by
  unfold GWorld.storeColumn Shallot.storeColumn
  refine (setColumn_builds hw _ _ _ _).seq fun w1 h1 => ?_
  refine (setColumn_builds h1 _ _ _ _).seq fun w2 h2 => ?_
  refine (setColumn_builds h2 _ _ _ _).seq fun w3 h3 => ?_
  refine (setColumn_builds h3 _ _ _ _).seq fun w4 h4 => ?_
  exact setColumn_builds h4 _ _ _ _

theorem storeDiagnostic_builds {w : GWorld K} (hw : Apart w) (y x : ℕ) (c : Shallot.Column K) :
    Builds (GWorld.storeDiagnostic y x c) (Shallot.storeDiagnostic y x c) w := by
  have hv : w.view.diagnostics = w.grid.diagnostics := rfl
  cases hd : w.grid.diagnostics with
  | none =>
    rw [hd] at hv
    have e1 : GWorld.storeDiagnostic y x c w = (.ok (), w) := by
      unfold GWorld.storeDiagnostic; rw [hd]
    have e2 : Shallot.storeDiagnostic y x c w.view = (.ok (), w.view) := by
      unfold Shallot.storeDiagnostic; rw [hv]
    exact ⟨by rw [e1]; exact hw, by rw [e1, e2], trivial, by rw [e1, e2]; exact .ok trivial⟩
  | some d =>
    rw [hd] at hv
    obtain ⟨q, hq⟩ : ∃ q, q = Diagnostics.save (.int y) (.int x)
      (.arr ⟨"float64", [c.fy.length], c.fy⟩) (.arr ⟨"float64", [c.radius.length], c.radius⟩) d :=
      ⟨_, rfl⟩
    have e1 : GWorld.storeDiagnostic y x c w =
        (q.1, { w with grid := { w.grid with diagnostics := some q.2 } }) := by
      unfold GWorld.storeDiagnostic; rw [hd, hq]
    have e2 : Shallot.storeDiagnostic y x c w.view =
        (q.1, { w.view with diagnostics := some q.2 }) := by
      unfold Shallot.storeDiagnostic; rw [hv, hq]
    obtain ⟨r, d'⟩ := q
    refine ⟨?_, ?_, trivial, ?_⟩
    · rw [e1]; exact embed_apart hw id (fun _ _ h => h) fun a p h => by
        cases a with
        | cube c => cases c <;> exact h
        | gradient k => exact h
    · rw [e1, e2]; rfl
    · rw [e1, e2]
      cases r with
      | ok u => exact .ok trivial
      | error e => exact .error e

variable [RealFns K]

theorem buildCell_builds {w : GWorld K} (hw : Apart w) (y x : ℕ) :
    Builds (GWorld.buildCell y x) (Shallot.buildCell y x) w := by
  unfold GWorld.buildCell Shallot.buildCell
  refine Refines.self_bind ?_
  split
  · exact Refines.pure any_pre hw _ _ trivial
  · refine Refines.lift_bind any_pre hw _ fun c _ => ?_
    exact (storeColumn_builds hw y x c).seq fun w1 h1 => storeDiagnostic_builds h1 y x c

theorem buildRow_builds (y n : ℕ) : ∀ (x : ℕ) {w : GWorld K} (_ : Apart w),
    Builds (GWorld.buildRow y n x) (Shallot.buildRow y n x) w := by
  induction n with
  | zero => exact fun x w hw => Refines.pure any_pre hw _ _ trivial
  | succ n ih =>
    intro x w hw
    unfold GWorld.buildRow Shallot.buildRow
    exact (buildCell_builds hw y x).seq fun w1 h1 => ih (x + 1) h1

theorem buildRows_builds (n : ℕ) : ∀ (y : ℕ) {w : GWorld K} (_ : Apart w),
    Builds (GWorld.buildRows n y) (Shallot.buildRows n y) w := by
  induction n with
  | zero => exact fun y w hw => Refines.pure any_pre hw _ _ trivial
  | succ n ih =>
    intro y w hw
    unfold GWorld.buildRows Shallot.buildRows
    refine Refines.self_bind ?_
    exact (buildRow_builds y _ 0 hw).seq fun w1 h1 => ih (y + 1) h1

/-! ## Colors -/

theorem contrast_view (A : List (NpArr K)) (p : HProp K) (a b c n : PyVal K) :
    (GWorld.contrast p (GProp.setContrast a b c n (p.view A)).2).view A =
      (GProp.setContrast a b c n (p.view A)).2 := by
  obtain ⟨h1, h2, h3, h4, h5⟩ := setContrast_frame a b c n (p.view A)
  generalize (GProp.setContrast a b c n (p.view A)).2 = q at *
  obtain ⟨n, u, g, d, m, lo, hi, cm, nc⟩ := q
  simp only at h1 h2 h3 h4 h5
  subst h1 h2 h3 h4 h5
  rfl

/-- Attributes of the property in a slot other than arrays. -/
theorem keep_own {w : GWorld K} (hw : Apart w) {a : Slot} {p p' : HProp K}
    (ha : w.grid.slot a = some p) (hd : p'.data = p.data) (hm : p'.mask = p.mask) :
    Own w w.arrays a p' := by
  have hd0 := ref_data ha
  have hm0 := ref_mask ha
  refine ⟨.inl (by rw [hd]; exact hd0), by rw [hd]; exact hw.bound _ _ hd0, fun r h => .inl ?_,
    fun r h => ?_, fun h => ?_⟩
  · rw [hm0, ← hm, h]
  · exact hw.bound (a, true) r (by rw [hm0, ← hm, h])
  · have := hw.inj (a, true) (a, false) p.data (by rw [hm0, ← hm, h, hd]) hd0
    simp at this

theorem recolor_builds {w : GWorld K} (hw : Apart w) (c : Cube) (cm : PyVal K) :
    Builds (GWorld.recolor c cm) (Shallot.onProp c (GProp.setContrast .none .none cm .none)) w := by
  cases hp : w.grid.prop c with
  | none =>
    have hv : w.view.prop c = none := by
      have := view_slot w.arrays w.grid (.cube c)
      simp only [HGrid.slot, hp, Option.map_none] at this
      exact this
    refine failed_builds hw (grown_refl w) .attributeError ?_ ?_
    · unfold GWorld.recolor; rw [hp]
    · unfold Shallot.onProp; rw [hv]
  | some p =>
    have hslot : w.grid.slot (.cube c) = some p := hp
    have e2 : Shallot.onProp c (GProp.setContrast .none .none cm .none) w.view = _ :=
      onSlot_some _ (.cube c) w.view _ (world_slot hslot)
    have e1 : GWorld.recolor c cm w =
        ((GProp.setContrast .none .none cm .none (p.view w.arrays)).1, { w with
          grid := w.grid.setProp (GWorld.contrast p
            (GProp.setContrast .none .none cm .none (p.view w.arrays)).2) c }) := by
      unfold GWorld.recolor; rw [hp]
    have hcv := contrast_view w.arrays p .none .none cm .none
    refine ⟨?_, ?_, trivial, ?_⟩
    · rw [e1]
      exact insert_apart hw (grown_refl w) (setProp_slot w.grid _ c) (keep_own hw hslot rfl rfl)
    · rw [e1, e2]
      show (w.grid.setProp _ c).view w.arrays = _
      rw [setProp_view, hcv]
      rfl
    · rw [e1, e2]
      generalize (GProp.setContrast .none .none cm .none (p.view w.arrays)).1 = r
      cases r with
      | ok u => exact .ok trivial
      | error e => exact .error e

theorem recolorGradients_builds (n : ℕ) : ∀ (k : ℕ) {w : GWorld K} (_ : Apart w),
    Builds (GWorld.recolorGradients n k) (Shallot.recolorGradients n k) w := by
  induction n with
  | zero => exact fun k w hw => Refines.pure any_pre hw _ _ trivial
  | succ n ih =>
    intro k w hw
    unfold GWorld.recolorGradients Shallot.recolorGradients
    refine Builds.seq ?_ fun w1 h1 => ih (k + 1) h1
    have hv := view_gradient w k
    cases hg : w.grid.gradient k with
    | none =>
      rw [hg, Option.map_none] at hv
      refine failed_builds hw (grown_refl w) .indexError ?_ ?_
      · simp only [hg]
      · unfold Shallot.onGradient; rw [hv]
    | some g =>
      rw [hg, Option.map_some] at hv
      have hslot : w.grid.slot (.gradient k) = some g.prop := by
        simp only [HGrid.slot, hg, Option.map_some]
      have hcv := contrast_view w.arrays g.prop .none .none .none .none
      refine ⟨?_, ?_, trivial, ?_⟩
      · simp only [hg]
        exact insert_apart hw (grown_refl w) (setGradient_slot w.grid k _ g hg)
          (keep_own hw hslot rfl rfl)
      · simp only [hg]
        show (w.grid.setGradient k _).view w.arrays = _
        rw [setGradient_view]
        unfold Shallot.onGradient
        rw [hv]
        dsimp only
        congr 3
        unfold HGrad.view
        rw [hcv]
      · simp only [hg]
        unfold Shallot.onGradient
        rw [hv]
        show Same _ _ (GProp.setContrast .none .none .none .none (g.prop.view w.arrays)).1
        generalize (GProp.setContrast .none .none .none .none (g.prop.view w.arrays)).1 = r
        cases r with
        | ok u => exact .ok trivial
        | error e => exact .error e

theorem recolorDiagnostic_builds {w : GWorld K} (hw : Apart w) :
    Builds (GWorld.recolorDiagnostic) (Shallot.recolorDiagnostic) w := by
  unfold GWorld.recolorDiagnostic Shallot.recolorDiagnostic
  refine Refines.self_bind ?_
  cases w.view.diagnosticMap with
  | none => exact Refines.pure any_pre hw _ _ trivial
  | some _ => exact recolor_builds hw _ _

theorem recolorAll_builds {w : GWorld K} (hw : Apart w) :
    Builds (GWorld.recolorAll) (Shallot.recolorAll) w := by
  unfold GWorld.recolorAll Shallot.recolorAll Shallot.recolor
  refine (recolor_builds hw _ _).seq fun w1 h1 => ?_
  refine (recolor_builds h1 _ _).seq fun w2 h2 => ?_
  refine (recolor_builds h2 _ _).seq fun w3 h3 => ?_
  refine (recolor_builds h3 _ _).seq fun w4 h4 => ?_
  refine (recolor_builds h4 _ _).seq fun w5 h5 => ?_
  refine (recolorDiagnostic_builds h5).seq fun w6 h6 => ?_
  refine Refines.self_bind ?_
  exact recolorGradients_builds _ _ h6

/-! ## Properties with new arrays -/

theorem emptyCube_eq (g : GridParams K) : Shallot.emptyCube g = .arr (GWorld.emptyArray g) := rfl

/-- The array `empty` of `_initialise_grid_properties` stays as it is. -/
def EmptyAt (r : ℕ) (g : GridParams K) (w : GWorld K) : Prop :=
  r < w.arrays.length ∧ arrayAt w.arrays r = GWorld.emptyArray g

theorem putCopy_builds {w : GWorld K} (hw : Apart w) {r : ℕ} {g : GridParams K} (he : EmptyAt r g w)
    (c : Cube) (name : PropName) (unit : PropUnit) {nh : Meth (GWorld K) Unit}
    {nv : Meth (Shallot K) Unit}
    (h2 : ∀ w', Apart w' → EmptyAt r g w' → Builds nh nv w') :
    Builds (GWorld.putCopy r g c name unit >>= fun _ => nh)
      (putVal c (GProp.new name unit (Shallot.emptyCube g) g) >>= fun _ => nv) w := by
  have e1 : GWorld.putCopy r g c name unit w = GWorld.putNew c name unit (GWorld.emptyArray g) g w := by
    unfold GWorld.putCopy GWorld.copyOf
    rw [← he.2]
    rfl
  have h1 : Refines (fun w w' => EmptyAt r g w → EmptyAt r g w') (fun _ _ _ => True)
      (GWorld.putNew c name unit (GWorld.emptyArray g) g)
      (putVal c (GProp.new name unit (Shallot.emptyCube g) g)) w := by
    have h := putNew_builds hw c name unit (GWorld.emptyArray g) g
    refine ⟨h.apart, h.view, fun he => ?_, h.result⟩
    have : (GWorld.putNew c name unit (GWorld.emptyArray g) g w).2.arrays =
        w.arrays ++ [GWorld.emptyArray g] := by
      unfold GWorld.putNew
      cases GProp.new name unit (.arr (GWorld.emptyArray g)) g <;> rfl
    refine ⟨?_, ?_⟩
    · rw [this, List.length_append]; exact Nat.lt_add_right _ he.1
    · rw [this, arrayAt_append _ _ he.1]; exact he.2
  have h1' : Refines (fun w w' => EmptyAt r g w → EmptyAt r g w') (fun _ _ _ => True)
      (GWorld.putCopy r g c name unit)
      (putVal c (GProp.new name unit (Shallot.emptyCube g) g)) w :=
    ⟨by rw [e1]; exact h1.apart, by rw [e1]; exact h1.view, by rw [e1]; exact h1.later,
      by rw [e1]; exact h1.result⟩
  have ha := refines_any h1'
  have := Refines.bind (P := Any) (R := fun w' _ _ => EmptyAt r g w') (S := fun _ _ _ => True) any_pre
    (mh := GWorld.putCopy r g c name unit) (fh := fun _ => nh) (fv := fun _ => nv)
    ⟨ha.apart, ha.view, trivial, ?_⟩ fun _ _ w' hw' _ he' => h2 w' hw' he'
  · exact this
  · have hl := h1'.later he
    have hr := ha.result
    generalize (GWorld.putCopy r g c name unit w).1 = x at hr
    generalize (putVal c (GProp.new name unit (Shallot.emptyCube g) g) w.view).1 = y at hr
    cases hr with
    | ok _ => exact .ok hl
    | error e => exact .error e

/-- `_initialise_grid_properties` by value, property by property. -/
def initialiseVal (g : GridParams K) : Meth (Shallot K) Unit := do
  putVal .diskRadius (GProp.new .diskRadius .eclipseDuration (Shallot.emptyCube g) g)
  putVal .inclination (GProp.new .inclination .degree (Shallot.emptyCube g) g)
  putVal .tilt (GProp.new .tilt .degree (Shallot.emptyCube g) g)
  putVal .fxMap (GProp.new .fxMap .none (Shallot.emptyCube g) g)
  putVal .fyMap (GProp.new .fyMap .none (Shallot.emptyCube g) g)

theorem initialise_eq : (Shallot.initialise : Meth (Shallot K) Unit) =
    Meth.get >>= fun s => initialiseVal s.params := by
  unfold initialiseVal putVal
  simp only [bind_assoc']
  rfl

theorem bind_unit {S : Type} (m : Meth S Unit) : m = m >>= fun _ => pure () := by
  funext s
  rw [Meth.bind_apply]
  generalize m s = p
  obtain ⟨e | a, s'⟩ := p <;> rfl

theorem initialise_builds {w : GWorld K} (hw : Apart w) :
    Builds GWorld.initialise Shallot.initialise w := by
  rw [initialise_eq]
  unfold GWorld.initialise
  refine Refines.self_bind ?_
  dsimp only
  have hA := grown_append w (GWorld.emptyArray w.view.params)
  have key : ∀ w1 : GWorld K, Apart w1 → EmptyAt w.arrays.length w.view.params w1 → Builds
      (do
        GWorld.putCopy w.arrays.length w.view.params .diskRadius .diskRadius .eclipseDuration
        GWorld.putCopy w.arrays.length w.view.params .inclination .inclination .degree
        GWorld.putCopy w.arrays.length w.view.params .tilt .tilt .degree
        GWorld.putCopy w.arrays.length w.view.params .fxMap .fxMap .none
        GWorld.putCopy w.arrays.length w.view.params .fyMap .fyMap .none)
      (initialiseVal w.view.params) w1 := by
    intro w1 h1 e1
    unfold initialiseVal
    refine putCopy_builds h1 e1 _ _ _ fun w2 h2 e2 => ?_
    refine putCopy_builds h2 e2 _ _ _ fun w3 h3 e3 => ?_
    refine putCopy_builds h3 e3 _ _ _ fun w4 h4 e4 => ?_
    refine putCopy_builds h4 e4 _ _ _ fun w5 h5 e5 => ?_
    rw [bind_unit (GWorld.putCopy _ _ _ _ _), bind_unit (putVal _ _)]
    exact putCopy_builds h5 e5 _ _ _ fun w6 h6 _ => Refines.pure any_pre h6 _ _ trivial
  have h := key { w with arrays := w.arrays ++ [GWorld.emptyArray w.view.params] } (grown_apart hw hA)
    ⟨by simp, arrayAt_last _ _⟩
  have hview : ({ w with arrays := w.arrays ++ [GWorld.emptyArray w.view.params] } : GWorld K).view =
    w.view := hA.view hw
  have h2 := h.view
  have h4 := h.result
  rw [hview] at h2 h4
  exact ⟨h.apart, h2, trivial, h4⟩

theorem fillQuadrants_mask (g : GridParams K) (p q : GProp K) (b : Bool)
    (h : Shallot.fillQuadrants g p b = .ok q) : q.mask = none := by
  rcases hs : p.data.shape with _ | ⟨a, _ | ⟨b', _ | ⟨c, _ | ⟨d, l⟩⟩⟩⟩
  case cons.cons.cons.nil =>
    obtain ⟨-, rfl⟩ := (fillQuadrants_ok g p q b a b' c hs).1 h
    rfl
  all_goals
    unfold Shallot.fillQuadrants at h
    rw [hs] at h
    cases h

/-- The quadrants by value, property by property. -/
def fillVal (s : Shallot K) : Meth (Shallot K) Unit := do
  putVal .diskRadius (Shallot.fillQuadrants s.params s.diskRadius)
  putVal .inclination (Shallot.fillQuadrants s.params s.inclination)
  putVal .tilt (Shallot.fillQuadrants s.params s.tilt true)
  putVal .fxMap (Shallot.fillQuadrants s.params s.fxMap)
  putVal .fyMap (Shallot.fillQuadrants s.params s.fyMap)

theorem fillAll_eq : (Shallot.fillAll : Meth (Shallot K) Unit) = Meth.get >>= fillVal := by
  unfold fillVal putVal
  simp only [bind_assoc']
  rfl

theorem fillAll_builds {w : GWorld K} (hw : Apart w) :
    Builds GWorld.fillAll Shallot.fillAll w := by
  rw [fillAll_eq]
  unfold GWorld.fillAll
  refine Refines.self_bind ?_
  unfold fillVal
  dsimp only
  refine (place_builds hw _ _ fun q h => fillQuadrants_mask _ _ q _ h).seq fun w1 h1 => ?_
  refine (place_builds h1 _ _ fun q h => fillQuadrants_mask _ _ q _ h).seq fun w2 h2 => ?_
  refine (place_builds h2 _ _ fun q h => fillQuadrants_mask _ _ q _ h).seq fun w3 h3 => ?_
  refine (place_builds h3 _ _ fun q h => fillQuadrants_mask _ _ q _ h).seq fun w4 h4 => ?_
  exact place_builds h4 _ _ fun q h => fillQuadrants_mask _ _ q _ h

theorem plain_apart {w : GWorld K} (hw : Apart w) (h' : HGrid K) (h : ∀ a, h'.slot a = w.grid.slot a) :
    Apart { w with grid := h' } :=
  embed_apart hw id (fun _ _ h => h) fun a p e => (h a).symm.trans e

theorem extendGrid_builds {w : GWorld K} (hw : Apart w) :
    Builds GWorld.extendGrid Shallot.extendGrid w := by
  have hap : ∀ g, Apart ({ w with grid := { w.grid with params := g } } : GWorld K) := fun g =>
    plain_apart hw _ fun a => plain_view_slot (fun c => by cases c <;> rfl) rfl a
  have hp : w.view.params = w.grid.params := rfl
  have main : ∀ g, Builds (do
        GWorld.fillAll
        GWorld.adjust fun h => { h with diagnostics := h.diagnostics.map Diagnostics.extend })
      (do
        Shallot.fillAll
        Meth.modify fun s => { s with diagnostics := s.diagnostics.map Diagnostics.extend })
      (GWorld.helpers { w with grid := { w.grid with params := g } }) := by
    intro g
    have h0 : Apart (GWorld.helpers { w with grid := { w.grid with params := g } }) :=
      plain_apart (hap g) _ fun a => plain_view_slot (fun c => by cases c <;> rfl) rfl a
    refine (fillAll_builds h0).seq fun w1 h1 => ?_
    exact refines_any (plain_refines h1 _ _
      (fun a => plain_view_slot (fun c => by cases c <;> rfl) rfl a) rfl)
  rcases he : GridParams.extendGrid w.grid.params with ⟨e | u, g⟩
  · by_cases hae : e = .attributeError
    · subst hae
      have e1 : GWorld.extendGrid w = (.ok (), { w with grid := { w.grid with params := g } }) := by
        unfold GWorld.extendGrid; rw [he]
      have e2 : Shallot.extendGrid w.view = (.ok (), { w.view with params := g }) := by
        unfold Shallot.extendGrid; rw [hp, he]
      exact ⟨by rw [e1]; exact hap g, by rw [e1, e2]; rfl, trivial, by rw [e1, e2]; exact .ok trivial⟩
    · have e1 : GWorld.extendGrid w = (.error e, { w with grid := { w.grid with params := g } }) := by
        unfold GWorld.extendGrid; rw [he]; cases e <;> first | rfl | exact absurd rfl hae
      have e2 : Shallot.extendGrid w.view = (.error e, { w.view with params := g }) := by
        unfold Shallot.extendGrid; rw [hp, he]; cases e <;> first | rfl | exact absurd rfl hae
      exact ⟨by rw [e1]; exact hap g, by rw [e1, e2]; rfl, trivial, by rw [e1, e2]; exact .error e⟩
  · have e1 : GWorld.extendGrid w = (do
        GWorld.fillAll
        GWorld.adjust fun h => { h with diagnostics := h.diagnostics.map Diagnostics.extend })
        (GWorld.helpers { w with grid := { w.grid with params := g } }) := by
      unfold GWorld.extendGrid; rw [he]
    have e2 : Shallot.extendGrid w.view = (do
        Shallot.fillAll
        Meth.modify fun s => { s with diagnostics := s.diagnostics.map Diagnostics.extend })
        (GWorld.helpers { w with grid := { w.grid with params := g } }).view := by
      unfold Shallot.extendGrid; rw [hp, he]; rfl
    have h := main g
    exact ⟨by rw [e1]; exact h.apart, by rw [e1, e2]; exact h.view, trivial,
      by rw [e1, e2]; exact h.result⟩

theorem complete_builds {w : GWorld K} (hw : Apart w) :
    Builds GWorld.complete Shallot.complete w := by
  unfold GWorld.complete Shallot.complete GWorld.build Shallot.build
  rw [if_pos rfl, if_pos rfl]
  refine Builds.seq ?_ fun w1 h1 => ?_
  · refine (initialise_builds hw).seq fun w1 h1 => ?_
    refine Refines.self_bind ?_
    exact (buildRows_builds _ _ h1).seq fun w2 h2 => recolorAll_builds h2
  · refine (extendGrid_builds h1).seq fun w2 h2 => ?_
    exact refines_any (diagnose_refines h2)

/-! ## Objects -/

theorem bare_apart (A : List (NpArr K)) (g : GridParams K) (n : PyVal K) (keep : Bool) :
    Apart (GWorld.bare A g n keep) := by
  have code : ∀ (a : Slot × Bool) (r : ℕ), (GWorld.bare A g n keep).grid.ref a = some r →
      ∃ i < 5, r = A.length + i ∧
        a = (.cube ([Cube.diskRadius, .inclination, .tilt, .fxMap, .fyMap].getD i .gradientFit), false) := by
    intro a r h
    obtain ⟨a, b⟩ := a
    cases a with
    | cube c =>
      cases b <;> cases c <;>
        simp only [GWorld.bare, GWorld.helpers, HGrid.ref, HGrid.slot, HGrid.prop, Option.map_some,
          Option.map_none, Option.bind_some, Option.bind_none, GWorld.absent, reduceCtorEq,
          Option.some.injEq] at h
      · exact ⟨0, by omega, by omega, rfl⟩
      · exact ⟨1, by omega, by omega, rfl⟩
      · exact ⟨2, by omega, by omega, rfl⟩
      · exact ⟨3, by omega, by omega, rfl⟩
      · exact ⟨4, by omega, by omega, rfl⟩
    | gradient k =>
      cases b <;> simp [GWorld.bare, GWorld.helpers, HGrid.ref, HGrid.slot, HGrid.gradient] at h
  constructor
  · intro a r h
    obtain ⟨i, hi, rfl, -⟩ := code a r h
    show _ < (A ++ List.replicate 5 _).length
    rw [List.length_append, List.length_replicate]
    omega
  · intro a b r ha hb
    obtain ⟨i, hi, rfl, rfl⟩ := code a r ha
    obtain ⟨j, hj, h, rfl⟩ := code b _ hb
    obtain rfl : i = j := by omega
    rfl

theorem bare_view (A : List (NpArr K)) (g : GridParams K) (n : PyVal K) (keep : Bool) :
    (GWorld.bare A g n keep).view = Shallot.bare g n keep := by
  have h : ∀ i < 5, arrayAt (A ++ List.replicate 5 (⟨"float64", [], []⟩ : NpArr K)) (A.length + i) =
      ⟨"float64", [], []⟩ := by
    intro i hi
    unfold arrayAt
    rw [List.getD_eq_getElem?_getD, List.getElem?_append_right (by omega),
      List.getElem?_replicate_of_lt (by omega)]
    rfl
  have h0 := h 0 (by omega)
  have ha : ∀ i < 5, (GWorld.absent g (A.length + i)).view
      (A ++ List.replicate 5 (⟨"float64", [], []⟩ : NpArr K)) = Shallot.absent g := by
    intro i hi
    unfold HProp.view GWorld.absent Shallot.absent
    simp only [h i hi, Option.map_none]
  have h0 := ha 0 (by omega)
  have h1 := ha 1 (by omega)
  have h2 := ha 2 (by omega)
  have h3 := ha 3 (by omega)
  have h4 := ha 4 (by omega)
  unfold GWorld.bare Shallot.bare GWorld.helpers Shallot.helpers GWorld.view HGrid.view
  simp only [Nat.add_zero] at h0
  simp only [h0, h1, h2, h3, h4, Option.map_none]

/-- C102: the arrays of a grid that has just been built are all different objects, whatever arrays there
are already, and the grid is the one that is built by value; building by reference raises what building
by value does. -/
theorem C102_created (A : List (NpArr K)) (g : GridParams K) (n k : PyVal K) :
    (GWorld.new A n k g).2 = (Shallot.new n k g).2 ∧
    match (GWorld.new A n k g).1, (Shallot.new n k g).1 with
    | .ok w, .ok s => Apart w ∧ w.view = s
    | .error e, .error e' => e = e'
    | _, _ => False := by
  unfold GWorld.new Shallot.new
  cases number n (.bool true) (.int 1) with
  | error e => exact ⟨rfl, rfl⟩
  | ok n =>
    cases boolean k with
    | error e => exact ⟨rfl, rfl⟩
    | ok keep =>
      dsimp only
      have h := complete_builds (bare_apart A g n keep)
      rw [← bare_view A g n keep]
      have h1 := h.apart
      have h2 := h.view
      have h4 := h.result
      generalize GWorld.complete (GWorld.bare A g n keep) = p at *
      generalize Shallot.complete (GWorld.bare A g n keep).view = q at *
      obtain ⟨x, w⟩ := p
      obtain ⟨y, s⟩ := q
      simp only at h1 h2 h4
      subst h2
      cases h4 with
      | ok _ => exact ⟨rfl, h1, rfl⟩
      | error e => exact ⟨rfl, rfl⟩

end
end Beyonce
