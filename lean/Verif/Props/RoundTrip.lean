import Verif.Props.ShallotLoad
import Verif.Props.Owned
import Verif.Props.Solved

/-!
# Saving and loading grids that the constructor made and methods changed
-/

set_option linter.unusedSectionVars false

namespace Beyonce
open Spec

section
variable {K : Type} [Field K] [LinearOrder K] [IsStrictOrderedRing K] [RealFns K] [FloorRing K]

theorem fillQuadrants_label (g : GridParams K) (p q : GProp K) (angle : Bool)
    (h : Shallot.fillQuadrants g p angle = .ok q) :
    q.params = g ∧ q.name = p.name ∧ q.unit = p.unit := by
  rcases hs : p.data.shape with _ | ⟨a, _ | ⟨b, _ | ⟨c, _ | ⟨d, l⟩⟩⟩⟩
  case cons.cons.cons.nil =>
    obtain ⟨-, rfl⟩ := (fillQuadrants_ok g p q angle a b c hs).1 h
    exact ⟨rfl, rfl, rfl⟩
  all_goals
    unfold Shallot.fillQuadrants at h
    rw [hs] at h
    cases h

/-- The five properties have the names and units of their places, and the parameters of the grid. -/
def Labelled (s : Shallot K) : Prop :=
  LabelOf s.params .diskRadius s.diskRadius ∧ LabelOf s.params .inclination s.inclination ∧
  LabelOf s.params .tilt s.tilt ∧ LabelOf s.params .fxMap s.fxMap ∧ LabelOf s.params .fyMap s.fyMap

theorem lift_bind_ok {S α β : Type} {x : Except Err α} {f : α → Meth S β} {s s' : S} {b : β}
    (h : (Meth.lift x >>= f) s = (.ok b, s')) : ∃ a, x = .ok a ∧ f a s = (.ok b, s') := by
  cases x with
  | error e => rw [Meth.lift_error_bind] at h; cases h
  | ok a => rw [Meth.lift_ok_bind] at h; exact ⟨a, rfl, h⟩

theorem fillAll_labelled (s s' : Shallot K) (g : GridParams K)
    (hs : LabelOf g .diskRadius s.diskRadius ∧ LabelOf g .inclination s.inclination ∧
      LabelOf g .tilt s.tilt ∧ LabelOf g .fxMap s.fxMap ∧ LabelOf g .fyMap s.fyMap)
    (h : Shallot.fillAll s = (.ok (), s')) : Labelled s' ∧ s'.params = s.params := by
  obtain ⟨l1, l2, l3, l4, l5⟩ := hs
  unfold Shallot.fillAll at h
  simp only [Meth.get_bind] at h
  obtain ⟨a, ha, h⟩ := lift_bind_ok h
  rw [Meth.modify_bind] at h
  obtain ⟨b, hb, h⟩ := lift_bind_ok h
  rw [Meth.modify_bind] at h
  obtain ⟨c, hc, h⟩ := lift_bind_ok h
  rw [Meth.modify_bind] at h
  obtain ⟨d, hd, h⟩ := lift_bind_ok h
  rw [Meth.modify_bind] at h
  obtain ⟨e, he, h⟩ := lift_bind_ok h
  rw [Meth.modify_apply] at h
  cases h
  have key : ∀ {x : Cube} {p q : GProp K} {t : Bool}, Shallot.fillQuadrants s.params p t = .ok q →
      LabelOf g x p → LabelOf s.params x q := by
    intro x p q t h hp
    obtain ⟨h1, h2, h3⟩ := fillQuadrants_label _ _ _ _ h
    exact ⟨h1, h2.trans hp.2.1, h3.trans hp.2.2⟩
  exact ⟨⟨key ha l1, key hb l2, key hc l3, key hd l4, key he l5⟩, rfl⟩

theorem extendGrid_labelled (s s' : Shallot K) (g' : GridParams K) (hs : Labelled s)
    (hg : GridParams.extendGrid s.params = (.ok (), g'))
    (h : Shallot.extendGrid s = (.ok (), s')) : Labelled s' ∧ Consistent s'.params := by
  unfold Shallot.extendGrid at h
  rw [hg] at h
  simp only at h
  rw [Meth.bind_apply] at h
  rcases hf : Shallot.fillAll (Shallot.helpers { s with params := g' }) with ⟨_ | _, t⟩
  · rw [hf] at h; cases h
  rw [hf] at h
  simp only [Meth.modify_apply] at h
  cases h
  obtain ⟨h1, h2⟩ := fillAll_labelled _ _ s.params (by exact hs) hf
  refine ⟨h1, ?_⟩
  show Consistent t.params
  rw [h2]
  exact extend_consistent hg

theorem builtGrid_labelled (g : GridParams K) (v : PyVal K) (d : Option (Diagnostics K)) :
    Labelled (builtGrid g v d) :=
  ⟨⟨rfl, rfl, rfl⟩, ⟨rfl, rfl, rfl⟩, ⟨rfl, rfl, rfl⟩, ⟨rfl, rfl, rfl⟩, ⟨rfl, rfl, rfl⟩⟩

/-- What the constructor gives. -/
structure Made (v : PyVal K) (keep : Bool) (s : Shallot K) : Prop where
  sound : Sound s
  owned : Owned s s
  consistent : Consistent s.params
  extendable : s.params.extendable = false
  numFxfy : s.numFxfy = v
  diagnostics : s.diagnostics.isSome = keep
  nothing : s.gradients = none ∧ s.gradientFit = none
  count : ∃ n, Count v n

theorem made_new (minX maxX numX minY maxY numY maxRf numRf : PyVal K) (g g' : GridParams K)
    (hg : GridParams.new minX maxX numX minY maxY numY maxRf numRf = .ok g)
    (hext : g.extendable = true → 2 ≤ g.sliceShape.1 ∧ 2 ≤ g.sliceShape.2) (v k : PyVal K)
    (s : Shallot K) (h : Shallot.new v k g = (.ok s, g')) : ∃ keep, boolean k = .ok keep ∧
      Made v keep s := by
  have h0 := h
  unfold Shallot.new at h0
  cases hnum : number v (.bool true) (.int 1) with
  | error e => rw [hnum] at h0; cases h0
  | ok w =>
  obtain ⟨rfl, n, hn⟩ := (number_count v w).1 hnum
  rw [hnum] at h0
  simp only at h0
  cases hk : boolean k with
  | error e => rw [hk] at h0; cases h0
  | ok keep =>
  refine ⟨keep, rfl, ?_⟩
  obtain ⟨hA, hB⟩ := C72_new _ _ _ _ _ _ _ _ g hg hext w k n hn keep hk
  have hall : ∀ y x, y < g.dy.data.length → x < g.dx.data.length → Buildable g n y x := by
    by_contra hne
    push Not at hne
    obtain ⟨y, x, hy, hx, hc⟩ := hne
    obtain ⟨e, he⟩ := hB ⟨y, x, hy, hx, hc⟩
    rw [he] at h
    cases h
  obtain ⟨s', d, h1, h2, h3⟩ := hA hall
  rw [h] at h1
  cases h1
  have hd : s.diagnostics.isSome = keep := by
    rw [h2.diagnostics]
    have hb : (builtGrid g w d).diagnostics = d := rfl
    have hd' : d.isSome = keep := by
      cases d with
      | none =>
        have h3 : (if keep then some (Diagnostics.new g) else none) = (none : Option (Diagnostics K)) := h3
        cases keep with
        | false => rfl
        | true => cases h3
      | some d =>
        have h3 : (if keep then some (Diagnostics.new g) else none) ≠ (none : Option (Diagnostics K)) := h3.1
        cases keep with
        | false => exact absurd rfl h3
        | true => rfl
    rw [hb, ← hd']
    split_ifs <;> cases d <;> rfl
  rw [hk] at h0
  simp only at h0
  unfold Shallot.complete at h0
  obtain ⟨d', hb, -⟩ := (C72_build g (shapedGrid_new _ _ _ _ _ _ _ _ _ hg) w keep).1
    (by rw [count_toInt hn]; exact hall)
  rw [bind_ok _ _ _ _ () hb] at h0
  have hlab : Labelled s ∧ Consistent s.params := by
    by_cases he : g.extendable = true
    · obtain ⟨e1, e2⟩ := hext he
      obtain ⟨g₂, hg₂, -⟩ := C23_extend_mirrors _ _ _ _ _ _ _ _ g hg he e1 e2
      rcases hx : Shallot.extendGrid (builtGrid g w d') with ⟨_ | _, t⟩
      · rw [bind_err _ _ _ _ _ hx] at h0; cases h0
      · rw [bind_ok _ _ _ _ () hx, diagnose_ok] at h0
        have := extendGrid_labelled _ _ g₂ (builtGrid_labelled g w d') hg₂ hx
        cases h0
        exact this
    · rw [bind_ok _ _ _ _ () (C56_not_extended (builtGrid g w d') (by exact (Bool.not_eq_true _).mp he)),
        diagnose_ok] at h0
      cases h0
      exact ⟨builtGrid_labelled g w d', new_consistent hg⟩
  obtain ⟨⟨l1, l2, l3, l4, l5⟩, hc⟩ := hlab
  refine ⟨sound_complete h2, ⟨rfl, rfl, rfl, ?_, ?_⟩, hc, h2.extendable, h2.numFxfy, hd,
    ⟨h2.nothing.1, h2.nothing.2.1⟩, n, hn⟩
  · intro c p hp
    cases c with
    | diskRadius => cases hp; exact l1
    | inclination => cases hp; exact l2
    | tilt => cases hp; exact l3
    | fxMap => cases hp; exact l4
    | fyMap => cases hp; exact l5
    | diagnosticMap =>
      have hp : s.diagnosticMap = some p := hp
      rw [h2.map] at hp
      cases hp
      exact ⟨rfl, rfl, rfl⟩
    | gradientFit =>
      have hp : s.gradientFit = some p := hp
      rw [h2.nothing.2.1] at hp
      cases hp
  · intro l hl
    rw [h2.nothing.1] at hl
    cases hl

/-- A grid whose parts belong together can be saved as one. -/
theorem tidy_of {t s : Shallot K} (hs : Sound s) (ho : Owned t s) (hc : Consistent s.params) :
    Tidy s := by
  have key : ∀ c p, s.prop c = some p → LabelOf s.params c p := by
    intro c p hp
    rw [ho.params]
    exact ho.props c p hp
  have k1 := key .diskRadius _ rfl
  have k2 := key .inclination _ rfl
  have k3 := key .tilt _ rfl
  have k4 := key .fxMap _ rfl
  have k5 := key .fyMap _ rfl
  refine ⟨hc, k1.2, k2.2, k3.2, k4.2, k5.2, ?_, ?_⟩
  · intro p hp
    simp only [five, List.mem_cons, List.not_mem_nil, or_false] at hp
    rcases hp with rfl | rfl | rfl | rfl | rfl
    · exact ⟨k1.1, (hs.props .diskRadius _ rfl).data.1⟩
    · exact ⟨k2.1, (hs.props .inclination _ rfl).data.1⟩
    · exact ⟨k3.1, (hs.props .tilt _ rfl).data.1⟩
    · exact ⟨k4.1, (hs.props .fxMap _ rfl).data.1⟩
    · exact ⟨k5.1, (hs.props .fyMap _ rfl).data.1⟩
  · rw [ho.params]
    exact owned_getD ho

end

/-! ## The round trip -/

section

/-- **C62 (partial)** A grid made with `keep_diagnostics=False`, after any sequence of calls that
leaves no gradient at a position that is no number, can be saved to a new directory and loaded from
there, and has the same parameters, values and masks.  Missing: gradients; these are lost, see
`C62_false`. -/
theorem C62_histories_partial (minX maxX numX minY maxY numY maxRf numRf : PyVal ℝ) (g g' : GridParams ℝ)
    (hg : GridParams.new minX maxX numX minY maxY numY maxRf numRf = .ok g)
    (hext : g.extendable = true → 2 ≤ g.sliceShape.1 ∧ 2 ≤ g.sliceShape.2) (v k : PyVal ℝ)
    (hk : boolean k = .ok false) (s₀ : Shallot ℝ) (hnew : Shallot.new v k g = (.ok s₀, g'))
    (ops : List (GridOp ℝ)) (s : Shallot ℝ) (hs : s = runGrid ops s₀)
    (hpos : ∀ l, s.gradients = some l → ∀ q ∈ l, ∃ x, q.position.num = .fin x)
    (fs : FS ℝ) (hfs : Rooted fs) (p : Path) (hp : p ≠ []) (hfree : fs.at? p = none)
    (hpar : fs.isDir p.dropLast = true) (ht : ¬ tempDir <+: p) :
    ∃ fs' s', fs.run (s.saveSteps (.other p)) = (.ok (), fs') ∧
      Shallot.load p fs' = (.ok s', cleaned fs') ∧ s' = afterLoading s ∧ s'.params = s.params ∧
      ((∀ b, v ≠ .bool b) → s'.numFxfy.toInt = s.numFxfy.toInt) ∧
      (∀ c q q', c ∈ [Cube.diskRadius, .inclination, .tilt, .fxMap, .fyMap] → s.prop c = some q →
        s'.prop c = some q' → q'.data = q.data ∧ q'.mask = q.mask ∧ q'.name = q.name ∧
          q'.unit = q.unit ∧ q'.params = q.params) := by
  obtain ⟨keep, hk', hm⟩ := made_new _ _ _ _ _ _ _ _ g g' hg hext v k s₀ hnew
  rw [hk] at hk'
  cases hk'
  have ho : Owned s₀ s := hs ▸ runGrid_owned ops s₀ hm.owned
  have hso : Sound s := hs ▸ runGrid_sound ops s₀ hm.sound
  have htidy : Tidy s := tidy_of hso ho (by rw [ho.params]; exact hm.consistent)
  have hd : s.diagnostics = none := by
    rw [ho.diagnostics]
    have := hm.diagnostics
    simpa using this
  have hv : s.numFxfy = v := ho.numFxfy.trans hm.numFxfy
  obtain ⟨n, hn⟩ := hm.count
  obtain ⟨fs', h1, h2⟩ := C62_round_trip_partial fs hfs s htidy (by rw [ho.params]; exact hm.extendable) hd n
    (by rw [hv]; exact hn.2) (by
      intro q hq
      cases hl : s.gradients with
      | none => rw [hl] at hq; cases hq
      | some l => rw [hl] at hq; exact hpos l hl q hq) p hp hfree hpar ht
  refine ⟨fs', afterLoading s, h1, h2, rfl, rfl, ?_, ?_⟩
  · intro hb
    show (reread s.numFxfy).toInt = s.numFxfy.toInt
    rw [hv]
    unfold reread
    split
    · exact absurd rfl (hb _)
    · rfl
  · intro c q q' hc h3 h4
    simp only [List.mem_cons, List.not_mem_nil, or_false] at hc
    rcases hc with rfl | rfl | rfl | rfl | rfl <;> cases h3 <;> cases h4 <;>
      exact ⟨rfl, rfl, rfl, rfl, rfl⟩

theorem determineMask_position (vm vo vt ve : PyVal ℝ) (g : GGrad ℝ) :
    (GGrad.determineMask vm vo vt ve g).2.position = g.position := by
  rcases determineMask_cases vm vo vt ve g with ⟨-, e, h⟩ | ⟨-, -, e, h⟩ | ⟨-, -, -, e, h⟩ |
    ⟨-, -, -, -, e, h⟩ | ⟨-, -, -, -, ⟨e, -, h⟩ | ⟨q, -, ⟨-, h⟩ | ⟨-, h⟩⟩⟩ <;> rw [h] <;> rfl

/-- The calls `set_eclipse_parameters(1, 1, 0)` and `add_gradients([t], [0], [0], [1])`. -/
def oneGradient (t : XF ℝ) : List (GridOp ℝ) :=
  [.eclipse (.int 1) (.int 1) (.int 0),
   .add (column [t]) (column [.fin 0]) (column [.fin 0]) (column [.fin 1])]

/-- After these there is one gradient. -/
theorem oneGradient_ok (s₀ : Shallot ℝ) (h0 : s₀.gradients = none ∧ s₀.gradientFit = none) (t : XF ℝ) :
    ∃ g, (runGrid (oneGradient t) s₀).gradients = some [g] ∧ g.position.num = t.neg := by
  have hn : NotNegative (K := ℝ) (.int 1) := ⟨_, int_isNumber 1, by rw [less_iff]; simp⟩
  have hfr : Fraction (K := ℝ) (.int 0) :=
    ⟨_, int_isNumber 0, by rw [less_iff]; simp, by rw [less_iff]; simp⟩
  have he := (C49_partial s₀ (fun _ => h0.2) (.int 1) (.int 1) (.int 0)).1 ⟨hn, hn, hfr⟩
  have hrun : runGrid (oneGradient t) s₀ = (addCall [⟨t, .fin 0, .fin 0, .fin 1⟩]
      (Shallot.setEclipseParameters (.int 1) (.int 1) (.int 0) s₀).2).2 := rfl
  rw [hrun, he]
  simp only
  obtain ⟨s, hs⟩ : ∃ s : Shallot ℝ, s = { s₀ with
    eclipseDuration := some (.int 1), velocity := some (.int 1), limb := some (.int 0)
    gradients := none, gradientFit := none } := ⟨_, rfl⟩
  rw [← hs]
  have hr : s.ready = true := by rw [hs]; rfl
  have hd : Duration s (.int 1) := by rw [hs]; exact ⟨rfl, rfl⟩
  have hgr : s.gradients = none := by rw [hs]
  obtain ⟨k, hk, hk2, ho⟩ := orbital_int s 1 le_rfl (by rw [hs]) (by rw [hs]; rfl)
  obtain ⟨q, hq⟩ : ∃ q : Measurement ℝ, q = ⟨t, .fin 0, .fin 0, .fin 1⟩ := ⟨_, rfl⟩
  rw [← hq]
  have hpass : Passable q := by
    rw [hq]
    refine ⟨?_, ?_, ?_, ?_⟩ <;> rw [less_iff] <;> simp
  have hgo : gradientOf s (.int 1) (.float (.fin k)) q =
      GGrad.determineMask (.npFloat .w64 (.fin 0)) (.float (.fin k)) (.npFloat .w64 (.fin 1))
        (.npFloat .w64 (.fin 0)) (blank s (t.neg.div (.fin 1))) := by
    rw [hq]
    unfold gradientOf measure
    have h1 : (PyVal.int 1 : PyVal ℝ).num = .fin 1 := by simp [PyVal.num]
    simp only [XF.abs_fin, abs_zero, h1]
  obtain ⟨g', hg'⟩ := (C34_succeeds_iff (.npFloat .w64 (.fin 0)) (.float (.fin k))
    (.npFloat .w64 (.fin 1)) (.npFloat .w64 (.fin 0)) (blank s (t.neg.div (.fin 1))) 0 k 1
    (Or.inr ⟨rfl, .npFloat _ _⟩) (Or.inr ⟨rfl, .float _⟩) (Or.inr (Or.inr ⟨rfl, .npFloat _ _⟩))
    one_pos).2 ⟨le_rfl, hk.le, le_rfl, ⟨.fin 0, Or.inr (Or.inr ⟨rfl, .npFloat _ _⟩), by
      rw [less_iff]; simp⟩, by simp⟩
  have hpos := determineMask_position (.npFloat .w64 (.fin 0)) (.float (.fin k)) (.npFloat .w64 (.fin 1))
        (.npFloat .w64 (.fin 0)) (blank s (t.neg.div (.fin 1)))
  rw [hg'] at hgo hpos
  obtain ⟨s₁, h1⟩ := addCalls_of [[q]] s hr _ _ hd ho (by
    intro q' hq'
    obtain rfl : q' = q := by simpa using hq'
    rw [hgo]
    exact ⟨hpass, rfl⟩)
  obtain ⟨d, scale, hd', ho', -, he'⟩ := addCalls_ok _ s s₁ hr (by simp) h1
  have hdd : d = .int 1 := by
    have := hd'.eq
    rw [hd.eq] at this
    exact (Option.some.inj this).symm
  subst hdd
  rw [ho] at ho'
  cases ho'
  have h2 : (addCall [q] s).2 = s₁ := by
    unfold addCalls at h1
    rcases hc : addCall [q] s with ⟨_ | _, t⟩
    · rw [bind_err _ _ _ _ _ hc] at h1; cases h1
    · rw [bind_ok _ _ _ _ () hc] at h1
      unfold addCalls at h1
      cases h1
      rfl
  rw [h2, he']
  refine ⟨g', ?_, ?_⟩
  · simp [hgr, hgo]
  · rw [hpos]
    show t.neg.div (.fin 1) = _
    cases t <;> simp [XF.neg, XF.div]

/-- **C62 is false of the code** There is a grid with a gradient that can be saved and loaded, and
comes back without gradients: their directories contain a dot and are skipped. -/
theorem C62_false : ∃ (g : GridParams ℝ) (s₀ s s' : Shallot ℝ) (q : GGrad ℝ) (fs fs₁ fs₂ : FS ℝ)
    (ops : List (GridOp ℝ)), Shallot.new (.int 100) (.bool false) g = (.ok s₀, s₀.params) ∧
      s = runGrid ops s₀ ∧ s.gradients = some [q] ∧
      fs.run (s.saveSteps (.other ["grid"])) = (.ok (), fs₁) ∧
      Shallot.load ["grid"] fs₁ = (.ok s', fs₂) ∧ s'.gradients = none := by
  obtain ⟨s₀, d, h1, h2⟩ := throwAway_grid
  obtain ⟨q, hq, hx⟩ := oneGradient_ok s₀ ⟨h2.nothing.1, h2.nothing.2.1⟩ (.fin 1)
  obtain ⟨fs', s', h3, h4, h5, -⟩ := C62_histories_partial _ _ _ _ _ _ _ _ throwAway s₀.params throwAway_new
    (fun _ => ⟨le_rfl, le_rfl⟩) (.int 100) (.bool false) rfl s₀ h1 (oneGradient (.fin 1)) _ rfl
    (by
      intro l hl q' hq'
      rw [hq] at hl
      cases hl
      obtain rfl : q' = q := by simpa using hq'
      exact ⟨-1, hx⟩) ([] : FS ℝ) rooted_nil ["grid"] (by decide) rfl rfl (by decide)
  exact ⟨throwAway, s₀, _, s', q, _, fs', _, _, h1, rfl, hq, h3, h4, by rw [h5]; rfl⟩

/-- **C62 is false of the code** There is a grid with a gradient, made by the public methods, that can
be saved but not loaded: a time of nan was given for it. -/
theorem C62_false_nan : ∃ (g : GridParams ℝ) (s₀ s : Shallot ℝ) (fs fs₁ fs₂ : FS ℝ)
    (ops : List (GridOp ℝ)), Shallot.new (.int 100) (.bool false) g = (.ok s₀, s₀.params) ∧
      s = runGrid ops s₀ ∧ fs.run (s.saveSteps (.other ["grid"])) = (.ok (), fs₁) ∧
      Shallot.load ["grid"] fs₁ = (.error .attributeError, fs₂) := by
  obtain ⟨s₀, d, h1, h2⟩ := throwAway_grid
  obtain ⟨keep, hk, hm⟩ := made_new _ _ _ _ _ _ _ _ throwAway s₀.params throwAway_new
    (fun _ => ⟨le_rfl, le_rfl⟩) (.int 100) (.bool false) s₀ h1
  cases hk
  obtain ⟨q, hq, hx⟩ := oneGradient_ok s₀ ⟨h2.nothing.1, h2.nothing.2.1⟩ .nan
  obtain ⟨s, hs⟩ : ∃ s, s = runGrid (oneGradient .nan) s₀ := ⟨_, rfl⟩
  rw [← hs] at hq
  have ho : Owned s₀ s := hs ▸ runGrid_owned _ s₀ hm.owned
  have hso : Sound s := hs ▸ runGrid_sound _ s₀ hm.sound
  obtain ⟨fs', h3, h4⟩ := C62_false_undefined ([] : FS ℝ) rooted_nil s
    (tidy_of hso ho (by rw [ho.params]; exact hm.consistent))
    (by rw [ho.diagnostics]; simpa using hm.diagnostics) 100
    (by rw [ho.numFxfy, hm.numFxfy]; exact .int 100)
    ⟨q, by rw [hq]; simp, by intro x; rw [hx]; simp [XF.neg]⟩ ["grid"] (by decide) rfl rfl (by decide)
  exact ⟨throwAway, s₀, s, _, fs', _, _, h1, hs, h3, h4⟩

end
end Beyonce
