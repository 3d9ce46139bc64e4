import Verif.Props.Build
import Verif.Props.Convergence

/-!
# The constructor of `ShallotGrid`: what a complete grid holds
-/

set_option linter.unusedSectionVars false

namespace Beyonce
open Spec

section
variable {K : Type} [Field K] [LinearOrder K] [IsStrictOrderedRing K] [RealFns K]

/-- The parameters that the constructor makes are well shaped. -/
theorem shapedGrid_new (minX maxX numX minY maxY numY maxRf numRf : PyVal K) (g : GridParams K)
    (hg : GridParams.new minX maxX numX minY maxY numY maxRf numRf = .ok g) : ShapedGrid g := by
  obtain ⟨a, b, nx, c, d, ny, m, nr, ⟨-, -, -, -⟩, ⟨-, -, -, -⟩, ⟨-, -, h⟩, rfl⟩ :=
    (new_ok_iff _ _ _ _ _ _ _ _ _).1 hg
  have hl : (linspace (.fin 1) m nr).length = nr := linspace_length _ _ _
  have hl' : ((linspace (.fin 1) m nr).reverse ++ (linspace (.fin 1) m nr).tail).length =
      2 * nr - 1 := by
    have := h.1
    simp only [List.length_append, List.length_reverse, List.length_tail, hl]
    omega
  refine ⟨?_, ?_, ?_, ?_⟩
  · simp only [gridOf, linspace_length, hl']
  · simp only [gridOf, linspace_length]
  · simp only [gridOf, linspace_length]; exact hl'
  · exact linspace_ne_nil _ _ h.1

/-- The diagnostic map of a grid. -/
def Spec.diagnosticOf (s : Shallot K) : Nd K :=
  cubeOf s.params.gridShape.1 s.params.gridShape.2.1 s.params.gridShape.2.2 fun y x r =>
    ((s.diskRadius.data.at3 y x r).div
      (s.diskRadius.data.at3 y x (s.params.rf.data.length - 1))).sub
        (s.params.rfArray.data.getD r .nan)

theorem diagnose_ok (s : Shallot K) : Shallot.diagnose s = (.ok (),
    { s with diagnosticMap := some (fresh .diagnosticMap .eclipseDuration s.params
      (diagnosticOf s) "viridis") }) := by
  have h : GProp.new .diagnosticMap .eclipseDuration
      (.arr ⟨"float64", (diagnosticOf s).shape, (diagnosticOf s).data⟩) s.params =
      .ok (fresh .diagnosticMap .eclipseDuration s.params (diagnosticOf s) "viridis") := by
    rw [prop_new_ok_iff]
    exact ⟨_, rfl, rfl, rfl, rfl⟩
  unfold Shallot.diagnose
  rw [Meth.get_bind]
  unfold diagnosticOf at h ⊢
  rw [h]
  rfl

/-- The same number up to its sign. -/
def Spec.SameSize (u v : XF K) : Prop := u = v ∨ u = v.neg

/-- The values of a property `q` of the grid `s` come from those of the property `p` of the grid `b`,
which holds the first quadrant. -/
def Spec.DrawnFrom (g g' : GridParams K) (p q : Nd K) : Prop :=
  q.Cubic g'.gridShape.1 g'.gridShape.2.1 g'.gridShape.2.2 ∧ g'.gridShape.2.2 = g.gridShape.2.2 ∧
  ∀ y x, y < g'.gridShape.1 → x < g'.gridShape.2.1 →
    ∃ i j, i < g.gridShape.1 ∧ j < g.gridShape.2.1 ∧
      SameSize (g'.dy.data.getD y .nan) (g.dy.data.getD i .nan) ∧
      SameSize (g'.dx.data.getD x .nan) (g.dx.data.getD j .nan) ∧
      ∀ r, r < g.gridShape.2.2 → q.at3 y x r = p.at3 i j r

theorem filled_built (g : GridParams K) (n : PyVal K) (d) :
    Filled (builtGrid g n d) g.dy.data.length g.dx.data.length (2 * g.rf.data.length - 1) :=
  ⟨cubic_cubeOf _ _ _ _, cubic_cubeOf _ _ _ _, cubic_cubeOf _ _ _ _, cubic_cubeOf _ _ _ _,
    cubic_cubeOf _ _ _ _⟩

theorem drawnFrom_self (g : GridParams K) (hg : ShapedGrid g) (p : Nd K)
    (hp : p.Cubic g.dy.data.length g.dx.data.length (2 * g.rf.data.length - 1)) :
    DrawnFrom g g p p := by
  refine ⟨by rw [hg.grid]; exact hp, rfl, ?_⟩
  intro y x hy hx
  exact ⟨y, x, hy, hx, Or.inl rfl, Or.inl rfl, fun _ _ => rfl⟩

theorem getD_of_get (l : List (XF K)) (i : ℕ) (v : XF K) (h : l[i]? = some v) :
    l.getD i .nan = v := by
  rw [List.getD_eq_getElem?_getD, h]; rfl

/-- Every index of the mirrored axis lies on one of the sides. -/
theorem mirrored_index {l l' : List (XF K)} {n : ℕ} (h : Mirrored l l' n) {y : ℕ}
    (hy : y < 2 * n - 1) : ∃ (i : ℕ) (up : Bool), i < n ∧ side up (n - 1) i = y ∧
      SameSize (l'.getD y .nan) (l.getD i .nan) := by
  by_cases hc : n - 1 ≤ y
  · obtain ⟨v, h1, h2, -⟩ := h.values (y - (n - 1)) (by omega)
    refine ⟨y - (n - 1), true, by omega, by simp [side]; omega, Or.inl ?_⟩
    rw [getD_of_get _ _ _ h1, getD_of_get l' y (.fin v)]
    rw [← h2]; congr 1; omega
  · obtain ⟨v, h1, -, h2⟩ := h.values (n - 1 - y) (by omega)
    refine ⟨n - 1 - y, false, by omega, by simp [side]; omega, Or.inr ?_⟩
    rw [getD_of_get _ _ _ h1, getD_of_get l' y (.fin (-v))]
    · rfl
    · rw [← h2]; congr 1; omega

theorem drawnFrom_mirror (g g' : GridParams K) (ny nx nr : ℕ) (hg : g.gridShape = (ny, nx, nr))
    (hg' : g'.gridShape = (2 * ny - 1, 2 * nx - 1, nr)) (hx : Mirrored g.dx.data g'.dx.data nx)
    (hy : Mirrored g.dy.data g'.dy.data ny) (p q : GProp K) (h : MirrorOf false ny nx nr p q) :
    DrawnFrom g g' p.data q.data := by
  refine ⟨by rw [hg']; exact h.cubic, by rw [hg, hg'], ?_⟩
  rw [hg, hg']
  intro y x h1 h2
  obtain ⟨i, up, hi, rfl, si⟩ := mirrored_index hy h1
  obtain ⟨j, right, hj, rfl, sj⟩ := mirrored_index hx h2
  refine ⟨i, j, hi, hj, si, sj, ?_⟩
  intro r hr
  rw [h.values i j r hi hj hr up right]
  simp [mirrored]

/-- What a complete grid is made of: the built first quadrant `b`, which is the grid itself unless
its parameters can be extended. -/
structure Spec.CompleteFrom (b s : Shallot K) : Prop where
  plain : b.params.extendable = false → s = { b with diagnosticMap := s.diagnosticMap }
  shaped : ShapedGrid s.params
  rf : s.params.rf = b.params.rf
  rfArray : s.params.rfArray = b.params.rfArray
  extendable : s.params.extendable = false
  vectorX : b.params.extendable = true →
    Mirrored b.params.dx.data s.params.dx.data b.params.sliceShape.2
  vectorY : b.params.extendable = true →
    Mirrored b.params.dy.data s.params.dy.data b.params.sliceShape.1
  diskRadius : DrawnFrom b.params s.params b.diskRadius.data s.diskRadius.data
  inclination : DrawnFrom b.params s.params b.inclination.data s.inclination.data
  fxMap : DrawnFrom b.params s.params b.fxMap.data s.fxMap.data
  fyMap : DrawnFrom b.params s.params b.fyMap.data s.fyMap.data
  tilt : b.params.extendable = true → MirrorOf true b.params.gridShape.1 b.params.gridShape.2.1
    b.params.gridShape.2.2 b.tilt s.tilt
  tiltCubic : s.tilt.data.Cubic s.params.gridShape.1 s.params.gridShape.2.1 s.params.gridShape.2.2
  masks : s.diskRadius.mask = none ∧ s.inclination.mask = none ∧ s.tilt.mask = none ∧
    s.fxMap.mask = none ∧ s.fyMap.mask = none
  circularRadius : s.circularRadius = s.params.dy.data.map Geometry.circularRadius
  shear : ∀ i j, i < s.params.gridShape.1 → j < s.params.gridShape.2.1 → s.shear.at3 i j 0 =
        Geometry.shear (s.params.dx.data.getD j .nan) (s.params.dy.data.getD i .nan)
  map : s.diagnosticMap = some (fresh .diagnosticMap .eclipseDuration s.params (diagnosticOf s)
    "viridis")
  numFxfy : s.numFxfy = b.numFxfy
  diagnostics : s.diagnostics =
    if b.params.extendable then b.diagnostics.map Diagnostics.extend else b.diagnostics
  nothing : s.gradients = none ∧ s.gradientFit = none ∧ s.eclipseDuration = none ∧
    s.velocity = none ∧ s.limb = none
  mirror : b.params.extendable = true → ∀ p q,
    (p, q) ∈ [(b.diskRadius, s.diskRadius), (b.inclination, s.inclination), (b.fxMap, s.fxMap),
      (b.fyMap, s.fyMap)] →
    MirrorOf false b.params.gridShape.1 b.params.gridShape.2.1 b.params.gridShape.2.2 p q
  limits : ∀ c p, s.prop c = some p → p.vmin = nanmin p.data.data ∧ p.vmax = nanmax p.data.data

/-- **C72** The constructor succeeds exactly if its arguments are valid and every cell can be done;
the result is made of the cells. -/
theorem C72_new (minX maxX numX minY maxY numY maxRf numRf : PyVal K) (g : GridParams K)
    (hg : GridParams.new minX maxX numX minY maxY numY maxRf numRf = .ok g)
    (hext : g.extendable = true → 2 ≤ g.sliceShape.1 ∧ 2 ≤ g.sliceShape.2) (v k : PyVal K)
    (n : ℕ) (hn : Count v n) (keep : Bool) (hk : boolean k = .ok keep) :
    ((∀ y x, y < g.dy.data.length → x < g.dx.data.length → Buildable g n y x) →
      ∃ s d, Shallot.new v k g = (.ok s, s.params) ∧ CompleteFrom (builtGrid g v d) s ∧
        DiagnosticsTo (builtGrid g v (if keep then some (Diagnostics.new g) else none))
          g.dy.data.length 0 d) ∧
    ((∃ y x, y < g.dy.data.length ∧ x < g.dx.data.length ∧ ¬ Buildable g n y x) →
      ∃ e, Shallot.new v k g = (.error e, g)) := by
  have hs := shapedGrid_new _ _ _ _ _ _ _ _ _ hg
  have hnum : number v (.bool true) (.int 1) = .ok v := (number_count v v).2 ⟨rfl, n, hn⟩
  have hb := C72_build g hs v keep
  rw [count_toInt hn] at hb
  unfold Shallot.new
  rw [hnum]
  simp only
  rw [hk]
  simp only
  unfold Shallot.complete
  constructor
  · intro hall
    obtain ⟨d, h1, h2⟩ := hb.1 hall
    rw [bind_ok _ _ _ _ () h1]
    have hp : (builtGrid g v d).params = g := rfl
    by_cases he : g.extendable = true
    · obtain ⟨e1, e2⟩ := hext he
      obtain ⟨s, x1, mx, my, hrf, hgs, m1, m2, m3, m4, m5, -, hc, -, hsh, ⟨f1, f2, f3⟩, k1, k2, k3,
        k4, k5, k6, k7, k8⟩ := C56_extend _ _ _ _ _ _ _ _ (builtGrid g v d) hg he e1 e2
        g.dy.data.length g.dx.data.length (2 * g.rf.data.length - 1) hs.slice
        (by rw [hp, hs.grid]) (filled_built g v d)
      rw [bind_ok _ _ _ _ () x1, diagnose_ok]
      refine ⟨_, d, rfl, ?_, h2⟩
      rw [hp] at mx my
      have hgs0 := hs.grid
      constructor
      · intro h; rw [hp, he] at h; cases h
      · constructor
        · simp only [hgs, mx.length', my.length', f1, hp]
        · simp only [f2, mx.length', my.length']
        · simp only [hrf, f1, hp]; exact hs.rfArray
        · simp only [f1, hp]; exact hs.rf
      · exact f1
      · exact hrf
      · exact f3
      · intro _; rw [hp, hs.slice]; exact mx
      · intro _; rw [hp, hs.slice]; exact my
      · exact drawnFrom_mirror g _ _ _ _ hgs0 hgs mx my _ _ m1
      · exact drawnFrom_mirror g _ _ _ _ hgs0 hgs mx my _ _ m2
      · exact drawnFrom_mirror g _ _ _ _ hgs0 hgs mx my _ _ m4
      · exact drawnFrom_mirror g _ _ _ _ hgs0 hgs mx my _ _ m5
      · intro _; rw [hp, hgs0]; exact m3
      · simp only [hgs]; exact m3.cubic
      · exact ⟨m1.mask, m2.mask, m3.mask, m4.mask, m5.mask⟩
      · exact hc
      · intro i j hi hj
        simp only [hgs] at hi hj
        exact hsh i j hi hj
      · rfl
      · exact k1
      · rw [hp, if_pos he]; exact k2
      · exact ⟨k4, k5, k6, k7, k8⟩
      · intro _ p q hpq
        simp only [List.mem_cons, Prod.mk.injEq, List.not_mem_nil, or_false] at hpq
        rw [hp, hgs0]
        rcases hpq with ⟨rfl, rfl⟩ | ⟨rfl, rfl⟩ | ⟨rfl, rfl⟩ | ⟨rfl, rfl⟩
        · exact m1
        · exact m2
        · exact m4
        · exact m5
      · intro c p hc
        cases c with
        | diskRadius => cases hc; exact m1.limits
        | inclination => cases hc; exact m2.limits
        | tilt => cases hc; exact m3.limits
        | fxMap => cases hc; exact m4.limits
        | fyMap => cases hc; exact m5.limits
        | diagnosticMap => cases hc; exact ⟨rfl, rfl⟩
        | gradientFit =>
          have : some p = none := hc.symm.trans k5
          cases this
    · have he' : g.extendable = false := by simpa using he
      rw [bind_ok _ _ _ _ () (C56_not_extended (builtGrid g v d) he'), diagnose_ok]
      refine ⟨_, d, rfl, ?_, h2⟩
      obtain ⟨c1, c2, c3, c4, c5⟩ := filled_built g v d
      constructor
      · intro _; rfl
      · exact hs
      · rfl
      · rfl
      · exact he'
      · intro h; exact absurd h he
      · intro h; exact absurd h he
      · exact drawnFrom_self g hs _ c1
      · exact drawnFrom_self g hs _ c2
      · exact drawnFrom_self g hs _ c4
      · exact drawnFrom_self g hs _ c5
      · intro h; exact absurd h he
      · simp only [hp, hs.grid]; exact c3
      · exact ⟨rfl, rfl, rfl, rfl, rfl⟩
      · rfl
      · intro i j hi hj
        simp only [hp, hs.grid] at hi hj
        exact at3_cubeOf _ _ _ _ hi hj (by omega)
      · rfl
      · rfl
      · rw [hp, if_neg he]
      · exact ⟨rfl, rfl, rfl, rfl, rfl⟩
      · intro h; exact absurd h he
      · intro c p hc
        cases c <;> cases hc <;> exact ⟨rfl, rfl⟩
  · intro h
    obtain ⟨e, s', h1, h2⟩ := hb.2 h
    rw [bind_err _ _ _ _ _ h1]
    refine ⟨e, ?_⟩
    rw [← h2]

/-- **C66 (partial)** The constructor leaves the caller's parameters alone if they cannot be
extended, and if an argument is not valid or the build fails.  Missing: parameters that can be
extended; for these it is false, see `C66_false`. -/
theorem C66_partial (minX maxX numX minY maxY numY maxRf numRf : PyVal K) (g : GridParams K)
    (hg : GridParams.new minX maxX numX minY maxY numY maxRf numRf = .ok g) (v k : PyVal K) :
    (g.extendable = false → (Shallot.new v k g).2 = g) ∧
    ((g.extendable = true → 2 ≤ g.sliceShape.1 ∧ 2 ≤ g.sliceShape.2) →
      ∀ e g', Shallot.new v k g = (.error e, g') → g' = g) := by
  by_cases hn : ∃ n, Count v n
  · obtain ⟨n, hn⟩ := hn
    by_cases hk : ∃ keep, boolean k = .ok keep
    · obtain ⟨keep, hk⟩ := hk
      constructor
      · intro he
        obtain ⟨h1, h2⟩ := C72_new _ _ _ _ _ _ _ _ g hg (fun e => by rw [he] at e; cases e) v k n hn
          keep hk
        by_cases hall : ∀ y x, y < g.dy.data.length → x < g.dx.data.length → Buildable g n y x
        · obtain ⟨s, d, e1, e2, -⟩ := h1 hall
          rw [e1]
          show s.params = g
          rw [e2.plain he]
          rfl
        · push Not at hall
          obtain ⟨e, h⟩ := h2 hall
          rw [h]
      · intro hext e g' herr
        obtain ⟨h1, h2⟩ := C72_new _ _ _ _ _ _ _ _ g hg hext v k n hn keep hk
        by_cases hall : ∀ y x, y < g.dy.data.length → x < g.dx.data.length → Buildable g n y x
        · obtain ⟨s, d, e1, -⟩ := h1 hall
          rw [e1] at herr
          cases herr
        · push Not at hall
          obtain ⟨e, h⟩ := h2 hall
          rw [h] at herr
          cases herr
          rfl
    · have : ∃ e, Shallot.new v k g = (.error e, g) := by
        unfold Shallot.new
        rw [(number_count v v).2 ⟨rfl, n, hn⟩]
        cases hb : boolean k with
        | ok b => exact absurd ⟨b, hb⟩ hk
        | error e => exact ⟨e, by simp only [hb]⟩
      obtain ⟨e, he⟩ := this
      rw [he]
      exact ⟨fun _ => rfl, fun _ e' g' h => by cases h; rfl⟩
  · have : ∃ e, Shallot.new v k g = (.error e, g) := by
      unfold Shallot.new
      cases hb : number v (.bool true) (.int 1) with
      | ok w => exact absurd ((number_count v w).1 hb).2 hn
      | error e => exact ⟨e, rfl⟩
    obtain ⟨e, he⟩ := this
    rw [he]
    exact ⟨fun _ => rfl, fun _ e' g' h => by cases h; rfl⟩

/-- **C66 is false of the code** The constructor of a grid mirrors parameters that start at the
origin in place: whenever it succeeds the caller's object has about twice as many rows and columns
as before. -/
theorem C66_false (minX maxX numX minY maxY numY maxRf numRf : PyVal K) (g : GridParams K)
    (hg : GridParams.new minX maxX numX minY maxY numY maxRf numRf = .ok g)
    (he : g.extendable = true) (hy : 2 ≤ g.sliceShape.1) (hx : 2 ≤ g.sliceShape.2) (v k : PyVal K)
    (s : Shallot K) (g' : GridParams K) (h : Shallot.new v k g = (.ok s, g')) :
    g' ≠ g ∧ g'.extendable = false ∧ g'.sliceShape = (2 * g.sliceShape.1 - 1, 2 * g.sliceShape.2 - 1) := by
  have hs := shapedGrid_new _ _ _ _ _ _ _ _ _ hg
  have hv : ∃ n, Count v n := by
    unfold Shallot.new at h
    cases hb : number v (.bool true) (.int 1) with
    | ok w => exact ((number_count v w).1 hb).2
    | error e => rw [hb] at h; cases h
  obtain ⟨n, hn⟩ := hv
  have hk : ∃ keep, boolean k = .ok keep := by
    unfold Shallot.new at h
    rw [(number_count v v).2 ⟨rfl, n, hn⟩] at h
    cases hb : boolean k with
    | ok b => exact ⟨b, rfl⟩
    | error e => simp only [hb] at h; cases h
  obtain ⟨keep, hk⟩ := hk
  obtain ⟨h1, h2⟩ := C72_new _ _ _ _ _ _ _ _ g hg (fun _ => ⟨hy, hx⟩) v k n hn keep hk
  have hall : ∀ y x, y < g.dy.data.length → x < g.dx.data.length → Buildable g n y x := by
    by_contra hno
    push Not at hno
    obtain ⟨e, he⟩ := h2 hno
    rw [he] at h
    cases h
  obtain ⟨s', d, e1, e2, -⟩ := h1 hall
  rw [e1] at h
  cases h
  refine ⟨?_, e2.extendable, ?_⟩
  · intro e
    have := e2.extendable
    rw [e, he] at this
    cases this
  · rw [e2.shaped.slice, (e2.vectorX he).length', (e2.vectorY he).length']
    rfl

end

/-! ## The layer of the smallest disks -/

open Geometry

theorem npMax_fin : ∀ (l : List (XF ℝ)), l ≠ [] → (∀ x ∈ l, ∃ v : ℝ, x = .fin v) →
    ∃ m : ℝ, npMax l = .fin m
  | [], h, _ => absurd rfl h
  | [x], _, h => h x (by simp)
  | x :: y :: l, _, h => by
    obtain ⟨m, hm⟩ := npMax_fin (y :: l) (by simp) (fun z hz => h z (by simp at hz ⊢; tauto))
    obtain ⟨v, rfl⟩ := h x (by simp)
    unfold npMax
    simp only [hm]
    by_cases hc : XF.lt (XF.fin v) (.fin m) = true
    · exact ⟨m, by simp [hc, XF.isNan]⟩
    · exact ⟨v, by simp [hc, XF.isNan]⟩

/-- **C72** The largest `dx` and `dy` that a build uses are the largest elements of the vectors, and NaN
exactly if there is a NaN. -/
theorem C72_largest : ∀ l : List (XF ℝ), l ≠ [] →
    (npMax l = .nan ↔ .nan ∈ l) ∧ (.nan ∉ l → npMax l ∈ l ∧ ∀ x ∈ l, XF.lt (npMax l) x = false)
  | [], h => absurd rfl h
  | [x], _ => by
    have irr : XF.lt x x = false := by cases x <;> simp [XF.lt]
    simp only [npMax, List.mem_singleton]
    exact ⟨eq_comm, fun _ => ⟨trivial, fun y hy => hy ▸ irr⟩⟩
  | x :: y :: l, _ => by
    obtain ⟨h1, h2⟩ := C72_largest (y :: l) (by simp)
    have e : npMax (x :: y :: l) = if x.isNan || (npMax (y :: l)).isNan then .nan else
      if XF.lt x (npMax (y :: l)) then npMax (y :: l) else x := rfl
    have nan : ∀ z : XF ℝ, z.isNan = true ↔ z = .nan := by intro z; cases z <;> simp [XF.isNan]
    rw [e]
    generalize npMax (y :: l) = m at h1 h2
    constructor
    · rw [List.mem_cons, ← h1, eq_comm (a := (XF.nan : XF ℝ)), ← nan x, ← nan m]
      split_ifs with c1 c2
      · simpa using c1
      · simp only [Bool.or_eq_true, not_or] at c1
        simp only [← nan, c1, or_self]
      · simp only [Bool.or_eq_true, not_or] at c1
        simp only [← nan, c1, or_self]
    · intro hn
      have hx : x ≠ .nan := fun h => hn (by rw [h]; simp)
      have hl : XF.nan ∉ y :: l := fun h => hn (List.mem_cons_of_mem _ h)
      obtain ⟨g1, g2⟩ := h2 hl
      have hm : m ≠ .nan := fun h => hl (h ▸ g1)
      have c1 : ¬ (x.isNan || m.isNan) = true := by
        rw [Bool.or_eq_true, nan, nan]; exact fun h => h.elim hx hm
      rw [if_neg c1]
      have irr : XF.lt x x = false := by cases x <;> simp [XF.lt]
      split_ifs with c2
      · refine ⟨List.mem_cons_of_mem _ g1, fun z hz => ?_⟩
        rcases List.mem_cons.1 hz with rfl | hz
        · cases z <;> cases m <;> simp_all [XF.lt]
          exact c2.le
        · exact g2 z hz
      · refine ⟨List.mem_cons_self, fun z hz => ?_⟩
        rcases List.mem_cons.1 hz with rfl | hz
        · exact irr
        · by_contra hlt
          rw [Bool.not_eq_false] at hlt
          have := XF.lt_of_not_lt x m z hx hm (by simpa using c2) hlt
          rw [g2 z hz] at this
          cases this

/-- Without the infinities it is the largest number. -/
example : npMax ([.fin 1, .fin 3, .fin 2] : List (XF ℝ)) = .fin 3 ∧
    npMax ([.fin 1, .nan, .fin 2] : List (XF ℝ)) = .nan := by
  constructor
  · have h : ∃ m, npMax ([.fin 1, .fin 3, .fin 2] : List (XF ℝ)) = m := ⟨_, rfl⟩
    obtain ⟨m, hm⟩ := h
    obtain ⟨h1, h2⟩ := (C72_largest [.fin 1, .fin 3, .fin 2] (by simp)).2 (by simp)
    rw [hm] at h1 h2 ⊢
    have := h2 (.fin 3) (by simp)
    simp only [List.mem_cons, List.not_mem_nil, or_false] at h1
    rcases h1 with rfl | rfl | rfl
    · norm_num [XF.lt] at this
    · rfl
    · norm_num [XF.lt] at this
  · exact ((C72_largest _ (by simp)).1).2 (by simp)

theorem evenly_fin {l : List (XF ℝ)} {a b : ℝ} {n : ℕ} (h : Evenly l a b n) :
    ∀ x ∈ l, ∃ v : ℝ, x = .fin v := by
  obtain ⟨st, -, hst⟩ := h.step
  intro x hx
  obtain ⟨j, hj, rfl⟩ := List.mem_iff_getElem.1 hx
  have := hst j (by rw [← h.length]; exact hj)
  rw [List.getElem?_eq_getElem hj] at this
  exact ⟨_, Option.some.inj this⟩

theorem shear_undefined (dx : ℝ) (h : dx ≠ 0) : shear (.fin dx) (.fin 0) = .nan := by
  simp [shear, XF.eqb, h]

/-- Finite coordinates of a grid. -/
structure Spec.FiniteGrid (g : GridParams ℝ) : Prop where
  dx : ∀ x ∈ g.dx.data, ∃ v : ℝ, x = .fin v
  dy : ∀ x ∈ g.dy.data, ∃ v : ℝ, x = .fin v

theorem finiteGrid_new (minX maxX numX minY maxY numY maxRf numRf : PyVal ℝ) (g : GridParams ℝ)
    (hg : GridParams.new minX maxX numX minY maxY numY maxRf numRf = .ok g) (a b c d : ℝ)
    (ha : IsNumber false minX (.fin a)) (hb : IsNumber false maxX (.fin b))
    (hc : IsNumber false minY (.fin c)) (hd : IsNumber false maxY (.fin d)) : FiniteGrid g := by
  obtain ⟨a', b', nx, c', d', ny, m, nr, ⟨h1, h2, h3, h4⟩, ⟨h5, h6, h7, h8⟩, ⟨h9, h10, h11⟩, -⟩ :=
    (new_ok_iff _ _ _ _ _ _ _ _ _).1 hg
  obtain ⟨e1, e2, -⟩ := (C21_vectors minX maxX numX minY maxY numY maxRf numRf a b c d nx ny nr m ha
    hb h4 hc hd h8 h9 h10 h11).2 g hg
  exact ⟨evenly_fin e1, evenly_fin e2⟩

/-- A cell of a grid with finite coordinates. -/
theorem cellFor_at (g : GridParams ℝ) (hf : FiniteGrid g) (num y x : ℕ) (dx dy : ℝ)
    (hx : g.dx.data[x]? = some (.fin dx)) (hy : g.dy.data[y]? = some (.fin dy))
    (h : dy ≠ 0 ∨ dx = 0) : CellAt (cellFor g num y x) dx dy := by
  have hx' := getD_of_get _ _ _ hx
  have hy' := getD_of_get _ _ _ hy
  unfold cellFor
  rw [hx', hy']
  refine ⟨rfl, rfl, rfl, h, npMax_fin _ ?_ hf.dx, npMax_fin _ ?_ hf.dy⟩
  · intro e; rw [e] at hx; cases hx
  · intro e; rw [e] at hy; cases hy

theorem get_fin (l : List (XF ℝ)) (hf : ∀ x ∈ l, ∃ v : ℝ, x = .fin v) (i : ℕ) (hi : i < l.length) :
    ∃ v : ℝ, l[i]? = some (.fin v) := by
  obtain ⟨v, hv⟩ := hf _ (List.getElem_mem hi)
  exact ⟨v, by rw [List.getElem?_eq_getElem hi, hv]⟩

/-- What the first quadrant holds in the layer of the smallest disks. -/
theorem built_smallest (g : GridParams ℝ) (hg : ShapedGrid g) (hf : FiniteGrid g) (num : ℕ)
    (y x : ℕ) (hy : y < g.dy.data.length) (hx : x < g.dx.data.length)
    (hb : Buildable g num y x) : ∃ dx dy : ℝ, g.dx.data[x]? = some (.fin dx) ∧
      g.dy.data[y]? = some (.fin dy) ∧
      ((dy ≠ 0 ∨ dx = 0) → ∃ col, columnFor g num y x = some col ∧
        ∃ R : ℝ, 0 < R ∧ .fin R ∈ col.radius ∧ (∀ r ∈ col.radius, r = .nan ∨ LessEq (.fin R) r) ∧
        (built g num (·.diskRadius)).at3 y x (g.rf.data.length - 1) = .fin R) ∧
      (¬ (dy ≠ 0 ∨ dx = 0) → ∀ r, r < 2 * g.rf.data.length - 1 →
        (built g num (·.diskRadius)).at3 y x r = .nan) := by
  obtain ⟨dx, hdx⟩ := get_fin _ hf.dx x hx
  obtain ⟨dy, hdy⟩ := get_fin _ hf.dy y hy
  have hlen : 0 < g.rf.data.length := List.length_pos_iff.2 hg.rf
  refine ⟨dx, dy, hdx, hdy, ?_, ?_⟩
  · intro hp
    have hc := cellFor_at g hf num y x dx dy hdx hdy hp
    have hsh : (cellFor g num y x).shear ≠ .nan := by
      rw [hc.shear_eq, shear_ok dx dy hp]; simp
    obtain ⟨col, hcol⟩ := hb.resolve_left hsh
    have hfor : columnFor g num y x = some col := by
      unfold columnFor
      rw [if_neg (fun h => hsh ((XF.isNan_iff _).1 h)), hcol]
    obtain ⟨-, -, R, hR, h1, h2, h3⟩ := C57_cell _ dx dy hc _ hg.rf col hcol
    refine ⟨col, hfor, R, hR, h1, h2, ?_⟩
    rw [built, at3_cubeOf _ _ _ _ hy hx (by omega)]
    unfold layer
    rw [hfor]
    exact getD_of_get _ _ _ h3
  · intro hp r hr
    have hp' : dy = 0 ∧ dx ≠ 0 := by
      constructor
      · by_contra h; exact hp (Or.inl h)
      · intro h; exact hp (Or.inr h)
    have hsh : (cellFor g num y x).shear = .nan := by
      unfold cellFor
      rw [getD_of_get _ _ _ hdx, getD_of_get _ _ _ hdy, hp'.1]
      exact shear_undefined dx hp'.2
    have hfor : columnFor g num y x = none := by
      unfold columnFor
      rw [if_pos ((XF.isNan_iff _).2 hsh)]
    rw [built, at3_cubeOf _ _ _ _ hy hx hr]
    unfold layer
    rw [hfor]

theorem sameSize_fin (u : XF ℝ) (v : ℝ) (h : SameSize u (.fin v)) :
    ∃ w : ℝ, u = .fin w ∧ (w = 0 ↔ v = 0) := by
  rcases h with rfl | rfl
  · exact ⟨v, rfl, Iff.rfl⟩
  · exact ⟨-v, rfl, neg_eq_zero⟩

theorem rfArray_middle (minX maxX numX minY maxY numY maxRf numRf : PyVal ℝ) (g : GridParams ℝ)
    (hg : GridParams.new minX maxX numX minY maxY numY maxRf numRf = .ok g) (m : ℝ)
    (hm : IsNumber false maxRf (.fin m)) :
    g.rfArray.data[g.rf.data.length - 1]? = some (.fin 1) := by
  obtain ⟨a', b', nx, c', d', ny, m', nr, -, -, ⟨h9, h10, h11⟩, rfl⟩ :=
    (new_ok_iff _ _ _ _ _ _ _ _ _).1 hg
  have := (C22_rf_array minX maxX numX minY maxY numY maxRf numRf _ hg m nr hm h11).2.2.1
  rw [show (gridOf a' b' nx c' d' ny m' nr).rf.data.length = nr from linspace_length _ _ _]
  exact this

/-- **C57** In a complete grid the layer of radius factor 1 holds a positive disk radius at every
centre at which a disk can be placed, and the diagnostic map is exactly zero there; at all other
centres both are NaN. -/
theorem C57_grid (minX maxX numX minY maxY numY maxRf numRf : PyVal ℝ) (g : GridParams ℝ)
    (hg : GridParams.new minX maxX numX minY maxY numY maxRf numRf = .ok g) (a b c d m : ℝ)
    (ha : IsNumber false minX (.fin a)) (hb : IsNumber false maxX (.fin b))
    (hc : IsNumber false minY (.fin c)) (hd : IsNumber false maxY (.fin d))
    (hm : IsNumber false maxRf (.fin m))
    (hext : g.extendable = true → 2 ≤ g.sliceShape.1 ∧ 2 ≤ g.sliceShape.2) (v k : PyVal ℝ)
    (n : ℕ) (hn : Count v n) (keep : Bool) (hk : boolean k = .ok keep) (s : Shallot ℝ)
    (g' : GridParams ℝ) (h : Shallot.new v k g = (.ok s, g')) :
    g' = s.params ∧ ∃ p, s.diagnosticMap = some p ∧
      p.data.Cubic s.params.gridShape.1 s.params.gridShape.2.1 s.params.gridShape.2.2 ∧
      s.params.rfArray.data[s.params.rf.data.length - 1]? = some (.fin 1) ∧
      ∀ y x, y < s.params.gridShape.1 → x < s.params.gridShape.2.1 → ∃ dx dy : ℝ,
        s.params.dx.data.getD x .nan = .fin dx ∧ s.params.dy.data.getD y .nan = .fin dy ∧
        ((dy ≠ 0 ∨ dx = 0) → ∃ R : ℝ, 0 < R ∧
          s.diskRadius.data.at3 y x (s.params.rf.data.length - 1) = .fin R ∧
          p.data.at3 y x (s.params.rf.data.length - 1) = .fin 0) ∧
        (¬ (dy ≠ 0 ∨ dx = 0) → ∀ r, r < s.params.gridShape.2.2 →
          s.diskRadius.data.at3 y x r = .nan ∧ p.data.at3 y x r = .nan) := by
  have hs := shapedGrid_new _ _ _ _ _ _ _ _ _ hg
  have hf := finiteGrid_new _ _ _ _ _ _ _ _ _ hg a b c d ha hb hc hd
  have hlen : 0 < g.rf.data.length := List.length_pos_iff.2 hs.rf
  obtain ⟨h1, h2⟩ := C72_new _ _ _ _ _ _ _ _ g hg hext v k n hn keep hk
  have hall : ∀ y x, y < g.dy.data.length → x < g.dx.data.length → Buildable g n y x := by
    by_contra hno
    push Not at hno
    obtain ⟨e, he⟩ := h2 hno
    rw [he] at h
    cases h
  obtain ⟨s', d', e1, e2, -⟩ := h1 hall
  rw [e1] at h
  obtain ⟨rfl, rfl⟩ : s' = s ∧ s'.params = g' := by
    injection h with h h'
    injection h with h
    exact ⟨h, h'⟩
  refine ⟨rfl, _, e2.map, cubic_cubeOf _ _ _ _, ?_, ?_⟩
  · rw [e2.rf, e2.rfArray]
    exact rfArray_middle _ _ _ _ _ _ _ _ g hg m hm
  intro y x hy hx
  obtain ⟨-, hnr, hdraw⟩ := e2.diskRadius
  obtain ⟨i, j, hi, hj, si, sj, hval⟩ := hdraw y x hy hx
  have hgs : (builtGrid g v d').params.gridShape =
      (g.dy.data.length, g.dx.data.length, 2 * g.rf.data.length - 1) := hs.grid
  rw [hgs] at hi hj hval hnr
  simp only at hi hj hval hnr
  obtain ⟨dx0, dy0, hdx, hdy, good, bad⟩ := built_smallest g hs hf n i j hi hj (hall i j hi hj)
  have hbd : (builtGrid g v d').diskRadius.data = built g n (·.diskRadius) := by
    show built g v.toInt.toNat _ = _
    rw [count_toInt hn]
  rw [hbd] at hval
  have hp : (builtGrid g v d').params = g := rfl
  rw [hp, getD_of_get _ _ _ hdy] at si
  rw [hp, getD_of_get _ _ _ hdx] at sj
  obtain ⟨dy, hdy', zy⟩ := sameSize_fin _ _ si
  obtain ⟨dx, hdx', zx⟩ := sameSize_fin _ _ sj
  refine ⟨dx, dy, hdx', hdy', ?_, ?_⟩
  · intro hplace
    obtain ⟨-, -, R, hR, -, -, hR'⟩ := good (by
      rcases hplace with h | h
      · exact Or.inl (fun e => h (zy.2 e))
      · exact Or.inr (zx.1 h))
    have hv : s'.diskRadius.data.at3 y x (s'.params.rf.data.length - 1) = .fin R := by
      rw [e2.rf, hp, hval _ (by omega), hR']
    refine ⟨R, hR, hv, ?_⟩
    show (diagnosticOf s').at3 y x _ = _
    rw [diagnosticOf, at3_cubeOf _ _ _ _ hy hx (by rw [hnr, e2.rf, hp]; omega), hv, e2.rfArray, hp,
      e2.rf, hp, getD_of_get _ _ _ (rfArray_middle _ _ _ _ _ _ _ _ g hg m hm)]
    rw [XF.div_fin _ _ hR.ne', div_self hR.ne', XF.sub_fin, sub_self]
  · intro hplace r hr
    have hnan : s'.diskRadius.data.at3 y x r = .nan := by
      rw [hnr] at hr
      rw [hval r hr]
      refine bad (fun h => hplace ?_) r hr
      rcases h with h | h
      · exact Or.inl (fun e => h (zy.1 e))
      · exact Or.inr (zx.2 h)
    refine ⟨hnan, ?_⟩
    show (diagnosticOf s').at3 y x r = _
    rw [diagnosticOf, at3_cubeOf _ _ _ _ hy hx hr, hnan]
    simp [XF.div, XF.sub, XF.add]

theorem column_too_small (c : Shallot.Cell ℝ) (rf : List (XF ℝ)) (m : ℝ) (h : c.maxX = .fin m)
    (hm : 100 * m < 1) : Shallot.column c rf = .error .attributeError := by
  have h1 : Shallot.tooFar c.maxX 1 = true := by
    simp [Shallot.tooFar, h, XF.mul, hm]
  have h2 : Shallot.tooFar c.maxX (1 + 1) = true := by
    simp only [Shallot.tooFar, h, XF.mul, XF.lt_fin, decide_eq_true_eq]
    push_cast; linarith
  have hl : Shallot.horizontalLoop c 1 [] [] = some (.error .attributeError) := by
    rw [Shallot.horizontalLoop]
    simp only [h1, h2, if_true, ite_self]
  unfold Shallot.column
  rw [hl]
  rfl

/-- **C72** A grid all of whose `dx` are below 1/100 is never built (if it has any centre at which a
disk can be placed): the constructor raises and leaves the parameters alone. -/
theorem C72_too_small (minX maxX numX minY maxY numY maxRf numRf : PyVal ℝ) (g : GridParams ℝ)
    (hg : GridParams.new minX maxX numX minY maxY numY maxRf numRf = .ok g)
    (hext : g.extendable = true → 2 ≤ g.sliceShape.1 ∧ 2 ≤ g.sliceShape.2) (v k : PyVal ℝ)
    (n : ℕ) (hn : Count v n) (keep : Bool) (hk : boolean k = .ok keep)
    (hall : ∀ z ∈ g.dx.data, ∃ m : ℝ, z = .fin m ∧ 100 * m < 1) (y x : ℕ) (dx dy : ℝ)
    (hx : g.dx.data[x]? = some (.fin dx)) (hy : g.dy.data[y]? = some (.fin dy))
    (hp : dy ≠ 0 ∨ dx = 0) : ∃ e, Shallot.new v k g = (.error e, g) := by
  obtain ⟨m, hmax, hm⟩ : ∃ m : ℝ, npMax g.dx.data = .fin m ∧ 100 * m < 1 :=
    hall _ ((C72_largest _ (List.ne_nil_of_mem (List.mem_of_getElem? hx))).2 (fun h => by
      obtain ⟨m, h, -⟩ := hall _ h
      cases h)).1
  refine (C72_new _ _ _ _ _ _ _ _ g hg hext v k n hn keep hk).2 ⟨y, x, ?_, ?_, ?_⟩
  · exact (List.getElem?_eq_some_iff.1 hy).1
  · exact (List.getElem?_eq_some_iff.1 hx).1
  · rintro (h | ⟨col, h⟩)
    · unfold cellFor at h
      rw [getD_of_get _ _ _ hx, getD_of_get _ _ _ hy] at h
      simp only at h
      rw [shear_ok dx dy hp] at h
      cases h
    · rw [column_too_small (cellFor g n y x) _ m hmax hm] at h
      cases h

/-- **C73** A grid that is not extended and was built with `keep_diagnostics=True` returns for every
centre at which a disk can be placed the sampled vertical scale factors and disk radii, and the layer
of radius factor 1 holds the smallest of these radii. -/
theorem C73_kept (minX maxX numX minY maxY numY maxRf numRf : PyVal ℝ) (g : GridParams ℝ)
    (hg : GridParams.new minX maxX numX minY maxY numY maxRf numRf = .ok g) (a b c d : ℝ)
    (ha : IsNumber false minX (.fin a)) (hb : IsNumber false maxX (.fin b))
    (hc : IsNumber false minY (.fin c)) (hd : IsNumber false maxY (.fin d))
    (hext : g.extendable = false) (v k : PyVal ℝ) (n : ℕ) (hn : Count v n)
    (hk : boolean k = .ok true) (s : Shallot ℝ) (g' : GridParams ℝ)
    (h : Shallot.new v k g = (.ok s, g')) :
    g' = g ∧ ∃ diag, s.diagnostics = some diag ∧
      ∀ y x, y < g.dy.data.length → x < g.dx.data.length →
      ∀ dx dy : ℝ, g.dx.data[x]? = some (.fin dx) → g.dy.data[y]? = some (.fin dy) →
      (dy ≠ 0 ∨ dx = 0) → ∃ (fy radius : List (XF ℝ)) (R : ℝ),
        diag.get (.int y) (.int x) = .ok (fy, radius) ∧ fy.length = radius.length ∧
        s.diskRadius.data.at3 y x (g.rf.data.length - 1) = .fin R ∧ .fin R ∈ radius ∧
        ∀ r ∈ radius, r = .nan ∨ LessEq (.fin R) r := by
  have hs := shapedGrid_new _ _ _ _ _ _ _ _ _ hg
  have hf := finiteGrid_new _ _ _ _ _ _ _ _ _ hg a b c d ha hb hc hd
  obtain ⟨h1, h2⟩ := C72_new _ _ _ _ _ _ _ _ g hg (fun e => by rw [hext] at e; cases e) v k n hn
    true hk
  have hall : ∀ y x, y < g.dy.data.length → x < g.dx.data.length → Buildable g n y x := by
    by_contra hno
    push Not at hno
    obtain ⟨e, he⟩ := h2 hno
    rw [he] at h
    cases h
  obtain ⟨s', d', e1, e2, e3⟩ := h1 hall
  rw [e1] at h
  obtain ⟨rfl, rfl⟩ : s' = s ∧ s'.params = g' := by
    injection h with h h'
    injection h with h
    exact ⟨h, h'⟩
  have hplain := e2.plain hext
  have hpar : s'.params = g := by rw [hplain]; rfl
  have hdia : s'.diagnostics = d' := by rw [hplain]; rfl
  have hrad : s'.diskRadius.data = built g n (·.diskRadius) := by
    rw [hplain]
    show built g v.toInt.toNat _ = _
    rw [count_toInt hn]
  cases d' with
  | none => cases e3
  | some diag =>
    obtain ⟨-, -, -, -, hget⟩ := e3
    refine ⟨hpar, diag, hdia, ?_⟩
    intro y x hy hx dx dy hdx hdy hp
    obtain ⟨dx', dy', hdx', hdy', good, -⟩ := built_smallest g hs hf n y x hy hx (hall y x hy hx)
    obtain rfl : dx = dx' := by rw [hdx] at hdx'; simpa using hdx'
    obtain rfl : dy = dy' := by rw [hdy] at hdy'; simpa using hdy'
    obtain ⟨col, hcol, R, -, hR1, hR2, hR3⟩ := good hp
    have hlen : col.fy.length = col.radius.length := by
      unfold columnFor at hcol
      split_ifs at hcol
      cases hc' : Shallot.column (cellFor g n y x) g.rf.data with
      | error e => rw [hc'] at hcol; cases hcol
      | ok col' =>
        rw [hc'] at hcol
        obtain rfl : col' = col := by simpa using hcol
        exact (column_lengths _ _ hs.rf _ hc').2.2.2.2.2
    refine ⟨col.fy, col.radius, R, ?_, hlen, ?_, hR1, hR2⟩
    · refine hget y x ?_ ?_ ?_ col ?_
      · show y < g.sliceShape.1
        rw [hs.slice]; exact hy
      · show x < g.sliceShape.2
        rw [hs.slice]; exact hx
      · simp [before, hy]
      · show columnFor g v.toInt.toNat y x = _
        rw [count_toInt hn]; exact hcol
    · rw [hrad]; exact hR3

/-! ## A grid that can be built

The grid that `ShallotGrid.load` (L2206-2208) builds and throws away. -/

/-- `GridParameters(0, 1, 2, 0, 1, 2, 2, 2)`. -/
noncomputable def throwAway : GridParams ℝ := gridOf (.fin 0) (.fin 1) 2 (.fin 0) (.fin 1) 2 (.fin 2) 2

theorem throwAway_new : GridParams.new (K := ℝ) (.int 0) (.int 1) (.int 2) (.int 0) (.int 1) (.int 2)
    (.int 2) (.int 2) = .ok throwAway := by
  rw [new_ok_iff]
  have h0 : IsNumber (K := ℝ) false (.int 0) (.fin 0) := Or.inl ⟨0, .int 0, by simp⟩
  have h1 : IsNumber (K := ℝ) false (.int 1) (.fin 1) := Or.inl ⟨1, .int 1, by simp⟩
  have h2 : IsNumber (K := ℝ) false (.int 2) (.fin 2) := Or.inl ⟨2, .int 2, by simp⟩
  have hc : Count (K := ℝ) (.int 2) 2 := ⟨by norm_num, .int 2⟩
  refine ⟨.fin 0, .fin 1, 2, .fin 0, .fin 1, 2, .fin 2, 2, ⟨h0, h1, ?_, hc⟩, ⟨h0, h1, ?_, hc⟩,
    ⟨h2, ?_, hc⟩, rfl⟩
  · rw [lessEq_iff]; simp
  · rw [lessEq_iff]; simp
  · rw [less_iff]; simp

theorem two_points (a b : ℝ) (h : a < b) : linspace (.fin a) (.fin b) 2 = [.fin a, .fin b] := by
  have := linspace_evenly h (n := 2) (by norm_num)
  have hl := this.length
  have h0 := this.first
  have h1 := this.last (by norm_num)
  match hm : linspace (.fin a) (.fin b) 2, hl with
  | [u, w], _ =>
    rw [hm] at h0 h1
    simp at h0 h1
    rw [h0, h1]

theorem throwAway_buildable (y x : ℕ) (hy : y < 2) (hx : x < 2) : Buildable throwAway 100 y x := by
  have hdx : throwAway.dx.data = [.fin 0, .fin 1] := two_points 0 1 one_pos
  have hdy : throwAway.dy.data = [.fin 0, .fin 1] := two_points 0 1 one_pos
  have hrf : throwAway.rf.data = [.fin 1, .fin 2] := two_points 1 2 (by norm_num)
  have hmax : npMax ([.fin 0, .fin 1] : List (XF ℝ)) = .fin 1 := by
    simp [npMax, XF.isNan]
  have hcell : ∀ dx dy : ℝ, throwAway.dx.data[x]? = some (.fin dx) →
      throwAway.dy.data[y]? = some (.fin dy) → (dy ≠ 0 ∨ dx = 0) → |shearOf dx dy| ≤ 1 →
      Buildable throwAway 100 y x := by
    intro dx dy h1 h2 hp hs
    right
    have hf : FiniteGrid throwAway := by
      constructor
      · rw [hdx]; simp
      · rw [hdy]; simp
    have hc := cellFor_at throwAway hf 100 y x dx dy h1 h2 hp
    refine C58_column _ dx dy 1 1 2 hc ?_ one_pos ?_ one_pos ?_ ?_ (by norm_num) _ ?_ 4 (by norm_num)
      (by norm_num) ?_ 4 (by norm_num) (by norm_num) ?_
    · show npMax throwAway.dx.data = _
      rw [hdx, hmax]
    · show npMax throwAway.dy.data = _
      rw [hdy, hmax]
    · show 2 ≤ 100
      norm_num
    · show throwAway.rf.data.getLastD .nan = _
      rw [hrf]; rfl
    · rw [hrf]; simp
    · push_cast; linarith
    · push_cast; linarith
  have key : ∀ z, z < 2 → z = 0 ∨ z = 1 := by omega
  rcases key y hy with rfl | rfl <;> rcases key x hx with rfl | rfl
  · refine hcell 0 0 (by rw [hdx]; rfl) (by rw [hdy]; rfl) (Or.inr rfl) ?_
    simp [shearOf]
  · left
    unfold cellFor
    rw [hdx, hdy]
    exact shear_undefined 1 one_ne_zero
  · refine hcell 0 1 (by rw [hdx]; rfl) (by rw [hdy]; rfl) (Or.inr rfl) ?_
    simp [shearOf]
  · refine hcell 1 1 (by rw [hdx]; rfl) (by rw [hdy]; rfl) (Or.inl one_ne_zero) ?_
    simp [shearOf]

theorem count_hundred : Count (K := ℝ) (.int 100) 100 := ⟨by norm_num, .int 100⟩

theorem throwAway_length : throwAway.dx.data.length = 2 ∧ throwAway.dy.data.length = 2 ∧
    throwAway.rf.data.length = 2 := by
  unfold throwAway gridOf
  simp only [linspace_length, and_self]

/-- The grid of `load` is built, mirrored and diagnosed. -/
theorem throwAway_grid : ∃ s d, Shallot.new (.int 100) (.bool false) throwAway = (.ok s, s.params) ∧
    CompleteFrom (builtGrid throwAway (.int 100) d) s := by
  have hl : ∀ z, z < throwAway.dy.data.length → z < 2 := by
    intro z hz
    rwa [throwAway_length.2.1] at hz
  obtain ⟨s, d, h1, h2, -⟩ := (C72_new _ _ _ _ _ _ _ _ throwAway throwAway_new
    (fun _ => ⟨le_rfl, le_rfl⟩) (.int 100) (.bool false) 100 count_hundred false rfl).1
    (fun y x hy hx => throwAway_buildable y x (hl y hy) (by
      rwa [throwAway_length.1] at hx))
  exact ⟨s, d, h1, h2⟩

/-- The witness of `C66_false`: after building a grid of two by two centres the caller's parameters
have three by three. -/
theorem C66_false_witness : throwAway.sliceShape = (2, 2) ∧
    ∃ s g', Shallot.new (.int 100) (.bool false) throwAway = (.ok s, g') ∧ g'.sliceShape = (3, 3) := by
  obtain ⟨s, d, h1, -⟩ := throwAway_grid
  refine ⟨rfl, s, _, h1, ?_⟩
  have hl : linspace (.fin 0) (.fin 1) 2 = [XF.fin (0 : ℝ), .fin 1] := two_points 0 1 one_pos
  exact (C66_false _ _ _ _ _ _ _ _ throwAway throwAway_new
    (by simp [throwAway, gridOf, hl, XF.eqb]) le_rfl le_rfl _ _ s _ h1).2.2

/-- The hypotheses of `C57_grid` are met: the disk at the centre (1, 1) of the mirrored grid. -/
theorem throwAway_disk : ∃ s d, Shallot.new (.int 100) (.bool false) throwAway = (.ok s, s.params) ∧
    CompleteFrom (builtGrid throwAway (.int 100) d) s ∧ s.params.gridShape = (3, 3, 3) ∧
    ∃ p, s.diagnosticMap = some p ∧ ∃ R : ℝ, 0 < R ∧ s.diskRadius.data.at3 2 2 1 = .fin R ∧
      p.data.at3 2 2 1 = .fin 0 := by
  obtain ⟨s, d, h1, h2⟩ := throwAway_grid
  refine ⟨s, d, h1, h2, ?_⟩
  have hrf : s.params.rf.data.length = 2 := by
    rw [h2.rf]; exact throwAway_length.2.2
  have hl : linspace (.fin 0) (.fin 1) 2 = [XF.fin (0 : ℝ), .fin 1] := two_points 0 1 one_pos
  have hex : (builtGrid throwAway (.int 100) d).params.extendable = true := by
    show throwAway.extendable = true
    simp [throwAway, gridOf, hl, XF.eqb]
  have mx := h2.vectorX hex
  have my := h2.vectorY hex
  have hgs : s.params.gridShape = (3, 3, 3) := by
    rw [h2.shaped.grid, hrf, mx.length', my.length']; rfl
  obtain ⟨-, p, hp, hcub, -, hval⟩ := C57_grid _ _ _ _ _ _ _ _ throwAway throwAway_new 0 1 0 1 2
    (Or.inl ⟨0, .int 0, by simp⟩) (Or.inl ⟨1, .int 1, by simp⟩) (Or.inl ⟨0, .int 0, by simp⟩)
    (Or.inl ⟨1, .int 1, by simp⟩) (Or.inl ⟨2, .int 2, by simp⟩) (fun _ => ⟨le_rfl, le_rfl⟩) (.int 100)
    (.bool false) 100 count_hundred false rfl s _ h1
  obtain ⟨dx, dy, hdx, hdy, good, -⟩ := hval 2 2 (by rw [hgs]; norm_num) (by rw [hgs]; norm_num)
  rw [hrf] at good
  refine ⟨hgs, p, hp, good (Or.inl ?_)⟩
  obtain ⟨w, h3, h4, -⟩ := my.values 1 (by show 1 < 2; norm_num)
  have h4' : s.params.dy.data[2]? = some (.fin w) := h4
  rw [getD_of_get _ _ _ h4'] at hdy
  have h3' : ([XF.fin 0, .fin 1] : List (XF ℝ))[1]? = some (.fin w) := by rw [← hl]; exact h3
  have e1 : (1 : ℝ) = w := by simpa using h3'
  have e2 : w = dy := by simpa using hdy
  rw [← e2, ← e1]
  exact one_ne_zero

/-- `GridParameters(0, 1, 2, 1, 2, 2, 2, 2)`: the first row is at `dy = 1`. -/
noncomputable def upper : GridParams ℝ := gridOf (.fin 0) (.fin 1) 2 (.fin 1) (.fin 2) 2 (.fin 2) 2

theorem upper_new : GridParams.new (K := ℝ) (.int 0) (.int 1) (.int 2) (.int 1) (.int 2) (.int 2)
    (.int 2) (.int 2) = .ok upper := by
  rw [new_ok_iff]
  have h0 : IsNumber (K := ℝ) false (.int 0) (.fin 0) := Or.inl ⟨0, .int 0, by simp⟩
  have h1 : IsNumber (K := ℝ) false (.int 1) (.fin 1) := Or.inl ⟨1, .int 1, by simp⟩
  have h2 : IsNumber (K := ℝ) false (.int 2) (.fin 2) := Or.inl ⟨2, .int 2, by simp⟩
  have hc : Count (K := ℝ) (.int 2) 2 := ⟨by norm_num, .int 2⟩
  refine ⟨.fin 0, .fin 1, 2, .fin 1, .fin 2, 2, .fin 2, 2, ⟨h0, h1, ?_, hc⟩, ⟨h1, h2, ?_, hc⟩,
    ⟨h2, ?_, hc⟩, rfl⟩
  · rw [lessEq_iff]; simp
  · rw [lessEq_iff]; simp
  · rw [less_iff]; simp

theorem upper_buildable (y x : ℕ) (hy : y < 2) (hx : x < 2) : Buildable upper 100 y x := by
  have hdx : upper.dx.data = [.fin 0, .fin 1] := two_points 0 1 one_pos
  have hdy : upper.dy.data = [.fin 1, .fin 2] := two_points 1 2 (by norm_num)
  have hrf : upper.rf.data = [.fin 1, .fin 2] := two_points 1 2 (by norm_num)
  have hmax : npMax ([.fin 0, .fin 1] : List (XF ℝ)) = .fin 1 := by
    simp [npMax, XF.isNan]
  have hmay : npMax ([.fin 1, .fin 2] : List (XF ℝ)) = .fin 2 := by
    simp [npMax, XF.isNan]
  have hcell : ∀ dx dy : ℝ, upper.dx.data[x]? = some (.fin dx) →
      upper.dy.data[y]? = some (.fin dy) → dy ≠ 0 → |shearOf dx dy| ≤ 1 →
      Buildable upper 100 y x := by
    intro dx dy h1 h2 hp hs
    right
    have hf : FiniteGrid upper := by
      constructor
      · rw [hdx]; simp
      · rw [hdy]; simp
    have hc := cellFor_at upper hf 100 y x dx dy h1 h2 (Or.inl hp)
    refine C58_column _ dx dy 1 2 2 hc ?_ one_pos ?_ two_pos ?_ ?_ (by norm_num) _ ?_ 4 (by norm_num)
      (by norm_num) ?_ 4 (by norm_num) (by norm_num) ?_
    · show npMax upper.dx.data = _
      rw [hdx, hmax]
    · show npMax upper.dy.data = _
      rw [hdy, hmay]
    · show 2 ≤ 100
      norm_num
    · show upper.rf.data.getLastD .nan = _
      rw [hrf]; rfl
    · rw [hrf]; simp
    · push_cast; linarith
    · push_cast; linarith
  have key : ∀ z, z < 2 → z = 0 ∨ z = 1 := by omega
  rcases key y hy with rfl | rfl <;> rcases key x hx with rfl | rfl
  · refine hcell 0 1 (by rw [hdx]; rfl) (by rw [hdy]; rfl) one_ne_zero ?_
    simp [shearOf]
  · refine hcell 1 1 (by rw [hdx]; rfl) (by rw [hdy]; rfl) one_ne_zero ?_
    simp [shearOf]
  · refine hcell 0 2 (by rw [hdx]; rfl) (by rw [hdy]; rfl) two_ne_zero ?_
    simp [shearOf]
  · refine hcell 1 2 (by rw [hdx]; rfl) (by rw [hdy]; rfl) two_ne_zero ?_
    rw [shearOf, if_neg two_ne_zero, abs_le]
    constructor <;> norm_num

/-- The hypotheses of `C73_kept` are met: cell (1, 1), at the centre `(1, 2)`. -/
example : ∃ s g', Shallot.new (.int 100) (.bool true) upper = (.ok s, g') ∧
    ∃ diag fy radius, ∃ R : ℝ, s.diagnostics = some diag ∧
      diag.get (.int 1) (.int 1) = .ok (fy, radius) ∧ s.diskRadius.data.at3 1 1 1 = .fin R ∧
      .fin R ∈ radius := by
  have hdx : upper.dx.data = [.fin 0, .fin 1] := two_points 0 1 one_pos
  have hdy : upper.dy.data = [.fin 1, .fin 2] := two_points 1 2 (by norm_num)
  have hrf : upper.rf.data = [.fin 1, .fin 2] := two_points 1 2 (by norm_num)
  have hex : upper.extendable = false := by
    have := two_points 1 2 (by norm_num)
    simp [upper, gridOf, this, XF.eqb]
  obtain ⟨s, d, h1, -⟩ := (C72_new _ _ _ _ _ _ _ _ upper upper_new
    (fun e => by rw [hex] at e; cases e) (.int 100) (.bool true) 100 count_hundred true rfl).1
    (fun y x hy hx => upper_buildable y x (by rw [hdy] at hy; exact hy) (by
      rw [hdx] at hx; exact hx))
  refine ⟨s, _, h1, ?_⟩
  obtain ⟨-, diag, hd, hget⟩ := C73_kept _ _ _ _ _ _ _ _ upper upper_new 0 1 1 2
    (Or.inl ⟨0, .int 0, by simp⟩) (Or.inl ⟨1, .int 1, by simp⟩) (Or.inl ⟨1, .int 1, by simp⟩)
    (Or.inl ⟨2, .int 2, by simp⟩) hex (.int 100) (.bool true) 100 count_hundred rfl s _ h1
  obtain ⟨fy, radius, R, g1, -, g2, g3, -⟩ := hget 1 1 (by rw [hdy]; simp) (by rw [hdx]; simp) 1 2
    (by rw [hdx]; rfl) (by rw [hdy]; rfl) (Or.inl two_ne_zero)
  rw [hrf] at g2
  exact ⟨diag, fy, radius, R, hd, g1, g2, g3⟩

end Beyonce
