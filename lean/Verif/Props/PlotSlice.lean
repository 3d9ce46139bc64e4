import Verif.PlotSlice
import Verif.Props.Points

/-!
# Property C90: pictures of slices
-/

set_option linter.unusedSectionVars false

namespace Beyonce
open Spec

section
variable {K : Type} [Field K] [LinearOrder K] [IsStrictOrderedRing K]

/-- `x` lies in column (or row) `k` of `n` equal ones from `lo` to `hi`. -/
def Spec.InPixel (lo hi : K) (n k : ℕ) (x : K) : Prop :=
  lo + k * ((hi - lo) / n) ≤ x ∧ x ≤ lo + (k + 1) * ((hi - lo) / n)

/-- The coordinates of the slices along the three axes. -/
def Spec.vectorsOf (g : GridParams K) : List (List (XF K)) := [g.dy.data, g.dx.data, g.rfArray.data]

/-! ## When a picture can be drawn -/

theorem noBool_iff (v : PyVal K) (n : ℤ) (h : IsInteger v n) :
    Viewer.noBool v = .ok () ↔ PlainIndex v n := by
  cases h with
  | int k => exact ⟨fun _ => .int _, fun _ => rfl⟩
  | npInt w k => exact ⟨fun _ => .np _ _, fun _ => rfl⟩
  | false => exact ⟨fun h => (by cases h), fun h => (by cases h)⟩
  | true => exact ⟨fun h => (by cases h), fun h => (by cases h)⟩

theorem plain_integer {v : PyVal K} {n : ℤ} (h : PlainIndex v n) : IsInteger v n := by
  cases h with
  | int k => exact .int _
  | np w k => exact .npInt _ _


/-- What a viewer needs that `start_ok` leaves out. -/
theorem start_plain (data : Nd K) (g : GridParams K) (axis index : PyVal K)
    (coordinates : Option (List (List (XF K)))) (v : Viewer K)
    (h : Viewer.start data g axis index coordinates = .ok v) :
    Viewer.noBool axis = .ok () ∧ (index ≠ .none → Viewer.noBool index = .ok ()) ∧
    ∃ e, Viewer.determineExtent axis.toInt.toNat g = .ok e := by
  unfold Viewer.start at h
  simp only at h
  generalize hvals : Viewer.vectorOf g axis.toInt.toNat = values at h
  cases h1 : Viewer.indexOf index values.length with
  | error e => rw [h1, error_bind] at h; cases h
  | ok i =>
  rw [h1, ok_bind] at h
  cases h2 : Viewer.checkCoordinates coordinates with
  | error e => rw [h2, error_bind] at h; cases h
  | ok u =>
  rw [h2, ok_bind] at h
  cases h3 : Viewer.toleranceOf values with
  | error e => rw [h3, error_bind] at h; cases h
  | ok t =>
  rw [h3, ok_bind] at h
  cases h4 : Viewer.noBool i with
  | error e => rw [h4, error_bind] at h; cases h
  | ok u =>
  rw [h4, ok_bind] at h
  cases h5 : pyIndex values i.toInt with
  | error e => rw [h5, error_bind] at h; cases h
  | ok s =>
  rw [h5, ok_bind] at h
  cases h6 : Viewer.determineExtent axis.toInt.toNat g with
  | error e => rw [h6, error_bind] at h; cases h
  | ok ext =>
  rw [h6, ok_bind] at h
  cases h7 : Viewer.noBool axis with
  | error e => rw [h7, error_bind] at h; cases h
  | ok u =>
  refine ⟨rfl, fun hne => ?_, ext, rfl⟩
  unfold Viewer.indexOf at h1
  rw [if_neg hne] at h1
  obtain ⟨rfl, -⟩ := (number_between _ _ _).1 h1
  exact h4

theorem vectorOf_eq (g : GridParams K) (ax : ℕ) (hax : ax ≤ 2) :
    (vectorsOf g)[ax]? = some (Viewer.vectorOf g ax) := by
  obtain rfl | rfl | rfl : ax = 0 ∨ ax = 1 ∨ ax = 2 := by omega
  all_goals rfl

/-- The extent, from the ends of the vectors. -/
theorem determineExtent_ends (g : GridParams K) (hx : g.dx.data ≠ []) (hy : g.dy.data ≠ [])
    (hr : g.rf.data ≠ []) (ax : ℕ) :
    Viewer.determineExtent ax g = .ok (match ax with
      | 0 => [.fin 0, (XF.fin 2).mul ((g.rf.data.getLast hr).sub (g.rf.data.head hr)),
          g.dx.data.head hx, g.dx.data.getLast hx]
      | 1 => [.fin 0, (XF.fin 2).mul ((g.rf.data.getLast hr).sub (g.rf.data.head hr)),
          g.dy.data.head hy, g.dy.data.getLast hy]
      | _ => [g.dx.data.head hx, g.dx.data.getLast hx, g.dy.data.head hy, g.dy.data.getLast hy]) := by
  have h0 : ∀ (l : List (XF K)) (h : l ≠ []), pyIndex l 0 = .ok (l.head h) := by
    intro l h
    cases l with
    | nil => exact absurd rfl h
    | cons a l => simp [pyIndex]
  unfold Viewer.determineExtent
  rw [h0 _ hx, ok_bind, pyIndex_last _ hx, ok_bind, h0 _ hy, ok_bind, pyIndex_last _ hy, ok_bind,
    h0 _ hr, ok_bind, pyIndex_last _ hr, ok_bind]
  match ax with
  | 0 => rfl
  | 1 => rfl
  | n + 2 => rfl

/-- A property whose arrays fit together and whose grid is not empty. -/
structure Spec.Drawable (p : GProp K) : Prop where
  fits : FitsGrid p
  mask : ∀ m, p.mask = some m → m.shape = p.data.shape
  dx : p.params.dx.data ≠ []
  dy : p.params.dy.data ≠ []
  rf : p.params.rf.data ≠ []

theorem getData_bool (b : Bool) (p : GProp K) (h : ∀ m, p.mask = some m → m.shape = p.data.shape) :
    ∃ d : Nd K, GProp.getData (.bool b) p = (.ok d, { p with data := d }) ∧ d.shape = p.data.shape ∧
      d.data.length = p.data.data.length ∧
      ∀ i < p.data.data.length, (b = true ∧ Marked p.mask i → d.data[i]? = some XF.nan) ∧
        (¬ (b = true ∧ Marked p.mask i) → d.data[i]? = p.data.data[i]?) := by
  by_cases hb : b = false ∨ p.mask = none
  · refine ⟨p.data, C30_unmasked_read p b hb, rfl, rfl, fun i _ => ⟨?_, fun _ => rfl⟩⟩
    rintro ⟨h1, k, hk, -⟩
    rcases hb with hb | hb
    · rw [hb] at h1; cases h1
    · rw [hb] at hk; cases hk
  · push Not at hb
    obtain ⟨hb1, hb2⟩ := hb
    have hbt : b = true := by cases b <;> simp_all
    subst hbt
    obtain ⟨m, hm⟩ := Option.ne_none_iff_exists'.1 hb2
    refine ⟨⟨p.data.shape, putWhere .nan m.data p.data.data⟩, ?_, rfl, putWhere_length _ _ _, ?_⟩
    · unfold GProp.getData
      have e : boolean (K := K) (.bool true) = .ok true := rfl
      rw [e, Meth.lift_ok_bind, Meth.get_bind]
      have hms := h m hm
      obtain ⟨a1, a2, a3, a4, a5, a6, a7, a8, a9⟩ := p
      simp only at hm hms
      subst hm
      simp only [if_pos hms]
      rfl
    · intro i hi
      obtain ⟨h1, h2⟩ := putWhere_get XF.nan m.data p.data.data i
      refine ⟨?_, ?_⟩
      · rintro ⟨-, k, hk, hk'⟩
        rw [hm] at hk
        cases hk
        exact h1 hk' hi
      · intro hno
        exact h2 fun h => hno ⟨rfl, m, hm, h⟩

/-- The constructor of the viewer without coordinates. -/
theorem viewer_iff (axis index : PyVal K) (b f : Bool) (p : GProp K) (hp : Drawable p) :
    (∃ v p', Viewer.new axis (.bool b) index (.bool f) none p = (.ok v, p')) ↔
      ∃ (ax : ℕ) (values : List (XF K)), PlainIndex axis ax ∧ (vectorsOf p.params)[ax]? = some values ∧
        2 ≤ values.length ∧ (index = .none ∨ ∃ i : ℕ, PlainIndex index i ∧ i < values.length) := by
  constructor
  · rintro ⟨v, p', h⟩
    obtain ⟨ax, data, v0, v1, hax, h0, h2, hd, hs, -, -⟩ := new_ok _ _ _ _ _ _ _ _ h
    obtain ⟨s1, s2, s3, -, -, -, s7, s8, -, s10, -, a, c, ha, hc, -⟩ := start_ok _ _ _ _ _ _ hs
    obtain ⟨n1, n2, -⟩ := start_plain _ _ _ _ _ _ hs
    have hti := isInteger_toInt hax
    rw [hti] at s1
    obtain ⟨k, rfl⟩ : ∃ k : ℕ, ax = k := ⟨ax.toNat, by omega⟩
    have hk : v0.axis = k := by rw [s1]; rfl
    rw [hk] at s3
    refine ⟨k, _, (noBool_iff _ _ hax).1 n1, vectorOf_eq _ k (by omega), ?_, ?_⟩
    · rw [← s3]
      exact (List.getElem?_eq_some_iff.1 hc).1
    · by_cases hi : index = .none
      · exact Or.inl hi
      · right
        obtain ⟨i, hi'⟩ : ∃ i : ℕ, v0.index = i := ⟨v0.index.toNat, by omega⟩
        rw [hi'] at s8
        have := s10 hi
        rw [hi'] at this
        refine ⟨i, (noBool_iff _ _ this).1 (n2 hi), ?_⟩
        rw [← s3]
        exact_mod_cast s8
  · rintro ⟨ax, values, hax, hv, hlen, hi⟩
    have hax2 : ax ≤ 2 := by
      have := (List.getElem?_eq_some_iff.1 hv).1
      simp [vectorsOf] at this
      omega
    rw [vectorOf_eq _ ax hax2] at hv
    cases hv
    obtain ⟨values, hval⟩ : ∃ values, values = Viewer.vectorOf p.params ax := ⟨_, rfl⟩
    rw [← hval] at hlen hi
    obtain ⟨d, hd1, hd2, -, -⟩ := getData_bool b p hp.mask
    have hti := isInteger_toInt (plain_integer hax)
    -- the index
    obtain ⟨i, iv, h1, h2, h3⟩ : ∃ (i : ℕ) (iv : PyVal K), Viewer.indexOf index values.length = .ok iv ∧
        PlainIndex iv i ∧ i < values.length := by
      rcases hi with hi | ⟨i, hi, hlt⟩
      · refine ⟨values.length / 2, .int ((values.length / 2 : ℕ) : ℤ), ?_, .int _, by omega⟩
        unfold Viewer.indexOf
        rw [if_pos hi, number_between]
        exact ⟨rfl, _, .int _, by omega, by omega⟩
      · refine ⟨i, index, ?_, hi, hlt⟩
        have hne : index ≠ .none := by rintro rfl; cases hi
        unfold Viewer.indexOf
        rw [if_neg hne, number_between]
        exact ⟨rfl, _, plain_integer hi, by omega, by omega⟩
    have hii := isInteger_toInt (plain_integer h2)
    obtain ⟨a, ha, ha'⟩ := pyIndex_nonneg values 0 le_rfl (by omega)
    obtain ⟨c, hc, hc'⟩ := pyIndex_nonneg values 1 (by omega) (by omega)
    obtain ⟨w, hw, hw'⟩ := pyIndex_nonneg values i (by omega) (by omega)
    obtain ⟨n1, n2, n3, hsh, hn⟩ := vectorOf_fits p hp.fits ax hax2
    rw [← hval] at hn
    obtain ⟨image, him, -⟩ := npTake_shows d ax i n1 n2 n3 (hd2.trans hsh) hax2 (by omega)
      (by rw [← hn]; exact_mod_cast h3)
    have hstart : Viewer.start d p.params axis index none = .ok ⟨ax, d, values, i, none,
        ((c.sub a).abs).div (.fin 3), false, image, (w, none), []⟩ := by
      unfold Viewer.start
      simp only [hti, Int.toNat_natCast, ← hval]
      rw [h1, ok_bind]
      have e1 : Viewer.checkCoordinates (K := K) none = .ok () := rfl
      have e2 : Viewer.toleranceOf values = .ok (((c.sub a).abs).div (.fin 3)) := by
        unfold Viewer.toleranceOf
        rw [hc', ok_bind, ha', ok_bind]
      rw [e1, ok_bind, e2, ok_bind, (noBool_iff _ _ (plain_integer h2)).2 h2, ok_bind, hii, hw', ok_bind,
        determineExtent_ends _ hp.dx hp.dy hp.rf, ok_bind, (noBool_iff _ _ (plain_integer hax)).2 hax,
        ok_bind, him, ok_bind]
    obtain ⟨v0, hv0⟩ : ∃ v0, v0 = (⟨ax, d, values, i, none, ((c.sub a).abs).div (.fin 3), false, image,
      (w, none), []⟩ : Viewer K) := ⟨_, rfl⟩
    rw [← hv0] at hstart
    have hvalid : Valid v0 := by
      rw [hv0]
      refine ⟨hax2, ⟨n1, n2, n3, hd2.trans hsh, hn⟩, by simp, by simpa using h3, ?_⟩
      intro cs hcs; cases hcs
    obtain ⟨u1, -⟩ := update_good v0 hvalid
    refine ⟨{ (Viewer.update v0).2 with frozen := f }, { p with data := d }, ?_⟩
    unfold Viewer.new
    have e3 : number axis (.bool true) (.int 0) (.int 2) = .ok axis :=
      (number_between _ _ _).2 ⟨rfl, ax, plain_integer hax, by omega, by omega⟩
    rw [e3, Meth.lift_ok_bind, bind_ok _ _ _ _ _ hd1, Meth.get_bind]
    simp only [hstart]
    rw [Meth.lift_ok_bind]
    have e4 : Viewer.finish (.bool f) v0 = .ok { (Viewer.update v0).2 with frozen := f } := by
      unfold Viewer.finish
      generalize Viewer.update v0 = q at u1
      obtain ⟨r, v1⟩ := q
      simp only at u1
      subst u1
      rfl
    rw [e4]
    rfl

/-- **C90, when it succeeds (partial)** `plot_slice` succeeds exactly if the axis is 0, 1 or 2, the grid has at
least two points along it, and the index is that of a slice or `None`.  Missing for the full claim:
axes with a single point, for which it is false (`C90_false`). -/
theorem C90_succeeds_partial (axis index : PyVal K) (b : Bool) (p : GProp K) (hp : Drawable p) :
    (∃ pic p', GProp.plotSlice axis index (.bool b) p = (.ok pic, p')) ↔
      ∃ (ax : ℕ) (values : List (XF K)), PlainIndex axis ax ∧ (vectorsOf p.params)[ax]? = some values ∧
        2 ≤ values.length ∧ (index = .none ∨ ∃ i : ℕ, PlainIndex index i ∧ i < values.length) := by
  rw [← viewer_iff axis index b true p hp]
  constructor
  · rintro ⟨pic, p', h⟩
    unfold GProp.plotSlice at h
    rw [Meth.bind_apply] at h
    generalize hq : Viewer.new axis (.bool b) index (.bool true) none p = q at h
    obtain ⟨(e | v), p1⟩ := q
    · cases h
    · exact ⟨v, p1, rfl⟩
  · rintro ⟨v, p', h⟩
    obtain ⟨ax, data, v0, v1, hax, h0, h2, hd, -⟩ := new_ok _ _ _ _ _ _ _ _ h
    obtain ⟨-, hpar, -⟩ := getData_ok _ _ _ _ hd
    obtain ⟨ext, hext⟩ : ∃ ext, Viewer.determineExtent v.axis p'.params = .ok ext := by
      rw [hpar]
      exact ⟨_, determineExtent_ends _ hp.dx hp.dy hp.rf _⟩
    refine ⟨⟨v, ext, p'.vmin, p'.vmax, p'.colorMap, p'.numColors⟩, p', ?_⟩
    unfold GProp.plotSlice pictureOf
    rw [bind_ok _ _ _ _ _ h, Meth.get_bind, hext, Meth.lift_ok_bind]
    rfl

/-! ## What it shows -/

theorem scrolls_frozen (v : Viewer K) (h : v.frozen = true) (events : List String) :
    scrolls events v = v := by
  induction events with
  | nil => rfl
  | cons e events ih =>
    have : (Viewer.onscroll e v).2 = v := by
      unfold Viewer.onscroll
      rw [Meth.get_bind]
      simp only [h, if_true]
      rfl
    show scrolls events (Viewer.onscroll e v).2 = v
    rw [this, ih]

/-- **C90, the values** The picture of `plot_slice` shows the slice of the given index, or the middle
one for `None`, under a title with its coordinate; elements under the mask are NaN if `masked`, and all
others are the data of the property.  The contrast is that of the property, of which nothing else
changes, and scrolling does not change the picture. -/
theorem C90_slice (axis index : PyVal K) (b : Bool) (p p' : GProp K) (pic : Picture K)
    (hp : Drawable p) (h : GProp.plotSlice axis index (.bool b) p = (.ok pic, p')) :
    ∃ (ax i : ℕ) (values : List (XF K)) (d : Nd K), IsInteger axis ax ∧
      (vectorsOf p.params)[ax]? = some values ∧ i < values.length ∧
      (index = .none → i = values.length / 2) ∧ (index ≠ .none → IsInteger index i) ∧
      values[i]? = some pic.viewer.title.1 ∧ ShowsSlice d ax i pic.viewer.image ∧
      p' = { p with data := d } ∧ d.shape = p.data.shape ∧
      (∀ j < p.data.data.length, (b = true ∧ Marked p.mask j → d.data[j]? = some XF.nan) ∧
        (¬ (b = true ∧ Marked p.mask j) → d.data[j]? = p.data.data[j]?)) ∧
      Viewer.determineExtent ax p.params = .ok pic.extent ∧ pic.vmin = p.vmin ∧ pic.vmax = p.vmax ∧
      pic.colorMap = p.colorMap ∧ pic.numColors = p.numColors ∧
      ∀ events, scrolls events pic.viewer = pic.viewer := by
  unfold GProp.plotSlice pictureOf at h
  rw [Meth.bind_apply] at h
  generalize hq : Viewer.new axis (.bool b) index (.bool true) none p = q at h
  obtain ⟨(e | v), p1⟩ := q
  · cases h
  simp only [Meth.get_bind] at h
  obtain ⟨g1, g2, g3, g4, g5, g6, -⟩ := new_good _ _ _ _ _ _ _ _ hp.fits hq
  obtain ⟨ax, data, v0, v1, hax, h0, h2, hd, hs, hu, hf⟩ := new_ok _ _ _ _ _ _ _ _ hq
  obtain ⟨d, hd1, hd2, hd3, hd4⟩ := getData_bool b p hp.mask
  rw [hd1] at hd
  cases hd
  obtain ⟨s1, s2, s3, s4, s5, s6, s7, s8, s11, s12, s9, -⟩ := start_ok _ _ _ _ _ _ hs
  have hti := isInteger_toInt hax
  have hvalid : Valid v0 := by
    refine ⟨by omega, ?_, s7, s8, by rw [s4]; exact s9⟩
    obtain ⟨a, b, c, h3, h4⟩ := vectorOf_fits p hp.fits v0.axis (by omega)
    exact ⟨a, b, c, by rw [s2, hd2, h3], by rw [s3, h4]⟩
  obtain ⟨-, -, -, q4, q5⟩ := update_good v0 hvalid
  rw [hu] at q4 q5
  simp only at q4 q5
  have hvi : v.index = v0.index := by
    rcases hf with ⟨-, rfl⟩ | ⟨f, -, rfl⟩ <;> exact q5
  have hvs : v.sliceValues = v0.sliceValues := by
    rcases hf with ⟨-, rfl⟩ | ⟨f, -, rfl⟩ <;> exact q4.values
  rw [← hvi, ← hvs] at s11
  rw [← hvi] at s12
  cases he : Viewer.determineExtent v.axis p.params with
  | error e =>
    simp only [he] at h
    cases h
  | ok ext =>
  simp only [he, Meth.lift_ok_bind] at h
  cases h
  have hlow := g1.low
  have hhigh := g1.high
  refine ⟨v.axis, v.index.toNat, v.sliceValues, data, g6, ?_, by omega, ?_, ?_, g2.value, ?_, rfl, hd2, hd4,
    he, rfl, rfl, rfl, rfl, scrolls_frozen v (by simpa using g5)⟩
  · rw [g3]; exact vectorOf_eq _ _ g1.axis
  · intro hi; have := s11 hi; omega
  · intro hi
    have := s12 hi
    rwa [Int.toNat_of_nonneg hlow]
  · have := g2.image
    rw [g4] at this
    exact this

/-- **C90, the cube** `plot_cube` opens a viewer that is not frozen at the middle slice, so that C67 and
C71 apply to it; without arguments it scrolls along the radius factors. -/
theorem C90_cube (axis : PyVal K) (coordinates : Option (List (List (XF K)))) (masked : PyVal K)
    (p p' : GProp K) (pic : Picture K) (hp : Drawable p)
    (h : GProp.plotCube axis coordinates masked p = (.ok pic, p')) :
    Viewer.new axis masked .none (.bool false) coordinates p = (.ok pic.viewer, p') ∧
    pic.viewer.frozen = false ∧ pic.viewer.index = (pic.viewer.sliceValues.length / 2 : ℕ) ∧
    Viewer.determineExtent pic.viewer.axis p.params = .ok pic.extent ∧
    (axis = .int 2 → pic.viewer.sliceValues = p.params.rfArray.data) := by
  unfold GProp.plotCube pictureOf at h
  rw [Meth.bind_apply] at h
  generalize hq : Viewer.new axis masked .none (.bool false) coordinates p = q at h
  obtain ⟨(e | v), p1⟩ := q
  · cases h
  simp only [Meth.get_bind] at h
  obtain ⟨g1, g2, g3, g4, g5, g6, -⟩ := new_good _ _ _ _ _ _ _ _ hp.fits hq
  obtain ⟨ax, data, v0, v1, hax, h0, h2, hd, hs, hu, hf⟩ := new_ok _ _ _ _ _ _ _ _ hq
  obtain ⟨hd1, hd2, hd3⟩ := getData_ok _ _ _ _ hd
  obtain ⟨s1, s2, s3, s4, s5, s6, s7, s8, s11, -, s9, -⟩ := start_ok _ _ _ _ _ _ hs
  have hti := isInteger_toInt hax
  have hvalid : Valid v0 := by
    refine ⟨by omega, ?_, s7, s8, by rw [s4]; exact s9⟩
    obtain ⟨a, b, c, h3, h4⟩ := vectorOf_fits p hp.fits v0.axis (by omega)
    exact ⟨a, b, c, by rw [s2, hd1, hd3, h3], by rw [s3, h4]⟩
  obtain ⟨-, -, -, q4, q5⟩ := update_good v0 hvalid
  rw [hu] at q4 q5
  simp only at q4 q5
  have hvi : v.index = v0.index := by
    rcases hf with ⟨-, rfl⟩ | ⟨f, -, rfl⟩ <;> exact q5
  have hvs : v.sliceValues = v0.sliceValues := by
    rcases hf with ⟨-, rfl⟩ | ⟨f, -, rfl⟩ <;> exact q4.values
  rw [hd2] at h
  cases he : Viewer.determineExtent v.axis p.params with
  | error e =>
    simp only [he] at h
    cases h
  | ok ext =>
  simp only [he, Meth.lift_ok_bind] at h
  cases h
  refine ⟨rfl, by simpa using g5, ?_, he, ?_⟩
  · show v.index = _
    rw [hvi, hvs, s11 rfl]
  · rintro rfl
    have : v.axis = 2 := by have := isInteger_toInt g6; simp [PyVal.toInt] at this; omega
    show v.sliceValues = _
    rw [g3, this]
    rfl

/-- The defaults of `plot_cube` and `plot_slice`. -/
theorem C90_defaults : (GProp.plotCube : Meth (GProp K) _) = GProp.plotCube (.int 2) none (.bool true) ∧
    ∀ axis index : PyVal K, (GProp.plotSlice axis index : Meth (GProp K) _) =
      GProp.plotSlice axis index (.bool true) := ⟨rfl, fun _ _ => rfl⟩

/-! ## Where it shows it -/

theorem inPixel_step (a st : K) (hst : 0 ≤ st) (n k : ℕ) (hk : k < n) :
    InPixel a (a + ((n : K) - 1) * st) n k (a + k * st) := by
  have hn : (0 : K) < n := by exact_mod_cast (show 0 < n by omega)
  have hk1 : (k : K) + 1 ≤ n := by exact_mod_cast hk
  have hk0 : (0 : K) ≤ k := Nat.cast_nonneg k
  have e : a + ((n : K) - 1) * st - a = ((n : K) - 1) * st := by ring
  unfold InPixel
  rw [e, add_le_add_iff_left, add_le_add_iff_left]
  constructor
  · rw [← mul_div_assoc, div_le_iff₀ hn]
    nlinarith [mul_nonneg hk0 hst]
  · rw [← mul_div_assoc, le_div_iff₀ hn]
    nlinarith [mul_nonneg (sub_nonneg.2 hk1) hst]

theorem evenly_pixel {l : List (XF K)} {a b : K} {n : ℕ} (h : Evenly l a b n) (hn : 2 ≤ n) :
    ∀ j < l.length, ∃ x : K, l[j]? = some (.fin x) ∧ InPixel a b l.length j x := by
  intro j hj
  rw [h.length] at hj ⊢
  obtain ⟨st, hst, hv⟩ := h.step
  have hb : b = a + ((n : K) - 1) * st := by
    have h1 := h.last hn
    rw [hv (n - 1) (by omega)] at h1
    have : a + ((n - 1 : ℕ) : K) * st = b := by
      have := Option.some.inj h1
      injection this
    rw [← this, Nat.cast_sub (by omega), Nat.cast_one]
  refine ⟨_, hv j hj, ?_⟩
  rw [hb]
  exact inPixel_step a st hst.le n j hj

/-- Where the columns and rows of the pictures of a grid lie.  A radius factor has no place of its own
on its axis, which is labelled by `set_rf_ticklabels`; its place is one with its label. -/
structure Spec.Places (g : GridParams K) (m : K) : Prop where
  xy : ∃ x0 x1 y0 y1 r1 : K,
    Viewer.determineExtent 0 g = .ok [.fin 0, .fin r1, .fin x0, .fin x1] ∧
    Viewer.determineExtent 1 g = .ok [.fin 0, .fin r1, .fin y0, .fin y1] ∧
    Viewer.determineExtent 2 g = .ok [.fin x0, .fin x1, .fin y0, .fin y1] ∧
    (∀ j < g.dx.data.length, ∃ x : K, g.dx.data[j]? = some (.fin x) ∧
      InPixel x0 x1 g.dx.data.length j x) ∧
    (∀ j < g.dy.data.length, ∃ y : K, g.dy.data[j]? = some (.fin y) ∧
      InPixel y0 y1 g.dy.data.length j y) ∧
    ∀ j < g.rfArray.data.length, ∃ r place : K, g.rfArray.data[j]? = some (.fin r) ∧
      InPixel 0 r1 g.rfArray.data.length j place ∧
      Viewer.rfLabel (.fin 1) (.fin m) (.fin place) = .fin r

theorem linspace_ends {a b : K} {n : ℕ} (hn : 2 ≤ n) (h : linspace (.fin a) (.fin b) n ≠ []) :
    (linspace (.fin a) (.fin b) n).head h = .fin a ∧
    (linspace (.fin a) (.fin b) n).getLast h = .fin b := by
  have hd : (0 : K) < (n : K) - 1 := by
    have : (2 : K) ≤ n := by exact_mod_cast hn
    linarith
  constructor
  · rw [List.head_eq_getElem]
    simp [linspace_fin _ _ hn]
  · rw [List.getLast_eq_getElem]
    simp only [linspace_fin _ _ hn, List.getElem_map, List.getElem_range, List.length_map,
      List.length_range]
    rw [Nat.cast_sub (by omega), Nat.cast_one, mul_div_cancel₀ _ hd.ne']
    congr 1; ring

theorem gridOf_places {a b c d m : K} (hab : a < b) (hcd : c < d) (hm : 1 < m) {nx ny n : ℕ}
    (hx : 2 ≤ nx) (hy : 2 ≤ ny) (hn : 2 ≤ n) :
    Places (gridOf (.fin a) (.fin b) nx (.fin c) (.fin d) ny (.fin m) n) m := by
  have nx0 : linspace (.fin a) (.fin b) nx ≠ [] := linspace_ne_nil _ _ (by omega)
  have ny0 : linspace (.fin c) (.fin d) ny ≠ [] := linspace_ne_nil _ _ (by omega)
  have nr0 : linspace (.fin 1) (.fin m) n ≠ [] := linspace_ne_nil _ _ (by omega)
  obtain ⟨x0, x1⟩ := linspace_ends hx nx0
  obtain ⟨y0, y1⟩ := linspace_ends hy ny0
  obtain ⟨r0, r1⟩ := linspace_ends hn nr0
  have hr : (XF.fin 2).mul ((XF.fin m).sub (.fin 1)) = .fin (2 * (m - 1)) := by
    simp [XF.sub, XF.neg, XF.add, XF.mul, sub_eq_add_neg]
  obtain ⟨st, hst, hv⟩ := (linspace_evenly hm (show 1 ≤ n by omega)).step
  have hrl := (linspace_evenly hm (show 1 ≤ n by omega)).last hn
  have hlen : (gridOf (.fin a) (.fin b) nx (.fin c) (.fin d) ny (.fin m) n).rfArray.data.length =
      2 * n - 1 := by
    simp [gridOf, linspace_length]; omega
  have hmst : m = 1 + ((n : K) - 1) * st := by
    rw [hv (n - 1) (by omega)] at hrl
    have : 1 + ((n - 1 : ℕ) : K) * st = m := by
      have := Option.some.inj hrl
      injection this
    rw [← this, Nat.cast_sub (by omega), Nat.cast_one]
  refine ⟨a, b, c, d, 2 * (m - 1), ?_, ?_, ?_, evenly_pixel (linspace_evenly hab (by omega)) hx,
    evenly_pixel (linspace_evenly hcd (by omega)) hy, ?_⟩
  · rw [determineExtent_ends _ nx0 ny0 nr0]
    show Except.ok [_, _, _, _] = _
    simp only [gridOf, x0, x1, r0, r1, hr]
  · rw [determineExtent_ends _ nx0 ny0 nr0]
    show Except.ok [_, _, _, _] = _
    simp only [gridOf, y0, y1, r0, r1, hr]
  · rw [determineExtent_ends _ nx0 ny0 nr0]
    show Except.ok [_, _, _, _] = _
    simp only [gridOf, x0, x1, y0, y1]
  · intro j hj
    rw [hlen] at hj ⊢
    refine ⟨1 + |(j : K) - ((n : K) - 1)| * st, j * st, ?_, ?_, ?_⟩
    · show ((linspace (.fin 1) (.fin m) n).reverse ++ (linspace (.fin 1) (.fin m) n).tail)[j]? = _
      rcases Nat.lt_or_ge j n with h | h
      · rw [List.getElem?_append_left (by rw [List.length_reverse, linspace_length]; exact h),
          List.getElem?_reverse (by rw [linspace_length]; exact h), linspace_length,
          hv (n - 1 - j) (by omega)]
        have hle : (j : K) ≤ (n : K) - 1 := by
          have : (j : K) + 1 ≤ n := by exact_mod_cast h
          linarith
        rw [abs_of_nonpos (by linarith), Nat.cast_sub (by omega), Nat.cast_sub (by omega), Nat.cast_one,
          neg_sub]
      · rw [List.getElem?_append_right (by rw [List.length_reverse, linspace_length]; exact h),
          List.length_reverse, linspace_length, List.getElem?_tail, hv (j - n + 1) (by omega)]
        have hle : (n : K) ≤ j := by exact_mod_cast h
        rw [abs_of_nonneg (by linarith)]
        push_cast [Nat.cast_sub h]
        congr 3
        ring
    · have := inPixel_step 0 st hst.le (2 * n - 1) j hj
      rw [zero_add, zero_add, Nat.cast_sub (by omega)] at this
      push_cast at this
      rw [hmst, show 2 * (1 + ((n : K) - 1) * st - 1) = (2 * (n : K) - 1 - 1) * st by ring]
      exact this
    · simp only [Viewer.rfLabel, XF.sub, XF.add, XF.neg, XF.abs]
      congr 2
      rw [hmst, show (j : K) * st + -(1 + ((n : K) - 1) * st + -1) = ((j : K) - ((n : K) - 1)) * st by ring,
        abs_mul, abs_of_pos hst]

/-- **C90, the places** In every picture of a grid that the constructor made, extended or not, with at
least two points along each axis, a grid point lies in the pixel that shows its value: its x and y by
their values, its radius factor by the labels of that axis. -/
theorem C90_places (minX maxX numX minY maxY numY maxRf numRf : PyVal K) (g₀ g : GridParams K)
    (a b c d m : K) (nx ny n : ℕ)
    (ha : IsNumber false minX (.fin a)) (hb : IsNumber false maxX (.fin b)) (hnx : Count numX nx)
    (hc : IsNumber false minY (.fin c)) (hd : IsNumber false maxY (.fin d)) (hny : Count numY ny)
    (hm : IsNumber false maxRf (.fin m)) (hn : Count numRf n)
    (hg : GridParams.new minX maxX numX minY maxY numY maxRf numRf = .ok g₀)
    (hgg : g = g₀ ∨ GridParams.extendGrid g₀ = (.ok (), g))
    (hx : 2 ≤ nx) (hy : 2 ≤ ny) (hn2 : 2 ≤ n) (hm1 : 1 < m) : Places g m := by
  obtain ⟨a', b', nx', c', d', ny', m', n', ⟨p1, p2, p3, p4⟩, ⟨q1, q2, q3, q4⟩, ⟨r1, r2, r3⟩, rfl⟩ :=
    (new_ok_iff ..).1 hg
  obtain rfl := isNumber_unique p1 ha
  obtain rfl := isNumber_unique p2 hb
  obtain rfl := isNumber_unique q1 hc
  obtain rfl := isNumber_unique q2 hd
  obtain rfl := isNumber_unique r1 hm
  obtain rfl := count_unique p4 hnx
  obtain rfl := count_unique q4 hny
  obtain rfl := count_unique r3 hn
  have key : ∀ x y : K, ¬ LessEq (.fin y) (.fin x) ↔ x < y := by
    intro x y; rw [lessEq_iff]; simp
  have hab := (key _ _).1 p3
  have hcd := (key _ _).1 q3
  rcases hgg with rfl | hgg
  · exact gridOf_places hab hcd hm1 hx hy hn2
  · cases hext : (gridOf (.fin a) (.fin b) nx' (.fin c) (.fin d) ny' (.fin m) n').extendable with
    | false => rw [extendGrid_not _ hext] at hgg; cases hgg
    | true =>
      obtain ⟨e1, e2, x, y, hx0, hy0, e3, e4⟩ := gridOf_extendable p4.1 q4.1 p3 q3 hext
      cases e1; cases e2; cases e3; cases e4
      rw [extendGrid_ok hx0 hy0 hx hy] at hgg
      cases hgg
      exact gridOf_places (by linarith) (by linarith) hm1 (by omega) (by omega) hn2

end

/-! ## Examples -/

/-- `C90_slice` is not void: the second slice along y of a property with 18 elements. -/
example : Drawable cube18 ∧ ∃ pic p', GProp.plotSlice (.int 0) (.int 1) (.bool true) cube18 = (.ok pic, p') ∧
    pic.viewer.image = (List.range 9).map (fun i => .fin (i + 9)) := by
  constructor
  · refine ⟨by unfold FitsGrid; decide +kernel, ?_, ?_, ?_, ?_⟩
    · intro m hm; cases hm
    all_goals decide +kernel
  · refine ⟨((GProp.plotSlice (.int 0) (.int 1) (.bool true) cube18).1.toOption).get
      (by decide +kernel), cube18, ?_⟩
    decide +kernel

/-- `C90_places` is not void. -/
example : ∃ g₀ g : GridParams ℚ,
    GridParams.new (.int 0) (.int 1) (.int 3) (.int 0) (.int 1) (.int 2) (.int 3) (.int 2) = .ok g₀ ∧
    GridParams.extendGrid g₀ = (.ok (), g) :=
  ⟨gridOf (.fin 0) (.fin 1) 3 (.fin 0) (.fin 1) 2 (.fin 3) 2,
    (GridParams.extendGrid (gridOf (.fin 0) (.fin 1) 3 (.fin 0) (.fin 1) 2 (.fin 3) 2)).2,
    by decide +kernel, by decide +kernel⟩

/-- **C90 is false**: a grid with one radius factor has a slice for each y, but the slice along the
axis of the radius factors, which `plot_cube` shows by default, cannot be drawn; the grid itself is
valid. -/
theorem C90_false : ∃ (g : GridParams ℚ) (p : GProp ℚ),
    GridParams.new (.int 0) (.int 1) (.int 2) (.int 0) (.int 1) (.int 2) (.int 2) (.int 1) = .ok g ∧
    GProp.new .diskRadius .eclipseDuration (.arr ⟨"float64", [2, 2, 1], [.fin 1, .fin 2, .fin 3, .fin 4]⟩) g
      = .ok p ∧ Drawable p ∧
    GProp.plotSlice (.int 2) (.int 0) (.bool true) p = (.error .indexError, p) ∧
    (GProp.plotCube : Meth (GProp ℚ) _) p = (.error .indexError, p) := by
  obtain ⟨g, hg⟩ : ∃ g : GridParams ℚ, g = gridOf (.fin 0) (.fin 1) 2 (.fin 0) (.fin 1) 2 (.fin 2) 1 := ⟨_, rfl⟩
  refine ⟨g, ⟨.diskRadius, .eclipseDuration, g, ⟨[2, 2, 1], [.fin 1, .fin 2, .fin 3, .fin 4]⟩, none,
    some (.fin 1), some (.fin 4), "viridis", 11⟩, ?_, ?_, ?_, ?_, ?_⟩
  · rw [hg]; decide +kernel
  · rw [hg]; decide +kernel
  · rw [hg]
    refine ⟨by unfold FitsGrid; decide +kernel, ?_, ?_, ?_, ?_⟩
    · intro m hm; cases hm
    all_goals decide +kernel
  · rw [hg]; decide +kernel
  · rw [hg]; decide +kernel

end Beyonce
