import Verif.Shallot

/-!
# `/repo/Shallot.py`: building a grid

The loops over the scale factors, `np.interp`, the cells, and the mirroring to four quadrants.
The files that an intermittently saved build writes are in `ShallotFiles`.
-/

namespace Beyonce
section
variable {K : Type} [Field K] [LinearOrder K]

/-! ## `np.interp`

numpy/core/src/multiarray/compiled_base.c, `arr_interp` and `binary_search_with_guess`.  The sample
points need not be sorted and may contain NaN; the search is modelled comparison by comparison, so
that its answer is the one of the code in that case, too. -/

/-- `arr[i]`. -/
def sampleAt (l : List (XF K)) (i : ℕ) : XF K := l.getD i .nan

/-- The linear search for up to four samples: the first larger sample.  (The C functions return one
less than these.) -/
def linearSearch (key : XF K) (l : List (XF K)) : ℕ → ℕ → ℕ
  | 0, i => i
  | n + 1, i =>
    if i < l.length ∧ XF.le (sampleAt l i) key then linearSearch key l n (i + 1) else i

/-- The bisection: at most `n` halvings. -/
def bisect (key : XF K) (l : List (XF K)) : ℕ → ℕ → ℕ → ℕ
  | 0, lo, _ => lo
  | n + 1, lo, hi =>
    if lo < hi then
      let mid := lo + (hi - lo) / 2
      if XF.le (sampleAt l mid) key then bisect key l n (mid + 1) hi else bisect key l n lo mid
    else lo

/-- The bounds that the guess gives, or the answer (`inr`). -/
def guessBounds (key : XF K) (l : List (XF K)) (g : ℕ) : (ℕ × ℕ) ⊕ ℕ :=
  if XF.lt key (sampleAt l g) then
    if XF.lt key (sampleAt l (g - 1)) then
      .inl (if 8 < g ∧ XF.le (sampleAt l (g - 8)) key then g - 8 else 0, g - 1)
    else .inr g
  else if XF.lt key (sampleAt l (g + 1)) then .inr (g + 1)
  else if XF.lt key (sampleAt l (g + 2)) then .inr (g + 2)
  else .inl (g + 2,
    if g + 8 + 1 < l.length ∧ XF.lt key (sampleAt l (g + 8)) then g + 8 else l.length)

/-- The guess brought into range. -/
def clampGuess (length guess : ℕ) : ℕ :=
  let g := if length - 3 < guess then length - 3 else guess
  if g < 1 then 1 else g

/-- `binary_search_with_guess` (plus one) for a key between the first and the last sample. -/
def searchInside (key : XF K) (l : List (XF K)) (guess : ℕ) : ℕ :=
  if l.length ≤ 4 then linearSearch key l l.length 1
  else match guessBounds key l (clampGuess l.length guess) with
    | .inl (lo, hi) => bisect key l l.length lo hi
    | .inr i => i

/-- The value on the segment from sample `j` to the next one. -/
def segment (x : XF K) (xp fp : List (XF K)) (j : ℕ) : XF K :=
  let slope := ((sampleAt fp (j + 1)).sub (sampleAt fp j)).div
    ((sampleAt xp (j + 1)).sub (sampleAt xp j))
  let v := (slope.mul (x.sub (sampleAt xp j))).add (sampleAt fp j)
  if v.isNan then
    let v := (slope.mul (x.sub (sampleAt xp (j + 1)))).add (sampleAt fp (j + 1))
    if v.isNan && XF.eqb (sampleAt fp j) (sampleAt fp (j + 1)) then sampleAt fp j else v
  else v

/-- One value of `np.interp` and the next guess. -/
def interpOne (xp fp : List (XF K)) (x : XF K) (guess : ℕ) : XF K × ℕ :=
  if xp.length = 1 then (sampleAt fp 0, guess)
  else if x.isNan then (x, guess)
  else if XF.lt (sampleAt xp (xp.length - 1)) x then (sampleAt fp (fp.length - 1), xp.length)
  else if XF.lt x (sampleAt xp 0) then (sampleAt fp 0, 0)
  else
    match searchInside x xp guess with
    | 0 => (sampleAt fp 0, 0)
    | j + 1 => (if j = xp.length - 1 then sampleAt fp j
      else if XF.eqb (sampleAt xp j) x then sampleAt fp j
      else segment x xp fp j, j)

/-- `np.interp(xs, xp, fp)` for samples that are not empty. -/
def interpFrom (xp fp : List (XF K)) : List (XF K) → ℕ → List (XF K)
  | [], _ => []
  | x :: xs, guess => (interpOne xp fp x guess).1 :: interpFrom xp fp xs (interpOne xp fp x guess).2

/-- `np.interp(xs, xp, fp)`. -/
def npInterp (xs xp fp : List (XF K)) : List (XF K) := interpFrom xp fp xs 0

/-! ## Scale factors -/

/-- `array.max()`: NaN if there is one. -/
def npMax : List (XF K) → XF K
  | [] => .nan
  | [x] => x
  | x :: xs =>
    let y := npMax xs
    if x.isNan || y.isNan then .nan else if XF.lt x y then y else x

/-- `np.nanmin` as a number: NaN (with a warning) if all are. -/
def nanminOf (l : List (XF K)) : XF K := (nanmin l).getD .nan

namespace Shallot

/-- L393-422 `_generate_fxy_array`. -/
def fxyArray (maxValue : XF K) (shift : ℕ) (num : ℕ) : List (XF K) :=
  let lo := if shift = 1 then .fin 1 else (XF.fin ((shift : K) - 1)).mul maxValue
  let hi := (XF.fin (shift : K)).mul maxValue
  linspace lo hi num

/-- L774 and L846: has the loop gone too far? -/
def tooFar (maxValue : XF K) (shift : ℕ) : Bool :=
  XF.lt ((XF.fin 100).mul maxValue) (.fin (shift : K))

variable [RealFns K]

/-- What the loops read: L744-747, L816-819. -/
structure Cell (K : Type) where
  /-- `self.parameters.dy[y, 0, 0]`, used by `_determine_fx` and `_determine_fy` -/
  dy : XF K
  shear : XF K
  radius : XF K
  maxX : XF K
  maxY : XF K
  maxRf : XF K
  num : ℕ

/-- The scale factors of one round of L754-759: `fx` and `fy`, flipped. -/
def horizontalScales (c : Cell K) (shift : ℕ) : List (XF K × XF K) :=
  ((fxyArray c.maxX shift c.num).map fun fx => (fx, Geometry.determineFy c.dy fx)).reverse

/-- The scale factors of one round of L826-831. -/
def verticalScales (c : Cell K) (shift : ℕ) : List (XF K × XF K) :=
  (fxyArray c.maxY shift c.num).map fun fy => (Geometry.determineFx c.dy fy, fy)

/-- The disk radii of scale factors, L760-761, L832-833. -/
def radii (c : Cell K) (l : List (XF K × XF K)) : List (XF K) :=
  l.map fun f => (Geometry.diskParameters f.1 f.2 c.shear c.radius).1

/-- The loop of L753-775; `none` means that it does not end. -/
def horizontalLoop (c : Cell K) (shift : ℕ) (fy radius : List (XF K)) :
    Option (Except Err (List (XF K) × List (XF K))) :=
  let scales := horizontalScales c shift
  let r := radii c scales
  let fy := scales.map Prod.snd ++ fy
  let radius := r ++ radius
  if XF.lt ((r.headD .nan).div (nanminOf radius)) c.maxRf then
    if tooFar c.maxX (shift + 1) then some (.error .attributeError)
    else horizontalLoop c (shift + 1) fy radius
  else if tooFar c.maxX shift then some (.error .attributeError)
  else some (.ok (fy, radius))
partial_fixpoint

/-- The loop of L825-847. -/
def verticalLoop (c : Cell K) (shift : ℕ) (fy radius : List (XF K)) :
    Option (Except Err (List (XF K) × List (XF K))) :=
  let scales := verticalScales c shift
  let r := radii c scales
  let fy := fy ++ scales.map Prod.snd
  let radius := radius ++ r
  if XF.lt ((r.getLastD .nan).div (nanminOf radius)) c.maxRf then
    if tooFar c.maxY (shift + 1) then some (.error .attributeError)
    else verticalLoop c (shift + 1) fy radius
  else if tooFar c.maxY shift then some (.error .attributeError)
  else some (.ok (fy, radius))
partial_fixpoint

/-- A loop that has to end: one that does not is shown as `RuntimeError` (proved not to happen). -/
def ended {α : Type} (o : Option (Except Err α)) : Except Err α :=
  match o with
  | some r => r
  | none => .error .runtimeError

/-- L852-902 `_interpolate_scale_values`: `fx` and `fy`. -/
def interpolateScales (dy : XF K) (rf fy radius : List (XF K)) :
    Except Err (List (XF K) × List (XF K)) := do
  let minimum := nanminOf radius
  let fraction := radius.map fun r => r.div minimum
  let i ← nanargmin radius
  let x := (npInterp rf (fraction.take (i + 1)).reverse (fy.take (i + 1)).reverse).reverse
  let y := npInterp rf (fraction.drop i) (fy.drop i)
  let fyValid := x.dropLast ++ [sampleAt fy i] ++ y.tail
  .ok (fyValid.map (Geometry.determineFx dy), fyValid)

/-- What one cell of the grid gets, L970-998. -/
structure Column (K : Type) where
  fy : List (XF K)
  radius : List (XF K)
  diskRadius : List (XF K)
  inclination : List (XF K)
  tilt : List (XF K)
  fx : List (XF K)
  fyValid : List (XF K)
  deriving DecidableEq, Repr

/-- L970-987: the vectors of one cell. -/
def column (c : Cell K) (rf : List (XF K)) : Except Err (Column K) := do
  let h ← ended (horizontalLoop c 1 [] [])
  let v ← ended (verticalLoop c 1 h.1 h.2)
  let (fx, fy) ← interpolateScales c.dy rf v.1 v.2
  let disks := (fx.zip fy).map fun f => Geometry.diskParameters f.1 f.2 c.shear c.radius
  .ok ⟨v.1, v.2, disks.map Prod.fst, disks.map fun d => d.2.1, disks.map fun d => d.2.2, fx, fy⟩

/-- `data[y, x] = v`; a vector of another length raises. -/
def putColumn (d : Nd K) (y x : ℕ) (v : List (XF K)) : Except Err (Nd K) :=
  match d.shape with
  | [a, b, c] =>
    if v.length = c then
      .ok (cubeOf a b c fun y' x' r => if y' = y ∧ x' = x then v.getD r .nan else d.at3 y' x' r)
    else .error .valueError
  | _ => .error .valueError

/-- `self.….data[y, x] = v`. -/
def setColumn (y x : ℕ) (v : List (XF K)) : Meth (GProp K) Unit := do
  let p ← Meth.get
  let d ← Meth.lift (putColumn p.data y x v)
  Meth.set { p with data := d }

/-- What the loops read for cell `(y, x)`. -/
def cellOf (s : Shallot K) (y x : ℕ) : Cell K :=
  ⟨s.params.dy.data.getD y .nan, s.shear.at3 y x 0, s.circularRadius.getD y .nan,
    npMax s.params.dx.data, npMax s.params.dy.data, s.params.rf.data.getLastD .nan,
    s.numFxfy.toInt.toNat⟩

/-- L990-994. -/
def storeColumn (y x : ℕ) (c : Column K) : Meth (Shallot K) Unit := do
  onProp .diskRadius (setColumn y x c.diskRadius)
  onProp .inclination (setColumn y x c.inclination)
  onProp .tilt (setColumn y x c.tilt)
  onProp .fxMap (setColumn y x c.fx)
  onProp .fyMap (setColumn y x c.fyValid)

/-- L996-998. -/
def storeDiagnostic (y x : ℕ) (c : Column K) : Meth (Shallot K) Unit := fun s =>
  match s.diagnostics with
  | none => (.ok (), s)
  | some d =>
    let q := Diagnostics.save (.int y) (.int x) (.arr ⟨"float64", [c.fy.length], c.fy⟩)
      (.arr ⟨"float64", [c.radius.length], c.radius⟩) d
    (q.1, { s with diagnostics := some q.2 })

/-- L964-998: one cell. -/
def buildCell (y x : ℕ) : Meth (Shallot K) Unit := do
  let self ← Meth.get
  if (self.shear.at3 y x 0).isNan then pure ()
  else do
    let c ← Meth.lift (column (self.cellOf y x) self.params.rf.data)
    storeColumn y x c
    storeDiagnostic y x c

/-- The loop of L964-998 over the `n` cells of row `y` from `x` on. -/
def buildRow (y : ℕ) : ℕ → ℕ → Meth (Shallot K) Unit
  | 0, _ => pure ()
  | n + 1, x => do
    buildCell y x
    buildRow y n (x + 1)

/-! ## Properties and helper arrays -/

/-- L354-359 `_determine_circular_radius` and L362-390 `_determine_shear`. -/
def helpers (s : Shallot K) : Shallot K :=
  { s with
    circularRadius := s.params.dy.data.map Geometry.circularRadius
    shear := cubeOf s.params.sliceShape.1 s.params.sliceShape.2 1 fun y x _ =>
      Geometry.shear (s.params.dx.data.getD x .nan) (s.params.dy.data.getD y .nan) }

/-- `np.nan * np.ones(self.parameters.grid_shape)`, L671. -/
def emptyCube (g : GridParams K) : PyVal K :=
  let d : Nd K := cubeOf g.gridShape.1 g.gridShape.2.1 g.gridShape.2.2 fun _ _ _ => .nan
  .arr ⟨"float64", d.shape, d.data⟩

/-- L666-684 `_initialise_grid_properties`. -/
def initialise : Meth (Shallot K) Unit := do
  let self ← Meth.get
  let g := self.params
  let a ← Meth.lift (GProp.new .diskRadius .eclipseDuration (emptyCube g) g)
  Meth.modify ({ · with diskRadius := a })
  let b ← Meth.lift (GProp.new .inclination .degree (emptyCube g) g)
  Meth.modify ({ · with inclination := b })
  let c ← Meth.lift (GProp.new .tilt .degree (emptyCube g) g)
  Meth.modify ({ · with tilt := c })
  let d ← Meth.lift (GProp.new .fxMap .none (emptyCube g) g)
  Meth.modify ({ · with fxMap := d })
  let e ← Meth.lift (GProp.new .fyMap .none (emptyCube g) g)
  Meth.modify ({ · with fyMap := e })

/-- `set_contrast_parameters(color_map=cmap)`. -/
def recolor (cmap : String) : Meth (GProp K) Unit := GProp.setContrast .none .none (.str cmap) .none

/-- The loop of L920-922 over the `n` gradients from `k` on. -/
def recolorGradients : ℕ → ℕ → Meth (Shallot K) Unit
  | 0, _ => pure ()
  | n + 1, k => do
    onGradient k (fun g =>
      let q := GProp.setContrast .none .none .none .none g.prop
      (q.1, { g with prop := q.2 }))
    recolorGradients n (k + 1)

/-- L917-918. -/
def recolorDiagnostic : Meth (Shallot K) Unit := do
  let self ← Meth.get
  match self.diagnosticMap with
  | none => pure ()
  | some _ => onProp .diagnosticMap (GProp.setContrast .none .none .none .none)

/-- L905-922 `_set_grid_property_contrast_parameters`. -/
def recolorAll : Meth (Shallot K) Unit := do
  onProp .diskRadius (recolor "viridis")
  onProp .inclination (recolor "viridis")
  onProp .tilt (recolor "twilight")
  onProp .fxMap (recolor "viridis")
  onProp .fyMap (recolor "viridis")
  recolorDiagnostic
  let self ← Meth.get
  recolorGradients (self.gradients.getD []).length 0

/-! ## The four quadrants -/

/-- `180 - Q` for the tilt. -/
def flipTilt (isTilt : Bool) (x : XF K) : XF K := if isTilt then (XF.fin 180).sub x else x

/-- L1258-1276: the four quadrants put together, with the duplicate row and column removed. -/
def quadrants (ny nx nr : ℕ) (q1 : Nd K) (isTilt : Bool) : Nd K :=
  let q2 := fliplr ny nx nr q1
  let q3 := flipud ny nx nr q2
  let q4 := flipud ny nx nr q1
  let full := cubeOf (2 * ny) (2 * nx) nr fun y x r =>
    if ny ≤ y then
      if nx ≤ x then q1.at3 (y - ny) (x - nx) r else flipTilt isTilt (q2.at3 (y - ny) x r)
    else
      if x < nx then q3.at3 y x r else flipTilt isTilt (q4.at3 y (x - nx) r)
  deleteColumn (2 * ny - 1) (2 * nx) nr (deleteRow (2 * ny) (2 * nx) nr full ny) nx

/-- L1224-1286 `_fill_quadrants`. -/
def fillQuadrants (g : GridParams K) (p : GProp K) (isTilt : Bool := false) : Except Err (GProp K) :=
  match p.data.shape with
  | [ny, nx, nr] =>
    if g.gridShape = (2 * ny - 1, 2 * nx - 1, nr) then do
      let full := quadrants ny nx nr p.data isTilt
      let q ← GProp.new p.name p.unit (.arr ⟨"float64", full.shape, full.data⟩) g
      if isTilt then
        match recolor "twilight" q with
        | (.ok _, q) => .ok q
        | (.error e, _) => .error e
      else .ok q
    else .error .attributeError
  | _ => .error .valueError

/-- L1304-1309. -/
def fillAll : Meth (Shallot K) Unit := do
  let self ← Meth.get
  let g := self.params
  let a ← Meth.lift (fillQuadrants g self.diskRadius)
  Meth.modify ({ · with diskRadius := a })
  let b ← Meth.lift (fillQuadrants g self.inclination)
  Meth.modify ({ · with inclination := b })
  let c ← Meth.lift (fillQuadrants g self.tilt true)
  Meth.modify ({ · with tilt := c })
  let d ← Meth.lift (fillQuadrants g self.fxMap)
  Meth.modify ({ · with fxMap := d })
  let e ← Meth.lift (fillQuadrants g self.fyMap)
  Meth.modify ({ · with fyMap := e })

/-- L1289-1313 `_extend_grid`: an `AttributeError` of `extend_grid` ends it. -/
def extendGrid : Meth (Shallot K) Unit := fun s =>
  match GridParams.extendGrid s.params with
  | (.error .attributeError, g) => (.ok (), { s with params := g })
  | (.error e, g) => (.error e, { s with params := g })
  | (.ok _, g) => (do
      fillAll
      Meth.modify fun s => { s with diagnostics := s.diagnostics.map Diagnostics.extend })
        (helpers { s with params := g })

/-! ## Building without files -/

/-- The loop of L961-1001 without saving, over the `n` rows from `y` on. -/
def buildRows : ℕ → ℕ → Meth (Shallot K) Unit
  | 0, _ => pure ()
  | n + 1, y => do
    let self ← Meth.get
    buildRow y self.params.sliceShape.2 0
    buildRows n (y + 1)

/-- L925-1004 `_build_grid` without saving, from row `y`. -/
def build (y : ℕ) : Meth (Shallot K) Unit := do
  if y = 0 then initialise else pure ()
  let self ← Meth.get
  buildRows (self.params.sliceShape.1 - y) y
  recolorAll

/-- A property that stands for an attribute that is not there yet. -/
def absent (g : GridParams K) : GProp K := ⟨.diskRadius, .none, g, ⟨[], []⟩, none, none, none, "", 0⟩

/-- L86-104: the object before `_build_grid`. -/
def bare (g : GridParams K) (numFxfy : PyVal K) (keep : Bool) : Shallot K :=
  helpers ⟨g, numFxfy, if keep then some (Diagnostics.new g) else none, [], ⟨[], []⟩,
    absent g, absent g, absent g, absent g, absent g, none, none, none, none, none, none⟩

/-- L106-114: build, extend and diagnose. -/
def complete : Meth (Shallot K) Unit := do
  build 0
  extendGrid
  diagnose

/-- L56-114 `__init__` without intermittent saving, as a method of the parameters object, which the
grid shares with the caller (the class of the parameters is a Lean type; the logging level is
dropped). -/
def new (numFxfy : PyVal K) (keepDiagnostics : PyVal K := .bool false) :
    Meth (GridParams K) (Shallot K) := fun g =>
  match number numFxfy (.bool true) (.int 1) with
  | .error e => (.error e, g)
  | .ok n => match boolean keepDiagnostics with
    | .error e => (.error e, g)
    | .ok keep => match complete (bare g n keep) with
      | (.ok _, s) => (.ok s, s.params)
      | (.error e, s) => (.error e, s.params)

end Shallot
end
end Beyonce
