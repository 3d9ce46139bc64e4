import Verif.RingDraw
import Verif.Props.RingPatch
import Verif.Props.RingHeap
import Verif.Props.Fit

/-!
# Properties C81 – C83: drawing a ring system, and building it again from its data
-/

set_option linter.unusedSectionVars false

namespace Beyonce
open Spec

/-! ## C83: the data of a system -/

section
variable {K : Type} [Field K] [LinearOrder K]

theorem number_npFloat (x l u : XF K) (ex : Bool) :
    number (.npFloat .w64 x) (.bool false) (.float l) (.float u) (.bool ex) =
      if XF.lt u l then .error .valueError else
      if (if ex then XF.le x l else XF.lt x l) || (if ex then XF.le u x else XF.lt u x)
      then .error .valueError else .ok (.npFloat .w64 x) := by
  rfl

variable [IsStrictOrderedRing K]

theorem newRing_npFloat (a b t i p : K) (h1 : 0 < a) (h2 : a < b) (h3 : 0 ≤ t) (h4 : t ≤ 1)
    (h5 : 0 ≤ i) (h6 : i ≤ 90) (h7 : -180 ≤ p) (h8 : p ≤ 180) :
    newRing (.npFloat .w64 (.fin a)) (.npFloat .w64 (.fin b)) (.npFloat .w64 (.fin t))
      (.float (.fin i)) (.float (.fin p)) = .ok ⟨.fin a, .fin b, .fin t, .fin i, .fin p⟩ := by
  have e1 : checkInner .pinf (.npFloat .w64 (.fin a)) = .ok (.fin a) := by
    have hz : eqZero (K := K) (.npFloat .w64 (.fin a)) = .ok false := by
      simp [eqZero, PyVal.num, h1.ne']
    unfold checkInner
    rw [hz]
    simp only [bind, Except.bind, number_npFloat, Bool.false_eq_true, if_false, if_true, XF.lt_pinf,
      XF.le_fin, not_le.2 h1, decide_false, Bool.false_or]
    rfl
  have e2 : checkOuter (.fin a) (.npFloat .w64 (.fin b)) = .ok (.fin b) := by
    unfold checkOuter
    simp only [bind, Except.bind, number_npFloat, if_true, XF.lt_pinf, Bool.false_eq_true, if_false,
      XF.le_fin, not_le.2 h2, decide_false, Bool.false_or]
    rfl
  have e3 : checkTransmission (.npFloat .w64 (.fin t)) = .ok (.fin t) := by
    unfold checkTransmission
    simp only [bind, Except.bind, number_npFloat, Bool.false_eq_true, if_false, XF.lt_fin,
      not_lt.2 (zero_le_one (α := K)), not_lt.2 h3, not_lt.2 h4, decide_false, Bool.false_or]
    rfl
  unfold newRing
  simp only [e1, e2, e3, bind, Except.bind, checkInclination_fin, checkTilt_fin, h5, h6, h7, h8, and_self,
    if_true]

theorem buildRings_again {i p : K} (hi : 0 ≤ i ∧ i ≤ 90) (hp : -180 ≤ p ∧ p ≤ 180) :
    ∀ rings : List (RingObj K), (∀ r ∈ rings, ValidRing r ∧ r.inclination = .fin i ∧ r.tilt = .fin p) →
      buildRings (.fin i) (.fin p) ((rings.map (·.inner)).zip ((rings.map (·.outer)).zip
        (rings.map (·.transmission)))) = .ok rings
  | [], _ => rfl
  | r :: rest, h => by
    obtain ⟨⟨a, b, t, i', p', rfl, h1, h2, h3, h4, -⟩, e1, e2⟩ := h r List.mem_cons_self
    simp only at e1 e2
    cases e1
    cases e2
    have ih := buildRings_again hi hp rest fun r hr => h r (List.mem_cons_of_mem _ hr)
    simp only [List.map_cons, List.zip_cons_cons, buildRings, bind, Except.bind]
    rw [newRing_npFloat a b t i p h1 h2 h3 h4 hi.1 hi.2 hp.1 hp.2]
    simp only
    rw [ih]

/-- The rings are valid and carry the geometry of the system, in whatever order. -/
structure Spec.Uniform (s : RSys K) : Prop where
  geometry : GoodGeometry s
  valid : ∀ r ∈ s.rings, ValidRing r
  inclined : ∀ r ∈ s.rings, r.inclination = s.inclination
  tilted : ∀ r ∈ s.rings, r.tilt = s.tilt

theorem Spec.WellFormed.uniform {s : RSys K} (h : WellFormed s) : Uniform s :=
  ⟨h.geometry, h.valid, h.inclined, h.tilted⟩

/-- **C83** A ring system can be built again from what `get_rings_data` returns and its other
attributes, and is the same. -/
theorem C83_rebuild (s : RSys K) (hs : Uniform s) (p : K) (hp : s.planet = .fin p) (hp0 : 0 ≤ p) :
    newSystem (.float s.planet) (.arr s.ringsData.1) (.arr s.ringsData.2.1) (.arr s.ringsData.2.2)
      (.float s.inclination) (.float s.tilt) = .ok s := by
  obtain ⟨i, t, hi, ht, i0, i1, t0, t1⟩ := hs.geometry
  obtain ⟨pl, inc, tl, rings⟩ := s
  simp only at hp hi ht
  subst hp hi ht
  have hfin : ∀ r ∈ rings, ∃ a b t : K, r.inner = .fin a ∧ r.outer = .fin b ∧ r.transmission = .fin t ∧
      0 ≤ a ∧ 0 ≤ b ∧ 0 ≤ t ∧ t ≤ 1 := by
    intro r hr
    obtain ⟨a, b, t, i', p', rfl, h1, h2, h3, h4, -⟩ := hs.valid r hr
    exact ⟨a, b, t, rfl, rfl, rfl, h1.le, (h1.trans h2).le, h3, h4⟩
  have n1 : number (K := K) (.float (.fin p)) (.bool false) (.float (.fin 0)) = .ok (.float (.fin p)) := by
    show number (K := K) (.float (.fin p)) (.bool false) (.float (.fin 0)) (.float .pinf) (.bool false) = _
    rw [number_float]
    simp only [XF.lt_pinf, Bool.false_eq_true, if_false, XF.lt_fin, not_lt.2 hp0, decide_false,
      Bool.false_or]
  have n2 : number (K := K) (.float (.fin i)) (.bool false) (.float (.fin 0)) (.float (.fin 90)) =
      .ok (.float (.fin i)) := by
    show number (K := K) (.float (.fin i)) (.bool false) (.float (.fin 0)) (.float (.fin 90))
      (.bool false) = _
    rw [number_float]
    have : ¬ ((90 : K) < 0) := by norm_num
    simp only [Bool.false_eq_true, if_false, XF.lt_fin, not_lt.2 i0, not_lt.2 i1, this, decide_false,
      Bool.false_or]
  have n3 : number (K := K) (.float (.fin t)) (.bool false) (.float (.fin (-180))) (.float (.fin 180)) =
      .ok (.float (.fin t)) := by
    show number (K := K) (.float (.fin t)) (.bool false) (.float (.fin (-180))) (.float (.fin 180))
      (.bool false) = _
    rw [number_float]
    have : ¬ ((180 : K) < -180) := by norm_num
    simp only [Bool.false_eq_true, if_false, XF.lt_fin, not_lt.2 t0, not_lt.2 t1, this, decide_false,
      Bool.false_or]
  have arr1 : ∀ (f : RingObj K → XF K), (∀ r ∈ rings, ∃ a : K, f r = .fin a ∧ 0 ≤ a) →
      array (.arr ⟨"float64", [rings.length], rings.map f⟩ : PyVal K) (.int 0) .none (.bool false)
        (.str "float64") (.int 1) = .ok ⟨"float64", [rings.length], rings.map f⟩ := by
    intro f hf
    refine (C03_array_ok_iff false _ _ (some (.int 0)) none (some (.int 1)) (some "float64") (by simp)
      (by simp) (by simp)).2 ⟨rfl, ⟨fun _ => ⟨.fin 0, .pinf, Or.inl ⟨0, .int 0, by simp⟩,
        Or.inr ⟨rfl, .float _⟩, by rw [less_iff]; simp, ?_⟩, ?_, ?_⟩⟩
    · intro x hx
      obtain ⟨r, hr, rfl⟩ := List.mem_map.1 hx
      obtain ⟨a, ha, h0⟩ := hf r hr
      rw [ha, not_violates_iff]
      simp [less_iff, h0]
    · rintro d hd
      cases hd
      exact ⟨1, .int 1, by simp⟩
    · rintro d hd
      cases hd
      rfl
  have arr2 : array (.arr ⟨"float64", [rings.length], rings.map (·.transmission)⟩ : PyVal K) (.int 0)
      (.int 1) (.bool false) (.str "float64") (.int 1) =
        .ok ⟨"float64", [rings.length], rings.map (·.transmission)⟩ := by
    refine (C03_array_ok_iff false _ _ (some (.int 0)) (some (.int 1)) (some (.int 1)) (some "float64")
      (by simp) (by simp) (by simp)).2 ⟨rfl, ⟨fun _ => ⟨.fin 0, .fin 1, Or.inl ⟨0, .int 0, by simp⟩,
        Or.inl ⟨1, .int 1, by simp⟩, by rw [less_iff]; simp, ?_⟩, ?_, ?_⟩⟩
    · intro x hx
      obtain ⟨r, hr, rfl⟩ := List.mem_map.1 hx
      obtain ⟨-, -, t, -, -, ht, -, -, h0, h1⟩ := hfin r hr
      rw [ht, not_violates_iff]
      simp [less_iff, h0, h1]
    · rintro d hd
      cases hd
      exact ⟨1, .int 1, by simp⟩
    · rintro d hd
      cases hd
      rfl
  have sh : sameShapeArrays (K := K) [.arr ⟨"float64", [rings.length], rings.map (·.inner)⟩,
      .arr ⟨"float64", [rings.length], rings.map (·.outer)⟩,
      .arr ⟨"float64", [rings.length], rings.map (·.transmission)⟩] 3 = .ok () := by
    rw [C04_sameShapeArrays_iff]
    refine ⟨by simp, rfl, [_, _, _], rfl, ?_⟩
    intro a ha b hb
    simp only [List.mem_cons, List.not_mem_nil, or_false] at ha hb
    rcases ha with rfl | rfl | rfl <;> rcases hb with rfl | rfl | rfl <;> rfl
  have hb := buildRings_again ⟨i0, i1⟩ ⟨t0, t1⟩ rings fun r hr =>
    ⟨hs.valid r hr, hs.inclined r hr, hs.tilted r hr⟩
  have a1 := arr1 (·.inner) fun r hr => by
    obtain ⟨a, b, t, h1, h2, h3, h4, h5, h6⟩ := hfin r hr
    exact ⟨a, h1, h4⟩
  have a2 := arr1 (·.outer) fun r hr => by
    obtain ⟨a, b, t, h1, h2, h3, h4, h5, h6⟩ := hfin r hr
    exact ⟨b, h2, h5⟩
  unfold newSystem RSys.ringsData RSys.innerRadii RSys.outerRadii RSys.transmissions
  simp only [n1, n2, n3, a1, a2, arr2, sh, bind, Except.bind, PyVal.num_float, hb]

theorem exec_planet [FloorRing K] (s : RSys K) (op : SysOp K) : (op.exec s).planet = s.planet := by
  have ho : ∀ (st : SysAndRing K) (f : RSys K → RingObj K → List (RingObj K)),
      ((overrideCallersRing >>= fun _ => Meth.modify fun st =>
        { st with sys := { st.sys with rings := f st.sys st.ring } }) st).2.sys.planet =
          st.sys.planet := by
    intro st f
    rcases bind_cases overrideCallersRing (fun _ => Meth.modify fun st =>
        { st with sys := { st.sys with rings := f st.sys st.ring } }) st with
      ⟨a, s', h1, h2⟩ | ⟨e, s', h1, h2⟩
    · rw [h2]
      show s'.sys.planet = _
      rw [show s' = (overrideCallersRing st).2 by rw [h1]]
      rfl
    · rw [h2]
      show s'.sys.planet = _
      rw [show s' = (overrideCallersRing st).2 by rw [h1]]
      rfl
  cases op with
  | add i r =>
    unfold SysOp.exec addRing
    cases h : preventOverlap s i r with
    | error e => simp [h]
    | ok u =>
      simp only [Meth.get_bind, h, Meth.lift_ok_bind]
      exact ho ⟨s, r⟩ fun sys ring => sys.rings.insertIdx i.toInt.toNat ring
  | remove i =>
    unfold SysOp.exec removeRing
    cases hn : number i (.bool true) (.int 0) (.int ((s.rings.length : ℤ) - 1)) with
    | error e => simp [hn]
    | ok v => cases h : npDelete s.rings i <;> simp [hn, h]
  | replace i r =>
    unfold SysOp.exec replaceRing
    cases hn : number i (.bool true) (.int 0) (.int ((s.rings.length : ℤ) - 1)) with
    | error e => simp [hn]
    | ok v =>
      cases h : preventOverlap s i r true with
      | error e => simp [hn, h]
      | ok u =>
        simp only [Meth.get_bind, hn, h, Meth.lift_ok_bind]
        exact ho ⟨s, r⟩ fun sys ring => npAssign sys.rings i ring
  | split nd => exact (splitRings_geometry nd s).2.2
  | merge tol => exact (mergeRings_geometry tol s).2.2

/-- **C83, after any history** So can every system that was edited, however often, by the methods of
the class. -/
theorem C83_history [FloorRing K] (s : RSys K) (hs : WellFormed s) (p : K) (hp : s.planet = .fin p)
    (hp0 : 0 ≤ p) (ops : List (SysOp K)) (hops : ∀ op ∈ ops, Sane op) :
    newSystem (.float (ops.foldl SysOp.exec s).planet)
      (.arr (ops.foldl SysOp.exec s).ringsData.1) (.arr (ops.foldl SysOp.exec s).ringsData.2.1)
      (.arr (ops.foldl SysOp.exec s).ringsData.2.2) (.float (ops.foldl SysOp.exec s).inclination)
      (.float (ops.foldl SysOp.exec s).tilt) = .ok (ops.foldl SysOp.exec s) := by
  refine C83_rebuild _ (C08_rings_never_overlap s hs ops hops).uniform p ?_ hp0
  clear hs hops
  induction ops generalizing s with
  | nil => exact hp
  | cons op ops ih => exact ih _ ((exec_planet s op).trans hp)

/-- Non-vacuity: a system of two rings. -/
example : Uniform (⟨.fin 1, .fin 10, .fin 20, [⟨.fin 1, .fin 2, .fin 0, .fin 10, .fin 20⟩,
    ⟨.fin 3, .fin 4, .fin (1/2), .fin 10, .fin 20⟩]⟩ : RSys ℚ) := by
  refine ⟨⟨10, 20, rfl, rfl, by norm_num⟩, ?_, by simp, by simp⟩
  intro r hr
  simp only [List.mem_cons, List.not_mem_nil, or_false] at hr
  rcases hr with rfl | rfl
  · exact ⟨1, 2, 0, 10, 20, rfl, by norm_num⟩
  · exact ⟨3, 4, 1/2, 10, 20, rfl, by norm_num⟩

end

/-! ## C81: what `plot` adds to the axes -/

section
variable {C : Type}

/-- A ring of finite numbers. -/
def Spec.FiniteRing (r : RingObj ℝ) : Prop := ∃ ri ro t i phi, IsRing r ri ro t i phi

theorem ringPatches_ok (verts : List Pt) (codes : List C) (x y : ℝ) (color : String) :
    ∀ rings : List (RingObj ℝ), (∀ r ∈ rings, FiniteRing r) →
      ∃ ps : List (Patch C),
        ringPatches verts codes (.float (.fin x)) (.float (.fin y)) (.str color) rings =
          .ok (ps.map fun P => .ring (some P)) ∧ ps.length = rings.length ∧
        ∀ (k : ℕ) r, rings[k]? = some r → ∃ P, ps[k]? = some P ∧
          getPatch verts codes r (.float (.fin x)) (.float (.fin y)) (.str color) = .ok (some P)
  | [], _ => ⟨[], rfl, rfl, by simp⟩
  | r :: rest, h => by
    obtain ⟨ri, ro, t, i, phi, hr⟩ := h r List.mem_cons_self
    obtain ⟨P, hP, -⟩ := C07_patch_exists verts codes r hr x y color
    obtain ⟨ps, h1, h2, h3⟩ := ringPatches_ok verts codes x y color rest fun r hr =>
      h r (List.mem_cons_of_mem _ hr)
    refine ⟨P :: ps, ?_, by simp [h2], ?_⟩
    · simp only [ringPatches, hP, h1, bind, Except.bind, List.map_cons]
    · intro k r' hk
      cases k with
      | zero =>
        simp only [List.getElem?_cons_zero, Option.some.injEq] at hk
        subst hk
        exact ⟨P, rfl, hP⟩
      | succ k => exact h3 k r' hk

theorem systemPatches_ok (verts : List Pt) (codes : List C) (s : RSys ℝ)
    (hs : ∀ r ∈ s.rings, FiniteRing r) (x y : ℝ) (color : String) :
    ∃ ps : List (Patch C),
      systemPatches verts codes s (.float (.fin x)) (.float (.fin y)) (.str color) =
        .ok (.disc (.fin x) (.fin y) s.planet :: ps.map fun P => .ring (some P)) ∧
      ps.length = s.rings.length ∧
      ∀ (k : ℕ) r, s.rings[k]? = some r → ∃ P, ps[k]? = some P ∧
        getPatch verts codes r (.float (.fin x)) (.float (.fin y)) (.str color) = .ok (some P) := by
  obtain ⟨ps, h1, h2, h3⟩ := ringPatches_ok verts codes x y color s.rings hs
  refine ⟨ps, ?_, h2, h3⟩
  have hn : ∀ z : ℝ, number (.float (.fin z)) = .ok (PyVal.float (.fin z)) := fun z => rfl
  unfold systemPatches
  rw [hn, hn]
  simp only [bind, Except.bind, string, classObject, isinstance, if_true, h1, PyVal.num_float]

theorem plot_ok (verts : List Pt) (codes : List C) (s : RSys ℝ) (hs : ∀ r ∈ s.rings, FiniteRing r)
    (x y d : ℝ) (l : RingObj ℝ) (hl : s.rings.getLast? = some l) (hd : l.outer = .fin d)
    (color : String) (ax : Axes C) :
    ∃ ps : List (Patch C),
      plotSystem verts codes s (.float (.fin x)) (.float (.fin y)) (.str color) ax =
        (.ok (), ⟨ax.patches ++ .disc (.fin x) (.fin y) s.planet :: ps.map fun P => .ring (some P),
          (.fin (x - d - 2), .fin (x + d + 2)), (.fin (y - d - 2), .fin (x + d + 2))⟩) ∧
      ps.length = s.rings.length ∧
      ∀ (k : ℕ) r, s.rings[k]? = some r → ∃ P, ps[k]? = some P ∧
        getPatch verts codes r (.float (.fin x)) (.float (.fin y)) (.str color) = .ok (some P) := by
  obtain ⟨ps, h1, h2, h3⟩ := systemPatches_ok verts codes s hs x y color
  refine ⟨ps, ?_, h2, h3⟩
  have hlim : plotLimits s (.fin x) (.fin y) =
      .ok ((.fin (x - d - 2), .fin (x + d + 2)), (.fin (y - d - 2), .fin (x + d + 2))) := by
    simp [plotLimits, hl, hd, XF.sub, XF.add, XF.neg, sub_eq_add_neg]
  unfold plotSystem
  simp only [h1, Meth.lift_ok_bind, Meth.modify_bind, PyVal.num_float, hlim, setXLim, setYLim,
    Meth.modify_apply]

theorem last_finite {s : RSys ℝ} (hs : ∀ r ∈ s.rings, FiniteRing r) (hne : s.rings ≠ []) :
    ∃ l d, s.rings.getLast? = some l ∧ l.outer = .fin d := by
  obtain ⟨ri, ro, t, i, phi, hr⟩ := hs _ (List.getLast_mem hne)
  exact ⟨_, ro, List.getLast?_eq_getLast_of_ne_nil hne, hr.outer⟩

theorem acceptable_default {v : PyVal ℝ} {z : XF ℝ} (h : IsNumber false v z) :
    Acceptable false false v (.float .ninf) (.float .pinf) := by
  refine ⟨z, .ninf, .pinf, h, Or.inr ⟨rfl, .float _⟩, Or.inr ⟨rfl, .float _⟩, ?_, ?_⟩
  · rw [less_iff]; simp
  · rw [not_violates_iff]
    cases z <;> simp [less_iff]

theorem number_of_isNumber {v : PyVal ℝ} (h : ∃ z, IsNumber false v z) : number v = .ok v := by
  obtain ⟨z, h⟩ := h
  exact (C01_number_ok_iff false false v v _ _).2 ⟨rfl, acceptable_default h⟩

theorem number_not_number {v : PyVal ℝ} (h : ¬ ∃ z, IsNumber false v z) :
    number v = .error .typeError :=
  (C01_number_errors false false v (.float .ninf) (.float .pinf) (fun ⟨z, _, _, hz, _⟩ => h ⟨z, hz⟩)).2
    fun hh => h hh.1

/-- **C81 (partial)** `plot` of a system with at least one ring keeps what is on the axes and adds, in
this order, the planet as a circle of its radius around the shift and one patch per ring, from the
inside out, each that of `Ring.get_patch`.  Missing for the full claim: systems without rings, for
which it is false (`C81_false_empty`). -/
theorem C81_plot_partial (verts : List Pt) (codes : List C) (s : RSys ℝ)
    (hs : ∀ r ∈ s.rings, FiniteRing r) (hne : s.rings ≠ []) (x y : ℝ) (color : String) (ax : Axes C) :
    ∃ (ps : List (Artist C)) (ax' : Axes C),
      plotSystem verts codes s (.float (.fin x)) (.float (.fin y)) (.str color) ax = (.ok (), ax') ∧
      ax'.patches = ax.patches ++ .disc (.fin x) (.fin y) s.planet :: ps ∧
      ps.length = s.rings.length ∧
      ∀ (k : ℕ) r, s.rings[k]? = some r → ∃ P,
        getPatch verts codes r (.float (.fin x)) (.float (.fin y)) (.str color) = .ok (some P) ∧
        ps[k]? = some (.ring (some P)) := by
  obtain ⟨l, d, hl, hd⟩ := last_finite hs hne
  obtain ⟨ps, h1, h2, h3⟩ := plot_ok verts codes s hs x y d l hl hd color ax
  refine ⟨_, _, h1, rfl, by simp [h2], ?_⟩
  intro k r hk
  obtain ⟨P, hP, hg⟩ := h3 k r hk
  exact ⟨P, hg, by simp [hP]⟩

/-- **C81, bad arguments** A shift that is not a number or a colour that is not a string raises
TypeError before anything is drawn. -/
theorem C81_bad_arguments (verts : List Pt) (codes : List C) (s : RSys ℝ) (x y color : PyVal ℝ)
    (h : (∀ z, ¬ IsNumber false x z) ∨ (∀ z, ¬ IsNumber false y z) ∨ ∀ c, color ≠ .str c)
    (ax : Axes C) : plotSystem verts codes s x y color ax = (.error .typeError, ax) := by
  have hp : systemPatches verts codes s x y color = .error .typeError := by
    unfold systemPatches
    by_cases hx : ∃ z, IsNumber false x z
    · rw [number_of_isNumber hx]
      by_cases hy : ∃ z, IsNumber false y z
      · rw [number_of_isNumber hy]
        have hc : string color = .error .typeError := by
          have h' : ∀ c, color ≠ .str c := by
            rcases h with h | h | h
            · exact absurd hx (by simpa using h)
            · exact absurd hy (by simpa using h)
            · exact h
          cases color <;> first | rfl | exact absurd rfl (h' _)
        rw [hc]
        rfl
      · rw [number_not_number hy]
        rfl
    · rw [number_not_number hx]
      rfl
  unfold plotSystem
  rw [hp]
  rfl

/-- **C81, any kind of number** Only the value of the shifts counts, not whether they are ints, floats
or numpy scalars. -/
theorem C81_number_kind (verts : List Pt) (codes : List C) (s : RSys ℝ) (x y color : PyVal ℝ)
    (a b : XF ℝ) (hx : IsNumber false x a) (hy : IsNumber false y b) :
    plotSystem verts codes s x y color = plotSystem verts codes s (.float a) (.float b) color := by
  have ha := isNumber_num hx
  have hb := isNumber_num hy
  have h1 : ∀ c : PyVal ℝ, systemPatches verts codes s x y c =
      systemPatches verts codes s (.float a) (.float b) c := by
    intro c
    have hr : ∀ c' rings, ringPatches verts codes x y c' rings =
        ringPatches verts codes (.float a) (.float b) c' rings := by
      intro c' rings
      induction rings with
      | nil => rfl
      | cons r rest ih =>
        have hg : getPatch verts codes r x y c' = getPatch verts codes r (.float a) (.float b) c' := by
          unfold getPatch
          rw [number_of_isNumber ⟨_, hx⟩, number_of_isNumber ⟨_, hy⟩,
            number_of_isNumber ⟨a, Or.inr ⟨rfl, .float a⟩⟩, number_of_isNumber ⟨b, Or.inr ⟨rfl, .float b⟩⟩]
          simp only [bind, Except.bind, ha, hb, PyVal.num_float]
        unfold ringPatches
        rw [ih, hg]
    unfold systemPatches
    rw [number_of_isNumber ⟨_, hx⟩, number_of_isNumber ⟨_, hy⟩,
      number_of_isNumber ⟨a, Or.inr ⟨rfl, .float a⟩⟩, number_of_isNumber ⟨b, Or.inr ⟨rfl, .float b⟩⟩]
    simp only [bind, Except.bind, ha, hb, PyVal.num_float, hr]
  unfold plotSystem
  rw [h1, ha, hb, PyVal.num_float, PyVal.num_float]

/-- **C81 is false**: a system without rings is drawn half: the planet is added, then IndexError is
raised before the limits are set. -/
theorem C81_false_empty (verts : List Pt) (codes : List C) (s : RSys ℝ) (hs : s.rings = []) (x y : ℝ)
    (color : String) (ax : Axes C) :
    plotSystem verts codes s (.float (.fin x)) (.float (.fin y)) (.str color) ax =
      (.error .indexError, { ax with patches := ax.patches ++ [.disc (.fin x) (.fin y) s.planet] }) := by
  obtain ⟨ps, h1, h2, -⟩ := systemPatches_ok verts codes s (by simp [hs]) x y color
  rw [hs, List.length_nil, List.length_eq_zero_iff] at h2
  subst h2
  unfold plotSystem
  simp only [h1, Meth.lift_ok_bind, Meth.modify_bind, plotLimits, hs, List.getLast?_nil, List.map_nil,
    Meth.lift_error_bind]

/-! ## C82: what is drawn can be seen -/

theorem rotated_bound (R c a b p1 p2 : ℝ) (hR : 0 ≤ R) (hc : c ^ 2 ≤ 1) (hab : a ^ 2 + b ^ 2 = 1)
    (hp : p1 ^ 2 + p2 ^ 2 ≤ 1) : |R * p1 * a + R * p2 * c * b| ≤ R := by
  have h1 : (p1 * a + p2 * c * b) ^ 2 ≤ 1 := by
    have h2 : (p1 * a + p2 * c * b) ^ 2 + (p1 * b - p2 * c * a) ^ 2 =
        (p1 ^ 2 + (p2 * c) ^ 2) * (a ^ 2 + b ^ 2) := by ring
    have h3 : (p2 * c) ^ 2 ≤ p2 ^ 2 := by
      rw [mul_pow]
      nlinarith [sq_nonneg p2]
    rw [hab] at h2
    nlinarith [sq_nonneg (p1 * b - p2 * c * a)]
  have h4 : |p1 * a + p2 * c * b| ≤ 1 := by
    rw [← sq_le_one_iff_abs_le_one]
    exact h1
  calc |R * p1 * a + R * p2 * c * b| = R * |p1 * a + p2 * c * b| := by
        rw [← abs_of_nonneg hR, ← abs_mul, abs_of_nonneg hR]
        ring_nf
    _ ≤ R * 1 := mul_le_mul_of_nonneg_left h4 hR
    _ = R := mul_one R

/-- A point of the path in the closed unit disc ends up at most a radius away from the centre, in
either direction. -/
theorem patch_bound (verts : List Pt) (codes : List C) (r : RingObj ℝ) {ri ro t i phi : ℝ}
    (hr : IsRing r ri ro t i phi) (hri : 0 ≤ ri) (hro : ri ≤ ro) (x y : ℝ) (color : PyVal ℝ)
    (P : Patch C)
    (h : getPatch verts codes r (.float (.fin x)) (.float (.fin y)) color = .ok (some P))
    (k : ℕ) (p q : Pt) (hk : verts[k]? = some p) (hp : p.1 ^ 2 + p.2 ^ 2 ≤ 1)
    (hq : P.outer[k]? = some q ∨ P.inner[k]? = some q) : |q.1 - x| ≤ ro ∧ |q.2 - y| ≤ ro := by
  obtain ⟨h1, h2⟩ := patch_fields hr h
  have hc := Real.cos_sq_le_one (deg2rad i)
  have hab := Real.cos_sq_add_sin_sq (deg2rad phi)
  have hab' : Real.sin (deg2rad phi) ^ 2 + (-Real.cos (deg2rad phi)) ^ 2 = 1 := by
    rw [neg_sq, add_comm, hab]
  rw [h1, h2] at hq
  simp only [List.getElem?_map, hk, Option.map_some, Option.some.injEq] at hq
  rcases hq with rfl | rfl
  · have e1 := rotated_bound ro _ _ _ p.1 p.2 (hri.trans hro) hc hab hp
    have e2 := rotated_bound ro _ _ _ p.1 p.2 (hri.trans hro) hc hab' hp
    simp only [outerVertex, rotateRow, add_sub_cancel_left, mul_one]
    exact ⟨e1, e2⟩
  · have hp' : (-p.1) ^ 2 + p.2 ^ 2 ≤ 1 := by rwa [neg_sq]
    have e1 := rotated_bound ri _ _ _ (-p.1) p.2 hri hc hab hp'
    have e2 := rotated_bound ri _ _ _ (-p.1) p.2 hri hc hab' hp'
    simp only [innerVertex, rotateRow, add_sub_cancel_left]
    have e : ri * p.1 * -1 = ri * -p.1 := by ring
    rw [e]
    exact ⟨e1.trans hro, e2.trans hro⟩

/-- The patch of a ring of the system on the axes. -/
def Spec.Drawn (verts : List Pt) (codes : List C) (s : RSys ℝ) (x y : ℝ) (color : String)
    (P : Patch C) : Prop :=
  ∃ r ∈ s.rings, getPatch verts codes r (.float (.fin x)) (.float (.fin y)) (.str color) = .ok (some P)

/-- `q` lies on a boundary of the patch and comes from a point of the path in the closed unit disc. -/
def Spec.OnBoundary (verts : List Pt) (P : Patch C) (q : Pt) : Prop :=
  ∃ (k : ℕ) (p : Pt), verts[k]? = some p ∧ p.1 ^ 2 + p.2 ^ 2 ≤ 1 ∧
    (P.outer[k]? = some q ∨ P.inner[k]? = some q)

theorem outer_le_last {s : RSys ℝ} (hs : WellFormed s) {l : RingObj ℝ} {d : ℝ}
    (hl : s.rings.getLast? = some l) (hd : l.outer = .fin d) :
    ∀ r ∈ s.rings, ∃ ri ro t i phi, IsRing r ri ro t i phi ∧ 0 < ri ∧ ri < ro ∧ ro ≤ d := by
  intro r hr
  obtain ⟨ri, ro, t, i, phi, hr', h1, h2, -⟩ := hs.valid r hr
  have hri : IsRing r ri ro t i phi := by subst hr'; exact ⟨rfl, rfl, rfl, rfl, rfl⟩
  refine ⟨ri, ro, t, i, phi, hri, h1, h2, ?_⟩
  obtain ⟨ls, hls⟩ := List.getLast?_eq_some_iff.1 hl
  have hord := hs.ordered
  rw [hls] at hr hord
  rcases List.mem_append.1 hr with hm | hm
  · have := (List.pairwise_append.1 hord).2.2 r hm l (by simp)
    obtain ⟨li, lo, lt, li', lp, hl', g1, g2, -⟩ := hs.valid l (by rw [hls]; simp)
    rw [hri.outer] at this
    subst hl'
    simp only at hd this
    cases hd
    have hle : ro ≤ li := by
      rw [lessEq_iff] at this
      simpa using this
    exact (hle.trans g2.le)
  · obtain rfl := List.mem_singleton.1 hm
    rw [hri.outer] at hd
    cases hd
    exact le_rfl

/-- **C82 (partial)** Of a system whose rings are ordered, every boundary point of every ring lies
between the x limits and above the lower y limit, with a margin of two stellar radii, and below the
upper y limit if the y shift exceeds the x shift by at most two.  Missing for the full claim: larger
y shifts, rings in another order and planets larger than the disc, for which it is false
(`C82_false_shift`, `C82_false_order`, `C82_false_planet`). -/
theorem C82_visible_partial (verts : List Pt) (codes : List C) (s : RSys ℝ) (hs : WellFormed s)
    (hne : s.rings ≠ []) (x y : ℝ) (color : String) (ax : Axes C) :
    ∃ (ax' : Axes C) (xl xu yl yu : ℝ),
      plotSystem verts codes s (.float (.fin x)) (.float (.fin y)) (.str color) ax = (.ok (), ax') ∧
      ax'.xlim = (.fin xl, .fin xu) ∧ ax'.ylim = (.fin yl, .fin yu) ∧
      ∀ P, Drawn verts codes s x y color P → ∀ q, OnBoundary verts P q →
        xl + 2 ≤ q.1 ∧ q.1 ≤ xu - 2 ∧ yl + 2 ≤ q.2 ∧ (y ≤ x → q.2 ≤ yu - 2) ∧
        (y ≤ x + 2 → q.2 ≤ yu) := by
  have hfin : ∀ r ∈ s.rings, FiniteRing r := by
    intro r hr
    obtain ⟨ri, ro, t, i, phi, rfl, -⟩ := hs.valid r hr
    exact ⟨ri, ro, t, i, phi, rfl, rfl, rfl, rfl, rfl⟩
  obtain ⟨l, d, hl, hd⟩ := last_finite hfin hne
  obtain ⟨ps, h1, -, -⟩ := plot_ok verts codes s hfin x y d l hl hd color ax
  refine ⟨_, _, _, _, _, h1, rfl, rfl, ?_⟩
  rintro P ⟨r, hr, hP⟩ q ⟨k, p, hk, hp, hq⟩
  obtain ⟨ri, ro, t, i, phi, hri, g1, g2, g3⟩ := outer_le_last hs hl hd r hr
  obtain ⟨b1, b2⟩ := patch_bound verts codes r hri g1.le g2.le x y _ P hP k p q hk hp hq
  rw [abs_le] at b1 b2
  refine ⟨by linarith, by linarith, by linarith, fun h => by linarith, fun h => by linarith⟩

/-- **C82 is false for shifted systems**: if the y shift exceeds the x shift by more than two, the top
of the outermost ring of every face-on system lies above the upper y limit. -/
theorem C82_false_shift (codes : List C) (s : RSys ℝ) (hs : WellFormed s) (hne : s.rings ≠ [])
    (hi : s.inclination = .fin 0) (ht : s.tilt = .fin 0) (x y : ℝ) (hxy : x + 2 < y) (color : String)
    (ax : Axes C) :
    ∃ (ax' : Axes C) (yl yu : ℝ) (P : Patch C) (q : Pt),
      plotSystem [(0, -1)] codes s (.float (.fin x)) (.float (.fin y)) (.str color) ax = (.ok (), ax') ∧
      ax'.ylim = (.fin yl, .fin yu) ∧ Drawn [(0, -1)] codes s x y color P ∧
      OnBoundary [(0, -1)] P q ∧ yu < q.2 := by
  have hfin : ∀ r ∈ s.rings, FiniteRing r := by
    intro r hr
    obtain ⟨ri, ro, t, i, phi, rfl, -⟩ := hs.valid r hr
    exact ⟨ri, ro, t, i, phi, rfl, rfl, rfl, rfl, rfl⟩
  obtain ⟨l, d, hl, hd⟩ := last_finite hfin hne
  obtain ⟨ps, h1, -, -⟩ := plot_ok [(0, -1)] codes s hfin x y d l hl hd color ax
  have hm : l ∈ s.rings := List.mem_of_getLast? hl
  obtain ⟨ri, ro, t, i, phi, hri, -, -, -⟩ := outer_le_last hs hl hd l hm
  obtain rfl : ro = d := by have := hri.outer; rw [hd] at this; cases this; rfl
  obtain rfl : i = 0 := by
    have := hri.inclination; rw [hs.inclined l hm, hi] at this; cases this; rfl
  obtain rfl : phi = 0 := by have := hri.tilt; rw [hs.tilted l hm, ht] at this; cases this; rfl
  obtain ⟨P, hP, -⟩ := C07_patch_exists [(0, -1)] codes l hri x y color
  obtain ⟨f1, -⟩ := patch_fields hri hP
  refine ⟨_, _, _, P, outerVertex ro (deg2rad 0) (deg2rad 0) (x, y) (0, -1), h1, rfl, ⟨l, hm, hP⟩,
    ⟨0, (0, -1), rfl, by norm_num, Or.inl ?_⟩, ?_⟩
  · rw [f1]; rfl
  · simp [outerVertex, rotateRow, deg2rad]
    linarith

/-- **C82 is false for rings in another order**: the constructor accepts an outer ring before an inner
one, and the limits, which are those of the last ring, cut off the outer one. -/
theorem C82_false_order (codes : List C) (color : String) (ax : Axes C) :
    ∃ (s : RSys ℝ) (ax' : Axes C) (xl xu : ℝ) (P : Patch C) (q : Pt),
      newSystem (.float (.fin 0)) (.arr ⟨"float64", [2], [.fin 4, .fin (1/2)]⟩)
        (.arr ⟨"float64", [2], [.fin 5, .fin 1]⟩) (.arr ⟨"float64", [2], [.fin 0, .fin 0]⟩)
        (.float (.fin 0)) (.float (.fin 0)) = .ok s ∧
      plotSystem [(1, 0)] codes s (.float (.fin 0)) (.float (.fin 0)) (.str color) ax = (.ok (), ax') ∧
      ax'.xlim = (.fin xl, .fin xu) ∧ Drawn [(1, 0)] codes s 0 0 color P ∧
      OnBoundary [(1, 0)] P q ∧ xu < q.1 := by
  obtain ⟨r1, h1⟩ : ∃ r : RingObj ℝ, r = ⟨.fin 4, .fin 5, .fin 0, .fin 0, .fin 0⟩ := ⟨_, rfl⟩
  obtain ⟨r2, h2⟩ : ∃ r : RingObj ℝ, r = ⟨.fin (1/2), .fin 1, .fin 0, .fin 0, .fin 0⟩ := ⟨_, rfl⟩
  have i1 : IsRing r1 4 5 0 0 0 := by subst h1; exact ⟨rfl, rfl, rfl, rfl, rfl⟩
  have i2 : IsRing r2 (1/2) 1 0 0 0 := by subst h2; exact ⟨rfl, rfl, rfl, rfl, rfl⟩
  have hu : Uniform (⟨.fin 0, .fin 0, .fin 0, [r1, r2]⟩ : RSys ℝ) := by
    subst h1 h2
    refine ⟨⟨0, 0, rfl, rfl, by norm_num⟩, ?_, by simp, by simp⟩
    intro r hr
    simp only [List.mem_cons, List.not_mem_nil, or_false] at hr
    rcases hr with rfl | rfl
    · exact ⟨4, 5, 0, 0, 0, rfl, by norm_num⟩
    · exact ⟨1/2, 1, 0, 0, 0, rfl, by norm_num⟩
  have hfin : ∀ r ∈ [r1, r2], FiniteRing r := by
    intro r hr
    simp only [List.mem_cons, List.not_mem_nil, or_false] at hr
    rcases hr with rfl | rfl
    · exact ⟨_, _, _, _, _, i1⟩
    · exact ⟨_, _, _, _, _, i2⟩
  have hb := C83_rebuild _ hu 0 rfl le_rfl
  obtain ⟨ps, hp, -, -⟩ := plot_ok [(1, 0)] codes ⟨.fin 0, .fin 0, .fin 0, [r1, r2]⟩ hfin 0 0 1 r2 rfl
    i2.outer color ax
  obtain ⟨P, hP, -⟩ := C07_patch_exists [(1, 0)] codes r1 i1 0 0 color
  obtain ⟨f1, -⟩ := patch_fields i1 hP
  refine ⟨_, _, _, _, P, outerVertex 5 (deg2rad 0) (deg2rad 0) (0, 0) (1, 0), ?_, hp, rfl,
    ⟨r1, by simp, hP⟩, ⟨0, (1, 0), rfl, by norm_num, Or.inl ?_⟩, ?_⟩
  · subst h1 h2
    exact hb
  · rw [f1]; rfl
  · simp [outerVertex, rotateRow, deg2rad]
    norm_num

/-- **C82 is false for large planets**: the planet reaches beyond the x limits exactly if its radius
exceeds that of the last ring by more than two. -/
theorem C82_false_planet (verts : List Pt) (codes : List C) (s : RSys ℝ)
    (hs : ∀ r ∈ s.rings, FiniteRing r) (l : RingObj ℝ) (d p : ℝ) (hl : s.rings.getLast? = some l)
    (hd : l.outer = .fin d) (hp : s.planet = .fin p) (x y : ℝ) (color : String) (ax : Axes C) :
    ∃ (ax' : Axes C) (xl xu : ℝ),
      plotSystem verts codes s (.float (.fin x)) (.float (.fin y)) (.str color) ax = (.ok (), ax') ∧
      .disc (.fin x) (.fin y) (.fin p) ∈ ax'.patches ∧ ax'.xlim = (.fin xl, .fin xu) ∧
      ((xl ≤ x - p ∧ x + p ≤ xu) ↔ p ≤ d + 2) := by
  obtain ⟨ps, h1, -, -⟩ := plot_ok verts codes s hs x y d l hl hd color ax
  refine ⟨_, _, _, h1, by simp [hp], rfl, ?_⟩
  constructor
  · rintro ⟨h, -⟩
    linarith
  · intro h
    exact ⟨by linarith, by linarith⟩

/-- Non-vacuity of C81 and C82: a well-formed system of two rings. -/
example : WellFormed (⟨.fin 1, .fin 10, .fin 20, [⟨.fin 1, .fin 2, .fin 0, .fin 10, .fin 20⟩,
    ⟨.fin 3, .fin 4, .fin (1/2), .fin 10, .fin 20⟩]⟩ : RSys ℝ) := by
  refine ⟨⟨10, 20, rfl, rfl, by norm_num⟩, ?_, by simp, by simp, ?_⟩
  · intro r hr
    simp only [List.mem_cons, List.not_mem_nil, or_false] at hr
    rcases hr with rfl | rfl
    · exact ⟨1, 2, 0, 10, 20, rfl, by norm_num⟩
    · exact ⟨3, 4, 1/2, 10, 20, rfl, by norm_num⟩
  · simp [lessEq_iff]
    norm_num

end
end Beyonce
