import Verif.NotebookData
import Verif.Props.Notebook
import Verif.Props.Printed
import Verif.Props.GetGradients
import Verif.Props.Rescale
import Verif.Props.Digits
import Verif.Props.GradientRounded
import Verif.Props.Recovery
import Verif.Props.RescaleFailed
import Verif.Props.Reanalysis
import Verif.Props.Solved
import Verif.Props.FitRounded

/-!
# C123: the measurements that the notebooks read back
-/

set_option linter.unusedSectionVars false

namespace Beyonce
open Spec Real

/-- What the notebooks read back of the measurements: their times, the corrected slopes over the transmission
changes, and the errors. -/
structure Spec.ReadBack (D V U : ℝ) (b : List (Measurement ℝ)) (out : Shallot.Gradients ℝ) : Prop where
  times : Notebook.measuredTimes (.fin D) out.positions = b.map (·.time)
  scaled : out.scaled = b.map fun q => (Notebook.corrected (.fin V) (.fin U) q.slope).div q.transmission
  errors : out.errors = b.map (·.error)

/-- The text is a decimal with two digits after the point, and within half a unit of the last one of `x`. -/
def Spec.ShowsValue (t : String) (x : XF ℝ) : Prop :=
  ∀ v, x = .fin v → IsDecimal 2 t ∧ |(readDecimal t : ℝ) - v| ≤ 1 / 200

/-- The lines of a table of the measurements. -/
def Spec.TableOf (b : List (Measurement ℝ)) (lines : List String) : Prop :=
  List.Forall₂ (fun q line => ∃ t m r, line = t ++ " & " ++ m ++ " & " ++ r ++ " \\\\" ∧
    ShowsValue t q.time ∧ ShowsValue m q.slope ∧ ShowsValue r q.transmission) b lines

/-- A gradient that holds a measurement. -/
structure HoldsRow (D o : ℝ) (q : Measurement ℝ) (g : GGrad ℝ) : Prop where
  position : g.position.num = q.time.neg.div (.fin D)
  measured : g.measured = some (.npFloat .w64 q.slope)
  error : g.error = some (.npFloat .w64 q.error)
  transmission : g.transmission = some (.npFloat .w64 q.transmission)
  orbital : ∃ v, g.orbital = some v ∧ IsNumber false v (.fin o)
  scaled : g.scaled = .ok (some ((q.slope.mul (.fin o)).div q.transmission))

theorem scaled_value (o : ℝ) (ho : 0 < o) (x r : XF ℝ) (hx : ¬ Less x (.fin 0)) (h0 : ¬ Less r (.fin 0))
    (h1 : ¬ Less (.fin 1) r) (h : XF.lt (.fin 1) (x.mul ((XF.fin o).mul ((XF.fin 1).div r))) = false) :
    x.mul ((XF.fin o).mul ((XF.fin 1).div r)) = (x.mul (.fin o)).div r := by
  rw [less_iff] at hx h0 h1
  cases r with
  | nan =>
    cases x with
    | ninf => simp at hx
    | _ => simp [XF.mul, XF.div, XF.infSign, ho]
  | pinf => simp at h1
  | ninf => simp at h0
  | fin r =>
    by_cases hr : r = 0
    · subst hr
      have e1 : (XF.fin (1 : ℝ)).div (.fin 0) = .pinf := by simp [XF.div, XF.infSign]
      have e2 : (XF.fin o).mul (.pinf) = .pinf := by simp [XF.mul, XF.infSign, ho]
      rw [e1, e2] at h ⊢
      cases x with
      | nan => rfl
      | pinf => simp [XF.mul] at h
      | ninf => simp at hx
      | fin x =>
        have hx : 0 ≤ x := by simpa using hx
        rcases hx.eq_or_lt with rfl | hx
        · simp [XF.mul, XF.div, XF.infSign]
        · simp [XF.mul, XF.infSign, hx] at h
    · have hr' : 0 < r := lt_of_le_of_ne (by simpa using h0) (Ne.symm hr)
      rw [XF.div_fin _ _ hr, XF.mul_fin] at h ⊢
      cases x with
      | nan => rfl
      | pinf => simp [XF.mul, XF.infSign, ho, hr'] at h
      | ninf => simp at hx
      | fin x =>
        rw [XF.mul_fin, XF.mul_fin, XF.div_fin _ _ hr]
        congr 1
        field_simp

/-- What `determine_mask` leaves in a gradient. -/
theorem holdsRow_of {D o : ℝ} (ho : 0 < o) {q : Measurement ℝ} {vo : PyVal ℝ} (hvo' : IsNumber false vo (.fin o))
    {g g' : GGrad ℝ} (hpos : g.position.num = q.time.neg.div (.fin D))
    (h : GGrad.determineMask (.npFloat .w64 q.slope) vo (.npFloat .w64 q.transmission) (.npFloat .w64 q.error) g =
      (.ok (), g')) : HoldsRow D o q g' := by
  have hvo := isNumber_num hvo'
  have e1 : ∀ x : XF ℝ, orOne (.npFloat .w64 x : PyVal ℝ) = .npFloat .w64 x := fun x => by simp [orOne]
  rcases determineMask_cases (.npFloat .w64 q.slope) vo (.npFloat .w64 q.transmission) (.npFloat .w64 q.error) g with
    ⟨-, e, h'⟩ | ⟨-, -, e, h'⟩ | ⟨-, -, -, e, h'⟩ | ⟨-, -, -, -, e, h'⟩ |
    ⟨h1, h2, h3, h4, ⟨e, -, h'⟩ | ⟨z, hz, ⟨hlt, h'⟩ | ⟨hlt, h'⟩⟩⟩
  all_goals rw [h'] at h
  all_goals first | (simp at h; done) | skip
  have hg : _ = g' := congrArg Prod.snd h
  subst hg
  rw [e1] at hz h3
  have hz' : z = (XF.fin 1).div q.transmission := by
    have : oneOver (.npFloat .w64 q.transmission : PyVal ℝ) = .ok ((XF.fin 1).div q.transmission) := rfl
    rw [this] at hz
    exact (Except.ok.inj hz).symm
  subst hz'
  refine ⟨hpos, rfl, ?_, ?_, ⟨vo, rfl, hvo'⟩, ?_⟩
  · simp only [stored, e1]
  · simp only [stored, e1]
  · have hs := scaled_stored g (.npFloat .w64 q.slope) vo (.npFloat .w64 q.transmission) (.npFloat .w64 q.error)
    rw [e1] at hs
    have hs' : (stored g (.npFloat .w64 q.slope) vo (.npFloat .w64 q.transmission) (.npFloat .w64 q.error)).scaled =
        .ok (some (q.slope.mul (vo.num.mul ((XF.fin 1).div q.transmission)))) := by
      rw [hs]
      change (if XF.lt (.fin 1) (q.slope.mul (vo.num.mul ((XF.fin 1).div q.transmission))) = true then _ else _) = _
      rw [if_neg]
      · rfl
      · rw [show XF.lt (.fin 1) (q.slope.mul (vo.num.mul ((XF.fin 1).div q.transmission))) = false from hlt]
        simp
    obtain ⟨x, n1, l1⟩ := h1
    obtain ⟨r, n2, l2, l3⟩ := h3
    have hx := isNumber_num n1
    have hr := isNumber_num n2
    change q.slope = x at hx
    change q.transmission = r at hr
    subst hx
    subst hr
    change XF.lt (.fin 1) (q.slope.mul (vo.num.mul ((XF.fin 1).div q.transmission))) = false at hlt
    rw [hvo] at hlt hs'
    rw [scaled_value o ho _ _ l1 l2 l3 hlt] at hs'
    exact hs'

theorem times_back (D : ℝ) (hD : 0 < D) (t : XF ℝ) : (t.neg.div (.fin D)).neg.mul (.fin D) = t := by
  cases t with
  | nan => rfl
  | pinf => simp [XF.neg, XF.div, XF.mul, XF.infSign, hD, not_lt.2 hD.le]
  | ninf => simp [XF.neg, XF.div, XF.mul, XF.infSign, hD, not_lt.2 hD.le]
  | fin t =>
    rw [XF.neg_fin, XF.div_fin _ _ hD.ne', XF.neg_fin, XF.mul_fin]
    congr 1
    field_simp

theorem corrected_eq (V U : ℝ) (hV : 0 < V) (hU0 : 0 ≤ U) (hU : U ≤ 1) (σ : XF ℝ) :
    Notebook.corrected (.fin V) (.fin U) σ = σ.mul (.fin (orbitalFactor V U)) := by
  have h1 := corrected_fin V U 1 hV hU0 hU
  rw [one_mul] at h1
  unfold Notebook.corrected at h1 ⊢
  simp only at h1 ⊢
  generalize (XF.div XF.pi (XF.fin V)).mul _ = c at h1 ⊢
  have hc : c = .fin (orbitalFactor V U) := by
    cases c with
    | fin c => rw [XF.mul_fin, mul_one] at h1; exact h1
    | nan => cases h1
    | pinf => simp [XF.mul, XF.infSign] at h1
    | ninf =>
      norm_num [XF.mul, XF.infSign] at h1
      cases h1
  rw [hc]
  cases σ with
  | fin x => rw [XF.mul_fin, XF.mul_fin, mul_comm]
  | nan => rfl
  | pinf => rfl
  | ninf => rfl

theorem fixed_shows (x : XF ℝ) : ShowsValue (fixed 2 x) x := by
  rintro v rfl
  refine ⟨C100_digits 2 v, (C100_near 2 v).trans (by norm_num)⟩

/-- Gradients that hold the measurements are read back and printed. -/
theorem read_back {D V U : ℝ} (hD : 0 < D) (hV : 0 < V) (hU0 : 0 ≤ U) (hU : U ≤ 1) {b : List (Measurement ℝ)}
    {gs : List (GGrad ℝ)} (h : List.Forall₂ (HoldsRow D (orbitalFactor V U)) b gs) (s : Shallot ℝ) (hs : Sound s)
    (hg : s.gradients = some gs) (m : Bool) :
    (∃ out s', Shallot.getGradients (.bool m) (.bool true) s = (.ok out, s') ∧ ReadBack D V U b out) ∧
    ∃ lines, Notebook.table (.fin D) s = .ok lines ∧ TableOf b lines := by
  have hlen := h.length_eq
  have hget : ∀ (k : ℕ) (q : Measurement ℝ) (g : GGrad ℝ), b[k]? = some q → gs[k]? = some g →
      HoldsRow D (orbitalFactor V U) q g := by
    intro k q g hq hg
    obtain ⟨h1, rfl⟩ := List.getElem?_eq_some_iff.1 hq
    obtain ⟨h2, rfl⟩ := List.getElem?_eq_some_iff.1 hg
    exact (List.forall₂_iff_get.1 h).2 k h1 h2
  constructor
  · have hf : ∀ g ∈ gs, g.scaled = .ok ((fun g : GGrad ℝ => match g.scaled with
        | .ok z => z
        | .error _ => none) g) := by
      intro g hgm
      obtain ⟨k, hk, rfl⟩ := List.mem_iff_getElem.1 hgm
      have := (hget k b[k] gs[k] (List.getElem?_eq_getElem _) (List.getElem?_eq_getElem hk)).scaled
      simp only [this]
    obtain ⟨out, s', e, l1, l2, l3, -, hall⟩ := C89_values s hs gs hg m true _ hf
    refine ⟨out, s', e, ?_, ?_, ?_⟩
    · refine List.ext_getElem? fun k => ?_
      unfold Notebook.measuredTimes
      rw [List.getElem?_map, List.getElem?_map]
      by_cases hk : k < gs.length
      · have hk' : k < b.length := by omega
        have hr := hget k b[k] gs[k] (List.getElem?_eq_getElem hk') (List.getElem?_eq_getElem hk)
        rw [(hall k gs[k] (List.getElem?_eq_getElem hk)).1, hr.position, List.getElem?_eq_getElem hk']
        simp only [Option.map_some]
        rw [times_back D hD]
      · rw [List.getElem?_eq_none (by omega), List.getElem?_eq_none (by omega)]
        rfl
    · refine List.ext_getElem? fun k => ?_
      rw [List.getElem?_map]
      by_cases hk : k < gs.length
      · have hk' : k < b.length := by omega
        have hr := hget k b[k] gs[k] (List.getElem?_eq_getElem hk') (List.getElem?_eq_getElem hk)
        rw [(hall k gs[k] (List.getElem?_eq_getElem hk)).2.1, List.getElem?_eq_getElem hk']
        simp only [hr.scaled, Option.getD_some, Option.map_some]
        rw [corrected_eq V U hV hU0 hU]
      · rw [List.getElem?_eq_none (by omega), List.getElem?_eq_none (by omega)]
        rfl
    · refine List.ext_getElem? fun k => ?_
      rw [List.getElem?_map]
      by_cases hk : k < gs.length
      · have hk' : k < b.length := by omega
        have hr := hget k b[k] gs[k] (List.getElem?_eq_getElem hk') (List.getElem?_eq_getElem hk)
        rw [(hall k gs[k] (List.getElem?_eq_getElem hk)).2.2.2.1 _ hr.error, List.getElem?_eq_getElem hk']
        rfl
      · rw [List.getElem?_eq_none (by omega), List.getElem?_eq_none (by omega)]
        rfl
  · unfold Notebook.table
    rw [hg]
    simp only
    clear hget hlen hg
    induction h with
    | nil => exact ⟨[], rfl, .nil⟩
    | @cons q g _ _ hr _ ih =>
      obtain ⟨lines, e, hl⟩ := ih
      have hline : Notebook.tableLine (.fin D) g = .ok (fixed 2 q.time ++ " & " ++ fixed 2 q.slope ++ " & " ++
          fixed 2 q.transmission ++ " \\\\") := by
        unfold Notebook.tableLine
        rw [hr.measured, hr.transmission, hr.position, times_back D hD]
        rfl
      refine ⟨_ :: lines, ?_, .cons ⟨_, _, _, rfl, fixed_shows _, fixed_shows _, fixed_shows _⟩ hl⟩
      rw [List.mapM_cons, hline, ok_bind, e, ok_bind]
      rfl

/-- `set_eclipse_parameters` and `add_gradients`. -/
theorem analysed_rows (vD vV vU : PyVal ℝ) (D V U : ℝ) (nD : IsNumber false vD (.fin D))
    (nV : IsNumber false vV (.fin V)) (nU : IsNumber false vU (.fin U)) (hV : 0 < V) (s s' : Shallot ℝ)
    (b : List (Measurement ℝ))
    (h : Notebook.analysed vD vV vU (column (b.map (·.time))) (column (b.map (·.slope)))
      (column (b.map (·.error))) (column (b.map (·.transmission))) s = (.ok (), s')) :
    0 ≤ U ∧ U ≤ 1 ∧ ∃ gs, s'.gradients = some gs ∧ List.Forall₂ (HoldsRow D (orbitalFactor V U)) b gs := by
  unfold Notebook.analysed at h
  rcases bind_cases (Shallot.setEclipseParameters vD vV vU) (fun _ => do
      Shallot.addGradients (column (b.map (·.time))) (column (b.map (·.slope))) (column (b.map (·.error)))
        (column (b.map (·.transmission)))
      Shallot.determineFit) s with ⟨⟨⟩, s₁, h₁, e⟩ | ⟨er, s₁, h₁, e⟩
  swap
  · rw [e] at h; cases h
  rw [e] at h
  obtain ⟨hval, hs₁g, hs₁d, hs₁v, hs₁u⟩ : Fraction vU ∧ s₁.gradients = none ∧ s₁.eclipseDuration = some vD ∧
      s₁.velocity = some vV ∧ s₁.limb = some vU := by
    unfold Shallot.setEclipseParameters at h₁
    rcases storeEclipse_cases vD vV vU s with ⟨-, -, h3, h'⟩ | ⟨-, -, -, er, h'⟩ | ⟨-, -, er, h'⟩ | ⟨-, er, h'⟩
    · rw [bind_ok _ _ _ _ _ h', Meth.get_bind] at h₁
      simp only at h₁
      obtain ⟨t, ht⟩ : ∃ t : Shallot ℝ,
          t = { s with eclipseDuration := some vD, velocity := some vV, limb := some vU } := ⟨_, rfl⟩
      have hg' : t.gradients = s.gradients := by rw [ht]
      have hd' : t.eclipseDuration = some vD := by rw [ht]
      have hv' : t.velocity = some vV := by rw [ht]
      have hu' : t.limb = some vU := by rw [ht]
      rw [← ht] at h₁
      cases hg : s.gradients with
      | none =>
        rw [hg] at h₁
        cases h₁
        exact ⟨h3, hg'.trans hg, hd', hv', hu'⟩
      | some l =>
        rw [hg] at h₁
        cases h₁
        exact ⟨h3, rfl, hd', hv', hu'⟩
    all_goals
      rw [bind_err _ _ _ _ _ h'] at h₁
      cases h₁
  obtain ⟨z, nz, z0, z1⟩ := hval
  obtain rfl := isNumber_unique nz nU
  have u0 : 0 ≤ U := by simpa [less_iff] using z0
  have u1 : U ≤ 1 := by simpa [less_iff] using z1
  refine ⟨u0, u1, ?_⟩
  have hready : s₁.ready = true := by
    unfold Shallot.ready
    rw [hs₁d, hs₁v, hs₁u]
    rfl
  rcases bind_cases (addCall b) (fun _ => Shallot.determineFit) s₁ with ⟨⟨⟩, s₂, h₂, e₂⟩ | ⟨er, s₂, h₂, e₂⟩
  swap
  · have h := e₂.symm.trans h
    cases h
  have h := e₂.symm.trans h
  obtain ⟨d, scale, k1, k2, k3, k4⟩ := (addCall_ok_iff b s₁ s₂ hready).1 h₂
  have hd : d = vD := by
    have := k1.eq
    rw [hs₁d] at this
    exact (Option.some.inj this).symm
  subst hd
  obtain ⟨scale', k5, k6⟩ := C60_grid s₁ vV vU V U hs₁v hs₁u nV nU hV u0 u1
  rw [k2] at k5
  cases k5
  have hgr : s'.gradients = s₂.gradients := by
    rcases determineFit_cases true s₂ with ⟨-, h'⟩ | ⟨gs, -, ⟨e, h', -⟩ | ⟨p', data, -, -, -, h'⟩⟩
    all_goals rw [h'] at h
    all_goals first | (cases h; rfl) | (cases h)
  refine ⟨b.map fun q => (gradientOf s₁ d scale q).2, ?_, ?_⟩
  · rw [hgr, k4, hs₁g]
    rfl
  · rw [List.forall₂_map_right_iff]
    refine List.forall₂_same.2 fun q hq => ?_
    obtain ⟨hpass, hok⟩ := k3 q hq
    have habs : q.slope.abs = q.slope := by
      have := hpass.slope
      rw [less_iff] at this
      cases hq : q.slope with
      | nan => rfl
      | pinf => rfl
      | ninf => rw [hq] at this; simp at this
      | fin x =>
        rw [hq] at this
        rw [XF.abs_fin, abs_of_nonneg (by simpa using this)]
    have hm := gradientOf_eq hok
    rw [habs] at hm
    refine holdsRow_of (orbitalFactor_pos u0 u1 hV) k6 ?_ hm
    rw [← isNumber_num nD]
    rfl


theorem analysed_sound (vD vV vU t σ e r : PyVal ℝ) (s s' : Shallot ℝ) (hs : Sound s) (o : Except Err Unit)
    (h : Notebook.analysed vD vV vU t σ e r s = (o, s')) : Sound s' := by
  have : Moves (Inv Sound) (Notebook.analysed vD vV vU t σ e r) := by
    unfold Notebook.analysed
    refine Moves.bind (Inv.pre (S := Shallot ℝ) Sound) (setEclipse_sound _ _ _) fun _ => ?_
    refine Moves.bind (Inv.pre (S := Shallot ℝ) Sound) (addGradients_sound _ _ _ _) fun _ => ?_
    exact determineFit_sound _
  have := this s hs
  rw [h] at this
  exact this

section
variable (vD vV vU : PyVal ℝ) (D V U : ℝ) (nD : IsNumber false vD (.fin D)) (nV : IsNumber false vV (.fin V))
    (nU : IsNumber false vU (.fin U)) (hD : 0 < D) (hV : 0 < V) (s s' : Shallot ℝ) (hs : Sound s)
    (b : List (Measurement ℝ))
    (h : Notebook.analysed vD vV vU (column (b.map (·.time))) (column (b.map (·.slope)))
      (column (b.map (·.error))) (column (b.map (·.transmission))) s = (.ok (), s'))
include nD nV nU hD hV hs h

/-- **C123** After the cell that analyses the measurements, on whatever grid, with or without gradients of
before, `get_gradients` gives them back, in their order: the times, the slopes as the notebooks correct them over
the transmission changes, and the errors.  The table that is printed has one line for each of them. -/
theorem C123_partial (m : Bool) :
    (∃ out s'', Shallot.getGradients (.bool m) (.bool true) s' = (.ok out, s'') ∧ ReadBack D V U b out) ∧
    ∃ lines, Notebook.table (.fin D) s' = .ok lines ∧ TableOf b lines := by
  obtain ⟨u0, u1, gs, hg, hrows⟩ := analysed_rows vD vV vU D V U nD nV nU hV s s' b h
  exact read_back hD hV u0 u1 hrows s' (analysed_sound _ _ _ _ _ _ _ s s' hs _ h) hg m

/-- **C123** The same after the cell that gives them other transmission changes: what is read back and printed is
as if they had been added with these. -/
theorem C123_rescaled (rs : List (XF ℝ)) (t : Shallot ℝ)
    (h₁ : Shallot.updateScaling .none .none (column rs) s' = (.ok (), t)) :
    rs.length = b.length ∧
      (∃ out s'', Notebook.rescaledGradients (column rs) s' = (.ok out, s'') ∧
        ReadBack D V U (List.zipWith (fun q x => { q with transmission := x }) b rs) out) ∧
      ∃ lines, Notebook.table (.fin D) t = .ok lines ∧
        TableOf (List.zipWith (fun q x => { q with transmission := x }) b rs) lines := by
  obtain ⟨u0, u1, gs, hg, hrows⟩ := analysed_rows vD vV vU D V U nD nV nU hV s s' b h
  have hs' := analysed_sound _ _ _ _ _ _ _ s s' hs _ h
  have ht := updateScaling_sound .none .none (column rs) s' hs'
  rw [h₁] at ht
  obtain ⟨gs₀, gs', k1, k2, k3, k4⟩ := C50_as_new _ _ _ s' t h₁ (Or.inr (Or.inr (by simp [column])))
  rw [hg] at k1
  cases k1
  have hch := ((C118_succeeds_iff .none .none (column rs) s' gs hg (Or.inr (Or.inr (by simp [column])))).1
    ⟨t, h₁⟩).1
  have hlen : rs.length = gs.length := by
    rcases hch with h | ⟨a, ha, -, h, -⟩
    · cases h
    · cases ha
      simpa using h
  have hrows' : List.Forall₂ (HoldsRow D (orbitalFactor V U))
      (List.zipWith (fun q x => { q with transmission := x }) b rs) gs' := by
    have hbl := hrows.length_eq
    refine List.forall₂_iff_get.2 ⟨by simp [hlen, k2, hbl], fun k h1 h2 => ?_⟩
    have hkb : k < b.length := by simp only [List.length_zipWith] at h1; omega
    have hkr : k < rs.length := by simp only [List.length_zipWith] at h1; omega
    have hkg : k < gs.length := by omega
    obtain ⟨scale, tr, q1, -, -, q4, q5⟩ := k4 k gs[k] gs'[k] (List.getElem?_eq_getElem hkg)
      (List.getElem?_eq_getElem (by omega))
    have hr := (List.forall₂_iff_get.1 hrows).2 k hkb hkg
    simp only [List.get_eq_getElem] at hr ⊢
    obtain ⟨a, ha, -, htr⟩ := q4 (by simp [column])
    cases ha
    have hm := q5 gs[k] ⟨rfl, rfl⟩
    obtain ⟨vo, ho1, ho2⟩ := hr.orbital
    have hsc : scale = vo := by
      rw [q1 ⟨rfl, rfl⟩, ho1]
      rfl
    have htr' : tr = .npFloat .w64 rs[k] := by
      rw [htr]
      simp [List.getD_eq_getElem?_getD, List.getElem?_eq_getElem hkr]
    rw [hr.measured, hr.error, hsc, htr'] at hm
    rw [List.getElem_zipWith]
    exact holdsRow_of (orbitalFactor_pos u0 u1 hV) ho2 hr.position hm
  obtain ⟨⟨out', s₃, e1, e2⟩, lines, e3, e4⟩ := read_back hD hV u0 u1 hrows' t ht (by rw [k3]) true
  refine ⟨by rw [hlen, hrows.length_eq], ⟨out', s₃, ?_, e2⟩, lines, e3, e4⟩
  unfold Notebook.rescaledGradients
  rw [bind_ok _ _ _ _ _ h₁]
  exact e1

/-- **C123 is false of the error bars** The errors that are drawn at the rescaled gradients are those of the
slopes: a bar is to its point as the error is to the slope only for measurements whose scaling does nothing. -/
theorem C123_false_bars (m : Bool) (out : Shallot.Gradients ℝ) (s'' : Shallot ℝ)
    (h' : Shallot.getGradients (.bool m) (.bool true) s' = (.ok out, s'')) (k : ℕ) (τ σ ε ρ : ℝ) (hσ : 0 < σ)
    (hε : 0 < ε) (hρ : 0 < ρ) (hk : b[k]? = some ⟨.fin τ, .fin σ, .fin ε, .fin ρ⟩) :
    ∃ bar point : ℝ, out.errors[k]? = some (.fin bar) ∧ out.scaled[k]? = some (.fin point) ∧
      (bar / point = ε / σ ↔ ρ = orbitalFactor V U) := by
  obtain ⟨u0, u1, -⟩ := analysed_rows vD vV vU D V U nD nV nU hV s s' b h
  obtain ⟨⟨out', s₃, e1, e2⟩, -⟩ := C123_partial vD vV vU D V U nD nV nU hD hV s s' hs b h m
  rw [h'] at e1
  cases e1
  have ho := orbitalFactor_pos u0 u1 hV
  refine ⟨ε, σ * orbitalFactor V U / ρ, ?_, ?_, ?_⟩
  · rw [e2.errors, List.getElem?_map, hk]
    rfl
  · rw [e2.scaled, List.getElem?_map, hk]
    simp only [Option.map_some]
    rw [corrected_eq V U hV u0 u1, XF.mul_fin, XF.div_fin _ _ hρ.ne']
  · rw [div_eq_div_iff (by positivity) hσ.ne']
    constructor
    · intro h
      field_simp at h
      linarith
    · rintro rfl
      field_simp

end

/-- **C123** Columns: the rows of the file, with the times moved to the centre of the eclipse and the slopes
without their signs. -/
theorem C123_columns (shift : XF ℝ) (rows : List (XF ℝ × XF ℝ)) :
    (Notebook.loadGradients shift rows).1.length = rows.length ∧
    (Notebook.loadGradients shift rows).2.length = rows.length ∧
    ∀ (k : ℕ) (t σ c : ℝ), rows[k]? = some (.fin t, .fin σ) → shift = .fin c →
      (Notebook.loadGradients shift rows).1[k]? = some (.fin (t + 54222 - c)) ∧
      (Notebook.loadGradients shift rows).2[k]? = some (.fin |σ|) := by
  unfold Notebook.loadGradients
  refine ⟨by simp, by simp, ?_⟩
  rintro k t σ c hk rfl
  simp only [List.getElem?_map, hk, Option.map_some, XF.abs_fin, and_true]
  rw [XF.sub_fin, XF.add_fin]
  congr 2
  ring

/-- **C123** The light curve: the rows of the file, with the times moved to the centre of the eclipse. -/
theorem C123_photometry (c : ℝ) (rows : List (Notebook.Photometry ℝ)) :
    (Notebook.loadPhotometry (.fin c) rows).length = rows.length ∧
    ∀ (k : ℕ) (t : ℝ) (f e : XF ℝ), rows[k]? = some ⟨.fin t, f, e⟩ →
      (Notebook.loadPhotometry (.fin c) rows)[k]? = some ⟨.fin (t - c), f, e⟩ := by
  unfold Notebook.loadPhotometry
  refine ⟨by simp, fun k t f e hk => ?_⟩
  rw [List.getElem?_map, hk]
  simp [XF.sub_fin]

/-- **C123 is false of the second notebook's light curve** Its points have their own errors exactly if the two
light curves have the same errors: those of the first are taken for both. -/
theorem C123_false_errors (wasp kelt : List (Notebook.Photometry ℝ)) :
    (Notebook.lightCurve wasp kelt).1 = (wasp ++ kelt).map (·.time) ∧
    (Notebook.lightCurve wasp kelt).2.1 = (wasp ++ kelt).map (·.flux) ∧
    ((Notebook.lightCurve wasp kelt).2.2 = (wasp ++ kelt).map (·.error) ↔
      kelt.map (·.error) = wasp.map (·.error)) := by
  refine ⟨rfl, rfl, ?_⟩
  change List.map _ (wasp ++ wasp) = _ ↔ _
  rw [List.map_append, List.map_append, List.append_cancel_left_eq]
  exact eq_comm

/-! ## A grid -/

/-- One measurement is analysed with the throw-away grid of C72, and then rescaled. -/
theorem throwAway_analysed : ∃ s₀ s' t : Shallot ℝ, Sound s₀ ∧
    Notebook.analysed (.int 1) (.int 1) (.int 0) (column ([probe (1 / 4) (1 / 4) 1].map (·.time)))
      (column ([probe (1 / 4) (1 / 4) 1].map (·.slope))) (column ([probe (1 / 4) (1 / 4) 1].map (·.error)))
      (column ([probe (1 / 4) (1 / 4) 1].map (·.transmission))) s₀ = (.ok (), s') ∧
    Shallot.updateScaling .none .none (column [.fin (1 / 2)]) s' = (.ok (), t) := by
  obtain ⟨s₀, s, h0, hs0, -, -, -, hs, hgs, hr, hd, ⟨k, hk, hk2, ho⟩, -, hg, hf, -, -⟩ := throwAway_axis_from
  obtain ⟨z, d, h1, h2⟩ := throwAway_grid
  rw [h1] at h0
  cases h0
  have hz := sound_complete h2
  have hset : Shallot.setEclipseParameters (.int 1) (.int 1) (.int 0) s₀ = (.ok (), s) := by
    refine Prod.ext ?_ hs0.symm
    rw [setEclipse_result (.int 1) (.int 1) (.int 0) s₀ { s₀ with gradients := none, gradientFit := none }]
    rw [(C49_partial { s₀ with gradients := none, gradientFit := none } (fun _ => rfl) (.int 1) (.int 1) (.int 0)).1
      ⟨⟨_, int_isNumber 1, by rw [less_iff]; simp⟩, ⟨_, int_isNumber 1, by rw [less_iff]; simp⟩,
        ⟨_, int_isNumber 0, by rw [less_iff]; simp, by rw [less_iff]; simp⟩⟩]
  obtain ⟨hp, g, hg1, -, -, hg4, hg5⟩ := probe_ok s k (1 / 4) (1 / 4) 1 hk hk2 (by norm_num) (by norm_num) (by norm_num)
  obtain ⟨s₁, hadd⟩ := addCalls_of [[probe (1 / 4) (1 / 4) 1]] s hr _ _ hd ho (by
    intro q hq
    have : q = probe (1 / 4) (1 / 4) 1 := by simpa using hq
    rw [this, hg1]
    exact ⟨hp, rfl⟩)
  have hadd' : addCall [probe (1 / 4) (1 / 4) 1] s = (.ok (), s₁) := by
    have e : addCalls [[probe (1 / 4) (1 / 4) 1]] s = addCall [probe (1 / 4) (1 / 4) 1] s := by
      unfold addCalls
      rcases hx : addCall [probe (1 / 4) (1 / 4) 1] s with ⟨e | ⟨⟩, t⟩
      · rw [bind_err _ _ _ _ _ hx]
      · rw [bind_ok _ _ _ _ _ hx]
        rfl
    rw [← e]
    exact hadd
  have hgr : s₁.gradients = some [g] := by
    obtain ⟨d, scale, hd', ho', -, he'⟩ := addCalls_ok _ s s₁ hr (by simp) hadd
    have hdd : d = .int 1 := by
      have := hd'.eq
      rw [hd.eq] at this
      exact (Option.some.inj this).symm
    subst hdd
    rw [ho] at ho'
    cases ho'
    rw [he', hg]
    generalize probe (1 / 4) (1 / 4) 1 = q at hg1
    simp [hg1]
  obtain ⟨s₂, hfit, hgr₂⟩ : ∃ s₂, Shallot.determineFit true s₁ = (.ok (), s₂) ∧ s₂.gradients = some [g] := by
    rcases determineFit_cases true s₁ with ⟨h, -⟩ | ⟨gs, hg', ⟨e, -, h⟩ | ⟨p, data, -, -, -, h⟩⟩
    · rw [hgr] at h; cases h
    · rw [hgr] at hg'
      cases hg'
      unfold Shallot.fitLoop Shallot.fitWeight Shallot.fitScaled at h
      rw [hg4, hg5] at h
      cases h
    · exact ⟨_, h, hgr⟩
  have hall : Notebook.analysed (.int 1) (.int 1) (.int 0) (column ([probe (1 / 4) (1 / 4) 1].map (·.time)))
      (column ([probe (1 / 4) (1 / 4) 1].map (·.slope))) (column ([probe (1 / 4) (1 / 4) 1].map (·.error)))
      (column ([probe (1 / 4) (1 / 4) 1].map (·.transmission))) s₀ = (.ok (), s₂) := by
    unfold Notebook.analysed
    rw [bind_ok _ _ _ _ _ hset]
    refine (bind_ok _ _ _ _ _ (show Shallot.addGradients _ _ _ _ s = (.ok (), s₁) from hadd')).trans hfit
  have hs₂ := analysed_sound _ _ _ _ _ _ _ s₀ s₂ hz _ hall
  have n1 : IsNumber false (PyVal.int 1 : PyVal ℝ) (.fin 1) := by simpa using int_isNumber (K := ℝ) 1
  have n0 : IsNumber false (PyVal.int 0 : PyVal ℝ) (.fin 0) := by simpa using int_isNumber (K := ℝ) 0
  obtain ⟨u0, u1, gs, hgs', hrows⟩ := analysed_rows _ _ _ 1 1 0 n1 n1 n0 one_pos s₀ s₂ _ hall
  rw [hgr₂] at hgs'
  cases hgs'
  obtain ⟨hrow, -⟩ := List.forall₂_cons.1 hrows
  obtain ⟨vo, ho1, ho2⟩ := hrow.orbital
  have hk' : orbitalFactor 1 0 = k := by
    have h5 := hrow.scaled
    rw [hg5] at h5
    have h5 := Option.some.inj (Except.ok.inj h5)
    simp only [probe] at h5
    rw [XF.mul_fin, XF.div_fin _ _ one_ne_zero] at h5
    have := XF.fin.inj h5
    linarith
  have hup : ∃ t, Shallot.updateScaling .none .none (column [.fin (1 / 2)]) s₂ = (.ok (), t) := by
    refine (C118_succeeds_iff _ _ _ s₂ [g] hgr₂ (Or.inr (Or.inr (by simp [column])))).2 ⟨?_, ?_⟩
    · refine Or.inr ⟨_, rfl, rfl, rfl, ?_⟩
      intro x hx
      have : x = .fin (1 / 2) := by simpa using hx
      subst this
      rw [less_iff, less_iff]
      constructor <;> norm_num [XF.lt]
    · intro j g' hj
      have hj0 : j = 0 ∧ g' = g := by
        cases j with
        | zero => simpa using hj.symm
        | succ j => simp at hj
      obtain ⟨rfl, rfl⟩ := hj0
      obtain ⟨g₂, hg₂⟩ := (C34_succeeds_iff (.npFloat .w64 (.fin (1 / 4))) vo (.npFloat .w64 (.fin (1 / 2)))
        (.npFloat .w64 (.fin 1)) g' (1 / 4) k (1 / 2)
        (Or.inr ⟨rfl, .npFloat _ _⟩) (hk' ▸ ho2)
        (Or.inr (Or.inr ⟨rfl, .npFloat _ _⟩)) (by norm_num)).2
        ⟨by norm_num, hk.le, by norm_num, ⟨.fin 1, Or.inr (Or.inr ⟨rfl, .npFloat _ _⟩), by
          rw [less_iff]; simp⟩, by linarith⟩
      refine ⟨vo, .npFloat .w64 (.fin (1 / 2)), g₂, ⟨?_, ?_, ?_, ?_⟩, ?_⟩
      · intro _
        rw [ho1]
        rfl
      · rintro (h | h) <;> exact absurd rfl h
      · intro h
        cases h
      · rintro a ⟨⟩
        rfl
      · rw [hrow.measured, hrow.error]
        exact hg₂
  obtain ⟨t, ht⟩ := hup
  exact ⟨s₀, s₂, t, hz, hall, ht⟩

/-- The hypotheses of `C123_partial` and of `C123_rescaled` are met: of the slope `1 / 4` a quarter of the scale `f` is
read back, and half of it after the rescaling. -/
example : ∃ (f : ℝ) (s' : Shallot ℝ) (out out' : Shallot.Gradients ℝ) (t t' : Shallot ℝ), 0 < f ∧
    Shallot.getGradients (.bool true) (.bool true) s' = (.ok out, t) ∧ out.scaled = [.fin (f / 4)] ∧
    Notebook.measuredTimes (.fin 1) out.positions = [.fin (1 / 4)] ∧
    Notebook.rescaledGradients (column [.fin (1 / 2)]) s' = (.ok out', t') ∧ out'.scaled = [.fin (f / 2)] := by
  obtain ⟨s₀, s', t, hs, h, h'⟩ := throwAway_analysed
  have n1 : IsNumber false (PyVal.int 1 : PyVal ℝ) (.fin 1) := by simpa using int_isNumber (K := ℝ) 1
  have n0 : IsNumber false (PyVal.int 0 : PyVal ℝ) (.fin 0) := by simpa using int_isNumber (K := ℝ) 0
  obtain ⟨⟨out, t₁, e1, e2⟩, -⟩ := C123_partial _ _ _ 1 1 0 n1 n1 n0 one_pos one_pos s₀ s' hs _ h true
  obtain ⟨-, ⟨out', t₂, e3, e4⟩, -⟩ := C123_rescaled _ _ _ 1 1 0 n1 n1 n0 one_pos one_pos s₀ s' hs _ h _ t h'
  refine ⟨orbitalFactor 1 0, s', out, out', t₁, t₂, orbitalFactor_pos le_rfl zero_le_one one_pos, e1, ?_, ?_, e3, ?_⟩
  · rw [e2.scaled]
    simp only [List.map_cons, List.map_nil, probe]
    rw [corrected_eq 1 0 one_pos le_rfl zero_le_one, XF.mul_fin, XF.div_fin _ _ one_ne_zero]
    congr 2
    ring
  · rw [e2.times]
    simp [probe]
  · rw [e4.scaled]
    simp only [List.zipWith_cons_cons, List.zipWith_nil_left, List.map_cons, List.map_nil, probe]
    rw [corrected_eq 1 0 one_pos le_rfl zero_le_one, XF.mul_fin, XF.div_fin _ _ (by norm_num)]
    congr 2
    ring

/-- … and with this measurement the error bars are out of scale. -/
theorem C123_false_bars_witness : ∃ (s' t : Shallot ℝ) (out : Shallot.Gradients ℝ) (bar point : ℝ), Sound s' ∧
    Shallot.getGradients (.bool true) (.bool true) s' = (.ok out, t) ∧
    out.errors = [.fin bar] ∧ out.scaled = [.fin point] ∧ bar / point ≠ 1 / (1 / 4) := by
  obtain ⟨s₀, s', t, hs, h, -⟩ := throwAway_analysed
  have n1 : IsNumber false (PyVal.int 1 : PyVal ℝ) (.fin 1) := by simpa using int_isNumber (K := ℝ) 1
  have n0 : IsNumber false (PyVal.int 0 : PyVal ℝ) (.fin 0) := by simpa using int_isNumber (K := ℝ) 0
  obtain ⟨⟨out, t₁, e1, e2⟩, -⟩ := C123_partial _ _ _ 1 1 0 n1 n1 n0 one_pos one_pos s₀ s' hs _ h true
  obtain ⟨bar, point, b1, b2, b3⟩ := C123_false_bars _ _ _ 1 1 0 n1 n1 n0 one_pos one_pos s₀ s' hs _ h true out t₁ e1
    0 (1 / 4) (1 / 4) 1 1 (by norm_num) one_pos one_pos rfl
  refine ⟨s', t₁, out, bar, point, analysed_sound _ _ _ _ _ _ _ s₀ s' hs _ h, e1, ?_, ?_, ?_⟩
  · rw [e2.errors] at b1 ⊢
    simpa using b1
  · rw [e2.scaled] at b2 ⊢
    simpa using b2
  · intro hb
    have := b3.1 hb
    have hp := Real.pi_gt_three
    norm_num [orbitalFactor] at this
    linarith

/-! ## In floating point -/

/-- **C123, in floating point** The time that is read back is within two roundings of the time. -/
theorem C123_rounded (L : FloatLib ℝ) (u : ℝ) (hu0 : 0 ≤ u) (hr : Rounds L.rnd u) (t D : ℝ) (hD : 0 < D) :
    ∃ τ : ℝ, Notebook.timeBack L (.fin t) (.fin D) = .fin τ ∧ |τ - t| ≤ (2 * u + u ^ 2) * |t| ∧
      IsDecimal 2 (fixed 2 (Notebook.timeBack L (.fin t) (.fin D))) ∧
      |(readDecimal (fixed 2 (Notebook.timeBack L (.fin t) (.fin D))) : ℝ) - t| ≤
        1 / 200 + (2 * u + u ^ 2) * |t| := by
  have e : Notebook.timeBack L (.fin t) (.fin D) = .fin (L.rnd (-L.rnd (-t / D) * D)) := by
    unfold Notebook.timeBack GeometryRounded.position
    rw [XF.neg_fin, lib_div _ _ _ hD.ne', XF.neg_fin, lib_mul]
  have h1 := hr (-t / D)
  have h2 := hr (-L.rnd (-t / D) * D)
  have h3 : |-L.rnd (-t / D) * D - t| ≤ u * |t| := by
    have : -L.rnd (-t / D) * D - t = -(L.rnd (-t / D) - -t / D) * D := by field_simp; ring
    rw [this, abs_mul, abs_neg, abs_of_pos hD]
    calc |L.rnd (-t / D) - -t / D| * D ≤ u * |-t / D| * D := mul_le_mul_of_nonneg_right h1 hD.le
      _ = u * |t| := by rw [abs_div, abs_neg, abs_of_pos hD]; field_simp
  have h4 : |-L.rnd (-t / D) * D| ≤ (1 + u) * |t| := by
    have := abs_sub_abs_le_abs_sub (-L.rnd (-t / D) * D) t
    linarith
  have key : |L.rnd (-L.rnd (-t / D) * D) - t| ≤ (2 * u + u ^ 2) * |t| := by
    have h5 := abs_sub_le (L.rnd (-L.rnd (-t / D) * D)) (-L.rnd (-t / D) * D) t
    have h6 := mul_le_mul_of_nonneg_left h4 hu0
    nlinarith
  rw [e]
  refine ⟨_, rfl, key, C100_digits _ _, ?_⟩
  have h7 := C100_near (K := ℝ) 2 (L.rnd (-L.rnd (-t / D) * D))
  have h8 := abs_sub_le (readDecimal (fixed 2 (.fin (L.rnd (-L.rnd (-t / D) * D)))) : ℝ)
    (L.rnd (-L.rnd (-t / D) * D)) t
  have : (1 : ℝ) / (2 * 10 ^ 2) = 1 / 200 := by norm_num
  linarith

/-- Binary64 rounds like this. -/
example : ∃ τ : ℝ, Notebook.timeBack .double (.fin (29 / 8)) (.fin 7) = .fin τ ∧
    |τ - 29 / 8| ≤ (2 * (1 / 2 ^ 53) + (1 / 2 ^ 53) ^ 2) * |29 / 8| := by
  obtain ⟨τ, h1, h2, -⟩ := C123_rounded .double (1 / 2 ^ 53) (by positivity) double_rounds (29 / 8) 7 (by norm_num)
  exact ⟨τ, h1, h2⟩

/-- **C123 is false of the printed digits** In binary64, with an eclipse of 7 days, the time 3.625 is printed as
3.63 but its text is 3.62. -/
theorem C123_false_digits :
    (∀ L : FloatLib ℚ, L.rnd = toDouble → fixed 2 (Notebook.timeBack L (.fin (29 / 8)) (.fin 7)) = "3.63") ∧
    fixed 2 (.fin (29 / 8 : ℚ)) = "3.62" := by
  refine ⟨fun L hL => ?_, by decide +kernel⟩
  simp only [Notebook.timeBack, GeometryRounded.position, FloatLib.mul, FloatLib.div, hL]
  decide +kernel

end Beyonce
