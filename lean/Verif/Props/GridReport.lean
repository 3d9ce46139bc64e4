import Verif.Props.Report
import Verif.Props.Scheme
import Verif.Props.Measured
import Verif.Props.Disks
import Verif.Props.RoundTrip

/-!
# Properties C76, C78 – C80: printing grids
-/

set_option linter.unusedSectionVars false

namespace Beyonce
open Spec

section
variable {K : Type} [Field K] [LinearOrder K] [IsStrictOrderedRing K]

/-! ## C76: when a grid can be printed -/

/-- What the methods of a grid keep of the things that are printed: the limits of the properties of
`t`, and everything a gradient needs. -/
def printScheme (t : Shallot K) : Scheme K where
  cube c o := (c ≠ .gradientFit → o ≠ none) ∧ (c ≠ .gradientFit → c ≠ .diagnosticMap →
    ∀ p q, o = some p → t.prop c = some q → p.vmin = q.vmin ∧ p.vmax = q.vmax)
  grad g := Known g ∧ Limited g.prop

theorem getData_limits (v : PyVal K) (p : GProp K) :
    (GProp.getData v p).2.vmin = p.vmin ∧ (GProp.getData v p).2.vmax = p.vmax :=
  exec_limits (.getData v) p (by intro a b c n h; cases h)

theorem setMask_limits (v : PyVal K) (p : GProp K) :
    (GProp.setMask v p).2.vmin = p.vmin ∧ (GProp.setMask v p).2.vmax = p.vmax :=
  exec_limits (.setMask v) p (by intro a b c n h; cases h)

theorem nanWhere_limits (m : Mask) (p : GProp K) :
    (Shallot.nanWhere m p).2.vmin = p.vmin ∧ (Shallot.nanWhere m p).2.vmax = p.vmax := by
  unfold Shallot.nanWhere
  rw [Meth.get_bind]
  split_ifs
  · exact ⟨rfl, rfl⟩
  · exact ⟨rfl, rfl⟩

theorem printScheme_keep {t : Shallot K} {c : Cube} {p p' : GProp K}
    (h : (printScheme t).cube c (some p)) (h1 : p'.vmin = p.vmin) (h2 : p'.vmax = p.vmax) :
    (printScheme t).cube c (some p') := by
  refine ⟨fun _ => by simp, fun hc hd a q ha hq => ?_⟩
  cases ha
  rw [h1, h2]
  exact h.2 hc hd p q rfl hq

theorem printScheme_closed [RealFns K] (t : Shallot K) : (printScheme t).Closed where
  getData v c p h := printScheme_keep h (getData_limits v p).1 (getData_limits v p).2
  nanWhere m c p h := printScheme_keep h (nanWhere_limits m p).1 (nanWhere_limits m p).2
  eraseAt i c p h := printScheme_keep h rfl rfl
  setMask v c p h := printScheme_keep h (setMask_limits v p).1 (setMask_limits v p).2
  noFit := ⟨fun h => absurd rfl h, fun h => absurd rfl h⟩
  newFit d g p h := ⟨fun h => absurd rfl h, fun h => absurd rfl h⟩
  newMap d g p h := ⟨fun _ => by simp, fun _ h => absurd rfl h⟩
  gradGet v g h := by
    refine ⟨?_, exec_limited (.getData v) g.prop h.2⟩
    intro hm
    have := exec_mask (.getData v) g.prop (by intro w h; cases h)
    simp only [PropOp.exec] at this
    simp only [this] at hm
    exact h.1 hm
  gradMask a b c d g h := ⟨determineMask_known a b c d g h.1, determineMask_limited a b c d g h.2⟩
  gradNew _ x q _ h := by
    obtain ⟨p, h1, rfl, h2⟩ := grad_new_cases h
    exact ⟨fun h => absurd h2 h, new_limited h1⟩

variable [RealFns K]

/-- The three properties that are printed. -/
def Spec.printed : List Cube := [.diskRadius, .tilt, .inclination]

theorem gradientReports_ok (l : List (GGrad K)) :
    Prints (Shallot.gradientReports l) ↔ ∀ g ∈ l, Prints g.report := by
  induction l with
  | nil => exact ⟨fun _ _ hg => (List.not_mem_nil hg).elim, fun _ => ⟨_, rfl⟩⟩
  | cons g l ih =>
    unfold Shallot.gradientReports
    constructor
    · rintro ⟨r, hr⟩
      cases h1 : g.report with
      | error e => rw [h1, error_bind] at hr; cases hr
      | ok a =>
        rw [h1, ok_bind] at hr
        cases h2 : Shallot.gradientReports l with
        | error e => rw [h2, error_bind] at hr; cases hr
        | ok b =>
          intro g' hg'
          rcases List.mem_cons.1 hg' with rfl | hg'
          · exact ⟨_, h1⟩
          · exact ih.1 ⟨_, h2⟩ g' hg'
    · intro h
      obtain ⟨a, ha⟩ := h g List.mem_cons_self
      obtain ⟨b, hb⟩ := ih.2 fun g' hg' => h g' (List.mem_cons_of_mem _ hg')
      rw [ha, ok_bind, hb, ok_bind]
      exact ⟨_, rfl⟩

theorem rangeOf_ok (l : List (XF K)) (h : l ≠ []) :
    ∃ a b, l[0]? = some a ∧ l[l.length - 1]? = some b ∧ rangeOf l = .ok ⟨a, b, l.length⟩ := by
  have h0 : 0 < l.length := List.length_pos_iff.2 h
  refine ⟨l[0], l[l.length - 1], List.getElem?_eq_getElem h0, List.getElem?_eq_getElem (by omega), ?_⟩
  unfold rangeOf
  rw [List.head?_eq_getElem?, List.getLast?_eq_getElem?, List.getElem?_eq_getElem h0,
    List.getElem?_eq_getElem (by omega)]

/-- What printing the parameters gives. -/
theorem params_report (g : GridParams K) (h1 : g.dx.data ≠ []) (h2 : g.dy.data ≠ [])
    (h3 : g.rfArray.data ≠ []) : ∃ r, g.report = .ok r ∧
      g.dx.data[0]? = some r.dx.first ∧ g.dx.data[g.dx.data.length - 1]? = some r.dx.last ∧
      r.dx.count = g.dx.data.length ∧
      g.dy.data[0]? = some r.dy.first ∧ g.dy.data[g.dy.data.length - 1]? = some r.dy.last ∧
      r.dy.count = g.dy.data.length ∧
      g.rfArray.data[0]? = some r.maxRf ∧ r.countRf = g.rfArray.data.length ∧
      r.gridShape = g.gridShape := by
  obtain ⟨a, b, a1, a2, a3⟩ := rangeOf_ok _ h1
  obtain ⟨c, d, c1, c2, c3⟩ := rangeOf_ok _ h2
  obtain ⟨e, f, e1, e2, e3⟩ := rangeOf_ok _ h3
  refine ⟨⟨⟨a, b, g.dx.data.length⟩, ⟨c, d, g.dy.data.length⟩, e, g.rfArray.data.length,
    g.gridShape⟩, ?_, a1, a2, rfl, c1, c2, rfl, e1, rfl, rfl⟩
  unfold GridParams.report GridParams.getVectors
  simp only [a3, c3, e3]
  rfl

/-- Everything before the three properties can be printed. -/
theorem report_steps {s : Shallot K} (hs : Sound s) (hmap : s.diagnosticMap ≠ none)
    (h1 : s.params.dx.data ≠ []) (h2 : s.params.dy.data ≠ []) :
    ∃ w m r, s.combinedMask = .ok m ∧ s.params.report = .ok r ∧ s.report = (do
      let a ← s.diskRadius.report
      let b ← s.tilt.report
      let c ← s.inclination.report
      let gs ← Shallot.gradientReports (s.gradients.getD [])
      .ok ⟨r, a, b, c, gs, s.diagnostics.map Diagnostics.report, maskedPercentage m, w⟩) := by
  obtain ⟨p, hp⟩ := Option.ne_none_iff_exists'.1 hmap
  obtain ⟨m, hm, -⟩ := C38_union s hs
  have hrf : 0 < s.params.rf.data.length := List.length_pos_iff.2 hs.shaped.rf
  have hrfa : s.params.rfArray.data ≠ [] := by
    intro h
    have := hs.shaped.rfArray
    rw [h] at this
    simp only [List.length_nil] at this
    omega
  obtain ⟨r, hr, -⟩ := params_report s.params h1 h2 hrfa
  have hne : p.data.data ≠ [] := by
    have hl := (hs.props .diagnosticMap p hp).data.2
    rw [hs.shaped.grid] at hl
    simp only at hl
    intro h
    rw [h, List.length_nil] at hl
    have a1 : 0 < s.params.dy.data.length := List.length_pos_iff.2 h2
    have a2 : 0 < s.params.dx.data.length := List.length_pos_iff.2 h1
    have a3 : 0 < 2 * s.params.rf.data.length - 1 := by omega
    have := Nat.mul_pos (Nat.mul_pos a1 a2) a3
    omega
  refine ⟨(nanmax (p.data.data.map XF.abs)).getD .nan, m, r, hm, hr, ?_⟩
  unfold Shallot.report
  have hw : s.worstDeviation = .ok ((nanmax (p.data.data.map XF.abs)).getD .nan) := by
    unfold Shallot.worstDeviation
    rw [hp]
    simp only
    rw [if_neg hne]
  rw [hw, ok_bind, hm, ok_bind, hr, ok_bind]

/-- A grid can be printed exactly if its three properties and its gradients can. -/
theorem report_iff {s : Shallot K} (hs : Sound s) (hmap : s.diagnosticMap ≠ none)
    (h1 : s.params.dx.data ≠ []) (h2 : s.params.dy.data ≠ []) :
    Prints s.report ↔ Prints s.diskRadius.report ∧ Prints s.tilt.report ∧
      Prints s.inclination.report ∧ ∀ g ∈ s.gradients.getD [], Prints g.report := by
  obtain ⟨w, m, r, -, -, he⟩ := report_steps hs hmap h1 h2
  rw [he, ← gradientReports_ok]
  constructor
  · rintro ⟨q, hq⟩
    cases e1 : s.diskRadius.report with
    | error e => rw [e1, error_bind] at hq; cases hq
    | ok a =>
    cases e2 : s.tilt.report with
    | error e => rw [e1, ok_bind, e2, error_bind] at hq; cases hq
    | ok b =>
    cases e3 : s.inclination.report with
    | error e => rw [e1, ok_bind, e2, ok_bind, e3, error_bind] at hq; cases hq
    | ok c =>
    cases e4 : Shallot.gradientReports (s.gradients.getD []) with
    | error e => rw [e1, ok_bind, e2, ok_bind, e3, ok_bind, e4, error_bind] at hq; cases hq
    | ok d => exact ⟨⟨_, rfl⟩, ⟨_, rfl⟩, ⟨_, rfl⟩, ⟨_, rfl⟩⟩
  · rintro ⟨⟨a, ha⟩, ⟨b, hb⟩, ⟨c, hc⟩, ⟨d, hd⟩⟩
    rw [ha, ok_bind, hb, ok_bind, hc, ok_bind, hd, ok_bind]
    exact ⟨_, rfl⟩

theorem prop_prints_iff (p : GProp K) : Prints p.report ↔ p.vmin ≠ none ∧ p.vmax ≠ none := by
  rcases prop_report_cases p with ⟨⟨lo, hi, h1, h2⟩, h⟩ | ⟨h1, h⟩
  · exact ⟨fun _ => ⟨by rw [h1]; simp, by rw [h2]; simp⟩, fun _ => h⟩
  · constructor
    · rintro ⟨r, hr⟩; rw [h] at hr; cases hr
    · rintro ⟨h2, h3⟩
      rcases h1 with h1 | h1
      · exact absurd h1 h2
      · exact absurd h1 h3

variable [FloorRing K]

theorem complete_holds {b s : Shallot K} (h : CompleteFrom b s) : (printScheme s).Holds s := by
  refine ⟨?_, ?_, trivial⟩
  · intro c
    refine ⟨?_, ?_⟩
    · intro hc
      cases c with
      | gradientFit => exact absurd rfl hc
      | diagnosticMap =>
        show s.diagnosticMap ≠ none
        rw [h.map]; simp
      | diskRadius => exact Option.some_ne_none _
      | inclination => exact Option.some_ne_none _
      | tilt => exact Option.some_ne_none _
      | fxMap => exact Option.some_ne_none _
      | fyMap => exact Option.some_ne_none _
    · intro _ _ p q hp hq
      rw [hp] at hq
      cases hq
      exact ⟨rfl, rfl⟩
  · rw [h.nothing.1]
    intro l hl
    cases hl

/-- Whatever was called on a complete grid, it can be printed exactly if each of the three properties
held a number when it was built and every gradient can be printed. -/
theorem complete_report_iff {b s : Shallot K} (h : CompleteFrom b s) (ho : Owned s s)
    (h1 : s.params.dx.data ≠ []) (h2 : s.params.dy.data ≠ []) (ops : List (GridOp K)) :
    Prints (runGrid ops s).report ↔ (¬ AllNan s.diskRadius.data.data ∧ ¬ AllNan s.tilt.data.data ∧
      ¬ AllNan s.inclination.data.data) ∧
      ∀ g ∈ (runGrid ops s).gradients.getD [], Prints g.report := by
  have hsound := runGrid_sound ops s (sound_complete h)
  have hown := runGrid_owned ops s ho
  have hh := runGrid_holds (printScheme_closed s) ops s (complete_holds h)
  have key : ∀ c ∈ printed, ∀ p q, (runGrid ops s).prop c = some p → s.prop c = some q →
      (Prints p.report ↔ ¬ AllNan q.data.data) := by
    intro c hc p q hp hq
    have hne : c ≠ .gradientFit ∧ c ≠ .diagnosticMap := by
      simp only [printed, List.mem_cons, List.not_mem_nil, or_false] at hc
      rcases hc with rfl | rfl | rfl <;> exact ⟨by simp, by simp⟩
    obtain ⟨e1, e2⟩ := (hh.props c).2 hne.1 hne.2 p q hp hq
    obtain ⟨e3, e4⟩ := h.limits c q hq
    rw [prop_prints_iff, e1, e2, e3, e4, Ne, Ne, (nanmin_spec _).1, (nanmax_spec _).1, and_self]
    rfl
  rw [report_iff hsound ((hh.props .diagnosticMap).1 (by simp)) (by rw [hown.params]; exact h1)
    (by rw [hown.params]; exact h2), key .diskRadius (by simp [printed]) _ _ rfl rfl,
    key .tilt (by simp [printed]) _ _ rfl rfl, key .inclination (by simp [printed]) _ _ rfl rfl]
  simp only [and_assoc]

theorem gradients_print {b s : Shallot K} (h : CompleteFrom b s) (ops : List (GridOp K)) (g : GGrad K)
    (hg : g ∈ (runGrid ops s).gradients.getD []) (hn : ¬ AllNan g.prop.data.data) : Prints g.report := by
  have hh := runGrid_holds (printScheme_closed s) ops s (complete_holds h)
  obtain ⟨h1, h2⟩ := holds_getD hh g hg
  exact grad_prints h1 (limited_prints h2 hn)

end

section
open Geometry

/-- A disk can be placed at one of the centres of the grid. -/
def Spec.Placeable (g : GridParams ℝ) : Prop :=
  ∃ dx dy : ℝ, .fin dx ∈ g.dx.data ∧ .fin dy ∈ g.dy.data ∧ (dy ≠ 0 ∨ dx = 0)

theorem mem_of_at3 {d : Nd ℝ} {a b c y x r : ℕ} (h : d.Cubic a b c) (hy : y < a) (hx : x < b)
    (hr : r < c) : d.at3 y x r ∈ d.data := by
  rw [at3_get h.1, List.getD_eq_getElem?_getD]
  have hlt : (y * b + x) * c + r < d.data.length := by
    rw [h.2]
    have h1 : y * b + x + 1 ≤ a * b := by
      calc y * b + x + 1 ≤ y * b + b := by omega
        _ = (y + 1) * b := by ring
        _ ≤ a * b := Nat.mul_le_mul_right _ hy
    calc (y * b + x) * c + r < (y * b + x) * c + c := by omega
      _ = (y * b + x + 1) * c := by ring
      _ ≤ a * b * c := Nat.mul_le_mul_right _ h1
  rw [List.getElem?_eq_getElem hlt]
  exact List.getElem_mem hlt

theorem at3_of_mem {d : Nd ℝ} {a b c : ℕ} (h : d.Cubic a b c) {v : XF ℝ} (hv : v ∈ d.data) :
    ∃ y x r, y < a ∧ x < b ∧ r < c ∧ d.at3 y x r = v := by
  obtain ⟨i, hi⟩ := List.mem_iff_getElem?.1 hv
  have hilt : i < d.data.length := (List.getElem?_eq_some_iff.1 hi).1
  rw [h.2] at hilt
  have hun := unravel_spec hilt
  refine ⟨_, _, _, hun.1, hun.2.1, hun.2.2.1, ?_⟩
  rw [at3_get h.1, hun.2.2.2, getD_of_get _ _ _ hi]

/-- What printing a grid that was built over finite coordinates needs. -/
theorem made_report (minX maxX numX minY maxY numY maxRf numRf : PyVal ℝ) (g : GridParams ℝ)
    (hg : GridParams.new minX maxX numX minY maxY numY maxRf numRf = .ok g) (a b c d m : ℝ)
    (ha : IsNumber false minX (.fin a)) (hb : IsNumber false maxX (.fin b))
    (hc : IsNumber false minY (.fin c)) (hd : IsNumber false maxY (.fin d))
    (hm : IsNumber false maxRf (.fin m))
    (hext : g.extendable = true → 2 ≤ g.sliceShape.1 ∧ 2 ≤ g.sliceShape.2) (v k : PyVal ℝ)
    (n : ℕ) (hn : Count v n) (keep : Bool) (hk : boolean k = .ok keep) (s : Shallot ℝ)
    (g' : GridParams ℝ) (h : Shallot.new v k g = (.ok s, g')) :
    (∃ b, CompleteFrom b s) ∧ Owned s s ∧ s.params.dx.data ≠ [] ∧ s.params.dy.data ≠ [] ∧
    (Placeable g → ¬ AllNan s.diskRadius.data.data ∧ ¬ AllNan s.tilt.data.data ∧
      ¬ AllNan s.inclination.data.data) ∧
    (¬ Placeable g → AllNan s.diskRadius.data.data) := by
  obtain ⟨keep', -, hmade⟩ := made_new _ _ _ _ _ _ _ _ g g' hg hext v k s h
  have hall : ∀ y x, y < g.dy.data.length → x < g.dx.data.length → Buildable g n y x := by
    by_contra hno
    push Not at hno
    obtain ⟨e, he⟩ := (C72_new _ _ _ _ _ _ _ _ g hg hext v k n hn keep hk).2 hno
    rw [he] at h
    cases h
  obtain ⟨s', dia, e1, e2, -⟩ := (C72_new _ _ _ _ _ _ _ _ g hg hext v k n hn keep hk).1 hall
  rw [h] at e1
  obtain rfl : s = s' := by
    injection e1 with e1 e1'
    injection e1
  have hpar : (builtGrid g v dia).params = g := rfl
  have hlen : 0 < g.dx.data.length ∧ 0 < g.dy.data.length := by
    obtain ⟨a', b', nx, c', d', ny, m', nr, ⟨-, -, -, p1⟩, ⟨-, -, -, p2⟩, -, rfl⟩ :=
      (new_ok_iff _ _ _ _ _ _ _ _ _).1 hg
    simp only [gridOf, linspace_length]
    exact ⟨p1.1, p2.1⟩
  have hplain : g.extendable = false → s.params = g := by
    intro he
    rw [e2.plain he]; rfl
  have hzero : g.extendable = true → (.fin 0 ∈ g.dx.data ∧ .fin 0 ∈ g.dy.data) ∧
      .fin 0 ∈ s.params.dx.data ∧ .fin 0 ∈ s.params.dy.data := by
    intro he
    obtain ⟨a', b', nx, c', d', ny, m', nr, ⟨q1, q2, -, p1⟩, ⟨q3, q4, -, p2⟩, ⟨q5, q6, p3⟩, -⟩ :=
      (new_ok_iff _ _ _ _ _ _ _ _ _).1 hg
    obtain ⟨v1, v2, -, -, -, v5, v6⟩ := (C21_vectors minX maxX numX minY maxY numY maxRf numRf a b c d
      nx ny nr m' ha hb p1 hc hd p2 q5 q6 p3).2 g hg
    obtain ⟨rfl, rfl⟩ := v6.1 he
    have mx := e2.vectorX he
    have my := e2.vectorY he
    obtain ⟨w1, w2, w3, -⟩ := mx.values 0 (by rw [← mx.length]; exact hlen.1)
    obtain ⟨u1, u2, u3, -⟩ := my.values 0 (by rw [← my.length]; exact hlen.2)
    rw [hpar] at w2 u2
    rw [v1.first] at w2
    rw [v2.first] at u2
    cases w2
    cases u2
    exact ⟨⟨List.mem_of_getElem? v1.first, List.mem_of_getElem? v2.first⟩, List.mem_of_getElem? w3,
      List.mem_of_getElem? u3⟩
  have hne : s.params.dx.data ≠ [] ∧ s.params.dy.data ≠ [] := by
    cases he : g.extendable with
    | false =>
      rw [hplain he]
      exact ⟨List.length_pos_iff.1 hlen.1, List.length_pos_iff.1 hlen.2⟩
    | true => exact ⟨List.ne_nil_of_mem (hzero he).2.1, List.ne_nil_of_mem (hzero he).2.2⟩
  have hplace : Placeable g ↔ Placeable s.params := by
    cases he : g.extendable with
    | false => rw [hplain he]
    | true => exact ⟨fun _ => ⟨0, 0, (hzero he).2.1, (hzero he).2.2, Or.inr rfl⟩,
        fun _ => ⟨0, 0, (hzero he).1.1, (hzero he).1.2, Or.inr rfl⟩⟩
  have hsound := hmade.sound
  have hrf : 0 < s.params.rf.data.length := List.length_pos_iff.2 hsound.shaped.rf
  obtain ⟨-, p, -, -, -, hcells⟩ := C57_grid _ _ _ _ _ _ _ _ g hg a b c d m ha hb hc hd hm hext v k n hn
    keep hk s g' h
  refine ⟨⟨_, e2⟩, hmade.owned, hne.1, hne.2, ?_, ?_⟩
  · intro hp
    obtain ⟨dx, dy, hx, hy, hpl⟩ := hplace.1 hp
    obtain ⟨x, hx⟩ := List.mem_iff_getElem?.1 hx
    obtain ⟨y, hy⟩ := List.mem_iff_getElem?.1 hy
    have hx' : x < s.params.gridShape.2.1 := by
      rw [hsound.shaped.grid]; exact (List.getElem?_eq_some_iff.1 hx).1
    have hy' : y < s.params.gridShape.1 := by
      rw [hsound.shaped.grid]; exact (List.getElem?_eq_some_iff.1 hy).1
    have hr' : s.params.rf.data.length - 1 < s.params.gridShape.2.2 := by
      rw [hsound.shaped.grid]
      show s.params.rf.data.length - 1 < 2 * s.params.rf.data.length - 1
      omega
    obtain ⟨dx', dy', k1, k2, k3, -⟩ := hcells y x hy' hx'
    rw [getD_of_get _ _ _ hx] at k1
    rw [getD_of_get _ _ _ hy] at k2
    cases k1
    cases k2
    obtain ⟨R, hR, hrad, -⟩ := k3 hpl
    obtain ⟨_, _, -, -, hlay⟩ := C75_grid _ _ _ _ _ _ _ _ g hg a b c d m ha hb hc hd hm hext v k n hn
      keep hk s g' h y x _ hy' hx' hr'
    rcases hlay with ⟨hnan, -⟩ | ⟨fx, fy, r, i, t, -, -, -, hi, ht, -⟩
    · rw [hrad] at hnan; cases hnan
    · refine ⟨fun hA => ?_, fun hA => ?_, fun hA => ?_⟩
      · have := hA _ (mem_of_at3 (hsound.props .diskRadius _ rfl).data hy' hx' hr')
        rw [hrad] at this; cases this
      · have := hA _ (mem_of_at3 (hsound.props .tilt _ rfl).data hy' hx' hr')
        rw [ht] at this; cases this
      · have := hA _ (mem_of_at3 (hsound.props .inclination _ rfl).data hy' hx' hr')
        rw [hi] at this; cases this
  · intro hp w hw
    obtain ⟨y, x, r, hy, hx, hr, rfl⟩ := at3_of_mem (hsound.props .diskRadius _ rfl).data hw
    obtain ⟨dx, dy, k1, k2, -, k4⟩ := hcells y x hy hx
    refine (k4 fun hpl => hp (hplace.2 ⟨dx, dy, ?_, ?_, hpl⟩) ) r hr |>.1
    · rw [← k1, List.getD_eq_getElem?_getD]
      have hlt : x < s.params.dx.data.length := by rw [hsound.shaped.grid] at hx; exact hx
      rw [List.getElem?_eq_getElem hlt]
      exact List.getElem_mem hlt
    · rw [← k2, List.getD_eq_getElem?_getD]
      have hlt : y < s.params.dy.data.length := by rw [hsound.shaped.grid] at hy; exact hy
      rw [List.getElem?_eq_getElem hlt]
      exact List.getElem_mem hlt

/-- **C76, for grids** (partial: a disk must be placeable somewhere, and every gradient must hold a
number) Whatever was called since a grid over finite coordinates was built, it can be printed. -/
theorem C76_grid_partial (minX maxX numX minY maxY numY maxRf numRf : PyVal ℝ) (g : GridParams ℝ)
    (hg : GridParams.new minX maxX numX minY maxY numY maxRf numRf = .ok g) (a b c d m : ℝ)
    (ha : IsNumber false minX (.fin a)) (hb : IsNumber false maxX (.fin b))
    (hc : IsNumber false minY (.fin c)) (hd : IsNumber false maxY (.fin d))
    (hm : IsNumber false maxRf (.fin m))
    (hext : g.extendable = true → 2 ≤ g.sliceShape.1 ∧ 2 ≤ g.sliceShape.2) (v k : PyVal ℝ)
    (n : ℕ) (hn : Count v n) (keep : Bool) (hk : boolean k = .ok keep) (s : Shallot ℝ)
    (g' : GridParams ℝ) (h : Shallot.new v k g = (.ok s, g')) (hp : Placeable g)
    (ops : List (GridOp ℝ))
    (hgr : ∀ q ∈ (runGrid ops s).gradients.getD [], ¬ AllNan q.prop.data.data) :
    Prints (runGrid ops s).report := by
  obtain ⟨⟨b', h1⟩, h2, h3, h4, h5, -⟩ := made_report _ _ _ _ _ _ _ _ g hg a b c d m ha hb hc hd hm
    hext v k n hn keep hk s g' h
  exact (complete_report_iff h1 h2 h3 h4 ops).2 ⟨h5 hp, fun q hq => gradients_print h1 ops q hq (hgr q hq)⟩

/-- **C76 is false for grids** A grid over finite coordinates none of which a disk can be placed at can
be built but never printed: `print` raises `TypeError` whatever was called before. -/
theorem C76_false_grid (minX maxX numX minY maxY numY maxRf numRf : PyVal ℝ) (g : GridParams ℝ)
    (hg : GridParams.new minX maxX numX minY maxY numY maxRf numRf = .ok g) (a b c d m : ℝ)
    (ha : IsNumber false minX (.fin a)) (hb : IsNumber false maxX (.fin b))
    (hc : IsNumber false minY (.fin c)) (hd : IsNumber false maxY (.fin d))
    (hm : IsNumber false maxRf (.fin m))
    (hext : g.extendable = true → 2 ≤ g.sliceShape.1 ∧ 2 ≤ g.sliceShape.2) (v k : PyVal ℝ)
    (n : ℕ) (hn : Count v n) (keep : Bool) (hk : boolean k = .ok keep) (s : Shallot ℝ)
    (g' : GridParams ℝ) (h : Shallot.new v k g = (.ok s, g')) (hp : ¬ Placeable g)
    (ops : List (GridOp ℝ)) : (runGrid ops s).report = .error .typeError := by
  obtain ⟨⟨b', h1⟩, h2, h3, h4, -, h5⟩ := made_report _ _ _ _ _ _ _ _ g hg a b c d m ha hb hc hd hm
    hext v k n hn keep hk s g' h
  have hsound := runGrid_sound ops s (sound_complete h1)
  have hown := runGrid_owned ops s h2
  have hh := runGrid_holds (printScheme_closed s) ops s (complete_holds h1)
  obtain ⟨w, mm, r, -, -, he⟩ := report_steps hsound ((hh.props .diagnosticMap).1 (by simp))
    (by rw [hown.params]; exact h3) (by rw [hown.params]; exact h4)
  have hv : (runGrid ops s).diskRadius.vmin = none := by
    rw [((hh.props .diskRadius).2 (by simp) (by simp) _ _ rfl rfl).1, (h1.limits .diskRadius _ rfl).1]
    exact (nanmin_spec _).1.2 (h5 hp)
  rw [he]
  rcases prop_report_cases (runGrid ops s).diskRadius with ⟨⟨lo, hi, e1, -⟩, -⟩ | ⟨-, e1⟩
  · rw [hv] at e1; cases e1
  · rw [e1, error_bind]

/-- The witness of `C76_false_grid`: `GridParameters(1, 2, 2, 0, 1, 1, 2, 2)`, a single row on the
axis. -/
noncomputable def axisGrid : GridParams ℝ := gridOf (.fin 1) (.fin 2) 2 (.fin 0) (.fin 1) 1 (.fin 2) 2

theorem axisGrid_new : GridParams.new (K := ℝ) (.int 1) (.int 2) (.int 2) (.int 0) (.int 1) (.int 1)
    (.int 2) (.int 2) = .ok axisGrid := by
  rw [new_ok_iff]
  have h0 : IsNumber (K := ℝ) false (.int 0) (.fin 0) := Or.inl ⟨0, .int 0, by simp⟩
  have h1 : IsNumber (K := ℝ) false (.int 1) (.fin 1) := Or.inl ⟨1, .int 1, by simp⟩
  have h2 : IsNumber (K := ℝ) false (.int 2) (.fin 2) := Or.inl ⟨2, .int 2, by simp⟩
  have hc : Count (K := ℝ) (.int 2) 2 := ⟨by norm_num, .int 2⟩
  have hc1 : Count (K := ℝ) (.int 1) 1 := ⟨by norm_num, .int 1⟩
  refine ⟨.fin 1, .fin 2, 2, .fin 0, .fin 1, 1, .fin 2, 2, ⟨h1, h2, ?_, hc⟩, ⟨h0, h1, ?_, hc1⟩,
    ⟨h2, ?_, hc⟩, rfl⟩
  · rw [lessEq_iff]; simp
  · rw [lessEq_iff]; simp
  · rw [less_iff]; simp

theorem axisGrid_vectors : axisGrid.dx.data = [.fin 1, .fin 2] ∧ axisGrid.dy.data = [.fin 0] :=
  ⟨two_points 1 2 (by norm_num), linspace_one 0 1⟩

theorem axisGrid_unplaceable : ¬ Placeable axisGrid := by
  rintro ⟨dx, dy, hx, hy, h⟩
  rw [axisGrid_vectors.1] at hx
  rw [axisGrid_vectors.2] at hy
  simp at hx hy
  rcases h with h | h
  · exact h hy
  · rcases hx with rfl | rfl <;> norm_num at h

theorem axisGrid_plain : axisGrid.extendable = true →
    2 ≤ axisGrid.sliceShape.1 ∧ 2 ≤ axisGrid.sliceShape.2 := by
  intro h
  have h1 : linspace (.fin 1) (.fin 2) 2 = [XF.fin (1 : ℝ), .fin 2] := two_points 1 2 (by norm_num)
  simp [axisGrid, gridOf, h1, XF.eqb] at h

/-- **C76 is false for grids**, a witness: this grid can be built. -/
theorem C76_false_grid_witness : ∃ s g', Shallot.new (.int 100) (.bool false) axisGrid = (.ok s, g') ∧
    ∀ ops : List (GridOp ℝ), (runGrid ops s).report = .error .typeError := by
  have hb : ∀ y x, y < axisGrid.dy.data.length → x < axisGrid.dx.data.length →
      Buildable axisGrid 100 y x := by
    intro y x hy hx
    left
    show shear (axisGrid.dx.data.getD x .nan) (axisGrid.dy.data.getD y .nan) = .nan
    rw [axisGrid_vectors.1] at hx ⊢
    rw [axisGrid_vectors.2] at hy ⊢
    obtain rfl : y = 0 := by simpa using hy
    have hx' : x = 0 ∨ x = 1 := by
      have : x < 2 := hx
      omega
    rcases hx' with rfl | rfl
    · exact shear_undefined 1 one_ne_zero
    · exact shear_undefined 2 two_ne_zero
  obtain ⟨s, d, h1, -⟩ := (C72_new _ _ _ _ _ _ _ _ axisGrid axisGrid_new axisGrid_plain (.int 100)
    (.bool false) 100 count_hundred false rfl).1 hb
  exact ⟨s, s.params, h1, C76_false_grid _ _ _ _ _ _ _ _ axisGrid axisGrid_new 1 2 0 1 2
    (Or.inl ⟨1, .int 1, by simp⟩) (Or.inl ⟨2, .int 2, by simp⟩) (Or.inl ⟨0, .int 0, by simp⟩)
    (Or.inl ⟨1, .int 1, by simp⟩) (Or.inl ⟨2, .int 2, by simp⟩) axisGrid_plain (.int 100) (.bool false)
    100 count_hundred false rfl s _ h1 axisGrid_unplaceable⟩

theorem diskGradient_nan (dx dy sh fx fy : XF ℝ) : diskGradient .nan dx dy sh fx fy = .nan := by
  have s1 : ∀ a : XF ℝ, a.sub .nan = .nan := fun a => by cases a <;> rfl
  have s2 : ∀ a : XF ℝ, XF.sub .nan a = .nan := fun a => by cases a <;> rfl
  have m1 : ∀ a : XF ℝ, a.mul .nan = .nan := fun a => by cases a <;> rfl
  have a1 : ∀ a : XF ℝ, a.add .nan = .nan := fun a => by cases a <;> rfl
  have d1 : ∀ a : XF ℝ, a.div .nan = .nan := fun a => by cases a <;> rfl
  unfold diskGradient
  simp only [s1, s2, m1, a1, d1]
  rfl

/-- **C76 is false for grids with gradients** As soon as one of the measured gradients has no time
(NaN), `add_gradients` succeeds and the grid can no longer be printed. -/
theorem C76_false_gradient (b : List (Measurement ℝ)) (s s' : Shallot ℝ) (hs : s.ready = true)
    (h : addCall b s = (.ok (), s')) (q : Measurement ℝ) (hq : q ∈ b) (hn : q.time = .nan) :
    ¬ Prints s'.report := by
  obtain ⟨d, scale, -, -, -, rfl⟩ := (addCall_ok_iff b s s' hs).1 h
  rintro ⟨r, hr⟩
  have hmem : (gradientOf s d scale q).2 ∈ s.gradients.getD [] ++
      b.map fun q => (gradientOf s d scale q).2 :=
    List.mem_append_right _ (List.mem_map_of_mem hq)
  have hall : Prints (Shallot.gradientReports (s.gradients.getD [] ++
      b.map fun q => (gradientOf s d scale q).2)) := by
    unfold Shallot.report at hr
    simp only [Option.getD_some] at hr
    rcases hgr : Shallot.gradientReports (s.gradients.getD [] ++
      b.map fun q => (gradientOf s d scale q).2) with e | gs
    · rw [hgr] at hr
      simp only [bind, Except.bind] at hr
      split at hr
      · cases hr
      · split at hr
        · cases hr
        · split at hr
          · cases hr
          · split at hr
            · cases hr
            · split at hr
              · cases hr
              · split at hr <;> cases hr
    · exact ⟨gs, rfl⟩
  obtain ⟨gr, hgr⟩ := (gradientReports_ok _).1 hall _ hmem
  have hv : (gradientOf s d scale q).2.prop.vmin = none := by
    unfold gradientOf measure
    rw [(determineMask_limits _ _ _ _ _).2.1]
    show nanmin (s.gradientCube _).data = none
    rw [hn, (nanmin_spec _).1]
    intro x hx
    have hpos : (XF.nan : XF ℝ).neg.div d.num = .nan := by cases d.num <;> rfl
    rw [hpos] at hx
    obtain ⟨y, x', r', hy, hx', hr', rfl⟩ := at3_of_mem (gradientCube_cubic s _) hx
    unfold Shallot.gradientCube
    rw [at3_cubeOf _ _ _ _ hy hx' hr']
    exact diskGradient_nan _ _ _ _ _
  unfold GGrad.report at hgr
  rcases prop_report_cases (gradientOf s d scale q).2.prop with ⟨⟨lo, hi, e1, -⟩, -⟩ | ⟨-, e1⟩
  · rw [hv] at e1; cases e1
  · rw [e1, error_bind] at hgr
    cases hgr

/-- The hypotheses of `C76_false_gradient` are met: a slope of 0 without a time is accepted. -/
example : ∃ (b : List (Measurement ℝ)) (s s' : Shallot ℝ), s.ready = true ∧
    addCall b s = (.ok (), s') ∧ ∃ q ∈ b, q.time = .nan := by
  obtain ⟨-, s, -, -, -, -, hr, hd, ⟨k, hk, hk2, ho⟩, -⟩ := throwAway_ready
  refine ⟨[⟨.nan, .fin 0, .fin 1, .fin 1⟩], s, _, hr, (addCall_ok_iff _ s _ hr).2 ⟨_, _, hd, ho, ?_, rfl⟩,
    _, List.mem_cons_self, rfl⟩
  intro q hq
  obtain rfl : q = _ := List.mem_singleton.1 hq
  refine ⟨⟨?_, ?_, ?_, ?_⟩, ?_⟩
  · rw [less_iff]; simp
  · rw [less_iff]; simp
  · rw [less_iff]; simp
  · rw [less_iff]; simp
  · unfold gradientOf measure
    exact slope_mask _ k 0 hk hk2 le_rfl (by norm_num)

/-- The hypotheses of `C76_grid_partial` are met: by `throwAway` and no calls. -/
example : Placeable throwAway ∧ ∃ s g', Shallot.new (.int 100) (.bool false) throwAway = (.ok s, g') ∧
    ∀ q ∈ (runGrid [] s).gradients.getD [], ¬ AllNan q.prop.data.data := by
  have hx : throwAway.dx.data = [.fin 0, .fin 1] := two_points 0 1 one_pos
  have hy : throwAway.dy.data = [.fin 0, .fin 1] := two_points 0 1 one_pos
  obtain ⟨s, d, h1, h2⟩ := throwAway_grid
  refine ⟨⟨1, 1, by rw [hx]; simp, by rw [hy]; simp, Or.inl one_ne_zero⟩, s, _, h1, ?_⟩
  intro q hq
  have : (runGrid [] s).gradients = none := h2.nothing.1
  rw [this] at hq
  simp at hq

end

/-! ## C78: the percentage that is masked -/

section
variable {K : Type} [Field K] [LinearOrder K] [IsStrictOrderedRing K]

theorem report_parts {s : Shallot K} {r : GridReport K} (h : s.report = .ok r) :
    s.worstDeviation = .ok r.worst ∧ (∃ m, s.combinedMask = .ok m ∧ r.masked = maskedPercentage m) ∧
    s.params.report = .ok r.params ∧ s.diskRadius.report = .ok r.diskRadius ∧
    s.tilt.report = .ok r.tilt ∧ s.inclination.report = .ok r.inclination ∧
    Shallot.gradientReports (s.gradients.getD []) = .ok r.gradients ∧
    r.diagnostics = s.diagnostics.map Diagnostics.report := by
  unfold Shallot.report at h
  cases h1 : s.worstDeviation with
  | error e => rw [h1, error_bind] at h; cases h
  | ok w =>
  rw [h1, ok_bind] at h
  cases h2 : s.combinedMask with
  | error e => rw [h2, error_bind] at h; cases h
  | ok m =>
  rw [h2, ok_bind] at h
  cases h3 : s.params.report with
  | error e => rw [h3, error_bind] at h; cases h
  | ok g =>
  rw [h3, ok_bind] at h
  cases h4 : s.diskRadius.report with
  | error e => rw [h4, error_bind] at h; cases h
  | ok a =>
  rw [h4, ok_bind] at h
  cases h5 : s.tilt.report with
  | error e => rw [h5, error_bind] at h; cases h
  | ok b =>
  rw [h5, ok_bind] at h
  cases h6 : s.inclination.report with
  | error e => rw [h6, error_bind] at h; cases h
  | ok c =>
  rw [h6, ok_bind] at h
  cases h7 : Shallot.gradientReports (s.gradients.getD []) with
  | error e => rw [h7, error_bind] at h; cases h
  | ok gs =>
  rw [h7, ok_bind] at h
  cases h
  exact ⟨rfl, ⟨m, rfl, rfl⟩, rfl, rfl, rfl, rfl, rfl, rfl⟩

theorem count_marks : ∀ l : List Bool, {i : ℕ | l[i]? = some true}.ncard = (l.filter id).length
  | [] => by simp
  | b :: l => by
    have ih := count_marks l
    have hinj : Function.Injective Nat.succ := Nat.succ_injective
    have hfin : (Nat.succ '' {i : ℕ | l[i]? = some true}).Finite := by
      refine (Set.finite_lt_nat (l.length + 1)).subset ?_
      rintro _ ⟨i, hi, rfl⟩
      exact Nat.succ_lt_succ (List.getElem?_eq_some_iff.1 hi).1
    have hset : {i : ℕ | (b :: l)[i]? = some true} =
        {i | i = 0 ∧ b = true} ∪ Nat.succ '' {i : ℕ | l[i]? = some true} := by
      ext i
      cases i with
      | zero => simp
      | succ i =>
        constructor
        · intro h
          exact Or.inr ⟨i, h, rfl⟩
        · rintro (h | ⟨j, hj, hji⟩)
          · exact absurd h.1 (Nat.succ_ne_zero i)
          · obtain rfl := hinj hji
            exact hj
    cases b with
    | false =>
      have h0 : {i : ℕ | i = 0 ∧ false = true} = ∅ := by
        ext i
        simp
      rw [hset, h0, Set.empty_union, Set.ncard_image_of_injective _ hinj, ih]
      simp
    | true =>
      have h0 : {i : ℕ | i = 0 ∧ true = true} = {0} := by
        ext i
        simp
      rw [hset, h0, Set.ncard_union_eq ?_ (Set.finite_singleton 0) hfin, Set.ncard_singleton,
        Set.ncard_image_of_injective _ hinj, ih]
      · simp [add_comm]
      · rw [Set.disjoint_singleton_left]
        rintro ⟨i, -, hi⟩
        exact absurd hi (Nat.succ_ne_zero i)

/-- **C78, for grids** The percentage that a grid prints is the share of the elements that the mask of
the disk radius, of the inclination, of the tilt or of one of the gradients marks. -/
theorem C78_grid (s : Shallot K) (hs : Sound s) (r : GridReport K) (h : s.report = .ok r) :
    ∃ n : ℕ, n = s.params.gridShape.1 * s.params.gridShape.2.1 * s.params.gridShape.2.2 ∧ 0 < n ∧
      ∃ q : K, r.masked = .fin q ∧
        q * n = 100 * ({i : ℕ | i < n ∧ MaskedAt s i}.ncard : K) ∧
        (q = 0 ↔ ∀ i, ¬ MaskedAt s i) ∧ (q = 100 ↔ ∀ i < n, MaskedAt s i) := by
  obtain ⟨hw, ⟨m, hm, hr⟩, hp, -⟩ := report_parts h
  obtain ⟨m', hm', hshape, hlen, hmark⟩ := C38_union s hs
  rw [hm] at hm'
  cases hm'
  have hpos : 0 < s.params.gridShape.1 * s.params.gridShape.2.1 * s.params.gridShape.2.2 := by
    unfold Shallot.worstDeviation at hw
    cases hd : s.diagnosticMap with
    | none => rw [hd] at hw; cases hw
    | some p =>
      rw [hd] at hw
      simp only at hw
      by_cases he : p.data.data = []
      · rw [if_pos he] at hw; cases hw
      · have := (hs.props .diagnosticMap p hd).data.2
        rw [← this]
        exact List.length_pos_iff.2 he
  have hne : m.data ≠ [] := by
    rw [← List.length_pos_iff, hlen]; exact hpos
  have hsize : m.data.length = size m.shape := by
    rw [hlen, hshape]; simp [size, mul_assoc]
  obtain ⟨q, hq, hshare, -, -, h0, h100⟩ := maskedPercentage_spec (K := K) m hsize hne
  refine ⟨_, rfl, hpos, q, hr.trans hq, ?_, ?_, ?_⟩
  · unfold IsShare at hshare
    rw [hlen] at hshare
    rw [hshare]
    congr 2
    have hset : {i : ℕ | i < s.params.gridShape.1 * s.params.gridShape.2.1 * s.params.gridShape.2.2 ∧
        MaskedAt s i} = {i | m.data[i]? = some true} := by
      ext i
      show (_ ∧ _) ↔ _
      rw [← hmark i]
      refine ⟨fun h => h.2, fun h => ⟨?_, h⟩⟩
      rw [← hlen]
      exact (List.getElem?_eq_some_iff.1 h).1
    rw [hset, count_marks]
  · rw [h0]
    constructor
    · intro hall i hi
      have := hall _ (List.mem_of_getElem? ((hmark i).2 hi))
      cases this
    · intro hall b hb
      obtain ⟨i, hi⟩ := List.mem_iff_getElem?.1 hb
      cases b with
      | false => rfl
      | true => exact absurd ((hmark i).1 hi) (hall i)
  · rw [h100]
    constructor
    · intro hall i hi
      rw [← hmark i]
      rw [← hlen] at hi
      rw [List.getElem?_eq_getElem hi, hall _ (List.getElem_mem hi)]
    · intro hall b hb
      obtain ⟨i, hi⟩ := List.mem_iff_getElem?.1 hb
      have hlt : i < m.data.length := (List.getElem?_eq_some_iff.1 hi).1
      have := (hmark i).2 (hall i (by rw [← hlen]; exact hlt))
      rw [hi] at this
      exact Option.some.inj this

/-! ## C79: the printed ranges -/

/-- The line says `a -> b (n)`; a single sample is its own end. -/
structure Spec.PrintedAxis (r : Range K) (a b : K) (n : ℕ) : Prop where
  count : r.count = n
  first : r.first = .fin a
  last : 2 ≤ n → r.last = .fin b
  single : n = 1 → r.last = .fin a

/-- What is printed of the parameters of a grid. -/
structure Spec.PrintedParams (r : ParamsReport K) (a b : K) (nx : ℕ) (c d : K) (ny : ℕ) (m : K)
    (nr : ℕ) : Prop where
  x : PrintedAxis r.dx a b nx
  y : PrintedAxis r.dy c d ny
  rf : 2 ≤ nr → r.maxRf = .fin m
  rfSingle : nr = 1 → r.maxRf = .fin 1
  rfCount : r.countRf = 2 * nr - 1
  shape : r.gridShape = (ny, nx, 2 * nr - 1)

theorem printedAxis_of {l : List (XF K)} {a b : K} {n : ℕ} (h : Evenly l a b n) {f e : XF K}
    (hf : l[0]? = some f) (he : l[l.length - 1]? = some e) : PrintedAxis ⟨f, e, l.length⟩ a b n := by
  refine ⟨h.length, ?_, fun hn => ?_, ?_⟩
  · have := h.first
    rw [hf] at this
    exact Option.some.inj this
  · have := h.last hn
    rw [← h.length, he] at this
    exact Option.some.inj this
  · rintro rfl
    have := h.first
    rw [h.length] at he
    rw [he] at this
    exact Option.some.inj this

theorem mirrored_ends {l l' : List (XF K)} {b : K} {n : ℕ} (h : Evenly l 0 b n) (hm : Mirrored l l' n)
    (hn : 2 ≤ n) {f e : XF K} (hf : l'[0]? = some f) (he : l'[l'.length - 1]? = some e) :
    PrintedAxis ⟨f, e, l'.length⟩ (-b) b (2 * n - 1) := by
  obtain ⟨v, h1, h2, h3⟩ := hm.values (n - 1) (by omega)
  rw [h.last hn] at h1
  obtain rfl : b = v := by injection h1 with h1; injection h1
  refine ⟨hm.length', ?_, fun _ => ?_, fun h => by omega⟩
  · rw [Nat.sub_self, hf] at h3
    exact Option.some.inj h3
  · rw [hm.length', show 2 * n - 1 - 1 = n - 1 + (n - 1) by omega, h2] at he
    exact (Option.some.inj he).symm

variable [RealFns K] [FloorRing K]

/-- **C79** The parameters of a grid print the ends and the number of samples of each vector, the
largest radius factor, and the shape of the cubes. -/
theorem C79_params (minX maxX numX minY maxY numY maxRf numRf : PyVal K) (g : GridParams K)
    (hg : GridParams.new minX maxX numX minY maxY numY maxRf numRf = .ok g) (a b c d m : K)
    (nx ny nr : ℕ) (ha : IsNumber false minX (.fin a)) (hb : IsNumber false maxX (.fin b))
    (hnx : Count numX nx) (hc : IsNumber false minY (.fin c)) (hd : IsNumber false maxY (.fin d))
    (hny : Count numY ny) (hm : IsNumber false maxRf (.fin m)) (hnr : Count numRf nr) :
    ∃ r, g.report = .ok r ∧ PrintedParams r a b nx c d ny m nr := by
  have hm1 : ¬ Less (.fin m) (.fin 1) := by
    obtain ⟨a', b', nx', c', d', ny', m', nr', -, -, ⟨r1, r2, r3⟩, -⟩ := (new_ok_iff ..).1 hg
    rw [isNumber_unique hm r1]; exact r2
  obtain ⟨v1, v2, -, -, v5, -⟩ := (C21_vectors minX maxX numX minY maxY numY maxRf numRf a b c d nx ny nr
    (.fin m) ha hb hnx hc hd hny hm hm1 hnr).2 g hg
  obtain ⟨w1, -, w3, w4, -⟩ := C22_rf_array _ _ _ _ _ _ _ _ g hg m nr hm hnr
  have ne : ∀ {l : List (XF K)} {n : ℕ}, l.length = n → 0 < n → l ≠ [] := by
    intro l n h h'
    rw [← List.length_pos_iff, h]; exact h'
  obtain ⟨r, hr, x1, x2, x3, y1, y2, y3, z1, z2, z3⟩ := params_report g (ne v1.length hnx.1)
    (ne v2.length hny.1) (ne w1 (by have := hnr.1; omega))
  refine ⟨r, hr, ?_, ?_, fun h => ?_, ?_, z2.trans w1, z3.trans v5⟩
  · have := printedAxis_of v1 x1 x2
    rw [← x3] at this
    exact this
  · have := printedAxis_of v2 y1 y2
    rw [← y3] at this
    exact this
  · have := (w4 h).1
    rw [z1] at this
    exact Option.some.inj this
  · rintro rfl
    rw [z1] at w3
    exact Option.some.inj w3

/-- **C79, for grids** However often and with whatever result methods were called since a grid was
built, it prints the ranges given to its parameters or, if it was extended, those from minus the
maxima to the maxima. -/
theorem C79_grid (minX maxX numX minY maxY numY maxRf numRf : PyVal K)
    (g g' : GridParams K)
    (hg : GridParams.new minX maxX numX minY maxY numY maxRf numRf = .ok g) (a b c d m : K)
    (nx ny nr : ℕ) (ha : IsNumber false minX (.fin a)) (hb : IsNumber false maxX (.fin b))
    (hnx : Count numX nx) (hc : IsNumber false minY (.fin c)) (hd : IsNumber false maxY (.fin d))
    (hny : Count numY ny) (hm : IsNumber false maxRf (.fin m)) (hnr : Count numRf nr)
    (hext : g.extendable = true → 2 ≤ g.sliceShape.1 ∧ 2 ≤ g.sliceShape.2) (v k : PyVal K)
    (s : Shallot K) (h : Shallot.new v k g = (.ok s, g')) (ops : List (GridOp K)) (r : GridReport K)
    (hr : (runGrid ops s).report = .ok r) :
    (¬ (a = 0 ∧ c = 0) → PrintedParams r.params a b nx c d ny m nr) ∧
    (a = 0 ∧ c = 0 → PrintedParams r.params (-b) b (2 * nx - 1) (-d) d (2 * ny - 1) m nr) := by
  obtain ⟨keep, hk, hmade⟩ := made_new _ _ _ _ _ _ _ _ g g' hg hext v k s h
  obtain ⟨n, hn⟩ := hmade.count
  have hall : ∀ y x, y < g.dy.data.length → x < g.dx.data.length → Buildable g n y x := by
    by_contra hno
    push Not at hno
    obtain ⟨e, he⟩ := (C72_new _ _ _ _ _ _ _ _ g hg hext v k n hn keep hk).2 hno
    rw [he] at h
    cases h
  obtain ⟨s', dia, e1, e2, -⟩ := (C72_new _ _ _ _ _ _ _ _ g hg hext v k n hn keep hk).1 hall
  rw [h] at e1
  obtain rfl : s = s' := by
    injection e1 with e1 e1'
    injection e1
  have hpar : (builtGrid g v dia).params = g := rfl
  obtain ⟨-, -, hrep, -⟩ := report_parts hr
  rw [(runGrid_owned ops s hmade.owned).params] at hrep
  have hm1 : ¬ Less (.fin m) (.fin 1) := by
    obtain ⟨a', b', nx', c', d', ny', m', nr', -, -, ⟨r1, r2, r3⟩, -⟩ := (new_ok_iff ..).1 hg
    rw [isNumber_unique hm r1]; exact r2
  obtain ⟨v1, v2, -, -, v5, v6, v7⟩ := (C21_vectors minX maxX numX minY maxY numY maxRf numRf a b c d nx
    ny nr (.fin m) ha hb hnx hc hd hny hm hm1 hnr).2 g hg
  obtain ⟨w1, -, w3, w4, -⟩ := C22_rf_array _ _ _ _ _ _ _ _ g hg m nr hm hnr
  constructor
  · intro hno
    have he : g.extendable = false := by
      cases he : g.extendable with
      | false => rfl
      | true => exact absurd (v7.1 he) hno
    have : s.params = g := by rw [e2.plain he]; rfl
    obtain ⟨q, hq, hp⟩ := C79_params _ _ _ _ _ _ _ _ g hg a b c d m nx ny nr ha hb hnx hc hd hny hm hnr
    rw [this, hq] at hrep
    cases hrep
    exact hp
  · intro hz
    have he := v7.2 hz
    obtain ⟨rfl, rfl⟩ := hz
    have hn2 := hext he
    rw [v6] at hn2
    have mx := e2.vectorX he
    have my := e2.vectorY he
    rw [hpar, v6] at mx my
    have hrf : s.params.rfArray = g.rfArray := e2.rfArray
    have ne : ∀ {l : List (XF K)} {n : ℕ}, l.length = n → 0 < n → l ≠ [] := by
      intro l n h h'
      rw [← List.length_pos_iff, h]; exact h'
    have p1 := hnr.1
    obtain ⟨q, hq, x1, x2, x3, y1, y2, y3, z1, z2, z3⟩ := params_report s.params
      (ne mx.length' (by show 0 < 2 * nx - 1; have := hnx.1; omega))
      (ne my.length' (by show 0 < 2 * ny - 1; have := hny.1; omega))
      (by rw [hrf]; exact ne w1 (by omega))
    rw [hq] at hrep
    cases hrep
    refine ⟨?_, ?_, fun h => ?_, ?_, ?_, ?_⟩
    · have := mirrored_ends v1 mx hn2.2 x1 x2
      rw [← x3] at this
      exact this
    · have := mirrored_ends v2 my hn2.1 y1 y2
      rw [← y3] at this
      exact this
    · have := (w4 h).1
      rw [hrf] at z1
      rw [z1] at this
      exact Option.some.inj this
    · rintro rfl
      rw [hrf] at z1
      rw [z1] at w3
      exact Option.some.inj w3
    · rw [z2, hrf, w1]
    · rw [z3, hmade.sound.shaped.grid, mx.length', my.length', ← hmade.sound.shaped.rfArray, hrf, w1]

end

/-- The hypotheses of C78 – C80 are met: the grid of `throwAway` is printed. -/
example : ∃ (s : Shallot ℝ) (g' : GridParams ℝ) (r : GridReport ℝ),
    Shallot.new (.int 100) (.bool false) throwAway = (.ok s, g') ∧ Sound s ∧
    (runGrid [] s).report = .ok r ∧ PrintedParams r.params (-1) 1 3 (-1) 1 3 2 2 := by
  have hx : throwAway.dx.data = [.fin 0, .fin 1] := two_points 0 1 one_pos
  have hy : throwAway.dy.data = [.fin 0, .fin 1] := two_points 0 1 one_pos
  have i0 : IsNumber (K := ℝ) false (.int 0) (.fin 0) := Or.inl ⟨0, .int 0, by simp⟩
  have i1 : IsNumber (K := ℝ) false (.int 1) (.fin 1) := Or.inl ⟨1, .int 1, by simp⟩
  have i2 : IsNumber (K := ℝ) false (.int 2) (.fin 2) := Or.inl ⟨2, .int 2, by simp⟩
  have c2 : Count (K := ℝ) (.int 2) 2 := ⟨by norm_num, .int 2⟩
  obtain ⟨s, d, h1, h2⟩ := throwAway_grid
  have hn : (runGrid [] s).gradients = none := h2.nothing.1
  obtain ⟨r, hr⟩ := C76_grid_partial _ _ _ _ _ _ _ _ throwAway throwAway_new 0 1 0 1 2 i0 i1 i0 i1 i2
    (fun _ => ⟨le_rfl, le_rfl⟩) (.int 100) (.bool false) 100 count_hundred false rfl s _ h1
    ⟨1, 1, by rw [hx]; simp, by rw [hy]; simp, Or.inl one_ne_zero⟩ []
    (by rw [hn]; intro q hq; cases hq)
  have hp := (C79_grid _ _ _ _ _ _ _ _ throwAway _ throwAway_new 0 1 0 1 2 2 2 2 i0 i1 c2 i0 i1 c2 i2 c2
    (fun _ => ⟨le_rfl, le_rfl⟩) (.int 100) (.bool false) s h1 [] r hr).2 ⟨rfl, rfl⟩
  exact ⟨s, _, r, h1, sound_complete h2, hr, hp⟩

/-! ## C80: the diagnostics that are printed -/

section
variable {K : Type} [Field K] [LinearOrder K] [IsStrictOrderedRing K]

/-- **C80** The printed worst fit is the largest absolute value of the diagnostic map, or NaN if the map
holds no number. -/
theorem C80_worst (s : Shallot K) (r : GridReport K) (h : s.report = .ok r) :
    ∃ p, s.diagnosticMap = some p ∧
      ((r.worst = .nan ∧ AllNan p.data.data) ∨
       (∃ x ∈ p.data.data, x ≠ .nan ∧ r.worst = x.abs ∧
        ∀ y ∈ p.data.data, y ≠ .nan → LessEq y.abs r.worst)) := by
  obtain ⟨hw, -⟩ := report_parts h
  unfold Shallot.worstDeviation at hw
  cases hd : s.diagnosticMap with
  | none => rw [hd] at hw; cases hw
  | some p =>
    rw [hd] at hw
    simp only at hw
    refine ⟨p, rfl, ?_⟩
    have habs : ∀ x : XF K, x.abs = .nan ↔ x = .nan := by intro x; cases x <;> simp [XF.abs]
    by_cases he : p.data.data = []
    · rw [if_pos he] at hw; cases hw
    · rw [if_neg he] at hw
      obtain ⟨s1, s2⟩ := nanmax_spec (p.data.data.map XF.abs)
      cases hx : nanmax (p.data.data.map XF.abs) with
      | none =>
        rw [hx] at hw
        left
        refine ⟨by injection hw with hw; exact hw.symm, fun x hx' => ?_⟩
        rw [← habs]
        exact s1.1 hx _ (List.mem_map_of_mem hx')
      | some y =>
        rw [hx] at hw
        obtain ⟨hmem, hnn, hmax⟩ := s2 y hx
        obtain ⟨x, hxm, rfl⟩ := List.mem_map.1 hmem
        have hwr : r.worst = x.abs := by injection hw with hw; exact hw.symm
        right
        refine ⟨x, hxm, fun h => hnn ((habs x).2 h), hwr, fun y hy hyn => ?_⟩
        rw [hwr]
        exact hmax _ (List.mem_map_of_mem hy) fun h => hyn ((habs y).1 h)

/-- The keys of the two dictionaries agree, and all of them stand for indices. -/
structure Tidy (d : Diagnostics K) : Prop where
  extended : d.extended = false
  same : d.fyDict.map Prod.fst = d.radiusDict.map Prod.fst
  keys : ∀ k ∈ d.fyDict.map Prod.fst, ∃ y x : ℕ, k = (.int y, .int x) ∧ y < d.maxY ∧ x < d.maxX

theorem index_key {v : PyVal K} {n : ℕ} (h : IndexIn v n) (hb : ∀ b, v ≠ .bool b) :
    ∃ i : ℕ, v.keyPart = .int i ∧ i < n := by
  obtain ⟨i, h1, h2, h3⟩ := h
  refine ⟨i.toNat, ?_, by omega⟩
  have := isInteger_toInt h1
  unfold PyVal.keyPart
  split
  · exact absurd rfl (hb _)
  · rw [this, Int.toNat_of_nonneg h2]

theorem tidy_save {d : Diagnostics K} (h : Tidy d) (c : SaveCall K) (hy : ∀ b, c.y ≠ .bool b)
    (hx : ∀ b, c.x ≠ .bool b) : Tidy (Meth.exec (Diagnostics.save c.y c.x c.fy c.radius) d) := by
  unfold Meth.exec
  rcases save_cases d c.y c.x c.fy c.radius with ⟨a, b, h1, h2, h3, h4, hs⟩ | ⟨⟨e, hs⟩, -⟩
  · rw [hs]
    obtain ⟨i, i1, i2⟩ := index_key h3 hy
    obtain ⟨j, j1, j2⟩ := index_key h4 hx
    refine ⟨h.extended, ?_, ?_⟩
    · simp only [List.map_cons, h.same]
    · intro k hk
      simp only [List.map_cons, List.mem_cons] at hk
      rcases hk with rfl | hk
      · exact ⟨i, j, by rw [i1, j1], i2, j2⟩
      · exact h.keys k hk
  · rw [hs]; exact h

theorem dict_get_ok (d : Dict K) (k : Key) : (∃ v, d.get k = .ok v) ↔ k ∈ d.map Prod.fst := by
  unfold Dict.get
  induction d with
  | nil => simp
  | cons e d ih =>
    obtain ⟨k', v⟩ := e
    rw [List.lookup_cons]
    by_cases h : k = k'
    · subst h
      simp
    · have : (k == k') = false := by simpa using h
      rw [this]
      simp only [ih, List.map_cons, List.mem_cons, h, false_or]

theorem tidy_get {d : Diagnostics K} (h : Tidy d) (y x : ℕ) :
    (∃ r, d.get (.int y) (.int x) = .ok r) ↔ ((.int y, .int x) : Key) ∈ d.fyDict.map Prod.fst := by
  have hin : ∀ i n : ℕ, i < n → IndexIn (K := K) (.int i) n := fun i n hi =>
    ⟨i, .int i, by omega, by omega⟩
  have hkey : ∀ i : ℕ, (PyVal.int i : PyVal K).keyPart = .int i := fun i => by
    simp [PyVal.keyPart, PyVal.toInt]
  constructor
  · rintro ⟨r, hr⟩
    unfold Diagnostics.get at hr
    cases hk : d.generateKey (.int y) (.int x) with
    | error e => rw [hk, error_bind] at hr; cases hr
    | ok k =>
      obtain ⟨-, -, hk'⟩ := (generateKey_ok d _ _ k).1 hk
      unfold Diagnostics.part at hk'
      rw [h.extended] at hk'
      simp only [Bool.false_eq_true, if_false] at hk'
      rw [hkey, hkey] at hk'
      rw [hk, ok_bind] at hr
      rw [← hk', ← dict_get_ok]
      cases hf : d.fyDict.get k with
      | error e => rw [hf, error_bind] at hr; cases hr
      | ok f => exact ⟨f, rfl⟩
  · intro hm
    obtain ⟨y', x', he, hy, hx⟩ := h.keys _ hm
    have hm' := hm
    rw [h.same] at hm'
    obtain ⟨f, hf⟩ := (dict_get_ok _ _).2 hm
    obtain ⟨g, hg⟩ := (dict_get_ok _ _).2 hm'
    have ey : y = y' := by injection he with h1 h2; injection h1 with h1; exact_mod_cast h1
    have ex : x = x' := by injection he with h1 h2; injection h2 with h2; exact_mod_cast h2
    subst ey
    subst ex
    rw [get_unextended h.extended (hin _ _ hy) (hin _ _ hx), hkey, hkey, hf, hg]
    exact ⟨(f, g), rfl⟩

/-- **C80** The number of diagnostics that are printed is the number of grid points for which
`get_diagnostic` returns something (partial: if no position was given as a Boolean). -/
theorem C80_count_partial (calls : List (SaveCall K)) (g : GridParams K)
    (hc : ∀ c ∈ calls, (∀ b, c.y ≠ .bool b) ∧ ∀ b, c.x ≠ .bool b) :
    (runSaves calls (Diagnostics.new g)).report =
      {p : ℕ × ℕ | ∃ r, (runSaves calls (Diagnostics.new g)).get (.int p.1) (.int p.2) = .ok r}.ncard := by
  have key : ∀ (cs : List (SaveCall K)) (d : Diagnostics K),
      (∀ c ∈ cs, (∀ b, c.y ≠ .bool b) ∧ ∀ b, c.x ≠ .bool b) → Tidy d → Tidy (runSaves cs d) := by
    intro cs
    induction cs with
    | nil => intro d _ h; exact h
    | cons c cs ih =>
      intro d hc h
      exact ih _ (fun c' h' => hc c' (List.mem_cons_of_mem _ h'))
        (tidy_save h c (hc c List.mem_cons_self).1 (hc c List.mem_cons_self).2)
  have ht := key calls (Diagnostics.new g) hc ⟨rfl, rfl, by intro k hk; cases hk⟩
  obtain ⟨d, hd⟩ : ∃ d, d = runSaves calls (Diagnostics.new g) := ⟨_, rfl⟩
  rw [← hd] at ht ⊢
  have hinj : Function.Injective fun p : ℕ × ℕ => ((.int p.1, .int p.2) : Key) := by
    intro p q h
    simp only [Prod.mk.injEq] at h
    obtain ⟨h1, h2⟩ := h
    injection h1 with h1
    injection h2 with h2
    exact Prod.ext (by exact_mod_cast h1) (by exact_mod_cast h2)
  rw [← Set.ncard_image_of_injective _ hinj]
  have himg : (fun p : ℕ × ℕ => ((.int p.1, .int p.2) : Key)) ''
      {p : ℕ × ℕ | ∃ r, d.get (.int p.1) (.int p.2) = .ok r} = ↑(d.fyDict.map Prod.fst).toFinset := by
    ext k
    simp only [Set.mem_image, Set.mem_ofPred_eq, List.coe_toFinset]
    constructor
    · rintro ⟨p, hp, rfl⟩
      exact (tidy_get ht p.1 p.2).1 hp
    · intro hk
      obtain ⟨y, x, rfl, -, -⟩ := ht.keys k hk
      exact ⟨(y, x), (tidy_get ht y x).2 hk, rfl⟩
  rw [himg, Set.ncard_coe_finset]
  exact (List.card_toFinset _).symm

end

/-- **C80 is false** A grid of one point prints two diagnostics after they were saved for `0, 0` and
for `False, False`. -/
theorem C80_false : ∃ (g : GridParams ℚ) (calls : List (SaveCall ℚ)),
    GridParams.new (.int 0) (.int 1) (.int 1) (.int 0) (.int 1) (.int 1) (.int 2) (.int 2) = .ok g ∧
    g.sliceShape = (1, 1) ∧ (runSaves calls (Diagnostics.new g)).report = 2 := by
  refine ⟨gridOf (.fin 0) (.fin 1) 1 (.fin 0) (.fin 1) 1 (.fin 2) 2,
    [⟨.int 0, .int 0, .arr ⟨"float64", [1], [.fin 1]⟩, .arr ⟨"float64", [1], [.fin 1]⟩⟩,
     ⟨.bool false, .bool false, .arr ⟨"float64", [1], [.fin 1]⟩, .arr ⟨"float64", [1], [.fin 1]⟩⟩], ?_⟩
  decide +kernel

/-- The hypothesis of `C80_count_partial` is met; two of three saves are for the same point. -/
example : (runSaves [⟨.int 0, .int 0, .arr ⟨"float64", [1], [.fin 1]⟩, .arr ⟨"float64", [1], [.fin 1]⟩⟩,
     ⟨.int 1, .int 2, .arr ⟨"float64", [1], [.fin 1]⟩, .arr ⟨"float64", [1], [.fin 1]⟩⟩,
     ⟨.npInt .w64 0, .int 0, .arr ⟨"float64", [1], [.fin 3]⟩, .arr ⟨"float64", [1], [.fin 1]⟩⟩]
     (Diagnostics.new smallGrid)).report = 2 := by decide +kernel

end Beyonce
