import Verif.Props.SteepRounded
import Verif.Props.Candidate

/-!
# C119: injection and recovery in floating point

The slopes of a light curve are those that the edge of a disk causes (C116), but the analysis rounds after every
operation.
-/

set_option linter.unusedSectionVars false

namespace Beyonce
open Spec Real

/-- A disk of the grid: its centre and its scale factors. -/
structure Spec.GridDisk where
  dx : ℝ
  dy : ℝ
  fx : ℝ
  fy : ℝ

/-- A disk that the grid can hold: the scale factors are positive, and on the star path only the centre of the grid
has a shear. -/
def Spec.GridDisk.Possible (d : GridDisk) : Prop := 0 < d.fx ∧ 0 < d.fy ∧ (d.dy ≠ 0 ∨ d.dx = 0)

/-- How steep the edge of the disk is when it meets the star at this time, without rounding. -/
noncomputable def Spec.GridDisk.steepness (d : GridDisk) (duration time : ℝ) : ℝ :=
  Spec.steepness (Geometry.diskGradient (.fin (-time / duration)) (.fin d.dx) (.fin d.dy)
    (Geometry.shear (.fin d.dx) (.fin d.dy)) (.fin d.fx) (.fin d.fy))

/-- The condition of the edge at the position that is computed for this time. -/
noncomputable def Spec.GridDisk.fuzz (L : FloatLib ℝ) (d : GridDisk) (duration time : ℝ) : ℝ :=
  Spec.fuzz (L.rnd (-time / duration)) d.dx d.dy d.fx d.fy (shearOf d.dx d.dy)

/-- The rounding error of one measurement at this disk. -/
noncomputable def Spec.GridDisk.noise (L : FloatLib ℝ) (u duration velocity limb : ℝ) (d : GridDisk) (q : Observed) :
    ℝ :=
  u * (38 * d.fuzz L duration q.time + 51 * q.asked velocity limb)

/-- The distance of the disk to the measurements: the root of the sum of squares, without rounding. -/
noncomputable def Spec.GridDisk.distance (weighted : Bool) (duration velocity limb : ℝ) (d : GridDisk)
    (qs : List Observed) : ℝ :=
  √((qs.map fun q => (d.steepness duration q.time - q.asked velocity limb) ^ 2 /
    (if weighted then q.error ^ 2 else 1)).sum)

/-- The rounding errors of all measurements at this disk, summed in the same way. -/
noncomputable def Spec.GridDisk.noises (L : FloatLib ℝ) (u : ℝ) (weighted : Bool) (duration velocity limb : ℝ)
    (d : GridDisk) (qs : List Observed) : ℝ :=
  √((qs.map fun q => d.noise L u duration velocity limb q ^ 2 / (if weighted then q.error ^ 2 else 1)).sum)

/-- Whether the measurement masks the disk, with rounding. -/
noncomputable def Spec.GridDisk.marked (L : FloatLib ℝ) (duration velocity limb : ℝ) (d : GridDisk) (q : Observed) :
    Bool :=
  GeometryRounded.marked L (.fin q.time) (.fin q.slope) (.fin q.transmission) (.fin duration) (.fin velocity)
    (.fin limb) (.fin d.dx) (.fin d.dy) (.fin d.fx) (.fin d.fy)

/-- The fit of the disk, with rounding. -/
noncomputable def Spec.GridDisk.fit (L : FloatLib ℝ) (weighted : Bool) (duration velocity limb : ℝ) (d : GridDisk)
    (qs : List Observed) : XF ℝ :=
  FitRounded.fitAt L weighted (qs.map (Observed.part L duration velocity limb d.dx d.dy d.fx d.fy))

section
variable (L : FloatLib ℝ) (u : ℝ) (hL : Accurate L u) (hu1 : 1000 * u ≤ 1) (w : Bool) (D V U : ℝ) (hD : 0 < D)
  (hV : 0 < V) (U0 : 0 ≤ U) (U1 : U ≤ 1)
include hL hu1 hD hV U0 U1

/-- **C119** (partial) The disk is kept in floating point by every measurement that asks for less than its edge
gives, by more than the rounding error, if the edge is not vertical up to the rounding error.  Missing: smaller
margins, see `C119_false`. -/
theorem C119_kept_partial (d : GridDisk) (hd : d.Possible) (q : Observed) (hs : 0 ≤ q.slope) (ht : 0 < q.transmission)
    (hm : q.asked V U + d.noise L u D V U q < d.steepness D q.time)
    (hv : 18 * u * d.fuzz L D q.time < √(1 - d.steepness D q.time ^ 2)) : d.marked L D V U q = false := by
  obtain ⟨p', hp', h⟩ := C109_mask_always L u hL hu1 q.time q.slope q.transmission D V U d.dx d.dy d.fx d.fy _ hd.1
    hd.2.1 hd.2.2 hD hs U0 U1 hV ht rfl
  have hp : p' = L.rnd (-q.time / D) := by
    unfold GeometryRounded.position at hp'
    rw [XF.neg_fin, L.div_fin _ _ hD.ne'] at hp'
    injection hp' with hp'
    exact hp'.symm
  subst hp
  unfold Spec.GridDisk.noise Spec.GridDisk.fuzz Observed.asked at hm
  unfold Spec.GridDisk.fuzz at hv
  have hT : 0 ≤ q.slope * orbitalFactor V U / q.transmission := by
    have := orbitalFactor_nonneg U0 U1 hV
    positivity
  have hf := fuzz_nonneg (L.rnd (-q.time / D)) d.dx d.dy d.fx d.fy (shearOf d.dx d.dy)
  have hn : 0 ≤ u * (38 * Spec.fuzz (L.rnd (-q.time / D)) d.dx d.dy d.fx d.fy (shearOf d.dx d.dy) +
      51 * (q.slope * orbitalFactor V U / q.transmission)) := mul_nonneg hL.nonneg (by positivity)
  rcases h (by
    refine lt_of_lt_of_le ?_ (le_abs_self _)
    have : d.steepness D q.time = Spec.steepness (Geometry.diskGradient (.fin (-q.time / D)) (.fin d.dx) (.fin d.dy)
      (Geometry.shear (.fin d.dx) (.fin d.dy)) (.fin d.fx) (.fin d.fy)) := rfl
    rw [← this]
    linarith) with h | ⟨-, h⟩
  · unfold Spec.GridDisk.marked
    rw [h, decide_eq_false_iff_not, not_lt]
    have : d.steepness D q.time = Spec.steepness (Geometry.diskGradient (.fin (-q.time / D)) (.fin d.dx) (.fin d.dy)
      (Geometry.shear (.fin d.dx) (.fin d.dy)) (.fin d.fx) (.fin d.fy)) := rfl
    rw [← this]
    linarith
  · exact absurd h (not_le.2 hv)

/-- A disk that no measurement masks has a fit, and it is its distance up to rounding. -/
theorem fit_of_unmarked (d : GridDisk) (hd : d.Possible) (qs : List Observed)
    (hq : ∀ q ∈ qs, 0 ≤ q.slope ∧ 0 < q.transmission ∧ (w = true → q.error ≠ 0))
    (hm : ∀ q ∈ qs, d.marked L D V U q = false) :
    ∃ z, d.fit L w D V U qs = .fin z ∧
      √(z * (1 - u) ^ (qs.length + 5)) ≤ d.distance w D V U qs + d.noises L u w D V U qs ∧
      d.distance w D V U qs ≤ √(z / (1 - u) ^ (qs.length + 5)) + d.noises L u w D V U qs := by
  obtain ⟨os, hos⟩ : ∃ os, os = qs.map fun q => { q with gradient := d.steepness D q.time } := ⟨_, rfl⟩
  have hlen : os.length = qs.length := by rw [hos, List.length_map]
  have hpart : os.map (Observed.part L D V U d.dx d.dy d.fx d.fy) =
      qs.map (Observed.part L D V U d.dx d.dy d.fx d.fy) := by
    rw [hos, List.map_map]
    rfl
  have hdist : √(chi2 w (os.map fun q => (q.gradient, q.asked V U, q.error))) = d.distance w D V U qs := by
    unfold chi2 Spec.GridDisk.distance
    rw [hos, List.map_map, List.map_map]
    rfl
  have hnoise : √(chi2 w (os.map fun q => (u * (38 * Spec.fuzz (L.rnd (-q.time / D)) d.dx d.dy d.fx d.fy
      (shearOf d.dx d.dy) + 51 * q.asked V U), 0, q.error))) = d.noises L u w D V U qs := by
    unfold chi2 Spec.GridDisk.noises
    rw [hos, List.map_map, List.map_map]
    congr 2
    refine List.map_congr_left fun q _ => ?_
    simp only [Function.comp, sub_zero]
    rfl
  rcases C110_measured_always L u hL hu1 w D V U d.dx d.dy d.fx d.fy hd.1 hd.2.1 hd.2.2 hD U0 U1 hV os (by
    intro o ho
    rw [hos] at ho
    obtain ⟨q, hqm, rfl⟩ := List.mem_map.1 ho
    obtain ⟨h1, h2, h3⟩ := hq q hqm
    exact ⟨h1, h2, h3, rfl⟩) with ⟨hn, -⟩ | ⟨z, h1, h2, h3⟩
  · exfalso
    rw [hpart] at hn
    have hc : ∀ q : Observed, ∃ p : ℝ × ℝ × ℝ, q ∈ qs →
        Observed.part L D V U d.dx d.dy d.fx d.fy q = asPart p ∧ p.2.2 = q.error := by
      intro q
      by_cases hqm : q ∈ qs
      swap
      · exact ⟨0, fun h => absurd h hqm⟩
      obtain ⟨s0, t0, -⟩ := hq q hqm
      have hmq := hm q hqm
      unfold Spec.GridDisk.marked GeometryRounded.marked at hmq
      obtain ⟨p', ep, hg⟩ := C109_measured_always L u hL hu1 q.time D d.dx d.dy d.fx d.fy hd.1 hd.2.1 hd.2.2 hD
      obtain ⟨t', et, -⟩ := C109_scaled L u hL hu1 q.slope U V q.transmission U0 U1 hV t0
      rw [ep] at hmq
      rcases hg with ⟨e, -⟩ | ⟨g', e, -⟩
      · rw [e] at hmq
        simp [GGrad.maskAt] at hmq
      · refine ⟨(g', t', q.error), fun _ => ⟨?_, rfl⟩⟩
        unfold Observed.part FitRounded.part asPart
        rw [XF.abs_fin, abs_of_nonneg s0, et, ep, e]
    choose P hP using hc
    obtain ⟨z, hz, -⟩ := C110_fit L hL.nonneg (by linarith [hL.nonneg] : u < 1) hL.rnd w (qs.map P) (by
      intro p hp hw
      obtain ⟨q, hqm, rfl⟩ := List.mem_map.1 hp
      rw [(hP q hqm).2]
      exact (hq q hqm).2.2 hw)
    rw [List.map_map, ← List.map_congr_left (g := asPart ∘ P) (fun q hqm => (hP q hqm).1), hn] at hz
    cases hz
  · rw [hpart] at h1
    rw [hdist, hnoise, hlen] at h2 h3
    exact ⟨z, h1, h2, h3⟩

/-- **C119** Two disks that no measurement masks: if the fit that is computed for the second is not worse, its
distance to the measurements is not larger than that of the first, up to the rounding errors. -/
theorem C119_order (d e : GridDisk) (hd : d.Possible) (he : e.Possible) (qs : List Observed)
    (hq : ∀ q ∈ qs, 0 ≤ q.slope ∧ 0 < q.transmission ∧ (w = true → q.error ≠ 0))
    (hmd : ∀ q ∈ qs, d.marked L D V U q = false) (hme : ∀ q ∈ qs, e.marked L D V U q = false) (z z' : ℝ)
    (hz : d.fit L w D V U qs = .fin z) (hz' : e.fit L w D V U qs = .fin z') (hle : z' ≤ z) :
    e.distance w D V U qs ≤ (d.distance w D V U qs + d.noises L u w D V U qs) / (1 - u) ^ (qs.length + 5) +
      e.noises L u w D V U qs := by
  obtain ⟨a, ha, ha1, -⟩ := fit_of_unmarked L u hL hu1 w D V U hD hV U0 U1 d hd qs hq hmd
  obtain ⟨b, hb, -, hb2⟩ := fit_of_unmarked L u hL hu1 w D V U hD hV U0 U1 e he qs hq hme
  rw [hz] at ha
  rw [hz'] at hb
  cases ha
  cases hb
  have hpos : (0 : ℝ) < (1 - u) ^ (qs.length + 5) := pow_pos (by linarith [hL.nonneg]) _
  generalize (1 - u) ^ (qs.length + 5) = c at *
  have h1 : √(z' / c) ≤ √(z * c) / c := by
    have : z' / c ≤ z * c / c ^ 2 := by
      rw [show z * c / c ^ 2 = z / c by field_simp]
      exact div_le_div_of_nonneg_right hle hpos.le
    refine (sqrt_le_sqrt this).trans ?_
    rw [sqrt_div' _ (by positivity), sqrt_sq hpos.le]
  have h2 : √(z * c) / c ≤ (d.distance w D V U qs + d.noises L u w D V U qs) / c :=
    div_le_div_of_nonneg_right ha1 hpos.le
  linarith

/-- **C119** In a grid whose masks and fit were computed in floating point, with a disk `disk i` at every element
`i` and the disk of element `i₀` that no measurement masks: solutions can be extracted, and the disk of `i₀` is among
them, or all of them are at most as far from the measurements as this disk, up to the rounding errors. -/
theorem C119_solutions (s : Shallot ℝ) (hs : Sound s) (hdm : s.diagnosticMap ≠ none) (disk : ℕ → GridDisk)
    (qs : List Observed) (hq : ∀ q ∈ qs, 0 ≤ q.slope ∧ 0 < q.transmission ∧ (w = true → q.error ≠ 0))
    (hdisk : ∀ i ∈ unmasked s, (disk i).Possible)
    (hmask : ∀ i, i ∈ unmasked s ↔ i < elements s ∧ ∀ q ∈ qs, (disk i).marked L D V U q = false)
    (hfit : ∃ f, s.gradientFit = some f ∧ ∀ i ∈ unmasked s,
      f.data.data[i]? = some ((disk i).fit L w D V U qs) ∧ ¬ Marked f.mask i)
    (i₀ : ℕ) (hi₀ : i₀ < elements s) (hkept : ∀ q ∈ qs, (disk i₀).marked L D V U q = false) (num : PyVal ℝ) (k : ℕ)
    (ha : AsksFor s num k) (hk : k ≤ (unmasked s).card) :
    ∃ is rows s', Shallot.extractSolutions num s = (.ok rows, s') ∧ is.length = k ∧
      List.Forall₂ (fun i row => i ∈ unmasked s ∧ RowOf s i row ∧ row.rms = (disk i).fit L w D V U qs) is rows ∧
      (i₀ ∈ is ∨ ∀ i ∈ is, (disk i).distance w D V U qs ≤
        ((disk i₀).distance w D V U qs + (disk i₀).noises L u w D V U qs) / (1 - u) ^ (qs.length + 5) +
          (disk i).noises L u w D V U qs) := by
  classical
  have hi₀' : i₀ ∈ unmasked s := (hmask i₀).2 ⟨hi₀, hkept⟩
  have hz : ∀ i, ∃ z, i ∈ unmasked s → (disk i).fit L w D V U qs = .fin z := by
    intro i
    by_cases hi : i ∈ unmasked s
    · obtain ⟨z, h, -⟩ := fit_of_unmarked L u hL hu1 w D V U hD hV U0 U1 _ (hdisk i hi) qs hq ((hmask i).1 hi).2
      exact ⟨z, fun _ => h⟩
    · exact ⟨0, fun h => absurd h hi⟩
  choose v hv using hz
  obtain ⟨f, hf, hf2⟩ := hfit
  obtain ⟨is, rows, s', e, h1, -, h3, -, h5, h6⟩ := C45_best_partial s hs hdm v
    ⟨f, hf, fun i hi => ⟨by rw [(hf2 i hi).1, hv i hi], (hf2 i hi).2⟩⟩ num k ha hk
  refine ⟨is, rows, s', e, h1, ?_, ?_⟩
  · clear h1 h5 e
    induction h6 with
    | nil => exact .nil
    | cons hh _ ih =>
      have hm := h3 _ (List.mem_cons_self ..)
      exact .cons ⟨hm, hh.2, by rw [hh.1, hv _ hm]⟩ (ih fun i hi => h3 i (List.mem_cons_of_mem _ hi))
  · by_cases hin : i₀ ∈ is
    · exact Or.inl hin
    · right
      intro i hi
      have hb := h5 i hi i₀ hi₀' hin
      refine C119_order L u hL hu1 w D V U hD hV U0 U1 _ _ (hdisk i₀ hi₀') (hdisk i (h3 i hi)) qs hq hkept
        ((hmask i).1 (h3 i hi)).2 _ _ (hv i₀ hi₀') (hv i (h3 i hi)) ?_
      rcases hb with hb | hb
      · exact hb.le
      · exact hb.1.le

end

/-- C119 (negation): in binary64, the circle centred 2^27 eclipse durations ahead of the star is masked by a light
curve without any slope, though its edge is flat in the middle of the eclipse, as measured. -/
theorem C119_false :
    (∀ L : FloatLib ℚ, L.rnd = toDouble →
      GeometryRounded.marked L (.fin 0) (.fin 0) (.fin 1) (.fin 1) (.fin 1) (.fin 0) (.fin (2 ^ 27)) (.fin 1)
        (.fin 1) (.fin 1) = true) ∧
    (⟨2 ^ 27, 1, 1, 1⟩ : GridDisk).steepness 1 0 = (⟨0, 0, 1, 1, 0⟩ : Observed).asked 1 0 := by
  constructor
  · intro L hL
    have h0 : GeometryRounded.position L (.fin 0) (.fin 1) = .fin 0 := by
      simp only [GeometryRounded.position, XF.neg_fin, FloatLib.div, hL]
      decide +kernel
    unfold GeometryRounded.marked
    rw [h0, C109_false.1 L hL]
    simp [GGrad.maskAt]
  · unfold Spec.GridDisk.steepness Observed.asked
    simp only
    rw [neg_zero, zero_div, C109_false.2]
    simp [Spec.steepness]
/-- The measurement of the examples for C109 and C110. -/
theorem observed_kept : (⟨0, 1, 1, 1⟩ : GridDisk).marked .double 1 π 0 ⟨-1, 1, 1, 1, 0⟩ = false := by
  have hs : shearOf 0 1 = 0 := by unfold shearOf; norm_num
  have hg : (⟨0, 1, 1, 1⟩ : GridDisk).steepness 1 (-1) = 1 / √2 := by
    unfold Spec.GridDisk.steepness
    rw [gradient_eq _ _ _ _ _ (Or.inr rfl), hs, if_neg (by norm_num)]
    show steep _ _ = _
    unfold steep
    norm_num
  have hp : FloatLib.double.rnd (- -1 / 1) = 1 := by
    rw [neg_neg, div_one]; exact double_one
  have hf : (⟨0, 1, 1, 1⟩ : GridDisk).fuzz .double 1 (-1) = √2 := by
    unfold Spec.GridDisk.fuzz Spec.fuzz terms edgeLength
    dsimp only
    rw [hp, hs, show |(0 : ℝ) * 1 ^ 2 * 1| + |(1 : ℝ) ^ 2 * (1 - 0)| + (|((0 : ℝ) ^ 2 * 1 ^ 2 + 1 ^ 2) * 1| +
      |(0 : ℝ) * 1 ^ 2 * (1 - 0)|) = 2 by norm_num, show ((1 : ℝ) ^ 2 * 1) ^ 2 + (0 * 1 ^ 2 * 1 - 1 ^ 2 * 1) ^ 2 = 2 by
      norm_num, div_sqrt]
  have r1 : √(2 : ℝ) ≤ 1.42 := sqrt_le_iff.2 (by norm_num)
  have r0 : (0 : ℝ) < √2 := sqrt_pos.2 (by norm_num)
  have r4 : (0.7 : ℝ) ≤ 1 / √2 := by rw [le_div_iff₀ r0]; linarith
  have r5 : (0.7 : ℝ) ≤ √(1 - (1 / √2) ^ 2) := le_sqrt_of_sq_le (by
    rw [div_pow, sq_sqrt (by norm_num)]; norm_num)
  have ho : orbitalFactor π 0 = 1 / 2 := by
    unfold orbitalFactor
    have := pi_pos.ne'
    field_simp
    norm_num
  refine C119_kept_partial .double _ double_accurate (by norm_num) 1 π 0 one_pos pi_pos le_rfl zero_le_one _
    ⟨one_pos, one_pos, Or.inr rfl⟩ _ zero_le_one one_pos ?_ ?_
  · unfold Spec.GridDisk.noise Observed.asked
    dsimp only
    rw [hg, hf, ho]
    norm_num at r4 ⊢
    linarith
  · dsimp only
    rw [hg, hf]
    norm_num at r5 ⊢
    linarith

/-- The disk at the centre of the grid is always masked. -/
theorem centre_marked : (⟨0, 0, 1, 1⟩ : GridDisk).marked .double 1 π 0 ⟨-1, 1, 1, 1, 0⟩ = true := by
  have hp : GeometryRounded.position .double (.fin (-1)) (.fin 1) = .fin 1 := by
    unfold GeometryRounded.position
    rw [XF.neg_fin, FloatLib.div_fin _ _ _ one_ne_zero, neg_neg, div_one]
    congr 1
    exact double_one
  have hg : GeometryRounded.diskGradient .double (.fin 1) (.fin 0) (.fin 0)
      (GeometryRounded.shear .double (.fin 0) (.fin 0)) (.fin 1) (.fin 1) = .nan := by
    have h0 : FloatLib.double.rnd (0 : ℝ) = 0 := by
      have : |FloatLib.double.rnd (0 : ℝ) - 0| ≤ _ * |(0 : ℝ)| := double_accurate.rnd 0
      rw [abs_zero, mul_zero, sub_zero] at this
      exact abs_nonpos_iff.1 this
    have hs : GeometryRounded.shear .double (.fin (0 : ℝ)) (.fin 0) = .fin 0 := by
      unfold GeometryRounded.shear
      simp
    rw [hs]
    unfold GeometryRounded.diskGradient
    generalize (FloatLib.double : FloatLib ℝ) = L at *
    have hd : XF.eqb (L.add (L.mul (L.add (L.mul (L.sq (.fin 0)) (L.sq (.fin 1))) (L.sq (.fin 1))) (XF.fin (0 : ℝ)).neg)
        (L.mul (L.mul (.fin 0) (L.sq (.fin 1))) (L.sub (.fin 1) (.fin 0)))) (.fin 0) = true := by
      simp only [L.sq_fin, L.mul_fin, L.add_fin, L.sub_fin, XF.neg_fin, neg_zero, mul_zero, zero_mul, add_zero, h0]
      simp
    simp only [hd, Bool.not_true, Bool.false_eq_true, if_false]
    rfl
  unfold Spec.GridDisk.marked GeometryRounded.marked
  dsimp only
  rw [hp, hg]
  simp [GGrad.maskAt]

open Classical in
/-- A grid with masks and a fit as `C119_solutions` asks for, of which two solutions are extracted: the unmasked
disks are the circle of `observed_kept`, the others the one of `centre_marked`. -/
example : ∃ (s s' : Shallot ℝ) (disk : ℕ → GridDisk) (rows : List (Shallot.Solution ℝ)) (is : List ℕ),
    Shallot.extractSolutions (.int 2) s = (.ok rows, s') ∧ is.length = 2 ∧
    List.Forall₂ (fun i row => i ∈ unmasked s ∧ RowOf s i row ∧
      row.rms = (disk i).fit .double true 1 π 0 [⟨-1, 1, 1, 1, 0⟩]) is rows := by
  obtain ⟨s, s₁, g, k, hs, hr, hg, ho, hk, hdm, h1, hs₁, hgs, hdm₁, hgr, -, -, -, h3, h4, h5⟩ :=
    throwAway_probe 0 0 1 le_rfl (by norm_num) zero_le_one
  obtain ⟨disk, hdisk⟩ : ∃ disk : ℕ → GridDisk, disk = fun i => if i ∈ unmasked s₁ then ⟨0, 1, 1, 1⟩ else
    ⟨0, 0, 1, 1⟩ := ⟨_, rfl⟩
  obtain ⟨p, hp⟩ : ∃ p : GProp ℝ, p = { s₁.diskRadius with
    data := ⟨[3, 3, 3], (List.range 27).map fun i : ℕ => (disk i).fit .double true 1 π 0 [⟨-1, 1, 1, 1, 0⟩]⟩
    mask := none } := ⟨_, rfl⟩
  have hs₂ : Sound { s₁ with gradientFit := some p } := sound_setProp hs₁ .gradientFit p (by
    rw [hgs, hp]
    exact ⟨⟨rfl, by simp⟩, by intro m hm; cases hm⟩)
  have hun : unmasked { s₁ with gradientFit := some p } = unmasked s₁ := by
    ext i
    rw [mem_unmasked, mem_unmasked]
    rfl
  have hmem : ∀ i : ℕ, i = 4 ∨ i = 22 → i ∈ unmasked s₁ := by
    intro i hi
    obtain ⟨v, hv, hv0, -⟩ := h5 i hi
    exact probe_unmasked hgs h3 h4 (by omega) hv (by simpa using hv0)
  have hcard : 2 ≤ (unmasked { s₁ with gradientFit := some p }).card := by
    have hsub : ({4, 22} : Finset ℕ) ⊆ unmasked s₁ := by
      intro i hi
      simp only [Finset.mem_insert, Finset.mem_singleton] at hi
      exact hmem i hi
    rw [hun]
    exact Finset.card_le_card hsub
  have hin : ∀ i ∈ unmasked s₁, disk i = ⟨0, 1, 1, 1⟩ := fun i hi => by rw [hdisk]; exact if_pos hi
  have hout : ∀ i, i ∉ unmasked s₁ → disk i = ⟨0, 0, 1, 1⟩ := fun i hi => by rw [hdisk]; exact if_neg hi
  have hlt : ∀ i, i ∈ unmasked s₁ → i < 27 := by
    intro i hi
    have h := (mem_unmasked.1 hi).1
    unfold elements at h
    rwa [hgs] at h
  obtain ⟨is, rows, s', e, l, hrows, -⟩ := C119_solutions .double _ double_accurate (by norm_num) true 1 π 0 one_pos
    pi_pos le_rfl zero_le_one _ hs₂ hdm₁ disk [⟨-1, 1, 1, 1, 0⟩] (by
      intro q hq
      rw [List.mem_singleton] at hq
      subst hq
      exact ⟨zero_le_one, one_pos, fun _ => one_ne_zero⟩)
    (by
      intro i hi
      rw [hun] at hi
      rw [hin i hi]
      exact ⟨one_pos, one_pos, Or.inr rfl⟩)
    (by
      intro i
      rw [hun]
      refine ⟨fun hi => ⟨(mem_unmasked.1 hi).1, fun q hq => ?_⟩, fun hi => ?_⟩
      · rw [List.mem_singleton] at hq
        subst hq
        rw [hin i hi]
        exact observed_kept
      · by_contra hi'
        have := hi.2 _ (List.mem_singleton_self _)
        rw [hout i hi', centre_marked] at this
        cases this)
    ⟨p, rfl, by
      intro i hi
      rw [hun] at hi
      rw [hp]
      refine ⟨?_, by rintro ⟨m, hm, -⟩; cases hm⟩
      dsimp only
      rw [List.getElem?_map, List.getElem?_range (hlt i hi)]
      rfl⟩ 4 (mem_unmasked.1 (hmem 4 (Or.inl rfl))).1 (by
        intro q hq
        rw [List.mem_singleton] at hq
        subst hq
        rw [hin 4 (hmem 4 (Or.inl rfl))]
        exact observed_kept)
    (.int 2) 2 (Or.inr (.int 2)) hcard
  exact ⟨_, s', disk, rows, is, e, l, hrows⟩

end Beyonce
