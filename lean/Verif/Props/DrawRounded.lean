import Verif.DrawRounded
import Verif.Props.RingDraw
import Verif.Props.PatchRounded

/-!
# Property C127: the plot of a ring system in floating point
-/

set_option linter.unusedSectionVars false

namespace Beyonce
open Spec Real

section
variable {C : Type}

/-! ## Exact arithmetic is the model without rounding -/

theorem ringPatches_exact (fused : Bool) (verts : List Pt) (codes : List C) (x y color : PyVal ℝ) :
    ∀ l : List (RingObj ℝ), DrawRounded.ringPatches .exact fused verts codes x y color l =
      ringPatches verts codes x y color l
  | [] => rfl
  | r :: rest => by
    unfold DrawRounded.ringPatches ringPatches
    rw [patch_exact, ringPatches_exact]

theorem plot_exact (fused : Bool) (verts : List Pt) (codes : List C) (s : RSys ℝ) (x y color : PyVal ℝ) :
    DrawRounded.plotSystem .exact fused verts codes s x y color = plotSystem verts codes s x y color := by
  have hl : ∀ a b, DrawRounded.plotLimits .exact s a b = plotLimits s a b := by
    intro a b
    unfold DrawRounded.plotLimits plotLimits
    cases s.rings.getLast? with
    | none => rfl
    | some r =>
      simp only [FloatLib.sub, FloatLib.add, FloatLib.exact, round_same]
  have hp : DrawRounded.systemPatches .exact fused verts codes s x y color =
      systemPatches verts codes s x y color := by
    unfold DrawRounded.systemPatches systemPatches
    simp only [ringPatches_exact]
  unfold DrawRounded.plotSystem plotSystem
  rw [hp]
  simp only [hl]

/-! ## What is drawn -/

theorem patch_finite (L : FloatLib ℝ) (fused : Bool) (verts : List Pt) (codes : List C) (r : RingObj ℝ)
    (hr : FiniteRing r) (x y : ℝ) (color : String) :
    ∃ P, PatchRounded.getPatch L fused verts codes r (.float (.fin x)) (.float (.fin y)) (.str color) =
      .ok (some P) := by
  obtain ⟨ri, ro, t, i, phi, h⟩ := hr
  have hn : ∀ z : ℝ, number (.float (.fin z)) = .ok (PyVal.float (.fin z)) := fun z => rfl
  unfold PatchRounded.getPatch PatchRounded.patchOf
  rw [hn, hn, h.inner, h.outer, h.transmission, h.inclination, h.tilt]
  exact ⟨_, rfl⟩

theorem roundedPatches_ok (L : FloatLib ℝ) (fused : Bool) (verts : List Pt) (codes : List C) (x y : ℝ)
    (color : String) : ∀ rings : List (RingObj ℝ), (∀ r ∈ rings, FiniteRing r) →
      ∃ ps : List (Patch C),
        DrawRounded.ringPatches L fused verts codes (.float (.fin x)) (.float (.fin y)) (.str color) rings =
          .ok (ps.map fun P => .ring (some P)) ∧ ps.length = rings.length ∧
        ∀ (k : ℕ) r, rings[k]? = some r → ∃ P, ps[k]? = some P ∧
          PatchRounded.getPatch L fused verts codes r (.float (.fin x)) (.float (.fin y)) (.str color) = .ok (some P)
  | [], _ => ⟨[], rfl, rfl, by simp⟩
  | r :: rest, h => by
    obtain ⟨P, hP⟩ := patch_finite L fused verts codes r (h r List.mem_cons_self) x y color
    obtain ⟨ps, h1, h2, h3⟩ := roundedPatches_ok L fused verts codes x y color rest fun r hr =>
      h r (List.mem_cons_of_mem _ hr)
    refine ⟨P :: ps, ?_, by simp [h2], ?_⟩
    · simp only [DrawRounded.ringPatches, hP, h1, bind, Except.bind, List.map_cons]
    · intro k r' hk
      cases k with
      | zero =>
        simp only [List.getElem?_cons_zero, Option.some.injEq] at hk
        subst hk
        exact ⟨P, rfl, hP⟩
      | succ k => exact h3 k r' hk

/-- The state of the axes after `plot`. -/
theorem rounded_ok (L : FloatLib ℝ) (fused : Bool) (verts : List Pt) (codes : List C) (s : RSys ℝ)
    (hs : ∀ r ∈ s.rings, FiniteRing r) (x y d : ℝ) (l : RingObj ℝ) (hl : s.rings.getLast? = some l)
    (hd : l.outer = .fin d) (color : String) (ax : Axes C) :
    ∃ ps : List (Patch C),
      DrawRounded.plotSystem L fused verts codes s (.float (.fin x)) (.float (.fin y)) (.str color) ax =
        (.ok (), ⟨ax.patches ++ .disc (.fin x) (.fin y) s.planet :: ps.map fun P => .ring (some P),
          (.fin (L.rnd (L.rnd (x - d) - 2)), .fin (L.rnd (L.rnd (x + d) + 2))),
          (.fin (L.rnd (L.rnd (y - d) - 2)), .fin (L.rnd (L.rnd (x + d) + 2)))⟩) ∧
      ps.length = s.rings.length ∧
      ∀ (k : ℕ) r, s.rings[k]? = some r → ∃ P, ps[k]? = some P ∧
        PatchRounded.getPatch L fused verts codes r (.float (.fin x)) (.float (.fin y)) (.str color) =
          .ok (some P) := by
  obtain ⟨ps, h1, h2, h3⟩ := roundedPatches_ok L fused verts codes x y color s.rings hs
  refine ⟨ps, ?_, h2, h3⟩
  have hn : ∀ z : ℝ, number (.float (.fin z)) = .ok (PyVal.float (.fin z)) := fun z => rfl
  have hsys : DrawRounded.systemPatches L fused verts codes s (.float (.fin x)) (.float (.fin y)) (.str color) =
      .ok (.disc (.fin x) (.fin y) s.planet :: ps.map fun P => .ring (some P)) := by
    unfold DrawRounded.systemPatches
    rw [hn, hn]
    simp only [bind, Except.bind, string, classObject, isinstance, if_true, h1, PyVal.num_float]
  have hlim : DrawRounded.plotLimits L s (.fin x) (.fin y) =
      .ok ((.fin (L.rnd (L.rnd (x - d) - 2)), .fin (L.rnd (L.rnd (x + d) + 2))),
        (.fin (L.rnd (L.rnd (y - d) - 2)), .fin (L.rnd (L.rnd (x + d) + 2)))) := by
    unfold DrawRounded.plotLimits
    rw [hl]
    simp only [hd, L.sub_fin, L.add_fin]
  unfold DrawRounded.plotSystem
  simp only [hsys, Meth.lift_ok_bind, Meth.modify_bind, PyVal.num_float, hlim, setXLim, setYLim,
    Meth.modify_apply]

/-- **C127** In floating point `plot` adds the planet as given and the patch of every ring, in the order of the rings,
each with the vertices of C125; it draws nothing else and the earlier patches stay. -/
theorem C127_drawn (L : FloatLib ℝ) (u : ℝ) (hL : Accurate L u) (hu1 : 1000 * u ≤ 1) (fused : Bool) (verts : List Pt)
    (codes : List C) (hv : ∀ p ∈ verts, |p.1| ≤ 1 ∧ |p.2| ≤ 1) (s : RSys ℝ) (hs : WellFormed s) (hne : s.rings ≠ [])
    (x y : ℝ) (color : String) (ax : Axes C) :
    ∃ (ax' : Axes C) (ps : List (Patch C)),
      DrawRounded.plotSystem L fused verts codes s (.float (.fin x)) (.float (.fin y)) (.str color) ax = (.ok (), ax') ∧
      ax'.patches = ax.patches ++ .disc (.fin x) (.fin y) s.planet :: ps.map (fun P => .ring (some P)) ∧
      ps.length = s.rings.length ∧
      ∀ (k : ℕ) r, s.rings[k]? = some r → ∃ ri ro P P', r.inner = .fin ri ∧ r.outer = .fin ro ∧ ps[k]? = some P' ∧
        getPatch verts codes r (.float (.fin x)) (.float (.fin y)) (.str color) = .ok (some P) ∧
        List.Forall₂ (DrawnFor u ro (x, y)) P'.outer P.outer ∧
        List.Forall₂ (DrawnFor u ri (x, y)) P'.inner P.inner := by
  have hfin : ∀ r ∈ s.rings, FiniteRing r := by
    intro r hr
    obtain ⟨ri, ro, t, i, phi, rfl, -⟩ := hs.valid r hr
    exact ⟨ri, ro, t, i, phi, rfl, rfl, rfl, rfl, rfl⟩
  obtain ⟨l, d, hl, hd⟩ := last_finite hfin hne
  obtain ⟨ps, h1, h2, h3⟩ := rounded_ok L fused verts codes s hfin x y d l hl hd color ax
  refine ⟨_, ps, h1, rfl, h2, fun k r hk => ?_⟩
  obtain ⟨Q, hQ, hg⟩ := h3 k r hk
  obtain ⟨ri, ro, t, i, phi, hr, a1, a2, a3, a4, a5, a6, a7, a8⟩ := hs.valid r (List.mem_of_getElem? hk)
  have hri : IsRing r ri ro t i phi := by subst hr; exact ⟨rfl, rfl, rfl, rfl, rfl⟩
  obtain ⟨P, P', e, e', ho, hi, -⟩ := C125_vertices L u hL hu1 fused verts codes r hri
    ⟨a1.le, (a1.trans a2).le, ⟨a3, a4⟩, ⟨a5, a6⟩, ⟨a7, a8⟩⟩ hv x y color
  rw [hg] at e'
  cases e'
  exact ⟨ri, ro, P, Q, hri.inner, hri.outer, hQ, e, ho, hi⟩

/-! ## The limits -/

/-- Two sums, each rounded. -/
theorem limit_near {L : FloatLib ℝ} {u : ℝ} (hL : Accurate L u) (hu1 : 1000 * u ≤ 1) {a b c S : ℝ} (h1 : |a + b| ≤ S)
    (h2 : |c| ≤ 2) : AbsNear (3 * u * (S + 2)) (L.rnd (L.rnd (a + b) + c)) (a + b + c) := by
  have hu := hL.nonneg
  have hS : 0 ≤ S := (abs_nonneg _).trans h1
  have huS : 0 ≤ u * (S + 2) := mul_nonneg hu (by linarith)
  have e1 : AbsNear (u * S) (L.rnd (a + b)) (a + b) :=
    (hL.rnd (a + b)).trans (mul_le_mul_of_nonneg_left h1 hu)
  have e2 : AbsNear (u * S) (L.rnd (a + b) + c) (a + b + c) := by
    unfold AbsNear
    rw [show L.rnd (a + b) + c - (a + b + c) = L.rnd (a + b) - (a + b) by ring]
    exact e1
  have e3 : |a + b + c| ≤ S + 2 := (abs_add_le _ _).trans (by linarith)
  refine (absNear_rnd hL.rnd hu e2 e3).mono ?_
  have h3 : u * S ≤ u * (S + 2) := mul_le_mul_of_nonneg_left (by linarith) hu
  have h4 : u * (u * S) ≤ 1 * (u * (S + 2)) := by
    refine mul_le_mul (by linarith) h3 (mul_nonneg hu hS) zero_le_one
  linarith

/-- `q` lies on a boundary of a ring as drawn and comes from a point of the path in the closed unit disc. -/
def Spec.DrawnBoundary (L : FloatLib ℝ) (fused : Bool) (verts : List Pt) (codes : List C) (s : RSys ℝ) (x y : ℝ)
    (color : String) (q : Pt) : Prop :=
  ∃ r ∈ s.rings, ∃ P, PatchRounded.getPatch L fused verts codes r (.float (.fin x)) (.float (.fin y)) (.str color) =
    .ok (some P) ∧ OnBoundary verts P q

/-- **C127 (partial)** In floating point too, every boundary point of every ring of a system whose rings are ordered
lies between the x limits and above the lower y limit, with a margin of one stellar radius, and below the upper y
limit if the y shift exceeds the x shift by at most one, as long as radii and shifts are small against `1 / u`.
Missing for the full claim: larger radii and shifts, for which the limits become equal (`C127_false_far`), and what
is missing in C82. -/
theorem C127_visible_partial (L : FloatLib ℝ) (u : ℝ) (hL : Accurate L u) (hu1 : 1000 * u ≤ 1) (fused : Bool)
    (verts : List Pt) (codes : List C) (hv : ∀ p ∈ verts, |p.1| ≤ 1 ∧ |p.2| ≤ 1) (s : RSys ℝ) (hs : WellFormed s)
    (l : RingObj ℝ) (d : ℝ) (hl : s.rings.getLast? = some l) (hd : l.outer = .fin d)
    (x y : ℝ) (hsmall : 70 * u * (d + |x| + |y| + 2) ≤ 1) (color : String) (ax : Axes C) :
    ∃ (ax' : Axes C) (xl xu yl yu : ℝ),
      DrawRounded.plotSystem L fused verts codes s (.float (.fin x)) (.float (.fin y)) (.str color) ax = (.ok (), ax') ∧
      ax'.xlim = (.fin xl, .fin xu) ∧ ax'.ylim = (.fin yl, .fin yu) ∧ xl < xu ∧ (y ≤ x → yl < yu) ∧
      ∀ q, DrawnBoundary L fused verts codes s x y color q →
        xl + 1 ≤ q.1 ∧ q.1 ≤ xu - 1 ∧ yl + 1 ≤ q.2 ∧ (y ≤ x → q.2 ≤ yu - 1) ∧ (y ≤ x + 1 → q.2 ≤ yu) := by
  have hu := hL.nonneg
  have hfin : ∀ r ∈ s.rings, FiniteRing r := by
    intro r hr
    obtain ⟨ri, ro, t, i, phi, rfl, -⟩ := hs.valid r hr
    exact ⟨ri, ro, t, i, phi, rfl, rfl, rfl, rfl, rfl⟩
  obtain ⟨ps, h1, -, -⟩ := rounded_ok L fused verts codes s hfin x y d l hl hd color ax
  have hd0 : 0 < d := by
    obtain ⟨ri, ro, t, i, phi, hri, g1, g2, g3⟩ := outer_le_last hs hl hd l (List.mem_of_getLast? hl)
    linarith
  have hx0 := abs_nonneg x
  have hy0 := abs_nonneg y
  obtain ⟨S, hS⟩ : ∃ S, S = d + |x| + |y| := ⟨_, rfl⟩
  rw [← hS] at hsmall
  have b1 : |x - d| ≤ S := (abs_sub _ _).trans (by rw [abs_of_pos hd0]; linarith)
  have b2 : |x + d| ≤ S := (abs_add_le _ _).trans (by rw [abs_of_pos hd0]; linarith)
  have b3 : |y - d| ≤ S := (abs_sub _ _).trans (by rw [abs_of_pos hd0]; linarith)
  have n1 := limit_near hL hu1 (a := x) (b := -d) (c := -2) (S := S) (by rwa [← sub_eq_add_neg]) (by norm_num)
  have n2 := limit_near hL hu1 (a := x) (b := d) (c := 2) (S := S) b2 (by norm_num)
  have n3 := limit_near hL hu1 (a := y) (b := -d) (c := -2) (S := S) (by rwa [← sub_eq_add_neg]) (by norm_num)
  simp only [← sub_eq_add_neg] at n1 n3
  unfold AbsNear at n1 n2 n3
  rw [abs_le] at n1 n2 n3
  have huS : 0 ≤ u * (S + 2) := mul_nonneg hu (by linarith)
  have hsm : 70 * (u * (S + 2)) ≤ 1 := by linarith
  refine ⟨_, _, _, _, _, h1, rfl, rfl, by linarith, fun h => by linarith, ?_⟩
  rintro q ⟨r, hr, P', hP', k, p, hk, hp, hq⟩
  obtain ⟨ri, ro, t, i, phi, hr', a1, a2, a3, a4, a5, a6, a7, a8⟩ := hs.valid r hr
  have hri : IsRing r ri ro t i phi := by subst hr'; exact ⟨rfl, rfl, rfl, rfl, rfl⟩
  have hrd : ro ≤ d := by
    obtain ⟨ri', ro', t', i', phi', hri', g1, g2, g3⟩ := outer_le_last hs hl hd r hr
    have := hri'.outer
    rw [hri.outer] at this
    cases this
    exact g3
  obtain ⟨P, Q', e, e', ho, hi, -⟩ := C125_vertices L u hL hu1 fused verts codes r hri
    ⟨a1.le, (a1.trans a2).le, ⟨a3, a4⟩, ⟨a5, a6⟩, ⟨a7, a8⟩⟩ hv x y color
  rw [hP'] at e'
  cases e'
  have hblur : ∀ R c, 0 ≤ R → R ≤ d → |c| ≤ |x| + |y| → blur u R c ≤ 62 * (u * (S + 2)) := by
    intro R c hR hRd hc
    unfold blur
    have k1 : u * R ≤ u * d := mul_le_mul_of_nonneg_left hRd hu
    have k2 : u * |c| ≤ u * (|x| + |y|) := mul_le_mul_of_nonneg_left hc hu
    have k3 : 0 ≤ u * (|x| + |y|) := mul_nonneg hu (by linarith)
    rw [hS]
    nlinarith
  have hnear : ∃ q₀, (P.outer[k]? = some q₀ ∨ P.inner[k]? = some q₀) ∧ |q.1 - q₀.1| ≤ 62 * (u * (S + 2)) ∧
      |q.2 - q₀.2| ≤ 62 * (u * (S + 2)) := by
    have hlen : k < verts.length := (List.getElem?_eq_some_iff.1 hk).1
    have hx1 : |x| ≤ |x| + |y| := by linarith
    have hy1 : |y| ≤ |x| + |y| := by linarith
    rcases hq with hq | hq
    · have hk' : k < P.outer.length := by
        rw [← ho.length_eq]; exact (List.getElem?_eq_some_iff.1 hq).1
      obtain ⟨q', hq', m1, m2⟩ := forall₂_at ho (List.getElem?_eq_getElem hk')
      rw [hq] at hq'
      cases hq'
      exact ⟨_, Or.inl (List.getElem?_eq_getElem hk'), m1.trans (hblur ro x (a1.trans a2).le hrd hx1),
        m2.trans (hblur ro y (a1.trans a2).le hrd hy1)⟩
    · have hk' : k < P.inner.length := by
        rw [← hi.length_eq]; exact (List.getElem?_eq_some_iff.1 hq).1
      obtain ⟨q', hq', m1, m2⟩ := forall₂_at hi (List.getElem?_eq_getElem hk')
      rw [hq] at hq'
      cases hq'
      exact ⟨_, Or.inr (List.getElem?_eq_getElem hk'), m1.trans (hblur ri x a1.le (a2.le.trans hrd) hx1),
        m2.trans (hblur ri y a1.le (a2.le.trans hrd) hy1)⟩
  obtain ⟨q₀, hq₀, m1, m2⟩ := hnear
  obtain ⟨c1, c2⟩ := patch_bound verts codes r hri a1.le a2.le x y _ P e k p q₀ hk hp hq₀
  rw [abs_le] at c1 c2 m1 m2
  refine ⟨by linarith, by linarith, by linarith, fun h => by linarith, fun h => by linarith⟩

/-- **C127** With double precision that is so for radii and shifts up to a million million stellar radii. -/
theorem C127_double {u d x y : ℝ} (hu : u ≤ 1 / 2 ^ 50) (hd : 0 ≤ d) (hd' : d ≤ 10 ^ 12)
    (hx : |x| ≤ 10 ^ 12) (hy : |y| ≤ 10 ^ 12) : 70 * u * (d + |x| + |y| + 2) ≤ 1 := by
  have h1 : d + |x| + |y| + 2 ≤ 3 * 10 ^ 12 + 2 := by linarith
  have h2 := abs_nonneg x
  have h3 := abs_nonneg y
  calc 70 * u * (d + |x| + |y| + 2) ≤ 70 * (1 / 2 ^ 50) * (3 * 10 ^ 12 + 2) :=
        mul_le_mul (by linarith) h1 (by linarith) (by norm_num)
    _ ≤ 1 := by norm_num

end

/-- **C127 is false far out**: a ring of outer radius 1 that is shifted to x = 2⁶⁰ is between limits that are equal in
binary64. -/
theorem C127_false_far (L : FloatLib ℚ) (hL : L.rnd = toDouble) :
    ∃ (s : RSys ℚ) (l : (XF ℚ × XF ℚ) × (XF ℚ × XF ℚ)), (∃ r, s.rings = [r] ∧ ValidRing r) ∧
      DrawRounded.plotLimits L s (.fin (2 ^ 60)) (.fin (2 ^ 60)) = .ok l ∧ l.1.1 = l.1.2 ∧ l.2.1 = l.2.2 := by
  refine ⟨⟨.fin 0, .fin 0, .fin 0, [⟨.fin (1/2), .fin 1, .fin 0, .fin 0, .fin 0⟩]⟩, _,
    ⟨_, rfl, 1/2, 1, 0, 0, 0, rfl, by norm_num⟩, rfl, ?_, ?_⟩ <;>
  · simp only [FloatLib.sub, FloatLib.add, hL]
    decide +kernel

/-- The hypotheses of C127 are met in binary64: two rings around (3, 1), drawn with a path of four points. -/
example : ∃ (s : RSys ℝ) (l : RingObj ℝ) (d : ℝ), WellFormed s ∧ s.rings.getLast? = some l ∧ l.outer = .fin d ∧
    s.rings.length = 2 ∧
    Accurate .double (1 / 2 ^ 53) ∧ (∀ p ∈ [((1 : ℝ), (0 : ℝ)), (0, 1), (-1, 0), (0, -1)], |p.1| ≤ 1 ∧ |p.2| ≤ 1) ∧
    70 * (1 / 2 ^ 53) * (d + |(3 : ℝ)| + |(1 : ℝ)| + 2) ≤ 1 ∧ (1 : ℝ) ≤ 3 := by
  refine ⟨⟨.fin 1, .fin 10, .fin 20, [⟨.fin 1, .fin 2, .fin 0, .fin 10, .fin 20⟩,
    ⟨.fin 3, .fin 4, .fin (1/2), .fin 10, .fin 20⟩]⟩, _, 4, ?_, rfl, rfl, rfl, double_accurate, ?_, ?_, by norm_num⟩
  · refine ⟨⟨10, 20, rfl, rfl, by norm_num⟩, ?_, by simp, by simp, ?_⟩
    · intro r hr
      simp only [List.mem_cons, List.not_mem_nil, or_false] at hr
      rcases hr with rfl | rfl
      · exact ⟨1, 2, 0, 10, 20, rfl, by norm_num⟩
      · exact ⟨3, 4, 1/2, 10, 20, rfl, by norm_num⟩
    · simp [lessEq_iff]
      norm_num
  · intro p hp
    simp only [List.mem_cons, List.not_mem_nil, or_false] at hp
    rcases hp with rfl | rfl | rfl | rfl <;> simp
  · rw [abs_of_pos (by norm_num : (0 : ℝ) < 3), abs_one]
    norm_num

end Beyonce
