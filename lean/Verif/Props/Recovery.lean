import Verif.Props.Explained

/-!
# C116: an eclipse caused by a disk of the grid is traced back to it

Injection and recovery: the slopes of a light curve are those that the edge of a disk of the grid causes; then the
analysis succeeds and ends with this disk, or with disks that cause the same slopes.
-/

set_option linter.unusedSectionVars false

namespace Beyonce
open Spec Geometry Real

/-- The slope of the light curve that is measured is at most the one that the edge of the disk causes when it passes
the star with a change `ρ` of the transmission; it is this one if `exactly`. -/
def Spec.CausedBy (exactly : Bool) (duration velocity limb dx dy R I T : ℝ) (q : Measurement ℝ) : Prop :=
  ∃ τ σ ρ e w : ℝ, q.time = .fin τ ∧ q.slope = .fin σ ∧ q.transmission = .fin ρ ∧ q.error = .fin e ∧
    0 ≤ σ ∧ 0 < ρ ∧ ρ ≤ 1 ∧ 0 < e ∧ TangentTo dx dy R I T (-τ / duration) (.fin w) ∧
    σ ≤ w * ρ / orbitalFactor velocity limb ∧ (exactly = true → σ = w * ρ / orbitalFactor velocity limb)

theorem orbitalFactor_pos {v l : ℝ} (l0 : 0 ≤ l) (l1 : l ≤ 1) (v0 : 0 < v) : 0 < orbitalFactor v l := by
  unfold orbitalFactor
  have h1 : 0 < 6 - 2 * l := by linarith
  have h2 : 0 < 12 - 12 * l + 3 * π * l := by nlinarith [pi_gt_three]
  have := pi_pos
  positivity

theorem tangentTo_range {dx dy a i t p w : ℝ} (h : TangentTo dx dy a i t p (.fin w)) : 0 ≤ w ∧ w ≤ 1 := by
  rcases h with ⟨-, -, h⟩ | ⟨l, φ, tx, ty, -, -, -, -, -, h5, h6⟩
  · cases h
  · by_cases h0 : tx = 0
    · exact absurd (h5 h0) (by simp)
    · have := h6 h0
      injection this with this
      rw [this]
      refine ⟨by positivity, div_le_one_of_le₀ ?_ (sqrt_nonneg _)⟩
      rw [← sqrt_sq_eq_abs]
      exact sqrt_le_sqrt (by nlinarith [sq_nonneg tx])

theorem causedBy_asked {ex : Bool} {D V U dx dy R I T : ℝ} {q : Measurement ℝ} (h : CausedBy ex D V U dx dy R I T q)
    (hf : 0 < orbitalFactor V U) : ∃ τ σ ρ e w : ℝ, q.time = .fin τ ∧ q.slope = .fin σ ∧ q.transmission = .fin ρ ∧
      q.error = .fin e ∧ 0 ≤ σ ∧ 0 < ρ ∧ ρ ≤ 1 ∧ 0 < e ∧ TangentTo dx dy R I T (-τ / D) (.fin w) ∧
      σ * orbitalFactor V U / ρ ≤ w ∧ w ≤ 1 ∧ (ex = true → σ * orbitalFactor V U / ρ = w) := by
  obtain ⟨τ, σ, ρ, e, w, a1, a2, a3, a4, a5, a6, a7, a8, a9, b1, b2⟩ := h
  refine ⟨τ, σ, ρ, e, w, a1, a2, a3, a4, a5, a6, a7, a8, a9, ?_, (tangentTo_range a9).2, fun hex => ?_⟩
  · rw [div_le_iff₀ a6]
    exact (le_div_iff₀ hf).1 b1
  · rw [div_eq_iff a6.ne']
    exact (eq_div_iff hf.ne').1 (b2 hex)

/-- What it causes it explains. -/
theorem causedBy_explains {ex w : Bool} {D V U dx dy R I T : ℝ} (hf : 0 < orbitalFactor V U) :
    ∀ qs : List (Measurement ℝ), (∀ q ∈ qs, CausedBy ex D V U dx dy R I T q) →
      ∃ z, Explains w D V U qs dx dy R I T z ∧ (ex = true → z = 0)
  | [], _ => ⟨0, ⟨[], .nil, rfl⟩, fun _ => rfl⟩
  | q :: qs, h => by
    obtain ⟨z, ⟨zs, h1, h2⟩, h3⟩ := causedBy_explains (w := w) hf qs fun q' hq' => h q' (by simp [hq'])
    obtain ⟨τ, σ, ρ, e, ω, a1, a2, a3, a4, a5, a6, a7, a8, a9, b1, -, b2⟩ := causedBy_asked (h q (by simp)) hf
    refine ⟨_, ⟨_ :: zs, .cons ⟨τ, σ, ρ, e, ω, a1, a2, a3, a4, a9, b1, rfl⟩ h1, rfl⟩, fun hex => ?_⟩
    rw [List.sum_cons, ← h2, h3 hex, b2 hex]
    simp

/-- A disk that explains measurements without a misfit causes them. -/
theorem explains_causes {w : Bool} {D V U dx dy R I T : ℝ} (hf : 0 < orbitalFactor V U) :
    ∀ qs : List (Measurement ℝ),
      (∀ q ∈ qs, ∃ σ ρ e : ℝ, q.slope = .fin σ ∧ q.transmission = .fin ρ ∧ q.error = .fin e ∧ 0 ≤ σ ∧ 0 < ρ ∧ ρ ≤ 1 ∧
        0 < e) → ∀ z, Explains w D V U qs dx dy R I T z → 0 ≤ z ∧
      (z = 0 → ∀ q ∈ qs, CausedBy true D V U dx dy R I T q)
  | [], _, z, ⟨zs, h1, h2⟩ => by cases h1; exact ⟨by simp [h2], fun _ q hq => by cases hq⟩
  | q :: qs, hq, z, ⟨zs, h1, h2⟩ => by
    cases h1 with
    | @cons _ y _ ys h1 h3 =>
      obtain ⟨i1, i2⟩ := explains_causes (w := w) hf qs (fun q' hq' => hq q' (by simp [hq'])) _ ⟨ys, h3, rfl⟩
      obtain ⟨τ, σ, ρ, e, ω, a1, a2, a3, a4, a5, a6, a7⟩ := h1
      obtain ⟨σ', ρ', e', b1, b2, b3, b4, b5, b6, b7⟩ := hq q (by simp)
      rw [a2] at b1
      rw [a3] at b2
      rw [a4] at b3
      cases b1; cases b2; cases b3
      have hw : (0 : ℝ) < if w then e ^ 2 else 1 := by
        split_ifs
        · positivity
        · norm_num
      have hy : 0 ≤ y := by rw [a7]; positivity
      rw [List.sum_cons] at h2
      refine ⟨by rw [h2]; linarith, fun hz q' hq' => ?_⟩
      have hy0 : y = 0 := by linarith
      rcases List.mem_cons.1 hq' with rfl | hq'
      · rw [hy0] at a7
        have hω : ω = σ * orbitalFactor V U / ρ := by
          have := (div_eq_zero_iff.1 a7.symm).resolve_right hw.ne'
          have := pow_eq_zero_iff (two_ne_zero) |>.1 this
          linarith
        have hσ : σ = ω * ρ / orbitalFactor V U := by
          rw [hω, div_mul_cancel₀ _ b5.ne', mul_div_cancel_right₀ _ hf.ne']
        exact ⟨τ, σ, ρ, e, ω, a1, a2, a3, a4, b4, b5, b6, b7, a5, hσ.le, fun _ => hσ⟩
      · exact i2 (by linarith) q' hq'

section
variable (minX maxX numX minY maxY numY maxRf numRf : PyVal ℝ) (g : GridParams ℝ)
    (hg : GridParams.new minX maxX numX minY maxY numY maxRf numRf = .ok g) (a b c d m : ℝ)
    (ha : IsNumber false minX (.fin a)) (hb : IsNumber false maxX (.fin b))
    (hc : IsNumber false minY (.fin c)) (hd : IsNumber false maxY (.fin d))
    (hm : IsNumber false maxRf (.fin m))
    (hext : g.extendable = true → 2 ≤ g.sliceShape.1 ∧ 2 ≤ g.sliceShape.2) (v k : PyVal ℝ)
    (s : Shallot ℝ) (g' : GridParams ℝ) (h : Shallot.new v k g = (.ok s, g'))
    (vD vV vU : PyVal ℝ) (D V U : ℝ) (nD : IsNumber false vD (.fin D)) (pD : Shallot.quotientType vD = "float64")
    (nV : IsNumber false vV (.fin V)) (nU : IsNumber false vU (.fin U)) (hD : 0 < D) (hV : 0 < V) (U0 : 0 ≤ U)
    (U1 : U ≤ 1) (bs : List (List (Measurement ℝ))) (hne : bs.flatten ≠ []) (p : ℕ × ℕ × ℕ) (dx dy R I T : ℝ)
    (hp : HoldsDisk s p dx dy R I T) (w : Bool)
include hg ha hb hc hd hm hext h nD pD nV nU hD hV U0 U1 hne hp

/-- What both theorems need: all calls succeed. -/
theorem recovery (ex : Bool) (hq : ∀ q ∈ bs.flatten, CausedBy ex D V U dx dy R I T q) :
    ∃ s₁ s₂ s₃, Shallot.setEclipseParameters vD vV vU s = (.ok (), s₁) ∧ addCalls bs s₁ = (.ok (), s₂) ∧
      Shallot.determineFit w s₂ = (.ok (), s₃) ∧
      ∀ (num : PyVal ℝ) (k : ℤ), num = .none ∨ PlainIndex num k →
      (∃ rows s₄, Shallot.extractSolutions num s₃ = (.ok rows, s₄) ∧
        BestSolutions s w D V U bs.flatten num k rows) ∨
      (num ≠ .none ∧ Shallot.extractSolutions num s₃ = (.error .valueError, s₃) ∧
        (k < 0 ∨ ∀ ps : List (ℕ × ℕ × ℕ), ps.Nodup → (∀ p ∈ ps, ∃ dx dy R I T z,
          HoldsDisk s p dx dy R I T ∧ Explains w D V U bs.flatten dx dy R I T z) →
          (ps.length : ℤ) < k)) := by
  have hf := orbitalFactor_pos U0 U1 hV
  obtain ⟨keep, hk, hmade⟩ := made_new _ _ _ _ _ _ _ _ g g' hg hext v k s h
  have nn : ∀ {v : PyVal ℝ} {x : ℝ}, IsNumber false v (.fin x) → 0 ≤ x → NotNegative v :=
    fun hx h0 => ⟨_, hx, by simpa [less_iff] using h0⟩
  have h₁ := (C49_partial s (fun _ => hmade.nothing.2) vD vV vU).1 ⟨nn nD hD.le, nn nV hV.le, _, nU,
    by simpa [less_iff] using U0, by simpa [less_iff] using U1⟩
  obtain ⟨s₁, e₁⟩ : ∃ s₁, s₁ = (Shallot.setEclipseParameters vD vV vU s).2 := ⟨_, rfl⟩
  have h₁' : Shallot.setEclipseParameters vD vV vU s = (.ok (), s₁) := by rw [e₁, h₁]
  have e₁' := e₁
  rw [h₁] at e₁'
  obtain ⟨scale, k5, k6⟩ := C60_grid s₁ vV vU V U (by rw [e₁']) (by rw [e₁']) nV nU hV U0 U1
  have hready : s₁.ready = true := by rw [e₁']; rfl
  obtain ⟨s₂, h₂⟩ := addCalls_of bs s₁ hready vD scale ⟨by rw [e₁'], pD⟩ k5 (by
    intro q hqm
    obtain ⟨τ, σ, ρ, e, ω, a1, a2, a3, a4, a5, a6, a7, a8, a9, b1, b2, -⟩ := causedBy_asked (hq q hqm) hf
    refine ⟨⟨?_, ?_, ?_, ?_⟩, ?_⟩
    · rw [a2]; simpa [less_iff] using a5
    · rw [a4]; simpa [less_iff] using a8.le
    · rw [a3]; simpa [less_iff] using a6.le
    · rw [a3]; simpa [less_iff] using a7
    · unfold gradientOf measure
      rw [a2, a3, a4, XF.abs_fin, abs_of_nonneg a5]
      obtain ⟨g₁, hg₁⟩ := (C34_succeeds_iff (.npFloat .w64 (.fin σ)) scale (.npFloat .w64 (.fin ρ))
        (.npFloat .w64 (.fin e)) (blank s₁ (q.time.neg.div vD.num)) σ (orbitalFactor V U) ρ
        (Or.inr ⟨rfl, .npFloat _ _⟩) k6 ((givenOr_iff _ _).2 (by
          have : orOne (.npFloat .w64 (.fin ρ) : PyVal ℝ) = .npFloat .w64 (.fin ρ) := by simp [orOne]
          rw [this]
          exact Or.inr ⟨rfl, .npFloat _ _⟩)) a6).2 ⟨a5, hf.le, a7, ⟨.fin e, (givenOr_iff _ _).2 (by
            have : orOne (.npFloat .w64 (.fin e) : PyVal ℝ) = .npFloat .w64 (.fin e) := by simp [orOne]
            rw [this]
            exact Or.inr ⟨rfl, .npFloat _ _⟩), by simpa [less_iff] using a8.le⟩, b1.trans b2⟩
      rw [hg₁])
  obtain ⟨s₃, h₃, hall⟩ := C97_solutions _ _ _ _ _ _ _ _ g hg a b c d m ha hb hc hd hm hext v k s g' h vD vV vU
    D V U nD nV nU hD hV s₁ h₁' bs hne (by
      intro q hqm
      obtain ⟨τ, σ, ρ, e, ω, a1, a2, a3, a4, a5, a6, a7, a8, -⟩ := hq q hqm
      exact ⟨τ, σ, ρ, e, a1, a2, a3, a6, a4, a8⟩) s₂ h₂ w
  exact ⟨s₁, s₂, s₃, h₁', h₂, h₃, hall⟩

/-- **C116** The slopes are at most those that a disk of the grid causes (the transmission was assumed to change at
least as much as it did): all calls of the analysis succeed, and the disk is among the solutions. -/
theorem C116_kept (hq : ∀ q ∈ bs.flatten, CausedBy false D V U dx dy R I T q) :
    ∃ s₁ s₂ s₃ rows s₄ z, Shallot.setEclipseParameters vD vV vU s = (.ok (), s₁) ∧ addCalls bs s₁ = (.ok (), s₂) ∧
      Shallot.determineFit w s₂ = (.ok (), s₃) ∧ Shallot.extractSolutions .none s₃ = (.ok rows, s₄) ∧
      (⟨.fin z, .fin R, .fin I, .fin T, .fin dx, .fin dy⟩ : Shallot.Solution ℝ) ∈ rows := by
  have hf := orbitalFactor_pos U0 U1 hV
  obtain ⟨s₁, s₂, s₃, h₁, h₂, h₃, hall⟩ := recovery _ _ _ _ _ _ _ _ g hg a b c d m ha hb hc hd hm hext v k s g' h
    vD vV vU D V U nD pD nV nU hD hV U0 U1 bs hne p dx dy R I T hp w false hq
  obtain ⟨z, hz, -⟩ := causedBy_explains (w := w) hf _ hq
  rcases hall .none 0 (Or.inl rfl) with ⟨rows, s₄, h4, ps, b1, b2, b3, b4, b5⟩ | ⟨hno, -⟩
  swap
  · exact absurd rfl hno
  rcases b5 p dx dy R I T z hp hz with hin | ⟨hno, -⟩
  swap
  · exact absurd rfl hno
  obtain ⟨row, hrow, dx', dy', R', I', T', z', e1, e2, -⟩ : ∃ row ∈ rows, ∃ dx dy R I T z,
      row = ⟨.fin z, .fin R, .fin I, .fin T, .fin dx, .fin dy⟩ ∧ HoldsDisk s p dx dy R I T ∧
      Explains w D V U bs.flatten dx dy R I T z ∧
      DiskOfEclipse (.fin R) (.fin I) (.fin T) (.fin dx) (.fin dy) := by
    clear b1 b3 b4 b5 h4
    induction b2 with
    | nil => cases hin
    | cons h1 _ ih =>
      rcases List.mem_cons.1 hin with rfl | hin
      · exact ⟨_, by simp, h1⟩
      · obtain ⟨row, hr, hh⟩ := ih hin
        exact ⟨row, by simp [hr], hh⟩
  obtain ⟨-, -, -, i1, i2, i3, i4, i5⟩ := hp
  obtain ⟨-, -, -, j1, j2, j3, j4, j5⟩ := e2
  rw [i1] at j1
  rw [i2] at j2
  rw [i3] at j3
  rw [i4] at j4
  rw [i5] at j5
  cases j1; cases j2; cases j3; cases j4; cases j5
  exact ⟨s₁, s₂, s₃, rows, s₄, z', h₁, h₂, h₃, h4, e1 ▸ hrow⟩

/-- **C116** The slopes are those that a disk of the grid causes: all calls of the analysis succeed, the first
solution can be asked for, it is a disk of the grid that causes the same slopes, and its fit is 0.  However many
solutions are asked for, the disk is among them or all of them are disks of the grid that cause the same slopes. -/
theorem C116_recovered (hq : ∀ q ∈ bs.flatten, CausedBy true D V U dx dy R I T q) :
    ∃ s₁ s₂ s₃, Shallot.setEclipseParameters vD vV vU s = (.ok (), s₁) ∧ addCalls bs s₁ = (.ok (), s₂) ∧
      Shallot.determineFit w s₂ = (.ok (), s₃) ∧
      (∃ s₄ p' dx' dy' R' I' T', HoldsDisk s p' dx' dy' R' I' T' ∧
        Shallot.extractSolutions (.int 1) s₃ =
          (.ok [⟨.fin 0, .fin R', .fin I', .fin T', .fin dx', .fin dy'⟩], s₄) ∧
        ∀ q ∈ bs.flatten, CausedBy true D V U dx' dy' R' I' T' q) ∧
      ∀ (num : PyVal ℝ) (k : ℤ), num = .none ∨ PlainIndex num k → ∀ rows s₄,
        Shallot.extractSolutions num s₃ = (.ok rows, s₄) →
        (⟨.fin 0, .fin R, .fin I, .fin T, .fin dx, .fin dy⟩ : Shallot.Solution ℝ) ∈ rows ∨
        ∀ row ∈ rows, ∃ p' dx' dy' R' I' T', HoldsDisk s p' dx' dy' R' I' T' ∧
          row = ⟨.fin 0, .fin R', .fin I', .fin T', .fin dx', .fin dy'⟩ ∧
          ∀ q ∈ bs.flatten, CausedBy true D V U dx' dy' R' I' T' q := by
  have hf := orbitalFactor_pos U0 U1 hV
  obtain ⟨s₁, s₂, s₃, h₁, h₂, h₃, hall⟩ := recovery _ _ _ _ _ _ _ _ g hg a b c d m ha hb hc hd hm hext v k s g' h
    vD vV vU D V U nD pD nV nU hD hV U0 U1 bs hne p dx dy R I T hp w true hq
  obtain ⟨z, hz, hz0⟩ := causedBy_explains (w := w) hf _ hq
  obtain rfl := hz0 rfl
  have hq' : ∀ q ∈ bs.flatten, ∃ σ ρ e : ℝ, q.slope = .fin σ ∧ q.transmission = .fin ρ ∧ q.error = .fin e ∧
      0 ≤ σ ∧ 0 < ρ ∧ ρ ≤ 1 ∧ 0 < e := by
    intro q hqm
    obtain ⟨τ, σ, ρ, e, ω, a1, a2, a3, a4, a5, a6, a7, a8, -⟩ := hq q hqm
    exact ⟨σ, ρ, e, a2, a3, a4, a5, a6, a7, a8⟩
  obtain ⟨n1, n2, n3, i1, i2, i3, i4, i5⟩ := hp
  have hp : HoldsDisk s p dx dy R I T := ⟨n1, n2, n3, i1, i2, i3, i4, i5⟩
  obtain ⟨r1, r2, r3⟩ := disk_ranges _ _ _ _ _ _ _ _ g hg a b c d m ha hb hc hd hm hext v k s g' h p.1 p.2.1 p.2.2
    n1 n2 n3 _ _ i3 i4
  have main : ∀ (num : PyVal ℝ) (k : ℤ), num = .none ∨ PlainIndex num k → ∀ rows s₄,
        Shallot.extractSolutions num s₃ = (.ok rows, s₄) →
        (⟨.fin 0, .fin R, .fin I, .fin T, .fin dx, .fin dy⟩ : Shallot.Solution ℝ) ∈ rows ∨
        ∀ row ∈ rows, ∃ p' dx' dy' R' I' T', HoldsDisk s p' dx' dy' R' I' T' ∧
          row = ⟨.fin 0, .fin R', .fin I', .fin T', .fin dx', .fin dy'⟩ ∧
          ∀ q ∈ bs.flatten, CausedBy true D V U dx' dy' R' I' T' q := by
    intro num k' hnum rows s₄ h4
    rcases hall num k' hnum with ⟨rows', s₄', h4', ps, b1, b2, b3, b4, b5⟩ | ⟨-, hno, -⟩
    swap
    · rw [h4] at hno; cases hno
    rw [h4] at h4'
    cases h4'
    rcases b5 p dx dy R I T 0 hp hz with hin | ⟨-, hno⟩
    · left
      obtain ⟨row, hrow, dx', dy', R', I', T', z', e1, e2, e3, -⟩ : ∃ row ∈ rows, ∃ dx dy R I T z,
          row = ⟨.fin z, .fin R, .fin I, .fin T, .fin dx, .fin dy⟩ ∧ HoldsDisk s p dx dy R I T ∧
          Explains w D V U bs.flatten dx dy R I T z ∧
          DiskOfEclipse (.fin R) (.fin I) (.fin T) (.fin dx) (.fin dy) := by
        clear b1 b3 b4 b5 h4
        induction b2 with
        | nil => cases hin
        | cons h1 _ ih =>
          rcases List.mem_cons.1 hin with rfl | hin
          · exact ⟨_, by simp, h1⟩
          · obtain ⟨row, hr, hh⟩ := ih hin
            exact ⟨row, by simp [hr], hh⟩
      obtain ⟨-, -, -, j1, j2, j3, j4, j5⟩ := e2
      rw [i1] at j1
      rw [i2] at j2
      rw [i3] at j3
      rw [i4] at j4
      rw [i5] at j5
      cases j1; cases j2; cases j3; cases j4; cases j5
      obtain rfl := explains_unique r1 r2 r3 hz e3
      exact e1 ▸ hrow
    · right
      intro row hrow
      have hnotless := hno row hrow
      obtain ⟨p', dx', dy', R', I', T', z', e1, e2, e3⟩ : ∃ p dx dy R I T z,
          row = ⟨.fin z, .fin R, .fin I, .fin T, .fin dx, .fin dy⟩ ∧ HoldsDisk s p dx dy R I T ∧
          Explains w D V U bs.flatten dx dy R I T z := by
        clear b1 b3 b4 b5 h4 hno
        induction b2 with
        | nil => cases hrow
        | cons h1 _ ih =>
          rcases List.mem_cons.1 hrow with rfl | hrow
          · obtain ⟨dx, dy, R, I, T, z, f1, f2, f3, -⟩ := h1
            exact ⟨_, dx, dy, R, I, T, z, f1, f2, f3⟩
          · exact ih hrow
      obtain ⟨g1, g2⟩ := explains_causes hf _ hq' _ e3
      have hz0 : z' = 0 := by
        rw [e1] at hnotless
        simp only [less_fin_iff, not_lt] at hnotless
        exact le_antisymm hnotless g1
      subst hz0
      exact ⟨p', dx', dy', R', I', T', e2, e1, g2 rfl⟩
  refine ⟨s₁, s₂, s₃, h₁, h₂, h₃, ?_, main⟩
  rcases hall (.int 1) 1 (Or.inr (.int 1)) with ⟨rows, s₄, h4, x2⟩ | ⟨-, -, hbad⟩
  · obtain ⟨row, rfl⟩ : ∃ row, rows = [row] := by
      obtain ⟨-, -, -, -, hlen, -⟩ := x2
      have := hlen (by simp)
      exact List.length_eq_one_iff.1 (by exact_mod_cast this)
    rcases main (.int 1) 1 (Or.inr (.int 1)) _ _ h4 with hin | hall'
    · have := List.mem_singleton.1 hin
      subst this
      exact ⟨s₄, p, dx, dy, R, I, T, hp, h4, hq⟩
    · obtain ⟨p', dx', dy', R', I', T', e2, e1, e3⟩ := hall' row (by simp)
      subst e1
      exact ⟨s₄, p', dx', dy', R', I', T', e2, h4, e3⟩
  · exfalso
    rcases hbad with hbad | hbad
    · norm_num at hbad
    · have := hbad [p] (by simp) (by
        intro p' hp'
        rw [List.mem_singleton.1 hp']
        exact ⟨dx, dy, R, I, T, 0, hp, hz⟩)
      simp at this

end

/-- A grid, a disk of it and a measurement that meet the hypotheses of `C116_kept` and `C116_recovered`. -/
example : ∃ (s : Shallot ℝ) (dx dy R I T : ℝ) (q : Measurement ℝ),
    Shallot.new (.int 100) (.bool false) throwAway = (.ok s, s.params) ∧ HoldsDisk s (2, 1, 1) dx dy R I T ∧
    CausedBy true 1 1 0 dx dy R I T q ∧ CausedBy false 1 1 0 dx dy R I T q := by
  obtain ⟨s, s₁, s₂, h, h₁, h₂, hgs, -, -, -, mask, c1, c2, -⟩ := throwAway_candidates
  have n1 : IsNumber false (.int 1 : PyVal ℝ) (.fin 1) := Or.inl ⟨1, .int 1, by simp⟩
  have n0 : IsNumber false (.int 0 : PyVal ℝ) (.fin 0) := Or.inl ⟨0, .int 0, by simp⟩
  have n2 : IsNumber false (.int 2 : PyVal ℝ) (.fin 2) := Or.inl ⟨2, .int 2, by simp⟩
  have hext : throwAway.extendable = true → 2 ≤ throwAway.sliceShape.1 ∧ 2 ≤ throwAway.sliceShape.2 :=
    fun _ => ⟨le_rfl, le_rfl⟩
  obtain ⟨mask', out, m1, hout, hiff, -⟩ := C95_partial _ _ _ _ _ _ _ _ throwAway throwAway_new 0 1 0 1 2 n0 n1 n0
    n1 n2 hext _ _ s _ h (.int 1) (.int 1) (.int 0) 1 1 0 n1 n1 n0 one_pos one_pos s₁ h₁ _ (by simp)
    (fun q hq => by
      simp only [List.flatten_cons, List.flatten_nil, List.append_nil, List.mem_singleton] at hq
      subst hq
      exact ⟨_, _, _, rfl, rfl, rfl, one_pos⟩) s₂ h₂ 2 1 1
    (by rw [hgs]; norm_num) (by rw [hgs]; norm_num) (by rw [hgs]; norm_num)
  rw [c1] at m1
  cases m1
  rw [hgs] at hout
  simp only [Nat.reduceMul, Nat.reduceAdd] at hout
  rw [c2] at hout
  obtain ⟨dx, dy, R, I, T, ω, i1, i2, i3, i4, i5, i6, i7⟩ := hiff.1 (Option.some.inj hout).symm
    (probe (1 / 4) 0 1) (by simp) _ _ _ rfl rfl rfl
  have hdisk : HoldsDisk s (2, 1, 1) dx dy R I T :=
    ⟨by rw [hgs]; norm_num, by rw [hgs]; norm_num, by rw [hgs]; norm_num, i1, i2, i3, i4, i5⟩
  have hf := orbitalFactor_pos (v := 1) (l := 0) le_rfl zero_le_one one_pos
  have h0 : 0 ≤ ω * 1 / orbitalFactor 1 0 := by
    have := (tangentTo_range i6).1
    positivity
  exact ⟨s, dx, dy, R, I, T, ⟨.fin (1 / 4), .fin (ω * 1 / orbitalFactor 1 0), .fin 1, .fin 1⟩, h, hdisk,
    ⟨_, _, _, _, ω, rfl, rfl, rfl, rfl, h0, one_pos, le_rfl, one_pos, i6, le_rfl, fun _ => rfl⟩,
    ⟨_, _, _, _, ω, rfl, rfl, rfl, rfl, h0, one_pos, le_rfl, one_pos, i6, le_rfl, fun _ => rfl⟩⟩

end Beyonce
