import Verif.Props.Fit

/-!
# A grid with gradients and a fit, and the hypotheses of C39 – C42 and C49 met by it
-/

namespace Beyonce
open Spec

/-- The orbital scale without limb darkening, for a velocity of at least 1. -/
theorem orbital_int (s : Shallot ℝ) (n : ℕ) (hn : 1 ≤ n) (hl : s.limb = some (.int 0))
    (hv : s.velocity = some (.int n)) :
    ∃ k : ℝ, 0 < k ∧ k ≤ 2 ∧ s.orbital = .ok (.float (.fin k)) := by
  have hn' : (1 : ℝ) ≤ n := by exact_mod_cast hn
  obtain ⟨k, hk, hk0, -, hk1⟩ := C60_orbital_scale.1 0 n le_rfl zero_le_one (by linarith)
  refine ⟨k, hk0, ?_, ?_⟩
  · have := Real.pi_lt_four
    have h2 : Real.pi / (2 * n) ≤ 2 := by
      rw [div_le_iff₀ (by linarith)]
      linarith
    linarith
  · unfold Shallot.orbital
    have e0 : (PyVal.int 0 : PyVal ℝ).num = .fin 0 := by simp [PyVal.num]
    have e1 : (PyVal.int n : PyVal ℝ).num = .fin n := by simp [PyVal.num]
    have e2 : Shallot.limbDenominator (XF.fin (0 : ℝ)) = .fin 12 := by
      unfold Shallot.limbDenominator
      rw [XF.mul_fin, XF.sub_fin]
      show (XF.fin (12 - 12 * 0)).add (XF.fin (3 * Real.pi * 0)) = .fin (12 : ℝ)
      rw [XF.add_fin]
      simp
    have e3 : (n : ℝ) ≠ 0 := by positivity
    simp only [hl, hv, Shallot.operand, needNumber, Shallot.isNumeric, Shallot.isPython, bind, Except.bind,
      e0, e1, e2, hk, if_true, XF.eqb, Bool.true_and]
    simp [e3]

/-- The grid of `throwAway_sound` with eclipse parameters: duration 1, velocity 1, no limb darkening. -/
theorem throwAway_ready : ∃ s₀ s : Shallot ℝ,
    Shallot.new (.int 100) (.bool false) throwAway = (.ok s₀, s₀.params) ∧
    Shallot.setEclipseParameters (.int 1) (.int 1) (.int 0) s₀ = (.ok (), s) ∧
    Sound s ∧ s.params.gridShape = (3, 3, 3) ∧ s.ready = true ∧ Duration s (.int 1) ∧
    (∃ k : ℝ, 0 < k ∧ k ≤ 2 ∧ s.orbital = .ok (.float (.fin k))) ∧ s.limb = some (.int 0) ∧
    (s.diskRadius.mask = none ∧ s.inclination.mask = none ∧ s.tilt.mask = none) ∧
    s.gradients = none ∧ s.gradientFit = none ∧ (∃ p, s.diagnosticMap = some p) ∧
    ∃ R : ℝ, 0 < R ∧ s.diskRadius.data.data[25]? = some (.fin R) := by
  obtain ⟨s₀, h1, hs, h2, h3, h4, h5, h6⟩ := throwAway_sound
  have h0 : NotNegative (K := ℝ) (.int 1) := ⟨_, int_isNumber 1, by rw [less_iff]; simp⟩
  have hf : Fraction (K := ℝ) (.int 0) :=
    ⟨_, int_isNumber 0, by rw [less_iff]; simp, by rw [less_iff]; simp⟩
  have he := (C49_partial s₀ (fun _ => h4.2) (.int 1) (.int 1) (.int 0)).1 ⟨h0, h0, hf⟩
  have hs' := exec_sound (.eclipse (.int 1) (.int 1) (.int 0)) s₀ hs
  have hex : GridOp.exec (.eclipse (.int 1) (.int 1) (.int 0)) s₀ =
    (Shallot.setEclipseParameters (.int 1) (.int 1) (.int 0) s₀).2 := rfl
  rw [hex, he] at hs'
  refine ⟨s₀, _, h1, he, hs', h2, rfl, ⟨rfl, rfl⟩, ?_, rfl, h3, rfl, rfl, h5, h6⟩
  exact orbital_int _ 1 le_rfl rfl rfl

/-- A measurement in the middle of the eclipse. -/
noncomputable def Spec.slopeOf (x : ℝ) : Measurement ℝ := ⟨.fin 0, .fin x, .fin 1, .fin 1⟩

theorem slope_mask (g : GGrad ℝ) (k x : ℝ) (hk : 0 < k) (hk2 : k ≤ 2) (hx : 0 ≤ x) (hx2 : x ≤ 1 / 2) :
    (GGrad.determineMask (.npFloat .w64 (slopeOf x).slope.abs) (.float (.fin k))
      (.npFloat .w64 (slopeOf x).transmission) (.npFloat .w64 (slopeOf x).error) g).1 = .ok () := by
  obtain ⟨g', hg'⟩ := (C34_succeeds_iff (.npFloat .w64 (.fin x)) (.float (.fin k))
    (.npFloat .w64 (.fin 1)) (.npFloat .w64 (.fin 1)) g x k 1
    (Or.inr ⟨rfl, .npFloat _ _⟩) (Or.inr ⟨rfl, .float _⟩) (Or.inr (Or.inr ⟨rfl, .npFloat _ _⟩))
    one_pos).2 ⟨hx, hk.le, le_rfl, ⟨.fin 1, Or.inr (Or.inr ⟨rfl, .npFloat _ _⟩), by rw [less_iff]; simp⟩,
      by nlinarith⟩
  have : (slopeOf x).slope.abs = .fin x := by
    show (XF.fin x).abs = _
    rw [XF.abs_fin, abs_of_nonneg hx]
  rw [this]
  show (GGrad.determineMask (.npFloat .w64 (.fin x)) (.float (.fin k)) (.npFloat .w64 (.fin 1))
    (.npFloat .w64 (.fin 1)) g).1 = _
  rw [hg']

theorem slopeOf_ok (s : Shallot ℝ) (d : PyVal ℝ) (k x : ℝ) (hk : 0 < k) (hk2 : k ≤ 2) (hx : 0 ≤ x)
    (hx2 : x ≤ 1 / 2) : Passable (slopeOf x) ∧
      (gradientOf s d (.float (.fin k)) (slopeOf x)).1 = .ok () := by
  refine ⟨⟨?_, ?_, ?_, ?_⟩, ?_⟩
  · rw [less_iff]; simpa [slopeOf] using hx
  · rw [less_iff]; simp [slopeOf]
  · rw [less_iff]; simp [slopeOf]
  · rw [less_iff]; simp [slopeOf]
  · unfold gradientOf measure
    exact slope_mask _ k x hk hk2 hx hx2

/-- Two gradients added to it in two calls. -/
theorem throwAway_added : ∃ s s₁ : Shallot ℝ, Sound s ∧ s.ready = true ∧ Duration s (.int 1) ∧
    s.gradients = none ∧ s.gradientFit = none ∧ s.params.gridShape = (3, 3, 3) ∧
    addCalls [[slopeOf 0], [slopeOf (1 / 2)]] s = (.ok (), s₁) ∧
    Sound s₁ ∧ s₁.ready = true ∧ Duration s₁ (.int 1) ∧ s₁.gradientFit = none ∧
    s₁.params = s.params ∧ (∃ p, s₁.diagnosticMap = some p) ∧
    ∃ l, s₁.gradients = some l ∧ l.length = 2 ∧ ∀ g ∈ l, g.error = some (.npFloat .w64 (.fin 1)) ∧
      ∃ m : ℝ, g.scaled = .ok (some (.fin m)) := by
  obtain ⟨-, s, -, -, hs, hgs, hr, hd, ⟨k, hk, hk2, ho⟩, -, -, hg, hf, ⟨dm, hdm⟩, -⟩ := throwAway_ready
  obtain ⟨s₁, h1⟩ := addCalls_of [[slopeOf 0], [slopeOf (1 / 2)]] s hr _ _ hd ho (by
    intro q hq
    simp only [List.flatten_cons, List.flatten_nil, List.append_nil, List.cons_append, List.nil_append,
      List.mem_cons, List.not_mem_nil, or_false] at hq
    rcases hq with rfl | rfl
    · exact slopeOf_ok s _ k 0 hk hk2 le_rfl (by norm_num)
    · exact slopeOf_ok s _ k _ hk hk2 (by norm_num) le_rfl)
  have hs₁ := addCalls_sound [[slopeOf 0], [slopeOf (1 / 2)]] s hs
  rw [h1] at hs₁
  obtain ⟨d, scale, hd', ho', hq, he⟩ := addCalls_ok _ s s₁ hr (by simp) h1
  have hdd : d = .int 1 := by
    have := hd'.eq
    rw [hd.eq] at this
    exact (Option.some.inj this).symm
  subst hdd
  rw [ho] at ho'
  cases ho'
  refine ⟨s, s₁, hs, hr, hd, hg, hf, hgs, h1, hs₁, ?_, ?_, ?_, ?_, ?_, ?_⟩
  · rw [he]; exact hr
  · rw [he]; exact ⟨hd.eq, hd.plain⟩
  · rw [he]
  · rw [he]
  · rw [he]; exact ⟨dm, hdm⟩
  · rw [he]
    refine ⟨_, rfl, by simp [hg], ?_⟩
    intro g hg'
    rw [hg] at hg'
    simp only [Option.getD_none, List.nil_append, List.mem_map] at hg'
    obtain ⟨q, hq', rfl⟩ := hg'
    have hok := (hq q hq').2
    have hq'' : ∃ x : ℝ, 0 ≤ x ∧ x ≤ 1 / 2 ∧ q = slopeOf x := by
      simp only [List.flatten_cons, List.flatten_nil, List.append_nil, List.cons_append, List.nil_append,
        List.mem_cons, List.not_mem_nil, or_false] at hq'
      rcases hq' with rfl | rfl
      · exact ⟨0, le_rfl, by norm_num, rfl⟩
      · exact ⟨1 / 2, by norm_num, le_rfl, rfl⟩
    obtain ⟨x, hx, hx2, rfl⟩ := hq''
    obtain ⟨b, hb⟩ : ∃ b, b = blank s ((slopeOf x).time.neg.div (PyVal.int 1 : PyVal ℝ).num) := ⟨_, rfl⟩
    have hgo : gradientOf s (.int 1) (.float (.fin k)) (slopeOf x) =
      GGrad.determineMask (.npFloat .w64 (.fin |x|)) (.float (.fin k)) (.npFloat .w64 (.fin 1))
        (.npFloat .w64 (.fin 1)) b := by rw [hb]; rfl
    rw [hgo] at hok ⊢
    have e1 : orOne (.npFloat .w64 (.fin 1) : PyVal ℝ) = .npFloat .w64 (.fin 1) := by simp [orOne]
    rcases determineMask_cases (.npFloat .w64 (.fin |x|)) (.float (.fin k)) (.npFloat .w64 (.fin 1))
        (.npFloat .w64 (.fin 1)) b with ⟨-, e, h'⟩ | ⟨-, -, e, h'⟩ | ⟨-, -, -, e, h'⟩ |
        ⟨-, -, -, -, e, h'⟩ | ⟨-, -, -, -, ⟨e, -, h'⟩ | ⟨q, hq1, hq2⟩⟩
    all_goals first | (rw [h'] at hok; cases hok) | skip
    rcases hq2 with ⟨-, h'⟩ | ⟨hlt, h'⟩
    · rw [h'] at hok; cases hok
    rw [h']
    rw [e1] at hq1
    have hq3 : q = .fin 1 := by
      have : q = (XF.fin 1).div (.fin 1) := (Except.ok.inj hq1).symm
      rw [this, XF.div_fin _ _ one_ne_zero, div_one]
    subst hq3
    refine ⟨?_, |x| * (k * 1), ?_⟩
    · exact congrArg some e1
    · have := scaled_stored b (.npFloat .w64 (.fin |x|)) (.float (.fin k)) (.npFloat .w64 (.fin 1))
        (.npFloat .w64 (.fin 1))
      rw [e1, hq1] at this
      simp only at this
      rw [hlt] at this
      exact this

/-- The hypotheses of `C39_order` and `C39_succeeds` are met: two measurements in two calls, or in one
call the other way round. -/
example : ∃ s s₁ s₂ : Shallot ℝ, Sound s ∧
    addCalls [[slopeOf 0], [slopeOf (1 / 2)]] s = (.ok (), s₁) ∧
    addCalls [[slopeOf (1 / 2), slopeOf 0]] s = (.ok (), s₂) ∧
    (s₁.gradients.getD []).length = 2 ∧
    ∃ m, s₁.combinedMask = .ok m ∧ s₂.combinedMask = .ok m := by
  obtain ⟨s, s₁, hs, -, -, -, -, -, h1, -, -, -, -, -, -, l, hl, hl2, -⟩ := throwAway_added
  have hp : ([[slopeOf 0], [slopeOf (1 / 2)]] : List (List (Measurement ℝ))).flatten.Perm
      [[slopeOf (1 / 2), slopeOf 0]].flatten := List.Perm.swap _ _ _
  obtain ⟨s₂, h2, -⟩ := C39_succeeds s s₁ _ [[slopeOf (1 / 2), slopeOf 0]] (by simp) (by simp) hp h1
  refine ⟨s, s₁, s₂, hs, h1, h2, by rw [hl]; exact hl2, C39_order s s₁ s₂ hs _ _ hp h1 h2⟩

/-- With a fit. -/
theorem throwAway_fit : ∃ s₁ s₂ : Shallot ℝ, Sound s₁ ∧ s₁.gradientFit = none ∧
    Shallot.determineFit true s₁ = (.ok (), s₂) ∧ Sound s₂ ∧ s₂.ready = true ∧ Duration s₂ (.int 1) ∧
    (∃ l, s₂.gradients = some l ∧ l.length = 2) ∧ ∃ p, s₂.gradientFit = some p := by
  obtain ⟨-, s₁, -, -, -, -, -, -, -, hs₁, hr, hd, hf, -, -, l, hl, hl2, hm⟩ := throwAway_added
  have hs₂ := determineFit_sound true s₁ hs₁
  rcases determineFit_cases true s₁ with ⟨h, -⟩ | ⟨gs, hg, ⟨e, -, h⟩ | ⟨p, data, -, -, -, h⟩⟩
  · rw [hl] at h; cases h
  · rw [hl] at hg
    cases hg
    have key : ∀ (l : List (GGrad ℝ)) (acc : List (XF ℝ)),
        (∀ g ∈ l, g.error = some (.npFloat .w64 (.fin 1)) ∧ ∃ m : ℝ, g.scaled = .ok (some (.fin m))) →
        ∃ d, Shallot.fitLoop true l acc = .ok d := by
      intro l
      induction l with
      | nil => intro acc _; exact ⟨acc, rfl⟩
      | cons g l ih =>
        intro acc h
        obtain ⟨h1, m, h2⟩ := h g (by simp)
        unfold Shallot.fitLoop Shallot.fitWeight Shallot.fitScaled
        rw [h1, h2]
        exact ih _ fun g' hg' => h g' (by simp [hg'])
    obtain ⟨d, hd'⟩ := key l _ hm
    rw [hd'] at h
    cases h
  · rw [h] at hs₂
    exact ⟨s₁, _, hs₁, hf, h, hs₂, hr, ⟨hd.eq, hd.plain⟩, ⟨l, hl, hl2⟩, p, rfl⟩

/-- The hypotheses of `C40_removes_partial` are met: the first of two gradients is removed, … -/
example : ∃ (s : Shallot ℝ) (l : List (GGrad ℝ)), s.gradients = some l ∧ l.length = 2 ∧
    Shallot.removeGradients (positions [0]) s =
      (.ok (), { s with gradients := some (without l [0]), gradientFit := none }) := by
  obtain ⟨-, s, -, -, -, -, -, -, ⟨l, hl, hl2⟩, -⟩ := throwAway_fit
  exact ⟨s, l, hl, hl2, C40_removes_partial s l hl [0] (by simp) (by simp [hl2])
    (by rintro rfl; cases hl2)⟩

/-- … and those of `C40_false` and `C40_false_last`: asked twice to remove the first of two gradients,
the method removes both; asked twice to remove the last one, it raises and keeps the fit. -/
theorem C40_false_witness : ∃ (s : Shallot ℝ) (l : List (GGrad ℝ)) (p : GProp ℝ),
    s.gradients = some l ∧ l.length = 2 ∧ s.gradientFit = some p ∧
    Shallot.removeGradients (positions [0, 0]) s =
      (.ok (), { s with gradients := some [], gradientFit := none }) ∧
    Shallot.removeGradients (positions [1, 1]) s =
      (.error .indexError, { s with gradients := some (l.take 1) }) := by
  obtain ⟨-, s, -, -, -, -, -, -, ⟨l, hl, hl2⟩, p, hp⟩ := throwAway_fit
  refine ⟨s, l, p, hl, hl2, hp, ?_, C40_false_last s l hl 1 (by omega)⟩
  rw [C40_false s l hl 0 (by omega), List.take_zero, List.drop_of_length_le (by omega)]
  rfl

/-- The hypotheses of `C42_false` and `C41_false` are met by a grid with two gradients and a fit, one
new measurement and errors given as a number. -/
theorem C41_false_witness : ∃ (s s' : Shallot ℝ) (e : Err) (p : GProp ℝ), Sound s ∧
    s.gradientFit = some p ∧
    Shallot.addGradients (column [.fin 0]) (column [.fin 0]) (.float (.fin 1)) .none s = (.error e, s') ∧
    s'.gradientFit = some p ∧ s'.gradients ≠ s.gradients ∧
    ∀ w, ∃ e', Shallot.determineFit w s' = (.error e', s') := by
  obtain ⟨-, s, -, -, -, hs, hr, hd, -, p, hp⟩ := throwAway_fit
  obtain ⟨e, s', h⟩ := C41_false s hr _ hd ⟨"float64", [1], [.fin 0]⟩ ⟨"float64", [1], [.fin 0]⟩
    ⟨rfl, rfl, rfl⟩ ⟨rfl, rfl, rfl⟩ (by rintro a ⟨⟩; rfl) (by rintro a ⟨⟩; rfl)
    (by simp [less_iff]) rfl (by simp) (.float (.fin 1)) (by simp) (by simp) p hp
  exact ⟨s, s', e, p, hs, hp, h⟩

/-- The hypotheses of `C41_partial` are met, and there is a fit. -/
example : ∃ (ops : List (GridOp ℝ)) (s : Shallot ℝ) (p : GProp ℝ), Sound s ∧ s.gradientFit = none ∧
    SucceedsAll ops s ∧ (runGrid ops s).gradientFit = some p ∧ FitCurrent (runGrid ops s) := by
  obtain ⟨s₁, s₂, hs, hf, h, -, -, -, -, p, hp⟩ := throwAway_fit
  have hr : runGrid [.fit true] s₁ = s₂ := by
    show (Shallot.determineFit true s₁).2 = s₂
    rw [h]
  exact ⟨[.fit true], s₁, p, hs, hf, ⟨trivial, trivial⟩, by rw [hr]; exact hp,
    C41_partial _ s₁ hs hf ⟨trivial, trivial⟩⟩

/-- The hypotheses of `C49_false` are met by a grid with gradients: the duration is the new one, the
gradients are those of the old one. -/
theorem C49_false_witness : ∃ (s : Shallot ℝ) (e : Err) (l : List (GGrad ℝ)), Sound s ∧
    s.gradients = some l ∧ l.length = 2 ∧ s.eclipseDuration = some (.int 1) ∧
    Shallot.setEclipseParameters (.int 2) (.int (-1)) (.int 0) s =
      (.error e, { s with eclipseDuration := some (.int 2) }) := by
  obtain ⟨-, s, -, -, -, hs, -, hd, ⟨l, hl, hl2⟩, -⟩ := throwAway_fit
  obtain ⟨e, he⟩ := C49_false s (.int 2) (.int (-1)) (.int 0)
    ⟨_, int_isNumber 2, by rw [less_iff]; simp⟩ (by
      rintro ⟨x, h1, h2⟩
      obtain rfl := isNumber_unique h1 (int_isNumber (-1))
      rw [less_iff] at h2
      simp at h2)
  exact ⟨s, e, l, hs, hl, hl2, hd.eq, he⟩

end Beyonce
