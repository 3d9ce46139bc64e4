import Verif.Props.Refit
import Verif.Props.Rescale

/-!
# C138: the order of the gradients matters neither for the fit nor for the solutions
-/

set_option linter.unusedSectionVars false

namespace Beyonce
open Spec

section
variable {K : Type} [Field K] [LinearOrder K] [IsStrictOrderedRing K] [RealFns K] [FloorRing K]

theorem addends_swap (a b c : XF K) : (a.add b).add c = (a.add c).add b := by
  cases a <;> cases b <;> cases c <;> simp [XF.add, add_right_comm]

theorem zipWith_swap (f g : XF K → XF K) (acc x y : List (XF K)) :
    List.zipWith (fun a z => a.add (g z)) (List.zipWith (fun a z => a.add (f z)) acc x) y =
      List.zipWith (fun a z => a.add (f z)) (List.zipWith (fun a z => a.add (g z)) acc y) x := by
  induction acc generalizing x y with
  | nil => simp
  | cons a acc ih =>
    cases x with
    | nil => cases y <;> simp
    | cons x xs =>
      cases y with
      | nil => simp
      | cons y ys =>
        simp only [List.zipWith_cons_cons, ih]
        rw [addends_swap]

/-- The loop over the gradients gives the same sums in any order. -/
theorem fitLoop_perm (w : Bool) {gs gs' : List (GGrad K)} (hp : gs.Perm gs') :
    ∀ (acc data : List (XF K)), Shallot.fitLoop w gs acc = .ok data →
      Shallot.fitLoop w gs' acc = .ok data := by
  induction hp with
  | nil => exact fun _ _ h => h
  | cons g _ ih =>
    intro acc data h
    unfold Shallot.fitLoop at h ⊢
    cases h1 : Shallot.fitWeight w g with
    | error e => rw [h1] at h; cases h
    | ok a =>
      cases h2 : Shallot.fitScaled g with
      | error e => rw [h1, h2] at h; cases h
      | ok b =>
        rw [h1, h2] at h
        exact ih _ _ h
  | swap g₁ g₂ l =>
    intro acc data h
    simp only [Shallot.fitLoop] at h ⊢
    cases h1 : Shallot.fitWeight w g₂ with
    | error e => rw [h1] at h; cases h
    | ok a =>
      cases h2 : Shallot.fitScaled g₂ with
      | error e => rw [h1, h2] at h; cases h
      | ok b =>
        cases h3 : Shallot.fitWeight w g₁ with
        | error e => rw [h1, h2, h3] at h; cases h
        | ok c =>
          cases h4 : Shallot.fitScaled g₁ with
          | error e => rw [h1, h2, h3, h4] at h; cases h
          | ok d =>
            rw [h1, h2, h3, h4] at h
            have h : Shallot.fitLoop w l (List.zipWith (fun a x => a.add (Shallot.fitTerm c d x))
              (List.zipWith (fun r x => r.add (Shallot.fitTerm a b x)) acc g₂.prop.data.data)
              g₁.prop.data.data) = .ok data := h
            rw [zipWith_swap] at h
            exact h
  | trans _ _ ih ih' => exact fun acc data h => ih' _ _ (ih _ _ h)

/-- What `determine_gradient_fit` stores, given the sums. -/
theorem determineFit_stores (w : Bool) (s : Shallot K) (gs : List (GGrad K)) (hg : s.gradients = some gs)
    (data : List (XF K)) (h : Shallot.fitLoop w gs (List.replicate
      (s.params.gridShape.1 * s.params.gridShape.2.1 * s.params.gridShape.2.2) (.fin 0)) = .ok data) :
    ∃ p : GProp K, ∀ gs' : List (GGrad K), Shallot.fitLoop w gs' (List.replicate
        (s.params.gridShape.1 * s.params.gridShape.2.1 * s.params.gridShape.2.2) (.fin 0)) = .ok data →
      Shallot.determineFit w { s with gradients := some gs' } =
        (.ok (), { s with gradients := some gs', gradientFit := some p }) := by
  obtain ⟨⟨a, b, c⟩, he⟩ : ∃ g, g = s.params.gridShape := ⟨_, rfl⟩
  have h2 := (prop_new_ok_iff .gradientFit .none (.arr ⟨"float64", [a, b, c], data⟩) s.params _).2
    ⟨_, rfl, rfl, by rw [← he], rfl⟩
  rcases setMask_cases (.arr ⟨"bool", [a, b, c],
      data.map fun x => .fin (if x.isNan = true then 1 else 0)⟩)
      (⟨.gradientFit, .none, s.params, ⟨[a, b, c], data⟩, none, nanmin data, nanmax data, "viridis", 11⟩ :
        GProp K) with ⟨a', -, -, -, e2⟩ | ⟨-, hno⟩
  swap
  · exact absurd ⟨_, rfl, rfl, rfl⟩ hno
  refine ⟨⟨.gradientFit, .none, s.params, ⟨[a, b, c], data⟩, some a'.toMask, nanmin data, nanmax data,
    "viridis", 11⟩, fun gs' h' => ?_⟩
  rw [← he] at h'
  unfold Shallot.determineFit
  rw [Meth.get_bind]
  simp only [← he]
  rw [h', Meth.lift_ok_bind, h2, Meth.lift_ok_bind, Meth.modify_bind,
    onProp_ok .gradientFit _ _ _ _ () rfl e2]
  rfl

/-- **C138** The fit does not depend on the order of the gradients: if it can be determined, it can be
determined with the gradients in any other order, and is the same. -/
theorem C138_fit (w : Bool) (s s₁ : Shallot K) (gs gs' : List (GGrad K)) (hp : gs.Perm gs')
    (hg : s.gradients = some gs) (h : Shallot.determineFit w s = (.ok (), s₁)) :
    Shallot.determineFit w { s with gradients := some gs' } =
      (.ok (), { s₁ with gradients := some gs' }) := by
  rcases determineFit_cases w s with ⟨hn, -⟩ | ⟨l, hl, ⟨e, h', -⟩ | ⟨p, data, h', -, -, -⟩⟩
  · rw [hg] at hn; cases hn
  · rw [h] at h'; cases h'
  · rw [hg] at hl
    cases hl
    obtain ⟨q, hq⟩ := determineFit_stores w s gs hg data h'
    have h₁ := hq gs h'
    rw [← hg] at h₁
    have h₁ := h.symm.trans h₁
    have : s₁ = { s with gradientFit := some q } := congrArg Prod.snd h₁
    rw [hq gs' (fitLoop_perm w hp _ _ h'), this]

/-- `s'` is `s` with its gradients in another order. -/
def Spec.Reordered (s s' : Shallot K) : Prop := ∃ gs gs' : List (GGrad K), s.gradients = some gs ∧
  gs.Perm gs' ∧ s' = { s with gradients := some gs' }

theorem Spec.Reordered.masked {s s' : Shallot K} (h : Reordered s s') (i : ℕ) :
    MaskedAt s' i ↔ MaskedAt s i := by
  obtain ⟨gs, gs', hg, hp, rfl⟩ := h
  unfold Spec.MaskedAt
  rw [hg]
  refine or_congr Iff.rfl (or_congr Iff.rfl (or_congr Iff.rfl ⟨?_, ?_⟩))
  · rintro ⟨l, ⟨⟩, g, h1, h2⟩
    exact ⟨_, rfl, g, hp.mem_iff.2 h1, h2⟩
  · rintro ⟨l, ⟨⟩, g, h1, h2⟩
    exact ⟨_, rfl, g, hp.mem_iff.1 h1, h2⟩

theorem Spec.Reordered.sound {s s' : Shallot K} (h : Reordered s s') (hs : Sound s) : Sound s' := by
  obtain ⟨gs, gs', hg, hp, rfl⟩ := h
  refine ⟨hs.shaped, fun c p hc => hs.props c p (by cases c <;> exact hc), ?_⟩
  rintro l ⟨⟩ g h1
  exact hs.gradients gs hg g (hp.mem_iff.2 h1)

theorem Spec.Reordered.unmasked {s s' : Shallot K} (h : Reordered s s') : unmasked s' = unmasked s := by
  ext i
  rw [mem_unmasked, mem_unmasked, h.masked]
  obtain ⟨gs, gs', hg, hp, rfl⟩ := h
  exact Iff.rfl

theorem Spec.Reordered.rowOf {s s' : Shallot K} (h : Reordered s s') {i : ℕ} {row : Shallot.Solution K}
    (hr : RowOf s' i row) : RowOf s i row := by
  obtain ⟨gs, gs', hg, hp, rfl⟩ := h
  exact hr

/-- **C138** The solutions do not depend on the order of the gradients (if the fits of the unmasked
elements are finite). -/
theorem C138_solutions (s s' : Shallot K) (h : Reordered s s') (hs : Sound s) (hd : s.diagnosticMap ≠ none)
    (v : ℕ → K) (hv : FitIs s v) (num : PyVal K) (k : ℕ) (ha : AsksFor s num k)
    (hk : k ≤ (unmasked s).card) :
    ∃ rows t t', Shallot.extractSolutions num s = (.ok rows, t) ∧
      Shallot.extractSolutions num s' = (.ok rows, t') ∧ rows.length = k := by
  have hU := h.unmasked
  obtain ⟨is, rows, t, a1, a2, a3, a4, a5, a6, a7⟩ := C45_best_partial s hs hd v hv num k ha hk
  have hd' : s'.diagnosticMap ≠ none := by
    obtain ⟨gs, gs', hg, hp, rfl⟩ := h
    exact hd
  have hv' : FitIs s' v := by
    obtain ⟨p, hp, hp'⟩ := hv
    refine ⟨p, ?_, fun i hi => hp' i (hU ▸ hi)⟩
    obtain ⟨gs, gs', hg, hp, rfl⟩ := h
    assumption
  obtain ⟨js, rows', t', b1, b2, b3, b4, b5, b6, b7⟩ := C45_best_partial s' (h.sound hs) hd' v hv' num k
    (by unfold Spec.AsksFor; rw [hU]; exact ha) (by rw [hU]; exact hk)
  rw [hU] at b4 b6
  have hij := best_unique (a2.trans b2.symm) a3 b3 a4 b4 a5 b5 a6 b6
  subst hij
  have hrows : rows = rows' := by
    clear a1 a2 a3 a4 a5 a6 b1 b2 b3 b4 b5 b6
    induction a7 generalizing rows' with
    | nil => cases b7; rfl
    | cons hx _ ih =>
      cases b7 with
      | cons hy hy' =>
        rw [ih _ hy', rowOf_unique hx.2 (h.rowOf hy.2) (hx.1.trans hy.1.symm)]
  subst hrows
  exact ⟨rows, t, t', a1, b1, by rw [← a7.length_eq, a2]⟩

/-- **C138** The same measurements, added in any order and split into any calls, give the same fit and
the same solutions. -/
theorem C138_measurements (s s₁ : Shallot K) (hs : Sound s) (hr : s.ready = true)
    (hg : s.gradients = none) (hd : s.diagnosticMap ≠ none) (bs bs' : List (List (Measurement K)))
    (hne : bs ≠ []) (hne' : bs' ≠ []) (hp : bs.flatten.Perm bs'.flatten)
    (h : addCalls bs s = (.ok (), s₁)) (ho : ∀ v, s.orbital = .ok v → ∃ o : K, v.num = .fin o)
    (hq : ∀ q ∈ bs.flatten, ∃ m e t : K, q.slope = .fin m ∧ q.error = .fin e ∧ 0 < e ∧
      q.transmission = .fin t ∧ 0 < t) (w : Bool) :
    ∃ s₁' s₂ s₂', addCalls bs' s = (.ok (), s₁') ∧ Shallot.determineFit w s₁ = (.ok (), s₂) ∧
      Shallot.determineFit w s₁' = (.ok (), s₂') ∧ s₂'.gradientFit = s₂.gradientFit ∧
      s₂.gradientFit ≠ none ∧ s₂'.combinedMask = s₂.combinedMask ∧
      ∀ (num : PyVal K) (k : ℤ), num = .none ∨ PlainIndex num k →
        (∃ rows t t', Shallot.extractSolutions num s₂ = (.ok rows, t) ∧
          Shallot.extractSolutions num s₂' = (.ok rows, t')) ∨
        (Shallot.extractSolutions num s₂ = (.error .valueError, s₂) ∧
          Shallot.extractSolutions num s₂' = (.error .valueError, s₂')) := by
  obtain ⟨s₂, v, h₂, hs₂, hdm, hgr, hv⟩ := C45_measured s s₁ hs hr hg bs hne h ho hq w
  obtain ⟨s₁', h₁', hperm, hsame⟩ := C39_succeeds s s₁ bs bs' hne hne' hp h
  obtain ⟨d, scale, -, -, -, e₁⟩ := addCalls_ok bs s s₁ hr hne h
  obtain ⟨d', scale', -, -, -, e₁'⟩ := addCalls_ok bs' s s₁' hr hne' h₁'
  obtain ⟨gs, hgs⟩ : ∃ gs, s₁.gradients = some gs := ⟨_, by rw [e₁]⟩
  obtain ⟨gs', hgs'⟩ : ∃ gs', s₁'.gradients = some gs' := ⟨_, by rw [e₁']⟩
  rw [hgs, hgs', Option.getD_some, Option.getD_some] at hperm
  have hfit := C138_fit w s₁ s₂ gs gs' hperm hgs h₂
  rw [hgs'] at hsame
  rw [← hsame] at hfit
  have hre : Reordered s₂ { s₂ with gradients := some gs' } := ⟨gs, gs', hgr.trans hgs, hperm, rfl⟩
  have hd₂ : s₂.diagnosticMap ≠ none := by rw [hdm]; exact hd
  refine ⟨s₁', s₂, _, h₁', h₂, hfit, rfl, ?_, ?_, ?_⟩
  · obtain ⟨p, hp, -⟩ := hv
    rw [hp]
    simp
  · obtain ⟨m₁, c1, c2, c3, c4⟩ := C38_union s₂ hs₂
    obtain ⟨m₂, d1, d2, d3, d4⟩ := C38_union _ (hre.sound hs₂)
    rw [c1, d1]
    congr 1
    exact mask_ext (d2.trans c2.symm) (d3.trans c3.symm) fun i => by rw [d4, c4, hre.masked]
  · intro num k hk
    have hrange : (∃ n : ℕ, AsksFor s₂ num n ∧ n ≤ (unmasked s₂).card) ∨
        (PlainIndex num k ∧ (k < 0 ∨ ((unmasked s₂).card : ℤ) < k)) := by
      rcases hk with rfl | hk
      · exact Or.inl ⟨_, Or.inl ⟨rfl, rfl⟩, le_rfl⟩
      · by_cases h0 : k < 0 ∨ ((unmasked s₂).card : ℤ) < k
        · exact Or.inr ⟨hk, h0⟩
        · push Not at h0
          obtain ⟨n, rfl⟩ := Int.eq_ofNat_of_zero_le h0.1
          exact Or.inl ⟨n, Or.inr hk, by exact_mod_cast h0.2⟩
    rcases hrange with ⟨n, ha, hn⟩ | ⟨hi, hb⟩
    · obtain ⟨rows, t, t', q1, q2, -⟩ := C138_solutions s₂ _ hre hs₂ hd₂ v hv num n ha hn
      exact Or.inl ⟨rows, t, t', q1, q2⟩
    · exact Or.inr ⟨C45_count s₂ hs₂ num k hi hb,
        C45_count _ (hre.sound hs₂) num k hi (by rw [hre.unmasked]; exact hb)⟩

end

/-- The hypotheses of `C138_measurements` are met: two different measurements, in two calls or, the other
way round, in one. The gradients are not in the same order. -/
theorem C138_witness : ∃ s s₁ s₁' s₂ s₂' : Shallot ℝ, Sound s ∧ s.ready = true ∧
    addCalls [[slopeOf 0], [slopeOf (1 / 2)]] s = (.ok (), s₁) ∧
    addCalls [[slopeOf (1 / 2), slopeOf 0]] s = (.ok (), s₁') ∧
    s₁'.gradients ≠ s₁.gradients ∧
    Shallot.determineFit true s₁ = (.ok (), s₂) ∧ Shallot.determineFit true s₁' = (.ok (), s₂') ∧
    s₂.gradientFit ≠ none ∧ s₂'.gradientFit = s₂.gradientFit ∧ s₂'.combinedMask = s₂.combinedMask := by
  obtain ⟨-, s, -, -, hs, -, hr, hd, ⟨k, hk, hk2, ho⟩, -, -, hg, -, ⟨p, hdm⟩, -⟩ := throwAway_ready
  have hrows : ∀ q ∈ ([[slopeOf 0], [slopeOf (1 / 2)]] : List (List (Measurement ℝ))).flatten,
      ∃ x : ℝ, 0 ≤ x ∧ x ≤ 1 / 2 ∧ q = slopeOf x := by
    intro q hq
    simp only [List.flatten_cons, List.flatten_nil, List.append_nil, List.cons_append, List.nil_append,
      List.mem_cons, List.not_mem_nil, or_false] at hq
    rcases hq with rfl | rfl
    · exact ⟨0, le_rfl, by norm_num, rfl⟩
    · exact ⟨1 / 2, by norm_num, le_rfl, rfl⟩
  obtain ⟨s₁, h₁⟩ := addCalls_of [[slopeOf 0], [slopeOf (1 / 2)]] s hr _ _ hd ho (by
    intro q hq
    obtain ⟨x, hx, hx2, rfl⟩ := hrows q hq
    exact slopeOf_ok s _ k x hk hk2 hx hx2)
  obtain ⟨s₁', s₂, s₂', h₁', h₂, h₂', e1, e2, e3, -⟩ := C138_measurements s s₁ hs hr hg
    (by rw [hdm]; simp) [[slopeOf 0], [slopeOf (1 / 2)]] [[slopeOf (1 / 2), slopeOf 0]] (by simp) (by simp)
    (List.Perm.swap _ _ _) h₁ (by rintro v hv; rw [ho] at hv; cases hv; exact ⟨k, rfl⟩) (by
      intro q hq
      obtain ⟨x, -, -, rfl⟩ := hrows q hq
      exact ⟨x, 1, 1, rfl, rfl, one_pos, rfl, one_pos⟩) true
  refine ⟨s, s₁, s₁', s₂, s₂', hs, hr, h₁, h₁', ?_, h₂, h₂', e2, e1, e3⟩
  obtain ⟨d, sc, -, -, hq, e₁⟩ := addCalls_ok _ s s₁ hr (by simp) h₁
  obtain ⟨d', sc', -, -, hq', e₁'⟩ := addCalls_ok _ s s₁' hr (by simp) h₁'
  rw [e₁, e₁', hg]
  intro he
  simp only [Option.getD_none, List.nil_append, List.flatten_cons, List.flatten_nil, List.append_nil,
    List.cons_append, List.map_cons, List.map_nil, Option.some.injEq, List.cons.injEq] at he
  have m := (determineMask_stored (gradientOf_eq (hq (slopeOf 0) (by simp)).2)).1
  have m' := (determineMask_stored (gradientOf_eq (hq' (slopeOf (1 / 2)) (by simp)).2)).1
  rw [← he.1, m'] at m
  have : (XF.fin |(1 / 2 : ℝ)|) = XF.fin |(0 : ℝ)| := by simpa [slopeOf, XF.abs_fin] using m
  norm_num at this

end Beyonce
