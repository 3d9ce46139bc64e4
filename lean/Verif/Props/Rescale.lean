import Verif.Props.Measured

/-!
# C50: `update_gradient_scaling`
-/

set_option linter.unusedSectionVars false

namespace Beyonce
open Spec

section
variable {K : Type} [Field K] [LinearOrder K] [IsStrictOrderedRing K] [RealFns K] [FloorRing K]

/-- `h` is `g` but for the mask and what has been measured. -/
def Spec.SameGradient (g h : GGrad K) : Prop :=
  h.position = g.position ∧ h.prop = { g.prop with mask := h.prop.mask }

/-- What `determine_mask` makes of a gradient does not depend on what had been measured before. -/
theorem determineMask_same {vm vo vt ve : PyVal K} {g g' h : GGrad K}
    (hg : GGrad.determineMask vm vo vt ve g = (.ok (), g')) (hh : SameGradient g h) :
    GGrad.determineMask vm vo vt ve h = (.ok (), g') := by
  obtain ⟨hp, hq⟩ := hh
  rcases determineMask_cases vm vo vt ve g with ⟨-, e, h'⟩ | ⟨-, -, e, h'⟩ | ⟨-, -, -, e, h'⟩ |
    ⟨-, -, -, -, e, h'⟩ | ⟨h1, h2, h3, h4, ⟨e, -, h'⟩ | ⟨q, hq1, ⟨hlt, h'⟩ | ⟨hlt, h'⟩⟩⟩
  all_goals rw [h'] at hg
  all_goals first | (simp at hg; done) | skip
  have hg : _ = g' := congrArg Prod.snd hg
  subst hg
  rcases determineMask_cases vm vo vt ve h with ⟨n, -⟩ | ⟨-, n, -⟩ | ⟨-, -, n, -⟩ |
    ⟨-, -, -, n, -⟩ | ⟨-, -, -, -, ⟨e, n, -⟩ | ⟨q', n, ⟨hlt', -⟩ | ⟨-, n'⟩⟩⟩
  · exact absurd h1 n
  · exact absurd h2 n
  · exact absurd h3 n
  · exact absurd h4 n
  · rw [hq1] at n; cases n
  · rw [hq1] at n
    cases n
    rw [hlt] at hlt'
    cases hlt'
  · rw [hq1] at n
    cases n
    rw [n']
    obtain ⟨pr, po, a, b, c, d⟩ := h
    simp only at hp hq
    simp only [stored]
    rw [hp, hq]

/-- The transmission change of gradient `k` after the call. -/
def Spec.newTransmission (t : Option (List (XF K))) (k : ℕ) (g : GGrad K) : PyVal K :=
  match t with
  | some l => .npFloat .w64 (l.getD k .nan)
  | none => Shallot.argOf g.transmission

theorem rescaleLoop_ok (u : Bool) (t : Option (List (XF K))) (gs : List (GGrad K)) :
    ∀ (pre : List (GGrad K)) (s s' : Shallot K), s.gradients = some (pre ++ gs) →
    Shallot.rescaleLoop u t gs.length pre.length s = (.ok (), s') →
    ∃ gs' : List (GGrad K), s' = { s with gradients := some (pre ++ gs') } ∧ gs'.length = gs.length ∧
      ∀ (k : ℕ) (g g' : GGrad K), gs[k]? = some g → gs'[k]? = some g' →
        ∃ scale, (if u then s.orbital else .ok (Shallot.argOf g.orbital)) = .ok scale ∧
          GGrad.determineMask (Shallot.argOf g.measured) scale (newTransmission t (pre.length + k) g)
            (Shallot.argOf g.error) g = (.ok (), g') := by
  induction gs with
  | nil =>
    intro pre s s' hg h
    cases h
    refine ⟨[], ?_, rfl, by simp⟩
    rw [← hg]
  | cons g gs ih =>
    intro pre s s' hg h
    rw [List.length_cons] at h
    unfold Shallot.rescaleLoop at h
    rw [Meth.get_bind] at h
    have hk : (s.gradients.getD [])[pre.length]? = some g := by rw [hg]; simp
    simp only [hk] at h
    cases hsc : (if u = true then s.orbital else .ok (Shallot.argOf g.orbital)) with
    | error e => rw [hsc] at h; cases h
    | ok scale =>
      rw [hsc, Meth.lift_ok_bind] at h
      have h : (do
          Shallot.onGradient pre.length (GGrad.determineMask (Shallot.argOf g.measured) scale
            (newTransmission t pre.length g) (Shallot.argOf g.error))
          Shallot.rescaleLoop u t gs.length (pre.length + 1)) s = (.ok (), s') := h
      obtain ⟨r, hr⟩ : ∃ r, r = GGrad.determineMask (Shallot.argOf g.measured) scale
          (newTransmission t pre.length g) (Shallot.argOf g.error) g := ⟨_, rfl⟩
      have hon : Shallot.onGradient pre.length (GGrad.determineMask (Shallot.argOf g.measured) scale
          (newTransmission t pre.length g) (Shallot.argOf g.error)) s =
          (r.1, { s with gradients := some (pre ++ r.2 :: gs) }) := by
        unfold Shallot.onGradient
        rw [hk]
        simp only [hg, Option.getD_some, ← hr]
        congr 3
        simp
      obtain ⟨r1, r2⟩ := r
      cases r1 with
      | error er => rw [bind_err _ _ _ _ er hon] at h; cases h
      | ok x =>
        cases x
        rw [bind_ok _ _ _ _ () hon] at h
        obtain ⟨gs', k1, k2, k3⟩ := ih (pre ++ [r2]) { s with gradients := some (pre ++ r2 :: gs) } s'
          (by simp) (by simpa using h)
        refine ⟨r2 :: gs', ?_, by simp [k2], ?_⟩
        · rw [k1]
          simp
        · intro k a b ha hb
          cases k with
          | zero =>
            simp only [List.getElem?_cons_zero, Option.some.injEq] at ha hb
            subst ha hb
            exact ⟨scale, hsc, hr.symm⟩
          | succ k =>
            simp only [List.getElem?_cons_succ] at ha hb
            obtain ⟨sc, q1, q2⟩ := k3 k a b ha hb
            refine ⟨sc, q1, ?_⟩
            rw [List.length_append, List.length_singleton, Nat.add_assoc, Nat.add_comm 1 k] at q2
            exact q2

/-- The transmission changes in the argument. -/
def Spec.transmissionsIn (v : PyVal K) : Option (List (XF K)) :=
  match v with
  | .arr a => some a.data
  | _ => none

theorem newTransmissions_ok (s : Shallot K) (v : PyVal K) (t : Option (List (XF K)))
    (h : s.newTransmissions v = .ok t) : t = transmissionsIn v ∧ (t = none ↔ v = .none) ∧
      ∀ a, v = .arr a → Floats v a ∧ a.shape = s.gradientsShape := by
  unfold Shallot.newTransmissions at h
  by_cases hv : v = .none
  · subst hv
    rw [if_pos rfl] at h
    cases h
    exact ⟨rfl, by simp, by simp⟩
  · rw [if_neg hv] at h
    cases ha : array v (lower := .int (-1)) (upper := .int 1) (dtype := .str "float64")
        (numDimensions := .int 1) with
    | error e => rw [ha] at h; cases h
    | ok a =>
      rw [ha, ok_bind] at h
      have hf := ((both_ok v a (.int (-1)) (.int 1) (.fin ((-1 : ℤ) : K)) (.fin ((1 : ℤ) : K)) (by simp)
        (by simp) (int_isNumber (-1)) (int_isNumber 1) (by
          rw [less_iff]
          simp only [XF.lt, decide_eq_true_eq, not_lt]
          push_cast
          linarith)).1 ha).1
      cases hs : sameShapeArrays [.arr a, .arr ⟨"object", s.gradientsShape, []⟩] 2 with
      | error e => rw [hs] at h; cases h
      | ok _ =>
        rw [hs, ok_bind] at h
        cases h
        have := hf.arr
        subst this
        refine ⟨rfl, by simp, ?_⟩
        rintro b ⟨⟩
        exact ⟨hf, (sameShape2_ok _ _).1 hs⟩

/-- **C50** A successful `update_gradient_scaling` in which something is given stores it, clears the fit
and gives every gradient the mask and the numbers that `determine_mask` gives to a new gradient with the
same data (whatever had been measured before, `h`), with the measured gradient and error as before, the
new orbital scale (if velocity or limb darkening are given) and the new transmission change (if
given). -/
theorem C50_as_new (v l t : PyVal K) (s s' : Shallot K) (h : Shallot.updateScaling v l t s = (.ok (), s'))
    (hgiven : v ≠ .none ∨ l ≠ .none ∨ t ≠ .none) :
    ∃ gs gs' : List (GGrad K), s.gradients = some gs ∧ gs'.length = gs.length ∧
      s' = { s with
        velocity := if v = .none then s.velocity else some v
        limb := if l = .none then s.limb else some l
        gradients := some gs', gradientFit := none } ∧
      ∀ (k : ℕ) (g g' : GGrad K), gs[k]? = some g → gs'[k]? = some g' → ∃ scale tr,
        (v = .none ∧ l = .none → scale = Shallot.argOf g.orbital) ∧
        (v ≠ .none ∨ l ≠ .none → s'.orbital = .ok scale) ∧
        (t = .none → tr = Shallot.argOf g.transmission) ∧
        (t ≠ .none → ∃ a, t = .arr a ∧ a.shape = [gs.length] ∧ tr = .npFloat .w64 (a.data.getD k .nan)) ∧
        ∀ h, SameGradient g h → GGrad.determineMask (Shallot.argOf g.measured) scale tr
          (Shallot.argOf g.error) h = (.ok (), g') := by
  unfold Shallot.updateScaling at h
  rw [Meth.modify_bind] at h
  simp only [Meth.get_bind] at h
  cases ht : (Shallot.storeScaling v l s).newTransmissions t with
  | error e => rw [ht] at h; cases h
  | ok tt =>
    rw [ht, Meth.lift_ok_bind] at h
    obtain ⟨h1, h2, h3⟩ := newTransmissions_ok _ _ _ ht
    have hb : ¬ ((!decide (v ≠ .none ∨ l ≠ .none) && tt.isNone) = true) := by
      intro hb
      simp only [Bool.and_eq_true, Bool.not_eq_true', decide_eq_false_iff_not,
        Option.isNone_iff_eq_none] at hb
      rcases hgiven with hv | hv | hv
      · exact hb.1 (Or.inl hv)
      · exact hb.1 (Or.inr hv)
      · exact hv (h2.1 hb.2)
    rw [if_neg hb] at h
    cases hg : (Shallot.storeScaling v l s).gradients with
    | none => rw [hg] at h; cases h
    | some gs =>
      rw [hg] at h
      rcases bind_cases (Shallot.rescaleLoop (decide (v ≠ .none ∨ l ≠ .none)) tt gs.length 0)
        (fun _ => Shallot.resetFit) (Shallot.storeScaling v l s) with ⟨⟨⟩, s₁, e1, e2⟩ | ⟨e, s₁, e1, e2⟩
      · have h := e2.symm.trans h
        obtain ⟨gs', k1, k2, k3⟩ := rescaleLoop_ok _ tt gs [] _ s₁ (by simpa using hg) e1
        have hs' : s' = { s₁ with gradientFit := none } := (congrArg Prod.snd h).symm
        subst hs'
        subst k1
        refine ⟨gs, gs', hg, k2, ?_, ?_⟩
        · rfl
        · intro k g g' hk hk'
          obtain ⟨scale, q1, q2⟩ := k3 k g g' hk hk'
          refine ⟨scale, newTransmission tt k g, ?_, ?_, ?_, ?_, ?_⟩
          · rintro ⟨rfl, rfl⟩
            simpa using q1.symm
          · intro hvl
            rw [decide_eq_true hvl] at q1
            exact q1
          · intro htn
            rw [h2.2 htn]
            rfl
          · intro htn
            cases hta : t with
            | arr a =>
              refine ⟨a, rfl, ?_, ?_⟩
              · rw [(h3 a hta).2]
                unfold Shallot.gradientsShape
                rw [hg]
              · rw [h1, hta]
                rfl
            | _ =>
              exact absurd (h2.1 (by rw [h1, hta]; rfl)) htn
          · intro h' hh
            refine determineMask_same ?_ hh
            simpa using q2
      · have h := e2.symm.trans h
        cases h

/-! ## The same as adding with the new scaling -/

theorem determineMask_stored {vm vo vt ve : PyVal K} {g g' : GGrad K}
    (h : GGrad.determineMask vm vo vt ve g = (.ok (), g')) : g'.measured = some vm ∧
      g'.orbital = some vo ∧ g'.transmission = some (orOne vt) ∧ g'.error = some (orOne ve) ∧
      SameGradient g g' ∧ Fraction (orOne vt) := by
  rcases determineMask_cases vm vo vt ve g with ⟨-, e, h'⟩ | ⟨-, -, e, h'⟩ | ⟨-, -, -, e, h'⟩ |
    ⟨-, -, -, -, e, h'⟩ | ⟨h1, h2, h3, h4, ⟨e, -, h'⟩ | ⟨q, hq1, ⟨hlt, h'⟩ | ⟨hlt, h'⟩⟩⟩
  all_goals rw [h'] at h
  all_goals first | (simp at h; done) | skip
  have hg : _ = g' := congrArg Prod.snd h
  subst hg
  exact ⟨rfl, rfl, rfl, rfl, ⟨rfl, rfl⟩, h3⟩

theorem gradientOf_eq {s : Shallot K} {d scale : PyVal K} {q : Measurement K}
    (h : (gradientOf s d scale q).1 = .ok ()) :
    GGrad.determineMask (.npFloat .w64 q.slope.abs) scale (.npFloat .w64 q.transmission)
      (.npFloat .w64 q.error) (blank s (q.time.neg.div d.num)) = (.ok (), (gradientOf s d scale q).2) :=
  Prod.ext h rfl

/-- The measurements with other transmission changes, if there are any. -/
def Spec.withTransmissions (t : PyVal K) (b : List (Measurement K)) : List (Measurement K) :=
  match t with
  | .arr a => List.zipWith (fun q x => { q with transmission := x }) b a.data
  | _ => b

theorem Spec.SameGradient.symm {g h : GGrad K} (e : SameGradient g h) : SameGradient h g := by
  obtain ⟨e1, e2⟩ := e
  refine ⟨e1.symm, ?_⟩
  rw [e2]

/-- **C50** The same as adding: if a list of measurements has been added to a grid without gradients
(in any number of calls) and then `update_gradient_scaling` succeeds, the grid is the one that adding
the measurements, with the new transmission changes if given, to the grid with the new velocity and limb
darkening gives. -/
theorem C50_readd (s s₁ s₂ : Shallot K) (hr : s.ready = true) (hg : s.gradients = none)
    (bs : List (List (Measurement K))) (hne : bs.flatten ≠ []) (v l t : PyVal K) (ht : Whole t)
    (h₁ : addCalls bs s = (.ok (), s₁)) (h₂ : Shallot.updateScaling v l t s₁ = (.ok (), s₂))
    (hgiven : v ≠ .none ∨ l ≠ .none ∨ t ≠ .none) :
    addCall (withTransmissions t bs.flatten) { s with
      velocity := if v = .none then s.velocity else some v
      limb := if l = .none then s.limb else some l } = (.ok (), s₂) := by
  obtain ⟨d, scale₀, hd, ho, hq, he⟩ := addCalls_ok bs s s₁ hr (by rintro rfl; simp at hne) h₁
  obtain ⟨rows, hrows⟩ : ∃ rows, rows = bs.flatten := ⟨_, rfl⟩
  rw [← hrows] at hq he hne ⊢
  rw [hg, Option.getD_none, List.nil_append] at he
  subst he
  obtain ⟨gs, gs', k1, k2, k3, k4⟩ := C50_as_new v l t _ s₂ h₂ hgiven
  have k1' : rows.map (fun q => (gradientOf s d scale₀ q).2) = gs := Option.some.inj k1
  have hlen : gs.length = rows.length := by rw [← k1']; simp
  obtain ⟨s', hs'⟩ : ∃ s' : Shallot K, s' = { s with
      velocity := if v = .none then s.velocity else some v
      limb := if l = .none then s.limb else some l } := ⟨_, rfl⟩
  rw [← hs']
  have hso : s'.orbital = s₂.orbital := by rw [k3, hs']; rfl
  -- the rows with their gradients
  obtain ⟨rows', hrows'⟩ : ∃ rows', rows' = withTransmissions t rows := ⟨_, rfl⟩
  rw [← hrows']
  have hta : ∀ a, t = .arr a → a.data.length = rows.length := by
    intro a ha
    obtain ⟨g, hgm⟩ : ∃ g, gs[0]? = some g := by
      cases gs with
      | nil => exact absurd (List.length_eq_zero_iff.1 hlen.symm) hne
      | cons g _ => exact ⟨g, rfl⟩
    obtain ⟨g', hgm'⟩ : ∃ g', gs'[0]? = some g' := by
      refine ⟨_, List.getElem?_eq_getElem ?_⟩
      rw [k2]
      exact (List.getElem?_eq_some_iff.1 hgm).1
    obtain ⟨_, _, -, -, -, q4, -⟩ := k4 0 g g' hgm hgm'
    obtain ⟨b, hb, hsh, -⟩ := q4 (by rw [ha]; simp)
    rw [ha] at hb
    cases hb
    rw [ht a ha, hsh, ← hlen]
    simp
  have hlen' : rows'.length = rows.length := by
    rw [hrows']
    unfold withTransmissions
    split
    · rename_i a
      simp [hta a rfl]
    · rfl
  -- the new scale
  have hscale : ∃ scale, s'.orbital = .ok scale ∧ ∀ (k : ℕ) (g g' : GGrad K), gs[k]? = some g →
      gs'[k]? = some g' → ∃ tr, (t = .none → tr = Shallot.argOf g.transmission) ∧
        (t ≠ .none → ∃ a, t = .arr a ∧ tr = .npFloat .w64 (a.data.getD k .nan)) ∧
        ∀ h, SameGradient g h → GGrad.determineMask (Shallot.argOf g.measured) scale tr
          (Shallot.argOf g.error) h = (.ok (), g') := by
    by_cases hvl : v = .none ∧ l = .none
    · refine ⟨scale₀, ?_, ?_⟩
      · rw [hs', ← ho]
        simp only [hvl.1, hvl.2, if_true]
      · intro k g g' hk hk'
        obtain ⟨sc, tr, q1, -, q3, q4, q5⟩ := k4 k g g' hk hk'
        refine ⟨tr, q3, fun hn => ?_, ?_⟩
        · obtain ⟨a, a1, -, a3⟩ := q4 hn
          exact ⟨a, a1, a3⟩
        · have horb : Shallot.argOf g.orbital = scale₀ := by
            rw [← k1', List.getElem?_map] at hk
            obtain ⟨q, hq1, rfl⟩ := Option.map_eq_some_iff.1 hk
            have hok := (hq q (List.mem_of_getElem? hq1)).2
            have := (determineMask_stored (gradientOf_eq hok)).2.1
            rw [this]
            rfl
          rw [q1 hvl, horb] at q5
          exact q5
    · have hvl' : v ≠ .none ∨ l ≠ .none := by
        by_cases hv : v = .none
        · exact Or.inr fun hl => hvl ⟨hv, hl⟩
        · exact Or.inl hv
      obtain ⟨g₀, hg₀⟩ : ∃ g, gs[0]? = some g := by
        cases gs with
        | nil => exact absurd (List.length_eq_zero_iff.1 hlen.symm) hne
        | cons g _ => exact ⟨g, rfl⟩
      obtain ⟨g₀', hg₀'⟩ : ∃ g', gs'[0]? = some g' := by
        refine ⟨_, List.getElem?_eq_getElem ?_⟩
        rw [k2]
        exact (List.getElem?_eq_some_iff.1 hg₀).1
      obtain ⟨scale, _, -, q2, -⟩ := k4 0 g₀ g₀' hg₀ hg₀'
      refine ⟨scale, by rw [hso]; exact q2 hvl', ?_⟩
      intro k g g' hk hk'
      obtain ⟨sc, tr, -, q2', q3, q4, q5⟩ := k4 k g g' hk hk'
      refine ⟨tr, q3, fun hn => ?_, ?_⟩
      · obtain ⟨a, a1, -, a3⟩ := q4 hn
        exact ⟨a, a1, a3⟩
      · have := q2' hvl'
        rw [q2 hvl'] at this
        cases this
        exact q5
  obtain ⟨scale, hs1, hs2⟩ := hscale
  -- row by row
  have hrow : ∀ (k : ℕ) (q q' : Measurement K) (g' : GGrad K), rows[k]? = some q → rows'[k]? = some q' →
      gs'[k]? = some g' → Passable q' ∧ gradientOf s' d scale q' = (.ok (), g') := by
    intro k q q' g' hk hk' hkg'
    have hkg : gs[k]? = some (gradientOf s d scale₀ q).2 := by
      rw [← k1', List.getElem?_map, hk]
      rfl
    obtain ⟨hp, hok⟩ := hq q (List.mem_of_getElem? hk)
    obtain ⟨m1, m2, m3, m4, m5, m6⟩ :=
      determineMask_stored (gradientOf_eq hok)
    obtain ⟨tr, q3, q4, q5⟩ := hs2 k _ g' hkg hkg'
    have hor : ∀ x : XF K, orOne (.npFloat .w64 x : PyVal K) = .npFloat .w64 x := by
      intro x; simp [orOne]
    rw [m1, m4, hor] at q5
    have hq' : q'.time = q.time ∧ q'.slope = q.slope ∧ q'.error = q.error ∧
        tr = .npFloat .w64 q'.transmission := by
      by_cases htn : t = .none
      · have : rows' = rows := by rw [hrows', htn]; rfl
        rw [this, hk] at hk'
        cases hk'
        refine ⟨rfl, rfl, rfl, ?_⟩
        rw [q3 htn, m3, hor]
        rfl
      · obtain ⟨a, ha, htr⟩ := q4 htn
        have hr' : rows' = List.zipWith (fun q x => { q with transmission := x }) rows a.data := by
          rw [hrows', ha]; rfl
        rw [hr', List.getElem?_zipWith, hk] at hk'
        have hka : k < a.data.length := by
          rw [hta a ha]
          exact (List.getElem?_eq_some_iff.1 hk).1
        rw [List.getElem?_eq_getElem hka] at hk'
        cases hk'
        refine ⟨rfl, rfl, rfl, ?_⟩
        rw [htr, List.getD_eq_getElem?_getD, List.getElem?_eq_getElem hka]
        rfl
    obtain ⟨e1, e2, e3, e4⟩ := hq'
    have hb : blank s' (q'.time.neg.div d.num) = blank s (q.time.neg.div d.num) := by
      rw [e1]
      exact blank_congr (by rw [hs']) (by rw [hs']) (by rw [hs']) (by rw [hs']) _
    have hdm : gradientOf s' d scale q' = (.ok (), g') := by
      have := q5 (blank s' (q'.time.neg.div d.num)) (by rw [hb]; exact m5.symm)
      unfold gradientOf measure
      rw [e4, ← e2, ← e3] at this
      exact this
    refine ⟨⟨by rw [e2]; exact hp.slope, by rw [e3]; exact hp.error, ?_, ?_⟩, hdm⟩
    all_goals
      obtain ⟨-, -, -, -, -, x, f1, f2, f3⟩ := determineMask_stored hdm
      rw [hor] at f1
      have := isNumber_num f1
      simp only [PyVal.num] at this
      rw [← this] at f2 f3
      assumption
  have hgs' : gs' = rows'.map fun q => (gradientOf s' d scale q).2 := by
    apply List.ext_getElem?
    intro k
    rcases Nat.lt_or_ge k rows.length with hk | hk
    · have h1 : k < gs'.length := by rw [k2, hlen]; exact hk
      have h2 : k < rows'.length := by rw [hlen']; exact hk
      rw [List.getElem?_map, List.getElem?_eq_getElem h1, List.getElem?_eq_getElem h2, Option.map_some,
        (hrow k _ _ _ (List.getElem?_eq_getElem hk) (List.getElem?_eq_getElem h2)
          (List.getElem?_eq_getElem h1)).2]
    · rw [List.getElem?_eq_none (by rw [k2, hlen]; exact hk), List.getElem?_eq_none (by simp [hlen', hk])]
  refine (addCall_ok_iff rows' s' s₂ ?_).2 ⟨d, scale, ⟨?_, hd.plain⟩, hs1, ?_, ?_⟩
  · rw [hs']
    unfold Shallot.ready at hr ⊢
    simp only [Bool.and_eq_true] at hr ⊢
    refine ⟨⟨?_, hr.1.2⟩, ?_⟩
    · split_ifs
      · exact hr.1.1
      · rfl
    · split_ifs
      · exact hr.2
      · rfl
  · rw [hs']; exact hd.eq
  · intro q' hq'
    obtain ⟨k, hk, rfl⟩ := List.mem_iff_getElem.1 hq'
    have h1 : k < rows.length := by rw [← hlen']; exact hk
    have h2 : k < gs'.length := by rw [k2, hlen]; exact h1
    have := hrow k _ _ _ (List.getElem?_eq_getElem h1) (List.getElem?_eq_getElem hk)
      (List.getElem?_eq_getElem h2)
    exact ⟨this.1, by rw [this.2]⟩
  · rw [k3, hgs', hs', hg]
    rfl

theorem rescaleLoop_of (u : Bool) (t : Option (List (XF K))) (gs : List (GGrad K)) :
    ∀ (pre : List (GGrad K)) (s : Shallot K), s.gradients = some (pre ++ gs) →
    (∀ (k : ℕ) (g : GGrad K), gs[k]? = some g →
      ∃ scale, (if u then s.orbital else .ok (Shallot.argOf g.orbital)) = .ok scale ∧
        (GGrad.determineMask (Shallot.argOf g.measured) scale (newTransmission t (pre.length + k) g)
          (Shallot.argOf g.error) g).1 = .ok ()) →
    ∃ s', Shallot.rescaleLoop u t gs.length pre.length s = (.ok (), s') := by
  induction gs with
  | nil => intro pre s _ _; exact ⟨s, rfl⟩
  | cons g gs ih =>
    intro pre s hg h
    rw [List.length_cons]
    unfold Shallot.rescaleLoop
    rw [Meth.get_bind]
    have hk : (s.gradients.getD [])[pre.length]? = some g := by rw [hg]; simp
    simp only [hk]
    obtain ⟨scale, hsc, h0⟩ := h 0 g rfl
    rw [hsc, Meth.lift_ok_bind]
    show ∃ s', (do
        Shallot.onGradient pre.length (GGrad.determineMask (Shallot.argOf g.measured) scale
          (newTransmission t pre.length g) (Shallot.argOf g.error))
        Shallot.rescaleLoop u t gs.length (pre.length + 1)) s = (.ok (), s')
    obtain ⟨r, hr⟩ : ∃ r, r = GGrad.determineMask (Shallot.argOf g.measured) scale
        (newTransmission t pre.length g) (Shallot.argOf g.error) g := ⟨_, rfl⟩
    have h0 : r.1 = .ok () := by rw [hr]; exact h0
    have hon : Shallot.onGradient pre.length (GGrad.determineMask (Shallot.argOf g.measured) scale
        (newTransmission t pre.length g) (Shallot.argOf g.error)) s =
        (.ok (), { s with gradients := some (pre ++ r.2 :: gs) }) := by
      unfold Shallot.onGradient
      rw [hk]
      simp only [hg, Option.getD_some, ← hr, h0]
      congr 3
      simp
    rw [bind_ok _ _ _ _ () hon]
    have := ih (pre ++ [r.2]) { s with gradients := some (pre ++ r.2 :: gs) } (by simp) (by
      intro k g' hg'
      obtain ⟨sc, q1, q2⟩ := h (k + 1) g' (by simpa using hg')
      refine ⟨sc, q1, ?_⟩
      rw [List.length_append, List.length_singleton, Nat.add_assoc, Nat.add_comm 1 k]
      exact q2)
    simpa using this

/-- A new velocity succeeds if the new orbital scale suits every gradient. -/
theorem updateScaling_velocity (s : Shallot K) (gs : List (GGrad K)) (v scale : PyVal K)
    (hg : s.gradients = some gs) (hv : v ≠ .none)
    (ho : (Shallot.storeScaling v .none s).orbital = .ok scale)
    (h : ∀ g ∈ gs, (GGrad.determineMask (Shallot.argOf g.measured) scale (Shallot.argOf g.transmission)
      (Shallot.argOf g.error) g).1 = .ok ()) :
    ∃ s', Shallot.updateScaling v .none .none s = (.ok (), s') := by
  unfold Shallot.updateScaling
  rw [Meth.modify_bind]
  simp only [Meth.get_bind]
  have ht : (Shallot.storeScaling v .none s).newTransmissions .none = .ok none := by
    unfold Shallot.newTransmissions
    rw [if_pos rfl]
  rw [ht, Meth.lift_ok_bind, if_neg (by simp [hv])]
  rw [show (Shallot.storeScaling v .none s).gradients = some gs from hg]
  obtain ⟨s', hs'⟩ := rescaleLoop_of (decide (v ≠ .none ∨ (.none : PyVal K) ≠ .none)) none gs []
    (Shallot.storeScaling v .none s) hg (by
      intro k g hk
      refine ⟨scale, ?_, h g (List.mem_of_getElem? hk)⟩
      rw [decide_eq_true (Or.inl hv), if_pos rfl]
      exact ho)
  exact ⟨_, (bind_ok _ _ _ _ () hs').trans rfl⟩

end

/-- The hypotheses of `C50_readd` are met: two measurements, then twice the velocity. -/
example : ∃ s s₁ s₂ : Shallot ℝ, s.ready = true ∧ s.gradients = none ∧
    addCalls [[slopeOf 0], [slopeOf (1 / 2)]] s = (.ok (), s₁) ∧
    Shallot.updateScaling (.int 2) .none .none s₁ = (.ok (), s₂) ∧
    addCall [slopeOf 0, slopeOf (1 / 2)] { s with velocity := some (.int 2) } = (.ok (), s₂) := by
  obtain ⟨-, s, -, -, hs, hgs, hr, hd, ⟨k, hk, hk2, ho⟩, hlimb, -, hg, hf, -⟩ := throwAway_ready
  have hrows : ∀ q ∈ ([[slopeOf 0], [slopeOf (1 / 2)]] : List (List (Measurement ℝ))).flatten,
      ∃ x : ℝ, 0 ≤ x ∧ x ≤ 1 / 2 ∧ q = slopeOf x := by
    intro q hq
    simp only [List.flatten_cons, List.flatten_nil, List.append_nil, List.cons_append, List.nil_append,
      List.mem_cons, List.not_mem_nil, or_false] at hq
    rcases hq with rfl | rfl
    · exact ⟨0, le_rfl, by norm_num, rfl⟩
    · exact ⟨1 / 2, by norm_num, le_rfl, rfl⟩
  obtain ⟨s₁, h1⟩ := addCalls_of [[slopeOf 0], [slopeOf (1 / 2)]] s hr _ _ hd ho (by
    intro q hq
    obtain ⟨x, hx, hx2, rfl⟩ := hrows q hq
    exact slopeOf_ok s _ k x hk hk2 hx hx2)
  obtain ⟨d, sc, hd', ho', hq, he⟩ := addCalls_ok _ s s₁ hr (by simp) h1
  obtain ⟨k', hk', hk2', ho2⟩ := orbital_int (Shallot.storeScaling (.int 2) .none s₁) 2 (by norm_num)
    (by rw [he]; exact hlimb) rfl
  obtain ⟨s₂, h2⟩ := updateScaling_velocity s₁ _ (.int 2) (.float (.fin k')) (by rw [he]) (by simp) ho2 (by
    intro g hg'
    rw [hg] at hg'
    simp only [Option.getD_none, List.nil_append, List.mem_map] at hg'
    obtain ⟨q, hq', rfl⟩ := hg'
    obtain ⟨m1, m2, m3, m4, -, -⟩ := determineMask_stored (gradientOf_eq (hq q hq').2)
    obtain ⟨x, hx, hx2, rfl⟩ := hrows q hq'
    have e1 : ∀ x : XF ℝ, orOne (.npFloat .w64 x : PyVal ℝ) = .npFloat .w64 x := by simp [orOne]
    rw [m1, m3, m4, e1, e1]
    exact slope_mask _ k' x hk' hk2' hx hx2)
  refine ⟨s, s₁, s₂, hr, hg, h1, h2, ?_⟩
  have := C50_readd s s₁ s₂ hr hg _ (by simp) (.int 2) .none .none (by rintro a ⟨⟩) h1 h2 (Or.inl (by simp))
  rw [if_neg (by simp), if_pos rfl] at this
  exact this

end Beyonce
