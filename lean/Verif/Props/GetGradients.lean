import Verif.Props.Solved

/-!
# Property C89: what `get_gradients` returns
-/

set_option linter.unusedSectionVars false

namespace Beyonce
open Spec

section
variable {K : Type} [Field K] [LinearOrder K] [IsStrictOrderedRing K] [RealFns K] [FloorRing K]

/-- The cube `d` is that of the gradient `g` of the grid `s`, but for NaN under the mask of the gradient
if `pm`, and under the combined mask of the grid if `m`. -/
structure Spec.CubeOf (s : Shallot K) (m pm : Bool) (g : GGrad K) (d : Nd K) : Prop where
  shape : d.shape = [s.params.gridShape.1, s.params.gridShape.2.1, s.params.gridShape.2.2]
  length : d.data.length = s.params.gridShape.1 * s.params.gridShape.2.1 * s.params.gridShape.2.2
  hidden : ∀ i < d.data.length, (pm = true ∧ Marked g.prop.mask i) ∨ (m = true ∧ MaskedAt s i) →
    d.data[i]? = some XF.nan
  shown : ∀ i, ¬ ((pm = true ∧ Marked g.prop.mask i) ∨ (m = true ∧ MaskedAt s i)) →
    d.data[i]? = g.prop.data.data[i]?

theorem onGradData_ok (m : Bool) (g : GGrad K) {a b c : ℕ} (hsh : InShape a b c g.prop) :
    ∃ d : Nd K, Shallot.gradientValues.onGradData (.bool m) g =
        (.ok d, { g with prop := { g.prop with data := d } }) ∧ d.shape = g.prop.data.shape ∧
      d.data.length = g.prop.data.data.length ∧
      ∀ i < g.prop.data.data.length, (m = true ∧ Marked g.prop.mask i → d.data[i]? = some XF.nan) ∧
        (¬ (m = true ∧ Marked g.prop.mask i) → d.data[i]? = g.prop.data.data[i]?) := by
  cases m with
  | true =>
    obtain ⟨d, h1, h2, h3, h4⟩ := getData_true g.prop hsh
    refine ⟨d, ?_, h2, h3, ?_⟩
    · unfold Shallot.gradientValues.onGradData
      simp only [h1]
    · simpa using h4
  | false =>
    refine ⟨g.prop.data, ?_, rfl, rfl, by simp⟩
    unfold Shallot.gradientValues.onGradData
    rw [C30_unmasked_read g.prop false (Or.inl rfl)]

/-- The mask that is put on all cubes. -/
theorem maskOrNot_ok (s : Shallot K) (hs : Sound s) (m : Bool) : ∃ k : Mask,
    s.maskOrNot m = .ok k ∧ ∀ i, k.data[i]? = some true ↔ m = true ∧ MaskedAt s i := by
  cases m with
  | true =>
    obtain ⟨k, h1, -, -, h2⟩ := C38_union s hs
    exact ⟨k, h1, fun i => by rw [h2]; simp⟩
  | false =>
    refine ⟨_, rfl, fun i => ?_⟩
    simp [List.getElem?_replicate]

/-- The loop, from gradient `k` on. -/
theorem gradientLoop_ok (k : Mask) (pm : Bool) : ∀ (n j : ℕ) (s : Shallot K) (l : List (GGrad K)),
    Sound s → s.gradients = some l → j + n = l.length →
    (∀ e, (∃ pre g post, l.drop j = pre ++ g :: post ∧ (∀ h ∈ pre, ∃ v, h.scaled = .ok v) ∧
        g.scaled = .error e) → (Shallot.gradientLoop k (.bool pm) n j s).1 = .error e) ∧
    ∀ f : GGrad K → Option (XF K), (∀ g ∈ l.drop j, g.scaled = .ok (f g)) →
    ∃ cubes s', Shallot.gradientLoop k (.bool pm) n j s = (.ok
        ⟨(l.drop j).map (·.position.num), (l.drop j).map fun g => (f g).getD .nan,
          (l.drop j).map fun g => (g.error.map PyVal.num).getD .nan, cubes⟩, s') ∧
      List.Forall₂ (fun g d => ∃ d' : Nd K, d = d'.putNan k ∧ d'.shape = g.prop.data.shape ∧
        d'.data.length = g.prop.data.data.length ∧
        ∀ i < g.prop.data.data.length, (pm = true ∧ Marked g.prop.mask i → d'.data[i]? = some XF.nan) ∧
        (¬ (pm = true ∧ Marked g.prop.mask i) → d'.data[i]? = g.prop.data.data[i]?)) (l.drop j) cubes
  | 0, j, s, l, hs, hl, hj => by
    rw [List.drop_of_length_le (by omega)]
    refine ⟨?_, fun f hf => ⟨[], s, rfl, .nil⟩⟩
    rintro e ⟨pre, g, post, h, -⟩
    simp at h
  | n + 1, j, s, l, hs, hl, hj => by
    have hjl : j < l.length := by omega
    have hgj : (s.gradients.getD [])[j]? = some l[j] := by rw [hl]; exact List.getElem?_eq_getElem hjl
    have hsh := hs.gradients l hl l[j] (List.getElem_mem _)
    obtain ⟨d, hd1, hd2, hd3, hd4⟩ := onGradData_ok pm l[j] hsh
    obtain ⟨s1, hs1⟩ : ∃ s1, s1 = { s with gradients := some (l.set j
      { l[j] with prop := { l[j].prop with data := d } }) } := ⟨_, rfl⟩
    have hon : Shallot.onGradient j (Shallot.gradientValues.onGradData (.bool pm)) s = (.ok d, s1) := by
      unfold Shallot.onGradient
      rw [hgj]
      simp only [hd1, hs1, hl, Option.getD_some]
    have hsound : Sound s1 := by
      rw [hs1]
      refine setGradients_sound hs _ ?_
      rintro l' ⟨⟩ g hg
      rcases List.mem_or_eq_of_mem_set hg with hg | rfl
      · exact hs.gradients l hl g hg
      · exact inShape_of hsh hd2 hd3 rfl
    obtain ⟨he, hok⟩ := gradientLoop_ok k pm n (j + 1) s1 _ hsound (by rw [hs1])
      (by rw [List.length_set]; omega)
    have hdrop : (l.set j { l[j] with prop := { l[j].prop with data := d } }).drop (j + 1) =
        l.drop (j + 1) := List.drop_set_of_lt (by omega)
    rw [hdrop] at he hok
    rw [List.drop_eq_getElem_cons hjl]
    constructor
    · rintro e ⟨pre, g, post, h1, h2, h3⟩
      unfold Shallot.gradientLoop
      rw [Meth.get_bind]
      simp only [hgj]
      cases pre with
      | nil =>
        rw [List.nil_append, List.cons.injEq] at h1
        rw [h1.1, h3]
        rfl
      | cons a pre =>
        rw [List.cons_append, List.cons.injEq] at h1
        obtain ⟨v, hv⟩ := h2 a List.mem_cons_self
        rw [h1.1, hv, Meth.lift_ok_bind, bind_ok _ _ _ _ _ hon]
        have := he e ⟨pre, g, post, h1.2, fun h hh => h2 h (List.mem_cons_of_mem _ hh), h3⟩
        obtain ⟨s2, hs2⟩ : ∃ s2, Shallot.gradientLoop k (.bool pm) n (j + 1) s1 = (.error e, s2) :=
          ⟨_, Prod.ext this rfl⟩
        rw [bind_err _ _ _ _ _ hs2]
    · intro f hf
      obtain ⟨cubes, s', h1, h2⟩ := hok f fun g hg => hf g (List.mem_cons_of_mem _ hg)
      refine ⟨d.putNan k :: cubes, s', ?_, .cons ⟨d, rfl, hd2, hd3, hd4⟩ h2⟩
      unfold Shallot.gradientLoop
      rw [Meth.get_bind]
      simp only [hgj]
      rw [hf l[j] List.mem_cons_self, Meth.lift_ok_bind, bind_ok _ _ _ _ _ hon, bind_ok _ _ _ _ _ h1]
      rfl

/-- **C89, the values** If the scaled gradient of every gradient can be computed, `get_gradients` returns
four arrays with an entry for each gradient, in their order: its position, its scaled gradient, its
measured error (NaN for what was not given), and its cube, with NaN under its own mask if
`property_masked` and under the combined mask if `masked`, and unchanged elsewhere. -/
theorem C89_values (s : Shallot K) (hs : Sound s) (l : List (GGrad K)) (hl : s.gradients = some l)
    (m pm : Bool) (f : GGrad K → Option (XF K)) (hf : ∀ g ∈ l, g.scaled = .ok (f g)) :
    ∃ out s', Shallot.getGradients (.bool m) (.bool pm) s = (.ok out, s') ∧
      out.positions.length = l.length ∧ out.scaled.length = l.length ∧ out.errors.length = l.length ∧
      out.cubes.length = l.length ∧
      ∀ (k : ℕ) (g : GGrad K), l[k]? = some g → out.positions[k]? = some g.position.num ∧
        out.scaled[k]? = some ((f g).getD .nan) ∧
        (g.error = none → out.errors[k]? = some .nan) ∧
        (∀ e, g.error = some e → out.errors[k]? = some e.num) ∧
        ∃ d, out.cubes[k]? = some d ∧ CubeOf s m pm g d := by
  obtain ⟨mask, hm1, hm2⟩ := maskOrNot_ok s hs m
  obtain ⟨cubes, s', h1, h2⟩ := (gradientLoop_ok mask pm l.length 0 s l hs hl (by omega)).2 f
    (by simpa using hf)
  rw [List.drop_zero] at h1 h2
  have hb : boolean (K := K) (.bool m) = .ok m := rfl
  refine ⟨⟨l.map (·.position.num), l.map fun g => (f g).getD .nan,
    l.map fun g => (g.error.map PyVal.num).getD .nan, cubes⟩, s', ?_, by simp, by simp, by simp,
    h2.length_eq.symm, ?_⟩
  · unfold Shallot.getGradients
    rw [Meth.get_bind]
    simp only [hl]
    rw [hb, Meth.lift_ok_bind, hm1, Meth.lift_ok_bind]
    exact h1
  · intro k g hg
    have hgl : g ∈ l := List.mem_of_getElem? hg
    have hsh := hs.gradients l hl g hgl
    refine ⟨by simp [hg], by simp [hg], fun he => by simp [hg, he], fun e he => by simp [hg, he], ?_⟩
    have hk : k < l.length := (List.getElem?_eq_some_iff.1 hg).1
    have hkc : k < cubes.length := by rw [← h2.length_eq]; exact hk
    have hgk : l[k] = g := (List.getElem?_eq_some_iff.1 hg).2
    have h3 := (List.forall₂_iff_get.1 h2).2 k hk hkc
    simp only [List.get_eq_getElem, hgk] at h3
    obtain ⟨d', e1, e2, e3, e4⟩ := h3
    refine ⟨cubes[k], List.getElem?_eq_getElem hkc, ?_⟩
    rw [e1]
    have hlen : (d'.putNan mask).data.length = d'.data.length := putWhere_length _ _ _
    refine ⟨e2.trans hsh.data.1, hlen.trans (e3.trans hsh.data.2), ?_, ?_⟩
    · intro i hi h
      rw [hlen] at hi
      obtain ⟨a, b⟩ := putWhere_get XF.nan mask.data d'.data i
      show (putWhere XF.nan mask.data d'.data)[i]? = _
      by_cases hc : mask.data[i]? = some true
      · exact a hc hi
      · rw [b hc]
        refine (e4 i (by rw [← e3]; exact hi)).1 (h.resolve_right fun h => hc ((hm2 i).2 h))
    · intro i h
      push Not at h
      obtain ⟨a, b⟩ := putWhere_get XF.nan mask.data d'.data i
      show (putWhere XF.nan mask.data d'.data)[i]? = _
      rw [b fun hc => (h.2 ((hm2 i).1 hc).1) ((hm2 i).1 hc).2]
      by_cases hi : i < g.prop.data.data.length
      · exact (e4 i hi).2 fun h' => h.1 h'.1 h'.2
      · rw [List.getElem?_eq_none (by rw [e3]; omega), List.getElem?_eq_none (by omega)]

/-- **C89, the scaled gradient** For finite numbers, the scaled gradient is the measured one times the
orbital scale over the transmission, if that is at most 1; else `get_scaled_gradient` raises. -/
theorem C89_scaled (g : GGrad K) (vm vo vt : PyVal K) (x o t : K) (hm : g.measured = some vm)
    (ho : g.orbital = some vo) (ht : g.transmission = some vt) (hx : vm.num = .fin x)
    (hov : vo.num = .fin o) (htv : vt.num = .fin t) (h0 : t ≠ 0) :
    (x * o / t ≤ 1 → g.scaled = .ok (some (.fin (x * o / t)))) ∧
    (1 < x * o / t → g.scaled = .error .valueError) := by
  have h1 : oneOver vt = .ok (.fin (1 / t)) := by
    have : (XF.fin 1).div vt.num = .fin (1 / t) := by rw [htv, XF.div_fin _ _ h0]
    have hne : XF.eqb vt.num (.fin 0) = false := by rw [htv]; simp [XF.eqb, h0]
    unfold oneOver
    split
    all_goals first | (rw [hne]; simp only [Bool.false_eq_true, if_false]; rw [this]) | rw [this]
  have h2 : g.scaled = if XF.lt (.fin 1) (.fin (x * o / t)) then .error .valueError
      else .ok (some (.fin (x * o / t))) := by
    unfold GGrad.scaled
    rw [hm]
    simp only [ht, ho, needNumber, ok_bind, h1, hx, hov, XF.mul_fin]
    simp only [show x * (o * (1 / t)) = x * o / t by field_simp]
  rw [h2]
  refine ⟨fun h => ?_, fun h => ?_⟩
  · rw [if_neg (by simpa [XF.lt] using h)]
  · rw [if_pos (by simpa [XF.lt] using h)]

/-- **C89, when it raises** Without gradients `get_gradients` raises TypeError; with gradients it raises
what the scaling of the first gradient that cannot be scaled raises. -/
theorem C89_raises (s : Shallot K) (hs : Sound s) (m pm : Bool) :
    (s.gradients = none → Shallot.getGradients (.bool m) (.bool pm) s = (.error .typeError, s)) ∧
    ∀ l, s.gradients = some l → ∀ (pre post : List (GGrad K)) (g : GGrad K) (e : Err),
      l = pre ++ g :: post → (∀ h ∈ pre, ∃ v, h.scaled = .ok v) → g.scaled = .error e →
      (Shallot.getGradients (.bool m) (.bool pm) s).1 = .error e := by
  constructor
  · intro h
    unfold Shallot.getGradients
    rw [Meth.get_bind, h]
    rfl
  · intro l hl pre post g e h1 h2 h3
    obtain ⟨mask, hm1, -⟩ := maskOrNot_ok s hs m
    have hb : boolean (K := K) (.bool m) = .ok m := rfl
    unfold Shallot.getGradients
    rw [Meth.get_bind]
    simp only [hl]
    rw [hb, Meth.lift_ok_bind, hm1, Meth.lift_ok_bind]
    refine (gradientLoop_ok mask pm l.length 0 s l hs hl (by omega)).1 e
      ⟨pre, g, post, by simpa using h1, h2, h3⟩

/-- **C89, the defaults** Without arguments the cubes are masked by their own masks only. -/
theorem C89_defaults (s : Shallot K) :
    (Shallot.getGradients : Meth (Shallot K) _) s = Shallot.getGradients (.bool false) (.bool true) s := rfl

end

/-- The hypotheses of `C89_values` are met, with a scaled gradient that is not 0: a grid with a
measurement of 1/4 that was added by `add_gradients`. -/
example : ∃ (s : Shallot ℝ) (l : List (GGrad ℝ)) (f : GGrad ℝ → Option (XF ℝ)), Sound s ∧
    s.gradients = some l ∧ l ≠ [] ∧ ∀ g ∈ l, g.scaled = .ok (f g) ∧ ∃ x : ℝ, 0 < x ∧ f g = some (.fin x) := by
  obtain ⟨-, s, g, k, -, -, -, -, hk, -, -, hs, -, -, hg, -, -, hsc, -⟩ :=
    throwAway_probe 0 (1 / 4) 1 (by norm_num) (by norm_num) (by norm_num)
  refine ⟨s, [g], fun _ => some (.fin (1 / 4 * k)), hs, hg, by simp, ?_⟩
  intro h hh
  rw [List.mem_singleton.1 hh]
  exact ⟨hsc, _, by positivity, rfl⟩

end Beyonce
