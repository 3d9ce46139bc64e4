import Verif.Props.SmallestDisk

/-!
# C58: when the two loops find enough scale factors
-/

set_option linter.unusedSectionVars false

namespace Beyonce
open Spec Geometry Real

/-! ## Bounds of the disk radius -/

theorem size_wide (fx fy s R : ℝ) (hx : 0 < fx) (hR : 0 < R) :
    fx * R ≤ norm2 (sheared fx fy s R (vertex fx fy s + π / 2)) := by
  refine le_trans ?_ (size_bounds fx fy s R 0).2
  unfold norm2 sheared
  simp only [cos_zero, sin_zero, mul_one, mul_zero, sub_zero]
  rw [show (fx * R) ^ 2 + 0 ^ 2 = (fx * R) ^ 2 by ring, sqrt_sq (by positivity)]

theorem size_high (fx fy s R : ℝ) :
    fy * R ≤ norm2 (sheared fx fy s R (vertex fx fy s + π / 2)) := by
  refine le_trans ?_ (size_bounds fx fy s R (π / 2)).2
  unfold norm2 sheared
  simp only [cos_pi_div_two, sin_pi_div_two, mul_one]
  apply le_sqrt_of_sq_le
  nlinarith [sq_nonneg (fx * (R * 0) - s * (fy * R))]

theorem size_circle (s R θ : ℝ) (hR : 0 < R) :
    norm2 (sheared 1 1 s R θ) ≤ (1 + |s|) * R := by
  unfold norm2
  rw [sqrt_le_left (by positivity)]
  unfold sheared
  simp only [one_mul]
  have h1 := sin_sq_add_cos_sq θ
  have h2 : |s| ^ 2 = s ^ 2 := sq_abs s
  have h3 : -(2 * s * (sin θ * cos θ)) ≤ 2 * |s| := by
    have h4 : |sin θ * cos θ| ≤ 1 := by
      rw [abs_mul]
      exact mul_le_one₀ (abs_sin_le_one θ) (abs_nonneg _) (abs_cos_le_one θ)
    have h5 : -(s * (sin θ * cos θ)) ≤ |s * (sin θ * cos θ)| := neg_le_abs _
    rw [abs_mul] at h5
    nlinarith [abs_nonneg s]
  have h6 : s ^ 2 * sin θ ^ 2 ≤ s ^ 2 := by nlinarith [sq_nonneg s, sq_nonneg (cos θ)]
  have h7 : (cos θ - s * sin θ) ^ 2 + sin θ ^ 2 ≤ (1 + |s|) ^ 2 := by nlinarith
  calc (R * cos θ - s * (R * sin θ)) ^ 2 + (R * sin θ) ^ 2
      = R ^ 2 * ((cos θ - s * sin θ) ^ 2 + sin θ ^ 2) := by ring
    _ ≤ R ^ 2 * (1 + |s|) ^ 2 := mul_le_mul_of_nonneg_left h7 (sq_nonneg R)
    _ = ((1 + |s|) * R) ^ 2 := by ring

/-- The first sample of every cell is a disk of at most `1 + |shear|` times the radius of the circle. -/
theorem first_radius (c : Shallot.Cell ℝ) (dx dy : ℝ) (hc : CellAt c dx dy) :
    ∃ r : ℝ, 0 < r ∧ r ≤ (1 + |shearOf dx dy|) * √(1 / 4 + dy ^ 2) ∧
      (diskParameters (.fin 1) (determineFy c.dy (.fin 1)) c.shear c.radius).1 = .fin r := by
  have hR : 0 < √(1 / 4 + dy ^ 2) := sqrt_pos.2 (by positivity)
  have h2 := hc.shear_eq
  have h3 := hc.radius_eq
  rw [shear_ok dx dy hc.place] at h2
  rw [circularRadius_fin] at h3
  have hfy : determineFy c.dy (.fin 1) = .fin 1 := by
    rw [hc.dy_eq]
    by_cases hd : dy = 0
    · rw [hd]; exact (C54_origin 1 one_pos).2.1
    · have h0 : 0 < dy ^ 2 := by positivity
      rw [determineFy_fin dy 1 (by linarith) (fun h => hd h.1)]
      congr 1
      rw [show (4 : ℝ) * 1 ^ 2 * dy ^ 2 = 4 * dy ^ 2 by ring,
        show (1 : ℝ) ^ 2 * (1 + 4 * dy ^ 2) - 1 = 4 * dy ^ 2 by ring, div_self (by positivity),
        sqrt_one]
  rw [hfy, h2, h3, diskParameters_fin 1 1 _ _ one_pos one_pos hR]
  exact ⟨_, size_pos_sheared _ _ _ _ _ one_pos one_pos hR, size_circle _ _ _ hR, rfl⟩

/-- The smallest radius among samples with the first one. -/
theorem smallest_bound (c : Shallot.Cell ℝ) (dx dy : ℝ) (hc : CellAt c dx dy)
    (l : List (XF ℝ × XF ℝ)) (hok : ∀ p ∈ l, SampleOk c √(1 / 4 + dy ^ 2) p)
    (hone : (.fin 1, determineFy c.dy (.fin 1)) ∈ l) :
    ∃ m : ℝ, 0 < m ∧ m ≤ (1 + |shearOf dx dy|) * √(1 / 4 + dy ^ 2) ∧
      nanminOf (Shallot.radii c l) = .fin m := by
  obtain ⟨r, hr, hr1, hr2⟩ := first_radius c dx dy hc
  have hmem : .fin r ∈ Shallot.radii c l := List.mem_map.2 ⟨_, hone, hr2⟩
  unfold nanminOf
  cases hn : nanmin (Shallot.radii c l) with
  | none =>
    have := (nanmin_spec _).1.1 hn _ hmem
    cases this
  | some y =>
    obtain ⟨hy, hyn, hmin⟩ := (nanmin_spec _).2 y hn
    obtain ⟨p, hp, rfl⟩ := List.mem_map.1 hy
    obtain ⟨m, hm, he, -⟩ := (hok p hp).2.resolve_left hyn
    have := hmin _ hmem (by simp)
    rw [lessEq_iff, he] at this
    refine ⟨m, hm, le_trans (by simpa using this) hr1, ?_⟩
    rw [he]
    rfl

theorem fxyArray_final (m : ℝ) (n num : ℕ) (h : 2 ≤ num) :
    (Shallot.fxyArray (.fin m) (n + 1) num).getLast? = some (.fin (((n + 1 : ℕ) : ℝ) * m)) := by
  have key : ∀ a b : ℝ, (linspace (.fin a) (.fin b) num).getLast? = some (.fin b) := by
    intro a b
    have hd : (num : ℝ) - 1 ≠ 0 := by
      have : (1 : ℝ) < num := by exact_mod_cast h
      linarith [this] |> fun h : (0 : ℝ) < num - 1 => h.ne'
    rw [List.getLast?_eq_getElem?, linspace_length, linspace_fin a b h, List.getElem?_map,
      List.getElem?_range (by omega)]
    simp only [Option.map_some]
    congr 2
    rw [Nat.cast_sub (by omega)]
    push_cast
    field_simp
    ring
  unfold Shallot.fxyArray
  simp only [XF.mul_fin]
  by_cases hn : n + 1 = 1
  · rw [if_pos hn]; exact key _ _
  · rw [if_neg hn]; exact key _ _

/-- The radius at the outermost horizontal sample of round `n + 1`. -/
theorem outer_radius_H (c : Shallot.Cell ℝ) (dx dy mx : ℝ) (hc : CellAt c dx dy)
    (hx : c.maxX = .fin mx) (hmx : 0 < mx) (hnum : 2 ≤ c.num) (n : ℕ) :
    (Shallot.radii c (Shallot.horizontalScales c (n + 1))).headD .nan = .nan ∨
    ∃ r : ℝ, ((n + 1 : ℕ) : ℝ) * mx * √(1 / 4 + dy ^ 2) ≤ r ∧
      (Shallot.radii c (Shallot.horizontalScales c (n + 1))).headD .nan = .fin r := by
  have hR : 0 < √(1 / 4 + dy ^ 2) := sqrt_pos.2 (by positivity)
  have hf : 0 < ((n + 1 : ℕ) : ℝ) * mx := by positivity
  have hhead : (Shallot.radii c (Shallot.horizontalScales c (n + 1))).headD .nan =
      (diskParameters (.fin (((n + 1 : ℕ) : ℝ) * mx))
        (determineFy c.dy (.fin (((n + 1 : ℕ) : ℝ) * mx))) c.shear c.radius).1 := by
    unfold Shallot.radii Shallot.horizontalScales
    rw [List.headD_eq_head?_getD, List.head?_map, List.head?_reverse, List.getLast?_map, hx,
      fxyArray_final mx n c.num hnum]
    rfl
  rw [hhead]
  generalize ((n + 1 : ℕ) : ℝ) * mx = f at hf ⊢
  have h2 := hc.shear_eq
  have h3 := hc.radius_eq
  rw [shear_ok dx dy hc.place] at h2
  rw [circularRadius_fin] at h3
  rw [h2, h3, hc.dy_eq]
  by_cases hd : dy = 0
  · subst hd
    obtain ⟨o1, o2, o3, o4, o5⟩ := C54_origin f hf
    have hs : shearOf dx 0 = 0 := by simp [shearOf]
    rw [hs]
    rcases lt_trichotomy f 1 with hlt | rfl | hgt
    · rw [o4 hlt]; exact Or.inl (diskParameters_nan _ _ _ _ (Or.inr rfl))
    · rw [o2]; exact Or.inr ⟨_, by rw [one_mul], disk_unit _ hR⟩
    · rw [o3 hgt]; exact Or.inr ⟨_, le_refl _, disk_degenerate f _ hf hR⟩
  · rcases fy_pos dy f hd hf with hn | ⟨g, hg, hgf⟩
    · rw [hn]; exact Or.inl (diskParameters_nan _ _ _ _ (Or.inr rfl))
    · rw [hgf, diskParameters_fin f g _ _ hf hg hR]
      exact Or.inr ⟨_, size_wide f g _ _ hf hR, rfl⟩

/-- The radius at the outermost vertical sample of round `n + 1`. -/
theorem outer_radius_V (c : Shallot.Cell ℝ) (dx dy my : ℝ) (hc : CellAt c dx dy)
    (hy : c.maxY = .fin my) (hmy : 0 < my) (hnum : 2 ≤ c.num) (n : ℕ) :
    (Shallot.radii c (Shallot.verticalScales c (n + 1))).getLastD .nan = .nan ∨
    ∃ r : ℝ, ((n + 1 : ℕ) : ℝ) * my * √(1 / 4 + dy ^ 2) ≤ r ∧
      (Shallot.radii c (Shallot.verticalScales c (n + 1))).getLastD .nan = .fin r := by
  have hR : 0 < √(1 / 4 + dy ^ 2) := sqrt_pos.2 (by positivity)
  have hf : 0 < ((n + 1 : ℕ) : ℝ) * my := by positivity
  have hlast : (Shallot.radii c (Shallot.verticalScales c (n + 1))).getLastD .nan =
      (diskParameters (determineFx c.dy (.fin (((n + 1 : ℕ) : ℝ) * my)))
        (.fin (((n + 1 : ℕ) : ℝ) * my)) c.shear c.radius).1 := by
    unfold Shallot.radii Shallot.verticalScales
    rw [List.getLastD_eq_getLast?, List.getLast?_map, List.getLast?_map, hy,
      fxyArray_final my n c.num hnum]
    rfl
  rw [hlast]
  generalize ((n + 1 : ℕ) : ℝ) * my = f at hf ⊢
  have h2 := hc.shear_eq
  have h3 := hc.radius_eq
  rw [shear_ok dx dy hc.place] at h2
  rw [circularRadius_fin] at h3
  rw [h2, h3, hc.dy_eq]
  rcases fx_pos dy f hf with hn | ⟨g, hg, hgf⟩
  · rw [hn]; exact Or.inl (diskParameters_nan _ _ _ _ (Or.inl rfl))
  · rw [hgf, diskParameters_fin g f _ _ hg hf hR]
    exact Or.inr ⟨_, size_high g f _ _, rfl⟩

theorem ratio_bound (n M f s R r m : ℝ) (hR : 0 < R) (hm : 0 < m) (hmb : m ≤ (1 + |s|) * R)
    (hr : n * f * R ≤ r) (h : (1 + |s|) * M ≤ n * f) (hM : 0 ≤ M) : M ≤ r / m := by
  rw [le_div_iff₀ hm]
  calc M * m ≤ M * ((1 + |s|) * R) := mul_le_mul_of_nonneg_left hmb hM
    _ = (1 + |s|) * M * R := by ring
    _ ≤ n * f * R := mul_le_mul_of_nonneg_right h hR.le
    _ ≤ r := hr

theorem samples_ok (c : Shallot.Cell ℝ) (dx dy mx my : ℝ) (hc : CellAt c dx dy)
    (hx : c.maxX = .fin mx) (hy : c.maxY = .fin my) (hmx : 0 < mx) (hmy : 0 < my) (k l : ℕ) :
    ∀ p ∈ samplesH c k ++ samplesV c l, SampleOk c √(1 / 4 + dy ^ 2) p := by
  intro p hp
  rcases List.mem_append.1 hp with hp | hp
  · obtain ⟨f, hf, rfl⟩ := samplesH_mem c mx hx hmx k p hp
    exact sampleH_ok c dx dy f hc hf
  · obtain ⟨f, hf, rfl⟩ := samplesV_mem c my hy hmy l p hp
    exact sampleV_ok c dx dy f hc hf

/-- **C58** The horizontal loop succeeds, in at most `n` rounds, if `n` rounds are allowed
(`n ≤ 100 max_dx`) and `n max_dx ≥ (1 + |shear|) max_rf`.  So only cells with a large shear (far from
the `dy` axis in units of their `dy`) or a large `max_rf` raise `AttributeError`. -/
theorem C58_converges_horizontally (c : Shallot.Cell ℝ) (dx dy mx M : ℝ) (hc : CellAt c dx dy)
    (hx : c.maxX = .fin mx) (hmx : 0 < mx) (hnum : 2 ≤ c.num) (hM : c.maxRf = .fin M) (hM0 : 0 ≤ M)
    (n : ℕ) (hn : (n : ℝ) ≤ 100 * mx) (h1 : 0 < n) (h : (1 + |shearOf dx dy|) * M ≤ n * mx) :
    ∃ k, 0 < k ∧ k ≤ n ∧ Shallot.horizontalLoop c 1 [] [] =
      some (.ok ((samplesH c k).map Prod.snd, Shallot.radii c (samplesH c k))) := by
  have hR : 0 < √(1 / 4 + dy ^ 2) := sqrt_pos.2 (by positivity)
  have hfar : ¬ Less (outermostH c n) c.maxRf := by
    obtain ⟨n, rfl⟩ : ∃ j, n = j + 1 := ⟨n - 1, by omega⟩
    rw [less_iff, hM]
    unfold outermostH
    obtain ⟨m, hm0, hmb, hm⟩ := smallest_bound c dx dy hc (samplesH c (n + 1)) (by
      intro p hp
      obtain ⟨f, hf, rfl⟩ := samplesH_mem c mx hx hmx (n + 1) p hp
      exact sampleH_ok c dx dy f hc hf)
      (samplesH_one c mx hx (by omega) (n + 1) (by omega))
    rw [hm]
    rcases outer_radius_H c dx dy mx hc hx hmx hnum n with hr | ⟨r, hr, he⟩
    · rw [hr]; simp [XF.div]
    · rw [he, XF.div_fin _ _ hm0.ne']
      simp only [XF.lt_fin, decide_eq_true_eq, not_lt]
      exact ratio_bound _ M mx _ _ r m hR hm0 hmb hr h hM0
  obtain ⟨k, hk, hk1, hall, hout⟩ := C58_horizontal c mx hx
  have hkn : k ≤ n := by
    by_contra hlt
    exact hfar (hall n h1 (by omega))
  refine ⟨k, hk, hkn, ?_⟩
  rcases hout with ⟨ho, -⟩ | ⟨ho, h2, h3⟩
  · exact ho
  · exfalso
    have hkn' : n = k := by
      have : (n : ℝ) < ((k + 1 : ℕ) : ℝ) := by push_cast; linarith
      have : n < k + 1 := by exact_mod_cast this
      omega
    subst hkn'
    rcases h3 with h3 | h3
    · exact hfar h3
    · linarith

/-- **C58** The same for the vertical loop, after the horizontal one. -/
theorem C58_converges_vertically (c : Shallot.Cell ℝ) (dx dy mx my M : ℝ) (hc : CellAt c dx dy)
    (hx : c.maxX = .fin mx) (hmx : 0 < mx) (hy : c.maxY = .fin my) (hmy : 0 < my) (hnum : 2 ≤ c.num)
    (hM : c.maxRf = .fin M) (hM0 : 0 ≤ M) (k0 : ℕ) (hk0 : 0 < k0)
    (n : ℕ) (hn : (n : ℝ) ≤ 100 * my) (h1 : 0 < n) (h : (1 + |shearOf dx dy|) * M ≤ n * my) :
    ∃ k, 0 < k ∧ k ≤ n ∧
      Shallot.verticalLoop c 1 ((samplesH c k0).map Prod.snd) (Shallot.radii c (samplesH c k0)) =
      some (.ok ((samplesH c k0 ++ samplesV c k).map Prod.snd,
        Shallot.radii c (samplesH c k0 ++ samplesV c k))) := by
  have hR : 0 < √(1 / 4 + dy ^ 2) := sqrt_pos.2 (by positivity)
  have hfar : ¬ Less (outermostV c (samplesH c k0) n) c.maxRf := by
    obtain ⟨n, rfl⟩ : ∃ j, n = j + 1 := ⟨n - 1, by omega⟩
    rw [less_iff, hM]
    unfold outermostV
    obtain ⟨m, hm0, hmb, hm⟩ := smallest_bound c dx dy hc (samplesH c k0 ++ samplesV c (n + 1))
      (samples_ok c dx dy mx my hc hx hy hmx hmy _ _)
      (List.mem_append.2 (Or.inl (samplesH_one c mx hx (by omega) k0 hk0)))
    rw [hm]
    rcases outer_radius_V c dx dy my hc hy hmy hnum n with hr | ⟨r, hr, he⟩
    · rw [hr]; simp [XF.div]
    · rw [he, XF.div_fin _ _ hm0.ne']
      simp only [XF.lt_fin, decide_eq_true_eq, not_lt]
      exact ratio_bound _ M my _ _ r m hR hm0 hmb hr h hM0
  obtain ⟨k, hk, hk1, hall, hout⟩ := C58_vertical c (samplesH c k0) my hy
  have hkn : k ≤ n := by
    by_contra hlt
    exact hfar (hall n h1 (by omega))
  refine ⟨k, hk, hkn, ?_⟩
  rcases hout with ⟨ho, -⟩ | ⟨ho, h2, h3⟩
  · exact ho
  · exfalso
    have hkn' : n = k := by
      have : (n : ℝ) < ((k + 1 : ℕ) : ℝ) := by push_cast; linarith
      have : n < k + 1 := by exact_mod_cast this
      omega
    subst hkn'
    rcases h3 with h3 | h3
    · exact hfar h3
    · linarith

/-- **C57, C58** A cell is built without an exception if `n` rounds are allowed on both sides and
`n max ≥ (1 + |shear|) max_rf` for both. -/
theorem C58_column (c : Shallot.Cell ℝ) (dx dy mx my M : ℝ) (hc : CellAt c dx dy)
    (hx : c.maxX = .fin mx) (hmx : 0 < mx) (hy : c.maxY = .fin my) (hmy : 0 < my) (hnum : 2 ≤ c.num)
    (hM : c.maxRf = .fin M) (hM0 : 0 ≤ M) (rf : List (XF ℝ)) (hrf : rf ≠ [])
    (nx : ℕ) (hnx : (nx : ℝ) ≤ 100 * mx) (hx1 : 0 < nx) (hcx : (1 + |shearOf dx dy|) * M ≤ nx * mx)
    (ny : ℕ) (hny : (ny : ℝ) ≤ 100 * my) (hy1 : 0 < ny) (hcy : (1 + |shearOf dx dy|) * M ≤ ny * my) :
    ∃ col, Shallot.column c rf = .ok col := by
  obtain ⟨k, hk, -, hH⟩ := C58_converges_horizontally c dx dy mx M hc hx hmx hnum hM hM0 nx hnx hx1 hcx
  obtain ⟨l, -, -, hV⟩ := C58_converges_vertically c dx dy mx my M hc hx hmx hy hmy hnum hM hM0 k hk
    ny hny hy1 hcy
  obtain ⟨m, hm0, -, hm⟩ := smallest_bound c dx dy hc (samplesH c k ++ samplesV c l)
    (samples_ok c dx dy mx my hc hx hy hmx hmy _ _)
    (List.mem_append.2 (Or.inl (samplesH_one c mx hx (by omega) k hk)))
  unfold Shallot.column
  rw [hH]
  simp only [Shallot.ended, ok_bind]
  rw [hV]
  simp only [ok_bind]
  cases hi : nanargmin (Shallot.radii c (samplesH c k ++ samplesV c l)) with
  | error e =>
    have := (nanmin_spec _).1.2 ((nanargmin_error _ _).1 hi).2
    unfold nanminOf at hm
    rw [this] at hm
    cases hm
  | ok i =>
    obtain ⟨v, hv, -⟩ := scales_ok c.dy rf ((samplesH c k ++ samplesV c l).map Prod.snd)
      (Shallot.radii c (samplesH c k ++ samplesV c l)) hrf i hi
    rw [hv, ok_bind]
    exact ⟨_, rfl⟩

/-- A cell at (1, 1) of a grid up to (1, 1), radius factors 1 and 2, is built: the theorems above are
not about nothing. -/
example : ∃ col, Shallot.column ⟨.fin 1, shear (.fin 1) (.fin 1), circularRadius (.fin (1 : ℝ)),
    .fin 1, .fin 1, .fin 2, 100⟩ [.fin 1, .fin 2] = .ok col := by
  refine C58_column _ 1 1 1 1 2 ⟨rfl, rfl, rfl, Or.inl one_ne_zero, ⟨1, rfl⟩, ⟨1, rfl⟩⟩ rfl one_pos rfl
    one_pos (by norm_num) rfl (by norm_num) _ (by simp) 4 (by norm_num) (by norm_num) ?_ 4
    (by norm_num) (by norm_num) ?_ <;>
  · simp [shearOf]; norm_num

end Beyonce
