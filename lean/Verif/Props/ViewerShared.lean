import Verif.ViewerShared
import Verif.Props.Viewer

/-!
# Property C129: viewers of one property
-/

set_option linter.unusedSectionVars false

namespace Beyonce
open Spec

section
variable {K : Type} [Field K] [LinearOrder K]

/-- What a user does with a property: call a method, open a viewer, turn the wheel over viewer `k`. -/
inductive DeskOp (K : Type)
  | call (op : PropOp K)
  | view (axis masked index frozen : PyVal K) (coordinates : Option (List (List (XF K))))
  | scroll (k : ℕ) (button : String)

/-- The state after it; exceptions are caught. -/
def DeskOp.exec : DeskOp K → Desk K → Desk K
  | .call op, d => { d with prop := op.exec d.prop }
  | .view axis masked index frozen coordinates, d => (Desk.view axis masked index frozen coordinates d).2
  | .scroll k button, d => (Desk.scroll k button d).2

def runDesk (ops : List (DeskOp K)) (d : Desk K) : Desk K := ops.foldl (fun d op => op.exec d) d

theorem runDesk_snoc (ops : List (DeskOp K)) (op : DeskOp K) (d : Desk K) :
    runDesk (ops ++ [op]) d = op.exec (runDesk ops d) := by
  unfold runDesk
  rw [List.foldl_append]
  rfl

/-- The calls of methods of the property that are made on the way: a viewer calls `get_data` once its axis is
accepted. -/
noncomputable def Spec.callsOf : DeskOp K → List (PropOp K)
  | .call op => [op]
  | .view axis masked _ _ _ =>
    open Classical in if ∃ n : ℤ, IsInteger axis n ∧ 0 ≤ n ∧ n ≤ 2 then [.getData masked] else []
  | .scroll _ _ => []

variable [IsStrictOrderedRing K]

theorem new_prop (axis masked index frozen : PyVal K) (coordinates : Option (List (List (XF K)))) (p : GProp K) :
    (Viewer.new axis masked index frozen coordinates p).2 =
      runProp (callsOf (.view axis masked index frozen coordinates)) p := by
  unfold Viewer.new
  simp only [callsOf]
  cases h : number axis (.bool true) (.int 0) (.int 2) with
  | error e =>
    rw [if_neg]
    · rfl
    · rintro hn
      have := (number_between axis axis 2).2 ⟨rfl, hn⟩
      rw [h] at this
      cases this
  | ok n =>
    rw [if_pos ((number_between axis n 2).1 h).2, Meth.lift_ok_bind]
    show _ = (GProp.getData masked p).2
    rw [Meth.bind_apply]
    generalize GProp.getData masked p = q
    obtain ⟨(e | d), p'⟩ := q
    · rfl
    · simp only [Meth.get_bind]
      generalize Viewer.start d p'.params n index coordinates = r
      cases r with
      | error e => rfl
      | ok v =>
        rw [Meth.lift_ok_bind]
        rfl

/-- Two cases of opening a viewer. -/
theorem view_cases (axis masked index frozen : PyVal K) (coordinates : Option (List (List (XF K)))) (d : Desk K) :
    (∃ v p', Viewer.new axis masked index frozen coordinates d.prop = (.ok v, p') ∧
      Desk.view axis masked index frozen coordinates d = (.ok (), ⟨p', d.viewers ++ [Desk.bare v]⟩)) ∨
    (∃ e p', Viewer.new axis masked index frozen coordinates d.prop = (.error e, p') ∧
      Desk.view axis masked index frozen coordinates d = (.error e, ⟨p', d.viewers⟩)) := by
  unfold Desk.view
  rw [Meth.bind_apply]
  unfold Desk.onProp
  generalize Viewer.new axis masked index frozen coordinates d.prop = q
  obtain ⟨(e | v), p'⟩ := q
  · exact Or.inr ⟨e, p', rfl, rfl⟩
  · exact Or.inl ⟨v, p', rfl, rfl⟩

theorem exec_prop (op : DeskOp K) (d : Desk K) : (op.exec d).prop = runProp (callsOf op) d.prop := by
  cases op with
  | call op => rfl
  | scroll k b =>
    show (Desk.scroll k b d).2.prop = _
    unfold Desk.scroll
    cases d.viewers[k]? <;> rfl
  | view axis masked index frozen coordinates =>
    rw [← new_prop]
    show (Desk.view _ _ _ _ _ d).2.prop = _
    rcases view_cases axis masked index frozen coordinates d with ⟨v, p', h, h'⟩ | ⟨e, p', h, h'⟩ <;> rw [h, h']

/-- **C129** For the property, opening viewers and scrolling is nothing but reading: `get_data` once for each viewer. -/
theorem C129_property (ops : List (DeskOp K)) (d : Desk K) :
    (runDesk ops d).prop = runProp (ops.flatMap callsOf) d.prop := by
  induction ops generalizing d with
  | nil => rfl
  | cons op ops ih =>
    show (runDesk ops (op.exec d)).prop = _
    rw [ih, exec_prop, List.flatMap_cons]
    unfold runProp
    rw [List.foldl_append]

/-! ## Scrolling -/

theorem onscroll_frozen (v : Viewer K) (e : String) (hf : v.frozen = true) : Viewer.onscroll e v = (.ok (), v) := by
  unfold Viewer.onscroll
  rw [Meth.get_bind, if_pos hf]
  rfl

theorem onscroll_good (v : Viewer K) (hv : Valid v) (e : String) (hf : v.frozen = false) :
    (Viewer.onscroll e v).1 = .ok () ∧ Valid (Viewer.onscroll e v).2 ∧ InSync (Viewer.onscroll e v).2 ∧
    SameCube v (Viewer.onscroll e v).2 ∧
    (Viewer.onscroll e v).2.index = if e = "up" then min (v.index + 1) (v.sliceValues.length - 1)
      else max (v.index - 1) 0 := by
  have h1 := hv.low
  have h2 := hv.high
  have hs : 0 ≤ v.scrolled e ∧ v.scrolled e < v.sliceValues.length ∧
      v.scrolled e = if e = "up" then min (v.index + 1) (v.sliceValues.length - 1) else max (v.index - 1) 0 := by
    unfold Viewer.scrolled
    by_cases he : e = "up"
    · rw [if_pos he]
      by_cases hi : v.index < (v.sliceValues.length : ℤ) - 1
      · rw [if_pos ⟨he, hi⟩]
        omega
      · rw [if_neg (fun h => hi h.2), if_neg (fun h => h.1 he)]
        omega
    · rw [if_neg (fun h => he h.1), if_neg he]
      by_cases hi : 0 < v.index
      · rw [if_pos ⟨he, hi⟩]
        omega
      · rw [if_neg (fun h => hi h.2)]
        omega
  obtain ⟨g1, g2, g3, g4, g5⟩ := update_good { v with index := v.scrolled e }
    ⟨hv.axis, hv.shape, hs.1, hs.2.1, hv.coordinates⟩
  have hw : Viewer.onscroll e v = Viewer.update { v with index := v.scrolled e } := by
    unfold Viewer.onscroll
    rw [Meth.get_bind, if_neg (by rw [hf]; simp), Meth.bind_apply, Meth.set_apply]
  rw [hw]
  exact ⟨g1, g2, g3, ⟨g4.axis, g4.data, g4.values, g4.coordinates, g4.tolerance, g4.frozen⟩, by rw [g5]; exact hs.2.2⟩

/-- The property fits its grid and every viewer can be scrolled. -/
structure Spec.TidyDesk (d : Desk K) : Prop where
  fits : FitsGrid d.prop
  viewers : ∀ v ∈ d.viewers, Valid { v with data := d.prop.data } ∧ v.data = ⟨[], []⟩

theorem call_keeps (op : PropOp K) (p : GProp K) :
    (op.exec p).data.shape = p.data.shape ∧ (op.exec p).params = p.params := by
  cases op with
  | setMask v => rcases setMask_cases v p with ⟨a, -, -, -, hs⟩ | ⟨⟨e, hs⟩, -⟩ <;> simp [PropOp.exec, hs]
  | getData v => rcases getData_cases v p with ⟨m, -, -, -, hs⟩ | hs <;> simp [PropOp.exec, hs]
  | setContrast a b c d =>
    obtain ⟨h1, -, h3, -⟩ := setContrast_frame a b c d p
    exact ⟨by rw [PropOp.exec, h1], h3⟩

theorem calls_keep (ops : List (PropOp K)) (p : GProp K) :
    (runProp ops p).data.shape = p.data.shape ∧ (runProp ops p).params = p.params := by
  induction ops generalizing p with
  | nil => exact ⟨rfl, rfl⟩
  | cons op ops ih =>
    obtain ⟨h1, h2⟩ := ih (op.exec p)
    obtain ⟨h3, h4⟩ := call_keeps op p
    exact ⟨h1.trans h3, h2.trans h4⟩

theorem exec_keeps (op : DeskOp K) (d : Desk K) :
    (op.exec d).prop.data.shape = d.prop.data.shape ∧ (op.exec d).prop.params = d.prop.params := by
  rw [exec_prop]
  exact calls_keep _ _

theorem valid_move {v : Viewer K} {a b : Nd K} (h : Valid { v with data := a }) (hs : b.shape = a.shape) :
    Valid { v with data := b } :=
  ⟨h.axis, by simpa only [hs] using h.shape, h.low, h.high, h.coordinates⟩

/-- What one action does to the viewers. -/
theorem exec_viewers (op : DeskOp K) (d : Desk K) (hd : TidyDesk d) (k : ℕ) (v : Viewer K)
    (hv : (op.exec d).viewers[k]? = some v) :
    (d.viewers[k]? = some v ∧ (v.frozen = false → ∀ b, op ≠ .scroll k b)) ∨
    (Valid { v with data := (op.exec d).prop.data } ∧ v.data = ⟨[], []⟩ ∧
      ShowsSlice (op.exec d).prop.data v.axis v.index.toNat v.image ∧
      v.sliceValues[v.index.toNat]? = some v.title.1 ∧
      ((v.frozen = false ∧ ∃ b, op = .scroll k b) ∨
        (d.viewers.length = k ∧ ∃ axis masked index frozen cs, op = .view axis masked index frozen cs))) := by
  cases op with
  | call op => exact Or.inl ⟨hv, fun _ b h => by cases h⟩
  | view axis masked index frozen cs =>
    have hex : DeskOp.exec (.view axis masked index frozen cs) d = (Desk.view axis masked index frozen cs d).2 := rfl
    rcases view_cases axis masked index frozen cs d with ⟨w, p', h, h'⟩ | ⟨e, p', h, h'⟩
    · rw [hex, h'] at hv ⊢
      by_cases hk : k < d.viewers.length
      · rw [List.getElem?_append_left hk] at hv
        exact Or.inl ⟨hv, fun _ b h => by cases h⟩
      · rw [List.getElem?_append_right (by omega)] at hv
        have hk0 : k - d.viewers.length = 0 := by
          by_contra hne
          rw [List.getElem?_eq_none (by simp; omega)] at hv
          cases hv
        rw [hk0] at hv
        simp only [List.getElem?_cons_zero, Option.some.injEq] at hv
        subst hv
        obtain ⟨g1, g2, -, g4, -⟩ := new_good axis masked index frozen cs d.prop p' w hd.fits h
        refine Or.inr ⟨?_, rfl, ?_, g2.value, Or.inr ⟨by omega, _, _, _, _, _, rfl⟩⟩
        · simp only [Desk.bare, ← g4]
          exact g1
        · rw [← g4]
          exact g2.image
    · rw [hex, h'] at hv
      exact Or.inl ⟨hv, fun _ b h => by cases h⟩
  | scroll k' b =>
    have hex : DeskOp.exec (.scroll k' b) d = (Desk.scroll k' b d).2 := rfl
    rw [hex] at hv ⊢
    unfold Desk.scroll at hv ⊢
    cases hk' : d.viewers[k']? with
    | none =>
      simp only [hk'] at hv ⊢
      refine Or.inl ⟨hv, fun _ b' h => ?_⟩
      cases h
      rw [hk'] at hv
      cases hv
    | some u =>
      simp only [hk'] at hv ⊢
      by_cases hkk : k' = k
      · subst hkk
        have hlt : k' < d.viewers.length := (List.getElem?_eq_some_iff.1 hk').1
        rw [List.getElem?_set_self hlt] at hv
        have hu : u ∈ d.viewers := List.mem_of_getElem? hk'
        obtain ⟨hval, hdat⟩ := hd.viewers u hu
        by_cases hf : u.frozen = true
        · rw [onscroll_frozen { u with data := d.prop.data } b hf] at hv
          have hvu : v = u := by
            rw [← Option.some.inj hv]
            cases u
            simp only at hdat
            subst hdat
            rfl
          subst hvu
          exact Or.inl ⟨hk', fun h => by rw [hf] at h; cases h⟩
        · have hf' : u.frozen = false := by simpa using hf
          obtain ⟨-, g2, g3, g4, -⟩ := onscroll_good { u with data := d.prop.data } hval b hf'
          obtain rfl := Option.some.inj hv
          have hdata := g4.data
          have hfr := g4.frozen
          generalize (Viewer.onscroll b { u with data := d.prop.data }).2 = w at g2 g3 g4 hdata hfr
          simp only at hdata hfr
          refine Or.inr ⟨?_, rfl, ?_, g3.value, Or.inl ⟨hfr.trans hf', b, rfl⟩⟩
          · simp only [Desk.bare, ← hdata]
            exact g2
          · rw [← hdata]
            exact g3.image
      · rw [List.getElem?_set_ne hkk] at hv
        exact Or.inl ⟨hv, fun _ b' h => by cases h; exact hkk rfl⟩

theorem exec_tidy (op : DeskOp K) (d : Desk K) (hd : TidyDesk d) : TidyDesk (op.exec d) := by
  obtain ⟨h1, h2⟩ := exec_keeps op d
  refine ⟨?_, ?_⟩
  · unfold FitsGrid
    rw [h1, h2]
    exact hd.fits
  · intro v hv
    obtain ⟨k, hk⟩ := List.mem_iff_getElem?.1 hv
    rcases exec_viewers op d hd k v hk with ⟨h, -⟩ | ⟨h, h', -⟩
    · obtain ⟨g1, g2⟩ := hd.viewers v (List.mem_of_getElem? h)
      exact ⟨valid_move g1 h1, g2⟩
    · exact ⟨h, h'⟩

theorem runDesk_tidy (ops : List (DeskOp K)) (d : Desk K) (hd : TidyDesk d) : TidyDesk (runDesk ops d) := by
  induction ops generalizing d with
  | nil => exact hd
  | cons op ops ih => exact ih _ (exec_tidy op d hd)

/-- **C129, exactly** Whatever is done with a property and its viewers, the picture of a viewer is the slice at its
index of the data of the property *as they were when the viewer was last drawn*: when it was last scrolled, or when it
was opened, if it is frozen or was never scrolled. -/
theorem C129_exact (ops : List (DeskOp K)) (p : GProp K) (hp : FitsGrid p) (k : ℕ) (v : Viewer K)
    (hv : (runDesk ops ⟨p, []⟩).viewers[k]? = some v) :
    ∃ n : ℕ, (runDesk (ops.take (n + 1)) ⟨p, []⟩).viewers[k]? = some v ∧
      ShowsSlice (runDesk (ops.take (n + 1)) ⟨p, []⟩).prop.data v.axis v.index.toNat v.image ∧
      v.sliceValues[v.index.toNat]? = some v.title.1 ∧
      ((v.frozen = false ∧ ∃ b, ops[n]? = some (.scroll k b)) ∨
        ((runDesk (ops.take n) ⟨p, []⟩).viewers.length = k ∧
          ∃ axis masked index frozen cs, ops[n]? = some (.view axis masked index frozen cs))) ∧
      (v.frozen = false → ∀ j b, n < j → ops[j]? ≠ some (.scroll k b)) := by
  induction ops using List.reverseRecOn generalizing v with
  | nil => cases hv
  | append_singleton ops op ih =>
    rw [runDesk_snoc] at hv
    have htidy : TidyDesk (runDesk ops (⟨p, []⟩ : Desk K)) := runDesk_tidy ops _ ⟨hp, fun v hv => by cases hv⟩
    rcases exec_viewers op _ htidy k v hv with ⟨h1, h2⟩ | ⟨-, -, h3, h4, h5⟩
    · obtain ⟨n, i1, i2, i3, i4, i5⟩ := ih v h1
      have hn : n < ops.length := by
        rcases i4 with ⟨-, b, h⟩ | ⟨-, _, _, _, _, _, h⟩ <;> exact (List.getElem?_eq_some_iff.1 h).1
      refine ⟨n, ?_, ?_, i3, ?_, ?_⟩
      · rw [List.take_append_of_le_length hn]
        exact i1
      · rw [List.take_append_of_le_length hn]
        exact i2
      · rw [List.getElem?_append_left hn, List.take_append_of_le_length hn.le]
        exact i4
      · intro hf j b hj
        by_cases hj' : j < ops.length
        · rw [List.getElem?_append_left hj']
          exact i5 hf j b hj
        · rw [List.getElem?_append_right (by omega)]
          by_cases hj0 : j - ops.length = 0
          · rw [hj0]
            simp only [List.getElem?_cons_zero, ne_eq, Option.some.injEq]
            exact h2 hf b
          · rw [List.getElem?_eq_none (by simp; omega)]
            simp
    · have htake : (ops ++ [op]).take (ops.length + 1) = ops ++ [op] := List.take_of_length_le (by simp)
      refine ⟨ops.length, ?_, ?_, h4, ?_, ?_⟩
      · rw [htake, runDesk_snoc]
        exact hv
      · rw [htake, runDesk_snoc]
        exact h3
      · have hop : (ops ++ [op])[ops.length]? = some op := by simp
        rw [hop, List.take_left']
        · simpa only [Option.some.injEq] using h5
        · rfl
      · intro _ j b hj
        rw [List.getElem?_eq_none (by simp; omega)]
        simp

/-- **C129** Each element of a picture is the value that the property had there at first, or it is NaN and a mask
marked it when `get_data` was called with `masked=True`, by the user or by a viewer that was opened. -/
theorem C129_values (ops : List (DeskOp K)) (p : GProp K) (hp : FitsGrid p)
    (hm : ∀ m, p.mask = some m → m.shape = p.data.shape) (k : ℕ) (v : Viewer K)
    (hv : (runDesk ops ⟨p, []⟩).viewers[k]? = some v) :
    ∃ e : Nd K, ShowsSlice e v.axis v.index.toNat v.image ∧ e.shape = p.data.shape ∧
      ∀ i < p.data.data.length, e.data[i]? = p.data.data[i]? ∨
        (e.data[i]? = some .nan ∧ ∃ j : ℕ, (ops.flatMap callsOf)[j]? = some (.getData (.bool true)) ∧
          Marked (runProp ((ops.flatMap callsOf).take j) p).mask i) := by
  obtain ⟨n, -, h, -⟩ := C129_exact ops p hp k v hv
  rw [C129_property] at h
  refine ⟨_, h, (calls_keep _ _).1, fun i hi => ?_⟩
  obtain ⟨c1, c2⟩ := C31_exact ((ops.take (n + 1)).flatMap callsOf) p hm i hi
  have hsplit : ops.flatMap callsOf = (ops.take (n + 1)).flatMap callsOf ++ (ops.drop (n + 1)).flatMap callsOf := by
    rw [← List.flatMap_append, List.take_append_drop]
  by_cases hc : ∃ j : ℕ, ((ops.take (n + 1)).flatMap callsOf)[j]? = some (PropOp.getData (.bool true)) ∧
      Marked (runProp (((ops.take (n + 1)).flatMap callsOf).take j) p).mask i
  · refine Or.inr ⟨c1 hc, ?_⟩
    obtain ⟨j, h1, h2⟩ := hc
    have hj := (List.getElem?_eq_some_iff.1 h1).1
    refine ⟨j, ?_, ?_⟩
    · rw [hsplit, List.getElem?_append_left hj]
      exact h1
    · rw [hsplit, List.take_append_of_le_length hj.le]
      exact h2
  · exact Or.inl (c2 hc)

/-- **C129 (partial)** As long as neither the user nor a viewer reads with `masked=True`, every viewer shows the slice at
its index of the data that the property had at first.  Missing for the full claim: such reads, with which it is false
(`C129_false`). -/
theorem C129_kept_partial (ops : List (DeskOp K)) (p : GProp K) (hp : FitsGrid p)
    (h1 : DeskOp.call (.getData (.bool true)) ∉ ops)
    (h2 : ∀ axis index frozen cs, DeskOp.view axis (.bool true) index frozen cs ∉ ops) (k : ℕ) (v : Viewer K)
    (hv : (runDesk ops ⟨p, []⟩).viewers[k]? = some v) :
    ShowsSlice p.data v.axis v.index.toNat v.image ∧ v.sliceValues[v.index.toNat]? = some v.title.1 := by
  obtain ⟨n, -, h, ht, -⟩ := C129_exact ops p hp k v hv
  refine ⟨?_, ht⟩
  rw [C129_property] at h
  have hno : PropOp.getData (.bool true) ∉ (ops.take (n + 1)).flatMap callsOf := by
    intro hmem
    obtain ⟨op, hop, hc⟩ := List.mem_flatMap.1 hmem
    have hop := List.mem_of_mem_take hop
    cases op with
    | call op =>
      simp only [callsOf, List.mem_singleton] at hc
      subst hc
      exact h1 hop
    | view axis masked index frozen cs =>
      simp only [callsOf] at hc
      split_ifs at hc
      · simp only [List.mem_singleton, PropOp.getData.injEq] at hc
        subst hc
        exact h2 _ _ _ _ hop
      · cases hc
    | scroll k b => cases hc
  have := C31_no_masked_read_partial _ p hno
  rw [C30_unmasked_read _ false (Or.inl rfl)] at this
  rw [Except.ok.inj this] at h
  exact h

end

/-! ## The claim is false -/

/-- A mask of the cube `cube18` that marks its first element. -/
def Spec.mask18 : PyVal ℚ :=
  .arr ⟨"bool", [2, 3, 3], .fin 1 :: List.replicate 17 (.fin 0)⟩

/-- **C129 is false**: a viewer of the unmasked data shows the values 0 to 8.  After a mask is set and a second viewer is
opened, with masked data, it still does; but once it is scrolled, here at its end so that the slice stays the same, the
first value is gone. -/
theorem C129_false : ∃ v w : Viewer ℚ,
    (runDesk [.view (.int 0) (.bool false) (.int 0) (.bool false) none] ⟨cube18, []⟩).viewers = [v] ∧
    v.index = 0 ∧ v.image = (List.range 9).map (fun i => .fin i) ∧
    (runDesk [.view (.int 0) (.bool false) (.int 0) (.bool false) none, .call (.setMask mask18),
      .view (.int 0) (.bool true) (.int 0) (.bool false) none] ⟨cube18, []⟩).viewers[0]? = some v ∧
    (runDesk [.view (.int 0) (.bool false) (.int 0) (.bool false) none, .call (.setMask mask18),
      .view (.int 0) (.bool true) (.int 0) (.bool false) none, .scroll 0 "down"] ⟨cube18, []⟩).viewers[0]? = some w ∧
    w.index = 0 ∧ w.image = .nan :: ((List.range 9).map (fun i => .fin i)).drop 1 := by
  refine ⟨((runDesk [.view (.int 0) (.bool false) (.int 0) (.bool false) none] ⟨cube18, []⟩).viewers[0]?).get
      (by decide +kernel),
    ((runDesk [.view (.int 0) (.bool false) (.int 0) (.bool false) none, .call (.setMask mask18),
      .view (.int 0) (.bool true) (.int 0) (.bool false) none, .scroll 0 "down"] ⟨cube18, []⟩).viewers[0]?).get
      (by decide +kernel), ?_⟩
  decide +kernel

/-- The hypotheses of `C129_kept_partial` are met by a session with two viewers, one of them frozen. -/
example : ∃ v w : Viewer ℚ,
    (runDesk [.view (.int 0) (.bool false) (.int 0) (.bool false) none, .call (.setMask mask18),
      .view (.int 1) (.bool false) .none (.bool true) none, .scroll 0 "up", .scroll 1 "up"] ⟨cube18, []⟩).viewers =
      [v, w] ∧ v.index = 1 ∧ w.index = 1 ∧ w.frozen = true ∧
    v.image = (List.range 9).map (fun i => .fin (i + 9)) ∧ w.image = [3, 4, 5, 12, 13, 14].map fun i => .fin i := by
  refine ⟨((runDesk [.view (.int 0) (.bool false) (.int 0) (.bool false) none, .call (.setMask mask18),
      .view (.int 1) (.bool false) .none (.bool true) none, .scroll 0 "up", .scroll 1 "up"] ⟨cube18, []⟩).viewers[0]?).get
      (by decide +kernel),
    ((runDesk [.view (.int 0) (.bool false) (.int 0) (.bool false) none, .call (.setMask mask18),
      .view (.int 1) (.bool false) .none (.bool true) none, .scroll 0 "up", .scroll 1 "up"] ⟨cube18, []⟩).viewers[1]?).get
      (by decide +kernel), ?_⟩
  decide +kernel

end Beyonce
