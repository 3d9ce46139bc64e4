import Verif.Props.RingSystemEdit

/-!
# Properties C14, C16–C19: `split_rings` and `merge_rings` in exact arithmetic
-/

set_option linter.unusedSectionVars false

namespace Beyonce
open Spec
variable {K : Type} [Field K] [LinearOrder K]

/-- The radii and the transmission of a ring, as plain numbers. -/
structure Spec.Seg (K : Type) where
  a : K
  b : K
  t : K
  deriving DecidableEq, Repr

/-- The list of rings has these radii and transmissions (whatever its geometry). -/
def Spec.HasSegs (rings : List (RingObj K)) (segs : List (Seg K)) : Prop :=
  rings.map (fun r => (r.inner, r.outer, r.transmission)) =
    segs.map (fun s => (XF.fin s.a, XF.fin s.b, XF.fin s.t))

/-- Radii and transmissions a ring may have. -/
def Spec.Seg.Ok (s : Seg K) : Prop := 0 < s.a ∧ s.a < s.b ∧ 0 ≤ s.t ∧ s.t ≤ 1

/-- Rings in order without overlap. -/
def Spec.OrderedSegs (segs : List (Seg K)) : Prop :=
  (∀ s ∈ segs, s.Ok) ∧ segs.Pairwise (fun x y => x.b ≤ y.a)

/-- The ring with the radii and transmission `g` in the geometry of the system `s`. -/
def Spec.ringOf (s : RSys K) (g : Seg K) : RingObj K :=
  ⟨.fin g.a, .fin g.b, .fin g.t, s.inclination, s.tilt⟩

/-- At radius `x` there is a ring with transmission `t`. -/
def Spec.Covers (segs : List (Seg K)) (x t : K) : Prop :=
  ∃ g ∈ segs, g.a ≤ x ∧ x < g.b ∧ g.t = t

/-- Part `i` of `d` equal parts of a ring. -/
def Spec.part (g : Seg K) (d i : ℕ) : Seg K :=
  ⟨g.a + i * ((g.b - g.a) / d), g.a + (i + 1) * ((g.b - g.a) / d), g.t⟩

/-- All the `d` equal parts of a ring. -/
def Spec.parts (g : Seg K) (d : ℕ) : List (Seg K) := (List.range d).map (part g d)

/-- Every ring divided into its number of parts. -/
def Spec.splitSegs (segs : List (Seg K)) (ds : List ℕ) : List (Seg K) :=
  (segs.zip ds).flatMap fun p => parts p.1 p.2

/-- The argument of `split_rings` asks for the divisions `ds` of `n` rings. -/
inductive Spec.Asks (n : ℕ) : PyVal K → List ℕ → Prop
  | int (k : ℕ) (hk : 2 ≤ k) : Asks n (.int k) (List.replicate n k)
  | npInt (w) (k : ℕ) (hk : 2 ≤ k) : Asks n (.npInt w k) (List.replicate n k)
  | arr (ds : List ℕ) (hds : ∀ d ∈ ds, 1 ≤ d) (hn : ds.length = n) :
      Asks n (.arr ⟨"int64", [n], ds.map fun d : ℕ => .fin (d : K)⟩) ds

/-! ## Helper lemmas -/

theorem hasSegs_cons {r : RingObj K} {rs : List (RingObj K)} {segs : List (Seg K)}
    (h : HasSegs (r :: rs) segs) : ∃ g gs, segs = g :: gs ∧ r.inner = .fin g.a ∧
      r.outer = .fin g.b ∧ r.transmission = .fin g.t ∧ HasSegs rs gs := by
  cases segs with
  | nil => simp [HasSegs] at h
  | cons g gs =>
    simp only [HasSegs, List.map_cons, List.cons.injEq, Prod.mk.injEq] at h
    exact ⟨g, gs, rfl, h.1.1, h.1.2.1, h.1.2.2, h.2⟩

theorem hasSegs_nil {segs : List (Seg K)} (h : HasSegs [] segs) : segs = [] := by
  cases segs <;> simp_all [HasSegs]

theorem hasSegs_length {rs : List (RingObj K)} {segs : List (Seg K)} (h : HasSegs rs segs) :
    rs.length = segs.length := by
  have := congrArg List.length h
  simpa using this

theorem hasSegs_ringOf (s : RSys K) (segs : List (Seg K)) : HasSegs (segs.map (ringOf s)) segs := by
  simp [HasSegs, ringOf]

theorem hasSegs_unique {rs : List (RingObj K)} {g1 g2 : List (Seg K)} (h1 : HasSegs rs g1)
    (h2 : HasSegs rs g2) : g1 = g2 := by
  unfold HasSegs at *
  rw [h1] at h2
  refine List.map_injective_iff.2 ?_ h2
  rintro ⟨a, b, t⟩ ⟨a', b', t'⟩ h
  simpa using h

@[simp] theorem round_id (x : XF K) : x.round id = x := by cases x <;> rfl

variable [IsStrictOrderedRing K]

theorem newRing_ringOf {s : RSys K} (hs : GoodGeometry s) {g : Seg K} (hg : g.Ok) :
    newRing (.float (.fin g.a)) (.float (.fin g.b)) (.float (.fin g.t)) (.float s.inclination)
      (.float s.tilt) = .ok (ringOf s g) := by
  obtain ⟨i, p, hi, hp, h1, h2, h3, h4⟩ := hs
  obtain ⟨h5, h6, h7, h8⟩ := hg
  rw [hi, hp, newRing_fin _ _ _ _ _ h5.ne', if_pos ⟨h5, h6, ⟨h7, h8⟩, ⟨h1, h2⟩, h3, h4⟩]
  simp [ringOf, hi, hp]

theorem part_ok {g : Seg K} (hg : g.Ok) {d i : ℕ} (hd : 1 ≤ d) : (part g d i).Ok := by
  obtain ⟨h5, h6, h7, h8⟩ := hg
  have hd' : (0 : K) < d := by exact_mod_cast hd
  have hδ : 0 < (g.b - g.a) / d := div_pos (sub_pos.2 h6) hd'
  have hi : (0 : K) ≤ i := by positivity
  refine ⟨?_, ?_, h7, h8⟩
  · simp only [part]; have := mul_nonneg hi hδ.le; linarith
  · simp only [part]; linarith

theorem ringlet_exact {s : RSys K} (hs : GoodGeometry s) {r : RingObj K} {g : Seg K} (hg : g.Ok)
    (h1 : r.inner = .fin g.a) (h2 : r.outer = .fin g.b) (h3 : r.transmission = .fin g.t)
    {d i : ℕ} (hd : 1 ≤ d) : ringlet id s r d i = .ok (ringOf s (part g d i)) := by
  have hd' : (d : K) ≠ 0 := by
    have : (0 : K) < d := by exact_mod_cast hd
    exact this.ne'
  have h := newRing_ringOf hs (part_ok hg hd (i := i))
  have e : g.a + (i + 1) * ((g.b - g.a) / d) = g.a + i * ((g.b - g.a) / d) + (g.b - g.a) / d := by
    ring
  unfold ringlet
  simp only [h1, h2, h3, round_id, XF.sub, XF.neg, XF.add, XF.div, hd', if_false, XF.mul]
  simp only [part] at h ⊢
  rw [e] at h ⊢
  simpa [sub_eq_add_neg] using h

theorem mapM_ok {α β : Type} (f : α → Except Err β) (g : α → β) (l : List α)
    (h : ∀ x ∈ l, f x = .ok (g x)) : l.mapM f = .ok (l.map g) := by
  induction l with
  | nil => rfl
  | cons x l ih =>
    rw [List.mapM_cons, h x (by simp), ih (fun y hy => h y (by simp [hy]))]
    rfl

theorem splitLoop_exact {s : RSys K} (hs : GoodGeometry s) (rs : List (RingObj K))
    (segs : List (Seg K)) (ds : List ℕ) (h : HasSegs rs segs) (hok : ∀ g ∈ segs, g.Ok) :
    splitLoop id s (rs.zip ds) = .ok ((splitSegs segs ds).map (ringOf s)) := by
  induction rs generalizing segs ds with
  | nil => obtain rfl := hasSegs_nil h; simp [splitLoop, splitSegs]
  | cons r rs ih =>
    obtain ⟨g, gs, rfl, h1, h2, h3, h4⟩ := hasSegs_cons h
    cases ds with
    | nil => simp [splitLoop, splitSegs]
    | cons d ds =>
      have e := mapM_ok (ringlet id s r d) (fun i => ringOf s (part g d i)) (List.range d)
        (fun i hi => ringlet_exact hs (hok g (by simp)) h1 h2 h3
          (by rw [List.mem_range] at hi; omega))
      simp only [List.zip_cons_cons, splitLoop, e, bind, Except.bind,
        ih gs ds h4 (fun g hg => hok g (by simp [hg]))]
      simp [splitSegs, parts, List.map_map, Function.comp_def]

theorem asks_divisions [FloorRing K] {s : RSys K} {nd : PyVal K} {ds : List ℕ}
    (h : Asks s.rings.length nd ds) : divisions s nd = .ok ds := by
  have hnum : ∀ (v : PyVal K) (k : ℕ), IsInteger v k → 2 ≤ k →
      number v (.bool true) (.int 2) = .ok v := by
    intro v k hv hk
    rw [C01_number_ok_iff]
    refine ⟨rfl, .fin ((k : ℤ) : K), .fin ((2 : ℤ) : K), .pinf, Or.inl ⟨k, hv, rfl⟩,
      Or.inl ⟨2, .int 2, rfl⟩, Or.inr ⟨rfl, .float _⟩, by rw [less_iff]; simp, ?_⟩
    rw [not_violates_iff]
    simp
    exact_mod_cast hk
  cases h with
  | int k hk =>
    unfold divisions; rw [hnum _ k (.int k) hk]; simp [PyVal.toInt]
  | npInt w k hk =>
    unfold divisions; rw [hnum _ k (.npInt w k) hk]; simp [PyVal.toInt]
  | arr ds hds hn =>
    unfold divisions
    have h1 : number (K := K) (.arr ⟨"int64", [s.rings.length], ds.map fun d : ℕ => .fin (d : K)⟩)
        (.bool true) (.int 2) = .error .typeError := rfl
    have h2 : array (K := K) (.arr ⟨"int64", [s.rings.length], ds.map fun d : ℕ => .fin (d : K)⟩)
        (.int 1) .none (.bool false) (.str "int64") (.int 1) =
        .ok ⟨"int64", [s.rings.length], ds.map fun d : ℕ => .fin (d : K)⟩ := by
      have := (C03_array_ok_iff false
        (.arr ⟨"int64", [s.rings.length], ds.map fun d : ℕ => .fin (d : K)⟩)
        ⟨"int64", [s.rings.length], ds.map fun d : ℕ => .fin (d : K)⟩ (some (.int 1)) none
        (some (.int 1)) (some "int64") (by simp) (by simp) (by simp)).2 ⟨rfl, ?_⟩
      · exact this
      · refine ⟨fun _ => ⟨.fin ((1 : ℤ) : K), .pinf, Or.inl ⟨1, .int 1, rfl⟩, Or.inr ⟨rfl, .float _⟩,
          by rw [less_iff]; simp, ?_⟩, ?_, ?_⟩
        · intro x hx
          obtain ⟨d, hd, rfl⟩ := List.mem_map.1 hx
          rw [not_violates_iff]
          have := hds d hd
          simp
          omega
        · rintro d ⟨⟩; exact ⟨1, .int 1, by simp⟩
        · rintro d ⟨⟩; rfl
    have h3 : sameShapeArrays (K := K)
        [.arr ⟨"int64", [s.rings.length], ds.map fun d : ℕ => .fin (d : K)⟩,
          .arr ⟨"object", [s.rings.length], []⟩] 2 = .ok () := by
      rw [C04_sameShapeArrays_iff]
      refine ⟨by simp, by simp, [⟨"int64", [s.rings.length], ds.map fun d : ℕ => .fin (d : K)⟩,
        ⟨"object", [s.rings.length], []⟩], rfl, ?_⟩
      intro a ha b hb
      simp only [List.mem_cons, List.not_mem_nil, or_false] at ha hb
      rcases ha with rfl | rfl <;> rcases hb with rfl | rfl <;> rfl
    simp only [h1, h2, h3, bind, Except.bind, List.map_map]
    congr 1
    conv_rhs => rw [← List.map_id ds]
    apply List.map_congr_left
    intro d _
    simp

theorem asks_pos {n : ℕ} {nd : PyVal K} {ds : List ℕ} (h : Asks n nd ds) :
    ds.length = n ∧ ∀ d ∈ ds, 1 ≤ d := by
  cases h with
  | int k hk => exact ⟨by simp, fun d hd => by rw [List.eq_of_mem_replicate hd]; omega⟩
  | npInt w k hk => exact ⟨by simp, fun d hd => by rw [List.eq_of_mem_replicate hd]; omega⟩
  | arr ds hds hn => exact ⟨hn, hds⟩

/-! ## C14 -/

/-- **C14** `split_rings` replaces every ring by its equal parts: on a system with the radii
`segs` it succeeds and the new rings are exactly the parts, in the geometry of the system;
nothing else of the system changes. -/
theorem C14_split_rings_parts [FloorRing K] (s : RSys K) (hs : GoodGeometry s) (segs : List (Seg K))
    (h : HasSegs s.rings segs) (hok : ∀ g ∈ segs, g.Ok) (nd : PyVal K) (ds : List ℕ)
    (hask : Asks s.rings.length nd ds) :
    splitRings id nd s = (.ok (), { s with rings := (splitSegs segs ds).map (ringOf s) }) := by
  unfold splitRings
  simp only [Meth.get_bind, asks_divisions hask, Meth.lift_ok_bind,
    splitLoop_exact hs s.rings segs ds h hok, Meth.modify_apply]

/-- **C14** The parts of a ring cover exactly the radii of the ring. -/
theorem C14_parts_cover (g : Seg K) (hg : g.Ok) (d : ℕ) (hd : 1 ≤ d) (x t : K) :
    Covers (parts g d) x t ↔ Covers [g] x t := by
  obtain ⟨-, hab, -, -⟩ := hg
  have hd' : (0 : K) < d := by exact_mod_cast hd
  have hδ : 0 < (g.b - g.a) / d := div_pos (sub_pos.2 hab) hd'
  have hend : g.a + d * ((g.b - g.a) / d) = g.b := by field_simp; ring
  constructor
  · rintro ⟨p, hp, h1, h2, h3⟩
    obtain ⟨i, hi, rfl⟩ := List.mem_map.1 hp
    have hi' : i + 1 ≤ d := by rw [List.mem_range] at hi; omega
    have hi'' : ((i : K) + 1) ≤ d := by exact_mod_cast hi'
    refine ⟨g, by simp, ?_, ?_, h3⟩
    · simp only [part] at h1
      have : 0 ≤ (i : K) * ((g.b - g.a) / d) := by positivity
      linarith
    · simp only [part] at h2
      have : ((i : K) + 1) * ((g.b - g.a) / d) ≤ d * ((g.b - g.a) / d) :=
        mul_le_mul_of_nonneg_right hi'' hδ.le
      linarith
  · rintro ⟨g', hg', h1, h2, h3⟩
    have : g' = g := by simpa using hg'
    subst this
    -- the last part whose inner edge is at or below x
    have key : ∀ m : ℕ, m ≤ d → x < g'.a + m * ((g'.b - g'.a) / d) →
        ∃ i < m, g'.a + i * ((g'.b - g'.a) / d) ≤ x ∧ x < g'.a + (i + 1) * ((g'.b - g'.a) / d) := by
      intro m
      induction m with
      | zero => intro _ hx; simp at hx; exact absurd h1 (not_le.2 hx)
      | succ m ih =>
        intro hm hx
        by_cases hc : x < g'.a + m * ((g'.b - g'.a) / d)
        · obtain ⟨i, hi, h⟩ := ih (by omega) hc
          exact ⟨i, by omega, h⟩
        · refine ⟨m, by omega, not_lt.1 hc, ?_⟩
          simpa using hx
    obtain ⟨i, hi, hx1, hx2⟩ := key d le_rfl (by rw [hend]; exact h2)
    exact ⟨part g' d i, List.mem_map.2 ⟨i, by simpa using hi, rfl⟩, hx1, hx2, h3⟩

/-- **C14** `split_rings` keeps the transmission profile: at every radius there is a ring of
transmission `t` after the call exactly if there was one before. -/
theorem C14_profile_unchanged (segs : List (Seg K)) (hok : ∀ g ∈ segs, g.Ok) (ds : List ℕ)
    (hlen : ds.length = segs.length) (hd : ∀ d ∈ ds, 1 ≤ d) (x t : K) :
    Covers (splitSegs segs ds) x t ↔ Covers segs x t := by
  induction segs generalizing ds with
  | nil => simp [splitSegs, Covers]
  | cons g gs ih =>
    cases ds with
    | nil => simp at hlen
    | cons d ds =>
      have h1 : Covers (splitSegs (g :: gs) (d :: ds)) x t ↔
          Covers (parts g d) x t ∨ Covers (splitSegs gs ds) x t := by
        simp only [splitSegs, List.zip_cons_cons, List.flatMap_cons, Covers, List.mem_append]
        constructor
        · rintro ⟨p, hp | hp, h⟩
          · exact Or.inl ⟨p, hp, h⟩
          · exact Or.inr ⟨p, hp, h⟩
        · rintro (⟨p, hp, h⟩ | ⟨p, hp, h⟩)
          · exact ⟨p, Or.inl hp, h⟩
          · exact ⟨p, Or.inr hp, h⟩
      have h2 : Covers (g :: gs) x t ↔ Covers [g] x t ∨ Covers gs x t := by
        simp [Covers]
      rw [h1, h2, C14_parts_cover g (hok g (by simp)) d (hd d (by simp)),
        ih (fun g hg => hok g (by simp [hg])) ds (by simpa using hlen)
          (fun d h => hd d (by simp [h]))]

/-- **C14** The number of rings after `split_rings` is the sum of the divisions. -/
theorem C14_number_of_rings (segs : List (Seg K)) (ds : List ℕ) (hlen : ds.length = segs.length) :
    (splitSegs segs ds).length = ds.sum := by
  induction segs generalizing ds with
  | nil => simp at hlen; subst hlen; simp [splitSegs]
  | cons g gs ih =>
    cases ds with
    | nil => simp at hlen
    | cons d ds =>
      have := ih ds (by simpa using hlen)
      simp only [splitSegs, List.zip_cons_cons, List.flatMap_cons, List.length_append,
        List.sum_cons] at this ⊢
      rw [this]; simp [parts]

/-- **C14** Neighbouring parts touch and all parts of a ring are equally wide. -/
theorem C14_parts_touch (g : Seg K) (d i : ℕ) :
    (part g d i).b = (part g d (i + 1)).a ∧
      (part g d i).b - (part g d i).a = (g.b - g.a) / d := by
  constructor
  · simp [part]
  · simp [part]; ring

/-- Non-vacuity: three and one parts, as an array argument. -/
example : ((splitRings id (.arr ⟨"int64", [2], [.fin 3, .fin 1]⟩) (⟨.fin 1, .fin 10, .fin 20,
      [⟨.fin 1, .fin 2, .fin 0, .fin 10, .fin 20⟩, ⟨.fin 3, .fin 4, .fin 1, .fin 10, .fin 20⟩]⟩ : RSys ℚ)).2.rings.map
      (·.inner)) = [.fin 1, .fin (4/3), .fin (5/3), .fin 3] := by
  decide +kernel

/-! ## C16, C17: merging -/

/-- Two neighbouring rings are joined by `merge_rings(tol)`. -/
def Spec.Joins (tol : XF K) (x y : Seg K) : Prop := Less (.fin |y.a - x.b|) tol ∧ y.t = x.t

/-- A run of rings as one ring. -/
def Spec.hull (g : Seg K) (gs : List (Seg K)) : Seg K := ⟨g.a, (gs.getLastD g).b, g.t⟩

/-- `merged` is the list of the hulls of maximal runs of joining neighbours of `segs`:
`runs` (each with its first ring and the others) concatenate to `segs`, neighbours inside a run
join, and the last ring of a run does not join the first of the next. -/
def Spec.IsMerge (tol : XF K) (segs merged : List (Seg K)) : Prop :=
  ∃ runs : List (Seg K × List (Seg K)),
    segs = runs.flatMap (fun r => r.1 :: r.2) ∧
    merged = runs.map (fun r => hull r.1 r.2) ∧
    (∀ r ∈ runs, (r.1 :: r.2).IsChain (Joins tol)) ∧
    runs.IsChain (fun r r' => ¬ Joins tol (r.2.getLastD r.1) r'.1)

/-- The merged list computed on plain numbers. -/
def mergeSegs (tol : XF K) (cur : Seg K) : List (Seg K) → List (Seg K)
  | [] => [cur]
  | x :: xs =>
    if XF.lt (.fin |x.a - cur.b|) tol && decide (x.t = cur.t) then
      mergeSegs tol ⟨cur.a, x.b, cur.t⟩ xs
    else cur :: mergeSegs tol x xs

theorem joins_iff (tol : XF K) (x y : Seg K) :
    Joins tol x y ↔ (XF.lt (.fin |y.a - x.b|) tol && decide (y.t = x.t)) = true := by
  simp [Joins, less_iff]

theorem orderedSegs_tail {x : Seg K} {xs : List (Seg K)} (h : OrderedSegs (x :: xs)) :
    OrderedSegs xs :=
  ⟨fun s hs => h.1 s (by simp [hs]), (List.pairwise_cons.1 h.2).2⟩

theorem mergeLoop_exact {s : RSys K} (hs : GoodGeometry s) (tol : XF K) (rs : List (RingObj K))
    (cur : Seg K) (segs : List (Seg K)) (h : HasSegs rs segs) (hord : OrderedSegs (cur :: segs)) :
    mergeLoop id s tol (.fin cur.a) (.fin cur.b) (.fin cur.t) rs =
      .ok ((mergeSegs tol cur segs).map (ringOf s)) := by
  induction rs generalizing cur segs with
  | nil =>
    obtain rfl := hasSegs_nil h
    simp [mergeLoop, mergeSegs, newRing_ringOf hs (hord.1 cur (by simp)), bind, Except.bind]
  | cons r rs ih =>
    obtain ⟨g, gs, rfl, h1, h2, h3, h4⟩ := hasSegs_cons h
    have hcg : cur.b ≤ g.a := by
      have := (List.pairwise_cons.1 hord.2).1 g (by simp); exact this
    have hcond : (XF.lt ((r.inner.sub (.fin cur.b)).round id).abs tol &&
        XF.eqb r.transmission (.fin cur.t)) = (XF.lt (.fin |g.a - cur.b|) tol && decide (g.t = cur.t)) := by
      simp [h1, h3, XF.sub, XF.neg, XF.add, XF.abs, sub_eq_add_neg]
    unfold mergeLoop mergeSegs
    rw [hcond, h1, h2, h3]
    have hc := hord.1 cur (by simp)
    have hg := hord.1 g (by simp)
    split_ifs with hj
    · refine ih ⟨cur.a, g.b, cur.t⟩ gs h4 ⟨?_, ?_⟩
      · intro x hx
        rcases List.mem_cons.1 hx with rfl | hx
        · exact ⟨hc.1, by linarith [hc.2.1, hg.2.1], hc.2.2⟩
        · exact hord.1 x (by simp [hx])
      · have := List.pairwise_cons.1 (List.pairwise_cons.1 hord.2).2
        exact List.pairwise_cons.2 ⟨this.1, this.2⟩
    · rw [newRing_ringOf hs hc, ih g gs h4 (orderedSegs_tail hord)]
      simp [bind, Except.bind]

theorem mergeSegs_isMerge (tol : XF K) (g : Seg K) (gs segs : List (Seg K))
    (hrun : (g :: gs).IsChain (Joins tol)) :
    ∃ (r : List (Seg K)) (runs : List (Seg K × List (Seg K))),
      (g :: gs) ++ segs = ((g, r) :: runs).flatMap (fun r => r.1 :: r.2) ∧
      mergeSegs tol (hull g gs) segs = ((g, r) :: runs).map (fun r => hull r.1 r.2) ∧
      (∀ p ∈ ((g, r) :: runs), (p.1 :: p.2).IsChain (Joins tol)) ∧
      ((g, r) :: runs).IsChain (fun r r' => ¬ Joins tol (r.2.getLastD r.1) r'.1) := by
  induction segs generalizing g gs with
  | nil => exact ⟨gs, [], by simp, by simp [mergeSegs], by simpa using hrun, by simp⟩
  | cons x xs ih =>
    unfold mergeSegs
    have htrans : ∀ (l : List (Seg K)) (g : Seg K), (g :: l).IsChain (Joins tol) →
        (l.getLastD g).t = g.t := by
      intro l
      induction l with
      | nil => intro g _; rfl
      | cons y l ih' =>
        intro g h
        rw [List.isChain_cons_cons] at h
        have := ih' y h.2
        rw [List.getLastD_cons, this, h.1.2]
    have hcond : (XF.lt (.fin |x.a - (hull g gs).b|) tol && decide (x.t = (hull g gs).t)) = true ↔
        Joins tol (gs.getLastD g) x := by
      rw [joins_iff, htrans gs g hrun]
      rfl
    by_cases hj : Joins tol (gs.getLastD g) x
    · rw [if_pos (hcond.2 hj)]
      have hrun' : (g :: (gs ++ [x])).IsChain (Joins tol) := by
        rw [← List.cons_append]
        refine List.IsChain.append hrun (by simp) ?_
        intro a ha b hb
        simp only [List.head?_cons, Option.mem_def, Option.some.injEq] at hb
        subst hb
        have : a = gs.getLastD g := by
          rw [List.getLast?_cons] at ha
          simpa using ha.symm
        rw [this]; exact hj
      obtain ⟨r, runs, h1, h2, h3, h4⟩ := ih g (gs ++ [x]) hrun'
      refine ⟨r, runs, by simpa using h1, ?_, h3, h4⟩
      rw [← h2]
      congr 1
      simp [hull]
    · rw [if_neg (fun h => hj (hcond.1 h))]
      obtain ⟨r, runs, h1, h2, h3, h4⟩ := ih x [] (by simp)
      refine ⟨gs, (x, r) :: runs, ?_, ?_, ?_, ?_⟩
      · simp only [List.flatMap_cons]
        rw [List.flatMap_cons] at h1
        simpa using h1
      · rw [List.map_cons, ← h2]
        simp [hull]
      · intro r' hr'
        rcases List.mem_cons.1 hr' with rfl | hr'
        · exact hrun
        · exact h3 r' hr'
      · rw [List.isChain_cons_cons]
        exact ⟨hj, h4⟩

/-- The result of `merge_rings` on an ordered system. -/
theorem mergeRings_exact (s : RSys K) (hs : GoodGeometry s) (g : Seg K) (gs : List (Seg K))
    (h : HasSegs s.rings (g :: gs)) (hord : OrderedSegs (g :: gs)) (tol : XF K)
    (htol : Less (.fin 0) tol) :
    mergeRings id tol s = (.ok (), { s with rings := (mergeSegs tol g gs).map (ringOf s) }) := by
  unfold mergeRings
  cases hr : s.rings with
  | nil => rw [hr] at h; have := hasSegs_nil h; simp at this
  | cons r rs =>
    rw [hr] at h
    obtain ⟨g', gs', he, h1, h2, h3, h4⟩ := hasSegs_cons h
    simp only [List.cons.injEq] at he
    obtain ⟨rfl, rfl⟩ := he
    have : mergeLoop id s tol r.inner r.inner r.transmission (r :: rs) =
        .ok ((mergeSegs tol g gs).map (ringOf s)) := by
      rw [mergeLoop]
      rw [less_iff] at htol
      have hc : (XF.lt ((r.inner.sub r.inner).round id).abs tol &&
          XF.eqb r.transmission r.transmission) = true := by
        simp [h1, h3, XF.sub, XF.neg, XF.add, XF.abs, htol]
      rw [hc, if_pos rfl, h1, h2, h3]
      exact mergeLoop_exact hs tol rs g gs h4 hord
    simp [hr, this]

/-- **C16** On an ordered, non-empty system `merge_rings(tol)` with `tol > 0` succeeds; the new
rings are the hulls of the maximal runs of neighbouring rings of equal transmission whose edges
differ by less than the tolerance. -/
theorem C16_merge_rings_runs (s : RSys K) (hs : GoodGeometry s) (segs : List (Seg K))
    (h : HasSegs s.rings segs) (hord : OrderedSegs segs) (hne : segs ≠ []) (tol : XF K)
    (htol : Less (.fin 0) tol) :
    ∃ merged, mergeRings id tol s = (.ok (), { s with rings := merged.map (ringOf s) }) ∧
      IsMerge tol segs merged := by
  cases segs with
  | nil => exact absurd rfl hne
  | cons g gs =>
    refine ⟨mergeSegs tol g gs, mergeRings_exact s hs g gs h hord tol htol, ?_⟩
    obtain ⟨r, runs, h1, h2, h3, h4⟩ := mergeSegs_isMerge tol g [] gs (by simp)
    exact ⟨(g, r) :: runs, by simpa using h1, by simpa [hull] using h2, h3, h4⟩

/-- Neighbours of equal transmission in the list always touch. -/
def Spec.NoEqualGaps (tol : XF K) (segs : List (Seg K)) : Prop :=
  segs.IsChain (fun x y => Joins tol x y → x.b = y.a)

theorem hull_covers (tol : XF K) (g : Seg K) (gs : List (Seg K)) (hord : OrderedSegs (g :: gs))
    (hrun : (g :: gs).IsChain (Joins tol)) (hgap : NoEqualGaps tol (g :: gs)) (x t : K) :
    Covers [hull g gs] x t ↔ Covers (g :: gs) x t := by
  induction gs generalizing g with
  | nil => simp [hull, Covers]
  | cons y gs ih =>
    unfold NoEqualGaps at hgap
    rw [List.isChain_cons_cons] at hrun hgap
    have htouch := hgap.1 hrun.1
    have ih' := ih y (orderedSegs_tail hord) hrun.2 hgap.2
    have e : hull g (y :: gs) = ⟨g.a, (hull y gs).b, g.t⟩ := by unfold hull; rw [List.getLastD_cons]
    have hy : (hull y gs).a = y.a := rfl
    have hyt : (hull y gs).t = g.t := hrun.1.2
    have hg := hord.1 g (by simp)
    have hyo := hord.1 y (by simp)
    have hle : y.b ≤ (hull y gs).b := by
      simp only [hull]
      cases hl : gs with
      | nil => simp
      | cons z zs =>
        have hm : (gs.getLastD y) ∈ gs := by
          rw [hl, List.getLastD_cons]
          cases hz : zs with
          | nil => simp
          | cons w ws => 
            rw [List.getLastD_eq_getLast?, List.getLast?_eq_some_getLast (by simp)]
            simp only [Option.getD_some]
            exact List.mem_cons_of_mem _ (List.getLast_mem _)
        have hp := (List.pairwise_cons.1 (orderedSegs_tail hord).2).1 _ hm
        have ho := (hord.1 (gs.getLastD y) (List.mem_cons_of_mem _ (List.mem_cons_of_mem _ hm))).2.1
        rw [← hl]; linarith
    have h2 : Covers (g :: y :: gs) x t ↔ Covers [g] x t ∨ Covers (y :: gs) x t := by
      simp [Covers]
    rw [h2, ← ih', e]
    simp only [Covers, List.mem_singleton, exists_eq_left, hy, hyt]
    constructor
    · rintro ⟨h3, h4, h5⟩
      by_cases hc : x < g.b
      · exact Or.inl ⟨h3, hc, h5⟩
      · exact Or.inr ⟨by rw [← htouch]; exact not_lt.1 hc, h4, h5⟩
    · rintro (⟨h3, h4, h5⟩ | ⟨h3, h4, h5⟩)
      · refine ⟨h3, ?_, h5⟩
        have := hyo.2.1
        linarith
      · refine ⟨?_, h4, h5⟩
        have := hg.2.1
        linarith

/-- **C16** If neighbours that are joined touch exactly, `merge_rings` does not change the
transmission at any radius. -/
theorem C16_profile_unchanged (tol : XF K) (segs merged : List (Seg K))
    (hm : IsMerge tol segs merged) (hord : OrderedSegs segs) (hgap : NoEqualGaps tol segs) (x t : K) :
    Covers merged x t ↔ Covers segs x t := by
  obtain ⟨runs, rfl, rfl, h3, h4⟩ := hm
  clear h4
  induction runs with
  | nil => simp [Covers]
  | cons r runs ih =>
    simp only [List.flatMap_cons, List.map_cons] at *
    have hord1 : OrderedSegs (r.1 :: r.2) :=
      ⟨fun s hs => hord.1 s (List.mem_append_left _ hs), (List.pairwise_append.1 hord.2).1⟩
    have hord2 : OrderedSegs (runs.flatMap fun r => r.1 :: r.2) :=
      ⟨fun s hs => hord.1 s (List.mem_append_right _ hs), (List.pairwise_append.1 hord.2).2.1⟩
    have hgap1 : NoEqualGaps tol (r.1 :: r.2) := hgap.left_of_append
    have hgap2 : NoEqualGaps tol (runs.flatMap fun r => r.1 :: r.2) := hgap.right_of_append
    have key := hull_covers tol r.1 r.2 hord1 (h3 r (by simp)) hgap1 x t
    have ih' := ih hord2 hgap2 (fun r hr => h3 r (by simp [hr]))
    have e1 : Covers (hull r.1 r.2 :: runs.map fun r => hull r.1 r.2) x t ↔
        Covers [hull r.1 r.2] x t ∨ Covers (runs.map fun r => hull r.1 r.2) x t := by
      simp only [Covers, List.mem_cons, exists_eq_or_imp, List.not_mem_nil, or_false, exists_eq_left]
    have e2 : Covers ((r.1 :: r.2) ++ runs.flatMap fun r => r.1 :: r.2) x t ↔
        Covers (r.1 :: r.2) x t ∨ Covers (runs.flatMap fun r => r.1 :: r.2) x t := by
      simp only [Covers, List.mem_append, or_and_right, exists_or]
    rw [e1, e2, key, ih']

/-- Without that condition the profile can change: a gap below the tolerance is filled. -/
example : mergeSegs (.fin (1/10)) ⟨1, 2, 0⟩ [⟨(41:ℚ)/20, 3, 0⟩] = [⟨1, 3, 0⟩] := by decide +kernel

/-- Non-vacuity of C16. -/
example : mergeSegs (.fin (1/10)) (⟨1, 2, 0⟩ : Seg ℚ) [⟨2, 3, 0⟩, ⟨3, 4, 1⟩, ⟨5, 6, 1⟩] =
    [⟨1, 3, 0⟩, ⟨3, 4, 1⟩, ⟨5, 6, 1⟩] := by decide +kernel

theorem mergeSegs_of_not_joins (tol : XF K) (g : Seg K) (gs : List (Seg K))
    (h : (g :: gs).IsChain (fun x y => ¬ Joins tol x y)) : mergeSegs tol g gs = g :: gs := by
  induction gs generalizing g with
  | nil => rfl
  | cons x xs ih =>
    rw [List.isChain_cons_cons] at h
    unfold mergeSegs
    rw [if_neg (fun hc => h.1 ((joins_iff tol g x).2 hc)), ih x h.2]

theorem isMerge_not_joins {tol : XF K} {segs merged : List (Seg K)} (h : IsMerge tol segs merged) :
    merged.IsChain (fun x y => ¬ Joins tol x y) := by
  obtain ⟨runs, -, rfl, h3, h4⟩ := h
  have htrans : ∀ (l : List (Seg K)) (g : Seg K), (g :: l).IsChain (Joins tol) →
      (l.getLastD g).t = g.t := by
    intro l
    induction l with
    | nil => intro g _; rfl
    | cons y l ih' =>
      intro g h
      rw [List.isChain_cons_cons] at h
      have := ih' y h.2
      rw [List.getLastD_cons, this, h.1.2]
  rw [List.isChain_map]
  refine List.IsChain.imp_of_mem_imp ?_ h4
  intro a b ha hb hab hj
  apply hab
  have := htrans a.2 a.1 (h3 a ha)
  unfold Joins
  rw [this]
  exact hj

theorem isMerge_ordered {tol : XF K} {segs merged : List (Seg K)} (h : IsMerge tol segs merged)
    (hord : OrderedSegs segs) : OrderedSegs merged := by
  obtain ⟨runs, rfl, rfl, h3, h4⟩ := h
  clear h3 h4
  have hlast : ∀ (g : Seg K) (gs : List (Seg K)), gs.getLastD g ∈ g :: gs := by
    intro g gs
    induction gs generalizing g with
    | nil => simp
    | cons y gs ih => rw [List.getLastD_cons]; exact List.mem_cons_of_mem _ (ih y)
  have hhull : ∀ (g : Seg K) (gs : List (Seg K)), OrderedSegs (g :: gs) → (hull g gs).Ok := by
    intro g gs ho
    have hg := ho.1 g (by simp)
    have hl := ho.1 _ (hlast g gs)
    have hle : g.a ≤ (gs.getLastD g).a := by
      rcases List.mem_cons.1 (hlast g gs) with he | hm
      · rw [he]
      · have := (List.pairwise_cons.1 ho.2).1 _ hm
        have := hg.2.1
        linarith
    exact ⟨hg.1, by simp only [hull]; have := hl.2.1; linarith, hg.2.2⟩
  induction runs with
  | nil => exact ⟨by simp, by simp⟩
  | cons r runs ih =>
    simp only [List.flatMap_cons, List.map_cons] at *
    have hord1 : OrderedSegs (r.1 :: r.2) :=
      ⟨fun s hs => hord.1 s (List.mem_append_left _ hs), (List.pairwise_append.1 hord.2).1⟩
    have hord2 : OrderedSegs (runs.flatMap fun r => r.1 :: r.2) :=
      ⟨fun s hs => hord.1 s (List.mem_append_right _ hs), (List.pairwise_append.1 hord.2).2.1⟩
    have ih' := ih hord2
    refine ⟨?_, List.pairwise_cons.2 ⟨?_, ih'.2⟩⟩
    · intro x hx
      rcases List.mem_cons.1 hx with rfl | hx
      · exact hhull _ _ hord1
      · exact ih'.1 x hx
    · intro y hy
      obtain ⟨r', hr', rfl⟩ := List.mem_map.1 hy
      have : r'.1 ∈ runs.flatMap fun r => r.1 :: r.2 := List.mem_flatMap.2 ⟨r', hr', by simp⟩
      have := (List.pairwise_append.1 hord.2).2.2 _ (hlast r.1 r.2) _ this
      exact this

theorem mergeSegs_ne_nil (tol : XF K) (g : Seg K) (gs : List (Seg K)) : mergeSegs tol g gs ≠ [] := by
  induction gs generalizing g with
  | nil => simp [mergeSegs]
  | cons x xs ih => unfold mergeSegs; split_ifs <;> simp [ih]

/-- **C17** `merge_rings` is idempotent: a second call with the same tolerance succeeds and
leaves the system as it is. -/
theorem C17_merge_idempotent (s : RSys K) (hs : GoodGeometry s) (segs : List (Seg K))
    (h : HasSegs s.rings segs) (hord : OrderedSegs segs) (hne : segs ≠ []) (tol : XF K)
    (htol : Less (.fin 0) tol) :
    mergeRings id tol (mergeRings id tol s).2 = (.ok (), (mergeRings id tol s).2) := by
  obtain ⟨merged, h1, h2⟩ := C16_merge_rings_runs s hs segs h hord hne tol htol
  have hne' : merged ≠ [] := by
    obtain ⟨runs, rfl, rfl, -, -⟩ := h2
    intro hm
    apply hne
    have : runs = [] := by simpa using hm
    simp [this]
  rw [h1]
  simp only
  have hs' : GoodGeometry { s with rings := merged.map (ringOf s) } := hs
  cases merged with
  | nil => exact absurd rfl hne'
  | cons m ms =>
    rw [mergeRings_exact _ hs' m ms (hasSegs_ringOf s (m :: ms)) (isMerge_ordered h2 hord) tol htol,
      mergeSegs_of_not_joins tol m ms (isMerge_not_joins h2)]
    rfl

/-! ## C18 -/

theorem run_transmission {tol : XF K} : ∀ (l : List (Seg K)) (g : Seg K),
    (g :: l).IsChain (Joins tol) → (l.getLastD g).t = g.t := by
  intro l
  induction l with
  | nil => intro g _; rfl
  | cons y l ih' =>
    intro g h
    rw [List.isChain_cons_cons] at h
    have := ih' y h.2
    rw [List.getLastD_cons, this, h.1.2]

theorem mergeSegs_run (tol : XF K) (g : Seg K) (l1 l2 rest : List (Seg K))
    (h : (g :: (l1 ++ l2)).IsChain (Joins tol)) :
    mergeSegs tol (hull g l1) (l2 ++ rest) = mergeSegs tol (hull g (l1 ++ l2)) rest := by
  induction l2 generalizing l1 with
  | nil => simp
  | cons x xs ih =>
    have hj : Joins tol (l1.getLastD g) x ∧ (g :: l1).IsChain (Joins tol) := by
      have h' : ((g :: l1) ++ x :: xs).IsChain (Joins tol) := by simpa using h
      rw [List.isChain_append] at h'
      refine ⟨h'.2.2 _ ?_ x (by simp), h'.1⟩
      rw [List.getLast?_cons]; simp
    have hc : (XF.lt (.fin |x.a - (hull g l1).b|) tol && decide (x.t = (hull g l1).t)) = true := by
      have := (joins_iff _ _ _).1 hj.1
      rw [run_transmission l1 g hj.2] at this
      exact this
    rw [List.cons_append, mergeSegs, if_pos hc]
    have e : (⟨(hull g l1).a, x.b, (hull g l1).t⟩ : Seg K) = hull g (l1 ++ [x]) := by simp [hull]
    rw [e, ih (l1 ++ [x]) (by simpa using h)]
    simp

/-- The specification of the merged list determines it. -/
theorem isMerge_unique {tol : XF K} {g : Seg K} {gs merged : List (Seg K)}
    (h : IsMerge tol (g :: gs) merged) : merged = mergeSegs tol g gs := by
  obtain ⟨runs, h1, rfl, h3, h4⟩ := h
  induction runs generalizing g gs with
  | nil => simp at h1
  | cons r runs ih =>
    obtain ⟨g', l⟩ := r
    simp only [List.flatMap_cons, List.cons_append, List.cons.injEq] at h1
    obtain ⟨rfl, rfl⟩ := h1
    have hrun := h3 (g, l) (by simp)
    have := mergeSegs_run tol g [] l (runs.flatMap fun r => r.1 :: r.2) (by simpa using hrun)
    rw [show hull g [] = g from rfl, List.nil_append] at this
    rw [this]
    cases runs with
    | nil => simp [mergeSegs]
    | cons r' runs =>
      rw [List.isChain_cons_cons] at h4
      have hnj : ¬ (XF.lt (.fin |r'.1.a - (hull g l).b|) tol &&
          decide (r'.1.t = (hull g l).t)) = true := by
        intro hc
        apply h4.1
        rw [joins_iff, run_transmission l g hrun]
        exact hc
      rw [List.flatMap_cons, List.cons_append, mergeSegs, if_neg hnj, List.map_cons]
      congr 1
      exact ih (g := r'.1) (gs := r'.2 ++ runs.flatMap fun r => r.1 :: r.2)
        (by simp) (fun r hr => h3 r (List.mem_cons_of_mem _ hr)) h4.2

/-- The parts of a ring as a first part and the others. -/
def partRun (p : Seg K × ℕ) : Seg K × List (Seg K) :=
  (part p.1 p.2 0, (List.range (p.2 - 1)).map fun i => part p.1 p.2 (i + 1))

theorem partRun_eq (g : Seg K) (d : ℕ) (hd : 1 ≤ d) :
    (partRun (g, d)).1 :: (partRun (g, d)).2 = parts g d := by
  obtain ⟨k, rfl⟩ : ∃ k, d = k + 1 := ⟨d - 1, by omega⟩
  simp [partRun, parts, List.range_succ_eq_map, List.map_map, Function.comp_def]

theorem partRun_last (g : Seg K) (d : ℕ) (hd : 1 ≤ d) :
    (partRun (g, d)).2.getLastD (partRun (g, d)).1 = part g d (d - 1) := by
  obtain ⟨k, rfl⟩ : ∃ k, d = k + 1 := ⟨d - 1, by omega⟩
  cases k with
  | zero => simp [partRun]
  | succ k => simp [partRun, List.range_succ]

theorem part_first_last (g : Seg K) (d : ℕ) (hd : 1 ≤ d) :
    (part g d 0).a = g.a ∧ (part g d (d - 1)).b = g.b := by
  obtain ⟨k, rfl⟩ : ∃ k, d = k + 1 := ⟨d - 1, by omega⟩
  have : ((k : K) + 1) ≠ 0 := by positivity
  constructor
  · simp [part]
  · simp only [part, Nat.add_sub_cancel]; push_cast; field_simp; ring

theorem partRun_hull (g : Seg K) (d : ℕ) (hd : 1 ≤ d) :
    hull (partRun (g, d)).1 (partRun (g, d)).2 = g := by
  have h1 := partRun_last g d hd
  obtain ⟨h2, h3⟩ := part_first_last g d hd
  have e : hull (partRun (g, d)).1 (partRun (g, d)).2 = ⟨g.a, g.b, g.t⟩ := by
    unfold hull
    rw [h1, h3, ← h2]
    rfl
  rw [e]

theorem parts_joins (tol : XF K) (htol : Less (.fin 0) tol) (g : Seg K) (d : ℕ) :
    (parts g d).IsChain (Joins tol) := by
  unfold parts
  rw [List.isChain_map, List.isChain_range]
  intro m _
  refine ⟨?_, rfl⟩
  rw [(C14_parts_touch g d m).1, sub_self, abs_zero]
  exact htol

theorem splitSegs_isMerge (tol : XF K) (htol : Less (.fin 0) tol) (segs : List (Seg K))
    (ds : List ℕ) (hlen : ds.length = segs.length) (hd : ∀ d ∈ ds, 1 ≤ d)
    (hmax : segs.IsChain (fun x y => ¬ Joins tol x y)) :
    IsMerge tol (splitSegs segs ds) segs := by
  have hzip : ∀ p ∈ segs.zip ds, 1 ≤ p.2 := fun p hp => hd p.2 (List.of_mem_zip hp).2
  refine ⟨(segs.zip ds).map partRun, ?_, ?_, ?_, ?_⟩
  · rw [List.flatMap_map]
    unfold splitSegs
    rw [List.flatMap_def, List.flatMap_def]
    congr 1
    apply List.map_congr_left
    intro p hp
    exact (partRun_eq p.1 p.2 (hzip p hp)).symm
  · rw [List.map_map]
    have : (segs.zip ds).map Prod.fst = segs := List.map_fst_zip (by omega)
    conv_lhs => rw [← this]
    apply List.map_congr_left
    intro p hp
    exact (partRun_hull p.1 p.2 (hzip p hp)).symm
  · intro r hr
    obtain ⟨p, hp, rfl⟩ := List.mem_map.1 hr
    rw [show p = (p.1, p.2) from rfl, partRun_eq p.1 p.2 (hzip p hp)]
    exact parts_joins tol htol _ _
  · rw [List.isChain_map]
    have hc : ((segs.zip ds).map Prod.fst).IsChain (fun x y => ¬ Joins tol x y) := by
      rw [List.map_fst_zip (by omega)]; exact hmax
    rw [List.isChain_map] at hc
    refine List.IsChain.imp_of_mem_imp ?_ hc
    intro p q hp hq hpq hj
    apply hpq
    rw [show p = (p.1, p.2) from rfl, partRun_last p.1 p.2 (hzip p hp)] at hj
    have h1 := (part_first_last p.1 p.2 (hzip p hp)).2
    have h2 := (part_first_last q.1 q.2 (hzip q hq)).1
    unfold Joins at hj ⊢
    rw [h1] at hj
    exact ⟨by rw [← h2]; exact hj.1, hj.2⟩

theorem splitSegs_ordered (segs : List (Seg K)) (ds : List ℕ) (hord : OrderedSegs segs) : OrderedSegs (splitSegs segs ds) := by
  have hparts : ∀ (g : Seg K) (d : ℕ), g.Ok → ∀ p ∈ parts g d, g.a ≤ p.a ∧ p.b ≤ g.b := by
    intro g d hg p hp
    obtain ⟨i, hi, rfl⟩ := List.mem_map.1 hp
    rw [List.mem_range] at hi
    have hd : 1 ≤ d := by omega
    have hd' : (0 : K) < d := by exact_mod_cast hd
    have hδ : 0 < (g.b - g.a) / d := div_pos (sub_pos.2 hg.2.1) hd'
    have hend : g.a + d * ((g.b - g.a) / d) = g.b := by field_simp; ring
    have hi' : ((i : K) + 1) ≤ d := by exact_mod_cast hi
    constructor
    · simp only [part]
      have : 0 ≤ (i : K) * ((g.b - g.a) / d) := by positivity
      linarith
    · simp only [part]
      have := mul_le_mul_of_nonneg_right hi' hδ.le
      linarith
  have hpo : ∀ (g : Seg K) (d : ℕ), g.Ok → OrderedSegs (parts g d) := by
    intro g d hg
    rcases Nat.eq_zero_or_pos d with rfl | hd
    · simp [parts, OrderedSegs]
    refine ⟨?_, ?_⟩
    · intro s hs
      obtain ⟨i, hi, rfl⟩ := List.mem_map.1 hs
      exact part_ok hg hd
    · unfold parts
      rw [List.pairwise_map]
      refine List.Pairwise.imp ?_ (List.pairwise_lt_range (n := d))
      intro i j hij
      have hd' : (0 : K) < d := by exact_mod_cast hd
      have hδ : 0 < (g.b - g.a) / d := div_pos (sub_pos.2 hg.2.1) hd'
      have hij' : ((i : K) + 1) ≤ j := by exact_mod_cast hij
      have := mul_le_mul_of_nonneg_right hij' hδ.le
      simp only [part]
      linarith
  induction segs generalizing ds with
  | nil => exact ⟨by simp [splitSegs], by simp [splitSegs]⟩
  | cons g gs ih =>
    cases ds with
    | nil => exact ⟨by simp [splitSegs], by simp [splitSegs]⟩
    | cons d ds =>
      have hg := hord.1 g (by simp)
      have ih' := ih ds (orderedSegs_tail hord)
      have h0 := hpo g d hg
      have e : splitSegs (g :: gs) (d :: ds) = parts g d ++ splitSegs gs ds := by
        simp [splitSegs]
      rw [e]
      refine ⟨?_, List.pairwise_append.2 ⟨h0.2, ih'.2, ?_⟩⟩
      · intro s hs
        rcases List.mem_append.1 hs with hs | hs
        · exact h0.1 s hs
        · exact ih'.1 s hs
      · intro x hx y hy
        obtain ⟨p, hp, hy⟩ := List.mem_flatMap.1 hy
        have hpg := List.of_mem_zip hp
        have h2 := hparts p.1 p.2 (hord.1 _ (by simp [hpg.1])) y hy
        have h1 := hparts g d hg x hx
        have h3 := (List.pairwise_cons.1 hord.2).1 _ hpg.1
        linarith [h1.2, h2.1]

/-- **C18** `merge_rings` undoes `split_rings`: if no two neighbours of the system would be
merged, splitting with any divisions and merging again restores exactly the radii and
transmissions. -/
theorem C18_merge_undoes_split [FloorRing K] (s : RSys K) (hs : GoodGeometry s)
    (segs : List (Seg K)) (h : HasSegs s.rings segs) (hord : OrderedSegs segs) (hne : segs ≠ [])
    (tol : XF K) (htol : Less (.fin 0) tol)
    (hmax : segs.IsChain (fun x y => ¬ Joins tol x y)) (nd : PyVal K) (ds : List ℕ)
    (hask : Asks s.rings.length nd ds) :
    (splitRings id nd s).1 = .ok () ∧
    mergeRings id tol (splitRings id nd s).2 = (.ok (), { s with rings := segs.map (ringOf s) }) := by
  obtain ⟨hlen, hd⟩ := asks_pos hask
  rw [hasSegs_length h] at hlen
  rw [C14_split_rings_parts s hs segs h hord.1 nd ds hask]
  refine ⟨rfl, ?_⟩
  have hm := splitSegs_isMerge tol htol segs ds hlen hd hmax
  have ho := splitSegs_ordered segs ds hord
  cases hsp : splitSegs segs ds with
  | nil =>
    rw [hsp] at hm
    obtain ⟨runs, h1, h2, -, -⟩ := hm
    cases runs with
    | nil => exact absurd (by simpa using h2) hne
    | cons r runs => simp at h1
  | cons g gs =>
    rw [hsp] at hm ho
    have hs' : GoodGeometry { s with rings := (g :: gs).map (ringOf s) } := hs
    rw [mergeRings_exact _ hs' g gs (hasSegs_ringOf s (g :: gs)) ho tol htol, ← isMerge_unique hm]
    rfl

end Beyonce
