import Verif.Props.RingSystemInv

/-!
# Property C135: laws that relate the editing calls of a ring system
-/

set_option linter.unusedSectionVars false

namespace Beyonce
open Spec

section
variable {K : Type} [Field K] [LinearOrder K] [IsStrictOrderedRing K]

/-! ## Splitting twice -/

theorem range_blocks {α : Type} (f : ℕ → α) (n m : ℕ) :
    ((List.range n).flatMap fun i => (List.range m).map fun j => f (i * m + j)) = (List.range (n * m)).map f := by
  induction n with
  | zero => simp
  | succ n ih =>
    rw [List.range_succ, List.flatMap_append, ih, Nat.succ_mul, List.range_add, List.map_append, List.map_map]
    simp [Function.comp_def]

theorem parts_again (g : Seg K) (n m : ℕ) (hm : m ≠ 0) :
    ((parts g n).flatMap fun p => parts p m) = parts g (n * m) := by
  unfold parts
  rw [← range_blocks, List.flatMap_map]
  apply List.flatMap_congr
  intro i hi
  apply List.map_congr_left
  intro j _
  have hn : (n : K) ≠ 0 := by
    have := List.mem_range.1 hi
    exact_mod_cast (by omega : n ≠ 0)
  have hm' : (m : K) ≠ 0 := by exact_mod_cast hm
  unfold part
  simp only [Seg.mk.injEq, and_true]
  push_cast
  constructor <;> field_simp <;> ring

theorem splitSegs_replicate (segs : List (Seg K)) (m : ℕ) :
    splitSegs segs (List.replicate segs.length m) = segs.flatMap fun g => parts g m := by
  induction segs with
  | nil => rfl
  | cons g l ih =>
    unfold splitSegs at *
    simp only [List.length_cons, List.replicate_succ, List.zip_cons_cons, List.flatMap_cons, ih]

theorem splitSegs_again (segs : List (Seg K)) (ds : List ℕ) (m : ℕ) (hm : m ≠ 0) :
    ((splitSegs segs ds).flatMap fun g => parts g m) = splitSegs segs (ds.map (· * m)) := by
  unfold splitSegs
  rw [List.zip_map_right, List.flatMap_map, List.flatMap_assoc]
  apply List.flatMap_congr
  intro p _
  exact parts_again p.1 p.2 m hm

/-- **C135** Splitting, then splitting every ring into `m` parts is splitting into `m` times as many parts at once:
same outcome, same rings. -/
theorem C135_split_twice [FloorRing K] (s : RSys K) (hs : WellFormed s) (first both : PyVal K) (ds : List ℕ) (m : ℕ)
    (hm : 2 ≤ m) (h1 : Asks s.rings.length first ds) (h2 : Asks s.rings.length both (ds.map (· * m))) :
    splitRings id (.int m) (splitRings id first s).2 = splitRings id both s := by
  obtain ⟨hg, segs, hr, ho⟩ := (wellFormed_iff s).1 hs
  have hseg : HasSegs s.rings segs := by rw [hr]; exact hasSegs_ringOf s segs
  have hw := C08_step s hs (.split first) trivial
  change WellFormed (splitRings id first s).2 at hw
  rw [C14_split_rings_parts s hg segs hseg ho.1 first ds h1] at hw ⊢
  rw [C14_split_rings_parts s hg segs hseg ho.1 both _ h2]
  obtain ⟨hg', segs', hr', ho'⟩ := (wellFormed_iff _).1 hw
  have he : segs' = splitSegs segs ds := by
    refine hasSegs_unique (rs := (splitSegs segs ds).map (ringOf s)) ?_ (hasSegs_ringOf _ _)
    change (splitSegs segs ds).map (ringOf s) = _ at hr'
    rw [hr']
    exact hasSegs_ringOf _ _
  subst he
  have hask : Asks (K := K) ((splitSegs segs ds).map (ringOf s)).length (.int m)
      (List.replicate (splitSegs segs ds).length m) := by
    rw [List.length_map]; exact .int m hm
  rw [C14_split_rings_parts _ hg' (splitSegs segs ds) (hasSegs_ringOf _ _) ho'.1 (.int m) _ hask,
    splitSegs_replicate, splitSegs_again _ _ _ (by omega)]
  rfl

/-- **C135** The order of two splits into equal numbers of parts does not matter. -/
theorem C135_split_order [FloorRing K] (s : RSys K) (hs : WellFormed s) (n m : ℕ) (hn : 2 ≤ n) (hm : 2 ≤ m) :
    splitRings id (.int m) (splitRings id (.int n) s).2 = splitRings id (.int n) (splitRings id (.int m) s).2 := by
  have hnm : 2 ≤ n * m := le_trans hn (Nat.le_mul_of_pos_right n (by omega))
  rw [C135_split_twice s hs (.int n) (.int ((n * m : ℕ) : ℤ)) _ m hm (.int n hn)
      (by rw [List.map_replicate]; exact .int _ hnm),
    C135_split_twice s hs (.int m) (.int ((n * m : ℕ) : ℤ)) _ n hn (.int m hm)
      (by rw [List.map_replicate, Nat.mul_comm m n]; exact .int _ hnm)]

/-! ## Replacing -/

theorem left_out_get {α : Type} (l : List α) (k : ℕ) (hk : k < l.length) :
    (0 < k → (l.take k ++ l.drop (k + 1))[k - 1]? = l[k - 1]?) ∧
      (l.take k ++ l.drop (k + 1))[k]? = l[k + 1]? := by
  have hlen : (l.take k).length = k := by rw [List.length_take]; omega
  constructor
  · intro h0
    rw [List.getElem?_append_left (by omega), List.getElem?_take_of_lt (by omega)]
  · rw [List.getElem?_append_right (by omega), hlen, List.getElem?_drop]
    simp

/-- **C135** `replace_ring(k, ring)` is `remove_ring(k)` followed by `add_ring(k, ring)`: the one succeeds exactly if
both of the others do, and leaves the same system and the same ring with the caller. -/
theorem C135_replace (s : RSys K) (hs : GoodGeometry s) (index : PyVal K) (k : ℤ) (hk : IsIndex index k)
    (ring : RingObj K) :
    ((replaceRing index ⟨s, ring⟩).1 = .ok () ↔
      (removeRing index s).1 = .ok () ∧ (addRing index ⟨(removeRing index s).2, ring⟩).1 = .ok ()) ∧
    ((replaceRing index ⟨s, ring⟩).1 = .ok () →
      (replaceRing index ⟨s, ring⟩).2 = (addRing index ⟨(removeRing index s).2, ring⟩).2) := by
  by_cases hr : 0 ≤ k ∧ k < s.rings.length
  · obtain ⟨h0, h1⟩ := hr
    rw [(C12_remove_ring s index k hk).1 ⟨h0, h1⟩]
    have hlt : k.toNat < s.rings.length := by omega
    obtain ⟨w1, w2⟩ := left_out_get s.rings k.toNat hlt
    have hlen : (s.rings.take k.toNat ++ s.rings.drop (k.toNat + 1)).length = s.rings.length - 1 := by
      simp only [List.length_append, List.length_take, List.length_drop]; omega
    have hs' : GoodGeometry { s with rings := s.rings.take k.toNat ++ s.rings.drop (k.toNat + 1) } := hs
    have hiff : (replaceRing index ⟨s, ring⟩).1 = .ok () ↔
        (addRing index ⟨{ s with rings := s.rings.take k.toNat ++ s.rings.drop (k.toNat + 1) }, ring⟩).1 = .ok () := by
      rw [C13_replace_ring_ok_iff s hs index k hk, C11_add_ring_ok_iff _ hs' index k hk]
      simp only [hlen]
      unfold Fits
      rw [w2]
      constructor
      · rintro ⟨-, -, f1, f2⟩
        refine ⟨h0, by omega, fun r hr hp => ?_, f2⟩
        rw [w1 hp] at hr
        exact f1 r hr hp
      · rintro ⟨-, -, f1, f2⟩
        refine ⟨h0, h1, fun r hr hp => ?_, f2⟩
        rw [← w1 hp] at hr
        exact f1 r hr hp
    refine ⟨⟨fun h => ⟨rfl, hiff.1 h⟩, fun h => hiff.2 h.2⟩, fun h => ?_⟩
    rw [C13_replace_ring_effect s hs index k hk ring h, C11_add_ring_effect _ hs' index k hk ring (hiff.1 h)]
    have hlen' : (s.rings.take k.toNat).length = k.toNat := by rw [List.length_take]; omega
    simp only [List.take_left' hlen', List.drop_left' hlen']
    rfl
  · have hno : ¬ (replaceRing index ⟨s, ring⟩).1 = .ok () := fun h =>
      hr (by obtain ⟨a, b, -⟩ := (C13_replace_ring_ok_iff s hs index k hk ring).1 h; exact ⟨a, b⟩)
    refine ⟨⟨fun h => absurd h hno, fun h => ?_⟩, fun h => absurd h hno⟩
    rw [(C12_remove_ring s index k hk).2 hr] at h
    cases h.1

/-- **C135** Of two replacements at the same position only the second counts: after a successful one, the other
succeeds or fails as it would have without it, and leaves the system as if there had been only the second. -/
theorem C135_replace_twice (s : RSys K) (hs : GoodGeometry s) (index : PyVal K) (k : ℤ) (hk : IsIndex index k)
    (a b : RingObj K) (h : (replaceRing index ⟨s, a⟩).1 = .ok ()) :
    ((replaceRing index ⟨(replaceRing index ⟨s, a⟩).2.sys, b⟩).1 = .ok () ↔ (replaceRing index ⟨s, b⟩).1 = .ok ()) ∧
    ((replaceRing index ⟨s, b⟩).1 = .ok () →
      (replaceRing index ⟨(replaceRing index ⟨s, a⟩).2.sys, b⟩).2 = (replaceRing index ⟨s, b⟩).2) := by
  obtain ⟨h0, h1, -⟩ := (C13_replace_ring_ok_iff s hs index k hk a).1 h
  have hlt : k.toNat < s.rings.length := by omega
  have hlen' : (s.rings.take k.toNat).length = k.toNat := by rw [List.length_take]; omega
  rw [C13_replace_ring_effect s hs index k hk a h]
  have hs' : GoodGeometry { s with rings := (s.rings.take k.toNat ++ adopted s a :: s.rings.drop (k.toNat + 1)) } :=
    hs
  have g1 : 0 < k.toNat → (s.rings.take k.toNat ++ adopted s a :: s.rings.drop (k.toNat + 1))[k.toNat - 1]? =
      s.rings[k.toNat - 1]? := by
    intro hp
    rw [List.getElem?_append_left (by omega), List.getElem?_take_of_lt (by omega)]
  have g2 : (s.rings.take k.toNat ++ adopted s a :: s.rings.drop (k.toNat + 1))[k.toNat + 1]? =
      s.rings[k.toNat + 1]? := by
    rw [List.getElem?_append_right (by omega), hlen']
    simp [List.getElem?_drop]
  have hlen : (s.rings.take k.toNat ++ adopted s a :: s.rings.drop (k.toNat + 1)).length = s.rings.length := by
    simp only [List.length_append, List.length_take, List.length_cons, List.length_drop]; omega
  have hiff : (replaceRing index ⟨{ s with rings := (s.rings.take k.toNat ++
      adopted s a :: s.rings.drop (k.toNat + 1)) }, b⟩).1 = .ok () ↔
      (replaceRing index ⟨s, b⟩).1 = .ok () := by
    rw [C13_replace_ring_ok_iff s hs index k hk, C13_replace_ring_ok_iff _ hs' index k hk]
    simp only [hlen]
    unfold Fits
    rw [g2]
    constructor
    · rintro ⟨a1, a2, f1, f2⟩
      refine ⟨a1, a2, fun r hr hp => ?_, f2⟩
      rw [← g1 hp] at hr
      exact f1 r hr hp
    · rintro ⟨a1, a2, f1, f2⟩
      refine ⟨a1, a2, fun r hr hp => ?_, f2⟩
      rw [g1 hp] at hr
      exact f1 r hr hp
  refine ⟨hiff, fun hb => ?_⟩
  rw [C13_replace_ring_effect s hs index k hk b hb, C13_replace_ring_effect _ hs' index k hk b (hiff.2 hb)]
  have hd : (s.rings.take k.toNat ++ adopted s a :: s.rings.drop (k.toNat + 1)).drop (k.toNat + 1) =
      s.rings.drop (k.toNat + 1) := by
    rw [List.drop_append, hlen', List.drop_of_length_le (by omega)]
    simp
  simp only [List.take_left' hlen', hd]
  rfl

/-! ## Adding -/

/-- **C135** Two rings can be added in either order: whenever both orders succeed, with the position of the later one
counted accordingly, the system is the same. -/
theorem C135_add_order (s : RSys K) (hs : GoodGeometry s) (i j j' : PyVal K) (k n : ℤ) (hi : IsIndex i k)
    (hj : IsIndex j n) (hj' : IsIndex j' (n + 1)) (hkn : k ≤ n) (a b : RingObj K)
    (h1 : (addRing i ⟨s, a⟩).1 = .ok ()) (h2 : (addRing j' ⟨(addRing i ⟨s, a⟩).2.sys, b⟩).1 = .ok ())
    (h3 : (addRing j ⟨s, b⟩).1 = .ok ()) (h4 : (addRing i ⟨(addRing j ⟨s, b⟩).2.sys, a⟩).1 = .ok ()) :
    (addRing j' ⟨(addRing i ⟨s, a⟩).2.sys, b⟩).2.sys = (addRing i ⟨(addRing j ⟨s, b⟩).2.sys, a⟩).2.sys := by
  obtain ⟨k0, k1, -⟩ := (C11_add_ring_ok_iff s hs i k hi a).1 h1
  obtain ⟨n0, n1, -⟩ := (C11_add_ring_ok_iff s hs j n hj b).1 h3
  have e1 := C11_add_ring_effect s hs i k hi a h1
  have e3 := C11_add_ring_effect s hs j n hj b h3
  rw [← insertIdx_eq_take_append (by omega)] at e1 e3
  rw [e1] at h2 ⊢
  rw [e3] at h4 ⊢
  have hs1 : GoodGeometry { s with rings := s.rings.insertIdx k.toNat (adopted s a) } := hs
  have hs3 : GoodGeometry { s with rings := s.rings.insertIdx n.toNat (adopted s b) } := hs
  have e2 := C11_add_ring_effect _ hs1 j' (n + 1) hj' b h2
  have e4 := C11_add_ring_effect _ hs3 i k hi a h4
  have hk' : (n + 1).toNat = n.toNat + 1 := by omega
  rw [← insertIdx_eq_take_append (by simp only [hk']; rw [List.length_insertIdx_of_le_length (by omega)]; omega)]
    at e2
  rw [← insertIdx_eq_take_append (by simp only; rw [List.length_insertIdx_of_le_length (by omega)]; omega)] at e4
  rw [e2, e4]
  simp only [hk']
  have := List.insertIdx_comm (adopted s a) (adopted s b) (i := k.toNat) (j := n.toNat) (l := s.rings) (by omega)
    (by omega)
  exact congrArg (fun l => ({ s with rings := l } : RSys K)) this

end

/-- Non-vacuity: a system on which all these calls succeed and change something. -/
theorem C135_witness : ∃ s : RSys ℚ, WellFormed s ∧ s.rings.length = 2 ∧
    (splitRings id (.int 2) (splitRings id (.int 3) s).2).2.rings.length = 12 ∧
    (∃ a b : RingObj ℚ, (replaceRing (.int 0) ⟨s, a⟩).1 = .ok () ∧ (replaceRing (.int 0) ⟨s, b⟩).1 = .ok () ∧
      (replaceRing (.int 0) ⟨s, a⟩).2.sys ≠ (replaceRing (.int 0) ⟨s, b⟩).2.sys) ∧
    ∃ a b : RingObj ℚ, (addRing (.int 0) ⟨s, a⟩).1 = .ok () ∧
      (addRing (.int 2) ⟨(addRing (.int 0) ⟨s, a⟩).2.sys, b⟩).1 = .ok () ∧ (addRing (.int 1) ⟨s, b⟩).1 = .ok () ∧
      (addRing (.int 0) ⟨(addRing (.int 1) ⟨s, b⟩).2.sys, a⟩).1 = .ok () := by
  refine ⟨⟨.fin 1, .fin 10, .fin 20, [⟨.fin 1, .fin 2, .fin 0, .fin 10, .fin 20⟩,
      ⟨.fin 3, .fin 4, .fin 0, .fin 10, .fin 20⟩]⟩, ?_, by decide +kernel, by decide +kernel,
    ⟨⟨.fin 1, .fin (5/2), .fin 0, .fin 0, .fin 0⟩, ⟨.fin 2, .fin 3, .fin 1, .fin 0, .fin 0⟩, by decide +kernel,
      by decide +kernel, by decide +kernel⟩,
    ⟨⟨.fin (1/2), .fin 1, .fin 0, .fin 0, .fin 0⟩, ⟨.fin 2, .fin 3, .fin 1, .fin 0, .fin 0⟩, by decide +kernel,
      by decide +kernel, by decide +kernel, by decide +kernel⟩⟩
  refine (wellFormed_iff _).2 ⟨⟨10, 20, rfl, rfl, by norm_num, by norm_num, by norm_num, by norm_num⟩,
    [⟨1, 2, 0⟩, ⟨3, 4, 0⟩], rfl, ?_, ?_⟩
  · intro g hg
    simp only [List.mem_cons, List.not_mem_nil, or_false] at hg
    rcases hg with rfl | rfl <;> exact ⟨by norm_num, by norm_num, by norm_num, by norm_num⟩
  · simp only [List.pairwise_cons, List.mem_singleton, List.not_mem_nil, List.Pairwise.nil]
    norm_num

end Beyonce
