import Verif.ConstructorMessages
import Verif.Props.Messages
import Verif.Props.Ring
import Verif.Props.GridParameters
import Verif.Shallot

/-!
# C117: a rejected object blames the first argument that is at fault

`Spec.Demand` is one thing that a constructor demands: what must hold, and what may be said if it does not.
`Spec.Blames` is an error that is about the first demand of a list that is not met.
-/

namespace Beyonce

/-- A demand: what must hold, and which errors with which messages tell that it does not. -/
structure Spec.Demand where
  met : Prop
  message : Err → String → Prop

/-- The error is about the first demand that is not met. -/
def Spec.Blames (demands : List Spec.Demand) (e : Err) (m : String) : Prop :=
  ∃ before d after, demands = before ++ d :: after ∧ (∀ b ∈ before, b.met) ∧ ¬ d.met ∧ d.message e m

/-- The call succeeds only if all demands are met, and an error is about the first one that is not. -/
structure Spec.Judged {α : Type} (call : Except Raised α) (demands : List Spec.Demand) : Prop where
  blames : ∀ e m, call = .error (e, m) → Blames demands e m
  met : ∀ a, call = .ok a → ∀ d ∈ demands, d.met

section
set_option linter.unusedSectionVars false
variable {K : Type} [Field K] [LinearOrder K] [IsStrictOrderedRing K] [FloorRing K]
open Spec

/-- The argument must be a number, an integer if `ci`, within bounds; if it is a number then the message lists
the bounds that it breaks. -/
def Spec.numberDemand (name : String) (ci : Bool) (v : PyVal K) (ex : Bool := false) (l : XF K := .ninf)
    (u : XF K := .pinf) : Spec.Demand where
  met := ∃ x, IsNumber ci v x ∧ ¬ Violates ex l u x
  message e m := ((¬ ∃ x, IsNumber ci v x) ∧ e = .typeError ∧
      m = name ++ " is not of type " ++ if ci then "integer" else "'number'") ∨
    (e = .valueError ∧ ∃ x, IsNumber ci v x ∧
      Spec.Demands ("The " ++ name ++ " argument must be ") ex l u (fun c => c.Broken x) m)

/-- One number must lie above another one. -/
def Spec.orderDemand (low high : String) (a b : PyVal K) : Spec.Demand where
  met := ∃ x y, IsNumber false a x ∧ IsNumber false b y ∧ ¬ LessEq y x
  message e m := e = .valueError ∧ m = high ++ " must be greater than " ++ low

/-- The argument must be a vector of floats within bounds; the message is one of C106. -/
def Spec.vectorDemand (name : String) (v : PyVal K) (l : ℤ) (u : Option ℤ) : Spec.Demand where
  met := ∃ a, v = .arr a ∧ a.dtype = "float64" ∧ a.shape.length = 1 ∧
    ∀ x ∈ a.data, ¬ Less x (.fin (l : K)) ∧ ∀ b, u = some b → ¬ Less (.fin (b : K)) x
  message e m := ArrayComplaint name false v (some (.int l)) (u.map .int) (some "float64") (some (.int 1)) e m

/-- Arrays must have one shape. -/
def Spec.shapesDemand (names : List String) (vs : List (PyVal K)) : Spec.Demand where
  met := ∃ as : List (NpArr K), vs = as.map .arr ∧ ∀ a ∈ as, ∀ b ∈ as, a.shape = b.shape
  message e m := e = .invalidShapeError ∧ ∃ as : List (NpArr K), vs = as.map .arr ∧
    m = joined ", " (List.zipWith (fun n a => n ++ " " ++ shapeText a.shape) names as) ++
      " should all have the same shape."

/-! ## One call after another -/

theorem Spec.Blames.append {ds ds' : List Demand} {e : Err} {m : String} (h : Blames ds e m) :
    Blames (ds ++ ds') e m := by
  obtain ⟨before, d, after, h1, h2⟩ := h
  exact ⟨before, d, after ++ ds', by rw [h1]; simp, h2⟩

theorem Spec.Blames.prepend {ds ds' : List Demand} {e : Err} {m : String} (h : Blames ds e m)
    (hm : ∀ d ∈ ds', d.met) : Blames (ds' ++ ds) e m := by
  obtain ⟨before, d, after, h1, h2, h3⟩ := h
  refine ⟨ds' ++ before, d, after, by rw [h1]; simp, ?_, h3⟩
  intro b hb
  rcases List.mem_append.1 hb with h | h
  · exact hm b h
  · exact h2 b h

theorem judged_one {α : Type} {x : Except Raised α} {d : Demand}
    (he : ∀ e m, x = .error (e, m) → ¬ d.met ∧ d.message e m) (ho : ∀ a, x = .ok a → d.met) :
    Judged x [d] := by
  refine ⟨fun e m h => ⟨[], d, [], rfl, by simp, he e m h⟩, fun a h d' hd => ?_⟩
  rw [List.mem_singleton.1 hd]
  exact ho a h

theorem judged_ok {α : Type} (a : α) : Judged (.ok a : Except Raised α) [] :=
  ⟨(fun _ _ h => by cases h), (fun _ _ _ h => absurd h List.not_mem_nil)⟩

theorem judged_bind {α β : Type} {x : Except Raised α} {f : α → Except Raised β} {ds ds' : List Demand}
    (hx : Judged x ds) (hf : ∀ a, x = .ok a → Judged (f a) ds') : Judged (x >>= f) (ds ++ ds') := by
  cases hxe : x with
  | error r =>
    constructor
    · intro e m h
      cases h
      exact (hx.blames _ _ hxe).append
    · intro a h
      cases h
  | ok a =>
    have := hf a hxe
    constructor
    · intro e m h
      exact (this.blames e m h).prepend (hx.met a hxe)
    · intro b h d hd
      rcases List.mem_append.1 hd with h' | h'
      · exact hx.met a hxe d h'
      · exact this.met b h d h'

theorem judged_cons {α β : Type} {x : Except Raised α} {f : α → Except Raised β} {d : Demand} {ds : List Demand}
    (hx : Judged x [d]) (hf : ∀ a, x = .ok a → Judged (f a) ds) : Judged (x >>= f) (d :: ds) :=
  judged_bind hx hf

/-- A call of `validate.number` with bounds in order meets or blames its demand. -/
theorem number_demand (name : String) (ci ex : Bool) (v lo hi : PyVal K) {l u : XF K}
    (hl : IsNumber false lo l) (hu : IsNumber false hi u) (hne : l ≠ u) (hlu : ¬ Less u l) :
    (∀ e m, Said.number v name (.bool ci) lo hi (.bool ex) = .error (e, m) →
      ¬ (numberDemand name ci v ex l u).met ∧ (numberDemand name ci v ex l u).message e m) ∧
    (∀ w, Said.number v name (.bool ci) lo hi (.bool ex) = .ok w → w = v ∧ (numberDemand name ci v ex l u).met) := by
  constructor
  · intro e m h
    have hne' : ¬ (ex = true ∧ ∃ x, IsNumber ci v x ∧ IsNumber false lo x ∧ IsNumber false hi x) := by
      rintro ⟨-, x, h1, h2, h3⟩
      exact hne (by rw [← isNumber_num hl, ← isNumber_num hu, isNumber_num h2, isNumber_num h3])
    have hc := C106_number_partial ci ex v lo hi name e m hne' h
    cases hc with
    | value h' => exact ⟨fun ⟨x, hx, _⟩ => h' ⟨x, hx⟩, Or.inl ⟨h', rfl, rfl⟩⟩
    | lower _ h' => exact absurd ⟨l, hl⟩ h'
    | upper _ _ h' => exact absurd ⟨u, hu⟩ h'
    | crossed x l' u' h1 h2 h3 h4 =>
      have h5 : l' = l := by rw [← isNumber_num hl, isNumber_num h2]
      have h6 : u' = u := by rw [← isNumber_num hu, isNumber_num h3]
      subst h5 h6
      exact absurd h4 hlu
    | bounds x l' u' m h1 h2 h3 h4 h5 h6 =>
      have h7 : l' = l := by rw [← isNumber_num hl, isNumber_num h2]
      have h8 : u' = u := by rw [← isNumber_num hu, isNumber_num h3]
      subst h7 h8
      refine ⟨?_, Or.inr ⟨rfl, x, h1, h6⟩⟩
      rintro ⟨y, hy, hv⟩
      rw [← isNumber_num hy, isNumber_num h1] at hv
      exact hv h5
  · intro w h
    have hf := C106_same_number v (.bool ci) lo hi (.bool ex) name
    rw [h] at hf
    obtain ⟨h0, x, l', u', h1, h2, h3, h4, h5⟩ := (C01_number_ok_iff ci ex v w lo hi).1 hf.symm
    have h7 : l' = l := by rw [← isNumber_num hl, isNumber_num h2]
    have h8 : u' = u := by rw [← isNumber_num hu, isNumber_num h3]
    subst h7 h8
    exact ⟨h0, x, h1, h5⟩

theorem judged_number (name : String) (ci ex : Bool) (v lo hi : PyVal K) {l u : XF K}
    (hl : IsNumber false lo l) (hu : IsNumber false hi u) (hne : l ≠ u) (hlu : ¬ Less u l) :
    Judged (Said.number v name (.bool ci) lo hi (.bool ex)) [numberDemand name ci v ex l u] :=
  judged_one (number_demand name ci ex v lo hi hl hu hne hlu).1
    (fun w hw => ((number_demand name ci ex v lo hi hl hu hne hlu).2 w hw).2)

theorem number_same {name : String} {ci ex : Bool} {v lo hi w : PyVal K}
    (h : Said.number v name (.bool ci) lo hi (.bool ex) = .ok w) : w = v := by
  have hf := C106_same_number v (.bool ci) lo hi (.bool ex) name
  rw [h] at hf
  exact ((C01_number_ok_iff ci ex v w lo hi).1 hf.symm).1

theorem isNumber_float (x : XF K) : IsNumber false (.float x : PyVal K) x := Or.inr ⟨rfl, .float _⟩

theorem isNumber_int (n : ℤ) (ci : Bool) : IsNumber ci (.int n : PyVal K) (.fin n) :=
  Or.inl ⟨n, .int n, rfl⟩

theorem isNumber_int' (n : ℤ) (x : K) (h : (n : K) = x) : IsNumber false (.int n : PyVal K) (.fin x) := by
  rw [← h]; exact isNumber_int n false

theorem not_less_fin {a b : K} (h : a ≤ b) : ¬ Less (.fin b) (.fin a) := by
  rw [less_iff]; simpa [XF.lt] using h

/-- A number with the code's default bounds and a lower one. -/
theorem judged_above (name : String) (ci : Bool) (v lo : PyVal K) {l : K} (hl : IsNumber false lo (.fin l)) :
    Judged (Said.number v name (.bool ci) lo) [numberDemand name ci v false (.fin l)] :=
  judged_number name ci false v lo (.float .pinf) hl (isNumber_float _) (by simp) (by rw [less_iff]; simp [XF.lt])

/-- Any number. -/
theorem judged_any (name : String) (v : PyVal K) :
    Judged (Said.number v name) [numberDemand name false v] :=
  judged_number name false false v _ _ (isNumber_float _) (isNumber_float _) (by simp)
    (by rw [less_iff]; simp [XF.lt])

theorem judged_between (name : String) (v lo hi : PyVal K) {l u : K} (hl : IsNumber false lo (.fin l))
    (hu : IsNumber false hi (.fin u)) (h : l < u) :
    Judged (Said.number v name (.bool false) lo hi) [numberDemand name false v false (.fin l) (.fin u)] :=
  judged_number name false false v lo hi hl hu (by simp [h.ne]) (not_less_fin h.le)

/-! ## Grid parameters -/

/-- What the constructor of grid parameters demands, in this order. -/
def Spec.parametersDemands (minX maxX numX minY maxY numY maxRf numRf : PyVal K) : List Spec.Demand :=
  [numberDemand "min_x" false minX, numberDemand "max_x" false maxX, orderDemand "min_x" "max_x" minX maxX,
   numberDemand "num_x" true numX false (.fin 1), numberDemand "min_y" false minY,
   numberDemand "max_y" false maxY, orderDemand "min_y" "max_y" minY maxY,
   numberDemand "num_y" true numY false (.fin 1), numberDemand "max_rf" false maxRf false (.fin 1),
   numberDemand "num_rf" true numRf false (.fin 1)]

theorem judged_order {β : Type} (low high m : String) (a b : PyVal K) (hm : m = high ++ " must be greater than " ++ low)
    {x y : XF K} (ha : IsNumber false a x) (hb : IsNumber false b y) {f : Except Raised β} {ds : List Demand}
    (hf : Judged f ds) :
    Judged (if XF.le b.num a.num then .error (.valueError, m) else f) (orderDemand low high a b :: ds) := by
  have h1 := isNumber_num ha
  have h2 := isNumber_num hb
  split
  · rename_i hle
    refine ⟨?_, fun _ h => by cases h⟩
    intro e m' h
    cases h
    refine ⟨[], _, ds, rfl, by simp, ?_, rfl, hm⟩
    rintro ⟨x', y', hx, hy, h⟩
    rw [isNumber_num hx, isNumber_num hy] at hle
    exact h ((lessEq_iff _ _).2 hle)
  · rename_i hle
    have hmet : (orderDemand low high a b).met :=
      ⟨x, y, ha, hb, fun h => hle (by rw [h1, h2]; exact (lessEq_iff _ _).1 h)⟩
    constructor
    · intro e m' h
      exact (hf.blames e m' h).prepend (ds' := [_]) (by simpa using hmet)
    · intro c hc d hd
      rcases List.mem_cons.1 hd with rfl | hd
      · exact hmet
      · exact hf.met c hc d hd

theorem judged_dx (minX maxX numX : PyVal K) : Judged (Said.determineDx minX maxX numX)
    [numberDemand "min_x" false minX, numberDemand "max_x" false maxX, orderDemand "min_x" "max_x" minX maxX,
     numberDemand "num_x" true numX false (.fin 1)] := by
  unfold Said.determineDx
  refine judged_cons (judged_any _ _) fun a ha => judged_cons (judged_any _ _) fun b hb => ?_
  obtain rfl := number_same ha
  obtain rfl := number_same hb
  obtain ⟨x, hx, -⟩ := (judged_any "min_x" a).met _ ha _ (List.mem_singleton.2 rfl)
  obtain ⟨y, hy, -⟩ := (judged_any "max_x" b).met _ hb _ (List.mem_singleton.2 rfl)
  exact judged_order _ _ _ _ _ (by decide) hx hy
    (judged_cons (judged_above _ _ _ _ (isNumber_int' 1 1 (by simp))) fun _ _ => judged_ok _)

theorem judged_dy (minY maxY numY : PyVal K) : Judged (Said.determineDy minY maxY numY)
    [numberDemand "min_y" false minY, numberDemand "max_y" false maxY, orderDemand "min_y" "max_y" minY maxY,
     numberDemand "num_y" true numY false (.fin 1)] := by
  unfold Said.determineDy
  refine judged_cons (judged_any _ _) fun a ha => judged_cons (judged_any _ _) fun b hb => ?_
  obtain rfl := number_same ha
  obtain rfl := number_same hb
  obtain ⟨x, hx, -⟩ := (judged_any "min_y" a).met _ ha _ (List.mem_singleton.2 rfl)
  obtain ⟨y, hy, -⟩ := (judged_any "max_y" b).met _ hb _ (List.mem_singleton.2 rfl)
  exact judged_order _ _ _ _ _ (by decide) hx hy
    (judged_cons (judged_above _ _ _ _ (isNumber_int' 1 1 (by simp))) fun _ _ => judged_ok _)

theorem judged_rf (maxRf numRf : PyVal K) : Judged (Said.determineRf maxRf numRf)
    [numberDemand "max_rf" false maxRf false (.fin 1), numberDemand "num_rf" true numRf false (.fin 1)] := by
  unfold Said.determineRf
  exact judged_cons (judged_above _ _ _ _ (isNumber_int' 1 1 (by simp))) fun _ _ =>
    judged_cons (judged_above _ _ _ _ (isNumber_int' 1 1 (by simp))) fun _ _ => judged_ok _

theorem forget_dx (minX maxX numX : PyVal K) :
    forget (Said.determineDx minX maxX numX) = determineDx minX maxX numX := by
  unfold Said.determineDx determineDx
  simp only [forget_bind, C106_same_number, forget_ite]
  rfl

theorem forget_dy (minY maxY numY : PyVal K) :
    forget (Said.determineDy minY maxY numY) = determineDy minY maxY numY := by
  unfold Said.determineDy determineDy
  simp only [forget_bind, C106_same_number, forget_ite]
  rfl

theorem forget_rf (maxRf numRf : PyVal K) : forget (Said.determineRf maxRf numRf) = determineRf maxRf numRf := by
  unfold Said.determineRf determineRf
  simp only [forget_bind, C106_same_number]
  rfl

/-- **C117** Without messages the constructor of grid parameters is that of C21. -/
theorem C117_same_parameters (minX maxX numX minY maxY numY maxRf numRf : PyVal K) :
    forget (Said.newParameters minX maxX numX minY maxY numY maxRf numRf) =
      GridParams.new minX maxX numX minY maxY numY maxRf numRf := by
  unfold Said.newParameters GridParams.new
  rw [forget_bind, forget_dx]
  congr 1
  funext dx
  rw [forget_bind, forget_dy]
  congr 1
  funext dy
  rw [forget_bind, forget_rf]
  congr 1
  funext rf
  obtain ⟨rf, rfArray⟩ := rf
  dsimp only
  split <;> rename_i h <;> rw [h] <;> rfl

/-- **C117** The constructor of grid parameters succeeds only if all its demands are met; if it raises then it
blames the first argument that does not meet them, by name. -/
theorem C117_parameters (minX maxX numX minY maxY numY maxRf numRf : PyVal K) :
    Judged (Said.newParameters minX maxX numX minY maxY numY maxRf numRf)
      (parametersDemands minX maxX numX minY maxY numY maxRf numRf) := by
  unfold Said.newParameters
  refine judged_bind (judged_dx minX maxX numX) fun dx hdx =>
    judged_bind (judged_dy minY maxY numY) fun dy hdy => ?_
  refine (List.append_nil [numberDemand "max_rf" false maxRf false (.fin 1), _]) ▸
    judged_bind (judged_rf maxRf numRf) fun rf hrf => ?_
  have h1 := forget_dx minX maxX numX
  have h2 := forget_dy minY maxY numY
  rw [hdx] at h1
  rw [hdy] at h2
  obtain ⟨a, b, nx, p1, p2, p3, p4, rfl⟩ := (determineDx_ok_iff _ _ _ _).1 h1.symm
  obtain ⟨c, d, ny, q1, q2, q3, q4, rfl⟩ := (determineDy_ok_iff _ _ _ _).1 h2.symm
  obtain ⟨rf, rfArray⟩ := rf
  dsimp only
  rw [setExtendable_cons _ (linspace_ne_nil _ _ p4.1) (linspace_ne_nil _ _ q4.1)]
  exact judged_ok _

/-! ## Rings -/

/-- The value equals zero; so do numpy's `False` and unsigned zeros, and an array that holds just a zero. -/
def Spec.IsZero (v : PyVal K) : Prop := IsNumber false v (.fin 0) ∨ v = .npBool false ∨ v = .npUInt 0 ∨
  ∃ a : NpArr K, v = .arr a ∧ a.data = [.fin 0]

open Classical in
/-- An inner radius of zero stands for `1e-16`. -/
noncomputable def Spec.radius (v : PyVal K) : PyVal K := if Spec.IsZero v then .float (.fin tiny) else v

/-- The value is an array of two elements or more. -/
def Spec.Several (v : PyVal K) : Prop := ∃ a : NpArr K, v = .arr a ∧ 2 ≤ a.data.length

/-- What the setters of a ring demand, for the outer or inner radius that the ring has. -/
noncomputable def Spec.innerDemand (v : PyVal K) (upper : XF K) : Spec.Demand :=
  numberDemand "inner_radius" false (radius v) true (.fin 0) upper

@[inherit_doc Spec.innerDemand]
def Spec.outerDemand (v : PyVal K) (lower : XF K) : Spec.Demand := numberDemand "outer_radius" false v true lower

@[inherit_doc Spec.innerDemand]
def Spec.transmissionDemand (v : PyVal K) : Spec.Demand := numberDemand "transmission" false v false (.fin 0) (.fin 1)

@[inherit_doc Spec.innerDemand]
def Spec.inclinationDemand (v : PyVal K) : Spec.Demand := numberDemand "inclination" false v false (.fin 0) (.fin 90)

@[inherit_doc Spec.innerDemand]
def Spec.tiltDemand (v : PyVal K) : Spec.Demand := numberDemand "tilt" false v false (.fin (-180)) (.fin 180)

/-- What the constructor of a ring demands, in this order. -/
noncomputable def Spec.ringDemands (inner outer transmission inclination tilt : PyVal K) : List Spec.Demand :=
  [innerDemand inner .pinf, outerDemand outer (radius inner).num, transmissionDemand transmission,
   inclinationDemand inclination, tiltDemand tilt]

/-- What a setter of a ring demands. -/
noncomputable def Spec.setterDemand (self : RingObj K) : RingOp K → Spec.Demand
  | .inner v => innerDemand v self.outer
  | .outer v => outerDemand v self.inner
  | .transmission v => transmissionDemand v
  | .inclination v => inclinationDemand v
  | .tilt v => tiltDemand v

open Classical in
theorem said_eqZero (v : PyVal K) (h : ¬ Several v) : Said.eqZero v = .ok (decide (IsZero v)) := by
  have hx : ∀ x : XF K, XF.eqb x (.fin 0) = decide (x = .fin 0) := by
    intro x
    cases x <;> simp [XF.eqb]
  have harr : ∀ a : NpArr K, IsZero (.arr a : PyVal K) ↔ a.data = [.fin 0] := by
    intro a
    constructor
    · rintro ((⟨_, h, _⟩ | ⟨_, h⟩) | h | h | ⟨b, hb, h⟩)
      · cases h
      · cases h
      · cases h
      · cases h
      · cases hb; exact h
    · intro h
      exact Or.inr (Or.inr (Or.inr ⟨a, rfl, h⟩))
  have hnum : ∀ (w : PyVal K) (x : XF K), IsNumber false w x → (IsZero w ↔ x = .fin 0) := by
    intro w x h1
    constructor
    · rintro (h | rfl | rfl | ⟨a, rfl, _⟩)
      · exact isNumber_unique h1 h
      all_goals rcases h1 with ⟨_, h, _⟩ | ⟨_, h⟩ <;> cases h
    · rintro rfl
      exact Or.inl h1
  have hno : ∀ v : PyVal K, v = .none ∨ (∃ t, v = .str t) ∨ (∃ t, v = .obj t) → ¬ IsZero v := by
    rintro v (rfl | ⟨t, rfl⟩ | ⟨t, rfl⟩) ((⟨_, h, _⟩ | ⟨_, h⟩) | h | h | ⟨b, h, _⟩) <;> cases h
  cases v with
  | arr a =>
    unfold Said.eqZero
    simp only [harr]
    cases hd : a.data with
    | nil => simp
    | cons x l =>
      cases l with
      | cons y l => exact absurd ⟨a, rfl, by rw [hd]; simp⟩ h
      | nil => simp [hx]
  | none => simp [Said.eqZero, hno]
  | str t => simp [Said.eqZero, hno]
  | obj t => simp [Said.eqZero, hno]
  | bool b =>
    have hn : IsNumber false (.bool b : PyVal K) (PyVal.bool b : PyVal K).num := by
      cases b
      · exact Or.inl ⟨0, .false, by simp [PyVal.num]⟩
      · exact Or.inl ⟨1, .true, by simp [PyVal.num]⟩
    simp [Said.eqZero, hx, hnum _ _ hn]
  | npBool b =>
    have : IsZero (.npBool b : PyVal K) ↔ b = false := by
      constructor
      · rintro ((⟨_, h, _⟩ | ⟨_, h⟩) | h | h | ⟨b, h, _⟩) <;> cases h
        rfl
      · rintro rfl
        exact Or.inr (Or.inl rfl)
    simp only [this]
    cases b <;> simp [Said.eqZero, hx, PyVal.num]
  | int n => simp [Said.eqZero, hx, PyVal.num, hnum _ _ (isNumber_int n false)]
  | npInt w n =>
    simp [Said.eqZero, hx, PyVal.num, hnum _ _ (Or.inl ⟨n, .npInt w n, rfl⟩)]
  | npUInt n =>
    have : IsZero (.npUInt n : PyVal K) ↔ n = 0 := by
      constructor
      · rintro ((⟨_, h, _⟩ | ⟨_, h⟩) | h | h | ⟨b, h, _⟩) <;> cases h
        rfl
      · rintro rfl
        exact Or.inr (Or.inr (Or.inl rfl))
    simp [Said.eqZero, hx, PyVal.num, this]
  | float x => simp [Said.eqZero, hx, PyVal.num, hnum _ _ (isNumber_float x)]
  | npFloat w x => simp [Said.eqZero, hx, PyVal.num, hnum _ _ (Or.inr ⟨rfl, .npFloat w x⟩)]

theorem said_checkInner (v : PyVal K) (upper : XF K) (h : ¬ Several v) : Said.checkInner upper v = (do
    let w ← Said.number (radius v) "inner_radius" (.bool false) (.float (.fin 0)) (.float upper) (.bool true)
    .ok w.num) := by
  unfold Said.checkInner radius
  rw [said_eqZero v h]
  by_cases hz : IsZero v <;> simp [hz, bind, Except.bind]

theorem judged_inner (v : PyVal K) (upper : XF K) (h : ¬ Several v) (hu : ¬ LessEq upper (.fin 0)) :
    Judged (Said.checkInner upper v) [innerDemand v upper] := by
  rw [said_checkInner v upper h]
  refine judged_cons (judged_number _ _ _ _ _ _ (isNumber_float _) (isNumber_float _) ?_ ?_) fun _ _ => judged_ok _
  · rintro rfl
    exact hu ((lessEq_iff _ _).2 (by simp [XF.le]))
  · rw [less_iff]
    rw [lessEq_iff] at hu
    cases upper <;> simp_all [XF.le, XF.lt]
    exact hu.le

theorem checkInner_num {v : PyVal K} {upper x : XF K} (h : ¬ Several v) (hc : Said.checkInner upper v = .ok x) :
    x = (radius v).num := by
  rw [said_checkInner v upper h] at hc
  cases hn : Said.number (radius v) "inner_radius" (.bool false) (.float (.fin 0)) (.float upper) (.bool true) with
  | error e => rw [hn] at hc; cases hc
  | ok w =>
    rw [hn] at hc
    rw [number_same hn] at hc
    cases hc
    rfl

theorem judged_outer (v : PyVal K) (lower : XF K) (h : lower ≠ .pinf) :
    Judged (Said.checkOuter lower v) [outerDemand v lower] := by
  unfold Said.checkOuter
  refine judged_cons (judged_number _ _ _ _ _ _ (isNumber_float _) (isNumber_float _) h ?_) fun _ _ => judged_ok _
  rw [less_iff]
  cases lower <;> simp [XF.lt]

theorem judged_transmission (v : PyVal K) : Judged (Said.checkTransmission v) [transmissionDemand v] := by
  unfold Said.checkTransmission
  exact judged_cons (judged_between _ _ _ _ (isNumber_float _) (isNumber_float _) (by norm_num)) fun _ _ => judged_ok _

theorem judged_inclination (v : PyVal K) : Judged (Said.checkInclination v) [inclinationDemand v] := by
  unfold Said.checkInclination
  exact judged_cons (judged_between _ _ _ _ (isNumber_int' 0 0 (by simp)) (isNumber_int' 90 90 (by simp))
    (by norm_num)) fun _ _ => judged_ok _

theorem judged_tilt (v : PyVal K) : Judged (Said.checkTilt v) [tiltDemand v] := by
  unfold Said.checkTilt
  exact judged_cons (judged_between _ _ _ _ (isNumber_int' (-180) (-180) (by simp)) (isNumber_int' 180 180 (by simp))
    (by norm_num)) fun _ _ => judged_ok _

theorem inner_finite {v : PyVal K} (h : (innerDemand v .pinf).met) : (radius v).num ≠ .pinf := by
  obtain ⟨x, hx, hv⟩ := h
  rw [isNumber_num hx]
  rintro rfl
  exact hv (Or.inr ((lessEq_iff _ _).2 rfl))

/-- **C117 (partial)** The constructor of a ring succeeds only if all its demands are met; if it raises then it
blames the first argument that does not meet them, by name, and lists the bounds that it breaks.  Missing for
the full claim: an array of several values as the inner radius (`C117_false_array`). -/
theorem C117_ring_partial (inner outer transmission inclination tilt : PyVal K) (h : ¬ Several inner) :
    Judged (Said.newRing inner outer transmission inclination tilt)
      (ringDemands inner outer transmission inclination tilt) := by
  unfold Said.newRing ringDemands
  have hp : ¬ LessEq .pinf (.fin (0 : K)) := by rw [lessEq_iff]; simp [XF.le]
  refine judged_cons (judged_inner _ _ h hp) fun i hi => ?_
  obtain rfl := checkInner_num h hi
  have hm := inner_finite ((judged_inner inner .pinf h hp).met _ hi _ (List.mem_singleton.2 rfl))
  exact judged_cons (judged_outer _ _ hm) fun _ _ => judged_cons (judged_transmission _) fun _ _ =>
    judged_cons (judged_inclination _) fun _ _ => judged_cons (judged_tilt _) fun _ _ => judged_ok _

/-- **C117 (partial)** A setter of a ring that raises says what is wrong with the value.  Missing for the full
claim: arrays as inner radius, and rings whose outer radius is not positive or whose inner radius is infinite,
which are made with NaN (`C117_false_setter`). -/
theorem C117_setter_partial (self : RingObj K) (op : RingOp K) (ho : ¬ LessEq self.outer (.fin 0))
    (hi : self.inner ≠ .pinf) (hs : ∀ v, op = .inner v → ¬ Several v) :
    Judged (Said.setter self op) [setterDemand self op] := by
  cases op with
  | inner v => exact judged_inner v _ (hs v rfl) ho
  | outer v => exact judged_outer v _ hi
  | transmission v => exact judged_transmission v
  | inclination v => exact judged_inclination v
  | tilt v => exact judged_tilt v

/-! ## Ring systems -/

/-- What the constructor of a ring system demands of its arguments, in this order. -/
def Spec.systemDemands (planet innerRadii outerRadii transmissions inclination tilt : PyVal K) :
    List Spec.Demand :=
  [numberDemand "planet_radius" false planet false (.fin 0), inclinationDemand inclination, tiltDemand tilt,
   vectorDemand "inner_radii" innerRadii 0 none, vectorDemand "outer_radii" outerRadii 0 none,
   vectorDemand "transmissions" transmissions 0 (some 1),
   shapesDemand ["inner_radii", "outer_radii", "transmissions"] [innerRadii, outerRadii, transmissions]]

/-- What it then demands of the radii of the rings, one ring after the other. -/
noncomputable def Spec.radiiDemands (radii : List (XF K × XF K)) : List Spec.Demand :=
  radii.flatMap fun r => [innerDemand (.npFloat .w64 r.1) .pinf,
    outerDemand (.npFloat .w64 r.2) (radius (.npFloat .w64 r.1)).num]

theorem judged_vector (name : String) (v : PyVal K) (l : ℤ) (u : Option ℤ) (h : ∀ b, u = some b → l ≤ b) :
    Judged (Said.array v name (.int l) (optArg (u.map .int)) (.bool false) (.str "float64") (.int 1))
      [vectorDemand name v l u] := by
  have key : ∀ (a : NpArr K) (l' u' : XF K), IsNumber false (.int l : PyVal K) l' →
      IsNumber false ((u.map PyVal.int).getD (.float .pinf) : PyVal K) u' →
      ((∀ x ∈ a.data, ¬ Violates false l' u' x) ↔
        ∀ x ∈ a.data, ¬ Less x (.fin (l : K)) ∧ ∀ b, u = some b → ¬ Less (.fin (b : K)) x) := by
    intro a l' u' hl hu
    obtain rfl := isNumber_unique hl (isNumber_int l false)
    refine forall₂_congr fun x _ => ?_
    unfold Violates
    cases u with
    | none =>
      obtain rfl := isNumber_unique hu (isNumber_float _)
      simp only [Bool.false_eq_true, if_false, not_or]
      refine and_congr_right fun _ => ⟨(fun _ b hb => by cases hb), fun _ => ?_⟩
      rw [less_iff]
      cases x <;> simp [XF.lt]
    | some b =>
      obtain rfl := isNumber_unique hu (isNumber_int b false)
      simp
  apply judged_one
  · intro e m he
    have hc := C106_array false v (some (.int l)) (u.map .int) (some (.int 1)) (some "float64") name e m
      (by simp) (by cases u <;> simp) (by simp) he
    refine ⟨?_, hc⟩
    rintro ⟨a, rfl, h1, h2, h3⟩
    have hord : ∀ l' u', IsNumber false (.int l : PyVal K) l' →
        IsNumber false ((u.map PyVal.int).getD (.float .pinf) : PyVal K) u' → ¬ Less u' l' := by
      intro l' u' hl hu
      obtain rfl := isNumber_unique hl (isNumber_int l false)
      rw [less_iff]
      cases u with
      | none =>
        obtain rfl := isNumber_unique hu (isNumber_float _)
        simp [XF.lt]
      | some b =>
        obtain rfl := isNumber_unique hu (isNumber_int b false)
        have := h b rfl
        simp [XF.lt, this]
    cases hc with
    | array h' => exact h' ⟨a, rfl⟩
    | lower a' b _ hb h' => cases hb; exact h' ⟨_, isNumber_int l false⟩
    | upper a' b _ hb h' _ =>
      cases u with
      | none => cases hb
      | some c => cases hb; exact h' ⟨_, isNumber_int c false⟩
    | crossed a' l' u' _ hl hu h' => exact hord l' u' hl hu h'
    | bounds a' l' u' m ha hl hu _ h' _ =>
      cases ha
      obtain ⟨x, hx, hv⟩ := h'
      exact (key a l' u' hl hu).2 h3 x hx hv
    | noDimensions a' d _ hd h' => cases hd; exact h' ⟨1, .int 1⟩
    | dimensions a' d n ha hd hn h' =>
      cases ha; cases hd; cases hn
      exact h' (by rw [h2]; rfl)
    | dtype a' d ha hd h' => cases ha; cases hd; exact h' h1
  · intro a ha
    have hf := C106_same_array v (.int l) (optArg (u.map .int)) (.bool false) (.str "float64") (.int 1) name
    rw [ha] at hf
    obtain ⟨rfl, hfit⟩ := (C03_array_ok_iff false v a (some (.int l)) (u.map .int) (some (.int 1)) (some "float64")
      (by simp) (by cases u <;> simp) (by simp)).1 hf.symm
    obtain ⟨l', u', hl, hu, -, hx⟩ := hfit.bounds (Or.inl rfl)
    obtain ⟨n, hn, hd⟩ := hfit.dims _ rfl
    cases hn
    refine ⟨a, rfl, hfit.type _ rfl, ?_, (key a l' u' hl hu).1 hx⟩
    exact_mod_cast hd

theorem judged_shapes (names : List String) (vs : List (PyVal K)) (h1 : 2 ≤ vs.length)
    (h2 : names.length = vs.length) (h3 : ∃ as : List (NpArr K), vs = as.map .arr) :
    Judged (Said.sameShapeArrays vs names) [shapesDemand names vs] := by
  have hf := C106_same_shapes vs names
  apply judged_one
  · intro e m he
    have hne : ¬ (shapesDemand names vs).met := by
      rintro ⟨as, h4, h5⟩
      rw [he, (C04_sameShapeArrays_iff vs names.length).2 ⟨h1, h2, as, h4, h5⟩] at hf
      cases hf
    have hee : e = .invalidShapeError := by
      obtain ⟨as, rfl⟩ := h3
      rw [he] at hf
      unfold sameShapeArrays at hf
      rw [if_neg (by omega), if_neg (by omega)] at hf
      cases as with
      | nil => simp at h1
      | cons a as =>
        obtain ⟨b, hb⟩ : ∃ b : Bool, b = true ↔ false = true ∨ ∃ c ∈ a :: as, c.shape ≠ a.shape := by
          by_cases hq : false = true ∨ ∃ c ∈ a :: as, c.shape ≠ a.shape
          · exact ⟨true, by simpa using hq⟩
          · exact ⟨false, by simpa using hq⟩
        have hl := (sameShapeLoop_ok a.shape ((a :: as).map PyVal.arr) false b).2 ⟨_, rfl, hb⟩
        rw [List.map_cons] at hl hf
        have hs : PyVal.shape (.arr a : PyVal K) = .ok a.shape := rfl
        simp only [hs, hl, bind, Except.bind] at hf
        cases b
        · cases hf
        · cases hf
          rfl
    subst hee
    obtain ⟨as, h4, -, -, h5⟩ := C106_shapes vs names m he
    exact ⟨hne, rfl, as, h4, h5⟩
  · intro a ha
    rw [ha] at hf
    exact ((C04_sameShapeArrays_iff vs names.length).1 hf.symm).2.2

theorem several_npFloat (x : XF K) : ¬ Several (.npFloat .w64 x : PyVal K) := by
  rintro ⟨a, h, -⟩
  cases h

/-- If transmission, inclination and tilt are fine then a ring can only be refused for its radii. -/
theorem judged_radii (i o t inc tilt : PyVal K) (h : ¬ Several i) (ht : (transmissionDemand t).met)
    (hi : (inclinationDemand inc).met) (hp : (tiltDemand tilt).met) :
    Judged (Said.newRing i o t inc tilt) [innerDemand i .pinf, outerDemand o (radius i).num] := by
  have hj := C117_ring_partial i o t inc tilt h
  refine ⟨fun e m he => ?_, fun a ha d hd => hj.met a ha d (by
    rcases List.mem_cons.1 hd with rfl | hd
    · simp [ringDemands]
    · rw [List.mem_singleton.1 hd]; simp [ringDemands])⟩
  obtain ⟨before, d, after, h1, h2, h3, h4⟩ := hj.blames e m he
  unfold ringDemands at h1
  rcases before with _ | ⟨d1, _ | ⟨d2, _ | ⟨d3, _ | ⟨d4, _ | ⟨d5, before⟩⟩⟩⟩⟩ <;> simp at h1
  · exact ⟨[], d, [_], by rw [h1.1]; rfl, by simp, h3, h4⟩
  · refine ⟨[d1], d, [], by rw [h1.1, h1.2.1]; rfl, by simpa using h2 d1 (by simp), h3, h4⟩
  · exact absurd (h1.2.2.1 ▸ ht) h3
  · exact absurd (h1.2.2.2.1 ▸ hi) h3
  · exact absurd (h1.2.2.2.2.1 ▸ hp) h3

theorem judged_rings (inc tilt : XF K) (hi : (inclinationDemand (.float inc)).met)
    (hp : (tiltDemand (.float tilt)).met) (l : List (XF K × XF K × XF K))
    (ht : ∀ r ∈ l, (transmissionDemand (.npFloat .w64 r.2.2)).met) :
    Judged (Said.buildRings inc tilt l) (radiiDemands (l.map fun r => (r.1, r.2.1))) := by
  induction l with
  | nil => exact judged_ok _
  | cons r l ih =>
    obtain ⟨i, o, t⟩ := r
    unfold Said.buildRings
    unfold radiiDemands at ih ⊢
    rw [List.map_cons, List.flatMap_cons]
    refine judged_bind (judged_radii _ _ _ _ _ (several_npFloat _) (ht _ (List.mem_cons_self ..)) hi hp)
      fun _ _ => ?_
    rw [← List.append_nil (List.flatMap _ _)]
    exact judged_bind (ih fun r hr => ht r (List.mem_cons_of_mem _ hr)) fun _ _ => judged_ok _

/-- The elements of an argument that is a vector. -/
def Spec.entries (v : PyVal K) : List (XF K) :=
  match v with
  | .arr a => a.data
  | _ => []

/-- **C117 (partial)** The constructor of a ring system succeeds only if its arguments meet its demands and the
rings have radii in order; if it raises then it blames the first argument or radius that does not.  Missing for
the full claim: the radii are blamed under names that are not those of the arguments (`C117_false_system`). -/
theorem C117_system_partial (planet innerRadii outerRadii transmissions inclination tilt : PyVal K) :
    Judged (Said.newSystem planet innerRadii outerRadii transmissions inclination tilt)
      (systemDemands planet innerRadii outerRadii transmissions inclination tilt ++
        radiiDemands (((entries innerRadii).zip ((entries outerRadii).zip (entries transmissions))).map
          fun r => (r.1, r.2.1))) := by
  unfold Said.newSystem systemDemands
  have hb1 := judged_between "inclination" inclination (.float (.fin (0 : K))) (.float (.fin 90))
    (isNumber_float _) (isNumber_float _) (by norm_num)
  have hb2 := judged_between "tilt" tilt (.float (.fin (-180 : K))) (.float (.fin 180))
    (isNumber_float _) (isNumber_float _) (by norm_num)
  refine judged_cons (judged_above _ _ _ _ (isNumber_float _)) fun p hp => judged_cons hb1 fun inc hinc =>
    judged_cons hb2 fun phi hphi =>
    judged_cons (judged_vector "inner_radii" innerRadii 0 none (by simp)) fun i hi =>
    judged_cons (judged_vector "outer_radii" outerRadii 0 none (by simp)) fun o ho =>
    judged_cons (judged_vector "transmissions" transmissions 0 (some 1) (by simp)) fun t ht => ?_
  have arr : ∀ (v : PyVal K) (name : String) (u : Option ℤ) (a : NpArr K),
      Said.array v name (.int 0) (optArg (u.map .int)) (.bool false) (.str "float64") (.int 1) = .ok a →
      v = .arr a := by
    intro v name u a ha
    have hf := C106_same_array v (.int 0) (optArg (u.map .int)) (.bool false) (.str "float64") (.int 1) name
    rw [ha] at hf
    exact ((C03_array_ok_iff false v a (some (.int 0)) (u.map .int) (some (.int 1)) (some "float64")
      (by simp) (by cases u <;> simp) (by simp)).1 hf.symm).1
  obtain rfl := arr _ _ none _ hi
  obtain rfl := arr _ _ none _ ho
  obtain rfl := arr _ _ (some 1) _ ht
  refine judged_cons (judged_shapes _ _ (by simp) (by simp) ⟨[i, o, t], rfl⟩) fun u hu => ?_
  have fl : ∀ (name : String) (v : PyVal K) (l u : K), (numberDemand name false v false (.fin l) (.fin u)).met →
      (numberDemand name false (.float v.num) false (.fin l) (.fin u)).met := by
    rintro name v l u ⟨x, hx, hv⟩
    rw [isNumber_num hx]
    exact ⟨x, isNumber_float x, hv⟩
  have h1 := hb1.met _ hinc _ (List.mem_singleton.2 rfl)
  have h2 := hb2.met _ hphi _ (List.mem_singleton.2 rfl)
  obtain ⟨t', ht', -, -, h3⟩ := (judged_vector "transmissions" (.arr t) 0 (some 1) (by simp)).met _ ht _
    (List.mem_singleton.2 rfl)
  cases ht'
  rw [number_same hinc, number_same hphi]
  show Judged _ (radiiDemands ((i.data.zip (o.data.zip t.data)).map fun r => (r.1, r.2.1)))
  rw [← List.append_nil (radiiDemands _)]
  refine judged_bind (judged_rings _ _ (fl _ _ _ _ h1) (fl _ _ _ _ h2) _ ?_) fun _ _ => judged_ok _
  intro r hr
  have hm : r.2.2 ∈ t.data := (List.of_mem_zip (List.of_mem_zip hr).2).2
  obtain ⟨h4, h5⟩ := h3 _ hm
  refine ⟨r.2.2, Or.inr ⟨rfl, .npFloat .w64 _⟩, ?_⟩
  have h6 := h5 1 rfl
  simp only [Int.cast_zero, Int.cast_one] at h4 h6
  rintro (h | h)
  · exact h4 h
  · exact h6 h

/-- **C117** Without messages the constructors and setters are those of C05, C06 and C08. -/
theorem C117_same_rings : (∀ i o t inc tilt : PyVal K, forget (Said.newRing i o t inc tilt) = newRing i o t inc tilt) ∧
    (∀ (self : RingObj K) (op : RingOp K), forget (Said.setter self op) = match op with
      | .inner v => checkInner self.outer v
      | .outer v => checkOuter self.inner v
      | .transmission v => checkTransmission v
      | .inclination v => checkInclination v
      | .tilt v => checkTilt v) ∧
    ∀ p i o t inc tilt : PyVal K, forget (Said.newSystem p i o t inc tilt) = newSystem p i o t inc tilt := by
  have hz : ∀ v : PyVal K, forget (Said.eqZero v) = eqZero v := by
    intro v
    cases v with
    | arr a =>
      unfold Said.eqZero eqZero
      rcases hd : a.data with _ | ⟨x, _ | ⟨y, l⟩⟩ <;> simp only [hd] <;> rfl
    | _ => rfl
  have h1 : ∀ (u : XF K) (v : PyVal K), forget (Said.checkInner u v) = checkInner u v := by
    intro u v
    unfold Said.checkInner checkInner
    simp only [forget_bind, hz, C106_same_number]
    rfl
  have h2 : ∀ (u : XF K) (v : PyVal K), forget (Said.checkOuter u v) = checkOuter u v := by
    intro u v
    unfold Said.checkOuter checkOuter
    simp only [forget_bind, C106_same_number]
    rfl
  have h3 : ∀ (v : PyVal K), forget (Said.checkTransmission v) = checkTransmission v := by
    intro v
    unfold Said.checkTransmission checkTransmission
    simp only [forget_bind, C106_same_number]
    rfl
  have h4 : ∀ (v : PyVal K), forget (Said.checkInclination v) = checkInclination v := by
    intro v
    unfold Said.checkInclination checkInclination
    simp only [forget_bind, C106_same_number]
    rfl
  have h5 : ∀ (v : PyVal K), forget (Said.checkTilt v) = checkTilt v := by
    intro v
    unfold Said.checkTilt checkTilt
    simp only [forget_bind, C106_same_number]
    rfl
  have h6 : ∀ i o t inc tilt : PyVal K, forget (Said.newRing i o t inc tilt) = newRing i o t inc tilt := by
    intro i o t inc tilt
    unfold Said.newRing newRing
    simp only [forget_bind, h1, h2, h3, h4, h5]
    rfl
  have h7 : ∀ (inc tilt : XF K) l, forget (Said.buildRings inc tilt l) = buildRings inc tilt l := by
    intro inc tilt l
    induction l with
    | nil => rfl
    | cons r l ih =>
      obtain ⟨i, o, t⟩ := r
      unfold Said.buildRings buildRings
      simp only [forget_bind, h6, ih]
      rfl
  refine ⟨h6, ?_, ?_⟩
  · intro self op
    cases op with
    | inner v => exact h1 _ v
    | outer v => exact h2 _ v
    | transmission v => exact h3 v
    | inclination v => exact h4 v
    | tilt v => exact h5 v
  · intro p i o t inc tilt
    unfold Said.newSystem newSystem
    simp only [forget_bind, C106_same_number, C106_same_array, C106_same_shapes, h7]
    rfl

/-! ## The eclipse -/

/-- **C117** `set_eclipse_parameters` raises exactly if the call with messages does, with the same class; it
then blames the first of its three arguments that is no number or out of bounds, by name. -/
theorem C117_eclipse (duration velocity limb : PyVal K) :
    (∀ (s : Shallot K) (e : Err), (∃ s', Shallot.setEclipseParameters duration velocity limb s = (.error e, s')) ↔
      ∃ m, Said.eclipse duration velocity limb = .error (e, m)) ∧
    Judged (Said.eclipse duration velocity limb)
      [numberDemand "eclipse_duration" false duration false (.fin 0),
       numberDemand "transverse_velocity" false velocity false (.fin 0),
       numberDemand "limb_darkening" false limb false (.fin 0) (.fin 1)] := by
  constructor
  · intro s e
    have h1 := C106_same_number duration (.bool false) (.float (.fin 0)) (.float .pinf) (.bool false) "eclipse_duration"
    have h2 := C106_same_number velocity (.bool false) (.float (.fin 0)) (.float .pinf) (.bool false) "transverse_velocity"
    have h3 := C106_same_number limb (.bool false) (.float (.fin 0)) (.float (.fin 1)) (.bool false) "limb_darkening"
    unfold Said.eclipse Shallot.setEclipseParameters Shallot.storeEclipse
    simp only [← h1, ← h2, ← h3]
    cases Said.number duration "eclipse_duration" (.bool false) (.float (.fin 0)) (.float .pinf) (.bool false) with
    | error r =>
      obtain ⟨e', m⟩ := r
      simp [forget, bind, Except.bind]
    | ok d =>
    cases Said.number velocity "transverse_velocity" (.bool false) (.float (.fin 0)) (.float .pinf) (.bool false) with
    | error r =>
      obtain ⟨e', m⟩ := r
      simp [forget, bind, Except.bind]
    | ok d =>
    cases Said.number limb "limb_darkening" (.bool false) (.float (.fin 0)) (.float (.fin 1)) (.bool false) with
    | error r =>
      obtain ⟨e', m⟩ := r
      simp [forget, bind, Except.bind]
    | ok u =>
      cases hg : s.gradients with
      | none => simp [forget, hg, bind, Except.bind]
      | some l => simp [forget, hg, Shallot.resetFit, bind, Except.bind]
  · unfold Said.eclipse
    exact judged_cons (judged_above _ _ _ _ (isNumber_float _)) fun _ _ =>
      judged_cons (judged_above _ _ _ _ (isNumber_float _)) fun _ _ =>
      judged_cons (judged_between _ _ _ _ (isNumber_float _) (isNumber_float _) (by norm_num)) fun _ _ => judged_ok _

/-! ## What is not blamed as it should be -/

/-- **C117 is false** of the code for an array of radii: the message does not name the argument. -/
theorem C117_false_array (outer transmission : PyVal K) (x y : XF K) :
    Said.newRing (.arr ⟨"float64", [2], [x, y]⟩) outer transmission = .error (.valueError,
      "The truth value of an array with more than one element is ambiguous. Use a.any() or a.all()") := by
  have : "The truth value of an array with more than one element is ambiguous. " ++ "Use a.any() or a.all()" =
      "The truth value of an array with more than one element is ambiguous. Use a.any() or a.all()" := by decide
  rw [← this]
  rfl

/-- **C117 is false** of the code for a ring with an inner radius of NaN and a negative outer radius, which the
constructor accepts: setting a valid inner radius then blames an upper bound that the caller never gave. -/
theorem C117_false_setter : ∃ r : RingObj ℚ,
    Said.newRing (.float .nan) (.int (-5)) (.int 1) = .ok r ∧
    Said.setter r (.inner (.int 3)) = .error (.valueError,
      "The upper_bound argument (-5.0000) must be greater than the lower_bound (0.0000) argument.") :=
  ⟨⟨.nan, .fin (-5), .fin 1, .fin 0, .fin 0⟩, by decide +kernel, by decide +kernel⟩

/-- **C117 is false** of the code for ring systems: a ring with its radii in the wrong order is refused because
of an `outer_radius`, which is no argument of the constructor, and nothing tells which ring it is. -/
theorem C117_false_system :
    Said.newSystem (.int 1 : PyVal ℚ) (.arr ⟨"float64", [2], [.fin 1, .fin 3]⟩)
      (.arr ⟨"float64", [2], [.fin 2, .fin 3]⟩) (.arr ⟨"float64", [2], [.fin 1, .fin 1]⟩) (.int 0) (.int 0) =
    .error (.valueError, "The outer_radius argument must be greater than 3.0000") := by
  decide +kernel

/-! ## Examples -/

/-- A ring with a transmission of 2 and a tilt of 200 is refused for its transmission. -/
example : Said.newRing (.int 0 : PyVal ℚ) (.int 2) (.int 2) (.int 10) (.int 200) =
    .error (.valueError, "The transmission argument must be less than or equal to 1.0000") := by
  decide +kernel

/-- Limits in the wrong order are noticed before a bad number of values. -/
example : Said.newParameters (.int 2 : PyVal ℚ) (.int 1) (.str "a") (.int 0) (.int 1) (.int 2) (.int 2) (.int 2) =
    .error (.valueError, "max_x must be greater than min_x") := by
  decide +kernel

/-- A number of values that is no integer is named. -/
example : Said.newParameters (.int 0 : PyVal ℚ) (.int 1) (.int 2) (.int 0) (.int 1) (.float (.fin 2)) (.int 2)
    (.int 2) = .error (.typeError, "num_y is not of type integer") := by
  decide +kernel

/-- Good arguments meet the demands. -/
example : (Said.newParameters (.int 0 : PyVal ℚ) (.int 1) (.int 2) (.int 0) (.int 1) (.int 2) (.int 2)
    (.int 2)).isOk = true := by decide +kernel

end
end Beyonce
