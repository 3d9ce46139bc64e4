import Verif.Files

/-!
# Lemmas about the file model
-/

namespace Beyonce
namespace FS
variable {K : Type}

@[simp] theorem at?_put (fs : FS K) (p q : Path) (n : Node K) :
    (fs.put p n).at? q = if q = p then some n else fs.at? q := by
  unfold at? put
  rw [List.lookup_cons]
  by_cases h : q = p
  · simp [h]
  · rw [if_neg h]
    have : (q == p) = false := by simpa using h
    rw [this]

theorem at?_rmtree (fs : FS K) (d q : Path) :
    (fs.rmtree d).at? q = if d <+: q then none else fs.at? q := by
  unfold at? rmtree
  induction fs with
  | nil => simp
  | cons e fs ih =>
    obtain ⟨p, n⟩ := e
    rw [List.filter_cons]
    by_cases hp : d <+: p
    · have : (!d.isPrefixOf p) = false := by simpa using hp
      simp only [this, Bool.false_eq_true, if_false, ih]
      by_cases hq : d <+: q
      · simp [hq]
      · simp only [hq, if_false]
        rw [List.lookup_cons]
        have : (q == p) = false := by
          rw [beq_eq_false_iff_ne]; rintro rfl; exact hq hp
        rw [this]
    · have : (!d.isPrefixOf p) = true := by
        rw [Bool.not_eq_true', ← Bool.not_eq_true, List.isPrefixOf_iff_prefix]; exact hp
      simp only [this, if_true, List.lookup_cons]
      by_cases hq : q = p
      · subst hq; simp [hp]
      · have : (q == p) = false := by simpa using hq
        rw [this]; exact ih

/-- What can be at a path after one step. -/
theorem step_at? {fs fs' : FS K} {s : Step K} (h : fs.step s = .ok fs')
    (hs : ∀ d, s ≠ .rmtreeIfExists d) (q : Path) :
    fs'.at? q = fs.at? q ∨ (∃ b, s = .write q b ∧ fs'.at? q = some (.file b)) ∨
    ((s = .mkdir q ∨ s = .mkdirIfMissing q) ∧ fs.at? q = none ∧ fs'.at? q = some .dir) := by
  have hmk : ∀ p, fs.mkdir p = .ok fs' → fs'.at? q = fs.at? q ∨
      (p = q ∧ fs.at? q = none ∧ fs'.at? q = some .dir) := by
    intro p hp
    unfold mkdir at hp
    split_ifs at hp with h1 h2
    cases hp
    rw [at?_put]
    split_ifs with hq
    · subst hq; right; refine ⟨rfl, ?_, rfl⟩
      unfold exists? at h1
      cases hx : fs.at? q <;> simp_all
    · left; rfl
  cases s with
  | mkdir p =>
    rcases hmk p h with h | ⟨rfl, h1, h2⟩
    · exact Or.inl h
    · exact Or.inr (Or.inr ⟨Or.inl rfl, h1, h2⟩)
  | mkdirIfMissing p =>
    simp only [step] at h
    split_ifs at h
    · cases h; exact Or.inl rfl
    · rcases hmk p h with h | ⟨rfl, h1, h2⟩
      · exact Or.inl h
      · exact Or.inr (Or.inr ⟨Or.inr rfl, h1, h2⟩)
  | write p b =>
    simp only [step, write] at h
    split_ifs at h
    cases h
    rw [at?_put]
    split_ifs with hq
    · subst hq; exact Or.inr (Or.inl ⟨b, rfl, rfl⟩)
    · exact Or.inl rfl
  | rmtreeIfExists p => exact absurd rfl (hs p)
  | raise e => simp [step] at h

/-- What can be at a path after some steps: what was there, or what a write put there, or a new
directory. -/
theorem run_at? (fs : FS K) (ss : List (Step K)) (hs : ∀ d, .rmtreeIfExists d ∉ ss) (q : Path) :
    (fs.run ss).2.at? q = fs.at? q ∨
    (∃ b, .write q b ∈ ss ∧ (fs.run ss).2.at? q = some (.file b)) ∨
    ((.mkdir q ∈ ss ∨ .mkdirIfMissing q ∈ ss) ∧ fs.at? q = none ∧
      (fs.run ss).2.at? q = some .dir) := by
  induction ss generalizing fs with
  | nil => exact Or.inl rfl
  | cons s ss ih =>
    simp only [run]
    cases h : fs.step s with
    | error e => exact Or.inl rfl
    | ok fs' =>
      simp only
      have h1 := step_at? h (fun d hd => hs d (hd ▸ List.mem_cons_self)) q
      have h2 := ih fs' (fun d hd => hs d (List.mem_cons_of_mem _ hd))
      rcases h2 with h2 | ⟨b, hb, h2⟩ | ⟨hm, h3, h2⟩
      · rw [h2]
        rcases h1 with h1 | ⟨b, rfl, h1⟩ | ⟨hm, h1, h1'⟩
        · exact Or.inl h1
        · exact Or.inr (Or.inl ⟨b, List.mem_cons_self, h1⟩)
        · refine Or.inr (Or.inr ⟨?_, h1, h1'⟩)
          rcases hm with rfl | rfl
          · exact Or.inl List.mem_cons_self
          · exact Or.inr List.mem_cons_self
      · exact Or.inr (Or.inl ⟨b, List.mem_cons_of_mem _ hb, h2⟩)
      · rcases h1 with h1 | ⟨b, rfl, h1⟩ | ⟨hm', h1, h1'⟩
        · refine Or.inr (Or.inr ⟨hm.imp (List.mem_cons_of_mem _) (List.mem_cons_of_mem _), ?_, h2⟩)
          rw [← h1]; exact h3
        · rw [h1] at h3; cases h3
        · rw [h1'] at h3; cases h3

/-- A path no step writes to, or makes, keeps its node. -/
theorem run_frame (fs : FS K) (ss : List (Step K)) (hs : ∀ d, .rmtreeIfExists d ∉ ss) (q : Path)
    (hw : ∀ b, .write q b ∉ ss) (hm : .mkdir q ∉ ss) (hm' : .mkdirIfMissing q ∉ ss) :
    (fs.run ss).2.at? q = fs.at? q := by
  rcases run_at? fs ss hs q with h | ⟨b, hb, -⟩ | ⟨hb | hb, -⟩
  · exact h
  · exact absurd hb (hw b)
  · exact absurd hb hm
  · exact absurd hb hm'

/-- An existing node that no step writes to stays. -/
theorem run_frame_some (fs : FS K) (ss : List (Step K)) (hs : ∀ d, .rmtreeIfExists d ∉ ss) (q : Path)
    (hw : ∀ b, .write q b ∉ ss) {n : Node K} (h : fs.at? q = some n) :
    (fs.run ss).2.at? q = some n := by
  rcases run_at? fs ss hs q with h' | ⟨b, hb, -⟩ | ⟨-, h0, -⟩
  · rw [h', h]
  · exact absurd hb (hw b)
  · rw [h] at h0; cases h0

theorem run_append (fs : FS K) (ss ts : List (Step K)) :
    fs.run (ss ++ ts) = match fs.run ss with
      | (.ok _, fs') => fs'.run ts
      | (.error e, fs') => (.error e, fs') := by
  induction ss generalizing fs with
  | nil => rfl
  | cons s ss ih =>
    simp only [List.cons_append, run]
    cases fs.step s with
    | error e => rfl
    | ok fs' => exact ih fs'

theorem run_append_ok {fs fs' : FS K} {ss ts : List (Step K)} (h : fs.run (ss ++ ts) = (.ok (), fs')) :
    ∃ f, fs.run ss = (.ok (), f) ∧ f.run ts = (.ok (), fs') := by
  rw [run_append] at h
  cases hr : fs.run ss with
  | mk r f =>
    rw [hr] at h
    cases r with
    | error e => cases h
    | ok u => exact ⟨f, rfl, h⟩

/-- After a successful run that writes `b` to `q` and nothing else to `q` later, `q` holds `b`. -/
theorem run_written {fs fs' : FS K} {ss ts : List (Step K)} {q : Path} {b : Blob K}
    (h : fs.run (ss ++ .write q b :: ts) = (.ok (), fs')) (hs : ∀ d, .rmtreeIfExists d ∉ ts)
    (hw : ∀ b, .write q b ∉ ts) : fs'.at? q = some (.file b) := by
  obtain ⟨f, -, h⟩ := run_append_ok h
  simp only [run] at h
  cases h1 : f.step (.write q b) with
  | error e => rw [h1] at h; cases h
  | ok f' =>
    rw [h1] at h
    have e : f'.at? q = some (.file b) := by
      simp only [step, write] at h1
      split_ifs at h1
      cases h1
      simp
    have := run_frame_some f' ts hs q hw e
    have h' : f'.run ts = (.ok (), fs') := h
    rw [h'] at this
    exact this

theorem load_eq_ok {fs : FS K} {p : Path} {b : Blob K} (h : fs.at? p = some (.file b))
    (hb : b ≠ .torn) : fs.load p = .ok b := by
  unfold load
  rw [h]
  cases b <;> simp_all

theorem load_ok_at? {fs : FS K} {p : Path} {b : Blob K} (h : fs.load p = .ok b) :
    fs.at? p = some (.file b) ∧ b ≠ .torn := by
  unfold load at h
  cases hx : fs.at? p with
  | none => rw [hx] at h; cases h
  | some n =>
    rw [hx] at h
    cases n with
    | dir => cases h
    | file b' => cases b' <;> cases h <;> exact ⟨rfl, by simp⟩

theorem load_congr {fs fs' : FS K} {p : Path} (h : fs.at? p = fs'.at? p) : fs.load p = fs'.load p := by
  unfold load; rw [h]

theorem load_none {fs : FS K} {p : Path} (h : fs.at? p = none) :
    fs.load p = .error .fileNotFoundError := by
  unfold load; rw [h]

theorem load_torn {fs : FS K} {p : Path} (h : fs.at? p = some (.file .torn)) :
    fs.load p = .error .valueError := by
  unfold load; rw [h]

theorem isDir_cons (fs : FS K) (a : String) (l : Path) :
    fs.isDir (a :: l) = true ↔ fs.at? (a :: l) = some .dir := by
  unfold isDir
  cases h : fs.at? (a :: l) with
  | none => simp
  | some n => cases n <;> simp

theorem isDir_iff {fs : FS K} {q : Path} : fs.isDir q = true ↔ q = [] ∨ fs.at? q = some .dir := by
  cases q with
  | nil => simp [isDir]
  | cons a l => rw [isDir_cons]; simp

/-- Writing a file into a directory. -/
theorem step_write_ok {fs : FS K} {dir : Path} {f : String} (b : Blob K)
    (hd : fs.isDir dir = true) (hf : fs.at? (dir ++ [f]) ≠ some .dir) :
    fs.step (.write (dir ++ [f]) b) = .ok (fs.put (dir ++ [f]) (.file b)) := by
  have h2 : fs.isDir (dir ++ [f]) = false := by
    rw [Bool.eq_false_iff]
    intro h
    rcases isDir_iff.1 h with h | h
    · simp at h
    · exact hf h
  simp only [step, write, List.dropLast_concat, hd, h2, if_true, Bool.false_eq_true, if_false]

theorem isDir_put_file {fs : FS K} {d q : Path} {b : Blob K} (hd : fs.isDir d = true)
    (hq : fs.at? q ≠ some .dir) : (fs.put q (.file b)).isDir d = true := by
  rw [isDir_iff] at hd ⊢
  rcases hd with rfl | hd
  · exact Or.inl rfl
  · right
    rw [at?_put, if_neg (by rintro rfl; exact hq hd), hd]

/-- Writing several files into a directory succeeds. -/
theorem run_writes_ok (dir : Path) (ws : List (String × Blob K)) (fs : FS K)
    (hd : fs.isDir dir = true) (hf : ∀ w ∈ ws, fs.at? (dir ++ [w.1]) ≠ some .dir) :
    ∃ fs', fs.run (ws.map fun w => .write (dir ++ [w.1]) w.2) = (.ok (), fs') ∧
      fs'.isDir dir = true := by
  induction ws generalizing fs with
  | nil => exact ⟨fs, rfl, hd⟩
  | cons w ws ih =>
    have hw := hf w List.mem_cons_self
    simp only [List.map_cons, run, step_write_ok w.2 hd hw]
    apply ih
    · exact isDir_put_file hd hw
    · intro v hv
      rw [at?_put]
      split_ifs
      · simp
      · exact hf v (List.mem_cons_of_mem _ hv)

/-- Making a missing directory. -/
theorem step_mkdirIfMissing_ok {fs : FS K} {dir : Path} (h : fs.at? dir = none)
    (hp : fs.isDir dir.dropLast = true) :
    fs.step (.mkdirIfMissing dir) = .ok (fs.put dir .dir) := by
  simp [step, exists?, h, mkdir, hp]

theorem step_mkdirIfMissing_exists {fs : FS K} {dir : Path} {n : Node K} (h : fs.at? dir = some n) :
    fs.step (.mkdirIfMissing dir) = .ok fs := by
  simp [step, exists?, h]

theorem isDir_put_dir (fs : FS K) (dir : Path) : (fs.put dir .dir).isDir dir = true := by
  rw [isDir_iff]; right; simp

end FS
end Beyonce
